/-
The permutations with fewer rounds on state arrays.
-/
import Verif.Model.KeccakRounds
import Verif.Spec.KeccakNr
import Verif.Proofs.KeccakState

namespace Faest.Keccak
open Spec.Keccak

theorem rounds12_arr (A : Lanes) : (rounds12 A).arr = (List.range' 12 12).foldl Rnd A.arr := by
  unfold rounds12
  simp only [round_pair, last_eq, round_arr]
  rfl

theorem roundAt_eq {i : Nat} (hi : i < 24) (A : Lanes) :
    roundAt i A (prepareTheta A) = some (round ⟨i, hi⟩ A, prepareTheta (round ⟨i, hi⟩ A)) := by
  unfold roundAt
  rw [dif_pos hi, round_pair]

theorem roundsNLoop_ok : ∀ (fuel m i : Nat) (A : Lanes), m < fuel → i + 2 * m = 24 →
    Ok (roundsNLoop fuel i A (prepareTheta A)) (fun A' => A'.arr = (List.range' i (2 * m)).foldl Rnd A.arr) := by
  intro fuel
  induction fuel with
  | zero => intro m _ _ h; omega
  | succ k ih =>
    intro m i A hm hi
    unfold roundsNLoop
    cases m with
    | zero =>
      rw [if_neg (by omega)]
      exact Ok.some rfl
    | succ m =>
      rw [if_pos (by omega)]
      refine Ok.step (roundAt_eq (by omega) A) ?_
      dsimp only
      refine Ok.step (roundAt_eq (i := i + 1) (by omega) _) ?_
      dsimp only
      rw [show uint (i + 2) = i + 2 by unfold uint; omega]
      refine (ih m (i + 2) _ (by omega) (by omega)).mono ?_
      intro A' h
      rw [h, round_arr, round_arr, show 2 * (m + 1) = 2 * m + 1 + 1 by omega, List.range'_succ, List.range'_succ]
      rfl

theorem roundsN_ok {nr : Nat} (hn : nr ≤ 24) (A : Lanes) :
    Ok (roundsN nr A) (fun A' => A'.arr = (List.range' (24 - nr) nr).foldl Rnd A.arr) := by
  unfold roundsN
  dsimp only
  rw [show uint (24 + 2 ^ 32 - nr) = 24 - nr by unfold uint; omega]
  by_cases h : (24 - nr) % 2 ≠ 0
  · rw [if_pos h]
    refine Ok.step (roundAt_eq (by omega) A) ?_
    dsimp only
    rw [show uint (24 - nr + 1) = 24 - nr + 1 by unfold uint; omega]
    refine (roundsNLoop_ok 13 ((nr - 1) / 2) (24 - nr + 1) _ (by omega) (by omega)).mono ?_
    intro A' e
    have e2 : List.range' (24 - nr) nr = (24 - nr) :: List.range' (24 - nr + 1) (2 * ((nr - 1) / 2)) := by
      rw [← List.range'_succ, show 2 * ((nr - 1) / 2) + 1 = nr by omega]
    rw [e, round_arr, e2]
    rfl
  · rw [if_neg h]
    refine (roundsNLoop_ok 13 (nr / 2) (24 - nr) _ (by omega) (by omega)).mono ?_
    intro A' e
    rw [e, show 2 * (nr / 2) = nr by omega]

/-- Too many rounds: `i` wraps. -/
theorem roundsN_wrap {nr : Nat} (h : 24 < nr) (h32 : nr < 2 ^ 32) (A : Lanes) :
    roundsN nr A = if nr % 2 = 1 then none else some A := by
  have e : uint (24 + 2 ^ 32 - nr) = 24 + 2 ^ 32 - nr := by unfold uint; omega
  unfold roundsN
  dsimp only
  rw [e]
  by_cases c : nr % 2 = 1
  · rw [if_pos (by omega), if_pos c]
    unfold roundAt
    rw [dif_neg (by omega)]
    rfl
  · rw [if_neg (by omega), if_neg c]
    unfold roundsNLoop
    rw [if_neg (by omega)]

end Faest.Keccak
