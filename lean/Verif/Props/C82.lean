/-
C82: the permutations of Keccak with fewer rounds.
-/
import Verif.Proofs.KeccakRounds

namespace Faest.Props
open Faest.Keccak Spec.Keccak

/-- The 25 lanes of `st` from lane `base` on hold the string `S` of 1600 bits. -/
def C82Str (st : Mem U64) (base : Nat) (S : Str) : Prop :=
  ∀ k (hk : k < 25), ∃ x, rd st (base + k) = some x ∧ ∀ z (hz : z < 64), x.getLsbD z = S ⟨64 * k + z, by omega⟩

/-- Nothing but these lanes differs. -/
def C82Same (st st' : Mem U64) (base : Nat) : Prop :=
  st'.length = st.length ∧ ∀ i, ¬ (base ≤ i ∧ i < base + 25) → rd st' i = rd st i

theorem C82_lanes {st : Mem U64} {base : Nat} {S : Str} (h : C82Str st base S) :
    ∃ g, Has st base 25 g ∧ (lanesOf g).arr = toState S := by
  refine ⟨fun k => (rd st (base + k)).getD 0, ?_, ?_⟩
  · intro k hk
    obtain ⟨x, e, _⟩ := h k hk
    show _ = some ((rd st (base + k)).getD 0)
    rw [e]
    rfl
  · funext x y z
    obtain ⟨v, e, g⟩ := h (5 * y.val + x.val) (by omega)
    unfold Lanes.arr toState
    rw [lanesOf_lane]
    show ((rd st (base + (5 * y.val + x.val))).getD 0).getLsbD z.val = _
    rw [e]
    exact g z.val z.isLt

theorem C82_store {st : Mem U64} {base : Nat} (hl : base + 25 ≤ st.length) {A : Lanes} {R : State} (h : A.arr = R) :
    ∃ st', copyToState st base A = some st' ∧ C82Same st st' base ∧ C82Str st' base (toStr R) := by
  obtain ⟨st', e, g1, g2, g3⟩ := copyToState_ok hl A
  refine ⟨st', e, ⟨g2, fun i hi => g3 i (by omega)⟩, ?_⟩
  intro k hk
  refine ⟨_, g1 k hk, ?_⟩
  intro z hz
  have e1 : (A.fn k).getLsbD z = R ⟨k % 5, by omega⟩ ⟨k / 5 % 5, by omega⟩ ⟨z, hz⟩ := by rw [← h]; rfl
  rw [e1]
  unfold toStr
  congr 1 <;> (apply Fin.ext; show _ = _; simp only []; omega)

/-- **C82, `KeccakP1600_Permute_Nrounds`.** For at most 24 rounds the state afterwards is KECCAK-p[1600, nr] of the state before. -/
theorem C82_rounds {st : Mem U64} {base : Nat} {S : Str} (h : C82Str st base S) {nr : Nat} (hn : nr ≤ 24) :
    ∃ st', permuteN st base nr = some st' ∧ C82Same st st' base ∧ C82Str st' base (keccakPn nr S) := by
  obtain ⟨g, h1, h2⟩ := C82_lanes h
  obtain ⟨A, e, hA⟩ := roundsN_ok hn (lanesOf g)
  rw [h2] at hA
  obtain ⟨st', e', g'⟩ := C82_store (h1.le (by omega)) hA
  refine ⟨st', ?_, g'⟩
  unfold permuteN
  rw [copyFromState_eq h1]
  show (roundsN nr (lanesOf g) >>= _) = _
  rw [e]
  exact e'

/-- **C82, `KeccakP1600_Permute_12rounds`.** -/
theorem C82_12rounds {st : Mem U64} {base : Nat} {S : Str} (h : C82Str st base S) :
    ∃ st', permute12 st base = some st' ∧ C82Same st st' base ∧ C82Str st' base (keccakPn 12 S) := by
  obtain ⟨g, h1, h2⟩ := C82_lanes h
  have hA := rounds12_arr (lanesOf g)
  rw [h2] at hA
  obtain ⟨st', e', g'⟩ := C82_store (h1.le (by omega)) hA
  refine ⟨st', ?_, g'⟩
  unfold permute12
  rw [copyFromState_eq h1]
  exact e'

/-- The specification for 24 rounds is KECCAK-p[1600, 24]. -/
theorem C82_24 (S : Str) : keccakPn 24 S = keccakP S := rfl

/-- **C82, too many rounds.** The difference `24 - nr` wraps: for an odd number the table of constants is read behind its end, which is
undefined, and for an even number no round is done at all. -/
theorem C82_too_many {st : Mem U64} {base : Nat} {S : Str} (h : C82Str st base S) {nr : Nat} (hn : 24 < nr) (h32 : nr < 2 ^ 32) :
    (nr % 2 = 1 → permuteN st base nr = none) ∧
    (nr % 2 = 0 → ∃ st', permuteN st base nr = some st' ∧ C82Same st st' base ∧ C82Str st' base S) := by
  obtain ⟨g, h1, h2⟩ := C82_lanes h
  have e : permuteN st base nr = (roundsN nr (lanesOf g) >>= fun A => copyToState st base A) := by
    unfold permuteN
    rw [copyFromState_eq h1]
    rfl
  rw [e, roundsN_wrap hn h32]
  constructor
  · intro c
    rw [if_pos c]
    rfl
  · intro c
    rw [if_neg (by omega)]
    obtain ⟨st', e', g1, g2⟩ := C82_store (h1.le (by omega)) h2
    refine ⟨st', e', g1, ?_⟩
    have : toStr (toState S) = S := by
      funext i
      unfold toStr toState
      congr 1
      apply Fin.ext
      show _ = _
      simp only []
      omega
    rwa [this] at g2

/-- A state. -/
theorem C82_ex : C82Str (List.replicate 25 (some 1)) 0 (fun i => decide (i.val % 64 = 0)) := by
  intro k hk
  refine ⟨1, ?_, ?_⟩
  · unfold rd
    rw [Nat.zero_add, List.getElem?_replicate, if_pos hk]
    rfl
  · intro z hz
    have b : ∀ z : Fin 64, (1 : U64).getLsbD z.val = decide (z.val = 0) := by decide +kernel
    show _ = decide ((64 * k + z) % 64 = 0)
    rw [show (64 * k + z) % 64 = z by omega]
    exact b ⟨z, hz⟩

/-- One round, and 24. -/
example : (∃ st', permuteN (List.replicate 25 (some 1)) 0 1 = some st' ∧ C82Str st' 0 (keccakPn 1 fun i => decide (i.val % 64 = 0))) ∧
    (∃ st', permuteN (List.replicate 25 (some 1)) 0 24 = some st' ∧ C82Str st' 0 (keccakP fun i => decide (i.val % 64 = 0))) ∧
    permuteN (List.replicate 25 (some 1)) 0 25 = none := by
  obtain ⟨st', e, _, g⟩ := C82_rounds C82_ex (nr := 1) (by omega)
  obtain ⟨st2, e2, _, g2⟩ := C82_rounds C82_ex (nr := 24) (by omega)
  exact ⟨⟨st', e, g⟩, ⟨st2, e2, g2⟩, (C82_too_many C82_ex (nr := 25) (by omega) (by omega)).1 rfl⟩

end Faest.Props
