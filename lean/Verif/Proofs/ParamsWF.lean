/-
Arithmetic facts about the parameter sets, and positions of columns.
-/
import Verif.Model.Faest
import Verif.Spec.Vole
import Mathlib.Tactic.Common

namespace Faest

/-- Facts about a parameter set used by the proofs. -/
structure PWF (P : Params) : Prop where
  lam : P.lambda = 128 ∨ P.lambda = 192 ∨ P.lambda = 256
  k0pos : 1 ≤ P.k0
  k1pos : 1 ≤ P.k1
  k0le : P.k0 ≤ 12
  k1le : P.k1 ≤ 12
  tau : P.t0 + P.t1 = P.tau
  taupos : 1 ≤ P.tau
  tau32 : P.tau ≤ 32
  cols : P.t0 * P.k0 + P.t1 * P.k1 = P.lambda
  l8 : P.l % 8 = 0
  lpos : 128 ≤ P.l
  lle : P.l ≤ 4000
  sig : offPdec P P.tau + P.lambda / 8 + 16 = P.sigSize

theorem params_wf (i : ParamId) : PWF (params i) := by
  cases i <;> constructor <;> decide

open Spec (colStart treeOf posOf depth)

namespace PWF
variable {P : Params} (h : PWF P)
include h

theorem depth_pos (i : Nat) : 1 ≤ depth P i := by
  unfold depth; have := h.k0pos; have := h.k1pos; split <;> assumption

theorem depth_le (i : Nat) : depth P i ≤ 12 := by
  unfold depth; have := h.k0le; have := h.k1le; split <;> assumption

omit h in
theorem colStart_succ (i : Nat) : colStart P (i + 1) = colStart P i + depth P i := by
  unfold colStart depth
  by_cases h1 : i < P.t0
  · rw [if_pos h1, if_pos h1]
    by_cases h2 : i + 1 < P.t0
    · rw [if_pos h2, Nat.succ_mul]
    · obtain h3 : i + 1 = P.t0 := by omega
      rw [if_neg h2, h3, ← h3, Nat.sub_self, Nat.zero_mul, Nat.succ_mul]; rfl
  · rw [if_neg h1, if_neg h1, if_neg (by omega), show i + 1 - P.t0 = (i - P.t0) + 1 by omega,
      Nat.succ_mul, Nat.add_assoc]

omit h in
theorem colStart_zero : colStart P 0 = 0 := by
  unfold colStart
  split
  · simp
  · have : P.t0 = 0 := by omega
    simp [this]

omit h in
theorem colStart_mono {i j : Nat} (hij : i ≤ j) : colStart P i ≤ colStart P j := by
  induction hij with
  | refl => exact Nat.le_refl _
  | step _ ih => rw [colStart_succ]; omega

theorem colStart_tau : colStart P P.tau = P.lambda := by
  unfold colStart
  have h1 := h.tau
  have h2 := h.cols
  rw [if_neg (by omega), show P.tau - P.t0 = P.t1 by omega, h2]

theorem col_lt {i j : Nat} (hi : i < P.tau) (hj : j < depth P i) : colStart P i + j < P.lambda := by
  have h1 := colStart_succ (P := P) i
  have h2 := colStart_mono (P := P) (i := i + 1) (j := P.tau) hi
  rw [h.colStart_tau] at h2
  omega

theorem treeOf_col {i j : Nat} (hj : j < depth P i) : treeOf P (colStart P i + j) = i := by
  have hk0 := h.k0pos
  have hk1 := h.k1pos
  unfold treeOf colStart
  unfold depth at hj
  by_cases h1 : i < P.t0
  · rw [if_pos h1] at hj ⊢
    have : i * P.k0 + j < P.t0 * P.k0 := by
      have : (i + 1) * P.k0 ≤ P.t0 * P.k0 := Nat.mul_le_mul_right _ h1
      rw [Nat.succ_mul] at this; omega
    rw [if_pos this, Nat.mul_comm, Nat.mul_add_div (by omega), Nat.div_eq_of_lt hj, Nat.add_zero]
  · rw [if_neg h1] at hj ⊢
    rw [if_neg (by omega), show P.t0 * P.k0 + (i - P.t0) * P.k1 + j - P.t0 * P.k0 = P.k1 * (i - P.t0) + j by
      rw [Nat.mul_comm P.k1]; omega, Nat.mul_add_div (by omega), Nat.div_eq_of_lt hj]
    omega

theorem posOf_col {i j : Nat} (hj : j < depth P i) : posOf P (colStart P i + j) = j := by
  unfold posOf
  rw [h.treeOf_col hj]; omega

/-- Every column below `lambda` is a column of some tree. -/
theorem col_exists {p : Nat} (hp : p < P.lambda) :
    ∃ i j, i < P.tau ∧ j < depth P i ∧ p = colStart P i + j := by
  have hk0 := h.k0pos
  have hk1 := h.k1pos
  have h1 := h.tau
  have h2 := h.cols
  by_cases hc : p < P.t0 * P.k0
  · have hlt : p / P.k0 < P.t0 := (Nat.div_lt_iff_lt_mul (by omega)).2 hc
    refine ⟨p / P.k0, p % P.k0, by omega, ?_, ?_⟩
    · unfold depth; rw [if_pos hlt]; exact Nat.mod_lt _ (by omega)
    · unfold colStart; rw [if_pos hlt, Nat.mul_comm, Nat.div_add_mod]
  · have hlt : (p - P.t0 * P.k0) / P.k1 < P.t1 := by
      rw [Nat.div_lt_iff_lt_mul (by omega)]; omega
    refine ⟨P.t0 + (p - P.t0 * P.k0) / P.k1, (p - P.t0 * P.k0) % P.k1, by omega, ?_, ?_⟩
    · unfold depth; rw [if_neg (Nat.not_lt.2 (Nat.le_add_right _ _))]; exact Nat.mod_lt _ (by omega)
    · unfold colStart
      rw [if_neg (Nat.not_lt.2 (Nat.le_add_right _ _)), Nat.add_sub_cancel_left, Nat.mul_comm _ P.k1]
      have := Nat.div_add_mod (p - P.t0 * P.k0) P.k1
      omega

end PWF
end Faest
