/-
The multiplication code is multiplication of polynomials over GF(2) modulo the reduction
polynomial.
-/
import Verif.Proofs.FieldRing
import Verif.Spec.Field

namespace Faest
namespace BF

open Polynomial Spec

variable {n : Nat}

theorem two_eq_zero_poly : (2 : (ZMod 2)[X]) = 0 := by
  have h : (2 : (ZMod 2)[X]) = C (2 : ZMod 2) := (map_ofNat C 2).symm
  rw [h, show (2 : ZMod 2) = 0 by decide, C_0]

theorem poly_add_self (p : (ZMod 2)[X]) : p + p = 0 := by
  rw [← two_mul, two_eq_zero_poly, zero_mul]

/-- The reduction polynomial of the code. -/
noncomputable def modPoly (n : Nat) : (ZMod 2)[X] := X ^ n + polyOf (bfModulus n)

theorem polyOf_degree_lt (v : BitVec n) : (polyOf v).degree < (n : WithBot ℕ) := by
  unfold polyOf
  refine lt_of_le_of_lt (degree_sum_le _ _) ?_
  rw [Finset.sup_lt_iff (by exact_mod_cast WithBot.bot_lt_coe n)]
  intro i hi
  rw [Finset.mem_range] at hi
  split
  · rw [degree_X_pow]; exact_mod_cast hi
  · rw [degree_zero]; exact WithBot.bot_lt_coe n

theorem modPoly_monic : (modPoly n).Monic :=
  monic_X_pow_add (polyOf_degree_lt _)

theorem modPoly_degree : (modPoly n).degree = n := by
  unfold modPoly
  rw [degree_add_eq_left_of_degree_lt]
  · exact degree_X_pow n
  · rw [degree_X_pow]; exact polyOf_degree_lt _

theorem polyOf_add (a b : BF n) : polyOf (a + b).v = polyOf a.v + polyOf b.v := by
  unfold polyOf
  rw [← Finset.sum_add_distrib]
  refine Finset.sum_congr rfl fun i _ => ?_
  rw [add_v, BitVec.getLsbD_xor]
  cases a.v.getLsbD i <;> cases b.v.getLsbD i <;> simp [poly_add_self]

@[simp] theorem polyOf_zero : polyOf (0 : BF n).v = 0 := by
  unfold polyOf; simp

/-- `polyOf` as an additive map. -/
noncomputable def toPoly : BF n →+ (ZMod 2)[X] where
  toFun a := polyOf a.v
  map_zero' := polyOf_zero
  map_add' := polyOf_add

theorem toPoly_apply (a : BF n) : toPoly a = polyOf a.v := rfl

theorem toPoly_coeff (a : BF n) (i : Nat) :
    (toPoly a).coeff i = if a.v.getLsbD i then 1 else 0 := by
  rw [toPoly_apply]
  unfold polyOf
  rw [finsetSum_coeff]
  by_cases hi : i < n
  · rw [Finset.sum_eq_single i]
    · cases a.v.getLsbD i <;> simp
    · intro j _ hj
      cases a.v.getLsbD j
      · simp
      · simp [coeff_X_pow, Ne.symm hj]
    · intro h; simp at h; omega
  · rw [Finset.sum_eq_zero]
    · simp [BitVec.getLsbD_of_ge _ _ (Nat.le_of_not_lt hi)]
    · intro j hj
      rw [Finset.mem_range] at hj
      cases a.v.getLsbD j
      · simp
      · have : i ≠ j := by omega
        simp [coeff_X_pow, this]

theorem toPoly_inj {a b : BF n} (h : toPoly a = toPoly b) : a = b := by
  ext1
  apply BitVec.eq_of_getLsbD_eq
  intro i _
  have := congrArg (fun p => p.coeff i) h
  simp only [toPoly_coeff] at this
  cases ha : a.v.getLsbD i <;> cases hb : b.v.getLsbD i <;> simp [ha, hb] at this ⊢

theorem toPoly_dblN_one (k : Nat) (hk : k < n) : toPoly (dblN k (1 : BF n)) = X ^ k := by
  ext i
  rw [toPoly_coeff, dblN_one_v k hk, BitVec.getLsbD_twoPow, coeff_X_pow]
  by_cases h : k = i
  · subst h; simp [hk]
  · simp [h, Ne.symm h]

/-- Every polynomial of degree below `n` is the polynomial of an element. -/
theorem exists_toPoly (p : (ZMod 2)[X]) (hp : p.degree < (n : WithBot ℕ)) :
    ∃ a : BF n, toPoly a = p := by
  refine ⟨∑ i ∈ Finset.range n, if p.coeff i = 0 then 0 else dblN i 1, ?_⟩
  rw [map_sum]
  have h0 : p.natDegree < n ∨ p = 0 := by
    by_cases h : p = 0
    · exact .inr h
    · exact .inl ((natDegree_lt_iff_degree_lt h).2 hp)
  rcases h0 with h | h
  · rw [p.as_sum_range' n h]
    refine Finset.sum_congr rfl fun i hi => ?_
    rw [← p.as_sum_range' n h]
    have : p.coeff i = 0 ∨ p.coeff i = 1 := by
      generalize p.coeff i = c
      revert c; decide
    rcases this with h | h
    · simp [h]
    · simp [h, toPoly_dblN_one i (Finset.mem_range.1 hi), X_pow_eq_monomial]
  · subst h
    simp

theorem toPoly_dbl (a : BF n) (hn : 0 < n) :
    toPoly (dbl a) = X * toPoly a + (if a.v.getLsbD (n - 1) then modPoly n else 0) := by
  have key : ∀ i, (dbl a).v.getLsbD i
      = ((decide (i < n) && (decide (1 ≤ i) && a.v.getLsbD (i - 1)))
          ^^ (a.v.getLsbD (n - 1) && (bfModulus n).getLsbD i)) := by
    intro i
    rw [dbl_def, bfDbl, bvDbl, maskOf]
    simp only [BitVec.getLsbD_xor, BitVec.getLsbD_and, BitVec.getLsbD_shiftLeft]
    by_cases hi : i < n
    · cases a.v.getLsbD (n - 1) <;> simp [hi, Nat.one_le_iff_ne_zero]
    · have : (bfModulus n).getLsbD i = false := BitVec.getLsbD_of_ge _ _ (by omega)
      cases a.v.getLsbD (n - 1) <;> simp [hi, this]
  ext i
  rw [toPoly_coeff, key, coeff_add]
  have hX : (X * toPoly a).coeff i = if 1 ≤ i ∧ a.v.getLsbD (i - 1) then 1 else 0 := by
    cases i with
    | zero => simp
    | succ i => rw [coeff_X_mul, toPoly_coeff]; simp
  have hM : (modPoly n).coeff i
      = (if i = n then 1 else 0) + (if (bfModulus n).getLsbD i then 1 else 0) := by
    unfold modPoly
    rw [coeff_add, coeff_X_pow]
    have := toPoly_coeff (⟨bfModulus n⟩ : BF n) i
    rw [toPoly_apply] at this
    simp only at this
    rw [this]
  rw [hX]
  by_cases hin : i = n
  · subst hin
    have : (bfModulus i).getLsbD i = false := BitVec.getLsbD_of_ge _ _ (le_refl _)
    cases ht : a.v.getLsbD (i - 1)
    · simp
    · have h1 : 1 ≤ i := hn
      simp only [if_true, hM, this]
      simp [h1]
      decide
  · cases ht : a.v.getLsbD (n - 1)
    · by_cases h1 : 1 ≤ i
      · by_cases hlt : i < n
        · simp [h1, hlt]
        · have : a.v.getLsbD (i - 1) = false := BitVec.getLsbD_of_ge _ _ (by omega)
          simp [this]
      · simp [h1]
    · simp only [if_true, hM, hin]
      by_cases hlt : i < n
      · by_cases h1 : 1 ≤ i
        · generalize (bfModulus n).getLsbD i = c
          generalize a.v.getLsbD (i - 1) = d
          simp only [h1, hlt]
          revert c d
          decide
        · simp [h1]
      · have h1 : a.v.getLsbD (i - 1) = false := BitVec.getLsbD_of_ge _ _ (by omega)
        have h2 : (bfModulus n).getLsbD i = false := BitVec.getLsbD_of_ge _ _ (by omega)
        simp [h1, h2]

theorem dvd_toPoly_dblN (a : BF n) (hn : 0 < n) (k : Nat) :
    modPoly n ∣ toPoly (dblN k a) - X ^ k * toPoly a := by
  induction k with
  | zero => simp
  | succ k ih =>
    rw [dblN_succ, toPoly_dbl _ hn, pow_succ]
    have : X * toPoly (dblN k a) + (if (dblN k a).v.getLsbD (n - 1) then modPoly n else 0)
        - X ^ k * X * toPoly a
        = X * (toPoly (dblN k a) - X ^ k * toPoly a)
          + (if (dblN k a).v.getLsbD (n - 1) then modPoly n else 0) := by ring
    rw [this]
    apply dvd_add
    · exact Dvd.dvd.mul_left ih _
    · split
      · exact dvd_refl _
      · exact dvd_zero _

theorem dvd_toPoly_mulsum (a : BF n) (hn : 0 < n) {k : Nat} (b : BitVec k) (m : Nat) :
    modPoly n ∣ toPoly (∑ i ∈ Finset.range m, if b.getLsbD i then dblN i a else 0)
      - toPoly a * ∑ i ∈ Finset.range m, if b.getLsbD i then X ^ i else 0 := by
  rw [map_sum, Finset.mul_sum, ← Finset.sum_sub_distrib]
  refine Finset.dvd_sum fun i _ => ?_
  cases b.getLsbD i
  · simp
  · simp only [if_true]
    rw [mul_comm (toPoly a)]
    exact dvd_toPoly_dblN a hn i

theorem dvd_toPoly_mul (a b : BF n) (hn : 0 < n) :
    modPoly n ∣ toPoly (a * b) - toPoly a * toPoly b := by
  rw [mul_eq_sum a b hn]
  exact dvd_toPoly_mulsum a hn b.v n

theorem eq_modByMonic_of_dvd {p q : (ZMod 2)[X]} (hp : p.degree < (n : WithBot ℕ))
    (h : modPoly n ∣ p - q) : p = q %ₘ modPoly n := by
  have h1 : p %ₘ modPoly n = p := by
    rw [modByMonic_eq_self_iff modPoly_monic, modPoly_degree]; exact hp
  have h2 : (p - q) %ₘ modPoly n = 0 := (modByMonic_eq_zero_iff_dvd modPoly_monic).2 h
  rw [sub_modByMonic, h1] at h2
  exact sub_eq_zero.1 h2

/-- Multiplication is polynomial multiplication modulo the reduction polynomial. -/
theorem toPoly_mul (a b : BF n) (hn : 0 < n) :
    toPoly (a * b) = (toPoly a * toPoly b) %ₘ modPoly n :=
  eq_modByMonic_of_dvd (polyOf_degree_lt _) (dvd_toPoly_mul a b hn)

/-- Multiplication by a 64-bit value is polynomial multiplication modulo the reduction
polynomial. -/
theorem toPoly_mul64 (a : BF n) (b : BF 64) (hn : 0 < n) :
    toPoly (bfMul64 a b) = (toPoly a * toPoly b) %ₘ modPoly n := by
  refine eq_modByMonic_of_dvd (polyOf_degree_lt _) ?_
  rw [mul64_eq_sum]
  exact dvd_toPoly_mulsum a hn b.v 64

theorem toPoly_one (hn : 0 < n) : toPoly (1 : BF n) = 1 := by
  have := toPoly_dblN_one 0 hn
  simpa using this

end BF
end Faest
