/-
The reduction polynomials are irreducible (Rabin's test, evaluated by the kernel), hence the
rings `BF 8`, `BF 64`, `BF 128`, `BF 192`, `BF 256` are fields.
-/
import Verif.Proofs.FieldPoly
import Mathlib.FieldTheory.Finite.Extension
import Mathlib.Tactic.IntervalCases
import Mathlib.Tactic.NormNum.Prime

namespace Faest
namespace BF

open Polynomial Spec

variable {n : Nat}

/-! ### Evaluation with natural numbers -/

/-- Continue with the value of `a` (makes the kernel evaluate `a` first). -/
def force {α : Type} (a : Nat) (f : Nat → α) : α :=
  Nat.rec (f 0) (fun k _ => f (Nat.succ k)) a

theorem force_eq {α : Type} (a : Nat) (f : Nat → α) : force a f = f a := by
  cases a <;> rfl

/-- Horner evaluation of a product from the top bit downwards; `p = 2^n`, `f = 2^n + m`. -/
def natHorner (p f a b k : Nat) : Nat → Nat :=
  Nat.rec (fun acc => acc) (fun k ih acc =>
    force (Nat.xor (Nat.mul 2 acc) (Nat.mul a (Nat.mod (Nat.shiftRight b k) 2))) fun t =>
    force (Nat.xor t (Nat.mul f (Nat.div t p))) ih) k

/-- Multiplication on natural numbers. -/
def natMul (n p f a b : Nat) : Nat := natHorner p f a b n 0

/-- `k` squarings. -/
def natSqN (n p f k : Nat) : Nat → Nat :=
  Nat.rec (fun a => a) (fun _ ih a => force (natMul n p f a a) ih) k

theorem testBit_eq_shift (b k : Nat) :
    Nat.mod (Nat.shiftRight b k) 2 = if b.testBit k then 1 else 0 := by
  show (b >>> k) % 2 = _
  rw [Nat.testBit, Nat.and_comm, Nat.and_one_is_mod]
  rcases Nat.mod_two_eq_zero_or_one (b >>> k) with h | h <;> rw [h] <;> rfl

theorem toNat_dbl (a : BF n) :
    (dbl a).v.toNat = ((2 * a.v.toNat) % 2 ^ n
      ^^^ (if a.v.getLsbD (n - 1) then (bfModulus n).toNat else 0)) := by
  rw [dbl_def, bfDbl, bvDbl, maskOf]
  cases a.v.getLsbD (n - 1)
  · simp [BitVec.toNat_shiftLeft, Nat.shiftLeft_eq, Nat.mul_comm]
  · simp [BitVec.toNat_xor, BitVec.toNat_shiftLeft, Nat.shiftLeft_eq, Nat.mul_comm]

theorem two_pow_add_eq_xor {m : Nat} (h : m < 2 ^ n) : 2 ^ n + m = 2 ^ n ^^^ m := by
  apply Nat.eq_of_testBit_eq
  intro i
  rw [Nat.testBit_xor, Nat.testBit_two_pow]
  rcases Nat.lt_trichotomy i n with hi | hi | hi
  · rw [Nat.testBit_two_pow_add_gt hi]
    simp [show n ≠ i by omega]
  · subst hi
    rw [Nat.testBit_two_pow_add_eq]
    simp [Nat.testBit_lt_two_pow h]
  · have h1 : 2 ^ n + m < 2 ^ i := by
      have : 2 ^ (n + 1) ≤ 2 ^ i := Nat.pow_le_pow_right (by decide) hi
      rw [pow_succ] at this; omega
    have h2 : m < 2 ^ i := by omega
    simp [Nat.testBit_lt_two_pow h1, Nat.testBit_lt_two_pow h2, show n ≠ i by omega]

theorem horner_step (hn : 0 < n) (x y : BF n) :
    (dbl x + y).v.toNat =
      Nat.xor (Nat.xor (Nat.mul 2 x.v.toNat) y.v.toNat)
        (Nat.mul (2 ^ n + (bfModulus n).toNat)
          (Nat.div (Nat.xor (Nat.mul 2 x.v.toNat) y.v.toNat) (2 ^ n))) := by
  show _ = (2 * x.v.toNat ^^^ y.v.toNat) ^^^
    ((2 ^ n + (bfModulus n).toNat) * ((2 * x.v.toNat ^^^ y.v.toNat) / 2 ^ n))
  have hy : y.v.toNat / 2 ^ n = 0 := Nat.div_eq_of_lt y.v.isLt
  have hx := x.v.isLt
  rw [Nat.xor_div_two_pow, hy, Nat.xor_zero, add_v, BitVec.toNat_xor, toNat_dbl]
  have hp : 2 ^ n = 2 * 2 ^ (n - 1) := by rw [← pow_succ']; congr 1; omega
  have hq : 2 * x.v.toNat / 2 ^ n = x.v.toNat / 2 ^ (n - 1) := by
    rw [hp, Nat.mul_div_mul_left _ _ (by decide)]
  have hb : x.v.getLsbD (n - 1) = decide (x.v.toNat / 2 ^ (n - 1) % 2 = 1) := by
    rw [BitVec.getLsbD, Nat.testBit_eq_decide_div_mod_eq]
  have hlt : x.v.toNat / 2 ^ (n - 1) < 2 := by
    rw [Nat.div_lt_iff_lt_mul (by positivity), ← hp]; exact hx
  rw [hq, hb]
  generalize hd : x.v.toNat / 2 ^ (n - 1) = d at *
  have h2 : d = 0 ∨ d = 1 := by omega
  rcases h2 with rfl | rfl
  · have hlt2 : 2 * x.v.toNat < 2 ^ n := by
      have := (Nat.div_eq_zero_iff_lt (by positivity)).1 hd
      rw [hp]; omega
    simp [Nat.mod_eq_of_lt hlt2]
  · have h3 : 2 * x.v.toNat = 2 ^ n + 2 * x.v.toNat % 2 ^ n := by
      have := Nat.div_add_mod (2 * x.v.toNat) (2 ^ n)
      rw [hq] at this; omega
    have h4 : 2 * x.v.toNat % 2 ^ n < 2 ^ n := Nat.mod_lt _ (by positivity)
    rw [two_pow_add_eq_xor (bfModulus n).isLt]
    conv_rhs => rw [h3]
    rw [two_pow_add_eq_xor h4]
    simp only [Nat.one_mod, decide_true, if_true, mul_one]
    generalize 2 * x.v.toNat % 2 ^ n = u
    generalize (bfModulus n).toNat = m
    generalize y.v.toNat = w
    rw [Nat.xor_comm (2 ^ n) u, Nat.xor_assoc u, Nat.xor_assoc u, Nat.xor_assoc u,
      Nat.xor_comm (2 ^ n) w, Nat.xor_assoc w, ← Nat.xor_assoc (2 ^ n) (2 ^ n), Nat.xor_self,
      Nat.zero_xor, Nat.xor_comm m w]

theorem natHorner_succ (p f a b k acc : Nat) :
    natHorner p f a b (k + 1) acc = natHorner p f a b k
      (Nat.xor (Nat.xor (Nat.mul 2 acc) (Nat.mul a (Nat.mod (Nat.shiftRight b k) 2)))
        (Nat.mul f (Nat.div
          (Nat.xor (Nat.mul 2 acc) (Nat.mul a (Nat.mod (Nat.shiftRight b k) 2))) p))) := by
  have e : natHorner p f a b (k + 1) acc =
    force (Nat.xor (Nat.mul 2 acc) (Nat.mul a (Nat.mod (Nat.shiftRight b k) 2))) fun t =>
      force (Nat.xor t (Nat.mul f (Nat.div t p))) (natHorner p f a b k) := rfl
  rw [e, force_eq, force_eq]

theorem natHorner_eq (hn : 0 < n) (k : Nat) (a c : BF n) (b : Nat) :
    natHorner (2 ^ n) (2 ^ n + (bfModulus n).toNat) a.v.toNat b k c.v.toNat
      = (dblN k c + ∑ i ∈ Finset.range k, if b.testBit i then dblN i a else 0).v.toNat := by
  induction k generalizing c with
  | zero => simp [natHorner]
  | succ k ih =>
    have e : Nat.mul a.v.toNat (Nat.mod (Nat.shiftRight b k) 2)
        = (if b.testBit k then a else 0 : BF n).v.toNat := by
      rw [testBit_eq_shift]
      cases b.testBit k
      · exact (Nat.mul_zero _)
      · exact (Nat.mul_one _)
    rw [natHorner_succ, e, ← horner_step hn, ih]
    rw [Finset.sum_range_succ, map_add, map_ite_zero,
      show dbl c = dblN 1 c from rfl, dblN_add]
    congr 2
    rw [add_assoc, add_comm (∑ i ∈ Finset.range k, _)]

theorem natMul_eq (a b : BF n) (hn : 0 < n) :
    natMul n (2 ^ n) (2 ^ n + (bfModulus n).toNat) a.v.toNat b.v.toNat = (a * b).v.toNat := by
  have := natHorner_eq hn n a 0 b.v.toNat
  rw [natMul, mul_eq_sum a b hn]
  rw [map_zero, zero_add] at this
  exact this

theorem natSqN_eq (k : Nat) (a : BF n) (hn : 0 < n) :
    natSqN n (2 ^ n) (2 ^ n + (bfModulus n).toNat) k a.v.toNat = (a ^ 2 ^ k).v.toNat := by
  induction k generalizing a with
  | zero => simp [natSqN]
  | succ k ih =>
    have : ∀ p f x, natSqN n p f (k + 1) x = natSqN n p f k (natMul n p f x x) := by
      intro p f x
      show force _ _ = _
      rw [force_eq]; rfl
    rw [this, natMul_eq _ _ hn, ih, ← sq, ← pow_mul, ← pow_succ']

theorem toNat_inj {a b : BF n} (h : a.v.toNat = b.v.toNat) : a = b := by
  ext1; exact BitVec.eq_of_toNat_eq h

/-! ### Rabin's test -/

theorem dvd_toPoly_pow (a : BF n) (hn : 0 < n) (k : Nat) :
    modPoly n ∣ toPoly (a ^ k) - toPoly a ^ k := by
  induction k with
  | zero => simp [toPoly_one hn]
  | succ k ih =>
    rw [pow_succ, pow_succ]
    have h1 := dvd_toPoly_mul (a ^ k) a hn
    have : toPoly (a ^ k * a) - toPoly a ^ k * toPoly a
        = (toPoly (a ^ k * a) - toPoly (a ^ k) * toPoly a)
          + (toPoly (a ^ k) - toPoly a ^ k) * toPoly a := by ring
    rw [this]
    exact dvd_add h1 (Dvd.dvd.mul_right ih _)

/-- The element `X`. -/
def xelt : BF n := dblN 1 1

theorem toPoly_xelt (hn : 1 < n) : toPoly (xelt : BF n) = X := by
  have := toPoly_dblN_one 1 hn
  rw [pow_one] at this
  exact this

theorem irreducible_of_rabin (hn : 1 < n)
    (h1 : (xelt : BF n) ^ 2 ^ n = xelt)
    (h2 : ∀ d, d ∣ n → d < n → ∃ k, d ∣ k ∧ ∃ y : BF n, y * (xelt ^ 2 ^ k + xelt) = 1) :
    Irreducible (modPoly n) := by
  have hn0 : 0 < n := by omega
  have : Fact (Nat.Prime 2) := ⟨Nat.prime_two⟩
  have hcard : Nat.card (ZMod 2) = 2 := by simp
  have hdvd : ∀ k, modPoly n ∣ toPoly ((xelt : BF n) ^ 2 ^ k) - X ^ 2 ^ k := by
    intro k
    have := dvd_toPoly_pow (xelt : BF n) hn0 (2 ^ k)
    rwa [toPoly_xelt hn] at this
  have hf : modPoly n ∣ X ^ 2 ^ n - X := by
    have := hdvd n
    rw [h1, toPoly_xelt hn, ← dvd_neg, neg_sub] at this
    exact this
  have hnu : ¬ IsUnit (modPoly n) := by
    intro hu
    have := degree_eq_zero_of_isUnit hu
    rw [modPoly_degree] at this
    have : n = 0 := by exact_mod_cast this
    omega
  have hne : modPoly n ≠ 0 := modPoly_monic.ne_zero
  obtain ⟨g, hg, hgf⟩ := WfDvdMonoid.exists_irreducible_factor hnu hne
  have hd : g.natDegree ∣ n :=
    Irreducible.natDegree_dvd_of_dvd_X_pow_card_pow_sub_X hg (by
      rw [hcard]; exact hgf.trans hf)
  have hle : g.natDegree ≤ n := Nat.le_of_dvd hn0 hd
  have hnat : (modPoly n).natDegree = n := natDegree_eq_of_degree_eq_some modPoly_degree
  rcases Nat.lt_or_ge g.natDegree n with hlt | hge
  · exfalso
    obtain ⟨k, hk, y, hy⟩ := h2 _ hd hlt
    have hgk : g ∣ X ^ 2 ^ k - X := by
      have := (Irreducible.natDegree_dvd_iff_dvd_X_pow_card_pow_sub_X hg).1 hk
      rwa [hcard] at this
    have h3 := dvd_toPoly_mul y (xelt ^ 2 ^ k + xelt) hn0
    rw [hy, toPoly_one hn0, map_add, toPoly_xelt hn] at h3
    have h4 : modPoly n ∣ toPoly ((xelt : BF n) ^ 2 ^ k) - X ^ 2 ^ k := hdvd k
    have h5 : g ∣ toPoly ((xelt : BF n) ^ 2 ^ k) + X := by
      have e : toPoly ((xelt : BF n) ^ 2 ^ k) + X
          = (toPoly ((xelt : BF n) ^ 2 ^ k) - X ^ 2 ^ k) + (X ^ 2 ^ k - X) + (X + X) := by ring
      rw [e, poly_add_self, add_zero]
      exact dvd_add (hgf.trans h4) hgk
    have h6 : g ∣ 1 := by
      have := dvd_add (hgf.trans h3) (Dvd.dvd.mul_left h5 (toPoly y))
      simpa using this
    exact hg.not_isUnit (isUnit_of_dvd_one h6)
  · obtain ⟨c, hc⟩ := hgf
    have hc0 : c ≠ 0 := by rintro rfl; rw [mul_zero] at hc; exact hne hc
    have hdeg : (modPoly n).natDegree = g.natDegree + c.natDegree := by
      rw [hc, natDegree_mul hg.ne_zero hc0]
    have hcd : c.natDegree = 0 := by omega
    have hcu : IsUnit c := by
      rw [isUnit_iff_degree_eq_zero, degree_eq_natDegree hc0, hcd]; rfl
    rw [hc]
    exact (irreducible_mul_isUnit hcu).2 hg

theorem xelt_toNat (hn : 1 < n) : (xelt : BF n).v.toNat = 2 := by
  rw [xelt, dblN_one_v 1 hn, BitVec.toNat_twoPow_of_lt hn]

/-- Rabin's test as a computation on natural numbers; `w` holds a pair `(k, y)` for each
maximal proper divisor. -/
theorem irreducible_of_nat (P F : Nat) (hn : 1 < n) (hP : 2 ^ n = P)
    (hF : P + (bfModulus n).toNat = F)
    (h1 : natSqN n P F n 2 = 2) (w : List (Nat × Nat))
    (h2 : ∀ p ∈ w, p.2 < P ∧ natMul n P F p.2 (natSqN n P F p.1 2 ^^^ 2) = 1)
    (h3 : ∀ d, d < n → d ∣ n → ∃ p ∈ w, d ∣ p.1) :
    Irreducible (modPoly n) := by
  have hn0 : 0 < n := by omega
  subst hP
  subst hF
  apply irreducible_of_rabin hn
  · apply toNat_inj
    rw [← natSqN_eq _ _ hn0, xelt_toNat hn, h1]
  · intro d hd hlt
    obtain ⟨p, hp, hdp⟩ := h3 d hlt hd
    obtain ⟨hlt, hmul⟩ := h2 p hp
    refine ⟨p.1, hdp, ⟨BitVec.ofNat n p.2⟩, ?_⟩
    apply toNat_inj
    have e : (xelt ^ 2 ^ p.1 + xelt : BF n).v.toNat = natSqN n (2 ^ n) (2 ^ n + (bfModulus n).toNat) p.1 2 ^^^ 2 := by
      rw [add_v, BitVec.toNat_xor, ← natSqN_eq _ _ hn0, xelt_toNat hn]
    rw [← natMul_eq _ _ hn0, e, BitVec.toNat_ofNat, Nat.mod_eq_of_lt hlt, hmul, one_v,
      BitVec.toNat_ofNat, Nat.mod_eq_of_lt]
    exact Nat.one_lt_two_pow (by omega)

/-! ### The five moduli -/

theorem irreducible_mod8 : Irreducible (modPoly 8) := by
  refine irreducible_of_nat 0x100
    0x11b (by decide) (by decide +kernel)
    (by decide +kernel) (by decide +kernel)
    [(4, 0x51)] ?_ ?_
  · decide +kernel
  · decide +kernel

theorem irreducible_mod64 : Irreducible (modPoly 64) := by
  refine irreducible_of_nat 0x10000000000000000
    0x1000000000000001b (by decide) (by decide +kernel)
    (by decide +kernel) (by decide +kernel)
    [(32, 0x53cad161bf5a89c7)] ?_ ?_
  · decide +kernel
  · decide +kernel

theorem irreducible_mod128 : Irreducible (modPoly 128) := by
  refine irreducible_of_nat 0x100000000000000000000000000000000
    0x100000000000000000000000000000087 (by decide) (by decide +kernel)
    (by decide +kernel) (by decide +kernel)
    [(64, 0x9e4af928ddbc838a41a8cafd2c95b018)] ?_ ?_
  · decide +kernel
  · decide +kernel

theorem irreducible_mod192 : Irreducible (modPoly 192) := by
  refine irreducible_of_nat 0x1000000000000000000000000000000000000000000000000
    0x1000000000000000000000000000000000000000000000087 (by decide) (by decide +kernel)
    (by decide +kernel) (by decide +kernel)
    [(96, 0x4d7b1a4abdd7016c3a22a6f8086819e103fc6cc72d1f1899), (64, 0x5d250df09cbe238d7b77315252dcc7f4b466c3ca9cbd85b7)] ?_ ?_
  · decide +kernel
  · decide +kernel

theorem irreducible_mod256 : Irreducible (modPoly 256) := by
  refine irreducible_of_nat 0x10000000000000000000000000000000000000000000000000000000000000000
    0x10000000000000000000000000000000000000000000000000000000000000425 (by decide) (by decide +kernel)
    (by decide +kernel) (by decide +kernel)
    [(128, 0x41d07da235f08b92d026035887191e2fd91148129c622b9bd3caaa61ed5af509)] ?_ ?_
  · decide +kernel
  · decide +kernel

/-! ### Fields -/

theorem exists_inv (hn : 1 < n) (hirr : Irreducible (modPoly n)) (a : BF n) (ha : a ≠ 0) :
    ∃ b : BF n, a * b = 1 := by
  have hn0 : 0 < n := by omega
  have hnd : ¬ modPoly n ∣ toPoly a := by
    intro h
    have h0 : toPoly a = 0 := by
      by_contra hne
      have h1 := degree_le_of_dvd h hne
      rw [modPoly_degree] at h1
      exact absurd (polyOf_degree_lt a.v) (not_lt.2 h1)
    exact ha (toPoly_inj (by rw [h0, map_zero]))
  obtain ⟨u, v, huv⟩ := (hirr.coprime_iff_not_dvd.2 hnd)
  have hlt : (v %ₘ modPoly n).degree < (n : WithBot ℕ) := by
    have := degree_modByMonic_lt v (modPoly_monic (n := n))
    rwa [modPoly_degree] at this
  obtain ⟨b, hb⟩ := exists_toPoly _ hlt
  refine ⟨b, toPoly_inj ?_⟩
  rw [toPoly_mul _ _ hn0, hb, toPoly_one hn0]
  symm
  apply eq_modByMonic_of_dvd
  · rw [← toPoly_one hn0]; exact polyOf_degree_lt _
  · have h1 : v %ₘ modPoly n = v - modPoly n * (v /ₘ modPoly n) :=
      modByMonic_eq_sub_mul_div v _
    rw [h1]
    refine ⟨u + toPoly a * (v /ₘ modPoly n), ?_⟩
    linear_combination -huv

end BF
end Faest
