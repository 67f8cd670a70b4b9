/-
Lemmas for C75.
-/
import Mathlib.Tactic.Positivity
import Verif.Model.Compat
import Verif.Spec.Compat

namespace Faest.Props
open Compat Spec.Compat

/-- State of `clz`: `x` is shifted by `s` places, and nothing is lost. -/
def clzInv (x t : Nat) (p : BitVec 32 × BitVec 32) : Prop := ∃ s, p.2.toNat = x * 2 ^ s ∧ p.1.toNat = 1 + s ∧ 2 ^ t ≤ p.2.toNat

theorem clzInv_le {x s : Nat} {p : BitVec 32 × BitVec 32} (hx : 0 < x) (h : p.2.toNat = x * 2 ^ s) : s < 32 := by
  by_contra hc
  have h1 : 2 ^ 32 ≤ 2 ^ s := Nat.pow_le_pow_right (by decide) (by omega)
  have h2 : 2 ^ s ≤ x * 2 ^ s := Nat.le_mul_of_pos_left _ hx
  have := p.2.isLt
  omega

theorem clzStep_inv {x t k : Nat} {p : BitVec 32 × BitVec 32} (hx : 0 < x) (h32 : t + k = 32) (hk : k ≤ t) (h : clzInv x (t - k) p) :
    clzInv x t (clzStep t k p) := by
  obtain ⟨s, h1, h2, h3⟩ := h
  have hs := clzInv_le hx h1
  have hsh : (p.2 >>> t).toNat = p.2.toNat / 2 ^ t := by rw [BitVec.toNat_ushiftRight, Nat.shiftRight_eq_div_pow]
  unfold clzStep
  by_cases hz : p.2 >>> t = 0
  · rw [if_pos hz]
    rw [hz] at hsh
    have hlt : p.2.toNat < 2 ^ t := by
      rcases Nat.lt_or_ge p.2.toNat (2 ^ t) with h | h
      · exact h
      · have : 0 < p.2.toNat / 2 ^ t := Nat.div_pos h (by positivity)
        rw [← hsh] at this
        exact absurd this (by decide)
    have hm : p.2.toNat * 2 ^ k < 2 ^ 32 := by
      calc p.2.toNat * 2 ^ k < 2 ^ t * 2 ^ k := (Nat.mul_lt_mul_right (by positivity)).2 hlt
        _ = 2 ^ 32 := by rw [← Nat.pow_add, h32]
    have hv : (p.2 <<< k).toNat = p.2.toNat * 2 ^ k := by
      rw [BitVec.toNat_shiftLeft, Nat.shiftLeft_eq, Nat.mod_eq_of_lt hm]
    refine ⟨s + k, ?_, ?_, ?_⟩
    · show (p.2 <<< k).toNat = _
      rw [hv, h1, Nat.mul_assoc, ← Nat.pow_add]
    · show (p.1 + BitVec.ofNat 32 k).toNat = _
      rw [BitVec.toNat_add, BitVec.toNat_ofNat, h2]; omega
    · show 2 ^ t ≤ (p.2 <<< k).toNat
      rw [hv]
      calc 2 ^ t = 2 ^ (t - k) * 2 ^ k := by rw [← Nat.pow_add]; congr 1; omega
        _ ≤ _ := Nat.mul_le_mul_right _ h3
  · rw [if_neg hz]
    refine ⟨s, h1, h2, ?_⟩
    by_contra hc
    exact hz (BitVec.eq_of_toNat_eq (by rw [hsh, Nat.div_eq_of_lt (by omega)]; rfl))

theorem le_inj {n : Nat} {x y : BitVec (8 * n)} (h : le n x = le n y) : x = y := by
  ext i hi
  have hk : i / 8 < n := by omega
  have h1 : x.extractLsb' (8 * (i / 8)) 8 = y.extractLsb' (8 * (i / 8)) 8 := by
    have := congrArg (fun l => l[i / 8]?) h
    simpa [le, hk] using this
  have h2 := congrArg (fun b => b.getLsbD (i % 8)) h1
  have e : 8 * (i / 8) + i % 8 = i := by omega
  have e2 : i % 8 < 8 := by omega
  simp only [BitVec.getLsbD_extractLsb', e, e2, decide_true, Bool.true_and] at h2
  rw [← BitVec.getLsbD_eq_getElem, ← BitVec.getLsbD_eq_getElem]
  exact h2

theorem bswap_of {n : Nat} {f : BitVec (8 * n) → BitVec (8 * n)} (hf : ∀ x, le n (f x) = be n x) {v x : BitVec (8 * n)} :
    (le n v = be n x → f v = x) ∧ (be n v = le n x → f v = x) := by
  constructor
  · intro h
    refine le_inj ?_
    rw [hf, show be n v = (le n v).reverse from rfl, h]
    exact List.reverse_reverse _
  · intro h
    refine le_inj ?_
    rw [hf, h]

theorem le_of {n : Nat} {v x : BitVec (8 * n)} (h : be n v = be n x) : v = x := le_inj (List.reverse_injective h)

end Faest.Props
