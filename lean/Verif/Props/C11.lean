/-
C11: the rings are fields; bf8_inv inverts.
-/
import Verif.Proofs.FieldFacts

namespace Faest.Props

/-- Every non-zero element of the five domains of the code has a multiplicative inverse. -/
theorem C11_inverse {n : Nat} (hn : n = 8 ∨ n = 64 ∨ n = 128 ∨ n = 192 ∨ n = 256)
    (a : BF n) (ha : a ≠ bfZero) : ∃ b, bfMul a b = bfOne :=
  BF.exists_inv (BF.GoodSize.lt hn) (BF.GoodSize.irr hn) a ha

/-- The operations of the code satisfy the laws of a field. -/
theorem C11_field_laws {n : Nat} (hn : n = 8 ∨ n = 64 ∨ n = 128 ∨ n = 192 ∨ n = 256)
    (a b c : BF n) :
    bfAdd a b = bfAdd b a ∧ bfAdd (bfAdd a b) c = bfAdd a (bfAdd b c) ∧ bfAdd a bfZero = a ∧
    bfAdd a a = bfZero ∧ bfMul a b = bfMul b a ∧ bfMul (bfMul a b) c = bfMul a (bfMul b c) ∧
    bfMul a bfOne = a ∧ bfMul a (bfAdd b c) = bfAdd (bfMul a b) (bfMul a c) ∧
    (bfOne : BF n) ≠ bfZero ∧ (bfMul a b = bfZero → a = bfZero ∨ b = bfZero) :=
  ⟨add_comm a b, add_assoc a b c, add_zero a, BF.add_self a, mul_comm a b, mul_assoc a b c,
    mul_one a, mul_add a b c, BF.one_ne_zero' (by have := BF.GoodSize.lt hn; omega),
    fun h => BF.eq_zero_or_eq_zero hn h⟩

/-- The moduli are irreducible. -/
theorem C11_irreducible : Irreducible Spec.f8 ∧ Irreducible Spec.f64 ∧ Irreducible Spec.f128 ∧
    Irreducible Spec.f192 ∧ Irreducible Spec.f256 := by
  rw [← BF.modPoly_eq_f8, ← BF.modPoly_eq_f64, ← BF.modPoly_eq_f128, ← BF.modPoly_eq_f192,
    ← BF.modPoly_eq_f256]
  exact ⟨BF.irreducible_mod8, BF.irreducible_mod64, BF.irreducible_mod128, BF.irreducible_mod192,
    BF.irreducible_mod256⟩

/-- bf8_inv returns the inverse of a non-zero element, and zero for zero. -/
theorem C11_bf8_inv (x : BF 8) :
    (x ≠ bfZero → bfMul (bf8Inv x) x = bfOne) ∧ (x = bfZero → bf8Inv x = bfZero) :=
  ⟨fun h => BF.bf8Inv_mul x h, fun h => by subst h; exact BF.bf8Inv_zero⟩

/-- The hypotheses are met by a non-zero element; {53}^-1 = {ca}. -/
example : (⟨0x53⟩ : BF 8) ≠ bfZero ∧ bfMul (⟨0x53⟩ : BF 8) ⟨0xca⟩ = bfOne := by decide +kernel
example : bf8Inv ⟨0x53⟩ = ⟨0xca⟩ := by decide +kernel

end Faest.Props
