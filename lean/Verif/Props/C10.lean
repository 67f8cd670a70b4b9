/-
C10: field multiplications are the documented fields.
-/
import Verif.Proofs.FieldFacts

namespace Faest.Props
open Polynomial Faest.Spec

/-- bf8_mul multiplies polynomials modulo X^8+X^4+X^3+X+1. -/
theorem C10_bf8_mul (a b : BF 8) : polyOf (bfMul a b).v = (polyOf a.v * polyOf b.v) %ₘ f8 :=
  BF.polyOf_mul BF.modPoly_eq_f8 (by decide) a b

/-- bf64_mul multiplies polynomials modulo X^64+X^4+X^3+X+1. -/
theorem C10_bf64_mul (a b : BF 64) : polyOf (bfMul a b).v = (polyOf a.v * polyOf b.v) %ₘ f64 :=
  BF.polyOf_mul BF.modPoly_eq_f64 (by decide) a b

/-- bf128_mul multiplies polynomials modulo X^128+X^7+X^2+X+1. -/
theorem C10_bf128_mul (a b : BF 128) :
    polyOf (bfMul a b).v = (polyOf a.v * polyOf b.v) %ₘ f128 :=
  BF.polyOf_mul BF.modPoly_eq_f128 (by decide) a b

/-- bf192_mul multiplies polynomials modulo X^192+X^7+X^2+X+1. -/
theorem C10_bf192_mul (a b : BF 192) :
    polyOf (bfMul a b).v = (polyOf a.v * polyOf b.v) %ₘ f192 :=
  BF.polyOf_mul BF.modPoly_eq_f192 (by decide) a b

/-- bf256_mul multiplies polynomials modulo X^256+X^10+X^5+X^2+1. -/
theorem C10_bf256_mul (a b : BF 256) :
    polyOf (bfMul a b).v = (polyOf a.v * polyOf b.v) %ₘ f256 :=
  BF.polyOf_mul BF.modPoly_eq_f256 (by decide) a b

/-- bf128_mul_64: the second factor is the polynomial of a 64-bit value. -/
theorem C10_bf128_mul_64 (a : BF 128) (b : BF 64) :
    polyOf (bfMul64 a b).v = (polyOf a.v * polyOf b.v) %ₘ f128 :=
  BF.polyOf_mul64 BF.modPoly_eq_f128 (by decide) a b

/-- bf192_mul_64. -/
theorem C10_bf192_mul_64 (a : BF 192) (b : BF 64) :
    polyOf (bfMul64 a b).v = (polyOf a.v * polyOf b.v) %ₘ f192 :=
  BF.polyOf_mul64 BF.modPoly_eq_f192 (by decide) a b

/-- bf256_mul_64. -/
theorem C10_bf256_mul_64 (a : BF 256) (b : BF 64) :
    polyOf (bfMul64 a b).v = (polyOf a.v * polyOf b.v) %ₘ f256 :=
  BF.polyOf_mul64 BF.modPoly_eq_f256 (by decide) a b

/-- Addition is addition of polynomials (all sizes). -/
theorem C10_add {n : Nat} (a b : BF n) : polyOf (bfAdd a b).v = polyOf a.v + polyOf b.v :=
  BF.polyOf_add a b

/-- The product is determined by its polynomial: `polyOf` is injective. -/
theorem C10_polyOf_injective {n : Nat} (a b : BF n) (h : polyOf a.v = polyOf b.v) : a = b :=
  BF.toPoly_inj h

/-- Non-trivial products: {57}*{83} = {c1} (FIPS 197, section 4.2), and a reduction in each of
the large fields. -/
example : bfMul (⟨0x57⟩ : BF 8) ⟨0x83⟩ = ⟨0xc1⟩ := by decide +kernel
example : bfMul (⟨2⟩ : BF 128) ⟨BitVec.twoPow 128 127⟩ = ⟨0x87⟩ := by decide +kernel
example : bfMul (⟨2⟩ : BF 192) ⟨BitVec.twoPow 192 191⟩ = ⟨0x87⟩ := by decide +kernel
example : bfMul (⟨2⟩ : BF 256) ⟨BitVec.twoPow 256 255⟩ = ⟨0x425⟩ := by decide +kernel
example : bfMul64 (⟨BitVec.twoPow 128 127⟩ : BF 128) ⟨2⟩ = ⟨0x87⟩ := by decide +kernel

end Faest.Props
