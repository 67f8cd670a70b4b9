/-
The S-box code against the table of the standard and the field inverse.
-/
import Verif.Model.FaestAes
import Verif.Spec.Rijndael
import Verif.Proofs.FieldFacts

namespace Faest

theorem sbox_table : ∀ x : BitVec 8, computeSbox x = Spec.sbox x := by decide +kernel

theorem mul2_table : ∀ x : BitVec 8, bf8Mul x 2 = Spec.xtime x := by decide +kernel

theorem mul3_table : ∀ x : BitVec 8, bf8Mul x 3 = Spec.xtime x ^^^ x := by decide +kernel

/-- The affine part of `computeSbox`. -/
def affineByte (t : Byte) : Byte :=
  let t0 := parity8 (t &&& (1 ||| (1 <<< 4) ||| (1 <<< 5) ||| (1 <<< 6) ||| (1 <<< 7))) <<< 0
  let t0 := t0 ^^^ (parity8 (t &&& (1 ||| (1 <<< 1) ||| (1 <<< 5) ||| (1 <<< 6) ||| (1 <<< 7))) <<< 1)
  let t0 := t0 ^^^ (parity8 (t &&& (1 ||| (1 <<< 1) ||| (1 <<< 2) ||| (1 <<< 6) ||| (1 <<< 7))) <<< 2)
  let t0 := t0 ^^^ (parity8 (t &&& (1 ||| (1 <<< 1) ||| (1 <<< 2) ||| (1 <<< 3) ||| (1 <<< 7))) <<< 3)
  let t0 := t0 ^^^ (parity8 (t &&& (1 ||| (1 <<< 1) ||| (1 <<< 2) ||| (1 <<< 3) ||| (1 <<< 4))) <<< 4)
  let t0 := t0 ^^^ (parity8 (t &&& ((1 <<< 1) ||| (1 <<< 2) ||| (1 <<< 3) ||| (1 <<< 4) ||| (1 <<< 5))) <<< 5)
  let t0 := t0 ^^^ (parity8 (t &&& ((1 <<< 2) ||| (1 <<< 3) ||| (1 <<< 4) ||| (1 <<< 5) ||| (1 <<< 6))) <<< 6)
  let t0 := t0 ^^^ (parity8 (t &&& ((1 <<< 3) ||| (1 <<< 4) ||| (1 <<< 5) ||| (1 <<< 6) ||| (1 <<< 7))) <<< 7)
  t0 ^^^ (1 ||| (1 <<< 1) ||| (1 <<< 5) ||| (1 <<< 6))

theorem computeSbox_eq (x : Byte) : computeSbox x = affineByte (bf8Inv ⟨x⟩).v := rfl

theorem affine_table : ∀ t : BitVec 8, invAffineByte (affineByte t) = t := by decide +kernel

theorem invAffine_table (x : BitVec 8) : invAffineByte (computeSbox x) = (bf8Inv ⟨x⟩).v := by
  rw [computeSbox_eq, affine_table]

theorem rcon_table : ∀ i, i < 30 → roundConstants[i]? = some (Spec.rcon i) := by decide +kernel

end Faest
