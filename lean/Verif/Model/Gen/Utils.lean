/-
Generated by tools/c2lean.py from utils.h. Do not edit.
-/
import Verif.Model.CSem

set_option linter.unusedVariables false

namespace Faest.Gen
open Faest.C

/-- utils.h:16-20 `xor_u8_array`. -/
def xor_u8_array (a : CPtr) (b : CPtr) (out : CPtr) (len : Nat) : CM Unit := do
  let i : Nat := 0
  let e1 : Nat ← cwhile
      (fun _s1 =>
        let i : Nat := _s1
        decide (i < len))
      (fun _s1 => do
        let i : Nat := _s1
        let e2 : Byte ← ld a i
        let e3 : Byte ← ld b i
        st out i (BitVec.ofNat 8 (e2.toNat ^^^ e3.toNat))
        let i : Nat := (i + 1) % U64
        pure i)
      i
  pure ()

/-- utils.h:22-28 `masked_xor_u8_array`. -/
def masked_xor_u8_array (a : CPtr) (b : CPtr) (out : CPtr) (mask_bit : Byte) (len : Nat) : CM Unit := do
  let mask : Byte := BitVec.ofNat 8 ((U32 - (mask_bit.toNat &&& 1)) % U32)
  let i : Nat := 0
  let e1 : Nat ← cwhile
      (fun _s1 =>
        let i : Nat := _s1
        decide (i < len))
      (fun _s1 => do
        let i : Nat := _s1
        let e2 : Byte ← ld a i
        let e3 : Byte ← ld b i
        st out i (BitVec.ofNat 8 (e2.toNat ^^^ (e3.toNat &&& mask.toNat)))
        let i : Nat := (i + 1) % U64
        pure i)
      i
  pure ()

end Faest.Gen
