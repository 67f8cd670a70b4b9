/-
What is assumed of the instructions KIMD and KLMD with the function codes of SHAKE128 and SHAKE256.
-/
import Verif.Spec.KeccakParts
import Verif.Model.S390

namespace Faest.S390
open Spec.Keccak

/-- Bytes in a block. -/
def rate (sel : Nat) : Nat := if sel = 128 then 168 else 136

/-- Function code of SHAKE128 (`sel = 128`) or SHAKE256. -/
def code (sel : Nat) : Nat := if sel = 128 then 0x24 else 0x25

/-- The state after the end `d` of the input, from the state in the parameter block `P`. -/
def closed (sel : Nat) (P d : List Byte) : Str :=
  absorbFrom keccakP (8 * rate sel) (strOf P) (lastPart (8 * rate sel) d)

/-- The parameter block holds the state of Keccak.  KIMD takes in whole blocks; KLMD takes in the end of the input with
the bits which SHAKE appends, and produces a block of output. -/
structure Cpacf.Ok (I : Cpacf) : Prop where
  kimd : ∀ (sel : Nat) (P d : List Byte), P.length = 200 → d.length % rate sel = 0 →
    ∃ P', I.kimd (code sel) P d = some P' ∧ P'.length = 200 ∧
      strOf P' = absorbFrom keccakP (8 * rate sel) (strOf P) (bitsOf d)
  klmd : ∀ (sel : Nat) (P d : List Byte), P.length = 200 → d.length ≤ rate sel →
    ∃ P', I.klmd (code sel) P d (rate sel)
        = some (P', bytesOf (squeezeFrom keccakP (8 * rate sel) (closed sel P d) (8 * rate sel))) ∧ P'.length = 200

/-- In addition, after KLMD the parameter block holds the state from which the block of output was taken. -/
def Cpacf.Keeps (I : Cpacf) : Prop :=
  ∀ (sel : Nat) (P d P' out : List Byte), P.length = 200 → d.length ≤ rate sel →
    I.klmd (code sel) P d (rate sel) = some (P', out) → strOf P' = closed sel P d

end Faest.S390
