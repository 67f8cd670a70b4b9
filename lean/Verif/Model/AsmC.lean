/-
The functions of sha3/avx2/KeccakP-1600-AVX2.s as C calls them (sha3/avx2/KeccakP-1600-SnP.h).

`c0` are the registers and flags before the call, with the exception of the arguments.  Arguments of type `unsigned int`
are taken to be in the whole register (`Asm.argN`); of an argument of type `unsigned char` only the low byte is known.
-/
import Verif.Model.CHash
import Verif.Model.Gen.KeccakAsm

namespace Faest.GenX
open Faest.C Faest.Asm

/-- sha3/avx2/KeccakP-1600-SnP.h:39 `KeccakP1600_Initialize`. -/
def KeccakP1600_Initialize (c0 : Cpu) (state : CPtr) : CM Unit := do
  let _ ← prog.callC .KeccakP1600_Initialize c0 (argP state) c0.rsi c0.rdx c0.rcx
  pure ()

/-- sha3/avx2/KeccakP-1600-SnP.h:40 `KeccakP1600_AddByte`. -/
def KeccakP1600_AddByte (c0 : Cpu) (state : CPtr) (data : Byte) (offset : Nat) : CM Unit := do
  let _ ← prog.callC .KeccakP1600_AddByte c0 (argP state) (.low data) (argN offset) c0.rcx
  pure ()

/-- sha3/avx2/KeccakP-1600-SnP.h:41 `KeccakP1600_AddBytes`. -/
def KeccakP1600_AddBytes (c0 : Cpu) (state data : CPtr) (offset length : Nat) : CM Unit := do
  let _ ← prog.callC .KeccakP1600_AddBytes c0 (argP state) (argP data) (argN offset) (argN length)
  pure ()

/-- sha3/avx2/KeccakP-1600-SnP.h:46 `KeccakP1600_Permute_24rounds`. -/
def KeccakP1600_Permute_24rounds (c0 : Cpu) (state : CPtr) : CM Unit := do
  let _ ← prog.callC .KeccakP1600_Permute_24rounds c0 (argP state) c0.rsi c0.rdx c0.rcx
  pure ()

/-- sha3/avx2/KeccakP-1600-SnP.h:47 `KeccakP1600_ExtractBytes`. -/
def KeccakP1600_ExtractBytes (c0 : Cpu) (state data : CPtr) (offset length : Nat) : CM Unit := do
  let _ ← prog.callC .KeccakP1600_ExtractBytes c0 (argP state) (argP data) (argN offset) (argN length)
  pure ()

/-- sha3/avx2/KeccakP-1600-SnP.h:49 `KeccakF1600_FastLoop_Absorb`. -/
def KeccakF1600_FastLoop_Absorb (c0 : Cpu) (state : CPtr) (laneCount : Nat) (data : CPtr) (dataByteLen : Nat) : CM Nat := do
  let c ← prog.callC .KeccakF1600_FastLoop_Absorb c0 (argP state) (argN laneCount) (argP data) (argN dataByteLen)
  let x ← lft c.rax.isNum
  pure x.toNat

end Faest.GenX
