/-
The functions of sha3/armv8a-neon/KeccakP-1600-armv8a-neon.s as C calls them (sha3/armv8a-neon/KeccakP-1600-SnP.h).

`c0` are the registers and flags before the call, with the exception of the arguments.  Arguments of type `unsigned int`
are taken to be in the whole register (`Asm.argN`); of an argument of type `unsigned char` only the low byte is known.
-/
import Verif.Model.CHash
import Verif.Model.Gen.KeccakNeon

namespace Faest.GenN
open Faest.C Faest.A64
open Faest.Asm (argP argN)

/-- sha3/armv8a-neon/KeccakP-1600-SnP.h:12 `KeccakP1600_Initialize`. -/
def KeccakP1600_Initialize (c0 : Cpu) (state : CPtr) : CM Unit :=
  prog.callC .KeccakP1600_Initialize c0 (argP state) c0.x1 c0.x2 c0.x3

/-- sha3/armv8a-neon/KeccakP-1600-SnP.h:13 `KeccakP1600_AddByte`. -/
def KeccakP1600_AddByte (c0 : Cpu) (state : CPtr) (data : Byte) (offset : Nat) : CM Unit :=
  prog.callC .KeccakP1600_AddByte c0 (argP state) (.low data) (argN offset) c0.x3

/-- sha3/armv8a-neon/KeccakP-1600-SnP.h:14 `KeccakP1600_AddBytes`. -/
def KeccakP1600_AddBytes (c0 : Cpu) (state data : CPtr) (offset length : Nat) : CM Unit :=
  prog.callC .KeccakP1600_AddBytes c0 (argP state) (argP data) (argN offset) (argN length)

/-- sha3/armv8a-neon/KeccakP-1600-SnP.h:19 `KeccakP1600_Permute_24rounds`. -/
def KeccakP1600_Permute_24rounds (c0 : Cpu) (state : CPtr) : CM Unit :=
  prog.callC .KeccakP1600_Permute_24rounds c0 (argP state) c0.x1 c0.x2 c0.x3

/-- sha3/armv8a-neon/KeccakP-1600-SnP.h:20 `KeccakP1600_ExtractBytes`. -/
def KeccakP1600_ExtractBytes (c0 : Cpu) (state data : CPtr) (offset length : Nat) : CM Unit :=
  prog.callC .KeccakP1600_ExtractBytes c0 (argP state) (argP data) (argN offset) (argN length)

end Faest.GenN
