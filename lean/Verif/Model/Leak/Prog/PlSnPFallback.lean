/-
Generated by tools/c2leak.py; do not edit.
Functions of sha3/opt64/PlSnP-Fallback.inc.
-/
import Verif.Model.Leak.IR
import Verif.Model.Leak.Prog.Ids

namespace Faest.Leak.Prog

/-- `KeccakP1600times4_StaticInitialize`, sha3/opt64/PlSnP-Fallback.inc:66-69 -/
def KeccakP1600times4_StaticInitialize : Fn := ⟨0,
  .skip⟩

/-- `KeccakP1600times4_InitializeAll`, sha3/opt64/PlSnP-Fallback.inc:71-81; variables: 0 states, 1 i -/
def KeccakP1600times4_InitializeAll : Fn := ⟨1,
  block [
    .asg 1 (.lit 0),
    .loop (.bin .lt (.var 1) (.lit 4))
      (.call none Id.KeccakP1600_Initialize [.padd (.var 0) (.bin (.mul .u32) (.var 1) (.lit 200)) 1])
      (.asg 1 (.bin (.add .u32) (.var 1) (.lit 1)))]⟩

/-- `KeccakP1600times4_AddBytes`, sha3/opt64/PlSnP-Fallback.inc:92-99; variables: 0 states, 1 instanceIndex, 2 data,
  3 offset, 4 length -/
def KeccakP1600times4_AddBytes : Fn := ⟨5,
  .call none Id.KeccakP1600_AddBytes [.padd (.var 0) (.bin (.mul .u32) (.var 1) (.lit 200)) 1, .var 2, .var 3, .var
    4]⟩

/-- `KeccakP1600times4_PermuteAll_24rounds`, sha3/opt64/PlSnP-Fallback.inc:147-158; variables: 0 states, 1 i -/
def KeccakP1600times4_PermuteAll_24rounds : Fn := ⟨1,
  block [
    .asg 1 (.lit 0),
    .loop (.bin .lt (.var 1) (.lit 4))
      (.call none Id.KeccakP1600_Permute_24rounds [.padd (.var 0) (.bin (.mul .u32) (.var 1) (.lit 200)) 1])
      (.asg 1 (.bin (.add .u32) (.var 1) (.lit 1)))]⟩

/-- `KeccakP1600times4_AddByte`, sha3/opt64/PlSnP-Fallback.inc:83-90; variables: 0 states, 1 instanceIndex, 2 byte, 3
  offset -/
def KeccakP1600times4_AddByte : Fn := ⟨4,
  .st 1 (.padd (.padd (.var 0) (.bin (.mul .u32) (.var 1) (.lit 200)) 1) (.var 3) 1) (.un (.cast .u8) (.bin (.bxor
    .i32) (.ld 1 (.padd (.padd (.var 0) (.bin (.mul .u32) (.var 1) (.lit 200)) 1) (.var 3) 1)) (.var 2)))⟩

/-- `KeccakP1600times4_ExtractBytes`, sha3/opt64/PlSnP-Fallback.inc:205-212; variables: 0 states, 1 instanceIndex, 2
  data, 3 offset, 4 length -/
def KeccakP1600times4_ExtractBytes : Fn := ⟨5,
  .call none Id.KeccakP1600_ExtractBytes [.padd (.var 0) (.bin (.mul .u32) (.var 1) (.lit 200)) 1, .var 2, .var 3,
    .var 4]⟩

end Faest.Leak.Prog
