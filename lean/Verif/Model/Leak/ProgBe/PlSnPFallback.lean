/-
Generated by tools/c2leak.py; do not edit.
Functions of sha3/opt64/PlSnP-Fallback.inc.
-/
import Verif.Model.Leak.IR
import Verif.Model.Leak.Prog.Ids
import Verif.Model.Leak.ProgBe.Ids

namespace Faest.Leak.ProgBe

/-- `KeccakP1600times4_AddByte`, sha3/opt64/PlSnP-Fallback.inc:83-90; variables: 0 states, 1 instanceIndex, 2 byte, 3
  offset -/
def KeccakP1600times4_AddByte : Fn := ⟨4,
  .call none Id.KeccakP1600_AddByte [.padd (.var 0) (.bin (.mul .u32) (.var 1) (.lit 200)) 1, .var 2, .var 3]⟩

end Faest.Leak.ProgBe
