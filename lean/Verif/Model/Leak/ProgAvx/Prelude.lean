/-
Generated by tools/c2leak.py; do not edit.
Functions of PRELUDE of tools/c2leak.py.
-/
import Verif.Model.Leak.IR
import Verif.Model.Leak.Prog.Ids
import Verif.Model.Leak.ProgAvx.Ids

namespace Faest.Leak.ProgAvx

/-- `KeccakP1600_AddByte`, PRELUDE of tools/c2leak.py:33-33; variables: 0 state, 1 data, 2 offset -/
def KeccakP1600_AddByte : Fn := ⟨3,
  .st 1 (.padd (.var 0) (.var 2) 1) (.un (.cast .u8) (.bin (.bxor .i32) (.ld 1 (.padd (.var 0) (.var 2) 1)) (.var
    1)))⟩

end Faest.Leak.ProgAvx
