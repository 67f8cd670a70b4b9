/-
Generated by tools/c2leak.py; do not edit.
Functions of utils.h.
-/
import Verif.Model.Leak.IR
import Verif.Model.Leak.Prog.Ids

namespace Faest.Leak.Prog

/-- `xor_u8_array`, utils.h:16-20; variables: 0 a, 1 b, 2 out, 3 len, 4 i -/
def xor_u8_array : Fn := ⟨4,
  block [
    .asg 4 (.lit 0),
    .loop (.bin .lt (.var 4) (.var 3))
      (.st 1 (.padd (.var 2) (.var 4) 1) (.un (.cast .u8) (.bin (.bxor .i32) (.ld 1 (.padd (.var 0) (.var 4) 1)) (.ld
        1 (.padd (.var 1) (.var 4) 1)))))
      (.asg 4 (.bin (.add .u64) (.var 4) (.lit 1)))]⟩

end Faest.Leak.Prog
