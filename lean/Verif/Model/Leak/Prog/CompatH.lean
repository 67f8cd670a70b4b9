/-
Generated by tools/c2leak.py; do not edit.
Functions of compat.h.
-/
import Verif.Model.Leak.IR
import Verif.Model.Leak.Prog.Ids

namespace Faest.Leak.Prog

/-- `parity8`, compat.h:208-213; variables: 0 n -/
def parity8 : Fn := ⟨1,
  block [
    .asg 0 (.un (.cast .u8) (.bin (.bxor .i32) (.var 0) (.bin (.shr .i32) (.var 0) (.lit 4)))),
    .asg 0 (.un (.cast .u8) (.bin (.bxor .i32) (.var 0) (.bin (.shr .i32) (.var 0) (.lit 2)))),
    .asg 0 (.un (.cast .u8) (.bin (.bxor .i32) (.var 0) (.bin (.shr .i32) (.var 0) (.lit 1)))),
    .ret (.un (.cast .u8) (.un .lnot (.bin (.band .i32) (.un (.bnot .i32) (.var 0)) (.lit 1))))]⟩

/-- `rotr8`, compat.h:139-143; variables: 0 n, 1 c, 2 mask -/
def rotr8 : Fn := ⟨2,
  block [
    .asg 2 (.lit 7),
    .asg 1 (.bin (.band .u32) (.var 1) (.var 2)),
    .ret (.un (.cast .u8) (.bin (.bor .i32) (.bin (.shr .i32) (.var 0) (.var 1)) (.bin (.shl .i32) (.var 0) (.bin
      (.band .u32) (.un (.neg .u32) (.var 1)) (.var 2)))))]⟩

end Faest.Leak.Prog
