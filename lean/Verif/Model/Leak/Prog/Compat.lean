/-
Generated by tools/c2leak.py; do not edit.
Functions of compat.c.
-/
import Verif.Model.Leak.IR
import Verif.Model.Leak.Prog.Ids

namespace Faest.Leak.Prog

/-- `faest_timingsafe_bcmp`, compat.c:113-126; variables: 0 a, 1 b, 2 len, 3 p1, 4 p2, 5 res -/
def faest_timingsafe_bcmp : Fn := ⟨3,
  block [
    .asg 3 (.var 0),
    .asg 4 (.var 1),
    .asg 5 (.lit 0),
    .loop (.var 2)
      (.asg 5 (.bin (.bor .u32) (.var 5) (.un (.cast .u32) (.bin (.bxor .i32) (.ld 1 (.var 3)) (.ld 1 (.var 4))))))
      (block [
        .asg 2 (.bin (.sub .u64) (.var 2) (.lit 1)),
        .asg 3 (.padd (.var 3) (.lit 1) 1),
        .asg 4 (.padd (.var 4) (.lit 1) 1)]),
    .ret (.un (.cast .i32) (.var 5))]⟩

end Faest.Leak.Prog
