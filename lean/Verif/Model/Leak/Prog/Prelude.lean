/-
Generated by tools/c2leak.py; do not edit.
Functions of PRELUDE of tools/c2leak.py.
-/
import Verif.Model.Leak.IR
import Verif.Model.Leak.Prog.Ids

namespace Faest.Leak.Prog

/-- `memset`, PRELUDE of tools/c2leak.py:12-16; variables: 0 dst, 1 c, 2 n, 3 d, 4 i -/
def memset : Fn := ⟨3,
  block [
    .asg 3 (.var 0),
    .asg 4 (.lit 0),
    .loop (.bin .lt (.var 4) (.var 2))
      (.st 1 (.padd (.var 3) (.var 4) 1) (.un (.cast .u8) (.var 1)))
      (.asg 4 (.bin (.add .u64) (.var 4) (.lit 1))),
    .ret (.var 0)]⟩

/-- `memcpy`, PRELUDE of tools/c2leak.py:2-6; variables: 0 dst, 1 src, 2 n, 3 d, 4 s, 5 i -/
def memcpy : Fn := ⟨3,
  block [
    .asg 3 (.var 0),
    .asg 4 (.var 1),
    .asg 5 (.lit 0),
    .loop (.bin .lt (.var 5) (.var 2))
      (.st 1 (.padd (.var 3) (.var 5) 1) (.ld 1 (.padd (.var 4) (.var 5) 1)))
      (.asg 5 (.bin (.add .u64) (.var 5) (.lit 1))),
    .ret (.var 0)]⟩

/-- `rand_bytes`, PRELUDE of tools/c2leak.py:26-30; variables: 0 dst, 1 len, 2 i -/
def rand_bytes : Fn := ⟨2,
  block [
    .asg 2 (.lit 0),
    .loop (.bin .lt (.var 2) (.var 1))
      (.st 1 (.padd (.var 0) (.var 2) 1) (.ld 1 (.padd (.glob 11) (.bin (.add .u64) (.ld 8 (.glob 12)) (.var 2)) 1)))
      (.asg 2 (.bin (.add .u64) (.var 2) (.lit 1))),
    .st 8 (.glob 12) (.bin (.add .u64) (.ld 8 (.glob 12)) (.var 1)),
    .ret (.ld 4 (.glob 13))]⟩

end Faest.Leak.Prog
