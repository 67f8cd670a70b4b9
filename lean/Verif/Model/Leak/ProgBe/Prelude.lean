/-
Generated by tools/c2leak.py; do not edit.
Functions of PRELUDE of tools/c2leak.py.
-/
import Verif.Model.Leak.IR
import Verif.Model.Leak.Prog.Ids
import Verif.Model.Leak.ProgBe.Ids

namespace Faest.Leak.ProgBe

/-- `bswap64`, PRELUDE of tools/c2leak.py:34-39; variables: 0 x -/
def bswap64 : Fn := ⟨1,
  .ret (.bin (.bor .u64) (.bin (.bor .u64) (.bin (.bor .u64) (.bin (.bor .u64) (.bin (.bor .u64) (.bin (.bor .u64)
    (.bin (.bor .u64) (.bin (.shr .u64) (.bin (.band .u64) (.var 0) (.lit 18374686479671623680)) (.lit 56)) (.bin
    (.shr .u64) (.bin (.band .u64) (.var 0) (.lit 71776119061217280)) (.lit 40))) (.bin (.shr .u64) (.bin (.band
    .u64) (.var 0) (.lit 280375465082880)) (.lit 24))) (.bin (.shr .u64) (.bin (.band .u64) (.var 0) (.lit
    1095216660480)) (.lit 8))) (.bin (.shl .u64) (.bin (.band .u64) (.var 0) (.lit 4278190080)) (.lit 8))) (.bin
    (.shl .u64) (.bin (.band .u64) (.var 0) (.lit 16711680)) (.lit 24))) (.bin (.shl .u64) (.bin (.band .u64) (.var
    0) (.lit 65280)) (.lit 40))) (.bin (.shl .u64) (.bin (.band .u64) (.var 0) (.lit 255)) (.lit 56)))⟩

end Faest.Leak.ProgBe
