/-
Generated by tools/c2leak.py; do not edit.
Functions of sha3/KeccakSpongetimes4.inc.
-/
import Verif.Model.Leak.IR
import Verif.Model.Leak.Prog.Ids
import Verif.Model.Leak.ProgAvx.Ids

namespace Faest.Leak.ProgAvx

/-- `KeccakWidth1600times4_SpongeInitialize`, sha3/KeccakSpongetimes4.inc:38-51; variables: 0 instance, 1 rate, 2
  capacity -/
def KeccakWidth1600times4_SpongeInitialize : Fn := ⟨3,
  block [
    .ite (.bin .ne (.bin (.add .u32) (.var 1) (.var 2)) (.lit 1600))
      (.ret (.lit 1))
      (.skip),
    .ite (.bin .le (.var 1) (.lit 0))
      (.asg 3 (.lit 1))
      (.asg 3 (.bin .ne (.bin .gt (.var 1) (.lit 1600)) (.lit 0))),
    .ite (.var 3)
      (.asg 4 (.lit 1))
      (.asg 4 (.bin .ne (.bin .ne (.div (.mod .u32) (.var 1) (.lit 8)) (.lit 0)) (.lit 0))),
    .ite (.var 4)
      (.ret (.lit 1))
      (.skip),
    .call none Prog.Id.KeccakP1600times4_InitializeAll [.cell (.var 0) 0],
    .stc (.var 0) 1 (.var 1),
    .stc (.var 0) 2 (.lit 0),
    .stc (.var 0) 3 (.lit 0),
    .ret (.lit 0)]⟩

/-- `KeccakWidth1600times4_SpongeAbsorbLastFewBits`, sha3/KeccakSpongetimes4.inc:120-145; variables: 0 instance, 1
  delimitedData, 2 rateInBytes, 3 instanceIndex, 5 instanceIndex -/
def KeccakWidth1600times4_SpongeAbsorbLastFewBits : Fn := ⟨2,
  block [
    .asg 2 (.div (.div .u32) (.cell (.var 0) 1) (.lit 8)),
    .ite (.bin .eq (.var 1) (.lit 0))
      (.ret (.lit 1))
      (.skip),
    .ite (.cell (.var 0) 3)
      (.ret (.lit 1))
      (.skip),
    .asg 3 (.lit 0),
    .loop (.bin .lt (.var 3) (.lit 4))
      (.st 1 (.padd (.cell (.var 0) 0) (.bin (.add .u32) (.bin (.add .u32) (.bin (.mul .u32) (.var 3) (.lit 8)) (.bin
        (.mul .u32) (.bin (.mul .u32) (.div (.div .u32) (.cell (.var 0) 2) (.lit 8)) (.lit 4)) (.lit 8))) (.div (.mod
        .u32) (.cell (.var 0) 2) (.lit 8))) 1) (.un (.cast .u8) (.bin (.bxor .i32) (.ld 1 (.padd (.cell (.var 0) 0)
        (.bin (.add .u32) (.bin (.add .u32) (.bin (.mul .u32) (.var 3) (.lit 8)) (.bin (.mul .u32) (.bin (.mul .u32)
        (.div (.div .u32) (.cell (.var 0) 2) (.lit 8)) (.lit 4)) (.lit 8))) (.div (.mod .u32) (.cell (.var 0) 2)
        (.lit 8))) 1)) (.var 1))))
      (.asg 3 (.bin (.add .u32) (.var 3) (.lit 1))),
    .ite (.bin .ge (.var 1) (.lit 128))
      (.asg 4 (.bin .ne (.bin .eq (.cell (.var 0) 2) (.bin (.sub .u32) (.var 2) (.lit 1))) (.lit 0)))
      (.asg 4 (.lit 0)),
    .ite (.var 4)
      (.call none Prog.Id.KeccakP1600times4_PermuteAll_24rounds [.cell (.var 0) 0])
      (.skip),
    .asg 5 (.lit 0),
    .loop (.bin .lt (.var 5) (.lit 4))
      (.st 1 (.padd (.cell (.var 0) 0) (.bin (.add .u32) (.bin (.add .u32) (.bin (.mul .u32) (.var 5) (.lit 8)) (.bin
        (.mul .u32) (.bin (.mul .u32) (.div (.div .u32) (.bin (.sub .u32) (.var 2) (.lit 1)) (.lit 8)) (.lit 4))
        (.lit 8))) (.div (.mod .u32) (.bin (.sub .u32) (.var 2) (.lit 1)) (.lit 8))) 1) (.un (.cast .u8) (.bin (.bxor
        .i32) (.ld 1 (.padd (.cell (.var 0) 0) (.bin (.add .u32) (.bin (.add .u32) (.bin (.mul .u32) (.var 5) (.lit
        8)) (.bin (.mul .u32) (.bin (.mul .u32) (.div (.div .u32) (.bin (.sub .u32) (.var 2) (.lit 1)) (.lit 8))
        (.lit 4)) (.lit 8))) (.div (.mod .u32) (.bin (.sub .u32) (.var 2) (.lit 1)) (.lit 8))) 1)) (.lit 128))))
      (.asg 5 (.bin (.add .u32) (.var 5) (.lit 1))),
    .call none Prog.Id.KeccakP1600times4_PermuteAll_24rounds [.cell (.var 0) 0],
    .stc (.var 0) 2 (.lit 0),
    .stc (.var 0) 3 (.lit 1),
    .ret (.lit 0)]⟩

end Faest.Leak.ProgAvx
