/-
Generated by tools/c2leak.py; do not edit.
Functions of sha3/KeccakSponge.inc.
-/
import Verif.Model.Leak.IR
import Verif.Model.Leak.Prog.Ids
import Verif.Model.Leak.Prog32.Ids

namespace Faest.Leak.Prog32

/-- `KeccakWidth1600_SpongeAbsorb`, sha3/KeccakSponge.inc:151-208; variables: 0 instance, 1 data, 2 dataByteLen, 3 i,
  4 j, 5 partialBlock, 6 curData, 7 rateInBytes -/
def KeccakWidth1600_SpongeAbsorb : Fn := ⟨3,
  block [
    .asg 7 (.div (.div .u32) (.cell (.var 0) 1) (.lit 8)),
    .ite (.cell (.var 0) 3)
      (.ret (.lit 1))
      (.skip),
    .asg 3 (.lit 0),
    .asg 6 (.var 1),
    .loop (.bin .lt (.var 3) (.var 2))
      (block [
        .ite (.bin .eq (.cell (.var 0) 2) (.lit 0))
          (.asg 8 (.bin .ne (.bin .ge (.var 2) (.bin (.add .u64) (.var 3) (.var 7))) (.lit 0)))
          (.asg 8 (.lit 0)),
        .ite (.var 8)
          (block [
            .asg 4 (.bin (.sub .u64) (.var 2) (.var 3)),
            .loop (.bin .ge (.var 4) (.var 7))
              (block [
                .call none Prog.Id.KeccakP1600_AddBytes [.cell (.var 0) 0, .var 6, .lit 0, .var 7],
                .call none Prog.Id.KeccakP1600_Permute_24rounds [.cell (.var 0) 0],
                .asg 6 (.padd (.var 6) (.var 7) 1)])
              (.asg 4 (.bin (.sub .u64) (.var 4) (.var 7))),
            .asg 3 (.bin (.sub .u64) (.var 2) (.var 4))])
          (block [
            .asg 5 (.un (.cast .u32) (.bin (.sub .u64) (.var 2) (.var 3))),
            .ite (.bin .gt (.bin (.add .u32) (.var 5) (.cell (.var 0) 2)) (.var 7))
              (.asg 5 (.bin (.sub .u32) (.var 7) (.cell (.var 0) 2)))
              (.skip),
            .asg 3 (.bin (.add .u64) (.var 3) (.var 5)),
            .call none Prog.Id.KeccakP1600_AddBytes [.cell (.var 0) 0, .var 6, .cell (.var 0) 2, .var 5],
            .asg 6 (.padd (.var 6) (.var 5) 1),
            .stc (.var 0) 2 (.bin (.add .u32) (.cell (.var 0) 2) (.var 5)),
            .ite (.bin .eq (.cell (.var 0) 2) (.var 7))
              (block [
                .call none Prog.Id.KeccakP1600_Permute_24rounds [.cell (.var 0) 0],
                .stc (.var 0) 2 (.lit 0)])
              (.skip)])])
      (.skip),
    .ret (.lit 0)]⟩

/-- `KeccakWidth1600_SpongeAbsorbLastFewBits`, sha3/KeccakSponge.inc:212-250; variables: 0 instance, 1 delimitedData,
  2 rateInBytes -/
def KeccakWidth1600_SpongeAbsorbLastFewBits : Fn := ⟨2,
  block [
    .asg 2 (.div (.div .u32) (.cell (.var 0) 1) (.lit 8)),
    .ite (.bin .eq (.var 1) (.lit 0))
      (.ret (.lit 1))
      (.skip),
    .ite (.cell (.var 0) 3)
      (.ret (.lit 1))
      (.skip),
    .call none Id.KeccakP1600_AddByte [.cell (.var 0) 0, .var 1, .cell (.var 0) 2],
    .ite (.bin .ge (.var 1) (.lit 128))
      (.asg 3 (.bin .ne (.bin .eq (.cell (.var 0) 2) (.bin (.sub .u32) (.var 2) (.lit 1))) (.lit 0)))
      (.asg 3 (.lit 0)),
    .ite (.var 3)
      (.call none Prog.Id.KeccakP1600_Permute_24rounds [.cell (.var 0) 0])
      (.skip),
    .call none Id.KeccakP1600_AddByte [.cell (.var 0) 0, .lit 128, .bin (.sub .u32) (.var 2) (.lit 1)],
    .call none Prog.Id.KeccakP1600_Permute_24rounds [.cell (.var 0) 0],
    .stc (.var 0) 2 (.lit 0),
    .stc (.var 0) 3 (.lit 1),
    .ret (.lit 0)]⟩

end Faest.Leak.Prog32
