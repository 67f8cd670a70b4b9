/-
Generated by tools/c2leak.py; do not edit.
Functions of sha3/KeccakSponge.inc.
-/
import Verif.Model.Leak.IR
import Verif.Model.Leak.Prog.Ids
import Verif.Model.Leak.ProgAvx.Ids

namespace Faest.Leak.ProgAvx

/-- `KeccakWidth1600_SpongeAbsorbLastFewBits`, sha3/KeccakSponge.inc:212-250; variables: 0 instance, 1 delimitedData,
  2 rateInBytes -/
def KeccakWidth1600_SpongeAbsorbLastFewBits : Fn := ⟨2,
  block [
    .asg 2 (.div (.div .u32) (.cell (.var 0) 1) (.lit 8)),
    .ite (.bin .eq (.var 1) (.lit 0))
      (.ret (.lit 1))
      (.skip),
    .ite (.cell (.var 0) 3)
      (.ret (.lit 1))
      (.skip),
    .call none Id.KeccakP1600_AddByte [.cell (.var 0) 0, .var 1, .cell (.var 0) 2],
    .ite (.bin .ge (.var 1) (.lit 128))
      (.asg 3 (.bin .ne (.bin .eq (.cell (.var 0) 2) (.bin (.sub .u32) (.var 2) (.lit 1))) (.lit 0)))
      (.asg 3 (.lit 0)),
    .ite (.var 3)
      (.call none Prog.Id.KeccakP1600_Permute_24rounds [.cell (.var 0) 0])
      (.skip),
    .call none Id.KeccakP1600_AddByte [.cell (.var 0) 0, .lit 128, .bin (.sub .u32) (.var 2) (.lit 1)],
    .call none Prog.Id.KeccakP1600_Permute_24rounds [.cell (.var 0) 0],
    .stc (.var 0) 2 (.lit 0),
    .stc (.var 0) 3 (.lit 1),
    .ret (.lit 0)]⟩

end Faest.Leak.ProgAvx
