/-
Generated by tools/c2leak.py; do not edit.
Functions of sha3/KeccakSpongetimes4.inc.
-/
import Verif.Model.Leak.IR
import Verif.Model.Leak.Prog.Ids

namespace Faest.Leak.Prog

/-- `KeccakWidth1600times4_SpongeInitialize`, sha3/KeccakSpongetimes4.inc:38-51; variables: 0 instance, 1 rate, 2
  capacity -/
def KeccakWidth1600times4_SpongeInitialize : Fn := ⟨3,
  block [
    .ite (.bin .ne (.bin (.add .u32) (.var 1) (.var 2)) (.lit 1600))
      (.ret (.lit 1))
      (.skip),
    .ite (.bin .le (.var 1) (.lit 0))
      (.asg 3 (.lit 1))
      (.asg 3 (.bin .ne (.bin .gt (.var 1) (.lit 1600)) (.lit 0))),
    .ite (.var 3)
      (.asg 4 (.lit 1))
      (.asg 4 (.bin .ne (.bin .ne (.div (.mod .u32) (.var 1) (.lit 8)) (.lit 0)) (.lit 0))),
    .ite (.var 4)
      (.ret (.lit 1))
      (.skip),
    .call none Id.KeccakP1600times4_StaticInitialize [],
    .call none Id.KeccakP1600times4_InitializeAll [.cell (.var 0) 0],
    .stc (.var 0) 1 (.var 1),
    .stc (.var 0) 2 (.lit 0),
    .stc (.var 0) 3 (.lit 0),
    .ret (.lit 0)]⟩

/-- `KeccakWidth1600times4_SpongeAbsorb`, sha3/KeccakSpongetimes4.inc:55-116; variables: 0 instance, 1 data, 2
  dataByteLen, 3 i, 4 j, 5 partialBlock, 6 curData, 7 rateInBytes, 8 instanceIndex, 10 instanceIndex, 11
  instanceIndex -/
def KeccakWidth1600times4_SpongeAbsorb : Fn := ⟨3,
  block [
    .new 6 (.lit 32),
    .asg 7 (.div (.div .u32) (.cell (.var 0) 1) (.lit 8)),
    .ite (.cell (.var 0) 3)
      (.ret (.lit 1))
      (.skip),
    .asg 3 (.lit 0),
    .ite (.bin .gt (.var 2) (.lit 0))
      (block [
        .asg 8 (.lit 0),
        .loop (.bin .lt (.var 8) (.lit 4))
          (.stc (.padd (.var 6) (.var 8) 1) 0 (.cell (.padd (.var 1) (.var 8) 1) 0))
          (.asg 8 (.bin (.add .u32) (.var 8) (.lit 1)))])
      (.skip),
    .loop (.bin .lt (.var 3) (.var 2))
      (block [
        .ite (.bin .eq (.cell (.var 0) 2) (.lit 0))
          (.asg 9 (.bin .ne (.bin .ge (.var 2) (.bin (.add .u64) (.var 3) (.var 7))) (.lit 0)))
          (.asg 9 (.lit 0)),
        .ite (.var 9)
          (block [
            .asg 4 (.bin (.sub .u64) (.var 2) (.var 3)),
            .loop (.bin .ge (.var 4) (.var 7))
              (block [
                .asg 10 (.lit 0),
                .loop (.bin .lt (.var 10) (.lit 4))
                  (block [
                    .call none Id.KeccakP1600times4_AddBytes [.cell (.var 0) 0, .var 10, .cell (.padd (.var 6) (.var
                      10) 1) 0, .lit 0, .var 7],
                    .stc (.padd (.var 6) (.var 10) 1) 0 (.padd (.cell (.padd (.var 6) (.var 10) 1) 0) (.var 7) 1)])
                  (.asg 10 (.bin (.add .u32) (.var 10) (.lit 1))),
                .call none Id.KeccakP1600times4_PermuteAll_24rounds [.cell (.var 0) 0]])
              (.asg 4 (.bin (.sub .u64) (.var 4) (.var 7))),
            .asg 3 (.bin (.sub .u64) (.var 2) (.var 4))])
          (block [
            .asg 5 (.un (.cast .u32) (.bin (.sub .u64) (.var 2) (.var 3))),
            .ite (.bin .gt (.bin (.add .u32) (.var 5) (.cell (.var 0) 2)) (.var 7))
              (.asg 5 (.bin (.sub .u32) (.var 7) (.cell (.var 0) 2)))
              (.skip),
            .asg 3 (.bin (.add .u64) (.var 3) (.var 5)),
            .asg 11 (.lit 0),
            .loop (.bin .lt (.var 11) (.lit 4))
              (block [
                .call none Id.KeccakP1600times4_AddBytes [.cell (.var 0) 0, .var 11, .cell (.padd (.var 6) (.var 11)
                  1) 0, .cell (.var 0) 2, .var 5],
                .stc (.padd (.var 6) (.var 11) 1) 0 (.padd (.cell (.padd (.var 6) (.var 11) 1) 0) (.var 5) 1)])
              (.asg 11 (.bin (.add .u32) (.var 11) (.lit 1))),
            .stc (.var 0) 2 (.bin (.add .u32) (.cell (.var 0) 2) (.var 5)),
            .ite (.bin .eq (.cell (.var 0) 2) (.var 7))
              (block [
                .call none Id.KeccakP1600times4_PermuteAll_24rounds [.cell (.var 0) 0],
                .stc (.var 0) 2 (.lit 0)])
              (.skip)])])
      (.skip),
    .ret (.lit 0)]⟩

/-- `KeccakWidth1600times4_SpongeAbsorbLastFewBits`, sha3/KeccakSpongetimes4.inc:120-145; variables: 0 instance, 1
  delimitedData, 2 rateInBytes, 3 instanceIndex, 5 instanceIndex -/
def KeccakWidth1600times4_SpongeAbsorbLastFewBits : Fn := ⟨2,
  block [
    .asg 2 (.div (.div .u32) (.cell (.var 0) 1) (.lit 8)),
    .ite (.bin .eq (.var 1) (.lit 0))
      (.ret (.lit 1))
      (.skip),
    .ite (.cell (.var 0) 3)
      (.ret (.lit 1))
      (.skip),
    .asg 3 (.lit 0),
    .loop (.bin .lt (.var 3) (.lit 4))
      (.call none Id.KeccakP1600times4_AddByte [.cell (.var 0) 0, .var 3, .var 1, .cell (.var 0) 2])
      (.asg 3 (.bin (.add .u32) (.var 3) (.lit 1))),
    .ite (.bin .ge (.var 1) (.lit 128))
      (.asg 4 (.bin .ne (.bin .eq (.cell (.var 0) 2) (.bin (.sub .u32) (.var 2) (.lit 1))) (.lit 0)))
      (.asg 4 (.lit 0)),
    .ite (.var 4)
      (.call none Id.KeccakP1600times4_PermuteAll_24rounds [.cell (.var 0) 0])
      (.skip),
    .asg 5 (.lit 0),
    .loop (.bin .lt (.var 5) (.lit 4))
      (.call none Id.KeccakP1600times4_AddByte [.cell (.var 0) 0, .var 5, .lit 128, .bin (.sub .u32) (.var 2) (.lit
        1)])
      (.asg 5 (.bin (.add .u32) (.var 5) (.lit 1))),
    .call none Id.KeccakP1600times4_PermuteAll_24rounds [.cell (.var 0) 0],
    .stc (.var 0) 2 (.lit 0),
    .stc (.var 0) 3 (.lit 1),
    .ret (.lit 0)]⟩

/-- `KeccakWidth1600times4_SpongeSqueeze`, sha3/KeccakSpongetimes4.inc:149-195; variables: 0 instance, 1 data, 2
  dataByteLen, 3 i, 4 j, 5 partialBlock, 6 rateInBytes, 7 curData, 9 instanceIndex, 11 instanceIndex, 12
  instanceIndex -/
def KeccakWidth1600times4_SpongeSqueeze : Fn := ⟨3,
  block [
    .asg 6 (.div (.div .u32) (.cell (.var 0) 1) (.lit 8)),
    .new 7 (.lit 32),
    .stc (.var 7) 0 (.lit 0),
    .stc (.padd (.var 7) (.lit 1) 1) 0 (.lit 0),
    .stc (.padd (.var 7) (.lit 2) 1) 0 (.lit 0),
    .stc (.padd (.var 7) (.lit 3) 1) 0 (.lit 0),
    .ite (.un .lnot (.cell (.var 0) 3))
      (.call (some 8) Id.KeccakWidth1600times4_SpongeAbsorbLastFewBits [.var 0, .lit 1])
      (.skip),
    .asg 3 (.lit 0),
    .ite (.bin .gt (.var 2) (.lit 0))
      (block [
        .asg 9 (.lit 0),
        .loop (.bin .lt (.var 9) (.lit 4))
          (.stc (.padd (.var 7) (.var 9) 1) 0 (.cell (.padd (.var 1) (.var 9) 1) 0))
          (.asg 9 (.bin (.add .u32) (.var 9) (.lit 1)))])
      (.skip),
    .loop (.bin .lt (.var 3) (.var 2))
      (block [
        .ite (.bin .eq (.cell (.var 0) 2) (.var 6))
          (.asg 10 (.bin .ne (.bin .ge (.var 2) (.bin (.add .u64) (.var 3) (.var 6))) (.lit 0)))
          (.asg 10 (.lit 0)),
        .ite (.var 10)
          (block [
            .asg 4 (.bin (.sub .u64) (.var 2) (.var 3)),
            .loop (.bin .ge (.var 4) (.var 6))
              (block [
                .call none Id.KeccakP1600times4_PermuteAll_24rounds [.cell (.var 0) 0],
                .asg 11 (.lit 0),
                .loop (.bin .lt (.var 11) (.lit 4))
                  (block [
                    .call none Id.KeccakP1600times4_ExtractBytes [.cell (.var 0) 0, .var 11, .cell (.padd (.var 7)
                      (.var 11) 1) 0, .lit 0, .var 6],
                    .stc (.padd (.var 7) (.var 11) 1) 0 (.padd (.cell (.padd (.var 7) (.var 11) 1) 0) (.var 6) 1)])
                  (.asg 11 (.bin (.add .u32) (.var 11) (.lit 1)))])
              (.asg 4 (.bin (.sub .u64) (.var 4) (.var 6))),
            .asg 3 (.bin (.sub .u64) (.var 2) (.var 4))])
          (block [
            .ite (.bin .eq (.cell (.var 0) 2) (.var 6))
              (block [
                .call none Id.KeccakP1600times4_PermuteAll_24rounds [.cell (.var 0) 0],
                .stc (.var 0) 2 (.lit 0)])
              (.skip),
            .asg 5 (.un (.cast .u32) (.bin (.sub .u64) (.var 2) (.var 3))),
            .ite (.bin .gt (.bin (.add .u32) (.var 5) (.cell (.var 0) 2)) (.var 6))
              (.asg 5 (.bin (.sub .u32) (.var 6) (.cell (.var 0) 2)))
              (.skip),
            .asg 3 (.bin (.add .u64) (.var 3) (.var 5)),
            .asg 12 (.lit 0),
            .loop (.bin .lt (.var 12) (.lit 4))
              (block [
                .call none Id.KeccakP1600times4_ExtractBytes [.cell (.var 0) 0, .var 12, .cell (.padd (.var 7) (.var
                  12) 1) 0, .cell (.var 0) 2, .var 5],
                .stc (.padd (.var 7) (.var 12) 1) 0 (.padd (.cell (.padd (.var 7) (.var 12) 1) 0) (.var 5) 1)])
              (.asg 12 (.bin (.add .u32) (.var 12) (.lit 1))),
            .stc (.var 0) 2 (.bin (.add .u32) (.cell (.var 0) 2) (.var 5))])])
      (.skip),
    .ret (.lit 0)]⟩

end Faest.Leak.Prog
