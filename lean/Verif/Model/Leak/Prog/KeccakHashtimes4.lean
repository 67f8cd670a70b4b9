/-
Generated by tools/c2leak.py; do not edit.
Functions of sha3/KeccakHashtimes4.c.
-/
import Verif.Model.Leak.IR
import Verif.Model.Leak.Prog.Ids

namespace Faest.Leak.Prog

/-- `Keccak_HashInitializetimes4`, sha3/KeccakHashtimes4.c:24-36; variables: 0 instance, 1 rate, 2 capacity, 3
  hashbitlen, 4 delimitedSuffix, 5 result -/
def Keccak_HashInitializetimes4 : Fn := ⟨5,
  block [
    .ite (.bin .eq (.var 4) (.lit 0))
      (.ret (.lit 1))
      (.skip),
    .call (some 6) Id.KeccakWidth1600times4_SpongeInitialize [.cell (.var 0) 0, .var 1, .var 2],
    .asg 5 (.var 6),
    .ite (.bin .ne (.var 5) (.lit 0))
      (.ret (.var 5))
      (.skip),
    .stc (.var 0) 1 (.var 3),
    .stc (.var 0) 2 (.var 4),
    .ret (.lit 0)]⟩

/-- `Keccak_HashUpdatetimes4`, sha3/KeccakHashtimes4.c:40-45; variables: 0 instance, 1 data, 2 databitlen -/
def Keccak_HashUpdatetimes4 : Fn := ⟨3,
  block [
    .ite (.bin .ne (.div (.mod .u64) (.var 2) (.lit 8)) (.lit 0))
      (.ret (.lit 1))
      (.skip),
    .call (some 3) Id.KeccakWidth1600times4_SpongeAbsorb [.cell (.var 0) 0, .var 1, .div (.div .u64) (.var 2) (.lit
      8)],
    .ret (.var 3)]⟩

/-- `Keccak_HashFinaltimes4`, sha3/KeccakHashtimes4.c:49-56; variables: 0 instance, 1 hashval, 2 ret -/
def Keccak_HashFinaltimes4 : Fn := ⟨2,
  block [
    .call (some 3) Id.KeccakWidth1600times4_SpongeAbsorbLastFewBits [.cell (.var 0) 0, .cell (.var 0) 2],
    .asg 2 (.var 3),
    .ite (.bin .eq (.var 2) (.lit 0))
      (block [
        .call (some 4) Id.KeccakWidth1600times4_SpongeSqueeze [.cell (.var 0) 0, .var 1, .div (.div .u32) (.cell
          (.var 0) 1) (.lit 8)],
        .ret (.var 4)])
      (.ret (.var 2))]⟩

/-- `Keccak_HashSqueezetimes4`, sha3/KeccakHashtimes4.c:60-65; variables: 0 instance, 1 data, 2 databitlen -/
def Keccak_HashSqueezetimes4 : Fn := ⟨3,
  block [
    .ite (.bin .ne (.div (.mod .u64) (.var 2) (.lit 8)) (.lit 0))
      (.ret (.lit 1))
      (.skip),
    .call (some 3) Id.KeccakWidth1600times4_SpongeSqueeze [.cell (.var 0) 0, .var 1, .div (.div .u64) (.var 2) (.lit
      8)],
    .ret (.var 3)]⟩

end Faest.Leak.Prog
