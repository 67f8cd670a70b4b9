/-
Generated by tools/c2leak.py; do not edit.
Functions of sha3/plain32/KeccakP-1600-inplace32BI.c.
-/
import Verif.Model.Leak.IR
import Verif.Model.Leak.Prog.Ids
import Verif.Model.Leak.Prog32Be.Ids

namespace Faest.Leak.Prog32Be

/-- `KeccakP1600_AddLanes`, sha3/plain32/KeccakP-1600-inplace32BI.c:170-206; variables: 0 state, 1 data, 2 laneCount,
  3 lanePosition, 4 laneAsBytes, 6 low, 7 high, 8 even, 9 odd, 10 temp, 11 temp0, 12 temp1, 13 stateAsHalfLanes -/
def KeccakP1600_AddLanes : Fn := ⟨3,
  block [
    .asg 3 (.lit 0),
    .loop (.bin .lt (.var 3) (.var 2))
      (block [
        .new 4 (.lit 8),
        .call (some 5) Prog.Id.memcpy [.var 4, .padd (.var 1) (.bin (.mul .u32) (.var 3) (.lit 8)) 1, .lit 8],
        .asg 6 (.bin (.bor .u32) (.bin (.bor .u32) (.bin (.bor .u32) (.ld 1 (.var 4)) (.bin (.shl .u32) (.ld 1 (.padd
          (.var 4) (.lit 1) 1)) (.lit 8))) (.bin (.shl .u32) (.ld 1 (.padd (.var 4) (.lit 2) 1)) (.lit 16))) (.bin
          (.shl .u32) (.ld 1 (.padd (.var 4) (.lit 3) 1)) (.lit 24))),
        .asg 7 (.bin (.bor .u32) (.bin (.bor .u32) (.bin (.bor .u32) (.ld 1 (.padd (.var 4) (.lit 4) 1)) (.bin (.shl
          .u32) (.ld 1 (.padd (.var 4) (.lit 5) 1)) (.lit 8))) (.bin (.shl .u32) (.ld 1 (.padd (.var 4) (.lit 6) 1))
          (.lit 16))) (.bin (.shl .u32) (.ld 1 (.padd (.var 4) (.lit 7) 1)) (.lit 24))),
        .asg 13 (.var 0),
        .asg 11 (.var 6),
        .asg 10 (.un (.cast .u32) (.bin (.band .u64) (.bin (.bxor .u32) (.var 11) (.bin (.shr .u32) (.var 11) (.lit
          1))) (.lit 572662306))),
        .asg 11 (.bin (.bxor .u32) (.bin (.bxor .u32) (.var 11) (.var 10)) (.bin (.shl .u32) (.var 10) (.lit 1))),
        .asg 10 (.un (.cast .u32) (.bin (.band .u64) (.bin (.bxor .u32) (.var 11) (.bin (.shr .u32) (.var 11) (.lit
          2))) (.lit 202116108))),
        .asg 11 (.bin (.bxor .u32) (.bin (.bxor .u32) (.var 11) (.var 10)) (.bin (.shl .u32) (.var 10) (.lit 2))),
        .asg 10 (.un (.cast .u32) (.bin (.band .u64) (.bin (.bxor .u32) (.var 11) (.bin (.shr .u32) (.var 11) (.lit
          4))) (.lit 15728880))),
        .asg 11 (.bin (.bxor .u32) (.bin (.bxor .u32) (.var 11) (.var 10)) (.bin (.shl .u32) (.var 10) (.lit 4))),
        .asg 10 (.un (.cast .u32) (.bin (.band .u64) (.bin (.bxor .u32) (.var 11) (.bin (.shr .u32) (.var 11) (.lit
          8))) (.lit 65280))),
        .asg 11 (.bin (.bxor .u32) (.bin (.bxor .u32) (.var 11) (.var 10)) (.bin (.shl .u32) (.var 10) (.lit 8))),
        .asg 12 (.var 7),
        .asg 10 (.un (.cast .u32) (.bin (.band .u64) (.bin (.bxor .u32) (.var 12) (.bin (.shr .u32) (.var 12) (.lit
          1))) (.lit 572662306))),
        .asg 12 (.bin (.bxor .u32) (.bin (.bxor .u32) (.var 12) (.var 10)) (.bin (.shl .u32) (.var 10) (.lit 1))),
        .asg 10 (.un (.cast .u32) (.bin (.band .u64) (.bin (.bxor .u32) (.var 12) (.bin (.shr .u32) (.var 12) (.lit
          2))) (.lit 202116108))),
        .asg 12 (.bin (.bxor .u32) (.bin (.bxor .u32) (.var 12) (.var 10)) (.bin (.shl .u32) (.var 10) (.lit 2))),
        .asg 10 (.un (.cast .u32) (.bin (.band .u64) (.bin (.bxor .u32) (.var 12) (.bin (.shr .u32) (.var 12) (.lit
          4))) (.lit 15728880))),
        .asg 12 (.bin (.bxor .u32) (.bin (.bxor .u32) (.var 12) (.var 10)) (.bin (.shl .u32) (.var 10) (.lit 4))),
        .asg 10 (.un (.cast .u32) (.bin (.band .u64) (.bin (.bxor .u32) (.var 12) (.bin (.shr .u32) (.var 12) (.lit
          8))) (.lit 65280))),
        .asg 12 (.bin (.bxor .u32) (.bin (.bxor .u32) (.var 12) (.var 10)) (.bin (.shl .u32) (.var 10) (.lit 8))),
        .st 4 (.padd (.var 13) (.bin (.add .u32) (.bin (.mul .u32) (.var 3) (.lit 2)) (.lit 0)) 4) (.bin (.bxor .u32)
          (.ld 4 (.padd (.var 13) (.bin (.add .u32) (.bin (.mul .u32) (.var 3) (.lit 2)) (.lit 0)) 4)) (.bin (.bor
          .u32) (.bin (.band .u32) (.var 11) (.lit 65535)) (.bin (.shl .u32) (.var 12) (.lit 16)))),
        .st 4 (.padd (.var 13) (.bin (.add .u32) (.bin (.mul .u32) (.var 3) (.lit 2)) (.lit 1)) 4) (.bin (.bxor .u32)
          (.ld 4 (.padd (.var 13) (.bin (.add .u32) (.bin (.mul .u32) (.var 3) (.lit 2)) (.lit 1)) 4)) (.bin (.bor
          .u32) (.bin (.shr .u32) (.var 11) (.lit 16)) (.bin (.band .u32) (.var 12) (.lit 4294901760))))])
      (.asg 3 (.bin (.add .u32) (.var 3) (.lit 1)))]⟩

/-- `KeccakP1600_AddBytesInLane`, sha3/plain32/KeccakP-1600-inplace32BI.c:143-166; variables: 0 state, 1
  lanePosition, 2 data, 3 offset, 4 length, 5 laneAsBytes, 6 low, 7 high, 8 temp, 9 temp0, 10 temp1, 11
  stateAsHalfLanes -/
def KeccakP1600_AddBytesInLane : Fn := ⟨5,
  block [
    .new 5 (.lit 8),
    .asg 11 (.var 0),
    .call (some 12) Prog.Id.memset [.var 5, .lit 0, .lit 8],
    .call (some 13) Prog.Id.memcpy [.padd (.var 5) (.var 3) 1, .var 2, .var 4],
    .asg 6 (.bin (.bor .u32) (.bin (.bor .u32) (.bin (.bor .u32) (.ld 1 (.var 5)) (.bin (.shl .u32) (.ld 1 (.padd
      (.var 5) (.lit 1) 1)) (.lit 8))) (.bin (.shl .u32) (.ld 1 (.padd (.var 5) (.lit 2) 1)) (.lit 16))) (.bin (.shl
      .u32) (.ld 1 (.padd (.var 5) (.lit 3) 1)) (.lit 24))),
    .asg 7 (.bin (.bor .u32) (.bin (.bor .u32) (.bin (.bor .u32) (.ld 1 (.padd (.var 5) (.lit 4) 1)) (.bin (.shl
      .u32) (.ld 1 (.padd (.var 5) (.lit 5) 1)) (.lit 8))) (.bin (.shl .u32) (.ld 1 (.padd (.var 5) (.lit 6) 1))
      (.lit 16))) (.bin (.shl .u32) (.ld 1 (.padd (.var 5) (.lit 7) 1)) (.lit 24))),
    .asg 9 (.var 6),
    .asg 8 (.un (.cast .u32) (.bin (.band .u64) (.bin (.bxor .u32) (.var 9) (.bin (.shr .u32) (.var 9) (.lit 1)))
      (.lit 572662306))),
    .asg 9 (.bin (.bxor .u32) (.bin (.bxor .u32) (.var 9) (.var 8)) (.bin (.shl .u32) (.var 8) (.lit 1))),
    .asg 8 (.un (.cast .u32) (.bin (.band .u64) (.bin (.bxor .u32) (.var 9) (.bin (.shr .u32) (.var 9) (.lit 2)))
      (.lit 202116108))),
    .asg 9 (.bin (.bxor .u32) (.bin (.bxor .u32) (.var 9) (.var 8)) (.bin (.shl .u32) (.var 8) (.lit 2))),
    .asg 8 (.un (.cast .u32) (.bin (.band .u64) (.bin (.bxor .u32) (.var 9) (.bin (.shr .u32) (.var 9) (.lit 4)))
      (.lit 15728880))),
    .asg 9 (.bin (.bxor .u32) (.bin (.bxor .u32) (.var 9) (.var 8)) (.bin (.shl .u32) (.var 8) (.lit 4))),
    .asg 8 (.un (.cast .u32) (.bin (.band .u64) (.bin (.bxor .u32) (.var 9) (.bin (.shr .u32) (.var 9) (.lit 8)))
      (.lit 65280))),
    .asg 9 (.bin (.bxor .u32) (.bin (.bxor .u32) (.var 9) (.var 8)) (.bin (.shl .u32) (.var 8) (.lit 8))),
    .asg 10 (.var 7),
    .asg 8 (.un (.cast .u32) (.bin (.band .u64) (.bin (.bxor .u32) (.var 10) (.bin (.shr .u32) (.var 10) (.lit 1)))
      (.lit 572662306))),
    .asg 10 (.bin (.bxor .u32) (.bin (.bxor .u32) (.var 10) (.var 8)) (.bin (.shl .u32) (.var 8) (.lit 1))),
    .asg 8 (.un (.cast .u32) (.bin (.band .u64) (.bin (.bxor .u32) (.var 10) (.bin (.shr .u32) (.var 10) (.lit 2)))
      (.lit 202116108))),
    .asg 10 (.bin (.bxor .u32) (.bin (.bxor .u32) (.var 10) (.var 8)) (.bin (.shl .u32) (.var 8) (.lit 2))),
    .asg 8 (.un (.cast .u32) (.bin (.band .u64) (.bin (.bxor .u32) (.var 10) (.bin (.shr .u32) (.var 10) (.lit 4)))
      (.lit 15728880))),
    .asg 10 (.bin (.bxor .u32) (.bin (.bxor .u32) (.var 10) (.var 8)) (.bin (.shl .u32) (.var 8) (.lit 4))),
    .asg 8 (.un (.cast .u32) (.bin (.band .u64) (.bin (.bxor .u32) (.var 10) (.bin (.shr .u32) (.var 10) (.lit 8)))
      (.lit 65280))),
    .asg 10 (.bin (.bxor .u32) (.bin (.bxor .u32) (.var 10) (.var 8)) (.bin (.shl .u32) (.var 8) (.lit 8))),
    .st 4 (.padd (.var 11) (.bin (.add .u32) (.bin (.mul .u32) (.var 1) (.lit 2)) (.lit 0)) 4) (.bin (.bxor .u32)
      (.ld 4 (.padd (.var 11) (.bin (.add .u32) (.bin (.mul .u32) (.var 1) (.lit 2)) (.lit 0)) 4)) (.bin (.bor .u32)
      (.bin (.band .u32) (.var 9) (.lit 65535)) (.bin (.shl .u32) (.var 10) (.lit 16)))),
    .st 4 (.padd (.var 11) (.bin (.add .u32) (.bin (.mul .u32) (.var 1) (.lit 2)) (.lit 1)) 4) (.bin (.bxor .u32)
      (.ld 4 (.padd (.var 11) (.bin (.add .u32) (.bin (.mul .u32) (.var 1) (.lit 2)) (.lit 1)) 4)) (.bin (.bor .u32)
      (.bin (.shr .u32) (.var 9) (.lit 16)) (.bin (.band .u32) (.var 10) (.lit 4294901760))))]⟩

/-- part of `KeccakP1600_Permute_Nrounds` -/
def KeccakP1600_Permute_Nrounds.part0 : Stmt :=
  block [
    .asg 12 (.ld 4 (.padd (.var 22) (.lit 10) 4)),
    .asg 13 (.ld 4 (.padd (.padd (.var 22) (.lit 10) 4) (.lit 1) 4)),
    .asg 14 (.ld 4 (.padd (.var 22) (.lit 20) 4)),
    .asg 15 (.ld 4 (.padd (.padd (.var 22) (.lit 20) 4) (.lit 1) 4)),
    .st 4 (.padd (.padd (.var 22) (.lit 10) 4) (.lit 1) 4) (.var 14),
    .st 4 (.padd (.var 22) (.lit 10) 4) (.var 15),
    .asg 14 (.ld 4 (.padd (.var 22) (.lit 40) 4)),
    .asg 15 (.ld 4 (.padd (.padd (.var 22) (.lit 40) 4) (.lit 1) 4)),
    .st 4 (.padd (.var 22) (.lit 20) 4) (.var 14),
    .st 4 (.padd (.padd (.var 22) (.lit 20) 4) (.lit 1) 4) (.var 15),
    .asg 14 (.ld 4 (.padd (.var 22) (.lit 30) 4)),
    .asg 15 (.ld 4 (.padd (.padd (.var 22) (.lit 30) 4) (.lit 1) 4)),
    .st 4 (.padd (.padd (.var 22) (.lit 40) 4) (.lit 1) 4) (.var 14),
    .st 4 (.padd (.var 22) (.lit 40) 4) (.var 15),
    .st 4 (.padd (.var 22) (.lit 30) 4) (.var 12),
    .st 4 (.padd (.padd (.var 22) (.lit 30) 4) (.lit 1) 4) (.var 13),
    .asg 12 (.ld 4 (.padd (.var 22) (.lit 2) 4)),
    .asg 13 (.ld 4 (.padd (.padd (.var 22) (.lit 2) 4) (.lit 1) 4)),
    .asg 14 (.ld 4 (.padd (.var 22) (.lit 12) 4)),
    .asg 15 (.ld 4 (.padd (.padd (.var 22) (.lit 12) 4) (.lit 1) 4)),
    .st 4 (.padd (.var 22) (.lit 2) 4) (.var 14),
    .st 4 (.padd (.padd (.var 22) (.lit 2) 4) (.lit 1) 4) (.var 15),
    .asg 14 (.ld 4 (.padd (.var 22) (.lit 32) 4)),
    .asg 15 (.ld 4 (.padd (.padd (.var 22) (.lit 32) 4) (.lit 1) 4)),
    .st 4 (.padd (.padd (.var 22) (.lit 12) 4) (.lit 1) 4) (.var 14),
    .st 4 (.padd (.var 22) (.lit 12) 4) (.var 15),
    .asg 14 (.ld 4 (.padd (.var 22) (.lit 22) 4)),
    .asg 15 (.ld 4 (.padd (.padd (.var 22) (.lit 22) 4) (.lit 1) 4)),
    .st 4 (.padd (.var 22) (.lit 32) 4) (.var 14),
    .st 4 (.padd (.padd (.var 22) (.lit 32) 4) (.lit 1) 4) (.var 15),
    .st 4 (.padd (.padd (.var 22) (.lit 22) 4) (.lit 1) 4) (.var 12),
    .st 4 (.padd (.var 22) (.lit 22) 4) (.var 13),
    .asg 12 (.ld 4 (.padd (.var 22) (.lit 4) 4)),
    .asg 13 (.ld 4 (.padd (.padd (.var 22) (.lit 4) 4) (.lit 1) 4)),
    .asg 14 (.ld 4 (.padd (.var 22) (.lit 24) 4)),
    .asg 15 (.ld 4 (.padd (.padd (.var 22) (.lit 24) 4) (.lit 1) 4)),
    .st 4 (.padd (.padd (.var 22) (.lit 4) 4) (.lit 1) 4) (.var 14),
    .st 4 (.padd (.var 22) (.lit 4) 4) (.var 15),
    .asg 14 (.ld 4 (.padd (.var 22) (.lit 14) 4)),
    .asg 15 (.ld 4 (.padd (.padd (.var 22) (.lit 14) 4) (.lit 1) 4))]

/-- part of `KeccakP1600_Permute_Nrounds` -/
def KeccakP1600_Permute_Nrounds.part1 : Stmt :=
  block [
    .st 4 (.padd (.var 22) (.lit 24) 4) (.var 14),
    .st 4 (.padd (.padd (.var 22) (.lit 24) 4) (.lit 1) 4) (.var 15),
    .asg 14 (.ld 4 (.padd (.var 22) (.lit 44) 4)),
    .asg 15 (.ld 4 (.padd (.padd (.var 22) (.lit 44) 4) (.lit 1) 4)),
    .st 4 (.padd (.padd (.var 22) (.lit 14) 4) (.lit 1) 4) (.var 14),
    .st 4 (.padd (.var 22) (.lit 14) 4) (.var 15),
    .st 4 (.padd (.var 22) (.lit 44) 4) (.var 12),
    .st 4 (.padd (.padd (.var 22) (.lit 44) 4) (.lit 1) 4) (.var 13),
    .asg 14 (.ld 4 (.padd (.var 22) (.lit 34) 4)),
    .st 4 (.padd (.var 22) (.lit 34) 4) (.ld 4 (.padd (.var 22) (.lit 35) 4)),
    .st 4 (.padd (.var 22) (.lit 35) 4) (.var 14),
    .asg 12 (.ld 4 (.padd (.var 22) (.lit 6) 4)),
    .asg 13 (.ld 4 (.padd (.padd (.var 22) (.lit 6) 4) (.lit 1) 4)),
    .asg 14 (.ld 4 (.padd (.var 22) (.lit 36) 4)),
    .asg 15 (.ld 4 (.padd (.padd (.var 22) (.lit 36) 4) (.lit 1) 4)),
    .st 4 (.padd (.padd (.var 22) (.lit 6) 4) (.lit 1) 4) (.var 14),
    .st 4 (.padd (.var 22) (.lit 6) 4) (.var 15),
    .asg 14 (.ld 4 (.padd (.var 22) (.lit 46) 4)),
    .asg 15 (.ld 4 (.padd (.padd (.var 22) (.lit 46) 4) (.lit 1) 4)),
    .st 4 (.padd (.var 22) (.lit 36) 4) (.var 14),
    .st 4 (.padd (.padd (.var 22) (.lit 36) 4) (.lit 1) 4) (.var 15),
    .asg 14 (.ld 4 (.padd (.var 22) (.lit 16) 4)),
    .asg 15 (.ld 4 (.padd (.padd (.var 22) (.lit 16) 4) (.lit 1) 4)),
    .st 4 (.padd (.padd (.var 22) (.lit 46) 4) (.lit 1) 4) (.var 14),
    .st 4 (.padd (.var 22) (.lit 46) 4) (.var 15),
    .st 4 (.padd (.var 22) (.lit 16) 4) (.var 12),
    .st 4 (.padd (.padd (.var 22) (.lit 16) 4) (.lit 1) 4) (.var 13),
    .asg 14 (.ld 4 (.padd (.var 22) (.lit 26) 4)),
    .st 4 (.padd (.var 22) (.lit 26) 4) (.ld 4 (.padd (.var 22) (.lit 27) 4)),
    .st 4 (.padd (.var 22) (.lit 27) 4) (.var 14),
    .asg 12 (.ld 4 (.padd (.var 22) (.lit 8) 4)),
    .asg 13 (.ld 4 (.padd (.padd (.var 22) (.lit 8) 4) (.lit 1) 4)),
    .asg 14 (.ld 4 (.padd (.var 22) (.lit 48) 4)),
    .asg 15 (.ld 4 (.padd (.padd (.var 22) (.lit 48) 4) (.lit 1) 4)),
    .st 4 (.padd (.var 22) (.lit 8) 4) (.var 14),
    .st 4 (.padd (.padd (.var 22) (.lit 8) 4) (.lit 1) 4) (.var 15),
    .asg 14 (.ld 4 (.padd (.var 22) (.lit 28) 4)),
    .asg 15 (.ld 4 (.padd (.padd (.var 22) (.lit 28) 4) (.lit 1) 4)),
    .st 4 (.padd (.padd (.var 22) (.lit 48) 4) (.lit 1) 4) (.var 14),
    .st 4 (.padd (.var 22) (.lit 48) 4) (.var 15)]

/-- part of `KeccakP1600_Permute_Nrounds` -/
def KeccakP1600_Permute_Nrounds.part2 : Stmt :=
  block [
    .asg 14 (.ld 4 (.padd (.var 22) (.lit 38) 4)),
    .asg 15 (.ld 4 (.padd (.padd (.var 22) (.lit 38) 4) (.lit 1) 4)),
    .st 4 (.padd (.var 22) (.lit 28) 4) (.var 14),
    .st 4 (.padd (.padd (.var 22) (.lit 28) 4) (.lit 1) 4) (.var 15),
    .st 4 (.padd (.padd (.var 22) (.lit 38) 4) (.lit 1) 4) (.var 12),
    .st 4 (.padd (.var 22) (.lit 38) 4) (.var 13)]

/-- part of `KeccakP1600_Permute_Nrounds` -/
def KeccakP1600_Permute_Nrounds.part3 : Stmt :=
  block [
    .asg 12 (.ld 4 (.padd (.var 22) (.lit 10) 4)),
    .asg 13 (.ld 4 (.padd (.padd (.var 22) (.lit 10) 4) (.lit 1) 4)),
    .asg 14 (.ld 4 (.padd (.var 22) (.lit 40) 4)),
    .asg 15 (.ld 4 (.padd (.padd (.var 22) (.lit 40) 4) (.lit 1) 4)),
    .st 4 (.padd (.padd (.var 22) (.lit 10) 4) (.lit 1) 4) (.var 14),
    .st 4 (.padd (.var 22) (.lit 10) 4) (.var 15),
    .st 4 (.padd (.padd (.var 22) (.lit 40) 4) (.lit 1) 4) (.var 12),
    .st 4 (.padd (.var 22) (.lit 40) 4) (.var 13),
    .asg 12 (.ld 4 (.padd (.var 22) (.lit 20) 4)),
    .asg 13 (.ld 4 (.padd (.padd (.var 22) (.lit 20) 4) (.lit 1) 4)),
    .asg 14 (.ld 4 (.padd (.var 22) (.lit 30) 4)),
    .asg 15 (.ld 4 (.padd (.padd (.var 22) (.lit 30) 4) (.lit 1) 4)),
    .st 4 (.padd (.padd (.var 22) (.lit 20) 4) (.lit 1) 4) (.var 14),
    .st 4 (.padd (.var 22) (.lit 20) 4) (.var 15),
    .st 4 (.padd (.padd (.var 22) (.lit 30) 4) (.lit 1) 4) (.var 12),
    .st 4 (.padd (.var 22) (.lit 30) 4) (.var 13),
    .asg 12 (.ld 4 (.padd (.var 22) (.lit 2) 4)),
    .asg 13 (.ld 4 (.padd (.padd (.var 22) (.lit 2) 4) (.lit 1) 4)),
    .asg 14 (.ld 4 (.padd (.var 22) (.lit 32) 4)),
    .asg 15 (.ld 4 (.padd (.padd (.var 22) (.lit 32) 4) (.lit 1) 4)),
    .st 4 (.padd (.padd (.var 22) (.lit 2) 4) (.lit 1) 4) (.var 14),
    .st 4 (.padd (.var 22) (.lit 2) 4) (.var 15),
    .st 4 (.padd (.padd (.var 22) (.lit 32) 4) (.lit 1) 4) (.var 12),
    .st 4 (.padd (.var 22) (.lit 32) 4) (.var 13),
    .asg 12 (.ld 4 (.padd (.var 22) (.lit 12) 4)),
    .asg 13 (.ld 4 (.padd (.padd (.var 22) (.lit 12) 4) (.lit 1) 4)),
    .asg 14 (.ld 4 (.padd (.var 22) (.lit 22) 4)),
    .asg 15 (.ld 4 (.padd (.padd (.var 22) (.lit 22) 4) (.lit 1) 4)),
    .st 4 (.padd (.padd (.var 22) (.lit 12) 4) (.lit 1) 4) (.var 14),
    .st 4 (.padd (.var 22) (.lit 12) 4) (.var 15),
    .st 4 (.padd (.padd (.var 22) (.lit 22) 4) (.lit 1) 4) (.var 12),
    .st 4 (.padd (.var 22) (.lit 22) 4) (.var 13),
    .asg 12 (.ld 4 (.padd (.var 22) (.lit 4) 4)),
    .asg 13 (.ld 4 (.padd (.padd (.var 22) (.lit 4) 4) (.lit 1) 4)),
    .asg 14 (.ld 4 (.padd (.var 22) (.lit 14) 4)),
    .asg 15 (.ld 4 (.padd (.padd (.var 22) (.lit 14) 4) (.lit 1) 4)),
    .st 4 (.padd (.padd (.var 22) (.lit 4) 4) (.lit 1) 4) (.var 14),
    .st 4 (.padd (.var 22) (.lit 4) 4) (.var 15),
    .st 4 (.padd (.padd (.var 22) (.lit 14) 4) (.lit 1) 4) (.var 12),
    .st 4 (.padd (.var 22) (.lit 14) 4) (.var 13)]

/-- part of `KeccakP1600_Permute_Nrounds` -/
def KeccakP1600_Permute_Nrounds.part4 : Stmt :=
  block [
    .asg 12 (.ld 4 (.padd (.var 22) (.lit 24) 4)),
    .asg 13 (.ld 4 (.padd (.padd (.var 22) (.lit 24) 4) (.lit 1) 4)),
    .asg 14 (.ld 4 (.padd (.var 22) (.lit 44) 4)),
    .asg 15 (.ld 4 (.padd (.padd (.var 22) (.lit 44) 4) (.lit 1) 4)),
    .st 4 (.padd (.padd (.var 22) (.lit 24) 4) (.lit 1) 4) (.var 14),
    .st 4 (.padd (.var 22) (.lit 24) 4) (.var 15),
    .st 4 (.padd (.padd (.var 22) (.lit 44) 4) (.lit 1) 4) (.var 12),
    .st 4 (.padd (.var 22) (.lit 44) 4) (.var 13),
    .asg 12 (.ld 4 (.padd (.var 22) (.lit 6) 4)),
    .asg 13 (.ld 4 (.padd (.padd (.var 22) (.lit 6) 4) (.lit 1) 4)),
    .asg 14 (.ld 4 (.padd (.var 22) (.lit 46) 4)),
    .asg 15 (.ld 4 (.padd (.padd (.var 22) (.lit 46) 4) (.lit 1) 4)),
    .st 4 (.padd (.padd (.var 22) (.lit 6) 4) (.lit 1) 4) (.var 14),
    .st 4 (.padd (.var 22) (.lit 6) 4) (.var 15),
    .st 4 (.padd (.padd (.var 22) (.lit 46) 4) (.lit 1) 4) (.var 12),
    .st 4 (.padd (.var 22) (.lit 46) 4) (.var 13),
    .asg 12 (.ld 4 (.padd (.var 22) (.lit 16) 4)),
    .asg 13 (.ld 4 (.padd (.padd (.var 22) (.lit 16) 4) (.lit 1) 4)),
    .asg 14 (.ld 4 (.padd (.var 22) (.lit 36) 4)),
    .asg 15 (.ld 4 (.padd (.padd (.var 22) (.lit 36) 4) (.lit 1) 4)),
    .st 4 (.padd (.padd (.var 22) (.lit 16) 4) (.lit 1) 4) (.var 14),
    .st 4 (.padd (.var 22) (.lit 16) 4) (.var 15),
    .st 4 (.padd (.padd (.var 22) (.lit 36) 4) (.lit 1) 4) (.var 12),
    .st 4 (.padd (.var 22) (.lit 36) 4) (.var 13),
    .asg 12 (.ld 4 (.padd (.var 22) (.lit 8) 4)),
    .asg 13 (.ld 4 (.padd (.padd (.var 22) (.lit 8) 4) (.lit 1) 4)),
    .asg 14 (.ld 4 (.padd (.var 22) (.lit 28) 4)),
    .asg 15 (.ld 4 (.padd (.padd (.var 22) (.lit 28) 4) (.lit 1) 4)),
    .st 4 (.padd (.padd (.var 22) (.lit 8) 4) (.lit 1) 4) (.var 14),
    .st 4 (.padd (.var 22) (.lit 8) 4) (.var 15),
    .st 4 (.padd (.padd (.var 22) (.lit 28) 4) (.lit 1) 4) (.var 12),
    .st 4 (.padd (.var 22) (.lit 28) 4) (.var 13),
    .asg 12 (.ld 4 (.padd (.var 22) (.lit 38) 4)),
    .asg 13 (.ld 4 (.padd (.padd (.var 22) (.lit 38) 4) (.lit 1) 4)),
    .asg 14 (.ld 4 (.padd (.var 22) (.lit 48) 4)),
    .asg 15 (.ld 4 (.padd (.padd (.var 22) (.lit 48) 4) (.lit 1) 4)),
    .st 4 (.padd (.padd (.var 22) (.lit 38) 4) (.lit 1) 4) (.var 14),
    .st 4 (.padd (.var 22) (.lit 38) 4) (.var 15),
    .st 4 (.padd (.padd (.var 22) (.lit 48) 4) (.lit 1) 4) (.var 12),
    .st 4 (.padd (.var 22) (.lit 48) 4) (.var 13)]

/-- part of `KeccakP1600_Permute_Nrounds` -/
def KeccakP1600_Permute_Nrounds.part5 : Stmt :=
  block [
    .asg 12 (.ld 4 (.padd (.var 22) (.lit 10) 4)),
    .asg 13 (.ld 4 (.padd (.padd (.var 22) (.lit 10) 4) (.lit 1) 4)),
    .asg 14 (.ld 4 (.padd (.var 22) (.lit 30) 4)),
    .asg 15 (.ld 4 (.padd (.padd (.var 22) (.lit 30) 4) (.lit 1) 4)),
    .st 4 (.padd (.var 22) (.lit 10) 4) (.var 14),
    .st 4 (.padd (.padd (.var 22) (.lit 10) 4) (.lit 1) 4) (.var 15),
    .asg 14 (.ld 4 (.padd (.var 22) (.lit 40) 4)),
    .asg 15 (.ld 4 (.padd (.padd (.var 22) (.lit 40) 4) (.lit 1) 4)),
    .st 4 (.padd (.padd (.var 22) (.lit 30) 4) (.lit 1) 4) (.var 14),
    .st 4 (.padd (.var 22) (.lit 30) 4) (.var 15),
    .asg 14 (.ld 4 (.padd (.var 22) (.lit 20) 4)),
    .asg 15 (.ld 4 (.padd (.padd (.var 22) (.lit 20) 4) (.lit 1) 4)),
    .st 4 (.padd (.var 22) (.lit 40) 4) (.var 14),
    .st 4 (.padd (.padd (.var 22) (.lit 40) 4) (.lit 1) 4) (.var 15),
    .st 4 (.padd (.padd (.var 22) (.lit 20) 4) (.lit 1) 4) (.var 12),
    .st 4 (.padd (.var 22) (.lit 20) 4) (.var 13),
    .asg 12 (.ld 4 (.padd (.var 22) (.lit 2) 4)),
    .asg 13 (.ld 4 (.padd (.padd (.var 22) (.lit 2) 4) (.lit 1) 4)),
    .asg 14 (.ld 4 (.padd (.var 22) (.lit 22) 4)),
    .asg 15 (.ld 4 (.padd (.padd (.var 22) (.lit 22) 4) (.lit 1) 4)),
    .st 4 (.padd (.padd (.var 22) (.lit 2) 4) (.lit 1) 4) (.var 14),
    .st 4 (.padd (.var 22) (.lit 2) 4) (.var 15),
    .asg 14 (.ld 4 (.padd (.var 22) (.lit 32) 4)),
    .asg 15 (.ld 4 (.padd (.padd (.var 22) (.lit 32) 4) (.lit 1) 4)),
    .st 4 (.padd (.var 22) (.lit 22) 4) (.var 14),
    .st 4 (.padd (.padd (.var 22) (.lit 22) 4) (.lit 1) 4) (.var 15),
    .asg 14 (.ld 4 (.padd (.var 22) (.lit 12) 4)),
    .asg 15 (.ld 4 (.padd (.padd (.var 22) (.lit 12) 4) (.lit 1) 4)),
    .st 4 (.padd (.padd (.var 22) (.lit 32) 4) (.lit 1) 4) (.var 14),
    .st 4 (.padd (.var 22) (.lit 32) 4) (.var 15),
    .st 4 (.padd (.var 22) (.lit 12) 4) (.var 12),
    .st 4 (.padd (.padd (.var 22) (.lit 12) 4) (.lit 1) 4) (.var 13),
    .asg 12 (.ld 4 (.padd (.var 22) (.lit 4) 4)),
    .asg 13 (.ld 4 (.padd (.padd (.var 22) (.lit 4) 4) (.lit 1) 4)),
    .asg 14 (.ld 4 (.padd (.var 22) (.lit 44) 4)),
    .asg 15 (.ld 4 (.padd (.padd (.var 22) (.lit 44) 4) (.lit 1) 4)),
    .st 4 (.padd (.var 22) (.lit 4) 4) (.var 14),
    .st 4 (.padd (.padd (.var 22) (.lit 4) 4) (.lit 1) 4) (.var 15),
    .asg 14 (.ld 4 (.padd (.var 22) (.lit 14) 4)),
    .asg 15 (.ld 4 (.padd (.padd (.var 22) (.lit 14) 4) (.lit 1) 4))]

/-- part of `KeccakP1600_Permute_Nrounds` -/
def KeccakP1600_Permute_Nrounds.part6 : Stmt :=
  block [
    .st 4 (.padd (.padd (.var 22) (.lit 44) 4) (.lit 1) 4) (.var 14),
    .st 4 (.padd (.var 22) (.lit 44) 4) (.var 15),
    .asg 14 (.ld 4 (.padd (.var 22) (.lit 24) 4)),
    .asg 15 (.ld 4 (.padd (.padd (.var 22) (.lit 24) 4) (.lit 1) 4)),
    .st 4 (.padd (.var 22) (.lit 14) 4) (.var 14),
    .st 4 (.padd (.padd (.var 22) (.lit 14) 4) (.lit 1) 4) (.var 15),
    .st 4 (.padd (.padd (.var 22) (.lit 24) 4) (.lit 1) 4) (.var 12),
    .st 4 (.padd (.var 22) (.lit 24) 4) (.var 13),
    .asg 14 (.ld 4 (.padd (.var 22) (.lit 34) 4)),
    .st 4 (.padd (.var 22) (.lit 34) 4) (.ld 4 (.padd (.var 22) (.lit 35) 4)),
    .st 4 (.padd (.var 22) (.lit 35) 4) (.var 14),
    .asg 12 (.ld 4 (.padd (.var 22) (.lit 6) 4)),
    .asg 13 (.ld 4 (.padd (.padd (.var 22) (.lit 6) 4) (.lit 1) 4)),
    .asg 14 (.ld 4 (.padd (.var 22) (.lit 16) 4)),
    .asg 15 (.ld 4 (.padd (.padd (.var 22) (.lit 16) 4) (.lit 1) 4)),
    .st 4 (.padd (.var 22) (.lit 6) 4) (.var 14),
    .st 4 (.padd (.padd (.var 22) (.lit 6) 4) (.lit 1) 4) (.var 15),
    .asg 14 (.ld 4 (.padd (.var 22) (.lit 46) 4)),
    .asg 15 (.ld 4 (.padd (.padd (.var 22) (.lit 46) 4) (.lit 1) 4)),
    .st 4 (.padd (.padd (.var 22) (.lit 16) 4) (.lit 1) 4) (.var 14),
    .st 4 (.padd (.var 22) (.lit 16) 4) (.var 15),
    .asg 14 (.ld 4 (.padd (.var 22) (.lit 36) 4)),
    .asg 15 (.ld 4 (.padd (.padd (.var 22) (.lit 36) 4) (.lit 1) 4)),
    .st 4 (.padd (.var 22) (.lit 46) 4) (.var 14),
    .st 4 (.padd (.padd (.var 22) (.lit 46) 4) (.lit 1) 4) (.var 15),
    .st 4 (.padd (.padd (.var 22) (.lit 36) 4) (.lit 1) 4) (.var 12),
    .st 4 (.padd (.var 22) (.lit 36) 4) (.var 13),
    .asg 14 (.ld 4 (.padd (.var 22) (.lit 26) 4)),
    .st 4 (.padd (.var 22) (.lit 26) 4) (.ld 4 (.padd (.var 22) (.lit 27) 4)),
    .st 4 (.padd (.var 22) (.lit 27) 4) (.var 14),
    .asg 12 (.ld 4 (.padd (.var 22) (.lit 8) 4)),
    .asg 13 (.ld 4 (.padd (.padd (.var 22) (.lit 8) 4) (.lit 1) 4)),
    .asg 14 (.ld 4 (.padd (.var 22) (.lit 38) 4)),
    .asg 15 (.ld 4 (.padd (.padd (.var 22) (.lit 38) 4) (.lit 1) 4)),
    .st 4 (.padd (.padd (.var 22) (.lit 8) 4) (.lit 1) 4) (.var 14),
    .st 4 (.padd (.var 22) (.lit 8) 4) (.var 15),
    .asg 14 (.ld 4 (.padd (.var 22) (.lit 28) 4)),
    .asg 15 (.ld 4 (.padd (.padd (.var 22) (.lit 28) 4) (.lit 1) 4)),
    .st 4 (.padd (.var 22) (.lit 38) 4) (.var 14),
    .st 4 (.padd (.padd (.var 22) (.lit 38) 4) (.lit 1) 4) (.var 15)]

/-- part of `KeccakP1600_Permute_Nrounds` -/
def KeccakP1600_Permute_Nrounds.part7 : Stmt :=
  block [
    .asg 14 (.ld 4 (.padd (.var 22) (.lit 48) 4)),
    .asg 15 (.ld 4 (.padd (.padd (.var 22) (.lit 48) 4) (.lit 1) 4)),
    .st 4 (.padd (.padd (.var 22) (.lit 28) 4) (.lit 1) 4) (.var 14),
    .st 4 (.padd (.var 22) (.lit 28) 4) (.var 15),
    .st 4 (.padd (.var 22) (.lit 48) 4) (.var 12),
    .st 4 (.padd (.padd (.var 22) (.lit 48) 4) (.lit 1) 4) (.var 13)]

/-- part of `KeccakP1600_Permute_Nrounds` -/
def KeccakP1600_Permute_Nrounds.part8 : Stmt :=
  block [
    .asg 17 (.bin (.bxor .u32) (.bin (.bxor .u32) (.bin (.bxor .u32) (.bin (.bxor .u32) (.ld 4 (.padd (.var 22) (.lit
      8) 4)) (.ld 4 (.padd (.var 22) (.lit 18) 4))) (.ld 4 (.padd (.var 22) (.lit 28) 4))) (.ld 4 (.padd (.var 22)
      (.lit 38) 4))) (.ld 4 (.padd (.var 22) (.lit 48) 4))),
    .asg 11 (.bin (.bxor .u32) (.bin (.bxor .u32) (.bin (.bxor .u32) (.bin (.bxor .u32) (.ld 4 (.padd (.var 22) (.lit
      3) 4)) (.ld 4 (.padd (.var 22) (.lit 13) 4))) (.ld 4 (.padd (.var 22) (.lit 23) 4))) (.ld 4 (.padd (.var 22)
      (.lit 33) 4))) (.ld 4 (.padd (.var 22) (.lit 43) 4))),
    .asg 2 (.bin (.bxor .u32) (.var 17) (.bin (.bxor .u32) (.bin (.shl .u32) (.var 11) (.lit 1)) (.bin (.shr .u32)
      (.var 11) (.lit 31)))),
    .asg 19 (.bin (.bxor .u32) (.bin (.bxor .u32) (.bin (.bxor .u32) (.bin (.bxor .u32) (.ld 4 (.padd (.var 22) (.lit
      9) 4)) (.ld 4 (.padd (.var 22) (.lit 19) 4))) (.ld 4 (.padd (.var 22) (.lit 29) 4))) (.ld 4 (.padd (.var 22)
      (.lit 39) 4))) (.ld 4 (.padd (.var 22) (.lit 49) 4))),
    .asg 6 (.bin (.bxor .u32) (.bin (.bxor .u32) (.bin (.bxor .u32) (.bin (.bxor .u32) (.ld 4 (.padd (.var 22) (.lit
      2) 4)) (.ld 4 (.padd (.var 22) (.lit 12) 4))) (.ld 4 (.padd (.var 22) (.lit 22) 4))) (.ld 4 (.padd (.var 22)
      (.lit 32) 4))) (.ld 4 (.padd (.var 22) (.lit 42) 4))),
    .asg 7 (.bin (.bxor .u32) (.var 19) (.var 6)),
    .asg 20 (.bin (.bxor .u32) (.bin (.bxor .u32) (.bin (.bxor .u32) (.bin (.bxor .u32) (.ld 4 (.padd (.var 22) (.lit
      4) 4)) (.ld 4 (.padd (.var 22) (.lit 14) 4))) (.ld 4 (.padd (.var 22) (.lit 24) 4))) (.ld 4 (.padd (.var 22)
      (.lit 34) 4))) (.ld 4 (.padd (.var 22) (.lit 44) 4))),
    .asg 5 (.bin (.bxor .u32) (.var 20) (.bin (.bxor .u32) (.bin (.shl .u32) (.var 19) (.lit 1)) (.bin (.shr .u32)
      (.var 19) (.lit 31)))),
    .asg 18 (.bin (.bxor .u32) (.bin (.bxor .u32) (.bin (.bxor .u32) (.bin (.bxor .u32) (.ld 4 (.padd (.var 22) (.lit
      5) 4)) (.ld 4 (.padd (.var 22) (.lit 15) 4))) (.ld 4 (.padd (.var 22) (.lit 25) 4))) (.ld 4 (.padd (.var 22)
      (.lit 35) 4))) (.ld 4 (.padd (.var 22) (.lit 45) 4))),
    .asg 10 (.bin (.bxor .u32) (.var 18) (.var 17)),
    .asg 17 (.bin (.bxor .u32) (.bin (.bxor .u32) (.bin (.bxor .u32) (.bin (.bxor .u32) (.ld 4 (.var 22)) (.ld 4
      (.padd (.var 22) (.lit 10) 4))) (.ld 4 (.padd (.var 22) (.lit 20) 4))) (.ld 4 (.padd (.var 22) (.lit 30) 4)))
      (.ld 4 (.padd (.var 22) (.lit 40) 4))),
    .asg 3 (.bin (.bxor .u32) (.var 17) (.bin (.bxor .u32) (.bin (.shl .u32) (.var 18) (.lit 1)) (.bin (.shr .u32)
      (.var 18) (.lit 31)))),
    .asg 19 (.bin (.bxor .u32) (.bin (.bxor .u32) (.bin (.bxor .u32) (.bin (.bxor .u32) (.ld 4 (.padd (.var 22) (.lit
      1) 4)) (.ld 4 (.padd (.var 22) (.lit 11) 4))) (.ld 4 (.padd (.var 22) (.lit 21) 4))) (.ld 4 (.padd (.var 22)
      (.lit 31) 4))) (.ld 4 (.padd (.var 22) (.lit 41) 4))),
    .asg 8 (.bin (.bxor .u32) (.var 19) (.var 20)),
    .asg 18 (.bin (.bxor .u32) (.bin (.bxor .u32) (.bin (.bxor .u32) (.bin (.bxor .u32) (.ld 4 (.padd (.var 22) (.lit
      7) 4)) (.ld 4 (.padd (.var 22) (.lit 17) 4))) (.ld 4 (.padd (.var 22) (.lit 27) 4))) (.ld 4 (.padd (.var 22)
      (.lit 37) 4))) (.ld 4 (.padd (.var 22) (.lit 47) 4))),
    .asg 4 (.bin (.bxor .u32) (.var 6) (.bin (.bxor .u32) (.bin (.shl .u32) (.var 18) (.lit 1)) (.bin (.shr .u32)
      (.var 18) (.lit 31)))),
    .asg 20 (.bin (.bxor .u32) (.bin (.bxor .u32) (.bin (.bxor .u32) (.bin (.bxor .u32) (.ld 4 (.padd (.var 22) (.lit
      6) 4)) (.ld 4 (.padd (.var 22) (.lit 16) 4))) (.ld 4 (.padd (.var 22) (.lit 26) 4))) (.ld 4 (.padd (.var 22)
      (.lit 36) 4))) (.ld 4 (.padd (.var 22) (.lit 46) 4))),
    .asg 9 (.bin (.bxor .u32) (.var 11) (.var 20)),
    .asg 6 (.bin (.bxor .u32) (.var 20) (.bin (.bxor .u32) (.bin (.shl .u32) (.var 19) (.lit 1)) (.bin (.shr .u32)
      (.var 19) (.lit 31)))),
    .asg 11 (.bin (.bxor .u32) (.var 18) (.var 17)),
    .asg 12 (.bin (.bxor .u32) (.ld 4 (.var 22)) (.var 2)),
    .asg 13 (.bin (.bxor .u32) (.bin (.shl .u32) (.bin (.bxor .u32) (.ld 4 (.padd (.var 22) (.lit 12) 4)) (.var 3))
      (.lit 22)) (.bin (.shr .u32) (.bin (.bxor .u32) (.ld 4 (.padd (.var 22) (.lit 12) 4)) (.var 3)) (.lit 10))),
    .asg 14 (.bin (.bxor .u32) (.bin (.shl .u32) (.bin (.bxor .u32) (.ld 4 (.padd (.var 22) (.lit 25) 4)) (.var 9))
      (.lit 22)) (.bin (.shr .u32) (.bin (.bxor .u32) (.ld 4 (.padd (.var 22) (.lit 25) 4)) (.var 9)) (.lit 10))),
    .asg 15 (.bin (.bxor .u32) (.bin (.shl .u32) (.bin (.bxor .u32) (.ld 4 (.padd (.var 22) (.lit 37) 4)) (.var 10))
      (.lit 11)) (.bin (.shr .u32) (.bin (.bxor .u32) (.ld 4 (.padd (.var 22) (.lit 37) 4)) (.var 10)) (.lit 21))),
    .asg 16 (.bin (.bxor .u32) (.bin (.shl .u32) (.bin (.bxor .u32) (.ld 4 (.padd (.var 22) (.lit 48) 4)) (.var 6))
      (.lit 7)) (.bin (.shr .u32) (.bin (.bxor .u32) (.ld 4 (.padd (.var 22) (.lit 48) 4)) (.var 6)) (.lit 25))),
    .st 4 (.var 22) (.bin (.bxor .u32) (.var 12) (.bin (.band .u32) (.un (.bnot .u32) (.var 13)) (.var 14))),
    .asg 25 (.var 21),
    .asg 21 (.padd (.var 25) (.lit 1) 4),
    .st 4 (.var 22) (.bin (.bxor .u32) (.ld 4 (.var 22)) (.ld 4 (.var 25))),
    .st 4 (.padd (.var 22) (.lit 12) 4) (.bin (.bxor .u32) (.var 13) (.bin (.band .u32) (.un (.bnot .u32) (.var 14))
      (.var 15))),
    .st 4 (.padd (.var 22) (.lit 25) 4) (.bin (.bxor .u32) (.var 14) (.bin (.band .u32) (.un (.bnot .u32) (.var 15))
      (.var 16))),
    .st 4 (.padd (.var 22) (.lit 37) 4) (.bin (.bxor .u32) (.var 15) (.bin (.band .u32) (.un (.bnot .u32) (.var 16))
      (.var 12))),
    .st 4 (.padd (.var 22) (.lit 48) 4) (.bin (.bxor .u32) (.var 16) (.bin (.band .u32) (.un (.bnot .u32) (.var 12))
      (.var 13))),
    .asg 12 (.bin (.bxor .u32) (.ld 4 (.padd (.var 22) (.lit 1) 4)) (.var 7)),
    .asg 13 (.bin (.bxor .u32) (.bin (.shl .u32) (.bin (.bxor .u32) (.ld 4 (.padd (.var 22) (.lit 13) 4)) (.var 8))
      (.lit 22)) (.bin (.shr .u32) (.bin (.bxor .u32) (.ld 4 (.padd (.var 22) (.lit 13) 4)) (.var 8)) (.lit 10))),
    .asg 14 (.bin (.bxor .u32) (.bin (.shl .u32) (.bin (.bxor .u32) (.ld 4 (.padd (.var 22) (.lit 24) 4)) (.var 4))
      (.lit 21)) (.bin (.shr .u32) (.bin (.bxor .u32) (.ld 4 (.padd (.var 22) (.lit 24) 4)) (.var 4)) (.lit 11))),
    .asg 15 (.bin (.bxor .u32) (.bin (.shl .u32) (.bin (.bxor .u32) (.ld 4 (.padd (.var 22) (.lit 36) 4)) (.var 5))
      (.lit 10)) (.bin (.shr .u32) (.bin (.bxor .u32) (.ld 4 (.padd (.var 22) (.lit 36) 4)) (.var 5)) (.lit 22))),
    .asg 16 (.bin (.bxor .u32) (.bin (.shl .u32) (.bin (.bxor .u32) (.ld 4 (.padd (.var 22) (.lit 49) 4)) (.var 11))
      (.lit 7)) (.bin (.shr .u32) (.bin (.bxor .u32) (.ld 4 (.padd (.var 22) (.lit 49) 4)) (.var 11)) (.lit 25))),
    .st 4 (.padd (.var 22) (.lit 1) 4) (.bin (.bxor .u32) (.var 12) (.bin (.band .u32) (.un (.bnot .u32) (.var 13))
      (.var 14))),
    .asg 26 (.var 21)]

/-- part of `KeccakP1600_Permute_Nrounds` -/
def KeccakP1600_Permute_Nrounds.part9 : Stmt :=
  block [
    .asg 21 (.padd (.var 26) (.lit 1) 4),
    .st 4 (.padd (.var 22) (.lit 1) 4) (.bin (.bxor .u32) (.ld 4 (.padd (.var 22) (.lit 1) 4)) (.ld 4 (.var 26))),
    .st 4 (.padd (.var 22) (.lit 13) 4) (.bin (.bxor .u32) (.var 13) (.bin (.band .u32) (.un (.bnot .u32) (.var 14))
      (.var 15))),
    .st 4 (.padd (.var 22) (.lit 24) 4) (.bin (.bxor .u32) (.var 14) (.bin (.band .u32) (.un (.bnot .u32) (.var 15))
      (.var 16))),
    .st 4 (.padd (.var 22) (.lit 36) 4) (.bin (.bxor .u32) (.var 15) (.bin (.band .u32) (.un (.bnot .u32) (.var 16))
      (.var 12))),
    .st 4 (.padd (.var 22) (.lit 49) 4) (.bin (.bxor .u32) (.var 16) (.bin (.band .u32) (.un (.bnot .u32) (.var 12))
      (.var 13))),
    .asg 14 (.bin (.bxor .u32) (.bin (.shl .u32) (.bin (.bxor .u32) (.ld 4 (.padd (.var 22) (.lit 21) 4)) (.var 7))
      (.lit 2)) (.bin (.shr .u32) (.bin (.bxor .u32) (.ld 4 (.padd (.var 22) (.lit 21) 4)) (.var 7)) (.lit 30))),
    .asg 15 (.bin (.bxor .u32) (.bin (.shl .u32) (.bin (.bxor .u32) (.ld 4 (.padd (.var 22) (.lit 33) 4)) (.var 8))
      (.lit 23)) (.bin (.shr .u32) (.bin (.bxor .u32) (.ld 4 (.padd (.var 22) (.lit 33) 4)) (.var 8)) (.lit 9))),
    .asg 16 (.bin (.bxor .u32) (.bin (.shl .u32) (.bin (.bxor .u32) (.ld 4 (.padd (.var 22) (.lit 45) 4)) (.var 9))
      (.lit 31)) (.bin (.shr .u32) (.bin (.bxor .u32) (.ld 4 (.padd (.var 22) (.lit 45) 4)) (.var 9)) (.lit 1))),
    .asg 12 (.bin (.bxor .u32) (.bin (.shl .u32) (.bin (.bxor .u32) (.ld 4 (.padd (.var 22) (.lit 6) 4)) (.var 5))
      (.lit 14)) (.bin (.shr .u32) (.bin (.bxor .u32) (.ld 4 (.padd (.var 22) (.lit 6) 4)) (.var 5)) (.lit 18))),
    .asg 13 (.bin (.bxor .u32) (.bin (.shl .u32) (.bin (.bxor .u32) (.ld 4 (.padd (.var 22) (.lit 18) 4)) (.var 6))
      (.lit 10)) (.bin (.shr .u32) (.bin (.bxor .u32) (.ld 4 (.padd (.var 22) (.lit 18) 4)) (.var 6)) (.lit 22))),
    .st 4 (.padd (.var 22) (.lit 21) 4) (.bin (.bxor .u32) (.var 12) (.bin (.band .u32) (.un (.bnot .u32) (.var 13))
      (.var 14))),
    .st 4 (.padd (.var 22) (.lit 33) 4) (.bin (.bxor .u32) (.var 13) (.bin (.band .u32) (.un (.bnot .u32) (.var 14))
      (.var 15))),
    .st 4 (.padd (.var 22) (.lit 45) 4) (.bin (.bxor .u32) (.var 14) (.bin (.band .u32) (.un (.bnot .u32) (.var 15))
      (.var 16))),
    .st 4 (.padd (.var 22) (.lit 6) 4) (.bin (.bxor .u32) (.var 15) (.bin (.band .u32) (.un (.bnot .u32) (.var 16))
      (.var 12))),
    .st 4 (.padd (.var 22) (.lit 18) 4) (.bin (.bxor .u32) (.var 16) (.bin (.band .u32) (.un (.bnot .u32) (.var 12))
      (.var 13))),
    .asg 14 (.bin (.bxor .u32) (.bin (.shl .u32) (.bin (.bxor .u32) (.ld 4 (.padd (.var 22) (.lit 20) 4)) (.var 2))
      (.lit 1)) (.bin (.shr .u32) (.bin (.bxor .u32) (.ld 4 (.padd (.var 22) (.lit 20) 4)) (.var 2)) (.lit 31))),
    .asg 15 (.bin (.bxor .u32) (.bin (.shl .u32) (.bin (.bxor .u32) (.ld 4 (.padd (.var 22) (.lit 32) 4)) (.var 3))
      (.lit 22)) (.bin (.shr .u32) (.bin (.bxor .u32) (.ld 4 (.padd (.var 22) (.lit 32) 4)) (.var 3)) (.lit 10))),
    .asg 16 (.bin (.bxor .u32) (.bin (.shl .u32) (.bin (.bxor .u32) (.ld 4 (.padd (.var 22) (.lit 44) 4)) (.var 4))
      (.lit 30)) (.bin (.shr .u32) (.bin (.bxor .u32) (.ld 4 (.padd (.var 22) (.lit 44) 4)) (.var 4)) (.lit 2))),
    .asg 12 (.bin (.bxor .u32) (.bin (.shl .u32) (.bin (.bxor .u32) (.ld 4 (.padd (.var 22) (.lit 7) 4)) (.var 10))
      (.lit 14)) (.bin (.shr .u32) (.bin (.bxor .u32) (.ld 4 (.padd (.var 22) (.lit 7) 4)) (.var 10)) (.lit 18))),
    .asg 13 (.bin (.bxor .u32) (.bin (.shl .u32) (.bin (.bxor .u32) (.ld 4 (.padd (.var 22) (.lit 19) 4)) (.var 11))
      (.lit 10)) (.bin (.shr .u32) (.bin (.bxor .u32) (.ld 4 (.padd (.var 22) (.lit 19) 4)) (.var 11)) (.lit 22))),
    .st 4 (.padd (.var 22) (.lit 20) 4) (.bin (.bxor .u32) (.var 12) (.bin (.band .u32) (.un (.bnot .u32) (.var 13))
      (.var 14))),
    .st 4 (.padd (.var 22) (.lit 32) 4) (.bin (.bxor .u32) (.var 13) (.bin (.band .u32) (.un (.bnot .u32) (.var 14))
      (.var 15))),
    .st 4 (.padd (.var 22) (.lit 44) 4) (.bin (.bxor .u32) (.var 14) (.bin (.band .u32) (.un (.bnot .u32) (.var 15))
      (.var 16))),
    .st 4 (.padd (.var 22) (.lit 7) 4) (.bin (.bxor .u32) (.var 15) (.bin (.band .u32) (.un (.bnot .u32) (.var 16))
      (.var 12))),
    .st 4 (.padd (.var 22) (.lit 19) 4) (.bin (.bxor .u32) (.var 16) (.bin (.band .u32) (.un (.bnot .u32) (.var 12))
      (.var 13))),
    .asg 16 (.bin (.bxor .u32) (.bin (.shl .u32) (.bin (.bxor .u32) (.ld 4 (.padd (.var 22) (.lit 40) 4)) (.var 2))
      (.lit 9)) (.bin (.shr .u32) (.bin (.bxor .u32) (.ld 4 (.padd (.var 22) (.lit 40) 4)) (.var 2)) (.lit 23))),
    .asg 12 (.bin (.bxor .u32) (.bin (.shl .u32) (.bin (.bxor .u32) (.ld 4 (.padd (.var 22) (.lit 3) 4)) (.var 8))
      (.lit 1)) (.bin (.shr .u32) (.bin (.bxor .u32) (.ld 4 (.padd (.var 22) (.lit 3) 4)) (.var 8)) (.lit 31))),
    .asg 13 (.bin (.bxor .u32) (.bin (.shl .u32) (.bin (.bxor .u32) (.ld 4 (.padd (.var 22) (.lit 14) 4)) (.var 4))
      (.lit 3)) (.bin (.shr .u32) (.bin (.bxor .u32) (.ld 4 (.padd (.var 22) (.lit 14) 4)) (.var 4)) (.lit 29))),
    .asg 14 (.bin (.bxor .u32) (.bin (.shl .u32) (.bin (.bxor .u32) (.ld 4 (.padd (.var 22) (.lit 27) 4)) (.var 10))
      (.lit 13)) (.bin (.shr .u32) (.bin (.bxor .u32) (.ld 4 (.padd (.var 22) (.lit 27) 4)) (.var 10)) (.lit 19))),
    .asg 15 (.bin (.bxor .u32) (.bin (.shl .u32) (.bin (.bxor .u32) (.ld 4 (.padd (.var 22) (.lit 38) 4)) (.var 6))
      (.lit 4)) (.bin (.shr .u32) (.bin (.bxor .u32) (.ld 4 (.padd (.var 22) (.lit 38) 4)) (.var 6)) (.lit 28))),
    .st 4 (.padd (.var 22) (.lit 40) 4) (.bin (.bxor .u32) (.var 12) (.bin (.band .u32) (.un (.bnot .u32) (.var 13))
      (.var 14))),
    .st 4 (.padd (.var 22) (.lit 3) 4) (.bin (.bxor .u32) (.var 13) (.bin (.band .u32) (.un (.bnot .u32) (.var 14))
      (.var 15))),
    .st 4 (.padd (.var 22) (.lit 14) 4) (.bin (.bxor .u32) (.var 14) (.bin (.band .u32) (.un (.bnot .u32) (.var 15))
      (.var 16))),
    .st 4 (.padd (.var 22) (.lit 27) 4) (.bin (.bxor .u32) (.var 15) (.bin (.band .u32) (.un (.bnot .u32) (.var 16))
      (.var 12))),
    .st 4 (.padd (.var 22) (.lit 38) 4) (.bin (.bxor .u32) (.var 16) (.bin (.band .u32) (.un (.bnot .u32) (.var 12))
      (.var 13))),
    .asg 16 (.bin (.bxor .u32) (.bin (.shl .u32) (.bin (.bxor .u32) (.ld 4 (.padd (.var 22) (.lit 41) 4)) (.var 7))
      (.lit 9)) (.bin (.shr .u32) (.bin (.bxor .u32) (.ld 4 (.padd (.var 22) (.lit 41) 4)) (.var 7)) (.lit 23))),
    .asg 12 (.bin (.bxor .u32) (.ld 4 (.padd (.var 22) (.lit 2) 4)) (.var 3)),
    .asg 13 (.bin (.bxor .u32) (.bin (.shl .u32) (.bin (.bxor .u32) (.ld 4 (.padd (.var 22) (.lit 15) 4)) (.var 9))
      (.lit 3)) (.bin (.shr .u32) (.bin (.bxor .u32) (.ld 4 (.padd (.var 22) (.lit 15) 4)) (.var 9)) (.lit 29))),
    .asg 14 (.bin (.bxor .u32) (.bin (.shl .u32) (.bin (.bxor .u32) (.ld 4 (.padd (.var 22) (.lit 26) 4)) (.var 5))
      (.lit 12)) (.bin (.shr .u32) (.bin (.bxor .u32) (.ld 4 (.padd (.var 22) (.lit 26) 4)) (.var 5)) (.lit 20)))]

/-- part of `KeccakP1600_Permute_Nrounds` -/
def KeccakP1600_Permute_Nrounds.part10 : Stmt :=
  block [
    .asg 15 (.bin (.bxor .u32) (.bin (.shl .u32) (.bin (.bxor .u32) (.ld 4 (.padd (.var 22) (.lit 39) 4)) (.var 11))
      (.lit 4)) (.bin (.shr .u32) (.bin (.bxor .u32) (.ld 4 (.padd (.var 22) (.lit 39) 4)) (.var 11)) (.lit 28))),
    .st 4 (.padd (.var 22) (.lit 41) 4) (.bin (.bxor .u32) (.var 12) (.bin (.band .u32) (.un (.bnot .u32) (.var 13))
      (.var 14))),
    .st 4 (.padd (.var 22) (.lit 2) 4) (.bin (.bxor .u32) (.var 13) (.bin (.band .u32) (.un (.bnot .u32) (.var 14))
      (.var 15))),
    .st 4 (.padd (.var 22) (.lit 15) 4) (.bin (.bxor .u32) (.var 14) (.bin (.band .u32) (.un (.bnot .u32) (.var 15))
      (.var 16))),
    .st 4 (.padd (.var 22) (.lit 26) 4) (.bin (.bxor .u32) (.var 15) (.bin (.band .u32) (.un (.bnot .u32) (.var 16))
      (.var 12))),
    .st 4 (.padd (.var 22) (.lit 39) 4) (.bin (.bxor .u32) (.var 16) (.bin (.band .u32) (.un (.bnot .u32) (.var 12))
      (.var 13))),
    .asg 13 (.bin (.bxor .u32) (.bin (.shl .u32) (.bin (.bxor .u32) (.ld 4 (.padd (.var 22) (.lit 10) 4)) (.var 2))
      (.lit 18)) (.bin (.shr .u32) (.bin (.bxor .u32) (.ld 4 (.padd (.var 22) (.lit 10) 4)) (.var 2)) (.lit 14))),
    .asg 14 (.bin (.bxor .u32) (.bin (.shl .u32) (.bin (.bxor .u32) (.ld 4 (.padd (.var 22) (.lit 22) 4)) (.var 3))
      (.lit 5)) (.bin (.shr .u32) (.bin (.bxor .u32) (.ld 4 (.padd (.var 22) (.lit 22) 4)) (.var 3)) (.lit 27))),
    .asg 15 (.bin (.bxor .u32) (.bin (.shl .u32) (.bin (.bxor .u32) (.ld 4 (.padd (.var 22) (.lit 35) 4)) (.var 9))
      (.lit 8)) (.bin (.shr .u32) (.bin (.bxor .u32) (.ld 4 (.padd (.var 22) (.lit 35) 4)) (.var 9)) (.lit 24))),
    .asg 16 (.bin (.bxor .u32) (.bin (.shl .u32) (.bin (.bxor .u32) (.ld 4 (.padd (.var 22) (.lit 46) 4)) (.var 5))
      (.lit 28)) (.bin (.shr .u32) (.bin (.bxor .u32) (.ld 4 (.padd (.var 22) (.lit 46) 4)) (.var 5)) (.lit 4))),
    .asg 12 (.bin (.bxor .u32) (.bin (.shl .u32) (.bin (.bxor .u32) (.ld 4 (.padd (.var 22) (.lit 9) 4)) (.var 11))
      (.lit 14)) (.bin (.shr .u32) (.bin (.bxor .u32) (.ld 4 (.padd (.var 22) (.lit 9) 4)) (.var 11)) (.lit 18))),
    .st 4 (.padd (.var 22) (.lit 10) 4) (.bin (.bxor .u32) (.var 12) (.bin (.band .u32) (.un (.bnot .u32) (.var 13))
      (.var 14))),
    .st 4 (.padd (.var 22) (.lit 22) 4) (.bin (.bxor .u32) (.var 13) (.bin (.band .u32) (.un (.bnot .u32) (.var 14))
      (.var 15))),
    .st 4 (.padd (.var 22) (.lit 35) 4) (.bin (.bxor .u32) (.var 14) (.bin (.band .u32) (.un (.bnot .u32) (.var 15))
      (.var 16))),
    .st 4 (.padd (.var 22) (.lit 46) 4) (.bin (.bxor .u32) (.var 15) (.bin (.band .u32) (.un (.bnot .u32) (.var 16))
      (.var 12))),
    .st 4 (.padd (.var 22) (.lit 9) 4) (.bin (.bxor .u32) (.var 16) (.bin (.band .u32) (.un (.bnot .u32) (.var 12))
      (.var 13))),
    .asg 13 (.bin (.bxor .u32) (.bin (.shl .u32) (.bin (.bxor .u32) (.ld 4 (.padd (.var 22) (.lit 11) 4)) (.var 7))
      (.lit 18)) (.bin (.shr .u32) (.bin (.bxor .u32) (.ld 4 (.padd (.var 22) (.lit 11) 4)) (.var 7)) (.lit 14))),
    .asg 14 (.bin (.bxor .u32) (.bin (.shl .u32) (.bin (.bxor .u32) (.ld 4 (.padd (.var 22) (.lit 23) 4)) (.var 8))
      (.lit 5)) (.bin (.shr .u32) (.bin (.bxor .u32) (.ld 4 (.padd (.var 22) (.lit 23) 4)) (.var 8)) (.lit 27))),
    .asg 15 (.bin (.bxor .u32) (.bin (.shl .u32) (.bin (.bxor .u32) (.ld 4 (.padd (.var 22) (.lit 34) 4)) (.var 4))
      (.lit 7)) (.bin (.shr .u32) (.bin (.bxor .u32) (.ld 4 (.padd (.var 22) (.lit 34) 4)) (.var 4)) (.lit 25))),
    .asg 16 (.bin (.bxor .u32) (.bin (.shl .u32) (.bin (.bxor .u32) (.ld 4 (.padd (.var 22) (.lit 47) 4)) (.var 10))
      (.lit 28)) (.bin (.shr .u32) (.bin (.bxor .u32) (.ld 4 (.padd (.var 22) (.lit 47) 4)) (.var 10)) (.lit 4))),
    .asg 12 (.bin (.bxor .u32) (.bin (.shl .u32) (.bin (.bxor .u32) (.ld 4 (.padd (.var 22) (.lit 8) 4)) (.var 6))
      (.lit 13)) (.bin (.shr .u32) (.bin (.bxor .u32) (.ld 4 (.padd (.var 22) (.lit 8) 4)) (.var 6)) (.lit 19))),
    .st 4 (.padd (.var 22) (.lit 11) 4) (.bin (.bxor .u32) (.var 12) (.bin (.band .u32) (.un (.bnot .u32) (.var 13))
      (.var 14))),
    .st 4 (.padd (.var 22) (.lit 23) 4) (.bin (.bxor .u32) (.var 13) (.bin (.band .u32) (.un (.bnot .u32) (.var 14))
      (.var 15))),
    .st 4 (.padd (.var 22) (.lit 34) 4) (.bin (.bxor .u32) (.var 14) (.bin (.band .u32) (.un (.bnot .u32) (.var 15))
      (.var 16))),
    .st 4 (.padd (.var 22) (.lit 47) 4) (.bin (.bxor .u32) (.var 15) (.bin (.band .u32) (.un (.bnot .u32) (.var 16))
      (.var 12))),
    .st 4 (.padd (.var 22) (.lit 8) 4) (.bin (.bxor .u32) (.var 16) (.bin (.band .u32) (.un (.bnot .u32) (.var 12))
      (.var 13))),
    .asg 15 (.bin (.bxor .u32) (.bin (.shl .u32) (.bin (.bxor .u32) (.ld 4 (.padd (.var 22) (.lit 31) 4)) (.var 7))
      (.lit 21)) (.bin (.shr .u32) (.bin (.bxor .u32) (.ld 4 (.padd (.var 22) (.lit 31) 4)) (.var 7)) (.lit 11))),
    .asg 16 (.bin (.bxor .u32) (.bin (.shl .u32) (.bin (.bxor .u32) (.ld 4 (.padd (.var 22) (.lit 42) 4)) (.var 3))
      (.lit 1)) (.bin (.shr .u32) (.bin (.bxor .u32) (.ld 4 (.padd (.var 22) (.lit 42) 4)) (.var 3)) (.lit 31))),
    .asg 12 (.bin (.bxor .u32) (.bin (.shl .u32) (.bin (.bxor .u32) (.ld 4 (.padd (.var 22) (.lit 4) 4)) (.var 4))
      (.lit 31)) (.bin (.shr .u32) (.bin (.bxor .u32) (.ld 4 (.padd (.var 22) (.lit 4) 4)) (.var 4)) (.lit 1))),
    .asg 13 (.bin (.bxor .u32) (.bin (.shl .u32) (.bin (.bxor .u32) (.ld 4 (.padd (.var 22) (.lit 17) 4)) (.var 10))
      (.lit 28)) (.bin (.shr .u32) (.bin (.bxor .u32) (.ld 4 (.padd (.var 22) (.lit 17) 4)) (.var 10)) (.lit 4))),
    .asg 14 (.bin (.bxor .u32) (.bin (.shl .u32) (.bin (.bxor .u32) (.ld 4 (.padd (.var 22) (.lit 29) 4)) (.var 11))
      (.lit 20)) (.bin (.shr .u32) (.bin (.bxor .u32) (.ld 4 (.padd (.var 22) (.lit 29) 4)) (.var 11)) (.lit 12))),
    .st 4 (.padd (.var 22) (.lit 31) 4) (.bin (.bxor .u32) (.var 12) (.bin (.band .u32) (.un (.bnot .u32) (.var 13))
      (.var 14))),
    .st 4 (.padd (.var 22) (.lit 42) 4) (.bin (.bxor .u32) (.var 13) (.bin (.band .u32) (.un (.bnot .u32) (.var 14))
      (.var 15))),
    .st 4 (.padd (.var 22) (.lit 4) 4) (.bin (.bxor .u32) (.var 14) (.bin (.band .u32) (.un (.bnot .u32) (.var 15))
      (.var 16))),
    .st 4 (.padd (.var 22) (.lit 17) 4) (.bin (.bxor .u32) (.var 15) (.bin (.band .u32) (.un (.bnot .u32) (.var 16))
      (.var 12))),
    .st 4 (.padd (.var 22) (.lit 29) 4) (.bin (.bxor .u32) (.var 16) (.bin (.band .u32) (.un (.bnot .u32) (.var 12))
      (.var 13))),
    .asg 15 (.bin (.bxor .u32) (.bin (.shl .u32) (.bin (.bxor .u32) (.ld 4 (.padd (.var 22) (.lit 30) 4)) (.var 2))
      (.lit 20)) (.bin (.shr .u32) (.bin (.bxor .u32) (.ld 4 (.padd (.var 22) (.lit 30) 4)) (.var 2)) (.lit 12))),
    .asg 16 (.bin (.bxor .u32) (.bin (.shl .u32) (.bin (.bxor .u32) (.ld 4 (.padd (.var 22) (.lit 43) 4)) (.var 8))
      (.lit 1)) (.bin (.shr .u32) (.bin (.bxor .u32) (.ld 4 (.padd (.var 22) (.lit 43) 4)) (.var 8)) (.lit 31))),
    .asg 12 (.bin (.bxor .u32) (.bin (.shl .u32) (.bin (.bxor .u32) (.ld 4 (.padd (.var 22) (.lit 5) 4)) (.var 9))
      (.lit 31)) (.bin (.shr .u32) (.bin (.bxor .u32) (.ld 4 (.padd (.var 22) (.lit 5) 4)) (.var 9)) (.lit 1))),
    .asg 13 (.bin (.bxor .u32) (.bin (.shl .u32) (.bin (.bxor .u32) (.ld 4 (.padd (.var 22) (.lit 16) 4)) (.var 5))
      (.lit 27)) (.bin (.shr .u32) (.bin (.bxor .u32) (.ld 4 (.padd (.var 22) (.lit 16) 4)) (.var 5)) (.lit 5)))]

/-- part of `KeccakP1600_Permute_Nrounds` -/
def KeccakP1600_Permute_Nrounds.part11 : Stmt :=
  block [
    .asg 14 (.bin (.bxor .u32) (.bin (.shl .u32) (.bin (.bxor .u32) (.ld 4 (.padd (.var 22) (.lit 28) 4)) (.var 6))
      (.lit 19)) (.bin (.shr .u32) (.bin (.bxor .u32) (.ld 4 (.padd (.var 22) (.lit 28) 4)) (.var 6)) (.lit 13))),
    .st 4 (.padd (.var 22) (.lit 30) 4) (.bin (.bxor .u32) (.var 12) (.bin (.band .u32) (.un (.bnot .u32) (.var 13))
      (.var 14))),
    .st 4 (.padd (.var 22) (.lit 43) 4) (.bin (.bxor .u32) (.var 13) (.bin (.band .u32) (.un (.bnot .u32) (.var 14))
      (.var 15))),
    .st 4 (.padd (.var 22) (.lit 5) 4) (.bin (.bxor .u32) (.var 14) (.bin (.band .u32) (.un (.bnot .u32) (.var 15))
      (.var 16))),
    .st 4 (.padd (.var 22) (.lit 16) 4) (.bin (.bxor .u32) (.var 15) (.bin (.band .u32) (.un (.bnot .u32) (.var 16))
      (.var 12))),
    .st 4 (.padd (.var 22) (.lit 28) 4) (.bin (.bxor .u32) (.var 16) (.bin (.band .u32) (.un (.bnot .u32) (.var 12))
      (.var 13))),
    .asg 17 (.bin (.bxor .u32) (.bin (.bxor .u32) (.bin (.bxor .u32) (.bin (.bxor .u32) (.ld 4 (.padd (.var 22) (.lit
      48) 4)) (.ld 4 (.padd (.var 22) (.lit 18) 4))) (.ld 4 (.padd (.var 22) (.lit 38) 4))) (.ld 4 (.padd (.var 22)
      (.lit 9) 4))) (.ld 4 (.padd (.var 22) (.lit 29) 4))),
    .asg 11 (.bin (.bxor .u32) (.bin (.bxor .u32) (.bin (.bxor .u32) (.bin (.bxor .u32) (.ld 4 (.padd (.var 22) (.lit
      13) 4)) (.ld 4 (.padd (.var 22) (.lit 32) 4))) (.ld 4 (.padd (.var 22) (.lit 2) 4))) (.ld 4 (.padd (.var 22)
      (.lit 23) 4))) (.ld 4 (.padd (.var 22) (.lit 43) 4))),
    .asg 2 (.bin (.bxor .u32) (.var 17) (.bin (.bxor .u32) (.bin (.shl .u32) (.var 11) (.lit 1)) (.bin (.shr .u32)
      (.var 11) (.lit 31)))),
    .asg 19 (.bin (.bxor .u32) (.bin (.bxor .u32) (.bin (.bxor .u32) (.bin (.bxor .u32) (.ld 4 (.padd (.var 22) (.lit
      49) 4)) (.ld 4 (.padd (.var 22) (.lit 19) 4))) (.ld 4 (.padd (.var 22) (.lit 39) 4))) (.ld 4 (.padd (.var 22)
      (.lit 8) 4))) (.ld 4 (.padd (.var 22) (.lit 28) 4))),
    .asg 6 (.bin (.bxor .u32) (.bin (.bxor .u32) (.bin (.bxor .u32) (.bin (.bxor .u32) (.ld 4 (.padd (.var 22) (.lit
      12) 4)) (.ld 4 (.padd (.var 22) (.lit 33) 4))) (.ld 4 (.padd (.var 22) (.lit 3) 4))) (.ld 4 (.padd (.var 22)
      (.lit 22) 4))) (.ld 4 (.padd (.var 22) (.lit 42) 4))),
    .asg 7 (.bin (.bxor .u32) (.var 19) (.var 6)),
    .asg 20 (.bin (.bxor .u32) (.bin (.bxor .u32) (.bin (.bxor .u32) (.bin (.bxor .u32) (.ld 4 (.padd (.var 22) (.lit
      25) 4)) (.ld 4 (.padd (.var 22) (.lit 45) 4))) (.ld 4 (.padd (.var 22) (.lit 14) 4))) (.ld 4 (.padd (.var 22)
      (.lit 35) 4))) (.ld 4 (.padd (.var 22) (.lit 4) 4))),
    .asg 5 (.bin (.bxor .u32) (.var 20) (.bin (.bxor .u32) (.bin (.shl .u32) (.var 19) (.lit 1)) (.bin (.shr .u32)
      (.var 19) (.lit 31)))),
    .asg 18 (.bin (.bxor .u32) (.bin (.bxor .u32) (.bin (.bxor .u32) (.bin (.bxor .u32) (.ld 4 (.padd (.var 22) (.lit
      24) 4)) (.ld 4 (.padd (.var 22) (.lit 44) 4))) (.ld 4 (.padd (.var 22) (.lit 15) 4))) (.ld 4 (.padd (.var 22)
      (.lit 34) 4))) (.ld 4 (.padd (.var 22) (.lit 5) 4))),
    .asg 10 (.bin (.bxor .u32) (.var 18) (.var 17)),
    .asg 17 (.bin (.bxor .u32) (.bin (.bxor .u32) (.bin (.bxor .u32) (.bin (.bxor .u32) (.ld 4 (.var 22)) (.ld 4
      (.padd (.var 22) (.lit 21) 4))) (.ld 4 (.padd (.var 22) (.lit 40) 4))) (.ld 4 (.padd (.var 22) (.lit 10) 4)))
      (.ld 4 (.padd (.var 22) (.lit 31) 4))),
    .asg 3 (.bin (.bxor .u32) (.var 17) (.bin (.bxor .u32) (.bin (.shl .u32) (.var 18) (.lit 1)) (.bin (.shr .u32)
      (.var 18) (.lit 31)))),
    .asg 19 (.bin (.bxor .u32) (.bin (.bxor .u32) (.bin (.bxor .u32) (.bin (.bxor .u32) (.ld 4 (.padd (.var 22) (.lit
      1) 4)) (.ld 4 (.padd (.var 22) (.lit 20) 4))) (.ld 4 (.padd (.var 22) (.lit 41) 4))) (.ld 4 (.padd (.var 22)
      (.lit 11) 4))) (.ld 4 (.padd (.var 22) (.lit 30) 4))),
    .asg 8 (.bin (.bxor .u32) (.var 19) (.var 20)),
    .asg 18 (.bin (.bxor .u32) (.bin (.bxor .u32) (.bin (.bxor .u32) (.bin (.bxor .u32) (.ld 4 (.padd (.var 22) (.lit
      36) 4)) (.ld 4 (.padd (.var 22) (.lit 7) 4))) (.ld 4 (.padd (.var 22) (.lit 26) 4))) (.ld 4 (.padd (.var 22)
      (.lit 47) 4))) (.ld 4 (.padd (.var 22) (.lit 16) 4))),
    .asg 4 (.bin (.bxor .u32) (.var 6) (.bin (.bxor .u32) (.bin (.shl .u32) (.var 18) (.lit 1)) (.bin (.shr .u32)
      (.var 18) (.lit 31)))),
    .asg 20 (.bin (.bxor .u32) (.bin (.bxor .u32) (.bin (.bxor .u32) (.bin (.bxor .u32) (.ld 4 (.padd (.var 22) (.lit
      37) 4)) (.ld 4 (.padd (.var 22) (.lit 6) 4))) (.ld 4 (.padd (.var 22) (.lit 27) 4))) (.ld 4 (.padd (.var 22)
      (.lit 46) 4))) (.ld 4 (.padd (.var 22) (.lit 17) 4))),
    .asg 9 (.bin (.bxor .u32) (.var 11) (.var 20)),
    .asg 6 (.bin (.bxor .u32) (.var 20) (.bin (.bxor .u32) (.bin (.shl .u32) (.var 19) (.lit 1)) (.bin (.shr .u32)
      (.var 19) (.lit 31)))),
    .asg 11 (.bin (.bxor .u32) (.var 18) (.var 17)),
    .asg 12 (.bin (.bxor .u32) (.ld 4 (.var 22)) (.var 2)),
    .asg 13 (.bin (.bxor .u32) (.bin (.shl .u32) (.bin (.bxor .u32) (.ld 4 (.padd (.var 22) (.lit 33) 4)) (.var 3))
      (.lit 22)) (.bin (.shr .u32) (.bin (.bxor .u32) (.ld 4 (.padd (.var 22) (.lit 33) 4)) (.var 3)) (.lit 10))),
    .asg 14 (.bin (.bxor .u32) (.bin (.shl .u32) (.bin (.bxor .u32) (.ld 4 (.padd (.var 22) (.lit 15) 4)) (.var 9))
      (.lit 22)) (.bin (.shr .u32) (.bin (.bxor .u32) (.ld 4 (.padd (.var 22) (.lit 15) 4)) (.var 9)) (.lit 10))),
    .asg 15 (.bin (.bxor .u32) (.bin (.shl .u32) (.bin (.bxor .u32) (.ld 4 (.padd (.var 22) (.lit 47) 4)) (.var 10))
      (.lit 11)) (.bin (.shr .u32) (.bin (.bxor .u32) (.ld 4 (.padd (.var 22) (.lit 47) 4)) (.var 10)) (.lit 21))),
    .asg 16 (.bin (.bxor .u32) (.bin (.shl .u32) (.bin (.bxor .u32) (.ld 4 (.padd (.var 22) (.lit 29) 4)) (.var 6))
      (.lit 7)) (.bin (.shr .u32) (.bin (.bxor .u32) (.ld 4 (.padd (.var 22) (.lit 29) 4)) (.var 6)) (.lit 25))),
    .st 4 (.var 22) (.bin (.bxor .u32) (.var 12) (.bin (.band .u32) (.un (.bnot .u32) (.var 13)) (.var 14))),
    .asg 27 (.var 21),
    .asg 21 (.padd (.var 27) (.lit 1) 4),
    .st 4 (.var 22) (.bin (.bxor .u32) (.ld 4 (.var 22)) (.ld 4 (.var 27))),
    .st 4 (.padd (.var 22) (.lit 33) 4) (.bin (.bxor .u32) (.var 13) (.bin (.band .u32) (.un (.bnot .u32) (.var 14))
      (.var 15))),
    .st 4 (.padd (.var 22) (.lit 15) 4) (.bin (.bxor .u32) (.var 14) (.bin (.band .u32) (.un (.bnot .u32) (.var 15))
      (.var 16))),
    .st 4 (.padd (.var 22) (.lit 47) 4) (.bin (.bxor .u32) (.var 15) (.bin (.band .u32) (.un (.bnot .u32) (.var 16))
      (.var 12))),
    .st 4 (.padd (.var 22) (.lit 29) 4) (.bin (.bxor .u32) (.var 16) (.bin (.band .u32) (.un (.bnot .u32) (.var 12))
      (.var 13))),
    .asg 12 (.bin (.bxor .u32) (.ld 4 (.padd (.var 22) (.lit 1) 4)) (.var 7))]

/-- part of `KeccakP1600_Permute_Nrounds` -/
def KeccakP1600_Permute_Nrounds.part12 : Stmt :=
  block [
    .asg 13 (.bin (.bxor .u32) (.bin (.shl .u32) (.bin (.bxor .u32) (.ld 4 (.padd (.var 22) (.lit 32) 4)) (.var 8))
      (.lit 22)) (.bin (.shr .u32) (.bin (.bxor .u32) (.ld 4 (.padd (.var 22) (.lit 32) 4)) (.var 8)) (.lit 10))),
    .asg 14 (.bin (.bxor .u32) (.bin (.shl .u32) (.bin (.bxor .u32) (.ld 4 (.padd (.var 22) (.lit 14) 4)) (.var 4))
      (.lit 21)) (.bin (.shr .u32) (.bin (.bxor .u32) (.ld 4 (.padd (.var 22) (.lit 14) 4)) (.var 4)) (.lit 11))),
    .asg 15 (.bin (.bxor .u32) (.bin (.shl .u32) (.bin (.bxor .u32) (.ld 4 (.padd (.var 22) (.lit 46) 4)) (.var 5))
      (.lit 10)) (.bin (.shr .u32) (.bin (.bxor .u32) (.ld 4 (.padd (.var 22) (.lit 46) 4)) (.var 5)) (.lit 22))),
    .asg 16 (.bin (.bxor .u32) (.bin (.shl .u32) (.bin (.bxor .u32) (.ld 4 (.padd (.var 22) (.lit 28) 4)) (.var 11))
      (.lit 7)) (.bin (.shr .u32) (.bin (.bxor .u32) (.ld 4 (.padd (.var 22) (.lit 28) 4)) (.var 11)) (.lit 25))),
    .st 4 (.padd (.var 22) (.lit 1) 4) (.bin (.bxor .u32) (.var 12) (.bin (.band .u32) (.un (.bnot .u32) (.var 13))
      (.var 14))),
    .asg 28 (.var 21),
    .asg 21 (.padd (.var 28) (.lit 1) 4),
    .st 4 (.padd (.var 22) (.lit 1) 4) (.bin (.bxor .u32) (.ld 4 (.padd (.var 22) (.lit 1) 4)) (.ld 4 (.var 28))),
    .st 4 (.padd (.var 22) (.lit 32) 4) (.bin (.bxor .u32) (.var 13) (.bin (.band .u32) (.un (.bnot .u32) (.var 14))
      (.var 15))),
    .st 4 (.padd (.var 22) (.lit 14) 4) (.bin (.bxor .u32) (.var 14) (.bin (.band .u32) (.un (.bnot .u32) (.var 15))
      (.var 16))),
    .st 4 (.padd (.var 22) (.lit 46) 4) (.bin (.bxor .u32) (.var 15) (.bin (.band .u32) (.un (.bnot .u32) (.var 16))
      (.var 12))),
    .st 4 (.padd (.var 22) (.lit 28) 4) (.bin (.bxor .u32) (.var 16) (.bin (.band .u32) (.un (.bnot .u32) (.var 12))
      (.var 13))),
    .asg 14 (.bin (.bxor .u32) (.bin (.shl .u32) (.bin (.bxor .u32) (.ld 4 (.padd (.var 22) (.lit 41) 4)) (.var 7))
      (.lit 2)) (.bin (.shr .u32) (.bin (.bxor .u32) (.ld 4 (.padd (.var 22) (.lit 41) 4)) (.var 7)) (.lit 30))),
    .asg 15 (.bin (.bxor .u32) (.bin (.shl .u32) (.bin (.bxor .u32) (.ld 4 (.padd (.var 22) (.lit 23) 4)) (.var 8))
      (.lit 23)) (.bin (.shr .u32) (.bin (.bxor .u32) (.ld 4 (.padd (.var 22) (.lit 23) 4)) (.var 8)) (.lit 9))),
    .asg 16 (.bin (.bxor .u32) (.bin (.shl .u32) (.bin (.bxor .u32) (.ld 4 (.padd (.var 22) (.lit 5) 4)) (.var 9))
      (.lit 31)) (.bin (.shr .u32) (.bin (.bxor .u32) (.ld 4 (.padd (.var 22) (.lit 5) 4)) (.var 9)) (.lit 1))),
    .asg 12 (.bin (.bxor .u32) (.bin (.shl .u32) (.bin (.bxor .u32) (.ld 4 (.padd (.var 22) (.lit 37) 4)) (.var 5))
      (.lit 14)) (.bin (.shr .u32) (.bin (.bxor .u32) (.ld 4 (.padd (.var 22) (.lit 37) 4)) (.var 5)) (.lit 18))),
    .asg 13 (.bin (.bxor .u32) (.bin (.shl .u32) (.bin (.bxor .u32) (.ld 4 (.padd (.var 22) (.lit 18) 4)) (.var 6))
      (.lit 10)) (.bin (.shr .u32) (.bin (.bxor .u32) (.ld 4 (.padd (.var 22) (.lit 18) 4)) (.var 6)) (.lit 22))),
    .st 4 (.padd (.var 22) (.lit 41) 4) (.bin (.bxor .u32) (.var 12) (.bin (.band .u32) (.un (.bnot .u32) (.var 13))
      (.var 14))),
    .st 4 (.padd (.var 22) (.lit 23) 4) (.bin (.bxor .u32) (.var 13) (.bin (.band .u32) (.un (.bnot .u32) (.var 14))
      (.var 15))),
    .st 4 (.padd (.var 22) (.lit 5) 4) (.bin (.bxor .u32) (.var 14) (.bin (.band .u32) (.un (.bnot .u32) (.var 15))
      (.var 16))),
    .st 4 (.padd (.var 22) (.lit 37) 4) (.bin (.bxor .u32) (.var 15) (.bin (.band .u32) (.un (.bnot .u32) (.var 16))
      (.var 12))),
    .st 4 (.padd (.var 22) (.lit 18) 4) (.bin (.bxor .u32) (.var 16) (.bin (.band .u32) (.un (.bnot .u32) (.var 12))
      (.var 13))),
    .asg 14 (.bin (.bxor .u32) (.bin (.shl .u32) (.bin (.bxor .u32) (.ld 4 (.padd (.var 22) (.lit 40) 4)) (.var 2))
      (.lit 1)) (.bin (.shr .u32) (.bin (.bxor .u32) (.ld 4 (.padd (.var 22) (.lit 40) 4)) (.var 2)) (.lit 31))),
    .asg 15 (.bin (.bxor .u32) (.bin (.shl .u32) (.bin (.bxor .u32) (.ld 4 (.padd (.var 22) (.lit 22) 4)) (.var 3))
      (.lit 22)) (.bin (.shr .u32) (.bin (.bxor .u32) (.ld 4 (.padd (.var 22) (.lit 22) 4)) (.var 3)) (.lit 10))),
    .asg 16 (.bin (.bxor .u32) (.bin (.shl .u32) (.bin (.bxor .u32) (.ld 4 (.padd (.var 22) (.lit 4) 4)) (.var 4))
      (.lit 30)) (.bin (.shr .u32) (.bin (.bxor .u32) (.ld 4 (.padd (.var 22) (.lit 4) 4)) (.var 4)) (.lit 2))),
    .asg 12 (.bin (.bxor .u32) (.bin (.shl .u32) (.bin (.bxor .u32) (.ld 4 (.padd (.var 22) (.lit 36) 4)) (.var 10))
      (.lit 14)) (.bin (.shr .u32) (.bin (.bxor .u32) (.ld 4 (.padd (.var 22) (.lit 36) 4)) (.var 10)) (.lit 18))),
    .asg 13 (.bin (.bxor .u32) (.bin (.shl .u32) (.bin (.bxor .u32) (.ld 4 (.padd (.var 22) (.lit 19) 4)) (.var 11))
      (.lit 10)) (.bin (.shr .u32) (.bin (.bxor .u32) (.ld 4 (.padd (.var 22) (.lit 19) 4)) (.var 11)) (.lit 22))),
    .st 4 (.padd (.var 22) (.lit 40) 4) (.bin (.bxor .u32) (.var 12) (.bin (.band .u32) (.un (.bnot .u32) (.var 13))
      (.var 14))),
    .st 4 (.padd (.var 22) (.lit 22) 4) (.bin (.bxor .u32) (.var 13) (.bin (.band .u32) (.un (.bnot .u32) (.var 14))
      (.var 15))),
    .st 4 (.padd (.var 22) (.lit 4) 4) (.bin (.bxor .u32) (.var 14) (.bin (.band .u32) (.un (.bnot .u32) (.var 15))
      (.var 16))),
    .st 4 (.padd (.var 22) (.lit 36) 4) (.bin (.bxor .u32) (.var 15) (.bin (.band .u32) (.un (.bnot .u32) (.var 16))
      (.var 12))),
    .st 4 (.padd (.var 22) (.lit 19) 4) (.bin (.bxor .u32) (.var 16) (.bin (.band .u32) (.un (.bnot .u32) (.var 12))
      (.var 13))),
    .asg 16 (.bin (.bxor .u32) (.bin (.shl .u32) (.bin (.bxor .u32) (.ld 4 (.padd (.var 22) (.lit 31) 4)) (.var 2))
      (.lit 9)) (.bin (.shr .u32) (.bin (.bxor .u32) (.ld 4 (.padd (.var 22) (.lit 31) 4)) (.var 2)) (.lit 23))),
    .asg 12 (.bin (.bxor .u32) (.bin (.shl .u32) (.bin (.bxor .u32) (.ld 4 (.padd (.var 22) (.lit 13) 4)) (.var 8))
      (.lit 1)) (.bin (.shr .u32) (.bin (.bxor .u32) (.ld 4 (.padd (.var 22) (.lit 13) 4)) (.var 8)) (.lit 31))),
    .asg 13 (.bin (.bxor .u32) (.bin (.shl .u32) (.bin (.bxor .u32) (.ld 4 (.padd (.var 22) (.lit 45) 4)) (.var 4))
      (.lit 3)) (.bin (.shr .u32) (.bin (.bxor .u32) (.ld 4 (.padd (.var 22) (.lit 45) 4)) (.var 4)) (.lit 29))),
    .asg 14 (.bin (.bxor .u32) (.bin (.shl .u32) (.bin (.bxor .u32) (.ld 4 (.padd (.var 22) (.lit 26) 4)) (.var 10))
      (.lit 13)) (.bin (.shr .u32) (.bin (.bxor .u32) (.ld 4 (.padd (.var 22) (.lit 26) 4)) (.var 10)) (.lit 19))),
    .asg 15 (.bin (.bxor .u32) (.bin (.shl .u32) (.bin (.bxor .u32) (.ld 4 (.padd (.var 22) (.lit 9) 4)) (.var 6))
      (.lit 4)) (.bin (.shr .u32) (.bin (.bxor .u32) (.ld 4 (.padd (.var 22) (.lit 9) 4)) (.var 6)) (.lit 28))),
    .st 4 (.padd (.var 22) (.lit 31) 4) (.bin (.bxor .u32) (.var 12) (.bin (.band .u32) (.un (.bnot .u32) (.var 13))
      (.var 14))),
    .st 4 (.padd (.var 22) (.lit 13) 4) (.bin (.bxor .u32) (.var 13) (.bin (.band .u32) (.un (.bnot .u32) (.var 14))
      (.var 15))),
    .st 4 (.padd (.var 22) (.lit 45) 4) (.bin (.bxor .u32) (.var 14) (.bin (.band .u32) (.un (.bnot .u32) (.var 15))
      (.var 16)))]

/-- part of `KeccakP1600_Permute_Nrounds` -/
def KeccakP1600_Permute_Nrounds.part13 : Stmt :=
  block [
    .st 4 (.padd (.var 22) (.lit 26) 4) (.bin (.bxor .u32) (.var 15) (.bin (.band .u32) (.un (.bnot .u32) (.var 16))
      (.var 12))),
    .st 4 (.padd (.var 22) (.lit 9) 4) (.bin (.bxor .u32) (.var 16) (.bin (.band .u32) (.un (.bnot .u32) (.var 12))
      (.var 13))),
    .asg 16 (.bin (.bxor .u32) (.bin (.shl .u32) (.bin (.bxor .u32) (.ld 4 (.padd (.var 22) (.lit 30) 4)) (.var 7))
      (.lit 9)) (.bin (.shr .u32) (.bin (.bxor .u32) (.ld 4 (.padd (.var 22) (.lit 30) 4)) (.var 7)) (.lit 23))),
    .asg 12 (.bin (.bxor .u32) (.ld 4 (.padd (.var 22) (.lit 12) 4)) (.var 3)),
    .asg 13 (.bin (.bxor .u32) (.bin (.shl .u32) (.bin (.bxor .u32) (.ld 4 (.padd (.var 22) (.lit 44) 4)) (.var 9))
      (.lit 3)) (.bin (.shr .u32) (.bin (.bxor .u32) (.ld 4 (.padd (.var 22) (.lit 44) 4)) (.var 9)) (.lit 29))),
    .asg 14 (.bin (.bxor .u32) (.bin (.shl .u32) (.bin (.bxor .u32) (.ld 4 (.padd (.var 22) (.lit 27) 4)) (.var 5))
      (.lit 12)) (.bin (.shr .u32) (.bin (.bxor .u32) (.ld 4 (.padd (.var 22) (.lit 27) 4)) (.var 5)) (.lit 20))),
    .asg 15 (.bin (.bxor .u32) (.bin (.shl .u32) (.bin (.bxor .u32) (.ld 4 (.padd (.var 22) (.lit 8) 4)) (.var 11))
      (.lit 4)) (.bin (.shr .u32) (.bin (.bxor .u32) (.ld 4 (.padd (.var 22) (.lit 8) 4)) (.var 11)) (.lit 28))),
    .st 4 (.padd (.var 22) (.lit 30) 4) (.bin (.bxor .u32) (.var 12) (.bin (.band .u32) (.un (.bnot .u32) (.var 13))
      (.var 14))),
    .st 4 (.padd (.var 22) (.lit 12) 4) (.bin (.bxor .u32) (.var 13) (.bin (.band .u32) (.un (.bnot .u32) (.var 14))
      (.var 15))),
    .st 4 (.padd (.var 22) (.lit 44) 4) (.bin (.bxor .u32) (.var 14) (.bin (.band .u32) (.un (.bnot .u32) (.var 15))
      (.var 16))),
    .st 4 (.padd (.var 22) (.lit 27) 4) (.bin (.bxor .u32) (.var 15) (.bin (.band .u32) (.un (.bnot .u32) (.var 16))
      (.var 12))),
    .st 4 (.padd (.var 22) (.lit 8) 4) (.bin (.bxor .u32) (.var 16) (.bin (.band .u32) (.un (.bnot .u32) (.var 12))
      (.var 13))),
    .asg 13 (.bin (.bxor .u32) (.bin (.shl .u32) (.bin (.bxor .u32) (.ld 4 (.padd (.var 22) (.lit 21) 4)) (.var 2))
      (.lit 18)) (.bin (.shr .u32) (.bin (.bxor .u32) (.ld 4 (.padd (.var 22) (.lit 21) 4)) (.var 2)) (.lit 14))),
    .asg 14 (.bin (.bxor .u32) (.bin (.shl .u32) (.bin (.bxor .u32) (.ld 4 (.padd (.var 22) (.lit 3) 4)) (.var 3))
      (.lit 5)) (.bin (.shr .u32) (.bin (.bxor .u32) (.ld 4 (.padd (.var 22) (.lit 3) 4)) (.var 3)) (.lit 27))),
    .asg 15 (.bin (.bxor .u32) (.bin (.shl .u32) (.bin (.bxor .u32) (.ld 4 (.padd (.var 22) (.lit 34) 4)) (.var 9))
      (.lit 8)) (.bin (.shr .u32) (.bin (.bxor .u32) (.ld 4 (.padd (.var 22) (.lit 34) 4)) (.var 9)) (.lit 24))),
    .asg 16 (.bin (.bxor .u32) (.bin (.shl .u32) (.bin (.bxor .u32) (.ld 4 (.padd (.var 22) (.lit 17) 4)) (.var 5))
      (.lit 28)) (.bin (.shr .u32) (.bin (.bxor .u32) (.ld 4 (.padd (.var 22) (.lit 17) 4)) (.var 5)) (.lit 4))),
    .asg 12 (.bin (.bxor .u32) (.bin (.shl .u32) (.bin (.bxor .u32) (.ld 4 (.padd (.var 22) (.lit 49) 4)) (.var 11))
      (.lit 14)) (.bin (.shr .u32) (.bin (.bxor .u32) (.ld 4 (.padd (.var 22) (.lit 49) 4)) (.var 11)) (.lit 18))),
    .st 4 (.padd (.var 22) (.lit 21) 4) (.bin (.bxor .u32) (.var 12) (.bin (.band .u32) (.un (.bnot .u32) (.var 13))
      (.var 14))),
    .st 4 (.padd (.var 22) (.lit 3) 4) (.bin (.bxor .u32) (.var 13) (.bin (.band .u32) (.un (.bnot .u32) (.var 14))
      (.var 15))),
    .st 4 (.padd (.var 22) (.lit 34) 4) (.bin (.bxor .u32) (.var 14) (.bin (.band .u32) (.un (.bnot .u32) (.var 15))
      (.var 16))),
    .st 4 (.padd (.var 22) (.lit 17) 4) (.bin (.bxor .u32) (.var 15) (.bin (.band .u32) (.un (.bnot .u32) (.var 16))
      (.var 12))),
    .st 4 (.padd (.var 22) (.lit 49) 4) (.bin (.bxor .u32) (.var 16) (.bin (.band .u32) (.un (.bnot .u32) (.var 12))
      (.var 13))),
    .asg 13 (.bin (.bxor .u32) (.bin (.shl .u32) (.bin (.bxor .u32) (.ld 4 (.padd (.var 22) (.lit 20) 4)) (.var 7))
      (.lit 18)) (.bin (.shr .u32) (.bin (.bxor .u32) (.ld 4 (.padd (.var 22) (.lit 20) 4)) (.var 7)) (.lit 14))),
    .asg 14 (.bin (.bxor .u32) (.bin (.shl .u32) (.bin (.bxor .u32) (.ld 4 (.padd (.var 22) (.lit 2) 4)) (.var 8))
      (.lit 5)) (.bin (.shr .u32) (.bin (.bxor .u32) (.ld 4 (.padd (.var 22) (.lit 2) 4)) (.var 8)) (.lit 27))),
    .asg 15 (.bin (.bxor .u32) (.bin (.shl .u32) (.bin (.bxor .u32) (.ld 4 (.padd (.var 22) (.lit 35) 4)) (.var 4))
      (.lit 7)) (.bin (.shr .u32) (.bin (.bxor .u32) (.ld 4 (.padd (.var 22) (.lit 35) 4)) (.var 4)) (.lit 25))),
    .asg 16 (.bin (.bxor .u32) (.bin (.shl .u32) (.bin (.bxor .u32) (.ld 4 (.padd (.var 22) (.lit 16) 4)) (.var 10))
      (.lit 28)) (.bin (.shr .u32) (.bin (.bxor .u32) (.ld 4 (.padd (.var 22) (.lit 16) 4)) (.var 10)) (.lit 4))),
    .asg 12 (.bin (.bxor .u32) (.bin (.shl .u32) (.bin (.bxor .u32) (.ld 4 (.padd (.var 22) (.lit 48) 4)) (.var 6))
      (.lit 13)) (.bin (.shr .u32) (.bin (.bxor .u32) (.ld 4 (.padd (.var 22) (.lit 48) 4)) (.var 6)) (.lit 19))),
    .st 4 (.padd (.var 22) (.lit 20) 4) (.bin (.bxor .u32) (.var 12) (.bin (.band .u32) (.un (.bnot .u32) (.var 13))
      (.var 14))),
    .st 4 (.padd (.var 22) (.lit 2) 4) (.bin (.bxor .u32) (.var 13) (.bin (.band .u32) (.un (.bnot .u32) (.var 14))
      (.var 15))),
    .st 4 (.padd (.var 22) (.lit 35) 4) (.bin (.bxor .u32) (.var 14) (.bin (.band .u32) (.un (.bnot .u32) (.var 15))
      (.var 16))),
    .st 4 (.padd (.var 22) (.lit 16) 4) (.bin (.bxor .u32) (.var 15) (.bin (.band .u32) (.un (.bnot .u32) (.var 16))
      (.var 12))),
    .st 4 (.padd (.var 22) (.lit 48) 4) (.bin (.bxor .u32) (.var 16) (.bin (.band .u32) (.un (.bnot .u32) (.var 12))
      (.var 13))),
    .asg 15 (.bin (.bxor .u32) (.bin (.shl .u32) (.bin (.bxor .u32) (.ld 4 (.padd (.var 22) (.lit 11) 4)) (.var 7))
      (.lit 21)) (.bin (.shr .u32) (.bin (.bxor .u32) (.ld 4 (.padd (.var 22) (.lit 11) 4)) (.var 7)) (.lit 11))),
    .asg 16 (.bin (.bxor .u32) (.bin (.shl .u32) (.bin (.bxor .u32) (.ld 4 (.padd (.var 22) (.lit 42) 4)) (.var 3))
      (.lit 1)) (.bin (.shr .u32) (.bin (.bxor .u32) (.ld 4 (.padd (.var 22) (.lit 42) 4)) (.var 3)) (.lit 31))),
    .asg 12 (.bin (.bxor .u32) (.bin (.shl .u32) (.bin (.bxor .u32) (.ld 4 (.padd (.var 22) (.lit 25) 4)) (.var 4))
      (.lit 31)) (.bin (.shr .u32) (.bin (.bxor .u32) (.ld 4 (.padd (.var 22) (.lit 25) 4)) (.var 4)) (.lit 1))),
    .asg 13 (.bin (.bxor .u32) (.bin (.shl .u32) (.bin (.bxor .u32) (.ld 4 (.padd (.var 22) (.lit 7) 4)) (.var 10))
      (.lit 28)) (.bin (.shr .u32) (.bin (.bxor .u32) (.ld 4 (.padd (.var 22) (.lit 7) 4)) (.var 10)) (.lit 4))),
    .asg 14 (.bin (.bxor .u32) (.bin (.shl .u32) (.bin (.bxor .u32) (.ld 4 (.padd (.var 22) (.lit 39) 4)) (.var 11))
      (.lit 20)) (.bin (.shr .u32) (.bin (.bxor .u32) (.ld 4 (.padd (.var 22) (.lit 39) 4)) (.var 11)) (.lit 12))),
    .st 4 (.padd (.var 22) (.lit 11) 4) (.bin (.bxor .u32) (.var 12) (.bin (.band .u32) (.un (.bnot .u32) (.var 13))
      (.var 14))),
    .st 4 (.padd (.var 22) (.lit 42) 4) (.bin (.bxor .u32) (.var 13) (.bin (.band .u32) (.un (.bnot .u32) (.var 14))
      (.var 15))),
    .st 4 (.padd (.var 22) (.lit 25) 4) (.bin (.bxor .u32) (.var 14) (.bin (.band .u32) (.un (.bnot .u32) (.var 15))
      (.var 16)))]

/-- part of `KeccakP1600_Permute_Nrounds` -/
def KeccakP1600_Permute_Nrounds.part14 : Stmt :=
  block [
    .st 4 (.padd (.var 22) (.lit 7) 4) (.bin (.bxor .u32) (.var 15) (.bin (.band .u32) (.un (.bnot .u32) (.var 16))
      (.var 12))),
    .st 4 (.padd (.var 22) (.lit 39) 4) (.bin (.bxor .u32) (.var 16) (.bin (.band .u32) (.un (.bnot .u32) (.var 12))
      (.var 13))),
    .asg 15 (.bin (.bxor .u32) (.bin (.shl .u32) (.bin (.bxor .u32) (.ld 4 (.padd (.var 22) (.lit 10) 4)) (.var 2))
      (.lit 20)) (.bin (.shr .u32) (.bin (.bxor .u32) (.ld 4 (.padd (.var 22) (.lit 10) 4)) (.var 2)) (.lit 12))),
    .asg 16 (.bin (.bxor .u32) (.bin (.shl .u32) (.bin (.bxor .u32) (.ld 4 (.padd (.var 22) (.lit 43) 4)) (.var 8))
      (.lit 1)) (.bin (.shr .u32) (.bin (.bxor .u32) (.ld 4 (.padd (.var 22) (.lit 43) 4)) (.var 8)) (.lit 31))),
    .asg 12 (.bin (.bxor .u32) (.bin (.shl .u32) (.bin (.bxor .u32) (.ld 4 (.padd (.var 22) (.lit 24) 4)) (.var 9))
      (.lit 31)) (.bin (.shr .u32) (.bin (.bxor .u32) (.ld 4 (.padd (.var 22) (.lit 24) 4)) (.var 9)) (.lit 1))),
    .asg 13 (.bin (.bxor .u32) (.bin (.shl .u32) (.bin (.bxor .u32) (.ld 4 (.padd (.var 22) (.lit 6) 4)) (.var 5))
      (.lit 27)) (.bin (.shr .u32) (.bin (.bxor .u32) (.ld 4 (.padd (.var 22) (.lit 6) 4)) (.var 5)) (.lit 5))),
    .asg 14 (.bin (.bxor .u32) (.bin (.shl .u32) (.bin (.bxor .u32) (.ld 4 (.padd (.var 22) (.lit 38) 4)) (.var 6))
      (.lit 19)) (.bin (.shr .u32) (.bin (.bxor .u32) (.ld 4 (.padd (.var 22) (.lit 38) 4)) (.var 6)) (.lit 13))),
    .st 4 (.padd (.var 22) (.lit 10) 4) (.bin (.bxor .u32) (.var 12) (.bin (.band .u32) (.un (.bnot .u32) (.var 13))
      (.var 14))),
    .st 4 (.padd (.var 22) (.lit 43) 4) (.bin (.bxor .u32) (.var 13) (.bin (.band .u32) (.un (.bnot .u32) (.var 14))
      (.var 15))),
    .st 4 (.padd (.var 22) (.lit 24) 4) (.bin (.bxor .u32) (.var 14) (.bin (.band .u32) (.un (.bnot .u32) (.var 15))
      (.var 16))),
    .st 4 (.padd (.var 22) (.lit 6) 4) (.bin (.bxor .u32) (.var 15) (.bin (.band .u32) (.un (.bnot .u32) (.var 16))
      (.var 12))),
    .st 4 (.padd (.var 22) (.lit 38) 4) (.bin (.bxor .u32) (.var 16) (.bin (.band .u32) (.un (.bnot .u32) (.var 12))
      (.var 13))),
    .asg 17 (.bin (.bxor .u32) (.bin (.bxor .u32) (.bin (.bxor .u32) (.bin (.bxor .u32) (.ld 4 (.padd (.var 22) (.lit
      29) 4)) (.ld 4 (.padd (.var 22) (.lit 18) 4))) (.ld 4 (.padd (.var 22) (.lit 9) 4))) (.ld 4 (.padd (.var 22)
      (.lit 49) 4))) (.ld 4 (.padd (.var 22) (.lit 39) 4))),
    .asg 11 (.bin (.bxor .u32) (.bin (.bxor .u32) (.bin (.bxor .u32) (.bin (.bxor .u32) (.ld 4 (.padd (.var 22) (.lit
      32) 4)) (.ld 4 (.padd (.var 22) (.lit 22) 4))) (.ld 4 (.padd (.var 22) (.lit 12) 4))) (.ld 4 (.padd (.var 22)
      (.lit 2) 4))) (.ld 4 (.padd (.var 22) (.lit 43) 4))),
    .asg 2 (.bin (.bxor .u32) (.var 17) (.bin (.bxor .u32) (.bin (.shl .u32) (.var 11) (.lit 1)) (.bin (.shr .u32)
      (.var 11) (.lit 31)))),
    .asg 19 (.bin (.bxor .u32) (.bin (.bxor .u32) (.bin (.bxor .u32) (.bin (.bxor .u32) (.ld 4 (.padd (.var 22) (.lit
      28) 4)) (.ld 4 (.padd (.var 22) (.lit 19) 4))) (.ld 4 (.padd (.var 22) (.lit 8) 4))) (.ld 4 (.padd (.var 22)
      (.lit 48) 4))) (.ld 4 (.padd (.var 22) (.lit 38) 4))),
    .asg 6 (.bin (.bxor .u32) (.bin (.bxor .u32) (.bin (.bxor .u32) (.bin (.bxor .u32) (.ld 4 (.padd (.var 22) (.lit
      33) 4)) (.ld 4 (.padd (.var 22) (.lit 23) 4))) (.ld 4 (.padd (.var 22) (.lit 13) 4))) (.ld 4 (.padd (.var 22)
      (.lit 3) 4))) (.ld 4 (.padd (.var 22) (.lit 42) 4))),
    .asg 7 (.bin (.bxor .u32) (.var 19) (.var 6)),
    .asg 20 (.bin (.bxor .u32) (.bin (.bxor .u32) (.bin (.bxor .u32) (.bin (.bxor .u32) (.ld 4 (.padd (.var 22) (.lit
      15) 4)) (.ld 4 (.padd (.var 22) (.lit 5) 4))) (.ld 4 (.padd (.var 22) (.lit 45) 4))) (.ld 4 (.padd (.var 22)
      (.lit 34) 4))) (.ld 4 (.padd (.var 22) (.lit 25) 4))),
    .asg 5 (.bin (.bxor .u32) (.var 20) (.bin (.bxor .u32) (.bin (.shl .u32) (.var 19) (.lit 1)) (.bin (.shr .u32)
      (.var 19) (.lit 31)))),
    .asg 18 (.bin (.bxor .u32) (.bin (.bxor .u32) (.bin (.bxor .u32) (.bin (.bxor .u32) (.ld 4 (.padd (.var 22) (.lit
      14) 4)) (.ld 4 (.padd (.var 22) (.lit 4) 4))) (.ld 4 (.padd (.var 22) (.lit 44) 4))) (.ld 4 (.padd (.var 22)
      (.lit 35) 4))) (.ld 4 (.padd (.var 22) (.lit 24) 4))),
    .asg 10 (.bin (.bxor .u32) (.var 18) (.var 17)),
    .asg 17 (.bin (.bxor .u32) (.bin (.bxor .u32) (.bin (.bxor .u32) (.bin (.bxor .u32) (.ld 4 (.var 22)) (.ld 4
      (.padd (.var 22) (.lit 41) 4))) (.ld 4 (.padd (.var 22) (.lit 31) 4))) (.ld 4 (.padd (.var 22) (.lit 21) 4)))
      (.ld 4 (.padd (.var 22) (.lit 11) 4))),
    .asg 3 (.bin (.bxor .u32) (.var 17) (.bin (.bxor .u32) (.bin (.shl .u32) (.var 18) (.lit 1)) (.bin (.shr .u32)
      (.var 18) (.lit 31)))),
    .asg 19 (.bin (.bxor .u32) (.bin (.bxor .u32) (.bin (.bxor .u32) (.bin (.bxor .u32) (.ld 4 (.padd (.var 22) (.lit
      1) 4)) (.ld 4 (.padd (.var 22) (.lit 40) 4))) (.ld 4 (.padd (.var 22) (.lit 30) 4))) (.ld 4 (.padd (.var 22)
      (.lit 20) 4))) (.ld 4 (.padd (.var 22) (.lit 10) 4))),
    .asg 8 (.bin (.bxor .u32) (.var 19) (.var 20)),
    .asg 18 (.bin (.bxor .u32) (.bin (.bxor .u32) (.bin (.bxor .u32) (.bin (.bxor .u32) (.ld 4 (.padd (.var 22) (.lit
      46) 4)) (.ld 4 (.padd (.var 22) (.lit 36) 4))) (.ld 4 (.padd (.var 22) (.lit 27) 4))) (.ld 4 (.padd (.var 22)
      (.lit 16) 4))) (.ld 4 (.padd (.var 22) (.lit 6) 4))),
    .asg 4 (.bin (.bxor .u32) (.var 6) (.bin (.bxor .u32) (.bin (.shl .u32) (.var 18) (.lit 1)) (.bin (.shr .u32)
      (.var 18) (.lit 31)))),
    .asg 20 (.bin (.bxor .u32) (.bin (.bxor .u32) (.bin (.bxor .u32) (.bin (.bxor .u32) (.ld 4 (.padd (.var 22) (.lit
      47) 4)) (.ld 4 (.padd (.var 22) (.lit 37) 4))) (.ld 4 (.padd (.var 22) (.lit 26) 4))) (.ld 4 (.padd (.var 22)
      (.lit 17) 4))) (.ld 4 (.padd (.var 22) (.lit 7) 4))),
    .asg 9 (.bin (.bxor .u32) (.var 11) (.var 20)),
    .asg 6 (.bin (.bxor .u32) (.var 20) (.bin (.bxor .u32) (.bin (.shl .u32) (.var 19) (.lit 1)) (.bin (.shr .u32)
      (.var 19) (.lit 31)))),
    .asg 11 (.bin (.bxor .u32) (.var 18) (.var 17)),
    .asg 12 (.bin (.bxor .u32) (.ld 4 (.var 22)) (.var 2)),
    .asg 13 (.bin (.bxor .u32) (.bin (.shl .u32) (.bin (.bxor .u32) (.ld 4 (.padd (.var 22) (.lit 23) 4)) (.var 3))
      (.lit 22)) (.bin (.shr .u32) (.bin (.bxor .u32) (.ld 4 (.padd (.var 22) (.lit 23) 4)) (.var 3)) (.lit 10))),
    .asg 14 (.bin (.bxor .u32) (.bin (.shl .u32) (.bin (.bxor .u32) (.ld 4 (.padd (.var 22) (.lit 44) 4)) (.var 9))
      (.lit 22)) (.bin (.shr .u32) (.bin (.bxor .u32) (.ld 4 (.padd (.var 22) (.lit 44) 4)) (.var 9)) (.lit 10))),
    .asg 15 (.bin (.bxor .u32) (.bin (.shl .u32) (.bin (.bxor .u32) (.ld 4 (.padd (.var 22) (.lit 16) 4)) (.var 10))
      (.lit 11)) (.bin (.shr .u32) (.bin (.bxor .u32) (.ld 4 (.padd (.var 22) (.lit 16) 4)) (.var 10)) (.lit 21))),
    .asg 16 (.bin (.bxor .u32) (.bin (.shl .u32) (.bin (.bxor .u32) (.ld 4 (.padd (.var 22) (.lit 39) 4)) (.var 6))
      (.lit 7)) (.bin (.shr .u32) (.bin (.bxor .u32) (.ld 4 (.padd (.var 22) (.lit 39) 4)) (.var 6)) (.lit 25))),
    .st 4 (.var 22) (.bin (.bxor .u32) (.var 12) (.bin (.band .u32) (.un (.bnot .u32) (.var 13)) (.var 14))),
    .asg 29 (.var 21),
    .asg 21 (.padd (.var 29) (.lit 1) 4)]

/-- part of `KeccakP1600_Permute_Nrounds` -/
def KeccakP1600_Permute_Nrounds.part15 : Stmt :=
  block [
    .st 4 (.var 22) (.bin (.bxor .u32) (.ld 4 (.var 22)) (.ld 4 (.var 29))),
    .st 4 (.padd (.var 22) (.lit 23) 4) (.bin (.bxor .u32) (.var 13) (.bin (.band .u32) (.un (.bnot .u32) (.var 14))
      (.var 15))),
    .st 4 (.padd (.var 22) (.lit 44) 4) (.bin (.bxor .u32) (.var 14) (.bin (.band .u32) (.un (.bnot .u32) (.var 15))
      (.var 16))),
    .st 4 (.padd (.var 22) (.lit 16) 4) (.bin (.bxor .u32) (.var 15) (.bin (.band .u32) (.un (.bnot .u32) (.var 16))
      (.var 12))),
    .st 4 (.padd (.var 22) (.lit 39) 4) (.bin (.bxor .u32) (.var 16) (.bin (.band .u32) (.un (.bnot .u32) (.var 12))
      (.var 13))),
    .asg 12 (.bin (.bxor .u32) (.ld 4 (.padd (.var 22) (.lit 1) 4)) (.var 7)),
    .asg 13 (.bin (.bxor .u32) (.bin (.shl .u32) (.bin (.bxor .u32) (.ld 4 (.padd (.var 22) (.lit 22) 4)) (.var 8))
      (.lit 22)) (.bin (.shr .u32) (.bin (.bxor .u32) (.ld 4 (.padd (.var 22) (.lit 22) 4)) (.var 8)) (.lit 10))),
    .asg 14 (.bin (.bxor .u32) (.bin (.shl .u32) (.bin (.bxor .u32) (.ld 4 (.padd (.var 22) (.lit 45) 4)) (.var 4))
      (.lit 21)) (.bin (.shr .u32) (.bin (.bxor .u32) (.ld 4 (.padd (.var 22) (.lit 45) 4)) (.var 4)) (.lit 11))),
    .asg 15 (.bin (.bxor .u32) (.bin (.shl .u32) (.bin (.bxor .u32) (.ld 4 (.padd (.var 22) (.lit 17) 4)) (.var 5))
      (.lit 10)) (.bin (.shr .u32) (.bin (.bxor .u32) (.ld 4 (.padd (.var 22) (.lit 17) 4)) (.var 5)) (.lit 22))),
    .asg 16 (.bin (.bxor .u32) (.bin (.shl .u32) (.bin (.bxor .u32) (.ld 4 (.padd (.var 22) (.lit 38) 4)) (.var 11))
      (.lit 7)) (.bin (.shr .u32) (.bin (.bxor .u32) (.ld 4 (.padd (.var 22) (.lit 38) 4)) (.var 11)) (.lit 25))),
    .st 4 (.padd (.var 22) (.lit 1) 4) (.bin (.bxor .u32) (.var 12) (.bin (.band .u32) (.un (.bnot .u32) (.var 13))
      (.var 14))),
    .asg 30 (.var 21),
    .asg 21 (.padd (.var 30) (.lit 1) 4),
    .st 4 (.padd (.var 22) (.lit 1) 4) (.bin (.bxor .u32) (.ld 4 (.padd (.var 22) (.lit 1) 4)) (.ld 4 (.var 30))),
    .st 4 (.padd (.var 22) (.lit 22) 4) (.bin (.bxor .u32) (.var 13) (.bin (.band .u32) (.un (.bnot .u32) (.var 14))
      (.var 15))),
    .st 4 (.padd (.var 22) (.lit 45) 4) (.bin (.bxor .u32) (.var 14) (.bin (.band .u32) (.un (.bnot .u32) (.var 15))
      (.var 16))),
    .st 4 (.padd (.var 22) (.lit 17) 4) (.bin (.bxor .u32) (.var 15) (.bin (.band .u32) (.un (.bnot .u32) (.var 16))
      (.var 12))),
    .st 4 (.padd (.var 22) (.lit 38) 4) (.bin (.bxor .u32) (.var 16) (.bin (.band .u32) (.un (.bnot .u32) (.var 12))
      (.var 13))),
    .asg 14 (.bin (.bxor .u32) (.bin (.shl .u32) (.bin (.bxor .u32) (.ld 4 (.padd (.var 22) (.lit 30) 4)) (.var 7))
      (.lit 2)) (.bin (.shr .u32) (.bin (.bxor .u32) (.ld 4 (.padd (.var 22) (.lit 30) 4)) (.var 7)) (.lit 30))),
    .asg 15 (.bin (.bxor .u32) (.bin (.shl .u32) (.bin (.bxor .u32) (.ld 4 (.padd (.var 22) (.lit 2) 4)) (.var 8))
      (.lit 23)) (.bin (.shr .u32) (.bin (.bxor .u32) (.ld 4 (.padd (.var 22) (.lit 2) 4)) (.var 8)) (.lit 9))),
    .asg 16 (.bin (.bxor .u32) (.bin (.shl .u32) (.bin (.bxor .u32) (.ld 4 (.padd (.var 22) (.lit 24) 4)) (.var 9))
      (.lit 31)) (.bin (.shr .u32) (.bin (.bxor .u32) (.ld 4 (.padd (.var 22) (.lit 24) 4)) (.var 9)) (.lit 1))),
    .asg 12 (.bin (.bxor .u32) (.bin (.shl .u32) (.bin (.bxor .u32) (.ld 4 (.padd (.var 22) (.lit 47) 4)) (.var 5))
      (.lit 14)) (.bin (.shr .u32) (.bin (.bxor .u32) (.ld 4 (.padd (.var 22) (.lit 47) 4)) (.var 5)) (.lit 18))),
    .asg 13 (.bin (.bxor .u32) (.bin (.shl .u32) (.bin (.bxor .u32) (.ld 4 (.padd (.var 22) (.lit 18) 4)) (.var 6))
      (.lit 10)) (.bin (.shr .u32) (.bin (.bxor .u32) (.ld 4 (.padd (.var 22) (.lit 18) 4)) (.var 6)) (.lit 22))),
    .st 4 (.padd (.var 22) (.lit 30) 4) (.bin (.bxor .u32) (.var 12) (.bin (.band .u32) (.un (.bnot .u32) (.var 13))
      (.var 14))),
    .st 4 (.padd (.var 22) (.lit 2) 4) (.bin (.bxor .u32) (.var 13) (.bin (.band .u32) (.un (.bnot .u32) (.var 14))
      (.var 15))),
    .st 4 (.padd (.var 22) (.lit 24) 4) (.bin (.bxor .u32) (.var 14) (.bin (.band .u32) (.un (.bnot .u32) (.var 15))
      (.var 16))),
    .st 4 (.padd (.var 22) (.lit 47) 4) (.bin (.bxor .u32) (.var 15) (.bin (.band .u32) (.un (.bnot .u32) (.var 16))
      (.var 12))),
    .st 4 (.padd (.var 22) (.lit 18) 4) (.bin (.bxor .u32) (.var 16) (.bin (.band .u32) (.un (.bnot .u32) (.var 12))
      (.var 13))),
    .asg 14 (.bin (.bxor .u32) (.bin (.shl .u32) (.bin (.bxor .u32) (.ld 4 (.padd (.var 22) (.lit 31) 4)) (.var 2))
      (.lit 1)) (.bin (.shr .u32) (.bin (.bxor .u32) (.ld 4 (.padd (.var 22) (.lit 31) 4)) (.var 2)) (.lit 31))),
    .asg 15 (.bin (.bxor .u32) (.bin (.shl .u32) (.bin (.bxor .u32) (.ld 4 (.padd (.var 22) (.lit 3) 4)) (.var 3))
      (.lit 22)) (.bin (.shr .u32) (.bin (.bxor .u32) (.ld 4 (.padd (.var 22) (.lit 3) 4)) (.var 3)) (.lit 10))),
    .asg 16 (.bin (.bxor .u32) (.bin (.shl .u32) (.bin (.bxor .u32) (.ld 4 (.padd (.var 22) (.lit 25) 4)) (.var 4))
      (.lit 30)) (.bin (.shr .u32) (.bin (.bxor .u32) (.ld 4 (.padd (.var 22) (.lit 25) 4)) (.var 4)) (.lit 2))),
    .asg 12 (.bin (.bxor .u32) (.bin (.shl .u32) (.bin (.bxor .u32) (.ld 4 (.padd (.var 22) (.lit 46) 4)) (.var 10))
      (.lit 14)) (.bin (.shr .u32) (.bin (.bxor .u32) (.ld 4 (.padd (.var 22) (.lit 46) 4)) (.var 10)) (.lit 18))),
    .asg 13 (.bin (.bxor .u32) (.bin (.shl .u32) (.bin (.bxor .u32) (.ld 4 (.padd (.var 22) (.lit 19) 4)) (.var 11))
      (.lit 10)) (.bin (.shr .u32) (.bin (.bxor .u32) (.ld 4 (.padd (.var 22) (.lit 19) 4)) (.var 11)) (.lit 22))),
    .st 4 (.padd (.var 22) (.lit 31) 4) (.bin (.bxor .u32) (.var 12) (.bin (.band .u32) (.un (.bnot .u32) (.var 13))
      (.var 14))),
    .st 4 (.padd (.var 22) (.lit 3) 4) (.bin (.bxor .u32) (.var 13) (.bin (.band .u32) (.un (.bnot .u32) (.var 14))
      (.var 15))),
    .st 4 (.padd (.var 22) (.lit 25) 4) (.bin (.bxor .u32) (.var 14) (.bin (.band .u32) (.un (.bnot .u32) (.var 15))
      (.var 16))),
    .st 4 (.padd (.var 22) (.lit 46) 4) (.bin (.bxor .u32) (.var 15) (.bin (.band .u32) (.un (.bnot .u32) (.var 16))
      (.var 12))),
    .st 4 (.padd (.var 22) (.lit 19) 4) (.bin (.bxor .u32) (.var 16) (.bin (.band .u32) (.un (.bnot .u32) (.var 12))
      (.var 13))),
    .asg 16 (.bin (.bxor .u32) (.bin (.shl .u32) (.bin (.bxor .u32) (.ld 4 (.padd (.var 22) (.lit 11) 4)) (.var 2))
      (.lit 9)) (.bin (.shr .u32) (.bin (.bxor .u32) (.ld 4 (.padd (.var 22) (.lit 11) 4)) (.var 2)) (.lit 23))),
    .asg 12 (.bin (.bxor .u32) (.bin (.shl .u32) (.bin (.bxor .u32) (.ld 4 (.padd (.var 22) (.lit 32) 4)) (.var 8))
      (.lit 1)) (.bin (.shr .u32) (.bin (.bxor .u32) (.ld 4 (.padd (.var 22) (.lit 32) 4)) (.var 8)) (.lit 31)))]

/-- part of `KeccakP1600_Permute_Nrounds` -/
def KeccakP1600_Permute_Nrounds.part16 : Stmt :=
  block [
    .asg 13 (.bin (.bxor .u32) (.bin (.shl .u32) (.bin (.bxor .u32) (.ld 4 (.padd (.var 22) (.lit 5) 4)) (.var 4))
      (.lit 3)) (.bin (.shr .u32) (.bin (.bxor .u32) (.ld 4 (.padd (.var 22) (.lit 5) 4)) (.var 4)) (.lit 29))),
    .asg 14 (.bin (.bxor .u32) (.bin (.shl .u32) (.bin (.bxor .u32) (.ld 4 (.padd (.var 22) (.lit 27) 4)) (.var 10))
      (.lit 13)) (.bin (.shr .u32) (.bin (.bxor .u32) (.ld 4 (.padd (.var 22) (.lit 27) 4)) (.var 10)) (.lit 19))),
    .asg 15 (.bin (.bxor .u32) (.bin (.shl .u32) (.bin (.bxor .u32) (.ld 4 (.padd (.var 22) (.lit 49) 4)) (.var 6))
      (.lit 4)) (.bin (.shr .u32) (.bin (.bxor .u32) (.ld 4 (.padd (.var 22) (.lit 49) 4)) (.var 6)) (.lit 28))),
    .st 4 (.padd (.var 22) (.lit 11) 4) (.bin (.bxor .u32) (.var 12) (.bin (.band .u32) (.un (.bnot .u32) (.var 13))
      (.var 14))),
    .st 4 (.padd (.var 22) (.lit 32) 4) (.bin (.bxor .u32) (.var 13) (.bin (.band .u32) (.un (.bnot .u32) (.var 14))
      (.var 15))),
    .st 4 (.padd (.var 22) (.lit 5) 4) (.bin (.bxor .u32) (.var 14) (.bin (.band .u32) (.un (.bnot .u32) (.var 15))
      (.var 16))),
    .st 4 (.padd (.var 22) (.lit 27) 4) (.bin (.bxor .u32) (.var 15) (.bin (.band .u32) (.un (.bnot .u32) (.var 16))
      (.var 12))),
    .st 4 (.padd (.var 22) (.lit 49) 4) (.bin (.bxor .u32) (.var 16) (.bin (.band .u32) (.un (.bnot .u32) (.var 12))
      (.var 13))),
    .asg 16 (.bin (.bxor .u32) (.bin (.shl .u32) (.bin (.bxor .u32) (.ld 4 (.padd (.var 22) (.lit 10) 4)) (.var 7))
      (.lit 9)) (.bin (.shr .u32) (.bin (.bxor .u32) (.ld 4 (.padd (.var 22) (.lit 10) 4)) (.var 7)) (.lit 23))),
    .asg 12 (.bin (.bxor .u32) (.ld 4 (.padd (.var 22) (.lit 33) 4)) (.var 3)),
    .asg 13 (.bin (.bxor .u32) (.bin (.shl .u32) (.bin (.bxor .u32) (.ld 4 (.padd (.var 22) (.lit 4) 4)) (.var 9))
      (.lit 3)) (.bin (.shr .u32) (.bin (.bxor .u32) (.ld 4 (.padd (.var 22) (.lit 4) 4)) (.var 9)) (.lit 29))),
    .asg 14 (.bin (.bxor .u32) (.bin (.shl .u32) (.bin (.bxor .u32) (.ld 4 (.padd (.var 22) (.lit 26) 4)) (.var 5))
      (.lit 12)) (.bin (.shr .u32) (.bin (.bxor .u32) (.ld 4 (.padd (.var 22) (.lit 26) 4)) (.var 5)) (.lit 20))),
    .asg 15 (.bin (.bxor .u32) (.bin (.shl .u32) (.bin (.bxor .u32) (.ld 4 (.padd (.var 22) (.lit 48) 4)) (.var 11))
      (.lit 4)) (.bin (.shr .u32) (.bin (.bxor .u32) (.ld 4 (.padd (.var 22) (.lit 48) 4)) (.var 11)) (.lit 28))),
    .st 4 (.padd (.var 22) (.lit 10) 4) (.bin (.bxor .u32) (.var 12) (.bin (.band .u32) (.un (.bnot .u32) (.var 13))
      (.var 14))),
    .st 4 (.padd (.var 22) (.lit 33) 4) (.bin (.bxor .u32) (.var 13) (.bin (.band .u32) (.un (.bnot .u32) (.var 14))
      (.var 15))),
    .st 4 (.padd (.var 22) (.lit 4) 4) (.bin (.bxor .u32) (.var 14) (.bin (.band .u32) (.un (.bnot .u32) (.var 15))
      (.var 16))),
    .st 4 (.padd (.var 22) (.lit 26) 4) (.bin (.bxor .u32) (.var 15) (.bin (.band .u32) (.un (.bnot .u32) (.var 16))
      (.var 12))),
    .st 4 (.padd (.var 22) (.lit 48) 4) (.bin (.bxor .u32) (.var 16) (.bin (.band .u32) (.un (.bnot .u32) (.var 12))
      (.var 13))),
    .asg 13 (.bin (.bxor .u32) (.bin (.shl .u32) (.bin (.bxor .u32) (.ld 4 (.padd (.var 22) (.lit 41) 4)) (.var 2))
      (.lit 18)) (.bin (.shr .u32) (.bin (.bxor .u32) (.ld 4 (.padd (.var 22) (.lit 41) 4)) (.var 2)) (.lit 14))),
    .asg 14 (.bin (.bxor .u32) (.bin (.shl .u32) (.bin (.bxor .u32) (.ld 4 (.padd (.var 22) (.lit 13) 4)) (.var 3))
      (.lit 5)) (.bin (.shr .u32) (.bin (.bxor .u32) (.ld 4 (.padd (.var 22) (.lit 13) 4)) (.var 3)) (.lit 27))),
    .asg 15 (.bin (.bxor .u32) (.bin (.shl .u32) (.bin (.bxor .u32) (.ld 4 (.padd (.var 22) (.lit 35) 4)) (.var 9))
      (.lit 8)) (.bin (.shr .u32) (.bin (.bxor .u32) (.ld 4 (.padd (.var 22) (.lit 35) 4)) (.var 9)) (.lit 24))),
    .asg 16 (.bin (.bxor .u32) (.bin (.shl .u32) (.bin (.bxor .u32) (.ld 4 (.padd (.var 22) (.lit 7) 4)) (.var 5))
      (.lit 28)) (.bin (.shr .u32) (.bin (.bxor .u32) (.ld 4 (.padd (.var 22) (.lit 7) 4)) (.var 5)) (.lit 4))),
    .asg 12 (.bin (.bxor .u32) (.bin (.shl .u32) (.bin (.bxor .u32) (.ld 4 (.padd (.var 22) (.lit 28) 4)) (.var 11))
      (.lit 14)) (.bin (.shr .u32) (.bin (.bxor .u32) (.ld 4 (.padd (.var 22) (.lit 28) 4)) (.var 11)) (.lit 18))),
    .st 4 (.padd (.var 22) (.lit 41) 4) (.bin (.bxor .u32) (.var 12) (.bin (.band .u32) (.un (.bnot .u32) (.var 13))
      (.var 14))),
    .st 4 (.padd (.var 22) (.lit 13) 4) (.bin (.bxor .u32) (.var 13) (.bin (.band .u32) (.un (.bnot .u32) (.var 14))
      (.var 15))),
    .st 4 (.padd (.var 22) (.lit 35) 4) (.bin (.bxor .u32) (.var 14) (.bin (.band .u32) (.un (.bnot .u32) (.var 15))
      (.var 16))),
    .st 4 (.padd (.var 22) (.lit 7) 4) (.bin (.bxor .u32) (.var 15) (.bin (.band .u32) (.un (.bnot .u32) (.var 16))
      (.var 12))),
    .st 4 (.padd (.var 22) (.lit 28) 4) (.bin (.bxor .u32) (.var 16) (.bin (.band .u32) (.un (.bnot .u32) (.var 12))
      (.var 13))),
    .asg 13 (.bin (.bxor .u32) (.bin (.shl .u32) (.bin (.bxor .u32) (.ld 4 (.padd (.var 22) (.lit 40) 4)) (.var 7))
      (.lit 18)) (.bin (.shr .u32) (.bin (.bxor .u32) (.ld 4 (.padd (.var 22) (.lit 40) 4)) (.var 7)) (.lit 14))),
    .asg 14 (.bin (.bxor .u32) (.bin (.shl .u32) (.bin (.bxor .u32) (.ld 4 (.padd (.var 22) (.lit 12) 4)) (.var 8))
      (.lit 5)) (.bin (.shr .u32) (.bin (.bxor .u32) (.ld 4 (.padd (.var 22) (.lit 12) 4)) (.var 8)) (.lit 27))),
    .asg 15 (.bin (.bxor .u32) (.bin (.shl .u32) (.bin (.bxor .u32) (.ld 4 (.padd (.var 22) (.lit 34) 4)) (.var 4))
      (.lit 7)) (.bin (.shr .u32) (.bin (.bxor .u32) (.ld 4 (.padd (.var 22) (.lit 34) 4)) (.var 4)) (.lit 25))),
    .asg 16 (.bin (.bxor .u32) (.bin (.shl .u32) (.bin (.bxor .u32) (.ld 4 (.padd (.var 22) (.lit 6) 4)) (.var 10))
      (.lit 28)) (.bin (.shr .u32) (.bin (.bxor .u32) (.ld 4 (.padd (.var 22) (.lit 6) 4)) (.var 10)) (.lit 4))),
    .asg 12 (.bin (.bxor .u32) (.bin (.shl .u32) (.bin (.bxor .u32) (.ld 4 (.padd (.var 22) (.lit 29) 4)) (.var 6))
      (.lit 13)) (.bin (.shr .u32) (.bin (.bxor .u32) (.ld 4 (.padd (.var 22) (.lit 29) 4)) (.var 6)) (.lit 19))),
    .st 4 (.padd (.var 22) (.lit 40) 4) (.bin (.bxor .u32) (.var 12) (.bin (.band .u32) (.un (.bnot .u32) (.var 13))
      (.var 14))),
    .st 4 (.padd (.var 22) (.lit 12) 4) (.bin (.bxor .u32) (.var 13) (.bin (.band .u32) (.un (.bnot .u32) (.var 14))
      (.var 15))),
    .st 4 (.padd (.var 22) (.lit 34) 4) (.bin (.bxor .u32) (.var 14) (.bin (.band .u32) (.un (.bnot .u32) (.var 15))
      (.var 16))),
    .st 4 (.padd (.var 22) (.lit 6) 4) (.bin (.bxor .u32) (.var 15) (.bin (.band .u32) (.un (.bnot .u32) (.var 16))
      (.var 12))),
    .st 4 (.padd (.var 22) (.lit 29) 4) (.bin (.bxor .u32) (.var 16) (.bin (.band .u32) (.un (.bnot .u32) (.var 12))
      (.var 13))),
    .asg 15 (.bin (.bxor .u32) (.bin (.shl .u32) (.bin (.bxor .u32) (.ld 4 (.padd (.var 22) (.lit 20) 4)) (.var 7))
      (.lit 21)) (.bin (.shr .u32) (.bin (.bxor .u32) (.ld 4 (.padd (.var 22) (.lit 20) 4)) (.var 7)) (.lit 11))),
    .asg 16 (.bin (.bxor .u32) (.bin (.shl .u32) (.bin (.bxor .u32) (.ld 4 (.padd (.var 22) (.lit 42) 4)) (.var 3))
      (.lit 1)) (.bin (.shr .u32) (.bin (.bxor .u32) (.ld 4 (.padd (.var 22) (.lit 42) 4)) (.var 3)) (.lit 31)))]

/-- part of `KeccakP1600_Permute_Nrounds` -/
def KeccakP1600_Permute_Nrounds.part17 : Stmt :=
  block [
    .asg 12 (.bin (.bxor .u32) (.bin (.shl .u32) (.bin (.bxor .u32) (.ld 4 (.padd (.var 22) (.lit 15) 4)) (.var 4))
      (.lit 31)) (.bin (.shr .u32) (.bin (.bxor .u32) (.ld 4 (.padd (.var 22) (.lit 15) 4)) (.var 4)) (.lit 1))),
    .asg 13 (.bin (.bxor .u32) (.bin (.shl .u32) (.bin (.bxor .u32) (.ld 4 (.padd (.var 22) (.lit 36) 4)) (.var 10))
      (.lit 28)) (.bin (.shr .u32) (.bin (.bxor .u32) (.ld 4 (.padd (.var 22) (.lit 36) 4)) (.var 10)) (.lit 4))),
    .asg 14 (.bin (.bxor .u32) (.bin (.shl .u32) (.bin (.bxor .u32) (.ld 4 (.padd (.var 22) (.lit 8) 4)) (.var 11))
      (.lit 20)) (.bin (.shr .u32) (.bin (.bxor .u32) (.ld 4 (.padd (.var 22) (.lit 8) 4)) (.var 11)) (.lit 12))),
    .st 4 (.padd (.var 22) (.lit 20) 4) (.bin (.bxor .u32) (.var 12) (.bin (.band .u32) (.un (.bnot .u32) (.var 13))
      (.var 14))),
    .st 4 (.padd (.var 22) (.lit 42) 4) (.bin (.bxor .u32) (.var 13) (.bin (.band .u32) (.un (.bnot .u32) (.var 14))
      (.var 15))),
    .st 4 (.padd (.var 22) (.lit 15) 4) (.bin (.bxor .u32) (.var 14) (.bin (.band .u32) (.un (.bnot .u32) (.var 15))
      (.var 16))),
    .st 4 (.padd (.var 22) (.lit 36) 4) (.bin (.bxor .u32) (.var 15) (.bin (.band .u32) (.un (.bnot .u32) (.var 16))
      (.var 12))),
    .st 4 (.padd (.var 22) (.lit 8) 4) (.bin (.bxor .u32) (.var 16) (.bin (.band .u32) (.un (.bnot .u32) (.var 12))
      (.var 13))),
    .asg 15 (.bin (.bxor .u32) (.bin (.shl .u32) (.bin (.bxor .u32) (.ld 4 (.padd (.var 22) (.lit 21) 4)) (.var 2))
      (.lit 20)) (.bin (.shr .u32) (.bin (.bxor .u32) (.ld 4 (.padd (.var 22) (.lit 21) 4)) (.var 2)) (.lit 12))),
    .asg 16 (.bin (.bxor .u32) (.bin (.shl .u32) (.bin (.bxor .u32) (.ld 4 (.padd (.var 22) (.lit 43) 4)) (.var 8))
      (.lit 1)) (.bin (.shr .u32) (.bin (.bxor .u32) (.ld 4 (.padd (.var 22) (.lit 43) 4)) (.var 8)) (.lit 31))),
    .asg 12 (.bin (.bxor .u32) (.bin (.shl .u32) (.bin (.bxor .u32) (.ld 4 (.padd (.var 22) (.lit 14) 4)) (.var 9))
      (.lit 31)) (.bin (.shr .u32) (.bin (.bxor .u32) (.ld 4 (.padd (.var 22) (.lit 14) 4)) (.var 9)) (.lit 1))),
    .asg 13 (.bin (.bxor .u32) (.bin (.shl .u32) (.bin (.bxor .u32) (.ld 4 (.padd (.var 22) (.lit 37) 4)) (.var 5))
      (.lit 27)) (.bin (.shr .u32) (.bin (.bxor .u32) (.ld 4 (.padd (.var 22) (.lit 37) 4)) (.var 5)) (.lit 5))),
    .asg 14 (.bin (.bxor .u32) (.bin (.shl .u32) (.bin (.bxor .u32) (.ld 4 (.padd (.var 22) (.lit 9) 4)) (.var 6))
      (.lit 19)) (.bin (.shr .u32) (.bin (.bxor .u32) (.ld 4 (.padd (.var 22) (.lit 9) 4)) (.var 6)) (.lit 13))),
    .st 4 (.padd (.var 22) (.lit 21) 4) (.bin (.bxor .u32) (.var 12) (.bin (.band .u32) (.un (.bnot .u32) (.var 13))
      (.var 14))),
    .st 4 (.padd (.var 22) (.lit 43) 4) (.bin (.bxor .u32) (.var 13) (.bin (.band .u32) (.un (.bnot .u32) (.var 14))
      (.var 15))),
    .st 4 (.padd (.var 22) (.lit 14) 4) (.bin (.bxor .u32) (.var 14) (.bin (.band .u32) (.un (.bnot .u32) (.var 15))
      (.var 16))),
    .st 4 (.padd (.var 22) (.lit 37) 4) (.bin (.bxor .u32) (.var 15) (.bin (.band .u32) (.un (.bnot .u32) (.var 16))
      (.var 12))),
    .st 4 (.padd (.var 22) (.lit 9) 4) (.bin (.bxor .u32) (.var 16) (.bin (.band .u32) (.un (.bnot .u32) (.var 12))
      (.var 13))),
    .asg 17 (.bin (.bxor .u32) (.bin (.bxor .u32) (.bin (.bxor .u32) (.bin (.bxor .u32) (.ld 4 (.padd (.var 22) (.lit
      39) 4)) (.ld 4 (.padd (.var 22) (.lit 18) 4))) (.ld 4 (.padd (.var 22) (.lit 49) 4))) (.ld 4 (.padd (.var 22)
      (.lit 28) 4))) (.ld 4 (.padd (.var 22) (.lit 8) 4))),
    .asg 11 (.bin (.bxor .u32) (.bin (.bxor .u32) (.bin (.bxor .u32) (.bin (.bxor .u32) (.ld 4 (.padd (.var 22) (.lit
      22) 4)) (.ld 4 (.padd (.var 22) (.lit 3) 4))) (.ld 4 (.padd (.var 22) (.lit 33) 4))) (.ld 4 (.padd (.var 22)
      (.lit 12) 4))) (.ld 4 (.padd (.var 22) (.lit 43) 4))),
    .asg 2 (.bin (.bxor .u32) (.var 17) (.bin (.bxor .u32) (.bin (.shl .u32) (.var 11) (.lit 1)) (.bin (.shr .u32)
      (.var 11) (.lit 31)))),
    .asg 19 (.bin (.bxor .u32) (.bin (.bxor .u32) (.bin (.bxor .u32) (.bin (.bxor .u32) (.ld 4 (.padd (.var 22) (.lit
      38) 4)) (.ld 4 (.padd (.var 22) (.lit 19) 4))) (.ld 4 (.padd (.var 22) (.lit 48) 4))) (.ld 4 (.padd (.var 22)
      (.lit 29) 4))) (.ld 4 (.padd (.var 22) (.lit 9) 4))),
    .asg 6 (.bin (.bxor .u32) (.bin (.bxor .u32) (.bin (.bxor .u32) (.bin (.bxor .u32) (.ld 4 (.padd (.var 22) (.lit
      23) 4)) (.ld 4 (.padd (.var 22) (.lit 2) 4))) (.ld 4 (.padd (.var 22) (.lit 32) 4))) (.ld 4 (.padd (.var 22)
      (.lit 13) 4))) (.ld 4 (.padd (.var 22) (.lit 42) 4))),
    .asg 7 (.bin (.bxor .u32) (.var 19) (.var 6)),
    .asg 20 (.bin (.bxor .u32) (.bin (.bxor .u32) (.bin (.bxor .u32) (.bin (.bxor .u32) (.ld 4 (.padd (.var 22) (.lit
      44) 4)) (.ld 4 (.padd (.var 22) (.lit 24) 4))) (.ld 4 (.padd (.var 22) (.lit 5) 4))) (.ld 4 (.padd (.var 22)
      (.lit 35) 4))) (.ld 4 (.padd (.var 22) (.lit 15) 4))),
    .asg 5 (.bin (.bxor .u32) (.var 20) (.bin (.bxor .u32) (.bin (.shl .u32) (.var 19) (.lit 1)) (.bin (.shr .u32)
      (.var 19) (.lit 31)))),
    .asg 18 (.bin (.bxor .u32) (.bin (.bxor .u32) (.bin (.bxor .u32) (.bin (.bxor .u32) (.ld 4 (.padd (.var 22) (.lit
      45) 4)) (.ld 4 (.padd (.var 22) (.lit 25) 4))) (.ld 4 (.padd (.var 22) (.lit 4) 4))) (.ld 4 (.padd (.var 22)
      (.lit 34) 4))) (.ld 4 (.padd (.var 22) (.lit 14) 4))),
    .asg 10 (.bin (.bxor .u32) (.var 18) (.var 17)),
    .asg 17 (.bin (.bxor .u32) (.bin (.bxor .u32) (.bin (.bxor .u32) (.bin (.bxor .u32) (.ld 4 (.var 22)) (.ld 4
      (.padd (.var 22) (.lit 30) 4))) (.ld 4 (.padd (.var 22) (.lit 11) 4))) (.ld 4 (.padd (.var 22) (.lit 41) 4)))
      (.ld 4 (.padd (.var 22) (.lit 20) 4))),
    .asg 3 (.bin (.bxor .u32) (.var 17) (.bin (.bxor .u32) (.bin (.shl .u32) (.var 18) (.lit 1)) (.bin (.shr .u32)
      (.var 18) (.lit 31)))),
    .asg 19 (.bin (.bxor .u32) (.bin (.bxor .u32) (.bin (.bxor .u32) (.bin (.bxor .u32) (.ld 4 (.padd (.var 22) (.lit
      1) 4)) (.ld 4 (.padd (.var 22) (.lit 31) 4))) (.ld 4 (.padd (.var 22) (.lit 10) 4))) (.ld 4 (.padd (.var 22)
      (.lit 40) 4))) (.ld 4 (.padd (.var 22) (.lit 21) 4))),
    .asg 8 (.bin (.bxor .u32) (.var 19) (.var 20)),
    .asg 18 (.bin (.bxor .u32) (.bin (.bxor .u32) (.bin (.bxor .u32) (.bin (.bxor .u32) (.ld 4 (.padd (.var 22) (.lit
      17) 4)) (.ld 4 (.padd (.var 22) (.lit 46) 4))) (.ld 4 (.padd (.var 22) (.lit 26) 4))) (.ld 4 (.padd (.var 22)
      (.lit 6) 4))) (.ld 4 (.padd (.var 22) (.lit 37) 4))),
    .asg 4 (.bin (.bxor .u32) (.var 6) (.bin (.bxor .u32) (.bin (.shl .u32) (.var 18) (.lit 1)) (.bin (.shr .u32)
      (.var 18) (.lit 31)))),
    .asg 20 (.bin (.bxor .u32) (.bin (.bxor .u32) (.bin (.bxor .u32) (.bin (.bxor .u32) (.ld 4 (.padd (.var 22) (.lit
      16) 4)) (.ld 4 (.padd (.var 22) (.lit 47) 4))) (.ld 4 (.padd (.var 22) (.lit 27) 4))) (.ld 4 (.padd (.var 22)
      (.lit 7) 4))) (.ld 4 (.padd (.var 22) (.lit 36) 4))),
    .asg 9 (.bin (.bxor .u32) (.var 11) (.var 20)),
    .asg 6 (.bin (.bxor .u32) (.var 20) (.bin (.bxor .u32) (.bin (.shl .u32) (.var 19) (.lit 1)) (.bin (.shr .u32)
      (.var 19) (.lit 31)))),
    .asg 11 (.bin (.bxor .u32) (.var 18) (.var 17)),
    .asg 12 (.bin (.bxor .u32) (.ld 4 (.var 22)) (.var 2)),
    .asg 13 (.bin (.bxor .u32) (.bin (.shl .u32) (.bin (.bxor .u32) (.ld 4 (.padd (.var 22) (.lit 2) 4)) (.var 3))
      (.lit 22)) (.bin (.shr .u32) (.bin (.bxor .u32) (.ld 4 (.padd (.var 22) (.lit 2) 4)) (.var 3)) (.lit 10)))]

/-- part of `KeccakP1600_Permute_Nrounds` -/
def KeccakP1600_Permute_Nrounds.part18 : Stmt :=
  block [
    .asg 14 (.bin (.bxor .u32) (.bin (.shl .u32) (.bin (.bxor .u32) (.ld 4 (.padd (.var 22) (.lit 4) 4)) (.var 9))
      (.lit 22)) (.bin (.shr .u32) (.bin (.bxor .u32) (.ld 4 (.padd (.var 22) (.lit 4) 4)) (.var 9)) (.lit 10))),
    .asg 15 (.bin (.bxor .u32) (.bin (.shl .u32) (.bin (.bxor .u32) (.ld 4 (.padd (.var 22) (.lit 6) 4)) (.var 10))
      (.lit 11)) (.bin (.shr .u32) (.bin (.bxor .u32) (.ld 4 (.padd (.var 22) (.lit 6) 4)) (.var 10)) (.lit 21))),
    .asg 16 (.bin (.bxor .u32) (.bin (.shl .u32) (.bin (.bxor .u32) (.ld 4 (.padd (.var 22) (.lit 8) 4)) (.var 6))
      (.lit 7)) (.bin (.shr .u32) (.bin (.bxor .u32) (.ld 4 (.padd (.var 22) (.lit 8) 4)) (.var 6)) (.lit 25))),
    .st 4 (.var 22) (.bin (.bxor .u32) (.var 12) (.bin (.band .u32) (.un (.bnot .u32) (.var 13)) (.var 14))),
    .asg 31 (.var 21),
    .asg 21 (.padd (.var 31) (.lit 1) 4),
    .st 4 (.var 22) (.bin (.bxor .u32) (.ld 4 (.var 22)) (.ld 4 (.var 31))),
    .st 4 (.padd (.var 22) (.lit 2) 4) (.bin (.bxor .u32) (.var 13) (.bin (.band .u32) (.un (.bnot .u32) (.var 14))
      (.var 15))),
    .st 4 (.padd (.var 22) (.lit 4) 4) (.bin (.bxor .u32) (.var 14) (.bin (.band .u32) (.un (.bnot .u32) (.var 15))
      (.var 16))),
    .st 4 (.padd (.var 22) (.lit 6) 4) (.bin (.bxor .u32) (.var 15) (.bin (.band .u32) (.un (.bnot .u32) (.var 16))
      (.var 12))),
    .st 4 (.padd (.var 22) (.lit 8) 4) (.bin (.bxor .u32) (.var 16) (.bin (.band .u32) (.un (.bnot .u32) (.var 12))
      (.var 13))),
    .asg 12 (.bin (.bxor .u32) (.ld 4 (.padd (.var 22) (.lit 1) 4)) (.var 7)),
    .asg 13 (.bin (.bxor .u32) (.bin (.shl .u32) (.bin (.bxor .u32) (.ld 4 (.padd (.var 22) (.lit 3) 4)) (.var 8))
      (.lit 22)) (.bin (.shr .u32) (.bin (.bxor .u32) (.ld 4 (.padd (.var 22) (.lit 3) 4)) (.var 8)) (.lit 10))),
    .asg 14 (.bin (.bxor .u32) (.bin (.shl .u32) (.bin (.bxor .u32) (.ld 4 (.padd (.var 22) (.lit 5) 4)) (.var 4))
      (.lit 21)) (.bin (.shr .u32) (.bin (.bxor .u32) (.ld 4 (.padd (.var 22) (.lit 5) 4)) (.var 4)) (.lit 11))),
    .asg 15 (.bin (.bxor .u32) (.bin (.shl .u32) (.bin (.bxor .u32) (.ld 4 (.padd (.var 22) (.lit 7) 4)) (.var 5))
      (.lit 10)) (.bin (.shr .u32) (.bin (.bxor .u32) (.ld 4 (.padd (.var 22) (.lit 7) 4)) (.var 5)) (.lit 22))),
    .asg 16 (.bin (.bxor .u32) (.bin (.shl .u32) (.bin (.bxor .u32) (.ld 4 (.padd (.var 22) (.lit 9) 4)) (.var 11))
      (.lit 7)) (.bin (.shr .u32) (.bin (.bxor .u32) (.ld 4 (.padd (.var 22) (.lit 9) 4)) (.var 11)) (.lit 25))),
    .st 4 (.padd (.var 22) (.lit 1) 4) (.bin (.bxor .u32) (.var 12) (.bin (.band .u32) (.un (.bnot .u32) (.var 13))
      (.var 14))),
    .asg 32 (.var 21),
    .asg 21 (.padd (.var 32) (.lit 1) 4),
    .st 4 (.padd (.var 22) (.lit 1) 4) (.bin (.bxor .u32) (.ld 4 (.padd (.var 22) (.lit 1) 4)) (.ld 4 (.var 32))),
    .st 4 (.padd (.var 22) (.lit 3) 4) (.bin (.bxor .u32) (.var 13) (.bin (.band .u32) (.un (.bnot .u32) (.var 14))
      (.var 15))),
    .st 4 (.padd (.var 22) (.lit 5) 4) (.bin (.bxor .u32) (.var 14) (.bin (.band .u32) (.un (.bnot .u32) (.var 15))
      (.var 16))),
    .st 4 (.padd (.var 22) (.lit 7) 4) (.bin (.bxor .u32) (.var 15) (.bin (.band .u32) (.un (.bnot .u32) (.var 16))
      (.var 12))),
    .st 4 (.padd (.var 22) (.lit 9) 4) (.bin (.bxor .u32) (.var 16) (.bin (.band .u32) (.un (.bnot .u32) (.var 12))
      (.var 13))),
    .asg 14 (.bin (.bxor .u32) (.bin (.shl .u32) (.bin (.bxor .u32) (.ld 4 (.padd (.var 22) (.lit 10) 4)) (.var 7))
      (.lit 2)) (.bin (.shr .u32) (.bin (.bxor .u32) (.ld 4 (.padd (.var 22) (.lit 10) 4)) (.var 7)) (.lit 30))),
    .asg 15 (.bin (.bxor .u32) (.bin (.shl .u32) (.bin (.bxor .u32) (.ld 4 (.padd (.var 22) (.lit 12) 4)) (.var 8))
      (.lit 23)) (.bin (.shr .u32) (.bin (.bxor .u32) (.ld 4 (.padd (.var 22) (.lit 12) 4)) (.var 8)) (.lit 9))),
    .asg 16 (.bin (.bxor .u32) (.bin (.shl .u32) (.bin (.bxor .u32) (.ld 4 (.padd (.var 22) (.lit 14) 4)) (.var 9))
      (.lit 31)) (.bin (.shr .u32) (.bin (.bxor .u32) (.ld 4 (.padd (.var 22) (.lit 14) 4)) (.var 9)) (.lit 1))),
    .asg 12 (.bin (.bxor .u32) (.bin (.shl .u32) (.bin (.bxor .u32) (.ld 4 (.padd (.var 22) (.lit 16) 4)) (.var 5))
      (.lit 14)) (.bin (.shr .u32) (.bin (.bxor .u32) (.ld 4 (.padd (.var 22) (.lit 16) 4)) (.var 5)) (.lit 18))),
    .asg 13 (.bin (.bxor .u32) (.bin (.shl .u32) (.bin (.bxor .u32) (.ld 4 (.padd (.var 22) (.lit 18) 4)) (.var 6))
      (.lit 10)) (.bin (.shr .u32) (.bin (.bxor .u32) (.ld 4 (.padd (.var 22) (.lit 18) 4)) (.var 6)) (.lit 22))),
    .st 4 (.padd (.var 22) (.lit 10) 4) (.bin (.bxor .u32) (.var 12) (.bin (.band .u32) (.un (.bnot .u32) (.var 13))
      (.var 14))),
    .st 4 (.padd (.var 22) (.lit 12) 4) (.bin (.bxor .u32) (.var 13) (.bin (.band .u32) (.un (.bnot .u32) (.var 14))
      (.var 15))),
    .st 4 (.padd (.var 22) (.lit 14) 4) (.bin (.bxor .u32) (.var 14) (.bin (.band .u32) (.un (.bnot .u32) (.var 15))
      (.var 16))),
    .st 4 (.padd (.var 22) (.lit 16) 4) (.bin (.bxor .u32) (.var 15) (.bin (.band .u32) (.un (.bnot .u32) (.var 16))
      (.var 12))),
    .st 4 (.padd (.var 22) (.lit 18) 4) (.bin (.bxor .u32) (.var 16) (.bin (.band .u32) (.un (.bnot .u32) (.var 12))
      (.var 13))),
    .asg 14 (.bin (.bxor .u32) (.bin (.shl .u32) (.bin (.bxor .u32) (.ld 4 (.padd (.var 22) (.lit 11) 4)) (.var 2))
      (.lit 1)) (.bin (.shr .u32) (.bin (.bxor .u32) (.ld 4 (.padd (.var 22) (.lit 11) 4)) (.var 2)) (.lit 31))),
    .asg 15 (.bin (.bxor .u32) (.bin (.shl .u32) (.bin (.bxor .u32) (.ld 4 (.padd (.var 22) (.lit 13) 4)) (.var 3))
      (.lit 22)) (.bin (.shr .u32) (.bin (.bxor .u32) (.ld 4 (.padd (.var 22) (.lit 13) 4)) (.var 3)) (.lit 10))),
    .asg 16 (.bin (.bxor .u32) (.bin (.shl .u32) (.bin (.bxor .u32) (.ld 4 (.padd (.var 22) (.lit 15) 4)) (.var 4))
      (.lit 30)) (.bin (.shr .u32) (.bin (.bxor .u32) (.ld 4 (.padd (.var 22) (.lit 15) 4)) (.var 4)) (.lit 2))),
    .asg 12 (.bin (.bxor .u32) (.bin (.shl .u32) (.bin (.bxor .u32) (.ld 4 (.padd (.var 22) (.lit 17) 4)) (.var 10))
      (.lit 14)) (.bin (.shr .u32) (.bin (.bxor .u32) (.ld 4 (.padd (.var 22) (.lit 17) 4)) (.var 10)) (.lit 18))),
    .asg 13 (.bin (.bxor .u32) (.bin (.shl .u32) (.bin (.bxor .u32) (.ld 4 (.padd (.var 22) (.lit 19) 4)) (.var 11))
      (.lit 10)) (.bin (.shr .u32) (.bin (.bxor .u32) (.ld 4 (.padd (.var 22) (.lit 19) 4)) (.var 11)) (.lit 22))),
    .st 4 (.padd (.var 22) (.lit 11) 4) (.bin (.bxor .u32) (.var 12) (.bin (.band .u32) (.un (.bnot .u32) (.var 13))
      (.var 14)))]

/-- part of `KeccakP1600_Permute_Nrounds` -/
def KeccakP1600_Permute_Nrounds.part19 : Stmt :=
  block [
    .st 4 (.padd (.var 22) (.lit 13) 4) (.bin (.bxor .u32) (.var 13) (.bin (.band .u32) (.un (.bnot .u32) (.var 14))
      (.var 15))),
    .st 4 (.padd (.var 22) (.lit 15) 4) (.bin (.bxor .u32) (.var 14) (.bin (.band .u32) (.un (.bnot .u32) (.var 15))
      (.var 16))),
    .st 4 (.padd (.var 22) (.lit 17) 4) (.bin (.bxor .u32) (.var 15) (.bin (.band .u32) (.un (.bnot .u32) (.var 16))
      (.var 12))),
    .st 4 (.padd (.var 22) (.lit 19) 4) (.bin (.bxor .u32) (.var 16) (.bin (.band .u32) (.un (.bnot .u32) (.var 12))
      (.var 13))),
    .asg 16 (.bin (.bxor .u32) (.bin (.shl .u32) (.bin (.bxor .u32) (.ld 4 (.padd (.var 22) (.lit 20) 4)) (.var 2))
      (.lit 9)) (.bin (.shr .u32) (.bin (.bxor .u32) (.ld 4 (.padd (.var 22) (.lit 20) 4)) (.var 2)) (.lit 23))),
    .asg 12 (.bin (.bxor .u32) (.bin (.shl .u32) (.bin (.bxor .u32) (.ld 4 (.padd (.var 22) (.lit 22) 4)) (.var 8))
      (.lit 1)) (.bin (.shr .u32) (.bin (.bxor .u32) (.ld 4 (.padd (.var 22) (.lit 22) 4)) (.var 8)) (.lit 31))),
    .asg 13 (.bin (.bxor .u32) (.bin (.shl .u32) (.bin (.bxor .u32) (.ld 4 (.padd (.var 22) (.lit 24) 4)) (.var 4))
      (.lit 3)) (.bin (.shr .u32) (.bin (.bxor .u32) (.ld 4 (.padd (.var 22) (.lit 24) 4)) (.var 4)) (.lit 29))),
    .asg 14 (.bin (.bxor .u32) (.bin (.shl .u32) (.bin (.bxor .u32) (.ld 4 (.padd (.var 22) (.lit 26) 4)) (.var 10))
      (.lit 13)) (.bin (.shr .u32) (.bin (.bxor .u32) (.ld 4 (.padd (.var 22) (.lit 26) 4)) (.var 10)) (.lit 19))),
    .asg 15 (.bin (.bxor .u32) (.bin (.shl .u32) (.bin (.bxor .u32) (.ld 4 (.padd (.var 22) (.lit 28) 4)) (.var 6))
      (.lit 4)) (.bin (.shr .u32) (.bin (.bxor .u32) (.ld 4 (.padd (.var 22) (.lit 28) 4)) (.var 6)) (.lit 28))),
    .st 4 (.padd (.var 22) (.lit 20) 4) (.bin (.bxor .u32) (.var 12) (.bin (.band .u32) (.un (.bnot .u32) (.var 13))
      (.var 14))),
    .st 4 (.padd (.var 22) (.lit 22) 4) (.bin (.bxor .u32) (.var 13) (.bin (.band .u32) (.un (.bnot .u32) (.var 14))
      (.var 15))),
    .st 4 (.padd (.var 22) (.lit 24) 4) (.bin (.bxor .u32) (.var 14) (.bin (.band .u32) (.un (.bnot .u32) (.var 15))
      (.var 16))),
    .st 4 (.padd (.var 22) (.lit 26) 4) (.bin (.bxor .u32) (.var 15) (.bin (.band .u32) (.un (.bnot .u32) (.var 16))
      (.var 12))),
    .st 4 (.padd (.var 22) (.lit 28) 4) (.bin (.bxor .u32) (.var 16) (.bin (.band .u32) (.un (.bnot .u32) (.var 12))
      (.var 13))),
    .asg 16 (.bin (.bxor .u32) (.bin (.shl .u32) (.bin (.bxor .u32) (.ld 4 (.padd (.var 22) (.lit 21) 4)) (.var 7))
      (.lit 9)) (.bin (.shr .u32) (.bin (.bxor .u32) (.ld 4 (.padd (.var 22) (.lit 21) 4)) (.var 7)) (.lit 23))),
    .asg 12 (.bin (.bxor .u32) (.ld 4 (.padd (.var 22) (.lit 23) 4)) (.var 3)),
    .asg 13 (.bin (.bxor .u32) (.bin (.shl .u32) (.bin (.bxor .u32) (.ld 4 (.padd (.var 22) (.lit 25) 4)) (.var 9))
      (.lit 3)) (.bin (.shr .u32) (.bin (.bxor .u32) (.ld 4 (.padd (.var 22) (.lit 25) 4)) (.var 9)) (.lit 29))),
    .asg 14 (.bin (.bxor .u32) (.bin (.shl .u32) (.bin (.bxor .u32) (.ld 4 (.padd (.var 22) (.lit 27) 4)) (.var 5))
      (.lit 12)) (.bin (.shr .u32) (.bin (.bxor .u32) (.ld 4 (.padd (.var 22) (.lit 27) 4)) (.var 5)) (.lit 20))),
    .asg 15 (.bin (.bxor .u32) (.bin (.shl .u32) (.bin (.bxor .u32) (.ld 4 (.padd (.var 22) (.lit 29) 4)) (.var 11))
      (.lit 4)) (.bin (.shr .u32) (.bin (.bxor .u32) (.ld 4 (.padd (.var 22) (.lit 29) 4)) (.var 11)) (.lit 28))),
    .st 4 (.padd (.var 22) (.lit 21) 4) (.bin (.bxor .u32) (.var 12) (.bin (.band .u32) (.un (.bnot .u32) (.var 13))
      (.var 14))),
    .st 4 (.padd (.var 22) (.lit 23) 4) (.bin (.bxor .u32) (.var 13) (.bin (.band .u32) (.un (.bnot .u32) (.var 14))
      (.var 15))),
    .st 4 (.padd (.var 22) (.lit 25) 4) (.bin (.bxor .u32) (.var 14) (.bin (.band .u32) (.un (.bnot .u32) (.var 15))
      (.var 16))),
    .st 4 (.padd (.var 22) (.lit 27) 4) (.bin (.bxor .u32) (.var 15) (.bin (.band .u32) (.un (.bnot .u32) (.var 16))
      (.var 12))),
    .st 4 (.padd (.var 22) (.lit 29) 4) (.bin (.bxor .u32) (.var 16) (.bin (.band .u32) (.un (.bnot .u32) (.var 12))
      (.var 13))),
    .asg 13 (.bin (.bxor .u32) (.bin (.shl .u32) (.bin (.bxor .u32) (.ld 4 (.padd (.var 22) (.lit 30) 4)) (.var 2))
      (.lit 18)) (.bin (.shr .u32) (.bin (.bxor .u32) (.ld 4 (.padd (.var 22) (.lit 30) 4)) (.var 2)) (.lit 14))),
    .asg 14 (.bin (.bxor .u32) (.bin (.shl .u32) (.bin (.bxor .u32) (.ld 4 (.padd (.var 22) (.lit 32) 4)) (.var 3))
      (.lit 5)) (.bin (.shr .u32) (.bin (.bxor .u32) (.ld 4 (.padd (.var 22) (.lit 32) 4)) (.var 3)) (.lit 27))),
    .asg 15 (.bin (.bxor .u32) (.bin (.shl .u32) (.bin (.bxor .u32) (.ld 4 (.padd (.var 22) (.lit 34) 4)) (.var 9))
      (.lit 8)) (.bin (.shr .u32) (.bin (.bxor .u32) (.ld 4 (.padd (.var 22) (.lit 34) 4)) (.var 9)) (.lit 24))),
    .asg 16 (.bin (.bxor .u32) (.bin (.shl .u32) (.bin (.bxor .u32) (.ld 4 (.padd (.var 22) (.lit 36) 4)) (.var 5))
      (.lit 28)) (.bin (.shr .u32) (.bin (.bxor .u32) (.ld 4 (.padd (.var 22) (.lit 36) 4)) (.var 5)) (.lit 4))),
    .asg 12 (.bin (.bxor .u32) (.bin (.shl .u32) (.bin (.bxor .u32) (.ld 4 (.padd (.var 22) (.lit 38) 4)) (.var 11))
      (.lit 14)) (.bin (.shr .u32) (.bin (.bxor .u32) (.ld 4 (.padd (.var 22) (.lit 38) 4)) (.var 11)) (.lit 18))),
    .st 4 (.padd (.var 22) (.lit 30) 4) (.bin (.bxor .u32) (.var 12) (.bin (.band .u32) (.un (.bnot .u32) (.var 13))
      (.var 14))),
    .st 4 (.padd (.var 22) (.lit 32) 4) (.bin (.bxor .u32) (.var 13) (.bin (.band .u32) (.un (.bnot .u32) (.var 14))
      (.var 15))),
    .st 4 (.padd (.var 22) (.lit 34) 4) (.bin (.bxor .u32) (.var 14) (.bin (.band .u32) (.un (.bnot .u32) (.var 15))
      (.var 16))),
    .st 4 (.padd (.var 22) (.lit 36) 4) (.bin (.bxor .u32) (.var 15) (.bin (.band .u32) (.un (.bnot .u32) (.var 16))
      (.var 12))),
    .st 4 (.padd (.var 22) (.lit 38) 4) (.bin (.bxor .u32) (.var 16) (.bin (.band .u32) (.un (.bnot .u32) (.var 12))
      (.var 13))),
    .asg 13 (.bin (.bxor .u32) (.bin (.shl .u32) (.bin (.bxor .u32) (.ld 4 (.padd (.var 22) (.lit 31) 4)) (.var 7))
      (.lit 18)) (.bin (.shr .u32) (.bin (.bxor .u32) (.ld 4 (.padd (.var 22) (.lit 31) 4)) (.var 7)) (.lit 14))),
    .asg 14 (.bin (.bxor .u32) (.bin (.shl .u32) (.bin (.bxor .u32) (.ld 4 (.padd (.var 22) (.lit 33) 4)) (.var 8))
      (.lit 5)) (.bin (.shr .u32) (.bin (.bxor .u32) (.ld 4 (.padd (.var 22) (.lit 33) 4)) (.var 8)) (.lit 27))),
    .asg 15 (.bin (.bxor .u32) (.bin (.shl .u32) (.bin (.bxor .u32) (.ld 4 (.padd (.var 22) (.lit 35) 4)) (.var 4))
      (.lit 7)) (.bin (.shr .u32) (.bin (.bxor .u32) (.ld 4 (.padd (.var 22) (.lit 35) 4)) (.var 4)) (.lit 25))),
    .asg 16 (.bin (.bxor .u32) (.bin (.shl .u32) (.bin (.bxor .u32) (.ld 4 (.padd (.var 22) (.lit 37) 4)) (.var 10))
      (.lit 28)) (.bin (.shr .u32) (.bin (.bxor .u32) (.ld 4 (.padd (.var 22) (.lit 37) 4)) (.var 10)) (.lit 4))),
    .asg 12 (.bin (.bxor .u32) (.bin (.shl .u32) (.bin (.bxor .u32) (.ld 4 (.padd (.var 22) (.lit 39) 4)) (.var 6))
      (.lit 13)) (.bin (.shr .u32) (.bin (.bxor .u32) (.ld 4 (.padd (.var 22) (.lit 39) 4)) (.var 6)) (.lit 19))),
    .st 4 (.padd (.var 22) (.lit 31) 4) (.bin (.bxor .u32) (.var 12) (.bin (.band .u32) (.un (.bnot .u32) (.var 13))
      (.var 14)))]

/-- part of `KeccakP1600_Permute_Nrounds` -/
def KeccakP1600_Permute_Nrounds.part20 : Stmt :=
  block [
    .st 4 (.padd (.var 22) (.lit 33) 4) (.bin (.bxor .u32) (.var 13) (.bin (.band .u32) (.un (.bnot .u32) (.var 14))
      (.var 15))),
    .st 4 (.padd (.var 22) (.lit 35) 4) (.bin (.bxor .u32) (.var 14) (.bin (.band .u32) (.un (.bnot .u32) (.var 15))
      (.var 16))),
    .st 4 (.padd (.var 22) (.lit 37) 4) (.bin (.bxor .u32) (.var 15) (.bin (.band .u32) (.un (.bnot .u32) (.var 16))
      (.var 12))),
    .st 4 (.padd (.var 22) (.lit 39) 4) (.bin (.bxor .u32) (.var 16) (.bin (.band .u32) (.un (.bnot .u32) (.var 12))
      (.var 13))),
    .asg 15 (.bin (.bxor .u32) (.bin (.shl .u32) (.bin (.bxor .u32) (.ld 4 (.padd (.var 22) (.lit 40) 4)) (.var 7))
      (.lit 21)) (.bin (.shr .u32) (.bin (.bxor .u32) (.ld 4 (.padd (.var 22) (.lit 40) 4)) (.var 7)) (.lit 11))),
    .asg 16 (.bin (.bxor .u32) (.bin (.shl .u32) (.bin (.bxor .u32) (.ld 4 (.padd (.var 22) (.lit 42) 4)) (.var 3))
      (.lit 1)) (.bin (.shr .u32) (.bin (.bxor .u32) (.ld 4 (.padd (.var 22) (.lit 42) 4)) (.var 3)) (.lit 31))),
    .asg 12 (.bin (.bxor .u32) (.bin (.shl .u32) (.bin (.bxor .u32) (.ld 4 (.padd (.var 22) (.lit 44) 4)) (.var 4))
      (.lit 31)) (.bin (.shr .u32) (.bin (.bxor .u32) (.ld 4 (.padd (.var 22) (.lit 44) 4)) (.var 4)) (.lit 1))),
    .asg 13 (.bin (.bxor .u32) (.bin (.shl .u32) (.bin (.bxor .u32) (.ld 4 (.padd (.var 22) (.lit 46) 4)) (.var 10))
      (.lit 28)) (.bin (.shr .u32) (.bin (.bxor .u32) (.ld 4 (.padd (.var 22) (.lit 46) 4)) (.var 10)) (.lit 4))),
    .asg 14 (.bin (.bxor .u32) (.bin (.shl .u32) (.bin (.bxor .u32) (.ld 4 (.padd (.var 22) (.lit 48) 4)) (.var 11))
      (.lit 20)) (.bin (.shr .u32) (.bin (.bxor .u32) (.ld 4 (.padd (.var 22) (.lit 48) 4)) (.var 11)) (.lit 12))),
    .st 4 (.padd (.var 22) (.lit 40) 4) (.bin (.bxor .u32) (.var 12) (.bin (.band .u32) (.un (.bnot .u32) (.var 13))
      (.var 14))),
    .st 4 (.padd (.var 22) (.lit 42) 4) (.bin (.bxor .u32) (.var 13) (.bin (.band .u32) (.un (.bnot .u32) (.var 14))
      (.var 15))),
    .st 4 (.padd (.var 22) (.lit 44) 4) (.bin (.bxor .u32) (.var 14) (.bin (.band .u32) (.un (.bnot .u32) (.var 15))
      (.var 16))),
    .st 4 (.padd (.var 22) (.lit 46) 4) (.bin (.bxor .u32) (.var 15) (.bin (.band .u32) (.un (.bnot .u32) (.var 16))
      (.var 12))),
    .st 4 (.padd (.var 22) (.lit 48) 4) (.bin (.bxor .u32) (.var 16) (.bin (.band .u32) (.un (.bnot .u32) (.var 12))
      (.var 13))),
    .asg 15 (.bin (.bxor .u32) (.bin (.shl .u32) (.bin (.bxor .u32) (.ld 4 (.padd (.var 22) (.lit 41) 4)) (.var 2))
      (.lit 20)) (.bin (.shr .u32) (.bin (.bxor .u32) (.ld 4 (.padd (.var 22) (.lit 41) 4)) (.var 2)) (.lit 12))),
    .asg 16 (.bin (.bxor .u32) (.bin (.shl .u32) (.bin (.bxor .u32) (.ld 4 (.padd (.var 22) (.lit 43) 4)) (.var 8))
      (.lit 1)) (.bin (.shr .u32) (.bin (.bxor .u32) (.ld 4 (.padd (.var 22) (.lit 43) 4)) (.var 8)) (.lit 31))),
    .asg 12 (.bin (.bxor .u32) (.bin (.shl .u32) (.bin (.bxor .u32) (.ld 4 (.padd (.var 22) (.lit 45) 4)) (.var 9))
      (.lit 31)) (.bin (.shr .u32) (.bin (.bxor .u32) (.ld 4 (.padd (.var 22) (.lit 45) 4)) (.var 9)) (.lit 1))),
    .asg 13 (.bin (.bxor .u32) (.bin (.shl .u32) (.bin (.bxor .u32) (.ld 4 (.padd (.var 22) (.lit 47) 4)) (.var 5))
      (.lit 27)) (.bin (.shr .u32) (.bin (.bxor .u32) (.ld 4 (.padd (.var 22) (.lit 47) 4)) (.var 5)) (.lit 5))),
    .asg 14 (.bin (.bxor .u32) (.bin (.shl .u32) (.bin (.bxor .u32) (.ld 4 (.padd (.var 22) (.lit 49) 4)) (.var 6))
      (.lit 19)) (.bin (.shr .u32) (.bin (.bxor .u32) (.ld 4 (.padd (.var 22) (.lit 49) 4)) (.var 6)) (.lit 13))),
    .st 4 (.padd (.var 22) (.lit 41) 4) (.bin (.bxor .u32) (.var 12) (.bin (.band .u32) (.un (.bnot .u32) (.var 13))
      (.var 14))),
    .st 4 (.padd (.var 22) (.lit 43) 4) (.bin (.bxor .u32) (.var 13) (.bin (.band .u32) (.un (.bnot .u32) (.var 14))
      (.var 15))),
    .st 4 (.padd (.var 22) (.lit 45) 4) (.bin (.bxor .u32) (.var 14) (.bin (.band .u32) (.un (.bnot .u32) (.var 15))
      (.var 16))),
    .st 4 (.padd (.var 22) (.lit 47) 4) (.bin (.bxor .u32) (.var 15) (.bin (.band .u32) (.un (.bnot .u32) (.var 16))
      (.var 12))),
    .st 4 (.padd (.var 22) (.lit 49) 4) (.bin (.bxor .u32) (.var 16) (.bin (.band .u32) (.un (.bnot .u32) (.var 12))
      (.var 13)))]

/-- part of `KeccakP1600_Permute_Nrounds` -/
def KeccakP1600_Permute_Nrounds.part21 : Stmt :=
  block [
    .asg 17 (.bin (.bxor .u32) (.bin (.bxor .u32) (.bin (.bxor .u32) (.bin (.bxor .u32) (.ld 4 (.padd (.var 22) (.lit
      48) 4)) (.ld 4 (.padd (.var 22) (.lit 18) 4))) (.ld 4 (.padd (.var 22) (.lit 38) 4))) (.ld 4 (.padd (.var 22)
      (.lit 9) 4))) (.ld 4 (.padd (.var 22) (.lit 29) 4))),
    .asg 11 (.bin (.bxor .u32) (.bin (.bxor .u32) (.bin (.bxor .u32) (.bin (.bxor .u32) (.ld 4 (.padd (.var 22) (.lit
      13) 4)) (.ld 4 (.padd (.var 22) (.lit 32) 4))) (.ld 4 (.padd (.var 22) (.lit 2) 4))) (.ld 4 (.padd (.var 22)
      (.lit 23) 4))) (.ld 4 (.padd (.var 22) (.lit 43) 4))),
    .asg 2 (.bin (.bxor .u32) (.var 17) (.bin (.bxor .u32) (.bin (.shl .u32) (.var 11) (.lit 1)) (.bin (.shr .u32)
      (.var 11) (.lit 31)))),
    .asg 19 (.bin (.bxor .u32) (.bin (.bxor .u32) (.bin (.bxor .u32) (.bin (.bxor .u32) (.ld 4 (.padd (.var 22) (.lit
      49) 4)) (.ld 4 (.padd (.var 22) (.lit 19) 4))) (.ld 4 (.padd (.var 22) (.lit 39) 4))) (.ld 4 (.padd (.var 22)
      (.lit 8) 4))) (.ld 4 (.padd (.var 22) (.lit 28) 4))),
    .asg 6 (.bin (.bxor .u32) (.bin (.bxor .u32) (.bin (.bxor .u32) (.bin (.bxor .u32) (.ld 4 (.padd (.var 22) (.lit
      12) 4)) (.ld 4 (.padd (.var 22) (.lit 33) 4))) (.ld 4 (.padd (.var 22) (.lit 3) 4))) (.ld 4 (.padd (.var 22)
      (.lit 22) 4))) (.ld 4 (.padd (.var 22) (.lit 42) 4))),
    .asg 7 (.bin (.bxor .u32) (.var 19) (.var 6)),
    .asg 20 (.bin (.bxor .u32) (.bin (.bxor .u32) (.bin (.bxor .u32) (.bin (.bxor .u32) (.ld 4 (.padd (.var 22) (.lit
      25) 4)) (.ld 4 (.padd (.var 22) (.lit 45) 4))) (.ld 4 (.padd (.var 22) (.lit 14) 4))) (.ld 4 (.padd (.var 22)
      (.lit 35) 4))) (.ld 4 (.padd (.var 22) (.lit 4) 4))),
    .asg 5 (.bin (.bxor .u32) (.var 20) (.bin (.bxor .u32) (.bin (.shl .u32) (.var 19) (.lit 1)) (.bin (.shr .u32)
      (.var 19) (.lit 31)))),
    .asg 18 (.bin (.bxor .u32) (.bin (.bxor .u32) (.bin (.bxor .u32) (.bin (.bxor .u32) (.ld 4 (.padd (.var 22) (.lit
      24) 4)) (.ld 4 (.padd (.var 22) (.lit 44) 4))) (.ld 4 (.padd (.var 22) (.lit 15) 4))) (.ld 4 (.padd (.var 22)
      (.lit 34) 4))) (.ld 4 (.padd (.var 22) (.lit 5) 4))),
    .asg 10 (.bin (.bxor .u32) (.var 18) (.var 17)),
    .asg 17 (.bin (.bxor .u32) (.bin (.bxor .u32) (.bin (.bxor .u32) (.bin (.bxor .u32) (.ld 4 (.var 22)) (.ld 4
      (.padd (.var 22) (.lit 21) 4))) (.ld 4 (.padd (.var 22) (.lit 40) 4))) (.ld 4 (.padd (.var 22) (.lit 10) 4)))
      (.ld 4 (.padd (.var 22) (.lit 31) 4))),
    .asg 3 (.bin (.bxor .u32) (.var 17) (.bin (.bxor .u32) (.bin (.shl .u32) (.var 18) (.lit 1)) (.bin (.shr .u32)
      (.var 18) (.lit 31)))),
    .asg 19 (.bin (.bxor .u32) (.bin (.bxor .u32) (.bin (.bxor .u32) (.bin (.bxor .u32) (.ld 4 (.padd (.var 22) (.lit
      1) 4)) (.ld 4 (.padd (.var 22) (.lit 20) 4))) (.ld 4 (.padd (.var 22) (.lit 41) 4))) (.ld 4 (.padd (.var 22)
      (.lit 11) 4))) (.ld 4 (.padd (.var 22) (.lit 30) 4))),
    .asg 8 (.bin (.bxor .u32) (.var 19) (.var 20)),
    .asg 18 (.bin (.bxor .u32) (.bin (.bxor .u32) (.bin (.bxor .u32) (.bin (.bxor .u32) (.ld 4 (.padd (.var 22) (.lit
      36) 4)) (.ld 4 (.padd (.var 22) (.lit 7) 4))) (.ld 4 (.padd (.var 22) (.lit 26) 4))) (.ld 4 (.padd (.var 22)
      (.lit 47) 4))) (.ld 4 (.padd (.var 22) (.lit 16) 4))),
    .asg 4 (.bin (.bxor .u32) (.var 6) (.bin (.bxor .u32) (.bin (.shl .u32) (.var 18) (.lit 1)) (.bin (.shr .u32)
      (.var 18) (.lit 31)))),
    .asg 20 (.bin (.bxor .u32) (.bin (.bxor .u32) (.bin (.bxor .u32) (.bin (.bxor .u32) (.ld 4 (.padd (.var 22) (.lit
      37) 4)) (.ld 4 (.padd (.var 22) (.lit 6) 4))) (.ld 4 (.padd (.var 22) (.lit 27) 4))) (.ld 4 (.padd (.var 22)
      (.lit 46) 4))) (.ld 4 (.padd (.var 22) (.lit 17) 4))),
    .asg 9 (.bin (.bxor .u32) (.var 11) (.var 20)),
    .asg 6 (.bin (.bxor .u32) (.var 20) (.bin (.bxor .u32) (.bin (.shl .u32) (.var 19) (.lit 1)) (.bin (.shr .u32)
      (.var 19) (.lit 31)))),
    .asg 11 (.bin (.bxor .u32) (.var 18) (.var 17)),
    .asg 12 (.bin (.bxor .u32) (.ld 4 (.var 22)) (.var 2)),
    .asg 13 (.bin (.bxor .u32) (.bin (.shl .u32) (.bin (.bxor .u32) (.ld 4 (.padd (.var 22) (.lit 33) 4)) (.var 3))
      (.lit 22)) (.bin (.shr .u32) (.bin (.bxor .u32) (.ld 4 (.padd (.var 22) (.lit 33) 4)) (.var 3)) (.lit 10))),
    .asg 14 (.bin (.bxor .u32) (.bin (.shl .u32) (.bin (.bxor .u32) (.ld 4 (.padd (.var 22) (.lit 15) 4)) (.var 9))
      (.lit 22)) (.bin (.shr .u32) (.bin (.bxor .u32) (.ld 4 (.padd (.var 22) (.lit 15) 4)) (.var 9)) (.lit 10))),
    .asg 15 (.bin (.bxor .u32) (.bin (.shl .u32) (.bin (.bxor .u32) (.ld 4 (.padd (.var 22) (.lit 47) 4)) (.var 10))
      (.lit 11)) (.bin (.shr .u32) (.bin (.bxor .u32) (.ld 4 (.padd (.var 22) (.lit 47) 4)) (.var 10)) (.lit 21))),
    .asg 16 (.bin (.bxor .u32) (.bin (.shl .u32) (.bin (.bxor .u32) (.ld 4 (.padd (.var 22) (.lit 29) 4)) (.var 6))
      (.lit 7)) (.bin (.shr .u32) (.bin (.bxor .u32) (.ld 4 (.padd (.var 22) (.lit 29) 4)) (.var 6)) (.lit 25))),
    .st 4 (.var 22) (.bin (.bxor .u32) (.var 12) (.bin (.band .u32) (.un (.bnot .u32) (.var 13)) (.var 14))),
    .asg 33 (.var 21),
    .asg 21 (.padd (.var 33) (.lit 1) 4),
    .st 4 (.var 22) (.bin (.bxor .u32) (.ld 4 (.var 22)) (.ld 4 (.var 33))),
    .st 4 (.padd (.var 22) (.lit 33) 4) (.bin (.bxor .u32) (.var 13) (.bin (.band .u32) (.un (.bnot .u32) (.var 14))
      (.var 15))),
    .st 4 (.padd (.var 22) (.lit 15) 4) (.bin (.bxor .u32) (.var 14) (.bin (.band .u32) (.un (.bnot .u32) (.var 15))
      (.var 16))),
    .st 4 (.padd (.var 22) (.lit 47) 4) (.bin (.bxor .u32) (.var 15) (.bin (.band .u32) (.un (.bnot .u32) (.var 16))
      (.var 12))),
    .st 4 (.padd (.var 22) (.lit 29) 4) (.bin (.bxor .u32) (.var 16) (.bin (.band .u32) (.un (.bnot .u32) (.var 12))
      (.var 13))),
    .asg 12 (.bin (.bxor .u32) (.ld 4 (.padd (.var 22) (.lit 1) 4)) (.var 7)),
    .asg 13 (.bin (.bxor .u32) (.bin (.shl .u32) (.bin (.bxor .u32) (.ld 4 (.padd (.var 22) (.lit 32) 4)) (.var 8))
      (.lit 22)) (.bin (.shr .u32) (.bin (.bxor .u32) (.ld 4 (.padd (.var 22) (.lit 32) 4)) (.var 8)) (.lit 10))),
    .asg 14 (.bin (.bxor .u32) (.bin (.shl .u32) (.bin (.bxor .u32) (.ld 4 (.padd (.var 22) (.lit 14) 4)) (.var 4))
      (.lit 21)) (.bin (.shr .u32) (.bin (.bxor .u32) (.ld 4 (.padd (.var 22) (.lit 14) 4)) (.var 4)) (.lit 11))),
    .asg 15 (.bin (.bxor .u32) (.bin (.shl .u32) (.bin (.bxor .u32) (.ld 4 (.padd (.var 22) (.lit 46) 4)) (.var 5))
      (.lit 10)) (.bin (.shr .u32) (.bin (.bxor .u32) (.ld 4 (.padd (.var 22) (.lit 46) 4)) (.var 5)) (.lit 22))),
    .asg 16 (.bin (.bxor .u32) (.bin (.shl .u32) (.bin (.bxor .u32) (.ld 4 (.padd (.var 22) (.lit 28) 4)) (.var 11))
      (.lit 7)) (.bin (.shr .u32) (.bin (.bxor .u32) (.ld 4 (.padd (.var 22) (.lit 28) 4)) (.var 11)) (.lit 25))),
    .st 4 (.padd (.var 22) (.lit 1) 4) (.bin (.bxor .u32) (.var 12) (.bin (.band .u32) (.un (.bnot .u32) (.var 13))
      (.var 14))),
    .asg 34 (.var 21)]

/-- part of `KeccakP1600_Permute_Nrounds` -/
def KeccakP1600_Permute_Nrounds.part22 : Stmt :=
  block [
    .asg 21 (.padd (.var 34) (.lit 1) 4),
    .st 4 (.padd (.var 22) (.lit 1) 4) (.bin (.bxor .u32) (.ld 4 (.padd (.var 22) (.lit 1) 4)) (.ld 4 (.var 34))),
    .st 4 (.padd (.var 22) (.lit 32) 4) (.bin (.bxor .u32) (.var 13) (.bin (.band .u32) (.un (.bnot .u32) (.var 14))
      (.var 15))),
    .st 4 (.padd (.var 22) (.lit 14) 4) (.bin (.bxor .u32) (.var 14) (.bin (.band .u32) (.un (.bnot .u32) (.var 15))
      (.var 16))),
    .st 4 (.padd (.var 22) (.lit 46) 4) (.bin (.bxor .u32) (.var 15) (.bin (.band .u32) (.un (.bnot .u32) (.var 16))
      (.var 12))),
    .st 4 (.padd (.var 22) (.lit 28) 4) (.bin (.bxor .u32) (.var 16) (.bin (.band .u32) (.un (.bnot .u32) (.var 12))
      (.var 13))),
    .asg 14 (.bin (.bxor .u32) (.bin (.shl .u32) (.bin (.bxor .u32) (.ld 4 (.padd (.var 22) (.lit 41) 4)) (.var 7))
      (.lit 2)) (.bin (.shr .u32) (.bin (.bxor .u32) (.ld 4 (.padd (.var 22) (.lit 41) 4)) (.var 7)) (.lit 30))),
    .asg 15 (.bin (.bxor .u32) (.bin (.shl .u32) (.bin (.bxor .u32) (.ld 4 (.padd (.var 22) (.lit 23) 4)) (.var 8))
      (.lit 23)) (.bin (.shr .u32) (.bin (.bxor .u32) (.ld 4 (.padd (.var 22) (.lit 23) 4)) (.var 8)) (.lit 9))),
    .asg 16 (.bin (.bxor .u32) (.bin (.shl .u32) (.bin (.bxor .u32) (.ld 4 (.padd (.var 22) (.lit 5) 4)) (.var 9))
      (.lit 31)) (.bin (.shr .u32) (.bin (.bxor .u32) (.ld 4 (.padd (.var 22) (.lit 5) 4)) (.var 9)) (.lit 1))),
    .asg 12 (.bin (.bxor .u32) (.bin (.shl .u32) (.bin (.bxor .u32) (.ld 4 (.padd (.var 22) (.lit 37) 4)) (.var 5))
      (.lit 14)) (.bin (.shr .u32) (.bin (.bxor .u32) (.ld 4 (.padd (.var 22) (.lit 37) 4)) (.var 5)) (.lit 18))),
    .asg 13 (.bin (.bxor .u32) (.bin (.shl .u32) (.bin (.bxor .u32) (.ld 4 (.padd (.var 22) (.lit 18) 4)) (.var 6))
      (.lit 10)) (.bin (.shr .u32) (.bin (.bxor .u32) (.ld 4 (.padd (.var 22) (.lit 18) 4)) (.var 6)) (.lit 22))),
    .st 4 (.padd (.var 22) (.lit 41) 4) (.bin (.bxor .u32) (.var 12) (.bin (.band .u32) (.un (.bnot .u32) (.var 13))
      (.var 14))),
    .st 4 (.padd (.var 22) (.lit 23) 4) (.bin (.bxor .u32) (.var 13) (.bin (.band .u32) (.un (.bnot .u32) (.var 14))
      (.var 15))),
    .st 4 (.padd (.var 22) (.lit 5) 4) (.bin (.bxor .u32) (.var 14) (.bin (.band .u32) (.un (.bnot .u32) (.var 15))
      (.var 16))),
    .st 4 (.padd (.var 22) (.lit 37) 4) (.bin (.bxor .u32) (.var 15) (.bin (.band .u32) (.un (.bnot .u32) (.var 16))
      (.var 12))),
    .st 4 (.padd (.var 22) (.lit 18) 4) (.bin (.bxor .u32) (.var 16) (.bin (.band .u32) (.un (.bnot .u32) (.var 12))
      (.var 13))),
    .asg 14 (.bin (.bxor .u32) (.bin (.shl .u32) (.bin (.bxor .u32) (.ld 4 (.padd (.var 22) (.lit 40) 4)) (.var 2))
      (.lit 1)) (.bin (.shr .u32) (.bin (.bxor .u32) (.ld 4 (.padd (.var 22) (.lit 40) 4)) (.var 2)) (.lit 31))),
    .asg 15 (.bin (.bxor .u32) (.bin (.shl .u32) (.bin (.bxor .u32) (.ld 4 (.padd (.var 22) (.lit 22) 4)) (.var 3))
      (.lit 22)) (.bin (.shr .u32) (.bin (.bxor .u32) (.ld 4 (.padd (.var 22) (.lit 22) 4)) (.var 3)) (.lit 10))),
    .asg 16 (.bin (.bxor .u32) (.bin (.shl .u32) (.bin (.bxor .u32) (.ld 4 (.padd (.var 22) (.lit 4) 4)) (.var 4))
      (.lit 30)) (.bin (.shr .u32) (.bin (.bxor .u32) (.ld 4 (.padd (.var 22) (.lit 4) 4)) (.var 4)) (.lit 2))),
    .asg 12 (.bin (.bxor .u32) (.bin (.shl .u32) (.bin (.bxor .u32) (.ld 4 (.padd (.var 22) (.lit 36) 4)) (.var 10))
      (.lit 14)) (.bin (.shr .u32) (.bin (.bxor .u32) (.ld 4 (.padd (.var 22) (.lit 36) 4)) (.var 10)) (.lit 18))),
    .asg 13 (.bin (.bxor .u32) (.bin (.shl .u32) (.bin (.bxor .u32) (.ld 4 (.padd (.var 22) (.lit 19) 4)) (.var 11))
      (.lit 10)) (.bin (.shr .u32) (.bin (.bxor .u32) (.ld 4 (.padd (.var 22) (.lit 19) 4)) (.var 11)) (.lit 22))),
    .st 4 (.padd (.var 22) (.lit 40) 4) (.bin (.bxor .u32) (.var 12) (.bin (.band .u32) (.un (.bnot .u32) (.var 13))
      (.var 14))),
    .st 4 (.padd (.var 22) (.lit 22) 4) (.bin (.bxor .u32) (.var 13) (.bin (.band .u32) (.un (.bnot .u32) (.var 14))
      (.var 15))),
    .st 4 (.padd (.var 22) (.lit 4) 4) (.bin (.bxor .u32) (.var 14) (.bin (.band .u32) (.un (.bnot .u32) (.var 15))
      (.var 16))),
    .st 4 (.padd (.var 22) (.lit 36) 4) (.bin (.bxor .u32) (.var 15) (.bin (.band .u32) (.un (.bnot .u32) (.var 16))
      (.var 12))),
    .st 4 (.padd (.var 22) (.lit 19) 4) (.bin (.bxor .u32) (.var 16) (.bin (.band .u32) (.un (.bnot .u32) (.var 12))
      (.var 13))),
    .asg 16 (.bin (.bxor .u32) (.bin (.shl .u32) (.bin (.bxor .u32) (.ld 4 (.padd (.var 22) (.lit 31) 4)) (.var 2))
      (.lit 9)) (.bin (.shr .u32) (.bin (.bxor .u32) (.ld 4 (.padd (.var 22) (.lit 31) 4)) (.var 2)) (.lit 23))),
    .asg 12 (.bin (.bxor .u32) (.bin (.shl .u32) (.bin (.bxor .u32) (.ld 4 (.padd (.var 22) (.lit 13) 4)) (.var 8))
      (.lit 1)) (.bin (.shr .u32) (.bin (.bxor .u32) (.ld 4 (.padd (.var 22) (.lit 13) 4)) (.var 8)) (.lit 31))),
    .asg 13 (.bin (.bxor .u32) (.bin (.shl .u32) (.bin (.bxor .u32) (.ld 4 (.padd (.var 22) (.lit 45) 4)) (.var 4))
      (.lit 3)) (.bin (.shr .u32) (.bin (.bxor .u32) (.ld 4 (.padd (.var 22) (.lit 45) 4)) (.var 4)) (.lit 29))),
    .asg 14 (.bin (.bxor .u32) (.bin (.shl .u32) (.bin (.bxor .u32) (.ld 4 (.padd (.var 22) (.lit 26) 4)) (.var 10))
      (.lit 13)) (.bin (.shr .u32) (.bin (.bxor .u32) (.ld 4 (.padd (.var 22) (.lit 26) 4)) (.var 10)) (.lit 19))),
    .asg 15 (.bin (.bxor .u32) (.bin (.shl .u32) (.bin (.bxor .u32) (.ld 4 (.padd (.var 22) (.lit 9) 4)) (.var 6))
      (.lit 4)) (.bin (.shr .u32) (.bin (.bxor .u32) (.ld 4 (.padd (.var 22) (.lit 9) 4)) (.var 6)) (.lit 28))),
    .st 4 (.padd (.var 22) (.lit 31) 4) (.bin (.bxor .u32) (.var 12) (.bin (.band .u32) (.un (.bnot .u32) (.var 13))
      (.var 14))),
    .st 4 (.padd (.var 22) (.lit 13) 4) (.bin (.bxor .u32) (.var 13) (.bin (.band .u32) (.un (.bnot .u32) (.var 14))
      (.var 15))),
    .st 4 (.padd (.var 22) (.lit 45) 4) (.bin (.bxor .u32) (.var 14) (.bin (.band .u32) (.un (.bnot .u32) (.var 15))
      (.var 16))),
    .st 4 (.padd (.var 22) (.lit 26) 4) (.bin (.bxor .u32) (.var 15) (.bin (.band .u32) (.un (.bnot .u32) (.var 16))
      (.var 12))),
    .st 4 (.padd (.var 22) (.lit 9) 4) (.bin (.bxor .u32) (.var 16) (.bin (.band .u32) (.un (.bnot .u32) (.var 12))
      (.var 13))),
    .asg 16 (.bin (.bxor .u32) (.bin (.shl .u32) (.bin (.bxor .u32) (.ld 4 (.padd (.var 22) (.lit 30) 4)) (.var 7))
      (.lit 9)) (.bin (.shr .u32) (.bin (.bxor .u32) (.ld 4 (.padd (.var 22) (.lit 30) 4)) (.var 7)) (.lit 23))),
    .asg 12 (.bin (.bxor .u32) (.ld 4 (.padd (.var 22) (.lit 12) 4)) (.var 3)),
    .asg 13 (.bin (.bxor .u32) (.bin (.shl .u32) (.bin (.bxor .u32) (.ld 4 (.padd (.var 22) (.lit 44) 4)) (.var 9))
      (.lit 3)) (.bin (.shr .u32) (.bin (.bxor .u32) (.ld 4 (.padd (.var 22) (.lit 44) 4)) (.var 9)) (.lit 29))),
    .asg 14 (.bin (.bxor .u32) (.bin (.shl .u32) (.bin (.bxor .u32) (.ld 4 (.padd (.var 22) (.lit 27) 4)) (.var 5))
      (.lit 12)) (.bin (.shr .u32) (.bin (.bxor .u32) (.ld 4 (.padd (.var 22) (.lit 27) 4)) (.var 5)) (.lit 20)))]

/-- part of `KeccakP1600_Permute_Nrounds` -/
def KeccakP1600_Permute_Nrounds.part23 : Stmt :=
  block [
    .asg 15 (.bin (.bxor .u32) (.bin (.shl .u32) (.bin (.bxor .u32) (.ld 4 (.padd (.var 22) (.lit 8) 4)) (.var 11))
      (.lit 4)) (.bin (.shr .u32) (.bin (.bxor .u32) (.ld 4 (.padd (.var 22) (.lit 8) 4)) (.var 11)) (.lit 28))),
    .st 4 (.padd (.var 22) (.lit 30) 4) (.bin (.bxor .u32) (.var 12) (.bin (.band .u32) (.un (.bnot .u32) (.var 13))
      (.var 14))),
    .st 4 (.padd (.var 22) (.lit 12) 4) (.bin (.bxor .u32) (.var 13) (.bin (.band .u32) (.un (.bnot .u32) (.var 14))
      (.var 15))),
    .st 4 (.padd (.var 22) (.lit 44) 4) (.bin (.bxor .u32) (.var 14) (.bin (.band .u32) (.un (.bnot .u32) (.var 15))
      (.var 16))),
    .st 4 (.padd (.var 22) (.lit 27) 4) (.bin (.bxor .u32) (.var 15) (.bin (.band .u32) (.un (.bnot .u32) (.var 16))
      (.var 12))),
    .st 4 (.padd (.var 22) (.lit 8) 4) (.bin (.bxor .u32) (.var 16) (.bin (.band .u32) (.un (.bnot .u32) (.var 12))
      (.var 13))),
    .asg 13 (.bin (.bxor .u32) (.bin (.shl .u32) (.bin (.bxor .u32) (.ld 4 (.padd (.var 22) (.lit 21) 4)) (.var 2))
      (.lit 18)) (.bin (.shr .u32) (.bin (.bxor .u32) (.ld 4 (.padd (.var 22) (.lit 21) 4)) (.var 2)) (.lit 14))),
    .asg 14 (.bin (.bxor .u32) (.bin (.shl .u32) (.bin (.bxor .u32) (.ld 4 (.padd (.var 22) (.lit 3) 4)) (.var 3))
      (.lit 5)) (.bin (.shr .u32) (.bin (.bxor .u32) (.ld 4 (.padd (.var 22) (.lit 3) 4)) (.var 3)) (.lit 27))),
    .asg 15 (.bin (.bxor .u32) (.bin (.shl .u32) (.bin (.bxor .u32) (.ld 4 (.padd (.var 22) (.lit 34) 4)) (.var 9))
      (.lit 8)) (.bin (.shr .u32) (.bin (.bxor .u32) (.ld 4 (.padd (.var 22) (.lit 34) 4)) (.var 9)) (.lit 24))),
    .asg 16 (.bin (.bxor .u32) (.bin (.shl .u32) (.bin (.bxor .u32) (.ld 4 (.padd (.var 22) (.lit 17) 4)) (.var 5))
      (.lit 28)) (.bin (.shr .u32) (.bin (.bxor .u32) (.ld 4 (.padd (.var 22) (.lit 17) 4)) (.var 5)) (.lit 4))),
    .asg 12 (.bin (.bxor .u32) (.bin (.shl .u32) (.bin (.bxor .u32) (.ld 4 (.padd (.var 22) (.lit 49) 4)) (.var 11))
      (.lit 14)) (.bin (.shr .u32) (.bin (.bxor .u32) (.ld 4 (.padd (.var 22) (.lit 49) 4)) (.var 11)) (.lit 18))),
    .st 4 (.padd (.var 22) (.lit 21) 4) (.bin (.bxor .u32) (.var 12) (.bin (.band .u32) (.un (.bnot .u32) (.var 13))
      (.var 14))),
    .st 4 (.padd (.var 22) (.lit 3) 4) (.bin (.bxor .u32) (.var 13) (.bin (.band .u32) (.un (.bnot .u32) (.var 14))
      (.var 15))),
    .st 4 (.padd (.var 22) (.lit 34) 4) (.bin (.bxor .u32) (.var 14) (.bin (.band .u32) (.un (.bnot .u32) (.var 15))
      (.var 16))),
    .st 4 (.padd (.var 22) (.lit 17) 4) (.bin (.bxor .u32) (.var 15) (.bin (.band .u32) (.un (.bnot .u32) (.var 16))
      (.var 12))),
    .st 4 (.padd (.var 22) (.lit 49) 4) (.bin (.bxor .u32) (.var 16) (.bin (.band .u32) (.un (.bnot .u32) (.var 12))
      (.var 13))),
    .asg 13 (.bin (.bxor .u32) (.bin (.shl .u32) (.bin (.bxor .u32) (.ld 4 (.padd (.var 22) (.lit 20) 4)) (.var 7))
      (.lit 18)) (.bin (.shr .u32) (.bin (.bxor .u32) (.ld 4 (.padd (.var 22) (.lit 20) 4)) (.var 7)) (.lit 14))),
    .asg 14 (.bin (.bxor .u32) (.bin (.shl .u32) (.bin (.bxor .u32) (.ld 4 (.padd (.var 22) (.lit 2) 4)) (.var 8))
      (.lit 5)) (.bin (.shr .u32) (.bin (.bxor .u32) (.ld 4 (.padd (.var 22) (.lit 2) 4)) (.var 8)) (.lit 27))),
    .asg 15 (.bin (.bxor .u32) (.bin (.shl .u32) (.bin (.bxor .u32) (.ld 4 (.padd (.var 22) (.lit 35) 4)) (.var 4))
      (.lit 7)) (.bin (.shr .u32) (.bin (.bxor .u32) (.ld 4 (.padd (.var 22) (.lit 35) 4)) (.var 4)) (.lit 25))),
    .asg 16 (.bin (.bxor .u32) (.bin (.shl .u32) (.bin (.bxor .u32) (.ld 4 (.padd (.var 22) (.lit 16) 4)) (.var 10))
      (.lit 28)) (.bin (.shr .u32) (.bin (.bxor .u32) (.ld 4 (.padd (.var 22) (.lit 16) 4)) (.var 10)) (.lit 4))),
    .asg 12 (.bin (.bxor .u32) (.bin (.shl .u32) (.bin (.bxor .u32) (.ld 4 (.padd (.var 22) (.lit 48) 4)) (.var 6))
      (.lit 13)) (.bin (.shr .u32) (.bin (.bxor .u32) (.ld 4 (.padd (.var 22) (.lit 48) 4)) (.var 6)) (.lit 19))),
    .st 4 (.padd (.var 22) (.lit 20) 4) (.bin (.bxor .u32) (.var 12) (.bin (.band .u32) (.un (.bnot .u32) (.var 13))
      (.var 14))),
    .st 4 (.padd (.var 22) (.lit 2) 4) (.bin (.bxor .u32) (.var 13) (.bin (.band .u32) (.un (.bnot .u32) (.var 14))
      (.var 15))),
    .st 4 (.padd (.var 22) (.lit 35) 4) (.bin (.bxor .u32) (.var 14) (.bin (.band .u32) (.un (.bnot .u32) (.var 15))
      (.var 16))),
    .st 4 (.padd (.var 22) (.lit 16) 4) (.bin (.bxor .u32) (.var 15) (.bin (.band .u32) (.un (.bnot .u32) (.var 16))
      (.var 12))),
    .st 4 (.padd (.var 22) (.lit 48) 4) (.bin (.bxor .u32) (.var 16) (.bin (.band .u32) (.un (.bnot .u32) (.var 12))
      (.var 13))),
    .asg 15 (.bin (.bxor .u32) (.bin (.shl .u32) (.bin (.bxor .u32) (.ld 4 (.padd (.var 22) (.lit 11) 4)) (.var 7))
      (.lit 21)) (.bin (.shr .u32) (.bin (.bxor .u32) (.ld 4 (.padd (.var 22) (.lit 11) 4)) (.var 7)) (.lit 11))),
    .asg 16 (.bin (.bxor .u32) (.bin (.shl .u32) (.bin (.bxor .u32) (.ld 4 (.padd (.var 22) (.lit 42) 4)) (.var 3))
      (.lit 1)) (.bin (.shr .u32) (.bin (.bxor .u32) (.ld 4 (.padd (.var 22) (.lit 42) 4)) (.var 3)) (.lit 31))),
    .asg 12 (.bin (.bxor .u32) (.bin (.shl .u32) (.bin (.bxor .u32) (.ld 4 (.padd (.var 22) (.lit 25) 4)) (.var 4))
      (.lit 31)) (.bin (.shr .u32) (.bin (.bxor .u32) (.ld 4 (.padd (.var 22) (.lit 25) 4)) (.var 4)) (.lit 1))),
    .asg 13 (.bin (.bxor .u32) (.bin (.shl .u32) (.bin (.bxor .u32) (.ld 4 (.padd (.var 22) (.lit 7) 4)) (.var 10))
      (.lit 28)) (.bin (.shr .u32) (.bin (.bxor .u32) (.ld 4 (.padd (.var 22) (.lit 7) 4)) (.var 10)) (.lit 4))),
    .asg 14 (.bin (.bxor .u32) (.bin (.shl .u32) (.bin (.bxor .u32) (.ld 4 (.padd (.var 22) (.lit 39) 4)) (.var 11))
      (.lit 20)) (.bin (.shr .u32) (.bin (.bxor .u32) (.ld 4 (.padd (.var 22) (.lit 39) 4)) (.var 11)) (.lit 12))),
    .st 4 (.padd (.var 22) (.lit 11) 4) (.bin (.bxor .u32) (.var 12) (.bin (.band .u32) (.un (.bnot .u32) (.var 13))
      (.var 14))),
    .st 4 (.padd (.var 22) (.lit 42) 4) (.bin (.bxor .u32) (.var 13) (.bin (.band .u32) (.un (.bnot .u32) (.var 14))
      (.var 15))),
    .st 4 (.padd (.var 22) (.lit 25) 4) (.bin (.bxor .u32) (.var 14) (.bin (.band .u32) (.un (.bnot .u32) (.var 15))
      (.var 16))),
    .st 4 (.padd (.var 22) (.lit 7) 4) (.bin (.bxor .u32) (.var 15) (.bin (.band .u32) (.un (.bnot .u32) (.var 16))
      (.var 12))),
    .st 4 (.padd (.var 22) (.lit 39) 4) (.bin (.bxor .u32) (.var 16) (.bin (.band .u32) (.un (.bnot .u32) (.var 12))
      (.var 13))),
    .asg 15 (.bin (.bxor .u32) (.bin (.shl .u32) (.bin (.bxor .u32) (.ld 4 (.padd (.var 22) (.lit 10) 4)) (.var 2))
      (.lit 20)) (.bin (.shr .u32) (.bin (.bxor .u32) (.ld 4 (.padd (.var 22) (.lit 10) 4)) (.var 2)) (.lit 12))),
    .asg 16 (.bin (.bxor .u32) (.bin (.shl .u32) (.bin (.bxor .u32) (.ld 4 (.padd (.var 22) (.lit 43) 4)) (.var 8))
      (.lit 1)) (.bin (.shr .u32) (.bin (.bxor .u32) (.ld 4 (.padd (.var 22) (.lit 43) 4)) (.var 8)) (.lit 31))),
    .asg 12 (.bin (.bxor .u32) (.bin (.shl .u32) (.bin (.bxor .u32) (.ld 4 (.padd (.var 22) (.lit 24) 4)) (.var 9))
      (.lit 31)) (.bin (.shr .u32) (.bin (.bxor .u32) (.ld 4 (.padd (.var 22) (.lit 24) 4)) (.var 9)) (.lit 1))),
    .asg 13 (.bin (.bxor .u32) (.bin (.shl .u32) (.bin (.bxor .u32) (.ld 4 (.padd (.var 22) (.lit 6) 4)) (.var 5))
      (.lit 27)) (.bin (.shr .u32) (.bin (.bxor .u32) (.ld 4 (.padd (.var 22) (.lit 6) 4)) (.var 5)) (.lit 5)))]

/-- part of `KeccakP1600_Permute_Nrounds` -/
def KeccakP1600_Permute_Nrounds.part24 : Stmt :=
  block [
    .asg 14 (.bin (.bxor .u32) (.bin (.shl .u32) (.bin (.bxor .u32) (.ld 4 (.padd (.var 22) (.lit 38) 4)) (.var 6))
      (.lit 19)) (.bin (.shr .u32) (.bin (.bxor .u32) (.ld 4 (.padd (.var 22) (.lit 38) 4)) (.var 6)) (.lit 13))),
    .st 4 (.padd (.var 22) (.lit 10) 4) (.bin (.bxor .u32) (.var 12) (.bin (.band .u32) (.un (.bnot .u32) (.var 13))
      (.var 14))),
    .st 4 (.padd (.var 22) (.lit 43) 4) (.bin (.bxor .u32) (.var 13) (.bin (.band .u32) (.un (.bnot .u32) (.var 14))
      (.var 15))),
    .st 4 (.padd (.var 22) (.lit 24) 4) (.bin (.bxor .u32) (.var 14) (.bin (.band .u32) (.un (.bnot .u32) (.var 15))
      (.var 16))),
    .st 4 (.padd (.var 22) (.lit 6) 4) (.bin (.bxor .u32) (.var 15) (.bin (.band .u32) (.un (.bnot .u32) (.var 16))
      (.var 12))),
    .st 4 (.padd (.var 22) (.lit 38) 4) (.bin (.bxor .u32) (.var 16) (.bin (.band .u32) (.un (.bnot .u32) (.var 12))
      (.var 13))),
    .asg 17 (.bin (.bxor .u32) (.bin (.bxor .u32) (.bin (.bxor .u32) (.bin (.bxor .u32) (.ld 4 (.padd (.var 22) (.lit
      29) 4)) (.ld 4 (.padd (.var 22) (.lit 18) 4))) (.ld 4 (.padd (.var 22) (.lit 9) 4))) (.ld 4 (.padd (.var 22)
      (.lit 49) 4))) (.ld 4 (.padd (.var 22) (.lit 39) 4))),
    .asg 11 (.bin (.bxor .u32) (.bin (.bxor .u32) (.bin (.bxor .u32) (.bin (.bxor .u32) (.ld 4 (.padd (.var 22) (.lit
      32) 4)) (.ld 4 (.padd (.var 22) (.lit 22) 4))) (.ld 4 (.padd (.var 22) (.lit 12) 4))) (.ld 4 (.padd (.var 22)
      (.lit 2) 4))) (.ld 4 (.padd (.var 22) (.lit 43) 4))),
    .asg 2 (.bin (.bxor .u32) (.var 17) (.bin (.bxor .u32) (.bin (.shl .u32) (.var 11) (.lit 1)) (.bin (.shr .u32)
      (.var 11) (.lit 31)))),
    .asg 19 (.bin (.bxor .u32) (.bin (.bxor .u32) (.bin (.bxor .u32) (.bin (.bxor .u32) (.ld 4 (.padd (.var 22) (.lit
      28) 4)) (.ld 4 (.padd (.var 22) (.lit 19) 4))) (.ld 4 (.padd (.var 22) (.lit 8) 4))) (.ld 4 (.padd (.var 22)
      (.lit 48) 4))) (.ld 4 (.padd (.var 22) (.lit 38) 4))),
    .asg 6 (.bin (.bxor .u32) (.bin (.bxor .u32) (.bin (.bxor .u32) (.bin (.bxor .u32) (.ld 4 (.padd (.var 22) (.lit
      33) 4)) (.ld 4 (.padd (.var 22) (.lit 23) 4))) (.ld 4 (.padd (.var 22) (.lit 13) 4))) (.ld 4 (.padd (.var 22)
      (.lit 3) 4))) (.ld 4 (.padd (.var 22) (.lit 42) 4))),
    .asg 7 (.bin (.bxor .u32) (.var 19) (.var 6)),
    .asg 20 (.bin (.bxor .u32) (.bin (.bxor .u32) (.bin (.bxor .u32) (.bin (.bxor .u32) (.ld 4 (.padd (.var 22) (.lit
      15) 4)) (.ld 4 (.padd (.var 22) (.lit 5) 4))) (.ld 4 (.padd (.var 22) (.lit 45) 4))) (.ld 4 (.padd (.var 22)
      (.lit 34) 4))) (.ld 4 (.padd (.var 22) (.lit 25) 4))),
    .asg 5 (.bin (.bxor .u32) (.var 20) (.bin (.bxor .u32) (.bin (.shl .u32) (.var 19) (.lit 1)) (.bin (.shr .u32)
      (.var 19) (.lit 31)))),
    .asg 18 (.bin (.bxor .u32) (.bin (.bxor .u32) (.bin (.bxor .u32) (.bin (.bxor .u32) (.ld 4 (.padd (.var 22) (.lit
      14) 4)) (.ld 4 (.padd (.var 22) (.lit 4) 4))) (.ld 4 (.padd (.var 22) (.lit 44) 4))) (.ld 4 (.padd (.var 22)
      (.lit 35) 4))) (.ld 4 (.padd (.var 22) (.lit 24) 4))),
    .asg 10 (.bin (.bxor .u32) (.var 18) (.var 17)),
    .asg 17 (.bin (.bxor .u32) (.bin (.bxor .u32) (.bin (.bxor .u32) (.bin (.bxor .u32) (.ld 4 (.var 22)) (.ld 4
      (.padd (.var 22) (.lit 41) 4))) (.ld 4 (.padd (.var 22) (.lit 31) 4))) (.ld 4 (.padd (.var 22) (.lit 21) 4)))
      (.ld 4 (.padd (.var 22) (.lit 11) 4))),
    .asg 3 (.bin (.bxor .u32) (.var 17) (.bin (.bxor .u32) (.bin (.shl .u32) (.var 18) (.lit 1)) (.bin (.shr .u32)
      (.var 18) (.lit 31)))),
    .asg 19 (.bin (.bxor .u32) (.bin (.bxor .u32) (.bin (.bxor .u32) (.bin (.bxor .u32) (.ld 4 (.padd (.var 22) (.lit
      1) 4)) (.ld 4 (.padd (.var 22) (.lit 40) 4))) (.ld 4 (.padd (.var 22) (.lit 30) 4))) (.ld 4 (.padd (.var 22)
      (.lit 20) 4))) (.ld 4 (.padd (.var 22) (.lit 10) 4))),
    .asg 8 (.bin (.bxor .u32) (.var 19) (.var 20)),
    .asg 18 (.bin (.bxor .u32) (.bin (.bxor .u32) (.bin (.bxor .u32) (.bin (.bxor .u32) (.ld 4 (.padd (.var 22) (.lit
      46) 4)) (.ld 4 (.padd (.var 22) (.lit 36) 4))) (.ld 4 (.padd (.var 22) (.lit 27) 4))) (.ld 4 (.padd (.var 22)
      (.lit 16) 4))) (.ld 4 (.padd (.var 22) (.lit 6) 4))),
    .asg 4 (.bin (.bxor .u32) (.var 6) (.bin (.bxor .u32) (.bin (.shl .u32) (.var 18) (.lit 1)) (.bin (.shr .u32)
      (.var 18) (.lit 31)))),
    .asg 20 (.bin (.bxor .u32) (.bin (.bxor .u32) (.bin (.bxor .u32) (.bin (.bxor .u32) (.ld 4 (.padd (.var 22) (.lit
      47) 4)) (.ld 4 (.padd (.var 22) (.lit 37) 4))) (.ld 4 (.padd (.var 22) (.lit 26) 4))) (.ld 4 (.padd (.var 22)
      (.lit 17) 4))) (.ld 4 (.padd (.var 22) (.lit 7) 4))),
    .asg 9 (.bin (.bxor .u32) (.var 11) (.var 20)),
    .asg 6 (.bin (.bxor .u32) (.var 20) (.bin (.bxor .u32) (.bin (.shl .u32) (.var 19) (.lit 1)) (.bin (.shr .u32)
      (.var 19) (.lit 31)))),
    .asg 11 (.bin (.bxor .u32) (.var 18) (.var 17)),
    .asg 12 (.bin (.bxor .u32) (.ld 4 (.var 22)) (.var 2)),
    .asg 13 (.bin (.bxor .u32) (.bin (.shl .u32) (.bin (.bxor .u32) (.ld 4 (.padd (.var 22) (.lit 23) 4)) (.var 3))
      (.lit 22)) (.bin (.shr .u32) (.bin (.bxor .u32) (.ld 4 (.padd (.var 22) (.lit 23) 4)) (.var 3)) (.lit 10))),
    .asg 14 (.bin (.bxor .u32) (.bin (.shl .u32) (.bin (.bxor .u32) (.ld 4 (.padd (.var 22) (.lit 44) 4)) (.var 9))
      (.lit 22)) (.bin (.shr .u32) (.bin (.bxor .u32) (.ld 4 (.padd (.var 22) (.lit 44) 4)) (.var 9)) (.lit 10))),
    .asg 15 (.bin (.bxor .u32) (.bin (.shl .u32) (.bin (.bxor .u32) (.ld 4 (.padd (.var 22) (.lit 16) 4)) (.var 10))
      (.lit 11)) (.bin (.shr .u32) (.bin (.bxor .u32) (.ld 4 (.padd (.var 22) (.lit 16) 4)) (.var 10)) (.lit 21))),
    .asg 16 (.bin (.bxor .u32) (.bin (.shl .u32) (.bin (.bxor .u32) (.ld 4 (.padd (.var 22) (.lit 39) 4)) (.var 6))
      (.lit 7)) (.bin (.shr .u32) (.bin (.bxor .u32) (.ld 4 (.padd (.var 22) (.lit 39) 4)) (.var 6)) (.lit 25))),
    .st 4 (.var 22) (.bin (.bxor .u32) (.var 12) (.bin (.band .u32) (.un (.bnot .u32) (.var 13)) (.var 14))),
    .asg 35 (.var 21),
    .asg 21 (.padd (.var 35) (.lit 1) 4),
    .st 4 (.var 22) (.bin (.bxor .u32) (.ld 4 (.var 22)) (.ld 4 (.var 35))),
    .st 4 (.padd (.var 22) (.lit 23) 4) (.bin (.bxor .u32) (.var 13) (.bin (.band .u32) (.un (.bnot .u32) (.var 14))
      (.var 15))),
    .st 4 (.padd (.var 22) (.lit 44) 4) (.bin (.bxor .u32) (.var 14) (.bin (.band .u32) (.un (.bnot .u32) (.var 15))
      (.var 16))),
    .st 4 (.padd (.var 22) (.lit 16) 4) (.bin (.bxor .u32) (.var 15) (.bin (.band .u32) (.un (.bnot .u32) (.var 16))
      (.var 12))),
    .st 4 (.padd (.var 22) (.lit 39) 4) (.bin (.bxor .u32) (.var 16) (.bin (.band .u32) (.un (.bnot .u32) (.var 12))
      (.var 13))),
    .asg 12 (.bin (.bxor .u32) (.ld 4 (.padd (.var 22) (.lit 1) 4)) (.var 7))]

/-- part of `KeccakP1600_Permute_Nrounds` -/
def KeccakP1600_Permute_Nrounds.part25 : Stmt :=
  block [
    .asg 13 (.bin (.bxor .u32) (.bin (.shl .u32) (.bin (.bxor .u32) (.ld 4 (.padd (.var 22) (.lit 22) 4)) (.var 8))
      (.lit 22)) (.bin (.shr .u32) (.bin (.bxor .u32) (.ld 4 (.padd (.var 22) (.lit 22) 4)) (.var 8)) (.lit 10))),
    .asg 14 (.bin (.bxor .u32) (.bin (.shl .u32) (.bin (.bxor .u32) (.ld 4 (.padd (.var 22) (.lit 45) 4)) (.var 4))
      (.lit 21)) (.bin (.shr .u32) (.bin (.bxor .u32) (.ld 4 (.padd (.var 22) (.lit 45) 4)) (.var 4)) (.lit 11))),
    .asg 15 (.bin (.bxor .u32) (.bin (.shl .u32) (.bin (.bxor .u32) (.ld 4 (.padd (.var 22) (.lit 17) 4)) (.var 5))
      (.lit 10)) (.bin (.shr .u32) (.bin (.bxor .u32) (.ld 4 (.padd (.var 22) (.lit 17) 4)) (.var 5)) (.lit 22))),
    .asg 16 (.bin (.bxor .u32) (.bin (.shl .u32) (.bin (.bxor .u32) (.ld 4 (.padd (.var 22) (.lit 38) 4)) (.var 11))
      (.lit 7)) (.bin (.shr .u32) (.bin (.bxor .u32) (.ld 4 (.padd (.var 22) (.lit 38) 4)) (.var 11)) (.lit 25))),
    .st 4 (.padd (.var 22) (.lit 1) 4) (.bin (.bxor .u32) (.var 12) (.bin (.band .u32) (.un (.bnot .u32) (.var 13))
      (.var 14))),
    .asg 36 (.var 21),
    .asg 21 (.padd (.var 36) (.lit 1) 4),
    .st 4 (.padd (.var 22) (.lit 1) 4) (.bin (.bxor .u32) (.ld 4 (.padd (.var 22) (.lit 1) 4)) (.ld 4 (.var 36))),
    .st 4 (.padd (.var 22) (.lit 22) 4) (.bin (.bxor .u32) (.var 13) (.bin (.band .u32) (.un (.bnot .u32) (.var 14))
      (.var 15))),
    .st 4 (.padd (.var 22) (.lit 45) 4) (.bin (.bxor .u32) (.var 14) (.bin (.band .u32) (.un (.bnot .u32) (.var 15))
      (.var 16))),
    .st 4 (.padd (.var 22) (.lit 17) 4) (.bin (.bxor .u32) (.var 15) (.bin (.band .u32) (.un (.bnot .u32) (.var 16))
      (.var 12))),
    .st 4 (.padd (.var 22) (.lit 38) 4) (.bin (.bxor .u32) (.var 16) (.bin (.band .u32) (.un (.bnot .u32) (.var 12))
      (.var 13))),
    .asg 14 (.bin (.bxor .u32) (.bin (.shl .u32) (.bin (.bxor .u32) (.ld 4 (.padd (.var 22) (.lit 30) 4)) (.var 7))
      (.lit 2)) (.bin (.shr .u32) (.bin (.bxor .u32) (.ld 4 (.padd (.var 22) (.lit 30) 4)) (.var 7)) (.lit 30))),
    .asg 15 (.bin (.bxor .u32) (.bin (.shl .u32) (.bin (.bxor .u32) (.ld 4 (.padd (.var 22) (.lit 2) 4)) (.var 8))
      (.lit 23)) (.bin (.shr .u32) (.bin (.bxor .u32) (.ld 4 (.padd (.var 22) (.lit 2) 4)) (.var 8)) (.lit 9))),
    .asg 16 (.bin (.bxor .u32) (.bin (.shl .u32) (.bin (.bxor .u32) (.ld 4 (.padd (.var 22) (.lit 24) 4)) (.var 9))
      (.lit 31)) (.bin (.shr .u32) (.bin (.bxor .u32) (.ld 4 (.padd (.var 22) (.lit 24) 4)) (.var 9)) (.lit 1))),
    .asg 12 (.bin (.bxor .u32) (.bin (.shl .u32) (.bin (.bxor .u32) (.ld 4 (.padd (.var 22) (.lit 47) 4)) (.var 5))
      (.lit 14)) (.bin (.shr .u32) (.bin (.bxor .u32) (.ld 4 (.padd (.var 22) (.lit 47) 4)) (.var 5)) (.lit 18))),
    .asg 13 (.bin (.bxor .u32) (.bin (.shl .u32) (.bin (.bxor .u32) (.ld 4 (.padd (.var 22) (.lit 18) 4)) (.var 6))
      (.lit 10)) (.bin (.shr .u32) (.bin (.bxor .u32) (.ld 4 (.padd (.var 22) (.lit 18) 4)) (.var 6)) (.lit 22))),
    .st 4 (.padd (.var 22) (.lit 30) 4) (.bin (.bxor .u32) (.var 12) (.bin (.band .u32) (.un (.bnot .u32) (.var 13))
      (.var 14))),
    .st 4 (.padd (.var 22) (.lit 2) 4) (.bin (.bxor .u32) (.var 13) (.bin (.band .u32) (.un (.bnot .u32) (.var 14))
      (.var 15))),
    .st 4 (.padd (.var 22) (.lit 24) 4) (.bin (.bxor .u32) (.var 14) (.bin (.band .u32) (.un (.bnot .u32) (.var 15))
      (.var 16))),
    .st 4 (.padd (.var 22) (.lit 47) 4) (.bin (.bxor .u32) (.var 15) (.bin (.band .u32) (.un (.bnot .u32) (.var 16))
      (.var 12))),
    .st 4 (.padd (.var 22) (.lit 18) 4) (.bin (.bxor .u32) (.var 16) (.bin (.band .u32) (.un (.bnot .u32) (.var 12))
      (.var 13))),
    .asg 14 (.bin (.bxor .u32) (.bin (.shl .u32) (.bin (.bxor .u32) (.ld 4 (.padd (.var 22) (.lit 31) 4)) (.var 2))
      (.lit 1)) (.bin (.shr .u32) (.bin (.bxor .u32) (.ld 4 (.padd (.var 22) (.lit 31) 4)) (.var 2)) (.lit 31))),
    .asg 15 (.bin (.bxor .u32) (.bin (.shl .u32) (.bin (.bxor .u32) (.ld 4 (.padd (.var 22) (.lit 3) 4)) (.var 3))
      (.lit 22)) (.bin (.shr .u32) (.bin (.bxor .u32) (.ld 4 (.padd (.var 22) (.lit 3) 4)) (.var 3)) (.lit 10))),
    .asg 16 (.bin (.bxor .u32) (.bin (.shl .u32) (.bin (.bxor .u32) (.ld 4 (.padd (.var 22) (.lit 25) 4)) (.var 4))
      (.lit 30)) (.bin (.shr .u32) (.bin (.bxor .u32) (.ld 4 (.padd (.var 22) (.lit 25) 4)) (.var 4)) (.lit 2))),
    .asg 12 (.bin (.bxor .u32) (.bin (.shl .u32) (.bin (.bxor .u32) (.ld 4 (.padd (.var 22) (.lit 46) 4)) (.var 10))
      (.lit 14)) (.bin (.shr .u32) (.bin (.bxor .u32) (.ld 4 (.padd (.var 22) (.lit 46) 4)) (.var 10)) (.lit 18))),
    .asg 13 (.bin (.bxor .u32) (.bin (.shl .u32) (.bin (.bxor .u32) (.ld 4 (.padd (.var 22) (.lit 19) 4)) (.var 11))
      (.lit 10)) (.bin (.shr .u32) (.bin (.bxor .u32) (.ld 4 (.padd (.var 22) (.lit 19) 4)) (.var 11)) (.lit 22))),
    .st 4 (.padd (.var 22) (.lit 31) 4) (.bin (.bxor .u32) (.var 12) (.bin (.band .u32) (.un (.bnot .u32) (.var 13))
      (.var 14))),
    .st 4 (.padd (.var 22) (.lit 3) 4) (.bin (.bxor .u32) (.var 13) (.bin (.band .u32) (.un (.bnot .u32) (.var 14))
      (.var 15))),
    .st 4 (.padd (.var 22) (.lit 25) 4) (.bin (.bxor .u32) (.var 14) (.bin (.band .u32) (.un (.bnot .u32) (.var 15))
      (.var 16))),
    .st 4 (.padd (.var 22) (.lit 46) 4) (.bin (.bxor .u32) (.var 15) (.bin (.band .u32) (.un (.bnot .u32) (.var 16))
      (.var 12))),
    .st 4 (.padd (.var 22) (.lit 19) 4) (.bin (.bxor .u32) (.var 16) (.bin (.band .u32) (.un (.bnot .u32) (.var 12))
      (.var 13))),
    .asg 16 (.bin (.bxor .u32) (.bin (.shl .u32) (.bin (.bxor .u32) (.ld 4 (.padd (.var 22) (.lit 11) 4)) (.var 2))
      (.lit 9)) (.bin (.shr .u32) (.bin (.bxor .u32) (.ld 4 (.padd (.var 22) (.lit 11) 4)) (.var 2)) (.lit 23))),
    .asg 12 (.bin (.bxor .u32) (.bin (.shl .u32) (.bin (.bxor .u32) (.ld 4 (.padd (.var 22) (.lit 32) 4)) (.var 8))
      (.lit 1)) (.bin (.shr .u32) (.bin (.bxor .u32) (.ld 4 (.padd (.var 22) (.lit 32) 4)) (.var 8)) (.lit 31))),
    .asg 13 (.bin (.bxor .u32) (.bin (.shl .u32) (.bin (.bxor .u32) (.ld 4 (.padd (.var 22) (.lit 5) 4)) (.var 4))
      (.lit 3)) (.bin (.shr .u32) (.bin (.bxor .u32) (.ld 4 (.padd (.var 22) (.lit 5) 4)) (.var 4)) (.lit 29))),
    .asg 14 (.bin (.bxor .u32) (.bin (.shl .u32) (.bin (.bxor .u32) (.ld 4 (.padd (.var 22) (.lit 27) 4)) (.var 10))
      (.lit 13)) (.bin (.shr .u32) (.bin (.bxor .u32) (.ld 4 (.padd (.var 22) (.lit 27) 4)) (.var 10)) (.lit 19))),
    .asg 15 (.bin (.bxor .u32) (.bin (.shl .u32) (.bin (.bxor .u32) (.ld 4 (.padd (.var 22) (.lit 49) 4)) (.var 6))
      (.lit 4)) (.bin (.shr .u32) (.bin (.bxor .u32) (.ld 4 (.padd (.var 22) (.lit 49) 4)) (.var 6)) (.lit 28))),
    .st 4 (.padd (.var 22) (.lit 11) 4) (.bin (.bxor .u32) (.var 12) (.bin (.band .u32) (.un (.bnot .u32) (.var 13))
      (.var 14))),
    .st 4 (.padd (.var 22) (.lit 32) 4) (.bin (.bxor .u32) (.var 13) (.bin (.band .u32) (.un (.bnot .u32) (.var 14))
      (.var 15))),
    .st 4 (.padd (.var 22) (.lit 5) 4) (.bin (.bxor .u32) (.var 14) (.bin (.band .u32) (.un (.bnot .u32) (.var 15))
      (.var 16)))]

/-- part of `KeccakP1600_Permute_Nrounds` -/
def KeccakP1600_Permute_Nrounds.part26 : Stmt :=
  block [
    .st 4 (.padd (.var 22) (.lit 27) 4) (.bin (.bxor .u32) (.var 15) (.bin (.band .u32) (.un (.bnot .u32) (.var 16))
      (.var 12))),
    .st 4 (.padd (.var 22) (.lit 49) 4) (.bin (.bxor .u32) (.var 16) (.bin (.band .u32) (.un (.bnot .u32) (.var 12))
      (.var 13))),
    .asg 16 (.bin (.bxor .u32) (.bin (.shl .u32) (.bin (.bxor .u32) (.ld 4 (.padd (.var 22) (.lit 10) 4)) (.var 7))
      (.lit 9)) (.bin (.shr .u32) (.bin (.bxor .u32) (.ld 4 (.padd (.var 22) (.lit 10) 4)) (.var 7)) (.lit 23))),
    .asg 12 (.bin (.bxor .u32) (.ld 4 (.padd (.var 22) (.lit 33) 4)) (.var 3)),
    .asg 13 (.bin (.bxor .u32) (.bin (.shl .u32) (.bin (.bxor .u32) (.ld 4 (.padd (.var 22) (.lit 4) 4)) (.var 9))
      (.lit 3)) (.bin (.shr .u32) (.bin (.bxor .u32) (.ld 4 (.padd (.var 22) (.lit 4) 4)) (.var 9)) (.lit 29))),
    .asg 14 (.bin (.bxor .u32) (.bin (.shl .u32) (.bin (.bxor .u32) (.ld 4 (.padd (.var 22) (.lit 26) 4)) (.var 5))
      (.lit 12)) (.bin (.shr .u32) (.bin (.bxor .u32) (.ld 4 (.padd (.var 22) (.lit 26) 4)) (.var 5)) (.lit 20))),
    .asg 15 (.bin (.bxor .u32) (.bin (.shl .u32) (.bin (.bxor .u32) (.ld 4 (.padd (.var 22) (.lit 48) 4)) (.var 11))
      (.lit 4)) (.bin (.shr .u32) (.bin (.bxor .u32) (.ld 4 (.padd (.var 22) (.lit 48) 4)) (.var 11)) (.lit 28))),
    .st 4 (.padd (.var 22) (.lit 10) 4) (.bin (.bxor .u32) (.var 12) (.bin (.band .u32) (.un (.bnot .u32) (.var 13))
      (.var 14))),
    .st 4 (.padd (.var 22) (.lit 33) 4) (.bin (.bxor .u32) (.var 13) (.bin (.band .u32) (.un (.bnot .u32) (.var 14))
      (.var 15))),
    .st 4 (.padd (.var 22) (.lit 4) 4) (.bin (.bxor .u32) (.var 14) (.bin (.band .u32) (.un (.bnot .u32) (.var 15))
      (.var 16))),
    .st 4 (.padd (.var 22) (.lit 26) 4) (.bin (.bxor .u32) (.var 15) (.bin (.band .u32) (.un (.bnot .u32) (.var 16))
      (.var 12))),
    .st 4 (.padd (.var 22) (.lit 48) 4) (.bin (.bxor .u32) (.var 16) (.bin (.band .u32) (.un (.bnot .u32) (.var 12))
      (.var 13))),
    .asg 13 (.bin (.bxor .u32) (.bin (.shl .u32) (.bin (.bxor .u32) (.ld 4 (.padd (.var 22) (.lit 41) 4)) (.var 2))
      (.lit 18)) (.bin (.shr .u32) (.bin (.bxor .u32) (.ld 4 (.padd (.var 22) (.lit 41) 4)) (.var 2)) (.lit 14))),
    .asg 14 (.bin (.bxor .u32) (.bin (.shl .u32) (.bin (.bxor .u32) (.ld 4 (.padd (.var 22) (.lit 13) 4)) (.var 3))
      (.lit 5)) (.bin (.shr .u32) (.bin (.bxor .u32) (.ld 4 (.padd (.var 22) (.lit 13) 4)) (.var 3)) (.lit 27))),
    .asg 15 (.bin (.bxor .u32) (.bin (.shl .u32) (.bin (.bxor .u32) (.ld 4 (.padd (.var 22) (.lit 35) 4)) (.var 9))
      (.lit 8)) (.bin (.shr .u32) (.bin (.bxor .u32) (.ld 4 (.padd (.var 22) (.lit 35) 4)) (.var 9)) (.lit 24))),
    .asg 16 (.bin (.bxor .u32) (.bin (.shl .u32) (.bin (.bxor .u32) (.ld 4 (.padd (.var 22) (.lit 7) 4)) (.var 5))
      (.lit 28)) (.bin (.shr .u32) (.bin (.bxor .u32) (.ld 4 (.padd (.var 22) (.lit 7) 4)) (.var 5)) (.lit 4))),
    .asg 12 (.bin (.bxor .u32) (.bin (.shl .u32) (.bin (.bxor .u32) (.ld 4 (.padd (.var 22) (.lit 28) 4)) (.var 11))
      (.lit 14)) (.bin (.shr .u32) (.bin (.bxor .u32) (.ld 4 (.padd (.var 22) (.lit 28) 4)) (.var 11)) (.lit 18))),
    .st 4 (.padd (.var 22) (.lit 41) 4) (.bin (.bxor .u32) (.var 12) (.bin (.band .u32) (.un (.bnot .u32) (.var 13))
      (.var 14))),
    .st 4 (.padd (.var 22) (.lit 13) 4) (.bin (.bxor .u32) (.var 13) (.bin (.band .u32) (.un (.bnot .u32) (.var 14))
      (.var 15))),
    .st 4 (.padd (.var 22) (.lit 35) 4) (.bin (.bxor .u32) (.var 14) (.bin (.band .u32) (.un (.bnot .u32) (.var 15))
      (.var 16))),
    .st 4 (.padd (.var 22) (.lit 7) 4) (.bin (.bxor .u32) (.var 15) (.bin (.band .u32) (.un (.bnot .u32) (.var 16))
      (.var 12))),
    .st 4 (.padd (.var 22) (.lit 28) 4) (.bin (.bxor .u32) (.var 16) (.bin (.band .u32) (.un (.bnot .u32) (.var 12))
      (.var 13))),
    .asg 13 (.bin (.bxor .u32) (.bin (.shl .u32) (.bin (.bxor .u32) (.ld 4 (.padd (.var 22) (.lit 40) 4)) (.var 7))
      (.lit 18)) (.bin (.shr .u32) (.bin (.bxor .u32) (.ld 4 (.padd (.var 22) (.lit 40) 4)) (.var 7)) (.lit 14))),
    .asg 14 (.bin (.bxor .u32) (.bin (.shl .u32) (.bin (.bxor .u32) (.ld 4 (.padd (.var 22) (.lit 12) 4)) (.var 8))
      (.lit 5)) (.bin (.shr .u32) (.bin (.bxor .u32) (.ld 4 (.padd (.var 22) (.lit 12) 4)) (.var 8)) (.lit 27))),
    .asg 15 (.bin (.bxor .u32) (.bin (.shl .u32) (.bin (.bxor .u32) (.ld 4 (.padd (.var 22) (.lit 34) 4)) (.var 4))
      (.lit 7)) (.bin (.shr .u32) (.bin (.bxor .u32) (.ld 4 (.padd (.var 22) (.lit 34) 4)) (.var 4)) (.lit 25))),
    .asg 16 (.bin (.bxor .u32) (.bin (.shl .u32) (.bin (.bxor .u32) (.ld 4 (.padd (.var 22) (.lit 6) 4)) (.var 10))
      (.lit 28)) (.bin (.shr .u32) (.bin (.bxor .u32) (.ld 4 (.padd (.var 22) (.lit 6) 4)) (.var 10)) (.lit 4))),
    .asg 12 (.bin (.bxor .u32) (.bin (.shl .u32) (.bin (.bxor .u32) (.ld 4 (.padd (.var 22) (.lit 29) 4)) (.var 6))
      (.lit 13)) (.bin (.shr .u32) (.bin (.bxor .u32) (.ld 4 (.padd (.var 22) (.lit 29) 4)) (.var 6)) (.lit 19))),
    .st 4 (.padd (.var 22) (.lit 40) 4) (.bin (.bxor .u32) (.var 12) (.bin (.band .u32) (.un (.bnot .u32) (.var 13))
      (.var 14))),
    .st 4 (.padd (.var 22) (.lit 12) 4) (.bin (.bxor .u32) (.var 13) (.bin (.band .u32) (.un (.bnot .u32) (.var 14))
      (.var 15))),
    .st 4 (.padd (.var 22) (.lit 34) 4) (.bin (.bxor .u32) (.var 14) (.bin (.band .u32) (.un (.bnot .u32) (.var 15))
      (.var 16))),
    .st 4 (.padd (.var 22) (.lit 6) 4) (.bin (.bxor .u32) (.var 15) (.bin (.band .u32) (.un (.bnot .u32) (.var 16))
      (.var 12))),
    .st 4 (.padd (.var 22) (.lit 29) 4) (.bin (.bxor .u32) (.var 16) (.bin (.band .u32) (.un (.bnot .u32) (.var 12))
      (.var 13))),
    .asg 15 (.bin (.bxor .u32) (.bin (.shl .u32) (.bin (.bxor .u32) (.ld 4 (.padd (.var 22) (.lit 20) 4)) (.var 7))
      (.lit 21)) (.bin (.shr .u32) (.bin (.bxor .u32) (.ld 4 (.padd (.var 22) (.lit 20) 4)) (.var 7)) (.lit 11))),
    .asg 16 (.bin (.bxor .u32) (.bin (.shl .u32) (.bin (.bxor .u32) (.ld 4 (.padd (.var 22) (.lit 42) 4)) (.var 3))
      (.lit 1)) (.bin (.shr .u32) (.bin (.bxor .u32) (.ld 4 (.padd (.var 22) (.lit 42) 4)) (.var 3)) (.lit 31))),
    .asg 12 (.bin (.bxor .u32) (.bin (.shl .u32) (.bin (.bxor .u32) (.ld 4 (.padd (.var 22) (.lit 15) 4)) (.var 4))
      (.lit 31)) (.bin (.shr .u32) (.bin (.bxor .u32) (.ld 4 (.padd (.var 22) (.lit 15) 4)) (.var 4)) (.lit 1))),
    .asg 13 (.bin (.bxor .u32) (.bin (.shl .u32) (.bin (.bxor .u32) (.ld 4 (.padd (.var 22) (.lit 36) 4)) (.var 10))
      (.lit 28)) (.bin (.shr .u32) (.bin (.bxor .u32) (.ld 4 (.padd (.var 22) (.lit 36) 4)) (.var 10)) (.lit 4))),
    .asg 14 (.bin (.bxor .u32) (.bin (.shl .u32) (.bin (.bxor .u32) (.ld 4 (.padd (.var 22) (.lit 8) 4)) (.var 11))
      (.lit 20)) (.bin (.shr .u32) (.bin (.bxor .u32) (.ld 4 (.padd (.var 22) (.lit 8) 4)) (.var 11)) (.lit 12))),
    .st 4 (.padd (.var 22) (.lit 20) 4) (.bin (.bxor .u32) (.var 12) (.bin (.band .u32) (.un (.bnot .u32) (.var 13))
      (.var 14))),
    .st 4 (.padd (.var 22) (.lit 42) 4) (.bin (.bxor .u32) (.var 13) (.bin (.band .u32) (.un (.bnot .u32) (.var 14))
      (.var 15))),
    .st 4 (.padd (.var 22) (.lit 15) 4) (.bin (.bxor .u32) (.var 14) (.bin (.band .u32) (.un (.bnot .u32) (.var 15))
      (.var 16)))]

/-- part of `KeccakP1600_Permute_Nrounds` -/
def KeccakP1600_Permute_Nrounds.part27 : Stmt :=
  block [
    .st 4 (.padd (.var 22) (.lit 36) 4) (.bin (.bxor .u32) (.var 15) (.bin (.band .u32) (.un (.bnot .u32) (.var 16))
      (.var 12))),
    .st 4 (.padd (.var 22) (.lit 8) 4) (.bin (.bxor .u32) (.var 16) (.bin (.band .u32) (.un (.bnot .u32) (.var 12))
      (.var 13))),
    .asg 15 (.bin (.bxor .u32) (.bin (.shl .u32) (.bin (.bxor .u32) (.ld 4 (.padd (.var 22) (.lit 21) 4)) (.var 2))
      (.lit 20)) (.bin (.shr .u32) (.bin (.bxor .u32) (.ld 4 (.padd (.var 22) (.lit 21) 4)) (.var 2)) (.lit 12))),
    .asg 16 (.bin (.bxor .u32) (.bin (.shl .u32) (.bin (.bxor .u32) (.ld 4 (.padd (.var 22) (.lit 43) 4)) (.var 8))
      (.lit 1)) (.bin (.shr .u32) (.bin (.bxor .u32) (.ld 4 (.padd (.var 22) (.lit 43) 4)) (.var 8)) (.lit 31))),
    .asg 12 (.bin (.bxor .u32) (.bin (.shl .u32) (.bin (.bxor .u32) (.ld 4 (.padd (.var 22) (.lit 14) 4)) (.var 9))
      (.lit 31)) (.bin (.shr .u32) (.bin (.bxor .u32) (.ld 4 (.padd (.var 22) (.lit 14) 4)) (.var 9)) (.lit 1))),
    .asg 13 (.bin (.bxor .u32) (.bin (.shl .u32) (.bin (.bxor .u32) (.ld 4 (.padd (.var 22) (.lit 37) 4)) (.var 5))
      (.lit 27)) (.bin (.shr .u32) (.bin (.bxor .u32) (.ld 4 (.padd (.var 22) (.lit 37) 4)) (.var 5)) (.lit 5))),
    .asg 14 (.bin (.bxor .u32) (.bin (.shl .u32) (.bin (.bxor .u32) (.ld 4 (.padd (.var 22) (.lit 9) 4)) (.var 6))
      (.lit 19)) (.bin (.shr .u32) (.bin (.bxor .u32) (.ld 4 (.padd (.var 22) (.lit 9) 4)) (.var 6)) (.lit 13))),
    .st 4 (.padd (.var 22) (.lit 21) 4) (.bin (.bxor .u32) (.var 12) (.bin (.band .u32) (.un (.bnot .u32) (.var 13))
      (.var 14))),
    .st 4 (.padd (.var 22) (.lit 43) 4) (.bin (.bxor .u32) (.var 13) (.bin (.band .u32) (.un (.bnot .u32) (.var 14))
      (.var 15))),
    .st 4 (.padd (.var 22) (.lit 14) 4) (.bin (.bxor .u32) (.var 14) (.bin (.band .u32) (.un (.bnot .u32) (.var 15))
      (.var 16))),
    .st 4 (.padd (.var 22) (.lit 37) 4) (.bin (.bxor .u32) (.var 15) (.bin (.band .u32) (.un (.bnot .u32) (.var 16))
      (.var 12))),
    .st 4 (.padd (.var 22) (.lit 9) 4) (.bin (.bxor .u32) (.var 16) (.bin (.band .u32) (.un (.bnot .u32) (.var 12))
      (.var 13))),
    .asg 17 (.bin (.bxor .u32) (.bin (.bxor .u32) (.bin (.bxor .u32) (.bin (.bxor .u32) (.ld 4 (.padd (.var 22) (.lit
      39) 4)) (.ld 4 (.padd (.var 22) (.lit 18) 4))) (.ld 4 (.padd (.var 22) (.lit 49) 4))) (.ld 4 (.padd (.var 22)
      (.lit 28) 4))) (.ld 4 (.padd (.var 22) (.lit 8) 4))),
    .asg 11 (.bin (.bxor .u32) (.bin (.bxor .u32) (.bin (.bxor .u32) (.bin (.bxor .u32) (.ld 4 (.padd (.var 22) (.lit
      22) 4)) (.ld 4 (.padd (.var 22) (.lit 3) 4))) (.ld 4 (.padd (.var 22) (.lit 33) 4))) (.ld 4 (.padd (.var 22)
      (.lit 12) 4))) (.ld 4 (.padd (.var 22) (.lit 43) 4))),
    .asg 2 (.bin (.bxor .u32) (.var 17) (.bin (.bxor .u32) (.bin (.shl .u32) (.var 11) (.lit 1)) (.bin (.shr .u32)
      (.var 11) (.lit 31)))),
    .asg 19 (.bin (.bxor .u32) (.bin (.bxor .u32) (.bin (.bxor .u32) (.bin (.bxor .u32) (.ld 4 (.padd (.var 22) (.lit
      38) 4)) (.ld 4 (.padd (.var 22) (.lit 19) 4))) (.ld 4 (.padd (.var 22) (.lit 48) 4))) (.ld 4 (.padd (.var 22)
      (.lit 29) 4))) (.ld 4 (.padd (.var 22) (.lit 9) 4))),
    .asg 6 (.bin (.bxor .u32) (.bin (.bxor .u32) (.bin (.bxor .u32) (.bin (.bxor .u32) (.ld 4 (.padd (.var 22) (.lit
      23) 4)) (.ld 4 (.padd (.var 22) (.lit 2) 4))) (.ld 4 (.padd (.var 22) (.lit 32) 4))) (.ld 4 (.padd (.var 22)
      (.lit 13) 4))) (.ld 4 (.padd (.var 22) (.lit 42) 4))),
    .asg 7 (.bin (.bxor .u32) (.var 19) (.var 6)),
    .asg 20 (.bin (.bxor .u32) (.bin (.bxor .u32) (.bin (.bxor .u32) (.bin (.bxor .u32) (.ld 4 (.padd (.var 22) (.lit
      44) 4)) (.ld 4 (.padd (.var 22) (.lit 24) 4))) (.ld 4 (.padd (.var 22) (.lit 5) 4))) (.ld 4 (.padd (.var 22)
      (.lit 35) 4))) (.ld 4 (.padd (.var 22) (.lit 15) 4))),
    .asg 5 (.bin (.bxor .u32) (.var 20) (.bin (.bxor .u32) (.bin (.shl .u32) (.var 19) (.lit 1)) (.bin (.shr .u32)
      (.var 19) (.lit 31)))),
    .asg 18 (.bin (.bxor .u32) (.bin (.bxor .u32) (.bin (.bxor .u32) (.bin (.bxor .u32) (.ld 4 (.padd (.var 22) (.lit
      45) 4)) (.ld 4 (.padd (.var 22) (.lit 25) 4))) (.ld 4 (.padd (.var 22) (.lit 4) 4))) (.ld 4 (.padd (.var 22)
      (.lit 34) 4))) (.ld 4 (.padd (.var 22) (.lit 14) 4))),
    .asg 10 (.bin (.bxor .u32) (.var 18) (.var 17)),
    .asg 17 (.bin (.bxor .u32) (.bin (.bxor .u32) (.bin (.bxor .u32) (.bin (.bxor .u32) (.ld 4 (.var 22)) (.ld 4
      (.padd (.var 22) (.lit 30) 4))) (.ld 4 (.padd (.var 22) (.lit 11) 4))) (.ld 4 (.padd (.var 22) (.lit 41) 4)))
      (.ld 4 (.padd (.var 22) (.lit 20) 4))),
    .asg 3 (.bin (.bxor .u32) (.var 17) (.bin (.bxor .u32) (.bin (.shl .u32) (.var 18) (.lit 1)) (.bin (.shr .u32)
      (.var 18) (.lit 31)))),
    .asg 19 (.bin (.bxor .u32) (.bin (.bxor .u32) (.bin (.bxor .u32) (.bin (.bxor .u32) (.ld 4 (.padd (.var 22) (.lit
      1) 4)) (.ld 4 (.padd (.var 22) (.lit 31) 4))) (.ld 4 (.padd (.var 22) (.lit 10) 4))) (.ld 4 (.padd (.var 22)
      (.lit 40) 4))) (.ld 4 (.padd (.var 22) (.lit 21) 4))),
    .asg 8 (.bin (.bxor .u32) (.var 19) (.var 20)),
    .asg 18 (.bin (.bxor .u32) (.bin (.bxor .u32) (.bin (.bxor .u32) (.bin (.bxor .u32) (.ld 4 (.padd (.var 22) (.lit
      17) 4)) (.ld 4 (.padd (.var 22) (.lit 46) 4))) (.ld 4 (.padd (.var 22) (.lit 26) 4))) (.ld 4 (.padd (.var 22)
      (.lit 6) 4))) (.ld 4 (.padd (.var 22) (.lit 37) 4))),
    .asg 4 (.bin (.bxor .u32) (.var 6) (.bin (.bxor .u32) (.bin (.shl .u32) (.var 18) (.lit 1)) (.bin (.shr .u32)
      (.var 18) (.lit 31)))),
    .asg 20 (.bin (.bxor .u32) (.bin (.bxor .u32) (.bin (.bxor .u32) (.bin (.bxor .u32) (.ld 4 (.padd (.var 22) (.lit
      16) 4)) (.ld 4 (.padd (.var 22) (.lit 47) 4))) (.ld 4 (.padd (.var 22) (.lit 27) 4))) (.ld 4 (.padd (.var 22)
      (.lit 7) 4))) (.ld 4 (.padd (.var 22) (.lit 36) 4))),
    .asg 9 (.bin (.bxor .u32) (.var 11) (.var 20)),
    .asg 6 (.bin (.bxor .u32) (.var 20) (.bin (.bxor .u32) (.bin (.shl .u32) (.var 19) (.lit 1)) (.bin (.shr .u32)
      (.var 19) (.lit 31)))),
    .asg 11 (.bin (.bxor .u32) (.var 18) (.var 17)),
    .asg 12 (.bin (.bxor .u32) (.ld 4 (.var 22)) (.var 2)),
    .asg 13 (.bin (.bxor .u32) (.bin (.shl .u32) (.bin (.bxor .u32) (.ld 4 (.padd (.var 22) (.lit 2) 4)) (.var 3))
      (.lit 22)) (.bin (.shr .u32) (.bin (.bxor .u32) (.ld 4 (.padd (.var 22) (.lit 2) 4)) (.var 3)) (.lit 10))),
    .asg 14 (.bin (.bxor .u32) (.bin (.shl .u32) (.bin (.bxor .u32) (.ld 4 (.padd (.var 22) (.lit 4) 4)) (.var 9))
      (.lit 22)) (.bin (.shr .u32) (.bin (.bxor .u32) (.ld 4 (.padd (.var 22) (.lit 4) 4)) (.var 9)) (.lit 10))),
    .asg 15 (.bin (.bxor .u32) (.bin (.shl .u32) (.bin (.bxor .u32) (.ld 4 (.padd (.var 22) (.lit 6) 4)) (.var 10))
      (.lit 11)) (.bin (.shr .u32) (.bin (.bxor .u32) (.ld 4 (.padd (.var 22) (.lit 6) 4)) (.var 10)) (.lit 21))),
    .asg 16 (.bin (.bxor .u32) (.bin (.shl .u32) (.bin (.bxor .u32) (.ld 4 (.padd (.var 22) (.lit 8) 4)) (.var 6))
      (.lit 7)) (.bin (.shr .u32) (.bin (.bxor .u32) (.ld 4 (.padd (.var 22) (.lit 8) 4)) (.var 6)) (.lit 25))),
    .st 4 (.var 22) (.bin (.bxor .u32) (.var 12) (.bin (.band .u32) (.un (.bnot .u32) (.var 13)) (.var 14))),
    .asg 37 (.var 21),
    .asg 21 (.padd (.var 37) (.lit 1) 4)]

/-- part of `KeccakP1600_Permute_Nrounds` -/
def KeccakP1600_Permute_Nrounds.part28 : Stmt :=
  block [
    .st 4 (.var 22) (.bin (.bxor .u32) (.ld 4 (.var 22)) (.ld 4 (.var 37))),
    .st 4 (.padd (.var 22) (.lit 2) 4) (.bin (.bxor .u32) (.var 13) (.bin (.band .u32) (.un (.bnot .u32) (.var 14))
      (.var 15))),
    .st 4 (.padd (.var 22) (.lit 4) 4) (.bin (.bxor .u32) (.var 14) (.bin (.band .u32) (.un (.bnot .u32) (.var 15))
      (.var 16))),
    .st 4 (.padd (.var 22) (.lit 6) 4) (.bin (.bxor .u32) (.var 15) (.bin (.band .u32) (.un (.bnot .u32) (.var 16))
      (.var 12))),
    .st 4 (.padd (.var 22) (.lit 8) 4) (.bin (.bxor .u32) (.var 16) (.bin (.band .u32) (.un (.bnot .u32) (.var 12))
      (.var 13))),
    .asg 12 (.bin (.bxor .u32) (.ld 4 (.padd (.var 22) (.lit 1) 4)) (.var 7)),
    .asg 13 (.bin (.bxor .u32) (.bin (.shl .u32) (.bin (.bxor .u32) (.ld 4 (.padd (.var 22) (.lit 3) 4)) (.var 8))
      (.lit 22)) (.bin (.shr .u32) (.bin (.bxor .u32) (.ld 4 (.padd (.var 22) (.lit 3) 4)) (.var 8)) (.lit 10))),
    .asg 14 (.bin (.bxor .u32) (.bin (.shl .u32) (.bin (.bxor .u32) (.ld 4 (.padd (.var 22) (.lit 5) 4)) (.var 4))
      (.lit 21)) (.bin (.shr .u32) (.bin (.bxor .u32) (.ld 4 (.padd (.var 22) (.lit 5) 4)) (.var 4)) (.lit 11))),
    .asg 15 (.bin (.bxor .u32) (.bin (.shl .u32) (.bin (.bxor .u32) (.ld 4 (.padd (.var 22) (.lit 7) 4)) (.var 5))
      (.lit 10)) (.bin (.shr .u32) (.bin (.bxor .u32) (.ld 4 (.padd (.var 22) (.lit 7) 4)) (.var 5)) (.lit 22))),
    .asg 16 (.bin (.bxor .u32) (.bin (.shl .u32) (.bin (.bxor .u32) (.ld 4 (.padd (.var 22) (.lit 9) 4)) (.var 11))
      (.lit 7)) (.bin (.shr .u32) (.bin (.bxor .u32) (.ld 4 (.padd (.var 22) (.lit 9) 4)) (.var 11)) (.lit 25))),
    .st 4 (.padd (.var 22) (.lit 1) 4) (.bin (.bxor .u32) (.var 12) (.bin (.band .u32) (.un (.bnot .u32) (.var 13))
      (.var 14))),
    .asg 38 (.var 21),
    .asg 21 (.padd (.var 38) (.lit 1) 4),
    .st 4 (.padd (.var 22) (.lit 1) 4) (.bin (.bxor .u32) (.ld 4 (.padd (.var 22) (.lit 1) 4)) (.ld 4 (.var 38))),
    .st 4 (.padd (.var 22) (.lit 3) 4) (.bin (.bxor .u32) (.var 13) (.bin (.band .u32) (.un (.bnot .u32) (.var 14))
      (.var 15))),
    .st 4 (.padd (.var 22) (.lit 5) 4) (.bin (.bxor .u32) (.var 14) (.bin (.band .u32) (.un (.bnot .u32) (.var 15))
      (.var 16))),
    .st 4 (.padd (.var 22) (.lit 7) 4) (.bin (.bxor .u32) (.var 15) (.bin (.band .u32) (.un (.bnot .u32) (.var 16))
      (.var 12))),
    .st 4 (.padd (.var 22) (.lit 9) 4) (.bin (.bxor .u32) (.var 16) (.bin (.band .u32) (.un (.bnot .u32) (.var 12))
      (.var 13))),
    .asg 14 (.bin (.bxor .u32) (.bin (.shl .u32) (.bin (.bxor .u32) (.ld 4 (.padd (.var 22) (.lit 10) 4)) (.var 7))
      (.lit 2)) (.bin (.shr .u32) (.bin (.bxor .u32) (.ld 4 (.padd (.var 22) (.lit 10) 4)) (.var 7)) (.lit 30))),
    .asg 15 (.bin (.bxor .u32) (.bin (.shl .u32) (.bin (.bxor .u32) (.ld 4 (.padd (.var 22) (.lit 12) 4)) (.var 8))
      (.lit 23)) (.bin (.shr .u32) (.bin (.bxor .u32) (.ld 4 (.padd (.var 22) (.lit 12) 4)) (.var 8)) (.lit 9))),
    .asg 16 (.bin (.bxor .u32) (.bin (.shl .u32) (.bin (.bxor .u32) (.ld 4 (.padd (.var 22) (.lit 14) 4)) (.var 9))
      (.lit 31)) (.bin (.shr .u32) (.bin (.bxor .u32) (.ld 4 (.padd (.var 22) (.lit 14) 4)) (.var 9)) (.lit 1))),
    .asg 12 (.bin (.bxor .u32) (.bin (.shl .u32) (.bin (.bxor .u32) (.ld 4 (.padd (.var 22) (.lit 16) 4)) (.var 5))
      (.lit 14)) (.bin (.shr .u32) (.bin (.bxor .u32) (.ld 4 (.padd (.var 22) (.lit 16) 4)) (.var 5)) (.lit 18))),
    .asg 13 (.bin (.bxor .u32) (.bin (.shl .u32) (.bin (.bxor .u32) (.ld 4 (.padd (.var 22) (.lit 18) 4)) (.var 6))
      (.lit 10)) (.bin (.shr .u32) (.bin (.bxor .u32) (.ld 4 (.padd (.var 22) (.lit 18) 4)) (.var 6)) (.lit 22))),
    .st 4 (.padd (.var 22) (.lit 10) 4) (.bin (.bxor .u32) (.var 12) (.bin (.band .u32) (.un (.bnot .u32) (.var 13))
      (.var 14))),
    .st 4 (.padd (.var 22) (.lit 12) 4) (.bin (.bxor .u32) (.var 13) (.bin (.band .u32) (.un (.bnot .u32) (.var 14))
      (.var 15))),
    .st 4 (.padd (.var 22) (.lit 14) 4) (.bin (.bxor .u32) (.var 14) (.bin (.band .u32) (.un (.bnot .u32) (.var 15))
      (.var 16))),
    .st 4 (.padd (.var 22) (.lit 16) 4) (.bin (.bxor .u32) (.var 15) (.bin (.band .u32) (.un (.bnot .u32) (.var 16))
      (.var 12))),
    .st 4 (.padd (.var 22) (.lit 18) 4) (.bin (.bxor .u32) (.var 16) (.bin (.band .u32) (.un (.bnot .u32) (.var 12))
      (.var 13))),
    .asg 14 (.bin (.bxor .u32) (.bin (.shl .u32) (.bin (.bxor .u32) (.ld 4 (.padd (.var 22) (.lit 11) 4)) (.var 2))
      (.lit 1)) (.bin (.shr .u32) (.bin (.bxor .u32) (.ld 4 (.padd (.var 22) (.lit 11) 4)) (.var 2)) (.lit 31))),
    .asg 15 (.bin (.bxor .u32) (.bin (.shl .u32) (.bin (.bxor .u32) (.ld 4 (.padd (.var 22) (.lit 13) 4)) (.var 3))
      (.lit 22)) (.bin (.shr .u32) (.bin (.bxor .u32) (.ld 4 (.padd (.var 22) (.lit 13) 4)) (.var 3)) (.lit 10))),
    .asg 16 (.bin (.bxor .u32) (.bin (.shl .u32) (.bin (.bxor .u32) (.ld 4 (.padd (.var 22) (.lit 15) 4)) (.var 4))
      (.lit 30)) (.bin (.shr .u32) (.bin (.bxor .u32) (.ld 4 (.padd (.var 22) (.lit 15) 4)) (.var 4)) (.lit 2))),
    .asg 12 (.bin (.bxor .u32) (.bin (.shl .u32) (.bin (.bxor .u32) (.ld 4 (.padd (.var 22) (.lit 17) 4)) (.var 10))
      (.lit 14)) (.bin (.shr .u32) (.bin (.bxor .u32) (.ld 4 (.padd (.var 22) (.lit 17) 4)) (.var 10)) (.lit 18))),
    .asg 13 (.bin (.bxor .u32) (.bin (.shl .u32) (.bin (.bxor .u32) (.ld 4 (.padd (.var 22) (.lit 19) 4)) (.var 11))
      (.lit 10)) (.bin (.shr .u32) (.bin (.bxor .u32) (.ld 4 (.padd (.var 22) (.lit 19) 4)) (.var 11)) (.lit 22))),
    .st 4 (.padd (.var 22) (.lit 11) 4) (.bin (.bxor .u32) (.var 12) (.bin (.band .u32) (.un (.bnot .u32) (.var 13))
      (.var 14))),
    .st 4 (.padd (.var 22) (.lit 13) 4) (.bin (.bxor .u32) (.var 13) (.bin (.band .u32) (.un (.bnot .u32) (.var 14))
      (.var 15))),
    .st 4 (.padd (.var 22) (.lit 15) 4) (.bin (.bxor .u32) (.var 14) (.bin (.band .u32) (.un (.bnot .u32) (.var 15))
      (.var 16))),
    .st 4 (.padd (.var 22) (.lit 17) 4) (.bin (.bxor .u32) (.var 15) (.bin (.band .u32) (.un (.bnot .u32) (.var 16))
      (.var 12))),
    .st 4 (.padd (.var 22) (.lit 19) 4) (.bin (.bxor .u32) (.var 16) (.bin (.band .u32) (.un (.bnot .u32) (.var 12))
      (.var 13))),
    .asg 16 (.bin (.bxor .u32) (.bin (.shl .u32) (.bin (.bxor .u32) (.ld 4 (.padd (.var 22) (.lit 20) 4)) (.var 2))
      (.lit 9)) (.bin (.shr .u32) (.bin (.bxor .u32) (.ld 4 (.padd (.var 22) (.lit 20) 4)) (.var 2)) (.lit 23))),
    .asg 12 (.bin (.bxor .u32) (.bin (.shl .u32) (.bin (.bxor .u32) (.ld 4 (.padd (.var 22) (.lit 22) 4)) (.var 8))
      (.lit 1)) (.bin (.shr .u32) (.bin (.bxor .u32) (.ld 4 (.padd (.var 22) (.lit 22) 4)) (.var 8)) (.lit 31)))]

/-- part of `KeccakP1600_Permute_Nrounds` -/
def KeccakP1600_Permute_Nrounds.part29 : Stmt :=
  block [
    .asg 13 (.bin (.bxor .u32) (.bin (.shl .u32) (.bin (.bxor .u32) (.ld 4 (.padd (.var 22) (.lit 24) 4)) (.var 4))
      (.lit 3)) (.bin (.shr .u32) (.bin (.bxor .u32) (.ld 4 (.padd (.var 22) (.lit 24) 4)) (.var 4)) (.lit 29))),
    .asg 14 (.bin (.bxor .u32) (.bin (.shl .u32) (.bin (.bxor .u32) (.ld 4 (.padd (.var 22) (.lit 26) 4)) (.var 10))
      (.lit 13)) (.bin (.shr .u32) (.bin (.bxor .u32) (.ld 4 (.padd (.var 22) (.lit 26) 4)) (.var 10)) (.lit 19))),
    .asg 15 (.bin (.bxor .u32) (.bin (.shl .u32) (.bin (.bxor .u32) (.ld 4 (.padd (.var 22) (.lit 28) 4)) (.var 6))
      (.lit 4)) (.bin (.shr .u32) (.bin (.bxor .u32) (.ld 4 (.padd (.var 22) (.lit 28) 4)) (.var 6)) (.lit 28))),
    .st 4 (.padd (.var 22) (.lit 20) 4) (.bin (.bxor .u32) (.var 12) (.bin (.band .u32) (.un (.bnot .u32) (.var 13))
      (.var 14))),
    .st 4 (.padd (.var 22) (.lit 22) 4) (.bin (.bxor .u32) (.var 13) (.bin (.band .u32) (.un (.bnot .u32) (.var 14))
      (.var 15))),
    .st 4 (.padd (.var 22) (.lit 24) 4) (.bin (.bxor .u32) (.var 14) (.bin (.band .u32) (.un (.bnot .u32) (.var 15))
      (.var 16))),
    .st 4 (.padd (.var 22) (.lit 26) 4) (.bin (.bxor .u32) (.var 15) (.bin (.band .u32) (.un (.bnot .u32) (.var 16))
      (.var 12))),
    .st 4 (.padd (.var 22) (.lit 28) 4) (.bin (.bxor .u32) (.var 16) (.bin (.band .u32) (.un (.bnot .u32) (.var 12))
      (.var 13))),
    .asg 16 (.bin (.bxor .u32) (.bin (.shl .u32) (.bin (.bxor .u32) (.ld 4 (.padd (.var 22) (.lit 21) 4)) (.var 7))
      (.lit 9)) (.bin (.shr .u32) (.bin (.bxor .u32) (.ld 4 (.padd (.var 22) (.lit 21) 4)) (.var 7)) (.lit 23))),
    .asg 12 (.bin (.bxor .u32) (.ld 4 (.padd (.var 22) (.lit 23) 4)) (.var 3)),
    .asg 13 (.bin (.bxor .u32) (.bin (.shl .u32) (.bin (.bxor .u32) (.ld 4 (.padd (.var 22) (.lit 25) 4)) (.var 9))
      (.lit 3)) (.bin (.shr .u32) (.bin (.bxor .u32) (.ld 4 (.padd (.var 22) (.lit 25) 4)) (.var 9)) (.lit 29))),
    .asg 14 (.bin (.bxor .u32) (.bin (.shl .u32) (.bin (.bxor .u32) (.ld 4 (.padd (.var 22) (.lit 27) 4)) (.var 5))
      (.lit 12)) (.bin (.shr .u32) (.bin (.bxor .u32) (.ld 4 (.padd (.var 22) (.lit 27) 4)) (.var 5)) (.lit 20))),
    .asg 15 (.bin (.bxor .u32) (.bin (.shl .u32) (.bin (.bxor .u32) (.ld 4 (.padd (.var 22) (.lit 29) 4)) (.var 11))
      (.lit 4)) (.bin (.shr .u32) (.bin (.bxor .u32) (.ld 4 (.padd (.var 22) (.lit 29) 4)) (.var 11)) (.lit 28))),
    .st 4 (.padd (.var 22) (.lit 21) 4) (.bin (.bxor .u32) (.var 12) (.bin (.band .u32) (.un (.bnot .u32) (.var 13))
      (.var 14))),
    .st 4 (.padd (.var 22) (.lit 23) 4) (.bin (.bxor .u32) (.var 13) (.bin (.band .u32) (.un (.bnot .u32) (.var 14))
      (.var 15))),
    .st 4 (.padd (.var 22) (.lit 25) 4) (.bin (.bxor .u32) (.var 14) (.bin (.band .u32) (.un (.bnot .u32) (.var 15))
      (.var 16))),
    .st 4 (.padd (.var 22) (.lit 27) 4) (.bin (.bxor .u32) (.var 15) (.bin (.band .u32) (.un (.bnot .u32) (.var 16))
      (.var 12))),
    .st 4 (.padd (.var 22) (.lit 29) 4) (.bin (.bxor .u32) (.var 16) (.bin (.band .u32) (.un (.bnot .u32) (.var 12))
      (.var 13))),
    .asg 13 (.bin (.bxor .u32) (.bin (.shl .u32) (.bin (.bxor .u32) (.ld 4 (.padd (.var 22) (.lit 30) 4)) (.var 2))
      (.lit 18)) (.bin (.shr .u32) (.bin (.bxor .u32) (.ld 4 (.padd (.var 22) (.lit 30) 4)) (.var 2)) (.lit 14))),
    .asg 14 (.bin (.bxor .u32) (.bin (.shl .u32) (.bin (.bxor .u32) (.ld 4 (.padd (.var 22) (.lit 32) 4)) (.var 3))
      (.lit 5)) (.bin (.shr .u32) (.bin (.bxor .u32) (.ld 4 (.padd (.var 22) (.lit 32) 4)) (.var 3)) (.lit 27))),
    .asg 15 (.bin (.bxor .u32) (.bin (.shl .u32) (.bin (.bxor .u32) (.ld 4 (.padd (.var 22) (.lit 34) 4)) (.var 9))
      (.lit 8)) (.bin (.shr .u32) (.bin (.bxor .u32) (.ld 4 (.padd (.var 22) (.lit 34) 4)) (.var 9)) (.lit 24))),
    .asg 16 (.bin (.bxor .u32) (.bin (.shl .u32) (.bin (.bxor .u32) (.ld 4 (.padd (.var 22) (.lit 36) 4)) (.var 5))
      (.lit 28)) (.bin (.shr .u32) (.bin (.bxor .u32) (.ld 4 (.padd (.var 22) (.lit 36) 4)) (.var 5)) (.lit 4))),
    .asg 12 (.bin (.bxor .u32) (.bin (.shl .u32) (.bin (.bxor .u32) (.ld 4 (.padd (.var 22) (.lit 38) 4)) (.var 11))
      (.lit 14)) (.bin (.shr .u32) (.bin (.bxor .u32) (.ld 4 (.padd (.var 22) (.lit 38) 4)) (.var 11)) (.lit 18))),
    .st 4 (.padd (.var 22) (.lit 30) 4) (.bin (.bxor .u32) (.var 12) (.bin (.band .u32) (.un (.bnot .u32) (.var 13))
      (.var 14))),
    .st 4 (.padd (.var 22) (.lit 32) 4) (.bin (.bxor .u32) (.var 13) (.bin (.band .u32) (.un (.bnot .u32) (.var 14))
      (.var 15))),
    .st 4 (.padd (.var 22) (.lit 34) 4) (.bin (.bxor .u32) (.var 14) (.bin (.band .u32) (.un (.bnot .u32) (.var 15))
      (.var 16))),
    .st 4 (.padd (.var 22) (.lit 36) 4) (.bin (.bxor .u32) (.var 15) (.bin (.band .u32) (.un (.bnot .u32) (.var 16))
      (.var 12))),
    .st 4 (.padd (.var 22) (.lit 38) 4) (.bin (.bxor .u32) (.var 16) (.bin (.band .u32) (.un (.bnot .u32) (.var 12))
      (.var 13))),
    .asg 13 (.bin (.bxor .u32) (.bin (.shl .u32) (.bin (.bxor .u32) (.ld 4 (.padd (.var 22) (.lit 31) 4)) (.var 7))
      (.lit 18)) (.bin (.shr .u32) (.bin (.bxor .u32) (.ld 4 (.padd (.var 22) (.lit 31) 4)) (.var 7)) (.lit 14))),
    .asg 14 (.bin (.bxor .u32) (.bin (.shl .u32) (.bin (.bxor .u32) (.ld 4 (.padd (.var 22) (.lit 33) 4)) (.var 8))
      (.lit 5)) (.bin (.shr .u32) (.bin (.bxor .u32) (.ld 4 (.padd (.var 22) (.lit 33) 4)) (.var 8)) (.lit 27))),
    .asg 15 (.bin (.bxor .u32) (.bin (.shl .u32) (.bin (.bxor .u32) (.ld 4 (.padd (.var 22) (.lit 35) 4)) (.var 4))
      (.lit 7)) (.bin (.shr .u32) (.bin (.bxor .u32) (.ld 4 (.padd (.var 22) (.lit 35) 4)) (.var 4)) (.lit 25))),
    .asg 16 (.bin (.bxor .u32) (.bin (.shl .u32) (.bin (.bxor .u32) (.ld 4 (.padd (.var 22) (.lit 37) 4)) (.var 10))
      (.lit 28)) (.bin (.shr .u32) (.bin (.bxor .u32) (.ld 4 (.padd (.var 22) (.lit 37) 4)) (.var 10)) (.lit 4))),
    .asg 12 (.bin (.bxor .u32) (.bin (.shl .u32) (.bin (.bxor .u32) (.ld 4 (.padd (.var 22) (.lit 39) 4)) (.var 6))
      (.lit 13)) (.bin (.shr .u32) (.bin (.bxor .u32) (.ld 4 (.padd (.var 22) (.lit 39) 4)) (.var 6)) (.lit 19))),
    .st 4 (.padd (.var 22) (.lit 31) 4) (.bin (.bxor .u32) (.var 12) (.bin (.band .u32) (.un (.bnot .u32) (.var 13))
      (.var 14))),
    .st 4 (.padd (.var 22) (.lit 33) 4) (.bin (.bxor .u32) (.var 13) (.bin (.band .u32) (.un (.bnot .u32) (.var 14))
      (.var 15))),
    .st 4 (.padd (.var 22) (.lit 35) 4) (.bin (.bxor .u32) (.var 14) (.bin (.band .u32) (.un (.bnot .u32) (.var 15))
      (.var 16))),
    .st 4 (.padd (.var 22) (.lit 37) 4) (.bin (.bxor .u32) (.var 15) (.bin (.band .u32) (.un (.bnot .u32) (.var 16))
      (.var 12))),
    .st 4 (.padd (.var 22) (.lit 39) 4) (.bin (.bxor .u32) (.var 16) (.bin (.band .u32) (.un (.bnot .u32) (.var 12))
      (.var 13))),
    .asg 15 (.bin (.bxor .u32) (.bin (.shl .u32) (.bin (.bxor .u32) (.ld 4 (.padd (.var 22) (.lit 40) 4)) (.var 7))
      (.lit 21)) (.bin (.shr .u32) (.bin (.bxor .u32) (.ld 4 (.padd (.var 22) (.lit 40) 4)) (.var 7)) (.lit 11))),
    .asg 16 (.bin (.bxor .u32) (.bin (.shl .u32) (.bin (.bxor .u32) (.ld 4 (.padd (.var 22) (.lit 42) 4)) (.var 3))
      (.lit 1)) (.bin (.shr .u32) (.bin (.bxor .u32) (.ld 4 (.padd (.var 22) (.lit 42) 4)) (.var 3)) (.lit 31)))]

/-- part of `KeccakP1600_Permute_Nrounds` -/
def KeccakP1600_Permute_Nrounds.part30 : Stmt :=
  block [
    .asg 12 (.bin (.bxor .u32) (.bin (.shl .u32) (.bin (.bxor .u32) (.ld 4 (.padd (.var 22) (.lit 44) 4)) (.var 4))
      (.lit 31)) (.bin (.shr .u32) (.bin (.bxor .u32) (.ld 4 (.padd (.var 22) (.lit 44) 4)) (.var 4)) (.lit 1))),
    .asg 13 (.bin (.bxor .u32) (.bin (.shl .u32) (.bin (.bxor .u32) (.ld 4 (.padd (.var 22) (.lit 46) 4)) (.var 10))
      (.lit 28)) (.bin (.shr .u32) (.bin (.bxor .u32) (.ld 4 (.padd (.var 22) (.lit 46) 4)) (.var 10)) (.lit 4))),
    .asg 14 (.bin (.bxor .u32) (.bin (.shl .u32) (.bin (.bxor .u32) (.ld 4 (.padd (.var 22) (.lit 48) 4)) (.var 11))
      (.lit 20)) (.bin (.shr .u32) (.bin (.bxor .u32) (.ld 4 (.padd (.var 22) (.lit 48) 4)) (.var 11)) (.lit 12))),
    .st 4 (.padd (.var 22) (.lit 40) 4) (.bin (.bxor .u32) (.var 12) (.bin (.band .u32) (.un (.bnot .u32) (.var 13))
      (.var 14))),
    .st 4 (.padd (.var 22) (.lit 42) 4) (.bin (.bxor .u32) (.var 13) (.bin (.band .u32) (.un (.bnot .u32) (.var 14))
      (.var 15))),
    .st 4 (.padd (.var 22) (.lit 44) 4) (.bin (.bxor .u32) (.var 14) (.bin (.band .u32) (.un (.bnot .u32) (.var 15))
      (.var 16))),
    .st 4 (.padd (.var 22) (.lit 46) 4) (.bin (.bxor .u32) (.var 15) (.bin (.band .u32) (.un (.bnot .u32) (.var 16))
      (.var 12))),
    .st 4 (.padd (.var 22) (.lit 48) 4) (.bin (.bxor .u32) (.var 16) (.bin (.band .u32) (.un (.bnot .u32) (.var 12))
      (.var 13))),
    .asg 15 (.bin (.bxor .u32) (.bin (.shl .u32) (.bin (.bxor .u32) (.ld 4 (.padd (.var 22) (.lit 41) 4)) (.var 2))
      (.lit 20)) (.bin (.shr .u32) (.bin (.bxor .u32) (.ld 4 (.padd (.var 22) (.lit 41) 4)) (.var 2)) (.lit 12))),
    .asg 16 (.bin (.bxor .u32) (.bin (.shl .u32) (.bin (.bxor .u32) (.ld 4 (.padd (.var 22) (.lit 43) 4)) (.var 8))
      (.lit 1)) (.bin (.shr .u32) (.bin (.bxor .u32) (.ld 4 (.padd (.var 22) (.lit 43) 4)) (.var 8)) (.lit 31))),
    .asg 12 (.bin (.bxor .u32) (.bin (.shl .u32) (.bin (.bxor .u32) (.ld 4 (.padd (.var 22) (.lit 45) 4)) (.var 9))
      (.lit 31)) (.bin (.shr .u32) (.bin (.bxor .u32) (.ld 4 (.padd (.var 22) (.lit 45) 4)) (.var 9)) (.lit 1))),
    .asg 13 (.bin (.bxor .u32) (.bin (.shl .u32) (.bin (.bxor .u32) (.ld 4 (.padd (.var 22) (.lit 47) 4)) (.var 5))
      (.lit 27)) (.bin (.shr .u32) (.bin (.bxor .u32) (.ld 4 (.padd (.var 22) (.lit 47) 4)) (.var 5)) (.lit 5))),
    .asg 14 (.bin (.bxor .u32) (.bin (.shl .u32) (.bin (.bxor .u32) (.ld 4 (.padd (.var 22) (.lit 49) 4)) (.var 6))
      (.lit 19)) (.bin (.shr .u32) (.bin (.bxor .u32) (.ld 4 (.padd (.var 22) (.lit 49) 4)) (.var 6)) (.lit 13))),
    .st 4 (.padd (.var 22) (.lit 41) 4) (.bin (.bxor .u32) (.var 12) (.bin (.band .u32) (.un (.bnot .u32) (.var 13))
      (.var 14))),
    .st 4 (.padd (.var 22) (.lit 43) 4) (.bin (.bxor .u32) (.var 13) (.bin (.band .u32) (.un (.bnot .u32) (.var 14))
      (.var 15))),
    .st 4 (.padd (.var 22) (.lit 45) 4) (.bin (.bxor .u32) (.var 14) (.bin (.band .u32) (.un (.bnot .u32) (.var 15))
      (.var 16))),
    .st 4 (.padd (.var 22) (.lit 47) 4) (.bin (.bxor .u32) (.var 15) (.bin (.band .u32) (.un (.bnot .u32) (.var 16))
      (.var 12))),
    .st 4 (.padd (.var 22) (.lit 49) 4) (.bin (.bxor .u32) (.var 16) (.bin (.band .u32) (.un (.bnot .u32) (.var 12))
      (.var 13)))]

/-- part of `KeccakP1600_Permute_Nrounds` -/
def KeccakP1600_Permute_Nrounds.part31 : Stmt :=
  block [
    .asg 17 (.bin (.bxor .u32) (.bin (.bxor .u32) (.bin (.bxor .u32) (.bin (.bxor .u32) (.ld 4 (.padd (.var 22) (.lit
      29) 4)) (.ld 4 (.padd (.var 22) (.lit 18) 4))) (.ld 4 (.padd (.var 22) (.lit 9) 4))) (.ld 4 (.padd (.var 22)
      (.lit 49) 4))) (.ld 4 (.padd (.var 22) (.lit 39) 4))),
    .asg 11 (.bin (.bxor .u32) (.bin (.bxor .u32) (.bin (.bxor .u32) (.bin (.bxor .u32) (.ld 4 (.padd (.var 22) (.lit
      32) 4)) (.ld 4 (.padd (.var 22) (.lit 22) 4))) (.ld 4 (.padd (.var 22) (.lit 12) 4))) (.ld 4 (.padd (.var 22)
      (.lit 2) 4))) (.ld 4 (.padd (.var 22) (.lit 43) 4))),
    .asg 2 (.bin (.bxor .u32) (.var 17) (.bin (.bxor .u32) (.bin (.shl .u32) (.var 11) (.lit 1)) (.bin (.shr .u32)
      (.var 11) (.lit 31)))),
    .asg 19 (.bin (.bxor .u32) (.bin (.bxor .u32) (.bin (.bxor .u32) (.bin (.bxor .u32) (.ld 4 (.padd (.var 22) (.lit
      28) 4)) (.ld 4 (.padd (.var 22) (.lit 19) 4))) (.ld 4 (.padd (.var 22) (.lit 8) 4))) (.ld 4 (.padd (.var 22)
      (.lit 48) 4))) (.ld 4 (.padd (.var 22) (.lit 38) 4))),
    .asg 6 (.bin (.bxor .u32) (.bin (.bxor .u32) (.bin (.bxor .u32) (.bin (.bxor .u32) (.ld 4 (.padd (.var 22) (.lit
      33) 4)) (.ld 4 (.padd (.var 22) (.lit 23) 4))) (.ld 4 (.padd (.var 22) (.lit 13) 4))) (.ld 4 (.padd (.var 22)
      (.lit 3) 4))) (.ld 4 (.padd (.var 22) (.lit 42) 4))),
    .asg 7 (.bin (.bxor .u32) (.var 19) (.var 6)),
    .asg 20 (.bin (.bxor .u32) (.bin (.bxor .u32) (.bin (.bxor .u32) (.bin (.bxor .u32) (.ld 4 (.padd (.var 22) (.lit
      15) 4)) (.ld 4 (.padd (.var 22) (.lit 5) 4))) (.ld 4 (.padd (.var 22) (.lit 45) 4))) (.ld 4 (.padd (.var 22)
      (.lit 34) 4))) (.ld 4 (.padd (.var 22) (.lit 25) 4))),
    .asg 5 (.bin (.bxor .u32) (.var 20) (.bin (.bxor .u32) (.bin (.shl .u32) (.var 19) (.lit 1)) (.bin (.shr .u32)
      (.var 19) (.lit 31)))),
    .asg 18 (.bin (.bxor .u32) (.bin (.bxor .u32) (.bin (.bxor .u32) (.bin (.bxor .u32) (.ld 4 (.padd (.var 22) (.lit
      14) 4)) (.ld 4 (.padd (.var 22) (.lit 4) 4))) (.ld 4 (.padd (.var 22) (.lit 44) 4))) (.ld 4 (.padd (.var 22)
      (.lit 35) 4))) (.ld 4 (.padd (.var 22) (.lit 24) 4))),
    .asg 10 (.bin (.bxor .u32) (.var 18) (.var 17)),
    .asg 17 (.bin (.bxor .u32) (.bin (.bxor .u32) (.bin (.bxor .u32) (.bin (.bxor .u32) (.ld 4 (.var 22)) (.ld 4
      (.padd (.var 22) (.lit 41) 4))) (.ld 4 (.padd (.var 22) (.lit 31) 4))) (.ld 4 (.padd (.var 22) (.lit 21) 4)))
      (.ld 4 (.padd (.var 22) (.lit 11) 4))),
    .asg 3 (.bin (.bxor .u32) (.var 17) (.bin (.bxor .u32) (.bin (.shl .u32) (.var 18) (.lit 1)) (.bin (.shr .u32)
      (.var 18) (.lit 31)))),
    .asg 19 (.bin (.bxor .u32) (.bin (.bxor .u32) (.bin (.bxor .u32) (.bin (.bxor .u32) (.ld 4 (.padd (.var 22) (.lit
      1) 4)) (.ld 4 (.padd (.var 22) (.lit 40) 4))) (.ld 4 (.padd (.var 22) (.lit 30) 4))) (.ld 4 (.padd (.var 22)
      (.lit 20) 4))) (.ld 4 (.padd (.var 22) (.lit 10) 4))),
    .asg 8 (.bin (.bxor .u32) (.var 19) (.var 20)),
    .asg 18 (.bin (.bxor .u32) (.bin (.bxor .u32) (.bin (.bxor .u32) (.bin (.bxor .u32) (.ld 4 (.padd (.var 22) (.lit
      46) 4)) (.ld 4 (.padd (.var 22) (.lit 36) 4))) (.ld 4 (.padd (.var 22) (.lit 27) 4))) (.ld 4 (.padd (.var 22)
      (.lit 16) 4))) (.ld 4 (.padd (.var 22) (.lit 6) 4))),
    .asg 4 (.bin (.bxor .u32) (.var 6) (.bin (.bxor .u32) (.bin (.shl .u32) (.var 18) (.lit 1)) (.bin (.shr .u32)
      (.var 18) (.lit 31)))),
    .asg 20 (.bin (.bxor .u32) (.bin (.bxor .u32) (.bin (.bxor .u32) (.bin (.bxor .u32) (.ld 4 (.padd (.var 22) (.lit
      47) 4)) (.ld 4 (.padd (.var 22) (.lit 37) 4))) (.ld 4 (.padd (.var 22) (.lit 26) 4))) (.ld 4 (.padd (.var 22)
      (.lit 17) 4))) (.ld 4 (.padd (.var 22) (.lit 7) 4))),
    .asg 9 (.bin (.bxor .u32) (.var 11) (.var 20)),
    .asg 6 (.bin (.bxor .u32) (.var 20) (.bin (.bxor .u32) (.bin (.shl .u32) (.var 19) (.lit 1)) (.bin (.shr .u32)
      (.var 19) (.lit 31)))),
    .asg 11 (.bin (.bxor .u32) (.var 18) (.var 17)),
    .asg 12 (.bin (.bxor .u32) (.ld 4 (.var 22)) (.var 2)),
    .asg 13 (.bin (.bxor .u32) (.bin (.shl .u32) (.bin (.bxor .u32) (.ld 4 (.padd (.var 22) (.lit 23) 4)) (.var 3))
      (.lit 22)) (.bin (.shr .u32) (.bin (.bxor .u32) (.ld 4 (.padd (.var 22) (.lit 23) 4)) (.var 3)) (.lit 10))),
    .asg 14 (.bin (.bxor .u32) (.bin (.shl .u32) (.bin (.bxor .u32) (.ld 4 (.padd (.var 22) (.lit 44) 4)) (.var 9))
      (.lit 22)) (.bin (.shr .u32) (.bin (.bxor .u32) (.ld 4 (.padd (.var 22) (.lit 44) 4)) (.var 9)) (.lit 10))),
    .asg 15 (.bin (.bxor .u32) (.bin (.shl .u32) (.bin (.bxor .u32) (.ld 4 (.padd (.var 22) (.lit 16) 4)) (.var 10))
      (.lit 11)) (.bin (.shr .u32) (.bin (.bxor .u32) (.ld 4 (.padd (.var 22) (.lit 16) 4)) (.var 10)) (.lit 21))),
    .asg 16 (.bin (.bxor .u32) (.bin (.shl .u32) (.bin (.bxor .u32) (.ld 4 (.padd (.var 22) (.lit 39) 4)) (.var 6))
      (.lit 7)) (.bin (.shr .u32) (.bin (.bxor .u32) (.ld 4 (.padd (.var 22) (.lit 39) 4)) (.var 6)) (.lit 25))),
    .st 4 (.var 22) (.bin (.bxor .u32) (.var 12) (.bin (.band .u32) (.un (.bnot .u32) (.var 13)) (.var 14))),
    .asg 39 (.var 21),
    .asg 21 (.padd (.var 39) (.lit 1) 4),
    .st 4 (.var 22) (.bin (.bxor .u32) (.ld 4 (.var 22)) (.ld 4 (.var 39))),
    .st 4 (.padd (.var 22) (.lit 23) 4) (.bin (.bxor .u32) (.var 13) (.bin (.band .u32) (.un (.bnot .u32) (.var 14))
      (.var 15))),
    .st 4 (.padd (.var 22) (.lit 44) 4) (.bin (.bxor .u32) (.var 14) (.bin (.band .u32) (.un (.bnot .u32) (.var 15))
      (.var 16))),
    .st 4 (.padd (.var 22) (.lit 16) 4) (.bin (.bxor .u32) (.var 15) (.bin (.band .u32) (.un (.bnot .u32) (.var 16))
      (.var 12))),
    .st 4 (.padd (.var 22) (.lit 39) 4) (.bin (.bxor .u32) (.var 16) (.bin (.band .u32) (.un (.bnot .u32) (.var 12))
      (.var 13))),
    .asg 12 (.bin (.bxor .u32) (.ld 4 (.padd (.var 22) (.lit 1) 4)) (.var 7)),
    .asg 13 (.bin (.bxor .u32) (.bin (.shl .u32) (.bin (.bxor .u32) (.ld 4 (.padd (.var 22) (.lit 22) 4)) (.var 8))
      (.lit 22)) (.bin (.shr .u32) (.bin (.bxor .u32) (.ld 4 (.padd (.var 22) (.lit 22) 4)) (.var 8)) (.lit 10))),
    .asg 14 (.bin (.bxor .u32) (.bin (.shl .u32) (.bin (.bxor .u32) (.ld 4 (.padd (.var 22) (.lit 45) 4)) (.var 4))
      (.lit 21)) (.bin (.shr .u32) (.bin (.bxor .u32) (.ld 4 (.padd (.var 22) (.lit 45) 4)) (.var 4)) (.lit 11))),
    .asg 15 (.bin (.bxor .u32) (.bin (.shl .u32) (.bin (.bxor .u32) (.ld 4 (.padd (.var 22) (.lit 17) 4)) (.var 5))
      (.lit 10)) (.bin (.shr .u32) (.bin (.bxor .u32) (.ld 4 (.padd (.var 22) (.lit 17) 4)) (.var 5)) (.lit 22))),
    .asg 16 (.bin (.bxor .u32) (.bin (.shl .u32) (.bin (.bxor .u32) (.ld 4 (.padd (.var 22) (.lit 38) 4)) (.var 11))
      (.lit 7)) (.bin (.shr .u32) (.bin (.bxor .u32) (.ld 4 (.padd (.var 22) (.lit 38) 4)) (.var 11)) (.lit 25))),
    .st 4 (.padd (.var 22) (.lit 1) 4) (.bin (.bxor .u32) (.var 12) (.bin (.band .u32) (.un (.bnot .u32) (.var 13))
      (.var 14))),
    .asg 40 (.var 21)]

/-- part of `KeccakP1600_Permute_Nrounds` -/
def KeccakP1600_Permute_Nrounds.part32 : Stmt :=
  block [
    .asg 21 (.padd (.var 40) (.lit 1) 4),
    .st 4 (.padd (.var 22) (.lit 1) 4) (.bin (.bxor .u32) (.ld 4 (.padd (.var 22) (.lit 1) 4)) (.ld 4 (.var 40))),
    .st 4 (.padd (.var 22) (.lit 22) 4) (.bin (.bxor .u32) (.var 13) (.bin (.band .u32) (.un (.bnot .u32) (.var 14))
      (.var 15))),
    .st 4 (.padd (.var 22) (.lit 45) 4) (.bin (.bxor .u32) (.var 14) (.bin (.band .u32) (.un (.bnot .u32) (.var 15))
      (.var 16))),
    .st 4 (.padd (.var 22) (.lit 17) 4) (.bin (.bxor .u32) (.var 15) (.bin (.band .u32) (.un (.bnot .u32) (.var 16))
      (.var 12))),
    .st 4 (.padd (.var 22) (.lit 38) 4) (.bin (.bxor .u32) (.var 16) (.bin (.band .u32) (.un (.bnot .u32) (.var 12))
      (.var 13))),
    .asg 14 (.bin (.bxor .u32) (.bin (.shl .u32) (.bin (.bxor .u32) (.ld 4 (.padd (.var 22) (.lit 30) 4)) (.var 7))
      (.lit 2)) (.bin (.shr .u32) (.bin (.bxor .u32) (.ld 4 (.padd (.var 22) (.lit 30) 4)) (.var 7)) (.lit 30))),
    .asg 15 (.bin (.bxor .u32) (.bin (.shl .u32) (.bin (.bxor .u32) (.ld 4 (.padd (.var 22) (.lit 2) 4)) (.var 8))
      (.lit 23)) (.bin (.shr .u32) (.bin (.bxor .u32) (.ld 4 (.padd (.var 22) (.lit 2) 4)) (.var 8)) (.lit 9))),
    .asg 16 (.bin (.bxor .u32) (.bin (.shl .u32) (.bin (.bxor .u32) (.ld 4 (.padd (.var 22) (.lit 24) 4)) (.var 9))
      (.lit 31)) (.bin (.shr .u32) (.bin (.bxor .u32) (.ld 4 (.padd (.var 22) (.lit 24) 4)) (.var 9)) (.lit 1))),
    .asg 12 (.bin (.bxor .u32) (.bin (.shl .u32) (.bin (.bxor .u32) (.ld 4 (.padd (.var 22) (.lit 47) 4)) (.var 5))
      (.lit 14)) (.bin (.shr .u32) (.bin (.bxor .u32) (.ld 4 (.padd (.var 22) (.lit 47) 4)) (.var 5)) (.lit 18))),
    .asg 13 (.bin (.bxor .u32) (.bin (.shl .u32) (.bin (.bxor .u32) (.ld 4 (.padd (.var 22) (.lit 18) 4)) (.var 6))
      (.lit 10)) (.bin (.shr .u32) (.bin (.bxor .u32) (.ld 4 (.padd (.var 22) (.lit 18) 4)) (.var 6)) (.lit 22))),
    .st 4 (.padd (.var 22) (.lit 30) 4) (.bin (.bxor .u32) (.var 12) (.bin (.band .u32) (.un (.bnot .u32) (.var 13))
      (.var 14))),
    .st 4 (.padd (.var 22) (.lit 2) 4) (.bin (.bxor .u32) (.var 13) (.bin (.band .u32) (.un (.bnot .u32) (.var 14))
      (.var 15))),
    .st 4 (.padd (.var 22) (.lit 24) 4) (.bin (.bxor .u32) (.var 14) (.bin (.band .u32) (.un (.bnot .u32) (.var 15))
      (.var 16))),
    .st 4 (.padd (.var 22) (.lit 47) 4) (.bin (.bxor .u32) (.var 15) (.bin (.band .u32) (.un (.bnot .u32) (.var 16))
      (.var 12))),
    .st 4 (.padd (.var 22) (.lit 18) 4) (.bin (.bxor .u32) (.var 16) (.bin (.band .u32) (.un (.bnot .u32) (.var 12))
      (.var 13))),
    .asg 14 (.bin (.bxor .u32) (.bin (.shl .u32) (.bin (.bxor .u32) (.ld 4 (.padd (.var 22) (.lit 31) 4)) (.var 2))
      (.lit 1)) (.bin (.shr .u32) (.bin (.bxor .u32) (.ld 4 (.padd (.var 22) (.lit 31) 4)) (.var 2)) (.lit 31))),
    .asg 15 (.bin (.bxor .u32) (.bin (.shl .u32) (.bin (.bxor .u32) (.ld 4 (.padd (.var 22) (.lit 3) 4)) (.var 3))
      (.lit 22)) (.bin (.shr .u32) (.bin (.bxor .u32) (.ld 4 (.padd (.var 22) (.lit 3) 4)) (.var 3)) (.lit 10))),
    .asg 16 (.bin (.bxor .u32) (.bin (.shl .u32) (.bin (.bxor .u32) (.ld 4 (.padd (.var 22) (.lit 25) 4)) (.var 4))
      (.lit 30)) (.bin (.shr .u32) (.bin (.bxor .u32) (.ld 4 (.padd (.var 22) (.lit 25) 4)) (.var 4)) (.lit 2))),
    .asg 12 (.bin (.bxor .u32) (.bin (.shl .u32) (.bin (.bxor .u32) (.ld 4 (.padd (.var 22) (.lit 46) 4)) (.var 10))
      (.lit 14)) (.bin (.shr .u32) (.bin (.bxor .u32) (.ld 4 (.padd (.var 22) (.lit 46) 4)) (.var 10)) (.lit 18))),
    .asg 13 (.bin (.bxor .u32) (.bin (.shl .u32) (.bin (.bxor .u32) (.ld 4 (.padd (.var 22) (.lit 19) 4)) (.var 11))
      (.lit 10)) (.bin (.shr .u32) (.bin (.bxor .u32) (.ld 4 (.padd (.var 22) (.lit 19) 4)) (.var 11)) (.lit 22))),
    .st 4 (.padd (.var 22) (.lit 31) 4) (.bin (.bxor .u32) (.var 12) (.bin (.band .u32) (.un (.bnot .u32) (.var 13))
      (.var 14))),
    .st 4 (.padd (.var 22) (.lit 3) 4) (.bin (.bxor .u32) (.var 13) (.bin (.band .u32) (.un (.bnot .u32) (.var 14))
      (.var 15))),
    .st 4 (.padd (.var 22) (.lit 25) 4) (.bin (.bxor .u32) (.var 14) (.bin (.band .u32) (.un (.bnot .u32) (.var 15))
      (.var 16))),
    .st 4 (.padd (.var 22) (.lit 46) 4) (.bin (.bxor .u32) (.var 15) (.bin (.band .u32) (.un (.bnot .u32) (.var 16))
      (.var 12))),
    .st 4 (.padd (.var 22) (.lit 19) 4) (.bin (.bxor .u32) (.var 16) (.bin (.band .u32) (.un (.bnot .u32) (.var 12))
      (.var 13))),
    .asg 16 (.bin (.bxor .u32) (.bin (.shl .u32) (.bin (.bxor .u32) (.ld 4 (.padd (.var 22) (.lit 11) 4)) (.var 2))
      (.lit 9)) (.bin (.shr .u32) (.bin (.bxor .u32) (.ld 4 (.padd (.var 22) (.lit 11) 4)) (.var 2)) (.lit 23))),
    .asg 12 (.bin (.bxor .u32) (.bin (.shl .u32) (.bin (.bxor .u32) (.ld 4 (.padd (.var 22) (.lit 32) 4)) (.var 8))
      (.lit 1)) (.bin (.shr .u32) (.bin (.bxor .u32) (.ld 4 (.padd (.var 22) (.lit 32) 4)) (.var 8)) (.lit 31))),
    .asg 13 (.bin (.bxor .u32) (.bin (.shl .u32) (.bin (.bxor .u32) (.ld 4 (.padd (.var 22) (.lit 5) 4)) (.var 4))
      (.lit 3)) (.bin (.shr .u32) (.bin (.bxor .u32) (.ld 4 (.padd (.var 22) (.lit 5) 4)) (.var 4)) (.lit 29))),
    .asg 14 (.bin (.bxor .u32) (.bin (.shl .u32) (.bin (.bxor .u32) (.ld 4 (.padd (.var 22) (.lit 27) 4)) (.var 10))
      (.lit 13)) (.bin (.shr .u32) (.bin (.bxor .u32) (.ld 4 (.padd (.var 22) (.lit 27) 4)) (.var 10)) (.lit 19))),
    .asg 15 (.bin (.bxor .u32) (.bin (.shl .u32) (.bin (.bxor .u32) (.ld 4 (.padd (.var 22) (.lit 49) 4)) (.var 6))
      (.lit 4)) (.bin (.shr .u32) (.bin (.bxor .u32) (.ld 4 (.padd (.var 22) (.lit 49) 4)) (.var 6)) (.lit 28))),
    .st 4 (.padd (.var 22) (.lit 11) 4) (.bin (.bxor .u32) (.var 12) (.bin (.band .u32) (.un (.bnot .u32) (.var 13))
      (.var 14))),
    .st 4 (.padd (.var 22) (.lit 32) 4) (.bin (.bxor .u32) (.var 13) (.bin (.band .u32) (.un (.bnot .u32) (.var 14))
      (.var 15))),
    .st 4 (.padd (.var 22) (.lit 5) 4) (.bin (.bxor .u32) (.var 14) (.bin (.band .u32) (.un (.bnot .u32) (.var 15))
      (.var 16))),
    .st 4 (.padd (.var 22) (.lit 27) 4) (.bin (.bxor .u32) (.var 15) (.bin (.band .u32) (.un (.bnot .u32) (.var 16))
      (.var 12))),
    .st 4 (.padd (.var 22) (.lit 49) 4) (.bin (.bxor .u32) (.var 16) (.bin (.band .u32) (.un (.bnot .u32) (.var 12))
      (.var 13))),
    .asg 16 (.bin (.bxor .u32) (.bin (.shl .u32) (.bin (.bxor .u32) (.ld 4 (.padd (.var 22) (.lit 10) 4)) (.var 7))
      (.lit 9)) (.bin (.shr .u32) (.bin (.bxor .u32) (.ld 4 (.padd (.var 22) (.lit 10) 4)) (.var 7)) (.lit 23))),
    .asg 12 (.bin (.bxor .u32) (.ld 4 (.padd (.var 22) (.lit 33) 4)) (.var 3)),
    .asg 13 (.bin (.bxor .u32) (.bin (.shl .u32) (.bin (.bxor .u32) (.ld 4 (.padd (.var 22) (.lit 4) 4)) (.var 9))
      (.lit 3)) (.bin (.shr .u32) (.bin (.bxor .u32) (.ld 4 (.padd (.var 22) (.lit 4) 4)) (.var 9)) (.lit 29))),
    .asg 14 (.bin (.bxor .u32) (.bin (.shl .u32) (.bin (.bxor .u32) (.ld 4 (.padd (.var 22) (.lit 26) 4)) (.var 5))
      (.lit 12)) (.bin (.shr .u32) (.bin (.bxor .u32) (.ld 4 (.padd (.var 22) (.lit 26) 4)) (.var 5)) (.lit 20)))]

/-- part of `KeccakP1600_Permute_Nrounds` -/
def KeccakP1600_Permute_Nrounds.part33 : Stmt :=
  block [
    .asg 15 (.bin (.bxor .u32) (.bin (.shl .u32) (.bin (.bxor .u32) (.ld 4 (.padd (.var 22) (.lit 48) 4)) (.var 11))
      (.lit 4)) (.bin (.shr .u32) (.bin (.bxor .u32) (.ld 4 (.padd (.var 22) (.lit 48) 4)) (.var 11)) (.lit 28))),
    .st 4 (.padd (.var 22) (.lit 10) 4) (.bin (.bxor .u32) (.var 12) (.bin (.band .u32) (.un (.bnot .u32) (.var 13))
      (.var 14))),
    .st 4 (.padd (.var 22) (.lit 33) 4) (.bin (.bxor .u32) (.var 13) (.bin (.band .u32) (.un (.bnot .u32) (.var 14))
      (.var 15))),
    .st 4 (.padd (.var 22) (.lit 4) 4) (.bin (.bxor .u32) (.var 14) (.bin (.band .u32) (.un (.bnot .u32) (.var 15))
      (.var 16))),
    .st 4 (.padd (.var 22) (.lit 26) 4) (.bin (.bxor .u32) (.var 15) (.bin (.band .u32) (.un (.bnot .u32) (.var 16))
      (.var 12))),
    .st 4 (.padd (.var 22) (.lit 48) 4) (.bin (.bxor .u32) (.var 16) (.bin (.band .u32) (.un (.bnot .u32) (.var 12))
      (.var 13))),
    .asg 13 (.bin (.bxor .u32) (.bin (.shl .u32) (.bin (.bxor .u32) (.ld 4 (.padd (.var 22) (.lit 41) 4)) (.var 2))
      (.lit 18)) (.bin (.shr .u32) (.bin (.bxor .u32) (.ld 4 (.padd (.var 22) (.lit 41) 4)) (.var 2)) (.lit 14))),
    .asg 14 (.bin (.bxor .u32) (.bin (.shl .u32) (.bin (.bxor .u32) (.ld 4 (.padd (.var 22) (.lit 13) 4)) (.var 3))
      (.lit 5)) (.bin (.shr .u32) (.bin (.bxor .u32) (.ld 4 (.padd (.var 22) (.lit 13) 4)) (.var 3)) (.lit 27))),
    .asg 15 (.bin (.bxor .u32) (.bin (.shl .u32) (.bin (.bxor .u32) (.ld 4 (.padd (.var 22) (.lit 35) 4)) (.var 9))
      (.lit 8)) (.bin (.shr .u32) (.bin (.bxor .u32) (.ld 4 (.padd (.var 22) (.lit 35) 4)) (.var 9)) (.lit 24))),
    .asg 16 (.bin (.bxor .u32) (.bin (.shl .u32) (.bin (.bxor .u32) (.ld 4 (.padd (.var 22) (.lit 7) 4)) (.var 5))
      (.lit 28)) (.bin (.shr .u32) (.bin (.bxor .u32) (.ld 4 (.padd (.var 22) (.lit 7) 4)) (.var 5)) (.lit 4))),
    .asg 12 (.bin (.bxor .u32) (.bin (.shl .u32) (.bin (.bxor .u32) (.ld 4 (.padd (.var 22) (.lit 28) 4)) (.var 11))
      (.lit 14)) (.bin (.shr .u32) (.bin (.bxor .u32) (.ld 4 (.padd (.var 22) (.lit 28) 4)) (.var 11)) (.lit 18))),
    .st 4 (.padd (.var 22) (.lit 41) 4) (.bin (.bxor .u32) (.var 12) (.bin (.band .u32) (.un (.bnot .u32) (.var 13))
      (.var 14))),
    .st 4 (.padd (.var 22) (.lit 13) 4) (.bin (.bxor .u32) (.var 13) (.bin (.band .u32) (.un (.bnot .u32) (.var 14))
      (.var 15))),
    .st 4 (.padd (.var 22) (.lit 35) 4) (.bin (.bxor .u32) (.var 14) (.bin (.band .u32) (.un (.bnot .u32) (.var 15))
      (.var 16))),
    .st 4 (.padd (.var 22) (.lit 7) 4) (.bin (.bxor .u32) (.var 15) (.bin (.band .u32) (.un (.bnot .u32) (.var 16))
      (.var 12))),
    .st 4 (.padd (.var 22) (.lit 28) 4) (.bin (.bxor .u32) (.var 16) (.bin (.band .u32) (.un (.bnot .u32) (.var 12))
      (.var 13))),
    .asg 13 (.bin (.bxor .u32) (.bin (.shl .u32) (.bin (.bxor .u32) (.ld 4 (.padd (.var 22) (.lit 40) 4)) (.var 7))
      (.lit 18)) (.bin (.shr .u32) (.bin (.bxor .u32) (.ld 4 (.padd (.var 22) (.lit 40) 4)) (.var 7)) (.lit 14))),
    .asg 14 (.bin (.bxor .u32) (.bin (.shl .u32) (.bin (.bxor .u32) (.ld 4 (.padd (.var 22) (.lit 12) 4)) (.var 8))
      (.lit 5)) (.bin (.shr .u32) (.bin (.bxor .u32) (.ld 4 (.padd (.var 22) (.lit 12) 4)) (.var 8)) (.lit 27))),
    .asg 15 (.bin (.bxor .u32) (.bin (.shl .u32) (.bin (.bxor .u32) (.ld 4 (.padd (.var 22) (.lit 34) 4)) (.var 4))
      (.lit 7)) (.bin (.shr .u32) (.bin (.bxor .u32) (.ld 4 (.padd (.var 22) (.lit 34) 4)) (.var 4)) (.lit 25))),
    .asg 16 (.bin (.bxor .u32) (.bin (.shl .u32) (.bin (.bxor .u32) (.ld 4 (.padd (.var 22) (.lit 6) 4)) (.var 10))
      (.lit 28)) (.bin (.shr .u32) (.bin (.bxor .u32) (.ld 4 (.padd (.var 22) (.lit 6) 4)) (.var 10)) (.lit 4))),
    .asg 12 (.bin (.bxor .u32) (.bin (.shl .u32) (.bin (.bxor .u32) (.ld 4 (.padd (.var 22) (.lit 29) 4)) (.var 6))
      (.lit 13)) (.bin (.shr .u32) (.bin (.bxor .u32) (.ld 4 (.padd (.var 22) (.lit 29) 4)) (.var 6)) (.lit 19))),
    .st 4 (.padd (.var 22) (.lit 40) 4) (.bin (.bxor .u32) (.var 12) (.bin (.band .u32) (.un (.bnot .u32) (.var 13))
      (.var 14))),
    .st 4 (.padd (.var 22) (.lit 12) 4) (.bin (.bxor .u32) (.var 13) (.bin (.band .u32) (.un (.bnot .u32) (.var 14))
      (.var 15))),
    .st 4 (.padd (.var 22) (.lit 34) 4) (.bin (.bxor .u32) (.var 14) (.bin (.band .u32) (.un (.bnot .u32) (.var 15))
      (.var 16))),
    .st 4 (.padd (.var 22) (.lit 6) 4) (.bin (.bxor .u32) (.var 15) (.bin (.band .u32) (.un (.bnot .u32) (.var 16))
      (.var 12))),
    .st 4 (.padd (.var 22) (.lit 29) 4) (.bin (.bxor .u32) (.var 16) (.bin (.band .u32) (.un (.bnot .u32) (.var 12))
      (.var 13))),
    .asg 15 (.bin (.bxor .u32) (.bin (.shl .u32) (.bin (.bxor .u32) (.ld 4 (.padd (.var 22) (.lit 20) 4)) (.var 7))
      (.lit 21)) (.bin (.shr .u32) (.bin (.bxor .u32) (.ld 4 (.padd (.var 22) (.lit 20) 4)) (.var 7)) (.lit 11))),
    .asg 16 (.bin (.bxor .u32) (.bin (.shl .u32) (.bin (.bxor .u32) (.ld 4 (.padd (.var 22) (.lit 42) 4)) (.var 3))
      (.lit 1)) (.bin (.shr .u32) (.bin (.bxor .u32) (.ld 4 (.padd (.var 22) (.lit 42) 4)) (.var 3)) (.lit 31))),
    .asg 12 (.bin (.bxor .u32) (.bin (.shl .u32) (.bin (.bxor .u32) (.ld 4 (.padd (.var 22) (.lit 15) 4)) (.var 4))
      (.lit 31)) (.bin (.shr .u32) (.bin (.bxor .u32) (.ld 4 (.padd (.var 22) (.lit 15) 4)) (.var 4)) (.lit 1))),
    .asg 13 (.bin (.bxor .u32) (.bin (.shl .u32) (.bin (.bxor .u32) (.ld 4 (.padd (.var 22) (.lit 36) 4)) (.var 10))
      (.lit 28)) (.bin (.shr .u32) (.bin (.bxor .u32) (.ld 4 (.padd (.var 22) (.lit 36) 4)) (.var 10)) (.lit 4))),
    .asg 14 (.bin (.bxor .u32) (.bin (.shl .u32) (.bin (.bxor .u32) (.ld 4 (.padd (.var 22) (.lit 8) 4)) (.var 11))
      (.lit 20)) (.bin (.shr .u32) (.bin (.bxor .u32) (.ld 4 (.padd (.var 22) (.lit 8) 4)) (.var 11)) (.lit 12))),
    .st 4 (.padd (.var 22) (.lit 20) 4) (.bin (.bxor .u32) (.var 12) (.bin (.band .u32) (.un (.bnot .u32) (.var 13))
      (.var 14))),
    .st 4 (.padd (.var 22) (.lit 42) 4) (.bin (.bxor .u32) (.var 13) (.bin (.band .u32) (.un (.bnot .u32) (.var 14))
      (.var 15))),
    .st 4 (.padd (.var 22) (.lit 15) 4) (.bin (.bxor .u32) (.var 14) (.bin (.band .u32) (.un (.bnot .u32) (.var 15))
      (.var 16))),
    .st 4 (.padd (.var 22) (.lit 36) 4) (.bin (.bxor .u32) (.var 15) (.bin (.band .u32) (.un (.bnot .u32) (.var 16))
      (.var 12))),
    .st 4 (.padd (.var 22) (.lit 8) 4) (.bin (.bxor .u32) (.var 16) (.bin (.band .u32) (.un (.bnot .u32) (.var 12))
      (.var 13))),
    .asg 15 (.bin (.bxor .u32) (.bin (.shl .u32) (.bin (.bxor .u32) (.ld 4 (.padd (.var 22) (.lit 21) 4)) (.var 2))
      (.lit 20)) (.bin (.shr .u32) (.bin (.bxor .u32) (.ld 4 (.padd (.var 22) (.lit 21) 4)) (.var 2)) (.lit 12))),
    .asg 16 (.bin (.bxor .u32) (.bin (.shl .u32) (.bin (.bxor .u32) (.ld 4 (.padd (.var 22) (.lit 43) 4)) (.var 8))
      (.lit 1)) (.bin (.shr .u32) (.bin (.bxor .u32) (.ld 4 (.padd (.var 22) (.lit 43) 4)) (.var 8)) (.lit 31))),
    .asg 12 (.bin (.bxor .u32) (.bin (.shl .u32) (.bin (.bxor .u32) (.ld 4 (.padd (.var 22) (.lit 14) 4)) (.var 9))
      (.lit 31)) (.bin (.shr .u32) (.bin (.bxor .u32) (.ld 4 (.padd (.var 22) (.lit 14) 4)) (.var 9)) (.lit 1))),
    .asg 13 (.bin (.bxor .u32) (.bin (.shl .u32) (.bin (.bxor .u32) (.ld 4 (.padd (.var 22) (.lit 37) 4)) (.var 5))
      (.lit 27)) (.bin (.shr .u32) (.bin (.bxor .u32) (.ld 4 (.padd (.var 22) (.lit 37) 4)) (.var 5)) (.lit 5)))]

/-- part of `KeccakP1600_Permute_Nrounds` -/
def KeccakP1600_Permute_Nrounds.part34 : Stmt :=
  block [
    .asg 14 (.bin (.bxor .u32) (.bin (.shl .u32) (.bin (.bxor .u32) (.ld 4 (.padd (.var 22) (.lit 9) 4)) (.var 6))
      (.lit 19)) (.bin (.shr .u32) (.bin (.bxor .u32) (.ld 4 (.padd (.var 22) (.lit 9) 4)) (.var 6)) (.lit 13))),
    .st 4 (.padd (.var 22) (.lit 21) 4) (.bin (.bxor .u32) (.var 12) (.bin (.band .u32) (.un (.bnot .u32) (.var 13))
      (.var 14))),
    .st 4 (.padd (.var 22) (.lit 43) 4) (.bin (.bxor .u32) (.var 13) (.bin (.band .u32) (.un (.bnot .u32) (.var 14))
      (.var 15))),
    .st 4 (.padd (.var 22) (.lit 14) 4) (.bin (.bxor .u32) (.var 14) (.bin (.band .u32) (.un (.bnot .u32) (.var 15))
      (.var 16))),
    .st 4 (.padd (.var 22) (.lit 37) 4) (.bin (.bxor .u32) (.var 15) (.bin (.band .u32) (.un (.bnot .u32) (.var 16))
      (.var 12))),
    .st 4 (.padd (.var 22) (.lit 9) 4) (.bin (.bxor .u32) (.var 16) (.bin (.band .u32) (.un (.bnot .u32) (.var 12))
      (.var 13))),
    .asg 17 (.bin (.bxor .u32) (.bin (.bxor .u32) (.bin (.bxor .u32) (.bin (.bxor .u32) (.ld 4 (.padd (.var 22) (.lit
      39) 4)) (.ld 4 (.padd (.var 22) (.lit 18) 4))) (.ld 4 (.padd (.var 22) (.lit 49) 4))) (.ld 4 (.padd (.var 22)
      (.lit 28) 4))) (.ld 4 (.padd (.var 22) (.lit 8) 4))),
    .asg 11 (.bin (.bxor .u32) (.bin (.bxor .u32) (.bin (.bxor .u32) (.bin (.bxor .u32) (.ld 4 (.padd (.var 22) (.lit
      22) 4)) (.ld 4 (.padd (.var 22) (.lit 3) 4))) (.ld 4 (.padd (.var 22) (.lit 33) 4))) (.ld 4 (.padd (.var 22)
      (.lit 12) 4))) (.ld 4 (.padd (.var 22) (.lit 43) 4))),
    .asg 2 (.bin (.bxor .u32) (.var 17) (.bin (.bxor .u32) (.bin (.shl .u32) (.var 11) (.lit 1)) (.bin (.shr .u32)
      (.var 11) (.lit 31)))),
    .asg 19 (.bin (.bxor .u32) (.bin (.bxor .u32) (.bin (.bxor .u32) (.bin (.bxor .u32) (.ld 4 (.padd (.var 22) (.lit
      38) 4)) (.ld 4 (.padd (.var 22) (.lit 19) 4))) (.ld 4 (.padd (.var 22) (.lit 48) 4))) (.ld 4 (.padd (.var 22)
      (.lit 29) 4))) (.ld 4 (.padd (.var 22) (.lit 9) 4))),
    .asg 6 (.bin (.bxor .u32) (.bin (.bxor .u32) (.bin (.bxor .u32) (.bin (.bxor .u32) (.ld 4 (.padd (.var 22) (.lit
      23) 4)) (.ld 4 (.padd (.var 22) (.lit 2) 4))) (.ld 4 (.padd (.var 22) (.lit 32) 4))) (.ld 4 (.padd (.var 22)
      (.lit 13) 4))) (.ld 4 (.padd (.var 22) (.lit 42) 4))),
    .asg 7 (.bin (.bxor .u32) (.var 19) (.var 6)),
    .asg 20 (.bin (.bxor .u32) (.bin (.bxor .u32) (.bin (.bxor .u32) (.bin (.bxor .u32) (.ld 4 (.padd (.var 22) (.lit
      44) 4)) (.ld 4 (.padd (.var 22) (.lit 24) 4))) (.ld 4 (.padd (.var 22) (.lit 5) 4))) (.ld 4 (.padd (.var 22)
      (.lit 35) 4))) (.ld 4 (.padd (.var 22) (.lit 15) 4))),
    .asg 5 (.bin (.bxor .u32) (.var 20) (.bin (.bxor .u32) (.bin (.shl .u32) (.var 19) (.lit 1)) (.bin (.shr .u32)
      (.var 19) (.lit 31)))),
    .asg 18 (.bin (.bxor .u32) (.bin (.bxor .u32) (.bin (.bxor .u32) (.bin (.bxor .u32) (.ld 4 (.padd (.var 22) (.lit
      45) 4)) (.ld 4 (.padd (.var 22) (.lit 25) 4))) (.ld 4 (.padd (.var 22) (.lit 4) 4))) (.ld 4 (.padd (.var 22)
      (.lit 34) 4))) (.ld 4 (.padd (.var 22) (.lit 14) 4))),
    .asg 10 (.bin (.bxor .u32) (.var 18) (.var 17)),
    .asg 17 (.bin (.bxor .u32) (.bin (.bxor .u32) (.bin (.bxor .u32) (.bin (.bxor .u32) (.ld 4 (.var 22)) (.ld 4
      (.padd (.var 22) (.lit 30) 4))) (.ld 4 (.padd (.var 22) (.lit 11) 4))) (.ld 4 (.padd (.var 22) (.lit 41) 4)))
      (.ld 4 (.padd (.var 22) (.lit 20) 4))),
    .asg 3 (.bin (.bxor .u32) (.var 17) (.bin (.bxor .u32) (.bin (.shl .u32) (.var 18) (.lit 1)) (.bin (.shr .u32)
      (.var 18) (.lit 31)))),
    .asg 19 (.bin (.bxor .u32) (.bin (.bxor .u32) (.bin (.bxor .u32) (.bin (.bxor .u32) (.ld 4 (.padd (.var 22) (.lit
      1) 4)) (.ld 4 (.padd (.var 22) (.lit 31) 4))) (.ld 4 (.padd (.var 22) (.lit 10) 4))) (.ld 4 (.padd (.var 22)
      (.lit 40) 4))) (.ld 4 (.padd (.var 22) (.lit 21) 4))),
    .asg 8 (.bin (.bxor .u32) (.var 19) (.var 20)),
    .asg 18 (.bin (.bxor .u32) (.bin (.bxor .u32) (.bin (.bxor .u32) (.bin (.bxor .u32) (.ld 4 (.padd (.var 22) (.lit
      17) 4)) (.ld 4 (.padd (.var 22) (.lit 46) 4))) (.ld 4 (.padd (.var 22) (.lit 26) 4))) (.ld 4 (.padd (.var 22)
      (.lit 6) 4))) (.ld 4 (.padd (.var 22) (.lit 37) 4))),
    .asg 4 (.bin (.bxor .u32) (.var 6) (.bin (.bxor .u32) (.bin (.shl .u32) (.var 18) (.lit 1)) (.bin (.shr .u32)
      (.var 18) (.lit 31)))),
    .asg 20 (.bin (.bxor .u32) (.bin (.bxor .u32) (.bin (.bxor .u32) (.bin (.bxor .u32) (.ld 4 (.padd (.var 22) (.lit
      16) 4)) (.ld 4 (.padd (.var 22) (.lit 47) 4))) (.ld 4 (.padd (.var 22) (.lit 27) 4))) (.ld 4 (.padd (.var 22)
      (.lit 7) 4))) (.ld 4 (.padd (.var 22) (.lit 36) 4))),
    .asg 9 (.bin (.bxor .u32) (.var 11) (.var 20)),
    .asg 6 (.bin (.bxor .u32) (.var 20) (.bin (.bxor .u32) (.bin (.shl .u32) (.var 19) (.lit 1)) (.bin (.shr .u32)
      (.var 19) (.lit 31)))),
    .asg 11 (.bin (.bxor .u32) (.var 18) (.var 17)),
    .asg 12 (.bin (.bxor .u32) (.ld 4 (.var 22)) (.var 2)),
    .asg 13 (.bin (.bxor .u32) (.bin (.shl .u32) (.bin (.bxor .u32) (.ld 4 (.padd (.var 22) (.lit 2) 4)) (.var 3))
      (.lit 22)) (.bin (.shr .u32) (.bin (.bxor .u32) (.ld 4 (.padd (.var 22) (.lit 2) 4)) (.var 3)) (.lit 10))),
    .asg 14 (.bin (.bxor .u32) (.bin (.shl .u32) (.bin (.bxor .u32) (.ld 4 (.padd (.var 22) (.lit 4) 4)) (.var 9))
      (.lit 22)) (.bin (.shr .u32) (.bin (.bxor .u32) (.ld 4 (.padd (.var 22) (.lit 4) 4)) (.var 9)) (.lit 10))),
    .asg 15 (.bin (.bxor .u32) (.bin (.shl .u32) (.bin (.bxor .u32) (.ld 4 (.padd (.var 22) (.lit 6) 4)) (.var 10))
      (.lit 11)) (.bin (.shr .u32) (.bin (.bxor .u32) (.ld 4 (.padd (.var 22) (.lit 6) 4)) (.var 10)) (.lit 21))),
    .asg 16 (.bin (.bxor .u32) (.bin (.shl .u32) (.bin (.bxor .u32) (.ld 4 (.padd (.var 22) (.lit 8) 4)) (.var 6))
      (.lit 7)) (.bin (.shr .u32) (.bin (.bxor .u32) (.ld 4 (.padd (.var 22) (.lit 8) 4)) (.var 6)) (.lit 25))),
    .st 4 (.var 22) (.bin (.bxor .u32) (.var 12) (.bin (.band .u32) (.un (.bnot .u32) (.var 13)) (.var 14))),
    .asg 41 (.var 21),
    .asg 21 (.padd (.var 41) (.lit 1) 4),
    .st 4 (.var 22) (.bin (.bxor .u32) (.ld 4 (.var 22)) (.ld 4 (.var 41))),
    .st 4 (.padd (.var 22) (.lit 2) 4) (.bin (.bxor .u32) (.var 13) (.bin (.band .u32) (.un (.bnot .u32) (.var 14))
      (.var 15))),
    .st 4 (.padd (.var 22) (.lit 4) 4) (.bin (.bxor .u32) (.var 14) (.bin (.band .u32) (.un (.bnot .u32) (.var 15))
      (.var 16))),
    .st 4 (.padd (.var 22) (.lit 6) 4) (.bin (.bxor .u32) (.var 15) (.bin (.band .u32) (.un (.bnot .u32) (.var 16))
      (.var 12))),
    .st 4 (.padd (.var 22) (.lit 8) 4) (.bin (.bxor .u32) (.var 16) (.bin (.band .u32) (.un (.bnot .u32) (.var 12))
      (.var 13))),
    .asg 12 (.bin (.bxor .u32) (.ld 4 (.padd (.var 22) (.lit 1) 4)) (.var 7))]

/-- part of `KeccakP1600_Permute_Nrounds` -/
def KeccakP1600_Permute_Nrounds.part35 : Stmt :=
  block [
    .asg 13 (.bin (.bxor .u32) (.bin (.shl .u32) (.bin (.bxor .u32) (.ld 4 (.padd (.var 22) (.lit 3) 4)) (.var 8))
      (.lit 22)) (.bin (.shr .u32) (.bin (.bxor .u32) (.ld 4 (.padd (.var 22) (.lit 3) 4)) (.var 8)) (.lit 10))),
    .asg 14 (.bin (.bxor .u32) (.bin (.shl .u32) (.bin (.bxor .u32) (.ld 4 (.padd (.var 22) (.lit 5) 4)) (.var 4))
      (.lit 21)) (.bin (.shr .u32) (.bin (.bxor .u32) (.ld 4 (.padd (.var 22) (.lit 5) 4)) (.var 4)) (.lit 11))),
    .asg 15 (.bin (.bxor .u32) (.bin (.shl .u32) (.bin (.bxor .u32) (.ld 4 (.padd (.var 22) (.lit 7) 4)) (.var 5))
      (.lit 10)) (.bin (.shr .u32) (.bin (.bxor .u32) (.ld 4 (.padd (.var 22) (.lit 7) 4)) (.var 5)) (.lit 22))),
    .asg 16 (.bin (.bxor .u32) (.bin (.shl .u32) (.bin (.bxor .u32) (.ld 4 (.padd (.var 22) (.lit 9) 4)) (.var 11))
      (.lit 7)) (.bin (.shr .u32) (.bin (.bxor .u32) (.ld 4 (.padd (.var 22) (.lit 9) 4)) (.var 11)) (.lit 25))),
    .st 4 (.padd (.var 22) (.lit 1) 4) (.bin (.bxor .u32) (.var 12) (.bin (.band .u32) (.un (.bnot .u32) (.var 13))
      (.var 14))),
    .asg 42 (.var 21),
    .asg 21 (.padd (.var 42) (.lit 1) 4),
    .st 4 (.padd (.var 22) (.lit 1) 4) (.bin (.bxor .u32) (.ld 4 (.padd (.var 22) (.lit 1) 4)) (.ld 4 (.var 42))),
    .st 4 (.padd (.var 22) (.lit 3) 4) (.bin (.bxor .u32) (.var 13) (.bin (.band .u32) (.un (.bnot .u32) (.var 14))
      (.var 15))),
    .st 4 (.padd (.var 22) (.lit 5) 4) (.bin (.bxor .u32) (.var 14) (.bin (.band .u32) (.un (.bnot .u32) (.var 15))
      (.var 16))),
    .st 4 (.padd (.var 22) (.lit 7) 4) (.bin (.bxor .u32) (.var 15) (.bin (.band .u32) (.un (.bnot .u32) (.var 16))
      (.var 12))),
    .st 4 (.padd (.var 22) (.lit 9) 4) (.bin (.bxor .u32) (.var 16) (.bin (.band .u32) (.un (.bnot .u32) (.var 12))
      (.var 13))),
    .asg 14 (.bin (.bxor .u32) (.bin (.shl .u32) (.bin (.bxor .u32) (.ld 4 (.padd (.var 22) (.lit 10) 4)) (.var 7))
      (.lit 2)) (.bin (.shr .u32) (.bin (.bxor .u32) (.ld 4 (.padd (.var 22) (.lit 10) 4)) (.var 7)) (.lit 30))),
    .asg 15 (.bin (.bxor .u32) (.bin (.shl .u32) (.bin (.bxor .u32) (.ld 4 (.padd (.var 22) (.lit 12) 4)) (.var 8))
      (.lit 23)) (.bin (.shr .u32) (.bin (.bxor .u32) (.ld 4 (.padd (.var 22) (.lit 12) 4)) (.var 8)) (.lit 9))),
    .asg 16 (.bin (.bxor .u32) (.bin (.shl .u32) (.bin (.bxor .u32) (.ld 4 (.padd (.var 22) (.lit 14) 4)) (.var 9))
      (.lit 31)) (.bin (.shr .u32) (.bin (.bxor .u32) (.ld 4 (.padd (.var 22) (.lit 14) 4)) (.var 9)) (.lit 1))),
    .asg 12 (.bin (.bxor .u32) (.bin (.shl .u32) (.bin (.bxor .u32) (.ld 4 (.padd (.var 22) (.lit 16) 4)) (.var 5))
      (.lit 14)) (.bin (.shr .u32) (.bin (.bxor .u32) (.ld 4 (.padd (.var 22) (.lit 16) 4)) (.var 5)) (.lit 18))),
    .asg 13 (.bin (.bxor .u32) (.bin (.shl .u32) (.bin (.bxor .u32) (.ld 4 (.padd (.var 22) (.lit 18) 4)) (.var 6))
      (.lit 10)) (.bin (.shr .u32) (.bin (.bxor .u32) (.ld 4 (.padd (.var 22) (.lit 18) 4)) (.var 6)) (.lit 22))),
    .st 4 (.padd (.var 22) (.lit 10) 4) (.bin (.bxor .u32) (.var 12) (.bin (.band .u32) (.un (.bnot .u32) (.var 13))
      (.var 14))),
    .st 4 (.padd (.var 22) (.lit 12) 4) (.bin (.bxor .u32) (.var 13) (.bin (.band .u32) (.un (.bnot .u32) (.var 14))
      (.var 15))),
    .st 4 (.padd (.var 22) (.lit 14) 4) (.bin (.bxor .u32) (.var 14) (.bin (.band .u32) (.un (.bnot .u32) (.var 15))
      (.var 16))),
    .st 4 (.padd (.var 22) (.lit 16) 4) (.bin (.bxor .u32) (.var 15) (.bin (.band .u32) (.un (.bnot .u32) (.var 16))
      (.var 12))),
    .st 4 (.padd (.var 22) (.lit 18) 4) (.bin (.bxor .u32) (.var 16) (.bin (.band .u32) (.un (.bnot .u32) (.var 12))
      (.var 13))),
    .asg 14 (.bin (.bxor .u32) (.bin (.shl .u32) (.bin (.bxor .u32) (.ld 4 (.padd (.var 22) (.lit 11) 4)) (.var 2))
      (.lit 1)) (.bin (.shr .u32) (.bin (.bxor .u32) (.ld 4 (.padd (.var 22) (.lit 11) 4)) (.var 2)) (.lit 31))),
    .asg 15 (.bin (.bxor .u32) (.bin (.shl .u32) (.bin (.bxor .u32) (.ld 4 (.padd (.var 22) (.lit 13) 4)) (.var 3))
      (.lit 22)) (.bin (.shr .u32) (.bin (.bxor .u32) (.ld 4 (.padd (.var 22) (.lit 13) 4)) (.var 3)) (.lit 10))),
    .asg 16 (.bin (.bxor .u32) (.bin (.shl .u32) (.bin (.bxor .u32) (.ld 4 (.padd (.var 22) (.lit 15) 4)) (.var 4))
      (.lit 30)) (.bin (.shr .u32) (.bin (.bxor .u32) (.ld 4 (.padd (.var 22) (.lit 15) 4)) (.var 4)) (.lit 2))),
    .asg 12 (.bin (.bxor .u32) (.bin (.shl .u32) (.bin (.bxor .u32) (.ld 4 (.padd (.var 22) (.lit 17) 4)) (.var 10))
      (.lit 14)) (.bin (.shr .u32) (.bin (.bxor .u32) (.ld 4 (.padd (.var 22) (.lit 17) 4)) (.var 10)) (.lit 18))),
    .asg 13 (.bin (.bxor .u32) (.bin (.shl .u32) (.bin (.bxor .u32) (.ld 4 (.padd (.var 22) (.lit 19) 4)) (.var 11))
      (.lit 10)) (.bin (.shr .u32) (.bin (.bxor .u32) (.ld 4 (.padd (.var 22) (.lit 19) 4)) (.var 11)) (.lit 22))),
    .st 4 (.padd (.var 22) (.lit 11) 4) (.bin (.bxor .u32) (.var 12) (.bin (.band .u32) (.un (.bnot .u32) (.var 13))
      (.var 14))),
    .st 4 (.padd (.var 22) (.lit 13) 4) (.bin (.bxor .u32) (.var 13) (.bin (.band .u32) (.un (.bnot .u32) (.var 14))
      (.var 15))),
    .st 4 (.padd (.var 22) (.lit 15) 4) (.bin (.bxor .u32) (.var 14) (.bin (.band .u32) (.un (.bnot .u32) (.var 15))
      (.var 16))),
    .st 4 (.padd (.var 22) (.lit 17) 4) (.bin (.bxor .u32) (.var 15) (.bin (.band .u32) (.un (.bnot .u32) (.var 16))
      (.var 12))),
    .st 4 (.padd (.var 22) (.lit 19) 4) (.bin (.bxor .u32) (.var 16) (.bin (.band .u32) (.un (.bnot .u32) (.var 12))
      (.var 13))),
    .asg 16 (.bin (.bxor .u32) (.bin (.shl .u32) (.bin (.bxor .u32) (.ld 4 (.padd (.var 22) (.lit 20) 4)) (.var 2))
      (.lit 9)) (.bin (.shr .u32) (.bin (.bxor .u32) (.ld 4 (.padd (.var 22) (.lit 20) 4)) (.var 2)) (.lit 23))),
    .asg 12 (.bin (.bxor .u32) (.bin (.shl .u32) (.bin (.bxor .u32) (.ld 4 (.padd (.var 22) (.lit 22) 4)) (.var 8))
      (.lit 1)) (.bin (.shr .u32) (.bin (.bxor .u32) (.ld 4 (.padd (.var 22) (.lit 22) 4)) (.var 8)) (.lit 31))),
    .asg 13 (.bin (.bxor .u32) (.bin (.shl .u32) (.bin (.bxor .u32) (.ld 4 (.padd (.var 22) (.lit 24) 4)) (.var 4))
      (.lit 3)) (.bin (.shr .u32) (.bin (.bxor .u32) (.ld 4 (.padd (.var 22) (.lit 24) 4)) (.var 4)) (.lit 29))),
    .asg 14 (.bin (.bxor .u32) (.bin (.shl .u32) (.bin (.bxor .u32) (.ld 4 (.padd (.var 22) (.lit 26) 4)) (.var 10))
      (.lit 13)) (.bin (.shr .u32) (.bin (.bxor .u32) (.ld 4 (.padd (.var 22) (.lit 26) 4)) (.var 10)) (.lit 19))),
    .asg 15 (.bin (.bxor .u32) (.bin (.shl .u32) (.bin (.bxor .u32) (.ld 4 (.padd (.var 22) (.lit 28) 4)) (.var 6))
      (.lit 4)) (.bin (.shr .u32) (.bin (.bxor .u32) (.ld 4 (.padd (.var 22) (.lit 28) 4)) (.var 6)) (.lit 28))),
    .st 4 (.padd (.var 22) (.lit 20) 4) (.bin (.bxor .u32) (.var 12) (.bin (.band .u32) (.un (.bnot .u32) (.var 13))
      (.var 14))),
    .st 4 (.padd (.var 22) (.lit 22) 4) (.bin (.bxor .u32) (.var 13) (.bin (.band .u32) (.un (.bnot .u32) (.var 14))
      (.var 15))),
    .st 4 (.padd (.var 22) (.lit 24) 4) (.bin (.bxor .u32) (.var 14) (.bin (.band .u32) (.un (.bnot .u32) (.var 15))
      (.var 16)))]

/-- part of `KeccakP1600_Permute_Nrounds` -/
def KeccakP1600_Permute_Nrounds.part36 : Stmt :=
  block [
    .st 4 (.padd (.var 22) (.lit 26) 4) (.bin (.bxor .u32) (.var 15) (.bin (.band .u32) (.un (.bnot .u32) (.var 16))
      (.var 12))),
    .st 4 (.padd (.var 22) (.lit 28) 4) (.bin (.bxor .u32) (.var 16) (.bin (.band .u32) (.un (.bnot .u32) (.var 12))
      (.var 13))),
    .asg 16 (.bin (.bxor .u32) (.bin (.shl .u32) (.bin (.bxor .u32) (.ld 4 (.padd (.var 22) (.lit 21) 4)) (.var 7))
      (.lit 9)) (.bin (.shr .u32) (.bin (.bxor .u32) (.ld 4 (.padd (.var 22) (.lit 21) 4)) (.var 7)) (.lit 23))),
    .asg 12 (.bin (.bxor .u32) (.ld 4 (.padd (.var 22) (.lit 23) 4)) (.var 3)),
    .asg 13 (.bin (.bxor .u32) (.bin (.shl .u32) (.bin (.bxor .u32) (.ld 4 (.padd (.var 22) (.lit 25) 4)) (.var 9))
      (.lit 3)) (.bin (.shr .u32) (.bin (.bxor .u32) (.ld 4 (.padd (.var 22) (.lit 25) 4)) (.var 9)) (.lit 29))),
    .asg 14 (.bin (.bxor .u32) (.bin (.shl .u32) (.bin (.bxor .u32) (.ld 4 (.padd (.var 22) (.lit 27) 4)) (.var 5))
      (.lit 12)) (.bin (.shr .u32) (.bin (.bxor .u32) (.ld 4 (.padd (.var 22) (.lit 27) 4)) (.var 5)) (.lit 20))),
    .asg 15 (.bin (.bxor .u32) (.bin (.shl .u32) (.bin (.bxor .u32) (.ld 4 (.padd (.var 22) (.lit 29) 4)) (.var 11))
      (.lit 4)) (.bin (.shr .u32) (.bin (.bxor .u32) (.ld 4 (.padd (.var 22) (.lit 29) 4)) (.var 11)) (.lit 28))),
    .st 4 (.padd (.var 22) (.lit 21) 4) (.bin (.bxor .u32) (.var 12) (.bin (.band .u32) (.un (.bnot .u32) (.var 13))
      (.var 14))),
    .st 4 (.padd (.var 22) (.lit 23) 4) (.bin (.bxor .u32) (.var 13) (.bin (.band .u32) (.un (.bnot .u32) (.var 14))
      (.var 15))),
    .st 4 (.padd (.var 22) (.lit 25) 4) (.bin (.bxor .u32) (.var 14) (.bin (.band .u32) (.un (.bnot .u32) (.var 15))
      (.var 16))),
    .st 4 (.padd (.var 22) (.lit 27) 4) (.bin (.bxor .u32) (.var 15) (.bin (.band .u32) (.un (.bnot .u32) (.var 16))
      (.var 12))),
    .st 4 (.padd (.var 22) (.lit 29) 4) (.bin (.bxor .u32) (.var 16) (.bin (.band .u32) (.un (.bnot .u32) (.var 12))
      (.var 13))),
    .asg 13 (.bin (.bxor .u32) (.bin (.shl .u32) (.bin (.bxor .u32) (.ld 4 (.padd (.var 22) (.lit 30) 4)) (.var 2))
      (.lit 18)) (.bin (.shr .u32) (.bin (.bxor .u32) (.ld 4 (.padd (.var 22) (.lit 30) 4)) (.var 2)) (.lit 14))),
    .asg 14 (.bin (.bxor .u32) (.bin (.shl .u32) (.bin (.bxor .u32) (.ld 4 (.padd (.var 22) (.lit 32) 4)) (.var 3))
      (.lit 5)) (.bin (.shr .u32) (.bin (.bxor .u32) (.ld 4 (.padd (.var 22) (.lit 32) 4)) (.var 3)) (.lit 27))),
    .asg 15 (.bin (.bxor .u32) (.bin (.shl .u32) (.bin (.bxor .u32) (.ld 4 (.padd (.var 22) (.lit 34) 4)) (.var 9))
      (.lit 8)) (.bin (.shr .u32) (.bin (.bxor .u32) (.ld 4 (.padd (.var 22) (.lit 34) 4)) (.var 9)) (.lit 24))),
    .asg 16 (.bin (.bxor .u32) (.bin (.shl .u32) (.bin (.bxor .u32) (.ld 4 (.padd (.var 22) (.lit 36) 4)) (.var 5))
      (.lit 28)) (.bin (.shr .u32) (.bin (.bxor .u32) (.ld 4 (.padd (.var 22) (.lit 36) 4)) (.var 5)) (.lit 4))),
    .asg 12 (.bin (.bxor .u32) (.bin (.shl .u32) (.bin (.bxor .u32) (.ld 4 (.padd (.var 22) (.lit 38) 4)) (.var 11))
      (.lit 14)) (.bin (.shr .u32) (.bin (.bxor .u32) (.ld 4 (.padd (.var 22) (.lit 38) 4)) (.var 11)) (.lit 18))),
    .st 4 (.padd (.var 22) (.lit 30) 4) (.bin (.bxor .u32) (.var 12) (.bin (.band .u32) (.un (.bnot .u32) (.var 13))
      (.var 14))),
    .st 4 (.padd (.var 22) (.lit 32) 4) (.bin (.bxor .u32) (.var 13) (.bin (.band .u32) (.un (.bnot .u32) (.var 14))
      (.var 15))),
    .st 4 (.padd (.var 22) (.lit 34) 4) (.bin (.bxor .u32) (.var 14) (.bin (.band .u32) (.un (.bnot .u32) (.var 15))
      (.var 16))),
    .st 4 (.padd (.var 22) (.lit 36) 4) (.bin (.bxor .u32) (.var 15) (.bin (.band .u32) (.un (.bnot .u32) (.var 16))
      (.var 12))),
    .st 4 (.padd (.var 22) (.lit 38) 4) (.bin (.bxor .u32) (.var 16) (.bin (.band .u32) (.un (.bnot .u32) (.var 12))
      (.var 13))),
    .asg 13 (.bin (.bxor .u32) (.bin (.shl .u32) (.bin (.bxor .u32) (.ld 4 (.padd (.var 22) (.lit 31) 4)) (.var 7))
      (.lit 18)) (.bin (.shr .u32) (.bin (.bxor .u32) (.ld 4 (.padd (.var 22) (.lit 31) 4)) (.var 7)) (.lit 14))),
    .asg 14 (.bin (.bxor .u32) (.bin (.shl .u32) (.bin (.bxor .u32) (.ld 4 (.padd (.var 22) (.lit 33) 4)) (.var 8))
      (.lit 5)) (.bin (.shr .u32) (.bin (.bxor .u32) (.ld 4 (.padd (.var 22) (.lit 33) 4)) (.var 8)) (.lit 27))),
    .asg 15 (.bin (.bxor .u32) (.bin (.shl .u32) (.bin (.bxor .u32) (.ld 4 (.padd (.var 22) (.lit 35) 4)) (.var 4))
      (.lit 7)) (.bin (.shr .u32) (.bin (.bxor .u32) (.ld 4 (.padd (.var 22) (.lit 35) 4)) (.var 4)) (.lit 25))),
    .asg 16 (.bin (.bxor .u32) (.bin (.shl .u32) (.bin (.bxor .u32) (.ld 4 (.padd (.var 22) (.lit 37) 4)) (.var 10))
      (.lit 28)) (.bin (.shr .u32) (.bin (.bxor .u32) (.ld 4 (.padd (.var 22) (.lit 37) 4)) (.var 10)) (.lit 4))),
    .asg 12 (.bin (.bxor .u32) (.bin (.shl .u32) (.bin (.bxor .u32) (.ld 4 (.padd (.var 22) (.lit 39) 4)) (.var 6))
      (.lit 13)) (.bin (.shr .u32) (.bin (.bxor .u32) (.ld 4 (.padd (.var 22) (.lit 39) 4)) (.var 6)) (.lit 19))),
    .st 4 (.padd (.var 22) (.lit 31) 4) (.bin (.bxor .u32) (.var 12) (.bin (.band .u32) (.un (.bnot .u32) (.var 13))
      (.var 14))),
    .st 4 (.padd (.var 22) (.lit 33) 4) (.bin (.bxor .u32) (.var 13) (.bin (.band .u32) (.un (.bnot .u32) (.var 14))
      (.var 15))),
    .st 4 (.padd (.var 22) (.lit 35) 4) (.bin (.bxor .u32) (.var 14) (.bin (.band .u32) (.un (.bnot .u32) (.var 15))
      (.var 16))),
    .st 4 (.padd (.var 22) (.lit 37) 4) (.bin (.bxor .u32) (.var 15) (.bin (.band .u32) (.un (.bnot .u32) (.var 16))
      (.var 12))),
    .st 4 (.padd (.var 22) (.lit 39) 4) (.bin (.bxor .u32) (.var 16) (.bin (.band .u32) (.un (.bnot .u32) (.var 12))
      (.var 13))),
    .asg 15 (.bin (.bxor .u32) (.bin (.shl .u32) (.bin (.bxor .u32) (.ld 4 (.padd (.var 22) (.lit 40) 4)) (.var 7))
      (.lit 21)) (.bin (.shr .u32) (.bin (.bxor .u32) (.ld 4 (.padd (.var 22) (.lit 40) 4)) (.var 7)) (.lit 11))),
    .asg 16 (.bin (.bxor .u32) (.bin (.shl .u32) (.bin (.bxor .u32) (.ld 4 (.padd (.var 22) (.lit 42) 4)) (.var 3))
      (.lit 1)) (.bin (.shr .u32) (.bin (.bxor .u32) (.ld 4 (.padd (.var 22) (.lit 42) 4)) (.var 3)) (.lit 31))),
    .asg 12 (.bin (.bxor .u32) (.bin (.shl .u32) (.bin (.bxor .u32) (.ld 4 (.padd (.var 22) (.lit 44) 4)) (.var 4))
      (.lit 31)) (.bin (.shr .u32) (.bin (.bxor .u32) (.ld 4 (.padd (.var 22) (.lit 44) 4)) (.var 4)) (.lit 1))),
    .asg 13 (.bin (.bxor .u32) (.bin (.shl .u32) (.bin (.bxor .u32) (.ld 4 (.padd (.var 22) (.lit 46) 4)) (.var 10))
      (.lit 28)) (.bin (.shr .u32) (.bin (.bxor .u32) (.ld 4 (.padd (.var 22) (.lit 46) 4)) (.var 10)) (.lit 4))),
    .asg 14 (.bin (.bxor .u32) (.bin (.shl .u32) (.bin (.bxor .u32) (.ld 4 (.padd (.var 22) (.lit 48) 4)) (.var 11))
      (.lit 20)) (.bin (.shr .u32) (.bin (.bxor .u32) (.ld 4 (.padd (.var 22) (.lit 48) 4)) (.var 11)) (.lit 12))),
    .st 4 (.padd (.var 22) (.lit 40) 4) (.bin (.bxor .u32) (.var 12) (.bin (.band .u32) (.un (.bnot .u32) (.var 13))
      (.var 14))),
    .st 4 (.padd (.var 22) (.lit 42) 4) (.bin (.bxor .u32) (.var 13) (.bin (.band .u32) (.un (.bnot .u32) (.var 14))
      (.var 15))),
    .st 4 (.padd (.var 22) (.lit 44) 4) (.bin (.bxor .u32) (.var 14) (.bin (.band .u32) (.un (.bnot .u32) (.var 15))
      (.var 16)))]

/-- part of `KeccakP1600_Permute_Nrounds` -/
def KeccakP1600_Permute_Nrounds.part37 : Stmt :=
  block [
    .st 4 (.padd (.var 22) (.lit 46) 4) (.bin (.bxor .u32) (.var 15) (.bin (.band .u32) (.un (.bnot .u32) (.var 16))
      (.var 12))),
    .st 4 (.padd (.var 22) (.lit 48) 4) (.bin (.bxor .u32) (.var 16) (.bin (.band .u32) (.un (.bnot .u32) (.var 12))
      (.var 13))),
    .asg 15 (.bin (.bxor .u32) (.bin (.shl .u32) (.bin (.bxor .u32) (.ld 4 (.padd (.var 22) (.lit 41) 4)) (.var 2))
      (.lit 20)) (.bin (.shr .u32) (.bin (.bxor .u32) (.ld 4 (.padd (.var 22) (.lit 41) 4)) (.var 2)) (.lit 12))),
    .asg 16 (.bin (.bxor .u32) (.bin (.shl .u32) (.bin (.bxor .u32) (.ld 4 (.padd (.var 22) (.lit 43) 4)) (.var 8))
      (.lit 1)) (.bin (.shr .u32) (.bin (.bxor .u32) (.ld 4 (.padd (.var 22) (.lit 43) 4)) (.var 8)) (.lit 31))),
    .asg 12 (.bin (.bxor .u32) (.bin (.shl .u32) (.bin (.bxor .u32) (.ld 4 (.padd (.var 22) (.lit 45) 4)) (.var 9))
      (.lit 31)) (.bin (.shr .u32) (.bin (.bxor .u32) (.ld 4 (.padd (.var 22) (.lit 45) 4)) (.var 9)) (.lit 1))),
    .asg 13 (.bin (.bxor .u32) (.bin (.shl .u32) (.bin (.bxor .u32) (.ld 4 (.padd (.var 22) (.lit 47) 4)) (.var 5))
      (.lit 27)) (.bin (.shr .u32) (.bin (.bxor .u32) (.ld 4 (.padd (.var 22) (.lit 47) 4)) (.var 5)) (.lit 5))),
    .asg 14 (.bin (.bxor .u32) (.bin (.shl .u32) (.bin (.bxor .u32) (.ld 4 (.padd (.var 22) (.lit 49) 4)) (.var 6))
      (.lit 19)) (.bin (.shr .u32) (.bin (.bxor .u32) (.ld 4 (.padd (.var 22) (.lit 49) 4)) (.var 6)) (.lit 13))),
    .st 4 (.padd (.var 22) (.lit 41) 4) (.bin (.bxor .u32) (.var 12) (.bin (.band .u32) (.un (.bnot .u32) (.var 13))
      (.var 14))),
    .st 4 (.padd (.var 22) (.lit 43) 4) (.bin (.bxor .u32) (.var 13) (.bin (.band .u32) (.un (.bnot .u32) (.var 14))
      (.var 15))),
    .st 4 (.padd (.var 22) (.lit 45) 4) (.bin (.bxor .u32) (.var 14) (.bin (.band .u32) (.un (.bnot .u32) (.var 15))
      (.var 16))),
    .st 4 (.padd (.var 22) (.lit 47) 4) (.bin (.bxor .u32) (.var 15) (.bin (.band .u32) (.un (.bnot .u32) (.var 16))
      (.var 12))),
    .st 4 (.padd (.var 22) (.lit 49) 4) (.bin (.bxor .u32) (.var 16) (.bin (.band .u32) (.un (.bnot .u32) (.var 12))
      (.var 13)))]

/-- part of `KeccakP1600_Permute_Nrounds` -/
def KeccakP1600_Permute_Nrounds.part38 : Stmt :=
  block [
    .asg 17 (.bin (.bxor .u32) (.bin (.bxor .u32) (.bin (.bxor .u32) (.bin (.bxor .u32) (.ld 4 (.padd (.var 22) (.lit
      39) 4)) (.ld 4 (.padd (.var 22) (.lit 18) 4))) (.ld 4 (.padd (.var 22) (.lit 49) 4))) (.ld 4 (.padd (.var 22)
      (.lit 28) 4))) (.ld 4 (.padd (.var 22) (.lit 8) 4))),
    .asg 11 (.bin (.bxor .u32) (.bin (.bxor .u32) (.bin (.bxor .u32) (.bin (.bxor .u32) (.ld 4 (.padd (.var 22) (.lit
      22) 4)) (.ld 4 (.padd (.var 22) (.lit 3) 4))) (.ld 4 (.padd (.var 22) (.lit 33) 4))) (.ld 4 (.padd (.var 22)
      (.lit 12) 4))) (.ld 4 (.padd (.var 22) (.lit 43) 4))),
    .asg 2 (.bin (.bxor .u32) (.var 17) (.bin (.bxor .u32) (.bin (.shl .u32) (.var 11) (.lit 1)) (.bin (.shr .u32)
      (.var 11) (.lit 31)))),
    .asg 19 (.bin (.bxor .u32) (.bin (.bxor .u32) (.bin (.bxor .u32) (.bin (.bxor .u32) (.ld 4 (.padd (.var 22) (.lit
      38) 4)) (.ld 4 (.padd (.var 22) (.lit 19) 4))) (.ld 4 (.padd (.var 22) (.lit 48) 4))) (.ld 4 (.padd (.var 22)
      (.lit 29) 4))) (.ld 4 (.padd (.var 22) (.lit 9) 4))),
    .asg 6 (.bin (.bxor .u32) (.bin (.bxor .u32) (.bin (.bxor .u32) (.bin (.bxor .u32) (.ld 4 (.padd (.var 22) (.lit
      23) 4)) (.ld 4 (.padd (.var 22) (.lit 2) 4))) (.ld 4 (.padd (.var 22) (.lit 32) 4))) (.ld 4 (.padd (.var 22)
      (.lit 13) 4))) (.ld 4 (.padd (.var 22) (.lit 42) 4))),
    .asg 7 (.bin (.bxor .u32) (.var 19) (.var 6)),
    .asg 20 (.bin (.bxor .u32) (.bin (.bxor .u32) (.bin (.bxor .u32) (.bin (.bxor .u32) (.ld 4 (.padd (.var 22) (.lit
      44) 4)) (.ld 4 (.padd (.var 22) (.lit 24) 4))) (.ld 4 (.padd (.var 22) (.lit 5) 4))) (.ld 4 (.padd (.var 22)
      (.lit 35) 4))) (.ld 4 (.padd (.var 22) (.lit 15) 4))),
    .asg 5 (.bin (.bxor .u32) (.var 20) (.bin (.bxor .u32) (.bin (.shl .u32) (.var 19) (.lit 1)) (.bin (.shr .u32)
      (.var 19) (.lit 31)))),
    .asg 18 (.bin (.bxor .u32) (.bin (.bxor .u32) (.bin (.bxor .u32) (.bin (.bxor .u32) (.ld 4 (.padd (.var 22) (.lit
      45) 4)) (.ld 4 (.padd (.var 22) (.lit 25) 4))) (.ld 4 (.padd (.var 22) (.lit 4) 4))) (.ld 4 (.padd (.var 22)
      (.lit 34) 4))) (.ld 4 (.padd (.var 22) (.lit 14) 4))),
    .asg 10 (.bin (.bxor .u32) (.var 18) (.var 17)),
    .asg 17 (.bin (.bxor .u32) (.bin (.bxor .u32) (.bin (.bxor .u32) (.bin (.bxor .u32) (.ld 4 (.var 22)) (.ld 4
      (.padd (.var 22) (.lit 30) 4))) (.ld 4 (.padd (.var 22) (.lit 11) 4))) (.ld 4 (.padd (.var 22) (.lit 41) 4)))
      (.ld 4 (.padd (.var 22) (.lit 20) 4))),
    .asg 3 (.bin (.bxor .u32) (.var 17) (.bin (.bxor .u32) (.bin (.shl .u32) (.var 18) (.lit 1)) (.bin (.shr .u32)
      (.var 18) (.lit 31)))),
    .asg 19 (.bin (.bxor .u32) (.bin (.bxor .u32) (.bin (.bxor .u32) (.bin (.bxor .u32) (.ld 4 (.padd (.var 22) (.lit
      1) 4)) (.ld 4 (.padd (.var 22) (.lit 31) 4))) (.ld 4 (.padd (.var 22) (.lit 10) 4))) (.ld 4 (.padd (.var 22)
      (.lit 40) 4))) (.ld 4 (.padd (.var 22) (.lit 21) 4))),
    .asg 8 (.bin (.bxor .u32) (.var 19) (.var 20)),
    .asg 18 (.bin (.bxor .u32) (.bin (.bxor .u32) (.bin (.bxor .u32) (.bin (.bxor .u32) (.ld 4 (.padd (.var 22) (.lit
      17) 4)) (.ld 4 (.padd (.var 22) (.lit 46) 4))) (.ld 4 (.padd (.var 22) (.lit 26) 4))) (.ld 4 (.padd (.var 22)
      (.lit 6) 4))) (.ld 4 (.padd (.var 22) (.lit 37) 4))),
    .asg 4 (.bin (.bxor .u32) (.var 6) (.bin (.bxor .u32) (.bin (.shl .u32) (.var 18) (.lit 1)) (.bin (.shr .u32)
      (.var 18) (.lit 31)))),
    .asg 20 (.bin (.bxor .u32) (.bin (.bxor .u32) (.bin (.bxor .u32) (.bin (.bxor .u32) (.ld 4 (.padd (.var 22) (.lit
      16) 4)) (.ld 4 (.padd (.var 22) (.lit 47) 4))) (.ld 4 (.padd (.var 22) (.lit 27) 4))) (.ld 4 (.padd (.var 22)
      (.lit 7) 4))) (.ld 4 (.padd (.var 22) (.lit 36) 4))),
    .asg 9 (.bin (.bxor .u32) (.var 11) (.var 20)),
    .asg 6 (.bin (.bxor .u32) (.var 20) (.bin (.bxor .u32) (.bin (.shl .u32) (.var 19) (.lit 1)) (.bin (.shr .u32)
      (.var 19) (.lit 31)))),
    .asg 11 (.bin (.bxor .u32) (.var 18) (.var 17)),
    .asg 12 (.bin (.bxor .u32) (.ld 4 (.var 22)) (.var 2)),
    .asg 13 (.bin (.bxor .u32) (.bin (.shl .u32) (.bin (.bxor .u32) (.ld 4 (.padd (.var 22) (.lit 2) 4)) (.var 3))
      (.lit 22)) (.bin (.shr .u32) (.bin (.bxor .u32) (.ld 4 (.padd (.var 22) (.lit 2) 4)) (.var 3)) (.lit 10))),
    .asg 14 (.bin (.bxor .u32) (.bin (.shl .u32) (.bin (.bxor .u32) (.ld 4 (.padd (.var 22) (.lit 4) 4)) (.var 9))
      (.lit 22)) (.bin (.shr .u32) (.bin (.bxor .u32) (.ld 4 (.padd (.var 22) (.lit 4) 4)) (.var 9)) (.lit 10))),
    .asg 15 (.bin (.bxor .u32) (.bin (.shl .u32) (.bin (.bxor .u32) (.ld 4 (.padd (.var 22) (.lit 6) 4)) (.var 10))
      (.lit 11)) (.bin (.shr .u32) (.bin (.bxor .u32) (.ld 4 (.padd (.var 22) (.lit 6) 4)) (.var 10)) (.lit 21))),
    .asg 16 (.bin (.bxor .u32) (.bin (.shl .u32) (.bin (.bxor .u32) (.ld 4 (.padd (.var 22) (.lit 8) 4)) (.var 6))
      (.lit 7)) (.bin (.shr .u32) (.bin (.bxor .u32) (.ld 4 (.padd (.var 22) (.lit 8) 4)) (.var 6)) (.lit 25))),
    .st 4 (.var 22) (.bin (.bxor .u32) (.var 12) (.bin (.band .u32) (.un (.bnot .u32) (.var 13)) (.var 14))),
    .asg 43 (.var 21),
    .asg 21 (.padd (.var 43) (.lit 1) 4),
    .st 4 (.var 22) (.bin (.bxor .u32) (.ld 4 (.var 22)) (.ld 4 (.var 43))),
    .st 4 (.padd (.var 22) (.lit 2) 4) (.bin (.bxor .u32) (.var 13) (.bin (.band .u32) (.un (.bnot .u32) (.var 14))
      (.var 15))),
    .st 4 (.padd (.var 22) (.lit 4) 4) (.bin (.bxor .u32) (.var 14) (.bin (.band .u32) (.un (.bnot .u32) (.var 15))
      (.var 16))),
    .st 4 (.padd (.var 22) (.lit 6) 4) (.bin (.bxor .u32) (.var 15) (.bin (.band .u32) (.un (.bnot .u32) (.var 16))
      (.var 12))),
    .st 4 (.padd (.var 22) (.lit 8) 4) (.bin (.bxor .u32) (.var 16) (.bin (.band .u32) (.un (.bnot .u32) (.var 12))
      (.var 13))),
    .asg 12 (.bin (.bxor .u32) (.ld 4 (.padd (.var 22) (.lit 1) 4)) (.var 7)),
    .asg 13 (.bin (.bxor .u32) (.bin (.shl .u32) (.bin (.bxor .u32) (.ld 4 (.padd (.var 22) (.lit 3) 4)) (.var 8))
      (.lit 22)) (.bin (.shr .u32) (.bin (.bxor .u32) (.ld 4 (.padd (.var 22) (.lit 3) 4)) (.var 8)) (.lit 10))),
    .asg 14 (.bin (.bxor .u32) (.bin (.shl .u32) (.bin (.bxor .u32) (.ld 4 (.padd (.var 22) (.lit 5) 4)) (.var 4))
      (.lit 21)) (.bin (.shr .u32) (.bin (.bxor .u32) (.ld 4 (.padd (.var 22) (.lit 5) 4)) (.var 4)) (.lit 11))),
    .asg 15 (.bin (.bxor .u32) (.bin (.shl .u32) (.bin (.bxor .u32) (.ld 4 (.padd (.var 22) (.lit 7) 4)) (.var 5))
      (.lit 10)) (.bin (.shr .u32) (.bin (.bxor .u32) (.ld 4 (.padd (.var 22) (.lit 7) 4)) (.var 5)) (.lit 22))),
    .asg 16 (.bin (.bxor .u32) (.bin (.shl .u32) (.bin (.bxor .u32) (.ld 4 (.padd (.var 22) (.lit 9) 4)) (.var 11))
      (.lit 7)) (.bin (.shr .u32) (.bin (.bxor .u32) (.ld 4 (.padd (.var 22) (.lit 9) 4)) (.var 11)) (.lit 25))),
    .st 4 (.padd (.var 22) (.lit 1) 4) (.bin (.bxor .u32) (.var 12) (.bin (.band .u32) (.un (.bnot .u32) (.var 13))
      (.var 14))),
    .asg 44 (.var 21)]

/-- part of `KeccakP1600_Permute_Nrounds` -/
def KeccakP1600_Permute_Nrounds.part39 : Stmt :=
  block [
    .asg 21 (.padd (.var 44) (.lit 1) 4),
    .st 4 (.padd (.var 22) (.lit 1) 4) (.bin (.bxor .u32) (.ld 4 (.padd (.var 22) (.lit 1) 4)) (.ld 4 (.var 44))),
    .st 4 (.padd (.var 22) (.lit 3) 4) (.bin (.bxor .u32) (.var 13) (.bin (.band .u32) (.un (.bnot .u32) (.var 14))
      (.var 15))),
    .st 4 (.padd (.var 22) (.lit 5) 4) (.bin (.bxor .u32) (.var 14) (.bin (.band .u32) (.un (.bnot .u32) (.var 15))
      (.var 16))),
    .st 4 (.padd (.var 22) (.lit 7) 4) (.bin (.bxor .u32) (.var 15) (.bin (.band .u32) (.un (.bnot .u32) (.var 16))
      (.var 12))),
    .st 4 (.padd (.var 22) (.lit 9) 4) (.bin (.bxor .u32) (.var 16) (.bin (.band .u32) (.un (.bnot .u32) (.var 12))
      (.var 13))),
    .asg 14 (.bin (.bxor .u32) (.bin (.shl .u32) (.bin (.bxor .u32) (.ld 4 (.padd (.var 22) (.lit 10) 4)) (.var 7))
      (.lit 2)) (.bin (.shr .u32) (.bin (.bxor .u32) (.ld 4 (.padd (.var 22) (.lit 10) 4)) (.var 7)) (.lit 30))),
    .asg 15 (.bin (.bxor .u32) (.bin (.shl .u32) (.bin (.bxor .u32) (.ld 4 (.padd (.var 22) (.lit 12) 4)) (.var 8))
      (.lit 23)) (.bin (.shr .u32) (.bin (.bxor .u32) (.ld 4 (.padd (.var 22) (.lit 12) 4)) (.var 8)) (.lit 9))),
    .asg 16 (.bin (.bxor .u32) (.bin (.shl .u32) (.bin (.bxor .u32) (.ld 4 (.padd (.var 22) (.lit 14) 4)) (.var 9))
      (.lit 31)) (.bin (.shr .u32) (.bin (.bxor .u32) (.ld 4 (.padd (.var 22) (.lit 14) 4)) (.var 9)) (.lit 1))),
    .asg 12 (.bin (.bxor .u32) (.bin (.shl .u32) (.bin (.bxor .u32) (.ld 4 (.padd (.var 22) (.lit 16) 4)) (.var 5))
      (.lit 14)) (.bin (.shr .u32) (.bin (.bxor .u32) (.ld 4 (.padd (.var 22) (.lit 16) 4)) (.var 5)) (.lit 18))),
    .asg 13 (.bin (.bxor .u32) (.bin (.shl .u32) (.bin (.bxor .u32) (.ld 4 (.padd (.var 22) (.lit 18) 4)) (.var 6))
      (.lit 10)) (.bin (.shr .u32) (.bin (.bxor .u32) (.ld 4 (.padd (.var 22) (.lit 18) 4)) (.var 6)) (.lit 22))),
    .st 4 (.padd (.var 22) (.lit 10) 4) (.bin (.bxor .u32) (.var 12) (.bin (.band .u32) (.un (.bnot .u32) (.var 13))
      (.var 14))),
    .st 4 (.padd (.var 22) (.lit 12) 4) (.bin (.bxor .u32) (.var 13) (.bin (.band .u32) (.un (.bnot .u32) (.var 14))
      (.var 15))),
    .st 4 (.padd (.var 22) (.lit 14) 4) (.bin (.bxor .u32) (.var 14) (.bin (.band .u32) (.un (.bnot .u32) (.var 15))
      (.var 16))),
    .st 4 (.padd (.var 22) (.lit 16) 4) (.bin (.bxor .u32) (.var 15) (.bin (.band .u32) (.un (.bnot .u32) (.var 16))
      (.var 12))),
    .st 4 (.padd (.var 22) (.lit 18) 4) (.bin (.bxor .u32) (.var 16) (.bin (.band .u32) (.un (.bnot .u32) (.var 12))
      (.var 13))),
    .asg 14 (.bin (.bxor .u32) (.bin (.shl .u32) (.bin (.bxor .u32) (.ld 4 (.padd (.var 22) (.lit 11) 4)) (.var 2))
      (.lit 1)) (.bin (.shr .u32) (.bin (.bxor .u32) (.ld 4 (.padd (.var 22) (.lit 11) 4)) (.var 2)) (.lit 31))),
    .asg 15 (.bin (.bxor .u32) (.bin (.shl .u32) (.bin (.bxor .u32) (.ld 4 (.padd (.var 22) (.lit 13) 4)) (.var 3))
      (.lit 22)) (.bin (.shr .u32) (.bin (.bxor .u32) (.ld 4 (.padd (.var 22) (.lit 13) 4)) (.var 3)) (.lit 10))),
    .asg 16 (.bin (.bxor .u32) (.bin (.shl .u32) (.bin (.bxor .u32) (.ld 4 (.padd (.var 22) (.lit 15) 4)) (.var 4))
      (.lit 30)) (.bin (.shr .u32) (.bin (.bxor .u32) (.ld 4 (.padd (.var 22) (.lit 15) 4)) (.var 4)) (.lit 2))),
    .asg 12 (.bin (.bxor .u32) (.bin (.shl .u32) (.bin (.bxor .u32) (.ld 4 (.padd (.var 22) (.lit 17) 4)) (.var 10))
      (.lit 14)) (.bin (.shr .u32) (.bin (.bxor .u32) (.ld 4 (.padd (.var 22) (.lit 17) 4)) (.var 10)) (.lit 18))),
    .asg 13 (.bin (.bxor .u32) (.bin (.shl .u32) (.bin (.bxor .u32) (.ld 4 (.padd (.var 22) (.lit 19) 4)) (.var 11))
      (.lit 10)) (.bin (.shr .u32) (.bin (.bxor .u32) (.ld 4 (.padd (.var 22) (.lit 19) 4)) (.var 11)) (.lit 22))),
    .st 4 (.padd (.var 22) (.lit 11) 4) (.bin (.bxor .u32) (.var 12) (.bin (.band .u32) (.un (.bnot .u32) (.var 13))
      (.var 14))),
    .st 4 (.padd (.var 22) (.lit 13) 4) (.bin (.bxor .u32) (.var 13) (.bin (.band .u32) (.un (.bnot .u32) (.var 14))
      (.var 15))),
    .st 4 (.padd (.var 22) (.lit 15) 4) (.bin (.bxor .u32) (.var 14) (.bin (.band .u32) (.un (.bnot .u32) (.var 15))
      (.var 16))),
    .st 4 (.padd (.var 22) (.lit 17) 4) (.bin (.bxor .u32) (.var 15) (.bin (.band .u32) (.un (.bnot .u32) (.var 16))
      (.var 12))),
    .st 4 (.padd (.var 22) (.lit 19) 4) (.bin (.bxor .u32) (.var 16) (.bin (.band .u32) (.un (.bnot .u32) (.var 12))
      (.var 13))),
    .asg 16 (.bin (.bxor .u32) (.bin (.shl .u32) (.bin (.bxor .u32) (.ld 4 (.padd (.var 22) (.lit 20) 4)) (.var 2))
      (.lit 9)) (.bin (.shr .u32) (.bin (.bxor .u32) (.ld 4 (.padd (.var 22) (.lit 20) 4)) (.var 2)) (.lit 23))),
    .asg 12 (.bin (.bxor .u32) (.bin (.shl .u32) (.bin (.bxor .u32) (.ld 4 (.padd (.var 22) (.lit 22) 4)) (.var 8))
      (.lit 1)) (.bin (.shr .u32) (.bin (.bxor .u32) (.ld 4 (.padd (.var 22) (.lit 22) 4)) (.var 8)) (.lit 31))),
    .asg 13 (.bin (.bxor .u32) (.bin (.shl .u32) (.bin (.bxor .u32) (.ld 4 (.padd (.var 22) (.lit 24) 4)) (.var 4))
      (.lit 3)) (.bin (.shr .u32) (.bin (.bxor .u32) (.ld 4 (.padd (.var 22) (.lit 24) 4)) (.var 4)) (.lit 29))),
    .asg 14 (.bin (.bxor .u32) (.bin (.shl .u32) (.bin (.bxor .u32) (.ld 4 (.padd (.var 22) (.lit 26) 4)) (.var 10))
      (.lit 13)) (.bin (.shr .u32) (.bin (.bxor .u32) (.ld 4 (.padd (.var 22) (.lit 26) 4)) (.var 10)) (.lit 19))),
    .asg 15 (.bin (.bxor .u32) (.bin (.shl .u32) (.bin (.bxor .u32) (.ld 4 (.padd (.var 22) (.lit 28) 4)) (.var 6))
      (.lit 4)) (.bin (.shr .u32) (.bin (.bxor .u32) (.ld 4 (.padd (.var 22) (.lit 28) 4)) (.var 6)) (.lit 28))),
    .st 4 (.padd (.var 22) (.lit 20) 4) (.bin (.bxor .u32) (.var 12) (.bin (.band .u32) (.un (.bnot .u32) (.var 13))
      (.var 14))),
    .st 4 (.padd (.var 22) (.lit 22) 4) (.bin (.bxor .u32) (.var 13) (.bin (.band .u32) (.un (.bnot .u32) (.var 14))
      (.var 15))),
    .st 4 (.padd (.var 22) (.lit 24) 4) (.bin (.bxor .u32) (.var 14) (.bin (.band .u32) (.un (.bnot .u32) (.var 15))
      (.var 16))),
    .st 4 (.padd (.var 22) (.lit 26) 4) (.bin (.bxor .u32) (.var 15) (.bin (.band .u32) (.un (.bnot .u32) (.var 16))
      (.var 12))),
    .st 4 (.padd (.var 22) (.lit 28) 4) (.bin (.bxor .u32) (.var 16) (.bin (.band .u32) (.un (.bnot .u32) (.var 12))
      (.var 13))),
    .asg 16 (.bin (.bxor .u32) (.bin (.shl .u32) (.bin (.bxor .u32) (.ld 4 (.padd (.var 22) (.lit 21) 4)) (.var 7))
      (.lit 9)) (.bin (.shr .u32) (.bin (.bxor .u32) (.ld 4 (.padd (.var 22) (.lit 21) 4)) (.var 7)) (.lit 23))),
    .asg 12 (.bin (.bxor .u32) (.ld 4 (.padd (.var 22) (.lit 23) 4)) (.var 3)),
    .asg 13 (.bin (.bxor .u32) (.bin (.shl .u32) (.bin (.bxor .u32) (.ld 4 (.padd (.var 22) (.lit 25) 4)) (.var 9))
      (.lit 3)) (.bin (.shr .u32) (.bin (.bxor .u32) (.ld 4 (.padd (.var 22) (.lit 25) 4)) (.var 9)) (.lit 29))),
    .asg 14 (.bin (.bxor .u32) (.bin (.shl .u32) (.bin (.bxor .u32) (.ld 4 (.padd (.var 22) (.lit 27) 4)) (.var 5))
      (.lit 12)) (.bin (.shr .u32) (.bin (.bxor .u32) (.ld 4 (.padd (.var 22) (.lit 27) 4)) (.var 5)) (.lit 20)))]

/-- part of `KeccakP1600_Permute_Nrounds` -/
def KeccakP1600_Permute_Nrounds.part40 : Stmt :=
  block [
    .asg 15 (.bin (.bxor .u32) (.bin (.shl .u32) (.bin (.bxor .u32) (.ld 4 (.padd (.var 22) (.lit 29) 4)) (.var 11))
      (.lit 4)) (.bin (.shr .u32) (.bin (.bxor .u32) (.ld 4 (.padd (.var 22) (.lit 29) 4)) (.var 11)) (.lit 28))),
    .st 4 (.padd (.var 22) (.lit 21) 4) (.bin (.bxor .u32) (.var 12) (.bin (.band .u32) (.un (.bnot .u32) (.var 13))
      (.var 14))),
    .st 4 (.padd (.var 22) (.lit 23) 4) (.bin (.bxor .u32) (.var 13) (.bin (.band .u32) (.un (.bnot .u32) (.var 14))
      (.var 15))),
    .st 4 (.padd (.var 22) (.lit 25) 4) (.bin (.bxor .u32) (.var 14) (.bin (.band .u32) (.un (.bnot .u32) (.var 15))
      (.var 16))),
    .st 4 (.padd (.var 22) (.lit 27) 4) (.bin (.bxor .u32) (.var 15) (.bin (.band .u32) (.un (.bnot .u32) (.var 16))
      (.var 12))),
    .st 4 (.padd (.var 22) (.lit 29) 4) (.bin (.bxor .u32) (.var 16) (.bin (.band .u32) (.un (.bnot .u32) (.var 12))
      (.var 13))),
    .asg 13 (.bin (.bxor .u32) (.bin (.shl .u32) (.bin (.bxor .u32) (.ld 4 (.padd (.var 22) (.lit 30) 4)) (.var 2))
      (.lit 18)) (.bin (.shr .u32) (.bin (.bxor .u32) (.ld 4 (.padd (.var 22) (.lit 30) 4)) (.var 2)) (.lit 14))),
    .asg 14 (.bin (.bxor .u32) (.bin (.shl .u32) (.bin (.bxor .u32) (.ld 4 (.padd (.var 22) (.lit 32) 4)) (.var 3))
      (.lit 5)) (.bin (.shr .u32) (.bin (.bxor .u32) (.ld 4 (.padd (.var 22) (.lit 32) 4)) (.var 3)) (.lit 27))),
    .asg 15 (.bin (.bxor .u32) (.bin (.shl .u32) (.bin (.bxor .u32) (.ld 4 (.padd (.var 22) (.lit 34) 4)) (.var 9))
      (.lit 8)) (.bin (.shr .u32) (.bin (.bxor .u32) (.ld 4 (.padd (.var 22) (.lit 34) 4)) (.var 9)) (.lit 24))),
    .asg 16 (.bin (.bxor .u32) (.bin (.shl .u32) (.bin (.bxor .u32) (.ld 4 (.padd (.var 22) (.lit 36) 4)) (.var 5))
      (.lit 28)) (.bin (.shr .u32) (.bin (.bxor .u32) (.ld 4 (.padd (.var 22) (.lit 36) 4)) (.var 5)) (.lit 4))),
    .asg 12 (.bin (.bxor .u32) (.bin (.shl .u32) (.bin (.bxor .u32) (.ld 4 (.padd (.var 22) (.lit 38) 4)) (.var 11))
      (.lit 14)) (.bin (.shr .u32) (.bin (.bxor .u32) (.ld 4 (.padd (.var 22) (.lit 38) 4)) (.var 11)) (.lit 18))),
    .st 4 (.padd (.var 22) (.lit 30) 4) (.bin (.bxor .u32) (.var 12) (.bin (.band .u32) (.un (.bnot .u32) (.var 13))
      (.var 14))),
    .st 4 (.padd (.var 22) (.lit 32) 4) (.bin (.bxor .u32) (.var 13) (.bin (.band .u32) (.un (.bnot .u32) (.var 14))
      (.var 15))),
    .st 4 (.padd (.var 22) (.lit 34) 4) (.bin (.bxor .u32) (.var 14) (.bin (.band .u32) (.un (.bnot .u32) (.var 15))
      (.var 16))),
    .st 4 (.padd (.var 22) (.lit 36) 4) (.bin (.bxor .u32) (.var 15) (.bin (.band .u32) (.un (.bnot .u32) (.var 16))
      (.var 12))),
    .st 4 (.padd (.var 22) (.lit 38) 4) (.bin (.bxor .u32) (.var 16) (.bin (.band .u32) (.un (.bnot .u32) (.var 12))
      (.var 13))),
    .asg 13 (.bin (.bxor .u32) (.bin (.shl .u32) (.bin (.bxor .u32) (.ld 4 (.padd (.var 22) (.lit 31) 4)) (.var 7))
      (.lit 18)) (.bin (.shr .u32) (.bin (.bxor .u32) (.ld 4 (.padd (.var 22) (.lit 31) 4)) (.var 7)) (.lit 14))),
    .asg 14 (.bin (.bxor .u32) (.bin (.shl .u32) (.bin (.bxor .u32) (.ld 4 (.padd (.var 22) (.lit 33) 4)) (.var 8))
      (.lit 5)) (.bin (.shr .u32) (.bin (.bxor .u32) (.ld 4 (.padd (.var 22) (.lit 33) 4)) (.var 8)) (.lit 27))),
    .asg 15 (.bin (.bxor .u32) (.bin (.shl .u32) (.bin (.bxor .u32) (.ld 4 (.padd (.var 22) (.lit 35) 4)) (.var 4))
      (.lit 7)) (.bin (.shr .u32) (.bin (.bxor .u32) (.ld 4 (.padd (.var 22) (.lit 35) 4)) (.var 4)) (.lit 25))),
    .asg 16 (.bin (.bxor .u32) (.bin (.shl .u32) (.bin (.bxor .u32) (.ld 4 (.padd (.var 22) (.lit 37) 4)) (.var 10))
      (.lit 28)) (.bin (.shr .u32) (.bin (.bxor .u32) (.ld 4 (.padd (.var 22) (.lit 37) 4)) (.var 10)) (.lit 4))),
    .asg 12 (.bin (.bxor .u32) (.bin (.shl .u32) (.bin (.bxor .u32) (.ld 4 (.padd (.var 22) (.lit 39) 4)) (.var 6))
      (.lit 13)) (.bin (.shr .u32) (.bin (.bxor .u32) (.ld 4 (.padd (.var 22) (.lit 39) 4)) (.var 6)) (.lit 19))),
    .st 4 (.padd (.var 22) (.lit 31) 4) (.bin (.bxor .u32) (.var 12) (.bin (.band .u32) (.un (.bnot .u32) (.var 13))
      (.var 14))),
    .st 4 (.padd (.var 22) (.lit 33) 4) (.bin (.bxor .u32) (.var 13) (.bin (.band .u32) (.un (.bnot .u32) (.var 14))
      (.var 15))),
    .st 4 (.padd (.var 22) (.lit 35) 4) (.bin (.bxor .u32) (.var 14) (.bin (.band .u32) (.un (.bnot .u32) (.var 15))
      (.var 16))),
    .st 4 (.padd (.var 22) (.lit 37) 4) (.bin (.bxor .u32) (.var 15) (.bin (.band .u32) (.un (.bnot .u32) (.var 16))
      (.var 12))),
    .st 4 (.padd (.var 22) (.lit 39) 4) (.bin (.bxor .u32) (.var 16) (.bin (.band .u32) (.un (.bnot .u32) (.var 12))
      (.var 13))),
    .asg 15 (.bin (.bxor .u32) (.bin (.shl .u32) (.bin (.bxor .u32) (.ld 4 (.padd (.var 22) (.lit 40) 4)) (.var 7))
      (.lit 21)) (.bin (.shr .u32) (.bin (.bxor .u32) (.ld 4 (.padd (.var 22) (.lit 40) 4)) (.var 7)) (.lit 11))),
    .asg 16 (.bin (.bxor .u32) (.bin (.shl .u32) (.bin (.bxor .u32) (.ld 4 (.padd (.var 22) (.lit 42) 4)) (.var 3))
      (.lit 1)) (.bin (.shr .u32) (.bin (.bxor .u32) (.ld 4 (.padd (.var 22) (.lit 42) 4)) (.var 3)) (.lit 31))),
    .asg 12 (.bin (.bxor .u32) (.bin (.shl .u32) (.bin (.bxor .u32) (.ld 4 (.padd (.var 22) (.lit 44) 4)) (.var 4))
      (.lit 31)) (.bin (.shr .u32) (.bin (.bxor .u32) (.ld 4 (.padd (.var 22) (.lit 44) 4)) (.var 4)) (.lit 1))),
    .asg 13 (.bin (.bxor .u32) (.bin (.shl .u32) (.bin (.bxor .u32) (.ld 4 (.padd (.var 22) (.lit 46) 4)) (.var 10))
      (.lit 28)) (.bin (.shr .u32) (.bin (.bxor .u32) (.ld 4 (.padd (.var 22) (.lit 46) 4)) (.var 10)) (.lit 4))),
    .asg 14 (.bin (.bxor .u32) (.bin (.shl .u32) (.bin (.bxor .u32) (.ld 4 (.padd (.var 22) (.lit 48) 4)) (.var 11))
      (.lit 20)) (.bin (.shr .u32) (.bin (.bxor .u32) (.ld 4 (.padd (.var 22) (.lit 48) 4)) (.var 11)) (.lit 12))),
    .st 4 (.padd (.var 22) (.lit 40) 4) (.bin (.bxor .u32) (.var 12) (.bin (.band .u32) (.un (.bnot .u32) (.var 13))
      (.var 14))),
    .st 4 (.padd (.var 22) (.lit 42) 4) (.bin (.bxor .u32) (.var 13) (.bin (.band .u32) (.un (.bnot .u32) (.var 14))
      (.var 15))),
    .st 4 (.padd (.var 22) (.lit 44) 4) (.bin (.bxor .u32) (.var 14) (.bin (.band .u32) (.un (.bnot .u32) (.var 15))
      (.var 16))),
    .st 4 (.padd (.var 22) (.lit 46) 4) (.bin (.bxor .u32) (.var 15) (.bin (.band .u32) (.un (.bnot .u32) (.var 16))
      (.var 12))),
    .st 4 (.padd (.var 22) (.lit 48) 4) (.bin (.bxor .u32) (.var 16) (.bin (.band .u32) (.un (.bnot .u32) (.var 12))
      (.var 13))),
    .asg 15 (.bin (.bxor .u32) (.bin (.shl .u32) (.bin (.bxor .u32) (.ld 4 (.padd (.var 22) (.lit 41) 4)) (.var 2))
      (.lit 20)) (.bin (.shr .u32) (.bin (.bxor .u32) (.ld 4 (.padd (.var 22) (.lit 41) 4)) (.var 2)) (.lit 12))),
    .asg 16 (.bin (.bxor .u32) (.bin (.shl .u32) (.bin (.bxor .u32) (.ld 4 (.padd (.var 22) (.lit 43) 4)) (.var 8))
      (.lit 1)) (.bin (.shr .u32) (.bin (.bxor .u32) (.ld 4 (.padd (.var 22) (.lit 43) 4)) (.var 8)) (.lit 31))),
    .asg 12 (.bin (.bxor .u32) (.bin (.shl .u32) (.bin (.bxor .u32) (.ld 4 (.padd (.var 22) (.lit 45) 4)) (.var 9))
      (.lit 31)) (.bin (.shr .u32) (.bin (.bxor .u32) (.ld 4 (.padd (.var 22) (.lit 45) 4)) (.var 9)) (.lit 1))),
    .asg 13 (.bin (.bxor .u32) (.bin (.shl .u32) (.bin (.bxor .u32) (.ld 4 (.padd (.var 22) (.lit 47) 4)) (.var 5))
      (.lit 27)) (.bin (.shr .u32) (.bin (.bxor .u32) (.ld 4 (.padd (.var 22) (.lit 47) 4)) (.var 5)) (.lit 5)))]

/-- part of `KeccakP1600_Permute_Nrounds` -/
def KeccakP1600_Permute_Nrounds.part41 : Stmt :=
  block [
    .asg 14 (.bin (.bxor .u32) (.bin (.shl .u32) (.bin (.bxor .u32) (.ld 4 (.padd (.var 22) (.lit 49) 4)) (.var 6))
      (.lit 19)) (.bin (.shr .u32) (.bin (.bxor .u32) (.ld 4 (.padd (.var 22) (.lit 49) 4)) (.var 6)) (.lit 13))),
    .st 4 (.padd (.var 22) (.lit 41) 4) (.bin (.bxor .u32) (.var 12) (.bin (.band .u32) (.un (.bnot .u32) (.var 13))
      (.var 14))),
    .st 4 (.padd (.var 22) (.lit 43) 4) (.bin (.bxor .u32) (.var 13) (.bin (.band .u32) (.un (.bnot .u32) (.var 14))
      (.var 15))),
    .st 4 (.padd (.var 22) (.lit 45) 4) (.bin (.bxor .u32) (.var 14) (.bin (.band .u32) (.un (.bnot .u32) (.var 15))
      (.var 16))),
    .st 4 (.padd (.var 22) (.lit 47) 4) (.bin (.bxor .u32) (.var 15) (.bin (.band .u32) (.un (.bnot .u32) (.var 16))
      (.var 12))),
    .st 4 (.padd (.var 22) (.lit 49) 4) (.bin (.bxor .u32) (.var 16) (.bin (.band .u32) (.un (.bnot .u32) (.var 12))
      (.var 13)))]

/-- `KeccakP1600_Permute_Nrounds`, sha3/plain32/KeccakP-1600-inplace32BI.c:963-1149; variables: 0 state, 1 nRounds, 2
  Da0, 3 De0, 4 Di0, 5 Do0, 6 Du0, 7 Da1, 8 De1, 9 Di1, 10 Do1, 11 Du1, 12 Ba, 13 Be, 14 Bi, 15 Bo, 16 Bu, 17 Cx, 18
  Cy, 19 Cz, 20 Cw, 21 pRoundConstants, 22 stateAsHalfLanes -/
def KeccakP1600_Permute_Nrounds : Fn := ⟨2,
  block [
    .asg 21 (.padd (.glob 14) (.bin (.mul .u32) (.bin (.sub .u32) (.lit 24) (.var 1)) (.lit 2)) 4),
    .asg 22 (.var 0),
    .asg 1 (.bin (.band .u32) (.var 1) (.lit 3)),
    .asg 23 (.var 1),
    .ite (.bin .eq (.var 23) (.lit 1))
      (block [
        KeccakP1600_Permute_Nrounds.part0,
        KeccakP1600_Permute_Nrounds.part1,
        KeccakP1600_Permute_Nrounds.part2])
      (.ite (.bin .eq (.var 23) (.lit 2))
          (block [
            KeccakP1600_Permute_Nrounds.part3,
            KeccakP1600_Permute_Nrounds.part4])
          (.ite (.bin .eq (.var 23) (.lit 3))
              (block [
                KeccakP1600_Permute_Nrounds.part5,
                KeccakP1600_Permute_Nrounds.part6,
                KeccakP1600_Permute_Nrounds.part7])
              (.skip))),
    .loop (.lit 1)
      (block [
        .asg 24 (.var 1),
        .ite (.bin .eq (.var 24) (.lit 0))
          (block [
            KeccakP1600_Permute_Nrounds.part8,
            KeccakP1600_Permute_Nrounds.part9,
            KeccakP1600_Permute_Nrounds.part10,
            KeccakP1600_Permute_Nrounds.part11,
            KeccakP1600_Permute_Nrounds.part12,
            KeccakP1600_Permute_Nrounds.part13,
            KeccakP1600_Permute_Nrounds.part14,
            KeccakP1600_Permute_Nrounds.part15,
            KeccakP1600_Permute_Nrounds.part16,
            KeccakP1600_Permute_Nrounds.part17,
            KeccakP1600_Permute_Nrounds.part18,
            KeccakP1600_Permute_Nrounds.part19,
            KeccakP1600_Permute_Nrounds.part20])
          (.ite (.bin .eq (.var 24) (.lit 3))
              (block [
                KeccakP1600_Permute_Nrounds.part21,
                KeccakP1600_Permute_Nrounds.part22,
                KeccakP1600_Permute_Nrounds.part23,
                KeccakP1600_Permute_Nrounds.part24,
                KeccakP1600_Permute_Nrounds.part25,
                KeccakP1600_Permute_Nrounds.part26,
                KeccakP1600_Permute_Nrounds.part27,
                KeccakP1600_Permute_Nrounds.part28,
                KeccakP1600_Permute_Nrounds.part29,
                KeccakP1600_Permute_Nrounds.part30])
              (.ite (.bin .eq (.var 24) (.lit 2))
                  (block [
                    KeccakP1600_Permute_Nrounds.part31,
                    KeccakP1600_Permute_Nrounds.part32,
                    KeccakP1600_Permute_Nrounds.part33,
                    KeccakP1600_Permute_Nrounds.part34,
                    KeccakP1600_Permute_Nrounds.part35,
                    KeccakP1600_Permute_Nrounds.part36,
                    KeccakP1600_Permute_Nrounds.part37])
                  (.ite (.bin .eq (.var 24) (.lit 1))
                      (block [
                        KeccakP1600_Permute_Nrounds.part38,
                        KeccakP1600_Permute_Nrounds.part39,
                        KeccakP1600_Permute_Nrounds.part40,
                        KeccakP1600_Permute_Nrounds.part41])
                      (.skip)))),
        .asg 1 (.lit 0),
        .ite (.un .lnot (.bin .ne (.ld 4 (.var 21)) (.lit 255)))
          (.brk)
          (.skip)])
      (.skip)]⟩

/-- `KeccakP1600_Permute_24rounds`, sha3/plain32/KeccakP-1600-inplace32BI.c:1160-1163; variables: 0 state -/
def KeccakP1600_Permute_24rounds : Fn := ⟨1,
  .call none Id.KeccakP1600_Permute_Nrounds [.var 0, .lit 24]⟩

/-- `KeccakP1600_AddByte`, sha3/plain32/KeccakP-1600-inplace32BI.c:122-139; variables: 0 state, 1 byte, 2 offset, 3
  lanePosition, 4 offsetInLane, 5 low, 6 high, 7 temp, 8 temp0, 9 temp1, 10 stateAsHalfLanes -/
def KeccakP1600_AddByte : Fn := ⟨3,
  block [
    .asg 3 (.div (.div .u32) (.var 2) (.lit 8)),
    .asg 4 (.div (.mod .u32) (.var 2) (.lit 8)),
    .asg 10 (.var 0),
    .ite (.bin .lt (.var 4) (.lit 4))
      (block [
        .asg 5 (.bin (.shl .u32) (.var 1) (.bin (.mul .u32) (.var 4) (.lit 8))),
        .asg 6 (.lit 0)])
      (block [
        .asg 5 (.lit 0),
        .asg 6 (.bin (.shl .u32) (.var 1) (.bin (.mul .u32) (.bin (.sub .u32) (.var 4) (.lit 4)) (.lit 8)))]),
    .asg 8 (.var 5),
    .asg 7 (.un (.cast .u32) (.bin (.band .u64) (.bin (.bxor .u32) (.var 8) (.bin (.shr .u32) (.var 8) (.lit 1)))
      (.lit 572662306))),
    .asg 8 (.bin (.bxor .u32) (.bin (.bxor .u32) (.var 8) (.var 7)) (.bin (.shl .u32) (.var 7) (.lit 1))),
    .asg 7 (.un (.cast .u32) (.bin (.band .u64) (.bin (.bxor .u32) (.var 8) (.bin (.shr .u32) (.var 8) (.lit 2)))
      (.lit 202116108))),
    .asg 8 (.bin (.bxor .u32) (.bin (.bxor .u32) (.var 8) (.var 7)) (.bin (.shl .u32) (.var 7) (.lit 2))),
    .asg 7 (.un (.cast .u32) (.bin (.band .u64) (.bin (.bxor .u32) (.var 8) (.bin (.shr .u32) (.var 8) (.lit 4)))
      (.lit 15728880))),
    .asg 8 (.bin (.bxor .u32) (.bin (.bxor .u32) (.var 8) (.var 7)) (.bin (.shl .u32) (.var 7) (.lit 4))),
    .asg 7 (.un (.cast .u32) (.bin (.band .u64) (.bin (.bxor .u32) (.var 8) (.bin (.shr .u32) (.var 8) (.lit 8)))
      (.lit 65280))),
    .asg 8 (.bin (.bxor .u32) (.bin (.bxor .u32) (.var 8) (.var 7)) (.bin (.shl .u32) (.var 7) (.lit 8))),
    .asg 9 (.var 6),
    .asg 7 (.un (.cast .u32) (.bin (.band .u64) (.bin (.bxor .u32) (.var 9) (.bin (.shr .u32) (.var 9) (.lit 1)))
      (.lit 572662306))),
    .asg 9 (.bin (.bxor .u32) (.bin (.bxor .u32) (.var 9) (.var 7)) (.bin (.shl .u32) (.var 7) (.lit 1))),
    .asg 7 (.un (.cast .u32) (.bin (.band .u64) (.bin (.bxor .u32) (.var 9) (.bin (.shr .u32) (.var 9) (.lit 2)))
      (.lit 202116108))),
    .asg 9 (.bin (.bxor .u32) (.bin (.bxor .u32) (.var 9) (.var 7)) (.bin (.shl .u32) (.var 7) (.lit 2))),
    .asg 7 (.un (.cast .u32) (.bin (.band .u64) (.bin (.bxor .u32) (.var 9) (.bin (.shr .u32) (.var 9) (.lit 4)))
      (.lit 15728880))),
    .asg 9 (.bin (.bxor .u32) (.bin (.bxor .u32) (.var 9) (.var 7)) (.bin (.shl .u32) (.var 7) (.lit 4))),
    .asg 7 (.un (.cast .u32) (.bin (.band .u64) (.bin (.bxor .u32) (.var 9) (.bin (.shr .u32) (.var 9) (.lit 8)))
      (.lit 65280))),
    .asg 9 (.bin (.bxor .u32) (.bin (.bxor .u32) (.var 9) (.var 7)) (.bin (.shl .u32) (.var 7) (.lit 8))),
    .st 4 (.padd (.var 10) (.bin (.add .u32) (.bin (.mul .u32) (.var 3) (.lit 2)) (.lit 0)) 4) (.bin (.bxor .u32)
      (.ld 4 (.padd (.var 10) (.bin (.add .u32) (.bin (.mul .u32) (.var 3) (.lit 2)) (.lit 0)) 4)) (.bin (.bor .u32)
      (.bin (.band .u32) (.var 8) (.lit 65535)) (.bin (.shl .u32) (.var 9) (.lit 16)))),
    .st 4 (.padd (.var 10) (.bin (.add .u32) (.bin (.mul .u32) (.var 3) (.lit 2)) (.lit 1)) 4) (.bin (.bxor .u32)
      (.ld 4 (.padd (.var 10) (.bin (.add .u32) (.bin (.mul .u32) (.var 3) (.lit 2)) (.lit 1)) 4)) (.bin (.bor .u32)
      (.bin (.shr .u32) (.var 8) (.lit 16)) (.bin (.band .u32) (.var 9) (.lit 4294901760))))]⟩

/-- `KeccakP1600_ExtractLanes`, sha3/plain32/KeccakP-1600-inplace32BI.c:312-348; variables: 0 state, 1 data, 2
  laneCount, 3 lanePosition, 4 stateAsHalfLanes, 5 low, 6 high, 7 temp, 8 temp0, 9 temp1, 10 laneAsBytes -/
def KeccakP1600_ExtractLanes : Fn := ⟨3,
  block [
    .asg 3 (.lit 0),
    .loop (.bin .lt (.var 3) (.var 2))
      (block [
        .asg 4 (.var 0),
        .asg 8 (.ld 4 (.padd (.var 4) (.bin (.mul .u32) (.var 3) (.lit 2)) 4)),
        .asg 9 (.ld 4 (.padd (.var 4) (.bin (.add .u32) (.bin (.mul .u32) (.var 3) (.lit 2)) (.lit 1)) 4)),
        .asg 7 (.bin (.bor .u32) (.bin (.band .u32) (.var 8) (.lit 65535)) (.bin (.shl .u32) (.var 9) (.lit 16))),
        .asg 9 (.bin (.bor .u32) (.bin (.shr .u32) (.var 8) (.lit 16)) (.bin (.band .u32) (.var 9) (.lit
          4294901760))),
        .asg 8 (.var 7),
        .asg 7 (.un (.cast .u32) (.bin (.band .u64) (.bin (.bxor .u32) (.var 8) (.bin (.shr .u32) (.var 8) (.lit 8)))
          (.lit 65280))),
        .asg 8 (.bin (.bxor .u32) (.bin (.bxor .u32) (.var 8) (.var 7)) (.bin (.shl .u32) (.var 7) (.lit 8))),
        .asg 7 (.un (.cast .u32) (.bin (.band .u64) (.bin (.bxor .u32) (.var 8) (.bin (.shr .u32) (.var 8) (.lit 4)))
          (.lit 15728880))),
        .asg 8 (.bin (.bxor .u32) (.bin (.bxor .u32) (.var 8) (.var 7)) (.bin (.shl .u32) (.var 7) (.lit 4))),
        .asg 7 (.un (.cast .u32) (.bin (.band .u64) (.bin (.bxor .u32) (.var 8) (.bin (.shr .u32) (.var 8) (.lit 2)))
          (.lit 202116108))),
        .asg 8 (.bin (.bxor .u32) (.bin (.bxor .u32) (.var 8) (.var 7)) (.bin (.shl .u32) (.var 7) (.lit 2))),
        .asg 7 (.un (.cast .u32) (.bin (.band .u64) (.bin (.bxor .u32) (.var 8) (.bin (.shr .u32) (.var 8) (.lit 1)))
          (.lit 572662306))),
        .asg 8 (.bin (.bxor .u32) (.bin (.bxor .u32) (.var 8) (.var 7)) (.bin (.shl .u32) (.var 7) (.lit 1))),
        .asg 7 (.un (.cast .u32) (.bin (.band .u64) (.bin (.bxor .u32) (.var 9) (.bin (.shr .u32) (.var 9) (.lit 8)))
          (.lit 65280))),
        .asg 9 (.bin (.bxor .u32) (.bin (.bxor .u32) (.var 9) (.var 7)) (.bin (.shl .u32) (.var 7) (.lit 8))),
        .asg 7 (.un (.cast .u32) (.bin (.band .u64) (.bin (.bxor .u32) (.var 9) (.bin (.shr .u32) (.var 9) (.lit 4)))
          (.lit 15728880))),
        .asg 9 (.bin (.bxor .u32) (.bin (.bxor .u32) (.var 9) (.var 7)) (.bin (.shl .u32) (.var 7) (.lit 4))),
        .asg 7 (.un (.cast .u32) (.bin (.band .u64) (.bin (.bxor .u32) (.var 9) (.bin (.shr .u32) (.var 9) (.lit 2)))
          (.lit 202116108))),
        .asg 9 (.bin (.bxor .u32) (.bin (.bxor .u32) (.var 9) (.var 7)) (.bin (.shl .u32) (.var 7) (.lit 2))),
        .asg 7 (.un (.cast .u32) (.bin (.band .u64) (.bin (.bxor .u32) (.var 9) (.bin (.shr .u32) (.var 9) (.lit 1)))
          (.lit 572662306))),
        .asg 9 (.bin (.bxor .u32) (.bin (.bxor .u32) (.var 9) (.var 7)) (.bin (.shl .u32) (.var 7) (.lit 1))),
        .asg 5 (.var 8),
        .asg 6 (.var 9),
        .new 10 (.lit 8),
        .st 1 (.var 10) (.un (.cast .u8) (.bin (.band .u32) (.var 5) (.lit 255))),
        .st 1 (.padd (.var 10) (.lit 1) 1) (.un (.cast .u8) (.bin (.band .u32) (.bin (.shr .u32) (.var 5) (.lit 8))
          (.lit 255))),
        .st 1 (.padd (.var 10) (.lit 2) 1) (.un (.cast .u8) (.bin (.band .u32) (.bin (.shr .u32) (.var 5) (.lit 16))
          (.lit 255))),
        .st 1 (.padd (.var 10) (.lit 3) 1) (.un (.cast .u8) (.bin (.band .u32) (.bin (.shr .u32) (.var 5) (.lit 24))
          (.lit 255))),
        .st 1 (.padd (.var 10) (.lit 4) 1) (.un (.cast .u8) (.bin (.band .u32) (.var 6) (.lit 255))),
        .st 1 (.padd (.var 10) (.lit 5) 1) (.un (.cast .u8) (.bin (.band .u32) (.bin (.shr .u32) (.var 6) (.lit 8))
          (.lit 255))),
        .st 1 (.padd (.var 10) (.lit 6) 1) (.un (.cast .u8) (.bin (.band .u32) (.bin (.shr .u32) (.var 6) (.lit 16))
          (.lit 255))),
        .st 1 (.padd (.var 10) (.lit 7) 1) (.un (.cast .u8) (.bin (.band .u32) (.bin (.shr .u32) (.var 6) (.lit 24))
          (.lit 255))),
        .call (some 11) Prog.Id.memcpy [.padd (.var 1) (.bin (.mul .u32) (.var 3) (.lit 8)) 1, .var 10, .lit 8]])
      (.asg 3 (.bin (.add .u32) (.var 3) (.lit 1)))]⟩

/-- `KeccakP1600_ExtractBytesInLane`, sha3/plain32/KeccakP-1600-inplace32BI.c:287-308; variables: 0 state, 1
  lanePosition, 2 data, 3 offset, 4 length, 5 stateAsHalfLanes, 6 low, 7 high, 8 temp, 9 temp0, 10 temp1, 11
  laneAsBytes -/
def KeccakP1600_ExtractBytesInLane : Fn := ⟨5,
  block [
    .asg 5 (.var 0),
    .new 11 (.lit 8),
    .asg 9 (.ld 4 (.padd (.var 5) (.bin (.mul .u32) (.var 1) (.lit 2)) 4)),
    .asg 10 (.ld 4 (.padd (.var 5) (.bin (.add .u32) (.bin (.mul .u32) (.var 1) (.lit 2)) (.lit 1)) 4)),
    .asg 8 (.bin (.bor .u32) (.bin (.band .u32) (.var 9) (.lit 65535)) (.bin (.shl .u32) (.var 10) (.lit 16))),
    .asg 10 (.bin (.bor .u32) (.bin (.shr .u32) (.var 9) (.lit 16)) (.bin (.band .u32) (.var 10) (.lit 4294901760))),
    .asg 9 (.var 8),
    .asg 8 (.un (.cast .u32) (.bin (.band .u64) (.bin (.bxor .u32) (.var 9) (.bin (.shr .u32) (.var 9) (.lit 8)))
      (.lit 65280))),
    .asg 9 (.bin (.bxor .u32) (.bin (.bxor .u32) (.var 9) (.var 8)) (.bin (.shl .u32) (.var 8) (.lit 8))),
    .asg 8 (.un (.cast .u32) (.bin (.band .u64) (.bin (.bxor .u32) (.var 9) (.bin (.shr .u32) (.var 9) (.lit 4)))
      (.lit 15728880))),
    .asg 9 (.bin (.bxor .u32) (.bin (.bxor .u32) (.var 9) (.var 8)) (.bin (.shl .u32) (.var 8) (.lit 4))),
    .asg 8 (.un (.cast .u32) (.bin (.band .u64) (.bin (.bxor .u32) (.var 9) (.bin (.shr .u32) (.var 9) (.lit 2)))
      (.lit 202116108))),
    .asg 9 (.bin (.bxor .u32) (.bin (.bxor .u32) (.var 9) (.var 8)) (.bin (.shl .u32) (.var 8) (.lit 2))),
    .asg 8 (.un (.cast .u32) (.bin (.band .u64) (.bin (.bxor .u32) (.var 9) (.bin (.shr .u32) (.var 9) (.lit 1)))
      (.lit 572662306))),
    .asg 9 (.bin (.bxor .u32) (.bin (.bxor .u32) (.var 9) (.var 8)) (.bin (.shl .u32) (.var 8) (.lit 1))),
    .asg 8 (.un (.cast .u32) (.bin (.band .u64) (.bin (.bxor .u32) (.var 10) (.bin (.shr .u32) (.var 10) (.lit 8)))
      (.lit 65280))),
    .asg 10 (.bin (.bxor .u32) (.bin (.bxor .u32) (.var 10) (.var 8)) (.bin (.shl .u32) (.var 8) (.lit 8))),
    .asg 8 (.un (.cast .u32) (.bin (.band .u64) (.bin (.bxor .u32) (.var 10) (.bin (.shr .u32) (.var 10) (.lit 4)))
      (.lit 15728880))),
    .asg 10 (.bin (.bxor .u32) (.bin (.bxor .u32) (.var 10) (.var 8)) (.bin (.shl .u32) (.var 8) (.lit 4))),
    .asg 8 (.un (.cast .u32) (.bin (.band .u64) (.bin (.bxor .u32) (.var 10) (.bin (.shr .u32) (.var 10) (.lit 2)))
      (.lit 202116108))),
    .asg 10 (.bin (.bxor .u32) (.bin (.bxor .u32) (.var 10) (.var 8)) (.bin (.shl .u32) (.var 8) (.lit 2))),
    .asg 8 (.un (.cast .u32) (.bin (.band .u64) (.bin (.bxor .u32) (.var 10) (.bin (.shr .u32) (.var 10) (.lit 1)))
      (.lit 572662306))),
    .asg 10 (.bin (.bxor .u32) (.bin (.bxor .u32) (.var 10) (.var 8)) (.bin (.shl .u32) (.var 8) (.lit 1))),
    .asg 6 (.var 9),
    .asg 7 (.var 10),
    .st 1 (.var 11) (.un (.cast .u8) (.bin (.band .u32) (.var 6) (.lit 255))),
    .st 1 (.padd (.var 11) (.lit 1) 1) (.un (.cast .u8) (.bin (.band .u32) (.bin (.shr .u32) (.var 6) (.lit 8)) (.lit
      255))),
    .st 1 (.padd (.var 11) (.lit 2) 1) (.un (.cast .u8) (.bin (.band .u32) (.bin (.shr .u32) (.var 6) (.lit 16))
      (.lit 255))),
    .st 1 (.padd (.var 11) (.lit 3) 1) (.un (.cast .u8) (.bin (.band .u32) (.bin (.shr .u32) (.var 6) (.lit 24))
      (.lit 255))),
    .st 1 (.padd (.var 11) (.lit 4) 1) (.un (.cast .u8) (.bin (.band .u32) (.var 7) (.lit 255))),
    .st 1 (.padd (.var 11) (.lit 5) 1) (.un (.cast .u8) (.bin (.band .u32) (.bin (.shr .u32) (.var 7) (.lit 8)) (.lit
      255))),
    .st 1 (.padd (.var 11) (.lit 6) 1) (.un (.cast .u8) (.bin (.band .u32) (.bin (.shr .u32) (.var 7) (.lit 16))
      (.lit 255))),
    .st 1 (.padd (.var 11) (.lit 7) 1) (.un (.cast .u8) (.bin (.band .u32) (.bin (.shr .u32) (.var 7) (.lit 24))
      (.lit 255))),
    .call (some 12) Prog.Id.memcpy [.var 2, .padd (.var 11) (.var 3) 1, .var 4]]⟩

end Faest.Leak.Prog32Be
