/-
Generated by tools/c2leak.py; do not edit.
Functions of sha3/avx2/KeccakP-1600-times4-SIMD256.c.
-/
import Verif.Model.Leak.IR
import Verif.Model.Leak.Prog.Ids
import Verif.Model.Leak.ProgAvx.Ids

namespace Faest.Leak.ProgAvx

/-- `KeccakP1600times4_InitializeAll`, sha3/avx2/KeccakP-1600-times4-SIMD256.c:90-93; variables: 0 states -/
def KeccakP1600times4_InitializeAll : Fn := ⟨1,
  .call (some 1) Prog.Id.memset [.var 0, .lit 0, .lit 800]⟩

/-- `KeccakP1600times4_AddBytes`, sha3/avx2/KeccakP-1600-times4-SIMD256.c:96-129; variables: 0 states, 1
  instanceIndex, 2 data, 3 offset, 4 length, 5 sizeLeft, 6 lanePosition, 7 offsetInLane, 8 curData, 9 statesAsLanes,
  11 bytesInLane, 12 lane, 14 lane, 15 lane -/
def KeccakP1600times4_AddBytes : Fn := ⟨5,
  block [
    .asg 5 (.var 4),
    .asg 6 (.div (.div .u32) (.var 3) (.lit 8)),
    .asg 7 (.div (.mod .u32) (.var 3) (.lit 8)),
    .asg 8 (.var 2),
    .asg 9 (.var 0),
    .ite (.bin .gt (.var 5) (.lit 0))
      (.asg 10 (.bin .ne (.bin .ne (.var 7) (.lit 0)) (.lit 0)))
      (.asg 10 (.lit 0)),
    .ite (.var 10)
      (block [
        .asg 11 (.bin (.sub .u32) (.lit 8) (.var 7)),
        .new 12 (.lit 8),
        .st 8 (.var 12) (.lit 0),
        .ite (.bin .gt (.var 11) (.var 5))
          (.asg 11 (.var 5))
          (.skip),
        .call (some 13) Prog.Id.memcpy [.padd (.var 12) (.var 7) 1, .var 8, .var 11],
        .st 8 (.padd (.var 9) (.bin (.add .u32) (.bin (.mul .u32) (.var 6) (.lit 4)) (.var 1)) 8) (.bin (.bxor .u64)
          (.ld 8 (.padd (.var 9) (.bin (.add .u32) (.bin (.mul .u32) (.var 6) (.lit 4)) (.var 1)) 8)) (.ld 8 (.var
          12))),
        .asg 5 (.bin (.sub .u32) (.var 5) (.var 11)),
        .asg 6 (.bin (.add .u32) (.var 6) (.lit 1)),
        .asg 8 (.padd (.var 8) (.var 11) 1)])
      (.skip),
    .loop (.bin .ge (.var 5) (.lit 8))
      (block [
        .new 14 (.lit 8),
        .st 8 (.var 14) (.ld 8 (.var 8)),
        .st 8 (.padd (.var 9) (.bin (.add .u32) (.bin (.mul .u32) (.var 6) (.lit 4)) (.var 1)) 8) (.bin (.bxor .u64)
          (.ld 8 (.padd (.var 9) (.bin (.add .u32) (.bin (.mul .u32) (.var 6) (.lit 4)) (.var 1)) 8)) (.ld 8 (.var
          14))),
        .asg 5 (.bin (.sub .u32) (.var 5) (.lit 8)),
        .asg 6 (.bin (.add .u32) (.var 6) (.lit 1)),
        .asg 8 (.padd (.var 8) (.lit 8) 1)])
      (.skip),
    .ite (.bin .gt (.var 5) (.lit 0))
      (block [
        .new 15 (.lit 8),
        .st 8 (.var 15) (.lit 0),
        .call (some 16) Prog.Id.memcpy [.var 15, .var 8, .var 5],
        .st 8 (.padd (.var 9) (.bin (.add .u32) (.bin (.mul .u32) (.var 6) (.lit 4)) (.var 1)) 8) (.bin (.bxor .u64)
          (.ld 8 (.padd (.var 9) (.bin (.add .u32) (.bin (.mul .u32) (.var 6) (.lit 4)) (.var 1)) 8)) (.ld 8 (.var
          15)))])
      (.skip)]⟩

/-- part of `KeccakP1600times4_PermuteAll_24rounds` -/
def KeccakP1600times4_PermuteAll_24rounds.part0 : Stmt :=
  block [
    .asg 1 (.var 0),
    .asg 2 (.ld 32 (.var 1)),
    .asg 3 (.ld 32 (.padd (.var 1) (.lit 1) 32)),
    .asg 4 (.ld 32 (.padd (.var 1) (.lit 2) 32)),
    .asg 5 (.ld 32 (.padd (.var 1) (.lit 3) 32)),
    .asg 6 (.ld 32 (.padd (.var 1) (.lit 4) 32)),
    .asg 7 (.ld 32 (.padd (.var 1) (.lit 5) 32)),
    .asg 8 (.ld 32 (.padd (.var 1) (.lit 6) 32)),
    .asg 9 (.ld 32 (.padd (.var 1) (.lit 7) 32)),
    .asg 10 (.ld 32 (.padd (.var 1) (.lit 8) 32)),
    .asg 11 (.ld 32 (.padd (.var 1) (.lit 9) 32)),
    .asg 12 (.ld 32 (.padd (.var 1) (.lit 10) 32)),
    .asg 13 (.ld 32 (.padd (.var 1) (.lit 11) 32)),
    .asg 14 (.ld 32 (.padd (.var 1) (.lit 12) 32)),
    .asg 15 (.ld 32 (.padd (.var 1) (.lit 13) 32)),
    .asg 16 (.ld 32 (.padd (.var 1) (.lit 14) 32)),
    .asg 17 (.ld 32 (.padd (.var 1) (.lit 15) 32)),
    .asg 18 (.ld 32 (.padd (.var 1) (.lit 16) 32)),
    .asg 19 (.ld 32 (.padd (.var 1) (.lit 17) 32)),
    .asg 20 (.ld 32 (.padd (.var 1) (.lit 18) 32)),
    .asg 21 (.ld 32 (.padd (.var 1) (.lit 19) 32)),
    .asg 22 (.ld 32 (.padd (.var 1) (.lit 20) 32)),
    .asg 23 (.ld 32 (.padd (.var 1) (.lit 21) 32)),
    .asg 24 (.ld 32 (.padd (.var 1) (.lit 22) 32)),
    .asg 25 (.ld 32 (.padd (.var 1) (.lit 23) 32)),
    .asg 26 (.ld 32 (.padd (.var 1) (.lit 24) 32)),
    .asg 52 (.bin (.vec 1) (.var 2) (.bin (.vec 1) (.var 7) (.bin (.vec 1) (.var 12) (.bin (.vec 1) (.var 17) (.var
      22))))),
    .asg 53 (.bin (.vec 1) (.var 3) (.bin (.vec 1) (.var 8) (.bin (.vec 1) (.var 13) (.bin (.vec 1) (.var 18) (.var
      23))))),
    .asg 54 (.bin (.vec 1) (.var 4) (.bin (.vec 1) (.var 9) (.bin (.vec 1) (.var 14) (.bin (.vec 1) (.var 19) (.var
      24))))),
    .asg 55 (.bin (.vec 1) (.var 5) (.bin (.vec 1) (.var 10) (.bin (.vec 1) (.var 15) (.bin (.vec 1) (.var 20) (.var
      25))))),
    .asg 56 (.bin (.vec 1) (.var 6) (.bin (.vec 1) (.var 11) (.bin (.vec 1) (.var 16) (.bin (.vec 1) (.var 21) (.var
      26))))),
    .asg 58 (.bin (.vec 3) (.bin (.vec 4) (.var 53) (.lit 1)) (.bin (.vec 5) (.var 53) (.lit 63))),
    .asg 62 (.bin (.vec 1) (.var 56) (.var 58)),
    .asg 59 (.bin (.vec 3) (.bin (.vec 4) (.var 54) (.lit 1)) (.bin (.vec 5) (.var 54) (.lit 63))),
    .asg 63 (.bin (.vec 1) (.var 52) (.var 59)),
    .asg 60 (.bin (.vec 3) (.bin (.vec 4) (.var 55) (.lit 1)) (.bin (.vec 5) (.var 55) (.lit 63))),
    .asg 64 (.bin (.vec 1) (.var 53) (.var 60)),
    .asg 61 (.bin (.vec 3) (.bin (.vec 4) (.var 56) (.lit 1)) (.bin (.vec 5) (.var 56) (.lit 63))),
    .asg 65 (.bin (.vec 1) (.var 54) (.var 61)),
    .asg 57 (.bin (.vec 3) (.bin (.vec 4) (.var 52) (.lit 1)) (.bin (.vec 5) (.var 52) (.lit 63)))]

/-- part of `KeccakP1600times4_PermuteAll_24rounds` -/
def KeccakP1600times4_PermuteAll_24rounds.part1 : Stmt :=
  block [
    .asg 66 (.bin (.vec 1) (.var 55) (.var 57)),
    .asg 2 (.bin (.vec 1) (.var 2) (.var 62)),
    .asg 27 (.var 2),
    .asg 8 (.bin (.vec 1) (.var 8) (.var 63)),
    .asg 28 (.bin (.vec 3) (.bin (.vec 4) (.var 8) (.lit 44)) (.bin (.vec 5) (.var 8) (.lit 20))),
    .asg 14 (.bin (.vec 1) (.var 14) (.var 64)),
    .asg 29 (.bin (.vec 3) (.bin (.vec 4) (.var 14) (.lit 43)) (.bin (.vec 5) (.var 14) (.lit 21))),
    .asg 67 (.bin (.vec 1) (.var 27) (.bin (.vec 2) (.var 28) (.var 29))),
    .asg 67 (.bin (.vec 1) (.var 67) (.bin (.vec 7) (.ld 8 (.glob 14)) (.lit 0))),
    .asg 52 (.var 67),
    .asg 20 (.bin (.vec 1) (.var 20) (.var 65)),
    .asg 30 (.bin (.vec 3) (.bin (.vec 4) (.var 20) (.lit 21)) (.bin (.vec 5) (.var 20) (.lit 43))),
    .asg 68 (.bin (.vec 1) (.var 28) (.bin (.vec 2) (.var 29) (.var 30))),
    .asg 53 (.var 68),
    .asg 26 (.bin (.vec 1) (.var 26) (.var 66)),
    .asg 31 (.bin (.vec 3) (.bin (.vec 4) (.var 26) (.lit 14)) (.bin (.vec 5) (.var 26) (.lit 50))),
    .asg 69 (.bin (.vec 1) (.var 29) (.bin (.vec 2) (.var 30) (.var 31))),
    .asg 54 (.var 69),
    .asg 70 (.bin (.vec 1) (.var 30) (.bin (.vec 2) (.var 31) (.var 27))),
    .asg 55 (.var 70),
    .asg 71 (.bin (.vec 1) (.var 31) (.bin (.vec 2) (.var 27) (.var 28))),
    .asg 56 (.var 71),
    .asg 5 (.bin (.vec 1) (.var 5) (.var 65)),
    .asg 32 (.bin (.vec 3) (.bin (.vec 4) (.var 5) (.lit 28)) (.bin (.vec 5) (.var 5) (.lit 36))),
    .asg 11 (.bin (.vec 1) (.var 11) (.var 66)),
    .asg 33 (.bin (.vec 3) (.bin (.vec 4) (.var 11) (.lit 20)) (.bin (.vec 5) (.var 11) (.lit 44))),
    .asg 12 (.bin (.vec 1) (.var 12) (.var 62)),
    .asg 34 (.bin (.vec 3) (.bin (.vec 4) (.var 12) (.lit 3)) (.bin (.vec 5) (.var 12) (.lit 61))),
    .asg 72 (.bin (.vec 1) (.var 32) (.bin (.vec 2) (.var 33) (.var 34))),
    .asg 52 (.bin (.vec 1) (.var 52) (.var 72)),
    .asg 18 (.bin (.vec 1) (.var 18) (.var 63)),
    .asg 35 (.bin (.vec 3) (.bin (.vec 4) (.var 18) (.lit 45)) (.bin (.vec 5) (.var 18) (.lit 19))),
    .asg 73 (.bin (.vec 1) (.var 33) (.bin (.vec 2) (.var 34) (.var 35))),
    .asg 53 (.bin (.vec 1) (.var 53) (.var 73)),
    .asg 24 (.bin (.vec 1) (.var 24) (.var 64)),
    .asg 36 (.bin (.vec 3) (.bin (.vec 4) (.var 24) (.lit 61)) (.bin (.vec 5) (.var 24) (.lit 3))),
    .asg 74 (.bin (.vec 1) (.var 34) (.bin (.vec 2) (.var 35) (.var 36))),
    .asg 54 (.bin (.vec 1) (.var 54) (.var 74)),
    .asg 75 (.bin (.vec 1) (.var 35) (.bin (.vec 2) (.var 36) (.var 32))),
    .asg 55 (.bin (.vec 1) (.var 55) (.var 75))]

/-- part of `KeccakP1600times4_PermuteAll_24rounds` -/
def KeccakP1600times4_PermuteAll_24rounds.part2 : Stmt :=
  block [
    .asg 76 (.bin (.vec 1) (.var 36) (.bin (.vec 2) (.var 32) (.var 33))),
    .asg 56 (.bin (.vec 1) (.var 56) (.var 76)),
    .asg 3 (.bin (.vec 1) (.var 3) (.var 63)),
    .asg 37 (.bin (.vec 3) (.bin (.vec 4) (.var 3) (.lit 1)) (.bin (.vec 5) (.var 3) (.lit 63))),
    .asg 9 (.bin (.vec 1) (.var 9) (.var 64)),
    .asg 38 (.bin (.vec 3) (.bin (.vec 4) (.var 9) (.lit 6)) (.bin (.vec 5) (.var 9) (.lit 58))),
    .asg 15 (.bin (.vec 1) (.var 15) (.var 65)),
    .asg 39 (.bin (.vec 3) (.bin (.vec 4) (.var 15) (.lit 25)) (.bin (.vec 5) (.var 15) (.lit 39))),
    .asg 77 (.bin (.vec 1) (.var 37) (.bin (.vec 2) (.var 38) (.var 39))),
    .asg 52 (.bin (.vec 1) (.var 52) (.var 77)),
    .asg 21 (.bin (.vec 1) (.var 21) (.var 66)),
    .asg 40 (.bin (.vec 6) (.var 21) (.ld 32 (.glob 15))),
    .asg 78 (.bin (.vec 1) (.var 38) (.bin (.vec 2) (.var 39) (.var 40))),
    .asg 53 (.bin (.vec 1) (.var 53) (.var 78)),
    .asg 22 (.bin (.vec 1) (.var 22) (.var 62)),
    .asg 41 (.bin (.vec 3) (.bin (.vec 4) (.var 22) (.lit 18)) (.bin (.vec 5) (.var 22) (.lit 46))),
    .asg 79 (.bin (.vec 1) (.var 39) (.bin (.vec 2) (.var 40) (.var 41))),
    .asg 54 (.bin (.vec 1) (.var 54) (.var 79)),
    .asg 80 (.bin (.vec 1) (.var 40) (.bin (.vec 2) (.var 41) (.var 37))),
    .asg 55 (.bin (.vec 1) (.var 55) (.var 80)),
    .asg 81 (.bin (.vec 1) (.var 41) (.bin (.vec 2) (.var 37) (.var 38))),
    .asg 56 (.bin (.vec 1) (.var 56) (.var 81)),
    .asg 6 (.bin (.vec 1) (.var 6) (.var 66)),
    .asg 42 (.bin (.vec 3) (.bin (.vec 4) (.var 6) (.lit 27)) (.bin (.vec 5) (.var 6) (.lit 37))),
    .asg 7 (.bin (.vec 1) (.var 7) (.var 62)),
    .asg 43 (.bin (.vec 3) (.bin (.vec 4) (.var 7) (.lit 36)) (.bin (.vec 5) (.var 7) (.lit 28))),
    .asg 13 (.bin (.vec 1) (.var 13) (.var 63)),
    .asg 44 (.bin (.vec 3) (.bin (.vec 4) (.var 13) (.lit 10)) (.bin (.vec 5) (.var 13) (.lit 54))),
    .asg 82 (.bin (.vec 1) (.var 42) (.bin (.vec 2) (.var 43) (.var 44))),
    .asg 52 (.bin (.vec 1) (.var 52) (.var 82)),
    .asg 19 (.bin (.vec 1) (.var 19) (.var 64)),
    .asg 45 (.bin (.vec 3) (.bin (.vec 4) (.var 19) (.lit 15)) (.bin (.vec 5) (.var 19) (.lit 49))),
    .asg 83 (.bin (.vec 1) (.var 43) (.bin (.vec 2) (.var 44) (.var 45))),
    .asg 53 (.bin (.vec 1) (.var 53) (.var 83)),
    .asg 25 (.bin (.vec 1) (.var 25) (.var 65)),
    .asg 46 (.bin (.vec 6) (.var 25) (.ld 32 (.glob 16))),
    .asg 84 (.bin (.vec 1) (.var 44) (.bin (.vec 2) (.var 45) (.var 46))),
    .asg 54 (.bin (.vec 1) (.var 54) (.var 84)),
    .asg 85 (.bin (.vec 1) (.var 45) (.bin (.vec 2) (.var 46) (.var 42))),
    .asg 55 (.bin (.vec 1) (.var 55) (.var 85))]

/-- part of `KeccakP1600times4_PermuteAll_24rounds` -/
def KeccakP1600times4_PermuteAll_24rounds.part3 : Stmt :=
  block [
    .asg 86 (.bin (.vec 1) (.var 46) (.bin (.vec 2) (.var 42) (.var 43))),
    .asg 56 (.bin (.vec 1) (.var 56) (.var 86)),
    .asg 4 (.bin (.vec 1) (.var 4) (.var 64)),
    .asg 47 (.bin (.vec 3) (.bin (.vec 4) (.var 4) (.lit 62)) (.bin (.vec 5) (.var 4) (.lit 2))),
    .asg 10 (.bin (.vec 1) (.var 10) (.var 65)),
    .asg 48 (.bin (.vec 3) (.bin (.vec 4) (.var 10) (.lit 55)) (.bin (.vec 5) (.var 10) (.lit 9))),
    .asg 16 (.bin (.vec 1) (.var 16) (.var 66)),
    .asg 49 (.bin (.vec 3) (.bin (.vec 4) (.var 16) (.lit 39)) (.bin (.vec 5) (.var 16) (.lit 25))),
    .asg 87 (.bin (.vec 1) (.var 47) (.bin (.vec 2) (.var 48) (.var 49))),
    .asg 52 (.bin (.vec 1) (.var 52) (.var 87)),
    .asg 17 (.bin (.vec 1) (.var 17) (.var 62)),
    .asg 50 (.bin (.vec 3) (.bin (.vec 4) (.var 17) (.lit 41)) (.bin (.vec 5) (.var 17) (.lit 23))),
    .asg 88 (.bin (.vec 1) (.var 48) (.bin (.vec 2) (.var 49) (.var 50))),
    .asg 53 (.bin (.vec 1) (.var 53) (.var 88)),
    .asg 23 (.bin (.vec 1) (.var 23) (.var 63)),
    .asg 51 (.bin (.vec 3) (.bin (.vec 4) (.var 23) (.lit 2)) (.bin (.vec 5) (.var 23) (.lit 62))),
    .asg 89 (.bin (.vec 1) (.var 49) (.bin (.vec 2) (.var 50) (.var 51))),
    .asg 54 (.bin (.vec 1) (.var 54) (.var 89)),
    .asg 90 (.bin (.vec 1) (.var 50) (.bin (.vec 2) (.var 51) (.var 47))),
    .asg 55 (.bin (.vec 1) (.var 55) (.var 90)),
    .asg 91 (.bin (.vec 1) (.var 51) (.bin (.vec 2) (.var 47) (.var 48))),
    .asg 56 (.bin (.vec 1) (.var 56) (.var 91)),
    .asg 58 (.bin (.vec 3) (.bin (.vec 4) (.var 53) (.lit 1)) (.bin (.vec 5) (.var 53) (.lit 63))),
    .asg 62 (.bin (.vec 1) (.var 56) (.var 58)),
    .asg 59 (.bin (.vec 3) (.bin (.vec 4) (.var 54) (.lit 1)) (.bin (.vec 5) (.var 54) (.lit 63))),
    .asg 63 (.bin (.vec 1) (.var 52) (.var 59)),
    .asg 60 (.bin (.vec 3) (.bin (.vec 4) (.var 55) (.lit 1)) (.bin (.vec 5) (.var 55) (.lit 63))),
    .asg 64 (.bin (.vec 1) (.var 53) (.var 60)),
    .asg 61 (.bin (.vec 3) (.bin (.vec 4) (.var 56) (.lit 1)) (.bin (.vec 5) (.var 56) (.lit 63))),
    .asg 65 (.bin (.vec 1) (.var 54) (.var 61)),
    .asg 57 (.bin (.vec 3) (.bin (.vec 4) (.var 52) (.lit 1)) (.bin (.vec 5) (.var 52) (.lit 63))),
    .asg 66 (.bin (.vec 1) (.var 55) (.var 57)),
    .asg 67 (.bin (.vec 1) (.var 67) (.var 62)),
    .asg 27 (.var 67),
    .asg 73 (.bin (.vec 1) (.var 73) (.var 63)),
    .asg 28 (.bin (.vec 3) (.bin (.vec 4) (.var 73) (.lit 44)) (.bin (.vec 5) (.var 73) (.lit 20))),
    .asg 79 (.bin (.vec 1) (.var 79) (.var 64)),
    .asg 29 (.bin (.vec 3) (.bin (.vec 4) (.var 79) (.lit 43)) (.bin (.vec 5) (.var 79) (.lit 21))),
    .asg 2 (.bin (.vec 1) (.var 27) (.bin (.vec 2) (.var 28) (.var 29))),
    .asg 2 (.bin (.vec 1) (.var 2) (.bin (.vec 7) (.ld 8 (.padd (.glob 14) (.lit 1) 8)) (.lit 0)))]

/-- part of `KeccakP1600times4_PermuteAll_24rounds` -/
def KeccakP1600times4_PermuteAll_24rounds.part4 : Stmt :=
  block [
    .asg 52 (.var 2),
    .asg 85 (.bin (.vec 1) (.var 85) (.var 65)),
    .asg 30 (.bin (.vec 3) (.bin (.vec 4) (.var 85) (.lit 21)) (.bin (.vec 5) (.var 85) (.lit 43))),
    .asg 3 (.bin (.vec 1) (.var 28) (.bin (.vec 2) (.var 29) (.var 30))),
    .asg 53 (.var 3),
    .asg 91 (.bin (.vec 1) (.var 91) (.var 66)),
    .asg 31 (.bin (.vec 3) (.bin (.vec 4) (.var 91) (.lit 14)) (.bin (.vec 5) (.var 91) (.lit 50))),
    .asg 4 (.bin (.vec 1) (.var 29) (.bin (.vec 2) (.var 30) (.var 31))),
    .asg 54 (.var 4),
    .asg 5 (.bin (.vec 1) (.var 30) (.bin (.vec 2) (.var 31) (.var 27))),
    .asg 55 (.var 5),
    .asg 6 (.bin (.vec 1) (.var 31) (.bin (.vec 2) (.var 27) (.var 28))),
    .asg 56 (.var 6),
    .asg 70 (.bin (.vec 1) (.var 70) (.var 65)),
    .asg 32 (.bin (.vec 3) (.bin (.vec 4) (.var 70) (.lit 28)) (.bin (.vec 5) (.var 70) (.lit 36))),
    .asg 76 (.bin (.vec 1) (.var 76) (.var 66)),
    .asg 33 (.bin (.vec 3) (.bin (.vec 4) (.var 76) (.lit 20)) (.bin (.vec 5) (.var 76) (.lit 44))),
    .asg 77 (.bin (.vec 1) (.var 77) (.var 62)),
    .asg 34 (.bin (.vec 3) (.bin (.vec 4) (.var 77) (.lit 3)) (.bin (.vec 5) (.var 77) (.lit 61))),
    .asg 7 (.bin (.vec 1) (.var 32) (.bin (.vec 2) (.var 33) (.var 34))),
    .asg 52 (.bin (.vec 1) (.var 52) (.var 7)),
    .asg 83 (.bin (.vec 1) (.var 83) (.var 63)),
    .asg 35 (.bin (.vec 3) (.bin (.vec 4) (.var 83) (.lit 45)) (.bin (.vec 5) (.var 83) (.lit 19))),
    .asg 8 (.bin (.vec 1) (.var 33) (.bin (.vec 2) (.var 34) (.var 35))),
    .asg 53 (.bin (.vec 1) (.var 53) (.var 8)),
    .asg 89 (.bin (.vec 1) (.var 89) (.var 64)),
    .asg 36 (.bin (.vec 3) (.bin (.vec 4) (.var 89) (.lit 61)) (.bin (.vec 5) (.var 89) (.lit 3))),
    .asg 9 (.bin (.vec 1) (.var 34) (.bin (.vec 2) (.var 35) (.var 36))),
    .asg 54 (.bin (.vec 1) (.var 54) (.var 9)),
    .asg 10 (.bin (.vec 1) (.var 35) (.bin (.vec 2) (.var 36) (.var 32))),
    .asg 55 (.bin (.vec 1) (.var 55) (.var 10)),
    .asg 11 (.bin (.vec 1) (.var 36) (.bin (.vec 2) (.var 32) (.var 33))),
    .asg 56 (.bin (.vec 1) (.var 56) (.var 11)),
    .asg 68 (.bin (.vec 1) (.var 68) (.var 63)),
    .asg 37 (.bin (.vec 3) (.bin (.vec 4) (.var 68) (.lit 1)) (.bin (.vec 5) (.var 68) (.lit 63))),
    .asg 74 (.bin (.vec 1) (.var 74) (.var 64)),
    .asg 38 (.bin (.vec 3) (.bin (.vec 4) (.var 74) (.lit 6)) (.bin (.vec 5) (.var 74) (.lit 58))),
    .asg 80 (.bin (.vec 1) (.var 80) (.var 65)),
    .asg 39 (.bin (.vec 3) (.bin (.vec 4) (.var 80) (.lit 25)) (.bin (.vec 5) (.var 80) (.lit 39))),
    .asg 12 (.bin (.vec 1) (.var 37) (.bin (.vec 2) (.var 38) (.var 39)))]

/-- part of `KeccakP1600times4_PermuteAll_24rounds` -/
def KeccakP1600times4_PermuteAll_24rounds.part5 : Stmt :=
  block [
    .asg 52 (.bin (.vec 1) (.var 52) (.var 12)),
    .asg 86 (.bin (.vec 1) (.var 86) (.var 66)),
    .asg 40 (.bin (.vec 6) (.var 86) (.ld 32 (.glob 15))),
    .asg 13 (.bin (.vec 1) (.var 38) (.bin (.vec 2) (.var 39) (.var 40))),
    .asg 53 (.bin (.vec 1) (.var 53) (.var 13)),
    .asg 87 (.bin (.vec 1) (.var 87) (.var 62)),
    .asg 41 (.bin (.vec 3) (.bin (.vec 4) (.var 87) (.lit 18)) (.bin (.vec 5) (.var 87) (.lit 46))),
    .asg 14 (.bin (.vec 1) (.var 39) (.bin (.vec 2) (.var 40) (.var 41))),
    .asg 54 (.bin (.vec 1) (.var 54) (.var 14)),
    .asg 15 (.bin (.vec 1) (.var 40) (.bin (.vec 2) (.var 41) (.var 37))),
    .asg 55 (.bin (.vec 1) (.var 55) (.var 15)),
    .asg 16 (.bin (.vec 1) (.var 41) (.bin (.vec 2) (.var 37) (.var 38))),
    .asg 56 (.bin (.vec 1) (.var 56) (.var 16)),
    .asg 71 (.bin (.vec 1) (.var 71) (.var 66)),
    .asg 42 (.bin (.vec 3) (.bin (.vec 4) (.var 71) (.lit 27)) (.bin (.vec 5) (.var 71) (.lit 37))),
    .asg 72 (.bin (.vec 1) (.var 72) (.var 62)),
    .asg 43 (.bin (.vec 3) (.bin (.vec 4) (.var 72) (.lit 36)) (.bin (.vec 5) (.var 72) (.lit 28))),
    .asg 78 (.bin (.vec 1) (.var 78) (.var 63)),
    .asg 44 (.bin (.vec 3) (.bin (.vec 4) (.var 78) (.lit 10)) (.bin (.vec 5) (.var 78) (.lit 54))),
    .asg 17 (.bin (.vec 1) (.var 42) (.bin (.vec 2) (.var 43) (.var 44))),
    .asg 52 (.bin (.vec 1) (.var 52) (.var 17)),
    .asg 84 (.bin (.vec 1) (.var 84) (.var 64)),
    .asg 45 (.bin (.vec 3) (.bin (.vec 4) (.var 84) (.lit 15)) (.bin (.vec 5) (.var 84) (.lit 49))),
    .asg 18 (.bin (.vec 1) (.var 43) (.bin (.vec 2) (.var 44) (.var 45))),
    .asg 53 (.bin (.vec 1) (.var 53) (.var 18)),
    .asg 90 (.bin (.vec 1) (.var 90) (.var 65)),
    .asg 46 (.bin (.vec 6) (.var 90) (.ld 32 (.glob 16))),
    .asg 19 (.bin (.vec 1) (.var 44) (.bin (.vec 2) (.var 45) (.var 46))),
    .asg 54 (.bin (.vec 1) (.var 54) (.var 19)),
    .asg 20 (.bin (.vec 1) (.var 45) (.bin (.vec 2) (.var 46) (.var 42))),
    .asg 55 (.bin (.vec 1) (.var 55) (.var 20)),
    .asg 21 (.bin (.vec 1) (.var 46) (.bin (.vec 2) (.var 42) (.var 43))),
    .asg 56 (.bin (.vec 1) (.var 56) (.var 21)),
    .asg 69 (.bin (.vec 1) (.var 69) (.var 64)),
    .asg 47 (.bin (.vec 3) (.bin (.vec 4) (.var 69) (.lit 62)) (.bin (.vec 5) (.var 69) (.lit 2))),
    .asg 75 (.bin (.vec 1) (.var 75) (.var 65)),
    .asg 48 (.bin (.vec 3) (.bin (.vec 4) (.var 75) (.lit 55)) (.bin (.vec 5) (.var 75) (.lit 9))),
    .asg 81 (.bin (.vec 1) (.var 81) (.var 66)),
    .asg 49 (.bin (.vec 3) (.bin (.vec 4) (.var 81) (.lit 39)) (.bin (.vec 5) (.var 81) (.lit 25))),
    .asg 22 (.bin (.vec 1) (.var 47) (.bin (.vec 2) (.var 48) (.var 49)))]

/-- part of `KeccakP1600times4_PermuteAll_24rounds` -/
def KeccakP1600times4_PermuteAll_24rounds.part6 : Stmt :=
  block [
    .asg 52 (.bin (.vec 1) (.var 52) (.var 22)),
    .asg 82 (.bin (.vec 1) (.var 82) (.var 62)),
    .asg 50 (.bin (.vec 3) (.bin (.vec 4) (.var 82) (.lit 41)) (.bin (.vec 5) (.var 82) (.lit 23))),
    .asg 23 (.bin (.vec 1) (.var 48) (.bin (.vec 2) (.var 49) (.var 50))),
    .asg 53 (.bin (.vec 1) (.var 53) (.var 23)),
    .asg 88 (.bin (.vec 1) (.var 88) (.var 63)),
    .asg 51 (.bin (.vec 3) (.bin (.vec 4) (.var 88) (.lit 2)) (.bin (.vec 5) (.var 88) (.lit 62))),
    .asg 24 (.bin (.vec 1) (.var 49) (.bin (.vec 2) (.var 50) (.var 51))),
    .asg 54 (.bin (.vec 1) (.var 54) (.var 24)),
    .asg 25 (.bin (.vec 1) (.var 50) (.bin (.vec 2) (.var 51) (.var 47))),
    .asg 55 (.bin (.vec 1) (.var 55) (.var 25)),
    .asg 26 (.bin (.vec 1) (.var 51) (.bin (.vec 2) (.var 47) (.var 48))),
    .asg 56 (.bin (.vec 1) (.var 56) (.var 26)),
    .asg 58 (.bin (.vec 3) (.bin (.vec 4) (.var 53) (.lit 1)) (.bin (.vec 5) (.var 53) (.lit 63))),
    .asg 62 (.bin (.vec 1) (.var 56) (.var 58)),
    .asg 59 (.bin (.vec 3) (.bin (.vec 4) (.var 54) (.lit 1)) (.bin (.vec 5) (.var 54) (.lit 63))),
    .asg 63 (.bin (.vec 1) (.var 52) (.var 59)),
    .asg 60 (.bin (.vec 3) (.bin (.vec 4) (.var 55) (.lit 1)) (.bin (.vec 5) (.var 55) (.lit 63))),
    .asg 64 (.bin (.vec 1) (.var 53) (.var 60)),
    .asg 61 (.bin (.vec 3) (.bin (.vec 4) (.var 56) (.lit 1)) (.bin (.vec 5) (.var 56) (.lit 63))),
    .asg 65 (.bin (.vec 1) (.var 54) (.var 61)),
    .asg 57 (.bin (.vec 3) (.bin (.vec 4) (.var 52) (.lit 1)) (.bin (.vec 5) (.var 52) (.lit 63))),
    .asg 66 (.bin (.vec 1) (.var 55) (.var 57)),
    .asg 2 (.bin (.vec 1) (.var 2) (.var 62)),
    .asg 27 (.var 2),
    .asg 8 (.bin (.vec 1) (.var 8) (.var 63)),
    .asg 28 (.bin (.vec 3) (.bin (.vec 4) (.var 8) (.lit 44)) (.bin (.vec 5) (.var 8) (.lit 20))),
    .asg 14 (.bin (.vec 1) (.var 14) (.var 64)),
    .asg 29 (.bin (.vec 3) (.bin (.vec 4) (.var 14) (.lit 43)) (.bin (.vec 5) (.var 14) (.lit 21))),
    .asg 67 (.bin (.vec 1) (.var 27) (.bin (.vec 2) (.var 28) (.var 29))),
    .asg 67 (.bin (.vec 1) (.var 67) (.bin (.vec 7) (.ld 8 (.padd (.glob 14) (.lit 2) 8)) (.lit 0))),
    .asg 52 (.var 67),
    .asg 20 (.bin (.vec 1) (.var 20) (.var 65)),
    .asg 30 (.bin (.vec 3) (.bin (.vec 4) (.var 20) (.lit 21)) (.bin (.vec 5) (.var 20) (.lit 43))),
    .asg 68 (.bin (.vec 1) (.var 28) (.bin (.vec 2) (.var 29) (.var 30))),
    .asg 53 (.var 68),
    .asg 26 (.bin (.vec 1) (.var 26) (.var 66)),
    .asg 31 (.bin (.vec 3) (.bin (.vec 4) (.var 26) (.lit 14)) (.bin (.vec 5) (.var 26) (.lit 50))),
    .asg 69 (.bin (.vec 1) (.var 29) (.bin (.vec 2) (.var 30) (.var 31))),
    .asg 54 (.var 69)]

/-- part of `KeccakP1600times4_PermuteAll_24rounds` -/
def KeccakP1600times4_PermuteAll_24rounds.part7 : Stmt :=
  block [
    .asg 70 (.bin (.vec 1) (.var 30) (.bin (.vec 2) (.var 31) (.var 27))),
    .asg 55 (.var 70),
    .asg 71 (.bin (.vec 1) (.var 31) (.bin (.vec 2) (.var 27) (.var 28))),
    .asg 56 (.var 71),
    .asg 5 (.bin (.vec 1) (.var 5) (.var 65)),
    .asg 32 (.bin (.vec 3) (.bin (.vec 4) (.var 5) (.lit 28)) (.bin (.vec 5) (.var 5) (.lit 36))),
    .asg 11 (.bin (.vec 1) (.var 11) (.var 66)),
    .asg 33 (.bin (.vec 3) (.bin (.vec 4) (.var 11) (.lit 20)) (.bin (.vec 5) (.var 11) (.lit 44))),
    .asg 12 (.bin (.vec 1) (.var 12) (.var 62)),
    .asg 34 (.bin (.vec 3) (.bin (.vec 4) (.var 12) (.lit 3)) (.bin (.vec 5) (.var 12) (.lit 61))),
    .asg 72 (.bin (.vec 1) (.var 32) (.bin (.vec 2) (.var 33) (.var 34))),
    .asg 52 (.bin (.vec 1) (.var 52) (.var 72)),
    .asg 18 (.bin (.vec 1) (.var 18) (.var 63)),
    .asg 35 (.bin (.vec 3) (.bin (.vec 4) (.var 18) (.lit 45)) (.bin (.vec 5) (.var 18) (.lit 19))),
    .asg 73 (.bin (.vec 1) (.var 33) (.bin (.vec 2) (.var 34) (.var 35))),
    .asg 53 (.bin (.vec 1) (.var 53) (.var 73)),
    .asg 24 (.bin (.vec 1) (.var 24) (.var 64)),
    .asg 36 (.bin (.vec 3) (.bin (.vec 4) (.var 24) (.lit 61)) (.bin (.vec 5) (.var 24) (.lit 3))),
    .asg 74 (.bin (.vec 1) (.var 34) (.bin (.vec 2) (.var 35) (.var 36))),
    .asg 54 (.bin (.vec 1) (.var 54) (.var 74)),
    .asg 75 (.bin (.vec 1) (.var 35) (.bin (.vec 2) (.var 36) (.var 32))),
    .asg 55 (.bin (.vec 1) (.var 55) (.var 75)),
    .asg 76 (.bin (.vec 1) (.var 36) (.bin (.vec 2) (.var 32) (.var 33))),
    .asg 56 (.bin (.vec 1) (.var 56) (.var 76)),
    .asg 3 (.bin (.vec 1) (.var 3) (.var 63)),
    .asg 37 (.bin (.vec 3) (.bin (.vec 4) (.var 3) (.lit 1)) (.bin (.vec 5) (.var 3) (.lit 63))),
    .asg 9 (.bin (.vec 1) (.var 9) (.var 64)),
    .asg 38 (.bin (.vec 3) (.bin (.vec 4) (.var 9) (.lit 6)) (.bin (.vec 5) (.var 9) (.lit 58))),
    .asg 15 (.bin (.vec 1) (.var 15) (.var 65)),
    .asg 39 (.bin (.vec 3) (.bin (.vec 4) (.var 15) (.lit 25)) (.bin (.vec 5) (.var 15) (.lit 39))),
    .asg 77 (.bin (.vec 1) (.var 37) (.bin (.vec 2) (.var 38) (.var 39))),
    .asg 52 (.bin (.vec 1) (.var 52) (.var 77)),
    .asg 21 (.bin (.vec 1) (.var 21) (.var 66)),
    .asg 40 (.bin (.vec 6) (.var 21) (.ld 32 (.glob 15))),
    .asg 78 (.bin (.vec 1) (.var 38) (.bin (.vec 2) (.var 39) (.var 40))),
    .asg 53 (.bin (.vec 1) (.var 53) (.var 78)),
    .asg 22 (.bin (.vec 1) (.var 22) (.var 62)),
    .asg 41 (.bin (.vec 3) (.bin (.vec 4) (.var 22) (.lit 18)) (.bin (.vec 5) (.var 22) (.lit 46))),
    .asg 79 (.bin (.vec 1) (.var 39) (.bin (.vec 2) (.var 40) (.var 41))),
    .asg 54 (.bin (.vec 1) (.var 54) (.var 79))]

/-- part of `KeccakP1600times4_PermuteAll_24rounds` -/
def KeccakP1600times4_PermuteAll_24rounds.part8 : Stmt :=
  block [
    .asg 80 (.bin (.vec 1) (.var 40) (.bin (.vec 2) (.var 41) (.var 37))),
    .asg 55 (.bin (.vec 1) (.var 55) (.var 80)),
    .asg 81 (.bin (.vec 1) (.var 41) (.bin (.vec 2) (.var 37) (.var 38))),
    .asg 56 (.bin (.vec 1) (.var 56) (.var 81)),
    .asg 6 (.bin (.vec 1) (.var 6) (.var 66)),
    .asg 42 (.bin (.vec 3) (.bin (.vec 4) (.var 6) (.lit 27)) (.bin (.vec 5) (.var 6) (.lit 37))),
    .asg 7 (.bin (.vec 1) (.var 7) (.var 62)),
    .asg 43 (.bin (.vec 3) (.bin (.vec 4) (.var 7) (.lit 36)) (.bin (.vec 5) (.var 7) (.lit 28))),
    .asg 13 (.bin (.vec 1) (.var 13) (.var 63)),
    .asg 44 (.bin (.vec 3) (.bin (.vec 4) (.var 13) (.lit 10)) (.bin (.vec 5) (.var 13) (.lit 54))),
    .asg 82 (.bin (.vec 1) (.var 42) (.bin (.vec 2) (.var 43) (.var 44))),
    .asg 52 (.bin (.vec 1) (.var 52) (.var 82)),
    .asg 19 (.bin (.vec 1) (.var 19) (.var 64)),
    .asg 45 (.bin (.vec 3) (.bin (.vec 4) (.var 19) (.lit 15)) (.bin (.vec 5) (.var 19) (.lit 49))),
    .asg 83 (.bin (.vec 1) (.var 43) (.bin (.vec 2) (.var 44) (.var 45))),
    .asg 53 (.bin (.vec 1) (.var 53) (.var 83)),
    .asg 25 (.bin (.vec 1) (.var 25) (.var 65)),
    .asg 46 (.bin (.vec 6) (.var 25) (.ld 32 (.glob 16))),
    .asg 84 (.bin (.vec 1) (.var 44) (.bin (.vec 2) (.var 45) (.var 46))),
    .asg 54 (.bin (.vec 1) (.var 54) (.var 84)),
    .asg 85 (.bin (.vec 1) (.var 45) (.bin (.vec 2) (.var 46) (.var 42))),
    .asg 55 (.bin (.vec 1) (.var 55) (.var 85)),
    .asg 86 (.bin (.vec 1) (.var 46) (.bin (.vec 2) (.var 42) (.var 43))),
    .asg 56 (.bin (.vec 1) (.var 56) (.var 86)),
    .asg 4 (.bin (.vec 1) (.var 4) (.var 64)),
    .asg 47 (.bin (.vec 3) (.bin (.vec 4) (.var 4) (.lit 62)) (.bin (.vec 5) (.var 4) (.lit 2))),
    .asg 10 (.bin (.vec 1) (.var 10) (.var 65)),
    .asg 48 (.bin (.vec 3) (.bin (.vec 4) (.var 10) (.lit 55)) (.bin (.vec 5) (.var 10) (.lit 9))),
    .asg 16 (.bin (.vec 1) (.var 16) (.var 66)),
    .asg 49 (.bin (.vec 3) (.bin (.vec 4) (.var 16) (.lit 39)) (.bin (.vec 5) (.var 16) (.lit 25))),
    .asg 87 (.bin (.vec 1) (.var 47) (.bin (.vec 2) (.var 48) (.var 49))),
    .asg 52 (.bin (.vec 1) (.var 52) (.var 87)),
    .asg 17 (.bin (.vec 1) (.var 17) (.var 62)),
    .asg 50 (.bin (.vec 3) (.bin (.vec 4) (.var 17) (.lit 41)) (.bin (.vec 5) (.var 17) (.lit 23))),
    .asg 88 (.bin (.vec 1) (.var 48) (.bin (.vec 2) (.var 49) (.var 50))),
    .asg 53 (.bin (.vec 1) (.var 53) (.var 88)),
    .asg 23 (.bin (.vec 1) (.var 23) (.var 63)),
    .asg 51 (.bin (.vec 3) (.bin (.vec 4) (.var 23) (.lit 2)) (.bin (.vec 5) (.var 23) (.lit 62))),
    .asg 89 (.bin (.vec 1) (.var 49) (.bin (.vec 2) (.var 50) (.var 51))),
    .asg 54 (.bin (.vec 1) (.var 54) (.var 89))]

/-- part of `KeccakP1600times4_PermuteAll_24rounds` -/
def KeccakP1600times4_PermuteAll_24rounds.part9 : Stmt :=
  block [
    .asg 90 (.bin (.vec 1) (.var 50) (.bin (.vec 2) (.var 51) (.var 47))),
    .asg 55 (.bin (.vec 1) (.var 55) (.var 90)),
    .asg 91 (.bin (.vec 1) (.var 51) (.bin (.vec 2) (.var 47) (.var 48))),
    .asg 56 (.bin (.vec 1) (.var 56) (.var 91)),
    .asg 58 (.bin (.vec 3) (.bin (.vec 4) (.var 53) (.lit 1)) (.bin (.vec 5) (.var 53) (.lit 63))),
    .asg 62 (.bin (.vec 1) (.var 56) (.var 58)),
    .asg 59 (.bin (.vec 3) (.bin (.vec 4) (.var 54) (.lit 1)) (.bin (.vec 5) (.var 54) (.lit 63))),
    .asg 63 (.bin (.vec 1) (.var 52) (.var 59)),
    .asg 60 (.bin (.vec 3) (.bin (.vec 4) (.var 55) (.lit 1)) (.bin (.vec 5) (.var 55) (.lit 63))),
    .asg 64 (.bin (.vec 1) (.var 53) (.var 60)),
    .asg 61 (.bin (.vec 3) (.bin (.vec 4) (.var 56) (.lit 1)) (.bin (.vec 5) (.var 56) (.lit 63))),
    .asg 65 (.bin (.vec 1) (.var 54) (.var 61)),
    .asg 57 (.bin (.vec 3) (.bin (.vec 4) (.var 52) (.lit 1)) (.bin (.vec 5) (.var 52) (.lit 63))),
    .asg 66 (.bin (.vec 1) (.var 55) (.var 57)),
    .asg 67 (.bin (.vec 1) (.var 67) (.var 62)),
    .asg 27 (.var 67),
    .asg 73 (.bin (.vec 1) (.var 73) (.var 63)),
    .asg 28 (.bin (.vec 3) (.bin (.vec 4) (.var 73) (.lit 44)) (.bin (.vec 5) (.var 73) (.lit 20))),
    .asg 79 (.bin (.vec 1) (.var 79) (.var 64)),
    .asg 29 (.bin (.vec 3) (.bin (.vec 4) (.var 79) (.lit 43)) (.bin (.vec 5) (.var 79) (.lit 21))),
    .asg 2 (.bin (.vec 1) (.var 27) (.bin (.vec 2) (.var 28) (.var 29))),
    .asg 2 (.bin (.vec 1) (.var 2) (.bin (.vec 7) (.ld 8 (.padd (.glob 14) (.lit 3) 8)) (.lit 0))),
    .asg 52 (.var 2),
    .asg 85 (.bin (.vec 1) (.var 85) (.var 65)),
    .asg 30 (.bin (.vec 3) (.bin (.vec 4) (.var 85) (.lit 21)) (.bin (.vec 5) (.var 85) (.lit 43))),
    .asg 3 (.bin (.vec 1) (.var 28) (.bin (.vec 2) (.var 29) (.var 30))),
    .asg 53 (.var 3),
    .asg 91 (.bin (.vec 1) (.var 91) (.var 66)),
    .asg 31 (.bin (.vec 3) (.bin (.vec 4) (.var 91) (.lit 14)) (.bin (.vec 5) (.var 91) (.lit 50))),
    .asg 4 (.bin (.vec 1) (.var 29) (.bin (.vec 2) (.var 30) (.var 31))),
    .asg 54 (.var 4),
    .asg 5 (.bin (.vec 1) (.var 30) (.bin (.vec 2) (.var 31) (.var 27))),
    .asg 55 (.var 5),
    .asg 6 (.bin (.vec 1) (.var 31) (.bin (.vec 2) (.var 27) (.var 28))),
    .asg 56 (.var 6),
    .asg 70 (.bin (.vec 1) (.var 70) (.var 65)),
    .asg 32 (.bin (.vec 3) (.bin (.vec 4) (.var 70) (.lit 28)) (.bin (.vec 5) (.var 70) (.lit 36))),
    .asg 76 (.bin (.vec 1) (.var 76) (.var 66)),
    .asg 33 (.bin (.vec 3) (.bin (.vec 4) (.var 76) (.lit 20)) (.bin (.vec 5) (.var 76) (.lit 44))),
    .asg 77 (.bin (.vec 1) (.var 77) (.var 62))]

/-- part of `KeccakP1600times4_PermuteAll_24rounds` -/
def KeccakP1600times4_PermuteAll_24rounds.part10 : Stmt :=
  block [
    .asg 34 (.bin (.vec 3) (.bin (.vec 4) (.var 77) (.lit 3)) (.bin (.vec 5) (.var 77) (.lit 61))),
    .asg 7 (.bin (.vec 1) (.var 32) (.bin (.vec 2) (.var 33) (.var 34))),
    .asg 52 (.bin (.vec 1) (.var 52) (.var 7)),
    .asg 83 (.bin (.vec 1) (.var 83) (.var 63)),
    .asg 35 (.bin (.vec 3) (.bin (.vec 4) (.var 83) (.lit 45)) (.bin (.vec 5) (.var 83) (.lit 19))),
    .asg 8 (.bin (.vec 1) (.var 33) (.bin (.vec 2) (.var 34) (.var 35))),
    .asg 53 (.bin (.vec 1) (.var 53) (.var 8)),
    .asg 89 (.bin (.vec 1) (.var 89) (.var 64)),
    .asg 36 (.bin (.vec 3) (.bin (.vec 4) (.var 89) (.lit 61)) (.bin (.vec 5) (.var 89) (.lit 3))),
    .asg 9 (.bin (.vec 1) (.var 34) (.bin (.vec 2) (.var 35) (.var 36))),
    .asg 54 (.bin (.vec 1) (.var 54) (.var 9)),
    .asg 10 (.bin (.vec 1) (.var 35) (.bin (.vec 2) (.var 36) (.var 32))),
    .asg 55 (.bin (.vec 1) (.var 55) (.var 10)),
    .asg 11 (.bin (.vec 1) (.var 36) (.bin (.vec 2) (.var 32) (.var 33))),
    .asg 56 (.bin (.vec 1) (.var 56) (.var 11)),
    .asg 68 (.bin (.vec 1) (.var 68) (.var 63)),
    .asg 37 (.bin (.vec 3) (.bin (.vec 4) (.var 68) (.lit 1)) (.bin (.vec 5) (.var 68) (.lit 63))),
    .asg 74 (.bin (.vec 1) (.var 74) (.var 64)),
    .asg 38 (.bin (.vec 3) (.bin (.vec 4) (.var 74) (.lit 6)) (.bin (.vec 5) (.var 74) (.lit 58))),
    .asg 80 (.bin (.vec 1) (.var 80) (.var 65)),
    .asg 39 (.bin (.vec 3) (.bin (.vec 4) (.var 80) (.lit 25)) (.bin (.vec 5) (.var 80) (.lit 39))),
    .asg 12 (.bin (.vec 1) (.var 37) (.bin (.vec 2) (.var 38) (.var 39))),
    .asg 52 (.bin (.vec 1) (.var 52) (.var 12)),
    .asg 86 (.bin (.vec 1) (.var 86) (.var 66)),
    .asg 40 (.bin (.vec 6) (.var 86) (.ld 32 (.glob 15))),
    .asg 13 (.bin (.vec 1) (.var 38) (.bin (.vec 2) (.var 39) (.var 40))),
    .asg 53 (.bin (.vec 1) (.var 53) (.var 13)),
    .asg 87 (.bin (.vec 1) (.var 87) (.var 62)),
    .asg 41 (.bin (.vec 3) (.bin (.vec 4) (.var 87) (.lit 18)) (.bin (.vec 5) (.var 87) (.lit 46))),
    .asg 14 (.bin (.vec 1) (.var 39) (.bin (.vec 2) (.var 40) (.var 41))),
    .asg 54 (.bin (.vec 1) (.var 54) (.var 14)),
    .asg 15 (.bin (.vec 1) (.var 40) (.bin (.vec 2) (.var 41) (.var 37))),
    .asg 55 (.bin (.vec 1) (.var 55) (.var 15)),
    .asg 16 (.bin (.vec 1) (.var 41) (.bin (.vec 2) (.var 37) (.var 38))),
    .asg 56 (.bin (.vec 1) (.var 56) (.var 16)),
    .asg 71 (.bin (.vec 1) (.var 71) (.var 66)),
    .asg 42 (.bin (.vec 3) (.bin (.vec 4) (.var 71) (.lit 27)) (.bin (.vec 5) (.var 71) (.lit 37))),
    .asg 72 (.bin (.vec 1) (.var 72) (.var 62)),
    .asg 43 (.bin (.vec 3) (.bin (.vec 4) (.var 72) (.lit 36)) (.bin (.vec 5) (.var 72) (.lit 28))),
    .asg 78 (.bin (.vec 1) (.var 78) (.var 63))]

/-- part of `KeccakP1600times4_PermuteAll_24rounds` -/
def KeccakP1600times4_PermuteAll_24rounds.part11 : Stmt :=
  block [
    .asg 44 (.bin (.vec 3) (.bin (.vec 4) (.var 78) (.lit 10)) (.bin (.vec 5) (.var 78) (.lit 54))),
    .asg 17 (.bin (.vec 1) (.var 42) (.bin (.vec 2) (.var 43) (.var 44))),
    .asg 52 (.bin (.vec 1) (.var 52) (.var 17)),
    .asg 84 (.bin (.vec 1) (.var 84) (.var 64)),
    .asg 45 (.bin (.vec 3) (.bin (.vec 4) (.var 84) (.lit 15)) (.bin (.vec 5) (.var 84) (.lit 49))),
    .asg 18 (.bin (.vec 1) (.var 43) (.bin (.vec 2) (.var 44) (.var 45))),
    .asg 53 (.bin (.vec 1) (.var 53) (.var 18)),
    .asg 90 (.bin (.vec 1) (.var 90) (.var 65)),
    .asg 46 (.bin (.vec 6) (.var 90) (.ld 32 (.glob 16))),
    .asg 19 (.bin (.vec 1) (.var 44) (.bin (.vec 2) (.var 45) (.var 46))),
    .asg 54 (.bin (.vec 1) (.var 54) (.var 19)),
    .asg 20 (.bin (.vec 1) (.var 45) (.bin (.vec 2) (.var 46) (.var 42))),
    .asg 55 (.bin (.vec 1) (.var 55) (.var 20)),
    .asg 21 (.bin (.vec 1) (.var 46) (.bin (.vec 2) (.var 42) (.var 43))),
    .asg 56 (.bin (.vec 1) (.var 56) (.var 21)),
    .asg 69 (.bin (.vec 1) (.var 69) (.var 64)),
    .asg 47 (.bin (.vec 3) (.bin (.vec 4) (.var 69) (.lit 62)) (.bin (.vec 5) (.var 69) (.lit 2))),
    .asg 75 (.bin (.vec 1) (.var 75) (.var 65)),
    .asg 48 (.bin (.vec 3) (.bin (.vec 4) (.var 75) (.lit 55)) (.bin (.vec 5) (.var 75) (.lit 9))),
    .asg 81 (.bin (.vec 1) (.var 81) (.var 66)),
    .asg 49 (.bin (.vec 3) (.bin (.vec 4) (.var 81) (.lit 39)) (.bin (.vec 5) (.var 81) (.lit 25))),
    .asg 22 (.bin (.vec 1) (.var 47) (.bin (.vec 2) (.var 48) (.var 49))),
    .asg 52 (.bin (.vec 1) (.var 52) (.var 22)),
    .asg 82 (.bin (.vec 1) (.var 82) (.var 62)),
    .asg 50 (.bin (.vec 3) (.bin (.vec 4) (.var 82) (.lit 41)) (.bin (.vec 5) (.var 82) (.lit 23))),
    .asg 23 (.bin (.vec 1) (.var 48) (.bin (.vec 2) (.var 49) (.var 50))),
    .asg 53 (.bin (.vec 1) (.var 53) (.var 23)),
    .asg 88 (.bin (.vec 1) (.var 88) (.var 63)),
    .asg 51 (.bin (.vec 3) (.bin (.vec 4) (.var 88) (.lit 2)) (.bin (.vec 5) (.var 88) (.lit 62))),
    .asg 24 (.bin (.vec 1) (.var 49) (.bin (.vec 2) (.var 50) (.var 51))),
    .asg 54 (.bin (.vec 1) (.var 54) (.var 24)),
    .asg 25 (.bin (.vec 1) (.var 50) (.bin (.vec 2) (.var 51) (.var 47))),
    .asg 55 (.bin (.vec 1) (.var 55) (.var 25)),
    .asg 26 (.bin (.vec 1) (.var 51) (.bin (.vec 2) (.var 47) (.var 48))),
    .asg 56 (.bin (.vec 1) (.var 56) (.var 26)),
    .asg 58 (.bin (.vec 3) (.bin (.vec 4) (.var 53) (.lit 1)) (.bin (.vec 5) (.var 53) (.lit 63))),
    .asg 62 (.bin (.vec 1) (.var 56) (.var 58)),
    .asg 59 (.bin (.vec 3) (.bin (.vec 4) (.var 54) (.lit 1)) (.bin (.vec 5) (.var 54) (.lit 63))),
    .asg 63 (.bin (.vec 1) (.var 52) (.var 59)),
    .asg 60 (.bin (.vec 3) (.bin (.vec 4) (.var 55) (.lit 1)) (.bin (.vec 5) (.var 55) (.lit 63)))]

/-- part of `KeccakP1600times4_PermuteAll_24rounds` -/
def KeccakP1600times4_PermuteAll_24rounds.part12 : Stmt :=
  block [
    .asg 64 (.bin (.vec 1) (.var 53) (.var 60)),
    .asg 61 (.bin (.vec 3) (.bin (.vec 4) (.var 56) (.lit 1)) (.bin (.vec 5) (.var 56) (.lit 63))),
    .asg 65 (.bin (.vec 1) (.var 54) (.var 61)),
    .asg 57 (.bin (.vec 3) (.bin (.vec 4) (.var 52) (.lit 1)) (.bin (.vec 5) (.var 52) (.lit 63))),
    .asg 66 (.bin (.vec 1) (.var 55) (.var 57)),
    .asg 2 (.bin (.vec 1) (.var 2) (.var 62)),
    .asg 27 (.var 2),
    .asg 8 (.bin (.vec 1) (.var 8) (.var 63)),
    .asg 28 (.bin (.vec 3) (.bin (.vec 4) (.var 8) (.lit 44)) (.bin (.vec 5) (.var 8) (.lit 20))),
    .asg 14 (.bin (.vec 1) (.var 14) (.var 64)),
    .asg 29 (.bin (.vec 3) (.bin (.vec 4) (.var 14) (.lit 43)) (.bin (.vec 5) (.var 14) (.lit 21))),
    .asg 67 (.bin (.vec 1) (.var 27) (.bin (.vec 2) (.var 28) (.var 29))),
    .asg 67 (.bin (.vec 1) (.var 67) (.bin (.vec 7) (.ld 8 (.padd (.glob 14) (.lit 4) 8)) (.lit 0))),
    .asg 52 (.var 67),
    .asg 20 (.bin (.vec 1) (.var 20) (.var 65)),
    .asg 30 (.bin (.vec 3) (.bin (.vec 4) (.var 20) (.lit 21)) (.bin (.vec 5) (.var 20) (.lit 43))),
    .asg 68 (.bin (.vec 1) (.var 28) (.bin (.vec 2) (.var 29) (.var 30))),
    .asg 53 (.var 68),
    .asg 26 (.bin (.vec 1) (.var 26) (.var 66)),
    .asg 31 (.bin (.vec 3) (.bin (.vec 4) (.var 26) (.lit 14)) (.bin (.vec 5) (.var 26) (.lit 50))),
    .asg 69 (.bin (.vec 1) (.var 29) (.bin (.vec 2) (.var 30) (.var 31))),
    .asg 54 (.var 69),
    .asg 70 (.bin (.vec 1) (.var 30) (.bin (.vec 2) (.var 31) (.var 27))),
    .asg 55 (.var 70),
    .asg 71 (.bin (.vec 1) (.var 31) (.bin (.vec 2) (.var 27) (.var 28))),
    .asg 56 (.var 71),
    .asg 5 (.bin (.vec 1) (.var 5) (.var 65)),
    .asg 32 (.bin (.vec 3) (.bin (.vec 4) (.var 5) (.lit 28)) (.bin (.vec 5) (.var 5) (.lit 36))),
    .asg 11 (.bin (.vec 1) (.var 11) (.var 66)),
    .asg 33 (.bin (.vec 3) (.bin (.vec 4) (.var 11) (.lit 20)) (.bin (.vec 5) (.var 11) (.lit 44))),
    .asg 12 (.bin (.vec 1) (.var 12) (.var 62)),
    .asg 34 (.bin (.vec 3) (.bin (.vec 4) (.var 12) (.lit 3)) (.bin (.vec 5) (.var 12) (.lit 61))),
    .asg 72 (.bin (.vec 1) (.var 32) (.bin (.vec 2) (.var 33) (.var 34))),
    .asg 52 (.bin (.vec 1) (.var 52) (.var 72)),
    .asg 18 (.bin (.vec 1) (.var 18) (.var 63)),
    .asg 35 (.bin (.vec 3) (.bin (.vec 4) (.var 18) (.lit 45)) (.bin (.vec 5) (.var 18) (.lit 19))),
    .asg 73 (.bin (.vec 1) (.var 33) (.bin (.vec 2) (.var 34) (.var 35))),
    .asg 53 (.bin (.vec 1) (.var 53) (.var 73)),
    .asg 24 (.bin (.vec 1) (.var 24) (.var 64)),
    .asg 36 (.bin (.vec 3) (.bin (.vec 4) (.var 24) (.lit 61)) (.bin (.vec 5) (.var 24) (.lit 3)))]

/-- part of `KeccakP1600times4_PermuteAll_24rounds` -/
def KeccakP1600times4_PermuteAll_24rounds.part13 : Stmt :=
  block [
    .asg 74 (.bin (.vec 1) (.var 34) (.bin (.vec 2) (.var 35) (.var 36))),
    .asg 54 (.bin (.vec 1) (.var 54) (.var 74)),
    .asg 75 (.bin (.vec 1) (.var 35) (.bin (.vec 2) (.var 36) (.var 32))),
    .asg 55 (.bin (.vec 1) (.var 55) (.var 75)),
    .asg 76 (.bin (.vec 1) (.var 36) (.bin (.vec 2) (.var 32) (.var 33))),
    .asg 56 (.bin (.vec 1) (.var 56) (.var 76)),
    .asg 3 (.bin (.vec 1) (.var 3) (.var 63)),
    .asg 37 (.bin (.vec 3) (.bin (.vec 4) (.var 3) (.lit 1)) (.bin (.vec 5) (.var 3) (.lit 63))),
    .asg 9 (.bin (.vec 1) (.var 9) (.var 64)),
    .asg 38 (.bin (.vec 3) (.bin (.vec 4) (.var 9) (.lit 6)) (.bin (.vec 5) (.var 9) (.lit 58))),
    .asg 15 (.bin (.vec 1) (.var 15) (.var 65)),
    .asg 39 (.bin (.vec 3) (.bin (.vec 4) (.var 15) (.lit 25)) (.bin (.vec 5) (.var 15) (.lit 39))),
    .asg 77 (.bin (.vec 1) (.var 37) (.bin (.vec 2) (.var 38) (.var 39))),
    .asg 52 (.bin (.vec 1) (.var 52) (.var 77)),
    .asg 21 (.bin (.vec 1) (.var 21) (.var 66)),
    .asg 40 (.bin (.vec 6) (.var 21) (.ld 32 (.glob 15))),
    .asg 78 (.bin (.vec 1) (.var 38) (.bin (.vec 2) (.var 39) (.var 40))),
    .asg 53 (.bin (.vec 1) (.var 53) (.var 78)),
    .asg 22 (.bin (.vec 1) (.var 22) (.var 62)),
    .asg 41 (.bin (.vec 3) (.bin (.vec 4) (.var 22) (.lit 18)) (.bin (.vec 5) (.var 22) (.lit 46))),
    .asg 79 (.bin (.vec 1) (.var 39) (.bin (.vec 2) (.var 40) (.var 41))),
    .asg 54 (.bin (.vec 1) (.var 54) (.var 79)),
    .asg 80 (.bin (.vec 1) (.var 40) (.bin (.vec 2) (.var 41) (.var 37))),
    .asg 55 (.bin (.vec 1) (.var 55) (.var 80)),
    .asg 81 (.bin (.vec 1) (.var 41) (.bin (.vec 2) (.var 37) (.var 38))),
    .asg 56 (.bin (.vec 1) (.var 56) (.var 81)),
    .asg 6 (.bin (.vec 1) (.var 6) (.var 66)),
    .asg 42 (.bin (.vec 3) (.bin (.vec 4) (.var 6) (.lit 27)) (.bin (.vec 5) (.var 6) (.lit 37))),
    .asg 7 (.bin (.vec 1) (.var 7) (.var 62)),
    .asg 43 (.bin (.vec 3) (.bin (.vec 4) (.var 7) (.lit 36)) (.bin (.vec 5) (.var 7) (.lit 28))),
    .asg 13 (.bin (.vec 1) (.var 13) (.var 63)),
    .asg 44 (.bin (.vec 3) (.bin (.vec 4) (.var 13) (.lit 10)) (.bin (.vec 5) (.var 13) (.lit 54))),
    .asg 82 (.bin (.vec 1) (.var 42) (.bin (.vec 2) (.var 43) (.var 44))),
    .asg 52 (.bin (.vec 1) (.var 52) (.var 82)),
    .asg 19 (.bin (.vec 1) (.var 19) (.var 64)),
    .asg 45 (.bin (.vec 3) (.bin (.vec 4) (.var 19) (.lit 15)) (.bin (.vec 5) (.var 19) (.lit 49))),
    .asg 83 (.bin (.vec 1) (.var 43) (.bin (.vec 2) (.var 44) (.var 45))),
    .asg 53 (.bin (.vec 1) (.var 53) (.var 83)),
    .asg 25 (.bin (.vec 1) (.var 25) (.var 65)),
    .asg 46 (.bin (.vec 6) (.var 25) (.ld 32 (.glob 16)))]

/-- part of `KeccakP1600times4_PermuteAll_24rounds` -/
def KeccakP1600times4_PermuteAll_24rounds.part14 : Stmt :=
  block [
    .asg 84 (.bin (.vec 1) (.var 44) (.bin (.vec 2) (.var 45) (.var 46))),
    .asg 54 (.bin (.vec 1) (.var 54) (.var 84)),
    .asg 85 (.bin (.vec 1) (.var 45) (.bin (.vec 2) (.var 46) (.var 42))),
    .asg 55 (.bin (.vec 1) (.var 55) (.var 85)),
    .asg 86 (.bin (.vec 1) (.var 46) (.bin (.vec 2) (.var 42) (.var 43))),
    .asg 56 (.bin (.vec 1) (.var 56) (.var 86)),
    .asg 4 (.bin (.vec 1) (.var 4) (.var 64)),
    .asg 47 (.bin (.vec 3) (.bin (.vec 4) (.var 4) (.lit 62)) (.bin (.vec 5) (.var 4) (.lit 2))),
    .asg 10 (.bin (.vec 1) (.var 10) (.var 65)),
    .asg 48 (.bin (.vec 3) (.bin (.vec 4) (.var 10) (.lit 55)) (.bin (.vec 5) (.var 10) (.lit 9))),
    .asg 16 (.bin (.vec 1) (.var 16) (.var 66)),
    .asg 49 (.bin (.vec 3) (.bin (.vec 4) (.var 16) (.lit 39)) (.bin (.vec 5) (.var 16) (.lit 25))),
    .asg 87 (.bin (.vec 1) (.var 47) (.bin (.vec 2) (.var 48) (.var 49))),
    .asg 52 (.bin (.vec 1) (.var 52) (.var 87)),
    .asg 17 (.bin (.vec 1) (.var 17) (.var 62)),
    .asg 50 (.bin (.vec 3) (.bin (.vec 4) (.var 17) (.lit 41)) (.bin (.vec 5) (.var 17) (.lit 23))),
    .asg 88 (.bin (.vec 1) (.var 48) (.bin (.vec 2) (.var 49) (.var 50))),
    .asg 53 (.bin (.vec 1) (.var 53) (.var 88)),
    .asg 23 (.bin (.vec 1) (.var 23) (.var 63)),
    .asg 51 (.bin (.vec 3) (.bin (.vec 4) (.var 23) (.lit 2)) (.bin (.vec 5) (.var 23) (.lit 62))),
    .asg 89 (.bin (.vec 1) (.var 49) (.bin (.vec 2) (.var 50) (.var 51))),
    .asg 54 (.bin (.vec 1) (.var 54) (.var 89)),
    .asg 90 (.bin (.vec 1) (.var 50) (.bin (.vec 2) (.var 51) (.var 47))),
    .asg 55 (.bin (.vec 1) (.var 55) (.var 90)),
    .asg 91 (.bin (.vec 1) (.var 51) (.bin (.vec 2) (.var 47) (.var 48))),
    .asg 56 (.bin (.vec 1) (.var 56) (.var 91)),
    .asg 58 (.bin (.vec 3) (.bin (.vec 4) (.var 53) (.lit 1)) (.bin (.vec 5) (.var 53) (.lit 63))),
    .asg 62 (.bin (.vec 1) (.var 56) (.var 58)),
    .asg 59 (.bin (.vec 3) (.bin (.vec 4) (.var 54) (.lit 1)) (.bin (.vec 5) (.var 54) (.lit 63))),
    .asg 63 (.bin (.vec 1) (.var 52) (.var 59)),
    .asg 60 (.bin (.vec 3) (.bin (.vec 4) (.var 55) (.lit 1)) (.bin (.vec 5) (.var 55) (.lit 63))),
    .asg 64 (.bin (.vec 1) (.var 53) (.var 60)),
    .asg 61 (.bin (.vec 3) (.bin (.vec 4) (.var 56) (.lit 1)) (.bin (.vec 5) (.var 56) (.lit 63))),
    .asg 65 (.bin (.vec 1) (.var 54) (.var 61)),
    .asg 57 (.bin (.vec 3) (.bin (.vec 4) (.var 52) (.lit 1)) (.bin (.vec 5) (.var 52) (.lit 63))),
    .asg 66 (.bin (.vec 1) (.var 55) (.var 57)),
    .asg 67 (.bin (.vec 1) (.var 67) (.var 62)),
    .asg 27 (.var 67),
    .asg 73 (.bin (.vec 1) (.var 73) (.var 63)),
    .asg 28 (.bin (.vec 3) (.bin (.vec 4) (.var 73) (.lit 44)) (.bin (.vec 5) (.var 73) (.lit 20)))]

/-- part of `KeccakP1600times4_PermuteAll_24rounds` -/
def KeccakP1600times4_PermuteAll_24rounds.part15 : Stmt :=
  block [
    .asg 79 (.bin (.vec 1) (.var 79) (.var 64)),
    .asg 29 (.bin (.vec 3) (.bin (.vec 4) (.var 79) (.lit 43)) (.bin (.vec 5) (.var 79) (.lit 21))),
    .asg 2 (.bin (.vec 1) (.var 27) (.bin (.vec 2) (.var 28) (.var 29))),
    .asg 2 (.bin (.vec 1) (.var 2) (.bin (.vec 7) (.ld 8 (.padd (.glob 14) (.lit 5) 8)) (.lit 0))),
    .asg 52 (.var 2),
    .asg 85 (.bin (.vec 1) (.var 85) (.var 65)),
    .asg 30 (.bin (.vec 3) (.bin (.vec 4) (.var 85) (.lit 21)) (.bin (.vec 5) (.var 85) (.lit 43))),
    .asg 3 (.bin (.vec 1) (.var 28) (.bin (.vec 2) (.var 29) (.var 30))),
    .asg 53 (.var 3),
    .asg 91 (.bin (.vec 1) (.var 91) (.var 66)),
    .asg 31 (.bin (.vec 3) (.bin (.vec 4) (.var 91) (.lit 14)) (.bin (.vec 5) (.var 91) (.lit 50))),
    .asg 4 (.bin (.vec 1) (.var 29) (.bin (.vec 2) (.var 30) (.var 31))),
    .asg 54 (.var 4),
    .asg 5 (.bin (.vec 1) (.var 30) (.bin (.vec 2) (.var 31) (.var 27))),
    .asg 55 (.var 5),
    .asg 6 (.bin (.vec 1) (.var 31) (.bin (.vec 2) (.var 27) (.var 28))),
    .asg 56 (.var 6),
    .asg 70 (.bin (.vec 1) (.var 70) (.var 65)),
    .asg 32 (.bin (.vec 3) (.bin (.vec 4) (.var 70) (.lit 28)) (.bin (.vec 5) (.var 70) (.lit 36))),
    .asg 76 (.bin (.vec 1) (.var 76) (.var 66)),
    .asg 33 (.bin (.vec 3) (.bin (.vec 4) (.var 76) (.lit 20)) (.bin (.vec 5) (.var 76) (.lit 44))),
    .asg 77 (.bin (.vec 1) (.var 77) (.var 62)),
    .asg 34 (.bin (.vec 3) (.bin (.vec 4) (.var 77) (.lit 3)) (.bin (.vec 5) (.var 77) (.lit 61))),
    .asg 7 (.bin (.vec 1) (.var 32) (.bin (.vec 2) (.var 33) (.var 34))),
    .asg 52 (.bin (.vec 1) (.var 52) (.var 7)),
    .asg 83 (.bin (.vec 1) (.var 83) (.var 63)),
    .asg 35 (.bin (.vec 3) (.bin (.vec 4) (.var 83) (.lit 45)) (.bin (.vec 5) (.var 83) (.lit 19))),
    .asg 8 (.bin (.vec 1) (.var 33) (.bin (.vec 2) (.var 34) (.var 35))),
    .asg 53 (.bin (.vec 1) (.var 53) (.var 8)),
    .asg 89 (.bin (.vec 1) (.var 89) (.var 64)),
    .asg 36 (.bin (.vec 3) (.bin (.vec 4) (.var 89) (.lit 61)) (.bin (.vec 5) (.var 89) (.lit 3))),
    .asg 9 (.bin (.vec 1) (.var 34) (.bin (.vec 2) (.var 35) (.var 36))),
    .asg 54 (.bin (.vec 1) (.var 54) (.var 9)),
    .asg 10 (.bin (.vec 1) (.var 35) (.bin (.vec 2) (.var 36) (.var 32))),
    .asg 55 (.bin (.vec 1) (.var 55) (.var 10)),
    .asg 11 (.bin (.vec 1) (.var 36) (.bin (.vec 2) (.var 32) (.var 33))),
    .asg 56 (.bin (.vec 1) (.var 56) (.var 11)),
    .asg 68 (.bin (.vec 1) (.var 68) (.var 63)),
    .asg 37 (.bin (.vec 3) (.bin (.vec 4) (.var 68) (.lit 1)) (.bin (.vec 5) (.var 68) (.lit 63))),
    .asg 74 (.bin (.vec 1) (.var 74) (.var 64))]

/-- part of `KeccakP1600times4_PermuteAll_24rounds` -/
def KeccakP1600times4_PermuteAll_24rounds.part16 : Stmt :=
  block [
    .asg 38 (.bin (.vec 3) (.bin (.vec 4) (.var 74) (.lit 6)) (.bin (.vec 5) (.var 74) (.lit 58))),
    .asg 80 (.bin (.vec 1) (.var 80) (.var 65)),
    .asg 39 (.bin (.vec 3) (.bin (.vec 4) (.var 80) (.lit 25)) (.bin (.vec 5) (.var 80) (.lit 39))),
    .asg 12 (.bin (.vec 1) (.var 37) (.bin (.vec 2) (.var 38) (.var 39))),
    .asg 52 (.bin (.vec 1) (.var 52) (.var 12)),
    .asg 86 (.bin (.vec 1) (.var 86) (.var 66)),
    .asg 40 (.bin (.vec 6) (.var 86) (.ld 32 (.glob 15))),
    .asg 13 (.bin (.vec 1) (.var 38) (.bin (.vec 2) (.var 39) (.var 40))),
    .asg 53 (.bin (.vec 1) (.var 53) (.var 13)),
    .asg 87 (.bin (.vec 1) (.var 87) (.var 62)),
    .asg 41 (.bin (.vec 3) (.bin (.vec 4) (.var 87) (.lit 18)) (.bin (.vec 5) (.var 87) (.lit 46))),
    .asg 14 (.bin (.vec 1) (.var 39) (.bin (.vec 2) (.var 40) (.var 41))),
    .asg 54 (.bin (.vec 1) (.var 54) (.var 14)),
    .asg 15 (.bin (.vec 1) (.var 40) (.bin (.vec 2) (.var 41) (.var 37))),
    .asg 55 (.bin (.vec 1) (.var 55) (.var 15)),
    .asg 16 (.bin (.vec 1) (.var 41) (.bin (.vec 2) (.var 37) (.var 38))),
    .asg 56 (.bin (.vec 1) (.var 56) (.var 16)),
    .asg 71 (.bin (.vec 1) (.var 71) (.var 66)),
    .asg 42 (.bin (.vec 3) (.bin (.vec 4) (.var 71) (.lit 27)) (.bin (.vec 5) (.var 71) (.lit 37))),
    .asg 72 (.bin (.vec 1) (.var 72) (.var 62)),
    .asg 43 (.bin (.vec 3) (.bin (.vec 4) (.var 72) (.lit 36)) (.bin (.vec 5) (.var 72) (.lit 28))),
    .asg 78 (.bin (.vec 1) (.var 78) (.var 63)),
    .asg 44 (.bin (.vec 3) (.bin (.vec 4) (.var 78) (.lit 10)) (.bin (.vec 5) (.var 78) (.lit 54))),
    .asg 17 (.bin (.vec 1) (.var 42) (.bin (.vec 2) (.var 43) (.var 44))),
    .asg 52 (.bin (.vec 1) (.var 52) (.var 17)),
    .asg 84 (.bin (.vec 1) (.var 84) (.var 64)),
    .asg 45 (.bin (.vec 3) (.bin (.vec 4) (.var 84) (.lit 15)) (.bin (.vec 5) (.var 84) (.lit 49))),
    .asg 18 (.bin (.vec 1) (.var 43) (.bin (.vec 2) (.var 44) (.var 45))),
    .asg 53 (.bin (.vec 1) (.var 53) (.var 18)),
    .asg 90 (.bin (.vec 1) (.var 90) (.var 65)),
    .asg 46 (.bin (.vec 6) (.var 90) (.ld 32 (.glob 16))),
    .asg 19 (.bin (.vec 1) (.var 44) (.bin (.vec 2) (.var 45) (.var 46))),
    .asg 54 (.bin (.vec 1) (.var 54) (.var 19)),
    .asg 20 (.bin (.vec 1) (.var 45) (.bin (.vec 2) (.var 46) (.var 42))),
    .asg 55 (.bin (.vec 1) (.var 55) (.var 20)),
    .asg 21 (.bin (.vec 1) (.var 46) (.bin (.vec 2) (.var 42) (.var 43))),
    .asg 56 (.bin (.vec 1) (.var 56) (.var 21)),
    .asg 69 (.bin (.vec 1) (.var 69) (.var 64)),
    .asg 47 (.bin (.vec 3) (.bin (.vec 4) (.var 69) (.lit 62)) (.bin (.vec 5) (.var 69) (.lit 2))),
    .asg 75 (.bin (.vec 1) (.var 75) (.var 65))]

/-- part of `KeccakP1600times4_PermuteAll_24rounds` -/
def KeccakP1600times4_PermuteAll_24rounds.part17 : Stmt :=
  block [
    .asg 48 (.bin (.vec 3) (.bin (.vec 4) (.var 75) (.lit 55)) (.bin (.vec 5) (.var 75) (.lit 9))),
    .asg 81 (.bin (.vec 1) (.var 81) (.var 66)),
    .asg 49 (.bin (.vec 3) (.bin (.vec 4) (.var 81) (.lit 39)) (.bin (.vec 5) (.var 81) (.lit 25))),
    .asg 22 (.bin (.vec 1) (.var 47) (.bin (.vec 2) (.var 48) (.var 49))),
    .asg 52 (.bin (.vec 1) (.var 52) (.var 22)),
    .asg 82 (.bin (.vec 1) (.var 82) (.var 62)),
    .asg 50 (.bin (.vec 3) (.bin (.vec 4) (.var 82) (.lit 41)) (.bin (.vec 5) (.var 82) (.lit 23))),
    .asg 23 (.bin (.vec 1) (.var 48) (.bin (.vec 2) (.var 49) (.var 50))),
    .asg 53 (.bin (.vec 1) (.var 53) (.var 23)),
    .asg 88 (.bin (.vec 1) (.var 88) (.var 63)),
    .asg 51 (.bin (.vec 3) (.bin (.vec 4) (.var 88) (.lit 2)) (.bin (.vec 5) (.var 88) (.lit 62))),
    .asg 24 (.bin (.vec 1) (.var 49) (.bin (.vec 2) (.var 50) (.var 51))),
    .asg 54 (.bin (.vec 1) (.var 54) (.var 24)),
    .asg 25 (.bin (.vec 1) (.var 50) (.bin (.vec 2) (.var 51) (.var 47))),
    .asg 55 (.bin (.vec 1) (.var 55) (.var 25)),
    .asg 26 (.bin (.vec 1) (.var 51) (.bin (.vec 2) (.var 47) (.var 48))),
    .asg 56 (.bin (.vec 1) (.var 56) (.var 26)),
    .asg 58 (.bin (.vec 3) (.bin (.vec 4) (.var 53) (.lit 1)) (.bin (.vec 5) (.var 53) (.lit 63))),
    .asg 62 (.bin (.vec 1) (.var 56) (.var 58)),
    .asg 59 (.bin (.vec 3) (.bin (.vec 4) (.var 54) (.lit 1)) (.bin (.vec 5) (.var 54) (.lit 63))),
    .asg 63 (.bin (.vec 1) (.var 52) (.var 59)),
    .asg 60 (.bin (.vec 3) (.bin (.vec 4) (.var 55) (.lit 1)) (.bin (.vec 5) (.var 55) (.lit 63))),
    .asg 64 (.bin (.vec 1) (.var 53) (.var 60)),
    .asg 61 (.bin (.vec 3) (.bin (.vec 4) (.var 56) (.lit 1)) (.bin (.vec 5) (.var 56) (.lit 63))),
    .asg 65 (.bin (.vec 1) (.var 54) (.var 61)),
    .asg 57 (.bin (.vec 3) (.bin (.vec 4) (.var 52) (.lit 1)) (.bin (.vec 5) (.var 52) (.lit 63))),
    .asg 66 (.bin (.vec 1) (.var 55) (.var 57)),
    .asg 2 (.bin (.vec 1) (.var 2) (.var 62)),
    .asg 27 (.var 2),
    .asg 8 (.bin (.vec 1) (.var 8) (.var 63)),
    .asg 28 (.bin (.vec 3) (.bin (.vec 4) (.var 8) (.lit 44)) (.bin (.vec 5) (.var 8) (.lit 20))),
    .asg 14 (.bin (.vec 1) (.var 14) (.var 64)),
    .asg 29 (.bin (.vec 3) (.bin (.vec 4) (.var 14) (.lit 43)) (.bin (.vec 5) (.var 14) (.lit 21))),
    .asg 67 (.bin (.vec 1) (.var 27) (.bin (.vec 2) (.var 28) (.var 29))),
    .asg 67 (.bin (.vec 1) (.var 67) (.bin (.vec 7) (.ld 8 (.padd (.glob 14) (.lit 6) 8)) (.lit 0))),
    .asg 52 (.var 67),
    .asg 20 (.bin (.vec 1) (.var 20) (.var 65)),
    .asg 30 (.bin (.vec 3) (.bin (.vec 4) (.var 20) (.lit 21)) (.bin (.vec 5) (.var 20) (.lit 43))),
    .asg 68 (.bin (.vec 1) (.var 28) (.bin (.vec 2) (.var 29) (.var 30))),
    .asg 53 (.var 68)]

/-- part of `KeccakP1600times4_PermuteAll_24rounds` -/
def KeccakP1600times4_PermuteAll_24rounds.part18 : Stmt :=
  block [
    .asg 26 (.bin (.vec 1) (.var 26) (.var 66)),
    .asg 31 (.bin (.vec 3) (.bin (.vec 4) (.var 26) (.lit 14)) (.bin (.vec 5) (.var 26) (.lit 50))),
    .asg 69 (.bin (.vec 1) (.var 29) (.bin (.vec 2) (.var 30) (.var 31))),
    .asg 54 (.var 69),
    .asg 70 (.bin (.vec 1) (.var 30) (.bin (.vec 2) (.var 31) (.var 27))),
    .asg 55 (.var 70),
    .asg 71 (.bin (.vec 1) (.var 31) (.bin (.vec 2) (.var 27) (.var 28))),
    .asg 56 (.var 71),
    .asg 5 (.bin (.vec 1) (.var 5) (.var 65)),
    .asg 32 (.bin (.vec 3) (.bin (.vec 4) (.var 5) (.lit 28)) (.bin (.vec 5) (.var 5) (.lit 36))),
    .asg 11 (.bin (.vec 1) (.var 11) (.var 66)),
    .asg 33 (.bin (.vec 3) (.bin (.vec 4) (.var 11) (.lit 20)) (.bin (.vec 5) (.var 11) (.lit 44))),
    .asg 12 (.bin (.vec 1) (.var 12) (.var 62)),
    .asg 34 (.bin (.vec 3) (.bin (.vec 4) (.var 12) (.lit 3)) (.bin (.vec 5) (.var 12) (.lit 61))),
    .asg 72 (.bin (.vec 1) (.var 32) (.bin (.vec 2) (.var 33) (.var 34))),
    .asg 52 (.bin (.vec 1) (.var 52) (.var 72)),
    .asg 18 (.bin (.vec 1) (.var 18) (.var 63)),
    .asg 35 (.bin (.vec 3) (.bin (.vec 4) (.var 18) (.lit 45)) (.bin (.vec 5) (.var 18) (.lit 19))),
    .asg 73 (.bin (.vec 1) (.var 33) (.bin (.vec 2) (.var 34) (.var 35))),
    .asg 53 (.bin (.vec 1) (.var 53) (.var 73)),
    .asg 24 (.bin (.vec 1) (.var 24) (.var 64)),
    .asg 36 (.bin (.vec 3) (.bin (.vec 4) (.var 24) (.lit 61)) (.bin (.vec 5) (.var 24) (.lit 3))),
    .asg 74 (.bin (.vec 1) (.var 34) (.bin (.vec 2) (.var 35) (.var 36))),
    .asg 54 (.bin (.vec 1) (.var 54) (.var 74)),
    .asg 75 (.bin (.vec 1) (.var 35) (.bin (.vec 2) (.var 36) (.var 32))),
    .asg 55 (.bin (.vec 1) (.var 55) (.var 75)),
    .asg 76 (.bin (.vec 1) (.var 36) (.bin (.vec 2) (.var 32) (.var 33))),
    .asg 56 (.bin (.vec 1) (.var 56) (.var 76)),
    .asg 3 (.bin (.vec 1) (.var 3) (.var 63)),
    .asg 37 (.bin (.vec 3) (.bin (.vec 4) (.var 3) (.lit 1)) (.bin (.vec 5) (.var 3) (.lit 63))),
    .asg 9 (.bin (.vec 1) (.var 9) (.var 64)),
    .asg 38 (.bin (.vec 3) (.bin (.vec 4) (.var 9) (.lit 6)) (.bin (.vec 5) (.var 9) (.lit 58))),
    .asg 15 (.bin (.vec 1) (.var 15) (.var 65)),
    .asg 39 (.bin (.vec 3) (.bin (.vec 4) (.var 15) (.lit 25)) (.bin (.vec 5) (.var 15) (.lit 39))),
    .asg 77 (.bin (.vec 1) (.var 37) (.bin (.vec 2) (.var 38) (.var 39))),
    .asg 52 (.bin (.vec 1) (.var 52) (.var 77)),
    .asg 21 (.bin (.vec 1) (.var 21) (.var 66)),
    .asg 40 (.bin (.vec 6) (.var 21) (.ld 32 (.glob 15))),
    .asg 78 (.bin (.vec 1) (.var 38) (.bin (.vec 2) (.var 39) (.var 40))),
    .asg 53 (.bin (.vec 1) (.var 53) (.var 78))]

/-- part of `KeccakP1600times4_PermuteAll_24rounds` -/
def KeccakP1600times4_PermuteAll_24rounds.part19 : Stmt :=
  block [
    .asg 22 (.bin (.vec 1) (.var 22) (.var 62)),
    .asg 41 (.bin (.vec 3) (.bin (.vec 4) (.var 22) (.lit 18)) (.bin (.vec 5) (.var 22) (.lit 46))),
    .asg 79 (.bin (.vec 1) (.var 39) (.bin (.vec 2) (.var 40) (.var 41))),
    .asg 54 (.bin (.vec 1) (.var 54) (.var 79)),
    .asg 80 (.bin (.vec 1) (.var 40) (.bin (.vec 2) (.var 41) (.var 37))),
    .asg 55 (.bin (.vec 1) (.var 55) (.var 80)),
    .asg 81 (.bin (.vec 1) (.var 41) (.bin (.vec 2) (.var 37) (.var 38))),
    .asg 56 (.bin (.vec 1) (.var 56) (.var 81)),
    .asg 6 (.bin (.vec 1) (.var 6) (.var 66)),
    .asg 42 (.bin (.vec 3) (.bin (.vec 4) (.var 6) (.lit 27)) (.bin (.vec 5) (.var 6) (.lit 37))),
    .asg 7 (.bin (.vec 1) (.var 7) (.var 62)),
    .asg 43 (.bin (.vec 3) (.bin (.vec 4) (.var 7) (.lit 36)) (.bin (.vec 5) (.var 7) (.lit 28))),
    .asg 13 (.bin (.vec 1) (.var 13) (.var 63)),
    .asg 44 (.bin (.vec 3) (.bin (.vec 4) (.var 13) (.lit 10)) (.bin (.vec 5) (.var 13) (.lit 54))),
    .asg 82 (.bin (.vec 1) (.var 42) (.bin (.vec 2) (.var 43) (.var 44))),
    .asg 52 (.bin (.vec 1) (.var 52) (.var 82)),
    .asg 19 (.bin (.vec 1) (.var 19) (.var 64)),
    .asg 45 (.bin (.vec 3) (.bin (.vec 4) (.var 19) (.lit 15)) (.bin (.vec 5) (.var 19) (.lit 49))),
    .asg 83 (.bin (.vec 1) (.var 43) (.bin (.vec 2) (.var 44) (.var 45))),
    .asg 53 (.bin (.vec 1) (.var 53) (.var 83)),
    .asg 25 (.bin (.vec 1) (.var 25) (.var 65)),
    .asg 46 (.bin (.vec 6) (.var 25) (.ld 32 (.glob 16))),
    .asg 84 (.bin (.vec 1) (.var 44) (.bin (.vec 2) (.var 45) (.var 46))),
    .asg 54 (.bin (.vec 1) (.var 54) (.var 84)),
    .asg 85 (.bin (.vec 1) (.var 45) (.bin (.vec 2) (.var 46) (.var 42))),
    .asg 55 (.bin (.vec 1) (.var 55) (.var 85)),
    .asg 86 (.bin (.vec 1) (.var 46) (.bin (.vec 2) (.var 42) (.var 43))),
    .asg 56 (.bin (.vec 1) (.var 56) (.var 86)),
    .asg 4 (.bin (.vec 1) (.var 4) (.var 64)),
    .asg 47 (.bin (.vec 3) (.bin (.vec 4) (.var 4) (.lit 62)) (.bin (.vec 5) (.var 4) (.lit 2))),
    .asg 10 (.bin (.vec 1) (.var 10) (.var 65)),
    .asg 48 (.bin (.vec 3) (.bin (.vec 4) (.var 10) (.lit 55)) (.bin (.vec 5) (.var 10) (.lit 9))),
    .asg 16 (.bin (.vec 1) (.var 16) (.var 66)),
    .asg 49 (.bin (.vec 3) (.bin (.vec 4) (.var 16) (.lit 39)) (.bin (.vec 5) (.var 16) (.lit 25))),
    .asg 87 (.bin (.vec 1) (.var 47) (.bin (.vec 2) (.var 48) (.var 49))),
    .asg 52 (.bin (.vec 1) (.var 52) (.var 87)),
    .asg 17 (.bin (.vec 1) (.var 17) (.var 62)),
    .asg 50 (.bin (.vec 3) (.bin (.vec 4) (.var 17) (.lit 41)) (.bin (.vec 5) (.var 17) (.lit 23))),
    .asg 88 (.bin (.vec 1) (.var 48) (.bin (.vec 2) (.var 49) (.var 50))),
    .asg 53 (.bin (.vec 1) (.var 53) (.var 88))]

/-- part of `KeccakP1600times4_PermuteAll_24rounds` -/
def KeccakP1600times4_PermuteAll_24rounds.part20 : Stmt :=
  block [
    .asg 23 (.bin (.vec 1) (.var 23) (.var 63)),
    .asg 51 (.bin (.vec 3) (.bin (.vec 4) (.var 23) (.lit 2)) (.bin (.vec 5) (.var 23) (.lit 62))),
    .asg 89 (.bin (.vec 1) (.var 49) (.bin (.vec 2) (.var 50) (.var 51))),
    .asg 54 (.bin (.vec 1) (.var 54) (.var 89)),
    .asg 90 (.bin (.vec 1) (.var 50) (.bin (.vec 2) (.var 51) (.var 47))),
    .asg 55 (.bin (.vec 1) (.var 55) (.var 90)),
    .asg 91 (.bin (.vec 1) (.var 51) (.bin (.vec 2) (.var 47) (.var 48))),
    .asg 56 (.bin (.vec 1) (.var 56) (.var 91)),
    .asg 58 (.bin (.vec 3) (.bin (.vec 4) (.var 53) (.lit 1)) (.bin (.vec 5) (.var 53) (.lit 63))),
    .asg 62 (.bin (.vec 1) (.var 56) (.var 58)),
    .asg 59 (.bin (.vec 3) (.bin (.vec 4) (.var 54) (.lit 1)) (.bin (.vec 5) (.var 54) (.lit 63))),
    .asg 63 (.bin (.vec 1) (.var 52) (.var 59)),
    .asg 60 (.bin (.vec 3) (.bin (.vec 4) (.var 55) (.lit 1)) (.bin (.vec 5) (.var 55) (.lit 63))),
    .asg 64 (.bin (.vec 1) (.var 53) (.var 60)),
    .asg 61 (.bin (.vec 3) (.bin (.vec 4) (.var 56) (.lit 1)) (.bin (.vec 5) (.var 56) (.lit 63))),
    .asg 65 (.bin (.vec 1) (.var 54) (.var 61)),
    .asg 57 (.bin (.vec 3) (.bin (.vec 4) (.var 52) (.lit 1)) (.bin (.vec 5) (.var 52) (.lit 63))),
    .asg 66 (.bin (.vec 1) (.var 55) (.var 57)),
    .asg 67 (.bin (.vec 1) (.var 67) (.var 62)),
    .asg 27 (.var 67),
    .asg 73 (.bin (.vec 1) (.var 73) (.var 63)),
    .asg 28 (.bin (.vec 3) (.bin (.vec 4) (.var 73) (.lit 44)) (.bin (.vec 5) (.var 73) (.lit 20))),
    .asg 79 (.bin (.vec 1) (.var 79) (.var 64)),
    .asg 29 (.bin (.vec 3) (.bin (.vec 4) (.var 79) (.lit 43)) (.bin (.vec 5) (.var 79) (.lit 21))),
    .asg 2 (.bin (.vec 1) (.var 27) (.bin (.vec 2) (.var 28) (.var 29))),
    .asg 2 (.bin (.vec 1) (.var 2) (.bin (.vec 7) (.ld 8 (.padd (.glob 14) (.lit 7) 8)) (.lit 0))),
    .asg 52 (.var 2),
    .asg 85 (.bin (.vec 1) (.var 85) (.var 65)),
    .asg 30 (.bin (.vec 3) (.bin (.vec 4) (.var 85) (.lit 21)) (.bin (.vec 5) (.var 85) (.lit 43))),
    .asg 3 (.bin (.vec 1) (.var 28) (.bin (.vec 2) (.var 29) (.var 30))),
    .asg 53 (.var 3),
    .asg 91 (.bin (.vec 1) (.var 91) (.var 66)),
    .asg 31 (.bin (.vec 3) (.bin (.vec 4) (.var 91) (.lit 14)) (.bin (.vec 5) (.var 91) (.lit 50))),
    .asg 4 (.bin (.vec 1) (.var 29) (.bin (.vec 2) (.var 30) (.var 31))),
    .asg 54 (.var 4),
    .asg 5 (.bin (.vec 1) (.var 30) (.bin (.vec 2) (.var 31) (.var 27))),
    .asg 55 (.var 5),
    .asg 6 (.bin (.vec 1) (.var 31) (.bin (.vec 2) (.var 27) (.var 28))),
    .asg 56 (.var 6),
    .asg 70 (.bin (.vec 1) (.var 70) (.var 65))]

/-- part of `KeccakP1600times4_PermuteAll_24rounds` -/
def KeccakP1600times4_PermuteAll_24rounds.part21 : Stmt :=
  block [
    .asg 32 (.bin (.vec 3) (.bin (.vec 4) (.var 70) (.lit 28)) (.bin (.vec 5) (.var 70) (.lit 36))),
    .asg 76 (.bin (.vec 1) (.var 76) (.var 66)),
    .asg 33 (.bin (.vec 3) (.bin (.vec 4) (.var 76) (.lit 20)) (.bin (.vec 5) (.var 76) (.lit 44))),
    .asg 77 (.bin (.vec 1) (.var 77) (.var 62)),
    .asg 34 (.bin (.vec 3) (.bin (.vec 4) (.var 77) (.lit 3)) (.bin (.vec 5) (.var 77) (.lit 61))),
    .asg 7 (.bin (.vec 1) (.var 32) (.bin (.vec 2) (.var 33) (.var 34))),
    .asg 52 (.bin (.vec 1) (.var 52) (.var 7)),
    .asg 83 (.bin (.vec 1) (.var 83) (.var 63)),
    .asg 35 (.bin (.vec 3) (.bin (.vec 4) (.var 83) (.lit 45)) (.bin (.vec 5) (.var 83) (.lit 19))),
    .asg 8 (.bin (.vec 1) (.var 33) (.bin (.vec 2) (.var 34) (.var 35))),
    .asg 53 (.bin (.vec 1) (.var 53) (.var 8)),
    .asg 89 (.bin (.vec 1) (.var 89) (.var 64)),
    .asg 36 (.bin (.vec 3) (.bin (.vec 4) (.var 89) (.lit 61)) (.bin (.vec 5) (.var 89) (.lit 3))),
    .asg 9 (.bin (.vec 1) (.var 34) (.bin (.vec 2) (.var 35) (.var 36))),
    .asg 54 (.bin (.vec 1) (.var 54) (.var 9)),
    .asg 10 (.bin (.vec 1) (.var 35) (.bin (.vec 2) (.var 36) (.var 32))),
    .asg 55 (.bin (.vec 1) (.var 55) (.var 10)),
    .asg 11 (.bin (.vec 1) (.var 36) (.bin (.vec 2) (.var 32) (.var 33))),
    .asg 56 (.bin (.vec 1) (.var 56) (.var 11)),
    .asg 68 (.bin (.vec 1) (.var 68) (.var 63)),
    .asg 37 (.bin (.vec 3) (.bin (.vec 4) (.var 68) (.lit 1)) (.bin (.vec 5) (.var 68) (.lit 63))),
    .asg 74 (.bin (.vec 1) (.var 74) (.var 64)),
    .asg 38 (.bin (.vec 3) (.bin (.vec 4) (.var 74) (.lit 6)) (.bin (.vec 5) (.var 74) (.lit 58))),
    .asg 80 (.bin (.vec 1) (.var 80) (.var 65)),
    .asg 39 (.bin (.vec 3) (.bin (.vec 4) (.var 80) (.lit 25)) (.bin (.vec 5) (.var 80) (.lit 39))),
    .asg 12 (.bin (.vec 1) (.var 37) (.bin (.vec 2) (.var 38) (.var 39))),
    .asg 52 (.bin (.vec 1) (.var 52) (.var 12)),
    .asg 86 (.bin (.vec 1) (.var 86) (.var 66)),
    .asg 40 (.bin (.vec 6) (.var 86) (.ld 32 (.glob 15))),
    .asg 13 (.bin (.vec 1) (.var 38) (.bin (.vec 2) (.var 39) (.var 40))),
    .asg 53 (.bin (.vec 1) (.var 53) (.var 13)),
    .asg 87 (.bin (.vec 1) (.var 87) (.var 62)),
    .asg 41 (.bin (.vec 3) (.bin (.vec 4) (.var 87) (.lit 18)) (.bin (.vec 5) (.var 87) (.lit 46))),
    .asg 14 (.bin (.vec 1) (.var 39) (.bin (.vec 2) (.var 40) (.var 41))),
    .asg 54 (.bin (.vec 1) (.var 54) (.var 14)),
    .asg 15 (.bin (.vec 1) (.var 40) (.bin (.vec 2) (.var 41) (.var 37))),
    .asg 55 (.bin (.vec 1) (.var 55) (.var 15)),
    .asg 16 (.bin (.vec 1) (.var 41) (.bin (.vec 2) (.var 37) (.var 38))),
    .asg 56 (.bin (.vec 1) (.var 56) (.var 16)),
    .asg 71 (.bin (.vec 1) (.var 71) (.var 66))]

/-- part of `KeccakP1600times4_PermuteAll_24rounds` -/
def KeccakP1600times4_PermuteAll_24rounds.part22 : Stmt :=
  block [
    .asg 42 (.bin (.vec 3) (.bin (.vec 4) (.var 71) (.lit 27)) (.bin (.vec 5) (.var 71) (.lit 37))),
    .asg 72 (.bin (.vec 1) (.var 72) (.var 62)),
    .asg 43 (.bin (.vec 3) (.bin (.vec 4) (.var 72) (.lit 36)) (.bin (.vec 5) (.var 72) (.lit 28))),
    .asg 78 (.bin (.vec 1) (.var 78) (.var 63)),
    .asg 44 (.bin (.vec 3) (.bin (.vec 4) (.var 78) (.lit 10)) (.bin (.vec 5) (.var 78) (.lit 54))),
    .asg 17 (.bin (.vec 1) (.var 42) (.bin (.vec 2) (.var 43) (.var 44))),
    .asg 52 (.bin (.vec 1) (.var 52) (.var 17)),
    .asg 84 (.bin (.vec 1) (.var 84) (.var 64)),
    .asg 45 (.bin (.vec 3) (.bin (.vec 4) (.var 84) (.lit 15)) (.bin (.vec 5) (.var 84) (.lit 49))),
    .asg 18 (.bin (.vec 1) (.var 43) (.bin (.vec 2) (.var 44) (.var 45))),
    .asg 53 (.bin (.vec 1) (.var 53) (.var 18)),
    .asg 90 (.bin (.vec 1) (.var 90) (.var 65)),
    .asg 46 (.bin (.vec 6) (.var 90) (.ld 32 (.glob 16))),
    .asg 19 (.bin (.vec 1) (.var 44) (.bin (.vec 2) (.var 45) (.var 46))),
    .asg 54 (.bin (.vec 1) (.var 54) (.var 19)),
    .asg 20 (.bin (.vec 1) (.var 45) (.bin (.vec 2) (.var 46) (.var 42))),
    .asg 55 (.bin (.vec 1) (.var 55) (.var 20)),
    .asg 21 (.bin (.vec 1) (.var 46) (.bin (.vec 2) (.var 42) (.var 43))),
    .asg 56 (.bin (.vec 1) (.var 56) (.var 21)),
    .asg 69 (.bin (.vec 1) (.var 69) (.var 64)),
    .asg 47 (.bin (.vec 3) (.bin (.vec 4) (.var 69) (.lit 62)) (.bin (.vec 5) (.var 69) (.lit 2))),
    .asg 75 (.bin (.vec 1) (.var 75) (.var 65)),
    .asg 48 (.bin (.vec 3) (.bin (.vec 4) (.var 75) (.lit 55)) (.bin (.vec 5) (.var 75) (.lit 9))),
    .asg 81 (.bin (.vec 1) (.var 81) (.var 66)),
    .asg 49 (.bin (.vec 3) (.bin (.vec 4) (.var 81) (.lit 39)) (.bin (.vec 5) (.var 81) (.lit 25))),
    .asg 22 (.bin (.vec 1) (.var 47) (.bin (.vec 2) (.var 48) (.var 49))),
    .asg 52 (.bin (.vec 1) (.var 52) (.var 22)),
    .asg 82 (.bin (.vec 1) (.var 82) (.var 62)),
    .asg 50 (.bin (.vec 3) (.bin (.vec 4) (.var 82) (.lit 41)) (.bin (.vec 5) (.var 82) (.lit 23))),
    .asg 23 (.bin (.vec 1) (.var 48) (.bin (.vec 2) (.var 49) (.var 50))),
    .asg 53 (.bin (.vec 1) (.var 53) (.var 23)),
    .asg 88 (.bin (.vec 1) (.var 88) (.var 63)),
    .asg 51 (.bin (.vec 3) (.bin (.vec 4) (.var 88) (.lit 2)) (.bin (.vec 5) (.var 88) (.lit 62))),
    .asg 24 (.bin (.vec 1) (.var 49) (.bin (.vec 2) (.var 50) (.var 51))),
    .asg 54 (.bin (.vec 1) (.var 54) (.var 24)),
    .asg 25 (.bin (.vec 1) (.var 50) (.bin (.vec 2) (.var 51) (.var 47))),
    .asg 55 (.bin (.vec 1) (.var 55) (.var 25)),
    .asg 26 (.bin (.vec 1) (.var 51) (.bin (.vec 2) (.var 47) (.var 48))),
    .asg 56 (.bin (.vec 1) (.var 56) (.var 26)),
    .asg 58 (.bin (.vec 3) (.bin (.vec 4) (.var 53) (.lit 1)) (.bin (.vec 5) (.var 53) (.lit 63)))]

/-- part of `KeccakP1600times4_PermuteAll_24rounds` -/
def KeccakP1600times4_PermuteAll_24rounds.part23 : Stmt :=
  block [
    .asg 62 (.bin (.vec 1) (.var 56) (.var 58)),
    .asg 59 (.bin (.vec 3) (.bin (.vec 4) (.var 54) (.lit 1)) (.bin (.vec 5) (.var 54) (.lit 63))),
    .asg 63 (.bin (.vec 1) (.var 52) (.var 59)),
    .asg 60 (.bin (.vec 3) (.bin (.vec 4) (.var 55) (.lit 1)) (.bin (.vec 5) (.var 55) (.lit 63))),
    .asg 64 (.bin (.vec 1) (.var 53) (.var 60)),
    .asg 61 (.bin (.vec 3) (.bin (.vec 4) (.var 56) (.lit 1)) (.bin (.vec 5) (.var 56) (.lit 63))),
    .asg 65 (.bin (.vec 1) (.var 54) (.var 61)),
    .asg 57 (.bin (.vec 3) (.bin (.vec 4) (.var 52) (.lit 1)) (.bin (.vec 5) (.var 52) (.lit 63))),
    .asg 66 (.bin (.vec 1) (.var 55) (.var 57)),
    .asg 2 (.bin (.vec 1) (.var 2) (.var 62)),
    .asg 27 (.var 2),
    .asg 8 (.bin (.vec 1) (.var 8) (.var 63)),
    .asg 28 (.bin (.vec 3) (.bin (.vec 4) (.var 8) (.lit 44)) (.bin (.vec 5) (.var 8) (.lit 20))),
    .asg 14 (.bin (.vec 1) (.var 14) (.var 64)),
    .asg 29 (.bin (.vec 3) (.bin (.vec 4) (.var 14) (.lit 43)) (.bin (.vec 5) (.var 14) (.lit 21))),
    .asg 67 (.bin (.vec 1) (.var 27) (.bin (.vec 2) (.var 28) (.var 29))),
    .asg 67 (.bin (.vec 1) (.var 67) (.bin (.vec 7) (.ld 8 (.padd (.glob 14) (.lit 8) 8)) (.lit 0))),
    .asg 52 (.var 67),
    .asg 20 (.bin (.vec 1) (.var 20) (.var 65)),
    .asg 30 (.bin (.vec 3) (.bin (.vec 4) (.var 20) (.lit 21)) (.bin (.vec 5) (.var 20) (.lit 43))),
    .asg 68 (.bin (.vec 1) (.var 28) (.bin (.vec 2) (.var 29) (.var 30))),
    .asg 53 (.var 68),
    .asg 26 (.bin (.vec 1) (.var 26) (.var 66)),
    .asg 31 (.bin (.vec 3) (.bin (.vec 4) (.var 26) (.lit 14)) (.bin (.vec 5) (.var 26) (.lit 50))),
    .asg 69 (.bin (.vec 1) (.var 29) (.bin (.vec 2) (.var 30) (.var 31))),
    .asg 54 (.var 69),
    .asg 70 (.bin (.vec 1) (.var 30) (.bin (.vec 2) (.var 31) (.var 27))),
    .asg 55 (.var 70),
    .asg 71 (.bin (.vec 1) (.var 31) (.bin (.vec 2) (.var 27) (.var 28))),
    .asg 56 (.var 71),
    .asg 5 (.bin (.vec 1) (.var 5) (.var 65)),
    .asg 32 (.bin (.vec 3) (.bin (.vec 4) (.var 5) (.lit 28)) (.bin (.vec 5) (.var 5) (.lit 36))),
    .asg 11 (.bin (.vec 1) (.var 11) (.var 66)),
    .asg 33 (.bin (.vec 3) (.bin (.vec 4) (.var 11) (.lit 20)) (.bin (.vec 5) (.var 11) (.lit 44))),
    .asg 12 (.bin (.vec 1) (.var 12) (.var 62)),
    .asg 34 (.bin (.vec 3) (.bin (.vec 4) (.var 12) (.lit 3)) (.bin (.vec 5) (.var 12) (.lit 61))),
    .asg 72 (.bin (.vec 1) (.var 32) (.bin (.vec 2) (.var 33) (.var 34))),
    .asg 52 (.bin (.vec 1) (.var 52) (.var 72)),
    .asg 18 (.bin (.vec 1) (.var 18) (.var 63)),
    .asg 35 (.bin (.vec 3) (.bin (.vec 4) (.var 18) (.lit 45)) (.bin (.vec 5) (.var 18) (.lit 19)))]

/-- part of `KeccakP1600times4_PermuteAll_24rounds` -/
def KeccakP1600times4_PermuteAll_24rounds.part24 : Stmt :=
  block [
    .asg 73 (.bin (.vec 1) (.var 33) (.bin (.vec 2) (.var 34) (.var 35))),
    .asg 53 (.bin (.vec 1) (.var 53) (.var 73)),
    .asg 24 (.bin (.vec 1) (.var 24) (.var 64)),
    .asg 36 (.bin (.vec 3) (.bin (.vec 4) (.var 24) (.lit 61)) (.bin (.vec 5) (.var 24) (.lit 3))),
    .asg 74 (.bin (.vec 1) (.var 34) (.bin (.vec 2) (.var 35) (.var 36))),
    .asg 54 (.bin (.vec 1) (.var 54) (.var 74)),
    .asg 75 (.bin (.vec 1) (.var 35) (.bin (.vec 2) (.var 36) (.var 32))),
    .asg 55 (.bin (.vec 1) (.var 55) (.var 75)),
    .asg 76 (.bin (.vec 1) (.var 36) (.bin (.vec 2) (.var 32) (.var 33))),
    .asg 56 (.bin (.vec 1) (.var 56) (.var 76)),
    .asg 3 (.bin (.vec 1) (.var 3) (.var 63)),
    .asg 37 (.bin (.vec 3) (.bin (.vec 4) (.var 3) (.lit 1)) (.bin (.vec 5) (.var 3) (.lit 63))),
    .asg 9 (.bin (.vec 1) (.var 9) (.var 64)),
    .asg 38 (.bin (.vec 3) (.bin (.vec 4) (.var 9) (.lit 6)) (.bin (.vec 5) (.var 9) (.lit 58))),
    .asg 15 (.bin (.vec 1) (.var 15) (.var 65)),
    .asg 39 (.bin (.vec 3) (.bin (.vec 4) (.var 15) (.lit 25)) (.bin (.vec 5) (.var 15) (.lit 39))),
    .asg 77 (.bin (.vec 1) (.var 37) (.bin (.vec 2) (.var 38) (.var 39))),
    .asg 52 (.bin (.vec 1) (.var 52) (.var 77)),
    .asg 21 (.bin (.vec 1) (.var 21) (.var 66)),
    .asg 40 (.bin (.vec 6) (.var 21) (.ld 32 (.glob 15))),
    .asg 78 (.bin (.vec 1) (.var 38) (.bin (.vec 2) (.var 39) (.var 40))),
    .asg 53 (.bin (.vec 1) (.var 53) (.var 78)),
    .asg 22 (.bin (.vec 1) (.var 22) (.var 62)),
    .asg 41 (.bin (.vec 3) (.bin (.vec 4) (.var 22) (.lit 18)) (.bin (.vec 5) (.var 22) (.lit 46))),
    .asg 79 (.bin (.vec 1) (.var 39) (.bin (.vec 2) (.var 40) (.var 41))),
    .asg 54 (.bin (.vec 1) (.var 54) (.var 79)),
    .asg 80 (.bin (.vec 1) (.var 40) (.bin (.vec 2) (.var 41) (.var 37))),
    .asg 55 (.bin (.vec 1) (.var 55) (.var 80)),
    .asg 81 (.bin (.vec 1) (.var 41) (.bin (.vec 2) (.var 37) (.var 38))),
    .asg 56 (.bin (.vec 1) (.var 56) (.var 81)),
    .asg 6 (.bin (.vec 1) (.var 6) (.var 66)),
    .asg 42 (.bin (.vec 3) (.bin (.vec 4) (.var 6) (.lit 27)) (.bin (.vec 5) (.var 6) (.lit 37))),
    .asg 7 (.bin (.vec 1) (.var 7) (.var 62)),
    .asg 43 (.bin (.vec 3) (.bin (.vec 4) (.var 7) (.lit 36)) (.bin (.vec 5) (.var 7) (.lit 28))),
    .asg 13 (.bin (.vec 1) (.var 13) (.var 63)),
    .asg 44 (.bin (.vec 3) (.bin (.vec 4) (.var 13) (.lit 10)) (.bin (.vec 5) (.var 13) (.lit 54))),
    .asg 82 (.bin (.vec 1) (.var 42) (.bin (.vec 2) (.var 43) (.var 44))),
    .asg 52 (.bin (.vec 1) (.var 52) (.var 82)),
    .asg 19 (.bin (.vec 1) (.var 19) (.var 64)),
    .asg 45 (.bin (.vec 3) (.bin (.vec 4) (.var 19) (.lit 15)) (.bin (.vec 5) (.var 19) (.lit 49)))]

/-- part of `KeccakP1600times4_PermuteAll_24rounds` -/
def KeccakP1600times4_PermuteAll_24rounds.part25 : Stmt :=
  block [
    .asg 83 (.bin (.vec 1) (.var 43) (.bin (.vec 2) (.var 44) (.var 45))),
    .asg 53 (.bin (.vec 1) (.var 53) (.var 83)),
    .asg 25 (.bin (.vec 1) (.var 25) (.var 65)),
    .asg 46 (.bin (.vec 6) (.var 25) (.ld 32 (.glob 16))),
    .asg 84 (.bin (.vec 1) (.var 44) (.bin (.vec 2) (.var 45) (.var 46))),
    .asg 54 (.bin (.vec 1) (.var 54) (.var 84)),
    .asg 85 (.bin (.vec 1) (.var 45) (.bin (.vec 2) (.var 46) (.var 42))),
    .asg 55 (.bin (.vec 1) (.var 55) (.var 85)),
    .asg 86 (.bin (.vec 1) (.var 46) (.bin (.vec 2) (.var 42) (.var 43))),
    .asg 56 (.bin (.vec 1) (.var 56) (.var 86)),
    .asg 4 (.bin (.vec 1) (.var 4) (.var 64)),
    .asg 47 (.bin (.vec 3) (.bin (.vec 4) (.var 4) (.lit 62)) (.bin (.vec 5) (.var 4) (.lit 2))),
    .asg 10 (.bin (.vec 1) (.var 10) (.var 65)),
    .asg 48 (.bin (.vec 3) (.bin (.vec 4) (.var 10) (.lit 55)) (.bin (.vec 5) (.var 10) (.lit 9))),
    .asg 16 (.bin (.vec 1) (.var 16) (.var 66)),
    .asg 49 (.bin (.vec 3) (.bin (.vec 4) (.var 16) (.lit 39)) (.bin (.vec 5) (.var 16) (.lit 25))),
    .asg 87 (.bin (.vec 1) (.var 47) (.bin (.vec 2) (.var 48) (.var 49))),
    .asg 52 (.bin (.vec 1) (.var 52) (.var 87)),
    .asg 17 (.bin (.vec 1) (.var 17) (.var 62)),
    .asg 50 (.bin (.vec 3) (.bin (.vec 4) (.var 17) (.lit 41)) (.bin (.vec 5) (.var 17) (.lit 23))),
    .asg 88 (.bin (.vec 1) (.var 48) (.bin (.vec 2) (.var 49) (.var 50))),
    .asg 53 (.bin (.vec 1) (.var 53) (.var 88)),
    .asg 23 (.bin (.vec 1) (.var 23) (.var 63)),
    .asg 51 (.bin (.vec 3) (.bin (.vec 4) (.var 23) (.lit 2)) (.bin (.vec 5) (.var 23) (.lit 62))),
    .asg 89 (.bin (.vec 1) (.var 49) (.bin (.vec 2) (.var 50) (.var 51))),
    .asg 54 (.bin (.vec 1) (.var 54) (.var 89)),
    .asg 90 (.bin (.vec 1) (.var 50) (.bin (.vec 2) (.var 51) (.var 47))),
    .asg 55 (.bin (.vec 1) (.var 55) (.var 90)),
    .asg 91 (.bin (.vec 1) (.var 51) (.bin (.vec 2) (.var 47) (.var 48))),
    .asg 56 (.bin (.vec 1) (.var 56) (.var 91)),
    .asg 58 (.bin (.vec 3) (.bin (.vec 4) (.var 53) (.lit 1)) (.bin (.vec 5) (.var 53) (.lit 63))),
    .asg 62 (.bin (.vec 1) (.var 56) (.var 58)),
    .asg 59 (.bin (.vec 3) (.bin (.vec 4) (.var 54) (.lit 1)) (.bin (.vec 5) (.var 54) (.lit 63))),
    .asg 63 (.bin (.vec 1) (.var 52) (.var 59)),
    .asg 60 (.bin (.vec 3) (.bin (.vec 4) (.var 55) (.lit 1)) (.bin (.vec 5) (.var 55) (.lit 63))),
    .asg 64 (.bin (.vec 1) (.var 53) (.var 60)),
    .asg 61 (.bin (.vec 3) (.bin (.vec 4) (.var 56) (.lit 1)) (.bin (.vec 5) (.var 56) (.lit 63))),
    .asg 65 (.bin (.vec 1) (.var 54) (.var 61)),
    .asg 57 (.bin (.vec 3) (.bin (.vec 4) (.var 52) (.lit 1)) (.bin (.vec 5) (.var 52) (.lit 63))),
    .asg 66 (.bin (.vec 1) (.var 55) (.var 57))]

/-- part of `KeccakP1600times4_PermuteAll_24rounds` -/
def KeccakP1600times4_PermuteAll_24rounds.part26 : Stmt :=
  block [
    .asg 67 (.bin (.vec 1) (.var 67) (.var 62)),
    .asg 27 (.var 67),
    .asg 73 (.bin (.vec 1) (.var 73) (.var 63)),
    .asg 28 (.bin (.vec 3) (.bin (.vec 4) (.var 73) (.lit 44)) (.bin (.vec 5) (.var 73) (.lit 20))),
    .asg 79 (.bin (.vec 1) (.var 79) (.var 64)),
    .asg 29 (.bin (.vec 3) (.bin (.vec 4) (.var 79) (.lit 43)) (.bin (.vec 5) (.var 79) (.lit 21))),
    .asg 2 (.bin (.vec 1) (.var 27) (.bin (.vec 2) (.var 28) (.var 29))),
    .asg 2 (.bin (.vec 1) (.var 2) (.bin (.vec 7) (.ld 8 (.padd (.glob 14) (.lit 9) 8)) (.lit 0))),
    .asg 52 (.var 2),
    .asg 85 (.bin (.vec 1) (.var 85) (.var 65)),
    .asg 30 (.bin (.vec 3) (.bin (.vec 4) (.var 85) (.lit 21)) (.bin (.vec 5) (.var 85) (.lit 43))),
    .asg 3 (.bin (.vec 1) (.var 28) (.bin (.vec 2) (.var 29) (.var 30))),
    .asg 53 (.var 3),
    .asg 91 (.bin (.vec 1) (.var 91) (.var 66)),
    .asg 31 (.bin (.vec 3) (.bin (.vec 4) (.var 91) (.lit 14)) (.bin (.vec 5) (.var 91) (.lit 50))),
    .asg 4 (.bin (.vec 1) (.var 29) (.bin (.vec 2) (.var 30) (.var 31))),
    .asg 54 (.var 4),
    .asg 5 (.bin (.vec 1) (.var 30) (.bin (.vec 2) (.var 31) (.var 27))),
    .asg 55 (.var 5),
    .asg 6 (.bin (.vec 1) (.var 31) (.bin (.vec 2) (.var 27) (.var 28))),
    .asg 56 (.var 6),
    .asg 70 (.bin (.vec 1) (.var 70) (.var 65)),
    .asg 32 (.bin (.vec 3) (.bin (.vec 4) (.var 70) (.lit 28)) (.bin (.vec 5) (.var 70) (.lit 36))),
    .asg 76 (.bin (.vec 1) (.var 76) (.var 66)),
    .asg 33 (.bin (.vec 3) (.bin (.vec 4) (.var 76) (.lit 20)) (.bin (.vec 5) (.var 76) (.lit 44))),
    .asg 77 (.bin (.vec 1) (.var 77) (.var 62)),
    .asg 34 (.bin (.vec 3) (.bin (.vec 4) (.var 77) (.lit 3)) (.bin (.vec 5) (.var 77) (.lit 61))),
    .asg 7 (.bin (.vec 1) (.var 32) (.bin (.vec 2) (.var 33) (.var 34))),
    .asg 52 (.bin (.vec 1) (.var 52) (.var 7)),
    .asg 83 (.bin (.vec 1) (.var 83) (.var 63)),
    .asg 35 (.bin (.vec 3) (.bin (.vec 4) (.var 83) (.lit 45)) (.bin (.vec 5) (.var 83) (.lit 19))),
    .asg 8 (.bin (.vec 1) (.var 33) (.bin (.vec 2) (.var 34) (.var 35))),
    .asg 53 (.bin (.vec 1) (.var 53) (.var 8)),
    .asg 89 (.bin (.vec 1) (.var 89) (.var 64)),
    .asg 36 (.bin (.vec 3) (.bin (.vec 4) (.var 89) (.lit 61)) (.bin (.vec 5) (.var 89) (.lit 3))),
    .asg 9 (.bin (.vec 1) (.var 34) (.bin (.vec 2) (.var 35) (.var 36))),
    .asg 54 (.bin (.vec 1) (.var 54) (.var 9)),
    .asg 10 (.bin (.vec 1) (.var 35) (.bin (.vec 2) (.var 36) (.var 32))),
    .asg 55 (.bin (.vec 1) (.var 55) (.var 10)),
    .asg 11 (.bin (.vec 1) (.var 36) (.bin (.vec 2) (.var 32) (.var 33)))]

/-- part of `KeccakP1600times4_PermuteAll_24rounds` -/
def KeccakP1600times4_PermuteAll_24rounds.part27 : Stmt :=
  block [
    .asg 56 (.bin (.vec 1) (.var 56) (.var 11)),
    .asg 68 (.bin (.vec 1) (.var 68) (.var 63)),
    .asg 37 (.bin (.vec 3) (.bin (.vec 4) (.var 68) (.lit 1)) (.bin (.vec 5) (.var 68) (.lit 63))),
    .asg 74 (.bin (.vec 1) (.var 74) (.var 64)),
    .asg 38 (.bin (.vec 3) (.bin (.vec 4) (.var 74) (.lit 6)) (.bin (.vec 5) (.var 74) (.lit 58))),
    .asg 80 (.bin (.vec 1) (.var 80) (.var 65)),
    .asg 39 (.bin (.vec 3) (.bin (.vec 4) (.var 80) (.lit 25)) (.bin (.vec 5) (.var 80) (.lit 39))),
    .asg 12 (.bin (.vec 1) (.var 37) (.bin (.vec 2) (.var 38) (.var 39))),
    .asg 52 (.bin (.vec 1) (.var 52) (.var 12)),
    .asg 86 (.bin (.vec 1) (.var 86) (.var 66)),
    .asg 40 (.bin (.vec 6) (.var 86) (.ld 32 (.glob 15))),
    .asg 13 (.bin (.vec 1) (.var 38) (.bin (.vec 2) (.var 39) (.var 40))),
    .asg 53 (.bin (.vec 1) (.var 53) (.var 13)),
    .asg 87 (.bin (.vec 1) (.var 87) (.var 62)),
    .asg 41 (.bin (.vec 3) (.bin (.vec 4) (.var 87) (.lit 18)) (.bin (.vec 5) (.var 87) (.lit 46))),
    .asg 14 (.bin (.vec 1) (.var 39) (.bin (.vec 2) (.var 40) (.var 41))),
    .asg 54 (.bin (.vec 1) (.var 54) (.var 14)),
    .asg 15 (.bin (.vec 1) (.var 40) (.bin (.vec 2) (.var 41) (.var 37))),
    .asg 55 (.bin (.vec 1) (.var 55) (.var 15)),
    .asg 16 (.bin (.vec 1) (.var 41) (.bin (.vec 2) (.var 37) (.var 38))),
    .asg 56 (.bin (.vec 1) (.var 56) (.var 16)),
    .asg 71 (.bin (.vec 1) (.var 71) (.var 66)),
    .asg 42 (.bin (.vec 3) (.bin (.vec 4) (.var 71) (.lit 27)) (.bin (.vec 5) (.var 71) (.lit 37))),
    .asg 72 (.bin (.vec 1) (.var 72) (.var 62)),
    .asg 43 (.bin (.vec 3) (.bin (.vec 4) (.var 72) (.lit 36)) (.bin (.vec 5) (.var 72) (.lit 28))),
    .asg 78 (.bin (.vec 1) (.var 78) (.var 63)),
    .asg 44 (.bin (.vec 3) (.bin (.vec 4) (.var 78) (.lit 10)) (.bin (.vec 5) (.var 78) (.lit 54))),
    .asg 17 (.bin (.vec 1) (.var 42) (.bin (.vec 2) (.var 43) (.var 44))),
    .asg 52 (.bin (.vec 1) (.var 52) (.var 17)),
    .asg 84 (.bin (.vec 1) (.var 84) (.var 64)),
    .asg 45 (.bin (.vec 3) (.bin (.vec 4) (.var 84) (.lit 15)) (.bin (.vec 5) (.var 84) (.lit 49))),
    .asg 18 (.bin (.vec 1) (.var 43) (.bin (.vec 2) (.var 44) (.var 45))),
    .asg 53 (.bin (.vec 1) (.var 53) (.var 18)),
    .asg 90 (.bin (.vec 1) (.var 90) (.var 65)),
    .asg 46 (.bin (.vec 6) (.var 90) (.ld 32 (.glob 16))),
    .asg 19 (.bin (.vec 1) (.var 44) (.bin (.vec 2) (.var 45) (.var 46))),
    .asg 54 (.bin (.vec 1) (.var 54) (.var 19)),
    .asg 20 (.bin (.vec 1) (.var 45) (.bin (.vec 2) (.var 46) (.var 42))),
    .asg 55 (.bin (.vec 1) (.var 55) (.var 20)),
    .asg 21 (.bin (.vec 1) (.var 46) (.bin (.vec 2) (.var 42) (.var 43)))]

/-- part of `KeccakP1600times4_PermuteAll_24rounds` -/
def KeccakP1600times4_PermuteAll_24rounds.part28 : Stmt :=
  block [
    .asg 56 (.bin (.vec 1) (.var 56) (.var 21)),
    .asg 69 (.bin (.vec 1) (.var 69) (.var 64)),
    .asg 47 (.bin (.vec 3) (.bin (.vec 4) (.var 69) (.lit 62)) (.bin (.vec 5) (.var 69) (.lit 2))),
    .asg 75 (.bin (.vec 1) (.var 75) (.var 65)),
    .asg 48 (.bin (.vec 3) (.bin (.vec 4) (.var 75) (.lit 55)) (.bin (.vec 5) (.var 75) (.lit 9))),
    .asg 81 (.bin (.vec 1) (.var 81) (.var 66)),
    .asg 49 (.bin (.vec 3) (.bin (.vec 4) (.var 81) (.lit 39)) (.bin (.vec 5) (.var 81) (.lit 25))),
    .asg 22 (.bin (.vec 1) (.var 47) (.bin (.vec 2) (.var 48) (.var 49))),
    .asg 52 (.bin (.vec 1) (.var 52) (.var 22)),
    .asg 82 (.bin (.vec 1) (.var 82) (.var 62)),
    .asg 50 (.bin (.vec 3) (.bin (.vec 4) (.var 82) (.lit 41)) (.bin (.vec 5) (.var 82) (.lit 23))),
    .asg 23 (.bin (.vec 1) (.var 48) (.bin (.vec 2) (.var 49) (.var 50))),
    .asg 53 (.bin (.vec 1) (.var 53) (.var 23)),
    .asg 88 (.bin (.vec 1) (.var 88) (.var 63)),
    .asg 51 (.bin (.vec 3) (.bin (.vec 4) (.var 88) (.lit 2)) (.bin (.vec 5) (.var 88) (.lit 62))),
    .asg 24 (.bin (.vec 1) (.var 49) (.bin (.vec 2) (.var 50) (.var 51))),
    .asg 54 (.bin (.vec 1) (.var 54) (.var 24)),
    .asg 25 (.bin (.vec 1) (.var 50) (.bin (.vec 2) (.var 51) (.var 47))),
    .asg 55 (.bin (.vec 1) (.var 55) (.var 25)),
    .asg 26 (.bin (.vec 1) (.var 51) (.bin (.vec 2) (.var 47) (.var 48))),
    .asg 56 (.bin (.vec 1) (.var 56) (.var 26)),
    .asg 58 (.bin (.vec 3) (.bin (.vec 4) (.var 53) (.lit 1)) (.bin (.vec 5) (.var 53) (.lit 63))),
    .asg 62 (.bin (.vec 1) (.var 56) (.var 58)),
    .asg 59 (.bin (.vec 3) (.bin (.vec 4) (.var 54) (.lit 1)) (.bin (.vec 5) (.var 54) (.lit 63))),
    .asg 63 (.bin (.vec 1) (.var 52) (.var 59)),
    .asg 60 (.bin (.vec 3) (.bin (.vec 4) (.var 55) (.lit 1)) (.bin (.vec 5) (.var 55) (.lit 63))),
    .asg 64 (.bin (.vec 1) (.var 53) (.var 60)),
    .asg 61 (.bin (.vec 3) (.bin (.vec 4) (.var 56) (.lit 1)) (.bin (.vec 5) (.var 56) (.lit 63))),
    .asg 65 (.bin (.vec 1) (.var 54) (.var 61)),
    .asg 57 (.bin (.vec 3) (.bin (.vec 4) (.var 52) (.lit 1)) (.bin (.vec 5) (.var 52) (.lit 63))),
    .asg 66 (.bin (.vec 1) (.var 55) (.var 57)),
    .asg 2 (.bin (.vec 1) (.var 2) (.var 62)),
    .asg 27 (.var 2),
    .asg 8 (.bin (.vec 1) (.var 8) (.var 63)),
    .asg 28 (.bin (.vec 3) (.bin (.vec 4) (.var 8) (.lit 44)) (.bin (.vec 5) (.var 8) (.lit 20))),
    .asg 14 (.bin (.vec 1) (.var 14) (.var 64)),
    .asg 29 (.bin (.vec 3) (.bin (.vec 4) (.var 14) (.lit 43)) (.bin (.vec 5) (.var 14) (.lit 21))),
    .asg 67 (.bin (.vec 1) (.var 27) (.bin (.vec 2) (.var 28) (.var 29))),
    .asg 67 (.bin (.vec 1) (.var 67) (.bin (.vec 7) (.ld 8 (.padd (.glob 14) (.lit 10) 8)) (.lit 0))),
    .asg 52 (.var 67)]

/-- part of `KeccakP1600times4_PermuteAll_24rounds` -/
def KeccakP1600times4_PermuteAll_24rounds.part29 : Stmt :=
  block [
    .asg 20 (.bin (.vec 1) (.var 20) (.var 65)),
    .asg 30 (.bin (.vec 3) (.bin (.vec 4) (.var 20) (.lit 21)) (.bin (.vec 5) (.var 20) (.lit 43))),
    .asg 68 (.bin (.vec 1) (.var 28) (.bin (.vec 2) (.var 29) (.var 30))),
    .asg 53 (.var 68),
    .asg 26 (.bin (.vec 1) (.var 26) (.var 66)),
    .asg 31 (.bin (.vec 3) (.bin (.vec 4) (.var 26) (.lit 14)) (.bin (.vec 5) (.var 26) (.lit 50))),
    .asg 69 (.bin (.vec 1) (.var 29) (.bin (.vec 2) (.var 30) (.var 31))),
    .asg 54 (.var 69),
    .asg 70 (.bin (.vec 1) (.var 30) (.bin (.vec 2) (.var 31) (.var 27))),
    .asg 55 (.var 70),
    .asg 71 (.bin (.vec 1) (.var 31) (.bin (.vec 2) (.var 27) (.var 28))),
    .asg 56 (.var 71),
    .asg 5 (.bin (.vec 1) (.var 5) (.var 65)),
    .asg 32 (.bin (.vec 3) (.bin (.vec 4) (.var 5) (.lit 28)) (.bin (.vec 5) (.var 5) (.lit 36))),
    .asg 11 (.bin (.vec 1) (.var 11) (.var 66)),
    .asg 33 (.bin (.vec 3) (.bin (.vec 4) (.var 11) (.lit 20)) (.bin (.vec 5) (.var 11) (.lit 44))),
    .asg 12 (.bin (.vec 1) (.var 12) (.var 62)),
    .asg 34 (.bin (.vec 3) (.bin (.vec 4) (.var 12) (.lit 3)) (.bin (.vec 5) (.var 12) (.lit 61))),
    .asg 72 (.bin (.vec 1) (.var 32) (.bin (.vec 2) (.var 33) (.var 34))),
    .asg 52 (.bin (.vec 1) (.var 52) (.var 72)),
    .asg 18 (.bin (.vec 1) (.var 18) (.var 63)),
    .asg 35 (.bin (.vec 3) (.bin (.vec 4) (.var 18) (.lit 45)) (.bin (.vec 5) (.var 18) (.lit 19))),
    .asg 73 (.bin (.vec 1) (.var 33) (.bin (.vec 2) (.var 34) (.var 35))),
    .asg 53 (.bin (.vec 1) (.var 53) (.var 73)),
    .asg 24 (.bin (.vec 1) (.var 24) (.var 64)),
    .asg 36 (.bin (.vec 3) (.bin (.vec 4) (.var 24) (.lit 61)) (.bin (.vec 5) (.var 24) (.lit 3))),
    .asg 74 (.bin (.vec 1) (.var 34) (.bin (.vec 2) (.var 35) (.var 36))),
    .asg 54 (.bin (.vec 1) (.var 54) (.var 74)),
    .asg 75 (.bin (.vec 1) (.var 35) (.bin (.vec 2) (.var 36) (.var 32))),
    .asg 55 (.bin (.vec 1) (.var 55) (.var 75)),
    .asg 76 (.bin (.vec 1) (.var 36) (.bin (.vec 2) (.var 32) (.var 33))),
    .asg 56 (.bin (.vec 1) (.var 56) (.var 76)),
    .asg 3 (.bin (.vec 1) (.var 3) (.var 63)),
    .asg 37 (.bin (.vec 3) (.bin (.vec 4) (.var 3) (.lit 1)) (.bin (.vec 5) (.var 3) (.lit 63))),
    .asg 9 (.bin (.vec 1) (.var 9) (.var 64)),
    .asg 38 (.bin (.vec 3) (.bin (.vec 4) (.var 9) (.lit 6)) (.bin (.vec 5) (.var 9) (.lit 58))),
    .asg 15 (.bin (.vec 1) (.var 15) (.var 65)),
    .asg 39 (.bin (.vec 3) (.bin (.vec 4) (.var 15) (.lit 25)) (.bin (.vec 5) (.var 15) (.lit 39))),
    .asg 77 (.bin (.vec 1) (.var 37) (.bin (.vec 2) (.var 38) (.var 39))),
    .asg 52 (.bin (.vec 1) (.var 52) (.var 77))]

/-- part of `KeccakP1600times4_PermuteAll_24rounds` -/
def KeccakP1600times4_PermuteAll_24rounds.part30 : Stmt :=
  block [
    .asg 21 (.bin (.vec 1) (.var 21) (.var 66)),
    .asg 40 (.bin (.vec 6) (.var 21) (.ld 32 (.glob 15))),
    .asg 78 (.bin (.vec 1) (.var 38) (.bin (.vec 2) (.var 39) (.var 40))),
    .asg 53 (.bin (.vec 1) (.var 53) (.var 78)),
    .asg 22 (.bin (.vec 1) (.var 22) (.var 62)),
    .asg 41 (.bin (.vec 3) (.bin (.vec 4) (.var 22) (.lit 18)) (.bin (.vec 5) (.var 22) (.lit 46))),
    .asg 79 (.bin (.vec 1) (.var 39) (.bin (.vec 2) (.var 40) (.var 41))),
    .asg 54 (.bin (.vec 1) (.var 54) (.var 79)),
    .asg 80 (.bin (.vec 1) (.var 40) (.bin (.vec 2) (.var 41) (.var 37))),
    .asg 55 (.bin (.vec 1) (.var 55) (.var 80)),
    .asg 81 (.bin (.vec 1) (.var 41) (.bin (.vec 2) (.var 37) (.var 38))),
    .asg 56 (.bin (.vec 1) (.var 56) (.var 81)),
    .asg 6 (.bin (.vec 1) (.var 6) (.var 66)),
    .asg 42 (.bin (.vec 3) (.bin (.vec 4) (.var 6) (.lit 27)) (.bin (.vec 5) (.var 6) (.lit 37))),
    .asg 7 (.bin (.vec 1) (.var 7) (.var 62)),
    .asg 43 (.bin (.vec 3) (.bin (.vec 4) (.var 7) (.lit 36)) (.bin (.vec 5) (.var 7) (.lit 28))),
    .asg 13 (.bin (.vec 1) (.var 13) (.var 63)),
    .asg 44 (.bin (.vec 3) (.bin (.vec 4) (.var 13) (.lit 10)) (.bin (.vec 5) (.var 13) (.lit 54))),
    .asg 82 (.bin (.vec 1) (.var 42) (.bin (.vec 2) (.var 43) (.var 44))),
    .asg 52 (.bin (.vec 1) (.var 52) (.var 82)),
    .asg 19 (.bin (.vec 1) (.var 19) (.var 64)),
    .asg 45 (.bin (.vec 3) (.bin (.vec 4) (.var 19) (.lit 15)) (.bin (.vec 5) (.var 19) (.lit 49))),
    .asg 83 (.bin (.vec 1) (.var 43) (.bin (.vec 2) (.var 44) (.var 45))),
    .asg 53 (.bin (.vec 1) (.var 53) (.var 83)),
    .asg 25 (.bin (.vec 1) (.var 25) (.var 65)),
    .asg 46 (.bin (.vec 6) (.var 25) (.ld 32 (.glob 16))),
    .asg 84 (.bin (.vec 1) (.var 44) (.bin (.vec 2) (.var 45) (.var 46))),
    .asg 54 (.bin (.vec 1) (.var 54) (.var 84)),
    .asg 85 (.bin (.vec 1) (.var 45) (.bin (.vec 2) (.var 46) (.var 42))),
    .asg 55 (.bin (.vec 1) (.var 55) (.var 85)),
    .asg 86 (.bin (.vec 1) (.var 46) (.bin (.vec 2) (.var 42) (.var 43))),
    .asg 56 (.bin (.vec 1) (.var 56) (.var 86)),
    .asg 4 (.bin (.vec 1) (.var 4) (.var 64)),
    .asg 47 (.bin (.vec 3) (.bin (.vec 4) (.var 4) (.lit 62)) (.bin (.vec 5) (.var 4) (.lit 2))),
    .asg 10 (.bin (.vec 1) (.var 10) (.var 65)),
    .asg 48 (.bin (.vec 3) (.bin (.vec 4) (.var 10) (.lit 55)) (.bin (.vec 5) (.var 10) (.lit 9))),
    .asg 16 (.bin (.vec 1) (.var 16) (.var 66)),
    .asg 49 (.bin (.vec 3) (.bin (.vec 4) (.var 16) (.lit 39)) (.bin (.vec 5) (.var 16) (.lit 25))),
    .asg 87 (.bin (.vec 1) (.var 47) (.bin (.vec 2) (.var 48) (.var 49))),
    .asg 52 (.bin (.vec 1) (.var 52) (.var 87))]

/-- part of `KeccakP1600times4_PermuteAll_24rounds` -/
def KeccakP1600times4_PermuteAll_24rounds.part31 : Stmt :=
  block [
    .asg 17 (.bin (.vec 1) (.var 17) (.var 62)),
    .asg 50 (.bin (.vec 3) (.bin (.vec 4) (.var 17) (.lit 41)) (.bin (.vec 5) (.var 17) (.lit 23))),
    .asg 88 (.bin (.vec 1) (.var 48) (.bin (.vec 2) (.var 49) (.var 50))),
    .asg 53 (.bin (.vec 1) (.var 53) (.var 88)),
    .asg 23 (.bin (.vec 1) (.var 23) (.var 63)),
    .asg 51 (.bin (.vec 3) (.bin (.vec 4) (.var 23) (.lit 2)) (.bin (.vec 5) (.var 23) (.lit 62))),
    .asg 89 (.bin (.vec 1) (.var 49) (.bin (.vec 2) (.var 50) (.var 51))),
    .asg 54 (.bin (.vec 1) (.var 54) (.var 89)),
    .asg 90 (.bin (.vec 1) (.var 50) (.bin (.vec 2) (.var 51) (.var 47))),
    .asg 55 (.bin (.vec 1) (.var 55) (.var 90)),
    .asg 91 (.bin (.vec 1) (.var 51) (.bin (.vec 2) (.var 47) (.var 48))),
    .asg 56 (.bin (.vec 1) (.var 56) (.var 91)),
    .asg 58 (.bin (.vec 3) (.bin (.vec 4) (.var 53) (.lit 1)) (.bin (.vec 5) (.var 53) (.lit 63))),
    .asg 62 (.bin (.vec 1) (.var 56) (.var 58)),
    .asg 59 (.bin (.vec 3) (.bin (.vec 4) (.var 54) (.lit 1)) (.bin (.vec 5) (.var 54) (.lit 63))),
    .asg 63 (.bin (.vec 1) (.var 52) (.var 59)),
    .asg 60 (.bin (.vec 3) (.bin (.vec 4) (.var 55) (.lit 1)) (.bin (.vec 5) (.var 55) (.lit 63))),
    .asg 64 (.bin (.vec 1) (.var 53) (.var 60)),
    .asg 61 (.bin (.vec 3) (.bin (.vec 4) (.var 56) (.lit 1)) (.bin (.vec 5) (.var 56) (.lit 63))),
    .asg 65 (.bin (.vec 1) (.var 54) (.var 61)),
    .asg 57 (.bin (.vec 3) (.bin (.vec 4) (.var 52) (.lit 1)) (.bin (.vec 5) (.var 52) (.lit 63))),
    .asg 66 (.bin (.vec 1) (.var 55) (.var 57)),
    .asg 67 (.bin (.vec 1) (.var 67) (.var 62)),
    .asg 27 (.var 67),
    .asg 73 (.bin (.vec 1) (.var 73) (.var 63)),
    .asg 28 (.bin (.vec 3) (.bin (.vec 4) (.var 73) (.lit 44)) (.bin (.vec 5) (.var 73) (.lit 20))),
    .asg 79 (.bin (.vec 1) (.var 79) (.var 64)),
    .asg 29 (.bin (.vec 3) (.bin (.vec 4) (.var 79) (.lit 43)) (.bin (.vec 5) (.var 79) (.lit 21))),
    .asg 2 (.bin (.vec 1) (.var 27) (.bin (.vec 2) (.var 28) (.var 29))),
    .asg 2 (.bin (.vec 1) (.var 2) (.bin (.vec 7) (.ld 8 (.padd (.glob 14) (.lit 11) 8)) (.lit 0))),
    .asg 52 (.var 2),
    .asg 85 (.bin (.vec 1) (.var 85) (.var 65)),
    .asg 30 (.bin (.vec 3) (.bin (.vec 4) (.var 85) (.lit 21)) (.bin (.vec 5) (.var 85) (.lit 43))),
    .asg 3 (.bin (.vec 1) (.var 28) (.bin (.vec 2) (.var 29) (.var 30))),
    .asg 53 (.var 3),
    .asg 91 (.bin (.vec 1) (.var 91) (.var 66)),
    .asg 31 (.bin (.vec 3) (.bin (.vec 4) (.var 91) (.lit 14)) (.bin (.vec 5) (.var 91) (.lit 50))),
    .asg 4 (.bin (.vec 1) (.var 29) (.bin (.vec 2) (.var 30) (.var 31))),
    .asg 54 (.var 4),
    .asg 5 (.bin (.vec 1) (.var 30) (.bin (.vec 2) (.var 31) (.var 27)))]

/-- part of `KeccakP1600times4_PermuteAll_24rounds` -/
def KeccakP1600times4_PermuteAll_24rounds.part32 : Stmt :=
  block [
    .asg 55 (.var 5),
    .asg 6 (.bin (.vec 1) (.var 31) (.bin (.vec 2) (.var 27) (.var 28))),
    .asg 56 (.var 6),
    .asg 70 (.bin (.vec 1) (.var 70) (.var 65)),
    .asg 32 (.bin (.vec 3) (.bin (.vec 4) (.var 70) (.lit 28)) (.bin (.vec 5) (.var 70) (.lit 36))),
    .asg 76 (.bin (.vec 1) (.var 76) (.var 66)),
    .asg 33 (.bin (.vec 3) (.bin (.vec 4) (.var 76) (.lit 20)) (.bin (.vec 5) (.var 76) (.lit 44))),
    .asg 77 (.bin (.vec 1) (.var 77) (.var 62)),
    .asg 34 (.bin (.vec 3) (.bin (.vec 4) (.var 77) (.lit 3)) (.bin (.vec 5) (.var 77) (.lit 61))),
    .asg 7 (.bin (.vec 1) (.var 32) (.bin (.vec 2) (.var 33) (.var 34))),
    .asg 52 (.bin (.vec 1) (.var 52) (.var 7)),
    .asg 83 (.bin (.vec 1) (.var 83) (.var 63)),
    .asg 35 (.bin (.vec 3) (.bin (.vec 4) (.var 83) (.lit 45)) (.bin (.vec 5) (.var 83) (.lit 19))),
    .asg 8 (.bin (.vec 1) (.var 33) (.bin (.vec 2) (.var 34) (.var 35))),
    .asg 53 (.bin (.vec 1) (.var 53) (.var 8)),
    .asg 89 (.bin (.vec 1) (.var 89) (.var 64)),
    .asg 36 (.bin (.vec 3) (.bin (.vec 4) (.var 89) (.lit 61)) (.bin (.vec 5) (.var 89) (.lit 3))),
    .asg 9 (.bin (.vec 1) (.var 34) (.bin (.vec 2) (.var 35) (.var 36))),
    .asg 54 (.bin (.vec 1) (.var 54) (.var 9)),
    .asg 10 (.bin (.vec 1) (.var 35) (.bin (.vec 2) (.var 36) (.var 32))),
    .asg 55 (.bin (.vec 1) (.var 55) (.var 10)),
    .asg 11 (.bin (.vec 1) (.var 36) (.bin (.vec 2) (.var 32) (.var 33))),
    .asg 56 (.bin (.vec 1) (.var 56) (.var 11)),
    .asg 68 (.bin (.vec 1) (.var 68) (.var 63)),
    .asg 37 (.bin (.vec 3) (.bin (.vec 4) (.var 68) (.lit 1)) (.bin (.vec 5) (.var 68) (.lit 63))),
    .asg 74 (.bin (.vec 1) (.var 74) (.var 64)),
    .asg 38 (.bin (.vec 3) (.bin (.vec 4) (.var 74) (.lit 6)) (.bin (.vec 5) (.var 74) (.lit 58))),
    .asg 80 (.bin (.vec 1) (.var 80) (.var 65)),
    .asg 39 (.bin (.vec 3) (.bin (.vec 4) (.var 80) (.lit 25)) (.bin (.vec 5) (.var 80) (.lit 39))),
    .asg 12 (.bin (.vec 1) (.var 37) (.bin (.vec 2) (.var 38) (.var 39))),
    .asg 52 (.bin (.vec 1) (.var 52) (.var 12)),
    .asg 86 (.bin (.vec 1) (.var 86) (.var 66)),
    .asg 40 (.bin (.vec 6) (.var 86) (.ld 32 (.glob 15))),
    .asg 13 (.bin (.vec 1) (.var 38) (.bin (.vec 2) (.var 39) (.var 40))),
    .asg 53 (.bin (.vec 1) (.var 53) (.var 13)),
    .asg 87 (.bin (.vec 1) (.var 87) (.var 62)),
    .asg 41 (.bin (.vec 3) (.bin (.vec 4) (.var 87) (.lit 18)) (.bin (.vec 5) (.var 87) (.lit 46))),
    .asg 14 (.bin (.vec 1) (.var 39) (.bin (.vec 2) (.var 40) (.var 41))),
    .asg 54 (.bin (.vec 1) (.var 54) (.var 14)),
    .asg 15 (.bin (.vec 1) (.var 40) (.bin (.vec 2) (.var 41) (.var 37)))]

/-- part of `KeccakP1600times4_PermuteAll_24rounds` -/
def KeccakP1600times4_PermuteAll_24rounds.part33 : Stmt :=
  block [
    .asg 55 (.bin (.vec 1) (.var 55) (.var 15)),
    .asg 16 (.bin (.vec 1) (.var 41) (.bin (.vec 2) (.var 37) (.var 38))),
    .asg 56 (.bin (.vec 1) (.var 56) (.var 16)),
    .asg 71 (.bin (.vec 1) (.var 71) (.var 66)),
    .asg 42 (.bin (.vec 3) (.bin (.vec 4) (.var 71) (.lit 27)) (.bin (.vec 5) (.var 71) (.lit 37))),
    .asg 72 (.bin (.vec 1) (.var 72) (.var 62)),
    .asg 43 (.bin (.vec 3) (.bin (.vec 4) (.var 72) (.lit 36)) (.bin (.vec 5) (.var 72) (.lit 28))),
    .asg 78 (.bin (.vec 1) (.var 78) (.var 63)),
    .asg 44 (.bin (.vec 3) (.bin (.vec 4) (.var 78) (.lit 10)) (.bin (.vec 5) (.var 78) (.lit 54))),
    .asg 17 (.bin (.vec 1) (.var 42) (.bin (.vec 2) (.var 43) (.var 44))),
    .asg 52 (.bin (.vec 1) (.var 52) (.var 17)),
    .asg 84 (.bin (.vec 1) (.var 84) (.var 64)),
    .asg 45 (.bin (.vec 3) (.bin (.vec 4) (.var 84) (.lit 15)) (.bin (.vec 5) (.var 84) (.lit 49))),
    .asg 18 (.bin (.vec 1) (.var 43) (.bin (.vec 2) (.var 44) (.var 45))),
    .asg 53 (.bin (.vec 1) (.var 53) (.var 18)),
    .asg 90 (.bin (.vec 1) (.var 90) (.var 65)),
    .asg 46 (.bin (.vec 6) (.var 90) (.ld 32 (.glob 16))),
    .asg 19 (.bin (.vec 1) (.var 44) (.bin (.vec 2) (.var 45) (.var 46))),
    .asg 54 (.bin (.vec 1) (.var 54) (.var 19)),
    .asg 20 (.bin (.vec 1) (.var 45) (.bin (.vec 2) (.var 46) (.var 42))),
    .asg 55 (.bin (.vec 1) (.var 55) (.var 20)),
    .asg 21 (.bin (.vec 1) (.var 46) (.bin (.vec 2) (.var 42) (.var 43))),
    .asg 56 (.bin (.vec 1) (.var 56) (.var 21)),
    .asg 69 (.bin (.vec 1) (.var 69) (.var 64)),
    .asg 47 (.bin (.vec 3) (.bin (.vec 4) (.var 69) (.lit 62)) (.bin (.vec 5) (.var 69) (.lit 2))),
    .asg 75 (.bin (.vec 1) (.var 75) (.var 65)),
    .asg 48 (.bin (.vec 3) (.bin (.vec 4) (.var 75) (.lit 55)) (.bin (.vec 5) (.var 75) (.lit 9))),
    .asg 81 (.bin (.vec 1) (.var 81) (.var 66)),
    .asg 49 (.bin (.vec 3) (.bin (.vec 4) (.var 81) (.lit 39)) (.bin (.vec 5) (.var 81) (.lit 25))),
    .asg 22 (.bin (.vec 1) (.var 47) (.bin (.vec 2) (.var 48) (.var 49))),
    .asg 52 (.bin (.vec 1) (.var 52) (.var 22)),
    .asg 82 (.bin (.vec 1) (.var 82) (.var 62)),
    .asg 50 (.bin (.vec 3) (.bin (.vec 4) (.var 82) (.lit 41)) (.bin (.vec 5) (.var 82) (.lit 23))),
    .asg 23 (.bin (.vec 1) (.var 48) (.bin (.vec 2) (.var 49) (.var 50))),
    .asg 53 (.bin (.vec 1) (.var 53) (.var 23)),
    .asg 88 (.bin (.vec 1) (.var 88) (.var 63)),
    .asg 51 (.bin (.vec 3) (.bin (.vec 4) (.var 88) (.lit 2)) (.bin (.vec 5) (.var 88) (.lit 62))),
    .asg 24 (.bin (.vec 1) (.var 49) (.bin (.vec 2) (.var 50) (.var 51))),
    .asg 54 (.bin (.vec 1) (.var 54) (.var 24)),
    .asg 25 (.bin (.vec 1) (.var 50) (.bin (.vec 2) (.var 51) (.var 47)))]

/-- part of `KeccakP1600times4_PermuteAll_24rounds` -/
def KeccakP1600times4_PermuteAll_24rounds.part34 : Stmt :=
  block [
    .asg 55 (.bin (.vec 1) (.var 55) (.var 25)),
    .asg 26 (.bin (.vec 1) (.var 51) (.bin (.vec 2) (.var 47) (.var 48))),
    .asg 56 (.bin (.vec 1) (.var 56) (.var 26)),
    .asg 58 (.bin (.vec 3) (.bin (.vec 4) (.var 53) (.lit 1)) (.bin (.vec 5) (.var 53) (.lit 63))),
    .asg 62 (.bin (.vec 1) (.var 56) (.var 58)),
    .asg 59 (.bin (.vec 3) (.bin (.vec 4) (.var 54) (.lit 1)) (.bin (.vec 5) (.var 54) (.lit 63))),
    .asg 63 (.bin (.vec 1) (.var 52) (.var 59)),
    .asg 60 (.bin (.vec 3) (.bin (.vec 4) (.var 55) (.lit 1)) (.bin (.vec 5) (.var 55) (.lit 63))),
    .asg 64 (.bin (.vec 1) (.var 53) (.var 60)),
    .asg 61 (.bin (.vec 3) (.bin (.vec 4) (.var 56) (.lit 1)) (.bin (.vec 5) (.var 56) (.lit 63))),
    .asg 65 (.bin (.vec 1) (.var 54) (.var 61)),
    .asg 57 (.bin (.vec 3) (.bin (.vec 4) (.var 52) (.lit 1)) (.bin (.vec 5) (.var 52) (.lit 63))),
    .asg 66 (.bin (.vec 1) (.var 55) (.var 57)),
    .asg 2 (.bin (.vec 1) (.var 2) (.var 62)),
    .asg 27 (.var 2),
    .asg 8 (.bin (.vec 1) (.var 8) (.var 63)),
    .asg 28 (.bin (.vec 3) (.bin (.vec 4) (.var 8) (.lit 44)) (.bin (.vec 5) (.var 8) (.lit 20))),
    .asg 14 (.bin (.vec 1) (.var 14) (.var 64)),
    .asg 29 (.bin (.vec 3) (.bin (.vec 4) (.var 14) (.lit 43)) (.bin (.vec 5) (.var 14) (.lit 21))),
    .asg 67 (.bin (.vec 1) (.var 27) (.bin (.vec 2) (.var 28) (.var 29))),
    .asg 67 (.bin (.vec 1) (.var 67) (.bin (.vec 7) (.ld 8 (.padd (.glob 14) (.lit 12) 8)) (.lit 0))),
    .asg 52 (.var 67),
    .asg 20 (.bin (.vec 1) (.var 20) (.var 65)),
    .asg 30 (.bin (.vec 3) (.bin (.vec 4) (.var 20) (.lit 21)) (.bin (.vec 5) (.var 20) (.lit 43))),
    .asg 68 (.bin (.vec 1) (.var 28) (.bin (.vec 2) (.var 29) (.var 30))),
    .asg 53 (.var 68),
    .asg 26 (.bin (.vec 1) (.var 26) (.var 66)),
    .asg 31 (.bin (.vec 3) (.bin (.vec 4) (.var 26) (.lit 14)) (.bin (.vec 5) (.var 26) (.lit 50))),
    .asg 69 (.bin (.vec 1) (.var 29) (.bin (.vec 2) (.var 30) (.var 31))),
    .asg 54 (.var 69),
    .asg 70 (.bin (.vec 1) (.var 30) (.bin (.vec 2) (.var 31) (.var 27))),
    .asg 55 (.var 70),
    .asg 71 (.bin (.vec 1) (.var 31) (.bin (.vec 2) (.var 27) (.var 28))),
    .asg 56 (.var 71),
    .asg 5 (.bin (.vec 1) (.var 5) (.var 65)),
    .asg 32 (.bin (.vec 3) (.bin (.vec 4) (.var 5) (.lit 28)) (.bin (.vec 5) (.var 5) (.lit 36))),
    .asg 11 (.bin (.vec 1) (.var 11) (.var 66)),
    .asg 33 (.bin (.vec 3) (.bin (.vec 4) (.var 11) (.lit 20)) (.bin (.vec 5) (.var 11) (.lit 44))),
    .asg 12 (.bin (.vec 1) (.var 12) (.var 62)),
    .asg 34 (.bin (.vec 3) (.bin (.vec 4) (.var 12) (.lit 3)) (.bin (.vec 5) (.var 12) (.lit 61)))]

/-- part of `KeccakP1600times4_PermuteAll_24rounds` -/
def KeccakP1600times4_PermuteAll_24rounds.part35 : Stmt :=
  block [
    .asg 72 (.bin (.vec 1) (.var 32) (.bin (.vec 2) (.var 33) (.var 34))),
    .asg 52 (.bin (.vec 1) (.var 52) (.var 72)),
    .asg 18 (.bin (.vec 1) (.var 18) (.var 63)),
    .asg 35 (.bin (.vec 3) (.bin (.vec 4) (.var 18) (.lit 45)) (.bin (.vec 5) (.var 18) (.lit 19))),
    .asg 73 (.bin (.vec 1) (.var 33) (.bin (.vec 2) (.var 34) (.var 35))),
    .asg 53 (.bin (.vec 1) (.var 53) (.var 73)),
    .asg 24 (.bin (.vec 1) (.var 24) (.var 64)),
    .asg 36 (.bin (.vec 3) (.bin (.vec 4) (.var 24) (.lit 61)) (.bin (.vec 5) (.var 24) (.lit 3))),
    .asg 74 (.bin (.vec 1) (.var 34) (.bin (.vec 2) (.var 35) (.var 36))),
    .asg 54 (.bin (.vec 1) (.var 54) (.var 74)),
    .asg 75 (.bin (.vec 1) (.var 35) (.bin (.vec 2) (.var 36) (.var 32))),
    .asg 55 (.bin (.vec 1) (.var 55) (.var 75)),
    .asg 76 (.bin (.vec 1) (.var 36) (.bin (.vec 2) (.var 32) (.var 33))),
    .asg 56 (.bin (.vec 1) (.var 56) (.var 76)),
    .asg 3 (.bin (.vec 1) (.var 3) (.var 63)),
    .asg 37 (.bin (.vec 3) (.bin (.vec 4) (.var 3) (.lit 1)) (.bin (.vec 5) (.var 3) (.lit 63))),
    .asg 9 (.bin (.vec 1) (.var 9) (.var 64)),
    .asg 38 (.bin (.vec 3) (.bin (.vec 4) (.var 9) (.lit 6)) (.bin (.vec 5) (.var 9) (.lit 58))),
    .asg 15 (.bin (.vec 1) (.var 15) (.var 65)),
    .asg 39 (.bin (.vec 3) (.bin (.vec 4) (.var 15) (.lit 25)) (.bin (.vec 5) (.var 15) (.lit 39))),
    .asg 77 (.bin (.vec 1) (.var 37) (.bin (.vec 2) (.var 38) (.var 39))),
    .asg 52 (.bin (.vec 1) (.var 52) (.var 77)),
    .asg 21 (.bin (.vec 1) (.var 21) (.var 66)),
    .asg 40 (.bin (.vec 6) (.var 21) (.ld 32 (.glob 15))),
    .asg 78 (.bin (.vec 1) (.var 38) (.bin (.vec 2) (.var 39) (.var 40))),
    .asg 53 (.bin (.vec 1) (.var 53) (.var 78)),
    .asg 22 (.bin (.vec 1) (.var 22) (.var 62)),
    .asg 41 (.bin (.vec 3) (.bin (.vec 4) (.var 22) (.lit 18)) (.bin (.vec 5) (.var 22) (.lit 46))),
    .asg 79 (.bin (.vec 1) (.var 39) (.bin (.vec 2) (.var 40) (.var 41))),
    .asg 54 (.bin (.vec 1) (.var 54) (.var 79)),
    .asg 80 (.bin (.vec 1) (.var 40) (.bin (.vec 2) (.var 41) (.var 37))),
    .asg 55 (.bin (.vec 1) (.var 55) (.var 80)),
    .asg 81 (.bin (.vec 1) (.var 41) (.bin (.vec 2) (.var 37) (.var 38))),
    .asg 56 (.bin (.vec 1) (.var 56) (.var 81)),
    .asg 6 (.bin (.vec 1) (.var 6) (.var 66)),
    .asg 42 (.bin (.vec 3) (.bin (.vec 4) (.var 6) (.lit 27)) (.bin (.vec 5) (.var 6) (.lit 37))),
    .asg 7 (.bin (.vec 1) (.var 7) (.var 62)),
    .asg 43 (.bin (.vec 3) (.bin (.vec 4) (.var 7) (.lit 36)) (.bin (.vec 5) (.var 7) (.lit 28))),
    .asg 13 (.bin (.vec 1) (.var 13) (.var 63)),
    .asg 44 (.bin (.vec 3) (.bin (.vec 4) (.var 13) (.lit 10)) (.bin (.vec 5) (.var 13) (.lit 54)))]

/-- part of `KeccakP1600times4_PermuteAll_24rounds` -/
def KeccakP1600times4_PermuteAll_24rounds.part36 : Stmt :=
  block [
    .asg 82 (.bin (.vec 1) (.var 42) (.bin (.vec 2) (.var 43) (.var 44))),
    .asg 52 (.bin (.vec 1) (.var 52) (.var 82)),
    .asg 19 (.bin (.vec 1) (.var 19) (.var 64)),
    .asg 45 (.bin (.vec 3) (.bin (.vec 4) (.var 19) (.lit 15)) (.bin (.vec 5) (.var 19) (.lit 49))),
    .asg 83 (.bin (.vec 1) (.var 43) (.bin (.vec 2) (.var 44) (.var 45))),
    .asg 53 (.bin (.vec 1) (.var 53) (.var 83)),
    .asg 25 (.bin (.vec 1) (.var 25) (.var 65)),
    .asg 46 (.bin (.vec 6) (.var 25) (.ld 32 (.glob 16))),
    .asg 84 (.bin (.vec 1) (.var 44) (.bin (.vec 2) (.var 45) (.var 46))),
    .asg 54 (.bin (.vec 1) (.var 54) (.var 84)),
    .asg 85 (.bin (.vec 1) (.var 45) (.bin (.vec 2) (.var 46) (.var 42))),
    .asg 55 (.bin (.vec 1) (.var 55) (.var 85)),
    .asg 86 (.bin (.vec 1) (.var 46) (.bin (.vec 2) (.var 42) (.var 43))),
    .asg 56 (.bin (.vec 1) (.var 56) (.var 86)),
    .asg 4 (.bin (.vec 1) (.var 4) (.var 64)),
    .asg 47 (.bin (.vec 3) (.bin (.vec 4) (.var 4) (.lit 62)) (.bin (.vec 5) (.var 4) (.lit 2))),
    .asg 10 (.bin (.vec 1) (.var 10) (.var 65)),
    .asg 48 (.bin (.vec 3) (.bin (.vec 4) (.var 10) (.lit 55)) (.bin (.vec 5) (.var 10) (.lit 9))),
    .asg 16 (.bin (.vec 1) (.var 16) (.var 66)),
    .asg 49 (.bin (.vec 3) (.bin (.vec 4) (.var 16) (.lit 39)) (.bin (.vec 5) (.var 16) (.lit 25))),
    .asg 87 (.bin (.vec 1) (.var 47) (.bin (.vec 2) (.var 48) (.var 49))),
    .asg 52 (.bin (.vec 1) (.var 52) (.var 87)),
    .asg 17 (.bin (.vec 1) (.var 17) (.var 62)),
    .asg 50 (.bin (.vec 3) (.bin (.vec 4) (.var 17) (.lit 41)) (.bin (.vec 5) (.var 17) (.lit 23))),
    .asg 88 (.bin (.vec 1) (.var 48) (.bin (.vec 2) (.var 49) (.var 50))),
    .asg 53 (.bin (.vec 1) (.var 53) (.var 88)),
    .asg 23 (.bin (.vec 1) (.var 23) (.var 63)),
    .asg 51 (.bin (.vec 3) (.bin (.vec 4) (.var 23) (.lit 2)) (.bin (.vec 5) (.var 23) (.lit 62))),
    .asg 89 (.bin (.vec 1) (.var 49) (.bin (.vec 2) (.var 50) (.var 51))),
    .asg 54 (.bin (.vec 1) (.var 54) (.var 89)),
    .asg 90 (.bin (.vec 1) (.var 50) (.bin (.vec 2) (.var 51) (.var 47))),
    .asg 55 (.bin (.vec 1) (.var 55) (.var 90)),
    .asg 91 (.bin (.vec 1) (.var 51) (.bin (.vec 2) (.var 47) (.var 48))),
    .asg 56 (.bin (.vec 1) (.var 56) (.var 91)),
    .asg 58 (.bin (.vec 3) (.bin (.vec 4) (.var 53) (.lit 1)) (.bin (.vec 5) (.var 53) (.lit 63))),
    .asg 62 (.bin (.vec 1) (.var 56) (.var 58)),
    .asg 59 (.bin (.vec 3) (.bin (.vec 4) (.var 54) (.lit 1)) (.bin (.vec 5) (.var 54) (.lit 63))),
    .asg 63 (.bin (.vec 1) (.var 52) (.var 59)),
    .asg 60 (.bin (.vec 3) (.bin (.vec 4) (.var 55) (.lit 1)) (.bin (.vec 5) (.var 55) (.lit 63))),
    .asg 64 (.bin (.vec 1) (.var 53) (.var 60))]

/-- part of `KeccakP1600times4_PermuteAll_24rounds` -/
def KeccakP1600times4_PermuteAll_24rounds.part37 : Stmt :=
  block [
    .asg 61 (.bin (.vec 3) (.bin (.vec 4) (.var 56) (.lit 1)) (.bin (.vec 5) (.var 56) (.lit 63))),
    .asg 65 (.bin (.vec 1) (.var 54) (.var 61)),
    .asg 57 (.bin (.vec 3) (.bin (.vec 4) (.var 52) (.lit 1)) (.bin (.vec 5) (.var 52) (.lit 63))),
    .asg 66 (.bin (.vec 1) (.var 55) (.var 57)),
    .asg 67 (.bin (.vec 1) (.var 67) (.var 62)),
    .asg 27 (.var 67),
    .asg 73 (.bin (.vec 1) (.var 73) (.var 63)),
    .asg 28 (.bin (.vec 3) (.bin (.vec 4) (.var 73) (.lit 44)) (.bin (.vec 5) (.var 73) (.lit 20))),
    .asg 79 (.bin (.vec 1) (.var 79) (.var 64)),
    .asg 29 (.bin (.vec 3) (.bin (.vec 4) (.var 79) (.lit 43)) (.bin (.vec 5) (.var 79) (.lit 21))),
    .asg 2 (.bin (.vec 1) (.var 27) (.bin (.vec 2) (.var 28) (.var 29))),
    .asg 2 (.bin (.vec 1) (.var 2) (.bin (.vec 7) (.ld 8 (.padd (.glob 14) (.lit 13) 8)) (.lit 0))),
    .asg 52 (.var 2),
    .asg 85 (.bin (.vec 1) (.var 85) (.var 65)),
    .asg 30 (.bin (.vec 3) (.bin (.vec 4) (.var 85) (.lit 21)) (.bin (.vec 5) (.var 85) (.lit 43))),
    .asg 3 (.bin (.vec 1) (.var 28) (.bin (.vec 2) (.var 29) (.var 30))),
    .asg 53 (.var 3),
    .asg 91 (.bin (.vec 1) (.var 91) (.var 66)),
    .asg 31 (.bin (.vec 3) (.bin (.vec 4) (.var 91) (.lit 14)) (.bin (.vec 5) (.var 91) (.lit 50))),
    .asg 4 (.bin (.vec 1) (.var 29) (.bin (.vec 2) (.var 30) (.var 31))),
    .asg 54 (.var 4),
    .asg 5 (.bin (.vec 1) (.var 30) (.bin (.vec 2) (.var 31) (.var 27))),
    .asg 55 (.var 5),
    .asg 6 (.bin (.vec 1) (.var 31) (.bin (.vec 2) (.var 27) (.var 28))),
    .asg 56 (.var 6),
    .asg 70 (.bin (.vec 1) (.var 70) (.var 65)),
    .asg 32 (.bin (.vec 3) (.bin (.vec 4) (.var 70) (.lit 28)) (.bin (.vec 5) (.var 70) (.lit 36))),
    .asg 76 (.bin (.vec 1) (.var 76) (.var 66)),
    .asg 33 (.bin (.vec 3) (.bin (.vec 4) (.var 76) (.lit 20)) (.bin (.vec 5) (.var 76) (.lit 44))),
    .asg 77 (.bin (.vec 1) (.var 77) (.var 62)),
    .asg 34 (.bin (.vec 3) (.bin (.vec 4) (.var 77) (.lit 3)) (.bin (.vec 5) (.var 77) (.lit 61))),
    .asg 7 (.bin (.vec 1) (.var 32) (.bin (.vec 2) (.var 33) (.var 34))),
    .asg 52 (.bin (.vec 1) (.var 52) (.var 7)),
    .asg 83 (.bin (.vec 1) (.var 83) (.var 63)),
    .asg 35 (.bin (.vec 3) (.bin (.vec 4) (.var 83) (.lit 45)) (.bin (.vec 5) (.var 83) (.lit 19))),
    .asg 8 (.bin (.vec 1) (.var 33) (.bin (.vec 2) (.var 34) (.var 35))),
    .asg 53 (.bin (.vec 1) (.var 53) (.var 8)),
    .asg 89 (.bin (.vec 1) (.var 89) (.var 64)),
    .asg 36 (.bin (.vec 3) (.bin (.vec 4) (.var 89) (.lit 61)) (.bin (.vec 5) (.var 89) (.lit 3))),
    .asg 9 (.bin (.vec 1) (.var 34) (.bin (.vec 2) (.var 35) (.var 36)))]

/-- part of `KeccakP1600times4_PermuteAll_24rounds` -/
def KeccakP1600times4_PermuteAll_24rounds.part38 : Stmt :=
  block [
    .asg 54 (.bin (.vec 1) (.var 54) (.var 9)),
    .asg 10 (.bin (.vec 1) (.var 35) (.bin (.vec 2) (.var 36) (.var 32))),
    .asg 55 (.bin (.vec 1) (.var 55) (.var 10)),
    .asg 11 (.bin (.vec 1) (.var 36) (.bin (.vec 2) (.var 32) (.var 33))),
    .asg 56 (.bin (.vec 1) (.var 56) (.var 11)),
    .asg 68 (.bin (.vec 1) (.var 68) (.var 63)),
    .asg 37 (.bin (.vec 3) (.bin (.vec 4) (.var 68) (.lit 1)) (.bin (.vec 5) (.var 68) (.lit 63))),
    .asg 74 (.bin (.vec 1) (.var 74) (.var 64)),
    .asg 38 (.bin (.vec 3) (.bin (.vec 4) (.var 74) (.lit 6)) (.bin (.vec 5) (.var 74) (.lit 58))),
    .asg 80 (.bin (.vec 1) (.var 80) (.var 65)),
    .asg 39 (.bin (.vec 3) (.bin (.vec 4) (.var 80) (.lit 25)) (.bin (.vec 5) (.var 80) (.lit 39))),
    .asg 12 (.bin (.vec 1) (.var 37) (.bin (.vec 2) (.var 38) (.var 39))),
    .asg 52 (.bin (.vec 1) (.var 52) (.var 12)),
    .asg 86 (.bin (.vec 1) (.var 86) (.var 66)),
    .asg 40 (.bin (.vec 6) (.var 86) (.ld 32 (.glob 15))),
    .asg 13 (.bin (.vec 1) (.var 38) (.bin (.vec 2) (.var 39) (.var 40))),
    .asg 53 (.bin (.vec 1) (.var 53) (.var 13)),
    .asg 87 (.bin (.vec 1) (.var 87) (.var 62)),
    .asg 41 (.bin (.vec 3) (.bin (.vec 4) (.var 87) (.lit 18)) (.bin (.vec 5) (.var 87) (.lit 46))),
    .asg 14 (.bin (.vec 1) (.var 39) (.bin (.vec 2) (.var 40) (.var 41))),
    .asg 54 (.bin (.vec 1) (.var 54) (.var 14)),
    .asg 15 (.bin (.vec 1) (.var 40) (.bin (.vec 2) (.var 41) (.var 37))),
    .asg 55 (.bin (.vec 1) (.var 55) (.var 15)),
    .asg 16 (.bin (.vec 1) (.var 41) (.bin (.vec 2) (.var 37) (.var 38))),
    .asg 56 (.bin (.vec 1) (.var 56) (.var 16)),
    .asg 71 (.bin (.vec 1) (.var 71) (.var 66)),
    .asg 42 (.bin (.vec 3) (.bin (.vec 4) (.var 71) (.lit 27)) (.bin (.vec 5) (.var 71) (.lit 37))),
    .asg 72 (.bin (.vec 1) (.var 72) (.var 62)),
    .asg 43 (.bin (.vec 3) (.bin (.vec 4) (.var 72) (.lit 36)) (.bin (.vec 5) (.var 72) (.lit 28))),
    .asg 78 (.bin (.vec 1) (.var 78) (.var 63)),
    .asg 44 (.bin (.vec 3) (.bin (.vec 4) (.var 78) (.lit 10)) (.bin (.vec 5) (.var 78) (.lit 54))),
    .asg 17 (.bin (.vec 1) (.var 42) (.bin (.vec 2) (.var 43) (.var 44))),
    .asg 52 (.bin (.vec 1) (.var 52) (.var 17)),
    .asg 84 (.bin (.vec 1) (.var 84) (.var 64)),
    .asg 45 (.bin (.vec 3) (.bin (.vec 4) (.var 84) (.lit 15)) (.bin (.vec 5) (.var 84) (.lit 49))),
    .asg 18 (.bin (.vec 1) (.var 43) (.bin (.vec 2) (.var 44) (.var 45))),
    .asg 53 (.bin (.vec 1) (.var 53) (.var 18)),
    .asg 90 (.bin (.vec 1) (.var 90) (.var 65)),
    .asg 46 (.bin (.vec 6) (.var 90) (.ld 32 (.glob 16))),
    .asg 19 (.bin (.vec 1) (.var 44) (.bin (.vec 2) (.var 45) (.var 46)))]

/-- part of `KeccakP1600times4_PermuteAll_24rounds` -/
def KeccakP1600times4_PermuteAll_24rounds.part39 : Stmt :=
  block [
    .asg 54 (.bin (.vec 1) (.var 54) (.var 19)),
    .asg 20 (.bin (.vec 1) (.var 45) (.bin (.vec 2) (.var 46) (.var 42))),
    .asg 55 (.bin (.vec 1) (.var 55) (.var 20)),
    .asg 21 (.bin (.vec 1) (.var 46) (.bin (.vec 2) (.var 42) (.var 43))),
    .asg 56 (.bin (.vec 1) (.var 56) (.var 21)),
    .asg 69 (.bin (.vec 1) (.var 69) (.var 64)),
    .asg 47 (.bin (.vec 3) (.bin (.vec 4) (.var 69) (.lit 62)) (.bin (.vec 5) (.var 69) (.lit 2))),
    .asg 75 (.bin (.vec 1) (.var 75) (.var 65)),
    .asg 48 (.bin (.vec 3) (.bin (.vec 4) (.var 75) (.lit 55)) (.bin (.vec 5) (.var 75) (.lit 9))),
    .asg 81 (.bin (.vec 1) (.var 81) (.var 66)),
    .asg 49 (.bin (.vec 3) (.bin (.vec 4) (.var 81) (.lit 39)) (.bin (.vec 5) (.var 81) (.lit 25))),
    .asg 22 (.bin (.vec 1) (.var 47) (.bin (.vec 2) (.var 48) (.var 49))),
    .asg 52 (.bin (.vec 1) (.var 52) (.var 22)),
    .asg 82 (.bin (.vec 1) (.var 82) (.var 62)),
    .asg 50 (.bin (.vec 3) (.bin (.vec 4) (.var 82) (.lit 41)) (.bin (.vec 5) (.var 82) (.lit 23))),
    .asg 23 (.bin (.vec 1) (.var 48) (.bin (.vec 2) (.var 49) (.var 50))),
    .asg 53 (.bin (.vec 1) (.var 53) (.var 23)),
    .asg 88 (.bin (.vec 1) (.var 88) (.var 63)),
    .asg 51 (.bin (.vec 3) (.bin (.vec 4) (.var 88) (.lit 2)) (.bin (.vec 5) (.var 88) (.lit 62))),
    .asg 24 (.bin (.vec 1) (.var 49) (.bin (.vec 2) (.var 50) (.var 51))),
    .asg 54 (.bin (.vec 1) (.var 54) (.var 24)),
    .asg 25 (.bin (.vec 1) (.var 50) (.bin (.vec 2) (.var 51) (.var 47))),
    .asg 55 (.bin (.vec 1) (.var 55) (.var 25)),
    .asg 26 (.bin (.vec 1) (.var 51) (.bin (.vec 2) (.var 47) (.var 48))),
    .asg 56 (.bin (.vec 1) (.var 56) (.var 26)),
    .asg 58 (.bin (.vec 3) (.bin (.vec 4) (.var 53) (.lit 1)) (.bin (.vec 5) (.var 53) (.lit 63))),
    .asg 62 (.bin (.vec 1) (.var 56) (.var 58)),
    .asg 59 (.bin (.vec 3) (.bin (.vec 4) (.var 54) (.lit 1)) (.bin (.vec 5) (.var 54) (.lit 63))),
    .asg 63 (.bin (.vec 1) (.var 52) (.var 59)),
    .asg 60 (.bin (.vec 3) (.bin (.vec 4) (.var 55) (.lit 1)) (.bin (.vec 5) (.var 55) (.lit 63))),
    .asg 64 (.bin (.vec 1) (.var 53) (.var 60)),
    .asg 61 (.bin (.vec 3) (.bin (.vec 4) (.var 56) (.lit 1)) (.bin (.vec 5) (.var 56) (.lit 63))),
    .asg 65 (.bin (.vec 1) (.var 54) (.var 61)),
    .asg 57 (.bin (.vec 3) (.bin (.vec 4) (.var 52) (.lit 1)) (.bin (.vec 5) (.var 52) (.lit 63))),
    .asg 66 (.bin (.vec 1) (.var 55) (.var 57)),
    .asg 2 (.bin (.vec 1) (.var 2) (.var 62)),
    .asg 27 (.var 2),
    .asg 8 (.bin (.vec 1) (.var 8) (.var 63)),
    .asg 28 (.bin (.vec 3) (.bin (.vec 4) (.var 8) (.lit 44)) (.bin (.vec 5) (.var 8) (.lit 20))),
    .asg 14 (.bin (.vec 1) (.var 14) (.var 64))]

/-- part of `KeccakP1600times4_PermuteAll_24rounds` -/
def KeccakP1600times4_PermuteAll_24rounds.part40 : Stmt :=
  block [
    .asg 29 (.bin (.vec 3) (.bin (.vec 4) (.var 14) (.lit 43)) (.bin (.vec 5) (.var 14) (.lit 21))),
    .asg 67 (.bin (.vec 1) (.var 27) (.bin (.vec 2) (.var 28) (.var 29))),
    .asg 67 (.bin (.vec 1) (.var 67) (.bin (.vec 7) (.ld 8 (.padd (.glob 14) (.lit 14) 8)) (.lit 0))),
    .asg 52 (.var 67),
    .asg 20 (.bin (.vec 1) (.var 20) (.var 65)),
    .asg 30 (.bin (.vec 3) (.bin (.vec 4) (.var 20) (.lit 21)) (.bin (.vec 5) (.var 20) (.lit 43))),
    .asg 68 (.bin (.vec 1) (.var 28) (.bin (.vec 2) (.var 29) (.var 30))),
    .asg 53 (.var 68),
    .asg 26 (.bin (.vec 1) (.var 26) (.var 66)),
    .asg 31 (.bin (.vec 3) (.bin (.vec 4) (.var 26) (.lit 14)) (.bin (.vec 5) (.var 26) (.lit 50))),
    .asg 69 (.bin (.vec 1) (.var 29) (.bin (.vec 2) (.var 30) (.var 31))),
    .asg 54 (.var 69),
    .asg 70 (.bin (.vec 1) (.var 30) (.bin (.vec 2) (.var 31) (.var 27))),
    .asg 55 (.var 70),
    .asg 71 (.bin (.vec 1) (.var 31) (.bin (.vec 2) (.var 27) (.var 28))),
    .asg 56 (.var 71),
    .asg 5 (.bin (.vec 1) (.var 5) (.var 65)),
    .asg 32 (.bin (.vec 3) (.bin (.vec 4) (.var 5) (.lit 28)) (.bin (.vec 5) (.var 5) (.lit 36))),
    .asg 11 (.bin (.vec 1) (.var 11) (.var 66)),
    .asg 33 (.bin (.vec 3) (.bin (.vec 4) (.var 11) (.lit 20)) (.bin (.vec 5) (.var 11) (.lit 44))),
    .asg 12 (.bin (.vec 1) (.var 12) (.var 62)),
    .asg 34 (.bin (.vec 3) (.bin (.vec 4) (.var 12) (.lit 3)) (.bin (.vec 5) (.var 12) (.lit 61))),
    .asg 72 (.bin (.vec 1) (.var 32) (.bin (.vec 2) (.var 33) (.var 34))),
    .asg 52 (.bin (.vec 1) (.var 52) (.var 72)),
    .asg 18 (.bin (.vec 1) (.var 18) (.var 63)),
    .asg 35 (.bin (.vec 3) (.bin (.vec 4) (.var 18) (.lit 45)) (.bin (.vec 5) (.var 18) (.lit 19))),
    .asg 73 (.bin (.vec 1) (.var 33) (.bin (.vec 2) (.var 34) (.var 35))),
    .asg 53 (.bin (.vec 1) (.var 53) (.var 73)),
    .asg 24 (.bin (.vec 1) (.var 24) (.var 64)),
    .asg 36 (.bin (.vec 3) (.bin (.vec 4) (.var 24) (.lit 61)) (.bin (.vec 5) (.var 24) (.lit 3))),
    .asg 74 (.bin (.vec 1) (.var 34) (.bin (.vec 2) (.var 35) (.var 36))),
    .asg 54 (.bin (.vec 1) (.var 54) (.var 74)),
    .asg 75 (.bin (.vec 1) (.var 35) (.bin (.vec 2) (.var 36) (.var 32))),
    .asg 55 (.bin (.vec 1) (.var 55) (.var 75)),
    .asg 76 (.bin (.vec 1) (.var 36) (.bin (.vec 2) (.var 32) (.var 33))),
    .asg 56 (.bin (.vec 1) (.var 56) (.var 76)),
    .asg 3 (.bin (.vec 1) (.var 3) (.var 63)),
    .asg 37 (.bin (.vec 3) (.bin (.vec 4) (.var 3) (.lit 1)) (.bin (.vec 5) (.var 3) (.lit 63))),
    .asg 9 (.bin (.vec 1) (.var 9) (.var 64)),
    .asg 38 (.bin (.vec 3) (.bin (.vec 4) (.var 9) (.lit 6)) (.bin (.vec 5) (.var 9) (.lit 58)))]

/-- part of `KeccakP1600times4_PermuteAll_24rounds` -/
def KeccakP1600times4_PermuteAll_24rounds.part41 : Stmt :=
  block [
    .asg 15 (.bin (.vec 1) (.var 15) (.var 65)),
    .asg 39 (.bin (.vec 3) (.bin (.vec 4) (.var 15) (.lit 25)) (.bin (.vec 5) (.var 15) (.lit 39))),
    .asg 77 (.bin (.vec 1) (.var 37) (.bin (.vec 2) (.var 38) (.var 39))),
    .asg 52 (.bin (.vec 1) (.var 52) (.var 77)),
    .asg 21 (.bin (.vec 1) (.var 21) (.var 66)),
    .asg 40 (.bin (.vec 6) (.var 21) (.ld 32 (.glob 15))),
    .asg 78 (.bin (.vec 1) (.var 38) (.bin (.vec 2) (.var 39) (.var 40))),
    .asg 53 (.bin (.vec 1) (.var 53) (.var 78)),
    .asg 22 (.bin (.vec 1) (.var 22) (.var 62)),
    .asg 41 (.bin (.vec 3) (.bin (.vec 4) (.var 22) (.lit 18)) (.bin (.vec 5) (.var 22) (.lit 46))),
    .asg 79 (.bin (.vec 1) (.var 39) (.bin (.vec 2) (.var 40) (.var 41))),
    .asg 54 (.bin (.vec 1) (.var 54) (.var 79)),
    .asg 80 (.bin (.vec 1) (.var 40) (.bin (.vec 2) (.var 41) (.var 37))),
    .asg 55 (.bin (.vec 1) (.var 55) (.var 80)),
    .asg 81 (.bin (.vec 1) (.var 41) (.bin (.vec 2) (.var 37) (.var 38))),
    .asg 56 (.bin (.vec 1) (.var 56) (.var 81)),
    .asg 6 (.bin (.vec 1) (.var 6) (.var 66)),
    .asg 42 (.bin (.vec 3) (.bin (.vec 4) (.var 6) (.lit 27)) (.bin (.vec 5) (.var 6) (.lit 37))),
    .asg 7 (.bin (.vec 1) (.var 7) (.var 62)),
    .asg 43 (.bin (.vec 3) (.bin (.vec 4) (.var 7) (.lit 36)) (.bin (.vec 5) (.var 7) (.lit 28))),
    .asg 13 (.bin (.vec 1) (.var 13) (.var 63)),
    .asg 44 (.bin (.vec 3) (.bin (.vec 4) (.var 13) (.lit 10)) (.bin (.vec 5) (.var 13) (.lit 54))),
    .asg 82 (.bin (.vec 1) (.var 42) (.bin (.vec 2) (.var 43) (.var 44))),
    .asg 52 (.bin (.vec 1) (.var 52) (.var 82)),
    .asg 19 (.bin (.vec 1) (.var 19) (.var 64)),
    .asg 45 (.bin (.vec 3) (.bin (.vec 4) (.var 19) (.lit 15)) (.bin (.vec 5) (.var 19) (.lit 49))),
    .asg 83 (.bin (.vec 1) (.var 43) (.bin (.vec 2) (.var 44) (.var 45))),
    .asg 53 (.bin (.vec 1) (.var 53) (.var 83)),
    .asg 25 (.bin (.vec 1) (.var 25) (.var 65)),
    .asg 46 (.bin (.vec 6) (.var 25) (.ld 32 (.glob 16))),
    .asg 84 (.bin (.vec 1) (.var 44) (.bin (.vec 2) (.var 45) (.var 46))),
    .asg 54 (.bin (.vec 1) (.var 54) (.var 84)),
    .asg 85 (.bin (.vec 1) (.var 45) (.bin (.vec 2) (.var 46) (.var 42))),
    .asg 55 (.bin (.vec 1) (.var 55) (.var 85)),
    .asg 86 (.bin (.vec 1) (.var 46) (.bin (.vec 2) (.var 42) (.var 43))),
    .asg 56 (.bin (.vec 1) (.var 56) (.var 86)),
    .asg 4 (.bin (.vec 1) (.var 4) (.var 64)),
    .asg 47 (.bin (.vec 3) (.bin (.vec 4) (.var 4) (.lit 62)) (.bin (.vec 5) (.var 4) (.lit 2))),
    .asg 10 (.bin (.vec 1) (.var 10) (.var 65)),
    .asg 48 (.bin (.vec 3) (.bin (.vec 4) (.var 10) (.lit 55)) (.bin (.vec 5) (.var 10) (.lit 9)))]

/-- part of `KeccakP1600times4_PermuteAll_24rounds` -/
def KeccakP1600times4_PermuteAll_24rounds.part42 : Stmt :=
  block [
    .asg 16 (.bin (.vec 1) (.var 16) (.var 66)),
    .asg 49 (.bin (.vec 3) (.bin (.vec 4) (.var 16) (.lit 39)) (.bin (.vec 5) (.var 16) (.lit 25))),
    .asg 87 (.bin (.vec 1) (.var 47) (.bin (.vec 2) (.var 48) (.var 49))),
    .asg 52 (.bin (.vec 1) (.var 52) (.var 87)),
    .asg 17 (.bin (.vec 1) (.var 17) (.var 62)),
    .asg 50 (.bin (.vec 3) (.bin (.vec 4) (.var 17) (.lit 41)) (.bin (.vec 5) (.var 17) (.lit 23))),
    .asg 88 (.bin (.vec 1) (.var 48) (.bin (.vec 2) (.var 49) (.var 50))),
    .asg 53 (.bin (.vec 1) (.var 53) (.var 88)),
    .asg 23 (.bin (.vec 1) (.var 23) (.var 63)),
    .asg 51 (.bin (.vec 3) (.bin (.vec 4) (.var 23) (.lit 2)) (.bin (.vec 5) (.var 23) (.lit 62))),
    .asg 89 (.bin (.vec 1) (.var 49) (.bin (.vec 2) (.var 50) (.var 51))),
    .asg 54 (.bin (.vec 1) (.var 54) (.var 89)),
    .asg 90 (.bin (.vec 1) (.var 50) (.bin (.vec 2) (.var 51) (.var 47))),
    .asg 55 (.bin (.vec 1) (.var 55) (.var 90)),
    .asg 91 (.bin (.vec 1) (.var 51) (.bin (.vec 2) (.var 47) (.var 48))),
    .asg 56 (.bin (.vec 1) (.var 56) (.var 91)),
    .asg 58 (.bin (.vec 3) (.bin (.vec 4) (.var 53) (.lit 1)) (.bin (.vec 5) (.var 53) (.lit 63))),
    .asg 62 (.bin (.vec 1) (.var 56) (.var 58)),
    .asg 59 (.bin (.vec 3) (.bin (.vec 4) (.var 54) (.lit 1)) (.bin (.vec 5) (.var 54) (.lit 63))),
    .asg 63 (.bin (.vec 1) (.var 52) (.var 59)),
    .asg 60 (.bin (.vec 3) (.bin (.vec 4) (.var 55) (.lit 1)) (.bin (.vec 5) (.var 55) (.lit 63))),
    .asg 64 (.bin (.vec 1) (.var 53) (.var 60)),
    .asg 61 (.bin (.vec 3) (.bin (.vec 4) (.var 56) (.lit 1)) (.bin (.vec 5) (.var 56) (.lit 63))),
    .asg 65 (.bin (.vec 1) (.var 54) (.var 61)),
    .asg 57 (.bin (.vec 3) (.bin (.vec 4) (.var 52) (.lit 1)) (.bin (.vec 5) (.var 52) (.lit 63))),
    .asg 66 (.bin (.vec 1) (.var 55) (.var 57)),
    .asg 67 (.bin (.vec 1) (.var 67) (.var 62)),
    .asg 27 (.var 67),
    .asg 73 (.bin (.vec 1) (.var 73) (.var 63)),
    .asg 28 (.bin (.vec 3) (.bin (.vec 4) (.var 73) (.lit 44)) (.bin (.vec 5) (.var 73) (.lit 20))),
    .asg 79 (.bin (.vec 1) (.var 79) (.var 64)),
    .asg 29 (.bin (.vec 3) (.bin (.vec 4) (.var 79) (.lit 43)) (.bin (.vec 5) (.var 79) (.lit 21))),
    .asg 2 (.bin (.vec 1) (.var 27) (.bin (.vec 2) (.var 28) (.var 29))),
    .asg 2 (.bin (.vec 1) (.var 2) (.bin (.vec 7) (.ld 8 (.padd (.glob 14) (.lit 15) 8)) (.lit 0))),
    .asg 52 (.var 2),
    .asg 85 (.bin (.vec 1) (.var 85) (.var 65)),
    .asg 30 (.bin (.vec 3) (.bin (.vec 4) (.var 85) (.lit 21)) (.bin (.vec 5) (.var 85) (.lit 43))),
    .asg 3 (.bin (.vec 1) (.var 28) (.bin (.vec 2) (.var 29) (.var 30))),
    .asg 53 (.var 3),
    .asg 91 (.bin (.vec 1) (.var 91) (.var 66))]

/-- part of `KeccakP1600times4_PermuteAll_24rounds` -/
def KeccakP1600times4_PermuteAll_24rounds.part43 : Stmt :=
  block [
    .asg 31 (.bin (.vec 3) (.bin (.vec 4) (.var 91) (.lit 14)) (.bin (.vec 5) (.var 91) (.lit 50))),
    .asg 4 (.bin (.vec 1) (.var 29) (.bin (.vec 2) (.var 30) (.var 31))),
    .asg 54 (.var 4),
    .asg 5 (.bin (.vec 1) (.var 30) (.bin (.vec 2) (.var 31) (.var 27))),
    .asg 55 (.var 5),
    .asg 6 (.bin (.vec 1) (.var 31) (.bin (.vec 2) (.var 27) (.var 28))),
    .asg 56 (.var 6),
    .asg 70 (.bin (.vec 1) (.var 70) (.var 65)),
    .asg 32 (.bin (.vec 3) (.bin (.vec 4) (.var 70) (.lit 28)) (.bin (.vec 5) (.var 70) (.lit 36))),
    .asg 76 (.bin (.vec 1) (.var 76) (.var 66)),
    .asg 33 (.bin (.vec 3) (.bin (.vec 4) (.var 76) (.lit 20)) (.bin (.vec 5) (.var 76) (.lit 44))),
    .asg 77 (.bin (.vec 1) (.var 77) (.var 62)),
    .asg 34 (.bin (.vec 3) (.bin (.vec 4) (.var 77) (.lit 3)) (.bin (.vec 5) (.var 77) (.lit 61))),
    .asg 7 (.bin (.vec 1) (.var 32) (.bin (.vec 2) (.var 33) (.var 34))),
    .asg 52 (.bin (.vec 1) (.var 52) (.var 7)),
    .asg 83 (.bin (.vec 1) (.var 83) (.var 63)),
    .asg 35 (.bin (.vec 3) (.bin (.vec 4) (.var 83) (.lit 45)) (.bin (.vec 5) (.var 83) (.lit 19))),
    .asg 8 (.bin (.vec 1) (.var 33) (.bin (.vec 2) (.var 34) (.var 35))),
    .asg 53 (.bin (.vec 1) (.var 53) (.var 8)),
    .asg 89 (.bin (.vec 1) (.var 89) (.var 64)),
    .asg 36 (.bin (.vec 3) (.bin (.vec 4) (.var 89) (.lit 61)) (.bin (.vec 5) (.var 89) (.lit 3))),
    .asg 9 (.bin (.vec 1) (.var 34) (.bin (.vec 2) (.var 35) (.var 36))),
    .asg 54 (.bin (.vec 1) (.var 54) (.var 9)),
    .asg 10 (.bin (.vec 1) (.var 35) (.bin (.vec 2) (.var 36) (.var 32))),
    .asg 55 (.bin (.vec 1) (.var 55) (.var 10)),
    .asg 11 (.bin (.vec 1) (.var 36) (.bin (.vec 2) (.var 32) (.var 33))),
    .asg 56 (.bin (.vec 1) (.var 56) (.var 11)),
    .asg 68 (.bin (.vec 1) (.var 68) (.var 63)),
    .asg 37 (.bin (.vec 3) (.bin (.vec 4) (.var 68) (.lit 1)) (.bin (.vec 5) (.var 68) (.lit 63))),
    .asg 74 (.bin (.vec 1) (.var 74) (.var 64)),
    .asg 38 (.bin (.vec 3) (.bin (.vec 4) (.var 74) (.lit 6)) (.bin (.vec 5) (.var 74) (.lit 58))),
    .asg 80 (.bin (.vec 1) (.var 80) (.var 65)),
    .asg 39 (.bin (.vec 3) (.bin (.vec 4) (.var 80) (.lit 25)) (.bin (.vec 5) (.var 80) (.lit 39))),
    .asg 12 (.bin (.vec 1) (.var 37) (.bin (.vec 2) (.var 38) (.var 39))),
    .asg 52 (.bin (.vec 1) (.var 52) (.var 12)),
    .asg 86 (.bin (.vec 1) (.var 86) (.var 66)),
    .asg 40 (.bin (.vec 6) (.var 86) (.ld 32 (.glob 15))),
    .asg 13 (.bin (.vec 1) (.var 38) (.bin (.vec 2) (.var 39) (.var 40))),
    .asg 53 (.bin (.vec 1) (.var 53) (.var 13)),
    .asg 87 (.bin (.vec 1) (.var 87) (.var 62))]

/-- part of `KeccakP1600times4_PermuteAll_24rounds` -/
def KeccakP1600times4_PermuteAll_24rounds.part44 : Stmt :=
  block [
    .asg 41 (.bin (.vec 3) (.bin (.vec 4) (.var 87) (.lit 18)) (.bin (.vec 5) (.var 87) (.lit 46))),
    .asg 14 (.bin (.vec 1) (.var 39) (.bin (.vec 2) (.var 40) (.var 41))),
    .asg 54 (.bin (.vec 1) (.var 54) (.var 14)),
    .asg 15 (.bin (.vec 1) (.var 40) (.bin (.vec 2) (.var 41) (.var 37))),
    .asg 55 (.bin (.vec 1) (.var 55) (.var 15)),
    .asg 16 (.bin (.vec 1) (.var 41) (.bin (.vec 2) (.var 37) (.var 38))),
    .asg 56 (.bin (.vec 1) (.var 56) (.var 16)),
    .asg 71 (.bin (.vec 1) (.var 71) (.var 66)),
    .asg 42 (.bin (.vec 3) (.bin (.vec 4) (.var 71) (.lit 27)) (.bin (.vec 5) (.var 71) (.lit 37))),
    .asg 72 (.bin (.vec 1) (.var 72) (.var 62)),
    .asg 43 (.bin (.vec 3) (.bin (.vec 4) (.var 72) (.lit 36)) (.bin (.vec 5) (.var 72) (.lit 28))),
    .asg 78 (.bin (.vec 1) (.var 78) (.var 63)),
    .asg 44 (.bin (.vec 3) (.bin (.vec 4) (.var 78) (.lit 10)) (.bin (.vec 5) (.var 78) (.lit 54))),
    .asg 17 (.bin (.vec 1) (.var 42) (.bin (.vec 2) (.var 43) (.var 44))),
    .asg 52 (.bin (.vec 1) (.var 52) (.var 17)),
    .asg 84 (.bin (.vec 1) (.var 84) (.var 64)),
    .asg 45 (.bin (.vec 3) (.bin (.vec 4) (.var 84) (.lit 15)) (.bin (.vec 5) (.var 84) (.lit 49))),
    .asg 18 (.bin (.vec 1) (.var 43) (.bin (.vec 2) (.var 44) (.var 45))),
    .asg 53 (.bin (.vec 1) (.var 53) (.var 18)),
    .asg 90 (.bin (.vec 1) (.var 90) (.var 65)),
    .asg 46 (.bin (.vec 6) (.var 90) (.ld 32 (.glob 16))),
    .asg 19 (.bin (.vec 1) (.var 44) (.bin (.vec 2) (.var 45) (.var 46))),
    .asg 54 (.bin (.vec 1) (.var 54) (.var 19)),
    .asg 20 (.bin (.vec 1) (.var 45) (.bin (.vec 2) (.var 46) (.var 42))),
    .asg 55 (.bin (.vec 1) (.var 55) (.var 20)),
    .asg 21 (.bin (.vec 1) (.var 46) (.bin (.vec 2) (.var 42) (.var 43))),
    .asg 56 (.bin (.vec 1) (.var 56) (.var 21)),
    .asg 69 (.bin (.vec 1) (.var 69) (.var 64)),
    .asg 47 (.bin (.vec 3) (.bin (.vec 4) (.var 69) (.lit 62)) (.bin (.vec 5) (.var 69) (.lit 2))),
    .asg 75 (.bin (.vec 1) (.var 75) (.var 65)),
    .asg 48 (.bin (.vec 3) (.bin (.vec 4) (.var 75) (.lit 55)) (.bin (.vec 5) (.var 75) (.lit 9))),
    .asg 81 (.bin (.vec 1) (.var 81) (.var 66)),
    .asg 49 (.bin (.vec 3) (.bin (.vec 4) (.var 81) (.lit 39)) (.bin (.vec 5) (.var 81) (.lit 25))),
    .asg 22 (.bin (.vec 1) (.var 47) (.bin (.vec 2) (.var 48) (.var 49))),
    .asg 52 (.bin (.vec 1) (.var 52) (.var 22)),
    .asg 82 (.bin (.vec 1) (.var 82) (.var 62)),
    .asg 50 (.bin (.vec 3) (.bin (.vec 4) (.var 82) (.lit 41)) (.bin (.vec 5) (.var 82) (.lit 23))),
    .asg 23 (.bin (.vec 1) (.var 48) (.bin (.vec 2) (.var 49) (.var 50))),
    .asg 53 (.bin (.vec 1) (.var 53) (.var 23)),
    .asg 88 (.bin (.vec 1) (.var 88) (.var 63))]

/-- part of `KeccakP1600times4_PermuteAll_24rounds` -/
def KeccakP1600times4_PermuteAll_24rounds.part45 : Stmt :=
  block [
    .asg 51 (.bin (.vec 3) (.bin (.vec 4) (.var 88) (.lit 2)) (.bin (.vec 5) (.var 88) (.lit 62))),
    .asg 24 (.bin (.vec 1) (.var 49) (.bin (.vec 2) (.var 50) (.var 51))),
    .asg 54 (.bin (.vec 1) (.var 54) (.var 24)),
    .asg 25 (.bin (.vec 1) (.var 50) (.bin (.vec 2) (.var 51) (.var 47))),
    .asg 55 (.bin (.vec 1) (.var 55) (.var 25)),
    .asg 26 (.bin (.vec 1) (.var 51) (.bin (.vec 2) (.var 47) (.var 48))),
    .asg 56 (.bin (.vec 1) (.var 56) (.var 26)),
    .asg 58 (.bin (.vec 3) (.bin (.vec 4) (.var 53) (.lit 1)) (.bin (.vec 5) (.var 53) (.lit 63))),
    .asg 62 (.bin (.vec 1) (.var 56) (.var 58)),
    .asg 59 (.bin (.vec 3) (.bin (.vec 4) (.var 54) (.lit 1)) (.bin (.vec 5) (.var 54) (.lit 63))),
    .asg 63 (.bin (.vec 1) (.var 52) (.var 59)),
    .asg 60 (.bin (.vec 3) (.bin (.vec 4) (.var 55) (.lit 1)) (.bin (.vec 5) (.var 55) (.lit 63))),
    .asg 64 (.bin (.vec 1) (.var 53) (.var 60)),
    .asg 61 (.bin (.vec 3) (.bin (.vec 4) (.var 56) (.lit 1)) (.bin (.vec 5) (.var 56) (.lit 63))),
    .asg 65 (.bin (.vec 1) (.var 54) (.var 61)),
    .asg 57 (.bin (.vec 3) (.bin (.vec 4) (.var 52) (.lit 1)) (.bin (.vec 5) (.var 52) (.lit 63))),
    .asg 66 (.bin (.vec 1) (.var 55) (.var 57)),
    .asg 2 (.bin (.vec 1) (.var 2) (.var 62)),
    .asg 27 (.var 2),
    .asg 8 (.bin (.vec 1) (.var 8) (.var 63)),
    .asg 28 (.bin (.vec 3) (.bin (.vec 4) (.var 8) (.lit 44)) (.bin (.vec 5) (.var 8) (.lit 20))),
    .asg 14 (.bin (.vec 1) (.var 14) (.var 64)),
    .asg 29 (.bin (.vec 3) (.bin (.vec 4) (.var 14) (.lit 43)) (.bin (.vec 5) (.var 14) (.lit 21))),
    .asg 67 (.bin (.vec 1) (.var 27) (.bin (.vec 2) (.var 28) (.var 29))),
    .asg 67 (.bin (.vec 1) (.var 67) (.bin (.vec 7) (.ld 8 (.padd (.glob 14) (.lit 16) 8)) (.lit 0))),
    .asg 52 (.var 67),
    .asg 20 (.bin (.vec 1) (.var 20) (.var 65)),
    .asg 30 (.bin (.vec 3) (.bin (.vec 4) (.var 20) (.lit 21)) (.bin (.vec 5) (.var 20) (.lit 43))),
    .asg 68 (.bin (.vec 1) (.var 28) (.bin (.vec 2) (.var 29) (.var 30))),
    .asg 53 (.var 68),
    .asg 26 (.bin (.vec 1) (.var 26) (.var 66)),
    .asg 31 (.bin (.vec 3) (.bin (.vec 4) (.var 26) (.lit 14)) (.bin (.vec 5) (.var 26) (.lit 50))),
    .asg 69 (.bin (.vec 1) (.var 29) (.bin (.vec 2) (.var 30) (.var 31))),
    .asg 54 (.var 69),
    .asg 70 (.bin (.vec 1) (.var 30) (.bin (.vec 2) (.var 31) (.var 27))),
    .asg 55 (.var 70),
    .asg 71 (.bin (.vec 1) (.var 31) (.bin (.vec 2) (.var 27) (.var 28))),
    .asg 56 (.var 71),
    .asg 5 (.bin (.vec 1) (.var 5) (.var 65)),
    .asg 32 (.bin (.vec 3) (.bin (.vec 4) (.var 5) (.lit 28)) (.bin (.vec 5) (.var 5) (.lit 36)))]

/-- part of `KeccakP1600times4_PermuteAll_24rounds` -/
def KeccakP1600times4_PermuteAll_24rounds.part46 : Stmt :=
  block [
    .asg 11 (.bin (.vec 1) (.var 11) (.var 66)),
    .asg 33 (.bin (.vec 3) (.bin (.vec 4) (.var 11) (.lit 20)) (.bin (.vec 5) (.var 11) (.lit 44))),
    .asg 12 (.bin (.vec 1) (.var 12) (.var 62)),
    .asg 34 (.bin (.vec 3) (.bin (.vec 4) (.var 12) (.lit 3)) (.bin (.vec 5) (.var 12) (.lit 61))),
    .asg 72 (.bin (.vec 1) (.var 32) (.bin (.vec 2) (.var 33) (.var 34))),
    .asg 52 (.bin (.vec 1) (.var 52) (.var 72)),
    .asg 18 (.bin (.vec 1) (.var 18) (.var 63)),
    .asg 35 (.bin (.vec 3) (.bin (.vec 4) (.var 18) (.lit 45)) (.bin (.vec 5) (.var 18) (.lit 19))),
    .asg 73 (.bin (.vec 1) (.var 33) (.bin (.vec 2) (.var 34) (.var 35))),
    .asg 53 (.bin (.vec 1) (.var 53) (.var 73)),
    .asg 24 (.bin (.vec 1) (.var 24) (.var 64)),
    .asg 36 (.bin (.vec 3) (.bin (.vec 4) (.var 24) (.lit 61)) (.bin (.vec 5) (.var 24) (.lit 3))),
    .asg 74 (.bin (.vec 1) (.var 34) (.bin (.vec 2) (.var 35) (.var 36))),
    .asg 54 (.bin (.vec 1) (.var 54) (.var 74)),
    .asg 75 (.bin (.vec 1) (.var 35) (.bin (.vec 2) (.var 36) (.var 32))),
    .asg 55 (.bin (.vec 1) (.var 55) (.var 75)),
    .asg 76 (.bin (.vec 1) (.var 36) (.bin (.vec 2) (.var 32) (.var 33))),
    .asg 56 (.bin (.vec 1) (.var 56) (.var 76)),
    .asg 3 (.bin (.vec 1) (.var 3) (.var 63)),
    .asg 37 (.bin (.vec 3) (.bin (.vec 4) (.var 3) (.lit 1)) (.bin (.vec 5) (.var 3) (.lit 63))),
    .asg 9 (.bin (.vec 1) (.var 9) (.var 64)),
    .asg 38 (.bin (.vec 3) (.bin (.vec 4) (.var 9) (.lit 6)) (.bin (.vec 5) (.var 9) (.lit 58))),
    .asg 15 (.bin (.vec 1) (.var 15) (.var 65)),
    .asg 39 (.bin (.vec 3) (.bin (.vec 4) (.var 15) (.lit 25)) (.bin (.vec 5) (.var 15) (.lit 39))),
    .asg 77 (.bin (.vec 1) (.var 37) (.bin (.vec 2) (.var 38) (.var 39))),
    .asg 52 (.bin (.vec 1) (.var 52) (.var 77)),
    .asg 21 (.bin (.vec 1) (.var 21) (.var 66)),
    .asg 40 (.bin (.vec 6) (.var 21) (.ld 32 (.glob 15))),
    .asg 78 (.bin (.vec 1) (.var 38) (.bin (.vec 2) (.var 39) (.var 40))),
    .asg 53 (.bin (.vec 1) (.var 53) (.var 78)),
    .asg 22 (.bin (.vec 1) (.var 22) (.var 62)),
    .asg 41 (.bin (.vec 3) (.bin (.vec 4) (.var 22) (.lit 18)) (.bin (.vec 5) (.var 22) (.lit 46))),
    .asg 79 (.bin (.vec 1) (.var 39) (.bin (.vec 2) (.var 40) (.var 41))),
    .asg 54 (.bin (.vec 1) (.var 54) (.var 79)),
    .asg 80 (.bin (.vec 1) (.var 40) (.bin (.vec 2) (.var 41) (.var 37))),
    .asg 55 (.bin (.vec 1) (.var 55) (.var 80)),
    .asg 81 (.bin (.vec 1) (.var 41) (.bin (.vec 2) (.var 37) (.var 38))),
    .asg 56 (.bin (.vec 1) (.var 56) (.var 81)),
    .asg 6 (.bin (.vec 1) (.var 6) (.var 66)),
    .asg 42 (.bin (.vec 3) (.bin (.vec 4) (.var 6) (.lit 27)) (.bin (.vec 5) (.var 6) (.lit 37)))]

/-- part of `KeccakP1600times4_PermuteAll_24rounds` -/
def KeccakP1600times4_PermuteAll_24rounds.part47 : Stmt :=
  block [
    .asg 7 (.bin (.vec 1) (.var 7) (.var 62)),
    .asg 43 (.bin (.vec 3) (.bin (.vec 4) (.var 7) (.lit 36)) (.bin (.vec 5) (.var 7) (.lit 28))),
    .asg 13 (.bin (.vec 1) (.var 13) (.var 63)),
    .asg 44 (.bin (.vec 3) (.bin (.vec 4) (.var 13) (.lit 10)) (.bin (.vec 5) (.var 13) (.lit 54))),
    .asg 82 (.bin (.vec 1) (.var 42) (.bin (.vec 2) (.var 43) (.var 44))),
    .asg 52 (.bin (.vec 1) (.var 52) (.var 82)),
    .asg 19 (.bin (.vec 1) (.var 19) (.var 64)),
    .asg 45 (.bin (.vec 3) (.bin (.vec 4) (.var 19) (.lit 15)) (.bin (.vec 5) (.var 19) (.lit 49))),
    .asg 83 (.bin (.vec 1) (.var 43) (.bin (.vec 2) (.var 44) (.var 45))),
    .asg 53 (.bin (.vec 1) (.var 53) (.var 83)),
    .asg 25 (.bin (.vec 1) (.var 25) (.var 65)),
    .asg 46 (.bin (.vec 6) (.var 25) (.ld 32 (.glob 16))),
    .asg 84 (.bin (.vec 1) (.var 44) (.bin (.vec 2) (.var 45) (.var 46))),
    .asg 54 (.bin (.vec 1) (.var 54) (.var 84)),
    .asg 85 (.bin (.vec 1) (.var 45) (.bin (.vec 2) (.var 46) (.var 42))),
    .asg 55 (.bin (.vec 1) (.var 55) (.var 85)),
    .asg 86 (.bin (.vec 1) (.var 46) (.bin (.vec 2) (.var 42) (.var 43))),
    .asg 56 (.bin (.vec 1) (.var 56) (.var 86)),
    .asg 4 (.bin (.vec 1) (.var 4) (.var 64)),
    .asg 47 (.bin (.vec 3) (.bin (.vec 4) (.var 4) (.lit 62)) (.bin (.vec 5) (.var 4) (.lit 2))),
    .asg 10 (.bin (.vec 1) (.var 10) (.var 65)),
    .asg 48 (.bin (.vec 3) (.bin (.vec 4) (.var 10) (.lit 55)) (.bin (.vec 5) (.var 10) (.lit 9))),
    .asg 16 (.bin (.vec 1) (.var 16) (.var 66)),
    .asg 49 (.bin (.vec 3) (.bin (.vec 4) (.var 16) (.lit 39)) (.bin (.vec 5) (.var 16) (.lit 25))),
    .asg 87 (.bin (.vec 1) (.var 47) (.bin (.vec 2) (.var 48) (.var 49))),
    .asg 52 (.bin (.vec 1) (.var 52) (.var 87)),
    .asg 17 (.bin (.vec 1) (.var 17) (.var 62)),
    .asg 50 (.bin (.vec 3) (.bin (.vec 4) (.var 17) (.lit 41)) (.bin (.vec 5) (.var 17) (.lit 23))),
    .asg 88 (.bin (.vec 1) (.var 48) (.bin (.vec 2) (.var 49) (.var 50))),
    .asg 53 (.bin (.vec 1) (.var 53) (.var 88)),
    .asg 23 (.bin (.vec 1) (.var 23) (.var 63)),
    .asg 51 (.bin (.vec 3) (.bin (.vec 4) (.var 23) (.lit 2)) (.bin (.vec 5) (.var 23) (.lit 62))),
    .asg 89 (.bin (.vec 1) (.var 49) (.bin (.vec 2) (.var 50) (.var 51))),
    .asg 54 (.bin (.vec 1) (.var 54) (.var 89)),
    .asg 90 (.bin (.vec 1) (.var 50) (.bin (.vec 2) (.var 51) (.var 47))),
    .asg 55 (.bin (.vec 1) (.var 55) (.var 90)),
    .asg 91 (.bin (.vec 1) (.var 51) (.bin (.vec 2) (.var 47) (.var 48))),
    .asg 56 (.bin (.vec 1) (.var 56) (.var 91)),
    .asg 58 (.bin (.vec 3) (.bin (.vec 4) (.var 53) (.lit 1)) (.bin (.vec 5) (.var 53) (.lit 63))),
    .asg 62 (.bin (.vec 1) (.var 56) (.var 58))]

/-- part of `KeccakP1600times4_PermuteAll_24rounds` -/
def KeccakP1600times4_PermuteAll_24rounds.part48 : Stmt :=
  block [
    .asg 59 (.bin (.vec 3) (.bin (.vec 4) (.var 54) (.lit 1)) (.bin (.vec 5) (.var 54) (.lit 63))),
    .asg 63 (.bin (.vec 1) (.var 52) (.var 59)),
    .asg 60 (.bin (.vec 3) (.bin (.vec 4) (.var 55) (.lit 1)) (.bin (.vec 5) (.var 55) (.lit 63))),
    .asg 64 (.bin (.vec 1) (.var 53) (.var 60)),
    .asg 61 (.bin (.vec 3) (.bin (.vec 4) (.var 56) (.lit 1)) (.bin (.vec 5) (.var 56) (.lit 63))),
    .asg 65 (.bin (.vec 1) (.var 54) (.var 61)),
    .asg 57 (.bin (.vec 3) (.bin (.vec 4) (.var 52) (.lit 1)) (.bin (.vec 5) (.var 52) (.lit 63))),
    .asg 66 (.bin (.vec 1) (.var 55) (.var 57)),
    .asg 67 (.bin (.vec 1) (.var 67) (.var 62)),
    .asg 27 (.var 67),
    .asg 73 (.bin (.vec 1) (.var 73) (.var 63)),
    .asg 28 (.bin (.vec 3) (.bin (.vec 4) (.var 73) (.lit 44)) (.bin (.vec 5) (.var 73) (.lit 20))),
    .asg 79 (.bin (.vec 1) (.var 79) (.var 64)),
    .asg 29 (.bin (.vec 3) (.bin (.vec 4) (.var 79) (.lit 43)) (.bin (.vec 5) (.var 79) (.lit 21))),
    .asg 2 (.bin (.vec 1) (.var 27) (.bin (.vec 2) (.var 28) (.var 29))),
    .asg 2 (.bin (.vec 1) (.var 2) (.bin (.vec 7) (.ld 8 (.padd (.glob 14) (.lit 17) 8)) (.lit 0))),
    .asg 52 (.var 2),
    .asg 85 (.bin (.vec 1) (.var 85) (.var 65)),
    .asg 30 (.bin (.vec 3) (.bin (.vec 4) (.var 85) (.lit 21)) (.bin (.vec 5) (.var 85) (.lit 43))),
    .asg 3 (.bin (.vec 1) (.var 28) (.bin (.vec 2) (.var 29) (.var 30))),
    .asg 53 (.var 3),
    .asg 91 (.bin (.vec 1) (.var 91) (.var 66)),
    .asg 31 (.bin (.vec 3) (.bin (.vec 4) (.var 91) (.lit 14)) (.bin (.vec 5) (.var 91) (.lit 50))),
    .asg 4 (.bin (.vec 1) (.var 29) (.bin (.vec 2) (.var 30) (.var 31))),
    .asg 54 (.var 4),
    .asg 5 (.bin (.vec 1) (.var 30) (.bin (.vec 2) (.var 31) (.var 27))),
    .asg 55 (.var 5),
    .asg 6 (.bin (.vec 1) (.var 31) (.bin (.vec 2) (.var 27) (.var 28))),
    .asg 56 (.var 6),
    .asg 70 (.bin (.vec 1) (.var 70) (.var 65)),
    .asg 32 (.bin (.vec 3) (.bin (.vec 4) (.var 70) (.lit 28)) (.bin (.vec 5) (.var 70) (.lit 36))),
    .asg 76 (.bin (.vec 1) (.var 76) (.var 66)),
    .asg 33 (.bin (.vec 3) (.bin (.vec 4) (.var 76) (.lit 20)) (.bin (.vec 5) (.var 76) (.lit 44))),
    .asg 77 (.bin (.vec 1) (.var 77) (.var 62)),
    .asg 34 (.bin (.vec 3) (.bin (.vec 4) (.var 77) (.lit 3)) (.bin (.vec 5) (.var 77) (.lit 61))),
    .asg 7 (.bin (.vec 1) (.var 32) (.bin (.vec 2) (.var 33) (.var 34))),
    .asg 52 (.bin (.vec 1) (.var 52) (.var 7)),
    .asg 83 (.bin (.vec 1) (.var 83) (.var 63)),
    .asg 35 (.bin (.vec 3) (.bin (.vec 4) (.var 83) (.lit 45)) (.bin (.vec 5) (.var 83) (.lit 19))),
    .asg 8 (.bin (.vec 1) (.var 33) (.bin (.vec 2) (.var 34) (.var 35)))]

/-- part of `KeccakP1600times4_PermuteAll_24rounds` -/
def KeccakP1600times4_PermuteAll_24rounds.part49 : Stmt :=
  block [
    .asg 53 (.bin (.vec 1) (.var 53) (.var 8)),
    .asg 89 (.bin (.vec 1) (.var 89) (.var 64)),
    .asg 36 (.bin (.vec 3) (.bin (.vec 4) (.var 89) (.lit 61)) (.bin (.vec 5) (.var 89) (.lit 3))),
    .asg 9 (.bin (.vec 1) (.var 34) (.bin (.vec 2) (.var 35) (.var 36))),
    .asg 54 (.bin (.vec 1) (.var 54) (.var 9)),
    .asg 10 (.bin (.vec 1) (.var 35) (.bin (.vec 2) (.var 36) (.var 32))),
    .asg 55 (.bin (.vec 1) (.var 55) (.var 10)),
    .asg 11 (.bin (.vec 1) (.var 36) (.bin (.vec 2) (.var 32) (.var 33))),
    .asg 56 (.bin (.vec 1) (.var 56) (.var 11)),
    .asg 68 (.bin (.vec 1) (.var 68) (.var 63)),
    .asg 37 (.bin (.vec 3) (.bin (.vec 4) (.var 68) (.lit 1)) (.bin (.vec 5) (.var 68) (.lit 63))),
    .asg 74 (.bin (.vec 1) (.var 74) (.var 64)),
    .asg 38 (.bin (.vec 3) (.bin (.vec 4) (.var 74) (.lit 6)) (.bin (.vec 5) (.var 74) (.lit 58))),
    .asg 80 (.bin (.vec 1) (.var 80) (.var 65)),
    .asg 39 (.bin (.vec 3) (.bin (.vec 4) (.var 80) (.lit 25)) (.bin (.vec 5) (.var 80) (.lit 39))),
    .asg 12 (.bin (.vec 1) (.var 37) (.bin (.vec 2) (.var 38) (.var 39))),
    .asg 52 (.bin (.vec 1) (.var 52) (.var 12)),
    .asg 86 (.bin (.vec 1) (.var 86) (.var 66)),
    .asg 40 (.bin (.vec 6) (.var 86) (.ld 32 (.glob 15))),
    .asg 13 (.bin (.vec 1) (.var 38) (.bin (.vec 2) (.var 39) (.var 40))),
    .asg 53 (.bin (.vec 1) (.var 53) (.var 13)),
    .asg 87 (.bin (.vec 1) (.var 87) (.var 62)),
    .asg 41 (.bin (.vec 3) (.bin (.vec 4) (.var 87) (.lit 18)) (.bin (.vec 5) (.var 87) (.lit 46))),
    .asg 14 (.bin (.vec 1) (.var 39) (.bin (.vec 2) (.var 40) (.var 41))),
    .asg 54 (.bin (.vec 1) (.var 54) (.var 14)),
    .asg 15 (.bin (.vec 1) (.var 40) (.bin (.vec 2) (.var 41) (.var 37))),
    .asg 55 (.bin (.vec 1) (.var 55) (.var 15)),
    .asg 16 (.bin (.vec 1) (.var 41) (.bin (.vec 2) (.var 37) (.var 38))),
    .asg 56 (.bin (.vec 1) (.var 56) (.var 16)),
    .asg 71 (.bin (.vec 1) (.var 71) (.var 66)),
    .asg 42 (.bin (.vec 3) (.bin (.vec 4) (.var 71) (.lit 27)) (.bin (.vec 5) (.var 71) (.lit 37))),
    .asg 72 (.bin (.vec 1) (.var 72) (.var 62)),
    .asg 43 (.bin (.vec 3) (.bin (.vec 4) (.var 72) (.lit 36)) (.bin (.vec 5) (.var 72) (.lit 28))),
    .asg 78 (.bin (.vec 1) (.var 78) (.var 63)),
    .asg 44 (.bin (.vec 3) (.bin (.vec 4) (.var 78) (.lit 10)) (.bin (.vec 5) (.var 78) (.lit 54))),
    .asg 17 (.bin (.vec 1) (.var 42) (.bin (.vec 2) (.var 43) (.var 44))),
    .asg 52 (.bin (.vec 1) (.var 52) (.var 17)),
    .asg 84 (.bin (.vec 1) (.var 84) (.var 64)),
    .asg 45 (.bin (.vec 3) (.bin (.vec 4) (.var 84) (.lit 15)) (.bin (.vec 5) (.var 84) (.lit 49))),
    .asg 18 (.bin (.vec 1) (.var 43) (.bin (.vec 2) (.var 44) (.var 45)))]

/-- part of `KeccakP1600times4_PermuteAll_24rounds` -/
def KeccakP1600times4_PermuteAll_24rounds.part50 : Stmt :=
  block [
    .asg 53 (.bin (.vec 1) (.var 53) (.var 18)),
    .asg 90 (.bin (.vec 1) (.var 90) (.var 65)),
    .asg 46 (.bin (.vec 6) (.var 90) (.ld 32 (.glob 16))),
    .asg 19 (.bin (.vec 1) (.var 44) (.bin (.vec 2) (.var 45) (.var 46))),
    .asg 54 (.bin (.vec 1) (.var 54) (.var 19)),
    .asg 20 (.bin (.vec 1) (.var 45) (.bin (.vec 2) (.var 46) (.var 42))),
    .asg 55 (.bin (.vec 1) (.var 55) (.var 20)),
    .asg 21 (.bin (.vec 1) (.var 46) (.bin (.vec 2) (.var 42) (.var 43))),
    .asg 56 (.bin (.vec 1) (.var 56) (.var 21)),
    .asg 69 (.bin (.vec 1) (.var 69) (.var 64)),
    .asg 47 (.bin (.vec 3) (.bin (.vec 4) (.var 69) (.lit 62)) (.bin (.vec 5) (.var 69) (.lit 2))),
    .asg 75 (.bin (.vec 1) (.var 75) (.var 65)),
    .asg 48 (.bin (.vec 3) (.bin (.vec 4) (.var 75) (.lit 55)) (.bin (.vec 5) (.var 75) (.lit 9))),
    .asg 81 (.bin (.vec 1) (.var 81) (.var 66)),
    .asg 49 (.bin (.vec 3) (.bin (.vec 4) (.var 81) (.lit 39)) (.bin (.vec 5) (.var 81) (.lit 25))),
    .asg 22 (.bin (.vec 1) (.var 47) (.bin (.vec 2) (.var 48) (.var 49))),
    .asg 52 (.bin (.vec 1) (.var 52) (.var 22)),
    .asg 82 (.bin (.vec 1) (.var 82) (.var 62)),
    .asg 50 (.bin (.vec 3) (.bin (.vec 4) (.var 82) (.lit 41)) (.bin (.vec 5) (.var 82) (.lit 23))),
    .asg 23 (.bin (.vec 1) (.var 48) (.bin (.vec 2) (.var 49) (.var 50))),
    .asg 53 (.bin (.vec 1) (.var 53) (.var 23)),
    .asg 88 (.bin (.vec 1) (.var 88) (.var 63)),
    .asg 51 (.bin (.vec 3) (.bin (.vec 4) (.var 88) (.lit 2)) (.bin (.vec 5) (.var 88) (.lit 62))),
    .asg 24 (.bin (.vec 1) (.var 49) (.bin (.vec 2) (.var 50) (.var 51))),
    .asg 54 (.bin (.vec 1) (.var 54) (.var 24)),
    .asg 25 (.bin (.vec 1) (.var 50) (.bin (.vec 2) (.var 51) (.var 47))),
    .asg 55 (.bin (.vec 1) (.var 55) (.var 25)),
    .asg 26 (.bin (.vec 1) (.var 51) (.bin (.vec 2) (.var 47) (.var 48))),
    .asg 56 (.bin (.vec 1) (.var 56) (.var 26)),
    .asg 58 (.bin (.vec 3) (.bin (.vec 4) (.var 53) (.lit 1)) (.bin (.vec 5) (.var 53) (.lit 63))),
    .asg 62 (.bin (.vec 1) (.var 56) (.var 58)),
    .asg 59 (.bin (.vec 3) (.bin (.vec 4) (.var 54) (.lit 1)) (.bin (.vec 5) (.var 54) (.lit 63))),
    .asg 63 (.bin (.vec 1) (.var 52) (.var 59)),
    .asg 60 (.bin (.vec 3) (.bin (.vec 4) (.var 55) (.lit 1)) (.bin (.vec 5) (.var 55) (.lit 63))),
    .asg 64 (.bin (.vec 1) (.var 53) (.var 60)),
    .asg 61 (.bin (.vec 3) (.bin (.vec 4) (.var 56) (.lit 1)) (.bin (.vec 5) (.var 56) (.lit 63))),
    .asg 65 (.bin (.vec 1) (.var 54) (.var 61)),
    .asg 57 (.bin (.vec 3) (.bin (.vec 4) (.var 52) (.lit 1)) (.bin (.vec 5) (.var 52) (.lit 63))),
    .asg 66 (.bin (.vec 1) (.var 55) (.var 57)),
    .asg 2 (.bin (.vec 1) (.var 2) (.var 62))]

/-- part of `KeccakP1600times4_PermuteAll_24rounds` -/
def KeccakP1600times4_PermuteAll_24rounds.part51 : Stmt :=
  block [
    .asg 27 (.var 2),
    .asg 8 (.bin (.vec 1) (.var 8) (.var 63)),
    .asg 28 (.bin (.vec 3) (.bin (.vec 4) (.var 8) (.lit 44)) (.bin (.vec 5) (.var 8) (.lit 20))),
    .asg 14 (.bin (.vec 1) (.var 14) (.var 64)),
    .asg 29 (.bin (.vec 3) (.bin (.vec 4) (.var 14) (.lit 43)) (.bin (.vec 5) (.var 14) (.lit 21))),
    .asg 67 (.bin (.vec 1) (.var 27) (.bin (.vec 2) (.var 28) (.var 29))),
    .asg 67 (.bin (.vec 1) (.var 67) (.bin (.vec 7) (.ld 8 (.padd (.glob 14) (.lit 18) 8)) (.lit 0))),
    .asg 52 (.var 67),
    .asg 20 (.bin (.vec 1) (.var 20) (.var 65)),
    .asg 30 (.bin (.vec 3) (.bin (.vec 4) (.var 20) (.lit 21)) (.bin (.vec 5) (.var 20) (.lit 43))),
    .asg 68 (.bin (.vec 1) (.var 28) (.bin (.vec 2) (.var 29) (.var 30))),
    .asg 53 (.var 68),
    .asg 26 (.bin (.vec 1) (.var 26) (.var 66)),
    .asg 31 (.bin (.vec 3) (.bin (.vec 4) (.var 26) (.lit 14)) (.bin (.vec 5) (.var 26) (.lit 50))),
    .asg 69 (.bin (.vec 1) (.var 29) (.bin (.vec 2) (.var 30) (.var 31))),
    .asg 54 (.var 69),
    .asg 70 (.bin (.vec 1) (.var 30) (.bin (.vec 2) (.var 31) (.var 27))),
    .asg 55 (.var 70),
    .asg 71 (.bin (.vec 1) (.var 31) (.bin (.vec 2) (.var 27) (.var 28))),
    .asg 56 (.var 71),
    .asg 5 (.bin (.vec 1) (.var 5) (.var 65)),
    .asg 32 (.bin (.vec 3) (.bin (.vec 4) (.var 5) (.lit 28)) (.bin (.vec 5) (.var 5) (.lit 36))),
    .asg 11 (.bin (.vec 1) (.var 11) (.var 66)),
    .asg 33 (.bin (.vec 3) (.bin (.vec 4) (.var 11) (.lit 20)) (.bin (.vec 5) (.var 11) (.lit 44))),
    .asg 12 (.bin (.vec 1) (.var 12) (.var 62)),
    .asg 34 (.bin (.vec 3) (.bin (.vec 4) (.var 12) (.lit 3)) (.bin (.vec 5) (.var 12) (.lit 61))),
    .asg 72 (.bin (.vec 1) (.var 32) (.bin (.vec 2) (.var 33) (.var 34))),
    .asg 52 (.bin (.vec 1) (.var 52) (.var 72)),
    .asg 18 (.bin (.vec 1) (.var 18) (.var 63)),
    .asg 35 (.bin (.vec 3) (.bin (.vec 4) (.var 18) (.lit 45)) (.bin (.vec 5) (.var 18) (.lit 19))),
    .asg 73 (.bin (.vec 1) (.var 33) (.bin (.vec 2) (.var 34) (.var 35))),
    .asg 53 (.bin (.vec 1) (.var 53) (.var 73)),
    .asg 24 (.bin (.vec 1) (.var 24) (.var 64)),
    .asg 36 (.bin (.vec 3) (.bin (.vec 4) (.var 24) (.lit 61)) (.bin (.vec 5) (.var 24) (.lit 3))),
    .asg 74 (.bin (.vec 1) (.var 34) (.bin (.vec 2) (.var 35) (.var 36))),
    .asg 54 (.bin (.vec 1) (.var 54) (.var 74)),
    .asg 75 (.bin (.vec 1) (.var 35) (.bin (.vec 2) (.var 36) (.var 32))),
    .asg 55 (.bin (.vec 1) (.var 55) (.var 75)),
    .asg 76 (.bin (.vec 1) (.var 36) (.bin (.vec 2) (.var 32) (.var 33))),
    .asg 56 (.bin (.vec 1) (.var 56) (.var 76))]

/-- part of `KeccakP1600times4_PermuteAll_24rounds` -/
def KeccakP1600times4_PermuteAll_24rounds.part52 : Stmt :=
  block [
    .asg 3 (.bin (.vec 1) (.var 3) (.var 63)),
    .asg 37 (.bin (.vec 3) (.bin (.vec 4) (.var 3) (.lit 1)) (.bin (.vec 5) (.var 3) (.lit 63))),
    .asg 9 (.bin (.vec 1) (.var 9) (.var 64)),
    .asg 38 (.bin (.vec 3) (.bin (.vec 4) (.var 9) (.lit 6)) (.bin (.vec 5) (.var 9) (.lit 58))),
    .asg 15 (.bin (.vec 1) (.var 15) (.var 65)),
    .asg 39 (.bin (.vec 3) (.bin (.vec 4) (.var 15) (.lit 25)) (.bin (.vec 5) (.var 15) (.lit 39))),
    .asg 77 (.bin (.vec 1) (.var 37) (.bin (.vec 2) (.var 38) (.var 39))),
    .asg 52 (.bin (.vec 1) (.var 52) (.var 77)),
    .asg 21 (.bin (.vec 1) (.var 21) (.var 66)),
    .asg 40 (.bin (.vec 6) (.var 21) (.ld 32 (.glob 15))),
    .asg 78 (.bin (.vec 1) (.var 38) (.bin (.vec 2) (.var 39) (.var 40))),
    .asg 53 (.bin (.vec 1) (.var 53) (.var 78)),
    .asg 22 (.bin (.vec 1) (.var 22) (.var 62)),
    .asg 41 (.bin (.vec 3) (.bin (.vec 4) (.var 22) (.lit 18)) (.bin (.vec 5) (.var 22) (.lit 46))),
    .asg 79 (.bin (.vec 1) (.var 39) (.bin (.vec 2) (.var 40) (.var 41))),
    .asg 54 (.bin (.vec 1) (.var 54) (.var 79)),
    .asg 80 (.bin (.vec 1) (.var 40) (.bin (.vec 2) (.var 41) (.var 37))),
    .asg 55 (.bin (.vec 1) (.var 55) (.var 80)),
    .asg 81 (.bin (.vec 1) (.var 41) (.bin (.vec 2) (.var 37) (.var 38))),
    .asg 56 (.bin (.vec 1) (.var 56) (.var 81)),
    .asg 6 (.bin (.vec 1) (.var 6) (.var 66)),
    .asg 42 (.bin (.vec 3) (.bin (.vec 4) (.var 6) (.lit 27)) (.bin (.vec 5) (.var 6) (.lit 37))),
    .asg 7 (.bin (.vec 1) (.var 7) (.var 62)),
    .asg 43 (.bin (.vec 3) (.bin (.vec 4) (.var 7) (.lit 36)) (.bin (.vec 5) (.var 7) (.lit 28))),
    .asg 13 (.bin (.vec 1) (.var 13) (.var 63)),
    .asg 44 (.bin (.vec 3) (.bin (.vec 4) (.var 13) (.lit 10)) (.bin (.vec 5) (.var 13) (.lit 54))),
    .asg 82 (.bin (.vec 1) (.var 42) (.bin (.vec 2) (.var 43) (.var 44))),
    .asg 52 (.bin (.vec 1) (.var 52) (.var 82)),
    .asg 19 (.bin (.vec 1) (.var 19) (.var 64)),
    .asg 45 (.bin (.vec 3) (.bin (.vec 4) (.var 19) (.lit 15)) (.bin (.vec 5) (.var 19) (.lit 49))),
    .asg 83 (.bin (.vec 1) (.var 43) (.bin (.vec 2) (.var 44) (.var 45))),
    .asg 53 (.bin (.vec 1) (.var 53) (.var 83)),
    .asg 25 (.bin (.vec 1) (.var 25) (.var 65)),
    .asg 46 (.bin (.vec 6) (.var 25) (.ld 32 (.glob 16))),
    .asg 84 (.bin (.vec 1) (.var 44) (.bin (.vec 2) (.var 45) (.var 46))),
    .asg 54 (.bin (.vec 1) (.var 54) (.var 84)),
    .asg 85 (.bin (.vec 1) (.var 45) (.bin (.vec 2) (.var 46) (.var 42))),
    .asg 55 (.bin (.vec 1) (.var 55) (.var 85)),
    .asg 86 (.bin (.vec 1) (.var 46) (.bin (.vec 2) (.var 42) (.var 43))),
    .asg 56 (.bin (.vec 1) (.var 56) (.var 86))]

/-- part of `KeccakP1600times4_PermuteAll_24rounds` -/
def KeccakP1600times4_PermuteAll_24rounds.part53 : Stmt :=
  block [
    .asg 4 (.bin (.vec 1) (.var 4) (.var 64)),
    .asg 47 (.bin (.vec 3) (.bin (.vec 4) (.var 4) (.lit 62)) (.bin (.vec 5) (.var 4) (.lit 2))),
    .asg 10 (.bin (.vec 1) (.var 10) (.var 65)),
    .asg 48 (.bin (.vec 3) (.bin (.vec 4) (.var 10) (.lit 55)) (.bin (.vec 5) (.var 10) (.lit 9))),
    .asg 16 (.bin (.vec 1) (.var 16) (.var 66)),
    .asg 49 (.bin (.vec 3) (.bin (.vec 4) (.var 16) (.lit 39)) (.bin (.vec 5) (.var 16) (.lit 25))),
    .asg 87 (.bin (.vec 1) (.var 47) (.bin (.vec 2) (.var 48) (.var 49))),
    .asg 52 (.bin (.vec 1) (.var 52) (.var 87)),
    .asg 17 (.bin (.vec 1) (.var 17) (.var 62)),
    .asg 50 (.bin (.vec 3) (.bin (.vec 4) (.var 17) (.lit 41)) (.bin (.vec 5) (.var 17) (.lit 23))),
    .asg 88 (.bin (.vec 1) (.var 48) (.bin (.vec 2) (.var 49) (.var 50))),
    .asg 53 (.bin (.vec 1) (.var 53) (.var 88)),
    .asg 23 (.bin (.vec 1) (.var 23) (.var 63)),
    .asg 51 (.bin (.vec 3) (.bin (.vec 4) (.var 23) (.lit 2)) (.bin (.vec 5) (.var 23) (.lit 62))),
    .asg 89 (.bin (.vec 1) (.var 49) (.bin (.vec 2) (.var 50) (.var 51))),
    .asg 54 (.bin (.vec 1) (.var 54) (.var 89)),
    .asg 90 (.bin (.vec 1) (.var 50) (.bin (.vec 2) (.var 51) (.var 47))),
    .asg 55 (.bin (.vec 1) (.var 55) (.var 90)),
    .asg 91 (.bin (.vec 1) (.var 51) (.bin (.vec 2) (.var 47) (.var 48))),
    .asg 56 (.bin (.vec 1) (.var 56) (.var 91)),
    .asg 58 (.bin (.vec 3) (.bin (.vec 4) (.var 53) (.lit 1)) (.bin (.vec 5) (.var 53) (.lit 63))),
    .asg 62 (.bin (.vec 1) (.var 56) (.var 58)),
    .asg 59 (.bin (.vec 3) (.bin (.vec 4) (.var 54) (.lit 1)) (.bin (.vec 5) (.var 54) (.lit 63))),
    .asg 63 (.bin (.vec 1) (.var 52) (.var 59)),
    .asg 60 (.bin (.vec 3) (.bin (.vec 4) (.var 55) (.lit 1)) (.bin (.vec 5) (.var 55) (.lit 63))),
    .asg 64 (.bin (.vec 1) (.var 53) (.var 60)),
    .asg 61 (.bin (.vec 3) (.bin (.vec 4) (.var 56) (.lit 1)) (.bin (.vec 5) (.var 56) (.lit 63))),
    .asg 65 (.bin (.vec 1) (.var 54) (.var 61)),
    .asg 57 (.bin (.vec 3) (.bin (.vec 4) (.var 52) (.lit 1)) (.bin (.vec 5) (.var 52) (.lit 63))),
    .asg 66 (.bin (.vec 1) (.var 55) (.var 57)),
    .asg 67 (.bin (.vec 1) (.var 67) (.var 62)),
    .asg 27 (.var 67),
    .asg 73 (.bin (.vec 1) (.var 73) (.var 63)),
    .asg 28 (.bin (.vec 3) (.bin (.vec 4) (.var 73) (.lit 44)) (.bin (.vec 5) (.var 73) (.lit 20))),
    .asg 79 (.bin (.vec 1) (.var 79) (.var 64)),
    .asg 29 (.bin (.vec 3) (.bin (.vec 4) (.var 79) (.lit 43)) (.bin (.vec 5) (.var 79) (.lit 21))),
    .asg 2 (.bin (.vec 1) (.var 27) (.bin (.vec 2) (.var 28) (.var 29))),
    .asg 2 (.bin (.vec 1) (.var 2) (.bin (.vec 7) (.ld 8 (.padd (.glob 14) (.lit 19) 8)) (.lit 0))),
    .asg 52 (.var 2),
    .asg 85 (.bin (.vec 1) (.var 85) (.var 65))]

/-- part of `KeccakP1600times4_PermuteAll_24rounds` -/
def KeccakP1600times4_PermuteAll_24rounds.part54 : Stmt :=
  block [
    .asg 30 (.bin (.vec 3) (.bin (.vec 4) (.var 85) (.lit 21)) (.bin (.vec 5) (.var 85) (.lit 43))),
    .asg 3 (.bin (.vec 1) (.var 28) (.bin (.vec 2) (.var 29) (.var 30))),
    .asg 53 (.var 3),
    .asg 91 (.bin (.vec 1) (.var 91) (.var 66)),
    .asg 31 (.bin (.vec 3) (.bin (.vec 4) (.var 91) (.lit 14)) (.bin (.vec 5) (.var 91) (.lit 50))),
    .asg 4 (.bin (.vec 1) (.var 29) (.bin (.vec 2) (.var 30) (.var 31))),
    .asg 54 (.var 4),
    .asg 5 (.bin (.vec 1) (.var 30) (.bin (.vec 2) (.var 31) (.var 27))),
    .asg 55 (.var 5),
    .asg 6 (.bin (.vec 1) (.var 31) (.bin (.vec 2) (.var 27) (.var 28))),
    .asg 56 (.var 6),
    .asg 70 (.bin (.vec 1) (.var 70) (.var 65)),
    .asg 32 (.bin (.vec 3) (.bin (.vec 4) (.var 70) (.lit 28)) (.bin (.vec 5) (.var 70) (.lit 36))),
    .asg 76 (.bin (.vec 1) (.var 76) (.var 66)),
    .asg 33 (.bin (.vec 3) (.bin (.vec 4) (.var 76) (.lit 20)) (.bin (.vec 5) (.var 76) (.lit 44))),
    .asg 77 (.bin (.vec 1) (.var 77) (.var 62)),
    .asg 34 (.bin (.vec 3) (.bin (.vec 4) (.var 77) (.lit 3)) (.bin (.vec 5) (.var 77) (.lit 61))),
    .asg 7 (.bin (.vec 1) (.var 32) (.bin (.vec 2) (.var 33) (.var 34))),
    .asg 52 (.bin (.vec 1) (.var 52) (.var 7)),
    .asg 83 (.bin (.vec 1) (.var 83) (.var 63)),
    .asg 35 (.bin (.vec 3) (.bin (.vec 4) (.var 83) (.lit 45)) (.bin (.vec 5) (.var 83) (.lit 19))),
    .asg 8 (.bin (.vec 1) (.var 33) (.bin (.vec 2) (.var 34) (.var 35))),
    .asg 53 (.bin (.vec 1) (.var 53) (.var 8)),
    .asg 89 (.bin (.vec 1) (.var 89) (.var 64)),
    .asg 36 (.bin (.vec 3) (.bin (.vec 4) (.var 89) (.lit 61)) (.bin (.vec 5) (.var 89) (.lit 3))),
    .asg 9 (.bin (.vec 1) (.var 34) (.bin (.vec 2) (.var 35) (.var 36))),
    .asg 54 (.bin (.vec 1) (.var 54) (.var 9)),
    .asg 10 (.bin (.vec 1) (.var 35) (.bin (.vec 2) (.var 36) (.var 32))),
    .asg 55 (.bin (.vec 1) (.var 55) (.var 10)),
    .asg 11 (.bin (.vec 1) (.var 36) (.bin (.vec 2) (.var 32) (.var 33))),
    .asg 56 (.bin (.vec 1) (.var 56) (.var 11)),
    .asg 68 (.bin (.vec 1) (.var 68) (.var 63)),
    .asg 37 (.bin (.vec 3) (.bin (.vec 4) (.var 68) (.lit 1)) (.bin (.vec 5) (.var 68) (.lit 63))),
    .asg 74 (.bin (.vec 1) (.var 74) (.var 64)),
    .asg 38 (.bin (.vec 3) (.bin (.vec 4) (.var 74) (.lit 6)) (.bin (.vec 5) (.var 74) (.lit 58))),
    .asg 80 (.bin (.vec 1) (.var 80) (.var 65)),
    .asg 39 (.bin (.vec 3) (.bin (.vec 4) (.var 80) (.lit 25)) (.bin (.vec 5) (.var 80) (.lit 39))),
    .asg 12 (.bin (.vec 1) (.var 37) (.bin (.vec 2) (.var 38) (.var 39))),
    .asg 52 (.bin (.vec 1) (.var 52) (.var 12)),
    .asg 86 (.bin (.vec 1) (.var 86) (.var 66))]

/-- part of `KeccakP1600times4_PermuteAll_24rounds` -/
def KeccakP1600times4_PermuteAll_24rounds.part55 : Stmt :=
  block [
    .asg 40 (.bin (.vec 6) (.var 86) (.ld 32 (.glob 15))),
    .asg 13 (.bin (.vec 1) (.var 38) (.bin (.vec 2) (.var 39) (.var 40))),
    .asg 53 (.bin (.vec 1) (.var 53) (.var 13)),
    .asg 87 (.bin (.vec 1) (.var 87) (.var 62)),
    .asg 41 (.bin (.vec 3) (.bin (.vec 4) (.var 87) (.lit 18)) (.bin (.vec 5) (.var 87) (.lit 46))),
    .asg 14 (.bin (.vec 1) (.var 39) (.bin (.vec 2) (.var 40) (.var 41))),
    .asg 54 (.bin (.vec 1) (.var 54) (.var 14)),
    .asg 15 (.bin (.vec 1) (.var 40) (.bin (.vec 2) (.var 41) (.var 37))),
    .asg 55 (.bin (.vec 1) (.var 55) (.var 15)),
    .asg 16 (.bin (.vec 1) (.var 41) (.bin (.vec 2) (.var 37) (.var 38))),
    .asg 56 (.bin (.vec 1) (.var 56) (.var 16)),
    .asg 71 (.bin (.vec 1) (.var 71) (.var 66)),
    .asg 42 (.bin (.vec 3) (.bin (.vec 4) (.var 71) (.lit 27)) (.bin (.vec 5) (.var 71) (.lit 37))),
    .asg 72 (.bin (.vec 1) (.var 72) (.var 62)),
    .asg 43 (.bin (.vec 3) (.bin (.vec 4) (.var 72) (.lit 36)) (.bin (.vec 5) (.var 72) (.lit 28))),
    .asg 78 (.bin (.vec 1) (.var 78) (.var 63)),
    .asg 44 (.bin (.vec 3) (.bin (.vec 4) (.var 78) (.lit 10)) (.bin (.vec 5) (.var 78) (.lit 54))),
    .asg 17 (.bin (.vec 1) (.var 42) (.bin (.vec 2) (.var 43) (.var 44))),
    .asg 52 (.bin (.vec 1) (.var 52) (.var 17)),
    .asg 84 (.bin (.vec 1) (.var 84) (.var 64)),
    .asg 45 (.bin (.vec 3) (.bin (.vec 4) (.var 84) (.lit 15)) (.bin (.vec 5) (.var 84) (.lit 49))),
    .asg 18 (.bin (.vec 1) (.var 43) (.bin (.vec 2) (.var 44) (.var 45))),
    .asg 53 (.bin (.vec 1) (.var 53) (.var 18)),
    .asg 90 (.bin (.vec 1) (.var 90) (.var 65)),
    .asg 46 (.bin (.vec 6) (.var 90) (.ld 32 (.glob 16))),
    .asg 19 (.bin (.vec 1) (.var 44) (.bin (.vec 2) (.var 45) (.var 46))),
    .asg 54 (.bin (.vec 1) (.var 54) (.var 19)),
    .asg 20 (.bin (.vec 1) (.var 45) (.bin (.vec 2) (.var 46) (.var 42))),
    .asg 55 (.bin (.vec 1) (.var 55) (.var 20)),
    .asg 21 (.bin (.vec 1) (.var 46) (.bin (.vec 2) (.var 42) (.var 43))),
    .asg 56 (.bin (.vec 1) (.var 56) (.var 21)),
    .asg 69 (.bin (.vec 1) (.var 69) (.var 64)),
    .asg 47 (.bin (.vec 3) (.bin (.vec 4) (.var 69) (.lit 62)) (.bin (.vec 5) (.var 69) (.lit 2))),
    .asg 75 (.bin (.vec 1) (.var 75) (.var 65)),
    .asg 48 (.bin (.vec 3) (.bin (.vec 4) (.var 75) (.lit 55)) (.bin (.vec 5) (.var 75) (.lit 9))),
    .asg 81 (.bin (.vec 1) (.var 81) (.var 66)),
    .asg 49 (.bin (.vec 3) (.bin (.vec 4) (.var 81) (.lit 39)) (.bin (.vec 5) (.var 81) (.lit 25))),
    .asg 22 (.bin (.vec 1) (.var 47) (.bin (.vec 2) (.var 48) (.var 49))),
    .asg 52 (.bin (.vec 1) (.var 52) (.var 22)),
    .asg 82 (.bin (.vec 1) (.var 82) (.var 62))]

/-- part of `KeccakP1600times4_PermuteAll_24rounds` -/
def KeccakP1600times4_PermuteAll_24rounds.part56 : Stmt :=
  block [
    .asg 50 (.bin (.vec 3) (.bin (.vec 4) (.var 82) (.lit 41)) (.bin (.vec 5) (.var 82) (.lit 23))),
    .asg 23 (.bin (.vec 1) (.var 48) (.bin (.vec 2) (.var 49) (.var 50))),
    .asg 53 (.bin (.vec 1) (.var 53) (.var 23)),
    .asg 88 (.bin (.vec 1) (.var 88) (.var 63)),
    .asg 51 (.bin (.vec 3) (.bin (.vec 4) (.var 88) (.lit 2)) (.bin (.vec 5) (.var 88) (.lit 62))),
    .asg 24 (.bin (.vec 1) (.var 49) (.bin (.vec 2) (.var 50) (.var 51))),
    .asg 54 (.bin (.vec 1) (.var 54) (.var 24)),
    .asg 25 (.bin (.vec 1) (.var 50) (.bin (.vec 2) (.var 51) (.var 47))),
    .asg 55 (.bin (.vec 1) (.var 55) (.var 25)),
    .asg 26 (.bin (.vec 1) (.var 51) (.bin (.vec 2) (.var 47) (.var 48))),
    .asg 56 (.bin (.vec 1) (.var 56) (.var 26)),
    .asg 58 (.bin (.vec 3) (.bin (.vec 4) (.var 53) (.lit 1)) (.bin (.vec 5) (.var 53) (.lit 63))),
    .asg 62 (.bin (.vec 1) (.var 56) (.var 58)),
    .asg 59 (.bin (.vec 3) (.bin (.vec 4) (.var 54) (.lit 1)) (.bin (.vec 5) (.var 54) (.lit 63))),
    .asg 63 (.bin (.vec 1) (.var 52) (.var 59)),
    .asg 60 (.bin (.vec 3) (.bin (.vec 4) (.var 55) (.lit 1)) (.bin (.vec 5) (.var 55) (.lit 63))),
    .asg 64 (.bin (.vec 1) (.var 53) (.var 60)),
    .asg 61 (.bin (.vec 3) (.bin (.vec 4) (.var 56) (.lit 1)) (.bin (.vec 5) (.var 56) (.lit 63))),
    .asg 65 (.bin (.vec 1) (.var 54) (.var 61)),
    .asg 57 (.bin (.vec 3) (.bin (.vec 4) (.var 52) (.lit 1)) (.bin (.vec 5) (.var 52) (.lit 63))),
    .asg 66 (.bin (.vec 1) (.var 55) (.var 57)),
    .asg 2 (.bin (.vec 1) (.var 2) (.var 62)),
    .asg 27 (.var 2),
    .asg 8 (.bin (.vec 1) (.var 8) (.var 63)),
    .asg 28 (.bin (.vec 3) (.bin (.vec 4) (.var 8) (.lit 44)) (.bin (.vec 5) (.var 8) (.lit 20))),
    .asg 14 (.bin (.vec 1) (.var 14) (.var 64)),
    .asg 29 (.bin (.vec 3) (.bin (.vec 4) (.var 14) (.lit 43)) (.bin (.vec 5) (.var 14) (.lit 21))),
    .asg 67 (.bin (.vec 1) (.var 27) (.bin (.vec 2) (.var 28) (.var 29))),
    .asg 67 (.bin (.vec 1) (.var 67) (.bin (.vec 7) (.ld 8 (.padd (.glob 14) (.lit 20) 8)) (.lit 0))),
    .asg 52 (.var 67),
    .asg 20 (.bin (.vec 1) (.var 20) (.var 65)),
    .asg 30 (.bin (.vec 3) (.bin (.vec 4) (.var 20) (.lit 21)) (.bin (.vec 5) (.var 20) (.lit 43))),
    .asg 68 (.bin (.vec 1) (.var 28) (.bin (.vec 2) (.var 29) (.var 30))),
    .asg 53 (.var 68),
    .asg 26 (.bin (.vec 1) (.var 26) (.var 66)),
    .asg 31 (.bin (.vec 3) (.bin (.vec 4) (.var 26) (.lit 14)) (.bin (.vec 5) (.var 26) (.lit 50))),
    .asg 69 (.bin (.vec 1) (.var 29) (.bin (.vec 2) (.var 30) (.var 31))),
    .asg 54 (.var 69),
    .asg 70 (.bin (.vec 1) (.var 30) (.bin (.vec 2) (.var 31) (.var 27))),
    .asg 55 (.var 70)]

/-- part of `KeccakP1600times4_PermuteAll_24rounds` -/
def KeccakP1600times4_PermuteAll_24rounds.part57 : Stmt :=
  block [
    .asg 71 (.bin (.vec 1) (.var 31) (.bin (.vec 2) (.var 27) (.var 28))),
    .asg 56 (.var 71),
    .asg 5 (.bin (.vec 1) (.var 5) (.var 65)),
    .asg 32 (.bin (.vec 3) (.bin (.vec 4) (.var 5) (.lit 28)) (.bin (.vec 5) (.var 5) (.lit 36))),
    .asg 11 (.bin (.vec 1) (.var 11) (.var 66)),
    .asg 33 (.bin (.vec 3) (.bin (.vec 4) (.var 11) (.lit 20)) (.bin (.vec 5) (.var 11) (.lit 44))),
    .asg 12 (.bin (.vec 1) (.var 12) (.var 62)),
    .asg 34 (.bin (.vec 3) (.bin (.vec 4) (.var 12) (.lit 3)) (.bin (.vec 5) (.var 12) (.lit 61))),
    .asg 72 (.bin (.vec 1) (.var 32) (.bin (.vec 2) (.var 33) (.var 34))),
    .asg 52 (.bin (.vec 1) (.var 52) (.var 72)),
    .asg 18 (.bin (.vec 1) (.var 18) (.var 63)),
    .asg 35 (.bin (.vec 3) (.bin (.vec 4) (.var 18) (.lit 45)) (.bin (.vec 5) (.var 18) (.lit 19))),
    .asg 73 (.bin (.vec 1) (.var 33) (.bin (.vec 2) (.var 34) (.var 35))),
    .asg 53 (.bin (.vec 1) (.var 53) (.var 73)),
    .asg 24 (.bin (.vec 1) (.var 24) (.var 64)),
    .asg 36 (.bin (.vec 3) (.bin (.vec 4) (.var 24) (.lit 61)) (.bin (.vec 5) (.var 24) (.lit 3))),
    .asg 74 (.bin (.vec 1) (.var 34) (.bin (.vec 2) (.var 35) (.var 36))),
    .asg 54 (.bin (.vec 1) (.var 54) (.var 74)),
    .asg 75 (.bin (.vec 1) (.var 35) (.bin (.vec 2) (.var 36) (.var 32))),
    .asg 55 (.bin (.vec 1) (.var 55) (.var 75)),
    .asg 76 (.bin (.vec 1) (.var 36) (.bin (.vec 2) (.var 32) (.var 33))),
    .asg 56 (.bin (.vec 1) (.var 56) (.var 76)),
    .asg 3 (.bin (.vec 1) (.var 3) (.var 63)),
    .asg 37 (.bin (.vec 3) (.bin (.vec 4) (.var 3) (.lit 1)) (.bin (.vec 5) (.var 3) (.lit 63))),
    .asg 9 (.bin (.vec 1) (.var 9) (.var 64)),
    .asg 38 (.bin (.vec 3) (.bin (.vec 4) (.var 9) (.lit 6)) (.bin (.vec 5) (.var 9) (.lit 58))),
    .asg 15 (.bin (.vec 1) (.var 15) (.var 65)),
    .asg 39 (.bin (.vec 3) (.bin (.vec 4) (.var 15) (.lit 25)) (.bin (.vec 5) (.var 15) (.lit 39))),
    .asg 77 (.bin (.vec 1) (.var 37) (.bin (.vec 2) (.var 38) (.var 39))),
    .asg 52 (.bin (.vec 1) (.var 52) (.var 77)),
    .asg 21 (.bin (.vec 1) (.var 21) (.var 66)),
    .asg 40 (.bin (.vec 6) (.var 21) (.ld 32 (.glob 15))),
    .asg 78 (.bin (.vec 1) (.var 38) (.bin (.vec 2) (.var 39) (.var 40))),
    .asg 53 (.bin (.vec 1) (.var 53) (.var 78)),
    .asg 22 (.bin (.vec 1) (.var 22) (.var 62)),
    .asg 41 (.bin (.vec 3) (.bin (.vec 4) (.var 22) (.lit 18)) (.bin (.vec 5) (.var 22) (.lit 46))),
    .asg 79 (.bin (.vec 1) (.var 39) (.bin (.vec 2) (.var 40) (.var 41))),
    .asg 54 (.bin (.vec 1) (.var 54) (.var 79)),
    .asg 80 (.bin (.vec 1) (.var 40) (.bin (.vec 2) (.var 41) (.var 37))),
    .asg 55 (.bin (.vec 1) (.var 55) (.var 80))]

/-- part of `KeccakP1600times4_PermuteAll_24rounds` -/
def KeccakP1600times4_PermuteAll_24rounds.part58 : Stmt :=
  block [
    .asg 81 (.bin (.vec 1) (.var 41) (.bin (.vec 2) (.var 37) (.var 38))),
    .asg 56 (.bin (.vec 1) (.var 56) (.var 81)),
    .asg 6 (.bin (.vec 1) (.var 6) (.var 66)),
    .asg 42 (.bin (.vec 3) (.bin (.vec 4) (.var 6) (.lit 27)) (.bin (.vec 5) (.var 6) (.lit 37))),
    .asg 7 (.bin (.vec 1) (.var 7) (.var 62)),
    .asg 43 (.bin (.vec 3) (.bin (.vec 4) (.var 7) (.lit 36)) (.bin (.vec 5) (.var 7) (.lit 28))),
    .asg 13 (.bin (.vec 1) (.var 13) (.var 63)),
    .asg 44 (.bin (.vec 3) (.bin (.vec 4) (.var 13) (.lit 10)) (.bin (.vec 5) (.var 13) (.lit 54))),
    .asg 82 (.bin (.vec 1) (.var 42) (.bin (.vec 2) (.var 43) (.var 44))),
    .asg 52 (.bin (.vec 1) (.var 52) (.var 82)),
    .asg 19 (.bin (.vec 1) (.var 19) (.var 64)),
    .asg 45 (.bin (.vec 3) (.bin (.vec 4) (.var 19) (.lit 15)) (.bin (.vec 5) (.var 19) (.lit 49))),
    .asg 83 (.bin (.vec 1) (.var 43) (.bin (.vec 2) (.var 44) (.var 45))),
    .asg 53 (.bin (.vec 1) (.var 53) (.var 83)),
    .asg 25 (.bin (.vec 1) (.var 25) (.var 65)),
    .asg 46 (.bin (.vec 6) (.var 25) (.ld 32 (.glob 16))),
    .asg 84 (.bin (.vec 1) (.var 44) (.bin (.vec 2) (.var 45) (.var 46))),
    .asg 54 (.bin (.vec 1) (.var 54) (.var 84)),
    .asg 85 (.bin (.vec 1) (.var 45) (.bin (.vec 2) (.var 46) (.var 42))),
    .asg 55 (.bin (.vec 1) (.var 55) (.var 85)),
    .asg 86 (.bin (.vec 1) (.var 46) (.bin (.vec 2) (.var 42) (.var 43))),
    .asg 56 (.bin (.vec 1) (.var 56) (.var 86)),
    .asg 4 (.bin (.vec 1) (.var 4) (.var 64)),
    .asg 47 (.bin (.vec 3) (.bin (.vec 4) (.var 4) (.lit 62)) (.bin (.vec 5) (.var 4) (.lit 2))),
    .asg 10 (.bin (.vec 1) (.var 10) (.var 65)),
    .asg 48 (.bin (.vec 3) (.bin (.vec 4) (.var 10) (.lit 55)) (.bin (.vec 5) (.var 10) (.lit 9))),
    .asg 16 (.bin (.vec 1) (.var 16) (.var 66)),
    .asg 49 (.bin (.vec 3) (.bin (.vec 4) (.var 16) (.lit 39)) (.bin (.vec 5) (.var 16) (.lit 25))),
    .asg 87 (.bin (.vec 1) (.var 47) (.bin (.vec 2) (.var 48) (.var 49))),
    .asg 52 (.bin (.vec 1) (.var 52) (.var 87)),
    .asg 17 (.bin (.vec 1) (.var 17) (.var 62)),
    .asg 50 (.bin (.vec 3) (.bin (.vec 4) (.var 17) (.lit 41)) (.bin (.vec 5) (.var 17) (.lit 23))),
    .asg 88 (.bin (.vec 1) (.var 48) (.bin (.vec 2) (.var 49) (.var 50))),
    .asg 53 (.bin (.vec 1) (.var 53) (.var 88)),
    .asg 23 (.bin (.vec 1) (.var 23) (.var 63)),
    .asg 51 (.bin (.vec 3) (.bin (.vec 4) (.var 23) (.lit 2)) (.bin (.vec 5) (.var 23) (.lit 62))),
    .asg 89 (.bin (.vec 1) (.var 49) (.bin (.vec 2) (.var 50) (.var 51))),
    .asg 54 (.bin (.vec 1) (.var 54) (.var 89)),
    .asg 90 (.bin (.vec 1) (.var 50) (.bin (.vec 2) (.var 51) (.var 47))),
    .asg 55 (.bin (.vec 1) (.var 55) (.var 90))]

/-- part of `KeccakP1600times4_PermuteAll_24rounds` -/
def KeccakP1600times4_PermuteAll_24rounds.part59 : Stmt :=
  block [
    .asg 91 (.bin (.vec 1) (.var 51) (.bin (.vec 2) (.var 47) (.var 48))),
    .asg 56 (.bin (.vec 1) (.var 56) (.var 91)),
    .asg 58 (.bin (.vec 3) (.bin (.vec 4) (.var 53) (.lit 1)) (.bin (.vec 5) (.var 53) (.lit 63))),
    .asg 62 (.bin (.vec 1) (.var 56) (.var 58)),
    .asg 59 (.bin (.vec 3) (.bin (.vec 4) (.var 54) (.lit 1)) (.bin (.vec 5) (.var 54) (.lit 63))),
    .asg 63 (.bin (.vec 1) (.var 52) (.var 59)),
    .asg 60 (.bin (.vec 3) (.bin (.vec 4) (.var 55) (.lit 1)) (.bin (.vec 5) (.var 55) (.lit 63))),
    .asg 64 (.bin (.vec 1) (.var 53) (.var 60)),
    .asg 61 (.bin (.vec 3) (.bin (.vec 4) (.var 56) (.lit 1)) (.bin (.vec 5) (.var 56) (.lit 63))),
    .asg 65 (.bin (.vec 1) (.var 54) (.var 61)),
    .asg 57 (.bin (.vec 3) (.bin (.vec 4) (.var 52) (.lit 1)) (.bin (.vec 5) (.var 52) (.lit 63))),
    .asg 66 (.bin (.vec 1) (.var 55) (.var 57)),
    .asg 67 (.bin (.vec 1) (.var 67) (.var 62)),
    .asg 27 (.var 67),
    .asg 73 (.bin (.vec 1) (.var 73) (.var 63)),
    .asg 28 (.bin (.vec 3) (.bin (.vec 4) (.var 73) (.lit 44)) (.bin (.vec 5) (.var 73) (.lit 20))),
    .asg 79 (.bin (.vec 1) (.var 79) (.var 64)),
    .asg 29 (.bin (.vec 3) (.bin (.vec 4) (.var 79) (.lit 43)) (.bin (.vec 5) (.var 79) (.lit 21))),
    .asg 2 (.bin (.vec 1) (.var 27) (.bin (.vec 2) (.var 28) (.var 29))),
    .asg 2 (.bin (.vec 1) (.var 2) (.bin (.vec 7) (.ld 8 (.padd (.glob 14) (.lit 21) 8)) (.lit 0))),
    .asg 52 (.var 2),
    .asg 85 (.bin (.vec 1) (.var 85) (.var 65)),
    .asg 30 (.bin (.vec 3) (.bin (.vec 4) (.var 85) (.lit 21)) (.bin (.vec 5) (.var 85) (.lit 43))),
    .asg 3 (.bin (.vec 1) (.var 28) (.bin (.vec 2) (.var 29) (.var 30))),
    .asg 53 (.var 3),
    .asg 91 (.bin (.vec 1) (.var 91) (.var 66)),
    .asg 31 (.bin (.vec 3) (.bin (.vec 4) (.var 91) (.lit 14)) (.bin (.vec 5) (.var 91) (.lit 50))),
    .asg 4 (.bin (.vec 1) (.var 29) (.bin (.vec 2) (.var 30) (.var 31))),
    .asg 54 (.var 4),
    .asg 5 (.bin (.vec 1) (.var 30) (.bin (.vec 2) (.var 31) (.var 27))),
    .asg 55 (.var 5),
    .asg 6 (.bin (.vec 1) (.var 31) (.bin (.vec 2) (.var 27) (.var 28))),
    .asg 56 (.var 6),
    .asg 70 (.bin (.vec 1) (.var 70) (.var 65)),
    .asg 32 (.bin (.vec 3) (.bin (.vec 4) (.var 70) (.lit 28)) (.bin (.vec 5) (.var 70) (.lit 36))),
    .asg 76 (.bin (.vec 1) (.var 76) (.var 66)),
    .asg 33 (.bin (.vec 3) (.bin (.vec 4) (.var 76) (.lit 20)) (.bin (.vec 5) (.var 76) (.lit 44))),
    .asg 77 (.bin (.vec 1) (.var 77) (.var 62)),
    .asg 34 (.bin (.vec 3) (.bin (.vec 4) (.var 77) (.lit 3)) (.bin (.vec 5) (.var 77) (.lit 61))),
    .asg 7 (.bin (.vec 1) (.var 32) (.bin (.vec 2) (.var 33) (.var 34)))]

/-- part of `KeccakP1600times4_PermuteAll_24rounds` -/
def KeccakP1600times4_PermuteAll_24rounds.part60 : Stmt :=
  block [
    .asg 52 (.bin (.vec 1) (.var 52) (.var 7)),
    .asg 83 (.bin (.vec 1) (.var 83) (.var 63)),
    .asg 35 (.bin (.vec 3) (.bin (.vec 4) (.var 83) (.lit 45)) (.bin (.vec 5) (.var 83) (.lit 19))),
    .asg 8 (.bin (.vec 1) (.var 33) (.bin (.vec 2) (.var 34) (.var 35))),
    .asg 53 (.bin (.vec 1) (.var 53) (.var 8)),
    .asg 89 (.bin (.vec 1) (.var 89) (.var 64)),
    .asg 36 (.bin (.vec 3) (.bin (.vec 4) (.var 89) (.lit 61)) (.bin (.vec 5) (.var 89) (.lit 3))),
    .asg 9 (.bin (.vec 1) (.var 34) (.bin (.vec 2) (.var 35) (.var 36))),
    .asg 54 (.bin (.vec 1) (.var 54) (.var 9)),
    .asg 10 (.bin (.vec 1) (.var 35) (.bin (.vec 2) (.var 36) (.var 32))),
    .asg 55 (.bin (.vec 1) (.var 55) (.var 10)),
    .asg 11 (.bin (.vec 1) (.var 36) (.bin (.vec 2) (.var 32) (.var 33))),
    .asg 56 (.bin (.vec 1) (.var 56) (.var 11)),
    .asg 68 (.bin (.vec 1) (.var 68) (.var 63)),
    .asg 37 (.bin (.vec 3) (.bin (.vec 4) (.var 68) (.lit 1)) (.bin (.vec 5) (.var 68) (.lit 63))),
    .asg 74 (.bin (.vec 1) (.var 74) (.var 64)),
    .asg 38 (.bin (.vec 3) (.bin (.vec 4) (.var 74) (.lit 6)) (.bin (.vec 5) (.var 74) (.lit 58))),
    .asg 80 (.bin (.vec 1) (.var 80) (.var 65)),
    .asg 39 (.bin (.vec 3) (.bin (.vec 4) (.var 80) (.lit 25)) (.bin (.vec 5) (.var 80) (.lit 39))),
    .asg 12 (.bin (.vec 1) (.var 37) (.bin (.vec 2) (.var 38) (.var 39))),
    .asg 52 (.bin (.vec 1) (.var 52) (.var 12)),
    .asg 86 (.bin (.vec 1) (.var 86) (.var 66)),
    .asg 40 (.bin (.vec 6) (.var 86) (.ld 32 (.glob 15))),
    .asg 13 (.bin (.vec 1) (.var 38) (.bin (.vec 2) (.var 39) (.var 40))),
    .asg 53 (.bin (.vec 1) (.var 53) (.var 13)),
    .asg 87 (.bin (.vec 1) (.var 87) (.var 62)),
    .asg 41 (.bin (.vec 3) (.bin (.vec 4) (.var 87) (.lit 18)) (.bin (.vec 5) (.var 87) (.lit 46))),
    .asg 14 (.bin (.vec 1) (.var 39) (.bin (.vec 2) (.var 40) (.var 41))),
    .asg 54 (.bin (.vec 1) (.var 54) (.var 14)),
    .asg 15 (.bin (.vec 1) (.var 40) (.bin (.vec 2) (.var 41) (.var 37))),
    .asg 55 (.bin (.vec 1) (.var 55) (.var 15)),
    .asg 16 (.bin (.vec 1) (.var 41) (.bin (.vec 2) (.var 37) (.var 38))),
    .asg 56 (.bin (.vec 1) (.var 56) (.var 16)),
    .asg 71 (.bin (.vec 1) (.var 71) (.var 66)),
    .asg 42 (.bin (.vec 3) (.bin (.vec 4) (.var 71) (.lit 27)) (.bin (.vec 5) (.var 71) (.lit 37))),
    .asg 72 (.bin (.vec 1) (.var 72) (.var 62)),
    .asg 43 (.bin (.vec 3) (.bin (.vec 4) (.var 72) (.lit 36)) (.bin (.vec 5) (.var 72) (.lit 28))),
    .asg 78 (.bin (.vec 1) (.var 78) (.var 63)),
    .asg 44 (.bin (.vec 3) (.bin (.vec 4) (.var 78) (.lit 10)) (.bin (.vec 5) (.var 78) (.lit 54))),
    .asg 17 (.bin (.vec 1) (.var 42) (.bin (.vec 2) (.var 43) (.var 44)))]

/-- part of `KeccakP1600times4_PermuteAll_24rounds` -/
def KeccakP1600times4_PermuteAll_24rounds.part61 : Stmt :=
  block [
    .asg 52 (.bin (.vec 1) (.var 52) (.var 17)),
    .asg 84 (.bin (.vec 1) (.var 84) (.var 64)),
    .asg 45 (.bin (.vec 3) (.bin (.vec 4) (.var 84) (.lit 15)) (.bin (.vec 5) (.var 84) (.lit 49))),
    .asg 18 (.bin (.vec 1) (.var 43) (.bin (.vec 2) (.var 44) (.var 45))),
    .asg 53 (.bin (.vec 1) (.var 53) (.var 18)),
    .asg 90 (.bin (.vec 1) (.var 90) (.var 65)),
    .asg 46 (.bin (.vec 6) (.var 90) (.ld 32 (.glob 16))),
    .asg 19 (.bin (.vec 1) (.var 44) (.bin (.vec 2) (.var 45) (.var 46))),
    .asg 54 (.bin (.vec 1) (.var 54) (.var 19)),
    .asg 20 (.bin (.vec 1) (.var 45) (.bin (.vec 2) (.var 46) (.var 42))),
    .asg 55 (.bin (.vec 1) (.var 55) (.var 20)),
    .asg 21 (.bin (.vec 1) (.var 46) (.bin (.vec 2) (.var 42) (.var 43))),
    .asg 56 (.bin (.vec 1) (.var 56) (.var 21)),
    .asg 69 (.bin (.vec 1) (.var 69) (.var 64)),
    .asg 47 (.bin (.vec 3) (.bin (.vec 4) (.var 69) (.lit 62)) (.bin (.vec 5) (.var 69) (.lit 2))),
    .asg 75 (.bin (.vec 1) (.var 75) (.var 65)),
    .asg 48 (.bin (.vec 3) (.bin (.vec 4) (.var 75) (.lit 55)) (.bin (.vec 5) (.var 75) (.lit 9))),
    .asg 81 (.bin (.vec 1) (.var 81) (.var 66)),
    .asg 49 (.bin (.vec 3) (.bin (.vec 4) (.var 81) (.lit 39)) (.bin (.vec 5) (.var 81) (.lit 25))),
    .asg 22 (.bin (.vec 1) (.var 47) (.bin (.vec 2) (.var 48) (.var 49))),
    .asg 52 (.bin (.vec 1) (.var 52) (.var 22)),
    .asg 82 (.bin (.vec 1) (.var 82) (.var 62)),
    .asg 50 (.bin (.vec 3) (.bin (.vec 4) (.var 82) (.lit 41)) (.bin (.vec 5) (.var 82) (.lit 23))),
    .asg 23 (.bin (.vec 1) (.var 48) (.bin (.vec 2) (.var 49) (.var 50))),
    .asg 53 (.bin (.vec 1) (.var 53) (.var 23)),
    .asg 88 (.bin (.vec 1) (.var 88) (.var 63)),
    .asg 51 (.bin (.vec 3) (.bin (.vec 4) (.var 88) (.lit 2)) (.bin (.vec 5) (.var 88) (.lit 62))),
    .asg 24 (.bin (.vec 1) (.var 49) (.bin (.vec 2) (.var 50) (.var 51))),
    .asg 54 (.bin (.vec 1) (.var 54) (.var 24)),
    .asg 25 (.bin (.vec 1) (.var 50) (.bin (.vec 2) (.var 51) (.var 47))),
    .asg 55 (.bin (.vec 1) (.var 55) (.var 25)),
    .asg 26 (.bin (.vec 1) (.var 51) (.bin (.vec 2) (.var 47) (.var 48))),
    .asg 56 (.bin (.vec 1) (.var 56) (.var 26)),
    .asg 58 (.bin (.vec 3) (.bin (.vec 4) (.var 53) (.lit 1)) (.bin (.vec 5) (.var 53) (.lit 63))),
    .asg 62 (.bin (.vec 1) (.var 56) (.var 58)),
    .asg 59 (.bin (.vec 3) (.bin (.vec 4) (.var 54) (.lit 1)) (.bin (.vec 5) (.var 54) (.lit 63))),
    .asg 63 (.bin (.vec 1) (.var 52) (.var 59)),
    .asg 60 (.bin (.vec 3) (.bin (.vec 4) (.var 55) (.lit 1)) (.bin (.vec 5) (.var 55) (.lit 63))),
    .asg 64 (.bin (.vec 1) (.var 53) (.var 60)),
    .asg 61 (.bin (.vec 3) (.bin (.vec 4) (.var 56) (.lit 1)) (.bin (.vec 5) (.var 56) (.lit 63)))]

/-- part of `KeccakP1600times4_PermuteAll_24rounds` -/
def KeccakP1600times4_PermuteAll_24rounds.part62 : Stmt :=
  block [
    .asg 65 (.bin (.vec 1) (.var 54) (.var 61)),
    .asg 57 (.bin (.vec 3) (.bin (.vec 4) (.var 52) (.lit 1)) (.bin (.vec 5) (.var 52) (.lit 63))),
    .asg 66 (.bin (.vec 1) (.var 55) (.var 57)),
    .asg 2 (.bin (.vec 1) (.var 2) (.var 62)),
    .asg 27 (.var 2),
    .asg 8 (.bin (.vec 1) (.var 8) (.var 63)),
    .asg 28 (.bin (.vec 3) (.bin (.vec 4) (.var 8) (.lit 44)) (.bin (.vec 5) (.var 8) (.lit 20))),
    .asg 14 (.bin (.vec 1) (.var 14) (.var 64)),
    .asg 29 (.bin (.vec 3) (.bin (.vec 4) (.var 14) (.lit 43)) (.bin (.vec 5) (.var 14) (.lit 21))),
    .asg 67 (.bin (.vec 1) (.var 27) (.bin (.vec 2) (.var 28) (.var 29))),
    .asg 67 (.bin (.vec 1) (.var 67) (.bin (.vec 7) (.ld 8 (.padd (.glob 14) (.lit 22) 8)) (.lit 0))),
    .asg 52 (.var 67),
    .asg 20 (.bin (.vec 1) (.var 20) (.var 65)),
    .asg 30 (.bin (.vec 3) (.bin (.vec 4) (.var 20) (.lit 21)) (.bin (.vec 5) (.var 20) (.lit 43))),
    .asg 68 (.bin (.vec 1) (.var 28) (.bin (.vec 2) (.var 29) (.var 30))),
    .asg 53 (.var 68),
    .asg 26 (.bin (.vec 1) (.var 26) (.var 66)),
    .asg 31 (.bin (.vec 3) (.bin (.vec 4) (.var 26) (.lit 14)) (.bin (.vec 5) (.var 26) (.lit 50))),
    .asg 69 (.bin (.vec 1) (.var 29) (.bin (.vec 2) (.var 30) (.var 31))),
    .asg 54 (.var 69),
    .asg 70 (.bin (.vec 1) (.var 30) (.bin (.vec 2) (.var 31) (.var 27))),
    .asg 55 (.var 70),
    .asg 71 (.bin (.vec 1) (.var 31) (.bin (.vec 2) (.var 27) (.var 28))),
    .asg 56 (.var 71),
    .asg 5 (.bin (.vec 1) (.var 5) (.var 65)),
    .asg 32 (.bin (.vec 3) (.bin (.vec 4) (.var 5) (.lit 28)) (.bin (.vec 5) (.var 5) (.lit 36))),
    .asg 11 (.bin (.vec 1) (.var 11) (.var 66)),
    .asg 33 (.bin (.vec 3) (.bin (.vec 4) (.var 11) (.lit 20)) (.bin (.vec 5) (.var 11) (.lit 44))),
    .asg 12 (.bin (.vec 1) (.var 12) (.var 62)),
    .asg 34 (.bin (.vec 3) (.bin (.vec 4) (.var 12) (.lit 3)) (.bin (.vec 5) (.var 12) (.lit 61))),
    .asg 72 (.bin (.vec 1) (.var 32) (.bin (.vec 2) (.var 33) (.var 34))),
    .asg 52 (.bin (.vec 1) (.var 52) (.var 72)),
    .asg 18 (.bin (.vec 1) (.var 18) (.var 63)),
    .asg 35 (.bin (.vec 3) (.bin (.vec 4) (.var 18) (.lit 45)) (.bin (.vec 5) (.var 18) (.lit 19))),
    .asg 73 (.bin (.vec 1) (.var 33) (.bin (.vec 2) (.var 34) (.var 35))),
    .asg 53 (.bin (.vec 1) (.var 53) (.var 73)),
    .asg 24 (.bin (.vec 1) (.var 24) (.var 64)),
    .asg 36 (.bin (.vec 3) (.bin (.vec 4) (.var 24) (.lit 61)) (.bin (.vec 5) (.var 24) (.lit 3))),
    .asg 74 (.bin (.vec 1) (.var 34) (.bin (.vec 2) (.var 35) (.var 36))),
    .asg 54 (.bin (.vec 1) (.var 54) (.var 74))]

/-- part of `KeccakP1600times4_PermuteAll_24rounds` -/
def KeccakP1600times4_PermuteAll_24rounds.part63 : Stmt :=
  block [
    .asg 75 (.bin (.vec 1) (.var 35) (.bin (.vec 2) (.var 36) (.var 32))),
    .asg 55 (.bin (.vec 1) (.var 55) (.var 75)),
    .asg 76 (.bin (.vec 1) (.var 36) (.bin (.vec 2) (.var 32) (.var 33))),
    .asg 56 (.bin (.vec 1) (.var 56) (.var 76)),
    .asg 3 (.bin (.vec 1) (.var 3) (.var 63)),
    .asg 37 (.bin (.vec 3) (.bin (.vec 4) (.var 3) (.lit 1)) (.bin (.vec 5) (.var 3) (.lit 63))),
    .asg 9 (.bin (.vec 1) (.var 9) (.var 64)),
    .asg 38 (.bin (.vec 3) (.bin (.vec 4) (.var 9) (.lit 6)) (.bin (.vec 5) (.var 9) (.lit 58))),
    .asg 15 (.bin (.vec 1) (.var 15) (.var 65)),
    .asg 39 (.bin (.vec 3) (.bin (.vec 4) (.var 15) (.lit 25)) (.bin (.vec 5) (.var 15) (.lit 39))),
    .asg 77 (.bin (.vec 1) (.var 37) (.bin (.vec 2) (.var 38) (.var 39))),
    .asg 52 (.bin (.vec 1) (.var 52) (.var 77)),
    .asg 21 (.bin (.vec 1) (.var 21) (.var 66)),
    .asg 40 (.bin (.vec 6) (.var 21) (.ld 32 (.glob 15))),
    .asg 78 (.bin (.vec 1) (.var 38) (.bin (.vec 2) (.var 39) (.var 40))),
    .asg 53 (.bin (.vec 1) (.var 53) (.var 78)),
    .asg 22 (.bin (.vec 1) (.var 22) (.var 62)),
    .asg 41 (.bin (.vec 3) (.bin (.vec 4) (.var 22) (.lit 18)) (.bin (.vec 5) (.var 22) (.lit 46))),
    .asg 79 (.bin (.vec 1) (.var 39) (.bin (.vec 2) (.var 40) (.var 41))),
    .asg 54 (.bin (.vec 1) (.var 54) (.var 79)),
    .asg 80 (.bin (.vec 1) (.var 40) (.bin (.vec 2) (.var 41) (.var 37))),
    .asg 55 (.bin (.vec 1) (.var 55) (.var 80)),
    .asg 81 (.bin (.vec 1) (.var 41) (.bin (.vec 2) (.var 37) (.var 38))),
    .asg 56 (.bin (.vec 1) (.var 56) (.var 81)),
    .asg 6 (.bin (.vec 1) (.var 6) (.var 66)),
    .asg 42 (.bin (.vec 3) (.bin (.vec 4) (.var 6) (.lit 27)) (.bin (.vec 5) (.var 6) (.lit 37))),
    .asg 7 (.bin (.vec 1) (.var 7) (.var 62)),
    .asg 43 (.bin (.vec 3) (.bin (.vec 4) (.var 7) (.lit 36)) (.bin (.vec 5) (.var 7) (.lit 28))),
    .asg 13 (.bin (.vec 1) (.var 13) (.var 63)),
    .asg 44 (.bin (.vec 3) (.bin (.vec 4) (.var 13) (.lit 10)) (.bin (.vec 5) (.var 13) (.lit 54))),
    .asg 82 (.bin (.vec 1) (.var 42) (.bin (.vec 2) (.var 43) (.var 44))),
    .asg 52 (.bin (.vec 1) (.var 52) (.var 82)),
    .asg 19 (.bin (.vec 1) (.var 19) (.var 64)),
    .asg 45 (.bin (.vec 3) (.bin (.vec 4) (.var 19) (.lit 15)) (.bin (.vec 5) (.var 19) (.lit 49))),
    .asg 83 (.bin (.vec 1) (.var 43) (.bin (.vec 2) (.var 44) (.var 45))),
    .asg 53 (.bin (.vec 1) (.var 53) (.var 83)),
    .asg 25 (.bin (.vec 1) (.var 25) (.var 65)),
    .asg 46 (.bin (.vec 6) (.var 25) (.ld 32 (.glob 16))),
    .asg 84 (.bin (.vec 1) (.var 44) (.bin (.vec 2) (.var 45) (.var 46))),
    .asg 54 (.bin (.vec 1) (.var 54) (.var 84))]

/-- part of `KeccakP1600times4_PermuteAll_24rounds` -/
def KeccakP1600times4_PermuteAll_24rounds.part64 : Stmt :=
  block [
    .asg 85 (.bin (.vec 1) (.var 45) (.bin (.vec 2) (.var 46) (.var 42))),
    .asg 55 (.bin (.vec 1) (.var 55) (.var 85)),
    .asg 86 (.bin (.vec 1) (.var 46) (.bin (.vec 2) (.var 42) (.var 43))),
    .asg 56 (.bin (.vec 1) (.var 56) (.var 86)),
    .asg 4 (.bin (.vec 1) (.var 4) (.var 64)),
    .asg 47 (.bin (.vec 3) (.bin (.vec 4) (.var 4) (.lit 62)) (.bin (.vec 5) (.var 4) (.lit 2))),
    .asg 10 (.bin (.vec 1) (.var 10) (.var 65)),
    .asg 48 (.bin (.vec 3) (.bin (.vec 4) (.var 10) (.lit 55)) (.bin (.vec 5) (.var 10) (.lit 9))),
    .asg 16 (.bin (.vec 1) (.var 16) (.var 66)),
    .asg 49 (.bin (.vec 3) (.bin (.vec 4) (.var 16) (.lit 39)) (.bin (.vec 5) (.var 16) (.lit 25))),
    .asg 87 (.bin (.vec 1) (.var 47) (.bin (.vec 2) (.var 48) (.var 49))),
    .asg 52 (.bin (.vec 1) (.var 52) (.var 87)),
    .asg 17 (.bin (.vec 1) (.var 17) (.var 62)),
    .asg 50 (.bin (.vec 3) (.bin (.vec 4) (.var 17) (.lit 41)) (.bin (.vec 5) (.var 17) (.lit 23))),
    .asg 88 (.bin (.vec 1) (.var 48) (.bin (.vec 2) (.var 49) (.var 50))),
    .asg 53 (.bin (.vec 1) (.var 53) (.var 88)),
    .asg 23 (.bin (.vec 1) (.var 23) (.var 63)),
    .asg 51 (.bin (.vec 3) (.bin (.vec 4) (.var 23) (.lit 2)) (.bin (.vec 5) (.var 23) (.lit 62))),
    .asg 89 (.bin (.vec 1) (.var 49) (.bin (.vec 2) (.var 50) (.var 51))),
    .asg 54 (.bin (.vec 1) (.var 54) (.var 89)),
    .asg 90 (.bin (.vec 1) (.var 50) (.bin (.vec 2) (.var 51) (.var 47))),
    .asg 55 (.bin (.vec 1) (.var 55) (.var 90)),
    .asg 91 (.bin (.vec 1) (.var 51) (.bin (.vec 2) (.var 47) (.var 48))),
    .asg 56 (.bin (.vec 1) (.var 56) (.var 91)),
    .asg 58 (.bin (.vec 3) (.bin (.vec 4) (.var 53) (.lit 1)) (.bin (.vec 5) (.var 53) (.lit 63))),
    .asg 62 (.bin (.vec 1) (.var 56) (.var 58)),
    .asg 59 (.bin (.vec 3) (.bin (.vec 4) (.var 54) (.lit 1)) (.bin (.vec 5) (.var 54) (.lit 63))),
    .asg 63 (.bin (.vec 1) (.var 52) (.var 59)),
    .asg 60 (.bin (.vec 3) (.bin (.vec 4) (.var 55) (.lit 1)) (.bin (.vec 5) (.var 55) (.lit 63))),
    .asg 64 (.bin (.vec 1) (.var 53) (.var 60)),
    .asg 61 (.bin (.vec 3) (.bin (.vec 4) (.var 56) (.lit 1)) (.bin (.vec 5) (.var 56) (.lit 63))),
    .asg 65 (.bin (.vec 1) (.var 54) (.var 61)),
    .asg 57 (.bin (.vec 3) (.bin (.vec 4) (.var 52) (.lit 1)) (.bin (.vec 5) (.var 52) (.lit 63))),
    .asg 66 (.bin (.vec 1) (.var 55) (.var 57)),
    .asg 67 (.bin (.vec 1) (.var 67) (.var 62)),
    .asg 27 (.var 67),
    .asg 73 (.bin (.vec 1) (.var 73) (.var 63)),
    .asg 28 (.bin (.vec 3) (.bin (.vec 4) (.var 73) (.lit 44)) (.bin (.vec 5) (.var 73) (.lit 20))),
    .asg 79 (.bin (.vec 1) (.var 79) (.var 64)),
    .asg 29 (.bin (.vec 3) (.bin (.vec 4) (.var 79) (.lit 43)) (.bin (.vec 5) (.var 79) (.lit 21)))]

/-- part of `KeccakP1600times4_PermuteAll_24rounds` -/
def KeccakP1600times4_PermuteAll_24rounds.part65 : Stmt :=
  block [
    .asg 2 (.bin (.vec 1) (.var 27) (.bin (.vec 2) (.var 28) (.var 29))),
    .asg 2 (.bin (.vec 1) (.var 2) (.bin (.vec 7) (.ld 8 (.padd (.glob 14) (.lit 23) 8)) (.lit 0))),
    .asg 85 (.bin (.vec 1) (.var 85) (.var 65)),
    .asg 30 (.bin (.vec 3) (.bin (.vec 4) (.var 85) (.lit 21)) (.bin (.vec 5) (.var 85) (.lit 43))),
    .asg 3 (.bin (.vec 1) (.var 28) (.bin (.vec 2) (.var 29) (.var 30))),
    .asg 91 (.bin (.vec 1) (.var 91) (.var 66)),
    .asg 31 (.bin (.vec 3) (.bin (.vec 4) (.var 91) (.lit 14)) (.bin (.vec 5) (.var 91) (.lit 50))),
    .asg 4 (.bin (.vec 1) (.var 29) (.bin (.vec 2) (.var 30) (.var 31))),
    .asg 5 (.bin (.vec 1) (.var 30) (.bin (.vec 2) (.var 31) (.var 27))),
    .asg 6 (.bin (.vec 1) (.var 31) (.bin (.vec 2) (.var 27) (.var 28))),
    .asg 70 (.bin (.vec 1) (.var 70) (.var 65)),
    .asg 32 (.bin (.vec 3) (.bin (.vec 4) (.var 70) (.lit 28)) (.bin (.vec 5) (.var 70) (.lit 36))),
    .asg 76 (.bin (.vec 1) (.var 76) (.var 66)),
    .asg 33 (.bin (.vec 3) (.bin (.vec 4) (.var 76) (.lit 20)) (.bin (.vec 5) (.var 76) (.lit 44))),
    .asg 77 (.bin (.vec 1) (.var 77) (.var 62)),
    .asg 34 (.bin (.vec 3) (.bin (.vec 4) (.var 77) (.lit 3)) (.bin (.vec 5) (.var 77) (.lit 61))),
    .asg 7 (.bin (.vec 1) (.var 32) (.bin (.vec 2) (.var 33) (.var 34))),
    .asg 83 (.bin (.vec 1) (.var 83) (.var 63)),
    .asg 35 (.bin (.vec 3) (.bin (.vec 4) (.var 83) (.lit 45)) (.bin (.vec 5) (.var 83) (.lit 19))),
    .asg 8 (.bin (.vec 1) (.var 33) (.bin (.vec 2) (.var 34) (.var 35))),
    .asg 89 (.bin (.vec 1) (.var 89) (.var 64)),
    .asg 36 (.bin (.vec 3) (.bin (.vec 4) (.var 89) (.lit 61)) (.bin (.vec 5) (.var 89) (.lit 3))),
    .asg 9 (.bin (.vec 1) (.var 34) (.bin (.vec 2) (.var 35) (.var 36))),
    .asg 10 (.bin (.vec 1) (.var 35) (.bin (.vec 2) (.var 36) (.var 32))),
    .asg 11 (.bin (.vec 1) (.var 36) (.bin (.vec 2) (.var 32) (.var 33))),
    .asg 68 (.bin (.vec 1) (.var 68) (.var 63)),
    .asg 37 (.bin (.vec 3) (.bin (.vec 4) (.var 68) (.lit 1)) (.bin (.vec 5) (.var 68) (.lit 63))),
    .asg 74 (.bin (.vec 1) (.var 74) (.var 64)),
    .asg 38 (.bin (.vec 3) (.bin (.vec 4) (.var 74) (.lit 6)) (.bin (.vec 5) (.var 74) (.lit 58))),
    .asg 80 (.bin (.vec 1) (.var 80) (.var 65)),
    .asg 39 (.bin (.vec 3) (.bin (.vec 4) (.var 80) (.lit 25)) (.bin (.vec 5) (.var 80) (.lit 39))),
    .asg 12 (.bin (.vec 1) (.var 37) (.bin (.vec 2) (.var 38) (.var 39))),
    .asg 86 (.bin (.vec 1) (.var 86) (.var 66)),
    .asg 40 (.bin (.vec 6) (.var 86) (.ld 32 (.glob 15))),
    .asg 13 (.bin (.vec 1) (.var 38) (.bin (.vec 2) (.var 39) (.var 40))),
    .asg 87 (.bin (.vec 1) (.var 87) (.var 62)),
    .asg 41 (.bin (.vec 3) (.bin (.vec 4) (.var 87) (.lit 18)) (.bin (.vec 5) (.var 87) (.lit 46))),
    .asg 14 (.bin (.vec 1) (.var 39) (.bin (.vec 2) (.var 40) (.var 41))),
    .asg 15 (.bin (.vec 1) (.var 40) (.bin (.vec 2) (.var 41) (.var 37))),
    .asg 16 (.bin (.vec 1) (.var 41) (.bin (.vec 2) (.var 37) (.var 38)))]

/-- part of `KeccakP1600times4_PermuteAll_24rounds` -/
def KeccakP1600times4_PermuteAll_24rounds.part66 : Stmt :=
  block [
    .asg 71 (.bin (.vec 1) (.var 71) (.var 66)),
    .asg 42 (.bin (.vec 3) (.bin (.vec 4) (.var 71) (.lit 27)) (.bin (.vec 5) (.var 71) (.lit 37))),
    .asg 72 (.bin (.vec 1) (.var 72) (.var 62)),
    .asg 43 (.bin (.vec 3) (.bin (.vec 4) (.var 72) (.lit 36)) (.bin (.vec 5) (.var 72) (.lit 28))),
    .asg 78 (.bin (.vec 1) (.var 78) (.var 63)),
    .asg 44 (.bin (.vec 3) (.bin (.vec 4) (.var 78) (.lit 10)) (.bin (.vec 5) (.var 78) (.lit 54))),
    .asg 17 (.bin (.vec 1) (.var 42) (.bin (.vec 2) (.var 43) (.var 44))),
    .asg 84 (.bin (.vec 1) (.var 84) (.var 64)),
    .asg 45 (.bin (.vec 3) (.bin (.vec 4) (.var 84) (.lit 15)) (.bin (.vec 5) (.var 84) (.lit 49))),
    .asg 18 (.bin (.vec 1) (.var 43) (.bin (.vec 2) (.var 44) (.var 45))),
    .asg 90 (.bin (.vec 1) (.var 90) (.var 65)),
    .asg 46 (.bin (.vec 6) (.var 90) (.ld 32 (.glob 16))),
    .asg 19 (.bin (.vec 1) (.var 44) (.bin (.vec 2) (.var 45) (.var 46))),
    .asg 20 (.bin (.vec 1) (.var 45) (.bin (.vec 2) (.var 46) (.var 42))),
    .asg 21 (.bin (.vec 1) (.var 46) (.bin (.vec 2) (.var 42) (.var 43))),
    .asg 69 (.bin (.vec 1) (.var 69) (.var 64)),
    .asg 47 (.bin (.vec 3) (.bin (.vec 4) (.var 69) (.lit 62)) (.bin (.vec 5) (.var 69) (.lit 2))),
    .asg 75 (.bin (.vec 1) (.var 75) (.var 65)),
    .asg 48 (.bin (.vec 3) (.bin (.vec 4) (.var 75) (.lit 55)) (.bin (.vec 5) (.var 75) (.lit 9))),
    .asg 81 (.bin (.vec 1) (.var 81) (.var 66)),
    .asg 49 (.bin (.vec 3) (.bin (.vec 4) (.var 81) (.lit 39)) (.bin (.vec 5) (.var 81) (.lit 25))),
    .asg 22 (.bin (.vec 1) (.var 47) (.bin (.vec 2) (.var 48) (.var 49))),
    .asg 82 (.bin (.vec 1) (.var 82) (.var 62)),
    .asg 50 (.bin (.vec 3) (.bin (.vec 4) (.var 82) (.lit 41)) (.bin (.vec 5) (.var 82) (.lit 23))),
    .asg 23 (.bin (.vec 1) (.var 48) (.bin (.vec 2) (.var 49) (.var 50))),
    .asg 88 (.bin (.vec 1) (.var 88) (.var 63)),
    .asg 51 (.bin (.vec 3) (.bin (.vec 4) (.var 88) (.lit 2)) (.bin (.vec 5) (.var 88) (.lit 62))),
    .asg 24 (.bin (.vec 1) (.var 49) (.bin (.vec 2) (.var 50) (.var 51))),
    .asg 25 (.bin (.vec 1) (.var 50) (.bin (.vec 2) (.var 51) (.var 47))),
    .asg 26 (.bin (.vec 1) (.var 51) (.bin (.vec 2) (.var 47) (.var 48))),
    .st 32 (.var 1) (.var 2),
    .st 32 (.padd (.var 1) (.lit 1) 32) (.var 3),
    .st 32 (.padd (.var 1) (.lit 2) 32) (.var 4),
    .st 32 (.padd (.var 1) (.lit 3) 32) (.var 5),
    .st 32 (.padd (.var 1) (.lit 4) 32) (.var 6),
    .st 32 (.padd (.var 1) (.lit 5) 32) (.var 7),
    .st 32 (.padd (.var 1) (.lit 6) 32) (.var 8),
    .st 32 (.padd (.var 1) (.lit 7) 32) (.var 9),
    .st 32 (.padd (.var 1) (.lit 8) 32) (.var 10),
    .st 32 (.padd (.var 1) (.lit 9) 32) (.var 11)]

/-- part of `KeccakP1600times4_PermuteAll_24rounds` -/
def KeccakP1600times4_PermuteAll_24rounds.part67 : Stmt :=
  block [
    .st 32 (.padd (.var 1) (.lit 10) 32) (.var 12),
    .st 32 (.padd (.var 1) (.lit 11) 32) (.var 13),
    .st 32 (.padd (.var 1) (.lit 12) 32) (.var 14),
    .st 32 (.padd (.var 1) (.lit 13) 32) (.var 15),
    .st 32 (.padd (.var 1) (.lit 14) 32) (.var 16),
    .st 32 (.padd (.var 1) (.lit 15) 32) (.var 17),
    .st 32 (.padd (.var 1) (.lit 16) 32) (.var 18),
    .st 32 (.padd (.var 1) (.lit 17) 32) (.var 19),
    .st 32 (.padd (.var 1) (.lit 18) 32) (.var 20),
    .st 32 (.padd (.var 1) (.lit 19) 32) (.var 21),
    .st 32 (.padd (.var 1) (.lit 20) 32) (.var 22),
    .st 32 (.padd (.var 1) (.lit 21) 32) (.var 23),
    .st 32 (.padd (.var 1) (.lit 22) 32) (.var 24),
    .st 32 (.padd (.var 1) (.lit 23) 32) (.var 25),
    .st 32 (.padd (.var 1) (.lit 24) 32) (.var 26)]

/-- `KeccakP1600times4_PermuteAll_24rounds`, sha3/avx2/KeccakP-1600-times4-SIMD256.c:819-830; variables: 0 states, 1
  statesAsLanes, 2 Aba, 3 Abe, 4 Abi, 5 Abo, 6 Abu, 7 Aga, 8 Age, 9 Agi, 10 Ago, 11 Agu, 12 Aka, 13 Ake, 14 Aki, 15
  Ako, 16 Aku, 17 Ama, 18 Ame, 19 Ami, 20 Amo, 21 Amu, 22 Asa, 23 Ase, 24 Asi, 25 Aso, 26 Asu, 27 Bba, 28 Bbe, 29
  Bbi, 30 Bbo, 31 Bbu, 32 Bga, 33 Bge, 34 Bgi, 35 Bgo, 36 Bgu, 37 Bka, 38 Bke, 39 Bki, 40 Bko, 41 Bku, 42 Bma, 43
  Bme, 44 Bmi, 45 Bmo, 46 Bmu, 47 Bsa, 48 Bse, 49 Bsi, 50 Bso, 51 Bsu, 52 Ca, 53 Ce, 54 Ci, 55 Co, 56 Cu, 57 Ca1, 58
  Ce1, 59 Ci1, 60 Co1, 61 Cu1, 62 Da, 63 De, 64 Di, 65 Do, 66 Du, 67 Eba, 68 Ebe, 69 Ebi, 70 Ebo, 71 Ebu, 72 Ega, 73
  Ege, 74 Egi, 75 Ego, 76 Egu, 77 Eka, 78 Eke, 79 Eki, 80 Eko, 81 Eku, 82 Ema, 83 Eme, 84 Emi, 85 Emo, 86 Emu, 87
  Esa, 88 Ese, 89 Esi, 90 Eso, 91 Esu -/
def KeccakP1600times4_PermuteAll_24rounds : Fn := ⟨1,
  block [
    KeccakP1600times4_PermuteAll_24rounds.part0,
    KeccakP1600times4_PermuteAll_24rounds.part1,
    KeccakP1600times4_PermuteAll_24rounds.part2,
    KeccakP1600times4_PermuteAll_24rounds.part3,
    KeccakP1600times4_PermuteAll_24rounds.part4,
    KeccakP1600times4_PermuteAll_24rounds.part5,
    KeccakP1600times4_PermuteAll_24rounds.part6,
    KeccakP1600times4_PermuteAll_24rounds.part7,
    KeccakP1600times4_PermuteAll_24rounds.part8,
    KeccakP1600times4_PermuteAll_24rounds.part9,
    KeccakP1600times4_PermuteAll_24rounds.part10,
    KeccakP1600times4_PermuteAll_24rounds.part11,
    KeccakP1600times4_PermuteAll_24rounds.part12,
    KeccakP1600times4_PermuteAll_24rounds.part13,
    KeccakP1600times4_PermuteAll_24rounds.part14,
    KeccakP1600times4_PermuteAll_24rounds.part15,
    KeccakP1600times4_PermuteAll_24rounds.part16,
    KeccakP1600times4_PermuteAll_24rounds.part17,
    KeccakP1600times4_PermuteAll_24rounds.part18,
    KeccakP1600times4_PermuteAll_24rounds.part19,
    KeccakP1600times4_PermuteAll_24rounds.part20,
    KeccakP1600times4_PermuteAll_24rounds.part21,
    KeccakP1600times4_PermuteAll_24rounds.part22,
    KeccakP1600times4_PermuteAll_24rounds.part23,
    KeccakP1600times4_PermuteAll_24rounds.part24,
    KeccakP1600times4_PermuteAll_24rounds.part25,
    KeccakP1600times4_PermuteAll_24rounds.part26,
    KeccakP1600times4_PermuteAll_24rounds.part27,
    KeccakP1600times4_PermuteAll_24rounds.part28,
    KeccakP1600times4_PermuteAll_24rounds.part29,
    KeccakP1600times4_PermuteAll_24rounds.part30,
    KeccakP1600times4_PermuteAll_24rounds.part31,
    KeccakP1600times4_PermuteAll_24rounds.part32,
    KeccakP1600times4_PermuteAll_24rounds.part33,
    KeccakP1600times4_PermuteAll_24rounds.part34,
    KeccakP1600times4_PermuteAll_24rounds.part35,
    KeccakP1600times4_PermuteAll_24rounds.part36,
    KeccakP1600times4_PermuteAll_24rounds.part37,
    KeccakP1600times4_PermuteAll_24rounds.part38,
    KeccakP1600times4_PermuteAll_24rounds.part39,
    KeccakP1600times4_PermuteAll_24rounds.part40,
    KeccakP1600times4_PermuteAll_24rounds.part41,
    KeccakP1600times4_PermuteAll_24rounds.part42,
    KeccakP1600times4_PermuteAll_24rounds.part43,
    KeccakP1600times4_PermuteAll_24rounds.part44,
    KeccakP1600times4_PermuteAll_24rounds.part45,
    KeccakP1600times4_PermuteAll_24rounds.part46,
    KeccakP1600times4_PermuteAll_24rounds.part47,
    KeccakP1600times4_PermuteAll_24rounds.part48,
    KeccakP1600times4_PermuteAll_24rounds.part49,
    KeccakP1600times4_PermuteAll_24rounds.part50,
    KeccakP1600times4_PermuteAll_24rounds.part51,
    KeccakP1600times4_PermuteAll_24rounds.part52,
    KeccakP1600times4_PermuteAll_24rounds.part53,
    KeccakP1600times4_PermuteAll_24rounds.part54,
    KeccakP1600times4_PermuteAll_24rounds.part55,
    KeccakP1600times4_PermuteAll_24rounds.part56,
    KeccakP1600times4_PermuteAll_24rounds.part57,
    KeccakP1600times4_PermuteAll_24rounds.part58,
    KeccakP1600times4_PermuteAll_24rounds.part59,
    KeccakP1600times4_PermuteAll_24rounds.part60,
    KeccakP1600times4_PermuteAll_24rounds.part61,
    KeccakP1600times4_PermuteAll_24rounds.part62,
    KeccakP1600times4_PermuteAll_24rounds.part63,
    KeccakP1600times4_PermuteAll_24rounds.part64,
    KeccakP1600times4_PermuteAll_24rounds.part65,
    KeccakP1600times4_PermuteAll_24rounds.part66,
    KeccakP1600times4_PermuteAll_24rounds.part67]⟩

/-- `KeccakP1600times4_ExtractBytes`, sha3/avx2/KeccakP-1600-times4-SIMD256.c:274-302; variables: 0 states, 1
  instanceIndex, 2 data, 3 offset, 4 length, 5 sizeLeft, 6 lanePosition, 7 offsetInLane, 8 curData, 9 statesAsLanes,
  11 bytesInLane -/
def KeccakP1600times4_ExtractBytes : Fn := ⟨5,
  block [
    .asg 5 (.var 4),
    .asg 6 (.div (.div .u32) (.var 3) (.lit 8)),
    .asg 7 (.div (.mod .u32) (.var 3) (.lit 8)),
    .asg 8 (.var 2),
    .asg 9 (.var 0),
    .ite (.bin .gt (.var 5) (.lit 0))
      (.asg 10 (.bin .ne (.bin .ne (.var 7) (.lit 0)) (.lit 0)))
      (.asg 10 (.lit 0)),
    .ite (.var 10)
      (block [
        .asg 11 (.bin (.sub .u32) (.lit 8) (.var 7)),
        .ite (.bin .gt (.var 11) (.var 5))
          (.asg 11 (.var 5))
          (.skip),
        .call (some 12) Prog.Id.memcpy [.var 8, .padd (.padd (.var 9) (.bin (.add .u32) (.bin (.mul .u32) (.var 6)
          (.lit 4)) (.var 1)) 8) (.var 7) 1, .var 11],
        .asg 5 (.bin (.sub .u32) (.var 5) (.var 11)),
        .asg 6 (.bin (.add .u32) (.var 6) (.lit 1)),
        .asg 8 (.padd (.var 8) (.var 11) 1)])
      (.skip),
    .loop (.bin .ge (.var 5) (.lit 8))
      (block [
        .st 8 (.var 8) (.ld 8 (.padd (.var 9) (.bin (.add .u32) (.bin (.mul .u32) (.var 6) (.lit 4)) (.var 1)) 8)),
        .asg 5 (.bin (.sub .u32) (.var 5) (.lit 8)),
        .asg 6 (.bin (.add .u32) (.var 6) (.lit 1)),
        .asg 8 (.padd (.var 8) (.lit 8) 1)])
      (.skip),
    .ite (.bin .gt (.var 5) (.lit 0))
      (.call (some 13) Prog.Id.memcpy [.var 8, .padd (.var 9) (.bin (.add .u32) (.bin (.mul .u32) (.var 6) (.lit 4))
        (.var 1)) 8, .var 5])
      (.skip)]⟩

end Faest.Leak.ProgAvx
