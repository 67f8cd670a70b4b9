/-
Generated by tools/c2leak.py; do not edit.
Functions of sha3/opt64/KeccakP-1600-opt64.c.
-/
import Verif.Model.Leak.IR
import Verif.Model.Leak.Prog.Ids

namespace Faest.Leak.Prog

/-- `KeccakP1600_Initialize`, sha3/opt64/KeccakP-1600-opt64.c:85-96; variables: 0 state -/
def KeccakP1600_Initialize : Fn := ⟨1,
  .call (some 1) Id.memset [.var 0, .lit 0, .lit 200]⟩

/-- part of `KeccakF1600_FastLoop_Absorb` -/
def KeccakF1600_FastLoop_Absorb.part0 : Stmt :=
  block [
    .ite (.bin .eq (.var 1) (.lit 21))
      (block [
        .asg 5 (.bin (.bxor .u64) (.var 5) (.ld 8 (.var 91))),
        .asg 6 (.bin (.bxor .u64) (.var 6) (.ld 8 (.padd (.var 91) (.lit 1) 8))),
        .asg 7 (.bin (.bxor .u64) (.var 7) (.ld 8 (.padd (.var 91) (.lit 2) 8))),
        .asg 8 (.bin (.bxor .u64) (.var 8) (.ld 8 (.padd (.var 91) (.lit 3) 8))),
        .asg 9 (.bin (.bxor .u64) (.var 9) (.ld 8 (.padd (.var 91) (.lit 4) 8))),
        .asg 10 (.bin (.bxor .u64) (.var 10) (.ld 8 (.padd (.var 91) (.lit 5) 8))),
        .asg 11 (.bin (.bxor .u64) (.var 11) (.ld 8 (.padd (.var 91) (.lit 6) 8))),
        .asg 12 (.bin (.bxor .u64) (.var 12) (.ld 8 (.padd (.var 91) (.lit 7) 8))),
        .asg 13 (.bin (.bxor .u64) (.var 13) (.ld 8 (.padd (.var 91) (.lit 8) 8))),
        .asg 14 (.bin (.bxor .u64) (.var 14) (.ld 8 (.padd (.var 91) (.lit 9) 8))),
        .asg 15 (.bin (.bxor .u64) (.var 15) (.ld 8 (.padd (.var 91) (.lit 10) 8))),
        .asg 16 (.bin (.bxor .u64) (.var 16) (.ld 8 (.padd (.var 91) (.lit 11) 8))),
        .asg 17 (.bin (.bxor .u64) (.var 17) (.ld 8 (.padd (.var 91) (.lit 12) 8))),
        .asg 18 (.bin (.bxor .u64) (.var 18) (.ld 8 (.padd (.var 91) (.lit 13) 8))),
        .asg 19 (.bin (.bxor .u64) (.var 19) (.ld 8 (.padd (.var 91) (.lit 14) 8))),
        .asg 20 (.bin (.bxor .u64) (.var 20) (.ld 8 (.padd (.var 91) (.lit 15) 8))),
        .asg 21 (.bin (.bxor .u64) (.var 21) (.ld 8 (.padd (.var 91) (.lit 16) 8))),
        .asg 22 (.bin (.bxor .u64) (.var 22) (.ld 8 (.padd (.var 91) (.lit 17) 8))),
        .asg 23 (.bin (.bxor .u64) (.var 23) (.ld 8 (.padd (.var 91) (.lit 18) 8))),
        .asg 24 (.bin (.bxor .u64) (.var 24) (.ld 8 (.padd (.var 91) (.lit 19) 8))),
        .asg 25 (.bin (.bxor .u64) (.var 25) (.ld 8 (.padd (.var 91) (.lit 20) 8)))])
      (.ite (.bin .lt (.var 1) (.lit 16))
          (.ite (.bin .lt (.var 1) (.lit 8))
              (.ite (.bin .lt (.var 1) (.lit 4))
                  (.ite (.bin .lt (.var 1) (.lit 2))
                      (.ite (.bin .lt (.var 1) (.lit 1))
                          (.skip)
                          (.asg 5 (.bin (.bxor .u64) (.var 5) (.ld 8 (.var 91)))))
                      (block [
                        .asg 5 (.bin (.bxor .u64) (.var 5) (.ld 8 (.var 91))),
                        .asg 6 (.bin (.bxor .u64) (.var 6) (.ld 8 (.padd (.var 91) (.lit 1) 8))),
                        .ite (.bin .lt (.var 1) (.lit 3))
                          (.skip)
                          (.asg 7 (.bin (.bxor .u64) (.var 7) (.ld 8 (.padd (.var 91) (.lit 2) 8))))]))
                  (block [
                    .asg 5 (.bin (.bxor .u64) (.var 5) (.ld 8 (.var 91))),
                    .asg 6 (.bin (.bxor .u64) (.var 6) (.ld 8 (.padd (.var 91) (.lit 1) 8))),
                    .asg 7 (.bin (.bxor .u64) (.var 7) (.ld 8 (.padd (.var 91) (.lit 2) 8))),
                    .asg 8 (.bin (.bxor .u64) (.var 8) (.ld 8 (.padd (.var 91) (.lit 3) 8))),
                    .ite (.bin .lt (.var 1) (.lit 6))
                      (.ite (.bin .lt (.var 1) (.lit 5))
                          (.skip)
                          (.asg 9 (.bin (.bxor .u64) (.var 9) (.ld 8 (.padd (.var 91) (.lit 4) 8)))))
                      (block [
                        .asg 9 (.bin (.bxor .u64) (.var 9) (.ld 8 (.padd (.var 91) (.lit 4) 8))),
                        .asg 10 (.bin (.bxor .u64) (.var 10) (.ld 8 (.padd (.var 91) (.lit 5) 8))),
                        .ite (.bin .lt (.var 1) (.lit 7))
                          (.skip)
                          (.asg 11 (.bin (.bxor .u64) (.var 11) (.ld 8 (.padd (.var 91) (.lit 6) 8))))])]))
              (block [
                .asg 5 (.bin (.bxor .u64) (.var 5) (.ld 8 (.var 91))),
                .asg 6 (.bin (.bxor .u64) (.var 6) (.ld 8 (.padd (.var 91) (.lit 1) 8))),
                .asg 7 (.bin (.bxor .u64) (.var 7) (.ld 8 (.padd (.var 91) (.lit 2) 8))),
                .asg 8 (.bin (.bxor .u64) (.var 8) (.ld 8 (.padd (.var 91) (.lit 3) 8))),
                .asg 9 (.bin (.bxor .u64) (.var 9) (.ld 8 (.padd (.var 91) (.lit 4) 8))),
                .asg 10 (.bin (.bxor .u64) (.var 10) (.ld 8 (.padd (.var 91) (.lit 5) 8))),
                .asg 11 (.bin (.bxor .u64) (.var 11) (.ld 8 (.padd (.var 91) (.lit 6) 8))),
                .asg 12 (.bin (.bxor .u64) (.var 12) (.ld 8 (.padd (.var 91) (.lit 7) 8))),
                .ite (.bin .lt (.var 1) (.lit 12))
                  (.ite (.bin .lt (.var 1) (.lit 10))
                      (.ite (.bin .lt (.var 1) (.lit 9))
                          (.skip)
                          (.asg 13 (.bin (.bxor .u64) (.var 13) (.ld 8 (.padd (.var 91) (.lit 8) 8)))))
                      (block [
                        .asg 13 (.bin (.bxor .u64) (.var 13) (.ld 8 (.padd (.var 91) (.lit 8) 8))),
                        .asg 14 (.bin (.bxor .u64) (.var 14) (.ld 8 (.padd (.var 91) (.lit 9) 8))),
                        .ite (.bin .lt (.var 1) (.lit 11))
                          (.skip)
                          (.asg 15 (.bin (.bxor .u64) (.var 15) (.ld 8 (.padd (.var 91) (.lit 10) 8))))]))
                  (block [
                    .asg 13 (.bin (.bxor .u64) (.var 13) (.ld 8 (.padd (.var 91) (.lit 8) 8))),
                    .asg 14 (.bin (.bxor .u64) (.var 14) (.ld 8 (.padd (.var 91) (.lit 9) 8))),
                    .asg 15 (.bin (.bxor .u64) (.var 15) (.ld 8 (.padd (.var 91) (.lit 10) 8))),
                    .asg 16 (.bin (.bxor .u64) (.var 16) (.ld 8 (.padd (.var 91) (.lit 11) 8))),
                    .ite (.bin .lt (.var 1) (.lit 14))
                      (.ite (.bin .lt (.var 1) (.lit 13))
                          (.skip)
                          (.asg 17 (.bin (.bxor .u64) (.var 17) (.ld 8 (.padd (.var 91) (.lit 12) 8)))))
                      (block [
                        .asg 17 (.bin (.bxor .u64) (.var 17) (.ld 8 (.padd (.var 91) (.lit 12) 8))),
                        .asg 18 (.bin (.bxor .u64) (.var 18) (.ld 8 (.padd (.var 91) (.lit 13) 8))),
                        .ite (.bin .lt (.var 1) (.lit 15))
                          (.skip)
                          (.asg 19 (.bin (.bxor .u64) (.var 19) (.ld 8 (.padd (.var 91) (.lit 14) 8))))])])]))
          (block [
            .asg 5 (.bin (.bxor .u64) (.var 5) (.ld 8 (.var 91))),
            .asg 6 (.bin (.bxor .u64) (.var 6) (.ld 8 (.padd (.var 91) (.lit 1) 8))),
            .asg 7 (.bin (.bxor .u64) (.var 7) (.ld 8 (.padd (.var 91) (.lit 2) 8))),
            .asg 8 (.bin (.bxor .u64) (.var 8) (.ld 8 (.padd (.var 91) (.lit 3) 8))),
            .asg 9 (.bin (.bxor .u64) (.var 9) (.ld 8 (.padd (.var 91) (.lit 4) 8))),
            .asg 10 (.bin (.bxor .u64) (.var 10) (.ld 8 (.padd (.var 91) (.lit 5) 8))),
            .asg 11 (.bin (.bxor .u64) (.var 11) (.ld 8 (.padd (.var 91) (.lit 6) 8))),
            .asg 12 (.bin (.bxor .u64) (.var 12) (.ld 8 (.padd (.var 91) (.lit 7) 8))),
            .asg 13 (.bin (.bxor .u64) (.var 13) (.ld 8 (.padd (.var 91) (.lit 8) 8))),
            .asg 14 (.bin (.bxor .u64) (.var 14) (.ld 8 (.padd (.var 91) (.lit 9) 8))),
            .asg 15 (.bin (.bxor .u64) (.var 15) (.ld 8 (.padd (.var 91) (.lit 10) 8))),
            .asg 16 (.bin (.bxor .u64) (.var 16) (.ld 8 (.padd (.var 91) (.lit 11) 8))),
            .asg 17 (.bin (.bxor .u64) (.var 17) (.ld 8 (.padd (.var 91) (.lit 12) 8))),
            .asg 18 (.bin (.bxor .u64) (.var 18) (.ld 8 (.padd (.var 91) (.lit 13) 8))),
            .asg 19 (.bin (.bxor .u64) (.var 19) (.ld 8 (.padd (.var 91) (.lit 14) 8))),
            .asg 20 (.bin (.bxor .u64) (.var 20) (.ld 8 (.padd (.var 91) (.lit 15) 8))),
            .ite (.bin .lt (.var 1) (.lit 24))
              (.ite (.bin .lt (.var 1) (.lit 20))
                  (.ite (.bin .lt (.var 1) (.lit 18))
                      (.ite (.bin .lt (.var 1) (.lit 17))
                          (.skip)
                          (.asg 21 (.bin (.bxor .u64) (.var 21) (.ld 8 (.padd (.var 91) (.lit 16) 8)))))
                      (block [
                        .asg 21 (.bin (.bxor .u64) (.var 21) (.ld 8 (.padd (.var 91) (.lit 16) 8))),
                        .asg 22 (.bin (.bxor .u64) (.var 22) (.ld 8 (.padd (.var 91) (.lit 17) 8))),
                        .ite (.bin .lt (.var 1) (.lit 19))
                          (.skip)
                          (.asg 23 (.bin (.bxor .u64) (.var 23) (.ld 8 (.padd (.var 91) (.lit 18) 8))))]))
                  (block [
                    .asg 21 (.bin (.bxor .u64) (.var 21) (.ld 8 (.padd (.var 91) (.lit 16) 8))),
                    .asg 22 (.bin (.bxor .u64) (.var 22) (.ld 8 (.padd (.var 91) (.lit 17) 8))),
                    .asg 23 (.bin (.bxor .u64) (.var 23) (.ld 8 (.padd (.var 91) (.lit 18) 8))),
                    .asg 24 (.bin (.bxor .u64) (.var 24) (.ld 8 (.padd (.var 91) (.lit 19) 8))),
                    .ite (.bin .lt (.var 1) (.lit 22))
                      (.ite (.bin .lt (.var 1) (.lit 21))
                          (.skip)
                          (.asg 25 (.bin (.bxor .u64) (.var 25) (.ld 8 (.padd (.var 91) (.lit 20) 8)))))
                      (block [
                        .asg 25 (.bin (.bxor .u64) (.var 25) (.ld 8 (.padd (.var 91) (.lit 20) 8))),
                        .asg 26 (.bin (.bxor .u64) (.var 26) (.ld 8 (.padd (.var 91) (.lit 21) 8))),
                        .ite (.bin .lt (.var 1) (.lit 23))
                          (.skip)
                          (.asg 27 (.bin (.bxor .u64) (.var 27) (.ld 8 (.padd (.var 91) (.lit 22) 8))))])]))
              (block [
                .asg 21 (.bin (.bxor .u64) (.var 21) (.ld 8 (.padd (.var 91) (.lit 16) 8))),
                .asg 22 (.bin (.bxor .u64) (.var 22) (.ld 8 (.padd (.var 91) (.lit 17) 8))),
                .asg 23 (.bin (.bxor .u64) (.var 23) (.ld 8 (.padd (.var 91) (.lit 18) 8))),
                .asg 24 (.bin (.bxor .u64) (.var 24) (.ld 8 (.padd (.var 91) (.lit 19) 8))),
                .asg 25 (.bin (.bxor .u64) (.var 25) (.ld 8 (.padd (.var 91) (.lit 20) 8))),
                .asg 26 (.bin (.bxor .u64) (.var 26) (.ld 8 (.padd (.var 91) (.lit 21) 8))),
                .asg 27 (.bin (.bxor .u64) (.var 27) (.ld 8 (.padd (.var 91) (.lit 22) 8))),
                .asg 28 (.bin (.bxor .u64) (.var 28) (.ld 8 (.padd (.var 91) (.lit 23) 8))),
                .ite (.bin .lt (.var 1) (.lit 25))
                  (.skip)
                  (.asg 29 (.bin (.bxor .u64) (.var 29) (.ld 8 (.padd (.var 91) (.lit 24) 8))))])])),
    .asg 55 (.bin (.bxor .u64) (.bin (.bxor .u64) (.bin (.bxor .u64) (.bin (.bxor .u64) (.var 5) (.var 10)) (.var
      15)) (.var 20)) (.var 25)),
    .asg 56 (.bin (.bxor .u64) (.bin (.bxor .u64) (.bin (.bxor .u64) (.bin (.bxor .u64) (.var 6) (.var 11)) (.var
      16)) (.var 21)) (.var 26)),
    .asg 57 (.bin (.bxor .u64) (.bin (.bxor .u64) (.bin (.bxor .u64) (.bin (.bxor .u64) (.var 7) (.var 12)) (.var
      17)) (.var 22)) (.var 27)),
    .asg 58 (.bin (.bxor .u64) (.bin (.bxor .u64) (.bin (.bxor .u64) (.bin (.bxor .u64) (.var 8) (.var 13)) (.var
      18)) (.var 23)) (.var 28)),
    .asg 59 (.bin (.bxor .u64) (.bin (.bxor .u64) (.bin (.bxor .u64) (.bin (.bxor .u64) (.var 9) (.var 14)) (.var
      19)) (.var 24)) (.var 29)),
    .asg 60 (.bin (.bxor .u64) (.var 59) (.bin (.bxor .u64) (.bin (.shl .u64) (.var 56) (.lit 1)) (.bin (.shr .u64)
      (.var 56) (.lit 63)))),
    .asg 61 (.bin (.bxor .u64) (.var 55) (.bin (.bxor .u64) (.bin (.shl .u64) (.var 57) (.lit 1)) (.bin (.shr .u64)
      (.var 57) (.lit 63)))),
    .asg 62 (.bin (.bxor .u64) (.var 56) (.bin (.bxor .u64) (.bin (.shl .u64) (.var 58) (.lit 1)) (.bin (.shr .u64)
      (.var 58) (.lit 63)))),
    .asg 63 (.bin (.bxor .u64) (.var 57) (.bin (.bxor .u64) (.bin (.shl .u64) (.var 59) (.lit 1)) (.bin (.shr .u64)
      (.var 59) (.lit 63)))),
    .asg 64 (.bin (.bxor .u64) (.var 58) (.bin (.bxor .u64) (.bin (.shl .u64) (.var 55) (.lit 1)) (.bin (.shr .u64)
      (.var 55) (.lit 63)))),
    .asg 5 (.bin (.bxor .u64) (.var 5) (.var 60)),
    .asg 30 (.var 5),
    .asg 11 (.bin (.bxor .u64) (.var 11) (.var 61)),
    .asg 31 (.bin (.bxor .u64) (.bin (.shl .u64) (.var 11) (.lit 44)) (.bin (.shr .u64) (.var 11) (.lit 20))),
    .asg 17 (.bin (.bxor .u64) (.var 17) (.var 62)),
    .asg 32 (.bin (.bxor .u64) (.bin (.shl .u64) (.var 17) (.lit 43)) (.bin (.shr .u64) (.var 17) (.lit 21))),
    .asg 23 (.bin (.bxor .u64) (.var 23) (.var 63)),
    .asg 33 (.bin (.bxor .u64) (.bin (.shl .u64) (.var 23) (.lit 21)) (.bin (.shr .u64) (.var 23) (.lit 43))),
    .asg 29 (.bin (.bxor .u64) (.var 29) (.var 64)),
    .asg 34 (.bin (.bxor .u64) (.bin (.shl .u64) (.var 29) (.lit 14)) (.bin (.shr .u64) (.var 29) (.lit 50))),
    .asg 65 (.bin (.bxor .u64) (.var 30) (.bin (.band .u64) (.un (.bnot .u64) (.var 31)) (.var 32))),
    .asg 65 (.bin (.bxor .u64) (.var 65) (.ld 8 (.glob 0))),
    .asg 55 (.var 65),
    .asg 66 (.bin (.bxor .u64) (.var 31) (.bin (.band .u64) (.un (.bnot .u64) (.var 32)) (.var 33))),
    .asg 56 (.var 66),
    .asg 67 (.bin (.bxor .u64) (.var 32) (.bin (.band .u64) (.un (.bnot .u64) (.var 33)) (.var 34))),
    .asg 57 (.var 67),
    .asg 68 (.bin (.bxor .u64) (.var 33) (.bin (.band .u64) (.un (.bnot .u64) (.var 34)) (.var 30))),
    .asg 58 (.var 68),
    .asg 69 (.bin (.bxor .u64) (.var 34) (.bin (.band .u64) (.un (.bnot .u64) (.var 30)) (.var 31))),
    .asg 59 (.var 69),
    .asg 8 (.bin (.bxor .u64) (.var 8) (.var 63)),
    .asg 35 (.bin (.bxor .u64) (.bin (.shl .u64) (.var 8) (.lit 28)) (.bin (.shr .u64) (.var 8) (.lit 36))),
    .asg 14 (.bin (.bxor .u64) (.var 14) (.var 64)),
    .asg 36 (.bin (.bxor .u64) (.bin (.shl .u64) (.var 14) (.lit 20)) (.bin (.shr .u64) (.var 14) (.lit 44))),
    .asg 15 (.bin (.bxor .u64) (.var 15) (.var 60)),
    .asg 37 (.bin (.bxor .u64) (.bin (.shl .u64) (.var 15) (.lit 3)) (.bin (.shr .u64) (.var 15) (.lit 61))),
    .asg 21 (.bin (.bxor .u64) (.var 21) (.var 61)),
    .asg 38 (.bin (.bxor .u64) (.bin (.shl .u64) (.var 21) (.lit 45)) (.bin (.shr .u64) (.var 21) (.lit 19)))]

/-- part of `KeccakF1600_FastLoop_Absorb` -/
def KeccakF1600_FastLoop_Absorb.part1 : Stmt :=
  block [
    .asg 27 (.bin (.bxor .u64) (.var 27) (.var 62)),
    .asg 39 (.bin (.bxor .u64) (.bin (.shl .u64) (.var 27) (.lit 61)) (.bin (.shr .u64) (.var 27) (.lit 3))),
    .asg 70 (.bin (.bxor .u64) (.var 35) (.bin (.band .u64) (.un (.bnot .u64) (.var 36)) (.var 37))),
    .asg 55 (.bin (.bxor .u64) (.var 55) (.var 70)),
    .asg 71 (.bin (.bxor .u64) (.var 36) (.bin (.band .u64) (.un (.bnot .u64) (.var 37)) (.var 38))),
    .asg 56 (.bin (.bxor .u64) (.var 56) (.var 71)),
    .asg 72 (.bin (.bxor .u64) (.var 37) (.bin (.band .u64) (.un (.bnot .u64) (.var 38)) (.var 39))),
    .asg 57 (.bin (.bxor .u64) (.var 57) (.var 72)),
    .asg 73 (.bin (.bxor .u64) (.var 38) (.bin (.band .u64) (.un (.bnot .u64) (.var 39)) (.var 35))),
    .asg 58 (.bin (.bxor .u64) (.var 58) (.var 73)),
    .asg 74 (.bin (.bxor .u64) (.var 39) (.bin (.band .u64) (.un (.bnot .u64) (.var 35)) (.var 36))),
    .asg 59 (.bin (.bxor .u64) (.var 59) (.var 74)),
    .asg 6 (.bin (.bxor .u64) (.var 6) (.var 61)),
    .asg 40 (.bin (.bxor .u64) (.bin (.shl .u64) (.var 6) (.lit 1)) (.bin (.shr .u64) (.var 6) (.lit 63))),
    .asg 12 (.bin (.bxor .u64) (.var 12) (.var 62)),
    .asg 41 (.bin (.bxor .u64) (.bin (.shl .u64) (.var 12) (.lit 6)) (.bin (.shr .u64) (.var 12) (.lit 58))),
    .asg 18 (.bin (.bxor .u64) (.var 18) (.var 63)),
    .asg 42 (.bin (.bxor .u64) (.bin (.shl .u64) (.var 18) (.lit 25)) (.bin (.shr .u64) (.var 18) (.lit 39))),
    .asg 24 (.bin (.bxor .u64) (.var 24) (.var 64)),
    .asg 43 (.bin (.bxor .u64) (.bin (.shl .u64) (.var 24) (.lit 8)) (.bin (.shr .u64) (.var 24) (.lit 56))),
    .asg 25 (.bin (.bxor .u64) (.var 25) (.var 60)),
    .asg 44 (.bin (.bxor .u64) (.bin (.shl .u64) (.var 25) (.lit 18)) (.bin (.shr .u64) (.var 25) (.lit 46))),
    .asg 75 (.bin (.bxor .u64) (.var 40) (.bin (.band .u64) (.un (.bnot .u64) (.var 41)) (.var 42))),
    .asg 55 (.bin (.bxor .u64) (.var 55) (.var 75)),
    .asg 76 (.bin (.bxor .u64) (.var 41) (.bin (.band .u64) (.un (.bnot .u64) (.var 42)) (.var 43))),
    .asg 56 (.bin (.bxor .u64) (.var 56) (.var 76)),
    .asg 77 (.bin (.bxor .u64) (.var 42) (.bin (.band .u64) (.un (.bnot .u64) (.var 43)) (.var 44))),
    .asg 57 (.bin (.bxor .u64) (.var 57) (.var 77)),
    .asg 78 (.bin (.bxor .u64) (.var 43) (.bin (.band .u64) (.un (.bnot .u64) (.var 44)) (.var 40))),
    .asg 58 (.bin (.bxor .u64) (.var 58) (.var 78)),
    .asg 79 (.bin (.bxor .u64) (.var 44) (.bin (.band .u64) (.un (.bnot .u64) (.var 40)) (.var 41))),
    .asg 59 (.bin (.bxor .u64) (.var 59) (.var 79)),
    .asg 9 (.bin (.bxor .u64) (.var 9) (.var 64)),
    .asg 45 (.bin (.bxor .u64) (.bin (.shl .u64) (.var 9) (.lit 27)) (.bin (.shr .u64) (.var 9) (.lit 37))),
    .asg 10 (.bin (.bxor .u64) (.var 10) (.var 60)),
    .asg 46 (.bin (.bxor .u64) (.bin (.shl .u64) (.var 10) (.lit 36)) (.bin (.shr .u64) (.var 10) (.lit 28))),
    .asg 16 (.bin (.bxor .u64) (.var 16) (.var 61)),
    .asg 47 (.bin (.bxor .u64) (.bin (.shl .u64) (.var 16) (.lit 10)) (.bin (.shr .u64) (.var 16) (.lit 54))),
    .asg 22 (.bin (.bxor .u64) (.var 22) (.var 62)),
    .asg 48 (.bin (.bxor .u64) (.bin (.shl .u64) (.var 22) (.lit 15)) (.bin (.shr .u64) (.var 22) (.lit 49)))]

/-- part of `KeccakF1600_FastLoop_Absorb` -/
def KeccakF1600_FastLoop_Absorb.part2 : Stmt :=
  block [
    .asg 28 (.bin (.bxor .u64) (.var 28) (.var 63)),
    .asg 49 (.bin (.bxor .u64) (.bin (.shl .u64) (.var 28) (.lit 56)) (.bin (.shr .u64) (.var 28) (.lit 8))),
    .asg 80 (.bin (.bxor .u64) (.var 45) (.bin (.band .u64) (.un (.bnot .u64) (.var 46)) (.var 47))),
    .asg 55 (.bin (.bxor .u64) (.var 55) (.var 80)),
    .asg 81 (.bin (.bxor .u64) (.var 46) (.bin (.band .u64) (.un (.bnot .u64) (.var 47)) (.var 48))),
    .asg 56 (.bin (.bxor .u64) (.var 56) (.var 81)),
    .asg 82 (.bin (.bxor .u64) (.var 47) (.bin (.band .u64) (.un (.bnot .u64) (.var 48)) (.var 49))),
    .asg 57 (.bin (.bxor .u64) (.var 57) (.var 82)),
    .asg 83 (.bin (.bxor .u64) (.var 48) (.bin (.band .u64) (.un (.bnot .u64) (.var 49)) (.var 45))),
    .asg 58 (.bin (.bxor .u64) (.var 58) (.var 83)),
    .asg 84 (.bin (.bxor .u64) (.var 49) (.bin (.band .u64) (.un (.bnot .u64) (.var 45)) (.var 46))),
    .asg 59 (.bin (.bxor .u64) (.var 59) (.var 84)),
    .asg 7 (.bin (.bxor .u64) (.var 7) (.var 62)),
    .asg 50 (.bin (.bxor .u64) (.bin (.shl .u64) (.var 7) (.lit 62)) (.bin (.shr .u64) (.var 7) (.lit 2))),
    .asg 13 (.bin (.bxor .u64) (.var 13) (.var 63)),
    .asg 51 (.bin (.bxor .u64) (.bin (.shl .u64) (.var 13) (.lit 55)) (.bin (.shr .u64) (.var 13) (.lit 9))),
    .asg 19 (.bin (.bxor .u64) (.var 19) (.var 64)),
    .asg 52 (.bin (.bxor .u64) (.bin (.shl .u64) (.var 19) (.lit 39)) (.bin (.shr .u64) (.var 19) (.lit 25))),
    .asg 20 (.bin (.bxor .u64) (.var 20) (.var 60)),
    .asg 53 (.bin (.bxor .u64) (.bin (.shl .u64) (.var 20) (.lit 41)) (.bin (.shr .u64) (.var 20) (.lit 23))),
    .asg 26 (.bin (.bxor .u64) (.var 26) (.var 61)),
    .asg 54 (.bin (.bxor .u64) (.bin (.shl .u64) (.var 26) (.lit 2)) (.bin (.shr .u64) (.var 26) (.lit 62))),
    .asg 85 (.bin (.bxor .u64) (.var 50) (.bin (.band .u64) (.un (.bnot .u64) (.var 51)) (.var 52))),
    .asg 55 (.bin (.bxor .u64) (.var 55) (.var 85)),
    .asg 86 (.bin (.bxor .u64) (.var 51) (.bin (.band .u64) (.un (.bnot .u64) (.var 52)) (.var 53))),
    .asg 56 (.bin (.bxor .u64) (.var 56) (.var 86)),
    .asg 87 (.bin (.bxor .u64) (.var 52) (.bin (.band .u64) (.un (.bnot .u64) (.var 53)) (.var 54))),
    .asg 57 (.bin (.bxor .u64) (.var 57) (.var 87)),
    .asg 88 (.bin (.bxor .u64) (.var 53) (.bin (.band .u64) (.un (.bnot .u64) (.var 54)) (.var 50))),
    .asg 58 (.bin (.bxor .u64) (.var 58) (.var 88)),
    .asg 89 (.bin (.bxor .u64) (.var 54) (.bin (.band .u64) (.un (.bnot .u64) (.var 50)) (.var 51))),
    .asg 59 (.bin (.bxor .u64) (.var 59) (.var 89)),
    .asg 60 (.bin (.bxor .u64) (.var 59) (.bin (.bxor .u64) (.bin (.shl .u64) (.var 56) (.lit 1)) (.bin (.shr .u64)
      (.var 56) (.lit 63)))),
    .asg 61 (.bin (.bxor .u64) (.var 55) (.bin (.bxor .u64) (.bin (.shl .u64) (.var 57) (.lit 1)) (.bin (.shr .u64)
      (.var 57) (.lit 63)))),
    .asg 62 (.bin (.bxor .u64) (.var 56) (.bin (.bxor .u64) (.bin (.shl .u64) (.var 58) (.lit 1)) (.bin (.shr .u64)
      (.var 58) (.lit 63)))),
    .asg 63 (.bin (.bxor .u64) (.var 57) (.bin (.bxor .u64) (.bin (.shl .u64) (.var 59) (.lit 1)) (.bin (.shr .u64)
      (.var 59) (.lit 63)))),
    .asg 64 (.bin (.bxor .u64) (.var 58) (.bin (.bxor .u64) (.bin (.shl .u64) (.var 55) (.lit 1)) (.bin (.shr .u64)
      (.var 55) (.lit 63)))),
    .asg 65 (.bin (.bxor .u64) (.var 65) (.var 60)),
    .asg 30 (.var 65),
    .asg 71 (.bin (.bxor .u64) (.var 71) (.var 61))]

/-- part of `KeccakF1600_FastLoop_Absorb` -/
def KeccakF1600_FastLoop_Absorb.part3 : Stmt :=
  block [
    .asg 31 (.bin (.bxor .u64) (.bin (.shl .u64) (.var 71) (.lit 44)) (.bin (.shr .u64) (.var 71) (.lit 20))),
    .asg 77 (.bin (.bxor .u64) (.var 77) (.var 62)),
    .asg 32 (.bin (.bxor .u64) (.bin (.shl .u64) (.var 77) (.lit 43)) (.bin (.shr .u64) (.var 77) (.lit 21))),
    .asg 83 (.bin (.bxor .u64) (.var 83) (.var 63)),
    .asg 33 (.bin (.bxor .u64) (.bin (.shl .u64) (.var 83) (.lit 21)) (.bin (.shr .u64) (.var 83) (.lit 43))),
    .asg 89 (.bin (.bxor .u64) (.var 89) (.var 64)),
    .asg 34 (.bin (.bxor .u64) (.bin (.shl .u64) (.var 89) (.lit 14)) (.bin (.shr .u64) (.var 89) (.lit 50))),
    .asg 5 (.bin (.bxor .u64) (.var 30) (.bin (.band .u64) (.un (.bnot .u64) (.var 31)) (.var 32))),
    .asg 5 (.bin (.bxor .u64) (.var 5) (.ld 8 (.padd (.glob 0) (.lit 1) 8))),
    .asg 55 (.var 5),
    .asg 6 (.bin (.bxor .u64) (.var 31) (.bin (.band .u64) (.un (.bnot .u64) (.var 32)) (.var 33))),
    .asg 56 (.var 6),
    .asg 7 (.bin (.bxor .u64) (.var 32) (.bin (.band .u64) (.un (.bnot .u64) (.var 33)) (.var 34))),
    .asg 57 (.var 7),
    .asg 8 (.bin (.bxor .u64) (.var 33) (.bin (.band .u64) (.un (.bnot .u64) (.var 34)) (.var 30))),
    .asg 58 (.var 8),
    .asg 9 (.bin (.bxor .u64) (.var 34) (.bin (.band .u64) (.un (.bnot .u64) (.var 30)) (.var 31))),
    .asg 59 (.var 9),
    .asg 68 (.bin (.bxor .u64) (.var 68) (.var 63)),
    .asg 35 (.bin (.bxor .u64) (.bin (.shl .u64) (.var 68) (.lit 28)) (.bin (.shr .u64) (.var 68) (.lit 36))),
    .asg 74 (.bin (.bxor .u64) (.var 74) (.var 64)),
    .asg 36 (.bin (.bxor .u64) (.bin (.shl .u64) (.var 74) (.lit 20)) (.bin (.shr .u64) (.var 74) (.lit 44))),
    .asg 75 (.bin (.bxor .u64) (.var 75) (.var 60)),
    .asg 37 (.bin (.bxor .u64) (.bin (.shl .u64) (.var 75) (.lit 3)) (.bin (.shr .u64) (.var 75) (.lit 61))),
    .asg 81 (.bin (.bxor .u64) (.var 81) (.var 61)),
    .asg 38 (.bin (.bxor .u64) (.bin (.shl .u64) (.var 81) (.lit 45)) (.bin (.shr .u64) (.var 81) (.lit 19))),
    .asg 87 (.bin (.bxor .u64) (.var 87) (.var 62)),
    .asg 39 (.bin (.bxor .u64) (.bin (.shl .u64) (.var 87) (.lit 61)) (.bin (.shr .u64) (.var 87) (.lit 3))),
    .asg 10 (.bin (.bxor .u64) (.var 35) (.bin (.band .u64) (.un (.bnot .u64) (.var 36)) (.var 37))),
    .asg 55 (.bin (.bxor .u64) (.var 55) (.var 10)),
    .asg 11 (.bin (.bxor .u64) (.var 36) (.bin (.band .u64) (.un (.bnot .u64) (.var 37)) (.var 38))),
    .asg 56 (.bin (.bxor .u64) (.var 56) (.var 11)),
    .asg 12 (.bin (.bxor .u64) (.var 37) (.bin (.band .u64) (.un (.bnot .u64) (.var 38)) (.var 39))),
    .asg 57 (.bin (.bxor .u64) (.var 57) (.var 12)),
    .asg 13 (.bin (.bxor .u64) (.var 38) (.bin (.band .u64) (.un (.bnot .u64) (.var 39)) (.var 35))),
    .asg 58 (.bin (.bxor .u64) (.var 58) (.var 13)),
    .asg 14 (.bin (.bxor .u64) (.var 39) (.bin (.band .u64) (.un (.bnot .u64) (.var 35)) (.var 36))),
    .asg 59 (.bin (.bxor .u64) (.var 59) (.var 14)),
    .asg 66 (.bin (.bxor .u64) (.var 66) (.var 61)),
    .asg 40 (.bin (.bxor .u64) (.bin (.shl .u64) (.var 66) (.lit 1)) (.bin (.shr .u64) (.var 66) (.lit 63)))]

/-- part of `KeccakF1600_FastLoop_Absorb` -/
def KeccakF1600_FastLoop_Absorb.part4 : Stmt :=
  block [
    .asg 72 (.bin (.bxor .u64) (.var 72) (.var 62)),
    .asg 41 (.bin (.bxor .u64) (.bin (.shl .u64) (.var 72) (.lit 6)) (.bin (.shr .u64) (.var 72) (.lit 58))),
    .asg 78 (.bin (.bxor .u64) (.var 78) (.var 63)),
    .asg 42 (.bin (.bxor .u64) (.bin (.shl .u64) (.var 78) (.lit 25)) (.bin (.shr .u64) (.var 78) (.lit 39))),
    .asg 84 (.bin (.bxor .u64) (.var 84) (.var 64)),
    .asg 43 (.bin (.bxor .u64) (.bin (.shl .u64) (.var 84) (.lit 8)) (.bin (.shr .u64) (.var 84) (.lit 56))),
    .asg 85 (.bin (.bxor .u64) (.var 85) (.var 60)),
    .asg 44 (.bin (.bxor .u64) (.bin (.shl .u64) (.var 85) (.lit 18)) (.bin (.shr .u64) (.var 85) (.lit 46))),
    .asg 15 (.bin (.bxor .u64) (.var 40) (.bin (.band .u64) (.un (.bnot .u64) (.var 41)) (.var 42))),
    .asg 55 (.bin (.bxor .u64) (.var 55) (.var 15)),
    .asg 16 (.bin (.bxor .u64) (.var 41) (.bin (.band .u64) (.un (.bnot .u64) (.var 42)) (.var 43))),
    .asg 56 (.bin (.bxor .u64) (.var 56) (.var 16)),
    .asg 17 (.bin (.bxor .u64) (.var 42) (.bin (.band .u64) (.un (.bnot .u64) (.var 43)) (.var 44))),
    .asg 57 (.bin (.bxor .u64) (.var 57) (.var 17)),
    .asg 18 (.bin (.bxor .u64) (.var 43) (.bin (.band .u64) (.un (.bnot .u64) (.var 44)) (.var 40))),
    .asg 58 (.bin (.bxor .u64) (.var 58) (.var 18)),
    .asg 19 (.bin (.bxor .u64) (.var 44) (.bin (.band .u64) (.un (.bnot .u64) (.var 40)) (.var 41))),
    .asg 59 (.bin (.bxor .u64) (.var 59) (.var 19)),
    .asg 69 (.bin (.bxor .u64) (.var 69) (.var 64)),
    .asg 45 (.bin (.bxor .u64) (.bin (.shl .u64) (.var 69) (.lit 27)) (.bin (.shr .u64) (.var 69) (.lit 37))),
    .asg 70 (.bin (.bxor .u64) (.var 70) (.var 60)),
    .asg 46 (.bin (.bxor .u64) (.bin (.shl .u64) (.var 70) (.lit 36)) (.bin (.shr .u64) (.var 70) (.lit 28))),
    .asg 76 (.bin (.bxor .u64) (.var 76) (.var 61)),
    .asg 47 (.bin (.bxor .u64) (.bin (.shl .u64) (.var 76) (.lit 10)) (.bin (.shr .u64) (.var 76) (.lit 54))),
    .asg 82 (.bin (.bxor .u64) (.var 82) (.var 62)),
    .asg 48 (.bin (.bxor .u64) (.bin (.shl .u64) (.var 82) (.lit 15)) (.bin (.shr .u64) (.var 82) (.lit 49))),
    .asg 88 (.bin (.bxor .u64) (.var 88) (.var 63)),
    .asg 49 (.bin (.bxor .u64) (.bin (.shl .u64) (.var 88) (.lit 56)) (.bin (.shr .u64) (.var 88) (.lit 8))),
    .asg 20 (.bin (.bxor .u64) (.var 45) (.bin (.band .u64) (.un (.bnot .u64) (.var 46)) (.var 47))),
    .asg 55 (.bin (.bxor .u64) (.var 55) (.var 20)),
    .asg 21 (.bin (.bxor .u64) (.var 46) (.bin (.band .u64) (.un (.bnot .u64) (.var 47)) (.var 48))),
    .asg 56 (.bin (.bxor .u64) (.var 56) (.var 21)),
    .asg 22 (.bin (.bxor .u64) (.var 47) (.bin (.band .u64) (.un (.bnot .u64) (.var 48)) (.var 49))),
    .asg 57 (.bin (.bxor .u64) (.var 57) (.var 22)),
    .asg 23 (.bin (.bxor .u64) (.var 48) (.bin (.band .u64) (.un (.bnot .u64) (.var 49)) (.var 45))),
    .asg 58 (.bin (.bxor .u64) (.var 58) (.var 23)),
    .asg 24 (.bin (.bxor .u64) (.var 49) (.bin (.band .u64) (.un (.bnot .u64) (.var 45)) (.var 46))),
    .asg 59 (.bin (.bxor .u64) (.var 59) (.var 24)),
    .asg 67 (.bin (.bxor .u64) (.var 67) (.var 62)),
    .asg 50 (.bin (.bxor .u64) (.bin (.shl .u64) (.var 67) (.lit 62)) (.bin (.shr .u64) (.var 67) (.lit 2)))]

/-- part of `KeccakF1600_FastLoop_Absorb` -/
def KeccakF1600_FastLoop_Absorb.part5 : Stmt :=
  block [
    .asg 73 (.bin (.bxor .u64) (.var 73) (.var 63)),
    .asg 51 (.bin (.bxor .u64) (.bin (.shl .u64) (.var 73) (.lit 55)) (.bin (.shr .u64) (.var 73) (.lit 9))),
    .asg 79 (.bin (.bxor .u64) (.var 79) (.var 64)),
    .asg 52 (.bin (.bxor .u64) (.bin (.shl .u64) (.var 79) (.lit 39)) (.bin (.shr .u64) (.var 79) (.lit 25))),
    .asg 80 (.bin (.bxor .u64) (.var 80) (.var 60)),
    .asg 53 (.bin (.bxor .u64) (.bin (.shl .u64) (.var 80) (.lit 41)) (.bin (.shr .u64) (.var 80) (.lit 23))),
    .asg 86 (.bin (.bxor .u64) (.var 86) (.var 61)),
    .asg 54 (.bin (.bxor .u64) (.bin (.shl .u64) (.var 86) (.lit 2)) (.bin (.shr .u64) (.var 86) (.lit 62))),
    .asg 25 (.bin (.bxor .u64) (.var 50) (.bin (.band .u64) (.un (.bnot .u64) (.var 51)) (.var 52))),
    .asg 55 (.bin (.bxor .u64) (.var 55) (.var 25)),
    .asg 26 (.bin (.bxor .u64) (.var 51) (.bin (.band .u64) (.un (.bnot .u64) (.var 52)) (.var 53))),
    .asg 56 (.bin (.bxor .u64) (.var 56) (.var 26)),
    .asg 27 (.bin (.bxor .u64) (.var 52) (.bin (.band .u64) (.un (.bnot .u64) (.var 53)) (.var 54))),
    .asg 57 (.bin (.bxor .u64) (.var 57) (.var 27)),
    .asg 28 (.bin (.bxor .u64) (.var 53) (.bin (.band .u64) (.un (.bnot .u64) (.var 54)) (.var 50))),
    .asg 58 (.bin (.bxor .u64) (.var 58) (.var 28)),
    .asg 29 (.bin (.bxor .u64) (.var 54) (.bin (.band .u64) (.un (.bnot .u64) (.var 50)) (.var 51))),
    .asg 59 (.bin (.bxor .u64) (.var 59) (.var 29)),
    .asg 60 (.bin (.bxor .u64) (.var 59) (.bin (.bxor .u64) (.bin (.shl .u64) (.var 56) (.lit 1)) (.bin (.shr .u64)
      (.var 56) (.lit 63)))),
    .asg 61 (.bin (.bxor .u64) (.var 55) (.bin (.bxor .u64) (.bin (.shl .u64) (.var 57) (.lit 1)) (.bin (.shr .u64)
      (.var 57) (.lit 63)))),
    .asg 62 (.bin (.bxor .u64) (.var 56) (.bin (.bxor .u64) (.bin (.shl .u64) (.var 58) (.lit 1)) (.bin (.shr .u64)
      (.var 58) (.lit 63)))),
    .asg 63 (.bin (.bxor .u64) (.var 57) (.bin (.bxor .u64) (.bin (.shl .u64) (.var 59) (.lit 1)) (.bin (.shr .u64)
      (.var 59) (.lit 63)))),
    .asg 64 (.bin (.bxor .u64) (.var 58) (.bin (.bxor .u64) (.bin (.shl .u64) (.var 55) (.lit 1)) (.bin (.shr .u64)
      (.var 55) (.lit 63)))),
    .asg 5 (.bin (.bxor .u64) (.var 5) (.var 60)),
    .asg 30 (.var 5),
    .asg 11 (.bin (.bxor .u64) (.var 11) (.var 61)),
    .asg 31 (.bin (.bxor .u64) (.bin (.shl .u64) (.var 11) (.lit 44)) (.bin (.shr .u64) (.var 11) (.lit 20))),
    .asg 17 (.bin (.bxor .u64) (.var 17) (.var 62)),
    .asg 32 (.bin (.bxor .u64) (.bin (.shl .u64) (.var 17) (.lit 43)) (.bin (.shr .u64) (.var 17) (.lit 21))),
    .asg 23 (.bin (.bxor .u64) (.var 23) (.var 63)),
    .asg 33 (.bin (.bxor .u64) (.bin (.shl .u64) (.var 23) (.lit 21)) (.bin (.shr .u64) (.var 23) (.lit 43))),
    .asg 29 (.bin (.bxor .u64) (.var 29) (.var 64)),
    .asg 34 (.bin (.bxor .u64) (.bin (.shl .u64) (.var 29) (.lit 14)) (.bin (.shr .u64) (.var 29) (.lit 50))),
    .asg 65 (.bin (.bxor .u64) (.var 30) (.bin (.band .u64) (.un (.bnot .u64) (.var 31)) (.var 32))),
    .asg 65 (.bin (.bxor .u64) (.var 65) (.ld 8 (.padd (.glob 0) (.lit 2) 8))),
    .asg 55 (.var 65),
    .asg 66 (.bin (.bxor .u64) (.var 31) (.bin (.band .u64) (.un (.bnot .u64) (.var 32)) (.var 33))),
    .asg 56 (.var 66),
    .asg 67 (.bin (.bxor .u64) (.var 32) (.bin (.band .u64) (.un (.bnot .u64) (.var 33)) (.var 34))),
    .asg 57 (.var 67)]

/-- part of `KeccakF1600_FastLoop_Absorb` -/
def KeccakF1600_FastLoop_Absorb.part6 : Stmt :=
  block [
    .asg 68 (.bin (.bxor .u64) (.var 33) (.bin (.band .u64) (.un (.bnot .u64) (.var 34)) (.var 30))),
    .asg 58 (.var 68),
    .asg 69 (.bin (.bxor .u64) (.var 34) (.bin (.band .u64) (.un (.bnot .u64) (.var 30)) (.var 31))),
    .asg 59 (.var 69),
    .asg 8 (.bin (.bxor .u64) (.var 8) (.var 63)),
    .asg 35 (.bin (.bxor .u64) (.bin (.shl .u64) (.var 8) (.lit 28)) (.bin (.shr .u64) (.var 8) (.lit 36))),
    .asg 14 (.bin (.bxor .u64) (.var 14) (.var 64)),
    .asg 36 (.bin (.bxor .u64) (.bin (.shl .u64) (.var 14) (.lit 20)) (.bin (.shr .u64) (.var 14) (.lit 44))),
    .asg 15 (.bin (.bxor .u64) (.var 15) (.var 60)),
    .asg 37 (.bin (.bxor .u64) (.bin (.shl .u64) (.var 15) (.lit 3)) (.bin (.shr .u64) (.var 15) (.lit 61))),
    .asg 21 (.bin (.bxor .u64) (.var 21) (.var 61)),
    .asg 38 (.bin (.bxor .u64) (.bin (.shl .u64) (.var 21) (.lit 45)) (.bin (.shr .u64) (.var 21) (.lit 19))),
    .asg 27 (.bin (.bxor .u64) (.var 27) (.var 62)),
    .asg 39 (.bin (.bxor .u64) (.bin (.shl .u64) (.var 27) (.lit 61)) (.bin (.shr .u64) (.var 27) (.lit 3))),
    .asg 70 (.bin (.bxor .u64) (.var 35) (.bin (.band .u64) (.un (.bnot .u64) (.var 36)) (.var 37))),
    .asg 55 (.bin (.bxor .u64) (.var 55) (.var 70)),
    .asg 71 (.bin (.bxor .u64) (.var 36) (.bin (.band .u64) (.un (.bnot .u64) (.var 37)) (.var 38))),
    .asg 56 (.bin (.bxor .u64) (.var 56) (.var 71)),
    .asg 72 (.bin (.bxor .u64) (.var 37) (.bin (.band .u64) (.un (.bnot .u64) (.var 38)) (.var 39))),
    .asg 57 (.bin (.bxor .u64) (.var 57) (.var 72)),
    .asg 73 (.bin (.bxor .u64) (.var 38) (.bin (.band .u64) (.un (.bnot .u64) (.var 39)) (.var 35))),
    .asg 58 (.bin (.bxor .u64) (.var 58) (.var 73)),
    .asg 74 (.bin (.bxor .u64) (.var 39) (.bin (.band .u64) (.un (.bnot .u64) (.var 35)) (.var 36))),
    .asg 59 (.bin (.bxor .u64) (.var 59) (.var 74)),
    .asg 6 (.bin (.bxor .u64) (.var 6) (.var 61)),
    .asg 40 (.bin (.bxor .u64) (.bin (.shl .u64) (.var 6) (.lit 1)) (.bin (.shr .u64) (.var 6) (.lit 63))),
    .asg 12 (.bin (.bxor .u64) (.var 12) (.var 62)),
    .asg 41 (.bin (.bxor .u64) (.bin (.shl .u64) (.var 12) (.lit 6)) (.bin (.shr .u64) (.var 12) (.lit 58))),
    .asg 18 (.bin (.bxor .u64) (.var 18) (.var 63)),
    .asg 42 (.bin (.bxor .u64) (.bin (.shl .u64) (.var 18) (.lit 25)) (.bin (.shr .u64) (.var 18) (.lit 39))),
    .asg 24 (.bin (.bxor .u64) (.var 24) (.var 64)),
    .asg 43 (.bin (.bxor .u64) (.bin (.shl .u64) (.var 24) (.lit 8)) (.bin (.shr .u64) (.var 24) (.lit 56))),
    .asg 25 (.bin (.bxor .u64) (.var 25) (.var 60)),
    .asg 44 (.bin (.bxor .u64) (.bin (.shl .u64) (.var 25) (.lit 18)) (.bin (.shr .u64) (.var 25) (.lit 46))),
    .asg 75 (.bin (.bxor .u64) (.var 40) (.bin (.band .u64) (.un (.bnot .u64) (.var 41)) (.var 42))),
    .asg 55 (.bin (.bxor .u64) (.var 55) (.var 75)),
    .asg 76 (.bin (.bxor .u64) (.var 41) (.bin (.band .u64) (.un (.bnot .u64) (.var 42)) (.var 43))),
    .asg 56 (.bin (.bxor .u64) (.var 56) (.var 76)),
    .asg 77 (.bin (.bxor .u64) (.var 42) (.bin (.band .u64) (.un (.bnot .u64) (.var 43)) (.var 44))),
    .asg 57 (.bin (.bxor .u64) (.var 57) (.var 77))]

/-- part of `KeccakF1600_FastLoop_Absorb` -/
def KeccakF1600_FastLoop_Absorb.part7 : Stmt :=
  block [
    .asg 78 (.bin (.bxor .u64) (.var 43) (.bin (.band .u64) (.un (.bnot .u64) (.var 44)) (.var 40))),
    .asg 58 (.bin (.bxor .u64) (.var 58) (.var 78)),
    .asg 79 (.bin (.bxor .u64) (.var 44) (.bin (.band .u64) (.un (.bnot .u64) (.var 40)) (.var 41))),
    .asg 59 (.bin (.bxor .u64) (.var 59) (.var 79)),
    .asg 9 (.bin (.bxor .u64) (.var 9) (.var 64)),
    .asg 45 (.bin (.bxor .u64) (.bin (.shl .u64) (.var 9) (.lit 27)) (.bin (.shr .u64) (.var 9) (.lit 37))),
    .asg 10 (.bin (.bxor .u64) (.var 10) (.var 60)),
    .asg 46 (.bin (.bxor .u64) (.bin (.shl .u64) (.var 10) (.lit 36)) (.bin (.shr .u64) (.var 10) (.lit 28))),
    .asg 16 (.bin (.bxor .u64) (.var 16) (.var 61)),
    .asg 47 (.bin (.bxor .u64) (.bin (.shl .u64) (.var 16) (.lit 10)) (.bin (.shr .u64) (.var 16) (.lit 54))),
    .asg 22 (.bin (.bxor .u64) (.var 22) (.var 62)),
    .asg 48 (.bin (.bxor .u64) (.bin (.shl .u64) (.var 22) (.lit 15)) (.bin (.shr .u64) (.var 22) (.lit 49))),
    .asg 28 (.bin (.bxor .u64) (.var 28) (.var 63)),
    .asg 49 (.bin (.bxor .u64) (.bin (.shl .u64) (.var 28) (.lit 56)) (.bin (.shr .u64) (.var 28) (.lit 8))),
    .asg 80 (.bin (.bxor .u64) (.var 45) (.bin (.band .u64) (.un (.bnot .u64) (.var 46)) (.var 47))),
    .asg 55 (.bin (.bxor .u64) (.var 55) (.var 80)),
    .asg 81 (.bin (.bxor .u64) (.var 46) (.bin (.band .u64) (.un (.bnot .u64) (.var 47)) (.var 48))),
    .asg 56 (.bin (.bxor .u64) (.var 56) (.var 81)),
    .asg 82 (.bin (.bxor .u64) (.var 47) (.bin (.band .u64) (.un (.bnot .u64) (.var 48)) (.var 49))),
    .asg 57 (.bin (.bxor .u64) (.var 57) (.var 82)),
    .asg 83 (.bin (.bxor .u64) (.var 48) (.bin (.band .u64) (.un (.bnot .u64) (.var 49)) (.var 45))),
    .asg 58 (.bin (.bxor .u64) (.var 58) (.var 83)),
    .asg 84 (.bin (.bxor .u64) (.var 49) (.bin (.band .u64) (.un (.bnot .u64) (.var 45)) (.var 46))),
    .asg 59 (.bin (.bxor .u64) (.var 59) (.var 84)),
    .asg 7 (.bin (.bxor .u64) (.var 7) (.var 62)),
    .asg 50 (.bin (.bxor .u64) (.bin (.shl .u64) (.var 7) (.lit 62)) (.bin (.shr .u64) (.var 7) (.lit 2))),
    .asg 13 (.bin (.bxor .u64) (.var 13) (.var 63)),
    .asg 51 (.bin (.bxor .u64) (.bin (.shl .u64) (.var 13) (.lit 55)) (.bin (.shr .u64) (.var 13) (.lit 9))),
    .asg 19 (.bin (.bxor .u64) (.var 19) (.var 64)),
    .asg 52 (.bin (.bxor .u64) (.bin (.shl .u64) (.var 19) (.lit 39)) (.bin (.shr .u64) (.var 19) (.lit 25))),
    .asg 20 (.bin (.bxor .u64) (.var 20) (.var 60)),
    .asg 53 (.bin (.bxor .u64) (.bin (.shl .u64) (.var 20) (.lit 41)) (.bin (.shr .u64) (.var 20) (.lit 23))),
    .asg 26 (.bin (.bxor .u64) (.var 26) (.var 61)),
    .asg 54 (.bin (.bxor .u64) (.bin (.shl .u64) (.var 26) (.lit 2)) (.bin (.shr .u64) (.var 26) (.lit 62))),
    .asg 85 (.bin (.bxor .u64) (.var 50) (.bin (.band .u64) (.un (.bnot .u64) (.var 51)) (.var 52))),
    .asg 55 (.bin (.bxor .u64) (.var 55) (.var 85)),
    .asg 86 (.bin (.bxor .u64) (.var 51) (.bin (.band .u64) (.un (.bnot .u64) (.var 52)) (.var 53))),
    .asg 56 (.bin (.bxor .u64) (.var 56) (.var 86)),
    .asg 87 (.bin (.bxor .u64) (.var 52) (.bin (.band .u64) (.un (.bnot .u64) (.var 53)) (.var 54))),
    .asg 57 (.bin (.bxor .u64) (.var 57) (.var 87))]

/-- part of `KeccakF1600_FastLoop_Absorb` -/
def KeccakF1600_FastLoop_Absorb.part8 : Stmt :=
  block [
    .asg 88 (.bin (.bxor .u64) (.var 53) (.bin (.band .u64) (.un (.bnot .u64) (.var 54)) (.var 50))),
    .asg 58 (.bin (.bxor .u64) (.var 58) (.var 88)),
    .asg 89 (.bin (.bxor .u64) (.var 54) (.bin (.band .u64) (.un (.bnot .u64) (.var 50)) (.var 51))),
    .asg 59 (.bin (.bxor .u64) (.var 59) (.var 89)),
    .asg 60 (.bin (.bxor .u64) (.var 59) (.bin (.bxor .u64) (.bin (.shl .u64) (.var 56) (.lit 1)) (.bin (.shr .u64)
      (.var 56) (.lit 63)))),
    .asg 61 (.bin (.bxor .u64) (.var 55) (.bin (.bxor .u64) (.bin (.shl .u64) (.var 57) (.lit 1)) (.bin (.shr .u64)
      (.var 57) (.lit 63)))),
    .asg 62 (.bin (.bxor .u64) (.var 56) (.bin (.bxor .u64) (.bin (.shl .u64) (.var 58) (.lit 1)) (.bin (.shr .u64)
      (.var 58) (.lit 63)))),
    .asg 63 (.bin (.bxor .u64) (.var 57) (.bin (.bxor .u64) (.bin (.shl .u64) (.var 59) (.lit 1)) (.bin (.shr .u64)
      (.var 59) (.lit 63)))),
    .asg 64 (.bin (.bxor .u64) (.var 58) (.bin (.bxor .u64) (.bin (.shl .u64) (.var 55) (.lit 1)) (.bin (.shr .u64)
      (.var 55) (.lit 63)))),
    .asg 65 (.bin (.bxor .u64) (.var 65) (.var 60)),
    .asg 30 (.var 65),
    .asg 71 (.bin (.bxor .u64) (.var 71) (.var 61)),
    .asg 31 (.bin (.bxor .u64) (.bin (.shl .u64) (.var 71) (.lit 44)) (.bin (.shr .u64) (.var 71) (.lit 20))),
    .asg 77 (.bin (.bxor .u64) (.var 77) (.var 62)),
    .asg 32 (.bin (.bxor .u64) (.bin (.shl .u64) (.var 77) (.lit 43)) (.bin (.shr .u64) (.var 77) (.lit 21))),
    .asg 83 (.bin (.bxor .u64) (.var 83) (.var 63)),
    .asg 33 (.bin (.bxor .u64) (.bin (.shl .u64) (.var 83) (.lit 21)) (.bin (.shr .u64) (.var 83) (.lit 43))),
    .asg 89 (.bin (.bxor .u64) (.var 89) (.var 64)),
    .asg 34 (.bin (.bxor .u64) (.bin (.shl .u64) (.var 89) (.lit 14)) (.bin (.shr .u64) (.var 89) (.lit 50))),
    .asg 5 (.bin (.bxor .u64) (.var 30) (.bin (.band .u64) (.un (.bnot .u64) (.var 31)) (.var 32))),
    .asg 5 (.bin (.bxor .u64) (.var 5) (.ld 8 (.padd (.glob 0) (.lit 3) 8))),
    .asg 55 (.var 5),
    .asg 6 (.bin (.bxor .u64) (.var 31) (.bin (.band .u64) (.un (.bnot .u64) (.var 32)) (.var 33))),
    .asg 56 (.var 6),
    .asg 7 (.bin (.bxor .u64) (.var 32) (.bin (.band .u64) (.un (.bnot .u64) (.var 33)) (.var 34))),
    .asg 57 (.var 7),
    .asg 8 (.bin (.bxor .u64) (.var 33) (.bin (.band .u64) (.un (.bnot .u64) (.var 34)) (.var 30))),
    .asg 58 (.var 8),
    .asg 9 (.bin (.bxor .u64) (.var 34) (.bin (.band .u64) (.un (.bnot .u64) (.var 30)) (.var 31))),
    .asg 59 (.var 9),
    .asg 68 (.bin (.bxor .u64) (.var 68) (.var 63)),
    .asg 35 (.bin (.bxor .u64) (.bin (.shl .u64) (.var 68) (.lit 28)) (.bin (.shr .u64) (.var 68) (.lit 36))),
    .asg 74 (.bin (.bxor .u64) (.var 74) (.var 64)),
    .asg 36 (.bin (.bxor .u64) (.bin (.shl .u64) (.var 74) (.lit 20)) (.bin (.shr .u64) (.var 74) (.lit 44))),
    .asg 75 (.bin (.bxor .u64) (.var 75) (.var 60)),
    .asg 37 (.bin (.bxor .u64) (.bin (.shl .u64) (.var 75) (.lit 3)) (.bin (.shr .u64) (.var 75) (.lit 61))),
    .asg 81 (.bin (.bxor .u64) (.var 81) (.var 61)),
    .asg 38 (.bin (.bxor .u64) (.bin (.shl .u64) (.var 81) (.lit 45)) (.bin (.shr .u64) (.var 81) (.lit 19))),
    .asg 87 (.bin (.bxor .u64) (.var 87) (.var 62)),
    .asg 39 (.bin (.bxor .u64) (.bin (.shl .u64) (.var 87) (.lit 61)) (.bin (.shr .u64) (.var 87) (.lit 3)))]

/-- part of `KeccakF1600_FastLoop_Absorb` -/
def KeccakF1600_FastLoop_Absorb.part9 : Stmt :=
  block [
    .asg 10 (.bin (.bxor .u64) (.var 35) (.bin (.band .u64) (.un (.bnot .u64) (.var 36)) (.var 37))),
    .asg 55 (.bin (.bxor .u64) (.var 55) (.var 10)),
    .asg 11 (.bin (.bxor .u64) (.var 36) (.bin (.band .u64) (.un (.bnot .u64) (.var 37)) (.var 38))),
    .asg 56 (.bin (.bxor .u64) (.var 56) (.var 11)),
    .asg 12 (.bin (.bxor .u64) (.var 37) (.bin (.band .u64) (.un (.bnot .u64) (.var 38)) (.var 39))),
    .asg 57 (.bin (.bxor .u64) (.var 57) (.var 12)),
    .asg 13 (.bin (.bxor .u64) (.var 38) (.bin (.band .u64) (.un (.bnot .u64) (.var 39)) (.var 35))),
    .asg 58 (.bin (.bxor .u64) (.var 58) (.var 13)),
    .asg 14 (.bin (.bxor .u64) (.var 39) (.bin (.band .u64) (.un (.bnot .u64) (.var 35)) (.var 36))),
    .asg 59 (.bin (.bxor .u64) (.var 59) (.var 14)),
    .asg 66 (.bin (.bxor .u64) (.var 66) (.var 61)),
    .asg 40 (.bin (.bxor .u64) (.bin (.shl .u64) (.var 66) (.lit 1)) (.bin (.shr .u64) (.var 66) (.lit 63))),
    .asg 72 (.bin (.bxor .u64) (.var 72) (.var 62)),
    .asg 41 (.bin (.bxor .u64) (.bin (.shl .u64) (.var 72) (.lit 6)) (.bin (.shr .u64) (.var 72) (.lit 58))),
    .asg 78 (.bin (.bxor .u64) (.var 78) (.var 63)),
    .asg 42 (.bin (.bxor .u64) (.bin (.shl .u64) (.var 78) (.lit 25)) (.bin (.shr .u64) (.var 78) (.lit 39))),
    .asg 84 (.bin (.bxor .u64) (.var 84) (.var 64)),
    .asg 43 (.bin (.bxor .u64) (.bin (.shl .u64) (.var 84) (.lit 8)) (.bin (.shr .u64) (.var 84) (.lit 56))),
    .asg 85 (.bin (.bxor .u64) (.var 85) (.var 60)),
    .asg 44 (.bin (.bxor .u64) (.bin (.shl .u64) (.var 85) (.lit 18)) (.bin (.shr .u64) (.var 85) (.lit 46))),
    .asg 15 (.bin (.bxor .u64) (.var 40) (.bin (.band .u64) (.un (.bnot .u64) (.var 41)) (.var 42))),
    .asg 55 (.bin (.bxor .u64) (.var 55) (.var 15)),
    .asg 16 (.bin (.bxor .u64) (.var 41) (.bin (.band .u64) (.un (.bnot .u64) (.var 42)) (.var 43))),
    .asg 56 (.bin (.bxor .u64) (.var 56) (.var 16)),
    .asg 17 (.bin (.bxor .u64) (.var 42) (.bin (.band .u64) (.un (.bnot .u64) (.var 43)) (.var 44))),
    .asg 57 (.bin (.bxor .u64) (.var 57) (.var 17)),
    .asg 18 (.bin (.bxor .u64) (.var 43) (.bin (.band .u64) (.un (.bnot .u64) (.var 44)) (.var 40))),
    .asg 58 (.bin (.bxor .u64) (.var 58) (.var 18)),
    .asg 19 (.bin (.bxor .u64) (.var 44) (.bin (.band .u64) (.un (.bnot .u64) (.var 40)) (.var 41))),
    .asg 59 (.bin (.bxor .u64) (.var 59) (.var 19)),
    .asg 69 (.bin (.bxor .u64) (.var 69) (.var 64)),
    .asg 45 (.bin (.bxor .u64) (.bin (.shl .u64) (.var 69) (.lit 27)) (.bin (.shr .u64) (.var 69) (.lit 37))),
    .asg 70 (.bin (.bxor .u64) (.var 70) (.var 60)),
    .asg 46 (.bin (.bxor .u64) (.bin (.shl .u64) (.var 70) (.lit 36)) (.bin (.shr .u64) (.var 70) (.lit 28))),
    .asg 76 (.bin (.bxor .u64) (.var 76) (.var 61)),
    .asg 47 (.bin (.bxor .u64) (.bin (.shl .u64) (.var 76) (.lit 10)) (.bin (.shr .u64) (.var 76) (.lit 54))),
    .asg 82 (.bin (.bxor .u64) (.var 82) (.var 62)),
    .asg 48 (.bin (.bxor .u64) (.bin (.shl .u64) (.var 82) (.lit 15)) (.bin (.shr .u64) (.var 82) (.lit 49))),
    .asg 88 (.bin (.bxor .u64) (.var 88) (.var 63)),
    .asg 49 (.bin (.bxor .u64) (.bin (.shl .u64) (.var 88) (.lit 56)) (.bin (.shr .u64) (.var 88) (.lit 8)))]

/-- part of `KeccakF1600_FastLoop_Absorb` -/
def KeccakF1600_FastLoop_Absorb.part10 : Stmt :=
  block [
    .asg 20 (.bin (.bxor .u64) (.var 45) (.bin (.band .u64) (.un (.bnot .u64) (.var 46)) (.var 47))),
    .asg 55 (.bin (.bxor .u64) (.var 55) (.var 20)),
    .asg 21 (.bin (.bxor .u64) (.var 46) (.bin (.band .u64) (.un (.bnot .u64) (.var 47)) (.var 48))),
    .asg 56 (.bin (.bxor .u64) (.var 56) (.var 21)),
    .asg 22 (.bin (.bxor .u64) (.var 47) (.bin (.band .u64) (.un (.bnot .u64) (.var 48)) (.var 49))),
    .asg 57 (.bin (.bxor .u64) (.var 57) (.var 22)),
    .asg 23 (.bin (.bxor .u64) (.var 48) (.bin (.band .u64) (.un (.bnot .u64) (.var 49)) (.var 45))),
    .asg 58 (.bin (.bxor .u64) (.var 58) (.var 23)),
    .asg 24 (.bin (.bxor .u64) (.var 49) (.bin (.band .u64) (.un (.bnot .u64) (.var 45)) (.var 46))),
    .asg 59 (.bin (.bxor .u64) (.var 59) (.var 24)),
    .asg 67 (.bin (.bxor .u64) (.var 67) (.var 62)),
    .asg 50 (.bin (.bxor .u64) (.bin (.shl .u64) (.var 67) (.lit 62)) (.bin (.shr .u64) (.var 67) (.lit 2))),
    .asg 73 (.bin (.bxor .u64) (.var 73) (.var 63)),
    .asg 51 (.bin (.bxor .u64) (.bin (.shl .u64) (.var 73) (.lit 55)) (.bin (.shr .u64) (.var 73) (.lit 9))),
    .asg 79 (.bin (.bxor .u64) (.var 79) (.var 64)),
    .asg 52 (.bin (.bxor .u64) (.bin (.shl .u64) (.var 79) (.lit 39)) (.bin (.shr .u64) (.var 79) (.lit 25))),
    .asg 80 (.bin (.bxor .u64) (.var 80) (.var 60)),
    .asg 53 (.bin (.bxor .u64) (.bin (.shl .u64) (.var 80) (.lit 41)) (.bin (.shr .u64) (.var 80) (.lit 23))),
    .asg 86 (.bin (.bxor .u64) (.var 86) (.var 61)),
    .asg 54 (.bin (.bxor .u64) (.bin (.shl .u64) (.var 86) (.lit 2)) (.bin (.shr .u64) (.var 86) (.lit 62))),
    .asg 25 (.bin (.bxor .u64) (.var 50) (.bin (.band .u64) (.un (.bnot .u64) (.var 51)) (.var 52))),
    .asg 55 (.bin (.bxor .u64) (.var 55) (.var 25)),
    .asg 26 (.bin (.bxor .u64) (.var 51) (.bin (.band .u64) (.un (.bnot .u64) (.var 52)) (.var 53))),
    .asg 56 (.bin (.bxor .u64) (.var 56) (.var 26)),
    .asg 27 (.bin (.bxor .u64) (.var 52) (.bin (.band .u64) (.un (.bnot .u64) (.var 53)) (.var 54))),
    .asg 57 (.bin (.bxor .u64) (.var 57) (.var 27)),
    .asg 28 (.bin (.bxor .u64) (.var 53) (.bin (.band .u64) (.un (.bnot .u64) (.var 54)) (.var 50))),
    .asg 58 (.bin (.bxor .u64) (.var 58) (.var 28)),
    .asg 29 (.bin (.bxor .u64) (.var 54) (.bin (.band .u64) (.un (.bnot .u64) (.var 50)) (.var 51))),
    .asg 59 (.bin (.bxor .u64) (.var 59) (.var 29)),
    .asg 60 (.bin (.bxor .u64) (.var 59) (.bin (.bxor .u64) (.bin (.shl .u64) (.var 56) (.lit 1)) (.bin (.shr .u64)
      (.var 56) (.lit 63)))),
    .asg 61 (.bin (.bxor .u64) (.var 55) (.bin (.bxor .u64) (.bin (.shl .u64) (.var 57) (.lit 1)) (.bin (.shr .u64)
      (.var 57) (.lit 63)))),
    .asg 62 (.bin (.bxor .u64) (.var 56) (.bin (.bxor .u64) (.bin (.shl .u64) (.var 58) (.lit 1)) (.bin (.shr .u64)
      (.var 58) (.lit 63)))),
    .asg 63 (.bin (.bxor .u64) (.var 57) (.bin (.bxor .u64) (.bin (.shl .u64) (.var 59) (.lit 1)) (.bin (.shr .u64)
      (.var 59) (.lit 63)))),
    .asg 64 (.bin (.bxor .u64) (.var 58) (.bin (.bxor .u64) (.bin (.shl .u64) (.var 55) (.lit 1)) (.bin (.shr .u64)
      (.var 55) (.lit 63)))),
    .asg 5 (.bin (.bxor .u64) (.var 5) (.var 60)),
    .asg 30 (.var 5),
    .asg 11 (.bin (.bxor .u64) (.var 11) (.var 61)),
    .asg 31 (.bin (.bxor .u64) (.bin (.shl .u64) (.var 11) (.lit 44)) (.bin (.shr .u64) (.var 11) (.lit 20))),
    .asg 17 (.bin (.bxor .u64) (.var 17) (.var 62))]

/-- part of `KeccakF1600_FastLoop_Absorb` -/
def KeccakF1600_FastLoop_Absorb.part11 : Stmt :=
  block [
    .asg 32 (.bin (.bxor .u64) (.bin (.shl .u64) (.var 17) (.lit 43)) (.bin (.shr .u64) (.var 17) (.lit 21))),
    .asg 23 (.bin (.bxor .u64) (.var 23) (.var 63)),
    .asg 33 (.bin (.bxor .u64) (.bin (.shl .u64) (.var 23) (.lit 21)) (.bin (.shr .u64) (.var 23) (.lit 43))),
    .asg 29 (.bin (.bxor .u64) (.var 29) (.var 64)),
    .asg 34 (.bin (.bxor .u64) (.bin (.shl .u64) (.var 29) (.lit 14)) (.bin (.shr .u64) (.var 29) (.lit 50))),
    .asg 65 (.bin (.bxor .u64) (.var 30) (.bin (.band .u64) (.un (.bnot .u64) (.var 31)) (.var 32))),
    .asg 65 (.bin (.bxor .u64) (.var 65) (.ld 8 (.padd (.glob 0) (.lit 4) 8))),
    .asg 55 (.var 65),
    .asg 66 (.bin (.bxor .u64) (.var 31) (.bin (.band .u64) (.un (.bnot .u64) (.var 32)) (.var 33))),
    .asg 56 (.var 66),
    .asg 67 (.bin (.bxor .u64) (.var 32) (.bin (.band .u64) (.un (.bnot .u64) (.var 33)) (.var 34))),
    .asg 57 (.var 67),
    .asg 68 (.bin (.bxor .u64) (.var 33) (.bin (.band .u64) (.un (.bnot .u64) (.var 34)) (.var 30))),
    .asg 58 (.var 68),
    .asg 69 (.bin (.bxor .u64) (.var 34) (.bin (.band .u64) (.un (.bnot .u64) (.var 30)) (.var 31))),
    .asg 59 (.var 69),
    .asg 8 (.bin (.bxor .u64) (.var 8) (.var 63)),
    .asg 35 (.bin (.bxor .u64) (.bin (.shl .u64) (.var 8) (.lit 28)) (.bin (.shr .u64) (.var 8) (.lit 36))),
    .asg 14 (.bin (.bxor .u64) (.var 14) (.var 64)),
    .asg 36 (.bin (.bxor .u64) (.bin (.shl .u64) (.var 14) (.lit 20)) (.bin (.shr .u64) (.var 14) (.lit 44))),
    .asg 15 (.bin (.bxor .u64) (.var 15) (.var 60)),
    .asg 37 (.bin (.bxor .u64) (.bin (.shl .u64) (.var 15) (.lit 3)) (.bin (.shr .u64) (.var 15) (.lit 61))),
    .asg 21 (.bin (.bxor .u64) (.var 21) (.var 61)),
    .asg 38 (.bin (.bxor .u64) (.bin (.shl .u64) (.var 21) (.lit 45)) (.bin (.shr .u64) (.var 21) (.lit 19))),
    .asg 27 (.bin (.bxor .u64) (.var 27) (.var 62)),
    .asg 39 (.bin (.bxor .u64) (.bin (.shl .u64) (.var 27) (.lit 61)) (.bin (.shr .u64) (.var 27) (.lit 3))),
    .asg 70 (.bin (.bxor .u64) (.var 35) (.bin (.band .u64) (.un (.bnot .u64) (.var 36)) (.var 37))),
    .asg 55 (.bin (.bxor .u64) (.var 55) (.var 70)),
    .asg 71 (.bin (.bxor .u64) (.var 36) (.bin (.band .u64) (.un (.bnot .u64) (.var 37)) (.var 38))),
    .asg 56 (.bin (.bxor .u64) (.var 56) (.var 71)),
    .asg 72 (.bin (.bxor .u64) (.var 37) (.bin (.band .u64) (.un (.bnot .u64) (.var 38)) (.var 39))),
    .asg 57 (.bin (.bxor .u64) (.var 57) (.var 72)),
    .asg 73 (.bin (.bxor .u64) (.var 38) (.bin (.band .u64) (.un (.bnot .u64) (.var 39)) (.var 35))),
    .asg 58 (.bin (.bxor .u64) (.var 58) (.var 73)),
    .asg 74 (.bin (.bxor .u64) (.var 39) (.bin (.band .u64) (.un (.bnot .u64) (.var 35)) (.var 36))),
    .asg 59 (.bin (.bxor .u64) (.var 59) (.var 74)),
    .asg 6 (.bin (.bxor .u64) (.var 6) (.var 61)),
    .asg 40 (.bin (.bxor .u64) (.bin (.shl .u64) (.var 6) (.lit 1)) (.bin (.shr .u64) (.var 6) (.lit 63))),
    .asg 12 (.bin (.bxor .u64) (.var 12) (.var 62)),
    .asg 41 (.bin (.bxor .u64) (.bin (.shl .u64) (.var 12) (.lit 6)) (.bin (.shr .u64) (.var 12) (.lit 58)))]

/-- part of `KeccakF1600_FastLoop_Absorb` -/
def KeccakF1600_FastLoop_Absorb.part12 : Stmt :=
  block [
    .asg 18 (.bin (.bxor .u64) (.var 18) (.var 63)),
    .asg 42 (.bin (.bxor .u64) (.bin (.shl .u64) (.var 18) (.lit 25)) (.bin (.shr .u64) (.var 18) (.lit 39))),
    .asg 24 (.bin (.bxor .u64) (.var 24) (.var 64)),
    .asg 43 (.bin (.bxor .u64) (.bin (.shl .u64) (.var 24) (.lit 8)) (.bin (.shr .u64) (.var 24) (.lit 56))),
    .asg 25 (.bin (.bxor .u64) (.var 25) (.var 60)),
    .asg 44 (.bin (.bxor .u64) (.bin (.shl .u64) (.var 25) (.lit 18)) (.bin (.shr .u64) (.var 25) (.lit 46))),
    .asg 75 (.bin (.bxor .u64) (.var 40) (.bin (.band .u64) (.un (.bnot .u64) (.var 41)) (.var 42))),
    .asg 55 (.bin (.bxor .u64) (.var 55) (.var 75)),
    .asg 76 (.bin (.bxor .u64) (.var 41) (.bin (.band .u64) (.un (.bnot .u64) (.var 42)) (.var 43))),
    .asg 56 (.bin (.bxor .u64) (.var 56) (.var 76)),
    .asg 77 (.bin (.bxor .u64) (.var 42) (.bin (.band .u64) (.un (.bnot .u64) (.var 43)) (.var 44))),
    .asg 57 (.bin (.bxor .u64) (.var 57) (.var 77)),
    .asg 78 (.bin (.bxor .u64) (.var 43) (.bin (.band .u64) (.un (.bnot .u64) (.var 44)) (.var 40))),
    .asg 58 (.bin (.bxor .u64) (.var 58) (.var 78)),
    .asg 79 (.bin (.bxor .u64) (.var 44) (.bin (.band .u64) (.un (.bnot .u64) (.var 40)) (.var 41))),
    .asg 59 (.bin (.bxor .u64) (.var 59) (.var 79)),
    .asg 9 (.bin (.bxor .u64) (.var 9) (.var 64)),
    .asg 45 (.bin (.bxor .u64) (.bin (.shl .u64) (.var 9) (.lit 27)) (.bin (.shr .u64) (.var 9) (.lit 37))),
    .asg 10 (.bin (.bxor .u64) (.var 10) (.var 60)),
    .asg 46 (.bin (.bxor .u64) (.bin (.shl .u64) (.var 10) (.lit 36)) (.bin (.shr .u64) (.var 10) (.lit 28))),
    .asg 16 (.bin (.bxor .u64) (.var 16) (.var 61)),
    .asg 47 (.bin (.bxor .u64) (.bin (.shl .u64) (.var 16) (.lit 10)) (.bin (.shr .u64) (.var 16) (.lit 54))),
    .asg 22 (.bin (.bxor .u64) (.var 22) (.var 62)),
    .asg 48 (.bin (.bxor .u64) (.bin (.shl .u64) (.var 22) (.lit 15)) (.bin (.shr .u64) (.var 22) (.lit 49))),
    .asg 28 (.bin (.bxor .u64) (.var 28) (.var 63)),
    .asg 49 (.bin (.bxor .u64) (.bin (.shl .u64) (.var 28) (.lit 56)) (.bin (.shr .u64) (.var 28) (.lit 8))),
    .asg 80 (.bin (.bxor .u64) (.var 45) (.bin (.band .u64) (.un (.bnot .u64) (.var 46)) (.var 47))),
    .asg 55 (.bin (.bxor .u64) (.var 55) (.var 80)),
    .asg 81 (.bin (.bxor .u64) (.var 46) (.bin (.band .u64) (.un (.bnot .u64) (.var 47)) (.var 48))),
    .asg 56 (.bin (.bxor .u64) (.var 56) (.var 81)),
    .asg 82 (.bin (.bxor .u64) (.var 47) (.bin (.band .u64) (.un (.bnot .u64) (.var 48)) (.var 49))),
    .asg 57 (.bin (.bxor .u64) (.var 57) (.var 82)),
    .asg 83 (.bin (.bxor .u64) (.var 48) (.bin (.band .u64) (.un (.bnot .u64) (.var 49)) (.var 45))),
    .asg 58 (.bin (.bxor .u64) (.var 58) (.var 83)),
    .asg 84 (.bin (.bxor .u64) (.var 49) (.bin (.band .u64) (.un (.bnot .u64) (.var 45)) (.var 46))),
    .asg 59 (.bin (.bxor .u64) (.var 59) (.var 84)),
    .asg 7 (.bin (.bxor .u64) (.var 7) (.var 62)),
    .asg 50 (.bin (.bxor .u64) (.bin (.shl .u64) (.var 7) (.lit 62)) (.bin (.shr .u64) (.var 7) (.lit 2))),
    .asg 13 (.bin (.bxor .u64) (.var 13) (.var 63)),
    .asg 51 (.bin (.bxor .u64) (.bin (.shl .u64) (.var 13) (.lit 55)) (.bin (.shr .u64) (.var 13) (.lit 9)))]

/-- part of `KeccakF1600_FastLoop_Absorb` -/
def KeccakF1600_FastLoop_Absorb.part13 : Stmt :=
  block [
    .asg 19 (.bin (.bxor .u64) (.var 19) (.var 64)),
    .asg 52 (.bin (.bxor .u64) (.bin (.shl .u64) (.var 19) (.lit 39)) (.bin (.shr .u64) (.var 19) (.lit 25))),
    .asg 20 (.bin (.bxor .u64) (.var 20) (.var 60)),
    .asg 53 (.bin (.bxor .u64) (.bin (.shl .u64) (.var 20) (.lit 41)) (.bin (.shr .u64) (.var 20) (.lit 23))),
    .asg 26 (.bin (.bxor .u64) (.var 26) (.var 61)),
    .asg 54 (.bin (.bxor .u64) (.bin (.shl .u64) (.var 26) (.lit 2)) (.bin (.shr .u64) (.var 26) (.lit 62))),
    .asg 85 (.bin (.bxor .u64) (.var 50) (.bin (.band .u64) (.un (.bnot .u64) (.var 51)) (.var 52))),
    .asg 55 (.bin (.bxor .u64) (.var 55) (.var 85)),
    .asg 86 (.bin (.bxor .u64) (.var 51) (.bin (.band .u64) (.un (.bnot .u64) (.var 52)) (.var 53))),
    .asg 56 (.bin (.bxor .u64) (.var 56) (.var 86)),
    .asg 87 (.bin (.bxor .u64) (.var 52) (.bin (.band .u64) (.un (.bnot .u64) (.var 53)) (.var 54))),
    .asg 57 (.bin (.bxor .u64) (.var 57) (.var 87)),
    .asg 88 (.bin (.bxor .u64) (.var 53) (.bin (.band .u64) (.un (.bnot .u64) (.var 54)) (.var 50))),
    .asg 58 (.bin (.bxor .u64) (.var 58) (.var 88)),
    .asg 89 (.bin (.bxor .u64) (.var 54) (.bin (.band .u64) (.un (.bnot .u64) (.var 50)) (.var 51))),
    .asg 59 (.bin (.bxor .u64) (.var 59) (.var 89)),
    .asg 60 (.bin (.bxor .u64) (.var 59) (.bin (.bxor .u64) (.bin (.shl .u64) (.var 56) (.lit 1)) (.bin (.shr .u64)
      (.var 56) (.lit 63)))),
    .asg 61 (.bin (.bxor .u64) (.var 55) (.bin (.bxor .u64) (.bin (.shl .u64) (.var 57) (.lit 1)) (.bin (.shr .u64)
      (.var 57) (.lit 63)))),
    .asg 62 (.bin (.bxor .u64) (.var 56) (.bin (.bxor .u64) (.bin (.shl .u64) (.var 58) (.lit 1)) (.bin (.shr .u64)
      (.var 58) (.lit 63)))),
    .asg 63 (.bin (.bxor .u64) (.var 57) (.bin (.bxor .u64) (.bin (.shl .u64) (.var 59) (.lit 1)) (.bin (.shr .u64)
      (.var 59) (.lit 63)))),
    .asg 64 (.bin (.bxor .u64) (.var 58) (.bin (.bxor .u64) (.bin (.shl .u64) (.var 55) (.lit 1)) (.bin (.shr .u64)
      (.var 55) (.lit 63)))),
    .asg 65 (.bin (.bxor .u64) (.var 65) (.var 60)),
    .asg 30 (.var 65),
    .asg 71 (.bin (.bxor .u64) (.var 71) (.var 61)),
    .asg 31 (.bin (.bxor .u64) (.bin (.shl .u64) (.var 71) (.lit 44)) (.bin (.shr .u64) (.var 71) (.lit 20))),
    .asg 77 (.bin (.bxor .u64) (.var 77) (.var 62)),
    .asg 32 (.bin (.bxor .u64) (.bin (.shl .u64) (.var 77) (.lit 43)) (.bin (.shr .u64) (.var 77) (.lit 21))),
    .asg 83 (.bin (.bxor .u64) (.var 83) (.var 63)),
    .asg 33 (.bin (.bxor .u64) (.bin (.shl .u64) (.var 83) (.lit 21)) (.bin (.shr .u64) (.var 83) (.lit 43))),
    .asg 89 (.bin (.bxor .u64) (.var 89) (.var 64)),
    .asg 34 (.bin (.bxor .u64) (.bin (.shl .u64) (.var 89) (.lit 14)) (.bin (.shr .u64) (.var 89) (.lit 50))),
    .asg 5 (.bin (.bxor .u64) (.var 30) (.bin (.band .u64) (.un (.bnot .u64) (.var 31)) (.var 32))),
    .asg 5 (.bin (.bxor .u64) (.var 5) (.ld 8 (.padd (.glob 0) (.lit 5) 8))),
    .asg 55 (.var 5),
    .asg 6 (.bin (.bxor .u64) (.var 31) (.bin (.band .u64) (.un (.bnot .u64) (.var 32)) (.var 33))),
    .asg 56 (.var 6),
    .asg 7 (.bin (.bxor .u64) (.var 32) (.bin (.band .u64) (.un (.bnot .u64) (.var 33)) (.var 34))),
    .asg 57 (.var 7),
    .asg 8 (.bin (.bxor .u64) (.var 33) (.bin (.band .u64) (.un (.bnot .u64) (.var 34)) (.var 30))),
    .asg 58 (.var 8)]

/-- part of `KeccakF1600_FastLoop_Absorb` -/
def KeccakF1600_FastLoop_Absorb.part14 : Stmt :=
  block [
    .asg 9 (.bin (.bxor .u64) (.var 34) (.bin (.band .u64) (.un (.bnot .u64) (.var 30)) (.var 31))),
    .asg 59 (.var 9),
    .asg 68 (.bin (.bxor .u64) (.var 68) (.var 63)),
    .asg 35 (.bin (.bxor .u64) (.bin (.shl .u64) (.var 68) (.lit 28)) (.bin (.shr .u64) (.var 68) (.lit 36))),
    .asg 74 (.bin (.bxor .u64) (.var 74) (.var 64)),
    .asg 36 (.bin (.bxor .u64) (.bin (.shl .u64) (.var 74) (.lit 20)) (.bin (.shr .u64) (.var 74) (.lit 44))),
    .asg 75 (.bin (.bxor .u64) (.var 75) (.var 60)),
    .asg 37 (.bin (.bxor .u64) (.bin (.shl .u64) (.var 75) (.lit 3)) (.bin (.shr .u64) (.var 75) (.lit 61))),
    .asg 81 (.bin (.bxor .u64) (.var 81) (.var 61)),
    .asg 38 (.bin (.bxor .u64) (.bin (.shl .u64) (.var 81) (.lit 45)) (.bin (.shr .u64) (.var 81) (.lit 19))),
    .asg 87 (.bin (.bxor .u64) (.var 87) (.var 62)),
    .asg 39 (.bin (.bxor .u64) (.bin (.shl .u64) (.var 87) (.lit 61)) (.bin (.shr .u64) (.var 87) (.lit 3))),
    .asg 10 (.bin (.bxor .u64) (.var 35) (.bin (.band .u64) (.un (.bnot .u64) (.var 36)) (.var 37))),
    .asg 55 (.bin (.bxor .u64) (.var 55) (.var 10)),
    .asg 11 (.bin (.bxor .u64) (.var 36) (.bin (.band .u64) (.un (.bnot .u64) (.var 37)) (.var 38))),
    .asg 56 (.bin (.bxor .u64) (.var 56) (.var 11)),
    .asg 12 (.bin (.bxor .u64) (.var 37) (.bin (.band .u64) (.un (.bnot .u64) (.var 38)) (.var 39))),
    .asg 57 (.bin (.bxor .u64) (.var 57) (.var 12)),
    .asg 13 (.bin (.bxor .u64) (.var 38) (.bin (.band .u64) (.un (.bnot .u64) (.var 39)) (.var 35))),
    .asg 58 (.bin (.bxor .u64) (.var 58) (.var 13)),
    .asg 14 (.bin (.bxor .u64) (.var 39) (.bin (.band .u64) (.un (.bnot .u64) (.var 35)) (.var 36))),
    .asg 59 (.bin (.bxor .u64) (.var 59) (.var 14)),
    .asg 66 (.bin (.bxor .u64) (.var 66) (.var 61)),
    .asg 40 (.bin (.bxor .u64) (.bin (.shl .u64) (.var 66) (.lit 1)) (.bin (.shr .u64) (.var 66) (.lit 63))),
    .asg 72 (.bin (.bxor .u64) (.var 72) (.var 62)),
    .asg 41 (.bin (.bxor .u64) (.bin (.shl .u64) (.var 72) (.lit 6)) (.bin (.shr .u64) (.var 72) (.lit 58))),
    .asg 78 (.bin (.bxor .u64) (.var 78) (.var 63)),
    .asg 42 (.bin (.bxor .u64) (.bin (.shl .u64) (.var 78) (.lit 25)) (.bin (.shr .u64) (.var 78) (.lit 39))),
    .asg 84 (.bin (.bxor .u64) (.var 84) (.var 64)),
    .asg 43 (.bin (.bxor .u64) (.bin (.shl .u64) (.var 84) (.lit 8)) (.bin (.shr .u64) (.var 84) (.lit 56))),
    .asg 85 (.bin (.bxor .u64) (.var 85) (.var 60)),
    .asg 44 (.bin (.bxor .u64) (.bin (.shl .u64) (.var 85) (.lit 18)) (.bin (.shr .u64) (.var 85) (.lit 46))),
    .asg 15 (.bin (.bxor .u64) (.var 40) (.bin (.band .u64) (.un (.bnot .u64) (.var 41)) (.var 42))),
    .asg 55 (.bin (.bxor .u64) (.var 55) (.var 15)),
    .asg 16 (.bin (.bxor .u64) (.var 41) (.bin (.band .u64) (.un (.bnot .u64) (.var 42)) (.var 43))),
    .asg 56 (.bin (.bxor .u64) (.var 56) (.var 16)),
    .asg 17 (.bin (.bxor .u64) (.var 42) (.bin (.band .u64) (.un (.bnot .u64) (.var 43)) (.var 44))),
    .asg 57 (.bin (.bxor .u64) (.var 57) (.var 17)),
    .asg 18 (.bin (.bxor .u64) (.var 43) (.bin (.band .u64) (.un (.bnot .u64) (.var 44)) (.var 40))),
    .asg 58 (.bin (.bxor .u64) (.var 58) (.var 18))]

/-- part of `KeccakF1600_FastLoop_Absorb` -/
def KeccakF1600_FastLoop_Absorb.part15 : Stmt :=
  block [
    .asg 19 (.bin (.bxor .u64) (.var 44) (.bin (.band .u64) (.un (.bnot .u64) (.var 40)) (.var 41))),
    .asg 59 (.bin (.bxor .u64) (.var 59) (.var 19)),
    .asg 69 (.bin (.bxor .u64) (.var 69) (.var 64)),
    .asg 45 (.bin (.bxor .u64) (.bin (.shl .u64) (.var 69) (.lit 27)) (.bin (.shr .u64) (.var 69) (.lit 37))),
    .asg 70 (.bin (.bxor .u64) (.var 70) (.var 60)),
    .asg 46 (.bin (.bxor .u64) (.bin (.shl .u64) (.var 70) (.lit 36)) (.bin (.shr .u64) (.var 70) (.lit 28))),
    .asg 76 (.bin (.bxor .u64) (.var 76) (.var 61)),
    .asg 47 (.bin (.bxor .u64) (.bin (.shl .u64) (.var 76) (.lit 10)) (.bin (.shr .u64) (.var 76) (.lit 54))),
    .asg 82 (.bin (.bxor .u64) (.var 82) (.var 62)),
    .asg 48 (.bin (.bxor .u64) (.bin (.shl .u64) (.var 82) (.lit 15)) (.bin (.shr .u64) (.var 82) (.lit 49))),
    .asg 88 (.bin (.bxor .u64) (.var 88) (.var 63)),
    .asg 49 (.bin (.bxor .u64) (.bin (.shl .u64) (.var 88) (.lit 56)) (.bin (.shr .u64) (.var 88) (.lit 8))),
    .asg 20 (.bin (.bxor .u64) (.var 45) (.bin (.band .u64) (.un (.bnot .u64) (.var 46)) (.var 47))),
    .asg 55 (.bin (.bxor .u64) (.var 55) (.var 20)),
    .asg 21 (.bin (.bxor .u64) (.var 46) (.bin (.band .u64) (.un (.bnot .u64) (.var 47)) (.var 48))),
    .asg 56 (.bin (.bxor .u64) (.var 56) (.var 21)),
    .asg 22 (.bin (.bxor .u64) (.var 47) (.bin (.band .u64) (.un (.bnot .u64) (.var 48)) (.var 49))),
    .asg 57 (.bin (.bxor .u64) (.var 57) (.var 22)),
    .asg 23 (.bin (.bxor .u64) (.var 48) (.bin (.band .u64) (.un (.bnot .u64) (.var 49)) (.var 45))),
    .asg 58 (.bin (.bxor .u64) (.var 58) (.var 23)),
    .asg 24 (.bin (.bxor .u64) (.var 49) (.bin (.band .u64) (.un (.bnot .u64) (.var 45)) (.var 46))),
    .asg 59 (.bin (.bxor .u64) (.var 59) (.var 24)),
    .asg 67 (.bin (.bxor .u64) (.var 67) (.var 62)),
    .asg 50 (.bin (.bxor .u64) (.bin (.shl .u64) (.var 67) (.lit 62)) (.bin (.shr .u64) (.var 67) (.lit 2))),
    .asg 73 (.bin (.bxor .u64) (.var 73) (.var 63)),
    .asg 51 (.bin (.bxor .u64) (.bin (.shl .u64) (.var 73) (.lit 55)) (.bin (.shr .u64) (.var 73) (.lit 9))),
    .asg 79 (.bin (.bxor .u64) (.var 79) (.var 64)),
    .asg 52 (.bin (.bxor .u64) (.bin (.shl .u64) (.var 79) (.lit 39)) (.bin (.shr .u64) (.var 79) (.lit 25))),
    .asg 80 (.bin (.bxor .u64) (.var 80) (.var 60)),
    .asg 53 (.bin (.bxor .u64) (.bin (.shl .u64) (.var 80) (.lit 41)) (.bin (.shr .u64) (.var 80) (.lit 23))),
    .asg 86 (.bin (.bxor .u64) (.var 86) (.var 61)),
    .asg 54 (.bin (.bxor .u64) (.bin (.shl .u64) (.var 86) (.lit 2)) (.bin (.shr .u64) (.var 86) (.lit 62))),
    .asg 25 (.bin (.bxor .u64) (.var 50) (.bin (.band .u64) (.un (.bnot .u64) (.var 51)) (.var 52))),
    .asg 55 (.bin (.bxor .u64) (.var 55) (.var 25)),
    .asg 26 (.bin (.bxor .u64) (.var 51) (.bin (.band .u64) (.un (.bnot .u64) (.var 52)) (.var 53))),
    .asg 56 (.bin (.bxor .u64) (.var 56) (.var 26)),
    .asg 27 (.bin (.bxor .u64) (.var 52) (.bin (.band .u64) (.un (.bnot .u64) (.var 53)) (.var 54))),
    .asg 57 (.bin (.bxor .u64) (.var 57) (.var 27)),
    .asg 28 (.bin (.bxor .u64) (.var 53) (.bin (.band .u64) (.un (.bnot .u64) (.var 54)) (.var 50))),
    .asg 58 (.bin (.bxor .u64) (.var 58) (.var 28))]

/-- part of `KeccakF1600_FastLoop_Absorb` -/
def KeccakF1600_FastLoop_Absorb.part16 : Stmt :=
  block [
    .asg 29 (.bin (.bxor .u64) (.var 54) (.bin (.band .u64) (.un (.bnot .u64) (.var 50)) (.var 51))),
    .asg 59 (.bin (.bxor .u64) (.var 59) (.var 29)),
    .asg 60 (.bin (.bxor .u64) (.var 59) (.bin (.bxor .u64) (.bin (.shl .u64) (.var 56) (.lit 1)) (.bin (.shr .u64)
      (.var 56) (.lit 63)))),
    .asg 61 (.bin (.bxor .u64) (.var 55) (.bin (.bxor .u64) (.bin (.shl .u64) (.var 57) (.lit 1)) (.bin (.shr .u64)
      (.var 57) (.lit 63)))),
    .asg 62 (.bin (.bxor .u64) (.var 56) (.bin (.bxor .u64) (.bin (.shl .u64) (.var 58) (.lit 1)) (.bin (.shr .u64)
      (.var 58) (.lit 63)))),
    .asg 63 (.bin (.bxor .u64) (.var 57) (.bin (.bxor .u64) (.bin (.shl .u64) (.var 59) (.lit 1)) (.bin (.shr .u64)
      (.var 59) (.lit 63)))),
    .asg 64 (.bin (.bxor .u64) (.var 58) (.bin (.bxor .u64) (.bin (.shl .u64) (.var 55) (.lit 1)) (.bin (.shr .u64)
      (.var 55) (.lit 63)))),
    .asg 5 (.bin (.bxor .u64) (.var 5) (.var 60)),
    .asg 30 (.var 5),
    .asg 11 (.bin (.bxor .u64) (.var 11) (.var 61)),
    .asg 31 (.bin (.bxor .u64) (.bin (.shl .u64) (.var 11) (.lit 44)) (.bin (.shr .u64) (.var 11) (.lit 20))),
    .asg 17 (.bin (.bxor .u64) (.var 17) (.var 62)),
    .asg 32 (.bin (.bxor .u64) (.bin (.shl .u64) (.var 17) (.lit 43)) (.bin (.shr .u64) (.var 17) (.lit 21))),
    .asg 23 (.bin (.bxor .u64) (.var 23) (.var 63)),
    .asg 33 (.bin (.bxor .u64) (.bin (.shl .u64) (.var 23) (.lit 21)) (.bin (.shr .u64) (.var 23) (.lit 43))),
    .asg 29 (.bin (.bxor .u64) (.var 29) (.var 64)),
    .asg 34 (.bin (.bxor .u64) (.bin (.shl .u64) (.var 29) (.lit 14)) (.bin (.shr .u64) (.var 29) (.lit 50))),
    .asg 65 (.bin (.bxor .u64) (.var 30) (.bin (.band .u64) (.un (.bnot .u64) (.var 31)) (.var 32))),
    .asg 65 (.bin (.bxor .u64) (.var 65) (.ld 8 (.padd (.glob 0) (.lit 6) 8))),
    .asg 55 (.var 65),
    .asg 66 (.bin (.bxor .u64) (.var 31) (.bin (.band .u64) (.un (.bnot .u64) (.var 32)) (.var 33))),
    .asg 56 (.var 66),
    .asg 67 (.bin (.bxor .u64) (.var 32) (.bin (.band .u64) (.un (.bnot .u64) (.var 33)) (.var 34))),
    .asg 57 (.var 67),
    .asg 68 (.bin (.bxor .u64) (.var 33) (.bin (.band .u64) (.un (.bnot .u64) (.var 34)) (.var 30))),
    .asg 58 (.var 68),
    .asg 69 (.bin (.bxor .u64) (.var 34) (.bin (.band .u64) (.un (.bnot .u64) (.var 30)) (.var 31))),
    .asg 59 (.var 69),
    .asg 8 (.bin (.bxor .u64) (.var 8) (.var 63)),
    .asg 35 (.bin (.bxor .u64) (.bin (.shl .u64) (.var 8) (.lit 28)) (.bin (.shr .u64) (.var 8) (.lit 36))),
    .asg 14 (.bin (.bxor .u64) (.var 14) (.var 64)),
    .asg 36 (.bin (.bxor .u64) (.bin (.shl .u64) (.var 14) (.lit 20)) (.bin (.shr .u64) (.var 14) (.lit 44))),
    .asg 15 (.bin (.bxor .u64) (.var 15) (.var 60)),
    .asg 37 (.bin (.bxor .u64) (.bin (.shl .u64) (.var 15) (.lit 3)) (.bin (.shr .u64) (.var 15) (.lit 61))),
    .asg 21 (.bin (.bxor .u64) (.var 21) (.var 61)),
    .asg 38 (.bin (.bxor .u64) (.bin (.shl .u64) (.var 21) (.lit 45)) (.bin (.shr .u64) (.var 21) (.lit 19))),
    .asg 27 (.bin (.bxor .u64) (.var 27) (.var 62)),
    .asg 39 (.bin (.bxor .u64) (.bin (.shl .u64) (.var 27) (.lit 61)) (.bin (.shr .u64) (.var 27) (.lit 3))),
    .asg 70 (.bin (.bxor .u64) (.var 35) (.bin (.band .u64) (.un (.bnot .u64) (.var 36)) (.var 37))),
    .asg 55 (.bin (.bxor .u64) (.var 55) (.var 70))]

/-- part of `KeccakF1600_FastLoop_Absorb` -/
def KeccakF1600_FastLoop_Absorb.part17 : Stmt :=
  block [
    .asg 71 (.bin (.bxor .u64) (.var 36) (.bin (.band .u64) (.un (.bnot .u64) (.var 37)) (.var 38))),
    .asg 56 (.bin (.bxor .u64) (.var 56) (.var 71)),
    .asg 72 (.bin (.bxor .u64) (.var 37) (.bin (.band .u64) (.un (.bnot .u64) (.var 38)) (.var 39))),
    .asg 57 (.bin (.bxor .u64) (.var 57) (.var 72)),
    .asg 73 (.bin (.bxor .u64) (.var 38) (.bin (.band .u64) (.un (.bnot .u64) (.var 39)) (.var 35))),
    .asg 58 (.bin (.bxor .u64) (.var 58) (.var 73)),
    .asg 74 (.bin (.bxor .u64) (.var 39) (.bin (.band .u64) (.un (.bnot .u64) (.var 35)) (.var 36))),
    .asg 59 (.bin (.bxor .u64) (.var 59) (.var 74)),
    .asg 6 (.bin (.bxor .u64) (.var 6) (.var 61)),
    .asg 40 (.bin (.bxor .u64) (.bin (.shl .u64) (.var 6) (.lit 1)) (.bin (.shr .u64) (.var 6) (.lit 63))),
    .asg 12 (.bin (.bxor .u64) (.var 12) (.var 62)),
    .asg 41 (.bin (.bxor .u64) (.bin (.shl .u64) (.var 12) (.lit 6)) (.bin (.shr .u64) (.var 12) (.lit 58))),
    .asg 18 (.bin (.bxor .u64) (.var 18) (.var 63)),
    .asg 42 (.bin (.bxor .u64) (.bin (.shl .u64) (.var 18) (.lit 25)) (.bin (.shr .u64) (.var 18) (.lit 39))),
    .asg 24 (.bin (.bxor .u64) (.var 24) (.var 64)),
    .asg 43 (.bin (.bxor .u64) (.bin (.shl .u64) (.var 24) (.lit 8)) (.bin (.shr .u64) (.var 24) (.lit 56))),
    .asg 25 (.bin (.bxor .u64) (.var 25) (.var 60)),
    .asg 44 (.bin (.bxor .u64) (.bin (.shl .u64) (.var 25) (.lit 18)) (.bin (.shr .u64) (.var 25) (.lit 46))),
    .asg 75 (.bin (.bxor .u64) (.var 40) (.bin (.band .u64) (.un (.bnot .u64) (.var 41)) (.var 42))),
    .asg 55 (.bin (.bxor .u64) (.var 55) (.var 75)),
    .asg 76 (.bin (.bxor .u64) (.var 41) (.bin (.band .u64) (.un (.bnot .u64) (.var 42)) (.var 43))),
    .asg 56 (.bin (.bxor .u64) (.var 56) (.var 76)),
    .asg 77 (.bin (.bxor .u64) (.var 42) (.bin (.band .u64) (.un (.bnot .u64) (.var 43)) (.var 44))),
    .asg 57 (.bin (.bxor .u64) (.var 57) (.var 77)),
    .asg 78 (.bin (.bxor .u64) (.var 43) (.bin (.band .u64) (.un (.bnot .u64) (.var 44)) (.var 40))),
    .asg 58 (.bin (.bxor .u64) (.var 58) (.var 78)),
    .asg 79 (.bin (.bxor .u64) (.var 44) (.bin (.band .u64) (.un (.bnot .u64) (.var 40)) (.var 41))),
    .asg 59 (.bin (.bxor .u64) (.var 59) (.var 79)),
    .asg 9 (.bin (.bxor .u64) (.var 9) (.var 64)),
    .asg 45 (.bin (.bxor .u64) (.bin (.shl .u64) (.var 9) (.lit 27)) (.bin (.shr .u64) (.var 9) (.lit 37))),
    .asg 10 (.bin (.bxor .u64) (.var 10) (.var 60)),
    .asg 46 (.bin (.bxor .u64) (.bin (.shl .u64) (.var 10) (.lit 36)) (.bin (.shr .u64) (.var 10) (.lit 28))),
    .asg 16 (.bin (.bxor .u64) (.var 16) (.var 61)),
    .asg 47 (.bin (.bxor .u64) (.bin (.shl .u64) (.var 16) (.lit 10)) (.bin (.shr .u64) (.var 16) (.lit 54))),
    .asg 22 (.bin (.bxor .u64) (.var 22) (.var 62)),
    .asg 48 (.bin (.bxor .u64) (.bin (.shl .u64) (.var 22) (.lit 15)) (.bin (.shr .u64) (.var 22) (.lit 49))),
    .asg 28 (.bin (.bxor .u64) (.var 28) (.var 63)),
    .asg 49 (.bin (.bxor .u64) (.bin (.shl .u64) (.var 28) (.lit 56)) (.bin (.shr .u64) (.var 28) (.lit 8))),
    .asg 80 (.bin (.bxor .u64) (.var 45) (.bin (.band .u64) (.un (.bnot .u64) (.var 46)) (.var 47))),
    .asg 55 (.bin (.bxor .u64) (.var 55) (.var 80))]

/-- part of `KeccakF1600_FastLoop_Absorb` -/
def KeccakF1600_FastLoop_Absorb.part18 : Stmt :=
  block [
    .asg 81 (.bin (.bxor .u64) (.var 46) (.bin (.band .u64) (.un (.bnot .u64) (.var 47)) (.var 48))),
    .asg 56 (.bin (.bxor .u64) (.var 56) (.var 81)),
    .asg 82 (.bin (.bxor .u64) (.var 47) (.bin (.band .u64) (.un (.bnot .u64) (.var 48)) (.var 49))),
    .asg 57 (.bin (.bxor .u64) (.var 57) (.var 82)),
    .asg 83 (.bin (.bxor .u64) (.var 48) (.bin (.band .u64) (.un (.bnot .u64) (.var 49)) (.var 45))),
    .asg 58 (.bin (.bxor .u64) (.var 58) (.var 83)),
    .asg 84 (.bin (.bxor .u64) (.var 49) (.bin (.band .u64) (.un (.bnot .u64) (.var 45)) (.var 46))),
    .asg 59 (.bin (.bxor .u64) (.var 59) (.var 84)),
    .asg 7 (.bin (.bxor .u64) (.var 7) (.var 62)),
    .asg 50 (.bin (.bxor .u64) (.bin (.shl .u64) (.var 7) (.lit 62)) (.bin (.shr .u64) (.var 7) (.lit 2))),
    .asg 13 (.bin (.bxor .u64) (.var 13) (.var 63)),
    .asg 51 (.bin (.bxor .u64) (.bin (.shl .u64) (.var 13) (.lit 55)) (.bin (.shr .u64) (.var 13) (.lit 9))),
    .asg 19 (.bin (.bxor .u64) (.var 19) (.var 64)),
    .asg 52 (.bin (.bxor .u64) (.bin (.shl .u64) (.var 19) (.lit 39)) (.bin (.shr .u64) (.var 19) (.lit 25))),
    .asg 20 (.bin (.bxor .u64) (.var 20) (.var 60)),
    .asg 53 (.bin (.bxor .u64) (.bin (.shl .u64) (.var 20) (.lit 41)) (.bin (.shr .u64) (.var 20) (.lit 23))),
    .asg 26 (.bin (.bxor .u64) (.var 26) (.var 61)),
    .asg 54 (.bin (.bxor .u64) (.bin (.shl .u64) (.var 26) (.lit 2)) (.bin (.shr .u64) (.var 26) (.lit 62))),
    .asg 85 (.bin (.bxor .u64) (.var 50) (.bin (.band .u64) (.un (.bnot .u64) (.var 51)) (.var 52))),
    .asg 55 (.bin (.bxor .u64) (.var 55) (.var 85)),
    .asg 86 (.bin (.bxor .u64) (.var 51) (.bin (.band .u64) (.un (.bnot .u64) (.var 52)) (.var 53))),
    .asg 56 (.bin (.bxor .u64) (.var 56) (.var 86)),
    .asg 87 (.bin (.bxor .u64) (.var 52) (.bin (.band .u64) (.un (.bnot .u64) (.var 53)) (.var 54))),
    .asg 57 (.bin (.bxor .u64) (.var 57) (.var 87)),
    .asg 88 (.bin (.bxor .u64) (.var 53) (.bin (.band .u64) (.un (.bnot .u64) (.var 54)) (.var 50))),
    .asg 58 (.bin (.bxor .u64) (.var 58) (.var 88)),
    .asg 89 (.bin (.bxor .u64) (.var 54) (.bin (.band .u64) (.un (.bnot .u64) (.var 50)) (.var 51))),
    .asg 59 (.bin (.bxor .u64) (.var 59) (.var 89)),
    .asg 60 (.bin (.bxor .u64) (.var 59) (.bin (.bxor .u64) (.bin (.shl .u64) (.var 56) (.lit 1)) (.bin (.shr .u64)
      (.var 56) (.lit 63)))),
    .asg 61 (.bin (.bxor .u64) (.var 55) (.bin (.bxor .u64) (.bin (.shl .u64) (.var 57) (.lit 1)) (.bin (.shr .u64)
      (.var 57) (.lit 63)))),
    .asg 62 (.bin (.bxor .u64) (.var 56) (.bin (.bxor .u64) (.bin (.shl .u64) (.var 58) (.lit 1)) (.bin (.shr .u64)
      (.var 58) (.lit 63)))),
    .asg 63 (.bin (.bxor .u64) (.var 57) (.bin (.bxor .u64) (.bin (.shl .u64) (.var 59) (.lit 1)) (.bin (.shr .u64)
      (.var 59) (.lit 63)))),
    .asg 64 (.bin (.bxor .u64) (.var 58) (.bin (.bxor .u64) (.bin (.shl .u64) (.var 55) (.lit 1)) (.bin (.shr .u64)
      (.var 55) (.lit 63)))),
    .asg 65 (.bin (.bxor .u64) (.var 65) (.var 60)),
    .asg 30 (.var 65),
    .asg 71 (.bin (.bxor .u64) (.var 71) (.var 61)),
    .asg 31 (.bin (.bxor .u64) (.bin (.shl .u64) (.var 71) (.lit 44)) (.bin (.shr .u64) (.var 71) (.lit 20))),
    .asg 77 (.bin (.bxor .u64) (.var 77) (.var 62)),
    .asg 32 (.bin (.bxor .u64) (.bin (.shl .u64) (.var 77) (.lit 43)) (.bin (.shr .u64) (.var 77) (.lit 21))),
    .asg 83 (.bin (.bxor .u64) (.var 83) (.var 63))]

/-- part of `KeccakF1600_FastLoop_Absorb` -/
def KeccakF1600_FastLoop_Absorb.part19 : Stmt :=
  block [
    .asg 33 (.bin (.bxor .u64) (.bin (.shl .u64) (.var 83) (.lit 21)) (.bin (.shr .u64) (.var 83) (.lit 43))),
    .asg 89 (.bin (.bxor .u64) (.var 89) (.var 64)),
    .asg 34 (.bin (.bxor .u64) (.bin (.shl .u64) (.var 89) (.lit 14)) (.bin (.shr .u64) (.var 89) (.lit 50))),
    .asg 5 (.bin (.bxor .u64) (.var 30) (.bin (.band .u64) (.un (.bnot .u64) (.var 31)) (.var 32))),
    .asg 5 (.bin (.bxor .u64) (.var 5) (.ld 8 (.padd (.glob 0) (.lit 7) 8))),
    .asg 55 (.var 5),
    .asg 6 (.bin (.bxor .u64) (.var 31) (.bin (.band .u64) (.un (.bnot .u64) (.var 32)) (.var 33))),
    .asg 56 (.var 6),
    .asg 7 (.bin (.bxor .u64) (.var 32) (.bin (.band .u64) (.un (.bnot .u64) (.var 33)) (.var 34))),
    .asg 57 (.var 7),
    .asg 8 (.bin (.bxor .u64) (.var 33) (.bin (.band .u64) (.un (.bnot .u64) (.var 34)) (.var 30))),
    .asg 58 (.var 8),
    .asg 9 (.bin (.bxor .u64) (.var 34) (.bin (.band .u64) (.un (.bnot .u64) (.var 30)) (.var 31))),
    .asg 59 (.var 9),
    .asg 68 (.bin (.bxor .u64) (.var 68) (.var 63)),
    .asg 35 (.bin (.bxor .u64) (.bin (.shl .u64) (.var 68) (.lit 28)) (.bin (.shr .u64) (.var 68) (.lit 36))),
    .asg 74 (.bin (.bxor .u64) (.var 74) (.var 64)),
    .asg 36 (.bin (.bxor .u64) (.bin (.shl .u64) (.var 74) (.lit 20)) (.bin (.shr .u64) (.var 74) (.lit 44))),
    .asg 75 (.bin (.bxor .u64) (.var 75) (.var 60)),
    .asg 37 (.bin (.bxor .u64) (.bin (.shl .u64) (.var 75) (.lit 3)) (.bin (.shr .u64) (.var 75) (.lit 61))),
    .asg 81 (.bin (.bxor .u64) (.var 81) (.var 61)),
    .asg 38 (.bin (.bxor .u64) (.bin (.shl .u64) (.var 81) (.lit 45)) (.bin (.shr .u64) (.var 81) (.lit 19))),
    .asg 87 (.bin (.bxor .u64) (.var 87) (.var 62)),
    .asg 39 (.bin (.bxor .u64) (.bin (.shl .u64) (.var 87) (.lit 61)) (.bin (.shr .u64) (.var 87) (.lit 3))),
    .asg 10 (.bin (.bxor .u64) (.var 35) (.bin (.band .u64) (.un (.bnot .u64) (.var 36)) (.var 37))),
    .asg 55 (.bin (.bxor .u64) (.var 55) (.var 10)),
    .asg 11 (.bin (.bxor .u64) (.var 36) (.bin (.band .u64) (.un (.bnot .u64) (.var 37)) (.var 38))),
    .asg 56 (.bin (.bxor .u64) (.var 56) (.var 11)),
    .asg 12 (.bin (.bxor .u64) (.var 37) (.bin (.band .u64) (.un (.bnot .u64) (.var 38)) (.var 39))),
    .asg 57 (.bin (.bxor .u64) (.var 57) (.var 12)),
    .asg 13 (.bin (.bxor .u64) (.var 38) (.bin (.band .u64) (.un (.bnot .u64) (.var 39)) (.var 35))),
    .asg 58 (.bin (.bxor .u64) (.var 58) (.var 13)),
    .asg 14 (.bin (.bxor .u64) (.var 39) (.bin (.band .u64) (.un (.bnot .u64) (.var 35)) (.var 36))),
    .asg 59 (.bin (.bxor .u64) (.var 59) (.var 14)),
    .asg 66 (.bin (.bxor .u64) (.var 66) (.var 61)),
    .asg 40 (.bin (.bxor .u64) (.bin (.shl .u64) (.var 66) (.lit 1)) (.bin (.shr .u64) (.var 66) (.lit 63))),
    .asg 72 (.bin (.bxor .u64) (.var 72) (.var 62)),
    .asg 41 (.bin (.bxor .u64) (.bin (.shl .u64) (.var 72) (.lit 6)) (.bin (.shr .u64) (.var 72) (.lit 58))),
    .asg 78 (.bin (.bxor .u64) (.var 78) (.var 63)),
    .asg 42 (.bin (.bxor .u64) (.bin (.shl .u64) (.var 78) (.lit 25)) (.bin (.shr .u64) (.var 78) (.lit 39)))]

/-- part of `KeccakF1600_FastLoop_Absorb` -/
def KeccakF1600_FastLoop_Absorb.part20 : Stmt :=
  block [
    .asg 84 (.bin (.bxor .u64) (.var 84) (.var 64)),
    .asg 43 (.bin (.bxor .u64) (.bin (.shl .u64) (.var 84) (.lit 8)) (.bin (.shr .u64) (.var 84) (.lit 56))),
    .asg 85 (.bin (.bxor .u64) (.var 85) (.var 60)),
    .asg 44 (.bin (.bxor .u64) (.bin (.shl .u64) (.var 85) (.lit 18)) (.bin (.shr .u64) (.var 85) (.lit 46))),
    .asg 15 (.bin (.bxor .u64) (.var 40) (.bin (.band .u64) (.un (.bnot .u64) (.var 41)) (.var 42))),
    .asg 55 (.bin (.bxor .u64) (.var 55) (.var 15)),
    .asg 16 (.bin (.bxor .u64) (.var 41) (.bin (.band .u64) (.un (.bnot .u64) (.var 42)) (.var 43))),
    .asg 56 (.bin (.bxor .u64) (.var 56) (.var 16)),
    .asg 17 (.bin (.bxor .u64) (.var 42) (.bin (.band .u64) (.un (.bnot .u64) (.var 43)) (.var 44))),
    .asg 57 (.bin (.bxor .u64) (.var 57) (.var 17)),
    .asg 18 (.bin (.bxor .u64) (.var 43) (.bin (.band .u64) (.un (.bnot .u64) (.var 44)) (.var 40))),
    .asg 58 (.bin (.bxor .u64) (.var 58) (.var 18)),
    .asg 19 (.bin (.bxor .u64) (.var 44) (.bin (.band .u64) (.un (.bnot .u64) (.var 40)) (.var 41))),
    .asg 59 (.bin (.bxor .u64) (.var 59) (.var 19)),
    .asg 69 (.bin (.bxor .u64) (.var 69) (.var 64)),
    .asg 45 (.bin (.bxor .u64) (.bin (.shl .u64) (.var 69) (.lit 27)) (.bin (.shr .u64) (.var 69) (.lit 37))),
    .asg 70 (.bin (.bxor .u64) (.var 70) (.var 60)),
    .asg 46 (.bin (.bxor .u64) (.bin (.shl .u64) (.var 70) (.lit 36)) (.bin (.shr .u64) (.var 70) (.lit 28))),
    .asg 76 (.bin (.bxor .u64) (.var 76) (.var 61)),
    .asg 47 (.bin (.bxor .u64) (.bin (.shl .u64) (.var 76) (.lit 10)) (.bin (.shr .u64) (.var 76) (.lit 54))),
    .asg 82 (.bin (.bxor .u64) (.var 82) (.var 62)),
    .asg 48 (.bin (.bxor .u64) (.bin (.shl .u64) (.var 82) (.lit 15)) (.bin (.shr .u64) (.var 82) (.lit 49))),
    .asg 88 (.bin (.bxor .u64) (.var 88) (.var 63)),
    .asg 49 (.bin (.bxor .u64) (.bin (.shl .u64) (.var 88) (.lit 56)) (.bin (.shr .u64) (.var 88) (.lit 8))),
    .asg 20 (.bin (.bxor .u64) (.var 45) (.bin (.band .u64) (.un (.bnot .u64) (.var 46)) (.var 47))),
    .asg 55 (.bin (.bxor .u64) (.var 55) (.var 20)),
    .asg 21 (.bin (.bxor .u64) (.var 46) (.bin (.band .u64) (.un (.bnot .u64) (.var 47)) (.var 48))),
    .asg 56 (.bin (.bxor .u64) (.var 56) (.var 21)),
    .asg 22 (.bin (.bxor .u64) (.var 47) (.bin (.band .u64) (.un (.bnot .u64) (.var 48)) (.var 49))),
    .asg 57 (.bin (.bxor .u64) (.var 57) (.var 22)),
    .asg 23 (.bin (.bxor .u64) (.var 48) (.bin (.band .u64) (.un (.bnot .u64) (.var 49)) (.var 45))),
    .asg 58 (.bin (.bxor .u64) (.var 58) (.var 23)),
    .asg 24 (.bin (.bxor .u64) (.var 49) (.bin (.band .u64) (.un (.bnot .u64) (.var 45)) (.var 46))),
    .asg 59 (.bin (.bxor .u64) (.var 59) (.var 24)),
    .asg 67 (.bin (.bxor .u64) (.var 67) (.var 62)),
    .asg 50 (.bin (.bxor .u64) (.bin (.shl .u64) (.var 67) (.lit 62)) (.bin (.shr .u64) (.var 67) (.lit 2))),
    .asg 73 (.bin (.bxor .u64) (.var 73) (.var 63)),
    .asg 51 (.bin (.bxor .u64) (.bin (.shl .u64) (.var 73) (.lit 55)) (.bin (.shr .u64) (.var 73) (.lit 9))),
    .asg 79 (.bin (.bxor .u64) (.var 79) (.var 64)),
    .asg 52 (.bin (.bxor .u64) (.bin (.shl .u64) (.var 79) (.lit 39)) (.bin (.shr .u64) (.var 79) (.lit 25)))]

/-- part of `KeccakF1600_FastLoop_Absorb` -/
def KeccakF1600_FastLoop_Absorb.part21 : Stmt :=
  block [
    .asg 80 (.bin (.bxor .u64) (.var 80) (.var 60)),
    .asg 53 (.bin (.bxor .u64) (.bin (.shl .u64) (.var 80) (.lit 41)) (.bin (.shr .u64) (.var 80) (.lit 23))),
    .asg 86 (.bin (.bxor .u64) (.var 86) (.var 61)),
    .asg 54 (.bin (.bxor .u64) (.bin (.shl .u64) (.var 86) (.lit 2)) (.bin (.shr .u64) (.var 86) (.lit 62))),
    .asg 25 (.bin (.bxor .u64) (.var 50) (.bin (.band .u64) (.un (.bnot .u64) (.var 51)) (.var 52))),
    .asg 55 (.bin (.bxor .u64) (.var 55) (.var 25)),
    .asg 26 (.bin (.bxor .u64) (.var 51) (.bin (.band .u64) (.un (.bnot .u64) (.var 52)) (.var 53))),
    .asg 56 (.bin (.bxor .u64) (.var 56) (.var 26)),
    .asg 27 (.bin (.bxor .u64) (.var 52) (.bin (.band .u64) (.un (.bnot .u64) (.var 53)) (.var 54))),
    .asg 57 (.bin (.bxor .u64) (.var 57) (.var 27)),
    .asg 28 (.bin (.bxor .u64) (.var 53) (.bin (.band .u64) (.un (.bnot .u64) (.var 54)) (.var 50))),
    .asg 58 (.bin (.bxor .u64) (.var 58) (.var 28)),
    .asg 29 (.bin (.bxor .u64) (.var 54) (.bin (.band .u64) (.un (.bnot .u64) (.var 50)) (.var 51))),
    .asg 59 (.bin (.bxor .u64) (.var 59) (.var 29)),
    .asg 60 (.bin (.bxor .u64) (.var 59) (.bin (.bxor .u64) (.bin (.shl .u64) (.var 56) (.lit 1)) (.bin (.shr .u64)
      (.var 56) (.lit 63)))),
    .asg 61 (.bin (.bxor .u64) (.var 55) (.bin (.bxor .u64) (.bin (.shl .u64) (.var 57) (.lit 1)) (.bin (.shr .u64)
      (.var 57) (.lit 63)))),
    .asg 62 (.bin (.bxor .u64) (.var 56) (.bin (.bxor .u64) (.bin (.shl .u64) (.var 58) (.lit 1)) (.bin (.shr .u64)
      (.var 58) (.lit 63)))),
    .asg 63 (.bin (.bxor .u64) (.var 57) (.bin (.bxor .u64) (.bin (.shl .u64) (.var 59) (.lit 1)) (.bin (.shr .u64)
      (.var 59) (.lit 63)))),
    .asg 64 (.bin (.bxor .u64) (.var 58) (.bin (.bxor .u64) (.bin (.shl .u64) (.var 55) (.lit 1)) (.bin (.shr .u64)
      (.var 55) (.lit 63)))),
    .asg 5 (.bin (.bxor .u64) (.var 5) (.var 60)),
    .asg 30 (.var 5),
    .asg 11 (.bin (.bxor .u64) (.var 11) (.var 61)),
    .asg 31 (.bin (.bxor .u64) (.bin (.shl .u64) (.var 11) (.lit 44)) (.bin (.shr .u64) (.var 11) (.lit 20))),
    .asg 17 (.bin (.bxor .u64) (.var 17) (.var 62)),
    .asg 32 (.bin (.bxor .u64) (.bin (.shl .u64) (.var 17) (.lit 43)) (.bin (.shr .u64) (.var 17) (.lit 21))),
    .asg 23 (.bin (.bxor .u64) (.var 23) (.var 63)),
    .asg 33 (.bin (.bxor .u64) (.bin (.shl .u64) (.var 23) (.lit 21)) (.bin (.shr .u64) (.var 23) (.lit 43))),
    .asg 29 (.bin (.bxor .u64) (.var 29) (.var 64)),
    .asg 34 (.bin (.bxor .u64) (.bin (.shl .u64) (.var 29) (.lit 14)) (.bin (.shr .u64) (.var 29) (.lit 50))),
    .asg 65 (.bin (.bxor .u64) (.var 30) (.bin (.band .u64) (.un (.bnot .u64) (.var 31)) (.var 32))),
    .asg 65 (.bin (.bxor .u64) (.var 65) (.ld 8 (.padd (.glob 0) (.lit 8) 8))),
    .asg 55 (.var 65),
    .asg 66 (.bin (.bxor .u64) (.var 31) (.bin (.band .u64) (.un (.bnot .u64) (.var 32)) (.var 33))),
    .asg 56 (.var 66),
    .asg 67 (.bin (.bxor .u64) (.var 32) (.bin (.band .u64) (.un (.bnot .u64) (.var 33)) (.var 34))),
    .asg 57 (.var 67),
    .asg 68 (.bin (.bxor .u64) (.var 33) (.bin (.band .u64) (.un (.bnot .u64) (.var 34)) (.var 30))),
    .asg 58 (.var 68),
    .asg 69 (.bin (.bxor .u64) (.var 34) (.bin (.band .u64) (.un (.bnot .u64) (.var 30)) (.var 31))),
    .asg 59 (.var 69)]

/-- part of `KeccakF1600_FastLoop_Absorb` -/
def KeccakF1600_FastLoop_Absorb.part22 : Stmt :=
  block [
    .asg 8 (.bin (.bxor .u64) (.var 8) (.var 63)),
    .asg 35 (.bin (.bxor .u64) (.bin (.shl .u64) (.var 8) (.lit 28)) (.bin (.shr .u64) (.var 8) (.lit 36))),
    .asg 14 (.bin (.bxor .u64) (.var 14) (.var 64)),
    .asg 36 (.bin (.bxor .u64) (.bin (.shl .u64) (.var 14) (.lit 20)) (.bin (.shr .u64) (.var 14) (.lit 44))),
    .asg 15 (.bin (.bxor .u64) (.var 15) (.var 60)),
    .asg 37 (.bin (.bxor .u64) (.bin (.shl .u64) (.var 15) (.lit 3)) (.bin (.shr .u64) (.var 15) (.lit 61))),
    .asg 21 (.bin (.bxor .u64) (.var 21) (.var 61)),
    .asg 38 (.bin (.bxor .u64) (.bin (.shl .u64) (.var 21) (.lit 45)) (.bin (.shr .u64) (.var 21) (.lit 19))),
    .asg 27 (.bin (.bxor .u64) (.var 27) (.var 62)),
    .asg 39 (.bin (.bxor .u64) (.bin (.shl .u64) (.var 27) (.lit 61)) (.bin (.shr .u64) (.var 27) (.lit 3))),
    .asg 70 (.bin (.bxor .u64) (.var 35) (.bin (.band .u64) (.un (.bnot .u64) (.var 36)) (.var 37))),
    .asg 55 (.bin (.bxor .u64) (.var 55) (.var 70)),
    .asg 71 (.bin (.bxor .u64) (.var 36) (.bin (.band .u64) (.un (.bnot .u64) (.var 37)) (.var 38))),
    .asg 56 (.bin (.bxor .u64) (.var 56) (.var 71)),
    .asg 72 (.bin (.bxor .u64) (.var 37) (.bin (.band .u64) (.un (.bnot .u64) (.var 38)) (.var 39))),
    .asg 57 (.bin (.bxor .u64) (.var 57) (.var 72)),
    .asg 73 (.bin (.bxor .u64) (.var 38) (.bin (.band .u64) (.un (.bnot .u64) (.var 39)) (.var 35))),
    .asg 58 (.bin (.bxor .u64) (.var 58) (.var 73)),
    .asg 74 (.bin (.bxor .u64) (.var 39) (.bin (.band .u64) (.un (.bnot .u64) (.var 35)) (.var 36))),
    .asg 59 (.bin (.bxor .u64) (.var 59) (.var 74)),
    .asg 6 (.bin (.bxor .u64) (.var 6) (.var 61)),
    .asg 40 (.bin (.bxor .u64) (.bin (.shl .u64) (.var 6) (.lit 1)) (.bin (.shr .u64) (.var 6) (.lit 63))),
    .asg 12 (.bin (.bxor .u64) (.var 12) (.var 62)),
    .asg 41 (.bin (.bxor .u64) (.bin (.shl .u64) (.var 12) (.lit 6)) (.bin (.shr .u64) (.var 12) (.lit 58))),
    .asg 18 (.bin (.bxor .u64) (.var 18) (.var 63)),
    .asg 42 (.bin (.bxor .u64) (.bin (.shl .u64) (.var 18) (.lit 25)) (.bin (.shr .u64) (.var 18) (.lit 39))),
    .asg 24 (.bin (.bxor .u64) (.var 24) (.var 64)),
    .asg 43 (.bin (.bxor .u64) (.bin (.shl .u64) (.var 24) (.lit 8)) (.bin (.shr .u64) (.var 24) (.lit 56))),
    .asg 25 (.bin (.bxor .u64) (.var 25) (.var 60)),
    .asg 44 (.bin (.bxor .u64) (.bin (.shl .u64) (.var 25) (.lit 18)) (.bin (.shr .u64) (.var 25) (.lit 46))),
    .asg 75 (.bin (.bxor .u64) (.var 40) (.bin (.band .u64) (.un (.bnot .u64) (.var 41)) (.var 42))),
    .asg 55 (.bin (.bxor .u64) (.var 55) (.var 75)),
    .asg 76 (.bin (.bxor .u64) (.var 41) (.bin (.band .u64) (.un (.bnot .u64) (.var 42)) (.var 43))),
    .asg 56 (.bin (.bxor .u64) (.var 56) (.var 76)),
    .asg 77 (.bin (.bxor .u64) (.var 42) (.bin (.band .u64) (.un (.bnot .u64) (.var 43)) (.var 44))),
    .asg 57 (.bin (.bxor .u64) (.var 57) (.var 77)),
    .asg 78 (.bin (.bxor .u64) (.var 43) (.bin (.band .u64) (.un (.bnot .u64) (.var 44)) (.var 40))),
    .asg 58 (.bin (.bxor .u64) (.var 58) (.var 78)),
    .asg 79 (.bin (.bxor .u64) (.var 44) (.bin (.band .u64) (.un (.bnot .u64) (.var 40)) (.var 41))),
    .asg 59 (.bin (.bxor .u64) (.var 59) (.var 79))]

/-- part of `KeccakF1600_FastLoop_Absorb` -/
def KeccakF1600_FastLoop_Absorb.part23 : Stmt :=
  block [
    .asg 9 (.bin (.bxor .u64) (.var 9) (.var 64)),
    .asg 45 (.bin (.bxor .u64) (.bin (.shl .u64) (.var 9) (.lit 27)) (.bin (.shr .u64) (.var 9) (.lit 37))),
    .asg 10 (.bin (.bxor .u64) (.var 10) (.var 60)),
    .asg 46 (.bin (.bxor .u64) (.bin (.shl .u64) (.var 10) (.lit 36)) (.bin (.shr .u64) (.var 10) (.lit 28))),
    .asg 16 (.bin (.bxor .u64) (.var 16) (.var 61)),
    .asg 47 (.bin (.bxor .u64) (.bin (.shl .u64) (.var 16) (.lit 10)) (.bin (.shr .u64) (.var 16) (.lit 54))),
    .asg 22 (.bin (.bxor .u64) (.var 22) (.var 62)),
    .asg 48 (.bin (.bxor .u64) (.bin (.shl .u64) (.var 22) (.lit 15)) (.bin (.shr .u64) (.var 22) (.lit 49))),
    .asg 28 (.bin (.bxor .u64) (.var 28) (.var 63)),
    .asg 49 (.bin (.bxor .u64) (.bin (.shl .u64) (.var 28) (.lit 56)) (.bin (.shr .u64) (.var 28) (.lit 8))),
    .asg 80 (.bin (.bxor .u64) (.var 45) (.bin (.band .u64) (.un (.bnot .u64) (.var 46)) (.var 47))),
    .asg 55 (.bin (.bxor .u64) (.var 55) (.var 80)),
    .asg 81 (.bin (.bxor .u64) (.var 46) (.bin (.band .u64) (.un (.bnot .u64) (.var 47)) (.var 48))),
    .asg 56 (.bin (.bxor .u64) (.var 56) (.var 81)),
    .asg 82 (.bin (.bxor .u64) (.var 47) (.bin (.band .u64) (.un (.bnot .u64) (.var 48)) (.var 49))),
    .asg 57 (.bin (.bxor .u64) (.var 57) (.var 82)),
    .asg 83 (.bin (.bxor .u64) (.var 48) (.bin (.band .u64) (.un (.bnot .u64) (.var 49)) (.var 45))),
    .asg 58 (.bin (.bxor .u64) (.var 58) (.var 83)),
    .asg 84 (.bin (.bxor .u64) (.var 49) (.bin (.band .u64) (.un (.bnot .u64) (.var 45)) (.var 46))),
    .asg 59 (.bin (.bxor .u64) (.var 59) (.var 84)),
    .asg 7 (.bin (.bxor .u64) (.var 7) (.var 62)),
    .asg 50 (.bin (.bxor .u64) (.bin (.shl .u64) (.var 7) (.lit 62)) (.bin (.shr .u64) (.var 7) (.lit 2))),
    .asg 13 (.bin (.bxor .u64) (.var 13) (.var 63)),
    .asg 51 (.bin (.bxor .u64) (.bin (.shl .u64) (.var 13) (.lit 55)) (.bin (.shr .u64) (.var 13) (.lit 9))),
    .asg 19 (.bin (.bxor .u64) (.var 19) (.var 64)),
    .asg 52 (.bin (.bxor .u64) (.bin (.shl .u64) (.var 19) (.lit 39)) (.bin (.shr .u64) (.var 19) (.lit 25))),
    .asg 20 (.bin (.bxor .u64) (.var 20) (.var 60)),
    .asg 53 (.bin (.bxor .u64) (.bin (.shl .u64) (.var 20) (.lit 41)) (.bin (.shr .u64) (.var 20) (.lit 23))),
    .asg 26 (.bin (.bxor .u64) (.var 26) (.var 61)),
    .asg 54 (.bin (.bxor .u64) (.bin (.shl .u64) (.var 26) (.lit 2)) (.bin (.shr .u64) (.var 26) (.lit 62))),
    .asg 85 (.bin (.bxor .u64) (.var 50) (.bin (.band .u64) (.un (.bnot .u64) (.var 51)) (.var 52))),
    .asg 55 (.bin (.bxor .u64) (.var 55) (.var 85)),
    .asg 86 (.bin (.bxor .u64) (.var 51) (.bin (.band .u64) (.un (.bnot .u64) (.var 52)) (.var 53))),
    .asg 56 (.bin (.bxor .u64) (.var 56) (.var 86)),
    .asg 87 (.bin (.bxor .u64) (.var 52) (.bin (.band .u64) (.un (.bnot .u64) (.var 53)) (.var 54))),
    .asg 57 (.bin (.bxor .u64) (.var 57) (.var 87)),
    .asg 88 (.bin (.bxor .u64) (.var 53) (.bin (.band .u64) (.un (.bnot .u64) (.var 54)) (.var 50))),
    .asg 58 (.bin (.bxor .u64) (.var 58) (.var 88)),
    .asg 89 (.bin (.bxor .u64) (.var 54) (.bin (.band .u64) (.un (.bnot .u64) (.var 50)) (.var 51))),
    .asg 59 (.bin (.bxor .u64) (.var 59) (.var 89))]

/-- part of `KeccakF1600_FastLoop_Absorb` -/
def KeccakF1600_FastLoop_Absorb.part24 : Stmt :=
  block [
    .asg 60 (.bin (.bxor .u64) (.var 59) (.bin (.bxor .u64) (.bin (.shl .u64) (.var 56) (.lit 1)) (.bin (.shr .u64)
      (.var 56) (.lit 63)))),
    .asg 61 (.bin (.bxor .u64) (.var 55) (.bin (.bxor .u64) (.bin (.shl .u64) (.var 57) (.lit 1)) (.bin (.shr .u64)
      (.var 57) (.lit 63)))),
    .asg 62 (.bin (.bxor .u64) (.var 56) (.bin (.bxor .u64) (.bin (.shl .u64) (.var 58) (.lit 1)) (.bin (.shr .u64)
      (.var 58) (.lit 63)))),
    .asg 63 (.bin (.bxor .u64) (.var 57) (.bin (.bxor .u64) (.bin (.shl .u64) (.var 59) (.lit 1)) (.bin (.shr .u64)
      (.var 59) (.lit 63)))),
    .asg 64 (.bin (.bxor .u64) (.var 58) (.bin (.bxor .u64) (.bin (.shl .u64) (.var 55) (.lit 1)) (.bin (.shr .u64)
      (.var 55) (.lit 63)))),
    .asg 65 (.bin (.bxor .u64) (.var 65) (.var 60)),
    .asg 30 (.var 65),
    .asg 71 (.bin (.bxor .u64) (.var 71) (.var 61)),
    .asg 31 (.bin (.bxor .u64) (.bin (.shl .u64) (.var 71) (.lit 44)) (.bin (.shr .u64) (.var 71) (.lit 20))),
    .asg 77 (.bin (.bxor .u64) (.var 77) (.var 62)),
    .asg 32 (.bin (.bxor .u64) (.bin (.shl .u64) (.var 77) (.lit 43)) (.bin (.shr .u64) (.var 77) (.lit 21))),
    .asg 83 (.bin (.bxor .u64) (.var 83) (.var 63)),
    .asg 33 (.bin (.bxor .u64) (.bin (.shl .u64) (.var 83) (.lit 21)) (.bin (.shr .u64) (.var 83) (.lit 43))),
    .asg 89 (.bin (.bxor .u64) (.var 89) (.var 64)),
    .asg 34 (.bin (.bxor .u64) (.bin (.shl .u64) (.var 89) (.lit 14)) (.bin (.shr .u64) (.var 89) (.lit 50))),
    .asg 5 (.bin (.bxor .u64) (.var 30) (.bin (.band .u64) (.un (.bnot .u64) (.var 31)) (.var 32))),
    .asg 5 (.bin (.bxor .u64) (.var 5) (.ld 8 (.padd (.glob 0) (.lit 9) 8))),
    .asg 55 (.var 5),
    .asg 6 (.bin (.bxor .u64) (.var 31) (.bin (.band .u64) (.un (.bnot .u64) (.var 32)) (.var 33))),
    .asg 56 (.var 6),
    .asg 7 (.bin (.bxor .u64) (.var 32) (.bin (.band .u64) (.un (.bnot .u64) (.var 33)) (.var 34))),
    .asg 57 (.var 7),
    .asg 8 (.bin (.bxor .u64) (.var 33) (.bin (.band .u64) (.un (.bnot .u64) (.var 34)) (.var 30))),
    .asg 58 (.var 8),
    .asg 9 (.bin (.bxor .u64) (.var 34) (.bin (.band .u64) (.un (.bnot .u64) (.var 30)) (.var 31))),
    .asg 59 (.var 9),
    .asg 68 (.bin (.bxor .u64) (.var 68) (.var 63)),
    .asg 35 (.bin (.bxor .u64) (.bin (.shl .u64) (.var 68) (.lit 28)) (.bin (.shr .u64) (.var 68) (.lit 36))),
    .asg 74 (.bin (.bxor .u64) (.var 74) (.var 64)),
    .asg 36 (.bin (.bxor .u64) (.bin (.shl .u64) (.var 74) (.lit 20)) (.bin (.shr .u64) (.var 74) (.lit 44))),
    .asg 75 (.bin (.bxor .u64) (.var 75) (.var 60)),
    .asg 37 (.bin (.bxor .u64) (.bin (.shl .u64) (.var 75) (.lit 3)) (.bin (.shr .u64) (.var 75) (.lit 61))),
    .asg 81 (.bin (.bxor .u64) (.var 81) (.var 61)),
    .asg 38 (.bin (.bxor .u64) (.bin (.shl .u64) (.var 81) (.lit 45)) (.bin (.shr .u64) (.var 81) (.lit 19))),
    .asg 87 (.bin (.bxor .u64) (.var 87) (.var 62)),
    .asg 39 (.bin (.bxor .u64) (.bin (.shl .u64) (.var 87) (.lit 61)) (.bin (.shr .u64) (.var 87) (.lit 3))),
    .asg 10 (.bin (.bxor .u64) (.var 35) (.bin (.band .u64) (.un (.bnot .u64) (.var 36)) (.var 37))),
    .asg 55 (.bin (.bxor .u64) (.var 55) (.var 10)),
    .asg 11 (.bin (.bxor .u64) (.var 36) (.bin (.band .u64) (.un (.bnot .u64) (.var 37)) (.var 38))),
    .asg 56 (.bin (.bxor .u64) (.var 56) (.var 11))]

/-- part of `KeccakF1600_FastLoop_Absorb` -/
def KeccakF1600_FastLoop_Absorb.part25 : Stmt :=
  block [
    .asg 12 (.bin (.bxor .u64) (.var 37) (.bin (.band .u64) (.un (.bnot .u64) (.var 38)) (.var 39))),
    .asg 57 (.bin (.bxor .u64) (.var 57) (.var 12)),
    .asg 13 (.bin (.bxor .u64) (.var 38) (.bin (.band .u64) (.un (.bnot .u64) (.var 39)) (.var 35))),
    .asg 58 (.bin (.bxor .u64) (.var 58) (.var 13)),
    .asg 14 (.bin (.bxor .u64) (.var 39) (.bin (.band .u64) (.un (.bnot .u64) (.var 35)) (.var 36))),
    .asg 59 (.bin (.bxor .u64) (.var 59) (.var 14)),
    .asg 66 (.bin (.bxor .u64) (.var 66) (.var 61)),
    .asg 40 (.bin (.bxor .u64) (.bin (.shl .u64) (.var 66) (.lit 1)) (.bin (.shr .u64) (.var 66) (.lit 63))),
    .asg 72 (.bin (.bxor .u64) (.var 72) (.var 62)),
    .asg 41 (.bin (.bxor .u64) (.bin (.shl .u64) (.var 72) (.lit 6)) (.bin (.shr .u64) (.var 72) (.lit 58))),
    .asg 78 (.bin (.bxor .u64) (.var 78) (.var 63)),
    .asg 42 (.bin (.bxor .u64) (.bin (.shl .u64) (.var 78) (.lit 25)) (.bin (.shr .u64) (.var 78) (.lit 39))),
    .asg 84 (.bin (.bxor .u64) (.var 84) (.var 64)),
    .asg 43 (.bin (.bxor .u64) (.bin (.shl .u64) (.var 84) (.lit 8)) (.bin (.shr .u64) (.var 84) (.lit 56))),
    .asg 85 (.bin (.bxor .u64) (.var 85) (.var 60)),
    .asg 44 (.bin (.bxor .u64) (.bin (.shl .u64) (.var 85) (.lit 18)) (.bin (.shr .u64) (.var 85) (.lit 46))),
    .asg 15 (.bin (.bxor .u64) (.var 40) (.bin (.band .u64) (.un (.bnot .u64) (.var 41)) (.var 42))),
    .asg 55 (.bin (.bxor .u64) (.var 55) (.var 15)),
    .asg 16 (.bin (.bxor .u64) (.var 41) (.bin (.band .u64) (.un (.bnot .u64) (.var 42)) (.var 43))),
    .asg 56 (.bin (.bxor .u64) (.var 56) (.var 16)),
    .asg 17 (.bin (.bxor .u64) (.var 42) (.bin (.band .u64) (.un (.bnot .u64) (.var 43)) (.var 44))),
    .asg 57 (.bin (.bxor .u64) (.var 57) (.var 17)),
    .asg 18 (.bin (.bxor .u64) (.var 43) (.bin (.band .u64) (.un (.bnot .u64) (.var 44)) (.var 40))),
    .asg 58 (.bin (.bxor .u64) (.var 58) (.var 18)),
    .asg 19 (.bin (.bxor .u64) (.var 44) (.bin (.band .u64) (.un (.bnot .u64) (.var 40)) (.var 41))),
    .asg 59 (.bin (.bxor .u64) (.var 59) (.var 19)),
    .asg 69 (.bin (.bxor .u64) (.var 69) (.var 64)),
    .asg 45 (.bin (.bxor .u64) (.bin (.shl .u64) (.var 69) (.lit 27)) (.bin (.shr .u64) (.var 69) (.lit 37))),
    .asg 70 (.bin (.bxor .u64) (.var 70) (.var 60)),
    .asg 46 (.bin (.bxor .u64) (.bin (.shl .u64) (.var 70) (.lit 36)) (.bin (.shr .u64) (.var 70) (.lit 28))),
    .asg 76 (.bin (.bxor .u64) (.var 76) (.var 61)),
    .asg 47 (.bin (.bxor .u64) (.bin (.shl .u64) (.var 76) (.lit 10)) (.bin (.shr .u64) (.var 76) (.lit 54))),
    .asg 82 (.bin (.bxor .u64) (.var 82) (.var 62)),
    .asg 48 (.bin (.bxor .u64) (.bin (.shl .u64) (.var 82) (.lit 15)) (.bin (.shr .u64) (.var 82) (.lit 49))),
    .asg 88 (.bin (.bxor .u64) (.var 88) (.var 63)),
    .asg 49 (.bin (.bxor .u64) (.bin (.shl .u64) (.var 88) (.lit 56)) (.bin (.shr .u64) (.var 88) (.lit 8))),
    .asg 20 (.bin (.bxor .u64) (.var 45) (.bin (.band .u64) (.un (.bnot .u64) (.var 46)) (.var 47))),
    .asg 55 (.bin (.bxor .u64) (.var 55) (.var 20)),
    .asg 21 (.bin (.bxor .u64) (.var 46) (.bin (.band .u64) (.un (.bnot .u64) (.var 47)) (.var 48))),
    .asg 56 (.bin (.bxor .u64) (.var 56) (.var 21))]

/-- part of `KeccakF1600_FastLoop_Absorb` -/
def KeccakF1600_FastLoop_Absorb.part26 : Stmt :=
  block [
    .asg 22 (.bin (.bxor .u64) (.var 47) (.bin (.band .u64) (.un (.bnot .u64) (.var 48)) (.var 49))),
    .asg 57 (.bin (.bxor .u64) (.var 57) (.var 22)),
    .asg 23 (.bin (.bxor .u64) (.var 48) (.bin (.band .u64) (.un (.bnot .u64) (.var 49)) (.var 45))),
    .asg 58 (.bin (.bxor .u64) (.var 58) (.var 23)),
    .asg 24 (.bin (.bxor .u64) (.var 49) (.bin (.band .u64) (.un (.bnot .u64) (.var 45)) (.var 46))),
    .asg 59 (.bin (.bxor .u64) (.var 59) (.var 24)),
    .asg 67 (.bin (.bxor .u64) (.var 67) (.var 62)),
    .asg 50 (.bin (.bxor .u64) (.bin (.shl .u64) (.var 67) (.lit 62)) (.bin (.shr .u64) (.var 67) (.lit 2))),
    .asg 73 (.bin (.bxor .u64) (.var 73) (.var 63)),
    .asg 51 (.bin (.bxor .u64) (.bin (.shl .u64) (.var 73) (.lit 55)) (.bin (.shr .u64) (.var 73) (.lit 9))),
    .asg 79 (.bin (.bxor .u64) (.var 79) (.var 64)),
    .asg 52 (.bin (.bxor .u64) (.bin (.shl .u64) (.var 79) (.lit 39)) (.bin (.shr .u64) (.var 79) (.lit 25))),
    .asg 80 (.bin (.bxor .u64) (.var 80) (.var 60)),
    .asg 53 (.bin (.bxor .u64) (.bin (.shl .u64) (.var 80) (.lit 41)) (.bin (.shr .u64) (.var 80) (.lit 23))),
    .asg 86 (.bin (.bxor .u64) (.var 86) (.var 61)),
    .asg 54 (.bin (.bxor .u64) (.bin (.shl .u64) (.var 86) (.lit 2)) (.bin (.shr .u64) (.var 86) (.lit 62))),
    .asg 25 (.bin (.bxor .u64) (.var 50) (.bin (.band .u64) (.un (.bnot .u64) (.var 51)) (.var 52))),
    .asg 55 (.bin (.bxor .u64) (.var 55) (.var 25)),
    .asg 26 (.bin (.bxor .u64) (.var 51) (.bin (.band .u64) (.un (.bnot .u64) (.var 52)) (.var 53))),
    .asg 56 (.bin (.bxor .u64) (.var 56) (.var 26)),
    .asg 27 (.bin (.bxor .u64) (.var 52) (.bin (.band .u64) (.un (.bnot .u64) (.var 53)) (.var 54))),
    .asg 57 (.bin (.bxor .u64) (.var 57) (.var 27)),
    .asg 28 (.bin (.bxor .u64) (.var 53) (.bin (.band .u64) (.un (.bnot .u64) (.var 54)) (.var 50))),
    .asg 58 (.bin (.bxor .u64) (.var 58) (.var 28)),
    .asg 29 (.bin (.bxor .u64) (.var 54) (.bin (.band .u64) (.un (.bnot .u64) (.var 50)) (.var 51))),
    .asg 59 (.bin (.bxor .u64) (.var 59) (.var 29)),
    .asg 60 (.bin (.bxor .u64) (.var 59) (.bin (.bxor .u64) (.bin (.shl .u64) (.var 56) (.lit 1)) (.bin (.shr .u64)
      (.var 56) (.lit 63)))),
    .asg 61 (.bin (.bxor .u64) (.var 55) (.bin (.bxor .u64) (.bin (.shl .u64) (.var 57) (.lit 1)) (.bin (.shr .u64)
      (.var 57) (.lit 63)))),
    .asg 62 (.bin (.bxor .u64) (.var 56) (.bin (.bxor .u64) (.bin (.shl .u64) (.var 58) (.lit 1)) (.bin (.shr .u64)
      (.var 58) (.lit 63)))),
    .asg 63 (.bin (.bxor .u64) (.var 57) (.bin (.bxor .u64) (.bin (.shl .u64) (.var 59) (.lit 1)) (.bin (.shr .u64)
      (.var 59) (.lit 63)))),
    .asg 64 (.bin (.bxor .u64) (.var 58) (.bin (.bxor .u64) (.bin (.shl .u64) (.var 55) (.lit 1)) (.bin (.shr .u64)
      (.var 55) (.lit 63)))),
    .asg 5 (.bin (.bxor .u64) (.var 5) (.var 60)),
    .asg 30 (.var 5),
    .asg 11 (.bin (.bxor .u64) (.var 11) (.var 61)),
    .asg 31 (.bin (.bxor .u64) (.bin (.shl .u64) (.var 11) (.lit 44)) (.bin (.shr .u64) (.var 11) (.lit 20))),
    .asg 17 (.bin (.bxor .u64) (.var 17) (.var 62)),
    .asg 32 (.bin (.bxor .u64) (.bin (.shl .u64) (.var 17) (.lit 43)) (.bin (.shr .u64) (.var 17) (.lit 21))),
    .asg 23 (.bin (.bxor .u64) (.var 23) (.var 63)),
    .asg 33 (.bin (.bxor .u64) (.bin (.shl .u64) (.var 23) (.lit 21)) (.bin (.shr .u64) (.var 23) (.lit 43))),
    .asg 29 (.bin (.bxor .u64) (.var 29) (.var 64))]

/-- part of `KeccakF1600_FastLoop_Absorb` -/
def KeccakF1600_FastLoop_Absorb.part27 : Stmt :=
  block [
    .asg 34 (.bin (.bxor .u64) (.bin (.shl .u64) (.var 29) (.lit 14)) (.bin (.shr .u64) (.var 29) (.lit 50))),
    .asg 65 (.bin (.bxor .u64) (.var 30) (.bin (.band .u64) (.un (.bnot .u64) (.var 31)) (.var 32))),
    .asg 65 (.bin (.bxor .u64) (.var 65) (.ld 8 (.padd (.glob 0) (.lit 10) 8))),
    .asg 55 (.var 65),
    .asg 66 (.bin (.bxor .u64) (.var 31) (.bin (.band .u64) (.un (.bnot .u64) (.var 32)) (.var 33))),
    .asg 56 (.var 66),
    .asg 67 (.bin (.bxor .u64) (.var 32) (.bin (.band .u64) (.un (.bnot .u64) (.var 33)) (.var 34))),
    .asg 57 (.var 67),
    .asg 68 (.bin (.bxor .u64) (.var 33) (.bin (.band .u64) (.un (.bnot .u64) (.var 34)) (.var 30))),
    .asg 58 (.var 68),
    .asg 69 (.bin (.bxor .u64) (.var 34) (.bin (.band .u64) (.un (.bnot .u64) (.var 30)) (.var 31))),
    .asg 59 (.var 69),
    .asg 8 (.bin (.bxor .u64) (.var 8) (.var 63)),
    .asg 35 (.bin (.bxor .u64) (.bin (.shl .u64) (.var 8) (.lit 28)) (.bin (.shr .u64) (.var 8) (.lit 36))),
    .asg 14 (.bin (.bxor .u64) (.var 14) (.var 64)),
    .asg 36 (.bin (.bxor .u64) (.bin (.shl .u64) (.var 14) (.lit 20)) (.bin (.shr .u64) (.var 14) (.lit 44))),
    .asg 15 (.bin (.bxor .u64) (.var 15) (.var 60)),
    .asg 37 (.bin (.bxor .u64) (.bin (.shl .u64) (.var 15) (.lit 3)) (.bin (.shr .u64) (.var 15) (.lit 61))),
    .asg 21 (.bin (.bxor .u64) (.var 21) (.var 61)),
    .asg 38 (.bin (.bxor .u64) (.bin (.shl .u64) (.var 21) (.lit 45)) (.bin (.shr .u64) (.var 21) (.lit 19))),
    .asg 27 (.bin (.bxor .u64) (.var 27) (.var 62)),
    .asg 39 (.bin (.bxor .u64) (.bin (.shl .u64) (.var 27) (.lit 61)) (.bin (.shr .u64) (.var 27) (.lit 3))),
    .asg 70 (.bin (.bxor .u64) (.var 35) (.bin (.band .u64) (.un (.bnot .u64) (.var 36)) (.var 37))),
    .asg 55 (.bin (.bxor .u64) (.var 55) (.var 70)),
    .asg 71 (.bin (.bxor .u64) (.var 36) (.bin (.band .u64) (.un (.bnot .u64) (.var 37)) (.var 38))),
    .asg 56 (.bin (.bxor .u64) (.var 56) (.var 71)),
    .asg 72 (.bin (.bxor .u64) (.var 37) (.bin (.band .u64) (.un (.bnot .u64) (.var 38)) (.var 39))),
    .asg 57 (.bin (.bxor .u64) (.var 57) (.var 72)),
    .asg 73 (.bin (.bxor .u64) (.var 38) (.bin (.band .u64) (.un (.bnot .u64) (.var 39)) (.var 35))),
    .asg 58 (.bin (.bxor .u64) (.var 58) (.var 73)),
    .asg 74 (.bin (.bxor .u64) (.var 39) (.bin (.band .u64) (.un (.bnot .u64) (.var 35)) (.var 36))),
    .asg 59 (.bin (.bxor .u64) (.var 59) (.var 74)),
    .asg 6 (.bin (.bxor .u64) (.var 6) (.var 61)),
    .asg 40 (.bin (.bxor .u64) (.bin (.shl .u64) (.var 6) (.lit 1)) (.bin (.shr .u64) (.var 6) (.lit 63))),
    .asg 12 (.bin (.bxor .u64) (.var 12) (.var 62)),
    .asg 41 (.bin (.bxor .u64) (.bin (.shl .u64) (.var 12) (.lit 6)) (.bin (.shr .u64) (.var 12) (.lit 58))),
    .asg 18 (.bin (.bxor .u64) (.var 18) (.var 63)),
    .asg 42 (.bin (.bxor .u64) (.bin (.shl .u64) (.var 18) (.lit 25)) (.bin (.shr .u64) (.var 18) (.lit 39))),
    .asg 24 (.bin (.bxor .u64) (.var 24) (.var 64)),
    .asg 43 (.bin (.bxor .u64) (.bin (.shl .u64) (.var 24) (.lit 8)) (.bin (.shr .u64) (.var 24) (.lit 56)))]

/-- part of `KeccakF1600_FastLoop_Absorb` -/
def KeccakF1600_FastLoop_Absorb.part28 : Stmt :=
  block [
    .asg 25 (.bin (.bxor .u64) (.var 25) (.var 60)),
    .asg 44 (.bin (.bxor .u64) (.bin (.shl .u64) (.var 25) (.lit 18)) (.bin (.shr .u64) (.var 25) (.lit 46))),
    .asg 75 (.bin (.bxor .u64) (.var 40) (.bin (.band .u64) (.un (.bnot .u64) (.var 41)) (.var 42))),
    .asg 55 (.bin (.bxor .u64) (.var 55) (.var 75)),
    .asg 76 (.bin (.bxor .u64) (.var 41) (.bin (.band .u64) (.un (.bnot .u64) (.var 42)) (.var 43))),
    .asg 56 (.bin (.bxor .u64) (.var 56) (.var 76)),
    .asg 77 (.bin (.bxor .u64) (.var 42) (.bin (.band .u64) (.un (.bnot .u64) (.var 43)) (.var 44))),
    .asg 57 (.bin (.bxor .u64) (.var 57) (.var 77)),
    .asg 78 (.bin (.bxor .u64) (.var 43) (.bin (.band .u64) (.un (.bnot .u64) (.var 44)) (.var 40))),
    .asg 58 (.bin (.bxor .u64) (.var 58) (.var 78)),
    .asg 79 (.bin (.bxor .u64) (.var 44) (.bin (.band .u64) (.un (.bnot .u64) (.var 40)) (.var 41))),
    .asg 59 (.bin (.bxor .u64) (.var 59) (.var 79)),
    .asg 9 (.bin (.bxor .u64) (.var 9) (.var 64)),
    .asg 45 (.bin (.bxor .u64) (.bin (.shl .u64) (.var 9) (.lit 27)) (.bin (.shr .u64) (.var 9) (.lit 37))),
    .asg 10 (.bin (.bxor .u64) (.var 10) (.var 60)),
    .asg 46 (.bin (.bxor .u64) (.bin (.shl .u64) (.var 10) (.lit 36)) (.bin (.shr .u64) (.var 10) (.lit 28))),
    .asg 16 (.bin (.bxor .u64) (.var 16) (.var 61)),
    .asg 47 (.bin (.bxor .u64) (.bin (.shl .u64) (.var 16) (.lit 10)) (.bin (.shr .u64) (.var 16) (.lit 54))),
    .asg 22 (.bin (.bxor .u64) (.var 22) (.var 62)),
    .asg 48 (.bin (.bxor .u64) (.bin (.shl .u64) (.var 22) (.lit 15)) (.bin (.shr .u64) (.var 22) (.lit 49))),
    .asg 28 (.bin (.bxor .u64) (.var 28) (.var 63)),
    .asg 49 (.bin (.bxor .u64) (.bin (.shl .u64) (.var 28) (.lit 56)) (.bin (.shr .u64) (.var 28) (.lit 8))),
    .asg 80 (.bin (.bxor .u64) (.var 45) (.bin (.band .u64) (.un (.bnot .u64) (.var 46)) (.var 47))),
    .asg 55 (.bin (.bxor .u64) (.var 55) (.var 80)),
    .asg 81 (.bin (.bxor .u64) (.var 46) (.bin (.band .u64) (.un (.bnot .u64) (.var 47)) (.var 48))),
    .asg 56 (.bin (.bxor .u64) (.var 56) (.var 81)),
    .asg 82 (.bin (.bxor .u64) (.var 47) (.bin (.band .u64) (.un (.bnot .u64) (.var 48)) (.var 49))),
    .asg 57 (.bin (.bxor .u64) (.var 57) (.var 82)),
    .asg 83 (.bin (.bxor .u64) (.var 48) (.bin (.band .u64) (.un (.bnot .u64) (.var 49)) (.var 45))),
    .asg 58 (.bin (.bxor .u64) (.var 58) (.var 83)),
    .asg 84 (.bin (.bxor .u64) (.var 49) (.bin (.band .u64) (.un (.bnot .u64) (.var 45)) (.var 46))),
    .asg 59 (.bin (.bxor .u64) (.var 59) (.var 84)),
    .asg 7 (.bin (.bxor .u64) (.var 7) (.var 62)),
    .asg 50 (.bin (.bxor .u64) (.bin (.shl .u64) (.var 7) (.lit 62)) (.bin (.shr .u64) (.var 7) (.lit 2))),
    .asg 13 (.bin (.bxor .u64) (.var 13) (.var 63)),
    .asg 51 (.bin (.bxor .u64) (.bin (.shl .u64) (.var 13) (.lit 55)) (.bin (.shr .u64) (.var 13) (.lit 9))),
    .asg 19 (.bin (.bxor .u64) (.var 19) (.var 64)),
    .asg 52 (.bin (.bxor .u64) (.bin (.shl .u64) (.var 19) (.lit 39)) (.bin (.shr .u64) (.var 19) (.lit 25))),
    .asg 20 (.bin (.bxor .u64) (.var 20) (.var 60)),
    .asg 53 (.bin (.bxor .u64) (.bin (.shl .u64) (.var 20) (.lit 41)) (.bin (.shr .u64) (.var 20) (.lit 23)))]

/-- part of `KeccakF1600_FastLoop_Absorb` -/
def KeccakF1600_FastLoop_Absorb.part29 : Stmt :=
  block [
    .asg 26 (.bin (.bxor .u64) (.var 26) (.var 61)),
    .asg 54 (.bin (.bxor .u64) (.bin (.shl .u64) (.var 26) (.lit 2)) (.bin (.shr .u64) (.var 26) (.lit 62))),
    .asg 85 (.bin (.bxor .u64) (.var 50) (.bin (.band .u64) (.un (.bnot .u64) (.var 51)) (.var 52))),
    .asg 55 (.bin (.bxor .u64) (.var 55) (.var 85)),
    .asg 86 (.bin (.bxor .u64) (.var 51) (.bin (.band .u64) (.un (.bnot .u64) (.var 52)) (.var 53))),
    .asg 56 (.bin (.bxor .u64) (.var 56) (.var 86)),
    .asg 87 (.bin (.bxor .u64) (.var 52) (.bin (.band .u64) (.un (.bnot .u64) (.var 53)) (.var 54))),
    .asg 57 (.bin (.bxor .u64) (.var 57) (.var 87)),
    .asg 88 (.bin (.bxor .u64) (.var 53) (.bin (.band .u64) (.un (.bnot .u64) (.var 54)) (.var 50))),
    .asg 58 (.bin (.bxor .u64) (.var 58) (.var 88)),
    .asg 89 (.bin (.bxor .u64) (.var 54) (.bin (.band .u64) (.un (.bnot .u64) (.var 50)) (.var 51))),
    .asg 59 (.bin (.bxor .u64) (.var 59) (.var 89)),
    .asg 60 (.bin (.bxor .u64) (.var 59) (.bin (.bxor .u64) (.bin (.shl .u64) (.var 56) (.lit 1)) (.bin (.shr .u64)
      (.var 56) (.lit 63)))),
    .asg 61 (.bin (.bxor .u64) (.var 55) (.bin (.bxor .u64) (.bin (.shl .u64) (.var 57) (.lit 1)) (.bin (.shr .u64)
      (.var 57) (.lit 63)))),
    .asg 62 (.bin (.bxor .u64) (.var 56) (.bin (.bxor .u64) (.bin (.shl .u64) (.var 58) (.lit 1)) (.bin (.shr .u64)
      (.var 58) (.lit 63)))),
    .asg 63 (.bin (.bxor .u64) (.var 57) (.bin (.bxor .u64) (.bin (.shl .u64) (.var 59) (.lit 1)) (.bin (.shr .u64)
      (.var 59) (.lit 63)))),
    .asg 64 (.bin (.bxor .u64) (.var 58) (.bin (.bxor .u64) (.bin (.shl .u64) (.var 55) (.lit 1)) (.bin (.shr .u64)
      (.var 55) (.lit 63)))),
    .asg 65 (.bin (.bxor .u64) (.var 65) (.var 60)),
    .asg 30 (.var 65),
    .asg 71 (.bin (.bxor .u64) (.var 71) (.var 61)),
    .asg 31 (.bin (.bxor .u64) (.bin (.shl .u64) (.var 71) (.lit 44)) (.bin (.shr .u64) (.var 71) (.lit 20))),
    .asg 77 (.bin (.bxor .u64) (.var 77) (.var 62)),
    .asg 32 (.bin (.bxor .u64) (.bin (.shl .u64) (.var 77) (.lit 43)) (.bin (.shr .u64) (.var 77) (.lit 21))),
    .asg 83 (.bin (.bxor .u64) (.var 83) (.var 63)),
    .asg 33 (.bin (.bxor .u64) (.bin (.shl .u64) (.var 83) (.lit 21)) (.bin (.shr .u64) (.var 83) (.lit 43))),
    .asg 89 (.bin (.bxor .u64) (.var 89) (.var 64)),
    .asg 34 (.bin (.bxor .u64) (.bin (.shl .u64) (.var 89) (.lit 14)) (.bin (.shr .u64) (.var 89) (.lit 50))),
    .asg 5 (.bin (.bxor .u64) (.var 30) (.bin (.band .u64) (.un (.bnot .u64) (.var 31)) (.var 32))),
    .asg 5 (.bin (.bxor .u64) (.var 5) (.ld 8 (.padd (.glob 0) (.lit 11) 8))),
    .asg 55 (.var 5),
    .asg 6 (.bin (.bxor .u64) (.var 31) (.bin (.band .u64) (.un (.bnot .u64) (.var 32)) (.var 33))),
    .asg 56 (.var 6),
    .asg 7 (.bin (.bxor .u64) (.var 32) (.bin (.band .u64) (.un (.bnot .u64) (.var 33)) (.var 34))),
    .asg 57 (.var 7),
    .asg 8 (.bin (.bxor .u64) (.var 33) (.bin (.band .u64) (.un (.bnot .u64) (.var 34)) (.var 30))),
    .asg 58 (.var 8),
    .asg 9 (.bin (.bxor .u64) (.var 34) (.bin (.band .u64) (.un (.bnot .u64) (.var 30)) (.var 31))),
    .asg 59 (.var 9),
    .asg 68 (.bin (.bxor .u64) (.var 68) (.var 63)),
    .asg 35 (.bin (.bxor .u64) (.bin (.shl .u64) (.var 68) (.lit 28)) (.bin (.shr .u64) (.var 68) (.lit 36)))]

/-- part of `KeccakF1600_FastLoop_Absorb` -/
def KeccakF1600_FastLoop_Absorb.part30 : Stmt :=
  block [
    .asg 74 (.bin (.bxor .u64) (.var 74) (.var 64)),
    .asg 36 (.bin (.bxor .u64) (.bin (.shl .u64) (.var 74) (.lit 20)) (.bin (.shr .u64) (.var 74) (.lit 44))),
    .asg 75 (.bin (.bxor .u64) (.var 75) (.var 60)),
    .asg 37 (.bin (.bxor .u64) (.bin (.shl .u64) (.var 75) (.lit 3)) (.bin (.shr .u64) (.var 75) (.lit 61))),
    .asg 81 (.bin (.bxor .u64) (.var 81) (.var 61)),
    .asg 38 (.bin (.bxor .u64) (.bin (.shl .u64) (.var 81) (.lit 45)) (.bin (.shr .u64) (.var 81) (.lit 19))),
    .asg 87 (.bin (.bxor .u64) (.var 87) (.var 62)),
    .asg 39 (.bin (.bxor .u64) (.bin (.shl .u64) (.var 87) (.lit 61)) (.bin (.shr .u64) (.var 87) (.lit 3))),
    .asg 10 (.bin (.bxor .u64) (.var 35) (.bin (.band .u64) (.un (.bnot .u64) (.var 36)) (.var 37))),
    .asg 55 (.bin (.bxor .u64) (.var 55) (.var 10)),
    .asg 11 (.bin (.bxor .u64) (.var 36) (.bin (.band .u64) (.un (.bnot .u64) (.var 37)) (.var 38))),
    .asg 56 (.bin (.bxor .u64) (.var 56) (.var 11)),
    .asg 12 (.bin (.bxor .u64) (.var 37) (.bin (.band .u64) (.un (.bnot .u64) (.var 38)) (.var 39))),
    .asg 57 (.bin (.bxor .u64) (.var 57) (.var 12)),
    .asg 13 (.bin (.bxor .u64) (.var 38) (.bin (.band .u64) (.un (.bnot .u64) (.var 39)) (.var 35))),
    .asg 58 (.bin (.bxor .u64) (.var 58) (.var 13)),
    .asg 14 (.bin (.bxor .u64) (.var 39) (.bin (.band .u64) (.un (.bnot .u64) (.var 35)) (.var 36))),
    .asg 59 (.bin (.bxor .u64) (.var 59) (.var 14)),
    .asg 66 (.bin (.bxor .u64) (.var 66) (.var 61)),
    .asg 40 (.bin (.bxor .u64) (.bin (.shl .u64) (.var 66) (.lit 1)) (.bin (.shr .u64) (.var 66) (.lit 63))),
    .asg 72 (.bin (.bxor .u64) (.var 72) (.var 62)),
    .asg 41 (.bin (.bxor .u64) (.bin (.shl .u64) (.var 72) (.lit 6)) (.bin (.shr .u64) (.var 72) (.lit 58))),
    .asg 78 (.bin (.bxor .u64) (.var 78) (.var 63)),
    .asg 42 (.bin (.bxor .u64) (.bin (.shl .u64) (.var 78) (.lit 25)) (.bin (.shr .u64) (.var 78) (.lit 39))),
    .asg 84 (.bin (.bxor .u64) (.var 84) (.var 64)),
    .asg 43 (.bin (.bxor .u64) (.bin (.shl .u64) (.var 84) (.lit 8)) (.bin (.shr .u64) (.var 84) (.lit 56))),
    .asg 85 (.bin (.bxor .u64) (.var 85) (.var 60)),
    .asg 44 (.bin (.bxor .u64) (.bin (.shl .u64) (.var 85) (.lit 18)) (.bin (.shr .u64) (.var 85) (.lit 46))),
    .asg 15 (.bin (.bxor .u64) (.var 40) (.bin (.band .u64) (.un (.bnot .u64) (.var 41)) (.var 42))),
    .asg 55 (.bin (.bxor .u64) (.var 55) (.var 15)),
    .asg 16 (.bin (.bxor .u64) (.var 41) (.bin (.band .u64) (.un (.bnot .u64) (.var 42)) (.var 43))),
    .asg 56 (.bin (.bxor .u64) (.var 56) (.var 16)),
    .asg 17 (.bin (.bxor .u64) (.var 42) (.bin (.band .u64) (.un (.bnot .u64) (.var 43)) (.var 44))),
    .asg 57 (.bin (.bxor .u64) (.var 57) (.var 17)),
    .asg 18 (.bin (.bxor .u64) (.var 43) (.bin (.band .u64) (.un (.bnot .u64) (.var 44)) (.var 40))),
    .asg 58 (.bin (.bxor .u64) (.var 58) (.var 18)),
    .asg 19 (.bin (.bxor .u64) (.var 44) (.bin (.band .u64) (.un (.bnot .u64) (.var 40)) (.var 41))),
    .asg 59 (.bin (.bxor .u64) (.var 59) (.var 19)),
    .asg 69 (.bin (.bxor .u64) (.var 69) (.var 64)),
    .asg 45 (.bin (.bxor .u64) (.bin (.shl .u64) (.var 69) (.lit 27)) (.bin (.shr .u64) (.var 69) (.lit 37)))]

/-- part of `KeccakF1600_FastLoop_Absorb` -/
def KeccakF1600_FastLoop_Absorb.part31 : Stmt :=
  block [
    .asg 70 (.bin (.bxor .u64) (.var 70) (.var 60)),
    .asg 46 (.bin (.bxor .u64) (.bin (.shl .u64) (.var 70) (.lit 36)) (.bin (.shr .u64) (.var 70) (.lit 28))),
    .asg 76 (.bin (.bxor .u64) (.var 76) (.var 61)),
    .asg 47 (.bin (.bxor .u64) (.bin (.shl .u64) (.var 76) (.lit 10)) (.bin (.shr .u64) (.var 76) (.lit 54))),
    .asg 82 (.bin (.bxor .u64) (.var 82) (.var 62)),
    .asg 48 (.bin (.bxor .u64) (.bin (.shl .u64) (.var 82) (.lit 15)) (.bin (.shr .u64) (.var 82) (.lit 49))),
    .asg 88 (.bin (.bxor .u64) (.var 88) (.var 63)),
    .asg 49 (.bin (.bxor .u64) (.bin (.shl .u64) (.var 88) (.lit 56)) (.bin (.shr .u64) (.var 88) (.lit 8))),
    .asg 20 (.bin (.bxor .u64) (.var 45) (.bin (.band .u64) (.un (.bnot .u64) (.var 46)) (.var 47))),
    .asg 55 (.bin (.bxor .u64) (.var 55) (.var 20)),
    .asg 21 (.bin (.bxor .u64) (.var 46) (.bin (.band .u64) (.un (.bnot .u64) (.var 47)) (.var 48))),
    .asg 56 (.bin (.bxor .u64) (.var 56) (.var 21)),
    .asg 22 (.bin (.bxor .u64) (.var 47) (.bin (.band .u64) (.un (.bnot .u64) (.var 48)) (.var 49))),
    .asg 57 (.bin (.bxor .u64) (.var 57) (.var 22)),
    .asg 23 (.bin (.bxor .u64) (.var 48) (.bin (.band .u64) (.un (.bnot .u64) (.var 49)) (.var 45))),
    .asg 58 (.bin (.bxor .u64) (.var 58) (.var 23)),
    .asg 24 (.bin (.bxor .u64) (.var 49) (.bin (.band .u64) (.un (.bnot .u64) (.var 45)) (.var 46))),
    .asg 59 (.bin (.bxor .u64) (.var 59) (.var 24)),
    .asg 67 (.bin (.bxor .u64) (.var 67) (.var 62)),
    .asg 50 (.bin (.bxor .u64) (.bin (.shl .u64) (.var 67) (.lit 62)) (.bin (.shr .u64) (.var 67) (.lit 2))),
    .asg 73 (.bin (.bxor .u64) (.var 73) (.var 63)),
    .asg 51 (.bin (.bxor .u64) (.bin (.shl .u64) (.var 73) (.lit 55)) (.bin (.shr .u64) (.var 73) (.lit 9))),
    .asg 79 (.bin (.bxor .u64) (.var 79) (.var 64)),
    .asg 52 (.bin (.bxor .u64) (.bin (.shl .u64) (.var 79) (.lit 39)) (.bin (.shr .u64) (.var 79) (.lit 25))),
    .asg 80 (.bin (.bxor .u64) (.var 80) (.var 60)),
    .asg 53 (.bin (.bxor .u64) (.bin (.shl .u64) (.var 80) (.lit 41)) (.bin (.shr .u64) (.var 80) (.lit 23))),
    .asg 86 (.bin (.bxor .u64) (.var 86) (.var 61)),
    .asg 54 (.bin (.bxor .u64) (.bin (.shl .u64) (.var 86) (.lit 2)) (.bin (.shr .u64) (.var 86) (.lit 62))),
    .asg 25 (.bin (.bxor .u64) (.var 50) (.bin (.band .u64) (.un (.bnot .u64) (.var 51)) (.var 52))),
    .asg 55 (.bin (.bxor .u64) (.var 55) (.var 25)),
    .asg 26 (.bin (.bxor .u64) (.var 51) (.bin (.band .u64) (.un (.bnot .u64) (.var 52)) (.var 53))),
    .asg 56 (.bin (.bxor .u64) (.var 56) (.var 26)),
    .asg 27 (.bin (.bxor .u64) (.var 52) (.bin (.band .u64) (.un (.bnot .u64) (.var 53)) (.var 54))),
    .asg 57 (.bin (.bxor .u64) (.var 57) (.var 27)),
    .asg 28 (.bin (.bxor .u64) (.var 53) (.bin (.band .u64) (.un (.bnot .u64) (.var 54)) (.var 50))),
    .asg 58 (.bin (.bxor .u64) (.var 58) (.var 28)),
    .asg 29 (.bin (.bxor .u64) (.var 54) (.bin (.band .u64) (.un (.bnot .u64) (.var 50)) (.var 51))),
    .asg 59 (.bin (.bxor .u64) (.var 59) (.var 29)),
    .asg 60 (.bin (.bxor .u64) (.var 59) (.bin (.bxor .u64) (.bin (.shl .u64) (.var 56) (.lit 1)) (.bin (.shr .u64)
      (.var 56) (.lit 63)))),
    .asg 61 (.bin (.bxor .u64) (.var 55) (.bin (.bxor .u64) (.bin (.shl .u64) (.var 57) (.lit 1)) (.bin (.shr .u64)
      (.var 57) (.lit 63))))]

/-- part of `KeccakF1600_FastLoop_Absorb` -/
def KeccakF1600_FastLoop_Absorb.part32 : Stmt :=
  block [
    .asg 62 (.bin (.bxor .u64) (.var 56) (.bin (.bxor .u64) (.bin (.shl .u64) (.var 58) (.lit 1)) (.bin (.shr .u64)
      (.var 58) (.lit 63)))),
    .asg 63 (.bin (.bxor .u64) (.var 57) (.bin (.bxor .u64) (.bin (.shl .u64) (.var 59) (.lit 1)) (.bin (.shr .u64)
      (.var 59) (.lit 63)))),
    .asg 64 (.bin (.bxor .u64) (.var 58) (.bin (.bxor .u64) (.bin (.shl .u64) (.var 55) (.lit 1)) (.bin (.shr .u64)
      (.var 55) (.lit 63)))),
    .asg 5 (.bin (.bxor .u64) (.var 5) (.var 60)),
    .asg 30 (.var 5),
    .asg 11 (.bin (.bxor .u64) (.var 11) (.var 61)),
    .asg 31 (.bin (.bxor .u64) (.bin (.shl .u64) (.var 11) (.lit 44)) (.bin (.shr .u64) (.var 11) (.lit 20))),
    .asg 17 (.bin (.bxor .u64) (.var 17) (.var 62)),
    .asg 32 (.bin (.bxor .u64) (.bin (.shl .u64) (.var 17) (.lit 43)) (.bin (.shr .u64) (.var 17) (.lit 21))),
    .asg 23 (.bin (.bxor .u64) (.var 23) (.var 63)),
    .asg 33 (.bin (.bxor .u64) (.bin (.shl .u64) (.var 23) (.lit 21)) (.bin (.shr .u64) (.var 23) (.lit 43))),
    .asg 29 (.bin (.bxor .u64) (.var 29) (.var 64)),
    .asg 34 (.bin (.bxor .u64) (.bin (.shl .u64) (.var 29) (.lit 14)) (.bin (.shr .u64) (.var 29) (.lit 50))),
    .asg 65 (.bin (.bxor .u64) (.var 30) (.bin (.band .u64) (.un (.bnot .u64) (.var 31)) (.var 32))),
    .asg 65 (.bin (.bxor .u64) (.var 65) (.ld 8 (.padd (.glob 0) (.lit 12) 8))),
    .asg 55 (.var 65),
    .asg 66 (.bin (.bxor .u64) (.var 31) (.bin (.band .u64) (.un (.bnot .u64) (.var 32)) (.var 33))),
    .asg 56 (.var 66),
    .asg 67 (.bin (.bxor .u64) (.var 32) (.bin (.band .u64) (.un (.bnot .u64) (.var 33)) (.var 34))),
    .asg 57 (.var 67),
    .asg 68 (.bin (.bxor .u64) (.var 33) (.bin (.band .u64) (.un (.bnot .u64) (.var 34)) (.var 30))),
    .asg 58 (.var 68),
    .asg 69 (.bin (.bxor .u64) (.var 34) (.bin (.band .u64) (.un (.bnot .u64) (.var 30)) (.var 31))),
    .asg 59 (.var 69),
    .asg 8 (.bin (.bxor .u64) (.var 8) (.var 63)),
    .asg 35 (.bin (.bxor .u64) (.bin (.shl .u64) (.var 8) (.lit 28)) (.bin (.shr .u64) (.var 8) (.lit 36))),
    .asg 14 (.bin (.bxor .u64) (.var 14) (.var 64)),
    .asg 36 (.bin (.bxor .u64) (.bin (.shl .u64) (.var 14) (.lit 20)) (.bin (.shr .u64) (.var 14) (.lit 44))),
    .asg 15 (.bin (.bxor .u64) (.var 15) (.var 60)),
    .asg 37 (.bin (.bxor .u64) (.bin (.shl .u64) (.var 15) (.lit 3)) (.bin (.shr .u64) (.var 15) (.lit 61))),
    .asg 21 (.bin (.bxor .u64) (.var 21) (.var 61)),
    .asg 38 (.bin (.bxor .u64) (.bin (.shl .u64) (.var 21) (.lit 45)) (.bin (.shr .u64) (.var 21) (.lit 19))),
    .asg 27 (.bin (.bxor .u64) (.var 27) (.var 62)),
    .asg 39 (.bin (.bxor .u64) (.bin (.shl .u64) (.var 27) (.lit 61)) (.bin (.shr .u64) (.var 27) (.lit 3))),
    .asg 70 (.bin (.bxor .u64) (.var 35) (.bin (.band .u64) (.un (.bnot .u64) (.var 36)) (.var 37))),
    .asg 55 (.bin (.bxor .u64) (.var 55) (.var 70)),
    .asg 71 (.bin (.bxor .u64) (.var 36) (.bin (.band .u64) (.un (.bnot .u64) (.var 37)) (.var 38))),
    .asg 56 (.bin (.bxor .u64) (.var 56) (.var 71)),
    .asg 72 (.bin (.bxor .u64) (.var 37) (.bin (.band .u64) (.un (.bnot .u64) (.var 38)) (.var 39))),
    .asg 57 (.bin (.bxor .u64) (.var 57) (.var 72))]

/-- part of `KeccakF1600_FastLoop_Absorb` -/
def KeccakF1600_FastLoop_Absorb.part33 : Stmt :=
  block [
    .asg 73 (.bin (.bxor .u64) (.var 38) (.bin (.band .u64) (.un (.bnot .u64) (.var 39)) (.var 35))),
    .asg 58 (.bin (.bxor .u64) (.var 58) (.var 73)),
    .asg 74 (.bin (.bxor .u64) (.var 39) (.bin (.band .u64) (.un (.bnot .u64) (.var 35)) (.var 36))),
    .asg 59 (.bin (.bxor .u64) (.var 59) (.var 74)),
    .asg 6 (.bin (.bxor .u64) (.var 6) (.var 61)),
    .asg 40 (.bin (.bxor .u64) (.bin (.shl .u64) (.var 6) (.lit 1)) (.bin (.shr .u64) (.var 6) (.lit 63))),
    .asg 12 (.bin (.bxor .u64) (.var 12) (.var 62)),
    .asg 41 (.bin (.bxor .u64) (.bin (.shl .u64) (.var 12) (.lit 6)) (.bin (.shr .u64) (.var 12) (.lit 58))),
    .asg 18 (.bin (.bxor .u64) (.var 18) (.var 63)),
    .asg 42 (.bin (.bxor .u64) (.bin (.shl .u64) (.var 18) (.lit 25)) (.bin (.shr .u64) (.var 18) (.lit 39))),
    .asg 24 (.bin (.bxor .u64) (.var 24) (.var 64)),
    .asg 43 (.bin (.bxor .u64) (.bin (.shl .u64) (.var 24) (.lit 8)) (.bin (.shr .u64) (.var 24) (.lit 56))),
    .asg 25 (.bin (.bxor .u64) (.var 25) (.var 60)),
    .asg 44 (.bin (.bxor .u64) (.bin (.shl .u64) (.var 25) (.lit 18)) (.bin (.shr .u64) (.var 25) (.lit 46))),
    .asg 75 (.bin (.bxor .u64) (.var 40) (.bin (.band .u64) (.un (.bnot .u64) (.var 41)) (.var 42))),
    .asg 55 (.bin (.bxor .u64) (.var 55) (.var 75)),
    .asg 76 (.bin (.bxor .u64) (.var 41) (.bin (.band .u64) (.un (.bnot .u64) (.var 42)) (.var 43))),
    .asg 56 (.bin (.bxor .u64) (.var 56) (.var 76)),
    .asg 77 (.bin (.bxor .u64) (.var 42) (.bin (.band .u64) (.un (.bnot .u64) (.var 43)) (.var 44))),
    .asg 57 (.bin (.bxor .u64) (.var 57) (.var 77)),
    .asg 78 (.bin (.bxor .u64) (.var 43) (.bin (.band .u64) (.un (.bnot .u64) (.var 44)) (.var 40))),
    .asg 58 (.bin (.bxor .u64) (.var 58) (.var 78)),
    .asg 79 (.bin (.bxor .u64) (.var 44) (.bin (.band .u64) (.un (.bnot .u64) (.var 40)) (.var 41))),
    .asg 59 (.bin (.bxor .u64) (.var 59) (.var 79)),
    .asg 9 (.bin (.bxor .u64) (.var 9) (.var 64)),
    .asg 45 (.bin (.bxor .u64) (.bin (.shl .u64) (.var 9) (.lit 27)) (.bin (.shr .u64) (.var 9) (.lit 37))),
    .asg 10 (.bin (.bxor .u64) (.var 10) (.var 60)),
    .asg 46 (.bin (.bxor .u64) (.bin (.shl .u64) (.var 10) (.lit 36)) (.bin (.shr .u64) (.var 10) (.lit 28))),
    .asg 16 (.bin (.bxor .u64) (.var 16) (.var 61)),
    .asg 47 (.bin (.bxor .u64) (.bin (.shl .u64) (.var 16) (.lit 10)) (.bin (.shr .u64) (.var 16) (.lit 54))),
    .asg 22 (.bin (.bxor .u64) (.var 22) (.var 62)),
    .asg 48 (.bin (.bxor .u64) (.bin (.shl .u64) (.var 22) (.lit 15)) (.bin (.shr .u64) (.var 22) (.lit 49))),
    .asg 28 (.bin (.bxor .u64) (.var 28) (.var 63)),
    .asg 49 (.bin (.bxor .u64) (.bin (.shl .u64) (.var 28) (.lit 56)) (.bin (.shr .u64) (.var 28) (.lit 8))),
    .asg 80 (.bin (.bxor .u64) (.var 45) (.bin (.band .u64) (.un (.bnot .u64) (.var 46)) (.var 47))),
    .asg 55 (.bin (.bxor .u64) (.var 55) (.var 80)),
    .asg 81 (.bin (.bxor .u64) (.var 46) (.bin (.band .u64) (.un (.bnot .u64) (.var 47)) (.var 48))),
    .asg 56 (.bin (.bxor .u64) (.var 56) (.var 81)),
    .asg 82 (.bin (.bxor .u64) (.var 47) (.bin (.band .u64) (.un (.bnot .u64) (.var 48)) (.var 49))),
    .asg 57 (.bin (.bxor .u64) (.var 57) (.var 82))]

/-- part of `KeccakF1600_FastLoop_Absorb` -/
def KeccakF1600_FastLoop_Absorb.part34 : Stmt :=
  block [
    .asg 83 (.bin (.bxor .u64) (.var 48) (.bin (.band .u64) (.un (.bnot .u64) (.var 49)) (.var 45))),
    .asg 58 (.bin (.bxor .u64) (.var 58) (.var 83)),
    .asg 84 (.bin (.bxor .u64) (.var 49) (.bin (.band .u64) (.un (.bnot .u64) (.var 45)) (.var 46))),
    .asg 59 (.bin (.bxor .u64) (.var 59) (.var 84)),
    .asg 7 (.bin (.bxor .u64) (.var 7) (.var 62)),
    .asg 50 (.bin (.bxor .u64) (.bin (.shl .u64) (.var 7) (.lit 62)) (.bin (.shr .u64) (.var 7) (.lit 2))),
    .asg 13 (.bin (.bxor .u64) (.var 13) (.var 63)),
    .asg 51 (.bin (.bxor .u64) (.bin (.shl .u64) (.var 13) (.lit 55)) (.bin (.shr .u64) (.var 13) (.lit 9))),
    .asg 19 (.bin (.bxor .u64) (.var 19) (.var 64)),
    .asg 52 (.bin (.bxor .u64) (.bin (.shl .u64) (.var 19) (.lit 39)) (.bin (.shr .u64) (.var 19) (.lit 25))),
    .asg 20 (.bin (.bxor .u64) (.var 20) (.var 60)),
    .asg 53 (.bin (.bxor .u64) (.bin (.shl .u64) (.var 20) (.lit 41)) (.bin (.shr .u64) (.var 20) (.lit 23))),
    .asg 26 (.bin (.bxor .u64) (.var 26) (.var 61)),
    .asg 54 (.bin (.bxor .u64) (.bin (.shl .u64) (.var 26) (.lit 2)) (.bin (.shr .u64) (.var 26) (.lit 62))),
    .asg 85 (.bin (.bxor .u64) (.var 50) (.bin (.band .u64) (.un (.bnot .u64) (.var 51)) (.var 52))),
    .asg 55 (.bin (.bxor .u64) (.var 55) (.var 85)),
    .asg 86 (.bin (.bxor .u64) (.var 51) (.bin (.band .u64) (.un (.bnot .u64) (.var 52)) (.var 53))),
    .asg 56 (.bin (.bxor .u64) (.var 56) (.var 86)),
    .asg 87 (.bin (.bxor .u64) (.var 52) (.bin (.band .u64) (.un (.bnot .u64) (.var 53)) (.var 54))),
    .asg 57 (.bin (.bxor .u64) (.var 57) (.var 87)),
    .asg 88 (.bin (.bxor .u64) (.var 53) (.bin (.band .u64) (.un (.bnot .u64) (.var 54)) (.var 50))),
    .asg 58 (.bin (.bxor .u64) (.var 58) (.var 88)),
    .asg 89 (.bin (.bxor .u64) (.var 54) (.bin (.band .u64) (.un (.bnot .u64) (.var 50)) (.var 51))),
    .asg 59 (.bin (.bxor .u64) (.var 59) (.var 89)),
    .asg 60 (.bin (.bxor .u64) (.var 59) (.bin (.bxor .u64) (.bin (.shl .u64) (.var 56) (.lit 1)) (.bin (.shr .u64)
      (.var 56) (.lit 63)))),
    .asg 61 (.bin (.bxor .u64) (.var 55) (.bin (.bxor .u64) (.bin (.shl .u64) (.var 57) (.lit 1)) (.bin (.shr .u64)
      (.var 57) (.lit 63)))),
    .asg 62 (.bin (.bxor .u64) (.var 56) (.bin (.bxor .u64) (.bin (.shl .u64) (.var 58) (.lit 1)) (.bin (.shr .u64)
      (.var 58) (.lit 63)))),
    .asg 63 (.bin (.bxor .u64) (.var 57) (.bin (.bxor .u64) (.bin (.shl .u64) (.var 59) (.lit 1)) (.bin (.shr .u64)
      (.var 59) (.lit 63)))),
    .asg 64 (.bin (.bxor .u64) (.var 58) (.bin (.bxor .u64) (.bin (.shl .u64) (.var 55) (.lit 1)) (.bin (.shr .u64)
      (.var 55) (.lit 63)))),
    .asg 65 (.bin (.bxor .u64) (.var 65) (.var 60)),
    .asg 30 (.var 65),
    .asg 71 (.bin (.bxor .u64) (.var 71) (.var 61)),
    .asg 31 (.bin (.bxor .u64) (.bin (.shl .u64) (.var 71) (.lit 44)) (.bin (.shr .u64) (.var 71) (.lit 20))),
    .asg 77 (.bin (.bxor .u64) (.var 77) (.var 62)),
    .asg 32 (.bin (.bxor .u64) (.bin (.shl .u64) (.var 77) (.lit 43)) (.bin (.shr .u64) (.var 77) (.lit 21))),
    .asg 83 (.bin (.bxor .u64) (.var 83) (.var 63)),
    .asg 33 (.bin (.bxor .u64) (.bin (.shl .u64) (.var 83) (.lit 21)) (.bin (.shr .u64) (.var 83) (.lit 43))),
    .asg 89 (.bin (.bxor .u64) (.var 89) (.var 64)),
    .asg 34 (.bin (.bxor .u64) (.bin (.shl .u64) (.var 89) (.lit 14)) (.bin (.shr .u64) (.var 89) (.lit 50))),
    .asg 5 (.bin (.bxor .u64) (.var 30) (.bin (.band .u64) (.un (.bnot .u64) (.var 31)) (.var 32)))]

/-- part of `KeccakF1600_FastLoop_Absorb` -/
def KeccakF1600_FastLoop_Absorb.part35 : Stmt :=
  block [
    .asg 5 (.bin (.bxor .u64) (.var 5) (.ld 8 (.padd (.glob 0) (.lit 13) 8))),
    .asg 55 (.var 5),
    .asg 6 (.bin (.bxor .u64) (.var 31) (.bin (.band .u64) (.un (.bnot .u64) (.var 32)) (.var 33))),
    .asg 56 (.var 6),
    .asg 7 (.bin (.bxor .u64) (.var 32) (.bin (.band .u64) (.un (.bnot .u64) (.var 33)) (.var 34))),
    .asg 57 (.var 7),
    .asg 8 (.bin (.bxor .u64) (.var 33) (.bin (.band .u64) (.un (.bnot .u64) (.var 34)) (.var 30))),
    .asg 58 (.var 8),
    .asg 9 (.bin (.bxor .u64) (.var 34) (.bin (.band .u64) (.un (.bnot .u64) (.var 30)) (.var 31))),
    .asg 59 (.var 9),
    .asg 68 (.bin (.bxor .u64) (.var 68) (.var 63)),
    .asg 35 (.bin (.bxor .u64) (.bin (.shl .u64) (.var 68) (.lit 28)) (.bin (.shr .u64) (.var 68) (.lit 36))),
    .asg 74 (.bin (.bxor .u64) (.var 74) (.var 64)),
    .asg 36 (.bin (.bxor .u64) (.bin (.shl .u64) (.var 74) (.lit 20)) (.bin (.shr .u64) (.var 74) (.lit 44))),
    .asg 75 (.bin (.bxor .u64) (.var 75) (.var 60)),
    .asg 37 (.bin (.bxor .u64) (.bin (.shl .u64) (.var 75) (.lit 3)) (.bin (.shr .u64) (.var 75) (.lit 61))),
    .asg 81 (.bin (.bxor .u64) (.var 81) (.var 61)),
    .asg 38 (.bin (.bxor .u64) (.bin (.shl .u64) (.var 81) (.lit 45)) (.bin (.shr .u64) (.var 81) (.lit 19))),
    .asg 87 (.bin (.bxor .u64) (.var 87) (.var 62)),
    .asg 39 (.bin (.bxor .u64) (.bin (.shl .u64) (.var 87) (.lit 61)) (.bin (.shr .u64) (.var 87) (.lit 3))),
    .asg 10 (.bin (.bxor .u64) (.var 35) (.bin (.band .u64) (.un (.bnot .u64) (.var 36)) (.var 37))),
    .asg 55 (.bin (.bxor .u64) (.var 55) (.var 10)),
    .asg 11 (.bin (.bxor .u64) (.var 36) (.bin (.band .u64) (.un (.bnot .u64) (.var 37)) (.var 38))),
    .asg 56 (.bin (.bxor .u64) (.var 56) (.var 11)),
    .asg 12 (.bin (.bxor .u64) (.var 37) (.bin (.band .u64) (.un (.bnot .u64) (.var 38)) (.var 39))),
    .asg 57 (.bin (.bxor .u64) (.var 57) (.var 12)),
    .asg 13 (.bin (.bxor .u64) (.var 38) (.bin (.band .u64) (.un (.bnot .u64) (.var 39)) (.var 35))),
    .asg 58 (.bin (.bxor .u64) (.var 58) (.var 13)),
    .asg 14 (.bin (.bxor .u64) (.var 39) (.bin (.band .u64) (.un (.bnot .u64) (.var 35)) (.var 36))),
    .asg 59 (.bin (.bxor .u64) (.var 59) (.var 14)),
    .asg 66 (.bin (.bxor .u64) (.var 66) (.var 61)),
    .asg 40 (.bin (.bxor .u64) (.bin (.shl .u64) (.var 66) (.lit 1)) (.bin (.shr .u64) (.var 66) (.lit 63))),
    .asg 72 (.bin (.bxor .u64) (.var 72) (.var 62)),
    .asg 41 (.bin (.bxor .u64) (.bin (.shl .u64) (.var 72) (.lit 6)) (.bin (.shr .u64) (.var 72) (.lit 58))),
    .asg 78 (.bin (.bxor .u64) (.var 78) (.var 63)),
    .asg 42 (.bin (.bxor .u64) (.bin (.shl .u64) (.var 78) (.lit 25)) (.bin (.shr .u64) (.var 78) (.lit 39))),
    .asg 84 (.bin (.bxor .u64) (.var 84) (.var 64)),
    .asg 43 (.bin (.bxor .u64) (.bin (.shl .u64) (.var 84) (.lit 8)) (.bin (.shr .u64) (.var 84) (.lit 56))),
    .asg 85 (.bin (.bxor .u64) (.var 85) (.var 60)),
    .asg 44 (.bin (.bxor .u64) (.bin (.shl .u64) (.var 85) (.lit 18)) (.bin (.shr .u64) (.var 85) (.lit 46)))]

/-- part of `KeccakF1600_FastLoop_Absorb` -/
def KeccakF1600_FastLoop_Absorb.part36 : Stmt :=
  block [
    .asg 15 (.bin (.bxor .u64) (.var 40) (.bin (.band .u64) (.un (.bnot .u64) (.var 41)) (.var 42))),
    .asg 55 (.bin (.bxor .u64) (.var 55) (.var 15)),
    .asg 16 (.bin (.bxor .u64) (.var 41) (.bin (.band .u64) (.un (.bnot .u64) (.var 42)) (.var 43))),
    .asg 56 (.bin (.bxor .u64) (.var 56) (.var 16)),
    .asg 17 (.bin (.bxor .u64) (.var 42) (.bin (.band .u64) (.un (.bnot .u64) (.var 43)) (.var 44))),
    .asg 57 (.bin (.bxor .u64) (.var 57) (.var 17)),
    .asg 18 (.bin (.bxor .u64) (.var 43) (.bin (.band .u64) (.un (.bnot .u64) (.var 44)) (.var 40))),
    .asg 58 (.bin (.bxor .u64) (.var 58) (.var 18)),
    .asg 19 (.bin (.bxor .u64) (.var 44) (.bin (.band .u64) (.un (.bnot .u64) (.var 40)) (.var 41))),
    .asg 59 (.bin (.bxor .u64) (.var 59) (.var 19)),
    .asg 69 (.bin (.bxor .u64) (.var 69) (.var 64)),
    .asg 45 (.bin (.bxor .u64) (.bin (.shl .u64) (.var 69) (.lit 27)) (.bin (.shr .u64) (.var 69) (.lit 37))),
    .asg 70 (.bin (.bxor .u64) (.var 70) (.var 60)),
    .asg 46 (.bin (.bxor .u64) (.bin (.shl .u64) (.var 70) (.lit 36)) (.bin (.shr .u64) (.var 70) (.lit 28))),
    .asg 76 (.bin (.bxor .u64) (.var 76) (.var 61)),
    .asg 47 (.bin (.bxor .u64) (.bin (.shl .u64) (.var 76) (.lit 10)) (.bin (.shr .u64) (.var 76) (.lit 54))),
    .asg 82 (.bin (.bxor .u64) (.var 82) (.var 62)),
    .asg 48 (.bin (.bxor .u64) (.bin (.shl .u64) (.var 82) (.lit 15)) (.bin (.shr .u64) (.var 82) (.lit 49))),
    .asg 88 (.bin (.bxor .u64) (.var 88) (.var 63)),
    .asg 49 (.bin (.bxor .u64) (.bin (.shl .u64) (.var 88) (.lit 56)) (.bin (.shr .u64) (.var 88) (.lit 8))),
    .asg 20 (.bin (.bxor .u64) (.var 45) (.bin (.band .u64) (.un (.bnot .u64) (.var 46)) (.var 47))),
    .asg 55 (.bin (.bxor .u64) (.var 55) (.var 20)),
    .asg 21 (.bin (.bxor .u64) (.var 46) (.bin (.band .u64) (.un (.bnot .u64) (.var 47)) (.var 48))),
    .asg 56 (.bin (.bxor .u64) (.var 56) (.var 21)),
    .asg 22 (.bin (.bxor .u64) (.var 47) (.bin (.band .u64) (.un (.bnot .u64) (.var 48)) (.var 49))),
    .asg 57 (.bin (.bxor .u64) (.var 57) (.var 22)),
    .asg 23 (.bin (.bxor .u64) (.var 48) (.bin (.band .u64) (.un (.bnot .u64) (.var 49)) (.var 45))),
    .asg 58 (.bin (.bxor .u64) (.var 58) (.var 23)),
    .asg 24 (.bin (.bxor .u64) (.var 49) (.bin (.band .u64) (.un (.bnot .u64) (.var 45)) (.var 46))),
    .asg 59 (.bin (.bxor .u64) (.var 59) (.var 24)),
    .asg 67 (.bin (.bxor .u64) (.var 67) (.var 62)),
    .asg 50 (.bin (.bxor .u64) (.bin (.shl .u64) (.var 67) (.lit 62)) (.bin (.shr .u64) (.var 67) (.lit 2))),
    .asg 73 (.bin (.bxor .u64) (.var 73) (.var 63)),
    .asg 51 (.bin (.bxor .u64) (.bin (.shl .u64) (.var 73) (.lit 55)) (.bin (.shr .u64) (.var 73) (.lit 9))),
    .asg 79 (.bin (.bxor .u64) (.var 79) (.var 64)),
    .asg 52 (.bin (.bxor .u64) (.bin (.shl .u64) (.var 79) (.lit 39)) (.bin (.shr .u64) (.var 79) (.lit 25))),
    .asg 80 (.bin (.bxor .u64) (.var 80) (.var 60)),
    .asg 53 (.bin (.bxor .u64) (.bin (.shl .u64) (.var 80) (.lit 41)) (.bin (.shr .u64) (.var 80) (.lit 23))),
    .asg 86 (.bin (.bxor .u64) (.var 86) (.var 61)),
    .asg 54 (.bin (.bxor .u64) (.bin (.shl .u64) (.var 86) (.lit 2)) (.bin (.shr .u64) (.var 86) (.lit 62)))]

/-- part of `KeccakF1600_FastLoop_Absorb` -/
def KeccakF1600_FastLoop_Absorb.part37 : Stmt :=
  block [
    .asg 25 (.bin (.bxor .u64) (.var 50) (.bin (.band .u64) (.un (.bnot .u64) (.var 51)) (.var 52))),
    .asg 55 (.bin (.bxor .u64) (.var 55) (.var 25)),
    .asg 26 (.bin (.bxor .u64) (.var 51) (.bin (.band .u64) (.un (.bnot .u64) (.var 52)) (.var 53))),
    .asg 56 (.bin (.bxor .u64) (.var 56) (.var 26)),
    .asg 27 (.bin (.bxor .u64) (.var 52) (.bin (.band .u64) (.un (.bnot .u64) (.var 53)) (.var 54))),
    .asg 57 (.bin (.bxor .u64) (.var 57) (.var 27)),
    .asg 28 (.bin (.bxor .u64) (.var 53) (.bin (.band .u64) (.un (.bnot .u64) (.var 54)) (.var 50))),
    .asg 58 (.bin (.bxor .u64) (.var 58) (.var 28)),
    .asg 29 (.bin (.bxor .u64) (.var 54) (.bin (.band .u64) (.un (.bnot .u64) (.var 50)) (.var 51))),
    .asg 59 (.bin (.bxor .u64) (.var 59) (.var 29)),
    .asg 60 (.bin (.bxor .u64) (.var 59) (.bin (.bxor .u64) (.bin (.shl .u64) (.var 56) (.lit 1)) (.bin (.shr .u64)
      (.var 56) (.lit 63)))),
    .asg 61 (.bin (.bxor .u64) (.var 55) (.bin (.bxor .u64) (.bin (.shl .u64) (.var 57) (.lit 1)) (.bin (.shr .u64)
      (.var 57) (.lit 63)))),
    .asg 62 (.bin (.bxor .u64) (.var 56) (.bin (.bxor .u64) (.bin (.shl .u64) (.var 58) (.lit 1)) (.bin (.shr .u64)
      (.var 58) (.lit 63)))),
    .asg 63 (.bin (.bxor .u64) (.var 57) (.bin (.bxor .u64) (.bin (.shl .u64) (.var 59) (.lit 1)) (.bin (.shr .u64)
      (.var 59) (.lit 63)))),
    .asg 64 (.bin (.bxor .u64) (.var 58) (.bin (.bxor .u64) (.bin (.shl .u64) (.var 55) (.lit 1)) (.bin (.shr .u64)
      (.var 55) (.lit 63)))),
    .asg 5 (.bin (.bxor .u64) (.var 5) (.var 60)),
    .asg 30 (.var 5),
    .asg 11 (.bin (.bxor .u64) (.var 11) (.var 61)),
    .asg 31 (.bin (.bxor .u64) (.bin (.shl .u64) (.var 11) (.lit 44)) (.bin (.shr .u64) (.var 11) (.lit 20))),
    .asg 17 (.bin (.bxor .u64) (.var 17) (.var 62)),
    .asg 32 (.bin (.bxor .u64) (.bin (.shl .u64) (.var 17) (.lit 43)) (.bin (.shr .u64) (.var 17) (.lit 21))),
    .asg 23 (.bin (.bxor .u64) (.var 23) (.var 63)),
    .asg 33 (.bin (.bxor .u64) (.bin (.shl .u64) (.var 23) (.lit 21)) (.bin (.shr .u64) (.var 23) (.lit 43))),
    .asg 29 (.bin (.bxor .u64) (.var 29) (.var 64)),
    .asg 34 (.bin (.bxor .u64) (.bin (.shl .u64) (.var 29) (.lit 14)) (.bin (.shr .u64) (.var 29) (.lit 50))),
    .asg 65 (.bin (.bxor .u64) (.var 30) (.bin (.band .u64) (.un (.bnot .u64) (.var 31)) (.var 32))),
    .asg 65 (.bin (.bxor .u64) (.var 65) (.ld 8 (.padd (.glob 0) (.lit 14) 8))),
    .asg 55 (.var 65),
    .asg 66 (.bin (.bxor .u64) (.var 31) (.bin (.band .u64) (.un (.bnot .u64) (.var 32)) (.var 33))),
    .asg 56 (.var 66),
    .asg 67 (.bin (.bxor .u64) (.var 32) (.bin (.band .u64) (.un (.bnot .u64) (.var 33)) (.var 34))),
    .asg 57 (.var 67),
    .asg 68 (.bin (.bxor .u64) (.var 33) (.bin (.band .u64) (.un (.bnot .u64) (.var 34)) (.var 30))),
    .asg 58 (.var 68),
    .asg 69 (.bin (.bxor .u64) (.var 34) (.bin (.band .u64) (.un (.bnot .u64) (.var 30)) (.var 31))),
    .asg 59 (.var 69),
    .asg 8 (.bin (.bxor .u64) (.var 8) (.var 63)),
    .asg 35 (.bin (.bxor .u64) (.bin (.shl .u64) (.var 8) (.lit 28)) (.bin (.shr .u64) (.var 8) (.lit 36))),
    .asg 14 (.bin (.bxor .u64) (.var 14) (.var 64)),
    .asg 36 (.bin (.bxor .u64) (.bin (.shl .u64) (.var 14) (.lit 20)) (.bin (.shr .u64) (.var 14) (.lit 44)))]

/-- part of `KeccakF1600_FastLoop_Absorb` -/
def KeccakF1600_FastLoop_Absorb.part38 : Stmt :=
  block [
    .asg 15 (.bin (.bxor .u64) (.var 15) (.var 60)),
    .asg 37 (.bin (.bxor .u64) (.bin (.shl .u64) (.var 15) (.lit 3)) (.bin (.shr .u64) (.var 15) (.lit 61))),
    .asg 21 (.bin (.bxor .u64) (.var 21) (.var 61)),
    .asg 38 (.bin (.bxor .u64) (.bin (.shl .u64) (.var 21) (.lit 45)) (.bin (.shr .u64) (.var 21) (.lit 19))),
    .asg 27 (.bin (.bxor .u64) (.var 27) (.var 62)),
    .asg 39 (.bin (.bxor .u64) (.bin (.shl .u64) (.var 27) (.lit 61)) (.bin (.shr .u64) (.var 27) (.lit 3))),
    .asg 70 (.bin (.bxor .u64) (.var 35) (.bin (.band .u64) (.un (.bnot .u64) (.var 36)) (.var 37))),
    .asg 55 (.bin (.bxor .u64) (.var 55) (.var 70)),
    .asg 71 (.bin (.bxor .u64) (.var 36) (.bin (.band .u64) (.un (.bnot .u64) (.var 37)) (.var 38))),
    .asg 56 (.bin (.bxor .u64) (.var 56) (.var 71)),
    .asg 72 (.bin (.bxor .u64) (.var 37) (.bin (.band .u64) (.un (.bnot .u64) (.var 38)) (.var 39))),
    .asg 57 (.bin (.bxor .u64) (.var 57) (.var 72)),
    .asg 73 (.bin (.bxor .u64) (.var 38) (.bin (.band .u64) (.un (.bnot .u64) (.var 39)) (.var 35))),
    .asg 58 (.bin (.bxor .u64) (.var 58) (.var 73)),
    .asg 74 (.bin (.bxor .u64) (.var 39) (.bin (.band .u64) (.un (.bnot .u64) (.var 35)) (.var 36))),
    .asg 59 (.bin (.bxor .u64) (.var 59) (.var 74)),
    .asg 6 (.bin (.bxor .u64) (.var 6) (.var 61)),
    .asg 40 (.bin (.bxor .u64) (.bin (.shl .u64) (.var 6) (.lit 1)) (.bin (.shr .u64) (.var 6) (.lit 63))),
    .asg 12 (.bin (.bxor .u64) (.var 12) (.var 62)),
    .asg 41 (.bin (.bxor .u64) (.bin (.shl .u64) (.var 12) (.lit 6)) (.bin (.shr .u64) (.var 12) (.lit 58))),
    .asg 18 (.bin (.bxor .u64) (.var 18) (.var 63)),
    .asg 42 (.bin (.bxor .u64) (.bin (.shl .u64) (.var 18) (.lit 25)) (.bin (.shr .u64) (.var 18) (.lit 39))),
    .asg 24 (.bin (.bxor .u64) (.var 24) (.var 64)),
    .asg 43 (.bin (.bxor .u64) (.bin (.shl .u64) (.var 24) (.lit 8)) (.bin (.shr .u64) (.var 24) (.lit 56))),
    .asg 25 (.bin (.bxor .u64) (.var 25) (.var 60)),
    .asg 44 (.bin (.bxor .u64) (.bin (.shl .u64) (.var 25) (.lit 18)) (.bin (.shr .u64) (.var 25) (.lit 46))),
    .asg 75 (.bin (.bxor .u64) (.var 40) (.bin (.band .u64) (.un (.bnot .u64) (.var 41)) (.var 42))),
    .asg 55 (.bin (.bxor .u64) (.var 55) (.var 75)),
    .asg 76 (.bin (.bxor .u64) (.var 41) (.bin (.band .u64) (.un (.bnot .u64) (.var 42)) (.var 43))),
    .asg 56 (.bin (.bxor .u64) (.var 56) (.var 76)),
    .asg 77 (.bin (.bxor .u64) (.var 42) (.bin (.band .u64) (.un (.bnot .u64) (.var 43)) (.var 44))),
    .asg 57 (.bin (.bxor .u64) (.var 57) (.var 77)),
    .asg 78 (.bin (.bxor .u64) (.var 43) (.bin (.band .u64) (.un (.bnot .u64) (.var 44)) (.var 40))),
    .asg 58 (.bin (.bxor .u64) (.var 58) (.var 78)),
    .asg 79 (.bin (.bxor .u64) (.var 44) (.bin (.band .u64) (.un (.bnot .u64) (.var 40)) (.var 41))),
    .asg 59 (.bin (.bxor .u64) (.var 59) (.var 79)),
    .asg 9 (.bin (.bxor .u64) (.var 9) (.var 64)),
    .asg 45 (.bin (.bxor .u64) (.bin (.shl .u64) (.var 9) (.lit 27)) (.bin (.shr .u64) (.var 9) (.lit 37))),
    .asg 10 (.bin (.bxor .u64) (.var 10) (.var 60)),
    .asg 46 (.bin (.bxor .u64) (.bin (.shl .u64) (.var 10) (.lit 36)) (.bin (.shr .u64) (.var 10) (.lit 28)))]

/-- part of `KeccakF1600_FastLoop_Absorb` -/
def KeccakF1600_FastLoop_Absorb.part39 : Stmt :=
  block [
    .asg 16 (.bin (.bxor .u64) (.var 16) (.var 61)),
    .asg 47 (.bin (.bxor .u64) (.bin (.shl .u64) (.var 16) (.lit 10)) (.bin (.shr .u64) (.var 16) (.lit 54))),
    .asg 22 (.bin (.bxor .u64) (.var 22) (.var 62)),
    .asg 48 (.bin (.bxor .u64) (.bin (.shl .u64) (.var 22) (.lit 15)) (.bin (.shr .u64) (.var 22) (.lit 49))),
    .asg 28 (.bin (.bxor .u64) (.var 28) (.var 63)),
    .asg 49 (.bin (.bxor .u64) (.bin (.shl .u64) (.var 28) (.lit 56)) (.bin (.shr .u64) (.var 28) (.lit 8))),
    .asg 80 (.bin (.bxor .u64) (.var 45) (.bin (.band .u64) (.un (.bnot .u64) (.var 46)) (.var 47))),
    .asg 55 (.bin (.bxor .u64) (.var 55) (.var 80)),
    .asg 81 (.bin (.bxor .u64) (.var 46) (.bin (.band .u64) (.un (.bnot .u64) (.var 47)) (.var 48))),
    .asg 56 (.bin (.bxor .u64) (.var 56) (.var 81)),
    .asg 82 (.bin (.bxor .u64) (.var 47) (.bin (.band .u64) (.un (.bnot .u64) (.var 48)) (.var 49))),
    .asg 57 (.bin (.bxor .u64) (.var 57) (.var 82)),
    .asg 83 (.bin (.bxor .u64) (.var 48) (.bin (.band .u64) (.un (.bnot .u64) (.var 49)) (.var 45))),
    .asg 58 (.bin (.bxor .u64) (.var 58) (.var 83)),
    .asg 84 (.bin (.bxor .u64) (.var 49) (.bin (.band .u64) (.un (.bnot .u64) (.var 45)) (.var 46))),
    .asg 59 (.bin (.bxor .u64) (.var 59) (.var 84)),
    .asg 7 (.bin (.bxor .u64) (.var 7) (.var 62)),
    .asg 50 (.bin (.bxor .u64) (.bin (.shl .u64) (.var 7) (.lit 62)) (.bin (.shr .u64) (.var 7) (.lit 2))),
    .asg 13 (.bin (.bxor .u64) (.var 13) (.var 63)),
    .asg 51 (.bin (.bxor .u64) (.bin (.shl .u64) (.var 13) (.lit 55)) (.bin (.shr .u64) (.var 13) (.lit 9))),
    .asg 19 (.bin (.bxor .u64) (.var 19) (.var 64)),
    .asg 52 (.bin (.bxor .u64) (.bin (.shl .u64) (.var 19) (.lit 39)) (.bin (.shr .u64) (.var 19) (.lit 25))),
    .asg 20 (.bin (.bxor .u64) (.var 20) (.var 60)),
    .asg 53 (.bin (.bxor .u64) (.bin (.shl .u64) (.var 20) (.lit 41)) (.bin (.shr .u64) (.var 20) (.lit 23))),
    .asg 26 (.bin (.bxor .u64) (.var 26) (.var 61)),
    .asg 54 (.bin (.bxor .u64) (.bin (.shl .u64) (.var 26) (.lit 2)) (.bin (.shr .u64) (.var 26) (.lit 62))),
    .asg 85 (.bin (.bxor .u64) (.var 50) (.bin (.band .u64) (.un (.bnot .u64) (.var 51)) (.var 52))),
    .asg 55 (.bin (.bxor .u64) (.var 55) (.var 85)),
    .asg 86 (.bin (.bxor .u64) (.var 51) (.bin (.band .u64) (.un (.bnot .u64) (.var 52)) (.var 53))),
    .asg 56 (.bin (.bxor .u64) (.var 56) (.var 86)),
    .asg 87 (.bin (.bxor .u64) (.var 52) (.bin (.band .u64) (.un (.bnot .u64) (.var 53)) (.var 54))),
    .asg 57 (.bin (.bxor .u64) (.var 57) (.var 87)),
    .asg 88 (.bin (.bxor .u64) (.var 53) (.bin (.band .u64) (.un (.bnot .u64) (.var 54)) (.var 50))),
    .asg 58 (.bin (.bxor .u64) (.var 58) (.var 88)),
    .asg 89 (.bin (.bxor .u64) (.var 54) (.bin (.band .u64) (.un (.bnot .u64) (.var 50)) (.var 51))),
    .asg 59 (.bin (.bxor .u64) (.var 59) (.var 89)),
    .asg 60 (.bin (.bxor .u64) (.var 59) (.bin (.bxor .u64) (.bin (.shl .u64) (.var 56) (.lit 1)) (.bin (.shr .u64)
      (.var 56) (.lit 63)))),
    .asg 61 (.bin (.bxor .u64) (.var 55) (.bin (.bxor .u64) (.bin (.shl .u64) (.var 57) (.lit 1)) (.bin (.shr .u64)
      (.var 57) (.lit 63)))),
    .asg 62 (.bin (.bxor .u64) (.var 56) (.bin (.bxor .u64) (.bin (.shl .u64) (.var 58) (.lit 1)) (.bin (.shr .u64)
      (.var 58) (.lit 63)))),
    .asg 63 (.bin (.bxor .u64) (.var 57) (.bin (.bxor .u64) (.bin (.shl .u64) (.var 59) (.lit 1)) (.bin (.shr .u64)
      (.var 59) (.lit 63))))]

/-- part of `KeccakF1600_FastLoop_Absorb` -/
def KeccakF1600_FastLoop_Absorb.part40 : Stmt :=
  block [
    .asg 64 (.bin (.bxor .u64) (.var 58) (.bin (.bxor .u64) (.bin (.shl .u64) (.var 55) (.lit 1)) (.bin (.shr .u64)
      (.var 55) (.lit 63)))),
    .asg 65 (.bin (.bxor .u64) (.var 65) (.var 60)),
    .asg 30 (.var 65),
    .asg 71 (.bin (.bxor .u64) (.var 71) (.var 61)),
    .asg 31 (.bin (.bxor .u64) (.bin (.shl .u64) (.var 71) (.lit 44)) (.bin (.shr .u64) (.var 71) (.lit 20))),
    .asg 77 (.bin (.bxor .u64) (.var 77) (.var 62)),
    .asg 32 (.bin (.bxor .u64) (.bin (.shl .u64) (.var 77) (.lit 43)) (.bin (.shr .u64) (.var 77) (.lit 21))),
    .asg 83 (.bin (.bxor .u64) (.var 83) (.var 63)),
    .asg 33 (.bin (.bxor .u64) (.bin (.shl .u64) (.var 83) (.lit 21)) (.bin (.shr .u64) (.var 83) (.lit 43))),
    .asg 89 (.bin (.bxor .u64) (.var 89) (.var 64)),
    .asg 34 (.bin (.bxor .u64) (.bin (.shl .u64) (.var 89) (.lit 14)) (.bin (.shr .u64) (.var 89) (.lit 50))),
    .asg 5 (.bin (.bxor .u64) (.var 30) (.bin (.band .u64) (.un (.bnot .u64) (.var 31)) (.var 32))),
    .asg 5 (.bin (.bxor .u64) (.var 5) (.ld 8 (.padd (.glob 0) (.lit 15) 8))),
    .asg 55 (.var 5),
    .asg 6 (.bin (.bxor .u64) (.var 31) (.bin (.band .u64) (.un (.bnot .u64) (.var 32)) (.var 33))),
    .asg 56 (.var 6),
    .asg 7 (.bin (.bxor .u64) (.var 32) (.bin (.band .u64) (.un (.bnot .u64) (.var 33)) (.var 34))),
    .asg 57 (.var 7),
    .asg 8 (.bin (.bxor .u64) (.var 33) (.bin (.band .u64) (.un (.bnot .u64) (.var 34)) (.var 30))),
    .asg 58 (.var 8),
    .asg 9 (.bin (.bxor .u64) (.var 34) (.bin (.band .u64) (.un (.bnot .u64) (.var 30)) (.var 31))),
    .asg 59 (.var 9),
    .asg 68 (.bin (.bxor .u64) (.var 68) (.var 63)),
    .asg 35 (.bin (.bxor .u64) (.bin (.shl .u64) (.var 68) (.lit 28)) (.bin (.shr .u64) (.var 68) (.lit 36))),
    .asg 74 (.bin (.bxor .u64) (.var 74) (.var 64)),
    .asg 36 (.bin (.bxor .u64) (.bin (.shl .u64) (.var 74) (.lit 20)) (.bin (.shr .u64) (.var 74) (.lit 44))),
    .asg 75 (.bin (.bxor .u64) (.var 75) (.var 60)),
    .asg 37 (.bin (.bxor .u64) (.bin (.shl .u64) (.var 75) (.lit 3)) (.bin (.shr .u64) (.var 75) (.lit 61))),
    .asg 81 (.bin (.bxor .u64) (.var 81) (.var 61)),
    .asg 38 (.bin (.bxor .u64) (.bin (.shl .u64) (.var 81) (.lit 45)) (.bin (.shr .u64) (.var 81) (.lit 19))),
    .asg 87 (.bin (.bxor .u64) (.var 87) (.var 62)),
    .asg 39 (.bin (.bxor .u64) (.bin (.shl .u64) (.var 87) (.lit 61)) (.bin (.shr .u64) (.var 87) (.lit 3))),
    .asg 10 (.bin (.bxor .u64) (.var 35) (.bin (.band .u64) (.un (.bnot .u64) (.var 36)) (.var 37))),
    .asg 55 (.bin (.bxor .u64) (.var 55) (.var 10)),
    .asg 11 (.bin (.bxor .u64) (.var 36) (.bin (.band .u64) (.un (.bnot .u64) (.var 37)) (.var 38))),
    .asg 56 (.bin (.bxor .u64) (.var 56) (.var 11)),
    .asg 12 (.bin (.bxor .u64) (.var 37) (.bin (.band .u64) (.un (.bnot .u64) (.var 38)) (.var 39))),
    .asg 57 (.bin (.bxor .u64) (.var 57) (.var 12)),
    .asg 13 (.bin (.bxor .u64) (.var 38) (.bin (.band .u64) (.un (.bnot .u64) (.var 39)) (.var 35))),
    .asg 58 (.bin (.bxor .u64) (.var 58) (.var 13))]

/-- part of `KeccakF1600_FastLoop_Absorb` -/
def KeccakF1600_FastLoop_Absorb.part41 : Stmt :=
  block [
    .asg 14 (.bin (.bxor .u64) (.var 39) (.bin (.band .u64) (.un (.bnot .u64) (.var 35)) (.var 36))),
    .asg 59 (.bin (.bxor .u64) (.var 59) (.var 14)),
    .asg 66 (.bin (.bxor .u64) (.var 66) (.var 61)),
    .asg 40 (.bin (.bxor .u64) (.bin (.shl .u64) (.var 66) (.lit 1)) (.bin (.shr .u64) (.var 66) (.lit 63))),
    .asg 72 (.bin (.bxor .u64) (.var 72) (.var 62)),
    .asg 41 (.bin (.bxor .u64) (.bin (.shl .u64) (.var 72) (.lit 6)) (.bin (.shr .u64) (.var 72) (.lit 58))),
    .asg 78 (.bin (.bxor .u64) (.var 78) (.var 63)),
    .asg 42 (.bin (.bxor .u64) (.bin (.shl .u64) (.var 78) (.lit 25)) (.bin (.shr .u64) (.var 78) (.lit 39))),
    .asg 84 (.bin (.bxor .u64) (.var 84) (.var 64)),
    .asg 43 (.bin (.bxor .u64) (.bin (.shl .u64) (.var 84) (.lit 8)) (.bin (.shr .u64) (.var 84) (.lit 56))),
    .asg 85 (.bin (.bxor .u64) (.var 85) (.var 60)),
    .asg 44 (.bin (.bxor .u64) (.bin (.shl .u64) (.var 85) (.lit 18)) (.bin (.shr .u64) (.var 85) (.lit 46))),
    .asg 15 (.bin (.bxor .u64) (.var 40) (.bin (.band .u64) (.un (.bnot .u64) (.var 41)) (.var 42))),
    .asg 55 (.bin (.bxor .u64) (.var 55) (.var 15)),
    .asg 16 (.bin (.bxor .u64) (.var 41) (.bin (.band .u64) (.un (.bnot .u64) (.var 42)) (.var 43))),
    .asg 56 (.bin (.bxor .u64) (.var 56) (.var 16)),
    .asg 17 (.bin (.bxor .u64) (.var 42) (.bin (.band .u64) (.un (.bnot .u64) (.var 43)) (.var 44))),
    .asg 57 (.bin (.bxor .u64) (.var 57) (.var 17)),
    .asg 18 (.bin (.bxor .u64) (.var 43) (.bin (.band .u64) (.un (.bnot .u64) (.var 44)) (.var 40))),
    .asg 58 (.bin (.bxor .u64) (.var 58) (.var 18)),
    .asg 19 (.bin (.bxor .u64) (.var 44) (.bin (.band .u64) (.un (.bnot .u64) (.var 40)) (.var 41))),
    .asg 59 (.bin (.bxor .u64) (.var 59) (.var 19)),
    .asg 69 (.bin (.bxor .u64) (.var 69) (.var 64)),
    .asg 45 (.bin (.bxor .u64) (.bin (.shl .u64) (.var 69) (.lit 27)) (.bin (.shr .u64) (.var 69) (.lit 37))),
    .asg 70 (.bin (.bxor .u64) (.var 70) (.var 60)),
    .asg 46 (.bin (.bxor .u64) (.bin (.shl .u64) (.var 70) (.lit 36)) (.bin (.shr .u64) (.var 70) (.lit 28))),
    .asg 76 (.bin (.bxor .u64) (.var 76) (.var 61)),
    .asg 47 (.bin (.bxor .u64) (.bin (.shl .u64) (.var 76) (.lit 10)) (.bin (.shr .u64) (.var 76) (.lit 54))),
    .asg 82 (.bin (.bxor .u64) (.var 82) (.var 62)),
    .asg 48 (.bin (.bxor .u64) (.bin (.shl .u64) (.var 82) (.lit 15)) (.bin (.shr .u64) (.var 82) (.lit 49))),
    .asg 88 (.bin (.bxor .u64) (.var 88) (.var 63)),
    .asg 49 (.bin (.bxor .u64) (.bin (.shl .u64) (.var 88) (.lit 56)) (.bin (.shr .u64) (.var 88) (.lit 8))),
    .asg 20 (.bin (.bxor .u64) (.var 45) (.bin (.band .u64) (.un (.bnot .u64) (.var 46)) (.var 47))),
    .asg 55 (.bin (.bxor .u64) (.var 55) (.var 20)),
    .asg 21 (.bin (.bxor .u64) (.var 46) (.bin (.band .u64) (.un (.bnot .u64) (.var 47)) (.var 48))),
    .asg 56 (.bin (.bxor .u64) (.var 56) (.var 21)),
    .asg 22 (.bin (.bxor .u64) (.var 47) (.bin (.band .u64) (.un (.bnot .u64) (.var 48)) (.var 49))),
    .asg 57 (.bin (.bxor .u64) (.var 57) (.var 22)),
    .asg 23 (.bin (.bxor .u64) (.var 48) (.bin (.band .u64) (.un (.bnot .u64) (.var 49)) (.var 45))),
    .asg 58 (.bin (.bxor .u64) (.var 58) (.var 23))]

/-- part of `KeccakF1600_FastLoop_Absorb` -/
def KeccakF1600_FastLoop_Absorb.part42 : Stmt :=
  block [
    .asg 24 (.bin (.bxor .u64) (.var 49) (.bin (.band .u64) (.un (.bnot .u64) (.var 45)) (.var 46))),
    .asg 59 (.bin (.bxor .u64) (.var 59) (.var 24)),
    .asg 67 (.bin (.bxor .u64) (.var 67) (.var 62)),
    .asg 50 (.bin (.bxor .u64) (.bin (.shl .u64) (.var 67) (.lit 62)) (.bin (.shr .u64) (.var 67) (.lit 2))),
    .asg 73 (.bin (.bxor .u64) (.var 73) (.var 63)),
    .asg 51 (.bin (.bxor .u64) (.bin (.shl .u64) (.var 73) (.lit 55)) (.bin (.shr .u64) (.var 73) (.lit 9))),
    .asg 79 (.bin (.bxor .u64) (.var 79) (.var 64)),
    .asg 52 (.bin (.bxor .u64) (.bin (.shl .u64) (.var 79) (.lit 39)) (.bin (.shr .u64) (.var 79) (.lit 25))),
    .asg 80 (.bin (.bxor .u64) (.var 80) (.var 60)),
    .asg 53 (.bin (.bxor .u64) (.bin (.shl .u64) (.var 80) (.lit 41)) (.bin (.shr .u64) (.var 80) (.lit 23))),
    .asg 86 (.bin (.bxor .u64) (.var 86) (.var 61)),
    .asg 54 (.bin (.bxor .u64) (.bin (.shl .u64) (.var 86) (.lit 2)) (.bin (.shr .u64) (.var 86) (.lit 62))),
    .asg 25 (.bin (.bxor .u64) (.var 50) (.bin (.band .u64) (.un (.bnot .u64) (.var 51)) (.var 52))),
    .asg 55 (.bin (.bxor .u64) (.var 55) (.var 25)),
    .asg 26 (.bin (.bxor .u64) (.var 51) (.bin (.band .u64) (.un (.bnot .u64) (.var 52)) (.var 53))),
    .asg 56 (.bin (.bxor .u64) (.var 56) (.var 26)),
    .asg 27 (.bin (.bxor .u64) (.var 52) (.bin (.band .u64) (.un (.bnot .u64) (.var 53)) (.var 54))),
    .asg 57 (.bin (.bxor .u64) (.var 57) (.var 27)),
    .asg 28 (.bin (.bxor .u64) (.var 53) (.bin (.band .u64) (.un (.bnot .u64) (.var 54)) (.var 50))),
    .asg 58 (.bin (.bxor .u64) (.var 58) (.var 28)),
    .asg 29 (.bin (.bxor .u64) (.var 54) (.bin (.band .u64) (.un (.bnot .u64) (.var 50)) (.var 51))),
    .asg 59 (.bin (.bxor .u64) (.var 59) (.var 29)),
    .asg 60 (.bin (.bxor .u64) (.var 59) (.bin (.bxor .u64) (.bin (.shl .u64) (.var 56) (.lit 1)) (.bin (.shr .u64)
      (.var 56) (.lit 63)))),
    .asg 61 (.bin (.bxor .u64) (.var 55) (.bin (.bxor .u64) (.bin (.shl .u64) (.var 57) (.lit 1)) (.bin (.shr .u64)
      (.var 57) (.lit 63)))),
    .asg 62 (.bin (.bxor .u64) (.var 56) (.bin (.bxor .u64) (.bin (.shl .u64) (.var 58) (.lit 1)) (.bin (.shr .u64)
      (.var 58) (.lit 63)))),
    .asg 63 (.bin (.bxor .u64) (.var 57) (.bin (.bxor .u64) (.bin (.shl .u64) (.var 59) (.lit 1)) (.bin (.shr .u64)
      (.var 59) (.lit 63)))),
    .asg 64 (.bin (.bxor .u64) (.var 58) (.bin (.bxor .u64) (.bin (.shl .u64) (.var 55) (.lit 1)) (.bin (.shr .u64)
      (.var 55) (.lit 63)))),
    .asg 5 (.bin (.bxor .u64) (.var 5) (.var 60)),
    .asg 30 (.var 5),
    .asg 11 (.bin (.bxor .u64) (.var 11) (.var 61)),
    .asg 31 (.bin (.bxor .u64) (.bin (.shl .u64) (.var 11) (.lit 44)) (.bin (.shr .u64) (.var 11) (.lit 20))),
    .asg 17 (.bin (.bxor .u64) (.var 17) (.var 62)),
    .asg 32 (.bin (.bxor .u64) (.bin (.shl .u64) (.var 17) (.lit 43)) (.bin (.shr .u64) (.var 17) (.lit 21))),
    .asg 23 (.bin (.bxor .u64) (.var 23) (.var 63)),
    .asg 33 (.bin (.bxor .u64) (.bin (.shl .u64) (.var 23) (.lit 21)) (.bin (.shr .u64) (.var 23) (.lit 43))),
    .asg 29 (.bin (.bxor .u64) (.var 29) (.var 64)),
    .asg 34 (.bin (.bxor .u64) (.bin (.shl .u64) (.var 29) (.lit 14)) (.bin (.shr .u64) (.var 29) (.lit 50))),
    .asg 65 (.bin (.bxor .u64) (.var 30) (.bin (.band .u64) (.un (.bnot .u64) (.var 31)) (.var 32))),
    .asg 65 (.bin (.bxor .u64) (.var 65) (.ld 8 (.padd (.glob 0) (.lit 16) 8))),
    .asg 55 (.var 65)]

/-- part of `KeccakF1600_FastLoop_Absorb` -/
def KeccakF1600_FastLoop_Absorb.part43 : Stmt :=
  block [
    .asg 66 (.bin (.bxor .u64) (.var 31) (.bin (.band .u64) (.un (.bnot .u64) (.var 32)) (.var 33))),
    .asg 56 (.var 66),
    .asg 67 (.bin (.bxor .u64) (.var 32) (.bin (.band .u64) (.un (.bnot .u64) (.var 33)) (.var 34))),
    .asg 57 (.var 67),
    .asg 68 (.bin (.bxor .u64) (.var 33) (.bin (.band .u64) (.un (.bnot .u64) (.var 34)) (.var 30))),
    .asg 58 (.var 68),
    .asg 69 (.bin (.bxor .u64) (.var 34) (.bin (.band .u64) (.un (.bnot .u64) (.var 30)) (.var 31))),
    .asg 59 (.var 69),
    .asg 8 (.bin (.bxor .u64) (.var 8) (.var 63)),
    .asg 35 (.bin (.bxor .u64) (.bin (.shl .u64) (.var 8) (.lit 28)) (.bin (.shr .u64) (.var 8) (.lit 36))),
    .asg 14 (.bin (.bxor .u64) (.var 14) (.var 64)),
    .asg 36 (.bin (.bxor .u64) (.bin (.shl .u64) (.var 14) (.lit 20)) (.bin (.shr .u64) (.var 14) (.lit 44))),
    .asg 15 (.bin (.bxor .u64) (.var 15) (.var 60)),
    .asg 37 (.bin (.bxor .u64) (.bin (.shl .u64) (.var 15) (.lit 3)) (.bin (.shr .u64) (.var 15) (.lit 61))),
    .asg 21 (.bin (.bxor .u64) (.var 21) (.var 61)),
    .asg 38 (.bin (.bxor .u64) (.bin (.shl .u64) (.var 21) (.lit 45)) (.bin (.shr .u64) (.var 21) (.lit 19))),
    .asg 27 (.bin (.bxor .u64) (.var 27) (.var 62)),
    .asg 39 (.bin (.bxor .u64) (.bin (.shl .u64) (.var 27) (.lit 61)) (.bin (.shr .u64) (.var 27) (.lit 3))),
    .asg 70 (.bin (.bxor .u64) (.var 35) (.bin (.band .u64) (.un (.bnot .u64) (.var 36)) (.var 37))),
    .asg 55 (.bin (.bxor .u64) (.var 55) (.var 70)),
    .asg 71 (.bin (.bxor .u64) (.var 36) (.bin (.band .u64) (.un (.bnot .u64) (.var 37)) (.var 38))),
    .asg 56 (.bin (.bxor .u64) (.var 56) (.var 71)),
    .asg 72 (.bin (.bxor .u64) (.var 37) (.bin (.band .u64) (.un (.bnot .u64) (.var 38)) (.var 39))),
    .asg 57 (.bin (.bxor .u64) (.var 57) (.var 72)),
    .asg 73 (.bin (.bxor .u64) (.var 38) (.bin (.band .u64) (.un (.bnot .u64) (.var 39)) (.var 35))),
    .asg 58 (.bin (.bxor .u64) (.var 58) (.var 73)),
    .asg 74 (.bin (.bxor .u64) (.var 39) (.bin (.band .u64) (.un (.bnot .u64) (.var 35)) (.var 36))),
    .asg 59 (.bin (.bxor .u64) (.var 59) (.var 74)),
    .asg 6 (.bin (.bxor .u64) (.var 6) (.var 61)),
    .asg 40 (.bin (.bxor .u64) (.bin (.shl .u64) (.var 6) (.lit 1)) (.bin (.shr .u64) (.var 6) (.lit 63))),
    .asg 12 (.bin (.bxor .u64) (.var 12) (.var 62)),
    .asg 41 (.bin (.bxor .u64) (.bin (.shl .u64) (.var 12) (.lit 6)) (.bin (.shr .u64) (.var 12) (.lit 58))),
    .asg 18 (.bin (.bxor .u64) (.var 18) (.var 63)),
    .asg 42 (.bin (.bxor .u64) (.bin (.shl .u64) (.var 18) (.lit 25)) (.bin (.shr .u64) (.var 18) (.lit 39))),
    .asg 24 (.bin (.bxor .u64) (.var 24) (.var 64)),
    .asg 43 (.bin (.bxor .u64) (.bin (.shl .u64) (.var 24) (.lit 8)) (.bin (.shr .u64) (.var 24) (.lit 56))),
    .asg 25 (.bin (.bxor .u64) (.var 25) (.var 60)),
    .asg 44 (.bin (.bxor .u64) (.bin (.shl .u64) (.var 25) (.lit 18)) (.bin (.shr .u64) (.var 25) (.lit 46))),
    .asg 75 (.bin (.bxor .u64) (.var 40) (.bin (.band .u64) (.un (.bnot .u64) (.var 41)) (.var 42))),
    .asg 55 (.bin (.bxor .u64) (.var 55) (.var 75))]

/-- part of `KeccakF1600_FastLoop_Absorb` -/
def KeccakF1600_FastLoop_Absorb.part44 : Stmt :=
  block [
    .asg 76 (.bin (.bxor .u64) (.var 41) (.bin (.band .u64) (.un (.bnot .u64) (.var 42)) (.var 43))),
    .asg 56 (.bin (.bxor .u64) (.var 56) (.var 76)),
    .asg 77 (.bin (.bxor .u64) (.var 42) (.bin (.band .u64) (.un (.bnot .u64) (.var 43)) (.var 44))),
    .asg 57 (.bin (.bxor .u64) (.var 57) (.var 77)),
    .asg 78 (.bin (.bxor .u64) (.var 43) (.bin (.band .u64) (.un (.bnot .u64) (.var 44)) (.var 40))),
    .asg 58 (.bin (.bxor .u64) (.var 58) (.var 78)),
    .asg 79 (.bin (.bxor .u64) (.var 44) (.bin (.band .u64) (.un (.bnot .u64) (.var 40)) (.var 41))),
    .asg 59 (.bin (.bxor .u64) (.var 59) (.var 79)),
    .asg 9 (.bin (.bxor .u64) (.var 9) (.var 64)),
    .asg 45 (.bin (.bxor .u64) (.bin (.shl .u64) (.var 9) (.lit 27)) (.bin (.shr .u64) (.var 9) (.lit 37))),
    .asg 10 (.bin (.bxor .u64) (.var 10) (.var 60)),
    .asg 46 (.bin (.bxor .u64) (.bin (.shl .u64) (.var 10) (.lit 36)) (.bin (.shr .u64) (.var 10) (.lit 28))),
    .asg 16 (.bin (.bxor .u64) (.var 16) (.var 61)),
    .asg 47 (.bin (.bxor .u64) (.bin (.shl .u64) (.var 16) (.lit 10)) (.bin (.shr .u64) (.var 16) (.lit 54))),
    .asg 22 (.bin (.bxor .u64) (.var 22) (.var 62)),
    .asg 48 (.bin (.bxor .u64) (.bin (.shl .u64) (.var 22) (.lit 15)) (.bin (.shr .u64) (.var 22) (.lit 49))),
    .asg 28 (.bin (.bxor .u64) (.var 28) (.var 63)),
    .asg 49 (.bin (.bxor .u64) (.bin (.shl .u64) (.var 28) (.lit 56)) (.bin (.shr .u64) (.var 28) (.lit 8))),
    .asg 80 (.bin (.bxor .u64) (.var 45) (.bin (.band .u64) (.un (.bnot .u64) (.var 46)) (.var 47))),
    .asg 55 (.bin (.bxor .u64) (.var 55) (.var 80)),
    .asg 81 (.bin (.bxor .u64) (.var 46) (.bin (.band .u64) (.un (.bnot .u64) (.var 47)) (.var 48))),
    .asg 56 (.bin (.bxor .u64) (.var 56) (.var 81)),
    .asg 82 (.bin (.bxor .u64) (.var 47) (.bin (.band .u64) (.un (.bnot .u64) (.var 48)) (.var 49))),
    .asg 57 (.bin (.bxor .u64) (.var 57) (.var 82)),
    .asg 83 (.bin (.bxor .u64) (.var 48) (.bin (.band .u64) (.un (.bnot .u64) (.var 49)) (.var 45))),
    .asg 58 (.bin (.bxor .u64) (.var 58) (.var 83)),
    .asg 84 (.bin (.bxor .u64) (.var 49) (.bin (.band .u64) (.un (.bnot .u64) (.var 45)) (.var 46))),
    .asg 59 (.bin (.bxor .u64) (.var 59) (.var 84)),
    .asg 7 (.bin (.bxor .u64) (.var 7) (.var 62)),
    .asg 50 (.bin (.bxor .u64) (.bin (.shl .u64) (.var 7) (.lit 62)) (.bin (.shr .u64) (.var 7) (.lit 2))),
    .asg 13 (.bin (.bxor .u64) (.var 13) (.var 63)),
    .asg 51 (.bin (.bxor .u64) (.bin (.shl .u64) (.var 13) (.lit 55)) (.bin (.shr .u64) (.var 13) (.lit 9))),
    .asg 19 (.bin (.bxor .u64) (.var 19) (.var 64)),
    .asg 52 (.bin (.bxor .u64) (.bin (.shl .u64) (.var 19) (.lit 39)) (.bin (.shr .u64) (.var 19) (.lit 25))),
    .asg 20 (.bin (.bxor .u64) (.var 20) (.var 60)),
    .asg 53 (.bin (.bxor .u64) (.bin (.shl .u64) (.var 20) (.lit 41)) (.bin (.shr .u64) (.var 20) (.lit 23))),
    .asg 26 (.bin (.bxor .u64) (.var 26) (.var 61)),
    .asg 54 (.bin (.bxor .u64) (.bin (.shl .u64) (.var 26) (.lit 2)) (.bin (.shr .u64) (.var 26) (.lit 62))),
    .asg 85 (.bin (.bxor .u64) (.var 50) (.bin (.band .u64) (.un (.bnot .u64) (.var 51)) (.var 52))),
    .asg 55 (.bin (.bxor .u64) (.var 55) (.var 85))]

/-- part of `KeccakF1600_FastLoop_Absorb` -/
def KeccakF1600_FastLoop_Absorb.part45 : Stmt :=
  block [
    .asg 86 (.bin (.bxor .u64) (.var 51) (.bin (.band .u64) (.un (.bnot .u64) (.var 52)) (.var 53))),
    .asg 56 (.bin (.bxor .u64) (.var 56) (.var 86)),
    .asg 87 (.bin (.bxor .u64) (.var 52) (.bin (.band .u64) (.un (.bnot .u64) (.var 53)) (.var 54))),
    .asg 57 (.bin (.bxor .u64) (.var 57) (.var 87)),
    .asg 88 (.bin (.bxor .u64) (.var 53) (.bin (.band .u64) (.un (.bnot .u64) (.var 54)) (.var 50))),
    .asg 58 (.bin (.bxor .u64) (.var 58) (.var 88)),
    .asg 89 (.bin (.bxor .u64) (.var 54) (.bin (.band .u64) (.un (.bnot .u64) (.var 50)) (.var 51))),
    .asg 59 (.bin (.bxor .u64) (.var 59) (.var 89)),
    .asg 60 (.bin (.bxor .u64) (.var 59) (.bin (.bxor .u64) (.bin (.shl .u64) (.var 56) (.lit 1)) (.bin (.shr .u64)
      (.var 56) (.lit 63)))),
    .asg 61 (.bin (.bxor .u64) (.var 55) (.bin (.bxor .u64) (.bin (.shl .u64) (.var 57) (.lit 1)) (.bin (.shr .u64)
      (.var 57) (.lit 63)))),
    .asg 62 (.bin (.bxor .u64) (.var 56) (.bin (.bxor .u64) (.bin (.shl .u64) (.var 58) (.lit 1)) (.bin (.shr .u64)
      (.var 58) (.lit 63)))),
    .asg 63 (.bin (.bxor .u64) (.var 57) (.bin (.bxor .u64) (.bin (.shl .u64) (.var 59) (.lit 1)) (.bin (.shr .u64)
      (.var 59) (.lit 63)))),
    .asg 64 (.bin (.bxor .u64) (.var 58) (.bin (.bxor .u64) (.bin (.shl .u64) (.var 55) (.lit 1)) (.bin (.shr .u64)
      (.var 55) (.lit 63)))),
    .asg 65 (.bin (.bxor .u64) (.var 65) (.var 60)),
    .asg 30 (.var 65),
    .asg 71 (.bin (.bxor .u64) (.var 71) (.var 61)),
    .asg 31 (.bin (.bxor .u64) (.bin (.shl .u64) (.var 71) (.lit 44)) (.bin (.shr .u64) (.var 71) (.lit 20))),
    .asg 77 (.bin (.bxor .u64) (.var 77) (.var 62)),
    .asg 32 (.bin (.bxor .u64) (.bin (.shl .u64) (.var 77) (.lit 43)) (.bin (.shr .u64) (.var 77) (.lit 21))),
    .asg 83 (.bin (.bxor .u64) (.var 83) (.var 63)),
    .asg 33 (.bin (.bxor .u64) (.bin (.shl .u64) (.var 83) (.lit 21)) (.bin (.shr .u64) (.var 83) (.lit 43))),
    .asg 89 (.bin (.bxor .u64) (.var 89) (.var 64)),
    .asg 34 (.bin (.bxor .u64) (.bin (.shl .u64) (.var 89) (.lit 14)) (.bin (.shr .u64) (.var 89) (.lit 50))),
    .asg 5 (.bin (.bxor .u64) (.var 30) (.bin (.band .u64) (.un (.bnot .u64) (.var 31)) (.var 32))),
    .asg 5 (.bin (.bxor .u64) (.var 5) (.ld 8 (.padd (.glob 0) (.lit 17) 8))),
    .asg 55 (.var 5),
    .asg 6 (.bin (.bxor .u64) (.var 31) (.bin (.band .u64) (.un (.bnot .u64) (.var 32)) (.var 33))),
    .asg 56 (.var 6),
    .asg 7 (.bin (.bxor .u64) (.var 32) (.bin (.band .u64) (.un (.bnot .u64) (.var 33)) (.var 34))),
    .asg 57 (.var 7),
    .asg 8 (.bin (.bxor .u64) (.var 33) (.bin (.band .u64) (.un (.bnot .u64) (.var 34)) (.var 30))),
    .asg 58 (.var 8),
    .asg 9 (.bin (.bxor .u64) (.var 34) (.bin (.band .u64) (.un (.bnot .u64) (.var 30)) (.var 31))),
    .asg 59 (.var 9),
    .asg 68 (.bin (.bxor .u64) (.var 68) (.var 63)),
    .asg 35 (.bin (.bxor .u64) (.bin (.shl .u64) (.var 68) (.lit 28)) (.bin (.shr .u64) (.var 68) (.lit 36))),
    .asg 74 (.bin (.bxor .u64) (.var 74) (.var 64)),
    .asg 36 (.bin (.bxor .u64) (.bin (.shl .u64) (.var 74) (.lit 20)) (.bin (.shr .u64) (.var 74) (.lit 44))),
    .asg 75 (.bin (.bxor .u64) (.var 75) (.var 60)),
    .asg 37 (.bin (.bxor .u64) (.bin (.shl .u64) (.var 75) (.lit 3)) (.bin (.shr .u64) (.var 75) (.lit 61)))]

/-- part of `KeccakF1600_FastLoop_Absorb` -/
def KeccakF1600_FastLoop_Absorb.part46 : Stmt :=
  block [
    .asg 81 (.bin (.bxor .u64) (.var 81) (.var 61)),
    .asg 38 (.bin (.bxor .u64) (.bin (.shl .u64) (.var 81) (.lit 45)) (.bin (.shr .u64) (.var 81) (.lit 19))),
    .asg 87 (.bin (.bxor .u64) (.var 87) (.var 62)),
    .asg 39 (.bin (.bxor .u64) (.bin (.shl .u64) (.var 87) (.lit 61)) (.bin (.shr .u64) (.var 87) (.lit 3))),
    .asg 10 (.bin (.bxor .u64) (.var 35) (.bin (.band .u64) (.un (.bnot .u64) (.var 36)) (.var 37))),
    .asg 55 (.bin (.bxor .u64) (.var 55) (.var 10)),
    .asg 11 (.bin (.bxor .u64) (.var 36) (.bin (.band .u64) (.un (.bnot .u64) (.var 37)) (.var 38))),
    .asg 56 (.bin (.bxor .u64) (.var 56) (.var 11)),
    .asg 12 (.bin (.bxor .u64) (.var 37) (.bin (.band .u64) (.un (.bnot .u64) (.var 38)) (.var 39))),
    .asg 57 (.bin (.bxor .u64) (.var 57) (.var 12)),
    .asg 13 (.bin (.bxor .u64) (.var 38) (.bin (.band .u64) (.un (.bnot .u64) (.var 39)) (.var 35))),
    .asg 58 (.bin (.bxor .u64) (.var 58) (.var 13)),
    .asg 14 (.bin (.bxor .u64) (.var 39) (.bin (.band .u64) (.un (.bnot .u64) (.var 35)) (.var 36))),
    .asg 59 (.bin (.bxor .u64) (.var 59) (.var 14)),
    .asg 66 (.bin (.bxor .u64) (.var 66) (.var 61)),
    .asg 40 (.bin (.bxor .u64) (.bin (.shl .u64) (.var 66) (.lit 1)) (.bin (.shr .u64) (.var 66) (.lit 63))),
    .asg 72 (.bin (.bxor .u64) (.var 72) (.var 62)),
    .asg 41 (.bin (.bxor .u64) (.bin (.shl .u64) (.var 72) (.lit 6)) (.bin (.shr .u64) (.var 72) (.lit 58))),
    .asg 78 (.bin (.bxor .u64) (.var 78) (.var 63)),
    .asg 42 (.bin (.bxor .u64) (.bin (.shl .u64) (.var 78) (.lit 25)) (.bin (.shr .u64) (.var 78) (.lit 39))),
    .asg 84 (.bin (.bxor .u64) (.var 84) (.var 64)),
    .asg 43 (.bin (.bxor .u64) (.bin (.shl .u64) (.var 84) (.lit 8)) (.bin (.shr .u64) (.var 84) (.lit 56))),
    .asg 85 (.bin (.bxor .u64) (.var 85) (.var 60)),
    .asg 44 (.bin (.bxor .u64) (.bin (.shl .u64) (.var 85) (.lit 18)) (.bin (.shr .u64) (.var 85) (.lit 46))),
    .asg 15 (.bin (.bxor .u64) (.var 40) (.bin (.band .u64) (.un (.bnot .u64) (.var 41)) (.var 42))),
    .asg 55 (.bin (.bxor .u64) (.var 55) (.var 15)),
    .asg 16 (.bin (.bxor .u64) (.var 41) (.bin (.band .u64) (.un (.bnot .u64) (.var 42)) (.var 43))),
    .asg 56 (.bin (.bxor .u64) (.var 56) (.var 16)),
    .asg 17 (.bin (.bxor .u64) (.var 42) (.bin (.band .u64) (.un (.bnot .u64) (.var 43)) (.var 44))),
    .asg 57 (.bin (.bxor .u64) (.var 57) (.var 17)),
    .asg 18 (.bin (.bxor .u64) (.var 43) (.bin (.band .u64) (.un (.bnot .u64) (.var 44)) (.var 40))),
    .asg 58 (.bin (.bxor .u64) (.var 58) (.var 18)),
    .asg 19 (.bin (.bxor .u64) (.var 44) (.bin (.band .u64) (.un (.bnot .u64) (.var 40)) (.var 41))),
    .asg 59 (.bin (.bxor .u64) (.var 59) (.var 19)),
    .asg 69 (.bin (.bxor .u64) (.var 69) (.var 64)),
    .asg 45 (.bin (.bxor .u64) (.bin (.shl .u64) (.var 69) (.lit 27)) (.bin (.shr .u64) (.var 69) (.lit 37))),
    .asg 70 (.bin (.bxor .u64) (.var 70) (.var 60)),
    .asg 46 (.bin (.bxor .u64) (.bin (.shl .u64) (.var 70) (.lit 36)) (.bin (.shr .u64) (.var 70) (.lit 28))),
    .asg 76 (.bin (.bxor .u64) (.var 76) (.var 61)),
    .asg 47 (.bin (.bxor .u64) (.bin (.shl .u64) (.var 76) (.lit 10)) (.bin (.shr .u64) (.var 76) (.lit 54)))]

/-- part of `KeccakF1600_FastLoop_Absorb` -/
def KeccakF1600_FastLoop_Absorb.part47 : Stmt :=
  block [
    .asg 82 (.bin (.bxor .u64) (.var 82) (.var 62)),
    .asg 48 (.bin (.bxor .u64) (.bin (.shl .u64) (.var 82) (.lit 15)) (.bin (.shr .u64) (.var 82) (.lit 49))),
    .asg 88 (.bin (.bxor .u64) (.var 88) (.var 63)),
    .asg 49 (.bin (.bxor .u64) (.bin (.shl .u64) (.var 88) (.lit 56)) (.bin (.shr .u64) (.var 88) (.lit 8))),
    .asg 20 (.bin (.bxor .u64) (.var 45) (.bin (.band .u64) (.un (.bnot .u64) (.var 46)) (.var 47))),
    .asg 55 (.bin (.bxor .u64) (.var 55) (.var 20)),
    .asg 21 (.bin (.bxor .u64) (.var 46) (.bin (.band .u64) (.un (.bnot .u64) (.var 47)) (.var 48))),
    .asg 56 (.bin (.bxor .u64) (.var 56) (.var 21)),
    .asg 22 (.bin (.bxor .u64) (.var 47) (.bin (.band .u64) (.un (.bnot .u64) (.var 48)) (.var 49))),
    .asg 57 (.bin (.bxor .u64) (.var 57) (.var 22)),
    .asg 23 (.bin (.bxor .u64) (.var 48) (.bin (.band .u64) (.un (.bnot .u64) (.var 49)) (.var 45))),
    .asg 58 (.bin (.bxor .u64) (.var 58) (.var 23)),
    .asg 24 (.bin (.bxor .u64) (.var 49) (.bin (.band .u64) (.un (.bnot .u64) (.var 45)) (.var 46))),
    .asg 59 (.bin (.bxor .u64) (.var 59) (.var 24)),
    .asg 67 (.bin (.bxor .u64) (.var 67) (.var 62)),
    .asg 50 (.bin (.bxor .u64) (.bin (.shl .u64) (.var 67) (.lit 62)) (.bin (.shr .u64) (.var 67) (.lit 2))),
    .asg 73 (.bin (.bxor .u64) (.var 73) (.var 63)),
    .asg 51 (.bin (.bxor .u64) (.bin (.shl .u64) (.var 73) (.lit 55)) (.bin (.shr .u64) (.var 73) (.lit 9))),
    .asg 79 (.bin (.bxor .u64) (.var 79) (.var 64)),
    .asg 52 (.bin (.bxor .u64) (.bin (.shl .u64) (.var 79) (.lit 39)) (.bin (.shr .u64) (.var 79) (.lit 25))),
    .asg 80 (.bin (.bxor .u64) (.var 80) (.var 60)),
    .asg 53 (.bin (.bxor .u64) (.bin (.shl .u64) (.var 80) (.lit 41)) (.bin (.shr .u64) (.var 80) (.lit 23))),
    .asg 86 (.bin (.bxor .u64) (.var 86) (.var 61)),
    .asg 54 (.bin (.bxor .u64) (.bin (.shl .u64) (.var 86) (.lit 2)) (.bin (.shr .u64) (.var 86) (.lit 62))),
    .asg 25 (.bin (.bxor .u64) (.var 50) (.bin (.band .u64) (.un (.bnot .u64) (.var 51)) (.var 52))),
    .asg 55 (.bin (.bxor .u64) (.var 55) (.var 25)),
    .asg 26 (.bin (.bxor .u64) (.var 51) (.bin (.band .u64) (.un (.bnot .u64) (.var 52)) (.var 53))),
    .asg 56 (.bin (.bxor .u64) (.var 56) (.var 26)),
    .asg 27 (.bin (.bxor .u64) (.var 52) (.bin (.band .u64) (.un (.bnot .u64) (.var 53)) (.var 54))),
    .asg 57 (.bin (.bxor .u64) (.var 57) (.var 27)),
    .asg 28 (.bin (.bxor .u64) (.var 53) (.bin (.band .u64) (.un (.bnot .u64) (.var 54)) (.var 50))),
    .asg 58 (.bin (.bxor .u64) (.var 58) (.var 28)),
    .asg 29 (.bin (.bxor .u64) (.var 54) (.bin (.band .u64) (.un (.bnot .u64) (.var 50)) (.var 51))),
    .asg 59 (.bin (.bxor .u64) (.var 59) (.var 29)),
    .asg 60 (.bin (.bxor .u64) (.var 59) (.bin (.bxor .u64) (.bin (.shl .u64) (.var 56) (.lit 1)) (.bin (.shr .u64)
      (.var 56) (.lit 63)))),
    .asg 61 (.bin (.bxor .u64) (.var 55) (.bin (.bxor .u64) (.bin (.shl .u64) (.var 57) (.lit 1)) (.bin (.shr .u64)
      (.var 57) (.lit 63)))),
    .asg 62 (.bin (.bxor .u64) (.var 56) (.bin (.bxor .u64) (.bin (.shl .u64) (.var 58) (.lit 1)) (.bin (.shr .u64)
      (.var 58) (.lit 63)))),
    .asg 63 (.bin (.bxor .u64) (.var 57) (.bin (.bxor .u64) (.bin (.shl .u64) (.var 59) (.lit 1)) (.bin (.shr .u64)
      (.var 59) (.lit 63)))),
    .asg 64 (.bin (.bxor .u64) (.var 58) (.bin (.bxor .u64) (.bin (.shl .u64) (.var 55) (.lit 1)) (.bin (.shr .u64)
      (.var 55) (.lit 63)))),
    .asg 5 (.bin (.bxor .u64) (.var 5) (.var 60))]

/-- part of `KeccakF1600_FastLoop_Absorb` -/
def KeccakF1600_FastLoop_Absorb.part48 : Stmt :=
  block [
    .asg 30 (.var 5),
    .asg 11 (.bin (.bxor .u64) (.var 11) (.var 61)),
    .asg 31 (.bin (.bxor .u64) (.bin (.shl .u64) (.var 11) (.lit 44)) (.bin (.shr .u64) (.var 11) (.lit 20))),
    .asg 17 (.bin (.bxor .u64) (.var 17) (.var 62)),
    .asg 32 (.bin (.bxor .u64) (.bin (.shl .u64) (.var 17) (.lit 43)) (.bin (.shr .u64) (.var 17) (.lit 21))),
    .asg 23 (.bin (.bxor .u64) (.var 23) (.var 63)),
    .asg 33 (.bin (.bxor .u64) (.bin (.shl .u64) (.var 23) (.lit 21)) (.bin (.shr .u64) (.var 23) (.lit 43))),
    .asg 29 (.bin (.bxor .u64) (.var 29) (.var 64)),
    .asg 34 (.bin (.bxor .u64) (.bin (.shl .u64) (.var 29) (.lit 14)) (.bin (.shr .u64) (.var 29) (.lit 50))),
    .asg 65 (.bin (.bxor .u64) (.var 30) (.bin (.band .u64) (.un (.bnot .u64) (.var 31)) (.var 32))),
    .asg 65 (.bin (.bxor .u64) (.var 65) (.ld 8 (.padd (.glob 0) (.lit 18) 8))),
    .asg 55 (.var 65),
    .asg 66 (.bin (.bxor .u64) (.var 31) (.bin (.band .u64) (.un (.bnot .u64) (.var 32)) (.var 33))),
    .asg 56 (.var 66),
    .asg 67 (.bin (.bxor .u64) (.var 32) (.bin (.band .u64) (.un (.bnot .u64) (.var 33)) (.var 34))),
    .asg 57 (.var 67),
    .asg 68 (.bin (.bxor .u64) (.var 33) (.bin (.band .u64) (.un (.bnot .u64) (.var 34)) (.var 30))),
    .asg 58 (.var 68),
    .asg 69 (.bin (.bxor .u64) (.var 34) (.bin (.band .u64) (.un (.bnot .u64) (.var 30)) (.var 31))),
    .asg 59 (.var 69),
    .asg 8 (.bin (.bxor .u64) (.var 8) (.var 63)),
    .asg 35 (.bin (.bxor .u64) (.bin (.shl .u64) (.var 8) (.lit 28)) (.bin (.shr .u64) (.var 8) (.lit 36))),
    .asg 14 (.bin (.bxor .u64) (.var 14) (.var 64)),
    .asg 36 (.bin (.bxor .u64) (.bin (.shl .u64) (.var 14) (.lit 20)) (.bin (.shr .u64) (.var 14) (.lit 44))),
    .asg 15 (.bin (.bxor .u64) (.var 15) (.var 60)),
    .asg 37 (.bin (.bxor .u64) (.bin (.shl .u64) (.var 15) (.lit 3)) (.bin (.shr .u64) (.var 15) (.lit 61))),
    .asg 21 (.bin (.bxor .u64) (.var 21) (.var 61)),
    .asg 38 (.bin (.bxor .u64) (.bin (.shl .u64) (.var 21) (.lit 45)) (.bin (.shr .u64) (.var 21) (.lit 19))),
    .asg 27 (.bin (.bxor .u64) (.var 27) (.var 62)),
    .asg 39 (.bin (.bxor .u64) (.bin (.shl .u64) (.var 27) (.lit 61)) (.bin (.shr .u64) (.var 27) (.lit 3))),
    .asg 70 (.bin (.bxor .u64) (.var 35) (.bin (.band .u64) (.un (.bnot .u64) (.var 36)) (.var 37))),
    .asg 55 (.bin (.bxor .u64) (.var 55) (.var 70)),
    .asg 71 (.bin (.bxor .u64) (.var 36) (.bin (.band .u64) (.un (.bnot .u64) (.var 37)) (.var 38))),
    .asg 56 (.bin (.bxor .u64) (.var 56) (.var 71)),
    .asg 72 (.bin (.bxor .u64) (.var 37) (.bin (.band .u64) (.un (.bnot .u64) (.var 38)) (.var 39))),
    .asg 57 (.bin (.bxor .u64) (.var 57) (.var 72)),
    .asg 73 (.bin (.bxor .u64) (.var 38) (.bin (.band .u64) (.un (.bnot .u64) (.var 39)) (.var 35))),
    .asg 58 (.bin (.bxor .u64) (.var 58) (.var 73)),
    .asg 74 (.bin (.bxor .u64) (.var 39) (.bin (.band .u64) (.un (.bnot .u64) (.var 35)) (.var 36))),
    .asg 59 (.bin (.bxor .u64) (.var 59) (.var 74))]

/-- part of `KeccakF1600_FastLoop_Absorb` -/
def KeccakF1600_FastLoop_Absorb.part49 : Stmt :=
  block [
    .asg 6 (.bin (.bxor .u64) (.var 6) (.var 61)),
    .asg 40 (.bin (.bxor .u64) (.bin (.shl .u64) (.var 6) (.lit 1)) (.bin (.shr .u64) (.var 6) (.lit 63))),
    .asg 12 (.bin (.bxor .u64) (.var 12) (.var 62)),
    .asg 41 (.bin (.bxor .u64) (.bin (.shl .u64) (.var 12) (.lit 6)) (.bin (.shr .u64) (.var 12) (.lit 58))),
    .asg 18 (.bin (.bxor .u64) (.var 18) (.var 63)),
    .asg 42 (.bin (.bxor .u64) (.bin (.shl .u64) (.var 18) (.lit 25)) (.bin (.shr .u64) (.var 18) (.lit 39))),
    .asg 24 (.bin (.bxor .u64) (.var 24) (.var 64)),
    .asg 43 (.bin (.bxor .u64) (.bin (.shl .u64) (.var 24) (.lit 8)) (.bin (.shr .u64) (.var 24) (.lit 56))),
    .asg 25 (.bin (.bxor .u64) (.var 25) (.var 60)),
    .asg 44 (.bin (.bxor .u64) (.bin (.shl .u64) (.var 25) (.lit 18)) (.bin (.shr .u64) (.var 25) (.lit 46))),
    .asg 75 (.bin (.bxor .u64) (.var 40) (.bin (.band .u64) (.un (.bnot .u64) (.var 41)) (.var 42))),
    .asg 55 (.bin (.bxor .u64) (.var 55) (.var 75)),
    .asg 76 (.bin (.bxor .u64) (.var 41) (.bin (.band .u64) (.un (.bnot .u64) (.var 42)) (.var 43))),
    .asg 56 (.bin (.bxor .u64) (.var 56) (.var 76)),
    .asg 77 (.bin (.bxor .u64) (.var 42) (.bin (.band .u64) (.un (.bnot .u64) (.var 43)) (.var 44))),
    .asg 57 (.bin (.bxor .u64) (.var 57) (.var 77)),
    .asg 78 (.bin (.bxor .u64) (.var 43) (.bin (.band .u64) (.un (.bnot .u64) (.var 44)) (.var 40))),
    .asg 58 (.bin (.bxor .u64) (.var 58) (.var 78)),
    .asg 79 (.bin (.bxor .u64) (.var 44) (.bin (.band .u64) (.un (.bnot .u64) (.var 40)) (.var 41))),
    .asg 59 (.bin (.bxor .u64) (.var 59) (.var 79)),
    .asg 9 (.bin (.bxor .u64) (.var 9) (.var 64)),
    .asg 45 (.bin (.bxor .u64) (.bin (.shl .u64) (.var 9) (.lit 27)) (.bin (.shr .u64) (.var 9) (.lit 37))),
    .asg 10 (.bin (.bxor .u64) (.var 10) (.var 60)),
    .asg 46 (.bin (.bxor .u64) (.bin (.shl .u64) (.var 10) (.lit 36)) (.bin (.shr .u64) (.var 10) (.lit 28))),
    .asg 16 (.bin (.bxor .u64) (.var 16) (.var 61)),
    .asg 47 (.bin (.bxor .u64) (.bin (.shl .u64) (.var 16) (.lit 10)) (.bin (.shr .u64) (.var 16) (.lit 54))),
    .asg 22 (.bin (.bxor .u64) (.var 22) (.var 62)),
    .asg 48 (.bin (.bxor .u64) (.bin (.shl .u64) (.var 22) (.lit 15)) (.bin (.shr .u64) (.var 22) (.lit 49))),
    .asg 28 (.bin (.bxor .u64) (.var 28) (.var 63)),
    .asg 49 (.bin (.bxor .u64) (.bin (.shl .u64) (.var 28) (.lit 56)) (.bin (.shr .u64) (.var 28) (.lit 8))),
    .asg 80 (.bin (.bxor .u64) (.var 45) (.bin (.band .u64) (.un (.bnot .u64) (.var 46)) (.var 47))),
    .asg 55 (.bin (.bxor .u64) (.var 55) (.var 80)),
    .asg 81 (.bin (.bxor .u64) (.var 46) (.bin (.band .u64) (.un (.bnot .u64) (.var 47)) (.var 48))),
    .asg 56 (.bin (.bxor .u64) (.var 56) (.var 81)),
    .asg 82 (.bin (.bxor .u64) (.var 47) (.bin (.band .u64) (.un (.bnot .u64) (.var 48)) (.var 49))),
    .asg 57 (.bin (.bxor .u64) (.var 57) (.var 82)),
    .asg 83 (.bin (.bxor .u64) (.var 48) (.bin (.band .u64) (.un (.bnot .u64) (.var 49)) (.var 45))),
    .asg 58 (.bin (.bxor .u64) (.var 58) (.var 83)),
    .asg 84 (.bin (.bxor .u64) (.var 49) (.bin (.band .u64) (.un (.bnot .u64) (.var 45)) (.var 46))),
    .asg 59 (.bin (.bxor .u64) (.var 59) (.var 84))]

/-- part of `KeccakF1600_FastLoop_Absorb` -/
def KeccakF1600_FastLoop_Absorb.part50 : Stmt :=
  block [
    .asg 7 (.bin (.bxor .u64) (.var 7) (.var 62)),
    .asg 50 (.bin (.bxor .u64) (.bin (.shl .u64) (.var 7) (.lit 62)) (.bin (.shr .u64) (.var 7) (.lit 2))),
    .asg 13 (.bin (.bxor .u64) (.var 13) (.var 63)),
    .asg 51 (.bin (.bxor .u64) (.bin (.shl .u64) (.var 13) (.lit 55)) (.bin (.shr .u64) (.var 13) (.lit 9))),
    .asg 19 (.bin (.bxor .u64) (.var 19) (.var 64)),
    .asg 52 (.bin (.bxor .u64) (.bin (.shl .u64) (.var 19) (.lit 39)) (.bin (.shr .u64) (.var 19) (.lit 25))),
    .asg 20 (.bin (.bxor .u64) (.var 20) (.var 60)),
    .asg 53 (.bin (.bxor .u64) (.bin (.shl .u64) (.var 20) (.lit 41)) (.bin (.shr .u64) (.var 20) (.lit 23))),
    .asg 26 (.bin (.bxor .u64) (.var 26) (.var 61)),
    .asg 54 (.bin (.bxor .u64) (.bin (.shl .u64) (.var 26) (.lit 2)) (.bin (.shr .u64) (.var 26) (.lit 62))),
    .asg 85 (.bin (.bxor .u64) (.var 50) (.bin (.band .u64) (.un (.bnot .u64) (.var 51)) (.var 52))),
    .asg 55 (.bin (.bxor .u64) (.var 55) (.var 85)),
    .asg 86 (.bin (.bxor .u64) (.var 51) (.bin (.band .u64) (.un (.bnot .u64) (.var 52)) (.var 53))),
    .asg 56 (.bin (.bxor .u64) (.var 56) (.var 86)),
    .asg 87 (.bin (.bxor .u64) (.var 52) (.bin (.band .u64) (.un (.bnot .u64) (.var 53)) (.var 54))),
    .asg 57 (.bin (.bxor .u64) (.var 57) (.var 87)),
    .asg 88 (.bin (.bxor .u64) (.var 53) (.bin (.band .u64) (.un (.bnot .u64) (.var 54)) (.var 50))),
    .asg 58 (.bin (.bxor .u64) (.var 58) (.var 88)),
    .asg 89 (.bin (.bxor .u64) (.var 54) (.bin (.band .u64) (.un (.bnot .u64) (.var 50)) (.var 51))),
    .asg 59 (.bin (.bxor .u64) (.var 59) (.var 89)),
    .asg 60 (.bin (.bxor .u64) (.var 59) (.bin (.bxor .u64) (.bin (.shl .u64) (.var 56) (.lit 1)) (.bin (.shr .u64)
      (.var 56) (.lit 63)))),
    .asg 61 (.bin (.bxor .u64) (.var 55) (.bin (.bxor .u64) (.bin (.shl .u64) (.var 57) (.lit 1)) (.bin (.shr .u64)
      (.var 57) (.lit 63)))),
    .asg 62 (.bin (.bxor .u64) (.var 56) (.bin (.bxor .u64) (.bin (.shl .u64) (.var 58) (.lit 1)) (.bin (.shr .u64)
      (.var 58) (.lit 63)))),
    .asg 63 (.bin (.bxor .u64) (.var 57) (.bin (.bxor .u64) (.bin (.shl .u64) (.var 59) (.lit 1)) (.bin (.shr .u64)
      (.var 59) (.lit 63)))),
    .asg 64 (.bin (.bxor .u64) (.var 58) (.bin (.bxor .u64) (.bin (.shl .u64) (.var 55) (.lit 1)) (.bin (.shr .u64)
      (.var 55) (.lit 63)))),
    .asg 65 (.bin (.bxor .u64) (.var 65) (.var 60)),
    .asg 30 (.var 65),
    .asg 71 (.bin (.bxor .u64) (.var 71) (.var 61)),
    .asg 31 (.bin (.bxor .u64) (.bin (.shl .u64) (.var 71) (.lit 44)) (.bin (.shr .u64) (.var 71) (.lit 20))),
    .asg 77 (.bin (.bxor .u64) (.var 77) (.var 62)),
    .asg 32 (.bin (.bxor .u64) (.bin (.shl .u64) (.var 77) (.lit 43)) (.bin (.shr .u64) (.var 77) (.lit 21))),
    .asg 83 (.bin (.bxor .u64) (.var 83) (.var 63)),
    .asg 33 (.bin (.bxor .u64) (.bin (.shl .u64) (.var 83) (.lit 21)) (.bin (.shr .u64) (.var 83) (.lit 43))),
    .asg 89 (.bin (.bxor .u64) (.var 89) (.var 64)),
    .asg 34 (.bin (.bxor .u64) (.bin (.shl .u64) (.var 89) (.lit 14)) (.bin (.shr .u64) (.var 89) (.lit 50))),
    .asg 5 (.bin (.bxor .u64) (.var 30) (.bin (.band .u64) (.un (.bnot .u64) (.var 31)) (.var 32))),
    .asg 5 (.bin (.bxor .u64) (.var 5) (.ld 8 (.padd (.glob 0) (.lit 19) 8))),
    .asg 55 (.var 5),
    .asg 6 (.bin (.bxor .u64) (.var 31) (.bin (.band .u64) (.un (.bnot .u64) (.var 32)) (.var 33))),
    .asg 56 (.var 6)]

/-- part of `KeccakF1600_FastLoop_Absorb` -/
def KeccakF1600_FastLoop_Absorb.part51 : Stmt :=
  block [
    .asg 7 (.bin (.bxor .u64) (.var 32) (.bin (.band .u64) (.un (.bnot .u64) (.var 33)) (.var 34))),
    .asg 57 (.var 7),
    .asg 8 (.bin (.bxor .u64) (.var 33) (.bin (.band .u64) (.un (.bnot .u64) (.var 34)) (.var 30))),
    .asg 58 (.var 8),
    .asg 9 (.bin (.bxor .u64) (.var 34) (.bin (.band .u64) (.un (.bnot .u64) (.var 30)) (.var 31))),
    .asg 59 (.var 9),
    .asg 68 (.bin (.bxor .u64) (.var 68) (.var 63)),
    .asg 35 (.bin (.bxor .u64) (.bin (.shl .u64) (.var 68) (.lit 28)) (.bin (.shr .u64) (.var 68) (.lit 36))),
    .asg 74 (.bin (.bxor .u64) (.var 74) (.var 64)),
    .asg 36 (.bin (.bxor .u64) (.bin (.shl .u64) (.var 74) (.lit 20)) (.bin (.shr .u64) (.var 74) (.lit 44))),
    .asg 75 (.bin (.bxor .u64) (.var 75) (.var 60)),
    .asg 37 (.bin (.bxor .u64) (.bin (.shl .u64) (.var 75) (.lit 3)) (.bin (.shr .u64) (.var 75) (.lit 61))),
    .asg 81 (.bin (.bxor .u64) (.var 81) (.var 61)),
    .asg 38 (.bin (.bxor .u64) (.bin (.shl .u64) (.var 81) (.lit 45)) (.bin (.shr .u64) (.var 81) (.lit 19))),
    .asg 87 (.bin (.bxor .u64) (.var 87) (.var 62)),
    .asg 39 (.bin (.bxor .u64) (.bin (.shl .u64) (.var 87) (.lit 61)) (.bin (.shr .u64) (.var 87) (.lit 3))),
    .asg 10 (.bin (.bxor .u64) (.var 35) (.bin (.band .u64) (.un (.bnot .u64) (.var 36)) (.var 37))),
    .asg 55 (.bin (.bxor .u64) (.var 55) (.var 10)),
    .asg 11 (.bin (.bxor .u64) (.var 36) (.bin (.band .u64) (.un (.bnot .u64) (.var 37)) (.var 38))),
    .asg 56 (.bin (.bxor .u64) (.var 56) (.var 11)),
    .asg 12 (.bin (.bxor .u64) (.var 37) (.bin (.band .u64) (.un (.bnot .u64) (.var 38)) (.var 39))),
    .asg 57 (.bin (.bxor .u64) (.var 57) (.var 12)),
    .asg 13 (.bin (.bxor .u64) (.var 38) (.bin (.band .u64) (.un (.bnot .u64) (.var 39)) (.var 35))),
    .asg 58 (.bin (.bxor .u64) (.var 58) (.var 13)),
    .asg 14 (.bin (.bxor .u64) (.var 39) (.bin (.band .u64) (.un (.bnot .u64) (.var 35)) (.var 36))),
    .asg 59 (.bin (.bxor .u64) (.var 59) (.var 14)),
    .asg 66 (.bin (.bxor .u64) (.var 66) (.var 61)),
    .asg 40 (.bin (.bxor .u64) (.bin (.shl .u64) (.var 66) (.lit 1)) (.bin (.shr .u64) (.var 66) (.lit 63))),
    .asg 72 (.bin (.bxor .u64) (.var 72) (.var 62)),
    .asg 41 (.bin (.bxor .u64) (.bin (.shl .u64) (.var 72) (.lit 6)) (.bin (.shr .u64) (.var 72) (.lit 58))),
    .asg 78 (.bin (.bxor .u64) (.var 78) (.var 63)),
    .asg 42 (.bin (.bxor .u64) (.bin (.shl .u64) (.var 78) (.lit 25)) (.bin (.shr .u64) (.var 78) (.lit 39))),
    .asg 84 (.bin (.bxor .u64) (.var 84) (.var 64)),
    .asg 43 (.bin (.bxor .u64) (.bin (.shl .u64) (.var 84) (.lit 8)) (.bin (.shr .u64) (.var 84) (.lit 56))),
    .asg 85 (.bin (.bxor .u64) (.var 85) (.var 60)),
    .asg 44 (.bin (.bxor .u64) (.bin (.shl .u64) (.var 85) (.lit 18)) (.bin (.shr .u64) (.var 85) (.lit 46))),
    .asg 15 (.bin (.bxor .u64) (.var 40) (.bin (.band .u64) (.un (.bnot .u64) (.var 41)) (.var 42))),
    .asg 55 (.bin (.bxor .u64) (.var 55) (.var 15)),
    .asg 16 (.bin (.bxor .u64) (.var 41) (.bin (.band .u64) (.un (.bnot .u64) (.var 42)) (.var 43))),
    .asg 56 (.bin (.bxor .u64) (.var 56) (.var 16))]

/-- part of `KeccakF1600_FastLoop_Absorb` -/
def KeccakF1600_FastLoop_Absorb.part52 : Stmt :=
  block [
    .asg 17 (.bin (.bxor .u64) (.var 42) (.bin (.band .u64) (.un (.bnot .u64) (.var 43)) (.var 44))),
    .asg 57 (.bin (.bxor .u64) (.var 57) (.var 17)),
    .asg 18 (.bin (.bxor .u64) (.var 43) (.bin (.band .u64) (.un (.bnot .u64) (.var 44)) (.var 40))),
    .asg 58 (.bin (.bxor .u64) (.var 58) (.var 18)),
    .asg 19 (.bin (.bxor .u64) (.var 44) (.bin (.band .u64) (.un (.bnot .u64) (.var 40)) (.var 41))),
    .asg 59 (.bin (.bxor .u64) (.var 59) (.var 19)),
    .asg 69 (.bin (.bxor .u64) (.var 69) (.var 64)),
    .asg 45 (.bin (.bxor .u64) (.bin (.shl .u64) (.var 69) (.lit 27)) (.bin (.shr .u64) (.var 69) (.lit 37))),
    .asg 70 (.bin (.bxor .u64) (.var 70) (.var 60)),
    .asg 46 (.bin (.bxor .u64) (.bin (.shl .u64) (.var 70) (.lit 36)) (.bin (.shr .u64) (.var 70) (.lit 28))),
    .asg 76 (.bin (.bxor .u64) (.var 76) (.var 61)),
    .asg 47 (.bin (.bxor .u64) (.bin (.shl .u64) (.var 76) (.lit 10)) (.bin (.shr .u64) (.var 76) (.lit 54))),
    .asg 82 (.bin (.bxor .u64) (.var 82) (.var 62)),
    .asg 48 (.bin (.bxor .u64) (.bin (.shl .u64) (.var 82) (.lit 15)) (.bin (.shr .u64) (.var 82) (.lit 49))),
    .asg 88 (.bin (.bxor .u64) (.var 88) (.var 63)),
    .asg 49 (.bin (.bxor .u64) (.bin (.shl .u64) (.var 88) (.lit 56)) (.bin (.shr .u64) (.var 88) (.lit 8))),
    .asg 20 (.bin (.bxor .u64) (.var 45) (.bin (.band .u64) (.un (.bnot .u64) (.var 46)) (.var 47))),
    .asg 55 (.bin (.bxor .u64) (.var 55) (.var 20)),
    .asg 21 (.bin (.bxor .u64) (.var 46) (.bin (.band .u64) (.un (.bnot .u64) (.var 47)) (.var 48))),
    .asg 56 (.bin (.bxor .u64) (.var 56) (.var 21)),
    .asg 22 (.bin (.bxor .u64) (.var 47) (.bin (.band .u64) (.un (.bnot .u64) (.var 48)) (.var 49))),
    .asg 57 (.bin (.bxor .u64) (.var 57) (.var 22)),
    .asg 23 (.bin (.bxor .u64) (.var 48) (.bin (.band .u64) (.un (.bnot .u64) (.var 49)) (.var 45))),
    .asg 58 (.bin (.bxor .u64) (.var 58) (.var 23)),
    .asg 24 (.bin (.bxor .u64) (.var 49) (.bin (.band .u64) (.un (.bnot .u64) (.var 45)) (.var 46))),
    .asg 59 (.bin (.bxor .u64) (.var 59) (.var 24)),
    .asg 67 (.bin (.bxor .u64) (.var 67) (.var 62)),
    .asg 50 (.bin (.bxor .u64) (.bin (.shl .u64) (.var 67) (.lit 62)) (.bin (.shr .u64) (.var 67) (.lit 2))),
    .asg 73 (.bin (.bxor .u64) (.var 73) (.var 63)),
    .asg 51 (.bin (.bxor .u64) (.bin (.shl .u64) (.var 73) (.lit 55)) (.bin (.shr .u64) (.var 73) (.lit 9))),
    .asg 79 (.bin (.bxor .u64) (.var 79) (.var 64)),
    .asg 52 (.bin (.bxor .u64) (.bin (.shl .u64) (.var 79) (.lit 39)) (.bin (.shr .u64) (.var 79) (.lit 25))),
    .asg 80 (.bin (.bxor .u64) (.var 80) (.var 60)),
    .asg 53 (.bin (.bxor .u64) (.bin (.shl .u64) (.var 80) (.lit 41)) (.bin (.shr .u64) (.var 80) (.lit 23))),
    .asg 86 (.bin (.bxor .u64) (.var 86) (.var 61)),
    .asg 54 (.bin (.bxor .u64) (.bin (.shl .u64) (.var 86) (.lit 2)) (.bin (.shr .u64) (.var 86) (.lit 62))),
    .asg 25 (.bin (.bxor .u64) (.var 50) (.bin (.band .u64) (.un (.bnot .u64) (.var 51)) (.var 52))),
    .asg 55 (.bin (.bxor .u64) (.var 55) (.var 25)),
    .asg 26 (.bin (.bxor .u64) (.var 51) (.bin (.band .u64) (.un (.bnot .u64) (.var 52)) (.var 53))),
    .asg 56 (.bin (.bxor .u64) (.var 56) (.var 26))]

/-- part of `KeccakF1600_FastLoop_Absorb` -/
def KeccakF1600_FastLoop_Absorb.part53 : Stmt :=
  block [
    .asg 27 (.bin (.bxor .u64) (.var 52) (.bin (.band .u64) (.un (.bnot .u64) (.var 53)) (.var 54))),
    .asg 57 (.bin (.bxor .u64) (.var 57) (.var 27)),
    .asg 28 (.bin (.bxor .u64) (.var 53) (.bin (.band .u64) (.un (.bnot .u64) (.var 54)) (.var 50))),
    .asg 58 (.bin (.bxor .u64) (.var 58) (.var 28)),
    .asg 29 (.bin (.bxor .u64) (.var 54) (.bin (.band .u64) (.un (.bnot .u64) (.var 50)) (.var 51))),
    .asg 59 (.bin (.bxor .u64) (.var 59) (.var 29)),
    .asg 60 (.bin (.bxor .u64) (.var 59) (.bin (.bxor .u64) (.bin (.shl .u64) (.var 56) (.lit 1)) (.bin (.shr .u64)
      (.var 56) (.lit 63)))),
    .asg 61 (.bin (.bxor .u64) (.var 55) (.bin (.bxor .u64) (.bin (.shl .u64) (.var 57) (.lit 1)) (.bin (.shr .u64)
      (.var 57) (.lit 63)))),
    .asg 62 (.bin (.bxor .u64) (.var 56) (.bin (.bxor .u64) (.bin (.shl .u64) (.var 58) (.lit 1)) (.bin (.shr .u64)
      (.var 58) (.lit 63)))),
    .asg 63 (.bin (.bxor .u64) (.var 57) (.bin (.bxor .u64) (.bin (.shl .u64) (.var 59) (.lit 1)) (.bin (.shr .u64)
      (.var 59) (.lit 63)))),
    .asg 64 (.bin (.bxor .u64) (.var 58) (.bin (.bxor .u64) (.bin (.shl .u64) (.var 55) (.lit 1)) (.bin (.shr .u64)
      (.var 55) (.lit 63)))),
    .asg 5 (.bin (.bxor .u64) (.var 5) (.var 60)),
    .asg 30 (.var 5),
    .asg 11 (.bin (.bxor .u64) (.var 11) (.var 61)),
    .asg 31 (.bin (.bxor .u64) (.bin (.shl .u64) (.var 11) (.lit 44)) (.bin (.shr .u64) (.var 11) (.lit 20))),
    .asg 17 (.bin (.bxor .u64) (.var 17) (.var 62)),
    .asg 32 (.bin (.bxor .u64) (.bin (.shl .u64) (.var 17) (.lit 43)) (.bin (.shr .u64) (.var 17) (.lit 21))),
    .asg 23 (.bin (.bxor .u64) (.var 23) (.var 63)),
    .asg 33 (.bin (.bxor .u64) (.bin (.shl .u64) (.var 23) (.lit 21)) (.bin (.shr .u64) (.var 23) (.lit 43))),
    .asg 29 (.bin (.bxor .u64) (.var 29) (.var 64)),
    .asg 34 (.bin (.bxor .u64) (.bin (.shl .u64) (.var 29) (.lit 14)) (.bin (.shr .u64) (.var 29) (.lit 50))),
    .asg 65 (.bin (.bxor .u64) (.var 30) (.bin (.band .u64) (.un (.bnot .u64) (.var 31)) (.var 32))),
    .asg 65 (.bin (.bxor .u64) (.var 65) (.ld 8 (.padd (.glob 0) (.lit 20) 8))),
    .asg 55 (.var 65),
    .asg 66 (.bin (.bxor .u64) (.var 31) (.bin (.band .u64) (.un (.bnot .u64) (.var 32)) (.var 33))),
    .asg 56 (.var 66),
    .asg 67 (.bin (.bxor .u64) (.var 32) (.bin (.band .u64) (.un (.bnot .u64) (.var 33)) (.var 34))),
    .asg 57 (.var 67),
    .asg 68 (.bin (.bxor .u64) (.var 33) (.bin (.band .u64) (.un (.bnot .u64) (.var 34)) (.var 30))),
    .asg 58 (.var 68),
    .asg 69 (.bin (.bxor .u64) (.var 34) (.bin (.band .u64) (.un (.bnot .u64) (.var 30)) (.var 31))),
    .asg 59 (.var 69),
    .asg 8 (.bin (.bxor .u64) (.var 8) (.var 63)),
    .asg 35 (.bin (.bxor .u64) (.bin (.shl .u64) (.var 8) (.lit 28)) (.bin (.shr .u64) (.var 8) (.lit 36))),
    .asg 14 (.bin (.bxor .u64) (.var 14) (.var 64)),
    .asg 36 (.bin (.bxor .u64) (.bin (.shl .u64) (.var 14) (.lit 20)) (.bin (.shr .u64) (.var 14) (.lit 44))),
    .asg 15 (.bin (.bxor .u64) (.var 15) (.var 60)),
    .asg 37 (.bin (.bxor .u64) (.bin (.shl .u64) (.var 15) (.lit 3)) (.bin (.shr .u64) (.var 15) (.lit 61))),
    .asg 21 (.bin (.bxor .u64) (.var 21) (.var 61)),
    .asg 38 (.bin (.bxor .u64) (.bin (.shl .u64) (.var 21) (.lit 45)) (.bin (.shr .u64) (.var 21) (.lit 19)))]

/-- part of `KeccakF1600_FastLoop_Absorb` -/
def KeccakF1600_FastLoop_Absorb.part54 : Stmt :=
  block [
    .asg 27 (.bin (.bxor .u64) (.var 27) (.var 62)),
    .asg 39 (.bin (.bxor .u64) (.bin (.shl .u64) (.var 27) (.lit 61)) (.bin (.shr .u64) (.var 27) (.lit 3))),
    .asg 70 (.bin (.bxor .u64) (.var 35) (.bin (.band .u64) (.un (.bnot .u64) (.var 36)) (.var 37))),
    .asg 55 (.bin (.bxor .u64) (.var 55) (.var 70)),
    .asg 71 (.bin (.bxor .u64) (.var 36) (.bin (.band .u64) (.un (.bnot .u64) (.var 37)) (.var 38))),
    .asg 56 (.bin (.bxor .u64) (.var 56) (.var 71)),
    .asg 72 (.bin (.bxor .u64) (.var 37) (.bin (.band .u64) (.un (.bnot .u64) (.var 38)) (.var 39))),
    .asg 57 (.bin (.bxor .u64) (.var 57) (.var 72)),
    .asg 73 (.bin (.bxor .u64) (.var 38) (.bin (.band .u64) (.un (.bnot .u64) (.var 39)) (.var 35))),
    .asg 58 (.bin (.bxor .u64) (.var 58) (.var 73)),
    .asg 74 (.bin (.bxor .u64) (.var 39) (.bin (.band .u64) (.un (.bnot .u64) (.var 35)) (.var 36))),
    .asg 59 (.bin (.bxor .u64) (.var 59) (.var 74)),
    .asg 6 (.bin (.bxor .u64) (.var 6) (.var 61)),
    .asg 40 (.bin (.bxor .u64) (.bin (.shl .u64) (.var 6) (.lit 1)) (.bin (.shr .u64) (.var 6) (.lit 63))),
    .asg 12 (.bin (.bxor .u64) (.var 12) (.var 62)),
    .asg 41 (.bin (.bxor .u64) (.bin (.shl .u64) (.var 12) (.lit 6)) (.bin (.shr .u64) (.var 12) (.lit 58))),
    .asg 18 (.bin (.bxor .u64) (.var 18) (.var 63)),
    .asg 42 (.bin (.bxor .u64) (.bin (.shl .u64) (.var 18) (.lit 25)) (.bin (.shr .u64) (.var 18) (.lit 39))),
    .asg 24 (.bin (.bxor .u64) (.var 24) (.var 64)),
    .asg 43 (.bin (.bxor .u64) (.bin (.shl .u64) (.var 24) (.lit 8)) (.bin (.shr .u64) (.var 24) (.lit 56))),
    .asg 25 (.bin (.bxor .u64) (.var 25) (.var 60)),
    .asg 44 (.bin (.bxor .u64) (.bin (.shl .u64) (.var 25) (.lit 18)) (.bin (.shr .u64) (.var 25) (.lit 46))),
    .asg 75 (.bin (.bxor .u64) (.var 40) (.bin (.band .u64) (.un (.bnot .u64) (.var 41)) (.var 42))),
    .asg 55 (.bin (.bxor .u64) (.var 55) (.var 75)),
    .asg 76 (.bin (.bxor .u64) (.var 41) (.bin (.band .u64) (.un (.bnot .u64) (.var 42)) (.var 43))),
    .asg 56 (.bin (.bxor .u64) (.var 56) (.var 76)),
    .asg 77 (.bin (.bxor .u64) (.var 42) (.bin (.band .u64) (.un (.bnot .u64) (.var 43)) (.var 44))),
    .asg 57 (.bin (.bxor .u64) (.var 57) (.var 77)),
    .asg 78 (.bin (.bxor .u64) (.var 43) (.bin (.band .u64) (.un (.bnot .u64) (.var 44)) (.var 40))),
    .asg 58 (.bin (.bxor .u64) (.var 58) (.var 78)),
    .asg 79 (.bin (.bxor .u64) (.var 44) (.bin (.band .u64) (.un (.bnot .u64) (.var 40)) (.var 41))),
    .asg 59 (.bin (.bxor .u64) (.var 59) (.var 79)),
    .asg 9 (.bin (.bxor .u64) (.var 9) (.var 64)),
    .asg 45 (.bin (.bxor .u64) (.bin (.shl .u64) (.var 9) (.lit 27)) (.bin (.shr .u64) (.var 9) (.lit 37))),
    .asg 10 (.bin (.bxor .u64) (.var 10) (.var 60)),
    .asg 46 (.bin (.bxor .u64) (.bin (.shl .u64) (.var 10) (.lit 36)) (.bin (.shr .u64) (.var 10) (.lit 28))),
    .asg 16 (.bin (.bxor .u64) (.var 16) (.var 61)),
    .asg 47 (.bin (.bxor .u64) (.bin (.shl .u64) (.var 16) (.lit 10)) (.bin (.shr .u64) (.var 16) (.lit 54))),
    .asg 22 (.bin (.bxor .u64) (.var 22) (.var 62)),
    .asg 48 (.bin (.bxor .u64) (.bin (.shl .u64) (.var 22) (.lit 15)) (.bin (.shr .u64) (.var 22) (.lit 49)))]

/-- part of `KeccakF1600_FastLoop_Absorb` -/
def KeccakF1600_FastLoop_Absorb.part55 : Stmt :=
  block [
    .asg 28 (.bin (.bxor .u64) (.var 28) (.var 63)),
    .asg 49 (.bin (.bxor .u64) (.bin (.shl .u64) (.var 28) (.lit 56)) (.bin (.shr .u64) (.var 28) (.lit 8))),
    .asg 80 (.bin (.bxor .u64) (.var 45) (.bin (.band .u64) (.un (.bnot .u64) (.var 46)) (.var 47))),
    .asg 55 (.bin (.bxor .u64) (.var 55) (.var 80)),
    .asg 81 (.bin (.bxor .u64) (.var 46) (.bin (.band .u64) (.un (.bnot .u64) (.var 47)) (.var 48))),
    .asg 56 (.bin (.bxor .u64) (.var 56) (.var 81)),
    .asg 82 (.bin (.bxor .u64) (.var 47) (.bin (.band .u64) (.un (.bnot .u64) (.var 48)) (.var 49))),
    .asg 57 (.bin (.bxor .u64) (.var 57) (.var 82)),
    .asg 83 (.bin (.bxor .u64) (.var 48) (.bin (.band .u64) (.un (.bnot .u64) (.var 49)) (.var 45))),
    .asg 58 (.bin (.bxor .u64) (.var 58) (.var 83)),
    .asg 84 (.bin (.bxor .u64) (.var 49) (.bin (.band .u64) (.un (.bnot .u64) (.var 45)) (.var 46))),
    .asg 59 (.bin (.bxor .u64) (.var 59) (.var 84)),
    .asg 7 (.bin (.bxor .u64) (.var 7) (.var 62)),
    .asg 50 (.bin (.bxor .u64) (.bin (.shl .u64) (.var 7) (.lit 62)) (.bin (.shr .u64) (.var 7) (.lit 2))),
    .asg 13 (.bin (.bxor .u64) (.var 13) (.var 63)),
    .asg 51 (.bin (.bxor .u64) (.bin (.shl .u64) (.var 13) (.lit 55)) (.bin (.shr .u64) (.var 13) (.lit 9))),
    .asg 19 (.bin (.bxor .u64) (.var 19) (.var 64)),
    .asg 52 (.bin (.bxor .u64) (.bin (.shl .u64) (.var 19) (.lit 39)) (.bin (.shr .u64) (.var 19) (.lit 25))),
    .asg 20 (.bin (.bxor .u64) (.var 20) (.var 60)),
    .asg 53 (.bin (.bxor .u64) (.bin (.shl .u64) (.var 20) (.lit 41)) (.bin (.shr .u64) (.var 20) (.lit 23))),
    .asg 26 (.bin (.bxor .u64) (.var 26) (.var 61)),
    .asg 54 (.bin (.bxor .u64) (.bin (.shl .u64) (.var 26) (.lit 2)) (.bin (.shr .u64) (.var 26) (.lit 62))),
    .asg 85 (.bin (.bxor .u64) (.var 50) (.bin (.band .u64) (.un (.bnot .u64) (.var 51)) (.var 52))),
    .asg 55 (.bin (.bxor .u64) (.var 55) (.var 85)),
    .asg 86 (.bin (.bxor .u64) (.var 51) (.bin (.band .u64) (.un (.bnot .u64) (.var 52)) (.var 53))),
    .asg 56 (.bin (.bxor .u64) (.var 56) (.var 86)),
    .asg 87 (.bin (.bxor .u64) (.var 52) (.bin (.band .u64) (.un (.bnot .u64) (.var 53)) (.var 54))),
    .asg 57 (.bin (.bxor .u64) (.var 57) (.var 87)),
    .asg 88 (.bin (.bxor .u64) (.var 53) (.bin (.band .u64) (.un (.bnot .u64) (.var 54)) (.var 50))),
    .asg 58 (.bin (.bxor .u64) (.var 58) (.var 88)),
    .asg 89 (.bin (.bxor .u64) (.var 54) (.bin (.band .u64) (.un (.bnot .u64) (.var 50)) (.var 51))),
    .asg 59 (.bin (.bxor .u64) (.var 59) (.var 89)),
    .asg 60 (.bin (.bxor .u64) (.var 59) (.bin (.bxor .u64) (.bin (.shl .u64) (.var 56) (.lit 1)) (.bin (.shr .u64)
      (.var 56) (.lit 63)))),
    .asg 61 (.bin (.bxor .u64) (.var 55) (.bin (.bxor .u64) (.bin (.shl .u64) (.var 57) (.lit 1)) (.bin (.shr .u64)
      (.var 57) (.lit 63)))),
    .asg 62 (.bin (.bxor .u64) (.var 56) (.bin (.bxor .u64) (.bin (.shl .u64) (.var 58) (.lit 1)) (.bin (.shr .u64)
      (.var 58) (.lit 63)))),
    .asg 63 (.bin (.bxor .u64) (.var 57) (.bin (.bxor .u64) (.bin (.shl .u64) (.var 59) (.lit 1)) (.bin (.shr .u64)
      (.var 59) (.lit 63)))),
    .asg 64 (.bin (.bxor .u64) (.var 58) (.bin (.bxor .u64) (.bin (.shl .u64) (.var 55) (.lit 1)) (.bin (.shr .u64)
      (.var 55) (.lit 63)))),
    .asg 65 (.bin (.bxor .u64) (.var 65) (.var 60)),
    .asg 30 (.var 65),
    .asg 71 (.bin (.bxor .u64) (.var 71) (.var 61))]

/-- part of `KeccakF1600_FastLoop_Absorb` -/
def KeccakF1600_FastLoop_Absorb.part56 : Stmt :=
  block [
    .asg 31 (.bin (.bxor .u64) (.bin (.shl .u64) (.var 71) (.lit 44)) (.bin (.shr .u64) (.var 71) (.lit 20))),
    .asg 77 (.bin (.bxor .u64) (.var 77) (.var 62)),
    .asg 32 (.bin (.bxor .u64) (.bin (.shl .u64) (.var 77) (.lit 43)) (.bin (.shr .u64) (.var 77) (.lit 21))),
    .asg 83 (.bin (.bxor .u64) (.var 83) (.var 63)),
    .asg 33 (.bin (.bxor .u64) (.bin (.shl .u64) (.var 83) (.lit 21)) (.bin (.shr .u64) (.var 83) (.lit 43))),
    .asg 89 (.bin (.bxor .u64) (.var 89) (.var 64)),
    .asg 34 (.bin (.bxor .u64) (.bin (.shl .u64) (.var 89) (.lit 14)) (.bin (.shr .u64) (.var 89) (.lit 50))),
    .asg 5 (.bin (.bxor .u64) (.var 30) (.bin (.band .u64) (.un (.bnot .u64) (.var 31)) (.var 32))),
    .asg 5 (.bin (.bxor .u64) (.var 5) (.ld 8 (.padd (.glob 0) (.lit 21) 8))),
    .asg 55 (.var 5),
    .asg 6 (.bin (.bxor .u64) (.var 31) (.bin (.band .u64) (.un (.bnot .u64) (.var 32)) (.var 33))),
    .asg 56 (.var 6),
    .asg 7 (.bin (.bxor .u64) (.var 32) (.bin (.band .u64) (.un (.bnot .u64) (.var 33)) (.var 34))),
    .asg 57 (.var 7),
    .asg 8 (.bin (.bxor .u64) (.var 33) (.bin (.band .u64) (.un (.bnot .u64) (.var 34)) (.var 30))),
    .asg 58 (.var 8),
    .asg 9 (.bin (.bxor .u64) (.var 34) (.bin (.band .u64) (.un (.bnot .u64) (.var 30)) (.var 31))),
    .asg 59 (.var 9),
    .asg 68 (.bin (.bxor .u64) (.var 68) (.var 63)),
    .asg 35 (.bin (.bxor .u64) (.bin (.shl .u64) (.var 68) (.lit 28)) (.bin (.shr .u64) (.var 68) (.lit 36))),
    .asg 74 (.bin (.bxor .u64) (.var 74) (.var 64)),
    .asg 36 (.bin (.bxor .u64) (.bin (.shl .u64) (.var 74) (.lit 20)) (.bin (.shr .u64) (.var 74) (.lit 44))),
    .asg 75 (.bin (.bxor .u64) (.var 75) (.var 60)),
    .asg 37 (.bin (.bxor .u64) (.bin (.shl .u64) (.var 75) (.lit 3)) (.bin (.shr .u64) (.var 75) (.lit 61))),
    .asg 81 (.bin (.bxor .u64) (.var 81) (.var 61)),
    .asg 38 (.bin (.bxor .u64) (.bin (.shl .u64) (.var 81) (.lit 45)) (.bin (.shr .u64) (.var 81) (.lit 19))),
    .asg 87 (.bin (.bxor .u64) (.var 87) (.var 62)),
    .asg 39 (.bin (.bxor .u64) (.bin (.shl .u64) (.var 87) (.lit 61)) (.bin (.shr .u64) (.var 87) (.lit 3))),
    .asg 10 (.bin (.bxor .u64) (.var 35) (.bin (.band .u64) (.un (.bnot .u64) (.var 36)) (.var 37))),
    .asg 55 (.bin (.bxor .u64) (.var 55) (.var 10)),
    .asg 11 (.bin (.bxor .u64) (.var 36) (.bin (.band .u64) (.un (.bnot .u64) (.var 37)) (.var 38))),
    .asg 56 (.bin (.bxor .u64) (.var 56) (.var 11)),
    .asg 12 (.bin (.bxor .u64) (.var 37) (.bin (.band .u64) (.un (.bnot .u64) (.var 38)) (.var 39))),
    .asg 57 (.bin (.bxor .u64) (.var 57) (.var 12)),
    .asg 13 (.bin (.bxor .u64) (.var 38) (.bin (.band .u64) (.un (.bnot .u64) (.var 39)) (.var 35))),
    .asg 58 (.bin (.bxor .u64) (.var 58) (.var 13)),
    .asg 14 (.bin (.bxor .u64) (.var 39) (.bin (.band .u64) (.un (.bnot .u64) (.var 35)) (.var 36))),
    .asg 59 (.bin (.bxor .u64) (.var 59) (.var 14)),
    .asg 66 (.bin (.bxor .u64) (.var 66) (.var 61)),
    .asg 40 (.bin (.bxor .u64) (.bin (.shl .u64) (.var 66) (.lit 1)) (.bin (.shr .u64) (.var 66) (.lit 63)))]

/-- part of `KeccakF1600_FastLoop_Absorb` -/
def KeccakF1600_FastLoop_Absorb.part57 : Stmt :=
  block [
    .asg 72 (.bin (.bxor .u64) (.var 72) (.var 62)),
    .asg 41 (.bin (.bxor .u64) (.bin (.shl .u64) (.var 72) (.lit 6)) (.bin (.shr .u64) (.var 72) (.lit 58))),
    .asg 78 (.bin (.bxor .u64) (.var 78) (.var 63)),
    .asg 42 (.bin (.bxor .u64) (.bin (.shl .u64) (.var 78) (.lit 25)) (.bin (.shr .u64) (.var 78) (.lit 39))),
    .asg 84 (.bin (.bxor .u64) (.var 84) (.var 64)),
    .asg 43 (.bin (.bxor .u64) (.bin (.shl .u64) (.var 84) (.lit 8)) (.bin (.shr .u64) (.var 84) (.lit 56))),
    .asg 85 (.bin (.bxor .u64) (.var 85) (.var 60)),
    .asg 44 (.bin (.bxor .u64) (.bin (.shl .u64) (.var 85) (.lit 18)) (.bin (.shr .u64) (.var 85) (.lit 46))),
    .asg 15 (.bin (.bxor .u64) (.var 40) (.bin (.band .u64) (.un (.bnot .u64) (.var 41)) (.var 42))),
    .asg 55 (.bin (.bxor .u64) (.var 55) (.var 15)),
    .asg 16 (.bin (.bxor .u64) (.var 41) (.bin (.band .u64) (.un (.bnot .u64) (.var 42)) (.var 43))),
    .asg 56 (.bin (.bxor .u64) (.var 56) (.var 16)),
    .asg 17 (.bin (.bxor .u64) (.var 42) (.bin (.band .u64) (.un (.bnot .u64) (.var 43)) (.var 44))),
    .asg 57 (.bin (.bxor .u64) (.var 57) (.var 17)),
    .asg 18 (.bin (.bxor .u64) (.var 43) (.bin (.band .u64) (.un (.bnot .u64) (.var 44)) (.var 40))),
    .asg 58 (.bin (.bxor .u64) (.var 58) (.var 18)),
    .asg 19 (.bin (.bxor .u64) (.var 44) (.bin (.band .u64) (.un (.bnot .u64) (.var 40)) (.var 41))),
    .asg 59 (.bin (.bxor .u64) (.var 59) (.var 19)),
    .asg 69 (.bin (.bxor .u64) (.var 69) (.var 64)),
    .asg 45 (.bin (.bxor .u64) (.bin (.shl .u64) (.var 69) (.lit 27)) (.bin (.shr .u64) (.var 69) (.lit 37))),
    .asg 70 (.bin (.bxor .u64) (.var 70) (.var 60)),
    .asg 46 (.bin (.bxor .u64) (.bin (.shl .u64) (.var 70) (.lit 36)) (.bin (.shr .u64) (.var 70) (.lit 28))),
    .asg 76 (.bin (.bxor .u64) (.var 76) (.var 61)),
    .asg 47 (.bin (.bxor .u64) (.bin (.shl .u64) (.var 76) (.lit 10)) (.bin (.shr .u64) (.var 76) (.lit 54))),
    .asg 82 (.bin (.bxor .u64) (.var 82) (.var 62)),
    .asg 48 (.bin (.bxor .u64) (.bin (.shl .u64) (.var 82) (.lit 15)) (.bin (.shr .u64) (.var 82) (.lit 49))),
    .asg 88 (.bin (.bxor .u64) (.var 88) (.var 63)),
    .asg 49 (.bin (.bxor .u64) (.bin (.shl .u64) (.var 88) (.lit 56)) (.bin (.shr .u64) (.var 88) (.lit 8))),
    .asg 20 (.bin (.bxor .u64) (.var 45) (.bin (.band .u64) (.un (.bnot .u64) (.var 46)) (.var 47))),
    .asg 55 (.bin (.bxor .u64) (.var 55) (.var 20)),
    .asg 21 (.bin (.bxor .u64) (.var 46) (.bin (.band .u64) (.un (.bnot .u64) (.var 47)) (.var 48))),
    .asg 56 (.bin (.bxor .u64) (.var 56) (.var 21)),
    .asg 22 (.bin (.bxor .u64) (.var 47) (.bin (.band .u64) (.un (.bnot .u64) (.var 48)) (.var 49))),
    .asg 57 (.bin (.bxor .u64) (.var 57) (.var 22)),
    .asg 23 (.bin (.bxor .u64) (.var 48) (.bin (.band .u64) (.un (.bnot .u64) (.var 49)) (.var 45))),
    .asg 58 (.bin (.bxor .u64) (.var 58) (.var 23)),
    .asg 24 (.bin (.bxor .u64) (.var 49) (.bin (.band .u64) (.un (.bnot .u64) (.var 45)) (.var 46))),
    .asg 59 (.bin (.bxor .u64) (.var 59) (.var 24)),
    .asg 67 (.bin (.bxor .u64) (.var 67) (.var 62)),
    .asg 50 (.bin (.bxor .u64) (.bin (.shl .u64) (.var 67) (.lit 62)) (.bin (.shr .u64) (.var 67) (.lit 2)))]

/-- part of `KeccakF1600_FastLoop_Absorb` -/
def KeccakF1600_FastLoop_Absorb.part58 : Stmt :=
  block [
    .asg 73 (.bin (.bxor .u64) (.var 73) (.var 63)),
    .asg 51 (.bin (.bxor .u64) (.bin (.shl .u64) (.var 73) (.lit 55)) (.bin (.shr .u64) (.var 73) (.lit 9))),
    .asg 79 (.bin (.bxor .u64) (.var 79) (.var 64)),
    .asg 52 (.bin (.bxor .u64) (.bin (.shl .u64) (.var 79) (.lit 39)) (.bin (.shr .u64) (.var 79) (.lit 25))),
    .asg 80 (.bin (.bxor .u64) (.var 80) (.var 60)),
    .asg 53 (.bin (.bxor .u64) (.bin (.shl .u64) (.var 80) (.lit 41)) (.bin (.shr .u64) (.var 80) (.lit 23))),
    .asg 86 (.bin (.bxor .u64) (.var 86) (.var 61)),
    .asg 54 (.bin (.bxor .u64) (.bin (.shl .u64) (.var 86) (.lit 2)) (.bin (.shr .u64) (.var 86) (.lit 62))),
    .asg 25 (.bin (.bxor .u64) (.var 50) (.bin (.band .u64) (.un (.bnot .u64) (.var 51)) (.var 52))),
    .asg 55 (.bin (.bxor .u64) (.var 55) (.var 25)),
    .asg 26 (.bin (.bxor .u64) (.var 51) (.bin (.band .u64) (.un (.bnot .u64) (.var 52)) (.var 53))),
    .asg 56 (.bin (.bxor .u64) (.var 56) (.var 26)),
    .asg 27 (.bin (.bxor .u64) (.var 52) (.bin (.band .u64) (.un (.bnot .u64) (.var 53)) (.var 54))),
    .asg 57 (.bin (.bxor .u64) (.var 57) (.var 27)),
    .asg 28 (.bin (.bxor .u64) (.var 53) (.bin (.band .u64) (.un (.bnot .u64) (.var 54)) (.var 50))),
    .asg 58 (.bin (.bxor .u64) (.var 58) (.var 28)),
    .asg 29 (.bin (.bxor .u64) (.var 54) (.bin (.band .u64) (.un (.bnot .u64) (.var 50)) (.var 51))),
    .asg 59 (.bin (.bxor .u64) (.var 59) (.var 29)),
    .asg 60 (.bin (.bxor .u64) (.var 59) (.bin (.bxor .u64) (.bin (.shl .u64) (.var 56) (.lit 1)) (.bin (.shr .u64)
      (.var 56) (.lit 63)))),
    .asg 61 (.bin (.bxor .u64) (.var 55) (.bin (.bxor .u64) (.bin (.shl .u64) (.var 57) (.lit 1)) (.bin (.shr .u64)
      (.var 57) (.lit 63)))),
    .asg 62 (.bin (.bxor .u64) (.var 56) (.bin (.bxor .u64) (.bin (.shl .u64) (.var 58) (.lit 1)) (.bin (.shr .u64)
      (.var 58) (.lit 63)))),
    .asg 63 (.bin (.bxor .u64) (.var 57) (.bin (.bxor .u64) (.bin (.shl .u64) (.var 59) (.lit 1)) (.bin (.shr .u64)
      (.var 59) (.lit 63)))),
    .asg 64 (.bin (.bxor .u64) (.var 58) (.bin (.bxor .u64) (.bin (.shl .u64) (.var 55) (.lit 1)) (.bin (.shr .u64)
      (.var 55) (.lit 63)))),
    .asg 5 (.bin (.bxor .u64) (.var 5) (.var 60)),
    .asg 30 (.var 5),
    .asg 11 (.bin (.bxor .u64) (.var 11) (.var 61)),
    .asg 31 (.bin (.bxor .u64) (.bin (.shl .u64) (.var 11) (.lit 44)) (.bin (.shr .u64) (.var 11) (.lit 20))),
    .asg 17 (.bin (.bxor .u64) (.var 17) (.var 62)),
    .asg 32 (.bin (.bxor .u64) (.bin (.shl .u64) (.var 17) (.lit 43)) (.bin (.shr .u64) (.var 17) (.lit 21))),
    .asg 23 (.bin (.bxor .u64) (.var 23) (.var 63)),
    .asg 33 (.bin (.bxor .u64) (.bin (.shl .u64) (.var 23) (.lit 21)) (.bin (.shr .u64) (.var 23) (.lit 43))),
    .asg 29 (.bin (.bxor .u64) (.var 29) (.var 64)),
    .asg 34 (.bin (.bxor .u64) (.bin (.shl .u64) (.var 29) (.lit 14)) (.bin (.shr .u64) (.var 29) (.lit 50))),
    .asg 65 (.bin (.bxor .u64) (.var 30) (.bin (.band .u64) (.un (.bnot .u64) (.var 31)) (.var 32))),
    .asg 65 (.bin (.bxor .u64) (.var 65) (.ld 8 (.padd (.glob 0) (.lit 22) 8))),
    .asg 55 (.var 65),
    .asg 66 (.bin (.bxor .u64) (.var 31) (.bin (.band .u64) (.un (.bnot .u64) (.var 32)) (.var 33))),
    .asg 56 (.var 66),
    .asg 67 (.bin (.bxor .u64) (.var 32) (.bin (.band .u64) (.un (.bnot .u64) (.var 33)) (.var 34))),
    .asg 57 (.var 67)]

/-- part of `KeccakF1600_FastLoop_Absorb` -/
def KeccakF1600_FastLoop_Absorb.part59 : Stmt :=
  block [
    .asg 68 (.bin (.bxor .u64) (.var 33) (.bin (.band .u64) (.un (.bnot .u64) (.var 34)) (.var 30))),
    .asg 58 (.var 68),
    .asg 69 (.bin (.bxor .u64) (.var 34) (.bin (.band .u64) (.un (.bnot .u64) (.var 30)) (.var 31))),
    .asg 59 (.var 69),
    .asg 8 (.bin (.bxor .u64) (.var 8) (.var 63)),
    .asg 35 (.bin (.bxor .u64) (.bin (.shl .u64) (.var 8) (.lit 28)) (.bin (.shr .u64) (.var 8) (.lit 36))),
    .asg 14 (.bin (.bxor .u64) (.var 14) (.var 64)),
    .asg 36 (.bin (.bxor .u64) (.bin (.shl .u64) (.var 14) (.lit 20)) (.bin (.shr .u64) (.var 14) (.lit 44))),
    .asg 15 (.bin (.bxor .u64) (.var 15) (.var 60)),
    .asg 37 (.bin (.bxor .u64) (.bin (.shl .u64) (.var 15) (.lit 3)) (.bin (.shr .u64) (.var 15) (.lit 61))),
    .asg 21 (.bin (.bxor .u64) (.var 21) (.var 61)),
    .asg 38 (.bin (.bxor .u64) (.bin (.shl .u64) (.var 21) (.lit 45)) (.bin (.shr .u64) (.var 21) (.lit 19))),
    .asg 27 (.bin (.bxor .u64) (.var 27) (.var 62)),
    .asg 39 (.bin (.bxor .u64) (.bin (.shl .u64) (.var 27) (.lit 61)) (.bin (.shr .u64) (.var 27) (.lit 3))),
    .asg 70 (.bin (.bxor .u64) (.var 35) (.bin (.band .u64) (.un (.bnot .u64) (.var 36)) (.var 37))),
    .asg 55 (.bin (.bxor .u64) (.var 55) (.var 70)),
    .asg 71 (.bin (.bxor .u64) (.var 36) (.bin (.band .u64) (.un (.bnot .u64) (.var 37)) (.var 38))),
    .asg 56 (.bin (.bxor .u64) (.var 56) (.var 71)),
    .asg 72 (.bin (.bxor .u64) (.var 37) (.bin (.band .u64) (.un (.bnot .u64) (.var 38)) (.var 39))),
    .asg 57 (.bin (.bxor .u64) (.var 57) (.var 72)),
    .asg 73 (.bin (.bxor .u64) (.var 38) (.bin (.band .u64) (.un (.bnot .u64) (.var 39)) (.var 35))),
    .asg 58 (.bin (.bxor .u64) (.var 58) (.var 73)),
    .asg 74 (.bin (.bxor .u64) (.var 39) (.bin (.band .u64) (.un (.bnot .u64) (.var 35)) (.var 36))),
    .asg 59 (.bin (.bxor .u64) (.var 59) (.var 74)),
    .asg 6 (.bin (.bxor .u64) (.var 6) (.var 61)),
    .asg 40 (.bin (.bxor .u64) (.bin (.shl .u64) (.var 6) (.lit 1)) (.bin (.shr .u64) (.var 6) (.lit 63))),
    .asg 12 (.bin (.bxor .u64) (.var 12) (.var 62)),
    .asg 41 (.bin (.bxor .u64) (.bin (.shl .u64) (.var 12) (.lit 6)) (.bin (.shr .u64) (.var 12) (.lit 58))),
    .asg 18 (.bin (.bxor .u64) (.var 18) (.var 63)),
    .asg 42 (.bin (.bxor .u64) (.bin (.shl .u64) (.var 18) (.lit 25)) (.bin (.shr .u64) (.var 18) (.lit 39))),
    .asg 24 (.bin (.bxor .u64) (.var 24) (.var 64)),
    .asg 43 (.bin (.bxor .u64) (.bin (.shl .u64) (.var 24) (.lit 8)) (.bin (.shr .u64) (.var 24) (.lit 56))),
    .asg 25 (.bin (.bxor .u64) (.var 25) (.var 60)),
    .asg 44 (.bin (.bxor .u64) (.bin (.shl .u64) (.var 25) (.lit 18)) (.bin (.shr .u64) (.var 25) (.lit 46))),
    .asg 75 (.bin (.bxor .u64) (.var 40) (.bin (.band .u64) (.un (.bnot .u64) (.var 41)) (.var 42))),
    .asg 55 (.bin (.bxor .u64) (.var 55) (.var 75)),
    .asg 76 (.bin (.bxor .u64) (.var 41) (.bin (.band .u64) (.un (.bnot .u64) (.var 42)) (.var 43))),
    .asg 56 (.bin (.bxor .u64) (.var 56) (.var 76)),
    .asg 77 (.bin (.bxor .u64) (.var 42) (.bin (.band .u64) (.un (.bnot .u64) (.var 43)) (.var 44))),
    .asg 57 (.bin (.bxor .u64) (.var 57) (.var 77))]

/-- part of `KeccakF1600_FastLoop_Absorb` -/
def KeccakF1600_FastLoop_Absorb.part60 : Stmt :=
  block [
    .asg 78 (.bin (.bxor .u64) (.var 43) (.bin (.band .u64) (.un (.bnot .u64) (.var 44)) (.var 40))),
    .asg 58 (.bin (.bxor .u64) (.var 58) (.var 78)),
    .asg 79 (.bin (.bxor .u64) (.var 44) (.bin (.band .u64) (.un (.bnot .u64) (.var 40)) (.var 41))),
    .asg 59 (.bin (.bxor .u64) (.var 59) (.var 79)),
    .asg 9 (.bin (.bxor .u64) (.var 9) (.var 64)),
    .asg 45 (.bin (.bxor .u64) (.bin (.shl .u64) (.var 9) (.lit 27)) (.bin (.shr .u64) (.var 9) (.lit 37))),
    .asg 10 (.bin (.bxor .u64) (.var 10) (.var 60)),
    .asg 46 (.bin (.bxor .u64) (.bin (.shl .u64) (.var 10) (.lit 36)) (.bin (.shr .u64) (.var 10) (.lit 28))),
    .asg 16 (.bin (.bxor .u64) (.var 16) (.var 61)),
    .asg 47 (.bin (.bxor .u64) (.bin (.shl .u64) (.var 16) (.lit 10)) (.bin (.shr .u64) (.var 16) (.lit 54))),
    .asg 22 (.bin (.bxor .u64) (.var 22) (.var 62)),
    .asg 48 (.bin (.bxor .u64) (.bin (.shl .u64) (.var 22) (.lit 15)) (.bin (.shr .u64) (.var 22) (.lit 49))),
    .asg 28 (.bin (.bxor .u64) (.var 28) (.var 63)),
    .asg 49 (.bin (.bxor .u64) (.bin (.shl .u64) (.var 28) (.lit 56)) (.bin (.shr .u64) (.var 28) (.lit 8))),
    .asg 80 (.bin (.bxor .u64) (.var 45) (.bin (.band .u64) (.un (.bnot .u64) (.var 46)) (.var 47))),
    .asg 55 (.bin (.bxor .u64) (.var 55) (.var 80)),
    .asg 81 (.bin (.bxor .u64) (.var 46) (.bin (.band .u64) (.un (.bnot .u64) (.var 47)) (.var 48))),
    .asg 56 (.bin (.bxor .u64) (.var 56) (.var 81)),
    .asg 82 (.bin (.bxor .u64) (.var 47) (.bin (.band .u64) (.un (.bnot .u64) (.var 48)) (.var 49))),
    .asg 57 (.bin (.bxor .u64) (.var 57) (.var 82)),
    .asg 83 (.bin (.bxor .u64) (.var 48) (.bin (.band .u64) (.un (.bnot .u64) (.var 49)) (.var 45))),
    .asg 58 (.bin (.bxor .u64) (.var 58) (.var 83)),
    .asg 84 (.bin (.bxor .u64) (.var 49) (.bin (.band .u64) (.un (.bnot .u64) (.var 45)) (.var 46))),
    .asg 59 (.bin (.bxor .u64) (.var 59) (.var 84)),
    .asg 7 (.bin (.bxor .u64) (.var 7) (.var 62)),
    .asg 50 (.bin (.bxor .u64) (.bin (.shl .u64) (.var 7) (.lit 62)) (.bin (.shr .u64) (.var 7) (.lit 2))),
    .asg 13 (.bin (.bxor .u64) (.var 13) (.var 63)),
    .asg 51 (.bin (.bxor .u64) (.bin (.shl .u64) (.var 13) (.lit 55)) (.bin (.shr .u64) (.var 13) (.lit 9))),
    .asg 19 (.bin (.bxor .u64) (.var 19) (.var 64)),
    .asg 52 (.bin (.bxor .u64) (.bin (.shl .u64) (.var 19) (.lit 39)) (.bin (.shr .u64) (.var 19) (.lit 25))),
    .asg 20 (.bin (.bxor .u64) (.var 20) (.var 60)),
    .asg 53 (.bin (.bxor .u64) (.bin (.shl .u64) (.var 20) (.lit 41)) (.bin (.shr .u64) (.var 20) (.lit 23))),
    .asg 26 (.bin (.bxor .u64) (.var 26) (.var 61)),
    .asg 54 (.bin (.bxor .u64) (.bin (.shl .u64) (.var 26) (.lit 2)) (.bin (.shr .u64) (.var 26) (.lit 62))),
    .asg 85 (.bin (.bxor .u64) (.var 50) (.bin (.band .u64) (.un (.bnot .u64) (.var 51)) (.var 52))),
    .asg 55 (.bin (.bxor .u64) (.var 55) (.var 85)),
    .asg 86 (.bin (.bxor .u64) (.var 51) (.bin (.band .u64) (.un (.bnot .u64) (.var 52)) (.var 53))),
    .asg 56 (.bin (.bxor .u64) (.var 56) (.var 86)),
    .asg 87 (.bin (.bxor .u64) (.var 52) (.bin (.band .u64) (.un (.bnot .u64) (.var 53)) (.var 54))),
    .asg 57 (.bin (.bxor .u64) (.var 57) (.var 87))]

/-- part of `KeccakF1600_FastLoop_Absorb` -/
def KeccakF1600_FastLoop_Absorb.part61 : Stmt :=
  block [
    .asg 88 (.bin (.bxor .u64) (.var 53) (.bin (.band .u64) (.un (.bnot .u64) (.var 54)) (.var 50))),
    .asg 58 (.bin (.bxor .u64) (.var 58) (.var 88)),
    .asg 89 (.bin (.bxor .u64) (.var 54) (.bin (.band .u64) (.un (.bnot .u64) (.var 50)) (.var 51))),
    .asg 59 (.bin (.bxor .u64) (.var 59) (.var 89)),
    .asg 60 (.bin (.bxor .u64) (.var 59) (.bin (.bxor .u64) (.bin (.shl .u64) (.var 56) (.lit 1)) (.bin (.shr .u64)
      (.var 56) (.lit 63)))),
    .asg 61 (.bin (.bxor .u64) (.var 55) (.bin (.bxor .u64) (.bin (.shl .u64) (.var 57) (.lit 1)) (.bin (.shr .u64)
      (.var 57) (.lit 63)))),
    .asg 62 (.bin (.bxor .u64) (.var 56) (.bin (.bxor .u64) (.bin (.shl .u64) (.var 58) (.lit 1)) (.bin (.shr .u64)
      (.var 58) (.lit 63)))),
    .asg 63 (.bin (.bxor .u64) (.var 57) (.bin (.bxor .u64) (.bin (.shl .u64) (.var 59) (.lit 1)) (.bin (.shr .u64)
      (.var 59) (.lit 63)))),
    .asg 64 (.bin (.bxor .u64) (.var 58) (.bin (.bxor .u64) (.bin (.shl .u64) (.var 55) (.lit 1)) (.bin (.shr .u64)
      (.var 55) (.lit 63)))),
    .asg 65 (.bin (.bxor .u64) (.var 65) (.var 60)),
    .asg 30 (.var 65),
    .asg 71 (.bin (.bxor .u64) (.var 71) (.var 61)),
    .asg 31 (.bin (.bxor .u64) (.bin (.shl .u64) (.var 71) (.lit 44)) (.bin (.shr .u64) (.var 71) (.lit 20))),
    .asg 77 (.bin (.bxor .u64) (.var 77) (.var 62)),
    .asg 32 (.bin (.bxor .u64) (.bin (.shl .u64) (.var 77) (.lit 43)) (.bin (.shr .u64) (.var 77) (.lit 21))),
    .asg 83 (.bin (.bxor .u64) (.var 83) (.var 63)),
    .asg 33 (.bin (.bxor .u64) (.bin (.shl .u64) (.var 83) (.lit 21)) (.bin (.shr .u64) (.var 83) (.lit 43))),
    .asg 89 (.bin (.bxor .u64) (.var 89) (.var 64)),
    .asg 34 (.bin (.bxor .u64) (.bin (.shl .u64) (.var 89) (.lit 14)) (.bin (.shr .u64) (.var 89) (.lit 50))),
    .asg 5 (.bin (.bxor .u64) (.var 30) (.bin (.band .u64) (.un (.bnot .u64) (.var 31)) (.var 32))),
    .asg 5 (.bin (.bxor .u64) (.var 5) (.ld 8 (.padd (.glob 0) (.lit 23) 8))),
    .asg 6 (.bin (.bxor .u64) (.var 31) (.bin (.band .u64) (.un (.bnot .u64) (.var 32)) (.var 33))),
    .asg 7 (.bin (.bxor .u64) (.var 32) (.bin (.band .u64) (.un (.bnot .u64) (.var 33)) (.var 34))),
    .asg 8 (.bin (.bxor .u64) (.var 33) (.bin (.band .u64) (.un (.bnot .u64) (.var 34)) (.var 30))),
    .asg 9 (.bin (.bxor .u64) (.var 34) (.bin (.band .u64) (.un (.bnot .u64) (.var 30)) (.var 31))),
    .asg 68 (.bin (.bxor .u64) (.var 68) (.var 63)),
    .asg 35 (.bin (.bxor .u64) (.bin (.shl .u64) (.var 68) (.lit 28)) (.bin (.shr .u64) (.var 68) (.lit 36))),
    .asg 74 (.bin (.bxor .u64) (.var 74) (.var 64)),
    .asg 36 (.bin (.bxor .u64) (.bin (.shl .u64) (.var 74) (.lit 20)) (.bin (.shr .u64) (.var 74) (.lit 44))),
    .asg 75 (.bin (.bxor .u64) (.var 75) (.var 60)),
    .asg 37 (.bin (.bxor .u64) (.bin (.shl .u64) (.var 75) (.lit 3)) (.bin (.shr .u64) (.var 75) (.lit 61))),
    .asg 81 (.bin (.bxor .u64) (.var 81) (.var 61)),
    .asg 38 (.bin (.bxor .u64) (.bin (.shl .u64) (.var 81) (.lit 45)) (.bin (.shr .u64) (.var 81) (.lit 19))),
    .asg 87 (.bin (.bxor .u64) (.var 87) (.var 62)),
    .asg 39 (.bin (.bxor .u64) (.bin (.shl .u64) (.var 87) (.lit 61)) (.bin (.shr .u64) (.var 87) (.lit 3))),
    .asg 10 (.bin (.bxor .u64) (.var 35) (.bin (.band .u64) (.un (.bnot .u64) (.var 36)) (.var 37))),
    .asg 11 (.bin (.bxor .u64) (.var 36) (.bin (.band .u64) (.un (.bnot .u64) (.var 37)) (.var 38))),
    .asg 12 (.bin (.bxor .u64) (.var 37) (.bin (.band .u64) (.un (.bnot .u64) (.var 38)) (.var 39))),
    .asg 13 (.bin (.bxor .u64) (.var 38) (.bin (.band .u64) (.un (.bnot .u64) (.var 39)) (.var 35))),
    .asg 14 (.bin (.bxor .u64) (.var 39) (.bin (.band .u64) (.un (.bnot .u64) (.var 35)) (.var 36)))]

/-- part of `KeccakF1600_FastLoop_Absorb` -/
def KeccakF1600_FastLoop_Absorb.part62 : Stmt :=
  block [
    .asg 66 (.bin (.bxor .u64) (.var 66) (.var 61)),
    .asg 40 (.bin (.bxor .u64) (.bin (.shl .u64) (.var 66) (.lit 1)) (.bin (.shr .u64) (.var 66) (.lit 63))),
    .asg 72 (.bin (.bxor .u64) (.var 72) (.var 62)),
    .asg 41 (.bin (.bxor .u64) (.bin (.shl .u64) (.var 72) (.lit 6)) (.bin (.shr .u64) (.var 72) (.lit 58))),
    .asg 78 (.bin (.bxor .u64) (.var 78) (.var 63)),
    .asg 42 (.bin (.bxor .u64) (.bin (.shl .u64) (.var 78) (.lit 25)) (.bin (.shr .u64) (.var 78) (.lit 39))),
    .asg 84 (.bin (.bxor .u64) (.var 84) (.var 64)),
    .asg 43 (.bin (.bxor .u64) (.bin (.shl .u64) (.var 84) (.lit 8)) (.bin (.shr .u64) (.var 84) (.lit 56))),
    .asg 85 (.bin (.bxor .u64) (.var 85) (.var 60)),
    .asg 44 (.bin (.bxor .u64) (.bin (.shl .u64) (.var 85) (.lit 18)) (.bin (.shr .u64) (.var 85) (.lit 46))),
    .asg 15 (.bin (.bxor .u64) (.var 40) (.bin (.band .u64) (.un (.bnot .u64) (.var 41)) (.var 42))),
    .asg 16 (.bin (.bxor .u64) (.var 41) (.bin (.band .u64) (.un (.bnot .u64) (.var 42)) (.var 43))),
    .asg 17 (.bin (.bxor .u64) (.var 42) (.bin (.band .u64) (.un (.bnot .u64) (.var 43)) (.var 44))),
    .asg 18 (.bin (.bxor .u64) (.var 43) (.bin (.band .u64) (.un (.bnot .u64) (.var 44)) (.var 40))),
    .asg 19 (.bin (.bxor .u64) (.var 44) (.bin (.band .u64) (.un (.bnot .u64) (.var 40)) (.var 41))),
    .asg 69 (.bin (.bxor .u64) (.var 69) (.var 64)),
    .asg 45 (.bin (.bxor .u64) (.bin (.shl .u64) (.var 69) (.lit 27)) (.bin (.shr .u64) (.var 69) (.lit 37))),
    .asg 70 (.bin (.bxor .u64) (.var 70) (.var 60)),
    .asg 46 (.bin (.bxor .u64) (.bin (.shl .u64) (.var 70) (.lit 36)) (.bin (.shr .u64) (.var 70) (.lit 28))),
    .asg 76 (.bin (.bxor .u64) (.var 76) (.var 61)),
    .asg 47 (.bin (.bxor .u64) (.bin (.shl .u64) (.var 76) (.lit 10)) (.bin (.shr .u64) (.var 76) (.lit 54))),
    .asg 82 (.bin (.bxor .u64) (.var 82) (.var 62)),
    .asg 48 (.bin (.bxor .u64) (.bin (.shl .u64) (.var 82) (.lit 15)) (.bin (.shr .u64) (.var 82) (.lit 49))),
    .asg 88 (.bin (.bxor .u64) (.var 88) (.var 63)),
    .asg 49 (.bin (.bxor .u64) (.bin (.shl .u64) (.var 88) (.lit 56)) (.bin (.shr .u64) (.var 88) (.lit 8))),
    .asg 20 (.bin (.bxor .u64) (.var 45) (.bin (.band .u64) (.un (.bnot .u64) (.var 46)) (.var 47))),
    .asg 21 (.bin (.bxor .u64) (.var 46) (.bin (.band .u64) (.un (.bnot .u64) (.var 47)) (.var 48))),
    .asg 22 (.bin (.bxor .u64) (.var 47) (.bin (.band .u64) (.un (.bnot .u64) (.var 48)) (.var 49))),
    .asg 23 (.bin (.bxor .u64) (.var 48) (.bin (.band .u64) (.un (.bnot .u64) (.var 49)) (.var 45))),
    .asg 24 (.bin (.bxor .u64) (.var 49) (.bin (.band .u64) (.un (.bnot .u64) (.var 45)) (.var 46))),
    .asg 67 (.bin (.bxor .u64) (.var 67) (.var 62)),
    .asg 50 (.bin (.bxor .u64) (.bin (.shl .u64) (.var 67) (.lit 62)) (.bin (.shr .u64) (.var 67) (.lit 2))),
    .asg 73 (.bin (.bxor .u64) (.var 73) (.var 63)),
    .asg 51 (.bin (.bxor .u64) (.bin (.shl .u64) (.var 73) (.lit 55)) (.bin (.shr .u64) (.var 73) (.lit 9))),
    .asg 79 (.bin (.bxor .u64) (.var 79) (.var 64)),
    .asg 52 (.bin (.bxor .u64) (.bin (.shl .u64) (.var 79) (.lit 39)) (.bin (.shr .u64) (.var 79) (.lit 25))),
    .asg 80 (.bin (.bxor .u64) (.var 80) (.var 60)),
    .asg 53 (.bin (.bxor .u64) (.bin (.shl .u64) (.var 80) (.lit 41)) (.bin (.shr .u64) (.var 80) (.lit 23))),
    .asg 86 (.bin (.bxor .u64) (.var 86) (.var 61)),
    .asg 54 (.bin (.bxor .u64) (.bin (.shl .u64) (.var 86) (.lit 2)) (.bin (.shr .u64) (.var 86) (.lit 62)))]

/-- part of `KeccakF1600_FastLoop_Absorb` -/
def KeccakF1600_FastLoop_Absorb.part63 : Stmt :=
  block [
    .asg 25 (.bin (.bxor .u64) (.var 50) (.bin (.band .u64) (.un (.bnot .u64) (.var 51)) (.var 52))),
    .asg 26 (.bin (.bxor .u64) (.var 51) (.bin (.band .u64) (.un (.bnot .u64) (.var 52)) (.var 53))),
    .asg 27 (.bin (.bxor .u64) (.var 52) (.bin (.band .u64) (.un (.bnot .u64) (.var 53)) (.var 54))),
    .asg 28 (.bin (.bxor .u64) (.var 53) (.bin (.band .u64) (.un (.bnot .u64) (.var 54)) (.var 50))),
    .asg 29 (.bin (.bxor .u64) (.var 54) (.bin (.band .u64) (.un (.bnot .u64) (.var 50)) (.var 51))),
    .asg 91 (.padd (.var 91) (.var 1) 8),
    .asg 3 (.bin (.sub .u64) (.var 3) (.bin (.mul .u32) (.var 1) (.lit 8)))]

/-- part of `KeccakF1600_FastLoop_Absorb` -/
def KeccakF1600_FastLoop_Absorb.part64 : Stmt :=
  block [
    .asg 4 (.var 3),
    .asg 90 (.var 0),
    .asg 91 (.var 2),
    .asg 5 (.ld 8 (.var 90)),
    .asg 6 (.ld 8 (.padd (.var 90) (.lit 1) 8)),
    .asg 7 (.ld 8 (.padd (.var 90) (.lit 2) 8)),
    .asg 8 (.ld 8 (.padd (.var 90) (.lit 3) 8)),
    .asg 9 (.ld 8 (.padd (.var 90) (.lit 4) 8)),
    .asg 10 (.ld 8 (.padd (.var 90) (.lit 5) 8)),
    .asg 11 (.ld 8 (.padd (.var 90) (.lit 6) 8)),
    .asg 12 (.ld 8 (.padd (.var 90) (.lit 7) 8)),
    .asg 13 (.ld 8 (.padd (.var 90) (.lit 8) 8)),
    .asg 14 (.ld 8 (.padd (.var 90) (.lit 9) 8)),
    .asg 15 (.ld 8 (.padd (.var 90) (.lit 10) 8)),
    .asg 16 (.ld 8 (.padd (.var 90) (.lit 11) 8)),
    .asg 17 (.ld 8 (.padd (.var 90) (.lit 12) 8)),
    .asg 18 (.ld 8 (.padd (.var 90) (.lit 13) 8)),
    .asg 19 (.ld 8 (.padd (.var 90) (.lit 14) 8)),
    .asg 20 (.ld 8 (.padd (.var 90) (.lit 15) 8)),
    .asg 21 (.ld 8 (.padd (.var 90) (.lit 16) 8)),
    .asg 22 (.ld 8 (.padd (.var 90) (.lit 17) 8)),
    .asg 23 (.ld 8 (.padd (.var 90) (.lit 18) 8)),
    .asg 24 (.ld 8 (.padd (.var 90) (.lit 19) 8)),
    .asg 25 (.ld 8 (.padd (.var 90) (.lit 20) 8)),
    .asg 26 (.ld 8 (.padd (.var 90) (.lit 21) 8)),
    .asg 27 (.ld 8 (.padd (.var 90) (.lit 22) 8)),
    .asg 28 (.ld 8 (.padd (.var 90) (.lit 23) 8)),
    .asg 29 (.ld 8 (.padd (.var 90) (.lit 24) 8)),
    .loop (.bin .ge (.var 3) (.bin (.mul .u32) (.var 1) (.lit 8)))
      (block [
        KeccakF1600_FastLoop_Absorb.part0,
        KeccakF1600_FastLoop_Absorb.part1,
        KeccakF1600_FastLoop_Absorb.part2,
        KeccakF1600_FastLoop_Absorb.part3,
        KeccakF1600_FastLoop_Absorb.part4,
        KeccakF1600_FastLoop_Absorb.part5,
        KeccakF1600_FastLoop_Absorb.part6,
        KeccakF1600_FastLoop_Absorb.part7,
        KeccakF1600_FastLoop_Absorb.part8,
        KeccakF1600_FastLoop_Absorb.part9,
        KeccakF1600_FastLoop_Absorb.part10,
        KeccakF1600_FastLoop_Absorb.part11,
        KeccakF1600_FastLoop_Absorb.part12,
        KeccakF1600_FastLoop_Absorb.part13,
        KeccakF1600_FastLoop_Absorb.part14,
        KeccakF1600_FastLoop_Absorb.part15,
        KeccakF1600_FastLoop_Absorb.part16,
        KeccakF1600_FastLoop_Absorb.part17,
        KeccakF1600_FastLoop_Absorb.part18,
        KeccakF1600_FastLoop_Absorb.part19,
        KeccakF1600_FastLoop_Absorb.part20,
        KeccakF1600_FastLoop_Absorb.part21,
        KeccakF1600_FastLoop_Absorb.part22,
        KeccakF1600_FastLoop_Absorb.part23,
        KeccakF1600_FastLoop_Absorb.part24,
        KeccakF1600_FastLoop_Absorb.part25,
        KeccakF1600_FastLoop_Absorb.part26,
        KeccakF1600_FastLoop_Absorb.part27,
        KeccakF1600_FastLoop_Absorb.part28,
        KeccakF1600_FastLoop_Absorb.part29,
        KeccakF1600_FastLoop_Absorb.part30,
        KeccakF1600_FastLoop_Absorb.part31,
        KeccakF1600_FastLoop_Absorb.part32,
        KeccakF1600_FastLoop_Absorb.part33,
        KeccakF1600_FastLoop_Absorb.part34,
        KeccakF1600_FastLoop_Absorb.part35,
        KeccakF1600_FastLoop_Absorb.part36,
        KeccakF1600_FastLoop_Absorb.part37,
        KeccakF1600_FastLoop_Absorb.part38,
        KeccakF1600_FastLoop_Absorb.part39,
        KeccakF1600_FastLoop_Absorb.part40,
        KeccakF1600_FastLoop_Absorb.part41,
        KeccakF1600_FastLoop_Absorb.part42,
        KeccakF1600_FastLoop_Absorb.part43,
        KeccakF1600_FastLoop_Absorb.part44,
        KeccakF1600_FastLoop_Absorb.part45,
        KeccakF1600_FastLoop_Absorb.part46,
        KeccakF1600_FastLoop_Absorb.part47,
        KeccakF1600_FastLoop_Absorb.part48,
        KeccakF1600_FastLoop_Absorb.part49,
        KeccakF1600_FastLoop_Absorb.part50,
        KeccakF1600_FastLoop_Absorb.part51,
        KeccakF1600_FastLoop_Absorb.part52,
        KeccakF1600_FastLoop_Absorb.part53,
        KeccakF1600_FastLoop_Absorb.part54,
        KeccakF1600_FastLoop_Absorb.part55,
        KeccakF1600_FastLoop_Absorb.part56,
        KeccakF1600_FastLoop_Absorb.part57,
        KeccakF1600_FastLoop_Absorb.part58,
        KeccakF1600_FastLoop_Absorb.part59,
        KeccakF1600_FastLoop_Absorb.part60,
        KeccakF1600_FastLoop_Absorb.part61,
        KeccakF1600_FastLoop_Absorb.part62,
        KeccakF1600_FastLoop_Absorb.part63])
      (.skip),
    .st 8 (.var 90) (.var 5),
    .st 8 (.padd (.var 90) (.lit 1) 8) (.var 6),
    .st 8 (.padd (.var 90) (.lit 2) 8) (.var 7),
    .st 8 (.padd (.var 90) (.lit 3) 8) (.var 8),
    .st 8 (.padd (.var 90) (.lit 4) 8) (.var 9),
    .st 8 (.padd (.var 90) (.lit 5) 8) (.var 10),
    .st 8 (.padd (.var 90) (.lit 6) 8) (.var 11),
    .st 8 (.padd (.var 90) (.lit 7) 8) (.var 12),
    .st 8 (.padd (.var 90) (.lit 8) 8) (.var 13),
    .st 8 (.padd (.var 90) (.lit 9) 8) (.var 14),
    .st 8 (.padd (.var 90) (.lit 10) 8) (.var 15)]

/-- part of `KeccakF1600_FastLoop_Absorb` -/
def KeccakF1600_FastLoop_Absorb.part65 : Stmt :=
  block [
    .st 8 (.padd (.var 90) (.lit 11) 8) (.var 16),
    .st 8 (.padd (.var 90) (.lit 12) 8) (.var 17),
    .st 8 (.padd (.var 90) (.lit 13) 8) (.var 18),
    .st 8 (.padd (.var 90) (.lit 14) 8) (.var 19),
    .st 8 (.padd (.var 90) (.lit 15) 8) (.var 20),
    .st 8 (.padd (.var 90) (.lit 16) 8) (.var 21),
    .st 8 (.padd (.var 90) (.lit 17) 8) (.var 22),
    .st 8 (.padd (.var 90) (.lit 18) 8) (.var 23),
    .st 8 (.padd (.var 90) (.lit 19) 8) (.var 24),
    .st 8 (.padd (.var 90) (.lit 20) 8) (.var 25),
    .st 8 (.padd (.var 90) (.lit 21) 8) (.var 26),
    .st 8 (.padd (.var 90) (.lit 22) 8) (.var 27),
    .st 8 (.padd (.var 90) (.lit 23) 8) (.var 28),
    .st 8 (.padd (.var 90) (.lit 24) 8) (.var 29),
    .ret (.bin (.sub .u64) (.var 4) (.var 3))]

/-- `KeccakF1600_FastLoop_Absorb`, sha3/opt64/KeccakP-1600-opt64.c:523-542; variables: 0 state, 1 laneCount, 2 data,
  3 dataByteLen, 4 originalDataByteLen, 5 Aba, 6 Abe, 7 Abi, 8 Abo, 9 Abu, 10 Aga, 11 Age, 12 Agi, 13 Ago, 14 Agu, 15
  Aka, 16 Ake, 17 Aki, 18 Ako, 19 Aku, 20 Ama, 21 Ame, 22 Ami, 23 Amo, 24 Amu, 25 Asa, 26 Ase, 27 Asi, 28 Aso, 29
  Asu, 30 Bba, 31 Bbe, 32 Bbi, 33 Bbo, 34 Bbu, 35 Bga, 36 Bge, 37 Bgi, 38 Bgo, 39 Bgu, 40 Bka, 41 Bke, 42 Bki, 43
  Bko, 44 Bku, 45 Bma, 46 Bme, 47 Bmi, 48 Bmo, 49 Bmu, 50 Bsa, 51 Bse, 52 Bsi, 53 Bso, 54 Bsu, 55 Ca, 56 Ce, 57 Ci,
  58 Co, 59 Cu, 60 Da, 61 De, 62 Di, 63 Do, 64 Du, 65 Eba, 66 Ebe, 67 Ebi, 68 Ebo, 69 Ebu, 70 Ega, 71 Ege, 72 Egi, 73
  Ego, 74 Egu, 75 Eka, 76 Eke, 77 Eki, 78 Eko, 79 Eku, 80 Ema, 81 Eme, 82 Emi, 83 Emo, 84 Emu, 85 Esa, 86 Ese, 87
  Esi, 88 Eso, 89 Esu, 90 stateAsLanes, 91 inDataAsLanes -/
def KeccakF1600_FastLoop_Absorb : Fn := ⟨4,
  block [
    KeccakF1600_FastLoop_Absorb.part64,
    KeccakF1600_FastLoop_Absorb.part65]⟩

/-- `KeccakP1600_AddLanes`, sha3/opt64/KeccakP-1600-opt64.c:124-178; variables: 0 state, 1 data, 2 laneCount, 3 i -/
def KeccakP1600_AddLanes : Fn := ⟨3,
  block [
    .asg 3 (.lit 0),
    .loop (.bin .le (.bin (.add .u32) (.var 3) (.lit 8)) (.var 2))
      (block [
        .st 8 (.padd (.var 0) (.bin (.add .u32) (.var 3) (.lit 0)) 8) (.bin (.bxor .u64) (.ld 8 (.padd (.var 0) (.bin
          (.add .u32) (.var 3) (.lit 0)) 8)) (.ld 8 (.padd (.var 1) (.bin (.add .u32) (.var 3) (.lit 0)) 8))),
        .st 8 (.padd (.var 0) (.bin (.add .u32) (.var 3) (.lit 1)) 8) (.bin (.bxor .u64) (.ld 8 (.padd (.var 0) (.bin
          (.add .u32) (.var 3) (.lit 1)) 8)) (.ld 8 (.padd (.var 1) (.bin (.add .u32) (.var 3) (.lit 1)) 8))),
        .st 8 (.padd (.var 0) (.bin (.add .u32) (.var 3) (.lit 2)) 8) (.bin (.bxor .u64) (.ld 8 (.padd (.var 0) (.bin
          (.add .u32) (.var 3) (.lit 2)) 8)) (.ld 8 (.padd (.var 1) (.bin (.add .u32) (.var 3) (.lit 2)) 8))),
        .st 8 (.padd (.var 0) (.bin (.add .u32) (.var 3) (.lit 3)) 8) (.bin (.bxor .u64) (.ld 8 (.padd (.var 0) (.bin
          (.add .u32) (.var 3) (.lit 3)) 8)) (.ld 8 (.padd (.var 1) (.bin (.add .u32) (.var 3) (.lit 3)) 8))),
        .st 8 (.padd (.var 0) (.bin (.add .u32) (.var 3) (.lit 4)) 8) (.bin (.bxor .u64) (.ld 8 (.padd (.var 0) (.bin
          (.add .u32) (.var 3) (.lit 4)) 8)) (.ld 8 (.padd (.var 1) (.bin (.add .u32) (.var 3) (.lit 4)) 8))),
        .st 8 (.padd (.var 0) (.bin (.add .u32) (.var 3) (.lit 5)) 8) (.bin (.bxor .u64) (.ld 8 (.padd (.var 0) (.bin
          (.add .u32) (.var 3) (.lit 5)) 8)) (.ld 8 (.padd (.var 1) (.bin (.add .u32) (.var 3) (.lit 5)) 8))),
        .st 8 (.padd (.var 0) (.bin (.add .u32) (.var 3) (.lit 6)) 8) (.bin (.bxor .u64) (.ld 8 (.padd (.var 0) (.bin
          (.add .u32) (.var 3) (.lit 6)) 8)) (.ld 8 (.padd (.var 1) (.bin (.add .u32) (.var 3) (.lit 6)) 8))),
        .st 8 (.padd (.var 0) (.bin (.add .u32) (.var 3) (.lit 7)) 8) (.bin (.bxor .u64) (.ld 8 (.padd (.var 0) (.bin
          (.add .u32) (.var 3) (.lit 7)) 8)) (.ld 8 (.padd (.var 1) (.bin (.add .u32) (.var 3) (.lit 7)) 8)))])
      (.asg 3 (.bin (.add .u32) (.var 3) (.lit 8))),
    .loop (.bin .le (.bin (.add .u32) (.var 3) (.lit 4)) (.var 2))
      (block [
        .st 8 (.padd (.var 0) (.bin (.add .u32) (.var 3) (.lit 0)) 8) (.bin (.bxor .u64) (.ld 8 (.padd (.var 0) (.bin
          (.add .u32) (.var 3) (.lit 0)) 8)) (.ld 8 (.padd (.var 1) (.bin (.add .u32) (.var 3) (.lit 0)) 8))),
        .st 8 (.padd (.var 0) (.bin (.add .u32) (.var 3) (.lit 1)) 8) (.bin (.bxor .u64) (.ld 8 (.padd (.var 0) (.bin
          (.add .u32) (.var 3) (.lit 1)) 8)) (.ld 8 (.padd (.var 1) (.bin (.add .u32) (.var 3) (.lit 1)) 8))),
        .st 8 (.padd (.var 0) (.bin (.add .u32) (.var 3) (.lit 2)) 8) (.bin (.bxor .u64) (.ld 8 (.padd (.var 0) (.bin
          (.add .u32) (.var 3) (.lit 2)) 8)) (.ld 8 (.padd (.var 1) (.bin (.add .u32) (.var 3) (.lit 2)) 8))),
        .st 8 (.padd (.var 0) (.bin (.add .u32) (.var 3) (.lit 3)) 8) (.bin (.bxor .u64) (.ld 8 (.padd (.var 0) (.bin
          (.add .u32) (.var 3) (.lit 3)) 8)) (.ld 8 (.padd (.var 1) (.bin (.add .u32) (.var 3) (.lit 3)) 8)))])
      (.asg 3 (.bin (.add .u32) (.var 3) (.lit 4))),
    .loop (.bin .le (.bin (.add .u32) (.var 3) (.lit 2)) (.var 2))
      (block [
        .st 8 (.padd (.var 0) (.bin (.add .u32) (.var 3) (.lit 0)) 8) (.bin (.bxor .u64) (.ld 8 (.padd (.var 0) (.bin
          (.add .u32) (.var 3) (.lit 0)) 8)) (.ld 8 (.padd (.var 1) (.bin (.add .u32) (.var 3) (.lit 0)) 8))),
        .st 8 (.padd (.var 0) (.bin (.add .u32) (.var 3) (.lit 1)) 8) (.bin (.bxor .u64) (.ld 8 (.padd (.var 0) (.bin
          (.add .u32) (.var 3) (.lit 1)) 8)) (.ld 8 (.padd (.var 1) (.bin (.add .u32) (.var 3) (.lit 1)) 8)))])
      (.asg 3 (.bin (.add .u32) (.var 3) (.lit 2))),
    .ite (.bin .lt (.var 3) (.var 2))
      (.st 8 (.padd (.var 0) (.bin (.add .u32) (.var 3) (.lit 0)) 8) (.bin (.bxor .u64) (.ld 8 (.padd (.var 0) (.bin
        (.add .u32) (.var 3) (.lit 0)) 8)) (.ld 8 (.padd (.var 1) (.bin (.add .u32) (.var 3) (.lit 0)) 8))))
      (.skip)]⟩

/-- `KeccakP1600_AddBytesInLane`, sha3/opt64/KeccakP-1600-opt64.c:100-120; variables: 0 state, 1 lanePosition, 2
  data, 3 offset, 4 length, 5 lane -/
def KeccakP1600_AddBytesInLane : Fn := ⟨5,
  block [
    .new 5 (.lit 8),
    .ite (.bin .eq (.var 4) (.lit 0))
      (.ret (.lit 0))
      (.skip),
    .ite (.bin .eq (.var 4) (.lit 1))
      (.st 8 (.var 5) (.ld 1 (.var 2)))
      (block [
        .st 8 (.var 5) (.lit 0),
        .call (some 6) Id.memcpy [.var 5, .var 2, .var 4]]),
    .st 8 (.var 5) (.bin (.shl .u64) (.ld 8 (.var 5)) (.bin (.mul .u32) (.var 3) (.lit 8))),
    .st 8 (.padd (.var 0) (.var 1) 8) (.bin (.bxor .u64) (.ld 8 (.padd (.var 0) (.var 1) 8)) (.ld 8 (.var 5)))]⟩

/-- `KeccakP1600_AddBytes`, sha3/opt64/KeccakP-1600-opt64.c:193-196; variables: 0 state, 1 data, 2 offset, 3 length,
  4 _sizeLeft, 5 _lanePosition, 6 _offsetInLane, 7 _curData, 8 _bytesInLane -/
def KeccakP1600_AddBytes : Fn := ⟨4,
  .ite (.bin .eq (.var 2) (.lit 0))
      (block [
        .call none Id.KeccakP1600_AddLanes [.var 0, .var 1, .div (.div .u32) (.var 3) (.lit 8)],
        .call none Id.KeccakP1600_AddBytesInLane [.var 0, .div (.div .u32) (.var 3) (.lit 8), .padd (.var 1) (.bin
          (.mul .u32) (.div (.div .u32) (.var 3) (.lit 8)) (.lit 8)) 1, .lit 0, .div (.mod .u32) (.var 3) (.lit 8)]])
      (block [
        .asg 4 (.var 3),
        .asg 5 (.div (.div .u32) (.var 2) (.lit 8)),
        .asg 6 (.div (.mod .u32) (.var 2) (.lit 8)),
        .asg 7 (.var 1),
        .loop (.bin .gt (.var 4) (.lit 0))
          (block [
            .asg 8 (.bin (.sub .u32) (.lit 8) (.var 6)),
            .ite (.bin .gt (.var 8) (.var 4))
              (.asg 8 (.var 4))
              (.skip),
            .call none Id.KeccakP1600_AddBytesInLane [.var 0, .var 5, .var 7, .var 6, .var 8],
            .asg 4 (.bin (.sub .u32) (.var 4) (.var 8)),
            .asg 5 (.bin (.add .u32) (.var 5) (.lit 1)),
            .asg 6 (.lit 0),
            .asg 7 (.padd (.var 7) (.var 8) 1)])
          (.skip)])⟩

/-- part of `KeccakP1600_Permute_24rounds` -/
def KeccakP1600_Permute_24rounds.part0 : Stmt :=
  block [
    .asg 86 (.var 0),
    .asg 1 (.ld 8 (.var 86)),
    .asg 2 (.ld 8 (.padd (.var 86) (.lit 1) 8)),
    .asg 3 (.ld 8 (.padd (.var 86) (.lit 2) 8)),
    .asg 4 (.ld 8 (.padd (.var 86) (.lit 3) 8)),
    .asg 5 (.ld 8 (.padd (.var 86) (.lit 4) 8)),
    .asg 6 (.ld 8 (.padd (.var 86) (.lit 5) 8)),
    .asg 7 (.ld 8 (.padd (.var 86) (.lit 6) 8)),
    .asg 8 (.ld 8 (.padd (.var 86) (.lit 7) 8)),
    .asg 9 (.ld 8 (.padd (.var 86) (.lit 8) 8)),
    .asg 10 (.ld 8 (.padd (.var 86) (.lit 9) 8)),
    .asg 11 (.ld 8 (.padd (.var 86) (.lit 10) 8)),
    .asg 12 (.ld 8 (.padd (.var 86) (.lit 11) 8)),
    .asg 13 (.ld 8 (.padd (.var 86) (.lit 12) 8)),
    .asg 14 (.ld 8 (.padd (.var 86) (.lit 13) 8)),
    .asg 15 (.ld 8 (.padd (.var 86) (.lit 14) 8)),
    .asg 16 (.ld 8 (.padd (.var 86) (.lit 15) 8)),
    .asg 17 (.ld 8 (.padd (.var 86) (.lit 16) 8)),
    .asg 18 (.ld 8 (.padd (.var 86) (.lit 17) 8)),
    .asg 19 (.ld 8 (.padd (.var 86) (.lit 18) 8)),
    .asg 20 (.ld 8 (.padd (.var 86) (.lit 19) 8)),
    .asg 21 (.ld 8 (.padd (.var 86) (.lit 20) 8)),
    .asg 22 (.ld 8 (.padd (.var 86) (.lit 21) 8)),
    .asg 23 (.ld 8 (.padd (.var 86) (.lit 22) 8)),
    .asg 24 (.ld 8 (.padd (.var 86) (.lit 23) 8)),
    .asg 25 (.ld 8 (.padd (.var 86) (.lit 24) 8)),
    .asg 51 (.bin (.bxor .u64) (.bin (.bxor .u64) (.bin (.bxor .u64) (.bin (.bxor .u64) (.var 1) (.var 6)) (.var 11))
      (.var 16)) (.var 21)),
    .asg 52 (.bin (.bxor .u64) (.bin (.bxor .u64) (.bin (.bxor .u64) (.bin (.bxor .u64) (.var 2) (.var 7)) (.var 12))
      (.var 17)) (.var 22)),
    .asg 53 (.bin (.bxor .u64) (.bin (.bxor .u64) (.bin (.bxor .u64) (.bin (.bxor .u64) (.var 3) (.var 8)) (.var 13))
      (.var 18)) (.var 23)),
    .asg 54 (.bin (.bxor .u64) (.bin (.bxor .u64) (.bin (.bxor .u64) (.bin (.bxor .u64) (.var 4) (.var 9)) (.var 14))
      (.var 19)) (.var 24)),
    .asg 55 (.bin (.bxor .u64) (.bin (.bxor .u64) (.bin (.bxor .u64) (.bin (.bxor .u64) (.var 5) (.var 10)) (.var
      15)) (.var 20)) (.var 25)),
    .asg 56 (.bin (.bxor .u64) (.var 55) (.bin (.bxor .u64) (.bin (.shl .u64) (.var 52) (.lit 1)) (.bin (.shr .u64)
      (.var 52) (.lit 63)))),
    .asg 57 (.bin (.bxor .u64) (.var 51) (.bin (.bxor .u64) (.bin (.shl .u64) (.var 53) (.lit 1)) (.bin (.shr .u64)
      (.var 53) (.lit 63)))),
    .asg 58 (.bin (.bxor .u64) (.var 52) (.bin (.bxor .u64) (.bin (.shl .u64) (.var 54) (.lit 1)) (.bin (.shr .u64)
      (.var 54) (.lit 63)))),
    .asg 59 (.bin (.bxor .u64) (.var 53) (.bin (.bxor .u64) (.bin (.shl .u64) (.var 55) (.lit 1)) (.bin (.shr .u64)
      (.var 55) (.lit 63)))),
    .asg 60 (.bin (.bxor .u64) (.var 54) (.bin (.bxor .u64) (.bin (.shl .u64) (.var 51) (.lit 1)) (.bin (.shr .u64)
      (.var 51) (.lit 63)))),
    .asg 1 (.bin (.bxor .u64) (.var 1) (.var 56)),
    .asg 26 (.var 1),
    .asg 7 (.bin (.bxor .u64) (.var 7) (.var 57)),
    .asg 27 (.bin (.bxor .u64) (.bin (.shl .u64) (.var 7) (.lit 44)) (.bin (.shr .u64) (.var 7) (.lit 20)))]

/-- part of `KeccakP1600_Permute_24rounds` -/
def KeccakP1600_Permute_24rounds.part1 : Stmt :=
  block [
    .asg 13 (.bin (.bxor .u64) (.var 13) (.var 58)),
    .asg 28 (.bin (.bxor .u64) (.bin (.shl .u64) (.var 13) (.lit 43)) (.bin (.shr .u64) (.var 13) (.lit 21))),
    .asg 19 (.bin (.bxor .u64) (.var 19) (.var 59)),
    .asg 29 (.bin (.bxor .u64) (.bin (.shl .u64) (.var 19) (.lit 21)) (.bin (.shr .u64) (.var 19) (.lit 43))),
    .asg 25 (.bin (.bxor .u64) (.var 25) (.var 60)),
    .asg 30 (.bin (.bxor .u64) (.bin (.shl .u64) (.var 25) (.lit 14)) (.bin (.shr .u64) (.var 25) (.lit 50))),
    .asg 61 (.bin (.bxor .u64) (.var 26) (.bin (.band .u64) (.un (.bnot .u64) (.var 27)) (.var 28))),
    .asg 61 (.bin (.bxor .u64) (.var 61) (.ld 8 (.glob 0))),
    .asg 51 (.var 61),
    .asg 62 (.bin (.bxor .u64) (.var 27) (.bin (.band .u64) (.un (.bnot .u64) (.var 28)) (.var 29))),
    .asg 52 (.var 62),
    .asg 63 (.bin (.bxor .u64) (.var 28) (.bin (.band .u64) (.un (.bnot .u64) (.var 29)) (.var 30))),
    .asg 53 (.var 63),
    .asg 64 (.bin (.bxor .u64) (.var 29) (.bin (.band .u64) (.un (.bnot .u64) (.var 30)) (.var 26))),
    .asg 54 (.var 64),
    .asg 65 (.bin (.bxor .u64) (.var 30) (.bin (.band .u64) (.un (.bnot .u64) (.var 26)) (.var 27))),
    .asg 55 (.var 65),
    .asg 4 (.bin (.bxor .u64) (.var 4) (.var 59)),
    .asg 31 (.bin (.bxor .u64) (.bin (.shl .u64) (.var 4) (.lit 28)) (.bin (.shr .u64) (.var 4) (.lit 36))),
    .asg 10 (.bin (.bxor .u64) (.var 10) (.var 60)),
    .asg 32 (.bin (.bxor .u64) (.bin (.shl .u64) (.var 10) (.lit 20)) (.bin (.shr .u64) (.var 10) (.lit 44))),
    .asg 11 (.bin (.bxor .u64) (.var 11) (.var 56)),
    .asg 33 (.bin (.bxor .u64) (.bin (.shl .u64) (.var 11) (.lit 3)) (.bin (.shr .u64) (.var 11) (.lit 61))),
    .asg 17 (.bin (.bxor .u64) (.var 17) (.var 57)),
    .asg 34 (.bin (.bxor .u64) (.bin (.shl .u64) (.var 17) (.lit 45)) (.bin (.shr .u64) (.var 17) (.lit 19))),
    .asg 23 (.bin (.bxor .u64) (.var 23) (.var 58)),
    .asg 35 (.bin (.bxor .u64) (.bin (.shl .u64) (.var 23) (.lit 61)) (.bin (.shr .u64) (.var 23) (.lit 3))),
    .asg 66 (.bin (.bxor .u64) (.var 31) (.bin (.band .u64) (.un (.bnot .u64) (.var 32)) (.var 33))),
    .asg 51 (.bin (.bxor .u64) (.var 51) (.var 66)),
    .asg 67 (.bin (.bxor .u64) (.var 32) (.bin (.band .u64) (.un (.bnot .u64) (.var 33)) (.var 34))),
    .asg 52 (.bin (.bxor .u64) (.var 52) (.var 67)),
    .asg 68 (.bin (.bxor .u64) (.var 33) (.bin (.band .u64) (.un (.bnot .u64) (.var 34)) (.var 35))),
    .asg 53 (.bin (.bxor .u64) (.var 53) (.var 68)),
    .asg 69 (.bin (.bxor .u64) (.var 34) (.bin (.band .u64) (.un (.bnot .u64) (.var 35)) (.var 31))),
    .asg 54 (.bin (.bxor .u64) (.var 54) (.var 69)),
    .asg 70 (.bin (.bxor .u64) (.var 35) (.bin (.band .u64) (.un (.bnot .u64) (.var 31)) (.var 32))),
    .asg 55 (.bin (.bxor .u64) (.var 55) (.var 70)),
    .asg 2 (.bin (.bxor .u64) (.var 2) (.var 57)),
    .asg 36 (.bin (.bxor .u64) (.bin (.shl .u64) (.var 2) (.lit 1)) (.bin (.shr .u64) (.var 2) (.lit 63))),
    .asg 8 (.bin (.bxor .u64) (.var 8) (.var 58))]

/-- part of `KeccakP1600_Permute_24rounds` -/
def KeccakP1600_Permute_24rounds.part2 : Stmt :=
  block [
    .asg 37 (.bin (.bxor .u64) (.bin (.shl .u64) (.var 8) (.lit 6)) (.bin (.shr .u64) (.var 8) (.lit 58))),
    .asg 14 (.bin (.bxor .u64) (.var 14) (.var 59)),
    .asg 38 (.bin (.bxor .u64) (.bin (.shl .u64) (.var 14) (.lit 25)) (.bin (.shr .u64) (.var 14) (.lit 39))),
    .asg 20 (.bin (.bxor .u64) (.var 20) (.var 60)),
    .asg 39 (.bin (.bxor .u64) (.bin (.shl .u64) (.var 20) (.lit 8)) (.bin (.shr .u64) (.var 20) (.lit 56))),
    .asg 21 (.bin (.bxor .u64) (.var 21) (.var 56)),
    .asg 40 (.bin (.bxor .u64) (.bin (.shl .u64) (.var 21) (.lit 18)) (.bin (.shr .u64) (.var 21) (.lit 46))),
    .asg 71 (.bin (.bxor .u64) (.var 36) (.bin (.band .u64) (.un (.bnot .u64) (.var 37)) (.var 38))),
    .asg 51 (.bin (.bxor .u64) (.var 51) (.var 71)),
    .asg 72 (.bin (.bxor .u64) (.var 37) (.bin (.band .u64) (.un (.bnot .u64) (.var 38)) (.var 39))),
    .asg 52 (.bin (.bxor .u64) (.var 52) (.var 72)),
    .asg 73 (.bin (.bxor .u64) (.var 38) (.bin (.band .u64) (.un (.bnot .u64) (.var 39)) (.var 40))),
    .asg 53 (.bin (.bxor .u64) (.var 53) (.var 73)),
    .asg 74 (.bin (.bxor .u64) (.var 39) (.bin (.band .u64) (.un (.bnot .u64) (.var 40)) (.var 36))),
    .asg 54 (.bin (.bxor .u64) (.var 54) (.var 74)),
    .asg 75 (.bin (.bxor .u64) (.var 40) (.bin (.band .u64) (.un (.bnot .u64) (.var 36)) (.var 37))),
    .asg 55 (.bin (.bxor .u64) (.var 55) (.var 75)),
    .asg 5 (.bin (.bxor .u64) (.var 5) (.var 60)),
    .asg 41 (.bin (.bxor .u64) (.bin (.shl .u64) (.var 5) (.lit 27)) (.bin (.shr .u64) (.var 5) (.lit 37))),
    .asg 6 (.bin (.bxor .u64) (.var 6) (.var 56)),
    .asg 42 (.bin (.bxor .u64) (.bin (.shl .u64) (.var 6) (.lit 36)) (.bin (.shr .u64) (.var 6) (.lit 28))),
    .asg 12 (.bin (.bxor .u64) (.var 12) (.var 57)),
    .asg 43 (.bin (.bxor .u64) (.bin (.shl .u64) (.var 12) (.lit 10)) (.bin (.shr .u64) (.var 12) (.lit 54))),
    .asg 18 (.bin (.bxor .u64) (.var 18) (.var 58)),
    .asg 44 (.bin (.bxor .u64) (.bin (.shl .u64) (.var 18) (.lit 15)) (.bin (.shr .u64) (.var 18) (.lit 49))),
    .asg 24 (.bin (.bxor .u64) (.var 24) (.var 59)),
    .asg 45 (.bin (.bxor .u64) (.bin (.shl .u64) (.var 24) (.lit 56)) (.bin (.shr .u64) (.var 24) (.lit 8))),
    .asg 76 (.bin (.bxor .u64) (.var 41) (.bin (.band .u64) (.un (.bnot .u64) (.var 42)) (.var 43))),
    .asg 51 (.bin (.bxor .u64) (.var 51) (.var 76)),
    .asg 77 (.bin (.bxor .u64) (.var 42) (.bin (.band .u64) (.un (.bnot .u64) (.var 43)) (.var 44))),
    .asg 52 (.bin (.bxor .u64) (.var 52) (.var 77)),
    .asg 78 (.bin (.bxor .u64) (.var 43) (.bin (.band .u64) (.un (.bnot .u64) (.var 44)) (.var 45))),
    .asg 53 (.bin (.bxor .u64) (.var 53) (.var 78)),
    .asg 79 (.bin (.bxor .u64) (.var 44) (.bin (.band .u64) (.un (.bnot .u64) (.var 45)) (.var 41))),
    .asg 54 (.bin (.bxor .u64) (.var 54) (.var 79)),
    .asg 80 (.bin (.bxor .u64) (.var 45) (.bin (.band .u64) (.un (.bnot .u64) (.var 41)) (.var 42))),
    .asg 55 (.bin (.bxor .u64) (.var 55) (.var 80)),
    .asg 3 (.bin (.bxor .u64) (.var 3) (.var 58)),
    .asg 46 (.bin (.bxor .u64) (.bin (.shl .u64) (.var 3) (.lit 62)) (.bin (.shr .u64) (.var 3) (.lit 2))),
    .asg 9 (.bin (.bxor .u64) (.var 9) (.var 59))]

/-- part of `KeccakP1600_Permute_24rounds` -/
def KeccakP1600_Permute_24rounds.part3 : Stmt :=
  block [
    .asg 47 (.bin (.bxor .u64) (.bin (.shl .u64) (.var 9) (.lit 55)) (.bin (.shr .u64) (.var 9) (.lit 9))),
    .asg 15 (.bin (.bxor .u64) (.var 15) (.var 60)),
    .asg 48 (.bin (.bxor .u64) (.bin (.shl .u64) (.var 15) (.lit 39)) (.bin (.shr .u64) (.var 15) (.lit 25))),
    .asg 16 (.bin (.bxor .u64) (.var 16) (.var 56)),
    .asg 49 (.bin (.bxor .u64) (.bin (.shl .u64) (.var 16) (.lit 41)) (.bin (.shr .u64) (.var 16) (.lit 23))),
    .asg 22 (.bin (.bxor .u64) (.var 22) (.var 57)),
    .asg 50 (.bin (.bxor .u64) (.bin (.shl .u64) (.var 22) (.lit 2)) (.bin (.shr .u64) (.var 22) (.lit 62))),
    .asg 81 (.bin (.bxor .u64) (.var 46) (.bin (.band .u64) (.un (.bnot .u64) (.var 47)) (.var 48))),
    .asg 51 (.bin (.bxor .u64) (.var 51) (.var 81)),
    .asg 82 (.bin (.bxor .u64) (.var 47) (.bin (.band .u64) (.un (.bnot .u64) (.var 48)) (.var 49))),
    .asg 52 (.bin (.bxor .u64) (.var 52) (.var 82)),
    .asg 83 (.bin (.bxor .u64) (.var 48) (.bin (.band .u64) (.un (.bnot .u64) (.var 49)) (.var 50))),
    .asg 53 (.bin (.bxor .u64) (.var 53) (.var 83)),
    .asg 84 (.bin (.bxor .u64) (.var 49) (.bin (.band .u64) (.un (.bnot .u64) (.var 50)) (.var 46))),
    .asg 54 (.bin (.bxor .u64) (.var 54) (.var 84)),
    .asg 85 (.bin (.bxor .u64) (.var 50) (.bin (.band .u64) (.un (.bnot .u64) (.var 46)) (.var 47))),
    .asg 55 (.bin (.bxor .u64) (.var 55) (.var 85)),
    .asg 56 (.bin (.bxor .u64) (.var 55) (.bin (.bxor .u64) (.bin (.shl .u64) (.var 52) (.lit 1)) (.bin (.shr .u64)
      (.var 52) (.lit 63)))),
    .asg 57 (.bin (.bxor .u64) (.var 51) (.bin (.bxor .u64) (.bin (.shl .u64) (.var 53) (.lit 1)) (.bin (.shr .u64)
      (.var 53) (.lit 63)))),
    .asg 58 (.bin (.bxor .u64) (.var 52) (.bin (.bxor .u64) (.bin (.shl .u64) (.var 54) (.lit 1)) (.bin (.shr .u64)
      (.var 54) (.lit 63)))),
    .asg 59 (.bin (.bxor .u64) (.var 53) (.bin (.bxor .u64) (.bin (.shl .u64) (.var 55) (.lit 1)) (.bin (.shr .u64)
      (.var 55) (.lit 63)))),
    .asg 60 (.bin (.bxor .u64) (.var 54) (.bin (.bxor .u64) (.bin (.shl .u64) (.var 51) (.lit 1)) (.bin (.shr .u64)
      (.var 51) (.lit 63)))),
    .asg 61 (.bin (.bxor .u64) (.var 61) (.var 56)),
    .asg 26 (.var 61),
    .asg 67 (.bin (.bxor .u64) (.var 67) (.var 57)),
    .asg 27 (.bin (.bxor .u64) (.bin (.shl .u64) (.var 67) (.lit 44)) (.bin (.shr .u64) (.var 67) (.lit 20))),
    .asg 73 (.bin (.bxor .u64) (.var 73) (.var 58)),
    .asg 28 (.bin (.bxor .u64) (.bin (.shl .u64) (.var 73) (.lit 43)) (.bin (.shr .u64) (.var 73) (.lit 21))),
    .asg 79 (.bin (.bxor .u64) (.var 79) (.var 59)),
    .asg 29 (.bin (.bxor .u64) (.bin (.shl .u64) (.var 79) (.lit 21)) (.bin (.shr .u64) (.var 79) (.lit 43))),
    .asg 85 (.bin (.bxor .u64) (.var 85) (.var 60)),
    .asg 30 (.bin (.bxor .u64) (.bin (.shl .u64) (.var 85) (.lit 14)) (.bin (.shr .u64) (.var 85) (.lit 50))),
    .asg 1 (.bin (.bxor .u64) (.var 26) (.bin (.band .u64) (.un (.bnot .u64) (.var 27)) (.var 28))),
    .asg 1 (.bin (.bxor .u64) (.var 1) (.ld 8 (.padd (.glob 0) (.lit 1) 8))),
    .asg 51 (.var 1),
    .asg 2 (.bin (.bxor .u64) (.var 27) (.bin (.band .u64) (.un (.bnot .u64) (.var 28)) (.var 29))),
    .asg 52 (.var 2),
    .asg 3 (.bin (.bxor .u64) (.var 28) (.bin (.band .u64) (.un (.bnot .u64) (.var 29)) (.var 30))),
    .asg 53 (.var 3),
    .asg 4 (.bin (.bxor .u64) (.var 29) (.bin (.band .u64) (.un (.bnot .u64) (.var 30)) (.var 26)))]

/-- part of `KeccakP1600_Permute_24rounds` -/
def KeccakP1600_Permute_24rounds.part4 : Stmt :=
  block [
    .asg 54 (.var 4),
    .asg 5 (.bin (.bxor .u64) (.var 30) (.bin (.band .u64) (.un (.bnot .u64) (.var 26)) (.var 27))),
    .asg 55 (.var 5),
    .asg 64 (.bin (.bxor .u64) (.var 64) (.var 59)),
    .asg 31 (.bin (.bxor .u64) (.bin (.shl .u64) (.var 64) (.lit 28)) (.bin (.shr .u64) (.var 64) (.lit 36))),
    .asg 70 (.bin (.bxor .u64) (.var 70) (.var 60)),
    .asg 32 (.bin (.bxor .u64) (.bin (.shl .u64) (.var 70) (.lit 20)) (.bin (.shr .u64) (.var 70) (.lit 44))),
    .asg 71 (.bin (.bxor .u64) (.var 71) (.var 56)),
    .asg 33 (.bin (.bxor .u64) (.bin (.shl .u64) (.var 71) (.lit 3)) (.bin (.shr .u64) (.var 71) (.lit 61))),
    .asg 77 (.bin (.bxor .u64) (.var 77) (.var 57)),
    .asg 34 (.bin (.bxor .u64) (.bin (.shl .u64) (.var 77) (.lit 45)) (.bin (.shr .u64) (.var 77) (.lit 19))),
    .asg 83 (.bin (.bxor .u64) (.var 83) (.var 58)),
    .asg 35 (.bin (.bxor .u64) (.bin (.shl .u64) (.var 83) (.lit 61)) (.bin (.shr .u64) (.var 83) (.lit 3))),
    .asg 6 (.bin (.bxor .u64) (.var 31) (.bin (.band .u64) (.un (.bnot .u64) (.var 32)) (.var 33))),
    .asg 51 (.bin (.bxor .u64) (.var 51) (.var 6)),
    .asg 7 (.bin (.bxor .u64) (.var 32) (.bin (.band .u64) (.un (.bnot .u64) (.var 33)) (.var 34))),
    .asg 52 (.bin (.bxor .u64) (.var 52) (.var 7)),
    .asg 8 (.bin (.bxor .u64) (.var 33) (.bin (.band .u64) (.un (.bnot .u64) (.var 34)) (.var 35))),
    .asg 53 (.bin (.bxor .u64) (.var 53) (.var 8)),
    .asg 9 (.bin (.bxor .u64) (.var 34) (.bin (.band .u64) (.un (.bnot .u64) (.var 35)) (.var 31))),
    .asg 54 (.bin (.bxor .u64) (.var 54) (.var 9)),
    .asg 10 (.bin (.bxor .u64) (.var 35) (.bin (.band .u64) (.un (.bnot .u64) (.var 31)) (.var 32))),
    .asg 55 (.bin (.bxor .u64) (.var 55) (.var 10)),
    .asg 62 (.bin (.bxor .u64) (.var 62) (.var 57)),
    .asg 36 (.bin (.bxor .u64) (.bin (.shl .u64) (.var 62) (.lit 1)) (.bin (.shr .u64) (.var 62) (.lit 63))),
    .asg 68 (.bin (.bxor .u64) (.var 68) (.var 58)),
    .asg 37 (.bin (.bxor .u64) (.bin (.shl .u64) (.var 68) (.lit 6)) (.bin (.shr .u64) (.var 68) (.lit 58))),
    .asg 74 (.bin (.bxor .u64) (.var 74) (.var 59)),
    .asg 38 (.bin (.bxor .u64) (.bin (.shl .u64) (.var 74) (.lit 25)) (.bin (.shr .u64) (.var 74) (.lit 39))),
    .asg 80 (.bin (.bxor .u64) (.var 80) (.var 60)),
    .asg 39 (.bin (.bxor .u64) (.bin (.shl .u64) (.var 80) (.lit 8)) (.bin (.shr .u64) (.var 80) (.lit 56))),
    .asg 81 (.bin (.bxor .u64) (.var 81) (.var 56)),
    .asg 40 (.bin (.bxor .u64) (.bin (.shl .u64) (.var 81) (.lit 18)) (.bin (.shr .u64) (.var 81) (.lit 46))),
    .asg 11 (.bin (.bxor .u64) (.var 36) (.bin (.band .u64) (.un (.bnot .u64) (.var 37)) (.var 38))),
    .asg 51 (.bin (.bxor .u64) (.var 51) (.var 11)),
    .asg 12 (.bin (.bxor .u64) (.var 37) (.bin (.band .u64) (.un (.bnot .u64) (.var 38)) (.var 39))),
    .asg 52 (.bin (.bxor .u64) (.var 52) (.var 12)),
    .asg 13 (.bin (.bxor .u64) (.var 38) (.bin (.band .u64) (.un (.bnot .u64) (.var 39)) (.var 40))),
    .asg 53 (.bin (.bxor .u64) (.var 53) (.var 13)),
    .asg 14 (.bin (.bxor .u64) (.var 39) (.bin (.band .u64) (.un (.bnot .u64) (.var 40)) (.var 36)))]

/-- part of `KeccakP1600_Permute_24rounds` -/
def KeccakP1600_Permute_24rounds.part5 : Stmt :=
  block [
    .asg 54 (.bin (.bxor .u64) (.var 54) (.var 14)),
    .asg 15 (.bin (.bxor .u64) (.var 40) (.bin (.band .u64) (.un (.bnot .u64) (.var 36)) (.var 37))),
    .asg 55 (.bin (.bxor .u64) (.var 55) (.var 15)),
    .asg 65 (.bin (.bxor .u64) (.var 65) (.var 60)),
    .asg 41 (.bin (.bxor .u64) (.bin (.shl .u64) (.var 65) (.lit 27)) (.bin (.shr .u64) (.var 65) (.lit 37))),
    .asg 66 (.bin (.bxor .u64) (.var 66) (.var 56)),
    .asg 42 (.bin (.bxor .u64) (.bin (.shl .u64) (.var 66) (.lit 36)) (.bin (.shr .u64) (.var 66) (.lit 28))),
    .asg 72 (.bin (.bxor .u64) (.var 72) (.var 57)),
    .asg 43 (.bin (.bxor .u64) (.bin (.shl .u64) (.var 72) (.lit 10)) (.bin (.shr .u64) (.var 72) (.lit 54))),
    .asg 78 (.bin (.bxor .u64) (.var 78) (.var 58)),
    .asg 44 (.bin (.bxor .u64) (.bin (.shl .u64) (.var 78) (.lit 15)) (.bin (.shr .u64) (.var 78) (.lit 49))),
    .asg 84 (.bin (.bxor .u64) (.var 84) (.var 59)),
    .asg 45 (.bin (.bxor .u64) (.bin (.shl .u64) (.var 84) (.lit 56)) (.bin (.shr .u64) (.var 84) (.lit 8))),
    .asg 16 (.bin (.bxor .u64) (.var 41) (.bin (.band .u64) (.un (.bnot .u64) (.var 42)) (.var 43))),
    .asg 51 (.bin (.bxor .u64) (.var 51) (.var 16)),
    .asg 17 (.bin (.bxor .u64) (.var 42) (.bin (.band .u64) (.un (.bnot .u64) (.var 43)) (.var 44))),
    .asg 52 (.bin (.bxor .u64) (.var 52) (.var 17)),
    .asg 18 (.bin (.bxor .u64) (.var 43) (.bin (.band .u64) (.un (.bnot .u64) (.var 44)) (.var 45))),
    .asg 53 (.bin (.bxor .u64) (.var 53) (.var 18)),
    .asg 19 (.bin (.bxor .u64) (.var 44) (.bin (.band .u64) (.un (.bnot .u64) (.var 45)) (.var 41))),
    .asg 54 (.bin (.bxor .u64) (.var 54) (.var 19)),
    .asg 20 (.bin (.bxor .u64) (.var 45) (.bin (.band .u64) (.un (.bnot .u64) (.var 41)) (.var 42))),
    .asg 55 (.bin (.bxor .u64) (.var 55) (.var 20)),
    .asg 63 (.bin (.bxor .u64) (.var 63) (.var 58)),
    .asg 46 (.bin (.bxor .u64) (.bin (.shl .u64) (.var 63) (.lit 62)) (.bin (.shr .u64) (.var 63) (.lit 2))),
    .asg 69 (.bin (.bxor .u64) (.var 69) (.var 59)),
    .asg 47 (.bin (.bxor .u64) (.bin (.shl .u64) (.var 69) (.lit 55)) (.bin (.shr .u64) (.var 69) (.lit 9))),
    .asg 75 (.bin (.bxor .u64) (.var 75) (.var 60)),
    .asg 48 (.bin (.bxor .u64) (.bin (.shl .u64) (.var 75) (.lit 39)) (.bin (.shr .u64) (.var 75) (.lit 25))),
    .asg 76 (.bin (.bxor .u64) (.var 76) (.var 56)),
    .asg 49 (.bin (.bxor .u64) (.bin (.shl .u64) (.var 76) (.lit 41)) (.bin (.shr .u64) (.var 76) (.lit 23))),
    .asg 82 (.bin (.bxor .u64) (.var 82) (.var 57)),
    .asg 50 (.bin (.bxor .u64) (.bin (.shl .u64) (.var 82) (.lit 2)) (.bin (.shr .u64) (.var 82) (.lit 62))),
    .asg 21 (.bin (.bxor .u64) (.var 46) (.bin (.band .u64) (.un (.bnot .u64) (.var 47)) (.var 48))),
    .asg 51 (.bin (.bxor .u64) (.var 51) (.var 21)),
    .asg 22 (.bin (.bxor .u64) (.var 47) (.bin (.band .u64) (.un (.bnot .u64) (.var 48)) (.var 49))),
    .asg 52 (.bin (.bxor .u64) (.var 52) (.var 22)),
    .asg 23 (.bin (.bxor .u64) (.var 48) (.bin (.band .u64) (.un (.bnot .u64) (.var 49)) (.var 50))),
    .asg 53 (.bin (.bxor .u64) (.var 53) (.var 23)),
    .asg 24 (.bin (.bxor .u64) (.var 49) (.bin (.band .u64) (.un (.bnot .u64) (.var 50)) (.var 46)))]

/-- part of `KeccakP1600_Permute_24rounds` -/
def KeccakP1600_Permute_24rounds.part6 : Stmt :=
  block [
    .asg 54 (.bin (.bxor .u64) (.var 54) (.var 24)),
    .asg 25 (.bin (.bxor .u64) (.var 50) (.bin (.band .u64) (.un (.bnot .u64) (.var 46)) (.var 47))),
    .asg 55 (.bin (.bxor .u64) (.var 55) (.var 25)),
    .asg 56 (.bin (.bxor .u64) (.var 55) (.bin (.bxor .u64) (.bin (.shl .u64) (.var 52) (.lit 1)) (.bin (.shr .u64)
      (.var 52) (.lit 63)))),
    .asg 57 (.bin (.bxor .u64) (.var 51) (.bin (.bxor .u64) (.bin (.shl .u64) (.var 53) (.lit 1)) (.bin (.shr .u64)
      (.var 53) (.lit 63)))),
    .asg 58 (.bin (.bxor .u64) (.var 52) (.bin (.bxor .u64) (.bin (.shl .u64) (.var 54) (.lit 1)) (.bin (.shr .u64)
      (.var 54) (.lit 63)))),
    .asg 59 (.bin (.bxor .u64) (.var 53) (.bin (.bxor .u64) (.bin (.shl .u64) (.var 55) (.lit 1)) (.bin (.shr .u64)
      (.var 55) (.lit 63)))),
    .asg 60 (.bin (.bxor .u64) (.var 54) (.bin (.bxor .u64) (.bin (.shl .u64) (.var 51) (.lit 1)) (.bin (.shr .u64)
      (.var 51) (.lit 63)))),
    .asg 1 (.bin (.bxor .u64) (.var 1) (.var 56)),
    .asg 26 (.var 1),
    .asg 7 (.bin (.bxor .u64) (.var 7) (.var 57)),
    .asg 27 (.bin (.bxor .u64) (.bin (.shl .u64) (.var 7) (.lit 44)) (.bin (.shr .u64) (.var 7) (.lit 20))),
    .asg 13 (.bin (.bxor .u64) (.var 13) (.var 58)),
    .asg 28 (.bin (.bxor .u64) (.bin (.shl .u64) (.var 13) (.lit 43)) (.bin (.shr .u64) (.var 13) (.lit 21))),
    .asg 19 (.bin (.bxor .u64) (.var 19) (.var 59)),
    .asg 29 (.bin (.bxor .u64) (.bin (.shl .u64) (.var 19) (.lit 21)) (.bin (.shr .u64) (.var 19) (.lit 43))),
    .asg 25 (.bin (.bxor .u64) (.var 25) (.var 60)),
    .asg 30 (.bin (.bxor .u64) (.bin (.shl .u64) (.var 25) (.lit 14)) (.bin (.shr .u64) (.var 25) (.lit 50))),
    .asg 61 (.bin (.bxor .u64) (.var 26) (.bin (.band .u64) (.un (.bnot .u64) (.var 27)) (.var 28))),
    .asg 61 (.bin (.bxor .u64) (.var 61) (.ld 8 (.padd (.glob 0) (.lit 2) 8))),
    .asg 51 (.var 61),
    .asg 62 (.bin (.bxor .u64) (.var 27) (.bin (.band .u64) (.un (.bnot .u64) (.var 28)) (.var 29))),
    .asg 52 (.var 62),
    .asg 63 (.bin (.bxor .u64) (.var 28) (.bin (.band .u64) (.un (.bnot .u64) (.var 29)) (.var 30))),
    .asg 53 (.var 63),
    .asg 64 (.bin (.bxor .u64) (.var 29) (.bin (.band .u64) (.un (.bnot .u64) (.var 30)) (.var 26))),
    .asg 54 (.var 64),
    .asg 65 (.bin (.bxor .u64) (.var 30) (.bin (.band .u64) (.un (.bnot .u64) (.var 26)) (.var 27))),
    .asg 55 (.var 65),
    .asg 4 (.bin (.bxor .u64) (.var 4) (.var 59)),
    .asg 31 (.bin (.bxor .u64) (.bin (.shl .u64) (.var 4) (.lit 28)) (.bin (.shr .u64) (.var 4) (.lit 36))),
    .asg 10 (.bin (.bxor .u64) (.var 10) (.var 60)),
    .asg 32 (.bin (.bxor .u64) (.bin (.shl .u64) (.var 10) (.lit 20)) (.bin (.shr .u64) (.var 10) (.lit 44))),
    .asg 11 (.bin (.bxor .u64) (.var 11) (.var 56)),
    .asg 33 (.bin (.bxor .u64) (.bin (.shl .u64) (.var 11) (.lit 3)) (.bin (.shr .u64) (.var 11) (.lit 61))),
    .asg 17 (.bin (.bxor .u64) (.var 17) (.var 57)),
    .asg 34 (.bin (.bxor .u64) (.bin (.shl .u64) (.var 17) (.lit 45)) (.bin (.shr .u64) (.var 17) (.lit 19))),
    .asg 23 (.bin (.bxor .u64) (.var 23) (.var 58)),
    .asg 35 (.bin (.bxor .u64) (.bin (.shl .u64) (.var 23) (.lit 61)) (.bin (.shr .u64) (.var 23) (.lit 3))),
    .asg 66 (.bin (.bxor .u64) (.var 31) (.bin (.band .u64) (.un (.bnot .u64) (.var 32)) (.var 33)))]

/-- part of `KeccakP1600_Permute_24rounds` -/
def KeccakP1600_Permute_24rounds.part7 : Stmt :=
  block [
    .asg 51 (.bin (.bxor .u64) (.var 51) (.var 66)),
    .asg 67 (.bin (.bxor .u64) (.var 32) (.bin (.band .u64) (.un (.bnot .u64) (.var 33)) (.var 34))),
    .asg 52 (.bin (.bxor .u64) (.var 52) (.var 67)),
    .asg 68 (.bin (.bxor .u64) (.var 33) (.bin (.band .u64) (.un (.bnot .u64) (.var 34)) (.var 35))),
    .asg 53 (.bin (.bxor .u64) (.var 53) (.var 68)),
    .asg 69 (.bin (.bxor .u64) (.var 34) (.bin (.band .u64) (.un (.bnot .u64) (.var 35)) (.var 31))),
    .asg 54 (.bin (.bxor .u64) (.var 54) (.var 69)),
    .asg 70 (.bin (.bxor .u64) (.var 35) (.bin (.band .u64) (.un (.bnot .u64) (.var 31)) (.var 32))),
    .asg 55 (.bin (.bxor .u64) (.var 55) (.var 70)),
    .asg 2 (.bin (.bxor .u64) (.var 2) (.var 57)),
    .asg 36 (.bin (.bxor .u64) (.bin (.shl .u64) (.var 2) (.lit 1)) (.bin (.shr .u64) (.var 2) (.lit 63))),
    .asg 8 (.bin (.bxor .u64) (.var 8) (.var 58)),
    .asg 37 (.bin (.bxor .u64) (.bin (.shl .u64) (.var 8) (.lit 6)) (.bin (.shr .u64) (.var 8) (.lit 58))),
    .asg 14 (.bin (.bxor .u64) (.var 14) (.var 59)),
    .asg 38 (.bin (.bxor .u64) (.bin (.shl .u64) (.var 14) (.lit 25)) (.bin (.shr .u64) (.var 14) (.lit 39))),
    .asg 20 (.bin (.bxor .u64) (.var 20) (.var 60)),
    .asg 39 (.bin (.bxor .u64) (.bin (.shl .u64) (.var 20) (.lit 8)) (.bin (.shr .u64) (.var 20) (.lit 56))),
    .asg 21 (.bin (.bxor .u64) (.var 21) (.var 56)),
    .asg 40 (.bin (.bxor .u64) (.bin (.shl .u64) (.var 21) (.lit 18)) (.bin (.shr .u64) (.var 21) (.lit 46))),
    .asg 71 (.bin (.bxor .u64) (.var 36) (.bin (.band .u64) (.un (.bnot .u64) (.var 37)) (.var 38))),
    .asg 51 (.bin (.bxor .u64) (.var 51) (.var 71)),
    .asg 72 (.bin (.bxor .u64) (.var 37) (.bin (.band .u64) (.un (.bnot .u64) (.var 38)) (.var 39))),
    .asg 52 (.bin (.bxor .u64) (.var 52) (.var 72)),
    .asg 73 (.bin (.bxor .u64) (.var 38) (.bin (.band .u64) (.un (.bnot .u64) (.var 39)) (.var 40))),
    .asg 53 (.bin (.bxor .u64) (.var 53) (.var 73)),
    .asg 74 (.bin (.bxor .u64) (.var 39) (.bin (.band .u64) (.un (.bnot .u64) (.var 40)) (.var 36))),
    .asg 54 (.bin (.bxor .u64) (.var 54) (.var 74)),
    .asg 75 (.bin (.bxor .u64) (.var 40) (.bin (.band .u64) (.un (.bnot .u64) (.var 36)) (.var 37))),
    .asg 55 (.bin (.bxor .u64) (.var 55) (.var 75)),
    .asg 5 (.bin (.bxor .u64) (.var 5) (.var 60)),
    .asg 41 (.bin (.bxor .u64) (.bin (.shl .u64) (.var 5) (.lit 27)) (.bin (.shr .u64) (.var 5) (.lit 37))),
    .asg 6 (.bin (.bxor .u64) (.var 6) (.var 56)),
    .asg 42 (.bin (.bxor .u64) (.bin (.shl .u64) (.var 6) (.lit 36)) (.bin (.shr .u64) (.var 6) (.lit 28))),
    .asg 12 (.bin (.bxor .u64) (.var 12) (.var 57)),
    .asg 43 (.bin (.bxor .u64) (.bin (.shl .u64) (.var 12) (.lit 10)) (.bin (.shr .u64) (.var 12) (.lit 54))),
    .asg 18 (.bin (.bxor .u64) (.var 18) (.var 58)),
    .asg 44 (.bin (.bxor .u64) (.bin (.shl .u64) (.var 18) (.lit 15)) (.bin (.shr .u64) (.var 18) (.lit 49))),
    .asg 24 (.bin (.bxor .u64) (.var 24) (.var 59)),
    .asg 45 (.bin (.bxor .u64) (.bin (.shl .u64) (.var 24) (.lit 56)) (.bin (.shr .u64) (.var 24) (.lit 8))),
    .asg 76 (.bin (.bxor .u64) (.var 41) (.bin (.band .u64) (.un (.bnot .u64) (.var 42)) (.var 43)))]

/-- part of `KeccakP1600_Permute_24rounds` -/
def KeccakP1600_Permute_24rounds.part8 : Stmt :=
  block [
    .asg 51 (.bin (.bxor .u64) (.var 51) (.var 76)),
    .asg 77 (.bin (.bxor .u64) (.var 42) (.bin (.band .u64) (.un (.bnot .u64) (.var 43)) (.var 44))),
    .asg 52 (.bin (.bxor .u64) (.var 52) (.var 77)),
    .asg 78 (.bin (.bxor .u64) (.var 43) (.bin (.band .u64) (.un (.bnot .u64) (.var 44)) (.var 45))),
    .asg 53 (.bin (.bxor .u64) (.var 53) (.var 78)),
    .asg 79 (.bin (.bxor .u64) (.var 44) (.bin (.band .u64) (.un (.bnot .u64) (.var 45)) (.var 41))),
    .asg 54 (.bin (.bxor .u64) (.var 54) (.var 79)),
    .asg 80 (.bin (.bxor .u64) (.var 45) (.bin (.band .u64) (.un (.bnot .u64) (.var 41)) (.var 42))),
    .asg 55 (.bin (.bxor .u64) (.var 55) (.var 80)),
    .asg 3 (.bin (.bxor .u64) (.var 3) (.var 58)),
    .asg 46 (.bin (.bxor .u64) (.bin (.shl .u64) (.var 3) (.lit 62)) (.bin (.shr .u64) (.var 3) (.lit 2))),
    .asg 9 (.bin (.bxor .u64) (.var 9) (.var 59)),
    .asg 47 (.bin (.bxor .u64) (.bin (.shl .u64) (.var 9) (.lit 55)) (.bin (.shr .u64) (.var 9) (.lit 9))),
    .asg 15 (.bin (.bxor .u64) (.var 15) (.var 60)),
    .asg 48 (.bin (.bxor .u64) (.bin (.shl .u64) (.var 15) (.lit 39)) (.bin (.shr .u64) (.var 15) (.lit 25))),
    .asg 16 (.bin (.bxor .u64) (.var 16) (.var 56)),
    .asg 49 (.bin (.bxor .u64) (.bin (.shl .u64) (.var 16) (.lit 41)) (.bin (.shr .u64) (.var 16) (.lit 23))),
    .asg 22 (.bin (.bxor .u64) (.var 22) (.var 57)),
    .asg 50 (.bin (.bxor .u64) (.bin (.shl .u64) (.var 22) (.lit 2)) (.bin (.shr .u64) (.var 22) (.lit 62))),
    .asg 81 (.bin (.bxor .u64) (.var 46) (.bin (.band .u64) (.un (.bnot .u64) (.var 47)) (.var 48))),
    .asg 51 (.bin (.bxor .u64) (.var 51) (.var 81)),
    .asg 82 (.bin (.bxor .u64) (.var 47) (.bin (.band .u64) (.un (.bnot .u64) (.var 48)) (.var 49))),
    .asg 52 (.bin (.bxor .u64) (.var 52) (.var 82)),
    .asg 83 (.bin (.bxor .u64) (.var 48) (.bin (.band .u64) (.un (.bnot .u64) (.var 49)) (.var 50))),
    .asg 53 (.bin (.bxor .u64) (.var 53) (.var 83)),
    .asg 84 (.bin (.bxor .u64) (.var 49) (.bin (.band .u64) (.un (.bnot .u64) (.var 50)) (.var 46))),
    .asg 54 (.bin (.bxor .u64) (.var 54) (.var 84)),
    .asg 85 (.bin (.bxor .u64) (.var 50) (.bin (.band .u64) (.un (.bnot .u64) (.var 46)) (.var 47))),
    .asg 55 (.bin (.bxor .u64) (.var 55) (.var 85)),
    .asg 56 (.bin (.bxor .u64) (.var 55) (.bin (.bxor .u64) (.bin (.shl .u64) (.var 52) (.lit 1)) (.bin (.shr .u64)
      (.var 52) (.lit 63)))),
    .asg 57 (.bin (.bxor .u64) (.var 51) (.bin (.bxor .u64) (.bin (.shl .u64) (.var 53) (.lit 1)) (.bin (.shr .u64)
      (.var 53) (.lit 63)))),
    .asg 58 (.bin (.bxor .u64) (.var 52) (.bin (.bxor .u64) (.bin (.shl .u64) (.var 54) (.lit 1)) (.bin (.shr .u64)
      (.var 54) (.lit 63)))),
    .asg 59 (.bin (.bxor .u64) (.var 53) (.bin (.bxor .u64) (.bin (.shl .u64) (.var 55) (.lit 1)) (.bin (.shr .u64)
      (.var 55) (.lit 63)))),
    .asg 60 (.bin (.bxor .u64) (.var 54) (.bin (.bxor .u64) (.bin (.shl .u64) (.var 51) (.lit 1)) (.bin (.shr .u64)
      (.var 51) (.lit 63)))),
    .asg 61 (.bin (.bxor .u64) (.var 61) (.var 56)),
    .asg 26 (.var 61),
    .asg 67 (.bin (.bxor .u64) (.var 67) (.var 57)),
    .asg 27 (.bin (.bxor .u64) (.bin (.shl .u64) (.var 67) (.lit 44)) (.bin (.shr .u64) (.var 67) (.lit 20))),
    .asg 73 (.bin (.bxor .u64) (.var 73) (.var 58)),
    .asg 28 (.bin (.bxor .u64) (.bin (.shl .u64) (.var 73) (.lit 43)) (.bin (.shr .u64) (.var 73) (.lit 21)))]

/-- part of `KeccakP1600_Permute_24rounds` -/
def KeccakP1600_Permute_24rounds.part9 : Stmt :=
  block [
    .asg 79 (.bin (.bxor .u64) (.var 79) (.var 59)),
    .asg 29 (.bin (.bxor .u64) (.bin (.shl .u64) (.var 79) (.lit 21)) (.bin (.shr .u64) (.var 79) (.lit 43))),
    .asg 85 (.bin (.bxor .u64) (.var 85) (.var 60)),
    .asg 30 (.bin (.bxor .u64) (.bin (.shl .u64) (.var 85) (.lit 14)) (.bin (.shr .u64) (.var 85) (.lit 50))),
    .asg 1 (.bin (.bxor .u64) (.var 26) (.bin (.band .u64) (.un (.bnot .u64) (.var 27)) (.var 28))),
    .asg 1 (.bin (.bxor .u64) (.var 1) (.ld 8 (.padd (.glob 0) (.lit 3) 8))),
    .asg 51 (.var 1),
    .asg 2 (.bin (.bxor .u64) (.var 27) (.bin (.band .u64) (.un (.bnot .u64) (.var 28)) (.var 29))),
    .asg 52 (.var 2),
    .asg 3 (.bin (.bxor .u64) (.var 28) (.bin (.band .u64) (.un (.bnot .u64) (.var 29)) (.var 30))),
    .asg 53 (.var 3),
    .asg 4 (.bin (.bxor .u64) (.var 29) (.bin (.band .u64) (.un (.bnot .u64) (.var 30)) (.var 26))),
    .asg 54 (.var 4),
    .asg 5 (.bin (.bxor .u64) (.var 30) (.bin (.band .u64) (.un (.bnot .u64) (.var 26)) (.var 27))),
    .asg 55 (.var 5),
    .asg 64 (.bin (.bxor .u64) (.var 64) (.var 59)),
    .asg 31 (.bin (.bxor .u64) (.bin (.shl .u64) (.var 64) (.lit 28)) (.bin (.shr .u64) (.var 64) (.lit 36))),
    .asg 70 (.bin (.bxor .u64) (.var 70) (.var 60)),
    .asg 32 (.bin (.bxor .u64) (.bin (.shl .u64) (.var 70) (.lit 20)) (.bin (.shr .u64) (.var 70) (.lit 44))),
    .asg 71 (.bin (.bxor .u64) (.var 71) (.var 56)),
    .asg 33 (.bin (.bxor .u64) (.bin (.shl .u64) (.var 71) (.lit 3)) (.bin (.shr .u64) (.var 71) (.lit 61))),
    .asg 77 (.bin (.bxor .u64) (.var 77) (.var 57)),
    .asg 34 (.bin (.bxor .u64) (.bin (.shl .u64) (.var 77) (.lit 45)) (.bin (.shr .u64) (.var 77) (.lit 19))),
    .asg 83 (.bin (.bxor .u64) (.var 83) (.var 58)),
    .asg 35 (.bin (.bxor .u64) (.bin (.shl .u64) (.var 83) (.lit 61)) (.bin (.shr .u64) (.var 83) (.lit 3))),
    .asg 6 (.bin (.bxor .u64) (.var 31) (.bin (.band .u64) (.un (.bnot .u64) (.var 32)) (.var 33))),
    .asg 51 (.bin (.bxor .u64) (.var 51) (.var 6)),
    .asg 7 (.bin (.bxor .u64) (.var 32) (.bin (.band .u64) (.un (.bnot .u64) (.var 33)) (.var 34))),
    .asg 52 (.bin (.bxor .u64) (.var 52) (.var 7)),
    .asg 8 (.bin (.bxor .u64) (.var 33) (.bin (.band .u64) (.un (.bnot .u64) (.var 34)) (.var 35))),
    .asg 53 (.bin (.bxor .u64) (.var 53) (.var 8)),
    .asg 9 (.bin (.bxor .u64) (.var 34) (.bin (.band .u64) (.un (.bnot .u64) (.var 35)) (.var 31))),
    .asg 54 (.bin (.bxor .u64) (.var 54) (.var 9)),
    .asg 10 (.bin (.bxor .u64) (.var 35) (.bin (.band .u64) (.un (.bnot .u64) (.var 31)) (.var 32))),
    .asg 55 (.bin (.bxor .u64) (.var 55) (.var 10)),
    .asg 62 (.bin (.bxor .u64) (.var 62) (.var 57)),
    .asg 36 (.bin (.bxor .u64) (.bin (.shl .u64) (.var 62) (.lit 1)) (.bin (.shr .u64) (.var 62) (.lit 63))),
    .asg 68 (.bin (.bxor .u64) (.var 68) (.var 58)),
    .asg 37 (.bin (.bxor .u64) (.bin (.shl .u64) (.var 68) (.lit 6)) (.bin (.shr .u64) (.var 68) (.lit 58))),
    .asg 74 (.bin (.bxor .u64) (.var 74) (.var 59))]

/-- part of `KeccakP1600_Permute_24rounds` -/
def KeccakP1600_Permute_24rounds.part10 : Stmt :=
  block [
    .asg 38 (.bin (.bxor .u64) (.bin (.shl .u64) (.var 74) (.lit 25)) (.bin (.shr .u64) (.var 74) (.lit 39))),
    .asg 80 (.bin (.bxor .u64) (.var 80) (.var 60)),
    .asg 39 (.bin (.bxor .u64) (.bin (.shl .u64) (.var 80) (.lit 8)) (.bin (.shr .u64) (.var 80) (.lit 56))),
    .asg 81 (.bin (.bxor .u64) (.var 81) (.var 56)),
    .asg 40 (.bin (.bxor .u64) (.bin (.shl .u64) (.var 81) (.lit 18)) (.bin (.shr .u64) (.var 81) (.lit 46))),
    .asg 11 (.bin (.bxor .u64) (.var 36) (.bin (.band .u64) (.un (.bnot .u64) (.var 37)) (.var 38))),
    .asg 51 (.bin (.bxor .u64) (.var 51) (.var 11)),
    .asg 12 (.bin (.bxor .u64) (.var 37) (.bin (.band .u64) (.un (.bnot .u64) (.var 38)) (.var 39))),
    .asg 52 (.bin (.bxor .u64) (.var 52) (.var 12)),
    .asg 13 (.bin (.bxor .u64) (.var 38) (.bin (.band .u64) (.un (.bnot .u64) (.var 39)) (.var 40))),
    .asg 53 (.bin (.bxor .u64) (.var 53) (.var 13)),
    .asg 14 (.bin (.bxor .u64) (.var 39) (.bin (.band .u64) (.un (.bnot .u64) (.var 40)) (.var 36))),
    .asg 54 (.bin (.bxor .u64) (.var 54) (.var 14)),
    .asg 15 (.bin (.bxor .u64) (.var 40) (.bin (.band .u64) (.un (.bnot .u64) (.var 36)) (.var 37))),
    .asg 55 (.bin (.bxor .u64) (.var 55) (.var 15)),
    .asg 65 (.bin (.bxor .u64) (.var 65) (.var 60)),
    .asg 41 (.bin (.bxor .u64) (.bin (.shl .u64) (.var 65) (.lit 27)) (.bin (.shr .u64) (.var 65) (.lit 37))),
    .asg 66 (.bin (.bxor .u64) (.var 66) (.var 56)),
    .asg 42 (.bin (.bxor .u64) (.bin (.shl .u64) (.var 66) (.lit 36)) (.bin (.shr .u64) (.var 66) (.lit 28))),
    .asg 72 (.bin (.bxor .u64) (.var 72) (.var 57)),
    .asg 43 (.bin (.bxor .u64) (.bin (.shl .u64) (.var 72) (.lit 10)) (.bin (.shr .u64) (.var 72) (.lit 54))),
    .asg 78 (.bin (.bxor .u64) (.var 78) (.var 58)),
    .asg 44 (.bin (.bxor .u64) (.bin (.shl .u64) (.var 78) (.lit 15)) (.bin (.shr .u64) (.var 78) (.lit 49))),
    .asg 84 (.bin (.bxor .u64) (.var 84) (.var 59)),
    .asg 45 (.bin (.bxor .u64) (.bin (.shl .u64) (.var 84) (.lit 56)) (.bin (.shr .u64) (.var 84) (.lit 8))),
    .asg 16 (.bin (.bxor .u64) (.var 41) (.bin (.band .u64) (.un (.bnot .u64) (.var 42)) (.var 43))),
    .asg 51 (.bin (.bxor .u64) (.var 51) (.var 16)),
    .asg 17 (.bin (.bxor .u64) (.var 42) (.bin (.band .u64) (.un (.bnot .u64) (.var 43)) (.var 44))),
    .asg 52 (.bin (.bxor .u64) (.var 52) (.var 17)),
    .asg 18 (.bin (.bxor .u64) (.var 43) (.bin (.band .u64) (.un (.bnot .u64) (.var 44)) (.var 45))),
    .asg 53 (.bin (.bxor .u64) (.var 53) (.var 18)),
    .asg 19 (.bin (.bxor .u64) (.var 44) (.bin (.band .u64) (.un (.bnot .u64) (.var 45)) (.var 41))),
    .asg 54 (.bin (.bxor .u64) (.var 54) (.var 19)),
    .asg 20 (.bin (.bxor .u64) (.var 45) (.bin (.band .u64) (.un (.bnot .u64) (.var 41)) (.var 42))),
    .asg 55 (.bin (.bxor .u64) (.var 55) (.var 20)),
    .asg 63 (.bin (.bxor .u64) (.var 63) (.var 58)),
    .asg 46 (.bin (.bxor .u64) (.bin (.shl .u64) (.var 63) (.lit 62)) (.bin (.shr .u64) (.var 63) (.lit 2))),
    .asg 69 (.bin (.bxor .u64) (.var 69) (.var 59)),
    .asg 47 (.bin (.bxor .u64) (.bin (.shl .u64) (.var 69) (.lit 55)) (.bin (.shr .u64) (.var 69) (.lit 9))),
    .asg 75 (.bin (.bxor .u64) (.var 75) (.var 60))]

/-- part of `KeccakP1600_Permute_24rounds` -/
def KeccakP1600_Permute_24rounds.part11 : Stmt :=
  block [
    .asg 48 (.bin (.bxor .u64) (.bin (.shl .u64) (.var 75) (.lit 39)) (.bin (.shr .u64) (.var 75) (.lit 25))),
    .asg 76 (.bin (.bxor .u64) (.var 76) (.var 56)),
    .asg 49 (.bin (.bxor .u64) (.bin (.shl .u64) (.var 76) (.lit 41)) (.bin (.shr .u64) (.var 76) (.lit 23))),
    .asg 82 (.bin (.bxor .u64) (.var 82) (.var 57)),
    .asg 50 (.bin (.bxor .u64) (.bin (.shl .u64) (.var 82) (.lit 2)) (.bin (.shr .u64) (.var 82) (.lit 62))),
    .asg 21 (.bin (.bxor .u64) (.var 46) (.bin (.band .u64) (.un (.bnot .u64) (.var 47)) (.var 48))),
    .asg 51 (.bin (.bxor .u64) (.var 51) (.var 21)),
    .asg 22 (.bin (.bxor .u64) (.var 47) (.bin (.band .u64) (.un (.bnot .u64) (.var 48)) (.var 49))),
    .asg 52 (.bin (.bxor .u64) (.var 52) (.var 22)),
    .asg 23 (.bin (.bxor .u64) (.var 48) (.bin (.band .u64) (.un (.bnot .u64) (.var 49)) (.var 50))),
    .asg 53 (.bin (.bxor .u64) (.var 53) (.var 23)),
    .asg 24 (.bin (.bxor .u64) (.var 49) (.bin (.band .u64) (.un (.bnot .u64) (.var 50)) (.var 46))),
    .asg 54 (.bin (.bxor .u64) (.var 54) (.var 24)),
    .asg 25 (.bin (.bxor .u64) (.var 50) (.bin (.band .u64) (.un (.bnot .u64) (.var 46)) (.var 47))),
    .asg 55 (.bin (.bxor .u64) (.var 55) (.var 25)),
    .asg 56 (.bin (.bxor .u64) (.var 55) (.bin (.bxor .u64) (.bin (.shl .u64) (.var 52) (.lit 1)) (.bin (.shr .u64)
      (.var 52) (.lit 63)))),
    .asg 57 (.bin (.bxor .u64) (.var 51) (.bin (.bxor .u64) (.bin (.shl .u64) (.var 53) (.lit 1)) (.bin (.shr .u64)
      (.var 53) (.lit 63)))),
    .asg 58 (.bin (.bxor .u64) (.var 52) (.bin (.bxor .u64) (.bin (.shl .u64) (.var 54) (.lit 1)) (.bin (.shr .u64)
      (.var 54) (.lit 63)))),
    .asg 59 (.bin (.bxor .u64) (.var 53) (.bin (.bxor .u64) (.bin (.shl .u64) (.var 55) (.lit 1)) (.bin (.shr .u64)
      (.var 55) (.lit 63)))),
    .asg 60 (.bin (.bxor .u64) (.var 54) (.bin (.bxor .u64) (.bin (.shl .u64) (.var 51) (.lit 1)) (.bin (.shr .u64)
      (.var 51) (.lit 63)))),
    .asg 1 (.bin (.bxor .u64) (.var 1) (.var 56)),
    .asg 26 (.var 1),
    .asg 7 (.bin (.bxor .u64) (.var 7) (.var 57)),
    .asg 27 (.bin (.bxor .u64) (.bin (.shl .u64) (.var 7) (.lit 44)) (.bin (.shr .u64) (.var 7) (.lit 20))),
    .asg 13 (.bin (.bxor .u64) (.var 13) (.var 58)),
    .asg 28 (.bin (.bxor .u64) (.bin (.shl .u64) (.var 13) (.lit 43)) (.bin (.shr .u64) (.var 13) (.lit 21))),
    .asg 19 (.bin (.bxor .u64) (.var 19) (.var 59)),
    .asg 29 (.bin (.bxor .u64) (.bin (.shl .u64) (.var 19) (.lit 21)) (.bin (.shr .u64) (.var 19) (.lit 43))),
    .asg 25 (.bin (.bxor .u64) (.var 25) (.var 60)),
    .asg 30 (.bin (.bxor .u64) (.bin (.shl .u64) (.var 25) (.lit 14)) (.bin (.shr .u64) (.var 25) (.lit 50))),
    .asg 61 (.bin (.bxor .u64) (.var 26) (.bin (.band .u64) (.un (.bnot .u64) (.var 27)) (.var 28))),
    .asg 61 (.bin (.bxor .u64) (.var 61) (.ld 8 (.padd (.glob 0) (.lit 4) 8))),
    .asg 51 (.var 61),
    .asg 62 (.bin (.bxor .u64) (.var 27) (.bin (.band .u64) (.un (.bnot .u64) (.var 28)) (.var 29))),
    .asg 52 (.var 62),
    .asg 63 (.bin (.bxor .u64) (.var 28) (.bin (.band .u64) (.un (.bnot .u64) (.var 29)) (.var 30))),
    .asg 53 (.var 63),
    .asg 64 (.bin (.bxor .u64) (.var 29) (.bin (.band .u64) (.un (.bnot .u64) (.var 30)) (.var 26))),
    .asg 54 (.var 64),
    .asg 65 (.bin (.bxor .u64) (.var 30) (.bin (.band .u64) (.un (.bnot .u64) (.var 26)) (.var 27)))]

/-- part of `KeccakP1600_Permute_24rounds` -/
def KeccakP1600_Permute_24rounds.part12 : Stmt :=
  block [
    .asg 55 (.var 65),
    .asg 4 (.bin (.bxor .u64) (.var 4) (.var 59)),
    .asg 31 (.bin (.bxor .u64) (.bin (.shl .u64) (.var 4) (.lit 28)) (.bin (.shr .u64) (.var 4) (.lit 36))),
    .asg 10 (.bin (.bxor .u64) (.var 10) (.var 60)),
    .asg 32 (.bin (.bxor .u64) (.bin (.shl .u64) (.var 10) (.lit 20)) (.bin (.shr .u64) (.var 10) (.lit 44))),
    .asg 11 (.bin (.bxor .u64) (.var 11) (.var 56)),
    .asg 33 (.bin (.bxor .u64) (.bin (.shl .u64) (.var 11) (.lit 3)) (.bin (.shr .u64) (.var 11) (.lit 61))),
    .asg 17 (.bin (.bxor .u64) (.var 17) (.var 57)),
    .asg 34 (.bin (.bxor .u64) (.bin (.shl .u64) (.var 17) (.lit 45)) (.bin (.shr .u64) (.var 17) (.lit 19))),
    .asg 23 (.bin (.bxor .u64) (.var 23) (.var 58)),
    .asg 35 (.bin (.bxor .u64) (.bin (.shl .u64) (.var 23) (.lit 61)) (.bin (.shr .u64) (.var 23) (.lit 3))),
    .asg 66 (.bin (.bxor .u64) (.var 31) (.bin (.band .u64) (.un (.bnot .u64) (.var 32)) (.var 33))),
    .asg 51 (.bin (.bxor .u64) (.var 51) (.var 66)),
    .asg 67 (.bin (.bxor .u64) (.var 32) (.bin (.band .u64) (.un (.bnot .u64) (.var 33)) (.var 34))),
    .asg 52 (.bin (.bxor .u64) (.var 52) (.var 67)),
    .asg 68 (.bin (.bxor .u64) (.var 33) (.bin (.band .u64) (.un (.bnot .u64) (.var 34)) (.var 35))),
    .asg 53 (.bin (.bxor .u64) (.var 53) (.var 68)),
    .asg 69 (.bin (.bxor .u64) (.var 34) (.bin (.band .u64) (.un (.bnot .u64) (.var 35)) (.var 31))),
    .asg 54 (.bin (.bxor .u64) (.var 54) (.var 69)),
    .asg 70 (.bin (.bxor .u64) (.var 35) (.bin (.band .u64) (.un (.bnot .u64) (.var 31)) (.var 32))),
    .asg 55 (.bin (.bxor .u64) (.var 55) (.var 70)),
    .asg 2 (.bin (.bxor .u64) (.var 2) (.var 57)),
    .asg 36 (.bin (.bxor .u64) (.bin (.shl .u64) (.var 2) (.lit 1)) (.bin (.shr .u64) (.var 2) (.lit 63))),
    .asg 8 (.bin (.bxor .u64) (.var 8) (.var 58)),
    .asg 37 (.bin (.bxor .u64) (.bin (.shl .u64) (.var 8) (.lit 6)) (.bin (.shr .u64) (.var 8) (.lit 58))),
    .asg 14 (.bin (.bxor .u64) (.var 14) (.var 59)),
    .asg 38 (.bin (.bxor .u64) (.bin (.shl .u64) (.var 14) (.lit 25)) (.bin (.shr .u64) (.var 14) (.lit 39))),
    .asg 20 (.bin (.bxor .u64) (.var 20) (.var 60)),
    .asg 39 (.bin (.bxor .u64) (.bin (.shl .u64) (.var 20) (.lit 8)) (.bin (.shr .u64) (.var 20) (.lit 56))),
    .asg 21 (.bin (.bxor .u64) (.var 21) (.var 56)),
    .asg 40 (.bin (.bxor .u64) (.bin (.shl .u64) (.var 21) (.lit 18)) (.bin (.shr .u64) (.var 21) (.lit 46))),
    .asg 71 (.bin (.bxor .u64) (.var 36) (.bin (.band .u64) (.un (.bnot .u64) (.var 37)) (.var 38))),
    .asg 51 (.bin (.bxor .u64) (.var 51) (.var 71)),
    .asg 72 (.bin (.bxor .u64) (.var 37) (.bin (.band .u64) (.un (.bnot .u64) (.var 38)) (.var 39))),
    .asg 52 (.bin (.bxor .u64) (.var 52) (.var 72)),
    .asg 73 (.bin (.bxor .u64) (.var 38) (.bin (.band .u64) (.un (.bnot .u64) (.var 39)) (.var 40))),
    .asg 53 (.bin (.bxor .u64) (.var 53) (.var 73)),
    .asg 74 (.bin (.bxor .u64) (.var 39) (.bin (.band .u64) (.un (.bnot .u64) (.var 40)) (.var 36))),
    .asg 54 (.bin (.bxor .u64) (.var 54) (.var 74)),
    .asg 75 (.bin (.bxor .u64) (.var 40) (.bin (.band .u64) (.un (.bnot .u64) (.var 36)) (.var 37)))]

/-- part of `KeccakP1600_Permute_24rounds` -/
def KeccakP1600_Permute_24rounds.part13 : Stmt :=
  block [
    .asg 55 (.bin (.bxor .u64) (.var 55) (.var 75)),
    .asg 5 (.bin (.bxor .u64) (.var 5) (.var 60)),
    .asg 41 (.bin (.bxor .u64) (.bin (.shl .u64) (.var 5) (.lit 27)) (.bin (.shr .u64) (.var 5) (.lit 37))),
    .asg 6 (.bin (.bxor .u64) (.var 6) (.var 56)),
    .asg 42 (.bin (.bxor .u64) (.bin (.shl .u64) (.var 6) (.lit 36)) (.bin (.shr .u64) (.var 6) (.lit 28))),
    .asg 12 (.bin (.bxor .u64) (.var 12) (.var 57)),
    .asg 43 (.bin (.bxor .u64) (.bin (.shl .u64) (.var 12) (.lit 10)) (.bin (.shr .u64) (.var 12) (.lit 54))),
    .asg 18 (.bin (.bxor .u64) (.var 18) (.var 58)),
    .asg 44 (.bin (.bxor .u64) (.bin (.shl .u64) (.var 18) (.lit 15)) (.bin (.shr .u64) (.var 18) (.lit 49))),
    .asg 24 (.bin (.bxor .u64) (.var 24) (.var 59)),
    .asg 45 (.bin (.bxor .u64) (.bin (.shl .u64) (.var 24) (.lit 56)) (.bin (.shr .u64) (.var 24) (.lit 8))),
    .asg 76 (.bin (.bxor .u64) (.var 41) (.bin (.band .u64) (.un (.bnot .u64) (.var 42)) (.var 43))),
    .asg 51 (.bin (.bxor .u64) (.var 51) (.var 76)),
    .asg 77 (.bin (.bxor .u64) (.var 42) (.bin (.band .u64) (.un (.bnot .u64) (.var 43)) (.var 44))),
    .asg 52 (.bin (.bxor .u64) (.var 52) (.var 77)),
    .asg 78 (.bin (.bxor .u64) (.var 43) (.bin (.band .u64) (.un (.bnot .u64) (.var 44)) (.var 45))),
    .asg 53 (.bin (.bxor .u64) (.var 53) (.var 78)),
    .asg 79 (.bin (.bxor .u64) (.var 44) (.bin (.band .u64) (.un (.bnot .u64) (.var 45)) (.var 41))),
    .asg 54 (.bin (.bxor .u64) (.var 54) (.var 79)),
    .asg 80 (.bin (.bxor .u64) (.var 45) (.bin (.band .u64) (.un (.bnot .u64) (.var 41)) (.var 42))),
    .asg 55 (.bin (.bxor .u64) (.var 55) (.var 80)),
    .asg 3 (.bin (.bxor .u64) (.var 3) (.var 58)),
    .asg 46 (.bin (.bxor .u64) (.bin (.shl .u64) (.var 3) (.lit 62)) (.bin (.shr .u64) (.var 3) (.lit 2))),
    .asg 9 (.bin (.bxor .u64) (.var 9) (.var 59)),
    .asg 47 (.bin (.bxor .u64) (.bin (.shl .u64) (.var 9) (.lit 55)) (.bin (.shr .u64) (.var 9) (.lit 9))),
    .asg 15 (.bin (.bxor .u64) (.var 15) (.var 60)),
    .asg 48 (.bin (.bxor .u64) (.bin (.shl .u64) (.var 15) (.lit 39)) (.bin (.shr .u64) (.var 15) (.lit 25))),
    .asg 16 (.bin (.bxor .u64) (.var 16) (.var 56)),
    .asg 49 (.bin (.bxor .u64) (.bin (.shl .u64) (.var 16) (.lit 41)) (.bin (.shr .u64) (.var 16) (.lit 23))),
    .asg 22 (.bin (.bxor .u64) (.var 22) (.var 57)),
    .asg 50 (.bin (.bxor .u64) (.bin (.shl .u64) (.var 22) (.lit 2)) (.bin (.shr .u64) (.var 22) (.lit 62))),
    .asg 81 (.bin (.bxor .u64) (.var 46) (.bin (.band .u64) (.un (.bnot .u64) (.var 47)) (.var 48))),
    .asg 51 (.bin (.bxor .u64) (.var 51) (.var 81)),
    .asg 82 (.bin (.bxor .u64) (.var 47) (.bin (.band .u64) (.un (.bnot .u64) (.var 48)) (.var 49))),
    .asg 52 (.bin (.bxor .u64) (.var 52) (.var 82)),
    .asg 83 (.bin (.bxor .u64) (.var 48) (.bin (.band .u64) (.un (.bnot .u64) (.var 49)) (.var 50))),
    .asg 53 (.bin (.bxor .u64) (.var 53) (.var 83)),
    .asg 84 (.bin (.bxor .u64) (.var 49) (.bin (.band .u64) (.un (.bnot .u64) (.var 50)) (.var 46))),
    .asg 54 (.bin (.bxor .u64) (.var 54) (.var 84)),
    .asg 85 (.bin (.bxor .u64) (.var 50) (.bin (.band .u64) (.un (.bnot .u64) (.var 46)) (.var 47)))]

/-- part of `KeccakP1600_Permute_24rounds` -/
def KeccakP1600_Permute_24rounds.part14 : Stmt :=
  block [
    .asg 55 (.bin (.bxor .u64) (.var 55) (.var 85)),
    .asg 56 (.bin (.bxor .u64) (.var 55) (.bin (.bxor .u64) (.bin (.shl .u64) (.var 52) (.lit 1)) (.bin (.shr .u64)
      (.var 52) (.lit 63)))),
    .asg 57 (.bin (.bxor .u64) (.var 51) (.bin (.bxor .u64) (.bin (.shl .u64) (.var 53) (.lit 1)) (.bin (.shr .u64)
      (.var 53) (.lit 63)))),
    .asg 58 (.bin (.bxor .u64) (.var 52) (.bin (.bxor .u64) (.bin (.shl .u64) (.var 54) (.lit 1)) (.bin (.shr .u64)
      (.var 54) (.lit 63)))),
    .asg 59 (.bin (.bxor .u64) (.var 53) (.bin (.bxor .u64) (.bin (.shl .u64) (.var 55) (.lit 1)) (.bin (.shr .u64)
      (.var 55) (.lit 63)))),
    .asg 60 (.bin (.bxor .u64) (.var 54) (.bin (.bxor .u64) (.bin (.shl .u64) (.var 51) (.lit 1)) (.bin (.shr .u64)
      (.var 51) (.lit 63)))),
    .asg 61 (.bin (.bxor .u64) (.var 61) (.var 56)),
    .asg 26 (.var 61),
    .asg 67 (.bin (.bxor .u64) (.var 67) (.var 57)),
    .asg 27 (.bin (.bxor .u64) (.bin (.shl .u64) (.var 67) (.lit 44)) (.bin (.shr .u64) (.var 67) (.lit 20))),
    .asg 73 (.bin (.bxor .u64) (.var 73) (.var 58)),
    .asg 28 (.bin (.bxor .u64) (.bin (.shl .u64) (.var 73) (.lit 43)) (.bin (.shr .u64) (.var 73) (.lit 21))),
    .asg 79 (.bin (.bxor .u64) (.var 79) (.var 59)),
    .asg 29 (.bin (.bxor .u64) (.bin (.shl .u64) (.var 79) (.lit 21)) (.bin (.shr .u64) (.var 79) (.lit 43))),
    .asg 85 (.bin (.bxor .u64) (.var 85) (.var 60)),
    .asg 30 (.bin (.bxor .u64) (.bin (.shl .u64) (.var 85) (.lit 14)) (.bin (.shr .u64) (.var 85) (.lit 50))),
    .asg 1 (.bin (.bxor .u64) (.var 26) (.bin (.band .u64) (.un (.bnot .u64) (.var 27)) (.var 28))),
    .asg 1 (.bin (.bxor .u64) (.var 1) (.ld 8 (.padd (.glob 0) (.lit 5) 8))),
    .asg 51 (.var 1),
    .asg 2 (.bin (.bxor .u64) (.var 27) (.bin (.band .u64) (.un (.bnot .u64) (.var 28)) (.var 29))),
    .asg 52 (.var 2),
    .asg 3 (.bin (.bxor .u64) (.var 28) (.bin (.band .u64) (.un (.bnot .u64) (.var 29)) (.var 30))),
    .asg 53 (.var 3),
    .asg 4 (.bin (.bxor .u64) (.var 29) (.bin (.band .u64) (.un (.bnot .u64) (.var 30)) (.var 26))),
    .asg 54 (.var 4),
    .asg 5 (.bin (.bxor .u64) (.var 30) (.bin (.band .u64) (.un (.bnot .u64) (.var 26)) (.var 27))),
    .asg 55 (.var 5),
    .asg 64 (.bin (.bxor .u64) (.var 64) (.var 59)),
    .asg 31 (.bin (.bxor .u64) (.bin (.shl .u64) (.var 64) (.lit 28)) (.bin (.shr .u64) (.var 64) (.lit 36))),
    .asg 70 (.bin (.bxor .u64) (.var 70) (.var 60)),
    .asg 32 (.bin (.bxor .u64) (.bin (.shl .u64) (.var 70) (.lit 20)) (.bin (.shr .u64) (.var 70) (.lit 44))),
    .asg 71 (.bin (.bxor .u64) (.var 71) (.var 56)),
    .asg 33 (.bin (.bxor .u64) (.bin (.shl .u64) (.var 71) (.lit 3)) (.bin (.shr .u64) (.var 71) (.lit 61))),
    .asg 77 (.bin (.bxor .u64) (.var 77) (.var 57)),
    .asg 34 (.bin (.bxor .u64) (.bin (.shl .u64) (.var 77) (.lit 45)) (.bin (.shr .u64) (.var 77) (.lit 19))),
    .asg 83 (.bin (.bxor .u64) (.var 83) (.var 58)),
    .asg 35 (.bin (.bxor .u64) (.bin (.shl .u64) (.var 83) (.lit 61)) (.bin (.shr .u64) (.var 83) (.lit 3))),
    .asg 6 (.bin (.bxor .u64) (.var 31) (.bin (.band .u64) (.un (.bnot .u64) (.var 32)) (.var 33))),
    .asg 51 (.bin (.bxor .u64) (.var 51) (.var 6)),
    .asg 7 (.bin (.bxor .u64) (.var 32) (.bin (.band .u64) (.un (.bnot .u64) (.var 33)) (.var 34)))]

/-- part of `KeccakP1600_Permute_24rounds` -/
def KeccakP1600_Permute_24rounds.part15 : Stmt :=
  block [
    .asg 52 (.bin (.bxor .u64) (.var 52) (.var 7)),
    .asg 8 (.bin (.bxor .u64) (.var 33) (.bin (.band .u64) (.un (.bnot .u64) (.var 34)) (.var 35))),
    .asg 53 (.bin (.bxor .u64) (.var 53) (.var 8)),
    .asg 9 (.bin (.bxor .u64) (.var 34) (.bin (.band .u64) (.un (.bnot .u64) (.var 35)) (.var 31))),
    .asg 54 (.bin (.bxor .u64) (.var 54) (.var 9)),
    .asg 10 (.bin (.bxor .u64) (.var 35) (.bin (.band .u64) (.un (.bnot .u64) (.var 31)) (.var 32))),
    .asg 55 (.bin (.bxor .u64) (.var 55) (.var 10)),
    .asg 62 (.bin (.bxor .u64) (.var 62) (.var 57)),
    .asg 36 (.bin (.bxor .u64) (.bin (.shl .u64) (.var 62) (.lit 1)) (.bin (.shr .u64) (.var 62) (.lit 63))),
    .asg 68 (.bin (.bxor .u64) (.var 68) (.var 58)),
    .asg 37 (.bin (.bxor .u64) (.bin (.shl .u64) (.var 68) (.lit 6)) (.bin (.shr .u64) (.var 68) (.lit 58))),
    .asg 74 (.bin (.bxor .u64) (.var 74) (.var 59)),
    .asg 38 (.bin (.bxor .u64) (.bin (.shl .u64) (.var 74) (.lit 25)) (.bin (.shr .u64) (.var 74) (.lit 39))),
    .asg 80 (.bin (.bxor .u64) (.var 80) (.var 60)),
    .asg 39 (.bin (.bxor .u64) (.bin (.shl .u64) (.var 80) (.lit 8)) (.bin (.shr .u64) (.var 80) (.lit 56))),
    .asg 81 (.bin (.bxor .u64) (.var 81) (.var 56)),
    .asg 40 (.bin (.bxor .u64) (.bin (.shl .u64) (.var 81) (.lit 18)) (.bin (.shr .u64) (.var 81) (.lit 46))),
    .asg 11 (.bin (.bxor .u64) (.var 36) (.bin (.band .u64) (.un (.bnot .u64) (.var 37)) (.var 38))),
    .asg 51 (.bin (.bxor .u64) (.var 51) (.var 11)),
    .asg 12 (.bin (.bxor .u64) (.var 37) (.bin (.band .u64) (.un (.bnot .u64) (.var 38)) (.var 39))),
    .asg 52 (.bin (.bxor .u64) (.var 52) (.var 12)),
    .asg 13 (.bin (.bxor .u64) (.var 38) (.bin (.band .u64) (.un (.bnot .u64) (.var 39)) (.var 40))),
    .asg 53 (.bin (.bxor .u64) (.var 53) (.var 13)),
    .asg 14 (.bin (.bxor .u64) (.var 39) (.bin (.band .u64) (.un (.bnot .u64) (.var 40)) (.var 36))),
    .asg 54 (.bin (.bxor .u64) (.var 54) (.var 14)),
    .asg 15 (.bin (.bxor .u64) (.var 40) (.bin (.band .u64) (.un (.bnot .u64) (.var 36)) (.var 37))),
    .asg 55 (.bin (.bxor .u64) (.var 55) (.var 15)),
    .asg 65 (.bin (.bxor .u64) (.var 65) (.var 60)),
    .asg 41 (.bin (.bxor .u64) (.bin (.shl .u64) (.var 65) (.lit 27)) (.bin (.shr .u64) (.var 65) (.lit 37))),
    .asg 66 (.bin (.bxor .u64) (.var 66) (.var 56)),
    .asg 42 (.bin (.bxor .u64) (.bin (.shl .u64) (.var 66) (.lit 36)) (.bin (.shr .u64) (.var 66) (.lit 28))),
    .asg 72 (.bin (.bxor .u64) (.var 72) (.var 57)),
    .asg 43 (.bin (.bxor .u64) (.bin (.shl .u64) (.var 72) (.lit 10)) (.bin (.shr .u64) (.var 72) (.lit 54))),
    .asg 78 (.bin (.bxor .u64) (.var 78) (.var 58)),
    .asg 44 (.bin (.bxor .u64) (.bin (.shl .u64) (.var 78) (.lit 15)) (.bin (.shr .u64) (.var 78) (.lit 49))),
    .asg 84 (.bin (.bxor .u64) (.var 84) (.var 59)),
    .asg 45 (.bin (.bxor .u64) (.bin (.shl .u64) (.var 84) (.lit 56)) (.bin (.shr .u64) (.var 84) (.lit 8))),
    .asg 16 (.bin (.bxor .u64) (.var 41) (.bin (.band .u64) (.un (.bnot .u64) (.var 42)) (.var 43))),
    .asg 51 (.bin (.bxor .u64) (.var 51) (.var 16)),
    .asg 17 (.bin (.bxor .u64) (.var 42) (.bin (.band .u64) (.un (.bnot .u64) (.var 43)) (.var 44)))]

/-- part of `KeccakP1600_Permute_24rounds` -/
def KeccakP1600_Permute_24rounds.part16 : Stmt :=
  block [
    .asg 52 (.bin (.bxor .u64) (.var 52) (.var 17)),
    .asg 18 (.bin (.bxor .u64) (.var 43) (.bin (.band .u64) (.un (.bnot .u64) (.var 44)) (.var 45))),
    .asg 53 (.bin (.bxor .u64) (.var 53) (.var 18)),
    .asg 19 (.bin (.bxor .u64) (.var 44) (.bin (.band .u64) (.un (.bnot .u64) (.var 45)) (.var 41))),
    .asg 54 (.bin (.bxor .u64) (.var 54) (.var 19)),
    .asg 20 (.bin (.bxor .u64) (.var 45) (.bin (.band .u64) (.un (.bnot .u64) (.var 41)) (.var 42))),
    .asg 55 (.bin (.bxor .u64) (.var 55) (.var 20)),
    .asg 63 (.bin (.bxor .u64) (.var 63) (.var 58)),
    .asg 46 (.bin (.bxor .u64) (.bin (.shl .u64) (.var 63) (.lit 62)) (.bin (.shr .u64) (.var 63) (.lit 2))),
    .asg 69 (.bin (.bxor .u64) (.var 69) (.var 59)),
    .asg 47 (.bin (.bxor .u64) (.bin (.shl .u64) (.var 69) (.lit 55)) (.bin (.shr .u64) (.var 69) (.lit 9))),
    .asg 75 (.bin (.bxor .u64) (.var 75) (.var 60)),
    .asg 48 (.bin (.bxor .u64) (.bin (.shl .u64) (.var 75) (.lit 39)) (.bin (.shr .u64) (.var 75) (.lit 25))),
    .asg 76 (.bin (.bxor .u64) (.var 76) (.var 56)),
    .asg 49 (.bin (.bxor .u64) (.bin (.shl .u64) (.var 76) (.lit 41)) (.bin (.shr .u64) (.var 76) (.lit 23))),
    .asg 82 (.bin (.bxor .u64) (.var 82) (.var 57)),
    .asg 50 (.bin (.bxor .u64) (.bin (.shl .u64) (.var 82) (.lit 2)) (.bin (.shr .u64) (.var 82) (.lit 62))),
    .asg 21 (.bin (.bxor .u64) (.var 46) (.bin (.band .u64) (.un (.bnot .u64) (.var 47)) (.var 48))),
    .asg 51 (.bin (.bxor .u64) (.var 51) (.var 21)),
    .asg 22 (.bin (.bxor .u64) (.var 47) (.bin (.band .u64) (.un (.bnot .u64) (.var 48)) (.var 49))),
    .asg 52 (.bin (.bxor .u64) (.var 52) (.var 22)),
    .asg 23 (.bin (.bxor .u64) (.var 48) (.bin (.band .u64) (.un (.bnot .u64) (.var 49)) (.var 50))),
    .asg 53 (.bin (.bxor .u64) (.var 53) (.var 23)),
    .asg 24 (.bin (.bxor .u64) (.var 49) (.bin (.band .u64) (.un (.bnot .u64) (.var 50)) (.var 46))),
    .asg 54 (.bin (.bxor .u64) (.var 54) (.var 24)),
    .asg 25 (.bin (.bxor .u64) (.var 50) (.bin (.band .u64) (.un (.bnot .u64) (.var 46)) (.var 47))),
    .asg 55 (.bin (.bxor .u64) (.var 55) (.var 25)),
    .asg 56 (.bin (.bxor .u64) (.var 55) (.bin (.bxor .u64) (.bin (.shl .u64) (.var 52) (.lit 1)) (.bin (.shr .u64)
      (.var 52) (.lit 63)))),
    .asg 57 (.bin (.bxor .u64) (.var 51) (.bin (.bxor .u64) (.bin (.shl .u64) (.var 53) (.lit 1)) (.bin (.shr .u64)
      (.var 53) (.lit 63)))),
    .asg 58 (.bin (.bxor .u64) (.var 52) (.bin (.bxor .u64) (.bin (.shl .u64) (.var 54) (.lit 1)) (.bin (.shr .u64)
      (.var 54) (.lit 63)))),
    .asg 59 (.bin (.bxor .u64) (.var 53) (.bin (.bxor .u64) (.bin (.shl .u64) (.var 55) (.lit 1)) (.bin (.shr .u64)
      (.var 55) (.lit 63)))),
    .asg 60 (.bin (.bxor .u64) (.var 54) (.bin (.bxor .u64) (.bin (.shl .u64) (.var 51) (.lit 1)) (.bin (.shr .u64)
      (.var 51) (.lit 63)))),
    .asg 1 (.bin (.bxor .u64) (.var 1) (.var 56)),
    .asg 26 (.var 1),
    .asg 7 (.bin (.bxor .u64) (.var 7) (.var 57)),
    .asg 27 (.bin (.bxor .u64) (.bin (.shl .u64) (.var 7) (.lit 44)) (.bin (.shr .u64) (.var 7) (.lit 20))),
    .asg 13 (.bin (.bxor .u64) (.var 13) (.var 58)),
    .asg 28 (.bin (.bxor .u64) (.bin (.shl .u64) (.var 13) (.lit 43)) (.bin (.shr .u64) (.var 13) (.lit 21))),
    .asg 19 (.bin (.bxor .u64) (.var 19) (.var 59)),
    .asg 29 (.bin (.bxor .u64) (.bin (.shl .u64) (.var 19) (.lit 21)) (.bin (.shr .u64) (.var 19) (.lit 43)))]

/-- part of `KeccakP1600_Permute_24rounds` -/
def KeccakP1600_Permute_24rounds.part17 : Stmt :=
  block [
    .asg 25 (.bin (.bxor .u64) (.var 25) (.var 60)),
    .asg 30 (.bin (.bxor .u64) (.bin (.shl .u64) (.var 25) (.lit 14)) (.bin (.shr .u64) (.var 25) (.lit 50))),
    .asg 61 (.bin (.bxor .u64) (.var 26) (.bin (.band .u64) (.un (.bnot .u64) (.var 27)) (.var 28))),
    .asg 61 (.bin (.bxor .u64) (.var 61) (.ld 8 (.padd (.glob 0) (.lit 6) 8))),
    .asg 51 (.var 61),
    .asg 62 (.bin (.bxor .u64) (.var 27) (.bin (.band .u64) (.un (.bnot .u64) (.var 28)) (.var 29))),
    .asg 52 (.var 62),
    .asg 63 (.bin (.bxor .u64) (.var 28) (.bin (.band .u64) (.un (.bnot .u64) (.var 29)) (.var 30))),
    .asg 53 (.var 63),
    .asg 64 (.bin (.bxor .u64) (.var 29) (.bin (.band .u64) (.un (.bnot .u64) (.var 30)) (.var 26))),
    .asg 54 (.var 64),
    .asg 65 (.bin (.bxor .u64) (.var 30) (.bin (.band .u64) (.un (.bnot .u64) (.var 26)) (.var 27))),
    .asg 55 (.var 65),
    .asg 4 (.bin (.bxor .u64) (.var 4) (.var 59)),
    .asg 31 (.bin (.bxor .u64) (.bin (.shl .u64) (.var 4) (.lit 28)) (.bin (.shr .u64) (.var 4) (.lit 36))),
    .asg 10 (.bin (.bxor .u64) (.var 10) (.var 60)),
    .asg 32 (.bin (.bxor .u64) (.bin (.shl .u64) (.var 10) (.lit 20)) (.bin (.shr .u64) (.var 10) (.lit 44))),
    .asg 11 (.bin (.bxor .u64) (.var 11) (.var 56)),
    .asg 33 (.bin (.bxor .u64) (.bin (.shl .u64) (.var 11) (.lit 3)) (.bin (.shr .u64) (.var 11) (.lit 61))),
    .asg 17 (.bin (.bxor .u64) (.var 17) (.var 57)),
    .asg 34 (.bin (.bxor .u64) (.bin (.shl .u64) (.var 17) (.lit 45)) (.bin (.shr .u64) (.var 17) (.lit 19))),
    .asg 23 (.bin (.bxor .u64) (.var 23) (.var 58)),
    .asg 35 (.bin (.bxor .u64) (.bin (.shl .u64) (.var 23) (.lit 61)) (.bin (.shr .u64) (.var 23) (.lit 3))),
    .asg 66 (.bin (.bxor .u64) (.var 31) (.bin (.band .u64) (.un (.bnot .u64) (.var 32)) (.var 33))),
    .asg 51 (.bin (.bxor .u64) (.var 51) (.var 66)),
    .asg 67 (.bin (.bxor .u64) (.var 32) (.bin (.band .u64) (.un (.bnot .u64) (.var 33)) (.var 34))),
    .asg 52 (.bin (.bxor .u64) (.var 52) (.var 67)),
    .asg 68 (.bin (.bxor .u64) (.var 33) (.bin (.band .u64) (.un (.bnot .u64) (.var 34)) (.var 35))),
    .asg 53 (.bin (.bxor .u64) (.var 53) (.var 68)),
    .asg 69 (.bin (.bxor .u64) (.var 34) (.bin (.band .u64) (.un (.bnot .u64) (.var 35)) (.var 31))),
    .asg 54 (.bin (.bxor .u64) (.var 54) (.var 69)),
    .asg 70 (.bin (.bxor .u64) (.var 35) (.bin (.band .u64) (.un (.bnot .u64) (.var 31)) (.var 32))),
    .asg 55 (.bin (.bxor .u64) (.var 55) (.var 70)),
    .asg 2 (.bin (.bxor .u64) (.var 2) (.var 57)),
    .asg 36 (.bin (.bxor .u64) (.bin (.shl .u64) (.var 2) (.lit 1)) (.bin (.shr .u64) (.var 2) (.lit 63))),
    .asg 8 (.bin (.bxor .u64) (.var 8) (.var 58)),
    .asg 37 (.bin (.bxor .u64) (.bin (.shl .u64) (.var 8) (.lit 6)) (.bin (.shr .u64) (.var 8) (.lit 58))),
    .asg 14 (.bin (.bxor .u64) (.var 14) (.var 59)),
    .asg 38 (.bin (.bxor .u64) (.bin (.shl .u64) (.var 14) (.lit 25)) (.bin (.shr .u64) (.var 14) (.lit 39))),
    .asg 20 (.bin (.bxor .u64) (.var 20) (.var 60))]

/-- part of `KeccakP1600_Permute_24rounds` -/
def KeccakP1600_Permute_24rounds.part18 : Stmt :=
  block [
    .asg 39 (.bin (.bxor .u64) (.bin (.shl .u64) (.var 20) (.lit 8)) (.bin (.shr .u64) (.var 20) (.lit 56))),
    .asg 21 (.bin (.bxor .u64) (.var 21) (.var 56)),
    .asg 40 (.bin (.bxor .u64) (.bin (.shl .u64) (.var 21) (.lit 18)) (.bin (.shr .u64) (.var 21) (.lit 46))),
    .asg 71 (.bin (.bxor .u64) (.var 36) (.bin (.band .u64) (.un (.bnot .u64) (.var 37)) (.var 38))),
    .asg 51 (.bin (.bxor .u64) (.var 51) (.var 71)),
    .asg 72 (.bin (.bxor .u64) (.var 37) (.bin (.band .u64) (.un (.bnot .u64) (.var 38)) (.var 39))),
    .asg 52 (.bin (.bxor .u64) (.var 52) (.var 72)),
    .asg 73 (.bin (.bxor .u64) (.var 38) (.bin (.band .u64) (.un (.bnot .u64) (.var 39)) (.var 40))),
    .asg 53 (.bin (.bxor .u64) (.var 53) (.var 73)),
    .asg 74 (.bin (.bxor .u64) (.var 39) (.bin (.band .u64) (.un (.bnot .u64) (.var 40)) (.var 36))),
    .asg 54 (.bin (.bxor .u64) (.var 54) (.var 74)),
    .asg 75 (.bin (.bxor .u64) (.var 40) (.bin (.band .u64) (.un (.bnot .u64) (.var 36)) (.var 37))),
    .asg 55 (.bin (.bxor .u64) (.var 55) (.var 75)),
    .asg 5 (.bin (.bxor .u64) (.var 5) (.var 60)),
    .asg 41 (.bin (.bxor .u64) (.bin (.shl .u64) (.var 5) (.lit 27)) (.bin (.shr .u64) (.var 5) (.lit 37))),
    .asg 6 (.bin (.bxor .u64) (.var 6) (.var 56)),
    .asg 42 (.bin (.bxor .u64) (.bin (.shl .u64) (.var 6) (.lit 36)) (.bin (.shr .u64) (.var 6) (.lit 28))),
    .asg 12 (.bin (.bxor .u64) (.var 12) (.var 57)),
    .asg 43 (.bin (.bxor .u64) (.bin (.shl .u64) (.var 12) (.lit 10)) (.bin (.shr .u64) (.var 12) (.lit 54))),
    .asg 18 (.bin (.bxor .u64) (.var 18) (.var 58)),
    .asg 44 (.bin (.bxor .u64) (.bin (.shl .u64) (.var 18) (.lit 15)) (.bin (.shr .u64) (.var 18) (.lit 49))),
    .asg 24 (.bin (.bxor .u64) (.var 24) (.var 59)),
    .asg 45 (.bin (.bxor .u64) (.bin (.shl .u64) (.var 24) (.lit 56)) (.bin (.shr .u64) (.var 24) (.lit 8))),
    .asg 76 (.bin (.bxor .u64) (.var 41) (.bin (.band .u64) (.un (.bnot .u64) (.var 42)) (.var 43))),
    .asg 51 (.bin (.bxor .u64) (.var 51) (.var 76)),
    .asg 77 (.bin (.bxor .u64) (.var 42) (.bin (.band .u64) (.un (.bnot .u64) (.var 43)) (.var 44))),
    .asg 52 (.bin (.bxor .u64) (.var 52) (.var 77)),
    .asg 78 (.bin (.bxor .u64) (.var 43) (.bin (.band .u64) (.un (.bnot .u64) (.var 44)) (.var 45))),
    .asg 53 (.bin (.bxor .u64) (.var 53) (.var 78)),
    .asg 79 (.bin (.bxor .u64) (.var 44) (.bin (.band .u64) (.un (.bnot .u64) (.var 45)) (.var 41))),
    .asg 54 (.bin (.bxor .u64) (.var 54) (.var 79)),
    .asg 80 (.bin (.bxor .u64) (.var 45) (.bin (.band .u64) (.un (.bnot .u64) (.var 41)) (.var 42))),
    .asg 55 (.bin (.bxor .u64) (.var 55) (.var 80)),
    .asg 3 (.bin (.bxor .u64) (.var 3) (.var 58)),
    .asg 46 (.bin (.bxor .u64) (.bin (.shl .u64) (.var 3) (.lit 62)) (.bin (.shr .u64) (.var 3) (.lit 2))),
    .asg 9 (.bin (.bxor .u64) (.var 9) (.var 59)),
    .asg 47 (.bin (.bxor .u64) (.bin (.shl .u64) (.var 9) (.lit 55)) (.bin (.shr .u64) (.var 9) (.lit 9))),
    .asg 15 (.bin (.bxor .u64) (.var 15) (.var 60)),
    .asg 48 (.bin (.bxor .u64) (.bin (.shl .u64) (.var 15) (.lit 39)) (.bin (.shr .u64) (.var 15) (.lit 25))),
    .asg 16 (.bin (.bxor .u64) (.var 16) (.var 56))]

/-- part of `KeccakP1600_Permute_24rounds` -/
def KeccakP1600_Permute_24rounds.part19 : Stmt :=
  block [
    .asg 49 (.bin (.bxor .u64) (.bin (.shl .u64) (.var 16) (.lit 41)) (.bin (.shr .u64) (.var 16) (.lit 23))),
    .asg 22 (.bin (.bxor .u64) (.var 22) (.var 57)),
    .asg 50 (.bin (.bxor .u64) (.bin (.shl .u64) (.var 22) (.lit 2)) (.bin (.shr .u64) (.var 22) (.lit 62))),
    .asg 81 (.bin (.bxor .u64) (.var 46) (.bin (.band .u64) (.un (.bnot .u64) (.var 47)) (.var 48))),
    .asg 51 (.bin (.bxor .u64) (.var 51) (.var 81)),
    .asg 82 (.bin (.bxor .u64) (.var 47) (.bin (.band .u64) (.un (.bnot .u64) (.var 48)) (.var 49))),
    .asg 52 (.bin (.bxor .u64) (.var 52) (.var 82)),
    .asg 83 (.bin (.bxor .u64) (.var 48) (.bin (.band .u64) (.un (.bnot .u64) (.var 49)) (.var 50))),
    .asg 53 (.bin (.bxor .u64) (.var 53) (.var 83)),
    .asg 84 (.bin (.bxor .u64) (.var 49) (.bin (.band .u64) (.un (.bnot .u64) (.var 50)) (.var 46))),
    .asg 54 (.bin (.bxor .u64) (.var 54) (.var 84)),
    .asg 85 (.bin (.bxor .u64) (.var 50) (.bin (.band .u64) (.un (.bnot .u64) (.var 46)) (.var 47))),
    .asg 55 (.bin (.bxor .u64) (.var 55) (.var 85)),
    .asg 56 (.bin (.bxor .u64) (.var 55) (.bin (.bxor .u64) (.bin (.shl .u64) (.var 52) (.lit 1)) (.bin (.shr .u64)
      (.var 52) (.lit 63)))),
    .asg 57 (.bin (.bxor .u64) (.var 51) (.bin (.bxor .u64) (.bin (.shl .u64) (.var 53) (.lit 1)) (.bin (.shr .u64)
      (.var 53) (.lit 63)))),
    .asg 58 (.bin (.bxor .u64) (.var 52) (.bin (.bxor .u64) (.bin (.shl .u64) (.var 54) (.lit 1)) (.bin (.shr .u64)
      (.var 54) (.lit 63)))),
    .asg 59 (.bin (.bxor .u64) (.var 53) (.bin (.bxor .u64) (.bin (.shl .u64) (.var 55) (.lit 1)) (.bin (.shr .u64)
      (.var 55) (.lit 63)))),
    .asg 60 (.bin (.bxor .u64) (.var 54) (.bin (.bxor .u64) (.bin (.shl .u64) (.var 51) (.lit 1)) (.bin (.shr .u64)
      (.var 51) (.lit 63)))),
    .asg 61 (.bin (.bxor .u64) (.var 61) (.var 56)),
    .asg 26 (.var 61),
    .asg 67 (.bin (.bxor .u64) (.var 67) (.var 57)),
    .asg 27 (.bin (.bxor .u64) (.bin (.shl .u64) (.var 67) (.lit 44)) (.bin (.shr .u64) (.var 67) (.lit 20))),
    .asg 73 (.bin (.bxor .u64) (.var 73) (.var 58)),
    .asg 28 (.bin (.bxor .u64) (.bin (.shl .u64) (.var 73) (.lit 43)) (.bin (.shr .u64) (.var 73) (.lit 21))),
    .asg 79 (.bin (.bxor .u64) (.var 79) (.var 59)),
    .asg 29 (.bin (.bxor .u64) (.bin (.shl .u64) (.var 79) (.lit 21)) (.bin (.shr .u64) (.var 79) (.lit 43))),
    .asg 85 (.bin (.bxor .u64) (.var 85) (.var 60)),
    .asg 30 (.bin (.bxor .u64) (.bin (.shl .u64) (.var 85) (.lit 14)) (.bin (.shr .u64) (.var 85) (.lit 50))),
    .asg 1 (.bin (.bxor .u64) (.var 26) (.bin (.band .u64) (.un (.bnot .u64) (.var 27)) (.var 28))),
    .asg 1 (.bin (.bxor .u64) (.var 1) (.ld 8 (.padd (.glob 0) (.lit 7) 8))),
    .asg 51 (.var 1),
    .asg 2 (.bin (.bxor .u64) (.var 27) (.bin (.band .u64) (.un (.bnot .u64) (.var 28)) (.var 29))),
    .asg 52 (.var 2),
    .asg 3 (.bin (.bxor .u64) (.var 28) (.bin (.band .u64) (.un (.bnot .u64) (.var 29)) (.var 30))),
    .asg 53 (.var 3),
    .asg 4 (.bin (.bxor .u64) (.var 29) (.bin (.band .u64) (.un (.bnot .u64) (.var 30)) (.var 26))),
    .asg 54 (.var 4),
    .asg 5 (.bin (.bxor .u64) (.var 30) (.bin (.band .u64) (.un (.bnot .u64) (.var 26)) (.var 27))),
    .asg 55 (.var 5),
    .asg 64 (.bin (.bxor .u64) (.var 64) (.var 59))]

/-- part of `KeccakP1600_Permute_24rounds` -/
def KeccakP1600_Permute_24rounds.part20 : Stmt :=
  block [
    .asg 31 (.bin (.bxor .u64) (.bin (.shl .u64) (.var 64) (.lit 28)) (.bin (.shr .u64) (.var 64) (.lit 36))),
    .asg 70 (.bin (.bxor .u64) (.var 70) (.var 60)),
    .asg 32 (.bin (.bxor .u64) (.bin (.shl .u64) (.var 70) (.lit 20)) (.bin (.shr .u64) (.var 70) (.lit 44))),
    .asg 71 (.bin (.bxor .u64) (.var 71) (.var 56)),
    .asg 33 (.bin (.bxor .u64) (.bin (.shl .u64) (.var 71) (.lit 3)) (.bin (.shr .u64) (.var 71) (.lit 61))),
    .asg 77 (.bin (.bxor .u64) (.var 77) (.var 57)),
    .asg 34 (.bin (.bxor .u64) (.bin (.shl .u64) (.var 77) (.lit 45)) (.bin (.shr .u64) (.var 77) (.lit 19))),
    .asg 83 (.bin (.bxor .u64) (.var 83) (.var 58)),
    .asg 35 (.bin (.bxor .u64) (.bin (.shl .u64) (.var 83) (.lit 61)) (.bin (.shr .u64) (.var 83) (.lit 3))),
    .asg 6 (.bin (.bxor .u64) (.var 31) (.bin (.band .u64) (.un (.bnot .u64) (.var 32)) (.var 33))),
    .asg 51 (.bin (.bxor .u64) (.var 51) (.var 6)),
    .asg 7 (.bin (.bxor .u64) (.var 32) (.bin (.band .u64) (.un (.bnot .u64) (.var 33)) (.var 34))),
    .asg 52 (.bin (.bxor .u64) (.var 52) (.var 7)),
    .asg 8 (.bin (.bxor .u64) (.var 33) (.bin (.band .u64) (.un (.bnot .u64) (.var 34)) (.var 35))),
    .asg 53 (.bin (.bxor .u64) (.var 53) (.var 8)),
    .asg 9 (.bin (.bxor .u64) (.var 34) (.bin (.band .u64) (.un (.bnot .u64) (.var 35)) (.var 31))),
    .asg 54 (.bin (.bxor .u64) (.var 54) (.var 9)),
    .asg 10 (.bin (.bxor .u64) (.var 35) (.bin (.band .u64) (.un (.bnot .u64) (.var 31)) (.var 32))),
    .asg 55 (.bin (.bxor .u64) (.var 55) (.var 10)),
    .asg 62 (.bin (.bxor .u64) (.var 62) (.var 57)),
    .asg 36 (.bin (.bxor .u64) (.bin (.shl .u64) (.var 62) (.lit 1)) (.bin (.shr .u64) (.var 62) (.lit 63))),
    .asg 68 (.bin (.bxor .u64) (.var 68) (.var 58)),
    .asg 37 (.bin (.bxor .u64) (.bin (.shl .u64) (.var 68) (.lit 6)) (.bin (.shr .u64) (.var 68) (.lit 58))),
    .asg 74 (.bin (.bxor .u64) (.var 74) (.var 59)),
    .asg 38 (.bin (.bxor .u64) (.bin (.shl .u64) (.var 74) (.lit 25)) (.bin (.shr .u64) (.var 74) (.lit 39))),
    .asg 80 (.bin (.bxor .u64) (.var 80) (.var 60)),
    .asg 39 (.bin (.bxor .u64) (.bin (.shl .u64) (.var 80) (.lit 8)) (.bin (.shr .u64) (.var 80) (.lit 56))),
    .asg 81 (.bin (.bxor .u64) (.var 81) (.var 56)),
    .asg 40 (.bin (.bxor .u64) (.bin (.shl .u64) (.var 81) (.lit 18)) (.bin (.shr .u64) (.var 81) (.lit 46))),
    .asg 11 (.bin (.bxor .u64) (.var 36) (.bin (.band .u64) (.un (.bnot .u64) (.var 37)) (.var 38))),
    .asg 51 (.bin (.bxor .u64) (.var 51) (.var 11)),
    .asg 12 (.bin (.bxor .u64) (.var 37) (.bin (.band .u64) (.un (.bnot .u64) (.var 38)) (.var 39))),
    .asg 52 (.bin (.bxor .u64) (.var 52) (.var 12)),
    .asg 13 (.bin (.bxor .u64) (.var 38) (.bin (.band .u64) (.un (.bnot .u64) (.var 39)) (.var 40))),
    .asg 53 (.bin (.bxor .u64) (.var 53) (.var 13)),
    .asg 14 (.bin (.bxor .u64) (.var 39) (.bin (.band .u64) (.un (.bnot .u64) (.var 40)) (.var 36))),
    .asg 54 (.bin (.bxor .u64) (.var 54) (.var 14)),
    .asg 15 (.bin (.bxor .u64) (.var 40) (.bin (.band .u64) (.un (.bnot .u64) (.var 36)) (.var 37))),
    .asg 55 (.bin (.bxor .u64) (.var 55) (.var 15)),
    .asg 65 (.bin (.bxor .u64) (.var 65) (.var 60))]

/-- part of `KeccakP1600_Permute_24rounds` -/
def KeccakP1600_Permute_24rounds.part21 : Stmt :=
  block [
    .asg 41 (.bin (.bxor .u64) (.bin (.shl .u64) (.var 65) (.lit 27)) (.bin (.shr .u64) (.var 65) (.lit 37))),
    .asg 66 (.bin (.bxor .u64) (.var 66) (.var 56)),
    .asg 42 (.bin (.bxor .u64) (.bin (.shl .u64) (.var 66) (.lit 36)) (.bin (.shr .u64) (.var 66) (.lit 28))),
    .asg 72 (.bin (.bxor .u64) (.var 72) (.var 57)),
    .asg 43 (.bin (.bxor .u64) (.bin (.shl .u64) (.var 72) (.lit 10)) (.bin (.shr .u64) (.var 72) (.lit 54))),
    .asg 78 (.bin (.bxor .u64) (.var 78) (.var 58)),
    .asg 44 (.bin (.bxor .u64) (.bin (.shl .u64) (.var 78) (.lit 15)) (.bin (.shr .u64) (.var 78) (.lit 49))),
    .asg 84 (.bin (.bxor .u64) (.var 84) (.var 59)),
    .asg 45 (.bin (.bxor .u64) (.bin (.shl .u64) (.var 84) (.lit 56)) (.bin (.shr .u64) (.var 84) (.lit 8))),
    .asg 16 (.bin (.bxor .u64) (.var 41) (.bin (.band .u64) (.un (.bnot .u64) (.var 42)) (.var 43))),
    .asg 51 (.bin (.bxor .u64) (.var 51) (.var 16)),
    .asg 17 (.bin (.bxor .u64) (.var 42) (.bin (.band .u64) (.un (.bnot .u64) (.var 43)) (.var 44))),
    .asg 52 (.bin (.bxor .u64) (.var 52) (.var 17)),
    .asg 18 (.bin (.bxor .u64) (.var 43) (.bin (.band .u64) (.un (.bnot .u64) (.var 44)) (.var 45))),
    .asg 53 (.bin (.bxor .u64) (.var 53) (.var 18)),
    .asg 19 (.bin (.bxor .u64) (.var 44) (.bin (.band .u64) (.un (.bnot .u64) (.var 45)) (.var 41))),
    .asg 54 (.bin (.bxor .u64) (.var 54) (.var 19)),
    .asg 20 (.bin (.bxor .u64) (.var 45) (.bin (.band .u64) (.un (.bnot .u64) (.var 41)) (.var 42))),
    .asg 55 (.bin (.bxor .u64) (.var 55) (.var 20)),
    .asg 63 (.bin (.bxor .u64) (.var 63) (.var 58)),
    .asg 46 (.bin (.bxor .u64) (.bin (.shl .u64) (.var 63) (.lit 62)) (.bin (.shr .u64) (.var 63) (.lit 2))),
    .asg 69 (.bin (.bxor .u64) (.var 69) (.var 59)),
    .asg 47 (.bin (.bxor .u64) (.bin (.shl .u64) (.var 69) (.lit 55)) (.bin (.shr .u64) (.var 69) (.lit 9))),
    .asg 75 (.bin (.bxor .u64) (.var 75) (.var 60)),
    .asg 48 (.bin (.bxor .u64) (.bin (.shl .u64) (.var 75) (.lit 39)) (.bin (.shr .u64) (.var 75) (.lit 25))),
    .asg 76 (.bin (.bxor .u64) (.var 76) (.var 56)),
    .asg 49 (.bin (.bxor .u64) (.bin (.shl .u64) (.var 76) (.lit 41)) (.bin (.shr .u64) (.var 76) (.lit 23))),
    .asg 82 (.bin (.bxor .u64) (.var 82) (.var 57)),
    .asg 50 (.bin (.bxor .u64) (.bin (.shl .u64) (.var 82) (.lit 2)) (.bin (.shr .u64) (.var 82) (.lit 62))),
    .asg 21 (.bin (.bxor .u64) (.var 46) (.bin (.band .u64) (.un (.bnot .u64) (.var 47)) (.var 48))),
    .asg 51 (.bin (.bxor .u64) (.var 51) (.var 21)),
    .asg 22 (.bin (.bxor .u64) (.var 47) (.bin (.band .u64) (.un (.bnot .u64) (.var 48)) (.var 49))),
    .asg 52 (.bin (.bxor .u64) (.var 52) (.var 22)),
    .asg 23 (.bin (.bxor .u64) (.var 48) (.bin (.band .u64) (.un (.bnot .u64) (.var 49)) (.var 50))),
    .asg 53 (.bin (.bxor .u64) (.var 53) (.var 23)),
    .asg 24 (.bin (.bxor .u64) (.var 49) (.bin (.band .u64) (.un (.bnot .u64) (.var 50)) (.var 46))),
    .asg 54 (.bin (.bxor .u64) (.var 54) (.var 24)),
    .asg 25 (.bin (.bxor .u64) (.var 50) (.bin (.band .u64) (.un (.bnot .u64) (.var 46)) (.var 47))),
    .asg 55 (.bin (.bxor .u64) (.var 55) (.var 25)),
    .asg 56 (.bin (.bxor .u64) (.var 55) (.bin (.bxor .u64) (.bin (.shl .u64) (.var 52) (.lit 1)) (.bin (.shr .u64)
      (.var 52) (.lit 63))))]

/-- part of `KeccakP1600_Permute_24rounds` -/
def KeccakP1600_Permute_24rounds.part22 : Stmt :=
  block [
    .asg 57 (.bin (.bxor .u64) (.var 51) (.bin (.bxor .u64) (.bin (.shl .u64) (.var 53) (.lit 1)) (.bin (.shr .u64)
      (.var 53) (.lit 63)))),
    .asg 58 (.bin (.bxor .u64) (.var 52) (.bin (.bxor .u64) (.bin (.shl .u64) (.var 54) (.lit 1)) (.bin (.shr .u64)
      (.var 54) (.lit 63)))),
    .asg 59 (.bin (.bxor .u64) (.var 53) (.bin (.bxor .u64) (.bin (.shl .u64) (.var 55) (.lit 1)) (.bin (.shr .u64)
      (.var 55) (.lit 63)))),
    .asg 60 (.bin (.bxor .u64) (.var 54) (.bin (.bxor .u64) (.bin (.shl .u64) (.var 51) (.lit 1)) (.bin (.shr .u64)
      (.var 51) (.lit 63)))),
    .asg 1 (.bin (.bxor .u64) (.var 1) (.var 56)),
    .asg 26 (.var 1),
    .asg 7 (.bin (.bxor .u64) (.var 7) (.var 57)),
    .asg 27 (.bin (.bxor .u64) (.bin (.shl .u64) (.var 7) (.lit 44)) (.bin (.shr .u64) (.var 7) (.lit 20))),
    .asg 13 (.bin (.bxor .u64) (.var 13) (.var 58)),
    .asg 28 (.bin (.bxor .u64) (.bin (.shl .u64) (.var 13) (.lit 43)) (.bin (.shr .u64) (.var 13) (.lit 21))),
    .asg 19 (.bin (.bxor .u64) (.var 19) (.var 59)),
    .asg 29 (.bin (.bxor .u64) (.bin (.shl .u64) (.var 19) (.lit 21)) (.bin (.shr .u64) (.var 19) (.lit 43))),
    .asg 25 (.bin (.bxor .u64) (.var 25) (.var 60)),
    .asg 30 (.bin (.bxor .u64) (.bin (.shl .u64) (.var 25) (.lit 14)) (.bin (.shr .u64) (.var 25) (.lit 50))),
    .asg 61 (.bin (.bxor .u64) (.var 26) (.bin (.band .u64) (.un (.bnot .u64) (.var 27)) (.var 28))),
    .asg 61 (.bin (.bxor .u64) (.var 61) (.ld 8 (.padd (.glob 0) (.lit 8) 8))),
    .asg 51 (.var 61),
    .asg 62 (.bin (.bxor .u64) (.var 27) (.bin (.band .u64) (.un (.bnot .u64) (.var 28)) (.var 29))),
    .asg 52 (.var 62),
    .asg 63 (.bin (.bxor .u64) (.var 28) (.bin (.band .u64) (.un (.bnot .u64) (.var 29)) (.var 30))),
    .asg 53 (.var 63),
    .asg 64 (.bin (.bxor .u64) (.var 29) (.bin (.band .u64) (.un (.bnot .u64) (.var 30)) (.var 26))),
    .asg 54 (.var 64),
    .asg 65 (.bin (.bxor .u64) (.var 30) (.bin (.band .u64) (.un (.bnot .u64) (.var 26)) (.var 27))),
    .asg 55 (.var 65),
    .asg 4 (.bin (.bxor .u64) (.var 4) (.var 59)),
    .asg 31 (.bin (.bxor .u64) (.bin (.shl .u64) (.var 4) (.lit 28)) (.bin (.shr .u64) (.var 4) (.lit 36))),
    .asg 10 (.bin (.bxor .u64) (.var 10) (.var 60)),
    .asg 32 (.bin (.bxor .u64) (.bin (.shl .u64) (.var 10) (.lit 20)) (.bin (.shr .u64) (.var 10) (.lit 44))),
    .asg 11 (.bin (.bxor .u64) (.var 11) (.var 56)),
    .asg 33 (.bin (.bxor .u64) (.bin (.shl .u64) (.var 11) (.lit 3)) (.bin (.shr .u64) (.var 11) (.lit 61))),
    .asg 17 (.bin (.bxor .u64) (.var 17) (.var 57)),
    .asg 34 (.bin (.bxor .u64) (.bin (.shl .u64) (.var 17) (.lit 45)) (.bin (.shr .u64) (.var 17) (.lit 19))),
    .asg 23 (.bin (.bxor .u64) (.var 23) (.var 58)),
    .asg 35 (.bin (.bxor .u64) (.bin (.shl .u64) (.var 23) (.lit 61)) (.bin (.shr .u64) (.var 23) (.lit 3))),
    .asg 66 (.bin (.bxor .u64) (.var 31) (.bin (.band .u64) (.un (.bnot .u64) (.var 32)) (.var 33))),
    .asg 51 (.bin (.bxor .u64) (.var 51) (.var 66)),
    .asg 67 (.bin (.bxor .u64) (.var 32) (.bin (.band .u64) (.un (.bnot .u64) (.var 33)) (.var 34))),
    .asg 52 (.bin (.bxor .u64) (.var 52) (.var 67)),
    .asg 68 (.bin (.bxor .u64) (.var 33) (.bin (.band .u64) (.un (.bnot .u64) (.var 34)) (.var 35)))]

/-- part of `KeccakP1600_Permute_24rounds` -/
def KeccakP1600_Permute_24rounds.part23 : Stmt :=
  block [
    .asg 53 (.bin (.bxor .u64) (.var 53) (.var 68)),
    .asg 69 (.bin (.bxor .u64) (.var 34) (.bin (.band .u64) (.un (.bnot .u64) (.var 35)) (.var 31))),
    .asg 54 (.bin (.bxor .u64) (.var 54) (.var 69)),
    .asg 70 (.bin (.bxor .u64) (.var 35) (.bin (.band .u64) (.un (.bnot .u64) (.var 31)) (.var 32))),
    .asg 55 (.bin (.bxor .u64) (.var 55) (.var 70)),
    .asg 2 (.bin (.bxor .u64) (.var 2) (.var 57)),
    .asg 36 (.bin (.bxor .u64) (.bin (.shl .u64) (.var 2) (.lit 1)) (.bin (.shr .u64) (.var 2) (.lit 63))),
    .asg 8 (.bin (.bxor .u64) (.var 8) (.var 58)),
    .asg 37 (.bin (.bxor .u64) (.bin (.shl .u64) (.var 8) (.lit 6)) (.bin (.shr .u64) (.var 8) (.lit 58))),
    .asg 14 (.bin (.bxor .u64) (.var 14) (.var 59)),
    .asg 38 (.bin (.bxor .u64) (.bin (.shl .u64) (.var 14) (.lit 25)) (.bin (.shr .u64) (.var 14) (.lit 39))),
    .asg 20 (.bin (.bxor .u64) (.var 20) (.var 60)),
    .asg 39 (.bin (.bxor .u64) (.bin (.shl .u64) (.var 20) (.lit 8)) (.bin (.shr .u64) (.var 20) (.lit 56))),
    .asg 21 (.bin (.bxor .u64) (.var 21) (.var 56)),
    .asg 40 (.bin (.bxor .u64) (.bin (.shl .u64) (.var 21) (.lit 18)) (.bin (.shr .u64) (.var 21) (.lit 46))),
    .asg 71 (.bin (.bxor .u64) (.var 36) (.bin (.band .u64) (.un (.bnot .u64) (.var 37)) (.var 38))),
    .asg 51 (.bin (.bxor .u64) (.var 51) (.var 71)),
    .asg 72 (.bin (.bxor .u64) (.var 37) (.bin (.band .u64) (.un (.bnot .u64) (.var 38)) (.var 39))),
    .asg 52 (.bin (.bxor .u64) (.var 52) (.var 72)),
    .asg 73 (.bin (.bxor .u64) (.var 38) (.bin (.band .u64) (.un (.bnot .u64) (.var 39)) (.var 40))),
    .asg 53 (.bin (.bxor .u64) (.var 53) (.var 73)),
    .asg 74 (.bin (.bxor .u64) (.var 39) (.bin (.band .u64) (.un (.bnot .u64) (.var 40)) (.var 36))),
    .asg 54 (.bin (.bxor .u64) (.var 54) (.var 74)),
    .asg 75 (.bin (.bxor .u64) (.var 40) (.bin (.band .u64) (.un (.bnot .u64) (.var 36)) (.var 37))),
    .asg 55 (.bin (.bxor .u64) (.var 55) (.var 75)),
    .asg 5 (.bin (.bxor .u64) (.var 5) (.var 60)),
    .asg 41 (.bin (.bxor .u64) (.bin (.shl .u64) (.var 5) (.lit 27)) (.bin (.shr .u64) (.var 5) (.lit 37))),
    .asg 6 (.bin (.bxor .u64) (.var 6) (.var 56)),
    .asg 42 (.bin (.bxor .u64) (.bin (.shl .u64) (.var 6) (.lit 36)) (.bin (.shr .u64) (.var 6) (.lit 28))),
    .asg 12 (.bin (.bxor .u64) (.var 12) (.var 57)),
    .asg 43 (.bin (.bxor .u64) (.bin (.shl .u64) (.var 12) (.lit 10)) (.bin (.shr .u64) (.var 12) (.lit 54))),
    .asg 18 (.bin (.bxor .u64) (.var 18) (.var 58)),
    .asg 44 (.bin (.bxor .u64) (.bin (.shl .u64) (.var 18) (.lit 15)) (.bin (.shr .u64) (.var 18) (.lit 49))),
    .asg 24 (.bin (.bxor .u64) (.var 24) (.var 59)),
    .asg 45 (.bin (.bxor .u64) (.bin (.shl .u64) (.var 24) (.lit 56)) (.bin (.shr .u64) (.var 24) (.lit 8))),
    .asg 76 (.bin (.bxor .u64) (.var 41) (.bin (.band .u64) (.un (.bnot .u64) (.var 42)) (.var 43))),
    .asg 51 (.bin (.bxor .u64) (.var 51) (.var 76)),
    .asg 77 (.bin (.bxor .u64) (.var 42) (.bin (.band .u64) (.un (.bnot .u64) (.var 43)) (.var 44))),
    .asg 52 (.bin (.bxor .u64) (.var 52) (.var 77)),
    .asg 78 (.bin (.bxor .u64) (.var 43) (.bin (.band .u64) (.un (.bnot .u64) (.var 44)) (.var 45)))]

/-- part of `KeccakP1600_Permute_24rounds` -/
def KeccakP1600_Permute_24rounds.part24 : Stmt :=
  block [
    .asg 53 (.bin (.bxor .u64) (.var 53) (.var 78)),
    .asg 79 (.bin (.bxor .u64) (.var 44) (.bin (.band .u64) (.un (.bnot .u64) (.var 45)) (.var 41))),
    .asg 54 (.bin (.bxor .u64) (.var 54) (.var 79)),
    .asg 80 (.bin (.bxor .u64) (.var 45) (.bin (.band .u64) (.un (.bnot .u64) (.var 41)) (.var 42))),
    .asg 55 (.bin (.bxor .u64) (.var 55) (.var 80)),
    .asg 3 (.bin (.bxor .u64) (.var 3) (.var 58)),
    .asg 46 (.bin (.bxor .u64) (.bin (.shl .u64) (.var 3) (.lit 62)) (.bin (.shr .u64) (.var 3) (.lit 2))),
    .asg 9 (.bin (.bxor .u64) (.var 9) (.var 59)),
    .asg 47 (.bin (.bxor .u64) (.bin (.shl .u64) (.var 9) (.lit 55)) (.bin (.shr .u64) (.var 9) (.lit 9))),
    .asg 15 (.bin (.bxor .u64) (.var 15) (.var 60)),
    .asg 48 (.bin (.bxor .u64) (.bin (.shl .u64) (.var 15) (.lit 39)) (.bin (.shr .u64) (.var 15) (.lit 25))),
    .asg 16 (.bin (.bxor .u64) (.var 16) (.var 56)),
    .asg 49 (.bin (.bxor .u64) (.bin (.shl .u64) (.var 16) (.lit 41)) (.bin (.shr .u64) (.var 16) (.lit 23))),
    .asg 22 (.bin (.bxor .u64) (.var 22) (.var 57)),
    .asg 50 (.bin (.bxor .u64) (.bin (.shl .u64) (.var 22) (.lit 2)) (.bin (.shr .u64) (.var 22) (.lit 62))),
    .asg 81 (.bin (.bxor .u64) (.var 46) (.bin (.band .u64) (.un (.bnot .u64) (.var 47)) (.var 48))),
    .asg 51 (.bin (.bxor .u64) (.var 51) (.var 81)),
    .asg 82 (.bin (.bxor .u64) (.var 47) (.bin (.band .u64) (.un (.bnot .u64) (.var 48)) (.var 49))),
    .asg 52 (.bin (.bxor .u64) (.var 52) (.var 82)),
    .asg 83 (.bin (.bxor .u64) (.var 48) (.bin (.band .u64) (.un (.bnot .u64) (.var 49)) (.var 50))),
    .asg 53 (.bin (.bxor .u64) (.var 53) (.var 83)),
    .asg 84 (.bin (.bxor .u64) (.var 49) (.bin (.band .u64) (.un (.bnot .u64) (.var 50)) (.var 46))),
    .asg 54 (.bin (.bxor .u64) (.var 54) (.var 84)),
    .asg 85 (.bin (.bxor .u64) (.var 50) (.bin (.band .u64) (.un (.bnot .u64) (.var 46)) (.var 47))),
    .asg 55 (.bin (.bxor .u64) (.var 55) (.var 85)),
    .asg 56 (.bin (.bxor .u64) (.var 55) (.bin (.bxor .u64) (.bin (.shl .u64) (.var 52) (.lit 1)) (.bin (.shr .u64)
      (.var 52) (.lit 63)))),
    .asg 57 (.bin (.bxor .u64) (.var 51) (.bin (.bxor .u64) (.bin (.shl .u64) (.var 53) (.lit 1)) (.bin (.shr .u64)
      (.var 53) (.lit 63)))),
    .asg 58 (.bin (.bxor .u64) (.var 52) (.bin (.bxor .u64) (.bin (.shl .u64) (.var 54) (.lit 1)) (.bin (.shr .u64)
      (.var 54) (.lit 63)))),
    .asg 59 (.bin (.bxor .u64) (.var 53) (.bin (.bxor .u64) (.bin (.shl .u64) (.var 55) (.lit 1)) (.bin (.shr .u64)
      (.var 55) (.lit 63)))),
    .asg 60 (.bin (.bxor .u64) (.var 54) (.bin (.bxor .u64) (.bin (.shl .u64) (.var 51) (.lit 1)) (.bin (.shr .u64)
      (.var 51) (.lit 63)))),
    .asg 61 (.bin (.bxor .u64) (.var 61) (.var 56)),
    .asg 26 (.var 61),
    .asg 67 (.bin (.bxor .u64) (.var 67) (.var 57)),
    .asg 27 (.bin (.bxor .u64) (.bin (.shl .u64) (.var 67) (.lit 44)) (.bin (.shr .u64) (.var 67) (.lit 20))),
    .asg 73 (.bin (.bxor .u64) (.var 73) (.var 58)),
    .asg 28 (.bin (.bxor .u64) (.bin (.shl .u64) (.var 73) (.lit 43)) (.bin (.shr .u64) (.var 73) (.lit 21))),
    .asg 79 (.bin (.bxor .u64) (.var 79) (.var 59)),
    .asg 29 (.bin (.bxor .u64) (.bin (.shl .u64) (.var 79) (.lit 21)) (.bin (.shr .u64) (.var 79) (.lit 43))),
    .asg 85 (.bin (.bxor .u64) (.var 85) (.var 60)),
    .asg 30 (.bin (.bxor .u64) (.bin (.shl .u64) (.var 85) (.lit 14)) (.bin (.shr .u64) (.var 85) (.lit 50)))]

/-- part of `KeccakP1600_Permute_24rounds` -/
def KeccakP1600_Permute_24rounds.part25 : Stmt :=
  block [
    .asg 1 (.bin (.bxor .u64) (.var 26) (.bin (.band .u64) (.un (.bnot .u64) (.var 27)) (.var 28))),
    .asg 1 (.bin (.bxor .u64) (.var 1) (.ld 8 (.padd (.glob 0) (.lit 9) 8))),
    .asg 51 (.var 1),
    .asg 2 (.bin (.bxor .u64) (.var 27) (.bin (.band .u64) (.un (.bnot .u64) (.var 28)) (.var 29))),
    .asg 52 (.var 2),
    .asg 3 (.bin (.bxor .u64) (.var 28) (.bin (.band .u64) (.un (.bnot .u64) (.var 29)) (.var 30))),
    .asg 53 (.var 3),
    .asg 4 (.bin (.bxor .u64) (.var 29) (.bin (.band .u64) (.un (.bnot .u64) (.var 30)) (.var 26))),
    .asg 54 (.var 4),
    .asg 5 (.bin (.bxor .u64) (.var 30) (.bin (.band .u64) (.un (.bnot .u64) (.var 26)) (.var 27))),
    .asg 55 (.var 5),
    .asg 64 (.bin (.bxor .u64) (.var 64) (.var 59)),
    .asg 31 (.bin (.bxor .u64) (.bin (.shl .u64) (.var 64) (.lit 28)) (.bin (.shr .u64) (.var 64) (.lit 36))),
    .asg 70 (.bin (.bxor .u64) (.var 70) (.var 60)),
    .asg 32 (.bin (.bxor .u64) (.bin (.shl .u64) (.var 70) (.lit 20)) (.bin (.shr .u64) (.var 70) (.lit 44))),
    .asg 71 (.bin (.bxor .u64) (.var 71) (.var 56)),
    .asg 33 (.bin (.bxor .u64) (.bin (.shl .u64) (.var 71) (.lit 3)) (.bin (.shr .u64) (.var 71) (.lit 61))),
    .asg 77 (.bin (.bxor .u64) (.var 77) (.var 57)),
    .asg 34 (.bin (.bxor .u64) (.bin (.shl .u64) (.var 77) (.lit 45)) (.bin (.shr .u64) (.var 77) (.lit 19))),
    .asg 83 (.bin (.bxor .u64) (.var 83) (.var 58)),
    .asg 35 (.bin (.bxor .u64) (.bin (.shl .u64) (.var 83) (.lit 61)) (.bin (.shr .u64) (.var 83) (.lit 3))),
    .asg 6 (.bin (.bxor .u64) (.var 31) (.bin (.band .u64) (.un (.bnot .u64) (.var 32)) (.var 33))),
    .asg 51 (.bin (.bxor .u64) (.var 51) (.var 6)),
    .asg 7 (.bin (.bxor .u64) (.var 32) (.bin (.band .u64) (.un (.bnot .u64) (.var 33)) (.var 34))),
    .asg 52 (.bin (.bxor .u64) (.var 52) (.var 7)),
    .asg 8 (.bin (.bxor .u64) (.var 33) (.bin (.band .u64) (.un (.bnot .u64) (.var 34)) (.var 35))),
    .asg 53 (.bin (.bxor .u64) (.var 53) (.var 8)),
    .asg 9 (.bin (.bxor .u64) (.var 34) (.bin (.band .u64) (.un (.bnot .u64) (.var 35)) (.var 31))),
    .asg 54 (.bin (.bxor .u64) (.var 54) (.var 9)),
    .asg 10 (.bin (.bxor .u64) (.var 35) (.bin (.band .u64) (.un (.bnot .u64) (.var 31)) (.var 32))),
    .asg 55 (.bin (.bxor .u64) (.var 55) (.var 10)),
    .asg 62 (.bin (.bxor .u64) (.var 62) (.var 57)),
    .asg 36 (.bin (.bxor .u64) (.bin (.shl .u64) (.var 62) (.lit 1)) (.bin (.shr .u64) (.var 62) (.lit 63))),
    .asg 68 (.bin (.bxor .u64) (.var 68) (.var 58)),
    .asg 37 (.bin (.bxor .u64) (.bin (.shl .u64) (.var 68) (.lit 6)) (.bin (.shr .u64) (.var 68) (.lit 58))),
    .asg 74 (.bin (.bxor .u64) (.var 74) (.var 59)),
    .asg 38 (.bin (.bxor .u64) (.bin (.shl .u64) (.var 74) (.lit 25)) (.bin (.shr .u64) (.var 74) (.lit 39))),
    .asg 80 (.bin (.bxor .u64) (.var 80) (.var 60)),
    .asg 39 (.bin (.bxor .u64) (.bin (.shl .u64) (.var 80) (.lit 8)) (.bin (.shr .u64) (.var 80) (.lit 56))),
    .asg 81 (.bin (.bxor .u64) (.var 81) (.var 56))]

/-- part of `KeccakP1600_Permute_24rounds` -/
def KeccakP1600_Permute_24rounds.part26 : Stmt :=
  block [
    .asg 40 (.bin (.bxor .u64) (.bin (.shl .u64) (.var 81) (.lit 18)) (.bin (.shr .u64) (.var 81) (.lit 46))),
    .asg 11 (.bin (.bxor .u64) (.var 36) (.bin (.band .u64) (.un (.bnot .u64) (.var 37)) (.var 38))),
    .asg 51 (.bin (.bxor .u64) (.var 51) (.var 11)),
    .asg 12 (.bin (.bxor .u64) (.var 37) (.bin (.band .u64) (.un (.bnot .u64) (.var 38)) (.var 39))),
    .asg 52 (.bin (.bxor .u64) (.var 52) (.var 12)),
    .asg 13 (.bin (.bxor .u64) (.var 38) (.bin (.band .u64) (.un (.bnot .u64) (.var 39)) (.var 40))),
    .asg 53 (.bin (.bxor .u64) (.var 53) (.var 13)),
    .asg 14 (.bin (.bxor .u64) (.var 39) (.bin (.band .u64) (.un (.bnot .u64) (.var 40)) (.var 36))),
    .asg 54 (.bin (.bxor .u64) (.var 54) (.var 14)),
    .asg 15 (.bin (.bxor .u64) (.var 40) (.bin (.band .u64) (.un (.bnot .u64) (.var 36)) (.var 37))),
    .asg 55 (.bin (.bxor .u64) (.var 55) (.var 15)),
    .asg 65 (.bin (.bxor .u64) (.var 65) (.var 60)),
    .asg 41 (.bin (.bxor .u64) (.bin (.shl .u64) (.var 65) (.lit 27)) (.bin (.shr .u64) (.var 65) (.lit 37))),
    .asg 66 (.bin (.bxor .u64) (.var 66) (.var 56)),
    .asg 42 (.bin (.bxor .u64) (.bin (.shl .u64) (.var 66) (.lit 36)) (.bin (.shr .u64) (.var 66) (.lit 28))),
    .asg 72 (.bin (.bxor .u64) (.var 72) (.var 57)),
    .asg 43 (.bin (.bxor .u64) (.bin (.shl .u64) (.var 72) (.lit 10)) (.bin (.shr .u64) (.var 72) (.lit 54))),
    .asg 78 (.bin (.bxor .u64) (.var 78) (.var 58)),
    .asg 44 (.bin (.bxor .u64) (.bin (.shl .u64) (.var 78) (.lit 15)) (.bin (.shr .u64) (.var 78) (.lit 49))),
    .asg 84 (.bin (.bxor .u64) (.var 84) (.var 59)),
    .asg 45 (.bin (.bxor .u64) (.bin (.shl .u64) (.var 84) (.lit 56)) (.bin (.shr .u64) (.var 84) (.lit 8))),
    .asg 16 (.bin (.bxor .u64) (.var 41) (.bin (.band .u64) (.un (.bnot .u64) (.var 42)) (.var 43))),
    .asg 51 (.bin (.bxor .u64) (.var 51) (.var 16)),
    .asg 17 (.bin (.bxor .u64) (.var 42) (.bin (.band .u64) (.un (.bnot .u64) (.var 43)) (.var 44))),
    .asg 52 (.bin (.bxor .u64) (.var 52) (.var 17)),
    .asg 18 (.bin (.bxor .u64) (.var 43) (.bin (.band .u64) (.un (.bnot .u64) (.var 44)) (.var 45))),
    .asg 53 (.bin (.bxor .u64) (.var 53) (.var 18)),
    .asg 19 (.bin (.bxor .u64) (.var 44) (.bin (.band .u64) (.un (.bnot .u64) (.var 45)) (.var 41))),
    .asg 54 (.bin (.bxor .u64) (.var 54) (.var 19)),
    .asg 20 (.bin (.bxor .u64) (.var 45) (.bin (.band .u64) (.un (.bnot .u64) (.var 41)) (.var 42))),
    .asg 55 (.bin (.bxor .u64) (.var 55) (.var 20)),
    .asg 63 (.bin (.bxor .u64) (.var 63) (.var 58)),
    .asg 46 (.bin (.bxor .u64) (.bin (.shl .u64) (.var 63) (.lit 62)) (.bin (.shr .u64) (.var 63) (.lit 2))),
    .asg 69 (.bin (.bxor .u64) (.var 69) (.var 59)),
    .asg 47 (.bin (.bxor .u64) (.bin (.shl .u64) (.var 69) (.lit 55)) (.bin (.shr .u64) (.var 69) (.lit 9))),
    .asg 75 (.bin (.bxor .u64) (.var 75) (.var 60)),
    .asg 48 (.bin (.bxor .u64) (.bin (.shl .u64) (.var 75) (.lit 39)) (.bin (.shr .u64) (.var 75) (.lit 25))),
    .asg 76 (.bin (.bxor .u64) (.var 76) (.var 56)),
    .asg 49 (.bin (.bxor .u64) (.bin (.shl .u64) (.var 76) (.lit 41)) (.bin (.shr .u64) (.var 76) (.lit 23))),
    .asg 82 (.bin (.bxor .u64) (.var 82) (.var 57))]

/-- part of `KeccakP1600_Permute_24rounds` -/
def KeccakP1600_Permute_24rounds.part27 : Stmt :=
  block [
    .asg 50 (.bin (.bxor .u64) (.bin (.shl .u64) (.var 82) (.lit 2)) (.bin (.shr .u64) (.var 82) (.lit 62))),
    .asg 21 (.bin (.bxor .u64) (.var 46) (.bin (.band .u64) (.un (.bnot .u64) (.var 47)) (.var 48))),
    .asg 51 (.bin (.bxor .u64) (.var 51) (.var 21)),
    .asg 22 (.bin (.bxor .u64) (.var 47) (.bin (.band .u64) (.un (.bnot .u64) (.var 48)) (.var 49))),
    .asg 52 (.bin (.bxor .u64) (.var 52) (.var 22)),
    .asg 23 (.bin (.bxor .u64) (.var 48) (.bin (.band .u64) (.un (.bnot .u64) (.var 49)) (.var 50))),
    .asg 53 (.bin (.bxor .u64) (.var 53) (.var 23)),
    .asg 24 (.bin (.bxor .u64) (.var 49) (.bin (.band .u64) (.un (.bnot .u64) (.var 50)) (.var 46))),
    .asg 54 (.bin (.bxor .u64) (.var 54) (.var 24)),
    .asg 25 (.bin (.bxor .u64) (.var 50) (.bin (.band .u64) (.un (.bnot .u64) (.var 46)) (.var 47))),
    .asg 55 (.bin (.bxor .u64) (.var 55) (.var 25)),
    .asg 56 (.bin (.bxor .u64) (.var 55) (.bin (.bxor .u64) (.bin (.shl .u64) (.var 52) (.lit 1)) (.bin (.shr .u64)
      (.var 52) (.lit 63)))),
    .asg 57 (.bin (.bxor .u64) (.var 51) (.bin (.bxor .u64) (.bin (.shl .u64) (.var 53) (.lit 1)) (.bin (.shr .u64)
      (.var 53) (.lit 63)))),
    .asg 58 (.bin (.bxor .u64) (.var 52) (.bin (.bxor .u64) (.bin (.shl .u64) (.var 54) (.lit 1)) (.bin (.shr .u64)
      (.var 54) (.lit 63)))),
    .asg 59 (.bin (.bxor .u64) (.var 53) (.bin (.bxor .u64) (.bin (.shl .u64) (.var 55) (.lit 1)) (.bin (.shr .u64)
      (.var 55) (.lit 63)))),
    .asg 60 (.bin (.bxor .u64) (.var 54) (.bin (.bxor .u64) (.bin (.shl .u64) (.var 51) (.lit 1)) (.bin (.shr .u64)
      (.var 51) (.lit 63)))),
    .asg 1 (.bin (.bxor .u64) (.var 1) (.var 56)),
    .asg 26 (.var 1),
    .asg 7 (.bin (.bxor .u64) (.var 7) (.var 57)),
    .asg 27 (.bin (.bxor .u64) (.bin (.shl .u64) (.var 7) (.lit 44)) (.bin (.shr .u64) (.var 7) (.lit 20))),
    .asg 13 (.bin (.bxor .u64) (.var 13) (.var 58)),
    .asg 28 (.bin (.bxor .u64) (.bin (.shl .u64) (.var 13) (.lit 43)) (.bin (.shr .u64) (.var 13) (.lit 21))),
    .asg 19 (.bin (.bxor .u64) (.var 19) (.var 59)),
    .asg 29 (.bin (.bxor .u64) (.bin (.shl .u64) (.var 19) (.lit 21)) (.bin (.shr .u64) (.var 19) (.lit 43))),
    .asg 25 (.bin (.bxor .u64) (.var 25) (.var 60)),
    .asg 30 (.bin (.bxor .u64) (.bin (.shl .u64) (.var 25) (.lit 14)) (.bin (.shr .u64) (.var 25) (.lit 50))),
    .asg 61 (.bin (.bxor .u64) (.var 26) (.bin (.band .u64) (.un (.bnot .u64) (.var 27)) (.var 28))),
    .asg 61 (.bin (.bxor .u64) (.var 61) (.ld 8 (.padd (.glob 0) (.lit 10) 8))),
    .asg 51 (.var 61),
    .asg 62 (.bin (.bxor .u64) (.var 27) (.bin (.band .u64) (.un (.bnot .u64) (.var 28)) (.var 29))),
    .asg 52 (.var 62),
    .asg 63 (.bin (.bxor .u64) (.var 28) (.bin (.band .u64) (.un (.bnot .u64) (.var 29)) (.var 30))),
    .asg 53 (.var 63),
    .asg 64 (.bin (.bxor .u64) (.var 29) (.bin (.band .u64) (.un (.bnot .u64) (.var 30)) (.var 26))),
    .asg 54 (.var 64),
    .asg 65 (.bin (.bxor .u64) (.var 30) (.bin (.band .u64) (.un (.bnot .u64) (.var 26)) (.var 27))),
    .asg 55 (.var 65),
    .asg 4 (.bin (.bxor .u64) (.var 4) (.var 59)),
    .asg 31 (.bin (.bxor .u64) (.bin (.shl .u64) (.var 4) (.lit 28)) (.bin (.shr .u64) (.var 4) (.lit 36))),
    .asg 10 (.bin (.bxor .u64) (.var 10) (.var 60))]

/-- part of `KeccakP1600_Permute_24rounds` -/
def KeccakP1600_Permute_24rounds.part28 : Stmt :=
  block [
    .asg 32 (.bin (.bxor .u64) (.bin (.shl .u64) (.var 10) (.lit 20)) (.bin (.shr .u64) (.var 10) (.lit 44))),
    .asg 11 (.bin (.bxor .u64) (.var 11) (.var 56)),
    .asg 33 (.bin (.bxor .u64) (.bin (.shl .u64) (.var 11) (.lit 3)) (.bin (.shr .u64) (.var 11) (.lit 61))),
    .asg 17 (.bin (.bxor .u64) (.var 17) (.var 57)),
    .asg 34 (.bin (.bxor .u64) (.bin (.shl .u64) (.var 17) (.lit 45)) (.bin (.shr .u64) (.var 17) (.lit 19))),
    .asg 23 (.bin (.bxor .u64) (.var 23) (.var 58)),
    .asg 35 (.bin (.bxor .u64) (.bin (.shl .u64) (.var 23) (.lit 61)) (.bin (.shr .u64) (.var 23) (.lit 3))),
    .asg 66 (.bin (.bxor .u64) (.var 31) (.bin (.band .u64) (.un (.bnot .u64) (.var 32)) (.var 33))),
    .asg 51 (.bin (.bxor .u64) (.var 51) (.var 66)),
    .asg 67 (.bin (.bxor .u64) (.var 32) (.bin (.band .u64) (.un (.bnot .u64) (.var 33)) (.var 34))),
    .asg 52 (.bin (.bxor .u64) (.var 52) (.var 67)),
    .asg 68 (.bin (.bxor .u64) (.var 33) (.bin (.band .u64) (.un (.bnot .u64) (.var 34)) (.var 35))),
    .asg 53 (.bin (.bxor .u64) (.var 53) (.var 68)),
    .asg 69 (.bin (.bxor .u64) (.var 34) (.bin (.band .u64) (.un (.bnot .u64) (.var 35)) (.var 31))),
    .asg 54 (.bin (.bxor .u64) (.var 54) (.var 69)),
    .asg 70 (.bin (.bxor .u64) (.var 35) (.bin (.band .u64) (.un (.bnot .u64) (.var 31)) (.var 32))),
    .asg 55 (.bin (.bxor .u64) (.var 55) (.var 70)),
    .asg 2 (.bin (.bxor .u64) (.var 2) (.var 57)),
    .asg 36 (.bin (.bxor .u64) (.bin (.shl .u64) (.var 2) (.lit 1)) (.bin (.shr .u64) (.var 2) (.lit 63))),
    .asg 8 (.bin (.bxor .u64) (.var 8) (.var 58)),
    .asg 37 (.bin (.bxor .u64) (.bin (.shl .u64) (.var 8) (.lit 6)) (.bin (.shr .u64) (.var 8) (.lit 58))),
    .asg 14 (.bin (.bxor .u64) (.var 14) (.var 59)),
    .asg 38 (.bin (.bxor .u64) (.bin (.shl .u64) (.var 14) (.lit 25)) (.bin (.shr .u64) (.var 14) (.lit 39))),
    .asg 20 (.bin (.bxor .u64) (.var 20) (.var 60)),
    .asg 39 (.bin (.bxor .u64) (.bin (.shl .u64) (.var 20) (.lit 8)) (.bin (.shr .u64) (.var 20) (.lit 56))),
    .asg 21 (.bin (.bxor .u64) (.var 21) (.var 56)),
    .asg 40 (.bin (.bxor .u64) (.bin (.shl .u64) (.var 21) (.lit 18)) (.bin (.shr .u64) (.var 21) (.lit 46))),
    .asg 71 (.bin (.bxor .u64) (.var 36) (.bin (.band .u64) (.un (.bnot .u64) (.var 37)) (.var 38))),
    .asg 51 (.bin (.bxor .u64) (.var 51) (.var 71)),
    .asg 72 (.bin (.bxor .u64) (.var 37) (.bin (.band .u64) (.un (.bnot .u64) (.var 38)) (.var 39))),
    .asg 52 (.bin (.bxor .u64) (.var 52) (.var 72)),
    .asg 73 (.bin (.bxor .u64) (.var 38) (.bin (.band .u64) (.un (.bnot .u64) (.var 39)) (.var 40))),
    .asg 53 (.bin (.bxor .u64) (.var 53) (.var 73)),
    .asg 74 (.bin (.bxor .u64) (.var 39) (.bin (.band .u64) (.un (.bnot .u64) (.var 40)) (.var 36))),
    .asg 54 (.bin (.bxor .u64) (.var 54) (.var 74)),
    .asg 75 (.bin (.bxor .u64) (.var 40) (.bin (.band .u64) (.un (.bnot .u64) (.var 36)) (.var 37))),
    .asg 55 (.bin (.bxor .u64) (.var 55) (.var 75)),
    .asg 5 (.bin (.bxor .u64) (.var 5) (.var 60)),
    .asg 41 (.bin (.bxor .u64) (.bin (.shl .u64) (.var 5) (.lit 27)) (.bin (.shr .u64) (.var 5) (.lit 37))),
    .asg 6 (.bin (.bxor .u64) (.var 6) (.var 56))]

/-- part of `KeccakP1600_Permute_24rounds` -/
def KeccakP1600_Permute_24rounds.part29 : Stmt :=
  block [
    .asg 42 (.bin (.bxor .u64) (.bin (.shl .u64) (.var 6) (.lit 36)) (.bin (.shr .u64) (.var 6) (.lit 28))),
    .asg 12 (.bin (.bxor .u64) (.var 12) (.var 57)),
    .asg 43 (.bin (.bxor .u64) (.bin (.shl .u64) (.var 12) (.lit 10)) (.bin (.shr .u64) (.var 12) (.lit 54))),
    .asg 18 (.bin (.bxor .u64) (.var 18) (.var 58)),
    .asg 44 (.bin (.bxor .u64) (.bin (.shl .u64) (.var 18) (.lit 15)) (.bin (.shr .u64) (.var 18) (.lit 49))),
    .asg 24 (.bin (.bxor .u64) (.var 24) (.var 59)),
    .asg 45 (.bin (.bxor .u64) (.bin (.shl .u64) (.var 24) (.lit 56)) (.bin (.shr .u64) (.var 24) (.lit 8))),
    .asg 76 (.bin (.bxor .u64) (.var 41) (.bin (.band .u64) (.un (.bnot .u64) (.var 42)) (.var 43))),
    .asg 51 (.bin (.bxor .u64) (.var 51) (.var 76)),
    .asg 77 (.bin (.bxor .u64) (.var 42) (.bin (.band .u64) (.un (.bnot .u64) (.var 43)) (.var 44))),
    .asg 52 (.bin (.bxor .u64) (.var 52) (.var 77)),
    .asg 78 (.bin (.bxor .u64) (.var 43) (.bin (.band .u64) (.un (.bnot .u64) (.var 44)) (.var 45))),
    .asg 53 (.bin (.bxor .u64) (.var 53) (.var 78)),
    .asg 79 (.bin (.bxor .u64) (.var 44) (.bin (.band .u64) (.un (.bnot .u64) (.var 45)) (.var 41))),
    .asg 54 (.bin (.bxor .u64) (.var 54) (.var 79)),
    .asg 80 (.bin (.bxor .u64) (.var 45) (.bin (.band .u64) (.un (.bnot .u64) (.var 41)) (.var 42))),
    .asg 55 (.bin (.bxor .u64) (.var 55) (.var 80)),
    .asg 3 (.bin (.bxor .u64) (.var 3) (.var 58)),
    .asg 46 (.bin (.bxor .u64) (.bin (.shl .u64) (.var 3) (.lit 62)) (.bin (.shr .u64) (.var 3) (.lit 2))),
    .asg 9 (.bin (.bxor .u64) (.var 9) (.var 59)),
    .asg 47 (.bin (.bxor .u64) (.bin (.shl .u64) (.var 9) (.lit 55)) (.bin (.shr .u64) (.var 9) (.lit 9))),
    .asg 15 (.bin (.bxor .u64) (.var 15) (.var 60)),
    .asg 48 (.bin (.bxor .u64) (.bin (.shl .u64) (.var 15) (.lit 39)) (.bin (.shr .u64) (.var 15) (.lit 25))),
    .asg 16 (.bin (.bxor .u64) (.var 16) (.var 56)),
    .asg 49 (.bin (.bxor .u64) (.bin (.shl .u64) (.var 16) (.lit 41)) (.bin (.shr .u64) (.var 16) (.lit 23))),
    .asg 22 (.bin (.bxor .u64) (.var 22) (.var 57)),
    .asg 50 (.bin (.bxor .u64) (.bin (.shl .u64) (.var 22) (.lit 2)) (.bin (.shr .u64) (.var 22) (.lit 62))),
    .asg 81 (.bin (.bxor .u64) (.var 46) (.bin (.band .u64) (.un (.bnot .u64) (.var 47)) (.var 48))),
    .asg 51 (.bin (.bxor .u64) (.var 51) (.var 81)),
    .asg 82 (.bin (.bxor .u64) (.var 47) (.bin (.band .u64) (.un (.bnot .u64) (.var 48)) (.var 49))),
    .asg 52 (.bin (.bxor .u64) (.var 52) (.var 82)),
    .asg 83 (.bin (.bxor .u64) (.var 48) (.bin (.band .u64) (.un (.bnot .u64) (.var 49)) (.var 50))),
    .asg 53 (.bin (.bxor .u64) (.var 53) (.var 83)),
    .asg 84 (.bin (.bxor .u64) (.var 49) (.bin (.band .u64) (.un (.bnot .u64) (.var 50)) (.var 46))),
    .asg 54 (.bin (.bxor .u64) (.var 54) (.var 84)),
    .asg 85 (.bin (.bxor .u64) (.var 50) (.bin (.band .u64) (.un (.bnot .u64) (.var 46)) (.var 47))),
    .asg 55 (.bin (.bxor .u64) (.var 55) (.var 85)),
    .asg 56 (.bin (.bxor .u64) (.var 55) (.bin (.bxor .u64) (.bin (.shl .u64) (.var 52) (.lit 1)) (.bin (.shr .u64)
      (.var 52) (.lit 63)))),
    .asg 57 (.bin (.bxor .u64) (.var 51) (.bin (.bxor .u64) (.bin (.shl .u64) (.var 53) (.lit 1)) (.bin (.shr .u64)
      (.var 53) (.lit 63)))),
    .asg 58 (.bin (.bxor .u64) (.var 52) (.bin (.bxor .u64) (.bin (.shl .u64) (.var 54) (.lit 1)) (.bin (.shr .u64)
      (.var 54) (.lit 63))))]

/-- part of `KeccakP1600_Permute_24rounds` -/
def KeccakP1600_Permute_24rounds.part30 : Stmt :=
  block [
    .asg 59 (.bin (.bxor .u64) (.var 53) (.bin (.bxor .u64) (.bin (.shl .u64) (.var 55) (.lit 1)) (.bin (.shr .u64)
      (.var 55) (.lit 63)))),
    .asg 60 (.bin (.bxor .u64) (.var 54) (.bin (.bxor .u64) (.bin (.shl .u64) (.var 51) (.lit 1)) (.bin (.shr .u64)
      (.var 51) (.lit 63)))),
    .asg 61 (.bin (.bxor .u64) (.var 61) (.var 56)),
    .asg 26 (.var 61),
    .asg 67 (.bin (.bxor .u64) (.var 67) (.var 57)),
    .asg 27 (.bin (.bxor .u64) (.bin (.shl .u64) (.var 67) (.lit 44)) (.bin (.shr .u64) (.var 67) (.lit 20))),
    .asg 73 (.bin (.bxor .u64) (.var 73) (.var 58)),
    .asg 28 (.bin (.bxor .u64) (.bin (.shl .u64) (.var 73) (.lit 43)) (.bin (.shr .u64) (.var 73) (.lit 21))),
    .asg 79 (.bin (.bxor .u64) (.var 79) (.var 59)),
    .asg 29 (.bin (.bxor .u64) (.bin (.shl .u64) (.var 79) (.lit 21)) (.bin (.shr .u64) (.var 79) (.lit 43))),
    .asg 85 (.bin (.bxor .u64) (.var 85) (.var 60)),
    .asg 30 (.bin (.bxor .u64) (.bin (.shl .u64) (.var 85) (.lit 14)) (.bin (.shr .u64) (.var 85) (.lit 50))),
    .asg 1 (.bin (.bxor .u64) (.var 26) (.bin (.band .u64) (.un (.bnot .u64) (.var 27)) (.var 28))),
    .asg 1 (.bin (.bxor .u64) (.var 1) (.ld 8 (.padd (.glob 0) (.lit 11) 8))),
    .asg 51 (.var 1),
    .asg 2 (.bin (.bxor .u64) (.var 27) (.bin (.band .u64) (.un (.bnot .u64) (.var 28)) (.var 29))),
    .asg 52 (.var 2),
    .asg 3 (.bin (.bxor .u64) (.var 28) (.bin (.band .u64) (.un (.bnot .u64) (.var 29)) (.var 30))),
    .asg 53 (.var 3),
    .asg 4 (.bin (.bxor .u64) (.var 29) (.bin (.band .u64) (.un (.bnot .u64) (.var 30)) (.var 26))),
    .asg 54 (.var 4),
    .asg 5 (.bin (.bxor .u64) (.var 30) (.bin (.band .u64) (.un (.bnot .u64) (.var 26)) (.var 27))),
    .asg 55 (.var 5),
    .asg 64 (.bin (.bxor .u64) (.var 64) (.var 59)),
    .asg 31 (.bin (.bxor .u64) (.bin (.shl .u64) (.var 64) (.lit 28)) (.bin (.shr .u64) (.var 64) (.lit 36))),
    .asg 70 (.bin (.bxor .u64) (.var 70) (.var 60)),
    .asg 32 (.bin (.bxor .u64) (.bin (.shl .u64) (.var 70) (.lit 20)) (.bin (.shr .u64) (.var 70) (.lit 44))),
    .asg 71 (.bin (.bxor .u64) (.var 71) (.var 56)),
    .asg 33 (.bin (.bxor .u64) (.bin (.shl .u64) (.var 71) (.lit 3)) (.bin (.shr .u64) (.var 71) (.lit 61))),
    .asg 77 (.bin (.bxor .u64) (.var 77) (.var 57)),
    .asg 34 (.bin (.bxor .u64) (.bin (.shl .u64) (.var 77) (.lit 45)) (.bin (.shr .u64) (.var 77) (.lit 19))),
    .asg 83 (.bin (.bxor .u64) (.var 83) (.var 58)),
    .asg 35 (.bin (.bxor .u64) (.bin (.shl .u64) (.var 83) (.lit 61)) (.bin (.shr .u64) (.var 83) (.lit 3))),
    .asg 6 (.bin (.bxor .u64) (.var 31) (.bin (.band .u64) (.un (.bnot .u64) (.var 32)) (.var 33))),
    .asg 51 (.bin (.bxor .u64) (.var 51) (.var 6)),
    .asg 7 (.bin (.bxor .u64) (.var 32) (.bin (.band .u64) (.un (.bnot .u64) (.var 33)) (.var 34))),
    .asg 52 (.bin (.bxor .u64) (.var 52) (.var 7)),
    .asg 8 (.bin (.bxor .u64) (.var 33) (.bin (.band .u64) (.un (.bnot .u64) (.var 34)) (.var 35))),
    .asg 53 (.bin (.bxor .u64) (.var 53) (.var 8)),
    .asg 9 (.bin (.bxor .u64) (.var 34) (.bin (.band .u64) (.un (.bnot .u64) (.var 35)) (.var 31)))]

/-- part of `KeccakP1600_Permute_24rounds` -/
def KeccakP1600_Permute_24rounds.part31 : Stmt :=
  block [
    .asg 54 (.bin (.bxor .u64) (.var 54) (.var 9)),
    .asg 10 (.bin (.bxor .u64) (.var 35) (.bin (.band .u64) (.un (.bnot .u64) (.var 31)) (.var 32))),
    .asg 55 (.bin (.bxor .u64) (.var 55) (.var 10)),
    .asg 62 (.bin (.bxor .u64) (.var 62) (.var 57)),
    .asg 36 (.bin (.bxor .u64) (.bin (.shl .u64) (.var 62) (.lit 1)) (.bin (.shr .u64) (.var 62) (.lit 63))),
    .asg 68 (.bin (.bxor .u64) (.var 68) (.var 58)),
    .asg 37 (.bin (.bxor .u64) (.bin (.shl .u64) (.var 68) (.lit 6)) (.bin (.shr .u64) (.var 68) (.lit 58))),
    .asg 74 (.bin (.bxor .u64) (.var 74) (.var 59)),
    .asg 38 (.bin (.bxor .u64) (.bin (.shl .u64) (.var 74) (.lit 25)) (.bin (.shr .u64) (.var 74) (.lit 39))),
    .asg 80 (.bin (.bxor .u64) (.var 80) (.var 60)),
    .asg 39 (.bin (.bxor .u64) (.bin (.shl .u64) (.var 80) (.lit 8)) (.bin (.shr .u64) (.var 80) (.lit 56))),
    .asg 81 (.bin (.bxor .u64) (.var 81) (.var 56)),
    .asg 40 (.bin (.bxor .u64) (.bin (.shl .u64) (.var 81) (.lit 18)) (.bin (.shr .u64) (.var 81) (.lit 46))),
    .asg 11 (.bin (.bxor .u64) (.var 36) (.bin (.band .u64) (.un (.bnot .u64) (.var 37)) (.var 38))),
    .asg 51 (.bin (.bxor .u64) (.var 51) (.var 11)),
    .asg 12 (.bin (.bxor .u64) (.var 37) (.bin (.band .u64) (.un (.bnot .u64) (.var 38)) (.var 39))),
    .asg 52 (.bin (.bxor .u64) (.var 52) (.var 12)),
    .asg 13 (.bin (.bxor .u64) (.var 38) (.bin (.band .u64) (.un (.bnot .u64) (.var 39)) (.var 40))),
    .asg 53 (.bin (.bxor .u64) (.var 53) (.var 13)),
    .asg 14 (.bin (.bxor .u64) (.var 39) (.bin (.band .u64) (.un (.bnot .u64) (.var 40)) (.var 36))),
    .asg 54 (.bin (.bxor .u64) (.var 54) (.var 14)),
    .asg 15 (.bin (.bxor .u64) (.var 40) (.bin (.band .u64) (.un (.bnot .u64) (.var 36)) (.var 37))),
    .asg 55 (.bin (.bxor .u64) (.var 55) (.var 15)),
    .asg 65 (.bin (.bxor .u64) (.var 65) (.var 60)),
    .asg 41 (.bin (.bxor .u64) (.bin (.shl .u64) (.var 65) (.lit 27)) (.bin (.shr .u64) (.var 65) (.lit 37))),
    .asg 66 (.bin (.bxor .u64) (.var 66) (.var 56)),
    .asg 42 (.bin (.bxor .u64) (.bin (.shl .u64) (.var 66) (.lit 36)) (.bin (.shr .u64) (.var 66) (.lit 28))),
    .asg 72 (.bin (.bxor .u64) (.var 72) (.var 57)),
    .asg 43 (.bin (.bxor .u64) (.bin (.shl .u64) (.var 72) (.lit 10)) (.bin (.shr .u64) (.var 72) (.lit 54))),
    .asg 78 (.bin (.bxor .u64) (.var 78) (.var 58)),
    .asg 44 (.bin (.bxor .u64) (.bin (.shl .u64) (.var 78) (.lit 15)) (.bin (.shr .u64) (.var 78) (.lit 49))),
    .asg 84 (.bin (.bxor .u64) (.var 84) (.var 59)),
    .asg 45 (.bin (.bxor .u64) (.bin (.shl .u64) (.var 84) (.lit 56)) (.bin (.shr .u64) (.var 84) (.lit 8))),
    .asg 16 (.bin (.bxor .u64) (.var 41) (.bin (.band .u64) (.un (.bnot .u64) (.var 42)) (.var 43))),
    .asg 51 (.bin (.bxor .u64) (.var 51) (.var 16)),
    .asg 17 (.bin (.bxor .u64) (.var 42) (.bin (.band .u64) (.un (.bnot .u64) (.var 43)) (.var 44))),
    .asg 52 (.bin (.bxor .u64) (.var 52) (.var 17)),
    .asg 18 (.bin (.bxor .u64) (.var 43) (.bin (.band .u64) (.un (.bnot .u64) (.var 44)) (.var 45))),
    .asg 53 (.bin (.bxor .u64) (.var 53) (.var 18)),
    .asg 19 (.bin (.bxor .u64) (.var 44) (.bin (.band .u64) (.un (.bnot .u64) (.var 45)) (.var 41)))]

/-- part of `KeccakP1600_Permute_24rounds` -/
def KeccakP1600_Permute_24rounds.part32 : Stmt :=
  block [
    .asg 54 (.bin (.bxor .u64) (.var 54) (.var 19)),
    .asg 20 (.bin (.bxor .u64) (.var 45) (.bin (.band .u64) (.un (.bnot .u64) (.var 41)) (.var 42))),
    .asg 55 (.bin (.bxor .u64) (.var 55) (.var 20)),
    .asg 63 (.bin (.bxor .u64) (.var 63) (.var 58)),
    .asg 46 (.bin (.bxor .u64) (.bin (.shl .u64) (.var 63) (.lit 62)) (.bin (.shr .u64) (.var 63) (.lit 2))),
    .asg 69 (.bin (.bxor .u64) (.var 69) (.var 59)),
    .asg 47 (.bin (.bxor .u64) (.bin (.shl .u64) (.var 69) (.lit 55)) (.bin (.shr .u64) (.var 69) (.lit 9))),
    .asg 75 (.bin (.bxor .u64) (.var 75) (.var 60)),
    .asg 48 (.bin (.bxor .u64) (.bin (.shl .u64) (.var 75) (.lit 39)) (.bin (.shr .u64) (.var 75) (.lit 25))),
    .asg 76 (.bin (.bxor .u64) (.var 76) (.var 56)),
    .asg 49 (.bin (.bxor .u64) (.bin (.shl .u64) (.var 76) (.lit 41)) (.bin (.shr .u64) (.var 76) (.lit 23))),
    .asg 82 (.bin (.bxor .u64) (.var 82) (.var 57)),
    .asg 50 (.bin (.bxor .u64) (.bin (.shl .u64) (.var 82) (.lit 2)) (.bin (.shr .u64) (.var 82) (.lit 62))),
    .asg 21 (.bin (.bxor .u64) (.var 46) (.bin (.band .u64) (.un (.bnot .u64) (.var 47)) (.var 48))),
    .asg 51 (.bin (.bxor .u64) (.var 51) (.var 21)),
    .asg 22 (.bin (.bxor .u64) (.var 47) (.bin (.band .u64) (.un (.bnot .u64) (.var 48)) (.var 49))),
    .asg 52 (.bin (.bxor .u64) (.var 52) (.var 22)),
    .asg 23 (.bin (.bxor .u64) (.var 48) (.bin (.band .u64) (.un (.bnot .u64) (.var 49)) (.var 50))),
    .asg 53 (.bin (.bxor .u64) (.var 53) (.var 23)),
    .asg 24 (.bin (.bxor .u64) (.var 49) (.bin (.band .u64) (.un (.bnot .u64) (.var 50)) (.var 46))),
    .asg 54 (.bin (.bxor .u64) (.var 54) (.var 24)),
    .asg 25 (.bin (.bxor .u64) (.var 50) (.bin (.band .u64) (.un (.bnot .u64) (.var 46)) (.var 47))),
    .asg 55 (.bin (.bxor .u64) (.var 55) (.var 25)),
    .asg 56 (.bin (.bxor .u64) (.var 55) (.bin (.bxor .u64) (.bin (.shl .u64) (.var 52) (.lit 1)) (.bin (.shr .u64)
      (.var 52) (.lit 63)))),
    .asg 57 (.bin (.bxor .u64) (.var 51) (.bin (.bxor .u64) (.bin (.shl .u64) (.var 53) (.lit 1)) (.bin (.shr .u64)
      (.var 53) (.lit 63)))),
    .asg 58 (.bin (.bxor .u64) (.var 52) (.bin (.bxor .u64) (.bin (.shl .u64) (.var 54) (.lit 1)) (.bin (.shr .u64)
      (.var 54) (.lit 63)))),
    .asg 59 (.bin (.bxor .u64) (.var 53) (.bin (.bxor .u64) (.bin (.shl .u64) (.var 55) (.lit 1)) (.bin (.shr .u64)
      (.var 55) (.lit 63)))),
    .asg 60 (.bin (.bxor .u64) (.var 54) (.bin (.bxor .u64) (.bin (.shl .u64) (.var 51) (.lit 1)) (.bin (.shr .u64)
      (.var 51) (.lit 63)))),
    .asg 1 (.bin (.bxor .u64) (.var 1) (.var 56)),
    .asg 26 (.var 1),
    .asg 7 (.bin (.bxor .u64) (.var 7) (.var 57)),
    .asg 27 (.bin (.bxor .u64) (.bin (.shl .u64) (.var 7) (.lit 44)) (.bin (.shr .u64) (.var 7) (.lit 20))),
    .asg 13 (.bin (.bxor .u64) (.var 13) (.var 58)),
    .asg 28 (.bin (.bxor .u64) (.bin (.shl .u64) (.var 13) (.lit 43)) (.bin (.shr .u64) (.var 13) (.lit 21))),
    .asg 19 (.bin (.bxor .u64) (.var 19) (.var 59)),
    .asg 29 (.bin (.bxor .u64) (.bin (.shl .u64) (.var 19) (.lit 21)) (.bin (.shr .u64) (.var 19) (.lit 43))),
    .asg 25 (.bin (.bxor .u64) (.var 25) (.var 60)),
    .asg 30 (.bin (.bxor .u64) (.bin (.shl .u64) (.var 25) (.lit 14)) (.bin (.shr .u64) (.var 25) (.lit 50))),
    .asg 61 (.bin (.bxor .u64) (.var 26) (.bin (.band .u64) (.un (.bnot .u64) (.var 27)) (.var 28))),
    .asg 61 (.bin (.bxor .u64) (.var 61) (.ld 8 (.padd (.glob 0) (.lit 12) 8)))]

/-- part of `KeccakP1600_Permute_24rounds` -/
def KeccakP1600_Permute_24rounds.part33 : Stmt :=
  block [
    .asg 51 (.var 61),
    .asg 62 (.bin (.bxor .u64) (.var 27) (.bin (.band .u64) (.un (.bnot .u64) (.var 28)) (.var 29))),
    .asg 52 (.var 62),
    .asg 63 (.bin (.bxor .u64) (.var 28) (.bin (.band .u64) (.un (.bnot .u64) (.var 29)) (.var 30))),
    .asg 53 (.var 63),
    .asg 64 (.bin (.bxor .u64) (.var 29) (.bin (.band .u64) (.un (.bnot .u64) (.var 30)) (.var 26))),
    .asg 54 (.var 64),
    .asg 65 (.bin (.bxor .u64) (.var 30) (.bin (.band .u64) (.un (.bnot .u64) (.var 26)) (.var 27))),
    .asg 55 (.var 65),
    .asg 4 (.bin (.bxor .u64) (.var 4) (.var 59)),
    .asg 31 (.bin (.bxor .u64) (.bin (.shl .u64) (.var 4) (.lit 28)) (.bin (.shr .u64) (.var 4) (.lit 36))),
    .asg 10 (.bin (.bxor .u64) (.var 10) (.var 60)),
    .asg 32 (.bin (.bxor .u64) (.bin (.shl .u64) (.var 10) (.lit 20)) (.bin (.shr .u64) (.var 10) (.lit 44))),
    .asg 11 (.bin (.bxor .u64) (.var 11) (.var 56)),
    .asg 33 (.bin (.bxor .u64) (.bin (.shl .u64) (.var 11) (.lit 3)) (.bin (.shr .u64) (.var 11) (.lit 61))),
    .asg 17 (.bin (.bxor .u64) (.var 17) (.var 57)),
    .asg 34 (.bin (.bxor .u64) (.bin (.shl .u64) (.var 17) (.lit 45)) (.bin (.shr .u64) (.var 17) (.lit 19))),
    .asg 23 (.bin (.bxor .u64) (.var 23) (.var 58)),
    .asg 35 (.bin (.bxor .u64) (.bin (.shl .u64) (.var 23) (.lit 61)) (.bin (.shr .u64) (.var 23) (.lit 3))),
    .asg 66 (.bin (.bxor .u64) (.var 31) (.bin (.band .u64) (.un (.bnot .u64) (.var 32)) (.var 33))),
    .asg 51 (.bin (.bxor .u64) (.var 51) (.var 66)),
    .asg 67 (.bin (.bxor .u64) (.var 32) (.bin (.band .u64) (.un (.bnot .u64) (.var 33)) (.var 34))),
    .asg 52 (.bin (.bxor .u64) (.var 52) (.var 67)),
    .asg 68 (.bin (.bxor .u64) (.var 33) (.bin (.band .u64) (.un (.bnot .u64) (.var 34)) (.var 35))),
    .asg 53 (.bin (.bxor .u64) (.var 53) (.var 68)),
    .asg 69 (.bin (.bxor .u64) (.var 34) (.bin (.band .u64) (.un (.bnot .u64) (.var 35)) (.var 31))),
    .asg 54 (.bin (.bxor .u64) (.var 54) (.var 69)),
    .asg 70 (.bin (.bxor .u64) (.var 35) (.bin (.band .u64) (.un (.bnot .u64) (.var 31)) (.var 32))),
    .asg 55 (.bin (.bxor .u64) (.var 55) (.var 70)),
    .asg 2 (.bin (.bxor .u64) (.var 2) (.var 57)),
    .asg 36 (.bin (.bxor .u64) (.bin (.shl .u64) (.var 2) (.lit 1)) (.bin (.shr .u64) (.var 2) (.lit 63))),
    .asg 8 (.bin (.bxor .u64) (.var 8) (.var 58)),
    .asg 37 (.bin (.bxor .u64) (.bin (.shl .u64) (.var 8) (.lit 6)) (.bin (.shr .u64) (.var 8) (.lit 58))),
    .asg 14 (.bin (.bxor .u64) (.var 14) (.var 59)),
    .asg 38 (.bin (.bxor .u64) (.bin (.shl .u64) (.var 14) (.lit 25)) (.bin (.shr .u64) (.var 14) (.lit 39))),
    .asg 20 (.bin (.bxor .u64) (.var 20) (.var 60)),
    .asg 39 (.bin (.bxor .u64) (.bin (.shl .u64) (.var 20) (.lit 8)) (.bin (.shr .u64) (.var 20) (.lit 56))),
    .asg 21 (.bin (.bxor .u64) (.var 21) (.var 56)),
    .asg 40 (.bin (.bxor .u64) (.bin (.shl .u64) (.var 21) (.lit 18)) (.bin (.shr .u64) (.var 21) (.lit 46))),
    .asg 71 (.bin (.bxor .u64) (.var 36) (.bin (.band .u64) (.un (.bnot .u64) (.var 37)) (.var 38)))]

/-- part of `KeccakP1600_Permute_24rounds` -/
def KeccakP1600_Permute_24rounds.part34 : Stmt :=
  block [
    .asg 51 (.bin (.bxor .u64) (.var 51) (.var 71)),
    .asg 72 (.bin (.bxor .u64) (.var 37) (.bin (.band .u64) (.un (.bnot .u64) (.var 38)) (.var 39))),
    .asg 52 (.bin (.bxor .u64) (.var 52) (.var 72)),
    .asg 73 (.bin (.bxor .u64) (.var 38) (.bin (.band .u64) (.un (.bnot .u64) (.var 39)) (.var 40))),
    .asg 53 (.bin (.bxor .u64) (.var 53) (.var 73)),
    .asg 74 (.bin (.bxor .u64) (.var 39) (.bin (.band .u64) (.un (.bnot .u64) (.var 40)) (.var 36))),
    .asg 54 (.bin (.bxor .u64) (.var 54) (.var 74)),
    .asg 75 (.bin (.bxor .u64) (.var 40) (.bin (.band .u64) (.un (.bnot .u64) (.var 36)) (.var 37))),
    .asg 55 (.bin (.bxor .u64) (.var 55) (.var 75)),
    .asg 5 (.bin (.bxor .u64) (.var 5) (.var 60)),
    .asg 41 (.bin (.bxor .u64) (.bin (.shl .u64) (.var 5) (.lit 27)) (.bin (.shr .u64) (.var 5) (.lit 37))),
    .asg 6 (.bin (.bxor .u64) (.var 6) (.var 56)),
    .asg 42 (.bin (.bxor .u64) (.bin (.shl .u64) (.var 6) (.lit 36)) (.bin (.shr .u64) (.var 6) (.lit 28))),
    .asg 12 (.bin (.bxor .u64) (.var 12) (.var 57)),
    .asg 43 (.bin (.bxor .u64) (.bin (.shl .u64) (.var 12) (.lit 10)) (.bin (.shr .u64) (.var 12) (.lit 54))),
    .asg 18 (.bin (.bxor .u64) (.var 18) (.var 58)),
    .asg 44 (.bin (.bxor .u64) (.bin (.shl .u64) (.var 18) (.lit 15)) (.bin (.shr .u64) (.var 18) (.lit 49))),
    .asg 24 (.bin (.bxor .u64) (.var 24) (.var 59)),
    .asg 45 (.bin (.bxor .u64) (.bin (.shl .u64) (.var 24) (.lit 56)) (.bin (.shr .u64) (.var 24) (.lit 8))),
    .asg 76 (.bin (.bxor .u64) (.var 41) (.bin (.band .u64) (.un (.bnot .u64) (.var 42)) (.var 43))),
    .asg 51 (.bin (.bxor .u64) (.var 51) (.var 76)),
    .asg 77 (.bin (.bxor .u64) (.var 42) (.bin (.band .u64) (.un (.bnot .u64) (.var 43)) (.var 44))),
    .asg 52 (.bin (.bxor .u64) (.var 52) (.var 77)),
    .asg 78 (.bin (.bxor .u64) (.var 43) (.bin (.band .u64) (.un (.bnot .u64) (.var 44)) (.var 45))),
    .asg 53 (.bin (.bxor .u64) (.var 53) (.var 78)),
    .asg 79 (.bin (.bxor .u64) (.var 44) (.bin (.band .u64) (.un (.bnot .u64) (.var 45)) (.var 41))),
    .asg 54 (.bin (.bxor .u64) (.var 54) (.var 79)),
    .asg 80 (.bin (.bxor .u64) (.var 45) (.bin (.band .u64) (.un (.bnot .u64) (.var 41)) (.var 42))),
    .asg 55 (.bin (.bxor .u64) (.var 55) (.var 80)),
    .asg 3 (.bin (.bxor .u64) (.var 3) (.var 58)),
    .asg 46 (.bin (.bxor .u64) (.bin (.shl .u64) (.var 3) (.lit 62)) (.bin (.shr .u64) (.var 3) (.lit 2))),
    .asg 9 (.bin (.bxor .u64) (.var 9) (.var 59)),
    .asg 47 (.bin (.bxor .u64) (.bin (.shl .u64) (.var 9) (.lit 55)) (.bin (.shr .u64) (.var 9) (.lit 9))),
    .asg 15 (.bin (.bxor .u64) (.var 15) (.var 60)),
    .asg 48 (.bin (.bxor .u64) (.bin (.shl .u64) (.var 15) (.lit 39)) (.bin (.shr .u64) (.var 15) (.lit 25))),
    .asg 16 (.bin (.bxor .u64) (.var 16) (.var 56)),
    .asg 49 (.bin (.bxor .u64) (.bin (.shl .u64) (.var 16) (.lit 41)) (.bin (.shr .u64) (.var 16) (.lit 23))),
    .asg 22 (.bin (.bxor .u64) (.var 22) (.var 57)),
    .asg 50 (.bin (.bxor .u64) (.bin (.shl .u64) (.var 22) (.lit 2)) (.bin (.shr .u64) (.var 22) (.lit 62))),
    .asg 81 (.bin (.bxor .u64) (.var 46) (.bin (.band .u64) (.un (.bnot .u64) (.var 47)) (.var 48)))]

/-- part of `KeccakP1600_Permute_24rounds` -/
def KeccakP1600_Permute_24rounds.part35 : Stmt :=
  block [
    .asg 51 (.bin (.bxor .u64) (.var 51) (.var 81)),
    .asg 82 (.bin (.bxor .u64) (.var 47) (.bin (.band .u64) (.un (.bnot .u64) (.var 48)) (.var 49))),
    .asg 52 (.bin (.bxor .u64) (.var 52) (.var 82)),
    .asg 83 (.bin (.bxor .u64) (.var 48) (.bin (.band .u64) (.un (.bnot .u64) (.var 49)) (.var 50))),
    .asg 53 (.bin (.bxor .u64) (.var 53) (.var 83)),
    .asg 84 (.bin (.bxor .u64) (.var 49) (.bin (.band .u64) (.un (.bnot .u64) (.var 50)) (.var 46))),
    .asg 54 (.bin (.bxor .u64) (.var 54) (.var 84)),
    .asg 85 (.bin (.bxor .u64) (.var 50) (.bin (.band .u64) (.un (.bnot .u64) (.var 46)) (.var 47))),
    .asg 55 (.bin (.bxor .u64) (.var 55) (.var 85)),
    .asg 56 (.bin (.bxor .u64) (.var 55) (.bin (.bxor .u64) (.bin (.shl .u64) (.var 52) (.lit 1)) (.bin (.shr .u64)
      (.var 52) (.lit 63)))),
    .asg 57 (.bin (.bxor .u64) (.var 51) (.bin (.bxor .u64) (.bin (.shl .u64) (.var 53) (.lit 1)) (.bin (.shr .u64)
      (.var 53) (.lit 63)))),
    .asg 58 (.bin (.bxor .u64) (.var 52) (.bin (.bxor .u64) (.bin (.shl .u64) (.var 54) (.lit 1)) (.bin (.shr .u64)
      (.var 54) (.lit 63)))),
    .asg 59 (.bin (.bxor .u64) (.var 53) (.bin (.bxor .u64) (.bin (.shl .u64) (.var 55) (.lit 1)) (.bin (.shr .u64)
      (.var 55) (.lit 63)))),
    .asg 60 (.bin (.bxor .u64) (.var 54) (.bin (.bxor .u64) (.bin (.shl .u64) (.var 51) (.lit 1)) (.bin (.shr .u64)
      (.var 51) (.lit 63)))),
    .asg 61 (.bin (.bxor .u64) (.var 61) (.var 56)),
    .asg 26 (.var 61),
    .asg 67 (.bin (.bxor .u64) (.var 67) (.var 57)),
    .asg 27 (.bin (.bxor .u64) (.bin (.shl .u64) (.var 67) (.lit 44)) (.bin (.shr .u64) (.var 67) (.lit 20))),
    .asg 73 (.bin (.bxor .u64) (.var 73) (.var 58)),
    .asg 28 (.bin (.bxor .u64) (.bin (.shl .u64) (.var 73) (.lit 43)) (.bin (.shr .u64) (.var 73) (.lit 21))),
    .asg 79 (.bin (.bxor .u64) (.var 79) (.var 59)),
    .asg 29 (.bin (.bxor .u64) (.bin (.shl .u64) (.var 79) (.lit 21)) (.bin (.shr .u64) (.var 79) (.lit 43))),
    .asg 85 (.bin (.bxor .u64) (.var 85) (.var 60)),
    .asg 30 (.bin (.bxor .u64) (.bin (.shl .u64) (.var 85) (.lit 14)) (.bin (.shr .u64) (.var 85) (.lit 50))),
    .asg 1 (.bin (.bxor .u64) (.var 26) (.bin (.band .u64) (.un (.bnot .u64) (.var 27)) (.var 28))),
    .asg 1 (.bin (.bxor .u64) (.var 1) (.ld 8 (.padd (.glob 0) (.lit 13) 8))),
    .asg 51 (.var 1),
    .asg 2 (.bin (.bxor .u64) (.var 27) (.bin (.band .u64) (.un (.bnot .u64) (.var 28)) (.var 29))),
    .asg 52 (.var 2),
    .asg 3 (.bin (.bxor .u64) (.var 28) (.bin (.band .u64) (.un (.bnot .u64) (.var 29)) (.var 30))),
    .asg 53 (.var 3),
    .asg 4 (.bin (.bxor .u64) (.var 29) (.bin (.band .u64) (.un (.bnot .u64) (.var 30)) (.var 26))),
    .asg 54 (.var 4),
    .asg 5 (.bin (.bxor .u64) (.var 30) (.bin (.band .u64) (.un (.bnot .u64) (.var 26)) (.var 27))),
    .asg 55 (.var 5),
    .asg 64 (.bin (.bxor .u64) (.var 64) (.var 59)),
    .asg 31 (.bin (.bxor .u64) (.bin (.shl .u64) (.var 64) (.lit 28)) (.bin (.shr .u64) (.var 64) (.lit 36))),
    .asg 70 (.bin (.bxor .u64) (.var 70) (.var 60)),
    .asg 32 (.bin (.bxor .u64) (.bin (.shl .u64) (.var 70) (.lit 20)) (.bin (.shr .u64) (.var 70) (.lit 44))),
    .asg 71 (.bin (.bxor .u64) (.var 71) (.var 56))]

/-- part of `KeccakP1600_Permute_24rounds` -/
def KeccakP1600_Permute_24rounds.part36 : Stmt :=
  block [
    .asg 33 (.bin (.bxor .u64) (.bin (.shl .u64) (.var 71) (.lit 3)) (.bin (.shr .u64) (.var 71) (.lit 61))),
    .asg 77 (.bin (.bxor .u64) (.var 77) (.var 57)),
    .asg 34 (.bin (.bxor .u64) (.bin (.shl .u64) (.var 77) (.lit 45)) (.bin (.shr .u64) (.var 77) (.lit 19))),
    .asg 83 (.bin (.bxor .u64) (.var 83) (.var 58)),
    .asg 35 (.bin (.bxor .u64) (.bin (.shl .u64) (.var 83) (.lit 61)) (.bin (.shr .u64) (.var 83) (.lit 3))),
    .asg 6 (.bin (.bxor .u64) (.var 31) (.bin (.band .u64) (.un (.bnot .u64) (.var 32)) (.var 33))),
    .asg 51 (.bin (.bxor .u64) (.var 51) (.var 6)),
    .asg 7 (.bin (.bxor .u64) (.var 32) (.bin (.band .u64) (.un (.bnot .u64) (.var 33)) (.var 34))),
    .asg 52 (.bin (.bxor .u64) (.var 52) (.var 7)),
    .asg 8 (.bin (.bxor .u64) (.var 33) (.bin (.band .u64) (.un (.bnot .u64) (.var 34)) (.var 35))),
    .asg 53 (.bin (.bxor .u64) (.var 53) (.var 8)),
    .asg 9 (.bin (.bxor .u64) (.var 34) (.bin (.band .u64) (.un (.bnot .u64) (.var 35)) (.var 31))),
    .asg 54 (.bin (.bxor .u64) (.var 54) (.var 9)),
    .asg 10 (.bin (.bxor .u64) (.var 35) (.bin (.band .u64) (.un (.bnot .u64) (.var 31)) (.var 32))),
    .asg 55 (.bin (.bxor .u64) (.var 55) (.var 10)),
    .asg 62 (.bin (.bxor .u64) (.var 62) (.var 57)),
    .asg 36 (.bin (.bxor .u64) (.bin (.shl .u64) (.var 62) (.lit 1)) (.bin (.shr .u64) (.var 62) (.lit 63))),
    .asg 68 (.bin (.bxor .u64) (.var 68) (.var 58)),
    .asg 37 (.bin (.bxor .u64) (.bin (.shl .u64) (.var 68) (.lit 6)) (.bin (.shr .u64) (.var 68) (.lit 58))),
    .asg 74 (.bin (.bxor .u64) (.var 74) (.var 59)),
    .asg 38 (.bin (.bxor .u64) (.bin (.shl .u64) (.var 74) (.lit 25)) (.bin (.shr .u64) (.var 74) (.lit 39))),
    .asg 80 (.bin (.bxor .u64) (.var 80) (.var 60)),
    .asg 39 (.bin (.bxor .u64) (.bin (.shl .u64) (.var 80) (.lit 8)) (.bin (.shr .u64) (.var 80) (.lit 56))),
    .asg 81 (.bin (.bxor .u64) (.var 81) (.var 56)),
    .asg 40 (.bin (.bxor .u64) (.bin (.shl .u64) (.var 81) (.lit 18)) (.bin (.shr .u64) (.var 81) (.lit 46))),
    .asg 11 (.bin (.bxor .u64) (.var 36) (.bin (.band .u64) (.un (.bnot .u64) (.var 37)) (.var 38))),
    .asg 51 (.bin (.bxor .u64) (.var 51) (.var 11)),
    .asg 12 (.bin (.bxor .u64) (.var 37) (.bin (.band .u64) (.un (.bnot .u64) (.var 38)) (.var 39))),
    .asg 52 (.bin (.bxor .u64) (.var 52) (.var 12)),
    .asg 13 (.bin (.bxor .u64) (.var 38) (.bin (.band .u64) (.un (.bnot .u64) (.var 39)) (.var 40))),
    .asg 53 (.bin (.bxor .u64) (.var 53) (.var 13)),
    .asg 14 (.bin (.bxor .u64) (.var 39) (.bin (.band .u64) (.un (.bnot .u64) (.var 40)) (.var 36))),
    .asg 54 (.bin (.bxor .u64) (.var 54) (.var 14)),
    .asg 15 (.bin (.bxor .u64) (.var 40) (.bin (.band .u64) (.un (.bnot .u64) (.var 36)) (.var 37))),
    .asg 55 (.bin (.bxor .u64) (.var 55) (.var 15)),
    .asg 65 (.bin (.bxor .u64) (.var 65) (.var 60)),
    .asg 41 (.bin (.bxor .u64) (.bin (.shl .u64) (.var 65) (.lit 27)) (.bin (.shr .u64) (.var 65) (.lit 37))),
    .asg 66 (.bin (.bxor .u64) (.var 66) (.var 56)),
    .asg 42 (.bin (.bxor .u64) (.bin (.shl .u64) (.var 66) (.lit 36)) (.bin (.shr .u64) (.var 66) (.lit 28))),
    .asg 72 (.bin (.bxor .u64) (.var 72) (.var 57))]

/-- part of `KeccakP1600_Permute_24rounds` -/
def KeccakP1600_Permute_24rounds.part37 : Stmt :=
  block [
    .asg 43 (.bin (.bxor .u64) (.bin (.shl .u64) (.var 72) (.lit 10)) (.bin (.shr .u64) (.var 72) (.lit 54))),
    .asg 78 (.bin (.bxor .u64) (.var 78) (.var 58)),
    .asg 44 (.bin (.bxor .u64) (.bin (.shl .u64) (.var 78) (.lit 15)) (.bin (.shr .u64) (.var 78) (.lit 49))),
    .asg 84 (.bin (.bxor .u64) (.var 84) (.var 59)),
    .asg 45 (.bin (.bxor .u64) (.bin (.shl .u64) (.var 84) (.lit 56)) (.bin (.shr .u64) (.var 84) (.lit 8))),
    .asg 16 (.bin (.bxor .u64) (.var 41) (.bin (.band .u64) (.un (.bnot .u64) (.var 42)) (.var 43))),
    .asg 51 (.bin (.bxor .u64) (.var 51) (.var 16)),
    .asg 17 (.bin (.bxor .u64) (.var 42) (.bin (.band .u64) (.un (.bnot .u64) (.var 43)) (.var 44))),
    .asg 52 (.bin (.bxor .u64) (.var 52) (.var 17)),
    .asg 18 (.bin (.bxor .u64) (.var 43) (.bin (.band .u64) (.un (.bnot .u64) (.var 44)) (.var 45))),
    .asg 53 (.bin (.bxor .u64) (.var 53) (.var 18)),
    .asg 19 (.bin (.bxor .u64) (.var 44) (.bin (.band .u64) (.un (.bnot .u64) (.var 45)) (.var 41))),
    .asg 54 (.bin (.bxor .u64) (.var 54) (.var 19)),
    .asg 20 (.bin (.bxor .u64) (.var 45) (.bin (.band .u64) (.un (.bnot .u64) (.var 41)) (.var 42))),
    .asg 55 (.bin (.bxor .u64) (.var 55) (.var 20)),
    .asg 63 (.bin (.bxor .u64) (.var 63) (.var 58)),
    .asg 46 (.bin (.bxor .u64) (.bin (.shl .u64) (.var 63) (.lit 62)) (.bin (.shr .u64) (.var 63) (.lit 2))),
    .asg 69 (.bin (.bxor .u64) (.var 69) (.var 59)),
    .asg 47 (.bin (.bxor .u64) (.bin (.shl .u64) (.var 69) (.lit 55)) (.bin (.shr .u64) (.var 69) (.lit 9))),
    .asg 75 (.bin (.bxor .u64) (.var 75) (.var 60)),
    .asg 48 (.bin (.bxor .u64) (.bin (.shl .u64) (.var 75) (.lit 39)) (.bin (.shr .u64) (.var 75) (.lit 25))),
    .asg 76 (.bin (.bxor .u64) (.var 76) (.var 56)),
    .asg 49 (.bin (.bxor .u64) (.bin (.shl .u64) (.var 76) (.lit 41)) (.bin (.shr .u64) (.var 76) (.lit 23))),
    .asg 82 (.bin (.bxor .u64) (.var 82) (.var 57)),
    .asg 50 (.bin (.bxor .u64) (.bin (.shl .u64) (.var 82) (.lit 2)) (.bin (.shr .u64) (.var 82) (.lit 62))),
    .asg 21 (.bin (.bxor .u64) (.var 46) (.bin (.band .u64) (.un (.bnot .u64) (.var 47)) (.var 48))),
    .asg 51 (.bin (.bxor .u64) (.var 51) (.var 21)),
    .asg 22 (.bin (.bxor .u64) (.var 47) (.bin (.band .u64) (.un (.bnot .u64) (.var 48)) (.var 49))),
    .asg 52 (.bin (.bxor .u64) (.var 52) (.var 22)),
    .asg 23 (.bin (.bxor .u64) (.var 48) (.bin (.band .u64) (.un (.bnot .u64) (.var 49)) (.var 50))),
    .asg 53 (.bin (.bxor .u64) (.var 53) (.var 23)),
    .asg 24 (.bin (.bxor .u64) (.var 49) (.bin (.band .u64) (.un (.bnot .u64) (.var 50)) (.var 46))),
    .asg 54 (.bin (.bxor .u64) (.var 54) (.var 24)),
    .asg 25 (.bin (.bxor .u64) (.var 50) (.bin (.band .u64) (.un (.bnot .u64) (.var 46)) (.var 47))),
    .asg 55 (.bin (.bxor .u64) (.var 55) (.var 25)),
    .asg 56 (.bin (.bxor .u64) (.var 55) (.bin (.bxor .u64) (.bin (.shl .u64) (.var 52) (.lit 1)) (.bin (.shr .u64)
      (.var 52) (.lit 63)))),
    .asg 57 (.bin (.bxor .u64) (.var 51) (.bin (.bxor .u64) (.bin (.shl .u64) (.var 53) (.lit 1)) (.bin (.shr .u64)
      (.var 53) (.lit 63)))),
    .asg 58 (.bin (.bxor .u64) (.var 52) (.bin (.bxor .u64) (.bin (.shl .u64) (.var 54) (.lit 1)) (.bin (.shr .u64)
      (.var 54) (.lit 63)))),
    .asg 59 (.bin (.bxor .u64) (.var 53) (.bin (.bxor .u64) (.bin (.shl .u64) (.var 55) (.lit 1)) (.bin (.shr .u64)
      (.var 55) (.lit 63)))),
    .asg 60 (.bin (.bxor .u64) (.var 54) (.bin (.bxor .u64) (.bin (.shl .u64) (.var 51) (.lit 1)) (.bin (.shr .u64)
      (.var 51) (.lit 63))))]

/-- part of `KeccakP1600_Permute_24rounds` -/
def KeccakP1600_Permute_24rounds.part38 : Stmt :=
  block [
    .asg 1 (.bin (.bxor .u64) (.var 1) (.var 56)),
    .asg 26 (.var 1),
    .asg 7 (.bin (.bxor .u64) (.var 7) (.var 57)),
    .asg 27 (.bin (.bxor .u64) (.bin (.shl .u64) (.var 7) (.lit 44)) (.bin (.shr .u64) (.var 7) (.lit 20))),
    .asg 13 (.bin (.bxor .u64) (.var 13) (.var 58)),
    .asg 28 (.bin (.bxor .u64) (.bin (.shl .u64) (.var 13) (.lit 43)) (.bin (.shr .u64) (.var 13) (.lit 21))),
    .asg 19 (.bin (.bxor .u64) (.var 19) (.var 59)),
    .asg 29 (.bin (.bxor .u64) (.bin (.shl .u64) (.var 19) (.lit 21)) (.bin (.shr .u64) (.var 19) (.lit 43))),
    .asg 25 (.bin (.bxor .u64) (.var 25) (.var 60)),
    .asg 30 (.bin (.bxor .u64) (.bin (.shl .u64) (.var 25) (.lit 14)) (.bin (.shr .u64) (.var 25) (.lit 50))),
    .asg 61 (.bin (.bxor .u64) (.var 26) (.bin (.band .u64) (.un (.bnot .u64) (.var 27)) (.var 28))),
    .asg 61 (.bin (.bxor .u64) (.var 61) (.ld 8 (.padd (.glob 0) (.lit 14) 8))),
    .asg 51 (.var 61),
    .asg 62 (.bin (.bxor .u64) (.var 27) (.bin (.band .u64) (.un (.bnot .u64) (.var 28)) (.var 29))),
    .asg 52 (.var 62),
    .asg 63 (.bin (.bxor .u64) (.var 28) (.bin (.band .u64) (.un (.bnot .u64) (.var 29)) (.var 30))),
    .asg 53 (.var 63),
    .asg 64 (.bin (.bxor .u64) (.var 29) (.bin (.band .u64) (.un (.bnot .u64) (.var 30)) (.var 26))),
    .asg 54 (.var 64),
    .asg 65 (.bin (.bxor .u64) (.var 30) (.bin (.band .u64) (.un (.bnot .u64) (.var 26)) (.var 27))),
    .asg 55 (.var 65),
    .asg 4 (.bin (.bxor .u64) (.var 4) (.var 59)),
    .asg 31 (.bin (.bxor .u64) (.bin (.shl .u64) (.var 4) (.lit 28)) (.bin (.shr .u64) (.var 4) (.lit 36))),
    .asg 10 (.bin (.bxor .u64) (.var 10) (.var 60)),
    .asg 32 (.bin (.bxor .u64) (.bin (.shl .u64) (.var 10) (.lit 20)) (.bin (.shr .u64) (.var 10) (.lit 44))),
    .asg 11 (.bin (.bxor .u64) (.var 11) (.var 56)),
    .asg 33 (.bin (.bxor .u64) (.bin (.shl .u64) (.var 11) (.lit 3)) (.bin (.shr .u64) (.var 11) (.lit 61))),
    .asg 17 (.bin (.bxor .u64) (.var 17) (.var 57)),
    .asg 34 (.bin (.bxor .u64) (.bin (.shl .u64) (.var 17) (.lit 45)) (.bin (.shr .u64) (.var 17) (.lit 19))),
    .asg 23 (.bin (.bxor .u64) (.var 23) (.var 58)),
    .asg 35 (.bin (.bxor .u64) (.bin (.shl .u64) (.var 23) (.lit 61)) (.bin (.shr .u64) (.var 23) (.lit 3))),
    .asg 66 (.bin (.bxor .u64) (.var 31) (.bin (.band .u64) (.un (.bnot .u64) (.var 32)) (.var 33))),
    .asg 51 (.bin (.bxor .u64) (.var 51) (.var 66)),
    .asg 67 (.bin (.bxor .u64) (.var 32) (.bin (.band .u64) (.un (.bnot .u64) (.var 33)) (.var 34))),
    .asg 52 (.bin (.bxor .u64) (.var 52) (.var 67)),
    .asg 68 (.bin (.bxor .u64) (.var 33) (.bin (.band .u64) (.un (.bnot .u64) (.var 34)) (.var 35))),
    .asg 53 (.bin (.bxor .u64) (.var 53) (.var 68)),
    .asg 69 (.bin (.bxor .u64) (.var 34) (.bin (.band .u64) (.un (.bnot .u64) (.var 35)) (.var 31))),
    .asg 54 (.bin (.bxor .u64) (.var 54) (.var 69)),
    .asg 70 (.bin (.bxor .u64) (.var 35) (.bin (.band .u64) (.un (.bnot .u64) (.var 31)) (.var 32)))]

/-- part of `KeccakP1600_Permute_24rounds` -/
def KeccakP1600_Permute_24rounds.part39 : Stmt :=
  block [
    .asg 55 (.bin (.bxor .u64) (.var 55) (.var 70)),
    .asg 2 (.bin (.bxor .u64) (.var 2) (.var 57)),
    .asg 36 (.bin (.bxor .u64) (.bin (.shl .u64) (.var 2) (.lit 1)) (.bin (.shr .u64) (.var 2) (.lit 63))),
    .asg 8 (.bin (.bxor .u64) (.var 8) (.var 58)),
    .asg 37 (.bin (.bxor .u64) (.bin (.shl .u64) (.var 8) (.lit 6)) (.bin (.shr .u64) (.var 8) (.lit 58))),
    .asg 14 (.bin (.bxor .u64) (.var 14) (.var 59)),
    .asg 38 (.bin (.bxor .u64) (.bin (.shl .u64) (.var 14) (.lit 25)) (.bin (.shr .u64) (.var 14) (.lit 39))),
    .asg 20 (.bin (.bxor .u64) (.var 20) (.var 60)),
    .asg 39 (.bin (.bxor .u64) (.bin (.shl .u64) (.var 20) (.lit 8)) (.bin (.shr .u64) (.var 20) (.lit 56))),
    .asg 21 (.bin (.bxor .u64) (.var 21) (.var 56)),
    .asg 40 (.bin (.bxor .u64) (.bin (.shl .u64) (.var 21) (.lit 18)) (.bin (.shr .u64) (.var 21) (.lit 46))),
    .asg 71 (.bin (.bxor .u64) (.var 36) (.bin (.band .u64) (.un (.bnot .u64) (.var 37)) (.var 38))),
    .asg 51 (.bin (.bxor .u64) (.var 51) (.var 71)),
    .asg 72 (.bin (.bxor .u64) (.var 37) (.bin (.band .u64) (.un (.bnot .u64) (.var 38)) (.var 39))),
    .asg 52 (.bin (.bxor .u64) (.var 52) (.var 72)),
    .asg 73 (.bin (.bxor .u64) (.var 38) (.bin (.band .u64) (.un (.bnot .u64) (.var 39)) (.var 40))),
    .asg 53 (.bin (.bxor .u64) (.var 53) (.var 73)),
    .asg 74 (.bin (.bxor .u64) (.var 39) (.bin (.band .u64) (.un (.bnot .u64) (.var 40)) (.var 36))),
    .asg 54 (.bin (.bxor .u64) (.var 54) (.var 74)),
    .asg 75 (.bin (.bxor .u64) (.var 40) (.bin (.band .u64) (.un (.bnot .u64) (.var 36)) (.var 37))),
    .asg 55 (.bin (.bxor .u64) (.var 55) (.var 75)),
    .asg 5 (.bin (.bxor .u64) (.var 5) (.var 60)),
    .asg 41 (.bin (.bxor .u64) (.bin (.shl .u64) (.var 5) (.lit 27)) (.bin (.shr .u64) (.var 5) (.lit 37))),
    .asg 6 (.bin (.bxor .u64) (.var 6) (.var 56)),
    .asg 42 (.bin (.bxor .u64) (.bin (.shl .u64) (.var 6) (.lit 36)) (.bin (.shr .u64) (.var 6) (.lit 28))),
    .asg 12 (.bin (.bxor .u64) (.var 12) (.var 57)),
    .asg 43 (.bin (.bxor .u64) (.bin (.shl .u64) (.var 12) (.lit 10)) (.bin (.shr .u64) (.var 12) (.lit 54))),
    .asg 18 (.bin (.bxor .u64) (.var 18) (.var 58)),
    .asg 44 (.bin (.bxor .u64) (.bin (.shl .u64) (.var 18) (.lit 15)) (.bin (.shr .u64) (.var 18) (.lit 49))),
    .asg 24 (.bin (.bxor .u64) (.var 24) (.var 59)),
    .asg 45 (.bin (.bxor .u64) (.bin (.shl .u64) (.var 24) (.lit 56)) (.bin (.shr .u64) (.var 24) (.lit 8))),
    .asg 76 (.bin (.bxor .u64) (.var 41) (.bin (.band .u64) (.un (.bnot .u64) (.var 42)) (.var 43))),
    .asg 51 (.bin (.bxor .u64) (.var 51) (.var 76)),
    .asg 77 (.bin (.bxor .u64) (.var 42) (.bin (.band .u64) (.un (.bnot .u64) (.var 43)) (.var 44))),
    .asg 52 (.bin (.bxor .u64) (.var 52) (.var 77)),
    .asg 78 (.bin (.bxor .u64) (.var 43) (.bin (.band .u64) (.un (.bnot .u64) (.var 44)) (.var 45))),
    .asg 53 (.bin (.bxor .u64) (.var 53) (.var 78)),
    .asg 79 (.bin (.bxor .u64) (.var 44) (.bin (.band .u64) (.un (.bnot .u64) (.var 45)) (.var 41))),
    .asg 54 (.bin (.bxor .u64) (.var 54) (.var 79)),
    .asg 80 (.bin (.bxor .u64) (.var 45) (.bin (.band .u64) (.un (.bnot .u64) (.var 41)) (.var 42)))]

/-- part of `KeccakP1600_Permute_24rounds` -/
def KeccakP1600_Permute_24rounds.part40 : Stmt :=
  block [
    .asg 55 (.bin (.bxor .u64) (.var 55) (.var 80)),
    .asg 3 (.bin (.bxor .u64) (.var 3) (.var 58)),
    .asg 46 (.bin (.bxor .u64) (.bin (.shl .u64) (.var 3) (.lit 62)) (.bin (.shr .u64) (.var 3) (.lit 2))),
    .asg 9 (.bin (.bxor .u64) (.var 9) (.var 59)),
    .asg 47 (.bin (.bxor .u64) (.bin (.shl .u64) (.var 9) (.lit 55)) (.bin (.shr .u64) (.var 9) (.lit 9))),
    .asg 15 (.bin (.bxor .u64) (.var 15) (.var 60)),
    .asg 48 (.bin (.bxor .u64) (.bin (.shl .u64) (.var 15) (.lit 39)) (.bin (.shr .u64) (.var 15) (.lit 25))),
    .asg 16 (.bin (.bxor .u64) (.var 16) (.var 56)),
    .asg 49 (.bin (.bxor .u64) (.bin (.shl .u64) (.var 16) (.lit 41)) (.bin (.shr .u64) (.var 16) (.lit 23))),
    .asg 22 (.bin (.bxor .u64) (.var 22) (.var 57)),
    .asg 50 (.bin (.bxor .u64) (.bin (.shl .u64) (.var 22) (.lit 2)) (.bin (.shr .u64) (.var 22) (.lit 62))),
    .asg 81 (.bin (.bxor .u64) (.var 46) (.bin (.band .u64) (.un (.bnot .u64) (.var 47)) (.var 48))),
    .asg 51 (.bin (.bxor .u64) (.var 51) (.var 81)),
    .asg 82 (.bin (.bxor .u64) (.var 47) (.bin (.band .u64) (.un (.bnot .u64) (.var 48)) (.var 49))),
    .asg 52 (.bin (.bxor .u64) (.var 52) (.var 82)),
    .asg 83 (.bin (.bxor .u64) (.var 48) (.bin (.band .u64) (.un (.bnot .u64) (.var 49)) (.var 50))),
    .asg 53 (.bin (.bxor .u64) (.var 53) (.var 83)),
    .asg 84 (.bin (.bxor .u64) (.var 49) (.bin (.band .u64) (.un (.bnot .u64) (.var 50)) (.var 46))),
    .asg 54 (.bin (.bxor .u64) (.var 54) (.var 84)),
    .asg 85 (.bin (.bxor .u64) (.var 50) (.bin (.band .u64) (.un (.bnot .u64) (.var 46)) (.var 47))),
    .asg 55 (.bin (.bxor .u64) (.var 55) (.var 85)),
    .asg 56 (.bin (.bxor .u64) (.var 55) (.bin (.bxor .u64) (.bin (.shl .u64) (.var 52) (.lit 1)) (.bin (.shr .u64)
      (.var 52) (.lit 63)))),
    .asg 57 (.bin (.bxor .u64) (.var 51) (.bin (.bxor .u64) (.bin (.shl .u64) (.var 53) (.lit 1)) (.bin (.shr .u64)
      (.var 53) (.lit 63)))),
    .asg 58 (.bin (.bxor .u64) (.var 52) (.bin (.bxor .u64) (.bin (.shl .u64) (.var 54) (.lit 1)) (.bin (.shr .u64)
      (.var 54) (.lit 63)))),
    .asg 59 (.bin (.bxor .u64) (.var 53) (.bin (.bxor .u64) (.bin (.shl .u64) (.var 55) (.lit 1)) (.bin (.shr .u64)
      (.var 55) (.lit 63)))),
    .asg 60 (.bin (.bxor .u64) (.var 54) (.bin (.bxor .u64) (.bin (.shl .u64) (.var 51) (.lit 1)) (.bin (.shr .u64)
      (.var 51) (.lit 63)))),
    .asg 61 (.bin (.bxor .u64) (.var 61) (.var 56)),
    .asg 26 (.var 61),
    .asg 67 (.bin (.bxor .u64) (.var 67) (.var 57)),
    .asg 27 (.bin (.bxor .u64) (.bin (.shl .u64) (.var 67) (.lit 44)) (.bin (.shr .u64) (.var 67) (.lit 20))),
    .asg 73 (.bin (.bxor .u64) (.var 73) (.var 58)),
    .asg 28 (.bin (.bxor .u64) (.bin (.shl .u64) (.var 73) (.lit 43)) (.bin (.shr .u64) (.var 73) (.lit 21))),
    .asg 79 (.bin (.bxor .u64) (.var 79) (.var 59)),
    .asg 29 (.bin (.bxor .u64) (.bin (.shl .u64) (.var 79) (.lit 21)) (.bin (.shr .u64) (.var 79) (.lit 43))),
    .asg 85 (.bin (.bxor .u64) (.var 85) (.var 60)),
    .asg 30 (.bin (.bxor .u64) (.bin (.shl .u64) (.var 85) (.lit 14)) (.bin (.shr .u64) (.var 85) (.lit 50))),
    .asg 1 (.bin (.bxor .u64) (.var 26) (.bin (.band .u64) (.un (.bnot .u64) (.var 27)) (.var 28))),
    .asg 1 (.bin (.bxor .u64) (.var 1) (.ld 8 (.padd (.glob 0) (.lit 15) 8))),
    .asg 51 (.var 1),
    .asg 2 (.bin (.bxor .u64) (.var 27) (.bin (.band .u64) (.un (.bnot .u64) (.var 28)) (.var 29)))]

/-- part of `KeccakP1600_Permute_24rounds` -/
def KeccakP1600_Permute_24rounds.part41 : Stmt :=
  block [
    .asg 52 (.var 2),
    .asg 3 (.bin (.bxor .u64) (.var 28) (.bin (.band .u64) (.un (.bnot .u64) (.var 29)) (.var 30))),
    .asg 53 (.var 3),
    .asg 4 (.bin (.bxor .u64) (.var 29) (.bin (.band .u64) (.un (.bnot .u64) (.var 30)) (.var 26))),
    .asg 54 (.var 4),
    .asg 5 (.bin (.bxor .u64) (.var 30) (.bin (.band .u64) (.un (.bnot .u64) (.var 26)) (.var 27))),
    .asg 55 (.var 5),
    .asg 64 (.bin (.bxor .u64) (.var 64) (.var 59)),
    .asg 31 (.bin (.bxor .u64) (.bin (.shl .u64) (.var 64) (.lit 28)) (.bin (.shr .u64) (.var 64) (.lit 36))),
    .asg 70 (.bin (.bxor .u64) (.var 70) (.var 60)),
    .asg 32 (.bin (.bxor .u64) (.bin (.shl .u64) (.var 70) (.lit 20)) (.bin (.shr .u64) (.var 70) (.lit 44))),
    .asg 71 (.bin (.bxor .u64) (.var 71) (.var 56)),
    .asg 33 (.bin (.bxor .u64) (.bin (.shl .u64) (.var 71) (.lit 3)) (.bin (.shr .u64) (.var 71) (.lit 61))),
    .asg 77 (.bin (.bxor .u64) (.var 77) (.var 57)),
    .asg 34 (.bin (.bxor .u64) (.bin (.shl .u64) (.var 77) (.lit 45)) (.bin (.shr .u64) (.var 77) (.lit 19))),
    .asg 83 (.bin (.bxor .u64) (.var 83) (.var 58)),
    .asg 35 (.bin (.bxor .u64) (.bin (.shl .u64) (.var 83) (.lit 61)) (.bin (.shr .u64) (.var 83) (.lit 3))),
    .asg 6 (.bin (.bxor .u64) (.var 31) (.bin (.band .u64) (.un (.bnot .u64) (.var 32)) (.var 33))),
    .asg 51 (.bin (.bxor .u64) (.var 51) (.var 6)),
    .asg 7 (.bin (.bxor .u64) (.var 32) (.bin (.band .u64) (.un (.bnot .u64) (.var 33)) (.var 34))),
    .asg 52 (.bin (.bxor .u64) (.var 52) (.var 7)),
    .asg 8 (.bin (.bxor .u64) (.var 33) (.bin (.band .u64) (.un (.bnot .u64) (.var 34)) (.var 35))),
    .asg 53 (.bin (.bxor .u64) (.var 53) (.var 8)),
    .asg 9 (.bin (.bxor .u64) (.var 34) (.bin (.band .u64) (.un (.bnot .u64) (.var 35)) (.var 31))),
    .asg 54 (.bin (.bxor .u64) (.var 54) (.var 9)),
    .asg 10 (.bin (.bxor .u64) (.var 35) (.bin (.band .u64) (.un (.bnot .u64) (.var 31)) (.var 32))),
    .asg 55 (.bin (.bxor .u64) (.var 55) (.var 10)),
    .asg 62 (.bin (.bxor .u64) (.var 62) (.var 57)),
    .asg 36 (.bin (.bxor .u64) (.bin (.shl .u64) (.var 62) (.lit 1)) (.bin (.shr .u64) (.var 62) (.lit 63))),
    .asg 68 (.bin (.bxor .u64) (.var 68) (.var 58)),
    .asg 37 (.bin (.bxor .u64) (.bin (.shl .u64) (.var 68) (.lit 6)) (.bin (.shr .u64) (.var 68) (.lit 58))),
    .asg 74 (.bin (.bxor .u64) (.var 74) (.var 59)),
    .asg 38 (.bin (.bxor .u64) (.bin (.shl .u64) (.var 74) (.lit 25)) (.bin (.shr .u64) (.var 74) (.lit 39))),
    .asg 80 (.bin (.bxor .u64) (.var 80) (.var 60)),
    .asg 39 (.bin (.bxor .u64) (.bin (.shl .u64) (.var 80) (.lit 8)) (.bin (.shr .u64) (.var 80) (.lit 56))),
    .asg 81 (.bin (.bxor .u64) (.var 81) (.var 56)),
    .asg 40 (.bin (.bxor .u64) (.bin (.shl .u64) (.var 81) (.lit 18)) (.bin (.shr .u64) (.var 81) (.lit 46))),
    .asg 11 (.bin (.bxor .u64) (.var 36) (.bin (.band .u64) (.un (.bnot .u64) (.var 37)) (.var 38))),
    .asg 51 (.bin (.bxor .u64) (.var 51) (.var 11)),
    .asg 12 (.bin (.bxor .u64) (.var 37) (.bin (.band .u64) (.un (.bnot .u64) (.var 38)) (.var 39)))]

/-- part of `KeccakP1600_Permute_24rounds` -/
def KeccakP1600_Permute_24rounds.part42 : Stmt :=
  block [
    .asg 52 (.bin (.bxor .u64) (.var 52) (.var 12)),
    .asg 13 (.bin (.bxor .u64) (.var 38) (.bin (.band .u64) (.un (.bnot .u64) (.var 39)) (.var 40))),
    .asg 53 (.bin (.bxor .u64) (.var 53) (.var 13)),
    .asg 14 (.bin (.bxor .u64) (.var 39) (.bin (.band .u64) (.un (.bnot .u64) (.var 40)) (.var 36))),
    .asg 54 (.bin (.bxor .u64) (.var 54) (.var 14)),
    .asg 15 (.bin (.bxor .u64) (.var 40) (.bin (.band .u64) (.un (.bnot .u64) (.var 36)) (.var 37))),
    .asg 55 (.bin (.bxor .u64) (.var 55) (.var 15)),
    .asg 65 (.bin (.bxor .u64) (.var 65) (.var 60)),
    .asg 41 (.bin (.bxor .u64) (.bin (.shl .u64) (.var 65) (.lit 27)) (.bin (.shr .u64) (.var 65) (.lit 37))),
    .asg 66 (.bin (.bxor .u64) (.var 66) (.var 56)),
    .asg 42 (.bin (.bxor .u64) (.bin (.shl .u64) (.var 66) (.lit 36)) (.bin (.shr .u64) (.var 66) (.lit 28))),
    .asg 72 (.bin (.bxor .u64) (.var 72) (.var 57)),
    .asg 43 (.bin (.bxor .u64) (.bin (.shl .u64) (.var 72) (.lit 10)) (.bin (.shr .u64) (.var 72) (.lit 54))),
    .asg 78 (.bin (.bxor .u64) (.var 78) (.var 58)),
    .asg 44 (.bin (.bxor .u64) (.bin (.shl .u64) (.var 78) (.lit 15)) (.bin (.shr .u64) (.var 78) (.lit 49))),
    .asg 84 (.bin (.bxor .u64) (.var 84) (.var 59)),
    .asg 45 (.bin (.bxor .u64) (.bin (.shl .u64) (.var 84) (.lit 56)) (.bin (.shr .u64) (.var 84) (.lit 8))),
    .asg 16 (.bin (.bxor .u64) (.var 41) (.bin (.band .u64) (.un (.bnot .u64) (.var 42)) (.var 43))),
    .asg 51 (.bin (.bxor .u64) (.var 51) (.var 16)),
    .asg 17 (.bin (.bxor .u64) (.var 42) (.bin (.band .u64) (.un (.bnot .u64) (.var 43)) (.var 44))),
    .asg 52 (.bin (.bxor .u64) (.var 52) (.var 17)),
    .asg 18 (.bin (.bxor .u64) (.var 43) (.bin (.band .u64) (.un (.bnot .u64) (.var 44)) (.var 45))),
    .asg 53 (.bin (.bxor .u64) (.var 53) (.var 18)),
    .asg 19 (.bin (.bxor .u64) (.var 44) (.bin (.band .u64) (.un (.bnot .u64) (.var 45)) (.var 41))),
    .asg 54 (.bin (.bxor .u64) (.var 54) (.var 19)),
    .asg 20 (.bin (.bxor .u64) (.var 45) (.bin (.band .u64) (.un (.bnot .u64) (.var 41)) (.var 42))),
    .asg 55 (.bin (.bxor .u64) (.var 55) (.var 20)),
    .asg 63 (.bin (.bxor .u64) (.var 63) (.var 58)),
    .asg 46 (.bin (.bxor .u64) (.bin (.shl .u64) (.var 63) (.lit 62)) (.bin (.shr .u64) (.var 63) (.lit 2))),
    .asg 69 (.bin (.bxor .u64) (.var 69) (.var 59)),
    .asg 47 (.bin (.bxor .u64) (.bin (.shl .u64) (.var 69) (.lit 55)) (.bin (.shr .u64) (.var 69) (.lit 9))),
    .asg 75 (.bin (.bxor .u64) (.var 75) (.var 60)),
    .asg 48 (.bin (.bxor .u64) (.bin (.shl .u64) (.var 75) (.lit 39)) (.bin (.shr .u64) (.var 75) (.lit 25))),
    .asg 76 (.bin (.bxor .u64) (.var 76) (.var 56)),
    .asg 49 (.bin (.bxor .u64) (.bin (.shl .u64) (.var 76) (.lit 41)) (.bin (.shr .u64) (.var 76) (.lit 23))),
    .asg 82 (.bin (.bxor .u64) (.var 82) (.var 57)),
    .asg 50 (.bin (.bxor .u64) (.bin (.shl .u64) (.var 82) (.lit 2)) (.bin (.shr .u64) (.var 82) (.lit 62))),
    .asg 21 (.bin (.bxor .u64) (.var 46) (.bin (.band .u64) (.un (.bnot .u64) (.var 47)) (.var 48))),
    .asg 51 (.bin (.bxor .u64) (.var 51) (.var 21)),
    .asg 22 (.bin (.bxor .u64) (.var 47) (.bin (.band .u64) (.un (.bnot .u64) (.var 48)) (.var 49)))]

/-- part of `KeccakP1600_Permute_24rounds` -/
def KeccakP1600_Permute_24rounds.part43 : Stmt :=
  block [
    .asg 52 (.bin (.bxor .u64) (.var 52) (.var 22)),
    .asg 23 (.bin (.bxor .u64) (.var 48) (.bin (.band .u64) (.un (.bnot .u64) (.var 49)) (.var 50))),
    .asg 53 (.bin (.bxor .u64) (.var 53) (.var 23)),
    .asg 24 (.bin (.bxor .u64) (.var 49) (.bin (.band .u64) (.un (.bnot .u64) (.var 50)) (.var 46))),
    .asg 54 (.bin (.bxor .u64) (.var 54) (.var 24)),
    .asg 25 (.bin (.bxor .u64) (.var 50) (.bin (.band .u64) (.un (.bnot .u64) (.var 46)) (.var 47))),
    .asg 55 (.bin (.bxor .u64) (.var 55) (.var 25)),
    .asg 56 (.bin (.bxor .u64) (.var 55) (.bin (.bxor .u64) (.bin (.shl .u64) (.var 52) (.lit 1)) (.bin (.shr .u64)
      (.var 52) (.lit 63)))),
    .asg 57 (.bin (.bxor .u64) (.var 51) (.bin (.bxor .u64) (.bin (.shl .u64) (.var 53) (.lit 1)) (.bin (.shr .u64)
      (.var 53) (.lit 63)))),
    .asg 58 (.bin (.bxor .u64) (.var 52) (.bin (.bxor .u64) (.bin (.shl .u64) (.var 54) (.lit 1)) (.bin (.shr .u64)
      (.var 54) (.lit 63)))),
    .asg 59 (.bin (.bxor .u64) (.var 53) (.bin (.bxor .u64) (.bin (.shl .u64) (.var 55) (.lit 1)) (.bin (.shr .u64)
      (.var 55) (.lit 63)))),
    .asg 60 (.bin (.bxor .u64) (.var 54) (.bin (.bxor .u64) (.bin (.shl .u64) (.var 51) (.lit 1)) (.bin (.shr .u64)
      (.var 51) (.lit 63)))),
    .asg 1 (.bin (.bxor .u64) (.var 1) (.var 56)),
    .asg 26 (.var 1),
    .asg 7 (.bin (.bxor .u64) (.var 7) (.var 57)),
    .asg 27 (.bin (.bxor .u64) (.bin (.shl .u64) (.var 7) (.lit 44)) (.bin (.shr .u64) (.var 7) (.lit 20))),
    .asg 13 (.bin (.bxor .u64) (.var 13) (.var 58)),
    .asg 28 (.bin (.bxor .u64) (.bin (.shl .u64) (.var 13) (.lit 43)) (.bin (.shr .u64) (.var 13) (.lit 21))),
    .asg 19 (.bin (.bxor .u64) (.var 19) (.var 59)),
    .asg 29 (.bin (.bxor .u64) (.bin (.shl .u64) (.var 19) (.lit 21)) (.bin (.shr .u64) (.var 19) (.lit 43))),
    .asg 25 (.bin (.bxor .u64) (.var 25) (.var 60)),
    .asg 30 (.bin (.bxor .u64) (.bin (.shl .u64) (.var 25) (.lit 14)) (.bin (.shr .u64) (.var 25) (.lit 50))),
    .asg 61 (.bin (.bxor .u64) (.var 26) (.bin (.band .u64) (.un (.bnot .u64) (.var 27)) (.var 28))),
    .asg 61 (.bin (.bxor .u64) (.var 61) (.ld 8 (.padd (.glob 0) (.lit 16) 8))),
    .asg 51 (.var 61),
    .asg 62 (.bin (.bxor .u64) (.var 27) (.bin (.band .u64) (.un (.bnot .u64) (.var 28)) (.var 29))),
    .asg 52 (.var 62),
    .asg 63 (.bin (.bxor .u64) (.var 28) (.bin (.band .u64) (.un (.bnot .u64) (.var 29)) (.var 30))),
    .asg 53 (.var 63),
    .asg 64 (.bin (.bxor .u64) (.var 29) (.bin (.band .u64) (.un (.bnot .u64) (.var 30)) (.var 26))),
    .asg 54 (.var 64),
    .asg 65 (.bin (.bxor .u64) (.var 30) (.bin (.band .u64) (.un (.bnot .u64) (.var 26)) (.var 27))),
    .asg 55 (.var 65),
    .asg 4 (.bin (.bxor .u64) (.var 4) (.var 59)),
    .asg 31 (.bin (.bxor .u64) (.bin (.shl .u64) (.var 4) (.lit 28)) (.bin (.shr .u64) (.var 4) (.lit 36))),
    .asg 10 (.bin (.bxor .u64) (.var 10) (.var 60)),
    .asg 32 (.bin (.bxor .u64) (.bin (.shl .u64) (.var 10) (.lit 20)) (.bin (.shr .u64) (.var 10) (.lit 44))),
    .asg 11 (.bin (.bxor .u64) (.var 11) (.var 56)),
    .asg 33 (.bin (.bxor .u64) (.bin (.shl .u64) (.var 11) (.lit 3)) (.bin (.shr .u64) (.var 11) (.lit 61))),
    .asg 17 (.bin (.bxor .u64) (.var 17) (.var 57))]

/-- part of `KeccakP1600_Permute_24rounds` -/
def KeccakP1600_Permute_24rounds.part44 : Stmt :=
  block [
    .asg 34 (.bin (.bxor .u64) (.bin (.shl .u64) (.var 17) (.lit 45)) (.bin (.shr .u64) (.var 17) (.lit 19))),
    .asg 23 (.bin (.bxor .u64) (.var 23) (.var 58)),
    .asg 35 (.bin (.bxor .u64) (.bin (.shl .u64) (.var 23) (.lit 61)) (.bin (.shr .u64) (.var 23) (.lit 3))),
    .asg 66 (.bin (.bxor .u64) (.var 31) (.bin (.band .u64) (.un (.bnot .u64) (.var 32)) (.var 33))),
    .asg 51 (.bin (.bxor .u64) (.var 51) (.var 66)),
    .asg 67 (.bin (.bxor .u64) (.var 32) (.bin (.band .u64) (.un (.bnot .u64) (.var 33)) (.var 34))),
    .asg 52 (.bin (.bxor .u64) (.var 52) (.var 67)),
    .asg 68 (.bin (.bxor .u64) (.var 33) (.bin (.band .u64) (.un (.bnot .u64) (.var 34)) (.var 35))),
    .asg 53 (.bin (.bxor .u64) (.var 53) (.var 68)),
    .asg 69 (.bin (.bxor .u64) (.var 34) (.bin (.band .u64) (.un (.bnot .u64) (.var 35)) (.var 31))),
    .asg 54 (.bin (.bxor .u64) (.var 54) (.var 69)),
    .asg 70 (.bin (.bxor .u64) (.var 35) (.bin (.band .u64) (.un (.bnot .u64) (.var 31)) (.var 32))),
    .asg 55 (.bin (.bxor .u64) (.var 55) (.var 70)),
    .asg 2 (.bin (.bxor .u64) (.var 2) (.var 57)),
    .asg 36 (.bin (.bxor .u64) (.bin (.shl .u64) (.var 2) (.lit 1)) (.bin (.shr .u64) (.var 2) (.lit 63))),
    .asg 8 (.bin (.bxor .u64) (.var 8) (.var 58)),
    .asg 37 (.bin (.bxor .u64) (.bin (.shl .u64) (.var 8) (.lit 6)) (.bin (.shr .u64) (.var 8) (.lit 58))),
    .asg 14 (.bin (.bxor .u64) (.var 14) (.var 59)),
    .asg 38 (.bin (.bxor .u64) (.bin (.shl .u64) (.var 14) (.lit 25)) (.bin (.shr .u64) (.var 14) (.lit 39))),
    .asg 20 (.bin (.bxor .u64) (.var 20) (.var 60)),
    .asg 39 (.bin (.bxor .u64) (.bin (.shl .u64) (.var 20) (.lit 8)) (.bin (.shr .u64) (.var 20) (.lit 56))),
    .asg 21 (.bin (.bxor .u64) (.var 21) (.var 56)),
    .asg 40 (.bin (.bxor .u64) (.bin (.shl .u64) (.var 21) (.lit 18)) (.bin (.shr .u64) (.var 21) (.lit 46))),
    .asg 71 (.bin (.bxor .u64) (.var 36) (.bin (.band .u64) (.un (.bnot .u64) (.var 37)) (.var 38))),
    .asg 51 (.bin (.bxor .u64) (.var 51) (.var 71)),
    .asg 72 (.bin (.bxor .u64) (.var 37) (.bin (.band .u64) (.un (.bnot .u64) (.var 38)) (.var 39))),
    .asg 52 (.bin (.bxor .u64) (.var 52) (.var 72)),
    .asg 73 (.bin (.bxor .u64) (.var 38) (.bin (.band .u64) (.un (.bnot .u64) (.var 39)) (.var 40))),
    .asg 53 (.bin (.bxor .u64) (.var 53) (.var 73)),
    .asg 74 (.bin (.bxor .u64) (.var 39) (.bin (.band .u64) (.un (.bnot .u64) (.var 40)) (.var 36))),
    .asg 54 (.bin (.bxor .u64) (.var 54) (.var 74)),
    .asg 75 (.bin (.bxor .u64) (.var 40) (.bin (.band .u64) (.un (.bnot .u64) (.var 36)) (.var 37))),
    .asg 55 (.bin (.bxor .u64) (.var 55) (.var 75)),
    .asg 5 (.bin (.bxor .u64) (.var 5) (.var 60)),
    .asg 41 (.bin (.bxor .u64) (.bin (.shl .u64) (.var 5) (.lit 27)) (.bin (.shr .u64) (.var 5) (.lit 37))),
    .asg 6 (.bin (.bxor .u64) (.var 6) (.var 56)),
    .asg 42 (.bin (.bxor .u64) (.bin (.shl .u64) (.var 6) (.lit 36)) (.bin (.shr .u64) (.var 6) (.lit 28))),
    .asg 12 (.bin (.bxor .u64) (.var 12) (.var 57)),
    .asg 43 (.bin (.bxor .u64) (.bin (.shl .u64) (.var 12) (.lit 10)) (.bin (.shr .u64) (.var 12) (.lit 54))),
    .asg 18 (.bin (.bxor .u64) (.var 18) (.var 58))]

/-- part of `KeccakP1600_Permute_24rounds` -/
def KeccakP1600_Permute_24rounds.part45 : Stmt :=
  block [
    .asg 44 (.bin (.bxor .u64) (.bin (.shl .u64) (.var 18) (.lit 15)) (.bin (.shr .u64) (.var 18) (.lit 49))),
    .asg 24 (.bin (.bxor .u64) (.var 24) (.var 59)),
    .asg 45 (.bin (.bxor .u64) (.bin (.shl .u64) (.var 24) (.lit 56)) (.bin (.shr .u64) (.var 24) (.lit 8))),
    .asg 76 (.bin (.bxor .u64) (.var 41) (.bin (.band .u64) (.un (.bnot .u64) (.var 42)) (.var 43))),
    .asg 51 (.bin (.bxor .u64) (.var 51) (.var 76)),
    .asg 77 (.bin (.bxor .u64) (.var 42) (.bin (.band .u64) (.un (.bnot .u64) (.var 43)) (.var 44))),
    .asg 52 (.bin (.bxor .u64) (.var 52) (.var 77)),
    .asg 78 (.bin (.bxor .u64) (.var 43) (.bin (.band .u64) (.un (.bnot .u64) (.var 44)) (.var 45))),
    .asg 53 (.bin (.bxor .u64) (.var 53) (.var 78)),
    .asg 79 (.bin (.bxor .u64) (.var 44) (.bin (.band .u64) (.un (.bnot .u64) (.var 45)) (.var 41))),
    .asg 54 (.bin (.bxor .u64) (.var 54) (.var 79)),
    .asg 80 (.bin (.bxor .u64) (.var 45) (.bin (.band .u64) (.un (.bnot .u64) (.var 41)) (.var 42))),
    .asg 55 (.bin (.bxor .u64) (.var 55) (.var 80)),
    .asg 3 (.bin (.bxor .u64) (.var 3) (.var 58)),
    .asg 46 (.bin (.bxor .u64) (.bin (.shl .u64) (.var 3) (.lit 62)) (.bin (.shr .u64) (.var 3) (.lit 2))),
    .asg 9 (.bin (.bxor .u64) (.var 9) (.var 59)),
    .asg 47 (.bin (.bxor .u64) (.bin (.shl .u64) (.var 9) (.lit 55)) (.bin (.shr .u64) (.var 9) (.lit 9))),
    .asg 15 (.bin (.bxor .u64) (.var 15) (.var 60)),
    .asg 48 (.bin (.bxor .u64) (.bin (.shl .u64) (.var 15) (.lit 39)) (.bin (.shr .u64) (.var 15) (.lit 25))),
    .asg 16 (.bin (.bxor .u64) (.var 16) (.var 56)),
    .asg 49 (.bin (.bxor .u64) (.bin (.shl .u64) (.var 16) (.lit 41)) (.bin (.shr .u64) (.var 16) (.lit 23))),
    .asg 22 (.bin (.bxor .u64) (.var 22) (.var 57)),
    .asg 50 (.bin (.bxor .u64) (.bin (.shl .u64) (.var 22) (.lit 2)) (.bin (.shr .u64) (.var 22) (.lit 62))),
    .asg 81 (.bin (.bxor .u64) (.var 46) (.bin (.band .u64) (.un (.bnot .u64) (.var 47)) (.var 48))),
    .asg 51 (.bin (.bxor .u64) (.var 51) (.var 81)),
    .asg 82 (.bin (.bxor .u64) (.var 47) (.bin (.band .u64) (.un (.bnot .u64) (.var 48)) (.var 49))),
    .asg 52 (.bin (.bxor .u64) (.var 52) (.var 82)),
    .asg 83 (.bin (.bxor .u64) (.var 48) (.bin (.band .u64) (.un (.bnot .u64) (.var 49)) (.var 50))),
    .asg 53 (.bin (.bxor .u64) (.var 53) (.var 83)),
    .asg 84 (.bin (.bxor .u64) (.var 49) (.bin (.band .u64) (.un (.bnot .u64) (.var 50)) (.var 46))),
    .asg 54 (.bin (.bxor .u64) (.var 54) (.var 84)),
    .asg 85 (.bin (.bxor .u64) (.var 50) (.bin (.band .u64) (.un (.bnot .u64) (.var 46)) (.var 47))),
    .asg 55 (.bin (.bxor .u64) (.var 55) (.var 85)),
    .asg 56 (.bin (.bxor .u64) (.var 55) (.bin (.bxor .u64) (.bin (.shl .u64) (.var 52) (.lit 1)) (.bin (.shr .u64)
      (.var 52) (.lit 63)))),
    .asg 57 (.bin (.bxor .u64) (.var 51) (.bin (.bxor .u64) (.bin (.shl .u64) (.var 53) (.lit 1)) (.bin (.shr .u64)
      (.var 53) (.lit 63)))),
    .asg 58 (.bin (.bxor .u64) (.var 52) (.bin (.bxor .u64) (.bin (.shl .u64) (.var 54) (.lit 1)) (.bin (.shr .u64)
      (.var 54) (.lit 63)))),
    .asg 59 (.bin (.bxor .u64) (.var 53) (.bin (.bxor .u64) (.bin (.shl .u64) (.var 55) (.lit 1)) (.bin (.shr .u64)
      (.var 55) (.lit 63)))),
    .asg 60 (.bin (.bxor .u64) (.var 54) (.bin (.bxor .u64) (.bin (.shl .u64) (.var 51) (.lit 1)) (.bin (.shr .u64)
      (.var 51) (.lit 63)))),
    .asg 61 (.bin (.bxor .u64) (.var 61) (.var 56)),
    .asg 26 (.var 61)]

/-- part of `KeccakP1600_Permute_24rounds` -/
def KeccakP1600_Permute_24rounds.part46 : Stmt :=
  block [
    .asg 67 (.bin (.bxor .u64) (.var 67) (.var 57)),
    .asg 27 (.bin (.bxor .u64) (.bin (.shl .u64) (.var 67) (.lit 44)) (.bin (.shr .u64) (.var 67) (.lit 20))),
    .asg 73 (.bin (.bxor .u64) (.var 73) (.var 58)),
    .asg 28 (.bin (.bxor .u64) (.bin (.shl .u64) (.var 73) (.lit 43)) (.bin (.shr .u64) (.var 73) (.lit 21))),
    .asg 79 (.bin (.bxor .u64) (.var 79) (.var 59)),
    .asg 29 (.bin (.bxor .u64) (.bin (.shl .u64) (.var 79) (.lit 21)) (.bin (.shr .u64) (.var 79) (.lit 43))),
    .asg 85 (.bin (.bxor .u64) (.var 85) (.var 60)),
    .asg 30 (.bin (.bxor .u64) (.bin (.shl .u64) (.var 85) (.lit 14)) (.bin (.shr .u64) (.var 85) (.lit 50))),
    .asg 1 (.bin (.bxor .u64) (.var 26) (.bin (.band .u64) (.un (.bnot .u64) (.var 27)) (.var 28))),
    .asg 1 (.bin (.bxor .u64) (.var 1) (.ld 8 (.padd (.glob 0) (.lit 17) 8))),
    .asg 51 (.var 1),
    .asg 2 (.bin (.bxor .u64) (.var 27) (.bin (.band .u64) (.un (.bnot .u64) (.var 28)) (.var 29))),
    .asg 52 (.var 2),
    .asg 3 (.bin (.bxor .u64) (.var 28) (.bin (.band .u64) (.un (.bnot .u64) (.var 29)) (.var 30))),
    .asg 53 (.var 3),
    .asg 4 (.bin (.bxor .u64) (.var 29) (.bin (.band .u64) (.un (.bnot .u64) (.var 30)) (.var 26))),
    .asg 54 (.var 4),
    .asg 5 (.bin (.bxor .u64) (.var 30) (.bin (.band .u64) (.un (.bnot .u64) (.var 26)) (.var 27))),
    .asg 55 (.var 5),
    .asg 64 (.bin (.bxor .u64) (.var 64) (.var 59)),
    .asg 31 (.bin (.bxor .u64) (.bin (.shl .u64) (.var 64) (.lit 28)) (.bin (.shr .u64) (.var 64) (.lit 36))),
    .asg 70 (.bin (.bxor .u64) (.var 70) (.var 60)),
    .asg 32 (.bin (.bxor .u64) (.bin (.shl .u64) (.var 70) (.lit 20)) (.bin (.shr .u64) (.var 70) (.lit 44))),
    .asg 71 (.bin (.bxor .u64) (.var 71) (.var 56)),
    .asg 33 (.bin (.bxor .u64) (.bin (.shl .u64) (.var 71) (.lit 3)) (.bin (.shr .u64) (.var 71) (.lit 61))),
    .asg 77 (.bin (.bxor .u64) (.var 77) (.var 57)),
    .asg 34 (.bin (.bxor .u64) (.bin (.shl .u64) (.var 77) (.lit 45)) (.bin (.shr .u64) (.var 77) (.lit 19))),
    .asg 83 (.bin (.bxor .u64) (.var 83) (.var 58)),
    .asg 35 (.bin (.bxor .u64) (.bin (.shl .u64) (.var 83) (.lit 61)) (.bin (.shr .u64) (.var 83) (.lit 3))),
    .asg 6 (.bin (.bxor .u64) (.var 31) (.bin (.band .u64) (.un (.bnot .u64) (.var 32)) (.var 33))),
    .asg 51 (.bin (.bxor .u64) (.var 51) (.var 6)),
    .asg 7 (.bin (.bxor .u64) (.var 32) (.bin (.band .u64) (.un (.bnot .u64) (.var 33)) (.var 34))),
    .asg 52 (.bin (.bxor .u64) (.var 52) (.var 7)),
    .asg 8 (.bin (.bxor .u64) (.var 33) (.bin (.band .u64) (.un (.bnot .u64) (.var 34)) (.var 35))),
    .asg 53 (.bin (.bxor .u64) (.var 53) (.var 8)),
    .asg 9 (.bin (.bxor .u64) (.var 34) (.bin (.band .u64) (.un (.bnot .u64) (.var 35)) (.var 31))),
    .asg 54 (.bin (.bxor .u64) (.var 54) (.var 9)),
    .asg 10 (.bin (.bxor .u64) (.var 35) (.bin (.band .u64) (.un (.bnot .u64) (.var 31)) (.var 32))),
    .asg 55 (.bin (.bxor .u64) (.var 55) (.var 10)),
    .asg 62 (.bin (.bxor .u64) (.var 62) (.var 57))]

/-- part of `KeccakP1600_Permute_24rounds` -/
def KeccakP1600_Permute_24rounds.part47 : Stmt :=
  block [
    .asg 36 (.bin (.bxor .u64) (.bin (.shl .u64) (.var 62) (.lit 1)) (.bin (.shr .u64) (.var 62) (.lit 63))),
    .asg 68 (.bin (.bxor .u64) (.var 68) (.var 58)),
    .asg 37 (.bin (.bxor .u64) (.bin (.shl .u64) (.var 68) (.lit 6)) (.bin (.shr .u64) (.var 68) (.lit 58))),
    .asg 74 (.bin (.bxor .u64) (.var 74) (.var 59)),
    .asg 38 (.bin (.bxor .u64) (.bin (.shl .u64) (.var 74) (.lit 25)) (.bin (.shr .u64) (.var 74) (.lit 39))),
    .asg 80 (.bin (.bxor .u64) (.var 80) (.var 60)),
    .asg 39 (.bin (.bxor .u64) (.bin (.shl .u64) (.var 80) (.lit 8)) (.bin (.shr .u64) (.var 80) (.lit 56))),
    .asg 81 (.bin (.bxor .u64) (.var 81) (.var 56)),
    .asg 40 (.bin (.bxor .u64) (.bin (.shl .u64) (.var 81) (.lit 18)) (.bin (.shr .u64) (.var 81) (.lit 46))),
    .asg 11 (.bin (.bxor .u64) (.var 36) (.bin (.band .u64) (.un (.bnot .u64) (.var 37)) (.var 38))),
    .asg 51 (.bin (.bxor .u64) (.var 51) (.var 11)),
    .asg 12 (.bin (.bxor .u64) (.var 37) (.bin (.band .u64) (.un (.bnot .u64) (.var 38)) (.var 39))),
    .asg 52 (.bin (.bxor .u64) (.var 52) (.var 12)),
    .asg 13 (.bin (.bxor .u64) (.var 38) (.bin (.band .u64) (.un (.bnot .u64) (.var 39)) (.var 40))),
    .asg 53 (.bin (.bxor .u64) (.var 53) (.var 13)),
    .asg 14 (.bin (.bxor .u64) (.var 39) (.bin (.band .u64) (.un (.bnot .u64) (.var 40)) (.var 36))),
    .asg 54 (.bin (.bxor .u64) (.var 54) (.var 14)),
    .asg 15 (.bin (.bxor .u64) (.var 40) (.bin (.band .u64) (.un (.bnot .u64) (.var 36)) (.var 37))),
    .asg 55 (.bin (.bxor .u64) (.var 55) (.var 15)),
    .asg 65 (.bin (.bxor .u64) (.var 65) (.var 60)),
    .asg 41 (.bin (.bxor .u64) (.bin (.shl .u64) (.var 65) (.lit 27)) (.bin (.shr .u64) (.var 65) (.lit 37))),
    .asg 66 (.bin (.bxor .u64) (.var 66) (.var 56)),
    .asg 42 (.bin (.bxor .u64) (.bin (.shl .u64) (.var 66) (.lit 36)) (.bin (.shr .u64) (.var 66) (.lit 28))),
    .asg 72 (.bin (.bxor .u64) (.var 72) (.var 57)),
    .asg 43 (.bin (.bxor .u64) (.bin (.shl .u64) (.var 72) (.lit 10)) (.bin (.shr .u64) (.var 72) (.lit 54))),
    .asg 78 (.bin (.bxor .u64) (.var 78) (.var 58)),
    .asg 44 (.bin (.bxor .u64) (.bin (.shl .u64) (.var 78) (.lit 15)) (.bin (.shr .u64) (.var 78) (.lit 49))),
    .asg 84 (.bin (.bxor .u64) (.var 84) (.var 59)),
    .asg 45 (.bin (.bxor .u64) (.bin (.shl .u64) (.var 84) (.lit 56)) (.bin (.shr .u64) (.var 84) (.lit 8))),
    .asg 16 (.bin (.bxor .u64) (.var 41) (.bin (.band .u64) (.un (.bnot .u64) (.var 42)) (.var 43))),
    .asg 51 (.bin (.bxor .u64) (.var 51) (.var 16)),
    .asg 17 (.bin (.bxor .u64) (.var 42) (.bin (.band .u64) (.un (.bnot .u64) (.var 43)) (.var 44))),
    .asg 52 (.bin (.bxor .u64) (.var 52) (.var 17)),
    .asg 18 (.bin (.bxor .u64) (.var 43) (.bin (.band .u64) (.un (.bnot .u64) (.var 44)) (.var 45))),
    .asg 53 (.bin (.bxor .u64) (.var 53) (.var 18)),
    .asg 19 (.bin (.bxor .u64) (.var 44) (.bin (.band .u64) (.un (.bnot .u64) (.var 45)) (.var 41))),
    .asg 54 (.bin (.bxor .u64) (.var 54) (.var 19)),
    .asg 20 (.bin (.bxor .u64) (.var 45) (.bin (.band .u64) (.un (.bnot .u64) (.var 41)) (.var 42))),
    .asg 55 (.bin (.bxor .u64) (.var 55) (.var 20)),
    .asg 63 (.bin (.bxor .u64) (.var 63) (.var 58))]

/-- part of `KeccakP1600_Permute_24rounds` -/
def KeccakP1600_Permute_24rounds.part48 : Stmt :=
  block [
    .asg 46 (.bin (.bxor .u64) (.bin (.shl .u64) (.var 63) (.lit 62)) (.bin (.shr .u64) (.var 63) (.lit 2))),
    .asg 69 (.bin (.bxor .u64) (.var 69) (.var 59)),
    .asg 47 (.bin (.bxor .u64) (.bin (.shl .u64) (.var 69) (.lit 55)) (.bin (.shr .u64) (.var 69) (.lit 9))),
    .asg 75 (.bin (.bxor .u64) (.var 75) (.var 60)),
    .asg 48 (.bin (.bxor .u64) (.bin (.shl .u64) (.var 75) (.lit 39)) (.bin (.shr .u64) (.var 75) (.lit 25))),
    .asg 76 (.bin (.bxor .u64) (.var 76) (.var 56)),
    .asg 49 (.bin (.bxor .u64) (.bin (.shl .u64) (.var 76) (.lit 41)) (.bin (.shr .u64) (.var 76) (.lit 23))),
    .asg 82 (.bin (.bxor .u64) (.var 82) (.var 57)),
    .asg 50 (.bin (.bxor .u64) (.bin (.shl .u64) (.var 82) (.lit 2)) (.bin (.shr .u64) (.var 82) (.lit 62))),
    .asg 21 (.bin (.bxor .u64) (.var 46) (.bin (.band .u64) (.un (.bnot .u64) (.var 47)) (.var 48))),
    .asg 51 (.bin (.bxor .u64) (.var 51) (.var 21)),
    .asg 22 (.bin (.bxor .u64) (.var 47) (.bin (.band .u64) (.un (.bnot .u64) (.var 48)) (.var 49))),
    .asg 52 (.bin (.bxor .u64) (.var 52) (.var 22)),
    .asg 23 (.bin (.bxor .u64) (.var 48) (.bin (.band .u64) (.un (.bnot .u64) (.var 49)) (.var 50))),
    .asg 53 (.bin (.bxor .u64) (.var 53) (.var 23)),
    .asg 24 (.bin (.bxor .u64) (.var 49) (.bin (.band .u64) (.un (.bnot .u64) (.var 50)) (.var 46))),
    .asg 54 (.bin (.bxor .u64) (.var 54) (.var 24)),
    .asg 25 (.bin (.bxor .u64) (.var 50) (.bin (.band .u64) (.un (.bnot .u64) (.var 46)) (.var 47))),
    .asg 55 (.bin (.bxor .u64) (.var 55) (.var 25)),
    .asg 56 (.bin (.bxor .u64) (.var 55) (.bin (.bxor .u64) (.bin (.shl .u64) (.var 52) (.lit 1)) (.bin (.shr .u64)
      (.var 52) (.lit 63)))),
    .asg 57 (.bin (.bxor .u64) (.var 51) (.bin (.bxor .u64) (.bin (.shl .u64) (.var 53) (.lit 1)) (.bin (.shr .u64)
      (.var 53) (.lit 63)))),
    .asg 58 (.bin (.bxor .u64) (.var 52) (.bin (.bxor .u64) (.bin (.shl .u64) (.var 54) (.lit 1)) (.bin (.shr .u64)
      (.var 54) (.lit 63)))),
    .asg 59 (.bin (.bxor .u64) (.var 53) (.bin (.bxor .u64) (.bin (.shl .u64) (.var 55) (.lit 1)) (.bin (.shr .u64)
      (.var 55) (.lit 63)))),
    .asg 60 (.bin (.bxor .u64) (.var 54) (.bin (.bxor .u64) (.bin (.shl .u64) (.var 51) (.lit 1)) (.bin (.shr .u64)
      (.var 51) (.lit 63)))),
    .asg 1 (.bin (.bxor .u64) (.var 1) (.var 56)),
    .asg 26 (.var 1),
    .asg 7 (.bin (.bxor .u64) (.var 7) (.var 57)),
    .asg 27 (.bin (.bxor .u64) (.bin (.shl .u64) (.var 7) (.lit 44)) (.bin (.shr .u64) (.var 7) (.lit 20))),
    .asg 13 (.bin (.bxor .u64) (.var 13) (.var 58)),
    .asg 28 (.bin (.bxor .u64) (.bin (.shl .u64) (.var 13) (.lit 43)) (.bin (.shr .u64) (.var 13) (.lit 21))),
    .asg 19 (.bin (.bxor .u64) (.var 19) (.var 59)),
    .asg 29 (.bin (.bxor .u64) (.bin (.shl .u64) (.var 19) (.lit 21)) (.bin (.shr .u64) (.var 19) (.lit 43))),
    .asg 25 (.bin (.bxor .u64) (.var 25) (.var 60)),
    .asg 30 (.bin (.bxor .u64) (.bin (.shl .u64) (.var 25) (.lit 14)) (.bin (.shr .u64) (.var 25) (.lit 50))),
    .asg 61 (.bin (.bxor .u64) (.var 26) (.bin (.band .u64) (.un (.bnot .u64) (.var 27)) (.var 28))),
    .asg 61 (.bin (.bxor .u64) (.var 61) (.ld 8 (.padd (.glob 0) (.lit 18) 8))),
    .asg 51 (.var 61),
    .asg 62 (.bin (.bxor .u64) (.var 27) (.bin (.band .u64) (.un (.bnot .u64) (.var 28)) (.var 29))),
    .asg 52 (.var 62),
    .asg 63 (.bin (.bxor .u64) (.var 28) (.bin (.band .u64) (.un (.bnot .u64) (.var 29)) (.var 30)))]

/-- part of `KeccakP1600_Permute_24rounds` -/
def KeccakP1600_Permute_24rounds.part49 : Stmt :=
  block [
    .asg 53 (.var 63),
    .asg 64 (.bin (.bxor .u64) (.var 29) (.bin (.band .u64) (.un (.bnot .u64) (.var 30)) (.var 26))),
    .asg 54 (.var 64),
    .asg 65 (.bin (.bxor .u64) (.var 30) (.bin (.band .u64) (.un (.bnot .u64) (.var 26)) (.var 27))),
    .asg 55 (.var 65),
    .asg 4 (.bin (.bxor .u64) (.var 4) (.var 59)),
    .asg 31 (.bin (.bxor .u64) (.bin (.shl .u64) (.var 4) (.lit 28)) (.bin (.shr .u64) (.var 4) (.lit 36))),
    .asg 10 (.bin (.bxor .u64) (.var 10) (.var 60)),
    .asg 32 (.bin (.bxor .u64) (.bin (.shl .u64) (.var 10) (.lit 20)) (.bin (.shr .u64) (.var 10) (.lit 44))),
    .asg 11 (.bin (.bxor .u64) (.var 11) (.var 56)),
    .asg 33 (.bin (.bxor .u64) (.bin (.shl .u64) (.var 11) (.lit 3)) (.bin (.shr .u64) (.var 11) (.lit 61))),
    .asg 17 (.bin (.bxor .u64) (.var 17) (.var 57)),
    .asg 34 (.bin (.bxor .u64) (.bin (.shl .u64) (.var 17) (.lit 45)) (.bin (.shr .u64) (.var 17) (.lit 19))),
    .asg 23 (.bin (.bxor .u64) (.var 23) (.var 58)),
    .asg 35 (.bin (.bxor .u64) (.bin (.shl .u64) (.var 23) (.lit 61)) (.bin (.shr .u64) (.var 23) (.lit 3))),
    .asg 66 (.bin (.bxor .u64) (.var 31) (.bin (.band .u64) (.un (.bnot .u64) (.var 32)) (.var 33))),
    .asg 51 (.bin (.bxor .u64) (.var 51) (.var 66)),
    .asg 67 (.bin (.bxor .u64) (.var 32) (.bin (.band .u64) (.un (.bnot .u64) (.var 33)) (.var 34))),
    .asg 52 (.bin (.bxor .u64) (.var 52) (.var 67)),
    .asg 68 (.bin (.bxor .u64) (.var 33) (.bin (.band .u64) (.un (.bnot .u64) (.var 34)) (.var 35))),
    .asg 53 (.bin (.bxor .u64) (.var 53) (.var 68)),
    .asg 69 (.bin (.bxor .u64) (.var 34) (.bin (.band .u64) (.un (.bnot .u64) (.var 35)) (.var 31))),
    .asg 54 (.bin (.bxor .u64) (.var 54) (.var 69)),
    .asg 70 (.bin (.bxor .u64) (.var 35) (.bin (.band .u64) (.un (.bnot .u64) (.var 31)) (.var 32))),
    .asg 55 (.bin (.bxor .u64) (.var 55) (.var 70)),
    .asg 2 (.bin (.bxor .u64) (.var 2) (.var 57)),
    .asg 36 (.bin (.bxor .u64) (.bin (.shl .u64) (.var 2) (.lit 1)) (.bin (.shr .u64) (.var 2) (.lit 63))),
    .asg 8 (.bin (.bxor .u64) (.var 8) (.var 58)),
    .asg 37 (.bin (.bxor .u64) (.bin (.shl .u64) (.var 8) (.lit 6)) (.bin (.shr .u64) (.var 8) (.lit 58))),
    .asg 14 (.bin (.bxor .u64) (.var 14) (.var 59)),
    .asg 38 (.bin (.bxor .u64) (.bin (.shl .u64) (.var 14) (.lit 25)) (.bin (.shr .u64) (.var 14) (.lit 39))),
    .asg 20 (.bin (.bxor .u64) (.var 20) (.var 60)),
    .asg 39 (.bin (.bxor .u64) (.bin (.shl .u64) (.var 20) (.lit 8)) (.bin (.shr .u64) (.var 20) (.lit 56))),
    .asg 21 (.bin (.bxor .u64) (.var 21) (.var 56)),
    .asg 40 (.bin (.bxor .u64) (.bin (.shl .u64) (.var 21) (.lit 18)) (.bin (.shr .u64) (.var 21) (.lit 46))),
    .asg 71 (.bin (.bxor .u64) (.var 36) (.bin (.band .u64) (.un (.bnot .u64) (.var 37)) (.var 38))),
    .asg 51 (.bin (.bxor .u64) (.var 51) (.var 71)),
    .asg 72 (.bin (.bxor .u64) (.var 37) (.bin (.band .u64) (.un (.bnot .u64) (.var 38)) (.var 39))),
    .asg 52 (.bin (.bxor .u64) (.var 52) (.var 72)),
    .asg 73 (.bin (.bxor .u64) (.var 38) (.bin (.band .u64) (.un (.bnot .u64) (.var 39)) (.var 40)))]

/-- part of `KeccakP1600_Permute_24rounds` -/
def KeccakP1600_Permute_24rounds.part50 : Stmt :=
  block [
    .asg 53 (.bin (.bxor .u64) (.var 53) (.var 73)),
    .asg 74 (.bin (.bxor .u64) (.var 39) (.bin (.band .u64) (.un (.bnot .u64) (.var 40)) (.var 36))),
    .asg 54 (.bin (.bxor .u64) (.var 54) (.var 74)),
    .asg 75 (.bin (.bxor .u64) (.var 40) (.bin (.band .u64) (.un (.bnot .u64) (.var 36)) (.var 37))),
    .asg 55 (.bin (.bxor .u64) (.var 55) (.var 75)),
    .asg 5 (.bin (.bxor .u64) (.var 5) (.var 60)),
    .asg 41 (.bin (.bxor .u64) (.bin (.shl .u64) (.var 5) (.lit 27)) (.bin (.shr .u64) (.var 5) (.lit 37))),
    .asg 6 (.bin (.bxor .u64) (.var 6) (.var 56)),
    .asg 42 (.bin (.bxor .u64) (.bin (.shl .u64) (.var 6) (.lit 36)) (.bin (.shr .u64) (.var 6) (.lit 28))),
    .asg 12 (.bin (.bxor .u64) (.var 12) (.var 57)),
    .asg 43 (.bin (.bxor .u64) (.bin (.shl .u64) (.var 12) (.lit 10)) (.bin (.shr .u64) (.var 12) (.lit 54))),
    .asg 18 (.bin (.bxor .u64) (.var 18) (.var 58)),
    .asg 44 (.bin (.bxor .u64) (.bin (.shl .u64) (.var 18) (.lit 15)) (.bin (.shr .u64) (.var 18) (.lit 49))),
    .asg 24 (.bin (.bxor .u64) (.var 24) (.var 59)),
    .asg 45 (.bin (.bxor .u64) (.bin (.shl .u64) (.var 24) (.lit 56)) (.bin (.shr .u64) (.var 24) (.lit 8))),
    .asg 76 (.bin (.bxor .u64) (.var 41) (.bin (.band .u64) (.un (.bnot .u64) (.var 42)) (.var 43))),
    .asg 51 (.bin (.bxor .u64) (.var 51) (.var 76)),
    .asg 77 (.bin (.bxor .u64) (.var 42) (.bin (.band .u64) (.un (.bnot .u64) (.var 43)) (.var 44))),
    .asg 52 (.bin (.bxor .u64) (.var 52) (.var 77)),
    .asg 78 (.bin (.bxor .u64) (.var 43) (.bin (.band .u64) (.un (.bnot .u64) (.var 44)) (.var 45))),
    .asg 53 (.bin (.bxor .u64) (.var 53) (.var 78)),
    .asg 79 (.bin (.bxor .u64) (.var 44) (.bin (.band .u64) (.un (.bnot .u64) (.var 45)) (.var 41))),
    .asg 54 (.bin (.bxor .u64) (.var 54) (.var 79)),
    .asg 80 (.bin (.bxor .u64) (.var 45) (.bin (.band .u64) (.un (.bnot .u64) (.var 41)) (.var 42))),
    .asg 55 (.bin (.bxor .u64) (.var 55) (.var 80)),
    .asg 3 (.bin (.bxor .u64) (.var 3) (.var 58)),
    .asg 46 (.bin (.bxor .u64) (.bin (.shl .u64) (.var 3) (.lit 62)) (.bin (.shr .u64) (.var 3) (.lit 2))),
    .asg 9 (.bin (.bxor .u64) (.var 9) (.var 59)),
    .asg 47 (.bin (.bxor .u64) (.bin (.shl .u64) (.var 9) (.lit 55)) (.bin (.shr .u64) (.var 9) (.lit 9))),
    .asg 15 (.bin (.bxor .u64) (.var 15) (.var 60)),
    .asg 48 (.bin (.bxor .u64) (.bin (.shl .u64) (.var 15) (.lit 39)) (.bin (.shr .u64) (.var 15) (.lit 25))),
    .asg 16 (.bin (.bxor .u64) (.var 16) (.var 56)),
    .asg 49 (.bin (.bxor .u64) (.bin (.shl .u64) (.var 16) (.lit 41)) (.bin (.shr .u64) (.var 16) (.lit 23))),
    .asg 22 (.bin (.bxor .u64) (.var 22) (.var 57)),
    .asg 50 (.bin (.bxor .u64) (.bin (.shl .u64) (.var 22) (.lit 2)) (.bin (.shr .u64) (.var 22) (.lit 62))),
    .asg 81 (.bin (.bxor .u64) (.var 46) (.bin (.band .u64) (.un (.bnot .u64) (.var 47)) (.var 48))),
    .asg 51 (.bin (.bxor .u64) (.var 51) (.var 81)),
    .asg 82 (.bin (.bxor .u64) (.var 47) (.bin (.band .u64) (.un (.bnot .u64) (.var 48)) (.var 49))),
    .asg 52 (.bin (.bxor .u64) (.var 52) (.var 82)),
    .asg 83 (.bin (.bxor .u64) (.var 48) (.bin (.band .u64) (.un (.bnot .u64) (.var 49)) (.var 50)))]

/-- part of `KeccakP1600_Permute_24rounds` -/
def KeccakP1600_Permute_24rounds.part51 : Stmt :=
  block [
    .asg 53 (.bin (.bxor .u64) (.var 53) (.var 83)),
    .asg 84 (.bin (.bxor .u64) (.var 49) (.bin (.band .u64) (.un (.bnot .u64) (.var 50)) (.var 46))),
    .asg 54 (.bin (.bxor .u64) (.var 54) (.var 84)),
    .asg 85 (.bin (.bxor .u64) (.var 50) (.bin (.band .u64) (.un (.bnot .u64) (.var 46)) (.var 47))),
    .asg 55 (.bin (.bxor .u64) (.var 55) (.var 85)),
    .asg 56 (.bin (.bxor .u64) (.var 55) (.bin (.bxor .u64) (.bin (.shl .u64) (.var 52) (.lit 1)) (.bin (.shr .u64)
      (.var 52) (.lit 63)))),
    .asg 57 (.bin (.bxor .u64) (.var 51) (.bin (.bxor .u64) (.bin (.shl .u64) (.var 53) (.lit 1)) (.bin (.shr .u64)
      (.var 53) (.lit 63)))),
    .asg 58 (.bin (.bxor .u64) (.var 52) (.bin (.bxor .u64) (.bin (.shl .u64) (.var 54) (.lit 1)) (.bin (.shr .u64)
      (.var 54) (.lit 63)))),
    .asg 59 (.bin (.bxor .u64) (.var 53) (.bin (.bxor .u64) (.bin (.shl .u64) (.var 55) (.lit 1)) (.bin (.shr .u64)
      (.var 55) (.lit 63)))),
    .asg 60 (.bin (.bxor .u64) (.var 54) (.bin (.bxor .u64) (.bin (.shl .u64) (.var 51) (.lit 1)) (.bin (.shr .u64)
      (.var 51) (.lit 63)))),
    .asg 61 (.bin (.bxor .u64) (.var 61) (.var 56)),
    .asg 26 (.var 61),
    .asg 67 (.bin (.bxor .u64) (.var 67) (.var 57)),
    .asg 27 (.bin (.bxor .u64) (.bin (.shl .u64) (.var 67) (.lit 44)) (.bin (.shr .u64) (.var 67) (.lit 20))),
    .asg 73 (.bin (.bxor .u64) (.var 73) (.var 58)),
    .asg 28 (.bin (.bxor .u64) (.bin (.shl .u64) (.var 73) (.lit 43)) (.bin (.shr .u64) (.var 73) (.lit 21))),
    .asg 79 (.bin (.bxor .u64) (.var 79) (.var 59)),
    .asg 29 (.bin (.bxor .u64) (.bin (.shl .u64) (.var 79) (.lit 21)) (.bin (.shr .u64) (.var 79) (.lit 43))),
    .asg 85 (.bin (.bxor .u64) (.var 85) (.var 60)),
    .asg 30 (.bin (.bxor .u64) (.bin (.shl .u64) (.var 85) (.lit 14)) (.bin (.shr .u64) (.var 85) (.lit 50))),
    .asg 1 (.bin (.bxor .u64) (.var 26) (.bin (.band .u64) (.un (.bnot .u64) (.var 27)) (.var 28))),
    .asg 1 (.bin (.bxor .u64) (.var 1) (.ld 8 (.padd (.glob 0) (.lit 19) 8))),
    .asg 51 (.var 1),
    .asg 2 (.bin (.bxor .u64) (.var 27) (.bin (.band .u64) (.un (.bnot .u64) (.var 28)) (.var 29))),
    .asg 52 (.var 2),
    .asg 3 (.bin (.bxor .u64) (.var 28) (.bin (.band .u64) (.un (.bnot .u64) (.var 29)) (.var 30))),
    .asg 53 (.var 3),
    .asg 4 (.bin (.bxor .u64) (.var 29) (.bin (.band .u64) (.un (.bnot .u64) (.var 30)) (.var 26))),
    .asg 54 (.var 4),
    .asg 5 (.bin (.bxor .u64) (.var 30) (.bin (.band .u64) (.un (.bnot .u64) (.var 26)) (.var 27))),
    .asg 55 (.var 5),
    .asg 64 (.bin (.bxor .u64) (.var 64) (.var 59)),
    .asg 31 (.bin (.bxor .u64) (.bin (.shl .u64) (.var 64) (.lit 28)) (.bin (.shr .u64) (.var 64) (.lit 36))),
    .asg 70 (.bin (.bxor .u64) (.var 70) (.var 60)),
    .asg 32 (.bin (.bxor .u64) (.bin (.shl .u64) (.var 70) (.lit 20)) (.bin (.shr .u64) (.var 70) (.lit 44))),
    .asg 71 (.bin (.bxor .u64) (.var 71) (.var 56)),
    .asg 33 (.bin (.bxor .u64) (.bin (.shl .u64) (.var 71) (.lit 3)) (.bin (.shr .u64) (.var 71) (.lit 61))),
    .asg 77 (.bin (.bxor .u64) (.var 77) (.var 57)),
    .asg 34 (.bin (.bxor .u64) (.bin (.shl .u64) (.var 77) (.lit 45)) (.bin (.shr .u64) (.var 77) (.lit 19))),
    .asg 83 (.bin (.bxor .u64) (.var 83) (.var 58))]

/-- part of `KeccakP1600_Permute_24rounds` -/
def KeccakP1600_Permute_24rounds.part52 : Stmt :=
  block [
    .asg 35 (.bin (.bxor .u64) (.bin (.shl .u64) (.var 83) (.lit 61)) (.bin (.shr .u64) (.var 83) (.lit 3))),
    .asg 6 (.bin (.bxor .u64) (.var 31) (.bin (.band .u64) (.un (.bnot .u64) (.var 32)) (.var 33))),
    .asg 51 (.bin (.bxor .u64) (.var 51) (.var 6)),
    .asg 7 (.bin (.bxor .u64) (.var 32) (.bin (.band .u64) (.un (.bnot .u64) (.var 33)) (.var 34))),
    .asg 52 (.bin (.bxor .u64) (.var 52) (.var 7)),
    .asg 8 (.bin (.bxor .u64) (.var 33) (.bin (.band .u64) (.un (.bnot .u64) (.var 34)) (.var 35))),
    .asg 53 (.bin (.bxor .u64) (.var 53) (.var 8)),
    .asg 9 (.bin (.bxor .u64) (.var 34) (.bin (.band .u64) (.un (.bnot .u64) (.var 35)) (.var 31))),
    .asg 54 (.bin (.bxor .u64) (.var 54) (.var 9)),
    .asg 10 (.bin (.bxor .u64) (.var 35) (.bin (.band .u64) (.un (.bnot .u64) (.var 31)) (.var 32))),
    .asg 55 (.bin (.bxor .u64) (.var 55) (.var 10)),
    .asg 62 (.bin (.bxor .u64) (.var 62) (.var 57)),
    .asg 36 (.bin (.bxor .u64) (.bin (.shl .u64) (.var 62) (.lit 1)) (.bin (.shr .u64) (.var 62) (.lit 63))),
    .asg 68 (.bin (.bxor .u64) (.var 68) (.var 58)),
    .asg 37 (.bin (.bxor .u64) (.bin (.shl .u64) (.var 68) (.lit 6)) (.bin (.shr .u64) (.var 68) (.lit 58))),
    .asg 74 (.bin (.bxor .u64) (.var 74) (.var 59)),
    .asg 38 (.bin (.bxor .u64) (.bin (.shl .u64) (.var 74) (.lit 25)) (.bin (.shr .u64) (.var 74) (.lit 39))),
    .asg 80 (.bin (.bxor .u64) (.var 80) (.var 60)),
    .asg 39 (.bin (.bxor .u64) (.bin (.shl .u64) (.var 80) (.lit 8)) (.bin (.shr .u64) (.var 80) (.lit 56))),
    .asg 81 (.bin (.bxor .u64) (.var 81) (.var 56)),
    .asg 40 (.bin (.bxor .u64) (.bin (.shl .u64) (.var 81) (.lit 18)) (.bin (.shr .u64) (.var 81) (.lit 46))),
    .asg 11 (.bin (.bxor .u64) (.var 36) (.bin (.band .u64) (.un (.bnot .u64) (.var 37)) (.var 38))),
    .asg 51 (.bin (.bxor .u64) (.var 51) (.var 11)),
    .asg 12 (.bin (.bxor .u64) (.var 37) (.bin (.band .u64) (.un (.bnot .u64) (.var 38)) (.var 39))),
    .asg 52 (.bin (.bxor .u64) (.var 52) (.var 12)),
    .asg 13 (.bin (.bxor .u64) (.var 38) (.bin (.band .u64) (.un (.bnot .u64) (.var 39)) (.var 40))),
    .asg 53 (.bin (.bxor .u64) (.var 53) (.var 13)),
    .asg 14 (.bin (.bxor .u64) (.var 39) (.bin (.band .u64) (.un (.bnot .u64) (.var 40)) (.var 36))),
    .asg 54 (.bin (.bxor .u64) (.var 54) (.var 14)),
    .asg 15 (.bin (.bxor .u64) (.var 40) (.bin (.band .u64) (.un (.bnot .u64) (.var 36)) (.var 37))),
    .asg 55 (.bin (.bxor .u64) (.var 55) (.var 15)),
    .asg 65 (.bin (.bxor .u64) (.var 65) (.var 60)),
    .asg 41 (.bin (.bxor .u64) (.bin (.shl .u64) (.var 65) (.lit 27)) (.bin (.shr .u64) (.var 65) (.lit 37))),
    .asg 66 (.bin (.bxor .u64) (.var 66) (.var 56)),
    .asg 42 (.bin (.bxor .u64) (.bin (.shl .u64) (.var 66) (.lit 36)) (.bin (.shr .u64) (.var 66) (.lit 28))),
    .asg 72 (.bin (.bxor .u64) (.var 72) (.var 57)),
    .asg 43 (.bin (.bxor .u64) (.bin (.shl .u64) (.var 72) (.lit 10)) (.bin (.shr .u64) (.var 72) (.lit 54))),
    .asg 78 (.bin (.bxor .u64) (.var 78) (.var 58)),
    .asg 44 (.bin (.bxor .u64) (.bin (.shl .u64) (.var 78) (.lit 15)) (.bin (.shr .u64) (.var 78) (.lit 49))),
    .asg 84 (.bin (.bxor .u64) (.var 84) (.var 59))]

/-- part of `KeccakP1600_Permute_24rounds` -/
def KeccakP1600_Permute_24rounds.part53 : Stmt :=
  block [
    .asg 45 (.bin (.bxor .u64) (.bin (.shl .u64) (.var 84) (.lit 56)) (.bin (.shr .u64) (.var 84) (.lit 8))),
    .asg 16 (.bin (.bxor .u64) (.var 41) (.bin (.band .u64) (.un (.bnot .u64) (.var 42)) (.var 43))),
    .asg 51 (.bin (.bxor .u64) (.var 51) (.var 16)),
    .asg 17 (.bin (.bxor .u64) (.var 42) (.bin (.band .u64) (.un (.bnot .u64) (.var 43)) (.var 44))),
    .asg 52 (.bin (.bxor .u64) (.var 52) (.var 17)),
    .asg 18 (.bin (.bxor .u64) (.var 43) (.bin (.band .u64) (.un (.bnot .u64) (.var 44)) (.var 45))),
    .asg 53 (.bin (.bxor .u64) (.var 53) (.var 18)),
    .asg 19 (.bin (.bxor .u64) (.var 44) (.bin (.band .u64) (.un (.bnot .u64) (.var 45)) (.var 41))),
    .asg 54 (.bin (.bxor .u64) (.var 54) (.var 19)),
    .asg 20 (.bin (.bxor .u64) (.var 45) (.bin (.band .u64) (.un (.bnot .u64) (.var 41)) (.var 42))),
    .asg 55 (.bin (.bxor .u64) (.var 55) (.var 20)),
    .asg 63 (.bin (.bxor .u64) (.var 63) (.var 58)),
    .asg 46 (.bin (.bxor .u64) (.bin (.shl .u64) (.var 63) (.lit 62)) (.bin (.shr .u64) (.var 63) (.lit 2))),
    .asg 69 (.bin (.bxor .u64) (.var 69) (.var 59)),
    .asg 47 (.bin (.bxor .u64) (.bin (.shl .u64) (.var 69) (.lit 55)) (.bin (.shr .u64) (.var 69) (.lit 9))),
    .asg 75 (.bin (.bxor .u64) (.var 75) (.var 60)),
    .asg 48 (.bin (.bxor .u64) (.bin (.shl .u64) (.var 75) (.lit 39)) (.bin (.shr .u64) (.var 75) (.lit 25))),
    .asg 76 (.bin (.bxor .u64) (.var 76) (.var 56)),
    .asg 49 (.bin (.bxor .u64) (.bin (.shl .u64) (.var 76) (.lit 41)) (.bin (.shr .u64) (.var 76) (.lit 23))),
    .asg 82 (.bin (.bxor .u64) (.var 82) (.var 57)),
    .asg 50 (.bin (.bxor .u64) (.bin (.shl .u64) (.var 82) (.lit 2)) (.bin (.shr .u64) (.var 82) (.lit 62))),
    .asg 21 (.bin (.bxor .u64) (.var 46) (.bin (.band .u64) (.un (.bnot .u64) (.var 47)) (.var 48))),
    .asg 51 (.bin (.bxor .u64) (.var 51) (.var 21)),
    .asg 22 (.bin (.bxor .u64) (.var 47) (.bin (.band .u64) (.un (.bnot .u64) (.var 48)) (.var 49))),
    .asg 52 (.bin (.bxor .u64) (.var 52) (.var 22)),
    .asg 23 (.bin (.bxor .u64) (.var 48) (.bin (.band .u64) (.un (.bnot .u64) (.var 49)) (.var 50))),
    .asg 53 (.bin (.bxor .u64) (.var 53) (.var 23)),
    .asg 24 (.bin (.bxor .u64) (.var 49) (.bin (.band .u64) (.un (.bnot .u64) (.var 50)) (.var 46))),
    .asg 54 (.bin (.bxor .u64) (.var 54) (.var 24)),
    .asg 25 (.bin (.bxor .u64) (.var 50) (.bin (.band .u64) (.un (.bnot .u64) (.var 46)) (.var 47))),
    .asg 55 (.bin (.bxor .u64) (.var 55) (.var 25)),
    .asg 56 (.bin (.bxor .u64) (.var 55) (.bin (.bxor .u64) (.bin (.shl .u64) (.var 52) (.lit 1)) (.bin (.shr .u64)
      (.var 52) (.lit 63)))),
    .asg 57 (.bin (.bxor .u64) (.var 51) (.bin (.bxor .u64) (.bin (.shl .u64) (.var 53) (.lit 1)) (.bin (.shr .u64)
      (.var 53) (.lit 63)))),
    .asg 58 (.bin (.bxor .u64) (.var 52) (.bin (.bxor .u64) (.bin (.shl .u64) (.var 54) (.lit 1)) (.bin (.shr .u64)
      (.var 54) (.lit 63)))),
    .asg 59 (.bin (.bxor .u64) (.var 53) (.bin (.bxor .u64) (.bin (.shl .u64) (.var 55) (.lit 1)) (.bin (.shr .u64)
      (.var 55) (.lit 63)))),
    .asg 60 (.bin (.bxor .u64) (.var 54) (.bin (.bxor .u64) (.bin (.shl .u64) (.var 51) (.lit 1)) (.bin (.shr .u64)
      (.var 51) (.lit 63)))),
    .asg 1 (.bin (.bxor .u64) (.var 1) (.var 56)),
    .asg 26 (.var 1),
    .asg 7 (.bin (.bxor .u64) (.var 7) (.var 57)),
    .asg 27 (.bin (.bxor .u64) (.bin (.shl .u64) (.var 7) (.lit 44)) (.bin (.shr .u64) (.var 7) (.lit 20)))]

/-- part of `KeccakP1600_Permute_24rounds` -/
def KeccakP1600_Permute_24rounds.part54 : Stmt :=
  block [
    .asg 13 (.bin (.bxor .u64) (.var 13) (.var 58)),
    .asg 28 (.bin (.bxor .u64) (.bin (.shl .u64) (.var 13) (.lit 43)) (.bin (.shr .u64) (.var 13) (.lit 21))),
    .asg 19 (.bin (.bxor .u64) (.var 19) (.var 59)),
    .asg 29 (.bin (.bxor .u64) (.bin (.shl .u64) (.var 19) (.lit 21)) (.bin (.shr .u64) (.var 19) (.lit 43))),
    .asg 25 (.bin (.bxor .u64) (.var 25) (.var 60)),
    .asg 30 (.bin (.bxor .u64) (.bin (.shl .u64) (.var 25) (.lit 14)) (.bin (.shr .u64) (.var 25) (.lit 50))),
    .asg 61 (.bin (.bxor .u64) (.var 26) (.bin (.band .u64) (.un (.bnot .u64) (.var 27)) (.var 28))),
    .asg 61 (.bin (.bxor .u64) (.var 61) (.ld 8 (.padd (.glob 0) (.lit 20) 8))),
    .asg 51 (.var 61),
    .asg 62 (.bin (.bxor .u64) (.var 27) (.bin (.band .u64) (.un (.bnot .u64) (.var 28)) (.var 29))),
    .asg 52 (.var 62),
    .asg 63 (.bin (.bxor .u64) (.var 28) (.bin (.band .u64) (.un (.bnot .u64) (.var 29)) (.var 30))),
    .asg 53 (.var 63),
    .asg 64 (.bin (.bxor .u64) (.var 29) (.bin (.band .u64) (.un (.bnot .u64) (.var 30)) (.var 26))),
    .asg 54 (.var 64),
    .asg 65 (.bin (.bxor .u64) (.var 30) (.bin (.band .u64) (.un (.bnot .u64) (.var 26)) (.var 27))),
    .asg 55 (.var 65),
    .asg 4 (.bin (.bxor .u64) (.var 4) (.var 59)),
    .asg 31 (.bin (.bxor .u64) (.bin (.shl .u64) (.var 4) (.lit 28)) (.bin (.shr .u64) (.var 4) (.lit 36))),
    .asg 10 (.bin (.bxor .u64) (.var 10) (.var 60)),
    .asg 32 (.bin (.bxor .u64) (.bin (.shl .u64) (.var 10) (.lit 20)) (.bin (.shr .u64) (.var 10) (.lit 44))),
    .asg 11 (.bin (.bxor .u64) (.var 11) (.var 56)),
    .asg 33 (.bin (.bxor .u64) (.bin (.shl .u64) (.var 11) (.lit 3)) (.bin (.shr .u64) (.var 11) (.lit 61))),
    .asg 17 (.bin (.bxor .u64) (.var 17) (.var 57)),
    .asg 34 (.bin (.bxor .u64) (.bin (.shl .u64) (.var 17) (.lit 45)) (.bin (.shr .u64) (.var 17) (.lit 19))),
    .asg 23 (.bin (.bxor .u64) (.var 23) (.var 58)),
    .asg 35 (.bin (.bxor .u64) (.bin (.shl .u64) (.var 23) (.lit 61)) (.bin (.shr .u64) (.var 23) (.lit 3))),
    .asg 66 (.bin (.bxor .u64) (.var 31) (.bin (.band .u64) (.un (.bnot .u64) (.var 32)) (.var 33))),
    .asg 51 (.bin (.bxor .u64) (.var 51) (.var 66)),
    .asg 67 (.bin (.bxor .u64) (.var 32) (.bin (.band .u64) (.un (.bnot .u64) (.var 33)) (.var 34))),
    .asg 52 (.bin (.bxor .u64) (.var 52) (.var 67)),
    .asg 68 (.bin (.bxor .u64) (.var 33) (.bin (.band .u64) (.un (.bnot .u64) (.var 34)) (.var 35))),
    .asg 53 (.bin (.bxor .u64) (.var 53) (.var 68)),
    .asg 69 (.bin (.bxor .u64) (.var 34) (.bin (.band .u64) (.un (.bnot .u64) (.var 35)) (.var 31))),
    .asg 54 (.bin (.bxor .u64) (.var 54) (.var 69)),
    .asg 70 (.bin (.bxor .u64) (.var 35) (.bin (.band .u64) (.un (.bnot .u64) (.var 31)) (.var 32))),
    .asg 55 (.bin (.bxor .u64) (.var 55) (.var 70)),
    .asg 2 (.bin (.bxor .u64) (.var 2) (.var 57)),
    .asg 36 (.bin (.bxor .u64) (.bin (.shl .u64) (.var 2) (.lit 1)) (.bin (.shr .u64) (.var 2) (.lit 63))),
    .asg 8 (.bin (.bxor .u64) (.var 8) (.var 58))]

/-- part of `KeccakP1600_Permute_24rounds` -/
def KeccakP1600_Permute_24rounds.part55 : Stmt :=
  block [
    .asg 37 (.bin (.bxor .u64) (.bin (.shl .u64) (.var 8) (.lit 6)) (.bin (.shr .u64) (.var 8) (.lit 58))),
    .asg 14 (.bin (.bxor .u64) (.var 14) (.var 59)),
    .asg 38 (.bin (.bxor .u64) (.bin (.shl .u64) (.var 14) (.lit 25)) (.bin (.shr .u64) (.var 14) (.lit 39))),
    .asg 20 (.bin (.bxor .u64) (.var 20) (.var 60)),
    .asg 39 (.bin (.bxor .u64) (.bin (.shl .u64) (.var 20) (.lit 8)) (.bin (.shr .u64) (.var 20) (.lit 56))),
    .asg 21 (.bin (.bxor .u64) (.var 21) (.var 56)),
    .asg 40 (.bin (.bxor .u64) (.bin (.shl .u64) (.var 21) (.lit 18)) (.bin (.shr .u64) (.var 21) (.lit 46))),
    .asg 71 (.bin (.bxor .u64) (.var 36) (.bin (.band .u64) (.un (.bnot .u64) (.var 37)) (.var 38))),
    .asg 51 (.bin (.bxor .u64) (.var 51) (.var 71)),
    .asg 72 (.bin (.bxor .u64) (.var 37) (.bin (.band .u64) (.un (.bnot .u64) (.var 38)) (.var 39))),
    .asg 52 (.bin (.bxor .u64) (.var 52) (.var 72)),
    .asg 73 (.bin (.bxor .u64) (.var 38) (.bin (.band .u64) (.un (.bnot .u64) (.var 39)) (.var 40))),
    .asg 53 (.bin (.bxor .u64) (.var 53) (.var 73)),
    .asg 74 (.bin (.bxor .u64) (.var 39) (.bin (.band .u64) (.un (.bnot .u64) (.var 40)) (.var 36))),
    .asg 54 (.bin (.bxor .u64) (.var 54) (.var 74)),
    .asg 75 (.bin (.bxor .u64) (.var 40) (.bin (.band .u64) (.un (.bnot .u64) (.var 36)) (.var 37))),
    .asg 55 (.bin (.bxor .u64) (.var 55) (.var 75)),
    .asg 5 (.bin (.bxor .u64) (.var 5) (.var 60)),
    .asg 41 (.bin (.bxor .u64) (.bin (.shl .u64) (.var 5) (.lit 27)) (.bin (.shr .u64) (.var 5) (.lit 37))),
    .asg 6 (.bin (.bxor .u64) (.var 6) (.var 56)),
    .asg 42 (.bin (.bxor .u64) (.bin (.shl .u64) (.var 6) (.lit 36)) (.bin (.shr .u64) (.var 6) (.lit 28))),
    .asg 12 (.bin (.bxor .u64) (.var 12) (.var 57)),
    .asg 43 (.bin (.bxor .u64) (.bin (.shl .u64) (.var 12) (.lit 10)) (.bin (.shr .u64) (.var 12) (.lit 54))),
    .asg 18 (.bin (.bxor .u64) (.var 18) (.var 58)),
    .asg 44 (.bin (.bxor .u64) (.bin (.shl .u64) (.var 18) (.lit 15)) (.bin (.shr .u64) (.var 18) (.lit 49))),
    .asg 24 (.bin (.bxor .u64) (.var 24) (.var 59)),
    .asg 45 (.bin (.bxor .u64) (.bin (.shl .u64) (.var 24) (.lit 56)) (.bin (.shr .u64) (.var 24) (.lit 8))),
    .asg 76 (.bin (.bxor .u64) (.var 41) (.bin (.band .u64) (.un (.bnot .u64) (.var 42)) (.var 43))),
    .asg 51 (.bin (.bxor .u64) (.var 51) (.var 76)),
    .asg 77 (.bin (.bxor .u64) (.var 42) (.bin (.band .u64) (.un (.bnot .u64) (.var 43)) (.var 44))),
    .asg 52 (.bin (.bxor .u64) (.var 52) (.var 77)),
    .asg 78 (.bin (.bxor .u64) (.var 43) (.bin (.band .u64) (.un (.bnot .u64) (.var 44)) (.var 45))),
    .asg 53 (.bin (.bxor .u64) (.var 53) (.var 78)),
    .asg 79 (.bin (.bxor .u64) (.var 44) (.bin (.band .u64) (.un (.bnot .u64) (.var 45)) (.var 41))),
    .asg 54 (.bin (.bxor .u64) (.var 54) (.var 79)),
    .asg 80 (.bin (.bxor .u64) (.var 45) (.bin (.band .u64) (.un (.bnot .u64) (.var 41)) (.var 42))),
    .asg 55 (.bin (.bxor .u64) (.var 55) (.var 80)),
    .asg 3 (.bin (.bxor .u64) (.var 3) (.var 58)),
    .asg 46 (.bin (.bxor .u64) (.bin (.shl .u64) (.var 3) (.lit 62)) (.bin (.shr .u64) (.var 3) (.lit 2))),
    .asg 9 (.bin (.bxor .u64) (.var 9) (.var 59))]

/-- part of `KeccakP1600_Permute_24rounds` -/
def KeccakP1600_Permute_24rounds.part56 : Stmt :=
  block [
    .asg 47 (.bin (.bxor .u64) (.bin (.shl .u64) (.var 9) (.lit 55)) (.bin (.shr .u64) (.var 9) (.lit 9))),
    .asg 15 (.bin (.bxor .u64) (.var 15) (.var 60)),
    .asg 48 (.bin (.bxor .u64) (.bin (.shl .u64) (.var 15) (.lit 39)) (.bin (.shr .u64) (.var 15) (.lit 25))),
    .asg 16 (.bin (.bxor .u64) (.var 16) (.var 56)),
    .asg 49 (.bin (.bxor .u64) (.bin (.shl .u64) (.var 16) (.lit 41)) (.bin (.shr .u64) (.var 16) (.lit 23))),
    .asg 22 (.bin (.bxor .u64) (.var 22) (.var 57)),
    .asg 50 (.bin (.bxor .u64) (.bin (.shl .u64) (.var 22) (.lit 2)) (.bin (.shr .u64) (.var 22) (.lit 62))),
    .asg 81 (.bin (.bxor .u64) (.var 46) (.bin (.band .u64) (.un (.bnot .u64) (.var 47)) (.var 48))),
    .asg 51 (.bin (.bxor .u64) (.var 51) (.var 81)),
    .asg 82 (.bin (.bxor .u64) (.var 47) (.bin (.band .u64) (.un (.bnot .u64) (.var 48)) (.var 49))),
    .asg 52 (.bin (.bxor .u64) (.var 52) (.var 82)),
    .asg 83 (.bin (.bxor .u64) (.var 48) (.bin (.band .u64) (.un (.bnot .u64) (.var 49)) (.var 50))),
    .asg 53 (.bin (.bxor .u64) (.var 53) (.var 83)),
    .asg 84 (.bin (.bxor .u64) (.var 49) (.bin (.band .u64) (.un (.bnot .u64) (.var 50)) (.var 46))),
    .asg 54 (.bin (.bxor .u64) (.var 54) (.var 84)),
    .asg 85 (.bin (.bxor .u64) (.var 50) (.bin (.band .u64) (.un (.bnot .u64) (.var 46)) (.var 47))),
    .asg 55 (.bin (.bxor .u64) (.var 55) (.var 85)),
    .asg 56 (.bin (.bxor .u64) (.var 55) (.bin (.bxor .u64) (.bin (.shl .u64) (.var 52) (.lit 1)) (.bin (.shr .u64)
      (.var 52) (.lit 63)))),
    .asg 57 (.bin (.bxor .u64) (.var 51) (.bin (.bxor .u64) (.bin (.shl .u64) (.var 53) (.lit 1)) (.bin (.shr .u64)
      (.var 53) (.lit 63)))),
    .asg 58 (.bin (.bxor .u64) (.var 52) (.bin (.bxor .u64) (.bin (.shl .u64) (.var 54) (.lit 1)) (.bin (.shr .u64)
      (.var 54) (.lit 63)))),
    .asg 59 (.bin (.bxor .u64) (.var 53) (.bin (.bxor .u64) (.bin (.shl .u64) (.var 55) (.lit 1)) (.bin (.shr .u64)
      (.var 55) (.lit 63)))),
    .asg 60 (.bin (.bxor .u64) (.var 54) (.bin (.bxor .u64) (.bin (.shl .u64) (.var 51) (.lit 1)) (.bin (.shr .u64)
      (.var 51) (.lit 63)))),
    .asg 61 (.bin (.bxor .u64) (.var 61) (.var 56)),
    .asg 26 (.var 61),
    .asg 67 (.bin (.bxor .u64) (.var 67) (.var 57)),
    .asg 27 (.bin (.bxor .u64) (.bin (.shl .u64) (.var 67) (.lit 44)) (.bin (.shr .u64) (.var 67) (.lit 20))),
    .asg 73 (.bin (.bxor .u64) (.var 73) (.var 58)),
    .asg 28 (.bin (.bxor .u64) (.bin (.shl .u64) (.var 73) (.lit 43)) (.bin (.shr .u64) (.var 73) (.lit 21))),
    .asg 79 (.bin (.bxor .u64) (.var 79) (.var 59)),
    .asg 29 (.bin (.bxor .u64) (.bin (.shl .u64) (.var 79) (.lit 21)) (.bin (.shr .u64) (.var 79) (.lit 43))),
    .asg 85 (.bin (.bxor .u64) (.var 85) (.var 60)),
    .asg 30 (.bin (.bxor .u64) (.bin (.shl .u64) (.var 85) (.lit 14)) (.bin (.shr .u64) (.var 85) (.lit 50))),
    .asg 1 (.bin (.bxor .u64) (.var 26) (.bin (.band .u64) (.un (.bnot .u64) (.var 27)) (.var 28))),
    .asg 1 (.bin (.bxor .u64) (.var 1) (.ld 8 (.padd (.glob 0) (.lit 21) 8))),
    .asg 51 (.var 1),
    .asg 2 (.bin (.bxor .u64) (.var 27) (.bin (.band .u64) (.un (.bnot .u64) (.var 28)) (.var 29))),
    .asg 52 (.var 2),
    .asg 3 (.bin (.bxor .u64) (.var 28) (.bin (.band .u64) (.un (.bnot .u64) (.var 29)) (.var 30))),
    .asg 53 (.var 3),
    .asg 4 (.bin (.bxor .u64) (.var 29) (.bin (.band .u64) (.un (.bnot .u64) (.var 30)) (.var 26)))]

/-- part of `KeccakP1600_Permute_24rounds` -/
def KeccakP1600_Permute_24rounds.part57 : Stmt :=
  block [
    .asg 54 (.var 4),
    .asg 5 (.bin (.bxor .u64) (.var 30) (.bin (.band .u64) (.un (.bnot .u64) (.var 26)) (.var 27))),
    .asg 55 (.var 5),
    .asg 64 (.bin (.bxor .u64) (.var 64) (.var 59)),
    .asg 31 (.bin (.bxor .u64) (.bin (.shl .u64) (.var 64) (.lit 28)) (.bin (.shr .u64) (.var 64) (.lit 36))),
    .asg 70 (.bin (.bxor .u64) (.var 70) (.var 60)),
    .asg 32 (.bin (.bxor .u64) (.bin (.shl .u64) (.var 70) (.lit 20)) (.bin (.shr .u64) (.var 70) (.lit 44))),
    .asg 71 (.bin (.bxor .u64) (.var 71) (.var 56)),
    .asg 33 (.bin (.bxor .u64) (.bin (.shl .u64) (.var 71) (.lit 3)) (.bin (.shr .u64) (.var 71) (.lit 61))),
    .asg 77 (.bin (.bxor .u64) (.var 77) (.var 57)),
    .asg 34 (.bin (.bxor .u64) (.bin (.shl .u64) (.var 77) (.lit 45)) (.bin (.shr .u64) (.var 77) (.lit 19))),
    .asg 83 (.bin (.bxor .u64) (.var 83) (.var 58)),
    .asg 35 (.bin (.bxor .u64) (.bin (.shl .u64) (.var 83) (.lit 61)) (.bin (.shr .u64) (.var 83) (.lit 3))),
    .asg 6 (.bin (.bxor .u64) (.var 31) (.bin (.band .u64) (.un (.bnot .u64) (.var 32)) (.var 33))),
    .asg 51 (.bin (.bxor .u64) (.var 51) (.var 6)),
    .asg 7 (.bin (.bxor .u64) (.var 32) (.bin (.band .u64) (.un (.bnot .u64) (.var 33)) (.var 34))),
    .asg 52 (.bin (.bxor .u64) (.var 52) (.var 7)),
    .asg 8 (.bin (.bxor .u64) (.var 33) (.bin (.band .u64) (.un (.bnot .u64) (.var 34)) (.var 35))),
    .asg 53 (.bin (.bxor .u64) (.var 53) (.var 8)),
    .asg 9 (.bin (.bxor .u64) (.var 34) (.bin (.band .u64) (.un (.bnot .u64) (.var 35)) (.var 31))),
    .asg 54 (.bin (.bxor .u64) (.var 54) (.var 9)),
    .asg 10 (.bin (.bxor .u64) (.var 35) (.bin (.band .u64) (.un (.bnot .u64) (.var 31)) (.var 32))),
    .asg 55 (.bin (.bxor .u64) (.var 55) (.var 10)),
    .asg 62 (.bin (.bxor .u64) (.var 62) (.var 57)),
    .asg 36 (.bin (.bxor .u64) (.bin (.shl .u64) (.var 62) (.lit 1)) (.bin (.shr .u64) (.var 62) (.lit 63))),
    .asg 68 (.bin (.bxor .u64) (.var 68) (.var 58)),
    .asg 37 (.bin (.bxor .u64) (.bin (.shl .u64) (.var 68) (.lit 6)) (.bin (.shr .u64) (.var 68) (.lit 58))),
    .asg 74 (.bin (.bxor .u64) (.var 74) (.var 59)),
    .asg 38 (.bin (.bxor .u64) (.bin (.shl .u64) (.var 74) (.lit 25)) (.bin (.shr .u64) (.var 74) (.lit 39))),
    .asg 80 (.bin (.bxor .u64) (.var 80) (.var 60)),
    .asg 39 (.bin (.bxor .u64) (.bin (.shl .u64) (.var 80) (.lit 8)) (.bin (.shr .u64) (.var 80) (.lit 56))),
    .asg 81 (.bin (.bxor .u64) (.var 81) (.var 56)),
    .asg 40 (.bin (.bxor .u64) (.bin (.shl .u64) (.var 81) (.lit 18)) (.bin (.shr .u64) (.var 81) (.lit 46))),
    .asg 11 (.bin (.bxor .u64) (.var 36) (.bin (.band .u64) (.un (.bnot .u64) (.var 37)) (.var 38))),
    .asg 51 (.bin (.bxor .u64) (.var 51) (.var 11)),
    .asg 12 (.bin (.bxor .u64) (.var 37) (.bin (.band .u64) (.un (.bnot .u64) (.var 38)) (.var 39))),
    .asg 52 (.bin (.bxor .u64) (.var 52) (.var 12)),
    .asg 13 (.bin (.bxor .u64) (.var 38) (.bin (.band .u64) (.un (.bnot .u64) (.var 39)) (.var 40))),
    .asg 53 (.bin (.bxor .u64) (.var 53) (.var 13)),
    .asg 14 (.bin (.bxor .u64) (.var 39) (.bin (.band .u64) (.un (.bnot .u64) (.var 40)) (.var 36)))]

/-- part of `KeccakP1600_Permute_24rounds` -/
def KeccakP1600_Permute_24rounds.part58 : Stmt :=
  block [
    .asg 54 (.bin (.bxor .u64) (.var 54) (.var 14)),
    .asg 15 (.bin (.bxor .u64) (.var 40) (.bin (.band .u64) (.un (.bnot .u64) (.var 36)) (.var 37))),
    .asg 55 (.bin (.bxor .u64) (.var 55) (.var 15)),
    .asg 65 (.bin (.bxor .u64) (.var 65) (.var 60)),
    .asg 41 (.bin (.bxor .u64) (.bin (.shl .u64) (.var 65) (.lit 27)) (.bin (.shr .u64) (.var 65) (.lit 37))),
    .asg 66 (.bin (.bxor .u64) (.var 66) (.var 56)),
    .asg 42 (.bin (.bxor .u64) (.bin (.shl .u64) (.var 66) (.lit 36)) (.bin (.shr .u64) (.var 66) (.lit 28))),
    .asg 72 (.bin (.bxor .u64) (.var 72) (.var 57)),
    .asg 43 (.bin (.bxor .u64) (.bin (.shl .u64) (.var 72) (.lit 10)) (.bin (.shr .u64) (.var 72) (.lit 54))),
    .asg 78 (.bin (.bxor .u64) (.var 78) (.var 58)),
    .asg 44 (.bin (.bxor .u64) (.bin (.shl .u64) (.var 78) (.lit 15)) (.bin (.shr .u64) (.var 78) (.lit 49))),
    .asg 84 (.bin (.bxor .u64) (.var 84) (.var 59)),
    .asg 45 (.bin (.bxor .u64) (.bin (.shl .u64) (.var 84) (.lit 56)) (.bin (.shr .u64) (.var 84) (.lit 8))),
    .asg 16 (.bin (.bxor .u64) (.var 41) (.bin (.band .u64) (.un (.bnot .u64) (.var 42)) (.var 43))),
    .asg 51 (.bin (.bxor .u64) (.var 51) (.var 16)),
    .asg 17 (.bin (.bxor .u64) (.var 42) (.bin (.band .u64) (.un (.bnot .u64) (.var 43)) (.var 44))),
    .asg 52 (.bin (.bxor .u64) (.var 52) (.var 17)),
    .asg 18 (.bin (.bxor .u64) (.var 43) (.bin (.band .u64) (.un (.bnot .u64) (.var 44)) (.var 45))),
    .asg 53 (.bin (.bxor .u64) (.var 53) (.var 18)),
    .asg 19 (.bin (.bxor .u64) (.var 44) (.bin (.band .u64) (.un (.bnot .u64) (.var 45)) (.var 41))),
    .asg 54 (.bin (.bxor .u64) (.var 54) (.var 19)),
    .asg 20 (.bin (.bxor .u64) (.var 45) (.bin (.band .u64) (.un (.bnot .u64) (.var 41)) (.var 42))),
    .asg 55 (.bin (.bxor .u64) (.var 55) (.var 20)),
    .asg 63 (.bin (.bxor .u64) (.var 63) (.var 58)),
    .asg 46 (.bin (.bxor .u64) (.bin (.shl .u64) (.var 63) (.lit 62)) (.bin (.shr .u64) (.var 63) (.lit 2))),
    .asg 69 (.bin (.bxor .u64) (.var 69) (.var 59)),
    .asg 47 (.bin (.bxor .u64) (.bin (.shl .u64) (.var 69) (.lit 55)) (.bin (.shr .u64) (.var 69) (.lit 9))),
    .asg 75 (.bin (.bxor .u64) (.var 75) (.var 60)),
    .asg 48 (.bin (.bxor .u64) (.bin (.shl .u64) (.var 75) (.lit 39)) (.bin (.shr .u64) (.var 75) (.lit 25))),
    .asg 76 (.bin (.bxor .u64) (.var 76) (.var 56)),
    .asg 49 (.bin (.bxor .u64) (.bin (.shl .u64) (.var 76) (.lit 41)) (.bin (.shr .u64) (.var 76) (.lit 23))),
    .asg 82 (.bin (.bxor .u64) (.var 82) (.var 57)),
    .asg 50 (.bin (.bxor .u64) (.bin (.shl .u64) (.var 82) (.lit 2)) (.bin (.shr .u64) (.var 82) (.lit 62))),
    .asg 21 (.bin (.bxor .u64) (.var 46) (.bin (.band .u64) (.un (.bnot .u64) (.var 47)) (.var 48))),
    .asg 51 (.bin (.bxor .u64) (.var 51) (.var 21)),
    .asg 22 (.bin (.bxor .u64) (.var 47) (.bin (.band .u64) (.un (.bnot .u64) (.var 48)) (.var 49))),
    .asg 52 (.bin (.bxor .u64) (.var 52) (.var 22)),
    .asg 23 (.bin (.bxor .u64) (.var 48) (.bin (.band .u64) (.un (.bnot .u64) (.var 49)) (.var 50))),
    .asg 53 (.bin (.bxor .u64) (.var 53) (.var 23)),
    .asg 24 (.bin (.bxor .u64) (.var 49) (.bin (.band .u64) (.un (.bnot .u64) (.var 50)) (.var 46)))]

/-- part of `KeccakP1600_Permute_24rounds` -/
def KeccakP1600_Permute_24rounds.part59 : Stmt :=
  block [
    .asg 54 (.bin (.bxor .u64) (.var 54) (.var 24)),
    .asg 25 (.bin (.bxor .u64) (.var 50) (.bin (.band .u64) (.un (.bnot .u64) (.var 46)) (.var 47))),
    .asg 55 (.bin (.bxor .u64) (.var 55) (.var 25)),
    .asg 56 (.bin (.bxor .u64) (.var 55) (.bin (.bxor .u64) (.bin (.shl .u64) (.var 52) (.lit 1)) (.bin (.shr .u64)
      (.var 52) (.lit 63)))),
    .asg 57 (.bin (.bxor .u64) (.var 51) (.bin (.bxor .u64) (.bin (.shl .u64) (.var 53) (.lit 1)) (.bin (.shr .u64)
      (.var 53) (.lit 63)))),
    .asg 58 (.bin (.bxor .u64) (.var 52) (.bin (.bxor .u64) (.bin (.shl .u64) (.var 54) (.lit 1)) (.bin (.shr .u64)
      (.var 54) (.lit 63)))),
    .asg 59 (.bin (.bxor .u64) (.var 53) (.bin (.bxor .u64) (.bin (.shl .u64) (.var 55) (.lit 1)) (.bin (.shr .u64)
      (.var 55) (.lit 63)))),
    .asg 60 (.bin (.bxor .u64) (.var 54) (.bin (.bxor .u64) (.bin (.shl .u64) (.var 51) (.lit 1)) (.bin (.shr .u64)
      (.var 51) (.lit 63)))),
    .asg 1 (.bin (.bxor .u64) (.var 1) (.var 56)),
    .asg 26 (.var 1),
    .asg 7 (.bin (.bxor .u64) (.var 7) (.var 57)),
    .asg 27 (.bin (.bxor .u64) (.bin (.shl .u64) (.var 7) (.lit 44)) (.bin (.shr .u64) (.var 7) (.lit 20))),
    .asg 13 (.bin (.bxor .u64) (.var 13) (.var 58)),
    .asg 28 (.bin (.bxor .u64) (.bin (.shl .u64) (.var 13) (.lit 43)) (.bin (.shr .u64) (.var 13) (.lit 21))),
    .asg 19 (.bin (.bxor .u64) (.var 19) (.var 59)),
    .asg 29 (.bin (.bxor .u64) (.bin (.shl .u64) (.var 19) (.lit 21)) (.bin (.shr .u64) (.var 19) (.lit 43))),
    .asg 25 (.bin (.bxor .u64) (.var 25) (.var 60)),
    .asg 30 (.bin (.bxor .u64) (.bin (.shl .u64) (.var 25) (.lit 14)) (.bin (.shr .u64) (.var 25) (.lit 50))),
    .asg 61 (.bin (.bxor .u64) (.var 26) (.bin (.band .u64) (.un (.bnot .u64) (.var 27)) (.var 28))),
    .asg 61 (.bin (.bxor .u64) (.var 61) (.ld 8 (.padd (.glob 0) (.lit 22) 8))),
    .asg 51 (.var 61),
    .asg 62 (.bin (.bxor .u64) (.var 27) (.bin (.band .u64) (.un (.bnot .u64) (.var 28)) (.var 29))),
    .asg 52 (.var 62),
    .asg 63 (.bin (.bxor .u64) (.var 28) (.bin (.band .u64) (.un (.bnot .u64) (.var 29)) (.var 30))),
    .asg 53 (.var 63),
    .asg 64 (.bin (.bxor .u64) (.var 29) (.bin (.band .u64) (.un (.bnot .u64) (.var 30)) (.var 26))),
    .asg 54 (.var 64),
    .asg 65 (.bin (.bxor .u64) (.var 30) (.bin (.band .u64) (.un (.bnot .u64) (.var 26)) (.var 27))),
    .asg 55 (.var 65),
    .asg 4 (.bin (.bxor .u64) (.var 4) (.var 59)),
    .asg 31 (.bin (.bxor .u64) (.bin (.shl .u64) (.var 4) (.lit 28)) (.bin (.shr .u64) (.var 4) (.lit 36))),
    .asg 10 (.bin (.bxor .u64) (.var 10) (.var 60)),
    .asg 32 (.bin (.bxor .u64) (.bin (.shl .u64) (.var 10) (.lit 20)) (.bin (.shr .u64) (.var 10) (.lit 44))),
    .asg 11 (.bin (.bxor .u64) (.var 11) (.var 56)),
    .asg 33 (.bin (.bxor .u64) (.bin (.shl .u64) (.var 11) (.lit 3)) (.bin (.shr .u64) (.var 11) (.lit 61))),
    .asg 17 (.bin (.bxor .u64) (.var 17) (.var 57)),
    .asg 34 (.bin (.bxor .u64) (.bin (.shl .u64) (.var 17) (.lit 45)) (.bin (.shr .u64) (.var 17) (.lit 19))),
    .asg 23 (.bin (.bxor .u64) (.var 23) (.var 58)),
    .asg 35 (.bin (.bxor .u64) (.bin (.shl .u64) (.var 23) (.lit 61)) (.bin (.shr .u64) (.var 23) (.lit 3))),
    .asg 66 (.bin (.bxor .u64) (.var 31) (.bin (.band .u64) (.un (.bnot .u64) (.var 32)) (.var 33)))]

/-- part of `KeccakP1600_Permute_24rounds` -/
def KeccakP1600_Permute_24rounds.part60 : Stmt :=
  block [
    .asg 51 (.bin (.bxor .u64) (.var 51) (.var 66)),
    .asg 67 (.bin (.bxor .u64) (.var 32) (.bin (.band .u64) (.un (.bnot .u64) (.var 33)) (.var 34))),
    .asg 52 (.bin (.bxor .u64) (.var 52) (.var 67)),
    .asg 68 (.bin (.bxor .u64) (.var 33) (.bin (.band .u64) (.un (.bnot .u64) (.var 34)) (.var 35))),
    .asg 53 (.bin (.bxor .u64) (.var 53) (.var 68)),
    .asg 69 (.bin (.bxor .u64) (.var 34) (.bin (.band .u64) (.un (.bnot .u64) (.var 35)) (.var 31))),
    .asg 54 (.bin (.bxor .u64) (.var 54) (.var 69)),
    .asg 70 (.bin (.bxor .u64) (.var 35) (.bin (.band .u64) (.un (.bnot .u64) (.var 31)) (.var 32))),
    .asg 55 (.bin (.bxor .u64) (.var 55) (.var 70)),
    .asg 2 (.bin (.bxor .u64) (.var 2) (.var 57)),
    .asg 36 (.bin (.bxor .u64) (.bin (.shl .u64) (.var 2) (.lit 1)) (.bin (.shr .u64) (.var 2) (.lit 63))),
    .asg 8 (.bin (.bxor .u64) (.var 8) (.var 58)),
    .asg 37 (.bin (.bxor .u64) (.bin (.shl .u64) (.var 8) (.lit 6)) (.bin (.shr .u64) (.var 8) (.lit 58))),
    .asg 14 (.bin (.bxor .u64) (.var 14) (.var 59)),
    .asg 38 (.bin (.bxor .u64) (.bin (.shl .u64) (.var 14) (.lit 25)) (.bin (.shr .u64) (.var 14) (.lit 39))),
    .asg 20 (.bin (.bxor .u64) (.var 20) (.var 60)),
    .asg 39 (.bin (.bxor .u64) (.bin (.shl .u64) (.var 20) (.lit 8)) (.bin (.shr .u64) (.var 20) (.lit 56))),
    .asg 21 (.bin (.bxor .u64) (.var 21) (.var 56)),
    .asg 40 (.bin (.bxor .u64) (.bin (.shl .u64) (.var 21) (.lit 18)) (.bin (.shr .u64) (.var 21) (.lit 46))),
    .asg 71 (.bin (.bxor .u64) (.var 36) (.bin (.band .u64) (.un (.bnot .u64) (.var 37)) (.var 38))),
    .asg 51 (.bin (.bxor .u64) (.var 51) (.var 71)),
    .asg 72 (.bin (.bxor .u64) (.var 37) (.bin (.band .u64) (.un (.bnot .u64) (.var 38)) (.var 39))),
    .asg 52 (.bin (.bxor .u64) (.var 52) (.var 72)),
    .asg 73 (.bin (.bxor .u64) (.var 38) (.bin (.band .u64) (.un (.bnot .u64) (.var 39)) (.var 40))),
    .asg 53 (.bin (.bxor .u64) (.var 53) (.var 73)),
    .asg 74 (.bin (.bxor .u64) (.var 39) (.bin (.band .u64) (.un (.bnot .u64) (.var 40)) (.var 36))),
    .asg 54 (.bin (.bxor .u64) (.var 54) (.var 74)),
    .asg 75 (.bin (.bxor .u64) (.var 40) (.bin (.band .u64) (.un (.bnot .u64) (.var 36)) (.var 37))),
    .asg 55 (.bin (.bxor .u64) (.var 55) (.var 75)),
    .asg 5 (.bin (.bxor .u64) (.var 5) (.var 60)),
    .asg 41 (.bin (.bxor .u64) (.bin (.shl .u64) (.var 5) (.lit 27)) (.bin (.shr .u64) (.var 5) (.lit 37))),
    .asg 6 (.bin (.bxor .u64) (.var 6) (.var 56)),
    .asg 42 (.bin (.bxor .u64) (.bin (.shl .u64) (.var 6) (.lit 36)) (.bin (.shr .u64) (.var 6) (.lit 28))),
    .asg 12 (.bin (.bxor .u64) (.var 12) (.var 57)),
    .asg 43 (.bin (.bxor .u64) (.bin (.shl .u64) (.var 12) (.lit 10)) (.bin (.shr .u64) (.var 12) (.lit 54))),
    .asg 18 (.bin (.bxor .u64) (.var 18) (.var 58)),
    .asg 44 (.bin (.bxor .u64) (.bin (.shl .u64) (.var 18) (.lit 15)) (.bin (.shr .u64) (.var 18) (.lit 49))),
    .asg 24 (.bin (.bxor .u64) (.var 24) (.var 59)),
    .asg 45 (.bin (.bxor .u64) (.bin (.shl .u64) (.var 24) (.lit 56)) (.bin (.shr .u64) (.var 24) (.lit 8))),
    .asg 76 (.bin (.bxor .u64) (.var 41) (.bin (.band .u64) (.un (.bnot .u64) (.var 42)) (.var 43)))]

/-- part of `KeccakP1600_Permute_24rounds` -/
def KeccakP1600_Permute_24rounds.part61 : Stmt :=
  block [
    .asg 51 (.bin (.bxor .u64) (.var 51) (.var 76)),
    .asg 77 (.bin (.bxor .u64) (.var 42) (.bin (.band .u64) (.un (.bnot .u64) (.var 43)) (.var 44))),
    .asg 52 (.bin (.bxor .u64) (.var 52) (.var 77)),
    .asg 78 (.bin (.bxor .u64) (.var 43) (.bin (.band .u64) (.un (.bnot .u64) (.var 44)) (.var 45))),
    .asg 53 (.bin (.bxor .u64) (.var 53) (.var 78)),
    .asg 79 (.bin (.bxor .u64) (.var 44) (.bin (.band .u64) (.un (.bnot .u64) (.var 45)) (.var 41))),
    .asg 54 (.bin (.bxor .u64) (.var 54) (.var 79)),
    .asg 80 (.bin (.bxor .u64) (.var 45) (.bin (.band .u64) (.un (.bnot .u64) (.var 41)) (.var 42))),
    .asg 55 (.bin (.bxor .u64) (.var 55) (.var 80)),
    .asg 3 (.bin (.bxor .u64) (.var 3) (.var 58)),
    .asg 46 (.bin (.bxor .u64) (.bin (.shl .u64) (.var 3) (.lit 62)) (.bin (.shr .u64) (.var 3) (.lit 2))),
    .asg 9 (.bin (.bxor .u64) (.var 9) (.var 59)),
    .asg 47 (.bin (.bxor .u64) (.bin (.shl .u64) (.var 9) (.lit 55)) (.bin (.shr .u64) (.var 9) (.lit 9))),
    .asg 15 (.bin (.bxor .u64) (.var 15) (.var 60)),
    .asg 48 (.bin (.bxor .u64) (.bin (.shl .u64) (.var 15) (.lit 39)) (.bin (.shr .u64) (.var 15) (.lit 25))),
    .asg 16 (.bin (.bxor .u64) (.var 16) (.var 56)),
    .asg 49 (.bin (.bxor .u64) (.bin (.shl .u64) (.var 16) (.lit 41)) (.bin (.shr .u64) (.var 16) (.lit 23))),
    .asg 22 (.bin (.bxor .u64) (.var 22) (.var 57)),
    .asg 50 (.bin (.bxor .u64) (.bin (.shl .u64) (.var 22) (.lit 2)) (.bin (.shr .u64) (.var 22) (.lit 62))),
    .asg 81 (.bin (.bxor .u64) (.var 46) (.bin (.band .u64) (.un (.bnot .u64) (.var 47)) (.var 48))),
    .asg 51 (.bin (.bxor .u64) (.var 51) (.var 81)),
    .asg 82 (.bin (.bxor .u64) (.var 47) (.bin (.band .u64) (.un (.bnot .u64) (.var 48)) (.var 49))),
    .asg 52 (.bin (.bxor .u64) (.var 52) (.var 82)),
    .asg 83 (.bin (.bxor .u64) (.var 48) (.bin (.band .u64) (.un (.bnot .u64) (.var 49)) (.var 50))),
    .asg 53 (.bin (.bxor .u64) (.var 53) (.var 83)),
    .asg 84 (.bin (.bxor .u64) (.var 49) (.bin (.band .u64) (.un (.bnot .u64) (.var 50)) (.var 46))),
    .asg 54 (.bin (.bxor .u64) (.var 54) (.var 84)),
    .asg 85 (.bin (.bxor .u64) (.var 50) (.bin (.band .u64) (.un (.bnot .u64) (.var 46)) (.var 47))),
    .asg 55 (.bin (.bxor .u64) (.var 55) (.var 85)),
    .asg 56 (.bin (.bxor .u64) (.var 55) (.bin (.bxor .u64) (.bin (.shl .u64) (.var 52) (.lit 1)) (.bin (.shr .u64)
      (.var 52) (.lit 63)))),
    .asg 57 (.bin (.bxor .u64) (.var 51) (.bin (.bxor .u64) (.bin (.shl .u64) (.var 53) (.lit 1)) (.bin (.shr .u64)
      (.var 53) (.lit 63)))),
    .asg 58 (.bin (.bxor .u64) (.var 52) (.bin (.bxor .u64) (.bin (.shl .u64) (.var 54) (.lit 1)) (.bin (.shr .u64)
      (.var 54) (.lit 63)))),
    .asg 59 (.bin (.bxor .u64) (.var 53) (.bin (.bxor .u64) (.bin (.shl .u64) (.var 55) (.lit 1)) (.bin (.shr .u64)
      (.var 55) (.lit 63)))),
    .asg 60 (.bin (.bxor .u64) (.var 54) (.bin (.bxor .u64) (.bin (.shl .u64) (.var 51) (.lit 1)) (.bin (.shr .u64)
      (.var 51) (.lit 63)))),
    .asg 61 (.bin (.bxor .u64) (.var 61) (.var 56)),
    .asg 26 (.var 61),
    .asg 67 (.bin (.bxor .u64) (.var 67) (.var 57)),
    .asg 27 (.bin (.bxor .u64) (.bin (.shl .u64) (.var 67) (.lit 44)) (.bin (.shr .u64) (.var 67) (.lit 20))),
    .asg 73 (.bin (.bxor .u64) (.var 73) (.var 58)),
    .asg 28 (.bin (.bxor .u64) (.bin (.shl .u64) (.var 73) (.lit 43)) (.bin (.shr .u64) (.var 73) (.lit 21)))]

/-- part of `KeccakP1600_Permute_24rounds` -/
def KeccakP1600_Permute_24rounds.part62 : Stmt :=
  block [
    .asg 79 (.bin (.bxor .u64) (.var 79) (.var 59)),
    .asg 29 (.bin (.bxor .u64) (.bin (.shl .u64) (.var 79) (.lit 21)) (.bin (.shr .u64) (.var 79) (.lit 43))),
    .asg 85 (.bin (.bxor .u64) (.var 85) (.var 60)),
    .asg 30 (.bin (.bxor .u64) (.bin (.shl .u64) (.var 85) (.lit 14)) (.bin (.shr .u64) (.var 85) (.lit 50))),
    .asg 1 (.bin (.bxor .u64) (.var 26) (.bin (.band .u64) (.un (.bnot .u64) (.var 27)) (.var 28))),
    .asg 1 (.bin (.bxor .u64) (.var 1) (.ld 8 (.padd (.glob 0) (.lit 23) 8))),
    .asg 2 (.bin (.bxor .u64) (.var 27) (.bin (.band .u64) (.un (.bnot .u64) (.var 28)) (.var 29))),
    .asg 3 (.bin (.bxor .u64) (.var 28) (.bin (.band .u64) (.un (.bnot .u64) (.var 29)) (.var 30))),
    .asg 4 (.bin (.bxor .u64) (.var 29) (.bin (.band .u64) (.un (.bnot .u64) (.var 30)) (.var 26))),
    .asg 5 (.bin (.bxor .u64) (.var 30) (.bin (.band .u64) (.un (.bnot .u64) (.var 26)) (.var 27))),
    .asg 64 (.bin (.bxor .u64) (.var 64) (.var 59)),
    .asg 31 (.bin (.bxor .u64) (.bin (.shl .u64) (.var 64) (.lit 28)) (.bin (.shr .u64) (.var 64) (.lit 36))),
    .asg 70 (.bin (.bxor .u64) (.var 70) (.var 60)),
    .asg 32 (.bin (.bxor .u64) (.bin (.shl .u64) (.var 70) (.lit 20)) (.bin (.shr .u64) (.var 70) (.lit 44))),
    .asg 71 (.bin (.bxor .u64) (.var 71) (.var 56)),
    .asg 33 (.bin (.bxor .u64) (.bin (.shl .u64) (.var 71) (.lit 3)) (.bin (.shr .u64) (.var 71) (.lit 61))),
    .asg 77 (.bin (.bxor .u64) (.var 77) (.var 57)),
    .asg 34 (.bin (.bxor .u64) (.bin (.shl .u64) (.var 77) (.lit 45)) (.bin (.shr .u64) (.var 77) (.lit 19))),
    .asg 83 (.bin (.bxor .u64) (.var 83) (.var 58)),
    .asg 35 (.bin (.bxor .u64) (.bin (.shl .u64) (.var 83) (.lit 61)) (.bin (.shr .u64) (.var 83) (.lit 3))),
    .asg 6 (.bin (.bxor .u64) (.var 31) (.bin (.band .u64) (.un (.bnot .u64) (.var 32)) (.var 33))),
    .asg 7 (.bin (.bxor .u64) (.var 32) (.bin (.band .u64) (.un (.bnot .u64) (.var 33)) (.var 34))),
    .asg 8 (.bin (.bxor .u64) (.var 33) (.bin (.band .u64) (.un (.bnot .u64) (.var 34)) (.var 35))),
    .asg 9 (.bin (.bxor .u64) (.var 34) (.bin (.band .u64) (.un (.bnot .u64) (.var 35)) (.var 31))),
    .asg 10 (.bin (.bxor .u64) (.var 35) (.bin (.band .u64) (.un (.bnot .u64) (.var 31)) (.var 32))),
    .asg 62 (.bin (.bxor .u64) (.var 62) (.var 57)),
    .asg 36 (.bin (.bxor .u64) (.bin (.shl .u64) (.var 62) (.lit 1)) (.bin (.shr .u64) (.var 62) (.lit 63))),
    .asg 68 (.bin (.bxor .u64) (.var 68) (.var 58)),
    .asg 37 (.bin (.bxor .u64) (.bin (.shl .u64) (.var 68) (.lit 6)) (.bin (.shr .u64) (.var 68) (.lit 58))),
    .asg 74 (.bin (.bxor .u64) (.var 74) (.var 59)),
    .asg 38 (.bin (.bxor .u64) (.bin (.shl .u64) (.var 74) (.lit 25)) (.bin (.shr .u64) (.var 74) (.lit 39))),
    .asg 80 (.bin (.bxor .u64) (.var 80) (.var 60)),
    .asg 39 (.bin (.bxor .u64) (.bin (.shl .u64) (.var 80) (.lit 8)) (.bin (.shr .u64) (.var 80) (.lit 56))),
    .asg 81 (.bin (.bxor .u64) (.var 81) (.var 56)),
    .asg 40 (.bin (.bxor .u64) (.bin (.shl .u64) (.var 81) (.lit 18)) (.bin (.shr .u64) (.var 81) (.lit 46))),
    .asg 11 (.bin (.bxor .u64) (.var 36) (.bin (.band .u64) (.un (.bnot .u64) (.var 37)) (.var 38))),
    .asg 12 (.bin (.bxor .u64) (.var 37) (.bin (.band .u64) (.un (.bnot .u64) (.var 38)) (.var 39))),
    .asg 13 (.bin (.bxor .u64) (.var 38) (.bin (.band .u64) (.un (.bnot .u64) (.var 39)) (.var 40))),
    .asg 14 (.bin (.bxor .u64) (.var 39) (.bin (.band .u64) (.un (.bnot .u64) (.var 40)) (.var 36))),
    .asg 15 (.bin (.bxor .u64) (.var 40) (.bin (.band .u64) (.un (.bnot .u64) (.var 36)) (.var 37)))]

/-- part of `KeccakP1600_Permute_24rounds` -/
def KeccakP1600_Permute_24rounds.part63 : Stmt :=
  block [
    .asg 65 (.bin (.bxor .u64) (.var 65) (.var 60)),
    .asg 41 (.bin (.bxor .u64) (.bin (.shl .u64) (.var 65) (.lit 27)) (.bin (.shr .u64) (.var 65) (.lit 37))),
    .asg 66 (.bin (.bxor .u64) (.var 66) (.var 56)),
    .asg 42 (.bin (.bxor .u64) (.bin (.shl .u64) (.var 66) (.lit 36)) (.bin (.shr .u64) (.var 66) (.lit 28))),
    .asg 72 (.bin (.bxor .u64) (.var 72) (.var 57)),
    .asg 43 (.bin (.bxor .u64) (.bin (.shl .u64) (.var 72) (.lit 10)) (.bin (.shr .u64) (.var 72) (.lit 54))),
    .asg 78 (.bin (.bxor .u64) (.var 78) (.var 58)),
    .asg 44 (.bin (.bxor .u64) (.bin (.shl .u64) (.var 78) (.lit 15)) (.bin (.shr .u64) (.var 78) (.lit 49))),
    .asg 84 (.bin (.bxor .u64) (.var 84) (.var 59)),
    .asg 45 (.bin (.bxor .u64) (.bin (.shl .u64) (.var 84) (.lit 56)) (.bin (.shr .u64) (.var 84) (.lit 8))),
    .asg 16 (.bin (.bxor .u64) (.var 41) (.bin (.band .u64) (.un (.bnot .u64) (.var 42)) (.var 43))),
    .asg 17 (.bin (.bxor .u64) (.var 42) (.bin (.band .u64) (.un (.bnot .u64) (.var 43)) (.var 44))),
    .asg 18 (.bin (.bxor .u64) (.var 43) (.bin (.band .u64) (.un (.bnot .u64) (.var 44)) (.var 45))),
    .asg 19 (.bin (.bxor .u64) (.var 44) (.bin (.band .u64) (.un (.bnot .u64) (.var 45)) (.var 41))),
    .asg 20 (.bin (.bxor .u64) (.var 45) (.bin (.band .u64) (.un (.bnot .u64) (.var 41)) (.var 42))),
    .asg 63 (.bin (.bxor .u64) (.var 63) (.var 58)),
    .asg 46 (.bin (.bxor .u64) (.bin (.shl .u64) (.var 63) (.lit 62)) (.bin (.shr .u64) (.var 63) (.lit 2))),
    .asg 69 (.bin (.bxor .u64) (.var 69) (.var 59)),
    .asg 47 (.bin (.bxor .u64) (.bin (.shl .u64) (.var 69) (.lit 55)) (.bin (.shr .u64) (.var 69) (.lit 9))),
    .asg 75 (.bin (.bxor .u64) (.var 75) (.var 60)),
    .asg 48 (.bin (.bxor .u64) (.bin (.shl .u64) (.var 75) (.lit 39)) (.bin (.shr .u64) (.var 75) (.lit 25))),
    .asg 76 (.bin (.bxor .u64) (.var 76) (.var 56)),
    .asg 49 (.bin (.bxor .u64) (.bin (.shl .u64) (.var 76) (.lit 41)) (.bin (.shr .u64) (.var 76) (.lit 23))),
    .asg 82 (.bin (.bxor .u64) (.var 82) (.var 57)),
    .asg 50 (.bin (.bxor .u64) (.bin (.shl .u64) (.var 82) (.lit 2)) (.bin (.shr .u64) (.var 82) (.lit 62))),
    .asg 21 (.bin (.bxor .u64) (.var 46) (.bin (.band .u64) (.un (.bnot .u64) (.var 47)) (.var 48))),
    .asg 22 (.bin (.bxor .u64) (.var 47) (.bin (.band .u64) (.un (.bnot .u64) (.var 48)) (.var 49))),
    .asg 23 (.bin (.bxor .u64) (.var 48) (.bin (.band .u64) (.un (.bnot .u64) (.var 49)) (.var 50))),
    .asg 24 (.bin (.bxor .u64) (.var 49) (.bin (.band .u64) (.un (.bnot .u64) (.var 50)) (.var 46))),
    .asg 25 (.bin (.bxor .u64) (.var 50) (.bin (.band .u64) (.un (.bnot .u64) (.var 46)) (.var 47))),
    .st 8 (.var 86) (.var 1),
    .st 8 (.padd (.var 86) (.lit 1) 8) (.var 2),
    .st 8 (.padd (.var 86) (.lit 2) 8) (.var 3),
    .st 8 (.padd (.var 86) (.lit 3) 8) (.var 4),
    .st 8 (.padd (.var 86) (.lit 4) 8) (.var 5),
    .st 8 (.padd (.var 86) (.lit 5) 8) (.var 6),
    .st 8 (.padd (.var 86) (.lit 6) 8) (.var 7),
    .st 8 (.padd (.var 86) (.lit 7) 8) (.var 8),
    .st 8 (.padd (.var 86) (.lit 8) 8) (.var 9),
    .st 8 (.padd (.var 86) (.lit 9) 8) (.var 10)]

/-- part of `KeccakP1600_Permute_24rounds` -/
def KeccakP1600_Permute_24rounds.part64 : Stmt :=
  block [
    .st 8 (.padd (.var 86) (.lit 10) 8) (.var 11),
    .st 8 (.padd (.var 86) (.lit 11) 8) (.var 12),
    .st 8 (.padd (.var 86) (.lit 12) 8) (.var 13),
    .st 8 (.padd (.var 86) (.lit 13) 8) (.var 14),
    .st 8 (.padd (.var 86) (.lit 14) 8) (.var 15),
    .st 8 (.padd (.var 86) (.lit 15) 8) (.var 16),
    .st 8 (.padd (.var 86) (.lit 16) 8) (.var 17),
    .st 8 (.padd (.var 86) (.lit 17) 8) (.var 18),
    .st 8 (.padd (.var 86) (.lit 18) 8) (.var 19),
    .st 8 (.padd (.var 86) (.lit 19) 8) (.var 20),
    .st 8 (.padd (.var 86) (.lit 20) 8) (.var 21),
    .st 8 (.padd (.var 86) (.lit 21) 8) (.var 22),
    .st 8 (.padd (.var 86) (.lit 22) 8) (.var 23),
    .st 8 (.padd (.var 86) (.lit 23) 8) (.var 24),
    .st 8 (.padd (.var 86) (.lit 24) 8) (.var 25)]

/-- `KeccakP1600_Permute_24rounds`, sha3/opt64/KeccakP-1600-opt64.c:342-353; variables: 0 state, 1 Aba, 2 Abe, 3 Abi,
  4 Abo, 5 Abu, 6 Aga, 7 Age, 8 Agi, 9 Ago, 10 Agu, 11 Aka, 12 Ake, 13 Aki, 14 Ako, 15 Aku, 16 Ama, 17 Ame, 18 Ami,
  19 Amo, 20 Amu, 21 Asa, 22 Ase, 23 Asi, 24 Aso, 25 Asu, 26 Bba, 27 Bbe, 28 Bbi, 29 Bbo, 30 Bbu, 31 Bga, 32 Bge, 33
  Bgi, 34 Bgo, 35 Bgu, 36 Bka, 37 Bke, 38 Bki, 39 Bko, 40 Bku, 41 Bma, 42 Bme, 43 Bmi, 44 Bmo, 45 Bmu, 46 Bsa, 47
  Bse, 48 Bsi, 49 Bso, 50 Bsu, 51 Ca, 52 Ce, 53 Ci, 54 Co, 55 Cu, 56 Da, 57 De, 58 Di, 59 Do, 60 Du, 61 Eba, 62 Ebe,
  63 Ebi, 64 Ebo, 65 Ebu, 66 Ega, 67 Ege, 68 Egi, 69 Ego, 70 Egu, 71 Eka, 72 Eke, 73 Eki, 74 Eko, 75 Eku, 76 Ema, 77
  Eme, 78 Emi, 79 Emo, 80 Emu, 81 Esa, 82 Ese, 83 Esi, 84 Eso, 85 Esu, 86 stateAsLanes -/
def KeccakP1600_Permute_24rounds : Fn := ⟨1,
  block [
    KeccakP1600_Permute_24rounds.part0,
    KeccakP1600_Permute_24rounds.part1,
    KeccakP1600_Permute_24rounds.part2,
    KeccakP1600_Permute_24rounds.part3,
    KeccakP1600_Permute_24rounds.part4,
    KeccakP1600_Permute_24rounds.part5,
    KeccakP1600_Permute_24rounds.part6,
    KeccakP1600_Permute_24rounds.part7,
    KeccakP1600_Permute_24rounds.part8,
    KeccakP1600_Permute_24rounds.part9,
    KeccakP1600_Permute_24rounds.part10,
    KeccakP1600_Permute_24rounds.part11,
    KeccakP1600_Permute_24rounds.part12,
    KeccakP1600_Permute_24rounds.part13,
    KeccakP1600_Permute_24rounds.part14,
    KeccakP1600_Permute_24rounds.part15,
    KeccakP1600_Permute_24rounds.part16,
    KeccakP1600_Permute_24rounds.part17,
    KeccakP1600_Permute_24rounds.part18,
    KeccakP1600_Permute_24rounds.part19,
    KeccakP1600_Permute_24rounds.part20,
    KeccakP1600_Permute_24rounds.part21,
    KeccakP1600_Permute_24rounds.part22,
    KeccakP1600_Permute_24rounds.part23,
    KeccakP1600_Permute_24rounds.part24,
    KeccakP1600_Permute_24rounds.part25,
    KeccakP1600_Permute_24rounds.part26,
    KeccakP1600_Permute_24rounds.part27,
    KeccakP1600_Permute_24rounds.part28,
    KeccakP1600_Permute_24rounds.part29,
    KeccakP1600_Permute_24rounds.part30,
    KeccakP1600_Permute_24rounds.part31,
    KeccakP1600_Permute_24rounds.part32,
    KeccakP1600_Permute_24rounds.part33,
    KeccakP1600_Permute_24rounds.part34,
    KeccakP1600_Permute_24rounds.part35,
    KeccakP1600_Permute_24rounds.part36,
    KeccakP1600_Permute_24rounds.part37,
    KeccakP1600_Permute_24rounds.part38,
    KeccakP1600_Permute_24rounds.part39,
    KeccakP1600_Permute_24rounds.part40,
    KeccakP1600_Permute_24rounds.part41,
    KeccakP1600_Permute_24rounds.part42,
    KeccakP1600_Permute_24rounds.part43,
    KeccakP1600_Permute_24rounds.part44,
    KeccakP1600_Permute_24rounds.part45,
    KeccakP1600_Permute_24rounds.part46,
    KeccakP1600_Permute_24rounds.part47,
    KeccakP1600_Permute_24rounds.part48,
    KeccakP1600_Permute_24rounds.part49,
    KeccakP1600_Permute_24rounds.part50,
    KeccakP1600_Permute_24rounds.part51,
    KeccakP1600_Permute_24rounds.part52,
    KeccakP1600_Permute_24rounds.part53,
    KeccakP1600_Permute_24rounds.part54,
    KeccakP1600_Permute_24rounds.part55,
    KeccakP1600_Permute_24rounds.part56,
    KeccakP1600_Permute_24rounds.part57,
    KeccakP1600_Permute_24rounds.part58,
    KeccakP1600_Permute_24rounds.part59,
    KeccakP1600_Permute_24rounds.part60,
    KeccakP1600_Permute_24rounds.part61,
    KeccakP1600_Permute_24rounds.part62,
    KeccakP1600_Permute_24rounds.part63,
    KeccakP1600_Permute_24rounds.part64]⟩

/-- `KeccakP1600_ExtractLanes`, sha3/opt64/KeccakP-1600-opt64.c:407-437; variables: 0 state, 1 data, 2 laneCount -/
def KeccakP1600_ExtractLanes : Fn := ⟨3,
  .call (some 3) Id.memcpy [.var 1, .var 0, .bin (.mul .u32) (.var 2) (.lit 8)]⟩

/-- `KeccakP1600_ExtractBytesInLane`, sha3/opt64/KeccakP-1600-opt64.c:372-393; variables: 0 state, 1 lanePosition, 2
  data, 3 offset, 4 length, 5 lane, 6 lane1 -/
def KeccakP1600_ExtractBytesInLane : Fn := ⟨5,
  block [
    .asg 5 (.ld 8 (.padd (.var 0) (.var 1) 8)),
    .new 6 (.lit 8),
    .st 8 (.var 6) (.var 5),
    .call (some 7) Id.memcpy [.var 2, .padd (.var 6) (.var 3) 1, .var 4]]⟩

/-- `KeccakP1600_ExtractBytes`, sha3/opt64/KeccakP-1600-opt64.c:441-444; variables: 0 state, 1 data, 2 offset, 3
  length, 4 _sizeLeft, 5 _lanePosition, 6 _offsetInLane, 7 _curData, 8 _bytesInLane -/
def KeccakP1600_ExtractBytes : Fn := ⟨4,
  .ite (.bin .eq (.var 2) (.lit 0))
      (block [
        .call none Id.KeccakP1600_ExtractLanes [.var 0, .var 1, .div (.div .u32) (.var 3) (.lit 8)],
        .call none Id.KeccakP1600_ExtractBytesInLane [.var 0, .div (.div .u32) (.var 3) (.lit 8), .padd (.var 1)
          (.bin (.mul .u32) (.div (.div .u32) (.var 3) (.lit 8)) (.lit 8)) 1, .lit 0, .div (.mod .u32) (.var 3) (.lit
          8)]])
      (block [
        .asg 4 (.var 3),
        .asg 5 (.div (.div .u32) (.var 2) (.lit 8)),
        .asg 6 (.div (.mod .u32) (.var 2) (.lit 8)),
        .asg 7 (.var 1),
        .loop (.bin .gt (.var 4) (.lit 0))
          (block [
            .asg 8 (.bin (.sub .u32) (.lit 8) (.var 6)),
            .ite (.bin .gt (.var 8) (.var 4))
              (.asg 8 (.var 4))
              (.skip),
            .call none Id.KeccakP1600_ExtractBytesInLane [.var 0, .var 5, .var 7, .var 6, .var 8],
            .asg 4 (.bin (.sub .u32) (.var 4) (.var 8)),
            .asg 5 (.bin (.add .u32) (.var 5) (.lit 1)),
            .asg 6 (.lit 0),
            .asg 7 (.padd (.var 7) (.var 8) 1)])
          (.skip)])⟩

end Faest.Leak.Prog
