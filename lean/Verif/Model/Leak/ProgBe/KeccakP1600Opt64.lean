/-
Generated by tools/c2leak.py; do not edit.
Functions of sha3/opt64/KeccakP-1600-opt64.c.
-/
import Verif.Model.Leak.IR
import Verif.Model.Leak.Prog.Ids
import Verif.Model.Leak.ProgBe.Ids

namespace Faest.Leak.ProgBe

/-- part of `KeccakF1600_FastLoop_Absorb` -/
def KeccakF1600_FastLoop_Absorb.part0 : Stmt :=
  block [
    .call (some 92) Id.bswap64 [.ld 8 (.var 91)],
    .asg 5 (.bin (.bxor .u64) (.var 5) (.var 92)),
    .call (some 93) Id.bswap64 [.ld 8 (.padd (.var 91) (.lit 1) 8)],
    .asg 6 (.bin (.bxor .u64) (.var 6) (.var 93)),
    .call (some 94) Id.bswap64 [.ld 8 (.padd (.var 91) (.lit 2) 8)],
    .asg 7 (.bin (.bxor .u64) (.var 7) (.var 94)),
    .call (some 95) Id.bswap64 [.ld 8 (.padd (.var 91) (.lit 3) 8)],
    .asg 8 (.bin (.bxor .u64) (.var 8) (.var 95)),
    .call (some 96) Id.bswap64 [.ld 8 (.padd (.var 91) (.lit 4) 8)],
    .asg 9 (.bin (.bxor .u64) (.var 9) (.var 96)),
    .call (some 97) Id.bswap64 [.ld 8 (.padd (.var 91) (.lit 5) 8)],
    .asg 10 (.bin (.bxor .u64) (.var 10) (.var 97)),
    .call (some 98) Id.bswap64 [.ld 8 (.padd (.var 91) (.lit 6) 8)],
    .asg 11 (.bin (.bxor .u64) (.var 11) (.var 98)),
    .call (some 99) Id.bswap64 [.ld 8 (.padd (.var 91) (.lit 7) 8)],
    .asg 12 (.bin (.bxor .u64) (.var 12) (.var 99)),
    .call (some 100) Id.bswap64 [.ld 8 (.padd (.var 91) (.lit 8) 8)],
    .asg 13 (.bin (.bxor .u64) (.var 13) (.var 100)),
    .call (some 101) Id.bswap64 [.ld 8 (.padd (.var 91) (.lit 9) 8)],
    .asg 14 (.bin (.bxor .u64) (.var 14) (.var 101)),
    .call (some 102) Id.bswap64 [.ld 8 (.padd (.var 91) (.lit 10) 8)],
    .asg 15 (.bin (.bxor .u64) (.var 15) (.var 102)),
    .call (some 103) Id.bswap64 [.ld 8 (.padd (.var 91) (.lit 11) 8)],
    .asg 16 (.bin (.bxor .u64) (.var 16) (.var 103)),
    .call (some 104) Id.bswap64 [.ld 8 (.padd (.var 91) (.lit 12) 8)],
    .asg 17 (.bin (.bxor .u64) (.var 17) (.var 104)),
    .call (some 105) Id.bswap64 [.ld 8 (.padd (.var 91) (.lit 13) 8)],
    .asg 18 (.bin (.bxor .u64) (.var 18) (.var 105)),
    .call (some 106) Id.bswap64 [.ld 8 (.padd (.var 91) (.lit 14) 8)],
    .asg 19 (.bin (.bxor .u64) (.var 19) (.var 106)),
    .call (some 107) Id.bswap64 [.ld 8 (.padd (.var 91) (.lit 15) 8)],
    .asg 20 (.bin (.bxor .u64) (.var 20) (.var 107)),
    .call (some 108) Id.bswap64 [.ld 8 (.padd (.var 91) (.lit 16) 8)],
    .asg 21 (.bin (.bxor .u64) (.var 21) (.var 108)),
    .call (some 109) Id.bswap64 [.ld 8 (.padd (.var 91) (.lit 17) 8)],
    .asg 22 (.bin (.bxor .u64) (.var 22) (.var 109)),
    .call (some 110) Id.bswap64 [.ld 8 (.padd (.var 91) (.lit 18) 8)],
    .asg 23 (.bin (.bxor .u64) (.var 23) (.var 110)),
    .call (some 111) Id.bswap64 [.ld 8 (.padd (.var 91) (.lit 19) 8)],
    .asg 24 (.bin (.bxor .u64) (.var 24) (.var 111))]

/-- part of `KeccakF1600_FastLoop_Absorb` -/
def KeccakF1600_FastLoop_Absorb.part1 : Stmt :=
  block [
    .call (some 112) Id.bswap64 [.ld 8 (.padd (.var 91) (.lit 20) 8)],
    .asg 25 (.bin (.bxor .u64) (.var 25) (.var 112))]

/-- part of `KeccakF1600_FastLoop_Absorb` -/
def KeccakF1600_FastLoop_Absorb.part2 : Stmt :=
  block [
    .ite (.bin .eq (.var 1) (.lit 21))
      (block [
        KeccakF1600_FastLoop_Absorb.part0,
        KeccakF1600_FastLoop_Absorb.part1])
      (.ite (.bin .lt (.var 1) (.lit 16))
          (.ite (.bin .lt (.var 1) (.lit 8))
              (.ite (.bin .lt (.var 1) (.lit 4))
                  (.ite (.bin .lt (.var 1) (.lit 2))
                      (.ite (.bin .lt (.var 1) (.lit 1))
                          (.skip)
                          (block [
                            .call (some 113) Id.bswap64 [.ld 8 (.var 91)],
                            .asg 5 (.bin (.bxor .u64) (.var 5) (.var 113))]))
                      (block [
                        .call (some 114) Id.bswap64 [.ld 8 (.var 91)],
                        .asg 5 (.bin (.bxor .u64) (.var 5) (.var 114)),
                        .call (some 115) Id.bswap64 [.ld 8 (.padd (.var 91) (.lit 1) 8)],
                        .asg 6 (.bin (.bxor .u64) (.var 6) (.var 115)),
                        .ite (.bin .lt (.var 1) (.lit 3))
                          (.skip)
                          (block [
                            .call (some 116) Id.bswap64 [.ld 8 (.padd (.var 91) (.lit 2) 8)],
                            .asg 7 (.bin (.bxor .u64) (.var 7) (.var 116))])]))
                  (block [
                    .call (some 117) Id.bswap64 [.ld 8 (.var 91)],
                    .asg 5 (.bin (.bxor .u64) (.var 5) (.var 117)),
                    .call (some 118) Id.bswap64 [.ld 8 (.padd (.var 91) (.lit 1) 8)],
                    .asg 6 (.bin (.bxor .u64) (.var 6) (.var 118)),
                    .call (some 119) Id.bswap64 [.ld 8 (.padd (.var 91) (.lit 2) 8)],
                    .asg 7 (.bin (.bxor .u64) (.var 7) (.var 119)),
                    .call (some 120) Id.bswap64 [.ld 8 (.padd (.var 91) (.lit 3) 8)],
                    .asg 8 (.bin (.bxor .u64) (.var 8) (.var 120)),
                    .ite (.bin .lt (.var 1) (.lit 6))
                      (.ite (.bin .lt (.var 1) (.lit 5))
                          (.skip)
                          (block [
                            .call (some 121) Id.bswap64 [.ld 8 (.padd (.var 91) (.lit 4) 8)],
                            .asg 9 (.bin (.bxor .u64) (.var 9) (.var 121))]))
                      (block [
                        .call (some 122) Id.bswap64 [.ld 8 (.padd (.var 91) (.lit 4) 8)],
                        .asg 9 (.bin (.bxor .u64) (.var 9) (.var 122)),
                        .call (some 123) Id.bswap64 [.ld 8 (.padd (.var 91) (.lit 5) 8)],
                        .asg 10 (.bin (.bxor .u64) (.var 10) (.var 123)),
                        .ite (.bin .lt (.var 1) (.lit 7))
                          (.skip)
                          (block [
                            .call (some 124) Id.bswap64 [.ld 8 (.padd (.var 91) (.lit 6) 8)],
                            .asg 11 (.bin (.bxor .u64) (.var 11) (.var 124))])])]))
              (block [
                .call (some 125) Id.bswap64 [.ld 8 (.var 91)],
                .asg 5 (.bin (.bxor .u64) (.var 5) (.var 125)),
                .call (some 126) Id.bswap64 [.ld 8 (.padd (.var 91) (.lit 1) 8)],
                .asg 6 (.bin (.bxor .u64) (.var 6) (.var 126)),
                .call (some 127) Id.bswap64 [.ld 8 (.padd (.var 91) (.lit 2) 8)],
                .asg 7 (.bin (.bxor .u64) (.var 7) (.var 127)),
                .call (some 128) Id.bswap64 [.ld 8 (.padd (.var 91) (.lit 3) 8)],
                .asg 8 (.bin (.bxor .u64) (.var 8) (.var 128)),
                .call (some 129) Id.bswap64 [.ld 8 (.padd (.var 91) (.lit 4) 8)],
                .asg 9 (.bin (.bxor .u64) (.var 9) (.var 129)),
                .call (some 130) Id.bswap64 [.ld 8 (.padd (.var 91) (.lit 5) 8)],
                .asg 10 (.bin (.bxor .u64) (.var 10) (.var 130)),
                .call (some 131) Id.bswap64 [.ld 8 (.padd (.var 91) (.lit 6) 8)],
                .asg 11 (.bin (.bxor .u64) (.var 11) (.var 131)),
                .call (some 132) Id.bswap64 [.ld 8 (.padd (.var 91) (.lit 7) 8)],
                .asg 12 (.bin (.bxor .u64) (.var 12) (.var 132)),
                .ite (.bin .lt (.var 1) (.lit 12))
                  (.ite (.bin .lt (.var 1) (.lit 10))
                      (.ite (.bin .lt (.var 1) (.lit 9))
                          (.skip)
                          (block [
                            .call (some 133) Id.bswap64 [.ld 8 (.padd (.var 91) (.lit 8) 8)],
                            .asg 13 (.bin (.bxor .u64) (.var 13) (.var 133))]))
                      (block [
                        .call (some 134) Id.bswap64 [.ld 8 (.padd (.var 91) (.lit 8) 8)],
                        .asg 13 (.bin (.bxor .u64) (.var 13) (.var 134)),
                        .call (some 135) Id.bswap64 [.ld 8 (.padd (.var 91) (.lit 9) 8)],
                        .asg 14 (.bin (.bxor .u64) (.var 14) (.var 135)),
                        .ite (.bin .lt (.var 1) (.lit 11))
                          (.skip)
                          (block [
                            .call (some 136) Id.bswap64 [.ld 8 (.padd (.var 91) (.lit 10) 8)],
                            .asg 15 (.bin (.bxor .u64) (.var 15) (.var 136))])]))
                  (block [
                    .call (some 137) Id.bswap64 [.ld 8 (.padd (.var 91) (.lit 8) 8)],
                    .asg 13 (.bin (.bxor .u64) (.var 13) (.var 137)),
                    .call (some 138) Id.bswap64 [.ld 8 (.padd (.var 91) (.lit 9) 8)],
                    .asg 14 (.bin (.bxor .u64) (.var 14) (.var 138)),
                    .call (some 139) Id.bswap64 [.ld 8 (.padd (.var 91) (.lit 10) 8)],
                    .asg 15 (.bin (.bxor .u64) (.var 15) (.var 139)),
                    .call (some 140) Id.bswap64 [.ld 8 (.padd (.var 91) (.lit 11) 8)],
                    .asg 16 (.bin (.bxor .u64) (.var 16) (.var 140)),
                    .ite (.bin .lt (.var 1) (.lit 14))
                      (.ite (.bin .lt (.var 1) (.lit 13))
                          (.skip)
                          (block [
                            .call (some 141) Id.bswap64 [.ld 8 (.padd (.var 91) (.lit 12) 8)],
                            .asg 17 (.bin (.bxor .u64) (.var 17) (.var 141))]))
                      (block [
                        .call (some 142) Id.bswap64 [.ld 8 (.padd (.var 91) (.lit 12) 8)],
                        .asg 17 (.bin (.bxor .u64) (.var 17) (.var 142)),
                        .call (some 143) Id.bswap64 [.ld 8 (.padd (.var 91) (.lit 13) 8)],
                        .asg 18 (.bin (.bxor .u64) (.var 18) (.var 143)),
                        .ite (.bin .lt (.var 1) (.lit 15))
                          (.skip)
                          (block [
                            .call (some 144) Id.bswap64 [.ld 8 (.padd (.var 91) (.lit 14) 8)],
                            .asg 19 (.bin (.bxor .u64) (.var 19) (.var 144))])])])]))
          (block [
            .call (some 145) Id.bswap64 [.ld 8 (.var 91)],
            .asg 5 (.bin (.bxor .u64) (.var 5) (.var 145)),
            .call (some 146) Id.bswap64 [.ld 8 (.padd (.var 91) (.lit 1) 8)],
            .asg 6 (.bin (.bxor .u64) (.var 6) (.var 146)),
            .call (some 147) Id.bswap64 [.ld 8 (.padd (.var 91) (.lit 2) 8)],
            .asg 7 (.bin (.bxor .u64) (.var 7) (.var 147)),
            .call (some 148) Id.bswap64 [.ld 8 (.padd (.var 91) (.lit 3) 8)],
            .asg 8 (.bin (.bxor .u64) (.var 8) (.var 148)),
            .call (some 149) Id.bswap64 [.ld 8 (.padd (.var 91) (.lit 4) 8)],
            .asg 9 (.bin (.bxor .u64) (.var 9) (.var 149)),
            .call (some 150) Id.bswap64 [.ld 8 (.padd (.var 91) (.lit 5) 8)],
            .asg 10 (.bin (.bxor .u64) (.var 10) (.var 150)),
            .call (some 151) Id.bswap64 [.ld 8 (.padd (.var 91) (.lit 6) 8)],
            .asg 11 (.bin (.bxor .u64) (.var 11) (.var 151)),
            .call (some 152) Id.bswap64 [.ld 8 (.padd (.var 91) (.lit 7) 8)],
            .asg 12 (.bin (.bxor .u64) (.var 12) (.var 152)),
            .call (some 153) Id.bswap64 [.ld 8 (.padd (.var 91) (.lit 8) 8)],
            .asg 13 (.bin (.bxor .u64) (.var 13) (.var 153)),
            .call (some 154) Id.bswap64 [.ld 8 (.padd (.var 91) (.lit 9) 8)],
            .asg 14 (.bin (.bxor .u64) (.var 14) (.var 154)),
            .call (some 155) Id.bswap64 [.ld 8 (.padd (.var 91) (.lit 10) 8)],
            .asg 15 (.bin (.bxor .u64) (.var 15) (.var 155)),
            .call (some 156) Id.bswap64 [.ld 8 (.padd (.var 91) (.lit 11) 8)],
            .asg 16 (.bin (.bxor .u64) (.var 16) (.var 156)),
            .call (some 157) Id.bswap64 [.ld 8 (.padd (.var 91) (.lit 12) 8)],
            .asg 17 (.bin (.bxor .u64) (.var 17) (.var 157)),
            .call (some 158) Id.bswap64 [.ld 8 (.padd (.var 91) (.lit 13) 8)],
            .asg 18 (.bin (.bxor .u64) (.var 18) (.var 158)),
            .call (some 159) Id.bswap64 [.ld 8 (.padd (.var 91) (.lit 14) 8)],
            .asg 19 (.bin (.bxor .u64) (.var 19) (.var 159)),
            .call (some 160) Id.bswap64 [.ld 8 (.padd (.var 91) (.lit 15) 8)],
            .asg 20 (.bin (.bxor .u64) (.var 20) (.var 160)),
            .ite (.bin .lt (.var 1) (.lit 24))
              (.ite (.bin .lt (.var 1) (.lit 20))
                  (.ite (.bin .lt (.var 1) (.lit 18))
                      (.ite (.bin .lt (.var 1) (.lit 17))
                          (.skip)
                          (block [
                            .call (some 161) Id.bswap64 [.ld 8 (.padd (.var 91) (.lit 16) 8)],
                            .asg 21 (.bin (.bxor .u64) (.var 21) (.var 161))]))
                      (block [
                        .call (some 162) Id.bswap64 [.ld 8 (.padd (.var 91) (.lit 16) 8)],
                        .asg 21 (.bin (.bxor .u64) (.var 21) (.var 162)),
                        .call (some 163) Id.bswap64 [.ld 8 (.padd (.var 91) (.lit 17) 8)],
                        .asg 22 (.bin (.bxor .u64) (.var 22) (.var 163)),
                        .ite (.bin .lt (.var 1) (.lit 19))
                          (.skip)
                          (block [
                            .call (some 164) Id.bswap64 [.ld 8 (.padd (.var 91) (.lit 18) 8)],
                            .asg 23 (.bin (.bxor .u64) (.var 23) (.var 164))])]))
                  (block [
                    .call (some 165) Id.bswap64 [.ld 8 (.padd (.var 91) (.lit 16) 8)],
                    .asg 21 (.bin (.bxor .u64) (.var 21) (.var 165)),
                    .call (some 166) Id.bswap64 [.ld 8 (.padd (.var 91) (.lit 17) 8)],
                    .asg 22 (.bin (.bxor .u64) (.var 22) (.var 166)),
                    .call (some 167) Id.bswap64 [.ld 8 (.padd (.var 91) (.lit 18) 8)],
                    .asg 23 (.bin (.bxor .u64) (.var 23) (.var 167)),
                    .call (some 168) Id.bswap64 [.ld 8 (.padd (.var 91) (.lit 19) 8)],
                    .asg 24 (.bin (.bxor .u64) (.var 24) (.var 168)),
                    .ite (.bin .lt (.var 1) (.lit 22))
                      (.ite (.bin .lt (.var 1) (.lit 21))
                          (.skip)
                          (block [
                            .call (some 169) Id.bswap64 [.ld 8 (.padd (.var 91) (.lit 20) 8)],
                            .asg 25 (.bin (.bxor .u64) (.var 25) (.var 169))]))
                      (block [
                        .call (some 170) Id.bswap64 [.ld 8 (.padd (.var 91) (.lit 20) 8)],
                        .asg 25 (.bin (.bxor .u64) (.var 25) (.var 170)),
                        .call (some 171) Id.bswap64 [.ld 8 (.padd (.var 91) (.lit 21) 8)],
                        .asg 26 (.bin (.bxor .u64) (.var 26) (.var 171)),
                        .ite (.bin .lt (.var 1) (.lit 23))
                          (.skip)
                          (block [
                            .call (some 172) Id.bswap64 [.ld 8 (.padd (.var 91) (.lit 22) 8)],
                            .asg 27 (.bin (.bxor .u64) (.var 27) (.var 172))])])]))
              (block [
                .call (some 173) Id.bswap64 [.ld 8 (.padd (.var 91) (.lit 16) 8)],
                .asg 21 (.bin (.bxor .u64) (.var 21) (.var 173)),
                .call (some 174) Id.bswap64 [.ld 8 (.padd (.var 91) (.lit 17) 8)],
                .asg 22 (.bin (.bxor .u64) (.var 22) (.var 174)),
                .call (some 175) Id.bswap64 [.ld 8 (.padd (.var 91) (.lit 18) 8)],
                .asg 23 (.bin (.bxor .u64) (.var 23) (.var 175)),
                .call (some 176) Id.bswap64 [.ld 8 (.padd (.var 91) (.lit 19) 8)],
                .asg 24 (.bin (.bxor .u64) (.var 24) (.var 176)),
                .call (some 177) Id.bswap64 [.ld 8 (.padd (.var 91) (.lit 20) 8)],
                .asg 25 (.bin (.bxor .u64) (.var 25) (.var 177)),
                .call (some 178) Id.bswap64 [.ld 8 (.padd (.var 91) (.lit 21) 8)],
                .asg 26 (.bin (.bxor .u64) (.var 26) (.var 178)),
                .call (some 179) Id.bswap64 [.ld 8 (.padd (.var 91) (.lit 22) 8)],
                .asg 27 (.bin (.bxor .u64) (.var 27) (.var 179)),
                .call (some 180) Id.bswap64 [.ld 8 (.padd (.var 91) (.lit 23) 8)],
                .asg 28 (.bin (.bxor .u64) (.var 28) (.var 180)),
                .ite (.bin .lt (.var 1) (.lit 25))
                  (.skip)
                  (block [
                    .call (some 181) Id.bswap64 [.ld 8 (.padd (.var 91) (.lit 24) 8)],
                    .asg 29 (.bin (.bxor .u64) (.var 29) (.var 181))])])])),
    .asg 55 (.bin (.bxor .u64) (.bin (.bxor .u64) (.bin (.bxor .u64) (.bin (.bxor .u64) (.var 5) (.var 10)) (.var
      15)) (.var 20)) (.var 25)),
    .asg 56 (.bin (.bxor .u64) (.bin (.bxor .u64) (.bin (.bxor .u64) (.bin (.bxor .u64) (.var 6) (.var 11)) (.var
      16)) (.var 21)) (.var 26)),
    .asg 57 (.bin (.bxor .u64) (.bin (.bxor .u64) (.bin (.bxor .u64) (.bin (.bxor .u64) (.var 7) (.var 12)) (.var
      17)) (.var 22)) (.var 27)),
    .asg 58 (.bin (.bxor .u64) (.bin (.bxor .u64) (.bin (.bxor .u64) (.bin (.bxor .u64) (.var 8) (.var 13)) (.var
      18)) (.var 23)) (.var 28)),
    .asg 59 (.bin (.bxor .u64) (.bin (.bxor .u64) (.bin (.bxor .u64) (.bin (.bxor .u64) (.var 9) (.var 14)) (.var
      19)) (.var 24)) (.var 29)),
    .asg 60 (.bin (.bxor .u64) (.var 59) (.bin (.bxor .u64) (.bin (.shl .u64) (.var 56) (.lit 1)) (.bin (.shr .u64)
      (.var 56) (.lit 63)))),
    .asg 61 (.bin (.bxor .u64) (.var 55) (.bin (.bxor .u64) (.bin (.shl .u64) (.var 57) (.lit 1)) (.bin (.shr .u64)
      (.var 57) (.lit 63)))),
    .asg 62 (.bin (.bxor .u64) (.var 56) (.bin (.bxor .u64) (.bin (.shl .u64) (.var 58) (.lit 1)) (.bin (.shr .u64)
      (.var 58) (.lit 63)))),
    .asg 63 (.bin (.bxor .u64) (.var 57) (.bin (.bxor .u64) (.bin (.shl .u64) (.var 59) (.lit 1)) (.bin (.shr .u64)
      (.var 59) (.lit 63)))),
    .asg 64 (.bin (.bxor .u64) (.var 58) (.bin (.bxor .u64) (.bin (.shl .u64) (.var 55) (.lit 1)) (.bin (.shr .u64)
      (.var 55) (.lit 63)))),
    .asg 5 (.bin (.bxor .u64) (.var 5) (.var 60)),
    .asg 30 (.var 5),
    .asg 11 (.bin (.bxor .u64) (.var 11) (.var 61)),
    .asg 31 (.bin (.bxor .u64) (.bin (.shl .u64) (.var 11) (.lit 44)) (.bin (.shr .u64) (.var 11) (.lit 20))),
    .asg 17 (.bin (.bxor .u64) (.var 17) (.var 62)),
    .asg 32 (.bin (.bxor .u64) (.bin (.shl .u64) (.var 17) (.lit 43)) (.bin (.shr .u64) (.var 17) (.lit 21))),
    .asg 23 (.bin (.bxor .u64) (.var 23) (.var 63)),
    .asg 33 (.bin (.bxor .u64) (.bin (.shl .u64) (.var 23) (.lit 21)) (.bin (.shr .u64) (.var 23) (.lit 43))),
    .asg 29 (.bin (.bxor .u64) (.var 29) (.var 64)),
    .asg 34 (.bin (.bxor .u64) (.bin (.shl .u64) (.var 29) (.lit 14)) (.bin (.shr .u64) (.var 29) (.lit 50))),
    .asg 65 (.bin (.bxor .u64) (.var 30) (.bin (.band .u64) (.un (.bnot .u64) (.var 31)) (.var 32))),
    .asg 65 (.bin (.bxor .u64) (.var 65) (.ld 8 (.glob 0))),
    .asg 55 (.var 65),
    .asg 66 (.bin (.bxor .u64) (.var 31) (.bin (.band .u64) (.un (.bnot .u64) (.var 32)) (.var 33))),
    .asg 56 (.var 66),
    .asg 67 (.bin (.bxor .u64) (.var 32) (.bin (.band .u64) (.un (.bnot .u64) (.var 33)) (.var 34))),
    .asg 57 (.var 67),
    .asg 68 (.bin (.bxor .u64) (.var 33) (.bin (.band .u64) (.un (.bnot .u64) (.var 34)) (.var 30))),
    .asg 58 (.var 68),
    .asg 69 (.bin (.bxor .u64) (.var 34) (.bin (.band .u64) (.un (.bnot .u64) (.var 30)) (.var 31))),
    .asg 59 (.var 69),
    .asg 8 (.bin (.bxor .u64) (.var 8) (.var 63)),
    .asg 35 (.bin (.bxor .u64) (.bin (.shl .u64) (.var 8) (.lit 28)) (.bin (.shr .u64) (.var 8) (.lit 36))),
    .asg 14 (.bin (.bxor .u64) (.var 14) (.var 64)),
    .asg 36 (.bin (.bxor .u64) (.bin (.shl .u64) (.var 14) (.lit 20)) (.bin (.shr .u64) (.var 14) (.lit 44))),
    .asg 15 (.bin (.bxor .u64) (.var 15) (.var 60)),
    .asg 37 (.bin (.bxor .u64) (.bin (.shl .u64) (.var 15) (.lit 3)) (.bin (.shr .u64) (.var 15) (.lit 61))),
    .asg 21 (.bin (.bxor .u64) (.var 21) (.var 61)),
    .asg 38 (.bin (.bxor .u64) (.bin (.shl .u64) (.var 21) (.lit 45)) (.bin (.shr .u64) (.var 21) (.lit 19)))]

/-- part of `KeccakF1600_FastLoop_Absorb` -/
def KeccakF1600_FastLoop_Absorb.part3 : Stmt :=
  block [
    .asg 27 (.bin (.bxor .u64) (.var 27) (.var 62)),
    .asg 39 (.bin (.bxor .u64) (.bin (.shl .u64) (.var 27) (.lit 61)) (.bin (.shr .u64) (.var 27) (.lit 3))),
    .asg 70 (.bin (.bxor .u64) (.var 35) (.bin (.band .u64) (.un (.bnot .u64) (.var 36)) (.var 37))),
    .asg 55 (.bin (.bxor .u64) (.var 55) (.var 70)),
    .asg 71 (.bin (.bxor .u64) (.var 36) (.bin (.band .u64) (.un (.bnot .u64) (.var 37)) (.var 38))),
    .asg 56 (.bin (.bxor .u64) (.var 56) (.var 71)),
    .asg 72 (.bin (.bxor .u64) (.var 37) (.bin (.band .u64) (.un (.bnot .u64) (.var 38)) (.var 39))),
    .asg 57 (.bin (.bxor .u64) (.var 57) (.var 72)),
    .asg 73 (.bin (.bxor .u64) (.var 38) (.bin (.band .u64) (.un (.bnot .u64) (.var 39)) (.var 35))),
    .asg 58 (.bin (.bxor .u64) (.var 58) (.var 73)),
    .asg 74 (.bin (.bxor .u64) (.var 39) (.bin (.band .u64) (.un (.bnot .u64) (.var 35)) (.var 36))),
    .asg 59 (.bin (.bxor .u64) (.var 59) (.var 74)),
    .asg 6 (.bin (.bxor .u64) (.var 6) (.var 61)),
    .asg 40 (.bin (.bxor .u64) (.bin (.shl .u64) (.var 6) (.lit 1)) (.bin (.shr .u64) (.var 6) (.lit 63))),
    .asg 12 (.bin (.bxor .u64) (.var 12) (.var 62)),
    .asg 41 (.bin (.bxor .u64) (.bin (.shl .u64) (.var 12) (.lit 6)) (.bin (.shr .u64) (.var 12) (.lit 58))),
    .asg 18 (.bin (.bxor .u64) (.var 18) (.var 63)),
    .asg 42 (.bin (.bxor .u64) (.bin (.shl .u64) (.var 18) (.lit 25)) (.bin (.shr .u64) (.var 18) (.lit 39))),
    .asg 24 (.bin (.bxor .u64) (.var 24) (.var 64)),
    .asg 43 (.bin (.bxor .u64) (.bin (.shl .u64) (.var 24) (.lit 8)) (.bin (.shr .u64) (.var 24) (.lit 56))),
    .asg 25 (.bin (.bxor .u64) (.var 25) (.var 60)),
    .asg 44 (.bin (.bxor .u64) (.bin (.shl .u64) (.var 25) (.lit 18)) (.bin (.shr .u64) (.var 25) (.lit 46))),
    .asg 75 (.bin (.bxor .u64) (.var 40) (.bin (.band .u64) (.un (.bnot .u64) (.var 41)) (.var 42))),
    .asg 55 (.bin (.bxor .u64) (.var 55) (.var 75)),
    .asg 76 (.bin (.bxor .u64) (.var 41) (.bin (.band .u64) (.un (.bnot .u64) (.var 42)) (.var 43))),
    .asg 56 (.bin (.bxor .u64) (.var 56) (.var 76)),
    .asg 77 (.bin (.bxor .u64) (.var 42) (.bin (.band .u64) (.un (.bnot .u64) (.var 43)) (.var 44))),
    .asg 57 (.bin (.bxor .u64) (.var 57) (.var 77)),
    .asg 78 (.bin (.bxor .u64) (.var 43) (.bin (.band .u64) (.un (.bnot .u64) (.var 44)) (.var 40))),
    .asg 58 (.bin (.bxor .u64) (.var 58) (.var 78)),
    .asg 79 (.bin (.bxor .u64) (.var 44) (.bin (.band .u64) (.un (.bnot .u64) (.var 40)) (.var 41))),
    .asg 59 (.bin (.bxor .u64) (.var 59) (.var 79)),
    .asg 9 (.bin (.bxor .u64) (.var 9) (.var 64)),
    .asg 45 (.bin (.bxor .u64) (.bin (.shl .u64) (.var 9) (.lit 27)) (.bin (.shr .u64) (.var 9) (.lit 37))),
    .asg 10 (.bin (.bxor .u64) (.var 10) (.var 60)),
    .asg 46 (.bin (.bxor .u64) (.bin (.shl .u64) (.var 10) (.lit 36)) (.bin (.shr .u64) (.var 10) (.lit 28))),
    .asg 16 (.bin (.bxor .u64) (.var 16) (.var 61)),
    .asg 47 (.bin (.bxor .u64) (.bin (.shl .u64) (.var 16) (.lit 10)) (.bin (.shr .u64) (.var 16) (.lit 54))),
    .asg 22 (.bin (.bxor .u64) (.var 22) (.var 62)),
    .asg 48 (.bin (.bxor .u64) (.bin (.shl .u64) (.var 22) (.lit 15)) (.bin (.shr .u64) (.var 22) (.lit 49)))]

/-- part of `KeccakF1600_FastLoop_Absorb` -/
def KeccakF1600_FastLoop_Absorb.part4 : Stmt :=
  block [
    .asg 28 (.bin (.bxor .u64) (.var 28) (.var 63)),
    .asg 49 (.bin (.bxor .u64) (.bin (.shl .u64) (.var 28) (.lit 56)) (.bin (.shr .u64) (.var 28) (.lit 8))),
    .asg 80 (.bin (.bxor .u64) (.var 45) (.bin (.band .u64) (.un (.bnot .u64) (.var 46)) (.var 47))),
    .asg 55 (.bin (.bxor .u64) (.var 55) (.var 80)),
    .asg 81 (.bin (.bxor .u64) (.var 46) (.bin (.band .u64) (.un (.bnot .u64) (.var 47)) (.var 48))),
    .asg 56 (.bin (.bxor .u64) (.var 56) (.var 81)),
    .asg 82 (.bin (.bxor .u64) (.var 47) (.bin (.band .u64) (.un (.bnot .u64) (.var 48)) (.var 49))),
    .asg 57 (.bin (.bxor .u64) (.var 57) (.var 82)),
    .asg 83 (.bin (.bxor .u64) (.var 48) (.bin (.band .u64) (.un (.bnot .u64) (.var 49)) (.var 45))),
    .asg 58 (.bin (.bxor .u64) (.var 58) (.var 83)),
    .asg 84 (.bin (.bxor .u64) (.var 49) (.bin (.band .u64) (.un (.bnot .u64) (.var 45)) (.var 46))),
    .asg 59 (.bin (.bxor .u64) (.var 59) (.var 84)),
    .asg 7 (.bin (.bxor .u64) (.var 7) (.var 62)),
    .asg 50 (.bin (.bxor .u64) (.bin (.shl .u64) (.var 7) (.lit 62)) (.bin (.shr .u64) (.var 7) (.lit 2))),
    .asg 13 (.bin (.bxor .u64) (.var 13) (.var 63)),
    .asg 51 (.bin (.bxor .u64) (.bin (.shl .u64) (.var 13) (.lit 55)) (.bin (.shr .u64) (.var 13) (.lit 9))),
    .asg 19 (.bin (.bxor .u64) (.var 19) (.var 64)),
    .asg 52 (.bin (.bxor .u64) (.bin (.shl .u64) (.var 19) (.lit 39)) (.bin (.shr .u64) (.var 19) (.lit 25))),
    .asg 20 (.bin (.bxor .u64) (.var 20) (.var 60)),
    .asg 53 (.bin (.bxor .u64) (.bin (.shl .u64) (.var 20) (.lit 41)) (.bin (.shr .u64) (.var 20) (.lit 23))),
    .asg 26 (.bin (.bxor .u64) (.var 26) (.var 61)),
    .asg 54 (.bin (.bxor .u64) (.bin (.shl .u64) (.var 26) (.lit 2)) (.bin (.shr .u64) (.var 26) (.lit 62))),
    .asg 85 (.bin (.bxor .u64) (.var 50) (.bin (.band .u64) (.un (.bnot .u64) (.var 51)) (.var 52))),
    .asg 55 (.bin (.bxor .u64) (.var 55) (.var 85)),
    .asg 86 (.bin (.bxor .u64) (.var 51) (.bin (.band .u64) (.un (.bnot .u64) (.var 52)) (.var 53))),
    .asg 56 (.bin (.bxor .u64) (.var 56) (.var 86)),
    .asg 87 (.bin (.bxor .u64) (.var 52) (.bin (.band .u64) (.un (.bnot .u64) (.var 53)) (.var 54))),
    .asg 57 (.bin (.bxor .u64) (.var 57) (.var 87)),
    .asg 88 (.bin (.bxor .u64) (.var 53) (.bin (.band .u64) (.un (.bnot .u64) (.var 54)) (.var 50))),
    .asg 58 (.bin (.bxor .u64) (.var 58) (.var 88)),
    .asg 89 (.bin (.bxor .u64) (.var 54) (.bin (.band .u64) (.un (.bnot .u64) (.var 50)) (.var 51))),
    .asg 59 (.bin (.bxor .u64) (.var 59) (.var 89)),
    .asg 60 (.bin (.bxor .u64) (.var 59) (.bin (.bxor .u64) (.bin (.shl .u64) (.var 56) (.lit 1)) (.bin (.shr .u64)
      (.var 56) (.lit 63)))),
    .asg 61 (.bin (.bxor .u64) (.var 55) (.bin (.bxor .u64) (.bin (.shl .u64) (.var 57) (.lit 1)) (.bin (.shr .u64)
      (.var 57) (.lit 63)))),
    .asg 62 (.bin (.bxor .u64) (.var 56) (.bin (.bxor .u64) (.bin (.shl .u64) (.var 58) (.lit 1)) (.bin (.shr .u64)
      (.var 58) (.lit 63)))),
    .asg 63 (.bin (.bxor .u64) (.var 57) (.bin (.bxor .u64) (.bin (.shl .u64) (.var 59) (.lit 1)) (.bin (.shr .u64)
      (.var 59) (.lit 63)))),
    .asg 64 (.bin (.bxor .u64) (.var 58) (.bin (.bxor .u64) (.bin (.shl .u64) (.var 55) (.lit 1)) (.bin (.shr .u64)
      (.var 55) (.lit 63)))),
    .asg 65 (.bin (.bxor .u64) (.var 65) (.var 60)),
    .asg 30 (.var 65),
    .asg 71 (.bin (.bxor .u64) (.var 71) (.var 61))]

/-- part of `KeccakF1600_FastLoop_Absorb` -/
def KeccakF1600_FastLoop_Absorb.part5 : Stmt :=
  block [
    .asg 31 (.bin (.bxor .u64) (.bin (.shl .u64) (.var 71) (.lit 44)) (.bin (.shr .u64) (.var 71) (.lit 20))),
    .asg 77 (.bin (.bxor .u64) (.var 77) (.var 62)),
    .asg 32 (.bin (.bxor .u64) (.bin (.shl .u64) (.var 77) (.lit 43)) (.bin (.shr .u64) (.var 77) (.lit 21))),
    .asg 83 (.bin (.bxor .u64) (.var 83) (.var 63)),
    .asg 33 (.bin (.bxor .u64) (.bin (.shl .u64) (.var 83) (.lit 21)) (.bin (.shr .u64) (.var 83) (.lit 43))),
    .asg 89 (.bin (.bxor .u64) (.var 89) (.var 64)),
    .asg 34 (.bin (.bxor .u64) (.bin (.shl .u64) (.var 89) (.lit 14)) (.bin (.shr .u64) (.var 89) (.lit 50))),
    .asg 5 (.bin (.bxor .u64) (.var 30) (.bin (.band .u64) (.un (.bnot .u64) (.var 31)) (.var 32))),
    .asg 5 (.bin (.bxor .u64) (.var 5) (.ld 8 (.padd (.glob 0) (.lit 1) 8))),
    .asg 55 (.var 5),
    .asg 6 (.bin (.bxor .u64) (.var 31) (.bin (.band .u64) (.un (.bnot .u64) (.var 32)) (.var 33))),
    .asg 56 (.var 6),
    .asg 7 (.bin (.bxor .u64) (.var 32) (.bin (.band .u64) (.un (.bnot .u64) (.var 33)) (.var 34))),
    .asg 57 (.var 7),
    .asg 8 (.bin (.bxor .u64) (.var 33) (.bin (.band .u64) (.un (.bnot .u64) (.var 34)) (.var 30))),
    .asg 58 (.var 8),
    .asg 9 (.bin (.bxor .u64) (.var 34) (.bin (.band .u64) (.un (.bnot .u64) (.var 30)) (.var 31))),
    .asg 59 (.var 9),
    .asg 68 (.bin (.bxor .u64) (.var 68) (.var 63)),
    .asg 35 (.bin (.bxor .u64) (.bin (.shl .u64) (.var 68) (.lit 28)) (.bin (.shr .u64) (.var 68) (.lit 36))),
    .asg 74 (.bin (.bxor .u64) (.var 74) (.var 64)),
    .asg 36 (.bin (.bxor .u64) (.bin (.shl .u64) (.var 74) (.lit 20)) (.bin (.shr .u64) (.var 74) (.lit 44))),
    .asg 75 (.bin (.bxor .u64) (.var 75) (.var 60)),
    .asg 37 (.bin (.bxor .u64) (.bin (.shl .u64) (.var 75) (.lit 3)) (.bin (.shr .u64) (.var 75) (.lit 61))),
    .asg 81 (.bin (.bxor .u64) (.var 81) (.var 61)),
    .asg 38 (.bin (.bxor .u64) (.bin (.shl .u64) (.var 81) (.lit 45)) (.bin (.shr .u64) (.var 81) (.lit 19))),
    .asg 87 (.bin (.bxor .u64) (.var 87) (.var 62)),
    .asg 39 (.bin (.bxor .u64) (.bin (.shl .u64) (.var 87) (.lit 61)) (.bin (.shr .u64) (.var 87) (.lit 3))),
    .asg 10 (.bin (.bxor .u64) (.var 35) (.bin (.band .u64) (.un (.bnot .u64) (.var 36)) (.var 37))),
    .asg 55 (.bin (.bxor .u64) (.var 55) (.var 10)),
    .asg 11 (.bin (.bxor .u64) (.var 36) (.bin (.band .u64) (.un (.bnot .u64) (.var 37)) (.var 38))),
    .asg 56 (.bin (.bxor .u64) (.var 56) (.var 11)),
    .asg 12 (.bin (.bxor .u64) (.var 37) (.bin (.band .u64) (.un (.bnot .u64) (.var 38)) (.var 39))),
    .asg 57 (.bin (.bxor .u64) (.var 57) (.var 12)),
    .asg 13 (.bin (.bxor .u64) (.var 38) (.bin (.band .u64) (.un (.bnot .u64) (.var 39)) (.var 35))),
    .asg 58 (.bin (.bxor .u64) (.var 58) (.var 13)),
    .asg 14 (.bin (.bxor .u64) (.var 39) (.bin (.band .u64) (.un (.bnot .u64) (.var 35)) (.var 36))),
    .asg 59 (.bin (.bxor .u64) (.var 59) (.var 14)),
    .asg 66 (.bin (.bxor .u64) (.var 66) (.var 61)),
    .asg 40 (.bin (.bxor .u64) (.bin (.shl .u64) (.var 66) (.lit 1)) (.bin (.shr .u64) (.var 66) (.lit 63)))]

/-- part of `KeccakF1600_FastLoop_Absorb` -/
def KeccakF1600_FastLoop_Absorb.part6 : Stmt :=
  block [
    .asg 72 (.bin (.bxor .u64) (.var 72) (.var 62)),
    .asg 41 (.bin (.bxor .u64) (.bin (.shl .u64) (.var 72) (.lit 6)) (.bin (.shr .u64) (.var 72) (.lit 58))),
    .asg 78 (.bin (.bxor .u64) (.var 78) (.var 63)),
    .asg 42 (.bin (.bxor .u64) (.bin (.shl .u64) (.var 78) (.lit 25)) (.bin (.shr .u64) (.var 78) (.lit 39))),
    .asg 84 (.bin (.bxor .u64) (.var 84) (.var 64)),
    .asg 43 (.bin (.bxor .u64) (.bin (.shl .u64) (.var 84) (.lit 8)) (.bin (.shr .u64) (.var 84) (.lit 56))),
    .asg 85 (.bin (.bxor .u64) (.var 85) (.var 60)),
    .asg 44 (.bin (.bxor .u64) (.bin (.shl .u64) (.var 85) (.lit 18)) (.bin (.shr .u64) (.var 85) (.lit 46))),
    .asg 15 (.bin (.bxor .u64) (.var 40) (.bin (.band .u64) (.un (.bnot .u64) (.var 41)) (.var 42))),
    .asg 55 (.bin (.bxor .u64) (.var 55) (.var 15)),
    .asg 16 (.bin (.bxor .u64) (.var 41) (.bin (.band .u64) (.un (.bnot .u64) (.var 42)) (.var 43))),
    .asg 56 (.bin (.bxor .u64) (.var 56) (.var 16)),
    .asg 17 (.bin (.bxor .u64) (.var 42) (.bin (.band .u64) (.un (.bnot .u64) (.var 43)) (.var 44))),
    .asg 57 (.bin (.bxor .u64) (.var 57) (.var 17)),
    .asg 18 (.bin (.bxor .u64) (.var 43) (.bin (.band .u64) (.un (.bnot .u64) (.var 44)) (.var 40))),
    .asg 58 (.bin (.bxor .u64) (.var 58) (.var 18)),
    .asg 19 (.bin (.bxor .u64) (.var 44) (.bin (.band .u64) (.un (.bnot .u64) (.var 40)) (.var 41))),
    .asg 59 (.bin (.bxor .u64) (.var 59) (.var 19)),
    .asg 69 (.bin (.bxor .u64) (.var 69) (.var 64)),
    .asg 45 (.bin (.bxor .u64) (.bin (.shl .u64) (.var 69) (.lit 27)) (.bin (.shr .u64) (.var 69) (.lit 37))),
    .asg 70 (.bin (.bxor .u64) (.var 70) (.var 60)),
    .asg 46 (.bin (.bxor .u64) (.bin (.shl .u64) (.var 70) (.lit 36)) (.bin (.shr .u64) (.var 70) (.lit 28))),
    .asg 76 (.bin (.bxor .u64) (.var 76) (.var 61)),
    .asg 47 (.bin (.bxor .u64) (.bin (.shl .u64) (.var 76) (.lit 10)) (.bin (.shr .u64) (.var 76) (.lit 54))),
    .asg 82 (.bin (.bxor .u64) (.var 82) (.var 62)),
    .asg 48 (.bin (.bxor .u64) (.bin (.shl .u64) (.var 82) (.lit 15)) (.bin (.shr .u64) (.var 82) (.lit 49))),
    .asg 88 (.bin (.bxor .u64) (.var 88) (.var 63)),
    .asg 49 (.bin (.bxor .u64) (.bin (.shl .u64) (.var 88) (.lit 56)) (.bin (.shr .u64) (.var 88) (.lit 8))),
    .asg 20 (.bin (.bxor .u64) (.var 45) (.bin (.band .u64) (.un (.bnot .u64) (.var 46)) (.var 47))),
    .asg 55 (.bin (.bxor .u64) (.var 55) (.var 20)),
    .asg 21 (.bin (.bxor .u64) (.var 46) (.bin (.band .u64) (.un (.bnot .u64) (.var 47)) (.var 48))),
    .asg 56 (.bin (.bxor .u64) (.var 56) (.var 21)),
    .asg 22 (.bin (.bxor .u64) (.var 47) (.bin (.band .u64) (.un (.bnot .u64) (.var 48)) (.var 49))),
    .asg 57 (.bin (.bxor .u64) (.var 57) (.var 22)),
    .asg 23 (.bin (.bxor .u64) (.var 48) (.bin (.band .u64) (.un (.bnot .u64) (.var 49)) (.var 45))),
    .asg 58 (.bin (.bxor .u64) (.var 58) (.var 23)),
    .asg 24 (.bin (.bxor .u64) (.var 49) (.bin (.band .u64) (.un (.bnot .u64) (.var 45)) (.var 46))),
    .asg 59 (.bin (.bxor .u64) (.var 59) (.var 24)),
    .asg 67 (.bin (.bxor .u64) (.var 67) (.var 62)),
    .asg 50 (.bin (.bxor .u64) (.bin (.shl .u64) (.var 67) (.lit 62)) (.bin (.shr .u64) (.var 67) (.lit 2)))]

/-- part of `KeccakF1600_FastLoop_Absorb` -/
def KeccakF1600_FastLoop_Absorb.part7 : Stmt :=
  block [
    .asg 73 (.bin (.bxor .u64) (.var 73) (.var 63)),
    .asg 51 (.bin (.bxor .u64) (.bin (.shl .u64) (.var 73) (.lit 55)) (.bin (.shr .u64) (.var 73) (.lit 9))),
    .asg 79 (.bin (.bxor .u64) (.var 79) (.var 64)),
    .asg 52 (.bin (.bxor .u64) (.bin (.shl .u64) (.var 79) (.lit 39)) (.bin (.shr .u64) (.var 79) (.lit 25))),
    .asg 80 (.bin (.bxor .u64) (.var 80) (.var 60)),
    .asg 53 (.bin (.bxor .u64) (.bin (.shl .u64) (.var 80) (.lit 41)) (.bin (.shr .u64) (.var 80) (.lit 23))),
    .asg 86 (.bin (.bxor .u64) (.var 86) (.var 61)),
    .asg 54 (.bin (.bxor .u64) (.bin (.shl .u64) (.var 86) (.lit 2)) (.bin (.shr .u64) (.var 86) (.lit 62))),
    .asg 25 (.bin (.bxor .u64) (.var 50) (.bin (.band .u64) (.un (.bnot .u64) (.var 51)) (.var 52))),
    .asg 55 (.bin (.bxor .u64) (.var 55) (.var 25)),
    .asg 26 (.bin (.bxor .u64) (.var 51) (.bin (.band .u64) (.un (.bnot .u64) (.var 52)) (.var 53))),
    .asg 56 (.bin (.bxor .u64) (.var 56) (.var 26)),
    .asg 27 (.bin (.bxor .u64) (.var 52) (.bin (.band .u64) (.un (.bnot .u64) (.var 53)) (.var 54))),
    .asg 57 (.bin (.bxor .u64) (.var 57) (.var 27)),
    .asg 28 (.bin (.bxor .u64) (.var 53) (.bin (.band .u64) (.un (.bnot .u64) (.var 54)) (.var 50))),
    .asg 58 (.bin (.bxor .u64) (.var 58) (.var 28)),
    .asg 29 (.bin (.bxor .u64) (.var 54) (.bin (.band .u64) (.un (.bnot .u64) (.var 50)) (.var 51))),
    .asg 59 (.bin (.bxor .u64) (.var 59) (.var 29)),
    .asg 60 (.bin (.bxor .u64) (.var 59) (.bin (.bxor .u64) (.bin (.shl .u64) (.var 56) (.lit 1)) (.bin (.shr .u64)
      (.var 56) (.lit 63)))),
    .asg 61 (.bin (.bxor .u64) (.var 55) (.bin (.bxor .u64) (.bin (.shl .u64) (.var 57) (.lit 1)) (.bin (.shr .u64)
      (.var 57) (.lit 63)))),
    .asg 62 (.bin (.bxor .u64) (.var 56) (.bin (.bxor .u64) (.bin (.shl .u64) (.var 58) (.lit 1)) (.bin (.shr .u64)
      (.var 58) (.lit 63)))),
    .asg 63 (.bin (.bxor .u64) (.var 57) (.bin (.bxor .u64) (.bin (.shl .u64) (.var 59) (.lit 1)) (.bin (.shr .u64)
      (.var 59) (.lit 63)))),
    .asg 64 (.bin (.bxor .u64) (.var 58) (.bin (.bxor .u64) (.bin (.shl .u64) (.var 55) (.lit 1)) (.bin (.shr .u64)
      (.var 55) (.lit 63)))),
    .asg 5 (.bin (.bxor .u64) (.var 5) (.var 60)),
    .asg 30 (.var 5),
    .asg 11 (.bin (.bxor .u64) (.var 11) (.var 61)),
    .asg 31 (.bin (.bxor .u64) (.bin (.shl .u64) (.var 11) (.lit 44)) (.bin (.shr .u64) (.var 11) (.lit 20))),
    .asg 17 (.bin (.bxor .u64) (.var 17) (.var 62)),
    .asg 32 (.bin (.bxor .u64) (.bin (.shl .u64) (.var 17) (.lit 43)) (.bin (.shr .u64) (.var 17) (.lit 21))),
    .asg 23 (.bin (.bxor .u64) (.var 23) (.var 63)),
    .asg 33 (.bin (.bxor .u64) (.bin (.shl .u64) (.var 23) (.lit 21)) (.bin (.shr .u64) (.var 23) (.lit 43))),
    .asg 29 (.bin (.bxor .u64) (.var 29) (.var 64)),
    .asg 34 (.bin (.bxor .u64) (.bin (.shl .u64) (.var 29) (.lit 14)) (.bin (.shr .u64) (.var 29) (.lit 50))),
    .asg 65 (.bin (.bxor .u64) (.var 30) (.bin (.band .u64) (.un (.bnot .u64) (.var 31)) (.var 32))),
    .asg 65 (.bin (.bxor .u64) (.var 65) (.ld 8 (.padd (.glob 0) (.lit 2) 8))),
    .asg 55 (.var 65),
    .asg 66 (.bin (.bxor .u64) (.var 31) (.bin (.band .u64) (.un (.bnot .u64) (.var 32)) (.var 33))),
    .asg 56 (.var 66),
    .asg 67 (.bin (.bxor .u64) (.var 32) (.bin (.band .u64) (.un (.bnot .u64) (.var 33)) (.var 34))),
    .asg 57 (.var 67)]

/-- part of `KeccakF1600_FastLoop_Absorb` -/
def KeccakF1600_FastLoop_Absorb.part8 : Stmt :=
  block [
    .asg 68 (.bin (.bxor .u64) (.var 33) (.bin (.band .u64) (.un (.bnot .u64) (.var 34)) (.var 30))),
    .asg 58 (.var 68),
    .asg 69 (.bin (.bxor .u64) (.var 34) (.bin (.band .u64) (.un (.bnot .u64) (.var 30)) (.var 31))),
    .asg 59 (.var 69),
    .asg 8 (.bin (.bxor .u64) (.var 8) (.var 63)),
    .asg 35 (.bin (.bxor .u64) (.bin (.shl .u64) (.var 8) (.lit 28)) (.bin (.shr .u64) (.var 8) (.lit 36))),
    .asg 14 (.bin (.bxor .u64) (.var 14) (.var 64)),
    .asg 36 (.bin (.bxor .u64) (.bin (.shl .u64) (.var 14) (.lit 20)) (.bin (.shr .u64) (.var 14) (.lit 44))),
    .asg 15 (.bin (.bxor .u64) (.var 15) (.var 60)),
    .asg 37 (.bin (.bxor .u64) (.bin (.shl .u64) (.var 15) (.lit 3)) (.bin (.shr .u64) (.var 15) (.lit 61))),
    .asg 21 (.bin (.bxor .u64) (.var 21) (.var 61)),
    .asg 38 (.bin (.bxor .u64) (.bin (.shl .u64) (.var 21) (.lit 45)) (.bin (.shr .u64) (.var 21) (.lit 19))),
    .asg 27 (.bin (.bxor .u64) (.var 27) (.var 62)),
    .asg 39 (.bin (.bxor .u64) (.bin (.shl .u64) (.var 27) (.lit 61)) (.bin (.shr .u64) (.var 27) (.lit 3))),
    .asg 70 (.bin (.bxor .u64) (.var 35) (.bin (.band .u64) (.un (.bnot .u64) (.var 36)) (.var 37))),
    .asg 55 (.bin (.bxor .u64) (.var 55) (.var 70)),
    .asg 71 (.bin (.bxor .u64) (.var 36) (.bin (.band .u64) (.un (.bnot .u64) (.var 37)) (.var 38))),
    .asg 56 (.bin (.bxor .u64) (.var 56) (.var 71)),
    .asg 72 (.bin (.bxor .u64) (.var 37) (.bin (.band .u64) (.un (.bnot .u64) (.var 38)) (.var 39))),
    .asg 57 (.bin (.bxor .u64) (.var 57) (.var 72)),
    .asg 73 (.bin (.bxor .u64) (.var 38) (.bin (.band .u64) (.un (.bnot .u64) (.var 39)) (.var 35))),
    .asg 58 (.bin (.bxor .u64) (.var 58) (.var 73)),
    .asg 74 (.bin (.bxor .u64) (.var 39) (.bin (.band .u64) (.un (.bnot .u64) (.var 35)) (.var 36))),
    .asg 59 (.bin (.bxor .u64) (.var 59) (.var 74)),
    .asg 6 (.bin (.bxor .u64) (.var 6) (.var 61)),
    .asg 40 (.bin (.bxor .u64) (.bin (.shl .u64) (.var 6) (.lit 1)) (.bin (.shr .u64) (.var 6) (.lit 63))),
    .asg 12 (.bin (.bxor .u64) (.var 12) (.var 62)),
    .asg 41 (.bin (.bxor .u64) (.bin (.shl .u64) (.var 12) (.lit 6)) (.bin (.shr .u64) (.var 12) (.lit 58))),
    .asg 18 (.bin (.bxor .u64) (.var 18) (.var 63)),
    .asg 42 (.bin (.bxor .u64) (.bin (.shl .u64) (.var 18) (.lit 25)) (.bin (.shr .u64) (.var 18) (.lit 39))),
    .asg 24 (.bin (.bxor .u64) (.var 24) (.var 64)),
    .asg 43 (.bin (.bxor .u64) (.bin (.shl .u64) (.var 24) (.lit 8)) (.bin (.shr .u64) (.var 24) (.lit 56))),
    .asg 25 (.bin (.bxor .u64) (.var 25) (.var 60)),
    .asg 44 (.bin (.bxor .u64) (.bin (.shl .u64) (.var 25) (.lit 18)) (.bin (.shr .u64) (.var 25) (.lit 46))),
    .asg 75 (.bin (.bxor .u64) (.var 40) (.bin (.band .u64) (.un (.bnot .u64) (.var 41)) (.var 42))),
    .asg 55 (.bin (.bxor .u64) (.var 55) (.var 75)),
    .asg 76 (.bin (.bxor .u64) (.var 41) (.bin (.band .u64) (.un (.bnot .u64) (.var 42)) (.var 43))),
    .asg 56 (.bin (.bxor .u64) (.var 56) (.var 76)),
    .asg 77 (.bin (.bxor .u64) (.var 42) (.bin (.band .u64) (.un (.bnot .u64) (.var 43)) (.var 44))),
    .asg 57 (.bin (.bxor .u64) (.var 57) (.var 77))]

/-- part of `KeccakF1600_FastLoop_Absorb` -/
def KeccakF1600_FastLoop_Absorb.part9 : Stmt :=
  block [
    .asg 78 (.bin (.bxor .u64) (.var 43) (.bin (.band .u64) (.un (.bnot .u64) (.var 44)) (.var 40))),
    .asg 58 (.bin (.bxor .u64) (.var 58) (.var 78)),
    .asg 79 (.bin (.bxor .u64) (.var 44) (.bin (.band .u64) (.un (.bnot .u64) (.var 40)) (.var 41))),
    .asg 59 (.bin (.bxor .u64) (.var 59) (.var 79)),
    .asg 9 (.bin (.bxor .u64) (.var 9) (.var 64)),
    .asg 45 (.bin (.bxor .u64) (.bin (.shl .u64) (.var 9) (.lit 27)) (.bin (.shr .u64) (.var 9) (.lit 37))),
    .asg 10 (.bin (.bxor .u64) (.var 10) (.var 60)),
    .asg 46 (.bin (.bxor .u64) (.bin (.shl .u64) (.var 10) (.lit 36)) (.bin (.shr .u64) (.var 10) (.lit 28))),
    .asg 16 (.bin (.bxor .u64) (.var 16) (.var 61)),
    .asg 47 (.bin (.bxor .u64) (.bin (.shl .u64) (.var 16) (.lit 10)) (.bin (.shr .u64) (.var 16) (.lit 54))),
    .asg 22 (.bin (.bxor .u64) (.var 22) (.var 62)),
    .asg 48 (.bin (.bxor .u64) (.bin (.shl .u64) (.var 22) (.lit 15)) (.bin (.shr .u64) (.var 22) (.lit 49))),
    .asg 28 (.bin (.bxor .u64) (.var 28) (.var 63)),
    .asg 49 (.bin (.bxor .u64) (.bin (.shl .u64) (.var 28) (.lit 56)) (.bin (.shr .u64) (.var 28) (.lit 8))),
    .asg 80 (.bin (.bxor .u64) (.var 45) (.bin (.band .u64) (.un (.bnot .u64) (.var 46)) (.var 47))),
    .asg 55 (.bin (.bxor .u64) (.var 55) (.var 80)),
    .asg 81 (.bin (.bxor .u64) (.var 46) (.bin (.band .u64) (.un (.bnot .u64) (.var 47)) (.var 48))),
    .asg 56 (.bin (.bxor .u64) (.var 56) (.var 81)),
    .asg 82 (.bin (.bxor .u64) (.var 47) (.bin (.band .u64) (.un (.bnot .u64) (.var 48)) (.var 49))),
    .asg 57 (.bin (.bxor .u64) (.var 57) (.var 82)),
    .asg 83 (.bin (.bxor .u64) (.var 48) (.bin (.band .u64) (.un (.bnot .u64) (.var 49)) (.var 45))),
    .asg 58 (.bin (.bxor .u64) (.var 58) (.var 83)),
    .asg 84 (.bin (.bxor .u64) (.var 49) (.bin (.band .u64) (.un (.bnot .u64) (.var 45)) (.var 46))),
    .asg 59 (.bin (.bxor .u64) (.var 59) (.var 84)),
    .asg 7 (.bin (.bxor .u64) (.var 7) (.var 62)),
    .asg 50 (.bin (.bxor .u64) (.bin (.shl .u64) (.var 7) (.lit 62)) (.bin (.shr .u64) (.var 7) (.lit 2))),
    .asg 13 (.bin (.bxor .u64) (.var 13) (.var 63)),
    .asg 51 (.bin (.bxor .u64) (.bin (.shl .u64) (.var 13) (.lit 55)) (.bin (.shr .u64) (.var 13) (.lit 9))),
    .asg 19 (.bin (.bxor .u64) (.var 19) (.var 64)),
    .asg 52 (.bin (.bxor .u64) (.bin (.shl .u64) (.var 19) (.lit 39)) (.bin (.shr .u64) (.var 19) (.lit 25))),
    .asg 20 (.bin (.bxor .u64) (.var 20) (.var 60)),
    .asg 53 (.bin (.bxor .u64) (.bin (.shl .u64) (.var 20) (.lit 41)) (.bin (.shr .u64) (.var 20) (.lit 23))),
    .asg 26 (.bin (.bxor .u64) (.var 26) (.var 61)),
    .asg 54 (.bin (.bxor .u64) (.bin (.shl .u64) (.var 26) (.lit 2)) (.bin (.shr .u64) (.var 26) (.lit 62))),
    .asg 85 (.bin (.bxor .u64) (.var 50) (.bin (.band .u64) (.un (.bnot .u64) (.var 51)) (.var 52))),
    .asg 55 (.bin (.bxor .u64) (.var 55) (.var 85)),
    .asg 86 (.bin (.bxor .u64) (.var 51) (.bin (.band .u64) (.un (.bnot .u64) (.var 52)) (.var 53))),
    .asg 56 (.bin (.bxor .u64) (.var 56) (.var 86)),
    .asg 87 (.bin (.bxor .u64) (.var 52) (.bin (.band .u64) (.un (.bnot .u64) (.var 53)) (.var 54))),
    .asg 57 (.bin (.bxor .u64) (.var 57) (.var 87))]

/-- part of `KeccakF1600_FastLoop_Absorb` -/
def KeccakF1600_FastLoop_Absorb.part10 : Stmt :=
  block [
    .asg 88 (.bin (.bxor .u64) (.var 53) (.bin (.band .u64) (.un (.bnot .u64) (.var 54)) (.var 50))),
    .asg 58 (.bin (.bxor .u64) (.var 58) (.var 88)),
    .asg 89 (.bin (.bxor .u64) (.var 54) (.bin (.band .u64) (.un (.bnot .u64) (.var 50)) (.var 51))),
    .asg 59 (.bin (.bxor .u64) (.var 59) (.var 89)),
    .asg 60 (.bin (.bxor .u64) (.var 59) (.bin (.bxor .u64) (.bin (.shl .u64) (.var 56) (.lit 1)) (.bin (.shr .u64)
      (.var 56) (.lit 63)))),
    .asg 61 (.bin (.bxor .u64) (.var 55) (.bin (.bxor .u64) (.bin (.shl .u64) (.var 57) (.lit 1)) (.bin (.shr .u64)
      (.var 57) (.lit 63)))),
    .asg 62 (.bin (.bxor .u64) (.var 56) (.bin (.bxor .u64) (.bin (.shl .u64) (.var 58) (.lit 1)) (.bin (.shr .u64)
      (.var 58) (.lit 63)))),
    .asg 63 (.bin (.bxor .u64) (.var 57) (.bin (.bxor .u64) (.bin (.shl .u64) (.var 59) (.lit 1)) (.bin (.shr .u64)
      (.var 59) (.lit 63)))),
    .asg 64 (.bin (.bxor .u64) (.var 58) (.bin (.bxor .u64) (.bin (.shl .u64) (.var 55) (.lit 1)) (.bin (.shr .u64)
      (.var 55) (.lit 63)))),
    .asg 65 (.bin (.bxor .u64) (.var 65) (.var 60)),
    .asg 30 (.var 65),
    .asg 71 (.bin (.bxor .u64) (.var 71) (.var 61)),
    .asg 31 (.bin (.bxor .u64) (.bin (.shl .u64) (.var 71) (.lit 44)) (.bin (.shr .u64) (.var 71) (.lit 20))),
    .asg 77 (.bin (.bxor .u64) (.var 77) (.var 62)),
    .asg 32 (.bin (.bxor .u64) (.bin (.shl .u64) (.var 77) (.lit 43)) (.bin (.shr .u64) (.var 77) (.lit 21))),
    .asg 83 (.bin (.bxor .u64) (.var 83) (.var 63)),
    .asg 33 (.bin (.bxor .u64) (.bin (.shl .u64) (.var 83) (.lit 21)) (.bin (.shr .u64) (.var 83) (.lit 43))),
    .asg 89 (.bin (.bxor .u64) (.var 89) (.var 64)),
    .asg 34 (.bin (.bxor .u64) (.bin (.shl .u64) (.var 89) (.lit 14)) (.bin (.shr .u64) (.var 89) (.lit 50))),
    .asg 5 (.bin (.bxor .u64) (.var 30) (.bin (.band .u64) (.un (.bnot .u64) (.var 31)) (.var 32))),
    .asg 5 (.bin (.bxor .u64) (.var 5) (.ld 8 (.padd (.glob 0) (.lit 3) 8))),
    .asg 55 (.var 5),
    .asg 6 (.bin (.bxor .u64) (.var 31) (.bin (.band .u64) (.un (.bnot .u64) (.var 32)) (.var 33))),
    .asg 56 (.var 6),
    .asg 7 (.bin (.bxor .u64) (.var 32) (.bin (.band .u64) (.un (.bnot .u64) (.var 33)) (.var 34))),
    .asg 57 (.var 7),
    .asg 8 (.bin (.bxor .u64) (.var 33) (.bin (.band .u64) (.un (.bnot .u64) (.var 34)) (.var 30))),
    .asg 58 (.var 8),
    .asg 9 (.bin (.bxor .u64) (.var 34) (.bin (.band .u64) (.un (.bnot .u64) (.var 30)) (.var 31))),
    .asg 59 (.var 9),
    .asg 68 (.bin (.bxor .u64) (.var 68) (.var 63)),
    .asg 35 (.bin (.bxor .u64) (.bin (.shl .u64) (.var 68) (.lit 28)) (.bin (.shr .u64) (.var 68) (.lit 36))),
    .asg 74 (.bin (.bxor .u64) (.var 74) (.var 64)),
    .asg 36 (.bin (.bxor .u64) (.bin (.shl .u64) (.var 74) (.lit 20)) (.bin (.shr .u64) (.var 74) (.lit 44))),
    .asg 75 (.bin (.bxor .u64) (.var 75) (.var 60)),
    .asg 37 (.bin (.bxor .u64) (.bin (.shl .u64) (.var 75) (.lit 3)) (.bin (.shr .u64) (.var 75) (.lit 61))),
    .asg 81 (.bin (.bxor .u64) (.var 81) (.var 61)),
    .asg 38 (.bin (.bxor .u64) (.bin (.shl .u64) (.var 81) (.lit 45)) (.bin (.shr .u64) (.var 81) (.lit 19))),
    .asg 87 (.bin (.bxor .u64) (.var 87) (.var 62)),
    .asg 39 (.bin (.bxor .u64) (.bin (.shl .u64) (.var 87) (.lit 61)) (.bin (.shr .u64) (.var 87) (.lit 3)))]

/-- part of `KeccakF1600_FastLoop_Absorb` -/
def KeccakF1600_FastLoop_Absorb.part11 : Stmt :=
  block [
    .asg 10 (.bin (.bxor .u64) (.var 35) (.bin (.band .u64) (.un (.bnot .u64) (.var 36)) (.var 37))),
    .asg 55 (.bin (.bxor .u64) (.var 55) (.var 10)),
    .asg 11 (.bin (.bxor .u64) (.var 36) (.bin (.band .u64) (.un (.bnot .u64) (.var 37)) (.var 38))),
    .asg 56 (.bin (.bxor .u64) (.var 56) (.var 11)),
    .asg 12 (.bin (.bxor .u64) (.var 37) (.bin (.band .u64) (.un (.bnot .u64) (.var 38)) (.var 39))),
    .asg 57 (.bin (.bxor .u64) (.var 57) (.var 12)),
    .asg 13 (.bin (.bxor .u64) (.var 38) (.bin (.band .u64) (.un (.bnot .u64) (.var 39)) (.var 35))),
    .asg 58 (.bin (.bxor .u64) (.var 58) (.var 13)),
    .asg 14 (.bin (.bxor .u64) (.var 39) (.bin (.band .u64) (.un (.bnot .u64) (.var 35)) (.var 36))),
    .asg 59 (.bin (.bxor .u64) (.var 59) (.var 14)),
    .asg 66 (.bin (.bxor .u64) (.var 66) (.var 61)),
    .asg 40 (.bin (.bxor .u64) (.bin (.shl .u64) (.var 66) (.lit 1)) (.bin (.shr .u64) (.var 66) (.lit 63))),
    .asg 72 (.bin (.bxor .u64) (.var 72) (.var 62)),
    .asg 41 (.bin (.bxor .u64) (.bin (.shl .u64) (.var 72) (.lit 6)) (.bin (.shr .u64) (.var 72) (.lit 58))),
    .asg 78 (.bin (.bxor .u64) (.var 78) (.var 63)),
    .asg 42 (.bin (.bxor .u64) (.bin (.shl .u64) (.var 78) (.lit 25)) (.bin (.shr .u64) (.var 78) (.lit 39))),
    .asg 84 (.bin (.bxor .u64) (.var 84) (.var 64)),
    .asg 43 (.bin (.bxor .u64) (.bin (.shl .u64) (.var 84) (.lit 8)) (.bin (.shr .u64) (.var 84) (.lit 56))),
    .asg 85 (.bin (.bxor .u64) (.var 85) (.var 60)),
    .asg 44 (.bin (.bxor .u64) (.bin (.shl .u64) (.var 85) (.lit 18)) (.bin (.shr .u64) (.var 85) (.lit 46))),
    .asg 15 (.bin (.bxor .u64) (.var 40) (.bin (.band .u64) (.un (.bnot .u64) (.var 41)) (.var 42))),
    .asg 55 (.bin (.bxor .u64) (.var 55) (.var 15)),
    .asg 16 (.bin (.bxor .u64) (.var 41) (.bin (.band .u64) (.un (.bnot .u64) (.var 42)) (.var 43))),
    .asg 56 (.bin (.bxor .u64) (.var 56) (.var 16)),
    .asg 17 (.bin (.bxor .u64) (.var 42) (.bin (.band .u64) (.un (.bnot .u64) (.var 43)) (.var 44))),
    .asg 57 (.bin (.bxor .u64) (.var 57) (.var 17)),
    .asg 18 (.bin (.bxor .u64) (.var 43) (.bin (.band .u64) (.un (.bnot .u64) (.var 44)) (.var 40))),
    .asg 58 (.bin (.bxor .u64) (.var 58) (.var 18)),
    .asg 19 (.bin (.bxor .u64) (.var 44) (.bin (.band .u64) (.un (.bnot .u64) (.var 40)) (.var 41))),
    .asg 59 (.bin (.bxor .u64) (.var 59) (.var 19)),
    .asg 69 (.bin (.bxor .u64) (.var 69) (.var 64)),
    .asg 45 (.bin (.bxor .u64) (.bin (.shl .u64) (.var 69) (.lit 27)) (.bin (.shr .u64) (.var 69) (.lit 37))),
    .asg 70 (.bin (.bxor .u64) (.var 70) (.var 60)),
    .asg 46 (.bin (.bxor .u64) (.bin (.shl .u64) (.var 70) (.lit 36)) (.bin (.shr .u64) (.var 70) (.lit 28))),
    .asg 76 (.bin (.bxor .u64) (.var 76) (.var 61)),
    .asg 47 (.bin (.bxor .u64) (.bin (.shl .u64) (.var 76) (.lit 10)) (.bin (.shr .u64) (.var 76) (.lit 54))),
    .asg 82 (.bin (.bxor .u64) (.var 82) (.var 62)),
    .asg 48 (.bin (.bxor .u64) (.bin (.shl .u64) (.var 82) (.lit 15)) (.bin (.shr .u64) (.var 82) (.lit 49))),
    .asg 88 (.bin (.bxor .u64) (.var 88) (.var 63)),
    .asg 49 (.bin (.bxor .u64) (.bin (.shl .u64) (.var 88) (.lit 56)) (.bin (.shr .u64) (.var 88) (.lit 8)))]

/-- part of `KeccakF1600_FastLoop_Absorb` -/
def KeccakF1600_FastLoop_Absorb.part12 : Stmt :=
  block [
    .asg 20 (.bin (.bxor .u64) (.var 45) (.bin (.band .u64) (.un (.bnot .u64) (.var 46)) (.var 47))),
    .asg 55 (.bin (.bxor .u64) (.var 55) (.var 20)),
    .asg 21 (.bin (.bxor .u64) (.var 46) (.bin (.band .u64) (.un (.bnot .u64) (.var 47)) (.var 48))),
    .asg 56 (.bin (.bxor .u64) (.var 56) (.var 21)),
    .asg 22 (.bin (.bxor .u64) (.var 47) (.bin (.band .u64) (.un (.bnot .u64) (.var 48)) (.var 49))),
    .asg 57 (.bin (.bxor .u64) (.var 57) (.var 22)),
    .asg 23 (.bin (.bxor .u64) (.var 48) (.bin (.band .u64) (.un (.bnot .u64) (.var 49)) (.var 45))),
    .asg 58 (.bin (.bxor .u64) (.var 58) (.var 23)),
    .asg 24 (.bin (.bxor .u64) (.var 49) (.bin (.band .u64) (.un (.bnot .u64) (.var 45)) (.var 46))),
    .asg 59 (.bin (.bxor .u64) (.var 59) (.var 24)),
    .asg 67 (.bin (.bxor .u64) (.var 67) (.var 62)),
    .asg 50 (.bin (.bxor .u64) (.bin (.shl .u64) (.var 67) (.lit 62)) (.bin (.shr .u64) (.var 67) (.lit 2))),
    .asg 73 (.bin (.bxor .u64) (.var 73) (.var 63)),
    .asg 51 (.bin (.bxor .u64) (.bin (.shl .u64) (.var 73) (.lit 55)) (.bin (.shr .u64) (.var 73) (.lit 9))),
    .asg 79 (.bin (.bxor .u64) (.var 79) (.var 64)),
    .asg 52 (.bin (.bxor .u64) (.bin (.shl .u64) (.var 79) (.lit 39)) (.bin (.shr .u64) (.var 79) (.lit 25))),
    .asg 80 (.bin (.bxor .u64) (.var 80) (.var 60)),
    .asg 53 (.bin (.bxor .u64) (.bin (.shl .u64) (.var 80) (.lit 41)) (.bin (.shr .u64) (.var 80) (.lit 23))),
    .asg 86 (.bin (.bxor .u64) (.var 86) (.var 61)),
    .asg 54 (.bin (.bxor .u64) (.bin (.shl .u64) (.var 86) (.lit 2)) (.bin (.shr .u64) (.var 86) (.lit 62))),
    .asg 25 (.bin (.bxor .u64) (.var 50) (.bin (.band .u64) (.un (.bnot .u64) (.var 51)) (.var 52))),
    .asg 55 (.bin (.bxor .u64) (.var 55) (.var 25)),
    .asg 26 (.bin (.bxor .u64) (.var 51) (.bin (.band .u64) (.un (.bnot .u64) (.var 52)) (.var 53))),
    .asg 56 (.bin (.bxor .u64) (.var 56) (.var 26)),
    .asg 27 (.bin (.bxor .u64) (.var 52) (.bin (.band .u64) (.un (.bnot .u64) (.var 53)) (.var 54))),
    .asg 57 (.bin (.bxor .u64) (.var 57) (.var 27)),
    .asg 28 (.bin (.bxor .u64) (.var 53) (.bin (.band .u64) (.un (.bnot .u64) (.var 54)) (.var 50))),
    .asg 58 (.bin (.bxor .u64) (.var 58) (.var 28)),
    .asg 29 (.bin (.bxor .u64) (.var 54) (.bin (.band .u64) (.un (.bnot .u64) (.var 50)) (.var 51))),
    .asg 59 (.bin (.bxor .u64) (.var 59) (.var 29)),
    .asg 60 (.bin (.bxor .u64) (.var 59) (.bin (.bxor .u64) (.bin (.shl .u64) (.var 56) (.lit 1)) (.bin (.shr .u64)
      (.var 56) (.lit 63)))),
    .asg 61 (.bin (.bxor .u64) (.var 55) (.bin (.bxor .u64) (.bin (.shl .u64) (.var 57) (.lit 1)) (.bin (.shr .u64)
      (.var 57) (.lit 63)))),
    .asg 62 (.bin (.bxor .u64) (.var 56) (.bin (.bxor .u64) (.bin (.shl .u64) (.var 58) (.lit 1)) (.bin (.shr .u64)
      (.var 58) (.lit 63)))),
    .asg 63 (.bin (.bxor .u64) (.var 57) (.bin (.bxor .u64) (.bin (.shl .u64) (.var 59) (.lit 1)) (.bin (.shr .u64)
      (.var 59) (.lit 63)))),
    .asg 64 (.bin (.bxor .u64) (.var 58) (.bin (.bxor .u64) (.bin (.shl .u64) (.var 55) (.lit 1)) (.bin (.shr .u64)
      (.var 55) (.lit 63)))),
    .asg 5 (.bin (.bxor .u64) (.var 5) (.var 60)),
    .asg 30 (.var 5),
    .asg 11 (.bin (.bxor .u64) (.var 11) (.var 61)),
    .asg 31 (.bin (.bxor .u64) (.bin (.shl .u64) (.var 11) (.lit 44)) (.bin (.shr .u64) (.var 11) (.lit 20))),
    .asg 17 (.bin (.bxor .u64) (.var 17) (.var 62))]

/-- part of `KeccakF1600_FastLoop_Absorb` -/
def KeccakF1600_FastLoop_Absorb.part13 : Stmt :=
  block [
    .asg 32 (.bin (.bxor .u64) (.bin (.shl .u64) (.var 17) (.lit 43)) (.bin (.shr .u64) (.var 17) (.lit 21))),
    .asg 23 (.bin (.bxor .u64) (.var 23) (.var 63)),
    .asg 33 (.bin (.bxor .u64) (.bin (.shl .u64) (.var 23) (.lit 21)) (.bin (.shr .u64) (.var 23) (.lit 43))),
    .asg 29 (.bin (.bxor .u64) (.var 29) (.var 64)),
    .asg 34 (.bin (.bxor .u64) (.bin (.shl .u64) (.var 29) (.lit 14)) (.bin (.shr .u64) (.var 29) (.lit 50))),
    .asg 65 (.bin (.bxor .u64) (.var 30) (.bin (.band .u64) (.un (.bnot .u64) (.var 31)) (.var 32))),
    .asg 65 (.bin (.bxor .u64) (.var 65) (.ld 8 (.padd (.glob 0) (.lit 4) 8))),
    .asg 55 (.var 65),
    .asg 66 (.bin (.bxor .u64) (.var 31) (.bin (.band .u64) (.un (.bnot .u64) (.var 32)) (.var 33))),
    .asg 56 (.var 66),
    .asg 67 (.bin (.bxor .u64) (.var 32) (.bin (.band .u64) (.un (.bnot .u64) (.var 33)) (.var 34))),
    .asg 57 (.var 67),
    .asg 68 (.bin (.bxor .u64) (.var 33) (.bin (.band .u64) (.un (.bnot .u64) (.var 34)) (.var 30))),
    .asg 58 (.var 68),
    .asg 69 (.bin (.bxor .u64) (.var 34) (.bin (.band .u64) (.un (.bnot .u64) (.var 30)) (.var 31))),
    .asg 59 (.var 69),
    .asg 8 (.bin (.bxor .u64) (.var 8) (.var 63)),
    .asg 35 (.bin (.bxor .u64) (.bin (.shl .u64) (.var 8) (.lit 28)) (.bin (.shr .u64) (.var 8) (.lit 36))),
    .asg 14 (.bin (.bxor .u64) (.var 14) (.var 64)),
    .asg 36 (.bin (.bxor .u64) (.bin (.shl .u64) (.var 14) (.lit 20)) (.bin (.shr .u64) (.var 14) (.lit 44))),
    .asg 15 (.bin (.bxor .u64) (.var 15) (.var 60)),
    .asg 37 (.bin (.bxor .u64) (.bin (.shl .u64) (.var 15) (.lit 3)) (.bin (.shr .u64) (.var 15) (.lit 61))),
    .asg 21 (.bin (.bxor .u64) (.var 21) (.var 61)),
    .asg 38 (.bin (.bxor .u64) (.bin (.shl .u64) (.var 21) (.lit 45)) (.bin (.shr .u64) (.var 21) (.lit 19))),
    .asg 27 (.bin (.bxor .u64) (.var 27) (.var 62)),
    .asg 39 (.bin (.bxor .u64) (.bin (.shl .u64) (.var 27) (.lit 61)) (.bin (.shr .u64) (.var 27) (.lit 3))),
    .asg 70 (.bin (.bxor .u64) (.var 35) (.bin (.band .u64) (.un (.bnot .u64) (.var 36)) (.var 37))),
    .asg 55 (.bin (.bxor .u64) (.var 55) (.var 70)),
    .asg 71 (.bin (.bxor .u64) (.var 36) (.bin (.band .u64) (.un (.bnot .u64) (.var 37)) (.var 38))),
    .asg 56 (.bin (.bxor .u64) (.var 56) (.var 71)),
    .asg 72 (.bin (.bxor .u64) (.var 37) (.bin (.band .u64) (.un (.bnot .u64) (.var 38)) (.var 39))),
    .asg 57 (.bin (.bxor .u64) (.var 57) (.var 72)),
    .asg 73 (.bin (.bxor .u64) (.var 38) (.bin (.band .u64) (.un (.bnot .u64) (.var 39)) (.var 35))),
    .asg 58 (.bin (.bxor .u64) (.var 58) (.var 73)),
    .asg 74 (.bin (.bxor .u64) (.var 39) (.bin (.band .u64) (.un (.bnot .u64) (.var 35)) (.var 36))),
    .asg 59 (.bin (.bxor .u64) (.var 59) (.var 74)),
    .asg 6 (.bin (.bxor .u64) (.var 6) (.var 61)),
    .asg 40 (.bin (.bxor .u64) (.bin (.shl .u64) (.var 6) (.lit 1)) (.bin (.shr .u64) (.var 6) (.lit 63))),
    .asg 12 (.bin (.bxor .u64) (.var 12) (.var 62)),
    .asg 41 (.bin (.bxor .u64) (.bin (.shl .u64) (.var 12) (.lit 6)) (.bin (.shr .u64) (.var 12) (.lit 58)))]

/-- part of `KeccakF1600_FastLoop_Absorb` -/
def KeccakF1600_FastLoop_Absorb.part14 : Stmt :=
  block [
    .asg 18 (.bin (.bxor .u64) (.var 18) (.var 63)),
    .asg 42 (.bin (.bxor .u64) (.bin (.shl .u64) (.var 18) (.lit 25)) (.bin (.shr .u64) (.var 18) (.lit 39))),
    .asg 24 (.bin (.bxor .u64) (.var 24) (.var 64)),
    .asg 43 (.bin (.bxor .u64) (.bin (.shl .u64) (.var 24) (.lit 8)) (.bin (.shr .u64) (.var 24) (.lit 56))),
    .asg 25 (.bin (.bxor .u64) (.var 25) (.var 60)),
    .asg 44 (.bin (.bxor .u64) (.bin (.shl .u64) (.var 25) (.lit 18)) (.bin (.shr .u64) (.var 25) (.lit 46))),
    .asg 75 (.bin (.bxor .u64) (.var 40) (.bin (.band .u64) (.un (.bnot .u64) (.var 41)) (.var 42))),
    .asg 55 (.bin (.bxor .u64) (.var 55) (.var 75)),
    .asg 76 (.bin (.bxor .u64) (.var 41) (.bin (.band .u64) (.un (.bnot .u64) (.var 42)) (.var 43))),
    .asg 56 (.bin (.bxor .u64) (.var 56) (.var 76)),
    .asg 77 (.bin (.bxor .u64) (.var 42) (.bin (.band .u64) (.un (.bnot .u64) (.var 43)) (.var 44))),
    .asg 57 (.bin (.bxor .u64) (.var 57) (.var 77)),
    .asg 78 (.bin (.bxor .u64) (.var 43) (.bin (.band .u64) (.un (.bnot .u64) (.var 44)) (.var 40))),
    .asg 58 (.bin (.bxor .u64) (.var 58) (.var 78)),
    .asg 79 (.bin (.bxor .u64) (.var 44) (.bin (.band .u64) (.un (.bnot .u64) (.var 40)) (.var 41))),
    .asg 59 (.bin (.bxor .u64) (.var 59) (.var 79)),
    .asg 9 (.bin (.bxor .u64) (.var 9) (.var 64)),
    .asg 45 (.bin (.bxor .u64) (.bin (.shl .u64) (.var 9) (.lit 27)) (.bin (.shr .u64) (.var 9) (.lit 37))),
    .asg 10 (.bin (.bxor .u64) (.var 10) (.var 60)),
    .asg 46 (.bin (.bxor .u64) (.bin (.shl .u64) (.var 10) (.lit 36)) (.bin (.shr .u64) (.var 10) (.lit 28))),
    .asg 16 (.bin (.bxor .u64) (.var 16) (.var 61)),
    .asg 47 (.bin (.bxor .u64) (.bin (.shl .u64) (.var 16) (.lit 10)) (.bin (.shr .u64) (.var 16) (.lit 54))),
    .asg 22 (.bin (.bxor .u64) (.var 22) (.var 62)),
    .asg 48 (.bin (.bxor .u64) (.bin (.shl .u64) (.var 22) (.lit 15)) (.bin (.shr .u64) (.var 22) (.lit 49))),
    .asg 28 (.bin (.bxor .u64) (.var 28) (.var 63)),
    .asg 49 (.bin (.bxor .u64) (.bin (.shl .u64) (.var 28) (.lit 56)) (.bin (.shr .u64) (.var 28) (.lit 8))),
    .asg 80 (.bin (.bxor .u64) (.var 45) (.bin (.band .u64) (.un (.bnot .u64) (.var 46)) (.var 47))),
    .asg 55 (.bin (.bxor .u64) (.var 55) (.var 80)),
    .asg 81 (.bin (.bxor .u64) (.var 46) (.bin (.band .u64) (.un (.bnot .u64) (.var 47)) (.var 48))),
    .asg 56 (.bin (.bxor .u64) (.var 56) (.var 81)),
    .asg 82 (.bin (.bxor .u64) (.var 47) (.bin (.band .u64) (.un (.bnot .u64) (.var 48)) (.var 49))),
    .asg 57 (.bin (.bxor .u64) (.var 57) (.var 82)),
    .asg 83 (.bin (.bxor .u64) (.var 48) (.bin (.band .u64) (.un (.bnot .u64) (.var 49)) (.var 45))),
    .asg 58 (.bin (.bxor .u64) (.var 58) (.var 83)),
    .asg 84 (.bin (.bxor .u64) (.var 49) (.bin (.band .u64) (.un (.bnot .u64) (.var 45)) (.var 46))),
    .asg 59 (.bin (.bxor .u64) (.var 59) (.var 84)),
    .asg 7 (.bin (.bxor .u64) (.var 7) (.var 62)),
    .asg 50 (.bin (.bxor .u64) (.bin (.shl .u64) (.var 7) (.lit 62)) (.bin (.shr .u64) (.var 7) (.lit 2))),
    .asg 13 (.bin (.bxor .u64) (.var 13) (.var 63)),
    .asg 51 (.bin (.bxor .u64) (.bin (.shl .u64) (.var 13) (.lit 55)) (.bin (.shr .u64) (.var 13) (.lit 9)))]

/-- part of `KeccakF1600_FastLoop_Absorb` -/
def KeccakF1600_FastLoop_Absorb.part15 : Stmt :=
  block [
    .asg 19 (.bin (.bxor .u64) (.var 19) (.var 64)),
    .asg 52 (.bin (.bxor .u64) (.bin (.shl .u64) (.var 19) (.lit 39)) (.bin (.shr .u64) (.var 19) (.lit 25))),
    .asg 20 (.bin (.bxor .u64) (.var 20) (.var 60)),
    .asg 53 (.bin (.bxor .u64) (.bin (.shl .u64) (.var 20) (.lit 41)) (.bin (.shr .u64) (.var 20) (.lit 23))),
    .asg 26 (.bin (.bxor .u64) (.var 26) (.var 61)),
    .asg 54 (.bin (.bxor .u64) (.bin (.shl .u64) (.var 26) (.lit 2)) (.bin (.shr .u64) (.var 26) (.lit 62))),
    .asg 85 (.bin (.bxor .u64) (.var 50) (.bin (.band .u64) (.un (.bnot .u64) (.var 51)) (.var 52))),
    .asg 55 (.bin (.bxor .u64) (.var 55) (.var 85)),
    .asg 86 (.bin (.bxor .u64) (.var 51) (.bin (.band .u64) (.un (.bnot .u64) (.var 52)) (.var 53))),
    .asg 56 (.bin (.bxor .u64) (.var 56) (.var 86)),
    .asg 87 (.bin (.bxor .u64) (.var 52) (.bin (.band .u64) (.un (.bnot .u64) (.var 53)) (.var 54))),
    .asg 57 (.bin (.bxor .u64) (.var 57) (.var 87)),
    .asg 88 (.bin (.bxor .u64) (.var 53) (.bin (.band .u64) (.un (.bnot .u64) (.var 54)) (.var 50))),
    .asg 58 (.bin (.bxor .u64) (.var 58) (.var 88)),
    .asg 89 (.bin (.bxor .u64) (.var 54) (.bin (.band .u64) (.un (.bnot .u64) (.var 50)) (.var 51))),
    .asg 59 (.bin (.bxor .u64) (.var 59) (.var 89)),
    .asg 60 (.bin (.bxor .u64) (.var 59) (.bin (.bxor .u64) (.bin (.shl .u64) (.var 56) (.lit 1)) (.bin (.shr .u64)
      (.var 56) (.lit 63)))),
    .asg 61 (.bin (.bxor .u64) (.var 55) (.bin (.bxor .u64) (.bin (.shl .u64) (.var 57) (.lit 1)) (.bin (.shr .u64)
      (.var 57) (.lit 63)))),
    .asg 62 (.bin (.bxor .u64) (.var 56) (.bin (.bxor .u64) (.bin (.shl .u64) (.var 58) (.lit 1)) (.bin (.shr .u64)
      (.var 58) (.lit 63)))),
    .asg 63 (.bin (.bxor .u64) (.var 57) (.bin (.bxor .u64) (.bin (.shl .u64) (.var 59) (.lit 1)) (.bin (.shr .u64)
      (.var 59) (.lit 63)))),
    .asg 64 (.bin (.bxor .u64) (.var 58) (.bin (.bxor .u64) (.bin (.shl .u64) (.var 55) (.lit 1)) (.bin (.shr .u64)
      (.var 55) (.lit 63)))),
    .asg 65 (.bin (.bxor .u64) (.var 65) (.var 60)),
    .asg 30 (.var 65),
    .asg 71 (.bin (.bxor .u64) (.var 71) (.var 61)),
    .asg 31 (.bin (.bxor .u64) (.bin (.shl .u64) (.var 71) (.lit 44)) (.bin (.shr .u64) (.var 71) (.lit 20))),
    .asg 77 (.bin (.bxor .u64) (.var 77) (.var 62)),
    .asg 32 (.bin (.bxor .u64) (.bin (.shl .u64) (.var 77) (.lit 43)) (.bin (.shr .u64) (.var 77) (.lit 21))),
    .asg 83 (.bin (.bxor .u64) (.var 83) (.var 63)),
    .asg 33 (.bin (.bxor .u64) (.bin (.shl .u64) (.var 83) (.lit 21)) (.bin (.shr .u64) (.var 83) (.lit 43))),
    .asg 89 (.bin (.bxor .u64) (.var 89) (.var 64)),
    .asg 34 (.bin (.bxor .u64) (.bin (.shl .u64) (.var 89) (.lit 14)) (.bin (.shr .u64) (.var 89) (.lit 50))),
    .asg 5 (.bin (.bxor .u64) (.var 30) (.bin (.band .u64) (.un (.bnot .u64) (.var 31)) (.var 32))),
    .asg 5 (.bin (.bxor .u64) (.var 5) (.ld 8 (.padd (.glob 0) (.lit 5) 8))),
    .asg 55 (.var 5),
    .asg 6 (.bin (.bxor .u64) (.var 31) (.bin (.band .u64) (.un (.bnot .u64) (.var 32)) (.var 33))),
    .asg 56 (.var 6),
    .asg 7 (.bin (.bxor .u64) (.var 32) (.bin (.band .u64) (.un (.bnot .u64) (.var 33)) (.var 34))),
    .asg 57 (.var 7),
    .asg 8 (.bin (.bxor .u64) (.var 33) (.bin (.band .u64) (.un (.bnot .u64) (.var 34)) (.var 30))),
    .asg 58 (.var 8)]

/-- part of `KeccakF1600_FastLoop_Absorb` -/
def KeccakF1600_FastLoop_Absorb.part16 : Stmt :=
  block [
    .asg 9 (.bin (.bxor .u64) (.var 34) (.bin (.band .u64) (.un (.bnot .u64) (.var 30)) (.var 31))),
    .asg 59 (.var 9),
    .asg 68 (.bin (.bxor .u64) (.var 68) (.var 63)),
    .asg 35 (.bin (.bxor .u64) (.bin (.shl .u64) (.var 68) (.lit 28)) (.bin (.shr .u64) (.var 68) (.lit 36))),
    .asg 74 (.bin (.bxor .u64) (.var 74) (.var 64)),
    .asg 36 (.bin (.bxor .u64) (.bin (.shl .u64) (.var 74) (.lit 20)) (.bin (.shr .u64) (.var 74) (.lit 44))),
    .asg 75 (.bin (.bxor .u64) (.var 75) (.var 60)),
    .asg 37 (.bin (.bxor .u64) (.bin (.shl .u64) (.var 75) (.lit 3)) (.bin (.shr .u64) (.var 75) (.lit 61))),
    .asg 81 (.bin (.bxor .u64) (.var 81) (.var 61)),
    .asg 38 (.bin (.bxor .u64) (.bin (.shl .u64) (.var 81) (.lit 45)) (.bin (.shr .u64) (.var 81) (.lit 19))),
    .asg 87 (.bin (.bxor .u64) (.var 87) (.var 62)),
    .asg 39 (.bin (.bxor .u64) (.bin (.shl .u64) (.var 87) (.lit 61)) (.bin (.shr .u64) (.var 87) (.lit 3))),
    .asg 10 (.bin (.bxor .u64) (.var 35) (.bin (.band .u64) (.un (.bnot .u64) (.var 36)) (.var 37))),
    .asg 55 (.bin (.bxor .u64) (.var 55) (.var 10)),
    .asg 11 (.bin (.bxor .u64) (.var 36) (.bin (.band .u64) (.un (.bnot .u64) (.var 37)) (.var 38))),
    .asg 56 (.bin (.bxor .u64) (.var 56) (.var 11)),
    .asg 12 (.bin (.bxor .u64) (.var 37) (.bin (.band .u64) (.un (.bnot .u64) (.var 38)) (.var 39))),
    .asg 57 (.bin (.bxor .u64) (.var 57) (.var 12)),
    .asg 13 (.bin (.bxor .u64) (.var 38) (.bin (.band .u64) (.un (.bnot .u64) (.var 39)) (.var 35))),
    .asg 58 (.bin (.bxor .u64) (.var 58) (.var 13)),
    .asg 14 (.bin (.bxor .u64) (.var 39) (.bin (.band .u64) (.un (.bnot .u64) (.var 35)) (.var 36))),
    .asg 59 (.bin (.bxor .u64) (.var 59) (.var 14)),
    .asg 66 (.bin (.bxor .u64) (.var 66) (.var 61)),
    .asg 40 (.bin (.bxor .u64) (.bin (.shl .u64) (.var 66) (.lit 1)) (.bin (.shr .u64) (.var 66) (.lit 63))),
    .asg 72 (.bin (.bxor .u64) (.var 72) (.var 62)),
    .asg 41 (.bin (.bxor .u64) (.bin (.shl .u64) (.var 72) (.lit 6)) (.bin (.shr .u64) (.var 72) (.lit 58))),
    .asg 78 (.bin (.bxor .u64) (.var 78) (.var 63)),
    .asg 42 (.bin (.bxor .u64) (.bin (.shl .u64) (.var 78) (.lit 25)) (.bin (.shr .u64) (.var 78) (.lit 39))),
    .asg 84 (.bin (.bxor .u64) (.var 84) (.var 64)),
    .asg 43 (.bin (.bxor .u64) (.bin (.shl .u64) (.var 84) (.lit 8)) (.bin (.shr .u64) (.var 84) (.lit 56))),
    .asg 85 (.bin (.bxor .u64) (.var 85) (.var 60)),
    .asg 44 (.bin (.bxor .u64) (.bin (.shl .u64) (.var 85) (.lit 18)) (.bin (.shr .u64) (.var 85) (.lit 46))),
    .asg 15 (.bin (.bxor .u64) (.var 40) (.bin (.band .u64) (.un (.bnot .u64) (.var 41)) (.var 42))),
    .asg 55 (.bin (.bxor .u64) (.var 55) (.var 15)),
    .asg 16 (.bin (.bxor .u64) (.var 41) (.bin (.band .u64) (.un (.bnot .u64) (.var 42)) (.var 43))),
    .asg 56 (.bin (.bxor .u64) (.var 56) (.var 16)),
    .asg 17 (.bin (.bxor .u64) (.var 42) (.bin (.band .u64) (.un (.bnot .u64) (.var 43)) (.var 44))),
    .asg 57 (.bin (.bxor .u64) (.var 57) (.var 17)),
    .asg 18 (.bin (.bxor .u64) (.var 43) (.bin (.band .u64) (.un (.bnot .u64) (.var 44)) (.var 40))),
    .asg 58 (.bin (.bxor .u64) (.var 58) (.var 18))]

/-- part of `KeccakF1600_FastLoop_Absorb` -/
def KeccakF1600_FastLoop_Absorb.part17 : Stmt :=
  block [
    .asg 19 (.bin (.bxor .u64) (.var 44) (.bin (.band .u64) (.un (.bnot .u64) (.var 40)) (.var 41))),
    .asg 59 (.bin (.bxor .u64) (.var 59) (.var 19)),
    .asg 69 (.bin (.bxor .u64) (.var 69) (.var 64)),
    .asg 45 (.bin (.bxor .u64) (.bin (.shl .u64) (.var 69) (.lit 27)) (.bin (.shr .u64) (.var 69) (.lit 37))),
    .asg 70 (.bin (.bxor .u64) (.var 70) (.var 60)),
    .asg 46 (.bin (.bxor .u64) (.bin (.shl .u64) (.var 70) (.lit 36)) (.bin (.shr .u64) (.var 70) (.lit 28))),
    .asg 76 (.bin (.bxor .u64) (.var 76) (.var 61)),
    .asg 47 (.bin (.bxor .u64) (.bin (.shl .u64) (.var 76) (.lit 10)) (.bin (.shr .u64) (.var 76) (.lit 54))),
    .asg 82 (.bin (.bxor .u64) (.var 82) (.var 62)),
    .asg 48 (.bin (.bxor .u64) (.bin (.shl .u64) (.var 82) (.lit 15)) (.bin (.shr .u64) (.var 82) (.lit 49))),
    .asg 88 (.bin (.bxor .u64) (.var 88) (.var 63)),
    .asg 49 (.bin (.bxor .u64) (.bin (.shl .u64) (.var 88) (.lit 56)) (.bin (.shr .u64) (.var 88) (.lit 8))),
    .asg 20 (.bin (.bxor .u64) (.var 45) (.bin (.band .u64) (.un (.bnot .u64) (.var 46)) (.var 47))),
    .asg 55 (.bin (.bxor .u64) (.var 55) (.var 20)),
    .asg 21 (.bin (.bxor .u64) (.var 46) (.bin (.band .u64) (.un (.bnot .u64) (.var 47)) (.var 48))),
    .asg 56 (.bin (.bxor .u64) (.var 56) (.var 21)),
    .asg 22 (.bin (.bxor .u64) (.var 47) (.bin (.band .u64) (.un (.bnot .u64) (.var 48)) (.var 49))),
    .asg 57 (.bin (.bxor .u64) (.var 57) (.var 22)),
    .asg 23 (.bin (.bxor .u64) (.var 48) (.bin (.band .u64) (.un (.bnot .u64) (.var 49)) (.var 45))),
    .asg 58 (.bin (.bxor .u64) (.var 58) (.var 23)),
    .asg 24 (.bin (.bxor .u64) (.var 49) (.bin (.band .u64) (.un (.bnot .u64) (.var 45)) (.var 46))),
    .asg 59 (.bin (.bxor .u64) (.var 59) (.var 24)),
    .asg 67 (.bin (.bxor .u64) (.var 67) (.var 62)),
    .asg 50 (.bin (.bxor .u64) (.bin (.shl .u64) (.var 67) (.lit 62)) (.bin (.shr .u64) (.var 67) (.lit 2))),
    .asg 73 (.bin (.bxor .u64) (.var 73) (.var 63)),
    .asg 51 (.bin (.bxor .u64) (.bin (.shl .u64) (.var 73) (.lit 55)) (.bin (.shr .u64) (.var 73) (.lit 9))),
    .asg 79 (.bin (.bxor .u64) (.var 79) (.var 64)),
    .asg 52 (.bin (.bxor .u64) (.bin (.shl .u64) (.var 79) (.lit 39)) (.bin (.shr .u64) (.var 79) (.lit 25))),
    .asg 80 (.bin (.bxor .u64) (.var 80) (.var 60)),
    .asg 53 (.bin (.bxor .u64) (.bin (.shl .u64) (.var 80) (.lit 41)) (.bin (.shr .u64) (.var 80) (.lit 23))),
    .asg 86 (.bin (.bxor .u64) (.var 86) (.var 61)),
    .asg 54 (.bin (.bxor .u64) (.bin (.shl .u64) (.var 86) (.lit 2)) (.bin (.shr .u64) (.var 86) (.lit 62))),
    .asg 25 (.bin (.bxor .u64) (.var 50) (.bin (.band .u64) (.un (.bnot .u64) (.var 51)) (.var 52))),
    .asg 55 (.bin (.bxor .u64) (.var 55) (.var 25)),
    .asg 26 (.bin (.bxor .u64) (.var 51) (.bin (.band .u64) (.un (.bnot .u64) (.var 52)) (.var 53))),
    .asg 56 (.bin (.bxor .u64) (.var 56) (.var 26)),
    .asg 27 (.bin (.bxor .u64) (.var 52) (.bin (.band .u64) (.un (.bnot .u64) (.var 53)) (.var 54))),
    .asg 57 (.bin (.bxor .u64) (.var 57) (.var 27)),
    .asg 28 (.bin (.bxor .u64) (.var 53) (.bin (.band .u64) (.un (.bnot .u64) (.var 54)) (.var 50))),
    .asg 58 (.bin (.bxor .u64) (.var 58) (.var 28))]

/-- part of `KeccakF1600_FastLoop_Absorb` -/
def KeccakF1600_FastLoop_Absorb.part18 : Stmt :=
  block [
    .asg 29 (.bin (.bxor .u64) (.var 54) (.bin (.band .u64) (.un (.bnot .u64) (.var 50)) (.var 51))),
    .asg 59 (.bin (.bxor .u64) (.var 59) (.var 29)),
    .asg 60 (.bin (.bxor .u64) (.var 59) (.bin (.bxor .u64) (.bin (.shl .u64) (.var 56) (.lit 1)) (.bin (.shr .u64)
      (.var 56) (.lit 63)))),
    .asg 61 (.bin (.bxor .u64) (.var 55) (.bin (.bxor .u64) (.bin (.shl .u64) (.var 57) (.lit 1)) (.bin (.shr .u64)
      (.var 57) (.lit 63)))),
    .asg 62 (.bin (.bxor .u64) (.var 56) (.bin (.bxor .u64) (.bin (.shl .u64) (.var 58) (.lit 1)) (.bin (.shr .u64)
      (.var 58) (.lit 63)))),
    .asg 63 (.bin (.bxor .u64) (.var 57) (.bin (.bxor .u64) (.bin (.shl .u64) (.var 59) (.lit 1)) (.bin (.shr .u64)
      (.var 59) (.lit 63)))),
    .asg 64 (.bin (.bxor .u64) (.var 58) (.bin (.bxor .u64) (.bin (.shl .u64) (.var 55) (.lit 1)) (.bin (.shr .u64)
      (.var 55) (.lit 63)))),
    .asg 5 (.bin (.bxor .u64) (.var 5) (.var 60)),
    .asg 30 (.var 5),
    .asg 11 (.bin (.bxor .u64) (.var 11) (.var 61)),
    .asg 31 (.bin (.bxor .u64) (.bin (.shl .u64) (.var 11) (.lit 44)) (.bin (.shr .u64) (.var 11) (.lit 20))),
    .asg 17 (.bin (.bxor .u64) (.var 17) (.var 62)),
    .asg 32 (.bin (.bxor .u64) (.bin (.shl .u64) (.var 17) (.lit 43)) (.bin (.shr .u64) (.var 17) (.lit 21))),
    .asg 23 (.bin (.bxor .u64) (.var 23) (.var 63)),
    .asg 33 (.bin (.bxor .u64) (.bin (.shl .u64) (.var 23) (.lit 21)) (.bin (.shr .u64) (.var 23) (.lit 43))),
    .asg 29 (.bin (.bxor .u64) (.var 29) (.var 64)),
    .asg 34 (.bin (.bxor .u64) (.bin (.shl .u64) (.var 29) (.lit 14)) (.bin (.shr .u64) (.var 29) (.lit 50))),
    .asg 65 (.bin (.bxor .u64) (.var 30) (.bin (.band .u64) (.un (.bnot .u64) (.var 31)) (.var 32))),
    .asg 65 (.bin (.bxor .u64) (.var 65) (.ld 8 (.padd (.glob 0) (.lit 6) 8))),
    .asg 55 (.var 65),
    .asg 66 (.bin (.bxor .u64) (.var 31) (.bin (.band .u64) (.un (.bnot .u64) (.var 32)) (.var 33))),
    .asg 56 (.var 66),
    .asg 67 (.bin (.bxor .u64) (.var 32) (.bin (.band .u64) (.un (.bnot .u64) (.var 33)) (.var 34))),
    .asg 57 (.var 67),
    .asg 68 (.bin (.bxor .u64) (.var 33) (.bin (.band .u64) (.un (.bnot .u64) (.var 34)) (.var 30))),
    .asg 58 (.var 68),
    .asg 69 (.bin (.bxor .u64) (.var 34) (.bin (.band .u64) (.un (.bnot .u64) (.var 30)) (.var 31))),
    .asg 59 (.var 69),
    .asg 8 (.bin (.bxor .u64) (.var 8) (.var 63)),
    .asg 35 (.bin (.bxor .u64) (.bin (.shl .u64) (.var 8) (.lit 28)) (.bin (.shr .u64) (.var 8) (.lit 36))),
    .asg 14 (.bin (.bxor .u64) (.var 14) (.var 64)),
    .asg 36 (.bin (.bxor .u64) (.bin (.shl .u64) (.var 14) (.lit 20)) (.bin (.shr .u64) (.var 14) (.lit 44))),
    .asg 15 (.bin (.bxor .u64) (.var 15) (.var 60)),
    .asg 37 (.bin (.bxor .u64) (.bin (.shl .u64) (.var 15) (.lit 3)) (.bin (.shr .u64) (.var 15) (.lit 61))),
    .asg 21 (.bin (.bxor .u64) (.var 21) (.var 61)),
    .asg 38 (.bin (.bxor .u64) (.bin (.shl .u64) (.var 21) (.lit 45)) (.bin (.shr .u64) (.var 21) (.lit 19))),
    .asg 27 (.bin (.bxor .u64) (.var 27) (.var 62)),
    .asg 39 (.bin (.bxor .u64) (.bin (.shl .u64) (.var 27) (.lit 61)) (.bin (.shr .u64) (.var 27) (.lit 3))),
    .asg 70 (.bin (.bxor .u64) (.var 35) (.bin (.band .u64) (.un (.bnot .u64) (.var 36)) (.var 37))),
    .asg 55 (.bin (.bxor .u64) (.var 55) (.var 70))]

/-- part of `KeccakF1600_FastLoop_Absorb` -/
def KeccakF1600_FastLoop_Absorb.part19 : Stmt :=
  block [
    .asg 71 (.bin (.bxor .u64) (.var 36) (.bin (.band .u64) (.un (.bnot .u64) (.var 37)) (.var 38))),
    .asg 56 (.bin (.bxor .u64) (.var 56) (.var 71)),
    .asg 72 (.bin (.bxor .u64) (.var 37) (.bin (.band .u64) (.un (.bnot .u64) (.var 38)) (.var 39))),
    .asg 57 (.bin (.bxor .u64) (.var 57) (.var 72)),
    .asg 73 (.bin (.bxor .u64) (.var 38) (.bin (.band .u64) (.un (.bnot .u64) (.var 39)) (.var 35))),
    .asg 58 (.bin (.bxor .u64) (.var 58) (.var 73)),
    .asg 74 (.bin (.bxor .u64) (.var 39) (.bin (.band .u64) (.un (.bnot .u64) (.var 35)) (.var 36))),
    .asg 59 (.bin (.bxor .u64) (.var 59) (.var 74)),
    .asg 6 (.bin (.bxor .u64) (.var 6) (.var 61)),
    .asg 40 (.bin (.bxor .u64) (.bin (.shl .u64) (.var 6) (.lit 1)) (.bin (.shr .u64) (.var 6) (.lit 63))),
    .asg 12 (.bin (.bxor .u64) (.var 12) (.var 62)),
    .asg 41 (.bin (.bxor .u64) (.bin (.shl .u64) (.var 12) (.lit 6)) (.bin (.shr .u64) (.var 12) (.lit 58))),
    .asg 18 (.bin (.bxor .u64) (.var 18) (.var 63)),
    .asg 42 (.bin (.bxor .u64) (.bin (.shl .u64) (.var 18) (.lit 25)) (.bin (.shr .u64) (.var 18) (.lit 39))),
    .asg 24 (.bin (.bxor .u64) (.var 24) (.var 64)),
    .asg 43 (.bin (.bxor .u64) (.bin (.shl .u64) (.var 24) (.lit 8)) (.bin (.shr .u64) (.var 24) (.lit 56))),
    .asg 25 (.bin (.bxor .u64) (.var 25) (.var 60)),
    .asg 44 (.bin (.bxor .u64) (.bin (.shl .u64) (.var 25) (.lit 18)) (.bin (.shr .u64) (.var 25) (.lit 46))),
    .asg 75 (.bin (.bxor .u64) (.var 40) (.bin (.band .u64) (.un (.bnot .u64) (.var 41)) (.var 42))),
    .asg 55 (.bin (.bxor .u64) (.var 55) (.var 75)),
    .asg 76 (.bin (.bxor .u64) (.var 41) (.bin (.band .u64) (.un (.bnot .u64) (.var 42)) (.var 43))),
    .asg 56 (.bin (.bxor .u64) (.var 56) (.var 76)),
    .asg 77 (.bin (.bxor .u64) (.var 42) (.bin (.band .u64) (.un (.bnot .u64) (.var 43)) (.var 44))),
    .asg 57 (.bin (.bxor .u64) (.var 57) (.var 77)),
    .asg 78 (.bin (.bxor .u64) (.var 43) (.bin (.band .u64) (.un (.bnot .u64) (.var 44)) (.var 40))),
    .asg 58 (.bin (.bxor .u64) (.var 58) (.var 78)),
    .asg 79 (.bin (.bxor .u64) (.var 44) (.bin (.band .u64) (.un (.bnot .u64) (.var 40)) (.var 41))),
    .asg 59 (.bin (.bxor .u64) (.var 59) (.var 79)),
    .asg 9 (.bin (.bxor .u64) (.var 9) (.var 64)),
    .asg 45 (.bin (.bxor .u64) (.bin (.shl .u64) (.var 9) (.lit 27)) (.bin (.shr .u64) (.var 9) (.lit 37))),
    .asg 10 (.bin (.bxor .u64) (.var 10) (.var 60)),
    .asg 46 (.bin (.bxor .u64) (.bin (.shl .u64) (.var 10) (.lit 36)) (.bin (.shr .u64) (.var 10) (.lit 28))),
    .asg 16 (.bin (.bxor .u64) (.var 16) (.var 61)),
    .asg 47 (.bin (.bxor .u64) (.bin (.shl .u64) (.var 16) (.lit 10)) (.bin (.shr .u64) (.var 16) (.lit 54))),
    .asg 22 (.bin (.bxor .u64) (.var 22) (.var 62)),
    .asg 48 (.bin (.bxor .u64) (.bin (.shl .u64) (.var 22) (.lit 15)) (.bin (.shr .u64) (.var 22) (.lit 49))),
    .asg 28 (.bin (.bxor .u64) (.var 28) (.var 63)),
    .asg 49 (.bin (.bxor .u64) (.bin (.shl .u64) (.var 28) (.lit 56)) (.bin (.shr .u64) (.var 28) (.lit 8))),
    .asg 80 (.bin (.bxor .u64) (.var 45) (.bin (.band .u64) (.un (.bnot .u64) (.var 46)) (.var 47))),
    .asg 55 (.bin (.bxor .u64) (.var 55) (.var 80))]

/-- part of `KeccakF1600_FastLoop_Absorb` -/
def KeccakF1600_FastLoop_Absorb.part20 : Stmt :=
  block [
    .asg 81 (.bin (.bxor .u64) (.var 46) (.bin (.band .u64) (.un (.bnot .u64) (.var 47)) (.var 48))),
    .asg 56 (.bin (.bxor .u64) (.var 56) (.var 81)),
    .asg 82 (.bin (.bxor .u64) (.var 47) (.bin (.band .u64) (.un (.bnot .u64) (.var 48)) (.var 49))),
    .asg 57 (.bin (.bxor .u64) (.var 57) (.var 82)),
    .asg 83 (.bin (.bxor .u64) (.var 48) (.bin (.band .u64) (.un (.bnot .u64) (.var 49)) (.var 45))),
    .asg 58 (.bin (.bxor .u64) (.var 58) (.var 83)),
    .asg 84 (.bin (.bxor .u64) (.var 49) (.bin (.band .u64) (.un (.bnot .u64) (.var 45)) (.var 46))),
    .asg 59 (.bin (.bxor .u64) (.var 59) (.var 84)),
    .asg 7 (.bin (.bxor .u64) (.var 7) (.var 62)),
    .asg 50 (.bin (.bxor .u64) (.bin (.shl .u64) (.var 7) (.lit 62)) (.bin (.shr .u64) (.var 7) (.lit 2))),
    .asg 13 (.bin (.bxor .u64) (.var 13) (.var 63)),
    .asg 51 (.bin (.bxor .u64) (.bin (.shl .u64) (.var 13) (.lit 55)) (.bin (.shr .u64) (.var 13) (.lit 9))),
    .asg 19 (.bin (.bxor .u64) (.var 19) (.var 64)),
    .asg 52 (.bin (.bxor .u64) (.bin (.shl .u64) (.var 19) (.lit 39)) (.bin (.shr .u64) (.var 19) (.lit 25))),
    .asg 20 (.bin (.bxor .u64) (.var 20) (.var 60)),
    .asg 53 (.bin (.bxor .u64) (.bin (.shl .u64) (.var 20) (.lit 41)) (.bin (.shr .u64) (.var 20) (.lit 23))),
    .asg 26 (.bin (.bxor .u64) (.var 26) (.var 61)),
    .asg 54 (.bin (.bxor .u64) (.bin (.shl .u64) (.var 26) (.lit 2)) (.bin (.shr .u64) (.var 26) (.lit 62))),
    .asg 85 (.bin (.bxor .u64) (.var 50) (.bin (.band .u64) (.un (.bnot .u64) (.var 51)) (.var 52))),
    .asg 55 (.bin (.bxor .u64) (.var 55) (.var 85)),
    .asg 86 (.bin (.bxor .u64) (.var 51) (.bin (.band .u64) (.un (.bnot .u64) (.var 52)) (.var 53))),
    .asg 56 (.bin (.bxor .u64) (.var 56) (.var 86)),
    .asg 87 (.bin (.bxor .u64) (.var 52) (.bin (.band .u64) (.un (.bnot .u64) (.var 53)) (.var 54))),
    .asg 57 (.bin (.bxor .u64) (.var 57) (.var 87)),
    .asg 88 (.bin (.bxor .u64) (.var 53) (.bin (.band .u64) (.un (.bnot .u64) (.var 54)) (.var 50))),
    .asg 58 (.bin (.bxor .u64) (.var 58) (.var 88)),
    .asg 89 (.bin (.bxor .u64) (.var 54) (.bin (.band .u64) (.un (.bnot .u64) (.var 50)) (.var 51))),
    .asg 59 (.bin (.bxor .u64) (.var 59) (.var 89)),
    .asg 60 (.bin (.bxor .u64) (.var 59) (.bin (.bxor .u64) (.bin (.shl .u64) (.var 56) (.lit 1)) (.bin (.shr .u64)
      (.var 56) (.lit 63)))),
    .asg 61 (.bin (.bxor .u64) (.var 55) (.bin (.bxor .u64) (.bin (.shl .u64) (.var 57) (.lit 1)) (.bin (.shr .u64)
      (.var 57) (.lit 63)))),
    .asg 62 (.bin (.bxor .u64) (.var 56) (.bin (.bxor .u64) (.bin (.shl .u64) (.var 58) (.lit 1)) (.bin (.shr .u64)
      (.var 58) (.lit 63)))),
    .asg 63 (.bin (.bxor .u64) (.var 57) (.bin (.bxor .u64) (.bin (.shl .u64) (.var 59) (.lit 1)) (.bin (.shr .u64)
      (.var 59) (.lit 63)))),
    .asg 64 (.bin (.bxor .u64) (.var 58) (.bin (.bxor .u64) (.bin (.shl .u64) (.var 55) (.lit 1)) (.bin (.shr .u64)
      (.var 55) (.lit 63)))),
    .asg 65 (.bin (.bxor .u64) (.var 65) (.var 60)),
    .asg 30 (.var 65),
    .asg 71 (.bin (.bxor .u64) (.var 71) (.var 61)),
    .asg 31 (.bin (.bxor .u64) (.bin (.shl .u64) (.var 71) (.lit 44)) (.bin (.shr .u64) (.var 71) (.lit 20))),
    .asg 77 (.bin (.bxor .u64) (.var 77) (.var 62)),
    .asg 32 (.bin (.bxor .u64) (.bin (.shl .u64) (.var 77) (.lit 43)) (.bin (.shr .u64) (.var 77) (.lit 21))),
    .asg 83 (.bin (.bxor .u64) (.var 83) (.var 63))]

/-- part of `KeccakF1600_FastLoop_Absorb` -/
def KeccakF1600_FastLoop_Absorb.part21 : Stmt :=
  block [
    .asg 33 (.bin (.bxor .u64) (.bin (.shl .u64) (.var 83) (.lit 21)) (.bin (.shr .u64) (.var 83) (.lit 43))),
    .asg 89 (.bin (.bxor .u64) (.var 89) (.var 64)),
    .asg 34 (.bin (.bxor .u64) (.bin (.shl .u64) (.var 89) (.lit 14)) (.bin (.shr .u64) (.var 89) (.lit 50))),
    .asg 5 (.bin (.bxor .u64) (.var 30) (.bin (.band .u64) (.un (.bnot .u64) (.var 31)) (.var 32))),
    .asg 5 (.bin (.bxor .u64) (.var 5) (.ld 8 (.padd (.glob 0) (.lit 7) 8))),
    .asg 55 (.var 5),
    .asg 6 (.bin (.bxor .u64) (.var 31) (.bin (.band .u64) (.un (.bnot .u64) (.var 32)) (.var 33))),
    .asg 56 (.var 6),
    .asg 7 (.bin (.bxor .u64) (.var 32) (.bin (.band .u64) (.un (.bnot .u64) (.var 33)) (.var 34))),
    .asg 57 (.var 7),
    .asg 8 (.bin (.bxor .u64) (.var 33) (.bin (.band .u64) (.un (.bnot .u64) (.var 34)) (.var 30))),
    .asg 58 (.var 8),
    .asg 9 (.bin (.bxor .u64) (.var 34) (.bin (.band .u64) (.un (.bnot .u64) (.var 30)) (.var 31))),
    .asg 59 (.var 9),
    .asg 68 (.bin (.bxor .u64) (.var 68) (.var 63)),
    .asg 35 (.bin (.bxor .u64) (.bin (.shl .u64) (.var 68) (.lit 28)) (.bin (.shr .u64) (.var 68) (.lit 36))),
    .asg 74 (.bin (.bxor .u64) (.var 74) (.var 64)),
    .asg 36 (.bin (.bxor .u64) (.bin (.shl .u64) (.var 74) (.lit 20)) (.bin (.shr .u64) (.var 74) (.lit 44))),
    .asg 75 (.bin (.bxor .u64) (.var 75) (.var 60)),
    .asg 37 (.bin (.bxor .u64) (.bin (.shl .u64) (.var 75) (.lit 3)) (.bin (.shr .u64) (.var 75) (.lit 61))),
    .asg 81 (.bin (.bxor .u64) (.var 81) (.var 61)),
    .asg 38 (.bin (.bxor .u64) (.bin (.shl .u64) (.var 81) (.lit 45)) (.bin (.shr .u64) (.var 81) (.lit 19))),
    .asg 87 (.bin (.bxor .u64) (.var 87) (.var 62)),
    .asg 39 (.bin (.bxor .u64) (.bin (.shl .u64) (.var 87) (.lit 61)) (.bin (.shr .u64) (.var 87) (.lit 3))),
    .asg 10 (.bin (.bxor .u64) (.var 35) (.bin (.band .u64) (.un (.bnot .u64) (.var 36)) (.var 37))),
    .asg 55 (.bin (.bxor .u64) (.var 55) (.var 10)),
    .asg 11 (.bin (.bxor .u64) (.var 36) (.bin (.band .u64) (.un (.bnot .u64) (.var 37)) (.var 38))),
    .asg 56 (.bin (.bxor .u64) (.var 56) (.var 11)),
    .asg 12 (.bin (.bxor .u64) (.var 37) (.bin (.band .u64) (.un (.bnot .u64) (.var 38)) (.var 39))),
    .asg 57 (.bin (.bxor .u64) (.var 57) (.var 12)),
    .asg 13 (.bin (.bxor .u64) (.var 38) (.bin (.band .u64) (.un (.bnot .u64) (.var 39)) (.var 35))),
    .asg 58 (.bin (.bxor .u64) (.var 58) (.var 13)),
    .asg 14 (.bin (.bxor .u64) (.var 39) (.bin (.band .u64) (.un (.bnot .u64) (.var 35)) (.var 36))),
    .asg 59 (.bin (.bxor .u64) (.var 59) (.var 14)),
    .asg 66 (.bin (.bxor .u64) (.var 66) (.var 61)),
    .asg 40 (.bin (.bxor .u64) (.bin (.shl .u64) (.var 66) (.lit 1)) (.bin (.shr .u64) (.var 66) (.lit 63))),
    .asg 72 (.bin (.bxor .u64) (.var 72) (.var 62)),
    .asg 41 (.bin (.bxor .u64) (.bin (.shl .u64) (.var 72) (.lit 6)) (.bin (.shr .u64) (.var 72) (.lit 58))),
    .asg 78 (.bin (.bxor .u64) (.var 78) (.var 63)),
    .asg 42 (.bin (.bxor .u64) (.bin (.shl .u64) (.var 78) (.lit 25)) (.bin (.shr .u64) (.var 78) (.lit 39)))]

/-- part of `KeccakF1600_FastLoop_Absorb` -/
def KeccakF1600_FastLoop_Absorb.part22 : Stmt :=
  block [
    .asg 84 (.bin (.bxor .u64) (.var 84) (.var 64)),
    .asg 43 (.bin (.bxor .u64) (.bin (.shl .u64) (.var 84) (.lit 8)) (.bin (.shr .u64) (.var 84) (.lit 56))),
    .asg 85 (.bin (.bxor .u64) (.var 85) (.var 60)),
    .asg 44 (.bin (.bxor .u64) (.bin (.shl .u64) (.var 85) (.lit 18)) (.bin (.shr .u64) (.var 85) (.lit 46))),
    .asg 15 (.bin (.bxor .u64) (.var 40) (.bin (.band .u64) (.un (.bnot .u64) (.var 41)) (.var 42))),
    .asg 55 (.bin (.bxor .u64) (.var 55) (.var 15)),
    .asg 16 (.bin (.bxor .u64) (.var 41) (.bin (.band .u64) (.un (.bnot .u64) (.var 42)) (.var 43))),
    .asg 56 (.bin (.bxor .u64) (.var 56) (.var 16)),
    .asg 17 (.bin (.bxor .u64) (.var 42) (.bin (.band .u64) (.un (.bnot .u64) (.var 43)) (.var 44))),
    .asg 57 (.bin (.bxor .u64) (.var 57) (.var 17)),
    .asg 18 (.bin (.bxor .u64) (.var 43) (.bin (.band .u64) (.un (.bnot .u64) (.var 44)) (.var 40))),
    .asg 58 (.bin (.bxor .u64) (.var 58) (.var 18)),
    .asg 19 (.bin (.bxor .u64) (.var 44) (.bin (.band .u64) (.un (.bnot .u64) (.var 40)) (.var 41))),
    .asg 59 (.bin (.bxor .u64) (.var 59) (.var 19)),
    .asg 69 (.bin (.bxor .u64) (.var 69) (.var 64)),
    .asg 45 (.bin (.bxor .u64) (.bin (.shl .u64) (.var 69) (.lit 27)) (.bin (.shr .u64) (.var 69) (.lit 37))),
    .asg 70 (.bin (.bxor .u64) (.var 70) (.var 60)),
    .asg 46 (.bin (.bxor .u64) (.bin (.shl .u64) (.var 70) (.lit 36)) (.bin (.shr .u64) (.var 70) (.lit 28))),
    .asg 76 (.bin (.bxor .u64) (.var 76) (.var 61)),
    .asg 47 (.bin (.bxor .u64) (.bin (.shl .u64) (.var 76) (.lit 10)) (.bin (.shr .u64) (.var 76) (.lit 54))),
    .asg 82 (.bin (.bxor .u64) (.var 82) (.var 62)),
    .asg 48 (.bin (.bxor .u64) (.bin (.shl .u64) (.var 82) (.lit 15)) (.bin (.shr .u64) (.var 82) (.lit 49))),
    .asg 88 (.bin (.bxor .u64) (.var 88) (.var 63)),
    .asg 49 (.bin (.bxor .u64) (.bin (.shl .u64) (.var 88) (.lit 56)) (.bin (.shr .u64) (.var 88) (.lit 8))),
    .asg 20 (.bin (.bxor .u64) (.var 45) (.bin (.band .u64) (.un (.bnot .u64) (.var 46)) (.var 47))),
    .asg 55 (.bin (.bxor .u64) (.var 55) (.var 20)),
    .asg 21 (.bin (.bxor .u64) (.var 46) (.bin (.band .u64) (.un (.bnot .u64) (.var 47)) (.var 48))),
    .asg 56 (.bin (.bxor .u64) (.var 56) (.var 21)),
    .asg 22 (.bin (.bxor .u64) (.var 47) (.bin (.band .u64) (.un (.bnot .u64) (.var 48)) (.var 49))),
    .asg 57 (.bin (.bxor .u64) (.var 57) (.var 22)),
    .asg 23 (.bin (.bxor .u64) (.var 48) (.bin (.band .u64) (.un (.bnot .u64) (.var 49)) (.var 45))),
    .asg 58 (.bin (.bxor .u64) (.var 58) (.var 23)),
    .asg 24 (.bin (.bxor .u64) (.var 49) (.bin (.band .u64) (.un (.bnot .u64) (.var 45)) (.var 46))),
    .asg 59 (.bin (.bxor .u64) (.var 59) (.var 24)),
    .asg 67 (.bin (.bxor .u64) (.var 67) (.var 62)),
    .asg 50 (.bin (.bxor .u64) (.bin (.shl .u64) (.var 67) (.lit 62)) (.bin (.shr .u64) (.var 67) (.lit 2))),
    .asg 73 (.bin (.bxor .u64) (.var 73) (.var 63)),
    .asg 51 (.bin (.bxor .u64) (.bin (.shl .u64) (.var 73) (.lit 55)) (.bin (.shr .u64) (.var 73) (.lit 9))),
    .asg 79 (.bin (.bxor .u64) (.var 79) (.var 64)),
    .asg 52 (.bin (.bxor .u64) (.bin (.shl .u64) (.var 79) (.lit 39)) (.bin (.shr .u64) (.var 79) (.lit 25)))]

/-- part of `KeccakF1600_FastLoop_Absorb` -/
def KeccakF1600_FastLoop_Absorb.part23 : Stmt :=
  block [
    .asg 80 (.bin (.bxor .u64) (.var 80) (.var 60)),
    .asg 53 (.bin (.bxor .u64) (.bin (.shl .u64) (.var 80) (.lit 41)) (.bin (.shr .u64) (.var 80) (.lit 23))),
    .asg 86 (.bin (.bxor .u64) (.var 86) (.var 61)),
    .asg 54 (.bin (.bxor .u64) (.bin (.shl .u64) (.var 86) (.lit 2)) (.bin (.shr .u64) (.var 86) (.lit 62))),
    .asg 25 (.bin (.bxor .u64) (.var 50) (.bin (.band .u64) (.un (.bnot .u64) (.var 51)) (.var 52))),
    .asg 55 (.bin (.bxor .u64) (.var 55) (.var 25)),
    .asg 26 (.bin (.bxor .u64) (.var 51) (.bin (.band .u64) (.un (.bnot .u64) (.var 52)) (.var 53))),
    .asg 56 (.bin (.bxor .u64) (.var 56) (.var 26)),
    .asg 27 (.bin (.bxor .u64) (.var 52) (.bin (.band .u64) (.un (.bnot .u64) (.var 53)) (.var 54))),
    .asg 57 (.bin (.bxor .u64) (.var 57) (.var 27)),
    .asg 28 (.bin (.bxor .u64) (.var 53) (.bin (.band .u64) (.un (.bnot .u64) (.var 54)) (.var 50))),
    .asg 58 (.bin (.bxor .u64) (.var 58) (.var 28)),
    .asg 29 (.bin (.bxor .u64) (.var 54) (.bin (.band .u64) (.un (.bnot .u64) (.var 50)) (.var 51))),
    .asg 59 (.bin (.bxor .u64) (.var 59) (.var 29)),
    .asg 60 (.bin (.bxor .u64) (.var 59) (.bin (.bxor .u64) (.bin (.shl .u64) (.var 56) (.lit 1)) (.bin (.shr .u64)
      (.var 56) (.lit 63)))),
    .asg 61 (.bin (.bxor .u64) (.var 55) (.bin (.bxor .u64) (.bin (.shl .u64) (.var 57) (.lit 1)) (.bin (.shr .u64)
      (.var 57) (.lit 63)))),
    .asg 62 (.bin (.bxor .u64) (.var 56) (.bin (.bxor .u64) (.bin (.shl .u64) (.var 58) (.lit 1)) (.bin (.shr .u64)
      (.var 58) (.lit 63)))),
    .asg 63 (.bin (.bxor .u64) (.var 57) (.bin (.bxor .u64) (.bin (.shl .u64) (.var 59) (.lit 1)) (.bin (.shr .u64)
      (.var 59) (.lit 63)))),
    .asg 64 (.bin (.bxor .u64) (.var 58) (.bin (.bxor .u64) (.bin (.shl .u64) (.var 55) (.lit 1)) (.bin (.shr .u64)
      (.var 55) (.lit 63)))),
    .asg 5 (.bin (.bxor .u64) (.var 5) (.var 60)),
    .asg 30 (.var 5),
    .asg 11 (.bin (.bxor .u64) (.var 11) (.var 61)),
    .asg 31 (.bin (.bxor .u64) (.bin (.shl .u64) (.var 11) (.lit 44)) (.bin (.shr .u64) (.var 11) (.lit 20))),
    .asg 17 (.bin (.bxor .u64) (.var 17) (.var 62)),
    .asg 32 (.bin (.bxor .u64) (.bin (.shl .u64) (.var 17) (.lit 43)) (.bin (.shr .u64) (.var 17) (.lit 21))),
    .asg 23 (.bin (.bxor .u64) (.var 23) (.var 63)),
    .asg 33 (.bin (.bxor .u64) (.bin (.shl .u64) (.var 23) (.lit 21)) (.bin (.shr .u64) (.var 23) (.lit 43))),
    .asg 29 (.bin (.bxor .u64) (.var 29) (.var 64)),
    .asg 34 (.bin (.bxor .u64) (.bin (.shl .u64) (.var 29) (.lit 14)) (.bin (.shr .u64) (.var 29) (.lit 50))),
    .asg 65 (.bin (.bxor .u64) (.var 30) (.bin (.band .u64) (.un (.bnot .u64) (.var 31)) (.var 32))),
    .asg 65 (.bin (.bxor .u64) (.var 65) (.ld 8 (.padd (.glob 0) (.lit 8) 8))),
    .asg 55 (.var 65),
    .asg 66 (.bin (.bxor .u64) (.var 31) (.bin (.band .u64) (.un (.bnot .u64) (.var 32)) (.var 33))),
    .asg 56 (.var 66),
    .asg 67 (.bin (.bxor .u64) (.var 32) (.bin (.band .u64) (.un (.bnot .u64) (.var 33)) (.var 34))),
    .asg 57 (.var 67),
    .asg 68 (.bin (.bxor .u64) (.var 33) (.bin (.band .u64) (.un (.bnot .u64) (.var 34)) (.var 30))),
    .asg 58 (.var 68),
    .asg 69 (.bin (.bxor .u64) (.var 34) (.bin (.band .u64) (.un (.bnot .u64) (.var 30)) (.var 31))),
    .asg 59 (.var 69)]

/-- part of `KeccakF1600_FastLoop_Absorb` -/
def KeccakF1600_FastLoop_Absorb.part24 : Stmt :=
  block [
    .asg 8 (.bin (.bxor .u64) (.var 8) (.var 63)),
    .asg 35 (.bin (.bxor .u64) (.bin (.shl .u64) (.var 8) (.lit 28)) (.bin (.shr .u64) (.var 8) (.lit 36))),
    .asg 14 (.bin (.bxor .u64) (.var 14) (.var 64)),
    .asg 36 (.bin (.bxor .u64) (.bin (.shl .u64) (.var 14) (.lit 20)) (.bin (.shr .u64) (.var 14) (.lit 44))),
    .asg 15 (.bin (.bxor .u64) (.var 15) (.var 60)),
    .asg 37 (.bin (.bxor .u64) (.bin (.shl .u64) (.var 15) (.lit 3)) (.bin (.shr .u64) (.var 15) (.lit 61))),
    .asg 21 (.bin (.bxor .u64) (.var 21) (.var 61)),
    .asg 38 (.bin (.bxor .u64) (.bin (.shl .u64) (.var 21) (.lit 45)) (.bin (.shr .u64) (.var 21) (.lit 19))),
    .asg 27 (.bin (.bxor .u64) (.var 27) (.var 62)),
    .asg 39 (.bin (.bxor .u64) (.bin (.shl .u64) (.var 27) (.lit 61)) (.bin (.shr .u64) (.var 27) (.lit 3))),
    .asg 70 (.bin (.bxor .u64) (.var 35) (.bin (.band .u64) (.un (.bnot .u64) (.var 36)) (.var 37))),
    .asg 55 (.bin (.bxor .u64) (.var 55) (.var 70)),
    .asg 71 (.bin (.bxor .u64) (.var 36) (.bin (.band .u64) (.un (.bnot .u64) (.var 37)) (.var 38))),
    .asg 56 (.bin (.bxor .u64) (.var 56) (.var 71)),
    .asg 72 (.bin (.bxor .u64) (.var 37) (.bin (.band .u64) (.un (.bnot .u64) (.var 38)) (.var 39))),
    .asg 57 (.bin (.bxor .u64) (.var 57) (.var 72)),
    .asg 73 (.bin (.bxor .u64) (.var 38) (.bin (.band .u64) (.un (.bnot .u64) (.var 39)) (.var 35))),
    .asg 58 (.bin (.bxor .u64) (.var 58) (.var 73)),
    .asg 74 (.bin (.bxor .u64) (.var 39) (.bin (.band .u64) (.un (.bnot .u64) (.var 35)) (.var 36))),
    .asg 59 (.bin (.bxor .u64) (.var 59) (.var 74)),
    .asg 6 (.bin (.bxor .u64) (.var 6) (.var 61)),
    .asg 40 (.bin (.bxor .u64) (.bin (.shl .u64) (.var 6) (.lit 1)) (.bin (.shr .u64) (.var 6) (.lit 63))),
    .asg 12 (.bin (.bxor .u64) (.var 12) (.var 62)),
    .asg 41 (.bin (.bxor .u64) (.bin (.shl .u64) (.var 12) (.lit 6)) (.bin (.shr .u64) (.var 12) (.lit 58))),
    .asg 18 (.bin (.bxor .u64) (.var 18) (.var 63)),
    .asg 42 (.bin (.bxor .u64) (.bin (.shl .u64) (.var 18) (.lit 25)) (.bin (.shr .u64) (.var 18) (.lit 39))),
    .asg 24 (.bin (.bxor .u64) (.var 24) (.var 64)),
    .asg 43 (.bin (.bxor .u64) (.bin (.shl .u64) (.var 24) (.lit 8)) (.bin (.shr .u64) (.var 24) (.lit 56))),
    .asg 25 (.bin (.bxor .u64) (.var 25) (.var 60)),
    .asg 44 (.bin (.bxor .u64) (.bin (.shl .u64) (.var 25) (.lit 18)) (.bin (.shr .u64) (.var 25) (.lit 46))),
    .asg 75 (.bin (.bxor .u64) (.var 40) (.bin (.band .u64) (.un (.bnot .u64) (.var 41)) (.var 42))),
    .asg 55 (.bin (.bxor .u64) (.var 55) (.var 75)),
    .asg 76 (.bin (.bxor .u64) (.var 41) (.bin (.band .u64) (.un (.bnot .u64) (.var 42)) (.var 43))),
    .asg 56 (.bin (.bxor .u64) (.var 56) (.var 76)),
    .asg 77 (.bin (.bxor .u64) (.var 42) (.bin (.band .u64) (.un (.bnot .u64) (.var 43)) (.var 44))),
    .asg 57 (.bin (.bxor .u64) (.var 57) (.var 77)),
    .asg 78 (.bin (.bxor .u64) (.var 43) (.bin (.band .u64) (.un (.bnot .u64) (.var 44)) (.var 40))),
    .asg 58 (.bin (.bxor .u64) (.var 58) (.var 78)),
    .asg 79 (.bin (.bxor .u64) (.var 44) (.bin (.band .u64) (.un (.bnot .u64) (.var 40)) (.var 41))),
    .asg 59 (.bin (.bxor .u64) (.var 59) (.var 79))]

/-- part of `KeccakF1600_FastLoop_Absorb` -/
def KeccakF1600_FastLoop_Absorb.part25 : Stmt :=
  block [
    .asg 9 (.bin (.bxor .u64) (.var 9) (.var 64)),
    .asg 45 (.bin (.bxor .u64) (.bin (.shl .u64) (.var 9) (.lit 27)) (.bin (.shr .u64) (.var 9) (.lit 37))),
    .asg 10 (.bin (.bxor .u64) (.var 10) (.var 60)),
    .asg 46 (.bin (.bxor .u64) (.bin (.shl .u64) (.var 10) (.lit 36)) (.bin (.shr .u64) (.var 10) (.lit 28))),
    .asg 16 (.bin (.bxor .u64) (.var 16) (.var 61)),
    .asg 47 (.bin (.bxor .u64) (.bin (.shl .u64) (.var 16) (.lit 10)) (.bin (.shr .u64) (.var 16) (.lit 54))),
    .asg 22 (.bin (.bxor .u64) (.var 22) (.var 62)),
    .asg 48 (.bin (.bxor .u64) (.bin (.shl .u64) (.var 22) (.lit 15)) (.bin (.shr .u64) (.var 22) (.lit 49))),
    .asg 28 (.bin (.bxor .u64) (.var 28) (.var 63)),
    .asg 49 (.bin (.bxor .u64) (.bin (.shl .u64) (.var 28) (.lit 56)) (.bin (.shr .u64) (.var 28) (.lit 8))),
    .asg 80 (.bin (.bxor .u64) (.var 45) (.bin (.band .u64) (.un (.bnot .u64) (.var 46)) (.var 47))),
    .asg 55 (.bin (.bxor .u64) (.var 55) (.var 80)),
    .asg 81 (.bin (.bxor .u64) (.var 46) (.bin (.band .u64) (.un (.bnot .u64) (.var 47)) (.var 48))),
    .asg 56 (.bin (.bxor .u64) (.var 56) (.var 81)),
    .asg 82 (.bin (.bxor .u64) (.var 47) (.bin (.band .u64) (.un (.bnot .u64) (.var 48)) (.var 49))),
    .asg 57 (.bin (.bxor .u64) (.var 57) (.var 82)),
    .asg 83 (.bin (.bxor .u64) (.var 48) (.bin (.band .u64) (.un (.bnot .u64) (.var 49)) (.var 45))),
    .asg 58 (.bin (.bxor .u64) (.var 58) (.var 83)),
    .asg 84 (.bin (.bxor .u64) (.var 49) (.bin (.band .u64) (.un (.bnot .u64) (.var 45)) (.var 46))),
    .asg 59 (.bin (.bxor .u64) (.var 59) (.var 84)),
    .asg 7 (.bin (.bxor .u64) (.var 7) (.var 62)),
    .asg 50 (.bin (.bxor .u64) (.bin (.shl .u64) (.var 7) (.lit 62)) (.bin (.shr .u64) (.var 7) (.lit 2))),
    .asg 13 (.bin (.bxor .u64) (.var 13) (.var 63)),
    .asg 51 (.bin (.bxor .u64) (.bin (.shl .u64) (.var 13) (.lit 55)) (.bin (.shr .u64) (.var 13) (.lit 9))),
    .asg 19 (.bin (.bxor .u64) (.var 19) (.var 64)),
    .asg 52 (.bin (.bxor .u64) (.bin (.shl .u64) (.var 19) (.lit 39)) (.bin (.shr .u64) (.var 19) (.lit 25))),
    .asg 20 (.bin (.bxor .u64) (.var 20) (.var 60)),
    .asg 53 (.bin (.bxor .u64) (.bin (.shl .u64) (.var 20) (.lit 41)) (.bin (.shr .u64) (.var 20) (.lit 23))),
    .asg 26 (.bin (.bxor .u64) (.var 26) (.var 61)),
    .asg 54 (.bin (.bxor .u64) (.bin (.shl .u64) (.var 26) (.lit 2)) (.bin (.shr .u64) (.var 26) (.lit 62))),
    .asg 85 (.bin (.bxor .u64) (.var 50) (.bin (.band .u64) (.un (.bnot .u64) (.var 51)) (.var 52))),
    .asg 55 (.bin (.bxor .u64) (.var 55) (.var 85)),
    .asg 86 (.bin (.bxor .u64) (.var 51) (.bin (.band .u64) (.un (.bnot .u64) (.var 52)) (.var 53))),
    .asg 56 (.bin (.bxor .u64) (.var 56) (.var 86)),
    .asg 87 (.bin (.bxor .u64) (.var 52) (.bin (.band .u64) (.un (.bnot .u64) (.var 53)) (.var 54))),
    .asg 57 (.bin (.bxor .u64) (.var 57) (.var 87)),
    .asg 88 (.bin (.bxor .u64) (.var 53) (.bin (.band .u64) (.un (.bnot .u64) (.var 54)) (.var 50))),
    .asg 58 (.bin (.bxor .u64) (.var 58) (.var 88)),
    .asg 89 (.bin (.bxor .u64) (.var 54) (.bin (.band .u64) (.un (.bnot .u64) (.var 50)) (.var 51))),
    .asg 59 (.bin (.bxor .u64) (.var 59) (.var 89))]

/-- part of `KeccakF1600_FastLoop_Absorb` -/
def KeccakF1600_FastLoop_Absorb.part26 : Stmt :=
  block [
    .asg 60 (.bin (.bxor .u64) (.var 59) (.bin (.bxor .u64) (.bin (.shl .u64) (.var 56) (.lit 1)) (.bin (.shr .u64)
      (.var 56) (.lit 63)))),
    .asg 61 (.bin (.bxor .u64) (.var 55) (.bin (.bxor .u64) (.bin (.shl .u64) (.var 57) (.lit 1)) (.bin (.shr .u64)
      (.var 57) (.lit 63)))),
    .asg 62 (.bin (.bxor .u64) (.var 56) (.bin (.bxor .u64) (.bin (.shl .u64) (.var 58) (.lit 1)) (.bin (.shr .u64)
      (.var 58) (.lit 63)))),
    .asg 63 (.bin (.bxor .u64) (.var 57) (.bin (.bxor .u64) (.bin (.shl .u64) (.var 59) (.lit 1)) (.bin (.shr .u64)
      (.var 59) (.lit 63)))),
    .asg 64 (.bin (.bxor .u64) (.var 58) (.bin (.bxor .u64) (.bin (.shl .u64) (.var 55) (.lit 1)) (.bin (.shr .u64)
      (.var 55) (.lit 63)))),
    .asg 65 (.bin (.bxor .u64) (.var 65) (.var 60)),
    .asg 30 (.var 65),
    .asg 71 (.bin (.bxor .u64) (.var 71) (.var 61)),
    .asg 31 (.bin (.bxor .u64) (.bin (.shl .u64) (.var 71) (.lit 44)) (.bin (.shr .u64) (.var 71) (.lit 20))),
    .asg 77 (.bin (.bxor .u64) (.var 77) (.var 62)),
    .asg 32 (.bin (.bxor .u64) (.bin (.shl .u64) (.var 77) (.lit 43)) (.bin (.shr .u64) (.var 77) (.lit 21))),
    .asg 83 (.bin (.bxor .u64) (.var 83) (.var 63)),
    .asg 33 (.bin (.bxor .u64) (.bin (.shl .u64) (.var 83) (.lit 21)) (.bin (.shr .u64) (.var 83) (.lit 43))),
    .asg 89 (.bin (.bxor .u64) (.var 89) (.var 64)),
    .asg 34 (.bin (.bxor .u64) (.bin (.shl .u64) (.var 89) (.lit 14)) (.bin (.shr .u64) (.var 89) (.lit 50))),
    .asg 5 (.bin (.bxor .u64) (.var 30) (.bin (.band .u64) (.un (.bnot .u64) (.var 31)) (.var 32))),
    .asg 5 (.bin (.bxor .u64) (.var 5) (.ld 8 (.padd (.glob 0) (.lit 9) 8))),
    .asg 55 (.var 5),
    .asg 6 (.bin (.bxor .u64) (.var 31) (.bin (.band .u64) (.un (.bnot .u64) (.var 32)) (.var 33))),
    .asg 56 (.var 6),
    .asg 7 (.bin (.bxor .u64) (.var 32) (.bin (.band .u64) (.un (.bnot .u64) (.var 33)) (.var 34))),
    .asg 57 (.var 7),
    .asg 8 (.bin (.bxor .u64) (.var 33) (.bin (.band .u64) (.un (.bnot .u64) (.var 34)) (.var 30))),
    .asg 58 (.var 8),
    .asg 9 (.bin (.bxor .u64) (.var 34) (.bin (.band .u64) (.un (.bnot .u64) (.var 30)) (.var 31))),
    .asg 59 (.var 9),
    .asg 68 (.bin (.bxor .u64) (.var 68) (.var 63)),
    .asg 35 (.bin (.bxor .u64) (.bin (.shl .u64) (.var 68) (.lit 28)) (.bin (.shr .u64) (.var 68) (.lit 36))),
    .asg 74 (.bin (.bxor .u64) (.var 74) (.var 64)),
    .asg 36 (.bin (.bxor .u64) (.bin (.shl .u64) (.var 74) (.lit 20)) (.bin (.shr .u64) (.var 74) (.lit 44))),
    .asg 75 (.bin (.bxor .u64) (.var 75) (.var 60)),
    .asg 37 (.bin (.bxor .u64) (.bin (.shl .u64) (.var 75) (.lit 3)) (.bin (.shr .u64) (.var 75) (.lit 61))),
    .asg 81 (.bin (.bxor .u64) (.var 81) (.var 61)),
    .asg 38 (.bin (.bxor .u64) (.bin (.shl .u64) (.var 81) (.lit 45)) (.bin (.shr .u64) (.var 81) (.lit 19))),
    .asg 87 (.bin (.bxor .u64) (.var 87) (.var 62)),
    .asg 39 (.bin (.bxor .u64) (.bin (.shl .u64) (.var 87) (.lit 61)) (.bin (.shr .u64) (.var 87) (.lit 3))),
    .asg 10 (.bin (.bxor .u64) (.var 35) (.bin (.band .u64) (.un (.bnot .u64) (.var 36)) (.var 37))),
    .asg 55 (.bin (.bxor .u64) (.var 55) (.var 10)),
    .asg 11 (.bin (.bxor .u64) (.var 36) (.bin (.band .u64) (.un (.bnot .u64) (.var 37)) (.var 38))),
    .asg 56 (.bin (.bxor .u64) (.var 56) (.var 11))]

/-- part of `KeccakF1600_FastLoop_Absorb` -/
def KeccakF1600_FastLoop_Absorb.part27 : Stmt :=
  block [
    .asg 12 (.bin (.bxor .u64) (.var 37) (.bin (.band .u64) (.un (.bnot .u64) (.var 38)) (.var 39))),
    .asg 57 (.bin (.bxor .u64) (.var 57) (.var 12)),
    .asg 13 (.bin (.bxor .u64) (.var 38) (.bin (.band .u64) (.un (.bnot .u64) (.var 39)) (.var 35))),
    .asg 58 (.bin (.bxor .u64) (.var 58) (.var 13)),
    .asg 14 (.bin (.bxor .u64) (.var 39) (.bin (.band .u64) (.un (.bnot .u64) (.var 35)) (.var 36))),
    .asg 59 (.bin (.bxor .u64) (.var 59) (.var 14)),
    .asg 66 (.bin (.bxor .u64) (.var 66) (.var 61)),
    .asg 40 (.bin (.bxor .u64) (.bin (.shl .u64) (.var 66) (.lit 1)) (.bin (.shr .u64) (.var 66) (.lit 63))),
    .asg 72 (.bin (.bxor .u64) (.var 72) (.var 62)),
    .asg 41 (.bin (.bxor .u64) (.bin (.shl .u64) (.var 72) (.lit 6)) (.bin (.shr .u64) (.var 72) (.lit 58))),
    .asg 78 (.bin (.bxor .u64) (.var 78) (.var 63)),
    .asg 42 (.bin (.bxor .u64) (.bin (.shl .u64) (.var 78) (.lit 25)) (.bin (.shr .u64) (.var 78) (.lit 39))),
    .asg 84 (.bin (.bxor .u64) (.var 84) (.var 64)),
    .asg 43 (.bin (.bxor .u64) (.bin (.shl .u64) (.var 84) (.lit 8)) (.bin (.shr .u64) (.var 84) (.lit 56))),
    .asg 85 (.bin (.bxor .u64) (.var 85) (.var 60)),
    .asg 44 (.bin (.bxor .u64) (.bin (.shl .u64) (.var 85) (.lit 18)) (.bin (.shr .u64) (.var 85) (.lit 46))),
    .asg 15 (.bin (.bxor .u64) (.var 40) (.bin (.band .u64) (.un (.bnot .u64) (.var 41)) (.var 42))),
    .asg 55 (.bin (.bxor .u64) (.var 55) (.var 15)),
    .asg 16 (.bin (.bxor .u64) (.var 41) (.bin (.band .u64) (.un (.bnot .u64) (.var 42)) (.var 43))),
    .asg 56 (.bin (.bxor .u64) (.var 56) (.var 16)),
    .asg 17 (.bin (.bxor .u64) (.var 42) (.bin (.band .u64) (.un (.bnot .u64) (.var 43)) (.var 44))),
    .asg 57 (.bin (.bxor .u64) (.var 57) (.var 17)),
    .asg 18 (.bin (.bxor .u64) (.var 43) (.bin (.band .u64) (.un (.bnot .u64) (.var 44)) (.var 40))),
    .asg 58 (.bin (.bxor .u64) (.var 58) (.var 18)),
    .asg 19 (.bin (.bxor .u64) (.var 44) (.bin (.band .u64) (.un (.bnot .u64) (.var 40)) (.var 41))),
    .asg 59 (.bin (.bxor .u64) (.var 59) (.var 19)),
    .asg 69 (.bin (.bxor .u64) (.var 69) (.var 64)),
    .asg 45 (.bin (.bxor .u64) (.bin (.shl .u64) (.var 69) (.lit 27)) (.bin (.shr .u64) (.var 69) (.lit 37))),
    .asg 70 (.bin (.bxor .u64) (.var 70) (.var 60)),
    .asg 46 (.bin (.bxor .u64) (.bin (.shl .u64) (.var 70) (.lit 36)) (.bin (.shr .u64) (.var 70) (.lit 28))),
    .asg 76 (.bin (.bxor .u64) (.var 76) (.var 61)),
    .asg 47 (.bin (.bxor .u64) (.bin (.shl .u64) (.var 76) (.lit 10)) (.bin (.shr .u64) (.var 76) (.lit 54))),
    .asg 82 (.bin (.bxor .u64) (.var 82) (.var 62)),
    .asg 48 (.bin (.bxor .u64) (.bin (.shl .u64) (.var 82) (.lit 15)) (.bin (.shr .u64) (.var 82) (.lit 49))),
    .asg 88 (.bin (.bxor .u64) (.var 88) (.var 63)),
    .asg 49 (.bin (.bxor .u64) (.bin (.shl .u64) (.var 88) (.lit 56)) (.bin (.shr .u64) (.var 88) (.lit 8))),
    .asg 20 (.bin (.bxor .u64) (.var 45) (.bin (.band .u64) (.un (.bnot .u64) (.var 46)) (.var 47))),
    .asg 55 (.bin (.bxor .u64) (.var 55) (.var 20)),
    .asg 21 (.bin (.bxor .u64) (.var 46) (.bin (.band .u64) (.un (.bnot .u64) (.var 47)) (.var 48))),
    .asg 56 (.bin (.bxor .u64) (.var 56) (.var 21))]

/-- part of `KeccakF1600_FastLoop_Absorb` -/
def KeccakF1600_FastLoop_Absorb.part28 : Stmt :=
  block [
    .asg 22 (.bin (.bxor .u64) (.var 47) (.bin (.band .u64) (.un (.bnot .u64) (.var 48)) (.var 49))),
    .asg 57 (.bin (.bxor .u64) (.var 57) (.var 22)),
    .asg 23 (.bin (.bxor .u64) (.var 48) (.bin (.band .u64) (.un (.bnot .u64) (.var 49)) (.var 45))),
    .asg 58 (.bin (.bxor .u64) (.var 58) (.var 23)),
    .asg 24 (.bin (.bxor .u64) (.var 49) (.bin (.band .u64) (.un (.bnot .u64) (.var 45)) (.var 46))),
    .asg 59 (.bin (.bxor .u64) (.var 59) (.var 24)),
    .asg 67 (.bin (.bxor .u64) (.var 67) (.var 62)),
    .asg 50 (.bin (.bxor .u64) (.bin (.shl .u64) (.var 67) (.lit 62)) (.bin (.shr .u64) (.var 67) (.lit 2))),
    .asg 73 (.bin (.bxor .u64) (.var 73) (.var 63)),
    .asg 51 (.bin (.bxor .u64) (.bin (.shl .u64) (.var 73) (.lit 55)) (.bin (.shr .u64) (.var 73) (.lit 9))),
    .asg 79 (.bin (.bxor .u64) (.var 79) (.var 64)),
    .asg 52 (.bin (.bxor .u64) (.bin (.shl .u64) (.var 79) (.lit 39)) (.bin (.shr .u64) (.var 79) (.lit 25))),
    .asg 80 (.bin (.bxor .u64) (.var 80) (.var 60)),
    .asg 53 (.bin (.bxor .u64) (.bin (.shl .u64) (.var 80) (.lit 41)) (.bin (.shr .u64) (.var 80) (.lit 23))),
    .asg 86 (.bin (.bxor .u64) (.var 86) (.var 61)),
    .asg 54 (.bin (.bxor .u64) (.bin (.shl .u64) (.var 86) (.lit 2)) (.bin (.shr .u64) (.var 86) (.lit 62))),
    .asg 25 (.bin (.bxor .u64) (.var 50) (.bin (.band .u64) (.un (.bnot .u64) (.var 51)) (.var 52))),
    .asg 55 (.bin (.bxor .u64) (.var 55) (.var 25)),
    .asg 26 (.bin (.bxor .u64) (.var 51) (.bin (.band .u64) (.un (.bnot .u64) (.var 52)) (.var 53))),
    .asg 56 (.bin (.bxor .u64) (.var 56) (.var 26)),
    .asg 27 (.bin (.bxor .u64) (.var 52) (.bin (.band .u64) (.un (.bnot .u64) (.var 53)) (.var 54))),
    .asg 57 (.bin (.bxor .u64) (.var 57) (.var 27)),
    .asg 28 (.bin (.bxor .u64) (.var 53) (.bin (.band .u64) (.un (.bnot .u64) (.var 54)) (.var 50))),
    .asg 58 (.bin (.bxor .u64) (.var 58) (.var 28)),
    .asg 29 (.bin (.bxor .u64) (.var 54) (.bin (.band .u64) (.un (.bnot .u64) (.var 50)) (.var 51))),
    .asg 59 (.bin (.bxor .u64) (.var 59) (.var 29)),
    .asg 60 (.bin (.bxor .u64) (.var 59) (.bin (.bxor .u64) (.bin (.shl .u64) (.var 56) (.lit 1)) (.bin (.shr .u64)
      (.var 56) (.lit 63)))),
    .asg 61 (.bin (.bxor .u64) (.var 55) (.bin (.bxor .u64) (.bin (.shl .u64) (.var 57) (.lit 1)) (.bin (.shr .u64)
      (.var 57) (.lit 63)))),
    .asg 62 (.bin (.bxor .u64) (.var 56) (.bin (.bxor .u64) (.bin (.shl .u64) (.var 58) (.lit 1)) (.bin (.shr .u64)
      (.var 58) (.lit 63)))),
    .asg 63 (.bin (.bxor .u64) (.var 57) (.bin (.bxor .u64) (.bin (.shl .u64) (.var 59) (.lit 1)) (.bin (.shr .u64)
      (.var 59) (.lit 63)))),
    .asg 64 (.bin (.bxor .u64) (.var 58) (.bin (.bxor .u64) (.bin (.shl .u64) (.var 55) (.lit 1)) (.bin (.shr .u64)
      (.var 55) (.lit 63)))),
    .asg 5 (.bin (.bxor .u64) (.var 5) (.var 60)),
    .asg 30 (.var 5),
    .asg 11 (.bin (.bxor .u64) (.var 11) (.var 61)),
    .asg 31 (.bin (.bxor .u64) (.bin (.shl .u64) (.var 11) (.lit 44)) (.bin (.shr .u64) (.var 11) (.lit 20))),
    .asg 17 (.bin (.bxor .u64) (.var 17) (.var 62)),
    .asg 32 (.bin (.bxor .u64) (.bin (.shl .u64) (.var 17) (.lit 43)) (.bin (.shr .u64) (.var 17) (.lit 21))),
    .asg 23 (.bin (.bxor .u64) (.var 23) (.var 63)),
    .asg 33 (.bin (.bxor .u64) (.bin (.shl .u64) (.var 23) (.lit 21)) (.bin (.shr .u64) (.var 23) (.lit 43))),
    .asg 29 (.bin (.bxor .u64) (.var 29) (.var 64))]

/-- part of `KeccakF1600_FastLoop_Absorb` -/
def KeccakF1600_FastLoop_Absorb.part29 : Stmt :=
  block [
    .asg 34 (.bin (.bxor .u64) (.bin (.shl .u64) (.var 29) (.lit 14)) (.bin (.shr .u64) (.var 29) (.lit 50))),
    .asg 65 (.bin (.bxor .u64) (.var 30) (.bin (.band .u64) (.un (.bnot .u64) (.var 31)) (.var 32))),
    .asg 65 (.bin (.bxor .u64) (.var 65) (.ld 8 (.padd (.glob 0) (.lit 10) 8))),
    .asg 55 (.var 65),
    .asg 66 (.bin (.bxor .u64) (.var 31) (.bin (.band .u64) (.un (.bnot .u64) (.var 32)) (.var 33))),
    .asg 56 (.var 66),
    .asg 67 (.bin (.bxor .u64) (.var 32) (.bin (.band .u64) (.un (.bnot .u64) (.var 33)) (.var 34))),
    .asg 57 (.var 67),
    .asg 68 (.bin (.bxor .u64) (.var 33) (.bin (.band .u64) (.un (.bnot .u64) (.var 34)) (.var 30))),
    .asg 58 (.var 68),
    .asg 69 (.bin (.bxor .u64) (.var 34) (.bin (.band .u64) (.un (.bnot .u64) (.var 30)) (.var 31))),
    .asg 59 (.var 69),
    .asg 8 (.bin (.bxor .u64) (.var 8) (.var 63)),
    .asg 35 (.bin (.bxor .u64) (.bin (.shl .u64) (.var 8) (.lit 28)) (.bin (.shr .u64) (.var 8) (.lit 36))),
    .asg 14 (.bin (.bxor .u64) (.var 14) (.var 64)),
    .asg 36 (.bin (.bxor .u64) (.bin (.shl .u64) (.var 14) (.lit 20)) (.bin (.shr .u64) (.var 14) (.lit 44))),
    .asg 15 (.bin (.bxor .u64) (.var 15) (.var 60)),
    .asg 37 (.bin (.bxor .u64) (.bin (.shl .u64) (.var 15) (.lit 3)) (.bin (.shr .u64) (.var 15) (.lit 61))),
    .asg 21 (.bin (.bxor .u64) (.var 21) (.var 61)),
    .asg 38 (.bin (.bxor .u64) (.bin (.shl .u64) (.var 21) (.lit 45)) (.bin (.shr .u64) (.var 21) (.lit 19))),
    .asg 27 (.bin (.bxor .u64) (.var 27) (.var 62)),
    .asg 39 (.bin (.bxor .u64) (.bin (.shl .u64) (.var 27) (.lit 61)) (.bin (.shr .u64) (.var 27) (.lit 3))),
    .asg 70 (.bin (.bxor .u64) (.var 35) (.bin (.band .u64) (.un (.bnot .u64) (.var 36)) (.var 37))),
    .asg 55 (.bin (.bxor .u64) (.var 55) (.var 70)),
    .asg 71 (.bin (.bxor .u64) (.var 36) (.bin (.band .u64) (.un (.bnot .u64) (.var 37)) (.var 38))),
    .asg 56 (.bin (.bxor .u64) (.var 56) (.var 71)),
    .asg 72 (.bin (.bxor .u64) (.var 37) (.bin (.band .u64) (.un (.bnot .u64) (.var 38)) (.var 39))),
    .asg 57 (.bin (.bxor .u64) (.var 57) (.var 72)),
    .asg 73 (.bin (.bxor .u64) (.var 38) (.bin (.band .u64) (.un (.bnot .u64) (.var 39)) (.var 35))),
    .asg 58 (.bin (.bxor .u64) (.var 58) (.var 73)),
    .asg 74 (.bin (.bxor .u64) (.var 39) (.bin (.band .u64) (.un (.bnot .u64) (.var 35)) (.var 36))),
    .asg 59 (.bin (.bxor .u64) (.var 59) (.var 74)),
    .asg 6 (.bin (.bxor .u64) (.var 6) (.var 61)),
    .asg 40 (.bin (.bxor .u64) (.bin (.shl .u64) (.var 6) (.lit 1)) (.bin (.shr .u64) (.var 6) (.lit 63))),
    .asg 12 (.bin (.bxor .u64) (.var 12) (.var 62)),
    .asg 41 (.bin (.bxor .u64) (.bin (.shl .u64) (.var 12) (.lit 6)) (.bin (.shr .u64) (.var 12) (.lit 58))),
    .asg 18 (.bin (.bxor .u64) (.var 18) (.var 63)),
    .asg 42 (.bin (.bxor .u64) (.bin (.shl .u64) (.var 18) (.lit 25)) (.bin (.shr .u64) (.var 18) (.lit 39))),
    .asg 24 (.bin (.bxor .u64) (.var 24) (.var 64)),
    .asg 43 (.bin (.bxor .u64) (.bin (.shl .u64) (.var 24) (.lit 8)) (.bin (.shr .u64) (.var 24) (.lit 56)))]

/-- part of `KeccakF1600_FastLoop_Absorb` -/
def KeccakF1600_FastLoop_Absorb.part30 : Stmt :=
  block [
    .asg 25 (.bin (.bxor .u64) (.var 25) (.var 60)),
    .asg 44 (.bin (.bxor .u64) (.bin (.shl .u64) (.var 25) (.lit 18)) (.bin (.shr .u64) (.var 25) (.lit 46))),
    .asg 75 (.bin (.bxor .u64) (.var 40) (.bin (.band .u64) (.un (.bnot .u64) (.var 41)) (.var 42))),
    .asg 55 (.bin (.bxor .u64) (.var 55) (.var 75)),
    .asg 76 (.bin (.bxor .u64) (.var 41) (.bin (.band .u64) (.un (.bnot .u64) (.var 42)) (.var 43))),
    .asg 56 (.bin (.bxor .u64) (.var 56) (.var 76)),
    .asg 77 (.bin (.bxor .u64) (.var 42) (.bin (.band .u64) (.un (.bnot .u64) (.var 43)) (.var 44))),
    .asg 57 (.bin (.bxor .u64) (.var 57) (.var 77)),
    .asg 78 (.bin (.bxor .u64) (.var 43) (.bin (.band .u64) (.un (.bnot .u64) (.var 44)) (.var 40))),
    .asg 58 (.bin (.bxor .u64) (.var 58) (.var 78)),
    .asg 79 (.bin (.bxor .u64) (.var 44) (.bin (.band .u64) (.un (.bnot .u64) (.var 40)) (.var 41))),
    .asg 59 (.bin (.bxor .u64) (.var 59) (.var 79)),
    .asg 9 (.bin (.bxor .u64) (.var 9) (.var 64)),
    .asg 45 (.bin (.bxor .u64) (.bin (.shl .u64) (.var 9) (.lit 27)) (.bin (.shr .u64) (.var 9) (.lit 37))),
    .asg 10 (.bin (.bxor .u64) (.var 10) (.var 60)),
    .asg 46 (.bin (.bxor .u64) (.bin (.shl .u64) (.var 10) (.lit 36)) (.bin (.shr .u64) (.var 10) (.lit 28))),
    .asg 16 (.bin (.bxor .u64) (.var 16) (.var 61)),
    .asg 47 (.bin (.bxor .u64) (.bin (.shl .u64) (.var 16) (.lit 10)) (.bin (.shr .u64) (.var 16) (.lit 54))),
    .asg 22 (.bin (.bxor .u64) (.var 22) (.var 62)),
    .asg 48 (.bin (.bxor .u64) (.bin (.shl .u64) (.var 22) (.lit 15)) (.bin (.shr .u64) (.var 22) (.lit 49))),
    .asg 28 (.bin (.bxor .u64) (.var 28) (.var 63)),
    .asg 49 (.bin (.bxor .u64) (.bin (.shl .u64) (.var 28) (.lit 56)) (.bin (.shr .u64) (.var 28) (.lit 8))),
    .asg 80 (.bin (.bxor .u64) (.var 45) (.bin (.band .u64) (.un (.bnot .u64) (.var 46)) (.var 47))),
    .asg 55 (.bin (.bxor .u64) (.var 55) (.var 80)),
    .asg 81 (.bin (.bxor .u64) (.var 46) (.bin (.band .u64) (.un (.bnot .u64) (.var 47)) (.var 48))),
    .asg 56 (.bin (.bxor .u64) (.var 56) (.var 81)),
    .asg 82 (.bin (.bxor .u64) (.var 47) (.bin (.band .u64) (.un (.bnot .u64) (.var 48)) (.var 49))),
    .asg 57 (.bin (.bxor .u64) (.var 57) (.var 82)),
    .asg 83 (.bin (.bxor .u64) (.var 48) (.bin (.band .u64) (.un (.bnot .u64) (.var 49)) (.var 45))),
    .asg 58 (.bin (.bxor .u64) (.var 58) (.var 83)),
    .asg 84 (.bin (.bxor .u64) (.var 49) (.bin (.band .u64) (.un (.bnot .u64) (.var 45)) (.var 46))),
    .asg 59 (.bin (.bxor .u64) (.var 59) (.var 84)),
    .asg 7 (.bin (.bxor .u64) (.var 7) (.var 62)),
    .asg 50 (.bin (.bxor .u64) (.bin (.shl .u64) (.var 7) (.lit 62)) (.bin (.shr .u64) (.var 7) (.lit 2))),
    .asg 13 (.bin (.bxor .u64) (.var 13) (.var 63)),
    .asg 51 (.bin (.bxor .u64) (.bin (.shl .u64) (.var 13) (.lit 55)) (.bin (.shr .u64) (.var 13) (.lit 9))),
    .asg 19 (.bin (.bxor .u64) (.var 19) (.var 64)),
    .asg 52 (.bin (.bxor .u64) (.bin (.shl .u64) (.var 19) (.lit 39)) (.bin (.shr .u64) (.var 19) (.lit 25))),
    .asg 20 (.bin (.bxor .u64) (.var 20) (.var 60)),
    .asg 53 (.bin (.bxor .u64) (.bin (.shl .u64) (.var 20) (.lit 41)) (.bin (.shr .u64) (.var 20) (.lit 23)))]

/-- part of `KeccakF1600_FastLoop_Absorb` -/
def KeccakF1600_FastLoop_Absorb.part31 : Stmt :=
  block [
    .asg 26 (.bin (.bxor .u64) (.var 26) (.var 61)),
    .asg 54 (.bin (.bxor .u64) (.bin (.shl .u64) (.var 26) (.lit 2)) (.bin (.shr .u64) (.var 26) (.lit 62))),
    .asg 85 (.bin (.bxor .u64) (.var 50) (.bin (.band .u64) (.un (.bnot .u64) (.var 51)) (.var 52))),
    .asg 55 (.bin (.bxor .u64) (.var 55) (.var 85)),
    .asg 86 (.bin (.bxor .u64) (.var 51) (.bin (.band .u64) (.un (.bnot .u64) (.var 52)) (.var 53))),
    .asg 56 (.bin (.bxor .u64) (.var 56) (.var 86)),
    .asg 87 (.bin (.bxor .u64) (.var 52) (.bin (.band .u64) (.un (.bnot .u64) (.var 53)) (.var 54))),
    .asg 57 (.bin (.bxor .u64) (.var 57) (.var 87)),
    .asg 88 (.bin (.bxor .u64) (.var 53) (.bin (.band .u64) (.un (.bnot .u64) (.var 54)) (.var 50))),
    .asg 58 (.bin (.bxor .u64) (.var 58) (.var 88)),
    .asg 89 (.bin (.bxor .u64) (.var 54) (.bin (.band .u64) (.un (.bnot .u64) (.var 50)) (.var 51))),
    .asg 59 (.bin (.bxor .u64) (.var 59) (.var 89)),
    .asg 60 (.bin (.bxor .u64) (.var 59) (.bin (.bxor .u64) (.bin (.shl .u64) (.var 56) (.lit 1)) (.bin (.shr .u64)
      (.var 56) (.lit 63)))),
    .asg 61 (.bin (.bxor .u64) (.var 55) (.bin (.bxor .u64) (.bin (.shl .u64) (.var 57) (.lit 1)) (.bin (.shr .u64)
      (.var 57) (.lit 63)))),
    .asg 62 (.bin (.bxor .u64) (.var 56) (.bin (.bxor .u64) (.bin (.shl .u64) (.var 58) (.lit 1)) (.bin (.shr .u64)
      (.var 58) (.lit 63)))),
    .asg 63 (.bin (.bxor .u64) (.var 57) (.bin (.bxor .u64) (.bin (.shl .u64) (.var 59) (.lit 1)) (.bin (.shr .u64)
      (.var 59) (.lit 63)))),
    .asg 64 (.bin (.bxor .u64) (.var 58) (.bin (.bxor .u64) (.bin (.shl .u64) (.var 55) (.lit 1)) (.bin (.shr .u64)
      (.var 55) (.lit 63)))),
    .asg 65 (.bin (.bxor .u64) (.var 65) (.var 60)),
    .asg 30 (.var 65),
    .asg 71 (.bin (.bxor .u64) (.var 71) (.var 61)),
    .asg 31 (.bin (.bxor .u64) (.bin (.shl .u64) (.var 71) (.lit 44)) (.bin (.shr .u64) (.var 71) (.lit 20))),
    .asg 77 (.bin (.bxor .u64) (.var 77) (.var 62)),
    .asg 32 (.bin (.bxor .u64) (.bin (.shl .u64) (.var 77) (.lit 43)) (.bin (.shr .u64) (.var 77) (.lit 21))),
    .asg 83 (.bin (.bxor .u64) (.var 83) (.var 63)),
    .asg 33 (.bin (.bxor .u64) (.bin (.shl .u64) (.var 83) (.lit 21)) (.bin (.shr .u64) (.var 83) (.lit 43))),
    .asg 89 (.bin (.bxor .u64) (.var 89) (.var 64)),
    .asg 34 (.bin (.bxor .u64) (.bin (.shl .u64) (.var 89) (.lit 14)) (.bin (.shr .u64) (.var 89) (.lit 50))),
    .asg 5 (.bin (.bxor .u64) (.var 30) (.bin (.band .u64) (.un (.bnot .u64) (.var 31)) (.var 32))),
    .asg 5 (.bin (.bxor .u64) (.var 5) (.ld 8 (.padd (.glob 0) (.lit 11) 8))),
    .asg 55 (.var 5),
    .asg 6 (.bin (.bxor .u64) (.var 31) (.bin (.band .u64) (.un (.bnot .u64) (.var 32)) (.var 33))),
    .asg 56 (.var 6),
    .asg 7 (.bin (.bxor .u64) (.var 32) (.bin (.band .u64) (.un (.bnot .u64) (.var 33)) (.var 34))),
    .asg 57 (.var 7),
    .asg 8 (.bin (.bxor .u64) (.var 33) (.bin (.band .u64) (.un (.bnot .u64) (.var 34)) (.var 30))),
    .asg 58 (.var 8),
    .asg 9 (.bin (.bxor .u64) (.var 34) (.bin (.band .u64) (.un (.bnot .u64) (.var 30)) (.var 31))),
    .asg 59 (.var 9),
    .asg 68 (.bin (.bxor .u64) (.var 68) (.var 63)),
    .asg 35 (.bin (.bxor .u64) (.bin (.shl .u64) (.var 68) (.lit 28)) (.bin (.shr .u64) (.var 68) (.lit 36)))]

/-- part of `KeccakF1600_FastLoop_Absorb` -/
def KeccakF1600_FastLoop_Absorb.part32 : Stmt :=
  block [
    .asg 74 (.bin (.bxor .u64) (.var 74) (.var 64)),
    .asg 36 (.bin (.bxor .u64) (.bin (.shl .u64) (.var 74) (.lit 20)) (.bin (.shr .u64) (.var 74) (.lit 44))),
    .asg 75 (.bin (.bxor .u64) (.var 75) (.var 60)),
    .asg 37 (.bin (.bxor .u64) (.bin (.shl .u64) (.var 75) (.lit 3)) (.bin (.shr .u64) (.var 75) (.lit 61))),
    .asg 81 (.bin (.bxor .u64) (.var 81) (.var 61)),
    .asg 38 (.bin (.bxor .u64) (.bin (.shl .u64) (.var 81) (.lit 45)) (.bin (.shr .u64) (.var 81) (.lit 19))),
    .asg 87 (.bin (.bxor .u64) (.var 87) (.var 62)),
    .asg 39 (.bin (.bxor .u64) (.bin (.shl .u64) (.var 87) (.lit 61)) (.bin (.shr .u64) (.var 87) (.lit 3))),
    .asg 10 (.bin (.bxor .u64) (.var 35) (.bin (.band .u64) (.un (.bnot .u64) (.var 36)) (.var 37))),
    .asg 55 (.bin (.bxor .u64) (.var 55) (.var 10)),
    .asg 11 (.bin (.bxor .u64) (.var 36) (.bin (.band .u64) (.un (.bnot .u64) (.var 37)) (.var 38))),
    .asg 56 (.bin (.bxor .u64) (.var 56) (.var 11)),
    .asg 12 (.bin (.bxor .u64) (.var 37) (.bin (.band .u64) (.un (.bnot .u64) (.var 38)) (.var 39))),
    .asg 57 (.bin (.bxor .u64) (.var 57) (.var 12)),
    .asg 13 (.bin (.bxor .u64) (.var 38) (.bin (.band .u64) (.un (.bnot .u64) (.var 39)) (.var 35))),
    .asg 58 (.bin (.bxor .u64) (.var 58) (.var 13)),
    .asg 14 (.bin (.bxor .u64) (.var 39) (.bin (.band .u64) (.un (.bnot .u64) (.var 35)) (.var 36))),
    .asg 59 (.bin (.bxor .u64) (.var 59) (.var 14)),
    .asg 66 (.bin (.bxor .u64) (.var 66) (.var 61)),
    .asg 40 (.bin (.bxor .u64) (.bin (.shl .u64) (.var 66) (.lit 1)) (.bin (.shr .u64) (.var 66) (.lit 63))),
    .asg 72 (.bin (.bxor .u64) (.var 72) (.var 62)),
    .asg 41 (.bin (.bxor .u64) (.bin (.shl .u64) (.var 72) (.lit 6)) (.bin (.shr .u64) (.var 72) (.lit 58))),
    .asg 78 (.bin (.bxor .u64) (.var 78) (.var 63)),
    .asg 42 (.bin (.bxor .u64) (.bin (.shl .u64) (.var 78) (.lit 25)) (.bin (.shr .u64) (.var 78) (.lit 39))),
    .asg 84 (.bin (.bxor .u64) (.var 84) (.var 64)),
    .asg 43 (.bin (.bxor .u64) (.bin (.shl .u64) (.var 84) (.lit 8)) (.bin (.shr .u64) (.var 84) (.lit 56))),
    .asg 85 (.bin (.bxor .u64) (.var 85) (.var 60)),
    .asg 44 (.bin (.bxor .u64) (.bin (.shl .u64) (.var 85) (.lit 18)) (.bin (.shr .u64) (.var 85) (.lit 46))),
    .asg 15 (.bin (.bxor .u64) (.var 40) (.bin (.band .u64) (.un (.bnot .u64) (.var 41)) (.var 42))),
    .asg 55 (.bin (.bxor .u64) (.var 55) (.var 15)),
    .asg 16 (.bin (.bxor .u64) (.var 41) (.bin (.band .u64) (.un (.bnot .u64) (.var 42)) (.var 43))),
    .asg 56 (.bin (.bxor .u64) (.var 56) (.var 16)),
    .asg 17 (.bin (.bxor .u64) (.var 42) (.bin (.band .u64) (.un (.bnot .u64) (.var 43)) (.var 44))),
    .asg 57 (.bin (.bxor .u64) (.var 57) (.var 17)),
    .asg 18 (.bin (.bxor .u64) (.var 43) (.bin (.band .u64) (.un (.bnot .u64) (.var 44)) (.var 40))),
    .asg 58 (.bin (.bxor .u64) (.var 58) (.var 18)),
    .asg 19 (.bin (.bxor .u64) (.var 44) (.bin (.band .u64) (.un (.bnot .u64) (.var 40)) (.var 41))),
    .asg 59 (.bin (.bxor .u64) (.var 59) (.var 19)),
    .asg 69 (.bin (.bxor .u64) (.var 69) (.var 64)),
    .asg 45 (.bin (.bxor .u64) (.bin (.shl .u64) (.var 69) (.lit 27)) (.bin (.shr .u64) (.var 69) (.lit 37)))]

/-- part of `KeccakF1600_FastLoop_Absorb` -/
def KeccakF1600_FastLoop_Absorb.part33 : Stmt :=
  block [
    .asg 70 (.bin (.bxor .u64) (.var 70) (.var 60)),
    .asg 46 (.bin (.bxor .u64) (.bin (.shl .u64) (.var 70) (.lit 36)) (.bin (.shr .u64) (.var 70) (.lit 28))),
    .asg 76 (.bin (.bxor .u64) (.var 76) (.var 61)),
    .asg 47 (.bin (.bxor .u64) (.bin (.shl .u64) (.var 76) (.lit 10)) (.bin (.shr .u64) (.var 76) (.lit 54))),
    .asg 82 (.bin (.bxor .u64) (.var 82) (.var 62)),
    .asg 48 (.bin (.bxor .u64) (.bin (.shl .u64) (.var 82) (.lit 15)) (.bin (.shr .u64) (.var 82) (.lit 49))),
    .asg 88 (.bin (.bxor .u64) (.var 88) (.var 63)),
    .asg 49 (.bin (.bxor .u64) (.bin (.shl .u64) (.var 88) (.lit 56)) (.bin (.shr .u64) (.var 88) (.lit 8))),
    .asg 20 (.bin (.bxor .u64) (.var 45) (.bin (.band .u64) (.un (.bnot .u64) (.var 46)) (.var 47))),
    .asg 55 (.bin (.bxor .u64) (.var 55) (.var 20)),
    .asg 21 (.bin (.bxor .u64) (.var 46) (.bin (.band .u64) (.un (.bnot .u64) (.var 47)) (.var 48))),
    .asg 56 (.bin (.bxor .u64) (.var 56) (.var 21)),
    .asg 22 (.bin (.bxor .u64) (.var 47) (.bin (.band .u64) (.un (.bnot .u64) (.var 48)) (.var 49))),
    .asg 57 (.bin (.bxor .u64) (.var 57) (.var 22)),
    .asg 23 (.bin (.bxor .u64) (.var 48) (.bin (.band .u64) (.un (.bnot .u64) (.var 49)) (.var 45))),
    .asg 58 (.bin (.bxor .u64) (.var 58) (.var 23)),
    .asg 24 (.bin (.bxor .u64) (.var 49) (.bin (.band .u64) (.un (.bnot .u64) (.var 45)) (.var 46))),
    .asg 59 (.bin (.bxor .u64) (.var 59) (.var 24)),
    .asg 67 (.bin (.bxor .u64) (.var 67) (.var 62)),
    .asg 50 (.bin (.bxor .u64) (.bin (.shl .u64) (.var 67) (.lit 62)) (.bin (.shr .u64) (.var 67) (.lit 2))),
    .asg 73 (.bin (.bxor .u64) (.var 73) (.var 63)),
    .asg 51 (.bin (.bxor .u64) (.bin (.shl .u64) (.var 73) (.lit 55)) (.bin (.shr .u64) (.var 73) (.lit 9))),
    .asg 79 (.bin (.bxor .u64) (.var 79) (.var 64)),
    .asg 52 (.bin (.bxor .u64) (.bin (.shl .u64) (.var 79) (.lit 39)) (.bin (.shr .u64) (.var 79) (.lit 25))),
    .asg 80 (.bin (.bxor .u64) (.var 80) (.var 60)),
    .asg 53 (.bin (.bxor .u64) (.bin (.shl .u64) (.var 80) (.lit 41)) (.bin (.shr .u64) (.var 80) (.lit 23))),
    .asg 86 (.bin (.bxor .u64) (.var 86) (.var 61)),
    .asg 54 (.bin (.bxor .u64) (.bin (.shl .u64) (.var 86) (.lit 2)) (.bin (.shr .u64) (.var 86) (.lit 62))),
    .asg 25 (.bin (.bxor .u64) (.var 50) (.bin (.band .u64) (.un (.bnot .u64) (.var 51)) (.var 52))),
    .asg 55 (.bin (.bxor .u64) (.var 55) (.var 25)),
    .asg 26 (.bin (.bxor .u64) (.var 51) (.bin (.band .u64) (.un (.bnot .u64) (.var 52)) (.var 53))),
    .asg 56 (.bin (.bxor .u64) (.var 56) (.var 26)),
    .asg 27 (.bin (.bxor .u64) (.var 52) (.bin (.band .u64) (.un (.bnot .u64) (.var 53)) (.var 54))),
    .asg 57 (.bin (.bxor .u64) (.var 57) (.var 27)),
    .asg 28 (.bin (.bxor .u64) (.var 53) (.bin (.band .u64) (.un (.bnot .u64) (.var 54)) (.var 50))),
    .asg 58 (.bin (.bxor .u64) (.var 58) (.var 28)),
    .asg 29 (.bin (.bxor .u64) (.var 54) (.bin (.band .u64) (.un (.bnot .u64) (.var 50)) (.var 51))),
    .asg 59 (.bin (.bxor .u64) (.var 59) (.var 29)),
    .asg 60 (.bin (.bxor .u64) (.var 59) (.bin (.bxor .u64) (.bin (.shl .u64) (.var 56) (.lit 1)) (.bin (.shr .u64)
      (.var 56) (.lit 63)))),
    .asg 61 (.bin (.bxor .u64) (.var 55) (.bin (.bxor .u64) (.bin (.shl .u64) (.var 57) (.lit 1)) (.bin (.shr .u64)
      (.var 57) (.lit 63))))]

/-- part of `KeccakF1600_FastLoop_Absorb` -/
def KeccakF1600_FastLoop_Absorb.part34 : Stmt :=
  block [
    .asg 62 (.bin (.bxor .u64) (.var 56) (.bin (.bxor .u64) (.bin (.shl .u64) (.var 58) (.lit 1)) (.bin (.shr .u64)
      (.var 58) (.lit 63)))),
    .asg 63 (.bin (.bxor .u64) (.var 57) (.bin (.bxor .u64) (.bin (.shl .u64) (.var 59) (.lit 1)) (.bin (.shr .u64)
      (.var 59) (.lit 63)))),
    .asg 64 (.bin (.bxor .u64) (.var 58) (.bin (.bxor .u64) (.bin (.shl .u64) (.var 55) (.lit 1)) (.bin (.shr .u64)
      (.var 55) (.lit 63)))),
    .asg 5 (.bin (.bxor .u64) (.var 5) (.var 60)),
    .asg 30 (.var 5),
    .asg 11 (.bin (.bxor .u64) (.var 11) (.var 61)),
    .asg 31 (.bin (.bxor .u64) (.bin (.shl .u64) (.var 11) (.lit 44)) (.bin (.shr .u64) (.var 11) (.lit 20))),
    .asg 17 (.bin (.bxor .u64) (.var 17) (.var 62)),
    .asg 32 (.bin (.bxor .u64) (.bin (.shl .u64) (.var 17) (.lit 43)) (.bin (.shr .u64) (.var 17) (.lit 21))),
    .asg 23 (.bin (.bxor .u64) (.var 23) (.var 63)),
    .asg 33 (.bin (.bxor .u64) (.bin (.shl .u64) (.var 23) (.lit 21)) (.bin (.shr .u64) (.var 23) (.lit 43))),
    .asg 29 (.bin (.bxor .u64) (.var 29) (.var 64)),
    .asg 34 (.bin (.bxor .u64) (.bin (.shl .u64) (.var 29) (.lit 14)) (.bin (.shr .u64) (.var 29) (.lit 50))),
    .asg 65 (.bin (.bxor .u64) (.var 30) (.bin (.band .u64) (.un (.bnot .u64) (.var 31)) (.var 32))),
    .asg 65 (.bin (.bxor .u64) (.var 65) (.ld 8 (.padd (.glob 0) (.lit 12) 8))),
    .asg 55 (.var 65),
    .asg 66 (.bin (.bxor .u64) (.var 31) (.bin (.band .u64) (.un (.bnot .u64) (.var 32)) (.var 33))),
    .asg 56 (.var 66),
    .asg 67 (.bin (.bxor .u64) (.var 32) (.bin (.band .u64) (.un (.bnot .u64) (.var 33)) (.var 34))),
    .asg 57 (.var 67),
    .asg 68 (.bin (.bxor .u64) (.var 33) (.bin (.band .u64) (.un (.bnot .u64) (.var 34)) (.var 30))),
    .asg 58 (.var 68),
    .asg 69 (.bin (.bxor .u64) (.var 34) (.bin (.band .u64) (.un (.bnot .u64) (.var 30)) (.var 31))),
    .asg 59 (.var 69),
    .asg 8 (.bin (.bxor .u64) (.var 8) (.var 63)),
    .asg 35 (.bin (.bxor .u64) (.bin (.shl .u64) (.var 8) (.lit 28)) (.bin (.shr .u64) (.var 8) (.lit 36))),
    .asg 14 (.bin (.bxor .u64) (.var 14) (.var 64)),
    .asg 36 (.bin (.bxor .u64) (.bin (.shl .u64) (.var 14) (.lit 20)) (.bin (.shr .u64) (.var 14) (.lit 44))),
    .asg 15 (.bin (.bxor .u64) (.var 15) (.var 60)),
    .asg 37 (.bin (.bxor .u64) (.bin (.shl .u64) (.var 15) (.lit 3)) (.bin (.shr .u64) (.var 15) (.lit 61))),
    .asg 21 (.bin (.bxor .u64) (.var 21) (.var 61)),
    .asg 38 (.bin (.bxor .u64) (.bin (.shl .u64) (.var 21) (.lit 45)) (.bin (.shr .u64) (.var 21) (.lit 19))),
    .asg 27 (.bin (.bxor .u64) (.var 27) (.var 62)),
    .asg 39 (.bin (.bxor .u64) (.bin (.shl .u64) (.var 27) (.lit 61)) (.bin (.shr .u64) (.var 27) (.lit 3))),
    .asg 70 (.bin (.bxor .u64) (.var 35) (.bin (.band .u64) (.un (.bnot .u64) (.var 36)) (.var 37))),
    .asg 55 (.bin (.bxor .u64) (.var 55) (.var 70)),
    .asg 71 (.bin (.bxor .u64) (.var 36) (.bin (.band .u64) (.un (.bnot .u64) (.var 37)) (.var 38))),
    .asg 56 (.bin (.bxor .u64) (.var 56) (.var 71)),
    .asg 72 (.bin (.bxor .u64) (.var 37) (.bin (.band .u64) (.un (.bnot .u64) (.var 38)) (.var 39))),
    .asg 57 (.bin (.bxor .u64) (.var 57) (.var 72))]

/-- part of `KeccakF1600_FastLoop_Absorb` -/
def KeccakF1600_FastLoop_Absorb.part35 : Stmt :=
  block [
    .asg 73 (.bin (.bxor .u64) (.var 38) (.bin (.band .u64) (.un (.bnot .u64) (.var 39)) (.var 35))),
    .asg 58 (.bin (.bxor .u64) (.var 58) (.var 73)),
    .asg 74 (.bin (.bxor .u64) (.var 39) (.bin (.band .u64) (.un (.bnot .u64) (.var 35)) (.var 36))),
    .asg 59 (.bin (.bxor .u64) (.var 59) (.var 74)),
    .asg 6 (.bin (.bxor .u64) (.var 6) (.var 61)),
    .asg 40 (.bin (.bxor .u64) (.bin (.shl .u64) (.var 6) (.lit 1)) (.bin (.shr .u64) (.var 6) (.lit 63))),
    .asg 12 (.bin (.bxor .u64) (.var 12) (.var 62)),
    .asg 41 (.bin (.bxor .u64) (.bin (.shl .u64) (.var 12) (.lit 6)) (.bin (.shr .u64) (.var 12) (.lit 58))),
    .asg 18 (.bin (.bxor .u64) (.var 18) (.var 63)),
    .asg 42 (.bin (.bxor .u64) (.bin (.shl .u64) (.var 18) (.lit 25)) (.bin (.shr .u64) (.var 18) (.lit 39))),
    .asg 24 (.bin (.bxor .u64) (.var 24) (.var 64)),
    .asg 43 (.bin (.bxor .u64) (.bin (.shl .u64) (.var 24) (.lit 8)) (.bin (.shr .u64) (.var 24) (.lit 56))),
    .asg 25 (.bin (.bxor .u64) (.var 25) (.var 60)),
    .asg 44 (.bin (.bxor .u64) (.bin (.shl .u64) (.var 25) (.lit 18)) (.bin (.shr .u64) (.var 25) (.lit 46))),
    .asg 75 (.bin (.bxor .u64) (.var 40) (.bin (.band .u64) (.un (.bnot .u64) (.var 41)) (.var 42))),
    .asg 55 (.bin (.bxor .u64) (.var 55) (.var 75)),
    .asg 76 (.bin (.bxor .u64) (.var 41) (.bin (.band .u64) (.un (.bnot .u64) (.var 42)) (.var 43))),
    .asg 56 (.bin (.bxor .u64) (.var 56) (.var 76)),
    .asg 77 (.bin (.bxor .u64) (.var 42) (.bin (.band .u64) (.un (.bnot .u64) (.var 43)) (.var 44))),
    .asg 57 (.bin (.bxor .u64) (.var 57) (.var 77)),
    .asg 78 (.bin (.bxor .u64) (.var 43) (.bin (.band .u64) (.un (.bnot .u64) (.var 44)) (.var 40))),
    .asg 58 (.bin (.bxor .u64) (.var 58) (.var 78)),
    .asg 79 (.bin (.bxor .u64) (.var 44) (.bin (.band .u64) (.un (.bnot .u64) (.var 40)) (.var 41))),
    .asg 59 (.bin (.bxor .u64) (.var 59) (.var 79)),
    .asg 9 (.bin (.bxor .u64) (.var 9) (.var 64)),
    .asg 45 (.bin (.bxor .u64) (.bin (.shl .u64) (.var 9) (.lit 27)) (.bin (.shr .u64) (.var 9) (.lit 37))),
    .asg 10 (.bin (.bxor .u64) (.var 10) (.var 60)),
    .asg 46 (.bin (.bxor .u64) (.bin (.shl .u64) (.var 10) (.lit 36)) (.bin (.shr .u64) (.var 10) (.lit 28))),
    .asg 16 (.bin (.bxor .u64) (.var 16) (.var 61)),
    .asg 47 (.bin (.bxor .u64) (.bin (.shl .u64) (.var 16) (.lit 10)) (.bin (.shr .u64) (.var 16) (.lit 54))),
    .asg 22 (.bin (.bxor .u64) (.var 22) (.var 62)),
    .asg 48 (.bin (.bxor .u64) (.bin (.shl .u64) (.var 22) (.lit 15)) (.bin (.shr .u64) (.var 22) (.lit 49))),
    .asg 28 (.bin (.bxor .u64) (.var 28) (.var 63)),
    .asg 49 (.bin (.bxor .u64) (.bin (.shl .u64) (.var 28) (.lit 56)) (.bin (.shr .u64) (.var 28) (.lit 8))),
    .asg 80 (.bin (.bxor .u64) (.var 45) (.bin (.band .u64) (.un (.bnot .u64) (.var 46)) (.var 47))),
    .asg 55 (.bin (.bxor .u64) (.var 55) (.var 80)),
    .asg 81 (.bin (.bxor .u64) (.var 46) (.bin (.band .u64) (.un (.bnot .u64) (.var 47)) (.var 48))),
    .asg 56 (.bin (.bxor .u64) (.var 56) (.var 81)),
    .asg 82 (.bin (.bxor .u64) (.var 47) (.bin (.band .u64) (.un (.bnot .u64) (.var 48)) (.var 49))),
    .asg 57 (.bin (.bxor .u64) (.var 57) (.var 82))]

/-- part of `KeccakF1600_FastLoop_Absorb` -/
def KeccakF1600_FastLoop_Absorb.part36 : Stmt :=
  block [
    .asg 83 (.bin (.bxor .u64) (.var 48) (.bin (.band .u64) (.un (.bnot .u64) (.var 49)) (.var 45))),
    .asg 58 (.bin (.bxor .u64) (.var 58) (.var 83)),
    .asg 84 (.bin (.bxor .u64) (.var 49) (.bin (.band .u64) (.un (.bnot .u64) (.var 45)) (.var 46))),
    .asg 59 (.bin (.bxor .u64) (.var 59) (.var 84)),
    .asg 7 (.bin (.bxor .u64) (.var 7) (.var 62)),
    .asg 50 (.bin (.bxor .u64) (.bin (.shl .u64) (.var 7) (.lit 62)) (.bin (.shr .u64) (.var 7) (.lit 2))),
    .asg 13 (.bin (.bxor .u64) (.var 13) (.var 63)),
    .asg 51 (.bin (.bxor .u64) (.bin (.shl .u64) (.var 13) (.lit 55)) (.bin (.shr .u64) (.var 13) (.lit 9))),
    .asg 19 (.bin (.bxor .u64) (.var 19) (.var 64)),
    .asg 52 (.bin (.bxor .u64) (.bin (.shl .u64) (.var 19) (.lit 39)) (.bin (.shr .u64) (.var 19) (.lit 25))),
    .asg 20 (.bin (.bxor .u64) (.var 20) (.var 60)),
    .asg 53 (.bin (.bxor .u64) (.bin (.shl .u64) (.var 20) (.lit 41)) (.bin (.shr .u64) (.var 20) (.lit 23))),
    .asg 26 (.bin (.bxor .u64) (.var 26) (.var 61)),
    .asg 54 (.bin (.bxor .u64) (.bin (.shl .u64) (.var 26) (.lit 2)) (.bin (.shr .u64) (.var 26) (.lit 62))),
    .asg 85 (.bin (.bxor .u64) (.var 50) (.bin (.band .u64) (.un (.bnot .u64) (.var 51)) (.var 52))),
    .asg 55 (.bin (.bxor .u64) (.var 55) (.var 85)),
    .asg 86 (.bin (.bxor .u64) (.var 51) (.bin (.band .u64) (.un (.bnot .u64) (.var 52)) (.var 53))),
    .asg 56 (.bin (.bxor .u64) (.var 56) (.var 86)),
    .asg 87 (.bin (.bxor .u64) (.var 52) (.bin (.band .u64) (.un (.bnot .u64) (.var 53)) (.var 54))),
    .asg 57 (.bin (.bxor .u64) (.var 57) (.var 87)),
    .asg 88 (.bin (.bxor .u64) (.var 53) (.bin (.band .u64) (.un (.bnot .u64) (.var 54)) (.var 50))),
    .asg 58 (.bin (.bxor .u64) (.var 58) (.var 88)),
    .asg 89 (.bin (.bxor .u64) (.var 54) (.bin (.band .u64) (.un (.bnot .u64) (.var 50)) (.var 51))),
    .asg 59 (.bin (.bxor .u64) (.var 59) (.var 89)),
    .asg 60 (.bin (.bxor .u64) (.var 59) (.bin (.bxor .u64) (.bin (.shl .u64) (.var 56) (.lit 1)) (.bin (.shr .u64)
      (.var 56) (.lit 63)))),
    .asg 61 (.bin (.bxor .u64) (.var 55) (.bin (.bxor .u64) (.bin (.shl .u64) (.var 57) (.lit 1)) (.bin (.shr .u64)
      (.var 57) (.lit 63)))),
    .asg 62 (.bin (.bxor .u64) (.var 56) (.bin (.bxor .u64) (.bin (.shl .u64) (.var 58) (.lit 1)) (.bin (.shr .u64)
      (.var 58) (.lit 63)))),
    .asg 63 (.bin (.bxor .u64) (.var 57) (.bin (.bxor .u64) (.bin (.shl .u64) (.var 59) (.lit 1)) (.bin (.shr .u64)
      (.var 59) (.lit 63)))),
    .asg 64 (.bin (.bxor .u64) (.var 58) (.bin (.bxor .u64) (.bin (.shl .u64) (.var 55) (.lit 1)) (.bin (.shr .u64)
      (.var 55) (.lit 63)))),
    .asg 65 (.bin (.bxor .u64) (.var 65) (.var 60)),
    .asg 30 (.var 65),
    .asg 71 (.bin (.bxor .u64) (.var 71) (.var 61)),
    .asg 31 (.bin (.bxor .u64) (.bin (.shl .u64) (.var 71) (.lit 44)) (.bin (.shr .u64) (.var 71) (.lit 20))),
    .asg 77 (.bin (.bxor .u64) (.var 77) (.var 62)),
    .asg 32 (.bin (.bxor .u64) (.bin (.shl .u64) (.var 77) (.lit 43)) (.bin (.shr .u64) (.var 77) (.lit 21))),
    .asg 83 (.bin (.bxor .u64) (.var 83) (.var 63)),
    .asg 33 (.bin (.bxor .u64) (.bin (.shl .u64) (.var 83) (.lit 21)) (.bin (.shr .u64) (.var 83) (.lit 43))),
    .asg 89 (.bin (.bxor .u64) (.var 89) (.var 64)),
    .asg 34 (.bin (.bxor .u64) (.bin (.shl .u64) (.var 89) (.lit 14)) (.bin (.shr .u64) (.var 89) (.lit 50))),
    .asg 5 (.bin (.bxor .u64) (.var 30) (.bin (.band .u64) (.un (.bnot .u64) (.var 31)) (.var 32)))]

/-- part of `KeccakF1600_FastLoop_Absorb` -/
def KeccakF1600_FastLoop_Absorb.part37 : Stmt :=
  block [
    .asg 5 (.bin (.bxor .u64) (.var 5) (.ld 8 (.padd (.glob 0) (.lit 13) 8))),
    .asg 55 (.var 5),
    .asg 6 (.bin (.bxor .u64) (.var 31) (.bin (.band .u64) (.un (.bnot .u64) (.var 32)) (.var 33))),
    .asg 56 (.var 6),
    .asg 7 (.bin (.bxor .u64) (.var 32) (.bin (.band .u64) (.un (.bnot .u64) (.var 33)) (.var 34))),
    .asg 57 (.var 7),
    .asg 8 (.bin (.bxor .u64) (.var 33) (.bin (.band .u64) (.un (.bnot .u64) (.var 34)) (.var 30))),
    .asg 58 (.var 8),
    .asg 9 (.bin (.bxor .u64) (.var 34) (.bin (.band .u64) (.un (.bnot .u64) (.var 30)) (.var 31))),
    .asg 59 (.var 9),
    .asg 68 (.bin (.bxor .u64) (.var 68) (.var 63)),
    .asg 35 (.bin (.bxor .u64) (.bin (.shl .u64) (.var 68) (.lit 28)) (.bin (.shr .u64) (.var 68) (.lit 36))),
    .asg 74 (.bin (.bxor .u64) (.var 74) (.var 64)),
    .asg 36 (.bin (.bxor .u64) (.bin (.shl .u64) (.var 74) (.lit 20)) (.bin (.shr .u64) (.var 74) (.lit 44))),
    .asg 75 (.bin (.bxor .u64) (.var 75) (.var 60)),
    .asg 37 (.bin (.bxor .u64) (.bin (.shl .u64) (.var 75) (.lit 3)) (.bin (.shr .u64) (.var 75) (.lit 61))),
    .asg 81 (.bin (.bxor .u64) (.var 81) (.var 61)),
    .asg 38 (.bin (.bxor .u64) (.bin (.shl .u64) (.var 81) (.lit 45)) (.bin (.shr .u64) (.var 81) (.lit 19))),
    .asg 87 (.bin (.bxor .u64) (.var 87) (.var 62)),
    .asg 39 (.bin (.bxor .u64) (.bin (.shl .u64) (.var 87) (.lit 61)) (.bin (.shr .u64) (.var 87) (.lit 3))),
    .asg 10 (.bin (.bxor .u64) (.var 35) (.bin (.band .u64) (.un (.bnot .u64) (.var 36)) (.var 37))),
    .asg 55 (.bin (.bxor .u64) (.var 55) (.var 10)),
    .asg 11 (.bin (.bxor .u64) (.var 36) (.bin (.band .u64) (.un (.bnot .u64) (.var 37)) (.var 38))),
    .asg 56 (.bin (.bxor .u64) (.var 56) (.var 11)),
    .asg 12 (.bin (.bxor .u64) (.var 37) (.bin (.band .u64) (.un (.bnot .u64) (.var 38)) (.var 39))),
    .asg 57 (.bin (.bxor .u64) (.var 57) (.var 12)),
    .asg 13 (.bin (.bxor .u64) (.var 38) (.bin (.band .u64) (.un (.bnot .u64) (.var 39)) (.var 35))),
    .asg 58 (.bin (.bxor .u64) (.var 58) (.var 13)),
    .asg 14 (.bin (.bxor .u64) (.var 39) (.bin (.band .u64) (.un (.bnot .u64) (.var 35)) (.var 36))),
    .asg 59 (.bin (.bxor .u64) (.var 59) (.var 14)),
    .asg 66 (.bin (.bxor .u64) (.var 66) (.var 61)),
    .asg 40 (.bin (.bxor .u64) (.bin (.shl .u64) (.var 66) (.lit 1)) (.bin (.shr .u64) (.var 66) (.lit 63))),
    .asg 72 (.bin (.bxor .u64) (.var 72) (.var 62)),
    .asg 41 (.bin (.bxor .u64) (.bin (.shl .u64) (.var 72) (.lit 6)) (.bin (.shr .u64) (.var 72) (.lit 58))),
    .asg 78 (.bin (.bxor .u64) (.var 78) (.var 63)),
    .asg 42 (.bin (.bxor .u64) (.bin (.shl .u64) (.var 78) (.lit 25)) (.bin (.shr .u64) (.var 78) (.lit 39))),
    .asg 84 (.bin (.bxor .u64) (.var 84) (.var 64)),
    .asg 43 (.bin (.bxor .u64) (.bin (.shl .u64) (.var 84) (.lit 8)) (.bin (.shr .u64) (.var 84) (.lit 56))),
    .asg 85 (.bin (.bxor .u64) (.var 85) (.var 60)),
    .asg 44 (.bin (.bxor .u64) (.bin (.shl .u64) (.var 85) (.lit 18)) (.bin (.shr .u64) (.var 85) (.lit 46)))]

/-- part of `KeccakF1600_FastLoop_Absorb` -/
def KeccakF1600_FastLoop_Absorb.part38 : Stmt :=
  block [
    .asg 15 (.bin (.bxor .u64) (.var 40) (.bin (.band .u64) (.un (.bnot .u64) (.var 41)) (.var 42))),
    .asg 55 (.bin (.bxor .u64) (.var 55) (.var 15)),
    .asg 16 (.bin (.bxor .u64) (.var 41) (.bin (.band .u64) (.un (.bnot .u64) (.var 42)) (.var 43))),
    .asg 56 (.bin (.bxor .u64) (.var 56) (.var 16)),
    .asg 17 (.bin (.bxor .u64) (.var 42) (.bin (.band .u64) (.un (.bnot .u64) (.var 43)) (.var 44))),
    .asg 57 (.bin (.bxor .u64) (.var 57) (.var 17)),
    .asg 18 (.bin (.bxor .u64) (.var 43) (.bin (.band .u64) (.un (.bnot .u64) (.var 44)) (.var 40))),
    .asg 58 (.bin (.bxor .u64) (.var 58) (.var 18)),
    .asg 19 (.bin (.bxor .u64) (.var 44) (.bin (.band .u64) (.un (.bnot .u64) (.var 40)) (.var 41))),
    .asg 59 (.bin (.bxor .u64) (.var 59) (.var 19)),
    .asg 69 (.bin (.bxor .u64) (.var 69) (.var 64)),
    .asg 45 (.bin (.bxor .u64) (.bin (.shl .u64) (.var 69) (.lit 27)) (.bin (.shr .u64) (.var 69) (.lit 37))),
    .asg 70 (.bin (.bxor .u64) (.var 70) (.var 60)),
    .asg 46 (.bin (.bxor .u64) (.bin (.shl .u64) (.var 70) (.lit 36)) (.bin (.shr .u64) (.var 70) (.lit 28))),
    .asg 76 (.bin (.bxor .u64) (.var 76) (.var 61)),
    .asg 47 (.bin (.bxor .u64) (.bin (.shl .u64) (.var 76) (.lit 10)) (.bin (.shr .u64) (.var 76) (.lit 54))),
    .asg 82 (.bin (.bxor .u64) (.var 82) (.var 62)),
    .asg 48 (.bin (.bxor .u64) (.bin (.shl .u64) (.var 82) (.lit 15)) (.bin (.shr .u64) (.var 82) (.lit 49))),
    .asg 88 (.bin (.bxor .u64) (.var 88) (.var 63)),
    .asg 49 (.bin (.bxor .u64) (.bin (.shl .u64) (.var 88) (.lit 56)) (.bin (.shr .u64) (.var 88) (.lit 8))),
    .asg 20 (.bin (.bxor .u64) (.var 45) (.bin (.band .u64) (.un (.bnot .u64) (.var 46)) (.var 47))),
    .asg 55 (.bin (.bxor .u64) (.var 55) (.var 20)),
    .asg 21 (.bin (.bxor .u64) (.var 46) (.bin (.band .u64) (.un (.bnot .u64) (.var 47)) (.var 48))),
    .asg 56 (.bin (.bxor .u64) (.var 56) (.var 21)),
    .asg 22 (.bin (.bxor .u64) (.var 47) (.bin (.band .u64) (.un (.bnot .u64) (.var 48)) (.var 49))),
    .asg 57 (.bin (.bxor .u64) (.var 57) (.var 22)),
    .asg 23 (.bin (.bxor .u64) (.var 48) (.bin (.band .u64) (.un (.bnot .u64) (.var 49)) (.var 45))),
    .asg 58 (.bin (.bxor .u64) (.var 58) (.var 23)),
    .asg 24 (.bin (.bxor .u64) (.var 49) (.bin (.band .u64) (.un (.bnot .u64) (.var 45)) (.var 46))),
    .asg 59 (.bin (.bxor .u64) (.var 59) (.var 24)),
    .asg 67 (.bin (.bxor .u64) (.var 67) (.var 62)),
    .asg 50 (.bin (.bxor .u64) (.bin (.shl .u64) (.var 67) (.lit 62)) (.bin (.shr .u64) (.var 67) (.lit 2))),
    .asg 73 (.bin (.bxor .u64) (.var 73) (.var 63)),
    .asg 51 (.bin (.bxor .u64) (.bin (.shl .u64) (.var 73) (.lit 55)) (.bin (.shr .u64) (.var 73) (.lit 9))),
    .asg 79 (.bin (.bxor .u64) (.var 79) (.var 64)),
    .asg 52 (.bin (.bxor .u64) (.bin (.shl .u64) (.var 79) (.lit 39)) (.bin (.shr .u64) (.var 79) (.lit 25))),
    .asg 80 (.bin (.bxor .u64) (.var 80) (.var 60)),
    .asg 53 (.bin (.bxor .u64) (.bin (.shl .u64) (.var 80) (.lit 41)) (.bin (.shr .u64) (.var 80) (.lit 23))),
    .asg 86 (.bin (.bxor .u64) (.var 86) (.var 61)),
    .asg 54 (.bin (.bxor .u64) (.bin (.shl .u64) (.var 86) (.lit 2)) (.bin (.shr .u64) (.var 86) (.lit 62)))]

/-- part of `KeccakF1600_FastLoop_Absorb` -/
def KeccakF1600_FastLoop_Absorb.part39 : Stmt :=
  block [
    .asg 25 (.bin (.bxor .u64) (.var 50) (.bin (.band .u64) (.un (.bnot .u64) (.var 51)) (.var 52))),
    .asg 55 (.bin (.bxor .u64) (.var 55) (.var 25)),
    .asg 26 (.bin (.bxor .u64) (.var 51) (.bin (.band .u64) (.un (.bnot .u64) (.var 52)) (.var 53))),
    .asg 56 (.bin (.bxor .u64) (.var 56) (.var 26)),
    .asg 27 (.bin (.bxor .u64) (.var 52) (.bin (.band .u64) (.un (.bnot .u64) (.var 53)) (.var 54))),
    .asg 57 (.bin (.bxor .u64) (.var 57) (.var 27)),
    .asg 28 (.bin (.bxor .u64) (.var 53) (.bin (.band .u64) (.un (.bnot .u64) (.var 54)) (.var 50))),
    .asg 58 (.bin (.bxor .u64) (.var 58) (.var 28)),
    .asg 29 (.bin (.bxor .u64) (.var 54) (.bin (.band .u64) (.un (.bnot .u64) (.var 50)) (.var 51))),
    .asg 59 (.bin (.bxor .u64) (.var 59) (.var 29)),
    .asg 60 (.bin (.bxor .u64) (.var 59) (.bin (.bxor .u64) (.bin (.shl .u64) (.var 56) (.lit 1)) (.bin (.shr .u64)
      (.var 56) (.lit 63)))),
    .asg 61 (.bin (.bxor .u64) (.var 55) (.bin (.bxor .u64) (.bin (.shl .u64) (.var 57) (.lit 1)) (.bin (.shr .u64)
      (.var 57) (.lit 63)))),
    .asg 62 (.bin (.bxor .u64) (.var 56) (.bin (.bxor .u64) (.bin (.shl .u64) (.var 58) (.lit 1)) (.bin (.shr .u64)
      (.var 58) (.lit 63)))),
    .asg 63 (.bin (.bxor .u64) (.var 57) (.bin (.bxor .u64) (.bin (.shl .u64) (.var 59) (.lit 1)) (.bin (.shr .u64)
      (.var 59) (.lit 63)))),
    .asg 64 (.bin (.bxor .u64) (.var 58) (.bin (.bxor .u64) (.bin (.shl .u64) (.var 55) (.lit 1)) (.bin (.shr .u64)
      (.var 55) (.lit 63)))),
    .asg 5 (.bin (.bxor .u64) (.var 5) (.var 60)),
    .asg 30 (.var 5),
    .asg 11 (.bin (.bxor .u64) (.var 11) (.var 61)),
    .asg 31 (.bin (.bxor .u64) (.bin (.shl .u64) (.var 11) (.lit 44)) (.bin (.shr .u64) (.var 11) (.lit 20))),
    .asg 17 (.bin (.bxor .u64) (.var 17) (.var 62)),
    .asg 32 (.bin (.bxor .u64) (.bin (.shl .u64) (.var 17) (.lit 43)) (.bin (.shr .u64) (.var 17) (.lit 21))),
    .asg 23 (.bin (.bxor .u64) (.var 23) (.var 63)),
    .asg 33 (.bin (.bxor .u64) (.bin (.shl .u64) (.var 23) (.lit 21)) (.bin (.shr .u64) (.var 23) (.lit 43))),
    .asg 29 (.bin (.bxor .u64) (.var 29) (.var 64)),
    .asg 34 (.bin (.bxor .u64) (.bin (.shl .u64) (.var 29) (.lit 14)) (.bin (.shr .u64) (.var 29) (.lit 50))),
    .asg 65 (.bin (.bxor .u64) (.var 30) (.bin (.band .u64) (.un (.bnot .u64) (.var 31)) (.var 32))),
    .asg 65 (.bin (.bxor .u64) (.var 65) (.ld 8 (.padd (.glob 0) (.lit 14) 8))),
    .asg 55 (.var 65),
    .asg 66 (.bin (.bxor .u64) (.var 31) (.bin (.band .u64) (.un (.bnot .u64) (.var 32)) (.var 33))),
    .asg 56 (.var 66),
    .asg 67 (.bin (.bxor .u64) (.var 32) (.bin (.band .u64) (.un (.bnot .u64) (.var 33)) (.var 34))),
    .asg 57 (.var 67),
    .asg 68 (.bin (.bxor .u64) (.var 33) (.bin (.band .u64) (.un (.bnot .u64) (.var 34)) (.var 30))),
    .asg 58 (.var 68),
    .asg 69 (.bin (.bxor .u64) (.var 34) (.bin (.band .u64) (.un (.bnot .u64) (.var 30)) (.var 31))),
    .asg 59 (.var 69),
    .asg 8 (.bin (.bxor .u64) (.var 8) (.var 63)),
    .asg 35 (.bin (.bxor .u64) (.bin (.shl .u64) (.var 8) (.lit 28)) (.bin (.shr .u64) (.var 8) (.lit 36))),
    .asg 14 (.bin (.bxor .u64) (.var 14) (.var 64)),
    .asg 36 (.bin (.bxor .u64) (.bin (.shl .u64) (.var 14) (.lit 20)) (.bin (.shr .u64) (.var 14) (.lit 44)))]

/-- part of `KeccakF1600_FastLoop_Absorb` -/
def KeccakF1600_FastLoop_Absorb.part40 : Stmt :=
  block [
    .asg 15 (.bin (.bxor .u64) (.var 15) (.var 60)),
    .asg 37 (.bin (.bxor .u64) (.bin (.shl .u64) (.var 15) (.lit 3)) (.bin (.shr .u64) (.var 15) (.lit 61))),
    .asg 21 (.bin (.bxor .u64) (.var 21) (.var 61)),
    .asg 38 (.bin (.bxor .u64) (.bin (.shl .u64) (.var 21) (.lit 45)) (.bin (.shr .u64) (.var 21) (.lit 19))),
    .asg 27 (.bin (.bxor .u64) (.var 27) (.var 62)),
    .asg 39 (.bin (.bxor .u64) (.bin (.shl .u64) (.var 27) (.lit 61)) (.bin (.shr .u64) (.var 27) (.lit 3))),
    .asg 70 (.bin (.bxor .u64) (.var 35) (.bin (.band .u64) (.un (.bnot .u64) (.var 36)) (.var 37))),
    .asg 55 (.bin (.bxor .u64) (.var 55) (.var 70)),
    .asg 71 (.bin (.bxor .u64) (.var 36) (.bin (.band .u64) (.un (.bnot .u64) (.var 37)) (.var 38))),
    .asg 56 (.bin (.bxor .u64) (.var 56) (.var 71)),
    .asg 72 (.bin (.bxor .u64) (.var 37) (.bin (.band .u64) (.un (.bnot .u64) (.var 38)) (.var 39))),
    .asg 57 (.bin (.bxor .u64) (.var 57) (.var 72)),
    .asg 73 (.bin (.bxor .u64) (.var 38) (.bin (.band .u64) (.un (.bnot .u64) (.var 39)) (.var 35))),
    .asg 58 (.bin (.bxor .u64) (.var 58) (.var 73)),
    .asg 74 (.bin (.bxor .u64) (.var 39) (.bin (.band .u64) (.un (.bnot .u64) (.var 35)) (.var 36))),
    .asg 59 (.bin (.bxor .u64) (.var 59) (.var 74)),
    .asg 6 (.bin (.bxor .u64) (.var 6) (.var 61)),
    .asg 40 (.bin (.bxor .u64) (.bin (.shl .u64) (.var 6) (.lit 1)) (.bin (.shr .u64) (.var 6) (.lit 63))),
    .asg 12 (.bin (.bxor .u64) (.var 12) (.var 62)),
    .asg 41 (.bin (.bxor .u64) (.bin (.shl .u64) (.var 12) (.lit 6)) (.bin (.shr .u64) (.var 12) (.lit 58))),
    .asg 18 (.bin (.bxor .u64) (.var 18) (.var 63)),
    .asg 42 (.bin (.bxor .u64) (.bin (.shl .u64) (.var 18) (.lit 25)) (.bin (.shr .u64) (.var 18) (.lit 39))),
    .asg 24 (.bin (.bxor .u64) (.var 24) (.var 64)),
    .asg 43 (.bin (.bxor .u64) (.bin (.shl .u64) (.var 24) (.lit 8)) (.bin (.shr .u64) (.var 24) (.lit 56))),
    .asg 25 (.bin (.bxor .u64) (.var 25) (.var 60)),
    .asg 44 (.bin (.bxor .u64) (.bin (.shl .u64) (.var 25) (.lit 18)) (.bin (.shr .u64) (.var 25) (.lit 46))),
    .asg 75 (.bin (.bxor .u64) (.var 40) (.bin (.band .u64) (.un (.bnot .u64) (.var 41)) (.var 42))),
    .asg 55 (.bin (.bxor .u64) (.var 55) (.var 75)),
    .asg 76 (.bin (.bxor .u64) (.var 41) (.bin (.band .u64) (.un (.bnot .u64) (.var 42)) (.var 43))),
    .asg 56 (.bin (.bxor .u64) (.var 56) (.var 76)),
    .asg 77 (.bin (.bxor .u64) (.var 42) (.bin (.band .u64) (.un (.bnot .u64) (.var 43)) (.var 44))),
    .asg 57 (.bin (.bxor .u64) (.var 57) (.var 77)),
    .asg 78 (.bin (.bxor .u64) (.var 43) (.bin (.band .u64) (.un (.bnot .u64) (.var 44)) (.var 40))),
    .asg 58 (.bin (.bxor .u64) (.var 58) (.var 78)),
    .asg 79 (.bin (.bxor .u64) (.var 44) (.bin (.band .u64) (.un (.bnot .u64) (.var 40)) (.var 41))),
    .asg 59 (.bin (.bxor .u64) (.var 59) (.var 79)),
    .asg 9 (.bin (.bxor .u64) (.var 9) (.var 64)),
    .asg 45 (.bin (.bxor .u64) (.bin (.shl .u64) (.var 9) (.lit 27)) (.bin (.shr .u64) (.var 9) (.lit 37))),
    .asg 10 (.bin (.bxor .u64) (.var 10) (.var 60)),
    .asg 46 (.bin (.bxor .u64) (.bin (.shl .u64) (.var 10) (.lit 36)) (.bin (.shr .u64) (.var 10) (.lit 28)))]

/-- part of `KeccakF1600_FastLoop_Absorb` -/
def KeccakF1600_FastLoop_Absorb.part41 : Stmt :=
  block [
    .asg 16 (.bin (.bxor .u64) (.var 16) (.var 61)),
    .asg 47 (.bin (.bxor .u64) (.bin (.shl .u64) (.var 16) (.lit 10)) (.bin (.shr .u64) (.var 16) (.lit 54))),
    .asg 22 (.bin (.bxor .u64) (.var 22) (.var 62)),
    .asg 48 (.bin (.bxor .u64) (.bin (.shl .u64) (.var 22) (.lit 15)) (.bin (.shr .u64) (.var 22) (.lit 49))),
    .asg 28 (.bin (.bxor .u64) (.var 28) (.var 63)),
    .asg 49 (.bin (.bxor .u64) (.bin (.shl .u64) (.var 28) (.lit 56)) (.bin (.shr .u64) (.var 28) (.lit 8))),
    .asg 80 (.bin (.bxor .u64) (.var 45) (.bin (.band .u64) (.un (.bnot .u64) (.var 46)) (.var 47))),
    .asg 55 (.bin (.bxor .u64) (.var 55) (.var 80)),
    .asg 81 (.bin (.bxor .u64) (.var 46) (.bin (.band .u64) (.un (.bnot .u64) (.var 47)) (.var 48))),
    .asg 56 (.bin (.bxor .u64) (.var 56) (.var 81)),
    .asg 82 (.bin (.bxor .u64) (.var 47) (.bin (.band .u64) (.un (.bnot .u64) (.var 48)) (.var 49))),
    .asg 57 (.bin (.bxor .u64) (.var 57) (.var 82)),
    .asg 83 (.bin (.bxor .u64) (.var 48) (.bin (.band .u64) (.un (.bnot .u64) (.var 49)) (.var 45))),
    .asg 58 (.bin (.bxor .u64) (.var 58) (.var 83)),
    .asg 84 (.bin (.bxor .u64) (.var 49) (.bin (.band .u64) (.un (.bnot .u64) (.var 45)) (.var 46))),
    .asg 59 (.bin (.bxor .u64) (.var 59) (.var 84)),
    .asg 7 (.bin (.bxor .u64) (.var 7) (.var 62)),
    .asg 50 (.bin (.bxor .u64) (.bin (.shl .u64) (.var 7) (.lit 62)) (.bin (.shr .u64) (.var 7) (.lit 2))),
    .asg 13 (.bin (.bxor .u64) (.var 13) (.var 63)),
    .asg 51 (.bin (.bxor .u64) (.bin (.shl .u64) (.var 13) (.lit 55)) (.bin (.shr .u64) (.var 13) (.lit 9))),
    .asg 19 (.bin (.bxor .u64) (.var 19) (.var 64)),
    .asg 52 (.bin (.bxor .u64) (.bin (.shl .u64) (.var 19) (.lit 39)) (.bin (.shr .u64) (.var 19) (.lit 25))),
    .asg 20 (.bin (.bxor .u64) (.var 20) (.var 60)),
    .asg 53 (.bin (.bxor .u64) (.bin (.shl .u64) (.var 20) (.lit 41)) (.bin (.shr .u64) (.var 20) (.lit 23))),
    .asg 26 (.bin (.bxor .u64) (.var 26) (.var 61)),
    .asg 54 (.bin (.bxor .u64) (.bin (.shl .u64) (.var 26) (.lit 2)) (.bin (.shr .u64) (.var 26) (.lit 62))),
    .asg 85 (.bin (.bxor .u64) (.var 50) (.bin (.band .u64) (.un (.bnot .u64) (.var 51)) (.var 52))),
    .asg 55 (.bin (.bxor .u64) (.var 55) (.var 85)),
    .asg 86 (.bin (.bxor .u64) (.var 51) (.bin (.band .u64) (.un (.bnot .u64) (.var 52)) (.var 53))),
    .asg 56 (.bin (.bxor .u64) (.var 56) (.var 86)),
    .asg 87 (.bin (.bxor .u64) (.var 52) (.bin (.band .u64) (.un (.bnot .u64) (.var 53)) (.var 54))),
    .asg 57 (.bin (.bxor .u64) (.var 57) (.var 87)),
    .asg 88 (.bin (.bxor .u64) (.var 53) (.bin (.band .u64) (.un (.bnot .u64) (.var 54)) (.var 50))),
    .asg 58 (.bin (.bxor .u64) (.var 58) (.var 88)),
    .asg 89 (.bin (.bxor .u64) (.var 54) (.bin (.band .u64) (.un (.bnot .u64) (.var 50)) (.var 51))),
    .asg 59 (.bin (.bxor .u64) (.var 59) (.var 89)),
    .asg 60 (.bin (.bxor .u64) (.var 59) (.bin (.bxor .u64) (.bin (.shl .u64) (.var 56) (.lit 1)) (.bin (.shr .u64)
      (.var 56) (.lit 63)))),
    .asg 61 (.bin (.bxor .u64) (.var 55) (.bin (.bxor .u64) (.bin (.shl .u64) (.var 57) (.lit 1)) (.bin (.shr .u64)
      (.var 57) (.lit 63)))),
    .asg 62 (.bin (.bxor .u64) (.var 56) (.bin (.bxor .u64) (.bin (.shl .u64) (.var 58) (.lit 1)) (.bin (.shr .u64)
      (.var 58) (.lit 63)))),
    .asg 63 (.bin (.bxor .u64) (.var 57) (.bin (.bxor .u64) (.bin (.shl .u64) (.var 59) (.lit 1)) (.bin (.shr .u64)
      (.var 59) (.lit 63))))]

/-- part of `KeccakF1600_FastLoop_Absorb` -/
def KeccakF1600_FastLoop_Absorb.part42 : Stmt :=
  block [
    .asg 64 (.bin (.bxor .u64) (.var 58) (.bin (.bxor .u64) (.bin (.shl .u64) (.var 55) (.lit 1)) (.bin (.shr .u64)
      (.var 55) (.lit 63)))),
    .asg 65 (.bin (.bxor .u64) (.var 65) (.var 60)),
    .asg 30 (.var 65),
    .asg 71 (.bin (.bxor .u64) (.var 71) (.var 61)),
    .asg 31 (.bin (.bxor .u64) (.bin (.shl .u64) (.var 71) (.lit 44)) (.bin (.shr .u64) (.var 71) (.lit 20))),
    .asg 77 (.bin (.bxor .u64) (.var 77) (.var 62)),
    .asg 32 (.bin (.bxor .u64) (.bin (.shl .u64) (.var 77) (.lit 43)) (.bin (.shr .u64) (.var 77) (.lit 21))),
    .asg 83 (.bin (.bxor .u64) (.var 83) (.var 63)),
    .asg 33 (.bin (.bxor .u64) (.bin (.shl .u64) (.var 83) (.lit 21)) (.bin (.shr .u64) (.var 83) (.lit 43))),
    .asg 89 (.bin (.bxor .u64) (.var 89) (.var 64)),
    .asg 34 (.bin (.bxor .u64) (.bin (.shl .u64) (.var 89) (.lit 14)) (.bin (.shr .u64) (.var 89) (.lit 50))),
    .asg 5 (.bin (.bxor .u64) (.var 30) (.bin (.band .u64) (.un (.bnot .u64) (.var 31)) (.var 32))),
    .asg 5 (.bin (.bxor .u64) (.var 5) (.ld 8 (.padd (.glob 0) (.lit 15) 8))),
    .asg 55 (.var 5),
    .asg 6 (.bin (.bxor .u64) (.var 31) (.bin (.band .u64) (.un (.bnot .u64) (.var 32)) (.var 33))),
    .asg 56 (.var 6),
    .asg 7 (.bin (.bxor .u64) (.var 32) (.bin (.band .u64) (.un (.bnot .u64) (.var 33)) (.var 34))),
    .asg 57 (.var 7),
    .asg 8 (.bin (.bxor .u64) (.var 33) (.bin (.band .u64) (.un (.bnot .u64) (.var 34)) (.var 30))),
    .asg 58 (.var 8),
    .asg 9 (.bin (.bxor .u64) (.var 34) (.bin (.band .u64) (.un (.bnot .u64) (.var 30)) (.var 31))),
    .asg 59 (.var 9),
    .asg 68 (.bin (.bxor .u64) (.var 68) (.var 63)),
    .asg 35 (.bin (.bxor .u64) (.bin (.shl .u64) (.var 68) (.lit 28)) (.bin (.shr .u64) (.var 68) (.lit 36))),
    .asg 74 (.bin (.bxor .u64) (.var 74) (.var 64)),
    .asg 36 (.bin (.bxor .u64) (.bin (.shl .u64) (.var 74) (.lit 20)) (.bin (.shr .u64) (.var 74) (.lit 44))),
    .asg 75 (.bin (.bxor .u64) (.var 75) (.var 60)),
    .asg 37 (.bin (.bxor .u64) (.bin (.shl .u64) (.var 75) (.lit 3)) (.bin (.shr .u64) (.var 75) (.lit 61))),
    .asg 81 (.bin (.bxor .u64) (.var 81) (.var 61)),
    .asg 38 (.bin (.bxor .u64) (.bin (.shl .u64) (.var 81) (.lit 45)) (.bin (.shr .u64) (.var 81) (.lit 19))),
    .asg 87 (.bin (.bxor .u64) (.var 87) (.var 62)),
    .asg 39 (.bin (.bxor .u64) (.bin (.shl .u64) (.var 87) (.lit 61)) (.bin (.shr .u64) (.var 87) (.lit 3))),
    .asg 10 (.bin (.bxor .u64) (.var 35) (.bin (.band .u64) (.un (.bnot .u64) (.var 36)) (.var 37))),
    .asg 55 (.bin (.bxor .u64) (.var 55) (.var 10)),
    .asg 11 (.bin (.bxor .u64) (.var 36) (.bin (.band .u64) (.un (.bnot .u64) (.var 37)) (.var 38))),
    .asg 56 (.bin (.bxor .u64) (.var 56) (.var 11)),
    .asg 12 (.bin (.bxor .u64) (.var 37) (.bin (.band .u64) (.un (.bnot .u64) (.var 38)) (.var 39))),
    .asg 57 (.bin (.bxor .u64) (.var 57) (.var 12)),
    .asg 13 (.bin (.bxor .u64) (.var 38) (.bin (.band .u64) (.un (.bnot .u64) (.var 39)) (.var 35))),
    .asg 58 (.bin (.bxor .u64) (.var 58) (.var 13))]

/-- part of `KeccakF1600_FastLoop_Absorb` -/
def KeccakF1600_FastLoop_Absorb.part43 : Stmt :=
  block [
    .asg 14 (.bin (.bxor .u64) (.var 39) (.bin (.band .u64) (.un (.bnot .u64) (.var 35)) (.var 36))),
    .asg 59 (.bin (.bxor .u64) (.var 59) (.var 14)),
    .asg 66 (.bin (.bxor .u64) (.var 66) (.var 61)),
    .asg 40 (.bin (.bxor .u64) (.bin (.shl .u64) (.var 66) (.lit 1)) (.bin (.shr .u64) (.var 66) (.lit 63))),
    .asg 72 (.bin (.bxor .u64) (.var 72) (.var 62)),
    .asg 41 (.bin (.bxor .u64) (.bin (.shl .u64) (.var 72) (.lit 6)) (.bin (.shr .u64) (.var 72) (.lit 58))),
    .asg 78 (.bin (.bxor .u64) (.var 78) (.var 63)),
    .asg 42 (.bin (.bxor .u64) (.bin (.shl .u64) (.var 78) (.lit 25)) (.bin (.shr .u64) (.var 78) (.lit 39))),
    .asg 84 (.bin (.bxor .u64) (.var 84) (.var 64)),
    .asg 43 (.bin (.bxor .u64) (.bin (.shl .u64) (.var 84) (.lit 8)) (.bin (.shr .u64) (.var 84) (.lit 56))),
    .asg 85 (.bin (.bxor .u64) (.var 85) (.var 60)),
    .asg 44 (.bin (.bxor .u64) (.bin (.shl .u64) (.var 85) (.lit 18)) (.bin (.shr .u64) (.var 85) (.lit 46))),
    .asg 15 (.bin (.bxor .u64) (.var 40) (.bin (.band .u64) (.un (.bnot .u64) (.var 41)) (.var 42))),
    .asg 55 (.bin (.bxor .u64) (.var 55) (.var 15)),
    .asg 16 (.bin (.bxor .u64) (.var 41) (.bin (.band .u64) (.un (.bnot .u64) (.var 42)) (.var 43))),
    .asg 56 (.bin (.bxor .u64) (.var 56) (.var 16)),
    .asg 17 (.bin (.bxor .u64) (.var 42) (.bin (.band .u64) (.un (.bnot .u64) (.var 43)) (.var 44))),
    .asg 57 (.bin (.bxor .u64) (.var 57) (.var 17)),
    .asg 18 (.bin (.bxor .u64) (.var 43) (.bin (.band .u64) (.un (.bnot .u64) (.var 44)) (.var 40))),
    .asg 58 (.bin (.bxor .u64) (.var 58) (.var 18)),
    .asg 19 (.bin (.bxor .u64) (.var 44) (.bin (.band .u64) (.un (.bnot .u64) (.var 40)) (.var 41))),
    .asg 59 (.bin (.bxor .u64) (.var 59) (.var 19)),
    .asg 69 (.bin (.bxor .u64) (.var 69) (.var 64)),
    .asg 45 (.bin (.bxor .u64) (.bin (.shl .u64) (.var 69) (.lit 27)) (.bin (.shr .u64) (.var 69) (.lit 37))),
    .asg 70 (.bin (.bxor .u64) (.var 70) (.var 60)),
    .asg 46 (.bin (.bxor .u64) (.bin (.shl .u64) (.var 70) (.lit 36)) (.bin (.shr .u64) (.var 70) (.lit 28))),
    .asg 76 (.bin (.bxor .u64) (.var 76) (.var 61)),
    .asg 47 (.bin (.bxor .u64) (.bin (.shl .u64) (.var 76) (.lit 10)) (.bin (.shr .u64) (.var 76) (.lit 54))),
    .asg 82 (.bin (.bxor .u64) (.var 82) (.var 62)),
    .asg 48 (.bin (.bxor .u64) (.bin (.shl .u64) (.var 82) (.lit 15)) (.bin (.shr .u64) (.var 82) (.lit 49))),
    .asg 88 (.bin (.bxor .u64) (.var 88) (.var 63)),
    .asg 49 (.bin (.bxor .u64) (.bin (.shl .u64) (.var 88) (.lit 56)) (.bin (.shr .u64) (.var 88) (.lit 8))),
    .asg 20 (.bin (.bxor .u64) (.var 45) (.bin (.band .u64) (.un (.bnot .u64) (.var 46)) (.var 47))),
    .asg 55 (.bin (.bxor .u64) (.var 55) (.var 20)),
    .asg 21 (.bin (.bxor .u64) (.var 46) (.bin (.band .u64) (.un (.bnot .u64) (.var 47)) (.var 48))),
    .asg 56 (.bin (.bxor .u64) (.var 56) (.var 21)),
    .asg 22 (.bin (.bxor .u64) (.var 47) (.bin (.band .u64) (.un (.bnot .u64) (.var 48)) (.var 49))),
    .asg 57 (.bin (.bxor .u64) (.var 57) (.var 22)),
    .asg 23 (.bin (.bxor .u64) (.var 48) (.bin (.band .u64) (.un (.bnot .u64) (.var 49)) (.var 45))),
    .asg 58 (.bin (.bxor .u64) (.var 58) (.var 23))]

/-- part of `KeccakF1600_FastLoop_Absorb` -/
def KeccakF1600_FastLoop_Absorb.part44 : Stmt :=
  block [
    .asg 24 (.bin (.bxor .u64) (.var 49) (.bin (.band .u64) (.un (.bnot .u64) (.var 45)) (.var 46))),
    .asg 59 (.bin (.bxor .u64) (.var 59) (.var 24)),
    .asg 67 (.bin (.bxor .u64) (.var 67) (.var 62)),
    .asg 50 (.bin (.bxor .u64) (.bin (.shl .u64) (.var 67) (.lit 62)) (.bin (.shr .u64) (.var 67) (.lit 2))),
    .asg 73 (.bin (.bxor .u64) (.var 73) (.var 63)),
    .asg 51 (.bin (.bxor .u64) (.bin (.shl .u64) (.var 73) (.lit 55)) (.bin (.shr .u64) (.var 73) (.lit 9))),
    .asg 79 (.bin (.bxor .u64) (.var 79) (.var 64)),
    .asg 52 (.bin (.bxor .u64) (.bin (.shl .u64) (.var 79) (.lit 39)) (.bin (.shr .u64) (.var 79) (.lit 25))),
    .asg 80 (.bin (.bxor .u64) (.var 80) (.var 60)),
    .asg 53 (.bin (.bxor .u64) (.bin (.shl .u64) (.var 80) (.lit 41)) (.bin (.shr .u64) (.var 80) (.lit 23))),
    .asg 86 (.bin (.bxor .u64) (.var 86) (.var 61)),
    .asg 54 (.bin (.bxor .u64) (.bin (.shl .u64) (.var 86) (.lit 2)) (.bin (.shr .u64) (.var 86) (.lit 62))),
    .asg 25 (.bin (.bxor .u64) (.var 50) (.bin (.band .u64) (.un (.bnot .u64) (.var 51)) (.var 52))),
    .asg 55 (.bin (.bxor .u64) (.var 55) (.var 25)),
    .asg 26 (.bin (.bxor .u64) (.var 51) (.bin (.band .u64) (.un (.bnot .u64) (.var 52)) (.var 53))),
    .asg 56 (.bin (.bxor .u64) (.var 56) (.var 26)),
    .asg 27 (.bin (.bxor .u64) (.var 52) (.bin (.band .u64) (.un (.bnot .u64) (.var 53)) (.var 54))),
    .asg 57 (.bin (.bxor .u64) (.var 57) (.var 27)),
    .asg 28 (.bin (.bxor .u64) (.var 53) (.bin (.band .u64) (.un (.bnot .u64) (.var 54)) (.var 50))),
    .asg 58 (.bin (.bxor .u64) (.var 58) (.var 28)),
    .asg 29 (.bin (.bxor .u64) (.var 54) (.bin (.band .u64) (.un (.bnot .u64) (.var 50)) (.var 51))),
    .asg 59 (.bin (.bxor .u64) (.var 59) (.var 29)),
    .asg 60 (.bin (.bxor .u64) (.var 59) (.bin (.bxor .u64) (.bin (.shl .u64) (.var 56) (.lit 1)) (.bin (.shr .u64)
      (.var 56) (.lit 63)))),
    .asg 61 (.bin (.bxor .u64) (.var 55) (.bin (.bxor .u64) (.bin (.shl .u64) (.var 57) (.lit 1)) (.bin (.shr .u64)
      (.var 57) (.lit 63)))),
    .asg 62 (.bin (.bxor .u64) (.var 56) (.bin (.bxor .u64) (.bin (.shl .u64) (.var 58) (.lit 1)) (.bin (.shr .u64)
      (.var 58) (.lit 63)))),
    .asg 63 (.bin (.bxor .u64) (.var 57) (.bin (.bxor .u64) (.bin (.shl .u64) (.var 59) (.lit 1)) (.bin (.shr .u64)
      (.var 59) (.lit 63)))),
    .asg 64 (.bin (.bxor .u64) (.var 58) (.bin (.bxor .u64) (.bin (.shl .u64) (.var 55) (.lit 1)) (.bin (.shr .u64)
      (.var 55) (.lit 63)))),
    .asg 5 (.bin (.bxor .u64) (.var 5) (.var 60)),
    .asg 30 (.var 5),
    .asg 11 (.bin (.bxor .u64) (.var 11) (.var 61)),
    .asg 31 (.bin (.bxor .u64) (.bin (.shl .u64) (.var 11) (.lit 44)) (.bin (.shr .u64) (.var 11) (.lit 20))),
    .asg 17 (.bin (.bxor .u64) (.var 17) (.var 62)),
    .asg 32 (.bin (.bxor .u64) (.bin (.shl .u64) (.var 17) (.lit 43)) (.bin (.shr .u64) (.var 17) (.lit 21))),
    .asg 23 (.bin (.bxor .u64) (.var 23) (.var 63)),
    .asg 33 (.bin (.bxor .u64) (.bin (.shl .u64) (.var 23) (.lit 21)) (.bin (.shr .u64) (.var 23) (.lit 43))),
    .asg 29 (.bin (.bxor .u64) (.var 29) (.var 64)),
    .asg 34 (.bin (.bxor .u64) (.bin (.shl .u64) (.var 29) (.lit 14)) (.bin (.shr .u64) (.var 29) (.lit 50))),
    .asg 65 (.bin (.bxor .u64) (.var 30) (.bin (.band .u64) (.un (.bnot .u64) (.var 31)) (.var 32))),
    .asg 65 (.bin (.bxor .u64) (.var 65) (.ld 8 (.padd (.glob 0) (.lit 16) 8))),
    .asg 55 (.var 65)]

/-- part of `KeccakF1600_FastLoop_Absorb` -/
def KeccakF1600_FastLoop_Absorb.part45 : Stmt :=
  block [
    .asg 66 (.bin (.bxor .u64) (.var 31) (.bin (.band .u64) (.un (.bnot .u64) (.var 32)) (.var 33))),
    .asg 56 (.var 66),
    .asg 67 (.bin (.bxor .u64) (.var 32) (.bin (.band .u64) (.un (.bnot .u64) (.var 33)) (.var 34))),
    .asg 57 (.var 67),
    .asg 68 (.bin (.bxor .u64) (.var 33) (.bin (.band .u64) (.un (.bnot .u64) (.var 34)) (.var 30))),
    .asg 58 (.var 68),
    .asg 69 (.bin (.bxor .u64) (.var 34) (.bin (.band .u64) (.un (.bnot .u64) (.var 30)) (.var 31))),
    .asg 59 (.var 69),
    .asg 8 (.bin (.bxor .u64) (.var 8) (.var 63)),
    .asg 35 (.bin (.bxor .u64) (.bin (.shl .u64) (.var 8) (.lit 28)) (.bin (.shr .u64) (.var 8) (.lit 36))),
    .asg 14 (.bin (.bxor .u64) (.var 14) (.var 64)),
    .asg 36 (.bin (.bxor .u64) (.bin (.shl .u64) (.var 14) (.lit 20)) (.bin (.shr .u64) (.var 14) (.lit 44))),
    .asg 15 (.bin (.bxor .u64) (.var 15) (.var 60)),
    .asg 37 (.bin (.bxor .u64) (.bin (.shl .u64) (.var 15) (.lit 3)) (.bin (.shr .u64) (.var 15) (.lit 61))),
    .asg 21 (.bin (.bxor .u64) (.var 21) (.var 61)),
    .asg 38 (.bin (.bxor .u64) (.bin (.shl .u64) (.var 21) (.lit 45)) (.bin (.shr .u64) (.var 21) (.lit 19))),
    .asg 27 (.bin (.bxor .u64) (.var 27) (.var 62)),
    .asg 39 (.bin (.bxor .u64) (.bin (.shl .u64) (.var 27) (.lit 61)) (.bin (.shr .u64) (.var 27) (.lit 3))),
    .asg 70 (.bin (.bxor .u64) (.var 35) (.bin (.band .u64) (.un (.bnot .u64) (.var 36)) (.var 37))),
    .asg 55 (.bin (.bxor .u64) (.var 55) (.var 70)),
    .asg 71 (.bin (.bxor .u64) (.var 36) (.bin (.band .u64) (.un (.bnot .u64) (.var 37)) (.var 38))),
    .asg 56 (.bin (.bxor .u64) (.var 56) (.var 71)),
    .asg 72 (.bin (.bxor .u64) (.var 37) (.bin (.band .u64) (.un (.bnot .u64) (.var 38)) (.var 39))),
    .asg 57 (.bin (.bxor .u64) (.var 57) (.var 72)),
    .asg 73 (.bin (.bxor .u64) (.var 38) (.bin (.band .u64) (.un (.bnot .u64) (.var 39)) (.var 35))),
    .asg 58 (.bin (.bxor .u64) (.var 58) (.var 73)),
    .asg 74 (.bin (.bxor .u64) (.var 39) (.bin (.band .u64) (.un (.bnot .u64) (.var 35)) (.var 36))),
    .asg 59 (.bin (.bxor .u64) (.var 59) (.var 74)),
    .asg 6 (.bin (.bxor .u64) (.var 6) (.var 61)),
    .asg 40 (.bin (.bxor .u64) (.bin (.shl .u64) (.var 6) (.lit 1)) (.bin (.shr .u64) (.var 6) (.lit 63))),
    .asg 12 (.bin (.bxor .u64) (.var 12) (.var 62)),
    .asg 41 (.bin (.bxor .u64) (.bin (.shl .u64) (.var 12) (.lit 6)) (.bin (.shr .u64) (.var 12) (.lit 58))),
    .asg 18 (.bin (.bxor .u64) (.var 18) (.var 63)),
    .asg 42 (.bin (.bxor .u64) (.bin (.shl .u64) (.var 18) (.lit 25)) (.bin (.shr .u64) (.var 18) (.lit 39))),
    .asg 24 (.bin (.bxor .u64) (.var 24) (.var 64)),
    .asg 43 (.bin (.bxor .u64) (.bin (.shl .u64) (.var 24) (.lit 8)) (.bin (.shr .u64) (.var 24) (.lit 56))),
    .asg 25 (.bin (.bxor .u64) (.var 25) (.var 60)),
    .asg 44 (.bin (.bxor .u64) (.bin (.shl .u64) (.var 25) (.lit 18)) (.bin (.shr .u64) (.var 25) (.lit 46))),
    .asg 75 (.bin (.bxor .u64) (.var 40) (.bin (.band .u64) (.un (.bnot .u64) (.var 41)) (.var 42))),
    .asg 55 (.bin (.bxor .u64) (.var 55) (.var 75))]

/-- part of `KeccakF1600_FastLoop_Absorb` -/
def KeccakF1600_FastLoop_Absorb.part46 : Stmt :=
  block [
    .asg 76 (.bin (.bxor .u64) (.var 41) (.bin (.band .u64) (.un (.bnot .u64) (.var 42)) (.var 43))),
    .asg 56 (.bin (.bxor .u64) (.var 56) (.var 76)),
    .asg 77 (.bin (.bxor .u64) (.var 42) (.bin (.band .u64) (.un (.bnot .u64) (.var 43)) (.var 44))),
    .asg 57 (.bin (.bxor .u64) (.var 57) (.var 77)),
    .asg 78 (.bin (.bxor .u64) (.var 43) (.bin (.band .u64) (.un (.bnot .u64) (.var 44)) (.var 40))),
    .asg 58 (.bin (.bxor .u64) (.var 58) (.var 78)),
    .asg 79 (.bin (.bxor .u64) (.var 44) (.bin (.band .u64) (.un (.bnot .u64) (.var 40)) (.var 41))),
    .asg 59 (.bin (.bxor .u64) (.var 59) (.var 79)),
    .asg 9 (.bin (.bxor .u64) (.var 9) (.var 64)),
    .asg 45 (.bin (.bxor .u64) (.bin (.shl .u64) (.var 9) (.lit 27)) (.bin (.shr .u64) (.var 9) (.lit 37))),
    .asg 10 (.bin (.bxor .u64) (.var 10) (.var 60)),
    .asg 46 (.bin (.bxor .u64) (.bin (.shl .u64) (.var 10) (.lit 36)) (.bin (.shr .u64) (.var 10) (.lit 28))),
    .asg 16 (.bin (.bxor .u64) (.var 16) (.var 61)),
    .asg 47 (.bin (.bxor .u64) (.bin (.shl .u64) (.var 16) (.lit 10)) (.bin (.shr .u64) (.var 16) (.lit 54))),
    .asg 22 (.bin (.bxor .u64) (.var 22) (.var 62)),
    .asg 48 (.bin (.bxor .u64) (.bin (.shl .u64) (.var 22) (.lit 15)) (.bin (.shr .u64) (.var 22) (.lit 49))),
    .asg 28 (.bin (.bxor .u64) (.var 28) (.var 63)),
    .asg 49 (.bin (.bxor .u64) (.bin (.shl .u64) (.var 28) (.lit 56)) (.bin (.shr .u64) (.var 28) (.lit 8))),
    .asg 80 (.bin (.bxor .u64) (.var 45) (.bin (.band .u64) (.un (.bnot .u64) (.var 46)) (.var 47))),
    .asg 55 (.bin (.bxor .u64) (.var 55) (.var 80)),
    .asg 81 (.bin (.bxor .u64) (.var 46) (.bin (.band .u64) (.un (.bnot .u64) (.var 47)) (.var 48))),
    .asg 56 (.bin (.bxor .u64) (.var 56) (.var 81)),
    .asg 82 (.bin (.bxor .u64) (.var 47) (.bin (.band .u64) (.un (.bnot .u64) (.var 48)) (.var 49))),
    .asg 57 (.bin (.bxor .u64) (.var 57) (.var 82)),
    .asg 83 (.bin (.bxor .u64) (.var 48) (.bin (.band .u64) (.un (.bnot .u64) (.var 49)) (.var 45))),
    .asg 58 (.bin (.bxor .u64) (.var 58) (.var 83)),
    .asg 84 (.bin (.bxor .u64) (.var 49) (.bin (.band .u64) (.un (.bnot .u64) (.var 45)) (.var 46))),
    .asg 59 (.bin (.bxor .u64) (.var 59) (.var 84)),
    .asg 7 (.bin (.bxor .u64) (.var 7) (.var 62)),
    .asg 50 (.bin (.bxor .u64) (.bin (.shl .u64) (.var 7) (.lit 62)) (.bin (.shr .u64) (.var 7) (.lit 2))),
    .asg 13 (.bin (.bxor .u64) (.var 13) (.var 63)),
    .asg 51 (.bin (.bxor .u64) (.bin (.shl .u64) (.var 13) (.lit 55)) (.bin (.shr .u64) (.var 13) (.lit 9))),
    .asg 19 (.bin (.bxor .u64) (.var 19) (.var 64)),
    .asg 52 (.bin (.bxor .u64) (.bin (.shl .u64) (.var 19) (.lit 39)) (.bin (.shr .u64) (.var 19) (.lit 25))),
    .asg 20 (.bin (.bxor .u64) (.var 20) (.var 60)),
    .asg 53 (.bin (.bxor .u64) (.bin (.shl .u64) (.var 20) (.lit 41)) (.bin (.shr .u64) (.var 20) (.lit 23))),
    .asg 26 (.bin (.bxor .u64) (.var 26) (.var 61)),
    .asg 54 (.bin (.bxor .u64) (.bin (.shl .u64) (.var 26) (.lit 2)) (.bin (.shr .u64) (.var 26) (.lit 62))),
    .asg 85 (.bin (.bxor .u64) (.var 50) (.bin (.band .u64) (.un (.bnot .u64) (.var 51)) (.var 52))),
    .asg 55 (.bin (.bxor .u64) (.var 55) (.var 85))]

/-- part of `KeccakF1600_FastLoop_Absorb` -/
def KeccakF1600_FastLoop_Absorb.part47 : Stmt :=
  block [
    .asg 86 (.bin (.bxor .u64) (.var 51) (.bin (.band .u64) (.un (.bnot .u64) (.var 52)) (.var 53))),
    .asg 56 (.bin (.bxor .u64) (.var 56) (.var 86)),
    .asg 87 (.bin (.bxor .u64) (.var 52) (.bin (.band .u64) (.un (.bnot .u64) (.var 53)) (.var 54))),
    .asg 57 (.bin (.bxor .u64) (.var 57) (.var 87)),
    .asg 88 (.bin (.bxor .u64) (.var 53) (.bin (.band .u64) (.un (.bnot .u64) (.var 54)) (.var 50))),
    .asg 58 (.bin (.bxor .u64) (.var 58) (.var 88)),
    .asg 89 (.bin (.bxor .u64) (.var 54) (.bin (.band .u64) (.un (.bnot .u64) (.var 50)) (.var 51))),
    .asg 59 (.bin (.bxor .u64) (.var 59) (.var 89)),
    .asg 60 (.bin (.bxor .u64) (.var 59) (.bin (.bxor .u64) (.bin (.shl .u64) (.var 56) (.lit 1)) (.bin (.shr .u64)
      (.var 56) (.lit 63)))),
    .asg 61 (.bin (.bxor .u64) (.var 55) (.bin (.bxor .u64) (.bin (.shl .u64) (.var 57) (.lit 1)) (.bin (.shr .u64)
      (.var 57) (.lit 63)))),
    .asg 62 (.bin (.bxor .u64) (.var 56) (.bin (.bxor .u64) (.bin (.shl .u64) (.var 58) (.lit 1)) (.bin (.shr .u64)
      (.var 58) (.lit 63)))),
    .asg 63 (.bin (.bxor .u64) (.var 57) (.bin (.bxor .u64) (.bin (.shl .u64) (.var 59) (.lit 1)) (.bin (.shr .u64)
      (.var 59) (.lit 63)))),
    .asg 64 (.bin (.bxor .u64) (.var 58) (.bin (.bxor .u64) (.bin (.shl .u64) (.var 55) (.lit 1)) (.bin (.shr .u64)
      (.var 55) (.lit 63)))),
    .asg 65 (.bin (.bxor .u64) (.var 65) (.var 60)),
    .asg 30 (.var 65),
    .asg 71 (.bin (.bxor .u64) (.var 71) (.var 61)),
    .asg 31 (.bin (.bxor .u64) (.bin (.shl .u64) (.var 71) (.lit 44)) (.bin (.shr .u64) (.var 71) (.lit 20))),
    .asg 77 (.bin (.bxor .u64) (.var 77) (.var 62)),
    .asg 32 (.bin (.bxor .u64) (.bin (.shl .u64) (.var 77) (.lit 43)) (.bin (.shr .u64) (.var 77) (.lit 21))),
    .asg 83 (.bin (.bxor .u64) (.var 83) (.var 63)),
    .asg 33 (.bin (.bxor .u64) (.bin (.shl .u64) (.var 83) (.lit 21)) (.bin (.shr .u64) (.var 83) (.lit 43))),
    .asg 89 (.bin (.bxor .u64) (.var 89) (.var 64)),
    .asg 34 (.bin (.bxor .u64) (.bin (.shl .u64) (.var 89) (.lit 14)) (.bin (.shr .u64) (.var 89) (.lit 50))),
    .asg 5 (.bin (.bxor .u64) (.var 30) (.bin (.band .u64) (.un (.bnot .u64) (.var 31)) (.var 32))),
    .asg 5 (.bin (.bxor .u64) (.var 5) (.ld 8 (.padd (.glob 0) (.lit 17) 8))),
    .asg 55 (.var 5),
    .asg 6 (.bin (.bxor .u64) (.var 31) (.bin (.band .u64) (.un (.bnot .u64) (.var 32)) (.var 33))),
    .asg 56 (.var 6),
    .asg 7 (.bin (.bxor .u64) (.var 32) (.bin (.band .u64) (.un (.bnot .u64) (.var 33)) (.var 34))),
    .asg 57 (.var 7),
    .asg 8 (.bin (.bxor .u64) (.var 33) (.bin (.band .u64) (.un (.bnot .u64) (.var 34)) (.var 30))),
    .asg 58 (.var 8),
    .asg 9 (.bin (.bxor .u64) (.var 34) (.bin (.band .u64) (.un (.bnot .u64) (.var 30)) (.var 31))),
    .asg 59 (.var 9),
    .asg 68 (.bin (.bxor .u64) (.var 68) (.var 63)),
    .asg 35 (.bin (.bxor .u64) (.bin (.shl .u64) (.var 68) (.lit 28)) (.bin (.shr .u64) (.var 68) (.lit 36))),
    .asg 74 (.bin (.bxor .u64) (.var 74) (.var 64)),
    .asg 36 (.bin (.bxor .u64) (.bin (.shl .u64) (.var 74) (.lit 20)) (.bin (.shr .u64) (.var 74) (.lit 44))),
    .asg 75 (.bin (.bxor .u64) (.var 75) (.var 60)),
    .asg 37 (.bin (.bxor .u64) (.bin (.shl .u64) (.var 75) (.lit 3)) (.bin (.shr .u64) (.var 75) (.lit 61)))]

/-- part of `KeccakF1600_FastLoop_Absorb` -/
def KeccakF1600_FastLoop_Absorb.part48 : Stmt :=
  block [
    .asg 81 (.bin (.bxor .u64) (.var 81) (.var 61)),
    .asg 38 (.bin (.bxor .u64) (.bin (.shl .u64) (.var 81) (.lit 45)) (.bin (.shr .u64) (.var 81) (.lit 19))),
    .asg 87 (.bin (.bxor .u64) (.var 87) (.var 62)),
    .asg 39 (.bin (.bxor .u64) (.bin (.shl .u64) (.var 87) (.lit 61)) (.bin (.shr .u64) (.var 87) (.lit 3))),
    .asg 10 (.bin (.bxor .u64) (.var 35) (.bin (.band .u64) (.un (.bnot .u64) (.var 36)) (.var 37))),
    .asg 55 (.bin (.bxor .u64) (.var 55) (.var 10)),
    .asg 11 (.bin (.bxor .u64) (.var 36) (.bin (.band .u64) (.un (.bnot .u64) (.var 37)) (.var 38))),
    .asg 56 (.bin (.bxor .u64) (.var 56) (.var 11)),
    .asg 12 (.bin (.bxor .u64) (.var 37) (.bin (.band .u64) (.un (.bnot .u64) (.var 38)) (.var 39))),
    .asg 57 (.bin (.bxor .u64) (.var 57) (.var 12)),
    .asg 13 (.bin (.bxor .u64) (.var 38) (.bin (.band .u64) (.un (.bnot .u64) (.var 39)) (.var 35))),
    .asg 58 (.bin (.bxor .u64) (.var 58) (.var 13)),
    .asg 14 (.bin (.bxor .u64) (.var 39) (.bin (.band .u64) (.un (.bnot .u64) (.var 35)) (.var 36))),
    .asg 59 (.bin (.bxor .u64) (.var 59) (.var 14)),
    .asg 66 (.bin (.bxor .u64) (.var 66) (.var 61)),
    .asg 40 (.bin (.bxor .u64) (.bin (.shl .u64) (.var 66) (.lit 1)) (.bin (.shr .u64) (.var 66) (.lit 63))),
    .asg 72 (.bin (.bxor .u64) (.var 72) (.var 62)),
    .asg 41 (.bin (.bxor .u64) (.bin (.shl .u64) (.var 72) (.lit 6)) (.bin (.shr .u64) (.var 72) (.lit 58))),
    .asg 78 (.bin (.bxor .u64) (.var 78) (.var 63)),
    .asg 42 (.bin (.bxor .u64) (.bin (.shl .u64) (.var 78) (.lit 25)) (.bin (.shr .u64) (.var 78) (.lit 39))),
    .asg 84 (.bin (.bxor .u64) (.var 84) (.var 64)),
    .asg 43 (.bin (.bxor .u64) (.bin (.shl .u64) (.var 84) (.lit 8)) (.bin (.shr .u64) (.var 84) (.lit 56))),
    .asg 85 (.bin (.bxor .u64) (.var 85) (.var 60)),
    .asg 44 (.bin (.bxor .u64) (.bin (.shl .u64) (.var 85) (.lit 18)) (.bin (.shr .u64) (.var 85) (.lit 46))),
    .asg 15 (.bin (.bxor .u64) (.var 40) (.bin (.band .u64) (.un (.bnot .u64) (.var 41)) (.var 42))),
    .asg 55 (.bin (.bxor .u64) (.var 55) (.var 15)),
    .asg 16 (.bin (.bxor .u64) (.var 41) (.bin (.band .u64) (.un (.bnot .u64) (.var 42)) (.var 43))),
    .asg 56 (.bin (.bxor .u64) (.var 56) (.var 16)),
    .asg 17 (.bin (.bxor .u64) (.var 42) (.bin (.band .u64) (.un (.bnot .u64) (.var 43)) (.var 44))),
    .asg 57 (.bin (.bxor .u64) (.var 57) (.var 17)),
    .asg 18 (.bin (.bxor .u64) (.var 43) (.bin (.band .u64) (.un (.bnot .u64) (.var 44)) (.var 40))),
    .asg 58 (.bin (.bxor .u64) (.var 58) (.var 18)),
    .asg 19 (.bin (.bxor .u64) (.var 44) (.bin (.band .u64) (.un (.bnot .u64) (.var 40)) (.var 41))),
    .asg 59 (.bin (.bxor .u64) (.var 59) (.var 19)),
    .asg 69 (.bin (.bxor .u64) (.var 69) (.var 64)),
    .asg 45 (.bin (.bxor .u64) (.bin (.shl .u64) (.var 69) (.lit 27)) (.bin (.shr .u64) (.var 69) (.lit 37))),
    .asg 70 (.bin (.bxor .u64) (.var 70) (.var 60)),
    .asg 46 (.bin (.bxor .u64) (.bin (.shl .u64) (.var 70) (.lit 36)) (.bin (.shr .u64) (.var 70) (.lit 28))),
    .asg 76 (.bin (.bxor .u64) (.var 76) (.var 61)),
    .asg 47 (.bin (.bxor .u64) (.bin (.shl .u64) (.var 76) (.lit 10)) (.bin (.shr .u64) (.var 76) (.lit 54)))]

/-- part of `KeccakF1600_FastLoop_Absorb` -/
def KeccakF1600_FastLoop_Absorb.part49 : Stmt :=
  block [
    .asg 82 (.bin (.bxor .u64) (.var 82) (.var 62)),
    .asg 48 (.bin (.bxor .u64) (.bin (.shl .u64) (.var 82) (.lit 15)) (.bin (.shr .u64) (.var 82) (.lit 49))),
    .asg 88 (.bin (.bxor .u64) (.var 88) (.var 63)),
    .asg 49 (.bin (.bxor .u64) (.bin (.shl .u64) (.var 88) (.lit 56)) (.bin (.shr .u64) (.var 88) (.lit 8))),
    .asg 20 (.bin (.bxor .u64) (.var 45) (.bin (.band .u64) (.un (.bnot .u64) (.var 46)) (.var 47))),
    .asg 55 (.bin (.bxor .u64) (.var 55) (.var 20)),
    .asg 21 (.bin (.bxor .u64) (.var 46) (.bin (.band .u64) (.un (.bnot .u64) (.var 47)) (.var 48))),
    .asg 56 (.bin (.bxor .u64) (.var 56) (.var 21)),
    .asg 22 (.bin (.bxor .u64) (.var 47) (.bin (.band .u64) (.un (.bnot .u64) (.var 48)) (.var 49))),
    .asg 57 (.bin (.bxor .u64) (.var 57) (.var 22)),
    .asg 23 (.bin (.bxor .u64) (.var 48) (.bin (.band .u64) (.un (.bnot .u64) (.var 49)) (.var 45))),
    .asg 58 (.bin (.bxor .u64) (.var 58) (.var 23)),
    .asg 24 (.bin (.bxor .u64) (.var 49) (.bin (.band .u64) (.un (.bnot .u64) (.var 45)) (.var 46))),
    .asg 59 (.bin (.bxor .u64) (.var 59) (.var 24)),
    .asg 67 (.bin (.bxor .u64) (.var 67) (.var 62)),
    .asg 50 (.bin (.bxor .u64) (.bin (.shl .u64) (.var 67) (.lit 62)) (.bin (.shr .u64) (.var 67) (.lit 2))),
    .asg 73 (.bin (.bxor .u64) (.var 73) (.var 63)),
    .asg 51 (.bin (.bxor .u64) (.bin (.shl .u64) (.var 73) (.lit 55)) (.bin (.shr .u64) (.var 73) (.lit 9))),
    .asg 79 (.bin (.bxor .u64) (.var 79) (.var 64)),
    .asg 52 (.bin (.bxor .u64) (.bin (.shl .u64) (.var 79) (.lit 39)) (.bin (.shr .u64) (.var 79) (.lit 25))),
    .asg 80 (.bin (.bxor .u64) (.var 80) (.var 60)),
    .asg 53 (.bin (.bxor .u64) (.bin (.shl .u64) (.var 80) (.lit 41)) (.bin (.shr .u64) (.var 80) (.lit 23))),
    .asg 86 (.bin (.bxor .u64) (.var 86) (.var 61)),
    .asg 54 (.bin (.bxor .u64) (.bin (.shl .u64) (.var 86) (.lit 2)) (.bin (.shr .u64) (.var 86) (.lit 62))),
    .asg 25 (.bin (.bxor .u64) (.var 50) (.bin (.band .u64) (.un (.bnot .u64) (.var 51)) (.var 52))),
    .asg 55 (.bin (.bxor .u64) (.var 55) (.var 25)),
    .asg 26 (.bin (.bxor .u64) (.var 51) (.bin (.band .u64) (.un (.bnot .u64) (.var 52)) (.var 53))),
    .asg 56 (.bin (.bxor .u64) (.var 56) (.var 26)),
    .asg 27 (.bin (.bxor .u64) (.var 52) (.bin (.band .u64) (.un (.bnot .u64) (.var 53)) (.var 54))),
    .asg 57 (.bin (.bxor .u64) (.var 57) (.var 27)),
    .asg 28 (.bin (.bxor .u64) (.var 53) (.bin (.band .u64) (.un (.bnot .u64) (.var 54)) (.var 50))),
    .asg 58 (.bin (.bxor .u64) (.var 58) (.var 28)),
    .asg 29 (.bin (.bxor .u64) (.var 54) (.bin (.band .u64) (.un (.bnot .u64) (.var 50)) (.var 51))),
    .asg 59 (.bin (.bxor .u64) (.var 59) (.var 29)),
    .asg 60 (.bin (.bxor .u64) (.var 59) (.bin (.bxor .u64) (.bin (.shl .u64) (.var 56) (.lit 1)) (.bin (.shr .u64)
      (.var 56) (.lit 63)))),
    .asg 61 (.bin (.bxor .u64) (.var 55) (.bin (.bxor .u64) (.bin (.shl .u64) (.var 57) (.lit 1)) (.bin (.shr .u64)
      (.var 57) (.lit 63)))),
    .asg 62 (.bin (.bxor .u64) (.var 56) (.bin (.bxor .u64) (.bin (.shl .u64) (.var 58) (.lit 1)) (.bin (.shr .u64)
      (.var 58) (.lit 63)))),
    .asg 63 (.bin (.bxor .u64) (.var 57) (.bin (.bxor .u64) (.bin (.shl .u64) (.var 59) (.lit 1)) (.bin (.shr .u64)
      (.var 59) (.lit 63)))),
    .asg 64 (.bin (.bxor .u64) (.var 58) (.bin (.bxor .u64) (.bin (.shl .u64) (.var 55) (.lit 1)) (.bin (.shr .u64)
      (.var 55) (.lit 63)))),
    .asg 5 (.bin (.bxor .u64) (.var 5) (.var 60))]

/-- part of `KeccakF1600_FastLoop_Absorb` -/
def KeccakF1600_FastLoop_Absorb.part50 : Stmt :=
  block [
    .asg 30 (.var 5),
    .asg 11 (.bin (.bxor .u64) (.var 11) (.var 61)),
    .asg 31 (.bin (.bxor .u64) (.bin (.shl .u64) (.var 11) (.lit 44)) (.bin (.shr .u64) (.var 11) (.lit 20))),
    .asg 17 (.bin (.bxor .u64) (.var 17) (.var 62)),
    .asg 32 (.bin (.bxor .u64) (.bin (.shl .u64) (.var 17) (.lit 43)) (.bin (.shr .u64) (.var 17) (.lit 21))),
    .asg 23 (.bin (.bxor .u64) (.var 23) (.var 63)),
    .asg 33 (.bin (.bxor .u64) (.bin (.shl .u64) (.var 23) (.lit 21)) (.bin (.shr .u64) (.var 23) (.lit 43))),
    .asg 29 (.bin (.bxor .u64) (.var 29) (.var 64)),
    .asg 34 (.bin (.bxor .u64) (.bin (.shl .u64) (.var 29) (.lit 14)) (.bin (.shr .u64) (.var 29) (.lit 50))),
    .asg 65 (.bin (.bxor .u64) (.var 30) (.bin (.band .u64) (.un (.bnot .u64) (.var 31)) (.var 32))),
    .asg 65 (.bin (.bxor .u64) (.var 65) (.ld 8 (.padd (.glob 0) (.lit 18) 8))),
    .asg 55 (.var 65),
    .asg 66 (.bin (.bxor .u64) (.var 31) (.bin (.band .u64) (.un (.bnot .u64) (.var 32)) (.var 33))),
    .asg 56 (.var 66),
    .asg 67 (.bin (.bxor .u64) (.var 32) (.bin (.band .u64) (.un (.bnot .u64) (.var 33)) (.var 34))),
    .asg 57 (.var 67),
    .asg 68 (.bin (.bxor .u64) (.var 33) (.bin (.band .u64) (.un (.bnot .u64) (.var 34)) (.var 30))),
    .asg 58 (.var 68),
    .asg 69 (.bin (.bxor .u64) (.var 34) (.bin (.band .u64) (.un (.bnot .u64) (.var 30)) (.var 31))),
    .asg 59 (.var 69),
    .asg 8 (.bin (.bxor .u64) (.var 8) (.var 63)),
    .asg 35 (.bin (.bxor .u64) (.bin (.shl .u64) (.var 8) (.lit 28)) (.bin (.shr .u64) (.var 8) (.lit 36))),
    .asg 14 (.bin (.bxor .u64) (.var 14) (.var 64)),
    .asg 36 (.bin (.bxor .u64) (.bin (.shl .u64) (.var 14) (.lit 20)) (.bin (.shr .u64) (.var 14) (.lit 44))),
    .asg 15 (.bin (.bxor .u64) (.var 15) (.var 60)),
    .asg 37 (.bin (.bxor .u64) (.bin (.shl .u64) (.var 15) (.lit 3)) (.bin (.shr .u64) (.var 15) (.lit 61))),
    .asg 21 (.bin (.bxor .u64) (.var 21) (.var 61)),
    .asg 38 (.bin (.bxor .u64) (.bin (.shl .u64) (.var 21) (.lit 45)) (.bin (.shr .u64) (.var 21) (.lit 19))),
    .asg 27 (.bin (.bxor .u64) (.var 27) (.var 62)),
    .asg 39 (.bin (.bxor .u64) (.bin (.shl .u64) (.var 27) (.lit 61)) (.bin (.shr .u64) (.var 27) (.lit 3))),
    .asg 70 (.bin (.bxor .u64) (.var 35) (.bin (.band .u64) (.un (.bnot .u64) (.var 36)) (.var 37))),
    .asg 55 (.bin (.bxor .u64) (.var 55) (.var 70)),
    .asg 71 (.bin (.bxor .u64) (.var 36) (.bin (.band .u64) (.un (.bnot .u64) (.var 37)) (.var 38))),
    .asg 56 (.bin (.bxor .u64) (.var 56) (.var 71)),
    .asg 72 (.bin (.bxor .u64) (.var 37) (.bin (.band .u64) (.un (.bnot .u64) (.var 38)) (.var 39))),
    .asg 57 (.bin (.bxor .u64) (.var 57) (.var 72)),
    .asg 73 (.bin (.bxor .u64) (.var 38) (.bin (.band .u64) (.un (.bnot .u64) (.var 39)) (.var 35))),
    .asg 58 (.bin (.bxor .u64) (.var 58) (.var 73)),
    .asg 74 (.bin (.bxor .u64) (.var 39) (.bin (.band .u64) (.un (.bnot .u64) (.var 35)) (.var 36))),
    .asg 59 (.bin (.bxor .u64) (.var 59) (.var 74))]

/-- part of `KeccakF1600_FastLoop_Absorb` -/
def KeccakF1600_FastLoop_Absorb.part51 : Stmt :=
  block [
    .asg 6 (.bin (.bxor .u64) (.var 6) (.var 61)),
    .asg 40 (.bin (.bxor .u64) (.bin (.shl .u64) (.var 6) (.lit 1)) (.bin (.shr .u64) (.var 6) (.lit 63))),
    .asg 12 (.bin (.bxor .u64) (.var 12) (.var 62)),
    .asg 41 (.bin (.bxor .u64) (.bin (.shl .u64) (.var 12) (.lit 6)) (.bin (.shr .u64) (.var 12) (.lit 58))),
    .asg 18 (.bin (.bxor .u64) (.var 18) (.var 63)),
    .asg 42 (.bin (.bxor .u64) (.bin (.shl .u64) (.var 18) (.lit 25)) (.bin (.shr .u64) (.var 18) (.lit 39))),
    .asg 24 (.bin (.bxor .u64) (.var 24) (.var 64)),
    .asg 43 (.bin (.bxor .u64) (.bin (.shl .u64) (.var 24) (.lit 8)) (.bin (.shr .u64) (.var 24) (.lit 56))),
    .asg 25 (.bin (.bxor .u64) (.var 25) (.var 60)),
    .asg 44 (.bin (.bxor .u64) (.bin (.shl .u64) (.var 25) (.lit 18)) (.bin (.shr .u64) (.var 25) (.lit 46))),
    .asg 75 (.bin (.bxor .u64) (.var 40) (.bin (.band .u64) (.un (.bnot .u64) (.var 41)) (.var 42))),
    .asg 55 (.bin (.bxor .u64) (.var 55) (.var 75)),
    .asg 76 (.bin (.bxor .u64) (.var 41) (.bin (.band .u64) (.un (.bnot .u64) (.var 42)) (.var 43))),
    .asg 56 (.bin (.bxor .u64) (.var 56) (.var 76)),
    .asg 77 (.bin (.bxor .u64) (.var 42) (.bin (.band .u64) (.un (.bnot .u64) (.var 43)) (.var 44))),
    .asg 57 (.bin (.bxor .u64) (.var 57) (.var 77)),
    .asg 78 (.bin (.bxor .u64) (.var 43) (.bin (.band .u64) (.un (.bnot .u64) (.var 44)) (.var 40))),
    .asg 58 (.bin (.bxor .u64) (.var 58) (.var 78)),
    .asg 79 (.bin (.bxor .u64) (.var 44) (.bin (.band .u64) (.un (.bnot .u64) (.var 40)) (.var 41))),
    .asg 59 (.bin (.bxor .u64) (.var 59) (.var 79)),
    .asg 9 (.bin (.bxor .u64) (.var 9) (.var 64)),
    .asg 45 (.bin (.bxor .u64) (.bin (.shl .u64) (.var 9) (.lit 27)) (.bin (.shr .u64) (.var 9) (.lit 37))),
    .asg 10 (.bin (.bxor .u64) (.var 10) (.var 60)),
    .asg 46 (.bin (.bxor .u64) (.bin (.shl .u64) (.var 10) (.lit 36)) (.bin (.shr .u64) (.var 10) (.lit 28))),
    .asg 16 (.bin (.bxor .u64) (.var 16) (.var 61)),
    .asg 47 (.bin (.bxor .u64) (.bin (.shl .u64) (.var 16) (.lit 10)) (.bin (.shr .u64) (.var 16) (.lit 54))),
    .asg 22 (.bin (.bxor .u64) (.var 22) (.var 62)),
    .asg 48 (.bin (.bxor .u64) (.bin (.shl .u64) (.var 22) (.lit 15)) (.bin (.shr .u64) (.var 22) (.lit 49))),
    .asg 28 (.bin (.bxor .u64) (.var 28) (.var 63)),
    .asg 49 (.bin (.bxor .u64) (.bin (.shl .u64) (.var 28) (.lit 56)) (.bin (.shr .u64) (.var 28) (.lit 8))),
    .asg 80 (.bin (.bxor .u64) (.var 45) (.bin (.band .u64) (.un (.bnot .u64) (.var 46)) (.var 47))),
    .asg 55 (.bin (.bxor .u64) (.var 55) (.var 80)),
    .asg 81 (.bin (.bxor .u64) (.var 46) (.bin (.band .u64) (.un (.bnot .u64) (.var 47)) (.var 48))),
    .asg 56 (.bin (.bxor .u64) (.var 56) (.var 81)),
    .asg 82 (.bin (.bxor .u64) (.var 47) (.bin (.band .u64) (.un (.bnot .u64) (.var 48)) (.var 49))),
    .asg 57 (.bin (.bxor .u64) (.var 57) (.var 82)),
    .asg 83 (.bin (.bxor .u64) (.var 48) (.bin (.band .u64) (.un (.bnot .u64) (.var 49)) (.var 45))),
    .asg 58 (.bin (.bxor .u64) (.var 58) (.var 83)),
    .asg 84 (.bin (.bxor .u64) (.var 49) (.bin (.band .u64) (.un (.bnot .u64) (.var 45)) (.var 46))),
    .asg 59 (.bin (.bxor .u64) (.var 59) (.var 84))]

/-- part of `KeccakF1600_FastLoop_Absorb` -/
def KeccakF1600_FastLoop_Absorb.part52 : Stmt :=
  block [
    .asg 7 (.bin (.bxor .u64) (.var 7) (.var 62)),
    .asg 50 (.bin (.bxor .u64) (.bin (.shl .u64) (.var 7) (.lit 62)) (.bin (.shr .u64) (.var 7) (.lit 2))),
    .asg 13 (.bin (.bxor .u64) (.var 13) (.var 63)),
    .asg 51 (.bin (.bxor .u64) (.bin (.shl .u64) (.var 13) (.lit 55)) (.bin (.shr .u64) (.var 13) (.lit 9))),
    .asg 19 (.bin (.bxor .u64) (.var 19) (.var 64)),
    .asg 52 (.bin (.bxor .u64) (.bin (.shl .u64) (.var 19) (.lit 39)) (.bin (.shr .u64) (.var 19) (.lit 25))),
    .asg 20 (.bin (.bxor .u64) (.var 20) (.var 60)),
    .asg 53 (.bin (.bxor .u64) (.bin (.shl .u64) (.var 20) (.lit 41)) (.bin (.shr .u64) (.var 20) (.lit 23))),
    .asg 26 (.bin (.bxor .u64) (.var 26) (.var 61)),
    .asg 54 (.bin (.bxor .u64) (.bin (.shl .u64) (.var 26) (.lit 2)) (.bin (.shr .u64) (.var 26) (.lit 62))),
    .asg 85 (.bin (.bxor .u64) (.var 50) (.bin (.band .u64) (.un (.bnot .u64) (.var 51)) (.var 52))),
    .asg 55 (.bin (.bxor .u64) (.var 55) (.var 85)),
    .asg 86 (.bin (.bxor .u64) (.var 51) (.bin (.band .u64) (.un (.bnot .u64) (.var 52)) (.var 53))),
    .asg 56 (.bin (.bxor .u64) (.var 56) (.var 86)),
    .asg 87 (.bin (.bxor .u64) (.var 52) (.bin (.band .u64) (.un (.bnot .u64) (.var 53)) (.var 54))),
    .asg 57 (.bin (.bxor .u64) (.var 57) (.var 87)),
    .asg 88 (.bin (.bxor .u64) (.var 53) (.bin (.band .u64) (.un (.bnot .u64) (.var 54)) (.var 50))),
    .asg 58 (.bin (.bxor .u64) (.var 58) (.var 88)),
    .asg 89 (.bin (.bxor .u64) (.var 54) (.bin (.band .u64) (.un (.bnot .u64) (.var 50)) (.var 51))),
    .asg 59 (.bin (.bxor .u64) (.var 59) (.var 89)),
    .asg 60 (.bin (.bxor .u64) (.var 59) (.bin (.bxor .u64) (.bin (.shl .u64) (.var 56) (.lit 1)) (.bin (.shr .u64)
      (.var 56) (.lit 63)))),
    .asg 61 (.bin (.bxor .u64) (.var 55) (.bin (.bxor .u64) (.bin (.shl .u64) (.var 57) (.lit 1)) (.bin (.shr .u64)
      (.var 57) (.lit 63)))),
    .asg 62 (.bin (.bxor .u64) (.var 56) (.bin (.bxor .u64) (.bin (.shl .u64) (.var 58) (.lit 1)) (.bin (.shr .u64)
      (.var 58) (.lit 63)))),
    .asg 63 (.bin (.bxor .u64) (.var 57) (.bin (.bxor .u64) (.bin (.shl .u64) (.var 59) (.lit 1)) (.bin (.shr .u64)
      (.var 59) (.lit 63)))),
    .asg 64 (.bin (.bxor .u64) (.var 58) (.bin (.bxor .u64) (.bin (.shl .u64) (.var 55) (.lit 1)) (.bin (.shr .u64)
      (.var 55) (.lit 63)))),
    .asg 65 (.bin (.bxor .u64) (.var 65) (.var 60)),
    .asg 30 (.var 65),
    .asg 71 (.bin (.bxor .u64) (.var 71) (.var 61)),
    .asg 31 (.bin (.bxor .u64) (.bin (.shl .u64) (.var 71) (.lit 44)) (.bin (.shr .u64) (.var 71) (.lit 20))),
    .asg 77 (.bin (.bxor .u64) (.var 77) (.var 62)),
    .asg 32 (.bin (.bxor .u64) (.bin (.shl .u64) (.var 77) (.lit 43)) (.bin (.shr .u64) (.var 77) (.lit 21))),
    .asg 83 (.bin (.bxor .u64) (.var 83) (.var 63)),
    .asg 33 (.bin (.bxor .u64) (.bin (.shl .u64) (.var 83) (.lit 21)) (.bin (.shr .u64) (.var 83) (.lit 43))),
    .asg 89 (.bin (.bxor .u64) (.var 89) (.var 64)),
    .asg 34 (.bin (.bxor .u64) (.bin (.shl .u64) (.var 89) (.lit 14)) (.bin (.shr .u64) (.var 89) (.lit 50))),
    .asg 5 (.bin (.bxor .u64) (.var 30) (.bin (.band .u64) (.un (.bnot .u64) (.var 31)) (.var 32))),
    .asg 5 (.bin (.bxor .u64) (.var 5) (.ld 8 (.padd (.glob 0) (.lit 19) 8))),
    .asg 55 (.var 5),
    .asg 6 (.bin (.bxor .u64) (.var 31) (.bin (.band .u64) (.un (.bnot .u64) (.var 32)) (.var 33))),
    .asg 56 (.var 6)]

/-- part of `KeccakF1600_FastLoop_Absorb` -/
def KeccakF1600_FastLoop_Absorb.part53 : Stmt :=
  block [
    .asg 7 (.bin (.bxor .u64) (.var 32) (.bin (.band .u64) (.un (.bnot .u64) (.var 33)) (.var 34))),
    .asg 57 (.var 7),
    .asg 8 (.bin (.bxor .u64) (.var 33) (.bin (.band .u64) (.un (.bnot .u64) (.var 34)) (.var 30))),
    .asg 58 (.var 8),
    .asg 9 (.bin (.bxor .u64) (.var 34) (.bin (.band .u64) (.un (.bnot .u64) (.var 30)) (.var 31))),
    .asg 59 (.var 9),
    .asg 68 (.bin (.bxor .u64) (.var 68) (.var 63)),
    .asg 35 (.bin (.bxor .u64) (.bin (.shl .u64) (.var 68) (.lit 28)) (.bin (.shr .u64) (.var 68) (.lit 36))),
    .asg 74 (.bin (.bxor .u64) (.var 74) (.var 64)),
    .asg 36 (.bin (.bxor .u64) (.bin (.shl .u64) (.var 74) (.lit 20)) (.bin (.shr .u64) (.var 74) (.lit 44))),
    .asg 75 (.bin (.bxor .u64) (.var 75) (.var 60)),
    .asg 37 (.bin (.bxor .u64) (.bin (.shl .u64) (.var 75) (.lit 3)) (.bin (.shr .u64) (.var 75) (.lit 61))),
    .asg 81 (.bin (.bxor .u64) (.var 81) (.var 61)),
    .asg 38 (.bin (.bxor .u64) (.bin (.shl .u64) (.var 81) (.lit 45)) (.bin (.shr .u64) (.var 81) (.lit 19))),
    .asg 87 (.bin (.bxor .u64) (.var 87) (.var 62)),
    .asg 39 (.bin (.bxor .u64) (.bin (.shl .u64) (.var 87) (.lit 61)) (.bin (.shr .u64) (.var 87) (.lit 3))),
    .asg 10 (.bin (.bxor .u64) (.var 35) (.bin (.band .u64) (.un (.bnot .u64) (.var 36)) (.var 37))),
    .asg 55 (.bin (.bxor .u64) (.var 55) (.var 10)),
    .asg 11 (.bin (.bxor .u64) (.var 36) (.bin (.band .u64) (.un (.bnot .u64) (.var 37)) (.var 38))),
    .asg 56 (.bin (.bxor .u64) (.var 56) (.var 11)),
    .asg 12 (.bin (.bxor .u64) (.var 37) (.bin (.band .u64) (.un (.bnot .u64) (.var 38)) (.var 39))),
    .asg 57 (.bin (.bxor .u64) (.var 57) (.var 12)),
    .asg 13 (.bin (.bxor .u64) (.var 38) (.bin (.band .u64) (.un (.bnot .u64) (.var 39)) (.var 35))),
    .asg 58 (.bin (.bxor .u64) (.var 58) (.var 13)),
    .asg 14 (.bin (.bxor .u64) (.var 39) (.bin (.band .u64) (.un (.bnot .u64) (.var 35)) (.var 36))),
    .asg 59 (.bin (.bxor .u64) (.var 59) (.var 14)),
    .asg 66 (.bin (.bxor .u64) (.var 66) (.var 61)),
    .asg 40 (.bin (.bxor .u64) (.bin (.shl .u64) (.var 66) (.lit 1)) (.bin (.shr .u64) (.var 66) (.lit 63))),
    .asg 72 (.bin (.bxor .u64) (.var 72) (.var 62)),
    .asg 41 (.bin (.bxor .u64) (.bin (.shl .u64) (.var 72) (.lit 6)) (.bin (.shr .u64) (.var 72) (.lit 58))),
    .asg 78 (.bin (.bxor .u64) (.var 78) (.var 63)),
    .asg 42 (.bin (.bxor .u64) (.bin (.shl .u64) (.var 78) (.lit 25)) (.bin (.shr .u64) (.var 78) (.lit 39))),
    .asg 84 (.bin (.bxor .u64) (.var 84) (.var 64)),
    .asg 43 (.bin (.bxor .u64) (.bin (.shl .u64) (.var 84) (.lit 8)) (.bin (.shr .u64) (.var 84) (.lit 56))),
    .asg 85 (.bin (.bxor .u64) (.var 85) (.var 60)),
    .asg 44 (.bin (.bxor .u64) (.bin (.shl .u64) (.var 85) (.lit 18)) (.bin (.shr .u64) (.var 85) (.lit 46))),
    .asg 15 (.bin (.bxor .u64) (.var 40) (.bin (.band .u64) (.un (.bnot .u64) (.var 41)) (.var 42))),
    .asg 55 (.bin (.bxor .u64) (.var 55) (.var 15)),
    .asg 16 (.bin (.bxor .u64) (.var 41) (.bin (.band .u64) (.un (.bnot .u64) (.var 42)) (.var 43))),
    .asg 56 (.bin (.bxor .u64) (.var 56) (.var 16))]

/-- part of `KeccakF1600_FastLoop_Absorb` -/
def KeccakF1600_FastLoop_Absorb.part54 : Stmt :=
  block [
    .asg 17 (.bin (.bxor .u64) (.var 42) (.bin (.band .u64) (.un (.bnot .u64) (.var 43)) (.var 44))),
    .asg 57 (.bin (.bxor .u64) (.var 57) (.var 17)),
    .asg 18 (.bin (.bxor .u64) (.var 43) (.bin (.band .u64) (.un (.bnot .u64) (.var 44)) (.var 40))),
    .asg 58 (.bin (.bxor .u64) (.var 58) (.var 18)),
    .asg 19 (.bin (.bxor .u64) (.var 44) (.bin (.band .u64) (.un (.bnot .u64) (.var 40)) (.var 41))),
    .asg 59 (.bin (.bxor .u64) (.var 59) (.var 19)),
    .asg 69 (.bin (.bxor .u64) (.var 69) (.var 64)),
    .asg 45 (.bin (.bxor .u64) (.bin (.shl .u64) (.var 69) (.lit 27)) (.bin (.shr .u64) (.var 69) (.lit 37))),
    .asg 70 (.bin (.bxor .u64) (.var 70) (.var 60)),
    .asg 46 (.bin (.bxor .u64) (.bin (.shl .u64) (.var 70) (.lit 36)) (.bin (.shr .u64) (.var 70) (.lit 28))),
    .asg 76 (.bin (.bxor .u64) (.var 76) (.var 61)),
    .asg 47 (.bin (.bxor .u64) (.bin (.shl .u64) (.var 76) (.lit 10)) (.bin (.shr .u64) (.var 76) (.lit 54))),
    .asg 82 (.bin (.bxor .u64) (.var 82) (.var 62)),
    .asg 48 (.bin (.bxor .u64) (.bin (.shl .u64) (.var 82) (.lit 15)) (.bin (.shr .u64) (.var 82) (.lit 49))),
    .asg 88 (.bin (.bxor .u64) (.var 88) (.var 63)),
    .asg 49 (.bin (.bxor .u64) (.bin (.shl .u64) (.var 88) (.lit 56)) (.bin (.shr .u64) (.var 88) (.lit 8))),
    .asg 20 (.bin (.bxor .u64) (.var 45) (.bin (.band .u64) (.un (.bnot .u64) (.var 46)) (.var 47))),
    .asg 55 (.bin (.bxor .u64) (.var 55) (.var 20)),
    .asg 21 (.bin (.bxor .u64) (.var 46) (.bin (.band .u64) (.un (.bnot .u64) (.var 47)) (.var 48))),
    .asg 56 (.bin (.bxor .u64) (.var 56) (.var 21)),
    .asg 22 (.bin (.bxor .u64) (.var 47) (.bin (.band .u64) (.un (.bnot .u64) (.var 48)) (.var 49))),
    .asg 57 (.bin (.bxor .u64) (.var 57) (.var 22)),
    .asg 23 (.bin (.bxor .u64) (.var 48) (.bin (.band .u64) (.un (.bnot .u64) (.var 49)) (.var 45))),
    .asg 58 (.bin (.bxor .u64) (.var 58) (.var 23)),
    .asg 24 (.bin (.bxor .u64) (.var 49) (.bin (.band .u64) (.un (.bnot .u64) (.var 45)) (.var 46))),
    .asg 59 (.bin (.bxor .u64) (.var 59) (.var 24)),
    .asg 67 (.bin (.bxor .u64) (.var 67) (.var 62)),
    .asg 50 (.bin (.bxor .u64) (.bin (.shl .u64) (.var 67) (.lit 62)) (.bin (.shr .u64) (.var 67) (.lit 2))),
    .asg 73 (.bin (.bxor .u64) (.var 73) (.var 63)),
    .asg 51 (.bin (.bxor .u64) (.bin (.shl .u64) (.var 73) (.lit 55)) (.bin (.shr .u64) (.var 73) (.lit 9))),
    .asg 79 (.bin (.bxor .u64) (.var 79) (.var 64)),
    .asg 52 (.bin (.bxor .u64) (.bin (.shl .u64) (.var 79) (.lit 39)) (.bin (.shr .u64) (.var 79) (.lit 25))),
    .asg 80 (.bin (.bxor .u64) (.var 80) (.var 60)),
    .asg 53 (.bin (.bxor .u64) (.bin (.shl .u64) (.var 80) (.lit 41)) (.bin (.shr .u64) (.var 80) (.lit 23))),
    .asg 86 (.bin (.bxor .u64) (.var 86) (.var 61)),
    .asg 54 (.bin (.bxor .u64) (.bin (.shl .u64) (.var 86) (.lit 2)) (.bin (.shr .u64) (.var 86) (.lit 62))),
    .asg 25 (.bin (.bxor .u64) (.var 50) (.bin (.band .u64) (.un (.bnot .u64) (.var 51)) (.var 52))),
    .asg 55 (.bin (.bxor .u64) (.var 55) (.var 25)),
    .asg 26 (.bin (.bxor .u64) (.var 51) (.bin (.band .u64) (.un (.bnot .u64) (.var 52)) (.var 53))),
    .asg 56 (.bin (.bxor .u64) (.var 56) (.var 26))]

/-- part of `KeccakF1600_FastLoop_Absorb` -/
def KeccakF1600_FastLoop_Absorb.part55 : Stmt :=
  block [
    .asg 27 (.bin (.bxor .u64) (.var 52) (.bin (.band .u64) (.un (.bnot .u64) (.var 53)) (.var 54))),
    .asg 57 (.bin (.bxor .u64) (.var 57) (.var 27)),
    .asg 28 (.bin (.bxor .u64) (.var 53) (.bin (.band .u64) (.un (.bnot .u64) (.var 54)) (.var 50))),
    .asg 58 (.bin (.bxor .u64) (.var 58) (.var 28)),
    .asg 29 (.bin (.bxor .u64) (.var 54) (.bin (.band .u64) (.un (.bnot .u64) (.var 50)) (.var 51))),
    .asg 59 (.bin (.bxor .u64) (.var 59) (.var 29)),
    .asg 60 (.bin (.bxor .u64) (.var 59) (.bin (.bxor .u64) (.bin (.shl .u64) (.var 56) (.lit 1)) (.bin (.shr .u64)
      (.var 56) (.lit 63)))),
    .asg 61 (.bin (.bxor .u64) (.var 55) (.bin (.bxor .u64) (.bin (.shl .u64) (.var 57) (.lit 1)) (.bin (.shr .u64)
      (.var 57) (.lit 63)))),
    .asg 62 (.bin (.bxor .u64) (.var 56) (.bin (.bxor .u64) (.bin (.shl .u64) (.var 58) (.lit 1)) (.bin (.shr .u64)
      (.var 58) (.lit 63)))),
    .asg 63 (.bin (.bxor .u64) (.var 57) (.bin (.bxor .u64) (.bin (.shl .u64) (.var 59) (.lit 1)) (.bin (.shr .u64)
      (.var 59) (.lit 63)))),
    .asg 64 (.bin (.bxor .u64) (.var 58) (.bin (.bxor .u64) (.bin (.shl .u64) (.var 55) (.lit 1)) (.bin (.shr .u64)
      (.var 55) (.lit 63)))),
    .asg 5 (.bin (.bxor .u64) (.var 5) (.var 60)),
    .asg 30 (.var 5),
    .asg 11 (.bin (.bxor .u64) (.var 11) (.var 61)),
    .asg 31 (.bin (.bxor .u64) (.bin (.shl .u64) (.var 11) (.lit 44)) (.bin (.shr .u64) (.var 11) (.lit 20))),
    .asg 17 (.bin (.bxor .u64) (.var 17) (.var 62)),
    .asg 32 (.bin (.bxor .u64) (.bin (.shl .u64) (.var 17) (.lit 43)) (.bin (.shr .u64) (.var 17) (.lit 21))),
    .asg 23 (.bin (.bxor .u64) (.var 23) (.var 63)),
    .asg 33 (.bin (.bxor .u64) (.bin (.shl .u64) (.var 23) (.lit 21)) (.bin (.shr .u64) (.var 23) (.lit 43))),
    .asg 29 (.bin (.bxor .u64) (.var 29) (.var 64)),
    .asg 34 (.bin (.bxor .u64) (.bin (.shl .u64) (.var 29) (.lit 14)) (.bin (.shr .u64) (.var 29) (.lit 50))),
    .asg 65 (.bin (.bxor .u64) (.var 30) (.bin (.band .u64) (.un (.bnot .u64) (.var 31)) (.var 32))),
    .asg 65 (.bin (.bxor .u64) (.var 65) (.ld 8 (.padd (.glob 0) (.lit 20) 8))),
    .asg 55 (.var 65),
    .asg 66 (.bin (.bxor .u64) (.var 31) (.bin (.band .u64) (.un (.bnot .u64) (.var 32)) (.var 33))),
    .asg 56 (.var 66),
    .asg 67 (.bin (.bxor .u64) (.var 32) (.bin (.band .u64) (.un (.bnot .u64) (.var 33)) (.var 34))),
    .asg 57 (.var 67),
    .asg 68 (.bin (.bxor .u64) (.var 33) (.bin (.band .u64) (.un (.bnot .u64) (.var 34)) (.var 30))),
    .asg 58 (.var 68),
    .asg 69 (.bin (.bxor .u64) (.var 34) (.bin (.band .u64) (.un (.bnot .u64) (.var 30)) (.var 31))),
    .asg 59 (.var 69),
    .asg 8 (.bin (.bxor .u64) (.var 8) (.var 63)),
    .asg 35 (.bin (.bxor .u64) (.bin (.shl .u64) (.var 8) (.lit 28)) (.bin (.shr .u64) (.var 8) (.lit 36))),
    .asg 14 (.bin (.bxor .u64) (.var 14) (.var 64)),
    .asg 36 (.bin (.bxor .u64) (.bin (.shl .u64) (.var 14) (.lit 20)) (.bin (.shr .u64) (.var 14) (.lit 44))),
    .asg 15 (.bin (.bxor .u64) (.var 15) (.var 60)),
    .asg 37 (.bin (.bxor .u64) (.bin (.shl .u64) (.var 15) (.lit 3)) (.bin (.shr .u64) (.var 15) (.lit 61))),
    .asg 21 (.bin (.bxor .u64) (.var 21) (.var 61)),
    .asg 38 (.bin (.bxor .u64) (.bin (.shl .u64) (.var 21) (.lit 45)) (.bin (.shr .u64) (.var 21) (.lit 19)))]

/-- part of `KeccakF1600_FastLoop_Absorb` -/
def KeccakF1600_FastLoop_Absorb.part56 : Stmt :=
  block [
    .asg 27 (.bin (.bxor .u64) (.var 27) (.var 62)),
    .asg 39 (.bin (.bxor .u64) (.bin (.shl .u64) (.var 27) (.lit 61)) (.bin (.shr .u64) (.var 27) (.lit 3))),
    .asg 70 (.bin (.bxor .u64) (.var 35) (.bin (.band .u64) (.un (.bnot .u64) (.var 36)) (.var 37))),
    .asg 55 (.bin (.bxor .u64) (.var 55) (.var 70)),
    .asg 71 (.bin (.bxor .u64) (.var 36) (.bin (.band .u64) (.un (.bnot .u64) (.var 37)) (.var 38))),
    .asg 56 (.bin (.bxor .u64) (.var 56) (.var 71)),
    .asg 72 (.bin (.bxor .u64) (.var 37) (.bin (.band .u64) (.un (.bnot .u64) (.var 38)) (.var 39))),
    .asg 57 (.bin (.bxor .u64) (.var 57) (.var 72)),
    .asg 73 (.bin (.bxor .u64) (.var 38) (.bin (.band .u64) (.un (.bnot .u64) (.var 39)) (.var 35))),
    .asg 58 (.bin (.bxor .u64) (.var 58) (.var 73)),
    .asg 74 (.bin (.bxor .u64) (.var 39) (.bin (.band .u64) (.un (.bnot .u64) (.var 35)) (.var 36))),
    .asg 59 (.bin (.bxor .u64) (.var 59) (.var 74)),
    .asg 6 (.bin (.bxor .u64) (.var 6) (.var 61)),
    .asg 40 (.bin (.bxor .u64) (.bin (.shl .u64) (.var 6) (.lit 1)) (.bin (.shr .u64) (.var 6) (.lit 63))),
    .asg 12 (.bin (.bxor .u64) (.var 12) (.var 62)),
    .asg 41 (.bin (.bxor .u64) (.bin (.shl .u64) (.var 12) (.lit 6)) (.bin (.shr .u64) (.var 12) (.lit 58))),
    .asg 18 (.bin (.bxor .u64) (.var 18) (.var 63)),
    .asg 42 (.bin (.bxor .u64) (.bin (.shl .u64) (.var 18) (.lit 25)) (.bin (.shr .u64) (.var 18) (.lit 39))),
    .asg 24 (.bin (.bxor .u64) (.var 24) (.var 64)),
    .asg 43 (.bin (.bxor .u64) (.bin (.shl .u64) (.var 24) (.lit 8)) (.bin (.shr .u64) (.var 24) (.lit 56))),
    .asg 25 (.bin (.bxor .u64) (.var 25) (.var 60)),
    .asg 44 (.bin (.bxor .u64) (.bin (.shl .u64) (.var 25) (.lit 18)) (.bin (.shr .u64) (.var 25) (.lit 46))),
    .asg 75 (.bin (.bxor .u64) (.var 40) (.bin (.band .u64) (.un (.bnot .u64) (.var 41)) (.var 42))),
    .asg 55 (.bin (.bxor .u64) (.var 55) (.var 75)),
    .asg 76 (.bin (.bxor .u64) (.var 41) (.bin (.band .u64) (.un (.bnot .u64) (.var 42)) (.var 43))),
    .asg 56 (.bin (.bxor .u64) (.var 56) (.var 76)),
    .asg 77 (.bin (.bxor .u64) (.var 42) (.bin (.band .u64) (.un (.bnot .u64) (.var 43)) (.var 44))),
    .asg 57 (.bin (.bxor .u64) (.var 57) (.var 77)),
    .asg 78 (.bin (.bxor .u64) (.var 43) (.bin (.band .u64) (.un (.bnot .u64) (.var 44)) (.var 40))),
    .asg 58 (.bin (.bxor .u64) (.var 58) (.var 78)),
    .asg 79 (.bin (.bxor .u64) (.var 44) (.bin (.band .u64) (.un (.bnot .u64) (.var 40)) (.var 41))),
    .asg 59 (.bin (.bxor .u64) (.var 59) (.var 79)),
    .asg 9 (.bin (.bxor .u64) (.var 9) (.var 64)),
    .asg 45 (.bin (.bxor .u64) (.bin (.shl .u64) (.var 9) (.lit 27)) (.bin (.shr .u64) (.var 9) (.lit 37))),
    .asg 10 (.bin (.bxor .u64) (.var 10) (.var 60)),
    .asg 46 (.bin (.bxor .u64) (.bin (.shl .u64) (.var 10) (.lit 36)) (.bin (.shr .u64) (.var 10) (.lit 28))),
    .asg 16 (.bin (.bxor .u64) (.var 16) (.var 61)),
    .asg 47 (.bin (.bxor .u64) (.bin (.shl .u64) (.var 16) (.lit 10)) (.bin (.shr .u64) (.var 16) (.lit 54))),
    .asg 22 (.bin (.bxor .u64) (.var 22) (.var 62)),
    .asg 48 (.bin (.bxor .u64) (.bin (.shl .u64) (.var 22) (.lit 15)) (.bin (.shr .u64) (.var 22) (.lit 49)))]

/-- part of `KeccakF1600_FastLoop_Absorb` -/
def KeccakF1600_FastLoop_Absorb.part57 : Stmt :=
  block [
    .asg 28 (.bin (.bxor .u64) (.var 28) (.var 63)),
    .asg 49 (.bin (.bxor .u64) (.bin (.shl .u64) (.var 28) (.lit 56)) (.bin (.shr .u64) (.var 28) (.lit 8))),
    .asg 80 (.bin (.bxor .u64) (.var 45) (.bin (.band .u64) (.un (.bnot .u64) (.var 46)) (.var 47))),
    .asg 55 (.bin (.bxor .u64) (.var 55) (.var 80)),
    .asg 81 (.bin (.bxor .u64) (.var 46) (.bin (.band .u64) (.un (.bnot .u64) (.var 47)) (.var 48))),
    .asg 56 (.bin (.bxor .u64) (.var 56) (.var 81)),
    .asg 82 (.bin (.bxor .u64) (.var 47) (.bin (.band .u64) (.un (.bnot .u64) (.var 48)) (.var 49))),
    .asg 57 (.bin (.bxor .u64) (.var 57) (.var 82)),
    .asg 83 (.bin (.bxor .u64) (.var 48) (.bin (.band .u64) (.un (.bnot .u64) (.var 49)) (.var 45))),
    .asg 58 (.bin (.bxor .u64) (.var 58) (.var 83)),
    .asg 84 (.bin (.bxor .u64) (.var 49) (.bin (.band .u64) (.un (.bnot .u64) (.var 45)) (.var 46))),
    .asg 59 (.bin (.bxor .u64) (.var 59) (.var 84)),
    .asg 7 (.bin (.bxor .u64) (.var 7) (.var 62)),
    .asg 50 (.bin (.bxor .u64) (.bin (.shl .u64) (.var 7) (.lit 62)) (.bin (.shr .u64) (.var 7) (.lit 2))),
    .asg 13 (.bin (.bxor .u64) (.var 13) (.var 63)),
    .asg 51 (.bin (.bxor .u64) (.bin (.shl .u64) (.var 13) (.lit 55)) (.bin (.shr .u64) (.var 13) (.lit 9))),
    .asg 19 (.bin (.bxor .u64) (.var 19) (.var 64)),
    .asg 52 (.bin (.bxor .u64) (.bin (.shl .u64) (.var 19) (.lit 39)) (.bin (.shr .u64) (.var 19) (.lit 25))),
    .asg 20 (.bin (.bxor .u64) (.var 20) (.var 60)),
    .asg 53 (.bin (.bxor .u64) (.bin (.shl .u64) (.var 20) (.lit 41)) (.bin (.shr .u64) (.var 20) (.lit 23))),
    .asg 26 (.bin (.bxor .u64) (.var 26) (.var 61)),
    .asg 54 (.bin (.bxor .u64) (.bin (.shl .u64) (.var 26) (.lit 2)) (.bin (.shr .u64) (.var 26) (.lit 62))),
    .asg 85 (.bin (.bxor .u64) (.var 50) (.bin (.band .u64) (.un (.bnot .u64) (.var 51)) (.var 52))),
    .asg 55 (.bin (.bxor .u64) (.var 55) (.var 85)),
    .asg 86 (.bin (.bxor .u64) (.var 51) (.bin (.band .u64) (.un (.bnot .u64) (.var 52)) (.var 53))),
    .asg 56 (.bin (.bxor .u64) (.var 56) (.var 86)),
    .asg 87 (.bin (.bxor .u64) (.var 52) (.bin (.band .u64) (.un (.bnot .u64) (.var 53)) (.var 54))),
    .asg 57 (.bin (.bxor .u64) (.var 57) (.var 87)),
    .asg 88 (.bin (.bxor .u64) (.var 53) (.bin (.band .u64) (.un (.bnot .u64) (.var 54)) (.var 50))),
    .asg 58 (.bin (.bxor .u64) (.var 58) (.var 88)),
    .asg 89 (.bin (.bxor .u64) (.var 54) (.bin (.band .u64) (.un (.bnot .u64) (.var 50)) (.var 51))),
    .asg 59 (.bin (.bxor .u64) (.var 59) (.var 89)),
    .asg 60 (.bin (.bxor .u64) (.var 59) (.bin (.bxor .u64) (.bin (.shl .u64) (.var 56) (.lit 1)) (.bin (.shr .u64)
      (.var 56) (.lit 63)))),
    .asg 61 (.bin (.bxor .u64) (.var 55) (.bin (.bxor .u64) (.bin (.shl .u64) (.var 57) (.lit 1)) (.bin (.shr .u64)
      (.var 57) (.lit 63)))),
    .asg 62 (.bin (.bxor .u64) (.var 56) (.bin (.bxor .u64) (.bin (.shl .u64) (.var 58) (.lit 1)) (.bin (.shr .u64)
      (.var 58) (.lit 63)))),
    .asg 63 (.bin (.bxor .u64) (.var 57) (.bin (.bxor .u64) (.bin (.shl .u64) (.var 59) (.lit 1)) (.bin (.shr .u64)
      (.var 59) (.lit 63)))),
    .asg 64 (.bin (.bxor .u64) (.var 58) (.bin (.bxor .u64) (.bin (.shl .u64) (.var 55) (.lit 1)) (.bin (.shr .u64)
      (.var 55) (.lit 63)))),
    .asg 65 (.bin (.bxor .u64) (.var 65) (.var 60)),
    .asg 30 (.var 65),
    .asg 71 (.bin (.bxor .u64) (.var 71) (.var 61))]

/-- part of `KeccakF1600_FastLoop_Absorb` -/
def KeccakF1600_FastLoop_Absorb.part58 : Stmt :=
  block [
    .asg 31 (.bin (.bxor .u64) (.bin (.shl .u64) (.var 71) (.lit 44)) (.bin (.shr .u64) (.var 71) (.lit 20))),
    .asg 77 (.bin (.bxor .u64) (.var 77) (.var 62)),
    .asg 32 (.bin (.bxor .u64) (.bin (.shl .u64) (.var 77) (.lit 43)) (.bin (.shr .u64) (.var 77) (.lit 21))),
    .asg 83 (.bin (.bxor .u64) (.var 83) (.var 63)),
    .asg 33 (.bin (.bxor .u64) (.bin (.shl .u64) (.var 83) (.lit 21)) (.bin (.shr .u64) (.var 83) (.lit 43))),
    .asg 89 (.bin (.bxor .u64) (.var 89) (.var 64)),
    .asg 34 (.bin (.bxor .u64) (.bin (.shl .u64) (.var 89) (.lit 14)) (.bin (.shr .u64) (.var 89) (.lit 50))),
    .asg 5 (.bin (.bxor .u64) (.var 30) (.bin (.band .u64) (.un (.bnot .u64) (.var 31)) (.var 32))),
    .asg 5 (.bin (.bxor .u64) (.var 5) (.ld 8 (.padd (.glob 0) (.lit 21) 8))),
    .asg 55 (.var 5),
    .asg 6 (.bin (.bxor .u64) (.var 31) (.bin (.band .u64) (.un (.bnot .u64) (.var 32)) (.var 33))),
    .asg 56 (.var 6),
    .asg 7 (.bin (.bxor .u64) (.var 32) (.bin (.band .u64) (.un (.bnot .u64) (.var 33)) (.var 34))),
    .asg 57 (.var 7),
    .asg 8 (.bin (.bxor .u64) (.var 33) (.bin (.band .u64) (.un (.bnot .u64) (.var 34)) (.var 30))),
    .asg 58 (.var 8),
    .asg 9 (.bin (.bxor .u64) (.var 34) (.bin (.band .u64) (.un (.bnot .u64) (.var 30)) (.var 31))),
    .asg 59 (.var 9),
    .asg 68 (.bin (.bxor .u64) (.var 68) (.var 63)),
    .asg 35 (.bin (.bxor .u64) (.bin (.shl .u64) (.var 68) (.lit 28)) (.bin (.shr .u64) (.var 68) (.lit 36))),
    .asg 74 (.bin (.bxor .u64) (.var 74) (.var 64)),
    .asg 36 (.bin (.bxor .u64) (.bin (.shl .u64) (.var 74) (.lit 20)) (.bin (.shr .u64) (.var 74) (.lit 44))),
    .asg 75 (.bin (.bxor .u64) (.var 75) (.var 60)),
    .asg 37 (.bin (.bxor .u64) (.bin (.shl .u64) (.var 75) (.lit 3)) (.bin (.shr .u64) (.var 75) (.lit 61))),
    .asg 81 (.bin (.bxor .u64) (.var 81) (.var 61)),
    .asg 38 (.bin (.bxor .u64) (.bin (.shl .u64) (.var 81) (.lit 45)) (.bin (.shr .u64) (.var 81) (.lit 19))),
    .asg 87 (.bin (.bxor .u64) (.var 87) (.var 62)),
    .asg 39 (.bin (.bxor .u64) (.bin (.shl .u64) (.var 87) (.lit 61)) (.bin (.shr .u64) (.var 87) (.lit 3))),
    .asg 10 (.bin (.bxor .u64) (.var 35) (.bin (.band .u64) (.un (.bnot .u64) (.var 36)) (.var 37))),
    .asg 55 (.bin (.bxor .u64) (.var 55) (.var 10)),
    .asg 11 (.bin (.bxor .u64) (.var 36) (.bin (.band .u64) (.un (.bnot .u64) (.var 37)) (.var 38))),
    .asg 56 (.bin (.bxor .u64) (.var 56) (.var 11)),
    .asg 12 (.bin (.bxor .u64) (.var 37) (.bin (.band .u64) (.un (.bnot .u64) (.var 38)) (.var 39))),
    .asg 57 (.bin (.bxor .u64) (.var 57) (.var 12)),
    .asg 13 (.bin (.bxor .u64) (.var 38) (.bin (.band .u64) (.un (.bnot .u64) (.var 39)) (.var 35))),
    .asg 58 (.bin (.bxor .u64) (.var 58) (.var 13)),
    .asg 14 (.bin (.bxor .u64) (.var 39) (.bin (.band .u64) (.un (.bnot .u64) (.var 35)) (.var 36))),
    .asg 59 (.bin (.bxor .u64) (.var 59) (.var 14)),
    .asg 66 (.bin (.bxor .u64) (.var 66) (.var 61)),
    .asg 40 (.bin (.bxor .u64) (.bin (.shl .u64) (.var 66) (.lit 1)) (.bin (.shr .u64) (.var 66) (.lit 63)))]

/-- part of `KeccakF1600_FastLoop_Absorb` -/
def KeccakF1600_FastLoop_Absorb.part59 : Stmt :=
  block [
    .asg 72 (.bin (.bxor .u64) (.var 72) (.var 62)),
    .asg 41 (.bin (.bxor .u64) (.bin (.shl .u64) (.var 72) (.lit 6)) (.bin (.shr .u64) (.var 72) (.lit 58))),
    .asg 78 (.bin (.bxor .u64) (.var 78) (.var 63)),
    .asg 42 (.bin (.bxor .u64) (.bin (.shl .u64) (.var 78) (.lit 25)) (.bin (.shr .u64) (.var 78) (.lit 39))),
    .asg 84 (.bin (.bxor .u64) (.var 84) (.var 64)),
    .asg 43 (.bin (.bxor .u64) (.bin (.shl .u64) (.var 84) (.lit 8)) (.bin (.shr .u64) (.var 84) (.lit 56))),
    .asg 85 (.bin (.bxor .u64) (.var 85) (.var 60)),
    .asg 44 (.bin (.bxor .u64) (.bin (.shl .u64) (.var 85) (.lit 18)) (.bin (.shr .u64) (.var 85) (.lit 46))),
    .asg 15 (.bin (.bxor .u64) (.var 40) (.bin (.band .u64) (.un (.bnot .u64) (.var 41)) (.var 42))),
    .asg 55 (.bin (.bxor .u64) (.var 55) (.var 15)),
    .asg 16 (.bin (.bxor .u64) (.var 41) (.bin (.band .u64) (.un (.bnot .u64) (.var 42)) (.var 43))),
    .asg 56 (.bin (.bxor .u64) (.var 56) (.var 16)),
    .asg 17 (.bin (.bxor .u64) (.var 42) (.bin (.band .u64) (.un (.bnot .u64) (.var 43)) (.var 44))),
    .asg 57 (.bin (.bxor .u64) (.var 57) (.var 17)),
    .asg 18 (.bin (.bxor .u64) (.var 43) (.bin (.band .u64) (.un (.bnot .u64) (.var 44)) (.var 40))),
    .asg 58 (.bin (.bxor .u64) (.var 58) (.var 18)),
    .asg 19 (.bin (.bxor .u64) (.var 44) (.bin (.band .u64) (.un (.bnot .u64) (.var 40)) (.var 41))),
    .asg 59 (.bin (.bxor .u64) (.var 59) (.var 19)),
    .asg 69 (.bin (.bxor .u64) (.var 69) (.var 64)),
    .asg 45 (.bin (.bxor .u64) (.bin (.shl .u64) (.var 69) (.lit 27)) (.bin (.shr .u64) (.var 69) (.lit 37))),
    .asg 70 (.bin (.bxor .u64) (.var 70) (.var 60)),
    .asg 46 (.bin (.bxor .u64) (.bin (.shl .u64) (.var 70) (.lit 36)) (.bin (.shr .u64) (.var 70) (.lit 28))),
    .asg 76 (.bin (.bxor .u64) (.var 76) (.var 61)),
    .asg 47 (.bin (.bxor .u64) (.bin (.shl .u64) (.var 76) (.lit 10)) (.bin (.shr .u64) (.var 76) (.lit 54))),
    .asg 82 (.bin (.bxor .u64) (.var 82) (.var 62)),
    .asg 48 (.bin (.bxor .u64) (.bin (.shl .u64) (.var 82) (.lit 15)) (.bin (.shr .u64) (.var 82) (.lit 49))),
    .asg 88 (.bin (.bxor .u64) (.var 88) (.var 63)),
    .asg 49 (.bin (.bxor .u64) (.bin (.shl .u64) (.var 88) (.lit 56)) (.bin (.shr .u64) (.var 88) (.lit 8))),
    .asg 20 (.bin (.bxor .u64) (.var 45) (.bin (.band .u64) (.un (.bnot .u64) (.var 46)) (.var 47))),
    .asg 55 (.bin (.bxor .u64) (.var 55) (.var 20)),
    .asg 21 (.bin (.bxor .u64) (.var 46) (.bin (.band .u64) (.un (.bnot .u64) (.var 47)) (.var 48))),
    .asg 56 (.bin (.bxor .u64) (.var 56) (.var 21)),
    .asg 22 (.bin (.bxor .u64) (.var 47) (.bin (.band .u64) (.un (.bnot .u64) (.var 48)) (.var 49))),
    .asg 57 (.bin (.bxor .u64) (.var 57) (.var 22)),
    .asg 23 (.bin (.bxor .u64) (.var 48) (.bin (.band .u64) (.un (.bnot .u64) (.var 49)) (.var 45))),
    .asg 58 (.bin (.bxor .u64) (.var 58) (.var 23)),
    .asg 24 (.bin (.bxor .u64) (.var 49) (.bin (.band .u64) (.un (.bnot .u64) (.var 45)) (.var 46))),
    .asg 59 (.bin (.bxor .u64) (.var 59) (.var 24)),
    .asg 67 (.bin (.bxor .u64) (.var 67) (.var 62)),
    .asg 50 (.bin (.bxor .u64) (.bin (.shl .u64) (.var 67) (.lit 62)) (.bin (.shr .u64) (.var 67) (.lit 2)))]

/-- part of `KeccakF1600_FastLoop_Absorb` -/
def KeccakF1600_FastLoop_Absorb.part60 : Stmt :=
  block [
    .asg 73 (.bin (.bxor .u64) (.var 73) (.var 63)),
    .asg 51 (.bin (.bxor .u64) (.bin (.shl .u64) (.var 73) (.lit 55)) (.bin (.shr .u64) (.var 73) (.lit 9))),
    .asg 79 (.bin (.bxor .u64) (.var 79) (.var 64)),
    .asg 52 (.bin (.bxor .u64) (.bin (.shl .u64) (.var 79) (.lit 39)) (.bin (.shr .u64) (.var 79) (.lit 25))),
    .asg 80 (.bin (.bxor .u64) (.var 80) (.var 60)),
    .asg 53 (.bin (.bxor .u64) (.bin (.shl .u64) (.var 80) (.lit 41)) (.bin (.shr .u64) (.var 80) (.lit 23))),
    .asg 86 (.bin (.bxor .u64) (.var 86) (.var 61)),
    .asg 54 (.bin (.bxor .u64) (.bin (.shl .u64) (.var 86) (.lit 2)) (.bin (.shr .u64) (.var 86) (.lit 62))),
    .asg 25 (.bin (.bxor .u64) (.var 50) (.bin (.band .u64) (.un (.bnot .u64) (.var 51)) (.var 52))),
    .asg 55 (.bin (.bxor .u64) (.var 55) (.var 25)),
    .asg 26 (.bin (.bxor .u64) (.var 51) (.bin (.band .u64) (.un (.bnot .u64) (.var 52)) (.var 53))),
    .asg 56 (.bin (.bxor .u64) (.var 56) (.var 26)),
    .asg 27 (.bin (.bxor .u64) (.var 52) (.bin (.band .u64) (.un (.bnot .u64) (.var 53)) (.var 54))),
    .asg 57 (.bin (.bxor .u64) (.var 57) (.var 27)),
    .asg 28 (.bin (.bxor .u64) (.var 53) (.bin (.band .u64) (.un (.bnot .u64) (.var 54)) (.var 50))),
    .asg 58 (.bin (.bxor .u64) (.var 58) (.var 28)),
    .asg 29 (.bin (.bxor .u64) (.var 54) (.bin (.band .u64) (.un (.bnot .u64) (.var 50)) (.var 51))),
    .asg 59 (.bin (.bxor .u64) (.var 59) (.var 29)),
    .asg 60 (.bin (.bxor .u64) (.var 59) (.bin (.bxor .u64) (.bin (.shl .u64) (.var 56) (.lit 1)) (.bin (.shr .u64)
      (.var 56) (.lit 63)))),
    .asg 61 (.bin (.bxor .u64) (.var 55) (.bin (.bxor .u64) (.bin (.shl .u64) (.var 57) (.lit 1)) (.bin (.shr .u64)
      (.var 57) (.lit 63)))),
    .asg 62 (.bin (.bxor .u64) (.var 56) (.bin (.bxor .u64) (.bin (.shl .u64) (.var 58) (.lit 1)) (.bin (.shr .u64)
      (.var 58) (.lit 63)))),
    .asg 63 (.bin (.bxor .u64) (.var 57) (.bin (.bxor .u64) (.bin (.shl .u64) (.var 59) (.lit 1)) (.bin (.shr .u64)
      (.var 59) (.lit 63)))),
    .asg 64 (.bin (.bxor .u64) (.var 58) (.bin (.bxor .u64) (.bin (.shl .u64) (.var 55) (.lit 1)) (.bin (.shr .u64)
      (.var 55) (.lit 63)))),
    .asg 5 (.bin (.bxor .u64) (.var 5) (.var 60)),
    .asg 30 (.var 5),
    .asg 11 (.bin (.bxor .u64) (.var 11) (.var 61)),
    .asg 31 (.bin (.bxor .u64) (.bin (.shl .u64) (.var 11) (.lit 44)) (.bin (.shr .u64) (.var 11) (.lit 20))),
    .asg 17 (.bin (.bxor .u64) (.var 17) (.var 62)),
    .asg 32 (.bin (.bxor .u64) (.bin (.shl .u64) (.var 17) (.lit 43)) (.bin (.shr .u64) (.var 17) (.lit 21))),
    .asg 23 (.bin (.bxor .u64) (.var 23) (.var 63)),
    .asg 33 (.bin (.bxor .u64) (.bin (.shl .u64) (.var 23) (.lit 21)) (.bin (.shr .u64) (.var 23) (.lit 43))),
    .asg 29 (.bin (.bxor .u64) (.var 29) (.var 64)),
    .asg 34 (.bin (.bxor .u64) (.bin (.shl .u64) (.var 29) (.lit 14)) (.bin (.shr .u64) (.var 29) (.lit 50))),
    .asg 65 (.bin (.bxor .u64) (.var 30) (.bin (.band .u64) (.un (.bnot .u64) (.var 31)) (.var 32))),
    .asg 65 (.bin (.bxor .u64) (.var 65) (.ld 8 (.padd (.glob 0) (.lit 22) 8))),
    .asg 55 (.var 65),
    .asg 66 (.bin (.bxor .u64) (.var 31) (.bin (.band .u64) (.un (.bnot .u64) (.var 32)) (.var 33))),
    .asg 56 (.var 66),
    .asg 67 (.bin (.bxor .u64) (.var 32) (.bin (.band .u64) (.un (.bnot .u64) (.var 33)) (.var 34))),
    .asg 57 (.var 67)]

/-- part of `KeccakF1600_FastLoop_Absorb` -/
def KeccakF1600_FastLoop_Absorb.part61 : Stmt :=
  block [
    .asg 68 (.bin (.bxor .u64) (.var 33) (.bin (.band .u64) (.un (.bnot .u64) (.var 34)) (.var 30))),
    .asg 58 (.var 68),
    .asg 69 (.bin (.bxor .u64) (.var 34) (.bin (.band .u64) (.un (.bnot .u64) (.var 30)) (.var 31))),
    .asg 59 (.var 69),
    .asg 8 (.bin (.bxor .u64) (.var 8) (.var 63)),
    .asg 35 (.bin (.bxor .u64) (.bin (.shl .u64) (.var 8) (.lit 28)) (.bin (.shr .u64) (.var 8) (.lit 36))),
    .asg 14 (.bin (.bxor .u64) (.var 14) (.var 64)),
    .asg 36 (.bin (.bxor .u64) (.bin (.shl .u64) (.var 14) (.lit 20)) (.bin (.shr .u64) (.var 14) (.lit 44))),
    .asg 15 (.bin (.bxor .u64) (.var 15) (.var 60)),
    .asg 37 (.bin (.bxor .u64) (.bin (.shl .u64) (.var 15) (.lit 3)) (.bin (.shr .u64) (.var 15) (.lit 61))),
    .asg 21 (.bin (.bxor .u64) (.var 21) (.var 61)),
    .asg 38 (.bin (.bxor .u64) (.bin (.shl .u64) (.var 21) (.lit 45)) (.bin (.shr .u64) (.var 21) (.lit 19))),
    .asg 27 (.bin (.bxor .u64) (.var 27) (.var 62)),
    .asg 39 (.bin (.bxor .u64) (.bin (.shl .u64) (.var 27) (.lit 61)) (.bin (.shr .u64) (.var 27) (.lit 3))),
    .asg 70 (.bin (.bxor .u64) (.var 35) (.bin (.band .u64) (.un (.bnot .u64) (.var 36)) (.var 37))),
    .asg 55 (.bin (.bxor .u64) (.var 55) (.var 70)),
    .asg 71 (.bin (.bxor .u64) (.var 36) (.bin (.band .u64) (.un (.bnot .u64) (.var 37)) (.var 38))),
    .asg 56 (.bin (.bxor .u64) (.var 56) (.var 71)),
    .asg 72 (.bin (.bxor .u64) (.var 37) (.bin (.band .u64) (.un (.bnot .u64) (.var 38)) (.var 39))),
    .asg 57 (.bin (.bxor .u64) (.var 57) (.var 72)),
    .asg 73 (.bin (.bxor .u64) (.var 38) (.bin (.band .u64) (.un (.bnot .u64) (.var 39)) (.var 35))),
    .asg 58 (.bin (.bxor .u64) (.var 58) (.var 73)),
    .asg 74 (.bin (.bxor .u64) (.var 39) (.bin (.band .u64) (.un (.bnot .u64) (.var 35)) (.var 36))),
    .asg 59 (.bin (.bxor .u64) (.var 59) (.var 74)),
    .asg 6 (.bin (.bxor .u64) (.var 6) (.var 61)),
    .asg 40 (.bin (.bxor .u64) (.bin (.shl .u64) (.var 6) (.lit 1)) (.bin (.shr .u64) (.var 6) (.lit 63))),
    .asg 12 (.bin (.bxor .u64) (.var 12) (.var 62)),
    .asg 41 (.bin (.bxor .u64) (.bin (.shl .u64) (.var 12) (.lit 6)) (.bin (.shr .u64) (.var 12) (.lit 58))),
    .asg 18 (.bin (.bxor .u64) (.var 18) (.var 63)),
    .asg 42 (.bin (.bxor .u64) (.bin (.shl .u64) (.var 18) (.lit 25)) (.bin (.shr .u64) (.var 18) (.lit 39))),
    .asg 24 (.bin (.bxor .u64) (.var 24) (.var 64)),
    .asg 43 (.bin (.bxor .u64) (.bin (.shl .u64) (.var 24) (.lit 8)) (.bin (.shr .u64) (.var 24) (.lit 56))),
    .asg 25 (.bin (.bxor .u64) (.var 25) (.var 60)),
    .asg 44 (.bin (.bxor .u64) (.bin (.shl .u64) (.var 25) (.lit 18)) (.bin (.shr .u64) (.var 25) (.lit 46))),
    .asg 75 (.bin (.bxor .u64) (.var 40) (.bin (.band .u64) (.un (.bnot .u64) (.var 41)) (.var 42))),
    .asg 55 (.bin (.bxor .u64) (.var 55) (.var 75)),
    .asg 76 (.bin (.bxor .u64) (.var 41) (.bin (.band .u64) (.un (.bnot .u64) (.var 42)) (.var 43))),
    .asg 56 (.bin (.bxor .u64) (.var 56) (.var 76)),
    .asg 77 (.bin (.bxor .u64) (.var 42) (.bin (.band .u64) (.un (.bnot .u64) (.var 43)) (.var 44))),
    .asg 57 (.bin (.bxor .u64) (.var 57) (.var 77))]

/-- part of `KeccakF1600_FastLoop_Absorb` -/
def KeccakF1600_FastLoop_Absorb.part62 : Stmt :=
  block [
    .asg 78 (.bin (.bxor .u64) (.var 43) (.bin (.band .u64) (.un (.bnot .u64) (.var 44)) (.var 40))),
    .asg 58 (.bin (.bxor .u64) (.var 58) (.var 78)),
    .asg 79 (.bin (.bxor .u64) (.var 44) (.bin (.band .u64) (.un (.bnot .u64) (.var 40)) (.var 41))),
    .asg 59 (.bin (.bxor .u64) (.var 59) (.var 79)),
    .asg 9 (.bin (.bxor .u64) (.var 9) (.var 64)),
    .asg 45 (.bin (.bxor .u64) (.bin (.shl .u64) (.var 9) (.lit 27)) (.bin (.shr .u64) (.var 9) (.lit 37))),
    .asg 10 (.bin (.bxor .u64) (.var 10) (.var 60)),
    .asg 46 (.bin (.bxor .u64) (.bin (.shl .u64) (.var 10) (.lit 36)) (.bin (.shr .u64) (.var 10) (.lit 28))),
    .asg 16 (.bin (.bxor .u64) (.var 16) (.var 61)),
    .asg 47 (.bin (.bxor .u64) (.bin (.shl .u64) (.var 16) (.lit 10)) (.bin (.shr .u64) (.var 16) (.lit 54))),
    .asg 22 (.bin (.bxor .u64) (.var 22) (.var 62)),
    .asg 48 (.bin (.bxor .u64) (.bin (.shl .u64) (.var 22) (.lit 15)) (.bin (.shr .u64) (.var 22) (.lit 49))),
    .asg 28 (.bin (.bxor .u64) (.var 28) (.var 63)),
    .asg 49 (.bin (.bxor .u64) (.bin (.shl .u64) (.var 28) (.lit 56)) (.bin (.shr .u64) (.var 28) (.lit 8))),
    .asg 80 (.bin (.bxor .u64) (.var 45) (.bin (.band .u64) (.un (.bnot .u64) (.var 46)) (.var 47))),
    .asg 55 (.bin (.bxor .u64) (.var 55) (.var 80)),
    .asg 81 (.bin (.bxor .u64) (.var 46) (.bin (.band .u64) (.un (.bnot .u64) (.var 47)) (.var 48))),
    .asg 56 (.bin (.bxor .u64) (.var 56) (.var 81)),
    .asg 82 (.bin (.bxor .u64) (.var 47) (.bin (.band .u64) (.un (.bnot .u64) (.var 48)) (.var 49))),
    .asg 57 (.bin (.bxor .u64) (.var 57) (.var 82)),
    .asg 83 (.bin (.bxor .u64) (.var 48) (.bin (.band .u64) (.un (.bnot .u64) (.var 49)) (.var 45))),
    .asg 58 (.bin (.bxor .u64) (.var 58) (.var 83)),
    .asg 84 (.bin (.bxor .u64) (.var 49) (.bin (.band .u64) (.un (.bnot .u64) (.var 45)) (.var 46))),
    .asg 59 (.bin (.bxor .u64) (.var 59) (.var 84)),
    .asg 7 (.bin (.bxor .u64) (.var 7) (.var 62)),
    .asg 50 (.bin (.bxor .u64) (.bin (.shl .u64) (.var 7) (.lit 62)) (.bin (.shr .u64) (.var 7) (.lit 2))),
    .asg 13 (.bin (.bxor .u64) (.var 13) (.var 63)),
    .asg 51 (.bin (.bxor .u64) (.bin (.shl .u64) (.var 13) (.lit 55)) (.bin (.shr .u64) (.var 13) (.lit 9))),
    .asg 19 (.bin (.bxor .u64) (.var 19) (.var 64)),
    .asg 52 (.bin (.bxor .u64) (.bin (.shl .u64) (.var 19) (.lit 39)) (.bin (.shr .u64) (.var 19) (.lit 25))),
    .asg 20 (.bin (.bxor .u64) (.var 20) (.var 60)),
    .asg 53 (.bin (.bxor .u64) (.bin (.shl .u64) (.var 20) (.lit 41)) (.bin (.shr .u64) (.var 20) (.lit 23))),
    .asg 26 (.bin (.bxor .u64) (.var 26) (.var 61)),
    .asg 54 (.bin (.bxor .u64) (.bin (.shl .u64) (.var 26) (.lit 2)) (.bin (.shr .u64) (.var 26) (.lit 62))),
    .asg 85 (.bin (.bxor .u64) (.var 50) (.bin (.band .u64) (.un (.bnot .u64) (.var 51)) (.var 52))),
    .asg 55 (.bin (.bxor .u64) (.var 55) (.var 85)),
    .asg 86 (.bin (.bxor .u64) (.var 51) (.bin (.band .u64) (.un (.bnot .u64) (.var 52)) (.var 53))),
    .asg 56 (.bin (.bxor .u64) (.var 56) (.var 86)),
    .asg 87 (.bin (.bxor .u64) (.var 52) (.bin (.band .u64) (.un (.bnot .u64) (.var 53)) (.var 54))),
    .asg 57 (.bin (.bxor .u64) (.var 57) (.var 87))]

/-- part of `KeccakF1600_FastLoop_Absorb` -/
def KeccakF1600_FastLoop_Absorb.part63 : Stmt :=
  block [
    .asg 88 (.bin (.bxor .u64) (.var 53) (.bin (.band .u64) (.un (.bnot .u64) (.var 54)) (.var 50))),
    .asg 58 (.bin (.bxor .u64) (.var 58) (.var 88)),
    .asg 89 (.bin (.bxor .u64) (.var 54) (.bin (.band .u64) (.un (.bnot .u64) (.var 50)) (.var 51))),
    .asg 59 (.bin (.bxor .u64) (.var 59) (.var 89)),
    .asg 60 (.bin (.bxor .u64) (.var 59) (.bin (.bxor .u64) (.bin (.shl .u64) (.var 56) (.lit 1)) (.bin (.shr .u64)
      (.var 56) (.lit 63)))),
    .asg 61 (.bin (.bxor .u64) (.var 55) (.bin (.bxor .u64) (.bin (.shl .u64) (.var 57) (.lit 1)) (.bin (.shr .u64)
      (.var 57) (.lit 63)))),
    .asg 62 (.bin (.bxor .u64) (.var 56) (.bin (.bxor .u64) (.bin (.shl .u64) (.var 58) (.lit 1)) (.bin (.shr .u64)
      (.var 58) (.lit 63)))),
    .asg 63 (.bin (.bxor .u64) (.var 57) (.bin (.bxor .u64) (.bin (.shl .u64) (.var 59) (.lit 1)) (.bin (.shr .u64)
      (.var 59) (.lit 63)))),
    .asg 64 (.bin (.bxor .u64) (.var 58) (.bin (.bxor .u64) (.bin (.shl .u64) (.var 55) (.lit 1)) (.bin (.shr .u64)
      (.var 55) (.lit 63)))),
    .asg 65 (.bin (.bxor .u64) (.var 65) (.var 60)),
    .asg 30 (.var 65),
    .asg 71 (.bin (.bxor .u64) (.var 71) (.var 61)),
    .asg 31 (.bin (.bxor .u64) (.bin (.shl .u64) (.var 71) (.lit 44)) (.bin (.shr .u64) (.var 71) (.lit 20))),
    .asg 77 (.bin (.bxor .u64) (.var 77) (.var 62)),
    .asg 32 (.bin (.bxor .u64) (.bin (.shl .u64) (.var 77) (.lit 43)) (.bin (.shr .u64) (.var 77) (.lit 21))),
    .asg 83 (.bin (.bxor .u64) (.var 83) (.var 63)),
    .asg 33 (.bin (.bxor .u64) (.bin (.shl .u64) (.var 83) (.lit 21)) (.bin (.shr .u64) (.var 83) (.lit 43))),
    .asg 89 (.bin (.bxor .u64) (.var 89) (.var 64)),
    .asg 34 (.bin (.bxor .u64) (.bin (.shl .u64) (.var 89) (.lit 14)) (.bin (.shr .u64) (.var 89) (.lit 50))),
    .asg 5 (.bin (.bxor .u64) (.var 30) (.bin (.band .u64) (.un (.bnot .u64) (.var 31)) (.var 32))),
    .asg 5 (.bin (.bxor .u64) (.var 5) (.ld 8 (.padd (.glob 0) (.lit 23) 8))),
    .asg 6 (.bin (.bxor .u64) (.var 31) (.bin (.band .u64) (.un (.bnot .u64) (.var 32)) (.var 33))),
    .asg 7 (.bin (.bxor .u64) (.var 32) (.bin (.band .u64) (.un (.bnot .u64) (.var 33)) (.var 34))),
    .asg 8 (.bin (.bxor .u64) (.var 33) (.bin (.band .u64) (.un (.bnot .u64) (.var 34)) (.var 30))),
    .asg 9 (.bin (.bxor .u64) (.var 34) (.bin (.band .u64) (.un (.bnot .u64) (.var 30)) (.var 31))),
    .asg 68 (.bin (.bxor .u64) (.var 68) (.var 63)),
    .asg 35 (.bin (.bxor .u64) (.bin (.shl .u64) (.var 68) (.lit 28)) (.bin (.shr .u64) (.var 68) (.lit 36))),
    .asg 74 (.bin (.bxor .u64) (.var 74) (.var 64)),
    .asg 36 (.bin (.bxor .u64) (.bin (.shl .u64) (.var 74) (.lit 20)) (.bin (.shr .u64) (.var 74) (.lit 44))),
    .asg 75 (.bin (.bxor .u64) (.var 75) (.var 60)),
    .asg 37 (.bin (.bxor .u64) (.bin (.shl .u64) (.var 75) (.lit 3)) (.bin (.shr .u64) (.var 75) (.lit 61))),
    .asg 81 (.bin (.bxor .u64) (.var 81) (.var 61)),
    .asg 38 (.bin (.bxor .u64) (.bin (.shl .u64) (.var 81) (.lit 45)) (.bin (.shr .u64) (.var 81) (.lit 19))),
    .asg 87 (.bin (.bxor .u64) (.var 87) (.var 62)),
    .asg 39 (.bin (.bxor .u64) (.bin (.shl .u64) (.var 87) (.lit 61)) (.bin (.shr .u64) (.var 87) (.lit 3))),
    .asg 10 (.bin (.bxor .u64) (.var 35) (.bin (.band .u64) (.un (.bnot .u64) (.var 36)) (.var 37))),
    .asg 11 (.bin (.bxor .u64) (.var 36) (.bin (.band .u64) (.un (.bnot .u64) (.var 37)) (.var 38))),
    .asg 12 (.bin (.bxor .u64) (.var 37) (.bin (.band .u64) (.un (.bnot .u64) (.var 38)) (.var 39))),
    .asg 13 (.bin (.bxor .u64) (.var 38) (.bin (.band .u64) (.un (.bnot .u64) (.var 39)) (.var 35))),
    .asg 14 (.bin (.bxor .u64) (.var 39) (.bin (.band .u64) (.un (.bnot .u64) (.var 35)) (.var 36)))]

/-- part of `KeccakF1600_FastLoop_Absorb` -/
def KeccakF1600_FastLoop_Absorb.part64 : Stmt :=
  block [
    .asg 66 (.bin (.bxor .u64) (.var 66) (.var 61)),
    .asg 40 (.bin (.bxor .u64) (.bin (.shl .u64) (.var 66) (.lit 1)) (.bin (.shr .u64) (.var 66) (.lit 63))),
    .asg 72 (.bin (.bxor .u64) (.var 72) (.var 62)),
    .asg 41 (.bin (.bxor .u64) (.bin (.shl .u64) (.var 72) (.lit 6)) (.bin (.shr .u64) (.var 72) (.lit 58))),
    .asg 78 (.bin (.bxor .u64) (.var 78) (.var 63)),
    .asg 42 (.bin (.bxor .u64) (.bin (.shl .u64) (.var 78) (.lit 25)) (.bin (.shr .u64) (.var 78) (.lit 39))),
    .asg 84 (.bin (.bxor .u64) (.var 84) (.var 64)),
    .asg 43 (.bin (.bxor .u64) (.bin (.shl .u64) (.var 84) (.lit 8)) (.bin (.shr .u64) (.var 84) (.lit 56))),
    .asg 85 (.bin (.bxor .u64) (.var 85) (.var 60)),
    .asg 44 (.bin (.bxor .u64) (.bin (.shl .u64) (.var 85) (.lit 18)) (.bin (.shr .u64) (.var 85) (.lit 46))),
    .asg 15 (.bin (.bxor .u64) (.var 40) (.bin (.band .u64) (.un (.bnot .u64) (.var 41)) (.var 42))),
    .asg 16 (.bin (.bxor .u64) (.var 41) (.bin (.band .u64) (.un (.bnot .u64) (.var 42)) (.var 43))),
    .asg 17 (.bin (.bxor .u64) (.var 42) (.bin (.band .u64) (.un (.bnot .u64) (.var 43)) (.var 44))),
    .asg 18 (.bin (.bxor .u64) (.var 43) (.bin (.band .u64) (.un (.bnot .u64) (.var 44)) (.var 40))),
    .asg 19 (.bin (.bxor .u64) (.var 44) (.bin (.band .u64) (.un (.bnot .u64) (.var 40)) (.var 41))),
    .asg 69 (.bin (.bxor .u64) (.var 69) (.var 64)),
    .asg 45 (.bin (.bxor .u64) (.bin (.shl .u64) (.var 69) (.lit 27)) (.bin (.shr .u64) (.var 69) (.lit 37))),
    .asg 70 (.bin (.bxor .u64) (.var 70) (.var 60)),
    .asg 46 (.bin (.bxor .u64) (.bin (.shl .u64) (.var 70) (.lit 36)) (.bin (.shr .u64) (.var 70) (.lit 28))),
    .asg 76 (.bin (.bxor .u64) (.var 76) (.var 61)),
    .asg 47 (.bin (.bxor .u64) (.bin (.shl .u64) (.var 76) (.lit 10)) (.bin (.shr .u64) (.var 76) (.lit 54))),
    .asg 82 (.bin (.bxor .u64) (.var 82) (.var 62)),
    .asg 48 (.bin (.bxor .u64) (.bin (.shl .u64) (.var 82) (.lit 15)) (.bin (.shr .u64) (.var 82) (.lit 49))),
    .asg 88 (.bin (.bxor .u64) (.var 88) (.var 63)),
    .asg 49 (.bin (.bxor .u64) (.bin (.shl .u64) (.var 88) (.lit 56)) (.bin (.shr .u64) (.var 88) (.lit 8))),
    .asg 20 (.bin (.bxor .u64) (.var 45) (.bin (.band .u64) (.un (.bnot .u64) (.var 46)) (.var 47))),
    .asg 21 (.bin (.bxor .u64) (.var 46) (.bin (.band .u64) (.un (.bnot .u64) (.var 47)) (.var 48))),
    .asg 22 (.bin (.bxor .u64) (.var 47) (.bin (.band .u64) (.un (.bnot .u64) (.var 48)) (.var 49))),
    .asg 23 (.bin (.bxor .u64) (.var 48) (.bin (.band .u64) (.un (.bnot .u64) (.var 49)) (.var 45))),
    .asg 24 (.bin (.bxor .u64) (.var 49) (.bin (.band .u64) (.un (.bnot .u64) (.var 45)) (.var 46))),
    .asg 67 (.bin (.bxor .u64) (.var 67) (.var 62)),
    .asg 50 (.bin (.bxor .u64) (.bin (.shl .u64) (.var 67) (.lit 62)) (.bin (.shr .u64) (.var 67) (.lit 2))),
    .asg 73 (.bin (.bxor .u64) (.var 73) (.var 63)),
    .asg 51 (.bin (.bxor .u64) (.bin (.shl .u64) (.var 73) (.lit 55)) (.bin (.shr .u64) (.var 73) (.lit 9))),
    .asg 79 (.bin (.bxor .u64) (.var 79) (.var 64)),
    .asg 52 (.bin (.bxor .u64) (.bin (.shl .u64) (.var 79) (.lit 39)) (.bin (.shr .u64) (.var 79) (.lit 25))),
    .asg 80 (.bin (.bxor .u64) (.var 80) (.var 60)),
    .asg 53 (.bin (.bxor .u64) (.bin (.shl .u64) (.var 80) (.lit 41)) (.bin (.shr .u64) (.var 80) (.lit 23))),
    .asg 86 (.bin (.bxor .u64) (.var 86) (.var 61)),
    .asg 54 (.bin (.bxor .u64) (.bin (.shl .u64) (.var 86) (.lit 2)) (.bin (.shr .u64) (.var 86) (.lit 62)))]

/-- part of `KeccakF1600_FastLoop_Absorb` -/
def KeccakF1600_FastLoop_Absorb.part65 : Stmt :=
  block [
    .asg 25 (.bin (.bxor .u64) (.var 50) (.bin (.band .u64) (.un (.bnot .u64) (.var 51)) (.var 52))),
    .asg 26 (.bin (.bxor .u64) (.var 51) (.bin (.band .u64) (.un (.bnot .u64) (.var 52)) (.var 53))),
    .asg 27 (.bin (.bxor .u64) (.var 52) (.bin (.band .u64) (.un (.bnot .u64) (.var 53)) (.var 54))),
    .asg 28 (.bin (.bxor .u64) (.var 53) (.bin (.band .u64) (.un (.bnot .u64) (.var 54)) (.var 50))),
    .asg 29 (.bin (.bxor .u64) (.var 54) (.bin (.band .u64) (.un (.bnot .u64) (.var 50)) (.var 51))),
    .asg 91 (.padd (.var 91) (.var 1) 8),
    .asg 3 (.bin (.sub .u64) (.var 3) (.bin (.mul .u32) (.var 1) (.lit 8)))]

/-- part of `KeccakF1600_FastLoop_Absorb` -/
def KeccakF1600_FastLoop_Absorb.part66 : Stmt :=
  block [
    .asg 4 (.var 3),
    .asg 90 (.var 0),
    .asg 91 (.var 2),
    .asg 5 (.ld 8 (.var 90)),
    .asg 6 (.ld 8 (.padd (.var 90) (.lit 1) 8)),
    .asg 7 (.ld 8 (.padd (.var 90) (.lit 2) 8)),
    .asg 8 (.ld 8 (.padd (.var 90) (.lit 3) 8)),
    .asg 9 (.ld 8 (.padd (.var 90) (.lit 4) 8)),
    .asg 10 (.ld 8 (.padd (.var 90) (.lit 5) 8)),
    .asg 11 (.ld 8 (.padd (.var 90) (.lit 6) 8)),
    .asg 12 (.ld 8 (.padd (.var 90) (.lit 7) 8)),
    .asg 13 (.ld 8 (.padd (.var 90) (.lit 8) 8)),
    .asg 14 (.ld 8 (.padd (.var 90) (.lit 9) 8)),
    .asg 15 (.ld 8 (.padd (.var 90) (.lit 10) 8)),
    .asg 16 (.ld 8 (.padd (.var 90) (.lit 11) 8)),
    .asg 17 (.ld 8 (.padd (.var 90) (.lit 12) 8)),
    .asg 18 (.ld 8 (.padd (.var 90) (.lit 13) 8)),
    .asg 19 (.ld 8 (.padd (.var 90) (.lit 14) 8)),
    .asg 20 (.ld 8 (.padd (.var 90) (.lit 15) 8)),
    .asg 21 (.ld 8 (.padd (.var 90) (.lit 16) 8)),
    .asg 22 (.ld 8 (.padd (.var 90) (.lit 17) 8)),
    .asg 23 (.ld 8 (.padd (.var 90) (.lit 18) 8)),
    .asg 24 (.ld 8 (.padd (.var 90) (.lit 19) 8)),
    .asg 25 (.ld 8 (.padd (.var 90) (.lit 20) 8)),
    .asg 26 (.ld 8 (.padd (.var 90) (.lit 21) 8)),
    .asg 27 (.ld 8 (.padd (.var 90) (.lit 22) 8)),
    .asg 28 (.ld 8 (.padd (.var 90) (.lit 23) 8)),
    .asg 29 (.ld 8 (.padd (.var 90) (.lit 24) 8)),
    .loop (.bin .ge (.var 3) (.bin (.mul .u32) (.var 1) (.lit 8)))
      (block [
        KeccakF1600_FastLoop_Absorb.part2,
        KeccakF1600_FastLoop_Absorb.part3,
        KeccakF1600_FastLoop_Absorb.part4,
        KeccakF1600_FastLoop_Absorb.part5,
        KeccakF1600_FastLoop_Absorb.part6,
        KeccakF1600_FastLoop_Absorb.part7,
        KeccakF1600_FastLoop_Absorb.part8,
        KeccakF1600_FastLoop_Absorb.part9,
        KeccakF1600_FastLoop_Absorb.part10,
        KeccakF1600_FastLoop_Absorb.part11,
        KeccakF1600_FastLoop_Absorb.part12,
        KeccakF1600_FastLoop_Absorb.part13,
        KeccakF1600_FastLoop_Absorb.part14,
        KeccakF1600_FastLoop_Absorb.part15,
        KeccakF1600_FastLoop_Absorb.part16,
        KeccakF1600_FastLoop_Absorb.part17,
        KeccakF1600_FastLoop_Absorb.part18,
        KeccakF1600_FastLoop_Absorb.part19,
        KeccakF1600_FastLoop_Absorb.part20,
        KeccakF1600_FastLoop_Absorb.part21,
        KeccakF1600_FastLoop_Absorb.part22,
        KeccakF1600_FastLoop_Absorb.part23,
        KeccakF1600_FastLoop_Absorb.part24,
        KeccakF1600_FastLoop_Absorb.part25,
        KeccakF1600_FastLoop_Absorb.part26,
        KeccakF1600_FastLoop_Absorb.part27,
        KeccakF1600_FastLoop_Absorb.part28,
        KeccakF1600_FastLoop_Absorb.part29,
        KeccakF1600_FastLoop_Absorb.part30,
        KeccakF1600_FastLoop_Absorb.part31,
        KeccakF1600_FastLoop_Absorb.part32,
        KeccakF1600_FastLoop_Absorb.part33,
        KeccakF1600_FastLoop_Absorb.part34,
        KeccakF1600_FastLoop_Absorb.part35,
        KeccakF1600_FastLoop_Absorb.part36,
        KeccakF1600_FastLoop_Absorb.part37,
        KeccakF1600_FastLoop_Absorb.part38,
        KeccakF1600_FastLoop_Absorb.part39,
        KeccakF1600_FastLoop_Absorb.part40,
        KeccakF1600_FastLoop_Absorb.part41,
        KeccakF1600_FastLoop_Absorb.part42,
        KeccakF1600_FastLoop_Absorb.part43,
        KeccakF1600_FastLoop_Absorb.part44,
        KeccakF1600_FastLoop_Absorb.part45,
        KeccakF1600_FastLoop_Absorb.part46,
        KeccakF1600_FastLoop_Absorb.part47,
        KeccakF1600_FastLoop_Absorb.part48,
        KeccakF1600_FastLoop_Absorb.part49,
        KeccakF1600_FastLoop_Absorb.part50,
        KeccakF1600_FastLoop_Absorb.part51,
        KeccakF1600_FastLoop_Absorb.part52,
        KeccakF1600_FastLoop_Absorb.part53,
        KeccakF1600_FastLoop_Absorb.part54,
        KeccakF1600_FastLoop_Absorb.part55,
        KeccakF1600_FastLoop_Absorb.part56,
        KeccakF1600_FastLoop_Absorb.part57,
        KeccakF1600_FastLoop_Absorb.part58,
        KeccakF1600_FastLoop_Absorb.part59,
        KeccakF1600_FastLoop_Absorb.part60,
        KeccakF1600_FastLoop_Absorb.part61,
        KeccakF1600_FastLoop_Absorb.part62,
        KeccakF1600_FastLoop_Absorb.part63,
        KeccakF1600_FastLoop_Absorb.part64,
        KeccakF1600_FastLoop_Absorb.part65])
      (.skip),
    .st 8 (.var 90) (.var 5),
    .st 8 (.padd (.var 90) (.lit 1) 8) (.var 6),
    .st 8 (.padd (.var 90) (.lit 2) 8) (.var 7),
    .st 8 (.padd (.var 90) (.lit 3) 8) (.var 8),
    .st 8 (.padd (.var 90) (.lit 4) 8) (.var 9),
    .st 8 (.padd (.var 90) (.lit 5) 8) (.var 10),
    .st 8 (.padd (.var 90) (.lit 6) 8) (.var 11),
    .st 8 (.padd (.var 90) (.lit 7) 8) (.var 12),
    .st 8 (.padd (.var 90) (.lit 8) 8) (.var 13),
    .st 8 (.padd (.var 90) (.lit 9) 8) (.var 14),
    .st 8 (.padd (.var 90) (.lit 10) 8) (.var 15)]

/-- part of `KeccakF1600_FastLoop_Absorb` -/
def KeccakF1600_FastLoop_Absorb.part67 : Stmt :=
  block [
    .st 8 (.padd (.var 90) (.lit 11) 8) (.var 16),
    .st 8 (.padd (.var 90) (.lit 12) 8) (.var 17),
    .st 8 (.padd (.var 90) (.lit 13) 8) (.var 18),
    .st 8 (.padd (.var 90) (.lit 14) 8) (.var 19),
    .st 8 (.padd (.var 90) (.lit 15) 8) (.var 20),
    .st 8 (.padd (.var 90) (.lit 16) 8) (.var 21),
    .st 8 (.padd (.var 90) (.lit 17) 8) (.var 22),
    .st 8 (.padd (.var 90) (.lit 18) 8) (.var 23),
    .st 8 (.padd (.var 90) (.lit 19) 8) (.var 24),
    .st 8 (.padd (.var 90) (.lit 20) 8) (.var 25),
    .st 8 (.padd (.var 90) (.lit 21) 8) (.var 26),
    .st 8 (.padd (.var 90) (.lit 22) 8) (.var 27),
    .st 8 (.padd (.var 90) (.lit 23) 8) (.var 28),
    .st 8 (.padd (.var 90) (.lit 24) 8) (.var 29),
    .ret (.bin (.sub .u64) (.var 4) (.var 3))]

/-- `KeccakF1600_FastLoop_Absorb`, sha3/opt64/KeccakP-1600-opt64.c:523-542; variables: 0 state, 1 laneCount, 2 data,
  3 dataByteLen, 4 originalDataByteLen, 5 Aba, 6 Abe, 7 Abi, 8 Abo, 9 Abu, 10 Aga, 11 Age, 12 Agi, 13 Ago, 14 Agu, 15
  Aka, 16 Ake, 17 Aki, 18 Ako, 19 Aku, 20 Ama, 21 Ame, 22 Ami, 23 Amo, 24 Amu, 25 Asa, 26 Ase, 27 Asi, 28 Aso, 29
  Asu, 30 Bba, 31 Bbe, 32 Bbi, 33 Bbo, 34 Bbu, 35 Bga, 36 Bge, 37 Bgi, 38 Bgo, 39 Bgu, 40 Bka, 41 Bke, 42 Bki, 43
  Bko, 44 Bku, 45 Bma, 46 Bme, 47 Bmi, 48 Bmo, 49 Bmu, 50 Bsa, 51 Bse, 52 Bsi, 53 Bso, 54 Bsu, 55 Ca, 56 Ce, 57 Ci,
  58 Co, 59 Cu, 60 Da, 61 De, 62 Di, 63 Do, 64 Du, 65 Eba, 66 Ebe, 67 Ebi, 68 Ebo, 69 Ebu, 70 Ega, 71 Ege, 72 Egi, 73
  Ego, 74 Egu, 75 Eka, 76 Eke, 77 Eki, 78 Eko, 79 Eku, 80 Ema, 81 Eme, 82 Emi, 83 Emo, 84 Emu, 85 Esa, 86 Ese, 87
  Esi, 88 Eso, 89 Esu, 90 stateAsLanes, 91 inDataAsLanes -/
def KeccakF1600_FastLoop_Absorb : Fn := ⟨4,
  block [
    KeccakF1600_FastLoop_Absorb.part66,
    KeccakF1600_FastLoop_Absorb.part67]⟩

/-- `KeccakP1600_AddLanes`, sha3/opt64/KeccakP-1600-opt64.c:124-178; variables: 0 state, 1 data, 2 laneCount, 3 i, 4
  curData, 5 lane -/
def KeccakP1600_AddLanes : Fn := ⟨3,
  block [
    .asg 4 (.var 1),
    .asg 3 (.lit 0),
    .loop (.bin .lt (.var 3) (.var 2))
      (block [
        .asg 5 (.bin (.bor .u64) (.bin (.bor .u64) (.bin (.bor .u64) (.bin (.bor .u64) (.bin (.bor .u64) (.bin (.bor
          .u64) (.bin (.bor .u64) (.ld 1 (.var 4)) (.bin (.shl .u64) (.ld 1 (.padd (.var 4) (.lit 1) 1)) (.lit 8)))
          (.bin (.shl .u64) (.ld 1 (.padd (.var 4) (.lit 2) 1)) (.lit 16))) (.bin (.shl .u64) (.ld 1 (.padd (.var 4)
          (.lit 3) 1)) (.lit 24))) (.bin (.shl .u64) (.ld 1 (.padd (.var 4) (.lit 4) 1)) (.lit 32))) (.bin (.shl
          .u64) (.ld 1 (.padd (.var 4) (.lit 5) 1)) (.lit 40))) (.bin (.shl .u64) (.ld 1 (.padd (.var 4) (.lit 6) 1))
          (.lit 48))) (.bin (.shl .u64) (.ld 1 (.padd (.var 4) (.lit 7) 1)) (.lit 56))),
        .st 8 (.padd (.var 0) (.var 3) 8) (.bin (.bxor .u64) (.ld 8 (.padd (.var 0) (.var 3) 8)) (.var 5))])
      (block [
        .asg 3 (.bin (.add .u32) (.var 3) (.lit 1)),
        .asg 4 (.padd (.var 4) (.lit 8) 1)])]⟩

/-- `KeccakP1600_AddBytesInLane`, sha3/opt64/KeccakP-1600-opt64.c:100-120; variables: 0 state, 1 lanePosition, 2
  data, 3 offset, 4 length, 5 lane, 6 i -/
def KeccakP1600_AddBytesInLane : Fn := ⟨5,
  block [
    .asg 5 (.lit 0),
    .asg 6 (.lit 0),
    .loop (.bin .lt (.var 6) (.var 4))
      (.asg 5 (.bin (.bor .u64) (.var 5) (.bin (.shl .u64) (.ld 1 (.padd (.var 2) (.var 6) 1)) (.bin (.mul .u32)
        (.bin (.add .u32) (.var 6) (.var 3)) (.lit 8)))))
      (.asg 6 (.bin (.add .u32) (.var 6) (.lit 1))),
    .st 8 (.padd (.var 0) (.var 1) 8) (.bin (.bxor .u64) (.ld 8 (.padd (.var 0) (.var 1) 8)) (.var 5))]⟩

/-- `KeccakP1600_AddByte`, sha3/opt64/KeccakP-1600-opt64.c:183-188; variables: 0 state, 1 byte, 2 offset, 3 lane -/
def KeccakP1600_AddByte : Fn := ⟨3,
  block [
    .asg 3 (.var 1),
    .asg 3 (.bin (.shl .u64) (.var 3) (.bin (.mul .u32) (.div (.mod .u32) (.var 2) (.lit 8)) (.lit 8))),
    .st 8 (.padd (.var 0) (.div (.div .u32) (.var 2) (.lit 8)) 8) (.bin (.bxor .u64) (.ld 8 (.padd (.var 0) (.div
      (.div .u32) (.var 2) (.lit 8)) 8)) (.var 3))]⟩

/-- `fromWordToBytes`, sha3/opt64/KeccakP-1600-opt64.c:398-404; variables: 0 bytes, 1 word, 2 i -/
def fromWordToBytes : Fn := ⟨2,
  block [
    .asg 2 (.lit 0),
    .loop (.bin .lt (.var 2) (.lit 8))
      (.st 1 (.padd (.var 0) (.var 2) 1) (.un (.cast .u8) (.bin (.band .u64) (.bin (.shr .u64) (.var 1) (.bin (.mul
        .u32) (.lit 8) (.var 2))) (.lit 255))))
      (.asg 2 (.bin (.add .u32) (.var 2) (.lit 1)))]⟩

/-- `KeccakP1600_ExtractLanes`, sha3/opt64/KeccakP-1600-opt64.c:407-437; variables: 0 state, 1 data, 2 laneCount, 3 i
  -/
def KeccakP1600_ExtractLanes : Fn := ⟨3,
  block [
    .asg 3 (.lit 0),
    .loop (.bin .lt (.var 3) (.var 2))
      (.call none Id.fromWordToBytes [.padd (.var 1) (.bin (.mul .u32) (.var 3) (.lit 8)) 1, .ld 8 (.padd (.var 0)
        (.var 3) 8)])
      (.asg 3 (.bin (.add .u32) (.var 3) (.lit 1)))]⟩

/-- `KeccakP1600_ExtractBytesInLane`, sha3/opt64/KeccakP-1600-opt64.c:372-393; variables: 0 state, 1 lanePosition, 2
  data, 3 offset, 4 length, 5 lane, 6 i -/
def KeccakP1600_ExtractBytesInLane : Fn := ⟨5,
  block [
    .asg 5 (.ld 8 (.padd (.var 0) (.var 1) 8)),
    .asg 5 (.bin (.shr .u64) (.var 5) (.bin (.mul .u32) (.var 3) (.lit 8))),
    .asg 6 (.lit 0),
    .loop (.bin .lt (.var 6) (.var 4))
      (block [
        .st 1 (.padd (.var 2) (.var 6) 1) (.un (.cast .u8) (.bin (.band .u64) (.var 5) (.lit 255))),
        .asg 5 (.bin (.shr .u64) (.var 5) (.lit 8))])
      (.asg 6 (.bin (.add .u32) (.var 6) (.lit 1)))]⟩

end Faest.Leak.ProgBe
