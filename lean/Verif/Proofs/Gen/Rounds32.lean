/-
The rounds of sha3/plain32/KeccakP-1600-inplace32BI.c: each of the four macros is one round on the lanes, with the words of
the state in the places where the macro before left them.
-/
import Verif.Model.Gen.KeccakP32
import Verif.Proofs.Gen.Half
import Verif.Proofs.KeccakPerm

namespace Faest.GenP
open Faest.C Faest.Keccak

/-- Where the words are before round 0 of four. -/
def conf0 (L : Lanes) : Halves :=
  ⟨half L.ba 0, half L.ba 1, half L.be 0, half L.be 1, half L.bi 0, half L.bi 1, half L.bo 0, half L.bo 1,
   half L.bu 0, half L.bu 1, half L.ga 0, half L.ga 1, half L.ge 0, half L.ge 1, half L.gi 0, half L.gi 1,
   half L.go 0, half L.go 1, half L.gu 0, half L.gu 1, half L.ka 0, half L.ka 1, half L.ke 0, half L.ke 1,
   half L.ki 0, half L.ki 1, half L.ko 0, half L.ko 1, half L.ku 0, half L.ku 1, half L.ma 0, half L.ma 1,
   half L.me 0, half L.me 1, half L.mi 0, half L.mi 1, half L.mo 0, half L.mo 1, half L.mu 0, half L.mu 1,
   half L.sa 0, half L.sa 1, half L.se 0, half L.se 1, half L.si 0, half L.si 1, half L.so 0, half L.so 1,
   half L.su 0, half L.su 1⟩

/-- Where the words are before round 1 of four. -/
def conf1 (L : Lanes) : Halves :=
  ⟨half L.ba 0, half L.ba 1, half L.ke 1, half L.ke 0, half L.si 0, half L.si 1, half L.go 0, half L.go 1,
   half L.mu 1, half L.mu 0, half L.ma 0, half L.ma 1, half L.be 0, half L.be 1, half L.ki 0, half L.ki 1,
   half L.so 1, half L.so 0, half L.gu 0, half L.gu 1, half L.ga 1, half L.ga 0, half L.me 0, half L.me 1,
   half L.bi 1, half L.bi 0, half L.ko 1, half L.ko 0, half L.su 1, half L.su 0, half L.sa 1, half L.sa 0,
   half L.ge 1, half L.ge 0, half L.mi 1, half L.mi 0, half L.bo 1, half L.bo 0, half L.ku 0, half L.ku 1,
   half L.ka 0, half L.ka 1, half L.se 0, half L.se 1, half L.gi 1, half L.gi 0, half L.mo 0, half L.mo 1,
   half L.bu 0, half L.bu 1⟩

/-- Where the words are before round 2 of four. -/
def conf2 (L : Lanes) : Halves :=
  ⟨half L.ba 0, half L.ba 1, half L.me 1, half L.me 0, half L.gi 1, half L.gi 0, half L.so 1, half L.so 0,
   half L.ku 1, half L.ku 0, half L.sa 1, half L.sa 0, half L.ke 1, half L.ke 0, half L.bi 1, half L.bi 0,
   half L.mo 1, half L.mo 0, half L.gu 0, half L.gu 1, half L.ma 1, half L.ma 0, half L.ge 1, half L.ge 0,
   half L.si 1, half L.si 0, half L.ko 0, half L.ko 1, half L.bu 1, half L.bu 0, half L.ka 1, half L.ka 0,
   half L.be 1, half L.be 0, half L.mi 0, half L.mi 1, half L.go 1, half L.go 0, half L.su 1, half L.su 0,
   half L.ga 1, half L.ga 0, half L.se 0, half L.se 1, half L.ki 1, half L.ki 0, half L.bo 1, half L.bo 0,
   half L.mu 1, half L.mu 0⟩

/-- Where the words are before round 3 of four. -/
def conf3 (L : Lanes) : Halves :=
  ⟨half L.ba 0, half L.ba 1, half L.ge 0, half L.ge 1, half L.ki 1, half L.ki 0, half L.mo 1, half L.mo 0,
   half L.su 0, half L.su 1, half L.ka 1, half L.ka 0, half L.me 1, half L.me 0, half L.si 1, half L.si 0,
   half L.bo 0, half L.bo 1, half L.gu 0, half L.gu 1, half L.sa 0, half L.sa 1, half L.be 1, half L.be 0,
   half L.gi 0, half L.gi 1, half L.ko 1, half L.ko 0, half L.mu 0, half L.mu 1, half L.ga 0, half L.ga 1,
   half L.ke 0, half L.ke 1, half L.mi 1, half L.mi 0, half L.so 0, half L.so 1, half L.bu 1, half L.bu 0,
   half L.ma 1, half L.ma 0, half L.se 0, half L.se 1, half L.bi 0, half L.bi 1, half L.go 1, half L.go 0,
   half L.ku 1, half L.ku 0⟩

theorem half_r1_0 (x : BitVec 64) : half (rol64 x 1) 0 = half x 1 <<< 1 ^^^ half x 1 >>> 31 :=
  half_rol x 1 0 1 1 31 (by decide) (by decide) (by decide) rfl rfl
theorem half_r1_1 (x : BitVec 64) : half (rol64 x 1) 1 = half x 0 := by
  rw [half_rol x 1 1 0 0 32 (by decide) (by decide) (by decide) rfl rfl, rol32_zero]
theorem half_r2_0 (x : BitVec 64) : half (rol64 x 2) 0 = half x 0 <<< 1 ^^^ half x 0 >>> 31 :=
  half_rol x 2 0 0 1 31 (by decide) (by decide) (by decide) rfl rfl
theorem half_r2_1 (x : BitVec 64) : half (rol64 x 2) 1 = half x 1 <<< 1 ^^^ half x 1 >>> 31 :=
  half_rol x 2 1 1 1 31 (by decide) (by decide) (by decide) rfl rfl
theorem half_r3_0 (x : BitVec 64) : half (rol64 x 3) 0 = half x 1 <<< 2 ^^^ half x 1 >>> 30 :=
  half_rol x 3 0 1 2 30 (by decide) (by decide) (by decide) rfl rfl
theorem half_r3_1 (x : BitVec 64) : half (rol64 x 3) 1 = half x 0 <<< 1 ^^^ half x 0 >>> 31 :=
  half_rol x 3 1 0 1 31 (by decide) (by decide) (by decide) rfl rfl
theorem half_r6_0 (x : BitVec 64) : half (rol64 x 6) 0 = half x 0 <<< 3 ^^^ half x 0 >>> 29 :=
  half_rol x 6 0 0 3 29 (by decide) (by decide) (by decide) rfl rfl
theorem half_r6_1 (x : BitVec 64) : half (rol64 x 6) 1 = half x 1 <<< 3 ^^^ half x 1 >>> 29 :=
  half_rol x 6 1 1 3 29 (by decide) (by decide) (by decide) rfl rfl
theorem half_r8_0 (x : BitVec 64) : half (rol64 x 8) 0 = half x 0 <<< 4 ^^^ half x 0 >>> 28 :=
  half_rol x 8 0 0 4 28 (by decide) (by decide) (by decide) rfl rfl
theorem half_r8_1 (x : BitVec 64) : half (rol64 x 8) 1 = half x 1 <<< 4 ^^^ half x 1 >>> 28 :=
  half_rol x 8 1 1 4 28 (by decide) (by decide) (by decide) rfl rfl
theorem half_r10_0 (x : BitVec 64) : half (rol64 x 10) 0 = half x 0 <<< 5 ^^^ half x 0 >>> 27 :=
  half_rol x 10 0 0 5 27 (by decide) (by decide) (by decide) rfl rfl
theorem half_r10_1 (x : BitVec 64) : half (rol64 x 10) 1 = half x 1 <<< 5 ^^^ half x 1 >>> 27 :=
  half_rol x 10 1 1 5 27 (by decide) (by decide) (by decide) rfl rfl
theorem half_r14_0 (x : BitVec 64) : half (rol64 x 14) 0 = half x 0 <<< 7 ^^^ half x 0 >>> 25 :=
  half_rol x 14 0 0 7 25 (by decide) (by decide) (by decide) rfl rfl
theorem half_r14_1 (x : BitVec 64) : half (rol64 x 14) 1 = half x 1 <<< 7 ^^^ half x 1 >>> 25 :=
  half_rol x 14 1 1 7 25 (by decide) (by decide) (by decide) rfl rfl
theorem half_r15_0 (x : BitVec 64) : half (rol64 x 15) 0 = half x 1 <<< 8 ^^^ half x 1 >>> 24 :=
  half_rol x 15 0 1 8 24 (by decide) (by decide) (by decide) rfl rfl
theorem half_r15_1 (x : BitVec 64) : half (rol64 x 15) 1 = half x 0 <<< 7 ^^^ half x 0 >>> 25 :=
  half_rol x 15 1 0 7 25 (by decide) (by decide) (by decide) rfl rfl
theorem half_r18_0 (x : BitVec 64) : half (rol64 x 18) 0 = half x 0 <<< 9 ^^^ half x 0 >>> 23 :=
  half_rol x 18 0 0 9 23 (by decide) (by decide) (by decide) rfl rfl
theorem half_r18_1 (x : BitVec 64) : half (rol64 x 18) 1 = half x 1 <<< 9 ^^^ half x 1 >>> 23 :=
  half_rol x 18 1 1 9 23 (by decide) (by decide) (by decide) rfl rfl
theorem half_r20_0 (x : BitVec 64) : half (rol64 x 20) 0 = half x 0 <<< 10 ^^^ half x 0 >>> 22 :=
  half_rol x 20 0 0 10 22 (by decide) (by decide) (by decide) rfl rfl
theorem half_r20_1 (x : BitVec 64) : half (rol64 x 20) 1 = half x 1 <<< 10 ^^^ half x 1 >>> 22 :=
  half_rol x 20 1 1 10 22 (by decide) (by decide) (by decide) rfl rfl
theorem half_r21_0 (x : BitVec 64) : half (rol64 x 21) 0 = half x 1 <<< 11 ^^^ half x 1 >>> 21 :=
  half_rol x 21 0 1 11 21 (by decide) (by decide) (by decide) rfl rfl
theorem half_r21_1 (x : BitVec 64) : half (rol64 x 21) 1 = half x 0 <<< 10 ^^^ half x 0 >>> 22 :=
  half_rol x 21 1 0 10 22 (by decide) (by decide) (by decide) rfl rfl
theorem half_r25_0 (x : BitVec 64) : half (rol64 x 25) 0 = half x 1 <<< 13 ^^^ half x 1 >>> 19 :=
  half_rol x 25 0 1 13 19 (by decide) (by decide) (by decide) rfl rfl
theorem half_r25_1 (x : BitVec 64) : half (rol64 x 25) 1 = half x 0 <<< 12 ^^^ half x 0 >>> 20 :=
  half_rol x 25 1 0 12 20 (by decide) (by decide) (by decide) rfl rfl
theorem half_r27_0 (x : BitVec 64) : half (rol64 x 27) 0 = half x 1 <<< 14 ^^^ half x 1 >>> 18 :=
  half_rol x 27 0 1 14 18 (by decide) (by decide) (by decide) rfl rfl
theorem half_r27_1 (x : BitVec 64) : half (rol64 x 27) 1 = half x 0 <<< 13 ^^^ half x 0 >>> 19 :=
  half_rol x 27 1 0 13 19 (by decide) (by decide) (by decide) rfl rfl
theorem half_r28_0 (x : BitVec 64) : half (rol64 x 28) 0 = half x 0 <<< 14 ^^^ half x 0 >>> 18 :=
  half_rol x 28 0 0 14 18 (by decide) (by decide) (by decide) rfl rfl
theorem half_r28_1 (x : BitVec 64) : half (rol64 x 28) 1 = half x 1 <<< 14 ^^^ half x 1 >>> 18 :=
  half_rol x 28 1 1 14 18 (by decide) (by decide) (by decide) rfl rfl
theorem half_r36_0 (x : BitVec 64) : half (rol64 x 36) 0 = half x 0 <<< 18 ^^^ half x 0 >>> 14 :=
  half_rol x 36 0 0 18 14 (by decide) (by decide) (by decide) rfl rfl
theorem half_r36_1 (x : BitVec 64) : half (rol64 x 36) 1 = half x 1 <<< 18 ^^^ half x 1 >>> 14 :=
  half_rol x 36 1 1 18 14 (by decide) (by decide) (by decide) rfl rfl
theorem half_r39_0 (x : BitVec 64) : half (rol64 x 39) 0 = half x 1 <<< 20 ^^^ half x 1 >>> 12 :=
  half_rol x 39 0 1 20 12 (by decide) (by decide) (by decide) rfl rfl
theorem half_r39_1 (x : BitVec 64) : half (rol64 x 39) 1 = half x 0 <<< 19 ^^^ half x 0 >>> 13 :=
  half_rol x 39 1 0 19 13 (by decide) (by decide) (by decide) rfl rfl
theorem half_r41_0 (x : BitVec 64) : half (rol64 x 41) 0 = half x 1 <<< 21 ^^^ half x 1 >>> 11 :=
  half_rol x 41 0 1 21 11 (by decide) (by decide) (by decide) rfl rfl
theorem half_r41_1 (x : BitVec 64) : half (rol64 x 41) 1 = half x 0 <<< 20 ^^^ half x 0 >>> 12 :=
  half_rol x 41 1 0 20 12 (by decide) (by decide) (by decide) rfl rfl
theorem half_r43_0 (x : BitVec 64) : half (rol64 x 43) 0 = half x 1 <<< 22 ^^^ half x 1 >>> 10 :=
  half_rol x 43 0 1 22 10 (by decide) (by decide) (by decide) rfl rfl
theorem half_r43_1 (x : BitVec 64) : half (rol64 x 43) 1 = half x 0 <<< 21 ^^^ half x 0 >>> 11 :=
  half_rol x 43 1 0 21 11 (by decide) (by decide) (by decide) rfl rfl
theorem half_r44_0 (x : BitVec 64) : half (rol64 x 44) 0 = half x 0 <<< 22 ^^^ half x 0 >>> 10 :=
  half_rol x 44 0 0 22 10 (by decide) (by decide) (by decide) rfl rfl
theorem half_r44_1 (x : BitVec 64) : half (rol64 x 44) 1 = half x 1 <<< 22 ^^^ half x 1 >>> 10 :=
  half_rol x 44 1 1 22 10 (by decide) (by decide) (by decide) rfl rfl
theorem half_r45_0 (x : BitVec 64) : half (rol64 x 45) 0 = half x 1 <<< 23 ^^^ half x 1 >>> 9 :=
  half_rol x 45 0 1 23 9 (by decide) (by decide) (by decide) rfl rfl
theorem half_r45_1 (x : BitVec 64) : half (rol64 x 45) 1 = half x 0 <<< 22 ^^^ half x 0 >>> 10 :=
  half_rol x 45 1 0 22 10 (by decide) (by decide) (by decide) rfl rfl
theorem half_r55_0 (x : BitVec 64) : half (rol64 x 55) 0 = half x 1 <<< 28 ^^^ half x 1 >>> 4 :=
  half_rol x 55 0 1 28 4 (by decide) (by decide) (by decide) rfl rfl
theorem half_r55_1 (x : BitVec 64) : half (rol64 x 55) 1 = half x 0 <<< 27 ^^^ half x 0 >>> 5 :=
  half_rol x 55 1 0 27 5 (by decide) (by decide) (by decide) rfl rfl
theorem half_r56_0 (x : BitVec 64) : half (rol64 x 56) 0 = half x 0 <<< 28 ^^^ half x 0 >>> 4 :=
  half_rol x 56 0 0 28 4 (by decide) (by decide) (by decide) rfl rfl
theorem half_r56_1 (x : BitVec 64) : half (rol64 x 56) 1 = half x 1 <<< 28 ^^^ half x 1 >>> 4 :=
  half_rol x 56 1 1 28 4 (by decide) (by decide) (by decide) rfl rfl
theorem half_r61_0 (x : BitVec 64) : half (rol64 x 61) 0 = half x 1 <<< 31 ^^^ half x 1 >>> 1 :=
  half_rol x 61 0 1 31 1 (by decide) (by decide) (by decide) rfl rfl
theorem half_r61_1 (x : BitVec 64) : half (rol64 x 61) 1 = half x 0 <<< 30 ^^^ half x 0 >>> 2 :=
  half_rol x 61 1 0 30 2 (by decide) (by decide) (by decide) rfl rfl
theorem half_r62_0 (x : BitVec 64) : half (rol64 x 62) 0 = half x 0 <<< 31 ^^^ half x 0 >>> 1 :=
  half_rol x 62 0 0 31 1 (by decide) (by decide) (by decide) rfl rfl
theorem half_r62_1 (x : BitVec 64) : half (rol64 x 62) 1 = half x 1 <<< 31 ^^^ half x 1 >>> 1 :=
  half_rol x 62 1 1 31 1 (by decide) (by decide) (by decide) rfl rfl

theorem rc_eq (i : Fin 24) : KeccakF1600RoundConstants_int2[2 * i.val]? = some (half Keccak.roundConstants[i] 0) ∧
    KeccakF1600RoundConstants_int2[2 * i.val + 1]? = some (half Keccak.roundConstants[i] 1) := by
  revert i; decide +kernel

theorem stepP {α β : Type} {x : CM α} {a : α} {g : α → CM β} {r : CM β} (h : x = pure a) (k : g a = r) :
    x >>= g = r := by
  rw [h, pure_bind]; exact k

theorem tget_rc0 (i : Fin 24) : tget32 KeccakF1600RoundConstants_int2 (2 * i.val) = pure (half Keccak.roundConstants[i] 0) := by
  unfold tget32; rw [(rc_eq i).1]; rfl
theorem tget_rc1 (i : Fin 24) : tget32 KeccakF1600RoundConstants_int2 ((2 * i.val + 1) % 4294967296) = pure (half Keccak.roundConstants[i] 1) := by
  have h := i.isLt
  rw [show (2 * i.val + 1) % 4294967296 = 2 * i.val + 1 by omega]
  unfold tget32; rw [(rc_eq i).2]; rfl

theorem round0_eq (i : Fin 24) (L : Lanes) :
    KeccakRound0_words (conf0 L) (2 * i.val) = pure (conf1 (Keccak.round i L), 2 * i.val + 2) := by
  have h := i.isLt
  unfold KeccakRound0_words
  refine stepP (tget_rc0 i) (stepP (tget_rc1 i) ?_)
  refine congrArg pure (Prod.ext ?_ (show ((2 * i.val + 1) % 4294967296 + 1) % 4294967296 = 2 * i.val + 2 by omega))
  dsimp only
  unfold Keccak.round thetaRhoPiChiIotaPrepareTheta prepareTheta conf0 conf1
  simp only [half_xor, half_and, half_not0, half_not1, half_r1_0, half_r1_1, half_r2_0, half_r2_1, half_r3_0, half_r3_1, half_r6_0, half_r6_1, half_r8_0, half_r8_1, half_r10_0, half_r10_1, half_r14_0, half_r14_1, half_r15_0, half_r15_1, half_r18_0, half_r18_1, half_r20_0, half_r20_1, half_r21_0, half_r21_1, half_r25_0, half_r25_1, half_r27_0, half_r27_1, half_r28_0, half_r28_1, half_r36_0, half_r36_1, half_r39_0, half_r39_1, half_r41_0, half_r41_1, half_r43_0, half_r43_1, half_r44_0, half_r44_1, half_r45_0, half_r45_1, half_r55_0, half_r55_1, half_r56_0, half_r56_1, half_r61_0, half_r61_1, half_r62_0, half_r62_1]

theorem round1_eq (i : Fin 24) (L : Lanes) :
    KeccakRound1_words (conf1 L) (2 * i.val) = pure (conf2 (Keccak.round i L), 2 * i.val + 2) := by
  have h := i.isLt
  unfold KeccakRound1_words
  refine stepP (tget_rc0 i) (stepP (tget_rc1 i) ?_)
  refine congrArg pure (Prod.ext ?_ (show ((2 * i.val + 1) % 4294967296 + 1) % 4294967296 = 2 * i.val + 2 by omega))
  dsimp only
  unfold Keccak.round thetaRhoPiChiIotaPrepareTheta prepareTheta conf1 conf2
  simp only [half_xor, half_and, half_not0, half_not1, half_r1_0, half_r1_1, half_r2_0, half_r2_1, half_r3_0, half_r3_1, half_r6_0, half_r6_1, half_r8_0, half_r8_1, half_r10_0, half_r10_1, half_r14_0, half_r14_1, half_r15_0, half_r15_1, half_r18_0, half_r18_1, half_r20_0, half_r20_1, half_r21_0, half_r21_1, half_r25_0, half_r25_1, half_r27_0, half_r27_1, half_r28_0, half_r28_1, half_r36_0, half_r36_1, half_r39_0, half_r39_1, half_r41_0, half_r41_1, half_r43_0, half_r43_1, half_r44_0, half_r44_1, half_r45_0, half_r45_1, half_r55_0, half_r55_1, half_r56_0, half_r56_1, half_r61_0, half_r61_1, half_r62_0, half_r62_1]

theorem round2_eq (i : Fin 24) (L : Lanes) :
    KeccakRound2_words (conf2 L) (2 * i.val) = pure (conf3 (Keccak.round i L), 2 * i.val + 2) := by
  have h := i.isLt
  unfold KeccakRound2_words
  refine stepP (tget_rc0 i) (stepP (tget_rc1 i) ?_)
  refine congrArg pure (Prod.ext ?_ (show ((2 * i.val + 1) % 4294967296 + 1) % 4294967296 = 2 * i.val + 2 by omega))
  dsimp only
  unfold Keccak.round thetaRhoPiChiIotaPrepareTheta prepareTheta conf2 conf3
  simp only [half_xor, half_and, half_not0, half_not1, half_r1_0, half_r1_1, half_r2_0, half_r2_1, half_r3_0, half_r3_1, half_r6_0, half_r6_1, half_r8_0, half_r8_1, half_r10_0, half_r10_1, half_r14_0, half_r14_1, half_r15_0, half_r15_1, half_r18_0, half_r18_1, half_r20_0, half_r20_1, half_r21_0, half_r21_1, half_r25_0, half_r25_1, half_r27_0, half_r27_1, half_r28_0, half_r28_1, half_r36_0, half_r36_1, half_r39_0, half_r39_1, half_r41_0, half_r41_1, half_r43_0, half_r43_1, half_r44_0, half_r44_1, half_r45_0, half_r45_1, half_r55_0, half_r55_1, half_r56_0, half_r56_1, half_r61_0, half_r61_1, half_r62_0, half_r62_1]

theorem round3_eq (i : Fin 24) (L : Lanes) :
    KeccakRound3_words (conf3 L) (2 * i.val) = pure (conf0 (Keccak.round i L), 2 * i.val + 2) := by
  have h := i.isLt
  unfold KeccakRound3_words
  refine stepP (tget_rc0 i) (stepP (tget_rc1 i) ?_)
  refine congrArg pure (Prod.ext ?_ (show ((2 * i.val + 1) % 4294967296 + 1) % 4294967296 = 2 * i.val + 2 by omega))
  dsimp only
  unfold Keccak.round thetaRhoPiChiIotaPrepareTheta prepareTheta conf3 conf0
  simp only [half_xor, half_and, half_not0, half_not1, half_r1_0, half_r1_1, half_r2_0, half_r2_1, half_r3_0, half_r3_1, half_r6_0, half_r6_1, half_r8_0, half_r8_1, half_r10_0, half_r10_1, half_r14_0, half_r14_1, half_r15_0, half_r15_1, half_r18_0, half_r18_1, half_r20_0, half_r20_1, half_r21_0, half_r21_1, half_r25_0, half_r25_1, half_r27_0, half_r27_1, half_r28_0, half_r28_1, half_r36_0, half_r36_1, half_r39_0, half_r39_1, half_r41_0, half_r41_1, half_r43_0, half_r43_1, half_r44_0, half_r44_1, half_r45_0, half_r45_1, half_r55_0, half_r55_1, half_r56_0, half_r56_1, half_r61_0, half_r61_1, half_r62_0, half_r62_1]

end Faest.GenP
