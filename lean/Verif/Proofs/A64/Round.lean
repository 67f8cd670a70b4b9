/-
One round of sha3/armv8a-neon/KeccakP-1600-armv8a-neon.s on the vector registers.
-/
import Verif.Model.Gen.KeccakNeon
import Verif.Proofs.Asm.Round
namespace Faest.A64
open Faest.C Faest.GenN Faest.Keccak
open Faest.Asm (thetaD chiL lft_some or_rol Val)

/-- Straight code. -/
def ops (T : List (BitVec 64)) : List Op → Cpu → CM Cpu
  | [], c => pure c
  | o :: l, c => o.exec T c >>= ops T l

theorem ops_append (T : List (BitVec 64)) (l l' : List Op) (c : Cpu) : ops T (l ++ l') c = ops T l c >>= ops T l' := by
  induction l generalizing c with
  | nil => simp [ops]
  | cons o l ih =>
    simp only [List.cons_append, ops, bind_assoc]
    exact congrArg _ (funext ih)

def parOps : List Op := [
  .eor .v0 .v19 .v25,
  .eor .v1 .v20 .v26,
  .eor .v2 .v21 .v28,
  .eor .v3 .v22 .v23,
  .eor .v4 .v24 .v30,
  .eor .v1 .v1 .v27,
  .eor .v3 .v3 .v29,
  .trn1 .v5 .v0 .v1,
  .trn2 .v6 .v1 .v2,
  .eor .v1 .v5 .v6,
  .ext8 .v5 .v4 .v2,
  .eor .v3 .v3 .v5,
  .insV .v5 false .v0 true,
  .eor .v4 .v4 .v5,
  .eor .v4 .v4 .v31,
  .ext8 .v2 .v1 .v1,
  .insV .v4 true .v3 false,
  .trn2 .v0 .v3 .v1,
  .shl .v5 .v2 1,
  .sri .v5 .v2 63,
  .shl .v6 .v3 1,
  .sri .v6 .v3 63,
  .shl .v7 .v4 1,
  .sri .v7 .v4 63]

def dOps : List Op := [
  .eor .v18 .v4 .v5,
  .eor .v2 .v2 .v6,
  .eor .v0 .v0 .v7,
  .ext8 .v7 .v5 .v7,
  .eor .v7 .v3 .v7,
  .ext8 .v6 .v6 .v5,
  .trn1 .v4 .v1 .v4,
  .eor .v6 .v4 .v6]

def thetaOps : List Op := [
  .eor .v19 .v19 .v18,
  .eor .v20 .v20 .v6,
  .eor .v21 .v21 .v2,
  .eor .v22 .v22 .v0,
  .eor .v23 .v23 .v0,
  .eor .v24 .v24 .v7,
  .eor .v25 .v25 .v18,
  .eor .v26 .v26 .v6,
  .eor .v27 .v27 .v6,
  .eor .v28 .v28 .v2,
  .eor .v29 .v29 .v0,
  .eor .v30 .v30 .v7,
  .eor .v31 .v31 .v7]

def rhoOps : List Op := [
  .umov .x11 .v20 false,
  .ror .x11 .x11 63,
  .umov .x10 .v25 false,
  .insX .v25 false .x11,
  .ror .x10 .x10 61,
  .umov .x11 .v22 true,
  .insX .v22 true .x10,
  .ror .x11 .x11 58,
  .umov .x10 .v26 false,
  .insX .v26 false .x11,
  .ror .x10 .x10 54,
  .umov .x11 .v28 false,
  .insX .v28 false .x10,
  .ror .x11 .x11 49,
  .umov .x10 .v29 false,
  .insX .v29 false .x11,
  .ror .x10 .x10 43,
  .umov .x11 .v22 false,
  .insX .v22 false .x10,
  .ror .x11 .x11 36,
  .umov .x10 .v20 true,
  .insX .v20 true .x11,
  .ror .x10 .x10 28,
  .umov .x11 .v27 false,
  .insX .v27 false .x10,
  .ror .x11 .x11 19,
  .umov .x10 .v23 false,
  .insX .v23 false .x11,
  .ror .x10 .x10 9,
  .umov .x11 .v28 true,
  .insX .v28 true .x10,
  .ror .x11 .x11 62,
  .umov .x10 .v31 false,
  .insX .v31 false .x11,
  .ror .x10 .x10 50,
  .umov .x11 .v19 true,
  .insX .v19 true .x10,
  .ror .x11 .x11 37,
  .umov .x10 .v26 true,
  .insX .v26 true .x11,
  .ror .x10 .x10 23,
  .umov .x11 .v30 true,
  .insX .v30 true .x10,
  .ror .x11 .x11 8,
  .umov .x10 .v30 false,
  .insX .v30 false .x11,
  .ror .x10 .x10 56,
  .umov .x11 .v24 true,
  .insX .v24 true .x10,
  .ror .x11 .x11 39,
  .umov .x10 .v23 true,
  .insX .v23 true .x11,
  .ror .x10 .x10 21,
  .umov .x11 .v21 false,
  .insX .v21 false .x10,
  .ror .x11 .x11 2,
  .umov .x10 .v27 true,
  .insX .v27 true .x11,
  .ror .x10 .x10 46,
  .umov .x11 .v25 true,
  .insX .v25 true .x10,
  .ror .x11 .x11 25,
  .umov .x10 .v29 true,
  .insX .v29 true .x11,
  .ror .x10 .x10 3,
  .umov .x11 .v24 false,
  .insX .v24 false .x10,
  .ror .x11 .x11 44,
  .umov .x10 .v21 true,
  .insX .v21 true .x11,
  .ror .x10 .x10 20,
  .insX .v20 false .x10]

def chiOps : List Op := [
  .ext8 .v18 .v26 .v31,
  .bic .v6 .v27 .v18,
  .ext8 .v17 .v26 .v31,
  .bic .v5 .v17 .v30,
  .bic .v3 .v30 .v29,
  .eor .v30 .v30 .v6,
  .trn1 .v18 .v26 .v25,
  .ext8 .v17 .v23 .v26,
  .bic .v7 .v17 .v18,
  .trn2 .v18 .v20 .v25,
  .ext8 .v17 .v21 .v25,
  .bic .v6 .v17 .v18,
  .trn1 .v18 .v20 .v19,
  .trn1 .v17 .v21 .v20,
  .bic .v1 .v17 .v18,
  .ext8 .v18 .v19 .v23,
  .trn1 .v17 .v19 .v24,
  .bic .v0 .v17 .v18,
  .ext8 .v18 .v23 .v27,
  .ext8 .v17 .v24 .v28,
  .bic .v4 .v17 .v18,
  .insV .v18 false .v27 true,
  .insV .v17 false .v28 true,
  .bic .v2 .v17 .v18,
  .eor .v31 .v31 .v2,
  .bic .v2 .v29 .v28,
  .eor .v27 .v27 .v2,
  .bic .v2 .v22 .v21,
  .eor .v28 .v28 .v3,
  .eor .v29 .v29 .v5,
  .ext8 .v17 .v19 .v23,
  .bic .v3 .v17 .v22,
  .trn2 .v17 .v20 .v25,
  .bic .v5 .v17 .v24,
  .eor .v19 .v19 .v1,
  .eor .v20 .v20 .v2,
  .eor .v21 .v21 .v3,
  .eor .v22 .v22 .v0,
  .eor .v23 .v23 .v5,
  .eor .v24 .v24 .v6,
  .eor .v25 .v25 .v7,
  .eor .v26 .v26 .v4]

def iotaOps : List Op := [
  .ld1 .v16 (.post .x1 8),
  .eor .v19 .v19 .v16]

/-- The state in the vector registers; of the last one only half is in use. -/
structure VS (v : VFile) (L : Lanes) : Prop where
  v19 : v.v19 = ⟨L.ba, L.bu⟩
  v20 : v.v20 = ⟨L.be, L.ga⟩
  v21 : v.v21 = ⟨L.bi, L.ge⟩
  v22 : v.v22 = ⟨L.bo, L.gi⟩
  v23 : v.v23 = ⟨L.go, L.ki⟩
  v24 : v.v24 = ⟨L.gu, L.ko⟩
  v25 : v.v25 = ⟨L.ka, L.ku⟩
  v26 : v.v26 = ⟨L.ke, L.ma⟩
  v27 : v.v27 = ⟨L.me, L.sa⟩
  v28 : v.v28 = ⟨L.mi, L.se⟩
  v29 : v.v29 = ⟨L.mo, L.si⟩
  v30 : v.v30 = ⟨L.mu, L.so⟩
  v31 : v.v31.w0 = L.su

theorem vmap2_mk (f : BitVec 64 → BitVec 64 → BitVec 64) (a b a' b' : BitVec 64) :
    (V128.mk a b).map2 f ⟨a', b'⟩ = ⟨f a a', f b b'⟩ := rfl
theorem vmap_mk (f : BitVec 64 → BitVec 64) (a b : BitVec 64) : (V128.mk a b).map f = ⟨f a, f b⟩ := rfl

theorem sri1 (x : BitVec 64) : sriW (x <<< 1) x 63 = rol64 x 1 := by
  unfold sriW rol64
  apply BitVec.eq_of_getLsbD_eq
  intro i hi
  simp only [BitVec.getLsbD_or, BitVec.getLsbD_xor, BitVec.getLsbD_and, BitVec.getLsbD_not, BitVec.getLsbD_shiftLeft,
    BitVec.getLsbD_ushiftRight, BitVec.getLsbD_allOnes]
  by_cases h : i < 1
  · simp [h]
  · rw [BitVec.getLsbD_of_ge x (63 + i) (by omega)]
    simp [hi]
    intro _ _
    omega

theorem ror_rol {n m : Nat} (x : BitVec 64) (h : n + m = 64) : rorW x m = rol64 x n := by
  unfold rorW
  rw [show 64 - m = n by omega, or_rol x n m h]

/-- The parities of the columns in the registers. -/
structure VC (v : VFile) (C : Par) : Prop where
  v0 : v.v0 = ⟨C.i, C.e⟩
  v1 : v.v1 = ⟨C.a, C.e⟩
  v2 : v.v2 = ⟨C.e, C.a⟩
  v3 : v.v3 = ⟨C.o, C.i⟩
  v4 : v.v4 = ⟨C.u, C.o⟩
  v5 : v.v5 = ⟨rol64 C.e 1, rol64 C.a 1⟩
  v6 : v.v6 = ⟨rol64 C.o 1, rol64 C.i 1⟩
  v7 : v.v7 = ⟨rol64 C.u 1, rol64 C.o 1⟩

theorem par_ops {c : Cpu} {L : Lanes} (hv : VS c.v L) :
    ∃ v', ops rodata parOps c = pure { c with v := v' } ∧ VS v' L ∧ VC v' (prepareTheta L) ∧ v'.v16 = c.v.v16 := by
  obtain ⟨x0, x1, x2, x3, x4, x5, x10, x11, zf, cf, v0, v1, v2, v3, v4, v5, v6, v7, v16, v17, v18, v19, v20, v21, v22, v23, v24, v25, v26, v27, v28, v29, v30, ⟨v31, v31b⟩⟩ := c
  obtain ⟨h19, h20, h21, h22, h23, h24, h25, h26, h27, h28, h29, h30, h31⟩ := hv
  dsimp only at h19 h20 h21 h22 h23 h24 h25 h26 h27 h28 h29 h30 h31
  subst h19 h20 h21 h22 h23 h24 h25 h26 h27 h28 h29 h30 h31
  have e1 : L.ba ^^^ L.ka ^^^ (L.ga ^^^ L.ma ^^^ L.sa) = (prepareTheta L).a := by unfold prepareTheta; ac_rfl
  have e2 : L.be ^^^ L.ke ^^^ L.me ^^^ (L.ge ^^^ L.se) = (prepareTheta L).e := by unfold prepareTheta; ac_rfl
  have e3 : L.gi ^^^ L.ki ^^^ L.si ^^^ (L.bi ^^^ L.mi) = (prepareTheta L).i := by unfold prepareTheta; ac_rfl
  have e4 : L.bo ^^^ L.go ^^^ L.mo ^^^ (L.ko ^^^ L.so) = (prepareTheta L).o := by unfold prepareTheta; ac_rfl
  have e5 : L.gu ^^^ L.mu ^^^ (L.bu ^^^ L.ku) ^^^ L.su = (prepareTheta L).u := by unfold prepareTheta; ac_rfl
  simp only [parOps, ops, Op.exec, pure_bind, VFile.get, VFile.set, Cpu.setV, vmap2_mk, vmap_mk, V128.lane, V128.setLane,
    Bool.false_eq_true, if_true, if_false, e1, e2, e3, e4, e5, sri1]
  refine ⟨_, rfl, ?_, ?_, rfl⟩
  · constructor <;> rfl
  · constructor <;> rfl

theorem d_ops {c : Cpu} {L : Lanes} {C D : Par} (hv : VS c.v L) (hc : VC c.v C) (hD : D = thetaD C) :
    ∃ v', ops rodata dOps c = pure { c with v := v' } ∧ VS v' L ∧ v'.v18 = ⟨D.a, D.u⟩ ∧ v'.v6 = ⟨D.e, D.a⟩ ∧ v'.v2 = ⟨D.i, D.e⟩ ∧
      v'.v0 = ⟨D.o, D.i⟩ ∧ v'.v7 = ⟨D.u, D.o⟩ ∧ v'.v16 = c.v.v16 := by
  obtain ⟨x0, x1, x2, x3, x4, x5, x10, x11, zf, cf, v0, v1, v2, v3, v4, v5, v6, v7, v16, v17, v18, v19, v20, v21, v22, v23, v24, v25, v26, v27, v28, v29, v30, ⟨v31, v31b⟩⟩ := c
  obtain ⟨h19, h20, h21, h22, h23, h24, h25, h26, h27, h28, h29, h30, h31⟩ := hv
  obtain ⟨h0, h1, h2, h3, h4, h5, h6, h7⟩ := hc
  dsimp only at *
  subst h0 h1 h2 h3 h4 h5 h6 h7 hD
  simp only [dOps, ops, Op.exec, pure_bind, VFile.get, VFile.set, Cpu.setV, vmap2_mk, thetaD]
  refine ⟨_, rfl, ?_, rfl, rfl, rfl, rfl, rfl, rfl⟩
  constructor <;> assumption

/-- Theta. -/
def addD (L : Lanes) (D : Par) : Lanes :=
  ⟨L.ba ^^^ D.a, L.be ^^^ D.e, L.bi ^^^ D.i, L.bo ^^^ D.o, L.bu ^^^ D.u, L.ga ^^^ D.a, L.ge ^^^ D.e, L.gi ^^^ D.i, L.go ^^^ D.o, L.gu ^^^ D.u,
    L.ka ^^^ D.a, L.ke ^^^ D.e, L.ki ^^^ D.i, L.ko ^^^ D.o, L.ku ^^^ D.u, L.ma ^^^ D.a, L.me ^^^ D.e, L.mi ^^^ D.i, L.mo ^^^ D.o, L.mu ^^^ D.u,
    L.sa ^^^ D.a, L.se ^^^ D.e, L.si ^^^ D.i, L.so ^^^ D.o, L.su ^^^ D.u⟩

theorem theta_ops {c : Cpu} {L : Lanes} {D : Par} (hv : VS c.v L) (h18 : c.v.v18 = ⟨D.a, D.u⟩) (h6 : c.v.v6 = ⟨D.e, D.a⟩)
    (h2 : c.v.v2 = ⟨D.i, D.e⟩) (h0 : c.v.v0 = ⟨D.o, D.i⟩) (h7 : c.v.v7 = ⟨D.u, D.o⟩) :
    ∃ v', ops rodata thetaOps c = pure { c with v := v' } ∧ VS v' (addD L D) ∧ v'.v16 = c.v.v16 := by
  obtain ⟨x0, x1, x2, x3, x4, x5, x10, x11, zf, cf, v0, v1, v2, v3, v4, v5, v6, v7, v16, v17, v18, v19, v20, v21, v22, v23, v24, v25, v26, v27, v28, v29, v30, ⟨v31, v31b⟩⟩ := c
  obtain ⟨h19, h20, h21, h22, h23, h24, h25, h26, h27, h28, h29, h30, h31⟩ := hv
  dsimp only at *
  subst h19 h20 h21 h22 h23 h24 h25 h26 h27 h28 h29 h30 h31 h18 h6 h2 h0 h7
  simp only [thetaOps, ops, Op.exec, pure_bind, VFile.get, VFile.set, Cpu.setV, vmap2_mk]
  refine ⟨_, rfl, ?_, rfl⟩
  constructor <;> rfl

/-- Rho and pi. -/
def rhoPi (A : Lanes) : Lanes :=
  ⟨A.ba, rol64 A.ge 44, rol64 A.ki 43, rol64 A.mo 21, rol64 A.su 14,
    rol64 A.bo 28, rol64 A.gu 20, rol64 A.ka 3, rol64 A.me 45, rol64 A.si 61,
    rol64 A.be 1, rol64 A.gi 6, rol64 A.ko 25, rol64 A.mu 8, rol64 A.sa 18,
    rol64 A.bu 27, rol64 A.ga 36, rol64 A.ke 10, rol64 A.mi 15, rol64 A.so 56,
    rol64 A.bi 62, rol64 A.go 55, rol64 A.ku 39, rol64 A.ma 41, rol64 A.se 2⟩

theorem rho_ops {c : Cpu} {L : Lanes} (hv : VS c.v L) :
    ∃ v' x10 x11, ops rodata rhoOps c = pure { c with v := v', x10 := x10, x11 := x11 } ∧ VS v' (rhoPi L) ∧ v'.v16 = c.v.v16 := by
  obtain ⟨x0, x1, x2, x3, x4, x5, x10, x11, zf, cf, v0, v1, v2, v3, v4, v5, v6, v7, v16, v17, v18, v19, v20, v21, v22, v23, v24, v25, v26, v27, v28, v29, v30, ⟨v31, v31b⟩⟩ := c
  obtain ⟨h19, h20, h21, h22, h23, h24, h25, h26, h27, h28, h29, h30, h31⟩ := hv
  dsimp only at *
  subst h19 h20 h21 h22 h23 h24 h25 h26 h27 h28 h29 h30 h31
  simp only [rhoOps, ops, Op.exec, pure_bind, VFile.get, VFile.set, Cpu.setV, Cpu.get, Cpu.set, V128.lane, V128.setLane,
    Bool.false_eq_true, if_true, if_false, Asm.Val.isNum, lft_some]
  refine ⟨_, _, _, rfl, ?_, rfl⟩
  constructor <;> simp only [rhoPi, ror_rol (n := 1) (m := 63) _ rfl, ror_rol (n := 3) (m := 61) _ rfl, ror_rol (n := 6) (m := 58) _ rfl,
    ror_rol (n := 10) (m := 54) _ rfl, ror_rol (n := 15) (m := 49) _ rfl, ror_rol (n := 21) (m := 43) _ rfl,
    ror_rol (n := 28) (m := 36) _ rfl, ror_rol (n := 36) (m := 28) _ rfl, ror_rol (n := 45) (m := 19) _ rfl,
    ror_rol (n := 55) (m := 9) _ rfl, ror_rol (n := 2) (m := 62) _ rfl, ror_rol (n := 14) (m := 50) _ rfl,
    ror_rol (n := 27) (m := 37) _ rfl, ror_rol (n := 41) (m := 23) _ rfl, ror_rol (n := 56) (m := 8) _ rfl,
    ror_rol (n := 8) (m := 56) _ rfl, ror_rol (n := 25) (m := 39) _ rfl, ror_rol (n := 43) (m := 21) _ rfl,
    ror_rol (n := 62) (m := 2) _ rfl, ror_rol (n := 18) (m := 46) _ rfl, ror_rol (n := 39) (m := 25) _ rfl,
    ror_rol (n := 61) (m := 3) _ rfl, ror_rol (n := 20) (m := 44) _ rfl, ror_rol (n := 44) (m := 20) _ rfl]

theorem chi_ops {c : Cpu} {B : Lanes} (hv : VS c.v B) :
    ∃ v', ops rodata chiOps c = pure { c with v := v' } ∧ VS v' (chiL B) ∧ v'.v16 = c.v.v16 := by
  obtain ⟨x0, x1, x2, x3, x4, x5, x10, x11, zf, cf, v0, v1, v2, v3, v4, v5, v6, v7, v16, v17, v18, v19, v20, v21, v22, v23, v24, v25, v26, v27, v28, v29, v30, ⟨v31, v31b⟩⟩ := c
  obtain ⟨h19, h20, h21, h22, h23, h24, h25, h26, h27, h28, h29, h30, h31⟩ := hv
  dsimp only at *
  subst h19 h20 h21 h22 h23 h24 h25 h26 h27 h28 h29 h30 h31
  simp only [chiOps, ops, Op.exec, pure_bind, VFile.get, VFile.set, Cpu.setV, vmap2_mk, V128.lane, V128.setLane,
    Bool.false_eq_true, if_true, if_false]
  refine ⟨_, rfl, ?_, rfl⟩
  constructor <;> simp only [chiL, V128.mk.injEq] <;> simp only [BitVec.and_comm, and_self]

theorem iota_ld (i : Fin 24) : Asm.ld8 rodata (.rod (8 * (i.val : Int))) = pure Keccak.roundConstants[i] := by
  fin_cases i <;> rfl

theorem iota_ops {c : Cpu} {L : Lanes} (i : Fin 24) (h : c.x1 = .rod (8 * (i.val : Int))) (hv : VS c.v L) (h16 : c.v.v16.w1 = 0) :
    ∃ v', ops rodata iotaOps c = pure { c with v := v', x1 := .rod (8 * (i.val : Int) + 8) } ∧
      VS v' { L with ba := L.ba ^^^ Keccak.roundConstants[i] } ∧ v'.v16.w1 = 0 := by
  obtain ⟨x0, x1, x2, x3, x4, x5, x10, x11, zf, cf, v0, v1, v2, v3, v4, v5, v6, v7, ⟨v16, v16b⟩, v17, v18, v19, v20, v21, v22, v23, v24, v25, v26, v27, v28, v29, v30, ⟨v31, v31b⟩⟩ := c
  obtain ⟨h19, h20, h21, h22, h23, h24, h25, h26, h27, h28, h29, h30, h31⟩ := hv
  dsimp only at *
  subst h19 h20 h21 h22 h23 h24 h25 h26 h27 h28 h29 h30 h31 h h16
  simp only [iotaOps, ops, Op.exec, Cpu.adr, Cpu.get, Cpu.set, Cpu.bump, Val.off, lft_some, pure_bind, iota_ld, Cpu.setV, VFile.get, VFile.set,
    vmap2_mk, Option.map_some]
  refine ⟨_, rfl, ?_, rfl⟩
  constructor <;> simp

/-- The straight part of the loop. -/
def roundOps : List Op := parOps ++ (dOps ++ (thetaOps ++ (rhoOps ++ (chiOps ++ iotaOps))))

set_option maxRecDepth 4000 in
/-- The code of the loop. -/
theorem loop_code : c_KeccakP1600_Permute_RoundLoop = roundOps.map .op ++
    [.op (.subsW .x2 .x2 1), .bne .KeccakP1600_Permute_RoundLoop, .b .KeccakP1600_Permute_Exit] := rfl

theorem round_ops {c : Cpu} {L : Lanes} (i : Fin 24) (hv : VS c.v L) (h1 : c.x1 = .rod (8 * (i.val : Int))) (h16 : c.v.v16.w1 = 0) :
    ∃ v' x10 x11, ops rodata roundOps c = pure { c with v := v', x10 := x10, x11 := x11, x1 := .rod (8 * (i.val : Int) + 8) } ∧
      VS v' (Keccak.round i L) ∧ v'.v16.w1 = 0 := by
  obtain ⟨v1, e1, a1, a2, a3⟩ := par_ops hv
  obtain ⟨v2, e2, b1, b18, b6, b2, b0, b7, b16⟩ := d_ops (c := { c with v := v1 }) a1 a2 rfl
  generalize hD : thetaD (prepareTheta L) = D at *
  obtain ⟨v3, e3, c1, c2⟩ := theta_ops (c := { c with v := v2 }) b1 b18 b6 b2 b0 b7
  obtain ⟨v4, x10, x11, e4, d1, d2⟩ := rho_ops (c := { c with v := v3 }) c1
  obtain ⟨v5, e5, f1, f2⟩ := chi_ops (c := { c with v := v4, x10 := x10, x11 := x11 }) d1
  obtain ⟨v6, e6, g1, g2⟩ := iota_ops (c := { c with v := v5, x10 := x10, x11 := x11 }) i h1 f1
    (by dsimp only at *; rw [f2, d2, c2, b16, a3, h16])
  refine ⟨v6, x10, x11, ?_, ?_, g2⟩
  · unfold roundOps
    rw [ops_append, e1, pure_bind, ops_append, e2, pure_bind, ops_append, e3, pure_bind, ops_append, e4, pure_bind, ops_append, e5,
      pure_bind, e6]
  · subst hD
    exact g1

end Faest.A64
