/-
One round of sha3/avx2/KeccakP-1600-AVX2.s on the vector registers.
-/
import Verif.Model.Gen.KeccakAsm
import Verif.Proofs.Gen.State32
import Verif.Proofs.Gen.SimdRounds
namespace Faest.Asm
open Faest.C Faest.GenX Faest.Keccak

/-- Straight code. -/
def ops (T : List (BitVec 64)) : List Op → Cpu → CM Cpu
  | [], c => pure c
  | o :: l, c => o.exec T c >>= ops T l

theorem mkq_dw (x : BitVec 64) : mkq (dw x false) (dw x true) = x := by
  unfold mkq dw
  simp only [if_true, Bool.false_eq_true, if_false]
  apply BitVec.eq_of_getLsbD_eq
  intro i hi
  rw [BitVec.getLsbD_append]
  by_cases h : i < 32
  · simp [h]
  · simp only [h, decide_false, if_false, BitVec.getLsbD_setWidth, BitVec.getLsbD_ushiftRight]
    rw [show 32 + (i - 32) = i by omega]
    simp; omega

theorem shufd_swap (a : V256) : vshufd 78 a = ⟨a.w1, a.w0, a.w3, a.w2⟩ := by
  have h : ∀ x y, shufdH 78 x y = (y, x) := fun x y => by
    show (mkq (dw y false) (dw y true), mkq (dw x false) (dw x true)) = _
    rw [mkq_dw, mkq_dw]
  unfold vshufd
  rw [h, h]

theorem rol1 (x : BitVec 64) : x >>> 63 ||| (x + x) = rol64 x 1 := by
  unfold rol64
  have : x + x = x <<< 1 := by
    apply BitVec.eq_of_toNat_eq
    simp [Nat.shiftLeft_eq]; omega
  rw [this]
  apply BitVec.eq_of_getLsbD_eq
  intro i hi
  simp only [BitVec.getLsbD_or, BitVec.getLsbD_xor, BitVec.getLsbD_shiftLeft, BitVec.getLsbD_ushiftRight]
  by_cases h : i < 1
  · simp [h]
  · rw [BitVec.getLsbD_of_ge x (63 + i) (by omega)]
    simp

theorem rol1' (x : BitVec 64) : (x + x) ||| x >>> 63 = rol64 x 1 := by rw [← rol1, BitVec.or_comm]

theorem or_rol (x : BitVec 64) (n m : Nat) (h : n + m = 64) : x >>> m ||| x <<< n = rol64 x n := by
  rw [BitVec.or_comm]
  exact GenA.or_rol x n m h

theorem vmap2_mk (f : BitVec 64 → BitVec 64 → BitVec 64) (a b c d a' b' c' d' : BitVec 64) :
    (V256.mk a b c d).map2 f ⟨a', b', c', d'⟩ = ⟨f a a', f b b', f c c', f d d'⟩ := rfl

theorem vmap_mk (f : BitVec 64 → BitVec 64) (a b c d : BitVec 64) :
    (V256.mk a b c d).map f = ⟨f a, f b, f c, f d⟩ := rfl

def thetaOps : List Op := [
  .vpshufd 78 .y2 .y13,
  .vpxor (.reg .y3) .y5 .y12,
  .vpxor (.reg .y6) .y4 .y9,
  .vpxor (.reg .y1) .y12 .y12,
  .vpxor (.reg .y9) .y12 .y12,
  .vpermq 147 .y12 .y11,
  .vpxor (.reg .y2) .y13 .y13,
  .vpermq 78 .y13 .y7,
  .vpsrlq 63 .y12 .y8,
  .vpaddq .y12 .y12 .y9,
  .vpor .y9 .y8 .y8,
  .vpermq 57 .y8 .y15,
  .vpxor (.reg .y11) .y8 .y14,
  .vpermq 0 .y14 .y14,
  .vpxor (.reg .y0) .y13 .y13,
  .vpxor (.reg .y7) .y13 .y13,
  .vpsrlq 63 .y13 .y7,
  .vpaddq .y13 .y13 .y8,
  .vpor .y7 .y8 .y8,
  .vpxor (.reg .y14) .y2 .y2,
  .vpxor (.reg .y14) .y0 .y0,
  .vpblendd 192 .y8 .y15 .y15,
  .vpblendd 3 .y13 .y11 .y11,
  .vpxor (.reg .y11) .y15 .y15]

def rhoOps : List Op := [
  .vpsllvq (.base (-96) .r8) .y2 .y10,
  .vpsrlvq (.base (-96) .r9) .y2 .y2,
  .vpor .y10 .y2 .y2,
  .vpxor (.reg .y15) .y3 .y3,
  .vpsllvq (.base (-32) .r8) .y3 .y11,
  .vpsrlvq (.base (-32) .r9) .y3 .y3,
  .vpor .y11 .y3 .y3,
  .vpxor (.reg .y15) .y4 .y4,
  .vpsllvq (.base 0 .r8) .y4 .y12,
  .vpsrlvq (.base 0 .r9) .y4 .y4,
  .vpor .y12 .y4 .y4,
  .vpxor (.reg .y15) .y5 .y5,
  .vpsllvq (.base 32 .r8) .y5 .y13,
  .vpsrlvq (.base 32 .r9) .y5 .y5,
  .vpor .y13 .y5 .y5,
  .vpxor (.reg .y15) .y6 .y6,
  .vpermq 141 .y2 .y10,
  .vpermq 141 .y3 .y11,
  .vpsllvq (.base 64 .r8) .y6 .y14,
  .vpsrlvq (.base 64 .r9) .y6 .y8,
  .vpor .y14 .y8 .y8,
  .vpxor (.reg .y15) .y1 .y1,
  .vpermq 27 .y4 .y12,
  .vpermq 114 .y5 .y13,
  .vpsllvq (.base (-64) .r8) .y1 .y15,
  .vpsrlvq (.base (-64) .r9) .y1 .y9,
  .vpor .y15 .y9 .y9]

def chiOps : List Op := [
  .vpsrldq8 .y8 .y14,
  .vpandn .y14 .y8 .y7,
  .vpblendd 12 .y13 .y9 .y3,
  .vpblendd 12 .y9 .y11 .y15,
  .vpblendd 12 .y11 .y10 .y5,
  .vpblendd 12 .y10 .y9 .y14,
  .vpblendd 48 .y11 .y3 .y3,
  .vpblendd 48 .y12 .y15 .y15,
  .vpblendd 48 .y9 .y5 .y5,
  .vpblendd 48 .y13 .y14 .y14,
  .vpblendd 192 .y12 .y3 .y3,
  .vpblendd 192 .y13 .y15 .y15,
  .vpblendd 192 .y13 .y5 .y5,
  .vpblendd 192 .y11 .y14 .y14,
  .vpandn .y15 .y3 .y3,
  .vpandn .y14 .y5 .y5,
  .vpblendd 12 .y9 .y12 .y6,
  .vpblendd 12 .y12 .y10 .y15,
  .vpxor (.reg .y10) .y3 .y3,
  .vpblendd 48 .y10 .y6 .y6,
  .vpblendd 48 .y11 .y15 .y15,
  .vpxor (.reg .y12) .y5 .y5,
  .vpblendd 192 .y11 .y6 .y6,
  .vpblendd 192 .y9 .y15 .y15,
  .vpandn .y15 .y6 .y6,
  .vpxor (.reg .y13) .y6 .y6,
  .vpermq 30 .y8 .y4,
  .vpblendd 48 .y0 .y4 .y15,
  .vpermq 57 .y8 .y1,
  .vpblendd 192 .y0 .y1 .y1,
  .vpandn .y15 .y1 .y1,
  .vpblendd 12 .y12 .y11 .y2,
  .vpblendd 12 .y11 .y13 .y14,
  .vpblendd 48 .y13 .y2 .y2,
  .vpblendd 48 .y10 .y14 .y14,
  .vpblendd 192 .y10 .y2 .y2,
  .vpblendd 192 .y12 .y14 .y14,
  .vpandn .y14 .y2 .y2,
  .vpxor (.reg .y9) .y2 .y2,
  .vpermq 0 .y7 .y7,
  .vpermq 27 .y3 .y3,
  .vpermq 141 .y5 .y5,
  .vpermq 114 .y6 .y6,
  .vpblendd 12 .y10 .y13 .y4,
  .vpblendd 12 .y13 .y12 .y14,
  .vpblendd 48 .y12 .y4 .y4,
  .vpblendd 48 .y9 .y14 .y14,
  .vpblendd 192 .y9 .y4 .y4,
  .vpblendd 192 .y10 .y14 .y14,
  .vpandn .y14 .y4 .y4,
  .vpxor (.reg .y7) .y0 .y0,
  .vpxor (.reg .y8) .y1 .y1,
  .vpxor (.reg .y11) .y4 .y4]

/-- The state in the vector registers. -/
structure VS (v : VFile) (L : Lanes) : Prop where
  y0 : v.y0 = ⟨L.ba, L.ba, L.ba, L.ba⟩
  y1 : v.y1 = ⟨L.be, L.bi, L.bo, L.bu⟩
  y2 : v.y2 = ⟨L.ka, L.sa, L.ga, L.ma⟩
  y3 : v.y3 = ⟨L.me, L.gi, L.so, L.ku⟩
  y4 : v.y4 = ⟨L.ke, L.si, L.go, L.mu⟩
  y5 : v.y5 = ⟨L.se, L.mi, L.ko, L.gu⟩
  y6 : v.y6 = ⟨L.ge, L.ki, L.mo, L.su⟩

/-- The five words which theta adds to the columns. -/
def thetaD (C : Par) : Par := ⟨C.u ^^^ rol64 C.e 1, C.a ^^^ rol64 C.i 1, C.e ^^^ rol64 C.o 1, C.i ^^^ rol64 C.u 1, C.o ^^^ rol64 C.a 1⟩

theorem theta_ops {c : Cpu} {L : Lanes} {D : Par} (hv : VS c.v L) (hD : D = thetaD (prepareTheta L)) :
    ∃ v', ops rodata thetaOps c = pure { c with v := v' } ∧ v'.y0 = ⟨L.ba ^^^ D.a, L.ba ^^^ D.a, L.ba ^^^ D.a, L.ba ^^^ D.a⟩ ∧
      v'.y1 = ⟨L.be, L.bi, L.bo, L.bu⟩ ∧ v'.y2 = ⟨L.ka ^^^ D.a, L.sa ^^^ D.a, L.ga ^^^ D.a, L.ma ^^^ D.a⟩ ∧
      v'.y3 = ⟨L.me, L.gi, L.so, L.ku⟩ ∧ v'.y4 = ⟨L.ke, L.si, L.go, L.mu⟩ ∧ v'.y5 = ⟨L.se, L.mi, L.ko, L.gu⟩ ∧
      v'.y6 = ⟨L.ge, L.ki, L.mo, L.su⟩ ∧ v'.y15 = ⟨D.e, D.i, D.o, D.u⟩ := by
  obtain ⟨rax, rbx, rcx, rdx, rsi, rdi, r8, r9, r10, zf, cf, y0, y1, y2, y3, y4, y5, y6, y7, y8, y9, y10, y11, y12, y13, y14, y15⟩ := c
  obtain ⟨h0, h1, h2, h3, h4, h5, h6⟩ := hv
  dsimp only at h0 h1 h2 h3 h4 h5 h6
  subst h0 h1 h2 h3 h4 h5 h6 hD
  have e1 : L.se ^^^ L.me ^^^ L.be ^^^ (L.ke ^^^ L.ge) = (prepareTheta L).e := by unfold prepareTheta; ac_rfl
  have e2 : L.mi ^^^ L.gi ^^^ L.bi ^^^ (L.si ^^^ L.ki) = (prepareTheta L).i := by unfold prepareTheta; ac_rfl
  have e3 : L.ko ^^^ L.so ^^^ L.bo ^^^ (L.go ^^^ L.mo) = (prepareTheta L).o := by unfold prepareTheta; ac_rfl
  have e4 : L.gu ^^^ L.ku ^^^ L.bu ^^^ (L.mu ^^^ L.su) = (prepareTheta L).u := by unfold prepareTheta; ac_rfl
  have e5 : L.sa ^^^ L.ka ^^^ L.ba ^^^ (L.ma ^^^ L.ga) = (prepareTheta L).a := by unfold prepareTheta; ac_rfl
  have e6 : L.ga ^^^ L.ma ^^^ L.ba ^^^ (L.ka ^^^ L.sa) = (prepareTheta L).a := by unfold prepareTheta; ac_rfl
  simp only [thetaOps, ops, Op.exec, pure_bind, VSrc.val, VFile.get, VFile.set, Cpu.setV, shufd_swap, vmap2_mk, vmap_mk,
    Asm.vpermq, V256.nth, vblendd, blendW, rol1, rol1', Nat.reduceMod, Nat.reduceDiv, Nat.zero_div, Nat.zero_mod,
    e1, e2, e3, e4, e5, e6]
  generalize prepareTheta L = C
  refine ⟨_, rfl, ?_, rfl, ?_, rfl, rfl, rfl, rfl, ?_⟩ <;> simp only [thetaD, BitVec.xor_comm]

theorem rl0 : ld32 rodata (.rod (96 + -96)) = pure ⟨3, 18, 36, 41⟩ := rfl
theorem rl1 : ld32 rodata (.rod (96 + -64)) = pure ⟨1, 62, 28, 27⟩ := rfl
theorem rl2 : ld32 rodata (.rod (96 + -32)) = pure ⟨45, 6, 56, 39⟩ := rfl
theorem rl3 : ld32 rodata (.rod (96 + 0)) = pure ⟨10, 61, 55, 8⟩ := rfl
theorem rl4 : ld32 rodata (.rod (96 + 32)) = pure ⟨2, 15, 25, 20⟩ := rfl
theorem rl5 : ld32 rodata (.rod (96 + 64)) = pure ⟨44, 43, 21, 14⟩ := rfl
theorem rr0 : ld32 rodata (.rod (288 + -96)) = pure ⟨61, 46, 28, 23⟩ := rfl
theorem rr1 : ld32 rodata (.rod (288 + -64)) = pure ⟨63, 2, 36, 37⟩ := rfl
theorem rr2 : ld32 rodata (.rod (288 + -32)) = pure ⟨19, 58, 8, 25⟩ := rfl
theorem rr3 : ld32 rodata (.rod (288 + 0)) = pure ⟨54, 3, 9, 56⟩ := rfl
theorem rr4 : ld32 rodata (.rod (288 + 32)) = pure ⟨62, 49, 39, 44⟩ := rfl
theorem rr5 : ld32 rodata (.rod (288 + 64)) = pure ⟨20, 21, 43, 50⟩ := rfl

theorem lft_some {α : Type} (x : α) : (lft (some x) : CM α) = pure x := rfl

theorem rho_ops {c : Cpu} {L : Lanes} {D : Par} (h8 : c.r8 = .rod 96) (h9 : c.r9 = .rod 288)
    (h0 : c.v.y0 = ⟨L.ba ^^^ D.a, L.ba ^^^ D.a, L.ba ^^^ D.a, L.ba ^^^ D.a⟩)
    (h1 : c.v.y1 = ⟨L.be, L.bi, L.bo, L.bu⟩) (h2 : c.v.y2 = ⟨L.ka ^^^ D.a, L.sa ^^^ D.a, L.ga ^^^ D.a, L.ma ^^^ D.a⟩)
    (h3 : c.v.y3 = ⟨L.me, L.gi, L.so, L.ku⟩) (h4 : c.v.y4 = ⟨L.ke, L.si, L.go, L.mu⟩) (h5 : c.v.y5 = ⟨L.se, L.mi, L.ko, L.gu⟩)
    (h6 : c.v.y6 = ⟨L.ge, L.ki, L.mo, L.su⟩) (h15 : c.v.y15 = ⟨D.e, D.i, D.o, D.u⟩) :
    ∃ v', ops rodata rhoOps c = pure { c with v := v' } ∧ v'.y0 = ⟨L.ba ^^^ D.a, L.ba ^^^ D.a, L.ba ^^^ D.a, L.ba ^^^ D.a⟩ ∧
      v'.y8 = ⟨rol64 (L.ge ^^^ D.e) 44, rol64 (L.ki ^^^ D.i) 43, rol64 (L.mo ^^^ D.o) 21, rol64 (L.su ^^^ D.u) 14⟩ ∧
      v'.y9 = ⟨rol64 (L.be ^^^ D.e) 1, rol64 (L.bi ^^^ D.i) 62, rol64 (L.bo ^^^ D.o) 28, rol64 (L.bu ^^^ D.u) 27⟩ ∧
      v'.y10 = ⟨rol64 (L.sa ^^^ D.a) 18, rol64 (L.ma ^^^ D.a) 41, rol64 (L.ka ^^^ D.a) 3, rol64 (L.ga ^^^ D.a) 36⟩ ∧
      v'.y11 = ⟨rol64 (L.gi ^^^ D.i) 6, rol64 (L.ku ^^^ D.u) 39, rol64 (L.me ^^^ D.e) 45, rol64 (L.so ^^^ D.o) 56⟩ ∧
      v'.y12 = ⟨rol64 (L.mu ^^^ D.u) 8, rol64 (L.go ^^^ D.o) 55, rol64 (L.si ^^^ D.i) 61, rol64 (L.ke ^^^ D.e) 10⟩ ∧
      v'.y13 = ⟨rol64 (L.ko ^^^ D.o) 25, rol64 (L.se ^^^ D.e) 2, rol64 (L.gu ^^^ D.u) 20, rol64 (L.mi ^^^ D.i) 15⟩ := by
  obtain ⟨rax, rbx, rcx, rdx, rsi, rdi, r8, r9, r10, zf, cf, y0, y1, y2, y3, y4, y5, y6, y7, y8, y9, y10, y11, y12, y13, y14, y15⟩ := c
  dsimp only at h0 h1 h2 h3 h4 h5 h6 h8 h9 h15
  subst h0 h1 h2 h3 h4 h5 h6 h8 h9 h15
  simp only [rhoOps, ops, Op.exec, pure_bind, VSrc.val, VFile.get, VFile.set, Cpu.setV, vmap2_mk, lft_some,
    Asm.vpermq, V256.nth, Nat.reduceMod, Nat.reduceDiv, Nat.zero_mod, Cpu.adr, Cpu.get, Val.off, vsllv, vsrlv,
    rl0, rl1, rl2, rl3, rl4, rl5, rr0, rr1, rr2, rr3, rr4, rr5, BitVec.reduceToNat, or_rol, Nat.reduceAdd]
  exact ⟨_, rfl, rfl, rfl, rfl, rfl, rfl, rfl, rfl⟩

/-- Chi. -/
def chiL (B : Lanes) : Lanes where
  ba := B.ba ^^^ (~~~B.be &&& B.bi)
  be := B.be ^^^ (~~~B.bi &&& B.bo)
  bi := B.bi ^^^ (~~~B.bo &&& B.bu)
  bo := B.bo ^^^ (~~~B.bu &&& B.ba)
  bu := B.bu ^^^ (~~~B.ba &&& B.be)
  ga := B.ga ^^^ (~~~B.ge &&& B.gi)
  ge := B.ge ^^^ (~~~B.gi &&& B.go)
  gi := B.gi ^^^ (~~~B.go &&& B.gu)
  go := B.go ^^^ (~~~B.gu &&& B.ga)
  gu := B.gu ^^^ (~~~B.ga &&& B.ge)
  ka := B.ka ^^^ (~~~B.ke &&& B.ki)
  ke := B.ke ^^^ (~~~B.ki &&& B.ko)
  ki := B.ki ^^^ (~~~B.ko &&& B.ku)
  ko := B.ko ^^^ (~~~B.ku &&& B.ka)
  ku := B.ku ^^^ (~~~B.ka &&& B.ke)
  ma := B.ma ^^^ (~~~B.me &&& B.mi)
  me := B.me ^^^ (~~~B.mi &&& B.mo)
  mi := B.mi ^^^ (~~~B.mo &&& B.mu)
  mo := B.mo ^^^ (~~~B.mu &&& B.ma)
  mu := B.mu ^^^ (~~~B.ma &&& B.me)
  sa := B.sa ^^^ (~~~B.se &&& B.si)
  se := B.se ^^^ (~~~B.si &&& B.so)
  si := B.si ^^^ (~~~B.so &&& B.su)
  so := B.so ^^^ (~~~B.su &&& B.sa)
  su := B.su ^^^ (~~~B.sa &&& B.se)

theorem chi_ops {c : Cpu} {B : Lanes} (h0 : c.v.y0 = ⟨B.ba, B.ba, B.ba, B.ba⟩) (h8 : c.v.y8 = ⟨B.be, B.bi, B.bo, B.bu⟩)
    (h9 : c.v.y9 = ⟨B.ka, B.sa, B.ga, B.ma⟩) (h10 : c.v.y10 = ⟨B.ku, B.so, B.gi, B.me⟩)
    (h11 : c.v.y11 = ⟨B.ke, B.si, B.go, B.mu⟩) (h12 : c.v.y12 = ⟨B.ko, B.se, B.gu, B.mi⟩)
    (h13 : c.v.y13 = ⟨B.ki, B.su, B.ge, B.mo⟩) :
    ∃ v', ops rodata chiOps c = pure { c with v := v' } ∧ VS v' (chiL B) := by
  obtain ⟨rax, rbx, rcx, rdx, rsi, rdi, r8, r9, r10, zf, cf, y0, y1, y2, y3, y4, y5, y6, y7, y8, y9, y10, y11, y12, y13, y14, y15⟩ := c
  dsimp only at h0 h8 h9 h10 h11 h12 h13
  subst h0 h8 h9 h10 h11 h12 h13
  simp only [chiOps, ops, Op.exec, pure_bind, VSrc.val, VFile.get, VFile.set, Cpu.setV, vmap2_mk,
    Asm.vpermq, V256.nth, vblendd, blendW, Nat.reduceMod, Nat.reduceDiv, Nat.zero_div, Nat.zero_mod]
  refine ⟨_, rfl, ?_, ?_, ?_, ?_, ?_, ?_, ?_⟩ <;> simp only [chiL, V256.mk.injEq] <;> simp only [BitVec.xor_comm, and_self]

/-! ### A round -/

theorem ops_append (T : List (BitVec 64)) (l l' : List Op) (c : Cpu) : ops T (l ++ l') c = ops T l c >>= ops T l' := by
  induction l generalizing c with
  | nil => simp [ops]
  | cons o l ih =>
    simp only [List.cons_append, ops, bind_assoc]
    exact congrArg _ (funext ih)

theorem iota_ld (i : Fin 24) : ld32 rodata (.rod (384 + 32 * (i.val : Int) + 0)) =
    pure ⟨Keccak.roundConstants[i], Keccak.roundConstants[i], Keccak.roundConstants[i], Keccak.roundConstants[i]⟩ := by
  fin_cases i <;> rfl

theorem iota_ops {c : Cpu} {L : Lanes} (i : Fin 24) (h : c.r10 = .rod (384 + 32 * (i.val : Int))) (hv : VS c.v L) :
    ∃ v', ops rodata [.vpxor (.mem (.base 0 .r10)) .y0 .y0] c = pure { c with v := v' } ∧
      VS v' { L with ba := L.ba ^^^ Keccak.roundConstants[i] } := by
  obtain ⟨h0, h1, h2, h3, h4, h5, h6⟩ := hv
  refine ⟨c.v.set ((c.v.get .y0).map2 (· ^^^ ·) ⟨Keccak.roundConstants[i], Keccak.roundConstants[i], Keccak.roundConstants[i], Keccak.roundConstants[i]⟩) .y0, ?_, ?_⟩
  · simp only [ops, Op.exec, VSrc.val, Cpu.adr, Cpu.get, h, Val.off, lft_some, pure_bind, iota_ld, Cpu.setV]
  · exact ⟨by simp only [VFile.set, VFile.get, h0, vmap2_mk], h1, h2, h3, h4, h5, h6⟩

/-- The straight part of the loop. -/
def roundOps : List Op := thetaOps ++ (rhoOps ++ (chiOps ++ [.vpxor (.mem (.base 0 .r10)) .y0 .y0]))

theorem round_ops {c : Cpu} {L : Lanes} (i : Fin 24) (hv : VS c.v L) (h8 : c.r8 = .rod 96) (h9 : c.r9 = .rod 288)
    (h10 : c.r10 = .rod (384 + 32 * (i.val : Int))) :
    ∃ v', ops rodata roundOps c = pure { c with v := v' } ∧ VS v' (Keccak.round i L) := by
  obtain ⟨v1, e1, a0, a1, a2, a3, a4, a5, a6, a15⟩ := theta_ops (D := thetaD (prepareTheta L)) hv rfl
  generalize hD : thetaD (prepareTheta L) = D at *
  obtain ⟨v2, e2, b0, b8, b9, b10, b11, b12, b13⟩ := rho_ops (c := { c with v := v1 }) h8 h9 a0 a1 a2 a3 a4 a5 a6 a15
  obtain ⟨v3, e3, hv3⟩ := chi_ops (c := { c with v := v2 })
    (B := ⟨L.ba ^^^ D.a, rol64 (L.ge ^^^ D.e) 44, rol64 (L.ki ^^^ D.i) 43, rol64 (L.mo ^^^ D.o) 21, rol64 (L.su ^^^ D.u) 14,
      rol64 (L.bo ^^^ D.o) 28, rol64 (L.gu ^^^ D.u) 20, rol64 (L.ka ^^^ D.a) 3, rol64 (L.me ^^^ D.e) 45, rol64 (L.si ^^^ D.i) 61,
      rol64 (L.be ^^^ D.e) 1, rol64 (L.gi ^^^ D.i) 6, rol64 (L.ko ^^^ D.o) 25, rol64 (L.mu ^^^ D.u) 8, rol64 (L.sa ^^^ D.a) 18,
      rol64 (L.bu ^^^ D.u) 27, rol64 (L.ga ^^^ D.a) 36, rol64 (L.ke ^^^ D.e) 10, rol64 (L.mi ^^^ D.i) 15, rol64 (L.so ^^^ D.o) 56,
      rol64 (L.bi ^^^ D.i) 62, rol64 (L.go ^^^ D.o) 55, rol64 (L.ku ^^^ D.u) 39, rol64 (L.ma ^^^ D.a) 41, rol64 (L.se ^^^ D.e) 2⟩)
    b0 b8 b9 b10 b11 b12 b13
  obtain ⟨v4, e4, hv4⟩ := iota_ops (c := { c with v := v3 }) i h10 hv3
  refine ⟨v4, ?_, ?_⟩
  · unfold roundOps
    rw [ops_append, e1, pure_bind, ops_append, e2, pure_bind, ops_append, e3, pure_bind, e4]
  · subst hD
    exact hv4

end Faest.Asm
