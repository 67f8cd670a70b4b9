/-
The rounds of sha3/avx2/KeccakP-1600-times4-SIMD256.c on vectors of four lanes are the rounds on each of the four states.
-/
import Verif.Model.Gen.KeccakAvx2
import Verif.Proofs.Gen.KeccakP

namespace Faest.GenA
open Faest.C Faest.Keccak

/-! ### The rotations -/

/-- A rotation of each of the four words. -/
def vrol (a : V256) (n : Nat) : V256 := ⟨rol64 a.w0 n, rol64 a.w1 n, rol64 a.w2 n, rol64 a.w3 n⟩

theorem or_rol (x : BitVec 64) (n m : Nat) (h : n + m = 64) : x <<< n ||| x >>> m = rol64 x n := by
  unfold rol64
  apply BitVec.eq_of_getLsbD_eq
  intro i hi
  rw [BitVec.getLsbD_or, BitVec.getLsbD_xor, BitVec.getLsbD_shiftLeft, BitVec.getLsbD_ushiftRight, BitVec.getLsbD_ushiftRight,
    show 64 - n = m by omega]
  by_cases h1 : i < n
  · simp [h1]
  · have : x.getLsbD (m + i) = false := BitVec.getLsbD_of_ge _ _ (by omega)
    simp [this]

theorem v_rol (a : V256) (n m : Nat) (h : n + m = 64) :
    _mm256_or_si256 (_mm256_slli_epi64 a n) (_mm256_srli_epi64 a m) = vrol a n := by
  unfold vrol
  rw [← or_rol _ n m h, ← or_rol _ n m h, ← or_rol _ n m h, ← or_rol _ n m h]
  rfl

theorem laneByte_rol (x : BitVec 64) (s j : Nat) (hs : s < 8) (hj : j < 8) :
    laneByte (rol64 x (8 * s)) j = laneByte x ((j + 8 - s) % 8) := by
  rw [← or_rol x (8 * s) (64 - 8 * s) (by omega)]
  apply BitVec.eq_of_getLsbD_eq
  intro i hi
  rw [laneByte_bit, laneByte_bit, BitVec.getLsbD_or, BitVec.getLsbD_shiftLeft, BitVec.getLsbD_ushiftRight]
  by_cases h : s ≤ j
  · have h1 : x.getLsbD (64 - 8 * s + (8 * j + i)) = false := BitVec.getLsbD_of_ge _ _ (by omega)
    have h2 : (j + 8 - s) % 8 = j - s := by omega
    have h3 : ¬ (8 * j + i < 8 * s) := by omega
    have h4 : 8 * j + i < 64 := by omega
    rw [h1, h2, show 8 * j + i - 8 * s = 8 * (j - s) + i by omega]
    simp [h3, h4]
  · have h2 : (j + 8 - s) % 8 = j + 8 - s := by omega
    have h3 : 8 * j + i < 8 * s := by omega
    rw [h2, show 64 - 8 * s + (8 * j + i) = 8 * (j + 8 - s) + i by omega]
    simp [h3]

theorem leWord_rol (x : BitVec 64) (s : Nat) (hs : s < 8) (l : List Byte)
    (h : l = tabP 8 fun j => laneByte x ((j + 8 - s) % 8)) : leWord l = rol64 x (8 * s) := by
  subst h
  refine u64_ext fun j hj => ?_
  rw [laneByte_leWord _ _ hj, laneByte_rol _ _ _ hs hj, List.getD_eq_getElem?_getD, tabP_getElem?, if_pos hj]
  rfl

/-- The table `rho8` as a vector. -/
def r8 : V256 := ⟨0x0605040302010007, 0x0e0d0c0b0a09080f, 0x1615141312111017, 0x1e1d1c1b1a19181f⟩
/-- The table `rho56` as a vector. -/
def r56 : V256 := ⟨0x0007060504030201, 0x080f0e0d0c0b0a09, 0x1017161514131211, 0x181f1e1d1c1b1a19⟩

theorem tget_r8 : tget256 rho8 = pure r8 := rfl
theorem tget_r56 : tget256 rho56 = pure r56 := rfl

/-- Which byte the shuffle takes. -/
def sel (b : V256) (i : Nat) : Option Nat :=
  let c := b.bytes.getD i 0
  if c.getLsbD 7 then none else some (16 * (i / 16) + c.toNat % 16)

theorem shuffle_sel (a b : V256) : _mm256_shuffle_epi8 a b = V256.ofBytes (tabP 32 fun i =>
    match sel b i with
    | none => 0
    | some k => a.bytes.getD k 0) := by
  unfold _mm256_shuffle_epi8
  refine congrArg _ (tabP_congr fun i _ => ?_)
  unfold sel
  dsimp only
  split <;> rfl

theorem sel_r8 : ∀ i, i < 32 → sel r8 i = some (8 * (i / 8) + (i + 7) % 8) := by decide
theorem sel_r56 : ∀ i, i < 32 → sel r56 i = some (8 * (i / 8) + (i + 1) % 8) := by decide

theorem ofBytes_tabP (g : Nat → Byte) : V256.ofBytes (tabP 32 g) =
    ⟨leWord (tabP 8 g), leWord (tabP 8 fun j => g (8 + j)), leWord (tabP 8 fun j => g (16 + j)), leWord (tabP 8 fun j => g (24 + j))⟩ := rfl

theorem bytes_get (a : V256) (j : Nat) (hj : j < 8) :
    a.bytes.getD (8 * 0 + j) 0 = laneByte a.w0 j ∧ a.bytes.getD (8 * 1 + j) 0 = laneByte a.w1 j ∧
    a.bytes.getD (8 * 2 + j) 0 = laneByte a.w2 j ∧ a.bytes.getD (8 * 3 + j) 0 = laneByte a.w3 j := by
  have : j = 0 ∨ j = 1 ∨ j = 2 ∨ j = 3 ∨ j = 4 ∨ j = 5 ∨ j = 6 ∨ j = 7 := by omega
  rcases this with rfl | rfl | rfl | rfl | rfl | rfl | rfl | rfl <;> exact ⟨rfl, rfl, rfl, rfl⟩

theorem shuffle_rol (a b : V256) (s : Nat) (hs : s < 8)
    (h : ∀ i, i < 32 → sel b i = some (8 * (i / 8) + (i % 8 + 8 - s) % 8)) : _mm256_shuffle_epi8 a b = vrol a (8 * s) := by
  have e : tabP 32 (fun i => match sel b i with
      | none => 0
      | some k => a.bytes.getD k 0) = tabP 32 fun i => a.bytes.getD (8 * (i / 8) + (i % 8 + 8 - s) % 8) 0 :=
    tabP_congr fun i hi => by rw [h i hi]
  rw [shuffle_sel, e, ofBytes_tabP]
  unfold vrol
  congr 1
  · refine leWord_rol _ s hs _ (tabP_congr fun j hj => ?_)
    rw [show j / 8 = 0 by omega, show j % 8 = j by omega]
    exact (bytes_get a _ (by omega)).1
  · refine leWord_rol _ s hs _ (tabP_congr fun j hj => ?_)
    rw [show (8 + j) / 8 = 1 by omega, show (8 + j) % 8 = j by omega]
    exact (bytes_get a _ (by omega)).2.1
  · refine leWord_rol _ s hs _ (tabP_congr fun j hj => ?_)
    rw [show (16 + j) / 8 = 2 by omega, show (16 + j) % 8 = j by omega]
    exact (bytes_get a _ (by omega)).2.2.1
  · refine leWord_rol _ s hs _ (tabP_congr fun j hj => ?_)
    rw [show (24 + j) / 8 = 3 by omega, show (24 + j) % 8 = j by omega]
    exact (bytes_get a _ (by omega)).2.2.2

theorem shuffle_r8 (a : V256) : _mm256_shuffle_epi8 a r8 = vrol a 8 :=
  shuffle_rol a r8 1 (by decide) fun i hi => by rw [sel_r8 i hi]; congr 2; omega

theorem shuffle_r56 (a : V256) : _mm256_shuffle_epi8 a r56 = vrol a 56 :=
  shuffle_rol a r56 7 (by decide) fun i hi => by rw [sel_r56 i hi]; congr 2; omega

/-! ### Four states at once -/

/-- The vectors of four states. -/
def zip4 (L : Nat → Lanes) : Lanes4 :=
  let v (f : Lanes → BitVec 64) : V256 := ⟨f (L 0), f (L 1), f (L 2), f (L 3)⟩
  ⟨v (·.ba), v (·.be), v (·.bi), v (·.bo), v (·.bu), v (·.ga), v (·.ge), v (·.gi), v (·.go), v (·.gu),
    v (·.ka), v (·.ke), v (·.ki), v (·.ko), v (·.ku), v (·.ma), v (·.me), v (·.mi), v (·.mo), v (·.mu),
    v (·.sa), v (·.se), v (·.si), v (·.so), v (·.su)⟩

def zipP (P : Nat → Par) : Par4 :=
  let v (f : Par → BitVec 64) : V256 := ⟨f (P 0), f (P 1), f (P 2), f (P 3)⟩
  ⟨v (·.a), v (·.e), v (·.i), v (·.o), v (·.u)⟩

theorem prepareTheta_zip (L : Nat → Lanes) : prepareTheta (zip4 L) = pure (zipP fun k => Keccak.prepareTheta (L k)) := by
  unfold zipP Keccak.prepareTheta
  simp only [BitVec.xor_assoc]
  rfl

theorem constants_eq : KeccakF1600RoundConstants = GenH.KeccakF1600RoundConstants := rfl

theorem round_zip (i : Fin 24) (L : Nat → Lanes) (P : Nat → Par) :
    thetaRhoPiChiIotaPrepareTheta i.val (zip4 L) (zipP P)
      = pure (zip4 fun k => (Keccak.thetaRhoPiChiIotaPrepareTheta i (L k) (P k)).1,
          zipP fun k => (Keccak.thetaRhoPiChiIotaPrepareTheta i (L k) (P k)).2) := by
  unfold thetaRhoPiChiIotaPrepareTheta
  rw [constants_eq, GenH.tget64_rc i.isLt]
  simp only [pure_bind, tget_r8, tget_r56, shuffle_r8, shuffle_r56,
    v_rol _ 1 63 rfl, v_rol _ 2 62 rfl, v_rol _ 3 61 rfl, v_rol _ 6 58 rfl, v_rol _ 10 54 rfl, v_rol _ 14 50 rfl,
    v_rol _ 15 49 rfl, v_rol _ 18 46 rfl, v_rol _ 20 44 rfl, v_rol _ 21 43 rfl, v_rol _ 25 39 rfl, v_rol _ 27 37 rfl,
    v_rol _ 28 36 rfl, v_rol _ 36 28 rfl, v_rol _ 39 25 rfl, v_rol _ 41 23 rfl, v_rol _ 43 21 rfl, v_rol _ 44 20 rfl,
    v_rol _ 45 19 rfl, v_rol _ 55 9 rfl, v_rol _ 61 3 rfl, v_rol _ 62 2 rfl]
  rfl

theorem last_zip (i : Fin 24) (L : Nat → Lanes) (P : Nat → Par) :
    thetaRhoPiChiIota i.val (zip4 L) (zipP P) = pure (zip4 fun k => Keccak.thetaRhoPiChiIota i (L k) (P k)) := by
  unfold thetaRhoPiChiIota
  rw [constants_eq, GenH.tget64_rc i.isLt]
  simp only [pure_bind, tget_r8, tget_r56, shuffle_r8, shuffle_r56,
    v_rol _ 1 63 rfl, v_rol _ 2 62 rfl, v_rol _ 3 61 rfl, v_rol _ 6 58 rfl, v_rol _ 10 54 rfl, v_rol _ 14 50 rfl,
    v_rol _ 15 49 rfl, v_rol _ 18 46 rfl, v_rol _ 20 44 rfl, v_rol _ 21 43 rfl, v_rol _ 25 39 rfl, v_rol _ 27 37 rfl,
    v_rol _ 28 36 rfl, v_rol _ 36 28 rfl, v_rol _ 39 25 rfl, v_rol _ 41 23 rfl, v_rol _ 43 21 rfl, v_rol _ 44 20 rfl,
    v_rol _ 45 19 rfl, v_rol _ 55 9 rfl, v_rol _ 61 3 rfl, v_rol _ 62 2 rfl]
  rfl

section
seal thetaRhoPiChiIotaPrepareTheta Keccak.thetaRhoPiChiIotaPrepareTheta thetaRhoPiChiIota Keccak.thetaRhoPiChiIota

theorem rounds24_zip (L R : Nat → Lanes) (h : ∀ k, R k = Keccak.rounds24 (L k)) : rounds24 (zip4 L) = pure (zip4 R) := by
  unfold rounds24
  unfold Keccak.rounds24 at h
  refine GenH.step_pure (prepareTheta_zip L) ?_
  obtain ⟨P, hP⟩ : ∃ P : Nat → Par, ∀ k, Keccak.prepareTheta (L k) = P k := ⟨_, fun k => rfl⟩
  simp only [hP] at h ⊢
  clear hP
  have hr := round_zip
  refine GenH.step_pure (hr 0 L P) ?_
  obtain ⟨L', P', hX⟩ : ∃ (L' : Nat → Lanes) (P' : Nat → Par), ∀ k, Keccak.thetaRhoPiChiIotaPrepareTheta 0 (L k) (P k) = (L' k, P' k) := ⟨_, _, fun k => rfl⟩
  simp only [hX] at h ⊢
  clear hX L P
  rename' L' => L, P' => P
  refine GenH.step_pure (hr 1 L P) ?_
  obtain ⟨L', P', hX⟩ : ∃ (L' : Nat → Lanes) (P' : Nat → Par), ∀ k, Keccak.thetaRhoPiChiIotaPrepareTheta 1 (L k) (P k) = (L' k, P' k) := ⟨_, _, fun k => rfl⟩
  simp only [hX] at h ⊢
  clear hX L P
  rename' L' => L, P' => P
  refine GenH.step_pure (hr 2 L P) ?_
  obtain ⟨L', P', hX⟩ : ∃ (L' : Nat → Lanes) (P' : Nat → Par), ∀ k, Keccak.thetaRhoPiChiIotaPrepareTheta 2 (L k) (P k) = (L' k, P' k) := ⟨_, _, fun k => rfl⟩
  simp only [hX] at h ⊢
  clear hX L P
  rename' L' => L, P' => P
  refine GenH.step_pure (hr 3 L P) ?_
  obtain ⟨L', P', hX⟩ : ∃ (L' : Nat → Lanes) (P' : Nat → Par), ∀ k, Keccak.thetaRhoPiChiIotaPrepareTheta 3 (L k) (P k) = (L' k, P' k) := ⟨_, _, fun k => rfl⟩
  simp only [hX] at h ⊢
  clear hX L P
  rename' L' => L, P' => P
  refine GenH.step_pure (hr 4 L P) ?_
  obtain ⟨L', P', hX⟩ : ∃ (L' : Nat → Lanes) (P' : Nat → Par), ∀ k, Keccak.thetaRhoPiChiIotaPrepareTheta 4 (L k) (P k) = (L' k, P' k) := ⟨_, _, fun k => rfl⟩
  simp only [hX] at h ⊢
  clear hX L P
  rename' L' => L, P' => P
  refine GenH.step_pure (hr 5 L P) ?_
  obtain ⟨L', P', hX⟩ : ∃ (L' : Nat → Lanes) (P' : Nat → Par), ∀ k, Keccak.thetaRhoPiChiIotaPrepareTheta 5 (L k) (P k) = (L' k, P' k) := ⟨_, _, fun k => rfl⟩
  simp only [hX] at h ⊢
  clear hX L P
  rename' L' => L, P' => P
  refine GenH.step_pure (hr 6 L P) ?_
  obtain ⟨L', P', hX⟩ : ∃ (L' : Nat → Lanes) (P' : Nat → Par), ∀ k, Keccak.thetaRhoPiChiIotaPrepareTheta 6 (L k) (P k) = (L' k, P' k) := ⟨_, _, fun k => rfl⟩
  simp only [hX] at h ⊢
  clear hX L P
  rename' L' => L, P' => P
  refine GenH.step_pure (hr 7 L P) ?_
  obtain ⟨L', P', hX⟩ : ∃ (L' : Nat → Lanes) (P' : Nat → Par), ∀ k, Keccak.thetaRhoPiChiIotaPrepareTheta 7 (L k) (P k) = (L' k, P' k) := ⟨_, _, fun k => rfl⟩
  simp only [hX] at h ⊢
  clear hX L P
  rename' L' => L, P' => P
  refine GenH.step_pure (hr 8 L P) ?_
  obtain ⟨L', P', hX⟩ : ∃ (L' : Nat → Lanes) (P' : Nat → Par), ∀ k, Keccak.thetaRhoPiChiIotaPrepareTheta 8 (L k) (P k) = (L' k, P' k) := ⟨_, _, fun k => rfl⟩
  simp only [hX] at h ⊢
  clear hX L P
  rename' L' => L, P' => P
  refine GenH.step_pure (hr 9 L P) ?_
  obtain ⟨L', P', hX⟩ : ∃ (L' : Nat → Lanes) (P' : Nat → Par), ∀ k, Keccak.thetaRhoPiChiIotaPrepareTheta 9 (L k) (P k) = (L' k, P' k) := ⟨_, _, fun k => rfl⟩
  simp only [hX] at h ⊢
  clear hX L P
  rename' L' => L, P' => P
  refine GenH.step_pure (hr 10 L P) ?_
  obtain ⟨L', P', hX⟩ : ∃ (L' : Nat → Lanes) (P' : Nat → Par), ∀ k, Keccak.thetaRhoPiChiIotaPrepareTheta 10 (L k) (P k) = (L' k, P' k) := ⟨_, _, fun k => rfl⟩
  simp only [hX] at h ⊢
  clear hX L P
  rename' L' => L, P' => P
  refine GenH.step_pure (hr 11 L P) ?_
  obtain ⟨L', P', hX⟩ : ∃ (L' : Nat → Lanes) (P' : Nat → Par), ∀ k, Keccak.thetaRhoPiChiIotaPrepareTheta 11 (L k) (P k) = (L' k, P' k) := ⟨_, _, fun k => rfl⟩
  simp only [hX] at h ⊢
  clear hX L P
  rename' L' => L, P' => P
  refine GenH.step_pure (hr 12 L P) ?_
  obtain ⟨L', P', hX⟩ : ∃ (L' : Nat → Lanes) (P' : Nat → Par), ∀ k, Keccak.thetaRhoPiChiIotaPrepareTheta 12 (L k) (P k) = (L' k, P' k) := ⟨_, _, fun k => rfl⟩
  simp only [hX] at h ⊢
  clear hX L P
  rename' L' => L, P' => P
  refine GenH.step_pure (hr 13 L P) ?_
  obtain ⟨L', P', hX⟩ : ∃ (L' : Nat → Lanes) (P' : Nat → Par), ∀ k, Keccak.thetaRhoPiChiIotaPrepareTheta 13 (L k) (P k) = (L' k, P' k) := ⟨_, _, fun k => rfl⟩
  simp only [hX] at h ⊢
  clear hX L P
  rename' L' => L, P' => P
  refine GenH.step_pure (hr 14 L P) ?_
  obtain ⟨L', P', hX⟩ : ∃ (L' : Nat → Lanes) (P' : Nat → Par), ∀ k, Keccak.thetaRhoPiChiIotaPrepareTheta 14 (L k) (P k) = (L' k, P' k) := ⟨_, _, fun k => rfl⟩
  simp only [hX] at h ⊢
  clear hX L P
  rename' L' => L, P' => P
  refine GenH.step_pure (hr 15 L P) ?_
  obtain ⟨L', P', hX⟩ : ∃ (L' : Nat → Lanes) (P' : Nat → Par), ∀ k, Keccak.thetaRhoPiChiIotaPrepareTheta 15 (L k) (P k) = (L' k, P' k) := ⟨_, _, fun k => rfl⟩
  simp only [hX] at h ⊢
  clear hX L P
  rename' L' => L, P' => P
  refine GenH.step_pure (hr 16 L P) ?_
  obtain ⟨L', P', hX⟩ : ∃ (L' : Nat → Lanes) (P' : Nat → Par), ∀ k, Keccak.thetaRhoPiChiIotaPrepareTheta 16 (L k) (P k) = (L' k, P' k) := ⟨_, _, fun k => rfl⟩
  simp only [hX] at h ⊢
  clear hX L P
  rename' L' => L, P' => P
  refine GenH.step_pure (hr 17 L P) ?_
  obtain ⟨L', P', hX⟩ : ∃ (L' : Nat → Lanes) (P' : Nat → Par), ∀ k, Keccak.thetaRhoPiChiIotaPrepareTheta 17 (L k) (P k) = (L' k, P' k) := ⟨_, _, fun k => rfl⟩
  simp only [hX] at h ⊢
  clear hX L P
  rename' L' => L, P' => P
  refine GenH.step_pure (hr 18 L P) ?_
  obtain ⟨L', P', hX⟩ : ∃ (L' : Nat → Lanes) (P' : Nat → Par), ∀ k, Keccak.thetaRhoPiChiIotaPrepareTheta 18 (L k) (P k) = (L' k, P' k) := ⟨_, _, fun k => rfl⟩
  simp only [hX] at h ⊢
  clear hX L P
  rename' L' => L, P' => P
  refine GenH.step_pure (hr 19 L P) ?_
  obtain ⟨L', P', hX⟩ : ∃ (L' : Nat → Lanes) (P' : Nat → Par), ∀ k, Keccak.thetaRhoPiChiIotaPrepareTheta 19 (L k) (P k) = (L' k, P' k) := ⟨_, _, fun k => rfl⟩
  simp only [hX] at h ⊢
  clear hX L P
  rename' L' => L, P' => P
  refine GenH.step_pure (hr 20 L P) ?_
  obtain ⟨L', P', hX⟩ : ∃ (L' : Nat → Lanes) (P' : Nat → Par), ∀ k, Keccak.thetaRhoPiChiIotaPrepareTheta 20 (L k) (P k) = (L' k, P' k) := ⟨_, _, fun k => rfl⟩
  simp only [hX] at h ⊢
  clear hX L P
  rename' L' => L, P' => P
  refine GenH.step_pure (hr 21 L P) ?_
  obtain ⟨L', P', hX⟩ : ∃ (L' : Nat → Lanes) (P' : Nat → Par), ∀ k, Keccak.thetaRhoPiChiIotaPrepareTheta 21 (L k) (P k) = (L' k, P' k) := ⟨_, _, fun k => rfl⟩
  simp only [hX] at h ⊢
  clear hX L P
  rename' L' => L, P' => P
  refine GenH.step_pure (hr 22 L P) ?_
  obtain ⟨L', P', hX⟩ : ∃ (L' : Nat → Lanes) (P' : Nat → Par), ∀ k, Keccak.thetaRhoPiChiIotaPrepareTheta 22 (L k) (P k) = (L' k, P' k) := ⟨_, _, fun k => rfl⟩
  simp only [hX] at h ⊢
  clear hX L P
  rename' L' => L, P' => P
  refine GenH.step_pure (last_zip 23 L P) ?_
  rw [show R = _ from funext h]

end

end Faest.GenA
