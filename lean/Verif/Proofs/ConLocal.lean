/-
The constraint values depend only on the witness bits.
-/
import Verif.Proofs.KsRefine
import Verif.Proofs.ConLinear
import Verif.Proofs.ParamsWF

namespace Faest.Local
open Spec

/-- Sizes of the constraint system (instances.c and faest_aes.c). -/
structure ConSz (P : Params) : Prop where
  em : P.Lke = 0 → conCount P = 4 * P.Nwd * P.R ∧ 32 * P.Nwd * P.R = P.l
  nwd : P.Nwd ≠ 0
  R : 1 ≤ P.R
  words : P.Lke ≠ 0 → 32 * (P.Nwd + (4 * P.R + 3 - P.Nwd) / ksStep P.Nwd + 1) ≤ P.l ∧ 32 * P.Nwd + 8 * P.Ske ≤ P.l
  sel : P.Lke ≠ 0 → ∀ p, p < P.Ske → ksSel P.Nwd p / 4 ≤ 4 * P.R + 3 ∧ ksStep P.Nwd * (p / 4) ≤ 4 * P.R + 3
  enc : P.Lke ≠ 0 → P.Lke + P.beta * P.Lenc = P.l ∧ P.Lenc = 128 * (P.R - 1) ∧ P.Senc = 16 * P.R

theorem params_conSz (i : ParamId) : ConSz (params i) := by
  cases i <;> constructor <;> decide

variable {n : Nat}

theorem liftKey_congr {W Nwd N m : Nat} {x y : Nat → BF n} (hN : Nwd ≠ 0) (h : ∀ j, j < N → x j = y j)
    (hm : W * (Nwd + (m - Nwd) / ksStep Nwd + 1) ≤ N) :
    ∀ k, k ≤ m → ∀ i, i < W → liftKey (· + ·) W Nwd x k i = liftKey (· + ·) W Nwd y k i := by
  intro k
  induction k using Nat.strong_induction_on with
  | _ k ih =>
    intro hk i hi
    have hle : ∀ q, q ≤ Nwd + (m - Nwd) / ksStep Nwd → W * q + i < N := by
      intro q hq
      have : W * (q + 1) ≤ W * (Nwd + (m - Nwd) / ksStep Nwd + 1) := Nat.mul_le_mul_left _ (by omega)
      rw [Nat.mul_succ] at this
      omega
    by_cases h0 : k < Nwd
    · rw [liftKey_lt h0, liftKey_lt h0]
      exact h _ (hle k ((Nat.le_of_lt h0).trans (Nat.le_add_right ..)))
    · by_cases hs : (k - Nwd) % ksStep Nwd = 0
      · rw [liftKey_sword hN (by omega) hs, liftKey_sword hN (by omega) hs]
        refine h _ (hle _ ?_)
        have := Nat.div_le_div_right (c := ksStep Nwd) (show k - Nwd ≤ m - Nwd by omega)
        omega
      · rw [liftKey_sum hN (by omega) hs, liftKey_sum hN (by omega) hs,
          ih (k - Nwd) (by omega) (by omega) i hi, ih (k - 1) (by omega) (by omega) i hi]

theorem invAffL_congr {one : BF n} {x y : Nat → BF n} (h : ∀ i, i < 8 → x i = y i) (i : Nat) :
    invAffL one x i = invAffL one y i := by
  unfold invAffL
  rw [h _ (Nat.mod_lt _ (by decide)), h _ (Nat.mod_lt _ (by decide)), h _ (Nat.mod_lt _ (by decide))]

theorem encS_congr {Nb N : Nat} {a b : BF n} {I I' K K' X X' : Nat → BF n} {p : Nat} (hp : p < 4 * Nb * N)
    (hI : p < 4 * Nb → I p = I' p) (hK : K p = K' p) (hX : ∀ q, q < 4 * Nb * (N - 1) → X q = X' q) :
    encS Nb a b I K X p = encS Nb a b I' K' X' p := by
  unfold encS
  split
  · rw [hI ‹_›, hK]
  · rw [hK]
    unfold mixL
    have hN : 4 * Nb * N = 4 * Nb * (N - 1) + 4 * Nb := by
      cases N with
      | zero => omega
      | succ N => rw [Nat.add_sub_cancel, Nat.mul_succ]
    have hd : (4 * Nb * (N - 1)) % 4 = 0 := by rw [Nat.mul_assoc, Nat.mul_mod_right]
    have : ∀ r, r < 4 → X (p - 4 * Nb - p % 4 + r) = X' (p - 4 * Nb - p % 4 + r) := fun r hr => hX _ (by omega)
    dsimp only
    rw [this (p % 4) (by omega), this ((p % 4 + 1) % 4) (by omega), this ((p % 4 + 2) % 4) (by omega),
      this ((p % 4 + 3) % 4) (by omega)]

theorem srcIdx_lt {Nb N p : Nat} (hNb : Nb ≠ 0) (hp : p < 4 * Nb * N) : srcIdx Nb p < 4 * Nb * N := by
  unfold srcIdx icol
  have h1 : p / (4 * Nb) + 1 ≤ N := by
    have := Nat.div_lt_of_lt_mul hp; omega
  have h2 := Nat.mul_le_mul_left (4 * Nb) h1
  rw [Nat.mul_succ] at h2
  have h3 := Nat.mod_lt (p % (4 * Nb) / 4 + Nb - shiftOffset Nb (p % 4)) (Nat.pos_of_ne_zero hNb)
  omega

theorem encSd_congr {Nb R : Nat} {one : BF n} {x x' o o' k k' : Nat → BF n} {p : Nat} (hNb : Nb ≠ 0)
    (hp : p < 4 * Nb * R) (hx : ∀ q, q < 8 * (4 * Nb * (R - 1)) → x q = x' q)
    (ho : ∀ q, q < 8 * (4 * Nb) → o q = o' q) (hk : ∀ q, q < 8 * (4 * Nb * (R + 1)) → k q = k' q) :
    encSd Nb R one x o k p = encSd Nb R one x' o' k' p := by
  have hs := srcIdx_lt hNb hp
  have hN : 4 * Nb * R = 4 * Nb * (R - 1) + 4 * Nb := by
    cases R with
    | zero => omega
    | succ N => rw [Nat.add_sub_cancel, Nat.mul_succ]
  have hN' : 4 * Nb * (R + 1) = 4 * Nb * R + 4 * Nb := Nat.mul_succ _ _
  unfold encSd
  refine bc_congr fun i _ => invAffL_congr (fun i hi => ?_) i
  unfold encOut
  split
  · exact hx _ (by omega)
  · show _ + _ = _ + _
    rw [ho _ (by omega), hk _ (by omega)]

theorem byteL_congr {x y : Nat → BF n} {b : Nat} (h : ∀ i, i < 8 → x (8 * b + i) = y (8 * b + i)) :
    byteL x b = byteL y b := bc_congr h

section
variable {P : Params} (hP : ConSz P) {x y : Nat → BF n} (h : ∀ j, j < P.l → x j = y j)
include hP h

theorem keyCell_congr (h0 : P.Lke ≠ 0) {q : Nat} (hq : q < 32 * (4 * P.R + 4)) :
    keyCell (· + ·) 32 P.Nwd x q = keyCell (· + ·) 32 P.Nwd y q :=
  liftKey_congr hP.nwd h (hP.words h0).1 _ (by omega) _ (Nat.mod_lt _ (by decide))

theorem conIn_congr (I : Nat → Byte) (one : BF n) {p : Nat} (hp : p < conCount P) :
    conIn P I one x p = conIn P I one y p := by
  have hR := hP.R
  unfold conIn
  split
  · rename_i h0
    obtain ⟨e1, e2⟩ := hP.em h0
    rw [e1] at hp
    have e3 : 32 * P.Nwd * P.R = 8 * (4 * P.Nwd * P.R) := by ring
    have e4 : 4 * P.Nwd * P.R = 4 * P.Nwd * (P.R - 1) + 4 * P.Nwd := by
      conv_lhs => rw [show P.R = P.R - 1 + 1 by omega, Nat.mul_succ]
    refine encS_congr hp (fun _ => byteL_congr fun i _ => h _ (by omega)) rfl fun q _ =>
      byteL_congr fun i _ => h _ (by omega)
  · rename_i h0
    obtain ⟨e1, e2, e3⟩ := hP.enc h0
    split
    · rename_i hk
      obtain ⟨s1, s2⟩ := hP.sel h0 p hk
      unfold ksS
      exact bc_congr fun i _ => keyCell_congr hP h h0 (by omega)
    · unfold conCount at hp
      have hpos : 0 < P.Senc := by omega
      have hm := Nat.mod_lt (p - P.Ske) hpos
      have hd : (p - P.Ske) / P.Senc < P.beta := (Nat.div_lt_iff_lt_mul hpos).2 (by omega)
      have hl := Nat.mul_le_mul_right P.Lenc (Nat.succ_le_of_lt hd)
      rw [Nat.succ_mul, Nat.mul_comm ((p - P.Ske) / P.Senc)] at hl
      refine encS_congr (N := P.R) (by omega) (fun _ => rfl) (byteL_congr fun i _ => keyCell_congr hP h h0 (by omega))
        fun q _ => byteL_congr fun i _ => h _ (by omega)

theorem conOut_congr (I O : Nat → Byte) (one : BF n) {p : Nat} (hp : p < conCount P) :
    conOut P I O one x p = conOut P I O one y p := by
  have hR := hP.R
  unfold conOut
  split
  · rename_i h0
    obtain ⟨e1, e2⟩ := hP.em h0
    rw [e1] at hp
    have e3 : 32 * P.Nwd * P.R = 8 * (4 * P.Nwd * P.R) := by ring
    have e4 : 4 * P.Nwd * P.R = 4 * P.Nwd * (P.R - 1) + 4 * P.Nwd := by
      conv_lhs => rw [show P.R = P.R - 1 + 1 by omega, Nat.mul_succ]
    refine encSd_congr hP.nwd hp (fun q _ => h _ (by omega)) (fun q _ => ?_) fun _ _ => rfl
    show _ + _ = _ + _
    rw [h _ (by omega)]
  · rename_i h0
    obtain ⟨e1, e2, e3⟩ := hP.enc h0
    split
    · rename_i hk
      obtain ⟨s1, s2⟩ := hP.sel h0 p hk
      have := (hP.words h0).2
      unfold ksSd
      refine bc_congr fun i _ => invAffL_congr (fun i hi => ?_) i
      unfold ksOutL
      rw [h _ (by omega), liftKey_congr hP.nwd h (hP.words h0).1 _ s2 _ (by omega)]
    · unfold conCount at hp
      have hpos : 0 < P.Senc := by omega
      have hm := Nat.mod_lt (p - P.Ske) hpos
      have hd : (p - P.Ske) / P.Senc < P.beta := (Nat.div_lt_iff_lt_mul hpos).2 (by omega)
      have hl := Nat.mul_le_mul_right P.Lenc (Nat.succ_le_of_lt hd)
      rw [Nat.succ_mul, Nat.mul_comm ((p - P.Ske) / P.Senc)] at hl
      exact encSd_congr (by decide) (by omega) (fun q _ => h _ (by omega)) (fun _ _ => rfl)
        fun q _ => keyCell_congr hP h h0 (by omega)

end

/-- The prover's first coefficients depend only on the witness rows. -/
theorem listA1_congr {P : Params} (hP : ConSz P) {I O w : Nat → Byte} {x y : Nat → BF n}
    (h : ∀ j, j < P.l → x j = y j) : listA1 P I O w x = listA1 P I O w y := by
  unfold listA1
  exact tabP_congr fun p hp => by rw [conIn_congr hP h I 0 hp, conOut_congr hP h I O 0 hp]

theorem rowF_congr {N : Nat} {c c' : Nat → Nat → Byte} (h : ∀ p, p < n → ∀ t, t < N → c p t = c' p t) {j : Nat}
    (hj : j < 8 * N) : rowF n c j = rowF n c' j := by
  unfold rowF
  refine Finset.sum_congr rfl fun p hp => ?_
  unfold bitOf
  rw [h p (Finset.mem_range.1 hp) _ (by omega)]

end Faest.Local
