/-
The key-schedule functions of faest_aes.c compute pure functions of their inputs.
-/
import Verif.Model.FaestAes
import Verif.Spec.Constraints
import Verif.Proofs.UHash
import Verif.Proofs.Sbox

namespace Faest
open Spec (ksStep liftKey keyCell ksRc invAffL ksSel ksOutL ksOutB)

section loops
variable {α : Type}

/-- A loop writing the cells `off … off+m-1` in order. -/
theorem ok_row {m off : Nat} {y0 : Mem α} {body : Nat → Mem α → Option (Mem α)} {v : Nat → α}
    (hlen : off + m ≤ y0.length)
    (hbody : ∀ i, i < m → ∀ y : Mem α, y.length = y0.length →
      (∀ p, p < off ∨ off + i ≤ p → rd y p = rd y0 p) → body i y = wr y (off + i) (v i)) :
    Ok (forN m y0 body) (fun y => y.length = y0.length ∧
      ∀ p, rd y p = if off ≤ p ∧ p < off + m then some (v (p - off)) else rd y0 p) := by
  refine Ok.forN (fun i y => y.length = y0.length ∧
      ∀ p, rd y p = if off ≤ p ∧ p < off + i then some (v (p - off)) else rd y0 p) ?_ ?_
  · exact ⟨rfl, fun p => by rw [if_neg (by omega)]⟩
  · rintro i hi y ⟨hl, hy⟩
    rw [hbody i hi y hl fun p hp => by rw [hy, if_neg (by omega)]]
    refine Ok.wr (by omega) fun y' hl' hy' => ⟨by omega, fun p => ?_⟩
    rw [hy', hy]
    by_cases hp : p = off + i
    · rw [if_pos hp, if_pos (by omega), hp, Nat.add_sub_cancel_left]
    · rw [if_neg hp]
      by_cases h2 : off ≤ p ∧ p < off + i
      · rw [if_pos h2, if_pos (by omega)]
      · rw [if_neg h2, if_neg (by omega)]

end loops

theorem sword_iff {Nwd j : Nat} (hN : Nwd = 4 ∨ Nwd = 6 ∨ Nwd = 8) (hj : Nwd ≤ j) :
    (j % Nwd = 0 ∨ (Nwd > 6 ∧ j % Nwd = 4)) ↔ (j - Nwd) % ksStep Nwd = 0 := by
  unfold ksStep
  rcases hN with rfl | rfl | rfl <;> simp <;> omega

/-- Number of words with S-boxes among the words `Nwd … j-1`. -/
def swords (Nwd j : Nat) : Nat := (j - Nwd + (ksStep Nwd - 1)) / ksStep Nwd

theorem swords_succ {Nwd j : Nat} (hN : Nwd = 4 ∨ Nwd = 6 ∨ Nwd = 8) (hj : Nwd ≤ j) :
    swords Nwd (j + 1) = if (j - Nwd) % ksStep Nwd = 0 then swords Nwd j + 1 else swords Nwd j := by
  unfold swords ksStep
  rcases hN with rfl | rfl | rfl <;> simp <;> split <;> omega

theorem swords_eq {Nwd j : Nat} (hN : Nwd = 4 ∨ Nwd = 6 ∨ Nwd = 8) (_hj : Nwd ≤ j)
    (h : (j - Nwd) % ksStep Nwd = 0) : swords Nwd j = (j - Nwd) / ksStep Nwd := by
  unfold swords
  unfold ksStep at *
  rcases hN with rfl | rfl | rfl <;> simp at * <;> omega

theorem liftKey_lt {A : Type} {add : A → A → A} {W Nwd : Nat} {x : Nat → A} {k i : Nat} (h : k < Nwd) :
    liftKey add W Nwd x k i = x (W * k + i) := by
  rw [liftKey, dif_pos (.inl h)]

theorem liftKey_sword {A : Type} {add : A → A → A} {W Nwd : Nat} {x : Nat → A} {k i : Nat}
    (hN : Nwd ≠ 0) (h : Nwd ≤ k) (hs : (k - Nwd) % ksStep Nwd = 0) :
    liftKey add W Nwd x k i = x (W * (Nwd + (k - Nwd) / ksStep Nwd) + i) := by
  rw [liftKey, dif_neg (by omega), if_pos hs]

theorem liftKey_sum {A : Type} {add : A → A → A} {W Nwd : Nat} {x : Nat → A} {k i : Nat}
    (hN : Nwd ≠ 0) (h : Nwd ≤ k) (hs : ¬ (k - Nwd) % ksStep Nwd = 0) :
    liftKey add W Nwd x k i = add (liftKey add W Nwd x (k - Nwd) i) (liftKey add W Nwd x (k - 1) i) := by
  rw [liftKey, dif_neg (by omega), if_neg hs]

theorem keyCell_word {A : Type} {add : A → A → A} {W Nwd : Nat} {x : Nat → A} {k i : Nat} (hi : i < W) :
    keyCell add W Nwd x (W * k + i) = liftKey add W Nwd x k i := by
  unfold keyCell
  rw [Nat.mul_add_div (by omega), Nat.div_eq_of_lt hi, Nat.mul_add_mod, Nat.mod_eq_of_lt hi, Nat.add_zero]

/-- Facts about the key schedule of the AES parameter sets. -/
structure AesWF (P : Params) : Prop where
  nwd : P.Nwd = 4 ∨ P.Nwd = 6 ∨ P.Nwd = 8
  lam : P.lambda = 32 * P.Nwd
  R : P.R = P.Nwd + 6
  ske : P.Ske = 4 * swords P.Nwd (4 * (P.R + 1))
  Lke : P.Lke = P.lambda + 8 * P.Ske
  Lenc : P.Lenc = 128 * (P.R - 1)
  Senc : P.Senc = 16 * P.R
  beta : P.beta = 1 ∨ P.beta = 2
  l : P.l = P.Lke + P.beta * P.Lenc
  pk : P.pkSize / 2 = 16 * P.beta
  shape : witnessShape P = (4, P.beta)

theorem params_aes (i : ParamId) (h : (params i).Lke ≠ 0) : AesWF (params i) := by
  revert h
  cases i <;> intro h <;> first
    | exact absurd rfl h
    | (constructor <;> decide)

variable {n : Nat}

theorem ksForward_ok {P : Params} (h : AesWF P) {v out : Mem (BF n)} {x : Nat → BF n}
    (hv : Has v 0 P.Lke x) (ho : out.length = (P.R + 1) * 128) :
    Ok (ksForward P v out) (fun o => o.length = (P.R + 1) * 128 ∧
      Has o 0 ((P.R + 1) * 128) (keyCell (· + ·) 32 P.Nwd x)) := by
  have hN := h.nwd
  have hlam := h.lam
  have hR := h.R
  have hL := h.Lke
  have hS := h.ske
  unfold ksForward
  refine Ok.step (rdN_has (g := x) (hv.mono (by omega)) (by omega)) ?_
  refine Ok.bind (Ok.wrN (Q := fun o => o.length = (P.R + 1) * 128 ∧ ∀ p, p < P.lambda → rd o p = some (x p))
    (by rw [tabP_length]; omega) ?_) ?_
  · intro o hl hr
    refine ⟨by omega, fun p hp => ?_⟩
    rw [hr, tabP_length, if_pos (by omega), tabP_getElem?, Nat.sub_zero, if_pos hp]
  rintro o ⟨hol, hor⟩
  refine Ok.bind (Ok.forR (fun j (s : Mem (BF n) × Nat) => s.1.length = (P.R + 1) * 128 ∧
      s.2 = P.lambda + 32 * swords P.Nwd j ∧
      ∀ p, p < 32 * j → rd s.1 p = some (keyCell (· + ·) 32 P.Nwd x p)) (by omega) ?_ ?_) ?_
  · refine ⟨hol, ?_, fun p hp => ?_⟩
    · unfold swords ksStep; split <;> simp
    · show rd o p = _
      rw [hor p (by omega)]
      unfold keyCell
      rw [liftKey_lt (by omega), Nat.div_add_mod]
  · rintro j hj1 hj2 ⟨s, pos⟩ ⟨h1, h2, h3⟩
    simp only at h1 h2 h3
    unfold ksForwardStep
    dsimp only
    have hcond := sword_iff hN hj1
    have hsucc := swords_succ hN hj1
    have hmono : swords P.Nwd (j + 1) ≤ swords P.Nwd (4 * (P.R + 1)) := by
      unfold swords; exact Nat.div_le_div_right (by omega)
    by_cases hs : (j - P.Nwd) % ksStep P.Nwd = 0
    · rw [if_pos (hcond.2 hs)]
      rw [if_pos hs] at hsucc
      refine Ok.step (rdN_has (g := fun i => x (pos + i)) (fun i hi => ?_) (by decide)) ?_
      · exact hv.rd0 (by omega)
      refine Ok.bind (Ok.wrN (Q := fun o => o.length = (P.R + 1) * 128 ∧ ∀ p, p < 32 * (j + 1) →
        rd o p = some (keyCell (· + ·) 32 P.Nwd x p)) (by rw [tabP_length]; omega) ?_) ?_
      · intro o hl hr
        refine ⟨by omega, fun p hp => ?_⟩
        rw [hr, tabP_length]
        by_cases hp2 : j * 32 ≤ p ∧ p < j * 32 + 32
        · rw [if_pos hp2, tabP_getElem?, if_pos (by omega)]
          unfold keyCell
          rw [show p / 32 = j by omega, liftKey_sword (by omega) hj1 hs, ← swords_eq hN hj1 hs]
          congr 2
          omega
        · rw [if_neg hp2]
          exact h3 p (by omega)
      · rintro o ⟨hl, hr⟩
        exact Ok.pure ⟨hl, by show pos + 32 = _; omega, hr⟩
    · rw [if_neg (fun hc => hs (hcond.1 hc))]
      rw [if_neg hs] at hsucc
      refine Ok.bind (ok_row (off := 32 * j) (v := fun i => liftKey (· + ·) 32 P.Nwd x j i) (by omega) ?_) ?_
      · intro i hi y hl hy
        have e1 : rd y (32 * (j - P.Nwd) + i) = some (liftKey (· + ·) 32 P.Nwd x (j - P.Nwd) i) := by
          rw [hy _ (.inl (by omega)), h3 _ (by omega), keyCell_word hi]
        have e2 : rd y (32 * (j - 1) + i) = some (liftKey (· + ·) 32 P.Nwd x (j - 1) i) := by
          rw [hy _ (.inl (by omega)), h3 _ (by omega), keyCell_word hi]
        rw [e1, e2, liftKey_sum (by omega) hj1 hs]
        rfl
      · rintro o ⟨hl, hr⟩
        refine Ok.pure ⟨by show o.length = _; omega, by show pos = _; omega, fun p hp => ?_⟩
        show rd o p = _
        rw [hr]
        by_cases hp2 : 32 * j ≤ p ∧ p < 32 * j + 32
        · rw [if_pos hp2]
          unfold keyCell
          rw [show p / 32 = j by omega, show p % 32 = p - 32 * j by omega]
        · rw [if_neg hp2]
          exact h3 p (by omega)
  · rintro ⟨s, pos⟩ ⟨h1, _, h3⟩
    refine Ok.pure ⟨h1, fun p hp => ?_⟩
    rw [Nat.zero_add]
    exact h3 p (by omega)

theorem byte_or_zero (x : Byte) : (0 : Byte) ||| x = x := by simp

theorem ksForward1_ok {P : Params} (h : AesWF P) {w out : Mem Byte} {x : Nat → Byte}
    (hv : Has w 0 (P.Lke / 8) x) (ho : out.length = (P.R + 1) * 16) :
    Ok (ksForward1 P w out) (fun o => o.length = (P.R + 1) * 16 ∧
      Has o 0 ((P.R + 1) * 16) (keyCell (· ^^^ ·) 4 P.Nwd x)) := by
  have hN := h.nwd
  have hlam := h.lam
  have hR := h.R
  have hL := h.Lke
  have hS := h.ske
  unfold ksForward1
  dsimp only
  refine Ok.step (rdN_has (g := x) (hv.mono (by omega)) (by omega)) ?_
  refine Ok.bind (Ok.wrN (Q := fun o => o.length = (P.R + 1) * 16 ∧ ∀ p, p < P.lambda / 8 → rd o p = some (x p))
    (by rw [tabP_length]; omega) ?_) ?_
  · intro o hl hr
    refine ⟨by omega, fun p hp => ?_⟩
    rw [hr, tabP_length, if_pos (by omega), tabP_getElem?, Nat.sub_zero, if_pos hp]
  rintro o ⟨hol, hor⟩
  refine Ok.bind (Ok.wrN (Q := fun o => o.length = (P.R + 1) * 16 ∧ (∀ p, p < P.lambda / 8 → rd o p = some (x p))
    ∧ ∀ p, P.lambda / 8 ≤ p → p < (P.R + 1) * 16 → rd o p = some 0)
    (by rw [List.length_replicate]; omega) ?_) ?_
  · intro o' hl hr
    refine ⟨by omega, fun p hp => ?_, fun p hp hp' => ?_⟩
    · rw [hr, if_neg (by omega), hor p hp]
    · rw [hr, List.length_replicate, if_pos (by omega), List.getElem?_replicate, if_pos (by omega)]
  clear ho hol hor o
  rintro o ⟨hol, hor, hoz⟩
  refine Ok.bind (Ok.forR (fun j (s : Mem Byte × Nat) => s.1.length = (P.R + 1) * 16 ∧
      s.2 = P.lambda + 32 * swords P.Nwd j ∧
      (∀ p, p < 4 * j → rd s.1 p = some (keyCell (· ^^^ ·) 4 P.Nwd x p)) ∧
      ∀ p, 4 * j ≤ p → p < (P.R + 1) * 16 → rd s.1 p = some 0) (by omega) ?_ ?_) ?_
  · refine ⟨hol, ?_, fun p hp => ?_, fun p hp hp' => hoz p (by omega) hp'⟩
    · unfold swords ksStep; split <;> simp
    · show rd o p = _
      rw [hor p (by omega)]
      unfold keyCell
      rw [liftKey_lt (by omega), Nat.div_add_mod]
  · rintro j hj1 hj2 ⟨s, pos⟩ ⟨h1, h2, h3, h4⟩
    simp only at h1 h2 h3 h4
    unfold ksForward1Step
    dsimp only
    have hcond := sword_iff hN hj1
    have hsucc := swords_succ hN hj1
    have hmono : swords P.Nwd (j + 1) ≤ swords P.Nwd (4 * (P.R + 1)) := by
      unfold swords; exact Nat.div_le_div_right (by omega)
    by_cases hs : (j - P.Nwd) % ksStep P.Nwd = 0
    · rw [if_pos (hcond.2 hs)]
      rw [if_pos hs] at hsucc
      refine Ok.step (rdN_has (g := fun i => x (pos / 8 + i)) (fun i hi => ?_) (by decide)) ?_
      · exact hv.rd0 (by omega)
      refine Ok.bind (Ok.wrN (Q := fun o => o.length = (P.R + 1) * 16 ∧ (∀ p, p < 4 * (j + 1) →
        rd o p = some (keyCell (· ^^^ ·) 4 P.Nwd x p)) ∧
        ∀ p, 4 * (j + 1) ≤ p → p < (P.R + 1) * 16 → rd o p = some 0) (by rw [tabP_length]; omega) ?_) ?_
      · intro o hl hr
        refine ⟨by omega, fun p hp => ?_, fun p hp hp' => ?_⟩
        · rw [hr, tabP_length]
          by_cases hp2 : 32 * j / 8 ≤ p ∧ p < 32 * j / 8 + 4
          · rw [if_pos hp2, tabP_getElem?, if_pos (by omega)]
            unfold keyCell
            rw [show p / 4 = j by omega, liftKey_sword (by omega) hj1 hs, ← swords_eq hN hj1 hs]
            congr 2
            omega
          · rw [if_neg hp2]
            exact h3 p (by omega)
        · rw [hr, tabP_length, if_neg (by omega)]
          exact h4 p (by omega) hp'
      · rintro o ⟨hl, hr, hz⟩
        exact Ok.pure ⟨hl, by show pos + 32 = _; omega, hr, hz⟩
    · rw [if_neg (fun hc => hs (hcond.1 hc))]
      rw [if_neg hs] at hsucc
      refine Ok.bind (ok_row (off := 4 * j) (v := fun i => liftKey (· ^^^ ·) 4 P.Nwd x j i) (by omega) ?_) ?_
      · intro i hi y hl hy
        have e0 : rd y ((32 * j + 8 * i) / 8) = some 0 := by
          rw [hy _ (.inr (by omega)), h4 _ (by omega) (by omega)]
        have e1 : rd y ((32 * (j - P.Nwd) + 8 * i) / 8) = some (liftKey (· ^^^ ·) 4 P.Nwd x (j - P.Nwd) i) := by
          rw [hy _ (.inl (by omega)), h3 _ (by omega),
            show (32 * (j - P.Nwd) + 8 * i) / 8 = 4 * (j - P.Nwd) + i by omega, keyCell_word hi]
        have e2 : rd y ((32 * (j - 1) + 8 * i) / 8) = some (liftKey (· ^^^ ·) 4 P.Nwd x (j - 1) i) := by
          rw [hy _ (.inl (by omega)), h3 _ (by omega),
            show (32 * (j - 1) + 8 * i) / 8 = 4 * (j - 1) + i by omega, keyCell_word hi]
        rw [e0, e1, e2, liftKey_sum (by omega) hj1 hs, show (32 * j + 8 * i) / 8 = 4 * j + i by omega]
        show wr y _ (0 ||| _) = _
        rw [byte_or_zero]
      · rintro o ⟨hl, hr⟩
        refine Ok.pure ⟨by show o.length = _; omega, by show pos = _; omega, fun p hp => ?_, fun p hp hp' => ?_⟩
        · show rd o p = _
          rw [hr]
          by_cases hp2 : 4 * j ≤ p ∧ p < 4 * j + 4
          · rw [if_pos hp2]
            unfold keyCell
            rw [show p / 4 = j by omega, show p % 4 = p - 4 * j by omega]
          · rw [if_neg hp2]
            exact h3 p (by omega)
        · show rd o p = _
          rw [hr, if_neg (by omega)]
          exact h4 p (by omega) hp'
  · rintro ⟨s, pos⟩ ⟨h1, _, h3, _⟩
    refine Ok.pure ⟨h1, fun p hp => ?_⟩
    rw [Nat.zero_add]
    exact h3 p (by omega)

/-! ### Backward -/

/-- The counters before iteration `j`; `act`: round constants are consumed. -/
def ksCnt (Nwd W : Nat) (act : Bool) (j : Nat) : KsBwd :=
  { iwd := W * (ksStep Nwd * (j / 4)), c := j % 4, rmvRcon := decide (Nwd = 8 → (j / 4) % 2 = 0),
    ircon := if act then (if Nwd = 8 then ((j + 3) / 4 + 1) / 2 else (j + 3) / 4) else 0 }

theorem ksCnt_next {Nwd W unit : Nat} {act : Bool} (hN : Nwd = 4 ∨ Nwd = 6 ∨ Nwd = 8)
    (hu : (unit = 8 ∧ W = 4) ∨ (unit = 1 ∧ W = 32)) (j : Nat) :
    (ksCnt Nwd W act j).next (32 * Nwd) unit
      (act && (ksCnt Nwd W act j).rmvRcon && ((ksCnt Nwd W act j).c == 0)) = ksCnt Nwd W act (j + 1) := by
  obtain ⟨t, c, hc, rfl⟩ : ∃ t c, c < 4 ∧ j = 4 * t + c := ⟨j / 4, j % 4, by omega, by omega⟩
  have hc' : c = 0 ∨ c = 1 ∨ c = 2 ∨ c = 3 := by omega
  have ht : t % 2 = 0 ∨ t % 2 = 1 := by omega
  have e1 : ∀ c, c < 4 → (4 * t + c) / 4 = t := by omega
  have e2 : (4 * t + 4) / 4 = t + 1 := by omega
  have e3 : (4 * t + 5) / 4 = t + 1 := by omega
  have e4 : (4 * t + 6) / 4 = t + 1 := by omega
  have e5 : (4 * t + 7) / 4 = t + 1 := by omega
  have e6 : ∀ c, c < 4 → (4 * t + c) % 4 = c := by omega
  have e7 : (4 * t + 4) % 4 = 0 := by omega
  have f0 := e1 0 (by decide)
  have f1 := e1 1 (by decide)
  have f2 := e1 2 (by decide)
  have f3 := e1 3 (by decide)
  have g1 := e6 1 (by decide)
  have g2 := e6 2 (by decide)
  have g3 := e6 3 (by decide)
  rcases hN with rfl | rfl | rfl <;> rcases hu with ⟨rfl, rfl⟩ | ⟨rfl, rfl⟩ <;> cases act <;>
    rcases hc' with rfl | rfl | rfl | rfl <;> rcases ht with ht | ht <;>
    simp [ksCnt, KsBwd.next, ksStep, ht, e2, e3, e4, e5, e7, f1, f2, f3, g1, g2, g3, Nat.add_mod] <;>
    omega

theorem ksCnt_rcon {Nwd W j : Nat} (hj : j < 52) :
    if ((ksCnt Nwd W true j).rmvRcon && ((ksCnt Nwd W true j).c == 0)) then
      roundConstants[(ksCnt Nwd W true j).ircon]? = some (ksRc Nwd (j / 4) (j % 4))
    else ksRc Nwd (j / 4) (j % 4) = 0 := by
  unfold ksCnt ksRc
  dsimp only
  by_cases hc : j % 4 = 0
  · by_cases hr : Nwd = 8 → (j / 4) % 2 = 0
    · have hcr : j % 4 = 0 ∧ (Nwd = 8 → (j / 4) % 2 = 0) := ⟨hc, hr⟩
      rw [if_pos (by simp only [hc, decide_eq_true hr]; rfl), if_pos rfl,
        rcon_table _ (by split <;> omega), if_pos hcr]
      congr 2
      split
      · have := hr ‹_›; omega
      · omega
    · rw [if_neg (by rw [decide_eq_false hr, Bool.false_and]; decide), if_neg (by tauto)]
  · rw [if_neg (by simp [hc]), if_neg (by tauto)]

theorem ksRcon1_ok {Nwd W j : Nat} (hj : j < 52) (x : Byte) :
    ksRcon1 ((ksCnt Nwd W true j).rmvRcon && ((ksCnt Nwd W true j).c == 0)) (ksCnt Nwd W true j).ircon x
      = some (x ^^^ ksRc Nwd (j / 4) (j % 4)) := by
  have h := ksCnt_rcon (Nwd := Nwd) (W := W) hj
  unfold ksRcon1
  by_cases hu : ((ksCnt Nwd W true j).rmvRcon && ((ksCnt Nwd W true j).c == 0)) = true
  · rw [if_pos hu] at h ⊢
    rw [h]; rfl
  · rw [if_neg hu] at h ⊢
    rw [h]; exact congrArg some (BitVec.xor_zero (x := x)).symm

theorem AesWF.ske_lt {P : Params} (h : AesWF P) :
    P.Ske ≤ 52 ∧ P.Nwd + ksStep P.Nwd * (P.Ske / 4 - 1) < 4 * (P.R + 1) ∧ P.Ske % 4 = 0 ∧ 0 < P.Ske := by
  have hN := h.nwd
  have hR := h.R
  have hS := h.ske
  unfold swords at hS
  unfold ksStep at *
  rcases hN with e | e | e <;> rw [e] at hR hS ⊢ <;> simp at hS ⊢ <;> omega

theorem ksStep_pos (Nwd : Nat) : 4 ≤ ksStep Nwd ∧ ksStep Nwd ≤ 6 := by
  unfold ksStep; split <;> omega

/-- The words used by the `t`-th word with S-boxes are in range. -/
theorem AesWF.word_lt {P : Params} (h : AesWF P) {t : Nat} (ht : t < P.Ske / 4) :
    P.Nwd + ksStep P.Nwd * t < 4 * (P.R + 1) := by
  have h1 := h.ske_lt
  have : ksStep P.Nwd * t ≤ ksStep P.Nwd * (P.Ske / 4 - 1) := Nat.mul_le_mul_left _ (by omega)
  omega

theorem ksBackward1_ok {P : Params} (h : AesWF P) {w k : Mem Byte} {x : Nat → Byte}
    (hv : Has w 0 (P.Lke / 8) x) (hk : Has k 0 ((P.R + 1) * 16) (keyCell (· ^^^ ·) 4 P.Nwd x)) :
    Ok (ksBackward1 P w (P.lambda / 8) k) (fun o =>
      Has o 0 P.Ske (fun j => invAffineByte (ksOutB P.Nwd x j))) := by
  have hN := h.nwd
  have hlam := h.lam
  have hR := h.R
  have hL := h.Lke
  have hske := h.ske_lt
  unfold ksBackward1
  refine Ok.bind (Ok.forN (fun j (s : Mem Byte × KsBwd) => s.1.length = P.Ske ∧
    s.2 = ksCnt P.Nwd 4 true j ∧ ∀ p, p < j → rd s.1 p = some (invAffineByte (ksOutB P.Nwd x p))) ?_ ?_) ?_
  · refine ⟨by simp, ?_, fun p hp => absurd hp (by omega)⟩
    simp [ksCnt]
  · rintro j hj ⟨o, st⟩ ⟨h1, h2, h3⟩
    simp only at h1 h2 h3
    subst h2
    unfold ksBackward1Step
    dsimp only
    have hw := h.word_lt (t := j / 4) (by omega)
    refine Ok.step (hv.rd0 (by omega)) ?_
    refine Ok.step (hk.rd0 (k := (ksCnt P.Nwd 4 true j).iwd + (ksCnt P.Nwd 4 true j).c) ?_) ?_
    · unfold ksCnt; dsimp only; omega
    refine Ok.step (ksRcon1_ok (by omega) _) ?_
    refine Ok.bind (Ok.wr (Q := fun o => o.length = P.Ske ∧ ∀ p, p < j + 1 →
      rd o p = some (invAffineByte (ksOutB P.Nwd x p))) (by omega) ?_) ?_
    · intro o' hl hr
      refine ⟨by omega, fun p hp => ?_⟩
      rw [hr]
      by_cases hpj : p = j
      · rw [if_pos hpj, hpj]
        unfold ksOutB
        rw [show (ksCnt P.Nwd 4 true j).iwd = 4 * (ksStep P.Nwd * (j / 4)) from rfl,
          show (ksCnt P.Nwd 4 true j).c = j % 4 from rfl, keyCell_word (by omega),
          show P.lambda / 8 + j = 4 * P.Nwd + j by omega]
      · rw [if_neg hpj]
        exact h3 p (by omega)
    · rintro o' ⟨hl, hr⟩
      refine Ok.pure ⟨hl, ?_, hr⟩
      have := ksCnt_next (act := true) (unit := 8) (W := 4) hN (.inl ⟨rfl, rfl⟩) j
      rw [hlam]
      simpa using this
  · rintro ⟨o, st⟩ ⟨h1, h2, h3⟩
    refine Ok.pure fun p hp => ?_
    rw [Nat.zero_add]
    exact h3 p hp

theorem invAffineBF_ok {xt : Mem (BF n)} {x : Nat → BF n} (hx : Has xt 0 8 x) (one : BF n) :
    invAffineBF xt one = some (tabP 8 (invAffL one x)) := by
  unfold invAffineBF
  refine tabM_eq fun i hi => ?_
  rw [hx.rd0 (by omega), hx.rd0 (by omega), hx.rd0 (by omega)]
  show some _ = some _
  congr 1
  unfold invAffL
  simp only [BF.add_def]
  by_cases h : i = 0 ∨ i = 2
  · rw [if_pos h, if_pos h]
  · rw [if_neg h, if_neg h]
    rw [← BF.add_def, ← BF.add_def, ← BF.add_def, add_zero]

theorem getBit_lsb (r : Byte) (i : Nat) : (getBit r i).getLsbD 0 = r.getLsbD i := by
  unfold getBit
  simp

theorem mulBit_getBit (a : BF n) (r : Byte) (i : Nat) :
    bfMulBit a (getBit r i) = a * BF.bitF n (r.getLsbD i) := by
  rw [BF.mulBit_eq, getBit_lsb]
  unfold BF.bitF
  cases r.getLsbD i <;> simp

/-- The two calls of the lifted functions: on the prover's tags (`Mtag = 1`, constants vanish) and
on the verifier's keys (`Mkey = 1`, the constant 1 becomes `Δ`). -/
inductive Mode (n : Nat) : Byte → Byte → Option (Mem Byte) → BF n → Prop
  | tag : Mode n 1 0 none 0
  | key (δ : Mem Byte) (d : Nat → Byte) : Has δ 0 (n / 8) d → Mode n 0 1 (some δ) (loadF n d)

theorem Mode.factor {mtag mkey : Byte} {delta : Option (Mem Byte)} {one : BF n} (hn : 8 ≤ n)
    (h : Mode n mtag mkey delta one) :
    ∃ d, loadDelta n delta = some d ∧ bfMulBit (mkeyFactor d mkey) (1 ^^^ mtag) = one ∧
      ((mtag = 1 ∧ one = 0) ∨ (mtag = 0 ∧ mkeyFactor d mkey = one)) := by
  cases h with
  | tag => exact ⟨0, rfl, by rw [BF.mulBit_eq]; rfl, .inl ⟨rfl, rfl⟩⟩
  | key δ d hd =>
    have e : mkeyFactor (loadF n d) 1 = loadF n d := by
      unfold mkeyFactor
      rw [BF.mulBit_eq, BF.fromBit_eq]
      show loadF n d + 0 = _
      rw [add_zero]
    refine ⟨loadF n d, bfLoad_ok hn hd, ?_, .inr ⟨rfl, e⟩⟩
    rw [e, BF.mulBit_eq]; rfl

theorem ksRconF_ok {Nwd j : Nat} (hj : j < 52) {mtag mkey : Byte} {d one : BF n} {xt : Mem (BF n)}
    {x : Nat → BF n} (hx : Has xt 0 8 x)
    (hm : (mtag = 1 ∧ one = 0) ∨ (mtag = 0 ∧ mkeyFactor d mkey = one)) :
    Ok (ksRconF ((mtag == 0) && (ksCnt Nwd 32 (mtag == 0) j).rmvRcon && ((ksCnt Nwd 32 (mtag == 0) j).c == 0))
      (ksCnt Nwd 32 (mtag == 0) j).ircon (mkeyFactor d mkey) xt)
      (fun m => Has m 0 8 (fun i => x i + one * BF.bitF n ((ksRc Nwd (j / 4) (j % 4)).getLsbD i))) := by
  rcases hm with ⟨rfl, rfl⟩ | ⟨rfl, hm⟩
  · refine Ok.pure (hx.congr fun i _ => ?_)
    rw [zero_mul, add_zero]
  · have h := ksCnt_rcon (Nwd := Nwd) (W := 32) hj
    rw [show ((0 : Byte) == 0) = true from rfl, Bool.true_and]
    unfold ksRconF
    by_cases hu : ((ksCnt Nwd 32 true j).rmvRcon && ((ksCnt Nwd 32 true j).c == 0)) = true
    · rw [if_pos hu] at h ⊢
      refine Ok.step h ?_
      refine Ok.of_eq (fill_eq (g := fun i => x i + one * BF.bitF n ((ksRc Nwd (j / 4) (j % 4)).getLsbD i))
        fun i hi => ?_) (has_full _ _)
      rw [hx.rd0 hi, hm, mulBit_getBit]
      rfl
    · rw [if_neg hu] at h ⊢
      rw [h]
      refine Ok.pure (hx.congr fun i _ => ?_)
      have : BF.bitF n ((0 : Byte).getLsbD i) = 0 := by simp [BF.bitF]
      rw [this, mul_zero, add_zero]

theorem ksBackward_ok {P : Params} (h : AesWF P) (hn : 8 ≤ n) {v vk : Mem (BF n)} {x : Nat → BF n}
    (hv : Has v 0 P.Lke x) (hk : Has vk 0 ((P.R + 1) * 128) (keyCell (· + ·) 32 P.Nwd x))
    {mtag mkey : Byte} {delta : Option (Mem Byte)} {one : BF n} (hm : Mode n mtag mkey delta one) :
    Ok (ksBackward P v P.lambda vk mtag mkey delta) (fun o =>
      ∀ j i, j < P.Ske → i < 8 → rd o (8 * j + i) = some (invAffL one (ksOutL P.Nwd one x j) i)) := by
  have hN := h.nwd
  have hlam := h.lam
  have hR := h.R
  have hL := h.Lke
  have hske := h.ske_lt
  obtain ⟨d, hd1, hd2, hd3⟩ := hm.factor hn
  unfold ksBackward
  rw [if_neg (by cases hm <;> simp)]
  refine Ok.step hd1 ?_
  refine Ok.bind (Ok.forN (fun j (s : Mem (BF n) × KsBwd) => s.1.length = P.Ske * 8 ∧
    s.2 = ksCnt P.Nwd 32 (mtag == 0) j ∧
    ∀ p i, p < j → i < 8 → rd s.1 (8 * p + i) = some (invAffL one (ksOutL P.Nwd one x p) i)) ?_ ?_) ?_
  · refine ⟨by simp, ?_, fun p _ hp => absurd hp (by omega)⟩
    simp [ksCnt]
  · rintro j hj ⟨o, st⟩ ⟨h1, h2, h3⟩
    simp only at h1 h2 h3
    subst h2
    unfold ksBackwardStep
    dsimp only
    have hw := h.word_lt (t := j / 4) (by omega)
    refine Ok.step (fill_eq (g := fun i => x (32 * P.Nwd + 8 * j + i) +
      liftKey (· + ·) 32 P.Nwd x (ksStep P.Nwd * (j / 4)) (8 * (j % 4) + i)) fun i hi => ?_) ?_
    · rw [hv.rd0 (by omega), hk.rd0 (by unfold ksCnt; dsimp only; omega)]
      rw [show (ksCnt P.Nwd 32 (mtag == 0) j).iwd = 32 * (ksStep P.Nwd * (j / 4)) from rfl,
          show (ksCnt P.Nwd 32 (mtag == 0) j).c = j % 4 from rfl, Nat.add_assoc, Nat.add_assoc,
          keyCell_word (by omega), hlam, ← Nat.add_assoc]
      rfl
    refine Ok.bind (ksRconF_ok (by omega) (has_full _ _) hd3) ?_
    intro xt hxt
    refine Ok.step (invAffineBF_ok hxt _) ?_
    rw [hd2]
    refine Ok.bind (Ok.wrN (Q := fun o => o.length = P.Ske * 8 ∧ ∀ p i, p < j + 1 → i < 8 →
      rd o (8 * p + i) = some (invAffL one (ksOutL P.Nwd one x p) i)) (by rw [tabP_length]; omega) ?_) ?_
    · intro o' hl hr
      refine ⟨by omega, fun p i hp hi => ?_⟩
      rw [hr, tabP_length]
      by_cases hpj : p = j
      · rw [if_pos (by omega), hpj, Nat.add_sub_cancel_left, tabP_getElem?, if_pos hi]
        rfl
      · rw [if_neg (by omega)]
        exact h3 p i (by omega) hi
    · rintro o' ⟨hl, hr⟩
      refine Ok.pure ⟨hl, ?_, hr⟩
      have := ksCnt_next (act := mtag == 0) (unit := 1) (W := 32) hN (.inr ⟨rfl, rfl⟩) j
      rw [hlam]
      exact this
  · rintro ⟨o, st⟩ ⟨h1, h2, h3⟩
    exact Ok.pure h3

end Faest
