/-
The algebra of the check: with corresponding matrices the verifier's value is a quadratic polynomial in
the challenge whose coefficients are the prover's values and the violation of the constraints.
-/
import Verif.Proofs.ProveRefine

namespace Faest
open Spec (ksStep liftKey keyCell ksS ksSd ksSB ksOutB conA0 conA1 conB encS encSd encOutB byteL emKey
  conCount conIn conOut bitsL listA0 listA1 listB rowF polyAt zkHash strBit colStart depth leafIdx)

variable {n : Nat}

/-- The violation of constraint `p` by the witness `w`: zero exactly if the product of the two sides
is 1. -/
def conC (n : Nat) (P : Params) (I O w : Nat → Byte) (p : Nat) : BF n :=
  conIn P I 1 (bitsL n w) p * conOut P I O 1 (bitsL n w) p + 1

def listC (n : Nat) (P : Params) (I O w : Nat → Byte) : List (BF n) := tabP (conCount P) (conC n P I O w)

theorem zipWith_tabP {α β γ : Type} (f : α → β → γ) (m : Nat) (a : Nat → α) (b : Nat → β) :
    List.zipWith f (tabP m a) (tabP m b) = tabP m fun i => f (a i) (b i) := by
  refine list_eq_tabP _ _ _ (by simp) fun i hi => ?_
  rw [List.getElem?_zipWith, tabP_getElem?, tabP_getElem?, if_pos hi, if_pos hi]

theorem zkHash_lin_tabP (sd : Nat → Byte) (m : Nat) (a b c : Nat → BF n) (d e x y z w : BF n) (f : Nat → BF n)
    (hf : ∀ i, i < m → f i = a i + d * b i + e * c i) (hw : w = x + d * y + e * z) :
    zkHash n sd (tabP m f) w = zkHash n sd (tabP m a) x + d * zkHash n sd (tabP m b) y
      + e * zkHash n sd (tabP m c) z := by
  have h1 := zkHash_linear sd (1 : BF n) d (ys := tabP m a) (zs := tabP m b) (by simp) x y
  have h2 := zkHash_linear sd (1 : BF n) e (ys := tabP m fun i => 1 * a i + d * b i) (zs := tabP m c)
    (by simp) (1 * x + d * y) z
  rw [zipWith_tabP] at h1 h2
  rw [h1] at h2
  rw [tabP_congr (h := fun i => 1 * (1 * a i + d * b i) + e * c i) fun i hi => by
      rw [hf i hi, one_mul, one_mul]]
  have hw' : w = 1 * (1 * x + d * y) + e * z := by rw [hw, one_mul, one_mul]
  rw [hw', h2, one_mul, one_mul]

theorem add_cancel_self (a b : BF n) : a + (b + b) = a := by rw [BF.add_self, add_zero]

/-- The verifier's value in terms of the prover's values. -/
theorem conB_eq {d s vs sd vsd qs qsd : BF n} (h1 : qs = vs + d * s) (h2 : qsd = vsd + d * sd) :
    conB d qs qsd = conA0 vs vsd + d * (conA1 s vs sd vsd + (s * sd + 1)) + d * d * (s * sd + 1) := by
  unfold conB conA0 conA1
  rw [h1, h2]
  have e : (s + vs) * (sd + vsd) + vs * vsd + 1 + (s * sd + 1)
      = (vs * sd + s * vsd) + ((s * sd + s * sd) + (vs * vsd + vs * vsd) + (1 + 1)) := by ring
  rw [e, BF.add_self (s * sd), BF.add_self (vs * vsd), BF.add_self 1]
  ring

theorem bitF_and (a b : Bool) : BF.bitF n (a && b) = BF.bitF n a * BF.bitF n b := by
  cases a <;> cases b <;> simp [BF.bitF]

/-- Columns which differ by a multiple of `w` give rows which differ by a multiple of the challenge. -/
theorem rowF_corr (hl : BF.LamSize n) {qf vf : Nat → Nat → Byte} {ch w : Nat → Byte}
    (h : ∀ p, p < n → ∀ t, qf p t = vf p t ^^^ (if strBit ch p then w t else 0)) (i : Nat) :
    rowF n qf i = rowF n vf i + loadF n ch * bitsL n w i := by
  have h8 : 8 ∣ n := by rcases hl with rfl | rfl | rfl <;> decide
  have hn : 0 < n := by rcases hl with rfl | rfl | rfl <;> decide
  rw [loadF_eq_sum h8 hn, Finset.sum_mul]
  unfold rowF
  rw [← Finset.sum_add_distrib]
  refine Finset.sum_congr rfl fun p hp => ?_
  have hp := Finset.mem_range.1 hp
  have : bitOf (qf p) i = (bitOf (vf p) i ^^ (bitOf ch p && bitOf w i)) := by
    unfold bitOf
    rw [h p hp, BitVec.getLsbD_xor]
    congr 1
    have : strBit ch p = (ch (p / 8)).getLsbD (p % 8) := rfl
    rw [this]
    cases (ch (p / 8)).getLsbD (p % 8) <;> simp
  rw [this, BF.bitF_xor, bitF_and]
  unfold bitsL
  ring

theorem polyAt_bits (hl : BF.LamSize n) {w : Nat → Byte} {ell : Nat} (h8 : ell % 8 = 0) :
    polyAt (fun i => bitsL n w (ell + i)) = loadF n fun t => w (ell / 8 + t) := by
  have h8' : 8 ∣ n := by rcases hl with rfl | rfl | rfl <;> decide
  have hn : 0 < n := by rcases hl with rfl | rfl | rfl <;> decide
  rw [loadF_eq_sum h8' hn]
  unfold polyAt bitsL bitOf
  refine Finset.sum_congr rfl fun i _ => ?_
  beta_reduce
  rw [show (ell + i) / 8 = ell / 8 + i / 8 by omega, show (ell + i) % 8 = i % 8 by omega]

theorem polyAt_lin {g v w : Nat → BF n} {d : BF n} (h : ∀ i, g i = v i + d * w i) :
    polyAt g = polyAt v + d * polyAt w := by
  unfold polyAt
  rw [Finset.mul_sum, ← Finset.sum_add_distrib]
  refine Finset.sum_congr rfl fun i _ => ?_
  rw [h]; ring

/-- The verifier's hash as a polynomial in the challenge. -/
theorem hashB_eq (hl : BF.LamSize n) {P : Params} {I O sdf w : Nat → Byte} {d : BF n} {v q : Nat → BF n}
    (h8 : P.l % 8 = 0) (hq : ∀ i, q i = v i + d * bitsL n w i) :
    zkHash n sdf (listB P I O d q) (polyAt fun i => q (P.l + i)) =
      zkHash n sdf (listA0 P I O v) (polyAt fun i => v (P.l + i))
      + d * zkHash n sdf (listA1 P I O w v) (loadF n fun t => w (P.l / 8 + t))
      + (d + d * d) * zkHash n sdf (listC n P I O w) 0 := by
  refine zkHash_lin_tabP sdf (conCount P) _ _ _ _ _ _ _ _ _ _ (fun p _ => ?_) ?_
  · have h1 := conIn_lin (P := P) (I := I) hq (a := 0) (b := 1) (c := d) (by ring) p
    have h2 := conOut_lin (P := P) (I := I) (O := O) hq (a := 0) (b := 1) (c := d) (by ring) p
    rw [conB_eq h1 h2]
    unfold conC
    ring
  · rw [polyAt_lin (d := d) (fun i => hq (P.l + i)), polyAt_bits hl h8]
    ring

theorem zkHash_zero {sdf : Nat → Byte} {m : Nat} {f : Nat → BF n} (h : ∀ i, i < m → f i = 0) :
    zkHash n sdf (tabP m f) 0 = 0 := by
  have := zkHash_lin_tabP sdf m f f f (1 : BF n) 0 0 0 0 0 f (fun i hi => by rw [h i hi]; ring) (by ring)
  rw [one_mul, zero_mul, add_zero] at this
  have h2 : zkHash n sdf (tabP m f) 0 + zkHash n sdf (tabP m f) 0 = 0 := BF.add_self _
  rw [h2] at this
  exact this

end Faest
