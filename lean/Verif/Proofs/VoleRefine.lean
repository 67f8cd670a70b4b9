/-
The VOLE code computes the specification.
-/
import Verif.Model.Vole
import Verif.Spec.Vole
import Verif.Proofs.VcRefine
import Verif.Proofs.ParamsWF

namespace Faest
open Spec (byteFn prgL child treeNode leafSd leafCom comDigest anc sib recNode
  xsum voleV voleU strBit bitsNat depth colStart treeOf posOf leafIdx treeRoot pNode pCom pSd expand
  pR pU pV hcomOf vNode vCom vR vQ)

/-! ### Exclusive or sums -/

theorem xsum_congr {n : Nat} {f g : Nat → Byte} (h : ∀ i, i < n → f i = g i) :
    xsum n f = xsum n g := by
  induction n with
  | zero => rfl
  | succ n ih => rw [xsum, xsum, ih fun i hi => h i (by omega), h n (by omega)]

theorem xsum_zero (n : Nat) : xsum n (fun _ => 0) = 0 := by
  induction n with
  | zero => rfl
  | succ n ih => rw [xsum, ih]; rfl

theorem xsum_add (a b : Nat) (f : Nat → Byte) :
    xsum (a + b) f = xsum a f ^^^ xsum b (fun i => f (a + i)) := by
  induction b with
  | zero => simp [xsum]
  | succ b ih => rw [← Nat.add_assoc, xsum, ih, xsum, BitVec.xor_assoc]

theorem xsum_xor (n : Nat) (f g : Nat → Byte) :
    xsum n (fun i => f i ^^^ g i) = xsum n f ^^^ xsum n g := by
  induction n with
  | zero => simp [xsum]
  | succ n ih =>
    rw [xsum, ih, xsum, xsum]
    ac_rfl

/-- Pairs of halves. -/
theorem xsum_halves (j i : Nat) (f : Nat → Byte) :
    xsum (2 ^ (j + 1)) (fun s => f (i * 2 ^ (j + 1) + s))
      = xsum (2 ^ j) (fun s => f (2 * i * 2 ^ j + s)) ^^^
        xsum (2 ^ j) (fun s => f ((2 * i + 1) * 2 ^ j + s)) := by
  rw [show 2 ^ (j + 1) = 2 ^ j + 2 ^ j by rw [Nat.pow_succ]; omega, xsum_add]
  congr 1
  · exact xsum_congr fun s _ => by
      congr 1
      have : i * (2 ^ j + 2 ^ j) = 2 * i * 2 ^ j := by ring
      omega
  · exact xsum_congr fun s _ => by
      congr 1
      have : i * (2 ^ j + 2 ^ j) + 2 ^ j = (2 * i + 1) * 2 ^ j := by ring
      omega

/-- The odd blocks of length `2^j` are the indices with bit `j` set. -/
theorem xsum_bit (j A : Nat) (f : Nat → Byte) :
    xsum (A * 2 ^ (j + 1)) (fun k => if k / 2 ^ j % 2 = 1 then f k else 0)
      = xsum A (fun i => xsum (2 ^ j) fun s => f ((2 * i + 1) * 2 ^ j + s)) := by
  have hp := Nat.two_pow_pos j
  induction A with
  | zero => simp [xsum]
  | succ A ih =>
    rw [Nat.succ_mul, xsum_add, ih, xsum]
    congr 1
    have h2 : 2 ^ (j + 1) = 2 ^ j + 2 ^ j := by rw [Nat.pow_succ]; omega
    rw [h2, xsum_add]
    have e1 : xsum (2 ^ j) (fun i => if (A * (2 ^ j + 2 ^ j) + i) / 2 ^ j % 2 = 1 then
        f (A * (2 ^ j + 2 ^ j) + i) else 0) = 0 := by
      refine Eq.trans (xsum_congr fun i hi => ?_) (xsum_zero (2 ^ j))
      have : A * (2 ^ j + 2 ^ j) + i = 2 ^ j * (2 * A) + i := by ring
      rw [this, Nat.mul_add_div hp, Nat.div_eq_of_lt hi, if_neg (by omega)]
    rw [e1, show ∀ y : Byte, (0 : Byte) ^^^ y = y from fun y => BitVec.zero_xor]
    refine xsum_congr fun i hi => ?_
    have : A * (2 ^ j + 2 ^ j) + (2 ^ j + i) = 2 ^ j * (2 * A + 1) + i := by ring
    rw [this, Nat.mul_add_div hp, Nat.div_eq_of_lt hi, if_pos (by omega)]
    congr 1
    ring

theorem xorArr_ok {a b : Mem Byte} {n : Nat} {f g : Nat → Byte} (ha : Has a 0 n f) (hb : Has b 0 n g) :
    xorArr a b n = some (tabP n fun i => f i ^^^ g i) := by
  unfold xorArr
  refine tabM_eq fun i hi => ?_
  rw [ha.rd0 hi, hb.rd0 hi]; rfl

theorem has_tabP (n : Nat) (g : Nat → Byte) : Has (ofList (tabP n g)) 0 n g := has_full n g

theorem xorArr_tabP (n : Nat) (f g : Nat → Byte) :
    xorArr (ofList (tabP n f)) (ofList (tabP n g)) n = some (tabP n fun i => f i ^^^ g i) :=
  xorArr_ok (has_tabP n f) (has_tabP n g)

theorem replicate_eq_tabP {α : Type} (n : Nat) (a : α) : List.replicate n a = tabP n fun _ => a := by
  apply List.ext_getElem
  · simp
  · intro i h1 h2; simp

/-! ### ConvertToVole -/

theorem rIdx_row0 (N col : Nat) : rIdx N 0 col = col := by simp [rIdx]

theorem rIdx_lt {N row col : Nat} (h : col < N) : rIdx N row col < 2 * N := by
  unfold rIdx
  rcases Nat.mod_two_eq_zero_or_one row with h | h <;> rw [h] <;> omega

theorem rIdx_succ_ne {N row c c' : Nat} (h : c < N) (h' : c' < N) : rIdx N (row + 1) c ≠ rIdx N row c' := by
  unfold rIdx
  rcases Nat.mod_two_eq_zero_or_one row with e | e
  · rw [e, show (row + 1) % 2 = 1 by omega]; omega
  · rw [e, show (row + 1) % 2 = 0 by omega]; omega

/-- Strings used by `ConvertToVole`. -/
def cvR (lam : Nat) (iv : List Byte) (sdv : Nat → List Byte) (bot : Bool) (i t : Nat) : Byte :=
  if bot = true ∧ i = 0 then 0 else expand lam iv (sdv i) t

theorem prgL_expand (lam : Nat) (key iv : List Byte) (n : Nat) :
    prgL lam key iv n = tabP n (expand lam iv key) := rfl

theorem convertToVole_ok {lam d outLen off M : Nat} {iv : List Byte} {sd v : Mem (List Byte)}
    {bot : Bool} {sdv : Nat → List Byte} (hlam : LamOk lam) (hiv : iv.length = 16) (hd : d ≤ 12)
    (hd1 : 1 ≤ d) (hout : outLen ≤ 100000)
    (hsd : ∀ i, i < 2 ^ d → (i = 0 → bot = false) →
      rd sd i = some (sdv i) ∧ (sdv i).length = lam / 8)
    (hv : v.length = M) (hoff : off + d ≤ M) :
    Ok (convertToVole iv sd bot lam d outLen v off) (fun s =>
      (s.1.length = M ∧ ∀ p, rd s.1 p = if off ≤ p ∧ p < off + d then
        some (tabP outLen (voleV (2 ^ d) (cvR lam iv sdv bot) (p - off))) else rd v p) ∧
      s.2 = if bot then none else some (tabP outLen (voleU (2 ^ d) (cvR lam iv sdv bot)))) := by
  have hN := two_pow_le_12 hd
  have hp := Nat.two_pow_pos d
  unfold convertToVole
  simp only []
  rw [if_pos (by omega)]
  refine Ok.step rfl ?_
  have hm : 2 * 2 ^ d * outLen ≤ 8192 * 100000 := Nat.mul_le_mul (by omega) hout
  refine Ok.step (a := 2 * 2 ^ d) (by unfold u32; rw [if_pos (by omega)]) ?_
  refine Ok.step (a := 2 * 2 ^ d * outLen) (by unfold u32; rw [if_pos (by omega)]) ?_
  generalize hR : cvR lam iv sdv bot = R
  -- row 0, entry 0
  have hr0 : Ok (cvInit iv sd bot lam outLen (2 ^ d))
      (fun r => r.length = 2 * 2 ^ d ∧ rd r 0 = some (tabP outLen (R 0))) := by
    unfold cvInit
    simp only []
    cases hb : bot with
    | true =>
      rw [if_pos rfl]
      refine Ok.some ⟨calloc_length _ _, ?_⟩
      rw [rd_calloc (by omega), replicate_eq_tabP, ← hR]
      congr 2
      funext t
      unfold cvR
      rw [if_pos ⟨hb, rfl⟩]
    | false =>
      rw [if_neg (by simp)]
      obtain ⟨h1, h2⟩ := hsd 0 hp fun _ => hb
      refine Ok.step h1 ?_
      refine Ok.step (prgL_ok hlam h2 hiv) ?_
      refine Ok.wr (by rw [calloc_length, rIdx_row0]; omega) ?_
      intro m hl hm
      refine ⟨by rw [hl, calloc_length], ?_⟩
      rw [hm, rIdx_row0, if_pos rfl, prgL_expand, ← hR]
      congr 2
      funext t
      unfold cvR
      rw [if_neg (by simp [hb])]
  refine Ok.bind hr0 ?_
  rintro r ⟨hrl, hr0⟩
  refine Ok.bind (P := fun r => r.length = 2 * 2 ^ d ∧ ∀ i, i < 2 ^ d → rd r i = some (tabP outLen (R i)))
    ?_ ?_
  · unfold forR
    refine (Ok.forN (fun i r => r.length = 2 * 2 ^ d ∧ ∀ k, k < 1 + i → rd r k = some (tabP outLen (R k)))
      ?_ ?_).mono ?_
    · refine ⟨hrl, ?_⟩
      intro k hk
      obtain rfl : k = 0 := by omega
      exact hr0
    · rintro i hi r ⟨hl, hr⟩
      obtain ⟨h1, h2⟩ := hsd (1 + i) (by omega) (by omega)
      refine Ok.step h1 ?_
      refine Ok.step (prgL_ok hlam h2 hiv) ?_
      refine Ok.wr (by rw [rIdx_row0]; omega) ?_
      intro m hl' hm
      refine ⟨by omega, ?_⟩
      intro k hk
      rw [hm, rIdx_row0]
      by_cases hc : k = 1 + i
      · rw [if_pos hc, hc, prgL_expand, ← hR]
        congr 2
        funext t
        unfold cvR
        rw [if_neg (by omega)]
      · rw [if_neg hc, hr k (by omega)]
    · rintro r ⟨hl, hr⟩
      exact ⟨hl, fun i hi => hr i (by omega)⟩
  rintro r ⟨hrl, hr⟩
  rw [replicate_eq_tabP]
  refine Ok.bind (Ok.forN (fun j m => m.length = M ∧ ∀ p, rd m p = if off ≤ p ∧ p < off + j then
    some (tabP outLen fun _ => 0) else rd v p) ?_ ?_) ?_
  · exact ⟨hv, fun p => by rw [if_neg (by omega)]⟩
  · rintro j hj m ⟨hl, hm⟩
    refine Ok.wr (by omega) ?_
    intro m' hl' hm'
    refine ⟨by omega, fun p => ?_⟩
    rw [hm', hm]
    by_cases hc : p = off + j
    · rw [if_pos hc, if_pos (by omega)]
    · rw [if_neg hc]
      by_cases h2 : off ≤ p ∧ p < off + j
      · rw [if_pos h2, if_pos (by omega)]
      · rw [if_neg h2, if_neg (by omega)]
  rintro v0 ⟨hl0, hv0⟩
  refine Ok.bind (Ok.forN (fun j (s : Mem (List Byte) × Mem (List Byte)) =>
    (s.1.length = M ∧ ∀ p, rd s.1 p = if off ≤ p ∧ p < off + d then
      (if p < off + j then some (tabP outLen (voleV (2 ^ d) R (p - off)))
       else some (tabP outLen fun _ => 0)) else rd v p) ∧
    (s.2.length = 2 * 2 ^ d ∧ ∀ i, i < 2 ^ d / 2 ^ j → rd s.2 (rIdx (2 ^ d) j i)
      = some (tabP outLen fun t => xsum (2 ^ j) fun k => R (i * 2 ^ j + k) t))) ?_ ?_) ?_
  · refine ⟨⟨hl0, fun p => ?_⟩, hrl, fun i hi => ?_⟩
    · rw [hv0]
      by_cases h2 : off ≤ p ∧ p < off + d
      · rw [if_pos h2, if_pos h2, if_neg (by omega)]
      · rw [if_neg h2, if_neg h2]
    · simp only [Nat.pow_zero, Nat.div_one] at hi
      rw [rIdx_row0, hr i hi]
      congr 2
      funext t
      simp [xsum]
  · rintro j hj ⟨v1, r1⟩ ⟨⟨hl1, hv1⟩, hl2, hr1⟩
    simp only at hl1 hv1 hl2 hr1
    have hpj := Nat.two_pow_pos j
    have hsplit : 2 ^ d = 2 ^ (d - (j + 1)) * 2 ^ (j + 1) := by
      rw [← Nat.pow_add]; congr 1; omega
    have hA : 2 ^ d / 2 ^ (j + 1) = 2 ^ (d - (j + 1)) := by
      rw [Nat.pow_div (by omega) (by decide)]
    have hB : 2 ^ d / 2 ^ j = 2 * 2 ^ (d - (j + 1)) := by
      rw [Nat.pow_div (by omega) (by decide), show d - j = d - (j + 1) + 1 by omega, Nat.pow_succ]; omega
    have hBle : 2 * 2 ^ (d - (j + 1)) ≤ 2 ^ d := by
      rw [← hB]; exact Nat.div_le_self _ _
    rw [hA]
    rw [hB] at hr1
    refine (Ok.forN (fun i (s : Mem (List Byte) × Mem (List Byte)) =>
      (s.1.length = M ∧ ∀ p, rd s.1 p = if p = off + j then
        some (tabP outLen fun t => xsum i fun i => xsum (2 ^ j) fun k => R ((2 * i + 1) * 2 ^ j + k) t)
        else rd v1 p) ∧
      (s.2.length = 2 * 2 ^ d ∧ (∀ i, i < 2 * 2 ^ (d - (j + 1)) → rd s.2 (rIdx (2 ^ d) j i)
        = some (tabP outLen fun t => xsum (2 ^ j) fun k => R (i * 2 ^ j + k) t)) ∧
       ∀ k, k < i → rd s.2 (rIdx (2 ^ d) (j + 1) k)
        = some (tabP outLen fun t => xsum (2 ^ (j + 1)) fun s => R (k * 2 ^ (j + 1) + s) t))) ?_ ?_).mono ?_
    · refine ⟨⟨hl1, fun p => ?_⟩, hl2, hr1, fun k hk => by omega⟩
      by_cases hc : p = off + j
      · rw [if_pos hc, hv1, if_pos (by omega), if_neg (by omega)]; rfl
      · rw [if_neg hc]
    · rintro i hi ⟨v2, r2⟩ ⟨⟨hl1', hv2⟩, hl2', hr2, hr2'⟩
      simp only at hl1' hv2 hl2' hr2 hr2' ⊢
      refine Ok.step (by rw [hv2, if_pos rfl]) ?_
      refine Ok.step (hr2 (2 * i + 1) (by omega)) ?_
      refine Ok.step (xorArr_tabP _ _ _) ?_
      refine Ok.bind (Ok.wr (Q := fun m => m.length = M ∧ ∀ p, rd m p = if p = off + j then
        some (tabP outLen fun t => xsum (i + 1) fun i => xsum (2 ^ j) fun k =>
          R ((2 * i + 1) * 2 ^ j + k) t) else rd v1 p) (by omega) ?_) ?_
      · intro m hl hm
        refine ⟨by omega, fun p => ?_⟩
        rw [hm]
        by_cases hc : p = off + j
        · rw [if_pos hc, if_pos hc]; rfl
        · rw [if_neg hc, if_neg hc, hv2, if_neg hc]
      rintro v3 hv3
      refine Ok.step (hr2 (2 * i) (by omega)) ?_
      refine Ok.step (hr2 (2 * i + 1) (by omega)) ?_
      refine Ok.step (xorArr_tabP _ _ _) ?_
      refine Ok.bind (Ok.wr (Q := fun m => m.length = 2 * 2 ^ d ∧ ∀ p, rd m p =
        if p = rIdx (2 ^ d) (j + 1) i then some (tabP outLen fun t => xsum (2 ^ (j + 1)) fun s =>
          R (i * 2 ^ (j + 1) + s) t) else rd r2 p) (by rw [hl2']; exact rIdx_lt (by omega)) ?_) ?_
      · intro m hl hm
        refine ⟨by omega, fun p => ?_⟩
        rw [hm]
        by_cases hc : p = rIdx (2 ^ d) (j + 1) i
        · rw [if_pos hc, if_pos hc]
          congr 2
          funext t
          rw [xsum_halves j i (fun k => R k t)]
        · rw [if_neg hc, if_neg hc]
      rintro r3 ⟨hl3, hr3⟩
      refine Ok.pure ⟨hv3, hl3, ?_, ?_⟩
      · intro k hk
        rw [hr3, if_neg (rIdx_succ_ne (by omega) (by omega)).symm, hr2 k hk]
      · intro k hk
        rw [hr3]
        by_cases hc : k = i
        · rw [if_pos (by rw [hc]), hc]
        · rw [if_neg (by unfold rIdx; omega), hr2' k (by omega)]
    · rintro ⟨v2, r2⟩ ⟨⟨hl1', hv2⟩, hl2', hr2, hr2'⟩
      simp only at hl1' hv2 hl2' hr2 hr2' ⊢
      refine ⟨⟨hl1', fun p => ?_⟩, hl2', hr2'⟩
      rw [hv2]
      by_cases hc : p = off + j
      · rw [if_pos hc, if_pos (by omega), if_pos (by omega)]
        congr 2
        funext t
        unfold voleV
        conv => rhs; rw [hsplit]
        rw [show p - off = j by omega, xsum_bit j _ (fun k => R k t)]
      · rw [if_neg hc, hv1]
        by_cases h2 : off ≤ p ∧ p < off + d
        · rw [if_pos h2, if_pos h2]
          by_cases h3 : p < off + j
          · rw [if_pos h3, if_pos (by omega)]
          · rw [if_neg h3, if_neg (by omega)]
        · rw [if_neg h2, if_neg h2]
  rintro ⟨v', r'⟩ ⟨⟨hl', hv'⟩, hlr', hr'⟩
  simp only at hl' hv' hlr' hr' ⊢
  have hvfin : ∀ p, rd v' p = if off ≤ p ∧ p < off + d then
        some (tabP outLen (voleV (2 ^ d) R (p - off))) else rd v p := by
    intro p
    rw [hv']
    by_cases h2 : off ≤ p ∧ p < off + d
    · rw [if_pos h2, if_pos h2, if_pos (by omega)]
    · rw [if_neg h2, if_neg h2]
  cases hb : bot with
  | true =>
    rw [if_pos rfl]
    exact Ok.pure ⟨⟨hl', hvfin⟩, rfl⟩
  | false =>
    rw [if_neg (by simp)]
    have := hr' 0 (by rw [Nat.div_self hp]; decide)
    refine Ok.step this (Ok.pure ⟨⟨hl', hvfin⟩, ?_⟩)
    rw [if_neg (by simp)]
    show some _ = some _
    congr 2
    funext t
    unfold voleU
    simp

/-! ### Challenge decoding -/

theorem bitsNat_lt (f : Nat → Bool) (n : Nat) : bitsNat f n < 2 ^ n := by
  induction n with
  | zero => simp [bitsNat]
  | succ n ih => rw [bitsNat, Nat.pow_succ]; split <;> omega

theorem bitsNat_bit (f : Nat → Bool) (n : Nat) : ∀ j, j < n →
    bitsNat f n / 2 ^ j % 2 = if f j then 1 else 0 := by
  induction n with
  | zero => intro j hj; omega
  | succ n ih =>
    intro j hj
    rw [bitsNat]
    have hlt := bitsNat_lt f n
    by_cases hjn : j = n
    · subst hjn
      cases hf : f j with
      | true =>
        rw [if_pos rfl, if_pos rfl, Nat.add_div_right _ (Nat.two_pow_pos j), Nat.div_eq_of_lt hlt]
      | false =>
        rw [if_neg (by simp), if_neg (by simp), Nat.add_zero, Nat.div_eq_of_lt hlt]
    · have hj' : j < n := by omega
      rw [← ih j hj']
      cases hf : f n with
      | true =>
        rw [if_pos rfl, show 2 ^ n = 2 ^ j * (2 * 2 ^ (n - j - 1)) by
          rw [show 2 * 2 ^ (n - j - 1) = 2 ^ (n - j - 1 + 1) by rw [Nat.pow_succ]; omega, ← Nat.pow_add]
          congr 1; omega, Nat.add_mul_div_left _ _ (Nat.two_pow_pos j), Nat.add_mul_mod_self_left]
      | false => rw [if_neg (by simp), Nat.add_zero]

theorem byte_bit (x : Byte) (k : Nat) : (x >>> k) &&& 1 = BitVec.ofNat 8 (if x.getLsbD k then 1 else 0) := by
  apply BitVec.eq_of_toNat_eq
  rw [BitVec.toNat_and, BitVec.toNat_ushiftRight, BitVec.toNat_ofNat,
    show (1 : Byte).toNat = 1 from rfl, Nat.and_one_is_mod]
  have h : x.getLsbD k = decide (x.toNat >>> k % 2 = 1) := by
    rw [BitVec.getLsbD, Nat.testBit_eq_decide_div_mod_eq, Nat.shiftRight_eq_div_pow]
  rw [h]
  rcases Nat.mod_two_eq_zero_or_one (x.toNat >>> k) with e | e <;> rw [e] <;> rfl

theorem ptrGetBit_ok {m : Mem Byte} {n : Nat} {g : Nat → Byte} (h : Has m 0 n g) {i : Nat}
    (hi : i < 8 * n) : ptrGetBit m i = some (BitVec.ofNat 8 (if strBit g i then 1 else 0)) := by
  unfold ptrGetBit strBit
  rw [h.rd0 (by omega)]
  show some _ = some _
  rw [byte_bit]

theorem chalDec_ok {P : Params} (h : PWF P) {chal out : Mem Byte} {ch : Nat → Byte} {i : Nat}
    (hc : Has chal 0 (P.lambda / 8) ch) (hi : i < P.tau) (ho : 12 ≤ out.length) :
    Ok (chalDec chal i P.k0 P.t0 P.k1 P.t1 out) (fun r => r.1 = 1 ∧ r.2.length = out.length ∧
      BitsOf r.2 (depth P i) (leafIdx P ch i)) := by
  have h1 := h.tau
  have hd := h.depth_le i
  have hlam := h.lam
  unfold chalDec
  rw [if_neg (by omega)]
  have elo : (if i < P.t0 then i * P.k0 else P.t0 * P.k0 + (i - P.t0) * P.k1) = colStart P i := rfl
  have ehi : (if i < P.t0 then (i + 1) * P.k0 else P.t0 * P.k0 + (i - P.t0 + 1) * P.k1)
      = colStart P i + depth P i := by
    unfold colStart depth
    split
    · rw [Nat.succ_mul]
    · rw [Nat.succ_mul]; omega
  simp only []
  rw [elo, ehi, Nat.add_sub_cancel_left]
  rw [if_pos (by unfold depth; split <;> simp)]
  unfold forR
  rw [Nat.add_sub_cancel_left]
  refine Ok.bind (Ok.forN (fun j m => m.length = out.length ∧ ∀ k, k < j →
    rd m k = some (BitVec.ofNat 8 (if strBit ch (colStart P i + k) then 1 else 0))) ?_ ?_) ?_
  · exact ⟨rfl, fun k hk => by omega⟩
  · rintro j hj m ⟨hl, hm⟩
    have hlt := h.col_lt hi hj
    refine Ok.step (ptrGetBit_ok hc (by omega)) ?_
    refine Ok.wr (by omega) ?_
    intro m' hl' hm'
    refine ⟨by omega, fun k hk => ?_⟩
    rw [hm', Nat.add_sub_cancel_left]
    by_cases hkj : k = j
    · rw [if_pos hkj, hkj]
    · rw [if_neg hkj, hm k (by omega)]
  · rintro m ⟨hl, hm⟩
    refine Ok.pure ⟨rfl, hl, ?_, ?_⟩
    · exact bitsNat_lt _ _
    · intro j hj
      rw [hm j hj]
      unfold leafIdx
      rw [bitsNat_bit _ _ j hj]

/-! ### vole_commit -/

theorem leafSd_length (X : XOF) (lam : Nat) (iv nd : List Byte) : (leafSd X lam iv nd).length = lam / 8 := by
  simp [leafSd, squeeze]

theorem leafCom_length (X : XOF) (lam : Nat) (iv nd : List Byte) :
    (leafCom X lam iv nd).length = lam / 8 * 2 := by
  simp [leafCom, squeeze]

theorem treeRoot_length (P : Params) (rootKey iv : List Byte) (i : Nat) :
    (treeRoot P rootKey iv i).length = P.lambda / 8 := by simp [treeRoot]

/-- The vector commitment of tree `i`. -/
def pVec (X : XOF) (P : Params) (rootKey iv : List Byte) (i : Nat) : VecCom :=
  { h := comDigest X P.lambda (2 ^ depth P i) (pCom X P rootKey iv i)
    k := full (2 ^ (depth P i + 1) - 1) (flatNode P.lambda iv (treeRoot P rootKey iv i))
    com := full (2 ^ depth P i) (pCom X P rootKey iv i)
    sd := full (2 ^ depth P i) (pSd X P rootKey iv i) }

theorem PWF.ellHatBytes_le {P : Params} (h : PWF P) : P.ellHatBytes ≤ 1000 := by
  have := h.lle
  have := h.lam
  unfold Params.ellHatBytes Params.ellHat UNIVERSAL_HASH_B_BITS
  omega

theorem PWF.ellHatBytes_up {P : Params} (h : PWF P) : (P.ellHat + 7) / 8 = P.ellHatBytes := by
  have := h.l8
  have := h.lam
  unfold Params.ellHatBytes Params.ellHat UNIVERSAL_HASH_B_BITS
  omega

theorem PWF.ellHatBytes_pos {P : Params} (h : PWF P) : 0 < P.ellHatBytes := by
  have := h.lpos
  unfold Params.ellHatBytes Params.ellHat UNIVERSAL_HASH_B_BITS
  omega

theorem pV_col {X : XOF} {P : Params} (h : PWF P) {rootKey iv : List Byte} {i j : Nat}
    (hj : j < depth P i) : pV X P rootKey iv (colStart P i + j)
      = voleV (2 ^ depth P i) (pR X P rootKey iv i) j := by
  funext t
  unfold pV
  rw [h.treeOf_col hj, h.posOf_col hj]

theorem vQ_col {X : XOF} {P : Params} (h : PWF P) {iv : List Byte} {ch : Nat → Byte}
    {cop : Nat → Nat → List Byte} {i j : Nat}
    (hj : j < depth P i) : vQ X P iv ch cop (colStart P i + j)
      = voleV (2 ^ depth P i) (vR X P iv ch cop i) j := by
  funext t
  unfold vQ
  rw [h.treeOf_col hj, h.posOf_col hj]

theorem voleCommitStep_ok {X : XOF} {P : Params} (h : PWF P) {rootKey iv : List Byte} {ek : Mem Byte}
    {i : Nat} {s : VoleCommitSt} (hi : i < P.tau) (hiv : iv.length = 16)
    (hek : Has ek 0 (P.lambda / 8 * P.tau) (expand P.lambda iv rootKey))
    (hv : s.v.length = P.lambda) (hidx : s.vIdx = colStart P i) :
    Ok (voleCommitStep X iv P P.ellHatBytes ek i s) (fun s' =>
      s'.vecCom = s.vecCom ++ [pVec X P rootKey iv i] ∧
      s'.ui = s.ui ++ [tabP P.ellHatBytes (pU X P rootKey iv i)] ∧
      s'.v.length = P.lambda ∧ s'.vIdx = colStart P (i + 1) ∧
      s'.ctx = s.ctx ++ comDigest X P.lambda (2 ^ depth P i) (pCom X P rootKey iv i) ∧
      ∀ p, rd s'.v p = if colStart P i ≤ p ∧ p < colStart P (i + 1) then
        some (tabP P.ellHatBytes (pV X P rootKey iv p)) else rd s.v p) := by
  have hlb : 0 < P.lambda / 8 := by have := h.lam; omega
  have hd := h.depth_le i
  have hd1 := h.depth_pos i
  unfold voleCommitStep
  simp only []
  rw [show (if i < P.t0 then P.k0 else P.k1) = depth P i from rfl]
  have hmul : i * (P.lambda / 8) + P.lambda / 8 ≤ P.lambda / 8 * P.tau := by
    rw [← Nat.succ_mul, Nat.mul_comm]; exact Nat.mul_le_mul_left _ hi
  have hk := hek.sub (i * (P.lambda / 8)) (P.lambda / 8) hmul
  rw [Nat.zero_add] at hk
  refine Ok.step (rdN_has hk hlb) ?_
  have hroot : tabP (P.lambda / 8) (fun t => expand P.lambda iv rootKey (i * (P.lambda / 8) + t))
      = treeRoot P rootKey iv i := rfl
  rw [hroot]
  refine Ok.step (a := pVec X P rootKey iv i)
    (vectorCommitment_ok h.lam (treeRoot_length ..) hiv hd1 hd) ?_
  have hcs := PWF.colStart_succ (P := P) i
  have hcm := PWF.colStart_mono (P := P) (i := i + 1) (j := P.tau) hi
  rw [h.colStart_tau] at hcm
  refine Ok.bind (convertToVole_ok (sdv := pSd X P rootKey iv i) h.lam hiv hd hd1
    (by have := h.ellHatBytes_le; omega) ?_ hv (by omega)) ?_
  · intro j hj _
    exact ⟨rd_full hj, leafSd_length ..⟩
  rintro ⟨v', u'⟩ ⟨⟨hl, hv'⟩, hu⟩
  simp only at hl hv' hu ⊢
  rw [if_neg (by simp)] at hu
  refine Ok.step hu (Ok.pure ?_)
  have hR : cvR P.lambda iv (pSd X P rootKey iv i) false = pR X P rootKey iv i := by
    funext j t
    unfold cvR
    rw [if_neg (by simp)]; rfl
  refine ⟨rfl, ?_, hl, ?_, rfl, ?_⟩
  · show s.ui ++ [_] = _
    rw [hR]; rfl
  · show s.vIdx + depth P i = _
    rw [hidx, PWF.colStart_succ]
  · intro p
    show rd v' p = _
    rw [hv', hidx, ← hcs, hR]
    by_cases hc : colStart P i ≤ p ∧ p < colStart P (i + 1)
    · rw [if_pos hc, if_pos hc]
      have hp : p = colStart P i + (p - colStart P i) := by omega
      conv => rhs; rw [hp]
      rw [pV_col h (by omega)]
    · rw [if_neg hc, if_neg hc]

/-- Correction byte `q` of the `tau - 1` correction strings. -/
def corrByte (X : XOF) (P : Params) (rootKey iv : List Byte) (q : Nat) : Byte :=
  pU X P rootKey iv 0 (q % P.ellHatBytes) ^^^ pU X P rootKey iv (q / P.ellHatBytes + 1) (q % P.ellHatBytes)

theorem voleCommit_ok {X : XOF} {P : Params} (h : PWF P) {rootKey iv : List Byte} {dst : Mem Byte}
    {off : Nat} {v : Mem (List Byte)} (hr : rootKey.length = P.lambda / 8) (hiv : iv.length = 16)
    (hv : v.length = P.lambda) (hdst : off + (P.tau - 1) * P.ellHatBytes ≤ dst.length) :
    Ok (voleCommit X rootKey iv P.ellHat P dst off v) (fun s =>
      (s.1.hcom = hcomOf X P (pCom X P rootKey iv) ∧ s.1.vecCom = tabP P.tau (pVec X P rootKey iv) ∧
       s.1.u = tabP P.ellHatBytes (pU X P rootKey iv 0) ∧
       s.1.v = full P.lambda (fun p => tabP P.ellHatBytes (pV X P rootKey iv p))) ∧
      s.2.length = dst.length ∧
      ∀ p, rd s.2 p = if off ≤ p ∧ p < off + (P.tau - 1) * P.ellHatBytes then
        some (corrByte X P rootKey iv (p - off)) else rd dst p) := by
  have hle := h.ellHatBytes_le
  have hpos := h.ellHatBytes_pos
  have htau := h.tau32
  have htaup := h.taupos
  unfold voleCommit
  simp only []
  rw [h.ellHatBytes_up]
  have hm : P.tau * P.ellHatBytes ≤ 32 * 1000 := Nat.mul_le_mul htau hle
  refine Ok.step (a := P.tau * P.ellHatBytes) (by unfold u32; rw [if_pos (by omega)]) ?_
  refine Ok.step (prgL_ok h.lam hr hiv) ?_
  rw [prgL_expand]
  refine Ok.bind (Ok.forN (fun i (s : VoleCommitSt) => s.vecCom = tabP i (pVec X P rootKey iv) ∧
    s.ui = tabP i (fun i => tabP P.ellHatBytes (pU X P rootKey iv i)) ∧ s.v.length = P.lambda ∧
    s.vIdx = colStart P i ∧
    s.ctx = (tabP i fun i => comDigest X P.lambda (2 ^ depth P i) (pCom X P rootKey iv i)).flatten ∧
    ∀ p, p < colStart P i → rd s.v p = some (tabP P.ellHatBytes (pV X P rootKey iv p))) ?_ ?_) ?_
  · refine ⟨rfl, rfl, hv, PWF.colStart_zero.symm, rfl, fun p hp => ?_⟩
    rw [PWF.colStart_zero] at hp; omega
  · rintro i hi s ⟨h1, h2, h3, h4, h5, h6⟩
    refine (voleCommitStep_ok (rootKey := rootKey) h hi hiv (has_tabP _ _) h3 h4).mono ?_
    rintro s' ⟨g1, g2, g3, g4, g5, g6⟩
    refine ⟨?_, ?_, g3, g4, ?_, ?_⟩
    · rw [g1, h1, tabP_succ]
    · rw [g2, h2, tabP_succ]
    · rw [g5, h5, flatten_tabP_succ]
    · intro p hp
      rw [g6]
      by_cases hc : colStart P i ≤ p
      · rw [if_pos ⟨hc, hp⟩]
      · rw [if_neg (by omega), h6 p (by omega)]
  rintro s ⟨h1, h2, h3, h4, h5, h6⟩
  rw [h2]
  refine Ok.step (a := tabP P.ellHatBytes (pU X P rootKey iv 0))
    (by rw [tabP_getElem?, if_pos (by omega)]) ?_
  unfold forR
  refine Ok.bind (Ok.forN (fun i (m : Mem Byte) => m.length = dst.length ∧ ∀ p, rd m p =
    if off ≤ p ∧ p < off + i * P.ellHatBytes then
      some (corrByte X P rootKey iv (p - off)) else rd dst p) ?_ ?_) ?_
  · exact ⟨rfl, fun p => by rw [if_neg (by omega)]⟩
  · rintro i hi m ⟨hl, hm⟩
    refine Ok.step (a := tabP P.ellHatBytes (pU X P rootKey iv (1 + i)))
      (by rw [tabP_getElem?, if_pos (by omega)]) ?_
    refine Ok.step (xorArr_tabP _ _ _) ?_
    have hsm : (i + 1) * P.ellHatBytes = i * P.ellHatBytes + P.ellHatBytes := Nat.succ_mul _ _
    have hle : (i + 1) * P.ellHatBytes ≤ (P.tau - 1) * P.ellHatBytes := Nat.mul_le_mul_right _ hi
    rw [Nat.add_sub_cancel_left]
    refine Ok.wrN (by rw [tabP_length]; omega) ?_
    intro m' hl' hm'
    rw [tabP_length] at hm'
    refine ⟨by omega, fun p => ?_⟩
    rw [hm', hm]
    by_cases hc : off + i * P.ellHatBytes ≤ p ∧ p < off + i * P.ellHatBytes + P.ellHatBytes
    · rw [if_pos hc, if_pos (by omega), tabP_getElem?, if_pos (by omega)]
      have e : p - off = P.ellHatBytes * i + (p - (off + i * P.ellHatBytes)) := by
        rw [Nat.mul_comm]; omega
      have e1 : (p - off) / P.ellHatBytes = i := by
        rw [e, Nat.mul_add_div hpos, Nat.div_eq_of_lt (a := p - _) (by omega), Nat.add_zero]
      have e2 : (p - off) % P.ellHatBytes = p - (off + i * P.ellHatBytes) := by
        rw [e, Nat.mul_add_mod, Nat.mod_eq_of_lt (by omega)]
      unfold corrByte
      rw [e1, e2, Nat.add_comm 1 i]
    · rw [if_neg hc]
      by_cases hc2 : off ≤ p ∧ p < off + i * P.ellHatBytes
      · rw [if_pos hc2, if_pos (by omega)]
      · rw [if_neg hc2, if_neg (by omega)]
  rintro m ⟨hl, hm⟩
  refine Ok.pure ⟨⟨?_, h1, rfl, ?_⟩, hl, hm⟩
  · show H1 X P.lambda s.ctx _ = _
    rw [h5]; rfl
  · refine mem_ext_of_rd h3 fun p hp => ?_
    rw [Nat.zero_add]
    exact h6 p (by rw [h.colStart_tau]; exact hp)

/-! ### vole_reconstruct -/

/-- State invariant of the verifier loop. -/
structure VRecInv (X : XOF) (P : Params) (iv : List Byte) (ch : Nat → Byte)
    (copB : Nat → Nat → Byte) (comB : Nat → Nat → Byte) (i : Nat) (s : VoleRecSt) : Prop where
  k : s.vrec.k.length = 2 ^ (max P.k0 P.k1 + 1) - 1
  com : s.vrec.com.length = 2 ^ max P.k0 P.k1
  seeds : s.vrec.s.length = 2 ^ max P.k0 P.k1
  sd : s.sd.length = 2 ^ max P.k0 P.k1
  q : s.q.length = P.lambda
  idx : s.qIdx = colStart P i
  ctx : s.ctx = (tabP i fun i => comDigest X P.lambda (2 ^ depth P i)
    (vCom X P iv ch (fun i => copPart (P.lambda / 8) (copB i))
      (fun i => tabP (P.lambda / 8 * 2) (comB i)) i)).flatten
  cols : ∀ p, p < colStart P i → rd s.q p = some (tabP P.ellHatBytes
    (vQ X P iv ch (fun i => copPart (P.lambda / 8) (copB i)) p))

theorem depth_le_max (P : Params) (i : Nat) : depth P i ≤ max P.k0 P.k1 := by
  unfold depth; split <;> omega

theorem nat_xor_lt {a b d : Nat} (ha : a < 2 ^ d) (hb : b < 2 ^ d) : Nat.xor a b < 2 ^ d :=
  Nat.xor_lt_two_pow ha hb

theorem nat_xor_ne {a b : Nat} (ha : a ≠ 0) : Nat.xor a b ≠ b := by
  intro h
  have h2 : a ^^^ b = b := h
  have : a ^^^ b ^^^ b = b ^^^ b := by rw [h2]
  rw [Nat.xor_assoc, Nat.xor_self, Nat.xor_zero] at this
  exact ha this

theorem voleRecStep_ok {X : XOF} {P : Params} (h : PWF P) {iv : List Byte} {chall : Mem Byte}
    {ch : Nat → Byte} {pdec comj : Nat → Option (Mem Byte)} {copB comB : Nat → Nat → Byte}
    {i : Nat} {s : VoleRecSt} (hi : i < P.tau) (hiv : iv.length = 16)
    (hch : Has chall 0 (P.lambda / 8) ch)
    (hpd : Ok (pdec i) (fun m => Has m 0 (P.lambda / 8 * depth P i) (copB i)))
    (hcj : Ok (comj i) (fun m => Has m 0 (P.lambda / 8 * 2) (comB i)))
    (hs : VRecInv X P iv ch copB comB i s) :
    Ok (voleRecStep X iv chall pdec comj P P.ellHatBytes i s) (VRecInv X P iv ch copB comB (i + 1)) := by
  have hd := h.depth_le i
  have hd1 := h.depth_pos i
  have hdm := depth_le_max P i
  have hp1 : 2 ^ depth P i ≤ 2 ^ max P.k0 P.k1 := Nat.pow_le_pow_right (by decide) hdm
  have hp2 : 2 ^ (depth P i + 1) ≤ 2 ^ (max P.k0 P.k1 + 1) := Nat.pow_le_pow_right (by decide) (by omega)
  have hpp := Nat.two_pow_pos (depth P i)
  unfold voleRecStep
  simp only []
  rw [show (if i < P.t0 then P.k0 else P.k1) = depth P i from rfl]
  refine Ok.bind (chalDec_ok h hch hi (by simp [MAX_DEPTH])) ?_
  rintro ⟨ret, b⟩ ⟨_, _, hb⟩
  simp only at hb ⊢
  refine Ok.step (numRec_ok hb (by omega)) ?_
  refine Ok.bind hpd ?_
  intro pd hpd
  refine Ok.bind hcj ?_
  intro cj hcj
  refine Ok.bind (vectorReconstruction_ok h.lam hiv hb hpd hcj hd1 hd (by omega) hp1 hs.k hs.com hs.seeds) ?_
  rintro vr ⟨⟨hlk, hlc, hls⟩, hvs, _, _, hvh⟩
  generalize hcop : (fun i => copPart (P.lambda / 8) (copB i)) = cop
  have hcopi : copPart (P.lambda / 8) (copB i) = cop i := by rw [← hcop]
  refine Ok.bind (P := fun sd => sd.length = 2 ^ max P.k0 P.k1 ∧ ∀ j, j < 2 ^ depth P i → j ≠ 0 →
    rd sd j = some (leafSd X P.lambda iv (vNode P iv ch cop i (depth P i)
      (Nat.xor j (leafIdx P ch i))))) ?_ ?_
  · unfold forR
    refine (Ok.forN (fun t sd => sd.length = 2 ^ max P.k0 P.k1 ∧ ∀ j, j < 1 + t → j ≠ 0 →
      rd sd j = some (leafSd X P.lambda iv (vNode P iv ch cop i (depth P i)
        (Nat.xor j (leafIdx P ch i))))) ?_ ?_).mono ?_
    · exact ⟨hs.sd, fun j h1 h2 => by omega⟩
    · rintro t ht sd ⟨hl, hsd⟩
      have hx := hvs (Nat.xor (1 + t) (leafIdx P ch i)) (nat_xor_lt (by omega) hb.1)
        (nat_xor_ne (by omega))
      refine Ok.step hx ?_
      refine Ok.wr (by omega) ?_
      intro m hl' hm
      refine ⟨by omega, fun j h1 h2 => ?_⟩
      rw [hm]
      by_cases hc : j = 1 + t
      · rw [if_pos hc, hc, hcopi]; rfl
      · rw [if_neg hc, hsd j (by omega) h2]
    · rintro sd ⟨hl, hsd⟩
      exact ⟨hl, fun j hj => hsd j (by omega)⟩
  rintro sd ⟨hsl, hsd⟩
  have hcs := PWF.colStart_succ (P := P) i
  have hcm := PWF.colStart_mono (P := P) (i := i + 1) (j := P.tau) hi
  rw [h.colStart_tau] at hcm
  have hidx := hs.idx
  refine Ok.bind (convertToVole_ok (bot := true) (sdv := fun j => leafSd X P.lambda iv
    (vNode P iv ch cop i (depth P i) (Nat.xor j (leafIdx P ch i)))) h.lam hiv hd hd1
    (by have := h.ellHatBytes_le; omega) ?_ hs.q (by omega)) ?_
  · intro j hj hj0
    exact ⟨hsd j hj fun h => by simp [h] at hj0, leafSd_length ..⟩
  rintro ⟨q', u'⟩ ⟨⟨hl, hq'⟩, _⟩
  simp only at hl hq' ⊢
  have hR : cvR P.lambda iv (fun j => leafSd X P.lambda iv
    (vNode P iv ch cop i (depth P i) (Nat.xor j (leafIdx P ch i)))) true = vR X P iv ch cop i := by
    funext j t
    unfold cvR vR
    simp
  rw [hR] at hq'
  refine Ok.pure ⟨hlk, hlc, hls, hsl, hl, ?_, ?_, ?_⟩
  · show s.qIdx + depth P i = _
    rw [hidx, hcs]
  · show s.ctx ++ vr.h = _
    rw [hs.ctx, flatten_tabP_succ, hvh]
    congr 2
  · intro p hp
    show rd q' p = _
    rw [hq', hidx, ← hcs, hcop]
    by_cases hc : colStart P i ≤ p
    · rw [if_pos ⟨hc, hp⟩]
      have hp : p = colStart P i + (p - colStart P i) := by omega
      conv => rhs; rw [hp]
      rw [vQ_col h (by omega)]
    · rw [if_neg (by omega), hs.cols p (by omega), hcop]

theorem voleReconstruct_ok {X : XOF} {P : Params} (h : PWF P) {iv : List Byte} {chall : Mem Byte}
    {ch : Nat → Byte} {pdec comj : Nat → Option (Mem Byte)} {copB comB : Nat → Nat → Byte}
    {q : Mem (List Byte)} (hiv : iv.length = 16) (hch : Has chall 0 (P.lambda / 8) ch)
    (hpd : ∀ i, i < P.tau → Ok (pdec i) (fun m => Has m 0 (P.lambda / 8 * depth P i) (copB i)))
    (hcj : ∀ i, i < P.tau → Ok (comj i) (fun m => Has m 0 (P.lambda / 8 * 2) (comB i)))
    (hq : q.length = P.lambda) :
    voleReconstruct X iv chall pdec comj q P.ellHat P = some
      (hcomOf X P (vCom X P iv ch (fun i => copPart (P.lambda / 8) (copB i))
        (fun i => tabP (P.lambda / 8 * 2) (comB i))),
       full P.lambda (fun p => tabP P.ellHatBytes
        (vQ X P iv ch (fun i => copPart (P.lambda / 8) (copB i)) p))) := by
  have hk0 := h.k0le
  have hk1 := h.k1le
  have hM : max P.k0 P.k1 ≤ 12 := by omega
  have hN := two_pow_le_12 hM
  have hlb : P.lambda / 8 ≤ 32 := by have := h.lam; omega
  apply Ok.eq
  unfold voleReconstruct
  simp only []
  rw [h.ellHatBytes_up]
  refine Ok.step (a := 2 ^ (max P.k0 P.k1 + 1) - 1)
    (by unfold getBinaryTreeNodeCount; rw [if_pos (by omega)]) ?_
  have hm : 2 ^ max P.k0 P.k1 * (P.lambda / 8) ≤ 4096 * 32 := Nat.mul_le_mul hN hlb
  refine Ok.step (a := 2 ^ max P.k0 P.k1 * (P.lambda / 8) * 2) (by unfold u32; rw [if_pos (by omega)]) ?_
  refine Ok.bind (Ok.wr (Q := fun m => m.length = 2 ^ max P.k0 P.k1)
    (by rw [malloc_length]; exact Nat.two_pow_pos _) fun m hl _ => by rw [hl, malloc_length]) ?_
  intro sd hsd
  refine Ok.bind (Ok.forN (VRecInv X P iv ch copB comB) ?_ ?_) ?_
  · exact ⟨by simp, by simp, by simp, hsd, hq, PWF.colStart_zero.symm, rfl, fun p hp => by
      rw [PWF.colStart_zero] at hp; omega⟩
  · intro i hi s hs
    exact voleRecStep_ok h hi hiv hch (hpd i hi) (hcj i hi) hs
  · rintro s hs
    refine Ok.pure ?_
    rw [hs.ctx]
    have : s.q = full P.lambda (fun p => tabP P.ellHatBytes
        (vQ X P iv ch (fun i => copPart (P.lambda / 8) (copB i)) p)) :=
      mem_ext_of_rd hs.q fun p hp => by
        rw [Nat.zero_add]
        exact hs.cols p (by rw [h.colStart_tau]; exact hp)
    rw [this]
    rfl

end Faest
