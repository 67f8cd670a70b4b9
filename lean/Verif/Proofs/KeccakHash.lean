/-
The interface of KeccakHash.h for any suffix and for inputs which are not whole bytes.
-/
import Verif.Model.KeccakHash
import Verif.Spec.Sha3
import Verif.Proofs.ShakeRun

namespace Faest.Keccak
open Spec.Keccak

/-! ### The suffix -/

theorem suffixByte_bit (s : List Bool) (hs : s.length ≤ 7) (i : Nat) :
    (suffixByte s).getLsbD i = (s ++ [true]).getD i false := by
  unfold suffixByte
  rw [BitVec.getLsbD_setWidth, BitVec.getLsbD_ofBoolListLE]
  by_cases h : i < 8
  · simp [h]
  · rw [List.getD_eq_getElem?_getD, List.getElem?_eq_none (by simp; omega)]
    simp [h]

theorem suffixByte_ne {s : List Bool} (hs : s.length ≤ 7) : suffixByte s ≠ 0 := by
  intro h
  have := suffixByte_bit s hs s.length
  rw [h] at this
  simp at this

theorem byte_ge {D : Byte} : 0x80#8 ≤ D ↔ D.getLsbD 7 = true := by
  revert D; decide +kernel

theorem suffixByte_ge {s : List Bool} (hs : s.length ≤ 7) : 0x80#8 ≤ suffixByte s ↔ s.length = 7 := by
  rw [byte_ge, suffixByte_bit s hs]
  constructor
  · intro h
    by_contra hc
    rw [List.getD_eq_getElem?_getD, List.getElem?_eq_none (by simp; omega)] at h
    simp at h
  · intro h
    rw [List.getD_eq_getElem?_getD, List.getElem?_append_right (by omega)]
    simp [h]

theorem bitsOf_one (b : Byte) (l : List Bool) (hl : l.length = 8) (h : ∀ i, i < 8 → b.getLsbD i = l.getD i false) :
    bitsOf [b] = l := by
  apply List.ext_getElem?
  intro i
  by_cases hi : i < 8
  · have h1 : (bitsOf [b])[i]? = some (b.getLsbD i) := by simp [bitsOf, hi]
    rw [h1, h i hi, List.getD_eq_getElem?_getD, List.getElem?_eq_getElem (by omega)]
    rfl
  · rw [List.getElem?_eq_none (by rw [bitsOf_length]; simp; omega), List.getElem?_eq_none (by omega)]

theorem bitsOf_suffix {s : List Bool} (hs : s.length ≤ 7) :
    bitsOf [suffixByte s] = s ++ (true :: List.replicate (7 - s.length) false) := by
  apply bitsOf_one
  · simp; omega
  · intro i hi
    rw [suffixByte_bit s hs]
    simp only [List.getD_eq_getElem?_getD, List.getElem?_append]
    by_cases h : i < s.length
    · simp [h]
    · rw [if_neg h, if_neg h]
      obtain ⟨d, hd⟩ : ∃ d, i - s.length = d := ⟨_, rfl⟩
      rw [hd]
      cases d with
      | zero => rfl
      | succ d =>
        simp [List.getElem?_replicate]
        split <;> rfl

theorem bitsOf_suffix80 {s : List Bool} (hs : s.length ≤ 6) :
    bitsOf [suffixByte s ^^^ 0x80] = s ++ (true :: (List.replicate (6 - s.length) false ++ [true])) := by
  apply bitsOf_one
  · simp; omega
  · intro i hi
    rw [BitVec.getLsbD_xor, suffixByte_bit s (by omega)]
    have h80 : ∀ i < 8, (0x80 : Byte).getLsbD i = decide (i = 7) := by decide
    rw [h80 i hi]
    simp only [List.getD_eq_getElem?_getD, List.getElem?_append]
    by_cases h : i < s.length
    · simp [h, show i ≠ 7 by omega]
    · rw [if_neg h, if_neg h]
      obtain ⟨d, hd⟩ : ∃ d, i - s.length = d := ⟨_, rfl⟩
      rw [hd]
      cases d with
      | zero => simp; omega
      | succ d =>
        rw [List.getElem?_cons_succ, List.getElem?_cons_succ, List.getElem?_append, List.length_replicate]
        by_cases h7 : i = 7
        · rw [if_neg (by omega), show d - (6 - s.length) = 0 by omega]; simp [h7]
        · rw [if_pos (by omega), List.getElem?_replicate, if_pos (by omega)]; simp [h7]

/-! ### The padding -/

/-- The padded end of the input, `q` bytes, the first one with the end of the input in it. -/
def padG (D : Byte) (q : Nat) : List Byte := if q = 1 then [D ^^^ 0x80] else D :: (List.replicate (q - 2) 0 ++ [0x80])

theorem padG_length {D : Byte} {q : Nat} (hq : 0 < q) : (padG D q).length = q := by
  unfold padG
  split
  · simp; omega
  · simp; omega

/-- The number of bytes of the padded end. -/
def padLen (r m k : Nat) : Nat := if k = 7 ∧ m % r = r - 1 then r + 1 else r - m % r

theorem padLen_sum {r : Nat} (hr : 0 < r) (m k : Nat) : ∃ n, m + padLen r m k = r * n := by
  have hm := Nat.mod_lt m hr
  have hd := Nat.div_add_mod m r
  unfold padLen
  split
  · exact ⟨m / r + 2, by rw [Nat.mul_add]; omega⟩
  · exact ⟨m / r + 1, by rw [Nat.mul_add]; omega⟩

theorem padG_eq {r m : Nat} (hr : 0 < r) {s : List Bool} (hs : s.length ≤ 7) :
    s ++ pad101 (8 * r) (8 * m + s.length) = bitsOf (padG (suffixByte s) (padLen r m s.length)) := by
  have hm := Nat.mod_lt m hr
  obtain ⟨n, hn⟩ := padLen_sum hr m s.length
  generalize hq : padLen r m s.length = q at hn
  have hq0 : 0 < q := by rw [← hq]; unfold padLen; split <;> omega
  have hq1 : q ≤ r + 1 := by rw [← hq]; unfold padLen; split <;> omega
  have h8 : s.length + 2 ≤ 8 * q := by
    rw [← hq]; unfold padLen; split <;> omega
  have h9 : 8 * q < 8 * r + s.length + 2 := by
    rw [← hq]; unfold padLen; split <;> omega
  have hj : ((-((8 * m + s.length : Nat) : Int) - 2) % ((8 * r : Nat) : Int)).toNat = 8 * q - s.length - 2 := by
    have e : (-((8 * m + s.length : Nat) : Int) - 2) = ((8 * q - s.length - 2 : Nat) : Int) + ((8 * r : Nat) : Int) * (-(n : Int)) := by
      have h8 : ((8 * r : Nat) : Int) * (-(n : Int)) = -((8 * (m + q) : Nat) : Int) := by
        rw [hn]; push_cast; ring
      rw [h8]
      omega
    rw [e, Int.add_mul_emod_self_left, ← Int.natCast_emod, Nat.mod_eq_of_lt (by omega)]
    rfl
  unfold pad101
  rw [hj]
  unfold padG
  by_cases h1 : q = 1
  · rw [if_pos h1, bitsOf_suffix80 (by omega), show 8 * q - s.length - 2 = 6 - s.length by omega]
  · rw [if_neg h1, show suffixByte s :: (List.replicate (q - 2) 0 ++ [0x80])
        = [suffixByte s] ++ (List.replicate (q - 2) 0 ++ [0x80]) from rfl,
      bitsOf_append, bitsOf_append, bitsOf_zeros, bitsOf_suffix hs]
    rw [show 8 * q - s.length - 2 = (7 - s.length) + (8 * (q - 2) + 7) by omega, List.replicate_add, List.replicate_add]
    simp only [List.append_assoc, List.cons_append]
    rfl

/-- The state after the last bits, coded in the byte `D`. -/
def finG (r : Nat) (s : MSt) (D : Byte) : Nat → Byte :=
  keccakB (xorB (if 0x80#8 ≤ D ∧ s.2 = r - 1 then keccakB (xorB s.1 s.2 1 (fun _ => D)) else xorB s.1 s.2 1 (fun _ => D))
    (r - 1) 1 (fun _ => 0x80))

theorem xor_padG {r : Nat} (s : MSt) (hs : s.2 < r) (D : Byte) :
    xorB s.1 s.2 (r - s.2) (fun i => (padG D (r - s.2)).getD i 0) =
      xorB (xorB s.1 s.2 1 (fun _ => D)) (r - 1) 1 (fun _ => 0x80) := by
  funext t
  unfold xorB
  by_cases ht : s.2 ≤ t ∧ t < s.2 + (r - s.2)
  · rw [if_pos ht]
    unfold padG
    by_cases hq : r - s.2 = 1
    · rw [if_pos hq, if_pos (by omega), if_pos (by omega), show t - s.2 = 0 by omega]
      show s.1 t ^^^ (D ^^^ 0x80#8) = s.1 t ^^^ D ^^^ 0x80#8
      rw [BitVec.xor_assoc]
    · rw [if_neg hq]
      by_cases h0 : t = s.2
      · rw [if_neg (by omega), if_pos (by omega), show t - s.2 = 0 by omega]
        rfl
      · rw [if_neg (by omega : ¬(s.2 ≤ t ∧ t < s.2 + 1)), show t - s.2 = (t - s.2 - 1) + 1 by omega]
        beta_reduce
        rw [List.getD_cons_succ, List.getD_eq_getElem?_getD]
        by_cases hl : t = r - 1
        · rw [if_pos (by omega), List.getElem?_append_right (by simp; omega)]
          rw [List.length_replicate, show t - s.2 - 1 - (r - s.2 - 2) = 0 by omega]
          rfl
        · rw [if_neg (by omega), List.getElem?_append_left (by simp; omega), List.getElem?_replicate,
            if_pos (by omega)]
          simp
  · rw [if_neg ht, if_neg (by omega), if_neg (by omega)]

theorem xor_zeros80 {r : Nat} (hr : 0 < r) (B : Nat → Byte) :
    xorB B 0 r (fun i => (List.replicate (r - 1) (0 : Byte) ++ [0x80]).getD i 0) = xorB B (r - 1) 1 (fun _ => 0x80) := by
  funext t
  unfold xorB
  beta_reduce
  rw [List.getD_eq_getElem?_getD]
  by_cases ht : t < r
  · rw [if_pos (by omega), Nat.sub_zero]
    by_cases hl : t = r - 1
    · rw [if_pos (by omega), List.getElem?_append_right (by simp; omega), List.length_replicate,
        show t - (r - 1) = 0 by omega]
      rfl
    · rw [if_neg (by omega), List.getElem?_append_left (by simp; omega), List.getElem?_replicate, if_pos (by omega)]
      simp
  · rw [if_neg (by omega), if_neg (by omega)]

theorem absorb_suffix {r : Nat} (hr : 0 < r) (M : List Byte) {s : List Bool} (hs : s.length ≤ 7) :
    absorb keccakP (8 * r) (bitsOf M ++ s) = bitsB (finG r (absorbM r (fun _ => 0, 0) M) (suffixByte s)) := by
  have hP : (bitsOf M ++ s) ++ pad101 (8 * r) (bitsOf M ++ s).length
      = bitsOf (M ++ padG (suffixByte s) (padLen r M.length s.length)) := by
    rw [List.append_assoc, List.length_append, bitsOf_length, bitsOf_append]
    congr 1
    exact padG_eq hr hs
  have hm := Nat.mod_lt M.length hr
  obtain ⟨n, hn⟩ := padLen_sum hr M.length s.length
  have hq0 : 0 < padLen r M.length s.length := by unfold padLen; split <;> omega
  have hlen : (M ++ padG (suffixByte s) (padLen r M.length s.length)).length = r * n := by
    rw [List.length_append, padG_length hq0, hn]
  unfold absorb
  dsimp only
  rw [hP, bitsOf_length, hlen, show 8 * (r * n) = 8 * r * n by ring, Nat.mul_div_cancel_left _ (by omega)]
  obtain ⟨B, h1, h2⟩ := absorb_blocks hr (M ++ padG (suffixByte s) (padLen r M.length s.length)) n (by omega)
  rw [h2]
  rw [← hlen, List.take_length, absorbM_append] at h1
  have hidx := absorbM_idx hr M (fun _ => 0, 0) hr
  simp only [Nat.zero_add] at hidx
  generalize absorbM r (fun _ => 0, 0) M = a at h1 hidx
  congr 1
  unfold finG
  by_cases hc : s.length = 7 ∧ M.length % r = r - 1
  · have hL : padLen r M.length s.length = r + 1 := by unfold padLen; rw [if_pos hc]
    rw [hL] at h1
    rw [if_pos ⟨(suffixByte_ge hs).2 hc.1, by omega⟩]
    unfold padG at h1
    rw [if_neg (by omega), show r + 1 - 2 = r - 1 by omega] at h1
    have hst : absStep r a (suffixByte s) = (keccakB (xorB a.1 a.2 1 (fun _ => suffixByte s)), 0) := by
      unfold absStep; rw [if_pos (by omega)]
    have h3 : absorbM r a (suffixByte s :: (List.replicate (r - 1) 0 ++ [0x80])) =
        absorbM r (keccakB (xorB a.1 a.2 1 (fun _ => suffixByte s)), 0) (List.replicate (r - 1) 0 ++ [0x80]) := by
      rw [← hst]; rfl
    have hl : (List.replicate (r - 1) (0 : Byte) ++ [0x80]).length = r := by simp; omega
    rw [h3, absorbM_full _ _ (by rw [hl]; simp) (by omega), hl] at h1
    have h4 := (Prod.ext_iff.1 h1).1
    dsimp only at h4
    rw [← h4, xor_zeros80 hr]
  · have hL : padLen r M.length s.length = r - M.length % r := by unfold padLen; rw [if_neg hc]
    rw [hL] at h1
    rw [if_neg (by rw [suffixByte_ge hs]; omega)]
    have hpl := padG_length (D := suffixByte s) (q := r - M.length % r) (by omega)
    rw [absorbM_full _ a (by omega) (by omega), hpl, ← hidx] at h1
    have h4 := (Prod.ext_iff.1 h1).1
    dsimp only at h4
    rw [← h4, xor_padG a (by omega)]

theorem spongeLastG_ok {r : Nat} (hr0 : 0 < r) (hr200 : r ≤ 200) {s : MSt} {inst : SpongeInstance}
    (h : AOk r s inst) {b : Byte} (hb : b ≠ 0) :
    Ok (spongeAbsorbLastFewBits inst b) (fun x => x.2 = true ∧ x.1.byteIOIndex = 0 ∧ QOk r (finG r s b) 0 x.1) := by
  unfold spongeAbsorbLastFewBits
  have hrate : inst.rate / 8 = r := by rw [h.rate]; omega
  dsimp only
  rw [hrate, if_neg hb, h.sq]
  have hu : uint (r + 2 ^ 32 - 1) = r - 1 := by unfold uint; omega
  have hlt := h.lt
  simp only [Bool.false_eq_true, if_false]
  rw [h.idx, hu]
  refine Ok.bind (addByte_ok h.has (by omega) b) ?_
  intro st1 h1
  have fin : ∀ st2 : Mem U64, SOk st1 0 (if 0x80#8 ≤ b ∧ s.2 = r - 1 then keccakB (xorB s.1 s.2 1 (fun _ => b)) else xorB s.1 s.2 1 (fun _ => b)) st2 →
      Ok (do
        let st ← addByte st2 0 0x80 (r - 1)
        let st ← permute24 st 0
        pure (({ state := st, rate := inst.rate, byteIOIndex := 0, squeezing := true } : SpongeInstance), true))
        (fun x => x.2 = true ∧ x.1.byteIOIndex = 0 ∧ QOk r (finG r s b) 0 x.1) := by
    intro st2 h2
    refine Ok.bind (addByte_ok h2.has (by omega) 0x80) ?_
    intro st3 h3
    refine Ok.bind (permute24_ok h3.has) ?_
    intro st4 h4
    exact Ok.pure ⟨rfl, rfl, ⟨0, by simp, h4.has⟩, h4.len.trans (h3.len.trans (h2.len.trans (h1.len.trans h.len))), h.rate,
      Nat.zero_le _, rfl⟩
  by_cases hc : 0x80#8 ≤ b ∧ s.2 = r - 1
  · rw [if_pos hc] at fin ⊢
    exact Ok.bind (permute24_ok h1.has) fin
  · rw [if_neg hc] at fin ⊢
    exact Ok.bind (Ok.pure (SOk.refl h1.has)) fin

/-! ### The last bits of the input -/

theorem last_bit {b : Byte} {s : List Bool} (hs : s.length ≤ 7) {t : Nat} (ht : t < 8) {i : Nat} (hi : i < 16) :
    (delimitedLastBytes b (suffixByte s) t).getLsbD i = (((bitsOf [b]).take t ++ s) ++ [true]).getD i false := by
  have hbl : (bitsOf [b]).length = 8 := by rw [bitsOf_length]; rfl
  have htl : ((bitsOf [b]).take t).length = t := by rw [List.length_take, hbl]; omega
  unfold delimitedLastBytes
  rw [BitVec.getLsbD_or, BitVec.getLsbD_and, BitVec.getLsbD_shiftLeft, BitVec.getLsbD_setWidth, BitVec.getLsbD_setWidth,
    BitVec.getLsbD_ofNat, Nat.one_shiftLeft, Nat.testBit_two_pow_sub_one, suffixByte_bit s hs, List.append_assoc]
  simp only [List.getD_eq_getElem?_getD]
  by_cases h : i < t
  · rw [List.getElem?_append_left (l₁ := (bitsOf [b]).take t) (by omega), List.getElem?_take, if_pos h]
    have hb := bitsOf_getD [b] i
    rw [List.getD_eq_getElem?_getD, show i / 8 = 0 by omega, show i % 8 = i by omega] at hb
    rw [hb]
    simp [h, hi]
  · rw [List.getElem?_append_right (l₁ := (bitsOf [b]).take t) (by omega), htl]
    simp [h, hi]
    intro _
    omega

theorem low_bit (x : BitVec 16) (i : Nat) : ((x &&& 0xFF).setWidth 8).getLsbD i = (decide (i < 8) && x.getLsbD i) := by
  have h : ∀ i < 8, (0xFF : BitVec 16).getLsbD i = true := by decide
  rw [BitVec.getLsbD_setWidth, BitVec.getLsbD_and]
  by_cases hi : i < 8
  · rw [h i hi]; simp
  · simp [hi]

theorem high_bit (x : BitVec 16) (i : Nat) : (((x >>> 8) &&& 0xFF).setWidth 8).getLsbD i = (decide (i < 8) && x.getLsbD (8 + i)) := by
  rw [low_bit, BitVec.getLsbD_ushiftRight]

theorem and_high (x : BitVec 16) : x &&& 0xFF00 = 0x0000 ↔ ∀ i, 8 ≤ i → i < 16 → x.getLsbD i = false := by
  have h0 : ∀ i < 16, (0xFF00 : BitVec 16).getLsbD i = decide (8 ≤ i) := by decide
  constructor
  · intro h i h1 h2
    have := congrArg (fun y => y.getLsbD i) h
    simp only [BitVec.getLsbD_and] at this
    rw [h0 i h2] at this
    simpa [h1] using this
  · intro h
    apply BitVec.eq_of_getLsbD_eq
    intro i hi
    rw [BitVec.getLsbD_and, h0 i hi]
    by_cases h1 : 8 ≤ i
    · rw [h i h1 hi]; simp
    · simp [h1]

theorem last_short {b : Byte} {s : List Bool} (hs : s.length ≤ 7) {t : Nat} (ht : t < 8) (h : t + s.length ≤ 7) :
    delimitedLastBytes b (suffixByte s) t &&& 0xFF00 = 0x0000 ∧
      (delimitedLastBytes b (suffixByte s) t &&& 0xFF).setWidth 8 = suffixByte ((bitsOf [b]).take t ++ s) := by
  have hbl : (bitsOf [b]).length = 8 := by rw [bitsOf_length]; rfl
  have hxl : ((bitsOf [b]).take t ++ s).length = t + s.length := by rw [List.length_append, List.length_take, hbl]; omega
  constructor
  · rw [and_high]
    intro i h1 h2
    rw [last_bit hs ht h2, List.getD_eq_getElem?_getD, List.getElem?_eq_none (by rw [List.length_append, hxl]; simp; omega)]
    rfl
  · apply BitVec.eq_of_getLsbD_eq
    intro i hi
    rw [low_bit, suffixByte_bit _ (by omega), last_bit hs ht (by omega)]
    simp [hi]

theorem last_long {b : Byte} {s : List Bool} (hs : s.length ≤ 7) {t : Nat} (ht : t < 8) (h : 8 ≤ t + s.length) :
    ¬ delimitedLastBytes b (suffixByte s) t &&& 0xFF00 = 0x0000 ∧
      bitsOf [(delimitedLastBytes b (suffixByte s) t &&& 0xFF).setWidth 8] = ((bitsOf [b]).take t ++ s).take 8 ∧
      ((delimitedLastBytes b (suffixByte s) t >>> 8) &&& 0xFF).setWidth 8 = suffixByte (((bitsOf [b]).take t ++ s).drop 8) := by
  have hbl : (bitsOf [b]).length = 8 := by rw [bitsOf_length]; rfl
  have hxl : ((bitsOf [b]).take t ++ s).length = t + s.length := by rw [List.length_append, List.length_take, hbl]; omega
  refine ⟨?_, ?_, ?_⟩
  · rw [and_high]
    intro hc
    have := hc (t + s.length) h (by omega)
    rw [last_bit hs ht (by omega), List.getD_eq_getElem?_getD, List.getElem?_append_right (by omega), hxl] at this
    simp at this
  · apply bitsOf_one
    · rw [List.length_take, hxl]; omega
    · intro i hi
      rw [low_bit, last_bit hs ht (by omega), List.getD_eq_getElem?_getD, List.getD_eq_getElem?_getD,
        List.getElem?_append_left (by omega), List.getElem?_take, if_pos hi]
      simp [hi]
  · apply BitVec.eq_of_getLsbD_eq
    intro i hi
    rw [high_bit, suffixByte_bit _ (by rw [List.length_drop, hxl]; omega), last_bit hs ht (by omega)]
    have hd : ((bitsOf [b]).take t ++ s).drop 8 ++ [true] = (((bitsOf [b]).take t ++ s) ++ [true]).drop 8 :=
      (List.drop_append_of_le_length (by rw [hxl]; exact h)).symm
    rw [hd, List.getD_eq_getElem?_getD, List.getD_eq_getElem?_getD, List.getElem?_drop]
    simp [hi]

/-! ### Rates which are not whole lanes -/

theorem absorbBlocks_ok {r : Nat} (hr0 : 0 < r) (hr200 : r ≤ 200) :
    ∀ fuel (l : List Byte) (st : Mem U64) (data : Mem Byte) (B : Nat → Byte), l.length < fuel → Has st 0 25 (packL B) → Data data l →
      Ok (absorbBlocks r fuel st data l.length) (fun x => x.2 = l.length % r ∧ ∃ B', SOk st 0 B' x.1 ∧
        absorbM r (B, 0) (l.take (l.length - l.length % r)) = (B', 0)) := by
  intro fuel
  induction fuel with
  | zero => intro l _ _ _ h; omega
  | succ f ih =>
    intro l st data B hf h hd
    unfold absorbBlocks
    have hl := hd.len
    by_cases e : l.length ≥ r
    · rw [if_pos e]
      refine Ok.bind (addBytes_ok h (hd.take (i := r) e) (by omega) (by omega)) ?_
      intro st1 h1
      refine Ok.bind (permute24_ok h1.has) ?_
      intro st2 h2
      refine Ok.step (ptr_eq (by omega)) ?_
      have hlen : (l.drop r).length = l.length - r := by simp
      have := ih (l.drop r) st2 _ _ (by omega) h2.has (hd.drop e)
      rw [hlen] at this
      refine this.mono ?_
      rintro ⟨st3, j⟩ ⟨h3, B', h4, h5⟩
      dsimp only at h3 h4 ⊢
      have hm : (l.length - r) % r = l.length % r := by
        conv_rhs => rw [show l.length = l.length - r + r by omega, Nat.add_mod_right]
      have hmle : (l.length - r) % r ≤ l.length - r := Nat.mod_le _ _
      rw [hm] at h3 h5 hmle
      refine ⟨h3, B', (h1.trans h2).trans h4, ?_⟩
      have htl : (l.take r).length = r := by rw [List.length_take]; omega
      rw [show l.length - l.length % r = r + (l.length - r - l.length % r) by omega, List.take_add, absorbM_append,
        absorbM_full (l.take r) (B, 0) (by rw [htl]; simp) (by omega), htl]
      exact h5
    · rw [if_neg e]
      have hm : l.length % r = l.length := Nat.mod_eq_of_lt (by omega)
      refine Ok.some ⟨hm.symm, B, SOk.refl h, ?_⟩
      rw [hm, Nat.sub_self]
      rfl

theorem absorbLoopAny_ok {w r : Nat} (hr0 : 0 < r) (hr200 : r ≤ 200) {data : Mem Byte}
    {l : List Byte} (hd : Data data l) (hw : l.length + r < 2 ^ w) (s : MSt) :
    ∀ fuel i inst, l.length - i < fuel → i ≤ l.length → AOk r (absorbM r s (l.take i)) inst →
      ((absorbM r s (l.take i)).2 = 0 ∨ Fits r (absorbM r s (l.take i)).2 (l.length - i)) →
      Ok (absorbLoop w data l.length fuel inst i) (AOk r (absorbM r s l)) := by
  intro fuel
  induction fuel with
  | zero => intro i _ h; omega
  | succ k ih =>
    intro i inst hf hi h hc
    unfold absorbLoop
    have hrate : inst.rate / 8 = r := by rw [h.rate]; omega
    dsimp only
    rw [hrate]
    have hl := hd.len
    by_cases e : i < l.length
    · rw [if_pos e]
      refine Ok.step (ptr_eq (by omega)) ?_
      have hd' := hd.drop (i := i) (by omega)
      have hlen : (l.drop i).length = l.length - i := by simp
      have hsz : sizeT w (i + r) = i + r := sizeT_eq (by omega)
      rw [hsz]
      generalize hs : absorbM r s (l.take i) = s1 at h hc
      obtain ⟨B, idx⟩ := s1
      have hidx := h.idx
      have hlt := h.lt
      dsimp only at hidx hlt hc
      rw [hidx]
      by_cases e2 : idx = 0 ∧ l.length ≥ i + r
      · rw [if_pos e2]
        obtain ⟨rfl, e3⟩ := e2
        have hmod : (l.length - i) % r < r := Nat.mod_lt _ hr0
        have hle : (l.length - i) % r ≤ l.length - i := Nat.mod_le _ _
        have next : ∀ st B', SOk inst.state 0 B' st →
            absorbM r (B, 0) ((l.drop i).take (l.length - i - (l.length - i) % r)) = (B', 0) →
            Ok (absorbLoop w data l.length k { inst with state := st, byteIOIndex := 0 } (i + (l.length - i - (l.length - i) % r)))
              (AOk r (absorbM r s l)) := by
          intro st B' h3 h4
          generalize hj : l.length - i - (l.length - i) % r = j at h4 ⊢
          have ej : absorbM r s (l.take (i + j)) = (B', 0) := by
            rw [List.take_add, absorbM_append, hs, h4]
          refine ih (i + j) _ (by omega) (by omega) ?_ ?_
          · rw [ej]
            exact ⟨h3.has, h3.len.trans h.len, h.rate, rfl, hr0, h.sq⟩
          · rw [ej]; exact Or.inl rfl
        by_cases hr8 : r % 8 = 0
        · rw [if_pos hr8]
          have := fastLoopAbsorb_ok (r := r) (lc := r / 8) (by omega) hr0 h.has hd'
          rw [hlen] at this
          refine Ok.bind this ?_
          rintro ⟨st, j⟩ ⟨h2, B', h3, h4⟩
          dsimp only at h2 h3 ⊢
          subst h2
          rw [sizeT_eq (by omega)]
          exact next st B' h3 h4
        · rw [if_neg hr8]
          have := absorbBlocks_ok hr0 hr200 (l.length + 1) (l.drop i) inst.state (data.drop i) B (by omega) h.has hd'
          rw [hlen] at this
          refine Ok.bind this ?_
          rintro ⟨st, j⟩ ⟨h2, B', h3, h4⟩
          dsimp only at h2 h3 ⊢
          subst h2
          rw [show l.length - (l.length - i) % r = i + (l.length - i - (l.length - i) % r) by omega]
          exact next st B' h3 h4
      · rw [if_neg e2]
        have hpb : partialBlock r idx (l.length - i) = min (l.length - i) (r - idx) := by
          apply partialBlock_eq <;> unfold Fits at * <;> omega
        rw [hpb]
        generalize hn : min (l.length - i) (r - idx) = n
        have hn1 : 0 < n := by omega
        have hn2 : n ≤ l.length - i := by omega
        have hn3 : idx + n ≤ r := by omega
        have hd2 := hd'.take (i := n) (by omega)
        refine Ok.bind (addBytes_ok h.has hd2 (by simp; omega) (by omega)) ?_
        intro st' hst
        rw [uint_eq (by omega : idx + n < 2 ^ 32), sizeT_eq (by omega : i + n < 2 ^ w)]
        have hstep : absorbM r s (l.take (i + n)) = absorbM r (B, idx) ((l.drop i).take n) := by
          rw [List.take_add, absorbM_append, hs]
        have htl : ((l.drop i).take n).length = n := by simp; omega
        by_cases e3 : idx + n = r
        · rw [if_pos e3]
          have ej := absorbM_full (r := r) ((l.drop i).take n) (B, idx) (by rw [htl]; exact e3) (by omega)
          rw [htl, ← hstep] at ej
          refine Ok.bind (permute24_ok hst.has) ?_
          intro st2 hst2
          refine ih (i + n) _ (by omega) (by omega) ?_ ?_
          · rw [ej]
            exact ⟨hst2.has, hst2.len.trans (hst.len.trans h.len), h.rate, rfl, hr0, h.sq⟩
          · rw [ej]; exact Or.inl rfl
        · rw [if_neg e3]
          have ej := absorbM_part (r := r) ((l.drop i).take n) (B, idx) (by rw [htl]; simp only []; omega)
          rw [htl, ← hstep] at ej
          refine ih (i + n) _ (by omega) (by omega) ?_ ?_
          · rw [ej]
            exact ⟨hst.has, hst.len.trans h.len, h.rate, rfl, by simp only []; omega, h.sq⟩
          · rw [ej]; right; unfold Fits at *; simp only []; omega
    · rw [if_neg e]
      rw [show i = l.length by omega, List.take_length] at h
      exact Ok.some h

theorem spongeAbsorbAny_ok {w r : Nat} (hr0 : 0 < r) (hr200 : r ≤ 200) {data : Mem Byte}
    {l : List Byte} (hd : Data data l) (hw : l.length + r < 2 ^ w) {s : MSt} {inst : SpongeInstance}
    (h : AOk r s inst) (hc : s.2 = 0 ∨ Fits r s.2 l.length) :
    Ok (spongeAbsorb w inst data l.length) (fun x => AOk r (absorbM r s l) x.1 ∧ x.2 = true) := by
  unfold spongeAbsorb
  rw [h.sq]
  simp only [Bool.false_eq_true, if_false]
  refine Ok.bind (absorbLoopAny_ok hr0 hr200 hd hw s _ 0 inst (by omega) (by omega) h ?_) ?_
  · rw [List.take_zero, Nat.sub_zero]; exact hc
  · intro inst' h'
    exact Ok.pure ⟨h', rfl⟩

/-! ### The functions -/

/-- The context has taken in the bytes `M` and the bits `s` are to follow at the end; `n` bytes are wanted. -/
structure GAbs (r n : Nat) (M : List Byte) (s : List Bool) (ctx : HashInstance) : Prop where
  sp : AOk r (absorbM r (fun _ => 0, 0) M) ctx.sponge
  fixed : ctx.fixedOutputLength = 8 * n
  suffix : ctx.delimitedSuffix = suffixByte s
  le : s.length ≤ 7

theorem initialize_ok {ctx : HashInstance} (hl : ctx.sponge.state.length = 25) {r : Nat} (hr : 0 < r) (hr2 : r ≤ 200)
    {cap : Nat} (hc : 8 * r + cap = 1600) (n : Nat) {s : List Bool} (hs : s.length ≤ 7) :
    Ok (hashInitialize ctx (8 * r) cap (8 * n) (suffixByte s)) (fun x => x.2 = true ∧ GAbs r n [] s x.1) := by
  unfold hashInitialize
  rw [if_neg (suffixByte_ne hs)]
  refine Ok.bind (spongeInit_ok hl hr hr2 hc) ?_
  rintro ⟨sp, ok⟩ ⟨rfl, h⟩
  exact Ok.pure ⟨rfl, h, rfl, rfl, hs⟩

theorem small_lt {w n r : Nat} (hw : 32 ≤ w) (hr : r < 200) (h : 8 * n < 2 ^ w) : n + r < 2 ^ w := by
  have : 2 ^ 32 ≤ 2 ^ w := Nat.pow_le_pow_right (by omega) hw
  omega

theorem absorb_ok {w r : Nat} (hw : 32 ≤ w) (hr : 0 < r) (hr2 : r < 200) {sp : SpongeInstance} {M : List Byte}
    (h : AOk r (absorbM r (fun _ => 0, 0) M) sp) {data : Mem Byte} {l : List Byte} (hd : Data data l) (hs : Small w l.length) :
    Ok (spongeAbsorb w sp data l.length) (fun x => AOk r (absorbM r (fun _ => 0, 0) (M ++ l)) x.1 ∧ x.2 = true) := by
  rw [absorbM_append]
  refine spongeAbsorbAny_ok hr (by omega) hd (small_lt hw hr2 hs.2) h (Or.inr (Or.inl ?_))
  have := h.lt
  have := hs.1
  omega

theorem updateBytes_ok {w r n : Nat} (hw : 32 ≤ w) (hr : 0 < r) (hr2 : r < 200) {M : List Byte} {s : List Bool}
    {ctx : HashInstance} (h : GAbs r n M s ctx) {data : Mem Byte} {l : List Byte} (hd : Data data l) (hs : Small w l.length) :
    Ok (keccakHashUpdate w ctx data (8 * l.length)) (fun x => x.2 = true ∧ GAbs r n (M ++ l) s x.1) := by
  unfold keccakHashUpdate hashUpdateBits
  rw [if_pos (by omega), if_pos (by omega), Nat.mul_div_cancel_left _ (by omega : 0 < 8)]
  refine Ok.bind (absorb_ok hw hr hr2 h.sp hd hs) ?_
  rintro ⟨sp, ok⟩ ⟨h1, rfl⟩
  exact Ok.pure ⟨rfl, h1, h.fixed, h.suffix, h.le⟩

theorem updates_ok {w r n : Nat} (hw : 32 ≤ w) (hr : 0 < r) (hr2 : r < 200) {s : List Bool}
    (chunks : List (List Byte)) : ∀ {M : List Byte} {ctx : HashInstance}, GAbs r n M s ctx →
      (∀ c ∈ chunks, Small w c.length) → Ok (runKeccakUpdates w ctx chunks) (GAbs r n (M ++ chunks.flatten) s) := by
  induction chunks with
  | nil => intro M ctx h _; rw [List.flatten_nil, List.append_nil]; exact Ok.some h
  | cons c cs ih =>
    intro M ctx h hs
    refine Ok.bind (updateBytes_ok hw hr hr2 h (data_ofList c) (hs c (by simp))) ?_
    rintro ⟨ctx', ok⟩ ⟨rfl, h'⟩
    rw [List.flatten_cons, ← List.append_assoc]
    exact ih h' fun c' hc' => hs c' (by simp [hc'])

theorem bitsOf_take (l : List Byte) (k : Nat) : bitsOf (l.take k) = (bitsOf l).take (8 * k) := by
  by_cases h : k ≤ l.length
  · conv_rhs => rw [← List.take_append_drop k l, bitsOf_append]
    rw [List.take_append_of_le_length (by rw [bitsOf_length, List.length_take]; omega)]
    exact (List.take_of_length_le (by rw [bitsOf_length, List.length_take]; omega)).symm
  · rw [List.take_of_length_le (by omega), List.take_of_length_le (by rw [bitsOf_length]; omega)]

theorem bitsOf_takeBits (l : List Byte) {b : Nat} (h : b / 8 < l.length) :
    (bitsOf l).take b = bitsOf (l.take (b / 8)) ++ (bitsOf [l.getD (b / 8) 0]).take (b % 8) := by
  have hl : l = l.take (b / 8) ++ ([l.getD (b / 8) 0] ++ l.drop (b / 8 + 1)) := by
    conv_lhs => rw [← List.take_append_drop (b / 8) l, List.drop_eq_getElem_cons h]
    rw [List.getD_eq_getElem?_getD, List.getElem?_eq_getElem h]
    rfl
  conv_lhs => rw [hl, bitsOf_append, bitsOf_append]
  have h1 : (bitsOf (l.take (b / 8))).length = 8 * (b / 8) := by rw [bitsOf_length, List.length_take]; omega
  rw [List.take_append, List.take_of_length_le (by omega), h1, show b - 8 * (b / 8) = b % 8 by omega]
  congr 1
  rw [List.take_append_of_le_length (by rw [bitsOf_length]; simp; omega)]

theorem updateBits_ok {w r n : Nat} (hw : 32 ≤ w) (hr : 0 < r) (hr2 : r < 200) {M : List Byte} {s : List Bool}
    {ctx : HashInstance} (h : GAbs r n M s ctx) {l : List Byte} {b : Nat} (hb : b ≤ 8 * l.length) (hs : Small w (b / 8)) :
    Ok (keccakHashUpdate w ctx (ofList l) b) (fun x => x.2 = true ∧
      ∃ M' s', GAbs r n M' s' x.1 ∧ bitsOf M' ++ s' = bitsOf M ++ (bitsOf l).take b ++ s) := by
  have htl : (l.take (b / 8)).length = b / 8 := by rw [List.length_take]; omega
  have hd : Data (ofList l) (l.take (b / 8)) := by
    refine ⟨?_, by rw [htl]; simp; omega⟩
    rw [htl]
    exact (data_ofList l).take (by omega)
  have hab := absorb_ok hw hr hr2 h.sp hd (by rw [htl]; exact hs)
  rw [htl] at hab
  unfold keccakHashUpdate
  by_cases h8 : b % 8 = 0
  · rw [if_pos h8]
    unfold hashUpdateBits
    rw [if_pos h8]
    refine Ok.bind hab ?_
    rintro ⟨sp, ok⟩ ⟨h1, rfl⟩
    refine Ok.pure ⟨rfl, _, s, ⟨h1, h.fixed, h.suffix, h.le⟩, ?_⟩
    rw [bitsOf_append, bitsOf_take, show 8 * (b / 8) = b by omega]
  · rw [if_neg h8]
    refine Ok.bind hab ?_
    rintro ⟨sp, ok⟩ ⟨h1, rfl⟩
    have hlt : b / 8 < l.length := by omega
    have hrd : rd (ofList l) (b / 8) = some (l.getD (b / 8) 0) := by
      have := (data_ofList l).has (b / 8) hlt
      rwa [Nat.zero_add] at this
    have hT := bitsOf_takeBits l hlt
    simp only [if_true]
    refine Ok.step hrd ?_
    rw [h.suffix]
    by_cases hk : b % 8 + s.length ≤ 7
    · obtain ⟨e1, e2⟩ := last_short (b := l.getD (b / 8) 0) h.le (by omega : b % 8 < 8) hk
      rw [if_pos e1, e2]
      refine Ok.pure ⟨rfl, _, (bitsOf [l.getD (b / 8) 0]).take (b % 8) ++ s, ⟨h1, h.fixed, rfl, ?_⟩, ?_⟩
      · rw [List.length_append, List.length_take]; omega
      · rw [bitsOf_append, hT]; simp only [List.append_assoc]
    · obtain ⟨e1, e2, e3⟩ := last_long (b := l.getD (b / 8) 0) h.le (by omega : b % 8 < 8) (by omega)
      rw [if_neg e1, e3]
      generalize (delimitedLastBytes (l.getD (b / 8) 0) (suffixByte s) (b % 8) &&& 0xFF).setWidth 8 = one at e2
      refine Ok.bind (absorb_ok hw hr hr2 h1 (data_ofList [one]) (small_of_lt hw (by simp))) ?_
      rintro ⟨sp2, ok⟩ ⟨h2, rfl⟩
      refine Ok.pure ⟨rfl, _, ((bitsOf [l.getD (b / 8) 0]).take (b % 8) ++ s).drop 8, ⟨h2, h.fixed, rfl, ?_⟩, ?_⟩
      · have := h.le
        rw [List.length_drop, List.length_append, List.length_take]; omega
      · rw [bitsOf_append, bitsOf_append, e2, hT]
        simp only [List.append_assoc]
        rw [List.take_append_drop]

theorem finalBits_ok {w r n : Nat} (hw : 32 ≤ w) (hr : 0 < r) (hr2 : r < 200) {M : List Byte} {s : List Bool}
    {ctx : HashInstance} (h : GAbs r n M s ctx) (hs : Small w n) :
    Ok (hashFinalBits w ctx (malloc n)) (fun x => QOk r (finG r (absorbM r (fun _ => 0, 0) M) (suffixByte s)) n x.1.sponge ∧
      rdN x.2 0 n = some (tabP n (sqByte r (finG r (absorbM r (fun _ => 0, 0) M) (suffixByte s))))) := by
  unfold hashFinalBits
  rw [h.suffix, h.fixed, Nat.mul_div_cancel_left _ (by omega : 0 < 8)]
  refine Ok.bind (spongeLastG_ok hr (by omega) h.sp (suffixByte_ne h.le)) ?_
  rintro ⟨sp, ok⟩ ⟨rfl, h1, h2⟩
  dsimp only at h1 h2 ⊢
  simp only [if_true]
  refine Ok.bind (spongeSqueeze_ok hr hr2 (data := malloc n) (n := n) (by simp) (small_lt hw hr2 hs.2) h2
    (Or.inr (Or.inl (by have := hs.1; omega)))) ?_
  rintro ⟨sp', out⟩ ⟨h3, h4⟩
  rw [Nat.zero_add] at h3
  refine Ok.pure ⟨h3, ?_⟩
  have := wrote_rdN h4 (by simp)
  simpa only [Nat.zero_add] using this

theorem squeezes_ok {w r : Nat} (hw : 32 ≤ w) (hr : 0 < r) (hr2 : r < 200) {B : Nat → Byte} (outs : List Nat) :
    ∀ {p : Nat} {ctx : HashInstance}, QOk r B p ctx.sponge → (∀ n ∈ outs, Small w n) →
      Ok (runKeccakSqueezes w ctx outs) (fun x => x.map List.length = outs ∧
        x.flatten = tabP outs.sum (fun i => sqByte r B (p + i))) := by
  induction outs with
  | nil => intro p ctx _ _; exact Ok.some ⟨rfl, rfl⟩
  | cons n ns ih =>
    intro p ctx h hs
    have hq : Ok (hashSqueezeBits w ctx (malloc n) (8 * n)) (fun x => QOk r B (p + n) x.1.sponge ∧
        Wrote (malloc n) 0 n (fun j => sqByte r B (p + j)) x.2) := by
      unfold hashSqueezeBits
      rw [if_neg (by omega), Nat.mul_div_cancel_left _ (by omega : 0 < 8)]
      have hn := hs n (by simp)
      refine Ok.bind (spongeSqueeze_ok hr hr2 (by simp) (small_lt hw hr2 hn.2) h
        (Or.inr (Or.inl (by have := hn.1; have := h.le; omega)))) ?_
      rintro ⟨sp, out⟩ h1
      exact Ok.pure h1
    refine Ok.bind hq ?_
    rintro ⟨ctx', buf⟩ ⟨h1, h2⟩
    refine Ok.step (wrote_rdN h2 (by simp)) ?_
    refine Ok.bind (ih h1 fun n' hn' => hs n' (by simp [hn'])) ?_
    rintro xs ⟨h3, h4⟩
    refine Ok.pure ⟨?_, ?_⟩
    · rw [List.map_cons, h3]; congr 1; simp [tabP]
    · rw [List.flatten_cons, h4, List.sum_cons, tabP_add]
      congr 1
      apply tabP_congr
      intro i _
      rw [Nat.add_assoc]

/-- The whole program. -/
theorem runKeccak_ok {w r : Nat} (hw : 32 ≤ w) (hr : 0 < r) (hr2 : r < 200) {cap n : Nat}
    (hc : 8 * r + cap = 1600) {s : List Bool} (hs : s.length ≤ 7) (chunks : List (List Byte)) (last : List Byte) {b : Nat}
    (hb : b ≤ 8 * last.length) (outs : List Nat) (h1 : ∀ c ∈ chunks, Small w c.length) (h2 : Small w (b / 8)) (h3 : Small w n)
    (h4 : ∀ n ∈ outs, Small w n) :
    Ok (runKeccak w ⟨8 * r, cap, 8 * n, suffixByte s⟩ chunks last b outs) (fun x => x.1.length = n ∧ x.2.map List.length = outs ∧
      x.1 ++ x.2.flatten =
        bytesOf (sponge keccakP (8 * r) (bitsOf chunks.flatten ++ (bitsOf last).take b ++ s) (8 * (n + outs.sum)))) := by
  unfold runKeccak
  dsimp only
  rw [Nat.mul_div_cancel_left _ (by omega : 0 < 8)]
  refine Ok.bind (initialize_ok (by simp [hashFresh]) hr (by omega) hc n hs) ?_
  rintro ⟨ctx, ok⟩ ⟨rfl, g0⟩
  simp only [if_true]
  refine Ok.bind (updates_ok hw hr hr2 chunks g0 h1) ?_
  intro ctx g1
  rw [List.nil_append] at g1
  refine Ok.bind (updateBits_ok hw hr hr2 g1 hb h2) ?_
  rintro ⟨ctx, ok⟩ ⟨rfl, M', s', g2, e⟩
  dsimp only at g2 ⊢
  simp only [if_true]
  refine Ok.bind (finalBits_ok hw hr hr2 g2 h3) ?_
  rintro ⟨ctx, hash⟩ ⟨g3, g4⟩
  refine Ok.step g4 ?_
  refine Ok.bind (squeezes_ok hw hr hr2 outs g3 h4) ?_
  rintro xs ⟨g5, g6⟩
  refine Ok.pure ⟨by simp [tabP], g5, ?_⟩
  rw [← e, sponge_bytes hr (by omega) _ _ (absorb_suffix hr M' g2.le), g6, tabP_add]

end Faest.Keccak
