/-
Words of 64 bits as two words of 32 bits: the bits at even places and the bits at odd places
(sha3/plain32/KeccakP-1600-inplace32BI.c).
-/
import Verif.Model.CHalf
import Verif.Proofs.KeccakSponge

namespace Faest.GenP
open Faest.C Faest.Keccak

/-- The word with bits `f 0`, `f 1`, .. -/
def bitsN : (n : Nat) → (Nat → Bool) → BitVec n
  | 0, _ => 0#0
  | n + 1, f => BitVec.cons (f n) (bitsN n f)

theorem bitsN_bit (f : Nat → Bool) : ∀ n i, (bitsN n f).getLsbD i = (decide (i < n) && f i)
  | 0, i => by simp [bitsN]
  | n + 1, i => by
    unfold bitsN
    rw [BitVec.getLsbD_cons, bitsN_bit f n]
    by_cases h : i = n
    · subst h; simp
    · rw [if_neg h]
      by_cases h2 : i < n
      · simp [h2, show i < n + 1 by omega]
      · simp [h2, show ¬ i < n + 1 by omega]

/-- The bits at even places (`h = 0`) or at odd places (`h = 1`). -/
def half (x : BitVec 64) (h : Nat) : BitVec 32 := bitsN 32 fun i => x.getLsbD (2 * i + h)

theorem half_bit (x : BitVec 64) (h i : Nat) : (half x h).getLsbD i = (decide (i < 32) && x.getLsbD (2 * i + h)) := bitsN_bit _ _ _

theorem bv_ext {n : Nat} {x y : BitVec n} (h : ∀ i, i < n → x.getLsbD i = y.getLsbD i) : x = y :=
  BitVec.eq_of_getLsbD_eq h

theorem half_xor (x y : BitVec 64) (h : Nat) : half (x ^^^ y) h = half x h ^^^ half y h := by
  apply bv_ext
  intro i hi
  rw [BitVec.getLsbD_xor, half_bit, half_bit, half_bit, BitVec.getLsbD_xor]
  simp [hi]

theorem half_and (x y : BitVec 64) (h : Nat) : half (x &&& y) h = half x h &&& half y h := by
  apply bv_ext
  intro i hi
  rw [BitVec.getLsbD_and, half_bit, half_bit, half_bit, BitVec.getLsbD_and]
  simp [hi]

theorem half_not0 (x : BitVec 64) : half (~~~x) 0 = ~~~half x 0 := by
  apply bv_ext
  intro i hi
  rw [BitVec.getLsbD_not, half_bit, half_bit, BitVec.getLsbD_not]
  simp [hi, show 2 * i < 64 by omega]

theorem half_not1 (x : BitVec 64) : half (~~~x) 1 = ~~~half x 1 := by
  apply bv_ext
  intro i hi
  rw [BitVec.getLsbD_not, half_bit, half_bit, BitVec.getLsbD_not]
  simp [hi, show 2 * i + 1 < 64 by omega]

/-- sha3/plain32/KeccakP-1600-inplace32BI.c:31 `ROL32`. -/
def rol32 (a : BitVec 32) (n m : Nat) : BitVec 32 := (a <<< n) ^^^ (a >>> m)

theorem rol32_bit (a : BitVec 32) (n m i : Nat) (h : n + m = 32) (hi : i < 32) :
    (rol32 a n m).getLsbD i = a.getLsbD ((i + m) % 32) := by
  unfold rol32
  rw [BitVec.getLsbD_xor, BitVec.getLsbD_shiftLeft, BitVec.getLsbD_ushiftRight]
  by_cases h1 : i < n
  · have : (i + m) % 32 = m + i := by omega
    rw [this]; simp [h1]
  · have h2 : a.getLsbD (m + i) = false := BitVec.getLsbD_of_ge _ _ (by omega)
    have : (i + m) % 32 = i - n := by omega
    rw [h2, this]; simp [h1, hi]

theorem rol64_bit (a : BitVec 64) (n i : Nat) (hn : n < 64) (hi : i < 64) :
    (rol64 a n).getLsbD i = a.getLsbD ((i + (64 - n)) % 64) := by
  unfold rol64
  rw [BitVec.getLsbD_xor, BitVec.getLsbD_shiftLeft, BitVec.getLsbD_ushiftRight]
  by_cases h1 : i < n
  · have : (i + (64 - n)) % 64 = 64 - n + i := by omega
    rw [this]; simp [h1]
  · have h2 : a.getLsbD (64 - n + i) = false := BitVec.getLsbD_of_ge _ _ (by omega)
    have : (i + (64 - n)) % 64 = i - n := by omega
    rw [h2, this]; simp [h1, hi]

/-- Half `h` of a rotation by `n` is half `h'` rotated by `k`. -/
theorem half_rol (x : BitVec 64) (n h h' k m : Nat) (hn : n < 64) (hh : h < 2) (hh' : h' < 2) (hk : k + m = 32)
    (e : (h + (64 - n)) % 64 = (h' + 2 * m) % 64) : half (rol64 x n) h = rol32 (half x h') k m := by
  apply bv_ext
  intro i hi
  rw [half_bit, rol64_bit _ _ _ hn (by omega), rol32_bit _ _ _ _ hk hi, half_bit]
  rw [show (2 * i + h + (64 - n)) % 64 = 2 * ((i + m) % 32) + h' by omega]
  simp [hi, show (i + m) % 32 < 32 by omega]

theorem rol32_zero (a : BitVec 32) : rol32 a 0 32 = a := by
  apply bv_ext
  intro i hi
  rw [rol32_bit _ _ _ _ rfl hi]
  congr 1; omega

/-! ### Sorting the bits -/

/-- One exchange of bits. -/
def swp (x M : BitVec 32) (s : Nat) : BitVec 32 := (x ^^^ ((x ^^^ (x >>> s)) &&& M)) ^^^ (((x ^^^ (x >>> s)) &&& M) <<< s)

/-- Where the exchange takes a bit from. -/
def swpI (M : BitVec 32) (s i : Nat) : Nat :=
  if M.getLsbD i then i + s else if s ≤ i ∧ M.getLsbD (i - s) then i - s else i

theorem swp_bit (x M : BitVec 32) (s i : Nat) (hi : i < 32)
    (hM : ∀ i, i < 32 → M.getLsbD i = true → i + s < 32 ∧ (i < s ∨ M.getLsbD (i - s) = false)) :
    (swp x M s).getLsbD i = x.getLsbD (swpI M s i) := by
  unfold swp swpI
  rw [BitVec.getLsbD_xor, BitVec.getLsbD_xor, BitVec.getLsbD_shiftLeft, BitVec.getLsbD_and, BitVec.getLsbD_and,
    BitVec.getLsbD_xor, BitVec.getLsbD_xor, BitVec.getLsbD_ushiftRight, BitVec.getLsbD_ushiftRight]
  by_cases h1 : M.getLsbD i = true
  · obtain ⟨h2, h3⟩ := hM i hi h1
    rw [if_pos h1, h1, show s + i = i + s by omega]
    rcases h3 with h3 | h3
    · simp [h3]
    · simp [h3]
  · rw [Bool.not_eq_true] at h1
    rw [h1]
    by_cases h2 : s ≤ i ∧ M.getLsbD (i - s) = true
    · rw [if_neg (by simp), if_pos h2, h2.2, show s + (i - s) = i by omega]
      have : ¬ i < s := by omega
      simp only [this, hi, decide_true, decide_false, Bool.not_false, Bool.true_and, Bool.and_false, Bool.and_true, Bool.xor_false]
      cases x.getLsbD i <;> cases x.getLsbD (i - s) <;> rfl
    · rw [if_neg (by simp), if_neg h2]
      by_cases h3 : i < s
      · simp [h3]
      · have : M.getLsbD (i - s) = false := by
          rw [← Bool.not_eq_true]; exact fun h => h2 ⟨by omega, h⟩
        simp [this]

/-- `prepareToBitInterleaving` on one word: even bits below, odd bits above. -/
def toBI (x : BitVec 32) : BitVec 32 := swp (swp (swp (swp x 0x22222222 1) 0x0C0C0C0C 2) 0x00F000F0 4) 0x0000FF00 8
/-- `prepareFromBitInterleaving` on one word. -/
def fromBI (x : BitVec 32) : BitVec 32 := swp (swp (swp (swp x 0x0000FF00 8) 0x00F000F0 4) 0x0C0C0C0C 2) 0x22222222 1

theorem mask1 : ∀ i, i < 32 → (0x22222222 : BitVec 32).getLsbD i = true →
    i + 1 < 32 ∧ (i < 1 ∨ (0x22222222 : BitVec 32).getLsbD (i - 1) = false) := by decide +kernel
theorem mask2 : ∀ i, i < 32 → (0x0C0C0C0C : BitVec 32).getLsbD i = true →
    i + 2 < 32 ∧ (i < 2 ∨ (0x0C0C0C0C : BitVec 32).getLsbD (i - 2) = false) := by decide +kernel
theorem mask4 : ∀ i, i < 32 → (0x00F000F0 : BitVec 32).getLsbD i = true →
    i + 4 < 32 ∧ (i < 4 ∨ (0x00F000F0 : BitVec 32).getLsbD (i - 4) = false) := by decide +kernel
theorem mask8 : ∀ i, i < 32 → (0x0000FF00 : BitVec 32).getLsbD i = true →
    i + 8 < 32 ∧ (i < 8 ∨ (0x0000FF00 : BitVec 32).getLsbD (i - 8) = false) := by decide +kernel

theorem toBI_tab : ∀ i, i < 32 → swpI 0x0000FF00 8 i < 32 ∧ swpI 0x00F000F0 4 (swpI 0x0000FF00 8 i) < 32 ∧
    swpI 0x0C0C0C0C 2 (swpI 0x00F000F0 4 (swpI 0x0000FF00 8 i)) < 32 ∧
    swpI 0x22222222 1 (swpI 0x0C0C0C0C 2 (swpI 0x00F000F0 4 (swpI 0x0000FF00 8 i))) = (if i < 16 then 2 * i else 2 * (i - 16) + 1) := by
  decide +kernel

theorem fromBI_tab : ∀ i, i < 32 → swpI 0x22222222 1 i < 32 ∧ swpI 0x0C0C0C0C 2 (swpI 0x22222222 1 i) < 32 ∧
    swpI 0x00F000F0 4 (swpI 0x0C0C0C0C 2 (swpI 0x22222222 1 i)) < 32 ∧
    swpI 0x0000FF00 8 (swpI 0x00F000F0 4 (swpI 0x0C0C0C0C 2 (swpI 0x22222222 1 i))) = (if i % 2 = 0 then i / 2 else 16 + i / 2) := by
  decide +kernel

theorem toBI_bit (x : BitVec 32) (i : Nat) (hi : i < 32) :
    (toBI x).getLsbD i = x.getLsbD (if i < 16 then 2 * i else 2 * (i - 16) + 1) := by
  obtain ⟨h1, h2, h3, h4⟩ := toBI_tab i hi
  unfold toBI
  rw [swp_bit _ _ _ _ hi mask8, swp_bit _ _ _ _ h1 mask4, swp_bit _ _ _ _ h2 mask2, swp_bit _ _ _ _ h3 mask1, h4]

theorem fromBI_bit (x : BitVec 32) (i : Nat) (hi : i < 32) :
    (fromBI x).getLsbD i = x.getLsbD (if i % 2 = 0 then i / 2 else 16 + i / 2) := by
  obtain ⟨h1, h2, h3, h4⟩ := fromBI_tab i hi
  unfold fromBI
  rw [swp_bit _ _ _ _ hi mask1, swp_bit _ _ _ _ h1 mask2, swp_bit _ _ _ _ h2 mask4, swp_bit _ _ _ _ h3 mask8, h4]

/-- A word from its low and its high half. -/
def cat (lo hi : BitVec 32) : BitVec 64 := hi ++ lo

theorem cat_bit (lo hi : BitVec 32) (i : Nat) : (cat lo hi).getLsbD i = if i < 32 then lo.getLsbD i else hi.getLsbD (i - 32) :=
  BitVec.getLsbD_append

/-- The low and the high word of a word of 64 bits. -/
def loW (x : BitVec 64) : BitVec 32 := x.setWidth 32
def hiW (x : BitVec 64) : BitVec 32 := (x >>> 32).setWidth 32

theorem loW_bit (x : BitVec 64) (i : Nat) (hi : i < 32) : (loW x).getLsbD i = x.getLsbD i := by
  unfold loW; rw [BitVec.getLsbD_setWidth]; simp [hi]
theorem hiW_bit (x : BitVec 64) (i : Nat) (hi : i < 32) : (hiW x).getLsbD i = x.getLsbD (32 + i) := by
  unfold hiW; rw [BitVec.getLsbD_setWidth, BitVec.getLsbD_ushiftRight]; simp [hi]

theorem cat_lo_hi (x : BitVec 64) : cat (loW x) (hiW x) = x := by
  apply bv_ext
  intro i hi
  rw [cat_bit]
  split
  · next h => exact loW_bit x i h
  · next h => rw [hiW_bit _ _ (by omega), show 32 + (i - 32) = i by omega]

theorem loW_cat (a b : BitVec 32) : loW (cat a b) = a := by
  apply bv_ext; intro i hi
  rw [loW_bit _ _ hi, cat_bit, if_pos hi]
theorem hiW_cat (a b : BitVec 32) : hiW (cat a b) = b := by
  apply bv_ext; intro i hi
  rw [hiW_bit _ _ hi, cat_bit, if_neg (by omega), show 32 + i - 32 = i by omega]

theorem and_lo (x : BitVec 32) (i : Nat) : (x &&& (65535 : BitVec 32)).getLsbD i = (decide (i < 16) && x.getLsbD i) := by
  have h : ∀ i, i < 32 → (65535 : BitVec 32).getLsbD i = decide (i < 16) := by decide +kernel
  rw [BitVec.getLsbD_and]
  by_cases hi : i < 32
  · rw [h i hi, Bool.and_comm]
  · rw [BitVec.getLsbD_of_ge x i (by omega)]; simp

theorem and_hi (x : BitVec 32) (i : Nat) : (x &&& (4294901760 : BitVec 32)).getLsbD i = (decide (16 ≤ i) && x.getLsbD i) := by
  have h : ∀ i, i < 32 → (4294901760 : BitVec 32).getLsbD i = decide (16 ≤ i) := by decide +kernel
  rw [BitVec.getLsbD_and]
  by_cases hi : i < 32
  · rw [h i hi, Bool.and_comm]
  · rw [BitVec.getLsbD_of_ge x i (by omega)]; simp

/-- The even bits, as `toBitInterleavingAndXOR` computes them. -/
theorem even_eq (x : BitVec 64) :
    (toBI (loW x) &&& (65535 : BitVec 32)) ||| (toBI (hiW x) <<< 16) = half x 0 := by
  apply bv_ext
  intro i hi
  rw [BitVec.getLsbD_or, and_lo, BitVec.getLsbD_shiftLeft, half_bit]
  by_cases h : i < 16
  · rw [toBI_bit _ _ hi, if_pos h, loW_bit _ _ (by omega)]
    simp [h, hi]
  · rw [toBI_bit _ (i - 16) (by omega), if_pos (by omega), hiW_bit _ _ (by omega), show 32 + 2 * (i - 16) = 2 * i + 0 by omega]
    simp [h, hi]

/-- The odd bits. -/
theorem odd_eq (x : BitVec 64) :
    (toBI (loW x) >>> 16) ||| (toBI (hiW x) &&& (4294901760 : BitVec 32)) = half x 1 := by
  apply bv_ext
  intro i hi
  rw [BitVec.getLsbD_or, and_hi, BitVec.getLsbD_ushiftRight, half_bit]
  by_cases h : i < 16
  · rw [toBI_bit _ (16 + i) (by omega), if_neg (by omega), loW_bit _ _ (by omega), show 2 * (16 + i - 16) + 1 = 2 * i + 1 by omega]
    simp [show ¬ 16 ≤ i by omega, hi]
  · rw [toBI_bit _ i hi, if_neg (by omega), hiW_bit _ _ (by omega), show 32 + (2 * (i - 16) + 1) = 2 * i + 1 by omega,
      BitVec.getLsbD_of_ge _ (16 + i) (by omega)]
    simp [show 16 ≤ i by omega, hi]

/-- `fromBitInterleaving`. -/
theorem from_lo (x : BitVec 64) :
    fromBI ((half x 0 &&& (65535 : BitVec 32)) ||| (half x 1 <<< 16)) = loW x := by
  apply bv_ext
  intro i hi
  rw [fromBI_bit _ _ hi, BitVec.getLsbD_or, and_lo, BitVec.getLsbD_shiftLeft, half_bit, loW_bit _ _ hi]
  by_cases h : i % 2 = 0
  · rw [if_pos h, show 2 * (i / 2) + 0 = i by omega]
    simp [show i / 2 < 16 by omega, show i / 2 < 32 by omega]
  · rw [if_neg h, half_bit, show 2 * (16 + i / 2 - 16) + 1 = i by omega]
    simp [show ¬ 16 + i / 2 < 16 by omega, show 16 + i / 2 < 32 by omega, show i / 2 < 32 by omega]

theorem from_hi (x : BitVec 64) :
    fromBI ((half x 0 >>> 16) ||| (half x 1 &&& (4294901760 : BitVec 32))) = hiW x := by
  apply bv_ext
  intro i hi
  rw [fromBI_bit _ _ hi, BitVec.getLsbD_or, and_hi, BitVec.getLsbD_ushiftRight, half_bit, hiW_bit _ _ hi]
  by_cases h : i % 2 = 0
  · rw [if_pos h, show 2 * (16 + i / 2) + 0 = 32 + i by omega]
    simp [show ¬ 16 ≤ i / 2 by omega, show 16 + i / 2 < 32 by omega]
  · rw [if_neg h, half_bit, show 2 * (16 + i / 2) + 1 = 32 + i by omega]
    simp [show 16 + i / 2 < 32 by omega, show ¬ 16 + (16 + i / 2) < 32 by omega]

end Faest.GenP
