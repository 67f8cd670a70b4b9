/-
C75: the helper functions of compat.h and endian_compat.h.
-/
import Mathlib.Tactic.IntervalCases
import Verif.Proofs.Compat

namespace Faest.Props
open Compat Spec.Compat

/-- **C75, difference.** The function returns true exactly if the difference is negative; otherwise the difference is stored. -/
theorem C75_sub_overflow {w : Nat} (x y : BitVec w) :
    ((subOverflow x y).1 = true ↔ x.toNat < y.toNat) ∧ ((subOverflow x y).1 = false → (subOverflow x y).2.toNat = x.toNat - y.toNat) := by
  constructor
  · simp [subOverflow, BitVec.lt_def]
  · intro h
    have h1 : y.toNat ≤ x.toNat := by simpa [subOverflow, BitVec.lt_def] using h
    exact BitVec.toNat_sub_of_le (BitVec.le_def.2 h1)

/-- **C75, rotation to the left.** Bit `k` goes to the place `k + c` modulo 8, for every `c`. -/
theorem C75_rotl8 (n : BitVec 8) (c : BitVec 32) {k : Nat} (hk : k < 8) : (rotl8 n c).getLsbD ((k + c.toNat) % 8) = n.getLsbD k := by
  have h : ∀ d < 8, c.toNat % 8 = d → (rotl8 n c).getLsbD ((k + c.toNat) % 8) = n.getLsbD k := by
    intro d hd hc
    have hc1 : (c &&& (8 * 1 - 1 : BitVec 32)).toNat = d := by
      rw [BitVec.toNat_and, show (8 * 1 - 1 : BitVec 32).toNat = 2 ^ 3 - 1 from rfl, Nat.and_two_pow_sub_one_eq_mod]
      exact hc
    have hc2 : c &&& (8 * 1 - 1 : BitVec 32) = BitVec.ofNat 32 d := by
      apply BitVec.eq_of_toNat_eq
      rw [hc1, BitVec.toNat_ofNat]; omega
    rw [show (k + c.toNat) % 8 = (k + d) % 8 by omega]
    simp only [rotl8, hc2]
    revert n
    interval_cases d <;> interval_cases k <;> decide +kernel
  exact h _ (Nat.mod_lt _ (by decide)) rfl

/-- **C75, rotation to the right.** Bit `k + c` modulo 8 goes to the place `k`. -/
theorem C75_rotr8 (n : BitVec 8) (c : BitVec 32) {k : Nat} (hk : k < 8) : (rotr8 n c).getLsbD k = n.getLsbD ((k + c.toNat) % 8) := by
  have h : ∀ d < 8, c.toNat % 8 = d → (rotr8 n c).getLsbD k = n.getLsbD ((k + c.toNat) % 8) := by
    intro d hd hc
    have hc1 : (c &&& (8 * 1 - 1 : BitVec 32)).toNat = d := by
      rw [BitVec.toNat_and, show (8 * 1 - 1 : BitVec 32).toNat = 2 ^ 3 - 1 from rfl, Nat.and_two_pow_sub_one_eq_mod]
      exact hc
    have hc2 : c &&& (8 * 1 - 1 : BitVec 32) = BitVec.ofNat 32 d := by
      apply BitVec.eq_of_toNat_eq
      rw [hc1, BitVec.toNat_ofNat]; omega
    rw [show (k + c.toNat) % 8 = (k + d) % 8 by omega]
    simp only [rotr8, hc2]
    revert n
    interval_cases d <;> interval_cases k <;> decide +kernel
  exact h _ (Nat.mod_lt _ (by decide)) rfl

/-- **C75, parity.** -/
theorem C75_parity8 : ∀ n : BitVec 8, (parity8 n).toNat = ones n 8 % 2 := by decide +kernel

theorem C75_parity8_popcount {popcount : BitVec 32 → BitVec 32} (h : ∀ x, (popcount x).toNat = ones x 32) (n : BitVec 8) :
    (parity8Popcount popcount n).toNat = ones n 8 % 2 := by
  have h1 : ones (n.setWidth 32) 32 = ones n 8 := by
    revert n; decide +kernel
  rw [parity8Popcount, BitVec.toNat_and, h, h1]
  exact Nat.and_two_pow_sub_one_eq_mod _ 1

/-! Leading zeros -/

/-- **C75, leading zeros.** -/
theorem C75_clz (x : BitVec 32) : LeadingZeros x.toNat (clz x).toNat := by
  by_cases h : x = 0
  · subst h; exact ⟨by decide, by decide, fun h => absurd rfl h, fun _ => rfl⟩
  have hx : 0 < x.toNat := by
    rcases Nat.eq_zero_or_pos x.toNat with h1 | h1
    · exact absurd (BitVec.eq_of_toNat_eq h1) h
    · exact h1
  have hlt := x.isLt
  unfold clz
  rw [if_neg h]
  dsimp only
  have h0 : clzInv x.toNat 0 (1, x) := ⟨0, by simp, rfl, hx⟩
  obtain ⟨s, h1, h2, h3⟩ := clzStep_inv hx (t := 30) (k := 2) (by decide) (by decide) (clzStep_inv hx (t := 28) (k := 4) (by decide) (by decide)
    (clzStep_inv hx (t := 24) (k := 8) (by decide) (by decide) (clzStep_inv hx (t := 16) (k := 16) (by decide) (by decide) h0)))
  generalize clzStep 30 2 (clzStep 28 4 (clzStep 24 8 (clzStep 16 16 (1, x)))) = p at h1 h2 h3
  have hs := clzInv_le hx h1
  have hp := p.2.isLt
  have hsh : (p.2 >>> 31).toNat = p.2.toNat / 2 ^ 31 := by rw [BitVec.toNat_ushiftRight, Nat.shiftRight_eq_div_pow]
  have hle : p.2 >>> 31 ≤ p.1 := by
    rw [BitVec.le_def, hsh, h2]; omega
  have hr : (p.1 - p.2 >>> 31).toNat = 1 + s - p.2.toNat / 2 ^ 31 := by
    rw [BitVec.toNat_sub_of_le hle, h2, hsh]
  have key : ∀ r, p.2.toNat = x.toNat * 2 ^ s → r = 1 + s - p.2.toNat / 2 ^ 31 → LeadingZeros x.toNat r := by
    intro r hy hr
    by_cases hb : p.2.toNat < 2 ^ 31
    · have hd : p.2.toNat / 2 ^ 31 = 0 := Nat.div_eq_of_lt hb
      rw [hd, Nat.sub_zero] at hr
      subst hr
      have hs30 : s ≤ 30 := by
        by_contra hc
        have : s = 31 := by omega
        subst this; omega
      have e1 : 2 ^ 31 = 2 ^ (31 - s) * 2 ^ s := by rw [← Nat.pow_add]; congr 1; omega
      have e2 : 2 ^ 30 = 2 ^ (30 - s) * 2 ^ s := by rw [← Nat.pow_add]; congr 1; omega
      refine ⟨by omega, ?_, fun _ => ?_, fun h => by omega⟩
      · rw [show 32 - (1 + s) = 31 - s by omega]
        rw [hy, e1] at hb
        exact Nat.lt_of_mul_lt_mul_right hb
      · rw [show 31 - (1 + s) = 30 - s by omega]
        rw [hy, e2] at h3
        exact Nat.le_of_mul_le_mul_right h3 (by positivity)
    · have hd : p.2.toNat / 2 ^ 31 = 1 := by omega
      rw [hd, Nat.add_sub_cancel_left] at hr
      subst hr
      have e1 : 2 ^ 32 = 2 ^ (32 - r) * 2 ^ r := by rw [← Nat.pow_add]; congr 1; omega
      have e2 : 2 ^ 31 = 2 ^ (31 - r) * 2 ^ r := by rw [← Nat.pow_add]; congr 1; omega
      refine ⟨by omega, ?_, fun _ => ?_, fun h => by omega⟩
      · rw [hy, e1] at hp
        exact Nat.lt_of_mul_lt_mul_right hp
      · have hb := Nat.le_of_not_lt hb
        rw [hy, e2] at hb
        exact Nat.le_of_mul_le_mul_right hb (by positivity)
  exact key _ h1 hr

/-- **C75, leading zeros, other versions.** -/
theorem C75_clz_builtin {builtin : BitVec 32 → BitVec 32} (hb : ∀ x ≠ 0, LeadingZeros x.toNat (builtin x).toNat) (x : BitVec 32) :
    LeadingZeros x.toNat (clzBuiltin builtin x).toNat := by
  unfold clzBuiltin
  split
  · exact hb x ‹_›
  · next h =>
    have h : x = 0 := by simpa using h
    subst h; exact ⟨by decide, by decide, fun h => absurd rfl h, fun _ => rfl⟩

theorem C75_clz_scan {scan : BitVec 32 → Option (BitVec 32)} (h0 : scan 0 = none)
    (h1 : ∀ x ≠ 0, ∃ k, scan x = some k ∧ k.toNat < 32 ∧ 2 ^ k.toNat ≤ x.toNat ∧ x.toNat < 2 ^ (k.toNat + 1)) (x : BitVec 32) :
    LeadingZeros x.toNat (clzScan scan x).toNat := by
  unfold clzScan
  by_cases hx : x = 0
  · subst hx; rw [h0]; exact ⟨by decide, by decide, fun h => absurd rfl h, fun _ => rfl⟩
  · obtain ⟨k, e, h2, h3, h4⟩ := h1 x hx
    rw [e]
    have hk : (31 - k).toNat = 31 - k.toNat := BitVec.toNat_sub_of_le (BitVec.le_def.2 (show k.toNat ≤ 31 by omega))
    dsimp only
    rw [hk]
    refine ⟨by omega, ?_, fun _ => ?_, fun h => ?_⟩
    · rw [show 32 - (31 - k.toNat) = k.toNat + 1 by omega]; exact h4
    · rw [show 31 - (31 - k.toNat) = k.toNat by omega]; exact h3
    · have : 0 < 2 ^ k.toNat := by positivity
      omega

/-- **C75, logarithm.** Over every right version of `clz`. -/
theorem C75_ceil_log2 {clz : BitVec 32 → BitVec 32} (hc : ∀ x, LeadingZeros x.toNat (clz x).toNat) (x : BitVec 32) :
    CeilLog2 x.toNat (ceilLog2 clz x).toNat := by
  unfold ceilLog2
  by_cases hx : x = 0
  · subst hx; rw [if_pos rfl]; exact ⟨by decide, fun k hk => absurd hk (Nat.not_lt_zero k)⟩
  have hp : 1 ≤ x.toNat := by
    rcases Nat.eq_zero_or_pos x.toNat with h1 | h1
    · exact absurd (BitVec.eq_of_toNat_eq h1) hx
    · exact h1
  rw [if_neg hx]
  have hx1 : (x - 1).toNat = x.toNat - 1 := BitVec.toNat_sub_of_le (BitVec.le_def.2 hp)
  obtain ⟨h1, h2, h3, h4⟩ := hc (x - 1)
  have hr : (32 - clz (x - 1)).toNat = 32 - (clz (x - 1)).toNat := BitVec.toNat_sub_of_le (BitVec.le_def.2 h1)
  rw [hr]
  rw [hx1] at h2 h3 h4
  refine ⟨by omega, fun k hk => ?_⟩
  by_cases hz : x.toNat - 1 = 0
  · rw [h4 hz] at hk; omega
  · have := h3 hz
    have : 2 ^ k ≤ 2 ^ (31 - (clz (x - 1)).toNat) := Nat.pow_le_pow_right (by decide) (by omega)
    omega

/-! Byte order -/

/-- **C75, swapping.** The bytes come in the opposite order. -/
theorem C75_bswap16 (x : BitVec 16) : le 2 (bswap16 x) = be 2 x := by
  have h : ∀ k < 2, (bswap16 x).extractLsb' (8 * k) 8 = x.extractLsb' (8 * (1 - k)) 8 := by
    intro k hk
    ext i hi
    interval_cases k <;> interval_cases i <;> simp [bswap16]
  simp only [le, be, List.range_succ, List.range_zero, List.nil_append, List.map_cons, List.map_nil, List.cons_append, List.reverse_cons,
    List.reverse_nil, h 0 (by decide), h 1 (by decide)]

theorem C75_bswap32 (x : BitVec 32) : le 4 (bswap32 x) = be 4 x := by
  have h : ∀ k < 4, (bswap32 x).extractLsb' (8 * k) 8 = x.extractLsb' (8 * (3 - k)) 8 := by
    intro k hk
    ext i hi
    interval_cases k <;> interval_cases i <;> simp [bswap32]
  simp only [le, be, List.range_succ, List.range_zero, List.nil_append, List.map_cons, List.map_nil, List.cons_append, List.reverse_cons,
    List.reverse_nil, h 0 (by decide), h 1 (by decide), h 2 (by decide), h 3 (by decide)]

theorem C75_bswap64 (x : BitVec 64) : le 8 (bswap64 x) = be 8 x := by
  have h : ∀ k < 8, (bswap64 x).extractLsb' (8 * k) 8 = x.extractLsb' (8 * (7 - k)) 8 := by
    intro k hk
    ext i hi
    interval_cases k <;> interval_cases i <;> simp [bswap64]
  simp only [le, be, List.range_succ, List.range_zero, List.nil_append, List.map_cons, List.map_nil, List.cons_append, List.reverse_cons,
    List.reverse_nil, h 0 (by decide), h 1 (by decide), h 2 (by decide), h 3 (by decide), h 4 (by decide), h 5 (by decide), h 6 (by decide), h 7 (by decide)]

/-- **C75, byte order.** On a host of either byte order the macros store a number with its least respectively most significant byte
first, and load it. -/
theorem C75_store16 (h : Host) (x : BitVec 16) : image h.big 2 (h.htole16 x) = le 2 x ∧ image h.big 2 (h.htobe16 x) = be 2 x := by
  obtain ⟨big⟩ := h
  cases big
  · exact ⟨rfl, C75_bswap16 x⟩
  · exact ⟨by show (le 2 (bswap16 x)).reverse = _; rw [C75_bswap16]; exact List.reverse_reverse _, rfl⟩

theorem C75_store32 (h : Host) (x : BitVec 32) : image h.big 4 (h.htole32 x) = le 4 x ∧ image h.big 4 (h.htobe32 x) = be 4 x := by
  obtain ⟨big⟩ := h
  cases big
  · exact ⟨rfl, C75_bswap32 x⟩
  · exact ⟨by show (le 4 (bswap32 x)).reverse = _; rw [C75_bswap32]; exact List.reverse_reverse _, rfl⟩

theorem C75_store64 (h : Host) (x : BitVec 64) : image h.big 8 (h.htole64 x) = le 8 x ∧ image h.big 8 (h.htobe64 x) = be 8 x := by
  obtain ⟨big⟩ := h
  cases big
  · exact ⟨rfl, C75_bswap64 x⟩
  · exact ⟨by show (le 8 (bswap64 x)).reverse = _; rw [C75_bswap64]; exact List.reverse_reverse _, rfl⟩

theorem C75_load16 (h : Host) (v x : BitVec 16) :
    (image h.big 2 v = le 2 x → h.le16toh v = x) ∧ (image h.big 2 v = be 2 x → h.be16toh v = x) := by
  obtain ⟨big⟩ := h
  cases big
  · show (le 2 v = le 2 x → v = x) ∧ (le 2 v = be 2 x → bswap16 v = x)
    exact ⟨fun h => @le_inj 2 v x h, fun h => (@bswap_of 2 bswap16 C75_bswap16 v x).1 h⟩
  · show (be 2 v = le 2 x → bswap16 v = x) ∧ (be 2 v = be 2 x → v = x)
    exact ⟨fun h => (@bswap_of 2 bswap16 C75_bswap16 v x).2 h, fun h => @le_of 2 v x h⟩

theorem C75_load32 (h : Host) (v x : BitVec 32) :
    (image h.big 4 v = le 4 x → h.le32toh v = x) ∧ (image h.big 4 v = be 4 x → h.be32toh v = x) := by
  obtain ⟨big⟩ := h
  cases big
  · show (le 4 v = le 4 x → v = x) ∧ (le 4 v = be 4 x → bswap32 v = x)
    exact ⟨fun h => @le_inj 4 v x h, fun h => (@bswap_of 4 bswap32 C75_bswap32 v x).1 h⟩
  · show (be 4 v = le 4 x → bswap32 v = x) ∧ (be 4 v = be 4 x → v = x)
    exact ⟨fun h => (@bswap_of 4 bswap32 C75_bswap32 v x).2 h, fun h => @le_of 4 v x h⟩

theorem C75_load64 (h : Host) (v x : BitVec 64) :
    (image h.big 8 v = le 8 x → h.le64toh v = x) ∧ (image h.big 8 v = be 8 x → h.be64toh v = x) := by
  obtain ⟨big⟩ := h
  cases big
  · show (le 8 v = le 8 x → v = x) ∧ (le 8 v = be 8 x → bswap64 v = x)
    exact ⟨fun h => @le_inj 8 v x h, fun h => (@bswap_of 8 bswap64 C75_bswap64 v x).1 h⟩
  · show (be 8 v = le 8 x → bswap64 v = x) ∧ (be 8 v = be 8 x → v = x)
    exact ⟨fun h => (@bswap_of 8 bswap64 C75_bswap64 v x).2 h, fun h => @le_of 8 v x h⟩

/-! ### Examples -/

example : (subOverflow (3 : BitVec 64) 5).1 = true ∧ (subOverflow (5 : BitVec 32) 3) = (false, 2) := by decide
example : rotl8 0x81 1 = 0x03 ∧ rotl8 0x81 9 = 0x03 ∧ rotl8 0x81 0 = 0x81 ∧ rotr8 0x81 1 = 0xc0 := by decide
example : clz 1 = 31 ∧ clz 0x00010000 = 15 ∧ clz 0x0000ffff = 16 ∧ clz 0xffffffff = 0 := by decide +kernel
example : ceilLog2 clz 1 = 0 ∧ ceilLog2 clz 2 = 1 ∧ ceilLog2 clz 3 = 2 ∧ ceilLog2 clz 4 = 2 ∧ ceilLog2 clz 0x80000001 = 32 := by decide +kernel
example (x : BitVec 32) : CeilLog2 x.toNat (ceilLog2 clz x).toNat := C75_ceil_log2 C75_clz x
-- the assumptions about the compiler's functions can be met
example : ∀ x ≠ 0, LeadingZeros x.toNat (clz x).toNat := fun x _ => C75_clz x
example : ∃ popcount : BitVec 32 → BitVec 32, ∀ x, (popcount x).toNat = ones x 32 := by
  refine ⟨fun x => BitVec.ofNat 32 (ones x 32), fun x => ?_⟩
  have h : ∀ n, ones x n ≤ n := by
    intro n
    induction n with
    | zero => exact le_rfl
    | succ n ih => unfold ones; split <;> omega
  rw [BitVec.toNat_ofNat]
  have := h 32
  omega
example : image true 4 (Host.htole32 ⟨true⟩ 0x11223344) = [0x44, 0x33, 0x22, 0x11] := by decide
example : Host.le64toh ⟨true⟩ 0x0102030405060708 = 0x0807060504030201 := by decide

end Faest.Props
