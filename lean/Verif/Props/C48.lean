/-
C48: the portable replacement of aligned_alloc returns aligned memory of the requested size, and the matching free
passes the block's address to free.
-/
import Verif.Model.Alloc
import Verif.Proofs.Hoare

namespace Faest.Props
open Alloc

section
variable {w : Nat}

theorem badArgs_iff {al size : BitVec w} (h0 : al ≠ 0) :
    badArgs al size = false ↔ ∃ a, al.toNat = 2 ^ a ∧ 2 ^ a ∣ size.toNat := by
  have hal : al.toNat ≠ 0 := fun h => h0 (BitVec.eq_of_toNat_eq (by simpa using h))
  have hlt := al.isLt
  have h1 : (al - 1).toNat = al.toNat - 1 := by
    have hw : 1 < 2 ^ w := by
      rcases Nat.eq_or_lt_of_le (Nat.one_le_two_pow (n := w)) with h | h
      · omega
      · exact h
    have h1' : (1 : BitVec w).toNat = 1 := by
      show (BitVec.ofNat w 1).toNat = 1
      rw [BitVec.toNat_ofNat, Nat.mod_eq_of_lt hw]
    rw [BitVec.toNat_sub, h1', show 2 ^ w - 1 + al.toNat = (al.toNat - 1) + 2 ^ w by omega, Nat.add_mod_right,
      Nat.mod_eq_of_lt (by omega)]
  have e : ∀ x : BitVec w, (x &&& (al - 1) != 0) = false ↔ x.toNat &&& (al.toNat - 1) = 0 := by
    intro x
    rw [bne_eq_false_iff_eq, ← BitVec.toNat_inj, BitVec.toNat_and, h1]
    rfl
  unfold badArgs
  rw [Bool.or_eq_false_iff, e, e, Nat.and_sub_one_eq_zero_iff_isPowerOfTwo hal]
  constructor
  · rintro ⟨⟨a, ha⟩, h2⟩
    refine ⟨a, ha, ?_⟩
    rw [ha, Nat.and_two_pow_sub_one_eq_mod] at h2
    exact Nat.dvd_of_mod_eq_zero h2
  · rintro ⟨a, ha, h2⟩
    refine ⟨⟨a, ha⟩, ?_⟩
    rw [ha, Nat.and_two_pow_sub_one_eq_mod]
    exact Nat.mod_eq_zero_of_dvd h2

/-- Clearing the low bits rounds down. -/
theorem clear_low {al x : BitVec w} {a : Nat} (ha : al.toNat = 2 ^ a) :
    (x &&& ~~~(al - 1)).toNat = x.toNat / 2 ^ a * 2 ^ a := by
  have hlt := al.isLt
  have hp := Nat.two_pow_pos a
  have haw : a < w := (Nat.pow_lt_pow_iff_right (by decide : 1 < 2)).1 (ha ▸ hlt)
  have hw : 1 < 2 ^ w := Nat.one_lt_two_pow (by omega)
  have h1' : (1 : BitVec w).toNat = 1 := by
    show (BitVec.ofNat w 1).toNat = 1
    rw [BitVec.toNat_ofNat, Nat.mod_eq_of_lt hw]
  have h1 : (al - 1).toNat = 2 ^ a - 1 := by
    rw [BitVec.toNat_sub, h1', ha, show 2 ^ w - 1 + 2 ^ a = (2 ^ a - 1) + 2 ^ w by omega, Nat.add_mod_right,
      Nat.mod_eq_of_lt (by omega)]
  apply Nat.eq_of_testBit_eq
  intro k
  rw [← Nat.shiftRight_eq_div_pow, ← Nat.shiftLeft_eq, Nat.testBit_shiftLeft, Nat.testBit_shiftRight]
  show (x &&& ~~~(al - 1)).getLsbD k = _
  rw [BitVec.getLsbD_and, BitVec.getLsbD_not]
  have hm : (al - 1).getLsbD k = decide (k < a) := by
    show (al - 1).toNat.testBit k = _
    rw [h1, Nat.testBit_two_pow_sub_one]
  rw [hm]
  by_cases hk : k < a
  · simp only [hk, decide_true, Bool.not_true, Bool.and_false]
    simp [show ¬a ≤ k by omega]
  · rw [Nat.add_sub_cancel' (by omega)]
    by_cases hkw : k < w
    · simp [hk, hkw, show a ≤ k by omega, BitVec.getLsbD]
    · have : x.getLsbD k = false := BitVec.getLsbD_of_ge x k (by omega)
      have h2 : x.toNat.testBit k = false := this
      simp [this, h2]

/-- **C48, refusal.** For an alignment that is not a power of two, and a size that is not a multiple of it, NULL is
returned and nothing is allocated; only then, or for size 0. -/
theorem C48_refuse (sys : BitVec w → Option (BitVec w)) (al size : BitVec w) (h0 : al ≠ 0) :
    alignedAlloc sys al size = some .null ↔
      size = 0 ∨ ¬∃ a, al.toNat = 2 ^ a ∧ 2 ^ a ∣ size.toNat := by
  rw [← badArgs_iff h0]
  unfold alignedAlloc
  cases hb : badArgs al size with
  | true => simp
  | false =>
    by_cases hs : size = 0
    · simp [hs]
    · simp only [Bool.false_eq_true, if_false, hs, not_true_eq_false, or_self, iff_false]
      cases sys (size + (al - 1 + 1)) with
      | none => simp
      | some b =>
        dsimp only
        split
        · simp
        · split
          · simp
          · intro h
            cases hw' : wr (malloc (size + (al - 1 + 1)).toNat)
                (((((b + (al - 1 + 1)) &&& ~~~(al - 1)).toNat : Int) - b.toNat).toNat - 1)
                (BitVec.ofNat 8 ((((b + (al - 1 + 1)) &&& ~~~(al - 1)).toNat : Int) - b.toNat).toNat) with
            | none => rw [hw'] at h; exact absurd h (by simp)
            | some m => rw [hw'] at h; exact absurd h (by simp)

/-- **C48, allocation, every alignment.** Let the alignment be `2^a`, the size a positive multiple, and let `malloc`
return a block inside the address space.  With `d` the distance to the next aligned address behind the start of the
block, NULL is returned and the block freed if `d` does not fit into a byte.  Otherwise the returned pointer is at
distance `d`, the requested bytes behind it lie in the block, and `faest_aligned_free` passes the address of the block
to `free`, whatever has been written to the requested bytes. -/
theorem C48_alloc_any (sys : BitVec w → Option (BitVec w)) (al size base : BitVec w) (a : Nat) (ha : al.toNat = 2 ^ a)
    (hs : size ≠ 0) (hd : 2 ^ a ∣ size.toNat) (hfit : size.toNat + 2 ^ a < 2 ^ w)
    (hsys : sys (size + al) = some base) (hblk : base.toNat + (size.toNat + 2 ^ a) ≤ 2 ^ w) :
    ∃ d, 1 ≤ d ∧ d ≤ 2 ^ a ∧ 2 ^ a ∣ base.toNat + d ∧
      (255 < d → alignedAlloc sys al size = some (.nullAfter (size + al))) ∧
      (d ≤ 255 → ∃ mem p, alignedAlloc sys al size = some (.block (size + al) base mem p) ∧
        (size + al).toNat = size.toNat + 2 ^ a ∧ mem.length = size.toNat + 2 ^ a ∧ p.toNat = base.toNat + d ∧
        ∀ mem' : Mem Byte, mem'.length = mem.length →
          (∀ k, k < p.toNat - base.toNat ∨ p.toNat - base.toNat + size.toNat ≤ k → mem'[k]? = mem[k]?) →
          alignedFree base mem' p = some base) := by
  have hp := Nat.two_pow_pos a
  have h0 : al ≠ 0 := fun h => by rw [h] at ha; simp at ha; omega
  have hoff : al - 1 + 1 = al := BitVec.sub_add_cancel al 1
  have hsz : (size + al).toNat = size.toNat + 2 ^ a := by
    rw [BitVec.toNat_add, ha, Nat.mod_eq_of_lt hfit]
  have hspos : 0 < size.toNat := by
    rcases Nat.eq_zero_or_pos size.toNat with h | h
    · exact absurd (BitVec.eq_of_toNat_eq (by simpa using h)) hs
    · exact h
  have hbo : (base + al).toNat = base.toNat + 2 ^ a := by
    rw [BitVec.toNat_add, ha, Nat.mod_eq_of_lt (by omega)]
  have hpt : ((base + al) &&& ~~~(al - 1)).toNat = (base.toNat + 2 ^ a) / 2 ^ a * 2 ^ a := by
    rw [clear_low ha, hbo]
  have hq : (base.toNat + 2 ^ a) / 2 ^ a * 2 ^ a + (base.toNat + 2 ^ a) % 2 ^ a = base.toNat + 2 ^ a :=
    Nat.div_add_mod' _ _
  have hm := Nat.mod_lt (base.toNat + 2 ^ a) hp
  obtain ⟨d, hdd⟩ : ∃ d : Nat, ((base + al) &&& ~~~(al - 1)).toNat = base.toNat + d :=
    ⟨((base + al) &&& ~~~(al - 1)).toNat - base.toNat, by omega⟩
  have hd1 : 1 ≤ d := by omega
  have hd2 : d ≤ 2 ^ a := by omega
  have hint : ((((base + al) &&& ~~~(al - 1)).toNat : Int) - base.toNat) = (d : Int) := by omega
  have hdv : 2 ^ a ∣ base.toNat + d := by rw [← hdd, hpt]; exact Nat.dvd_mul_left _ _
  refine ⟨d, hd1, hd2, hdv, fun h255 => ?_, fun h255 => ?_⟩
  · unfold alignedAlloc
    rw [(badArgs_iff h0).2 ⟨a, ha, hd⟩, if_neg (by decide), if_neg hs]
    dsimp only
    rw [hoff, hsys]
    dsimp only
    rw [hint, if_pos (by omega)]
  obtain ⟨mem, hw, hl, hr⟩ : ∃ mem, wr (malloc (size + al).toNat : Mem Byte) (d - 1) (BitVec.ofNat 8 d) = some mem ∧
      mem.length = (size + al).toNat ∧ mem[d - 1]? = some (some (BitVec.ofNat 8 d)) := by
    unfold wr
    rw [if_pos (by rw [malloc_length, hsz]; omega)]
    refine ⟨_, rfl, by rw [List.length_set, malloc_length], ?_⟩
    rw [List.getElem?_set_self (by rw [malloc_length, hsz]; omega)]
  refine ⟨mem, (base + al) &&& ~~~(al - 1), ?_, hsz, by omega, hdd, ?_⟩
  · unfold alignedAlloc
    rw [(badArgs_iff h0).2 ⟨a, ha, hd⟩, if_neg (by decide), if_neg hs]
    dsimp only
    rw [hoff, hsys]
    dsimp only
    rw [hint, if_neg (by omega), if_neg (by omega), Int.toNat_natCast, hw]
    rfl
  · intro mem' hl' hmem
    unfold alignedFree
    rw [hdd, Nat.add_sub_cancel_left]
    have : rd mem' (d - 1) = some (BitVec.ofNat 8 d) := by
      unfold rd
      rw [hmem (d - 1) (.inl (by omega)), hr]
      rfl
    rw [this]
    show some (((base + al) &&& ~~~(al - 1)) - _) = _
    congr 1
    apply BitVec.eq_of_toNat_eq
    have hz : ((BitVec.ofNat 8 d).zeroExtend w).toNat = d := by
      rw [BitVec.toNat_setWidth, BitVec.toNat_ofNat, Nat.mod_eq_of_lt (show d < 2 ^ 8 by omega),
        Nat.mod_eq_of_lt (by omega)]
    have := base.isLt
    rw [BitVec.toNat_sub, hz, hdd, show 2 ^ w - d + (base.toNat + d) = base.toNat + 2 ^ w by omega,
      Nat.add_mod_right, Nat.mod_eq_of_lt this]

/-- **C48, allocation.** Let the alignment be `2^a ≤ 128`, the size a positive multiple, and let `malloc` return a
block inside the address space.  Then the returned pointer is aligned, the requested bytes behind it lie in the
block, the byte before it lies in the block and holds the distance, and `faest_aligned_free` passes the address of
the block to `free`, whatever has been written to the requested bytes. -/
theorem C48_alloc (sys : BitVec w → Option (BitVec w)) (al size base : BitVec w) (a : Nat) (ha : al.toNat = 2 ^ a)
    (h7 : a ≤ 7) (hs : size ≠ 0) (hd : 2 ^ a ∣ size.toNat) (hfit : size.toNat + 2 ^ a < 2 ^ w)
    (hsys : sys (size + al) = some base) (hblk : base.toNat + (size.toNat + 2 ^ a) ≤ 2 ^ w) :
    ∃ mem p, alignedAlloc sys al size = some (.block (size + al) base mem p) ∧
      (size + al).toNat = size.toNat + 2 ^ a ∧ mem.length = size.toNat + 2 ^ a ∧
      2 ^ a ∣ p.toNat ∧ base.toNat < p.toNat ∧ p.toNat + size.toNat ≤ base.toNat + (size.toNat + 2 ^ a) ∧
      ∀ mem' : Mem Byte, mem'.length = mem.length →
        (∀ k, k < p.toNat - base.toNat ∨ p.toNat - base.toNat + size.toNat ≤ k → mem'[k]? = mem[k]?) →
        alignedFree base mem' p = some base := by
  have h128 : 2 ^ a ≤ 128 := Nat.pow_le_pow_right (by decide) h7
  obtain ⟨d, h1, h2, h3, -, h4⟩ := C48_alloc_any sys al size base a ha hs hd hfit hsys hblk
  obtain ⟨mem, p, e1, e2, e3, e4, e5⟩ := h4 (by omega)
  exact ⟨mem, p, e1, e2, e3, e4 ▸ h3, by omega, by omega, e5⟩

/-- **C48, the limit of the sizes is needed.** For sizes at the end of the range the argument of `malloc` wraps to 0
although the request is not refused: `faest_aligned_alloc(16, 2^64 - 16)`. -/
theorem C48_wrap : badArgs (16 : BitVec 64) (BitVec.ofNat 64 (2 ^ 64 - 16)) = false ∧
    mallocSize (16 : BitVec 64) (BitVec.ofNat 64 (2 ^ 64 - 16)) = 0 := by decide

/-- **C48, posix_memalign.** For an alignment `2^a` and a multiple of it as size, the arguments passed to
`posix_memalign` satisfy its requirement (a power of two and a multiple of `sizeof(void*) = 2^v`), the alignment is
at least the requested one, and the size is at least the requested one and a multiple of the alignment. -/
theorem C48_posix_memalign (vp al size : BitVec w) (a v : Nat) (hv : vp.toNat = 2 ^ v) (ha : al.toNat = 2 ^ a)
    (hd : 2 ^ a ∣ size.toNat) (hfit : size.toNat + 2 ^ v < 2 ^ w) :
    ∃ b al' size', memalignArgs vp al size = some (al', size') ∧ al'.toNat = 2 ^ b ∧ 2 ^ v ∣ al'.toNat ∧
      2 ^ a ∣ al'.toNat ∧ 2 ^ b ∣ size'.toNat ∧ size.toNat ≤ size'.toNat := by
  have hp := Nat.two_pow_pos a
  have hpv := Nat.two_pow_pos v
  have h0 : al ≠ 0 := fun h => by rw [h] at ha; simp at ha; omega
  unfold memalignArgs
  rw [(badArgs_iff h0).2 ⟨a, ha, hd⟩, if_neg (by decide)]
  by_cases hlt : al < vp
  · rw [if_pos hlt]
    have hav : a < v := (Nat.pow_lt_pow_iff_right (by decide : 1 < 2)).1 (by
      have : al.toNat < vp.toNat := hlt
      omega)
    have h1 : (1 : BitVec w).toNat = 1 := by
      show (BitVec.ofNat w 1).toNat = 1
      rw [BitVec.toNat_ofNat, Nat.mod_eq_of_lt (by omega)]
    have hsum : (size + vp - 1).toNat = size.toNat + 2 ^ v - 1 := by
      have := size.isLt
      rw [BitVec.toNat_sub, BitVec.toNat_add, h1, hv, Nat.mod_eq_of_lt hfit,
        show 2 ^ w - 1 + (size.toNat + 2 ^ v) = (size.toNat + 2 ^ v - 1) + 2 ^ w by omega, Nat.add_mod_right,
        Nat.mod_eq_of_lt (by omega)]
    refine ⟨v, vp, _, rfl, hv, hv ▸ Nat.dvd_refl _, by rw [hv]; exact Nat.pow_dvd_pow 2 (by omega), ?_, ?_⟩
    · rw [clear_low hv]; exact Nat.dvd_mul_left _ _
    · rw [clear_low hv, hsum]
      have h2 := Nat.div_add_mod' (size.toNat + 2 ^ v - 1) (2 ^ v)
      have h3 := Nat.mod_lt (size.toNat + 2 ^ v - 1) hpv
      omega
  · rw [if_neg hlt]
    have hva : v ≤ a := (Nat.pow_le_pow_iff_right (by decide : 1 < 2)).1 (by
      have : ¬al.toNat < vp.toNat := hlt
      omega)
    exact ⟨a, al, size, rfl, ha, by rw [ha]; exact Nat.pow_dvd_pow 2 hva, ha ▸ Nat.dvd_refl _, hd, Nat.le_refl _⟩

end

/-- **C48, the calls.** Every call of `faest_aligned_alloc` asks for a positive multiple of the alignment, which is a
power of two of at most 32, and for less than 2^18 bytes. -/
theorem C48_calls (i : ParamId) (vec : Bool) (n : Nat) (hn : n ∈ elementCounts (params i)) :
    let s := n * elemSize vec (params i).lambda
    (elemAlign vec (params i).lambda = 2 ^ 4 ∨ elemAlign vec (params i).lambda = 2 ^ 5) ∧
      elemAlign vec (params i).lambda ∣ s ∧ 0 < s ∧ s < 2 ^ 18 := by
  revert n
  cases i <;> cases vec <;> decide

/-- An alignment of 512 and a block at distance 256 from the next aligned address. -/
example := C48_alloc_any (fun _ => some 0x1100#64) 512 4096 0x1100 9 rfl (by decide) ⟨8, rfl⟩ (by decide) rfl (by decide)
/-- A 64-bit case: `malloc` returns a block which is aligned to 8 bytes only. -/
example := C48_alloc (fun _ => some 0x1008#64) 32 4096 0x1008 5 rfl (by decide) (by decide) ⟨128, rfl⟩ (by decide) rfl
  (by decide)

end Faest.Props
