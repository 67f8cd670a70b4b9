/-
C36: the multi-word field code implements operations on 128/192/256-bit vectors, in the
struct build and in the vector-extension build.

`Spec.Repr x a` says that the words `x`, read in radix 2^64, have the value of the bit vector
`a`.  `Words.impls` lists the nine combinations of build and field size.
-/
import Verif.Proofs.WordsOps

namespace Faest.Props

open Faest.Words Faest.Spec Polynomial

/-- Every bit vector has exactly one representation, in every build. -/
theorem C36_repr_unique (I : Impl) (hI : I ∈ impls) (a : BitVec I.n) :
    ∃! x : Ws I.k, Repr x a := by
  have G := good_impls I hI
  have h1 := G.n64
  have hk := G.hk
  refine ⟨Vector.ofFn (fun q => a.extractLsb' (64 * q.val) 64), ?_, ?_⟩
  · refine repr_mk fun q => ?_
    by_cases hq : q < I.k
    · rw [wd_lt _ hq, Vector.getElem_ofFn]
    · rw [wd_ge _ (by omega), extract_zero _ (by omega)]; rfl
  · intro y hy
    apply Vector.ext
    intro q hq
    rw [Vector.getElem_ofFn, ← wd_lt _ hq]
    exact Repr.wd hy q

/-- Addition is exclusive or. -/
theorem C36_add (I : Impl) (hI : I ∈ impls) (x y : Ws I.k) (a b : BitVec I.n)
    (hx : Repr x a) (hy : Repr y b) : Repr (I.add x y) (a ^^^ b) :=
  Impl.add_repr (good_impls I hI) hx hy

/-- `shift_left_1` is the shift of the whole vector by one; the top bit is dropped. -/
theorem C36_shift (I : Impl) (hI : I ∈ impls) (x : Ws I.k) (a : BitVec I.n) (hx : Repr x a) :
    Repr (I.shl1 x) (a <<< 1) :=
  Impl.shl1_repr (good_impls I hI) hx

/-- `bit_to_uint64_mask` is the all-ones word if the bit of the vector is set and zero
otherwise; it is defined for all bits below `n`. -/
theorem C36_bit_mask (I : Impl) (hI : I ∈ impls) (x : Ws I.k) (a : BitVec I.n) (hx : Repr x a)
    (bit : Nat) (hb : bit < I.n) :
    I.bitMask x bit = some (if a.getLsbD bit then BitVec.allOnes 64 else 0#64) :=
  Impl.bitMask_eq (good_impls I hI) hx hb

/-- Multiplication: defined, and the words of the result represent the product computed on bit
vectors. -/
theorem C36_mul (I : Impl) (hI : I ∈ impls) (x y : Ws I.k) (a b : BitVec I.n)
    (hx : Repr x a) (hy : Repr y b) :
    ∃ z, I.mul x y = some z ∧ Repr z (bfMul ⟨a⟩ ⟨b⟩ : BF I.n).v :=
  Impl.mul_repr (good_impls I hI) hx hy

/-- Multiplication by a 64-bit element. -/
theorem C36_mul64 (I : Impl) (hI : I ∈ impls) (x : Ws I.k) (a : BitVec I.n) (b : BitVec 64)
    (hx : Repr x a) :
    ∃ z, I.mul64 x b = some z ∧ Repr z (bfMul64 ⟨a⟩ ⟨b⟩ : BF I.n).v :=
  Impl.mul64_repr (good_impls I hI) hx b

/-- Multiplication by the lowest bit of a byte: the vector itself or zero. -/
theorem C36_mul_bit (I : Impl) (hI : I ∈ impls) (x : Ws I.k) (a : BitVec I.n) (b : Byte)
    (hx : Repr x a) : Repr (I.mulBit x b) (if b.getLsbD 0 then a else 0#I.n) := by
  have h := Impl.mulBit_repr (good_impls I hI) hx b
  have e : a &&& maskOf I.n (b.getLsbD 0) = if b.getLsbD 0 then a else 0#I.n := by
    cases b.getLsbD 0
    · simp [maskOf]
    · rw [maskOf, if_pos rfl, BitVec.and_allOnes]; rfl
  rw [e] at h
  exact h

/-- The polynomial sum of `n` elements; if one of the elements is missing or not initialised
both sides are undefined. -/
theorem C36_sum_poly (I : Impl) (hI : I ∈ impls) (xs : Mem (Ws I.k)) (ys : Mem (BF I.n))
    (h : ∀ i, i < I.n → Option.Rel (fun x a => Repr x a.v) (rd xs i) (rd ys i)) :
    Option.Rel (fun z a => Repr z a.v) (I.sumPoly xs) (bfSumPoly ys) :=
  Impl.sumPoly_rel (good_impls I hI) h

/-- The field polynomial of the three sizes. -/
noncomputable def fieldPoly (n : Nat) : (ZMod 2)[X] :=
  if n = 128 then f128 else if n = 192 then f192 else f256

theorem modPoly_fieldPoly (I : Impl) (hI : I ∈ impls) : BF.modPoly I.n = fieldPoly I.n := by
  unfold fieldPoly
  rcases (good_impls I hI).nmem with h | h | h <;> rw [h]
  · rw [if_pos rfl, BF.modPoly_eq_f128]
  · rw [if_neg (by decide), if_pos rfl, BF.modPoly_eq_f192]
  · rw [if_neg (by decide), if_neg (by decide), BF.modPoly_eq_f256]

/-- The products against the polynomials of the specification: the words of the result are the
coefficients of the product modulo the field polynomial. -/
theorem C36_mul_poly (I : Impl) (hI : I ∈ impls) (x y : Ws I.k)
    (a b : BitVec I.n) (hx : Repr x a) (hy : Repr y b) :
    ∃ z, ∃ c : BitVec I.n, I.mul x y = some z ∧ Repr z c ∧
      polyOf c = (polyOf a * polyOf b) %ₘ fieldPoly I.n := by
  obtain ⟨z, h1, h2⟩ := C36_mul I hI x y a b hx hy
  have := (good_impls I hI).npos
  exact ⟨z, _, h1, h2, BF.polyOf_mul (modPoly_fieldPoly I hI) (by omega) ⟨a⟩ ⟨b⟩⟩

/-- The same for the multiplication by a 64-bit element. -/
theorem C36_mul64_poly (I : Impl) (hI : I ∈ impls) (x : Ws I.k)
    (a : BitVec I.n) (b : BitVec 64) (hx : Repr x a) :
    ∃ z, ∃ c : BitVec I.n, I.mul64 x b = some z ∧ Repr z c ∧
      polyOf c = (polyOf a * polyOf b) %ₘ fieldPoly I.n := by
  obtain ⟨z, h1, h2⟩ := C36_mul64 I hI x a b hx
  have := (good_impls I hI).npos
  exact ⟨z, _, h1, h2, BF.polyOf_mul64 (modPoly_fieldPoly I hI) (by omega) ⟨a⟩ ⟨b⟩⟩

/-- The polynomial sum is `∑ xs[i] · X^i` modulo the field polynomial. -/
theorem C36_sum_poly_poly (I : Impl) (hI : I ∈ impls) (xs : Mem (Ws I.k)) (a : Nat → BitVec I.n)
    (h : ∀ i, i < I.n → ∃ x, rd xs i = some x ∧ Repr x (a i)) :
    ∃ z, ∃ c : BitVec I.n, I.sumPoly xs = some z ∧ Repr z c ∧
      polyOf c = (∑ i ∈ Finset.range I.n, polyOf (a i) * X ^ i) %ₘ fieldPoly I.n := by
  have hn := (good_impls I hI).npos
  have hfull : Has (full I.n (fun i => (⟨a i⟩ : BF I.n))) 0 I.n (fun i => ⟨a i⟩) := has_full _ _
  have hs := C36_sum_poly I hI xs (full I.n (fun i => (⟨a i⟩ : BF I.n))) (by
    intro i hi
    obtain ⟨x, hx, hr⟩ := h i hi
    rw [hx, rd_full hi]
    exact Option.Rel.some hr)
  rw [BF.sumPoly_ok (by omega) hfull] at hs
  cases hz : I.sumPoly xs with
  | none => rw [hz] at hs; cases hs
  | some z =>
    rw [hz] at hs
    cases hs with
    | some hr =>
      refine ⟨z, _, rfl, hr, ?_⟩
      have hf := modPoly_fieldPoly I hI
      have e : ∀ b : BF I.n, BF.toPoly b = polyOf b.v := BF.toPoly_apply
      rw [← e, ← hf]
      refine BF.eq_modByMonic_of_dvd (BF.polyOf_degree_lt _) ?_
      rw [map_sum, ← Finset.sum_sub_distrib]
      refine Finset.dvd_sum fun i _ => ?_
      have hd := BF.dvd_toPoly_dblN (⟨a i⟩ : BF I.n) (by omega) i
      rw [BF.dblN_eq _ _ (by omega), mul_comm (X ^ i)] at hd
      exact hd

/-- Loads, for little- and big-endian hosts: undefined exactly if a source byte is. -/
theorem C36_load (I : Impl) (hI : I ∈ impls) (bigEndian : Bool) (src : Mem Byte) (off : Nat) :
    Option.Rel (fun z a => Repr z a.v) (I.load bigEndian src off) (bfLoad I.n src off) :=
  Impl.load_rel (good_impls I hI) bigEndian src off

/-- Stores, for little- and big-endian hosts. -/
theorem C36_store (I : Impl) (hI : I ∈ impls) (bigEndian : Bool) (dst : Mem Byte) (off : Nat)
    (x : Ws I.k) (a : BF I.n) (hx : Repr x a.v) :
    I.store bigEndian dst off x = bfStore dst off a :=
  Impl.store_eq (good_impls I hI) bigEndian dst off hx

/-- The constants and embeddings. -/
theorem C36_constants (I : Impl) (hI : I ∈ impls) :
    Repr I.zero (0#I.n) ∧ Repr I.one (1#I.n) ∧
    (∀ x : BitVec 64, Repr (I.from64 x) (x.zeroExtend I.n)) ∧
    (∀ x : Byte, Repr (I.from8 x) (x.zeroExtend I.n)) ∧
    (∀ x : Byte, Repr (I.fromBit x) ((x &&& 1).zeroExtend I.n)) :=
  have G := good_impls I hI
  ⟨Impl.zero_repr G, Impl.one_repr G, Impl.from64_repr G, Impl.from8_repr G, Impl.fromBit_repr G⟩

/-- `byte_combine` and `byte_combine_bits`. -/
theorem C36_byte_combine (I : Impl) (hI : I ∈ impls) :
    (∀ (xs : Mem (Ws I.k)) (ys : Mem (BF I.n)) (off : Nat),
      (∀ i, i < 8 → Option.Rel (fun x a => Repr x a.v) (rd xs (off + i)) (rd ys (off + i))) →
      Option.Rel (fun z a => Repr z a.v) (I.byteCombine xs off) (byteCombine ys off)) ∧
    (∀ x : Byte, Option.Rel (fun z a => Repr z a.v) (I.byteCombineBits x) (byteCombineBits I.n x)) :=
  have G := good_impls I hI
  ⟨fun _ _ _ h => Impl.byteCombine_rel G h, Impl.byteCombineBits_rel G⟩

/-- In the vector build of the 192-bit field the words represent a vector exactly if the fourth
word is zero … -/
theorem C36_fourth_word (x : Ws 4) : (∃ a : BitVec 192, Repr x a) ↔ x[3] = 0#64 := by
  constructor
  · rintro ⟨a, h⟩
    have := Repr.zero_of_le h (q := 3) (by decide)
    rwa [wd_lt x (by decide)] at this
  · intro h
    refine ⟨BitVec.ofNat 192 (wordsNat x.toList), ?_⟩
    unfold Spec.Repr
    rw [BitVec.toNat_ofNat, Nat.mod_eq_of_lt]
    have e : wordsNat x.toList = x[0].toNat + 2 ^ 64 * (x[1].toNat + 2 ^ 64 * (x[2].toNat +
        2 ^ 64 * (x[3].toNat + 2 ^ 64 * 0))) := by
      have hx : x.toList = [x[0], x[1], x[2], x[3]] := by
        apply List.ext_getElem (by simp)
        intro i h1 h2
        have h4 : i < 4 := by simpa using h2
        obtain rfl | rfl | rfl | rfl : i = 0 ∨ i = 1 ∨ i = 2 ∨ i = 3 := by omega
        all_goals simp
      rw [hx]
      rfl
    have h0 := x[0].isLt
    have h1 := x[1].isLt
    have h2 := x[2].isLt
    have h3 : x[3].toNat = 0 := by rw [h]; rfl
    rw [e, h3]
    omega

theorem shl1_fourth (shr64 : Ws 4 → Ws 4)
    (hs : shr64 = shr64_192_builtin ∨ shr64 = shr64_192_fn) (x : Ws 4) :
    (vShl1_192 shr64 x)[3] = 0#64 := by
  have hs' : shr64 = shr64_192_fn := by
    rcases hs with rfl | rfl
    · exact shr192_eq
    · rfl
  subst hs'
  rw [← wd_lt _ (by decide), wd_vShl1_192]
  rfl

/-- … and every routine keeps it zero. -/
theorem C36_fourth_word_stays_zero (shr64 : Ws 4 → Ws 4)
    (hs : shr64 = shr64_192_builtin ∨ shr64 = shr64_192_fn) :
    let I := vec192 shr64
    let Z : Ws 4 → Prop := fun x => x[3] = 0#64
    (∀ x y, Z x → Z y → Z (I.add x y)) ∧
    (∀ x, Z (I.shl1 x)) ∧
    (∀ x y, Z x → Z y → ∃ z, I.mul x y = some z ∧ Z z) ∧
    (∀ x b, Z x → ∃ z, I.mul64 x b = some z ∧ Z z) ∧
    (∀ x b, Z x → Z (I.mulBit x b)) ∧
    (∀ xs : Mem (Ws 4), (∀ i, i < 192 → ∃ x, rd xs i = some x ∧ Z x) →
      ∃ z, I.sumPoly xs = some z ∧ Z z) ∧
    (∀ be src off z, I.load be src off = some z → Z z) := by
  intro I Z
  have hI : I ∈ impls := by
    rcases hs with rfl | rfl <;> simp [impls, I]
  have G := good_impls I hI
  have hZ : ∀ x : Ws 4, Z x ↔ ∃ a : BitVec 192, Repr x a := fun x => (C36_fourth_word x).symm
  refine ⟨?_, ?_, ?_, ?_, ?_, ?_, ?_⟩
  · intro x y hx hy
    obtain ⟨a, ha⟩ := (hZ x).1 hx
    obtain ⟨b, hb⟩ := (hZ y).1 hy
    exact (hZ _).2 ⟨_, C36_add I hI x y a b ha hb⟩
  · intro x
    exact shl1_fourth shr64 hs x
  · intro x y hx hy
    obtain ⟨a, ha⟩ := (hZ x).1 hx
    obtain ⟨b, hb⟩ := (hZ y).1 hy
    obtain ⟨z, h1, h2⟩ := C36_mul I hI x y a b ha hb
    exact ⟨z, h1, (hZ _).2 ⟨_, h2⟩⟩
  · intro x b hx
    obtain ⟨a, ha⟩ := (hZ x).1 hx
    obtain ⟨z, h1, h2⟩ := C36_mul64 I hI x a b ha
    exact ⟨z, h1, (hZ _).2 ⟨_, h2⟩⟩
  · intro x b hx
    obtain ⟨a, ha⟩ := (hZ x).1 hx
    exact (hZ _).2 ⟨_, C36_mul_bit I hI x a b ha⟩
  · intro xs h
    have h' : ∀ i, ∃ a : BitVec 192, i < 192 → ∃ x, rd xs i = some x ∧ Repr x a := by
      intro i
      by_cases hi : i < 192
      · obtain ⟨x, h1, h2⟩ := h i hi
        obtain ⟨a, ha⟩ := (hZ x).1 h2
        exact ⟨a, fun _ => ⟨x, h1, ha⟩⟩
      · exact ⟨0, fun hh => absurd hh hi⟩
    choose a ha using h'
    obtain ⟨z, c, h1, h2, _⟩ := C36_sum_poly_poly I hI xs a ha
    exact ⟨z, h1, (hZ _).2 ⟨_, h2⟩⟩
  · intro be src off z hz
    have h := C36_load I hI be src off
    rw [hz] at h
    generalize bfLoad I.n src off = o at h
    cases h with
    | some h => exact (hZ _).2 ⟨_, h⟩

/-! ### Non-trivial cases -/

/-- The top bit of a 192-bit vector lies in the third word; shifting drops it (the mask keeps it
out of the fourth word), shifting bit 127 carries it from the second to the third word. -/
example : Repr (#v[0, 0, 0x8000000000000000#64, 0] : Ws 4) (BitVec.twoPow 192 191) := by
  unfold Spec.Repr; decide
example : ((vec192 shr64_192_builtin).shl1 #v[0, 0, 0x8000000000000000#64, 0]).toList
    = [0, 0, 0, 0] := by decide +kernel
example : ((vec192 shr64_192_builtin).shl1 #v[0, 0x8000000000000000#64, 0, 0]).toList
    = [0, 0, 1, 0] := by decide +kernel
example : (struct192.shl1 #v[0, 0x8000000000000000#64, 0]).toList = [0, 0, 1] := by decide +kernel
/-- Without the mask and the zero in the shuffle the fourth word would not stay zero. -/
example : (vShl1 shr64_256_fn #v[0, 0, 0x8000000000000000#64, 0]).toList = [0, 0, 0, 1] := by
  decide +kernel
/-- A product with a reduction, in the vector build. -/
example : ((vec256 shr64_256_builtin).mul #v[2, 0, 0, 0] #v[0, 0, 0, 0x8000000000000000#64]).map
    Vector.toList = some [0x425, 0, 0, 0] := by decide +kernel
/-- Loading 24 bytes into four words on a big-endian host. -/
example : ((vec192 shr64_192_fn).load true (ofList ((List.range 24).map (BitVec.ofNat 8))) 0).map
    Vector.toList = some [0x0706050403020100#64, 0x0f0e0d0c0b0a0908#64, 0x1716151413121110#64, 0] := by
  decide +kernel

end Faest.Props
