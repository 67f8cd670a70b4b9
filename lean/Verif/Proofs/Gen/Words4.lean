/-
The small fields and the byte operations of compat.h (`Model/Gen/Fields*.lean`).
-/
import Verif.Proofs.Gen.Words3

namespace Faest.GenF

open Faest.Words Faest.Words.Impl Faest.Spec Polynomial

/-! ### Bytes -/

theorem and1_32 (x : BitVec 32) : x &&& 1#32 = if x.getLsbD 0 then 1#32 else 0#32 := by
  apply BitVec.eq_of_getLsbD_eq
  intro i hi
  rw [BitVec.getLsbD_and]
  by_cases h : i = 0
  · subst h; cases x.getLsbD 0 <;> rfl
  · have : (1#32).getLsbD i = false := by simp [h]
    rw [this, Bool.and_false]
    split
    · exact this.symm
    · simp

theorem and1_64 (x : BitVec 64) : x &&& 1#64 = if x.getLsbD 0 then 1#64 else 0#64 := by
  apply BitVec.eq_of_getLsbD_eq
  intro i hi
  rw [BitVec.getLsbD_and]
  by_cases h : i = 0
  · subst h; cases x.getLsbD 0 <;> rfl
  · have : (1#64).getLsbD i = false := by simp [h]
    rw [this, Bool.and_false]
    split
    · exact this.symm
    · simp

theorem neg_and1 (x : BitVec 64) : -(x &&& 1#64) = maskOf 64 (x.getLsbD 0) := by
  rw [and1_64]; cases x.getLsbD 0 <;> rfl

theorem step_mask (x : Byte) (i : Nat) :
    ((x.zeroExtend 32 >>> i) &&& 1#32) = if x.getLsbD i then 1#32 else 0#32 := by
  rw [and1_32, BitVec.getLsbD_ushiftRight, BitVec.getLsbD_setWidth]
  by_cases h : i + 0 < 32
  · simp only [Nat.add_zero] at h ⊢; simp [h]
  · rw [BitVec.getLsbD_of_ge x i (by omega)]
    simp only [Nat.add_zero] at h ⊢
    simp [h]

theorem dbl8 : ∀ a : Byte, (((a.zeroExtend 32) <<< 1) ^^^
    ((((-(((a.zeroExtend 32) >>> 7) &&& 1#32)).truncate 8 : Byte).zeroExtend 32) &&& 27#32)).truncate 8
    = bvDbl a := by decide +kernel

theorem mulbit8 (a : Byte) (b : Bool) :
    ((-(if b then 1#32 else 0#32) &&& (a.zeroExtend 32)) : BitVec 32).truncate 8 = maskOf 8 b &&& a := by
  revert a b; decide +kernel

theorem xor_mulbit8 (r a : Byte) (b : Bool) :
    ((r.zeroExtend 32) ^^^ (-(if b then 1#32 else 0#32) &&& (a.zeroExtend 32)) : BitVec 32).truncate 8
    = r ^^^ (maskOf 8 b &&& a) := by
  rw [← mulbit8]
  apply BitVec.eq_of_getLsbD_eq
  intro i hi
  simp only [BitVec.truncate, BitVec.zeroExtend, BitVec.getLsbD_setWidth, BitVec.getLsbD_xor, hi, decide_true, Bool.true_and,
    show i < 32 by omega]

theorem loop8 (a b : Byte) (n : Nat) : forR 1 (n + 1) (a, maskOf 8 (b.getLsbD 0) &&& a)
    (fun idx s => some (bvDbl s.1, s.2 ^^^ (maskOf 8 (b.getLsbD idx) &&& bvDbl s.1))) = some (bvMulLoop a b n) := by
  unfold forR
  rw [Nat.add_sub_cancel]
  induction n with
  | zero => rfl
  | succ n ih => rw [forN_succ, ih, Nat.add_comm 1 n]; rfl

theorem loop64 (a b : U64) (n : Nat) : forR 1 (n + 1) (a, maskOf 64 (b.getLsbD 0) &&& a)
    (fun idx s => some (bvDbl s.1, s.2 ^^^ (maskOf 64 (b.getLsbD idx) &&& bvDbl s.1))) = some (bvMulLoop a b n) := by
  unfold forR
  rw [Nat.add_sub_cancel]
  induction n with
  | zero => rfl
  | succ n ih => rw [forN_succ, ih, Nat.add_comm 1 n]; rfl

theorem dbl64 (a : U64) : (a <<< 1) ^^^ (-((a >>> 63) &&& 1#64) &&& 27#64) = bvDbl a := by
  rw [neg_and1, BitVec.getLsbD_ushiftRight]
  rfl

theorem first8 (a b : Byte) : ((-((b.zeroExtend 32) &&& 1#32)) &&& (a.zeroExtend 32)).truncate 8
    = maskOf 8 (b.getLsbD 0) &&& a := by
  have := step_mask b 0
  rw [BitVec.ushiftRight_zero] at this
  rw [this, mulbit8]

namespace S

theorem mul8 (a b : Byte) : bf8_mul a b = some (bfMul ⟨a⟩ ⟨b⟩).v := by
  unfold bf8_mul
  simp only [Option.bind_eq_bind, Option.pure_def, step_mask, first8, xor_mulbit8]
  have e : ∀ a : Byte, (((a.zeroExtend 32) <<< 1) ^^^
    ((((-(if a.getLsbD 7 then 1#32 else 0#32)).truncate 8 : Byte).zeroExtend 32) &&& 27#32)).truncate 8
    = bvDbl a := by intro a; rw [← dbl8 a, step_mask]
  simp only [e]
  rw [loop8 a b 7]
  rfl

theorem square8 (a : Byte) : bf8_square a = some (bfMul ⟨a⟩ ⟨a⟩).v := (mul8 a a)

theorem inv8 (a : Byte) : bf8_inv a = some (bf8Inv ⟨a⟩).v := by
  unfold bf8_inv
  simp only [mul8, square8, Option.bind_eq_bind, Option.bind_some]
  rfl

theorem mul64 (a b : U64) : bf64_mul a b = some (bfMul ⟨a⟩ ⟨b⟩).v := by
  unfold bf64_mul
  simp only [Option.bind_eq_bind, Option.pure_def, dbl64]
  simp only [neg_and1, BitVec.getLsbD_ushiftRight, Nat.add_zero]
  rw [loop64 a b 63]
  rfl

/-- The interface of the translated GF(2^8). -/
def code8 : SmallCode 8 := ⟨bf8_zero, bf8_one, bf8_from_bit, bf8_add, bf8_mul, bf8_load, bf8_store⟩
/-- The interface of the translated GF(2^64). -/
def code64 : SmallCode 64 := ⟨bf64_zero, bf64_one, bf64_from_bit, bf64_add, bf64_mul, bf64_load, bf64_store⟩
/-- On a big-endian host. -/
def code64be : SmallCode 64 :=
  ⟨bf64_zero, bf64_one, bf64_from_bit, bf64_add, bf64_mul, BE.bf64_load, BE.bf64_store⟩

theorem add8 (a b : Byte) : bf8_add a b = some (a ^^^ b) := by
  unfold bf8_add
  congr 1
  apply BitVec.eq_of_getLsbD_eq
  intro i hi
  simp only [BitVec.truncate, BitVec.zeroExtend, BitVec.getLsbD_setWidth, BitVec.getLsbD_xor, hi, decide_true, Bool.true_and,
    show i < 32 by omega]

theorem fromBit8 : ∀ x : Byte, bf8_from_bit x = some (BitVec.ofNat 8 (x.toNat % 2)) := by decide +kernel

theorem fromBit64 : ∀ x : Byte, bf64_from_bit x = some (BitVec.ofNat 64 (x.toNat % 2)) := by decide +kernel

theorem byteOf_zero8 (a : Byte) : byteOf a 0 = a := by revert a; decide +kernel

theorem code8_correct : code8.Correct f8 where
  zero := rfl
  one := rfl
  fromBit := fromBit8
  add := add8
  mul a b := ⟨_, mul8 a b, BF.polyOf_mul BF.modPoly_eq_f8 (by decide) ⟨a⟩ ⟨b⟩⟩
  load src o g h := ⟨g 0, by
    show bf8_load src o = _
    unfold bf8_load
    rw [show rd src o = some (g 0) from h 0 (by decide)], fun j hj => by
      obtain rfl : j = 0 := by omega
      exact byteOf_zero8 _⟩
  store dst o a h := by
    show ∃ d, bf8_store dst o a = _ ∧ _
    unfold bf8_store
    have h' : o < dst.length := by omega
    refine ⟨dst.set o (some a), by unfold wr; rw [if_pos h'], List.length_set, fun i => ?_⟩
    unfold rd
    rw [List.getElem?_set]
    by_cases e : o = i
    · subst e
      rw [if_pos rfl, if_pos h', if_pos (by omega), Nat.sub_self, byteOf_zero8]
      rfl
    · rw [if_neg e, if_neg (by omega)]

theorem u64C_congr {g h : Nat → Byte} (e : ∀ j, j < 8 → g j = h j) : u64C g = u64C h := by
  have := wordOf_congr (be := false) e
  exact this

theorem byteOf_u64C (g : Nat → Byte) (j : Nat) (hj : j < 8) : byteOf (u64C g) j = g j := by
  apply BitVec.eq_of_getLsbD_eq
  intro i hi
  unfold byteOf
  rw [BitVec.getLsbD_extractLsb', u64C_getLsbD _ _ (by omega), show (8 * j + i) / 8 = j by omega,
    show (8 * j + i) % 8 = i by omega]
  simp [hi]

theorem objIn8 (be : Bool) {src : Mem Byte} {o : Nat} {g : Nat → Byte} (h : ∀ i, i < 8 → rd src (o + i) = some (g i)) :
    objIn be 1 src o 8 = some #v[wordOf be g] := by
  unfold objIn memIn
  rw [rdN_has (by decide) h]
  simp only [Option.bind_eq_bind, Option.bind_some]
  rw [if_pos (by decide)]
  have : tabP (8 / 8) (fun w => wordOf be fun j => (tabP 8 g).getD (8 * w + j) 0) = [wordOf be g] := by
    refine congrArg (fun x => [x]) (wordOf_congr fun j hj => ?_)
    rw [Nat.mul_zero, Nat.zero_add, getD_tabP 8 _ j hj]
  rw [this]
  rfl

theorem memOut8 (be : Bool) {dst : Mem Byte} {o : Nat} (a : U64) (h : o + 8 ≤ dst.length) :
    ∃ dst', memOut be dst o #v[le64 be a] 8 = some dst' ∧ dst'.length = dst.length ∧
      ∀ i, rd dst' i = if o ≤ i ∧ i < o + 8 then some (byteOf a (i - o)) else rd dst i := by
  unfold memOut
  rw [if_pos (by decide)]
  obtain ⟨m, h1, h2, h3⟩ := wrN_some (m := dst) (off := o)
    (l := tabP 8 fun p => bytesOf be ((#v[le64 be a] : Ws 1).toList.getD (p / 8) 0) (p % 8)) (by rw [tabP_length]; omega)
  refine ⟨m, h1, h2, fun i => ?_⟩
  rw [h3 i, tabP_length]
  split
  · rename_i hi
    rw [tabP_getElem?, if_pos (by omega), show (i - o) / 8 = 0 by omega, show (i - o) % 8 = i - o by omega]
    have h2 : ∀ x : U64, (#v[x] : Ws 1).toList.getD 0 0 = x := fun _ => rfl
    rw [h2, bytesOf_le64 be a (i - o) (by omega)]
    rfl
  · rfl

theorem code64_correct : code64.Correct f64 where
  zero := rfl
  one := rfl
  fromBit := fromBit64
  add _ _ := rfl
  mul a b := ⟨_, mul64 a b, BF.polyOf_mul BF.modPoly_eq_f64 (by decide) ⟨a⟩ ⟨b⟩⟩
  load src o g h := ⟨u64C g, by
    show bf64_load src o = _
    unfold bf64_load
    rw [objIn8 false h]; rfl, byteOf_u64C g⟩
  store dst o a h := by
    obtain ⟨d, h1, h2⟩ := memOut8 false a h
    exact ⟨d, by
      show bf64_store dst o a = _
      unfold bf64_store
      rw [show memOut false dst o #v[a] 8 = some d from h1], h2⟩

theorem code64be_correct : code64be.Correct f64 where
  zero := rfl
  one := rfl
  fromBit := fromBit64
  add _ _ := rfl
  mul a b := ⟨_, mul64 a b, BF.polyOf_mul BF.modPoly_eq_f64 (by decide) ⟨a⟩ ⟨b⟩⟩
  load src o g h := ⟨u64C g, by
    show BE.bf64_load src o = _
    unfold BE.bf64_load
    rw [objIn8 true h, Option.bind_eq_bind, Option.bind_some]
    exact congrArg some (le64_wordOf true g), byteOf_u64C g⟩
  store dst o a h := by
    obtain ⟨d, h1, h2⟩ := memOut8 true a h
    exact ⟨d, by
      show BE.bf64_store dst o a = _
      unfold BE.bf64_store
      rw [h1], h2⟩

/-- `bf8_square` is the product with itself. -/
theorem square8_correct (a : Byte) : ∃ c, bf8_square a = some c ∧ polyOf c = (polyOf a * polyOf a) %ₘ f8 :=
  ⟨_, square8 a, BF.polyOf_mul BF.modPoly_eq_f8 (by decide) ⟨a⟩ ⟨a⟩⟩

/-- `bf8_inv`: zero goes to zero, every other element to its inverse. -/
theorem inv8_correct (a : Byte) : ∃ c, bf8_inv a = some c ∧ (a = 0 → c = 0) ∧
    (a ≠ 0 → (polyOf a * polyOf c) %ₘ f8 = 1) := by
  refine ⟨_, inv8 a, fun h => by subst h; decide +kernel, fun h => ?_⟩
  rw [← BF.polyOf_mul BF.modPoly_eq_f8 (by decide) ⟨a⟩ (bf8Inv ⟨a⟩)]
  rw [← BF.mul_def, mul_comm, BF.bf8Inv_mul ⟨a⟩ (fun e => h (congrArg BF.v e))]
  exact BF.toPoly_one (n := 8) (by decide)

theorem parity8_eq : ∀ x : Byte, parity8 x
    = some (BitVec.ofNat 8 ((∑ i ∈ Finset.range 8, if x.getLsbD i then 1 else 0) % 2)) := by decide +kernel

theorem rotr8_mod (x : Byte) (c : Nat) : rotr8 x c = rotr8 x (c % 8) := by
  have h : ∀ c : Nat, c &&& (8 * 1 - 1) = c % 8 := fun c => Nat.and_two_pow_sub_one_eq_mod c 3
  unfold rotr8
  simp only [h, Nat.mod_mod]

theorem rotl8_mod (x : Byte) (c : Nat) : rotl8 x c = rotl8 x (c % 8) := by
  have h : ∀ c : Nat, c &&& (8 * 1 - 1) = c % 8 := fun c => Nat.and_two_pow_sub_one_eq_mod c 3
  unfold rotl8
  simp only [h, Nat.mod_mod]

theorem rotr8_tab : ∀ x : Byte, ∀ c, c < 8 → ∃ y, rotr8 x c = some y ∧
    ∀ i, i < 8 → y.getLsbD i = x.getLsbD ((i + c) % 8) := by
  have h : ∀ x : Byte, ∀ c, c < 8 → rotr8 x c = some ((rotr8 x c).getD 0) ∧
    ∀ i, i < 8 → ((rotr8 x c).getD 0).getLsbD i = x.getLsbD ((i + c) % 8) := by decide +kernel
  exact fun x c hc => ⟨_, h x c hc⟩

theorem rotl8_tab : ∀ x : Byte, ∀ c, c < 8 → ∃ y, rotl8 x c = some y ∧
    ∀ i, i < 8 → y.getLsbD ((i + c) % 8) = x.getLsbD i := by
  have h : ∀ x : Byte, ∀ c, c < 8 → rotl8 x c = some ((rotl8 x c).getD 0) ∧
    ∀ i, i < 8 → ((rotl8 x c).getD 0).getLsbD ((i + c) % 8) = x.getLsbD i := by decide +kernel
  exact fun x c hc => ⟨_, h x c hc⟩

theorem rotr8_correct (x : Byte) (c : Nat) : ∃ y, rotr8 x c = some y ∧
    ∀ i, i < 8 → y.getLsbD i = x.getLsbD ((i + c) % 8) := by
  obtain ⟨y, h1, h2⟩ := rotr8_tab x (c % 8) (Nat.mod_lt _ (by decide))
  refine ⟨y, (rotr8_mod x c).trans h1, fun i hi => ?_⟩
  rw [h2 i hi, Nat.add_mod_mod]

theorem rotl8_correct (x : Byte) (c : Nat) : ∃ y, rotl8 x c = some y ∧
    ∀ i, i < 8 → y.getLsbD ((i + c) % 8) = x.getLsbD i := by
  obtain ⟨y, h1, h2⟩ := rotl8_tab x (c % 8) (Nat.mod_lt _ (by decide))
  refine ⟨y, (rotl8_mod x c).trans h1, fun i hi => ?_⟩
  rw [← h2 i hi, Nat.add_mod_mod]

/-- The functions the translation of the other files uses (`Model/CSem.lean`, `Model/Aes.lean`). -/
theorem rotr8_model (x : Byte) : rotr8 x 2 = some (Faest.rotr8 x 2) ∧ rotr8 x 5 = some (Faest.rotr8 x 5) ∧
    rotr8 x 7 = some (Faest.rotr8 x 7) := by revert x; decide +kernel

theorem parity8_model : ∀ x : Byte, parity8 x = some (Faest.parity8 x) := by decide +kernel

end S

/-! The other builds have the same small fields. -/

namespace VB

/-- The interface of the translated GF(2^8). -/
def code8 : SmallCode 8 := ⟨bf8_zero, bf8_one, bf8_from_bit, bf8_add, bf8_mul, bf8_load, bf8_store⟩
/-- The interface of the translated GF(2^64). -/
def code64 : SmallCode 64 := ⟨bf64_zero, bf64_one, bf64_from_bit, bf64_add, bf64_mul, bf64_load, bf64_store⟩
/-- On a big-endian host. -/
def code64be : SmallCode 64 :=
  ⟨bf64_zero, bf64_one, bf64_from_bit, bf64_add, bf64_mul, BE.bf64_load, BE.bf64_store⟩

theorem code8_correct : code8.Correct f8 := S.code8_correct
theorem code64_correct : code64.Correct f64 := S.code64_correct
theorem code64be_correct : code64be.Correct f64 := S.code64be_correct

theorem same : bf8_square = S.bf8_square ∧ bf8_inv = S.bf8_inv ∧ parity8 = S.parity8 ∧ rotr8 = S.rotr8 ∧
    rotl8 = S.rotl8 := ⟨rfl, rfl, rfl, rfl, rfl⟩

end VB

namespace VF

/-- The interface of the translated GF(2^8). -/
def code8 : SmallCode 8 := ⟨bf8_zero, bf8_one, bf8_from_bit, bf8_add, bf8_mul, bf8_load, bf8_store⟩
/-- The interface of the translated GF(2^64). -/
def code64 : SmallCode 64 := ⟨bf64_zero, bf64_one, bf64_from_bit, bf64_add, bf64_mul, bf64_load, bf64_store⟩
/-- On a big-endian host. -/
def code64be : SmallCode 64 :=
  ⟨bf64_zero, bf64_one, bf64_from_bit, bf64_add, bf64_mul, BE.bf64_load, BE.bf64_store⟩

theorem code8_correct : code8.Correct f8 := S.code8_correct
theorem code64_correct : code64.Correct f64 := S.code64_correct
theorem code64be_correct : code64be.Correct f64 := S.code64be_correct

theorem same : bf8_square = S.bf8_square ∧ bf8_inv = S.bf8_inv ∧ parity8 = S.parity8 ∧ rotr8 = S.rotr8 ∧
    rotl8 = S.rotl8 := ⟨rfl, rfl, rfl, rfl, rfl⟩

end VF

end Faest.GenF
