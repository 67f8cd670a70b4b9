/-
The functions of `Model/Gen/Fields*.lean` equal those of the hand-written word level.
-/
import Verif.Proofs.Gen.Words

set_option linter.unusedSimpArgs false

namespace Faest.GenF

open Faest.Words Faest.Words.Impl Faest.Spec

theorem bfValue_lt {k : Nat} (v : Ws k) (i : Nat) (h : i < k) : bfValue v i = some v[i] := by
  unfold bfValue; simp [h]

theorem setWord_lt {k : Nat} (v : Ws k) (i : Nat) (x : U64) (h : i < k) :
    setWord v i x = some (v.set i x h) := dif_pos h

theorem ze_trunc (b : Byte) : ((b.zeroExtend 32 &&& 1#32).truncate 8).zeroExtend 64
    = (b &&& 1).zeroExtend 64 := by revert b; decide +kernel

theorem ze_trunc8 (b : Byte) : (b.zeroExtend 32 &&& 1#32).truncate 8 = b &&& 1 := by
  revert b; decide +kernel

theorem shr_and (x : Byte) (i : Nat) : ((x.zeroExtend 32 >>> i) &&& 1#32).truncate 8
    = (x >>> i) &&& 1 := by
  apply BitVec.eq_of_getLsbD_eq
  intro j hj
  have h1 : (1 : Byte).getLsbD j = (1#32).getLsbD j := by
    revert j; decide
  have h2 : i + j < 32 ∨ x.getLsbD (i + j) = false := by
    by_cases h : i + j < 32
    · exact .inl h
    · exact .inr (BitVec.getLsbD_of_ge _ _ (by omega))
  rw [BitVec.getLsbD_setWidth, BitVec.getLsbD_and, BitVec.getLsbD_and, BitVec.getLsbD_ushiftRight,
    BitVec.getLsbD_ushiftRight, BitVec.getLsbD_setWidth, h1]
  rcases h2 with h2 | h2
  · simp only [hj, h2, decide_true, Bool.true_and]
  · simp only [h2, Bool.and_false, Bool.false_and]

theorem shr_and64 (x : Byte) (i : Nat) : ((x.zeroExtend 32 >>> i) &&& 1#32).zeroExtend 64 &&& 1#64
    = ((x >>> i) &&& 1).zeroExtend 64 &&& 1 := by
  rw [← shr_and]
  generalize (x.zeroExtend 32 >>> i) = y
  apply BitVec.eq_of_getLsbD_eq
  intro j hj
  rw [BitVec.getLsbD_and, BitVec.getLsbD_and, BitVec.getLsbD_setWidth, BitVec.getLsbD_setWidth,
    BitVec.getLsbD_setWidth]
  by_cases h : j = 0
  · subst h; rfl
  · have : (1#64).getLsbD j = false := by
      simp [h]
    have h' : (1 : BitVec 64).getLsbD j = false := this
    rw [this, h']; simp

theorem sumPoly_drop (I : Impl) (xs : Mem (Ws I.k)) (o : Nat) :
    I.sumPoly (xs.drop o) = (rd xs (o + (I.n - 1))).bind fun r => forR 1 I.n r (fun i ret =>
      (I.dbl ret).bind fun d => (rd xs (o + (I.n - 1 - i))).bind fun x => some (I.add d x)) := by
  unfold Impl.sumPoly
  simp only [rd_drop']
  rfl

theorem load_false (I : Impl) (src : Mem Byte) (o : Nat) :
    I.load false src o = (rdN src o (I.n / 8)).bind fun l =>
      (wrN (malloc I.k) 0 (tabP (I.n / 64) (fun i =>
        wordOf false (fun j => l.getD (8 * i + j) 0)))).bind fun r =>
      (if I.loadZero3 then wr r 3 0 else some r).bind (whole I.k) := by
  unfold Impl.load whole
  simp only [le64, Bool.false_eq_true, if_false, Option.bind_eq_bind, Option.pure_def]
  congr 1; funext l; congr 1; funext r; split <;> rfl

theorem memIn_div (be : Bool) (m : Mem U64) (i : Nat) (src : Mem Byte) (o w : Nat) :
    memIn be m i src o (8 * w) = (rdN src o (8 * w)).bind fun l =>
      wrN m i (tabP w (fun w => wordOf be (fun j => l.getD (8 * w + j) 0))) := by
  unfold memIn
  simp only [Nat.mul_mod_right, if_true, Nat.mul_div_cancel_left _ (show 0 < 8 by decide)]
  rfl

theorem bits_struct (I : Impl) (h : I.vec = false) (x : Byte) : I.byteCombineBits x =
    forR 1 8 (I.fromBit (x &&& 1)) (fun i out =>
      (I.alpha (i - 1)).bind fun al => some (I.add out (I.mulBit al ((x >>> i) &&& 1)))) := by
  unfold Impl.byteCombineBits
  rw [h]
  rfl

theorem bind_ext {α β : Type} {o o' : Option α} {f g : α → Option β} (ho : o = o')
    (h : ∀ a, f a = g a) : o.bind f = o'.bind g := by
  subst ho
  rw [show f = g from funext h]

theorem forR_ext {S : Type} {lo hi : Nat} {s s' : S} {f g : Nat → S → Option S} (hs : s = s')
    (h : ∀ i s, f i s = g i s) : forR lo hi s f = forR lo hi s' g := by
  subst hs
  rw [show f = g from funext fun i => funext (h i)]

def vbits {k : Nat} (al : Nat → Option (Ws k)) (fb : Ws k) (x : Byte) : Option (Ws k) :=
  (al 0).bind fun a1 => (al 1).bind fun a2 => (al 2).bind fun a3 => (al 3).bind fun a4 => (al 4).bind fun a5 => (al 5).bind fun a6 => (al 6).bind fun a7 =>
  some (vXor (vXor (vXor (vXor (vXor (vXor (vXor fb (vAndS a1 (-((((x >>> 1) &&& 1).zeroExtend 64) &&& 1)))) (vAndS a2 (-((((x >>> 2) &&& 1).zeroExtend 64) &&& 1)))) (vAndS a3 (-((((x >>> 3) &&& 1).zeroExtend 64) &&& 1)))) (vAndS a4 (-((((x >>> 4) &&& 1).zeroExtend 64) &&& 1)))) (vAndS a5 (-((((x >>> 5) &&& 1).zeroExtend 64) &&& 1)))) (vAndS a6 (-((((x >>> 6) &&& 1).zeroExtend 64) &&& 1)))) (vAndS a7 (-((((x >>> 7) &&& 1).zeroExtend 64) &&& 1))))

theorem vbits_c {k : Nat} (al : Nat → Option (Ws k)) (fb : Ws k) (x : Byte) :
    ((al 0).bind fun x2 => (al 1).bind fun x3 => (al 2).bind fun x4 => (al 3).bind fun x5 => (al 4).bind fun x6 => (al 5).bind fun x7 => (al 6).bind fun x8 =>
  some (vXor (vXor (vXor (vXor (vXor (vXor (vXor fb (vAndS x2 (-(((((x.zeroExtend 32) >>> 1) &&& 1#32).zeroExtend 64) &&& 1#64)))) (vAndS x3 (-(((((x.zeroExtend 32) >>> 2) &&& 1#32).zeroExtend 64) &&& 1#64)))) (vAndS x4 (-(((((x.zeroExtend 32) >>> 3) &&& 1#32).zeroExtend 64) &&& 1#64)))) (vAndS x5 (-(((((x.zeroExtend 32) >>> 4) &&& 1#32).zeroExtend 64) &&& 1#64)))) (vAndS x6 (-(((((x.zeroExtend 32) >>> 5) &&& 1#32).zeroExtend 64) &&& 1#64)))) (vAndS x7 (-(((((x.zeroExtend 32) >>> 6) &&& 1#32).zeroExtend 64) &&& 1#64)))) (vAndS x8 (-(((((x.zeroExtend 32) >>> 7) &&& 1#32).zeroExtend 64) &&& 1#64))))) = vbits al fb x := by
  unfold vbits
  simp only [shr_and64]

theorem bits_vec (I : Impl) (h : I.vec = true) (ha : I.and64 = vAndS) (x : Byte) :
    I.byteCombineBits x = vbits I.alpha (I.fromBit (x &&& 1)) x := by
  unfold Impl.byteCombineBits vbits Impl.mulBit
  rw [h, ha]
  rfl


/-! ### Without vector extensions -/

namespace S

theorem and128 (x : Ws 2) (b : U64) : bf128_and_64 x b = some (sAnd64 x b) := by
  simp [bf128_and_64, sAnd64, forR, forN, bfValue_lt, setWord_lt, Fin.foldl_succ_last]
theorem add128 (x y : Ws 2) : bf128_add x y = some (sAdd x y) := by
  simp [bf128_add, sAdd, forR, forN, bfValue_lt, setWord_lt, Fin.foldl_succ_last]

theorem mask128 (x : Ws 2) (b : Nat) : bf128_bit_to_uint64_mask x b = struct128.bitMask x b := rfl

theorem mul128 (x y : Ws 2) : bf128_mul x y = struct128.mul x y := by
  unfold bf128_mul Impl.mul
  simp only [and128, add128, mask128, bf128_shift_left_1, Option.bind_eq_bind, Option.bind_some, Option.pure_def]
  rfl
theorem mul64_128 (x : Ws 2) (y : U64) : bf128_mul_64 x y = struct128.mul64 x y := by
  unfold bf128_mul_64 Impl.mul64
  simp only [and128, add128, mask128, bf128_shift_left_1, Option.bind_eq_bind, Option.bind_some, Option.pure_def]
  rfl
theorem dbl128 (x : Ws 2) : bf128_dbl x = struct128.dbl x := by
  unfold bf128_dbl Impl.dbl
  simp only [and128, add128, mask128, bf128_shift_left_1, Option.bind_eq_bind, Option.bind_some, Option.pure_def]
  rfl
theorem mulBit128 (x : Ws 2) (b : Byte) : bf128_mul_bit x b = some (struct128.mulBit x b) := by
  unfold bf128_mul_bit Impl.mulBit
  simp only [and128, add128, mask128, bf128_shift_left_1, Option.bind_eq_bind, Option.bind_some, Option.pure_def]
  all_goals rfl
theorem sumPoly128 (xs : Mem (Ws 2)) (o : Nat) : bf128_sum_poly xs o = struct128.sumPoly (xs.drop o) := by
  rw [sumPoly_drop struct128 xs o]
  unfold bf128_sum_poly
  simp only [add128, dbl128, Option.bind_eq_bind, Option.bind_some, Option.pure_def, Option.bind_fun_some]
  rfl
theorem zero128 : bf128_zero = some struct128.zero := rfl
theorem one128 : bf128_one = some struct128.one := rfl
theorem from64_128 (x : U64) : bf128_from_bf64 x = some (struct128.from64 x) := rfl
theorem from8_128 (x : Byte) : bf128_from_bf8 x = some (struct128.from8 x) := rfl
theorem fromBit128 (x : Byte) : bf128_from_bit x = some (struct128.fromBit x) := by
  unfold bf128_from_bit bf128_from_bf8 Impl.fromBit Impl.from8
  simp only [Option.bind_eq_bind, Option.bind_some, Option.pure_def, ze_trunc]
  all_goals rfl
theorem fromBit128' (x : Byte) : bf128_from_bit x = some #v[(x &&& 1).zeroExtend 64, 0#64] := by
  unfold bf128_from_bit bf128_from_bf8
  simp only [Option.bind_eq_bind, Option.bind_some, Option.pure_def, ze_trunc]
  all_goals rfl
theorem mulBit128' (x : Ws 2) (b : Byte) : bf128_mul_bit x b = some (sAnd64 x (-((b.zeroExtend 64) &&& 1))) := by
  unfold bf128_mul_bit
  simp only [and128, add128, mask128, bf128_shift_left_1, Option.bind_eq_bind, Option.bind_some, Option.pure_def]
  all_goals rfl
theorem alpha128 (i : Nat) : bf128_alpha[i]? = struct128.alpha i := by
  unfold Impl.alpha
  rw [← List.getElem?_map]
  congr 1
theorem byteCombine128 (xs : Mem (Ws 2)) (o : Nat) : bf128_byte_combine xs o = struct128.byteCombine xs o := by
  unfold bf128_byte_combine Impl.byteCombine
  simp only [add128, mul128, alpha128, Nat.add_zero, Option.bind_eq_bind, Option.bind_some, Option.pure_def, Option.bind_fun_some]
  rfl
theorem byteCombineBits128 (x : Byte) : bf128_byte_combine_bits x = struct128.byteCombineBits x := by
  rw [bits_struct struct128 rfl]
  unfold bf128_byte_combine_bits
  rw [ze_trunc8, fromBit128' (x &&& 1)]
  simp only [add128, mulBit128', shr_and, Option.bind_eq_bind, Option.bind_some, Option.pure_def, Option.bind_fun_some]
  refine forR_ext rfl fun i s => ?_
  rw [← alpha128]
  rfl
theorem load128 (src : Mem Byte) (o : Nat) : bf128_load src o = struct128.load false src o := by
  rw [load_false]
  unfold bf128_load
  rw [show (16 : Nat) = 8 * 2 from rfl]
  simp only [memIn_div, Option.bind_eq_bind, Option.pure_def, Option.bind_assoc, Option.bind_fun_some]
  rfl
theorem store128 (dst : Mem Byte) (o : Nat) (x : Ws 2) : bf128_store dst o x = struct128.store false dst o x := rfl

/-- The interface of the translated code. -/
def code128 : FieldCode 128 2 where
  zero := bf128_zero
  one := bf128_one
  from64 := bf128_from_bf64
  from8 := bf128_from_bf8
  fromBit := bf128_from_bit
  add := bf128_add
  mul := bf128_mul
  mul64 := bf128_mul_64
  mulBit := bf128_mul_bit
  sumPoly := bf128_sum_poly
  byteCombine := bf128_byte_combine
  byteCombineBits := bf128_byte_combine_bits
  load := bf128_load
  store := bf128_store

theorem code128_eq : code128 = struct128.code false := by
  apply FieldCode.ext
  · exact zero128
  · exact one128
  · funext x; unfold code128 Impl.code; exact from64_128 x
  · funext x; unfold code128 Impl.code; exact from8_128 x
  · funext x; unfold code128 Impl.code; exact fromBit128 x
  · funext x y; exact add128 x y
  · funext x y; exact mul128 x y
  · funext x y; exact mul64_128 x y
  · funext x y; exact mulBit128 x y
  · funext x y; exact sumPoly128 x y
  · funext x y; exact byteCombine128 x y
  · funext x; unfold code128 Impl.code; dsimp only; exact byteCombineBits128 x
  · funext x y; exact load128 x y
  · funext x y z; exact store128 x y z

theorem and192 (x : Ws 3) (b : U64) : bf192_and_64 x b = some (sAnd64 x b) := by
  simp [bf192_and_64, sAnd64, forR, forN, bfValue_lt, setWord_lt, Fin.foldl_succ_last]
theorem add192 (x y : Ws 3) : bf192_add x y = some (sAdd x y) := by
  simp [bf192_add, sAdd, forR, forN, bfValue_lt, setWord_lt, Fin.foldl_succ_last]

theorem mask192 (x : Ws 3) (b : Nat) : bf192_bit_to_uint64_mask x b = struct192.bitMask x b := rfl

theorem mul192 (x y : Ws 3) : bf192_mul x y = struct192.mul x y := by
  unfold bf192_mul Impl.mul
  simp only [and192, add192, mask192, bf192_shift_left_1, Option.bind_eq_bind, Option.bind_some, Option.pure_def]
  rfl
theorem mul64_192 (x : Ws 3) (y : U64) : bf192_mul_64 x y = struct192.mul64 x y := by
  unfold bf192_mul_64 Impl.mul64
  simp only [and192, add192, mask192, bf192_shift_left_1, Option.bind_eq_bind, Option.bind_some, Option.pure_def]
  rfl
theorem dbl192 (x : Ws 3) : bf192_dbl x = struct192.dbl x := by
  unfold bf192_dbl Impl.dbl
  simp only [and192, add192, mask192, bf192_shift_left_1, Option.bind_eq_bind, Option.bind_some, Option.pure_def]
  rfl
theorem mulBit192 (x : Ws 3) (b : Byte) : bf192_mul_bit x b = some (struct192.mulBit x b) := by
  unfold bf192_mul_bit Impl.mulBit
  simp only [and192, add192, mask192, bf192_shift_left_1, Option.bind_eq_bind, Option.bind_some, Option.pure_def]
  all_goals rfl
theorem sumPoly192 (xs : Mem (Ws 3)) (o : Nat) : bf192_sum_poly xs o = struct192.sumPoly (xs.drop o) := by
  rw [sumPoly_drop struct192 xs o]
  unfold bf192_sum_poly
  simp only [add192, dbl192, Option.bind_eq_bind, Option.bind_some, Option.pure_def, Option.bind_fun_some]
  rfl
theorem zero192 : bf192_zero = some struct192.zero := rfl
theorem one192 : bf192_one = some struct192.one := rfl
theorem from64_192 (x : U64) : bf192_from_bf64 x = some (struct192.from64 x) := rfl
theorem from8_192 (x : Byte) : bf192_from_bf8 x = some (struct192.from8 x) := rfl
theorem fromBit192 (x : Byte) : bf192_from_bit x = some (struct192.fromBit x) := by
  unfold bf192_from_bit bf192_from_bf8 Impl.fromBit Impl.from8
  simp only [Option.bind_eq_bind, Option.bind_some, Option.pure_def, ze_trunc]
  all_goals rfl
theorem fromBit192' (x : Byte) : bf192_from_bit x = some #v[(x &&& 1).zeroExtend 64, 0#64, 0#64] := by
  unfold bf192_from_bit bf192_from_bf8
  simp only [Option.bind_eq_bind, Option.bind_some, Option.pure_def, ze_trunc]
  all_goals rfl
theorem mulBit192' (x : Ws 3) (b : Byte) : bf192_mul_bit x b = some (sAnd64 x (-((b.zeroExtend 64) &&& 1))) := by
  unfold bf192_mul_bit
  simp only [and192, add192, mask192, bf192_shift_left_1, Option.bind_eq_bind, Option.bind_some, Option.pure_def]
  all_goals rfl
theorem alpha192 (i : Nat) : bf192_alpha[i]? = struct192.alpha i := by
  unfold Impl.alpha
  rw [← List.getElem?_map]
  congr 1
theorem byteCombine192 (xs : Mem (Ws 3)) (o : Nat) : bf192_byte_combine xs o = struct192.byteCombine xs o := by
  unfold bf192_byte_combine Impl.byteCombine
  simp only [add192, mul192, alpha192, Nat.add_zero, Option.bind_eq_bind, Option.bind_some, Option.pure_def, Option.bind_fun_some]
  rfl
theorem byteCombineBits192 (x : Byte) : bf192_byte_combine_bits x = struct192.byteCombineBits x := by
  rw [bits_struct struct192 rfl]
  unfold bf192_byte_combine_bits
  rw [ze_trunc8, fromBit192' (x &&& 1)]
  simp only [add192, mulBit192', shr_and, Option.bind_eq_bind, Option.bind_some, Option.pure_def, Option.bind_fun_some]
  refine forR_ext rfl fun i s => ?_
  rw [← alpha192]
  rfl
theorem load192 (src : Mem Byte) (o : Nat) : bf192_load src o = struct192.load false src o := by
  rw [load_false]
  unfold bf192_load
  rw [show (24 : Nat) = 8 * 3 from rfl]
  simp only [memIn_div, Option.bind_eq_bind, Option.pure_def, Option.bind_assoc, Option.bind_fun_some]
  rfl
theorem store192 (dst : Mem Byte) (o : Nat) (x : Ws 3) : bf192_store dst o x = struct192.store false dst o x := rfl

/-- The interface of the translated code. -/
def code192 : FieldCode 192 3 where
  zero := bf192_zero
  one := bf192_one
  from64 := bf192_from_bf64
  from8 := bf192_from_bf8
  fromBit := bf192_from_bit
  add := bf192_add
  mul := bf192_mul
  mul64 := bf192_mul_64
  mulBit := bf192_mul_bit
  sumPoly := bf192_sum_poly
  byteCombine := bf192_byte_combine
  byteCombineBits := bf192_byte_combine_bits
  load := bf192_load
  store := bf192_store

theorem code192_eq : code192 = struct192.code false := by
  apply FieldCode.ext
  · exact zero192
  · exact one192
  · funext x; unfold code192 Impl.code; exact from64_192 x
  · funext x; unfold code192 Impl.code; exact from8_192 x
  · funext x; unfold code192 Impl.code; exact fromBit192 x
  · funext x y; exact add192 x y
  · funext x y; exact mul192 x y
  · funext x y; exact mul64_192 x y
  · funext x y; exact mulBit192 x y
  · funext x y; exact sumPoly192 x y
  · funext x y; exact byteCombine192 x y
  · funext x; unfold code192 Impl.code; dsimp only; exact byteCombineBits192 x
  · funext x y; exact load192 x y
  · funext x y z; exact store192 x y z

theorem and256 (x : Ws 4) (b : U64) : bf256_and_64 x b = some (sAnd64 x b) := by
  simp [bf256_and_64, sAnd64, forR, forN, bfValue_lt, setWord_lt, Fin.foldl_succ_last]
theorem add256 (x y : Ws 4) : bf256_add x y = some (sAdd x y) := by
  simp [bf256_add, sAdd, forR, forN, bfValue_lt, setWord_lt, Fin.foldl_succ_last]

theorem mask256 (x : Ws 4) (b : Nat) : bf256_bit_to_uint64_mask x b = struct256.bitMask x b := rfl

theorem mul256 (x y : Ws 4) : bf256_mul x y = struct256.mul x y := by
  unfold bf256_mul Impl.mul
  simp only [and256, add256, mask256, bf256_shift_left_1, Option.bind_eq_bind, Option.bind_some, Option.pure_def]
  rfl
theorem mul64_256 (x : Ws 4) (y : U64) : bf256_mul_64 x y = struct256.mul64 x y := by
  unfold bf256_mul_64 Impl.mul64
  simp only [and256, add256, mask256, bf256_shift_left_1, Option.bind_eq_bind, Option.bind_some, Option.pure_def]
  rfl
theorem dbl256 (x : Ws 4) : bf256_dbl x = struct256.dbl x := by
  unfold bf256_dbl Impl.dbl
  simp only [and256, add256, mask256, bf256_shift_left_1, Option.bind_eq_bind, Option.bind_some, Option.pure_def]
  rfl
theorem mulBit256 (x : Ws 4) (b : Byte) : bf256_mul_bit x b = some (struct256.mulBit x b) := by
  unfold bf256_mul_bit Impl.mulBit
  simp only [and256, add256, mask256, bf256_shift_left_1, Option.bind_eq_bind, Option.bind_some, Option.pure_def]
  all_goals rfl
theorem sumPoly256 (xs : Mem (Ws 4)) (o : Nat) : bf256_sum_poly xs o = struct256.sumPoly (xs.drop o) := by
  rw [sumPoly_drop struct256 xs o]
  unfold bf256_sum_poly
  simp only [add256, dbl256, Option.bind_eq_bind, Option.bind_some, Option.pure_def, Option.bind_fun_some]
  rfl
theorem zero256 : bf256_zero = some struct256.zero := rfl
theorem one256 : bf256_one = some struct256.one := rfl
theorem from64_256 (x : U64) : bf256_from_bf64 x = some (struct256.from64 x) := rfl
theorem from8_256 (x : Byte) : bf256_from_bf8 x = some (struct256.from8 x) := rfl
theorem fromBit256 (x : Byte) : bf256_from_bit x = some (struct256.fromBit x) := by
  unfold bf256_from_bit bf256_from_bf8 Impl.fromBit Impl.from8
  simp only [Option.bind_eq_bind, Option.bind_some, Option.pure_def, ze_trunc]
  all_goals rfl
theorem fromBit256' (x : Byte) : bf256_from_bit x = some #v[(x &&& 1).zeroExtend 64, 0#64, 0#64, 0#64] := by
  unfold bf256_from_bit bf256_from_bf8
  simp only [Option.bind_eq_bind, Option.bind_some, Option.pure_def, ze_trunc]
  all_goals rfl
theorem mulBit256' (x : Ws 4) (b : Byte) : bf256_mul_bit x b = some (sAnd64 x (-((b.zeroExtend 64) &&& 1))) := by
  unfold bf256_mul_bit
  simp only [and256, add256, mask256, bf256_shift_left_1, Option.bind_eq_bind, Option.bind_some, Option.pure_def]
  all_goals rfl
theorem alpha256 (i : Nat) : bf256_alpha[i]? = struct256.alpha i := by
  unfold Impl.alpha
  rw [← List.getElem?_map]
  congr 1
theorem byteCombine256 (xs : Mem (Ws 4)) (o : Nat) : bf256_byte_combine xs o = struct256.byteCombine xs o := by
  unfold bf256_byte_combine Impl.byteCombine
  simp only [add256, mul256, alpha256, Nat.add_zero, Option.bind_eq_bind, Option.bind_some, Option.pure_def, Option.bind_fun_some]
  rfl
theorem byteCombineBits256 (x : Byte) : bf256_byte_combine_bits x = struct256.byteCombineBits x := by
  rw [bits_struct struct256 rfl]
  unfold bf256_byte_combine_bits
  rw [ze_trunc8, fromBit256' (x &&& 1)]
  simp only [add256, mulBit256', shr_and, Option.bind_eq_bind, Option.bind_some, Option.pure_def, Option.bind_fun_some]
  refine forR_ext rfl fun i s => ?_
  rw [← alpha256]
  rfl
theorem load256 (src : Mem Byte) (o : Nat) : bf256_load src o = struct256.load false src o := by
  rw [load_false]
  unfold bf256_load
  rw [show (32 : Nat) = 8 * 4 from rfl]
  simp only [memIn_div, Option.bind_eq_bind, Option.pure_def, Option.bind_assoc, Option.bind_fun_some]
  rfl
theorem store256 (dst : Mem Byte) (o : Nat) (x : Ws 4) : bf256_store dst o x = struct256.store false dst o x := rfl

/-- The interface of the translated code. -/
def code256 : FieldCode 256 4 where
  zero := bf256_zero
  one := bf256_one
  from64 := bf256_from_bf64
  from8 := bf256_from_bf8
  fromBit := bf256_from_bit
  add := bf256_add
  mul := bf256_mul
  mul64 := bf256_mul_64
  mulBit := bf256_mul_bit
  sumPoly := bf256_sum_poly
  byteCombine := bf256_byte_combine
  byteCombineBits := bf256_byte_combine_bits
  load := bf256_load
  store := bf256_store

theorem code256_eq : code256 = struct256.code false := by
  apply FieldCode.ext
  · exact zero256
  · exact one256
  · funext x; unfold code256 Impl.code; exact from64_256 x
  · funext x; unfold code256 Impl.code; exact from8_256 x
  · funext x; unfold code256 Impl.code; exact fromBit256 x
  · funext x y; exact add256 x y
  · funext x y; exact mul256 x y
  · funext x y; exact mul64_256 x y
  · funext x y; exact mulBit256 x y
  · funext x y; exact sumPoly256 x y
  · funext x y; exact byteCombine256 x y
  · funext x; unfold code256 Impl.code; dsimp only; exact byteCombineBits256 x
  · funext x y; exact load256 x y
  · funext x y z; exact store256 x y z

end S

/-! ### Vector extensions with `__builtin_shufflevector` -/

namespace VB

theorem add128 (x y : Ws 2) : bf128_add x y = some (vXor x y) := rfl

theorem mask128 (x : Ws 2) (b : Nat) : bf128_bit_to_uint64_mask x b = (vec128 shr64_128_builtin).bitMask x b := rfl

theorem mul128 (x y : Ws 2) : bf128_mul x y = (vec128 shr64_128_builtin).mul x y := by
  unfold bf128_mul Impl.mul
  simp only [add128, mask128, bf128_zero, Option.bind_eq_bind, Option.bind_some, Option.pure_def]
  rfl
theorem mul64_128 (x : Ws 2) (y : U64) : bf128_mul_64 x y = (vec128 shr64_128_builtin).mul64 x y := by
  unfold bf128_mul_64 Impl.mul64
  simp only [add128, mask128, bf128_zero, Option.bind_eq_bind, Option.bind_some, Option.pure_def]
  rfl
theorem dbl128 (x : Ws 2) : bf128_dbl x = (vec128 shr64_128_builtin).dbl x := by
  unfold bf128_dbl Impl.dbl
  simp only [add128, mask128, bf128_zero, Option.bind_eq_bind, Option.bind_some, Option.pure_def]
  rfl
theorem mulBit128 (x : Ws 2) (b : Byte) : bf128_mul_bit x b = some ((vec128 shr64_128_builtin).mulBit x b) := by
  unfold bf128_mul_bit Impl.mulBit
  simp only [add128, mask128, bf128_zero, Option.bind_eq_bind, Option.bind_some, Option.pure_def]
  all_goals rfl
theorem sumPoly128 (xs : Mem (Ws 2)) (o : Nat) : bf128_sum_poly xs o = (vec128 shr64_128_builtin).sumPoly (xs.drop o) := by
  rw [sumPoly_drop (vec128 shr64_128_builtin) xs o]
  unfold bf128_sum_poly
  simp only [add128, dbl128, Option.bind_eq_bind, Option.bind_some, Option.pure_def, Option.bind_fun_some]
  rfl
theorem zero128 : bf128_zero = some (vec128 shr64_128_builtin).zero := rfl
theorem one128 : bf128_one = some (vec128 shr64_128_builtin).one := rfl
theorem from64_128 (x : U64) : bf128_from_bf64 x = some ((vec128 shr64_128_builtin).from64 x) := rfl
theorem from8_128 (x : Byte) : bf128_from_bf8 x = some ((vec128 shr64_128_builtin).from8 x) := rfl
theorem fromBit128 (x : Byte) : bf128_from_bit x = some ((vec128 shr64_128_builtin).fromBit x) := by
  unfold bf128_from_bit bf128_from_bf8 Impl.fromBit Impl.from8
  simp only [Option.bind_eq_bind, Option.bind_some, Option.pure_def, ze_trunc]
  all_goals rfl
theorem fromBit128' (x : Byte) : bf128_from_bit x = some #v[(x &&& 1).zeroExtend 64, 0#64] := by
  unfold bf128_from_bit bf128_from_bf8
  simp only [Option.bind_eq_bind, Option.bind_some, Option.pure_def, ze_trunc]
  all_goals rfl
theorem mulBit128' (x : Ws 2) (b : Byte) : bf128_mul_bit x b = some (vAndS x (-((b.zeroExtend 64) &&& 1))) := by
  unfold bf128_mul_bit
  simp only [add128, mask128, bf128_zero, Option.bind_eq_bind, Option.bind_some, Option.pure_def]
  all_goals rfl
theorem alpha128 (i : Nat) : bf128_alpha[i]? = (vec128 shr64_128_builtin).alpha i := by
  unfold Impl.alpha
  rw [← List.getElem?_map]
  congr 1
theorem byteCombine128 (xs : Mem (Ws 2)) (o : Nat) : bf128_byte_combine xs o = (vec128 shr64_128_builtin).byteCombine xs o := by
  unfold bf128_byte_combine Impl.byteCombine
  simp only [add128, mul128, alpha128, Nat.add_zero, Option.bind_eq_bind, Option.bind_some, Option.pure_def, Option.bind_fun_some]
  rfl
theorem byteCombineBits128 (x : Byte) : bf128_byte_combine_bits x = (vec128 shr64_128_builtin).byteCombineBits x := by
  rw [bits_vec (vec128 shr64_128_builtin) rfl rfl]
  have h : bf128_byte_combine_bits x = vbits (fun i => bf128_alpha[i]?)
      (#v[((x &&& 1) &&& 1).zeroExtend 64, 0#64]) x := by
    unfold bf128_byte_combine_bits
    rw [ze_trunc8, fromBit128' (x &&& 1)]
    change (some _).bind _ = _
    rw [Option.bind_some]
    generalize bf128_alpha = al
    exact vbits_c (fun i => al[i]?) _ x
  exact h.trans (congrArg (fun al => vbits (k := 2) al _ x) (funext alpha128))
theorem load128 (src : Mem Byte) (o : Nat) : bf128_load src o = (vec128 shr64_128_builtin).load false src o := by
  rw [load_false]
  unfold bf128_load
  rw [show (16 : Nat) = 8 * 2 from rfl]
  simp only [memIn_div, Option.bind_eq_bind, Option.pure_def, Option.bind_assoc, Option.bind_fun_some]
  rfl
theorem store128 (dst : Mem Byte) (o : Nat) (x : Ws 2) : bf128_store dst o x = (vec128 shr64_128_builtin).store false dst o x := rfl

/-- The interface of the translated code. -/
def code128 : FieldCode 128 2 where
  zero := bf128_zero
  one := bf128_one
  from64 := bf128_from_bf64
  from8 := bf128_from_bf8
  fromBit := bf128_from_bit
  add := bf128_add
  mul := bf128_mul
  mul64 := bf128_mul_64
  mulBit := bf128_mul_bit
  sumPoly := bf128_sum_poly
  byteCombine := bf128_byte_combine
  byteCombineBits := bf128_byte_combine_bits
  load := bf128_load
  store := bf128_store

theorem code128_eq : code128 = (vec128 shr64_128_builtin).code false := by
  apply FieldCode.ext
  · exact zero128
  · exact one128
  · funext x; unfold code128 Impl.code; exact from64_128 x
  · funext x; unfold code128 Impl.code; exact from8_128 x
  · funext x; unfold code128 Impl.code; exact fromBit128 x
  · funext x y; exact add128 x y
  · funext x y; exact mul128 x y
  · funext x y; exact mul64_128 x y
  · funext x y; exact mulBit128 x y
  · funext x y; exact sumPoly128 x y
  · funext x y; exact byteCombine128 x y
  · funext x; unfold code128 Impl.code; dsimp only; exact byteCombineBits128 x
  · funext x y; exact load128 x y
  · funext x y z; exact store128 x y z

theorem add192 (x y : Ws 4) : bf192_add x y = some (vXor x y) := rfl

theorem mask192 (x : Ws 4) (b : Nat) : bf192_bit_to_uint64_mask x b = (vec192 shr64_192_builtin).bitMask x b := rfl

theorem mul192 (x y : Ws 4) : bf192_mul x y = (vec192 shr64_192_builtin).mul x y := by
  unfold bf192_mul Impl.mul
  simp only [add192, mask192, bf192_shift_left_1, bf192_zero, Option.bind_eq_bind, Option.bind_some, Option.pure_def]
  rfl
theorem mul64_192 (x : Ws 4) (y : U64) : bf192_mul_64 x y = (vec192 shr64_192_builtin).mul64 x y := by
  unfold bf192_mul_64 Impl.mul64
  simp only [add192, mask192, bf192_shift_left_1, bf192_zero, Option.bind_eq_bind, Option.bind_some, Option.pure_def]
  rfl
theorem dbl192 (x : Ws 4) : bf192_dbl x = (vec192 shr64_192_builtin).dbl x := by
  unfold bf192_dbl Impl.dbl
  simp only [add192, mask192, bf192_shift_left_1, bf192_zero, Option.bind_eq_bind, Option.bind_some, Option.pure_def]
  rfl
theorem mulBit192 (x : Ws 4) (b : Byte) : bf192_mul_bit x b = some ((vec192 shr64_192_builtin).mulBit x b) := by
  unfold bf192_mul_bit Impl.mulBit
  simp only [add192, mask192, bf192_shift_left_1, bf192_zero, Option.bind_eq_bind, Option.bind_some, Option.pure_def]
  all_goals rfl
theorem sumPoly192 (xs : Mem (Ws 4)) (o : Nat) : bf192_sum_poly xs o = (vec192 shr64_192_builtin).sumPoly (xs.drop o) := by
  rw [sumPoly_drop (vec192 shr64_192_builtin) xs o]
  unfold bf192_sum_poly
  simp only [add192, dbl192, Option.bind_eq_bind, Option.bind_some, Option.pure_def, Option.bind_fun_some]
  rfl
theorem zero192 : bf192_zero = some (vec192 shr64_192_builtin).zero := rfl
theorem one192 : bf192_one = some (vec192 shr64_192_builtin).one := rfl
theorem from64_192 (x : U64) : bf192_from_bf64 x = some ((vec192 shr64_192_builtin).from64 x) := rfl
theorem from8_192 (x : Byte) : bf192_from_bf8 x = some ((vec192 shr64_192_builtin).from8 x) := rfl
theorem fromBit192 (x : Byte) : bf192_from_bit x = some ((vec192 shr64_192_builtin).fromBit x) := by
  unfold bf192_from_bit bf192_from_bf8 Impl.fromBit Impl.from8
  simp only [Option.bind_eq_bind, Option.bind_some, Option.pure_def, ze_trunc]
  all_goals rfl
theorem fromBit192' (x : Byte) : bf192_from_bit x = some #v[(x &&& 1).zeroExtend 64, 0#64, 0#64, 0#64] := by
  unfold bf192_from_bit bf192_from_bf8
  simp only [Option.bind_eq_bind, Option.bind_some, Option.pure_def, ze_trunc]
  all_goals rfl
theorem mulBit192' (x : Ws 4) (b : Byte) : bf192_mul_bit x b = some (vAndS x (-((b.zeroExtend 64) &&& 1))) := by
  unfold bf192_mul_bit
  simp only [add192, mask192, bf192_shift_left_1, bf192_zero, Option.bind_eq_bind, Option.bind_some, Option.pure_def]
  all_goals rfl
theorem alpha192 (i : Nat) : bf192_alpha[i]? = (vec192 shr64_192_builtin).alpha i := by
  unfold Impl.alpha
  rw [← List.getElem?_map]
  congr 1
theorem byteCombine192 (xs : Mem (Ws 4)) (o : Nat) : bf192_byte_combine xs o = (vec192 shr64_192_builtin).byteCombine xs o := by
  unfold bf192_byte_combine Impl.byteCombine
  simp only [add192, mul192, alpha192, Nat.add_zero, Option.bind_eq_bind, Option.bind_some, Option.pure_def, Option.bind_fun_some]
  rfl
theorem byteCombineBits192 (x : Byte) : bf192_byte_combine_bits x = (vec192 shr64_192_builtin).byteCombineBits x := by
  rw [bits_vec (vec192 shr64_192_builtin) rfl rfl]
  have h : bf192_byte_combine_bits x = vbits (fun i => bf192_alpha[i]?)
      (#v[((x &&& 1) &&& 1).zeroExtend 64, 0#64, 0#64, 0#64]) x := by
    unfold bf192_byte_combine_bits
    rw [ze_trunc8, fromBit192' (x &&& 1)]
    change (some _).bind _ = _
    rw [Option.bind_some]
    generalize bf192_alpha = al
    exact vbits_c (fun i => al[i]?) _ x
  exact h.trans (congrArg (fun al => vbits (k := 4) al _ x) (funext alpha192))
theorem load192 (src : Mem Byte) (o : Nat) : bf192_load src o = (vec192 shr64_192_builtin).load false src o := by
  rw [load_false]
  unfold bf192_load
  rw [show (24 : Nat) = 8 * 3 from rfl]
  simp only [memIn_div, Option.bind_eq_bind, Option.pure_def, Option.bind_assoc, Option.bind_fun_some]
  rfl
theorem store192 (dst : Mem Byte) (o : Nat) (x : Ws 4) : bf192_store dst o x = (vec192 shr64_192_builtin).store false dst o x := rfl

/-- The interface of the translated code. -/
def code192 : FieldCode 192 4 where
  zero := bf192_zero
  one := bf192_one
  from64 := bf192_from_bf64
  from8 := bf192_from_bf8
  fromBit := bf192_from_bit
  add := bf192_add
  mul := bf192_mul
  mul64 := bf192_mul_64
  mulBit := bf192_mul_bit
  sumPoly := bf192_sum_poly
  byteCombine := bf192_byte_combine
  byteCombineBits := bf192_byte_combine_bits
  load := bf192_load
  store := bf192_store

theorem code192_eq : code192 = (vec192 shr64_192_builtin).code false := by
  apply FieldCode.ext
  · exact zero192
  · exact one192
  · funext x; unfold code192 Impl.code; exact from64_192 x
  · funext x; unfold code192 Impl.code; exact from8_192 x
  · funext x; unfold code192 Impl.code; exact fromBit192 x
  · funext x y; exact add192 x y
  · funext x y; exact mul192 x y
  · funext x y; exact mul64_192 x y
  · funext x y; exact mulBit192 x y
  · funext x y; exact sumPoly192 x y
  · funext x y; exact byteCombine192 x y
  · funext x; unfold code192 Impl.code; dsimp only; exact byteCombineBits192 x
  · funext x y; exact load192 x y
  · funext x y z; exact store192 x y z

theorem add256 (x y : Ws 4) : bf256_add x y = some (vXor x y) := rfl

theorem mask256 (x : Ws 4) (b : Nat) : bf256_bit_to_uint64_mask x b = (vec256 shr64_256_builtin).bitMask x b := rfl

theorem mul256 (x y : Ws 4) : bf256_mul x y = (vec256 shr64_256_builtin).mul x y := by
  unfold bf256_mul Impl.mul
  simp only [add256, mask256, bf256_zero, Option.bind_eq_bind, Option.bind_some, Option.pure_def]
  rfl
theorem mul64_256 (x : Ws 4) (y : U64) : bf256_mul_64 x y = (vec256 shr64_256_builtin).mul64 x y := by
  unfold bf256_mul_64 Impl.mul64
  simp only [add256, mask256, bf256_zero, Option.bind_eq_bind, Option.bind_some, Option.pure_def]
  rfl
theorem dbl256 (x : Ws 4) : bf256_dbl x = (vec256 shr64_256_builtin).dbl x := by
  unfold bf256_dbl Impl.dbl
  simp only [add256, mask256, bf256_zero, Option.bind_eq_bind, Option.bind_some, Option.pure_def]
  rfl
theorem mulBit256 (x : Ws 4) (b : Byte) : bf256_mul_bit x b = some ((vec256 shr64_256_builtin).mulBit x b) := by
  unfold bf256_mul_bit Impl.mulBit
  simp only [add256, mask256, bf256_zero, Option.bind_eq_bind, Option.bind_some, Option.pure_def]
  all_goals rfl
theorem sumPoly256 (xs : Mem (Ws 4)) (o : Nat) : bf256_sum_poly xs o = (vec256 shr64_256_builtin).sumPoly (xs.drop o) := by
  rw [sumPoly_drop (vec256 shr64_256_builtin) xs o]
  unfold bf256_sum_poly
  simp only [add256, dbl256, Option.bind_eq_bind, Option.bind_some, Option.pure_def, Option.bind_fun_some]
  rfl
theorem zero256 : bf256_zero = some (vec256 shr64_256_builtin).zero := rfl
theorem one256 : bf256_one = some (vec256 shr64_256_builtin).one := rfl
theorem from64_256 (x : U64) : bf256_from_bf64 x = some ((vec256 shr64_256_builtin).from64 x) := rfl
theorem from8_256 (x : Byte) : bf256_from_bf8 x = some ((vec256 shr64_256_builtin).from8 x) := rfl
theorem fromBit256 (x : Byte) : bf256_from_bit x = some ((vec256 shr64_256_builtin).fromBit x) := by
  unfold bf256_from_bit bf256_from_bf8 Impl.fromBit Impl.from8
  simp only [Option.bind_eq_bind, Option.bind_some, Option.pure_def, ze_trunc]
  all_goals rfl
theorem fromBit256' (x : Byte) : bf256_from_bit x = some #v[(x &&& 1).zeroExtend 64, 0#64, 0#64, 0#64] := by
  unfold bf256_from_bit bf256_from_bf8
  simp only [Option.bind_eq_bind, Option.bind_some, Option.pure_def, ze_trunc]
  all_goals rfl
theorem mulBit256' (x : Ws 4) (b : Byte) : bf256_mul_bit x b = some (vAndS x (-((b.zeroExtend 64) &&& 1))) := by
  unfold bf256_mul_bit
  simp only [add256, mask256, bf256_zero, Option.bind_eq_bind, Option.bind_some, Option.pure_def]
  all_goals rfl
theorem alpha256 (i : Nat) : bf256_alpha[i]? = (vec256 shr64_256_builtin).alpha i := by
  unfold Impl.alpha
  rw [← List.getElem?_map]
  congr 1
theorem byteCombine256 (xs : Mem (Ws 4)) (o : Nat) : bf256_byte_combine xs o = (vec256 shr64_256_builtin).byteCombine xs o := by
  unfold bf256_byte_combine Impl.byteCombine
  simp only [add256, mul256, alpha256, Nat.add_zero, Option.bind_eq_bind, Option.bind_some, Option.pure_def, Option.bind_fun_some]
  rfl
theorem byteCombineBits256 (x : Byte) : bf256_byte_combine_bits x = (vec256 shr64_256_builtin).byteCombineBits x := by
  rw [bits_vec (vec256 shr64_256_builtin) rfl rfl]
  have h : bf256_byte_combine_bits x = vbits (fun i => bf256_alpha[i]?)
      (#v[((x &&& 1) &&& 1).zeroExtend 64, 0#64, 0#64, 0#64]) x := by
    unfold bf256_byte_combine_bits
    rw [ze_trunc8, fromBit256' (x &&& 1)]
    change (some _).bind _ = _
    rw [Option.bind_some]
    generalize bf256_alpha = al
    exact vbits_c (fun i => al[i]?) _ x
  exact h.trans (congrArg (fun al => vbits (k := 4) al _ x) (funext alpha256))
theorem load256 (src : Mem Byte) (o : Nat) : bf256_load src o = (vec256 shr64_256_builtin).load false src o := by
  rw [load_false]
  unfold bf256_load
  rw [show (32 : Nat) = 8 * 4 from rfl]
  simp only [memIn_div, Option.bind_eq_bind, Option.pure_def, Option.bind_assoc, Option.bind_fun_some]
  rfl
theorem store256 (dst : Mem Byte) (o : Nat) (x : Ws 4) : bf256_store dst o x = (vec256 shr64_256_builtin).store false dst o x := rfl

/-- The interface of the translated code. -/
def code256 : FieldCode 256 4 where
  zero := bf256_zero
  one := bf256_one
  from64 := bf256_from_bf64
  from8 := bf256_from_bf8
  fromBit := bf256_from_bit
  add := bf256_add
  mul := bf256_mul
  mul64 := bf256_mul_64
  mulBit := bf256_mul_bit
  sumPoly := bf256_sum_poly
  byteCombine := bf256_byte_combine
  byteCombineBits := bf256_byte_combine_bits
  load := bf256_load
  store := bf256_store

theorem code256_eq : code256 = (vec256 shr64_256_builtin).code false := by
  apply FieldCode.ext
  · exact zero256
  · exact one256
  · funext x; unfold code256 Impl.code; exact from64_256 x
  · funext x; unfold code256 Impl.code; exact from8_256 x
  · funext x; unfold code256 Impl.code; exact fromBit256 x
  · funext x y; exact add256 x y
  · funext x y; exact mul256 x y
  · funext x y; exact mul64_256 x y
  · funext x y; exact mulBit256 x y
  · funext x y; exact sumPoly256 x y
  · funext x y; exact byteCombine256 x y
  · funext x; unfold code256 Impl.code; dsimp only; exact byteCombineBits256 x
  · funext x y; exact load256 x y
  · funext x y z; exact store256 x y z

end VB

/-! ### Vector extensions without it -/

namespace VF

theorem add128 (x y : Ws 2) : bf128_add x y = some (vXor x y) := rfl

theorem shr128 (v : Ws 2) : bf128_shift_right_64 v = some (shr64_128_fn v) := rfl

theorem mask128 (x : Ws 2) (b : Nat) : bf128_bit_to_uint64_mask x b = (vec128 shr64_128_fn).bitMask x b := rfl

theorem mul128 (x y : Ws 2) : bf128_mul x y = (vec128 shr64_128_fn).mul x y := by
  unfold bf128_mul Impl.mul
  simp only [add128, mask128, shr128, Option.bind_eq_bind, Option.bind_some, Option.pure_def]
  rfl
theorem mul64_128 (x : Ws 2) (y : U64) : bf128_mul_64 x y = (vec128 shr64_128_fn).mul64 x y := by
  unfold bf128_mul_64 Impl.mul64
  simp only [add128, mask128, shr128, Option.bind_eq_bind, Option.bind_some, Option.pure_def]
  rfl
theorem dbl128 (x : Ws 2) : bf128_dbl x = (vec128 shr64_128_fn).dbl x := by
  unfold bf128_dbl Impl.dbl
  simp only [add128, mask128, shr128, Option.bind_eq_bind, Option.bind_some, Option.pure_def]
  rfl
theorem mulBit128 (x : Ws 2) (b : Byte) : bf128_mul_bit x b = some ((vec128 shr64_128_fn).mulBit x b) := by
  unfold bf128_mul_bit Impl.mulBit
  simp only [add128, mask128, shr128, Option.bind_eq_bind, Option.bind_some, Option.pure_def]
  all_goals rfl
theorem sumPoly128 (xs : Mem (Ws 2)) (o : Nat) : bf128_sum_poly xs o = (vec128 shr64_128_fn).sumPoly (xs.drop o) := by
  rw [sumPoly_drop (vec128 shr64_128_fn) xs o]
  unfold bf128_sum_poly
  simp only [add128, dbl128, Option.bind_eq_bind, Option.bind_some, Option.pure_def, Option.bind_fun_some]
  rfl
theorem zero128 : bf128_zero = some (vec128 shr64_128_fn).zero := rfl
theorem one128 : bf128_one = some (vec128 shr64_128_fn).one := rfl
theorem from64_128 (x : U64) : bf128_from_bf64 x = some ((vec128 shr64_128_fn).from64 x) := rfl
theorem from8_128 (x : Byte) : bf128_from_bf8 x = some ((vec128 shr64_128_fn).from8 x) := rfl
theorem fromBit128 (x : Byte) : bf128_from_bit x = some ((vec128 shr64_128_fn).fromBit x) := by
  unfold bf128_from_bit bf128_from_bf8 Impl.fromBit Impl.from8
  simp only [Option.bind_eq_bind, Option.bind_some, Option.pure_def, ze_trunc]
  all_goals rfl
theorem fromBit128' (x : Byte) : bf128_from_bit x = some #v[(x &&& 1).zeroExtend 64, 0#64] := by
  unfold bf128_from_bit bf128_from_bf8
  simp only [Option.bind_eq_bind, Option.bind_some, Option.pure_def, ze_trunc]
  all_goals rfl
theorem mulBit128' (x : Ws 2) (b : Byte) : bf128_mul_bit x b = some (vAndS x (-((b.zeroExtend 64) &&& 1))) := by
  unfold bf128_mul_bit
  simp only [add128, mask128, shr128, Option.bind_eq_bind, Option.bind_some, Option.pure_def]
  all_goals rfl
theorem alpha128 (i : Nat) : bf128_alpha[i]? = (vec128 shr64_128_fn).alpha i := by
  unfold Impl.alpha
  rw [← List.getElem?_map]
  congr 1
theorem byteCombine128 (xs : Mem (Ws 2)) (o : Nat) : bf128_byte_combine xs o = (vec128 shr64_128_fn).byteCombine xs o := by
  unfold bf128_byte_combine Impl.byteCombine
  simp only [add128, mul128, alpha128, Nat.add_zero, Option.bind_eq_bind, Option.bind_some, Option.pure_def, Option.bind_fun_some]
  rfl
theorem byteCombineBits128 (x : Byte) : bf128_byte_combine_bits x = (vec128 shr64_128_fn).byteCombineBits x := by
  rw [bits_vec (vec128 shr64_128_fn) rfl rfl]
  have h : bf128_byte_combine_bits x = vbits (fun i => bf128_alpha[i]?)
      (#v[((x &&& 1) &&& 1).zeroExtend 64, 0#64]) x := by
    unfold bf128_byte_combine_bits
    rw [ze_trunc8, fromBit128' (x &&& 1)]
    change (some _).bind _ = _
    rw [Option.bind_some]
    generalize bf128_alpha = al
    exact vbits_c (fun i => al[i]?) _ x
  exact h.trans (congrArg (fun al => vbits (k := 2) al _ x) (funext alpha128))
theorem load128 (src : Mem Byte) (o : Nat) : bf128_load src o = (vec128 shr64_128_fn).load false src o := by
  rw [load_false]
  unfold bf128_load
  rw [show (16 : Nat) = 8 * 2 from rfl]
  simp only [memIn_div, Option.bind_eq_bind, Option.pure_def, Option.bind_assoc, Option.bind_fun_some]
  rfl
theorem store128 (dst : Mem Byte) (o : Nat) (x : Ws 2) : bf128_store dst o x = (vec128 shr64_128_fn).store false dst o x := rfl

/-- The interface of the translated code. -/
def code128 : FieldCode 128 2 where
  zero := bf128_zero
  one := bf128_one
  from64 := bf128_from_bf64
  from8 := bf128_from_bf8
  fromBit := bf128_from_bit
  add := bf128_add
  mul := bf128_mul
  mul64 := bf128_mul_64
  mulBit := bf128_mul_bit
  sumPoly := bf128_sum_poly
  byteCombine := bf128_byte_combine
  byteCombineBits := bf128_byte_combine_bits
  load := bf128_load
  store := bf128_store

theorem code128_eq : code128 = (vec128 shr64_128_fn).code false := by
  apply FieldCode.ext
  · exact zero128
  · exact one128
  · funext x; unfold code128 Impl.code; exact from64_128 x
  · funext x; unfold code128 Impl.code; exact from8_128 x
  · funext x; unfold code128 Impl.code; exact fromBit128 x
  · funext x y; exact add128 x y
  · funext x y; exact mul128 x y
  · funext x y; exact mul64_128 x y
  · funext x y; exact mulBit128 x y
  · funext x y; exact sumPoly128 x y
  · funext x y; exact byteCombine128 x y
  · funext x; unfold code128 Impl.code; dsimp only; exact byteCombineBits128 x
  · funext x y; exact load128 x y
  · funext x y z; exact store128 x y z

theorem add192 (x y : Ws 4) : bf192_add x y = some (vXor x y) := rfl

theorem shr192 (v : Ws 4) : bf192_shift_right_64 v = some (shr64_192_fn v) := rfl

theorem mask192 (x : Ws 4) (b : Nat) : bf192_bit_to_uint64_mask x b = (vec192 shr64_192_fn).bitMask x b := rfl

theorem mul192 (x y : Ws 4) : bf192_mul x y = (vec192 shr64_192_fn).mul x y := by
  unfold bf192_mul Impl.mul
  simp only [add192, mask192, bf192_shift_left_1, shr192, Option.bind_eq_bind, Option.bind_some, Option.pure_def]
  rfl
theorem mul64_192 (x : Ws 4) (y : U64) : bf192_mul_64 x y = (vec192 shr64_192_fn).mul64 x y := by
  unfold bf192_mul_64 Impl.mul64
  simp only [add192, mask192, bf192_shift_left_1, shr192, Option.bind_eq_bind, Option.bind_some, Option.pure_def]
  rfl
theorem dbl192 (x : Ws 4) : bf192_dbl x = (vec192 shr64_192_fn).dbl x := by
  unfold bf192_dbl Impl.dbl
  simp only [add192, mask192, bf192_shift_left_1, shr192, Option.bind_eq_bind, Option.bind_some, Option.pure_def]
  rfl
theorem mulBit192 (x : Ws 4) (b : Byte) : bf192_mul_bit x b = some ((vec192 shr64_192_fn).mulBit x b) := by
  unfold bf192_mul_bit Impl.mulBit
  simp only [add192, mask192, bf192_shift_left_1, shr192, Option.bind_eq_bind, Option.bind_some, Option.pure_def]
  all_goals rfl
theorem sumPoly192 (xs : Mem (Ws 4)) (o : Nat) : bf192_sum_poly xs o = (vec192 shr64_192_fn).sumPoly (xs.drop o) := by
  rw [sumPoly_drop (vec192 shr64_192_fn) xs o]
  unfold bf192_sum_poly
  simp only [add192, dbl192, Option.bind_eq_bind, Option.bind_some, Option.pure_def, Option.bind_fun_some]
  rfl
theorem zero192 : bf192_zero = some (vec192 shr64_192_fn).zero := rfl
theorem one192 : bf192_one = some (vec192 shr64_192_fn).one := rfl
theorem from64_192 (x : U64) : bf192_from_bf64 x = some ((vec192 shr64_192_fn).from64 x) := rfl
theorem from8_192 (x : Byte) : bf192_from_bf8 x = some ((vec192 shr64_192_fn).from8 x) := rfl
theorem fromBit192 (x : Byte) : bf192_from_bit x = some ((vec192 shr64_192_fn).fromBit x) := by
  unfold bf192_from_bit bf192_from_bf8 Impl.fromBit Impl.from8
  simp only [Option.bind_eq_bind, Option.bind_some, Option.pure_def, ze_trunc]
  all_goals rfl
theorem fromBit192' (x : Byte) : bf192_from_bit x = some #v[(x &&& 1).zeroExtend 64, 0#64, 0#64, 0#64] := by
  unfold bf192_from_bit bf192_from_bf8
  simp only [Option.bind_eq_bind, Option.bind_some, Option.pure_def, ze_trunc]
  all_goals rfl
theorem mulBit192' (x : Ws 4) (b : Byte) : bf192_mul_bit x b = some (vAndS x (-((b.zeroExtend 64) &&& 1))) := by
  unfold bf192_mul_bit
  simp only [add192, mask192, bf192_shift_left_1, shr192, Option.bind_eq_bind, Option.bind_some, Option.pure_def]
  all_goals rfl
theorem alpha192 (i : Nat) : bf192_alpha[i]? = (vec192 shr64_192_fn).alpha i := by
  unfold Impl.alpha
  rw [← List.getElem?_map]
  congr 1
theorem byteCombine192 (xs : Mem (Ws 4)) (o : Nat) : bf192_byte_combine xs o = (vec192 shr64_192_fn).byteCombine xs o := by
  unfold bf192_byte_combine Impl.byteCombine
  simp only [add192, mul192, alpha192, Nat.add_zero, Option.bind_eq_bind, Option.bind_some, Option.pure_def, Option.bind_fun_some]
  rfl
theorem byteCombineBits192 (x : Byte) : bf192_byte_combine_bits x = (vec192 shr64_192_fn).byteCombineBits x := by
  rw [bits_vec (vec192 shr64_192_fn) rfl rfl]
  have h : bf192_byte_combine_bits x = vbits (fun i => bf192_alpha[i]?)
      (#v[((x &&& 1) &&& 1).zeroExtend 64, 0#64, 0#64, 0#64]) x := by
    unfold bf192_byte_combine_bits
    rw [ze_trunc8, fromBit192' (x &&& 1)]
    change (some _).bind _ = _
    rw [Option.bind_some]
    generalize bf192_alpha = al
    exact vbits_c (fun i => al[i]?) _ x
  exact h.trans (congrArg (fun al => vbits (k := 4) al _ x) (funext alpha192))
theorem load192 (src : Mem Byte) (o : Nat) : bf192_load src o = (vec192 shr64_192_fn).load false src o := by
  rw [load_false]
  unfold bf192_load
  rw [show (24 : Nat) = 8 * 3 from rfl]
  simp only [memIn_div, Option.bind_eq_bind, Option.pure_def, Option.bind_assoc, Option.bind_fun_some]
  rfl
theorem store192 (dst : Mem Byte) (o : Nat) (x : Ws 4) : bf192_store dst o x = (vec192 shr64_192_fn).store false dst o x := rfl

/-- The interface of the translated code. -/
def code192 : FieldCode 192 4 where
  zero := bf192_zero
  one := bf192_one
  from64 := bf192_from_bf64
  from8 := bf192_from_bf8
  fromBit := bf192_from_bit
  add := bf192_add
  mul := bf192_mul
  mul64 := bf192_mul_64
  mulBit := bf192_mul_bit
  sumPoly := bf192_sum_poly
  byteCombine := bf192_byte_combine
  byteCombineBits := bf192_byte_combine_bits
  load := bf192_load
  store := bf192_store

theorem code192_eq : code192 = (vec192 shr64_192_fn).code false := by
  apply FieldCode.ext
  · exact zero192
  · exact one192
  · funext x; unfold code192 Impl.code; exact from64_192 x
  · funext x; unfold code192 Impl.code; exact from8_192 x
  · funext x; unfold code192 Impl.code; exact fromBit192 x
  · funext x y; exact add192 x y
  · funext x y; exact mul192 x y
  · funext x y; exact mul64_192 x y
  · funext x y; exact mulBit192 x y
  · funext x y; exact sumPoly192 x y
  · funext x y; exact byteCombine192 x y
  · funext x; unfold code192 Impl.code; dsimp only; exact byteCombineBits192 x
  · funext x y; exact load192 x y
  · funext x y z; exact store192 x y z

theorem add256 (x y : Ws 4) : bf256_add x y = some (vXor x y) := rfl

theorem shr256 (v : Ws 4) : bf256_shift_right_64 v = some (shr64_256_fn v) := rfl

theorem mask256 (x : Ws 4) (b : Nat) : bf256_bit_to_uint64_mask x b = (vec256 shr64_256_fn).bitMask x b := rfl

theorem mul256 (x y : Ws 4) : bf256_mul x y = (vec256 shr64_256_fn).mul x y := by
  unfold bf256_mul Impl.mul
  simp only [add256, mask256, shr256, Option.bind_eq_bind, Option.bind_some, Option.pure_def]
  rfl
theorem mul64_256 (x : Ws 4) (y : U64) : bf256_mul_64 x y = (vec256 shr64_256_fn).mul64 x y := by
  unfold bf256_mul_64 Impl.mul64
  simp only [add256, mask256, shr256, Option.bind_eq_bind, Option.bind_some, Option.pure_def]
  rfl
theorem dbl256 (x : Ws 4) : bf256_dbl x = (vec256 shr64_256_fn).dbl x := by
  unfold bf256_dbl Impl.dbl
  simp only [add256, mask256, shr256, Option.bind_eq_bind, Option.bind_some, Option.pure_def]
  rfl
theorem mulBit256 (x : Ws 4) (b : Byte) : bf256_mul_bit x b = some ((vec256 shr64_256_fn).mulBit x b) := by
  unfold bf256_mul_bit Impl.mulBit
  simp only [add256, mask256, shr256, Option.bind_eq_bind, Option.bind_some, Option.pure_def]
  all_goals rfl
theorem sumPoly256 (xs : Mem (Ws 4)) (o : Nat) : bf256_sum_poly xs o = (vec256 shr64_256_fn).sumPoly (xs.drop o) := by
  rw [sumPoly_drop (vec256 shr64_256_fn) xs o]
  unfold bf256_sum_poly
  simp only [add256, dbl256, Option.bind_eq_bind, Option.bind_some, Option.pure_def, Option.bind_fun_some]
  rfl
theorem zero256 : bf256_zero = some (vec256 shr64_256_fn).zero := rfl
theorem one256 : bf256_one = some (vec256 shr64_256_fn).one := rfl
theorem from64_256 (x : U64) : bf256_from_bf64 x = some ((vec256 shr64_256_fn).from64 x) := rfl
theorem from8_256 (x : Byte) : bf256_from_bf8 x = some ((vec256 shr64_256_fn).from8 x) := rfl
theorem fromBit256 (x : Byte) : bf256_from_bit x = some ((vec256 shr64_256_fn).fromBit x) := by
  unfold bf256_from_bit bf256_from_bf8 Impl.fromBit Impl.from8
  simp only [Option.bind_eq_bind, Option.bind_some, Option.pure_def, ze_trunc]
  all_goals rfl
theorem fromBit256' (x : Byte) : bf256_from_bit x = some #v[(x &&& 1).zeroExtend 64, 0#64, 0#64, 0#64] := by
  unfold bf256_from_bit bf256_from_bf8
  simp only [Option.bind_eq_bind, Option.bind_some, Option.pure_def, ze_trunc]
  all_goals rfl
theorem mulBit256' (x : Ws 4) (b : Byte) : bf256_mul_bit x b = some (vAndS x (-((b.zeroExtend 64) &&& 1))) := by
  unfold bf256_mul_bit
  simp only [add256, mask256, shr256, Option.bind_eq_bind, Option.bind_some, Option.pure_def]
  all_goals rfl
theorem alpha256 (i : Nat) : bf256_alpha[i]? = (vec256 shr64_256_fn).alpha i := by
  unfold Impl.alpha
  rw [← List.getElem?_map]
  congr 1
theorem byteCombine256 (xs : Mem (Ws 4)) (o : Nat) : bf256_byte_combine xs o = (vec256 shr64_256_fn).byteCombine xs o := by
  unfold bf256_byte_combine Impl.byteCombine
  simp only [add256, mul256, alpha256, Nat.add_zero, Option.bind_eq_bind, Option.bind_some, Option.pure_def, Option.bind_fun_some]
  rfl
theorem byteCombineBits256 (x : Byte) : bf256_byte_combine_bits x = (vec256 shr64_256_fn).byteCombineBits x := by
  rw [bits_vec (vec256 shr64_256_fn) rfl rfl]
  have h : bf256_byte_combine_bits x = vbits (fun i => bf256_alpha[i]?)
      (#v[((x &&& 1) &&& 1).zeroExtend 64, 0#64, 0#64, 0#64]) x := by
    unfold bf256_byte_combine_bits
    rw [ze_trunc8, fromBit256' (x &&& 1)]
    change (some _).bind _ = _
    rw [Option.bind_some]
    generalize bf256_alpha = al
    exact vbits_c (fun i => al[i]?) _ x
  exact h.trans (congrArg (fun al => vbits (k := 4) al _ x) (funext alpha256))
theorem load256 (src : Mem Byte) (o : Nat) : bf256_load src o = (vec256 shr64_256_fn).load false src o := by
  rw [load_false]
  unfold bf256_load
  rw [show (32 : Nat) = 8 * 4 from rfl]
  simp only [memIn_div, Option.bind_eq_bind, Option.pure_def, Option.bind_assoc, Option.bind_fun_some]
  rfl
theorem store256 (dst : Mem Byte) (o : Nat) (x : Ws 4) : bf256_store dst o x = (vec256 shr64_256_fn).store false dst o x := rfl

/-- The interface of the translated code. -/
def code256 : FieldCode 256 4 where
  zero := bf256_zero
  one := bf256_one
  from64 := bf256_from_bf64
  from8 := bf256_from_bf8
  fromBit := bf256_from_bit
  add := bf256_add
  mul := bf256_mul
  mul64 := bf256_mul_64
  mulBit := bf256_mul_bit
  sumPoly := bf256_sum_poly
  byteCombine := bf256_byte_combine
  byteCombineBits := bf256_byte_combine_bits
  load := bf256_load
  store := bf256_store

theorem code256_eq : code256 = (vec256 shr64_256_fn).code false := by
  apply FieldCode.ext
  · exact zero256
  · exact one256
  · funext x; unfold code256 Impl.code; exact from64_256 x
  · funext x; unfold code256 Impl.code; exact from8_256 x
  · funext x; unfold code256 Impl.code; exact fromBit256 x
  · funext x y; exact add256 x y
  · funext x y; exact mul256 x y
  · funext x y; exact mul64_256 x y
  · funext x y; exact mulBit256 x y
  · funext x y; exact sumPoly256 x y
  · funext x y; exact byteCombine256 x y
  · funext x; unfold code256 Impl.code; dsimp only; exact byteCombineBits256 x
  · funext x y; exact load256 x y
  · funext x y z; exact store256 x y z

end VF

end Faest.GenF
