/-
The binary fields as commutative rings (for every size and modulus), proved from the loop of
the multiplication code.
-/
import Verif.Model.Fields
import Mathlib.Algebra.BigOperators.Ring.Finset
import Mathlib.Algebra.BigOperators.Group.Finset.Basic
import Mathlib.Algebra.BigOperators.Group.Finset.Sigma
import Mathlib.Algebra.Ring.Defs
import Mathlib.Algebra.CharP.Two
import Mathlib.Tactic.Ring

namespace Faest

variable {n : Nat}

namespace BF

instance : Zero (BF n) := ⟨bfZero⟩
instance : One (BF n) := ⟨bfOne⟩
instance : Add (BF n) := ⟨bfAdd⟩
instance : Mul (BF n) := ⟨bfMul⟩
instance : Neg (BF n) := ⟨id⟩
instance : Sub (BF n) := ⟨bfAdd⟩

theorem add_def (a b : BF n) : a + b = bfAdd a b := rfl
theorem mul_def (a b : BF n) : a * b = bfMul a b := rfl
theorem zero_def : (0 : BF n) = bfZero := rfl
theorem one_def : (1 : BF n) = bfOne := rfl
@[simp] theorem add_v (a b : BF n) : (a + b).v = a.v ^^^ b.v := rfl
@[simp] theorem zero_v : (0 : BF n).v = 0#n := rfl
@[simp] theorem one_v : (1 : BF n).v = BitVec.ofNat n 1 := rfl

instance : AddCommGroup (BF n) where
  add_assoc a b c := by ext1; simp [BitVec.xor_assoc]
  zero_add a := by ext1; simp
  add_zero a := by ext1; simp
  add_comm a b := by ext1; simp [BitVec.xor_comm]
  neg_add_cancel a := by ext1; show a.v ^^^ a.v = 0#n; simp
  sub_eq_add_neg a b := rfl
  nsmul := nsmulRec
  zsmul := zsmulRec

theorem add_self (a : BF n) : a + a = 0 := by ext1; simp

/-- Doubling as an additive map. -/
def dbl : BF n →+ BF n where
  toFun := bfDbl
  map_zero' := by
    ext1
    simp [bfDbl, bvDbl, maskOf]
  map_add' a b := by
    ext1
    apply BitVec.eq_of_getLsbD_eq
    intro i hi
    simp only [bfDbl, bvDbl, add_v, maskOf, BitVec.getLsbD_xor, BitVec.getLsbD_and,
      BitVec.getLsbD_shiftLeft, hi]
    cases ha : a.v.getLsbD (n - 1) <;> cases hb : b.v.getLsbD (n - 1) <;>
      cases a.v.getLsbD (i - 1) <;> cases b.v.getLsbD (i - 1) <;>
      cases (bfModulus n).getLsbD i <;> simp [hi]

theorem dbl_def (a : BF n) : dbl a = bfDbl a := rfl

/-- Iterated doubling as an additive map. -/
def dblN : Nat → (BF n →+ BF n)
  | 0 => AddMonoidHom.id _
  | k + 1 => dbl.comp (dblN k)

@[simp] theorem dblN_zero (a : BF n) : dblN 0 a = a := rfl
theorem dblN_succ (k : Nat) (a : BF n) : dblN (k + 1) a = dbl (dblN k a) := rfl
theorem dblN_add (j k : Nat) (a : BF n) : dblN j (dblN k a) = dblN (j + k) a := by
  induction j with
  | zero => simp
  | succ j ih => rw [dblN_succ, ih, Nat.add_right_comm, dblN_succ]

theorem bvMulLoop_fst {k : Nat} (a : BF n) (b : BitVec k) (idx : Nat) :
    (⟨(bvMulLoop a.v b idx).1⟩ : BF n) = dblN idx a := by
  induction idx with
  | zero => rfl
  | succ i ih =>
    rw [dblN_succ, ← ih]
    rfl

theorem mask_and (b : Bool) (a : BF n) : (⟨maskOf n b &&& a.v⟩ : BF n) = if b then a else 0 := by
  cases b <;> ext1 <;> simp [maskOf]

/-- The multiplication loop computes the sum over the set bits of iterated doublings. -/
theorem bvMulLoop_snd {k : Nat} (a : BF n) (b : BitVec k) (idx : Nat) :
    (⟨(bvMulLoop a.v b idx).2⟩ : BF n)
      = ∑ i ∈ Finset.range (idx + 1), if b.getLsbD i then dblN i a else 0 := by
  induction idx with
  | zero =>
    simp only [Finset.range_one, Finset.sum_singleton, zero_add]
    exact mask_and _ _
  | succ i ih =>
    rw [Finset.sum_range_succ, ← ih, ← mask_and, ← bvMulLoop_fst]
    rfl

theorem mul_eq_sum (a b : BF n) (hn : 0 < n) :
    a * b = ∑ i ∈ Finset.range n, if b.v.getLsbD i then dblN i a else 0 := by
  rw [mul_def, bfMul, bvMulLoop_snd, Nat.sub_add_cancel hn]

theorem mul64_eq_sum (a : BF n) (b : BF 64) :
    bfMul64 a b = ∑ i ∈ Finset.range 64, if b.v.getLsbD i then dblN i a else 0 := by
  rw [bfMul64, bvMulLoop_snd]

theorem sum_v_getLsbD (s : Finset Nat) (f : Nat → BF n) (i : Nat) :
    (∑ j ∈ s, f j).v.getLsbD i = decide (Odd (s.filter (fun j => (f j).v.getLsbD i)).card) := by
  classical
  induction s using Finset.induction_on with
  | empty => simp
  | insert a s ha ih =>
    rw [Finset.sum_insert ha, add_v, BitVec.getLsbD_xor, ih, Finset.filter_insert]
    cases h : (f a).v.getLsbD i
    · simp
    · simp [ha, Nat.odd_add_one, - Nat.not_odd_iff_even]

theorem dblN_one_v (k : Nat) (hk : k < n) : (dblN k (1 : BF n)).v = BitVec.twoPow n k := by
  induction k with
  | zero =>
    apply BitVec.eq_of_getLsbD_eq
    intro i hi
    simp [BitVec.twoPow]
  | succ k ih =>
    have h := ih (by omega)
    rw [dblN_succ, dbl_def, bfDbl, bvDbl]
    simp only [h]
    apply BitVec.eq_of_getLsbD_eq
    intro i hi
    have h1 : ¬ (k = n - 1) := by omega
    simp [BitVec.getLsbD_twoPow, maskOf, hi, h1]
    rcases i with _ | i
    · simp
    · simp

/-- Every element is the sum of the doublings of one at its set bits. -/
theorem eq_sum (a : BF n) :
    a = ∑ i ∈ Finset.range n, if a.v.getLsbD i then dblN i (1 : BF n) else 0 := by
  ext1
  apply BitVec.eq_of_getLsbD_eq
  intro i hi
  rw [sum_v_getLsbD]
  have : (Finset.range n).filter
      (fun j => (if a.v.getLsbD j then dblN j (1 : BF n) else 0).v.getLsbD i = true)
      = if a.v.getLsbD i then {i} else ∅ := by
    ext j
    simp only [Finset.mem_filter, Finset.mem_range]
    constructor
    · rintro ⟨hj, h⟩
      by_cases haj : a.v.getLsbD j
      · rw [if_pos haj, dblN_one_v j hj, BitVec.getLsbD_twoPow] at h
        have : j = i := by simp at h; omega
        subst this
        simp [haj]
      · simp [haj] at h
    · intro h
      by_cases hai : a.v.getLsbD i
      · simp [hai] at h
        subst h
        simp [hi, hai, dblN_one_v j hi]
      · simp [hai] at h
  rw [this]
  cases a.v.getLsbD i <;> simp

theorem map_ite_zero {A B : Type} [AddCommGroup A] [AddCommGroup B] (f : A →+ B) (c : Bool) (a : A) :
    f (if c then a else 0) = if c then f a else 0 := by cases c <;> simp

protected theorem mul_comm (a b : BF n) : a * b = b * a := by
  rcases Nat.eq_zero_or_pos n with h | h
  · subst h; ext1; exact Subsingleton.elim _ _
  have key : ∀ a b : BF n, a * b = ∑ i ∈ Finset.range n, ∑ j ∈ Finset.range n,
      if b.v.getLsbD i then (if a.v.getLsbD j then dblN (i + j) (1 : BF n) else 0) else 0 := by
    intro a b
    rw [mul_eq_sum a b h]
    refine Finset.sum_congr rfl fun i _ => ?_
    conv_lhs => rw [eq_sum a]
    rw [map_sum]
    cases b.v.getLsbD i
    · simp
    · simp only [if_true]
      refine Finset.sum_congr rfl fun j _ => ?_
      rw [map_ite_zero, dblN_add]
  rw [key a b, key b a, Finset.sum_comm]
  refine Finset.sum_congr rfl fun i _ => Finset.sum_congr rfl fun j _ => ?_
  rw [Nat.add_comm]
  cases a.v.getLsbD i <;> cases b.v.getLsbD j <;> simp

protected theorem add_mul (a b c : BF n) : (a + b) * c = a * c + b * c := by
  rcases Nat.eq_zero_or_pos n with h | h
  · subst h; ext1; exact Subsingleton.elim _ _
  rw [mul_eq_sum _ _ h, mul_eq_sum _ _ h, mul_eq_sum _ _ h, ← Finset.sum_add_distrib]
  refine Finset.sum_congr rfl fun i _ => ?_
  cases c.v.getLsbD i <;> simp

protected theorem mul_right_comm (a b c : BF n) : a * b * c = a * c * b := by
  rcases Nat.eq_zero_or_pos n with h | h
  · subst h; ext1; exact Subsingleton.elim _ _
  have key : ∀ b c : BF n, a * b * c = ∑ i ∈ Finset.range n, ∑ j ∈ Finset.range n,
      if c.v.getLsbD i then (if b.v.getLsbD j then dblN (i + j) a else 0) else 0 := by
    intro b c
    rw [mul_eq_sum _ c h]
    refine Finset.sum_congr rfl fun i _ => ?_
    rw [mul_eq_sum _ b h, map_sum]
    cases c.v.getLsbD i
    · simp
    · simp only [if_true]
      refine Finset.sum_congr rfl fun j _ => ?_
      rw [map_ite_zero, dblN_add]
  rw [key b c, key c b, Finset.sum_comm]
  refine Finset.sum_congr rfl fun i _ => Finset.sum_congr rfl fun j _ => ?_
  rw [Nat.add_comm]
  cases b.v.getLsbD i <;> cases c.v.getLsbD j <;> simp

protected theorem mul_assoc (a b c : BF n) : a * b * c = a * (b * c) := by
  rw [BF.mul_comm a b, BF.mul_right_comm, BF.mul_comm a (b * c)]

protected theorem mul_one (a : BF n) : a * 1 = a := by
  rcases Nat.eq_zero_or_pos n with h | h
  · subst h; ext1; exact Subsingleton.elim _ _
  rw [mul_eq_sum _ _ h, Finset.sum_eq_single 0]
  · simp [h]
  · intro i hi h0
    simp [BitVec.getLsbD_ofNat, Nat.testBit_one_eq_true_iff_self_eq_zero, h0]
  · intro h'; simp at h'; omega

instance : CommRing (BF n) where
  mul_assoc := BF.mul_assoc
  one_mul a := by rw [BF.mul_comm, BF.mul_one]
  mul_one := BF.mul_one
  left_distrib a b c := by rw [BF.mul_comm, BF.add_mul, BF.mul_comm b, BF.mul_comm c]
  right_distrib := BF.add_mul
  zero_mul a := by
    have := BF.add_mul 0 0 a
    simpa using this
  mul_zero a := by
    have := BF.add_mul 0 0 a
    rw [BF.mul_comm]
    simpa using this
  mul_comm := BF.mul_comm
  neg_add_cancel := neg_add_cancel
  zsmul := zsmulRec


end BF
end Faest
