/-
What the field routines of fields.h have to do: a statement about the functions themselves, in
terms of the value of the words, polynomials over GF(2) and bits of bytes.
-/
import Verif.Spec.Words
import Verif.Spec.Field

namespace Faest.Spec

open Faest.Words Polynomial

/-- The interface of one of the large fields (fields.h:142-370): elements of `n` bits in `k` words.
`none` is undefined behaviour. -/
@[ext] structure FieldCode (n k : Nat) where
  zero : Option (Ws k)
  one : Option (Ws k)
  from64 : U64 → Option (Ws k)
  from8 : Byte → Option (Ws k)
  fromBit : Byte → Option (Ws k)
  add : Ws k → Ws k → Option (Ws k)
  mul : Ws k → Ws k → Option (Ws k)
  mul64 : Ws k → U64 → Option (Ws k)
  mulBit : Ws k → Byte → Option (Ws k)
  sumPoly : Mem (Ws k) → Nat → Option (Ws k)
  byteCombine : Mem (Ws k) → Nat → Option (Ws k)
  byteCombineBits : Byte → Option (Ws k)
  load : Mem Byte → Nat → Option (Ws k)
  store : Mem Byte → Nat → Ws k → Option (Mem Byte)

/-- The call returns words which represent the bit vector `c`. -/
def Gives {n k : Nat} (o : Option (Ws k)) (c : BitVec n) : Prop := ∃ z, o = some z ∧ Repr z c

/-- The call returns words which represent the polynomial `p` modulo `f`. -/
def GivesMod {k : Nat} (n : Nat) (f : (ZMod 2)[X]) (o : Option (Ws k)) (p : (ZMod 2)[X]) : Prop :=
  ∃ c : BitVec n, Gives o c ∧ polyOf c = p %ₘ f

/-- `m` elements at offset `o` of a buffer represent `a 0, …, a (m-1)`. -/
def Elems {n k : Nat} (xs : Mem (Ws k)) (o m : Nat) (a : Nat → BitVec n) : Prop :=
  ∀ i, i < m → ∃ x, rd xs (o + i) = some x ∧ Repr x (a i)

/-- Byte `j` of a bit vector. -/
def byteOf {n : Nat} (a : BitVec n) (j : Nat) : BitVec 8 := a.extractLsb' (8 * j) 8

/-- The code computes in `GF(2)[X]/f`. -/
structure FieldCode.Correct {n k : Nat} (F : FieldCode n k) (f : (ZMod 2)[X]) : Prop where
  zero : Gives F.zero 0#n
  one : Gives F.one 1#n
  from64 : ∀ x : BitVec 64, Gives (F.from64 x) (x.zeroExtend n)
  from8 : ∀ x : BitVec 8, Gives (F.from8 x) (x.zeroExtend n)
  fromBit : ∀ x : BitVec 8, Gives (F.fromBit x) (BitVec.ofNat n (x.toNat % 2))
  add : ∀ x y (a b : BitVec n), Repr x a → Repr y b → Gives (F.add x y) (a ^^^ b)
  mul : ∀ x y (a b : BitVec n), Repr x a → Repr y b →
    GivesMod n f (F.mul x y) (polyOf a * polyOf b)
  mul64 : ∀ x (a : BitVec n) (b : BitVec 64), Repr x a →
    GivesMod n f (F.mul64 x b) (polyOf a * polyOf b)
  mulBit : ∀ x (a : BitVec n) (b : BitVec 8), Repr x a →
    Gives (F.mulBit x b) (if b.toNat % 2 = 1 then a else 0#n)
  sumPoly : ∀ xs o (a : Nat → BitVec n), Elems xs o n a →
    GivesMod n f (F.sumPoly xs o) (∑ i ∈ Finset.range n, polyOf (a i) * X ^ i)
  /-- one element `β`, a root of the AES polynomial, for both routines -/
  combine : ∃ β : BitVec n,
    (polyOf β ^ 8 + polyOf β ^ 4 + polyOf β ^ 3 + polyOf β + 1) %ₘ f = 0 ∧
    (∀ xs o (a : Nat → BitVec n), Elems xs o 8 a →
      GivesMod n f (F.byteCombine xs o) (∑ i ∈ Finset.range 8, polyOf (a i) * polyOf β ^ i)) ∧
    (∀ x : BitVec 8, GivesMod n f (F.byteCombineBits x)
      (∑ i ∈ Finset.range 8, if x.getLsbD i then polyOf β ^ i else 0))
  load : ∀ src o (g : Nat → BitVec 8), (∀ i, i < n / 8 → rd src (o + i) = some (g i)) →
    ∃ c : BitVec n, Gives (F.load src o) c ∧ ∀ j, j < n / 8 → byteOf c j = g j
  store : ∀ dst o x (a : BitVec n), Repr x a → o + n / 8 ≤ dst.length →
    ∃ dst', F.store dst o x = some dst' ∧ dst'.length = dst.length ∧
      ∀ i, rd dst' i = if o ≤ i ∧ i < o + n / 8 then some (byteOf a (i - o)) else rd dst i

/-- The interface of one of the small fields (fields.h:73-140), whose elements are integers. -/
structure SmallCode (n : Nat) where
  zero : Option (BitVec n)
  one : Option (BitVec n)
  fromBit : Byte → Option (BitVec n)
  add : BitVec n → BitVec n → Option (BitVec n)
  mul : BitVec n → BitVec n → Option (BitVec n)
  load : Mem Byte → Nat → Option (BitVec n)
  store : Mem Byte → Nat → BitVec n → Option (Mem Byte)

/-- The code computes in `GF(2)[X]/f`. -/
structure SmallCode.Correct {n : Nat} (F : SmallCode n) (f : (ZMod 2)[X]) : Prop where
  zero : F.zero = some 0#n
  one : F.one = some 1#n
  fromBit : ∀ x : BitVec 8, F.fromBit x = some (BitVec.ofNat n (x.toNat % 2))
  add : ∀ a b, F.add a b = some (a ^^^ b)
  mul : ∀ a b, ∃ c, F.mul a b = some c ∧ polyOf c = (polyOf a * polyOf b) %ₘ f
  load : ∀ src o (g : Nat → BitVec 8), (∀ i, i < n / 8 → rd src (o + i) = some (g i)) →
    ∃ c, F.load src o = some c ∧ ∀ j, j < n / 8 → byteOf c j = g j
  store : ∀ dst o (a : BitVec n), o + n / 8 ≤ dst.length →
    ∃ dst', F.store dst o a = some dst' ∧ dst'.length = dst.length ∧
      ∀ i, rd dst' i = if o ≤ i ∧ i < o + n / 8 then some (byteOf a (i - o)) else rd dst i

end Faest.Spec
