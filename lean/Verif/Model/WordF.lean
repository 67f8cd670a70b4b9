/-
The functions of fields.c on words, given by a table `FieldCode` or `SmallCode` (Spec/FieldCode.lean), as implementation
of the interface `FImpl`.  Every call converts the arguments to words, runs the function on words and converts the
result back; a result which is not the words of an element (in the vector build of the 192 bit field: a fourth word
which is not zero) is undefined behaviour.
-/
import Verif.Model.FImpl
import Verif.Spec.FieldCode

namespace Faest.C

open Faest.Words Faest.Spec

/-- The words of an element. -/
def toW {n : Nat} (k : Nat) (a : BF n) : Ws k := Vector.ofFn fun i => a.v.extractLsb' (64 * i.val) 64

/-- The element with these words. -/
def ofW {k : Nat} (n : Nat) (v : Ws k) : Option (BF n) :=
  if wordsNat v.toList < 2 ^ n then some ⟨BitVec.ofNat n (wordsNat v.toList)⟩ else none

/-- A call which returns an element. -/
def retW {k : Nat} (n : Nat) (o : Option (Ws k)) : CM (BF n) := lft (o.bind (ofW n))

/-- A function which reads from an array: block and offset of the pointer. -/
def readAt {α β : Type} [Ty α] (f : Mem α → Nat → Option β) (p : CPtr) : CM β := do
  let q ← lft p
  let m ← blk q
  lft (f m q.off)

/-- A function which writes to an array. -/
def writeAt {α : Type} [Ty α] (f : Mem α → Nat → Option (Mem α)) (p : CPtr) : CM Unit := do
  let q ← lft p
  let m ← blk q
  let m' ← lft (f m q.off)
  put q m'

/-- A block of elements as block of objects of `k` words. -/
def memW {n : Nat} (k : Nat) (m : Mem (BF n)) : Mem (Ws k) := m.map (Option.map (toW k))

/-- The functions of one of the large fields. -/
def wordOps {n k : Nat} (c : FieldCode n k) : FOps n where
  load := readAt fun m o => (c.load m o).bind (ofW n)
  store p a := writeAt (fun m o => c.store m o (toW k a)) p
  zero := retW n c.zero
  one := retW n c.one
  from_bit x := retW n (c.fromBit x)
  add a b := retW n (c.add (toW k a) (toW k b))
  mul a b := retW n (c.mul (toW k a) (toW k b))
  mul_64 a b := retW n (c.mul64 (toW k a) b.v)
  mul_bit a b := retW n (c.mulBit (toW k a) b)
  byte_combine := readAt fun (m : Mem (BF n)) o => (c.byteCombine (memW k m) o).bind (ofW n)
  byte_combine_bits x := retW n (c.byteCombineBits x)
  sum_poly := readAt fun (m : Mem (BF n)) o => (c.sumPoly (memW k m) o).bind (ofW n)

/-- The functions of the field with 2^64 elements. -/
def wordOps64 (c : SmallCode 64) : FOps64 where
  load := readAt fun m o => (c.load m o).map BF.mk
  store p a := writeAt (fun m o => c.store m o a.v) p
  zero := lft (c.zero.map BF.mk)
  one := lft (c.one.map BF.mk)
  add a b := lft ((c.add a.v b.v).map BF.mk)
  mul a b := lft ((c.mul a.v b.v).map BF.mk)

/-- All functions. -/
def wordF {k1 k2 k3 : Nat} (c8 : SmallCode 8) (inv : Byte → Option Byte) (rotr : Byte → Nat → Option Byte)
    (parity : Byte → Option Byte) (c64 : SmallCode 64) (c128 : FieldCode 128 k1) (c192 : FieldCode 192 k2)
    (c256 : FieldCode 256 k3) : FImpl where
  f64 := wordOps64 c64
  f128 := wordOps c128
  f192 := wordOps c192
  f256 := wordOps c256
  bf8_load := readAt c8.load
  bf8_store p x := writeAt (fun m o => c8.store m o x) p
  bf8_mul a b := lft (c8.mul a b)
  bf8_inv a := lft (inv a)
  rotr8 x c := lft (rotr x c)
  parity8 x := lft (parity x)

end Faest.C
