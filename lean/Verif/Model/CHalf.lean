/-
Words of 32 bits of the translated sha3/plain32 (Verif/Model/Gen/KeccakP32.lean).

A `uint32_t` in memory is four bytes, least significant first (little-endian host).  The alignment of pointers is not
modelled.
-/
import Verif.Model.CHash

namespace Faest.C

/-- sha3/plain32/KeccakP-1600-inplace32BI.c:971-1020 `Aba0` .. `Asu1`: the words of the state.  The macros of the rounds
read and write the words in memory; their translation reads the 50 words first and writes them at the end. -/
structure Halves where
  (ba0 ba1 be0 be1 bi0 bi1 bo0 bo1 bu0 bu1 : BitVec 32)
  (ga0 ga1 ge0 ge1 gi0 gi1 go0 go1 gu0 gu1 : BitVec 32)
  (ka0 ka1 ke0 ke1 ki0 ki1 ko0 ko1 ku0 ku1 : BitVec 32)
  (ma0 ma1 me0 me1 mi0 mi1 mo0 mo1 mu0 mu1 : BitVec 32)
  (sa0 sa1 se0 se1 si0 si1 so0 so1 su0 su1 : BitVec 32)

/-- `*(uint32_t*)((uint8_t*)p + o)`. -/
def ld32 (p : CPtr) (o : Nat) : CM (BitVec 32) := do
  let l ← ldN (α := Byte) (padd p o) 4
  pure ((Keccak.leWord l).setWidth 32)

/-- The bytes of a word in memory. -/
def wordBytes4 (x : BitVec 32) : List Byte := tabP 4 (fun j => Keccak.laneByte (x.setWidth 64) j)

/-- `*(uint32_t*)((uint8_t*)p + o) = x`. -/
def st32 (p : CPtr) (o : Nat) (x : BitVec 32) : CM Unit := stN (padd p o) (wordBytes4 x)

/-- Element of a constant table of words. -/
def tget32 (t : List (BitVec 32)) (i : Nat) : CM (BitVec 32) := lft (t[i]?)

/-- `a << b` for `uint32_t`. -/
def w32shl (a : BitVec 32) (b : Nat) : CM (BitVec 32) := lft (if b < 32 then some (a <<< b) else none)
/-- `a >> b` for `uint32_t`. -/
def w32shr (a : BitVec 32) (b : Nat) : CM (BitVec 32) := lft (if b < 32 then some (a >>> b) else none)

/-- `a - 1` for an `int` given by its value modulo 2^32; undefined for the smallest `int`. -/
def idec (a : Nat) : CM Nat := lft (if a = 2147483648 then none else some ((a + U32 - 1) % U32))

end Faest.C
