/-
Words and contexts of the translated hash layer (Verif/Model/Gen/KeccakP.lean and following).

The state of a sponge is a member array of the C structure.  Here it is a block of bytes of its own and the structure
holds a pointer to it; the contexts are only passed by address in the hash layer, never copied.  The other members may
be uninitialised (`none`).  A `uint64_t` in memory is eight bytes, least significant first (little-endian host).
-/
import Verif.Model.CSem
import Verif.Model.Keccak

namespace Faest.C

/-- sha3/KeccakSponge.h:26-32 `KeccakWidth1600_SpongeInstance`, and sha3/KeccakSpongetimes4.h for four states. -/
structure SpongeC where
  state : CPtr
  rate : Option Nat := none
  byteIOIndex : Option Nat := none
  squeezing : Option Nat := none

/-- sha3/KeccakHash.h `Keccak_HashInstance`, and sha3/KeccakHashtimes4.h for four states. -/
structure HashC where
  sponge : SpongeC
  fixedOutputLength : Option Nat := none
  delimitedSuffix : Option Byte := none

/-- The bytes of a word in memory. -/
def wordBytes (x : BitVec 64) : List Byte := tabP 8 (fun j => Keccak.laneByte x j)

/-- `*(uint64_t*)((uint8_t*)p + o)`. -/
def ld64 (p : CPtr) (o : Nat) : CM (BitVec 64) := do
  let l ← ldN (α := Byte) (padd p o) 8
  pure (Keccak.leWord l)

/-- `*(uint64_t*)((uint8_t*)p + o) = x`. -/
def st64 (p : CPtr) (o : Nat) (x : BitVec 64) : CM Unit := stN (padd p o) (wordBytes x)

/-- Element of a constant table of words. -/
def tget64 (t : List (BitVec 64)) (i : Nat) : CM (BitVec 64) := lft (t[i]?)

/-- `a << b` for `uint64_t`. -/
def w64shl (a : BitVec 64) (b : Nat) : CM (BitVec 64) := lft (if b < 64 then some (a <<< b) else none)
/-- `a >> b` for `uint64_t`. -/
def w64shr (a : BitVec 64) (b : Nat) : CM (BitVec 64) := lft (if b < 64 then some (a >>> b) else none)

end Faest.C
