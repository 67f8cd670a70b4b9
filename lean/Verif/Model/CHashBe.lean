/-
Words of the translated hash layer on a big-endian host (Verif/Model/Gen/KeccakBe.lean, KeccakP32be.lean): a `uint64_t` in
memory is eight bytes and a `uint32_t` four, most significant first.
-/
import Verif.Model.CHash
import Verif.Model.CHalf

namespace Faest.C

/-- `*(uint64_t*)((uint8_t*)p + o)`. -/
def ld64be (p : CPtr) (o : Nat) : CM (BitVec 64) := do
  let l ← ldN (α := Byte) (padd p o) 8
  pure (Keccak.leWord l.reverse)

/-- `*(uint64_t*)((uint8_t*)p + o) = x`. -/
def st64be (p : CPtr) (o : Nat) (x : BitVec 64) : CM Unit := stN (padd p o) (wordBytes x).reverse

/-- `*(uint32_t*)((uint8_t*)p + o)`. -/
def ld32be (p : CPtr) (o : Nat) : CM (BitVec 32) := do
  let l ← ldN (α := Byte) (padd p o) 4
  pure ((Keccak.leWord l.reverse).setWidth 32)

/-- `*(uint32_t*)((uint8_t*)p + o) = x`. -/
def st32be (p : CPtr) (o : Nat) (x : BitVec 32) : CM Unit := stN (padd p o) (wordBytes4 x).reverse

/-- endian_compat.h:31-36 `bswap64`, which is `htole64` on a big-endian host (endian_compat.h:179).  With GCC and Clang it
is `__builtin_bswap64` (:14), whose result is the same. -/
def bswap64 (x : BitVec 64) : BitVec 64 :=
  (((((((((x &&& 0xff00000000000000) >>> 56) ||| ((x &&& 0x00ff000000000000) >>> 40)) |||
   ((x &&& 0x0000ff0000000000) >>> 24)) ||| ((x &&& 0x000000ff00000000) >>> 8)) |||
   ((x &&& 0x00000000ff000000) <<< 8)) ||| ((x &&& 0x0000000000ff0000) <<< 24)) |||
   ((x &&& 0x000000000000ff00) <<< 40)) ||| ((x &&& 0x00000000000000ff) <<< 56))

end Faest.C
