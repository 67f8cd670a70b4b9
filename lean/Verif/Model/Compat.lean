/-
The helper functions of compat.h and endian_compat.h, in the versions without compiler builtins.  `uint8_t`, `uint16_t`, `uint32_t` and `uint64_t` are
bit vectors; the conversions to `int` and back in `rotl8`, `rotr8`, `parity8` and `bswap16` lose nothing, as all values fit.
-/

namespace Faest.Compat

/-- compat.h:113-117 `sub_overflow_size_t` for a `size_t` of `w` bits: the value returned and `*diff`. -/
def subOverflow {w : Nat} (x y : BitVec w) : Bool × BitVec w := (decide (x < y), x - y)

/-- compat.h:133-137 `rotl8`. -/
def rotl8 (n : BitVec 8) (c : BitVec 32) : BitVec 8 :=
  let mask : BitVec 32 := 8 * 1 - 1
  let c := c &&& mask
  (n <<< c.toNat) ||| (n >>> ((-c) &&& mask).toNat)

/-- compat.h:139-143 `rotr8`. -/
def rotr8 (n : BitVec 8) (c : BitVec 32) : BitVec 8 :=
  let mask : BitVec 32 := 8 * 1 - 1
  let c := c &&& mask
  (n >>> c.toNat) ||| (n <<< ((-c) &&& mask).toNat)

/-- compat.h:153-159: `clz` with `_BitScanReverse`, which gives the index of the highest bit set, if there is one. -/
def clzScan (scan : BitVec 32 → Option (BitVec 32)) (x : BitVec 32) : BitVec 32 :=
  match scan x with
  | some index => 31 - index
  | none => 32

/-- compat.h:148-150: `clz` with `__builtin_clz`, which is not to be called with 0. -/
def clzBuiltin (builtin : BitVec 32 → BitVec 32) (x : BitVec 32) : BitVec 32 := if x ≠ 0 then builtin x else 32

/-- One of the steps of compat.h:172-187. -/
def clzStep (s k : Nat) (nx : BitVec 32 × BitVec 32) : BitVec 32 × BitVec 32 :=
  if nx.2 >>> s = 0 then (nx.1 + BitVec.ofNat 32 k, nx.2 <<< k) else nx

/-- compat.h:166-191 `clz`. -/
def clz (x : BitVec 32) : BitVec 32 :=
  if x = 0 then 32
  else
    let nx : BitVec 32 × BitVec 32 := (1, x)
    let nx := clzStep 16 16 nx
    let nx := clzStep 24 8 nx
    let nx := clzStep 28 4 nx
    let nx := clzStep 30 2 nx
    nx.1 - (nx.2 >>> 31)

/-- compat.h:194-199 `ceil_log2`, over one of the versions of `clz`. -/
def ceilLog2 (clz : BitVec 32 → BitVec 32) (x : BitVec 32) : BitVec 32 :=
  if x = 0 then 0 else 32 - clz (x - 1)

/-- compat.h:208-213 `parity8`. -/
def parity8 (n : BitVec 8) : BitVec 8 :=
  let n := n ^^^ (n >>> 4)
  let n := n ^^^ (n >>> 2)
  let n := n ^^^ (n >>> 1)
  if (~~~n) &&& 1 = 0 then 1 else 0

/-- compat.h:206: `parity8` with `__builtin_popcount`. -/
def parity8Popcount (popcount : BitVec 32 → BitVec 32) (x : BitVec 8) : BitVec 32 := popcount (x.setWidth 32) &&& 0x1

/-- endian_compat.h:22-24 `bswap16`. -/
def bswap16 (x : BitVec 16) : BitVec 16 := ((x &&& 0xff00) >>> 8) ||| ((x &&& 0x00ff) <<< 8)

/-- endian_compat.h:26-29 `bswap32`. -/
def bswap32 (x : BitVec 32) : BitVec 32 :=
  ((x &&& 0xff000000) >>> 24) ||| ((x &&& 0x00ff0000) >>> 8) ||| ((x &&& 0x0000ff00) <<< 8) ||| ((x &&& 0x000000ff) <<< 24)

/-- endian_compat.h:31-36 `bswap64`. -/
def bswap64 (x : BitVec 64) : BitVec 64 :=
  ((x &&& 0xff00000000000000) >>> 56) ||| ((x &&& 0x00ff000000000000) >>> 40) |||
  ((x &&& 0x0000ff0000000000) >>> 24) ||| ((x &&& 0x000000ff00000000) >>> 8) |||
  ((x &&& 0x00000000ff000000) <<< 8) ||| ((x &&& 0x0000000000ff0000) <<< 24) |||
  ((x &&& 0x000000000000ff00) <<< 40) ||| ((x &&& 0x00000000000000ff) <<< 56)

/-- endian_compat.h:151-183: the macros `htobe*`, `htole*`, `be*toh`, `le*toh` on a host of either byte order. -/
structure Host where
  big : Bool

def Host.htobe16 (h : Host) (x : BitVec 16) : BitVec 16 := if h.big then x else bswap16 x
def Host.htole16 (h : Host) (x : BitVec 16) : BitVec 16 := if h.big then bswap16 x else x
def Host.be16toh (h : Host) (x : BitVec 16) : BitVec 16 := if h.big then x else bswap16 x
def Host.le16toh (h : Host) (x : BitVec 16) : BitVec 16 := if h.big then bswap16 x else x
def Host.htobe32 (h : Host) (x : BitVec 32) : BitVec 32 := if h.big then x else bswap32 x
def Host.htole32 (h : Host) (x : BitVec 32) : BitVec 32 := if h.big then bswap32 x else x
def Host.be32toh (h : Host) (x : BitVec 32) : BitVec 32 := if h.big then x else bswap32 x
def Host.le32toh (h : Host) (x : BitVec 32) : BitVec 32 := if h.big then bswap32 x else x
def Host.htobe64 (h : Host) (x : BitVec 64) : BitVec 64 := if h.big then x else bswap64 x
def Host.htole64 (h : Host) (x : BitVec 64) : BitVec 64 := if h.big then bswap64 x else x
def Host.be64toh (h : Host) (x : BitVec 64) : BitVec 64 := if h.big then x else bswap64 x
def Host.le64toh (h : Host) (x : BitVec 64) : BitVec 64 := if h.big then bswap64 x else x

end Faest.Compat
