/-
The word level of fields.c / fields.h: `bf128_t`, `bf192_t`, `bf256_t` as arrays of 64-bit
words, for the builds without vector extensions (`HAVE_ATTR_VECTOR_SIZE` undefined, a struct
with `values[n/64]`) and with them (a vector of 2 or 4 words; `bf192_t` has a fourth word).
In the vector builds `shift_right_64` is `__builtin_shufflevector` where the compiler has it
and a function otherwise; both are modelled.

Not modelled here: `bf*_rand` (only used by the tests).
-/
import Verif.Model.Fields

namespace Faest.Words

/-- `uint64_t`. -/
abbrev U64 := BitVec 64

/-- The `k` words of a struct or of a vector. -/
abbrev Ws (k : Nat) := Vector U64 k

/-- `BF_VALUE(v, i)` (fields.h:20, 37) at a computed index: undefined outside the words. -/
def bfValue {k : Nat} (v : Ws k) (i : Nat) : Option U64 := v[i]?

/-! ### GCC/clang vector extensions -/

/-- `lhs ^ rhs` on vectors. -/
def vXor {k : Nat} (a b : Ws k) : Ws k := Vector.zipWith (· ^^^ ·) a b
/-- `lhs | rhs` on vectors. -/
def vOr {k : Nat} (a b : Ws k) : Ws k := Vector.zipWith (· ||| ·) a b
/-- `lhs & rhs` on vectors. -/
def vAnd {k : Nat} (a b : Ws k) : Ws k := Vector.zipWith (· &&& ·) a b
/-- `lhs & rhs` with a scalar `rhs`: the scalar is replicated. -/
def vAndS {k : Nat} (a : Ws k) (b : U64) : Ws k := vAnd a (Vector.replicate k b)
/-- `value << s`: every word for itself. -/
def vShl {k : Nat} (a : Ws k) (s : Nat) : Ws k := a.map (fun w : U64 => w <<< s)
/-- `value >> s`: every word for itself. -/
def vShr {k : Nat} (a : Ws k) (s : Nat) : Ws k := a.map (fun w : U64 => w >>> s)
/-- `__builtin_shufflevector(v1, v2, idx…)`: element `j` of the result is element `idx j` of
`v1` followed by `v2`. -/
def shuffle {k : Nat} (v1 v2 : Ws k) (idx : Vector (Fin (k + k)) k) : Ws k :=
  idx.map (fun j => (v1 ++ v2)[j.val])

/-! ### Loops over the words of a struct -/

/-- fields.h:201-206, 280-285, 356-361 (`bf*_add` of the struct builds):
`for (i = 0; i != ARRAY_SIZE(lhs.values); ++i) lhs.values[i] ^= rhs.values[i]`. -/
def sAdd {k : Nat} (lhs rhs : Ws k) : Ws k :=
  Fin.foldl k (fun l i => l.set i (l[i] ^^^ rhs[i])) lhs

/-- fields.c:145-150, 291-296, 450-455 (`bf*_and_64` of the struct builds):
`for (i = 0; i != ARRAY_SIZE(lhs.values); ++i) lhs.values[i] &= rhs`. -/
def sAnd64 {k : Nat} (lhs : Ws k) (rhs : U64) : Ws k :=
  Fin.foldl k (fun l i => l.set i (l[i] &&& rhs)) lhs

/-- `BF_VALUE(lhs, 0) ^= x`. -/
def xor0 {k : Nat} (hk : 0 < k) (lhs : Ws k) (x : U64) : Ws k := lhs.set 0 (lhs[0] ^^^ x)

/-! ### The three shifts by one -/

/-- fields.c:168-172, struct: the statements in their order. -/
def sShl1_128 (v0 : Ws 2) : Ws 2 :=
  let v1 := v0.set 1 ((v0[1] <<< 1) ||| (v0[0] >>> 63))
  v1.set 0 (v1[0] <<< 1)

/-- fields.c:320-322, struct. -/
def sShl1_192 (v0 : Ws 3) : Ws 3 :=
  let v1 := v0.set 2 ((v0[2] <<< 1) ||| (v0[1] >>> 63))
  let v2 := v1.set 1 ((v1[1] <<< 1) ||| (v1[0] >>> 63))
  v2.set 0 (v2[0] <<< 1)

/-- fields.c:475-481, struct. -/
def sShl1_256 (v0 : Ws 4) : Ws 4 :=
  let v1 := v0.set 3 ((v0[3] <<< 1) ||| (v0[2] >>> 63))
  let v2 := v1.set 2 ((v1[2] <<< 1) ||| (v1[1] >>> 63))
  let v3 := v2.set 1 ((v2[1] <<< 1) ||| (v2[0] >>> 63))
  v3.set 0 (v3[0] <<< 1)

/-- fields.c:155, `__builtin_shufflevector((v1), bf128_zero(), 2, 0)`. -/
def shr64_128_builtin (v1 : Ws 2) : Ws 2 := shuffle v1 #v[0, 0] #v[2, 0]
/-- fields.c:157-162. -/
def shr64_128_fn (v1 : Ws 2) : Ws 2 := #v[0, v1[0]]
/-- fields.c:301, `__builtin_shufflevector((v1), bf192_zero(), 4, 0, 1, 5)`. -/
def shr64_192_builtin (v1 : Ws 4) : Ws 4 := shuffle v1 #v[0, 0, 0, 0] #v[4, 0, 1, 5]
/-- fields.c:303-310. -/
def shr64_192_fn (v1 : Ws 4) : Ws 4 := #v[0, v1[0], v1[1], 0]
/-- fields.c:460, `__builtin_shufflevector((v1), bf256_zero(), 4, 0, 1, 2)`. -/
def shr64_256_builtin (v1 : Ws 4) : Ws 4 := shuffle v1 #v[0, 0, 0, 0] #v[4, 0, 1, 2]
/-- fields.c:462-469. -/
def shr64_256_fn (v1 : Ws 4) : Ws 4 := #v[0, v1[0], v1[1], v1[2]]

/-- fields.c:165, 472: `((value << 1) | bf*_shift_right_64(value >> 63))`. -/
def vShl1 {k : Nat} (shr64 : Ws k → Ws k) (value : Ws k) : Ws k :=
  vOr (vShl value 1) (shr64 (vShr value 63))

/-- fields.c:315-318: the same for 192 bits, masked to the three low words.  The initialiser
`BF192C` (fields.h:32-33) puts a zero in the fourth word of the mask. -/
def vShl1_192 (shr64 : Ws 4 → Ws 4) (value : Ws 4) : Ws 4 :=
  vAnd (vShl1 shr64 value)
    #v[0xffffffffffffffff#64, 0xffffffffffffffff#64, 0xffffffffffffffff#64, 0]

/-! ### Moduli -/

/-- fields.c:17 `bf128_modulus`. -/
def mod128 : U64 := ((1 : U64) <<< 7) ||| ((1 : U64) <<< 2) ||| ((1 : U64) <<< 1) ||| 1
/-- fields.c:19 `bf192_modulus`. -/
def mod192 : U64 := ((1 : U64) <<< 7) ||| ((1 : U64) <<< 2) ||| ((1 : U64) <<< 1) ||| 1
/-- fields.c:21 `bf256_modulus`. -/
def mod256 : U64 := ((1 : U64) <<< 10) ||| ((1 : U64) <<< 5) ||| ((1 : U64) <<< 2) ||| 1

/-! ### The builds -/

/-- The build-dependent primitives of one field size. -/
structure Impl where
  /-- 128, 192 or 256 -/
  n : Nat
  /-- number of words of the type -/
  k : Nat
  /-- `bf*_add` -/
  add : Ws k → Ws k → Ws k
  /-- `bf*_and_64` -/
  and64 : Ws k → U64 → Ws k
  /-- `bf*_shift_left_1` -/
  shl1 : Ws k → Ws k
  /-- the reduction step with its mask -/
  reduce : Ws k → U64 → Ws k
  /-- the initialiser `BF128C`, `BF192C`, `BF256C` (fields.h:30-35, 51-62) -/
  bfC : Ws (n / 64) → Ws k
  /-- fields.h: does `bf*_load` end with `BF_VALUE(ret, 3) = 0`? -/
  loadZero3 : Bool
  /-- does `bf*_byte_combine_bits` use one expression instead of the loop? -/
  vec : Bool

/-- fields.h:39-41, struct build. -/
def struct128 : Impl where
  n := 128
  k := 2
  add := sAdd
  and64 := sAnd64
  shl1 := sShl1_128
  reduce lhs mask := xor0 (by decide) lhs (mask &&& mod128)
  bfC x := #v[x[0], x[1]]
  loadZero3 := false
  vec := false

/-- fields.h:43-45, struct build. -/
def struct192 : Impl where
  n := 192
  k := 3
  add := sAdd
  and64 := sAnd64
  shl1 := sShl1_192
  reduce lhs mask := xor0 (by decide) lhs (mask &&& mod192)
  bfC x := #v[x[0], x[1], x[2]]
  loadZero3 := false
  vec := false

/-- fields.h:47-49, struct build. -/
def struct256 : Impl where
  n := 256
  k := 4
  add := sAdd
  and64 := sAnd64
  shl1 := sShl1_256
  reduce lhs mask := xor0 (by decide) lhs (mask &&& mod256)
  bfC x := #v[x[0], x[1], x[2], x[3]]
  loadZero3 := false
  vec := false

/-- fields.h:22, vector build; `add` fields.h:199, `and64` fields.c:142, the reduction goes
through `BF_VALUE(lhs, 0)`. -/
def vec128 (shr64 : Ws 2 → Ws 2) : Impl where
  n := 128
  k := 2
  add := vXor
  and64 := vAndS
  shl1 := vShl1 shr64
  reduce lhs mask := xor0 (by decide) lhs (mask &&& mod128)
  bfC x := #v[x[0], x[1]]
  loadZero3 := false
  vec := true

/-- fields.h:23, vector build: four words. -/
def vec192 (shr64 : Ws 4 → Ws 4) : Impl where
  n := 192
  k := 4
  add := vXor
  and64 := vAndS
  shl1 := vShl1_192 shr64
  reduce lhs mask := xor0 (by decide) lhs (mask &&& mod192)
  bfC x := #v[x[0], x[1], x[2], 0]
  loadZero3 := true
  vec := true

/-- fields.h:24, vector build; the reduction is
`lhs ^= bf256_and_64(BF256C(bf256_modulus, 0, 0, 0), mask)` (fields.c:494, 501, 513, 520,
540-541). -/
def vec256 (shr64 : Ws 4 → Ws 4) : Impl where
  n := 256
  k := 4
  add := vXor
  and64 := vAndS
  shl1 := vShl1 shr64
  reduce lhs mask := vXor lhs (vAndS #v[mod256, 0, 0, 0] mask)
  bfC x := #v[x[0], x[1], x[2], x[3]]
  loadZero3 := false
  vec := true

/-- All builds of all field sizes. -/
def impls : List Impl :=
  [struct128, struct192, struct256,
   vec128 shr64_128_builtin, vec128 shr64_128_fn,
   vec192 shr64_192_builtin, vec192 shr64_192_fn,
   vec256 shr64_256_builtin, vec256 shr64_256_fn]

/-! ### Routines with the same text in all builds -/

namespace Impl

variable (I : Impl)

/-- fields.c:176-181, 328-333, 484-490 `bf*_bit_to_uint64_mask`. -/
def bitMask (value : Ws I.k) (bit : Nat) : Option U64 := do
  let w ← bfValue value (bit / 64)
  pure (-((w >>> (bit % 64)) &&& 1))

/-- fields.c:88 `bf64_bit_to_mask(value, bit)`. -/
def bit64Mask (value : U64) (bit : Nat) : U64 := -((value >>> bit) &&& 1)

/-- fields.c:183-193, 335-345, 492-509 `bf*_mul`: state `(lhs, result)`. -/
def mul (lhs rhs : Ws I.k) : Option (Ws I.k) := do
  let m0 ← I.bitMask rhs 0
  let s ← forR 1 I.n (lhs, I.and64 lhs m0) (fun idx (s : Ws I.k × Ws I.k) => do
    let mask ← I.bitMask s.1 (I.n - 1)
    let lhs := I.reduce (I.shl1 s.1) mask
    let mi ← I.bitMask rhs idx
    pure (lhs, I.add s.2 (I.and64 lhs mi)))
  pure s.2

/-- fields.c:195-205, 347-357, 511-528 `bf*_mul_64`. -/
def mul64 (lhs : Ws I.k) (rhs : U64) : Option (Ws I.k) := do
  let s ← forR 1 64 (lhs, I.and64 lhs (bit64Mask rhs 0)) (fun idx (s : Ws I.k × Ws I.k) => do
    let mask ← I.bitMask s.1 (I.n - 1)
    let lhs := I.reduce (I.shl1 s.1) mask
    pure (lhs, I.add s.2 (I.and64 lhs (bit64Mask rhs idx))))
  pure s.2

/-- fields.c:207-211, 359-363, 530-534 and the macros fields.h:212, 291, 367
`bf*_mul_bit`: `lhs & -((uint64_t)rhs & 1)`. -/
def mulBit (lhs : Ws I.k) (rhs : Byte) : Ws I.k := I.and64 lhs (-((rhs.zeroExtend 64) &&& 1))

/-- fields.c:213-219, 365-371, 536-546 `bf*_dbl`. -/
def dbl (lhs : Ws I.k) : Option (Ws I.k) := do
  let mask ← I.bitMask lhs (I.n - 1)
  pure (I.reduce (I.shl1 lhs) mask)

/-- fields.c:221-227, 373-379, 548-554 `bf*_sum_poly`. -/
def sumPoly (xs : Mem (Ws I.k)) : Option (Ws I.k) := do
  let ret ← rd xs (I.n - 1)
  forR 1 I.n ret (fun i ret => do
    let d ← I.dbl ret
    let x ← rd xs (I.n - 1 - i)
    pure (I.add d x))

/-- `BF*C` with all words but the first zero, then `BF_VALUE(ret, 0) = x`; fields.h:168-178,
247-257, 323-333 `bf*_from_bf64`, `bf*_from_bf8`. -/
def from64 (x : U64) : Ws I.k := I.bfC (Vector.ofFn (fun i => if i.val = 0 then x else 0))
/-- fields.h:174-178, 253-257, 329-333 `bf*_from_bf8`. -/
def from8 (x : Byte) : Ws I.k := I.from64 (x.zeroExtend 64)
/-- fields.h:180-182, 259-261, 335-337 `bf*_from_bit`: `bf*_from_bf8(bit & 1)`. -/
def fromBit (bit : Byte) : Ws I.k := I.from8 (bit &&& 1)
/-- fields.h:184-187, 263-266, 339-342 `bf*_zero`. -/
def zero : Ws I.k := I.from64 0
/-- fields.h:189-192, 268-271, 344-347 `bf*_one`. -/
def one : Ws I.k := I.from64 1

/-- fields.c:23-25 `U64C(x0, …, x7)`. -/
def u64C (x : Nat → Byte) : U64 :=
  ((x 7).zeroExtend 64 <<< 56) ||| ((x 6).zeroExtend 64 <<< 48) |||
  ((x 5).zeroExtend 64 <<< 40) ||| ((x 4).zeroExtend 64 <<< 32) |||
  ((x 3).zeroExtend 64 <<< 24) ||| ((x 2).zeroExtend 64 <<< 16) |||
  ((x 1).zeroExtend 64 <<< 8) ||| (x 0).zeroExtend 64

/-- fields.c:92-107, 231-253, 383-412: entry `i` of `bf*_alpha`, word by word from the
arguments of `U64C`. -/
def alpha (i : Nat) : Option (Ws I.k) :=
  ((alphaTable I.n)[i]?).map (fun l =>
    I.bfC (Vector.ofFn (fun w => u64C (fun j => l.getD (8 * w.val + j) 0))))

/-- fields.c:109-115, 255-261, 414-420 `bf*_byte_combine`. -/
def byteCombine (x : Mem (Ws I.k)) (off : Nat) : Option (Ws I.k) := do
  let x0 ← rd x off
  forR 1 8 x0 (fun i out => do
    let xi ← rd x (off + i)
    let al ← I.alpha (i - 1)
    let p ← I.mul xi al
    pure (I.add out p))

/-- fields.c:117-133, 263-279, 422-438 `bf*_byte_combine_bits`. -/
def byteCombineBits (x : Byte) : Option (Ws I.k) :=
  if I.vec then do
    let a1 ← I.alpha (1 - 1)
    let a2 ← I.alpha (2 - 1)
    let a3 ← I.alpha (3 - 1)
    let a4 ← I.alpha (4 - 1)
    let a5 ← I.alpha (5 - 1)
    let a6 ← I.alpha (6 - 1)
    let a7 ← I.alpha (7 - 1)
    pure (vXor (vXor (vXor (vXor (vXor (vXor (vXor (I.fromBit (x &&& 1))
      (I.mulBit a1 ((x >>> 1) &&& 1))) (I.mulBit a2 ((x >>> 2) &&& 1)))
      (I.mulBit a3 ((x >>> 3) &&& 1))) (I.mulBit a4 ((x >>> 4) &&& 1)))
      (I.mulBit a5 ((x >>> 5) &&& 1))) (I.mulBit a6 ((x >>> 6) &&& 1)))
      (I.mulBit a7 ((x >>> 7) &&& 1)))
  else
    forR 1 8 (I.fromBit (x &&& 1)) (fun i out => do
      let al ← I.alpha (i - 1)
      pure (I.add out (I.mulBit al ((x >>> i) &&& 1))))

/-! ### Loads and stores, for both byte orders of the host -/

/-- The value of a `uint64_t` whose object representation is `b`, byte `j` being the byte at
address `j`: `be` says whether the host is big endian. -/
def wordOf (be : Bool) (b : Nat → Byte) : U64 := if be then u64C (fun j => b (7 - j)) else u64C b

/-- The object representation of a `uint64_t`. -/
def bytesOf (be : Bool) (w : U64) : Nat → Byte :=
  fun j => if be then w.extractLsb' (8 * (7 - j)) 8 else w.extractLsb' (8 * j) 8

/-- endian_compat.h: `le64toh` / `htole64` of a big-endian host: byte reversal; on a
little-endian host the identity. -/
def le64 (be : Bool) (w : U64) : U64 :=
  if be then u64C (fun j => w.extractLsb' (8 * (7 - j)) 8) else w

/-- fields.h:144-155, 220-234, 299-310 `bf*_load`.  The variable `ret` starts uninitialised.
The first `n/64` words receive the bytes of `src` (big endian: word by word with `le64toh`;
little endian: one `memcpy`); the vector build of 192 bits sets word 3.  A word which is never
written makes the returned value undefined. -/
def load (be : Bool) (src : Mem Byte) (off : Nat) : Option (Ws I.k) := do
  let l ← rdN src off (I.n / 8)
  let ret0 : Mem U64 := malloc I.k
  let ret1 ← wrN ret0 0 (tabP (I.n / 64) (fun i =>
    le64 be (wordOf be (fun j => l.getD (8 * i + j) 0))))
  let ret2 ← if I.loadZero3 then wr ret1 3 0 else pure ret1
  let ws ← rdN ret2 0 I.k
  if h : ws.length = I.k then pure ⟨ws.toArray, by simpa using h⟩ else none

/-- fields.h:157-166, 236-245, 312-321 `bf*_store`: the first `n/8` bytes of the object, after
`htole64` on big-endian hosts. -/
def store (be : Bool) (dst : Mem Byte) (off : Nat) (src : Ws I.k) : Option (Mem Byte) :=
  wrN dst off (tabP (I.n / 8) (fun p => bytesOf be (le64 be (src.toList.getD (p / 8) 0)) (p % 8)))

end Impl

end Faest.Words
