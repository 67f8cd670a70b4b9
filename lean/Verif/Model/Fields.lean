/-
Binary fields: fields.c / fields.h.

`BF n` holds the value of a `bf8_t`, `bf64_t`, `bf128_t`, `bf192_t` or `bf256_t`
(`n` = 8, 64, 128, 192, 256) as one bit vector.  The 64-bit word representation of
the large fields is modelled in `Model/FieldWords.lean` and shown to implement these
functions.
-/
import Verif.Model.Basic

namespace Faest

/-- A field element of `n` bits. -/
@[ext] structure BF (n : Nat) where
  v : BitVec n
deriving DecidableEq

/-- fields.c:12-21, the low part of the moduli: `X^n = bfModulus n`. -/
def bfModulus (n : Nat) : BitVec n :=
  if n = 8 then BitVec.ofNat n ((1 <<< 4) ||| (1 <<< 3) ||| (1 <<< 1) ||| 1)
  else if n = 64 then BitVec.ofNat n ((1 <<< 4) ||| (1 <<< 3) ||| (1 <<< 1) ||| 1)
  else if n = 128 then BitVec.ofNat n ((1 <<< 7) ||| (1 <<< 2) ||| (1 <<< 1) ||| 1)
  else if n = 192 then BitVec.ofNat n ((1 <<< 7) ||| (1 <<< 2) ||| (1 <<< 1) ||| 1)
  else BitVec.ofNat n ((1 <<< 10) ||| (1 <<< 5) ||| (1 <<< 2) ||| 1)

/-- `-(bit & 1)` as an `n`-bit mask. -/
def maskOf (n : Nat) (b : Bool) : BitVec n := if b then BitVec.allOnes n else 0#n

/-- fields.c:38-39 (bf8_mul), 81-82 (bf64_mul), 213-219 (bf128_dbl), same for 192/256:
shift left by one and reduce by the modulus if the top bit was set. -/
def bvDbl {n : Nat} (a : BitVec n) : BitVec n :=
  (a <<< 1) ^^^ (maskOf n (a.getLsbD (n - 1)) &&& bfModulus n)

/-- The loop of fields.c:35-43 (bf8_mul), 45-54 (bf8_square with `b = a`), 78-86 (bf64_mul),
183-193 (bf128_mul), 195-205 (bf128_mul_64), and the 192/256 copies: state
`(lhs, result)` after the iteration `idx`. -/
def bvMulLoop {n k : Nat} (a : BitVec n) (b : BitVec k) : Nat → BitVec n × BitVec n
  | 0 => (a, maskOf n (b.getLsbD 0) &&& a)
  | idx + 1 =>
    let s := bvMulLoop a b idx
    let lhs := bvDbl s.1
    (lhs, s.2 ^^^ (maskOf n (b.getLsbD (idx + 1)) &&& lhs))

/-- fields.h bf*_add: xor. -/
def bfAdd {n : Nat} (a b : BF n) : BF n := ⟨a.v ^^^ b.v⟩
/-- fields.c bf8_mul, bf64_mul, bf128_mul, bf192_mul, bf256_mul: `idx = 1 … n-1`. -/
def bfMul {n : Nat} (a b : BF n) : BF n := ⟨(bvMulLoop a.v b.v (n - 1)).2⟩
/-- fields.c bf128_mul_64, bf192_mul_64, bf256_mul_64: `idx = 1 … 63`. -/
def bfMul64 {n : Nat} (a : BF n) (b : BF 64) : BF n := ⟨(bvMulLoop a.v b.v 63).2⟩
/-- fields.h bf*_zero. -/
def bfZero {n : Nat} : BF n := ⟨0#n⟩
/-- fields.h bf*_one. -/
def bfOne {n : Nat} : BF n := ⟨BitVec.ofNat n 1⟩
/-- fields.h bf*_from_bit: `bit & 1` in the lowest position. -/
def bfFromBit {n : Nat} (bit : Byte) : BF n := ⟨(bit &&& 1).zeroExtend n⟩
/-- fields.h bf*_from_bf64. -/
def bfFrom64 {n : Nat} (a : BF 64) : BF n := ⟨a.v.zeroExtend n⟩
/-- fields.c bf*_mul_bit / fields.h macro: `lhs & -(rhs & 1)`. -/
def bfMulBit {n : Nat} (a : BF n) (bit : Byte) : BF n := ⟨a.v &&& maskOf n (bit.getLsbD 0)⟩
/-- fields.c bf*_dbl. -/
def bfDbl {n : Nat} (a : BF n) : BF n := ⟨bvDbl a.v⟩

/-- fields.c:221-227 bf128_sum_poly (373-379, 548-554): `ret = xs[n-1]; ret = 2*ret + xs[n-1-i]`. -/
def bfSumPoly {n : Nat} (xs : Mem (BF n)) : Option (BF n) := do
  let ret ← rd xs (n - 1)
  forR 1 n ret (fun i ret => do
    let x ← rd xs (n - 1 - i)
    pure (bfAdd (bfDbl ret) x))

/-- fields.c:56-68 bf8_inv. -/
def bf8Inv (x : BF 8) : BF 8 :=
  let t2 := bfMul x x
  let t3 := bfMul x t2
  let t5 := bfMul t3 t2
  let t7 := bfMul t5 t2
  let t14 := bfMul t7 t7
  let t28 := bfMul t14 t14
  let t56 := bfMul t28 t28
  let t63 := bfMul t56 t7
  let t126 := bfMul t63 t63
  let t252 := bfMul t126 t126
  bfMul t252 t2

/-- Little-endian value of a byte list. -/
def leNat : List Byte → Nat
  | [] => 0
  | b :: bs => b.toNat + 256 * leNat bs

/-- fields.c:92-107, 231-253, 383-412: the tables `bf128_alpha`, `bf192_alpha`,
`bf256_alpha`; the bytes appear in the order of the `U64C` macro arguments, that is
little endian. -/
def alphaTable (n : Nat) : List (List Byte) :=
  if n = 128 then [
    [0x0d, 0xce, 0x60, 0x55, 0xac, 0xe8, 0x3f, 0xa1,
     0x1c, 0x9a, 0x97, 0xa9, 0x55, 0x85, 0x3d, 0x05],
    [0xe1, 0xae, 0x88, 0x34, 0xca, 0x59, 0x77, 0xec,
     0x84, 0xbb, 0xbf, 0x9c, 0x43, 0xb7, 0xf4, 0x4c],
    [0xa8, 0x46, 0x39, 0x36, 0xae, 0x02, 0xcf, 0xbf,
     0xc6, 0xd2, 0x51, 0x7d, 0x4f, 0x60, 0xad, 0x35],
    [0x49, 0x98, 0x2e, 0x3c, 0x48, 0x30, 0x83, 0x6b,
     0xfe, 0x22, 0xa2, 0x40, 0x46, 0x36, 0xcb, 0x0d],
    [0xb4, 0x82, 0x1b, 0x7b, 0x27, 0x49, 0x2b, 0x25,
     0xa5, 0xde, 0x88, 0x1a, 0xe1, 0x10, 0x98, 0x54],
    [0x22, 0xff, 0x21, 0x25, 0xef, 0xf2, 0x2b, 0xc7,
     0x75, 0x1f, 0x0c, 0x6c, 0x68, 0xa5, 0x81, 0xd6],
    [0xbc, 0xf9, 0x36, 0xe1, 0x94, 0x8e, 0x7a, 0x7a,
     0xe0, 0x8f, 0xb7, 0x4f, 0x1a, 0x31, 0x50, 0x09]
  ] else if n = 192 then [
    [0x63, 0x97, 0x38, 0x6f, 0xd5, 0xa3, 0xc8, 0xcc,
     0xea, 0xbd, 0x6e, 0x96, 0x6c, 0xd7, 0x65, 0xe6,
     0x62, 0x36, 0x6b, 0x0e, 0x14, 0xc8, 0x0b, 0x31],
    [0xbb, 0x50, 0xf4, 0x7c, 0x9e, 0x61, 0x33, 0xb2,
     0x26, 0x3f, 0x63, 0xd5, 0x19, 0x1f, 0xf6, 0x7b,
     0x34, 0xdb, 0x91, 0xd4, 0x26, 0x37, 0x93, 0xda],
    [0x0d, 0x8a, 0x39, 0xf5, 0x13, 0x2c, 0x6d, 0x9c,
     0x19, 0x8d, 0x32, 0x06, 0x77, 0xe3, 0x32, 0x82,
     0xf6, 0x4e, 0x75, 0x3c, 0x70, 0x0d, 0x3b, 0x0c],
    [0x5d, 0xf7, 0x2b, 0xbd, 0x7c, 0x74, 0x20, 0xdd,
     0x2e, 0xd2, 0x58, 0x00, 0xab, 0x42, 0x55, 0x7a,
     0x51, 0x12, 0xbc, 0x94, 0x9c, 0x51, 0xec, 0x45],
    [0xf8, 0x2b, 0xce, 0x8a, 0xe2, 0x0c, 0xd5, 0xd8,
     0x84, 0xbe, 0xde, 0x67, 0xb7, 0x8c, 0x16, 0x08,
     0x45, 0x70, 0xa6, 0x4b, 0x6a, 0x14, 0x7d, 0xd6],
    [0xba, 0xe1, 0xd5, 0xee, 0x76, 0x9c, 0x0f, 0x97,
     0x48, 0x20, 0xd7, 0x5f, 0xae, 0xf7, 0xea, 0xf3,
     0x43, 0xea, 0x6c, 0x69, 0x5f, 0xbd, 0xa6, 0x29],
    [0x71, 0x85, 0x06, 0x65, 0xc2, 0x5d, 0x94, 0xf5,
     0xd3, 0xe9, 0x06, 0x39, 0x62, 0xfd, 0x19, 0x60,
     0xb0, 0xc4, 0x87, 0x0f, 0x54, 0x56, 0x7c, 0xc7]
  ] else if n = 256 then [
    [0xe7, 0xfe, 0xde, 0x0b, 0x42, 0x88, 0x97, 0x96,
     0x67, 0x4e, 0x47, 0xa0, 0x38, 0x8d, 0xd6, 0xbe,
     0x6a, 0xe1, 0xf1, 0xf8, 0x45, 0x98, 0x22, 0xdf,
     0x33, 0x58, 0xc9, 0x20, 0xcf, 0xa8, 0xc9, 0x04],
    [0xc1, 0x89, 0x22, 0xd5, 0x2a, 0xf5, 0x5a, 0xa9,
     0x2f, 0x07, 0x42, 0x2c, 0x8d, 0xc4, 0xa5, 0x2b,
     0xea, 0xb0, 0x00, 0x6c, 0x37, 0x0d, 0x4a, 0xd1,
     0xf1, 0x4a, 0x5b, 0x9c, 0x69, 0x4d, 0x4e, 0x06],
    [0x1d, 0x9d, 0x80, 0x3f, 0x83, 0xb3, 0xda, 0x55,
     0x57, 0x0f, 0x3b, 0x53, 0x1e, 0x83, 0x71, 0x17,
     0x10, 0xac, 0x3f, 0xad, 0x3f, 0x57, 0x96, 0xfb,
     0x8d, 0xf6, 0x11, 0x70, 0xdb, 0xe3, 0x95, 0x61],
    [0xd5, 0xcd, 0x1b, 0xb0, 0x19, 0x05, 0x01, 0xde,
     0xf6, 0xe3, 0x30, 0x1a, 0x91, 0x58, 0x27, 0x75,
     0x3f, 0xa0, 0x9e, 0x48, 0xb6, 0x78, 0x07, 0x2a,
     0x38, 0x88, 0x76, 0x4f, 0xd6, 0x4f, 0xc2, 0x56],
    [0xb6, 0x30, 0x8a, 0xe9, 0x29, 0xf5, 0xc2, 0x98,
     0x82, 0x84, 0xf1, 0x40, 0xd4, 0xdb, 0xc4, 0x1b,
     0x81, 0xa9, 0x49, 0x7d, 0x94, 0x09, 0xbe, 0x2f,
     0xfc, 0x4f, 0x57, 0x71, 0x6d, 0x0b, 0x27, 0x22],
    [0x0b, 0x67, 0x44, 0xde, 0xb9, 0xaf, 0x75, 0x9e,
     0xbc, 0xaf, 0xf1, 0x66, 0xc6, 0x66, 0xed, 0xac,
     0x7e, 0x1f, 0x99, 0xf2, 0x3f, 0x25, 0x01, 0xf0,
     0xf3, 0x29, 0xfa, 0xd1, 0x2f, 0x37, 0x3d, 0xc0],
    [0x8b, 0xe8, 0x32, 0xb3, 0x98, 0xb6, 0x43, 0xba,
     0x0d, 0x6f, 0xb8, 0x25, 0xd6, 0xc4, 0x37, 0x52,
     0x45, 0x15, 0xe8, 0xf4, 0x2a, 0x2b, 0x65, 0x2f,
     0xb8, 0x7b, 0x6b, 0xd2, 0x09, 0xea, 0x3e, 0x13]
  ] else []

/-- Entry `i` of the alpha table (undefined outside the seven entries). -/
def bfAlpha (n : Nat) (i : Nat) : Option (BF n) :=
  ((alphaTable n)[i]?).map (fun l => ⟨BitVec.ofNat n (leNat l)⟩)

/-- fields.c:109-115 bf128_byte_combine (255-261, 414-420), reading `x[off .. off+7]`. -/
def byteCombine {n : Nat} (x : Mem (BF n)) (off : Nat) : Option (BF n) := do
  let x0 ← rd x off
  forR 1 8 x0 (fun i out => do
    let xi ← rd x (off + i)
    let al ← bfAlpha n (i - 1)
    pure (bfAdd out (bfMul xi al)))

/-- fields.c:117-133 bf128_byte_combine_bits (263-279, 422-438). -/
def byteCombineBits (n : Nat) (x : Byte) : Option (BF n) :=
  forR 1 8 (bfFromBit x) (fun i out => do
    let al ← bfAlpha n (i - 1)
    pure (bfAdd out (bfMulBit al ((x >>> i) &&& 1))))

/-- Value of a little-endian byte string as a field element. -/
def BF.ofBytes (n : Nat) (l : List Byte) : BF n := ⟨BitVec.ofNat n (leNat l)⟩

/-- The `n/8` little-endian bytes of a field element. -/
def BF.toBytes {n : Nat} (a : BF n) : List Byte := tabP (n / 8) (fun i => a.v.extractLsb' (8 * i) 8)

/-- fields.h bf64_load, bf128_load, bf192_load, bf256_load from `src + off`. -/
def bfLoad (n : Nat) (src : Mem Byte) (off : Nat) : Option (BF n) := do
  let l ← rdN src off (n / 8)
  pure (BF.ofBytes n l)

/-- fields.h bf64_store, bf128_store, bf192_store, bf256_store to `dst + off`. -/
def bfStore {n : Nat} (dst : Mem Byte) (off : Nat) (a : BF n) : Option (Mem Byte) :=
  wrN dst off a.toBytes

end Faest
