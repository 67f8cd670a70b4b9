/-
Generated by tools/c2words.py from compat.h, fields.h and fields.c; do not edit.
With vector extensions, with __builtin_shufflevector, little endian.
-/
import Verif.Model.WSem

namespace Faest.GenF.VB

open Faest.Words Faest.Words.Impl

/-- compat.h:133-137 `rotl8`. -/
def rotl8 (n : Byte) (c : Nat) : Option (Byte) := do
  let mask : Nat := (8 * 1) - 1
  let c := c &&& mask
  pure ((((n.zeroExtend 32) <<< c) ||| ((n.zeroExtend 32) >>> (((2 ^ 32 - c) % 2 ^ 32) &&& mask))).truncate 8)

/-- compat.h:139-143 `rotr8`. -/
def rotr8 (n : Byte) (c : Nat) : Option (Byte) := do
  let mask : Nat := (8 * 1) - 1
  let c := c &&& mask
  pure ((((n.zeroExtend 32) >>> c) ||| ((n.zeroExtend 32) <<< (((2 ^ 32 - c) % 2 ^ 32) &&& mask))).truncate 8)

/-- compat.h:208-213 `parity8`. -/
def parity8 (n : Byte) : Option (Byte) := do
  let n := ((n.zeroExtend 32) ^^^ ((n.zeroExtend 32) >>> 4)).truncate 8
  let n := ((n.zeroExtend 32) ^^^ ((n.zeroExtend 32) >>> 2)).truncate 8
  let n := ((n.zeroExtend 32) ^^^ ((n.zeroExtend 32) >>> 1)).truncate 8
  pure ((notInt ((~~~(n.zeroExtend 32)) &&& 1#32)).truncate 8)

/-- fields.h:75-77 `bf8_load`. -/
def bf8_load (src : Mem Byte) (src_o : Nat) : Option (Byte) := do
  let x1 ← rd src src_o
  pure x1

/-- fields.h:79-81 `bf8_store`. -/
def bf8_store (dst : Mem Byte) (dst_o : Nat) (src : Byte) : Option (Mem Byte) := do
  let dst ← wr dst dst_o src
  pure dst

/-- fields.h:83-85 `bf8_zero`. -/
def bf8_zero : Option (Byte) := do
  pure 0#8

/-- fields.h:87-89 `bf8_one`. -/
def bf8_one : Option (Byte) := do
  pure 1#8

/-- fields.h:93-95 `bf8_add`. -/
def bf8_add (lhs : Byte) (rhs : Byte) : Option (Byte) := do
  pure (((lhs.zeroExtend 32) ^^^ (rhs.zeroExtend 32)).truncate 8)

/-- fields.h:100-102 `bf8_from_bit`. -/
def bf8_from_bit (bit : Byte) : Option (Byte) := do
  pure (((bit.zeroExtend 32) &&& 1#32).truncate 8)

/-- fields.h:106-113 `bf64_load`. -/
def bf64_load (src : Mem Byte) (src_o : Nat) : Option (U64) := do
  let ret ← objIn false 1 src src_o 8
  let ret := ret[0]
  pure ret

/-- fields.h:115-120 `bf64_store`. -/
def bf64_store (dst : Mem Byte) (dst_o : Nat) (src : U64) : Option (Mem Byte) := do
  let dst ← memOut false dst dst_o #v[src] 8
  pure dst

/-- fields.h:122-124 `bf64_zero`. -/
def bf64_zero : Option (U64) := do
  pure 0#64

/-- fields.h:126-128 `bf64_one`. -/
def bf64_one : Option (U64) := do
  pure 1#64

/-- fields.h:132-134 `bf64_add`. -/
def bf64_add (lhs : U64) (rhs : U64) : Option (U64) := do
  pure (lhs ^^^ rhs)

/-- fields.h:138-140 `bf64_from_bit`. -/
def bf64_from_bit (bit : Byte) : Option (U64) := do
  pure (((bit.zeroExtend 32) &&& 1#32).zeroExtend 64)

/-- fields.h:144-155 `bf128_load`. -/
def bf128_load (src : Mem Byte) (src_o : Nat) : Option (Ws 2) := do
  let ret : Mem U64 := malloc 2
  let ret ← memIn false ret 0 src src_o 16
  let x1 ← whole 2 ret
  pure x1

/-- fields.h:157-166 `bf128_store`. -/
def bf128_store (dst : Mem Byte) (dst_o : Nat) (src : Ws 2) : Option (Mem Byte) := do
  let dst ← memOut false dst dst_o src 16
  pure dst

/-- fields.h:168-172 `bf128_from_bf64`. -/
def bf128_from_bf64 (src : U64) : Option (Ws 2) := do
  let ret : Ws 2 := #v[0#64, 0#64]
  let ret := ret.set 0 src
  pure ret

/-- fields.h:174-178 `bf128_from_bf8`. -/
def bf128_from_bf8 (src : Byte) : Option (Ws 2) := do
  let ret : Ws 2 := #v[0#64, 0#64]
  let ret := ret.set 0 (src.zeroExtend 64)
  pure ret

/-- fields.h:180-182 `bf128_from_bit`. -/
def bf128_from_bit (bit : Byte) : Option (Ws 2) := do
  let x1 ← bf128_from_bf8 (((bit.zeroExtend 32) &&& 1#32).truncate 8)
  pure x1

/-- fields.h:184-187 `bf128_zero`. -/
def bf128_zero : Option (Ws 2) := do
  let ret : Ws 2 := #v[0#64, 0#64]
  pure ret

/-- fields.h:189-192 `bf128_one`. -/
def bf128_one : Option (Ws 2) := do
  let ret : Ws 2 := #v[1#64, 0#64]
  pure ret

/-- fields.h:220-234 `bf192_load`. -/
def bf192_load (src : Mem Byte) (src_o : Nat) : Option (Ws 4) := do
  let ret : Mem U64 := malloc 4
  let ret ← memIn false ret 0 src src_o 24
  let ret ← wr ret 3 0#64
  let x1 ← whole 4 ret
  pure x1

/-- fields.h:236-245 `bf192_store`. -/
def bf192_store (dst : Mem Byte) (dst_o : Nat) (src : Ws 4) : Option (Mem Byte) := do
  let dst ← memOut false dst dst_o src 24
  pure dst

/-- fields.h:247-251 `bf192_from_bf64`. -/
def bf192_from_bf64 (src : U64) : Option (Ws 4) := do
  let ret : Ws 4 := #v[0#64, 0#64, 0#64, 0#64]
  let ret := ret.set 0 src
  pure ret

/-- fields.h:253-257 `bf192_from_bf8`. -/
def bf192_from_bf8 (src : Byte) : Option (Ws 4) := do
  let ret : Ws 4 := #v[0#64, 0#64, 0#64, 0#64]
  let ret := ret.set 0 (src.zeroExtend 64)
  pure ret

/-- fields.h:259-261 `bf192_from_bit`. -/
def bf192_from_bit (bit : Byte) : Option (Ws 4) := do
  let x1 ← bf192_from_bf8 (((bit.zeroExtend 32) &&& 1#32).truncate 8)
  pure x1

/-- fields.h:263-266 `bf192_zero`. -/
def bf192_zero : Option (Ws 4) := do
  let ret : Ws 4 := #v[0#64, 0#64, 0#64, 0#64]
  pure ret

/-- fields.h:268-271 `bf192_one`. -/
def bf192_one : Option (Ws 4) := do
  let ret : Ws 4 := #v[1#64, 0#64, 0#64, 0#64]
  pure ret

/-- fields.h:299-310 `bf256_load`. -/
def bf256_load (src : Mem Byte) (src_o : Nat) : Option (Ws 4) := do
  let ret : Mem U64 := malloc 4
  let ret ← memIn false ret 0 src src_o 32
  let x1 ← whole 4 ret
  pure x1

/-- fields.h:312-321 `bf256_store`. -/
def bf256_store (dst : Mem Byte) (dst_o : Nat) (src : Ws 4) : Option (Mem Byte) := do
  let dst ← memOut false dst dst_o src 32
  pure dst

/-- fields.h:323-327 `bf256_from_bf64`. -/
def bf256_from_bf64 (src : U64) : Option (Ws 4) := do
  let ret : Ws 4 := #v[0#64, 0#64, 0#64, 0#64]
  let ret := ret.set 0 src
  pure ret

/-- fields.h:329-333 `bf256_from_bf8`. -/
def bf256_from_bf8 (src : Byte) : Option (Ws 4) := do
  let ret : Ws 4 := #v[0#64, 0#64, 0#64, 0#64]
  let ret := ret.set 0 (src.zeroExtend 64)
  pure ret

/-- fields.h:335-337 `bf256_from_bit`. -/
def bf256_from_bit (bit : Byte) : Option (Ws 4) := do
  let x1 ← bf256_from_bf8 (((bit.zeroExtend 32) &&& 1#32).truncate 8)
  pure x1

/-- fields.h:339-342 `bf256_zero`. -/
def bf256_zero : Option (Ws 4) := do
  let ret : Ws 4 := #v[0#64, 0#64, 0#64, 0#64]
  pure ret

/-- fields.h:344-347 `bf256_one`. -/
def bf256_one : Option (Ws 4) := do
  let ret : Ws 4 := #v[1#64, 0#64, 0#64, 0#64]
  pure ret

/-- fields.c:35-43 `bf8_mul`. -/
def bf8_mul (lhs : Byte) (rhs : Byte) : Option (Byte) := do
  let result : Byte := ((-((rhs.zeroExtend 32) &&& 1#32)) &&& (lhs.zeroExtend 32)).truncate 8
  let s1 ← forR 1 8 (lhs, result) (fun idx s1 => do
    let lhs := s1.1
    let result := s1.2
    let mask : Byte := (-(((lhs.zeroExtend 32) >>> 7) &&& 1#32)).truncate 8
    let lhs := (((lhs.zeroExtend 32) <<< 1) ^^^ ((mask.zeroExtend 32) &&& 27#32)).truncate 8
    let result := ((result.zeroExtend 32) ^^^ ((-(((rhs.zeroExtend 32) >>> idx) &&& 1#32)) &&& (lhs.zeroExtend 32))).truncate 8
    pure (lhs, result))
  let lhs := s1.1
  let result := s1.2
  pure result

/-- fields.c:45-54 `bf8_square`. -/
def bf8_square (lhs : Byte) : Option (Byte) := do
  let result : Byte := ((-((lhs.zeroExtend 32) &&& 1#32)) &&& (lhs.zeroExtend 32)).truncate 8
  let rhs : Byte := lhs
  let s1 ← forR 1 8 (lhs, result) (fun idx s1 => do
    let lhs := s1.1
    let result := s1.2
    let mask : Byte := (-(((lhs.zeroExtend 32) >>> 7) &&& 1#32)).truncate 8
    let lhs := (((lhs.zeroExtend 32) <<< 1) ^^^ ((mask.zeroExtend 32) &&& 27#32)).truncate 8
    let result := ((result.zeroExtend 32) ^^^ ((-(((rhs.zeroExtend 32) >>> idx) &&& 1#32)) &&& (lhs.zeroExtend 32))).truncate 8
    pure (lhs, result))
  let lhs := s1.1
  let result := s1.2
  pure result

/-- fields.c:56-68 `bf8_inv`. -/
def bf8_inv (in_ : Byte) : Option (Byte) := do
  let x1 ← bf8_square in_
  let t2 : Byte := x1
  let x2 ← bf8_mul in_ t2
  let t3 : Byte := x2
  let x3 ← bf8_mul t3 t2
  let t5 : Byte := x3
  let x4 ← bf8_mul t5 t2
  let t7 : Byte := x4
  let x5 ← bf8_square t7
  let t14 : Byte := x5
  let x6 ← bf8_square t14
  let t28 : Byte := x6
  let x7 ← bf8_square t28
  let t56 : Byte := x7
  let x8 ← bf8_mul t56 t7
  let t63 : Byte := x8
  let x9 ← bf8_square t63
  let t126 : Byte := x9
  let x10 ← bf8_square t126
  let t252 : Byte := x10
  let x11 ← bf8_mul t252 t2
  pure x11

/-- fields.c:78-86 `bf64_mul`. -/
def bf64_mul (lhs : U64) (rhs : U64) : Option (U64) := do
  let result : U64 := (-(rhs &&& 1#64)) &&& lhs
  let s1 ← forR 1 64 (lhs, result) (fun idx s1 => do
    let lhs := s1.1
    let result := s1.2
    let mask : U64 := -((lhs >>> 63) &&& 1#64)
    let lhs := (lhs <<< 1) ^^^ (mask &&& 27#64)
    let result := result ^^^ ((-((rhs >>> idx) &&& 1#64)) &&& lhs)
    pure (lhs, result))
  let lhs := s1.1
  let result := s1.2
  pure result

/-- fields.c:92-107 `bf128_alpha`. -/
def bf128_alpha : List (Ws 2) := [
  #v[(((((((161#64 <<< 56) ||| (63#64 <<< 48)) ||| (232#64 <<< 40)) ||| (172#64 <<< 32)) ||| (85#64 <<< 24)) ||| (96#64 <<< 16)) ||| (206#64 <<< 8)) ||| 13#64, (((((((5#64 <<< 56) ||| (61#64 <<< 48)) ||| (133#64 <<< 40)) ||| (85#64 <<< 32)) ||| (169#64 <<< 24)) ||| (151#64 <<< 16)) ||| (154#64 <<< 8)) ||| 28#64],
  #v[(((((((236#64 <<< 56) ||| (119#64 <<< 48)) ||| (89#64 <<< 40)) ||| (202#64 <<< 32)) ||| (52#64 <<< 24)) ||| (136#64 <<< 16)) ||| (174#64 <<< 8)) ||| 225#64, (((((((76#64 <<< 56) ||| (244#64 <<< 48)) ||| (183#64 <<< 40)) ||| (67#64 <<< 32)) ||| (156#64 <<< 24)) ||| (191#64 <<< 16)) ||| (187#64 <<< 8)) ||| 132#64],
  #v[(((((((191#64 <<< 56) ||| (207#64 <<< 48)) ||| (2#64 <<< 40)) ||| (174#64 <<< 32)) ||| (54#64 <<< 24)) ||| (57#64 <<< 16)) ||| (70#64 <<< 8)) ||| 168#64, (((((((53#64 <<< 56) ||| (173#64 <<< 48)) ||| (96#64 <<< 40)) ||| (79#64 <<< 32)) ||| (125#64 <<< 24)) ||| (81#64 <<< 16)) ||| (210#64 <<< 8)) ||| 198#64],
  #v[(((((((107#64 <<< 56) ||| (131#64 <<< 48)) ||| (48#64 <<< 40)) ||| (72#64 <<< 32)) ||| (60#64 <<< 24)) ||| (46#64 <<< 16)) ||| (152#64 <<< 8)) ||| 73#64, (((((((13#64 <<< 56) ||| (203#64 <<< 48)) ||| (54#64 <<< 40)) ||| (70#64 <<< 32)) ||| (64#64 <<< 24)) ||| (162#64 <<< 16)) ||| (34#64 <<< 8)) ||| 254#64],
  #v[(((((((37#64 <<< 56) ||| (43#64 <<< 48)) ||| (73#64 <<< 40)) ||| (39#64 <<< 32)) ||| (123#64 <<< 24)) ||| (27#64 <<< 16)) ||| (130#64 <<< 8)) ||| 180#64, (((((((84#64 <<< 56) ||| (152#64 <<< 48)) ||| (16#64 <<< 40)) ||| (225#64 <<< 32)) ||| (26#64 <<< 24)) ||| (136#64 <<< 16)) ||| (222#64 <<< 8)) ||| 165#64],
  #v[(((((((199#64 <<< 56) ||| (43#64 <<< 48)) ||| (242#64 <<< 40)) ||| (239#64 <<< 32)) ||| (37#64 <<< 24)) ||| (33#64 <<< 16)) ||| (255#64 <<< 8)) ||| 34#64, (((((((214#64 <<< 56) ||| (129#64 <<< 48)) ||| (165#64 <<< 40)) ||| (104#64 <<< 32)) ||| (108#64 <<< 24)) ||| (12#64 <<< 16)) ||| (31#64 <<< 8)) ||| 117#64],
  #v[(((((((122#64 <<< 56) ||| (122#64 <<< 48)) ||| (142#64 <<< 40)) ||| (148#64 <<< 32)) ||| (225#64 <<< 24)) ||| (54#64 <<< 16)) ||| (249#64 <<< 8)) ||| 188#64, (((((((9#64 <<< 56) ||| (80#64 <<< 48)) ||| (49#64 <<< 40)) ||| (26#64 <<< 32)) ||| (79#64 <<< 24)) ||| (183#64 <<< 16)) ||| (143#64 <<< 8)) ||| 224#64]]

/-- fields.c:176-181 `bf128_bit_to_uint64_mask`. -/
def bf128_bit_to_uint64_mask (value : Ws 2) (bit : Nat) : Option (U64) := do
  let byte_idx : Nat := bit / 64
  let bit_idx : Nat := bit % 64
  let x1 ← bfValue value byte_idx
  pure (-((x1 >>> bit_idx) &&& 1#64))

/-- fields.c:183-193 `bf128_mul`. -/
def bf128_mul (lhs : Ws 2) (rhs : Ws 2) : Option (Ws 2) := do
  let x1 ← bf128_bit_to_uint64_mask rhs 0
  let result : Ws 2 := vAndS lhs x1
  let s2 ← forR 1 128 (lhs, result) (fun idx s2 => do
    let lhs := s2.1
    let result := s2.2
    let x3 ← bf128_bit_to_uint64_mask lhs 127
    let mask : U64 := x3
    let x4 ← bf128_zero
    let lhs := vOr (vShl lhs 1) (shuffle (vShr lhs 63) x4 #v[2, 0])
    let lhs := lhs.set 0 (lhs[0] ^^^ (mask &&& 135#64))
    let x5 ← bf128_bit_to_uint64_mask rhs idx
    let result := vXor result (vAndS lhs x5)
    pure (lhs, result))
  let lhs := s2.1
  let result := s2.2
  pure result

/-- fields.c:109-115 `bf128_byte_combine`. -/
def bf128_byte_combine (x : Mem (Ws 2)) (x_o : Nat) : Option (Ws 2) := do
  let x1 ← rd x (x_o + 0)
  let bf_out : Ws 2 := x1
  let s2 ← forR 1 8 bf_out (fun i s2 => do
    let bf_out := s2
    let x3 ← rd x (x_o + i)
    let x4 ← bf128_alpha[i - 1]?
    let x5 ← bf128_mul x3 x4
    let bf_out := vXor bf_out x5
    pure bf_out)
  let bf_out := s2
  pure bf_out

/-- fields.c:117-133 `bf128_byte_combine_bits`. -/
def bf128_byte_combine_bits (x : Byte) : Option (Ws 2) := do
  let x1 ← bf128_from_bit (((x.zeroExtend 32) &&& 1#32).truncate 8)
  let x2 ← bf128_alpha[0]?
  let x3 ← bf128_alpha[1]?
  let x4 ← bf128_alpha[2]?
  let x5 ← bf128_alpha[3]?
  let x6 ← bf128_alpha[4]?
  let x7 ← bf128_alpha[5]?
  let x8 ← bf128_alpha[6]?
  pure (vXor (vXor (vXor (vXor (vXor (vXor (vXor x1 (vAndS x2 (-(((((x.zeroExtend 32) >>> 1) &&& 1#32).zeroExtend 64) &&& 1#64)))) (vAndS x3 (-(((((x.zeroExtend 32) >>> 2) &&& 1#32).zeroExtend 64) &&& 1#64)))) (vAndS x4 (-(((((x.zeroExtend 32) >>> 3) &&& 1#32).zeroExtend 64) &&& 1#64)))) (vAndS x5 (-(((((x.zeroExtend 32) >>> 4) &&& 1#32).zeroExtend 64) &&& 1#64)))) (vAndS x6 (-(((((x.zeroExtend 32) >>> 5) &&& 1#32).zeroExtend 64) &&& 1#64)))) (vAndS x7 (-(((((x.zeroExtend 32) >>> 6) &&& 1#32).zeroExtend 64) &&& 1#64)))) (vAndS x8 (-(((((x.zeroExtend 32) >>> 7) &&& 1#32).zeroExtend 64) &&& 1#64))))

/-- fields.c:195-205 `bf128_mul_64`. -/
def bf128_mul_64 (lhs : Ws 2) (rhs : U64) : Option (Ws 2) := do
  let result : Ws 2 := vAndS lhs (-((rhs >>> 0) &&& 1#64))
  let s1 ← forR 1 64 (lhs, result) (fun idx s1 => do
    let lhs := s1.1
    let result := s1.2
    let x2 ← bf128_bit_to_uint64_mask lhs 127
    let mask : U64 := x2
    let x3 ← bf128_zero
    let lhs := vOr (vShl lhs 1) (shuffle (vShr lhs 63) x3 #v[2, 0])
    let lhs := lhs.set 0 (lhs[0] ^^^ (mask &&& 135#64))
    let result := vXor result (vAndS lhs (-((rhs >>> idx) &&& 1#64)))
    pure (lhs, result))
  let lhs := s1.1
  let result := s1.2
  pure result

/-- fields.c:213-219 `bf128_dbl`. -/
def bf128_dbl (lhs : Ws 2) : Option (Ws 2) := do
  let x1 ← bf128_bit_to_uint64_mask lhs 127
  let mask : U64 := x1
  let x2 ← bf128_zero
  let lhs := vOr (vShl lhs 1) (shuffle (vShr lhs 63) x2 #v[2, 0])
  let lhs := lhs.set 0 (lhs[0] ^^^ (mask &&& 135#64))
  pure lhs

/-- fields.c:221-227 `bf128_sum_poly`. -/
def bf128_sum_poly (xs : Mem (Ws 2)) (xs_o : Nat) : Option (Ws 2) := do
  let x1 ← rd xs (xs_o + 127)
  let ret : Ws 2 := x1
  let s2 ← forR 1 128 ret (fun i s2 => do
    let ret := s2
    let x3 ← bf128_dbl ret
    let x4 ← rd xs (xs_o + (127 - i))
    let ret := vXor x3 x4
    pure ret)
  let ret := s2
  pure ret

/-- fields.c:231-253 `bf192_alpha`. -/
def bf192_alpha : List (Ws 4) := [
  #v[(((((((204#64 <<< 56) ||| (200#64 <<< 48)) ||| (163#64 <<< 40)) ||| (213#64 <<< 32)) ||| (111#64 <<< 24)) ||| (56#64 <<< 16)) ||| (151#64 <<< 8)) ||| 99#64, (((((((230#64 <<< 56) ||| (101#64 <<< 48)) ||| (215#64 <<< 40)) ||| (108#64 <<< 32)) ||| (150#64 <<< 24)) ||| (110#64 <<< 16)) ||| (189#64 <<< 8)) ||| 234#64, (((((((49#64 <<< 56) ||| (11#64 <<< 48)) ||| (200#64 <<< 40)) ||| (20#64 <<< 32)) ||| (14#64 <<< 24)) ||| (107#64 <<< 16)) ||| (54#64 <<< 8)) ||| 98#64, 0#64],
  #v[(((((((178#64 <<< 56) ||| (51#64 <<< 48)) ||| (97#64 <<< 40)) ||| (158#64 <<< 32)) ||| (124#64 <<< 24)) ||| (244#64 <<< 16)) ||| (80#64 <<< 8)) ||| 187#64, (((((((123#64 <<< 56) ||| (246#64 <<< 48)) ||| (31#64 <<< 40)) ||| (25#64 <<< 32)) ||| (213#64 <<< 24)) ||| (99#64 <<< 16)) ||| (63#64 <<< 8)) ||| 38#64, (((((((218#64 <<< 56) ||| (147#64 <<< 48)) ||| (55#64 <<< 40)) ||| (38#64 <<< 32)) ||| (212#64 <<< 24)) ||| (145#64 <<< 16)) ||| (219#64 <<< 8)) ||| 52#64, 0#64],
  #v[(((((((156#64 <<< 56) ||| (109#64 <<< 48)) ||| (44#64 <<< 40)) ||| (19#64 <<< 32)) ||| (245#64 <<< 24)) ||| (57#64 <<< 16)) ||| (138#64 <<< 8)) ||| 13#64, (((((((130#64 <<< 56) ||| (50#64 <<< 48)) ||| (227#64 <<< 40)) ||| (119#64 <<< 32)) ||| (6#64 <<< 24)) ||| (50#64 <<< 16)) ||| (141#64 <<< 8)) ||| 25#64, (((((((12#64 <<< 56) ||| (59#64 <<< 48)) ||| (13#64 <<< 40)) ||| (112#64 <<< 32)) ||| (60#64 <<< 24)) ||| (117#64 <<< 16)) ||| (78#64 <<< 8)) ||| 246#64, 0#64],
  #v[(((((((221#64 <<< 56) ||| (32#64 <<< 48)) ||| (116#64 <<< 40)) ||| (124#64 <<< 32)) ||| (189#64 <<< 24)) ||| (43#64 <<< 16)) ||| (247#64 <<< 8)) ||| 93#64, (((((((122#64 <<< 56) ||| (85#64 <<< 48)) ||| (66#64 <<< 40)) ||| (171#64 <<< 32)) ||| (0#64 <<< 24)) ||| (88#64 <<< 16)) ||| (210#64 <<< 8)) ||| 46#64, (((((((69#64 <<< 56) ||| (236#64 <<< 48)) ||| (81#64 <<< 40)) ||| (156#64 <<< 32)) ||| (148#64 <<< 24)) ||| (188#64 <<< 16)) ||| (18#64 <<< 8)) ||| 81#64, 0#64],
  #v[(((((((216#64 <<< 56) ||| (213#64 <<< 48)) ||| (12#64 <<< 40)) ||| (226#64 <<< 32)) ||| (138#64 <<< 24)) ||| (206#64 <<< 16)) ||| (43#64 <<< 8)) ||| 248#64, (((((((8#64 <<< 56) ||| (22#64 <<< 48)) ||| (140#64 <<< 40)) ||| (183#64 <<< 32)) ||| (103#64 <<< 24)) ||| (222#64 <<< 16)) ||| (190#64 <<< 8)) ||| 132#64, (((((((214#64 <<< 56) ||| (125#64 <<< 48)) ||| (20#64 <<< 40)) ||| (106#64 <<< 32)) ||| (75#64 <<< 24)) ||| (166#64 <<< 16)) ||| (112#64 <<< 8)) ||| 69#64, 0#64],
  #v[(((((((151#64 <<< 56) ||| (15#64 <<< 48)) ||| (156#64 <<< 40)) ||| (118#64 <<< 32)) ||| (238#64 <<< 24)) ||| (213#64 <<< 16)) ||| (225#64 <<< 8)) ||| 186#64, (((((((243#64 <<< 56) ||| (234#64 <<< 48)) ||| (247#64 <<< 40)) ||| (174#64 <<< 32)) ||| (95#64 <<< 24)) ||| (215#64 <<< 16)) ||| (32#64 <<< 8)) ||| 72#64, (((((((41#64 <<< 56) ||| (166#64 <<< 48)) ||| (189#64 <<< 40)) ||| (95#64 <<< 32)) ||| (105#64 <<< 24)) ||| (108#64 <<< 16)) ||| (234#64 <<< 8)) ||| 67#64, 0#64],
  #v[(((((((245#64 <<< 56) ||| (148#64 <<< 48)) ||| (93#64 <<< 40)) ||| (194#64 <<< 32)) ||| (101#64 <<< 24)) ||| (6#64 <<< 16)) ||| (133#64 <<< 8)) ||| 113#64, (((((((96#64 <<< 56) ||| (25#64 <<< 48)) ||| (253#64 <<< 40)) ||| (98#64 <<< 32)) ||| (57#64 <<< 24)) ||| (6#64 <<< 16)) ||| (233#64 <<< 8)) ||| 211#64, (((((((199#64 <<< 56) ||| (124#64 <<< 48)) ||| (86#64 <<< 40)) ||| (84#64 <<< 32)) ||| (15#64 <<< 24)) ||| (135#64 <<< 16)) ||| (196#64 <<< 8)) ||| 176#64, 0#64]]

/-- fields.c:328-333 `bf192_bit_to_uint64_mask`. -/
def bf192_bit_to_uint64_mask (value : Ws 4) (bit : Nat) : Option (U64) := do
  let byte_idx : Nat := bit / 64
  let bit_idx : Nat := bit % 64
  let x1 ← bfValue value byte_idx
  pure (-((x1 >>> bit_idx) &&& 1#64))

/-- fields.c:315-325 `bf192_shift_left_1`. -/
def bf192_shift_left_1 (value : Ws 4) : Option (Ws 4) := do
  let mask : Ws 4 := #v[18446744073709551615#64, 18446744073709551615#64, 18446744073709551615#64, 0#64]
  let x1 ← bf192_zero
  pure (vAnd (vOr (vShl value 1) (shuffle (vShr value 63) x1 #v[4, 0, 1, 5])) mask)

/-- fields.c:335-345 `bf192_mul`. -/
def bf192_mul (lhs : Ws 4) (rhs : Ws 4) : Option (Ws 4) := do
  let x1 ← bf192_bit_to_uint64_mask rhs 0
  let result : Ws 4 := vAndS lhs x1
  let s2 ← forR 1 192 (lhs, result) (fun idx s2 => do
    let lhs := s2.1
    let result := s2.2
    let x3 ← bf192_bit_to_uint64_mask lhs 191
    let mask : U64 := x3
    let x4 ← bf192_shift_left_1 lhs
    let lhs := x4
    let lhs := lhs.set 0 (lhs[0] ^^^ (mask &&& 135#64))
    let x5 ← bf192_bit_to_uint64_mask rhs idx
    let result := vXor result (vAndS lhs x5)
    pure (lhs, result))
  let lhs := s2.1
  let result := s2.2
  pure result

/-- fields.c:255-261 `bf192_byte_combine`. -/
def bf192_byte_combine (x : Mem (Ws 4)) (x_o : Nat) : Option (Ws 4) := do
  let x1 ← rd x (x_o + 0)
  let bf_out : Ws 4 := x1
  let s2 ← forR 1 8 bf_out (fun i s2 => do
    let bf_out := s2
    let x3 ← rd x (x_o + i)
    let x4 ← bf192_alpha[i - 1]?
    let x5 ← bf192_mul x3 x4
    let bf_out := vXor bf_out x5
    pure bf_out)
  let bf_out := s2
  pure bf_out

/-- fields.c:263-279 `bf192_byte_combine_bits`. -/
def bf192_byte_combine_bits (x : Byte) : Option (Ws 4) := do
  let x1 ← bf192_from_bit (((x.zeroExtend 32) &&& 1#32).truncate 8)
  let x2 ← bf192_alpha[0]?
  let x3 ← bf192_alpha[1]?
  let x4 ← bf192_alpha[2]?
  let x5 ← bf192_alpha[3]?
  let x6 ← bf192_alpha[4]?
  let x7 ← bf192_alpha[5]?
  let x8 ← bf192_alpha[6]?
  pure (vXor (vXor (vXor (vXor (vXor (vXor (vXor x1 (vAndS x2 (-(((((x.zeroExtend 32) >>> 1) &&& 1#32).zeroExtend 64) &&& 1#64)))) (vAndS x3 (-(((((x.zeroExtend 32) >>> 2) &&& 1#32).zeroExtend 64) &&& 1#64)))) (vAndS x4 (-(((((x.zeroExtend 32) >>> 3) &&& 1#32).zeroExtend 64) &&& 1#64)))) (vAndS x5 (-(((((x.zeroExtend 32) >>> 4) &&& 1#32).zeroExtend 64) &&& 1#64)))) (vAndS x6 (-(((((x.zeroExtend 32) >>> 5) &&& 1#32).zeroExtend 64) &&& 1#64)))) (vAndS x7 (-(((((x.zeroExtend 32) >>> 6) &&& 1#32).zeroExtend 64) &&& 1#64)))) (vAndS x8 (-(((((x.zeroExtend 32) >>> 7) &&& 1#32).zeroExtend 64) &&& 1#64))))

/-- fields.c:347-357 `bf192_mul_64`. -/
def bf192_mul_64 (lhs : Ws 4) (rhs : U64) : Option (Ws 4) := do
  let result : Ws 4 := vAndS lhs (-((rhs >>> 0) &&& 1#64))
  let s1 ← forR 1 64 (lhs, result) (fun idx s1 => do
    let lhs := s1.1
    let result := s1.2
    let x2 ← bf192_bit_to_uint64_mask lhs 191
    let mask : U64 := x2
    let x3 ← bf192_shift_left_1 lhs
    let lhs := x3
    let lhs := lhs.set 0 (lhs[0] ^^^ (mask &&& 135#64))
    let result := vXor result (vAndS lhs (-((rhs >>> idx) &&& 1#64)))
    pure (lhs, result))
  let lhs := s1.1
  let result := s1.2
  pure result

/-- fields.c:365-371 `bf192_dbl`. -/
def bf192_dbl (lhs : Ws 4) : Option (Ws 4) := do
  let x1 ← bf192_bit_to_uint64_mask lhs 191
  let mask : U64 := x1
  let x2 ← bf192_shift_left_1 lhs
  let lhs := x2
  let lhs := lhs.set 0 (lhs[0] ^^^ (mask &&& 135#64))
  pure lhs

/-- fields.c:373-379 `bf192_sum_poly`. -/
def bf192_sum_poly (xs : Mem (Ws 4)) (xs_o : Nat) : Option (Ws 4) := do
  let x1 ← rd xs (xs_o + 191)
  let ret : Ws 4 := x1
  let s2 ← forR 1 192 ret (fun i s2 => do
    let ret := s2
    let x3 ← bf192_dbl ret
    let x4 ← rd xs (xs_o + (191 - i))
    let ret := vXor x3 x4
    pure ret)
  let ret := s2
  pure ret

/-- fields.c:383-412 `bf256_alpha`. -/
def bf256_alpha : List (Ws 4) := [
  #v[(((((((150#64 <<< 56) ||| (151#64 <<< 48)) ||| (136#64 <<< 40)) ||| (66#64 <<< 32)) ||| (11#64 <<< 24)) ||| (222#64 <<< 16)) ||| (254#64 <<< 8)) ||| 231#64, (((((((190#64 <<< 56) ||| (214#64 <<< 48)) ||| (141#64 <<< 40)) ||| (56#64 <<< 32)) ||| (160#64 <<< 24)) ||| (71#64 <<< 16)) ||| (78#64 <<< 8)) ||| 103#64, (((((((223#64 <<< 56) ||| (34#64 <<< 48)) ||| (152#64 <<< 40)) ||| (69#64 <<< 32)) ||| (248#64 <<< 24)) ||| (241#64 <<< 16)) ||| (225#64 <<< 8)) ||| 106#64, (((((((4#64 <<< 56) ||| (201#64 <<< 48)) ||| (168#64 <<< 40)) ||| (207#64 <<< 32)) ||| (32#64 <<< 24)) ||| (201#64 <<< 16)) ||| (88#64 <<< 8)) ||| 51#64],
  #v[(((((((169#64 <<< 56) ||| (90#64 <<< 48)) ||| (245#64 <<< 40)) ||| (42#64 <<< 32)) ||| (213#64 <<< 24)) ||| (34#64 <<< 16)) ||| (137#64 <<< 8)) ||| 193#64, (((((((43#64 <<< 56) ||| (165#64 <<< 48)) ||| (196#64 <<< 40)) ||| (141#64 <<< 32)) ||| (44#64 <<< 24)) ||| (66#64 <<< 16)) ||| (7#64 <<< 8)) ||| 47#64, (((((((209#64 <<< 56) ||| (74#64 <<< 48)) ||| (13#64 <<< 40)) ||| (55#64 <<< 32)) ||| (108#64 <<< 24)) ||| (0#64 <<< 16)) ||| (176#64 <<< 8)) ||| 234#64, (((((((6#64 <<< 56) ||| (78#64 <<< 48)) ||| (77#64 <<< 40)) ||| (105#64 <<< 32)) ||| (156#64 <<< 24)) ||| (91#64 <<< 16)) ||| (74#64 <<< 8)) ||| 241#64],
  #v[(((((((85#64 <<< 56) ||| (218#64 <<< 48)) ||| (179#64 <<< 40)) ||| (131#64 <<< 32)) ||| (63#64 <<< 24)) ||| (128#64 <<< 16)) ||| (157#64 <<< 8)) ||| 29#64, (((((((23#64 <<< 56) ||| (113#64 <<< 48)) ||| (131#64 <<< 40)) ||| (30#64 <<< 32)) ||| (83#64 <<< 24)) ||| (59#64 <<< 16)) ||| (15#64 <<< 8)) ||| 87#64, (((((((251#64 <<< 56) ||| (150#64 <<< 48)) ||| (87#64 <<< 40)) ||| (63#64 <<< 32)) ||| (173#64 <<< 24)) ||| (63#64 <<< 16)) ||| (172#64 <<< 8)) ||| 16#64, (((((((97#64 <<< 56) ||| (149#64 <<< 48)) ||| (227#64 <<< 40)) ||| (219#64 <<< 32)) ||| (112#64 <<< 24)) ||| (17#64 <<< 16)) ||| (246#64 <<< 8)) ||| 141#64],
  #v[(((((((222#64 <<< 56) ||| (1#64 <<< 48)) ||| (5#64 <<< 40)) ||| (25#64 <<< 32)) ||| (176#64 <<< 24)) ||| (27#64 <<< 16)) ||| (205#64 <<< 8)) ||| 213#64, (((((((117#64 <<< 56) ||| (39#64 <<< 48)) ||| (88#64 <<< 40)) ||| (145#64 <<< 32)) ||| (26#64 <<< 24)) ||| (48#64 <<< 16)) ||| (227#64 <<< 8)) ||| 246#64, (((((((42#64 <<< 56) ||| (7#64 <<< 48)) ||| (120#64 <<< 40)) ||| (182#64 <<< 32)) ||| (72#64 <<< 24)) ||| (158#64 <<< 16)) ||| (160#64 <<< 8)) ||| 63#64, (((((((86#64 <<< 56) ||| (194#64 <<< 48)) ||| (79#64 <<< 40)) ||| (214#64 <<< 32)) ||| (79#64 <<< 24)) ||| (118#64 <<< 16)) ||| (136#64 <<< 8)) ||| 56#64],
  #v[(((((((152#64 <<< 56) ||| (194#64 <<< 48)) ||| (245#64 <<< 40)) ||| (41#64 <<< 32)) ||| (233#64 <<< 24)) ||| (138#64 <<< 16)) ||| (48#64 <<< 8)) ||| 182#64, (((((((27#64 <<< 56) ||| (196#64 <<< 48)) ||| (219#64 <<< 40)) ||| (212#64 <<< 32)) ||| (64#64 <<< 24)) ||| (241#64 <<< 16)) ||| (132#64 <<< 8)) ||| 130#64, (((((((47#64 <<< 56) ||| (190#64 <<< 48)) ||| (9#64 <<< 40)) ||| (148#64 <<< 32)) ||| (125#64 <<< 24)) ||| (73#64 <<< 16)) ||| (169#64 <<< 8)) ||| 129#64, (((((((34#64 <<< 56) ||| (39#64 <<< 48)) ||| (11#64 <<< 40)) ||| (109#64 <<< 32)) ||| (113#64 <<< 24)) ||| (87#64 <<< 16)) ||| (79#64 <<< 8)) ||| 252#64],
  #v[(((((((158#64 <<< 56) ||| (117#64 <<< 48)) ||| (175#64 <<< 40)) ||| (185#64 <<< 32)) ||| (222#64 <<< 24)) ||| (68#64 <<< 16)) ||| (103#64 <<< 8)) ||| 11#64, (((((((172#64 <<< 56) ||| (237#64 <<< 48)) ||| (102#64 <<< 40)) ||| (198#64 <<< 32)) ||| (102#64 <<< 24)) ||| (241#64 <<< 16)) ||| (175#64 <<< 8)) ||| 188#64, (((((((240#64 <<< 56) ||| (1#64 <<< 48)) ||| (37#64 <<< 40)) ||| (63#64 <<< 32)) ||| (242#64 <<< 24)) ||| (153#64 <<< 16)) ||| (31#64 <<< 8)) ||| 126#64, (((((((192#64 <<< 56) ||| (61#64 <<< 48)) ||| (55#64 <<< 40)) ||| (47#64 <<< 32)) ||| (209#64 <<< 24)) ||| (250#64 <<< 16)) ||| (41#64 <<< 8)) ||| 243#64],
  #v[(((((((186#64 <<< 56) ||| (67#64 <<< 48)) ||| (182#64 <<< 40)) ||| (152#64 <<< 32)) ||| (179#64 <<< 24)) ||| (50#64 <<< 16)) ||| (232#64 <<< 8)) ||| 139#64, (((((((82#64 <<< 56) ||| (55#64 <<< 48)) ||| (196#64 <<< 40)) ||| (214#64 <<< 32)) ||| (37#64 <<< 24)) ||| (184#64 <<< 16)) ||| (111#64 <<< 8)) ||| 13#64, (((((((47#64 <<< 56) ||| (101#64 <<< 48)) ||| (43#64 <<< 40)) ||| (42#64 <<< 32)) ||| (244#64 <<< 24)) ||| (232#64 <<< 16)) ||| (21#64 <<< 8)) ||| 69#64, (((((((19#64 <<< 56) ||| (62#64 <<< 48)) ||| (234#64 <<< 40)) ||| (9#64 <<< 32)) ||| (210#64 <<< 24)) ||| (107#64 <<< 16)) ||| (123#64 <<< 8)) ||| 184#64]]

/-- fields.c:484-490 `bf256_bit_to_uint64_mask`. -/
def bf256_bit_to_uint64_mask (value : Ws 4) (bit : Nat) : Option (U64) := do
  let byte_idx : Nat := bit / 64
  let bit_idx : Nat := bit % 64
  let x1 ← bfValue value byte_idx
  pure (-((x1 >>> bit_idx) &&& 1#64))

/-- fields.c:492-509 `bf256_mul`. -/
def bf256_mul (lhs : Ws 4) (rhs : Ws 4) : Option (Ws 4) := do
  let mod : Ws 4 := #v[1061#64, 0#64, 0#64, 0#64]
  let x1 ← bf256_bit_to_uint64_mask rhs 0
  let result : Ws 4 := vAndS lhs x1
  let s2 ← forR 1 256 (lhs, result) (fun idx s2 => do
    let lhs := s2.1
    let result := s2.2
    let x3 ← bf256_bit_to_uint64_mask lhs 255
    let mask : U64 := x3
    let x4 ← bf256_zero
    let lhs := vOr (vShl lhs 1) (shuffle (vShr lhs 63) x4 #v[4, 0, 1, 2])
    let lhs := vXor lhs (vAndS mod mask)
    let x5 ← bf256_bit_to_uint64_mask rhs idx
    let result := vXor result (vAndS lhs x5)
    pure (lhs, result))
  let lhs := s2.1
  let result := s2.2
  pure result

/-- fields.c:414-420 `bf256_byte_combine`. -/
def bf256_byte_combine (x : Mem (Ws 4)) (x_o : Nat) : Option (Ws 4) := do
  let x1 ← rd x (x_o + 0)
  let bf_out : Ws 4 := x1
  let s2 ← forR 1 8 bf_out (fun i s2 => do
    let bf_out := s2
    let x3 ← rd x (x_o + i)
    let x4 ← bf256_alpha[i - 1]?
    let x5 ← bf256_mul x3 x4
    let bf_out := vXor bf_out x5
    pure bf_out)
  let bf_out := s2
  pure bf_out

/-- fields.c:422-438 `bf256_byte_combine_bits`. -/
def bf256_byte_combine_bits (x : Byte) : Option (Ws 4) := do
  let x1 ← bf256_from_bit (((x.zeroExtend 32) &&& 1#32).truncate 8)
  let x2 ← bf256_alpha[0]?
  let x3 ← bf256_alpha[1]?
  let x4 ← bf256_alpha[2]?
  let x5 ← bf256_alpha[3]?
  let x6 ← bf256_alpha[4]?
  let x7 ← bf256_alpha[5]?
  let x8 ← bf256_alpha[6]?
  pure (vXor (vXor (vXor (vXor (vXor (vXor (vXor x1 (vAndS x2 (-(((((x.zeroExtend 32) >>> 1) &&& 1#32).zeroExtend 64) &&& 1#64)))) (vAndS x3 (-(((((x.zeroExtend 32) >>> 2) &&& 1#32).zeroExtend 64) &&& 1#64)))) (vAndS x4 (-(((((x.zeroExtend 32) >>> 3) &&& 1#32).zeroExtend 64) &&& 1#64)))) (vAndS x5 (-(((((x.zeroExtend 32) >>> 4) &&& 1#32).zeroExtend 64) &&& 1#64)))) (vAndS x6 (-(((((x.zeroExtend 32) >>> 5) &&& 1#32).zeroExtend 64) &&& 1#64)))) (vAndS x7 (-(((((x.zeroExtend 32) >>> 6) &&& 1#32).zeroExtend 64) &&& 1#64)))) (vAndS x8 (-(((((x.zeroExtend 32) >>> 7) &&& 1#32).zeroExtend 64) &&& 1#64))))

/-- fields.c:511-528 `bf256_mul_64`. -/
def bf256_mul_64 (lhs : Ws 4) (rhs : U64) : Option (Ws 4) := do
  let mod : Ws 4 := #v[1061#64, 0#64, 0#64, 0#64]
  let result : Ws 4 := vAndS lhs (-((rhs >>> 0) &&& 1#64))
  let s1 ← forR 1 64 (lhs, result) (fun idx s1 => do
    let lhs := s1.1
    let result := s1.2
    let x2 ← bf256_bit_to_uint64_mask lhs 255
    let mask : U64 := x2
    let x3 ← bf256_zero
    let lhs := vOr (vShl lhs 1) (shuffle (vShr lhs 63) x3 #v[4, 0, 1, 2])
    let lhs := vXor lhs (vAndS mod mask)
    let result := vXor result (vAndS lhs (-((rhs >>> idx) &&& 1#64)))
    pure (lhs, result))
  let lhs := s1.1
  let result := s1.2
  pure result

/-- fields.c:536-546 `bf256_dbl`. -/
def bf256_dbl (lhs : Ws 4) : Option (Ws 4) := do
  let x1 ← bf256_bit_to_uint64_mask lhs 255
  let mask : U64 := x1
  let x2 ← bf256_zero
  let lhs := vOr (vShl lhs 1) (shuffle (vShr lhs 63) x2 #v[4, 0, 1, 2])
  let mod : Ws 4 := #v[1061#64, 0#64, 0#64, 0#64]
  pure (vXor lhs (vAndS mod mask))

/-- fields.c:548-554 `bf256_sum_poly`. -/
def bf256_sum_poly (xs : Mem (Ws 4)) (xs_o : Nat) : Option (Ws 4) := do
  let x1 ← rd xs (xs_o + 255)
  let ret : Ws 4 := x1
  let s2 ← forR 1 256 ret (fun i s2 => do
    let ret := s2
    let x3 ← bf256_dbl ret
    let x4 ← rd xs (xs_o + (255 - i))
    let ret := vXor x3 x4
    pure ret)
  let ret := s2
  pure ret

/-- fields.h:199-199 `bf128_add`. -/
def bf128_add (lhs : Ws 2) (rhs : Ws 2) : Option (Ws 2) := do
  pure (vXor lhs rhs)

/-- fields.h:212-212 `bf128_mul_bit`. -/
def bf128_mul_bit (lhs : Ws 2) (rhs : Byte) : Option (Ws 2) := do
  pure (vAndS lhs (-((rhs.zeroExtend 64) &&& 1#64)))

/-- fields.h:278-278 `bf192_add`. -/
def bf192_add (lhs : Ws 4) (rhs : Ws 4) : Option (Ws 4) := do
  pure (vXor lhs rhs)

/-- fields.h:291-291 `bf192_mul_bit`. -/
def bf192_mul_bit (lhs : Ws 4) (rhs : Byte) : Option (Ws 4) := do
  pure (vAndS lhs (-((rhs.zeroExtend 64) &&& 1#64)))

/-- fields.h:354-354 `bf256_add`. -/
def bf256_add (lhs : Ws 4) (rhs : Ws 4) : Option (Ws 4) := do
  pure (vXor lhs rhs)

/-- fields.h:367-367 `bf256_mul_bit`. -/
def bf256_mul_bit (lhs : Ws 4) (rhs : Byte) : Option (Ws 4) := do
  pure (vAndS lhs (-((rhs.zeroExtend 64) &&& 1#64)))

end Faest.GenF.VB
