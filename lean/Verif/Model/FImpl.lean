/-
The interface of fields.h (with `rotr8` and `parity8` of compat.h) as the translated code in `Model/GenW` calls it.  A
field element in a variable or in a block is carried as the bit vector its words spell.
-/
import Verif.Model.CSem

namespace Faest.C

/-- fields.h:142-382 `bf128_*`, `bf192_*`, `bf256_*`. -/
structure FOps (n : Nat) where
  load : CPtr → CM (BF n)
  store : CPtr → BF n → CM Unit
  zero : CM (BF n)
  one : CM (BF n)
  from_bit : Byte → CM (BF n)
  add : BF n → BF n → CM (BF n)
  mul : BF n → BF n → CM (BF n)
  mul_64 : BF n → BF 64 → CM (BF n)
  mul_bit : BF n → Byte → CM (BF n)
  byte_combine : CPtr → CM (BF n)
  byte_combine_bits : Byte → CM (BF n)
  sum_poly : CPtr → CM (BF n)

/-- fields.h:104-140 `bf64_*`. -/
structure FOps64 where
  load : CPtr → CM (BF 64)
  store : CPtr → BF 64 → CM Unit
  zero : CM (BF 64)
  one : CM (BF 64)
  add : BF 64 → BF 64 → CM (BF 64)
  mul : BF 64 → BF 64 → CM (BF 64)

/-- The functions of fields.h and compat.h which are called from other files. -/
structure FImpl where
  f64 : FOps64
  f128 : FOps 128
  f192 : FOps 192
  f256 : FOps 256
  bf8_load : CPtr → CM Byte
  bf8_store : CPtr → Byte → CM Unit
  bf8_mul : Byte → Byte → CM Byte
  bf8_inv : Byte → CM Byte
  rotr8 : Byte → Nat → CM Byte
  parity8 : Byte → CM Byte

/-- The functions on bit vectors (Model/Fields.lean). -/
def absOps (n : Nat) : FOps n where
  load := bf_load n
  store := bf_store
  zero := pure bfZero
  one := pure bfOne
  from_bit x := pure (bfFromBit x)
  add a b := pure (bfAdd a b)
  mul a b := pure (bfMul a b)
  mul_64 a b := pure (bfMul64 a b)
  mul_bit a b := pure (bfMulBit a b)
  byte_combine := bf_byte_combine n
  byte_combine_bits := bf_byte_combine_bits n
  sum_poly := bf_sum_poly n

@[inherit_doc absOps] def absOps64 : FOps64 where
  load := bf_load 64
  store := bf_store
  zero := pure bfZero
  one := pure bfOne
  add a b := pure (bfAdd a b)
  mul a b := pure (bfMul a b)

@[inherit_doc absOps] def absF : FImpl where
  f64 := absOps64
  f128 := absOps 128
  f192 := absOps 192
  f256 := absOps 256
  bf8_load := C.bf8_load
  bf8_store := C.bf8_store
  bf8_mul a b := pure (bf8Mul a b)
  bf8_inv a := pure (C.bf8_inv a)
  rotr8 x c := pure (Faest.rotr8 x c)
  parity8 x := pure (Faest.parity8 x)

end Faest.C
