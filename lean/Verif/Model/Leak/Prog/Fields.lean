/-
Generated by tools/c2leak.py; do not edit.
Functions of fields.c.
-/
import Verif.Model.Leak.IR
import Verif.Model.Leak.Prog.Ids

namespace Faest.Leak.Prog

/-- `bf8_square`, fields.c:45-54; variables: 0 lhs, 1 result, 2 rhs, 3 idx, 4 mask -/
def bf8_square : Fn := ⟨1,
  block [
    .asg 1 (.un (.cast .u8) (.bin (.band .i32) (.un (.neg .i32) (.bin (.band .i32) (.var 0) (.lit 1))) (.var 0))),
    .asg 2 (.var 0),
    .asg 3 (.lit 1),
    .loop (.bin .lt (.var 3) (.lit 8))
      (block [
        .asg 4 (.un (.cast .u8) (.un (.neg .i32) (.bin (.band .i32) (.bin (.shr .i32) (.var 0) (.lit 7)) (.lit 1)))),
        .asg 0 (.un (.cast .u8) (.bin (.bxor .i32) (.bin (.shl .i32) (.var 0) (.lit 1)) (.bin (.band .i32) (.var 4)
          (.lit 27)))),
        .asg 1 (.un (.cast .u8) (.bin (.bxor .i32) (.var 1) (.bin (.band .i32) (.un (.neg .i32) (.bin (.band .i32)
          (.bin (.shr .i32) (.var 2) (.var 3)) (.lit 1))) (.var 0))))])
      (.asg 3 (.bin (.add .u32) (.var 3) (.lit 1))),
    .ret (.var 1)]⟩

/-- `bf8_mul`, fields.c:35-43; variables: 0 lhs, 1 rhs, 2 result, 3 idx, 4 mask -/
def bf8_mul : Fn := ⟨2,
  block [
    .asg 2 (.un (.cast .u8) (.bin (.band .i32) (.un (.neg .i32) (.bin (.band .i32) (.var 1) (.lit 1))) (.var 0))),
    .asg 3 (.lit 1),
    .loop (.bin .lt (.var 3) (.lit 8))
      (block [
        .asg 4 (.un (.cast .u8) (.un (.neg .i32) (.bin (.band .i32) (.bin (.shr .i32) (.var 0) (.lit 7)) (.lit 1)))),
        .asg 0 (.un (.cast .u8) (.bin (.bxor .i32) (.bin (.shl .i32) (.var 0) (.lit 1)) (.bin (.band .i32) (.var 4)
          (.lit 27)))),
        .asg 2 (.un (.cast .u8) (.bin (.bxor .i32) (.var 2) (.bin (.band .i32) (.un (.neg .i32) (.bin (.band .i32)
          (.bin (.shr .i32) (.var 1) (.var 3)) (.lit 1))) (.var 0))))])
      (.asg 3 (.bin (.add .u32) (.var 3) (.lit 1))),
    .ret (.var 2)]⟩

/-- `bf8_inv`, fields.c:56-68; variables: 0 in, 1 t2, 3 t3, 5 t5, 7 t7, 9 t14, 11 t28, 13 t56, 15 t63, 17 t126, 19
  t252 -/
def bf8_inv : Fn := ⟨1,
  block [
    .call (some 2) Id.bf8_square [.var 0],
    .asg 1 (.var 2),
    .call (some 4) Id.bf8_mul [.var 0, .var 1],
    .asg 3 (.var 4),
    .call (some 6) Id.bf8_mul [.var 3, .var 1],
    .asg 5 (.var 6),
    .call (some 8) Id.bf8_mul [.var 5, .var 1],
    .asg 7 (.var 8),
    .call (some 10) Id.bf8_square [.var 7],
    .asg 9 (.var 10),
    .call (some 12) Id.bf8_square [.var 9],
    .asg 11 (.var 12),
    .call (some 14) Id.bf8_square [.var 11],
    .asg 13 (.var 14),
    .call (some 16) Id.bf8_mul [.var 13, .var 7],
    .asg 15 (.var 16),
    .call (some 18) Id.bf8_square [.var 15],
    .asg 17 (.var 18),
    .call (some 20) Id.bf8_square [.var 17],
    .asg 19 (.var 20),
    .call (some 21) Id.bf8_mul [.var 19, .var 1],
    .ret (.var 21)]⟩

/-- `bf256_bit_to_uint64_mask`, fields.c:484-490; variables: 0 value, 1 bit, 2 value, 3 byte_idx, 4 bit_idx -/
def bf256_bit_to_uint64_mask : Fn := ⟨2,
  block [
    .new 2 (.lit 32),
    .st 32 (.var 2) (.var 0),
    .asg 3 (.div (.div .u32) (.var 1) (.lit 64)),
    .asg 4 (.div (.mod .u32) (.var 1) (.lit 64)),
    .ret (.un (.neg .u64) (.bin (.band .u64) (.bin (.shr .u64) (.ld 8 (.padd (.var 2) (.var 3) 8)) (.var 4)) (.lit
      1)))]⟩

/-- `bf256_and_64`, fields.c:450-455; variables: 0 lhs, 1 rhs, 2 lhs, 3 i -/
def bf256_and_64 : Fn := ⟨2,
  block [
    .new 2 (.lit 32),
    .st 32 (.var 2) (.var 0),
    .asg 3 (.lit 0),
    .loop (.bin .ne (.var 3) (.lit 4))
      (.st 8 (.padd (.var 2) (.var 3) 8) (.bin (.band .u64) (.ld 8 (.padd (.var 2) (.var 3) 8)) (.var 1)))
      (.asg 3 (.bin (.add .u32) (.var 3) (.lit 1))),
    .ret (.ld 32 (.var 2))]⟩

/-- `bf256_shift_left_1`, fields.c:475-481; variables: 0 value, 1 value -/
def bf256_shift_left_1 : Fn := ⟨1,
  block [
    .new 1 (.lit 32),
    .st 32 (.var 1) (.var 0),
    .st 8 (.padd (.var 1) (.lit 3) 8) (.bin (.bor .u64) (.bin (.shl .u64) (.ld 8 (.padd (.var 1) (.lit 3) 8)) (.lit
      1)) (.bin (.shr .u64) (.ld 8 (.padd (.var 1) (.lit 2) 8)) (.lit 63))),
    .st 8 (.padd (.var 1) (.lit 2) 8) (.bin (.bor .u64) (.bin (.shl .u64) (.ld 8 (.padd (.var 1) (.lit 2) 8)) (.lit
      1)) (.bin (.shr .u64) (.ld 8 (.padd (.var 1) (.lit 1) 8)) (.lit 63))),
    .st 8 (.padd (.var 1) (.lit 1) 8) (.bin (.bor .u64) (.bin (.shl .u64) (.ld 8 (.padd (.var 1) (.lit 1) 8)) (.lit
      1)) (.bin (.shr .u64) (.ld 8 (.var 1)) (.lit 63))),
    .st 8 (.var 1) (.bin (.shl .u64) (.ld 8 (.var 1)) (.lit 1)),
    .ret (.ld 32 (.var 1))]⟩

/-- `bf256_mul`, fields.c:492-509; variables: 0 lhs, 1 rhs, 2 lhs, 3 result, 6 idx, 7 mask -/
def bf256_mul : Fn := ⟨2,
  block [
    .new 2 (.lit 32),
    .st 32 (.var 2) (.var 0),
    .call (some 4) Id.bf256_bit_to_uint64_mask [.var 1, .lit 0],
    .call (some 5) Id.bf256_and_64 [.ld 32 (.var 2), .var 4],
    .asg 3 (.var 5),
    .asg 6 (.lit 1),
    .loop (.bin .ne (.var 6) (.lit 256))
      (block [
        .call (some 8) Id.bf256_bit_to_uint64_mask [.ld 32 (.var 2), .lit 255],
        .asg 7 (.var 8),
        .call (some 9) Id.bf256_shift_left_1 [.ld 32 (.var 2)],
        .st 32 (.var 2) (.var 9),
        .st 8 (.var 2) (.bin (.bxor .u64) (.ld 8 (.var 2)) (.bin (.band .u64) (.var 7) (.lit 1061))),
        .call (some 10) Id.bf256_bit_to_uint64_mask [.var 1, .var 6],
        .call (some 11) Id.bf256_and_64 [.ld 32 (.var 2), .var 10],
        .call (some 12) Id.bf256_add [.var 3, .var 11],
        .asg 3 (.var 12)])
      (.asg 6 (.bin (.add .u32) (.var 6) (.lit 1))),
    .ret (.var 3)]⟩

/-- `bf64_mul`, fields.c:78-86; variables: 0 lhs, 1 rhs, 2 result, 3 idx, 4 mask -/
def bf64_mul : Fn := ⟨2,
  block [
    .asg 2 (.bin (.band .u64) (.un (.neg .u64) (.bin (.band .u64) (.var 1) (.lit 1))) (.var 0)),
    .asg 3 (.lit 1),
    .loop (.bin .ne (.var 3) (.lit 64))
      (block [
        .asg 4 (.un (.neg .u64) (.bin (.band .u64) (.bin (.shr .u64) (.var 0) (.lit 63)) (.lit 1))),
        .asg 0 (.bin (.bxor .u64) (.bin (.shl .u64) (.var 0) (.lit 1)) (.bin (.band .u64) (.var 4) (.lit 27))),
        .asg 2 (.bin (.bxor .u64) (.var 2) (.bin (.band .u64) (.un (.neg .u64) (.bin (.band .u64) (.bin (.shr .u64)
          (.var 1) (.var 3)) (.lit 1))) (.var 0)))])
      (.asg 3 (.bin (.add .u32) (.var 3) (.lit 1))),
    .ret (.var 2)]⟩

/-- `bf256_mul_64`, fields.c:511-528; variables: 0 lhs, 1 rhs, 2 lhs, 3 result, 5 idx, 6 mask -/
def bf256_mul_64 : Fn := ⟨2,
  block [
    .new 2 (.lit 32),
    .st 32 (.var 2) (.var 0),
    .call (some 4) Id.bf256_and_64 [.ld 32 (.var 2), .un (.neg .u64) (.bin (.band .u64) (.bin (.shr .u64) (.var 1)
      (.lit 0)) (.lit 1))],
    .asg 3 (.var 4),
    .asg 5 (.lit 1),
    .loop (.bin .ne (.var 5) (.lit 64))
      (block [
        .call (some 7) Id.bf256_bit_to_uint64_mask [.ld 32 (.var 2), .lit 255],
        .asg 6 (.var 7),
        .call (some 8) Id.bf256_shift_left_1 [.ld 32 (.var 2)],
        .st 32 (.var 2) (.var 8),
        .st 8 (.var 2) (.bin (.bxor .u64) (.ld 8 (.var 2)) (.bin (.band .u64) (.var 6) (.lit 1061))),
        .call (some 9) Id.bf256_and_64 [.ld 32 (.var 2), .un (.neg .u64) (.bin (.band .u64) (.bin (.shr .u64) (.var
          1) (.var 5)) (.lit 1))],
        .call (some 10) Id.bf256_add [.var 3, .var 9],
        .asg 3 (.var 10)])
      (.asg 5 (.bin (.add .u32) (.var 5) (.lit 1))),
    .ret (.var 3)]⟩

/-- `bf192_bit_to_uint64_mask`, fields.c:328-333; variables: 0 value, 1 bit, 2 value, 3 byte_idx, 4 bit_idx -/
def bf192_bit_to_uint64_mask : Fn := ⟨2,
  block [
    .new 2 (.lit 24),
    .st 24 (.var 2) (.var 0),
    .asg 3 (.div (.div .u32) (.var 1) (.lit 64)),
    .asg 4 (.div (.mod .u32) (.var 1) (.lit 64)),
    .ret (.un (.neg .u64) (.bin (.band .u64) (.bin (.shr .u64) (.ld 8 (.padd (.var 2) (.var 3) 8)) (.var 4)) (.lit
      1)))]⟩

/-- `bf192_and_64`, fields.c:291-296; variables: 0 lhs, 1 rhs, 2 lhs, 3 i -/
def bf192_and_64 : Fn := ⟨2,
  block [
    .new 2 (.lit 24),
    .st 24 (.var 2) (.var 0),
    .asg 3 (.lit 0),
    .loop (.bin .ne (.var 3) (.lit 3))
      (.st 8 (.padd (.var 2) (.var 3) 8) (.bin (.band .u64) (.ld 8 (.padd (.var 2) (.var 3) 8)) (.var 1)))
      (.asg 3 (.bin (.add .u32) (.var 3) (.lit 1))),
    .ret (.ld 24 (.var 2))]⟩

/-- `bf192_shift_left_1`, fields.c:315-325; variables: 0 value, 1 value -/
def bf192_shift_left_1 : Fn := ⟨1,
  block [
    .new 1 (.lit 24),
    .st 24 (.var 1) (.var 0),
    .st 8 (.padd (.var 1) (.lit 2) 8) (.bin (.bor .u64) (.bin (.shl .u64) (.ld 8 (.padd (.var 1) (.lit 2) 8)) (.lit
      1)) (.bin (.shr .u64) (.ld 8 (.padd (.var 1) (.lit 1) 8)) (.lit 63))),
    .st 8 (.padd (.var 1) (.lit 1) 8) (.bin (.bor .u64) (.bin (.shl .u64) (.ld 8 (.padd (.var 1) (.lit 1) 8)) (.lit
      1)) (.bin (.shr .u64) (.ld 8 (.var 1)) (.lit 63))),
    .st 8 (.var 1) (.bin (.shl .u64) (.ld 8 (.var 1)) (.lit 1)),
    .ret (.ld 24 (.var 1))]⟩

/-- `bf192_mul`, fields.c:335-345; variables: 0 lhs, 1 rhs, 2 lhs, 3 result, 6 idx, 7 mask -/
def bf192_mul : Fn := ⟨2,
  block [
    .new 2 (.lit 24),
    .st 24 (.var 2) (.var 0),
    .call (some 4) Id.bf192_bit_to_uint64_mask [.var 1, .lit 0],
    .call (some 5) Id.bf192_and_64 [.ld 24 (.var 2), .var 4],
    .asg 3 (.var 5),
    .asg 6 (.lit 1),
    .loop (.bin .ne (.var 6) (.lit 192))
      (block [
        .call (some 8) Id.bf192_bit_to_uint64_mask [.ld 24 (.var 2), .lit 191],
        .asg 7 (.var 8),
        .call (some 9) Id.bf192_shift_left_1 [.ld 24 (.var 2)],
        .st 24 (.var 2) (.var 9),
        .st 8 (.var 2) (.bin (.bxor .u64) (.ld 8 (.var 2)) (.bin (.band .u64) (.var 7) (.lit 135))),
        .call (some 10) Id.bf192_bit_to_uint64_mask [.var 1, .var 6],
        .call (some 11) Id.bf192_and_64 [.ld 24 (.var 2), .var 10],
        .call (some 12) Id.bf192_add [.var 3, .var 11],
        .asg 3 (.var 12)])
      (.asg 6 (.bin (.add .u32) (.var 6) (.lit 1))),
    .ret (.var 3)]⟩

/-- `bf192_mul_64`, fields.c:347-357; variables: 0 lhs, 1 rhs, 2 lhs, 3 result, 5 idx, 6 mask -/
def bf192_mul_64 : Fn := ⟨2,
  block [
    .new 2 (.lit 24),
    .st 24 (.var 2) (.var 0),
    .call (some 4) Id.bf192_and_64 [.ld 24 (.var 2), .un (.neg .u64) (.bin (.band .u64) (.bin (.shr .u64) (.var 1)
      (.lit 0)) (.lit 1))],
    .asg 3 (.var 4),
    .asg 5 (.lit 1),
    .loop (.bin .ne (.var 5) (.lit 64))
      (block [
        .call (some 7) Id.bf192_bit_to_uint64_mask [.ld 24 (.var 2), .lit 191],
        .asg 6 (.var 7),
        .call (some 8) Id.bf192_shift_left_1 [.ld 24 (.var 2)],
        .st 24 (.var 2) (.var 8),
        .st 8 (.var 2) (.bin (.bxor .u64) (.ld 8 (.var 2)) (.bin (.band .u64) (.var 6) (.lit 135))),
        .call (some 9) Id.bf192_and_64 [.ld 24 (.var 2), .un (.neg .u64) (.bin (.band .u64) (.bin (.shr .u64) (.var
          1) (.var 5)) (.lit 1))],
        .call (some 10) Id.bf192_add [.var 3, .var 9],
        .asg 3 (.var 10)])
      (.asg 5 (.bin (.add .u32) (.var 5) (.lit 1))),
    .ret (.var 3)]⟩

/-- `bf128_bit_to_uint64_mask`, fields.c:176-181; variables: 0 value, 1 bit, 2 value, 3 byte_idx, 4 bit_idx -/
def bf128_bit_to_uint64_mask : Fn := ⟨2,
  block [
    .new 2 (.lit 16),
    .st 16 (.var 2) (.var 0),
    .asg 3 (.div (.div .u32) (.var 1) (.lit 64)),
    .asg 4 (.div (.mod .u32) (.var 1) (.lit 64)),
    .ret (.un (.neg .u64) (.bin (.band .u64) (.bin (.shr .u64) (.ld 8 (.padd (.var 2) (.var 3) 8)) (.var 4)) (.lit
      1)))]⟩

/-- `bf128_and_64`, fields.c:145-150; variables: 0 lhs, 1 rhs, 2 lhs, 3 i -/
def bf128_and_64 : Fn := ⟨2,
  block [
    .new 2 (.lit 16),
    .st 16 (.var 2) (.var 0),
    .asg 3 (.lit 0),
    .loop (.bin .ne (.var 3) (.lit 2))
      (.st 8 (.padd (.var 2) (.var 3) 8) (.bin (.band .u64) (.ld 8 (.padd (.var 2) (.var 3) 8)) (.var 1)))
      (.asg 3 (.bin (.add .u32) (.var 3) (.lit 1))),
    .ret (.ld 16 (.var 2))]⟩

/-- `bf128_shift_left_1`, fields.c:168-172; variables: 0 value, 1 value -/
def bf128_shift_left_1 : Fn := ⟨1,
  block [
    .new 1 (.lit 16),
    .st 16 (.var 1) (.var 0),
    .st 8 (.padd (.var 1) (.lit 1) 8) (.bin (.bor .u64) (.bin (.shl .u64) (.ld 8 (.padd (.var 1) (.lit 1) 8)) (.lit
      1)) (.bin (.shr .u64) (.ld 8 (.var 1)) (.lit 63))),
    .st 8 (.var 1) (.bin (.shl .u64) (.ld 8 (.var 1)) (.lit 1)),
    .ret (.ld 16 (.var 1))]⟩

/-- `bf128_mul`, fields.c:183-193; variables: 0 lhs, 1 rhs, 2 lhs, 3 result, 6 idx, 7 mask -/
def bf128_mul : Fn := ⟨2,
  block [
    .new 2 (.lit 16),
    .st 16 (.var 2) (.var 0),
    .call (some 4) Id.bf128_bit_to_uint64_mask [.var 1, .lit 0],
    .call (some 5) Id.bf128_and_64 [.ld 16 (.var 2), .var 4],
    .asg 3 (.var 5),
    .asg 6 (.lit 1),
    .loop (.bin .ne (.var 6) (.lit 128))
      (block [
        .call (some 8) Id.bf128_bit_to_uint64_mask [.ld 16 (.var 2), .lit 127],
        .asg 7 (.var 8),
        .call (some 9) Id.bf128_shift_left_1 [.ld 16 (.var 2)],
        .st 16 (.var 2) (.var 9),
        .st 8 (.var 2) (.bin (.bxor .u64) (.ld 8 (.var 2)) (.bin (.band .u64) (.var 7) (.lit 135))),
        .call (some 10) Id.bf128_bit_to_uint64_mask [.var 1, .var 6],
        .call (some 11) Id.bf128_and_64 [.ld 16 (.var 2), .var 10],
        .call (some 12) Id.bf128_add [.var 3, .var 11],
        .asg 3 (.var 12)])
      (.asg 6 (.bin (.add .u32) (.var 6) (.lit 1))),
    .ret (.var 3)]⟩

/-- `bf128_mul_64`, fields.c:195-205; variables: 0 lhs, 1 rhs, 2 lhs, 3 result, 5 idx, 6 mask -/
def bf128_mul_64 : Fn := ⟨2,
  block [
    .new 2 (.lit 16),
    .st 16 (.var 2) (.var 0),
    .call (some 4) Id.bf128_and_64 [.ld 16 (.var 2), .un (.neg .u64) (.bin (.band .u64) (.bin (.shr .u64) (.var 1)
      (.lit 0)) (.lit 1))],
    .asg 3 (.var 4),
    .asg 5 (.lit 1),
    .loop (.bin .ne (.var 5) (.lit 64))
      (block [
        .call (some 7) Id.bf128_bit_to_uint64_mask [.ld 16 (.var 2), .lit 127],
        .asg 6 (.var 7),
        .call (some 8) Id.bf128_shift_left_1 [.ld 16 (.var 2)],
        .st 16 (.var 2) (.var 8),
        .st 8 (.var 2) (.bin (.bxor .u64) (.ld 8 (.var 2)) (.bin (.band .u64) (.var 6) (.lit 135))),
        .call (some 9) Id.bf128_and_64 [.ld 16 (.var 2), .un (.neg .u64) (.bin (.band .u64) (.bin (.shr .u64) (.var
          1) (.var 5)) (.lit 1))],
        .call (some 10) Id.bf128_add [.var 3, .var 9],
        .asg 3 (.var 10)])
      (.asg 5 (.bin (.add .u32) (.var 5) (.lit 1))),
    .ret (.var 3)]⟩

/-- `bf256_mul_bit`, fields.c:531-533; variables: 0 lhs, 1 rhs -/
def bf256_mul_bit : Fn := ⟨2,
  block [
    .call (some 2) Id.bf256_and_64 [.var 0, .un (.neg .u64) (.bin (.band .u64) (.var 1) (.lit 1))],
    .ret (.var 2)]⟩

/-- `bf256_byte_combine_bits`, fields.c:422-438; variables: 0 x, 1 bf_out, 3 i -/
def bf256_byte_combine_bits : Fn := ⟨1,
  block [
    .call (some 2) Id.bf256_from_bit [.un (.cast .u8) (.bin (.band .i32) (.var 0) (.lit 1))],
    .asg 1 (.var 2),
    .asg 3 (.lit 1),
    .loop (.bin .lt (.var 3) (.lit 8))
      (block [
        .call (some 4) Id.bf256_mul_bit [.ld 32 (.padd (.glob 7) (.bin (.sub .u32) (.var 3) (.lit 1)) 32), .un (.cast
          .u8) (.bin (.band .i32) (.bin (.shr .i32) (.var 0) (.var 3)) (.lit 1))],
        .call (some 5) Id.bf256_add [.var 1, .var 4],
        .asg 1 (.var 5)])
      (.asg 3 (.bin (.add .u32) (.var 3) (.lit 1))),
    .ret (.var 1)]⟩

/-- `bf256_byte_combine`, fields.c:414-420; variables: 0 x, 1 bf_out, 2 i -/
def bf256_byte_combine : Fn := ⟨1,
  block [
    .asg 1 (.ld 32 (.var 0)),
    .asg 2 (.lit 1),
    .loop (.bin .lt (.var 2) (.lit 8))
      (block [
        .call (some 3) Id.bf256_mul [.ld 32 (.padd (.var 0) (.var 2) 32), .ld 32 (.padd (.glob 7) (.bin (.sub .u32)
          (.var 2) (.lit 1)) 32)],
        .call (some 4) Id.bf256_add [.var 1, .var 3],
        .asg 1 (.var 4)])
      (.asg 2 (.bin (.add .u32) (.var 2) (.lit 1))),
    .ret (.var 1)]⟩

/-- `bf256_dbl`, fields.c:536-546; variables: 0 lhs, 1 lhs, 2 mask -/
def bf256_dbl : Fn := ⟨1,
  block [
    .new 1 (.lit 32),
    .st 32 (.var 1) (.var 0),
    .call (some 3) Id.bf256_bit_to_uint64_mask [.ld 32 (.var 1), .lit 255],
    .asg 2 (.var 3),
    .call (some 4) Id.bf256_shift_left_1 [.ld 32 (.var 1)],
    .st 32 (.var 1) (.var 4),
    .st 8 (.var 1) (.bin (.bxor .u64) (.ld 8 (.var 1)) (.bin (.band .u64) (.var 2) (.lit 1061))),
    .ret (.ld 32 (.var 1))]⟩

/-- `bf256_sum_poly`, fields.c:548-554; variables: 0 xs, 1 ret, 2 i -/
def bf256_sum_poly : Fn := ⟨1,
  block [
    .asg 1 (.ld 32 (.padd (.var 0) (.lit 255) 32)),
    .asg 2 (.lit 1),
    .loop (.bin .lt (.var 2) (.lit 256))
      (block [
        .call (some 3) Id.bf256_dbl [.var 1],
        .call (some 4) Id.bf256_add [.var 3, .ld 32 (.padd (.var 0) (.bin (.sub .u64) (.lit 255) (.var 2)) 32)],
        .asg 1 (.var 4)])
      (.asg 2 (.bin (.add .u64) (.var 2) (.lit 1))),
    .ret (.var 1)]⟩

/-- `bf192_mul_bit`, fields.c:360-362; variables: 0 lhs, 1 rhs -/
def bf192_mul_bit : Fn := ⟨2,
  block [
    .call (some 2) Id.bf192_and_64 [.var 0, .un (.neg .u64) (.bin (.band .u64) (.var 1) (.lit 1))],
    .ret (.var 2)]⟩

/-- `bf192_byte_combine_bits`, fields.c:263-279; variables: 0 x, 1 bf_out, 3 i -/
def bf192_byte_combine_bits : Fn := ⟨1,
  block [
    .call (some 2) Id.bf192_from_bit [.un (.cast .u8) (.bin (.band .i32) (.var 0) (.lit 1))],
    .asg 1 (.var 2),
    .asg 3 (.lit 1),
    .loop (.bin .lt (.var 3) (.lit 8))
      (block [
        .call (some 4) Id.bf192_mul_bit [.ld 24 (.padd (.glob 8) (.bin (.sub .u32) (.var 3) (.lit 1)) 24), .un (.cast
          .u8) (.bin (.band .i32) (.bin (.shr .i32) (.var 0) (.var 3)) (.lit 1))],
        .call (some 5) Id.bf192_add [.var 1, .var 4],
        .asg 1 (.var 5)])
      (.asg 3 (.bin (.add .u32) (.var 3) (.lit 1))),
    .ret (.var 1)]⟩

/-- `bf192_byte_combine`, fields.c:255-261; variables: 0 x, 1 bf_out, 2 i -/
def bf192_byte_combine : Fn := ⟨1,
  block [
    .asg 1 (.ld 24 (.var 0)),
    .asg 2 (.lit 1),
    .loop (.bin .lt (.var 2) (.lit 8))
      (block [
        .call (some 3) Id.bf192_mul [.ld 24 (.padd (.var 0) (.var 2) 24), .ld 24 (.padd (.glob 8) (.bin (.sub .u32)
          (.var 2) (.lit 1)) 24)],
        .call (some 4) Id.bf192_add [.var 1, .var 3],
        .asg 1 (.var 4)])
      (.asg 2 (.bin (.add .u32) (.var 2) (.lit 1))),
    .ret (.var 1)]⟩

/-- `bf192_dbl`, fields.c:365-371; variables: 0 lhs, 1 lhs, 2 mask -/
def bf192_dbl : Fn := ⟨1,
  block [
    .new 1 (.lit 24),
    .st 24 (.var 1) (.var 0),
    .call (some 3) Id.bf192_bit_to_uint64_mask [.ld 24 (.var 1), .lit 191],
    .asg 2 (.var 3),
    .call (some 4) Id.bf192_shift_left_1 [.ld 24 (.var 1)],
    .st 24 (.var 1) (.var 4),
    .st 8 (.var 1) (.bin (.bxor .u64) (.ld 8 (.var 1)) (.bin (.band .u64) (.var 2) (.lit 135))),
    .ret (.ld 24 (.var 1))]⟩

/-- `bf192_sum_poly`, fields.c:373-379; variables: 0 xs, 1 ret, 2 i -/
def bf192_sum_poly : Fn := ⟨1,
  block [
    .asg 1 (.ld 24 (.padd (.var 0) (.lit 191) 24)),
    .asg 2 (.lit 1),
    .loop (.bin .lt (.var 2) (.lit 192))
      (block [
        .call (some 3) Id.bf192_dbl [.var 1],
        .call (some 4) Id.bf192_add [.var 3, .ld 24 (.padd (.var 0) (.bin (.sub .u64) (.lit 191) (.var 2)) 24)],
        .asg 1 (.var 4)])
      (.asg 2 (.bin (.add .u64) (.var 2) (.lit 1))),
    .ret (.var 1)]⟩

/-- `bf128_mul_bit`, fields.c:208-210; variables: 0 lhs, 1 rhs -/
def bf128_mul_bit : Fn := ⟨2,
  block [
    .call (some 2) Id.bf128_and_64 [.var 0, .un (.neg .u64) (.bin (.band .u64) (.var 1) (.lit 1))],
    .ret (.var 2)]⟩

/-- `bf128_byte_combine_bits`, fields.c:117-133; variables: 0 x, 1 bf_out, 3 i -/
def bf128_byte_combine_bits : Fn := ⟨1,
  block [
    .call (some 2) Id.bf128_from_bit [.un (.cast .u8) (.bin (.band .i32) (.var 0) (.lit 1))],
    .asg 1 (.var 2),
    .asg 3 (.lit 1),
    .loop (.bin .lt (.var 3) (.lit 8))
      (block [
        .call (some 4) Id.bf128_mul_bit [.ld 16 (.padd (.glob 9) (.bin (.sub .u32) (.var 3) (.lit 1)) 16), .un (.cast
          .u8) (.bin (.band .i32) (.bin (.shr .i32) (.var 0) (.var 3)) (.lit 1))],
        .call (some 5) Id.bf128_add [.var 1, .var 4],
        .asg 1 (.var 5)])
      (.asg 3 (.bin (.add .u32) (.var 3) (.lit 1))),
    .ret (.var 1)]⟩

/-- `bf128_byte_combine`, fields.c:109-115; variables: 0 x, 1 bf_out, 2 i -/
def bf128_byte_combine : Fn := ⟨1,
  block [
    .asg 1 (.ld 16 (.var 0)),
    .asg 2 (.lit 1),
    .loop (.bin .lt (.var 2) (.lit 8))
      (block [
        .call (some 3) Id.bf128_mul [.ld 16 (.padd (.var 0) (.var 2) 16), .ld 16 (.padd (.glob 9) (.bin (.sub .u32)
          (.var 2) (.lit 1)) 16)],
        .call (some 4) Id.bf128_add [.var 1, .var 3],
        .asg 1 (.var 4)])
      (.asg 2 (.bin (.add .u32) (.var 2) (.lit 1))),
    .ret (.var 1)]⟩

/-- `bf128_dbl`, fields.c:213-219; variables: 0 lhs, 1 lhs, 2 mask -/
def bf128_dbl : Fn := ⟨1,
  block [
    .new 1 (.lit 16),
    .st 16 (.var 1) (.var 0),
    .call (some 3) Id.bf128_bit_to_uint64_mask [.ld 16 (.var 1), .lit 127],
    .asg 2 (.var 3),
    .call (some 4) Id.bf128_shift_left_1 [.ld 16 (.var 1)],
    .st 16 (.var 1) (.var 4),
    .st 8 (.var 1) (.bin (.bxor .u64) (.ld 8 (.var 1)) (.bin (.band .u64) (.var 2) (.lit 135))),
    .ret (.ld 16 (.var 1))]⟩

/-- `bf128_sum_poly`, fields.c:221-227; variables: 0 xs, 1 ret, 2 i -/
def bf128_sum_poly : Fn := ⟨1,
  block [
    .asg 1 (.ld 16 (.padd (.var 0) (.lit 127) 16)),
    .asg 2 (.lit 1),
    .loop (.bin .lt (.var 2) (.lit 128))
      (block [
        .call (some 3) Id.bf128_dbl [.var 1],
        .call (some 4) Id.bf128_add [.var 3, .ld 16 (.padd (.var 0) (.bin (.sub .u64) (.lit 127) (.var 2)) 16)],
        .asg 1 (.var 4)])
      (.asg 2 (.bin (.add .u64) (.var 2) (.lit 1))),
    .ret (.var 1)]⟩

end Faest.Leak.Prog
