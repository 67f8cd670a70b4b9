/-
Generated by tools/c2leak.py; do not edit.
Functions of fields.c.
-/
import Verif.Model.Leak.IR
import Verif.Model.Leak.Prog.Ids
import Verif.Model.Leak.ProgVec.Ids

namespace Faest.Leak.ProgVec

/-- `bf256_mul`, fields.c:492-509; variables: 0 lhs, 1 rhs, 2 mod, 3 result, 5 idx, 6 mask -/
def bf256_mul : Fn := ⟨2,
  block [
    .new 2 (.lit 32),
    .st 8 (.var 2) (.lit 1061),
    .st 8 (.padd (.var 2) (.lit 1) 8) (.lit 0),
    .st 8 (.padd (.var 2) (.lit 2) 8) (.lit 0),
    .st 8 (.padd (.var 2) (.lit 3) 8) (.lit 0),
    .call (some 4) Prog.Id.bf256_bit_to_uint64_mask [.var 1, .lit 0],
    .asg 3 (.bin (.vec 22) (.var 0) (.bin (.vec 20) (.var 4) (.lit 4))),
    .asg 5 (.lit 1),
    .loop (.bin .ne (.var 5) (.lit 256))
      (block [
        .call (some 7) Prog.Id.bf256_bit_to_uint64_mask [.var 0, .lit 255],
        .asg 6 (.var 7),
        .call (some 8) Prog.Id.bf256_zero [],
        .asg 0 (.bin (.vec 23) (.bin (.vec 24) (.var 0) (.bin (.vec 20) (.lit 1) (.lit 4))) (.bin (.vec 26) (.bin
          (.vec 25) (.var 0) (.bin (.vec 20) (.lit 63) (.lit 4))) (.bin (.vec 0) (.var 8) (.bin (.vec 0) (.lit 4)
          (.bin (.vec 0) (.lit 4) (.bin (.vec 0) (.lit 0) (.bin (.vec 0) (.lit 1) (.lit 2)))))))),
        .asg 0 (.bin (.vec 21) (.var 0) (.bin (.vec 22) (.ld 32 (.var 2)) (.bin (.vec 20) (.var 6) (.lit 4)))),
        .call (some 9) Prog.Id.bf256_bit_to_uint64_mask [.var 1, .var 5],
        .asg 3 (.bin (.vec 21) (.var 3) (.bin (.vec 22) (.var 0) (.bin (.vec 20) (.var 9) (.lit 4))))])
      (.asg 5 (.bin (.add .u32) (.var 5) (.lit 1))),
    .ret (.var 3)]⟩

/-- `bf256_mul_64`, fields.c:511-528; variables: 0 lhs, 1 rhs, 2 mod, 3 result, 4 idx, 5 mask -/
def bf256_mul_64 : Fn := ⟨2,
  block [
    .new 2 (.lit 32),
    .st 8 (.var 2) (.lit 1061),
    .st 8 (.padd (.var 2) (.lit 1) 8) (.lit 0),
    .st 8 (.padd (.var 2) (.lit 2) 8) (.lit 0),
    .st 8 (.padd (.var 2) (.lit 3) 8) (.lit 0),
    .asg 3 (.bin (.vec 22) (.var 0) (.bin (.vec 20) (.un (.neg .u64) (.bin (.band .u64) (.bin (.shr .u64) (.var 1)
      (.lit 0)) (.lit 1))) (.lit 4))),
    .asg 4 (.lit 1),
    .loop (.bin .ne (.var 4) (.lit 64))
      (block [
        .call (some 6) Prog.Id.bf256_bit_to_uint64_mask [.var 0, .lit 255],
        .asg 5 (.var 6),
        .call (some 7) Prog.Id.bf256_zero [],
        .asg 0 (.bin (.vec 23) (.bin (.vec 24) (.var 0) (.bin (.vec 20) (.lit 1) (.lit 4))) (.bin (.vec 26) (.bin
          (.vec 25) (.var 0) (.bin (.vec 20) (.lit 63) (.lit 4))) (.bin (.vec 0) (.var 7) (.bin (.vec 0) (.lit 4)
          (.bin (.vec 0) (.lit 4) (.bin (.vec 0) (.lit 0) (.bin (.vec 0) (.lit 1) (.lit 2)))))))),
        .asg 0 (.bin (.vec 21) (.var 0) (.bin (.vec 22) (.ld 32 (.var 2)) (.bin (.vec 20) (.var 5) (.lit 4)))),
        .asg 3 (.bin (.vec 21) (.var 3) (.bin (.vec 22) (.var 0) (.bin (.vec 20) (.un (.neg .u64) (.bin (.band .u64)
          (.bin (.shr .u64) (.var 1) (.var 4)) (.lit 1))) (.lit 4))))])
      (.asg 4 (.bin (.add .u32) (.var 4) (.lit 1))),
    .ret (.var 3)]⟩

/-- `bf192_bit_to_uint64_mask`, fields.c:328-333; variables: 0 value, 1 bit, 2 value, 3 byte_idx, 4 bit_idx -/
def bf192_bit_to_uint64_mask : Fn := ⟨2,
  block [
    .new 2 (.lit 32),
    .st 32 (.var 2) (.var 0),
    .asg 3 (.div (.div .u32) (.var 1) (.lit 64)),
    .asg 4 (.div (.mod .u32) (.var 1) (.lit 64)),
    .ret (.un (.neg .u64) (.bin (.band .u64) (.bin (.shr .u64) (.ld 8 (.padd (.var 2) (.var 3) 8)) (.var 4)) (.lit
      1)))]⟩

/-- `bf192_shift_left_1`, fields.c:315-325; variables: 0 value, 1 mask -/
def bf192_shift_left_1 : Fn := ⟨1,
  block [
    .new 1 (.lit 32),
    .st 8 (.var 1) (.lit 18446744073709551615),
    .st 8 (.padd (.var 1) (.lit 1) 8) (.lit 18446744073709551615),
    .st 8 (.padd (.var 1) (.lit 2) 8) (.lit 18446744073709551615),
    .st 8 (.padd (.var 1) (.lit 3) 8) (.lit 0),
    .call (some 2) Prog.Id.bf192_zero [],
    .ret (.bin (.vec 22) (.bin (.vec 23) (.bin (.vec 24) (.var 0) (.bin (.vec 20) (.lit 1) (.lit 4))) (.bin (.vec 26)
      (.bin (.vec 25) (.var 0) (.bin (.vec 20) (.lit 63) (.lit 4))) (.bin (.vec 0) (.var 2) (.bin (.vec 0) (.lit 4)
      (.bin (.vec 0) (.lit 4) (.bin (.vec 0) (.lit 0) (.bin (.vec 0) (.lit 1) (.lit 5)))))))) (.ld 32 (.var 1))),
    .ret (.var 0)]⟩

/-- `bf192_mul`, fields.c:335-345; variables: 0 lhs, 1 rhs, 2 lhs, 3 result, 5 idx, 6 mask -/
def bf192_mul : Fn := ⟨2,
  block [
    .new 2 (.lit 32),
    .st 32 (.var 2) (.var 0),
    .call (some 4) Prog.Id.bf192_bit_to_uint64_mask [.var 1, .lit 0],
    .asg 3 (.bin (.vec 22) (.ld 32 (.var 2)) (.bin (.vec 20) (.var 4) (.lit 4))),
    .asg 5 (.lit 1),
    .loop (.bin .ne (.var 5) (.lit 192))
      (block [
        .call (some 7) Prog.Id.bf192_bit_to_uint64_mask [.ld 32 (.var 2), .lit 191],
        .asg 6 (.var 7),
        .call (some 8) Prog.Id.bf192_shift_left_1 [.ld 32 (.var 2)],
        .st 32 (.var 2) (.var 8),
        .st 8 (.var 2) (.bin (.bxor .u64) (.ld 8 (.var 2)) (.bin (.band .u64) (.var 6) (.lit 135))),
        .call (some 9) Prog.Id.bf192_bit_to_uint64_mask [.var 1, .var 5],
        .asg 3 (.bin (.vec 21) (.var 3) (.bin (.vec 22) (.ld 32 (.var 2)) (.bin (.vec 20) (.var 9) (.lit 4))))])
      (.asg 5 (.bin (.add .u32) (.var 5) (.lit 1))),
    .ret (.var 3)]⟩

/-- `bf192_mul_64`, fields.c:347-357; variables: 0 lhs, 1 rhs, 2 lhs, 3 result, 4 idx, 5 mask -/
def bf192_mul_64 : Fn := ⟨2,
  block [
    .new 2 (.lit 32),
    .st 32 (.var 2) (.var 0),
    .asg 3 (.bin (.vec 22) (.ld 32 (.var 2)) (.bin (.vec 20) (.un (.neg .u64) (.bin (.band .u64) (.bin (.shr .u64)
      (.var 1) (.lit 0)) (.lit 1))) (.lit 4))),
    .asg 4 (.lit 1),
    .loop (.bin .ne (.var 4) (.lit 64))
      (block [
        .call (some 6) Prog.Id.bf192_bit_to_uint64_mask [.ld 32 (.var 2), .lit 191],
        .asg 5 (.var 6),
        .call (some 7) Prog.Id.bf192_shift_left_1 [.ld 32 (.var 2)],
        .st 32 (.var 2) (.var 7),
        .st 8 (.var 2) (.bin (.bxor .u64) (.ld 8 (.var 2)) (.bin (.band .u64) (.var 5) (.lit 135))),
        .asg 3 (.bin (.vec 21) (.var 3) (.bin (.vec 22) (.ld 32 (.var 2)) (.bin (.vec 20) (.un (.neg .u64) (.bin
          (.band .u64) (.bin (.shr .u64) (.var 1) (.var 4)) (.lit 1))) (.lit 4))))])
      (.asg 4 (.bin (.add .u32) (.var 4) (.lit 1))),
    .ret (.var 3)]⟩

/-- `bf128_mul`, fields.c:183-193; variables: 0 lhs, 1 rhs, 2 lhs, 3 result, 5 idx, 6 mask -/
def bf128_mul : Fn := ⟨2,
  block [
    .new 2 (.lit 16),
    .st 16 (.var 2) (.var 0),
    .call (some 4) Prog.Id.bf128_bit_to_uint64_mask [.var 1, .lit 0],
    .asg 3 (.bin (.vec 22) (.ld 16 (.var 2)) (.bin (.vec 20) (.var 4) (.lit 2))),
    .asg 5 (.lit 1),
    .loop (.bin .ne (.var 5) (.lit 128))
      (block [
        .call (some 7) Prog.Id.bf128_bit_to_uint64_mask [.ld 16 (.var 2), .lit 127],
        .asg 6 (.var 7),
        .call (some 8) Prog.Id.bf128_zero [],
        .st 16 (.var 2) (.bin (.vec 23) (.bin (.vec 24) (.ld 16 (.var 2)) (.bin (.vec 20) (.lit 1) (.lit 2))) (.bin
          (.vec 26) (.bin (.vec 25) (.ld 16 (.var 2)) (.bin (.vec 20) (.lit 63) (.lit 2))) (.bin (.vec 0) (.var 8)
          (.bin (.vec 0) (.lit 2) (.bin (.vec 0) (.lit 2) (.lit 0)))))),
        .st 8 (.var 2) (.bin (.bxor .u64) (.ld 8 (.var 2)) (.bin (.band .u64) (.var 6) (.lit 135))),
        .call (some 9) Prog.Id.bf128_bit_to_uint64_mask [.var 1, .var 5],
        .asg 3 (.bin (.vec 21) (.var 3) (.bin (.vec 22) (.ld 16 (.var 2)) (.bin (.vec 20) (.var 9) (.lit 2))))])
      (.asg 5 (.bin (.add .u32) (.var 5) (.lit 1))),
    .ret (.var 3)]⟩

/-- `bf128_mul_64`, fields.c:195-205; variables: 0 lhs, 1 rhs, 2 lhs, 3 result, 4 idx, 5 mask -/
def bf128_mul_64 : Fn := ⟨2,
  block [
    .new 2 (.lit 16),
    .st 16 (.var 2) (.var 0),
    .asg 3 (.bin (.vec 22) (.ld 16 (.var 2)) (.bin (.vec 20) (.un (.neg .u64) (.bin (.band .u64) (.bin (.shr .u64)
      (.var 1) (.lit 0)) (.lit 1))) (.lit 2))),
    .asg 4 (.lit 1),
    .loop (.bin .ne (.var 4) (.lit 64))
      (block [
        .call (some 6) Prog.Id.bf128_bit_to_uint64_mask [.ld 16 (.var 2), .lit 127],
        .asg 5 (.var 6),
        .call (some 7) Prog.Id.bf128_zero [],
        .st 16 (.var 2) (.bin (.vec 23) (.bin (.vec 24) (.ld 16 (.var 2)) (.bin (.vec 20) (.lit 1) (.lit 2))) (.bin
          (.vec 26) (.bin (.vec 25) (.ld 16 (.var 2)) (.bin (.vec 20) (.lit 63) (.lit 2))) (.bin (.vec 0) (.var 7)
          (.bin (.vec 0) (.lit 2) (.bin (.vec 0) (.lit 2) (.lit 0)))))),
        .st 8 (.var 2) (.bin (.bxor .u64) (.ld 8 (.var 2)) (.bin (.band .u64) (.var 5) (.lit 135))),
        .asg 3 (.bin (.vec 21) (.var 3) (.bin (.vec 22) (.ld 16 (.var 2)) (.bin (.vec 20) (.un (.neg .u64) (.bin
          (.band .u64) (.bin (.shr .u64) (.var 1) (.var 4)) (.lit 1))) (.lit 2))))])
      (.asg 4 (.bin (.add .u32) (.var 4) (.lit 1))),
    .ret (.var 3)]⟩

/-- `bf256_byte_combine_bits`, fields.c:422-438; variables: 0 x -/
def bf256_byte_combine_bits : Fn := ⟨1,
  block [
    .call (some 1) Prog.Id.bf256_from_bit [.un (.cast .u8) (.bin (.band .i32) (.var 0) (.lit 1))],
    .ret (.bin (.vec 21) (.bin (.vec 21) (.bin (.vec 21) (.bin (.vec 21) (.bin (.vec 21) (.bin (.vec 21) (.bin (.vec
      21) (.var 1) (.bin (.vec 22) (.ld 32 (.glob 7)) (.bin (.vec 20) (.un (.neg .u64) (.bin (.band .u64) (.un (.cast
      .u64) (.bin (.band .i32) (.bin (.shr .i32) (.var 0) (.lit 1)) (.lit 1))) (.lit 1))) (.lit 4)))) (.bin (.vec 22)
      (.ld 32 (.padd (.glob 7) (.lit 1) 32)) (.bin (.vec 20) (.un (.neg .u64) (.bin (.band .u64) (.un (.cast .u64)
      (.bin (.band .i32) (.bin (.shr .i32) (.var 0) (.lit 2)) (.lit 1))) (.lit 1))) (.lit 4)))) (.bin (.vec 22) (.ld
      32 (.padd (.glob 7) (.lit 2) 32)) (.bin (.vec 20) (.un (.neg .u64) (.bin (.band .u64) (.un (.cast .u64) (.bin
      (.band .i32) (.bin (.shr .i32) (.var 0) (.lit 3)) (.lit 1))) (.lit 1))) (.lit 4)))) (.bin (.vec 22) (.ld 32
      (.padd (.glob 7) (.lit 3) 32)) (.bin (.vec 20) (.un (.neg .u64) (.bin (.band .u64) (.un (.cast .u64) (.bin
      (.band .i32) (.bin (.shr .i32) (.var 0) (.lit 4)) (.lit 1))) (.lit 1))) (.lit 4)))) (.bin (.vec 22) (.ld 32
      (.padd (.glob 7) (.lit 4) 32)) (.bin (.vec 20) (.un (.neg .u64) (.bin (.band .u64) (.un (.cast .u64) (.bin
      (.band .i32) (.bin (.shr .i32) (.var 0) (.lit 5)) (.lit 1))) (.lit 1))) (.lit 4)))) (.bin (.vec 22) (.ld 32
      (.padd (.glob 7) (.lit 5) 32)) (.bin (.vec 20) (.un (.neg .u64) (.bin (.band .u64) (.un (.cast .u64) (.bin
      (.band .i32) (.bin (.shr .i32) (.var 0) (.lit 6)) (.lit 1))) (.lit 1))) (.lit 4)))) (.bin (.vec 22) (.ld 32
      (.padd (.glob 7) (.lit 6) 32)) (.bin (.vec 20) (.un (.neg .u64) (.bin (.band .u64) (.un (.cast .u64) (.bin
      (.band .i32) (.bin (.shr .i32) (.var 0) (.lit 7)) (.lit 1))) (.lit 1))) (.lit 4))))]⟩

/-- `bf256_byte_combine`, fields.c:414-420; variables: 0 x, 1 bf_out, 2 i -/
def bf256_byte_combine : Fn := ⟨1,
  block [
    .asg 1 (.ld 32 (.var 0)),
    .asg 2 (.lit 1),
    .loop (.bin .lt (.var 2) (.lit 8))
      (block [
        .call (some 3) Prog.Id.bf256_mul [.ld 32 (.padd (.var 0) (.var 2) 32), .ld 32 (.padd (.glob 7) (.bin (.sub
          .u32) (.var 2) (.lit 1)) 32)],
        .asg 1 (.bin (.vec 21) (.var 1) (.var 3))])
      (.asg 2 (.bin (.add .u32) (.var 2) (.lit 1))),
    .ret (.var 1)]⟩

/-- `bf256_dbl`, fields.c:536-546; variables: 0 lhs, 1 mask, 4 mod -/
def bf256_dbl : Fn := ⟨1,
  block [
    .call (some 2) Prog.Id.bf256_bit_to_uint64_mask [.var 0, .lit 255],
    .asg 1 (.var 2),
    .call (some 3) Prog.Id.bf256_zero [],
    .asg 0 (.bin (.vec 23) (.bin (.vec 24) (.var 0) (.bin (.vec 20) (.lit 1) (.lit 4))) (.bin (.vec 26) (.bin (.vec
      25) (.var 0) (.bin (.vec 20) (.lit 63) (.lit 4))) (.bin (.vec 0) (.var 3) (.bin (.vec 0) (.lit 4) (.bin (.vec
      0) (.lit 4) (.bin (.vec 0) (.lit 0) (.bin (.vec 0) (.lit 1) (.lit 2)))))))),
    .new 4 (.lit 32),
    .st 8 (.var 4) (.lit 1061),
    .st 8 (.padd (.var 4) (.lit 1) 8) (.lit 0),
    .st 8 (.padd (.var 4) (.lit 2) 8) (.lit 0),
    .st 8 (.padd (.var 4) (.lit 3) 8) (.lit 0),
    .ret (.bin (.vec 21) (.var 0) (.bin (.vec 22) (.ld 32 (.var 4)) (.bin (.vec 20) (.var 1) (.lit 4))))]⟩

/-- `bf256_sum_poly`, fields.c:548-554; variables: 0 xs, 1 ret, 2 i -/
def bf256_sum_poly : Fn := ⟨1,
  block [
    .asg 1 (.ld 32 (.padd (.var 0) (.lit 255) 32)),
    .asg 2 (.lit 1),
    .loop (.bin .lt (.var 2) (.lit 256))
      (block [
        .call (some 3) Prog.Id.bf256_dbl [.var 1],
        .asg 1 (.bin (.vec 21) (.var 3) (.ld 32 (.padd (.var 0) (.bin (.sub .u64) (.lit 255) (.var 2)) 32)))])
      (.asg 2 (.bin (.add .u64) (.var 2) (.lit 1))),
    .ret (.var 1)]⟩

/-- `bf192_byte_combine_bits`, fields.c:263-279; variables: 0 x -/
def bf192_byte_combine_bits : Fn := ⟨1,
  block [
    .call (some 1) Prog.Id.bf192_from_bit [.un (.cast .u8) (.bin (.band .i32) (.var 0) (.lit 1))],
    .ret (.bin (.vec 21) (.bin (.vec 21) (.bin (.vec 21) (.bin (.vec 21) (.bin (.vec 21) (.bin (.vec 21) (.bin (.vec
      21) (.var 1) (.bin (.vec 22) (.ld 32 (.glob 8)) (.bin (.vec 20) (.un (.neg .u64) (.bin (.band .u64) (.un (.cast
      .u64) (.bin (.band .i32) (.bin (.shr .i32) (.var 0) (.lit 1)) (.lit 1))) (.lit 1))) (.lit 4)))) (.bin (.vec 22)
      (.ld 32 (.padd (.glob 8) (.lit 1) 32)) (.bin (.vec 20) (.un (.neg .u64) (.bin (.band .u64) (.un (.cast .u64)
      (.bin (.band .i32) (.bin (.shr .i32) (.var 0) (.lit 2)) (.lit 1))) (.lit 1))) (.lit 4)))) (.bin (.vec 22) (.ld
      32 (.padd (.glob 8) (.lit 2) 32)) (.bin (.vec 20) (.un (.neg .u64) (.bin (.band .u64) (.un (.cast .u64) (.bin
      (.band .i32) (.bin (.shr .i32) (.var 0) (.lit 3)) (.lit 1))) (.lit 1))) (.lit 4)))) (.bin (.vec 22) (.ld 32
      (.padd (.glob 8) (.lit 3) 32)) (.bin (.vec 20) (.un (.neg .u64) (.bin (.band .u64) (.un (.cast .u64) (.bin
      (.band .i32) (.bin (.shr .i32) (.var 0) (.lit 4)) (.lit 1))) (.lit 1))) (.lit 4)))) (.bin (.vec 22) (.ld 32
      (.padd (.glob 8) (.lit 4) 32)) (.bin (.vec 20) (.un (.neg .u64) (.bin (.band .u64) (.un (.cast .u64) (.bin
      (.band .i32) (.bin (.shr .i32) (.var 0) (.lit 5)) (.lit 1))) (.lit 1))) (.lit 4)))) (.bin (.vec 22) (.ld 32
      (.padd (.glob 8) (.lit 5) 32)) (.bin (.vec 20) (.un (.neg .u64) (.bin (.band .u64) (.un (.cast .u64) (.bin
      (.band .i32) (.bin (.shr .i32) (.var 0) (.lit 6)) (.lit 1))) (.lit 1))) (.lit 4)))) (.bin (.vec 22) (.ld 32
      (.padd (.glob 8) (.lit 6) 32)) (.bin (.vec 20) (.un (.neg .u64) (.bin (.band .u64) (.un (.cast .u64) (.bin
      (.band .i32) (.bin (.shr .i32) (.var 0) (.lit 7)) (.lit 1))) (.lit 1))) (.lit 4))))]⟩

/-- `bf192_byte_combine`, fields.c:255-261; variables: 0 x, 1 bf_out, 2 i -/
def bf192_byte_combine : Fn := ⟨1,
  block [
    .asg 1 (.ld 32 (.var 0)),
    .asg 2 (.lit 1),
    .loop (.bin .lt (.var 2) (.lit 8))
      (block [
        .call (some 3) Prog.Id.bf192_mul [.ld 32 (.padd (.var 0) (.var 2) 32), .ld 32 (.padd (.glob 8) (.bin (.sub
          .u32) (.var 2) (.lit 1)) 32)],
        .asg 1 (.bin (.vec 21) (.var 1) (.var 3))])
      (.asg 2 (.bin (.add .u32) (.var 2) (.lit 1))),
    .ret (.var 1)]⟩

/-- `bf192_dbl`, fields.c:365-371; variables: 0 lhs, 1 lhs, 2 mask -/
def bf192_dbl : Fn := ⟨1,
  block [
    .new 1 (.lit 32),
    .st 32 (.var 1) (.var 0),
    .call (some 3) Prog.Id.bf192_bit_to_uint64_mask [.ld 32 (.var 1), .lit 191],
    .asg 2 (.var 3),
    .call (some 4) Prog.Id.bf192_shift_left_1 [.ld 32 (.var 1)],
    .st 32 (.var 1) (.var 4),
    .st 8 (.var 1) (.bin (.bxor .u64) (.ld 8 (.var 1)) (.bin (.band .u64) (.var 2) (.lit 135))),
    .ret (.ld 32 (.var 1))]⟩

/-- `bf192_sum_poly`, fields.c:373-379; variables: 0 xs, 1 ret, 2 i -/
def bf192_sum_poly : Fn := ⟨1,
  block [
    .asg 1 (.ld 32 (.padd (.var 0) (.lit 191) 32)),
    .asg 2 (.lit 1),
    .loop (.bin .lt (.var 2) (.lit 192))
      (block [
        .call (some 3) Prog.Id.bf192_dbl [.var 1],
        .asg 1 (.bin (.vec 21) (.var 3) (.ld 32 (.padd (.var 0) (.bin (.sub .u64) (.lit 191) (.var 2)) 32)))])
      (.asg 2 (.bin (.add .u64) (.var 2) (.lit 1))),
    .ret (.var 1)]⟩

/-- `bf128_byte_combine_bits`, fields.c:117-133; variables: 0 x -/
def bf128_byte_combine_bits : Fn := ⟨1,
  block [
    .call (some 1) Prog.Id.bf128_from_bit [.un (.cast .u8) (.bin (.band .i32) (.var 0) (.lit 1))],
    .ret (.bin (.vec 21) (.bin (.vec 21) (.bin (.vec 21) (.bin (.vec 21) (.bin (.vec 21) (.bin (.vec 21) (.bin (.vec
      21) (.var 1) (.bin (.vec 22) (.ld 16 (.glob 9)) (.bin (.vec 20) (.un (.neg .u64) (.bin (.band .u64) (.un (.cast
      .u64) (.bin (.band .i32) (.bin (.shr .i32) (.var 0) (.lit 1)) (.lit 1))) (.lit 1))) (.lit 2)))) (.bin (.vec 22)
      (.ld 16 (.padd (.glob 9) (.lit 1) 16)) (.bin (.vec 20) (.un (.neg .u64) (.bin (.band .u64) (.un (.cast .u64)
      (.bin (.band .i32) (.bin (.shr .i32) (.var 0) (.lit 2)) (.lit 1))) (.lit 1))) (.lit 2)))) (.bin (.vec 22) (.ld
      16 (.padd (.glob 9) (.lit 2) 16)) (.bin (.vec 20) (.un (.neg .u64) (.bin (.band .u64) (.un (.cast .u64) (.bin
      (.band .i32) (.bin (.shr .i32) (.var 0) (.lit 3)) (.lit 1))) (.lit 1))) (.lit 2)))) (.bin (.vec 22) (.ld 16
      (.padd (.glob 9) (.lit 3) 16)) (.bin (.vec 20) (.un (.neg .u64) (.bin (.band .u64) (.un (.cast .u64) (.bin
      (.band .i32) (.bin (.shr .i32) (.var 0) (.lit 4)) (.lit 1))) (.lit 1))) (.lit 2)))) (.bin (.vec 22) (.ld 16
      (.padd (.glob 9) (.lit 4) 16)) (.bin (.vec 20) (.un (.neg .u64) (.bin (.band .u64) (.un (.cast .u64) (.bin
      (.band .i32) (.bin (.shr .i32) (.var 0) (.lit 5)) (.lit 1))) (.lit 1))) (.lit 2)))) (.bin (.vec 22) (.ld 16
      (.padd (.glob 9) (.lit 5) 16)) (.bin (.vec 20) (.un (.neg .u64) (.bin (.band .u64) (.un (.cast .u64) (.bin
      (.band .i32) (.bin (.shr .i32) (.var 0) (.lit 6)) (.lit 1))) (.lit 1))) (.lit 2)))) (.bin (.vec 22) (.ld 16
      (.padd (.glob 9) (.lit 6) 16)) (.bin (.vec 20) (.un (.neg .u64) (.bin (.band .u64) (.un (.cast .u64) (.bin
      (.band .i32) (.bin (.shr .i32) (.var 0) (.lit 7)) (.lit 1))) (.lit 1))) (.lit 2))))]⟩

/-- `bf128_byte_combine`, fields.c:109-115; variables: 0 x, 1 bf_out, 2 i -/
def bf128_byte_combine : Fn := ⟨1,
  block [
    .asg 1 (.ld 16 (.var 0)),
    .asg 2 (.lit 1),
    .loop (.bin .lt (.var 2) (.lit 8))
      (block [
        .call (some 3) Prog.Id.bf128_mul [.ld 16 (.padd (.var 0) (.var 2) 16), .ld 16 (.padd (.glob 9) (.bin (.sub
          .u32) (.var 2) (.lit 1)) 16)],
        .asg 1 (.bin (.vec 21) (.var 1) (.var 3))])
      (.asg 2 (.bin (.add .u32) (.var 2) (.lit 1))),
    .ret (.var 1)]⟩

/-- `bf128_dbl`, fields.c:213-219; variables: 0 lhs, 1 lhs, 2 mask -/
def bf128_dbl : Fn := ⟨1,
  block [
    .new 1 (.lit 16),
    .st 16 (.var 1) (.var 0),
    .call (some 3) Prog.Id.bf128_bit_to_uint64_mask [.ld 16 (.var 1), .lit 127],
    .asg 2 (.var 3),
    .call (some 4) Prog.Id.bf128_zero [],
    .st 16 (.var 1) (.bin (.vec 23) (.bin (.vec 24) (.ld 16 (.var 1)) (.bin (.vec 20) (.lit 1) (.lit 2))) (.bin (.vec
      26) (.bin (.vec 25) (.ld 16 (.var 1)) (.bin (.vec 20) (.lit 63) (.lit 2))) (.bin (.vec 0) (.var 4) (.bin (.vec
      0) (.lit 2) (.bin (.vec 0) (.lit 2) (.lit 0)))))),
    .st 8 (.var 1) (.bin (.bxor .u64) (.ld 8 (.var 1)) (.bin (.band .u64) (.var 2) (.lit 135))),
    .ret (.ld 16 (.var 1))]⟩

/-- `bf128_sum_poly`, fields.c:221-227; variables: 0 xs, 1 ret, 2 i -/
def bf128_sum_poly : Fn := ⟨1,
  block [
    .asg 1 (.ld 16 (.padd (.var 0) (.lit 127) 16)),
    .asg 2 (.lit 1),
    .loop (.bin .lt (.var 2) (.lit 128))
      (block [
        .call (some 3) Prog.Id.bf128_dbl [.var 1],
        .asg 1 (.bin (.vec 21) (.var 3) (.ld 16 (.padd (.var 0) (.bin (.sub .u64) (.lit 127) (.var 2)) 16)))])
      (.asg 2 (.bin (.add .u64) (.var 2) (.lit 1))),
    .ret (.var 1)]⟩

end Faest.Leak.ProgVec
