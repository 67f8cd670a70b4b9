/-
Generated by tools/c2leak.py; do not edit.
Functions of faest_aes.c.
-/
import Verif.Model.Leak.IR
import Verif.Model.Leak.Prog.Ids
import Verif.Model.Leak.ProgVec.Ids

namespace Faest.Leak.ProgVec

/-- `aes_key_schedule_forward_256`, faest_aes.c:1167-1186; variables: 0 v, 1 bf_out, 3 i_wd, 4 j, 7 i -/
def aes_key_schedule_forward_256 : Fn := ⟨2,
  block [
    .call (some 2) Prog.Id.memcpy [.var 1, .var 0, .lit 8192],
    .asg 3 (.lit 256),
    .asg 4 (.lit 8),
    .loop (.bin .lt (.var 4) (.lit 60))
      (block [
        .ite (.bin .eq (.div (.mod .u32) (.var 4) (.lit 8)) (.lit 0))
          (.asg 5 (.lit 1))
          (.asg 5 (.bin .ne (.bin .ne (.bin .eq (.div (.mod .u32) (.var 4) (.lit 8)) (.lit 4)) (.lit 0)) (.lit 0))),
        .ite (.var 5)
          (block [
            .call (some 6) Prog.Id.memcpy [.padd (.var 1) (.bin (.mul .u32) (.var 4) (.lit 32)) 32, .padd (.var 0)
              (.var 3) 32, .lit 1024],
            .asg 3 (.bin (.add .u32) (.var 3) (.lit 32))])
          (block [
            .asg 7 (.lit 0),
            .loop (.bin .lt (.var 7) (.lit 32))
              (.st 32 (.padd (.var 1) (.bin (.add .u32) (.bin (.mul .u32) (.lit 32) (.var 4)) (.var 7)) 32) (.bin
                (.vec 21) (.ld 32 (.padd (.var 1) (.bin (.add .u32) (.bin (.mul .u32) (.lit 32) (.bin (.sub .u32)
                (.var 4) (.lit 8))) (.var 7)) 32)) (.ld 32 (.padd (.var 1) (.bin (.add .u32) (.bin (.mul .u32) (.lit
                32) (.bin (.sub .u32) (.var 4) (.lit 1))) (.var 7)) 32))))
              (.asg 7 (.bin (.add .u32) (.var 7) (.lit 1)))])])
      (.asg 4 (.bin (.add .u32) (.var 4) (.lit 1)))]⟩

/-- `aes_key_schedule_backward_256`, faest_aes.c:1188-1241; variables: 0 v, 1 Vk, 2 Mtag, 3 Mkey, 4 delta, 5 bf_out,
  9 iwd, 10 c, 11 rmvRcon, 12 ircon, 13 bf_delta, 17 bf_minus_mkey, 19 minus_mtag, 20 bf_mkey_times_delta, 21 j, 22
  bf_x_tilde, 23 i, 26 r, 27 bf_r, 28 i, 29 i -/
def aes_key_schedule_backward_256 : Fn := ⟨6,
  block [
    .ite (.bin .eq (.var 2) (.lit 1))
      (.asg 6 (.bin .ne (.bin .eq (.var 3) (.lit 1)) (.lit 0)))
      (.asg 6 (.lit 0)),
    .ite (.var 6)
      (.asg 7 (.lit 1))
      (block [
        .ite (.bin .eq (.var 3) (.lit 1))
          (.asg 8 (.bin .ne (.bin .eq (.var 4) (.lit 0)) (.lit 0)))
          (.asg 8 (.lit 0)),
        .asg 7 (.bin .ne (.var 8) (.lit 0))]),
    .ite (.un .lnot (.var 7))
      (.skip)
      (.skip),
    .asg 9 (.lit 0),
    .asg 10 (.lit 0),
    .asg 11 (.lit 1),
    .asg 12 (.lit 0),
    .ite (.var 4)
      (block [
        .call (some 15) Prog.Id.bf256_load [.var 4],
        .asg 14 (.var 15)])
      (block [
        .call (some 16) Prog.Id.bf256_zero [],
        .asg 14 (.var 16)]),
    .asg 13 (.var 14),
    .call (some 18) Prog.Id.bf256_from_bit [.un (.cast .u8) (.bin (.bxor .i32) (.lit 1) (.var 3))],
    .asg 17 (.var 18),
    .asg 19 (.un (.cast .u8) (.bin (.bxor .i32) (.lit 1) (.var 2))),
    .asg 20 (.bin (.vec 22) (.var 13) (.bin (.vec 20) (.un (.neg .u64) (.bin (.band .u64) (.var 3) (.lit 1))) (.lit
      4))),
    .asg 20 (.bin (.vec 21) (.var 20) (.var 17)),
    .asg 21 (.lit 0),
    .loop (.bin .lt (.var 21) (.lit 52))
      (block [
        .new 22 (.lit 256),
        .asg 23 (.lit 0),
        .loop (.bin .lt (.var 23) (.lit 8))
          (.st 32 (.padd (.var 22) (.var 23) 32) (.bin (.vec 21) (.ld 32 (.padd (.var 0) (.bin (.add .u32) (.bin
            (.mul .u32) (.lit 8) (.var 21)) (.var 23)) 32)) (.ld 32 (.padd (.var 1) (.bin (.add .u32) (.bin (.add
            .u32) (.var 9) (.bin (.mul .u32) (.lit 8) (.var 10))) (.var 23)) 32))))
          (.asg 23 (.bin (.add .u32) (.var 23) (.lit 1))),
        .ite (.bin .eq (.var 2) (.lit 0))
          (.asg 24 (.bin .ne (.bin .eq (.var 11) (.lit 1)) (.lit 0)))
          (.asg 24 (.lit 0)),
        .ite (.var 24)
          (.asg 25 (.bin .ne (.bin .eq (.var 10) (.lit 0)) (.lit 0)))
          (.asg 25 (.lit 0)),
        .ite (.var 25)
          (block [
            .asg 26 (.ld 1 (.padd (.glob 6) (.var 12) 1)),
            .asg 12 (.bin (.add .u32) (.var 12) (.lit 1)),
            .new 27 (.lit 256),
            .asg 28 (.lit 0),
            .loop (.bin .lt (.var 28) (.lit 8))
              (block [
                .st 32 (.padd (.var 27) (.var 28) 32) (.bin (.vec 22) (.var 20) (.bin (.vec 20) (.un (.neg .u64)
                  (.bin (.band .u64) (.un (.cast .u64) (.bin (.band .i32) (.bin (.shr .i32) (.var 26) (.var 28))
                  (.lit 1))) (.lit 1))) (.lit 4))),
                .st 32 (.padd (.var 22) (.var 28) 32) (.bin (.vec 21) (.ld 32 (.padd (.var 22) (.var 28) 32)) (.ld 32
                  (.padd (.var 27) (.var 28) 32)))])
              (.asg 28 (.bin (.add .u32) (.var 28) (.lit 1)))])
          (.skip),
        .asg 29 (.lit 0),
        .loop (.bin .lt (.var 29) (.lit 8))
          (.st 32 (.padd (.var 5) (.bin (.add .u32) (.var 29) (.bin (.mul .u32) (.lit 8) (.var 21))) 32) (.bin (.vec
            21) (.bin (.vec 21) (.ld 32 (.padd (.var 22) (.div (.mod .u32) (.bin (.add .u32) (.var 29) (.lit 7))
            (.lit 8)) 32)) (.ld 32 (.padd (.var 22) (.div (.mod .u32) (.bin (.add .u32) (.var 29) (.lit 5)) (.lit 8))
            32))) (.ld 32 (.padd (.var 22) (.div (.mod .u32) (.bin (.add .u32) (.var 29) (.lit 2)) (.lit 8)) 32))))
          (.asg 29 (.bin (.add .u32) (.var 29) (.lit 1))),
        .st 32 (.padd (.var 5) (.bin (.add .u32) (.lit 0) (.bin (.mul .u32) (.lit 8) (.var 21))) 32) (.bin (.vec 21)
          (.ld 32 (.padd (.var 5) (.bin (.add .u32) (.lit 0) (.bin (.mul .u32) (.lit 8) (.var 21))) 32)) (.bin (.vec
          22) (.var 20) (.bin (.vec 20) (.un (.neg .u64) (.bin (.band .u64) (.var 19) (.lit 1))) (.lit 4)))),
        .st 32 (.padd (.var 5) (.bin (.add .u32) (.lit 2) (.bin (.mul .u32) (.lit 8) (.var 21))) 32) (.bin (.vec 21)
          (.ld 32 (.padd (.var 5) (.bin (.add .u32) (.lit 2) (.bin (.mul .u32) (.lit 8) (.var 21))) 32)) (.bin (.vec
          22) (.var 20) (.bin (.vec 20) (.un (.neg .u64) (.bin (.band .u64) (.var 19) (.lit 1))) (.lit 4)))),
        .asg 10 (.bin (.add .u32) (.var 10) (.lit 1)),
        .ite (.bin .eq (.var 10) (.lit 4))
          (block [
            .asg 10 (.lit 0),
            .asg 9 (.bin (.add .u32) (.var 9) (.lit 128)),
            .asg 11 (.un (.cast .bool) (.un .lnot (.var 11)))])
          (.skip)])
      (.asg 21 (.bin (.add .u32) (.var 21) (.lit 1)))]⟩

/-- `aes_key_schedule_constraints_Mkey_0_256`, faest_aes.c:1243-1299; variables: 0 w, 1 v, 2 a0_ctx, 3 a1_ctx, 4 k, 5
  vk, 6 params, 7 w_dash, 8 v_w_dash, 9 rotate_word, 10 iwd, 11 j, 12 bf_k_hat, 13 bf_v_k_hat, 14 bf_w_dash_hat, 15
  bf_v_w_dash_hat, 16 r, 25 r, 26 tmp -/
def aes_key_schedule_constraints_Mkey_0_256 : Fn := ⟨7,
  block [
    .ite (.bin .eq (.lit 52) (.ld 2 (.padd (.var 6) (.lit 4) 1)))
      (.skip)
      (.skip),
    .call none Prog.Id.aes_key_schedule_forward_1 [.var 0, .var 4, .var 6],
    .call none Prog.Id.aes_key_schedule_forward_256 [.var 1, .var 5],
    .new 7 (.lit 52),
    .call none Prog.Id.aes_key_schedule_backward_1 [.padd (.var 0) (.lit 32) 1, .var 4, .var 7, .var 6],
    .new 8 (.lit 13312),
    .call none Prog.Id.aes_key_schedule_backward_256 [.padd (.var 1) (.lit 256) 32, .var 5, .lit 1, .lit 0, .lit 0,
      .var 8],
    .asg 9 (.lit 1),
    .asg 10 (.lit 224),
    .asg 11 (.lit 0),
    .loop (.bin .lt (.var 11) (.lit 13))
      (block [
        .new 12 (.lit 128),
        .new 13 (.lit 128),
        .new 14 (.lit 128),
        .new 15 (.lit 128),
        .asg 16 (.lit 0),
        .loop (.bin .le (.var 16) (.lit 3))
          (.ite (.var 9)
              (block [
                .call (some 17) Prog.Id.bf256_byte_combine_bits [.ld 1 (.padd (.var 4) (.div (.div .u32) (.bin (.add
                  .u32) (.var 10) (.bin (.mul .u32) (.lit 8) (.var 16))) (.lit 8)) 1)],
                .st 32 (.padd (.var 12) (.div (.mod .u32) (.bin (.add .u32) (.var 16) (.lit 3)) (.lit 4)) 32) (.var
                  17),
                .call (some 18) Prog.Id.bf256_byte_combine [.padd (.var 5) (.bin (.add .u32) (.var 10) (.bin (.mul
                  .u32) (.lit 8) (.var 16))) 32],
                .st 32 (.padd (.var 13) (.div (.mod .u32) (.bin (.add .u32) (.var 16) (.lit 3)) (.lit 4)) 32) (.var
                  18),
                .call (some 19) Prog.Id.bf256_byte_combine_bits [.ld 1 (.padd (.var 7) (.div (.div .u32) (.bin (.add
                  .u32) (.bin (.mul .u32) (.lit 32) (.var 11)) (.bin (.mul .u32) (.lit 8) (.var 16))) (.lit 8)) 1)],
                .st 32 (.padd (.var 14) (.var 16) 32) (.var 19),
                .call (some 20) Prog.Id.bf256_byte_combine [.padd (.var 8) (.bin (.add .u32) (.bin (.mul .u32) (.lit
                  32) (.var 11)) (.bin (.mul .u32) (.lit 8) (.var 16))) 32],
                .st 32 (.padd (.var 15) (.var 16) 32) (.var 20)])
              (block [
                .call (some 21) Prog.Id.bf256_byte_combine_bits [.ld 1 (.padd (.var 4) (.div (.div .u32) (.bin (.add
                  .u32) (.var 10) (.bin (.mul .u32) (.lit 8) (.var 16))) (.lit 8)) 1)],
                .st 32 (.padd (.var 12) (.var 16) 32) (.var 21),
                .call (some 22) Prog.Id.bf256_byte_combine [.padd (.var 5) (.bin (.add .u32) (.var 10) (.bin (.mul
                  .u32) (.lit 8) (.var 16))) 32],
                .st 32 (.padd (.var 13) (.var 16) 32) (.var 22),
                .call (some 23) Prog.Id.bf256_byte_combine_bits [.ld 1 (.padd (.var 7) (.div (.div .u32) (.bin (.add
                  .u32) (.bin (.mul .u32) (.lit 32) (.var 11)) (.bin (.mul .u32) (.lit 8) (.var 16))) (.lit 8)) 1)],
                .st 32 (.padd (.var 14) (.var 16) 32) (.var 23),
                .call (some 24) Prog.Id.bf256_byte_combine [.padd (.var 8) (.bin (.add .u32) (.bin (.mul .u32) (.lit
                  32) (.var 11)) (.bin (.mul .u32) (.lit 8) (.var 16))) 32],
                .st 32 (.padd (.var 15) (.var 16) 32) (.var 24)]))
          (.asg 16 (.bin (.add .u32) (.var 16) (.lit 1))),
        .asg 25 (.lit 0),
        .loop (.bin .le (.var 25) (.lit 3))
          (block [
            .call (some 27) Prog.Id.bf256_mul [.ld 32 (.padd (.var 13) (.var 25) 32), .ld 32 (.padd (.var 15) (.var
              25) 32)],
            .asg 26 (.var 27),
            .call none Prog.Id.zk_hash_256_update [.var 2, .var 26],
            .call (some 28) Prog.Id.bf256_mul [.bin (.vec 21) (.ld 32 (.padd (.var 12) (.var 25) 32)) (.ld 32 (.padd
              (.var 13) (.var 25) 32)), .bin (.vec 21) (.ld 32 (.padd (.var 14) (.var 25) 32)) (.ld 32 (.padd (.var
              15) (.var 25) 32))],
            .call (some 29) Prog.Id.bf256_one [],
            .call none Prog.Id.zk_hash_256_update [.var 3, .bin (.vec 21) (.bin (.vec 21) (.var 28) (.var 29)) (.var
              26)]])
          (.asg 25 (.bin (.add .u32) (.var 25) (.lit 1))),
        .asg 10 (.bin (.add .u32) (.var 10) (.lit 128)),
        .asg 9 (.un (.cast .bool) (.un .lnot (.var 9)))])
      (.asg 11 (.bin (.add .u32) (.var 11) (.lit 1)))]⟩

/-- `aes_enc_forward_256_1`, faest_aes.c:1337-1389; variables: 0 x, 1 xk, 2 in, 3 Mtag, 4 Mkey, 5 bf_y, 6 i, 7 xin,
  10 bf_two, 12 bf_three, 14 j, 15 c, 16 ix, 17 ik, 18 iy, 19 bf_x_hat, 20 bf_xk_hat, 21 r -/
def aes_enc_forward_256_1 : Fn := ⟨6,
  block [
    .asg 6 (.lit 0),
    .loop (.bin .lt (.var 6) (.lit 16))
      (block [
        .asg 7 (.un (.cast .u8) (.bin (.band .i32) (.ld 1 (.padd (.var 2) (.var 6) 1)) (.un (.neg .i32) (.bin (.band
          .i32) (.bin (.bxor .i32) (.lit 1) (.var 3)) (.bin (.bxor .i32) (.lit 1) (.var 4)))))),
        .call (some 8) Prog.Id.bf256_byte_combine_bits [.var 7],
        .call (some 9) Prog.Id.bf256_byte_combine_bits [.ld 1 (.padd (.var 1) (.var 6) 1)],
        .st 32 (.padd (.var 5) (.var 6) 32) (.bin (.vec 21) (.var 8) (.var 9))])
      (.asg 6 (.bin (.add .u32) (.var 6) (.lit 1))),
    .call (some 11) Prog.Id.bf256_byte_combine_bits [.lit 2],
    .asg 10 (.var 11),
    .call (some 13) Prog.Id.bf256_byte_combine_bits [.lit 3],
    .asg 12 (.var 13),
    .asg 14 (.lit 1),
    .loop (.bin .lt (.var 14) (.lit 14))
      (block [
        .asg 15 (.lit 0),
        .loop (.bin .le (.var 15) (.lit 3))
          (block [
            .asg 16 (.bin (.add .u32) (.bin (.mul .u32) (.lit 128) (.bin (.sub .u32) (.var 14) (.lit 1))) (.bin (.mul
              .u32) (.lit 32) (.var 15))),
            .asg 17 (.bin (.add .u32) (.bin (.mul .u32) (.lit 128) (.var 14)) (.bin (.mul .u32) (.lit 32) (.var 15))),
            .asg 18 (.bin (.add .u32) (.bin (.mul .u32) (.lit 16) (.var 14)) (.bin (.mul .u32) (.lit 4) (.var 15))),
            .new 19 (.lit 128),
            .new 20 (.lit 128),
            .asg 21 (.lit 0),
            .loop (.bin .le (.var 21) (.lit 3))
              (block [
                .call (some 22) Prog.Id.bf256_byte_combine_bits [.ld 1 (.padd (.var 0) (.div (.div .u32) (.bin (.add
                  .u32) (.var 16) (.bin (.mul .u32) (.lit 8) (.var 21))) (.lit 8)) 1)],
                .st 32 (.padd (.var 19) (.var 21) 32) (.var 22),
                .call (some 23) Prog.Id.bf256_byte_combine_bits [.ld 1 (.padd (.var 1) (.div (.div .u32) (.bin (.add
                  .u32) (.var 17) (.bin (.mul .u32) (.lit 8) (.var 21))) (.lit 8)) 1)],
                .st 32 (.padd (.var 20) (.var 21) 32) (.var 23)])
              (.asg 21 (.bin (.add .u32) (.var 21) (.lit 1))),
            .call (some 24) Prog.Id.bf256_mul [.ld 32 (.var 19), .var 10],
            .st 32 (.padd (.var 5) (.bin (.add .u32) (.var 18) (.lit 0)) 32) (.bin (.vec 21) (.ld 32 (.var 20)) (.var
              24)),
            .call (some 25) Prog.Id.bf256_mul [.ld 32 (.padd (.var 19) (.lit 1) 32), .var 12],
            .st 32 (.padd (.var 5) (.bin (.add .u32) (.var 18) (.lit 0)) 32) (.bin (.vec 21) (.ld 32 (.padd (.var 5)
              (.bin (.add .u32) (.var 18) (.lit 0)) 32)) (.var 25)),
            .st 32 (.padd (.var 5) (.bin (.add .u32) (.var 18) (.lit 0)) 32) (.bin (.vec 21) (.ld 32 (.padd (.var 5)
              (.bin (.add .u32) (.var 18) (.lit 0)) 32)) (.ld 32 (.padd (.var 19) (.lit 2) 32))),
            .st 32 (.padd (.var 5) (.bin (.add .u32) (.var 18) (.lit 0)) 32) (.bin (.vec 21) (.ld 32 (.padd (.var 5)
              (.bin (.add .u32) (.var 18) (.lit 0)) 32)) (.ld 32 (.padd (.var 19) (.lit 3) 32))),
            .st 32 (.padd (.var 5) (.bin (.add .u32) (.var 18) (.lit 1)) 32) (.bin (.vec 21) (.ld 32 (.padd (.var 20)
              (.lit 1) 32)) (.ld 32 (.var 19))),
            .call (some 26) Prog.Id.bf256_mul [.ld 32 (.padd (.var 19) (.lit 1) 32), .var 10],
            .st 32 (.padd (.var 5) (.bin (.add .u32) (.var 18) (.lit 1)) 32) (.bin (.vec 21) (.ld 32 (.padd (.var 5)
              (.bin (.add .u32) (.var 18) (.lit 1)) 32)) (.var 26)),
            .call (some 27) Prog.Id.bf256_mul [.ld 32 (.padd (.var 19) (.lit 2) 32), .var 12],
            .st 32 (.padd (.var 5) (.bin (.add .u32) (.var 18) (.lit 1)) 32) (.bin (.vec 21) (.ld 32 (.padd (.var 5)
              (.bin (.add .u32) (.var 18) (.lit 1)) 32)) (.var 27)),
            .st 32 (.padd (.var 5) (.bin (.add .u32) (.var 18) (.lit 1)) 32) (.bin (.vec 21) (.ld 32 (.padd (.var 5)
              (.bin (.add .u32) (.var 18) (.lit 1)) 32)) (.ld 32 (.padd (.var 19) (.lit 3) 32))),
            .st 32 (.padd (.var 5) (.bin (.add .u32) (.var 18) (.lit 2)) 32) (.bin (.vec 21) (.ld 32 (.padd (.var 20)
              (.lit 2) 32)) (.ld 32 (.var 19))),
            .st 32 (.padd (.var 5) (.bin (.add .u32) (.var 18) (.lit 2)) 32) (.bin (.vec 21) (.ld 32 (.padd (.var 5)
              (.bin (.add .u32) (.var 18) (.lit 2)) 32)) (.ld 32 (.padd (.var 19) (.lit 1) 32))),
            .call (some 28) Prog.Id.bf256_mul [.ld 32 (.padd (.var 19) (.lit 2) 32), .var 10],
            .st 32 (.padd (.var 5) (.bin (.add .u32) (.var 18) (.lit 2)) 32) (.bin (.vec 21) (.ld 32 (.padd (.var 5)
              (.bin (.add .u32) (.var 18) (.lit 2)) 32)) (.var 28)),
            .call (some 29) Prog.Id.bf256_mul [.ld 32 (.padd (.var 19) (.lit 3) 32), .var 12],
            .st 32 (.padd (.var 5) (.bin (.add .u32) (.var 18) (.lit 2)) 32) (.bin (.vec 21) (.ld 32 (.padd (.var 5)
              (.bin (.add .u32) (.var 18) (.lit 2)) 32)) (.var 29)),
            .call (some 30) Prog.Id.bf256_mul [.ld 32 (.var 19), .var 12],
            .st 32 (.padd (.var 5) (.bin (.add .u32) (.var 18) (.lit 3)) 32) (.bin (.vec 21) (.ld 32 (.padd (.var 20)
              (.lit 3) 32)) (.var 30)),
            .st 32 (.padd (.var 5) (.bin (.add .u32) (.var 18) (.lit 3)) 32) (.bin (.vec 21) (.ld 32 (.padd (.var 5)
              (.bin (.add .u32) (.var 18) (.lit 3)) 32)) (.ld 32 (.padd (.var 19) (.lit 1) 32))),
            .st 32 (.padd (.var 5) (.bin (.add .u32) (.var 18) (.lit 3)) 32) (.bin (.vec 21) (.ld 32 (.padd (.var 5)
              (.bin (.add .u32) (.var 18) (.lit 3)) 32)) (.ld 32 (.padd (.var 19) (.lit 2) 32))),
            .call (some 31) Prog.Id.bf256_mul [.ld 32 (.padd (.var 19) (.lit 3) 32), .var 10],
            .st 32 (.padd (.var 5) (.bin (.add .u32) (.var 18) (.lit 3)) 32) (.bin (.vec 21) (.ld 32 (.padd (.var 5)
              (.bin (.add .u32) (.var 18) (.lit 3)) 32)) (.var 31))])
          (.asg 15 (.bin (.add .u32) (.var 15) (.lit 1)))])
      (.asg 14 (.bin (.add .u32) (.var 14) (.lit 1)))]⟩

/-- `aes_enc_forward_256`, faest_aes.c:1391-1448; variables: 0 bf_x, 1 bf_xk, 2 in, 3 Mtag, 4 Mkey, 5 delta, 6 bf_y,
  7 bf_delta, 11 bf_factor, 13 i, 14 bf_xin, 15 j, 18 bf_two, 20 bf_three, 22 j, 23 c, 24 ix, 25 ik, 26 iy, 27
  bf_x_hat, 28 bf_xk_hat, 29 r -/
def aes_enc_forward_256 : Fn := ⟨7,
  block [
    .ite (.var 5)
      (block [
        .call (some 9) Prog.Id.bf256_load [.var 5],
        .asg 8 (.var 9)])
      (block [
        .call (some 10) Prog.Id.bf256_zero [],
        .asg 8 (.var 10)]),
    .asg 7 (.var 8),
    .call (some 12) Prog.Id.bf256_from_bit [.un (.cast .u8) (.bin (.bxor .i32) (.lit 1) (.var 4))],
    .asg 11 (.bin (.vec 21) (.bin (.vec 22) (.var 7) (.bin (.vec 20) (.un (.neg .u64) (.bin (.band .u64) (.var 4)
      (.lit 1))) (.lit 4))) (.var 12)),
    .asg 13 (.lit 0),
    .loop (.bin .lt (.var 13) (.lit 16))
      (block [
        .new 14 (.lit 256),
        .asg 15 (.lit 0),
        .loop (.bin .lt (.var 15) (.lit 8))
          (.st 32 (.padd (.var 14) (.var 15) 32) (.bin (.vec 22) (.var 11) (.bin (.vec 20) (.un (.neg .u64) (.bin
            (.band .u64) (.un (.cast .u64) (.bin (.band .i32) (.bin (.bxor .i32) (.lit 1) (.var 3)) (.bin (.band
            .i32) (.bin (.shr .i32) (.ld 1 (.padd (.var 2) (.var 13) 1)) (.var 15)) (.lit 1)))) (.lit 1))) (.lit 4))))
          (.asg 15 (.bin (.add .u32) (.var 15) (.lit 1))),
        .call (some 16) Prog.Id.bf256_byte_combine [.var 14],
        .call (some 17) Prog.Id.bf256_byte_combine [.padd (.var 1) (.bin (.mul .u32) (.lit 8) (.var 13)) 32],
        .st 32 (.padd (.var 6) (.var 13) 32) (.bin (.vec 21) (.var 16) (.var 17))])
      (.asg 13 (.bin (.add .u32) (.var 13) (.lit 1))),
    .call (some 19) Prog.Id.bf256_byte_combine_bits [.lit 2],
    .asg 18 (.var 19),
    .call (some 21) Prog.Id.bf256_byte_combine_bits [.lit 3],
    .asg 20 (.var 21),
    .asg 22 (.lit 1),
    .loop (.bin .lt (.var 22) (.lit 14))
      (block [
        .asg 23 (.lit 0),
        .loop (.bin .le (.var 23) (.lit 3))
          (block [
            .asg 24 (.bin (.add .u32) (.bin (.mul .u32) (.lit 128) (.bin (.sub .u32) (.var 22) (.lit 1))) (.bin (.mul
              .u32) (.lit 32) (.var 23))),
            .asg 25 (.bin (.add .u32) (.bin (.mul .u32) (.lit 128) (.var 22)) (.bin (.mul .u32) (.lit 32) (.var 23))),
            .asg 26 (.bin (.add .u32) (.bin (.mul .u32) (.lit 16) (.var 22)) (.bin (.mul .u32) (.lit 4) (.var 23))),
            .new 27 (.lit 128),
            .new 28 (.lit 128),
            .asg 29 (.lit 0),
            .loop (.bin .le (.var 29) (.lit 3))
              (block [
                .call (some 30) Prog.Id.bf256_byte_combine [.padd (.var 0) (.bin (.add .u32) (.var 24) (.bin (.mul
                  .u32) (.lit 8) (.var 29))) 32],
                .st 32 (.padd (.var 27) (.var 29) 32) (.var 30),
                .call (some 31) Prog.Id.bf256_byte_combine [.padd (.var 1) (.bin (.add .u32) (.var 25) (.bin (.mul
                  .u32) (.lit 8) (.var 29))) 32],
                .st 32 (.padd (.var 28) (.var 29) 32) (.var 31)])
              (.asg 29 (.bin (.add .u32) (.var 29) (.lit 1))),
            .call (some 32) Prog.Id.bf256_mul [.ld 32 (.var 27), .var 18],
            .st 32 (.padd (.var 6) (.bin (.add .u32) (.var 26) (.lit 0)) 32) (.bin (.vec 21) (.ld 32 (.var 28)) (.var
              32)),
            .call (some 33) Prog.Id.bf256_mul [.ld 32 (.padd (.var 27) (.lit 1) 32), .var 20],
            .st 32 (.padd (.var 6) (.bin (.add .u32) (.var 26) (.lit 0)) 32) (.bin (.vec 21) (.ld 32 (.padd (.var 6)
              (.bin (.add .u32) (.var 26) (.lit 0)) 32)) (.var 33)),
            .st 32 (.padd (.var 6) (.bin (.add .u32) (.var 26) (.lit 0)) 32) (.bin (.vec 21) (.ld 32 (.padd (.var 6)
              (.bin (.add .u32) (.var 26) (.lit 0)) 32)) (.ld 32 (.padd (.var 27) (.lit 2) 32))),
            .st 32 (.padd (.var 6) (.bin (.add .u32) (.var 26) (.lit 0)) 32) (.bin (.vec 21) (.ld 32 (.padd (.var 6)
              (.bin (.add .u32) (.var 26) (.lit 0)) 32)) (.ld 32 (.padd (.var 27) (.lit 3) 32))),
            .st 32 (.padd (.var 6) (.bin (.add .u32) (.var 26) (.lit 1)) 32) (.bin (.vec 21) (.ld 32 (.padd (.var 28)
              (.lit 1) 32)) (.ld 32 (.var 27))),
            .call (some 34) Prog.Id.bf256_mul [.ld 32 (.padd (.var 27) (.lit 1) 32), .var 18],
            .st 32 (.padd (.var 6) (.bin (.add .u32) (.var 26) (.lit 1)) 32) (.bin (.vec 21) (.ld 32 (.padd (.var 6)
              (.bin (.add .u32) (.var 26) (.lit 1)) 32)) (.var 34)),
            .call (some 35) Prog.Id.bf256_mul [.ld 32 (.padd (.var 27) (.lit 2) 32), .var 20],
            .st 32 (.padd (.var 6) (.bin (.add .u32) (.var 26) (.lit 1)) 32) (.bin (.vec 21) (.ld 32 (.padd (.var 6)
              (.bin (.add .u32) (.var 26) (.lit 1)) 32)) (.var 35)),
            .st 32 (.padd (.var 6) (.bin (.add .u32) (.var 26) (.lit 1)) 32) (.bin (.vec 21) (.ld 32 (.padd (.var 6)
              (.bin (.add .u32) (.var 26) (.lit 1)) 32)) (.ld 32 (.padd (.var 27) (.lit 3) 32))),
            .st 32 (.padd (.var 6) (.bin (.add .u32) (.var 26) (.lit 2)) 32) (.bin (.vec 21) (.ld 32 (.padd (.var 28)
              (.lit 2) 32)) (.ld 32 (.var 27))),
            .st 32 (.padd (.var 6) (.bin (.add .u32) (.var 26) (.lit 2)) 32) (.bin (.vec 21) (.ld 32 (.padd (.var 6)
              (.bin (.add .u32) (.var 26) (.lit 2)) 32)) (.ld 32 (.padd (.var 27) (.lit 1) 32))),
            .call (some 36) Prog.Id.bf256_mul [.ld 32 (.padd (.var 27) (.lit 2) 32), .var 18],
            .st 32 (.padd (.var 6) (.bin (.add .u32) (.var 26) (.lit 2)) 32) (.bin (.vec 21) (.ld 32 (.padd (.var 6)
              (.bin (.add .u32) (.var 26) (.lit 2)) 32)) (.var 36)),
            .call (some 37) Prog.Id.bf256_mul [.ld 32 (.padd (.var 27) (.lit 3) 32), .var 20],
            .st 32 (.padd (.var 6) (.bin (.add .u32) (.var 26) (.lit 2)) 32) (.bin (.vec 21) (.ld 32 (.padd (.var 6)
              (.bin (.add .u32) (.var 26) (.lit 2)) 32)) (.var 37)),
            .call (some 38) Prog.Id.bf256_mul [.ld 32 (.var 27), .var 20],
            .st 32 (.padd (.var 6) (.bin (.add .u32) (.var 26) (.lit 3)) 32) (.bin (.vec 21) (.ld 32 (.padd (.var 28)
              (.lit 3) 32)) (.var 38)),
            .st 32 (.padd (.var 6) (.bin (.add .u32) (.var 26) (.lit 3)) 32) (.bin (.vec 21) (.ld 32 (.padd (.var 6)
              (.bin (.add .u32) (.var 26) (.lit 3)) 32)) (.ld 32 (.padd (.var 27) (.lit 1) 32))),
            .st 32 (.padd (.var 6) (.bin (.add .u32) (.var 26) (.lit 3)) 32) (.bin (.vec 21) (.ld 32 (.padd (.var 6)
              (.bin (.add .u32) (.var 26) (.lit 3)) 32)) (.ld 32 (.padd (.var 27) (.lit 2) 32))),
            .call (some 39) Prog.Id.bf256_mul [.ld 32 (.padd (.var 27) (.lit 3) 32), .var 18],
            .st 32 (.padd (.var 6) (.bin (.add .u32) (.var 26) (.lit 3)) 32) (.bin (.vec 21) (.ld 32 (.padd (.var 6)
              (.bin (.add .u32) (.var 26) (.lit 3)) 32)) (.var 39))])
          (.asg 23 (.bin (.add .u32) (.var 23) (.lit 1)))])
      (.asg 22 (.bin (.add .u32) (.var 22) (.lit 1)))]⟩

/-- `aes_enc_backward_256`, faest_aes.c:1480-1523; variables: 0 bf_x, 1 bf_xk, 2 Mtag, 3 Mkey, 4 delta, 5 out, 6
  y_out, 7 bf_delta, 11 factor, 13 j, 14 c, 15 r, 16 bf_x_tilde, 17 ird, 19 i, 20 bf_xout, 21 bf_y_tilde, 22 i -/
def aes_enc_backward_256 : Fn := ⟨7,
  block [
    .ite (.var 4)
      (block [
        .call (some 9) Prog.Id.bf256_load [.var 4],
        .asg 8 (.var 9)])
      (block [
        .call (some 10) Prog.Id.bf256_zero [],
        .asg 8 (.var 10)]),
    .asg 7 (.var 8),
    .call (some 12) Prog.Id.bf256_from_bit [.un (.cast .u8) (.bin (.bxor .i32) (.lit 1) (.var 3))],
    .asg 11 (.bin (.vec 22) (.bin (.vec 21) (.bin (.vec 22) (.var 7) (.bin (.vec 20) (.un (.neg .u64) (.bin (.band
      .u64) (.var 3) (.lit 1))) (.lit 4))) (.var 12)) (.bin (.vec 20) (.un (.neg .u64) (.bin (.band .u64) (.un (.cast
      .u64) (.bin (.bxor .i32) (.lit 1) (.var 2))) (.lit 1))) (.lit 4))),
    .asg 13 (.lit 0),
    .loop (.bin .lt (.var 13) (.lit 14))
      (block [
        .asg 14 (.lit 0),
        .loop (.bin .le (.var 14) (.lit 3))
          (block [
            .asg 15 (.lit 0),
            .loop (.bin .le (.var 15) (.lit 3))
              (block [
                .new 16 (.lit 256),
                .asg 17 (.bin (.add .u32) (.bin (.add .u32) (.bin (.mul .u32) (.lit 128) (.var 13)) (.bin (.mul .u32)
                  (.lit 32) (.div (.mod .u32) (.bin (.add .u32) (.bin (.sub .u32) (.var 14) (.var 15)) (.lit 4))
                  (.lit 4)))) (.bin (.mul .u32) (.lit 8) (.var 15))),
                .ite (.bin .lt (.var 13) (.lit 13))
                  (.call (some 18) Prog.Id.memcpy [.var 16, .padd (.var 0) (.var 17) 32, .lit 256])
                  (block [
                    .asg 19 (.lit 0),
                    .loop (.bin .lt (.var 19) (.lit 8))
                      (block [
                        .asg 20 (.bin (.vec 22) (.var 11) (.bin (.vec 20) (.un (.neg .u64) (.bin (.band .u64) (.un
                          (.cast .u64) (.bin (.band .i32) (.bin (.shr .i32) (.ld 1 (.padd (.var 5) (.div (.div .u32)
                          (.bin (.sub .u32) (.var 17) (.lit 1664)) (.lit 8)) 1)) (.var 19)) (.lit 1))) (.lit 1)))
                          (.lit 4))),
                        .st 32 (.padd (.var 16) (.var 19) 32) (.bin (.vec 21) (.var 20) (.ld 32 (.padd (.var 1) (.bin
                          (.add .u32) (.bin (.add .u32) (.lit 128) (.var 17)) (.var 19)) 32)))])
                      (.asg 19 (.bin (.add .u32) (.var 19) (.lit 1)))]),
                .new 21 (.lit 256),
                .asg 22 (.lit 0),
                .loop (.bin .lt (.var 22) (.lit 8))
                  (.st 32 (.padd (.var 21) (.var 22) 32) (.bin (.vec 21) (.bin (.vec 21) (.ld 32 (.padd (.var 16)
                    (.div (.mod .u32) (.bin (.add .u32) (.var 22) (.lit 7)) (.lit 8)) 32)) (.ld 32 (.padd (.var 16)
                    (.div (.mod .u32) (.bin (.add .u32) (.var 22) (.lit 5)) (.lit 8)) 32))) (.ld 32 (.padd (.var 16)
                    (.div (.mod .u32) (.bin (.add .u32) (.var 22) (.lit 2)) (.lit 8)) 32))))
                  (.asg 22 (.bin (.add .u32) (.var 22) (.lit 1))),
                .st 32 (.var 21) (.bin (.vec 21) (.ld 32 (.var 21)) (.var 11)),
                .st 32 (.padd (.var 21) (.lit 2) 32) (.bin (.vec 21) (.ld 32 (.padd (.var 21) (.lit 2) 32)) (.var
                  11)),
                .call (some 23) Prog.Id.bf256_byte_combine [.var 21],
                .st 32 (.padd (.var 6) (.bin (.add .u32) (.bin (.add .u32) (.bin (.mul .u32) (.lit 16) (.var 13))
                  (.bin (.mul .u32) (.lit 4) (.var 14))) (.var 15)) 32) (.var 23)])
              (.asg 15 (.bin (.add .u32) (.var 15) (.lit 1)))])
          (.asg 14 (.bin (.add .u32) (.var 14) (.lit 1)))])
      (.asg 13 (.bin (.add .u32) (.var 13) (.lit 1)))]⟩

/-- `aes_enc_constraints_Mkey_0_256`, faest_aes.c:1525-1545; variables: 0 in, 1 out, 2 w, 3 v, 4 k, 5 vk, 6 a0_ctx, 7
  a1_ctx, 8 s, 9 vs, 10 s_dash, 11 vs_dash, 12 j, 13 tmp -/
def aes_enc_constraints_Mkey_0_256 : Fn := ⟨8,
  block [
    .new 8 (.lit 7168),
    .new 9 (.lit 7168),
    .new 10 (.lit 7168),
    .new 11 (.lit 7168),
    .call none Prog.Id.aes_enc_forward_256_1 [.var 2, .var 4, .var 0, .lit 0, .lit 0, .var 8],
    .call none Prog.Id.aes_enc_forward_256 [.var 3, .var 5, .var 0, .lit 1, .lit 0, .lit 0, .var 9],
    .call none Prog.Id.aes_enc_backward_256_1 [.var 2, .var 4, .lit 0, .lit 0, .var 1, .var 10],
    .call none Prog.Id.aes_enc_backward_256 [.var 3, .var 5, .lit 1, .lit 0, .lit 0, .var 1, .var 11],
    .asg 12 (.lit 0),
    .loop (.bin .lt (.var 12) (.lit 224))
      (block [
        .call (some 14) Prog.Id.bf256_mul [.ld 32 (.padd (.var 9) (.var 12) 32), .ld 32 (.padd (.var 11) (.var 12)
          32)],
        .asg 13 (.var 14),
        .call none Prog.Id.zk_hash_256_update [.var 6, .var 13],
        .call (some 15) Prog.Id.bf256_mul [.bin (.vec 21) (.ld 32 (.padd (.var 8) (.var 12) 32)) (.ld 32 (.padd (.var
          9) (.var 12) 32)), .bin (.vec 21) (.ld 32 (.padd (.var 10) (.var 12) 32)) (.ld 32 (.padd (.var 11) (.var
          12) 32))],
        .call (some 16) Prog.Id.bf256_one [],
        .call none Prog.Id.zk_hash_256_update [.var 7, .bin (.vec 21) (.bin (.vec 21) (.var 15) (.var 13)) (.var
          16)]])
      (.asg 12 (.bin (.add .u32) (.var 12) (.lit 1)))]⟩

/-- `aes_prove_256`, faest_aes.c:1563-1599; variables: 0 w, 1 u, 2 V, 3 in, 4 out, 5 chall, 6 a_tilde, 7 b_tilde, 8
  params, 9 bf_v, 11 k, 13 vk, 15 a0_ctx, 16 a1_ctx -/
def aes_prove_256 : Fn := ⟨9,
  block [
    .call (some 10) Prog.Id.column_to_row_major_and_shrink_V_256 [.var 2, .lit 4000],
    .asg 9 (.var 10),
    .new 12 (.lit 240),
    .asg 11 (.var 12),
    .new 14 (.lit 61440),
    .asg 13 (.var 14),
    .new 15 (.lit 128),
    .new 16 (.lit 128),
    .call none Prog.Id.zk_hash_256_init [.var 15, .var 5],
    .call none Prog.Id.zk_hash_256_init [.var 16, .var 5],
    .call none Prog.Id.aes_key_schedule_constraints_Mkey_0_256 [.var 0, .var 9, .var 15, .var 16, .var 11, .var 13,
      .var 8],
    .call none Prog.Id.aes_enc_constraints_Mkey_0_256 [.var 3, .var 4, .padd (.var 0) (.lit 84) 1, .padd (.var 9)
      (.lit 672) 32, .var 11, .var 13, .var 15, .var 16],
    .call none Prog.Id.aes_enc_constraints_Mkey_0_256 [.padd (.var 3) (.lit 16) 1, .padd (.var 4) (.lit 16) 1, .padd
      (.var 0) (.lit 292) 1, .padd (.padd (.var 9) (.lit 672) 32) (.lit 1664) 32, .var 11, .var 13, .var 15, .var 16],
    .free (.var 13),
    .free (.var 11),
    .call (some 17) Prog.Id.bf256_load [.padd (.var 1) (.lit 500) 1],
    .call none Prog.Id.zk_hash_256_finalize [.var 6, .var 16, .var 17],
    .call (some 18) Prog.Id.bf256_sum_poly [.padd (.var 9) (.lit 4000) 32],
    .call none Prog.Id.zk_hash_256_finalize [.var 7, .var 15, .var 18],
    .free (.var 9)]⟩

/-- `em_enc_forward_256_1`, faest_aes.c:2275-2318; variables: 0 z, 1 x, 2 bf_y, 3 j, 6 bf_two, 8 bf_three, 10 j, 11
  c, 12 i, 13 iy, 14 bf_x_hat, 15 bf_z_hat, 16 r -/
def em_enc_forward_256_1 : Fn := ⟨3,
  block [
    .asg 3 (.lit 0),
    .loop (.bin .lt (.var 3) (.lit 32))
      (block [
        .call (some 4) Prog.Id.bf256_byte_combine_bits [.ld 1 (.padd (.var 0) (.var 3) 1)],
        .call (some 5) Prog.Id.bf256_byte_combine_bits [.ld 1 (.padd (.var 1) (.var 3) 1)],
        .st 32 (.padd (.var 2) (.var 3) 32) (.bin (.vec 21) (.var 4) (.var 5))])
      (.asg 3 (.bin (.add .u32) (.var 3) (.lit 1))),
    .call (some 7) Prog.Id.bf256_byte_combine_bits [.lit 2],
    .asg 6 (.var 7),
    .call (some 9) Prog.Id.bf256_byte_combine_bits [.lit 3],
    .asg 8 (.var 9),
    .asg 10 (.lit 1),
    .loop (.bin .lt (.var 10) (.lit 14))
      (block [
        .asg 11 (.lit 0),
        .loop (.bin .lt (.var 11) (.lit 8))
          (block [
            .asg 12 (.bin (.add .u32) (.bin (.mul .u32) (.lit 256) (.var 10)) (.bin (.mul .u32) (.lit 32) (.var 11))),
            .asg 13 (.bin (.add .u32) (.bin (.mul .u32) (.lit 32) (.var 10)) (.bin (.mul .u32) (.lit 4) (.var 11))),
            .new 14 (.lit 128),
            .new 15 (.lit 128),
            .asg 16 (.lit 0),
            .loop (.bin .le (.var 16) (.lit 3))
              (block [
                .call (some 17) Prog.Id.bf256_byte_combine_bits [.ld 1 (.padd (.var 0) (.div (.div .u32) (.bin (.add
                  .u32) (.var 12) (.bin (.mul .u32) (.lit 8) (.var 16))) (.lit 8)) 1)],
                .st 32 (.padd (.var 15) (.var 16) 32) (.var 17),
                .call (some 18) Prog.Id.bf256_byte_combine_bits [.ld 1 (.padd (.var 1) (.div (.div .u32) (.bin (.add
                  .u32) (.var 12) (.bin (.mul .u32) (.lit 8) (.var 16))) (.lit 8)) 1)],
                .st 32 (.padd (.var 14) (.var 16) 32) (.var 18)])
              (.asg 16 (.bin (.add .u32) (.var 16) (.lit 1))),
            .call (some 19) Prog.Id.bf256_mul [.ld 32 (.var 15), .var 6],
            .call (some 20) Prog.Id.bf256_mul [.ld 32 (.padd (.var 15) (.lit 1) 32), .var 8],
            .st 32 (.padd (.var 2) (.bin (.add .u32) (.var 13) (.lit 0)) 32) (.bin (.vec 21) (.var 19) (.var 20)),
            .st 32 (.padd (.var 2) (.bin (.add .u32) (.var 13) (.lit 0)) 32) (.bin (.vec 21) (.ld 32 (.padd (.var 2)
              (.bin (.add .u32) (.var 13) (.lit 0)) 32)) (.ld 32 (.padd (.var 15) (.lit 2) 32))),
            .st 32 (.padd (.var 2) (.bin (.add .u32) (.var 13) (.lit 0)) 32) (.bin (.vec 21) (.ld 32 (.padd (.var 2)
              (.bin (.add .u32) (.var 13) (.lit 0)) 32)) (.ld 32 (.padd (.var 15) (.lit 3) 32))),
            .st 32 (.padd (.var 2) (.bin (.add .u32) (.var 13) (.lit 0)) 32) (.bin (.vec 21) (.ld 32 (.padd (.var 2)
              (.bin (.add .u32) (.var 13) (.lit 0)) 32)) (.ld 32 (.var 14))),
            .call (some 21) Prog.Id.bf256_mul [.ld 32 (.padd (.var 15) (.lit 1) 32), .var 6],
            .st 32 (.padd (.var 2) (.bin (.add .u32) (.var 13) (.lit 1)) 32) (.bin (.vec 21) (.ld 32 (.var 15)) (.var
              21)),
            .call (some 22) Prog.Id.bf256_mul [.ld 32 (.padd (.var 15) (.lit 2) 32), .var 8],
            .st 32 (.padd (.var 2) (.bin (.add .u32) (.var 13) (.lit 1)) 32) (.bin (.vec 21) (.ld 32 (.padd (.var 2)
              (.bin (.add .u32) (.var 13) (.lit 1)) 32)) (.var 22)),
            .st 32 (.padd (.var 2) (.bin (.add .u32) (.var 13) (.lit 1)) 32) (.bin (.vec 21) (.ld 32 (.padd (.var 2)
              (.bin (.add .u32) (.var 13) (.lit 1)) 32)) (.ld 32 (.padd (.var 15) (.lit 3) 32))),
            .st 32 (.padd (.var 2) (.bin (.add .u32) (.var 13) (.lit 1)) 32) (.bin (.vec 21) (.ld 32 (.padd (.var 2)
              (.bin (.add .u32) (.var 13) (.lit 1)) 32)) (.ld 32 (.padd (.var 14) (.lit 1) 32))),
            .st 32 (.padd (.var 2) (.bin (.add .u32) (.var 13) (.lit 2)) 32) (.bin (.vec 21) (.ld 32 (.var 15)) (.ld
              32 (.padd (.var 15) (.lit 1) 32))),
            .call (some 23) Prog.Id.bf256_mul [.ld 32 (.padd (.var 15) (.lit 2) 32), .var 6],
            .st 32 (.padd (.var 2) (.bin (.add .u32) (.var 13) (.lit 2)) 32) (.bin (.vec 21) (.ld 32 (.padd (.var 2)
              (.bin (.add .u32) (.var 13) (.lit 2)) 32)) (.var 23)),
            .call (some 24) Prog.Id.bf256_mul [.ld 32 (.padd (.var 15) (.lit 3) 32), .var 8],
            .st 32 (.padd (.var 2) (.bin (.add .u32) (.var 13) (.lit 2)) 32) (.bin (.vec 21) (.ld 32 (.padd (.var 2)
              (.bin (.add .u32) (.var 13) (.lit 2)) 32)) (.var 24)),
            .st 32 (.padd (.var 2) (.bin (.add .u32) (.var 13) (.lit 2)) 32) (.bin (.vec 21) (.ld 32 (.padd (.var 2)
              (.bin (.add .u32) (.var 13) (.lit 2)) 32)) (.ld 32 (.padd (.var 14) (.lit 2) 32))),
            .call (some 25) Prog.Id.bf256_mul [.ld 32 (.var 15), .var 8],
            .st 32 (.padd (.var 2) (.bin (.add .u32) (.var 13) (.lit 3)) 32) (.bin (.vec 21) (.var 25) (.ld 32 (.padd
              (.var 15) (.lit 1) 32))),
            .st 32 (.padd (.var 2) (.bin (.add .u32) (.var 13) (.lit 3)) 32) (.bin (.vec 21) (.ld 32 (.padd (.var 2)
              (.bin (.add .u32) (.var 13) (.lit 3)) 32)) (.ld 32 (.padd (.var 15) (.lit 2) 32))),
            .call (some 26) Prog.Id.bf256_mul [.ld 32 (.padd (.var 15) (.lit 3) 32), .var 6],
            .st 32 (.padd (.var 2) (.bin (.add .u32) (.var 13) (.lit 3)) 32) (.bin (.vec 21) (.ld 32 (.padd (.var 2)
              (.bin (.add .u32) (.var 13) (.lit 3)) 32)) (.var 26)),
            .st 32 (.padd (.var 2) (.bin (.add .u32) (.var 13) (.lit 3)) 32) (.bin (.vec 21) (.ld 32 (.padd (.var 2)
              (.bin (.add .u32) (.var 13) (.lit 3)) 32)) (.ld 32 (.padd (.var 14) (.lit 3) 32)))])
          (.asg 11 (.bin (.add .u32) (.var 11) (.lit 1)))])
      (.asg 10 (.bin (.add .u32) (.var 10) (.lit 1)))]⟩

/-- `em_enc_forward_256`, faest_aes.c:2320-2370; variables: 0 bf_z, 1 bf_x, 2 bf_y, 3 j, 6 bf_two, 8 bf_three, 10 j,
  11 c, 12 i, 13 iy, 14 bf_x_hat, 15 bf_z_hat, 16 r -/
def em_enc_forward_256 : Fn := ⟨3,
  block [
    .asg 3 (.lit 0),
    .loop (.bin .lt (.var 3) (.lit 32))
      (block [
        .call (some 4) Prog.Id.bf256_byte_combine [.padd (.var 0) (.bin (.mul .u32) (.lit 8) (.var 3)) 32],
        .st 32 (.padd (.var 2) (.var 3) 32) (.var 4),
        .ite (.var 1)
          (block [
            .call (some 5) Prog.Id.bf256_byte_combine [.padd (.var 1) (.bin (.mul .u32) (.lit 8) (.var 3)) 32],
            .st 32 (.padd (.var 2) (.var 3) 32) (.bin (.vec 21) (.ld 32 (.padd (.var 2) (.var 3) 32)) (.var 5))])
          (.skip)])
      (.asg 3 (.bin (.add .u32) (.var 3) (.lit 1))),
    .call (some 7) Prog.Id.bf256_byte_combine_bits [.lit 2],
    .asg 6 (.var 7),
    .call (some 9) Prog.Id.bf256_byte_combine_bits [.lit 3],
    .asg 8 (.var 9),
    .asg 10 (.lit 1),
    .loop (.bin .lt (.var 10) (.lit 14))
      (block [
        .asg 11 (.lit 0),
        .loop (.bin .lt (.var 11) (.lit 8))
          (block [
            .asg 12 (.bin (.add .u32) (.bin (.mul .u32) (.lit 256) (.var 10)) (.bin (.mul .u32) (.lit 32) (.var 11))),
            .asg 13 (.bin (.add .u32) (.bin (.mul .u32) (.lit 32) (.var 10)) (.bin (.mul .u32) (.lit 4) (.var 11))),
            .new 14 (.lit 128),
            .new 15 (.lit 128),
            .asg 16 (.lit 0),
            .loop (.bin .le (.var 16) (.lit 3))
              (block [
                .call (some 17) Prog.Id.bf256_byte_combine [.padd (.var 0) (.bin (.add .u32) (.var 12) (.bin (.mul
                  .u32) (.lit 8) (.var 16))) 32],
                .st 32 (.padd (.var 15) (.var 16) 32) (.var 17),
                .ite (.var 1)
                  (block [
                    .call (some 18) Prog.Id.bf256_byte_combine [.padd (.var 1) (.bin (.add .u32) (.var 12) (.bin
                      (.mul .u32) (.lit 8) (.var 16))) 32],
                    .st 32 (.padd (.var 14) (.var 16) 32) (.var 18)])
                  (block [
                    .call (some 19) Prog.Id.bf256_zero [],
                    .st 32 (.padd (.var 14) (.var 16) 32) (.var 19)])])
              (.asg 16 (.bin (.add .u32) (.var 16) (.lit 1))),
            .call (some 20) Prog.Id.bf256_mul [.ld 32 (.var 15), .var 6],
            .call (some 21) Prog.Id.bf256_mul [.ld 32 (.padd (.var 15) (.lit 1) 32), .var 8],
            .st 32 (.padd (.var 2) (.bin (.add .u32) (.var 13) (.lit 0)) 32) (.bin (.vec 21) (.var 20) (.var 21)),
            .st 32 (.padd (.var 2) (.bin (.add .u32) (.var 13) (.lit 0)) 32) (.bin (.vec 21) (.ld 32 (.padd (.var 2)
              (.bin (.add .u32) (.var 13) (.lit 0)) 32)) (.ld 32 (.padd (.var 15) (.lit 2) 32))),
            .st 32 (.padd (.var 2) (.bin (.add .u32) (.var 13) (.lit 0)) 32) (.bin (.vec 21) (.ld 32 (.padd (.var 2)
              (.bin (.add .u32) (.var 13) (.lit 0)) 32)) (.ld 32 (.padd (.var 15) (.lit 3) 32))),
            .st 32 (.padd (.var 2) (.bin (.add .u32) (.var 13) (.lit 0)) 32) (.bin (.vec 21) (.ld 32 (.padd (.var 2)
              (.bin (.add .u32) (.var 13) (.lit 0)) 32)) (.ld 32 (.var 14))),
            .call (some 22) Prog.Id.bf256_mul [.ld 32 (.padd (.var 15) (.lit 1) 32), .var 6],
            .st 32 (.padd (.var 2) (.bin (.add .u32) (.var 13) (.lit 1)) 32) (.bin (.vec 21) (.ld 32 (.var 15)) (.var
              22)),
            .call (some 23) Prog.Id.bf256_mul [.ld 32 (.padd (.var 15) (.lit 2) 32), .var 8],
            .st 32 (.padd (.var 2) (.bin (.add .u32) (.var 13) (.lit 1)) 32) (.bin (.vec 21) (.ld 32 (.padd (.var 2)
              (.bin (.add .u32) (.var 13) (.lit 1)) 32)) (.var 23)),
            .st 32 (.padd (.var 2) (.bin (.add .u32) (.var 13) (.lit 1)) 32) (.bin (.vec 21) (.ld 32 (.padd (.var 2)
              (.bin (.add .u32) (.var 13) (.lit 1)) 32)) (.ld 32 (.padd (.var 15) (.lit 3) 32))),
            .st 32 (.padd (.var 2) (.bin (.add .u32) (.var 13) (.lit 1)) 32) (.bin (.vec 21) (.ld 32 (.padd (.var 2)
              (.bin (.add .u32) (.var 13) (.lit 1)) 32)) (.ld 32 (.padd (.var 14) (.lit 1) 32))),
            .st 32 (.padd (.var 2) (.bin (.add .u32) (.var 13) (.lit 2)) 32) (.bin (.vec 21) (.ld 32 (.var 15)) (.ld
              32 (.padd (.var 15) (.lit 1) 32))),
            .call (some 24) Prog.Id.bf256_mul [.ld 32 (.padd (.var 15) (.lit 2) 32), .var 6],
            .st 32 (.padd (.var 2) (.bin (.add .u32) (.var 13) (.lit 2)) 32) (.bin (.vec 21) (.ld 32 (.padd (.var 2)
              (.bin (.add .u32) (.var 13) (.lit 2)) 32)) (.var 24)),
            .call (some 25) Prog.Id.bf256_mul [.ld 32 (.padd (.var 15) (.lit 3) 32), .var 8],
            .st 32 (.padd (.var 2) (.bin (.add .u32) (.var 13) (.lit 2)) 32) (.bin (.vec 21) (.ld 32 (.padd (.var 2)
              (.bin (.add .u32) (.var 13) (.lit 2)) 32)) (.var 25)),
            .st 32 (.padd (.var 2) (.bin (.add .u32) (.var 13) (.lit 2)) 32) (.bin (.vec 21) (.ld 32 (.padd (.var 2)
              (.bin (.add .u32) (.var 13) (.lit 2)) 32)) (.ld 32 (.padd (.var 14) (.lit 2) 32))),
            .call (some 26) Prog.Id.bf256_mul [.ld 32 (.var 15), .var 8],
            .st 32 (.padd (.var 2) (.bin (.add .u32) (.var 13) (.lit 3)) 32) (.bin (.vec 21) (.var 26) (.ld 32 (.padd
              (.var 15) (.lit 1) 32))),
            .st 32 (.padd (.var 2) (.bin (.add .u32) (.var 13) (.lit 3)) 32) (.bin (.vec 21) (.ld 32 (.padd (.var 2)
              (.bin (.add .u32) (.var 13) (.lit 3)) 32)) (.ld 32 (.padd (.var 15) (.lit 2) 32))),
            .call (some 27) Prog.Id.bf256_mul [.ld 32 (.padd (.var 15) (.lit 3) 32), .var 6],
            .st 32 (.padd (.var 2) (.bin (.add .u32) (.var 13) (.lit 3)) 32) (.bin (.vec 21) (.ld 32 (.padd (.var 2)
              (.bin (.add .u32) (.var 13) (.lit 3)) 32)) (.var 27)),
            .st 32 (.padd (.var 2) (.bin (.add .u32) (.var 13) (.lit 3)) 32) (.bin (.vec 21) (.ld 32 (.padd (.var 2)
              (.bin (.add .u32) (.var 13) (.lit 3)) 32)) (.ld 32 (.padd (.var 14) (.lit 3) 32)))])
          (.asg 11 (.bin (.add .u32) (.var 11) (.lit 1)))])
      (.asg 10 (.bin (.add .u32) (.var 10) (.lit 1)))]⟩

/-- `em_enc_backward_256`, faest_aes.c:2403-2446; variables: 0 bf_z, 1 bf_x, 2 bf_z_out, 3 Mtag, 4 Mkey, 5 delta, 6
  y_out, 7 bf_delta, 11 factor, 13 j, 14 c, 15 r, 16 bf_z_tilde, 17 icol, 18 ird, 20 i, 21 bf_y_tilde, 22 i -/
def em_enc_backward_256 : Fn := ⟨7,
  block [
    .ite (.var 5)
      (block [
        .call (some 9) Prog.Id.bf256_load [.var 5],
        .asg 8 (.var 9)])
      (block [
        .call (some 10) Prog.Id.bf256_zero [],
        .asg 8 (.var 10)]),
    .asg 7 (.var 8),
    .call (some 12) Prog.Id.bf256_from_bit [.un (.cast .u8) (.bin (.bxor .i32) (.lit 1) (.var 4))],
    .asg 11 (.bin (.vec 22) (.bin (.vec 21) (.bin (.vec 22) (.var 7) (.bin (.vec 20) (.un (.neg .u64) (.bin (.band
      .u64) (.var 4) (.lit 1))) (.lit 4))) (.var 12)) (.bin (.vec 20) (.un (.neg .u64) (.bin (.band .u64) (.un (.cast
      .u64) (.bin (.bxor .i32) (.lit 1) (.var 3))) (.lit 1))) (.lit 4))),
    .asg 13 (.lit 0),
    .loop (.bin .lt (.var 13) (.lit 14))
      (block [
        .asg 14 (.lit 0),
        .loop (.bin .lt (.var 14) (.lit 8))
          (block [
            .asg 15 (.lit 0),
            .loop (.bin .le (.var 15) (.lit 3))
              (block [
                .new 16 (.lit 256),
                .asg 17 (.div (.mod .u32) (.bin (.add .u32) (.bin (.sub .u32) (.var 14) (.var 15)) (.lit 8)) (.lit
                  8)),
                .ite (.bin .ne (.bin .ge (.var 15) (.lit 2)) (.lit 0))
                  (.asg 17 (.div (.mod .u32) (.bin (.add .u32) (.bin (.sub .u32) (.var 17) (.lit 1)) (.lit 8)) (.lit
                    8)))
                  (.skip),
                .asg 18 (.bin (.add .u32) (.bin (.add .u32) (.bin (.add .u32) (.lit 256) (.bin (.mul .u32) (.lit 256)
                  (.var 13))) (.bin (.mul .u32) (.lit 32) (.var 17))) (.bin (.mul .u32) (.lit 8) (.var 15))),
                .ite (.bin .lt (.var 13) (.lit 13))
                  (.call (some 19) Prog.Id.memcpy [.var 16, .padd (.var 0) (.var 18) 32, .lit 256])
                  (block [
                    .asg 20 (.lit 0),
                    .loop (.bin .lt (.var 20) (.lit 8))
                      (block [
                        .st 32 (.padd (.var 16) (.var 20) 32) (.ld 32 (.padd (.var 2) (.bin (.add .u32) (.bin (.sub
                          .u32) (.var 18) (.bin (.mul .u32) (.lit 256) (.bin (.add .u32) (.var 13) (.lit 1)))) (.var
                          20)) 32)),
                        .ite (.var 1)
                          (.st 32 (.padd (.var 16) (.var 20) 32) (.bin (.vec 21) (.ld 32 (.padd (.var 16) (.var 20)
                            32)) (.ld 32 (.padd (.var 1) (.bin (.add .u32) (.var 18) (.var 20)) 32))))
                          (.skip)])
                      (.asg 20 (.bin (.add .u32) (.var 20) (.lit 1)))]),
                .new 21 (.lit 256),
                .asg 22 (.lit 0),
                .loop (.bin .lt (.var 22) (.lit 8))
                  (.st 32 (.padd (.var 21) (.var 22) 32) (.bin (.vec 21) (.bin (.vec 21) (.ld 32 (.padd (.var 16)
                    (.div (.mod .u32) (.bin (.add .u32) (.var 22) (.lit 7)) (.lit 8)) 32)) (.ld 32 (.padd (.var 16)
                    (.div (.mod .u32) (.bin (.add .u32) (.var 22) (.lit 5)) (.lit 8)) 32))) (.ld 32 (.padd (.var 16)
                    (.div (.mod .u32) (.bin (.add .u32) (.var 22) (.lit 2)) (.lit 8)) 32))))
                  (.asg 22 (.bin (.add .u32) (.var 22) (.lit 1))),
                .st 32 (.var 21) (.bin (.vec 21) (.ld 32 (.var 21)) (.var 11)),
                .st 32 (.padd (.var 21) (.lit 2) 32) (.bin (.vec 21) (.ld 32 (.padd (.var 21) (.lit 2) 32)) (.var
                  11)),
                .call (some 23) Prog.Id.bf256_byte_combine [.var 21],
                .st 32 (.padd (.var 6) (.bin (.add .u32) (.bin (.add .u32) (.bin (.mul .u32) (.lit 32) (.var 13))
                  (.bin (.mul .u32) (.lit 4) (.var 14))) (.var 15)) 32) (.var 23)])
              (.asg 15 (.bin (.add .u32) (.var 15) (.lit 1)))])
          (.asg 14 (.bin (.add .u32) (.var 14) (.lit 1)))])
      (.asg 13 (.bin (.add .u32) (.var 13) (.lit 1)))]⟩

/-- `em_enc_constraints_Mkey_0_256`, faest_aes.c:2448-2473; variables: 0 out, 1 x, 2 w, 3 bf_v, 4 a0_ctx, 5 a1_ctx, 6
  w_out, 7 bf_s, 8 bf_vs, 9 bf_s_dash, 10 bf_vs_dash, 11 j, 12 tmp -/
def em_enc_constraints_Mkey_0_256 : Fn := ⟨6,
  block [
    .new 6 (.lit 32),
    .call none Prog.Id.xor_u8_array [.var 0, .var 2, .var 6, .lit 32],
    .new 7 (.lit 14336),
    .new 8 (.lit 14336),
    .new 9 (.lit 14336),
    .new 10 (.lit 14336),
    .call none Prog.Id.em_enc_forward_256_1 [.var 2, .var 1, .var 7],
    .call none Prog.Id.em_enc_forward_256 [.var 3, .lit 0, .var 8],
    .call none Prog.Id.em_enc_backward_256_1 [.var 2, .var 1, .var 6, .var 9],
    .call none Prog.Id.em_enc_backward_256 [.var 3, .lit 0, .var 3, .lit 1, .lit 0, .lit 0, .var 10],
    .asg 11 (.lit 0),
    .loop (.bin .lt (.var 11) (.lit 448))
      (block [
        .call (some 13) Prog.Id.bf256_mul [.ld 32 (.padd (.var 8) (.var 11) 32), .ld 32 (.padd (.var 10) (.var 11)
          32)],
        .asg 12 (.var 13),
        .call none Prog.Id.zk_hash_256_update [.var 4, .var 12],
        .call (some 14) Prog.Id.bf256_mul [.bin (.vec 21) (.ld 32 (.padd (.var 7) (.var 11) 32)) (.ld 32 (.padd (.var
          8) (.var 11) 32)), .bin (.vec 21) (.ld 32 (.padd (.var 9) (.var 11) 32)) (.ld 32 (.padd (.var 10) (.var 11)
          32))],
        .call (some 15) Prog.Id.bf256_one [],
        .call none Prog.Id.zk_hash_256_update [.var 5, .bin (.vec 21) (.bin (.vec 21) (.var 14) (.var 12)) (.var
          15)]])
      (.asg 11 (.bin (.add .u32) (.var 11) (.lit 1)))]⟩

/-- `em_prove_256`, faest_aes.c:2505-2534; variables: 0 w, 1 u, 2 V, 3 in, 4 out, 5 chall, 6 a_tilde, 7 b_tilde, 8 x,
  9 round_keys, 11 tmp_x, 12 r, 13 i, 15 bf_v, 17 a0_ctx, 18 a1_ctx -/
def em_prove_256 : Fn := ⟨8,
  block [
    .new 8 (.lit 480),
    .new 9 (.lit 480),
    .call (some 10) Prog.Id.rijndael256_init_round_keys [.var 9, .var 3],
    .asg 11 (.var 8),
    .asg 12 (.lit 0),
    .loop (.bin .ne (.var 12) (.lit 15))
      (block [
        .asg 13 (.lit 0),
        .loop (.bin .ne (.var 13) (.lit 8))
          (block [
            .call (some 14) Prog.Id.memcpy [.var 11, .padd (.padd (.var 9) (.var 12) 32) (.var 13) 4, .lit 4],
            .asg 11 (.padd (.var 11) (.lit 4) 1)])
          (.asg 13 (.bin (.add .u32) (.var 13) (.lit 1)))])
      (.asg 12 (.bin (.add .u32) (.var 12) (.lit 1))),
    .call (some 16) Prog.Id.column_to_row_major_and_shrink_V_256 [.var 2, .lit 3584],
    .asg 15 (.var 16),
    .new 17 (.lit 128),
    .new 18 (.lit 128),
    .call none Prog.Id.zk_hash_256_init [.var 17, .var 5],
    .call none Prog.Id.zk_hash_256_init [.var 18, .var 5],
    .call none Prog.Id.em_enc_constraints_Mkey_0_256 [.var 4, .var 8, .var 0, .var 15, .var 17, .var 18],
    .call (some 19) Prog.Id.bf256_load [.padd (.var 1) (.lit 448) 1],
    .call none Prog.Id.zk_hash_256_finalize [.var 6, .var 18, .var 19],
    .call (some 20) Prog.Id.bf256_sum_poly [.padd (.var 15) (.lit 3584) 32],
    .call none Prog.Id.zk_hash_256_finalize [.var 7, .var 17, .var 20],
    .free (.var 15)]⟩

/-- `column_to_row_major_and_shrink_V_192`, faest_aes.c:95-109; variables: 0 v, 1 ell, 2 new_v, 4 row, 5 new_row, 7
  column -/
def column_to_row_major_and_shrink_V_192 : Fn := ⟨2,
  block [
    .new 3 (.bin (.mul .u64) (.bin (.add .u32) (.var 1) (.lit 192)) (.lit 32)),
    .asg 2 (.var 3),
    .asg 4 (.lit 0),
    .loop (.bin .ne (.var 4) (.bin (.add .u32) (.var 1) (.lit 192)))
      (block [
        .new 5 (.lit 24),
        .call (some 6) Prog.Id.memset [.var 5, .lit 0, .lit 24],
        .asg 7 (.lit 0),
        .loop (.bin .ne (.var 7) (.lit 192))
          (.st 1 (.padd (.var 5) (.div (.div .u32) (.var 7) (.lit 8)) 1) (.un (.cast .u8) (.bin (.bor .i32) (.ld 1
            (.padd (.var 5) (.div (.div .u32) (.var 7) (.lit 8)) 1)) (.bin (.shl .i32) (.bin (.band .i32) (.bin (.shr
            .i32) (.ld 1 (.padd (.cell (.padd (.var 0) (.var 7) 1) 0) (.div (.div .u32) (.var 4) (.lit 8)) 1)) (.div
            (.mod .u32) (.var 4) (.lit 8))) (.lit 1)) (.div (.mod .u32) (.var 7) (.lit 8))))))
          (.asg 7 (.bin (.add .u32) (.var 7) (.lit 1))),
        .call (some 8) Prog.Id.bf192_load [.var 5],
        .st 32 (.padd (.var 2) (.var 4) 32) (.var 8)])
      (.asg 4 (.bin (.add .u32) (.var 4) (.lit 1))),
    .ret (.var 2)]⟩

/-- `aes_key_schedule_forward_192`, faest_aes.c:688-707; variables: 0 v, 1 bf_out, 3 i_wd, 4 j, 7 i -/
def aes_key_schedule_forward_192 : Fn := ⟨2,
  block [
    .call (some 2) Prog.Id.memcpy [.var 1, .var 0, .lit 6144],
    .asg 3 (.lit 192),
    .asg 4 (.lit 6),
    .loop (.bin .lt (.var 4) (.lit 52))
      (block [
        .ite (.bin .eq (.div (.mod .u32) (.var 4) (.lit 6)) (.lit 0))
          (.asg 5 (.lit 1))
          (.asg 5 (.bin .ne (.lit 0) (.lit 0))),
        .ite (.var 5)
          (block [
            .call (some 6) Prog.Id.memcpy [.padd (.var 1) (.bin (.mul .u32) (.var 4) (.lit 32)) 32, .padd (.var 0)
              (.var 3) 32, .lit 1024],
            .asg 3 (.bin (.add .u32) (.var 3) (.lit 32))])
          (block [
            .asg 7 (.lit 0),
            .loop (.bin .lt (.var 7) (.lit 32))
              (.st 32 (.padd (.var 1) (.bin (.add .u32) (.bin (.mul .u32) (.lit 32) (.var 4)) (.var 7)) 32) (.bin
                (.vec 21) (.ld 32 (.padd (.var 1) (.bin (.add .u32) (.bin (.mul .u32) (.lit 32) (.bin (.sub .u32)
                (.var 4) (.lit 6))) (.var 7)) 32)) (.ld 32 (.padd (.var 1) (.bin (.add .u32) (.bin (.mul .u32) (.lit
                32) (.bin (.sub .u32) (.var 4) (.lit 1))) (.var 7)) 32))))
              (.asg 7 (.bin (.add .u32) (.var 7) (.lit 1)))])])
      (.asg 4 (.bin (.add .u32) (.var 4) (.lit 1)))]⟩

/-- `aes_key_schedule_backward_192`, faest_aes.c:709-760; variables: 0 v, 1 Vk, 2 Mtag, 3 Mkey, 4 delta, 5 bf_out, 9
  bf_delta, 13 iwd, 14 c, 15 ircon, 16 bf_minus_mkey, 18 minus_mtag, 19 bf_mkey_times_delta, 20 j, 21 bf_x_tilde, 22
  i, 24 r, 25 bf_r, 26 i, 27 i -/
def aes_key_schedule_backward_192 : Fn := ⟨6,
  block [
    .ite (.bin .eq (.var 2) (.lit 1))
      (.asg 6 (.bin .ne (.bin .eq (.var 3) (.lit 1)) (.lit 0)))
      (.asg 6 (.lit 0)),
    .ite (.var 6)
      (.asg 7 (.lit 1))
      (block [
        .ite (.bin .eq (.var 3) (.lit 1))
          (.asg 8 (.bin .ne (.bin .eq (.var 4) (.lit 0)) (.lit 0)))
          (.asg 8 (.lit 0)),
        .asg 7 (.bin .ne (.var 8) (.lit 0))]),
    .ite (.un .lnot (.var 7))
      (.skip)
      (.skip),
    .ite (.var 4)
      (block [
        .call (some 11) Prog.Id.bf192_load [.var 4],
        .asg 10 (.var 11)])
      (block [
        .call (some 12) Prog.Id.bf192_zero [],
        .asg 10 (.var 12)]),
    .asg 9 (.var 10),
    .asg 13 (.lit 0),
    .asg 14 (.lit 0),
    .asg 15 (.lit 0),
    .call (some 17) Prog.Id.bf192_from_bit [.un (.cast .u8) (.bin (.bxor .i32) (.lit 1) (.var 3))],
    .asg 16 (.var 17),
    .asg 18 (.un (.cast .u8) (.bin (.bxor .i32) (.lit 1) (.var 2))),
    .asg 19 (.bin (.vec 22) (.var 9) (.bin (.vec 20) (.un (.neg .u64) (.bin (.band .u64) (.var 3) (.lit 1))) (.lit
      4))),
    .asg 19 (.bin (.vec 21) (.var 19) (.var 16)),
    .asg 20 (.lit 0),
    .loop (.bin .lt (.var 20) (.lit 32))
      (block [
        .new 21 (.lit 256),
        .asg 22 (.lit 0),
        .loop (.bin .lt (.var 22) (.lit 8))
          (.st 32 (.padd (.var 21) (.var 22) 32) (.bin (.vec 21) (.ld 32 (.padd (.var 0) (.bin (.add .u32) (.bin
            (.mul .u32) (.lit 8) (.var 20)) (.var 22)) 32)) (.ld 32 (.padd (.var 1) (.bin (.add .u32) (.bin (.add
            .u32) (.var 13) (.bin (.mul .u32) (.lit 8) (.var 14))) (.var 22)) 32))))
          (.asg 22 (.bin (.add .u32) (.var 22) (.lit 1))),
        .ite (.bin .eq (.var 2) (.lit 0))
          (.asg 23 (.bin .ne (.bin .eq (.var 14) (.lit 0)) (.lit 0)))
          (.asg 23 (.lit 0)),
        .ite (.var 23)
          (block [
            .asg 24 (.ld 1 (.padd (.glob 6) (.var 15) 1)),
            .asg 15 (.bin (.add .u32) (.var 15) (.lit 1)),
            .new 25 (.lit 256),
            .asg 26 (.lit 0),
            .loop (.bin .lt (.var 26) (.lit 8))
              (block [
                .st 32 (.padd (.var 25) (.var 26) 32) (.bin (.vec 22) (.var 19) (.bin (.vec 20) (.un (.neg .u64)
                  (.bin (.band .u64) (.un (.cast .u64) (.bin (.band .i32) (.bin (.shr .i32) (.var 24) (.var 26))
                  (.lit 1))) (.lit 1))) (.lit 4))),
                .st 32 (.padd (.var 21) (.var 26) 32) (.bin (.vec 21) (.ld 32 (.padd (.var 21) (.var 26) 32)) (.ld 32
                  (.padd (.var 25) (.var 26) 32)))])
              (.asg 26 (.bin (.add .u32) (.var 26) (.lit 1)))])
          (.skip),
        .asg 27 (.lit 0),
        .loop (.bin .lt (.var 27) (.lit 8))
          (.st 32 (.padd (.var 5) (.bin (.add .u32) (.var 27) (.bin (.mul .u32) (.lit 8) (.var 20))) 32) (.bin (.vec
            21) (.bin (.vec 21) (.ld 32 (.padd (.var 21) (.div (.mod .u32) (.bin (.add .u32) (.var 27) (.lit 7))
            (.lit 8)) 32)) (.ld 32 (.padd (.var 21) (.div (.mod .u32) (.bin (.add .u32) (.var 27) (.lit 5)) (.lit 8))
            32))) (.ld 32 (.padd (.var 21) (.div (.mod .u32) (.bin (.add .u32) (.var 27) (.lit 2)) (.lit 8)) 32))))
          (.asg 27 (.bin (.add .u32) (.var 27) (.lit 1))),
        .st 32 (.padd (.var 5) (.bin (.add .u32) (.lit 0) (.bin (.mul .u32) (.lit 8) (.var 20))) 32) (.bin (.vec 21)
          (.ld 32 (.padd (.var 5) (.bin (.add .u32) (.lit 0) (.bin (.mul .u32) (.lit 8) (.var 20))) 32)) (.bin (.vec
          22) (.var 19) (.bin (.vec 20) (.un (.neg .u64) (.bin (.band .u64) (.var 18) (.lit 1))) (.lit 4)))),
        .st 32 (.padd (.var 5) (.bin (.add .u32) (.lit 2) (.bin (.mul .u32) (.lit 8) (.var 20))) 32) (.bin (.vec 21)
          (.ld 32 (.padd (.var 5) (.bin (.add .u32) (.lit 2) (.bin (.mul .u32) (.lit 8) (.var 20))) 32)) (.bin (.vec
          22) (.var 19) (.bin (.vec 20) (.un (.neg .u64) (.bin (.band .u64) (.var 18) (.lit 1))) (.lit 4)))),
        .asg 14 (.bin (.add .u32) (.var 14) (.lit 1)),
        .ite (.bin .eq (.var 14) (.lit 4))
          (block [
            .asg 14 (.lit 0),
            .asg 13 (.bin (.add .u32) (.var 13) (.lit 192))])
          (.skip)])
      (.asg 20 (.bin (.add .u32) (.var 20) (.lit 1)))]⟩

/-- `aes_key_schedule_constraints_Mkey_0_192`, faest_aes.c:762-810; variables: 0 w, 1 v, 2 a0_ctx, 3 a1_ctx, 4 k, 5
  vk, 6 params, 7 w_dash, 8 v_w_dash, 9 iwd, 10 j, 11 bf_k_hat, 12 bf_v_k_hat, 13 bf_w_dash_hat, 14 bf_v_w_dash_hat,
  15 r, 20 r, 21 tmp -/
def aes_key_schedule_constraints_Mkey_0_192 : Fn := ⟨7,
  block [
    .ite (.bin .eq (.lit 32) (.ld 2 (.padd (.var 6) (.lit 4) 1)))
      (.skip)
      (.skip),
    .call none Prog.Id.aes_key_schedule_forward_1 [.var 0, .var 4, .var 6],
    .call none Prog.Id.aes_key_schedule_forward_192 [.var 1, .var 5],
    .new 7 (.lit 32),
    .call none Prog.Id.aes_key_schedule_backward_1 [.padd (.var 0) (.lit 24) 1, .var 4, .var 7, .var 6],
    .new 8 (.lit 8192),
    .call none Prog.Id.aes_key_schedule_backward_192 [.padd (.var 1) (.lit 192) 32, .var 5, .lit 1, .lit 0, .lit 0,
      .var 8],
    .asg 9 (.lit 160),
    .asg 10 (.lit 0),
    .loop (.bin .lt (.var 10) (.lit 8))
      (block [
        .new 11 (.lit 128),
        .new 12 (.lit 128),
        .new 13 (.lit 128),
        .new 14 (.lit 128),
        .asg 15 (.lit 0),
        .loop (.bin .le (.var 15) (.lit 3))
          (block [
            .call (some 16) Prog.Id.bf192_byte_combine_bits [.ld 1 (.padd (.var 4) (.div (.div .u32) (.bin (.add
              .u32) (.var 9) (.bin (.mul .u32) (.lit 8) (.var 15))) (.lit 8)) 1)],
            .st 32 (.padd (.var 11) (.div (.mod .u32) (.bin (.add .u32) (.var 15) (.lit 3)) (.lit 4)) 32) (.var 16),
            .call (some 17) Prog.Id.bf192_byte_combine [.padd (.var 5) (.bin (.add .u32) (.var 9) (.bin (.mul .u32)
              (.lit 8) (.var 15))) 32],
            .st 32 (.padd (.var 12) (.div (.mod .u32) (.bin (.add .u32) (.var 15) (.lit 3)) (.lit 4)) 32) (.var 17),
            .call (some 18) Prog.Id.bf192_byte_combine_bits [.ld 1 (.padd (.var 7) (.div (.div .u32) (.bin (.add
              .u32) (.bin (.mul .u32) (.lit 32) (.var 10)) (.bin (.mul .u32) (.lit 8) (.var 15))) (.lit 8)) 1)],
            .st 32 (.padd (.var 13) (.var 15) 32) (.var 18),
            .call (some 19) Prog.Id.bf192_byte_combine [.padd (.var 8) (.bin (.add .u32) (.bin (.mul .u32) (.lit 32)
              (.var 10)) (.bin (.mul .u32) (.lit 8) (.var 15))) 32],
            .st 32 (.padd (.var 14) (.var 15) 32) (.var 19)])
          (.asg 15 (.bin (.add .u32) (.var 15) (.lit 1))),
        .asg 20 (.lit 0),
        .loop (.bin .le (.var 20) (.lit 3))
          (block [
            .call (some 22) Prog.Id.bf192_mul [.ld 32 (.padd (.var 12) (.var 20) 32), .ld 32 (.padd (.var 14) (.var
              20) 32)],
            .asg 21 (.var 22),
            .call none Prog.Id.zk_hash_192_update [.var 2, .var 21],
            .call (some 23) Prog.Id.bf192_mul [.bin (.vec 21) (.ld 32 (.padd (.var 11) (.var 20) 32)) (.ld 32 (.padd
              (.var 12) (.var 20) 32)), .bin (.vec 21) (.ld 32 (.padd (.var 13) (.var 20) 32)) (.ld 32 (.padd (.var
              14) (.var 20) 32))],
            .call (some 24) Prog.Id.bf192_one [],
            .call none Prog.Id.zk_hash_192_update [.var 3, .bin (.vec 21) (.bin (.vec 21) (.var 23) (.var 24)) (.var
              21)]])
          (.asg 20 (.bin (.add .u32) (.var 20) (.lit 1))),
        .asg 9 (.bin (.add .u32) (.var 9) (.lit 192))])
      (.asg 10 (.bin (.add .u32) (.var 10) (.lit 1)))]⟩

/-- `aes_enc_forward_192_1`, faest_aes.c:842-895; variables: 0 x, 1 xk, 2 in, 3 Mtag, 4 Mkey, 5 bf_y, 6 i, 7 xin, 10
  bf_two, 12 bf_three, 14 j, 15 c, 16 ix, 17 ik, 18 iy, 19 bf_x_hat, 20 bf_xk_hat, 21 r -/
def aes_enc_forward_192_1 : Fn := ⟨6,
  block [
    .asg 6 (.lit 0),
    .loop (.bin .lt (.var 6) (.lit 16))
      (block [
        .asg 7 (.un (.cast .u8) (.bin (.band .i32) (.ld 1 (.padd (.var 2) (.var 6) 1)) (.un (.neg .i32) (.bin (.band
          .i32) (.bin (.bxor .i32) (.lit 1) (.var 3)) (.bin (.bxor .i32) (.lit 1) (.var 4)))))),
        .call (some 8) Prog.Id.bf192_byte_combine_bits [.var 7],
        .call (some 9) Prog.Id.bf192_byte_combine_bits [.ld 1 (.padd (.var 1) (.var 6) 1)],
        .st 32 (.padd (.var 5) (.var 6) 32) (.bin (.vec 21) (.var 8) (.var 9))])
      (.asg 6 (.bin (.add .u32) (.var 6) (.lit 1))),
    .call (some 11) Prog.Id.bf192_byte_combine_bits [.lit 2],
    .asg 10 (.var 11),
    .call (some 13) Prog.Id.bf192_byte_combine_bits [.lit 3],
    .asg 12 (.var 13),
    .asg 14 (.lit 1),
    .loop (.bin .lt (.var 14) (.lit 12))
      (block [
        .asg 15 (.lit 0),
        .loop (.bin .le (.var 15) (.lit 3))
          (block [
            .asg 16 (.bin (.add .u32) (.bin (.mul .u32) (.lit 128) (.bin (.sub .u32) (.var 14) (.lit 1))) (.bin (.mul
              .u32) (.lit 32) (.var 15))),
            .asg 17 (.bin (.add .u32) (.bin (.mul .u32) (.lit 128) (.var 14)) (.bin (.mul .u32) (.lit 32) (.var 15))),
            .asg 18 (.bin (.add .u32) (.bin (.mul .u32) (.lit 16) (.var 14)) (.bin (.mul .u32) (.lit 4) (.var 15))),
            .new 19 (.lit 128),
            .new 20 (.lit 128),
            .asg 21 (.lit 0),
            .loop (.bin .le (.var 21) (.lit 3))
              (block [
                .call (some 22) Prog.Id.bf192_byte_combine_bits [.ld 1 (.padd (.var 0) (.div (.div .u32) (.bin (.add
                  .u32) (.var 16) (.bin (.mul .u32) (.lit 8) (.var 21))) (.lit 8)) 1)],
                .st 32 (.padd (.var 19) (.var 21) 32) (.var 22),
                .call (some 23) Prog.Id.bf192_byte_combine_bits [.ld 1 (.padd (.var 1) (.div (.div .u32) (.bin (.add
                  .u32) (.var 17) (.bin (.mul .u32) (.lit 8) (.var 21))) (.lit 8)) 1)],
                .st 32 (.padd (.var 20) (.var 21) 32) (.var 23)])
              (.asg 21 (.bin (.add .u32) (.var 21) (.lit 1))),
            .call (some 24) Prog.Id.bf192_mul [.ld 32 (.var 19), .var 10],
            .st 32 (.padd (.var 5) (.bin (.add .u32) (.var 18) (.lit 0)) 32) (.bin (.vec 21) (.ld 32 (.var 20)) (.var
              24)),
            .call (some 25) Prog.Id.bf192_mul [.ld 32 (.padd (.var 19) (.lit 1) 32), .var 12],
            .st 32 (.padd (.var 5) (.bin (.add .u32) (.var 18) (.lit 0)) 32) (.bin (.vec 21) (.ld 32 (.padd (.var 5)
              (.bin (.add .u32) (.var 18) (.lit 0)) 32)) (.var 25)),
            .st 32 (.padd (.var 5) (.bin (.add .u32) (.var 18) (.lit 0)) 32) (.bin (.vec 21) (.ld 32 (.padd (.var 5)
              (.bin (.add .u32) (.var 18) (.lit 0)) 32)) (.ld 32 (.padd (.var 19) (.lit 2) 32))),
            .st 32 (.padd (.var 5) (.bin (.add .u32) (.var 18) (.lit 0)) 32) (.bin (.vec 21) (.ld 32 (.padd (.var 5)
              (.bin (.add .u32) (.var 18) (.lit 0)) 32)) (.ld 32 (.padd (.var 19) (.lit 3) 32))),
            .st 32 (.padd (.var 5) (.bin (.add .u32) (.var 18) (.lit 1)) 32) (.bin (.vec 21) (.ld 32 (.padd (.var 20)
              (.lit 1) 32)) (.ld 32 (.var 19))),
            .call (some 26) Prog.Id.bf192_mul [.ld 32 (.padd (.var 19) (.lit 1) 32), .var 10],
            .st 32 (.padd (.var 5) (.bin (.add .u32) (.var 18) (.lit 1)) 32) (.bin (.vec 21) (.ld 32 (.padd (.var 5)
              (.bin (.add .u32) (.var 18) (.lit 1)) 32)) (.var 26)),
            .call (some 27) Prog.Id.bf192_mul [.ld 32 (.padd (.var 19) (.lit 2) 32), .var 12],
            .st 32 (.padd (.var 5) (.bin (.add .u32) (.var 18) (.lit 1)) 32) (.bin (.vec 21) (.ld 32 (.padd (.var 5)
              (.bin (.add .u32) (.var 18) (.lit 1)) 32)) (.var 27)),
            .st 32 (.padd (.var 5) (.bin (.add .u32) (.var 18) (.lit 1)) 32) (.bin (.vec 21) (.ld 32 (.padd (.var 5)
              (.bin (.add .u32) (.var 18) (.lit 1)) 32)) (.ld 32 (.padd (.var 19) (.lit 3) 32))),
            .st 32 (.padd (.var 5) (.bin (.add .u32) (.var 18) (.lit 2)) 32) (.bin (.vec 21) (.ld 32 (.padd (.var 20)
              (.lit 2) 32)) (.ld 32 (.var 19))),
            .st 32 (.padd (.var 5) (.bin (.add .u32) (.var 18) (.lit 2)) 32) (.bin (.vec 21) (.ld 32 (.padd (.var 5)
              (.bin (.add .u32) (.var 18) (.lit 2)) 32)) (.ld 32 (.padd (.var 19) (.lit 1) 32))),
            .call (some 28) Prog.Id.bf192_mul [.ld 32 (.padd (.var 19) (.lit 2) 32), .var 10],
            .st 32 (.padd (.var 5) (.bin (.add .u32) (.var 18) (.lit 2)) 32) (.bin (.vec 21) (.ld 32 (.padd (.var 5)
              (.bin (.add .u32) (.var 18) (.lit 2)) 32)) (.var 28)),
            .call (some 29) Prog.Id.bf192_mul [.ld 32 (.padd (.var 19) (.lit 3) 32), .var 12],
            .st 32 (.padd (.var 5) (.bin (.add .u32) (.var 18) (.lit 2)) 32) (.bin (.vec 21) (.ld 32 (.padd (.var 5)
              (.bin (.add .u32) (.var 18) (.lit 2)) 32)) (.var 29)),
            .call (some 30) Prog.Id.bf192_mul [.ld 32 (.var 19), .var 12],
            .st 32 (.padd (.var 5) (.bin (.add .u32) (.var 18) (.lit 3)) 32) (.bin (.vec 21) (.ld 32 (.padd (.var 20)
              (.lit 3) 32)) (.var 30)),
            .st 32 (.padd (.var 5) (.bin (.add .u32) (.var 18) (.lit 3)) 32) (.bin (.vec 21) (.ld 32 (.padd (.var 5)
              (.bin (.add .u32) (.var 18) (.lit 3)) 32)) (.ld 32 (.padd (.var 19) (.lit 1) 32))),
            .st 32 (.padd (.var 5) (.bin (.add .u32) (.var 18) (.lit 3)) 32) (.bin (.vec 21) (.ld 32 (.padd (.var 5)
              (.bin (.add .u32) (.var 18) (.lit 3)) 32)) (.ld 32 (.padd (.var 19) (.lit 2) 32))),
            .call (some 31) Prog.Id.bf192_mul [.ld 32 (.padd (.var 19) (.lit 3) 32), .var 10],
            .st 32 (.padd (.var 5) (.bin (.add .u32) (.var 18) (.lit 3)) 32) (.bin (.vec 21) (.ld 32 (.padd (.var 5)
              (.bin (.add .u32) (.var 18) (.lit 3)) 32)) (.var 31))])
          (.asg 15 (.bin (.add .u32) (.var 15) (.lit 1)))])
      (.asg 14 (.bin (.add .u32) (.var 14) (.lit 1))),
    .ret (.lit 0)]⟩

/-- `aes_enc_forward_192`, faest_aes.c:897-954; variables: 0 bf_x, 1 bf_xk, 2 in, 3 Mtag, 4 Mkey, 5 delta, 6 bf_y, 7
  bf_delta, 11 bf_factor, 13 i, 14 bf_xin, 15 j, 18 bf_two, 20 bf_three, 22 j, 23 c, 24 ix, 25 ik, 26 iy, 27
  bf_x_hat, 28 bf_xk_hat, 29 r -/
def aes_enc_forward_192 : Fn := ⟨7,
  block [
    .ite (.var 5)
      (block [
        .call (some 9) Prog.Id.bf192_load [.var 5],
        .asg 8 (.var 9)])
      (block [
        .call (some 10) Prog.Id.bf192_zero [],
        .asg 8 (.var 10)]),
    .asg 7 (.var 8),
    .call (some 12) Prog.Id.bf192_from_bit [.un (.cast .u8) (.bin (.bxor .i32) (.lit 1) (.var 4))],
    .asg 11 (.bin (.vec 21) (.bin (.vec 22) (.var 7) (.bin (.vec 20) (.un (.neg .u64) (.bin (.band .u64) (.var 4)
      (.lit 1))) (.lit 4))) (.var 12)),
    .asg 13 (.lit 0),
    .loop (.bin .lt (.var 13) (.lit 16))
      (block [
        .new 14 (.lit 256),
        .asg 15 (.lit 0),
        .loop (.bin .lt (.var 15) (.lit 8))
          (.st 32 (.padd (.var 14) (.var 15) 32) (.bin (.vec 22) (.var 11) (.bin (.vec 20) (.un (.neg .u64) (.bin
            (.band .u64) (.un (.cast .u64) (.bin (.band .i32) (.bin (.bxor .i32) (.lit 1) (.var 3)) (.bin (.band
            .i32) (.bin (.shr .i32) (.ld 1 (.padd (.var 2) (.var 13) 1)) (.var 15)) (.lit 1)))) (.lit 1))) (.lit 4))))
          (.asg 15 (.bin (.add .u32) (.var 15) (.lit 1))),
        .call (some 16) Prog.Id.bf192_byte_combine [.var 14],
        .call (some 17) Prog.Id.bf192_byte_combine [.padd (.var 1) (.bin (.mul .u32) (.lit 8) (.var 13)) 32],
        .st 32 (.padd (.var 6) (.var 13) 32) (.bin (.vec 21) (.var 16) (.var 17))])
      (.asg 13 (.bin (.add .u32) (.var 13) (.lit 1))),
    .call (some 19) Prog.Id.bf192_byte_combine_bits [.lit 2],
    .asg 18 (.var 19),
    .call (some 21) Prog.Id.bf192_byte_combine_bits [.lit 3],
    .asg 20 (.var 21),
    .asg 22 (.lit 1),
    .loop (.bin .lt (.var 22) (.lit 12))
      (block [
        .asg 23 (.lit 0),
        .loop (.bin .le (.var 23) (.lit 3))
          (block [
            .asg 24 (.bin (.add .u32) (.bin (.mul .u32) (.lit 128) (.bin (.sub .u32) (.var 22) (.lit 1))) (.bin (.mul
              .u32) (.lit 32) (.var 23))),
            .asg 25 (.bin (.add .u32) (.bin (.mul .u32) (.lit 128) (.var 22)) (.bin (.mul .u32) (.lit 32) (.var 23))),
            .asg 26 (.bin (.add .u32) (.bin (.mul .u32) (.lit 16) (.var 22)) (.bin (.mul .u32) (.lit 4) (.var 23))),
            .new 27 (.lit 128),
            .new 28 (.lit 128),
            .asg 29 (.lit 0),
            .loop (.bin .le (.var 29) (.lit 3))
              (block [
                .call (some 30) Prog.Id.bf192_byte_combine [.padd (.var 0) (.bin (.add .u32) (.var 24) (.bin (.mul
                  .u32) (.lit 8) (.var 29))) 32],
                .st 32 (.padd (.var 27) (.var 29) 32) (.var 30),
                .call (some 31) Prog.Id.bf192_byte_combine [.padd (.var 1) (.bin (.add .u32) (.var 25) (.bin (.mul
                  .u32) (.lit 8) (.var 29))) 32],
                .st 32 (.padd (.var 28) (.var 29) 32) (.var 31)])
              (.asg 29 (.bin (.add .u32) (.var 29) (.lit 1))),
            .call (some 32) Prog.Id.bf192_mul [.ld 32 (.var 27), .var 18],
            .st 32 (.padd (.var 6) (.bin (.add .u32) (.var 26) (.lit 0)) 32) (.bin (.vec 21) (.ld 32 (.var 28)) (.var
              32)),
            .call (some 33) Prog.Id.bf192_mul [.ld 32 (.padd (.var 27) (.lit 1) 32), .var 20],
            .st 32 (.padd (.var 6) (.bin (.add .u32) (.var 26) (.lit 0)) 32) (.bin (.vec 21) (.ld 32 (.padd (.var 6)
              (.bin (.add .u32) (.var 26) (.lit 0)) 32)) (.var 33)),
            .st 32 (.padd (.var 6) (.bin (.add .u32) (.var 26) (.lit 0)) 32) (.bin (.vec 21) (.ld 32 (.padd (.var 6)
              (.bin (.add .u32) (.var 26) (.lit 0)) 32)) (.ld 32 (.padd (.var 27) (.lit 2) 32))),
            .st 32 (.padd (.var 6) (.bin (.add .u32) (.var 26) (.lit 0)) 32) (.bin (.vec 21) (.ld 32 (.padd (.var 6)
              (.bin (.add .u32) (.var 26) (.lit 0)) 32)) (.ld 32 (.padd (.var 27) (.lit 3) 32))),
            .st 32 (.padd (.var 6) (.bin (.add .u32) (.var 26) (.lit 1)) 32) (.bin (.vec 21) (.ld 32 (.padd (.var 28)
              (.lit 1) 32)) (.ld 32 (.var 27))),
            .call (some 34) Prog.Id.bf192_mul [.ld 32 (.padd (.var 27) (.lit 1) 32), .var 18],
            .st 32 (.padd (.var 6) (.bin (.add .u32) (.var 26) (.lit 1)) 32) (.bin (.vec 21) (.ld 32 (.padd (.var 6)
              (.bin (.add .u32) (.var 26) (.lit 1)) 32)) (.var 34)),
            .call (some 35) Prog.Id.bf192_mul [.ld 32 (.padd (.var 27) (.lit 2) 32), .var 20],
            .st 32 (.padd (.var 6) (.bin (.add .u32) (.var 26) (.lit 1)) 32) (.bin (.vec 21) (.ld 32 (.padd (.var 6)
              (.bin (.add .u32) (.var 26) (.lit 1)) 32)) (.var 35)),
            .st 32 (.padd (.var 6) (.bin (.add .u32) (.var 26) (.lit 1)) 32) (.bin (.vec 21) (.ld 32 (.padd (.var 6)
              (.bin (.add .u32) (.var 26) (.lit 1)) 32)) (.ld 32 (.padd (.var 27) (.lit 3) 32))),
            .st 32 (.padd (.var 6) (.bin (.add .u32) (.var 26) (.lit 2)) 32) (.bin (.vec 21) (.ld 32 (.padd (.var 28)
              (.lit 2) 32)) (.ld 32 (.var 27))),
            .st 32 (.padd (.var 6) (.bin (.add .u32) (.var 26) (.lit 2)) 32) (.bin (.vec 21) (.ld 32 (.padd (.var 6)
              (.bin (.add .u32) (.var 26) (.lit 2)) 32)) (.ld 32 (.padd (.var 27) (.lit 1) 32))),
            .call (some 36) Prog.Id.bf192_mul [.ld 32 (.padd (.var 27) (.lit 2) 32), .var 18],
            .st 32 (.padd (.var 6) (.bin (.add .u32) (.var 26) (.lit 2)) 32) (.bin (.vec 21) (.ld 32 (.padd (.var 6)
              (.bin (.add .u32) (.var 26) (.lit 2)) 32)) (.var 36)),
            .call (some 37) Prog.Id.bf192_mul [.ld 32 (.padd (.var 27) (.lit 3) 32), .var 20],
            .st 32 (.padd (.var 6) (.bin (.add .u32) (.var 26) (.lit 2)) 32) (.bin (.vec 21) (.ld 32 (.padd (.var 6)
              (.bin (.add .u32) (.var 26) (.lit 2)) 32)) (.var 37)),
            .call (some 38) Prog.Id.bf192_mul [.ld 32 (.var 27), .var 20],
            .st 32 (.padd (.var 6) (.bin (.add .u32) (.var 26) (.lit 3)) 32) (.bin (.vec 21) (.ld 32 (.padd (.var 28)
              (.lit 3) 32)) (.var 38)),
            .st 32 (.padd (.var 6) (.bin (.add .u32) (.var 26) (.lit 3)) 32) (.bin (.vec 21) (.ld 32 (.padd (.var 6)
              (.bin (.add .u32) (.var 26) (.lit 3)) 32)) (.ld 32 (.padd (.var 27) (.lit 1) 32))),
            .st 32 (.padd (.var 6) (.bin (.add .u32) (.var 26) (.lit 3)) 32) (.bin (.vec 21) (.ld 32 (.padd (.var 6)
              (.bin (.add .u32) (.var 26) (.lit 3)) 32)) (.ld 32 (.padd (.var 27) (.lit 2) 32))),
            .call (some 39) Prog.Id.bf192_mul [.ld 32 (.padd (.var 27) (.lit 3) 32), .var 18],
            .st 32 (.padd (.var 6) (.bin (.add .u32) (.var 26) (.lit 3)) 32) (.bin (.vec 21) (.ld 32 (.padd (.var 6)
              (.bin (.add .u32) (.var 26) (.lit 3)) 32)) (.var 39))])
          (.asg 23 (.bin (.add .u32) (.var 23) (.lit 1)))])
      (.asg 22 (.bin (.add .u32) (.var 22) (.lit 1)))]⟩

/-- `aes_enc_backward_192_1`, faest_aes.c:956-985; variables: 0 x, 1 xk, 2 Mtag, 3 Mkey, 4 out, 5 y_out, 6 xtilde, 7
  j, 8 c, 9 r, 10 ird, 11 xout, 12 ytilde -/
def aes_enc_backward_192_1 : Fn := ⟨6,
  block [
    .asg 7 (.lit 0),
    .loop (.bin .lt (.var 7) (.lit 12))
      (block [
        .asg 8 (.lit 0),
        .loop (.bin .le (.var 8) (.lit 3))
          (block [
            .asg 9 (.lit 0),
            .loop (.bin .le (.var 9) (.lit 3))
              (block [
                .asg 10 (.bin (.add .u32) (.bin (.add .u32) (.bin (.mul .u32) (.lit 128) (.var 7)) (.bin (.mul .u32)
                  (.lit 32) (.div (.mod .u32) (.bin (.add .u32) (.bin (.sub .u32) (.var 8) (.var 9)) (.lit 4)) (.lit
                  4)))) (.bin (.mul .u32) (.lit 8) (.var 9))),
                .ite (.bin .lt (.var 7) (.lit 11))
                  (.asg 6 (.ld 1 (.padd (.var 0) (.div (.div .u32) (.var 10) (.lit 8)) 1)))
                  (block [
                    .asg 11 (.un (.cast .u8) (.bin (.band .i32) (.ld 1 (.padd (.var 4) (.div (.div .u32) (.bin (.sub
                      .u32) (.var 10) (.lit 1408)) (.lit 8)) 1)) (.un (.neg .i32) (.bin (.band .i32) (.bin (.bxor
                      .i32) (.lit 1) (.var 2)) (.bin (.bxor .i32) (.lit 1) (.var 3)))))),
                    .asg 6 (.un (.cast .u8) (.bin (.bxor .i32) (.var 11) (.ld 1 (.padd (.var 1) (.div (.div .u32)
                      (.bin (.add .u32) (.lit 128) (.var 10)) (.lit 8)) 1))))]),
                .call (some 13) Prog.Id.rotr8 [.var 6, .lit 7],
                .call (some 14) Prog.Id.rotr8 [.var 6, .lit 5],
                .call (some 15) Prog.Id.rotr8 [.var 6, .lit 2],
                .asg 12 (.un (.cast .u8) (.bin (.bxor .i32) (.bin (.bxor .i32) (.var 13) (.var 14)) (.var 15))),
                .asg 12 (.un (.cast .u8) (.bin (.bxor .i32) (.var 12) (.bin (.shl .i32) (.bin (.band .i32) (.bin
                  (.bxor .i32) (.lit 1) (.var 2)) (.bin (.bxor .i32) (.lit 1) (.var 3))) (.lit 0)))),
                .asg 12 (.un (.cast .u8) (.bin (.bxor .i32) (.var 12) (.bin (.shl .i32) (.bin (.band .i32) (.bin
                  (.bxor .i32) (.lit 1) (.var 2)) (.bin (.bxor .i32) (.lit 1) (.var 3))) (.lit 2)))),
                .call (some 16) Prog.Id.bf192_byte_combine_bits [.var 12],
                .st 32 (.padd (.var 5) (.bin (.add .u32) (.bin (.add .u32) (.bin (.mul .u32) (.lit 16) (.var 7))
                  (.bin (.mul .u32) (.lit 4) (.var 8))) (.var 9)) 32) (.var 16)])
              (.asg 9 (.bin (.add .u32) (.var 9) (.lit 1)))])
          (.asg 8 (.bin (.add .u32) (.var 8) (.lit 1)))])
      (.asg 7 (.bin (.add .u32) (.var 7) (.lit 1))),
    .ret (.lit 0)]⟩

/-- `aes_enc_backward_192`, faest_aes.c:987-1030; variables: 0 bf_x, 1 bf_xk, 2 Mtag, 3 Mkey, 4 delta, 5 out, 6
  y_out, 7 bf_delta, 11 factor, 13 j, 14 c, 15 r, 16 bf_x_tilde, 17 ird, 19 i, 20 bf_xout, 21 bf_y_tilde, 22 i -/
def aes_enc_backward_192 : Fn := ⟨7,
  block [
    .ite (.var 4)
      (block [
        .call (some 9) Prog.Id.bf192_load [.var 4],
        .asg 8 (.var 9)])
      (block [
        .call (some 10) Prog.Id.bf192_zero [],
        .asg 8 (.var 10)]),
    .asg 7 (.var 8),
    .call (some 12) Prog.Id.bf192_from_bit [.un (.cast .u8) (.bin (.bxor .i32) (.lit 1) (.var 3))],
    .asg 11 (.bin (.vec 22) (.bin (.vec 21) (.bin (.vec 22) (.var 7) (.bin (.vec 20) (.un (.neg .u64) (.bin (.band
      .u64) (.var 3) (.lit 1))) (.lit 4))) (.var 12)) (.bin (.vec 20) (.un (.neg .u64) (.bin (.band .u64) (.un (.cast
      .u64) (.bin (.bxor .i32) (.lit 1) (.var 2))) (.lit 1))) (.lit 4))),
    .asg 13 (.lit 0),
    .loop (.bin .lt (.var 13) (.lit 12))
      (block [
        .asg 14 (.lit 0),
        .loop (.bin .le (.var 14) (.lit 3))
          (block [
            .asg 15 (.lit 0),
            .loop (.bin .le (.var 15) (.lit 3))
              (block [
                .new 16 (.lit 256),
                .asg 17 (.bin (.add .u32) (.bin (.add .u32) (.bin (.mul .u32) (.lit 128) (.var 13)) (.bin (.mul .u32)
                  (.lit 32) (.div (.mod .u32) (.bin (.add .u32) (.bin (.sub .u32) (.var 14) (.var 15)) (.lit 4))
                  (.lit 4)))) (.bin (.mul .u32) (.lit 8) (.var 15))),
                .ite (.bin .lt (.var 13) (.lit 11))
                  (.call (some 18) Prog.Id.memcpy [.var 16, .padd (.var 0) (.var 17) 32, .lit 256])
                  (block [
                    .asg 19 (.lit 0),
                    .loop (.bin .lt (.var 19) (.lit 8))
                      (block [
                        .asg 20 (.bin (.vec 22) (.var 11) (.bin (.vec 20) (.un (.neg .u64) (.bin (.band .u64) (.un
                          (.cast .u64) (.bin (.band .i32) (.bin (.shr .i32) (.ld 1 (.padd (.var 5) (.div (.div .u32)
                          (.bin (.sub .u32) (.var 17) (.lit 1408)) (.lit 8)) 1)) (.var 19)) (.lit 1))) (.lit 1)))
                          (.lit 4))),
                        .st 32 (.padd (.var 16) (.var 19) 32) (.bin (.vec 21) (.var 20) (.ld 32 (.padd (.var 1) (.bin
                          (.add .u32) (.bin (.add .u32) (.lit 128) (.var 17)) (.var 19)) 32)))])
                      (.asg 19 (.bin (.add .u32) (.var 19) (.lit 1)))]),
                .new 21 (.lit 256),
                .asg 22 (.lit 0),
                .loop (.bin .lt (.var 22) (.lit 8))
                  (.st 32 (.padd (.var 21) (.var 22) 32) (.bin (.vec 21) (.bin (.vec 21) (.ld 32 (.padd (.var 16)
                    (.div (.mod .u32) (.bin (.add .u32) (.var 22) (.lit 7)) (.lit 8)) 32)) (.ld 32 (.padd (.var 16)
                    (.div (.mod .u32) (.bin (.add .u32) (.var 22) (.lit 5)) (.lit 8)) 32))) (.ld 32 (.padd (.var 16)
                    (.div (.mod .u32) (.bin (.add .u32) (.var 22) (.lit 2)) (.lit 8)) 32))))
                  (.asg 22 (.bin (.add .u32) (.var 22) (.lit 1))),
                .st 32 (.var 21) (.bin (.vec 21) (.ld 32 (.var 21)) (.var 11)),
                .st 32 (.padd (.var 21) (.lit 2) 32) (.bin (.vec 21) (.ld 32 (.padd (.var 21) (.lit 2) 32)) (.var
                  11)),
                .call (some 23) Prog.Id.bf192_byte_combine [.var 21],
                .st 32 (.padd (.var 6) (.bin (.add .u32) (.bin (.add .u32) (.bin (.mul .u32) (.lit 16) (.var 13))
                  (.bin (.mul .u32) (.lit 4) (.var 14))) (.var 15)) 32) (.var 23)])
              (.asg 15 (.bin (.add .u32) (.var 15) (.lit 1)))])
          (.asg 14 (.bin (.add .u32) (.var 14) (.lit 1)))])
      (.asg 13 (.bin (.add .u32) (.var 13) (.lit 1)))]⟩

/-- `aes_enc_constraints_Mkey_0_192`, faest_aes.c:1032-1053; variables: 0 in, 1 out, 2 w, 3 v, 4 k, 5 vk, 6 a0_ctx, 7
  a1_ctx, 8 s, 9 vs, 10 s_dash, 11 vs_dash, 12 j, 13 tmp -/
def aes_enc_constraints_Mkey_0_192 : Fn := ⟨8,
  block [
    .new 8 (.lit 6144),
    .new 9 (.lit 6144),
    .new 10 (.lit 6144),
    .new 11 (.lit 6144),
    .call none Prog.Id.aes_enc_forward_192_1 [.var 2, .var 4, .var 0, .lit 0, .lit 0, .var 8],
    .call none Prog.Id.aes_enc_forward_192 [.var 3, .var 5, .var 0, .lit 1, .lit 0, .lit 0, .var 9],
    .call none Prog.Id.aes_enc_backward_192_1 [.var 2, .var 4, .lit 0, .lit 0, .var 1, .var 10],
    .call none Prog.Id.aes_enc_backward_192 [.var 3, .var 5, .lit 1, .lit 0, .lit 0, .var 1, .var 11],
    .asg 12 (.lit 0),
    .loop (.bin .lt (.var 12) (.lit 192))
      (block [
        .call (some 14) Prog.Id.bf192_mul [.ld 32 (.padd (.var 9) (.var 12) 32), .ld 32 (.padd (.var 11) (.var 12)
          32)],
        .asg 13 (.var 14),
        .call none Prog.Id.zk_hash_192_update [.var 6, .var 13],
        .call (some 15) Prog.Id.bf192_mul [.bin (.vec 21) (.ld 32 (.padd (.var 8) (.var 12) 32)) (.ld 32 (.padd (.var
          9) (.var 12) 32)), .bin (.vec 21) (.ld 32 (.padd (.var 10) (.var 12) 32)) (.ld 32 (.padd (.var 11) (.var
          12) 32))],
        .call (some 16) Prog.Id.bf192_one [],
        .call none Prog.Id.zk_hash_192_update [.var 7, .bin (.vec 21) (.bin (.vec 21) (.var 15) (.var 13)) (.var
          16)]])
      (.asg 12 (.bin (.add .u32) (.var 12) (.lit 1)))]⟩

/-- `aes_prove_192`, faest_aes.c:1072-1108; variables: 0 w, 1 u, 2 V, 3 in, 4 out, 5 chall, 6 a_tilde, 7 b_tilde, 8
  params, 9 bf_v, 11 k, 13 vk, 15 a0_ctx, 16 a1_ctx -/
def aes_prove_192 : Fn := ⟨9,
  block [
    .call (some 10) Prog.Id.column_to_row_major_and_shrink_V_192 [.var 2, .lit 3264],
    .asg 9 (.var 10),
    .new 12 (.lit 208),
    .asg 11 (.var 12),
    .new 14 (.lit 53248),
    .asg 13 (.var 14),
    .new 15 (.lit 128),
    .new 16 (.lit 128),
    .call none Prog.Id.zk_hash_192_init [.var 15, .var 5],
    .call none Prog.Id.zk_hash_192_init [.var 16, .var 5],
    .call none Prog.Id.aes_key_schedule_constraints_Mkey_0_192 [.var 0, .var 9, .var 15, .var 16, .var 11, .var 13,
      .var 8],
    .call none Prog.Id.aes_enc_constraints_Mkey_0_192 [.var 3, .var 4, .padd (.var 0) (.lit 56) 1, .padd (.var 9)
      (.lit 448) 32, .var 11, .var 13, .var 15, .var 16],
    .call none Prog.Id.aes_enc_constraints_Mkey_0_192 [.padd (.var 3) (.lit 16) 1, .padd (.var 4) (.lit 16) 1, .padd
      (.var 0) (.lit 232) 1, .padd (.padd (.var 9) (.lit 448) 32) (.lit 1408) 32, .var 11, .var 13, .var 15, .var 16],
    .free (.var 13),
    .free (.var 11),
    .call (some 17) Prog.Id.bf192_load [.padd (.var 1) (.lit 408) 1],
    .call none Prog.Id.zk_hash_192_finalize [.var 6, .var 16, .var 17],
    .call (some 18) Prog.Id.bf192_sum_poly [.padd (.var 9) (.lit 3264) 32],
    .call none Prog.Id.zk_hash_192_finalize [.var 7, .var 15, .var 18],
    .free (.var 9)]⟩

/-- `em_enc_forward_192_1`, faest_aes.c:1966-2009; variables: 0 z, 1 x, 2 bf_y, 3 j, 6 bf_two, 8 bf_three, 10 j, 11
  c, 12 i, 13 iy, 14 bf_x_hat, 15 bf_z_hat, 16 r -/
def em_enc_forward_192_1 : Fn := ⟨3,
  block [
    .asg 3 (.lit 0),
    .loop (.bin .lt (.var 3) (.lit 24))
      (block [
        .call (some 4) Prog.Id.bf192_byte_combine_bits [.ld 1 (.padd (.var 0) (.var 3) 1)],
        .call (some 5) Prog.Id.bf192_byte_combine_bits [.ld 1 (.padd (.var 1) (.var 3) 1)],
        .st 32 (.padd (.var 2) (.var 3) 32) (.bin (.vec 21) (.var 4) (.var 5))])
      (.asg 3 (.bin (.add .u32) (.var 3) (.lit 1))),
    .call (some 7) Prog.Id.bf192_byte_combine_bits [.lit 2],
    .asg 6 (.var 7),
    .call (some 9) Prog.Id.bf192_byte_combine_bits [.lit 3],
    .asg 8 (.var 9),
    .asg 10 (.lit 1),
    .loop (.bin .lt (.var 10) (.lit 12))
      (block [
        .asg 11 (.lit 0),
        .loop (.bin .lt (.var 11) (.lit 6))
          (block [
            .asg 12 (.bin (.add .u32) (.bin (.mul .u32) (.lit 192) (.var 10)) (.bin (.mul .u32) (.lit 32) (.var 11))),
            .asg 13 (.bin (.add .u32) (.bin (.mul .u32) (.lit 24) (.var 10)) (.bin (.mul .u32) (.lit 4) (.var 11))),
            .new 14 (.lit 128),
            .new 15 (.lit 128),
            .asg 16 (.lit 0),
            .loop (.bin .le (.var 16) (.lit 3))
              (block [
                .call (some 17) Prog.Id.bf192_byte_combine_bits [.ld 1 (.padd (.var 0) (.div (.div .u32) (.bin (.add
                  .u32) (.var 12) (.bin (.mul .u32) (.lit 8) (.var 16))) (.lit 8)) 1)],
                .st 32 (.padd (.var 15) (.var 16) 32) (.var 17),
                .call (some 18) Prog.Id.bf192_byte_combine_bits [.ld 1 (.padd (.var 1) (.div (.div .u32) (.bin (.add
                  .u32) (.var 12) (.bin (.mul .u32) (.lit 8) (.var 16))) (.lit 8)) 1)],
                .st 32 (.padd (.var 14) (.var 16) 32) (.var 18)])
              (.asg 16 (.bin (.add .u32) (.var 16) (.lit 1))),
            .call (some 19) Prog.Id.bf192_mul [.ld 32 (.var 15), .var 6],
            .call (some 20) Prog.Id.bf192_mul [.ld 32 (.padd (.var 15) (.lit 1) 32), .var 8],
            .st 32 (.padd (.var 2) (.bin (.add .u32) (.var 13) (.lit 0)) 32) (.bin (.vec 21) (.var 19) (.var 20)),
            .st 32 (.padd (.var 2) (.bin (.add .u32) (.var 13) (.lit 0)) 32) (.bin (.vec 21) (.ld 32 (.padd (.var 2)
              (.bin (.add .u32) (.var 13) (.lit 0)) 32)) (.ld 32 (.padd (.var 15) (.lit 2) 32))),
            .st 32 (.padd (.var 2) (.bin (.add .u32) (.var 13) (.lit 0)) 32) (.bin (.vec 21) (.ld 32 (.padd (.var 2)
              (.bin (.add .u32) (.var 13) (.lit 0)) 32)) (.ld 32 (.padd (.var 15) (.lit 3) 32))),
            .st 32 (.padd (.var 2) (.bin (.add .u32) (.var 13) (.lit 0)) 32) (.bin (.vec 21) (.ld 32 (.padd (.var 2)
              (.bin (.add .u32) (.var 13) (.lit 0)) 32)) (.ld 32 (.var 14))),
            .call (some 21) Prog.Id.bf192_mul [.ld 32 (.padd (.var 15) (.lit 1) 32), .var 6],
            .st 32 (.padd (.var 2) (.bin (.add .u32) (.var 13) (.lit 1)) 32) (.bin (.vec 21) (.ld 32 (.var 15)) (.var
              21)),
            .call (some 22) Prog.Id.bf192_mul [.ld 32 (.padd (.var 15) (.lit 2) 32), .var 8],
            .st 32 (.padd (.var 2) (.bin (.add .u32) (.var 13) (.lit 1)) 32) (.bin (.vec 21) (.ld 32 (.padd (.var 2)
              (.bin (.add .u32) (.var 13) (.lit 1)) 32)) (.var 22)),
            .st 32 (.padd (.var 2) (.bin (.add .u32) (.var 13) (.lit 1)) 32) (.bin (.vec 21) (.ld 32 (.padd (.var 2)
              (.bin (.add .u32) (.var 13) (.lit 1)) 32)) (.ld 32 (.padd (.var 15) (.lit 3) 32))),
            .st 32 (.padd (.var 2) (.bin (.add .u32) (.var 13) (.lit 1)) 32) (.bin (.vec 21) (.ld 32 (.padd (.var 2)
              (.bin (.add .u32) (.var 13) (.lit 1)) 32)) (.ld 32 (.padd (.var 14) (.lit 1) 32))),
            .st 32 (.padd (.var 2) (.bin (.add .u32) (.var 13) (.lit 2)) 32) (.bin (.vec 21) (.ld 32 (.var 15)) (.ld
              32 (.padd (.var 15) (.lit 1) 32))),
            .call (some 23) Prog.Id.bf192_mul [.ld 32 (.padd (.var 15) (.lit 2) 32), .var 6],
            .st 32 (.padd (.var 2) (.bin (.add .u32) (.var 13) (.lit 2)) 32) (.bin (.vec 21) (.ld 32 (.padd (.var 2)
              (.bin (.add .u32) (.var 13) (.lit 2)) 32)) (.var 23)),
            .call (some 24) Prog.Id.bf192_mul [.ld 32 (.padd (.var 15) (.lit 3) 32), .var 8],
            .st 32 (.padd (.var 2) (.bin (.add .u32) (.var 13) (.lit 2)) 32) (.bin (.vec 21) (.ld 32 (.padd (.var 2)
              (.bin (.add .u32) (.var 13) (.lit 2)) 32)) (.var 24)),
            .st 32 (.padd (.var 2) (.bin (.add .u32) (.var 13) (.lit 2)) 32) (.bin (.vec 21) (.ld 32 (.padd (.var 2)
              (.bin (.add .u32) (.var 13) (.lit 2)) 32)) (.ld 32 (.padd (.var 14) (.lit 2) 32))),
            .call (some 25) Prog.Id.bf192_mul [.ld 32 (.var 15), .var 8],
            .st 32 (.padd (.var 2) (.bin (.add .u32) (.var 13) (.lit 3)) 32) (.bin (.vec 21) (.var 25) (.ld 32 (.padd
              (.var 15) (.lit 1) 32))),
            .st 32 (.padd (.var 2) (.bin (.add .u32) (.var 13) (.lit 3)) 32) (.bin (.vec 21) (.ld 32 (.padd (.var 2)
              (.bin (.add .u32) (.var 13) (.lit 3)) 32)) (.ld 32 (.padd (.var 15) (.lit 2) 32))),
            .call (some 26) Prog.Id.bf192_mul [.ld 32 (.padd (.var 15) (.lit 3) 32), .var 6],
            .st 32 (.padd (.var 2) (.bin (.add .u32) (.var 13) (.lit 3)) 32) (.bin (.vec 21) (.ld 32 (.padd (.var 2)
              (.bin (.add .u32) (.var 13) (.lit 3)) 32)) (.var 26)),
            .st 32 (.padd (.var 2) (.bin (.add .u32) (.var 13) (.lit 3)) 32) (.bin (.vec 21) (.ld 32 (.padd (.var 2)
              (.bin (.add .u32) (.var 13) (.lit 3)) 32)) (.ld 32 (.padd (.var 14) (.lit 3) 32)))])
          (.asg 11 (.bin (.add .u32) (.var 11) (.lit 1)))])
      (.asg 10 (.bin (.add .u32) (.var 10) (.lit 1)))]⟩

/-- `em_enc_forward_192`, faest_aes.c:2011-2061; variables: 0 bf_z, 1 bf_x, 2 bf_y, 3 j, 6 bf_two, 8 bf_three, 10 j,
  11 c, 12 i, 13 iy, 14 bf_x_hat, 15 bf_z_hat, 16 r -/
def em_enc_forward_192 : Fn := ⟨3,
  block [
    .asg 3 (.lit 0),
    .loop (.bin .lt (.var 3) (.lit 24))
      (block [
        .call (some 4) Prog.Id.bf192_byte_combine [.padd (.var 0) (.bin (.mul .u32) (.lit 8) (.var 3)) 32],
        .st 32 (.padd (.var 2) (.var 3) 32) (.var 4),
        .ite (.var 1)
          (block [
            .call (some 5) Prog.Id.bf192_byte_combine [.padd (.var 1) (.bin (.mul .u32) (.lit 8) (.var 3)) 32],
            .st 32 (.padd (.var 2) (.var 3) 32) (.bin (.vec 21) (.ld 32 (.padd (.var 2) (.var 3) 32)) (.var 5))])
          (.skip)])
      (.asg 3 (.bin (.add .u32) (.var 3) (.lit 1))),
    .call (some 7) Prog.Id.bf192_byte_combine_bits [.lit 2],
    .asg 6 (.var 7),
    .call (some 9) Prog.Id.bf192_byte_combine_bits [.lit 3],
    .asg 8 (.var 9),
    .asg 10 (.lit 1),
    .loop (.bin .lt (.var 10) (.lit 12))
      (block [
        .asg 11 (.lit 0),
        .loop (.bin .lt (.var 11) (.lit 6))
          (block [
            .asg 12 (.bin (.add .u32) (.bin (.mul .u32) (.lit 192) (.var 10)) (.bin (.mul .u32) (.lit 32) (.var 11))),
            .asg 13 (.bin (.add .u32) (.bin (.mul .u32) (.lit 24) (.var 10)) (.bin (.mul .u32) (.lit 4) (.var 11))),
            .new 14 (.lit 128),
            .new 15 (.lit 128),
            .asg 16 (.lit 0),
            .loop (.bin .le (.var 16) (.lit 3))
              (block [
                .call (some 17) Prog.Id.bf192_byte_combine [.padd (.var 0) (.bin (.add .u32) (.var 12) (.bin (.mul
                  .u32) (.lit 8) (.var 16))) 32],
                .st 32 (.padd (.var 15) (.var 16) 32) (.var 17),
                .ite (.var 1)
                  (block [
                    .call (some 18) Prog.Id.bf192_byte_combine [.padd (.var 1) (.bin (.add .u32) (.var 12) (.bin
                      (.mul .u32) (.lit 8) (.var 16))) 32],
                    .st 32 (.padd (.var 14) (.var 16) 32) (.var 18)])
                  (block [
                    .call (some 19) Prog.Id.bf192_zero [],
                    .st 32 (.padd (.var 14) (.var 16) 32) (.var 19)])])
              (.asg 16 (.bin (.add .u32) (.var 16) (.lit 1))),
            .call (some 20) Prog.Id.bf192_mul [.ld 32 (.var 15), .var 6],
            .call (some 21) Prog.Id.bf192_mul [.ld 32 (.padd (.var 15) (.lit 1) 32), .var 8],
            .st 32 (.padd (.var 2) (.bin (.add .u32) (.var 13) (.lit 0)) 32) (.bin (.vec 21) (.var 20) (.var 21)),
            .st 32 (.padd (.var 2) (.bin (.add .u32) (.var 13) (.lit 0)) 32) (.bin (.vec 21) (.ld 32 (.padd (.var 2)
              (.bin (.add .u32) (.var 13) (.lit 0)) 32)) (.ld 32 (.padd (.var 15) (.lit 2) 32))),
            .st 32 (.padd (.var 2) (.bin (.add .u32) (.var 13) (.lit 0)) 32) (.bin (.vec 21) (.ld 32 (.padd (.var 2)
              (.bin (.add .u32) (.var 13) (.lit 0)) 32)) (.ld 32 (.padd (.var 15) (.lit 3) 32))),
            .st 32 (.padd (.var 2) (.bin (.add .u32) (.var 13) (.lit 0)) 32) (.bin (.vec 21) (.ld 32 (.padd (.var 2)
              (.bin (.add .u32) (.var 13) (.lit 0)) 32)) (.ld 32 (.var 14))),
            .call (some 22) Prog.Id.bf192_mul [.ld 32 (.padd (.var 15) (.lit 1) 32), .var 6],
            .st 32 (.padd (.var 2) (.bin (.add .u32) (.var 13) (.lit 1)) 32) (.bin (.vec 21) (.ld 32 (.var 15)) (.var
              22)),
            .call (some 23) Prog.Id.bf192_mul [.ld 32 (.padd (.var 15) (.lit 2) 32), .var 8],
            .st 32 (.padd (.var 2) (.bin (.add .u32) (.var 13) (.lit 1)) 32) (.bin (.vec 21) (.ld 32 (.padd (.var 2)
              (.bin (.add .u32) (.var 13) (.lit 1)) 32)) (.var 23)),
            .st 32 (.padd (.var 2) (.bin (.add .u32) (.var 13) (.lit 1)) 32) (.bin (.vec 21) (.ld 32 (.padd (.var 2)
              (.bin (.add .u32) (.var 13) (.lit 1)) 32)) (.ld 32 (.padd (.var 15) (.lit 3) 32))),
            .st 32 (.padd (.var 2) (.bin (.add .u32) (.var 13) (.lit 1)) 32) (.bin (.vec 21) (.ld 32 (.padd (.var 2)
              (.bin (.add .u32) (.var 13) (.lit 1)) 32)) (.ld 32 (.padd (.var 14) (.lit 1) 32))),
            .st 32 (.padd (.var 2) (.bin (.add .u32) (.var 13) (.lit 2)) 32) (.bin (.vec 21) (.ld 32 (.var 15)) (.ld
              32 (.padd (.var 15) (.lit 1) 32))),
            .call (some 24) Prog.Id.bf192_mul [.ld 32 (.padd (.var 15) (.lit 2) 32), .var 6],
            .st 32 (.padd (.var 2) (.bin (.add .u32) (.var 13) (.lit 2)) 32) (.bin (.vec 21) (.ld 32 (.padd (.var 2)
              (.bin (.add .u32) (.var 13) (.lit 2)) 32)) (.var 24)),
            .call (some 25) Prog.Id.bf192_mul [.ld 32 (.padd (.var 15) (.lit 3) 32), .var 8],
            .st 32 (.padd (.var 2) (.bin (.add .u32) (.var 13) (.lit 2)) 32) (.bin (.vec 21) (.ld 32 (.padd (.var 2)
              (.bin (.add .u32) (.var 13) (.lit 2)) 32)) (.var 25)),
            .st 32 (.padd (.var 2) (.bin (.add .u32) (.var 13) (.lit 2)) 32) (.bin (.vec 21) (.ld 32 (.padd (.var 2)
              (.bin (.add .u32) (.var 13) (.lit 2)) 32)) (.ld 32 (.padd (.var 14) (.lit 2) 32))),
            .call (some 26) Prog.Id.bf192_mul [.ld 32 (.var 15), .var 8],
            .st 32 (.padd (.var 2) (.bin (.add .u32) (.var 13) (.lit 3)) 32) (.bin (.vec 21) (.var 26) (.ld 32 (.padd
              (.var 15) (.lit 1) 32))),
            .st 32 (.padd (.var 2) (.bin (.add .u32) (.var 13) (.lit 3)) 32) (.bin (.vec 21) (.ld 32 (.padd (.var 2)
              (.bin (.add .u32) (.var 13) (.lit 3)) 32)) (.ld 32 (.padd (.var 15) (.lit 2) 32))),
            .call (some 27) Prog.Id.bf192_mul [.ld 32 (.padd (.var 15) (.lit 3) 32), .var 6],
            .st 32 (.padd (.var 2) (.bin (.add .u32) (.var 13) (.lit 3)) 32) (.bin (.vec 21) (.ld 32 (.padd (.var 2)
              (.bin (.add .u32) (.var 13) (.lit 3)) 32)) (.var 27)),
            .st 32 (.padd (.var 2) (.bin (.add .u32) (.var 13) (.lit 3)) 32) (.bin (.vec 21) (.ld 32 (.padd (.var 2)
              (.bin (.add .u32) (.var 13) (.lit 3)) 32)) (.ld 32 (.padd (.var 14) (.lit 3) 32)))])
          (.asg 11 (.bin (.add .u32) (.var 11) (.lit 1)))])
      (.asg 10 (.bin (.add .u32) (.var 10) (.lit 1)))]⟩

/-- `em_enc_backward_192_1`, faest_aes.c:2063-2089; variables: 0 z, 1 x, 2 z_out, 3 y_out, 4 j, 5 c, 6 r, 7 icol, 8
  ird, 9 z_tilde, 10 y_tilde -/
def em_enc_backward_192_1 : Fn := ⟨4,
  block [
    .asg 4 (.lit 0),
    .loop (.bin .lt (.var 4) (.lit 12))
      (block [
        .asg 5 (.lit 0),
        .loop (.bin .lt (.var 5) (.lit 6))
          (block [
            .asg 6 (.lit 0),
            .loop (.bin .le (.var 6) (.lit 3))
              (block [
                .asg 7 (.div (.mod .u32) (.bin (.add .u32) (.bin (.sub .u32) (.var 5) (.var 6)) (.lit 6)) (.lit 6)),
                .asg 8 (.bin (.add .u32) (.bin (.add .u32) (.bin (.add .u32) (.lit 192) (.bin (.mul .u32) (.lit 192)
                  (.var 4))) (.bin (.mul .u32) (.lit 32) (.var 7))) (.bin (.mul .u32) (.lit 8) (.var 6))),
                .asg 9 (.lit 0),
                .ite (.bin .lt (.var 4) (.lit 11))
                  (.asg 9 (.ld 1 (.padd (.var 0) (.div (.div .u32) (.var 8) (.lit 8)) 1)))
                  (.asg 9 (.un (.cast .u8) (.bin (.bxor .i32) (.ld 1 (.padd (.var 2) (.div (.div .u32) (.bin (.sub
                    .u32) (.var 8) (.bin (.mul .u32) (.lit 192) (.bin (.add .u32) (.var 4) (.lit 1)))) (.lit 8)) 1))
                    (.ld 1 (.padd (.var 1) (.div (.div .u32) (.var 8) (.lit 8)) 1))))),
                .call (some 11) Prog.Id.rotr8 [.var 9, .lit 7],
                .call (some 12) Prog.Id.rotr8 [.var 9, .lit 5],
                .call (some 13) Prog.Id.rotr8 [.var 9, .lit 2],
                .asg 10 (.un (.cast .u8) (.bin (.bxor .i32) (.bin (.bxor .i32) (.bin (.bxor .i32) (.var 11) (.var
                  12)) (.var 13)) (.lit 5))),
                .call (some 14) Prog.Id.bf192_byte_combine_bits [.var 10],
                .st 32 (.padd (.var 3) (.bin (.add .u32) (.bin (.add .u32) (.bin (.mul .u32) (.lit 24) (.var 4))
                  (.bin (.mul .u32) (.lit 4) (.var 5))) (.var 6)) 32) (.var 14)])
              (.asg 6 (.bin (.add .u32) (.var 6) (.lit 1)))])
          (.asg 5 (.bin (.add .u32) (.var 5) (.lit 1)))])
      (.asg 4 (.bin (.add .u32) (.var 4) (.lit 1)))]⟩

/-- `em_enc_backward_192`, faest_aes.c:2091-2131; variables: 0 bf_z, 1 bf_x, 2 bf_z_out, 3 Mtag, 4 Mkey, 5 delta, 6
  y_out, 7 bf_delta, 11 factor, 13 j, 14 c, 15 r, 16 bf_z_tilde, 17 icol, 18 ird, 20 i, 21 bf_y_tilde, 22 i -/
def em_enc_backward_192 : Fn := ⟨7,
  block [
    .ite (.var 5)
      (block [
        .call (some 9) Prog.Id.bf192_load [.var 5],
        .asg 8 (.var 9)])
      (block [
        .call (some 10) Prog.Id.bf192_zero [],
        .asg 8 (.var 10)]),
    .asg 7 (.var 8),
    .call (some 12) Prog.Id.bf192_from_bit [.un (.cast .u8) (.bin (.bxor .i32) (.lit 1) (.var 4))],
    .asg 11 (.bin (.vec 22) (.bin (.vec 21) (.bin (.vec 22) (.var 7) (.bin (.vec 20) (.un (.neg .u64) (.bin (.band
      .u64) (.var 4) (.lit 1))) (.lit 4))) (.var 12)) (.bin (.vec 20) (.un (.neg .u64) (.bin (.band .u64) (.un (.cast
      .u64) (.bin (.bxor .i32) (.lit 1) (.var 3))) (.lit 1))) (.lit 4))),
    .asg 13 (.lit 0),
    .loop (.bin .lt (.var 13) (.lit 12))
      (block [
        .asg 14 (.lit 0),
        .loop (.bin .lt (.var 14) (.lit 6))
          (block [
            .asg 15 (.lit 0),
            .loop (.bin .le (.var 15) (.lit 3))
              (block [
                .new 16 (.lit 256),
                .asg 17 (.div (.mod .u32) (.bin (.add .u32) (.bin (.sub .u32) (.var 14) (.var 15)) (.lit 6)) (.lit
                  6)),
                .asg 18 (.bin (.add .u32) (.bin (.add .u32) (.bin (.add .u32) (.lit 192) (.bin (.mul .u32) (.lit 192)
                  (.var 13))) (.bin (.mul .u32) (.lit 32) (.var 17))) (.bin (.mul .u32) (.lit 8) (.var 15))),
                .ite (.bin .lt (.var 13) (.lit 11))
                  (.call (some 19) Prog.Id.memcpy [.var 16, .padd (.var 0) (.var 18) 32, .lit 256])
                  (block [
                    .asg 20 (.lit 0),
                    .loop (.bin .lt (.var 20) (.lit 8))
                      (block [
                        .st 32 (.padd (.var 16) (.var 20) 32) (.ld 32 (.padd (.var 2) (.bin (.add .u32) (.bin (.sub
                          .u32) (.var 18) (.bin (.mul .u32) (.lit 192) (.bin (.add .u32) (.var 13) (.lit 1)))) (.var
                          20)) 32)),
                        .ite (.var 1)
                          (.st 32 (.padd (.var 16) (.var 20) 32) (.bin (.vec 21) (.ld 32 (.padd (.var 16) (.var 20)
                            32)) (.ld 32 (.padd (.var 1) (.bin (.add .u32) (.var 18) (.var 20)) 32))))
                          (.skip)])
                      (.asg 20 (.bin (.add .u32) (.var 20) (.lit 1)))]),
                .new 21 (.lit 256),
                .asg 22 (.lit 0),
                .loop (.bin .lt (.var 22) (.lit 8))
                  (.st 32 (.padd (.var 21) (.var 22) 32) (.bin (.vec 21) (.bin (.vec 21) (.ld 32 (.padd (.var 16)
                    (.div (.mod .u32) (.bin (.add .u32) (.var 22) (.lit 7)) (.lit 8)) 32)) (.ld 32 (.padd (.var 16)
                    (.div (.mod .u32) (.bin (.add .u32) (.var 22) (.lit 5)) (.lit 8)) 32))) (.ld 32 (.padd (.var 16)
                    (.div (.mod .u32) (.bin (.add .u32) (.var 22) (.lit 2)) (.lit 8)) 32))))
                  (.asg 22 (.bin (.add .u32) (.var 22) (.lit 1))),
                .st 32 (.var 21) (.bin (.vec 21) (.ld 32 (.var 21)) (.var 11)),
                .st 32 (.padd (.var 21) (.lit 2) 32) (.bin (.vec 21) (.ld 32 (.padd (.var 21) (.lit 2) 32)) (.var
                  11)),
                .call (some 23) Prog.Id.bf192_byte_combine [.var 21],
                .st 32 (.padd (.var 6) (.bin (.add .u32) (.bin (.add .u32) (.bin (.mul .u32) (.lit 24) (.var 13))
                  (.bin (.mul .u32) (.lit 4) (.var 14))) (.var 15)) 32) (.var 23)])
              (.asg 15 (.bin (.add .u32) (.var 15) (.lit 1)))])
          (.asg 14 (.bin (.add .u32) (.var 14) (.lit 1)))])
      (.asg 13 (.bin (.add .u32) (.var 13) (.lit 1)))]⟩

/-- `em_enc_constraints_Mkey_0_192`, faest_aes.c:2133-2158; variables: 0 out, 1 x, 2 w, 3 bf_v, 4 a0_ctx, 5 a1_ctx, 6
  w_out, 7 bf_s, 8 bf_vs, 9 bf_s_dash, 10 bf_vs_dash, 11 j, 12 tmp -/
def em_enc_constraints_Mkey_0_192 : Fn := ⟨6,
  block [
    .new 6 (.lit 24),
    .call none Prog.Id.xor_u8_array [.var 0, .var 2, .var 6, .lit 24],
    .new 7 (.lit 9216),
    .new 8 (.lit 9216),
    .new 9 (.lit 9216),
    .new 10 (.lit 9216),
    .call none Prog.Id.em_enc_forward_192_1 [.var 2, .var 1, .var 7],
    .call none Prog.Id.em_enc_forward_192 [.var 3, .lit 0, .var 8],
    .call none Prog.Id.em_enc_backward_192_1 [.var 2, .var 1, .var 6, .var 9],
    .call none Prog.Id.em_enc_backward_192 [.var 3, .lit 0, .var 3, .lit 1, .lit 0, .lit 0, .var 10],
    .asg 11 (.lit 0),
    .loop (.bin .lt (.var 11) (.lit 288))
      (block [
        .call (some 13) Prog.Id.bf192_mul [.ld 32 (.padd (.var 8) (.var 11) 32), .ld 32 (.padd (.var 10) (.var 11)
          32)],
        .asg 12 (.var 13),
        .call none Prog.Id.zk_hash_192_update [.var 4, .var 12],
        .call (some 14) Prog.Id.bf192_mul [.bin (.vec 21) (.ld 32 (.padd (.var 7) (.var 11) 32)) (.ld 32 (.padd (.var
          8) (.var 11) 32)), .bin (.vec 21) (.ld 32 (.padd (.var 9) (.var 11) 32)) (.ld 32 (.padd (.var 10) (.var 11)
          32))],
        .call (some 15) Prog.Id.bf192_one [],
        .call none Prog.Id.zk_hash_192_update [.var 5, .bin (.vec 21) (.bin (.vec 21) (.var 14) (.var 12)) (.var
          15)]])
      (.asg 11 (.bin (.add .u32) (.var 11) (.lit 1)))]⟩

/-- `em_prove_192`, faest_aes.c:2190-2219; variables: 0 w, 1 u, 2 V, 3 in, 4 out, 5 chall, 6 a_tilde, 7 b_tilde, 8 x,
  9 round_keys, 11 tmp_x, 12 r, 13 i, 15 bf_v, 17 a0_ctx, 18 a1_ctx -/
def em_prove_192 : Fn := ⟨8,
  block [
    .new 8 (.lit 312),
    .new 9 (.lit 480),
    .call (some 10) Prog.Id.rijndael192_init_round_keys [.var 9, .var 3],
    .asg 11 (.var 8),
    .asg 12 (.lit 0),
    .loop (.bin .ne (.var 12) (.lit 13))
      (block [
        .asg 13 (.lit 0),
        .loop (.bin .ne (.var 13) (.lit 6))
          (block [
            .call (some 14) Prog.Id.memcpy [.var 11, .padd (.padd (.var 9) (.var 12) 32) (.var 13) 4, .lit 4],
            .asg 11 (.padd (.var 11) (.lit 4) 1)])
          (.asg 13 (.bin (.add .u32) (.var 13) (.lit 1)))])
      (.asg 12 (.bin (.add .u32) (.var 12) (.lit 1))),
    .call (some 16) Prog.Id.column_to_row_major_and_shrink_V_192 [.var 2, .lit 2304],
    .asg 15 (.var 16),
    .new 17 (.lit 128),
    .new 18 (.lit 128),
    .call none Prog.Id.zk_hash_192_init [.var 17, .var 5],
    .call none Prog.Id.zk_hash_192_init [.var 18, .var 5],
    .call none Prog.Id.em_enc_constraints_Mkey_0_192 [.var 4, .var 8, .var 0, .var 15, .var 17, .var 18],
    .call (some 19) Prog.Id.bf192_load [.padd (.var 1) (.lit 288) 1],
    .call none Prog.Id.zk_hash_192_finalize [.var 6, .var 18, .var 19],
    .call (some 20) Prog.Id.bf192_sum_poly [.padd (.var 15) (.lit 2304) 32],
    .call none Prog.Id.zk_hash_192_finalize [.var 7, .var 17, .var 20],
    .free (.var 15)]⟩

/-- `aes_key_schedule_forward_128`, faest_aes.c:208-228; variables: 0 v, 1 bf_out, 3 i_wd, 4 j, 7 i -/
def aes_key_schedule_forward_128 : Fn := ⟨2,
  block [
    .call (some 2) Prog.Id.memcpy [.var 1, .var 0, .lit 2048],
    .asg 3 (.lit 128),
    .asg 4 (.lit 4),
    .loop (.bin .lt (.var 4) (.lit 44))
      (block [
        .ite (.bin .eq (.div (.mod .u32) (.var 4) (.lit 4)) (.lit 0))
          (.asg 5 (.lit 1))
          (.asg 5 (.bin .ne (.lit 0) (.lit 0))),
        .ite (.var 5)
          (block [
            .call (some 6) Prog.Id.memcpy [.padd (.var 1) (.bin (.mul .u32) (.var 4) (.lit 32)) 16, .padd (.var 0)
              (.var 3) 16, .lit 512],
            .asg 3 (.bin (.add .u32) (.var 3) (.lit 32))])
          (block [
            .asg 7 (.lit 0),
            .loop (.bin .lt (.var 7) (.lit 32))
              (.st 16 (.padd (.var 1) (.bin (.add .u32) (.bin (.mul .u32) (.lit 32) (.var 4)) (.var 7)) 16) (.bin
                (.vec 21) (.ld 16 (.padd (.var 1) (.bin (.add .u32) (.bin (.mul .u32) (.lit 32) (.bin (.sub .u32)
                (.var 4) (.lit 4))) (.var 7)) 16)) (.ld 16 (.padd (.var 1) (.bin (.add .u32) (.bin (.mul .u32) (.lit
                32) (.bin (.sub .u32) (.var 4) (.lit 1))) (.var 7)) 16))))
              (.asg 7 (.bin (.add .u32) (.var 7) (.lit 1)))])])
      (.asg 4 (.bin (.add .u32) (.var 4) (.lit 1)))]⟩

/-- `aes_key_schedule_backward_128`, faest_aes.c:230-282; variables: 0 v, 1 Vk, 2 Mtag, 3 Mkey, 4 delta, 5 bf_out, 9
  bf_delta, 13 iwd, 14 c, 15 ircon, 16 bf_minus_mkey, 18 minus_mtag, 19 bf_mkey_times_delta, 20 j, 21 bf_x_tilde, 22
  i, 24 r, 25 bf_r, 26 i, 27 i -/
def aes_key_schedule_backward_128 : Fn := ⟨6,
  block [
    .ite (.bin .eq (.var 2) (.lit 1))
      (.asg 6 (.bin .ne (.bin .eq (.var 3) (.lit 1)) (.lit 0)))
      (.asg 6 (.lit 0)),
    .ite (.var 6)
      (.asg 7 (.lit 1))
      (block [
        .ite (.bin .eq (.var 3) (.lit 1))
          (.asg 8 (.bin .ne (.bin .eq (.var 4) (.lit 0)) (.lit 0)))
          (.asg 8 (.lit 0)),
        .asg 7 (.bin .ne (.var 8) (.lit 0))]),
    .ite (.un .lnot (.var 7))
      (.skip)
      (.skip),
    .ite (.var 4)
      (block [
        .call (some 11) Prog.Id.bf128_load [.var 4],
        .asg 10 (.var 11)])
      (block [
        .call (some 12) Prog.Id.bf128_zero [],
        .asg 10 (.var 12)]),
    .asg 9 (.var 10),
    .asg 13 (.lit 0),
    .asg 14 (.lit 0),
    .asg 15 (.lit 0),
    .call (some 17) Prog.Id.bf128_from_bit [.un (.cast .u8) (.bin (.bxor .i32) (.lit 1) (.var 3))],
    .asg 16 (.var 17),
    .asg 18 (.un (.cast .u8) (.bin (.bxor .i32) (.lit 1) (.var 2))),
    .asg 19 (.bin (.vec 22) (.var 9) (.bin (.vec 20) (.un (.neg .u64) (.bin (.band .u64) (.var 3) (.lit 1))) (.lit
      2))),
    .asg 19 (.bin (.vec 21) (.var 19) (.var 16)),
    .asg 20 (.lit 0),
    .loop (.bin .lt (.var 20) (.lit 40))
      (block [
        .new 21 (.lit 128),
        .asg 22 (.lit 0),
        .loop (.bin .lt (.var 22) (.lit 8))
          (.st 16 (.padd (.var 21) (.var 22) 16) (.bin (.vec 21) (.ld 16 (.padd (.var 0) (.bin (.add .u32) (.bin
            (.mul .u32) (.lit 8) (.var 20)) (.var 22)) 16)) (.ld 16 (.padd (.var 1) (.bin (.add .u32) (.bin (.add
            .u32) (.var 13) (.bin (.mul .u32) (.lit 8) (.var 14))) (.var 22)) 16))))
          (.asg 22 (.bin (.add .u32) (.var 22) (.lit 1))),
        .ite (.bin .eq (.var 2) (.lit 0))
          (.asg 23 (.bin .ne (.bin .eq (.var 14) (.lit 0)) (.lit 0)))
          (.asg 23 (.lit 0)),
        .ite (.var 23)
          (block [
            .asg 24 (.ld 1 (.padd (.glob 6) (.var 15) 1)),
            .asg 15 (.bin (.add .u32) (.var 15) (.lit 1)),
            .new 25 (.lit 128),
            .asg 26 (.lit 0),
            .loop (.bin .lt (.var 26) (.lit 8))
              (block [
                .st 16 (.padd (.var 25) (.var 26) 16) (.bin (.vec 22) (.var 19) (.bin (.vec 20) (.un (.neg .u64)
                  (.bin (.band .u64) (.un (.cast .u64) (.bin (.band .i32) (.bin (.shr .i32) (.var 24) (.var 26))
                  (.lit 1))) (.lit 1))) (.lit 2))),
                .st 16 (.padd (.var 21) (.var 26) 16) (.bin (.vec 21) (.ld 16 (.padd (.var 21) (.var 26) 16)) (.ld 16
                  (.padd (.var 25) (.var 26) 16)))])
              (.asg 26 (.bin (.add .u32) (.var 26) (.lit 1)))])
          (.skip),
        .asg 27 (.lit 0),
        .loop (.bin .lt (.var 27) (.lit 8))
          (.st 16 (.padd (.var 5) (.bin (.add .u32) (.var 27) (.bin (.mul .u32) (.lit 8) (.var 20))) 16) (.bin (.vec
            21) (.bin (.vec 21) (.ld 16 (.padd (.var 21) (.div (.mod .u32) (.bin (.add .u32) (.var 27) (.lit 7))
            (.lit 8)) 16)) (.ld 16 (.padd (.var 21) (.div (.mod .u32) (.bin (.add .u32) (.var 27) (.lit 5)) (.lit 8))
            16))) (.ld 16 (.padd (.var 21) (.div (.mod .u32) (.bin (.add .u32) (.var 27) (.lit 2)) (.lit 8)) 16))))
          (.asg 27 (.bin (.add .u32) (.var 27) (.lit 1))),
        .st 16 (.padd (.var 5) (.bin (.add .u32) (.lit 0) (.bin (.mul .u32) (.lit 8) (.var 20))) 16) (.bin (.vec 21)
          (.ld 16 (.padd (.var 5) (.bin (.add .u32) (.lit 0) (.bin (.mul .u32) (.lit 8) (.var 20))) 16)) (.bin (.vec
          22) (.var 19) (.bin (.vec 20) (.un (.neg .u64) (.bin (.band .u64) (.var 18) (.lit 1))) (.lit 2)))),
        .st 16 (.padd (.var 5) (.bin (.add .u32) (.lit 2) (.bin (.mul .u32) (.lit 8) (.var 20))) 16) (.bin (.vec 21)
          (.ld 16 (.padd (.var 5) (.bin (.add .u32) (.lit 2) (.bin (.mul .u32) (.lit 8) (.var 20))) 16)) (.bin (.vec
          22) (.var 19) (.bin (.vec 20) (.un (.neg .u64) (.bin (.band .u64) (.var 18) (.lit 1))) (.lit 2)))),
        .asg 14 (.bin (.add .u32) (.var 14) (.lit 1)),
        .ite (.bin .eq (.var 14) (.lit 4))
          (block [
            .asg 14 (.lit 0),
            .asg 13 (.bin (.add .u32) (.var 13) (.lit 128))])
          (.skip)])
      (.asg 20 (.bin (.add .u32) (.var 20) (.lit 1)))]⟩

/-- `aes_key_schedule_constraints_Mkey_0_128`, faest_aes.c:284-332; variables: 0 w, 1 v, 2 a0_ctx, 3 a1_ctx, 4 k, 5
  vk, 6 params, 7 w_dash, 8 v_w_dash, 9 iwd, 10 j, 11 bf_k_hat, 12 bf_v_k_hat, 13 bf_w_dash_hat, 14 bf_v_w_dash_hat,
  15 r, 20 r, 21 tmp -/
def aes_key_schedule_constraints_Mkey_0_128 : Fn := ⟨7,
  block [
    .ite (.bin .eq (.lit 40) (.ld 2 (.padd (.var 6) (.lit 4) 1)))
      (.skip)
      (.skip),
    .call none Prog.Id.aes_key_schedule_forward_1 [.var 0, .var 4, .var 6],
    .call none Prog.Id.aes_key_schedule_forward_128 [.var 1, .var 5],
    .new 7 (.lit 40),
    .call none Prog.Id.aes_key_schedule_backward_1 [.padd (.var 0) (.lit 16) 1, .var 4, .var 7, .var 6],
    .new 8 (.lit 5120),
    .call none Prog.Id.aes_key_schedule_backward_128 [.padd (.var 1) (.lit 128) 16, .var 5, .lit 1, .lit 0, .lit 0,
      .var 8],
    .asg 9 (.lit 96),
    .asg 10 (.lit 0),
    .loop (.bin .lt (.var 10) (.lit 10))
      (block [
        .new 11 (.lit 64),
        .new 12 (.lit 64),
        .new 13 (.lit 64),
        .new 14 (.lit 64),
        .asg 15 (.lit 0),
        .loop (.bin .le (.var 15) (.lit 3))
          (block [
            .call (some 16) Prog.Id.bf128_byte_combine_bits [.ld 1 (.padd (.var 4) (.div (.div .u32) (.bin (.add
              .u32) (.var 9) (.bin (.mul .u32) (.lit 8) (.var 15))) (.lit 8)) 1)],
            .st 16 (.padd (.var 11) (.div (.mod .u32) (.bin (.add .u32) (.var 15) (.lit 3)) (.lit 4)) 16) (.var 16),
            .call (some 17) Prog.Id.bf128_byte_combine [.padd (.var 5) (.bin (.add .u32) (.var 9) (.bin (.mul .u32)
              (.lit 8) (.var 15))) 16],
            .st 16 (.padd (.var 12) (.div (.mod .u32) (.bin (.add .u32) (.var 15) (.lit 3)) (.lit 4)) 16) (.var 17),
            .call (some 18) Prog.Id.bf128_byte_combine_bits [.ld 1 (.padd (.var 7) (.div (.div .u32) (.bin (.add
              .u32) (.bin (.mul .u32) (.lit 32) (.var 10)) (.bin (.mul .u32) (.lit 8) (.var 15))) (.lit 8)) 1)],
            .st 16 (.padd (.var 13) (.var 15) 16) (.var 18),
            .call (some 19) Prog.Id.bf128_byte_combine [.padd (.var 8) (.bin (.add .u32) (.bin (.mul .u32) (.lit 32)
              (.var 10)) (.bin (.mul .u32) (.lit 8) (.var 15))) 16],
            .st 16 (.padd (.var 14) (.var 15) 16) (.var 19)])
          (.asg 15 (.bin (.add .u32) (.var 15) (.lit 1))),
        .asg 20 (.lit 0),
        .loop (.bin .le (.var 20) (.lit 3))
          (block [
            .call (some 22) Prog.Id.bf128_mul [.ld 16 (.padd (.var 12) (.var 20) 16), .ld 16 (.padd (.var 14) (.var
              20) 16)],
            .asg 21 (.var 22),
            .call none Prog.Id.zk_hash_128_update [.var 2, .var 21],
            .call (some 23) Prog.Id.bf128_mul [.bin (.vec 21) (.ld 16 (.padd (.var 11) (.var 20) 16)) (.ld 16 (.padd
              (.var 12) (.var 20) 16)), .bin (.vec 21) (.ld 16 (.padd (.var 13) (.var 20) 16)) (.ld 16 (.padd (.var
              14) (.var 20) 16))],
            .call (some 24) Prog.Id.bf128_one [],
            .call none Prog.Id.zk_hash_128_update [.var 3, .bin (.vec 21) (.bin (.vec 21) (.var 23) (.var 24)) (.var
              21)]])
          (.asg 20 (.bin (.add .u32) (.var 20) (.lit 1))),
        .asg 9 (.bin (.add .u32) (.var 9) (.lit 128))])
      (.asg 10 (.bin (.add .u32) (.var 10) (.lit 1)))]⟩

/-- `aes_enc_forward_128_1`, faest_aes.c:364-419; variables: 0 x, 1 xk, 2 in, 3 bf_y, 4 i, 5 xin, 8 bf_two, 10
  bf_three, 12 j, 13 c, 14 ix, 15 ik, 16 iy, 17 bf_x_hat, 18 bf_xk_hat, 19 r -/
def aes_enc_forward_128_1 : Fn := ⟨4,
  block [
    .asg 4 (.lit 0),
    .loop (.bin .lt (.var 4) (.lit 16))
      (block [
        .asg 5 (.ld 1 (.padd (.var 2) (.var 4) 1)),
        .call (some 6) Prog.Id.bf128_byte_combine_bits [.var 5],
        .call (some 7) Prog.Id.bf128_byte_combine_bits [.ld 1 (.padd (.var 1) (.var 4) 1)],
        .st 16 (.padd (.var 3) (.var 4) 16) (.bin (.vec 21) (.var 6) (.var 7))])
      (.asg 4 (.bin (.add .u32) (.var 4) (.lit 1))),
    .call (some 9) Prog.Id.bf128_byte_combine_bits [.lit 2],
    .asg 8 (.var 9),
    .call (some 11) Prog.Id.bf128_byte_combine_bits [.lit 3],
    .asg 10 (.var 11),
    .asg 12 (.lit 1),
    .loop (.bin .lt (.var 12) (.lit 10))
      (block [
        .asg 13 (.lit 0),
        .loop (.bin .le (.var 13) (.lit 3))
          (block [
            .asg 14 (.bin (.add .u32) (.bin (.mul .u32) (.lit 128) (.bin (.sub .u32) (.var 12) (.lit 1))) (.bin (.mul
              .u32) (.lit 32) (.var 13))),
            .asg 15 (.bin (.add .u32) (.bin (.mul .u32) (.lit 128) (.var 12)) (.bin (.mul .u32) (.lit 32) (.var 13))),
            .asg 16 (.bin (.add .u32) (.bin (.mul .u32) (.lit 16) (.var 12)) (.bin (.mul .u32) (.lit 4) (.var 13))),
            .new 17 (.lit 64),
            .new 18 (.lit 64),
            .asg 19 (.lit 0),
            .loop (.bin .le (.var 19) (.lit 3))
              (block [
                .call (some 20) Prog.Id.bf128_byte_combine_bits [.ld 1 (.padd (.var 0) (.div (.div .u32) (.bin (.add
                  .u32) (.var 14) (.bin (.mul .u32) (.lit 8) (.var 19))) (.lit 8)) 1)],
                .st 16 (.padd (.var 17) (.var 19) 16) (.var 20),
                .call (some 21) Prog.Id.bf128_byte_combine_bits [.ld 1 (.padd (.var 1) (.div (.div .u32) (.bin (.add
                  .u32) (.var 15) (.bin (.mul .u32) (.lit 8) (.var 19))) (.lit 8)) 1)],
                .st 16 (.padd (.var 18) (.var 19) 16) (.var 21)])
              (.asg 19 (.bin (.add .u32) (.var 19) (.lit 1))),
            .call (some 22) Prog.Id.bf128_mul [.ld 16 (.var 17), .var 8],
            .st 16 (.padd (.var 3) (.bin (.add .u32) (.var 16) (.lit 0)) 16) (.bin (.vec 21) (.ld 16 (.var 18)) (.var
              22)),
            .call (some 23) Prog.Id.bf128_mul [.ld 16 (.padd (.var 17) (.lit 1) 16), .var 10],
            .st 16 (.padd (.var 3) (.bin (.add .u32) (.var 16) (.lit 0)) 16) (.bin (.vec 21) (.ld 16 (.padd (.var 3)
              (.bin (.add .u32) (.var 16) (.lit 0)) 16)) (.var 23)),
            .st 16 (.padd (.var 3) (.bin (.add .u32) (.var 16) (.lit 0)) 16) (.bin (.vec 21) (.ld 16 (.padd (.var 3)
              (.bin (.add .u32) (.var 16) (.lit 0)) 16)) (.ld 16 (.padd (.var 17) (.lit 2) 16))),
            .st 16 (.padd (.var 3) (.bin (.add .u32) (.var 16) (.lit 0)) 16) (.bin (.vec 21) (.ld 16 (.padd (.var 3)
              (.bin (.add .u32) (.var 16) (.lit 0)) 16)) (.ld 16 (.padd (.var 17) (.lit 3) 16))),
            .st 16 (.padd (.var 3) (.bin (.add .u32) (.var 16) (.lit 1)) 16) (.bin (.vec 21) (.ld 16 (.padd (.var 18)
              (.lit 1) 16)) (.ld 16 (.var 17))),
            .call (some 24) Prog.Id.bf128_mul [.ld 16 (.padd (.var 17) (.lit 1) 16), .var 8],
            .st 16 (.padd (.var 3) (.bin (.add .u32) (.var 16) (.lit 1)) 16) (.bin (.vec 21) (.ld 16 (.padd (.var 3)
              (.bin (.add .u32) (.var 16) (.lit 1)) 16)) (.var 24)),
            .call (some 25) Prog.Id.bf128_mul [.ld 16 (.padd (.var 17) (.lit 2) 16), .var 10],
            .st 16 (.padd (.var 3) (.bin (.add .u32) (.var 16) (.lit 1)) 16) (.bin (.vec 21) (.ld 16 (.padd (.var 3)
              (.bin (.add .u32) (.var 16) (.lit 1)) 16)) (.var 25)),
            .st 16 (.padd (.var 3) (.bin (.add .u32) (.var 16) (.lit 1)) 16) (.bin (.vec 21) (.ld 16 (.padd (.var 3)
              (.bin (.add .u32) (.var 16) (.lit 1)) 16)) (.ld 16 (.padd (.var 17) (.lit 3) 16))),
            .st 16 (.padd (.var 3) (.bin (.add .u32) (.var 16) (.lit 2)) 16) (.bin (.vec 21) (.ld 16 (.padd (.var 18)
              (.lit 2) 16)) (.ld 16 (.var 17))),
            .st 16 (.padd (.var 3) (.bin (.add .u32) (.var 16) (.lit 2)) 16) (.bin (.vec 21) (.ld 16 (.padd (.var 3)
              (.bin (.add .u32) (.var 16) (.lit 2)) 16)) (.ld 16 (.padd (.var 17) (.lit 1) 16))),
            .call (some 26) Prog.Id.bf128_mul [.ld 16 (.padd (.var 17) (.lit 2) 16), .var 8],
            .st 16 (.padd (.var 3) (.bin (.add .u32) (.var 16) (.lit 2)) 16) (.bin (.vec 21) (.ld 16 (.padd (.var 3)
              (.bin (.add .u32) (.var 16) (.lit 2)) 16)) (.var 26)),
            .call (some 27) Prog.Id.bf128_mul [.ld 16 (.padd (.var 17) (.lit 3) 16), .var 10],
            .st 16 (.padd (.var 3) (.bin (.add .u32) (.var 16) (.lit 2)) 16) (.bin (.vec 21) (.ld 16 (.padd (.var 3)
              (.bin (.add .u32) (.var 16) (.lit 2)) 16)) (.var 27)),
            .call (some 28) Prog.Id.bf128_mul [.ld 16 (.var 17), .var 10],
            .st 16 (.padd (.var 3) (.bin (.add .u32) (.var 16) (.lit 3)) 16) (.bin (.vec 21) (.ld 16 (.padd (.var 18)
              (.lit 3) 16)) (.var 28)),
            .st 16 (.padd (.var 3) (.bin (.add .u32) (.var 16) (.lit 3)) 16) (.bin (.vec 21) (.ld 16 (.padd (.var 3)
              (.bin (.add .u32) (.var 16) (.lit 3)) 16)) (.ld 16 (.padd (.var 17) (.lit 1) 16))),
            .st 16 (.padd (.var 3) (.bin (.add .u32) (.var 16) (.lit 3)) 16) (.bin (.vec 21) (.ld 16 (.padd (.var 3)
              (.bin (.add .u32) (.var 16) (.lit 3)) 16)) (.ld 16 (.padd (.var 17) (.lit 2) 16))),
            .call (some 29) Prog.Id.bf128_mul [.ld 16 (.padd (.var 17) (.lit 3) 16), .var 8],
            .st 16 (.padd (.var 3) (.bin (.add .u32) (.var 16) (.lit 3)) 16) (.bin (.vec 21) (.ld 16 (.padd (.var 3)
              (.bin (.add .u32) (.var 16) (.lit 3)) 16)) (.var 29))])
          (.asg 13 (.bin (.add .u32) (.var 13) (.lit 1)))])
      (.asg 12 (.bin (.add .u32) (.var 12) (.lit 1)))]⟩

/-- `aes_enc_forward_128`, faest_aes.c:421-478; variables: 0 bf_x, 1 bf_xk, 2 in, 3 Mtag, 4 Mkey, 5 delta, 6 bf_y, 7
  bf_delta, 11 bf_factor, 13 i, 14 bf_xin, 15 j, 18 bf_two, 20 bf_three, 22 j, 23 c, 24 ix, 25 ik, 26 iy, 27
  bf_x_hat, 28 bf_xk_hat, 29 r -/
def aes_enc_forward_128 : Fn := ⟨7,
  block [
    .ite (.var 5)
      (block [
        .call (some 9) Prog.Id.bf128_load [.var 5],
        .asg 8 (.var 9)])
      (block [
        .call (some 10) Prog.Id.bf128_zero [],
        .asg 8 (.var 10)]),
    .asg 7 (.var 8),
    .call (some 12) Prog.Id.bf128_from_bit [.un (.cast .u8) (.bin (.bxor .i32) (.lit 1) (.var 4))],
    .asg 11 (.bin (.vec 21) (.bin (.vec 22) (.var 7) (.bin (.vec 20) (.un (.neg .u64) (.bin (.band .u64) (.var 4)
      (.lit 1))) (.lit 2))) (.var 12)),
    .asg 13 (.lit 0),
    .loop (.bin .lt (.var 13) (.lit 16))
      (block [
        .new 14 (.lit 128),
        .asg 15 (.lit 0),
        .loop (.bin .lt (.var 15) (.lit 8))
          (.st 16 (.padd (.var 14) (.var 15) 16) (.bin (.vec 22) (.var 11) (.bin (.vec 20) (.un (.neg .u64) (.bin
            (.band .u64) (.un (.cast .u64) (.bin (.band .i32) (.bin (.bxor .i32) (.lit 1) (.var 3)) (.bin (.band
            .i32) (.bin (.shr .i32) (.ld 1 (.padd (.var 2) (.var 13) 1)) (.var 15)) (.lit 1)))) (.lit 1))) (.lit 2))))
          (.asg 15 (.bin (.add .u32) (.var 15) (.lit 1))),
        .call (some 16) Prog.Id.bf128_byte_combine [.var 14],
        .call (some 17) Prog.Id.bf128_byte_combine [.padd (.var 1) (.bin (.mul .u32) (.lit 8) (.var 13)) 16],
        .st 16 (.padd (.var 6) (.var 13) 16) (.bin (.vec 21) (.var 16) (.var 17))])
      (.asg 13 (.bin (.add .u32) (.var 13) (.lit 1))),
    .call (some 19) Prog.Id.bf128_byte_combine_bits [.lit 2],
    .asg 18 (.var 19),
    .call (some 21) Prog.Id.bf128_byte_combine_bits [.lit 3],
    .asg 20 (.var 21),
    .asg 22 (.lit 1),
    .loop (.bin .lt (.var 22) (.lit 10))
      (block [
        .asg 23 (.lit 0),
        .loop (.bin .le (.var 23) (.lit 3))
          (block [
            .asg 24 (.bin (.add .u32) (.bin (.mul .u32) (.lit 128) (.bin (.sub .u32) (.var 22) (.lit 1))) (.bin (.mul
              .u32) (.lit 32) (.var 23))),
            .asg 25 (.bin (.add .u32) (.bin (.mul .u32) (.lit 128) (.var 22)) (.bin (.mul .u32) (.lit 32) (.var 23))),
            .asg 26 (.bin (.add .u32) (.bin (.mul .u32) (.lit 16) (.var 22)) (.bin (.mul .u32) (.lit 4) (.var 23))),
            .new 27 (.lit 64),
            .new 28 (.lit 64),
            .asg 29 (.lit 0),
            .loop (.bin .le (.var 29) (.lit 3))
              (block [
                .call (some 30) Prog.Id.bf128_byte_combine [.padd (.var 0) (.bin (.add .u32) (.var 24) (.bin (.mul
                  .u32) (.lit 8) (.var 29))) 16],
                .st 16 (.padd (.var 27) (.var 29) 16) (.var 30),
                .call (some 31) Prog.Id.bf128_byte_combine [.padd (.var 1) (.bin (.add .u32) (.var 25) (.bin (.mul
                  .u32) (.lit 8) (.var 29))) 16],
                .st 16 (.padd (.var 28) (.var 29) 16) (.var 31)])
              (.asg 29 (.bin (.add .u32) (.var 29) (.lit 1))),
            .call (some 32) Prog.Id.bf128_mul [.ld 16 (.var 27), .var 18],
            .st 16 (.padd (.var 6) (.bin (.add .u32) (.var 26) (.lit 0)) 16) (.bin (.vec 21) (.ld 16 (.var 28)) (.var
              32)),
            .call (some 33) Prog.Id.bf128_mul [.ld 16 (.padd (.var 27) (.lit 1) 16), .var 20],
            .st 16 (.padd (.var 6) (.bin (.add .u32) (.var 26) (.lit 0)) 16) (.bin (.vec 21) (.ld 16 (.padd (.var 6)
              (.bin (.add .u32) (.var 26) (.lit 0)) 16)) (.var 33)),
            .st 16 (.padd (.var 6) (.bin (.add .u32) (.var 26) (.lit 0)) 16) (.bin (.vec 21) (.ld 16 (.padd (.var 6)
              (.bin (.add .u32) (.var 26) (.lit 0)) 16)) (.ld 16 (.padd (.var 27) (.lit 2) 16))),
            .st 16 (.padd (.var 6) (.bin (.add .u32) (.var 26) (.lit 0)) 16) (.bin (.vec 21) (.ld 16 (.padd (.var 6)
              (.bin (.add .u32) (.var 26) (.lit 0)) 16)) (.ld 16 (.padd (.var 27) (.lit 3) 16))),
            .st 16 (.padd (.var 6) (.bin (.add .u32) (.var 26) (.lit 1)) 16) (.bin (.vec 21) (.ld 16 (.padd (.var 28)
              (.lit 1) 16)) (.ld 16 (.var 27))),
            .call (some 34) Prog.Id.bf128_mul [.ld 16 (.padd (.var 27) (.lit 1) 16), .var 18],
            .st 16 (.padd (.var 6) (.bin (.add .u32) (.var 26) (.lit 1)) 16) (.bin (.vec 21) (.ld 16 (.padd (.var 6)
              (.bin (.add .u32) (.var 26) (.lit 1)) 16)) (.var 34)),
            .call (some 35) Prog.Id.bf128_mul [.ld 16 (.padd (.var 27) (.lit 2) 16), .var 20],
            .st 16 (.padd (.var 6) (.bin (.add .u32) (.var 26) (.lit 1)) 16) (.bin (.vec 21) (.ld 16 (.padd (.var 6)
              (.bin (.add .u32) (.var 26) (.lit 1)) 16)) (.var 35)),
            .st 16 (.padd (.var 6) (.bin (.add .u32) (.var 26) (.lit 1)) 16) (.bin (.vec 21) (.ld 16 (.padd (.var 6)
              (.bin (.add .u32) (.var 26) (.lit 1)) 16)) (.ld 16 (.padd (.var 27) (.lit 3) 16))),
            .st 16 (.padd (.var 6) (.bin (.add .u32) (.var 26) (.lit 2)) 16) (.bin (.vec 21) (.ld 16 (.padd (.var 28)
              (.lit 2) 16)) (.ld 16 (.var 27))),
            .st 16 (.padd (.var 6) (.bin (.add .u32) (.var 26) (.lit 2)) 16) (.bin (.vec 21) (.ld 16 (.padd (.var 6)
              (.bin (.add .u32) (.var 26) (.lit 2)) 16)) (.ld 16 (.padd (.var 27) (.lit 1) 16))),
            .call (some 36) Prog.Id.bf128_mul [.ld 16 (.padd (.var 27) (.lit 2) 16), .var 18],
            .st 16 (.padd (.var 6) (.bin (.add .u32) (.var 26) (.lit 2)) 16) (.bin (.vec 21) (.ld 16 (.padd (.var 6)
              (.bin (.add .u32) (.var 26) (.lit 2)) 16)) (.var 36)),
            .call (some 37) Prog.Id.bf128_mul [.ld 16 (.padd (.var 27) (.lit 3) 16), .var 20],
            .st 16 (.padd (.var 6) (.bin (.add .u32) (.var 26) (.lit 2)) 16) (.bin (.vec 21) (.ld 16 (.padd (.var 6)
              (.bin (.add .u32) (.var 26) (.lit 2)) 16)) (.var 37)),
            .call (some 38) Prog.Id.bf128_mul [.ld 16 (.var 27), .var 20],
            .st 16 (.padd (.var 6) (.bin (.add .u32) (.var 26) (.lit 3)) 16) (.bin (.vec 21) (.ld 16 (.padd (.var 28)
              (.lit 3) 16)) (.var 38)),
            .st 16 (.padd (.var 6) (.bin (.add .u32) (.var 26) (.lit 3)) 16) (.bin (.vec 21) (.ld 16 (.padd (.var 6)
              (.bin (.add .u32) (.var 26) (.lit 3)) 16)) (.ld 16 (.padd (.var 27) (.lit 1) 16))),
            .st 16 (.padd (.var 6) (.bin (.add .u32) (.var 26) (.lit 3)) 16) (.bin (.vec 21) (.ld 16 (.padd (.var 6)
              (.bin (.add .u32) (.var 26) (.lit 3)) 16)) (.ld 16 (.padd (.var 27) (.lit 2) 16))),
            .call (some 39) Prog.Id.bf128_mul [.ld 16 (.padd (.var 27) (.lit 3) 16), .var 18],
            .st 16 (.padd (.var 6) (.bin (.add .u32) (.var 26) (.lit 3)) 16) (.bin (.vec 21) (.ld 16 (.padd (.var 6)
              (.bin (.add .u32) (.var 26) (.lit 3)) 16)) (.var 39))])
          (.asg 23 (.bin (.add .u32) (.var 23) (.lit 1)))])
      (.asg 22 (.bin (.add .u32) (.var 22) (.lit 1)))]⟩

/-- `aes_enc_backward_128`, faest_aes.c:512-555; variables: 0 bf_x, 1 bf_xk, 2 Mtag, 3 Mkey, 4 delta, 5 out, 6 y_out,
  7 bf_delta, 11 factor, 13 j, 14 c, 15 r, 16 bf_x_tilde, 17 ird, 19 i, 20 bf_xout, 21 bf_y_tilde, 22 i -/
def aes_enc_backward_128 : Fn := ⟨7,
  block [
    .ite (.var 4)
      (block [
        .call (some 9) Prog.Id.bf128_load [.var 4],
        .asg 8 (.var 9)])
      (block [
        .call (some 10) Prog.Id.bf128_zero [],
        .asg 8 (.var 10)]),
    .asg 7 (.var 8),
    .call (some 12) Prog.Id.bf128_from_bit [.un (.cast .u8) (.bin (.bxor .i32) (.lit 1) (.var 3))],
    .asg 11 (.bin (.vec 22) (.bin (.vec 21) (.bin (.vec 22) (.var 7) (.bin (.vec 20) (.un (.neg .u64) (.bin (.band
      .u64) (.var 3) (.lit 1))) (.lit 2))) (.var 12)) (.bin (.vec 20) (.un (.neg .u64) (.bin (.band .u64) (.un (.cast
      .u64) (.bin (.bxor .i32) (.lit 1) (.var 2))) (.lit 1))) (.lit 2))),
    .asg 13 (.lit 0),
    .loop (.bin .lt (.var 13) (.lit 10))
      (block [
        .asg 14 (.lit 0),
        .loop (.bin .le (.var 14) (.lit 3))
          (block [
            .asg 15 (.lit 0),
            .loop (.bin .le (.var 15) (.lit 3))
              (block [
                .new 16 (.lit 128),
                .asg 17 (.bin (.add .u32) (.bin (.add .u32) (.bin (.mul .u32) (.lit 128) (.var 13)) (.bin (.mul .u32)
                  (.lit 32) (.div (.mod .u32) (.bin (.add .u32) (.bin (.sub .u32) (.var 14) (.var 15)) (.lit 4))
                  (.lit 4)))) (.bin (.mul .u32) (.lit 8) (.var 15))),
                .ite (.bin .lt (.var 13) (.lit 9))
                  (.call (some 18) Prog.Id.memcpy [.var 16, .padd (.var 0) (.var 17) 16, .lit 128])
                  (block [
                    .asg 19 (.lit 0),
                    .loop (.bin .lt (.var 19) (.lit 8))
                      (block [
                        .asg 20 (.bin (.vec 22) (.var 11) (.bin (.vec 20) (.un (.neg .u64) (.bin (.band .u64) (.un
                          (.cast .u64) (.bin (.band .i32) (.bin (.shr .i32) (.ld 1 (.padd (.var 5) (.div (.div .u32)
                          (.bin (.sub .u32) (.var 17) (.lit 1152)) (.lit 8)) 1)) (.var 19)) (.lit 1))) (.lit 1)))
                          (.lit 2))),
                        .st 16 (.padd (.var 16) (.var 19) 16) (.bin (.vec 21) (.var 20) (.ld 16 (.padd (.var 1) (.bin
                          (.add .u32) (.bin (.add .u32) (.lit 128) (.var 17)) (.var 19)) 16)))])
                      (.asg 19 (.bin (.add .u32) (.var 19) (.lit 1)))]),
                .new 21 (.lit 128),
                .asg 22 (.lit 0),
                .loop (.bin .lt (.var 22) (.lit 8))
                  (.st 16 (.padd (.var 21) (.var 22) 16) (.bin (.vec 21) (.bin (.vec 21) (.ld 16 (.padd (.var 16)
                    (.div (.mod .u32) (.bin (.add .u32) (.var 22) (.lit 7)) (.lit 8)) 16)) (.ld 16 (.padd (.var 16)
                    (.div (.mod .u32) (.bin (.add .u32) (.var 22) (.lit 5)) (.lit 8)) 16))) (.ld 16 (.padd (.var 16)
                    (.div (.mod .u32) (.bin (.add .u32) (.var 22) (.lit 2)) (.lit 8)) 16))))
                  (.asg 22 (.bin (.add .u32) (.var 22) (.lit 1))),
                .st 16 (.var 21) (.bin (.vec 21) (.ld 16 (.var 21)) (.var 11)),
                .st 16 (.padd (.var 21) (.lit 2) 16) (.bin (.vec 21) (.ld 16 (.padd (.var 21) (.lit 2) 16)) (.var
                  11)),
                .call (some 23) Prog.Id.bf128_byte_combine [.var 21],
                .st 16 (.padd (.var 6) (.bin (.add .u32) (.bin (.add .u32) (.bin (.mul .u32) (.lit 16) (.var 13))
                  (.bin (.mul .u32) (.lit 4) (.var 14))) (.var 15)) 16) (.var 23)])
              (.asg 15 (.bin (.add .u32) (.var 15) (.lit 1)))])
          (.asg 14 (.bin (.add .u32) (.var 14) (.lit 1)))])
      (.asg 13 (.bin (.add .u32) (.var 13) (.lit 1)))]⟩

/-- `aes_enc_constraints_Mkey_0_128`, faest_aes.c:557-578; variables: 0 in, 1 out, 2 w, 3 v, 4 k, 5 vk, 6 a0_ctx, 7
  a1_ctx, 8 s, 9 vs, 10 s_dash, 11 vs_dash, 12 j, 13 tmp -/
def aes_enc_constraints_Mkey_0_128 : Fn := ⟨8,
  block [
    .new 8 (.lit 2560),
    .new 9 (.lit 2560),
    .new 10 (.lit 2560),
    .new 11 (.lit 2560),
    .call none Prog.Id.aes_enc_forward_128_1 [.var 2, .var 4, .var 0, .var 8],
    .call none Prog.Id.aes_enc_forward_128 [.var 3, .var 5, .var 0, .lit 1, .lit 0, .lit 0, .var 9],
    .call none Prog.Id.aes_enc_backward_128_1 [.var 2, .var 4, .var 1, .var 10],
    .call none Prog.Id.aes_enc_backward_128 [.var 3, .var 5, .lit 1, .lit 0, .lit 0, .var 1, .var 11],
    .asg 12 (.lit 0),
    .loop (.bin .lt (.var 12) (.lit 160))
      (block [
        .call (some 14) Prog.Id.bf128_mul [.ld 16 (.padd (.var 9) (.var 12) 16), .ld 16 (.padd (.var 11) (.var 12)
          16)],
        .asg 13 (.var 14),
        .call none Prog.Id.zk_hash_128_update [.var 6, .var 13],
        .call (some 15) Prog.Id.bf128_mul [.bin (.vec 21) (.ld 16 (.padd (.var 8) (.var 12) 16)) (.ld 16 (.padd (.var
          9) (.var 12) 16)), .bin (.vec 21) (.ld 16 (.padd (.var 10) (.var 12) 16)) (.ld 16 (.padd (.var 11) (.var
          12) 16))],
        .call (some 16) Prog.Id.bf128_one [],
        .call none Prog.Id.zk_hash_128_update [.var 7, .bin (.vec 21) (.bin (.vec 21) (.var 15) (.var 13)) (.var
          16)]])
      (.asg 12 (.bin (.add .u32) (.var 12) (.lit 1)))]⟩

/-- `em_enc_forward_128_1`, faest_aes.c:1657-1699; variables: 0 z, 1 x, 2 bf_y, 3 j, 6 bf_two, 8 bf_three, 10 j, 11
  c, 12 i, 13 iy, 14 bf_x_hat, 15 bf_z_hat, 16 r -/
def em_enc_forward_128_1 : Fn := ⟨3,
  block [
    .asg 3 (.lit 0),
    .loop (.bin .lt (.var 3) (.lit 16))
      (block [
        .call (some 4) Prog.Id.bf128_byte_combine_bits [.ld 1 (.padd (.var 0) (.var 3) 1)],
        .call (some 5) Prog.Id.bf128_byte_combine_bits [.ld 1 (.padd (.var 1) (.var 3) 1)],
        .st 16 (.padd (.var 2) (.var 3) 16) (.bin (.vec 21) (.var 4) (.var 5))])
      (.asg 3 (.bin (.add .u32) (.var 3) (.lit 1))),
    .call (some 7) Prog.Id.bf128_byte_combine_bits [.lit 2],
    .asg 6 (.var 7),
    .call (some 9) Prog.Id.bf128_byte_combine_bits [.lit 3],
    .asg 8 (.var 9),
    .asg 10 (.lit 1),
    .loop (.bin .lt (.var 10) (.lit 10))
      (block [
        .asg 11 (.lit 0),
        .loop (.bin .lt (.var 11) (.lit 4))
          (block [
            .asg 12 (.bin (.add .u32) (.bin (.mul .u32) (.lit 128) (.var 10)) (.bin (.mul .u32) (.lit 32) (.var 11))),
            .asg 13 (.bin (.add .u32) (.bin (.mul .u32) (.lit 16) (.var 10)) (.bin (.mul .u32) (.lit 4) (.var 11))),
            .new 14 (.lit 64),
            .new 15 (.lit 64),
            .asg 16 (.lit 0),
            .loop (.bin .le (.var 16) (.lit 3))
              (block [
                .call (some 17) Prog.Id.bf128_byte_combine_bits [.ld 1 (.padd (.var 0) (.div (.div .u32) (.bin (.add
                  .u32) (.var 12) (.bin (.mul .u32) (.lit 8) (.var 16))) (.lit 8)) 1)],
                .st 16 (.padd (.var 15) (.var 16) 16) (.var 17),
                .call (some 18) Prog.Id.bf128_byte_combine_bits [.ld 1 (.padd (.var 1) (.div (.div .u32) (.bin (.add
                  .u32) (.var 12) (.bin (.mul .u32) (.lit 8) (.var 16))) (.lit 8)) 1)],
                .st 16 (.padd (.var 14) (.var 16) 16) (.var 18)])
              (.asg 16 (.bin (.add .u32) (.var 16) (.lit 1))),
            .call (some 19) Prog.Id.bf128_mul [.ld 16 (.var 15), .var 6],
            .call (some 20) Prog.Id.bf128_mul [.ld 16 (.padd (.var 15) (.lit 1) 16), .var 8],
            .st 16 (.padd (.var 2) (.bin (.add .u32) (.var 13) (.lit 0)) 16) (.bin (.vec 21) (.var 19) (.var 20)),
            .st 16 (.padd (.var 2) (.bin (.add .u32) (.var 13) (.lit 0)) 16) (.bin (.vec 21) (.ld 16 (.padd (.var 2)
              (.bin (.add .u32) (.var 13) (.lit 0)) 16)) (.ld 16 (.padd (.var 15) (.lit 2) 16))),
            .st 16 (.padd (.var 2) (.bin (.add .u32) (.var 13) (.lit 0)) 16) (.bin (.vec 21) (.ld 16 (.padd (.var 2)
              (.bin (.add .u32) (.var 13) (.lit 0)) 16)) (.ld 16 (.padd (.var 15) (.lit 3) 16))),
            .st 16 (.padd (.var 2) (.bin (.add .u32) (.var 13) (.lit 0)) 16) (.bin (.vec 21) (.ld 16 (.padd (.var 2)
              (.bin (.add .u32) (.var 13) (.lit 0)) 16)) (.ld 16 (.var 14))),
            .call (some 21) Prog.Id.bf128_mul [.ld 16 (.padd (.var 15) (.lit 1) 16), .var 6],
            .st 16 (.padd (.var 2) (.bin (.add .u32) (.var 13) (.lit 1)) 16) (.bin (.vec 21) (.ld 16 (.var 15)) (.var
              21)),
            .call (some 22) Prog.Id.bf128_mul [.ld 16 (.padd (.var 15) (.lit 2) 16), .var 8],
            .st 16 (.padd (.var 2) (.bin (.add .u32) (.var 13) (.lit 1)) 16) (.bin (.vec 21) (.ld 16 (.padd (.var 2)
              (.bin (.add .u32) (.var 13) (.lit 1)) 16)) (.var 22)),
            .st 16 (.padd (.var 2) (.bin (.add .u32) (.var 13) (.lit 1)) 16) (.bin (.vec 21) (.ld 16 (.padd (.var 2)
              (.bin (.add .u32) (.var 13) (.lit 1)) 16)) (.ld 16 (.padd (.var 15) (.lit 3) 16))),
            .st 16 (.padd (.var 2) (.bin (.add .u32) (.var 13) (.lit 1)) 16) (.bin (.vec 21) (.ld 16 (.padd (.var 2)
              (.bin (.add .u32) (.var 13) (.lit 1)) 16)) (.ld 16 (.padd (.var 14) (.lit 1) 16))),
            .st 16 (.padd (.var 2) (.bin (.add .u32) (.var 13) (.lit 2)) 16) (.bin (.vec 21) (.ld 16 (.var 15)) (.ld
              16 (.padd (.var 15) (.lit 1) 16))),
            .call (some 23) Prog.Id.bf128_mul [.ld 16 (.padd (.var 15) (.lit 2) 16), .var 6],
            .st 16 (.padd (.var 2) (.bin (.add .u32) (.var 13) (.lit 2)) 16) (.bin (.vec 21) (.ld 16 (.padd (.var 2)
              (.bin (.add .u32) (.var 13) (.lit 2)) 16)) (.var 23)),
            .call (some 24) Prog.Id.bf128_mul [.ld 16 (.padd (.var 15) (.lit 3) 16), .var 8],
            .st 16 (.padd (.var 2) (.bin (.add .u32) (.var 13) (.lit 2)) 16) (.bin (.vec 21) (.ld 16 (.padd (.var 2)
              (.bin (.add .u32) (.var 13) (.lit 2)) 16)) (.var 24)),
            .st 16 (.padd (.var 2) (.bin (.add .u32) (.var 13) (.lit 2)) 16) (.bin (.vec 21) (.ld 16 (.padd (.var 2)
              (.bin (.add .u32) (.var 13) (.lit 2)) 16)) (.ld 16 (.padd (.var 14) (.lit 2) 16))),
            .call (some 25) Prog.Id.bf128_mul [.ld 16 (.var 15), .var 8],
            .st 16 (.padd (.var 2) (.bin (.add .u32) (.var 13) (.lit 3)) 16) (.bin (.vec 21) (.var 25) (.ld 16 (.padd
              (.var 15) (.lit 1) 16))),
            .st 16 (.padd (.var 2) (.bin (.add .u32) (.var 13) (.lit 3)) 16) (.bin (.vec 21) (.ld 16 (.padd (.var 2)
              (.bin (.add .u32) (.var 13) (.lit 3)) 16)) (.ld 16 (.padd (.var 15) (.lit 2) 16))),
            .call (some 26) Prog.Id.bf128_mul [.ld 16 (.padd (.var 15) (.lit 3) 16), .var 6],
            .st 16 (.padd (.var 2) (.bin (.add .u32) (.var 13) (.lit 3)) 16) (.bin (.vec 21) (.ld 16 (.padd (.var 2)
              (.bin (.add .u32) (.var 13) (.lit 3)) 16)) (.var 26)),
            .st 16 (.padd (.var 2) (.bin (.add .u32) (.var 13) (.lit 3)) 16) (.bin (.vec 21) (.ld 16 (.padd (.var 2)
              (.bin (.add .u32) (.var 13) (.lit 3)) 16)) (.ld 16 (.padd (.var 14) (.lit 3) 16)))])
          (.asg 11 (.bin (.add .u32) (.var 11) (.lit 1)))])
      (.asg 10 (.bin (.add .u32) (.var 10) (.lit 1)))]⟩

/-- `em_enc_forward_128`, faest_aes.c:1701-1751; variables: 0 bf_z, 1 bf_x, 2 bf_y, 3 j, 6 bf_two, 8 bf_three, 10 j,
  11 c, 12 i, 13 iy, 14 bf_x_hat, 15 bf_z_hat, 16 r -/
def em_enc_forward_128 : Fn := ⟨3,
  block [
    .asg 3 (.lit 0),
    .loop (.bin .lt (.var 3) (.lit 16))
      (block [
        .call (some 4) Prog.Id.bf128_byte_combine [.padd (.var 0) (.bin (.mul .u32) (.lit 8) (.var 3)) 16],
        .st 16 (.padd (.var 2) (.var 3) 16) (.var 4),
        .ite (.var 1)
          (block [
            .call (some 5) Prog.Id.bf128_byte_combine [.padd (.var 1) (.bin (.mul .u32) (.lit 8) (.var 3)) 16],
            .st 16 (.padd (.var 2) (.var 3) 16) (.bin (.vec 21) (.ld 16 (.padd (.var 2) (.var 3) 16)) (.var 5))])
          (.skip)])
      (.asg 3 (.bin (.add .u32) (.var 3) (.lit 1))),
    .call (some 7) Prog.Id.bf128_byte_combine_bits [.lit 2],
    .asg 6 (.var 7),
    .call (some 9) Prog.Id.bf128_byte_combine_bits [.lit 3],
    .asg 8 (.var 9),
    .asg 10 (.lit 1),
    .loop (.bin .lt (.var 10) (.lit 10))
      (block [
        .asg 11 (.lit 0),
        .loop (.bin .lt (.var 11) (.lit 4))
          (block [
            .asg 12 (.bin (.add .u32) (.bin (.mul .u32) (.lit 128) (.var 10)) (.bin (.mul .u32) (.lit 32) (.var 11))),
            .asg 13 (.bin (.add .u32) (.bin (.mul .u32) (.lit 16) (.var 10)) (.bin (.mul .u32) (.lit 4) (.var 11))),
            .new 14 (.lit 64),
            .new 15 (.lit 64),
            .asg 16 (.lit 0),
            .loop (.bin .le (.var 16) (.lit 3))
              (block [
                .call (some 17) Prog.Id.bf128_byte_combine [.padd (.var 0) (.bin (.add .u32) (.var 12) (.bin (.mul
                  .u32) (.lit 8) (.var 16))) 16],
                .st 16 (.padd (.var 15) (.var 16) 16) (.var 17),
                .ite (.var 1)
                  (block [
                    .call (some 18) Prog.Id.bf128_byte_combine [.padd (.var 1) (.bin (.add .u32) (.var 12) (.bin
                      (.mul .u32) (.lit 8) (.var 16))) 16],
                    .st 16 (.padd (.var 14) (.var 16) 16) (.var 18)])
                  (block [
                    .call (some 19) Prog.Id.bf128_zero [],
                    .st 16 (.padd (.var 14) (.var 16) 16) (.var 19)])])
              (.asg 16 (.bin (.add .u32) (.var 16) (.lit 1))),
            .call (some 20) Prog.Id.bf128_mul [.ld 16 (.var 15), .var 6],
            .call (some 21) Prog.Id.bf128_mul [.ld 16 (.padd (.var 15) (.lit 1) 16), .var 8],
            .st 16 (.padd (.var 2) (.bin (.add .u32) (.var 13) (.lit 0)) 16) (.bin (.vec 21) (.var 20) (.var 21)),
            .st 16 (.padd (.var 2) (.bin (.add .u32) (.var 13) (.lit 0)) 16) (.bin (.vec 21) (.ld 16 (.padd (.var 2)
              (.bin (.add .u32) (.var 13) (.lit 0)) 16)) (.ld 16 (.padd (.var 15) (.lit 2) 16))),
            .st 16 (.padd (.var 2) (.bin (.add .u32) (.var 13) (.lit 0)) 16) (.bin (.vec 21) (.ld 16 (.padd (.var 2)
              (.bin (.add .u32) (.var 13) (.lit 0)) 16)) (.ld 16 (.padd (.var 15) (.lit 3) 16))),
            .st 16 (.padd (.var 2) (.bin (.add .u32) (.var 13) (.lit 0)) 16) (.bin (.vec 21) (.ld 16 (.padd (.var 2)
              (.bin (.add .u32) (.var 13) (.lit 0)) 16)) (.ld 16 (.var 14))),
            .call (some 22) Prog.Id.bf128_mul [.ld 16 (.padd (.var 15) (.lit 1) 16), .var 6],
            .st 16 (.padd (.var 2) (.bin (.add .u32) (.var 13) (.lit 1)) 16) (.bin (.vec 21) (.ld 16 (.var 15)) (.var
              22)),
            .call (some 23) Prog.Id.bf128_mul [.ld 16 (.padd (.var 15) (.lit 2) 16), .var 8],
            .st 16 (.padd (.var 2) (.bin (.add .u32) (.var 13) (.lit 1)) 16) (.bin (.vec 21) (.ld 16 (.padd (.var 2)
              (.bin (.add .u32) (.var 13) (.lit 1)) 16)) (.var 23)),
            .st 16 (.padd (.var 2) (.bin (.add .u32) (.var 13) (.lit 1)) 16) (.bin (.vec 21) (.ld 16 (.padd (.var 2)
              (.bin (.add .u32) (.var 13) (.lit 1)) 16)) (.ld 16 (.padd (.var 15) (.lit 3) 16))),
            .st 16 (.padd (.var 2) (.bin (.add .u32) (.var 13) (.lit 1)) 16) (.bin (.vec 21) (.ld 16 (.padd (.var 2)
              (.bin (.add .u32) (.var 13) (.lit 1)) 16)) (.ld 16 (.padd (.var 14) (.lit 1) 16))),
            .st 16 (.padd (.var 2) (.bin (.add .u32) (.var 13) (.lit 2)) 16) (.bin (.vec 21) (.ld 16 (.var 15)) (.ld
              16 (.padd (.var 15) (.lit 1) 16))),
            .call (some 24) Prog.Id.bf128_mul [.ld 16 (.padd (.var 15) (.lit 2) 16), .var 6],
            .st 16 (.padd (.var 2) (.bin (.add .u32) (.var 13) (.lit 2)) 16) (.bin (.vec 21) (.ld 16 (.padd (.var 2)
              (.bin (.add .u32) (.var 13) (.lit 2)) 16)) (.var 24)),
            .call (some 25) Prog.Id.bf128_mul [.ld 16 (.padd (.var 15) (.lit 3) 16), .var 8],
            .st 16 (.padd (.var 2) (.bin (.add .u32) (.var 13) (.lit 2)) 16) (.bin (.vec 21) (.ld 16 (.padd (.var 2)
              (.bin (.add .u32) (.var 13) (.lit 2)) 16)) (.var 25)),
            .st 16 (.padd (.var 2) (.bin (.add .u32) (.var 13) (.lit 2)) 16) (.bin (.vec 21) (.ld 16 (.padd (.var 2)
              (.bin (.add .u32) (.var 13) (.lit 2)) 16)) (.ld 16 (.padd (.var 14) (.lit 2) 16))),
            .call (some 26) Prog.Id.bf128_mul [.ld 16 (.var 15), .var 8],
            .st 16 (.padd (.var 2) (.bin (.add .u32) (.var 13) (.lit 3)) 16) (.bin (.vec 21) (.var 26) (.ld 16 (.padd
              (.var 15) (.lit 1) 16))),
            .st 16 (.padd (.var 2) (.bin (.add .u32) (.var 13) (.lit 3)) 16) (.bin (.vec 21) (.ld 16 (.padd (.var 2)
              (.bin (.add .u32) (.var 13) (.lit 3)) 16)) (.ld 16 (.padd (.var 15) (.lit 2) 16))),
            .call (some 27) Prog.Id.bf128_mul [.ld 16 (.padd (.var 15) (.lit 3) 16), .var 6],
            .st 16 (.padd (.var 2) (.bin (.add .u32) (.var 13) (.lit 3)) 16) (.bin (.vec 21) (.ld 16 (.padd (.var 2)
              (.bin (.add .u32) (.var 13) (.lit 3)) 16)) (.var 27)),
            .st 16 (.padd (.var 2) (.bin (.add .u32) (.var 13) (.lit 3)) 16) (.bin (.vec 21) (.ld 16 (.padd (.var 2)
              (.bin (.add .u32) (.var 13) (.lit 3)) 16)) (.ld 16 (.padd (.var 14) (.lit 3) 16)))])
          (.asg 11 (.bin (.add .u32) (.var 11) (.lit 1)))])
      (.asg 10 (.bin (.add .u32) (.var 10) (.lit 1)))]⟩

/-- `em_enc_backward_128`, faest_aes.c:1782-1822; variables: 0 bf_z, 1 bf_x, 2 bf_z_out, 3 Mtag, 4 Mkey, 5 delta, 6
  y_out, 7 bf_delta, 11 factor, 13 j, 14 c, 15 r, 16 bf_z_tilde, 17 icol, 18 ird, 20 i, 21 bf_y_tilde, 22 i -/
def em_enc_backward_128 : Fn := ⟨7,
  block [
    .ite (.var 5)
      (block [
        .call (some 9) Prog.Id.bf128_load [.var 5],
        .asg 8 (.var 9)])
      (block [
        .call (some 10) Prog.Id.bf128_zero [],
        .asg 8 (.var 10)]),
    .asg 7 (.var 8),
    .call (some 12) Prog.Id.bf128_from_bit [.un (.cast .u8) (.bin (.bxor .i32) (.lit 1) (.var 4))],
    .asg 11 (.bin (.vec 22) (.bin (.vec 21) (.bin (.vec 22) (.var 7) (.bin (.vec 20) (.un (.neg .u64) (.bin (.band
      .u64) (.var 4) (.lit 1))) (.lit 2))) (.var 12)) (.bin (.vec 20) (.un (.neg .u64) (.bin (.band .u64) (.un (.cast
      .u64) (.bin (.bxor .i32) (.lit 1) (.var 3))) (.lit 1))) (.lit 2))),
    .asg 13 (.lit 0),
    .loop (.bin .lt (.var 13) (.lit 10))
      (block [
        .asg 14 (.lit 0),
        .loop (.bin .lt (.var 14) (.lit 4))
          (block [
            .asg 15 (.lit 0),
            .loop (.bin .le (.var 15) (.lit 3))
              (block [
                .new 16 (.lit 128),
                .asg 17 (.div (.mod .u32) (.bin (.add .u32) (.bin (.sub .u32) (.var 14) (.var 15)) (.lit 4)) (.lit
                  4)),
                .asg 18 (.bin (.add .u32) (.bin (.add .u32) (.bin (.add .u32) (.lit 128) (.bin (.mul .u32) (.lit 128)
                  (.var 13))) (.bin (.mul .u32) (.lit 32) (.var 17))) (.bin (.mul .u32) (.lit 8) (.var 15))),
                .ite (.bin .lt (.var 13) (.lit 9))
                  (.call (some 19) Prog.Id.memcpy [.var 16, .padd (.var 0) (.var 18) 16, .lit 128])
                  (block [
                    .asg 20 (.lit 0),
                    .loop (.bin .lt (.var 20) (.lit 8))
                      (block [
                        .st 16 (.padd (.var 16) (.var 20) 16) (.ld 16 (.padd (.var 2) (.bin (.add .u32) (.bin (.sub
                          .u32) (.var 18) (.bin (.mul .u32) (.lit 128) (.bin (.add .u32) (.var 13) (.lit 1)))) (.var
                          20)) 16)),
                        .ite (.var 1)
                          (.st 16 (.padd (.var 16) (.var 20) 16) (.bin (.vec 21) (.ld 16 (.padd (.var 16) (.var 20)
                            16)) (.ld 16 (.padd (.var 1) (.bin (.add .u32) (.var 18) (.var 20)) 16))))
                          (.skip)])
                      (.asg 20 (.bin (.add .u32) (.var 20) (.lit 1)))]),
                .new 21 (.lit 128),
                .asg 22 (.lit 0),
                .loop (.bin .lt (.var 22) (.lit 8))
                  (.st 16 (.padd (.var 21) (.var 22) 16) (.bin (.vec 21) (.bin (.vec 21) (.ld 16 (.padd (.var 16)
                    (.div (.mod .u32) (.bin (.add .u32) (.var 22) (.lit 7)) (.lit 8)) 16)) (.ld 16 (.padd (.var 16)
                    (.div (.mod .u32) (.bin (.add .u32) (.var 22) (.lit 5)) (.lit 8)) 16))) (.ld 16 (.padd (.var 16)
                    (.div (.mod .u32) (.bin (.add .u32) (.var 22) (.lit 2)) (.lit 8)) 16))))
                  (.asg 22 (.bin (.add .u32) (.var 22) (.lit 1))),
                .st 16 (.var 21) (.bin (.vec 21) (.ld 16 (.var 21)) (.var 11)),
                .st 16 (.padd (.var 21) (.lit 2) 16) (.bin (.vec 21) (.ld 16 (.padd (.var 21) (.lit 2) 16)) (.var
                  11)),
                .call (some 23) Prog.Id.bf128_byte_combine [.var 21],
                .st 16 (.padd (.var 6) (.bin (.add .u32) (.bin (.add .u32) (.bin (.mul .u32) (.lit 16) (.var 13))
                  (.bin (.mul .u32) (.lit 4) (.var 14))) (.var 15)) 16) (.var 23)])
              (.asg 15 (.bin (.add .u32) (.var 15) (.lit 1)))])
          (.asg 14 (.bin (.add .u32) (.var 14) (.lit 1)))])
      (.asg 13 (.bin (.add .u32) (.var 13) (.lit 1)))]⟩

/-- `em_enc_constraints_Mkey_0_128`, faest_aes.c:1824-1849; variables: 0 out, 1 x, 2 w, 3 bf_v, 4 a0_ctx, 5 a1_ctx, 6
  w_out, 7 bf_s, 8 bf_vs, 9 bf_s_dash, 10 bf_vs_dash, 11 j, 12 tmp -/
def em_enc_constraints_Mkey_0_128 : Fn := ⟨6,
  block [
    .new 6 (.lit 16),
    .call none Prog.Id.xor_u8_array [.var 0, .var 2, .var 6, .lit 16],
    .new 7 (.lit 2560),
    .new 8 (.lit 2560),
    .new 9 (.lit 2560),
    .new 10 (.lit 2560),
    .call none Prog.Id.em_enc_forward_128_1 [.var 2, .var 1, .var 7],
    .call none Prog.Id.em_enc_forward_128 [.var 3, .lit 0, .var 8],
    .call none Prog.Id.em_enc_backward_128_1 [.var 2, .var 1, .var 6, .var 9],
    .call none Prog.Id.em_enc_backward_128 [.var 3, .lit 0, .var 3, .lit 1, .lit 0, .lit 0, .var 10],
    .asg 11 (.lit 0),
    .loop (.bin .lt (.var 11) (.lit 160))
      (block [
        .call (some 13) Prog.Id.bf128_mul [.ld 16 (.padd (.var 8) (.var 11) 16), .ld 16 (.padd (.var 10) (.var 11)
          16)],
        .asg 12 (.var 13),
        .call none Prog.Id.zk_hash_128_update [.var 4, .var 12],
        .call (some 14) Prog.Id.bf128_mul [.bin (.vec 21) (.ld 16 (.padd (.var 7) (.var 11) 16)) (.ld 16 (.padd (.var
          8) (.var 11) 16)), .bin (.vec 21) (.ld 16 (.padd (.var 9) (.var 11) 16)) (.ld 16 (.padd (.var 10) (.var 11)
          16))],
        .call (some 15) Prog.Id.bf128_one [],
        .call none Prog.Id.zk_hash_128_update [.var 5, .bin (.vec 21) (.bin (.vec 21) (.var 14) (.var 12)) (.var
          15)]])
      (.asg 11 (.bin (.add .u32) (.var 11) (.lit 1)))]⟩

end Faest.Leak.ProgVec
