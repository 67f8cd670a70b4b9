/-
Generated by tools/c2leak.py; do not edit.
Functions of faest_aes.c.
-/
import Verif.Model.Leak.IR
import Verif.Model.Leak.Prog.Ids

namespace Faest.Leak.Prog

/-- `column_to_row_major_and_shrink_V_256`, faest_aes.c:111-125; variables: 0 v, 1 ell, 2 new_v, 4 row, 5 new_row, 7
  column -/
def column_to_row_major_and_shrink_V_256 : Fn := ⟨2,
  block [
    .new 3 (.bin (.mul .u64) (.bin (.add .u32) (.var 1) (.lit 256)) (.lit 32)),
    .asg 2 (.var 3),
    .asg 4 (.lit 0),
    .loop (.bin .ne (.var 4) (.bin (.add .u32) (.var 1) (.lit 256)))
      (block [
        .new 5 (.lit 32),
        .call (some 6) Id.memset [.var 5, .lit 0, .lit 32],
        .asg 7 (.lit 0),
        .loop (.bin .ne (.var 7) (.lit 256))
          (.st 1 (.padd (.var 5) (.div (.div .u32) (.var 7) (.lit 8)) 1) (.un (.cast .u8) (.bin (.bor .i32) (.ld 1
            (.padd (.var 5) (.div (.div .u32) (.var 7) (.lit 8)) 1)) (.bin (.shl .i32) (.bin (.band .i32) (.bin (.shr
            .i32) (.ld 1 (.padd (.cell (.padd (.var 0) (.var 7) 1) 0) (.div (.div .u32) (.var 4) (.lit 8)) 1)) (.div
            (.mod .u32) (.var 4) (.lit 8))) (.lit 1)) (.div (.mod .u32) (.var 7) (.lit 8))))))
          (.asg 7 (.bin (.add .u32) (.var 7) (.lit 1))),
        .call (some 8) Id.bf256_load [.var 5],
        .st 32 (.padd (.var 2) (.var 4) 32) (.var 8)])
      (.asg 4 (.bin (.add .u32) (.var 4) (.lit 1))),
    .ret (.var 2)]⟩

/-- `aes_key_schedule_forward_1`, faest_aes.c:129-157; variables: 0 x, 1 out, 2 params, 3 lambda, 4 R, 5 Nwd, 6
  lambdaBytes, 7 out_len, 10 i_wd, 11 j, 15 i -/
def aes_key_schedule_forward_1 : Fn := ⟨3,
  block [
    .asg 3 (.ld 2 (.var 2)),
    .asg 4 (.ld 2 (.padd (.var 2) (.lit 6) 1)),
    .asg 5 (.ld 2 (.padd (.var 2) (.lit 2) 1)),
    .asg 6 (.div (.div .u32) (.var 3) (.lit 8)),
    .asg 7 (.div (.div .u32) (.bin (.mul .u32) (.bin (.add .u32) (.var 4) (.lit 1)) (.lit 128)) (.lit 8)),
    .call (some 8) Id.memcpy [.var 1, .var 0, .var 6],
    .call (some 9) Id.memset [.padd (.var 1) (.var 6) 1, .lit 0, .bin (.sub .u32) (.var 7) (.var 6)],
    .asg 10 (.var 3),
    .asg 11 (.var 5),
    .loop (.bin .lt (.var 11) (.bin (.mul .u32) (.lit 4) (.bin (.add .u32) (.var 4) (.lit 1))))
      (block [
        .ite (.bin .eq (.div (.mod .u32) (.var 11) (.var 5)) (.lit 0))
          (.asg 12 (.lit 1))
          (block [
            .ite (.bin .gt (.var 5) (.lit 6))
              (.asg 13 (.bin .ne (.bin .eq (.div (.mod .u32) (.var 11) (.var 5)) (.lit 4)) (.lit 0)))
              (.asg 13 (.lit 0)),
            .asg 12 (.bin .ne (.var 13) (.lit 0))]),
        .ite (.var 12)
          (block [
            .call (some 14) Id.memcpy [.padd (.var 1) (.div (.div .u32) (.bin (.mul .u32) (.lit 32) (.var 11)) (.lit
              8)) 1, .padd (.var 0) (.div (.div .u32) (.var 10) (.lit 8)) 1, .lit 4],
            .asg 10 (.bin (.add .u32) (.var 10) (.lit 32))])
          (block [
            .asg 15 (.lit 0),
            .loop (.bin .lt (.var 15) (.lit 32))
              (.st 1 (.padd (.var 1) (.div (.div .u32) (.bin (.add .u32) (.bin (.mul .u32) (.lit 32) (.var 11)) (.var
                15)) (.lit 8)) 1) (.un (.cast .u8) (.bin (.bor .i32) (.ld 1 (.padd (.var 1) (.div (.div .u32) (.bin
                (.add .u32) (.bin (.mul .u32) (.lit 32) (.var 11)) (.var 15)) (.lit 8)) 1)) (.bin (.bxor .i32) (.ld 1
                (.padd (.var 1) (.div (.div .u32) (.bin (.add .u32) (.bin (.mul .u32) (.lit 32) (.bin (.sub .u32)
                (.var 11) (.var 5))) (.var 15)) (.lit 8)) 1)) (.ld 1 (.padd (.var 1) (.div (.div .u32) (.bin (.add
                .u32) (.bin (.mul .u32) (.lit 32) (.bin (.sub .u32) (.var 11) (.lit 1))) (.var 15)) (.lit 8)) 1))))))
              (.asg 15 (.bin (.add .u32) (.var 15) (.lit 8)))])])
      (.asg 11 (.bin (.add .u32) (.var 11) (.lit 1)))]⟩

/-- `aes_key_schedule_forward_256`, faest_aes.c:1167-1186; variables: 0 v, 1 bf_out, 3 i_wd, 4 j, 7 i -/
def aes_key_schedule_forward_256 : Fn := ⟨2,
  block [
    .call (some 2) Id.memcpy [.var 1, .var 0, .lit 8192],
    .asg 3 (.lit 256),
    .asg 4 (.lit 8),
    .loop (.bin .lt (.var 4) (.lit 60))
      (block [
        .ite (.bin .eq (.div (.mod .u32) (.var 4) (.lit 8)) (.lit 0))
          (.asg 5 (.lit 1))
          (.asg 5 (.bin .ne (.bin .ne (.bin .eq (.div (.mod .u32) (.var 4) (.lit 8)) (.lit 4)) (.lit 0)) (.lit 0))),
        .ite (.var 5)
          (block [
            .call (some 6) Id.memcpy [.padd (.var 1) (.bin (.mul .u32) (.var 4) (.lit 32)) 32, .padd (.var 0) (.var
              3) 32, .lit 1024],
            .asg 3 (.bin (.add .u32) (.var 3) (.lit 32))])
          (block [
            .asg 7 (.lit 0),
            .loop (.bin .lt (.var 7) (.lit 32))
              (block [
                .call (some 8) Id.bf256_add [.ld 32 (.padd (.var 1) (.bin (.add .u32) (.bin (.mul .u32) (.lit 32)
                  (.bin (.sub .u32) (.var 4) (.lit 8))) (.var 7)) 32), .ld 32 (.padd (.var 1) (.bin (.add .u32) (.bin
                  (.mul .u32) (.lit 32) (.bin (.sub .u32) (.var 4) (.lit 1))) (.var 7)) 32)],
                .st 32 (.padd (.var 1) (.bin (.add .u32) (.bin (.mul .u32) (.lit 32) (.var 4)) (.var 7)) 32) (.var
                  8)])
              (.asg 7 (.bin (.add .u32) (.var 7) (.lit 1)))])])
      (.asg 4 (.bin (.add .u32) (.var 4) (.lit 1)))]⟩

/-- `aes_key_schedule_backward_1`, faest_aes.c:159-204; variables: 0 x, 1 xk, 2 out, 3 params, 4 lambda, 5 Ske, 6
  iwd, 7 c, 8 rmvRcon, 9 ircon, 10 j, 11 x_tilde, 13 y_tilde -/
def aes_key_schedule_backward_1 : Fn := ⟨4,
  block [
    .asg 4 (.ld 2 (.var 3)),
    .asg 5 (.ld 2 (.padd (.var 3) (.lit 4) 1)),
    .asg 6 (.lit 0),
    .asg 7 (.lit 0),
    .asg 8 (.lit 1),
    .asg 9 (.lit 0),
    .asg 10 (.lit 0),
    .loop (.bin .lt (.var 10) (.var 5))
      (block [
        .asg 11 (.un (.cast .u8) (.bin (.bxor .i32) (.ld 1 (.padd (.var 0) (.var 10) 1)) (.ld 1 (.padd (.var 1) (.bin
          (.add .u32) (.var 6) (.var 7)) 1)))),
        .ite (.bin .eq (.var 8) (.lit 1))
          (.asg 12 (.bin .ne (.bin .eq (.var 7) (.lit 0)) (.lit 0)))
          (.asg 12 (.lit 0)),
        .ite (.var 12)
          (block [
            .asg 11 (.un (.cast .u8) (.bin (.bxor .i32) (.var 11) (.ld 1 (.padd (.glob 6) (.var 9) 1)))),
            .asg 9 (.bin (.add .u32) (.var 9) (.lit 1))])
          (.skip),
        .call (some 14) Id.rotr8 [.var 11, .lit 7],
        .call (some 15) Id.rotr8 [.var 11, .lit 5],
        .call (some 16) Id.rotr8 [.var 11, .lit 2],
        .asg 13 (.un (.cast .u8) (.bin (.bxor .i32) (.bin (.bxor .i32) (.var 14) (.var 15)) (.var 16))),
        .st 1 (.padd (.var 2) (.var 10) 1) (.un (.cast .u8) (.bin (.bxor .i32) (.var 13) (.lit 5))),
        .asg 7 (.bin (.add .u32) (.var 7) (.lit 1)),
        .ite (.bin .eq (.var 7) (.lit 4))
          (block [
            .asg 7 (.lit 0),
            .ite (.bin .eq (.var 4) (.lit 192))
              (.asg 6 (.bin (.add .u32) (.var 6) (.lit 24)))
              (block [
                .asg 6 (.bin (.add .u32) (.var 6) (.lit 16)),
                .ite (.bin .eq (.var 4) (.lit 256))
                  (.asg 8 (.un (.cast .bool) (.un .lnot (.var 8))))
                  (.skip)])])
          (.skip)])
      (.asg 10 (.bin (.add .u32) (.var 10) (.lit 1)))]⟩

/-- `aes_key_schedule_backward_256`, faest_aes.c:1188-1241; variables: 0 v, 1 Vk, 2 Mtag, 3 Mkey, 4 delta, 5 bf_out,
  9 iwd, 10 c, 11 rmvRcon, 12 ircon, 13 bf_delta, 17 bf_minus_mkey, 19 minus_mtag, 20 bf_mkey_times_delta, 23 j, 24
  bf_x_tilde, 25 i, 29 r, 30 bf_r, 31 i, 34 i -/
def aes_key_schedule_backward_256 : Fn := ⟨6,
  block [
    .ite (.bin .eq (.var 2) (.lit 1))
      (.asg 6 (.bin .ne (.bin .eq (.var 3) (.lit 1)) (.lit 0)))
      (.asg 6 (.lit 0)),
    .ite (.var 6)
      (.asg 7 (.lit 1))
      (block [
        .ite (.bin .eq (.var 3) (.lit 1))
          (.asg 8 (.bin .ne (.bin .eq (.var 4) (.lit 0)) (.lit 0)))
          (.asg 8 (.lit 0)),
        .asg 7 (.bin .ne (.var 8) (.lit 0))]),
    .ite (.un .lnot (.var 7))
      (.skip)
      (.skip),
    .asg 9 (.lit 0),
    .asg 10 (.lit 0),
    .asg 11 (.lit 1),
    .asg 12 (.lit 0),
    .ite (.var 4)
      (block [
        .call (some 15) Id.bf256_load [.var 4],
        .asg 14 (.var 15)])
      (block [
        .call (some 16) Id.bf256_zero [],
        .asg 14 (.var 16)]),
    .asg 13 (.var 14),
    .call (some 18) Id.bf256_from_bit [.un (.cast .u8) (.bin (.bxor .i32) (.lit 1) (.var 3))],
    .asg 17 (.var 18),
    .asg 19 (.un (.cast .u8) (.bin (.bxor .i32) (.lit 1) (.var 2))),
    .call (some 21) Id.bf256_mul_bit [.var 13, .var 3],
    .asg 20 (.var 21),
    .call (some 22) Id.bf256_add [.var 20, .var 17],
    .asg 20 (.var 22),
    .asg 23 (.lit 0),
    .loop (.bin .lt (.var 23) (.lit 52))
      (block [
        .new 24 (.lit 256),
        .asg 25 (.lit 0),
        .loop (.bin .lt (.var 25) (.lit 8))
          (block [
            .call (some 26) Id.bf256_add [.ld 32 (.padd (.var 0) (.bin (.add .u32) (.bin (.mul .u32) (.lit 8) (.var
              23)) (.var 25)) 32), .ld 32 (.padd (.var 1) (.bin (.add .u32) (.bin (.add .u32) (.var 9) (.bin (.mul
              .u32) (.lit 8) (.var 10))) (.var 25)) 32)],
            .st 32 (.padd (.var 24) (.var 25) 32) (.var 26)])
          (.asg 25 (.bin (.add .u32) (.var 25) (.lit 1))),
        .ite (.bin .eq (.var 2) (.lit 0))
          (.asg 27 (.bin .ne (.bin .eq (.var 11) (.lit 1)) (.lit 0)))
          (.asg 27 (.lit 0)),
        .ite (.var 27)
          (.asg 28 (.bin .ne (.bin .eq (.var 10) (.lit 0)) (.lit 0)))
          (.asg 28 (.lit 0)),
        .ite (.var 28)
          (block [
            .asg 29 (.ld 1 (.padd (.glob 6) (.var 12) 1)),
            .asg 12 (.bin (.add .u32) (.var 12) (.lit 1)),
            .new 30 (.lit 256),
            .asg 31 (.lit 0),
            .loop (.bin .lt (.var 31) (.lit 8))
              (block [
                .call (some 32) Id.bf256_mul_bit [.var 20, .un (.cast .u8) (.bin (.band .i32) (.bin (.shr .i32) (.var
                  29) (.var 31)) (.lit 1))],
                .st 32 (.padd (.var 30) (.var 31) 32) (.var 32),
                .call (some 33) Id.bf256_add [.ld 32 (.padd (.var 24) (.var 31) 32), .ld 32 (.padd (.var 30) (.var
                  31) 32)],
                .st 32 (.padd (.var 24) (.var 31) 32) (.var 33)])
              (.asg 31 (.bin (.add .u32) (.var 31) (.lit 1)))])
          (.skip),
        .asg 34 (.lit 0),
        .loop (.bin .lt (.var 34) (.lit 8))
          (block [
            .call (some 35) Id.bf256_add [.ld 32 (.padd (.var 24) (.div (.mod .u32) (.bin (.add .u32) (.var 34) (.lit
              7)) (.lit 8)) 32), .ld 32 (.padd (.var 24) (.div (.mod .u32) (.bin (.add .u32) (.var 34) (.lit 5))
              (.lit 8)) 32)],
            .call (some 36) Id.bf256_add [.var 35, .ld 32 (.padd (.var 24) (.div (.mod .u32) (.bin (.add .u32) (.var
              34) (.lit 2)) (.lit 8)) 32)],
            .st 32 (.padd (.var 5) (.bin (.add .u32) (.var 34) (.bin (.mul .u32) (.lit 8) (.var 23))) 32) (.var 36)])
          (.asg 34 (.bin (.add .u32) (.var 34) (.lit 1))),
        .call (some 37) Id.bf256_mul_bit [.var 20, .var 19],
        .call (some 38) Id.bf256_add [.ld 32 (.padd (.var 5) (.bin (.add .u32) (.lit 0) (.bin (.mul .u32) (.lit 8)
          (.var 23))) 32), .var 37],
        .st 32 (.padd (.var 5) (.bin (.add .u32) (.lit 0) (.bin (.mul .u32) (.lit 8) (.var 23))) 32) (.var 38),
        .call (some 39) Id.bf256_mul_bit [.var 20, .var 19],
        .call (some 40) Id.bf256_add [.ld 32 (.padd (.var 5) (.bin (.add .u32) (.lit 2) (.bin (.mul .u32) (.lit 8)
          (.var 23))) 32), .var 39],
        .st 32 (.padd (.var 5) (.bin (.add .u32) (.lit 2) (.bin (.mul .u32) (.lit 8) (.var 23))) 32) (.var 40),
        .asg 10 (.bin (.add .u32) (.var 10) (.lit 1)),
        .ite (.bin .eq (.var 10) (.lit 4))
          (block [
            .asg 10 (.lit 0),
            .asg 9 (.bin (.add .u32) (.var 9) (.lit 128)),
            .asg 11 (.un (.cast .bool) (.un .lnot (.var 11)))])
          (.skip)])
      (.asg 23 (.bin (.add .u32) (.var 23) (.lit 1)))]⟩

/-- `aes_key_schedule_constraints_Mkey_0_256`, faest_aes.c:1243-1299; variables: 0 w, 1 v, 2 a0_ctx, 3 a1_ctx, 4 k, 5
  vk, 6 params, 7 w_dash, 8 v_w_dash, 9 rotate_word, 10 iwd, 11 j, 12 bf_k_hat, 13 bf_v_k_hat, 14 bf_w_dash_hat, 15
  bf_v_w_dash_hat, 16 r, 25 r, 26 tmp -/
def aes_key_schedule_constraints_Mkey_0_256 : Fn := ⟨7,
  block [
    .ite (.bin .eq (.lit 52) (.ld 2 (.padd (.var 6) (.lit 4) 1)))
      (.skip)
      (.skip),
    .call none Id.aes_key_schedule_forward_1 [.var 0, .var 4, .var 6],
    .call none Id.aes_key_schedule_forward_256 [.var 1, .var 5],
    .new 7 (.lit 52),
    .call none Id.aes_key_schedule_backward_1 [.padd (.var 0) (.lit 32) 1, .var 4, .var 7, .var 6],
    .new 8 (.lit 13312),
    .call none Id.aes_key_schedule_backward_256 [.padd (.var 1) (.lit 256) 32, .var 5, .lit 1, .lit 0, .lit 0, .var
      8],
    .asg 9 (.lit 1),
    .asg 10 (.lit 224),
    .asg 11 (.lit 0),
    .loop (.bin .lt (.var 11) (.lit 13))
      (block [
        .new 12 (.lit 128),
        .new 13 (.lit 128),
        .new 14 (.lit 128),
        .new 15 (.lit 128),
        .asg 16 (.lit 0),
        .loop (.bin .le (.var 16) (.lit 3))
          (.ite (.var 9)
              (block [
                .call (some 17) Id.bf256_byte_combine_bits [.ld 1 (.padd (.var 4) (.div (.div .u32) (.bin (.add .u32)
                  (.var 10) (.bin (.mul .u32) (.lit 8) (.var 16))) (.lit 8)) 1)],
                .st 32 (.padd (.var 12) (.div (.mod .u32) (.bin (.add .u32) (.var 16) (.lit 3)) (.lit 4)) 32) (.var
                  17),
                .call (some 18) Id.bf256_byte_combine [.padd (.var 5) (.bin (.add .u32) (.var 10) (.bin (.mul .u32)
                  (.lit 8) (.var 16))) 32],
                .st 32 (.padd (.var 13) (.div (.mod .u32) (.bin (.add .u32) (.var 16) (.lit 3)) (.lit 4)) 32) (.var
                  18),
                .call (some 19) Id.bf256_byte_combine_bits [.ld 1 (.padd (.var 7) (.div (.div .u32) (.bin (.add .u32)
                  (.bin (.mul .u32) (.lit 32) (.var 11)) (.bin (.mul .u32) (.lit 8) (.var 16))) (.lit 8)) 1)],
                .st 32 (.padd (.var 14) (.var 16) 32) (.var 19),
                .call (some 20) Id.bf256_byte_combine [.padd (.var 8) (.bin (.add .u32) (.bin (.mul .u32) (.lit 32)
                  (.var 11)) (.bin (.mul .u32) (.lit 8) (.var 16))) 32],
                .st 32 (.padd (.var 15) (.var 16) 32) (.var 20)])
              (block [
                .call (some 21) Id.bf256_byte_combine_bits [.ld 1 (.padd (.var 4) (.div (.div .u32) (.bin (.add .u32)
                  (.var 10) (.bin (.mul .u32) (.lit 8) (.var 16))) (.lit 8)) 1)],
                .st 32 (.padd (.var 12) (.var 16) 32) (.var 21),
                .call (some 22) Id.bf256_byte_combine [.padd (.var 5) (.bin (.add .u32) (.var 10) (.bin (.mul .u32)
                  (.lit 8) (.var 16))) 32],
                .st 32 (.padd (.var 13) (.var 16) 32) (.var 22),
                .call (some 23) Id.bf256_byte_combine_bits [.ld 1 (.padd (.var 7) (.div (.div .u32) (.bin (.add .u32)
                  (.bin (.mul .u32) (.lit 32) (.var 11)) (.bin (.mul .u32) (.lit 8) (.var 16))) (.lit 8)) 1)],
                .st 32 (.padd (.var 14) (.var 16) 32) (.var 23),
                .call (some 24) Id.bf256_byte_combine [.padd (.var 8) (.bin (.add .u32) (.bin (.mul .u32) (.lit 32)
                  (.var 11)) (.bin (.mul .u32) (.lit 8) (.var 16))) 32],
                .st 32 (.padd (.var 15) (.var 16) 32) (.var 24)]))
          (.asg 16 (.bin (.add .u32) (.var 16) (.lit 1))),
        .asg 25 (.lit 0),
        .loop (.bin .le (.var 25) (.lit 3))
          (block [
            .call (some 27) Id.bf256_mul [.ld 32 (.padd (.var 13) (.var 25) 32), .ld 32 (.padd (.var 15) (.var 25)
              32)],
            .asg 26 (.var 27),
            .call none Id.zk_hash_256_update [.var 2, .var 26],
            .call (some 28) Id.bf256_add [.ld 32 (.padd (.var 12) (.var 25) 32), .ld 32 (.padd (.var 13) (.var 25)
              32)],
            .call (some 29) Id.bf256_add [.ld 32 (.padd (.var 14) (.var 25) 32), .ld 32 (.padd (.var 15) (.var 25)
              32)],
            .call (some 30) Id.bf256_mul [.var 28, .var 29],
            .call (some 31) Id.bf256_one [],
            .call (some 32) Id.bf256_add [.var 30, .var 31],
            .call (some 33) Id.bf256_add [.var 32, .var 26],
            .call none Id.zk_hash_256_update [.var 3, .var 33]])
          (.asg 25 (.bin (.add .u32) (.var 25) (.lit 1))),
        .asg 10 (.bin (.add .u32) (.var 10) (.lit 128)),
        .asg 9 (.un (.cast .bool) (.un .lnot (.var 9)))])
      (.asg 11 (.bin (.add .u32) (.var 11) (.lit 1)))]⟩

/-- part of `aes_enc_forward_256_1` -/
def aes_enc_forward_256_1.part0 : Stmt :=
  block [
    .asg 17 (.bin (.add .u32) (.bin (.mul .u32) (.lit 128) (.bin (.sub .u32) (.var 15) (.lit 1))) (.bin (.mul .u32)
      (.lit 32) (.var 16))),
    .asg 18 (.bin (.add .u32) (.bin (.mul .u32) (.lit 128) (.var 15)) (.bin (.mul .u32) (.lit 32) (.var 16))),
    .asg 19 (.bin (.add .u32) (.bin (.mul .u32) (.lit 16) (.var 15)) (.bin (.mul .u32) (.lit 4) (.var 16))),
    .new 20 (.lit 128),
    .new 21 (.lit 128),
    .asg 22 (.lit 0),
    .loop (.bin .le (.var 22) (.lit 3))
      (block [
        .call (some 23) Id.bf256_byte_combine_bits [.ld 1 (.padd (.var 0) (.div (.div .u32) (.bin (.add .u32) (.var
          17) (.bin (.mul .u32) (.lit 8) (.var 22))) (.lit 8)) 1)],
        .st 32 (.padd (.var 20) (.var 22) 32) (.var 23),
        .call (some 24) Id.bf256_byte_combine_bits [.ld 1 (.padd (.var 1) (.div (.div .u32) (.bin (.add .u32) (.var
          18) (.bin (.mul .u32) (.lit 8) (.var 22))) (.lit 8)) 1)],
        .st 32 (.padd (.var 21) (.var 22) 32) (.var 24)])
      (.asg 22 (.bin (.add .u32) (.var 22) (.lit 1))),
    .call (some 25) Id.bf256_mul [.ld 32 (.var 20), .var 11],
    .call (some 26) Id.bf256_add [.ld 32 (.var 21), .var 25],
    .st 32 (.padd (.var 5) (.bin (.add .u32) (.var 19) (.lit 0)) 32) (.var 26),
    .call (some 27) Id.bf256_mul [.ld 32 (.padd (.var 20) (.lit 1) 32), .var 13],
    .call (some 28) Id.bf256_add [.ld 32 (.padd (.var 5) (.bin (.add .u32) (.var 19) (.lit 0)) 32), .var 27],
    .st 32 (.padd (.var 5) (.bin (.add .u32) (.var 19) (.lit 0)) 32) (.var 28),
    .call (some 29) Id.bf256_add [.ld 32 (.padd (.var 5) (.bin (.add .u32) (.var 19) (.lit 0)) 32), .ld 32 (.padd
      (.var 20) (.lit 2) 32)],
    .st 32 (.padd (.var 5) (.bin (.add .u32) (.var 19) (.lit 0)) 32) (.var 29),
    .call (some 30) Id.bf256_add [.ld 32 (.padd (.var 5) (.bin (.add .u32) (.var 19) (.lit 0)) 32), .ld 32 (.padd
      (.var 20) (.lit 3) 32)],
    .st 32 (.padd (.var 5) (.bin (.add .u32) (.var 19) (.lit 0)) 32) (.var 30),
    .call (some 31) Id.bf256_add [.ld 32 (.padd (.var 21) (.lit 1) 32), .ld 32 (.var 20)],
    .st 32 (.padd (.var 5) (.bin (.add .u32) (.var 19) (.lit 1)) 32) (.var 31),
    .call (some 32) Id.bf256_mul [.ld 32 (.padd (.var 20) (.lit 1) 32), .var 11],
    .call (some 33) Id.bf256_add [.ld 32 (.padd (.var 5) (.bin (.add .u32) (.var 19) (.lit 1)) 32), .var 32],
    .st 32 (.padd (.var 5) (.bin (.add .u32) (.var 19) (.lit 1)) 32) (.var 33),
    .call (some 34) Id.bf256_mul [.ld 32 (.padd (.var 20) (.lit 2) 32), .var 13],
    .call (some 35) Id.bf256_add [.ld 32 (.padd (.var 5) (.bin (.add .u32) (.var 19) (.lit 1)) 32), .var 34],
    .st 32 (.padd (.var 5) (.bin (.add .u32) (.var 19) (.lit 1)) 32) (.var 35),
    .call (some 36) Id.bf256_add [.ld 32 (.padd (.var 5) (.bin (.add .u32) (.var 19) (.lit 1)) 32), .ld 32 (.padd
      (.var 20) (.lit 3) 32)],
    .st 32 (.padd (.var 5) (.bin (.add .u32) (.var 19) (.lit 1)) 32) (.var 36),
    .call (some 37) Id.bf256_add [.ld 32 (.padd (.var 21) (.lit 2) 32), .ld 32 (.var 20)],
    .st 32 (.padd (.var 5) (.bin (.add .u32) (.var 19) (.lit 2)) 32) (.var 37),
    .call (some 38) Id.bf256_add [.ld 32 (.padd (.var 5) (.bin (.add .u32) (.var 19) (.lit 2)) 32), .ld 32 (.padd
      (.var 20) (.lit 1) 32)],
    .st 32 (.padd (.var 5) (.bin (.add .u32) (.var 19) (.lit 2)) 32) (.var 38),
    .call (some 39) Id.bf256_mul [.ld 32 (.padd (.var 20) (.lit 2) 32), .var 11],
    .call (some 40) Id.bf256_add [.ld 32 (.padd (.var 5) (.bin (.add .u32) (.var 19) (.lit 2)) 32), .var 39],
    .st 32 (.padd (.var 5) (.bin (.add .u32) (.var 19) (.lit 2)) 32) (.var 40),
    .call (some 41) Id.bf256_mul [.ld 32 (.padd (.var 20) (.lit 3) 32), .var 13],
    .call (some 42) Id.bf256_add [.ld 32 (.padd (.var 5) (.bin (.add .u32) (.var 19) (.lit 2)) 32), .var 41],
    .st 32 (.padd (.var 5) (.bin (.add .u32) (.var 19) (.lit 2)) 32) (.var 42),
    .call (some 43) Id.bf256_mul [.ld 32 (.var 20), .var 13],
    .call (some 44) Id.bf256_add [.ld 32 (.padd (.var 21) (.lit 3) 32), .var 43],
    .st 32 (.padd (.var 5) (.bin (.add .u32) (.var 19) (.lit 3)) 32) (.var 44)]

/-- part of `aes_enc_forward_256_1` -/
def aes_enc_forward_256_1.part1 : Stmt :=
  block [
    .call (some 45) Id.bf256_add [.ld 32 (.padd (.var 5) (.bin (.add .u32) (.var 19) (.lit 3)) 32), .ld 32 (.padd
      (.var 20) (.lit 1) 32)],
    .st 32 (.padd (.var 5) (.bin (.add .u32) (.var 19) (.lit 3)) 32) (.var 45),
    .call (some 46) Id.bf256_add [.ld 32 (.padd (.var 5) (.bin (.add .u32) (.var 19) (.lit 3)) 32), .ld 32 (.padd
      (.var 20) (.lit 2) 32)],
    .st 32 (.padd (.var 5) (.bin (.add .u32) (.var 19) (.lit 3)) 32) (.var 46),
    .call (some 47) Id.bf256_mul [.ld 32 (.padd (.var 20) (.lit 3) 32), .var 11],
    .call (some 48) Id.bf256_add [.ld 32 (.padd (.var 5) (.bin (.add .u32) (.var 19) (.lit 3)) 32), .var 47],
    .st 32 (.padd (.var 5) (.bin (.add .u32) (.var 19) (.lit 3)) 32) (.var 48)]

/-- `aes_enc_forward_256_1`, faest_aes.c:1337-1389; variables: 0 x, 1 xk, 2 in, 3 Mtag, 4 Mkey, 5 bf_y, 6 i, 7 xin,
  11 bf_two, 13 bf_three, 15 j, 16 c, 17 ix, 18 ik, 19 iy, 20 bf_x_hat, 21 bf_xk_hat, 22 r -/
def aes_enc_forward_256_1 : Fn := ⟨6,
  block [
    .asg 6 (.lit 0),
    .loop (.bin .lt (.var 6) (.lit 16))
      (block [
        .asg 7 (.un (.cast .u8) (.bin (.band .i32) (.ld 1 (.padd (.var 2) (.var 6) 1)) (.un (.neg .i32) (.bin (.band
          .i32) (.bin (.bxor .i32) (.lit 1) (.var 3)) (.bin (.bxor .i32) (.lit 1) (.var 4)))))),
        .call (some 8) Id.bf256_byte_combine_bits [.var 7],
        .call (some 9) Id.bf256_byte_combine_bits [.ld 1 (.padd (.var 1) (.var 6) 1)],
        .call (some 10) Id.bf256_add [.var 8, .var 9],
        .st 32 (.padd (.var 5) (.var 6) 32) (.var 10)])
      (.asg 6 (.bin (.add .u32) (.var 6) (.lit 1))),
    .call (some 12) Id.bf256_byte_combine_bits [.lit 2],
    .asg 11 (.var 12),
    .call (some 14) Id.bf256_byte_combine_bits [.lit 3],
    .asg 13 (.var 14),
    .asg 15 (.lit 1),
    .loop (.bin .lt (.var 15) (.lit 14))
      (block [
        .asg 16 (.lit 0),
        .loop (.bin .le (.var 16) (.lit 3))
          (block [
            aes_enc_forward_256_1.part0,
            aes_enc_forward_256_1.part1])
          (.asg 16 (.bin (.add .u32) (.var 16) (.lit 1)))])
      (.asg 15 (.bin (.add .u32) (.var 15) (.lit 1)))]⟩

/-- part of `aes_enc_forward_256` -/
def aes_enc_forward_256.part0 : Stmt :=
  block [
    .asg 28 (.bin (.add .u32) (.bin (.mul .u32) (.lit 128) (.bin (.sub .u32) (.var 26) (.lit 1))) (.bin (.mul .u32)
      (.lit 32) (.var 27))),
    .asg 29 (.bin (.add .u32) (.bin (.mul .u32) (.lit 128) (.var 26)) (.bin (.mul .u32) (.lit 32) (.var 27))),
    .asg 30 (.bin (.add .u32) (.bin (.mul .u32) (.lit 16) (.var 26)) (.bin (.mul .u32) (.lit 4) (.var 27))),
    .new 31 (.lit 128),
    .new 32 (.lit 128),
    .asg 33 (.lit 0),
    .loop (.bin .le (.var 33) (.lit 3))
      (block [
        .call (some 34) Id.bf256_byte_combine [.padd (.var 0) (.bin (.add .u32) (.var 28) (.bin (.mul .u32) (.lit 8)
          (.var 33))) 32],
        .st 32 (.padd (.var 31) (.var 33) 32) (.var 34),
        .call (some 35) Id.bf256_byte_combine [.padd (.var 1) (.bin (.add .u32) (.var 29) (.bin (.mul .u32) (.lit 8)
          (.var 33))) 32],
        .st 32 (.padd (.var 32) (.var 33) 32) (.var 35)])
      (.asg 33 (.bin (.add .u32) (.var 33) (.lit 1))),
    .call (some 36) Id.bf256_mul [.ld 32 (.var 31), .var 22],
    .call (some 37) Id.bf256_add [.ld 32 (.var 32), .var 36],
    .st 32 (.padd (.var 6) (.bin (.add .u32) (.var 30) (.lit 0)) 32) (.var 37),
    .call (some 38) Id.bf256_mul [.ld 32 (.padd (.var 31) (.lit 1) 32), .var 24],
    .call (some 39) Id.bf256_add [.ld 32 (.padd (.var 6) (.bin (.add .u32) (.var 30) (.lit 0)) 32), .var 38],
    .st 32 (.padd (.var 6) (.bin (.add .u32) (.var 30) (.lit 0)) 32) (.var 39),
    .call (some 40) Id.bf256_add [.ld 32 (.padd (.var 6) (.bin (.add .u32) (.var 30) (.lit 0)) 32), .ld 32 (.padd
      (.var 31) (.lit 2) 32)],
    .st 32 (.padd (.var 6) (.bin (.add .u32) (.var 30) (.lit 0)) 32) (.var 40),
    .call (some 41) Id.bf256_add [.ld 32 (.padd (.var 6) (.bin (.add .u32) (.var 30) (.lit 0)) 32), .ld 32 (.padd
      (.var 31) (.lit 3) 32)],
    .st 32 (.padd (.var 6) (.bin (.add .u32) (.var 30) (.lit 0)) 32) (.var 41),
    .call (some 42) Id.bf256_add [.ld 32 (.padd (.var 32) (.lit 1) 32), .ld 32 (.var 31)],
    .st 32 (.padd (.var 6) (.bin (.add .u32) (.var 30) (.lit 1)) 32) (.var 42),
    .call (some 43) Id.bf256_mul [.ld 32 (.padd (.var 31) (.lit 1) 32), .var 22],
    .call (some 44) Id.bf256_add [.ld 32 (.padd (.var 6) (.bin (.add .u32) (.var 30) (.lit 1)) 32), .var 43],
    .st 32 (.padd (.var 6) (.bin (.add .u32) (.var 30) (.lit 1)) 32) (.var 44),
    .call (some 45) Id.bf256_mul [.ld 32 (.padd (.var 31) (.lit 2) 32), .var 24],
    .call (some 46) Id.bf256_add [.ld 32 (.padd (.var 6) (.bin (.add .u32) (.var 30) (.lit 1)) 32), .var 45],
    .st 32 (.padd (.var 6) (.bin (.add .u32) (.var 30) (.lit 1)) 32) (.var 46),
    .call (some 47) Id.bf256_add [.ld 32 (.padd (.var 6) (.bin (.add .u32) (.var 30) (.lit 1)) 32), .ld 32 (.padd
      (.var 31) (.lit 3) 32)],
    .st 32 (.padd (.var 6) (.bin (.add .u32) (.var 30) (.lit 1)) 32) (.var 47),
    .call (some 48) Id.bf256_add [.ld 32 (.padd (.var 32) (.lit 2) 32), .ld 32 (.var 31)],
    .st 32 (.padd (.var 6) (.bin (.add .u32) (.var 30) (.lit 2)) 32) (.var 48),
    .call (some 49) Id.bf256_add [.ld 32 (.padd (.var 6) (.bin (.add .u32) (.var 30) (.lit 2)) 32), .ld 32 (.padd
      (.var 31) (.lit 1) 32)],
    .st 32 (.padd (.var 6) (.bin (.add .u32) (.var 30) (.lit 2)) 32) (.var 49),
    .call (some 50) Id.bf256_mul [.ld 32 (.padd (.var 31) (.lit 2) 32), .var 22],
    .call (some 51) Id.bf256_add [.ld 32 (.padd (.var 6) (.bin (.add .u32) (.var 30) (.lit 2)) 32), .var 50],
    .st 32 (.padd (.var 6) (.bin (.add .u32) (.var 30) (.lit 2)) 32) (.var 51),
    .call (some 52) Id.bf256_mul [.ld 32 (.padd (.var 31) (.lit 3) 32), .var 24],
    .call (some 53) Id.bf256_add [.ld 32 (.padd (.var 6) (.bin (.add .u32) (.var 30) (.lit 2)) 32), .var 52],
    .st 32 (.padd (.var 6) (.bin (.add .u32) (.var 30) (.lit 2)) 32) (.var 53),
    .call (some 54) Id.bf256_mul [.ld 32 (.var 31), .var 24],
    .call (some 55) Id.bf256_add [.ld 32 (.padd (.var 32) (.lit 3) 32), .var 54],
    .st 32 (.padd (.var 6) (.bin (.add .u32) (.var 30) (.lit 3)) 32) (.var 55)]

/-- part of `aes_enc_forward_256` -/
def aes_enc_forward_256.part1 : Stmt :=
  block [
    .call (some 56) Id.bf256_add [.ld 32 (.padd (.var 6) (.bin (.add .u32) (.var 30) (.lit 3)) 32), .ld 32 (.padd
      (.var 31) (.lit 1) 32)],
    .st 32 (.padd (.var 6) (.bin (.add .u32) (.var 30) (.lit 3)) 32) (.var 56),
    .call (some 57) Id.bf256_add [.ld 32 (.padd (.var 6) (.bin (.add .u32) (.var 30) (.lit 3)) 32), .ld 32 (.padd
      (.var 31) (.lit 2) 32)],
    .st 32 (.padd (.var 6) (.bin (.add .u32) (.var 30) (.lit 3)) 32) (.var 57),
    .call (some 58) Id.bf256_mul [.ld 32 (.padd (.var 31) (.lit 3) 32), .var 22],
    .call (some 59) Id.bf256_add [.ld 32 (.padd (.var 6) (.bin (.add .u32) (.var 30) (.lit 3)) 32), .var 58],
    .st 32 (.padd (.var 6) (.bin (.add .u32) (.var 30) (.lit 3)) 32) (.var 59)]

/-- `aes_enc_forward_256`, faest_aes.c:1391-1448; variables: 0 bf_x, 1 bf_xk, 2 in, 3 Mtag, 4 Mkey, 5 delta, 6 bf_y,
  7 bf_delta, 11 bf_factor, 15 i, 16 bf_xin, 17 j, 22 bf_two, 24 bf_three, 26 j, 27 c, 28 ix, 29 ik, 30 iy, 31
  bf_x_hat, 32 bf_xk_hat, 33 r -/
def aes_enc_forward_256 : Fn := ⟨7,
  block [
    .ite (.var 5)
      (block [
        .call (some 9) Id.bf256_load [.var 5],
        .asg 8 (.var 9)])
      (block [
        .call (some 10) Id.bf256_zero [],
        .asg 8 (.var 10)]),
    .asg 7 (.var 8),
    .call (some 12) Id.bf256_mul_bit [.var 7, .var 4],
    .call (some 13) Id.bf256_from_bit [.un (.cast .u8) (.bin (.bxor .i32) (.lit 1) (.var 4))],
    .call (some 14) Id.bf256_add [.var 12, .var 13],
    .asg 11 (.var 14),
    .asg 15 (.lit 0),
    .loop (.bin .lt (.var 15) (.lit 16))
      (block [
        .new 16 (.lit 256),
        .asg 17 (.lit 0),
        .loop (.bin .lt (.var 17) (.lit 8))
          (block [
            .call (some 18) Id.bf256_mul_bit [.var 11, .un (.cast .u8) (.bin (.band .i32) (.bin (.bxor .i32) (.lit 1)
              (.var 3)) (.bin (.band .i32) (.bin (.shr .i32) (.ld 1 (.padd (.var 2) (.var 15) 1)) (.var 17)) (.lit
              1)))],
            .st 32 (.padd (.var 16) (.var 17) 32) (.var 18)])
          (.asg 17 (.bin (.add .u32) (.var 17) (.lit 1))),
        .call (some 19) Id.bf256_byte_combine [.var 16],
        .call (some 20) Id.bf256_byte_combine [.padd (.var 1) (.bin (.mul .u32) (.lit 8) (.var 15)) 32],
        .call (some 21) Id.bf256_add [.var 19, .var 20],
        .st 32 (.padd (.var 6) (.var 15) 32) (.var 21)])
      (.asg 15 (.bin (.add .u32) (.var 15) (.lit 1))),
    .call (some 23) Id.bf256_byte_combine_bits [.lit 2],
    .asg 22 (.var 23),
    .call (some 25) Id.bf256_byte_combine_bits [.lit 3],
    .asg 24 (.var 25),
    .asg 26 (.lit 1),
    .loop (.bin .lt (.var 26) (.lit 14))
      (block [
        .asg 27 (.lit 0),
        .loop (.bin .le (.var 27) (.lit 3))
          (block [
            aes_enc_forward_256.part0,
            aes_enc_forward_256.part1])
          (.asg 27 (.bin (.add .u32) (.var 27) (.lit 1)))])
      (.asg 26 (.bin (.add .u32) (.var 26) (.lit 1)))]⟩

/-- `aes_enc_backward_256_1`, faest_aes.c:1450-1478; variables: 0 x, 1 xk, 2 Mtag, 3 Mkey, 4 out, 5 y_out, 6 xtilde,
  7 j, 8 c, 9 r, 10 ird, 11 xout, 12 ytilde -/
def aes_enc_backward_256_1 : Fn := ⟨6,
  block [
    .asg 7 (.lit 0),
    .loop (.bin .lt (.var 7) (.lit 14))
      (block [
        .asg 8 (.lit 0),
        .loop (.bin .le (.var 8) (.lit 3))
          (block [
            .asg 9 (.lit 0),
            .loop (.bin .le (.var 9) (.lit 3))
              (block [
                .asg 10 (.bin (.add .u32) (.bin (.add .u32) (.bin (.mul .u32) (.lit 128) (.var 7)) (.bin (.mul .u32)
                  (.lit 32) (.div (.mod .u32) (.bin (.add .u32) (.bin (.sub .u32) (.var 8) (.var 9)) (.lit 4)) (.lit
                  4)))) (.bin (.mul .u32) (.lit 8) (.var 9))),
                .ite (.bin .lt (.var 7) (.lit 13))
                  (.asg 6 (.ld 1 (.padd (.var 0) (.div (.div .u32) (.var 10) (.lit 8)) 1)))
                  (block [
                    .asg 11 (.un (.cast .u8) (.bin (.band .i32) (.ld 1 (.padd (.var 4) (.div (.div .u32) (.bin (.sub
                      .u32) (.var 10) (.lit 1664)) (.lit 8)) 1)) (.un (.neg .i32) (.bin (.band .i32) (.bin (.bxor
                      .i32) (.lit 1) (.var 2)) (.bin (.bxor .i32) (.lit 1) (.var 3)))))),
                    .asg 6 (.un (.cast .u8) (.bin (.bxor .i32) (.var 11) (.ld 1 (.padd (.var 1) (.div (.div .u32)
                      (.bin (.add .u32) (.lit 128) (.var 10)) (.lit 8)) 1))))]),
                .call (some 13) Id.rotr8 [.var 6, .lit 7],
                .call (some 14) Id.rotr8 [.var 6, .lit 5],
                .call (some 15) Id.rotr8 [.var 6, .lit 2],
                .asg 12 (.un (.cast .u8) (.bin (.bxor .i32) (.bin (.bxor .i32) (.var 13) (.var 14)) (.var 15))),
                .asg 12 (.un (.cast .u8) (.bin (.bxor .i32) (.var 12) (.bin (.shl .i32) (.bin (.band .i32) (.bin
                  (.bxor .i32) (.lit 1) (.var 2)) (.bin (.bxor .i32) (.lit 1) (.var 3))) (.lit 0)))),
                .asg 12 (.un (.cast .u8) (.bin (.bxor .i32) (.var 12) (.bin (.shl .i32) (.bin (.band .i32) (.bin
                  (.bxor .i32) (.lit 1) (.var 2)) (.bin (.bxor .i32) (.lit 1) (.var 3))) (.lit 2)))),
                .call (some 16) Id.bf256_byte_combine_bits [.var 12],
                .st 32 (.padd (.var 5) (.bin (.add .u32) (.bin (.add .u32) (.bin (.mul .u32) (.lit 16) (.var 7))
                  (.bin (.mul .u32) (.lit 4) (.var 8))) (.var 9)) 32) (.var 16)])
              (.asg 9 (.bin (.add .u32) (.var 9) (.lit 1)))])
          (.asg 8 (.bin (.add .u32) (.var 8) (.lit 1)))])
      (.asg 7 (.bin (.add .u32) (.var 7) (.lit 1)))]⟩

/-- `aes_enc_backward_256`, faest_aes.c:1480-1523; variables: 0 bf_x, 1 bf_xk, 2 Mtag, 3 Mkey, 4 delta, 5 out, 6
  y_out, 7 bf_delta, 11 factor, 16 j, 17 c, 18 r, 19 bf_x_tilde, 20 ird, 22 i, 23 bf_xout, 26 bf_y_tilde, 27 i -/
def aes_enc_backward_256 : Fn := ⟨7,
  block [
    .ite (.var 4)
      (block [
        .call (some 9) Id.bf256_load [.var 4],
        .asg 8 (.var 9)])
      (block [
        .call (some 10) Id.bf256_zero [],
        .asg 8 (.var 10)]),
    .asg 7 (.var 8),
    .call (some 12) Id.bf256_mul_bit [.var 7, .var 3],
    .call (some 13) Id.bf256_from_bit [.un (.cast .u8) (.bin (.bxor .i32) (.lit 1) (.var 3))],
    .call (some 14) Id.bf256_add [.var 12, .var 13],
    .call (some 15) Id.bf256_mul_bit [.var 14, .un (.cast .u8) (.bin (.bxor .i32) (.lit 1) (.var 2))],
    .asg 11 (.var 15),
    .asg 16 (.lit 0),
    .loop (.bin .lt (.var 16) (.lit 14))
      (block [
        .asg 17 (.lit 0),
        .loop (.bin .le (.var 17) (.lit 3))
          (block [
            .asg 18 (.lit 0),
            .loop (.bin .le (.var 18) (.lit 3))
              (block [
                .new 19 (.lit 256),
                .asg 20 (.bin (.add .u32) (.bin (.add .u32) (.bin (.mul .u32) (.lit 128) (.var 16)) (.bin (.mul .u32)
                  (.lit 32) (.div (.mod .u32) (.bin (.add .u32) (.bin (.sub .u32) (.var 17) (.var 18)) (.lit 4))
                  (.lit 4)))) (.bin (.mul .u32) (.lit 8) (.var 18))),
                .ite (.bin .lt (.var 16) (.lit 13))
                  (.call (some 21) Id.memcpy [.var 19, .padd (.var 0) (.var 20) 32, .lit 256])
                  (block [
                    .asg 22 (.lit 0),
                    .loop (.bin .lt (.var 22) (.lit 8))
                      (block [
                        .call (some 24) Id.bf256_mul_bit [.var 11, .un (.cast .u8) (.bin (.band .i32) (.bin (.shr
                          .i32) (.ld 1 (.padd (.var 5) (.div (.div .u32) (.bin (.sub .u32) (.var 20) (.lit 1664))
                          (.lit 8)) 1)) (.var 22)) (.lit 1))],
                        .asg 23 (.var 24),
                        .call (some 25) Id.bf256_add [.var 23, .ld 32 (.padd (.var 1) (.bin (.add .u32) (.bin (.add
                          .u32) (.lit 128) (.var 20)) (.var 22)) 32)],
                        .st 32 (.padd (.var 19) (.var 22) 32) (.var 25)])
                      (.asg 22 (.bin (.add .u32) (.var 22) (.lit 1)))]),
                .new 26 (.lit 256),
                .asg 27 (.lit 0),
                .loop (.bin .lt (.var 27) (.lit 8))
                  (block [
                    .call (some 28) Id.bf256_add [.ld 32 (.padd (.var 19) (.div (.mod .u32) (.bin (.add .u32) (.var
                      27) (.lit 7)) (.lit 8)) 32), .ld 32 (.padd (.var 19) (.div (.mod .u32) (.bin (.add .u32) (.var
                      27) (.lit 5)) (.lit 8)) 32)],
                    .call (some 29) Id.bf256_add [.var 28, .ld 32 (.padd (.var 19) (.div (.mod .u32) (.bin (.add
                      .u32) (.var 27) (.lit 2)) (.lit 8)) 32)],
                    .st 32 (.padd (.var 26) (.var 27) 32) (.var 29)])
                  (.asg 27 (.bin (.add .u32) (.var 27) (.lit 1))),
                .call (some 30) Id.bf256_add [.ld 32 (.var 26), .var 11],
                .st 32 (.var 26) (.var 30),
                .call (some 31) Id.bf256_add [.ld 32 (.padd (.var 26) (.lit 2) 32), .var 11],
                .st 32 (.padd (.var 26) (.lit 2) 32) (.var 31),
                .call (some 32) Id.bf256_byte_combine [.var 26],
                .st 32 (.padd (.var 6) (.bin (.add .u32) (.bin (.add .u32) (.bin (.mul .u32) (.lit 16) (.var 16))
                  (.bin (.mul .u32) (.lit 4) (.var 17))) (.var 18)) 32) (.var 32)])
              (.asg 18 (.bin (.add .u32) (.var 18) (.lit 1)))])
          (.asg 17 (.bin (.add .u32) (.var 17) (.lit 1)))])
      (.asg 16 (.bin (.add .u32) (.var 16) (.lit 1)))]⟩

/-- `aes_enc_constraints_Mkey_0_256`, faest_aes.c:1525-1545; variables: 0 in, 1 out, 2 w, 3 v, 4 k, 5 vk, 6 a0_ctx, 7
  a1_ctx, 8 s, 9 vs, 10 s_dash, 11 vs_dash, 12 j, 13 tmp -/
def aes_enc_constraints_Mkey_0_256 : Fn := ⟨8,
  block [
    .new 8 (.lit 7168),
    .new 9 (.lit 7168),
    .new 10 (.lit 7168),
    .new 11 (.lit 7168),
    .call none Id.aes_enc_forward_256_1 [.var 2, .var 4, .var 0, .lit 0, .lit 0, .var 8],
    .call none Id.aes_enc_forward_256 [.var 3, .var 5, .var 0, .lit 1, .lit 0, .lit 0, .var 9],
    .call none Id.aes_enc_backward_256_1 [.var 2, .var 4, .lit 0, .lit 0, .var 1, .var 10],
    .call none Id.aes_enc_backward_256 [.var 3, .var 5, .lit 1, .lit 0, .lit 0, .var 1, .var 11],
    .asg 12 (.lit 0),
    .loop (.bin .lt (.var 12) (.lit 224))
      (block [
        .call (some 14) Id.bf256_mul [.ld 32 (.padd (.var 9) (.var 12) 32), .ld 32 (.padd (.var 11) (.var 12) 32)],
        .asg 13 (.var 14),
        .call none Id.zk_hash_256_update [.var 6, .var 13],
        .call (some 15) Id.bf256_add [.ld 32 (.padd (.var 8) (.var 12) 32), .ld 32 (.padd (.var 9) (.var 12) 32)],
        .call (some 16) Id.bf256_add [.ld 32 (.padd (.var 10) (.var 12) 32), .ld 32 (.padd (.var 11) (.var 12) 32)],
        .call (some 17) Id.bf256_mul [.var 15, .var 16],
        .call (some 18) Id.bf256_add [.var 17, .var 13],
        .call (some 19) Id.bf256_one [],
        .call (some 20) Id.bf256_add [.var 18, .var 19],
        .call none Id.zk_hash_256_update [.var 7, .var 20]])
      (.asg 12 (.bin (.add .u32) (.var 12) (.lit 1)))]⟩

/-- `aes_prove_256`, faest_aes.c:1563-1599; variables: 0 w, 1 u, 2 V, 3 in, 4 out, 5 chall, 6 a_tilde, 7 b_tilde, 8
  params, 9 bf_v, 11 k, 13 vk, 15 a0_ctx, 16 a1_ctx -/
def aes_prove_256 : Fn := ⟨9,
  block [
    .call (some 10) Id.column_to_row_major_and_shrink_V_256 [.var 2, .lit 4000],
    .asg 9 (.var 10),
    .new 12 (.lit 240),
    .asg 11 (.var 12),
    .new 14 (.lit 61440),
    .asg 13 (.var 14),
    .new 15 (.lit 112),
    .new 16 (.lit 112),
    .call none Id.zk_hash_256_init [.var 15, .var 5],
    .call none Id.zk_hash_256_init [.var 16, .var 5],
    .call none Id.aes_key_schedule_constraints_Mkey_0_256 [.var 0, .var 9, .var 15, .var 16, .var 11, .var 13, .var
      8],
    .call none Id.aes_enc_constraints_Mkey_0_256 [.var 3, .var 4, .padd (.var 0) (.lit 84) 1, .padd (.var 9) (.lit
      672) 32, .var 11, .var 13, .var 15, .var 16],
    .call none Id.aes_enc_constraints_Mkey_0_256 [.padd (.var 3) (.lit 16) 1, .padd (.var 4) (.lit 16) 1, .padd (.var
      0) (.lit 292) 1, .padd (.padd (.var 9) (.lit 672) 32) (.lit 1664) 32, .var 11, .var 13, .var 15, .var 16],
    .free (.var 13),
    .free (.var 11),
    .call (some 17) Id.bf256_load [.padd (.var 1) (.lit 500) 1],
    .call none Id.zk_hash_256_finalize [.var 6, .var 16, .var 17],
    .call (some 18) Id.bf256_sum_poly [.padd (.var 9) (.lit 4000) 32],
    .call none Id.zk_hash_256_finalize [.var 7, .var 15, .var 18],
    .free (.var 9)]⟩

/-- part of `em_enc_forward_256_1` -/
def em_enc_forward_256_1.part0 : Stmt :=
  block [
    .asg 13 (.bin (.add .u32) (.bin (.mul .u32) (.lit 256) (.var 11)) (.bin (.mul .u32) (.lit 32) (.var 12))),
    .asg 14 (.bin (.add .u32) (.bin (.mul .u32) (.lit 32) (.var 11)) (.bin (.mul .u32) (.lit 4) (.var 12))),
    .new 15 (.lit 128),
    .new 16 (.lit 128),
    .asg 17 (.lit 0),
    .loop (.bin .le (.var 17) (.lit 3))
      (block [
        .call (some 18) Id.bf256_byte_combine_bits [.ld 1 (.padd (.var 0) (.div (.div .u32) (.bin (.add .u32) (.var
          13) (.bin (.mul .u32) (.lit 8) (.var 17))) (.lit 8)) 1)],
        .st 32 (.padd (.var 16) (.var 17) 32) (.var 18),
        .call (some 19) Id.bf256_byte_combine_bits [.ld 1 (.padd (.var 1) (.div (.div .u32) (.bin (.add .u32) (.var
          13) (.bin (.mul .u32) (.lit 8) (.var 17))) (.lit 8)) 1)],
        .st 32 (.padd (.var 15) (.var 17) 32) (.var 19)])
      (.asg 17 (.bin (.add .u32) (.var 17) (.lit 1))),
    .call (some 20) Id.bf256_mul [.ld 32 (.var 16), .var 7],
    .call (some 21) Id.bf256_mul [.ld 32 (.padd (.var 16) (.lit 1) 32), .var 9],
    .call (some 22) Id.bf256_add [.var 20, .var 21],
    .st 32 (.padd (.var 2) (.bin (.add .u32) (.var 14) (.lit 0)) 32) (.var 22),
    .call (some 23) Id.bf256_add [.ld 32 (.padd (.var 2) (.bin (.add .u32) (.var 14) (.lit 0)) 32), .ld 32 (.padd
      (.var 16) (.lit 2) 32)],
    .st 32 (.padd (.var 2) (.bin (.add .u32) (.var 14) (.lit 0)) 32) (.var 23),
    .call (some 24) Id.bf256_add [.ld 32 (.padd (.var 2) (.bin (.add .u32) (.var 14) (.lit 0)) 32), .ld 32 (.padd
      (.var 16) (.lit 3) 32)],
    .st 32 (.padd (.var 2) (.bin (.add .u32) (.var 14) (.lit 0)) 32) (.var 24),
    .call (some 25) Id.bf256_add [.ld 32 (.padd (.var 2) (.bin (.add .u32) (.var 14) (.lit 0)) 32), .ld 32 (.var 15)],
    .st 32 (.padd (.var 2) (.bin (.add .u32) (.var 14) (.lit 0)) 32) (.var 25),
    .call (some 26) Id.bf256_mul [.ld 32 (.padd (.var 16) (.lit 1) 32), .var 7],
    .call (some 27) Id.bf256_add [.ld 32 (.var 16), .var 26],
    .st 32 (.padd (.var 2) (.bin (.add .u32) (.var 14) (.lit 1)) 32) (.var 27),
    .call (some 28) Id.bf256_mul [.ld 32 (.padd (.var 16) (.lit 2) 32), .var 9],
    .call (some 29) Id.bf256_add [.ld 32 (.padd (.var 2) (.bin (.add .u32) (.var 14) (.lit 1)) 32), .var 28],
    .st 32 (.padd (.var 2) (.bin (.add .u32) (.var 14) (.lit 1)) 32) (.var 29),
    .call (some 30) Id.bf256_add [.ld 32 (.padd (.var 2) (.bin (.add .u32) (.var 14) (.lit 1)) 32), .ld 32 (.padd
      (.var 16) (.lit 3) 32)],
    .st 32 (.padd (.var 2) (.bin (.add .u32) (.var 14) (.lit 1)) 32) (.var 30),
    .call (some 31) Id.bf256_add [.ld 32 (.padd (.var 2) (.bin (.add .u32) (.var 14) (.lit 1)) 32), .ld 32 (.padd
      (.var 15) (.lit 1) 32)],
    .st 32 (.padd (.var 2) (.bin (.add .u32) (.var 14) (.lit 1)) 32) (.var 31),
    .call (some 32) Id.bf256_add [.ld 32 (.var 16), .ld 32 (.padd (.var 16) (.lit 1) 32)],
    .st 32 (.padd (.var 2) (.bin (.add .u32) (.var 14) (.lit 2)) 32) (.var 32),
    .call (some 33) Id.bf256_mul [.ld 32 (.padd (.var 16) (.lit 2) 32), .var 7],
    .call (some 34) Id.bf256_add [.ld 32 (.padd (.var 2) (.bin (.add .u32) (.var 14) (.lit 2)) 32), .var 33],
    .st 32 (.padd (.var 2) (.bin (.add .u32) (.var 14) (.lit 2)) 32) (.var 34),
    .call (some 35) Id.bf256_mul [.ld 32 (.padd (.var 16) (.lit 3) 32), .var 9],
    .call (some 36) Id.bf256_add [.ld 32 (.padd (.var 2) (.bin (.add .u32) (.var 14) (.lit 2)) 32), .var 35],
    .st 32 (.padd (.var 2) (.bin (.add .u32) (.var 14) (.lit 2)) 32) (.var 36),
    .call (some 37) Id.bf256_add [.ld 32 (.padd (.var 2) (.bin (.add .u32) (.var 14) (.lit 2)) 32), .ld 32 (.padd
      (.var 15) (.lit 2) 32)],
    .st 32 (.padd (.var 2) (.bin (.add .u32) (.var 14) (.lit 2)) 32) (.var 37),
    .call (some 38) Id.bf256_mul [.ld 32 (.var 16), .var 9],
    .call (some 39) Id.bf256_add [.var 38, .ld 32 (.padd (.var 16) (.lit 1) 32)],
    .st 32 (.padd (.var 2) (.bin (.add .u32) (.var 14) (.lit 3)) 32) (.var 39),
    .call (some 40) Id.bf256_add [.ld 32 (.padd (.var 2) (.bin (.add .u32) (.var 14) (.lit 3)) 32), .ld 32 (.padd
      (.var 16) (.lit 2) 32)]]

/-- part of `em_enc_forward_256_1` -/
def em_enc_forward_256_1.part1 : Stmt :=
  block [
    .st 32 (.padd (.var 2) (.bin (.add .u32) (.var 14) (.lit 3)) 32) (.var 40),
    .call (some 41) Id.bf256_mul [.ld 32 (.padd (.var 16) (.lit 3) 32), .var 7],
    .call (some 42) Id.bf256_add [.ld 32 (.padd (.var 2) (.bin (.add .u32) (.var 14) (.lit 3)) 32), .var 41],
    .st 32 (.padd (.var 2) (.bin (.add .u32) (.var 14) (.lit 3)) 32) (.var 42),
    .call (some 43) Id.bf256_add [.ld 32 (.padd (.var 2) (.bin (.add .u32) (.var 14) (.lit 3)) 32), .ld 32 (.padd
      (.var 15) (.lit 3) 32)],
    .st 32 (.padd (.var 2) (.bin (.add .u32) (.var 14) (.lit 3)) 32) (.var 43)]

/-- `em_enc_forward_256_1`, faest_aes.c:2275-2318; variables: 0 z, 1 x, 2 bf_y, 3 j, 7 bf_two, 9 bf_three, 11 j, 12
  c, 13 i, 14 iy, 15 bf_x_hat, 16 bf_z_hat, 17 r -/
def em_enc_forward_256_1 : Fn := ⟨3,
  block [
    .asg 3 (.lit 0),
    .loop (.bin .lt (.var 3) (.lit 32))
      (block [
        .call (some 4) Id.bf256_byte_combine_bits [.ld 1 (.padd (.var 0) (.var 3) 1)],
        .call (some 5) Id.bf256_byte_combine_bits [.ld 1 (.padd (.var 1) (.var 3) 1)],
        .call (some 6) Id.bf256_add [.var 4, .var 5],
        .st 32 (.padd (.var 2) (.var 3) 32) (.var 6)])
      (.asg 3 (.bin (.add .u32) (.var 3) (.lit 1))),
    .call (some 8) Id.bf256_byte_combine_bits [.lit 2],
    .asg 7 (.var 8),
    .call (some 10) Id.bf256_byte_combine_bits [.lit 3],
    .asg 9 (.var 10),
    .asg 11 (.lit 1),
    .loop (.bin .lt (.var 11) (.lit 14))
      (block [
        .asg 12 (.lit 0),
        .loop (.bin .lt (.var 12) (.lit 8))
          (block [
            em_enc_forward_256_1.part0,
            em_enc_forward_256_1.part1])
          (.asg 12 (.bin (.add .u32) (.var 12) (.lit 1)))])
      (.asg 11 (.bin (.add .u32) (.var 11) (.lit 1)))]⟩

/-- part of `em_enc_forward_256` -/
def em_enc_forward_256.part0 : Stmt :=
  block [
    .asg 13 (.bin (.add .u32) (.bin (.mul .u32) (.lit 256) (.var 11)) (.bin (.mul .u32) (.lit 32) (.var 12))),
    .asg 14 (.bin (.add .u32) (.bin (.mul .u32) (.lit 32) (.var 11)) (.bin (.mul .u32) (.lit 4) (.var 12))),
    .new 15 (.lit 128),
    .new 16 (.lit 128),
    .asg 17 (.lit 0),
    .loop (.bin .le (.var 17) (.lit 3))
      (block [
        .call (some 18) Id.bf256_byte_combine [.padd (.var 0) (.bin (.add .u32) (.var 13) (.bin (.mul .u32) (.lit 8)
          (.var 17))) 32],
        .st 32 (.padd (.var 16) (.var 17) 32) (.var 18),
        .ite (.var 1)
          (block [
            .call (some 19) Id.bf256_byte_combine [.padd (.var 1) (.bin (.add .u32) (.var 13) (.bin (.mul .u32) (.lit
              8) (.var 17))) 32],
            .st 32 (.padd (.var 15) (.var 17) 32) (.var 19)])
          (block [
            .call (some 20) Id.bf256_zero [],
            .st 32 (.padd (.var 15) (.var 17) 32) (.var 20)])])
      (.asg 17 (.bin (.add .u32) (.var 17) (.lit 1))),
    .call (some 21) Id.bf256_mul [.ld 32 (.var 16), .var 7],
    .call (some 22) Id.bf256_mul [.ld 32 (.padd (.var 16) (.lit 1) 32), .var 9],
    .call (some 23) Id.bf256_add [.var 21, .var 22],
    .st 32 (.padd (.var 2) (.bin (.add .u32) (.var 14) (.lit 0)) 32) (.var 23),
    .call (some 24) Id.bf256_add [.ld 32 (.padd (.var 2) (.bin (.add .u32) (.var 14) (.lit 0)) 32), .ld 32 (.padd
      (.var 16) (.lit 2) 32)],
    .st 32 (.padd (.var 2) (.bin (.add .u32) (.var 14) (.lit 0)) 32) (.var 24),
    .call (some 25) Id.bf256_add [.ld 32 (.padd (.var 2) (.bin (.add .u32) (.var 14) (.lit 0)) 32), .ld 32 (.padd
      (.var 16) (.lit 3) 32)],
    .st 32 (.padd (.var 2) (.bin (.add .u32) (.var 14) (.lit 0)) 32) (.var 25),
    .call (some 26) Id.bf256_add [.ld 32 (.padd (.var 2) (.bin (.add .u32) (.var 14) (.lit 0)) 32), .ld 32 (.var 15)],
    .st 32 (.padd (.var 2) (.bin (.add .u32) (.var 14) (.lit 0)) 32) (.var 26),
    .call (some 27) Id.bf256_mul [.ld 32 (.padd (.var 16) (.lit 1) 32), .var 7],
    .call (some 28) Id.bf256_add [.ld 32 (.var 16), .var 27],
    .st 32 (.padd (.var 2) (.bin (.add .u32) (.var 14) (.lit 1)) 32) (.var 28),
    .call (some 29) Id.bf256_mul [.ld 32 (.padd (.var 16) (.lit 2) 32), .var 9],
    .call (some 30) Id.bf256_add [.ld 32 (.padd (.var 2) (.bin (.add .u32) (.var 14) (.lit 1)) 32), .var 29],
    .st 32 (.padd (.var 2) (.bin (.add .u32) (.var 14) (.lit 1)) 32) (.var 30),
    .call (some 31) Id.bf256_add [.ld 32 (.padd (.var 2) (.bin (.add .u32) (.var 14) (.lit 1)) 32), .ld 32 (.padd
      (.var 16) (.lit 3) 32)],
    .st 32 (.padd (.var 2) (.bin (.add .u32) (.var 14) (.lit 1)) 32) (.var 31),
    .call (some 32) Id.bf256_add [.ld 32 (.padd (.var 2) (.bin (.add .u32) (.var 14) (.lit 1)) 32), .ld 32 (.padd
      (.var 15) (.lit 1) 32)],
    .st 32 (.padd (.var 2) (.bin (.add .u32) (.var 14) (.lit 1)) 32) (.var 32),
    .call (some 33) Id.bf256_add [.ld 32 (.var 16), .ld 32 (.padd (.var 16) (.lit 1) 32)],
    .st 32 (.padd (.var 2) (.bin (.add .u32) (.var 14) (.lit 2)) 32) (.var 33),
    .call (some 34) Id.bf256_mul [.ld 32 (.padd (.var 16) (.lit 2) 32), .var 7],
    .call (some 35) Id.bf256_add [.ld 32 (.padd (.var 2) (.bin (.add .u32) (.var 14) (.lit 2)) 32), .var 34],
    .st 32 (.padd (.var 2) (.bin (.add .u32) (.var 14) (.lit 2)) 32) (.var 35),
    .call (some 36) Id.bf256_mul [.ld 32 (.padd (.var 16) (.lit 3) 32), .var 9],
    .call (some 37) Id.bf256_add [.ld 32 (.padd (.var 2) (.bin (.add .u32) (.var 14) (.lit 2)) 32), .var 36],
    .st 32 (.padd (.var 2) (.bin (.add .u32) (.var 14) (.lit 2)) 32) (.var 37),
    .call (some 38) Id.bf256_add [.ld 32 (.padd (.var 2) (.bin (.add .u32) (.var 14) (.lit 2)) 32), .ld 32 (.padd
      (.var 15) (.lit 2) 32)],
    .st 32 (.padd (.var 2) (.bin (.add .u32) (.var 14) (.lit 2)) 32) (.var 38),
    .call (some 39) Id.bf256_mul [.ld 32 (.var 16), .var 9],
    .call (some 40) Id.bf256_add [.var 39, .ld 32 (.padd (.var 16) (.lit 1) 32)],
    .st 32 (.padd (.var 2) (.bin (.add .u32) (.var 14) (.lit 3)) 32) (.var 40),
    .call (some 41) Id.bf256_add [.ld 32 (.padd (.var 2) (.bin (.add .u32) (.var 14) (.lit 3)) 32), .ld 32 (.padd
      (.var 16) (.lit 2) 32)]]

/-- part of `em_enc_forward_256` -/
def em_enc_forward_256.part1 : Stmt :=
  block [
    .st 32 (.padd (.var 2) (.bin (.add .u32) (.var 14) (.lit 3)) 32) (.var 41),
    .call (some 42) Id.bf256_mul [.ld 32 (.padd (.var 16) (.lit 3) 32), .var 7],
    .call (some 43) Id.bf256_add [.ld 32 (.padd (.var 2) (.bin (.add .u32) (.var 14) (.lit 3)) 32), .var 42],
    .st 32 (.padd (.var 2) (.bin (.add .u32) (.var 14) (.lit 3)) 32) (.var 43),
    .call (some 44) Id.bf256_add [.ld 32 (.padd (.var 2) (.bin (.add .u32) (.var 14) (.lit 3)) 32), .ld 32 (.padd
      (.var 15) (.lit 3) 32)],
    .st 32 (.padd (.var 2) (.bin (.add .u32) (.var 14) (.lit 3)) 32) (.var 44)]

/-- `em_enc_forward_256`, faest_aes.c:2320-2370; variables: 0 bf_z, 1 bf_x, 2 bf_y, 3 j, 7 bf_two, 9 bf_three, 11 j,
  12 c, 13 i, 14 iy, 15 bf_x_hat, 16 bf_z_hat, 17 r -/
def em_enc_forward_256 : Fn := ⟨3,
  block [
    .asg 3 (.lit 0),
    .loop (.bin .lt (.var 3) (.lit 32))
      (block [
        .call (some 4) Id.bf256_byte_combine [.padd (.var 0) (.bin (.mul .u32) (.lit 8) (.var 3)) 32],
        .st 32 (.padd (.var 2) (.var 3) 32) (.var 4),
        .ite (.var 1)
          (block [
            .call (some 5) Id.bf256_byte_combine [.padd (.var 1) (.bin (.mul .u32) (.lit 8) (.var 3)) 32],
            .call (some 6) Id.bf256_add [.ld 32 (.padd (.var 2) (.var 3) 32), .var 5],
            .st 32 (.padd (.var 2) (.var 3) 32) (.var 6)])
          (.skip)])
      (.asg 3 (.bin (.add .u32) (.var 3) (.lit 1))),
    .call (some 8) Id.bf256_byte_combine_bits [.lit 2],
    .asg 7 (.var 8),
    .call (some 10) Id.bf256_byte_combine_bits [.lit 3],
    .asg 9 (.var 10),
    .asg 11 (.lit 1),
    .loop (.bin .lt (.var 11) (.lit 14))
      (block [
        .asg 12 (.lit 0),
        .loop (.bin .lt (.var 12) (.lit 8))
          (block [
            em_enc_forward_256.part0,
            em_enc_forward_256.part1])
          (.asg 12 (.bin (.add .u32) (.var 12) (.lit 1)))])
      (.asg 11 (.bin (.add .u32) (.var 11) (.lit 1)))]⟩

/-- `em_enc_backward_256_1`, faest_aes.c:2372-2401; variables: 0 z, 1 x, 2 z_out, 3 y_out, 4 j, 5 c, 6 r, 7 icol, 8
  ird, 9 z_tilde, 10 y_tilde -/
def em_enc_backward_256_1 : Fn := ⟨4,
  block [
    .asg 4 (.lit 0),
    .loop (.bin .lt (.var 4) (.lit 14))
      (block [
        .asg 5 (.lit 0),
        .loop (.bin .lt (.var 5) (.lit 8))
          (block [
            .asg 6 (.lit 0),
            .loop (.bin .le (.var 6) (.lit 3))
              (block [
                .asg 7 (.div (.mod .u32) (.bin (.add .u32) (.bin (.sub .u32) (.var 5) (.var 6)) (.lit 8)) (.lit 8)),
                .ite (.bin .ne (.bin .ge (.var 6) (.lit 2)) (.lit 0))
                  (.asg 7 (.div (.mod .u32) (.bin (.add .u32) (.bin (.sub .u32) (.var 7) (.lit 1)) (.lit 8)) (.lit
                    8)))
                  (.skip),
                .asg 8 (.bin (.add .u32) (.bin (.add .u32) (.bin (.add .u32) (.lit 256) (.bin (.mul .u32) (.lit 256)
                  (.var 4))) (.bin (.mul .u32) (.lit 32) (.var 7))) (.bin (.mul .u32) (.lit 8) (.var 6))),
                .asg 9 (.lit 0),
                .ite (.bin .lt (.var 4) (.lit 13))
                  (.asg 9 (.ld 1 (.padd (.var 0) (.div (.div .u32) (.var 8) (.lit 8)) 1)))
                  (.asg 9 (.un (.cast .u8) (.bin (.bxor .i32) (.ld 1 (.padd (.var 2) (.div (.div .u32) (.bin (.sub
                    .u32) (.var 8) (.bin (.mul .u32) (.lit 256) (.bin (.add .u32) (.var 4) (.lit 1)))) (.lit 8)) 1))
                    (.ld 1 (.padd (.var 1) (.div (.div .u32) (.var 8) (.lit 8)) 1))))),
                .call (some 11) Id.rotr8 [.var 9, .lit 7],
                .call (some 12) Id.rotr8 [.var 9, .lit 5],
                .call (some 13) Id.rotr8 [.var 9, .lit 2],
                .asg 10 (.un (.cast .u8) (.bin (.bxor .i32) (.bin (.bxor .i32) (.bin (.bxor .i32) (.var 11) (.var
                  12)) (.var 13)) (.lit 5))),
                .call (some 14) Id.bf256_byte_combine_bits [.var 10],
                .st 32 (.padd (.var 3) (.bin (.add .u32) (.bin (.add .u32) (.bin (.mul .u32) (.lit 32) (.var 4))
                  (.bin (.mul .u32) (.lit 4) (.var 5))) (.var 6)) 32) (.var 14)])
              (.asg 6 (.bin (.add .u32) (.var 6) (.lit 1)))])
          (.asg 5 (.bin (.add .u32) (.var 5) (.lit 1)))])
      (.asg 4 (.bin (.add .u32) (.var 4) (.lit 1)))]⟩

/-- `em_enc_backward_256`, faest_aes.c:2403-2446; variables: 0 bf_z, 1 bf_x, 2 bf_z_out, 3 Mtag, 4 Mkey, 5 delta, 6
  y_out, 7 bf_delta, 11 factor, 16 j, 17 c, 18 r, 19 bf_z_tilde, 20 icol, 21 ird, 23 i, 25 bf_y_tilde, 26 i -/
def em_enc_backward_256 : Fn := ⟨7,
  block [
    .ite (.var 5)
      (block [
        .call (some 9) Id.bf256_load [.var 5],
        .asg 8 (.var 9)])
      (block [
        .call (some 10) Id.bf256_zero [],
        .asg 8 (.var 10)]),
    .asg 7 (.var 8),
    .call (some 12) Id.bf256_mul_bit [.var 7, .var 4],
    .call (some 13) Id.bf256_from_bit [.un (.cast .u8) (.bin (.bxor .i32) (.lit 1) (.var 4))],
    .call (some 14) Id.bf256_add [.var 12, .var 13],
    .call (some 15) Id.bf256_mul_bit [.var 14, .un (.cast .u8) (.bin (.bxor .i32) (.lit 1) (.var 3))],
    .asg 11 (.var 15),
    .asg 16 (.lit 0),
    .loop (.bin .lt (.var 16) (.lit 14))
      (block [
        .asg 17 (.lit 0),
        .loop (.bin .lt (.var 17) (.lit 8))
          (block [
            .asg 18 (.lit 0),
            .loop (.bin .le (.var 18) (.lit 3))
              (block [
                .new 19 (.lit 256),
                .asg 20 (.div (.mod .u32) (.bin (.add .u32) (.bin (.sub .u32) (.var 17) (.var 18)) (.lit 8)) (.lit
                  8)),
                .ite (.bin .ne (.bin .ge (.var 18) (.lit 2)) (.lit 0))
                  (.asg 20 (.div (.mod .u32) (.bin (.add .u32) (.bin (.sub .u32) (.var 20) (.lit 1)) (.lit 8)) (.lit
                    8)))
                  (.skip),
                .asg 21 (.bin (.add .u32) (.bin (.add .u32) (.bin (.add .u32) (.lit 256) (.bin (.mul .u32) (.lit 256)
                  (.var 16))) (.bin (.mul .u32) (.lit 32) (.var 20))) (.bin (.mul .u32) (.lit 8) (.var 18))),
                .ite (.bin .lt (.var 16) (.lit 13))
                  (.call (some 22) Id.memcpy [.var 19, .padd (.var 0) (.var 21) 32, .lit 256])
                  (block [
                    .asg 23 (.lit 0),
                    .loop (.bin .lt (.var 23) (.lit 8))
                      (block [
                        .st 32 (.padd (.var 19) (.var 23) 32) (.ld 32 (.padd (.var 2) (.bin (.add .u32) (.bin (.sub
                          .u32) (.var 21) (.bin (.mul .u32) (.lit 256) (.bin (.add .u32) (.var 16) (.lit 1)))) (.var
                          23)) 32)),
                        .ite (.var 1)
                          (block [
                            .call (some 24) Id.bf256_add [.ld 32 (.padd (.var 19) (.var 23) 32), .ld 32 (.padd (.var
                              1) (.bin (.add .u32) (.var 21) (.var 23)) 32)],
                            .st 32 (.padd (.var 19) (.var 23) 32) (.var 24)])
                          (.skip)])
                      (.asg 23 (.bin (.add .u32) (.var 23) (.lit 1)))]),
                .new 25 (.lit 256),
                .asg 26 (.lit 0),
                .loop (.bin .lt (.var 26) (.lit 8))
                  (block [
                    .call (some 27) Id.bf256_add [.ld 32 (.padd (.var 19) (.div (.mod .u32) (.bin (.add .u32) (.var
                      26) (.lit 7)) (.lit 8)) 32), .ld 32 (.padd (.var 19) (.div (.mod .u32) (.bin (.add .u32) (.var
                      26) (.lit 5)) (.lit 8)) 32)],
                    .call (some 28) Id.bf256_add [.var 27, .ld 32 (.padd (.var 19) (.div (.mod .u32) (.bin (.add
                      .u32) (.var 26) (.lit 2)) (.lit 8)) 32)],
                    .st 32 (.padd (.var 25) (.var 26) 32) (.var 28)])
                  (.asg 26 (.bin (.add .u32) (.var 26) (.lit 1))),
                .call (some 29) Id.bf256_add [.ld 32 (.var 25), .var 11],
                .st 32 (.var 25) (.var 29),
                .call (some 30) Id.bf256_add [.ld 32 (.padd (.var 25) (.lit 2) 32), .var 11],
                .st 32 (.padd (.var 25) (.lit 2) 32) (.var 30),
                .call (some 31) Id.bf256_byte_combine [.var 25],
                .st 32 (.padd (.var 6) (.bin (.add .u32) (.bin (.add .u32) (.bin (.mul .u32) (.lit 32) (.var 16))
                  (.bin (.mul .u32) (.lit 4) (.var 17))) (.var 18)) 32) (.var 31)])
              (.asg 18 (.bin (.add .u32) (.var 18) (.lit 1)))])
          (.asg 17 (.bin (.add .u32) (.var 17) (.lit 1)))])
      (.asg 16 (.bin (.add .u32) (.var 16) (.lit 1)))]⟩

/-- `em_enc_constraints_Mkey_0_256`, faest_aes.c:2448-2473; variables: 0 out, 1 x, 2 w, 3 bf_v, 4 a0_ctx, 5 a1_ctx, 6
  w_out, 7 bf_s, 8 bf_vs, 9 bf_s_dash, 10 bf_vs_dash, 11 j, 12 tmp -/
def em_enc_constraints_Mkey_0_256 : Fn := ⟨6,
  block [
    .new 6 (.lit 32),
    .call none Id.xor_u8_array [.var 0, .var 2, .var 6, .lit 32],
    .new 7 (.lit 14336),
    .new 8 (.lit 14336),
    .new 9 (.lit 14336),
    .new 10 (.lit 14336),
    .call none Id.em_enc_forward_256_1 [.var 2, .var 1, .var 7],
    .call none Id.em_enc_forward_256 [.var 3, .lit 0, .var 8],
    .call none Id.em_enc_backward_256_1 [.var 2, .var 1, .var 6, .var 9],
    .call none Id.em_enc_backward_256 [.var 3, .lit 0, .var 3, .lit 1, .lit 0, .lit 0, .var 10],
    .asg 11 (.lit 0),
    .loop (.bin .lt (.var 11) (.lit 448))
      (block [
        .call (some 13) Id.bf256_mul [.ld 32 (.padd (.var 8) (.var 11) 32), .ld 32 (.padd (.var 10) (.var 11) 32)],
        .asg 12 (.var 13),
        .call none Id.zk_hash_256_update [.var 4, .var 12],
        .call (some 14) Id.bf256_add [.ld 32 (.padd (.var 7) (.var 11) 32), .ld 32 (.padd (.var 8) (.var 11) 32)],
        .call (some 15) Id.bf256_add [.ld 32 (.padd (.var 9) (.var 11) 32), .ld 32 (.padd (.var 10) (.var 11) 32)],
        .call (some 16) Id.bf256_mul [.var 14, .var 15],
        .call (some 17) Id.bf256_add [.var 16, .var 12],
        .call (some 18) Id.bf256_one [],
        .call (some 19) Id.bf256_add [.var 17, .var 18],
        .call none Id.zk_hash_256_update [.var 5, .var 19]])
      (.asg 11 (.bin (.add .u32) (.var 11) (.lit 1)))]⟩

/-- `em_prove_256`, faest_aes.c:2505-2534; variables: 0 w, 1 u, 2 V, 3 in, 4 out, 5 chall, 6 a_tilde, 7 b_tilde, 8 x,
  9 round_keys, 11 tmp_x, 12 r, 13 i, 15 bf_v, 17 a0_ctx, 18 a1_ctx -/
def em_prove_256 : Fn := ⟨8,
  block [
    .new 8 (.lit 480),
    .new 9 (.lit 480),
    .call (some 10) Id.rijndael256_init_round_keys [.var 9, .var 3],
    .asg 11 (.var 8),
    .asg 12 (.lit 0),
    .loop (.bin .ne (.var 12) (.lit 15))
      (block [
        .asg 13 (.lit 0),
        .loop (.bin .ne (.var 13) (.lit 8))
          (block [
            .call (some 14) Id.memcpy [.var 11, .padd (.padd (.var 9) (.var 12) 32) (.var 13) 4, .lit 4],
            .asg 11 (.padd (.var 11) (.lit 4) 1)])
          (.asg 13 (.bin (.add .u32) (.var 13) (.lit 1)))])
      (.asg 12 (.bin (.add .u32) (.var 12) (.lit 1))),
    .call (some 16) Id.column_to_row_major_and_shrink_V_256 [.var 2, .lit 3584],
    .asg 15 (.var 16),
    .new 17 (.lit 112),
    .new 18 (.lit 112),
    .call none Id.zk_hash_256_init [.var 17, .var 5],
    .call none Id.zk_hash_256_init [.var 18, .var 5],
    .call none Id.em_enc_constraints_Mkey_0_256 [.var 4, .var 8, .var 0, .var 15, .var 17, .var 18],
    .call (some 19) Id.bf256_load [.padd (.var 1) (.lit 448) 1],
    .call none Id.zk_hash_256_finalize [.var 6, .var 18, .var 19],
    .call (some 20) Id.bf256_sum_poly [.padd (.var 15) (.lit 3584) 32],
    .call none Id.zk_hash_256_finalize [.var 7, .var 17, .var 20],
    .free (.var 15)]⟩

/-- `column_to_row_major_and_shrink_V_192`, faest_aes.c:95-109; variables: 0 v, 1 ell, 2 new_v, 4 row, 5 new_row, 7
  column -/
def column_to_row_major_and_shrink_V_192 : Fn := ⟨2,
  block [
    .new 3 (.bin (.mul .u64) (.bin (.add .u32) (.var 1) (.lit 192)) (.lit 24)),
    .asg 2 (.var 3),
    .asg 4 (.lit 0),
    .loop (.bin .ne (.var 4) (.bin (.add .u32) (.var 1) (.lit 192)))
      (block [
        .new 5 (.lit 24),
        .call (some 6) Id.memset [.var 5, .lit 0, .lit 24],
        .asg 7 (.lit 0),
        .loop (.bin .ne (.var 7) (.lit 192))
          (.st 1 (.padd (.var 5) (.div (.div .u32) (.var 7) (.lit 8)) 1) (.un (.cast .u8) (.bin (.bor .i32) (.ld 1
            (.padd (.var 5) (.div (.div .u32) (.var 7) (.lit 8)) 1)) (.bin (.shl .i32) (.bin (.band .i32) (.bin (.shr
            .i32) (.ld 1 (.padd (.cell (.padd (.var 0) (.var 7) 1) 0) (.div (.div .u32) (.var 4) (.lit 8)) 1)) (.div
            (.mod .u32) (.var 4) (.lit 8))) (.lit 1)) (.div (.mod .u32) (.var 7) (.lit 8))))))
          (.asg 7 (.bin (.add .u32) (.var 7) (.lit 1))),
        .call (some 8) Id.bf192_load [.var 5],
        .st 24 (.padd (.var 2) (.var 4) 24) (.var 8)])
      (.asg 4 (.bin (.add .u32) (.var 4) (.lit 1))),
    .ret (.var 2)]⟩

/-- `aes_key_schedule_forward_192`, faest_aes.c:688-707; variables: 0 v, 1 bf_out, 3 i_wd, 4 j, 7 i -/
def aes_key_schedule_forward_192 : Fn := ⟨2,
  block [
    .call (some 2) Id.memcpy [.var 1, .var 0, .lit 4608],
    .asg 3 (.lit 192),
    .asg 4 (.lit 6),
    .loop (.bin .lt (.var 4) (.lit 52))
      (block [
        .ite (.bin .eq (.div (.mod .u32) (.var 4) (.lit 6)) (.lit 0))
          (.asg 5 (.lit 1))
          (.asg 5 (.bin .ne (.lit 0) (.lit 0))),
        .ite (.var 5)
          (block [
            .call (some 6) Id.memcpy [.padd (.var 1) (.bin (.mul .u32) (.var 4) (.lit 32)) 24, .padd (.var 0) (.var
              3) 24, .lit 768],
            .asg 3 (.bin (.add .u32) (.var 3) (.lit 32))])
          (block [
            .asg 7 (.lit 0),
            .loop (.bin .lt (.var 7) (.lit 32))
              (block [
                .call (some 8) Id.bf192_add [.ld 24 (.padd (.var 1) (.bin (.add .u32) (.bin (.mul .u32) (.lit 32)
                  (.bin (.sub .u32) (.var 4) (.lit 6))) (.var 7)) 24), .ld 24 (.padd (.var 1) (.bin (.add .u32) (.bin
                  (.mul .u32) (.lit 32) (.bin (.sub .u32) (.var 4) (.lit 1))) (.var 7)) 24)],
                .st 24 (.padd (.var 1) (.bin (.add .u32) (.bin (.mul .u32) (.lit 32) (.var 4)) (.var 7)) 24) (.var
                  8)])
              (.asg 7 (.bin (.add .u32) (.var 7) (.lit 1)))])])
      (.asg 4 (.bin (.add .u32) (.var 4) (.lit 1)))]⟩

/-- `aes_key_schedule_backward_192`, faest_aes.c:709-760; variables: 0 v, 1 Vk, 2 Mtag, 3 Mkey, 4 delta, 5 bf_out, 9
  bf_delta, 13 iwd, 14 c, 15 ircon, 16 bf_minus_mkey, 18 minus_mtag, 19 bf_mkey_times_delta, 22 j, 23 bf_x_tilde, 24
  i, 27 r, 28 bf_r, 29 i, 32 i -/
def aes_key_schedule_backward_192 : Fn := ⟨6,
  block [
    .ite (.bin .eq (.var 2) (.lit 1))
      (.asg 6 (.bin .ne (.bin .eq (.var 3) (.lit 1)) (.lit 0)))
      (.asg 6 (.lit 0)),
    .ite (.var 6)
      (.asg 7 (.lit 1))
      (block [
        .ite (.bin .eq (.var 3) (.lit 1))
          (.asg 8 (.bin .ne (.bin .eq (.var 4) (.lit 0)) (.lit 0)))
          (.asg 8 (.lit 0)),
        .asg 7 (.bin .ne (.var 8) (.lit 0))]),
    .ite (.un .lnot (.var 7))
      (.skip)
      (.skip),
    .ite (.var 4)
      (block [
        .call (some 11) Id.bf192_load [.var 4],
        .asg 10 (.var 11)])
      (block [
        .call (some 12) Id.bf192_zero [],
        .asg 10 (.var 12)]),
    .asg 9 (.var 10),
    .asg 13 (.lit 0),
    .asg 14 (.lit 0),
    .asg 15 (.lit 0),
    .call (some 17) Id.bf192_from_bit [.un (.cast .u8) (.bin (.bxor .i32) (.lit 1) (.var 3))],
    .asg 16 (.var 17),
    .asg 18 (.un (.cast .u8) (.bin (.bxor .i32) (.lit 1) (.var 2))),
    .call (some 20) Id.bf192_mul_bit [.var 9, .var 3],
    .asg 19 (.var 20),
    .call (some 21) Id.bf192_add [.var 19, .var 16],
    .asg 19 (.var 21),
    .asg 22 (.lit 0),
    .loop (.bin .lt (.var 22) (.lit 32))
      (block [
        .new 23 (.lit 192),
        .asg 24 (.lit 0),
        .loop (.bin .lt (.var 24) (.lit 8))
          (block [
            .call (some 25) Id.bf192_add [.ld 24 (.padd (.var 0) (.bin (.add .u32) (.bin (.mul .u32) (.lit 8) (.var
              22)) (.var 24)) 24), .ld 24 (.padd (.var 1) (.bin (.add .u32) (.bin (.add .u32) (.var 13) (.bin (.mul
              .u32) (.lit 8) (.var 14))) (.var 24)) 24)],
            .st 24 (.padd (.var 23) (.var 24) 24) (.var 25)])
          (.asg 24 (.bin (.add .u32) (.var 24) (.lit 1))),
        .ite (.bin .eq (.var 2) (.lit 0))
          (.asg 26 (.bin .ne (.bin .eq (.var 14) (.lit 0)) (.lit 0)))
          (.asg 26 (.lit 0)),
        .ite (.var 26)
          (block [
            .asg 27 (.ld 1 (.padd (.glob 6) (.var 15) 1)),
            .asg 15 (.bin (.add .u32) (.var 15) (.lit 1)),
            .new 28 (.lit 192),
            .asg 29 (.lit 0),
            .loop (.bin .lt (.var 29) (.lit 8))
              (block [
                .call (some 30) Id.bf192_mul_bit [.var 19, .un (.cast .u8) (.bin (.band .i32) (.bin (.shr .i32) (.var
                  27) (.var 29)) (.lit 1))],
                .st 24 (.padd (.var 28) (.var 29) 24) (.var 30),
                .call (some 31) Id.bf192_add [.ld 24 (.padd (.var 23) (.var 29) 24), .ld 24 (.padd (.var 28) (.var
                  29) 24)],
                .st 24 (.padd (.var 23) (.var 29) 24) (.var 31)])
              (.asg 29 (.bin (.add .u32) (.var 29) (.lit 1)))])
          (.skip),
        .asg 32 (.lit 0),
        .loop (.bin .lt (.var 32) (.lit 8))
          (block [
            .call (some 33) Id.bf192_add [.ld 24 (.padd (.var 23) (.div (.mod .u32) (.bin (.add .u32) (.var 32) (.lit
              7)) (.lit 8)) 24), .ld 24 (.padd (.var 23) (.div (.mod .u32) (.bin (.add .u32) (.var 32) (.lit 5))
              (.lit 8)) 24)],
            .call (some 34) Id.bf192_add [.var 33, .ld 24 (.padd (.var 23) (.div (.mod .u32) (.bin (.add .u32) (.var
              32) (.lit 2)) (.lit 8)) 24)],
            .st 24 (.padd (.var 5) (.bin (.add .u32) (.var 32) (.bin (.mul .u32) (.lit 8) (.var 22))) 24) (.var 34)])
          (.asg 32 (.bin (.add .u32) (.var 32) (.lit 1))),
        .call (some 35) Id.bf192_mul_bit [.var 19, .var 18],
        .call (some 36) Id.bf192_add [.ld 24 (.padd (.var 5) (.bin (.add .u32) (.lit 0) (.bin (.mul .u32) (.lit 8)
          (.var 22))) 24), .var 35],
        .st 24 (.padd (.var 5) (.bin (.add .u32) (.lit 0) (.bin (.mul .u32) (.lit 8) (.var 22))) 24) (.var 36),
        .call (some 37) Id.bf192_mul_bit [.var 19, .var 18],
        .call (some 38) Id.bf192_add [.ld 24 (.padd (.var 5) (.bin (.add .u32) (.lit 2) (.bin (.mul .u32) (.lit 8)
          (.var 22))) 24), .var 37],
        .st 24 (.padd (.var 5) (.bin (.add .u32) (.lit 2) (.bin (.mul .u32) (.lit 8) (.var 22))) 24) (.var 38),
        .asg 14 (.bin (.add .u32) (.var 14) (.lit 1)),
        .ite (.bin .eq (.var 14) (.lit 4))
          (block [
            .asg 14 (.lit 0),
            .asg 13 (.bin (.add .u32) (.var 13) (.lit 192))])
          (.skip)])
      (.asg 22 (.bin (.add .u32) (.var 22) (.lit 1)))]⟩

/-- `aes_key_schedule_constraints_Mkey_0_192`, faest_aes.c:762-810; variables: 0 w, 1 v, 2 a0_ctx, 3 a1_ctx, 4 k, 5
  vk, 6 params, 7 w_dash, 8 v_w_dash, 9 iwd, 10 j, 11 bf_k_hat, 12 bf_v_k_hat, 13 bf_w_dash_hat, 14 bf_v_w_dash_hat,
  15 r, 20 r, 21 tmp -/
def aes_key_schedule_constraints_Mkey_0_192 : Fn := ⟨7,
  block [
    .ite (.bin .eq (.lit 32) (.ld 2 (.padd (.var 6) (.lit 4) 1)))
      (.skip)
      (.skip),
    .call none Id.aes_key_schedule_forward_1 [.var 0, .var 4, .var 6],
    .call none Id.aes_key_schedule_forward_192 [.var 1, .var 5],
    .new 7 (.lit 32),
    .call none Id.aes_key_schedule_backward_1 [.padd (.var 0) (.lit 24) 1, .var 4, .var 7, .var 6],
    .new 8 (.lit 6144),
    .call none Id.aes_key_schedule_backward_192 [.padd (.var 1) (.lit 192) 24, .var 5, .lit 1, .lit 0, .lit 0, .var
      8],
    .asg 9 (.lit 160),
    .asg 10 (.lit 0),
    .loop (.bin .lt (.var 10) (.lit 8))
      (block [
        .new 11 (.lit 96),
        .new 12 (.lit 96),
        .new 13 (.lit 96),
        .new 14 (.lit 96),
        .asg 15 (.lit 0),
        .loop (.bin .le (.var 15) (.lit 3))
          (block [
            .call (some 16) Id.bf192_byte_combine_bits [.ld 1 (.padd (.var 4) (.div (.div .u32) (.bin (.add .u32)
              (.var 9) (.bin (.mul .u32) (.lit 8) (.var 15))) (.lit 8)) 1)],
            .st 24 (.padd (.var 11) (.div (.mod .u32) (.bin (.add .u32) (.var 15) (.lit 3)) (.lit 4)) 24) (.var 16),
            .call (some 17) Id.bf192_byte_combine [.padd (.var 5) (.bin (.add .u32) (.var 9) (.bin (.mul .u32) (.lit
              8) (.var 15))) 24],
            .st 24 (.padd (.var 12) (.div (.mod .u32) (.bin (.add .u32) (.var 15) (.lit 3)) (.lit 4)) 24) (.var 17),
            .call (some 18) Id.bf192_byte_combine_bits [.ld 1 (.padd (.var 7) (.div (.div .u32) (.bin (.add .u32)
              (.bin (.mul .u32) (.lit 32) (.var 10)) (.bin (.mul .u32) (.lit 8) (.var 15))) (.lit 8)) 1)],
            .st 24 (.padd (.var 13) (.var 15) 24) (.var 18),
            .call (some 19) Id.bf192_byte_combine [.padd (.var 8) (.bin (.add .u32) (.bin (.mul .u32) (.lit 32) (.var
              10)) (.bin (.mul .u32) (.lit 8) (.var 15))) 24],
            .st 24 (.padd (.var 14) (.var 15) 24) (.var 19)])
          (.asg 15 (.bin (.add .u32) (.var 15) (.lit 1))),
        .asg 20 (.lit 0),
        .loop (.bin .le (.var 20) (.lit 3))
          (block [
            .call (some 22) Id.bf192_mul [.ld 24 (.padd (.var 12) (.var 20) 24), .ld 24 (.padd (.var 14) (.var 20)
              24)],
            .asg 21 (.var 22),
            .call none Id.zk_hash_192_update [.var 2, .var 21],
            .call (some 23) Id.bf192_add [.ld 24 (.padd (.var 11) (.var 20) 24), .ld 24 (.padd (.var 12) (.var 20)
              24)],
            .call (some 24) Id.bf192_add [.ld 24 (.padd (.var 13) (.var 20) 24), .ld 24 (.padd (.var 14) (.var 20)
              24)],
            .call (some 25) Id.bf192_mul [.var 23, .var 24],
            .call (some 26) Id.bf192_one [],
            .call (some 27) Id.bf192_add [.var 25, .var 26],
            .call (some 28) Id.bf192_add [.var 27, .var 21],
            .call none Id.zk_hash_192_update [.var 3, .var 28]])
          (.asg 20 (.bin (.add .u32) (.var 20) (.lit 1))),
        .asg 9 (.bin (.add .u32) (.var 9) (.lit 192))])
      (.asg 10 (.bin (.add .u32) (.var 10) (.lit 1)))]⟩

/-- part of `aes_enc_forward_192_1` -/
def aes_enc_forward_192_1.part0 : Stmt :=
  block [
    .asg 17 (.bin (.add .u32) (.bin (.mul .u32) (.lit 128) (.bin (.sub .u32) (.var 15) (.lit 1))) (.bin (.mul .u32)
      (.lit 32) (.var 16))),
    .asg 18 (.bin (.add .u32) (.bin (.mul .u32) (.lit 128) (.var 15)) (.bin (.mul .u32) (.lit 32) (.var 16))),
    .asg 19 (.bin (.add .u32) (.bin (.mul .u32) (.lit 16) (.var 15)) (.bin (.mul .u32) (.lit 4) (.var 16))),
    .new 20 (.lit 96),
    .new 21 (.lit 96),
    .asg 22 (.lit 0),
    .loop (.bin .le (.var 22) (.lit 3))
      (block [
        .call (some 23) Id.bf192_byte_combine_bits [.ld 1 (.padd (.var 0) (.div (.div .u32) (.bin (.add .u32) (.var
          17) (.bin (.mul .u32) (.lit 8) (.var 22))) (.lit 8)) 1)],
        .st 24 (.padd (.var 20) (.var 22) 24) (.var 23),
        .call (some 24) Id.bf192_byte_combine_bits [.ld 1 (.padd (.var 1) (.div (.div .u32) (.bin (.add .u32) (.var
          18) (.bin (.mul .u32) (.lit 8) (.var 22))) (.lit 8)) 1)],
        .st 24 (.padd (.var 21) (.var 22) 24) (.var 24)])
      (.asg 22 (.bin (.add .u32) (.var 22) (.lit 1))),
    .call (some 25) Id.bf192_mul [.ld 24 (.var 20), .var 11],
    .call (some 26) Id.bf192_add [.ld 24 (.var 21), .var 25],
    .st 24 (.padd (.var 5) (.bin (.add .u32) (.var 19) (.lit 0)) 24) (.var 26),
    .call (some 27) Id.bf192_mul [.ld 24 (.padd (.var 20) (.lit 1) 24), .var 13],
    .call (some 28) Id.bf192_add [.ld 24 (.padd (.var 5) (.bin (.add .u32) (.var 19) (.lit 0)) 24), .var 27],
    .st 24 (.padd (.var 5) (.bin (.add .u32) (.var 19) (.lit 0)) 24) (.var 28),
    .call (some 29) Id.bf192_add [.ld 24 (.padd (.var 5) (.bin (.add .u32) (.var 19) (.lit 0)) 24), .ld 24 (.padd
      (.var 20) (.lit 2) 24)],
    .st 24 (.padd (.var 5) (.bin (.add .u32) (.var 19) (.lit 0)) 24) (.var 29),
    .call (some 30) Id.bf192_add [.ld 24 (.padd (.var 5) (.bin (.add .u32) (.var 19) (.lit 0)) 24), .ld 24 (.padd
      (.var 20) (.lit 3) 24)],
    .st 24 (.padd (.var 5) (.bin (.add .u32) (.var 19) (.lit 0)) 24) (.var 30),
    .call (some 31) Id.bf192_add [.ld 24 (.padd (.var 21) (.lit 1) 24), .ld 24 (.var 20)],
    .st 24 (.padd (.var 5) (.bin (.add .u32) (.var 19) (.lit 1)) 24) (.var 31),
    .call (some 32) Id.bf192_mul [.ld 24 (.padd (.var 20) (.lit 1) 24), .var 11],
    .call (some 33) Id.bf192_add [.ld 24 (.padd (.var 5) (.bin (.add .u32) (.var 19) (.lit 1)) 24), .var 32],
    .st 24 (.padd (.var 5) (.bin (.add .u32) (.var 19) (.lit 1)) 24) (.var 33),
    .call (some 34) Id.bf192_mul [.ld 24 (.padd (.var 20) (.lit 2) 24), .var 13],
    .call (some 35) Id.bf192_add [.ld 24 (.padd (.var 5) (.bin (.add .u32) (.var 19) (.lit 1)) 24), .var 34],
    .st 24 (.padd (.var 5) (.bin (.add .u32) (.var 19) (.lit 1)) 24) (.var 35),
    .call (some 36) Id.bf192_add [.ld 24 (.padd (.var 5) (.bin (.add .u32) (.var 19) (.lit 1)) 24), .ld 24 (.padd
      (.var 20) (.lit 3) 24)],
    .st 24 (.padd (.var 5) (.bin (.add .u32) (.var 19) (.lit 1)) 24) (.var 36),
    .call (some 37) Id.bf192_add [.ld 24 (.padd (.var 21) (.lit 2) 24), .ld 24 (.var 20)],
    .st 24 (.padd (.var 5) (.bin (.add .u32) (.var 19) (.lit 2)) 24) (.var 37),
    .call (some 38) Id.bf192_add [.ld 24 (.padd (.var 5) (.bin (.add .u32) (.var 19) (.lit 2)) 24), .ld 24 (.padd
      (.var 20) (.lit 1) 24)],
    .st 24 (.padd (.var 5) (.bin (.add .u32) (.var 19) (.lit 2)) 24) (.var 38),
    .call (some 39) Id.bf192_mul [.ld 24 (.padd (.var 20) (.lit 2) 24), .var 11],
    .call (some 40) Id.bf192_add [.ld 24 (.padd (.var 5) (.bin (.add .u32) (.var 19) (.lit 2)) 24), .var 39],
    .st 24 (.padd (.var 5) (.bin (.add .u32) (.var 19) (.lit 2)) 24) (.var 40),
    .call (some 41) Id.bf192_mul [.ld 24 (.padd (.var 20) (.lit 3) 24), .var 13],
    .call (some 42) Id.bf192_add [.ld 24 (.padd (.var 5) (.bin (.add .u32) (.var 19) (.lit 2)) 24), .var 41],
    .st 24 (.padd (.var 5) (.bin (.add .u32) (.var 19) (.lit 2)) 24) (.var 42),
    .call (some 43) Id.bf192_mul [.ld 24 (.var 20), .var 13],
    .call (some 44) Id.bf192_add [.ld 24 (.padd (.var 21) (.lit 3) 24), .var 43],
    .st 24 (.padd (.var 5) (.bin (.add .u32) (.var 19) (.lit 3)) 24) (.var 44)]

/-- part of `aes_enc_forward_192_1` -/
def aes_enc_forward_192_1.part1 : Stmt :=
  block [
    .call (some 45) Id.bf192_add [.ld 24 (.padd (.var 5) (.bin (.add .u32) (.var 19) (.lit 3)) 24), .ld 24 (.padd
      (.var 20) (.lit 1) 24)],
    .st 24 (.padd (.var 5) (.bin (.add .u32) (.var 19) (.lit 3)) 24) (.var 45),
    .call (some 46) Id.bf192_add [.ld 24 (.padd (.var 5) (.bin (.add .u32) (.var 19) (.lit 3)) 24), .ld 24 (.padd
      (.var 20) (.lit 2) 24)],
    .st 24 (.padd (.var 5) (.bin (.add .u32) (.var 19) (.lit 3)) 24) (.var 46),
    .call (some 47) Id.bf192_mul [.ld 24 (.padd (.var 20) (.lit 3) 24), .var 11],
    .call (some 48) Id.bf192_add [.ld 24 (.padd (.var 5) (.bin (.add .u32) (.var 19) (.lit 3)) 24), .var 47],
    .st 24 (.padd (.var 5) (.bin (.add .u32) (.var 19) (.lit 3)) 24) (.var 48)]

/-- `aes_enc_forward_192_1`, faest_aes.c:842-895; variables: 0 x, 1 xk, 2 in, 3 Mtag, 4 Mkey, 5 bf_y, 6 i, 7 xin, 11
  bf_two, 13 bf_three, 15 j, 16 c, 17 ix, 18 ik, 19 iy, 20 bf_x_hat, 21 bf_xk_hat, 22 r -/
def aes_enc_forward_192_1 : Fn := ⟨6,
  block [
    .asg 6 (.lit 0),
    .loop (.bin .lt (.var 6) (.lit 16))
      (block [
        .asg 7 (.un (.cast .u8) (.bin (.band .i32) (.ld 1 (.padd (.var 2) (.var 6) 1)) (.un (.neg .i32) (.bin (.band
          .i32) (.bin (.bxor .i32) (.lit 1) (.var 3)) (.bin (.bxor .i32) (.lit 1) (.var 4)))))),
        .call (some 8) Id.bf192_byte_combine_bits [.var 7],
        .call (some 9) Id.bf192_byte_combine_bits [.ld 1 (.padd (.var 1) (.var 6) 1)],
        .call (some 10) Id.bf192_add [.var 8, .var 9],
        .st 24 (.padd (.var 5) (.var 6) 24) (.var 10)])
      (.asg 6 (.bin (.add .u32) (.var 6) (.lit 1))),
    .call (some 12) Id.bf192_byte_combine_bits [.lit 2],
    .asg 11 (.var 12),
    .call (some 14) Id.bf192_byte_combine_bits [.lit 3],
    .asg 13 (.var 14),
    .asg 15 (.lit 1),
    .loop (.bin .lt (.var 15) (.lit 12))
      (block [
        .asg 16 (.lit 0),
        .loop (.bin .le (.var 16) (.lit 3))
          (block [
            aes_enc_forward_192_1.part0,
            aes_enc_forward_192_1.part1])
          (.asg 16 (.bin (.add .u32) (.var 16) (.lit 1)))])
      (.asg 15 (.bin (.add .u32) (.var 15) (.lit 1))),
    .ret (.lit 0)]⟩

/-- part of `aes_enc_forward_192` -/
def aes_enc_forward_192.part0 : Stmt :=
  block [
    .asg 28 (.bin (.add .u32) (.bin (.mul .u32) (.lit 128) (.bin (.sub .u32) (.var 26) (.lit 1))) (.bin (.mul .u32)
      (.lit 32) (.var 27))),
    .asg 29 (.bin (.add .u32) (.bin (.mul .u32) (.lit 128) (.var 26)) (.bin (.mul .u32) (.lit 32) (.var 27))),
    .asg 30 (.bin (.add .u32) (.bin (.mul .u32) (.lit 16) (.var 26)) (.bin (.mul .u32) (.lit 4) (.var 27))),
    .new 31 (.lit 96),
    .new 32 (.lit 96),
    .asg 33 (.lit 0),
    .loop (.bin .le (.var 33) (.lit 3))
      (block [
        .call (some 34) Id.bf192_byte_combine [.padd (.var 0) (.bin (.add .u32) (.var 28) (.bin (.mul .u32) (.lit 8)
          (.var 33))) 24],
        .st 24 (.padd (.var 31) (.var 33) 24) (.var 34),
        .call (some 35) Id.bf192_byte_combine [.padd (.var 1) (.bin (.add .u32) (.var 29) (.bin (.mul .u32) (.lit 8)
          (.var 33))) 24],
        .st 24 (.padd (.var 32) (.var 33) 24) (.var 35)])
      (.asg 33 (.bin (.add .u32) (.var 33) (.lit 1))),
    .call (some 36) Id.bf192_mul [.ld 24 (.var 31), .var 22],
    .call (some 37) Id.bf192_add [.ld 24 (.var 32), .var 36],
    .st 24 (.padd (.var 6) (.bin (.add .u32) (.var 30) (.lit 0)) 24) (.var 37),
    .call (some 38) Id.bf192_mul [.ld 24 (.padd (.var 31) (.lit 1) 24), .var 24],
    .call (some 39) Id.bf192_add [.ld 24 (.padd (.var 6) (.bin (.add .u32) (.var 30) (.lit 0)) 24), .var 38],
    .st 24 (.padd (.var 6) (.bin (.add .u32) (.var 30) (.lit 0)) 24) (.var 39),
    .call (some 40) Id.bf192_add [.ld 24 (.padd (.var 6) (.bin (.add .u32) (.var 30) (.lit 0)) 24), .ld 24 (.padd
      (.var 31) (.lit 2) 24)],
    .st 24 (.padd (.var 6) (.bin (.add .u32) (.var 30) (.lit 0)) 24) (.var 40),
    .call (some 41) Id.bf192_add [.ld 24 (.padd (.var 6) (.bin (.add .u32) (.var 30) (.lit 0)) 24), .ld 24 (.padd
      (.var 31) (.lit 3) 24)],
    .st 24 (.padd (.var 6) (.bin (.add .u32) (.var 30) (.lit 0)) 24) (.var 41),
    .call (some 42) Id.bf192_add [.ld 24 (.padd (.var 32) (.lit 1) 24), .ld 24 (.var 31)],
    .st 24 (.padd (.var 6) (.bin (.add .u32) (.var 30) (.lit 1)) 24) (.var 42),
    .call (some 43) Id.bf192_mul [.ld 24 (.padd (.var 31) (.lit 1) 24), .var 22],
    .call (some 44) Id.bf192_add [.ld 24 (.padd (.var 6) (.bin (.add .u32) (.var 30) (.lit 1)) 24), .var 43],
    .st 24 (.padd (.var 6) (.bin (.add .u32) (.var 30) (.lit 1)) 24) (.var 44),
    .call (some 45) Id.bf192_mul [.ld 24 (.padd (.var 31) (.lit 2) 24), .var 24],
    .call (some 46) Id.bf192_add [.ld 24 (.padd (.var 6) (.bin (.add .u32) (.var 30) (.lit 1)) 24), .var 45],
    .st 24 (.padd (.var 6) (.bin (.add .u32) (.var 30) (.lit 1)) 24) (.var 46),
    .call (some 47) Id.bf192_add [.ld 24 (.padd (.var 6) (.bin (.add .u32) (.var 30) (.lit 1)) 24), .ld 24 (.padd
      (.var 31) (.lit 3) 24)],
    .st 24 (.padd (.var 6) (.bin (.add .u32) (.var 30) (.lit 1)) 24) (.var 47),
    .call (some 48) Id.bf192_add [.ld 24 (.padd (.var 32) (.lit 2) 24), .ld 24 (.var 31)],
    .st 24 (.padd (.var 6) (.bin (.add .u32) (.var 30) (.lit 2)) 24) (.var 48),
    .call (some 49) Id.bf192_add [.ld 24 (.padd (.var 6) (.bin (.add .u32) (.var 30) (.lit 2)) 24), .ld 24 (.padd
      (.var 31) (.lit 1) 24)],
    .st 24 (.padd (.var 6) (.bin (.add .u32) (.var 30) (.lit 2)) 24) (.var 49),
    .call (some 50) Id.bf192_mul [.ld 24 (.padd (.var 31) (.lit 2) 24), .var 22],
    .call (some 51) Id.bf192_add [.ld 24 (.padd (.var 6) (.bin (.add .u32) (.var 30) (.lit 2)) 24), .var 50],
    .st 24 (.padd (.var 6) (.bin (.add .u32) (.var 30) (.lit 2)) 24) (.var 51),
    .call (some 52) Id.bf192_mul [.ld 24 (.padd (.var 31) (.lit 3) 24), .var 24],
    .call (some 53) Id.bf192_add [.ld 24 (.padd (.var 6) (.bin (.add .u32) (.var 30) (.lit 2)) 24), .var 52],
    .st 24 (.padd (.var 6) (.bin (.add .u32) (.var 30) (.lit 2)) 24) (.var 53),
    .call (some 54) Id.bf192_mul [.ld 24 (.var 31), .var 24],
    .call (some 55) Id.bf192_add [.ld 24 (.padd (.var 32) (.lit 3) 24), .var 54],
    .st 24 (.padd (.var 6) (.bin (.add .u32) (.var 30) (.lit 3)) 24) (.var 55)]

/-- part of `aes_enc_forward_192` -/
def aes_enc_forward_192.part1 : Stmt :=
  block [
    .call (some 56) Id.bf192_add [.ld 24 (.padd (.var 6) (.bin (.add .u32) (.var 30) (.lit 3)) 24), .ld 24 (.padd
      (.var 31) (.lit 1) 24)],
    .st 24 (.padd (.var 6) (.bin (.add .u32) (.var 30) (.lit 3)) 24) (.var 56),
    .call (some 57) Id.bf192_add [.ld 24 (.padd (.var 6) (.bin (.add .u32) (.var 30) (.lit 3)) 24), .ld 24 (.padd
      (.var 31) (.lit 2) 24)],
    .st 24 (.padd (.var 6) (.bin (.add .u32) (.var 30) (.lit 3)) 24) (.var 57),
    .call (some 58) Id.bf192_mul [.ld 24 (.padd (.var 31) (.lit 3) 24), .var 22],
    .call (some 59) Id.bf192_add [.ld 24 (.padd (.var 6) (.bin (.add .u32) (.var 30) (.lit 3)) 24), .var 58],
    .st 24 (.padd (.var 6) (.bin (.add .u32) (.var 30) (.lit 3)) 24) (.var 59)]

/-- `aes_enc_forward_192`, faest_aes.c:897-954; variables: 0 bf_x, 1 bf_xk, 2 in, 3 Mtag, 4 Mkey, 5 delta, 6 bf_y, 7
  bf_delta, 11 bf_factor, 15 i, 16 bf_xin, 17 j, 22 bf_two, 24 bf_three, 26 j, 27 c, 28 ix, 29 ik, 30 iy, 31
  bf_x_hat, 32 bf_xk_hat, 33 r -/
def aes_enc_forward_192 : Fn := ⟨7,
  block [
    .ite (.var 5)
      (block [
        .call (some 9) Id.bf192_load [.var 5],
        .asg 8 (.var 9)])
      (block [
        .call (some 10) Id.bf192_zero [],
        .asg 8 (.var 10)]),
    .asg 7 (.var 8),
    .call (some 12) Id.bf192_mul_bit [.var 7, .var 4],
    .call (some 13) Id.bf192_from_bit [.un (.cast .u8) (.bin (.bxor .i32) (.lit 1) (.var 4))],
    .call (some 14) Id.bf192_add [.var 12, .var 13],
    .asg 11 (.var 14),
    .asg 15 (.lit 0),
    .loop (.bin .lt (.var 15) (.lit 16))
      (block [
        .new 16 (.lit 192),
        .asg 17 (.lit 0),
        .loop (.bin .lt (.var 17) (.lit 8))
          (block [
            .call (some 18) Id.bf192_mul_bit [.var 11, .un (.cast .u8) (.bin (.band .i32) (.bin (.bxor .i32) (.lit 1)
              (.var 3)) (.bin (.band .i32) (.bin (.shr .i32) (.ld 1 (.padd (.var 2) (.var 15) 1)) (.var 17)) (.lit
              1)))],
            .st 24 (.padd (.var 16) (.var 17) 24) (.var 18)])
          (.asg 17 (.bin (.add .u32) (.var 17) (.lit 1))),
        .call (some 19) Id.bf192_byte_combine [.var 16],
        .call (some 20) Id.bf192_byte_combine [.padd (.var 1) (.bin (.mul .u32) (.lit 8) (.var 15)) 24],
        .call (some 21) Id.bf192_add [.var 19, .var 20],
        .st 24 (.padd (.var 6) (.var 15) 24) (.var 21)])
      (.asg 15 (.bin (.add .u32) (.var 15) (.lit 1))),
    .call (some 23) Id.bf192_byte_combine_bits [.lit 2],
    .asg 22 (.var 23),
    .call (some 25) Id.bf192_byte_combine_bits [.lit 3],
    .asg 24 (.var 25),
    .asg 26 (.lit 1),
    .loop (.bin .lt (.var 26) (.lit 12))
      (block [
        .asg 27 (.lit 0),
        .loop (.bin .le (.var 27) (.lit 3))
          (block [
            aes_enc_forward_192.part0,
            aes_enc_forward_192.part1])
          (.asg 27 (.bin (.add .u32) (.var 27) (.lit 1)))])
      (.asg 26 (.bin (.add .u32) (.var 26) (.lit 1)))]⟩

/-- `aes_enc_backward_192_1`, faest_aes.c:956-985; variables: 0 x, 1 xk, 2 Mtag, 3 Mkey, 4 out, 5 y_out, 6 xtilde, 7
  j, 8 c, 9 r, 10 ird, 11 xout, 12 ytilde -/
def aes_enc_backward_192_1 : Fn := ⟨6,
  block [
    .asg 7 (.lit 0),
    .loop (.bin .lt (.var 7) (.lit 12))
      (block [
        .asg 8 (.lit 0),
        .loop (.bin .le (.var 8) (.lit 3))
          (block [
            .asg 9 (.lit 0),
            .loop (.bin .le (.var 9) (.lit 3))
              (block [
                .asg 10 (.bin (.add .u32) (.bin (.add .u32) (.bin (.mul .u32) (.lit 128) (.var 7)) (.bin (.mul .u32)
                  (.lit 32) (.div (.mod .u32) (.bin (.add .u32) (.bin (.sub .u32) (.var 8) (.var 9)) (.lit 4)) (.lit
                  4)))) (.bin (.mul .u32) (.lit 8) (.var 9))),
                .ite (.bin .lt (.var 7) (.lit 11))
                  (.asg 6 (.ld 1 (.padd (.var 0) (.div (.div .u32) (.var 10) (.lit 8)) 1)))
                  (block [
                    .asg 11 (.un (.cast .u8) (.bin (.band .i32) (.ld 1 (.padd (.var 4) (.div (.div .u32) (.bin (.sub
                      .u32) (.var 10) (.lit 1408)) (.lit 8)) 1)) (.un (.neg .i32) (.bin (.band .i32) (.bin (.bxor
                      .i32) (.lit 1) (.var 2)) (.bin (.bxor .i32) (.lit 1) (.var 3)))))),
                    .asg 6 (.un (.cast .u8) (.bin (.bxor .i32) (.var 11) (.ld 1 (.padd (.var 1) (.div (.div .u32)
                      (.bin (.add .u32) (.lit 128) (.var 10)) (.lit 8)) 1))))]),
                .call (some 13) Id.rotr8 [.var 6, .lit 7],
                .call (some 14) Id.rotr8 [.var 6, .lit 5],
                .call (some 15) Id.rotr8 [.var 6, .lit 2],
                .asg 12 (.un (.cast .u8) (.bin (.bxor .i32) (.bin (.bxor .i32) (.var 13) (.var 14)) (.var 15))),
                .asg 12 (.un (.cast .u8) (.bin (.bxor .i32) (.var 12) (.bin (.shl .i32) (.bin (.band .i32) (.bin
                  (.bxor .i32) (.lit 1) (.var 2)) (.bin (.bxor .i32) (.lit 1) (.var 3))) (.lit 0)))),
                .asg 12 (.un (.cast .u8) (.bin (.bxor .i32) (.var 12) (.bin (.shl .i32) (.bin (.band .i32) (.bin
                  (.bxor .i32) (.lit 1) (.var 2)) (.bin (.bxor .i32) (.lit 1) (.var 3))) (.lit 2)))),
                .call (some 16) Id.bf192_byte_combine_bits [.var 12],
                .st 24 (.padd (.var 5) (.bin (.add .u32) (.bin (.add .u32) (.bin (.mul .u32) (.lit 16) (.var 7))
                  (.bin (.mul .u32) (.lit 4) (.var 8))) (.var 9)) 24) (.var 16)])
              (.asg 9 (.bin (.add .u32) (.var 9) (.lit 1)))])
          (.asg 8 (.bin (.add .u32) (.var 8) (.lit 1)))])
      (.asg 7 (.bin (.add .u32) (.var 7) (.lit 1))),
    .ret (.lit 0)]⟩

/-- `aes_enc_backward_192`, faest_aes.c:987-1030; variables: 0 bf_x, 1 bf_xk, 2 Mtag, 3 Mkey, 4 delta, 5 out, 6
  y_out, 7 bf_delta, 11 factor, 16 j, 17 c, 18 r, 19 bf_x_tilde, 20 ird, 22 i, 23 bf_xout, 26 bf_y_tilde, 27 i -/
def aes_enc_backward_192 : Fn := ⟨7,
  block [
    .ite (.var 4)
      (block [
        .call (some 9) Id.bf192_load [.var 4],
        .asg 8 (.var 9)])
      (block [
        .call (some 10) Id.bf192_zero [],
        .asg 8 (.var 10)]),
    .asg 7 (.var 8),
    .call (some 12) Id.bf192_mul_bit [.var 7, .var 3],
    .call (some 13) Id.bf192_from_bit [.un (.cast .u8) (.bin (.bxor .i32) (.lit 1) (.var 3))],
    .call (some 14) Id.bf192_add [.var 12, .var 13],
    .call (some 15) Id.bf192_mul_bit [.var 14, .un (.cast .u8) (.bin (.bxor .i32) (.lit 1) (.var 2))],
    .asg 11 (.var 15),
    .asg 16 (.lit 0),
    .loop (.bin .lt (.var 16) (.lit 12))
      (block [
        .asg 17 (.lit 0),
        .loop (.bin .le (.var 17) (.lit 3))
          (block [
            .asg 18 (.lit 0),
            .loop (.bin .le (.var 18) (.lit 3))
              (block [
                .new 19 (.lit 192),
                .asg 20 (.bin (.add .u32) (.bin (.add .u32) (.bin (.mul .u32) (.lit 128) (.var 16)) (.bin (.mul .u32)
                  (.lit 32) (.div (.mod .u32) (.bin (.add .u32) (.bin (.sub .u32) (.var 17) (.var 18)) (.lit 4))
                  (.lit 4)))) (.bin (.mul .u32) (.lit 8) (.var 18))),
                .ite (.bin .lt (.var 16) (.lit 11))
                  (.call (some 21) Id.memcpy [.var 19, .padd (.var 0) (.var 20) 24, .lit 192])
                  (block [
                    .asg 22 (.lit 0),
                    .loop (.bin .lt (.var 22) (.lit 8))
                      (block [
                        .call (some 24) Id.bf192_mul_bit [.var 11, .un (.cast .u8) (.bin (.band .i32) (.bin (.shr
                          .i32) (.ld 1 (.padd (.var 5) (.div (.div .u32) (.bin (.sub .u32) (.var 20) (.lit 1408))
                          (.lit 8)) 1)) (.var 22)) (.lit 1))],
                        .asg 23 (.var 24),
                        .call (some 25) Id.bf192_add [.var 23, .ld 24 (.padd (.var 1) (.bin (.add .u32) (.bin (.add
                          .u32) (.lit 128) (.var 20)) (.var 22)) 24)],
                        .st 24 (.padd (.var 19) (.var 22) 24) (.var 25)])
                      (.asg 22 (.bin (.add .u32) (.var 22) (.lit 1)))]),
                .new 26 (.lit 192),
                .asg 27 (.lit 0),
                .loop (.bin .lt (.var 27) (.lit 8))
                  (block [
                    .call (some 28) Id.bf192_add [.ld 24 (.padd (.var 19) (.div (.mod .u32) (.bin (.add .u32) (.var
                      27) (.lit 7)) (.lit 8)) 24), .ld 24 (.padd (.var 19) (.div (.mod .u32) (.bin (.add .u32) (.var
                      27) (.lit 5)) (.lit 8)) 24)],
                    .call (some 29) Id.bf192_add [.var 28, .ld 24 (.padd (.var 19) (.div (.mod .u32) (.bin (.add
                      .u32) (.var 27) (.lit 2)) (.lit 8)) 24)],
                    .st 24 (.padd (.var 26) (.var 27) 24) (.var 29)])
                  (.asg 27 (.bin (.add .u32) (.var 27) (.lit 1))),
                .call (some 30) Id.bf192_add [.ld 24 (.var 26), .var 11],
                .st 24 (.var 26) (.var 30),
                .call (some 31) Id.bf192_add [.ld 24 (.padd (.var 26) (.lit 2) 24), .var 11],
                .st 24 (.padd (.var 26) (.lit 2) 24) (.var 31),
                .call (some 32) Id.bf192_byte_combine [.var 26],
                .st 24 (.padd (.var 6) (.bin (.add .u32) (.bin (.add .u32) (.bin (.mul .u32) (.lit 16) (.var 16))
                  (.bin (.mul .u32) (.lit 4) (.var 17))) (.var 18)) 24) (.var 32)])
              (.asg 18 (.bin (.add .u32) (.var 18) (.lit 1)))])
          (.asg 17 (.bin (.add .u32) (.var 17) (.lit 1)))])
      (.asg 16 (.bin (.add .u32) (.var 16) (.lit 1)))]⟩

/-- `aes_enc_constraints_Mkey_0_192`, faest_aes.c:1032-1053; variables: 0 in, 1 out, 2 w, 3 v, 4 k, 5 vk, 6 a0_ctx, 7
  a1_ctx, 8 s, 9 vs, 10 s_dash, 11 vs_dash, 12 j, 13 tmp -/
def aes_enc_constraints_Mkey_0_192 : Fn := ⟨8,
  block [
    .new 8 (.lit 4608),
    .new 9 (.lit 4608),
    .new 10 (.lit 4608),
    .new 11 (.lit 4608),
    .call none Id.aes_enc_forward_192_1 [.var 2, .var 4, .var 0, .lit 0, .lit 0, .var 8],
    .call none Id.aes_enc_forward_192 [.var 3, .var 5, .var 0, .lit 1, .lit 0, .lit 0, .var 9],
    .call none Id.aes_enc_backward_192_1 [.var 2, .var 4, .lit 0, .lit 0, .var 1, .var 10],
    .call none Id.aes_enc_backward_192 [.var 3, .var 5, .lit 1, .lit 0, .lit 0, .var 1, .var 11],
    .asg 12 (.lit 0),
    .loop (.bin .lt (.var 12) (.lit 192))
      (block [
        .call (some 14) Id.bf192_mul [.ld 24 (.padd (.var 9) (.var 12) 24), .ld 24 (.padd (.var 11) (.var 12) 24)],
        .asg 13 (.var 14),
        .call none Id.zk_hash_192_update [.var 6, .var 13],
        .call (some 15) Id.bf192_add [.ld 24 (.padd (.var 8) (.var 12) 24), .ld 24 (.padd (.var 9) (.var 12) 24)],
        .call (some 16) Id.bf192_add [.ld 24 (.padd (.var 10) (.var 12) 24), .ld 24 (.padd (.var 11) (.var 12) 24)],
        .call (some 17) Id.bf192_mul [.var 15, .var 16],
        .call (some 18) Id.bf192_add [.var 17, .var 13],
        .call (some 19) Id.bf192_one [],
        .call (some 20) Id.bf192_add [.var 18, .var 19],
        .call none Id.zk_hash_192_update [.var 7, .var 20]])
      (.asg 12 (.bin (.add .u32) (.var 12) (.lit 1)))]⟩

/-- `aes_prove_192`, faest_aes.c:1072-1108; variables: 0 w, 1 u, 2 V, 3 in, 4 out, 5 chall, 6 a_tilde, 7 b_tilde, 8
  params, 9 bf_v, 11 k, 13 vk, 15 a0_ctx, 16 a1_ctx -/
def aes_prove_192 : Fn := ⟨9,
  block [
    .call (some 10) Id.column_to_row_major_and_shrink_V_192 [.var 2, .lit 3264],
    .asg 9 (.var 10),
    .new 12 (.lit 208),
    .asg 11 (.var 12),
    .new 14 (.lit 39936),
    .asg 13 (.var 14),
    .new 15 (.lit 88),
    .new 16 (.lit 88),
    .call none Id.zk_hash_192_init [.var 15, .var 5],
    .call none Id.zk_hash_192_init [.var 16, .var 5],
    .call none Id.aes_key_schedule_constraints_Mkey_0_192 [.var 0, .var 9, .var 15, .var 16, .var 11, .var 13, .var
      8],
    .call none Id.aes_enc_constraints_Mkey_0_192 [.var 3, .var 4, .padd (.var 0) (.lit 56) 1, .padd (.var 9) (.lit
      448) 24, .var 11, .var 13, .var 15, .var 16],
    .call none Id.aes_enc_constraints_Mkey_0_192 [.padd (.var 3) (.lit 16) 1, .padd (.var 4) (.lit 16) 1, .padd (.var
      0) (.lit 232) 1, .padd (.padd (.var 9) (.lit 448) 24) (.lit 1408) 24, .var 11, .var 13, .var 15, .var 16],
    .free (.var 13),
    .free (.var 11),
    .call (some 17) Id.bf192_load [.padd (.var 1) (.lit 408) 1],
    .call none Id.zk_hash_192_finalize [.var 6, .var 16, .var 17],
    .call (some 18) Id.bf192_sum_poly [.padd (.var 9) (.lit 3264) 24],
    .call none Id.zk_hash_192_finalize [.var 7, .var 15, .var 18],
    .free (.var 9)]⟩

/-- part of `em_enc_forward_192_1` -/
def em_enc_forward_192_1.part0 : Stmt :=
  block [
    .asg 13 (.bin (.add .u32) (.bin (.mul .u32) (.lit 192) (.var 11)) (.bin (.mul .u32) (.lit 32) (.var 12))),
    .asg 14 (.bin (.add .u32) (.bin (.mul .u32) (.lit 24) (.var 11)) (.bin (.mul .u32) (.lit 4) (.var 12))),
    .new 15 (.lit 96),
    .new 16 (.lit 96),
    .asg 17 (.lit 0),
    .loop (.bin .le (.var 17) (.lit 3))
      (block [
        .call (some 18) Id.bf192_byte_combine_bits [.ld 1 (.padd (.var 0) (.div (.div .u32) (.bin (.add .u32) (.var
          13) (.bin (.mul .u32) (.lit 8) (.var 17))) (.lit 8)) 1)],
        .st 24 (.padd (.var 16) (.var 17) 24) (.var 18),
        .call (some 19) Id.bf192_byte_combine_bits [.ld 1 (.padd (.var 1) (.div (.div .u32) (.bin (.add .u32) (.var
          13) (.bin (.mul .u32) (.lit 8) (.var 17))) (.lit 8)) 1)],
        .st 24 (.padd (.var 15) (.var 17) 24) (.var 19)])
      (.asg 17 (.bin (.add .u32) (.var 17) (.lit 1))),
    .call (some 20) Id.bf192_mul [.ld 24 (.var 16), .var 7],
    .call (some 21) Id.bf192_mul [.ld 24 (.padd (.var 16) (.lit 1) 24), .var 9],
    .call (some 22) Id.bf192_add [.var 20, .var 21],
    .st 24 (.padd (.var 2) (.bin (.add .u32) (.var 14) (.lit 0)) 24) (.var 22),
    .call (some 23) Id.bf192_add [.ld 24 (.padd (.var 2) (.bin (.add .u32) (.var 14) (.lit 0)) 24), .ld 24 (.padd
      (.var 16) (.lit 2) 24)],
    .st 24 (.padd (.var 2) (.bin (.add .u32) (.var 14) (.lit 0)) 24) (.var 23),
    .call (some 24) Id.bf192_add [.ld 24 (.padd (.var 2) (.bin (.add .u32) (.var 14) (.lit 0)) 24), .ld 24 (.padd
      (.var 16) (.lit 3) 24)],
    .st 24 (.padd (.var 2) (.bin (.add .u32) (.var 14) (.lit 0)) 24) (.var 24),
    .call (some 25) Id.bf192_add [.ld 24 (.padd (.var 2) (.bin (.add .u32) (.var 14) (.lit 0)) 24), .ld 24 (.var 15)],
    .st 24 (.padd (.var 2) (.bin (.add .u32) (.var 14) (.lit 0)) 24) (.var 25),
    .call (some 26) Id.bf192_mul [.ld 24 (.padd (.var 16) (.lit 1) 24), .var 7],
    .call (some 27) Id.bf192_add [.ld 24 (.var 16), .var 26],
    .st 24 (.padd (.var 2) (.bin (.add .u32) (.var 14) (.lit 1)) 24) (.var 27),
    .call (some 28) Id.bf192_mul [.ld 24 (.padd (.var 16) (.lit 2) 24), .var 9],
    .call (some 29) Id.bf192_add [.ld 24 (.padd (.var 2) (.bin (.add .u32) (.var 14) (.lit 1)) 24), .var 28],
    .st 24 (.padd (.var 2) (.bin (.add .u32) (.var 14) (.lit 1)) 24) (.var 29),
    .call (some 30) Id.bf192_add [.ld 24 (.padd (.var 2) (.bin (.add .u32) (.var 14) (.lit 1)) 24), .ld 24 (.padd
      (.var 16) (.lit 3) 24)],
    .st 24 (.padd (.var 2) (.bin (.add .u32) (.var 14) (.lit 1)) 24) (.var 30),
    .call (some 31) Id.bf192_add [.ld 24 (.padd (.var 2) (.bin (.add .u32) (.var 14) (.lit 1)) 24), .ld 24 (.padd
      (.var 15) (.lit 1) 24)],
    .st 24 (.padd (.var 2) (.bin (.add .u32) (.var 14) (.lit 1)) 24) (.var 31),
    .call (some 32) Id.bf192_add [.ld 24 (.var 16), .ld 24 (.padd (.var 16) (.lit 1) 24)],
    .st 24 (.padd (.var 2) (.bin (.add .u32) (.var 14) (.lit 2)) 24) (.var 32),
    .call (some 33) Id.bf192_mul [.ld 24 (.padd (.var 16) (.lit 2) 24), .var 7],
    .call (some 34) Id.bf192_add [.ld 24 (.padd (.var 2) (.bin (.add .u32) (.var 14) (.lit 2)) 24), .var 33],
    .st 24 (.padd (.var 2) (.bin (.add .u32) (.var 14) (.lit 2)) 24) (.var 34),
    .call (some 35) Id.bf192_mul [.ld 24 (.padd (.var 16) (.lit 3) 24), .var 9],
    .call (some 36) Id.bf192_add [.ld 24 (.padd (.var 2) (.bin (.add .u32) (.var 14) (.lit 2)) 24), .var 35],
    .st 24 (.padd (.var 2) (.bin (.add .u32) (.var 14) (.lit 2)) 24) (.var 36),
    .call (some 37) Id.bf192_add [.ld 24 (.padd (.var 2) (.bin (.add .u32) (.var 14) (.lit 2)) 24), .ld 24 (.padd
      (.var 15) (.lit 2) 24)],
    .st 24 (.padd (.var 2) (.bin (.add .u32) (.var 14) (.lit 2)) 24) (.var 37),
    .call (some 38) Id.bf192_mul [.ld 24 (.var 16), .var 9],
    .call (some 39) Id.bf192_add [.var 38, .ld 24 (.padd (.var 16) (.lit 1) 24)],
    .st 24 (.padd (.var 2) (.bin (.add .u32) (.var 14) (.lit 3)) 24) (.var 39),
    .call (some 40) Id.bf192_add [.ld 24 (.padd (.var 2) (.bin (.add .u32) (.var 14) (.lit 3)) 24), .ld 24 (.padd
      (.var 16) (.lit 2) 24)]]

/-- part of `em_enc_forward_192_1` -/
def em_enc_forward_192_1.part1 : Stmt :=
  block [
    .st 24 (.padd (.var 2) (.bin (.add .u32) (.var 14) (.lit 3)) 24) (.var 40),
    .call (some 41) Id.bf192_mul [.ld 24 (.padd (.var 16) (.lit 3) 24), .var 7],
    .call (some 42) Id.bf192_add [.ld 24 (.padd (.var 2) (.bin (.add .u32) (.var 14) (.lit 3)) 24), .var 41],
    .st 24 (.padd (.var 2) (.bin (.add .u32) (.var 14) (.lit 3)) 24) (.var 42),
    .call (some 43) Id.bf192_add [.ld 24 (.padd (.var 2) (.bin (.add .u32) (.var 14) (.lit 3)) 24), .ld 24 (.padd
      (.var 15) (.lit 3) 24)],
    .st 24 (.padd (.var 2) (.bin (.add .u32) (.var 14) (.lit 3)) 24) (.var 43)]

/-- `em_enc_forward_192_1`, faest_aes.c:1966-2009; variables: 0 z, 1 x, 2 bf_y, 3 j, 7 bf_two, 9 bf_three, 11 j, 12
  c, 13 i, 14 iy, 15 bf_x_hat, 16 bf_z_hat, 17 r -/
def em_enc_forward_192_1 : Fn := ⟨3,
  block [
    .asg 3 (.lit 0),
    .loop (.bin .lt (.var 3) (.lit 24))
      (block [
        .call (some 4) Id.bf192_byte_combine_bits [.ld 1 (.padd (.var 0) (.var 3) 1)],
        .call (some 5) Id.bf192_byte_combine_bits [.ld 1 (.padd (.var 1) (.var 3) 1)],
        .call (some 6) Id.bf192_add [.var 4, .var 5],
        .st 24 (.padd (.var 2) (.var 3) 24) (.var 6)])
      (.asg 3 (.bin (.add .u32) (.var 3) (.lit 1))),
    .call (some 8) Id.bf192_byte_combine_bits [.lit 2],
    .asg 7 (.var 8),
    .call (some 10) Id.bf192_byte_combine_bits [.lit 3],
    .asg 9 (.var 10),
    .asg 11 (.lit 1),
    .loop (.bin .lt (.var 11) (.lit 12))
      (block [
        .asg 12 (.lit 0),
        .loop (.bin .lt (.var 12) (.lit 6))
          (block [
            em_enc_forward_192_1.part0,
            em_enc_forward_192_1.part1])
          (.asg 12 (.bin (.add .u32) (.var 12) (.lit 1)))])
      (.asg 11 (.bin (.add .u32) (.var 11) (.lit 1)))]⟩

/-- part of `em_enc_forward_192` -/
def em_enc_forward_192.part0 : Stmt :=
  block [
    .asg 13 (.bin (.add .u32) (.bin (.mul .u32) (.lit 192) (.var 11)) (.bin (.mul .u32) (.lit 32) (.var 12))),
    .asg 14 (.bin (.add .u32) (.bin (.mul .u32) (.lit 24) (.var 11)) (.bin (.mul .u32) (.lit 4) (.var 12))),
    .new 15 (.lit 96),
    .new 16 (.lit 96),
    .asg 17 (.lit 0),
    .loop (.bin .le (.var 17) (.lit 3))
      (block [
        .call (some 18) Id.bf192_byte_combine [.padd (.var 0) (.bin (.add .u32) (.var 13) (.bin (.mul .u32) (.lit 8)
          (.var 17))) 24],
        .st 24 (.padd (.var 16) (.var 17) 24) (.var 18),
        .ite (.var 1)
          (block [
            .call (some 19) Id.bf192_byte_combine [.padd (.var 1) (.bin (.add .u32) (.var 13) (.bin (.mul .u32) (.lit
              8) (.var 17))) 24],
            .st 24 (.padd (.var 15) (.var 17) 24) (.var 19)])
          (block [
            .call (some 20) Id.bf192_zero [],
            .st 24 (.padd (.var 15) (.var 17) 24) (.var 20)])])
      (.asg 17 (.bin (.add .u32) (.var 17) (.lit 1))),
    .call (some 21) Id.bf192_mul [.ld 24 (.var 16), .var 7],
    .call (some 22) Id.bf192_mul [.ld 24 (.padd (.var 16) (.lit 1) 24), .var 9],
    .call (some 23) Id.bf192_add [.var 21, .var 22],
    .st 24 (.padd (.var 2) (.bin (.add .u32) (.var 14) (.lit 0)) 24) (.var 23),
    .call (some 24) Id.bf192_add [.ld 24 (.padd (.var 2) (.bin (.add .u32) (.var 14) (.lit 0)) 24), .ld 24 (.padd
      (.var 16) (.lit 2) 24)],
    .st 24 (.padd (.var 2) (.bin (.add .u32) (.var 14) (.lit 0)) 24) (.var 24),
    .call (some 25) Id.bf192_add [.ld 24 (.padd (.var 2) (.bin (.add .u32) (.var 14) (.lit 0)) 24), .ld 24 (.padd
      (.var 16) (.lit 3) 24)],
    .st 24 (.padd (.var 2) (.bin (.add .u32) (.var 14) (.lit 0)) 24) (.var 25),
    .call (some 26) Id.bf192_add [.ld 24 (.padd (.var 2) (.bin (.add .u32) (.var 14) (.lit 0)) 24), .ld 24 (.var 15)],
    .st 24 (.padd (.var 2) (.bin (.add .u32) (.var 14) (.lit 0)) 24) (.var 26),
    .call (some 27) Id.bf192_mul [.ld 24 (.padd (.var 16) (.lit 1) 24), .var 7],
    .call (some 28) Id.bf192_add [.ld 24 (.var 16), .var 27],
    .st 24 (.padd (.var 2) (.bin (.add .u32) (.var 14) (.lit 1)) 24) (.var 28),
    .call (some 29) Id.bf192_mul [.ld 24 (.padd (.var 16) (.lit 2) 24), .var 9],
    .call (some 30) Id.bf192_add [.ld 24 (.padd (.var 2) (.bin (.add .u32) (.var 14) (.lit 1)) 24), .var 29],
    .st 24 (.padd (.var 2) (.bin (.add .u32) (.var 14) (.lit 1)) 24) (.var 30),
    .call (some 31) Id.bf192_add [.ld 24 (.padd (.var 2) (.bin (.add .u32) (.var 14) (.lit 1)) 24), .ld 24 (.padd
      (.var 16) (.lit 3) 24)],
    .st 24 (.padd (.var 2) (.bin (.add .u32) (.var 14) (.lit 1)) 24) (.var 31),
    .call (some 32) Id.bf192_add [.ld 24 (.padd (.var 2) (.bin (.add .u32) (.var 14) (.lit 1)) 24), .ld 24 (.padd
      (.var 15) (.lit 1) 24)],
    .st 24 (.padd (.var 2) (.bin (.add .u32) (.var 14) (.lit 1)) 24) (.var 32),
    .call (some 33) Id.bf192_add [.ld 24 (.var 16), .ld 24 (.padd (.var 16) (.lit 1) 24)],
    .st 24 (.padd (.var 2) (.bin (.add .u32) (.var 14) (.lit 2)) 24) (.var 33),
    .call (some 34) Id.bf192_mul [.ld 24 (.padd (.var 16) (.lit 2) 24), .var 7],
    .call (some 35) Id.bf192_add [.ld 24 (.padd (.var 2) (.bin (.add .u32) (.var 14) (.lit 2)) 24), .var 34],
    .st 24 (.padd (.var 2) (.bin (.add .u32) (.var 14) (.lit 2)) 24) (.var 35),
    .call (some 36) Id.bf192_mul [.ld 24 (.padd (.var 16) (.lit 3) 24), .var 9],
    .call (some 37) Id.bf192_add [.ld 24 (.padd (.var 2) (.bin (.add .u32) (.var 14) (.lit 2)) 24), .var 36],
    .st 24 (.padd (.var 2) (.bin (.add .u32) (.var 14) (.lit 2)) 24) (.var 37),
    .call (some 38) Id.bf192_add [.ld 24 (.padd (.var 2) (.bin (.add .u32) (.var 14) (.lit 2)) 24), .ld 24 (.padd
      (.var 15) (.lit 2) 24)],
    .st 24 (.padd (.var 2) (.bin (.add .u32) (.var 14) (.lit 2)) 24) (.var 38),
    .call (some 39) Id.bf192_mul [.ld 24 (.var 16), .var 9],
    .call (some 40) Id.bf192_add [.var 39, .ld 24 (.padd (.var 16) (.lit 1) 24)],
    .st 24 (.padd (.var 2) (.bin (.add .u32) (.var 14) (.lit 3)) 24) (.var 40),
    .call (some 41) Id.bf192_add [.ld 24 (.padd (.var 2) (.bin (.add .u32) (.var 14) (.lit 3)) 24), .ld 24 (.padd
      (.var 16) (.lit 2) 24)]]

/-- part of `em_enc_forward_192` -/
def em_enc_forward_192.part1 : Stmt :=
  block [
    .st 24 (.padd (.var 2) (.bin (.add .u32) (.var 14) (.lit 3)) 24) (.var 41),
    .call (some 42) Id.bf192_mul [.ld 24 (.padd (.var 16) (.lit 3) 24), .var 7],
    .call (some 43) Id.bf192_add [.ld 24 (.padd (.var 2) (.bin (.add .u32) (.var 14) (.lit 3)) 24), .var 42],
    .st 24 (.padd (.var 2) (.bin (.add .u32) (.var 14) (.lit 3)) 24) (.var 43),
    .call (some 44) Id.bf192_add [.ld 24 (.padd (.var 2) (.bin (.add .u32) (.var 14) (.lit 3)) 24), .ld 24 (.padd
      (.var 15) (.lit 3) 24)],
    .st 24 (.padd (.var 2) (.bin (.add .u32) (.var 14) (.lit 3)) 24) (.var 44)]

/-- `em_enc_forward_192`, faest_aes.c:2011-2061; variables: 0 bf_z, 1 bf_x, 2 bf_y, 3 j, 7 bf_two, 9 bf_three, 11 j,
  12 c, 13 i, 14 iy, 15 bf_x_hat, 16 bf_z_hat, 17 r -/
def em_enc_forward_192 : Fn := ⟨3,
  block [
    .asg 3 (.lit 0),
    .loop (.bin .lt (.var 3) (.lit 24))
      (block [
        .call (some 4) Id.bf192_byte_combine [.padd (.var 0) (.bin (.mul .u32) (.lit 8) (.var 3)) 24],
        .st 24 (.padd (.var 2) (.var 3) 24) (.var 4),
        .ite (.var 1)
          (block [
            .call (some 5) Id.bf192_byte_combine [.padd (.var 1) (.bin (.mul .u32) (.lit 8) (.var 3)) 24],
            .call (some 6) Id.bf192_add [.ld 24 (.padd (.var 2) (.var 3) 24), .var 5],
            .st 24 (.padd (.var 2) (.var 3) 24) (.var 6)])
          (.skip)])
      (.asg 3 (.bin (.add .u32) (.var 3) (.lit 1))),
    .call (some 8) Id.bf192_byte_combine_bits [.lit 2],
    .asg 7 (.var 8),
    .call (some 10) Id.bf192_byte_combine_bits [.lit 3],
    .asg 9 (.var 10),
    .asg 11 (.lit 1),
    .loop (.bin .lt (.var 11) (.lit 12))
      (block [
        .asg 12 (.lit 0),
        .loop (.bin .lt (.var 12) (.lit 6))
          (block [
            em_enc_forward_192.part0,
            em_enc_forward_192.part1])
          (.asg 12 (.bin (.add .u32) (.var 12) (.lit 1)))])
      (.asg 11 (.bin (.add .u32) (.var 11) (.lit 1)))]⟩

/-- `em_enc_backward_192_1`, faest_aes.c:2063-2089; variables: 0 z, 1 x, 2 z_out, 3 y_out, 4 j, 5 c, 6 r, 7 icol, 8
  ird, 9 z_tilde, 10 y_tilde -/
def em_enc_backward_192_1 : Fn := ⟨4,
  block [
    .asg 4 (.lit 0),
    .loop (.bin .lt (.var 4) (.lit 12))
      (block [
        .asg 5 (.lit 0),
        .loop (.bin .lt (.var 5) (.lit 6))
          (block [
            .asg 6 (.lit 0),
            .loop (.bin .le (.var 6) (.lit 3))
              (block [
                .asg 7 (.div (.mod .u32) (.bin (.add .u32) (.bin (.sub .u32) (.var 5) (.var 6)) (.lit 6)) (.lit 6)),
                .asg 8 (.bin (.add .u32) (.bin (.add .u32) (.bin (.add .u32) (.lit 192) (.bin (.mul .u32) (.lit 192)
                  (.var 4))) (.bin (.mul .u32) (.lit 32) (.var 7))) (.bin (.mul .u32) (.lit 8) (.var 6))),
                .asg 9 (.lit 0),
                .ite (.bin .lt (.var 4) (.lit 11))
                  (.asg 9 (.ld 1 (.padd (.var 0) (.div (.div .u32) (.var 8) (.lit 8)) 1)))
                  (.asg 9 (.un (.cast .u8) (.bin (.bxor .i32) (.ld 1 (.padd (.var 2) (.div (.div .u32) (.bin (.sub
                    .u32) (.var 8) (.bin (.mul .u32) (.lit 192) (.bin (.add .u32) (.var 4) (.lit 1)))) (.lit 8)) 1))
                    (.ld 1 (.padd (.var 1) (.div (.div .u32) (.var 8) (.lit 8)) 1))))),
                .call (some 11) Id.rotr8 [.var 9, .lit 7],
                .call (some 12) Id.rotr8 [.var 9, .lit 5],
                .call (some 13) Id.rotr8 [.var 9, .lit 2],
                .asg 10 (.un (.cast .u8) (.bin (.bxor .i32) (.bin (.bxor .i32) (.bin (.bxor .i32) (.var 11) (.var
                  12)) (.var 13)) (.lit 5))),
                .call (some 14) Id.bf192_byte_combine_bits [.var 10],
                .st 24 (.padd (.var 3) (.bin (.add .u32) (.bin (.add .u32) (.bin (.mul .u32) (.lit 24) (.var 4))
                  (.bin (.mul .u32) (.lit 4) (.var 5))) (.var 6)) 24) (.var 14)])
              (.asg 6 (.bin (.add .u32) (.var 6) (.lit 1)))])
          (.asg 5 (.bin (.add .u32) (.var 5) (.lit 1)))])
      (.asg 4 (.bin (.add .u32) (.var 4) (.lit 1)))]⟩

/-- `em_enc_backward_192`, faest_aes.c:2091-2131; variables: 0 bf_z, 1 bf_x, 2 bf_z_out, 3 Mtag, 4 Mkey, 5 delta, 6
  y_out, 7 bf_delta, 11 factor, 16 j, 17 c, 18 r, 19 bf_z_tilde, 20 icol, 21 ird, 23 i, 25 bf_y_tilde, 26 i -/
def em_enc_backward_192 : Fn := ⟨7,
  block [
    .ite (.var 5)
      (block [
        .call (some 9) Id.bf192_load [.var 5],
        .asg 8 (.var 9)])
      (block [
        .call (some 10) Id.bf192_zero [],
        .asg 8 (.var 10)]),
    .asg 7 (.var 8),
    .call (some 12) Id.bf192_mul_bit [.var 7, .var 4],
    .call (some 13) Id.bf192_from_bit [.un (.cast .u8) (.bin (.bxor .i32) (.lit 1) (.var 4))],
    .call (some 14) Id.bf192_add [.var 12, .var 13],
    .call (some 15) Id.bf192_mul_bit [.var 14, .un (.cast .u8) (.bin (.bxor .i32) (.lit 1) (.var 3))],
    .asg 11 (.var 15),
    .asg 16 (.lit 0),
    .loop (.bin .lt (.var 16) (.lit 12))
      (block [
        .asg 17 (.lit 0),
        .loop (.bin .lt (.var 17) (.lit 6))
          (block [
            .asg 18 (.lit 0),
            .loop (.bin .le (.var 18) (.lit 3))
              (block [
                .new 19 (.lit 192),
                .asg 20 (.div (.mod .u32) (.bin (.add .u32) (.bin (.sub .u32) (.var 17) (.var 18)) (.lit 6)) (.lit
                  6)),
                .asg 21 (.bin (.add .u32) (.bin (.add .u32) (.bin (.add .u32) (.lit 192) (.bin (.mul .u32) (.lit 192)
                  (.var 16))) (.bin (.mul .u32) (.lit 32) (.var 20))) (.bin (.mul .u32) (.lit 8) (.var 18))),
                .ite (.bin .lt (.var 16) (.lit 11))
                  (.call (some 22) Id.memcpy [.var 19, .padd (.var 0) (.var 21) 24, .lit 192])
                  (block [
                    .asg 23 (.lit 0),
                    .loop (.bin .lt (.var 23) (.lit 8))
                      (block [
                        .st 24 (.padd (.var 19) (.var 23) 24) (.ld 24 (.padd (.var 2) (.bin (.add .u32) (.bin (.sub
                          .u32) (.var 21) (.bin (.mul .u32) (.lit 192) (.bin (.add .u32) (.var 16) (.lit 1)))) (.var
                          23)) 24)),
                        .ite (.var 1)
                          (block [
                            .call (some 24) Id.bf192_add [.ld 24 (.padd (.var 19) (.var 23) 24), .ld 24 (.padd (.var
                              1) (.bin (.add .u32) (.var 21) (.var 23)) 24)],
                            .st 24 (.padd (.var 19) (.var 23) 24) (.var 24)])
                          (.skip)])
                      (.asg 23 (.bin (.add .u32) (.var 23) (.lit 1)))]),
                .new 25 (.lit 192),
                .asg 26 (.lit 0),
                .loop (.bin .lt (.var 26) (.lit 8))
                  (block [
                    .call (some 27) Id.bf192_add [.ld 24 (.padd (.var 19) (.div (.mod .u32) (.bin (.add .u32) (.var
                      26) (.lit 7)) (.lit 8)) 24), .ld 24 (.padd (.var 19) (.div (.mod .u32) (.bin (.add .u32) (.var
                      26) (.lit 5)) (.lit 8)) 24)],
                    .call (some 28) Id.bf192_add [.var 27, .ld 24 (.padd (.var 19) (.div (.mod .u32) (.bin (.add
                      .u32) (.var 26) (.lit 2)) (.lit 8)) 24)],
                    .st 24 (.padd (.var 25) (.var 26) 24) (.var 28)])
                  (.asg 26 (.bin (.add .u32) (.var 26) (.lit 1))),
                .call (some 29) Id.bf192_add [.ld 24 (.var 25), .var 11],
                .st 24 (.var 25) (.var 29),
                .call (some 30) Id.bf192_add [.ld 24 (.padd (.var 25) (.lit 2) 24), .var 11],
                .st 24 (.padd (.var 25) (.lit 2) 24) (.var 30),
                .call (some 31) Id.bf192_byte_combine [.var 25],
                .st 24 (.padd (.var 6) (.bin (.add .u32) (.bin (.add .u32) (.bin (.mul .u32) (.lit 24) (.var 16))
                  (.bin (.mul .u32) (.lit 4) (.var 17))) (.var 18)) 24) (.var 31)])
              (.asg 18 (.bin (.add .u32) (.var 18) (.lit 1)))])
          (.asg 17 (.bin (.add .u32) (.var 17) (.lit 1)))])
      (.asg 16 (.bin (.add .u32) (.var 16) (.lit 1)))]⟩

/-- `em_enc_constraints_Mkey_0_192`, faest_aes.c:2133-2158; variables: 0 out, 1 x, 2 w, 3 bf_v, 4 a0_ctx, 5 a1_ctx, 6
  w_out, 7 bf_s, 8 bf_vs, 9 bf_s_dash, 10 bf_vs_dash, 11 j, 12 tmp -/
def em_enc_constraints_Mkey_0_192 : Fn := ⟨6,
  block [
    .new 6 (.lit 24),
    .call none Id.xor_u8_array [.var 0, .var 2, .var 6, .lit 24],
    .new 7 (.lit 6912),
    .new 8 (.lit 6912),
    .new 9 (.lit 6912),
    .new 10 (.lit 6912),
    .call none Id.em_enc_forward_192_1 [.var 2, .var 1, .var 7],
    .call none Id.em_enc_forward_192 [.var 3, .lit 0, .var 8],
    .call none Id.em_enc_backward_192_1 [.var 2, .var 1, .var 6, .var 9],
    .call none Id.em_enc_backward_192 [.var 3, .lit 0, .var 3, .lit 1, .lit 0, .lit 0, .var 10],
    .asg 11 (.lit 0),
    .loop (.bin .lt (.var 11) (.lit 288))
      (block [
        .call (some 13) Id.bf192_mul [.ld 24 (.padd (.var 8) (.var 11) 24), .ld 24 (.padd (.var 10) (.var 11) 24)],
        .asg 12 (.var 13),
        .call none Id.zk_hash_192_update [.var 4, .var 12],
        .call (some 14) Id.bf192_add [.ld 24 (.padd (.var 7) (.var 11) 24), .ld 24 (.padd (.var 8) (.var 11) 24)],
        .call (some 15) Id.bf192_add [.ld 24 (.padd (.var 9) (.var 11) 24), .ld 24 (.padd (.var 10) (.var 11) 24)],
        .call (some 16) Id.bf192_mul [.var 14, .var 15],
        .call (some 17) Id.bf192_add [.var 16, .var 12],
        .call (some 18) Id.bf192_one [],
        .call (some 19) Id.bf192_add [.var 17, .var 18],
        .call none Id.zk_hash_192_update [.var 5, .var 19]])
      (.asg 11 (.bin (.add .u32) (.var 11) (.lit 1)))]⟩

/-- `em_prove_192`, faest_aes.c:2190-2219; variables: 0 w, 1 u, 2 V, 3 in, 4 out, 5 chall, 6 a_tilde, 7 b_tilde, 8 x,
  9 round_keys, 11 tmp_x, 12 r, 13 i, 15 bf_v, 17 a0_ctx, 18 a1_ctx -/
def em_prove_192 : Fn := ⟨8,
  block [
    .new 8 (.lit 312),
    .new 9 (.lit 480),
    .call (some 10) Id.rijndael192_init_round_keys [.var 9, .var 3],
    .asg 11 (.var 8),
    .asg 12 (.lit 0),
    .loop (.bin .ne (.var 12) (.lit 13))
      (block [
        .asg 13 (.lit 0),
        .loop (.bin .ne (.var 13) (.lit 6))
          (block [
            .call (some 14) Id.memcpy [.var 11, .padd (.padd (.var 9) (.var 12) 32) (.var 13) 4, .lit 4],
            .asg 11 (.padd (.var 11) (.lit 4) 1)])
          (.asg 13 (.bin (.add .u32) (.var 13) (.lit 1)))])
      (.asg 12 (.bin (.add .u32) (.var 12) (.lit 1))),
    .call (some 16) Id.column_to_row_major_and_shrink_V_192 [.var 2, .lit 2304],
    .asg 15 (.var 16),
    .new 17 (.lit 88),
    .new 18 (.lit 88),
    .call none Id.zk_hash_192_init [.var 17, .var 5],
    .call none Id.zk_hash_192_init [.var 18, .var 5],
    .call none Id.em_enc_constraints_Mkey_0_192 [.var 4, .var 8, .var 0, .var 15, .var 17, .var 18],
    .call (some 19) Id.bf192_load [.padd (.var 1) (.lit 288) 1],
    .call none Id.zk_hash_192_finalize [.var 6, .var 18, .var 19],
    .call (some 20) Id.bf192_sum_poly [.padd (.var 15) (.lit 2304) 24],
    .call none Id.zk_hash_192_finalize [.var 7, .var 17, .var 20],
    .free (.var 15)]⟩

/-- `column_to_row_major_and_shrink_V_128`, faest_aes.c:79-93; variables: 0 v, 1 ell, 2 new_v, 4 row, 5 new_row, 7
  column -/
def column_to_row_major_and_shrink_V_128 : Fn := ⟨2,
  block [
    .new 3 (.bin (.mul .u64) (.bin (.add .u32) (.var 1) (.lit 128)) (.lit 16)),
    .asg 2 (.var 3),
    .asg 4 (.lit 0),
    .loop (.bin .ne (.var 4) (.bin (.add .u32) (.var 1) (.lit 128)))
      (block [
        .new 5 (.lit 16),
        .call (some 6) Id.memset [.var 5, .lit 0, .lit 16],
        .asg 7 (.lit 0),
        .loop (.bin .ne (.var 7) (.lit 128))
          (.st 1 (.padd (.var 5) (.div (.div .u32) (.var 7) (.lit 8)) 1) (.un (.cast .u8) (.bin (.bor .i32) (.ld 1
            (.padd (.var 5) (.div (.div .u32) (.var 7) (.lit 8)) 1)) (.bin (.shl .i32) (.bin (.band .i32) (.bin (.shr
            .i32) (.ld 1 (.padd (.cell (.padd (.var 0) (.var 7) 1) 0) (.div (.div .u32) (.var 4) (.lit 8)) 1)) (.div
            (.mod .u32) (.var 4) (.lit 8))) (.lit 1)) (.div (.mod .u32) (.var 7) (.lit 8))))))
          (.asg 7 (.bin (.add .u32) (.var 7) (.lit 1))),
        .call (some 8) Id.bf128_load [.var 5],
        .st 16 (.padd (.var 2) (.var 4) 16) (.var 8)])
      (.asg 4 (.bin (.add .u32) (.var 4) (.lit 1))),
    .ret (.var 2)]⟩

/-- `aes_key_schedule_forward_128`, faest_aes.c:208-228; variables: 0 v, 1 bf_out, 3 i_wd, 4 j, 7 i -/
def aes_key_schedule_forward_128 : Fn := ⟨2,
  block [
    .call (some 2) Id.memcpy [.var 1, .var 0, .lit 2048],
    .asg 3 (.lit 128),
    .asg 4 (.lit 4),
    .loop (.bin .lt (.var 4) (.lit 44))
      (block [
        .ite (.bin .eq (.div (.mod .u32) (.var 4) (.lit 4)) (.lit 0))
          (.asg 5 (.lit 1))
          (.asg 5 (.bin .ne (.lit 0) (.lit 0))),
        .ite (.var 5)
          (block [
            .call (some 6) Id.memcpy [.padd (.var 1) (.bin (.mul .u32) (.var 4) (.lit 32)) 16, .padd (.var 0) (.var
              3) 16, .lit 512],
            .asg 3 (.bin (.add .u32) (.var 3) (.lit 32))])
          (block [
            .asg 7 (.lit 0),
            .loop (.bin .lt (.var 7) (.lit 32))
              (block [
                .call (some 8) Id.bf128_add [.ld 16 (.padd (.var 1) (.bin (.add .u32) (.bin (.mul .u32) (.lit 32)
                  (.bin (.sub .u32) (.var 4) (.lit 4))) (.var 7)) 16), .ld 16 (.padd (.var 1) (.bin (.add .u32) (.bin
                  (.mul .u32) (.lit 32) (.bin (.sub .u32) (.var 4) (.lit 1))) (.var 7)) 16)],
                .st 16 (.padd (.var 1) (.bin (.add .u32) (.bin (.mul .u32) (.lit 32) (.var 4)) (.var 7)) 16) (.var
                  8)])
              (.asg 7 (.bin (.add .u32) (.var 7) (.lit 1)))])])
      (.asg 4 (.bin (.add .u32) (.var 4) (.lit 1)))]⟩

/-- `aes_key_schedule_backward_128`, faest_aes.c:230-282; variables: 0 v, 1 Vk, 2 Mtag, 3 Mkey, 4 delta, 5 bf_out, 9
  bf_delta, 13 iwd, 14 c, 15 ircon, 16 bf_minus_mkey, 18 minus_mtag, 19 bf_mkey_times_delta, 22 j, 23 bf_x_tilde, 24
  i, 27 r, 28 bf_r, 29 i, 32 i -/
def aes_key_schedule_backward_128 : Fn := ⟨6,
  block [
    .ite (.bin .eq (.var 2) (.lit 1))
      (.asg 6 (.bin .ne (.bin .eq (.var 3) (.lit 1)) (.lit 0)))
      (.asg 6 (.lit 0)),
    .ite (.var 6)
      (.asg 7 (.lit 1))
      (block [
        .ite (.bin .eq (.var 3) (.lit 1))
          (.asg 8 (.bin .ne (.bin .eq (.var 4) (.lit 0)) (.lit 0)))
          (.asg 8 (.lit 0)),
        .asg 7 (.bin .ne (.var 8) (.lit 0))]),
    .ite (.un .lnot (.var 7))
      (.skip)
      (.skip),
    .ite (.var 4)
      (block [
        .call (some 11) Id.bf128_load [.var 4],
        .asg 10 (.var 11)])
      (block [
        .call (some 12) Id.bf128_zero [],
        .asg 10 (.var 12)]),
    .asg 9 (.var 10),
    .asg 13 (.lit 0),
    .asg 14 (.lit 0),
    .asg 15 (.lit 0),
    .call (some 17) Id.bf128_from_bit [.un (.cast .u8) (.bin (.bxor .i32) (.lit 1) (.var 3))],
    .asg 16 (.var 17),
    .asg 18 (.un (.cast .u8) (.bin (.bxor .i32) (.lit 1) (.var 2))),
    .call (some 20) Id.bf128_mul_bit [.var 9, .var 3],
    .asg 19 (.var 20),
    .call (some 21) Id.bf128_add [.var 19, .var 16],
    .asg 19 (.var 21),
    .asg 22 (.lit 0),
    .loop (.bin .lt (.var 22) (.lit 40))
      (block [
        .new 23 (.lit 128),
        .asg 24 (.lit 0),
        .loop (.bin .lt (.var 24) (.lit 8))
          (block [
            .call (some 25) Id.bf128_add [.ld 16 (.padd (.var 0) (.bin (.add .u32) (.bin (.mul .u32) (.lit 8) (.var
              22)) (.var 24)) 16), .ld 16 (.padd (.var 1) (.bin (.add .u32) (.bin (.add .u32) (.var 13) (.bin (.mul
              .u32) (.lit 8) (.var 14))) (.var 24)) 16)],
            .st 16 (.padd (.var 23) (.var 24) 16) (.var 25)])
          (.asg 24 (.bin (.add .u32) (.var 24) (.lit 1))),
        .ite (.bin .eq (.var 2) (.lit 0))
          (.asg 26 (.bin .ne (.bin .eq (.var 14) (.lit 0)) (.lit 0)))
          (.asg 26 (.lit 0)),
        .ite (.var 26)
          (block [
            .asg 27 (.ld 1 (.padd (.glob 6) (.var 15) 1)),
            .asg 15 (.bin (.add .u32) (.var 15) (.lit 1)),
            .new 28 (.lit 128),
            .asg 29 (.lit 0),
            .loop (.bin .lt (.var 29) (.lit 8))
              (block [
                .call (some 30) Id.bf128_mul_bit [.var 19, .un (.cast .u8) (.bin (.band .i32) (.bin (.shr .i32) (.var
                  27) (.var 29)) (.lit 1))],
                .st 16 (.padd (.var 28) (.var 29) 16) (.var 30),
                .call (some 31) Id.bf128_add [.ld 16 (.padd (.var 23) (.var 29) 16), .ld 16 (.padd (.var 28) (.var
                  29) 16)],
                .st 16 (.padd (.var 23) (.var 29) 16) (.var 31)])
              (.asg 29 (.bin (.add .u32) (.var 29) (.lit 1)))])
          (.skip),
        .asg 32 (.lit 0),
        .loop (.bin .lt (.var 32) (.lit 8))
          (block [
            .call (some 33) Id.bf128_add [.ld 16 (.padd (.var 23) (.div (.mod .u32) (.bin (.add .u32) (.var 32) (.lit
              7)) (.lit 8)) 16), .ld 16 (.padd (.var 23) (.div (.mod .u32) (.bin (.add .u32) (.var 32) (.lit 5))
              (.lit 8)) 16)],
            .call (some 34) Id.bf128_add [.var 33, .ld 16 (.padd (.var 23) (.div (.mod .u32) (.bin (.add .u32) (.var
              32) (.lit 2)) (.lit 8)) 16)],
            .st 16 (.padd (.var 5) (.bin (.add .u32) (.var 32) (.bin (.mul .u32) (.lit 8) (.var 22))) 16) (.var 34)])
          (.asg 32 (.bin (.add .u32) (.var 32) (.lit 1))),
        .call (some 35) Id.bf128_mul_bit [.var 19, .var 18],
        .call (some 36) Id.bf128_add [.ld 16 (.padd (.var 5) (.bin (.add .u32) (.lit 0) (.bin (.mul .u32) (.lit 8)
          (.var 22))) 16), .var 35],
        .st 16 (.padd (.var 5) (.bin (.add .u32) (.lit 0) (.bin (.mul .u32) (.lit 8) (.var 22))) 16) (.var 36),
        .call (some 37) Id.bf128_mul_bit [.var 19, .var 18],
        .call (some 38) Id.bf128_add [.ld 16 (.padd (.var 5) (.bin (.add .u32) (.lit 2) (.bin (.mul .u32) (.lit 8)
          (.var 22))) 16), .var 37],
        .st 16 (.padd (.var 5) (.bin (.add .u32) (.lit 2) (.bin (.mul .u32) (.lit 8) (.var 22))) 16) (.var 38),
        .asg 14 (.bin (.add .u32) (.var 14) (.lit 1)),
        .ite (.bin .eq (.var 14) (.lit 4))
          (block [
            .asg 14 (.lit 0),
            .asg 13 (.bin (.add .u32) (.var 13) (.lit 128))])
          (.skip)])
      (.asg 22 (.bin (.add .u32) (.var 22) (.lit 1)))]⟩

/-- `aes_key_schedule_constraints_Mkey_0_128`, faest_aes.c:284-332; variables: 0 w, 1 v, 2 a0_ctx, 3 a1_ctx, 4 k, 5
  vk, 6 params, 7 w_dash, 8 v_w_dash, 9 iwd, 10 j, 11 bf_k_hat, 12 bf_v_k_hat, 13 bf_w_dash_hat, 14 bf_v_w_dash_hat,
  15 r, 20 r, 21 tmp -/
def aes_key_schedule_constraints_Mkey_0_128 : Fn := ⟨7,
  block [
    .ite (.bin .eq (.lit 40) (.ld 2 (.padd (.var 6) (.lit 4) 1)))
      (.skip)
      (.skip),
    .call none Id.aes_key_schedule_forward_1 [.var 0, .var 4, .var 6],
    .call none Id.aes_key_schedule_forward_128 [.var 1, .var 5],
    .new 7 (.lit 40),
    .call none Id.aes_key_schedule_backward_1 [.padd (.var 0) (.lit 16) 1, .var 4, .var 7, .var 6],
    .new 8 (.lit 5120),
    .call none Id.aes_key_schedule_backward_128 [.padd (.var 1) (.lit 128) 16, .var 5, .lit 1, .lit 0, .lit 0, .var
      8],
    .asg 9 (.lit 96),
    .asg 10 (.lit 0),
    .loop (.bin .lt (.var 10) (.lit 10))
      (block [
        .new 11 (.lit 64),
        .new 12 (.lit 64),
        .new 13 (.lit 64),
        .new 14 (.lit 64),
        .asg 15 (.lit 0),
        .loop (.bin .le (.var 15) (.lit 3))
          (block [
            .call (some 16) Id.bf128_byte_combine_bits [.ld 1 (.padd (.var 4) (.div (.div .u32) (.bin (.add .u32)
              (.var 9) (.bin (.mul .u32) (.lit 8) (.var 15))) (.lit 8)) 1)],
            .st 16 (.padd (.var 11) (.div (.mod .u32) (.bin (.add .u32) (.var 15) (.lit 3)) (.lit 4)) 16) (.var 16),
            .call (some 17) Id.bf128_byte_combine [.padd (.var 5) (.bin (.add .u32) (.var 9) (.bin (.mul .u32) (.lit
              8) (.var 15))) 16],
            .st 16 (.padd (.var 12) (.div (.mod .u32) (.bin (.add .u32) (.var 15) (.lit 3)) (.lit 4)) 16) (.var 17),
            .call (some 18) Id.bf128_byte_combine_bits [.ld 1 (.padd (.var 7) (.div (.div .u32) (.bin (.add .u32)
              (.bin (.mul .u32) (.lit 32) (.var 10)) (.bin (.mul .u32) (.lit 8) (.var 15))) (.lit 8)) 1)],
            .st 16 (.padd (.var 13) (.var 15) 16) (.var 18),
            .call (some 19) Id.bf128_byte_combine [.padd (.var 8) (.bin (.add .u32) (.bin (.mul .u32) (.lit 32) (.var
              10)) (.bin (.mul .u32) (.lit 8) (.var 15))) 16],
            .st 16 (.padd (.var 14) (.var 15) 16) (.var 19)])
          (.asg 15 (.bin (.add .u32) (.var 15) (.lit 1))),
        .asg 20 (.lit 0),
        .loop (.bin .le (.var 20) (.lit 3))
          (block [
            .call (some 22) Id.bf128_mul [.ld 16 (.padd (.var 12) (.var 20) 16), .ld 16 (.padd (.var 14) (.var 20)
              16)],
            .asg 21 (.var 22),
            .call none Id.zk_hash_128_update [.var 2, .var 21],
            .call (some 23) Id.bf128_add [.ld 16 (.padd (.var 11) (.var 20) 16), .ld 16 (.padd (.var 12) (.var 20)
              16)],
            .call (some 24) Id.bf128_add [.ld 16 (.padd (.var 13) (.var 20) 16), .ld 16 (.padd (.var 14) (.var 20)
              16)],
            .call (some 25) Id.bf128_mul [.var 23, .var 24],
            .call (some 26) Id.bf128_one [],
            .call (some 27) Id.bf128_add [.var 25, .var 26],
            .call (some 28) Id.bf128_add [.var 27, .var 21],
            .call none Id.zk_hash_128_update [.var 3, .var 28]])
          (.asg 20 (.bin (.add .u32) (.var 20) (.lit 1))),
        .asg 9 (.bin (.add .u32) (.var 9) (.lit 128))])
      (.asg 10 (.bin (.add .u32) (.var 10) (.lit 1)))]⟩

/-- part of `aes_enc_forward_128_1` -/
def aes_enc_forward_128_1.part0 : Stmt :=
  block [
    .asg 15 (.bin (.add .u32) (.bin (.mul .u32) (.lit 128) (.bin (.sub .u32) (.var 13) (.lit 1))) (.bin (.mul .u32)
      (.lit 32) (.var 14))),
    .asg 16 (.bin (.add .u32) (.bin (.mul .u32) (.lit 128) (.var 13)) (.bin (.mul .u32) (.lit 32) (.var 14))),
    .asg 17 (.bin (.add .u32) (.bin (.mul .u32) (.lit 16) (.var 13)) (.bin (.mul .u32) (.lit 4) (.var 14))),
    .new 18 (.lit 64),
    .new 19 (.lit 64),
    .asg 20 (.lit 0),
    .loop (.bin .le (.var 20) (.lit 3))
      (block [
        .call (some 21) Id.bf128_byte_combine_bits [.ld 1 (.padd (.var 0) (.div (.div .u32) (.bin (.add .u32) (.var
          15) (.bin (.mul .u32) (.lit 8) (.var 20))) (.lit 8)) 1)],
        .st 16 (.padd (.var 18) (.var 20) 16) (.var 21),
        .call (some 22) Id.bf128_byte_combine_bits [.ld 1 (.padd (.var 1) (.div (.div .u32) (.bin (.add .u32) (.var
          16) (.bin (.mul .u32) (.lit 8) (.var 20))) (.lit 8)) 1)],
        .st 16 (.padd (.var 19) (.var 20) 16) (.var 22)])
      (.asg 20 (.bin (.add .u32) (.var 20) (.lit 1))),
    .call (some 23) Id.bf128_mul [.ld 16 (.var 18), .var 9],
    .call (some 24) Id.bf128_add [.ld 16 (.var 19), .var 23],
    .st 16 (.padd (.var 3) (.bin (.add .u32) (.var 17) (.lit 0)) 16) (.var 24),
    .call (some 25) Id.bf128_mul [.ld 16 (.padd (.var 18) (.lit 1) 16), .var 11],
    .call (some 26) Id.bf128_add [.ld 16 (.padd (.var 3) (.bin (.add .u32) (.var 17) (.lit 0)) 16), .var 25],
    .st 16 (.padd (.var 3) (.bin (.add .u32) (.var 17) (.lit 0)) 16) (.var 26),
    .call (some 27) Id.bf128_add [.ld 16 (.padd (.var 3) (.bin (.add .u32) (.var 17) (.lit 0)) 16), .ld 16 (.padd
      (.var 18) (.lit 2) 16)],
    .st 16 (.padd (.var 3) (.bin (.add .u32) (.var 17) (.lit 0)) 16) (.var 27),
    .call (some 28) Id.bf128_add [.ld 16 (.padd (.var 3) (.bin (.add .u32) (.var 17) (.lit 0)) 16), .ld 16 (.padd
      (.var 18) (.lit 3) 16)],
    .st 16 (.padd (.var 3) (.bin (.add .u32) (.var 17) (.lit 0)) 16) (.var 28),
    .call (some 29) Id.bf128_add [.ld 16 (.padd (.var 19) (.lit 1) 16), .ld 16 (.var 18)],
    .st 16 (.padd (.var 3) (.bin (.add .u32) (.var 17) (.lit 1)) 16) (.var 29),
    .call (some 30) Id.bf128_mul [.ld 16 (.padd (.var 18) (.lit 1) 16), .var 9],
    .call (some 31) Id.bf128_add [.ld 16 (.padd (.var 3) (.bin (.add .u32) (.var 17) (.lit 1)) 16), .var 30],
    .st 16 (.padd (.var 3) (.bin (.add .u32) (.var 17) (.lit 1)) 16) (.var 31),
    .call (some 32) Id.bf128_mul [.ld 16 (.padd (.var 18) (.lit 2) 16), .var 11],
    .call (some 33) Id.bf128_add [.ld 16 (.padd (.var 3) (.bin (.add .u32) (.var 17) (.lit 1)) 16), .var 32],
    .st 16 (.padd (.var 3) (.bin (.add .u32) (.var 17) (.lit 1)) 16) (.var 33),
    .call (some 34) Id.bf128_add [.ld 16 (.padd (.var 3) (.bin (.add .u32) (.var 17) (.lit 1)) 16), .ld 16 (.padd
      (.var 18) (.lit 3) 16)],
    .st 16 (.padd (.var 3) (.bin (.add .u32) (.var 17) (.lit 1)) 16) (.var 34),
    .call (some 35) Id.bf128_add [.ld 16 (.padd (.var 19) (.lit 2) 16), .ld 16 (.var 18)],
    .st 16 (.padd (.var 3) (.bin (.add .u32) (.var 17) (.lit 2)) 16) (.var 35),
    .call (some 36) Id.bf128_add [.ld 16 (.padd (.var 3) (.bin (.add .u32) (.var 17) (.lit 2)) 16), .ld 16 (.padd
      (.var 18) (.lit 1) 16)],
    .st 16 (.padd (.var 3) (.bin (.add .u32) (.var 17) (.lit 2)) 16) (.var 36),
    .call (some 37) Id.bf128_mul [.ld 16 (.padd (.var 18) (.lit 2) 16), .var 9],
    .call (some 38) Id.bf128_add [.ld 16 (.padd (.var 3) (.bin (.add .u32) (.var 17) (.lit 2)) 16), .var 37],
    .st 16 (.padd (.var 3) (.bin (.add .u32) (.var 17) (.lit 2)) 16) (.var 38),
    .call (some 39) Id.bf128_mul [.ld 16 (.padd (.var 18) (.lit 3) 16), .var 11],
    .call (some 40) Id.bf128_add [.ld 16 (.padd (.var 3) (.bin (.add .u32) (.var 17) (.lit 2)) 16), .var 39],
    .st 16 (.padd (.var 3) (.bin (.add .u32) (.var 17) (.lit 2)) 16) (.var 40),
    .call (some 41) Id.bf128_mul [.ld 16 (.var 18), .var 11],
    .call (some 42) Id.bf128_add [.ld 16 (.padd (.var 19) (.lit 3) 16), .var 41],
    .st 16 (.padd (.var 3) (.bin (.add .u32) (.var 17) (.lit 3)) 16) (.var 42)]

/-- part of `aes_enc_forward_128_1` -/
def aes_enc_forward_128_1.part1 : Stmt :=
  block [
    .call (some 43) Id.bf128_add [.ld 16 (.padd (.var 3) (.bin (.add .u32) (.var 17) (.lit 3)) 16), .ld 16 (.padd
      (.var 18) (.lit 1) 16)],
    .st 16 (.padd (.var 3) (.bin (.add .u32) (.var 17) (.lit 3)) 16) (.var 43),
    .call (some 44) Id.bf128_add [.ld 16 (.padd (.var 3) (.bin (.add .u32) (.var 17) (.lit 3)) 16), .ld 16 (.padd
      (.var 18) (.lit 2) 16)],
    .st 16 (.padd (.var 3) (.bin (.add .u32) (.var 17) (.lit 3)) 16) (.var 44),
    .call (some 45) Id.bf128_mul [.ld 16 (.padd (.var 18) (.lit 3) 16), .var 9],
    .call (some 46) Id.bf128_add [.ld 16 (.padd (.var 3) (.bin (.add .u32) (.var 17) (.lit 3)) 16), .var 45],
    .st 16 (.padd (.var 3) (.bin (.add .u32) (.var 17) (.lit 3)) 16) (.var 46)]

/-- `aes_enc_forward_128_1`, faest_aes.c:364-419; variables: 0 x, 1 xk, 2 in, 3 bf_y, 4 i, 5 xin, 9 bf_two, 11
  bf_three, 13 j, 14 c, 15 ix, 16 ik, 17 iy, 18 bf_x_hat, 19 bf_xk_hat, 20 r -/
def aes_enc_forward_128_1 : Fn := ⟨4,
  block [
    .asg 4 (.lit 0),
    .loop (.bin .lt (.var 4) (.lit 16))
      (block [
        .asg 5 (.ld 1 (.padd (.var 2) (.var 4) 1)),
        .call (some 6) Id.bf128_byte_combine_bits [.var 5],
        .call (some 7) Id.bf128_byte_combine_bits [.ld 1 (.padd (.var 1) (.var 4) 1)],
        .call (some 8) Id.bf128_add [.var 6, .var 7],
        .st 16 (.padd (.var 3) (.var 4) 16) (.var 8)])
      (.asg 4 (.bin (.add .u32) (.var 4) (.lit 1))),
    .call (some 10) Id.bf128_byte_combine_bits [.lit 2],
    .asg 9 (.var 10),
    .call (some 12) Id.bf128_byte_combine_bits [.lit 3],
    .asg 11 (.var 12),
    .asg 13 (.lit 1),
    .loop (.bin .lt (.var 13) (.lit 10))
      (block [
        .asg 14 (.lit 0),
        .loop (.bin .le (.var 14) (.lit 3))
          (block [
            aes_enc_forward_128_1.part0,
            aes_enc_forward_128_1.part1])
          (.asg 14 (.bin (.add .u32) (.var 14) (.lit 1)))])
      (.asg 13 (.bin (.add .u32) (.var 13) (.lit 1)))]⟩

/-- part of `aes_enc_forward_128` -/
def aes_enc_forward_128.part0 : Stmt :=
  block [
    .asg 28 (.bin (.add .u32) (.bin (.mul .u32) (.lit 128) (.bin (.sub .u32) (.var 26) (.lit 1))) (.bin (.mul .u32)
      (.lit 32) (.var 27))),
    .asg 29 (.bin (.add .u32) (.bin (.mul .u32) (.lit 128) (.var 26)) (.bin (.mul .u32) (.lit 32) (.var 27))),
    .asg 30 (.bin (.add .u32) (.bin (.mul .u32) (.lit 16) (.var 26)) (.bin (.mul .u32) (.lit 4) (.var 27))),
    .new 31 (.lit 64),
    .new 32 (.lit 64),
    .asg 33 (.lit 0),
    .loop (.bin .le (.var 33) (.lit 3))
      (block [
        .call (some 34) Id.bf128_byte_combine [.padd (.var 0) (.bin (.add .u32) (.var 28) (.bin (.mul .u32) (.lit 8)
          (.var 33))) 16],
        .st 16 (.padd (.var 31) (.var 33) 16) (.var 34),
        .call (some 35) Id.bf128_byte_combine [.padd (.var 1) (.bin (.add .u32) (.var 29) (.bin (.mul .u32) (.lit 8)
          (.var 33))) 16],
        .st 16 (.padd (.var 32) (.var 33) 16) (.var 35)])
      (.asg 33 (.bin (.add .u32) (.var 33) (.lit 1))),
    .call (some 36) Id.bf128_mul [.ld 16 (.var 31), .var 22],
    .call (some 37) Id.bf128_add [.ld 16 (.var 32), .var 36],
    .st 16 (.padd (.var 6) (.bin (.add .u32) (.var 30) (.lit 0)) 16) (.var 37),
    .call (some 38) Id.bf128_mul [.ld 16 (.padd (.var 31) (.lit 1) 16), .var 24],
    .call (some 39) Id.bf128_add [.ld 16 (.padd (.var 6) (.bin (.add .u32) (.var 30) (.lit 0)) 16), .var 38],
    .st 16 (.padd (.var 6) (.bin (.add .u32) (.var 30) (.lit 0)) 16) (.var 39),
    .call (some 40) Id.bf128_add [.ld 16 (.padd (.var 6) (.bin (.add .u32) (.var 30) (.lit 0)) 16), .ld 16 (.padd
      (.var 31) (.lit 2) 16)],
    .st 16 (.padd (.var 6) (.bin (.add .u32) (.var 30) (.lit 0)) 16) (.var 40),
    .call (some 41) Id.bf128_add [.ld 16 (.padd (.var 6) (.bin (.add .u32) (.var 30) (.lit 0)) 16), .ld 16 (.padd
      (.var 31) (.lit 3) 16)],
    .st 16 (.padd (.var 6) (.bin (.add .u32) (.var 30) (.lit 0)) 16) (.var 41),
    .call (some 42) Id.bf128_add [.ld 16 (.padd (.var 32) (.lit 1) 16), .ld 16 (.var 31)],
    .st 16 (.padd (.var 6) (.bin (.add .u32) (.var 30) (.lit 1)) 16) (.var 42),
    .call (some 43) Id.bf128_mul [.ld 16 (.padd (.var 31) (.lit 1) 16), .var 22],
    .call (some 44) Id.bf128_add [.ld 16 (.padd (.var 6) (.bin (.add .u32) (.var 30) (.lit 1)) 16), .var 43],
    .st 16 (.padd (.var 6) (.bin (.add .u32) (.var 30) (.lit 1)) 16) (.var 44),
    .call (some 45) Id.bf128_mul [.ld 16 (.padd (.var 31) (.lit 2) 16), .var 24],
    .call (some 46) Id.bf128_add [.ld 16 (.padd (.var 6) (.bin (.add .u32) (.var 30) (.lit 1)) 16), .var 45],
    .st 16 (.padd (.var 6) (.bin (.add .u32) (.var 30) (.lit 1)) 16) (.var 46),
    .call (some 47) Id.bf128_add [.ld 16 (.padd (.var 6) (.bin (.add .u32) (.var 30) (.lit 1)) 16), .ld 16 (.padd
      (.var 31) (.lit 3) 16)],
    .st 16 (.padd (.var 6) (.bin (.add .u32) (.var 30) (.lit 1)) 16) (.var 47),
    .call (some 48) Id.bf128_add [.ld 16 (.padd (.var 32) (.lit 2) 16), .ld 16 (.var 31)],
    .st 16 (.padd (.var 6) (.bin (.add .u32) (.var 30) (.lit 2)) 16) (.var 48),
    .call (some 49) Id.bf128_add [.ld 16 (.padd (.var 6) (.bin (.add .u32) (.var 30) (.lit 2)) 16), .ld 16 (.padd
      (.var 31) (.lit 1) 16)],
    .st 16 (.padd (.var 6) (.bin (.add .u32) (.var 30) (.lit 2)) 16) (.var 49),
    .call (some 50) Id.bf128_mul [.ld 16 (.padd (.var 31) (.lit 2) 16), .var 22],
    .call (some 51) Id.bf128_add [.ld 16 (.padd (.var 6) (.bin (.add .u32) (.var 30) (.lit 2)) 16), .var 50],
    .st 16 (.padd (.var 6) (.bin (.add .u32) (.var 30) (.lit 2)) 16) (.var 51),
    .call (some 52) Id.bf128_mul [.ld 16 (.padd (.var 31) (.lit 3) 16), .var 24],
    .call (some 53) Id.bf128_add [.ld 16 (.padd (.var 6) (.bin (.add .u32) (.var 30) (.lit 2)) 16), .var 52],
    .st 16 (.padd (.var 6) (.bin (.add .u32) (.var 30) (.lit 2)) 16) (.var 53),
    .call (some 54) Id.bf128_mul [.ld 16 (.var 31), .var 24],
    .call (some 55) Id.bf128_add [.ld 16 (.padd (.var 32) (.lit 3) 16), .var 54],
    .st 16 (.padd (.var 6) (.bin (.add .u32) (.var 30) (.lit 3)) 16) (.var 55)]

/-- part of `aes_enc_forward_128` -/
def aes_enc_forward_128.part1 : Stmt :=
  block [
    .call (some 56) Id.bf128_add [.ld 16 (.padd (.var 6) (.bin (.add .u32) (.var 30) (.lit 3)) 16), .ld 16 (.padd
      (.var 31) (.lit 1) 16)],
    .st 16 (.padd (.var 6) (.bin (.add .u32) (.var 30) (.lit 3)) 16) (.var 56),
    .call (some 57) Id.bf128_add [.ld 16 (.padd (.var 6) (.bin (.add .u32) (.var 30) (.lit 3)) 16), .ld 16 (.padd
      (.var 31) (.lit 2) 16)],
    .st 16 (.padd (.var 6) (.bin (.add .u32) (.var 30) (.lit 3)) 16) (.var 57),
    .call (some 58) Id.bf128_mul [.ld 16 (.padd (.var 31) (.lit 3) 16), .var 22],
    .call (some 59) Id.bf128_add [.ld 16 (.padd (.var 6) (.bin (.add .u32) (.var 30) (.lit 3)) 16), .var 58],
    .st 16 (.padd (.var 6) (.bin (.add .u32) (.var 30) (.lit 3)) 16) (.var 59)]

/-- `aes_enc_forward_128`, faest_aes.c:421-478; variables: 0 bf_x, 1 bf_xk, 2 in, 3 Mtag, 4 Mkey, 5 delta, 6 bf_y, 7
  bf_delta, 11 bf_factor, 15 i, 16 bf_xin, 17 j, 22 bf_two, 24 bf_three, 26 j, 27 c, 28 ix, 29 ik, 30 iy, 31
  bf_x_hat, 32 bf_xk_hat, 33 r -/
def aes_enc_forward_128 : Fn := ⟨7,
  block [
    .ite (.var 5)
      (block [
        .call (some 9) Id.bf128_load [.var 5],
        .asg 8 (.var 9)])
      (block [
        .call (some 10) Id.bf128_zero [],
        .asg 8 (.var 10)]),
    .asg 7 (.var 8),
    .call (some 12) Id.bf128_mul_bit [.var 7, .var 4],
    .call (some 13) Id.bf128_from_bit [.un (.cast .u8) (.bin (.bxor .i32) (.lit 1) (.var 4))],
    .call (some 14) Id.bf128_add [.var 12, .var 13],
    .asg 11 (.var 14),
    .asg 15 (.lit 0),
    .loop (.bin .lt (.var 15) (.lit 16))
      (block [
        .new 16 (.lit 128),
        .asg 17 (.lit 0),
        .loop (.bin .lt (.var 17) (.lit 8))
          (block [
            .call (some 18) Id.bf128_mul_bit [.var 11, .un (.cast .u8) (.bin (.band .i32) (.bin (.bxor .i32) (.lit 1)
              (.var 3)) (.bin (.band .i32) (.bin (.shr .i32) (.ld 1 (.padd (.var 2) (.var 15) 1)) (.var 17)) (.lit
              1)))],
            .st 16 (.padd (.var 16) (.var 17) 16) (.var 18)])
          (.asg 17 (.bin (.add .u32) (.var 17) (.lit 1))),
        .call (some 19) Id.bf128_byte_combine [.var 16],
        .call (some 20) Id.bf128_byte_combine [.padd (.var 1) (.bin (.mul .u32) (.lit 8) (.var 15)) 16],
        .call (some 21) Id.bf128_add [.var 19, .var 20],
        .st 16 (.padd (.var 6) (.var 15) 16) (.var 21)])
      (.asg 15 (.bin (.add .u32) (.var 15) (.lit 1))),
    .call (some 23) Id.bf128_byte_combine_bits [.lit 2],
    .asg 22 (.var 23),
    .call (some 25) Id.bf128_byte_combine_bits [.lit 3],
    .asg 24 (.var 25),
    .asg 26 (.lit 1),
    .loop (.bin .lt (.var 26) (.lit 10))
      (block [
        .asg 27 (.lit 0),
        .loop (.bin .le (.var 27) (.lit 3))
          (block [
            aes_enc_forward_128.part0,
            aes_enc_forward_128.part1])
          (.asg 27 (.bin (.add .u32) (.var 27) (.lit 1)))])
      (.asg 26 (.bin (.add .u32) (.var 26) (.lit 1)))]⟩

/-- `aes_enc_backward_128_1`, faest_aes.c:480-510; variables: 0 x, 1 xk, 2 out, 3 y_out, 4 xtilde, 5 j, 6 c, 7 r, 8
  ird, 9 xout, 10 ytilde -/
def aes_enc_backward_128_1 : Fn := ⟨4,
  block [
    .asg 5 (.lit 0),
    .loop (.bin .lt (.var 5) (.lit 10))
      (block [
        .asg 6 (.lit 0),
        .loop (.bin .le (.var 6) (.lit 3))
          (block [
            .asg 7 (.lit 0),
            .loop (.bin .le (.var 7) (.lit 3))
              (block [
                .asg 8 (.bin (.add .u32) (.bin (.add .u32) (.bin (.mul .u32) (.lit 128) (.var 5)) (.bin (.mul .u32)
                  (.lit 32) (.div (.mod .u32) (.bin (.add .u32) (.bin (.sub .u32) (.var 6) (.var 7)) (.lit 4)) (.lit
                  4)))) (.bin (.mul .u32) (.lit 8) (.var 7))),
                .ite (.bin .lt (.var 5) (.lit 9))
                  (.asg 4 (.ld 1 (.padd (.var 0) (.div (.div .u32) (.var 8) (.lit 8)) 1)))
                  (block [
                    .asg 9 (.ld 1 (.padd (.var 2) (.div (.div .u32) (.bin (.sub .u32) (.var 8) (.lit 1152)) (.lit 8))
                      1)),
                    .asg 4 (.un (.cast .u8) (.bin (.bxor .i32) (.var 9) (.ld 1 (.padd (.var 1) (.div (.div .u32)
                      (.bin (.add .u32) (.lit 128) (.var 8)) (.lit 8)) 1))))]),
                .call (some 11) Id.rotr8 [.var 4, .lit 7],
                .call (some 12) Id.rotr8 [.var 4, .lit 5],
                .call (some 13) Id.rotr8 [.var 4, .lit 2],
                .asg 10 (.un (.cast .u8) (.bin (.bxor .i32) (.bin (.bxor .i32) (.bin (.bxor .i32) (.var 11) (.var
                  12)) (.var 13)) (.lit 5))),
                .call (some 14) Id.bf128_byte_combine_bits [.var 10],
                .st 16 (.padd (.var 3) (.bin (.add .u32) (.bin (.add .u32) (.bin (.mul .u32) (.lit 16) (.var 5))
                  (.bin (.mul .u32) (.lit 4) (.var 6))) (.var 7)) 16) (.var 14)])
              (.asg 7 (.bin (.add .u32) (.var 7) (.lit 1)))])
          (.asg 6 (.bin (.add .u32) (.var 6) (.lit 1)))])
      (.asg 5 (.bin (.add .u32) (.var 5) (.lit 1)))]⟩

/-- `aes_enc_backward_128`, faest_aes.c:512-555; variables: 0 bf_x, 1 bf_xk, 2 Mtag, 3 Mkey, 4 delta, 5 out, 6 y_out,
  7 bf_delta, 11 factor, 16 j, 17 c, 18 r, 19 bf_x_tilde, 20 ird, 22 i, 23 bf_xout, 26 bf_y_tilde, 27 i -/
def aes_enc_backward_128 : Fn := ⟨7,
  block [
    .ite (.var 4)
      (block [
        .call (some 9) Id.bf128_load [.var 4],
        .asg 8 (.var 9)])
      (block [
        .call (some 10) Id.bf128_zero [],
        .asg 8 (.var 10)]),
    .asg 7 (.var 8),
    .call (some 12) Id.bf128_mul_bit [.var 7, .var 3],
    .call (some 13) Id.bf128_from_bit [.un (.cast .u8) (.bin (.bxor .i32) (.lit 1) (.var 3))],
    .call (some 14) Id.bf128_add [.var 12, .var 13],
    .call (some 15) Id.bf128_mul_bit [.var 14, .un (.cast .u8) (.bin (.bxor .i32) (.lit 1) (.var 2))],
    .asg 11 (.var 15),
    .asg 16 (.lit 0),
    .loop (.bin .lt (.var 16) (.lit 10))
      (block [
        .asg 17 (.lit 0),
        .loop (.bin .le (.var 17) (.lit 3))
          (block [
            .asg 18 (.lit 0),
            .loop (.bin .le (.var 18) (.lit 3))
              (block [
                .new 19 (.lit 128),
                .asg 20 (.bin (.add .u32) (.bin (.add .u32) (.bin (.mul .u32) (.lit 128) (.var 16)) (.bin (.mul .u32)
                  (.lit 32) (.div (.mod .u32) (.bin (.add .u32) (.bin (.sub .u32) (.var 17) (.var 18)) (.lit 4))
                  (.lit 4)))) (.bin (.mul .u32) (.lit 8) (.var 18))),
                .ite (.bin .lt (.var 16) (.lit 9))
                  (.call (some 21) Id.memcpy [.var 19, .padd (.var 0) (.var 20) 16, .lit 128])
                  (block [
                    .asg 22 (.lit 0),
                    .loop (.bin .lt (.var 22) (.lit 8))
                      (block [
                        .call (some 24) Id.bf128_mul_bit [.var 11, .un (.cast .u8) (.bin (.band .i32) (.bin (.shr
                          .i32) (.ld 1 (.padd (.var 5) (.div (.div .u32) (.bin (.sub .u32) (.var 20) (.lit 1152))
                          (.lit 8)) 1)) (.var 22)) (.lit 1))],
                        .asg 23 (.var 24),
                        .call (some 25) Id.bf128_add [.var 23, .ld 16 (.padd (.var 1) (.bin (.add .u32) (.bin (.add
                          .u32) (.lit 128) (.var 20)) (.var 22)) 16)],
                        .st 16 (.padd (.var 19) (.var 22) 16) (.var 25)])
                      (.asg 22 (.bin (.add .u32) (.var 22) (.lit 1)))]),
                .new 26 (.lit 128),
                .asg 27 (.lit 0),
                .loop (.bin .lt (.var 27) (.lit 8))
                  (block [
                    .call (some 28) Id.bf128_add [.ld 16 (.padd (.var 19) (.div (.mod .u32) (.bin (.add .u32) (.var
                      27) (.lit 7)) (.lit 8)) 16), .ld 16 (.padd (.var 19) (.div (.mod .u32) (.bin (.add .u32) (.var
                      27) (.lit 5)) (.lit 8)) 16)],
                    .call (some 29) Id.bf128_add [.var 28, .ld 16 (.padd (.var 19) (.div (.mod .u32) (.bin (.add
                      .u32) (.var 27) (.lit 2)) (.lit 8)) 16)],
                    .st 16 (.padd (.var 26) (.var 27) 16) (.var 29)])
                  (.asg 27 (.bin (.add .u32) (.var 27) (.lit 1))),
                .call (some 30) Id.bf128_add [.ld 16 (.var 26), .var 11],
                .st 16 (.var 26) (.var 30),
                .call (some 31) Id.bf128_add [.ld 16 (.padd (.var 26) (.lit 2) 16), .var 11],
                .st 16 (.padd (.var 26) (.lit 2) 16) (.var 31),
                .call (some 32) Id.bf128_byte_combine [.var 26],
                .st 16 (.padd (.var 6) (.bin (.add .u32) (.bin (.add .u32) (.bin (.mul .u32) (.lit 16) (.var 16))
                  (.bin (.mul .u32) (.lit 4) (.var 17))) (.var 18)) 16) (.var 32)])
              (.asg 18 (.bin (.add .u32) (.var 18) (.lit 1)))])
          (.asg 17 (.bin (.add .u32) (.var 17) (.lit 1)))])
      (.asg 16 (.bin (.add .u32) (.var 16) (.lit 1)))]⟩

/-- `aes_enc_constraints_Mkey_0_128`, faest_aes.c:557-578; variables: 0 in, 1 out, 2 w, 3 v, 4 k, 5 vk, 6 a0_ctx, 7
  a1_ctx, 8 s, 9 vs, 10 s_dash, 11 vs_dash, 12 j, 13 tmp -/
def aes_enc_constraints_Mkey_0_128 : Fn := ⟨8,
  block [
    .new 8 (.lit 2560),
    .new 9 (.lit 2560),
    .new 10 (.lit 2560),
    .new 11 (.lit 2560),
    .call none Id.aes_enc_forward_128_1 [.var 2, .var 4, .var 0, .var 8],
    .call none Id.aes_enc_forward_128 [.var 3, .var 5, .var 0, .lit 1, .lit 0, .lit 0, .var 9],
    .call none Id.aes_enc_backward_128_1 [.var 2, .var 4, .var 1, .var 10],
    .call none Id.aes_enc_backward_128 [.var 3, .var 5, .lit 1, .lit 0, .lit 0, .var 1, .var 11],
    .asg 12 (.lit 0),
    .loop (.bin .lt (.var 12) (.lit 160))
      (block [
        .call (some 14) Id.bf128_mul [.ld 16 (.padd (.var 9) (.var 12) 16), .ld 16 (.padd (.var 11) (.var 12) 16)],
        .asg 13 (.var 14),
        .call none Id.zk_hash_128_update [.var 6, .var 13],
        .call (some 15) Id.bf128_add [.ld 16 (.padd (.var 8) (.var 12) 16), .ld 16 (.padd (.var 9) (.var 12) 16)],
        .call (some 16) Id.bf128_add [.ld 16 (.padd (.var 10) (.var 12) 16), .ld 16 (.padd (.var 11) (.var 12) 16)],
        .call (some 17) Id.bf128_mul [.var 15, .var 16],
        .call (some 18) Id.bf128_add [.var 17, .var 13],
        .call (some 19) Id.bf128_one [],
        .call (some 20) Id.bf128_add [.var 18, .var 19],
        .call none Id.zk_hash_128_update [.var 7, .var 20]])
      (.asg 12 (.bin (.add .u32) (.var 12) (.lit 1)))]⟩

/-- `aes_prove_128`, faest_aes.c:598-632; variables: 0 w, 1 u, 2 V, 3 in, 4 out, 5 chall, 6 a_tilde, 7 b_tilde, 8
  params, 9 bf_v, 11 k, 13 vk, 15 a0_ctx, 16 a1_ctx -/
def aes_prove_128 : Fn := ⟨9,
  block [
    .call (some 10) Id.column_to_row_major_and_shrink_V_128 [.var 2, .lit 1600],
    .asg 9 (.var 10),
    .new 12 (.lit 176),
    .asg 11 (.var 12),
    .new 14 (.lit 22528),
    .asg 13 (.var 14),
    .new 15 (.lit 64),
    .new 16 (.lit 64),
    .call none Id.zk_hash_128_init [.var 15, .var 5],
    .call none Id.zk_hash_128_init [.var 16, .var 5],
    .call none Id.aes_key_schedule_constraints_Mkey_0_128 [.var 0, .var 9, .var 15, .var 16, .var 11, .var 13, .var
      8],
    .call none Id.aes_enc_constraints_Mkey_0_128 [.var 3, .var 4, .padd (.var 0) (.lit 56) 1, .padd (.var 9) (.lit
      448) 16, .var 11, .var 13, .var 15, .var 16],
    .free (.var 13),
    .free (.var 11),
    .call (some 17) Id.bf128_load [.padd (.var 1) (.lit 200) 1],
    .call none Id.zk_hash_128_finalize [.var 6, .var 16, .var 17],
    .call (some 18) Id.bf128_sum_poly [.padd (.var 9) (.lit 1600) 16],
    .call none Id.zk_hash_128_finalize [.var 7, .var 15, .var 18],
    .free (.var 9)]⟩

/-- part of `em_enc_forward_128_1` -/
def em_enc_forward_128_1.part0 : Stmt :=
  block [
    .asg 13 (.bin (.add .u32) (.bin (.mul .u32) (.lit 128) (.var 11)) (.bin (.mul .u32) (.lit 32) (.var 12))),
    .asg 14 (.bin (.add .u32) (.bin (.mul .u32) (.lit 16) (.var 11)) (.bin (.mul .u32) (.lit 4) (.var 12))),
    .new 15 (.lit 64),
    .new 16 (.lit 64),
    .asg 17 (.lit 0),
    .loop (.bin .le (.var 17) (.lit 3))
      (block [
        .call (some 18) Id.bf128_byte_combine_bits [.ld 1 (.padd (.var 0) (.div (.div .u32) (.bin (.add .u32) (.var
          13) (.bin (.mul .u32) (.lit 8) (.var 17))) (.lit 8)) 1)],
        .st 16 (.padd (.var 16) (.var 17) 16) (.var 18),
        .call (some 19) Id.bf128_byte_combine_bits [.ld 1 (.padd (.var 1) (.div (.div .u32) (.bin (.add .u32) (.var
          13) (.bin (.mul .u32) (.lit 8) (.var 17))) (.lit 8)) 1)],
        .st 16 (.padd (.var 15) (.var 17) 16) (.var 19)])
      (.asg 17 (.bin (.add .u32) (.var 17) (.lit 1))),
    .call (some 20) Id.bf128_mul [.ld 16 (.var 16), .var 7],
    .call (some 21) Id.bf128_mul [.ld 16 (.padd (.var 16) (.lit 1) 16), .var 9],
    .call (some 22) Id.bf128_add [.var 20, .var 21],
    .st 16 (.padd (.var 2) (.bin (.add .u32) (.var 14) (.lit 0)) 16) (.var 22),
    .call (some 23) Id.bf128_add [.ld 16 (.padd (.var 2) (.bin (.add .u32) (.var 14) (.lit 0)) 16), .ld 16 (.padd
      (.var 16) (.lit 2) 16)],
    .st 16 (.padd (.var 2) (.bin (.add .u32) (.var 14) (.lit 0)) 16) (.var 23),
    .call (some 24) Id.bf128_add [.ld 16 (.padd (.var 2) (.bin (.add .u32) (.var 14) (.lit 0)) 16), .ld 16 (.padd
      (.var 16) (.lit 3) 16)],
    .st 16 (.padd (.var 2) (.bin (.add .u32) (.var 14) (.lit 0)) 16) (.var 24),
    .call (some 25) Id.bf128_add [.ld 16 (.padd (.var 2) (.bin (.add .u32) (.var 14) (.lit 0)) 16), .ld 16 (.var 15)],
    .st 16 (.padd (.var 2) (.bin (.add .u32) (.var 14) (.lit 0)) 16) (.var 25),
    .call (some 26) Id.bf128_mul [.ld 16 (.padd (.var 16) (.lit 1) 16), .var 7],
    .call (some 27) Id.bf128_add [.ld 16 (.var 16), .var 26],
    .st 16 (.padd (.var 2) (.bin (.add .u32) (.var 14) (.lit 1)) 16) (.var 27),
    .call (some 28) Id.bf128_mul [.ld 16 (.padd (.var 16) (.lit 2) 16), .var 9],
    .call (some 29) Id.bf128_add [.ld 16 (.padd (.var 2) (.bin (.add .u32) (.var 14) (.lit 1)) 16), .var 28],
    .st 16 (.padd (.var 2) (.bin (.add .u32) (.var 14) (.lit 1)) 16) (.var 29),
    .call (some 30) Id.bf128_add [.ld 16 (.padd (.var 2) (.bin (.add .u32) (.var 14) (.lit 1)) 16), .ld 16 (.padd
      (.var 16) (.lit 3) 16)],
    .st 16 (.padd (.var 2) (.bin (.add .u32) (.var 14) (.lit 1)) 16) (.var 30),
    .call (some 31) Id.bf128_add [.ld 16 (.padd (.var 2) (.bin (.add .u32) (.var 14) (.lit 1)) 16), .ld 16 (.padd
      (.var 15) (.lit 1) 16)],
    .st 16 (.padd (.var 2) (.bin (.add .u32) (.var 14) (.lit 1)) 16) (.var 31),
    .call (some 32) Id.bf128_add [.ld 16 (.var 16), .ld 16 (.padd (.var 16) (.lit 1) 16)],
    .st 16 (.padd (.var 2) (.bin (.add .u32) (.var 14) (.lit 2)) 16) (.var 32),
    .call (some 33) Id.bf128_mul [.ld 16 (.padd (.var 16) (.lit 2) 16), .var 7],
    .call (some 34) Id.bf128_add [.ld 16 (.padd (.var 2) (.bin (.add .u32) (.var 14) (.lit 2)) 16), .var 33],
    .st 16 (.padd (.var 2) (.bin (.add .u32) (.var 14) (.lit 2)) 16) (.var 34),
    .call (some 35) Id.bf128_mul [.ld 16 (.padd (.var 16) (.lit 3) 16), .var 9],
    .call (some 36) Id.bf128_add [.ld 16 (.padd (.var 2) (.bin (.add .u32) (.var 14) (.lit 2)) 16), .var 35],
    .st 16 (.padd (.var 2) (.bin (.add .u32) (.var 14) (.lit 2)) 16) (.var 36),
    .call (some 37) Id.bf128_add [.ld 16 (.padd (.var 2) (.bin (.add .u32) (.var 14) (.lit 2)) 16), .ld 16 (.padd
      (.var 15) (.lit 2) 16)],
    .st 16 (.padd (.var 2) (.bin (.add .u32) (.var 14) (.lit 2)) 16) (.var 37),
    .call (some 38) Id.bf128_mul [.ld 16 (.var 16), .var 9],
    .call (some 39) Id.bf128_add [.var 38, .ld 16 (.padd (.var 16) (.lit 1) 16)],
    .st 16 (.padd (.var 2) (.bin (.add .u32) (.var 14) (.lit 3)) 16) (.var 39),
    .call (some 40) Id.bf128_add [.ld 16 (.padd (.var 2) (.bin (.add .u32) (.var 14) (.lit 3)) 16), .ld 16 (.padd
      (.var 16) (.lit 2) 16)]]

/-- part of `em_enc_forward_128_1` -/
def em_enc_forward_128_1.part1 : Stmt :=
  block [
    .st 16 (.padd (.var 2) (.bin (.add .u32) (.var 14) (.lit 3)) 16) (.var 40),
    .call (some 41) Id.bf128_mul [.ld 16 (.padd (.var 16) (.lit 3) 16), .var 7],
    .call (some 42) Id.bf128_add [.ld 16 (.padd (.var 2) (.bin (.add .u32) (.var 14) (.lit 3)) 16), .var 41],
    .st 16 (.padd (.var 2) (.bin (.add .u32) (.var 14) (.lit 3)) 16) (.var 42),
    .call (some 43) Id.bf128_add [.ld 16 (.padd (.var 2) (.bin (.add .u32) (.var 14) (.lit 3)) 16), .ld 16 (.padd
      (.var 15) (.lit 3) 16)],
    .st 16 (.padd (.var 2) (.bin (.add .u32) (.var 14) (.lit 3)) 16) (.var 43)]

/-- `em_enc_forward_128_1`, faest_aes.c:1657-1699; variables: 0 z, 1 x, 2 bf_y, 3 j, 7 bf_two, 9 bf_three, 11 j, 12
  c, 13 i, 14 iy, 15 bf_x_hat, 16 bf_z_hat, 17 r -/
def em_enc_forward_128_1 : Fn := ⟨3,
  block [
    .asg 3 (.lit 0),
    .loop (.bin .lt (.var 3) (.lit 16))
      (block [
        .call (some 4) Id.bf128_byte_combine_bits [.ld 1 (.padd (.var 0) (.var 3) 1)],
        .call (some 5) Id.bf128_byte_combine_bits [.ld 1 (.padd (.var 1) (.var 3) 1)],
        .call (some 6) Id.bf128_add [.var 4, .var 5],
        .st 16 (.padd (.var 2) (.var 3) 16) (.var 6)])
      (.asg 3 (.bin (.add .u32) (.var 3) (.lit 1))),
    .call (some 8) Id.bf128_byte_combine_bits [.lit 2],
    .asg 7 (.var 8),
    .call (some 10) Id.bf128_byte_combine_bits [.lit 3],
    .asg 9 (.var 10),
    .asg 11 (.lit 1),
    .loop (.bin .lt (.var 11) (.lit 10))
      (block [
        .asg 12 (.lit 0),
        .loop (.bin .lt (.var 12) (.lit 4))
          (block [
            em_enc_forward_128_1.part0,
            em_enc_forward_128_1.part1])
          (.asg 12 (.bin (.add .u32) (.var 12) (.lit 1)))])
      (.asg 11 (.bin (.add .u32) (.var 11) (.lit 1)))]⟩

/-- part of `em_enc_forward_128` -/
def em_enc_forward_128.part0 : Stmt :=
  block [
    .asg 13 (.bin (.add .u32) (.bin (.mul .u32) (.lit 128) (.var 11)) (.bin (.mul .u32) (.lit 32) (.var 12))),
    .asg 14 (.bin (.add .u32) (.bin (.mul .u32) (.lit 16) (.var 11)) (.bin (.mul .u32) (.lit 4) (.var 12))),
    .new 15 (.lit 64),
    .new 16 (.lit 64),
    .asg 17 (.lit 0),
    .loop (.bin .le (.var 17) (.lit 3))
      (block [
        .call (some 18) Id.bf128_byte_combine [.padd (.var 0) (.bin (.add .u32) (.var 13) (.bin (.mul .u32) (.lit 8)
          (.var 17))) 16],
        .st 16 (.padd (.var 16) (.var 17) 16) (.var 18),
        .ite (.var 1)
          (block [
            .call (some 19) Id.bf128_byte_combine [.padd (.var 1) (.bin (.add .u32) (.var 13) (.bin (.mul .u32) (.lit
              8) (.var 17))) 16],
            .st 16 (.padd (.var 15) (.var 17) 16) (.var 19)])
          (block [
            .call (some 20) Id.bf128_zero [],
            .st 16 (.padd (.var 15) (.var 17) 16) (.var 20)])])
      (.asg 17 (.bin (.add .u32) (.var 17) (.lit 1))),
    .call (some 21) Id.bf128_mul [.ld 16 (.var 16), .var 7],
    .call (some 22) Id.bf128_mul [.ld 16 (.padd (.var 16) (.lit 1) 16), .var 9],
    .call (some 23) Id.bf128_add [.var 21, .var 22],
    .st 16 (.padd (.var 2) (.bin (.add .u32) (.var 14) (.lit 0)) 16) (.var 23),
    .call (some 24) Id.bf128_add [.ld 16 (.padd (.var 2) (.bin (.add .u32) (.var 14) (.lit 0)) 16), .ld 16 (.padd
      (.var 16) (.lit 2) 16)],
    .st 16 (.padd (.var 2) (.bin (.add .u32) (.var 14) (.lit 0)) 16) (.var 24),
    .call (some 25) Id.bf128_add [.ld 16 (.padd (.var 2) (.bin (.add .u32) (.var 14) (.lit 0)) 16), .ld 16 (.padd
      (.var 16) (.lit 3) 16)],
    .st 16 (.padd (.var 2) (.bin (.add .u32) (.var 14) (.lit 0)) 16) (.var 25),
    .call (some 26) Id.bf128_add [.ld 16 (.padd (.var 2) (.bin (.add .u32) (.var 14) (.lit 0)) 16), .ld 16 (.var 15)],
    .st 16 (.padd (.var 2) (.bin (.add .u32) (.var 14) (.lit 0)) 16) (.var 26),
    .call (some 27) Id.bf128_mul [.ld 16 (.padd (.var 16) (.lit 1) 16), .var 7],
    .call (some 28) Id.bf128_add [.ld 16 (.var 16), .var 27],
    .st 16 (.padd (.var 2) (.bin (.add .u32) (.var 14) (.lit 1)) 16) (.var 28),
    .call (some 29) Id.bf128_mul [.ld 16 (.padd (.var 16) (.lit 2) 16), .var 9],
    .call (some 30) Id.bf128_add [.ld 16 (.padd (.var 2) (.bin (.add .u32) (.var 14) (.lit 1)) 16), .var 29],
    .st 16 (.padd (.var 2) (.bin (.add .u32) (.var 14) (.lit 1)) 16) (.var 30),
    .call (some 31) Id.bf128_add [.ld 16 (.padd (.var 2) (.bin (.add .u32) (.var 14) (.lit 1)) 16), .ld 16 (.padd
      (.var 16) (.lit 3) 16)],
    .st 16 (.padd (.var 2) (.bin (.add .u32) (.var 14) (.lit 1)) 16) (.var 31),
    .call (some 32) Id.bf128_add [.ld 16 (.padd (.var 2) (.bin (.add .u32) (.var 14) (.lit 1)) 16), .ld 16 (.padd
      (.var 15) (.lit 1) 16)],
    .st 16 (.padd (.var 2) (.bin (.add .u32) (.var 14) (.lit 1)) 16) (.var 32),
    .call (some 33) Id.bf128_add [.ld 16 (.var 16), .ld 16 (.padd (.var 16) (.lit 1) 16)],
    .st 16 (.padd (.var 2) (.bin (.add .u32) (.var 14) (.lit 2)) 16) (.var 33),
    .call (some 34) Id.bf128_mul [.ld 16 (.padd (.var 16) (.lit 2) 16), .var 7],
    .call (some 35) Id.bf128_add [.ld 16 (.padd (.var 2) (.bin (.add .u32) (.var 14) (.lit 2)) 16), .var 34],
    .st 16 (.padd (.var 2) (.bin (.add .u32) (.var 14) (.lit 2)) 16) (.var 35),
    .call (some 36) Id.bf128_mul [.ld 16 (.padd (.var 16) (.lit 3) 16), .var 9],
    .call (some 37) Id.bf128_add [.ld 16 (.padd (.var 2) (.bin (.add .u32) (.var 14) (.lit 2)) 16), .var 36],
    .st 16 (.padd (.var 2) (.bin (.add .u32) (.var 14) (.lit 2)) 16) (.var 37),
    .call (some 38) Id.bf128_add [.ld 16 (.padd (.var 2) (.bin (.add .u32) (.var 14) (.lit 2)) 16), .ld 16 (.padd
      (.var 15) (.lit 2) 16)],
    .st 16 (.padd (.var 2) (.bin (.add .u32) (.var 14) (.lit 2)) 16) (.var 38),
    .call (some 39) Id.bf128_mul [.ld 16 (.var 16), .var 9],
    .call (some 40) Id.bf128_add [.var 39, .ld 16 (.padd (.var 16) (.lit 1) 16)],
    .st 16 (.padd (.var 2) (.bin (.add .u32) (.var 14) (.lit 3)) 16) (.var 40),
    .call (some 41) Id.bf128_add [.ld 16 (.padd (.var 2) (.bin (.add .u32) (.var 14) (.lit 3)) 16), .ld 16 (.padd
      (.var 16) (.lit 2) 16)]]

/-- part of `em_enc_forward_128` -/
def em_enc_forward_128.part1 : Stmt :=
  block [
    .st 16 (.padd (.var 2) (.bin (.add .u32) (.var 14) (.lit 3)) 16) (.var 41),
    .call (some 42) Id.bf128_mul [.ld 16 (.padd (.var 16) (.lit 3) 16), .var 7],
    .call (some 43) Id.bf128_add [.ld 16 (.padd (.var 2) (.bin (.add .u32) (.var 14) (.lit 3)) 16), .var 42],
    .st 16 (.padd (.var 2) (.bin (.add .u32) (.var 14) (.lit 3)) 16) (.var 43),
    .call (some 44) Id.bf128_add [.ld 16 (.padd (.var 2) (.bin (.add .u32) (.var 14) (.lit 3)) 16), .ld 16 (.padd
      (.var 15) (.lit 3) 16)],
    .st 16 (.padd (.var 2) (.bin (.add .u32) (.var 14) (.lit 3)) 16) (.var 44)]

/-- `em_enc_forward_128`, faest_aes.c:1701-1751; variables: 0 bf_z, 1 bf_x, 2 bf_y, 3 j, 7 bf_two, 9 bf_three, 11 j,
  12 c, 13 i, 14 iy, 15 bf_x_hat, 16 bf_z_hat, 17 r -/
def em_enc_forward_128 : Fn := ⟨3,
  block [
    .asg 3 (.lit 0),
    .loop (.bin .lt (.var 3) (.lit 16))
      (block [
        .call (some 4) Id.bf128_byte_combine [.padd (.var 0) (.bin (.mul .u32) (.lit 8) (.var 3)) 16],
        .st 16 (.padd (.var 2) (.var 3) 16) (.var 4),
        .ite (.var 1)
          (block [
            .call (some 5) Id.bf128_byte_combine [.padd (.var 1) (.bin (.mul .u32) (.lit 8) (.var 3)) 16],
            .call (some 6) Id.bf128_add [.ld 16 (.padd (.var 2) (.var 3) 16), .var 5],
            .st 16 (.padd (.var 2) (.var 3) 16) (.var 6)])
          (.skip)])
      (.asg 3 (.bin (.add .u32) (.var 3) (.lit 1))),
    .call (some 8) Id.bf128_byte_combine_bits [.lit 2],
    .asg 7 (.var 8),
    .call (some 10) Id.bf128_byte_combine_bits [.lit 3],
    .asg 9 (.var 10),
    .asg 11 (.lit 1),
    .loop (.bin .lt (.var 11) (.lit 10))
      (block [
        .asg 12 (.lit 0),
        .loop (.bin .lt (.var 12) (.lit 4))
          (block [
            em_enc_forward_128.part0,
            em_enc_forward_128.part1])
          (.asg 12 (.bin (.add .u32) (.var 12) (.lit 1)))])
      (.asg 11 (.bin (.add .u32) (.var 11) (.lit 1)))]⟩

/-- `em_enc_backward_128_1`, faest_aes.c:1753-1780; variables: 0 z, 1 x, 2 z_out, 3 y_out, 4 j, 5 c, 6 r, 7 icol, 8
  ird, 9 z_tilde, 10 y_tilde -/
def em_enc_backward_128_1 : Fn := ⟨4,
  block [
    .asg 4 (.lit 0),
    .loop (.bin .lt (.var 4) (.lit 10))
      (block [
        .asg 5 (.lit 0),
        .loop (.bin .lt (.var 5) (.lit 4))
          (block [
            .asg 6 (.lit 0),
            .loop (.bin .le (.var 6) (.lit 3))
              (block [
                .asg 7 (.div (.mod .u32) (.bin (.add .u32) (.bin (.sub .u32) (.var 5) (.var 6)) (.lit 4)) (.lit 4)),
                .asg 8 (.bin (.add .u32) (.bin (.add .u32) (.bin (.add .u32) (.lit 128) (.bin (.mul .u32) (.lit 128)
                  (.var 4))) (.bin (.mul .u32) (.lit 32) (.var 7))) (.bin (.mul .u32) (.lit 8) (.var 6))),
                .asg 9 (.lit 0),
                .ite (.bin .lt (.var 4) (.lit 9))
                  (.asg 9 (.ld 1 (.padd (.var 0) (.div (.div .u32) (.var 8) (.lit 8)) 1)))
                  (.asg 9 (.un (.cast .u8) (.bin (.bxor .i32) (.ld 1 (.padd (.var 2) (.div (.div .u32) (.bin (.sub
                    .u32) (.var 8) (.bin (.mul .u32) (.lit 128) (.bin (.add .u32) (.var 4) (.lit 1)))) (.lit 8)) 1))
                    (.ld 1 (.padd (.var 1) (.div (.div .u32) (.var 8) (.lit 8)) 1))))),
                .call (some 11) Id.rotr8 [.var 9, .lit 7],
                .call (some 12) Id.rotr8 [.var 9, .lit 5],
                .call (some 13) Id.rotr8 [.var 9, .lit 2],
                .asg 10 (.un (.cast .u8) (.bin (.bxor .i32) (.bin (.bxor .i32) (.bin (.bxor .i32) (.var 11) (.var
                  12)) (.var 13)) (.lit 5))),
                .call (some 14) Id.bf128_byte_combine_bits [.var 10],
                .st 16 (.padd (.var 3) (.bin (.add .u32) (.bin (.add .u32) (.bin (.mul .u32) (.lit 16) (.var 4))
                  (.bin (.mul .u32) (.lit 4) (.var 5))) (.var 6)) 16) (.var 14)])
              (.asg 6 (.bin (.add .u32) (.var 6) (.lit 1)))])
          (.asg 5 (.bin (.add .u32) (.var 5) (.lit 1)))])
      (.asg 4 (.bin (.add .u32) (.var 4) (.lit 1)))]⟩

/-- `em_enc_backward_128`, faest_aes.c:1782-1822; variables: 0 bf_z, 1 bf_x, 2 bf_z_out, 3 Mtag, 4 Mkey, 5 delta, 6
  y_out, 7 bf_delta, 11 factor, 16 j, 17 c, 18 r, 19 bf_z_tilde, 20 icol, 21 ird, 23 i, 25 bf_y_tilde, 26 i -/
def em_enc_backward_128 : Fn := ⟨7,
  block [
    .ite (.var 5)
      (block [
        .call (some 9) Id.bf128_load [.var 5],
        .asg 8 (.var 9)])
      (block [
        .call (some 10) Id.bf128_zero [],
        .asg 8 (.var 10)]),
    .asg 7 (.var 8),
    .call (some 12) Id.bf128_mul_bit [.var 7, .var 4],
    .call (some 13) Id.bf128_from_bit [.un (.cast .u8) (.bin (.bxor .i32) (.lit 1) (.var 4))],
    .call (some 14) Id.bf128_add [.var 12, .var 13],
    .call (some 15) Id.bf128_mul_bit [.var 14, .un (.cast .u8) (.bin (.bxor .i32) (.lit 1) (.var 3))],
    .asg 11 (.var 15),
    .asg 16 (.lit 0),
    .loop (.bin .lt (.var 16) (.lit 10))
      (block [
        .asg 17 (.lit 0),
        .loop (.bin .lt (.var 17) (.lit 4))
          (block [
            .asg 18 (.lit 0),
            .loop (.bin .le (.var 18) (.lit 3))
              (block [
                .new 19 (.lit 128),
                .asg 20 (.div (.mod .u32) (.bin (.add .u32) (.bin (.sub .u32) (.var 17) (.var 18)) (.lit 4)) (.lit
                  4)),
                .asg 21 (.bin (.add .u32) (.bin (.add .u32) (.bin (.add .u32) (.lit 128) (.bin (.mul .u32) (.lit 128)
                  (.var 16))) (.bin (.mul .u32) (.lit 32) (.var 20))) (.bin (.mul .u32) (.lit 8) (.var 18))),
                .ite (.bin .lt (.var 16) (.lit 9))
                  (.call (some 22) Id.memcpy [.var 19, .padd (.var 0) (.var 21) 16, .lit 128])
                  (block [
                    .asg 23 (.lit 0),
                    .loop (.bin .lt (.var 23) (.lit 8))
                      (block [
                        .st 16 (.padd (.var 19) (.var 23) 16) (.ld 16 (.padd (.var 2) (.bin (.add .u32) (.bin (.sub
                          .u32) (.var 21) (.bin (.mul .u32) (.lit 128) (.bin (.add .u32) (.var 16) (.lit 1)))) (.var
                          23)) 16)),
                        .ite (.var 1)
                          (block [
                            .call (some 24) Id.bf128_add [.ld 16 (.padd (.var 19) (.var 23) 16), .ld 16 (.padd (.var
                              1) (.bin (.add .u32) (.var 21) (.var 23)) 16)],
                            .st 16 (.padd (.var 19) (.var 23) 16) (.var 24)])
                          (.skip)])
                      (.asg 23 (.bin (.add .u32) (.var 23) (.lit 1)))]),
                .new 25 (.lit 128),
                .asg 26 (.lit 0),
                .loop (.bin .lt (.var 26) (.lit 8))
                  (block [
                    .call (some 27) Id.bf128_add [.ld 16 (.padd (.var 19) (.div (.mod .u32) (.bin (.add .u32) (.var
                      26) (.lit 7)) (.lit 8)) 16), .ld 16 (.padd (.var 19) (.div (.mod .u32) (.bin (.add .u32) (.var
                      26) (.lit 5)) (.lit 8)) 16)],
                    .call (some 28) Id.bf128_add [.var 27, .ld 16 (.padd (.var 19) (.div (.mod .u32) (.bin (.add
                      .u32) (.var 26) (.lit 2)) (.lit 8)) 16)],
                    .st 16 (.padd (.var 25) (.var 26) 16) (.var 28)])
                  (.asg 26 (.bin (.add .u32) (.var 26) (.lit 1))),
                .call (some 29) Id.bf128_add [.ld 16 (.var 25), .var 11],
                .st 16 (.var 25) (.var 29),
                .call (some 30) Id.bf128_add [.ld 16 (.padd (.var 25) (.lit 2) 16), .var 11],
                .st 16 (.padd (.var 25) (.lit 2) 16) (.var 30),
                .call (some 31) Id.bf128_byte_combine [.var 25],
                .st 16 (.padd (.var 6) (.bin (.add .u32) (.bin (.add .u32) (.bin (.mul .u32) (.lit 16) (.var 16))
                  (.bin (.mul .u32) (.lit 4) (.var 17))) (.var 18)) 16) (.var 31)])
              (.asg 18 (.bin (.add .u32) (.var 18) (.lit 1)))])
          (.asg 17 (.bin (.add .u32) (.var 17) (.lit 1)))])
      (.asg 16 (.bin (.add .u32) (.var 16) (.lit 1)))]⟩

/-- `em_enc_constraints_Mkey_0_128`, faest_aes.c:1824-1849; variables: 0 out, 1 x, 2 w, 3 bf_v, 4 a0_ctx, 5 a1_ctx, 6
  w_out, 7 bf_s, 8 bf_vs, 9 bf_s_dash, 10 bf_vs_dash, 11 j, 12 tmp -/
def em_enc_constraints_Mkey_0_128 : Fn := ⟨6,
  block [
    .new 6 (.lit 16),
    .call none Id.xor_u8_array [.var 0, .var 2, .var 6, .lit 16],
    .new 7 (.lit 2560),
    .new 8 (.lit 2560),
    .new 9 (.lit 2560),
    .new 10 (.lit 2560),
    .call none Id.em_enc_forward_128_1 [.var 2, .var 1, .var 7],
    .call none Id.em_enc_forward_128 [.var 3, .lit 0, .var 8],
    .call none Id.em_enc_backward_128_1 [.var 2, .var 1, .var 6, .var 9],
    .call none Id.em_enc_backward_128 [.var 3, .lit 0, .var 3, .lit 1, .lit 0, .lit 0, .var 10],
    .asg 11 (.lit 0),
    .loop (.bin .lt (.var 11) (.lit 160))
      (block [
        .call (some 13) Id.bf128_mul [.ld 16 (.padd (.var 8) (.var 11) 16), .ld 16 (.padd (.var 10) (.var 11) 16)],
        .asg 12 (.var 13),
        .call none Id.zk_hash_128_update [.var 4, .var 12],
        .call (some 14) Id.bf128_add [.ld 16 (.padd (.var 7) (.var 11) 16), .ld 16 (.padd (.var 8) (.var 11) 16)],
        .call (some 15) Id.bf128_add [.ld 16 (.padd (.var 9) (.var 11) 16), .ld 16 (.padd (.var 10) (.var 11) 16)],
        .call (some 16) Id.bf128_mul [.var 14, .var 15],
        .call (some 17) Id.bf128_add [.var 16, .var 12],
        .call (some 18) Id.bf128_one [],
        .call (some 19) Id.bf128_add [.var 17, .var 18],
        .call none Id.zk_hash_128_update [.var 5, .var 19]])
      (.asg 11 (.bin (.add .u32) (.var 11) (.lit 1)))]⟩

/-- `em_prove_128`, faest_aes.c:1881-1910; variables: 0 w, 1 u, 2 V, 3 in, 4 out, 5 chall, 6 a_tilde, 7 b_tilde, 8 x,
  9 round_keys, 11 tmp_x, 12 r, 13 i, 15 bf_v, 17 a0_ctx, 18 a1_ctx -/
def em_prove_128 : Fn := ⟨8,
  block [
    .new 8 (.lit 1408),
    .new 9 (.lit 480),
    .call (some 10) Id.aes128_init_round_keys [.var 9, .var 3],
    .asg 11 (.var 8),
    .asg 12 (.lit 0),
    .loop (.bin .ne (.var 12) (.lit 11))
      (block [
        .asg 13 (.lit 0),
        .loop (.bin .ne (.var 13) (.lit 4))
          (block [
            .call (some 14) Id.memcpy [.var 11, .padd (.padd (.var 9) (.var 12) 32) (.var 13) 4, .lit 4],
            .asg 11 (.padd (.var 11) (.lit 4) 1)])
          (.asg 13 (.bin (.add .u32) (.var 13) (.lit 1)))])
      (.asg 12 (.bin (.add .u32) (.var 12) (.lit 1))),
    .call (some 16) Id.column_to_row_major_and_shrink_V_128 [.var 2, .lit 1280],
    .asg 15 (.var 16),
    .new 17 (.lit 64),
    .new 18 (.lit 64),
    .call none Id.zk_hash_128_init [.var 17, .var 5],
    .call none Id.zk_hash_128_init [.var 18, .var 5],
    .call none Id.em_enc_constraints_Mkey_0_128 [.var 4, .var 8, .var 0, .var 15, .var 17, .var 18],
    .call (some 19) Id.bf128_load [.padd (.var 1) (.lit 160) 1],
    .call none Id.zk_hash_128_finalize [.var 6, .var 18, .var 19],
    .call (some 20) Id.bf128_sum_poly [.padd (.var 15) (.lit 1280) 16],
    .call none Id.zk_hash_128_finalize [.var 7, .var 17, .var 20],
    .free (.var 15)]⟩

/-- `aes_prove`, faest_aes.c:2590-2615; variables: 0 w, 1 u, 2 V, 3 in, 4 out, 5 chall, 6 a_tilde, 7 b_tilde, 8
  params -/
def aes_prove : Fn := ⟨9,
  block [
    .asg 9 (.ld 2 (.var 8)),
    .ite (.bin .eq (.var 9) (.lit 256))
      (.ite (.ld 2 (.padd (.var 8) (.lit 12) 1))
          (.call none Id.aes_prove_256 [.var 0, .var 1, .var 2, .var 3, .var 4, .var 5, .var 6, .var 7, .var 8])
          (.call none Id.em_prove_256 [.var 0, .var 1, .var 2, .var 3, .var 4, .var 5, .var 6, .var 7]))
      (.ite (.bin .eq (.var 9) (.lit 192))
          (.ite (.ld 2 (.padd (.var 8) (.lit 12) 1))
              (.call none Id.aes_prove_192 [.var 0, .var 1, .var 2, .var 3, .var 4, .var 5, .var 6, .var 7, .var 8])
              (.call none Id.em_prove_192 [.var 0, .var 1, .var 2, .var 3, .var 4, .var 5, .var 6, .var 7]))
          (.ite (.ld 2 (.padd (.var 8) (.lit 12) 1))
              (.call none Id.aes_prove_128 [.var 0, .var 1, .var 2, .var 3, .var 4, .var 5, .var 6, .var 7, .var 8])
              (.call none Id.em_prove_128 [.var 0, .var 1, .var 2, .var 3, .var 4, .var 5, .var 6, .var 7])))]⟩

end Faest.Leak.Prog
