/-
Generated by tools/c2leak.py; do not edit.
Functions of aes.c.
-/
import Verif.Model.Leak.IR
import Verif.Model.Leak.Prog.Ids

namespace Faest.Leak.Prog

/-- `rot_word`, aes.c:147-153; variables: 0 words, 1 tmp -/
def rot_word : Fn := ⟨1,
  block [
    .asg 1 (.ld 1 (.var 0)),
    .st 1 (.var 0) (.ld 1 (.padd (.var 0) (.lit 1) 1)),
    .st 1 (.padd (.var 0) (.lit 1) 1) (.ld 1 (.padd (.var 0) (.lit 2) 1)),
    .st 1 (.padd (.var 0) (.lit 2) 1) (.ld 1 (.padd (.var 0) (.lit 3) 1)),
    .st 1 (.padd (.var 0) (.lit 3) 1) (.var 1)]⟩

/-- `contains_zero`, aes.c:37-39; variables: 0 block -/
def contains_zero : Fn := ⟨1,
  .ret (.bin (.bor .i32) (.bin (.bor .i32) (.bin (.bor .i32) (.un .lnot (.ld 1 (.var 0))) (.un .lnot (.ld 1 (.padd
    (.var 0) (.lit 1) 1)))) (.un .lnot (.ld 1 (.padd (.var 0) (.lit 2) 1)))) (.un .lnot (.ld 1 (.padd (.var 0) (.lit
    3) 1))))⟩

/-- `compute_sbox`, aes.c:41-60; variables: 0 in, 1 t, 3 t0 -/
def compute_sbox : Fn := ⟨1,
  block [
    .call (some 2) Id.bf8_inv [.var 0],
    .asg 1 (.var 2),
    .call (some 4) Id.parity8 [.un (.cast .u8) (.bin (.band .i32) (.var 1) (.lit 241))],
    .asg 3 (.un (.cast .u8) (.bin (.shl .i32) (.var 4) (.lit 0))),
    .call (some 5) Id.parity8 [.un (.cast .u8) (.bin (.band .i32) (.var 1) (.lit 227))],
    .asg 3 (.un (.cast .u8) (.bin (.bxor .i32) (.var 3) (.bin (.shl .i32) (.var 5) (.lit 1)))),
    .call (some 6) Id.parity8 [.un (.cast .u8) (.bin (.band .i32) (.var 1) (.lit 199))],
    .asg 3 (.un (.cast .u8) (.bin (.bxor .i32) (.var 3) (.bin (.shl .i32) (.var 6) (.lit 2)))),
    .call (some 7) Id.parity8 [.un (.cast .u8) (.bin (.band .i32) (.var 1) (.lit 143))],
    .asg 3 (.un (.cast .u8) (.bin (.bxor .i32) (.var 3) (.bin (.shl .i32) (.var 7) (.lit 3)))),
    .call (some 8) Id.parity8 [.un (.cast .u8) (.bin (.band .i32) (.var 1) (.lit 31))],
    .asg 3 (.un (.cast .u8) (.bin (.bxor .i32) (.var 3) (.bin (.shl .i32) (.var 8) (.lit 4)))),
    .call (some 9) Id.parity8 [.un (.cast .u8) (.bin (.band .i32) (.var 1) (.lit 62))],
    .asg 3 (.un (.cast .u8) (.bin (.bxor .i32) (.var 3) (.bin (.shl .i32) (.var 9) (.lit 5)))),
    .call (some 10) Id.parity8 [.un (.cast .u8) (.bin (.band .i32) (.var 1) (.lit 124))],
    .asg 3 (.un (.cast .u8) (.bin (.bxor .i32) (.var 3) (.bin (.shl .i32) (.var 10) (.lit 6)))),
    .call (some 11) Id.parity8 [.un (.cast .u8) (.bin (.band .i32) (.var 1) (.lit 248))],
    .asg 3 (.un (.cast .u8) (.bin (.bxor .i32) (.var 3) (.bin (.shl .i32) (.var 11) (.lit 7)))),
    .ret (.un (.cast .u8) (.bin (.bxor .i32) (.var 3) (.lit 99)))]⟩

/-- `sub_words`, aes.c:140-145; variables: 0 words -/
def sub_words : Fn := ⟨1,
  block [
    .call (some 1) Id.compute_sbox [.ld 1 (.var 0)],
    .st 1 (.var 0) (.var 1),
    .call (some 2) Id.compute_sbox [.ld 1 (.padd (.var 0) (.lit 1) 1)],
    .st 1 (.padd (.var 0) (.lit 1) 1) (.var 2),
    .call (some 3) Id.compute_sbox [.ld 1 (.padd (.var 0) (.lit 2) 1)],
    .st 1 (.padd (.var 0) (.lit 2) 1) (.var 3),
    .call (some 4) Id.compute_sbox [.ld 1 (.padd (.var 0) (.lit 3) 1)],
    .st 1 (.padd (.var 0) (.lit 3) 1) (.var 4)]⟩

/-- `expand_key`, aes.c:155-194; variables: 0 round_keys, 1 key, 2 key_words, 3 block_words, 4 num_rounds, 5 ret, 6
  k, 11 k, 12 tmp, 17 m -/
def expand_key : Fn := ⟨5,
  block [
    .asg 5 (.lit 0),
    .asg 6 (.lit 0),
    .loop (.bin .lt (.var 6) (.var 2))
      (block [
        .call (some 7) Id.bf8_load [.padd (.var 1) (.bin (.mul .u32) (.lit 4) (.var 6)) 1],
        .st 1 (.padd (.padd (.var 0) (.div (.div .u32) (.var 6) (.var 3)) 32) (.div (.mod .u32) (.var 6) (.var 3)) 4)
          (.var 7),
        .call (some 8) Id.bf8_load [.padd (.var 1) (.bin (.add .u32) (.bin (.mul .u32) (.lit 4) (.var 6)) (.lit 1))
          1],
        .st 1 (.padd (.padd (.padd (.var 0) (.div (.div .u32) (.var 6) (.var 3)) 32) (.div (.mod .u32) (.var 6) (.var
          3)) 4) (.lit 1) 1) (.var 8),
        .call (some 9) Id.bf8_load [.padd (.var 1) (.bin (.add .u32) (.bin (.mul .u32) (.lit 4) (.var 6)) (.lit 2))
          1],
        .st 1 (.padd (.padd (.padd (.var 0) (.div (.div .u32) (.var 6) (.var 3)) 32) (.div (.mod .u32) (.var 6) (.var
          3)) 4) (.lit 2) 1) (.var 9),
        .call (some 10) Id.bf8_load [.padd (.var 1) (.bin (.add .u32) (.bin (.mul .u32) (.lit 4) (.var 6)) (.lit 3))
          1],
        .st 1 (.padd (.padd (.padd (.var 0) (.div (.div .u32) (.var 6) (.var 3)) 32) (.div (.mod .u32) (.var 6) (.var
          3)) 4) (.lit 3) 1) (.var 10)])
      (.asg 6 (.bin (.add .u32) (.var 6) (.lit 1))),
    .asg 11 (.var 2),
    .loop (.bin .lt (.var 11) (.bin (.mul .u32) (.var 3) (.bin (.add .u32) (.var 4) (.lit 1))))
      (block [
        .new 12 (.lit 4),
        .call (some 13) Id.memcpy [.var 12, .padd (.padd (.var 0) (.div (.div .u32) (.bin (.sub .u32) (.var 11) (.lit
          1)) (.var 3)) 32) (.div (.mod .u32) (.bin (.sub .u32) (.var 11) (.lit 1)) (.var 3)) 4, .lit 4],
        .ite (.bin .eq (.div (.mod .u32) (.var 11) (.var 2)) (.lit 0))
          (block [
            .call none Id.rot_word [.var 12],
            .call (some 14) Id.contains_zero [.var 12],
            .asg 5 (.bin (.bor .i32) (.var 5) (.var 14)),
            .call none Id.sub_words [.var 12],
            .st 1 (.var 12) (.un (.cast .u8) (.bin (.bxor .i32) (.ld 1 (.var 12)) (.ld 1 (.padd (.glob 3) (.bin (.sub
              .u32) (.div (.div .u32) (.var 11) (.var 2)) (.lit 1)) 1))))])
          (.skip),
        .ite (.bin .gt (.var 2) (.lit 6))
          (.asg 15 (.bin .ne (.bin .eq (.div (.mod .u32) (.var 11) (.var 2)) (.lit 4)) (.lit 0)))
          (.asg 15 (.lit 0)),
        .ite (.var 15)
          (block [
            .call (some 16) Id.contains_zero [.var 12],
            .asg 5 (.bin (.bor .i32) (.var 5) (.var 16)),
            .call none Id.sub_words [.var 12]])
          (.skip),
        .asg 17 (.bin (.sub .u32) (.var 11) (.var 2)),
        .st 1 (.padd (.padd (.var 0) (.div (.div .u32) (.var 11) (.var 3)) 32) (.div (.mod .u32) (.var 11) (.var 3))
          4) (.un (.cast .u8) (.bin (.bxor .i32) (.ld 1 (.padd (.padd (.var 0) (.div (.div .u32) (.var 17) (.var 3))
          32) (.div (.mod .u32) (.var 17) (.var 3)) 4)) (.ld 1 (.var 12)))),
        .st 1 (.padd (.padd (.padd (.var 0) (.div (.div .u32) (.var 11) (.var 3)) 32) (.div (.mod .u32) (.var 11)
          (.var 3)) 4) (.lit 1) 1) (.un (.cast .u8) (.bin (.bxor .i32) (.ld 1 (.padd (.padd (.padd (.var 0) (.div
          (.div .u32) (.var 17) (.var 3)) 32) (.div (.mod .u32) (.var 17) (.var 3)) 4) (.lit 1) 1)) (.ld 1 (.padd
          (.var 12) (.lit 1) 1)))),
        .st 1 (.padd (.padd (.padd (.var 0) (.div (.div .u32) (.var 11) (.var 3)) 32) (.div (.mod .u32) (.var 11)
          (.var 3)) 4) (.lit 2) 1) (.un (.cast .u8) (.bin (.bxor .i32) (.ld 1 (.padd (.padd (.padd (.var 0) (.div
          (.div .u32) (.var 17) (.var 3)) 32) (.div (.mod .u32) (.var 17) (.var 3)) 4) (.lit 2) 1)) (.ld 1 (.padd
          (.var 12) (.lit 2) 1)))),
        .st 1 (.padd (.padd (.padd (.var 0) (.div (.div .u32) (.var 11) (.var 3)) 32) (.div (.mod .u32) (.var 11)
          (.var 3)) 4) (.lit 3) 1) (.un (.cast .u8) (.bin (.bxor .i32) (.ld 1 (.padd (.padd (.padd (.var 0) (.div
          (.div .u32) (.var 17) (.var 3)) 32) (.div (.mod .u32) (.var 17) (.var 3)) 4) (.lit 3) 1)) (.ld 1 (.padd
          (.var 12) (.lit 3) 1))))])
      (.asg 11 (.bin (.add .u32) (.var 11) (.lit 1))),
    .ret (.var 5)]⟩

/-- `aes256_init_round_keys`, aes.c:206-208; variables: 0 round_key, 1 key -/
def aes256_init_round_keys : Fn := ⟨2,
  block [
    .call (some 2) Id.expand_key [.var 0, .var 1, .lit 8, .lit 4, .lit 14],
    .ret (.var 2)]⟩

/-- `load_state`, aes.c:218-222; variables: 0 state, 1 src, 2 block_words, 3 i -/
def load_state : Fn := ⟨3,
  block [
    .asg 3 (.lit 0),
    .loop (.bin .ne (.var 3) (.bin (.mul .u32) (.var 2) (.lit 4)))
      (block [
        .call (some 4) Id.bf8_load [.padd (.var 1) (.var 3) 1],
        .st 1 (.padd (.padd (.var 0) (.div (.div .u32) (.var 3) (.lit 4)) 4) (.div (.mod .u32) (.var 3) (.lit 4)) 1)
          (.var 4)])
      (.asg 3 (.bin (.add .u32) (.var 3) (.lit 1)))]⟩

/-- `add_round_key`, aes.c:75-80; variables: 0 round, 1 state, 2 round_key, 3 block_words, 4 c -/
def add_round_key : Fn := ⟨4,
  block [
    .asg 4 (.lit 0),
    .loop (.bin .lt (.var 4) (.var 3))
      (.call none Id.xor_u8_array [.padd (.var 1) (.var 4) 4, .padd (.padd (.var 2) (.var 0) 32) (.var 4) 4, .padd
        (.var 1) (.var 4) 4, .lit 4])
      (.asg 4 (.bin (.add .u32) (.var 4) (.lit 1)))]⟩

/-- `sub_bytes`, aes.c:82-93; variables: 0 state, 1 block_words, 2 ret, 3 c, 5 r -/
def sub_bytes : Fn := ⟨2,
  block [
    .asg 2 (.lit 0),
    .asg 3 (.lit 0),
    .loop (.bin .lt (.var 3) (.var 1))
      (block [
        .call (some 4) Id.contains_zero [.padd (.var 0) (.var 3) 4],
        .asg 2 (.bin (.bor .i32) (.var 2) (.var 4)),
        .asg 5 (.lit 0),
        .loop (.bin .lt (.var 5) (.lit 4))
          (block [
            .call (some 6) Id.compute_sbox [.ld 1 (.padd (.padd (.var 0) (.var 3) 4) (.var 5) 1)],
            .st 1 (.padd (.padd (.var 0) (.var 3) 4) (.var 5) 1) (.var 6)])
          (.asg 5 (.bin (.add .u32) (.var 5) (.lit 1)))])
      (.asg 3 (.bin (.add .u32) (.var 3) (.lit 1))),
    .ret (.var 2)]⟩

/-- `shift_row`, aes.c:95-120; variables: 0 state, 1 block_words, 2 new_state, 4 i, 5 i, 6 i -/
def shift_row : Fn := ⟨2,
  block [
    .new 2 (.lit 32),
    .asg 3 (.var 1),
    .ite (.bin (.bor .i32) (.bin .eq (.var 3) (.lit 4)) (.bin .eq (.var 3) (.lit 6)))
      (block [
        .asg 4 (.lit 0),
        .loop (.bin .lt (.var 4) (.var 1))
          (block [
            .st 1 (.padd (.var 2) (.var 4) 4) (.ld 1 (.padd (.var 0) (.var 4) 4)),
            .st 1 (.padd (.padd (.var 2) (.var 4) 4) (.lit 1) 1) (.ld 1 (.padd (.padd (.var 0) (.div (.mod .u32)
              (.bin (.add .u32) (.var 4) (.lit 1)) (.var 1)) 4) (.lit 1) 1)),
            .st 1 (.padd (.padd (.var 2) (.var 4) 4) (.lit 2) 1) (.ld 1 (.padd (.padd (.var 0) (.div (.mod .u32)
              (.bin (.add .u32) (.var 4) (.lit 2)) (.var 1)) 4) (.lit 2) 1)),
            .st 1 (.padd (.padd (.var 2) (.var 4) 4) (.lit 3) 1) (.ld 1 (.padd (.padd (.var 0) (.div (.mod .u32)
              (.bin (.add .u32) (.var 4) (.lit 3)) (.var 1)) 4) (.lit 3) 1))])
          (.asg 4 (.bin (.add .u32) (.var 4) (.lit 1)))])
      (.ite (.bin .eq (.var 3) (.lit 8))
          (block [
            .asg 5 (.lit 0),
            .loop (.bin .lt (.var 5) (.var 1))
              (block [
                .st 1 (.padd (.var 2) (.var 5) 4) (.ld 1 (.padd (.var 0) (.var 5) 4)),
                .st 1 (.padd (.padd (.var 2) (.var 5) 4) (.lit 1) 1) (.ld 1 (.padd (.padd (.var 0) (.div (.mod .u32)
                  (.bin (.add .u32) (.var 5) (.lit 1)) (.lit 8)) 4) (.lit 1) 1)),
                .st 1 (.padd (.padd (.var 2) (.var 5) 4) (.lit 2) 1) (.ld 1 (.padd (.padd (.var 0) (.div (.mod .u32)
                  (.bin (.add .u32) (.var 5) (.lit 3)) (.lit 8)) 4) (.lit 2) 1)),
                .st 1 (.padd (.padd (.var 2) (.var 5) 4) (.lit 3) 1) (.ld 1 (.padd (.padd (.var 0) (.div (.mod .u32)
                  (.bin (.add .u32) (.var 5) (.lit 4)) (.lit 8)) 4) (.lit 3) 1))])
              (.asg 5 (.bin (.add .u32) (.var 5) (.lit 1)))])
          (.skip)),
    .asg 6 (.lit 0),
    .loop (.bin .lt (.var 6) (.var 1))
      (.call (some 7) Id.memcpy [.padd (.var 0) (.var 6) 4, .padd (.var 2) (.var 6) 4, .lit 4])
      (.asg 6 (.bin (.add .u32) (.var 6) (.lit 1)))]⟩

/-- `mix_column`, aes.c:122-137; variables: 0 state, 1 block_words, 2 c, 3 tmp, 6 tmp_1, 9 tmp_2, 12 tmp_3 -/
def mix_column : Fn := ⟨2,
  block [
    .asg 2 (.lit 0),
    .loop (.bin .lt (.var 2) (.var 1))
      (block [
        .call (some 4) Id.bf8_mul [.ld 1 (.padd (.var 0) (.var 2) 4), .lit 2],
        .call (some 5) Id.bf8_mul [.ld 1 (.padd (.padd (.var 0) (.var 2) 4) (.lit 1) 1), .lit 3],
        .asg 3 (.un (.cast .u8) (.bin (.bxor .i32) (.bin (.bxor .i32) (.bin (.bxor .i32) (.var 4) (.var 5)) (.ld 1
          (.padd (.padd (.var 0) (.var 2) 4) (.lit 2) 1))) (.ld 1 (.padd (.padd (.var 0) (.var 2) 4) (.lit 3) 1)))),
        .call (some 7) Id.bf8_mul [.ld 1 (.padd (.padd (.var 0) (.var 2) 4) (.lit 1) 1), .lit 2],
        .call (some 8) Id.bf8_mul [.ld 1 (.padd (.padd (.var 0) (.var 2) 4) (.lit 2) 1), .lit 3],
        .asg 6 (.un (.cast .u8) (.bin (.bxor .i32) (.bin (.bxor .i32) (.bin (.bxor .i32) (.ld 1 (.padd (.var 0) (.var
          2) 4)) (.var 7)) (.var 8)) (.ld 1 (.padd (.padd (.var 0) (.var 2) 4) (.lit 3) 1)))),
        .call (some 10) Id.bf8_mul [.ld 1 (.padd (.padd (.var 0) (.var 2) 4) (.lit 2) 1), .lit 2],
        .call (some 11) Id.bf8_mul [.ld 1 (.padd (.padd (.var 0) (.var 2) 4) (.lit 3) 1), .lit 3],
        .asg 9 (.un (.cast .u8) (.bin (.bxor .i32) (.bin (.bxor .i32) (.bin (.bxor .i32) (.ld 1 (.padd (.var 0) (.var
          2) 4)) (.ld 1 (.padd (.padd (.var 0) (.var 2) 4) (.lit 1) 1))) (.var 10)) (.var 11))),
        .call (some 13) Id.bf8_mul [.ld 1 (.padd (.var 0) (.var 2) 4), .lit 3],
        .call (some 14) Id.bf8_mul [.ld 1 (.padd (.padd (.var 0) (.var 2) 4) (.lit 3) 1), .lit 2],
        .asg 12 (.un (.cast .u8) (.bin (.bxor .i32) (.bin (.bxor .i32) (.bin (.bxor .i32) (.var 13) (.ld 1 (.padd
          (.padd (.var 0) (.var 2) 4) (.lit 1) 1))) (.ld 1 (.padd (.padd (.var 0) (.var 2) 4) (.lit 2) 1))) (.var
          14))),
        .st 1 (.padd (.var 0) (.var 2) 4) (.var 3),
        .st 1 (.padd (.padd (.var 0) (.var 2) 4) (.lit 1) 1) (.var 6),
        .st 1 (.padd (.padd (.var 0) (.var 2) 4) (.lit 2) 1) (.var 9),
        .st 1 (.padd (.padd (.var 0) (.var 2) 4) (.lit 3) 1) (.var 12)])
      (.asg 2 (.bin (.add .u32) (.var 2) (.lit 1)))]⟩

/-- `aes_encrypt`, aes.c:230-250; variables: 0 keys, 1 state, 2 block_words, 3 num_rounds, 4 ret, 5 round -/
def aes_encrypt : Fn := ⟨4,
  block [
    .asg 4 (.lit 0),
    .call none Id.add_round_key [.lit 0, .var 1, .var 0, .var 2],
    .asg 5 (.lit 1),
    .loop (.bin .lt (.var 5) (.var 3))
      (block [
        .call (some 6) Id.sub_bytes [.var 1, .var 2],
        .asg 4 (.bin (.bor .i32) (.var 4) (.var 6)),
        .call none Id.shift_row [.var 1, .var 2],
        .call none Id.mix_column [.var 1, .var 2],
        .call none Id.add_round_key [.var 5, .var 1, .var 0, .var 2]])
      (.asg 5 (.bin (.add .u32) (.var 5) (.lit 1))),
    .call (some 7) Id.sub_bytes [.var 1, .var 2],
    .asg 4 (.bin (.bor .i32) (.var 4) (.var 7)),
    .call none Id.shift_row [.var 1, .var 2],
    .call none Id.add_round_key [.var 3, .var 1, .var 0, .var 2],
    .ret (.var 4)]⟩

/-- `store_state`, aes.c:224-228; variables: 0 dst, 1 state, 2 block_words, 3 i -/
def store_state : Fn := ⟨3,
  block [
    .asg 3 (.lit 0),
    .loop (.bin .ne (.var 3) (.bin (.mul .u32) (.var 2) (.lit 4)))
      (.call none Id.bf8_store [.padd (.var 0) (.var 3) 1, .ld 1 (.padd (.padd (.var 1) (.div (.div .u32) (.var 3)
        (.lit 4)) 4) (.div (.mod .u32) (.var 3) (.lit 4)) 1)])
      (.asg 3 (.bin (.add .u32) (.var 3) (.lit 1)))]⟩

/-- `aes_increment_iv`, aes.c:62-71; variables: 0 iv, 1 i -/
def aes_increment_iv : Fn := ⟨1,
  block [
    .asg 1 (.lit 16),
    .loop (.bin .gt (.var 1) (.lit 0))
      (block [
        .ite (.bin .eq (.ld 1 (.padd (.var 0) (.bin (.sub .u32) (.var 1) (.lit 1)) 1)) (.lit 255))
          (block [
            .st 1 (.padd (.var 0) (.bin (.sub .u32) (.var 1) (.lit 1)) 1) (.lit 0),
            .cont])
          (.skip),
        .st 1 (.padd (.var 0) (.bin (.sub .u32) (.var 1) (.lit 1)) 1) (.un (.cast .u8) (.bin (.add .i32) (.ld 1
          (.padd (.var 0) (.bin (.sub .u32) (.var 1) (.lit 1)) 1)) (.lit 1))),
        .brk])
      (.asg 1 (.bin (.sub .u32) (.var 1) (.lit 1)))]⟩

/-- `aes192_init_round_keys`, aes.c:202-204; variables: 0 round_key, 1 key -/
def aes192_init_round_keys : Fn := ⟨2,
  block [
    .call (some 2) Id.expand_key [.var 0, .var 1, .lit 6, .lit 4, .lit 12],
    .ret (.var 2)]⟩

/-- `aes128_init_round_keys`, aes.c:198-200; variables: 0 round_key, 1 key -/
def aes128_init_round_keys : Fn := ⟨2,
  block [
    .call (some 2) Id.expand_key [.var 0, .var 1, .lit 4, .lit 4, .lit 10],
    .ret (.var 2)]⟩

/-- `prg`, aes.c:297-391; variables: 0 key, 1 iv, 2 out, 3 seclvl, 4 outlen, 5 internal_iv, 7 round_key, 10 state, 12
  state, 14 tmp, 17 state, 19 state, 21 tmp, 24 state, 26 state, 28 tmp -/
def prg : Fn := ⟨5,
  block [
    .new 5 (.lit 16),
    .call (some 6) Id.memcpy [.var 5, .var 1, .lit 16],
    .new 7 (.lit 480),
    .asg 8 (.var 3),
    .ite (.bin .eq (.var 8) (.lit 256))
      (block [
        .call (some 9) Id.aes256_init_round_keys [.var 7, .var 0],
        .loop (.bin .ge (.var 4) (.lit 16))
          (block [
            .new 10 (.lit 32),
            .call none Id.load_state [.var 10, .var 5, .lit 4],
            .call (some 11) Id.aes_encrypt [.var 7, .var 10, .lit 4, .lit 14],
            .call none Id.store_state [.var 2, .var 10, .lit 4],
            .call none Id.aes_increment_iv [.var 5]])
          (block [
            .asg 4 (.bin (.sub .u64) (.var 4) (.lit 16)),
            .asg 2 (.padd (.var 2) (.lit 16) 1)]),
        .ite (.var 4)
          (block [
            .new 12 (.lit 32),
            .call none Id.load_state [.var 12, .var 5, .lit 4],
            .call (some 13) Id.aes_encrypt [.var 7, .var 12, .lit 4, .lit 14],
            .new 14 (.lit 16),
            .call none Id.store_state [.var 14, .var 12, .lit 4],
            .call (some 15) Id.memcpy [.var 2, .var 14, .var 4]])
          (.skip),
        .ret (.lit 0)])
      (.ite (.bin .eq (.var 8) (.lit 192))
          (block [
            .call (some 16) Id.aes192_init_round_keys [.var 7, .var 0],
            .loop (.bin .ge (.var 4) (.lit 16))
              (block [
                .new 17 (.lit 32),
                .call none Id.load_state [.var 17, .var 5, .lit 4],
                .call (some 18) Id.aes_encrypt [.var 7, .var 17, .lit 4, .lit 12],
                .call none Id.store_state [.var 2, .var 17, .lit 4],
                .call none Id.aes_increment_iv [.var 5]])
              (block [
                .asg 4 (.bin (.sub .u64) (.var 4) (.lit 16)),
                .asg 2 (.padd (.var 2) (.lit 16) 1)]),
            .ite (.var 4)
              (block [
                .new 19 (.lit 32),
                .call none Id.load_state [.var 19, .var 5, .lit 4],
                .call (some 20) Id.aes_encrypt [.var 7, .var 19, .lit 4, .lit 12],
                .new 21 (.lit 16),
                .call none Id.store_state [.var 21, .var 19, .lit 4],
                .call (some 22) Id.memcpy [.var 2, .var 21, .var 4]])
              (.skip),
            .ret (.lit 0)])
          (block [
            .call (some 23) Id.aes128_init_round_keys [.var 7, .var 0],
            .loop (.bin .ge (.var 4) (.lit 16))
              (block [
                .new 24 (.lit 32),
                .call none Id.load_state [.var 24, .var 5, .lit 4],
                .call (some 25) Id.aes_encrypt [.var 7, .var 24, .lit 4, .lit 10],
                .call none Id.store_state [.var 2, .var 24, .lit 4],
                .call none Id.aes_increment_iv [.var 5]])
              (block [
                .asg 4 (.bin (.sub .u64) (.var 4) (.lit 16)),
                .asg 2 (.padd (.var 2) (.lit 16) 1)]),
            .ite (.var 4)
              (block [
                .new 26 (.lit 32),
                .call none Id.load_state [.var 26, .var 5, .lit 4],
                .call (some 27) Id.aes_encrypt [.var 7, .var 26, .lit 4, .lit 10],
                .new 28 (.lit 16),
                .call none Id.store_state [.var 28, .var 26, .lit 4],
                .call (some 29) Id.memcpy [.var 2, .var 28, .var 4]])
              (.skip),
            .ret (.lit 0)]))]⟩

/-- `rijndael256_init_round_keys`, aes.c:214-216; variables: 0 round_key, 1 key -/
def rijndael256_init_round_keys : Fn := ⟨2,
  block [
    .call (some 2) Id.expand_key [.var 0, .var 1, .lit 8, .lit 8, .lit 14],
    .ret (.var 2)]⟩

/-- `rijndael192_init_round_keys`, aes.c:210-212; variables: 0 round_key, 1 key -/
def rijndael192_init_round_keys : Fn := ⟨2,
  block [
    .call (some 2) Id.expand_key [.var 0, .var 1, .lit 6, .lit 6, .lit 12],
    .ret (.var 2)]⟩

/-- `aes_extend_witness`, aes.c:393-498; variables: 0 key, 1 in, 2 params, 3 lambda, 4 l, 5 L_ke, 6 S_ke, 7
  num_rounds, 8 w, 10 w_out, 11 block_words, 12 beta, 14 tmp, 15 round_keys, 22 i, 24 j, 25 ik, 29 b, 30 state, 31
  round -/
def aes_extend_witness : Fn := ⟨3,
  block [
    .asg 3 (.ld 2 (.var 2)),
    .asg 4 (.ld 2 (.padd (.var 2) (.lit 10) 1)),
    .asg 5 (.ld 2 (.padd (.var 2) (.lit 12) 1)),
    .asg 6 (.ld 2 (.padd (.var 2) (.lit 4) 1)),
    .asg 7 (.ld 2 (.padd (.var 2) (.lit 6) 1)),
    .new 9 (.div (.div .u32) (.bin (.add .u32) (.var 4) (.lit 7)) (.lit 8)),
    .asg 8 (.var 9),
    .asg 10 (.var 8),
    .asg 11 (.lit 4),
    .asg 12 (.lit 1),
    .asg 13 (.ld 4 (.padd (.var 2) (.lit 32) 1)),
    .ite (.bin (.bor .i32) (.bin (.bor .i32) (.bin (.bor .i32) (.bin .eq (.var 13) (.lit 4)) (.bin .eq (.var 13)
      (.lit 3))) (.bin .eq (.var 13) (.lit 6))) (.bin .eq (.var 13) (.lit 5)))
      (.asg 12 (.lit 2))
      (.ite (.bin (.bor .i32) (.bin .eq (.var 13) (.lit 10)) (.bin .eq (.var 13) (.lit 9)))
          (.asg 11 (.lit 6))
          (.ite (.bin (.bor .i32) (.bin .eq (.var 13) (.lit 12)) (.bin .eq (.var 13) (.lit 11)))
              (.asg 11 (.lit 8))
              (.skip))),
    .ite (.un .lnot (.var 5))
      (block [
        .asg 14 (.var 0),
        .asg 0 (.var 1),
        .asg 1 (.var 14)])
      (.skip),
    .new 15 (.lit 480),
    .asg 16 (.var 3),
    .ite (.bin .eq (.var 16) (.lit 256))
      (.ite (.bin .eq (.var 11) (.lit 8))
          (.call (some 17) Id.rijndael256_init_round_keys [.var 15, .var 0])
          (.call (some 18) Id.aes256_init_round_keys [.var 15, .var 0]))
      (.ite (.bin .eq (.var 16) (.lit 192))
          (.ite (.bin .eq (.var 11) (.lit 6))
              (.call (some 19) Id.rijndael192_init_round_keys [.var 15, .var 0])
              (.call (some 20) Id.aes192_init_round_keys [.var 15, .var 0]))
          (.call (some 21) Id.aes128_init_round_keys [.var 15, .var 0])),
    .ite (.bin .gt (.var 5) (.lit 0))
      (block [
        .asg 22 (.lit 0),
        .loop (.bin .ne (.var 22) (.ld 2 (.padd (.var 2) (.lit 2) 1)))
          (block [
            .call (some 23) Id.memcpy [.var 8, .padd (.padd (.var 15) (.div (.div .u32) (.var 22) (.lit 4)) 32) (.div
              (.mod .u32) (.var 22) (.lit 4)) 4, .lit 4],
            .asg 8 (.padd (.var 8) (.lit 4) 1)])
          (.asg 22 (.bin (.add .u32) (.var 22) (.lit 1))),
        .asg 24 (.lit 0),
        .asg 25 (.ld 2 (.padd (.var 2) (.lit 2) 1)),
        .loop (.bin .lt (.var 24) (.div (.div .u32) (.var 6) (.lit 4)))
          (block [
            .call (some 26) Id.memcpy [.var 8, .padd (.padd (.var 15) (.div (.div .u32) (.var 25) (.lit 4)) 32) (.div
              (.mod .u32) (.var 25) (.lit 4)) 4, .lit 4],
            .asg 8 (.padd (.var 8) (.lit 4) 1),
            .ite (.bin .eq (.var 3) (.lit 192))
              (.asg 27 (.lit 6))
              (.asg 27 (.lit 4)),
            .asg 25 (.bin (.add .u32) (.var 25) (.un (.cast .u32) (.var 27)))])
          (.asg 24 (.bin (.add .u32) (.var 24) (.lit 1)))])
      (block [
        .call (some 28) Id.memcpy [.var 8, .var 1, .div (.div .u32) (.var 3) (.lit 8)],
        .asg 8 (.padd (.var 8) (.div (.div .u32) (.var 3) (.lit 8)) 1)]),
    .asg 29 (.lit 0),
    .loop (.bin .lt (.var 29) (.var 12))
      (block [
        .new 30 (.lit 32),
        .call none Id.load_state [.var 30, .var 1, .var 11],
        .call none Id.add_round_key [.lit 0, .var 30, .var 15, .var 11],
        .asg 31 (.lit 1),
        .loop (.bin .lt (.var 31) (.var 7))
          (block [
            .call (some 32) Id.sub_bytes [.var 30, .var 11],
            .call none Id.shift_row [.var 30, .var 11],
            .call none Id.store_state [.var 8, .var 30, .var 11],
            .asg 8 (.padd (.var 8) (.bin (.mul .u64) (.lit 4) (.var 11)) 1),
            .call none Id.mix_column [.var 30, .var 11],
            .call none Id.add_round_key [.var 31, .var 30, .var 15, .var 11]])
          (.asg 31 (.bin (.add .u32) (.var 31) (.lit 1)))])
      (block [
        .asg 29 (.bin (.add .u32) (.var 29) (.lit 1)),
        .asg 1 (.padd (.var 1) (.bin (.mul .u64) (.lit 4) (.var 11)) 1)]),
    .ret (.var 10)]⟩

/-- `aes128_encrypt_block`, aes.c:252-259; variables: 0 key, 1 plaintext, 2 ciphertext, 3 state, 4 ret -/
def aes128_encrypt_block : Fn := ⟨3,
  block [
    .new 3 (.lit 32),
    .call none Id.load_state [.var 3, .var 1, .lit 4],
    .call (some 5) Id.aes_encrypt [.var 0, .var 3, .lit 4, .lit 10],
    .asg 4 (.var 5),
    .call none Id.store_state [.var 2, .var 3, .lit 4],
    .ret (.var 4)]⟩

/-- `aes192_encrypt_block`, aes.c:261-268; variables: 0 key, 1 plaintext, 2 ciphertext, 3 state, 4 ret -/
def aes192_encrypt_block : Fn := ⟨3,
  block [
    .new 3 (.lit 32),
    .call none Id.load_state [.var 3, .var 1, .lit 4],
    .call (some 5) Id.aes_encrypt [.var 0, .var 3, .lit 4, .lit 12],
    .asg 4 (.var 5),
    .call none Id.store_state [.var 2, .var 3, .lit 4],
    .ret (.var 4)]⟩

/-- `rijndael192_encrypt_block`, aes.c:279-286; variables: 0 key, 1 plaintext, 2 ciphertext, 3 state, 4 ret -/
def rijndael192_encrypt_block : Fn := ⟨3,
  block [
    .new 3 (.lit 32),
    .call none Id.load_state [.var 3, .var 1, .lit 6],
    .call (some 5) Id.aes_encrypt [.var 0, .var 3, .lit 6, .lit 12],
    .asg 4 (.var 5),
    .call none Id.store_state [.var 2, .var 3, .lit 6],
    .ret (.var 4)]⟩

/-- `aes256_encrypt_block`, aes.c:270-277; variables: 0 key, 1 plaintext, 2 ciphertext, 3 state, 4 ret -/
def aes256_encrypt_block : Fn := ⟨3,
  block [
    .new 3 (.lit 32),
    .call none Id.load_state [.var 3, .var 1, .lit 4],
    .call (some 5) Id.aes_encrypt [.var 0, .var 3, .lit 4, .lit 14],
    .asg 4 (.var 5),
    .call none Id.store_state [.var 2, .var 3, .lit 4],
    .ret (.var 4)]⟩

/-- `rijndael256_encrypt_block`, aes.c:288-295; variables: 0 key, 1 plaintext, 2 ciphertext, 3 state, 4 ret -/
def rijndael256_encrypt_block : Fn := ⟨3,
  block [
    .new 3 (.lit 32),
    .call none Id.load_state [.var 3, .var 1, .lit 8],
    .call (some 5) Id.aes_encrypt [.var 0, .var 3, .lit 8, .lit 14],
    .asg 4 (.var 5),
    .call none Id.store_state [.var 2, .var 3, .lit 8],
    .ret (.var 4)]⟩

end Faest.Leak.Prog
