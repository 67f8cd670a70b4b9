/-
Generated by tools/c2leak.py; do not edit.
Functions of universal_hashing.c.
-/
import Verif.Model.Leak.IR
import Verif.Model.Leak.Prog.Ids

namespace Faest.Leak.Prog

/-- `compute_h1`, universal_hashing.c:16-38; variables: 0 t, 1 x, 2 lambda, 3 ell, 4 b_t, 6 lambda_bytes, 7
  length_lambda, 8 tmp, 12 h1, 14 running_t, 16 i -/
def compute_h1 : Fn := ⟨4,
  block [
    .call (some 5) Id.bf64_load [.var 0],
    .asg 4 (.var 5),
    .asg 6 (.div (.div .u32) (.var 2) (.lit 8)),
    .asg 7 (.div (.div .u32) (.bin (.sub .u32) (.bin (.add .u32) (.bin (.add .u32) (.var 3) (.var 2)) (.var 2)) (.lit
      1)) (.var 2)),
    .new 8 (.lit 32),
    .call (some 9) Id.memset [.var 8, .lit 0, .lit 32],
    .ite (.bin .eq (.div (.mod .u32) (.bin (.add .u32) (.var 3) (.var 2)) (.var 2)) (.lit 0))
      (.asg 10 (.var 6))
      (.asg 10 (.div (.div .u32) (.div (.mod .u32) (.bin (.add .u32) (.var 3) (.var 2)) (.var 2)) (.lit 8))),
    .call (some 11) Id.memcpy [.var 8, .padd (.var 1) (.bin (.mul .u32) (.bin (.sub .u32) (.var 7) (.lit 1)) (.var
      6)) 1, .var 10],
    .call (some 13) Id.bf64_zero [],
    .asg 12 (.var 13),
    .call (some 15) Id.bf64_one [],
    .asg 14 (.var 15),
    .asg 16 (.lit 0),
    .loop (.bin .lt (.var 16) (.var 6))
      (block [
        .call (some 17) Id.bf64_load [.padd (.var 8) (.bin (.sub .u32) (.bin (.sub .u32) (.var 6) (.var 16)) (.lit
          8)) 1],
        .call (some 18) Id.bf64_mul [.var 14, .var 17],
        .call (some 19) Id.bf64_add [.var 12, .var 18],
        .asg 12 (.var 19)])
      (block [
        .asg 16 (.bin (.add .u32) (.var 16) (.lit 8)),
        .call (some 20) Id.bf64_mul [.var 14, .var 4],
        .asg 14 (.var 20)]),
    .loop (.bin .lt (.var 16) (.bin (.mul .u32) (.var 7) (.var 6)))
      (block [
        .call (some 21) Id.bf64_load [.padd (.var 1) (.bin (.sub .u32) (.bin (.sub .u32) (.bin (.mul .u32) (.var 7)
          (.var 6)) (.var 16)) (.lit 8)) 1],
        .call (some 22) Id.bf64_mul [.var 14, .var 21],
        .call (some 23) Id.bf64_add [.var 12, .var 22],
        .asg 12 (.var 23)])
      (block [
        .asg 16 (.bin (.add .u32) (.var 16) (.lit 8)),
        .call (some 24) Id.bf64_mul [.var 14, .var 4],
        .asg 14 (.var 24)]),
    .ret (.var 12)]⟩

/-- `vole_hash_256`, universal_hashing.c:110-143; variables: 0 h, 1 sd, 2 x, 3 ell, 4 r0, 5 r1, 6 r2, 7 r3, 8 s, 9 t,
  10 x1, 11 length_lambda, 12 tmp, 16 h0, 18 b_s, 20 running_s, 21 i, 26 h1, 28 h2, 34 h3 -/
def vole_hash_256 : Fn := ⟨4,
  block [
    .asg 4 (.var 1),
    .asg 5 (.padd (.var 1) (.lit 32) 1),
    .asg 6 (.padd (.var 1) (.lit 64) 1),
    .asg 7 (.padd (.var 1) (.lit 96) 1),
    .asg 8 (.padd (.var 1) (.lit 128) 1),
    .asg 9 (.padd (.var 1) (.lit 160) 1),
    .asg 10 (.padd (.var 2) (.div (.div .u32) (.bin (.add .u32) (.var 3) (.lit 256)) (.lit 8)) 1),
    .asg 11 (.div (.div .u32) (.bin (.sub .u32) (.bin (.add .u32) (.var 3) (.lit 512)) (.lit 1)) (.lit 256)),
    .new 12 (.lit 32),
    .call (some 13) Id.memset [.var 12, .lit 0, .lit 32],
    .ite (.bin .eq (.div (.mod .u32) (.bin (.add .u32) (.var 3) (.lit 256)) (.lit 256)) (.lit 0))
      (.asg 14 (.lit 32))
      (.asg 14 (.div (.div .u32) (.div (.mod .u32) (.bin (.add .u32) (.var 3) (.lit 256)) (.lit 256)) (.lit 8))),
    .call (some 15) Id.memcpy [.var 12, .padd (.var 2) (.bin (.mul .u32) (.bin (.sub .u32) (.var 11) (.lit 1)) (.lit
      32)) 1, .var 14],
    .call (some 17) Id.bf256_load [.var 12],
    .asg 16 (.var 17),
    .call (some 19) Id.bf256_load [.var 8],
    .asg 18 (.var 19),
    .asg 20 (.var 18),
    .asg 21 (.lit 1),
    .loop (.bin .ne (.var 21) (.var 11))
      (block [
        .call (some 22) Id.bf256_load [.padd (.var 2) (.bin (.mul .u32) (.bin (.sub .u32) (.bin (.sub .u32) (.var 11)
          (.lit 1)) (.var 21)) (.lit 32)) 1],
        .call (some 23) Id.bf256_mul [.var 20, .var 22],
        .call (some 24) Id.bf256_add [.var 16, .var 23],
        .asg 16 (.var 24)])
      (block [
        .asg 21 (.bin (.add .u32) (.var 21) (.lit 1)),
        .call (some 25) Id.bf256_mul [.var 20, .var 18],
        .asg 20 (.var 25)]),
    .call (some 27) Id.compute_h1 [.var 9, .var 2, .lit 256, .var 3],
    .asg 26 (.var 27),
    .call (some 29) Id.bf256_load [.var 4],
    .call (some 30) Id.bf256_mul [.var 29, .var 16],
    .call (some 31) Id.bf256_load [.var 5],
    .call (some 32) Id.bf256_mul_64 [.var 31, .var 26],
    .call (some 33) Id.bf256_add [.var 30, .var 32],
    .asg 28 (.var 33),
    .call (some 35) Id.bf256_load [.var 6],
    .call (some 36) Id.bf256_mul [.var 35, .var 16],
    .call (some 37) Id.bf256_load [.var 7],
    .call (some 38) Id.bf256_mul_64 [.var 37, .var 26],
    .call (some 39) Id.bf256_add [.var 36, .var 38],
    .asg 34 (.var 39),
    .call none Id.bf256_store [.var 0, .var 28],
    .call none Id.bf256_store [.var 12, .var 34],
    .call (some 40) Id.memcpy [.padd (.var 0) (.lit 32) 1, .var 12, .lit 2],
    .call none Id.xor_u8_array [.var 0, .var 10, .var 0, .lit 34]]⟩

/-- `vole_hash_192`, universal_hashing.c:75-108; variables: 0 h, 1 sd, 2 x, 3 ell, 4 r0, 5 r1, 6 r2, 7 r3, 8 s, 9 t,
  10 x1, 11 length_lambda, 12 tmp, 16 h0, 18 b_s, 20 running_s, 21 i, 26 h1, 28 h2, 34 h3 -/
def vole_hash_192 : Fn := ⟨4,
  block [
    .asg 4 (.var 1),
    .asg 5 (.padd (.var 1) (.lit 24) 1),
    .asg 6 (.padd (.var 1) (.lit 48) 1),
    .asg 7 (.padd (.var 1) (.lit 72) 1),
    .asg 8 (.padd (.var 1) (.lit 96) 1),
    .asg 9 (.padd (.var 1) (.lit 120) 1),
    .asg 10 (.padd (.var 2) (.div (.div .u32) (.bin (.add .u32) (.var 3) (.lit 192)) (.lit 8)) 1),
    .asg 11 (.div (.div .u32) (.bin (.sub .u32) (.bin (.add .u32) (.var 3) (.lit 384)) (.lit 1)) (.lit 192)),
    .new 12 (.lit 24),
    .call (some 13) Id.memset [.var 12, .lit 0, .lit 24],
    .ite (.bin .eq (.div (.mod .u32) (.bin (.add .u32) (.var 3) (.lit 192)) (.lit 192)) (.lit 0))
      (.asg 14 (.lit 24))
      (.asg 14 (.div (.div .u32) (.div (.mod .u32) (.bin (.add .u32) (.var 3) (.lit 192)) (.lit 192)) (.lit 8))),
    .call (some 15) Id.memcpy [.var 12, .padd (.var 2) (.bin (.mul .u32) (.bin (.sub .u32) (.var 11) (.lit 1)) (.lit
      24)) 1, .var 14],
    .call (some 17) Id.bf192_load [.var 12],
    .asg 16 (.var 17),
    .call (some 19) Id.bf192_load [.var 8],
    .asg 18 (.var 19),
    .asg 20 (.var 18),
    .asg 21 (.lit 1),
    .loop (.bin .ne (.var 21) (.var 11))
      (block [
        .call (some 22) Id.bf192_load [.padd (.var 2) (.bin (.mul .u32) (.bin (.sub .u32) (.bin (.sub .u32) (.var 11)
          (.lit 1)) (.var 21)) (.lit 24)) 1],
        .call (some 23) Id.bf192_mul [.var 20, .var 22],
        .call (some 24) Id.bf192_add [.var 16, .var 23],
        .asg 16 (.var 24)])
      (block [
        .asg 21 (.bin (.add .u32) (.var 21) (.lit 1)),
        .call (some 25) Id.bf192_mul [.var 20, .var 18],
        .asg 20 (.var 25)]),
    .call (some 27) Id.compute_h1 [.var 9, .var 2, .lit 192, .var 3],
    .asg 26 (.var 27),
    .call (some 29) Id.bf192_load [.var 4],
    .call (some 30) Id.bf192_mul [.var 29, .var 16],
    .call (some 31) Id.bf192_load [.var 5],
    .call (some 32) Id.bf192_mul_64 [.var 31, .var 26],
    .call (some 33) Id.bf192_add [.var 30, .var 32],
    .asg 28 (.var 33),
    .call (some 35) Id.bf192_load [.var 6],
    .call (some 36) Id.bf192_mul [.var 35, .var 16],
    .call (some 37) Id.bf192_load [.var 7],
    .call (some 38) Id.bf192_mul_64 [.var 37, .var 26],
    .call (some 39) Id.bf192_add [.var 36, .var 38],
    .asg 34 (.var 39),
    .call none Id.bf192_store [.var 0, .var 28],
    .call none Id.bf192_store [.var 12, .var 34],
    .call (some 40) Id.memcpy [.padd (.var 0) (.lit 24) 1, .var 12, .lit 2],
    .call none Id.xor_u8_array [.var 0, .var 10, .var 0, .lit 26]]⟩

/-- `vole_hash_128`, universal_hashing.c:40-73; variables: 0 h, 1 sd, 2 x, 3 ell, 4 r0, 5 r1, 6 r2, 7 r3, 8 s, 9 t,
  10 x1, 11 length_lambda, 12 tmp, 16 h0, 18 b_s, 20 running_s, 21 i, 26 h1, 28 h2, 34 h3 -/
def vole_hash_128 : Fn := ⟨4,
  block [
    .asg 4 (.var 1),
    .asg 5 (.padd (.var 1) (.lit 16) 1),
    .asg 6 (.padd (.var 1) (.lit 32) 1),
    .asg 7 (.padd (.var 1) (.lit 48) 1),
    .asg 8 (.padd (.var 1) (.lit 64) 1),
    .asg 9 (.padd (.var 1) (.lit 80) 1),
    .asg 10 (.padd (.var 2) (.div (.div .u32) (.bin (.add .u32) (.var 3) (.lit 128)) (.lit 8)) 1),
    .asg 11 (.div (.div .u32) (.bin (.sub .u32) (.bin (.add .u32) (.var 3) (.lit 256)) (.lit 1)) (.lit 128)),
    .new 12 (.lit 16),
    .call (some 13) Id.memset [.var 12, .lit 0, .lit 16],
    .ite (.bin .eq (.div (.mod .u32) (.bin (.add .u32) (.var 3) (.lit 128)) (.lit 128)) (.lit 0))
      (.asg 14 (.lit 16))
      (.asg 14 (.div (.div .u32) (.div (.mod .u32) (.bin (.add .u32) (.var 3) (.lit 128)) (.lit 128)) (.lit 8))),
    .call (some 15) Id.memcpy [.var 12, .padd (.var 2) (.bin (.mul .u32) (.bin (.sub .u32) (.var 11) (.lit 1)) (.lit
      16)) 1, .var 14],
    .call (some 17) Id.bf128_load [.var 12],
    .asg 16 (.var 17),
    .call (some 19) Id.bf128_load [.var 8],
    .asg 18 (.var 19),
    .asg 20 (.var 18),
    .asg 21 (.lit 1),
    .loop (.bin .ne (.var 21) (.var 11))
      (block [
        .call (some 22) Id.bf128_load [.padd (.var 2) (.bin (.mul .u32) (.bin (.sub .u32) (.bin (.sub .u32) (.var 11)
          (.lit 1)) (.var 21)) (.lit 16)) 1],
        .call (some 23) Id.bf128_mul [.var 20, .var 22],
        .call (some 24) Id.bf128_add [.var 16, .var 23],
        .asg 16 (.var 24)])
      (block [
        .asg 21 (.bin (.add .u32) (.var 21) (.lit 1)),
        .call (some 25) Id.bf128_mul [.var 20, .var 18],
        .asg 20 (.var 25)]),
    .call (some 27) Id.compute_h1 [.var 9, .var 2, .lit 128, .var 3],
    .asg 26 (.var 27),
    .call (some 29) Id.bf128_load [.var 4],
    .call (some 30) Id.bf128_mul [.var 29, .var 16],
    .call (some 31) Id.bf128_load [.var 5],
    .call (some 32) Id.bf128_mul_64 [.var 31, .var 26],
    .call (some 33) Id.bf128_add [.var 30, .var 32],
    .asg 28 (.var 33),
    .call (some 35) Id.bf128_load [.var 6],
    .call (some 36) Id.bf128_mul [.var 35, .var 16],
    .call (some 37) Id.bf128_load [.var 7],
    .call (some 38) Id.bf128_mul_64 [.var 37, .var 26],
    .call (some 39) Id.bf128_add [.var 36, .var 38],
    .asg 34 (.var 39),
    .call none Id.bf128_store [.var 0, .var 28],
    .call none Id.bf128_store [.var 12, .var 34],
    .call (some 40) Id.memcpy [.padd (.var 0) (.lit 16) 1, .var 12, .lit 2],
    .call none Id.xor_u8_array [.var 0, .var 10, .var 0, .lit 18]]⟩

/-- `vole_hash`, universal_hashing.c:145-157; variables: 0 h, 1 sd, 2 x, 3 ell, 4 lambda -/
def vole_hash : Fn := ⟨5,
  block [
    .asg 5 (.var 4),
    .ite (.bin .eq (.var 5) (.lit 256))
      (.call none Id.vole_hash_256 [.var 0, .var 1, .var 2, .var 3])
      (.ite (.bin .eq (.var 5) (.lit 192))
          (.call none Id.vole_hash_192 [.var 0, .var 1, .var 2, .var 3])
          (.call none Id.vole_hash_128 [.var 0, .var 1, .var 2, .var 3]))]⟩

/-- `zk_hash_256_init`, universal_hashing.c:209-218; variables: 0 ctx, 1 sd, 2 s, 3 t -/
def zk_hash_256_init : Fn := ⟨2,
  block [
    .asg 2 (.padd (.var 1) (.lit 64) 1),
    .asg 3 (.padd (.var 1) (.lit 96) 1),
    .call (some 4) Id.bf256_zero [],
    .stc (.var 0) 0 (.var 4),
    .call (some 5) Id.bf256_zero [],
    .stc (.var 0) 1 (.var 5),
    .call (some 6) Id.bf256_load [.var 2],
    .stc (.var 0) 2 (.var 6),
    .call (some 7) Id.bf64_load [.var 3],
    .stc (.var 0) 3 (.var 7),
    .stc (.var 0) 4 (.var 1)]⟩

/-- `zk_hash_256_update`, universal_hashing.c:220-223; variables: 0 ctx, 1 v -/
def zk_hash_256_update : Fn := ⟨2,
  block [
    .call (some 2) Id.bf256_mul [.cell (.var 0) 0, .cell (.var 0) 2],
    .call (some 3) Id.bf256_add [.var 2, .var 1],
    .stc (.var 0) 0 (.var 3),
    .call (some 4) Id.bf256_mul_64 [.cell (.var 0) 1, .cell (.var 0) 3],
    .call (some 5) Id.bf256_add [.var 4, .var 1],
    .stc (.var 0) 1 (.var 5)]⟩

/-- `zk_hash_256_finalize`, universal_hashing.c:225-232; variables: 0 h, 1 ctx, 2 x1, 3 r0, 4 r1 -/
def zk_hash_256_finalize : Fn := ⟨3,
  block [
    .asg 3 (.cell (.var 1) 4),
    .asg 4 (.padd (.cell (.var 1) 4) (.lit 32) 1),
    .call (some 5) Id.bf256_load [.var 3],
    .call (some 6) Id.bf256_mul [.var 5, .cell (.var 1) 0],
    .call (some 7) Id.bf256_load [.var 4],
    .call (some 8) Id.bf256_mul [.var 7, .cell (.var 1) 1],
    .call (some 9) Id.bf256_add [.var 6, .var 8],
    .call (some 10) Id.bf256_add [.var 9, .var 2],
    .call none Id.bf256_store [.var 0, .var 10]]⟩

/-- `zk_hash_192_init`, universal_hashing.c:184-193; variables: 0 ctx, 1 sd, 2 s, 3 t -/
def zk_hash_192_init : Fn := ⟨2,
  block [
    .asg 2 (.padd (.var 1) (.lit 48) 1),
    .asg 3 (.padd (.var 1) (.lit 72) 1),
    .call (some 4) Id.bf192_zero [],
    .stc (.var 0) 0 (.var 4),
    .call (some 5) Id.bf192_zero [],
    .stc (.var 0) 1 (.var 5),
    .call (some 6) Id.bf192_load [.var 2],
    .stc (.var 0) 2 (.var 6),
    .call (some 7) Id.bf64_load [.var 3],
    .stc (.var 0) 3 (.var 7),
    .stc (.var 0) 4 (.var 1)]⟩

/-- `zk_hash_192_update`, universal_hashing.c:195-198; variables: 0 ctx, 1 v -/
def zk_hash_192_update : Fn := ⟨2,
  block [
    .call (some 2) Id.bf192_mul [.cell (.var 0) 0, .cell (.var 0) 2],
    .call (some 3) Id.bf192_add [.var 2, .var 1],
    .stc (.var 0) 0 (.var 3),
    .call (some 4) Id.bf192_mul_64 [.cell (.var 0) 1, .cell (.var 0) 3],
    .call (some 5) Id.bf192_add [.var 4, .var 1],
    .stc (.var 0) 1 (.var 5)]⟩

/-- `zk_hash_192_finalize`, universal_hashing.c:200-207; variables: 0 h, 1 ctx, 2 x1, 3 r0, 4 r1 -/
def zk_hash_192_finalize : Fn := ⟨3,
  block [
    .asg 3 (.cell (.var 1) 4),
    .asg 4 (.padd (.cell (.var 1) 4) (.lit 24) 1),
    .call (some 5) Id.bf192_load [.var 3],
    .call (some 6) Id.bf192_mul [.var 5, .cell (.var 1) 0],
    .call (some 7) Id.bf192_load [.var 4],
    .call (some 8) Id.bf192_mul [.var 7, .cell (.var 1) 1],
    .call (some 9) Id.bf192_add [.var 6, .var 8],
    .call (some 10) Id.bf192_add [.var 9, .var 2],
    .call none Id.bf192_store [.var 0, .var 10]]⟩

/-- `zk_hash_128_init`, universal_hashing.c:159-168; variables: 0 ctx, 1 sd, 2 s, 3 t -/
def zk_hash_128_init : Fn := ⟨2,
  block [
    .asg 2 (.padd (.var 1) (.lit 32) 1),
    .asg 3 (.padd (.var 1) (.lit 48) 1),
    .call (some 4) Id.bf128_zero [],
    .stc (.var 0) 0 (.var 4),
    .call (some 5) Id.bf128_zero [],
    .stc (.var 0) 1 (.var 5),
    .call (some 6) Id.bf128_load [.var 2],
    .stc (.var 0) 2 (.var 6),
    .call (some 7) Id.bf64_load [.var 3],
    .stc (.var 0) 3 (.var 7),
    .stc (.var 0) 4 (.var 1)]⟩

/-- `zk_hash_128_update`, universal_hashing.c:170-173; variables: 0 ctx, 1 v -/
def zk_hash_128_update : Fn := ⟨2,
  block [
    .call (some 2) Id.bf128_mul [.cell (.var 0) 0, .cell (.var 0) 2],
    .call (some 3) Id.bf128_add [.var 2, .var 1],
    .stc (.var 0) 0 (.var 3),
    .call (some 4) Id.bf128_mul_64 [.cell (.var 0) 1, .cell (.var 0) 3],
    .call (some 5) Id.bf128_add [.var 4, .var 1],
    .stc (.var 0) 1 (.var 5)]⟩

/-- `zk_hash_128_finalize`, universal_hashing.c:175-182; variables: 0 h, 1 ctx, 2 x1, 3 r0, 4 r1 -/
def zk_hash_128_finalize : Fn := ⟨3,
  block [
    .asg 3 (.cell (.var 1) 4),
    .asg 4 (.padd (.cell (.var 1) 4) (.lit 16) 1),
    .call (some 5) Id.bf128_load [.var 3],
    .call (some 6) Id.bf128_mul [.var 5, .cell (.var 1) 0],
    .call (some 7) Id.bf128_load [.var 4],
    .call (some 8) Id.bf128_mul [.var 7, .cell (.var 1) 1],
    .call (some 9) Id.bf128_add [.var 6, .var 8],
    .call (some 10) Id.bf128_add [.var 9, .var 2],
    .call none Id.bf128_store [.var 0, .var 10]]⟩

end Faest.Leak.Prog
