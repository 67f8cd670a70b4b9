/-
Generated by tools/c2leak.py; do not edit.
Functions of universal_hashing.c.
-/
import Verif.Model.Leak.IR
import Verif.Model.Leak.Prog.Ids
import Verif.Model.Leak.ProgVec.Ids

namespace Faest.Leak.ProgVec

/-- `vole_hash_256`, universal_hashing.c:110-143; variables: 0 h, 1 sd, 2 x, 3 ell, 4 r0, 5 r1, 6 r2, 7 r3, 8 s, 9 t,
  10 x1, 11 length_lambda, 12 tmp, 16 h0, 18 b_s, 20 running_s, 21 i, 25 h1, 27 h2, 32 h3 -/
def vole_hash_256 : Fn := ⟨4,
  block [
    .asg 4 (.var 1),
    .asg 5 (.padd (.var 1) (.lit 32) 1),
    .asg 6 (.padd (.var 1) (.lit 64) 1),
    .asg 7 (.padd (.var 1) (.lit 96) 1),
    .asg 8 (.padd (.var 1) (.lit 128) 1),
    .asg 9 (.padd (.var 1) (.lit 160) 1),
    .asg 10 (.padd (.var 2) (.div (.div .u32) (.bin (.add .u32) (.var 3) (.lit 256)) (.lit 8)) 1),
    .asg 11 (.div (.div .u32) (.bin (.sub .u32) (.bin (.add .u32) (.var 3) (.lit 512)) (.lit 1)) (.lit 256)),
    .new 12 (.lit 32),
    .call (some 13) Prog.Id.memset [.var 12, .lit 0, .lit 32],
    .ite (.bin .eq (.div (.mod .u32) (.bin (.add .u32) (.var 3) (.lit 256)) (.lit 256)) (.lit 0))
      (.asg 14 (.lit 32))
      (.asg 14 (.div (.div .u32) (.div (.mod .u32) (.bin (.add .u32) (.var 3) (.lit 256)) (.lit 256)) (.lit 8))),
    .call (some 15) Prog.Id.memcpy [.var 12, .padd (.var 2) (.bin (.mul .u32) (.bin (.sub .u32) (.var 11) (.lit 1))
      (.lit 32)) 1, .var 14],
    .call (some 17) Prog.Id.bf256_load [.var 12],
    .asg 16 (.var 17),
    .call (some 19) Prog.Id.bf256_load [.var 8],
    .asg 18 (.var 19),
    .asg 20 (.var 18),
    .asg 21 (.lit 1),
    .loop (.bin .ne (.var 21) (.var 11))
      (block [
        .call (some 22) Prog.Id.bf256_load [.padd (.var 2) (.bin (.mul .u32) (.bin (.sub .u32) (.bin (.sub .u32)
          (.var 11) (.lit 1)) (.var 21)) (.lit 32)) 1],
        .call (some 23) Prog.Id.bf256_mul [.var 20, .var 22],
        .asg 16 (.bin (.vec 21) (.var 16) (.var 23))])
      (block [
        .asg 21 (.bin (.add .u32) (.var 21) (.lit 1)),
        .call (some 24) Prog.Id.bf256_mul [.var 20, .var 18],
        .asg 20 (.var 24)]),
    .call (some 26) Prog.Id.compute_h1 [.var 9, .var 2, .lit 256, .var 3],
    .asg 25 (.var 26),
    .call (some 28) Prog.Id.bf256_load [.var 4],
    .call (some 29) Prog.Id.bf256_mul [.var 28, .var 16],
    .call (some 30) Prog.Id.bf256_load [.var 5],
    .call (some 31) Prog.Id.bf256_mul_64 [.var 30, .var 25],
    .asg 27 (.bin (.vec 21) (.var 29) (.var 31)),
    .call (some 33) Prog.Id.bf256_load [.var 6],
    .call (some 34) Prog.Id.bf256_mul [.var 33, .var 16],
    .call (some 35) Prog.Id.bf256_load [.var 7],
    .call (some 36) Prog.Id.bf256_mul_64 [.var 35, .var 25],
    .asg 32 (.bin (.vec 21) (.var 34) (.var 36)),
    .call none Prog.Id.bf256_store [.var 0, .var 27],
    .call none Prog.Id.bf256_store [.var 12, .var 32],
    .call (some 37) Prog.Id.memcpy [.padd (.var 0) (.lit 32) 1, .var 12, .lit 2],
    .call none Prog.Id.xor_u8_array [.var 0, .var 10, .var 0, .lit 34]]⟩

/-- `vole_hash_192`, universal_hashing.c:75-108; variables: 0 h, 1 sd, 2 x, 3 ell, 4 r0, 5 r1, 6 r2, 7 r3, 8 s, 9 t,
  10 x1, 11 length_lambda, 12 tmp, 16 h0, 18 b_s, 20 running_s, 21 i, 25 h1, 27 h2, 32 h3 -/
def vole_hash_192 : Fn := ⟨4,
  block [
    .asg 4 (.var 1),
    .asg 5 (.padd (.var 1) (.lit 24) 1),
    .asg 6 (.padd (.var 1) (.lit 48) 1),
    .asg 7 (.padd (.var 1) (.lit 72) 1),
    .asg 8 (.padd (.var 1) (.lit 96) 1),
    .asg 9 (.padd (.var 1) (.lit 120) 1),
    .asg 10 (.padd (.var 2) (.div (.div .u32) (.bin (.add .u32) (.var 3) (.lit 192)) (.lit 8)) 1),
    .asg 11 (.div (.div .u32) (.bin (.sub .u32) (.bin (.add .u32) (.var 3) (.lit 384)) (.lit 1)) (.lit 192)),
    .new 12 (.lit 24),
    .call (some 13) Prog.Id.memset [.var 12, .lit 0, .lit 24],
    .ite (.bin .eq (.div (.mod .u32) (.bin (.add .u32) (.var 3) (.lit 192)) (.lit 192)) (.lit 0))
      (.asg 14 (.lit 24))
      (.asg 14 (.div (.div .u32) (.div (.mod .u32) (.bin (.add .u32) (.var 3) (.lit 192)) (.lit 192)) (.lit 8))),
    .call (some 15) Prog.Id.memcpy [.var 12, .padd (.var 2) (.bin (.mul .u32) (.bin (.sub .u32) (.var 11) (.lit 1))
      (.lit 24)) 1, .var 14],
    .call (some 17) Prog.Id.bf192_load [.var 12],
    .asg 16 (.var 17),
    .call (some 19) Prog.Id.bf192_load [.var 8],
    .asg 18 (.var 19),
    .asg 20 (.var 18),
    .asg 21 (.lit 1),
    .loop (.bin .ne (.var 21) (.var 11))
      (block [
        .call (some 22) Prog.Id.bf192_load [.padd (.var 2) (.bin (.mul .u32) (.bin (.sub .u32) (.bin (.sub .u32)
          (.var 11) (.lit 1)) (.var 21)) (.lit 24)) 1],
        .call (some 23) Prog.Id.bf192_mul [.var 20, .var 22],
        .asg 16 (.bin (.vec 21) (.var 16) (.var 23))])
      (block [
        .asg 21 (.bin (.add .u32) (.var 21) (.lit 1)),
        .call (some 24) Prog.Id.bf192_mul [.var 20, .var 18],
        .asg 20 (.var 24)]),
    .call (some 26) Prog.Id.compute_h1 [.var 9, .var 2, .lit 192, .var 3],
    .asg 25 (.var 26),
    .call (some 28) Prog.Id.bf192_load [.var 4],
    .call (some 29) Prog.Id.bf192_mul [.var 28, .var 16],
    .call (some 30) Prog.Id.bf192_load [.var 5],
    .call (some 31) Prog.Id.bf192_mul_64 [.var 30, .var 25],
    .asg 27 (.bin (.vec 21) (.var 29) (.var 31)),
    .call (some 33) Prog.Id.bf192_load [.var 6],
    .call (some 34) Prog.Id.bf192_mul [.var 33, .var 16],
    .call (some 35) Prog.Id.bf192_load [.var 7],
    .call (some 36) Prog.Id.bf192_mul_64 [.var 35, .var 25],
    .asg 32 (.bin (.vec 21) (.var 34) (.var 36)),
    .call none Prog.Id.bf192_store [.var 0, .var 27],
    .call none Prog.Id.bf192_store [.var 12, .var 32],
    .call (some 37) Prog.Id.memcpy [.padd (.var 0) (.lit 24) 1, .var 12, .lit 2],
    .call none Prog.Id.xor_u8_array [.var 0, .var 10, .var 0, .lit 26]]⟩

/-- `vole_hash_128`, universal_hashing.c:40-73; variables: 0 h, 1 sd, 2 x, 3 ell, 4 r0, 5 r1, 6 r2, 7 r3, 8 s, 9 t,
  10 x1, 11 length_lambda, 12 tmp, 16 h0, 18 b_s, 20 running_s, 21 i, 25 h1, 27 h2, 32 h3 -/
def vole_hash_128 : Fn := ⟨4,
  block [
    .asg 4 (.var 1),
    .asg 5 (.padd (.var 1) (.lit 16) 1),
    .asg 6 (.padd (.var 1) (.lit 32) 1),
    .asg 7 (.padd (.var 1) (.lit 48) 1),
    .asg 8 (.padd (.var 1) (.lit 64) 1),
    .asg 9 (.padd (.var 1) (.lit 80) 1),
    .asg 10 (.padd (.var 2) (.div (.div .u32) (.bin (.add .u32) (.var 3) (.lit 128)) (.lit 8)) 1),
    .asg 11 (.div (.div .u32) (.bin (.sub .u32) (.bin (.add .u32) (.var 3) (.lit 256)) (.lit 1)) (.lit 128)),
    .new 12 (.lit 16),
    .call (some 13) Prog.Id.memset [.var 12, .lit 0, .lit 16],
    .ite (.bin .eq (.div (.mod .u32) (.bin (.add .u32) (.var 3) (.lit 128)) (.lit 128)) (.lit 0))
      (.asg 14 (.lit 16))
      (.asg 14 (.div (.div .u32) (.div (.mod .u32) (.bin (.add .u32) (.var 3) (.lit 128)) (.lit 128)) (.lit 8))),
    .call (some 15) Prog.Id.memcpy [.var 12, .padd (.var 2) (.bin (.mul .u32) (.bin (.sub .u32) (.var 11) (.lit 1))
      (.lit 16)) 1, .var 14],
    .call (some 17) Prog.Id.bf128_load [.var 12],
    .asg 16 (.var 17),
    .call (some 19) Prog.Id.bf128_load [.var 8],
    .asg 18 (.var 19),
    .asg 20 (.var 18),
    .asg 21 (.lit 1),
    .loop (.bin .ne (.var 21) (.var 11))
      (block [
        .call (some 22) Prog.Id.bf128_load [.padd (.var 2) (.bin (.mul .u32) (.bin (.sub .u32) (.bin (.sub .u32)
          (.var 11) (.lit 1)) (.var 21)) (.lit 16)) 1],
        .call (some 23) Prog.Id.bf128_mul [.var 20, .var 22],
        .asg 16 (.bin (.vec 21) (.var 16) (.var 23))])
      (block [
        .asg 21 (.bin (.add .u32) (.var 21) (.lit 1)),
        .call (some 24) Prog.Id.bf128_mul [.var 20, .var 18],
        .asg 20 (.var 24)]),
    .call (some 26) Prog.Id.compute_h1 [.var 9, .var 2, .lit 128, .var 3],
    .asg 25 (.var 26),
    .call (some 28) Prog.Id.bf128_load [.var 4],
    .call (some 29) Prog.Id.bf128_mul [.var 28, .var 16],
    .call (some 30) Prog.Id.bf128_load [.var 5],
    .call (some 31) Prog.Id.bf128_mul_64 [.var 30, .var 25],
    .asg 27 (.bin (.vec 21) (.var 29) (.var 31)),
    .call (some 33) Prog.Id.bf128_load [.var 6],
    .call (some 34) Prog.Id.bf128_mul [.var 33, .var 16],
    .call (some 35) Prog.Id.bf128_load [.var 7],
    .call (some 36) Prog.Id.bf128_mul_64 [.var 35, .var 25],
    .asg 32 (.bin (.vec 21) (.var 34) (.var 36)),
    .call none Prog.Id.bf128_store [.var 0, .var 27],
    .call none Prog.Id.bf128_store [.var 12, .var 32],
    .call (some 37) Prog.Id.memcpy [.padd (.var 0) (.lit 16) 1, .var 12, .lit 2],
    .call none Prog.Id.xor_u8_array [.var 0, .var 10, .var 0, .lit 18]]⟩

/-- `zk_hash_256_update`, universal_hashing.c:220-223; variables: 0 ctx, 1 v -/
def zk_hash_256_update : Fn := ⟨2,
  block [
    .call (some 2) Prog.Id.bf256_mul [.cell (.var 0) 0, .cell (.var 0) 2],
    .stc (.var 0) 0 (.bin (.vec 21) (.var 2) (.var 1)),
    .call (some 3) Prog.Id.bf256_mul_64 [.cell (.var 0) 1, .cell (.var 0) 3],
    .stc (.var 0) 1 (.bin (.vec 21) (.var 3) (.var 1))]⟩

/-- `zk_hash_256_finalize`, universal_hashing.c:225-232; variables: 0 h, 1 ctx, 2 x1, 3 r0, 4 r1 -/
def zk_hash_256_finalize : Fn := ⟨3,
  block [
    .asg 3 (.cell (.var 1) 4),
    .asg 4 (.padd (.cell (.var 1) 4) (.lit 32) 1),
    .call (some 5) Prog.Id.bf256_load [.var 3],
    .call (some 6) Prog.Id.bf256_mul [.var 5, .cell (.var 1) 0],
    .call (some 7) Prog.Id.bf256_load [.var 4],
    .call (some 8) Prog.Id.bf256_mul [.var 7, .cell (.var 1) 1],
    .call none Prog.Id.bf256_store [.var 0, .bin (.vec 21) (.bin (.vec 21) (.var 6) (.var 8)) (.var 2)]]⟩

/-- `zk_hash_192_update`, universal_hashing.c:195-198; variables: 0 ctx, 1 v -/
def zk_hash_192_update : Fn := ⟨2,
  block [
    .call (some 2) Prog.Id.bf192_mul [.cell (.var 0) 0, .cell (.var 0) 2],
    .stc (.var 0) 0 (.bin (.vec 21) (.var 2) (.var 1)),
    .call (some 3) Prog.Id.bf192_mul_64 [.cell (.var 0) 1, .cell (.var 0) 3],
    .stc (.var 0) 1 (.bin (.vec 21) (.var 3) (.var 1))]⟩

/-- `zk_hash_192_finalize`, universal_hashing.c:200-207; variables: 0 h, 1 ctx, 2 x1, 3 r0, 4 r1 -/
def zk_hash_192_finalize : Fn := ⟨3,
  block [
    .asg 3 (.cell (.var 1) 4),
    .asg 4 (.padd (.cell (.var 1) 4) (.lit 24) 1),
    .call (some 5) Prog.Id.bf192_load [.var 3],
    .call (some 6) Prog.Id.bf192_mul [.var 5, .cell (.var 1) 0],
    .call (some 7) Prog.Id.bf192_load [.var 4],
    .call (some 8) Prog.Id.bf192_mul [.var 7, .cell (.var 1) 1],
    .call none Prog.Id.bf192_store [.var 0, .bin (.vec 21) (.bin (.vec 21) (.var 6) (.var 8)) (.var 2)]]⟩

/-- `zk_hash_128_update`, universal_hashing.c:170-173; variables: 0 ctx, 1 v -/
def zk_hash_128_update : Fn := ⟨2,
  block [
    .call (some 2) Prog.Id.bf128_mul [.cell (.var 0) 0, .cell (.var 0) 2],
    .stc (.var 0) 0 (.bin (.vec 21) (.var 2) (.var 1)),
    .call (some 3) Prog.Id.bf128_mul_64 [.cell (.var 0) 1, .cell (.var 0) 3],
    .stc (.var 0) 1 (.bin (.vec 21) (.var 3) (.var 1))]⟩

/-- `zk_hash_128_finalize`, universal_hashing.c:175-182; variables: 0 h, 1 ctx, 2 x1, 3 r0, 4 r1 -/
def zk_hash_128_finalize : Fn := ⟨3,
  block [
    .asg 3 (.cell (.var 1) 4),
    .asg 4 (.padd (.cell (.var 1) 4) (.lit 16) 1),
    .call (some 5) Prog.Id.bf128_load [.var 3],
    .call (some 6) Prog.Id.bf128_mul [.var 5, .cell (.var 1) 0],
    .call (some 7) Prog.Id.bf128_load [.var 4],
    .call (some 8) Prog.Id.bf128_mul [.var 7, .cell (.var 1) 1],
    .call none Prog.Id.bf128_store [.var 0, .bin (.vec 21) (.bin (.vec 21) (.var 6) (.var 8)) (.var 2)]]⟩

end Faest.Leak.ProgVec
