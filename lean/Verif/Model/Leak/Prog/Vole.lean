/-
Generated by tools/c2leak.py; do not edit.
Functions of vole.c.
-/
import Verif.Model.Leak.IR
import Verif.Model.Leak.Prog.Ids

namespace Faest.Leak.Prog

/-- `ConvertToVole`, vole.c:18-56; variables: 0 iv, 1 sd, 2 sd0_bot, 3 lambda, 4 depth, 5 outLenBytes, 6 u, 7 v, 8
  num_instances, 9 lambda_bytes, 10 r, 12 i, 14 j, 15 depthloop, 16 i -/
def ConvertToVole : Fn := ⟨8,
  block [
    .asg 8 (.un (.cast .u32) (.bin (.shl .i32) (.lit 1) (.var 4))),
    .asg 9 (.div (.div .u32) (.var 3) (.lit 8)),
    .new 11 (.bin (.mul .u32) (.bin (.mul .u32) (.lit 2) (.var 8)) (.var 5)),
    .asg 10 (.var 11),
    .ite (.un .lnot (.var 2))
      (.call none Id.prg [.var 1, .var 0, .padd (.var 10) (.bin (.mul .u32) (.bin (.add .u32) (.bin (.mul .u32) (.lit
        0) (.var 8)) (.lit 0)) (.var 5)) 1, .var 3, .var 5])
      (.skip),
    .asg 12 (.lit 1),
    .loop (.bin .lt (.var 12) (.var 8))
      (.call none Id.prg [.padd (.var 1) (.bin (.mul .u32) (.var 9) (.var 12)) 1, .var 0, .padd (.var 10) (.bin (.mul
        .u32) (.bin (.add .u32) (.bin (.mul .u32) (.lit 0) (.var 8)) (.var 12)) (.var 5)) 1, .var 3, .var 5])
      (.asg 12 (.bin (.add .u32) (.var 12) (.lit 1))),
    .call (some 13) Id.memset [.var 7, .lit 0, .bin (.mul .u32) (.var 4) (.var 5)],
    .asg 14 (.lit 0),
    .loop (.bin .lt (.var 14) (.var 4))
      (block [
        .asg 15 (.bin (.shr .u32) (.var 8) (.bin (.add .u32) (.var 14) (.lit 1))),
        .asg 16 (.lit 0),
        .loop (.bin .lt (.var 16) (.var 15))
          (block [
            .call none Id.xor_u8_array [.padd (.var 7) (.bin (.mul .u32) (.var 14) (.var 5)) 1, .padd (.var 10) (.bin
              (.mul .u32) (.bin (.add .u32) (.bin (.mul .u32) (.div (.mod .u32) (.var 14) (.lit 2)) (.var 8)) (.bin
              (.add .u32) (.bin (.mul .u32) (.lit 2) (.var 16)) (.lit 1))) (.var 5)) 1, .padd (.var 7) (.bin (.mul
              .u32) (.var 14) (.var 5)) 1, .var 5],
            .call none Id.xor_u8_array [.padd (.var 10) (.bin (.mul .u32) (.bin (.add .u32) (.bin (.mul .u32) (.div
              (.mod .u32) (.var 14) (.lit 2)) (.var 8)) (.bin (.mul .u32) (.lit 2) (.var 16))) (.var 5)) 1, .padd
              (.var 10) (.bin (.mul .u32) (.bin (.add .u32) (.bin (.mul .u32) (.div (.mod .u32) (.var 14) (.lit 2))
              (.var 8)) (.bin (.add .u32) (.bin (.mul .u32) (.lit 2) (.var 16)) (.lit 1))) (.var 5)) 1, .padd (.var
              10) (.bin (.mul .u32) (.bin (.add .u32) (.bin (.mul .u32) (.div (.mod .u32) (.bin (.add .u32) (.var 14)
              (.lit 1)) (.lit 2)) (.var 8)) (.var 16)) (.var 5)) 1, .var 5]])
          (.asg 16 (.bin (.add .u32) (.var 16) (.lit 1)))])
      (.asg 14 (.bin (.add .u32) (.var 14) (.lit 1))),
    .ite (.un .lnot (.var 2))
      (.asg 17 (.bin .ne (.bin .ne (.var 6) (.lit 0)) (.lit 0)))
      (.asg 17 (.lit 0)),
    .ite (.var 17)
      (.call (some 18) Id.memcpy [.var 6, .padd (.var 10) (.bin (.mul .u32) (.bin (.add .u32) (.bin (.mul .u32) (.div
        (.mod .u32) (.var 4) (.lit 2)) (.var 8)) (.lit 0)) (.var 5)) 1, .var 5])
      (.skip),
    .free (.var 10)]⟩

/-- `vole_commit`, vole.c:83-130; variables: 0 rootKey, 1 iv, 2 ellhat, 3 params, 4 hcom, 5 vecCom, 6 c, 7 u, 8 v, 9
  lambda, 10 lambda_bytes, 11 ellhat_bytes, 12 tau, 13 tau0, 14 k0, 15 k1, 16 ui, 18 expanded_keys, 20 h1_ctx, 23
  v_idx, 24 i, 25 depth, 28 i -/
def vole_commit : Fn := ⟨9,
  block [
    .asg 9 (.ld 2 (.var 3)),
    .asg 10 (.div (.div .u32) (.var 9) (.lit 8)),
    .asg 11 (.div (.div .u32) (.bin (.add .u32) (.var 2) (.lit 7)) (.lit 8)),
    .asg 12 (.ld 2 (.padd (.var 3) (.lit 16) 1)),
    .asg 13 (.ld 2 (.padd (.var 3) (.lit 22) 1)),
    .asg 14 (.ld 2 (.padd (.var 3) (.lit 18) 1)),
    .asg 15 (.ld 2 (.padd (.var 3) (.lit 20) 1)),
    .new 17 (.bin (.mul .u32) (.var 12) (.var 11)),
    .asg 16 (.var 17),
    .new 19 (.bin (.mul .u32) (.var 12) (.var 10)),
    .asg 18 (.var 19),
    .call none Id.prg [.var 0, .var 1, .var 18, .var 9, .bin (.mul .u32) (.var 10) (.var 12)],
    .new 20 (.lit 220),
    .new 21 (.lit 212),
    .new 22 (.lit 200),
    .stc (.var 21) 0 (.var 22),
    .stc (.var 20) 0 (.var 21),
    .call none Id.H1_init [.var 20, .var 9],
    .asg 23 (.lit 0),
    .asg 24 (.lit 0),
    .loop (.bin .lt (.var 24) (.var 12))
      (block [
        .ite (.bin .lt (.var 24) (.var 13))
          (.asg 26 (.var 14))
          (.asg 26 (.var 15)),
        .asg 25 (.var 26),
        .call none Id.vector_commitment [.padd (.var 18) (.bin (.mul .u32) (.var 24) (.var 10)) 1, .var 1, .var 3,
          .var 9, .padd (.var 5) (.var 24) 4, .var 25],
        .call none Id.ConvertToVole [.var 1, .cell (.padd (.var 5) (.var 24) 4) 3, .lit 0, .var 9, .var 25, .var 11,
          .padd (.var 16) (.bin (.mul .u32) (.var 24) (.var 11)) 1, .cell (.padd (.var 8) (.var 23) 1) 0],
        .asg 23 (.bin (.add .u32) (.var 23) (.var 25)),
        .call none Id.H1_update [.var 20, .cell (.padd (.var 5) (.var 24) 4) 0, .bin (.mul .u32) (.var 10) (.lit 2)]])
      (.asg 24 (.bin (.add .u32) (.var 24) (.lit 1))),
    .free (.var 18),
    .call (some 27) Id.memcpy [.var 7, .var 16, .var 11],
    .asg 28 (.lit 1),
    .loop (.bin .lt (.var 28) (.var 12))
      (.call none Id.xor_u8_array [.var 7, .padd (.var 16) (.bin (.mul .u32) (.var 28) (.var 11)) 1, .padd (.var 6)
        (.bin (.mul .u32) (.bin (.sub .u32) (.var 28) (.lit 1)) (.var 11)) 1, .var 11])
      (.asg 28 (.bin (.add .u32) (.var 28) (.lit 1))),
    .free (.var 16),
    .call none Id.H1_final [.var 20, .var 4, .bin (.mul .u32) (.var 10) (.lit 2)]]⟩

/-- `ChalDec`, vole.c:58-81; variables: 0 chal, 1 i, 2 k0, 3 t0, 4 k1, 5 t1, 6 chalout, 7 lo, 8 hi, 9 t, 11 j -/
def ChalDec : Fn := ⟨7,
  block [
    .ite (.bin .ge (.var 1) (.bin (.add .u32) (.var 3) (.var 5)))
      (.ret (.lit 0))
      (.skip),
    .ite (.bin .lt (.var 1) (.var 3))
      (block [
        .asg 7 (.bin (.mul .u32) (.var 1) (.var 2)),
        .asg 8 (.bin (.mul .u32) (.bin (.add .u32) (.var 1) (.lit 1)) (.var 2))])
      (block [
        .asg 9 (.bin (.sub .u32) (.var 1) (.var 3)),
        .asg 7 (.bin (.add .u32) (.bin (.mul .u32) (.var 3) (.var 2)) (.bin (.mul .u32) (.var 9) (.var 4))),
        .asg 8 (.bin (.add .u32) (.bin (.mul .u32) (.var 3) (.var 2)) (.bin (.mul .u32) (.bin (.add .u32) (.var 9)
          (.lit 1)) (.var 4)))]),
    .ite (.bin .eq (.bin (.sub .u32) (.var 8) (.var 7)) (.var 2))
      (.asg 10 (.lit 1))
      (.asg 10 (.bin .ne (.bin .eq (.bin (.sub .u32) (.var 8) (.var 7)) (.var 4)) (.lit 0))),
    .ite (.var 10)
      (.skip)
      (.skip),
    .asg 11 (.var 7),
    .loop (.bin .lt (.var 11) (.var 8))
      (.st 1 (.padd (.var 6) (.bin (.sub .u32) (.var 11) (.var 7)) 1) (.un (.cast .u8) (.bin (.band .i32) (.bin (.shr
        .i32) (.ld 1 (.padd (.var 0) (.div (.div .u32) (.var 11) (.lit 8)) 1)) (.div (.mod .u32) (.var 11) (.lit 8)))
        (.lit 1))))
      (.asg 11 (.bin (.add .u32) (.var 11) (.lit 1))),
    .ret (.lit 1)]⟩

end Faest.Leak.Prog
