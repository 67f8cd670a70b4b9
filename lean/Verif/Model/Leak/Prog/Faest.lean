/-
Generated by tools/c2leak.py; do not edit.
Functions of faest.c.
-/
import Verif.Model.Leak.IR
import Verif.Model.Leak.Prog.Ids

namespace Faest.Leak.Prog

/-- `hash_mu`, faest.c:198-206; variables: 0 mu, 1 owf_input, 2 owf_output, 3 owf_size, 4 msg, 5 msglen, 6 lambda, 7
  h1_ctx -/
def hash_mu : Fn := ⟨7,
  block [
    .new 7 (.lit 220),
    .new 8 (.lit 212),
    .new 9 (.lit 200),
    .stc (.var 8) 0 (.var 9),
    .stc (.var 7) 0 (.var 8),
    .call none Id.H1_init [.var 7, .var 6],
    .call none Id.H1_update [.var 7, .var 1, .var 3],
    .call none Id.H1_update [.var 7, .var 2, .var 3],
    .call none Id.H1_update [.var 7, .var 4, .var 5],
    .call none Id.H1_final [.var 7, .var 0, .div (.div .u32) (.bin (.mul .u32) (.lit 2) (.var 6)) (.lit 8)]]⟩

/-- `signature_iv`, faest.c:104-106; variables: 0 base_ptr, 1 params, 2 base_ptr -/
def signature_iv : Fn := ⟨2,
  block [
    .asg 2 (.cell (.var 0) 1),
    .ret (.padd (.padd (.var 2) (.ld 2 (.padd (.var 1) (.lit 26) 1)) 1) (.lit (-16)) 1)]⟩

/-- `signature_c`, faest.c:22-29; variables: 0 base_ptr, 1 index, 2 params, 3 base_ptr, 4 lambda_bytes, 5 ell_bytes,
  6 ell_hat_bytes -/
def signature_c : Fn := ⟨3,
  block [
    .asg 3 (.cell (.var 0) 0),
    .asg 4 (.un (.cast .u64) (.div (.div .i32) (.ld 2 (.var 2)) (.lit 8))),
    .asg 5 (.un (.cast .u64) (.div (.div .i32) (.ld 2 (.padd (.var 2) (.lit 10) 1)) (.lit 8))),
    .asg 6 (.bin (.add .u64) (.bin (.add .u64) (.var 5) (.bin (.mul .u64) (.lit 2) (.var 4))) (.lit 2)),
    .ret (.padd (.var 3) (.bin (.mul .u64) (.var 1) (.var 6)) 1)]⟩

/-- `hash_challenge_1`, faest.c:208-221; variables: 0 chall_1, 1 mu, 2 hcom, 3 c, 4 iv, 5 lambda, 6 ell, 7 tau, 8
  lambda_bytes, 9 ell_hat_bytes, 10 h2_ctx -/
def hash_challenge_1 : Fn := ⟨8,
  block [
    .asg 8 (.div (.div .u32) (.var 5) (.lit 8)),
    .asg 9 (.bin (.add .u32) (.bin (.add .u32) (.div (.div .u32) (.var 6) (.lit 8)) (.bin (.mul .u32) (.var 8) (.lit
      2))) (.lit 2)),
    .new 10 (.lit 220),
    .new 11 (.lit 212),
    .new 12 (.lit 200),
    .stc (.var 11) 0 (.var 12),
    .stc (.var 10) 0 (.var 11),
    .call none Id.H2_init [.var 10, .var 5],
    .call none Id.H2_update [.var 10, .var 1, .bin (.mul .u32) (.var 8) (.lit 2)],
    .call none Id.H2_update [.var 10, .var 2, .bin (.mul .u32) (.var 8) (.lit 2)],
    .call none Id.H2_update [.var 10, .var 3, .bin (.mul .u32) (.var 9) (.bin (.sub .u32) (.var 7) (.lit 1))],
    .call none Id.H2_update [.var 10, .var 4, .lit 16],
    .call none Id.H2_final [.var 10, .var 0, .bin (.add .u32) (.bin (.mul .u32) (.lit 5) (.var 8)) (.lit 8)]]⟩

/-- `signature_u_tilde`, faest.c:31-38; variables: 0 base_ptr, 1 params, 2 base_ptr, 3 lambda_bytes, 4 ell_bytes, 5
  ell_hat_bytes -/
def signature_u_tilde : Fn := ⟨2,
  block [
    .asg 2 (.cell (.var 0) 0),
    .asg 3 (.un (.cast .u64) (.div (.div .i32) (.ld 2 (.var 1)) (.lit 8))),
    .asg 4 (.un (.cast .u64) (.div (.div .i32) (.ld 2 (.padd (.var 1) (.lit 10) 1)) (.lit 8))),
    .asg 5 (.bin (.add .u64) (.bin (.add .u64) (.var 4) (.bin (.mul .u64) (.lit 2) (.var 3))) (.lit 2)),
    .ret (.padd (.var 2) (.bin (.mul .u64) (.un (.cast .u64) (.bin (.sub .i32) (.ld 2 (.padd (.var 1) (.lit 16) 1))
      (.lit 1))) (.var 5)) 1)]⟩

/-- `signature_d`, faest.c:40-47; variables: 0 base_ptr, 1 params, 2 base_ptr, 3 lambda_bytes, 4 ell_bytes, 5
  ell_hat_bytes, 6 utilde_bytes -/
def signature_d : Fn := ⟨2,
  block [
    .asg 2 (.cell (.var 0) 0),
    .asg 3 (.un (.cast .u64) (.div (.div .i32) (.ld 2 (.var 1)) (.lit 8))),
    .asg 4 (.un (.cast .u64) (.div (.div .i32) (.ld 2 (.padd (.var 1) (.lit 10) 1)) (.lit 8))),
    .asg 5 (.bin (.add .u64) (.bin (.add .u64) (.var 4) (.bin (.mul .u64) (.lit 2) (.var 3))) (.lit 2)),
    .asg 6 (.bin (.add .u64) (.var 3) (.lit 2)),
    .ret (.padd (.padd (.var 2) (.bin (.mul .u64) (.un (.cast .u64) (.bin (.sub .i32) (.ld 2 (.padd (.var 1) (.lit
      16) 1)) (.lit 1))) (.var 5)) 1) (.var 6) 1)]⟩

/-- `hash_challenge_2`, faest.c:223-237; variables: 0 chall_2, 1 chall_1, 2 u_tilde, 3 h_v, 4 d, 5 lambda, 6 ell, 7
  lambda_bytes, 8 ell_bytes, 9 u_tilde_bytes, 10 h2_ctx_1 -/
def hash_challenge_2 : Fn := ⟨7,
  block [
    .asg 7 (.div (.div .u32) (.var 5) (.lit 8)),
    .asg 8 (.div (.div .u32) (.var 6) (.lit 8)),
    .asg 9 (.bin (.add .u32) (.var 7) (.lit 2)),
    .new 10 (.lit 220),
    .new 11 (.lit 212),
    .new 12 (.lit 200),
    .stc (.var 11) 0 (.var 12),
    .stc (.var 10) 0 (.var 11),
    .call none Id.H2_init [.var 10, .var 5],
    .call none Id.H2_update [.var 10, .var 1, .bin (.add .u32) (.bin (.mul .u32) (.lit 5) (.var 7)) (.lit 8)],
    .call none Id.H2_update [.var 10, .var 2, .var 9],
    .call none Id.H2_update [.var 10, .var 3, .bin (.mul .u32) (.lit 2) (.var 7)],
    .call none Id.H2_update [.var 10, .var 4, .var 8],
    .call none Id.H2_final [.var 10, .var 0, .bin (.add .u32) (.bin (.mul .u32) (.lit 3) (.var 7)) (.lit 8)]]⟩

/-- `signature_a_tilde`, faest.c:49-57; variables: 0 base_ptr, 1 params, 2 base_ptr, 3 lambda_bytes, 4 ell_bytes, 5
  ell_hat_bytes, 6 utilde_bytes -/
def signature_a_tilde : Fn := ⟨2,
  block [
    .asg 2 (.cell (.var 0) 0),
    .asg 3 (.un (.cast .u64) (.div (.div .i32) (.ld 2 (.var 1)) (.lit 8))),
    .asg 4 (.un (.cast .u64) (.div (.div .i32) (.ld 2 (.padd (.var 1) (.lit 10) 1)) (.lit 8))),
    .asg 5 (.bin (.add .u64) (.bin (.add .u64) (.var 4) (.bin (.mul .u64) (.lit 2) (.var 3))) (.lit 2)),
    .asg 6 (.bin (.add .u64) (.var 3) (.lit 2)),
    .ret (.padd (.padd (.padd (.var 2) (.bin (.mul .u64) (.un (.cast .u64) (.bin (.sub .i32) (.ld 2 (.padd (.var 1)
      (.lit 16) 1)) (.lit 1))) (.var 5)) 1) (.var 6) 1) (.var 4) 1)]⟩

/-- `signature_chall_3`, faest.c:98-102; variables: 0 base_ptr, 1 params, 2 base_ptr, 3 lambda_bytes -/
def signature_chall_3 : Fn := ⟨2,
  block [
    .asg 2 (.cell (.var 0) 2),
    .asg 3 (.un (.cast .u64) (.div (.div .i32) (.ld 2 (.var 1)) (.lit 8))),
    .ret (.padd (.padd (.padd (.var 2) (.ld 2 (.padd (.var 1) (.lit 26) 1)) 1) (.lit (-16)) 1) (.un (.neg .u64) (.var
      3)) 1)]⟩

/-- `hash_challenge_3`, faest.c:239-249; variables: 0 chall_3, 1 chall_2, 2 a_tilde, 3 b_tilde, 4 lambda, 5
  lambda_bytes, 6 h2_ctx_2 -/
def hash_challenge_3 : Fn := ⟨5,
  block [
    .asg 5 (.div (.div .u32) (.var 4) (.lit 8)),
    .new 6 (.lit 220),
    .new 7 (.lit 212),
    .new 8 (.lit 200),
    .stc (.var 7) 0 (.var 8),
    .stc (.var 6) 0 (.var 7),
    .call none Id.H2_init [.var 6, .var 4],
    .call none Id.H2_update [.var 6, .var 1, .bin (.add .u32) (.bin (.mul .u32) (.lit 3) (.var 5)) (.lit 8)],
    .call none Id.H2_update [.var 6, .var 2, .var 5],
    .call none Id.H2_update [.var 6, .var 3, .var 5],
    .call none Id.H2_final [.var 6, .var 0, .var 5]]⟩

/-- `signature_pdec`, faest.c:59-76; variables: 0 base_ptr, 1 index, 2 params, 3 base_ptr, 4 tau0, 5 lambda_bytes, 6
  ell_bytes, 7 ell_hat_bytes, 8 utilde_bytes -/
def signature_pdec : Fn := ⟨3,
  block [
    .asg 3 (.cell (.var 0) 0),
    .asg 4 (.ld 2 (.padd (.var 2) (.lit 22) 1)),
    .asg 5 (.un (.cast .u64) (.div (.div .i32) (.ld 2 (.var 2)) (.lit 8))),
    .asg 6 (.un (.cast .u64) (.div (.div .i32) (.ld 2 (.padd (.var 2) (.lit 10) 1)) (.lit 8))),
    .asg 7 (.bin (.add .u64) (.bin (.add .u64) (.var 6) (.bin (.mul .u64) (.lit 2) (.var 5))) (.lit 2)),
    .asg 8 (.bin (.add .u64) (.var 5) (.lit 2)),
    .asg 3 (.padd (.var 3) (.bin (.add .u64) (.bin (.add .u64) (.bin (.add .u64) (.bin (.mul .u64) (.un (.cast .u64)
      (.bin (.sub .i32) (.ld 2 (.padd (.var 2) (.lit 16) 1)) (.lit 1))) (.var 7)) (.var 8)) (.var 6)) (.var 5)) 1),
    .ite (.bin .lt (.var 1) (.var 4))
      (.ret (.padd (.var 3) (.bin (.mul .u64) (.bin (.mul .u32) (.var 1) (.un (.cast .u32) (.bin (.add .i32) (.ld 2
        (.padd (.var 2) (.lit 18) 1)) (.lit 2)))) (.var 5)) 1))
      (.ret (.padd (.var 3) (.bin (.mul .u64) (.bin (.add .u32) (.bin (.mul .u32) (.bin (.sub .u32) (.var 1) (.var
        4)) (.un (.cast .u32) (.bin (.add .i32) (.ld 2 (.padd (.var 2) (.lit 20) 1)) (.lit 2)))) (.bin (.mul .u32)
        (.var 4) (.un (.cast .u32) (.bin (.add .i32) (.ld 2 (.padd (.var 2) (.lit 18) 1)) (.lit 2))))) (.var 5)) 1))]⟩

/-- `signature_com`, faest.c:78-96; variables: 0 base_ptr, 1 index, 2 params, 3 base_ptr, 4 tau0, 5 lambda_bytes, 6
  ell_bytes, 7 ell_hat_bytes, 8 utilde_bytes -/
def signature_com : Fn := ⟨3,
  block [
    .asg 3 (.cell (.var 0) 0),
    .asg 4 (.ld 2 (.padd (.var 2) (.lit 22) 1)),
    .asg 5 (.un (.cast .u64) (.div (.div .i32) (.ld 2 (.var 2)) (.lit 8))),
    .asg 6 (.un (.cast .u64) (.div (.div .i32) (.ld 2 (.padd (.var 2) (.lit 10) 1)) (.lit 8))),
    .asg 7 (.bin (.add .u64) (.bin (.add .u64) (.var 6) (.bin (.mul .u64) (.lit 2) (.var 5))) (.lit 2)),
    .asg 8 (.bin (.add .u64) (.var 5) (.lit 2)),
    .asg 3 (.padd (.var 3) (.bin (.add .u64) (.bin (.add .u64) (.bin (.add .u64) (.bin (.mul .u64) (.un (.cast .u64)
      (.bin (.sub .i32) (.ld 2 (.padd (.var 2) (.lit 16) 1)) (.lit 1))) (.var 7)) (.var 8)) (.var 6)) (.var 5)) 1),
    .ite (.bin .lt (.var 1) (.var 4))
      (.ret (.padd (.var 3) (.bin (.mul .u64) (.bin (.add .u32) (.bin (.mul .u32) (.var 1) (.un (.cast .u32) (.bin
        (.add .i32) (.ld 2 (.padd (.var 2) (.lit 18) 1)) (.lit 2)))) (.ld 2 (.padd (.var 2) (.lit 18) 1))) (.var 5))
        1))
      (.ret (.padd (.var 3) (.bin (.mul .u64) (.bin (.add .u32) (.bin (.add .u32) (.bin (.mul .u32) (.bin (.sub .u32)
        (.var 1) (.var 4)) (.un (.cast .u32) (.bin (.add .i32) (.ld 2 (.padd (.var 2) (.lit 20) 1)) (.lit 2)))) (.ld
        2 (.padd (.var 2) (.lit 20) 1))) (.bin (.mul .u32) (.var 4) (.un (.cast .u32) (.bin (.add .i32) (.ld 2 (.padd
        (.var 2) (.lit 18) 1)) (.lit 2))))) (.var 5)) 1))]⟩

/-- part of `faest_sign` -/
def faest_sign.part0 : Stmt :=
  block [
    .asg 9 (.ld 2 (.padd (.var 8) (.lit 10) 1)),
    .asg 10 (.div (.div .u32) (.var 9) (.lit 8)),
    .asg 11 (.ld 2 (.var 8)),
    .asg 12 (.div (.div .u32) (.var 11) (.lit 8)),
    .asg 13 (.ld 2 (.padd (.var 8) (.lit 16) 1)),
    .asg 14 (.ld 2 (.padd (.var 8) (.lit 22) 1)),
    .asg 15 (.bin (.add .u32) (.bin (.add .u32) (.var 9) (.bin (.mul .u32) (.var 11) (.lit 2))) (.lit 16)),
    .asg 16 (.div (.div .u32) (.var 15) (.lit 8)),
    .new 17 (.lit 64),
    .call none Id.hash_mu [.var 17, .var 4, .var 5, .un (.cast .u64) (.div (.div .i32) (.ld 2 (.padd (.var 8) (.lit
      28) 1)) (.lit 2)), .var 1, .var 2, .var 11],
    .new 18 (.lit 32),
    .new 19 (.lit 220),
    .new 20 (.lit 212),
    .new 21 (.lit 200),
    .stc (.var 20) 0 (.var 21),
    .stc (.var 19) 0 (.var 20),
    .call none Id.H3_init [.var 19, .var 11],
    .call none Id.H3_update [.var 19, .var 3, .var 12],
    .call none Id.H3_update [.var 19, .var 17, .bin (.mul .u32) (.var 12) (.lit 2)],
    .ite (.var 6)
      (.asg 22 (.bin .ne (.var 7) (.lit 0)))
      (.asg 22 (.lit 0)),
    .ite (.var 22)
      (.call none Id.H3_update [.var 19, .var 6, .var 7])
      (.skip),
    .call (some 23) Id.signature_iv [.var 0, .var 8],
    .call none Id.H3_final [.var 19, .var 18, .var 12, .var 23],
    .new 24 (.lit 64),
    .new 26 (.bin (.mul .u64) (.var 13) (.lit 32)),
    .asg 25 (.var 26),
    .new 28 (.var 16),
    .asg 27 (.var 28),
    .new 30 (.bin (.mul .u64) (.var 11) (.lit 8)),
    .asg 29 (.var 30),
    .new 31 (.bin (.mul .u32) (.var 11) (.var 16)),
    .stc (.var 29) 0 (.var 31),
    .asg 32 (.lit 1),
    .loop (.bin .lt (.var 32) (.var 11))
      (.stc (.padd (.var 29) (.var 32) 1) 0 (.padd (.cell (.var 29) 0) (.bin (.mul .u32) (.var 32) (.var 16)) 1))
      (.asg 32 (.bin (.add .u32) (.var 32) (.lit 1))),
    .call (some 33) Id.signature_iv [.var 0, .var 8],
    .call (some 34) Id.signature_c [.var 0, .lit 0, .var 8],
    .call none Id.vole_commit [.var 18, .var 33, .var 15, .var 8, .var 24, .var 25, .var 34, .var 27, .var 29],
    .new 35 (.lit 168),
    .call (some 36) Id.signature_c [.var 0, .lit 0, .var 8],
    .call (some 37) Id.signature_iv [.var 0, .var 8]]

/-- part of `faest_sign` -/
def faest_sign.part1 : Stmt :=
  block [
    .call none Id.hash_challenge_1 [.var 35, .var 17, .var 24, .var 36, .var 37, .var 11, .var 9, .var 13],
    .call (some 38) Id.signature_u_tilde [.var 0, .var 8],
    .call none Id.vole_hash [.var 38, .var 35, .var 27, .var 9, .var 11],
    .new 39 (.lit 64),
    .new 40 (.lit 220),
    .new 41 (.lit 212),
    .new 42 (.lit 200),
    .stc (.var 41) 0 (.var 42),
    .stc (.var 40) 0 (.var 41),
    .call none Id.H1_init [.var 40, .var 11],
    .new 43 (.lit 34),
    .asg 44 (.lit 0),
    .loop (.bin .ne (.var 44) (.var 11))
      (block [
        .call none Id.vole_hash [.var 43, .var 35, .cell (.padd (.var 29) (.var 44) 1) 0, .var 9, .var 11],
        .call none Id.H1_update [.var 40, .var 43, .bin (.add .u32) (.var 12) (.lit 2)]])
      (.asg 44 (.bin (.add .u32) (.var 44) (.lit 1))),
    .call none Id.H1_final [.var 40, .var 39, .bin (.mul .u32) (.var 12) (.lit 2)],
    .call (some 46) Id.aes_extend_witness [.var 3, .var 4, .var 8],
    .asg 45 (.var 46),
    .call (some 47) Id.signature_d [.var 0, .var 8],
    .call none Id.xor_u8_array [.var 45, .var 27, .var 47, .var 10],
    .new 48 (.lit 104),
    .call (some 49) Id.signature_u_tilde [.var 0, .var 8],
    .call (some 50) Id.signature_d [.var 0, .var 8],
    .call none Id.hash_challenge_2 [.var 48, .var 35, .var 49, .var 39, .var 50, .var 11, .var 9],
    .new 51 (.lit 32),
    .call (some 52) Id.signature_a_tilde [.var 0, .var 8],
    .call none Id.aes_prove [.var 45, .var 27, .var 29, .var 4, .var 5, .var 48, .var 52, .var 51, .var 8],
    .free (.cell (.var 29) 0),
    .free (.var 29),
    .asg 29 (.lit 0),
    .free (.var 45),
    .asg 45 (.lit 0),
    .free (.var 27),
    .asg 27 (.lit 0),
    .call (some 53) Id.signature_chall_3 [.var 0, .var 8],
    .call (some 54) Id.signature_a_tilde [.var 0, .var 8],
    .call none Id.hash_challenge_3 [.var 53, .var 48, .var 54, .var 51, .var 11],
    .asg 55 (.lit 0),
    .loop (.bin .lt (.var 55) (.var 13))
      (block [
        .new 56 (.lit 12),
        .call (some 57) Id.signature_chall_3 [.var 0, .var 8],
        .call (some 58) Id.ChalDec [.var 57, .var 55, .ld 2 (.padd (.var 8) (.lit 18) 1), .ld 2 (.padd (.var 8) (.lit
          22) 1), .ld 2 (.padd (.var 8) (.lit 20) 1), .ld 2 (.padd (.var 8) (.lit 24) 1), .var 56],
        .ite (.bin .lt (.var 55) (.var 14))
          (.asg 60 (.ld 2 (.padd (.var 8) (.lit 18) 1)))
          (.asg 60 (.ld 2 (.padd (.var 8) (.lit 20) 1))),
        .asg 59 (.un (.cast .u32) (.var 60)),
        .call (some 61) Id.signature_pdec [.var 0, .var 55, .var 8],
        .call (some 62) Id.signature_com [.var 0, .var 55, .var 8],
        .call none Id.vector_open [.cell (.padd (.var 25) (.var 55) 4) 1, .cell (.padd (.var 25) (.var 55) 4) 2, .var
          56, .var 61, .var 62, .var 59, .var 12],
        .call none Id.vec_com_clear [.padd (.var 25) (.var 55) 4]])
      (.asg 55 (.bin (.add .u32) (.var 55) (.lit 1))),
    .free (.var 25),
    .asg 25 (.lit 0)]

/-- `faest_sign`, faest.c:251-360; variables: 0 sig, 1 msg, 2 msglen, 3 owf_key, 4 owf_input, 5 owf_output, 6 rho, 7
  rholen, 8 params, 9 l, 10 ell_bytes, 11 lambda, 12 lambdaBytes, 13 tau, 14 tau0, 15 ell_hat, 16 ell_hat_bytes, 17
  mu, 18 rootkey, 19 h3_ctx, 24 hcom, 25 vecCom, 27 u, 29 V, 32 i, 35 chall_1, 39 h_v, 40 h1_ctx_1, 43 V_tilde, 44 i,
  45 w, 48 chall_2, 51 b_tilde, 55 i, 56 s_, 59 depth -/
def faest_sign : Fn := ⟨9,
  block [
    faest_sign.part0,
    faest_sign.part1]⟩

end Faest.Leak.Prog
