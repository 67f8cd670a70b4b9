/-
Generated by tools/c2leak.py; do not edit.
Functions of faest_param.c.in.
-/
import Verif.Model.Leak.IR
import Verif.Model.Leak.Prog.Ids

namespace Faest.Leak.Prog

/-- `faest_128s_keygen`, faest_param.c.in:28-46; variables: 0 pk, 1 sk, 3 done -/
def faest_128s_keygen : Fn := ⟨2,
  block [
    .ite (.un .lnot (.var 0))
      (.asg 2 (.lit 1))
      (.asg 2 (.bin .ne (.un .lnot (.var 1)) (.lit 0))),
    .ite (.var 2)
      (.ret (.lit (-1)))
      (.skip),
    .asg 3 (.lit 0),
    .loop (.un .lnot (.var 3))
      (block [
        .call (some 4) Id.rand_bytes [.var 1, .lit 32],
        .call (some 5) Id.owf_128 [.padd (.var 1) (.lit 16) 1, .var 1, .padd (.var 0) (.lit 16) 1],
        .st 1 (.glob 10) (.var 5),
        .asg 6 (.ld 1 (.glob 10)),
        .asg 3 (.var 6)])
      (.skip),
    .call (some 7) Id.memcpy [.var 0, .var 1, .lit 16],
    .ret (.lit 0)]⟩

/-- `faest_128s_sign_with_randomness`, faest_param.c.in:63-81; variables: 0 sk, 1 message, 2 message_len, 3 rho, 4
  rho_len, 5 signature, 6 signature_len, 12 owf_output, 15 params -/
def faest_128s_sign_with_randomness : Fn := ⟨7,
  block [
    .ite (.un .lnot (.var 0))
      (.asg 7 (.lit 1))
      (.asg 7 (.bin .ne (.un .lnot (.var 5)) (.lit 0))),
    .ite (.var 7)
      (.asg 8 (.lit 1))
      (.asg 8 (.bin .ne (.un .lnot (.var 6)) (.lit 0))),
    .ite (.var 8)
      (.asg 9 (.lit 1))
      (.asg 9 (.bin .ne (.bin .lt (.ld 8 (.var 6)) (.lit 5006)) (.lit 0))),
    .ite (.var 9)
      (.asg 10 (.lit 1))
      (block [
        .ite (.un .lnot (.var 3))
          (.asg 11 (.bin .ne (.var 4) (.lit 0)))
          (.asg 11 (.lit 0)),
        .asg 10 (.bin .ne (.var 11) (.lit 0))]),
    .ite (.var 10)
      (.ret (.lit (-1)))
      (.skip),
    .new 12 (.lit 16),
    .call (some 13) Id.owf_128 [.padd (.var 0) (.lit 16) 1, .var 0, .var 12],
    .st 1 (.glob 10) (.var 13),
    .asg 14 (.ld 1 (.glob 10)),
    .ite (.un .lnot (.var 14))
      (.ret (.lit (-1)))
      (.skip),
    .new 15 (.lit 36),
    .call (some 16) Id.faest_get_paramset [.lit 1],
    .st 36 (.var 15) (.var 16),
    .call none Id.faest_sign [.var 5, .var 1, .var 2, .padd (.var 0) (.lit 16) 1, .var 0, .var 12, .var 3, .var 4,
      .var 15],
    .st 8 (.var 6) (.lit 5006),
    .ret (.lit 0)]⟩

/-- `faest_128s_sign`, faest_param.c.in:83-92; variables: 0 sk, 1 message, 2 message_len, 3 signature, 4
  signature_len, 8 rho -/
def faest_128s_sign : Fn := ⟨5,
  block [
    .ite (.un .lnot (.var 0))
      (.asg 5 (.lit 1))
      (.asg 5 (.bin .ne (.un .lnot (.var 3)) (.lit 0))),
    .ite (.var 5)
      (.asg 6 (.lit 1))
      (.asg 6 (.bin .ne (.un .lnot (.var 4)) (.lit 0))),
    .ite (.var 6)
      (.asg 7 (.lit 1))
      (.asg 7 (.bin .ne (.bin .lt (.ld 8 (.var 4)) (.lit 5006)) (.lit 0))),
    .ite (.var 7)
      (.ret (.lit (-1)))
      (.skip),
    .new 8 (.lit 16),
    .call (some 9) Id.rand_bytes [.var 8, .lit 16],
    .call (some 10) Id.faest_128s_sign_with_randomness [.var 0, .var 1, .var 2, .var 8, .lit 16, .var 3, .var 4],
    .ret (.var 10)]⟩

/-- `faest_128s_validate_keypair`, faest_param.c.in:48-61; variables: 0 pk, 1 sk, 3 pk_check -/
def faest_128s_validate_keypair : Fn := ⟨2,
  block [
    .ite (.un .lnot (.var 1))
      (.asg 2 (.lit 1))
      (.asg 2 (.bin .ne (.un .lnot (.var 0)) (.lit 0))),
    .ite (.var 2)
      (.ret (.lit (-1)))
      (.skip),
    .new 3 (.lit 32),
    .call (some 4) Id.owf_128 [.padd (.var 1) (.lit 16) 1, .var 1, .padd (.var 3) (.lit 16) 1],
    .st 1 (.glob 10) (.var 4),
    .asg 5 (.ld 1 (.glob 10)),
    .ite (.un .lnot (.var 5))
      (.ret (.lit 1))
      (.skip),
    .call (some 6) Id.memcpy [.var 3, .var 1, .lit 16],
    .call (some 7) Id.faest_timingsafe_bcmp [.var 3, .var 0, .lit 32],
    .st 4 (.glob 10) (.var 7),
    .asg 8 (.ld 4 (.glob 10)),
    .ite (.bin .eq (.var 8) (.lit 0))
      (.asg 9 (.lit 0))
      (.asg 9 (.lit 2)),
    .ret (.var 9)]⟩

/-- `faest_128f_keygen`, faest_param.c.in:28-46; variables: 0 pk, 1 sk, 3 done -/
def faest_128f_keygen : Fn := ⟨2,
  block [
    .ite (.un .lnot (.var 0))
      (.asg 2 (.lit 1))
      (.asg 2 (.bin .ne (.un .lnot (.var 1)) (.lit 0))),
    .ite (.var 2)
      (.ret (.lit (-1)))
      (.skip),
    .asg 3 (.lit 0),
    .loop (.un .lnot (.var 3))
      (block [
        .call (some 4) Id.rand_bytes [.var 1, .lit 32],
        .call (some 5) Id.owf_128 [.padd (.var 1) (.lit 16) 1, .var 1, .padd (.var 0) (.lit 16) 1],
        .st 1 (.glob 10) (.var 5),
        .asg 6 (.ld 1 (.glob 10)),
        .asg 3 (.var 6)])
      (.skip),
    .call (some 7) Id.memcpy [.var 0, .var 1, .lit 16],
    .ret (.lit 0)]⟩

/-- `faest_128f_sign_with_randomness`, faest_param.c.in:63-81; variables: 0 sk, 1 message, 2 message_len, 3 rho, 4
  rho_len, 5 signature, 6 signature_len, 12 owf_output, 15 params -/
def faest_128f_sign_with_randomness : Fn := ⟨7,
  block [
    .ite (.un .lnot (.var 0))
      (.asg 7 (.lit 1))
      (.asg 7 (.bin .ne (.un .lnot (.var 5)) (.lit 0))),
    .ite (.var 7)
      (.asg 8 (.lit 1))
      (.asg 8 (.bin .ne (.un .lnot (.var 6)) (.lit 0))),
    .ite (.var 8)
      (.asg 9 (.lit 1))
      (.asg 9 (.bin .ne (.bin .lt (.ld 8 (.var 6)) (.lit 6336)) (.lit 0))),
    .ite (.var 9)
      (.asg 10 (.lit 1))
      (block [
        .ite (.un .lnot (.var 3))
          (.asg 11 (.bin .ne (.var 4) (.lit 0)))
          (.asg 11 (.lit 0)),
        .asg 10 (.bin .ne (.var 11) (.lit 0))]),
    .ite (.var 10)
      (.ret (.lit (-1)))
      (.skip),
    .new 12 (.lit 16),
    .call (some 13) Id.owf_128 [.padd (.var 0) (.lit 16) 1, .var 0, .var 12],
    .st 1 (.glob 10) (.var 13),
    .asg 14 (.ld 1 (.glob 10)),
    .ite (.un .lnot (.var 14))
      (.ret (.lit (-1)))
      (.skip),
    .new 15 (.lit 36),
    .call (some 16) Id.faest_get_paramset [.lit 2],
    .st 36 (.var 15) (.var 16),
    .call none Id.faest_sign [.var 5, .var 1, .var 2, .padd (.var 0) (.lit 16) 1, .var 0, .var 12, .var 3, .var 4,
      .var 15],
    .st 8 (.var 6) (.lit 6336),
    .ret (.lit 0)]⟩

/-- `faest_128f_sign`, faest_param.c.in:83-92; variables: 0 sk, 1 message, 2 message_len, 3 signature, 4
  signature_len, 8 rho -/
def faest_128f_sign : Fn := ⟨5,
  block [
    .ite (.un .lnot (.var 0))
      (.asg 5 (.lit 1))
      (.asg 5 (.bin .ne (.un .lnot (.var 3)) (.lit 0))),
    .ite (.var 5)
      (.asg 6 (.lit 1))
      (.asg 6 (.bin .ne (.un .lnot (.var 4)) (.lit 0))),
    .ite (.var 6)
      (.asg 7 (.lit 1))
      (.asg 7 (.bin .ne (.bin .lt (.ld 8 (.var 4)) (.lit 6336)) (.lit 0))),
    .ite (.var 7)
      (.ret (.lit (-1)))
      (.skip),
    .new 8 (.lit 16),
    .call (some 9) Id.rand_bytes [.var 8, .lit 16],
    .call (some 10) Id.faest_128f_sign_with_randomness [.var 0, .var 1, .var 2, .var 8, .lit 16, .var 3, .var 4],
    .ret (.var 10)]⟩

/-- `faest_128f_validate_keypair`, faest_param.c.in:48-61; variables: 0 pk, 1 sk, 3 pk_check -/
def faest_128f_validate_keypair : Fn := ⟨2,
  block [
    .ite (.un .lnot (.var 1))
      (.asg 2 (.lit 1))
      (.asg 2 (.bin .ne (.un .lnot (.var 0)) (.lit 0))),
    .ite (.var 2)
      (.ret (.lit (-1)))
      (.skip),
    .new 3 (.lit 32),
    .call (some 4) Id.owf_128 [.padd (.var 1) (.lit 16) 1, .var 1, .padd (.var 3) (.lit 16) 1],
    .st 1 (.glob 10) (.var 4),
    .asg 5 (.ld 1 (.glob 10)),
    .ite (.un .lnot (.var 5))
      (.ret (.lit 1))
      (.skip),
    .call (some 6) Id.memcpy [.var 3, .var 1, .lit 16],
    .call (some 7) Id.faest_timingsafe_bcmp [.var 3, .var 0, .lit 32],
    .st 4 (.glob 10) (.var 7),
    .asg 8 (.ld 4 (.glob 10)),
    .ite (.bin .eq (.var 8) (.lit 0))
      (.asg 9 (.lit 0))
      (.asg 9 (.lit 2)),
    .ret (.var 9)]⟩

/-- `faest_em_128s_keygen`, faest_param.c.in:28-46; variables: 0 pk, 1 sk, 3 done -/
def faest_em_128s_keygen : Fn := ⟨2,
  block [
    .ite (.un .lnot (.var 0))
      (.asg 2 (.lit 1))
      (.asg 2 (.bin .ne (.un .lnot (.var 1)) (.lit 0))),
    .ite (.var 2)
      (.ret (.lit (-1)))
      (.skip),
    .asg 3 (.lit 0),
    .loop (.un .lnot (.var 3))
      (block [
        .call (some 4) Id.rand_bytes [.var 1, .lit 32],
        .call (some 5) Id.owf_em_128 [.padd (.var 1) (.lit 16) 1, .var 1, .padd (.var 0) (.lit 16) 1],
        .st 1 (.glob 10) (.var 5),
        .asg 6 (.ld 1 (.glob 10)),
        .asg 3 (.var 6)])
      (.skip),
    .call (some 7) Id.memcpy [.var 0, .var 1, .lit 16],
    .ret (.lit 0)]⟩

/-- `faest_em_128s_sign_with_randomness`, faest_param.c.in:63-81; variables: 0 sk, 1 message, 2 message_len, 3 rho, 4
  rho_len, 5 signature, 6 signature_len, 12 owf_output, 15 params -/
def faest_em_128s_sign_with_randomness : Fn := ⟨7,
  block [
    .ite (.un .lnot (.var 0))
      (.asg 7 (.lit 1))
      (.asg 7 (.bin .ne (.un .lnot (.var 5)) (.lit 0))),
    .ite (.var 7)
      (.asg 8 (.lit 1))
      (.asg 8 (.bin .ne (.un .lnot (.var 6)) (.lit 0))),
    .ite (.var 8)
      (.asg 9 (.lit 1))
      (.asg 9 (.bin .ne (.bin .lt (.ld 8 (.var 6)) (.lit 4566)) (.lit 0))),
    .ite (.var 9)
      (.asg 10 (.lit 1))
      (block [
        .ite (.un .lnot (.var 3))
          (.asg 11 (.bin .ne (.var 4) (.lit 0)))
          (.asg 11 (.lit 0)),
        .asg 10 (.bin .ne (.var 11) (.lit 0))]),
    .ite (.var 10)
      (.ret (.lit (-1)))
      (.skip),
    .new 12 (.lit 16),
    .call (some 13) Id.owf_em_128 [.padd (.var 0) (.lit 16) 1, .var 0, .var 12],
    .st 1 (.glob 10) (.var 13),
    .asg 14 (.ld 1 (.glob 10)),
    .ite (.un .lnot (.var 14))
      (.ret (.lit (-1)))
      (.skip),
    .new 15 (.lit 36),
    .call (some 16) Id.faest_get_paramset [.lit 7],
    .st 36 (.var 15) (.var 16),
    .call none Id.faest_sign [.var 5, .var 1, .var 2, .padd (.var 0) (.lit 16) 1, .var 0, .var 12, .var 3, .var 4,
      .var 15],
    .st 8 (.var 6) (.lit 4566),
    .ret (.lit 0)]⟩

/-- `faest_em_128s_sign`, faest_param.c.in:83-92; variables: 0 sk, 1 message, 2 message_len, 3 signature, 4
  signature_len, 8 rho -/
def faest_em_128s_sign : Fn := ⟨5,
  block [
    .ite (.un .lnot (.var 0))
      (.asg 5 (.lit 1))
      (.asg 5 (.bin .ne (.un .lnot (.var 3)) (.lit 0))),
    .ite (.var 5)
      (.asg 6 (.lit 1))
      (.asg 6 (.bin .ne (.un .lnot (.var 4)) (.lit 0))),
    .ite (.var 6)
      (.asg 7 (.lit 1))
      (.asg 7 (.bin .ne (.bin .lt (.ld 8 (.var 4)) (.lit 4566)) (.lit 0))),
    .ite (.var 7)
      (.ret (.lit (-1)))
      (.skip),
    .new 8 (.lit 16),
    .call (some 9) Id.rand_bytes [.var 8, .lit 16],
    .call (some 10) Id.faest_em_128s_sign_with_randomness [.var 0, .var 1, .var 2, .var 8, .lit 16, .var 3, .var 4],
    .ret (.var 10)]⟩

/-- `faest_em_128s_validate_keypair`, faest_param.c.in:48-61; variables: 0 pk, 1 sk, 3 pk_check -/
def faest_em_128s_validate_keypair : Fn := ⟨2,
  block [
    .ite (.un .lnot (.var 1))
      (.asg 2 (.lit 1))
      (.asg 2 (.bin .ne (.un .lnot (.var 0)) (.lit 0))),
    .ite (.var 2)
      (.ret (.lit (-1)))
      (.skip),
    .new 3 (.lit 32),
    .call (some 4) Id.owf_em_128 [.padd (.var 1) (.lit 16) 1, .var 1, .padd (.var 3) (.lit 16) 1],
    .st 1 (.glob 10) (.var 4),
    .asg 5 (.ld 1 (.glob 10)),
    .ite (.un .lnot (.var 5))
      (.ret (.lit 1))
      (.skip),
    .call (some 6) Id.memcpy [.var 3, .var 1, .lit 16],
    .call (some 7) Id.faest_timingsafe_bcmp [.var 3, .var 0, .lit 32],
    .st 4 (.glob 10) (.var 7),
    .asg 8 (.ld 4 (.glob 10)),
    .ite (.bin .eq (.var 8) (.lit 0))
      (.asg 9 (.lit 0))
      (.asg 9 (.lit 2)),
    .ret (.var 9)]⟩

/-- `faest_em_128f_keygen`, faest_param.c.in:28-46; variables: 0 pk, 1 sk, 3 done -/
def faest_em_128f_keygen : Fn := ⟨2,
  block [
    .ite (.un .lnot (.var 0))
      (.asg 2 (.lit 1))
      (.asg 2 (.bin .ne (.un .lnot (.var 1)) (.lit 0))),
    .ite (.var 2)
      (.ret (.lit (-1)))
      (.skip),
    .asg 3 (.lit 0),
    .loop (.un .lnot (.var 3))
      (block [
        .call (some 4) Id.rand_bytes [.var 1, .lit 32],
        .call (some 5) Id.owf_em_128 [.padd (.var 1) (.lit 16) 1, .var 1, .padd (.var 0) (.lit 16) 1],
        .st 1 (.glob 10) (.var 5),
        .asg 6 (.ld 1 (.glob 10)),
        .asg 3 (.var 6)])
      (.skip),
    .call (some 7) Id.memcpy [.var 0, .var 1, .lit 16],
    .ret (.lit 0)]⟩

/-- `faest_em_128f_sign_with_randomness`, faest_param.c.in:63-81; variables: 0 sk, 1 message, 2 message_len, 3 rho, 4
  rho_len, 5 signature, 6 signature_len, 12 owf_output, 15 params -/
def faest_em_128f_sign_with_randomness : Fn := ⟨7,
  block [
    .ite (.un .lnot (.var 0))
      (.asg 7 (.lit 1))
      (.asg 7 (.bin .ne (.un .lnot (.var 5)) (.lit 0))),
    .ite (.var 7)
      (.asg 8 (.lit 1))
      (.asg 8 (.bin .ne (.un .lnot (.var 6)) (.lit 0))),
    .ite (.var 8)
      (.asg 9 (.lit 1))
      (.asg 9 (.bin .ne (.bin .lt (.ld 8 (.var 6)) (.lit 5696)) (.lit 0))),
    .ite (.var 9)
      (.asg 10 (.lit 1))
      (block [
        .ite (.un .lnot (.var 3))
          (.asg 11 (.bin .ne (.var 4) (.lit 0)))
          (.asg 11 (.lit 0)),
        .asg 10 (.bin .ne (.var 11) (.lit 0))]),
    .ite (.var 10)
      (.ret (.lit (-1)))
      (.skip),
    .new 12 (.lit 16),
    .call (some 13) Id.owf_em_128 [.padd (.var 0) (.lit 16) 1, .var 0, .var 12],
    .st 1 (.glob 10) (.var 13),
    .asg 14 (.ld 1 (.glob 10)),
    .ite (.un .lnot (.var 14))
      (.ret (.lit (-1)))
      (.skip),
    .new 15 (.lit 36),
    .call (some 16) Id.faest_get_paramset [.lit 8],
    .st 36 (.var 15) (.var 16),
    .call none Id.faest_sign [.var 5, .var 1, .var 2, .padd (.var 0) (.lit 16) 1, .var 0, .var 12, .var 3, .var 4,
      .var 15],
    .st 8 (.var 6) (.lit 5696),
    .ret (.lit 0)]⟩

/-- `faest_em_128f_sign`, faest_param.c.in:83-92; variables: 0 sk, 1 message, 2 message_len, 3 signature, 4
  signature_len, 8 rho -/
def faest_em_128f_sign : Fn := ⟨5,
  block [
    .ite (.un .lnot (.var 0))
      (.asg 5 (.lit 1))
      (.asg 5 (.bin .ne (.un .lnot (.var 3)) (.lit 0))),
    .ite (.var 5)
      (.asg 6 (.lit 1))
      (.asg 6 (.bin .ne (.un .lnot (.var 4)) (.lit 0))),
    .ite (.var 6)
      (.asg 7 (.lit 1))
      (.asg 7 (.bin .ne (.bin .lt (.ld 8 (.var 4)) (.lit 5696)) (.lit 0))),
    .ite (.var 7)
      (.ret (.lit (-1)))
      (.skip),
    .new 8 (.lit 16),
    .call (some 9) Id.rand_bytes [.var 8, .lit 16],
    .call (some 10) Id.faest_em_128f_sign_with_randomness [.var 0, .var 1, .var 2, .var 8, .lit 16, .var 3, .var 4],
    .ret (.var 10)]⟩

/-- `faest_em_128f_validate_keypair`, faest_param.c.in:48-61; variables: 0 pk, 1 sk, 3 pk_check -/
def faest_em_128f_validate_keypair : Fn := ⟨2,
  block [
    .ite (.un .lnot (.var 1))
      (.asg 2 (.lit 1))
      (.asg 2 (.bin .ne (.un .lnot (.var 0)) (.lit 0))),
    .ite (.var 2)
      (.ret (.lit (-1)))
      (.skip),
    .new 3 (.lit 32),
    .call (some 4) Id.owf_em_128 [.padd (.var 1) (.lit 16) 1, .var 1, .padd (.var 3) (.lit 16) 1],
    .st 1 (.glob 10) (.var 4),
    .asg 5 (.ld 1 (.glob 10)),
    .ite (.un .lnot (.var 5))
      (.ret (.lit 1))
      (.skip),
    .call (some 6) Id.memcpy [.var 3, .var 1, .lit 16],
    .call (some 7) Id.faest_timingsafe_bcmp [.var 3, .var 0, .lit 32],
    .st 4 (.glob 10) (.var 7),
    .asg 8 (.ld 4 (.glob 10)),
    .ite (.bin .eq (.var 8) (.lit 0))
      (.asg 9 (.lit 0))
      (.asg 9 (.lit 2)),
    .ret (.var 9)]⟩

/-- `faest_192s_keygen`, faest_param.c.in:28-46; variables: 0 pk, 1 sk, 3 done -/
def faest_192s_keygen : Fn := ⟨2,
  block [
    .ite (.un .lnot (.var 0))
      (.asg 2 (.lit 1))
      (.asg 2 (.bin .ne (.un .lnot (.var 1)) (.lit 0))),
    .ite (.var 2)
      (.ret (.lit (-1)))
      (.skip),
    .asg 3 (.lit 0),
    .loop (.un .lnot (.var 3))
      (block [
        .call (some 4) Id.rand_bytes [.var 1, .lit 56],
        .call (some 5) Id.owf_192 [.padd (.var 1) (.lit 32) 1, .var 1, .padd (.var 0) (.lit 32) 1],
        .st 1 (.glob 10) (.var 5),
        .asg 6 (.ld 1 (.glob 10)),
        .asg 3 (.var 6)])
      (.skip),
    .call (some 7) Id.memcpy [.var 0, .var 1, .lit 32],
    .ret (.lit 0)]⟩

/-- `faest_192s_sign_with_randomness`, faest_param.c.in:63-81; variables: 0 sk, 1 message, 2 message_len, 3 rho, 4
  rho_len, 5 signature, 6 signature_len, 12 owf_output, 15 params -/
def faest_192s_sign_with_randomness : Fn := ⟨7,
  block [
    .ite (.un .lnot (.var 0))
      (.asg 7 (.lit 1))
      (.asg 7 (.bin .ne (.un .lnot (.var 5)) (.lit 0))),
    .ite (.var 7)
      (.asg 8 (.lit 1))
      (.asg 8 (.bin .ne (.un .lnot (.var 6)) (.lit 0))),
    .ite (.var 8)
      (.asg 9 (.lit 1))
      (.asg 9 (.bin .ne (.bin .lt (.ld 8 (.var 6)) (.lit 12744)) (.lit 0))),
    .ite (.var 9)
      (.asg 10 (.lit 1))
      (block [
        .ite (.un .lnot (.var 3))
          (.asg 11 (.bin .ne (.var 4) (.lit 0)))
          (.asg 11 (.lit 0)),
        .asg 10 (.bin .ne (.var 11) (.lit 0))]),
    .ite (.var 10)
      (.ret (.lit (-1)))
      (.skip),
    .new 12 (.lit 32),
    .call (some 13) Id.owf_192 [.padd (.var 0) (.lit 32) 1, .var 0, .var 12],
    .st 1 (.glob 10) (.var 13),
    .asg 14 (.ld 1 (.glob 10)),
    .ite (.un .lnot (.var 14))
      (.ret (.lit (-1)))
      (.skip),
    .new 15 (.lit 36),
    .call (some 16) Id.faest_get_paramset [.lit 3],
    .st 36 (.var 15) (.var 16),
    .call none Id.faest_sign [.var 5, .var 1, .var 2, .padd (.var 0) (.lit 32) 1, .var 0, .var 12, .var 3, .var 4,
      .var 15],
    .st 8 (.var 6) (.lit 12744),
    .ret (.lit 0)]⟩

/-- `faest_192s_sign`, faest_param.c.in:83-92; variables: 0 sk, 1 message, 2 message_len, 3 signature, 4
  signature_len, 8 rho -/
def faest_192s_sign : Fn := ⟨5,
  block [
    .ite (.un .lnot (.var 0))
      (.asg 5 (.lit 1))
      (.asg 5 (.bin .ne (.un .lnot (.var 3)) (.lit 0))),
    .ite (.var 5)
      (.asg 6 (.lit 1))
      (.asg 6 (.bin .ne (.un .lnot (.var 4)) (.lit 0))),
    .ite (.var 6)
      (.asg 7 (.lit 1))
      (.asg 7 (.bin .ne (.bin .lt (.ld 8 (.var 4)) (.lit 12744)) (.lit 0))),
    .ite (.var 7)
      (.ret (.lit (-1)))
      (.skip),
    .new 8 (.lit 24),
    .call (some 9) Id.rand_bytes [.var 8, .lit 24],
    .call (some 10) Id.faest_192s_sign_with_randomness [.var 0, .var 1, .var 2, .var 8, .lit 24, .var 3, .var 4],
    .ret (.var 10)]⟩

/-- `faest_192s_validate_keypair`, faest_param.c.in:48-61; variables: 0 pk, 1 sk, 3 pk_check -/
def faest_192s_validate_keypair : Fn := ⟨2,
  block [
    .ite (.un .lnot (.var 1))
      (.asg 2 (.lit 1))
      (.asg 2 (.bin .ne (.un .lnot (.var 0)) (.lit 0))),
    .ite (.var 2)
      (.ret (.lit (-1)))
      (.skip),
    .new 3 (.lit 64),
    .call (some 4) Id.owf_192 [.padd (.var 1) (.lit 32) 1, .var 1, .padd (.var 3) (.lit 32) 1],
    .st 1 (.glob 10) (.var 4),
    .asg 5 (.ld 1 (.glob 10)),
    .ite (.un .lnot (.var 5))
      (.ret (.lit 1))
      (.skip),
    .call (some 6) Id.memcpy [.var 3, .var 1, .lit 32],
    .call (some 7) Id.faest_timingsafe_bcmp [.var 3, .var 0, .lit 64],
    .st 4 (.glob 10) (.var 7),
    .asg 8 (.ld 4 (.glob 10)),
    .ite (.bin .eq (.var 8) (.lit 0))
      (.asg 9 (.lit 0))
      (.asg 9 (.lit 2)),
    .ret (.var 9)]⟩

/-- `faest_192f_keygen`, faest_param.c.in:28-46; variables: 0 pk, 1 sk, 3 done -/
def faest_192f_keygen : Fn := ⟨2,
  block [
    .ite (.un .lnot (.var 0))
      (.asg 2 (.lit 1))
      (.asg 2 (.bin .ne (.un .lnot (.var 1)) (.lit 0))),
    .ite (.var 2)
      (.ret (.lit (-1)))
      (.skip),
    .asg 3 (.lit 0),
    .loop (.un .lnot (.var 3))
      (block [
        .call (some 4) Id.rand_bytes [.var 1, .lit 56],
        .call (some 5) Id.owf_192 [.padd (.var 1) (.lit 32) 1, .var 1, .padd (.var 0) (.lit 32) 1],
        .st 1 (.glob 10) (.var 5),
        .asg 6 (.ld 1 (.glob 10)),
        .asg 3 (.var 6)])
      (.skip),
    .call (some 7) Id.memcpy [.var 0, .var 1, .lit 32],
    .ret (.lit 0)]⟩

/-- `faest_192f_sign_with_randomness`, faest_param.c.in:63-81; variables: 0 sk, 1 message, 2 message_len, 3 rho, 4
  rho_len, 5 signature, 6 signature_len, 12 owf_output, 15 params -/
def faest_192f_sign_with_randomness : Fn := ⟨7,
  block [
    .ite (.un .lnot (.var 0))
      (.asg 7 (.lit 1))
      (.asg 7 (.bin .ne (.un .lnot (.var 5)) (.lit 0))),
    .ite (.var 7)
      (.asg 8 (.lit 1))
      (.asg 8 (.bin .ne (.un .lnot (.var 6)) (.lit 0))),
    .ite (.var 8)
      (.asg 9 (.lit 1))
      (.asg 9 (.bin .ne (.bin .lt (.ld 8 (.var 6)) (.lit 16792)) (.lit 0))),
    .ite (.var 9)
      (.asg 10 (.lit 1))
      (block [
        .ite (.un .lnot (.var 3))
          (.asg 11 (.bin .ne (.var 4) (.lit 0)))
          (.asg 11 (.lit 0)),
        .asg 10 (.bin .ne (.var 11) (.lit 0))]),
    .ite (.var 10)
      (.ret (.lit (-1)))
      (.skip),
    .new 12 (.lit 32),
    .call (some 13) Id.owf_192 [.padd (.var 0) (.lit 32) 1, .var 0, .var 12],
    .st 1 (.glob 10) (.var 13),
    .asg 14 (.ld 1 (.glob 10)),
    .ite (.un .lnot (.var 14))
      (.ret (.lit (-1)))
      (.skip),
    .new 15 (.lit 36),
    .call (some 16) Id.faest_get_paramset [.lit 4],
    .st 36 (.var 15) (.var 16),
    .call none Id.faest_sign [.var 5, .var 1, .var 2, .padd (.var 0) (.lit 32) 1, .var 0, .var 12, .var 3, .var 4,
      .var 15],
    .st 8 (.var 6) (.lit 16792),
    .ret (.lit 0)]⟩

/-- `faest_192f_sign`, faest_param.c.in:83-92; variables: 0 sk, 1 message, 2 message_len, 3 signature, 4
  signature_len, 8 rho -/
def faest_192f_sign : Fn := ⟨5,
  block [
    .ite (.un .lnot (.var 0))
      (.asg 5 (.lit 1))
      (.asg 5 (.bin .ne (.un .lnot (.var 3)) (.lit 0))),
    .ite (.var 5)
      (.asg 6 (.lit 1))
      (.asg 6 (.bin .ne (.un .lnot (.var 4)) (.lit 0))),
    .ite (.var 6)
      (.asg 7 (.lit 1))
      (.asg 7 (.bin .ne (.bin .lt (.ld 8 (.var 4)) (.lit 16792)) (.lit 0))),
    .ite (.var 7)
      (.ret (.lit (-1)))
      (.skip),
    .new 8 (.lit 24),
    .call (some 9) Id.rand_bytes [.var 8, .lit 24],
    .call (some 10) Id.faest_192f_sign_with_randomness [.var 0, .var 1, .var 2, .var 8, .lit 24, .var 3, .var 4],
    .ret (.var 10)]⟩

/-- `faest_192f_validate_keypair`, faest_param.c.in:48-61; variables: 0 pk, 1 sk, 3 pk_check -/
def faest_192f_validate_keypair : Fn := ⟨2,
  block [
    .ite (.un .lnot (.var 1))
      (.asg 2 (.lit 1))
      (.asg 2 (.bin .ne (.un .lnot (.var 0)) (.lit 0))),
    .ite (.var 2)
      (.ret (.lit (-1)))
      (.skip),
    .new 3 (.lit 64),
    .call (some 4) Id.owf_192 [.padd (.var 1) (.lit 32) 1, .var 1, .padd (.var 3) (.lit 32) 1],
    .st 1 (.glob 10) (.var 4),
    .asg 5 (.ld 1 (.glob 10)),
    .ite (.un .lnot (.var 5))
      (.ret (.lit 1))
      (.skip),
    .call (some 6) Id.memcpy [.var 3, .var 1, .lit 32],
    .call (some 7) Id.faest_timingsafe_bcmp [.var 3, .var 0, .lit 64],
    .st 4 (.glob 10) (.var 7),
    .asg 8 (.ld 4 (.glob 10)),
    .ite (.bin .eq (.var 8) (.lit 0))
      (.asg 9 (.lit 0))
      (.asg 9 (.lit 2)),
    .ret (.var 9)]⟩

/-- `faest_em_192s_keygen`, faest_param.c.in:28-46; variables: 0 pk, 1 sk, 3 done -/
def faest_em_192s_keygen : Fn := ⟨2,
  block [
    .ite (.un .lnot (.var 0))
      (.asg 2 (.lit 1))
      (.asg 2 (.bin .ne (.un .lnot (.var 1)) (.lit 0))),
    .ite (.var 2)
      (.ret (.lit (-1)))
      (.skip),
    .asg 3 (.lit 0),
    .loop (.un .lnot (.var 3))
      (block [
        .call (some 4) Id.rand_bytes [.var 1, .lit 48],
        .call (some 5) Id.owf_em_192 [.padd (.var 1) (.lit 24) 1, .var 1, .padd (.var 0) (.lit 24) 1],
        .st 1 (.glob 10) (.var 5),
        .asg 6 (.ld 1 (.glob 10)),
        .asg 3 (.var 6)])
      (.skip),
    .call (some 7) Id.memcpy [.var 0, .var 1, .lit 24],
    .ret (.lit 0)]⟩

/-- `faest_em_192s_sign_with_randomness`, faest_param.c.in:63-81; variables: 0 sk, 1 message, 2 message_len, 3 rho, 4
  rho_len, 5 signature, 6 signature_len, 12 owf_output, 15 params -/
def faest_em_192s_sign_with_randomness : Fn := ⟨7,
  block [
    .ite (.un .lnot (.var 0))
      (.asg 7 (.lit 1))
      (.asg 7 (.bin .ne (.un .lnot (.var 5)) (.lit 0))),
    .ite (.var 7)
      (.asg 8 (.lit 1))
      (.asg 8 (.bin .ne (.un .lnot (.var 6)) (.lit 0))),
    .ite (.var 8)
      (.asg 9 (.lit 1))
      (.asg 9 (.bin .ne (.bin .lt (.ld 8 (.var 6)) (.lit 10824)) (.lit 0))),
    .ite (.var 9)
      (.asg 10 (.lit 1))
      (block [
        .ite (.un .lnot (.var 3))
          (.asg 11 (.bin .ne (.var 4) (.lit 0)))
          (.asg 11 (.lit 0)),
        .asg 10 (.bin .ne (.var 11) (.lit 0))]),
    .ite (.var 10)
      (.ret (.lit (-1)))
      (.skip),
    .new 12 (.lit 24),
    .call (some 13) Id.owf_em_192 [.padd (.var 0) (.lit 24) 1, .var 0, .var 12],
    .st 1 (.glob 10) (.var 13),
    .asg 14 (.ld 1 (.glob 10)),
    .ite (.un .lnot (.var 14))
      (.ret (.lit (-1)))
      (.skip),
    .new 15 (.lit 36),
    .call (some 16) Id.faest_get_paramset [.lit 9],
    .st 36 (.var 15) (.var 16),
    .call none Id.faest_sign [.var 5, .var 1, .var 2, .padd (.var 0) (.lit 24) 1, .var 0, .var 12, .var 3, .var 4,
      .var 15],
    .st 8 (.var 6) (.lit 10824),
    .ret (.lit 0)]⟩

/-- `faest_em_192s_sign`, faest_param.c.in:83-92; variables: 0 sk, 1 message, 2 message_len, 3 signature, 4
  signature_len, 8 rho -/
def faest_em_192s_sign : Fn := ⟨5,
  block [
    .ite (.un .lnot (.var 0))
      (.asg 5 (.lit 1))
      (.asg 5 (.bin .ne (.un .lnot (.var 3)) (.lit 0))),
    .ite (.var 5)
      (.asg 6 (.lit 1))
      (.asg 6 (.bin .ne (.un .lnot (.var 4)) (.lit 0))),
    .ite (.var 6)
      (.asg 7 (.lit 1))
      (.asg 7 (.bin .ne (.bin .lt (.ld 8 (.var 4)) (.lit 10824)) (.lit 0))),
    .ite (.var 7)
      (.ret (.lit (-1)))
      (.skip),
    .new 8 (.lit 24),
    .call (some 9) Id.rand_bytes [.var 8, .lit 24],
    .call (some 10) Id.faest_em_192s_sign_with_randomness [.var 0, .var 1, .var 2, .var 8, .lit 24, .var 3, .var 4],
    .ret (.var 10)]⟩

/-- `faest_em_192s_validate_keypair`, faest_param.c.in:48-61; variables: 0 pk, 1 sk, 3 pk_check -/
def faest_em_192s_validate_keypair : Fn := ⟨2,
  block [
    .ite (.un .lnot (.var 1))
      (.asg 2 (.lit 1))
      (.asg 2 (.bin .ne (.un .lnot (.var 0)) (.lit 0))),
    .ite (.var 2)
      (.ret (.lit (-1)))
      (.skip),
    .new 3 (.lit 48),
    .call (some 4) Id.owf_em_192 [.padd (.var 1) (.lit 24) 1, .var 1, .padd (.var 3) (.lit 24) 1],
    .st 1 (.glob 10) (.var 4),
    .asg 5 (.ld 1 (.glob 10)),
    .ite (.un .lnot (.var 5))
      (.ret (.lit 1))
      (.skip),
    .call (some 6) Id.memcpy [.var 3, .var 1, .lit 24],
    .call (some 7) Id.faest_timingsafe_bcmp [.var 3, .var 0, .lit 48],
    .st 4 (.glob 10) (.var 7),
    .asg 8 (.ld 4 (.glob 10)),
    .ite (.bin .eq (.var 8) (.lit 0))
      (.asg 9 (.lit 0))
      (.asg 9 (.lit 2)),
    .ret (.var 9)]⟩

/-- `faest_em_192f_keygen`, faest_param.c.in:28-46; variables: 0 pk, 1 sk, 3 done -/
def faest_em_192f_keygen : Fn := ⟨2,
  block [
    .ite (.un .lnot (.var 0))
      (.asg 2 (.lit 1))
      (.asg 2 (.bin .ne (.un .lnot (.var 1)) (.lit 0))),
    .ite (.var 2)
      (.ret (.lit (-1)))
      (.skip),
    .asg 3 (.lit 0),
    .loop (.un .lnot (.var 3))
      (block [
        .call (some 4) Id.rand_bytes [.var 1, .lit 48],
        .call (some 5) Id.owf_em_192 [.padd (.var 1) (.lit 24) 1, .var 1, .padd (.var 0) (.lit 24) 1],
        .st 1 (.glob 10) (.var 5),
        .asg 6 (.ld 1 (.glob 10)),
        .asg 3 (.var 6)])
      (.skip),
    .call (some 7) Id.memcpy [.var 0, .var 1, .lit 24],
    .ret (.lit 0)]⟩

/-- `faest_em_192f_sign_with_randomness`, faest_param.c.in:63-81; variables: 0 sk, 1 message, 2 message_len, 3 rho, 4
  rho_len, 5 signature, 6 signature_len, 12 owf_output, 15 params -/
def faest_em_192f_sign_with_randomness : Fn := ⟨7,
  block [
    .ite (.un .lnot (.var 0))
      (.asg 7 (.lit 1))
      (.asg 7 (.bin .ne (.un .lnot (.var 5)) (.lit 0))),
    .ite (.var 7)
      (.asg 8 (.lit 1))
      (.asg 8 (.bin .ne (.un .lnot (.var 6)) (.lit 0))),
    .ite (.var 8)
      (.asg 9 (.lit 1))
      (.asg 9 (.bin .ne (.bin .lt (.ld 8 (.var 6)) (.lit 13912)) (.lit 0))),
    .ite (.var 9)
      (.asg 10 (.lit 1))
      (block [
        .ite (.un .lnot (.var 3))
          (.asg 11 (.bin .ne (.var 4) (.lit 0)))
          (.asg 11 (.lit 0)),
        .asg 10 (.bin .ne (.var 11) (.lit 0))]),
    .ite (.var 10)
      (.ret (.lit (-1)))
      (.skip),
    .new 12 (.lit 24),
    .call (some 13) Id.owf_em_192 [.padd (.var 0) (.lit 24) 1, .var 0, .var 12],
    .st 1 (.glob 10) (.var 13),
    .asg 14 (.ld 1 (.glob 10)),
    .ite (.un .lnot (.var 14))
      (.ret (.lit (-1)))
      (.skip),
    .new 15 (.lit 36),
    .call (some 16) Id.faest_get_paramset [.lit 10],
    .st 36 (.var 15) (.var 16),
    .call none Id.faest_sign [.var 5, .var 1, .var 2, .padd (.var 0) (.lit 24) 1, .var 0, .var 12, .var 3, .var 4,
      .var 15],
    .st 8 (.var 6) (.lit 13912),
    .ret (.lit 0)]⟩

/-- `faest_em_192f_sign`, faest_param.c.in:83-92; variables: 0 sk, 1 message, 2 message_len, 3 signature, 4
  signature_len, 8 rho -/
def faest_em_192f_sign : Fn := ⟨5,
  block [
    .ite (.un .lnot (.var 0))
      (.asg 5 (.lit 1))
      (.asg 5 (.bin .ne (.un .lnot (.var 3)) (.lit 0))),
    .ite (.var 5)
      (.asg 6 (.lit 1))
      (.asg 6 (.bin .ne (.un .lnot (.var 4)) (.lit 0))),
    .ite (.var 6)
      (.asg 7 (.lit 1))
      (.asg 7 (.bin .ne (.bin .lt (.ld 8 (.var 4)) (.lit 13912)) (.lit 0))),
    .ite (.var 7)
      (.ret (.lit (-1)))
      (.skip),
    .new 8 (.lit 24),
    .call (some 9) Id.rand_bytes [.var 8, .lit 24],
    .call (some 10) Id.faest_em_192f_sign_with_randomness [.var 0, .var 1, .var 2, .var 8, .lit 24, .var 3, .var 4],
    .ret (.var 10)]⟩

/-- `faest_em_192f_validate_keypair`, faest_param.c.in:48-61; variables: 0 pk, 1 sk, 3 pk_check -/
def faest_em_192f_validate_keypair : Fn := ⟨2,
  block [
    .ite (.un .lnot (.var 1))
      (.asg 2 (.lit 1))
      (.asg 2 (.bin .ne (.un .lnot (.var 0)) (.lit 0))),
    .ite (.var 2)
      (.ret (.lit (-1)))
      (.skip),
    .new 3 (.lit 48),
    .call (some 4) Id.owf_em_192 [.padd (.var 1) (.lit 24) 1, .var 1, .padd (.var 3) (.lit 24) 1],
    .st 1 (.glob 10) (.var 4),
    .asg 5 (.ld 1 (.glob 10)),
    .ite (.un .lnot (.var 5))
      (.ret (.lit 1))
      (.skip),
    .call (some 6) Id.memcpy [.var 3, .var 1, .lit 24],
    .call (some 7) Id.faest_timingsafe_bcmp [.var 3, .var 0, .lit 48],
    .st 4 (.glob 10) (.var 7),
    .asg 8 (.ld 4 (.glob 10)),
    .ite (.bin .eq (.var 8) (.lit 0))
      (.asg 9 (.lit 0))
      (.asg 9 (.lit 2)),
    .ret (.var 9)]⟩

/-- `faest_256s_keygen`, faest_param.c.in:28-46; variables: 0 pk, 1 sk, 3 done -/
def faest_256s_keygen : Fn := ⟨2,
  block [
    .ite (.un .lnot (.var 0))
      (.asg 2 (.lit 1))
      (.asg 2 (.bin .ne (.un .lnot (.var 1)) (.lit 0))),
    .ite (.var 2)
      (.ret (.lit (-1)))
      (.skip),
    .asg 3 (.lit 0),
    .loop (.un .lnot (.var 3))
      (block [
        .call (some 4) Id.rand_bytes [.var 1, .lit 64],
        .call (some 5) Id.owf_256 [.padd (.var 1) (.lit 32) 1, .var 1, .padd (.var 0) (.lit 32) 1],
        .st 1 (.glob 10) (.var 5),
        .asg 6 (.ld 1 (.glob 10)),
        .asg 3 (.var 6)])
      (.skip),
    .call (some 7) Id.memcpy [.var 0, .var 1, .lit 32],
    .ret (.lit 0)]⟩

/-- `faest_256s_sign_with_randomness`, faest_param.c.in:63-81; variables: 0 sk, 1 message, 2 message_len, 3 rho, 4
  rho_len, 5 signature, 6 signature_len, 12 owf_output, 15 params -/
def faest_256s_sign_with_randomness : Fn := ⟨7,
  block [
    .ite (.un .lnot (.var 0))
      (.asg 7 (.lit 1))
      (.asg 7 (.bin .ne (.un .lnot (.var 5)) (.lit 0))),
    .ite (.var 7)
      (.asg 8 (.lit 1))
      (.asg 8 (.bin .ne (.un .lnot (.var 6)) (.lit 0))),
    .ite (.var 8)
      (.asg 9 (.lit 1))
      (.asg 9 (.bin .ne (.bin .lt (.ld 8 (.var 6)) (.lit 22100)) (.lit 0))),
    .ite (.var 9)
      (.asg 10 (.lit 1))
      (block [
        .ite (.un .lnot (.var 3))
          (.asg 11 (.bin .ne (.var 4) (.lit 0)))
          (.asg 11 (.lit 0)),
        .asg 10 (.bin .ne (.var 11) (.lit 0))]),
    .ite (.var 10)
      (.ret (.lit (-1)))
      (.skip),
    .new 12 (.lit 32),
    .call (some 13) Id.owf_256 [.padd (.var 0) (.lit 32) 1, .var 0, .var 12],
    .st 1 (.glob 10) (.var 13),
    .asg 14 (.ld 1 (.glob 10)),
    .ite (.un .lnot (.var 14))
      (.ret (.lit (-1)))
      (.skip),
    .new 15 (.lit 36),
    .call (some 16) Id.faest_get_paramset [.lit 5],
    .st 36 (.var 15) (.var 16),
    .call none Id.faest_sign [.var 5, .var 1, .var 2, .padd (.var 0) (.lit 32) 1, .var 0, .var 12, .var 3, .var 4,
      .var 15],
    .st 8 (.var 6) (.lit 22100),
    .ret (.lit 0)]⟩

/-- `faest_256s_sign`, faest_param.c.in:83-92; variables: 0 sk, 1 message, 2 message_len, 3 signature, 4
  signature_len, 8 rho -/
def faest_256s_sign : Fn := ⟨5,
  block [
    .ite (.un .lnot (.var 0))
      (.asg 5 (.lit 1))
      (.asg 5 (.bin .ne (.un .lnot (.var 3)) (.lit 0))),
    .ite (.var 5)
      (.asg 6 (.lit 1))
      (.asg 6 (.bin .ne (.un .lnot (.var 4)) (.lit 0))),
    .ite (.var 6)
      (.asg 7 (.lit 1))
      (.asg 7 (.bin .ne (.bin .lt (.ld 8 (.var 4)) (.lit 22100)) (.lit 0))),
    .ite (.var 7)
      (.ret (.lit (-1)))
      (.skip),
    .new 8 (.lit 32),
    .call (some 9) Id.rand_bytes [.var 8, .lit 32],
    .call (some 10) Id.faest_256s_sign_with_randomness [.var 0, .var 1, .var 2, .var 8, .lit 32, .var 3, .var 4],
    .ret (.var 10)]⟩

/-- `faest_256s_validate_keypair`, faest_param.c.in:48-61; variables: 0 pk, 1 sk, 3 pk_check -/
def faest_256s_validate_keypair : Fn := ⟨2,
  block [
    .ite (.un .lnot (.var 1))
      (.asg 2 (.lit 1))
      (.asg 2 (.bin .ne (.un .lnot (.var 0)) (.lit 0))),
    .ite (.var 2)
      (.ret (.lit (-1)))
      (.skip),
    .new 3 (.lit 64),
    .call (some 4) Id.owf_256 [.padd (.var 1) (.lit 32) 1, .var 1, .padd (.var 3) (.lit 32) 1],
    .st 1 (.glob 10) (.var 4),
    .asg 5 (.ld 1 (.glob 10)),
    .ite (.un .lnot (.var 5))
      (.ret (.lit 1))
      (.skip),
    .call (some 6) Id.memcpy [.var 3, .var 1, .lit 32],
    .call (some 7) Id.faest_timingsafe_bcmp [.var 3, .var 0, .lit 64],
    .st 4 (.glob 10) (.var 7),
    .asg 8 (.ld 4 (.glob 10)),
    .ite (.bin .eq (.var 8) (.lit 0))
      (.asg 9 (.lit 0))
      (.asg 9 (.lit 2)),
    .ret (.var 9)]⟩

/-- `faest_256f_keygen`, faest_param.c.in:28-46; variables: 0 pk, 1 sk, 3 done -/
def faest_256f_keygen : Fn := ⟨2,
  block [
    .ite (.un .lnot (.var 0))
      (.asg 2 (.lit 1))
      (.asg 2 (.bin .ne (.un .lnot (.var 1)) (.lit 0))),
    .ite (.var 2)
      (.ret (.lit (-1)))
      (.skip),
    .asg 3 (.lit 0),
    .loop (.un .lnot (.var 3))
      (block [
        .call (some 4) Id.rand_bytes [.var 1, .lit 64],
        .call (some 5) Id.owf_256 [.padd (.var 1) (.lit 32) 1, .var 1, .padd (.var 0) (.lit 32) 1],
        .st 1 (.glob 10) (.var 5),
        .asg 6 (.ld 1 (.glob 10)),
        .asg 3 (.var 6)])
      (.skip),
    .call (some 7) Id.memcpy [.var 0, .var 1, .lit 32],
    .ret (.lit 0)]⟩

/-- `faest_256f_sign_with_randomness`, faest_param.c.in:63-81; variables: 0 sk, 1 message, 2 message_len, 3 rho, 4
  rho_len, 5 signature, 6 signature_len, 12 owf_output, 15 params -/
def faest_256f_sign_with_randomness : Fn := ⟨7,
  block [
    .ite (.un .lnot (.var 0))
      (.asg 7 (.lit 1))
      (.asg 7 (.bin .ne (.un .lnot (.var 5)) (.lit 0))),
    .ite (.var 7)
      (.asg 8 (.lit 1))
      (.asg 8 (.bin .ne (.un .lnot (.var 6)) (.lit 0))),
    .ite (.var 8)
      (.asg 9 (.lit 1))
      (.asg 9 (.bin .ne (.bin .lt (.ld 8 (.var 6)) (.lit 28400)) (.lit 0))),
    .ite (.var 9)
      (.asg 10 (.lit 1))
      (block [
        .ite (.un .lnot (.var 3))
          (.asg 11 (.bin .ne (.var 4) (.lit 0)))
          (.asg 11 (.lit 0)),
        .asg 10 (.bin .ne (.var 11) (.lit 0))]),
    .ite (.var 10)
      (.ret (.lit (-1)))
      (.skip),
    .new 12 (.lit 32),
    .call (some 13) Id.owf_256 [.padd (.var 0) (.lit 32) 1, .var 0, .var 12],
    .st 1 (.glob 10) (.var 13),
    .asg 14 (.ld 1 (.glob 10)),
    .ite (.un .lnot (.var 14))
      (.ret (.lit (-1)))
      (.skip),
    .new 15 (.lit 36),
    .call (some 16) Id.faest_get_paramset [.lit 6],
    .st 36 (.var 15) (.var 16),
    .call none Id.faest_sign [.var 5, .var 1, .var 2, .padd (.var 0) (.lit 32) 1, .var 0, .var 12, .var 3, .var 4,
      .var 15],
    .st 8 (.var 6) (.lit 28400),
    .ret (.lit 0)]⟩

/-- `faest_256f_sign`, faest_param.c.in:83-92; variables: 0 sk, 1 message, 2 message_len, 3 signature, 4
  signature_len, 8 rho -/
def faest_256f_sign : Fn := ⟨5,
  block [
    .ite (.un .lnot (.var 0))
      (.asg 5 (.lit 1))
      (.asg 5 (.bin .ne (.un .lnot (.var 3)) (.lit 0))),
    .ite (.var 5)
      (.asg 6 (.lit 1))
      (.asg 6 (.bin .ne (.un .lnot (.var 4)) (.lit 0))),
    .ite (.var 6)
      (.asg 7 (.lit 1))
      (.asg 7 (.bin .ne (.bin .lt (.ld 8 (.var 4)) (.lit 28400)) (.lit 0))),
    .ite (.var 7)
      (.ret (.lit (-1)))
      (.skip),
    .new 8 (.lit 32),
    .call (some 9) Id.rand_bytes [.var 8, .lit 32],
    .call (some 10) Id.faest_256f_sign_with_randomness [.var 0, .var 1, .var 2, .var 8, .lit 32, .var 3, .var 4],
    .ret (.var 10)]⟩

/-- `faest_256f_validate_keypair`, faest_param.c.in:48-61; variables: 0 pk, 1 sk, 3 pk_check -/
def faest_256f_validate_keypair : Fn := ⟨2,
  block [
    .ite (.un .lnot (.var 1))
      (.asg 2 (.lit 1))
      (.asg 2 (.bin .ne (.un .lnot (.var 0)) (.lit 0))),
    .ite (.var 2)
      (.ret (.lit (-1)))
      (.skip),
    .new 3 (.lit 64),
    .call (some 4) Id.owf_256 [.padd (.var 1) (.lit 32) 1, .var 1, .padd (.var 3) (.lit 32) 1],
    .st 1 (.glob 10) (.var 4),
    .asg 5 (.ld 1 (.glob 10)),
    .ite (.un .lnot (.var 5))
      (.ret (.lit 1))
      (.skip),
    .call (some 6) Id.memcpy [.var 3, .var 1, .lit 32],
    .call (some 7) Id.faest_timingsafe_bcmp [.var 3, .var 0, .lit 64],
    .st 4 (.glob 10) (.var 7),
    .asg 8 (.ld 4 (.glob 10)),
    .ite (.bin .eq (.var 8) (.lit 0))
      (.asg 9 (.lit 0))
      (.asg 9 (.lit 2)),
    .ret (.var 9)]⟩

/-- `faest_em_256s_keygen`, faest_param.c.in:28-46; variables: 0 pk, 1 sk, 3 done -/
def faest_em_256s_keygen : Fn := ⟨2,
  block [
    .ite (.un .lnot (.var 0))
      (.asg 2 (.lit 1))
      (.asg 2 (.bin .ne (.un .lnot (.var 1)) (.lit 0))),
    .ite (.var 2)
      (.ret (.lit (-1)))
      (.skip),
    .asg 3 (.lit 0),
    .loop (.un .lnot (.var 3))
      (block [
        .call (some 4) Id.rand_bytes [.var 1, .lit 64],
        .call (some 5) Id.owf_em_256 [.padd (.var 1) (.lit 32) 1, .var 1, .padd (.var 0) (.lit 32) 1],
        .st 1 (.glob 10) (.var 5),
        .asg 6 (.ld 1 (.glob 10)),
        .asg 3 (.var 6)])
      (.skip),
    .call (some 7) Id.memcpy [.var 0, .var 1, .lit 32],
    .ret (.lit 0)]⟩

/-- `faest_em_256s_sign_with_randomness`, faest_param.c.in:63-81; variables: 0 sk, 1 message, 2 message_len, 3 rho, 4
  rho_len, 5 signature, 6 signature_len, 12 owf_output, 15 params -/
def faest_em_256s_sign_with_randomness : Fn := ⟨7,
  block [
    .ite (.un .lnot (.var 0))
      (.asg 7 (.lit 1))
      (.asg 7 (.bin .ne (.un .lnot (.var 5)) (.lit 0))),
    .ite (.var 7)
      (.asg 8 (.lit 1))
      (.asg 8 (.bin .ne (.un .lnot (.var 6)) (.lit 0))),
    .ite (.var 8)
      (.asg 9 (.lit 1))
      (.asg 9 (.bin .ne (.bin .lt (.ld 8 (.var 6)) (.lit 20956)) (.lit 0))),
    .ite (.var 9)
      (.asg 10 (.lit 1))
      (block [
        .ite (.un .lnot (.var 3))
          (.asg 11 (.bin .ne (.var 4) (.lit 0)))
          (.asg 11 (.lit 0)),
        .asg 10 (.bin .ne (.var 11) (.lit 0))]),
    .ite (.var 10)
      (.ret (.lit (-1)))
      (.skip),
    .new 12 (.lit 32),
    .call (some 13) Id.owf_em_256 [.padd (.var 0) (.lit 32) 1, .var 0, .var 12],
    .st 1 (.glob 10) (.var 13),
    .asg 14 (.ld 1 (.glob 10)),
    .ite (.un .lnot (.var 14))
      (.ret (.lit (-1)))
      (.skip),
    .new 15 (.lit 36),
    .call (some 16) Id.faest_get_paramset [.lit 11],
    .st 36 (.var 15) (.var 16),
    .call none Id.faest_sign [.var 5, .var 1, .var 2, .padd (.var 0) (.lit 32) 1, .var 0, .var 12, .var 3, .var 4,
      .var 15],
    .st 8 (.var 6) (.lit 20956),
    .ret (.lit 0)]⟩

/-- `faest_em_256s_sign`, faest_param.c.in:83-92; variables: 0 sk, 1 message, 2 message_len, 3 signature, 4
  signature_len, 8 rho -/
def faest_em_256s_sign : Fn := ⟨5,
  block [
    .ite (.un .lnot (.var 0))
      (.asg 5 (.lit 1))
      (.asg 5 (.bin .ne (.un .lnot (.var 3)) (.lit 0))),
    .ite (.var 5)
      (.asg 6 (.lit 1))
      (.asg 6 (.bin .ne (.un .lnot (.var 4)) (.lit 0))),
    .ite (.var 6)
      (.asg 7 (.lit 1))
      (.asg 7 (.bin .ne (.bin .lt (.ld 8 (.var 4)) (.lit 20956)) (.lit 0))),
    .ite (.var 7)
      (.ret (.lit (-1)))
      (.skip),
    .new 8 (.lit 32),
    .call (some 9) Id.rand_bytes [.var 8, .lit 32],
    .call (some 10) Id.faest_em_256s_sign_with_randomness [.var 0, .var 1, .var 2, .var 8, .lit 32, .var 3, .var 4],
    .ret (.var 10)]⟩

/-- `faest_em_256s_validate_keypair`, faest_param.c.in:48-61; variables: 0 pk, 1 sk, 3 pk_check -/
def faest_em_256s_validate_keypair : Fn := ⟨2,
  block [
    .ite (.un .lnot (.var 1))
      (.asg 2 (.lit 1))
      (.asg 2 (.bin .ne (.un .lnot (.var 0)) (.lit 0))),
    .ite (.var 2)
      (.ret (.lit (-1)))
      (.skip),
    .new 3 (.lit 64),
    .call (some 4) Id.owf_em_256 [.padd (.var 1) (.lit 32) 1, .var 1, .padd (.var 3) (.lit 32) 1],
    .st 1 (.glob 10) (.var 4),
    .asg 5 (.ld 1 (.glob 10)),
    .ite (.un .lnot (.var 5))
      (.ret (.lit 1))
      (.skip),
    .call (some 6) Id.memcpy [.var 3, .var 1, .lit 32],
    .call (some 7) Id.faest_timingsafe_bcmp [.var 3, .var 0, .lit 64],
    .st 4 (.glob 10) (.var 7),
    .asg 8 (.ld 4 (.glob 10)),
    .ite (.bin .eq (.var 8) (.lit 0))
      (.asg 9 (.lit 0))
      (.asg 9 (.lit 2)),
    .ret (.var 9)]⟩

/-- `faest_em_256f_keygen`, faest_param.c.in:28-46; variables: 0 pk, 1 sk, 3 done -/
def faest_em_256f_keygen : Fn := ⟨2,
  block [
    .ite (.un .lnot (.var 0))
      (.asg 2 (.lit 1))
      (.asg 2 (.bin .ne (.un .lnot (.var 1)) (.lit 0))),
    .ite (.var 2)
      (.ret (.lit (-1)))
      (.skip),
    .asg 3 (.lit 0),
    .loop (.un .lnot (.var 3))
      (block [
        .call (some 4) Id.rand_bytes [.var 1, .lit 64],
        .call (some 5) Id.owf_em_256 [.padd (.var 1) (.lit 32) 1, .var 1, .padd (.var 0) (.lit 32) 1],
        .st 1 (.glob 10) (.var 5),
        .asg 6 (.ld 1 (.glob 10)),
        .asg 3 (.var 6)])
      (.skip),
    .call (some 7) Id.memcpy [.var 0, .var 1, .lit 32],
    .ret (.lit 0)]⟩

/-- `faest_em_256f_sign_with_randomness`, faest_param.c.in:63-81; variables: 0 sk, 1 message, 2 message_len, 3 rho, 4
  rho_len, 5 signature, 6 signature_len, 12 owf_output, 15 params -/
def faest_em_256f_sign_with_randomness : Fn := ⟨7,
  block [
    .ite (.un .lnot (.var 0))
      (.asg 7 (.lit 1))
      (.asg 7 (.bin .ne (.un .lnot (.var 5)) (.lit 0))),
    .ite (.var 7)
      (.asg 8 (.lit 1))
      (.asg 8 (.bin .ne (.un .lnot (.var 6)) (.lit 0))),
    .ite (.var 8)
      (.asg 9 (.lit 1))
      (.asg 9 (.bin .ne (.bin .lt (.ld 8 (.var 6)) (.lit 26736)) (.lit 0))),
    .ite (.var 9)
      (.asg 10 (.lit 1))
      (block [
        .ite (.un .lnot (.var 3))
          (.asg 11 (.bin .ne (.var 4) (.lit 0)))
          (.asg 11 (.lit 0)),
        .asg 10 (.bin .ne (.var 11) (.lit 0))]),
    .ite (.var 10)
      (.ret (.lit (-1)))
      (.skip),
    .new 12 (.lit 32),
    .call (some 13) Id.owf_em_256 [.padd (.var 0) (.lit 32) 1, .var 0, .var 12],
    .st 1 (.glob 10) (.var 13),
    .asg 14 (.ld 1 (.glob 10)),
    .ite (.un .lnot (.var 14))
      (.ret (.lit (-1)))
      (.skip),
    .new 15 (.lit 36),
    .call (some 16) Id.faest_get_paramset [.lit 12],
    .st 36 (.var 15) (.var 16),
    .call none Id.faest_sign [.var 5, .var 1, .var 2, .padd (.var 0) (.lit 32) 1, .var 0, .var 12, .var 3, .var 4,
      .var 15],
    .st 8 (.var 6) (.lit 26736),
    .ret (.lit 0)]⟩

/-- `faest_em_256f_sign`, faest_param.c.in:83-92; variables: 0 sk, 1 message, 2 message_len, 3 signature, 4
  signature_len, 8 rho -/
def faest_em_256f_sign : Fn := ⟨5,
  block [
    .ite (.un .lnot (.var 0))
      (.asg 5 (.lit 1))
      (.asg 5 (.bin .ne (.un .lnot (.var 3)) (.lit 0))),
    .ite (.var 5)
      (.asg 6 (.lit 1))
      (.asg 6 (.bin .ne (.un .lnot (.var 4)) (.lit 0))),
    .ite (.var 6)
      (.asg 7 (.lit 1))
      (.asg 7 (.bin .ne (.bin .lt (.ld 8 (.var 4)) (.lit 26736)) (.lit 0))),
    .ite (.var 7)
      (.ret (.lit (-1)))
      (.skip),
    .new 8 (.lit 32),
    .call (some 9) Id.rand_bytes [.var 8, .lit 32],
    .call (some 10) Id.faest_em_256f_sign_with_randomness [.var 0, .var 1, .var 2, .var 8, .lit 32, .var 3, .var 4],
    .ret (.var 10)]⟩

/-- `faest_em_256f_validate_keypair`, faest_param.c.in:48-61; variables: 0 pk, 1 sk, 3 pk_check -/
def faest_em_256f_validate_keypair : Fn := ⟨2,
  block [
    .ite (.un .lnot (.var 1))
      (.asg 2 (.lit 1))
      (.asg 2 (.bin .ne (.un .lnot (.var 0)) (.lit 0))),
    .ite (.var 2)
      (.ret (.lit (-1)))
      (.skip),
    .new 3 (.lit 64),
    .call (some 4) Id.owf_em_256 [.padd (.var 1) (.lit 32) 1, .var 1, .padd (.var 3) (.lit 32) 1],
    .st 1 (.glob 10) (.var 4),
    .asg 5 (.ld 1 (.glob 10)),
    .ite (.un .lnot (.var 5))
      (.ret (.lit 1))
      (.skip),
    .call (some 6) Id.memcpy [.var 3, .var 1, .lit 32],
    .call (some 7) Id.faest_timingsafe_bcmp [.var 3, .var 0, .lit 64],
    .st 4 (.glob 10) (.var 7),
    .asg 8 (.ld 4 (.glob 10)),
    .ite (.bin .eq (.var 8) (.lit 0))
      (.asg 9 (.lit 0))
      (.asg 9 (.lit 2)),
    .ret (.var 9)]⟩

end Faest.Leak.Prog
