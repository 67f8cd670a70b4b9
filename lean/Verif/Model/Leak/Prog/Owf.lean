/-
Generated by tools/c2leak.py; do not edit.
Functions of owf.c.
-/
import Verif.Model.Leak.IR
import Verif.Model.Leak.Prog.Ids

namespace Faest.Leak.Prog

/-- `owf_128`, owf.c:12-17; variables: 0 key, 1 input, 2 output, 3 round_keys, 4 ret -/
def owf_128 : Fn := ⟨3,
  block [
    .new 3 (.lit 480),
    .call (some 5) Id.aes128_init_round_keys [.var 3, .var 0],
    .asg 4 (.var 5),
    .call (some 6) Id.aes128_encrypt_block [.var 3, .var 1, .var 2],
    .asg 4 (.bin (.bor .i32) (.var 4) (.var 6)),
    .ret (.un (.cast .bool) (.bin .eq (.var 4) (.lit 0)))]⟩

/-- `owf_em_128`, owf.c:35-43; variables: 0 key, 1 input, 2 output, 3 round_keys, 5 ret, 7 i -/
def owf_em_128 : Fn := ⟨3,
  block [
    .new 3 (.lit 480),
    .call (some 4) Id.aes128_init_round_keys [.var 3, .var 1],
    .call (some 6) Id.aes128_encrypt_block [.var 3, .var 0, .var 2],
    .asg 5 (.var 6),
    .asg 7 (.lit 0),
    .loop (.bin .ne (.var 7) (.lit 16))
      (.st 1 (.padd (.var 2) (.var 7) 1) (.un (.cast .u8) (.bin (.bxor .i32) (.ld 1 (.padd (.var 2) (.var 7) 1)) (.ld
        1 (.padd (.var 0) (.var 7) 1)))))
      (.asg 7 (.bin (.add .u32) (.var 7) (.lit 1))),
    .ret (.un (.cast .bool) (.bin .eq (.var 5) (.lit 0)))]⟩

/-- `owf_192`, owf.c:19-25; variables: 0 key, 1 input, 2 output, 3 round_keys, 4 ret -/
def owf_192 : Fn := ⟨3,
  block [
    .new 3 (.lit 480),
    .call (some 5) Id.aes192_init_round_keys [.var 3, .var 0],
    .asg 4 (.var 5),
    .call (some 6) Id.aes192_encrypt_block [.var 3, .var 1, .var 2],
    .asg 4 (.bin (.bor .i32) (.var 4) (.var 6)),
    .call (some 7) Id.aes192_encrypt_block [.var 3, .padd (.var 1) (.lit 16) 1, .padd (.var 2) (.lit 16) 1],
    .asg 4 (.bin (.bor .i32) (.var 4) (.var 7)),
    .ret (.un (.cast .bool) (.bin .eq (.var 4) (.lit 0)))]⟩

/-- `owf_em_192`, owf.c:45-53; variables: 0 key, 1 input, 2 output, 3 round_keys, 5 ret, 7 i -/
def owf_em_192 : Fn := ⟨3,
  block [
    .new 3 (.lit 480),
    .call (some 4) Id.rijndael192_init_round_keys [.var 3, .var 1],
    .call (some 6) Id.rijndael192_encrypt_block [.var 3, .var 0, .var 2],
    .asg 5 (.var 6),
    .asg 7 (.lit 0),
    .loop (.bin .ne (.var 7) (.lit 24))
      (.st 1 (.padd (.var 2) (.var 7) 1) (.un (.cast .u8) (.bin (.bxor .i32) (.ld 1 (.padd (.var 2) (.var 7) 1)) (.ld
        1 (.padd (.var 0) (.var 7) 1)))))
      (.asg 7 (.bin (.add .u32) (.var 7) (.lit 1))),
    .ret (.un (.cast .bool) (.bin .eq (.var 5) (.lit 0)))]⟩

/-- `owf_256`, owf.c:27-33; variables: 0 key, 1 input, 2 output, 3 round_keys, 4 ret -/
def owf_256 : Fn := ⟨3,
  block [
    .new 3 (.lit 480),
    .call (some 5) Id.aes256_init_round_keys [.var 3, .var 0],
    .asg 4 (.var 5),
    .call (some 6) Id.aes256_encrypt_block [.var 3, .var 1, .var 2],
    .asg 4 (.bin (.bor .i32) (.var 4) (.var 6)),
    .call (some 7) Id.aes256_encrypt_block [.var 3, .padd (.var 1) (.lit 16) 1, .padd (.var 2) (.lit 16) 1],
    .asg 4 (.bin (.bor .i32) (.var 4) (.var 7)),
    .ret (.un (.cast .bool) (.bin .eq (.var 4) (.lit 0)))]⟩

/-- `owf_em_256`, owf.c:55-63; variables: 0 key, 1 input, 2 output, 3 round_keys, 5 ret, 7 i -/
def owf_em_256 : Fn := ⟨3,
  block [
    .new 3 (.lit 480),
    .call (some 4) Id.rijndael256_init_round_keys [.var 3, .var 1],
    .call (some 6) Id.rijndael256_encrypt_block [.var 3, .var 0, .var 2],
    .asg 5 (.var 6),
    .asg 7 (.lit 0),
    .loop (.bin .ne (.var 7) (.lit 32))
      (.st 1 (.padd (.var 2) (.var 7) 1) (.un (.cast .u8) (.bin (.bxor .i32) (.ld 1 (.padd (.var 2) (.var 7) 1)) (.ld
        1 (.padd (.var 0) (.var 7) 1)))))
      (.asg 7 (.bin (.add .u32) (.var 7) (.lit 1))),
    .ret (.un (.cast .bool) (.bin .eq (.var 5) (.lit 0)))]⟩

end Faest.Leak.Prog
