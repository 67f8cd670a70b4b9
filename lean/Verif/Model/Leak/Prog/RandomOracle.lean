/-
Generated by tools/c2leak.py; do not edit.
Functions of random_oracle.c.
-/
import Verif.Model.Leak.IR
import Verif.Model.Leak.Prog.Ids

namespace Faest.Leak.Prog

/-- `H1_init`, random_oracle.c:54-56; variables: 0 ctx, 1 security_param -/
def H1_init : Fn := ⟨2,
  block [
    .ite (.bin .eq (.var 1) (.lit 128))
      (.asg 2 (.lit 128))
      (.asg 2 (.lit 256)),
    .call none Id.hash_init [.var 0, .un (.cast .u32) (.var 2)]]⟩

/-- `H1_update`, random_oracle.c:58-60; variables: 0 ctx, 1 src, 2 len -/
def H1_update : Fn := ⟨3,
  .call none Id.hash_update [.var 0, .var 1, .var 2]⟩

/-- `H1_final`, random_oracle.c:62-67; variables: 0 ctx, 1 digest, 2 len -/
def H1_final : Fn := ⟨3,
  block [
    .call none Id.hash_update [.var 0, .glob 1, .lit 1],
    .call none Id.hash_final [.var 0],
    .call none Id.hash_squeeze [.var 0, .var 1, .var 2]]⟩

/-- `H3_init`, random_oracle.c:86-88; variables: 0 ctx, 1 security_param -/
def H3_init : Fn := ⟨2,
  block [
    .ite (.bin .eq (.var 1) (.lit 128))
      (.asg 2 (.lit 128))
      (.asg 2 (.lit 256)),
    .call none Id.hash_init [.var 0, .un (.cast .u32) (.var 2)]]⟩

/-- `H3_update`, random_oracle.c:90-92; variables: 0 ctx, 1 src, 2 len -/
def H3_update : Fn := ⟨3,
  .call none Id.hash_update [.var 0, .var 1, .var 2]⟩

/-- `H3_final`, random_oracle.c:94-100; variables: 0 ctx, 1 digest, 2 len, 3 iv -/
def H3_final : Fn := ⟨4,
  block [
    .call none Id.hash_update [.var 0, .glob 2, .lit 1],
    .call none Id.hash_final [.var 0],
    .call none Id.hash_squeeze [.var 0, .var 1, .var 2],
    .call none Id.hash_squeeze [.var 0, .var 3, .lit 16]]⟩

/-- `H0_x4_init`, random_oracle.c:34-36; variables: 0 ctx, 1 security_param -/
def H0_x4_init : Fn := ⟨2,
  block [
    .ite (.bin .eq (.var 1) (.lit 128))
      (.asg 2 (.lit 128))
      (.asg 2 (.lit 256)),
    .call none Id.hash_init_x4 [.var 0, .un (.cast .u32) (.var 2)]]⟩

/-- `H0_x4_update`, random_oracle.c:38-41; variables: 0 ctx, 1 src0, 2 src1, 3 src2, 4 src3, 5 len -/
def H0_x4_update : Fn := ⟨6,
  .call none Id.hash_update_x4_4 [.var 0, .var 1, .var 2, .var 3, .var 4, .var 5]⟩

/-- `H0_x4_final`, random_oracle.c:43-51; variables: 0 ctx, 1 seed0, 2 seed1, 3 seed2, 4 seed3, 5 seed_len, 6
  commitment0, 7 commitment1, 8 commitment2, 9 commitment3, 10 commitment_len -/
def H0_x4_final : Fn := ⟨11,
  block [
    .call none Id.hash_update_x4_1 [.var 0, .glob 4, .lit 1],
    .call none Id.hash_final_x4 [.var 0],
    .call none Id.hash_squeeze_x4_4 [.var 0, .var 1, .var 2, .var 3, .var 4, .var 5],
    .call none Id.hash_squeeze_x4_4 [.var 0, .var 6, .var 7, .var 8, .var 9, .var 10]]⟩

/-- `H0_init`, random_oracle.c:17-19; variables: 0 ctx, 1 security_param -/
def H0_init : Fn := ⟨2,
  block [
    .ite (.bin .eq (.var 1) (.lit 128))
      (.asg 2 (.lit 128))
      (.asg 2 (.lit 256)),
    .call none Id.hash_init [.var 0, .un (.cast .u32) (.var 2)]]⟩

/-- `H0_update`, random_oracle.c:21-23; variables: 0 ctx, 1 src, 2 len -/
def H0_update : Fn := ⟨3,
  .call none Id.hash_update [.var 0, .var 1, .var 2]⟩

/-- `H0_final`, random_oracle.c:25-32; variables: 0 ctx, 1 seed, 2 seed_len, 3 commitment, 4 commitment_len -/
def H0_final : Fn := ⟨5,
  block [
    .call none Id.hash_update [.var 0, .glob 4, .lit 1],
    .call none Id.hash_final [.var 0],
    .call none Id.hash_squeeze [.var 0, .var 1, .var 2],
    .call none Id.hash_squeeze [.var 0, .var 3, .var 4]]⟩

/-- `H2_init`, random_oracle.c:70-72; variables: 0 ctx, 1 security_param -/
def H2_init : Fn := ⟨2,
  block [
    .ite (.bin .eq (.var 1) (.lit 128))
      (.asg 2 (.lit 128))
      (.asg 2 (.lit 256)),
    .call none Id.hash_init [.var 0, .un (.cast .u32) (.var 2)]]⟩

/-- `H2_update`, random_oracle.c:74-76; variables: 0 ctx, 1 src, 2 len -/
def H2_update : Fn := ⟨3,
  .call none Id.hash_update [.var 0, .var 1, .var 2]⟩

/-- `H2_final`, random_oracle.c:78-83; variables: 0 ctx, 1 digest, 2 len -/
def H2_final : Fn := ⟨3,
  block [
    .call none Id.hash_update [.var 0, .glob 5, .lit 1],
    .call none Id.hash_final [.var 0],
    .call none Id.hash_squeeze [.var 0, .var 1, .var 2]]⟩

end Faest.Leak.Prog
