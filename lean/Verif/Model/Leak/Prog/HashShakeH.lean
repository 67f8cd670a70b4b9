/-
Generated by tools/c2leak.py; do not edit.
Functions of hash_shake.h.
-/
import Verif.Model.Leak.IR
import Verif.Model.Leak.Prog.Ids

namespace Faest.Leak.Prog

/-- `hash_init`, hash_shake.h:212-218; variables: 0 ctx, 1 security_param -/
def hash_init : Fn := ⟨2,
  .ite (.bin .eq (.var 1) (.lit 128))
      (.call (some 2) Id.Keccak_HashInitialize [.var 0, .lit 1344, .lit 256, .lit 0, .lit 31])
      (.call (some 3) Id.Keccak_HashInitialize [.var 0, .lit 1088, .lit 512, .lit 0, .lit 31])⟩

/-- `hash_update`, hash_shake.h:220-222; variables: 0 ctx, 1 data, 2 size -/
def hash_update : Fn := ⟨3,
  .call (some 3) Id.Keccak_HashUpdate [.var 0, .var 1, .bin (.shl .u64) (.var 2) (.lit 3)]⟩

/-- `hash_final`, hash_shake.h:224-226; variables: 0 ctx -/
def hash_final : Fn := ⟨1,
  .call (some 1) Id.Keccak_HashFinal [.var 0, .lit 0]⟩

/-- `hash_squeeze`, hash_shake.h:228-230; variables: 0 ctx, 1 buffer, 2 buflen -/
def hash_squeeze : Fn := ⟨3,
  .call (some 3) Id.Keccak_HashSqueeze [.var 0, .var 1, .bin (.shl .u64) (.var 2) (.lit 3)]⟩

/-- `hash_init_x4`, hash_shake.h:250-256; variables: 0 ctx, 1 security_param -/
def hash_init_x4 : Fn := ⟨2,
  .ite (.bin .eq (.var 1) (.lit 128))
      (.call (some 2) Id.Keccak_HashInitializetimes4 [.var 0, .lit 1344, .lit 256, .lit 0, .lit 31])
      (.call (some 3) Id.Keccak_HashInitializetimes4 [.var 0, .lit 1088, .lit 512, .lit 0, .lit 31])⟩

/-- `hash_update_x4`, hash_shake.h:258-260; variables: 0 ctx, 1 data, 2 size -/
def hash_update_x4 : Fn := ⟨3,
  .call (some 3) Id.Keccak_HashUpdatetimes4 [.var 0, .var 1, .bin (.shl .u64) (.var 2) (.lit 3)]⟩

/-- `hash_update_x4_4`, hash_shake.h:262-267; variables: 0 ctx, 1 data0, 2 data1, 3 data2, 4 data3, 5 size, 6 data -/
def hash_update_x4_4 : Fn := ⟨6,
  block [
    .new 6 (.lit 32),
    .stc (.var 6) 0 (.var 1),
    .stc (.padd (.var 6) (.lit 1) 1) 0 (.var 2),
    .stc (.padd (.var 6) (.lit 2) 1) 0 (.var 3),
    .stc (.padd (.var 6) (.lit 3) 1) 0 (.var 4),
    .call none Id.hash_update_x4 [.var 0, .var 6, .var 5]]⟩

/-- `hash_update_x4_1`, hash_shake.h:269-272; variables: 0 ctx, 1 data, 2 size, 3 tmp -/
def hash_update_x4_1 : Fn := ⟨3,
  block [
    .new 3 (.lit 32),
    .stc (.var 3) 0 (.var 1),
    .stc (.padd (.var 3) (.lit 1) 1) 0 (.var 1),
    .stc (.padd (.var 3) (.lit 2) 1) 0 (.var 1),
    .stc (.padd (.var 3) (.lit 3) 1) 0 (.var 1),
    .call none Id.hash_update_x4 [.var 0, .var 3, .var 2]]⟩

/-- `hash_final_x4`, hash_shake.h:280-282; variables: 0 ctx -/
def hash_final_x4 : Fn := ⟨1,
  .call (some 1) Id.Keccak_HashFinaltimes4 [.var 0, .lit 0]⟩

/-- `hash_squeeze_x4`, hash_shake.h:284-286; variables: 0 ctx, 1 buffer, 2 buflen -/
def hash_squeeze_x4 : Fn := ⟨3,
  .call (some 3) Id.Keccak_HashSqueezetimes4 [.var 0, .var 1, .bin (.shl .u64) (.var 2) (.lit 3)]⟩

/-- `hash_squeeze_x4_4`, hash_shake.h:288-292; variables: 0 ctx, 1 buffer0, 2 buffer1, 3 buffer2, 4 buffer3, 5
  buflen, 6 buffer -/
def hash_squeeze_x4_4 : Fn := ⟨6,
  block [
    .new 6 (.lit 32),
    .stc (.var 6) 0 (.var 1),
    .stc (.padd (.var 6) (.lit 1) 1) 0 (.var 2),
    .stc (.padd (.var 6) (.lit 2) 1) 0 (.var 3),
    .stc (.padd (.var 6) (.lit 3) 1) 0 (.var 4),
    .call none Id.hash_squeeze_x4 [.var 0, .var 6, .var 5]]⟩

end Faest.Leak.Prog
