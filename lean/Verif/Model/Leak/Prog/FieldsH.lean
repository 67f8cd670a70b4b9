/-
Generated by tools/c2leak.py; do not edit.
Functions of fields.h.
-/
import Verif.Model.Leak.IR
import Verif.Model.Leak.Prog.Ids

namespace Faest.Leak.Prog

/-- `bf8_load`, fields.h:75-77; variables: 0 src -/
def bf8_load : Fn := ⟨1,
  .ret (.ld 1 (.var 0))⟩

/-- `bf8_store`, fields.h:79-81; variables: 0 dst, 1 src -/
def bf8_store : Fn := ⟨2,
  .st 1 (.var 0) (.var 1)⟩

/-- `bf256_load`, fields.h:299-310; variables: 0 src, 1 ret -/
def bf256_load : Fn := ⟨1,
  block [
    .new 1 (.lit 32),
    .call (some 2) Id.memcpy [.var 1, .var 0, .lit 32],
    .ret (.ld 32 (.var 1))]⟩

/-- `bf256_add`, fields.h:356-361; variables: 0 lhs, 1 rhs, 2 lhs, 3 rhs, 4 i -/
def bf256_add : Fn := ⟨2,
  block [
    .new 2 (.lit 32),
    .st 32 (.var 2) (.var 0),
    .new 3 (.lit 32),
    .st 32 (.var 3) (.var 1),
    .asg 4 (.lit 0),
    .loop (.bin .ne (.var 4) (.lit 4))
      (.st 8 (.padd (.var 2) (.var 4) 8) (.bin (.bxor .u64) (.ld 8 (.padd (.var 2) (.var 4) 8)) (.ld 8 (.padd (.var
        3) (.var 4) 8))))
      (.asg 4 (.bin (.add .u32) (.var 4) (.lit 1))),
    .ret (.ld 32 (.var 2))]⟩

/-- `bf64_load`, fields.h:106-113; variables: 0 src, 1 ret -/
def bf64_load : Fn := ⟨1,
  block [
    .new 1 (.lit 8),
    .call (some 2) Id.memcpy [.var 1, .var 0, .lit 8],
    .ret (.ld 8 (.var 1))]⟩

/-- `bf64_zero`, fields.h:122-124 -/
def bf64_zero : Fn := ⟨0,
  .ret (.lit 0)⟩

/-- `bf64_one`, fields.h:126-128 -/
def bf64_one : Fn := ⟨0,
  .ret (.lit 1)⟩

/-- `bf64_add`, fields.h:132-134; variables: 0 lhs, 1 rhs -/
def bf64_add : Fn := ⟨2,
  .ret (.bin (.bxor .u64) (.var 0) (.var 1))⟩

/-- `bf256_store`, fields.h:312-321; variables: 0 dst, 1 src, 2 src -/
def bf256_store : Fn := ⟨2,
  block [
    .new 2 (.lit 32),
    .st 32 (.var 2) (.var 1),
    .call (some 3) Id.memcpy [.var 0, .var 2, .lit 32]]⟩

/-- `bf192_load`, fields.h:220-234; variables: 0 src, 1 ret -/
def bf192_load : Fn := ⟨1,
  block [
    .new 1 (.lit 24),
    .call (some 2) Id.memcpy [.var 1, .var 0, .lit 24],
    .ret (.ld 24 (.var 1))]⟩

/-- `bf192_add`, fields.h:280-285; variables: 0 lhs, 1 rhs, 2 lhs, 3 rhs, 4 i -/
def bf192_add : Fn := ⟨2,
  block [
    .new 2 (.lit 24),
    .st 24 (.var 2) (.var 0),
    .new 3 (.lit 24),
    .st 24 (.var 3) (.var 1),
    .asg 4 (.lit 0),
    .loop (.bin .ne (.var 4) (.lit 3))
      (.st 8 (.padd (.var 2) (.var 4) 8) (.bin (.bxor .u64) (.ld 8 (.padd (.var 2) (.var 4) 8)) (.ld 8 (.padd (.var
        3) (.var 4) 8))))
      (.asg 4 (.bin (.add .u32) (.var 4) (.lit 1))),
    .ret (.ld 24 (.var 2))]⟩

/-- `bf192_store`, fields.h:236-245; variables: 0 dst, 1 src, 2 src -/
def bf192_store : Fn := ⟨2,
  block [
    .new 2 (.lit 24),
    .st 24 (.var 2) (.var 1),
    .call (some 3) Id.memcpy [.var 0, .var 2, .lit 24]]⟩

/-- `bf128_load`, fields.h:144-155; variables: 0 src, 1 ret -/
def bf128_load : Fn := ⟨1,
  block [
    .new 1 (.lit 16),
    .call (some 2) Id.memcpy [.var 1, .var 0, .lit 16],
    .ret (.ld 16 (.var 1))]⟩

/-- `bf128_add`, fields.h:201-206; variables: 0 lhs, 1 rhs, 2 lhs, 3 rhs, 4 i -/
def bf128_add : Fn := ⟨2,
  block [
    .new 2 (.lit 16),
    .st 16 (.var 2) (.var 0),
    .new 3 (.lit 16),
    .st 16 (.var 3) (.var 1),
    .asg 4 (.lit 0),
    .loop (.bin .ne (.var 4) (.lit 2))
      (.st 8 (.padd (.var 2) (.var 4) 8) (.bin (.bxor .u64) (.ld 8 (.padd (.var 2) (.var 4) 8)) (.ld 8 (.padd (.var
        3) (.var 4) 8))))
      (.asg 4 (.bin (.add .u32) (.var 4) (.lit 1))),
    .ret (.ld 16 (.var 2))]⟩

/-- `bf128_store`, fields.h:157-166; variables: 0 dst, 1 src, 2 src -/
def bf128_store : Fn := ⟨2,
  block [
    .new 2 (.lit 16),
    .st 16 (.var 2) (.var 1),
    .call (some 3) Id.memcpy [.var 0, .var 2, .lit 16]]⟩

/-- `bf256_zero`, fields.h:339-342; variables: 0 ret -/
def bf256_zero : Fn := ⟨0,
  block [
    .new 0 (.lit 32),
    .call (some 1) Id.memset [.var 0, .lit 0, .lit 32],
    .ret (.ld 32 (.var 0))]⟩

/-- `bf256_from_bf8`, fields.h:329-333; variables: 0 src, 1 ret -/
def bf256_from_bf8 : Fn := ⟨1,
  block [
    .new 1 (.lit 32),
    .call (some 2) Id.memset [.var 1, .lit 0, .lit 32],
    .st 8 (.var 1) (.var 0),
    .ret (.ld 32 (.var 1))]⟩

/-- `bf256_from_bit`, fields.h:335-337; variables: 0 bit -/
def bf256_from_bit : Fn := ⟨1,
  block [
    .call (some 1) Id.bf256_from_bf8 [.un (.cast .u8) (.bin (.band .i32) (.var 0) (.lit 1))],
    .ret (.var 1)]⟩

/-- `bf256_one`, fields.h:344-347; variables: 0 ret -/
def bf256_one : Fn := ⟨0,
  block [
    .new 0 (.lit 32),
    .st 8 (.var 0) (.lit 1),
    .st 8 (.padd (.var 0) (.lit 1) 8) (.lit 0),
    .st 8 (.padd (.var 0) (.lit 2) 8) (.lit 0),
    .st 8 (.padd (.var 0) (.lit 3) 8) (.lit 0),
    .ret (.ld 32 (.var 0))]⟩

/-- `bf192_zero`, fields.h:263-266; variables: 0 ret -/
def bf192_zero : Fn := ⟨0,
  block [
    .new 0 (.lit 24),
    .call (some 1) Id.memset [.var 0, .lit 0, .lit 24],
    .ret (.ld 24 (.var 0))]⟩

/-- `bf192_from_bf8`, fields.h:253-257; variables: 0 src, 1 ret -/
def bf192_from_bf8 : Fn := ⟨1,
  block [
    .new 1 (.lit 24),
    .call (some 2) Id.memset [.var 1, .lit 0, .lit 24],
    .st 8 (.var 1) (.var 0),
    .ret (.ld 24 (.var 1))]⟩

/-- `bf192_from_bit`, fields.h:259-261; variables: 0 bit -/
def bf192_from_bit : Fn := ⟨1,
  block [
    .call (some 1) Id.bf192_from_bf8 [.un (.cast .u8) (.bin (.band .i32) (.var 0) (.lit 1))],
    .ret (.var 1)]⟩

/-- `bf192_one`, fields.h:268-271; variables: 0 ret -/
def bf192_one : Fn := ⟨0,
  block [
    .new 0 (.lit 24),
    .st 8 (.var 0) (.lit 1),
    .st 8 (.padd (.var 0) (.lit 1) 8) (.lit 0),
    .st 8 (.padd (.var 0) (.lit 2) 8) (.lit 0),
    .ret (.ld 24 (.var 0))]⟩

/-- `bf128_zero`, fields.h:184-187; variables: 0 ret -/
def bf128_zero : Fn := ⟨0,
  block [
    .new 0 (.lit 16),
    .call (some 1) Id.memset [.var 0, .lit 0, .lit 16],
    .ret (.ld 16 (.var 0))]⟩

/-- `bf128_from_bf8`, fields.h:174-178; variables: 0 src, 1 ret -/
def bf128_from_bf8 : Fn := ⟨1,
  block [
    .new 1 (.lit 16),
    .call (some 2) Id.memset [.var 1, .lit 0, .lit 16],
    .st 8 (.var 1) (.var 0),
    .ret (.ld 16 (.var 1))]⟩

/-- `bf128_from_bit`, fields.h:180-182; variables: 0 bit -/
def bf128_from_bit : Fn := ⟨1,
  block [
    .call (some 1) Id.bf128_from_bf8 [.un (.cast .u8) (.bin (.band .i32) (.var 0) (.lit 1))],
    .ret (.var 1)]⟩

/-- `bf128_one`, fields.h:189-192; variables: 0 ret -/
def bf128_one : Fn := ⟨0,
  block [
    .new 0 (.lit 16),
    .st 8 (.var 0) (.lit 1),
    .st 8 (.padd (.var 0) (.lit 1) 8) (.lit 0),
    .ret (.ld 16 (.var 0))]⟩

end Faest.Leak.Prog
