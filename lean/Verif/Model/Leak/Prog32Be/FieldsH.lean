/-
Generated by tools/c2leak.py; do not edit.
Functions of fields.h.
-/
import Verif.Model.Leak.IR
import Verif.Model.Leak.Prog.Ids
import Verif.Model.Leak.Prog32Be.Ids

namespace Faest.Leak.Prog32Be

/-- `bf256_load`, fields.h:299-310; variables: 0 src, 1 ret, 2 i -/
def bf256_load : Fn := ⟨1,
  block [
    .new 1 (.lit 32),
    .asg 2 (.lit 0),
    .loop (.bin .ne (.var 2) (.lit 4))
      (block [
        .call (some 3) Prog.Id.memcpy [.padd (.var 1) (.var 2) 8, .var 0, .lit 8],
        .call (some 4) Id.bswap64 [.ld 8 (.padd (.var 1) (.var 2) 8)],
        .st 8 (.padd (.var 1) (.var 2) 8) (.var 4)])
      (block [
        .asg 2 (.bin (.add .u32) (.var 2) (.lit 1)),
        .asg 0 (.padd (.var 0) (.lit 8) 1)]),
    .ret (.ld 32 (.var 1))]⟩

/-- `bf64_load`, fields.h:106-113; variables: 0 src, 1 ret -/
def bf64_load : Fn := ⟨1,
  block [
    .new 1 (.lit 8),
    .call (some 2) Prog.Id.memcpy [.var 1, .var 0, .lit 8],
    .call (some 3) Id.bswap64 [.ld 8 (.var 1)],
    .st 8 (.var 1) (.var 3),
    .ret (.ld 8 (.var 1))]⟩

/-- `bf256_store`, fields.h:312-321; variables: 0 dst, 1 src, 2 src, 3 i, 4 tmp -/
def bf256_store : Fn := ⟨2,
  block [
    .new 2 (.lit 32),
    .st 32 (.var 2) (.var 1),
    .asg 3 (.lit 0),
    .loop (.bin .ne (.var 3) (.lit 4))
      (block [
        .new 4 (.lit 8),
        .call (some 5) Id.bswap64 [.ld 8 (.padd (.var 2) (.var 3) 8)],
        .st 8 (.var 4) (.var 5),
        .call (some 6) Prog.Id.memcpy [.var 0, .var 4, .lit 8]])
      (block [
        .asg 3 (.bin (.add .u32) (.var 3) (.lit 1)),
        .asg 0 (.padd (.var 0) (.lit 8) 1)])]⟩

/-- `bf192_load`, fields.h:220-234; variables: 0 src, 1 ret, 2 i -/
def bf192_load : Fn := ⟨1,
  block [
    .new 1 (.lit 24),
    .asg 2 (.lit 0),
    .loop (.bin .ne (.var 2) (.lit 3))
      (block [
        .call (some 3) Prog.Id.memcpy [.padd (.var 1) (.var 2) 8, .var 0, .lit 8],
        .call (some 4) Id.bswap64 [.ld 8 (.padd (.var 1) (.var 2) 8)],
        .st 8 (.padd (.var 1) (.var 2) 8) (.var 4)])
      (block [
        .asg 2 (.bin (.add .u32) (.var 2) (.lit 1)),
        .asg 0 (.padd (.var 0) (.lit 8) 1)]),
    .ret (.ld 24 (.var 1))]⟩

/-- `bf192_store`, fields.h:236-245; variables: 0 dst, 1 src, 2 src, 3 i, 4 tmp -/
def bf192_store : Fn := ⟨2,
  block [
    .new 2 (.lit 24),
    .st 24 (.var 2) (.var 1),
    .asg 3 (.lit 0),
    .loop (.bin .ne (.var 3) (.lit 3))
      (block [
        .new 4 (.lit 8),
        .call (some 5) Id.bswap64 [.ld 8 (.padd (.var 2) (.var 3) 8)],
        .st 8 (.var 4) (.var 5),
        .call (some 6) Prog.Id.memcpy [.var 0, .var 4, .lit 8]])
      (block [
        .asg 3 (.bin (.add .u32) (.var 3) (.lit 1)),
        .asg 0 (.padd (.var 0) (.lit 8) 1)])]⟩

/-- `bf128_load`, fields.h:144-155; variables: 0 src, 1 ret, 2 i -/
def bf128_load : Fn := ⟨1,
  block [
    .new 1 (.lit 16),
    .asg 2 (.lit 0),
    .loop (.bin .ne (.var 2) (.lit 2))
      (block [
        .call (some 3) Prog.Id.memcpy [.padd (.var 1) (.var 2) 8, .var 0, .lit 8],
        .call (some 4) Id.bswap64 [.ld 8 (.padd (.var 1) (.var 2) 8)],
        .st 8 (.padd (.var 1) (.var 2) 8) (.var 4)])
      (block [
        .asg 2 (.bin (.add .u32) (.var 2) (.lit 1)),
        .asg 0 (.padd (.var 0) (.lit 8) 1)]),
    .ret (.ld 16 (.var 1))]⟩

/-- `bf128_store`, fields.h:157-166; variables: 0 dst, 1 src, 2 src, 3 i, 4 tmp -/
def bf128_store : Fn := ⟨2,
  block [
    .new 2 (.lit 16),
    .st 16 (.var 2) (.var 1),
    .asg 3 (.lit 0),
    .loop (.bin .ne (.var 3) (.lit 2))
      (block [
        .new 4 (.lit 8),
        .call (some 5) Id.bswap64 [.ld 8 (.padd (.var 2) (.var 3) 8)],
        .st 8 (.var 4) (.var 5),
        .call (some 6) Prog.Id.memcpy [.var 0, .var 4, .lit 8]])
      (block [
        .asg 3 (.bin (.add .u32) (.var 3) (.lit 1)),
        .asg 0 (.padd (.var 0) (.lit 8) 1)])]⟩

end Faest.Leak.Prog32Be
