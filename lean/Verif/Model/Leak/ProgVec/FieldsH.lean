/-
Generated by tools/c2leak.py; do not edit.
Functions of fields.h.
-/
import Verif.Model.Leak.IR
import Verif.Model.Leak.Prog.Ids
import Verif.Model.Leak.ProgVec.Ids

namespace Faest.Leak.ProgVec

/-- `bf192_load`, fields.h:220-234; variables: 0 src, 1 ret -/
def bf192_load : Fn := ⟨1,
  block [
    .new 1 (.lit 32),
    .call (some 2) Prog.Id.memcpy [.var 1, .var 0, .lit 24],
    .st 8 (.padd (.var 1) (.lit 3) 8) (.lit 0),
    .ret (.ld 32 (.var 1))]⟩

/-- `bf192_zero`, fields.h:263-266; variables: 0 ret -/
def bf192_zero : Fn := ⟨0,
  block [
    .new 0 (.lit 32),
    .st 8 (.var 0) (.lit 0),
    .st 8 (.padd (.var 0) (.lit 1) 8) (.lit 0),
    .st 8 (.padd (.var 0) (.lit 2) 8) (.lit 0),
    .st 8 (.padd (.var 0) (.lit 3) 8) (.lit 0),
    .ret (.ld 32 (.var 0))]⟩

/-- `bf192_store`, fields.h:236-245; variables: 0 dst, 1 src, 2 src -/
def bf192_store : Fn := ⟨2,
  block [
    .new 2 (.lit 32),
    .st 32 (.var 2) (.var 1),
    .call (some 3) Prog.Id.memcpy [.var 0, .var 2, .lit 24]]⟩

/-- `bf192_from_bf8`, fields.h:253-257; variables: 0 src, 1 ret -/
def bf192_from_bf8 : Fn := ⟨1,
  block [
    .new 1 (.lit 32),
    .st 8 (.var 1) (.lit 0),
    .st 8 (.padd (.var 1) (.lit 1) 8) (.lit 0),
    .st 8 (.padd (.var 1) (.lit 2) 8) (.lit 0),
    .st 8 (.padd (.var 1) (.lit 3) 8) (.lit 0),
    .st 8 (.var 1) (.var 0),
    .ret (.ld 32 (.var 1))]⟩

/-- `bf192_one`, fields.h:268-271; variables: 0 ret -/
def bf192_one : Fn := ⟨0,
  block [
    .new 0 (.lit 32),
    .st 8 (.var 0) (.lit 1),
    .st 8 (.padd (.var 0) (.lit 1) 8) (.lit 0),
    .st 8 (.padd (.var 0) (.lit 2) 8) (.lit 0),
    .st 8 (.padd (.var 0) (.lit 3) 8) (.lit 0),
    .ret (.ld 32 (.var 0))]⟩

end Faest.Leak.ProgVec
