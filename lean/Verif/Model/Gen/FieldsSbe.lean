/-
Generated by tools/c2words.py from compat.h, fields.h and fields.c; do not edit.
Without vector extensions, big endian.
-/
import Verif.Model.WSem

namespace Faest.GenF.S.BE

open Faest.Words Faest.Words.Impl

/-- fields.h:106-113 `bf64_load`. -/
def bf64_load (src : Mem Byte) (src_o : Nat) : Option (U64) := do
  let ret ← objIn true 1 src src_o 8
  let ret := ret[0]
  let ret := le64 true ret
  pure ret

/-- fields.h:115-120 `bf64_store`. -/
def bf64_store (dst : Mem Byte) (dst_o : Nat) (src : U64) : Option (Mem Byte) := do
  let src := le64 true src
  let dst ← memOut true dst dst_o #v[src] 8
  pure dst

/-- fields.h:144-155 `bf128_load`. -/
def bf128_load (src : Mem Byte) (src_o : Nat) : Option (Ws 2) := do
  let ret : Mem U64 := malloc 2
  let s1 ← forR 0 2 (ret, src_o) (fun i s1 => do
    let ret := s1.1
    let src_o := s1.2
    let ret ← memIn true ret i src src_o 8
    let x2 ← rd ret i
    let ret ← wr ret i (le64 true x2)
    let src_o := src_o + 8
    pure (ret, src_o))
  let ret := s1.1
  let src_o := s1.2
  let x3 ← whole 2 ret
  pure x3

/-- fields.h:157-166 `bf128_store`. -/
def bf128_store (dst : Mem Byte) (dst_o : Nat) (src : Ws 2) : Option (Mem Byte) := do
  let s1 ← forR 0 2 (dst, dst_o) (fun i s1 => do
    let dst := s1.1
    let dst_o := s1.2
    let x2 ← bfValue src i
    let tmp : U64 := le64 true x2
    let dst ← memOut true dst dst_o #v[tmp] 8
    let dst_o := dst_o + 8
    pure (dst, dst_o))
  let dst := s1.1
  let dst_o := s1.2
  pure dst

/-- fields.h:220-234 `bf192_load`. -/
def bf192_load (src : Mem Byte) (src_o : Nat) : Option (Ws 3) := do
  let ret : Mem U64 := malloc 3
  let s1 ← forR 0 3 (ret, src_o) (fun i s1 => do
    let ret := s1.1
    let src_o := s1.2
    let ret ← memIn true ret i src src_o 8
    let x2 ← rd ret i
    let ret ← wr ret i (le64 true x2)
    let src_o := src_o + 8
    pure (ret, src_o))
  let ret := s1.1
  let src_o := s1.2
  let x3 ← whole 3 ret
  pure x3

/-- fields.h:236-245 `bf192_store`. -/
def bf192_store (dst : Mem Byte) (dst_o : Nat) (src : Ws 3) : Option (Mem Byte) := do
  let s1 ← forR 0 3 (dst, dst_o) (fun i s1 => do
    let dst := s1.1
    let dst_o := s1.2
    let x2 ← bfValue src i
    let tmp : U64 := le64 true x2
    let dst ← memOut true dst dst_o #v[tmp] 8
    let dst_o := dst_o + 8
    pure (dst, dst_o))
  let dst := s1.1
  let dst_o := s1.2
  pure dst

/-- fields.h:299-310 `bf256_load`. -/
def bf256_load (src : Mem Byte) (src_o : Nat) : Option (Ws 4) := do
  let ret : Mem U64 := malloc 4
  let s1 ← forR 0 4 (ret, src_o) (fun i s1 => do
    let ret := s1.1
    let src_o := s1.2
    let ret ← memIn true ret i src src_o 8
    let x2 ← rd ret i
    let ret ← wr ret i (le64 true x2)
    let src_o := src_o + 8
    pure (ret, src_o))
  let ret := s1.1
  let src_o := s1.2
  let x3 ← whole 4 ret
  pure x3

/-- fields.h:312-321 `bf256_store`. -/
def bf256_store (dst : Mem Byte) (dst_o : Nat) (src : Ws 4) : Option (Mem Byte) := do
  let s1 ← forR 0 4 (dst, dst_o) (fun i s1 => do
    let dst := s1.1
    let dst_o := s1.2
    let x2 ← bfValue src i
    let tmp : U64 := le64 true x2
    let dst ← memOut true dst dst_o #v[tmp] 8
    let dst_o := dst_o + 8
    pure (dst, dst_o))
  let dst := s1.1
  let dst_o := s1.2
  pure dst

end Faest.GenF.S.BE
