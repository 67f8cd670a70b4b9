/-
Generated by tools/c2lean.py from compat.c. Do not edit.
-/
import Verif.Model.CSem

set_option linter.unusedVariables false

namespace Faest.Gen
open Faest.C

/-- compat.c:113-126 `faest_timingsafe_bcmp`. -/
def faest_timingsafe_bcmp (a : CPtr) (b : CPtr) (len : Nat) : CM Nat := do
  let p1 : CPtr := a
  let p2 : CPtr := b
  let res : Nat := 0
  let e1 : Nat × CPtr × CPtr × Nat ← cwhile
      (fun _s1 =>
        let len : Nat := _s1.1
        decide (len ≠ 0))
      (fun _s1 => do
        let len : Nat := _s1.1
        let p1 : CPtr := _s1.2.1
        let p2 : CPtr := _s1.2.2.1
        let res : Nat := _s1.2.2.2
        let e2 : Byte ← ld p1 0
        let e3 : Byte ← ld p2 0
        let res : Nat := res ||| (e2.toNat ^^^ e3.toNat)
        let len : Nat := (len + U64 - 1) % U64
        let p1 : CPtr := padd p1 1
        let p2 : CPtr := padd p2 1
        pure (len, p1, p2, res))
      (len, p1, p2, res)
  let len : Nat := e1.1
  let p1 : CPtr := e1.2.1
  let p2 : CPtr := e1.2.2.1
  let res : Nat := e1.2.2.2
  pure res

/-- compat.c:134-143 `faest_explicit_bzero`. -/
def faest_explicit_bzero (a : CPtr) (len : Nat) : CM Unit := do
  let p : CPtr := a
  let e1 : Nat × CPtr ← cwhile
      (fun _s1 =>
        let len : Nat := _s1.1
        decide (len ≠ 0))
      (fun _s1 => do
        let len : Nat := _s1.1
        let p : CPtr := _s1.2
        st p 0 (0 : Byte)
        let p : CPtr := padd p 1
        let len : Nat := (len + U64 - 1) % U64
        pure (len, p))
      (len, p)
  let len : Nat := e1.1
  let p : CPtr := e1.2
  pure ()

end Faest.Gen
