/-
Specification of the binary fields: polynomials over GF(2) and the reduction polynomials
of the FAEST specification (section "Finite fields").  Independent of the model.
-/
import Mathlib.Algebra.Polynomial.Div
import Mathlib.Data.ZMod.Basic

namespace Faest.Spec

open Polynomial

/-- The polynomial over GF(2) whose coefficient of `X^i` is bit `i` of `v`. -/
noncomputable def polyOf {n : Nat} (v : BitVec n) : (ZMod 2)[X] :=
  ∑ i ∈ Finset.range n, if v.getLsbD i then X ^ i else 0

/-- GF(2^8), the field of AES. -/
noncomputable def f8 : (ZMod 2)[X] := X ^ 8 + X ^ 4 + X ^ 3 + X + 1
/-- GF(2^64). -/
noncomputable def f64 : (ZMod 2)[X] := X ^ 64 + X ^ 4 + X ^ 3 + X + 1
/-- GF(2^128). -/
noncomputable def f128 : (ZMod 2)[X] := X ^ 128 + X ^ 7 + X ^ 2 + X + 1
/-- GF(2^192). -/
noncomputable def f192 : (ZMod 2)[X] := X ^ 192 + X ^ 7 + X ^ 2 + X + 1
/-- GF(2^256). -/
noncomputable def f256 : (ZMod 2)[X] := X ^ 256 + X ^ 10 + X ^ 5 + X ^ 2 + 1

end Faest.Spec
