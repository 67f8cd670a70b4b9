/-
Specification of the helper functions of compat.h and endian_compat.h.
-/

namespace Faest.Spec.Compat

/-- Number of the bits set among the first `n` of `x`. -/
def ones {w : Nat} (x : BitVec w) : Nat → Nat
  | 0 => 0
  | n + 1 => ones x n + if x.getLsbD n then 1 else 0

/-- The `n` bytes of a number of `8 n` bits, the least significant one first. -/
def le {w : Nat} (n : Nat) (x : BitVec w) : List (BitVec 8) := (List.range n).map fun k => x.extractLsb' (8 * k) 8

/-- The bytes, the most significant one first. -/
def be {w : Nat} (n : Nat) (x : BitVec w) : List (BitVec 8) := (le n x).reverse

/-- The bytes of a number in the memory of a host. -/
def image {w : Nat} (big : Bool) (n : Nat) (x : BitVec w) : List (BitVec 8) := if big then be n x else le n x

/-- `r` is the number of zero bits above the highest bit set of `x`, a number of 32 bits: 32 for 0. -/
def LeadingZeros (x r : Nat) : Prop := r ≤ 32 ∧ x < 2 ^ (32 - r) ∧ (x ≠ 0 → 2 ^ (31 - r) ≤ x) ∧ (x = 0 → r = 32)

/-- `r` is the logarithm of `x` to the base 2, rounded up. -/
def CeilLog2 (x r : Nat) : Prop := x ≤ 2 ^ r ∧ ∀ k < r, 2 ^ k < x

end Faest.Spec.Compat
