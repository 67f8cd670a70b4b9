/-
What it means for an array of 64-bit words to represent an `n`-bit vector.
-/
import Verif.Model.FieldWords

namespace Faest.Spec

/-- Value of a list of 64-bit words, least significant word first. -/
def wordsNat : List (BitVec 64) → Nat
  | [] => 0
  | w :: ws => w.toNat + 2 ^ 64 * wordsNat ws

/-- The words `v` represent the `n`-bit vector `a`: they have the same value.  (So words past
bit `n` are zero.) -/
def Repr {n k : Nat} (v : Vector (BitVec 64) k) (a : BitVec n) : Prop :=
  wordsNat v.toList = a.toNat

end Faest.Spec
