/-
Specification of the two universal hashes of FAEST (VOLEHash and ZKHash), over the fields of
`Spec/Field.lean` (`BF n` with its ring structure, C10 and C11).
-/
import Verif.Proofs.LoadStore

namespace Faest.Spec

/-- A byte string of length `L`, continued by zeros. -/
def padded (g : Nat → Byte) (L : Nat) : Nat → Byte := fun t => if t < L then g t else 0

/-- Element number `i` of a byte string cut into elements of `n` bits. -/
def elt (n : Nat) (g : Nat → Byte) (i : Nat) : BF n := loadF n (fun k => g (i * (n / 8) + k))

/-- Polynomial evaluation with the last of `m` coefficients constant:
`y_(m-1) + y_(m-2) key + … + y_0 key^(m-1)`. -/
def polyHash {n : Nat} (key : BF n) (y : Nat → BF n) (m : Nat) : BF n :=
  ∑ i ∈ Finset.range m, y (m - 1 - i) * key ^ i

/-- Number of blocks of `n` bits of the hashed part. -/
def uhBlocks (n ell : Nat) : Nat := (ell + n + n - 1) / n

/-- First polynomial hash, over the field of `n` bits. -/
def uhH0 (n ell : Nat) (sd x : Nat → Byte) : BF n :=
  polyHash (elt n sd 4) (elt n (padded x ((ell + n) / 8))) (uhBlocks n ell)

/-- Second polynomial hash, over the field of 64 bits. -/
def uhH1 (n ell : Nat) (sd x : Nat → Byte) : BF 64 :=
  polyHash (loadF 64 fun k => sd (5 * (n / 8) + k)) (elt 64 (padded x ((ell + n) / 8)))
    (uhBlocks n ell * (n / 64))

/-- An element of 64 bits as an element of `n` bits. -/
def lift64 (n : Nat) (a : BF 64) : BF n := ⟨a.v.zeroExtend n⟩

/-- VOLEHash: byte `t` of the result, for the seed `sd` and the input `x`. -/
def voleHash (n ell : Nat) (sd x : Nat → Byte) (t : Nat) : Byte :=
  (if t < n / 8 then
      byteAt (elt n sd 0 * uhH0 n ell sd x + elt n sd 1 * lift64 n (uhH1 n ell sd x)) t
    else byteAt (elt n sd 2 * uhH0 n ell sd x + elt n sd 3 * lift64 n (uhH1 n ell sd x)) (t - n / 8))
  ^^^ x ((ell + n) / 8 + t)

/-- `y_(k-1) + y_(k-2) key + … + y_0 key^(k-1)` for a list of `k` values. -/
def listHash {n : Nat} (key : BF n) : List (BF n) → BF n
  | [] => 0
  | y :: ys => y * key ^ ys.length + listHash key ys

/-- ZKHash of the values `ys` with final mask `x1`. -/
def zkHash (n : Nat) (sd : Nat → Byte) (ys : List (BF n)) (x1 : BF n) : BF n :=
  elt n sd 0 * listHash (elt n sd 2) ys
    + elt n sd 1 * listHash (lift64 n (loadF 64 fun k => sd (3 * (n / 8) + k))) ys + x1

end Faest.Spec
