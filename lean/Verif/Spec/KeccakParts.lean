/-
The parts of the sponge of FIPS 202 starting from a given state: absorbing whole blocks, and squeezing.
-/
import Verif.Spec.Keccak

namespace Faest.Spec.Keccak

/-- 4, Algorithm 8, step 6 for all blocks of `P`, from the state `S`. -/
def absorbFrom (f : Str → Str) (r : Nat) (S : Str) (P : List Bool) : Str :=
  (List.range (P.length / r)).foldl (absorbBlock f r P) S

/-- 4, Algorithm 8, steps 7-10: `d` bits of output from the state `S`. -/
def squeezeFrom (f : Str → Str) (r : Nat) (S : Str) (d : Nat) : List Bool :=
  ((List.range (d / r + 1)).flatMap (fun k => (List.ofFn (iter f k S)).take r)).take d

/-- The end `d` of the input of SHAKE with what follows it: the bits 1111 (6.2) and the padding (5.1). -/
def lastPart (r : Nat) (d : List (BitVec 8)) : List Bool :=
  bitsOf d ++ [true, true, true, true] ++ pad101 r (8 * d.length + 4)

/-- B.1: 200 bytes as a string of 1600 bits. -/
def strOf (P : List (BitVec 8)) : Str := fun j => (P.getD (j.val / 8) 0).getLsbD (j.val % 8)

end Faest.Spec.Keccak
