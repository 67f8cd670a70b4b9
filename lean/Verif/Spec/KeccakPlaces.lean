/-
How sha3/avx2 and the other directories keep the state of Keccak in memory.
-/
import Verif.Spec.Keccak
import Verif.Model.Basic

namespace Faest.Spec.Keccak

/-- Lane `k` of the state is the word at place `places[k]` (sha3/avx2/KeccakP-1600-AVX2.s:1103-1108). -/
def places : List Nat :=
  [0, 1, 2, 3, 4,
   7, 21, 10, 15, 20,
   5, 13, 22, 19, 12,
   8, 9, 18, 23, 16,
   6, 17, 14, 11, 24]

/-- 200 bytes which hold the string `S`: bit `z` of lane `k` is bit `z % 8` of byte `z / 8` of its word. -/
def Holds (m : Mem (BitVec 8)) (S : Str) : Prop :=
  m.length = 200 ∧ ∀ (k : Fin 25) (z : Fin 64), ∃ x : BitVec 8,
    m[8 * places.getD k 0 + z.val / 8]? = some (some x) ∧ x.getLsbD (z.val % 8) = S ⟨64 * k.val + z.val, by omega⟩

/-- 200 bytes from place `w` on which hold the string `S` in the order of FIPS 202 (B.1): bit `j` is bit `j % 8` of byte
`j / 8`. -/
def HoldsAt (m : Mem (BitVec 8)) (w : Nat) (S : Str) : Prop :=
  ∀ j : Fin 1600, ∃ x : BitVec 8, m[w + j.val / 8]? = some (some x) ∧ x.getLsbD (j.val % 8) = S j

/-- 200 bytes from place `w` on which hold the string `S` as 25 words of a big-endian host: bit `z` of lane `k` is bit
`z % 8` of the byte with the weight `256 ^ (z / 8)` of its word, which is byte `7 - z / 8` in memory. -/
def HoldsBe (m : Mem (BitVec 8)) (w : Nat) (S : Str) : Prop :=
  ∀ (k : Fin 25) (z : Fin 64), ∃ x : BitVec 8,
    m[w + 8 * k.val + (7 - z.val / 8)]? = some (some x) ∧ x.getLsbD (z.val % 8) = S ⟨64 * k.val + z.val, by omega⟩

/-- Apart from the 200 bytes from place `w` on the memory is the same. -/
def Around (w : Nat) (m m' : Mem (BitVec 8)) : Prop :=
  m'.length = m.length ∧ ∀ t, t < w ∨ w + 200 ≤ t → m'[t]? = m[t]?

end Faest.Spec.Keccak
