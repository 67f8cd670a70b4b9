/-
Specification of the extended witness: what a signature proves knowledge of.
-/
import Verif.Spec.Constraints
import Verif.Spec.Owf

namespace Faest.Spec

/-- Bytes of the state after SubBytes and ShiftRows of round `j + 1`, for the round keys `W` and the
block `p`. -/
def midState (Nb : Nat) (W : Nat → Nat → Byte) (p : Nat → Byte) (j : Nat) : Nat → Byte :=
  stateBytes (shiftRows Nb (subBytes (roundState Nb W (blockState p) j)))

/-- The extended witness for the AES variants: the key, the expanded-key words which use S-boxes, then
for each block the states of all rounds but the last. -/
def witAes (Nwd Ske R : Nat) (key inp : Nat → Byte) (p : Nat) : Byte :=
  if p < 4 * Nwd then key p
  else if p < 4 * Nwd + Ske then
    keyWord Nwd key (Nwd + ksStep Nwd * ((p - 4 * Nwd) / 4)) ((p - 4 * Nwd) % 4)
  else
    let q := p - (4 * Nwd + Ske)
    midState 4 (keyWord Nwd key) (fun i => inp (16 * (q / (16 * (R - 1))) + i))
      (q % (16 * (R - 1)) / 16) (q % 16)

/-- The extended witness for the Even-Mansour variants: the secret key, then the states. -/
def witEm (Nwd : Nat) (key inp : Nat → Byte) (p : Nat) : Byte :=
  if p < 4 * Nwd then key p
  else midState Nwd (keyWord Nwd inp) key ((p - 4 * Nwd) / (4 * Nwd)) ((p - 4 * Nwd) % (4 * Nwd))

def witness (P : Params) (key inp : Nat → Byte) : Nat → Byte :=
  if P.Lke = 0 then witEm P.Nwd key inp else witAes P.Nwd P.Ske P.R key inp

end Faest.Spec
