/-
Specification of the VOLE commitment (columns as functions of the byte position).
-/
import Verif.Spec.Ggm
import Verif.Model.Params

namespace Faest.Spec

/-- Exclusive or of `f 0, …, f (n-1)`. -/
def xsum : Nat → (Nat → Byte) → Byte
  | 0, _ => 0
  | n + 1, f => xsum n f ^^^ f n

/-- Column `j` of the VOLE tag for the strings `r 0, …, r (N-1)`: the exclusive or of those
strings whose index has bit `j` set. -/
def voleV (N : Nat) (r : Nat → Nat → Byte) (j t : Nat) : Byte :=
  xsum N fun i => if i / 2 ^ j % 2 = 1 then r i t else 0

/-- The VOLE value: exclusive or of all strings. -/
def voleU (N : Nat) (r : Nat → Nat → Byte) (t : Nat) : Byte := xsum N fun i => r i t

/-- Bit `i` of a byte string. -/
def strBit (g : Nat → Byte) (i : Nat) : Bool := (g (i / 8)).getLsbD (i % 8)

/-- The number with the bits `f 0, …, f (n-1)`. -/
def bitsNat (f : Nat → Bool) : Nat → Nat
  | 0 => 0
  | n + 1 => bitsNat f n + (if f n then 2 ^ n else 0)

/-- Depth of tree `i`. -/
def depth (P : Params) (i : Nat) : Nat := if i < P.t0 then P.k0 else P.k1

/-- First column of tree `i`. -/
def colStart (P : Params) (i : Nat) : Nat :=
  if i < P.t0 then i * P.k0 else P.t0 * P.k0 + (i - P.t0) * P.k1

/-- Tree of column `p`. -/
def treeOf (P : Params) (p : Nat) : Nat :=
  if p < P.t0 * P.k0 then p / P.k0 else P.t0 + (p - P.t0 * P.k0) / P.k1

/-- Position of column `p` inside its tree. -/
def posOf (P : Params) (p : Nat) : Nat := p - colStart P (treeOf P p)

/-- Leaf selected by the challenge in tree `i`. -/
def leafIdx (P : Params) (ch : Nat → Byte) (i : Nat) : Nat :=
  bitsNat (fun j => strBit ch (colStart P i + j)) (depth P i)

/-! ### Prover -/

/-- Root of tree `i`. -/
def treeRoot (P : Params) (rootKey iv : List Byte) (i : Nat) : List Byte :=
  tabP (P.lambda / 8) fun t => prgStream P.lambda (byteFn rootKey) (byteFn iv) (i * (P.lambda / 8) + t)

/-- Node of tree `i`. -/
def pNode (P : Params) (rootKey iv : List Byte) (i l j : Nat) : List Byte :=
  treeNode P.lambda iv (treeRoot P rootKey iv i) l j

/-- Leaf commitment `j` of tree `i`. -/
def pCom (X : XOF) (P : Params) (rootKey iv : List Byte) (i j : Nat) : List Byte :=
  leafCom X P.lambda iv (pNode P rootKey iv i (depth P i) j)

/-- Leaf seed `j` of tree `i`. -/
def pSd (X : XOF) (P : Params) (rootKey iv : List Byte) (i j : Nat) : List Byte :=
  leafSd X P.lambda iv (pNode P rootKey iv i (depth P i) j)

/-- The expanded seed. -/
def expand (lam : Nat) (iv sd : List Byte) (t : Nat) : Byte := prgStream lam (byteFn sd) (byteFn iv) t

/-- Strings `r_j` of tree `i`. -/
def pR (X : XOF) (P : Params) (rootKey iv : List Byte) (i j t : Nat) : Byte :=
  expand P.lambda iv (pSd X P rootKey iv i j) t

/-- VOLE value of tree `i`. -/
def pU (X : XOF) (P : Params) (rootKey iv : List Byte) (i t : Nat) : Byte :=
  voleU (2 ^ depth P i) (pR X P rootKey iv i) t

/-- Column `p` of the tags. -/
def pV (X : XOF) (P : Params) (rootKey iv : List Byte) (p t : Nat) : Byte :=
  voleV (2 ^ depth P (treeOf P p)) (pR X P rootKey iv (treeOf P p)) (posOf P p) t

/-- Digest of all trees. -/
def hcomOf (X : XOF) (P : Params) (com : Nat → Nat → List Byte) : List Byte :=
  squeeze X (hashSel P.lambda)
    ((tabP P.tau fun i => comDigest X P.lambda (2 ^ depth P i) (com i)).flatten ++ [1]) 0 (P.lambda / 8 * 2)

/-! ### Verifier -/

/-- Node recomputed by the verifier in tree `i` from the sibling paths `cop`. -/
def vNode (P : Params) (iv : List Byte) (ch : Nat → Byte) (cop : Nat → Nat → List Byte)
    (i l j : Nat) : List Byte :=
  recNode P.lambda iv (cop i) (depth P i) (leafIdx P ch i) l j

/-- Leaf commitments of tree `i` as seen by the verifier. -/
def vCom (X : XOF) (P : Params) (iv : List Byte) (ch : Nat → Byte) (cop : Nat → Nat → List Byte)
    (comj : Nat → List Byte) (i j : Nat) : List Byte :=
  if j = leafIdx P ch i then comj i else leafCom X P.lambda iv (vNode P iv ch cop i (depth P i) j)

/-- Strings of tree `i` as seen by the verifier, numbered relative to the hidden leaf. -/
def vR (X : XOF) (P : Params) (iv : List Byte) (ch : Nat → Byte) (cop : Nat → Nat → List Byte)
    (i j t : Nat) : Byte :=
  if j = 0 then 0
  else expand P.lambda iv (leafSd X P.lambda iv
    (vNode P iv ch cop i (depth P i) (Nat.xor j (leafIdx P ch i)))) t

/-- Column `p` of the keys before correction. -/
def vQ (X : XOF) (P : Params) (iv : List Byte) (ch : Nat → Byte) (cop : Nat → Nat → List Byte)
    (p t : Nat) : Byte :=
  voleV (2 ^ depth P (treeOf P p)) (vR X P iv ch cop (treeOf P p)) (posOf P p) t

end Faest.Spec
