/-
Specification of the GGM tree and of the vector commitment built on it.
-/
import Verif.Spec.Owf
import Verif.Model.Oracle

namespace Faest.Spec

/-- Byte `i` of a byte string (used for positions inside the string). -/
def byteFn (l : List Byte) (i : Nat) : Byte := (l[i]?).getD 0

/-- `n` bytes of the key stream for a key and iv given as byte strings. -/
def prgL (lam : Nat) (key iv : List Byte) (n : Nat) : List Byte :=
  tabP n (prgStream lam (byteFn key) (byteFn iv))

/-- The two children of a node: the two halves of the key stream of twice the seed length. -/
def child (lam : Nat) (iv key : List Byte) (b : Nat) : List Byte :=
  if b = 0 then (prgL lam key iv (lam / 8 * 2)).take (lam / 8)
  else (prgL lam key iv (lam / 8 * 2)).drop (lam / 8)

/-- Node `j` of level `l` of the tree. -/
def treeNode (lam : Nat) (iv root : List Byte) : Nat → Nat → List Byte
  | 0, _ => root
  | l + 1, j => child lam iv (treeNode lam iv root l (j / 2)) (j % 2)

/-- Seed derived from a leaf. -/
def leafSd (X : XOF) (lam : Nat) (iv node : List Byte) : List Byte :=
  squeeze X (hashSel lam) (node ++ iv ++ [0]) 0 (lam / 8)

/-- Commitment derived from a leaf. -/
def leafCom (X : XOF) (lam : Nat) (iv node : List Byte) : List Byte :=
  squeeze X (hashSel lam) (node ++ iv ++ [0]) (lam / 8) (lam / 8 * 2)

/-- Digest of all leaf commitments. -/
def comDigest (X : XOF) (lam N : Nat) (com : Nat → List Byte) : List Byte :=
  squeeze X (hashSel lam) ((tabP N com).flatten ++ [1]) 0 (lam / 8 * 2)

/-- Index on level `l` of the ancestor of leaf `j` in a tree of depth `d`. -/
def anc (d j l : Nat) : Nat := j / 2 ^ (d - l)

/-- The other child of the parent. -/
def sib (j : Nat) : Nat := if j % 2 = 0 then j + 1 else j - 1

/-- The nodes the verifier recomputes from the sibling path `cop` of leaf `j`; nodes on the path
to leaf `j` are the all-zero string. -/
def recNode (lam : Nat) (iv : List Byte) (cop : Nat → List Byte) (d leaf : Nat) :
    Nat → Nat → List Byte
  | 0, _ => List.replicate (lam / 8) 0
  | l + 1, j =>
    if j / 2 = anc d leaf l then
      if j = anc d leaf (l + 1) then List.replicate (lam / 8) 0 else cop l
    else child lam iv (recNode lam iv cop d leaf l (j / 2)) (j % 2)

end Faest.Spec
