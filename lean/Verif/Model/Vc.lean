/-
GGM tree and vector commitments: vc.c.

Tree nodes, seeds and leaf commitments are always addressed as whole elements of
`lambdaBytes` (or `2 * lambdaBytes`) bytes, so these buffers are arrays of byte strings.
-/
import Verif.Model.Aes
import Verif.Model.Oracle

namespace Faest

/-- `unsigned int` (32 bit) value; a value outside the range is treated as undefined.  (Wrapping
is defined in C, but every wrapped size or index would be a bug; the model refuses it.) -/
def u32 (x : Nat) : Option Nat := if x < 2 ^ 32 then some x else none

/-- vc.c:79-81 `getBinaryTreeNodeCount`; `1 << (depth + 1)` is an `int` shift. -/
def getBinaryTreeNodeCount (depth : Nat) : Option Nat :=
  if depth + 1 ≤ 30 then some (2 ^ (depth + 1) - 1) else none

/-- vc.c:84-89 `getNodeIndex`; `2 << (depth - 1)` is an `int` shift. -/
def getNodeIndex (depth levelIndex : Nat) : Option Nat :=
  if depth = 0 then some 0
  else if depth ≤ 29 then some ((2 * 2 ^ (depth - 1) - 2) + (levelIndex + 1))
  else none

/-- vc.c:93-101 `BitDec`: `none` in the result is the error return `-1`. -/
def bitDec (leafIndex depth : Nat) (out : Mem Byte) : Option (Option (Mem Byte)) :=
  if depth ≥ 32 then none
  else if leafIndex ≥ 2 ^ depth then some none
  else do
    let s ← forN depth (out, leafIndex) (fun j s => do
      let o ← wr s.1 j (BitVec.ofNat 8 (s.2 % 2))
      pure (o, s.2 / 2))
    pure (some s.1)

/-- vc.c:103-109 `NumRec`. -/
def numRec (depth : Nat) (bi : Mem Byte) : Option Nat :=
  forN depth 0 (fun i out => do
    let b ← rd bi i
    if i < 32 then u32 (out + b.toNat * 2 ^ i) else none)

/-- vc.c:26-29 `is_left_child`, with its assertion. -/
def isLeftChild (node : Nat) : Option Bool := if node = 0 then none else some (node % 2 == 1)

/-- vc.c:42-49 `get_parent`. -/
def getParent (node : Nat) : Option Nat := do
  let l ← isLeftChild node
  if l then pure ((node - 1) / 2) else pure ((node - 2) / 2)

/-- vc.c:51-65 `expand_seeds`; the output of one `prg` call covers two nodes. -/
def expandSeeds (tree : Mem (List Byte)) (iv : List Byte) (lambda : Nat) :
    Option (Mem (List Byte)) := do
  let lambdaBytes := lambda / 8
  let lastNonLeaf ← getParent (tree.length - 1)
  if 2 * lastNonLeaf + 2 < tree.length then
    forN (lastNonLeaf + 1) tree (fun i tree => do
      let key ← rd tree i
      let out ← prg (ofList key) (ofList iv) lambda (lambdaBytes * 2)
      let tree ← wr tree (2 * i + 1) (out.take lambdaBytes)
      wr tree (2 * i + 2) (out.drop lambdaBytes))
  else none

/-- vc.c:67-76 `generate_seeds` with create_tree (31-40): `calloc`ed nodes, root, expansion. -/
def generateSeeds (rootSeed iv : List Byte) (lambda depth : Nat) : Option (Mem (List Byte)) := do
  let n ← getBinaryTreeNodeCount depth
  let tree : Mem (List Byte) := calloc n (List.replicate (lambda / 8) 0)
  let tree ← wr tree 0 rootSeed
  expandSeeds tree iv lambda

/-- vc.h:17-22 `vec_com_t`. -/
structure VecCom where
  h : List Byte
  k : Mem (List Byte)
  com : Mem (List Byte)
  sd : Mem (List Byte)

/-- One instance of the leaf hash (vc.c:148-154 and the same lines of vector_reconstruction):
`H0(node || iv)` into `sd[i]` and `com[i]`. -/
def leafHash1 (X : XOF) (lambda : Nat) (iv : List Byte) (node : List Byte) (i : Nat)
    (s : Mem (List Byte) × Mem (List Byte)) : Option (Mem (List Byte) × Mem (List Byte)) := do
  let r := H0 X lambda (node ++ iv) (lambda / 8) (lambda / 8 * 2)
  let sd ← wr s.1 i r.1
  let com ← wr s.2 i r.2
  pure (sd, com)

/-- Four instances at once (vc.c:133-145 and the same lines of vector_reconstruction). -/
def leafHash4 (X : XOF) (lambda : Nat) (iv : List Byte) (node : Nat → List Byte) (i : Nat)
    (s : Mem (List Byte) × Mem (List Byte)) : Option (Mem (List Byte) × Mem (List Byte)) := do
  let r := H0x4 X lambda (fun c => node c ++ iv) (lambda / 8) (lambda / 8 * 2)
  let sd ← wr s.1 i (r 0).1
  let sd ← wr sd (i + 1) (r 1).1
  let sd ← wr sd (i + 2) (r 2).1
  let sd ← wr sd (i + 3) (r 3).1
  let com ← wr s.2 i (r 0).2
  let com ← wr com (i + 1) (r 1).2
  let com ← wr com (i + 2) (r 2).2
  let com ← wr com (i + 3) (r 3).2
  pure (sd, com)

/-- Loop body: hash node `idx i` of `tree`. -/
def leafBody1 (X : XOF) (lambda : Nat) (iv : List Byte) (tree : Mem (List Byte))
    (idx : Nat → Option Nat) (i : Nat) (s : Mem (List Byte) × Mem (List Byte)) :
    Option (Mem (List Byte) × Mem (List Byte)) := do
  let n ← rd tree (← idx i)
  leafHash1 X lambda iv n i s

/-- Loop body: hash nodes `idx i … idx (i+3)` of `tree`. -/
def leafBody4 (X : XOF) (lambda : Nat) (iv : List Byte) (tree : Mem (List Byte))
    (idx : Nat → Option Nat) (i : Nat) (s : Mem (List Byte) × Mem (List Byte)) :
    Option (Mem (List Byte) × Mem (List Byte)) := do
  let n0 ← rd tree (← idx i)
  let n1 ← rd tree (← idx (i + 1))
  let n2 ← rd tree (← idx (i + 2))
  let n3 ← rd tree (← idx (i + 3))
  leafHash4 X lambda iv (fun c => if c = 0 then n0 else if c = 1 then n1 else if c = 2 then n2 else n3)
    i s

/-- vc.c:111-164 `vector_commitment`. -/
def vectorCommitment (X : XOF) (rootKey iv : List Byte) (lambda depth : Nat) : Option VecCom := do
  let lambdaBytes := lambda / 8
  let N ← if depth ≤ 30 then some (2 ^ depth) else none
  let tree ← generateSeeds rootKey iv lambda depth
  let _ ← u32 (N * lambdaBytes * 2)
  let com : Mem (List Byte) := malloc N
  let sd : Mem (List Byte) := malloc N
  let base := tree.length - N
  let idx : Nat → Option Nat := fun i => some (base + i)
  let (i, s) ← forStep (N / 4 * 4) 4 (N + 1) 0 (sd, com) (leafBody4 X lambda iv tree idx)
  let (_, s) ← forStep N 1 (N + 1) i s (leafBody1 X lambda iv tree idx)
  let ctx ← forN N ([] : List Byte) (fun j ctx => do
    let c ← rd s.2 j
    pure (ctx ++ c))
  pure { h := H1 X lambda ctx (lambdaBytes * 2), k := tree, com := s.2, sd := s.1 }

/-- C's `!b` on a byte. -/
def cNot (b : Byte) : Nat := if b = 0 then 1 else 0

/-- vc.c:166-181 `vector_open`, writing `cop` at `dst + offCop` and `com_j` at `dst + offCom`. -/
def vectorOpen (k com : Mem (List Byte)) (b : Mem Byte) (dst : Mem Byte) (offCop offCom : Nat)
    (depth lambdaBytes : Nat) : Option (Mem Byte) := do
  let leafIndex ← numRec depth b
  let (dst, _) ← forN depth (dst, 0) (fun i (s : Mem Byte × Nat) => do
    let bit ← rd b (depth - 1 - i)
    let node ← rd k (← getNodeIndex (i + 1) (2 * s.2 + cNot bit))
    let dst ← wrN s.1 (offCop + lambdaBytes * i) node
    pure (dst, 2 * s.2 + bit.toNat))
  let c ← rd com leafIndex
  wrN dst offCom c

/-- vc.h:24-29 `vec_com_rec_t`. -/
structure VecComRec where
  h : List Byte
  k : Mem (List Byte)
  com : Mem (List Byte)
  s : Mem (List Byte)

/-- vc.c:200-213: inner loop of the reconstruction at level `i`. -/
def reconLevel (iv : List Byte) (lambda i a : Nat) (k : Mem (List Byte)) : Option (Mem (List Byte)) :=
  forN (2 ^ (i - 1)) k (fun j k =>
    if j = a then some k
    else do
      let key ← rd k (← getNodeIndex (i - 1) j)
      let out ← prg (ofList key) (ofList iv) lambda (lambda / 8 * 2)
      let k ← wr k (← getNodeIndex i (2 * j)) (out.take (lambda / 8))
      wr k (← getNodeIndex i (2 * j + 1)) (out.drop (lambda / 8)))

/-- vc.c:191-216: the tree part of `vector_reconstruction`. -/
def reconTree (iv : List Byte) (cop : Mem Byte) (b : Mem Byte) (lambda depth : Nat)
    (k : Mem (List Byte)) : Option (Mem (List Byte)) := do
  let (k, _) ← forR 1 (depth + 1) (k, 0) (fun i (s : Mem (List Byte) × Nat) => do
    let bit ← rd b (depth - i)
    let c ← rdN cop (lambda / 8 * (i - 1)) (lambda / 8)
    let k ← wr s.1 (← getNodeIndex i (2 * s.2 + cNot bit)) c
    let k ← wr k (← getNodeIndex i (2 * s.2 + bit.toNat)) (List.replicate (lambda / 8) 0)
    let k ← reconLevel iv lambda i s.2 k
    pure (k, s.2 * 2 + bit.toNat))
  pure k

/-- `for (; j < n && j % 4; ++j)`. -/
def forUntil4 {S : Type} (n : Nat) : Nat → Nat → S → (Nat → S → Option S) → Option (Nat × S)
  | 0, _, _, _ => none
  | fuel + 1, j, s, f =>
    if j < n ∧ j % 4 ≠ 0 then (f j s).bind (fun s' => forUntil4 n fuel (j + 1) s' f)
    else some (j, s)

/-- vc.c:183-284 `vector_reconstruction` on the caller's buffers. -/
def vectorReconstruction (X : XOF) (iv : List Byte) (cop comj : Mem Byte) (b : Mem Byte)
    (lambda depth : Nat) (rec : VecComRec) : Option VecComRec := do
  let lambdaBytes := lambda / 8
  let N ← if depth ≤ 30 then some (2 ^ depth) else none
  let leafIndex ← numRec depth b
  let k ← reconTree iv cop b lambda depth rec.k
  let idx : Nat → Option Nat := fun j => getNodeIndex depth j
  let (j, s) ← forStep (leafIndex / 4 * 4) 4 (N + 1) 0 (rec.s, rec.com) (leafBody4 X lambda iv k idx)
  let (j, s) ← forStep leafIndex 1 (N + 1) j s (leafBody1 X lambda iv k idx)
  let j := j + 1
  let (j, s) ← forUntil4 N (N + 1) j s (leafBody1 X lambda iv k idx)
  let (j, s) ← forStep (N / 4 * 4) 4 (N + 1) j s (leafBody4 X lambda iv k idx)
  let (_, s) ← forStep N 1 (N + 1) j s (leafBody1 X lambda iv k idx)
  let c ← rdN comj 0 (lambdaBytes * 2)
  let com ← wr s.2 leafIndex c
  let coms ← rdN com 0 N
  pure { h := H1 X lambda coms.flatten (lambdaBytes * 2), k := k, com := com, s := s.1 }

end Faest
