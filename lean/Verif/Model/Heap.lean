/-
The heap: vc.c, vole.c, faest_aes.c, aes.c and faest.c with explicit allocation and freeing.

The functions of Model/Flat.lean are written once more over a heap of blocks.  Every `malloc`, `calloc` and
`faest_aligned_alloc` of the C code makes a new block, every `free` and `faest_aligned_free` removes one, and buffers
are reached through block numbers and arrays of pointers, as in the C code.  Undefined (`none`) are: access to a block
which was freed, contents of another size than the block was allocated with, freeing a block which is not live (double
free), freeing through a pointer not to the start of a block,
and freeing a block with the wrong function (compat.c has different headers for aligned blocks).

Blocks of the caller (signature, message, keys) and arrays on the stack are values as before.  Between two operations on
the heap the code is the code of Model/Flat.lean on the contents of the live blocks; such pieces contain neither
allocation nor freeing.  An allocation never fails: the C code never tests the result of one.
-/
import Verif.Model.Flat

namespace Faest.Heap

/-- `uint8_t*`: a block and an offset in bytes. -/
structure Ptr where
  blk : Nat
  off : Nat

/-- vc.h:17-22 `vec_com_t`, vc.h:24-29 `vec_com_rec_t` (`sd` is `s`): four pointers to the start of blocks. -/
structure VcPtrs where
  h : Nat
  k : Nat
  com : Nat
  sd : Nat

/-- Contents of a block. -/
inductive Blk where
  | bytes (m : Mem Byte)
  | elems (n : Nat) (m : Mem (BF n))
  | ptrs (m : Mem Ptr)
  | coms (m : Mem VcPtrs)

/-- A live block; `aligned` if it comes from `faest_aligned_alloc`. -/
structure Cell where
  aligned : Bool
  data : Blk

/-- The heap.  `cells i = none` if block `i` was freed or not yet allocated; `next` is the number of the next block. -/
structure Heap where
  next : Nat
  cells : Nat → Option Cell

/-- Computations on the heap. -/
abbrev HM := StateT Heap Option

/-- Change block `i`. -/
def upd (c : Nat → Option Cell) (i : Nat) (x : Option Cell) : Nat → Option Cell := fun j => if j = i then x else c j

/-- A computation which does not touch the heap. -/
def lft {α : Type} (x : Option α) : HM α := fun H => x.map fun a => (a, H)

/-- `malloc`, `calloc` or `faest_aligned_alloc` with the given contents. -/
def alloc (c : Cell) : HM Nat := fun H => some (H.next, ⟨H.next + 1, upd H.cells H.next (some c)⟩)

/-- `free` (`al = false`) or `faest_aligned_free` (`al = true`) of a pointer to the start of block `i`. -/
def free (al : Bool) (i : Nat) : HM Unit := fun H =>
  match H.cells i with
  | some c => if c.aligned = al then some ((), ⟨H.next, upd H.cells i none⟩) else none
  | none => none

/-- The bytes of a live block. -/
def bytes (i : Nat) : HM (Mem Byte) := fun H =>
  match H.cells i with
  | some ⟨_, .bytes m⟩ => some (m, H)
  | _ => none

/-- The field elements of a live block. -/
def elems (n i : Nat) : HM (Mem (BF n)) := fun H =>
  match H.cells i with
  | some ⟨_, .elems k m⟩ => if h : k = n then some (h ▸ m, H) else none
  | _ => none

/-- The pointers of a live block. -/
def ptrs (i : Nat) : HM (Mem Ptr) := fun H =>
  match H.cells i with
  | some ⟨_, .ptrs m⟩ => some (m, H)
  | _ => none

/-- The structures of a live block. -/
def coms (i : Nat) : HM (Mem VcPtrs) := fun H =>
  match H.cells i with
  | some ⟨_, .coms m⟩ => some (m, H)
  | _ => none

/-- What kind of array a block is, and its length. -/
def Blk.shape : Blk → Nat × Nat × Nat
  | .bytes m => (0, 0, m.length)
  | .elems n m => (1, n, m.length)
  | .ptrs m => (2, 0, m.length)
  | .coms m => (3, 0, m.length)

/-- New contents of a live block.  They are of the kind and of the size which were allocated. -/
def put (i : Nat) (b : Blk) : HM Unit := fun H =>
  match H.cells i with
  | some c => if c.data.shape = b.shape then some ((), ⟨H.next, upd H.cells i (some ⟨c.aligned, b⟩)⟩) else none
  | none => none

/-- `for (i = 0; i < n; ++i) s = f(i, s)` on the heap. -/
def loop {S : Type} (n : Nat) (s : S) (f : Nat → S → HM S) : HM S := fun H =>
  forN n (s, H) (fun i t => f i t.1 t.2)

/-- A fresh array of `n` cells written in index order. -/
def collect {α : Type} (n : Nat) (f : Nat → HM α) : HM (List α) :=
  loop n [] (fun i l => do
    let a ← f i
    pure (l ++ [a]))

/-- `a[i]` for an array of pointers in block `a`: the bytes the pointer points to. -/
def deref (a i : Nat) : HM (Mem Byte) := do
  let p ← lft (rd (← ptrs a) i)
  let m ← bytes p.blk
  lft (ptr m p.off)

/-- `memcpy(a[i], l)` for an array of pointers in block `a`. -/
def store (a i : Nat) (l : List Byte) : HM Unit := do
  let p ← lft (rd (← ptrs a) i)
  let m ← bytes p.blk
  let m ← lft (wrN m p.off l)
  put p.blk (.bytes m)

/-- Store `l` at byte `off` of block `i`. -/
def storeAt (i off : Nat) (l : List Byte) : HM Unit := do
  let m ← bytes i
  let m ← lft (wrN m off l)
  put i (.bytes m)

/-- `free(a[0])` for an array of pointers in block `a`. -/
def freeFirst (a : Nat) : HM Unit := do
  let p ← lft (rd (← ptrs a) 0)
  if p.off = 0 then free false p.blk else lft none

/-! ### vc.c -/

/-- vc.c:67-76 `generate_seeds` with create_tree (31-40): returns the block of nodes. -/
def generateSeeds (rootSeed : Mem Byte) (iv : List Byte) (lambda depth : Nat) : HM Nat := do
  let numNodes ← lft (getBinaryTreeNodeCount depth)
  let nodes ← alloc ⟨false, .bytes (calloc (numNodes * (lambda / 8)) 0)⟩
  let root ← lft (rdN rootSeed 0 (lambda / 8))
  storeAt nodes 0 root
  let m ← bytes nodes
  let m ← lft (Flat.expandSeeds m numNodes iv lambda)
  put nodes (.bytes m)
  pure nodes

/-- vc.c:127-154: the leaves; `sd` and `com` are the contents of the two blocks. -/
def leaves (X : XOF) (lambda N numNodes : Nat) (iv : List Byte) (tree sd com : Mem Byte) :
    Option (Mem Byte × Mem Byte) := do
  let base := numNodes - N
  let idx : Nat → Option Nat := fun i => some (base + i)
  let (i, s) ← forStep (N / 4 * 4) 4 (N + 1) 0 (sd, com) (Flat.leafBody4 X lambda iv tree idx)
  let (_, s) ← forStep N 1 (N + 1) i s (Flat.leafBody1 X lambda iv tree idx)
  pure s

/-- vc.c:111-164 `vector_commitment`: the pointers written to `*vecCom`.  Four blocks stay allocated. -/
def vectorCommitment (X : XOF) (rootKey : Mem Byte) (iv : List Byte) (lambda depth : Nat) : HM VcPtrs := do
  let lambdaBytes := lambda / 8
  let N ← lft (if depth ≤ 30 then some (2 ^ depth) else none)
  let tree ← generateSeeds rootKey iv lambda depth
  let numNodes ← lft (getBinaryTreeNodeCount depth)
  let h ← alloc ⟨false, .bytes (malloc (lambdaBytes * 2))⟩
  let com ← alloc ⟨false, .bytes (malloc (N * lambdaBytes * 2))⟩
  let sd ← alloc ⟨false, .bytes (malloc (N * lambdaBytes))⟩
  let treeM ← bytes tree
  let comM ← bytes com
  let sdM ← bytes sd
  let s ← lft (leaves X lambda N numNodes iv treeM sdM comM)
  put sd (.bytes s.1)
  put com (.bytes s.2)
  let comM ← bytes com
  let ctx ← lft (forN N ([] : List Byte) (fun j ctx => do
    let c ← rdN comM (j * (lambdaBytes * 2)) (lambdaBytes * 2)
    pure (ctx ++ c)))
  storeAt h 0 (H1 X lambda ctx (lambdaBytes * 2))
  pure ⟨h, tree, com, sd⟩

/-- vc.c:318-323 `vec_com_clear`, 325-330 `vec_com_rec_clear`. -/
def vecComClear (c : VcPtrs) : HM Unit := do
  free false c.sd
  free false c.com
  free false c.k
  free false c.h

/-! ### vole.c -/

/-- vole.c:33-35: the first entry of the first row of `R`; `r` is the contents of the block. -/
def cvFirst (iv : List Byte) (sd : Mem Byte) (sd0Bot : Bool) (lambda outLen N : Nat) (r : Mem Byte) :
    Option (Mem Byte) :=
  if sd0Bot then some r
  else do
    let o ← prg sd (ofList iv) lambda outLen
    wrN r (rIdx N 0 0 * outLen) o

/-- vole.c:33-40: the first row of `R`. -/
def cvRow (iv : List Byte) (sd : Mem Byte) (sd0Bot : Bool) (lambda outLen N : Nat) (r : Mem Byte) :
    Option (Mem Byte) := do
  let r ← cvFirst iv sd sd0Bot lambda outLen N r
  forR 1 N r (fun i r => do
    let s ← ptr sd (lambda / 8 * i)
    let o ← prg s (ofList iv) lambda outLen
    wrN r (rIdx N 0 i * outLen) o)

/-- vole.c:42-49: the columns from `v + voff` and the rows of `R`. -/
def cvCols (N depth outLen : Nat) (v : Mem Byte) (voff : Nat) (r : Mem Byte) : Option (Mem Byte × Mem Byte) := do
  let v ← wrN v voff (List.replicate (depth * outLen) 0)
  forN depth (v, r) (fun j s =>
    forN (N / 2 ^ (j + 1)) s (fun i s => do
      let vj ← ptr s.1 (voff + j * outLen)
      let r1 ← ptr s.2 (rIdx N j (2 * i + 1) * outLen)
      let x ← xorArr vj r1 outLen
      let v ← wrN s.1 (voff + j * outLen) x
      let r0 ← ptr s.2 (rIdx N j (2 * i) * outLen)
      let r1 ← ptr s.2 (rIdx N j (2 * i + 1) * outLen)
      let y ← xorArr r0 r1 outLen
      let r ← wrN s.2 (rIdx N (j + 1) i * outLen) y
      pure (v, r)))

/-- vole.c:17-56 `ConvertToVole`; `sd` is a block, `u = none` is `NULL`. -/
def convertToVole (iv : List Byte) (sd : Nat) (sd0Bot : Bool) (lambda depth outLen : Nat) (u : Option Ptr)
    (v : Ptr) : HM Unit := do
  let N ← lft (if depth ≤ 30 then some (2 ^ depth) else none)
  let _ ← lft (u32 (2 * N))
  let _ ← lft (u32 (2 * N * outLen))
  let r ← alloc ⟨false, .bytes (calloc (2 * N * outLen) 0)⟩
  let sdM ← bytes sd
  let rM ← bytes r
  let rM ← lft (cvRow iv sdM sd0Bot lambda outLen N rM)
  put r (.bytes rM)
  let vM ← bytes v.blk
  let s ← lft (cvCols N depth outLen vM v.off rM)
  put v.blk (.bytes s.1)
  put r (.bytes s.2)
  match sd0Bot, u with
  | false, some u => do
    let rM ← bytes r
    let x ← lft (rdN rM (rIdx N depth 0 * outLen) outLen)
    storeAt u.blk u.off x
    free false r
  | _, _ => free false r

/-- vole.c:102-118: one iteration; the state is `v_idx` and the bytes hashed so far. -/
def voleCommitStep (X : XOF) (iv : List Byte) (P : Params) (ellhatBytes : Nat) (expanded ui vecCom v : Nat)
    (i : Nat) (s : Nat × List Byte) : HM (Nat × List Byte) := do
  let lambdaBytes := P.lambda / 8
  let depth := if i < P.t0 then P.k0 else P.k1
  let ex ← bytes expanded
  let key ← lft (ptr ex (i * lambdaBytes))
  let vc ← vectorCommitment X key iv P.lambda depth
  let cm ← coms vecCom
  let cm ← lft (wr cm i vc)
  put vecCom (.coms cm)
  let vc ← lft (rd (← coms vecCom) i)
  let p ← lft (rd (← ptrs v) s.1)
  convertToVole iv vc.sd false P.lambda depth ellhatBytes (some ⟨ui, i * ellhatBytes⟩) p
  let vc ← lft (rd (← coms vecCom) i)
  let h ← lft (rdN (← bytes vc.h) 0 (lambdaBytes * 2))
  pure (s.1 + depth, s.2 ++ h)

/-- vole.c:83-130 `vole_commit`; `vecCom`, `u` and `v` are blocks of the caller, the correction values go to the
signature `dst` at `offC`.  The result is `hcom` and the signature. -/
def voleCommit (X : XOF) (rootKey : Mem Byte) (iv : List Byte) (ellhat : Nat) (P : Params)
    (vecCom : Nat) (dst : Mem Byte) (offC : Nat) (u v : Nat) : HM (List Byte × Mem Byte) := do
  let lambdaBytes := P.lambda / 8
  let ellhatBytes := (ellhat + 7) / 8
  let _ ← lft (u32 (P.tau * ellhatBytes))
  let ui ← alloc ⟨false, .bytes (malloc (P.tau * ellhatBytes))⟩
  let expanded ← alloc ⟨false, .bytes (malloc (P.tau * lambdaBytes))⟩
  let ek ← lft (prg rootKey (ofList iv) P.lambda (lambdaBytes * P.tau))
  storeAt expanded 0 ek
  let s ← loop P.tau (0, []) (voleCommitStep X iv P ellhatBytes expanded ui vecCom v)
  free false expanded
  let u0 ← lft (rdN (← bytes ui) 0 ellhatBytes)
  storeAt u 0 u0
  let uM ← bytes u
  let uiM ← bytes ui
  let dst ← lft (forR 1 P.tau dst (fun i dst => do
    let p ← ptr uiM (i * ellhatBytes)
    let x ← xorArr uM p ellhatBytes
    wrN dst (offC + (i - 1) * ellhatBytes) x))
  free false ui
  pure (H1 X P.lambda s.2 (lambdaBytes * 2), dst)

/-- vole.c:159-184: one iteration of `vole_reconstruct`; the state is `q_idx` and the bytes hashed so far. -/
def voleRecStep (X : XOF) (iv : List Byte) (chall : Mem Byte) (pdec comj : Nat → Option (Mem Byte))
    (P : Params) (ellhatBytes : Nat) (vr : VcPtrs) (sd q : Nat) (i : Nat) (s : Nat × List Byte) :
    HM (Nat × List Byte) := do
  let lambdaBytes := P.lambda / 8
  let depth := if i < P.t0 then P.k0 else P.k1
  let N := 2 ^ depth
  let (_, chalout) ← lft (chalDec chall i P.k0 P.t0 P.k1 P.t1 (malloc MAX_DEPTH))
  let idx ← lft (numRec depth chalout)
  let pd ← lft (pdec i)
  let cj ← lft (comj i)
  let hM ← bytes vr.h
  let kM ← bytes vr.k
  let comM ← bytes vr.com
  let sM ← bytes vr.sd
  let r ← lft (Flat.vectorReconstruction X iv pd cj chalout P.lambda depth ⟨hM, kM, comM, sM⟩)
  put vr.h (.bytes r.h)
  put vr.k (.bytes r.k)
  put vr.com (.bytes r.com)
  put vr.sd (.bytes r.s)
  let sdM ← bytes sd
  let sM ← bytes vr.sd
  let sdM ← lft (forR 1 N sdM (fun j sdM => do
    let x ← rdN sM (lambdaBytes * Nat.xor j idx) lambdaBytes
    wrN sdM (j * lambdaBytes) x))
  put sd (.bytes sdM)
  let p ← lft (rd (← ptrs q) s.1)
  convertToVole iv sd true P.lambda depth ellhatBytes none p
  let h ← lft (rdN (← bytes vr.h) 0 (lambdaBytes * 2))
  pure (s.1 + depth, s.2 ++ h)

/-- vole.c:132-190 `vole_reconstruct`; `q` is a block of pointers of the caller, the result is `hcom`. -/
def voleReconstruct (X : XOF) (iv : List Byte) (chall : Mem Byte)
    (pdec comj : Nat → Option (Mem Byte)) (q : Nat) (ellhat : Nat) (P : Params) : HM (List Byte) := do
  let lambdaBytes := P.lambda / 8
  let ellhatBytes := (ellhat + 7) / 8
  let M := max P.k0 P.k1
  let nodes ← lft (getBinaryTreeNodeCount M)
  let _ ← lft (u32 (2 ^ M * lambdaBytes * 2))
  let sd ← alloc ⟨false, .bytes (malloc (2 ^ M * lambdaBytes))⟩
  storeAt sd 0 (List.replicate lambdaBytes 0)
  let h ← alloc ⟨false, .bytes (malloc (lambdaBytes * 2))⟩
  let k ← alloc ⟨false, .bytes (calloc (nodes * lambdaBytes) 0)⟩
  let com ← alloc ⟨false, .bytes (malloc (2 ^ M * lambdaBytes * 2))⟩
  let s ← alloc ⟨false, .bytes (malloc (2 ^ M * lambdaBytes))⟩
  let vr : VcPtrs := ⟨h, k, com, s⟩
  let r ← loop P.tau (0, []) (voleRecStep X iv chall pdec comj P ellhatBytes vr sd q)
  vecComClear vr
  free false sd
  pure (H1 X P.lambda r.2 (lambdaBytes * 2))

/-! ### faest_aes.c -/

/-- faest_aes.c:79-93 `column_to_row_major_and_shrink_V_128` (95-109, 111-125); `v` is a block of pointers.  The new
block is returned. -/
def columnToRowMajor (n : Nat) (v : Nat) (ell : Nat) : HM Nat := do
  let newV ← alloc ⟨true, .elems n (malloc (ell + n))⟩
  let rows ← collect (ell + n) (fun row => do
    let nr ← loop n (calloc (n / 8) 0) (fun column nr => do
      let col ← deref v column
      let b ← lft (ptrGetBit col row)
      lft (ptrSetBit nr b column))
    lft (bfLoad n nr 0))
  put newV (.elems n (ofList rows))
  pure newV

/-- faest_aes.c:284-332 `aes_key_schedule_constraints_Mkey_0_128` on the caller's buffers `k`, `vk`. -/
def ksConstraints0 {n : Nat} (P : Params) (w : Mem Byte) (v : Mem (BF n)) (k : Mem Byte) (vk : Mem (BF n))
    (ctx : ZkCtx n × ZkCtx n) : Option ((ZkCtx n × ZkCtx n) × Mem Byte × Mem (BF n)) := do
  let k ← ksForward1 P w k
  let vk ← ksForward P v vk
  let wd ← ksBackward1 P w (P.lambda / 8) k
  let vwd ← ksBackward P v P.lambda vk 1 0 none
  let (ctx, _) ← forN (P.Ske / 4) (ctx, 32 * (P.Nwd - 1), true) (ksConstr0Step P k vk wd vwd)
  pure (ctx, k, vk)

/-- faest_aes.c:334-362 `aes_key_schedule_constraints_Mkey_1_128` on the caller's buffer `qk`. -/
def ksConstraints1 {n : Nat} (P : Params) (q : Mem (BF n)) (delta : Mem Byte) (qk : Mem (BF n)) (ctx : ZkCtx n) :
    Option (ZkCtx n × Mem (BF n)) := do
  let qk ← ksForward P q qk
  let qwd ← ksBackward P q P.lambda qk 0 1 (some delta)
  let bfDelta ← bfLoad n delta 0
  let d2 := bfMul bfDelta bfDelta
  let (ctx, _) ← forN (P.Ske / 4) (ctx, 32 * (P.Nwd - 1), true) (ksConstr1Step P qk qwd d2)
  pure (ctx, qk)

/-- faest_aes.c:628-629: the two values of the prover; `u` and `v` are the contents of the blocks. -/
def proveFinish {n : Nat} (ctx : ZkCtx n × ZkCtx n) (u : Mem Byte) (v : Mem (BF n)) (ell : Nat) :
    Option (List Byte × List Byte) := do
  let a ← zkFinalize ctx.2 (← bfLoad n u (ell / 8))
  let b ← zkFinalize ctx.1 (← bfSumPoly (← ptr v ell))
  pure (a, b)

/-- faest_aes.c:598-632 `aes_prove_128`, 1072-1108 (192), 1563-1599 (256); `w`, `u` and `V` are blocks. -/
def aesProveN (n : Nat) (P : Params) (w u V : Nat) (inp out chall : Mem Byte) : HM (List Byte × List Byte) := do
  let bfV ← columnToRowMajor n V P.l
  let k ← alloc ⟨false, .bytes (malloc ((P.R + 1) * 128 / 8))⟩
  let vk ← alloc ⟨true, .elems n (malloc ((P.R + 1) * 128))⟩
  let a0 ← lft (zkInit n chall)
  let a1 ← lft (zkInit n chall)
  let wM ← bytes w
  let vM ← elems n bfV
  let kM ← bytes k
  let vkM ← elems n vk
  let r ← lft (ksConstraints0 P wM vM kM vkM (a0, a1))
  put k (.bytes r.2.1)
  put vk (.elems n r.2.2)
  let kM ← bytes k
  let vkM ← elems n vk
  let ctx ← lft (encConstraints0 P inp 0 out 0 wM (P.Lke / 8) vM P.Lke kM vkM r.1)
  let ctx ← lft (encConstraints0Snd P inp out wM vM kM vkM ctx)
  free true vk
  free false k
  let uM ← bytes u
  let vM ← elems n bfV
  let ab ← lft (proveFinish ctx uM vM P.l)
  free true bfV
  pure ab

/-- faest_aes.c:654-656 in the loop over the bits of one challenge part; `col` is the column counter. -/
def correctBit (d dec : Mem Byte) (nbytes Q : Nat) (j col : Nat) : HM Nat := do
  let b ← lft (rd dec j)
  if b = 1 then do
    let c ← deref Q col
    let x ← lft (xorArr d c nbytes)
    store Q col x
    pure (col + 1)
  else pure (col + 1)

/-- faest_aes.c:649-658: the columns of `Q` are corrected in place by `d` where the challenge bit is 1. -/
def correctQ (P : Params) (d : Mem Byte) (chall3 : Mem Byte) (nbytes : Nat) (Q : Nat) : HM Nat :=
  loop P.tau 0 (fun i col => do
    let depth := if i < P.t0 then P.k0 else P.k1
    let (_, dec) ← lft (chalDec chall3 i P.k0 P.t0 P.k1 P.t1 (malloc MAX_DEPTH))
    loop depth col (correctBit d dec nbytes Q))

/-- faest_aes.c:676-684, 1155-1163, 1645-1653, 1954-1962, 2263-2271, 2578-2586: the end of the verifier's functions;
`q_tilde` is returned as a new block, `bf_q` is freed. -/
def verifyFinish {n : Nat} (ctx : ZkCtx n) (bfQ : Nat) (ell : Nat) (aTilde delta : Mem Byte) : HM Nat := do
  let qTilde ← alloc ⟨false, .bytes (malloc (n / 8))⟩
  let qM ← elems n bfQ
  let qt ← lft (do zkFinalize ctx (← bfSumPoly (← ptr qM ell)))
  storeAt qTilde 0 qt
  free true bfQ
  let qtM ← bytes qTilde
  let x ← lft (bfLoad n qtM 0)
  let a ← lft (bfLoad n aTilde 0)
  let d ← lft (bfLoad n delta 0)
  storeAt qTilde 0 (bfAdd x (bfMul a d)).toBytes
  pure qTilde

/-- faest_aes.c:634-684 `aes_verify_128`, 1110-1163 (192), 1601-1653 (256). -/
def aesVerifyN (n : Nat) (P : Params) (d : Mem Byte) (Q : Nat) (chall2 chall3 aTilde inp out : Mem Byte) :
    HM Nat := do
  let _ ← correctQ P d chall3 ((P.l + 7) / 8) Q
  let bfQ ← columnToRowMajor n Q P.l
  let qk ← alloc ⟨true, .elems n (malloc ((P.R + 1) * 128))⟩
  let b0 ← lft (zkInit n chall2)
  let qM ← elems n bfQ
  let qkM ← elems n qk
  let r ← lft (ksConstraints1 P qM chall3 qkM b0)
  put qk (.elems n r.2)
  let qkM ← elems n qk
  let ctx ← lft (encConstraints1 P inp 0 out 0 qM P.Lke qkM chall3 r.1)
  let ctx ← lft (encConstraints1Snd P inp out qM qkM chall3 ctx)
  free true qk
  verifyFinish ctx bfQ P.l aTilde chall3

/-- faest_aes.c:1881-1910 `em_prove_128`, 2190-2219 (192), 2505-2534 (256). -/
def emProveN (n : Nat) (P : Params) (w u V : Nat) (inp out chall : Mem Byte) : HM (List Byte × List Byte) := do
  let x ← lft (emExpand P inp
    (if P.lambda = 128 then P.lambda * (P.R + 1) else P.lambda * (P.R + 1) / 8))
  let bfV ← columnToRowMajor n V P.Lenc
  let a0 ← lft (zkInit n chall)
  let a1 ← lft (zkInit n chall)
  let wM ← bytes w
  let vM ← elems n bfV
  let ctx ← lft (emConstraints0 P out x wM vM (a0, a1))
  let uM ← bytes u
  let ab ← lft (proveFinish ctx uM vM P.Lenc)
  free true bfV
  pure ab

/-- faest_aes.c:1851-1879 `em_enc_constraints_Mkey_1_128` (2160-2188, 2475-2503); `bf_q` is a block. -/
def emConstraints1 {n : Nat} (P : Params) (out x : Mem Byte) (bfQ : Nat) (delta : Mem Byte)
    (ctx : ZkCtx n) : HM (ZkCtx n) := do
  let bfDelta ← lft (bfLoad n delta 0)
  let bfX ← alloc ⟨true, .elems n (malloc (P.lambda * (P.R + 1)))⟩
  let bx ← lft (fill (P.lambda * (P.R + 1)) (fun i => do
    let b ← ptrGetBit x i
    pure (bfMulBit bfDelta b)))
  put bfX (.elems n bx)
  let qOut ← alloc ⟨true, .elems n (malloc P.lambda)⟩
  let q ← elems n bfQ
  let qo ← lft (fill P.lambda (fun i => do
    let b ← ptrGetBit out i
    pure (bfAdd (bfMulBit bfDelta b) (← rd q i))))
  put qOut (.elems n qo)
  let xM ← elems n bfX
  let qs ← lft (emForward P q (some xM))
  let qoM ← elems n qOut
  let qsd ← lft (emBackward P q (some xM) qoM 0 1 (some delta))
  free true qOut
  free true bfX
  lft (hashLoop1 P.Senc qs qsd (bfMul bfDelta bfDelta) ctx)

/-- faest_aes.c:1912-1962 `em_verify_128`, 2221-2271 (192), 2536-2586 (256). -/
def emVerifyN (n : Nat) (P : Params) (d : Mem Byte) (Q : Nat) (chall2 chall3 aTilde inp out : Mem Byte) :
    HM Nat := do
  let _ ← correctQ P d chall3 ((P.Lenc + 7) / 8) Q
  let bfQ ← columnToRowMajor n Q P.Lenc
  let x ← lft (emExpand P inp (P.lambda * (P.R + 1) / 8))
  let b0 ← lft (zkInit n chall2)
  let ctx ← emConstraints1 P out x bfQ chall3 b0
  verifyFinish ctx bfQ P.Lenc aTilde chall3

/-- faest_aes.c:2590-2615 `aes_prove`. -/
def aesProve (P : Params) (w u V : Nat) (inp out chall : Mem Byte) : HM (List Byte × List Byte) :=
  if P.Lke ≠ 0 then aesProveN (fieldBits P.lambda) P w u V inp out chall
  else emProveN (fieldBits P.lambda) P w u V inp out chall

/-- faest_aes.c:2617-2640 `aes_verify`: the block `b_tilde`. -/
def aesVerify (P : Params) (d : Mem Byte) (Q : Nat) (chall2 chall3 aTilde inp out : Mem Byte) : HM Nat :=
  if P.Lke ≠ 0 then aesVerifyN (fieldBits P.lambda) P d Q chall2 chall3 aTilde inp out
  else emVerifyN (fieldBits P.lambda) P d Q chall2 chall3 aTilde inp out

/-! ### aes.c -/

/-- aes.c:393-498 `aes_extend_witness` with the buffer `w` (line 400) as argument. -/
def extendInto (key inp : Mem Byte) (P : Params) (w : Mem Byte) : Option (Mem Byte) := do
  let key' := if P.Lke = 0 then inp else key
  let inp' := if P.Lke = 0 then key else inp
  let (rk, _) ← witnessSchedule P (witnessShape P).1 key'
  let (w, pos) ← witnessKey P rk inp' w
  let (w, _) ← forN (witnessShape P).2 (w, pos) (witnessBlock P (witnessShape P).1 rk inp')
  pure w

/-- aes.c:393-498 `aes_extend_witness`: the block `w`. -/
def aesExtendWitness (key inp : Mem Byte) (P : Params) : HM Nat := do
  let w ← alloc ⟨false, .bytes (malloc ((P.l + 7) / 8))⟩
  let wM ← bytes w
  let wM ← lft (extendInto key inp P wM)
  put w (.bytes wM)
  pure w

/-! ### faest.c -/

/-- faest.c:287-289: `V[i] = V[0] + i * stride`; `V[0]` must point into a live block with room for the sum. -/
def setColumn (a stride i : Nat) : HM Unit := do
  let m ← ptrs a
  let p ← lft (rd m 0)
  let b ← bytes p.blk
  let _ ← lft (ptr b (p.off + i * stride))
  let m ← lft (wr m i ⟨p.blk, p.off + i * stride⟩)
  put a (.ptrs m)

/-- faest.c:285-289, 381-385, 405-409, 411-415: an array of `n` pointers into one zeroed block of `n * stride` bytes;
the result is the block of pointers. -/
def columns (n stride : Nat) : HM Nat := do
  let a ← alloc ⟨false, .ptrs (malloc n)⟩
  let b ← alloc ⟨false, .bytes (calloc (n * stride) 0)⟩
  let m ← lft (wr (malloc n) 0 ⟨b, 0⟩)
  put a (.ptrs m)
  let _ ← loop (n - 1) () (fun i _ => setColumn a stride (i + 1))
  pure a

/-- faest.c:334-335, 446-447, 467-468, 480-481: `free(a[0]); free(a)`. -/
def freeColumns (a : Nat) : HM Unit := do
  freeFirst a
  free false a

/-- faest.c:308-313: one iteration of the loop hashing the columns of `V`. -/
def hashVStep (P : Params) (chall1 : Mem Byte) (V i : Nat) (ctx : List Byte) : HM (List Byte) := do
  let col ← deref V i
  let t ← lft (voleHash chall1 col P.l P.lambda)
  pure (ctx ++ t)

/-- faest.c:347-357: opening of vector commitment `i`, which is cleared afterwards. -/
def signOpenStep (P : Params) (vecCom : Nat) (i : Nat) (sig : Mem Byte) : HM (Mem Byte) := do
  let ch ← lft (ptr sig (offChall3 P))
  let (_, s_) ← lft (chalDec ch i P.k0 P.t0 P.k1 P.t1 (malloc MAX_DEPTH))
  let depth := if i < P.t0 then P.k0 else P.k1
  let cm ← coms vecCom
  let vc ← lft (rd cm i)
  let kM ← bytes vc.k
  let comM ← bytes vc.com
  let sig ← lft (Flat.vectorOpen kM comM s_ sig (offPdec P i) (offCom P i) depth (P.lambda / 8))
  vecComClear vc
  pure sig

/-- faest.c:251-360 `faest_sign`: the signature buffer after the call. -/
def faestSign (X : XOF) (P : Params) (sig : Mem Byte) (msg : Mem Byte) (msglen : Nat)
    (owfKey owfInput owfOutput : Mem Byte) (rho : Option (Mem Byte)) (rholen : Nat) : HM (Mem Byte) := do
  let lambdaBytes := P.lambda / 8
  let ellHat := P.l + P.lambda * 2 + UNIVERSAL_HASH_B_BITS
  let ellHatBytes := ellHat / 8
  let ellBytes := P.l / 8
  -- Step 2
  let inp ← lft (rdN owfInput 0 (P.pkSize / 2))
  let out ← lft (rdN owfOutput 0 (P.pkSize / 2))
  let m ← lft (rdN msg 0 msglen)
  let mu ← lft (Flat.stack (MAX_LAMBDA_BYTES * 2) (hashMu X inp out m P.lambda))
  -- Step 3
  let key ← lft (rdN owfKey 0 lambdaBytes)
  let mu2 ← lft (rdN mu 0 (lambdaBytes * 2))
  let r ← lft (rhoBytes rho rholen)
  let h3 := H3 X P.lambda (key ++ mu2 ++ r) lambdaBytes
  let rootkey ← lft (Flat.stack MAX_LAMBDA_BYTES h3.1)
  let sig ← lft (wrN sig (offIv P) h3.2)
  let vecCom ← alloc ⟨false, .coms (malloc P.tau)⟩
  let u ← alloc ⟨false, .bytes (malloc ellHatBytes)⟩
  let V ← columns P.lambda ellHatBytes
  let iv ← lft (rdN sig (offIv P) IV_SIZE)
  let (hc, sig) ← voleCommit X rootkey iv ellHat P vecCom sig (offC P 0) u V
  let hcom ← lft (Flat.stack (MAX_LAMBDA_BYTES * 2) hc)
  -- Step 4
  let c ← lft (rdN sig (offC P 0) ((P.l / 8 + lambdaBytes * 2 + UNIVERSAL_HASH_B) * (P.tau - 1)))
  let iv ← lft (rdN sig (offIv P) IV_SIZE)
  let mu2 ← lft (rdN mu 0 (lambdaBytes * 2))
  let hcom2 ← lft (rdN hcom 0 (lambdaBytes * 2))
  let chall1 ← lft (Flat.stack (5 * MAX_LAMBDA_BYTES + 8) (hashChallenge1 X mu2 hcom2 c iv P.lambda))
  -- Step 6
  let uM ← bytes u
  let ut ← lft (voleHash chall1 uM P.l P.lambda)
  let sig ← lft (wrN sig (offUTilde P) ut)
  -- Step 7, 8
  let ctx ← loop P.lambda [] (hashVStep P chall1 V)
  let hv ← lft (Flat.stack (MAX_LAMBDA_BYTES * 2) (H1 X P.lambda ctx (lambdaBytes * 2)))
  -- Step 9, 10
  let w ← aesExtendWitness owfKey owfInput P
  -- Step 11
  let wM ← bytes w
  let uM ← bytes u
  let d ← lft (xorArr wM uM ellBytes)
  let sig ← lft (wrN sig (offD P) d)
  -- Step 12
  let ch1 ← lft (rdN chall1 0 (5 * lambdaBytes + 8))
  let ut ← lft (rdN sig (offUTilde P) (lambdaBytes + UNIVERSAL_HASH_B))
  let hv2 ← lft (rdN hv 0 (2 * lambdaBytes))
  let d ← lft (rdN sig (offD P) ellBytes)
  let chall2 ← lft (Flat.stack (3 * MAX_LAMBDA_BYTES + 8) (hashChallenge2 X ch1 ut hv2 d P.lambda))
  -- Step 16
  let (a, b) ← aesProve P w u V owfInput owfOutput chall2
  let sig ← lft (wrN sig (offATilde P) a)
  let bTilde ← lft (Flat.stack MAX_LAMBDA_BYTES b)
  freeColumns V
  free false w
  free false u
  -- Step 17
  let ch2 ← lft (rdN chall2 0 (3 * lambdaBytes + 8))
  let a ← lft (rdN sig (offATilde P) lambdaBytes)
  let b ← lft (rdN bTilde 0 lambdaBytes)
  let sig ← lft (wrN sig (offChall3 P) (hashChallenge3 X ch2 a b P.lambda))
  -- Step 19..21
  let sig ← loop P.tau sig (signOpenStep P vecCom)
  free false vecCom
  pure sig

/-- faest.c:427-432: `Dtilde[Dtilde_idx]` for bit `j` of `delta`, with the assertion. -/
def dtildeStep (P : Params) (delta ut : Mem Byte) (dt : Nat) (j idx : Nat) : HM Nat :=
  if idx < P.lambda then do
    let x ← deref dt idx
    let b ← lft (rd delta j)
    let y ← lft (maskedXorArr x ut b (P.lambda / 8 + UNIVERSAL_HASH_B))
    store dt idx y
    pure (idx + 1)
  else lft none

/-- faest.c:440-443: `q[q_idx]` for bit `d` of `delta`. -/
def qCorrStep (qprime q : Nat) (ellHatBytes : Nat) (delta c : Mem Byte) (d qIdx : Nat) : HM Nat := do
  let x ← deref qprime qIdx
  let b ← lft (rd delta d)
  let y ← lft (maskedXorArr x c b ellHatBytes)
  store q qIdx y
  pure (qIdx + 1)

/-- faest.c:419-446: one iteration; the state is `Dtilde_idx` and `q_idx`. -/
def verifyStep (P : Params) (sig : Mem Byte) (qprime q dt : Nat) (i : Nat) (s : Nat × Nat) : HM (Nat × Nat) := do
  let ellHatBytes := (P.l + P.lambda * 2 + UNIVERSAL_HASH_B_BITS) / 8
  let depth := if i < P.t0 then P.k0 else P.k1
  let ch ← lft (ptr sig (dOffChall3 P))
  let (_, delta) ← lft (chalDec ch i P.k0 P.t0 P.k1 P.t1 (malloc MAX_DEPTH))
  let ut ← lft (ptr sig (dOffUTilde P))
  let dIdx ← loop depth s.1 (dtildeStep P delta ut dt)
  if i = 0 then do
    let src ← deref qprime s.2
    let cols ← lft (rdN src 0 (ellHatBytes * depth))
    store q s.2 cols
    pure (dIdx, s.2 + depth)
  else do
    let c ← lft (ptr sig (dOffC P (i - 1)))
    let qIdx ← loop depth s.2 (qCorrStep qprime q ellHatBytes delta c)
    pure (dIdx, qIdx)

/-- faest.c:457-463: one iteration of the loop hashing the columns of `Q`. -/
def hashQStep (P : Params) (chall1 : Mem Byte) (q dt i : Nat) (ctx : List Byte) : HM (List Byte) := do
  let col ← deref q i
  let t ← lft (voleHash chall1 col P.l P.lambda)
  let qt ← lft (Flat.stack (MAX_LAMBDA_BYTES + UNIVERSAL_HASH_B) t)
  let dm ← deref dt i
  let x ← lft (xorArr qt dm (P.lambda / 8 + UNIVERSAL_HASH_B))
  pure (ctx ++ x)

/-- faest.c:362-492 `faest_verify`: the returned value. -/
def faestVerify (X : XOF) (P : Params) (msg : Mem Byte) (msglen : Nat) (sig : Mem Byte)
    (owfInput owfOutput : Mem Byte) : HM Int := do
  let lambdaBytes := P.lambda / 8
  let ellHat := P.l + P.lambda * 2 + UNIVERSAL_HASH_B_BITS
  let ellHatBytes := ellHat / 8
  -- Step 3
  let inp ← lft (rdN owfInput 0 (P.pkSize / 2))
  let out ← lft (rdN owfOutput 0 (P.pkSize / 2))
  let m ← lft (rdN msg 0 msglen)
  let mu ← lft (Flat.stack (MAX_LAMBDA_BYTES * 2) (hashMu X inp out m P.lambda))
  -- Step 5
  let qprime ← columns P.lambda ellHatBytes
  let iv ← lft (rdN sig (dOffIv P) IV_SIZE)
  let ch ← lft (ptr sig (dOffChall3 P))
  let _ ← lft (tauFits P)
  let hc ← voleReconstruct X iv ch (fun i => ptr sig (dOffPdec P i)) (fun i => ptr sig (dOffCom P i)) qprime ellHat P
  let hcom ← lft (Flat.stack (MAX_LAMBDA_BYTES * 2) hc)
  let mu2 ← lft (rdN mu 0 (lambdaBytes * 2))
  let hcom2 ← lft (rdN hcom 0 (lambdaBytes * 2))
  let c ← lft (rdN sig (dOffC P 0) ((P.l / 8 + lambdaBytes * 2 + UNIVERSAL_HASH_B) * (P.tau - 1)))
  let chall1 ← lft (Flat.stack (5 * MAX_LAMBDA_BYTES + 8) (hashChallenge1 X mu2 hcom2 c iv P.lambda))
  -- Step 8..14
  let q ← columns P.lambda ellHatBytes
  let dt ← columns P.lambda (lambdaBytes + UNIVERSAL_HASH_B)
  let _ ← loop P.tau (0, 0) (verifyStep P sig qprime q dt)
  freeColumns qprime
  -- Step 15, 16
  let ctx ← loop P.lambda [] (hashQStep P chall1 q dt)
  let hv ← lft (Flat.stack (MAX_LAMBDA_BYTES * 2) (H1 X P.lambda ctx (lambdaBytes * 2)))
  freeColumns dt
  -- Step 17
  let ch1 ← lft (rdN chall1 0 (5 * lambdaBytes + 8))
  let ut ← lft (rdN sig (dOffUTilde P) (lambdaBytes + UNIVERSAL_HASH_B))
  let hv2 ← lft (rdN hv 0 (2 * lambdaBytes))
  let d ← lft (rdN sig (dOffD P) (P.l / 8))
  let chall2 ← lft (Flat.stack (3 * MAX_LAMBDA_BYTES + 8) (hashChallenge2 X ch1 ut hv2 d P.lambda))
  -- Step 18
  let dp ← lft (ptr sig (dOffD P))
  let ap ← lft (ptr sig (dOffATilde P))
  let bt ← aesVerify P dp q chall2 ch ap owfInput owfOutput
  freeColumns q
  -- Step 20
  let ch2 ← lft (rdN chall2 0 (3 * lambdaBytes + 8))
  let a ← lft (rdN sig (dOffATilde P) lambdaBytes)
  let bM ← bytes bt
  let b ← lft (rdN bM 0 lambdaBytes)
  let chall3 ← lft (Flat.stack MAX_LAMBDA_BYTES (hashChallenge3 X ch2 a b P.lambda))
  free false bt
  -- Step 21
  let c3 ← lft (rdN chall3 0 lambdaBytes)
  let sc ← lft (rdN sig (dOffChall3 P) lambdaBytes)
  pure (if c3 = sc then 0 else -1)

/-! ### faest_param.c.in -/

/-- faest_param.c.in:63-81 `faest_*_sign_with_randomness`. -/
def signWithRandomness (X : XOF) (i : ParamId) (sk : Option (Mem Byte)) (msg : Mem Byte) (msglen : Nat)
    (rho : Option (Mem Byte)) (rholen : Nat) (signature : Option (Mem Byte)) (len : Option Nat) : HM SignResult :=
  match sk, signature, len with
  | some sk, some sig, some n =>
    if n < (params i).sigSize ∨ (rho.isNone ∧ rholen ≠ 0) then
      pure ⟨-1, some sig, some n⟩
    else do
      let key ← lft (ptr sk (half (params i)))
      let (out, ok) ← lft (owf i key sk)
      let out ← lft (wrN (malloc (half (params i))) 0 out)
      if !ok then pure ⟨-1, some sig, some n⟩
      else do
        let sig ← faestSign X (params i) sig msg msglen key sk out rho rholen
        pure ⟨0, some sig, some (params i).sigSize⟩
  | _, sg, n => pure ⟨-1, sg, n⟩

/-- faest_param.c.in:94-101 `faest_*_verify`. -/
def verify (X : XOF) (i : ParamId) (pk : Option (Mem Byte)) (msg : Mem Byte) (msglen : Nat)
    (signature : Option (Mem Byte)) (len : Nat) : HM Int :=
  match pk, signature with
  | some pk, some sig =>
    if len ≠ (params i).sigSize then pure (-1)
    else do
      let out ← lft (ptr pk (half (params i)))
      faestVerify X (params i) msg msglen sig pk out
  | _, _ => pure (-1)

end Faest.Heap
