/-
Byte-addressed buffers: vc.c, vole.c, faest_aes.c and faest.c once more.

In Model/Vc.lean, Model/Vole.lean, Model/FaestAes.lean and Model/Faest.lean the tree nodes, seeds, leaf
commitments and VOLE columns are elements of arrays of byte strings.  Here every one of these buffers is one
array of bytes as in the C code, and all accesses are at the byte offsets the C code computes.
-/
import Verif.Model.Api

namespace Faest.Flat

/-! ### vc.c -/

/-- vc.c:51-65 `expand_seeds`, vc.c:24 `NODE`. -/
def expandSeeds (nodes : Mem Byte) (numNodes : Nat) (iv : List Byte) (lambda : Nat) : Option (Mem Byte) := do
  let lambdaBytes := lambda / 8
  let lastNonLeaf ← getParent (numNodes - 1)
  if 2 * lastNonLeaf + 2 < numNodes then
    forN (lastNonLeaf + 1) nodes (fun i nodes => do
      let key ← ptr nodes (i * lambdaBytes)
      let out ← prg key (ofList iv) lambda (lambdaBytes * 2)
      wrN nodes ((2 * i + 1) * lambdaBytes) out)
  else none

/-- vc.c:67-76 `generate_seeds` with create_tree (31-40). -/
def generateSeeds (rootSeed : Mem Byte) (iv : List Byte) (lambda depth : Nat) : Option (Mem Byte) := do
  let numNodes ← getBinaryTreeNodeCount depth
  let nodes : Mem Byte := calloc (numNodes * (lambda / 8)) 0
  let root ← rdN rootSeed 0 (lambda / 8)
  let nodes ← wrN nodes 0 root
  expandSeeds nodes numNodes iv lambda

/-- vc.h:17-22 `vec_com_t`. -/
structure VecCom where
  h : Mem Byte
  k : Mem Byte
  com : Mem Byte
  sd : Mem Byte

/-- vc.c:148-154 and the same lines of vector_reconstruction (237-242, 247-252, 269-274); `node` is the index of
the node in `tree`. -/
def leafBody1 (X : XOF) (lambda : Nat) (iv : List Byte) (tree : Mem Byte) (idx : Nat → Option Nat) (i : Nat)
    (s : Mem Byte × Mem Byte) : Option (Mem Byte × Mem Byte) := do
  let lambdaBytes := lambda / 8
  let n ← rdN tree ((← idx i) * lambdaBytes) lambdaBytes
  let r := H0 X lambda (n ++ iv) lambdaBytes (lambdaBytes * 2)
  let sd ← wrN s.1 (i * lambdaBytes) r.1
  let com ← wrN s.2 (i * lambdaBytes * 2) r.2
  pure (sd, com)

/-- vc.c:133-145 and the same lines of vector_reconstruction (220-234, 255-267). -/
def leafBody4 (X : XOF) (lambda : Nat) (iv : List Byte) (tree : Mem Byte) (idx : Nat → Option Nat) (i : Nat)
    (s : Mem Byte × Mem Byte) : Option (Mem Byte × Mem Byte) := do
  let lambdaBytes := lambda / 8
  let n0 ← rdN tree ((← idx i) * lambdaBytes) lambdaBytes
  let n1 ← rdN tree ((← idx (i + 1)) * lambdaBytes) lambdaBytes
  let n2 ← rdN tree ((← idx (i + 2)) * lambdaBytes) lambdaBytes
  let n3 ← rdN tree ((← idx (i + 3)) * lambdaBytes) lambdaBytes
  let r := H0x4 X lambda
    (fun c => (if c = 0 then n0 else if c = 1 then n1 else if c = 2 then n2 else n3) ++ iv)
    lambdaBytes (lambdaBytes * 2)
  let sd ← wrN s.1 (i * lambdaBytes) (r 0).1
  let sd ← wrN sd ((i + 1) * lambdaBytes) (r 1).1
  let sd ← wrN sd ((i + 2) * lambdaBytes) (r 2).1
  let sd ← wrN sd ((i + 3) * lambdaBytes) (r 3).1
  let com ← wrN s.2 (i * lambdaBytes * 2) (r 0).2
  let com ← wrN com ((i + 1) * lambdaBytes * 2) (r 1).2
  let com ← wrN com ((i + 2) * lambdaBytes * 2) (r 2).2
  let com ← wrN com ((i + 3) * lambdaBytes * 2) (r 3).2
  pure (sd, com)

/-- vc.c:111-164 `vector_commitment`. -/
def vectorCommitment (X : XOF) (rootKey : Mem Byte) (iv : List Byte) (lambda depth : Nat) : Option VecCom := do
  let lambdaBytes := lambda / 8
  let N ← if depth ≤ 30 then some (2 ^ depth) else none
  let tree ← generateSeeds rootKey iv lambda depth
  let numNodes ← getBinaryTreeNodeCount depth
  let h : Mem Byte := malloc (lambdaBytes * 2)
  let com : Mem Byte := malloc (N * lambdaBytes * 2)
  let sd : Mem Byte := malloc (N * lambdaBytes)
  let base := numNodes - N
  let idx : Nat → Option Nat := fun i => some (base + i)
  let (i, s) ← forStep (N / 4 * 4) 4 (N + 1) 0 (sd, com) (leafBody4 X lambda iv tree idx)
  let (_, s) ← forStep N 1 (N + 1) i s (leafBody1 X lambda iv tree idx)
  let ctx ← forN N ([] : List Byte) (fun j ctx => do
    let c ← rdN s.2 (j * (lambdaBytes * 2)) (lambdaBytes * 2)
    pure (ctx ++ c))
  let h ← wrN h 0 (H1 X lambda ctx (lambdaBytes * 2))
  pure { h := h, k := tree, com := s.2, sd := s.1 }

/-- vc.c:166-181 `vector_open`, writing `cop` at `dst + offCop` and `com_j` at `dst + offCom`. -/
def vectorOpen (k com : Mem Byte) (b : Mem Byte) (dst : Mem Byte) (offCop offCom : Nat)
    (depth lambdaBytes : Nat) : Option (Mem Byte) := do
  let leafIndex ← numRec depth b
  let (dst, _) ← forN depth (dst, 0) (fun i (s : Mem Byte × Nat) => do
    let bit ← rd b (depth - 1 - i)
    let node ← rdN k (lambdaBytes * (← getNodeIndex (i + 1) (2 * s.2 + cNot bit))) lambdaBytes
    let dst ← wrN s.1 (offCop + lambdaBytes * i) node
    pure (dst, 2 * s.2 + bit.toNat))
  let c ← rdN com (leafIndex * lambdaBytes * 2) (lambdaBytes * 2)
  wrN dst offCom c

/-- vc.h:24-29 `vec_com_rec_t`. -/
structure VecComRec where
  h : Mem Byte
  k : Mem Byte
  com : Mem Byte
  s : Mem Byte

/-- vc.c:200-213: inner loop of the reconstruction at level `i`; `out[2 * MAX_LAMBDA_BYTES]` is on the stack. -/
def reconLevel (iv : List Byte) (lambda i a : Nat) (k : Mem Byte) : Option (Mem Byte) :=
  forN (2 ^ (i - 1)) k (fun j k =>
    if j = a then some k
    else do
      let lambdaBytes := lambda / 8
      let key ← ptr k (lambdaBytes * (← getNodeIndex (i - 1) j))
      let o ← prg key (ofList iv) lambda (lambdaBytes * 2)
      let out ← wrN (malloc (2 * MAX_LAMBDA_BYTES)) 0 o
      let o0 ← rdN out 0 lambdaBytes
      let k ← wrN k (lambdaBytes * (← getNodeIndex i (2 * j))) o0
      let o1 ← rdN out lambdaBytes lambdaBytes
      wrN k (lambdaBytes * (← getNodeIndex i (2 * j + 1))) o1)

/-- vc.c:191-216: the tree part of `vector_reconstruction`. -/
def reconTree (iv : List Byte) (cop : Mem Byte) (b : Mem Byte) (lambda depth : Nat) (k : Mem Byte) :
    Option (Mem Byte) := do
  let (k, _) ← forR 1 (depth + 1) (k, 0) (fun i (s : Mem Byte × Nat) => do
    let bit ← rd b (depth - i)
    let c ← rdN cop (lambda / 8 * (i - 1)) (lambda / 8)
    let k ← wrN s.1 (lambda / 8 * (← getNodeIndex i (2 * s.2 + cNot bit))) c
    let k ← wrN k (lambda / 8 * (← getNodeIndex i (2 * s.2 + bit.toNat))) (List.replicate (lambda / 8) 0)
    let k ← reconLevel iv lambda i s.2 k
    pure (k, s.2 * 2 + bit.toNat))
  pure k

/-- vc.c:183-284 `vector_reconstruction` on the caller's buffers. -/
def vectorReconstruction (X : XOF) (iv : List Byte) (cop comj : Mem Byte) (b : Mem Byte)
    (lambda depth : Nat) (rec : VecComRec) : Option VecComRec := do
  let lambdaBytes := lambda / 8
  let N ← if depth ≤ 30 then some (2 ^ depth) else none
  let leafIndex ← numRec depth b
  let k ← reconTree iv cop b lambda depth rec.k
  let idx : Nat → Option Nat := fun j => getNodeIndex depth j
  let (j, s) ← forStep (leafIndex / 4 * 4) 4 (N + 1) 0 (rec.s, rec.com) (leafBody4 X lambda iv k idx)
  let (j, s) ← forStep leafIndex 1 (N + 1) j s (leafBody1 X lambda iv k idx)
  let j := j + 1
  let (j, s) ← forUntil4 N (N + 1) j s (leafBody1 X lambda iv k idx)
  let (j, s) ← forStep (N / 4 * 4) 4 (N + 1) j s (leafBody4 X lambda iv k idx)
  let (_, s) ← forStep N 1 (N + 1) j s (leafBody1 X lambda iv k idx)
  let c ← rdN comj 0 (lambdaBytes * 2)
  let com ← wrN s.2 (lambdaBytes * 2 * leafIndex) c
  let coms ← rdN com 0 (lambdaBytes * 2 * N)
  let h ← wrN rec.h 0 (H1 X lambda coms (lambdaBytes * 2))
  pure { h := h, k := k, com := com, s := s.1 }

/-! ### vole.c -/

/-- vole.c:30-40: `R(row, column)` is `r + (((row) % 2) * num_instances + (column)) * outLenBytes`. -/
def cvInit (iv : List Byte) (sd : Mem Byte) (sd0Bot : Bool) (lambda outLen N : Nat) : Option (Mem Byte) :=
  let r : Mem Byte := calloc (2 * N * outLen) 0
  if sd0Bot then some r
  else do
    let o ← prg sd (ofList iv) lambda outLen
    wrN r (rIdx N 0 0 * outLen) o

/-- vole.c:17-56 `ConvertToVole`; `v` points to byte `voff` of a buffer.  The result has the value copied to `u`. -/
def convertToVole (iv : List Byte) (sd : Mem Byte) (sd0Bot : Bool) (lambda depth outLen : Nat)
    (v : Mem Byte) (voff : Nat) : Option (Mem Byte × Option (List Byte)) := do
  let N ← if depth ≤ 30 then some (2 ^ depth) else none
  let _ ← u32 (2 * N)
  let _ ← u32 (2 * N * outLen)
  let r ← cvInit iv sd sd0Bot lambda outLen N
  let r ← forR 1 N r (fun i r => do
    let s ← ptr sd (lambda / 8 * i)
    let o ← prg s (ofList iv) lambda outLen
    wrN r (rIdx N 0 i * outLen) o)
  let v ← wrN v voff (List.replicate (depth * outLen) 0)
  let (v, r) ← forN depth (v, r) (fun j s =>
    forN (N / 2 ^ (j + 1)) s (fun i s => do
      let vj ← ptr s.1 (voff + j * outLen)
      let r1 ← ptr s.2 (rIdx N j (2 * i + 1) * outLen)
      let x ← xorArr vj r1 outLen
      let v ← wrN s.1 (voff + j * outLen) x
      let r0 ← ptr s.2 (rIdx N j (2 * i) * outLen)
      let r1 ← ptr s.2 (rIdx N j (2 * i + 1) * outLen)
      let y ← xorArr r0 r1 outLen
      let r ← wrN s.2 (rIdx N (j + 1) i * outLen) y
      pure (v, r)))
  if sd0Bot then pure (v, none)
  else do
    let u ← rdN r (rIdx N depth 0 * outLen) outLen
    pure (v, some u)

/-- State of the main loop of `vole_commit` (vole.c:104-119). -/
structure VoleCommitSt where
  vecCom : List VecCom
  ui : Mem Byte
  v : Mem Byte
  vIdx : Nat
  ctx : List Byte

/-- vole.c:104-119: one iteration; `v[v_idx]` is `v[0] + v_idx * ell_hat_bytes` (faest.c:278-282). -/
def voleCommitStep (X : XOF) (iv : List Byte) (P : Params) (ellhatBytes : Nat) (expanded : Mem Byte)
    (i : Nat) (s : VoleCommitSt) : Option VoleCommitSt := do
  let lambdaBytes := P.lambda / 8
  let depth := if i < P.t0 then P.k0 else P.k1
  let key ← ptr expanded (i * lambdaBytes)
  let vc ← vectorCommitment X key iv P.lambda depth
  let (v, u) ← convertToVole iv vc.sd false P.lambda depth ellhatBytes s.v (s.vIdx * ellhatBytes)
  let ui ← wrN s.ui (i * ellhatBytes) (← u)
  let h ← rdN vc.h 0 (lambdaBytes * 2)
  pure { vecCom := s.vecCom ++ [vc], ui := ui, v := v, vIdx := s.vIdx + depth, ctx := s.ctx ++ h }

/-- Result of `vole_commit`. -/
structure VoleCom where
  hcom : List Byte
  vecCom : List VecCom
  u : Mem Byte
  v : Mem Byte

/-- vole.c:83-130 `vole_commit`; the correction values go to `dst + offC`, `u` is the caller's buffer. -/
def voleCommit (X : XOF) (rootKey : Mem Byte) (iv : List Byte) (ellhat : Nat) (P : Params)
    (dst : Mem Byte) (offC : Nat) (u v : Mem Byte) : Option (VoleCom × Mem Byte) := do
  let lambdaBytes := P.lambda / 8
  let ellhatBytes := (ellhat + 7) / 8
  let _ ← u32 (P.tau * ellhatBytes)
  let ui : Mem Byte := malloc (P.tau * ellhatBytes)
  let ek ← prg rootKey (ofList iv) P.lambda (lambdaBytes * P.tau)
  let expanded ← wrN (malloc (P.tau * lambdaBytes)) 0 ek
  let s ← forN P.tau { vecCom := [], ui := ui, v := v, vIdx := 0, ctx := [] }
    (voleCommitStep X iv P ellhatBytes expanded)
  let u0 ← rdN s.ui 0 ellhatBytes
  let u ← wrN u 0 u0
  let dst ← forR 1 P.tau dst (fun i dst => do
    let p ← ptr s.ui (i * ellhatBytes)
    let x ← xorArr u p ellhatBytes
    wrN dst (offC + (i - 1) * ellhatBytes) x)
  pure ({ hcom := H1 X P.lambda s.ctx (lambdaBytes * 2), vecCom := s.vecCom, u := u, v := s.v }, dst)

/-- State of the main loop of `vole_reconstruct`. -/
structure VoleRecSt where
  vrec : VecComRec
  sd : Mem Byte
  q : Mem Byte
  qIdx : Nat
  ctx : List Byte

/-- vole.c:159-184: one iteration of `vole_reconstruct`. -/
def voleRecStep (X : XOF) (iv : List Byte) (chall : Mem Byte) (pdec comj : Nat → Option (Mem Byte))
    (P : Params) (ellhatBytes : Nat) (i : Nat) (s : VoleRecSt) : Option VoleRecSt := do
  let lambdaBytes := P.lambda / 8
  let depth := if i < P.t0 then P.k0 else P.k1
  let N := 2 ^ depth
  let (_, chalout) ← chalDec chall i P.k0 P.t0 P.k1 P.t1 (malloc MAX_DEPTH)
  let idx ← numRec depth chalout
  let pd ← pdec i
  let cj ← comj i
  let vr ← vectorReconstruction X iv pd cj chalout P.lambda depth s.vrec
  let sd ← forR 1 N s.sd (fun j sd => do
    let x ← rdN vr.s (lambdaBytes * Nat.xor j idx) lambdaBytes
    wrN sd (j * lambdaBytes) x)
  let (q, _) ← convertToVole iv sd true P.lambda depth ellhatBytes s.q (s.qIdx * ellhatBytes)
  let h ← rdN vr.h 0 (lambdaBytes * 2)
  pure { vrec := vr, sd := sd, q := q, qIdx := s.qIdx + depth, ctx := s.ctx ++ h }

/-- vole.c:132-190 `vole_reconstruct`; result: `hcom` and the columns `q`. -/
def voleReconstruct (X : XOF) (iv : List Byte) (chall : Mem Byte)
    (pdec comj : Nat → Option (Mem Byte)) (q : Mem Byte) (ellhat : Nat) (P : Params) :
    Option (List Byte × Mem Byte) := do
  let lambdaBytes := P.lambda / 8
  let ellhatBytes := (ellhat + 7) / 8
  let M := max P.k0 P.k1
  let nodes ← getBinaryTreeNodeCount M
  let _ ← u32 (2 ^ M * lambdaBytes * 2)
  let sd ← wrN (malloc (2 ^ M * lambdaBytes)) 0 (List.replicate lambdaBytes 0)
  let vr : VecComRec :=
    { h := malloc (lambdaBytes * 2), k := calloc (nodes * lambdaBytes) 0,
      com := malloc (2 ^ M * lambdaBytes * 2), s := malloc (2 ^ M * lambdaBytes) }
  let s ← forN P.tau { vrec := vr, sd := sd, q := q, qIdx := 0, ctx := [] }
    (voleRecStep X iv chall pdec comj P ellhatBytes)
  pure (H1 X P.lambda s.ctx (lambdaBytes * 2), s.q)

/-! ### faest_aes.c -/

/-- faest_aes.c:79-93 `column_to_row_major_and_shrink_V_128` (95-109, 111-125); `v[column]` is
`v[0] + column * stride`. -/
def columnToRowMajor (n : Nat) (v : Mem Byte) (stride ell : Nat) : Option (Mem (BF n)) :=
  fill (ell + n) (fun row => do
    let nr ← forN n (calloc (n / 8) 0) (fun column nr => do
      let col ← ptr v (column * stride)
      let b ← ptrGetBit col row
      ptrSetBit nr b column)
    bfLoad n nr 0)

/-- faest_aes.c:598-632 `aes_prove_128`, 1072-1108 (192), 1563-1599 (256). -/
def aesProveN (n : Nat) (P : Params) (w u V : Mem Byte) (stride : Nat) (inp out chall : Mem Byte) :
    Option (List Byte × List Byte) := do
  let v ← columnToRowMajor n V stride P.l
  let a0 ← zkInit n chall
  let a1 ← zkInit n chall
  let (ctx, k, vk) ← ksConstraints0 P w v (a0, a1)
  let ctx ← encConstraints0 P inp 0 out 0 w (P.Lke / 8) v P.Lke k vk ctx
  let ctx ← encConstraints0Snd P inp out w v k vk ctx
  let a ← zkFinalize ctx.2 (← bfLoad n u (P.l / 8))
  let b ← zkFinalize ctx.1 (← bfSumPoly (← ptr v P.l))
  pure (a, b)

/-- faest_aes.c:649-658: the columns of `Q` are corrected in place by `d` where the challenge bit is 1. -/
def correctQ (P : Params) (d : Mem Byte) (chall3 : Mem Byte) (nbytes : Nat) (Q : Mem Byte) (stride : Nat) :
    Option (Mem Byte) := do
  let (Q, _) ← forN P.tau (Q, 0) (fun i (s : Mem Byte × Nat) => do
    let depth := if i < P.t0 then P.k0 else P.k1
    let (_, dec) ← chalDec chall3 i P.k0 P.t0 P.k1 P.t1 (malloc MAX_DEPTH)
    forN depth s (fun j s => do
      let b ← rd dec j
      if b = 1 then do
        let col ← ptr s.1 (s.2 * stride)
        let x ← xorArr d col nbytes
        let Q ← wrN s.1 (s.2 * stride) x
        pure (Q, s.2 + 1)
      else pure (s.1, s.2 + 1)))
  pure Q

/-- faest_aes.c:634-684 `aes_verify_128`, 1110-1163 (192), 1601-1653 (256). -/
def aesVerifyN (n : Nat) (P : Params) (d Q : Mem Byte) (stride : Nat)
    (chall2 chall3 aTilde inp out : Mem Byte) : Option (List Byte) := do
  let Q ← correctQ P d chall3 ((P.l + 7) / 8) Q stride
  let q ← columnToRowMajor n Q stride P.l
  let b0 ← zkInit n chall2
  let (ctx, qk) ← ksConstraints1 P q chall3 b0
  let ctx ← encConstraints1 P inp 0 out 0 q P.Lke qk chall3 ctx
  let ctx ← encConstraints1Snd P inp out q qk chall3 ctx
  verifyFinish ctx q P.l aTilde chall3

/-- faest_aes.c:1881-1910 `em_prove_128`, 2190-2219 (192), 2505-2534 (256). -/
def emProveN (n : Nat) (P : Params) (w u V : Mem Byte) (stride : Nat) (inp out chall : Mem Byte) :
    Option (List Byte × List Byte) := do
  let x ← emExpand P inp
    (if P.lambda = 128 then P.lambda * (P.R + 1) else P.lambda * (P.R + 1) / 8)
  let v ← columnToRowMajor n V stride P.Lenc
  let a0 ← zkInit n chall
  let a1 ← zkInit n chall
  let ctx ← emConstraints0 P out x w v (a0, a1)
  let a ← zkFinalize ctx.2 (← bfLoad n u (P.Lenc / 8))
  let b ← zkFinalize ctx.1 (← bfSumPoly (← ptr v P.Lenc))
  pure (a, b)

/-- faest_aes.c:1912-1962 `em_verify_128`, 2221-2271 (192), 2536-2586 (256). -/
def emVerifyN (n : Nat) (P : Params) (d Q : Mem Byte) (stride : Nat)
    (chall2 chall3 aTilde inp out : Mem Byte) : Option (List Byte) := do
  let Q ← correctQ P d chall3 ((P.Lenc + 7) / 8) Q stride
  let q ← columnToRowMajor n Q stride P.Lenc
  let x ← emExpand P inp (P.lambda * (P.R + 1) / 8)
  let b0 ← zkInit n chall2
  let ctx ← emConstraints1 P out x q chall3 b0
  verifyFinish ctx q P.Lenc aTilde chall3

/-- faest_aes.c:2590-2615 `aes_prove`. -/
def aesProve (P : Params) (w u V : Mem Byte) (stride : Nat) (inp out chall : Mem Byte) :
    Option (List Byte × List Byte) :=
  if P.Lke ≠ 0 then aesProveN (fieldBits P.lambda) P w u V stride inp out chall
  else emProveN (fieldBits P.lambda) P w u V stride inp out chall

/-- faest_aes.c:2617-2640 `aes_verify`. -/
def aesVerify (P : Params) (d Q : Mem Byte) (stride : Nat)
    (chall2 chall3 aTilde inp out : Mem Byte) : Option (List Byte) :=
  if P.Lke ≠ 0 then aesVerifyN (fieldBits P.lambda) P d Q stride chall2 chall3 aTilde inp out
  else emVerifyN (fieldBits P.lambda) P d Q stride chall2 chall3 aTilde inp out

/-! ### faest.c -/

/-- faest.c:308-313: one iteration of the loop hashing the columns of `V`. -/
def hashVStep (P : Params) (chall1 : Mem Byte) (V : Mem Byte) (stride i : Nat) (ctx : List Byte) :
    Option (List Byte) := do
  let col ← ptr V (i * stride)
  let t ← voleHash chall1 col P.l P.lambda
  pure (ctx ++ t)

/-- faest.c:347-356: opening of vector commitment `i`. -/
def signOpenStep (P : Params) (vecCom : List VecCom) (i : Nat) (sig : Mem Byte) : Option (Mem Byte) := do
  let ch ← ptr sig (offChall3 P)
  let (_, s_) ← chalDec ch i P.k0 P.t0 P.k1 P.t1 (malloc MAX_DEPTH)
  let depth := if i < P.t0 then P.k0 else P.k1
  let vc ← vecCom[i]?
  vectorOpen vc.k vc.com s_ sig (offPdec P i) (offCom P i) depth (P.lambda / 8)

/-- Store `l` at the start of a fresh array of `n` bytes on the stack. -/
def stack (n : Nat) (l : List Byte) : Option (Mem Byte) := wrN (malloc n) 0 l

/-- faest.c:251-360 `faest_sign`: the signature buffer after the call.  The arrays on the stack have the sizes of
the C code. -/
def faestSign (X : XOF) (P : Params) (sig : Mem Byte) (msg : Mem Byte) (msglen : Nat)
    (owfKey owfInput owfOutput : Mem Byte) (rho : Option (Mem Byte)) (rholen : Nat) :
    Option (Mem Byte) := do
  let lambdaBytes := P.lambda / 8
  let ellHat := P.l + P.lambda * 2 + UNIVERSAL_HASH_B_BITS
  let ellHatBytes := ellHat / 8
  let ellBytes := P.l / 8
  -- Step 2
  let inp ← rdN owfInput 0 (P.pkSize / 2)
  let out ← rdN owfOutput 0 (P.pkSize / 2)
  let m ← rdN msg 0 msglen
  let mu ← stack (MAX_LAMBDA_BYTES * 2) (hashMu X inp out m P.lambda)
  -- Step 3
  let key ← rdN owfKey 0 lambdaBytes
  let mu2 ← rdN mu 0 (lambdaBytes * 2)
  let r ← rhoBytes rho rholen
  let h3 := H3 X P.lambda (key ++ mu2 ++ r) lambdaBytes
  let rootkey ← stack MAX_LAMBDA_BYTES h3.1
  let sig ← wrN sig (offIv P) h3.2
  let iv ← rdN sig (offIv P) IV_SIZE
  let (vcom, sig) ← voleCommit X rootkey iv ellHat P sig (offC P 0) (malloc ellHatBytes)
    (calloc (P.lambda * ellHatBytes) 0)
  let hcom ← stack (MAX_LAMBDA_BYTES * 2) vcom.hcom
  -- Step 4
  let c ← rdN sig (offC P 0) ((P.l / 8 + lambdaBytes * 2 + UNIVERSAL_HASH_B) * (P.tau - 1))
  let iv ← rdN sig (offIv P) IV_SIZE
  let mu2 ← rdN mu 0 (lambdaBytes * 2)
  let hcom2 ← rdN hcom 0 (lambdaBytes * 2)
  let chall1 ← stack (5 * MAX_LAMBDA_BYTES + 8) (hashChallenge1 X mu2 hcom2 c iv P.lambda)
  -- Step 6
  let ut ← voleHash chall1 vcom.u P.l P.lambda
  let sig ← wrN sig (offUTilde P) ut
  -- Step 7, 8
  let ctx ← forN P.lambda [] (hashVStep P chall1 vcom.v ellHatBytes)
  let hv ← stack (MAX_LAMBDA_BYTES * 2) (H1 X P.lambda ctx (lambdaBytes * 2))
  -- Step 9, 10
  let w ← aesExtendWitness owfKey owfInput P
  -- Step 11
  let d ← xorArr w vcom.u ellBytes
  let sig ← wrN sig (offD P) d
  -- Step 12
  let ch1 ← rdN chall1 0 (5 * lambdaBytes + 8)
  let ut ← rdN sig (offUTilde P) (lambdaBytes + UNIVERSAL_HASH_B)
  let hv2 ← rdN hv 0 (2 * lambdaBytes)
  let d ← rdN sig (offD P) ellBytes
  let chall2 ← stack (3 * MAX_LAMBDA_BYTES + 8) (hashChallenge2 X ch1 ut hv2 d P.lambda)
  -- Step 16
  let (a, b) ← aesProve P w vcom.u vcom.v ellHatBytes owfInput owfOutput chall2
  let sig ← wrN sig (offATilde P) a
  let bTilde ← stack MAX_LAMBDA_BYTES b
  -- Step 17
  let ch2 ← rdN chall2 0 (3 * lambdaBytes + 8)
  let a ← rdN sig (offATilde P) lambdaBytes
  let b ← rdN bTilde 0 lambdaBytes
  let sig ← wrN sig (offChall3 P) (hashChallenge3 X ch2 a b P.lambda)
  -- Step 19..21
  forN P.tau sig (signOpenStep P vcom.vecCom)

/-- State of the loop faest.c:417-446. -/
structure VerifySt where
  dtilde : Mem Byte
  dIdx : Nat
  q : Mem Byte
  qIdx : Nat

/-- faest.c:427-432: `Dtilde` column `dIdx` for bit `j` of `delta`, with the assertion. -/
def dtildeStep (P : Params) (delta ut : Mem Byte) (j : Nat) (s : Mem Byte × Nat) : Option (Mem Byte × Nat) :=
  if s.2 < P.lambda then do
    let x ← ptr s.1 (s.2 * (P.lambda / 8 + UNIVERSAL_HASH_B))
    let b ← rd delta j
    let y ← maskedXorArr x ut b (P.lambda / 8 + UNIVERSAL_HASH_B)
    let dt ← wrN s.1 (s.2 * (P.lambda / 8 + UNIVERSAL_HASH_B)) y
    pure (dt, s.2 + 1)
  else none

/-- faest.c:440-443: column `qIdx` of `q` for bit `d` of `delta`. -/
def qCorrStep (qprime : Mem Byte) (ellHatBytes : Nat) (delta c : Mem Byte) (d : Nat)
    (s : Mem Byte × Nat) : Option (Mem Byte × Nat) := do
  let x ← ptr qprime (s.2 * ellHatBytes)
  let b ← rd delta d
  let y ← maskedXorArr x c b ellHatBytes
  let q ← wrN s.1 (s.2 * ellHatBytes) y
  pure (q, s.2 + 1)

/-- faest.c:419-446: one iteration. -/
def verifyStep (P : Params) (sig : Mem Byte) (qprime : Mem Byte) (i : Nat) (s : VerifySt) :
    Option VerifySt := do
  let ellHatBytes := (P.l + P.lambda * 2 + UNIVERSAL_HASH_B_BITS) / 8
  let depth := if i < P.t0 then P.k0 else P.k1
  let ch ← ptr sig (dOffChall3 P)
  let (_, delta) ← chalDec ch i P.k0 P.t0 P.k1 P.t1 (malloc MAX_DEPTH)
  let ut ← ptr sig (dOffUTilde P)
  let (dt, dIdx) ← forN depth (s.dtilde, s.dIdx) (dtildeStep P delta ut)
  if i = 0 then do
    let cols ← rdN qprime (s.qIdx * ellHatBytes) (ellHatBytes * depth)
    let q ← wrN s.q (s.qIdx * ellHatBytes) cols
    pure { dtilde := dt, dIdx := dIdx, q := q, qIdx := s.qIdx + depth }
  else do
    let c ← ptr sig (dOffC P (i - 1))
    let (q, qIdx) ← forN depth (s.q, s.qIdx) (qCorrStep qprime ellHatBytes delta c)
    pure { dtilde := dt, dIdx := dIdx, q := q, qIdx := qIdx }

/-- faest.c:457-463: one iteration of the loop hashing the columns of `Q`. -/
def hashQStep (P : Params) (chall1 : Mem Byte) (q dtilde : Mem Byte) (stride i : Nat)
    (ctx : List Byte) : Option (List Byte) := do
  let col ← ptr q (i * stride)
  let t ← voleHash chall1 col P.l P.lambda
  let qt ← stack (MAX_LAMBDA_BYTES + UNIVERSAL_HASH_B) t
  let dt ← ptr dtilde (i * (P.lambda / 8 + UNIVERSAL_HASH_B))
  let x ← xorArr qt dt (P.lambda / 8 + UNIVERSAL_HASH_B)
  pure (ctx ++ x)

/-- faest.c:362-492 `faest_verify`: the returned value. -/
def faestVerify (X : XOF) (P : Params) (msg : Mem Byte) (msglen : Nat) (sig : Mem Byte)
    (owfInput owfOutput : Mem Byte) : Option Int := do
  let lambdaBytes := P.lambda / 8
  let ellHat := P.l + P.lambda * 2 + UNIVERSAL_HASH_B_BITS
  let ellHatBytes := ellHat / 8
  -- Step 3
  let inp ← rdN owfInput 0 (P.pkSize / 2)
  let out ← rdN owfOutput 0 (P.pkSize / 2)
  let m ← rdN msg 0 msglen
  let mu ← stack (MAX_LAMBDA_BYTES * 2) (hashMu X inp out m P.lambda)
  -- Step 5
  let iv ← rdN sig (dOffIv P) IV_SIZE
  let ch ← ptr sig (dOffChall3 P)
  let _ ← tauFits P
  let (hc, qprime) ← voleReconstruct X iv ch (fun i => ptr sig (dOffPdec P i))
    (fun i => ptr sig (dOffCom P i)) (calloc (P.lambda * ellHatBytes) 0) ellHat P
  let hcom ← stack (MAX_LAMBDA_BYTES * 2) hc
  let mu2 ← rdN mu 0 (lambdaBytes * 2)
  let hcom2 ← rdN hcom 0 (lambdaBytes * 2)
  let c ← rdN sig (dOffC P 0) ((P.l / 8 + lambdaBytes * 2 + UNIVERSAL_HASH_B) * (P.tau - 1))
  let chall1 ← stack (5 * MAX_LAMBDA_BYTES + 8) (hashChallenge1 X mu2 hcom2 c iv P.lambda)
  -- Step 8..14
  let s ← forN P.tau
    { dtilde := calloc (P.lambda * (lambdaBytes + UNIVERSAL_HASH_B)) 0, dIdx := 0,
      q := calloc (P.lambda * ellHatBytes) 0, qIdx := 0 }
    (verifyStep P sig qprime)
  -- Step 15, 16
  let ctx ← forN P.lambda [] (hashQStep P chall1 s.q s.dtilde ellHatBytes)
  let hv ← stack (MAX_LAMBDA_BYTES * 2) (H1 X P.lambda ctx (lambdaBytes * 2))
  -- Step 17
  let ch1 ← rdN chall1 0 (5 * lambdaBytes + 8)
  let ut ← rdN sig (dOffUTilde P) (lambdaBytes + UNIVERSAL_HASH_B)
  let hv2 ← rdN hv 0 (2 * lambdaBytes)
  let d ← rdN sig (dOffD P) (P.l / 8)
  let chall2 ← stack (3 * MAX_LAMBDA_BYTES + 8) (hashChallenge2 X ch1 ut hv2 d P.lambda)
  -- Step 18
  let dp ← ptr sig (dOffD P)
  let ap ← ptr sig (dOffATilde P)
  let b ← aesVerify P dp s.q ellHatBytes chall2 ch ap owfInput owfOutput
  -- Step 20
  let ch2 ← rdN chall2 0 (3 * lambdaBytes + 8)
  let a ← rdN sig (dOffATilde P) lambdaBytes
  let chall3 ← stack MAX_LAMBDA_BYTES (hashChallenge3 X ch2 a b P.lambda)
  -- Step 21
  let c3 ← rdN chall3 0 lambdaBytes
  let sc ← rdN sig (dOffChall3 P) lambdaBytes
  pure (if c3 = sc then 0 else -1)

/-! ### faest_param.c.in -/

/-- faest_param.c.in:63-81 `faest_*_sign_with_randomness`. -/
def signWithRandomness (X : XOF) (i : ParamId) (sk : Option (Mem Byte)) (msg : Mem Byte) (msglen : Nat)
    (rho : Option (Mem Byte)) (rholen : Nat) (signature : Option (Mem Byte)) (len : Option Nat) :
    Option SignResult :=
  match sk, signature, len with
  | some sk, some sig, some n =>
    if n < (params i).sigSize ∨ (rho.isNone ∧ rholen ≠ 0) then
      some ⟨-1, some sig, some n⟩
    else do
      let key ← ptr sk (half (params i))
      let (out, ok) ← owf i key sk
      let out ← wrN (malloc (half (params i))) 0 out
      if !ok then pure ⟨-1, some sig, some n⟩
      else do
        let sig ← faestSign X (params i) sig msg msglen key sk out rho rholen
        pure ⟨0, some sig, some (params i).sigSize⟩
  | _, sg, n => some ⟨-1, sg, n⟩

/-- faest_param.c.in:94-101 `faest_*_verify`. -/
def verify (X : XOF) (i : ParamId) (pk : Option (Mem Byte)) (msg : Mem Byte) (msglen : Nat)
    (signature : Option (Mem Byte)) (len : Nat) : Option Int :=
  match pk, signature with
  | some pk, some sig =>
    if len ≠ (params i).sigSize then some (-1)
    else do
      let out ← ptr pk (half (params i))
      faestVerify X (params i) msg msglen sig pk out
  | _, _ => some (-1)

end Faest.Flat
