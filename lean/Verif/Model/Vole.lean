/-
VOLE commitments: vole.c.

The columns `v[0..lambda-1]`, `q[0..lambda-1]` lie one after the other in one allocation
(faest.c:278-282, 400-404); they are an array of byte strings of `ellhat_bytes` bytes.
-/
import Verif.Model.Vc

namespace Faest

/-- vole.c:33 macro `R(row, column)`. -/
def rIdx (N row col : Nat) : Nat := (row % 2) * N + col

/-- vole.c:24-40: the `calloc`ed rows and the first entry of row 0, left zero when `sd0Bot`. -/
def cvInit (iv : List Byte) (sd : Mem (List Byte)) (sd0Bot : Bool) (lambda outLen N : Nat) :
    Option (Mem (List Byte)) :=
  let r : Mem (List Byte) := calloc (2 * N) (List.replicate outLen 0)
  if sd0Bot then some r
  else do
    let s ← rd sd 0
    let o ← prg (ofList s) (ofList iv) lambda outLen
    wr r (rIdx N 0 0) o

/-- vole.c:17-56 `ConvertToVole`, writing the columns `off … off + depth - 1` of `v`. The result
also has the value written to `u` (`u` is not written when `sd0Bot`). -/
def convertToVole (iv : List Byte) (sd : Mem (List Byte)) (sd0Bot : Bool) (lambda depth outLen : Nat)
    (v : Mem (List Byte)) (off : Nat) : Option (Mem (List Byte) × Option (List Byte)) := do
  let N ← if depth ≤ 30 then some (2 ^ depth) else none
  let _ ← u32 (2 * N)
  let _ ← u32 (2 * N * outLen)
  let zero : List Byte := List.replicate outLen 0
  let r ← cvInit iv sd sd0Bot lambda outLen N
  let r ← forR 1 N r (fun i r => do
    let s ← rd sd i
    let o ← prg (ofList s) (ofList iv) lambda outLen
    wr r (rIdx N 0 i) o)
  let v ← forN depth v (fun j v => wr v (off + j) zero)
  let (v, r) ← forN depth (v, r) (fun j s =>
    forN (N / 2 ^ (j + 1)) s (fun i s => do
      let vj ← rd s.1 (off + j)
      let r1 ← rd s.2 (rIdx N j (2 * i + 1))
      let x ← xorArr (ofList vj) (ofList r1) outLen
      let v ← wr s.1 (off + j) x
      let r0 ← rd s.2 (rIdx N j (2 * i))
      let r1 ← rd s.2 (rIdx N j (2 * i + 1))
      let y ← xorArr (ofList r0) (ofList r1) outLen
      let r ← wr s.2 (rIdx N (j + 1) i) y
      pure (v, r)))
  if sd0Bot then pure (v, none)
  else do
    let u ← rd r (rIdx N depth 0)
    pure (v, some u)

/-- vole.c:58-81 `ChalDec`; the result is the return value and the output buffer. -/
def chalDec (chal : Mem Byte) (i k0 t0 k1 t1 : Nat) (out : Mem Byte) : Option (Nat × Mem Byte) :=
  if i ≥ t0 + t1 then some (0, out)
  else
    let lo := if i < t0 then i * k0 else t0 * k0 + (i - t0) * k1
    let hi := if i < t0 then (i + 1) * k0 else t0 * k0 + (i - t0 + 1) * k1
    if hi - lo = k0 ∨ hi - lo = k1 then do
      let o ← forR lo hi out (fun j out => do
        let b ← ptrGetBit chal j
        wr out (j - lo) b)
      pure (1, o)
    else none

/-- Result of `vole_commit`. -/
structure VoleCom where
  hcom : List Byte
  vecCom : List VecCom
  u : List Byte
  v : Mem (List Byte)

/-- State of the main loop of `vole_commit` (vole.c:104-119). -/
structure VoleCommitSt where
  vecCom : List VecCom
  ui : List (List Byte)
  v : Mem (List Byte)
  vIdx : Nat
  ctx : List Byte

/-- vole.c:104-119: one iteration. -/
def voleCommitStep (X : XOF) (iv : List Byte) (P : Params) (ellhatBytes : Nat) (expanded : Mem Byte)
    (i : Nat) (s : VoleCommitSt) : Option VoleCommitSt := do
  let lambdaBytes := P.lambda / 8
  let depth := if i < P.t0 then P.k0 else P.k1
  let key ← rdN expanded (i * lambdaBytes) lambdaBytes
  let vc ← vectorCommitment X key iv P.lambda depth
  let (v, u) ← convertToVole iv vc.sd false P.lambda depth ellhatBytes s.v s.vIdx
  let u ← u
  pure { vecCom := s.vecCom ++ [vc], ui := s.ui ++ [u], v := v, vIdx := s.vIdx + depth,
         ctx := s.ctx ++ vc.h }

/-- vole.c:83-130 `vole_commit`; the correction values go to `dst + offC`. -/
def voleCommit (X : XOF) (rootKey iv : List Byte) (ellhat : Nat) (P : Params)
    (dst : Mem Byte) (offC : Nat) (v : Mem (List Byte)) : Option (VoleCom × Mem Byte) := do
  let lambdaBytes := P.lambda / 8
  let ellhatBytes := (ellhat + 7) / 8
  let _ ← u32 (P.tau * ellhatBytes)
  let ek ← prg (ofList rootKey) (ofList iv) P.lambda (lambdaBytes * P.tau)
  let s ← forN P.tau { vecCom := [], ui := [], v := v, vIdx := 0, ctx := [] }
    (voleCommitStep X iv P ellhatBytes (ofList ek))
  let u ← s.ui[0]?
  let dst ← forR 1 P.tau dst (fun i dst => do
    let ui ← s.ui[i]?
    let x ← xorArr (ofList u) (ofList ui) ellhatBytes
    wrN dst (offC + (i - 1) * ellhatBytes) x)
  pure ({ hcom := H1 X P.lambda s.ctx (lambdaBytes * 2), vecCom := s.vecCom, u := u, v := s.v }, dst)

/-- State of the main loop of `vole_reconstruct`. -/
structure VoleRecSt where
  vrec : VecComRec
  sd : Mem (List Byte)
  q : Mem (List Byte)
  qIdx : Nat
  ctx : List Byte

/-- vole.c:159-184: one iteration of `vole_reconstruct`. -/
def voleRecStep (X : XOF) (iv : List Byte) (chall : Mem Byte) (pdec comj : Nat → Option (Mem Byte))
    (P : Params) (ellhatBytes : Nat) (i : Nat) (s : VoleRecSt) : Option VoleRecSt := do
  let depth := if i < P.t0 then P.k0 else P.k1
  let N := 2 ^ depth
  let (_, chalout) ← chalDec chall i P.k0 P.t0 P.k1 P.t1 (malloc MAX_DEPTH)
  let idx ← numRec depth chalout
  let pd ← pdec i
  let cj ← comj i
  let vr ← vectorReconstruction X iv pd cj chalout P.lambda depth s.vrec
  let sd ← forR 1 N s.sd (fun j sd => do
    let x ← rd vr.s (Nat.xor j idx)
    wr sd j x)
  let (q, _) ← convertToVole iv sd true P.lambda depth ellhatBytes s.q s.qIdx
  pure { vrec := vr, sd := sd, q := q, qIdx := s.qIdx + depth, ctx := s.ctx ++ vr.h }

/-- vole.c:132-190 `vole_reconstruct`; result: `hcom` and the columns `q`. -/
def voleReconstruct (X : XOF) (iv : List Byte) (chall : Mem Byte)
    (pdec comj : Nat → Option (Mem Byte)) (q : Mem (List Byte)) (ellhat : Nat) (P : Params) :
    Option (List Byte × Mem (List Byte)) := do
  let lambdaBytes := P.lambda / 8
  let ellhatBytes := (ellhat + 7) / 8
  let M := max P.k0 P.k1
  let nodes ← getBinaryTreeNodeCount M
  let _ ← u32 (2 ^ M * lambdaBytes * 2)
  let zero : List Byte := List.replicate lambdaBytes 0
  let sd ← wr (malloc (2 ^ M)) 0 zero
  let vr : VecComRec :=
    { h := [], k := calloc nodes zero, com := malloc (2 ^ M), s := malloc (2 ^ M) }
  let s ← forN P.tau { vrec := vr, sd := sd, q := q, qIdx := 0, ctx := [] }
    (voleRecStep X iv chall pdec comj P ellhatBytes)
  pure (H1 X P.lambda s.ctx (lambdaBytes * 2), s.q)

end Faest
