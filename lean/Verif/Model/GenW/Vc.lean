/-
Generated by tools/c2lean.py from vc.c. Do not edit.
-/
import Verif.Model.GenW.Aes
import Verif.Model.HImpl

set_option linter.unusedVariables false

namespace Faest.GenW
open Faest.C

/-- vc.c:26-29 `is_left_child`. -/
def is_left_child (node : Nat) : CM Nat := do
  cassert (decide (node ≠ 0))
  pure (if (node % 2) = 1 then 1 else 0)

/-- vc.c:79-81 `getBinaryTreeNodeCount`. -/
def getBinaryTreeNodeCount (depth : Nat) : CM Nat := do
  let e1 ← ishl 1 ((depth + 1) % U32)
  let e2 ← isub e1 1
  pure e2

/-- vc.c:31-40 `create_tree`. -/
def create_tree (params : Params) (depth : Nat) : CM TreeC := do
  let tree : TreeC := {}
  let lambdaBytes : Nat := params.lambda / 8
  let e1 ← getBinaryTreeNodeCount depth
  let tree := { tree with numNodes := some e1 }
  let e2 ← cshl 64 1 depth
  let tree := { tree with numLeaves := some e2 }
  let e3 ← uget tree.numNodes
  let e4 ← alloc .heap (calloc (e3 * lambdaBytes) zeroed : Mem Byte)
  let tree := { tree with nodes := some e4 }
  pure tree

/-- vc.c:42-49 `get_parent`. -/
def get_parent (node : Nat) : CM Nat := do
  cassert (decide (node ≠ 0))
  let e1 ← is_left_child node
  if e1 ≠ 0 then (do
    pure (((node + U64 - 1) % U64) / 2))
  else (do
    pure (((node + U64 - 2) % U64) / 2))

/-- vc.c:51-65 `expand_seeds`. -/
def expand_seeds (F : FImpl) (tree : TreeC) (iv : CPtr) (params : Params) : CM TreeC := do
  let lambda_bytes : Nat := params.lambda / 8
  let e1 ← uget tree.numNodes
  let e2 ← get_parent ((e1 + U64 - 1) % U64)
  let lastNonLeaf : Nat := e2
  let e3 ← uget tree.numNodes
  cassert (decide (((((2 * lastNonLeaf) % U64) + 2) % U64) < e3))
  let i : Nat := 0
  let e4 : Nat ← cwhile
      (fun _s1 =>
        let i : Nat := _s1
        decide (i ≤ lastNonLeaf))
      (fun _s1 => do
        let i : Nat := _s1
        let e5 ← uget tree.nodes
        let e6 ← uget tree.nodes
        prg F (padd e5 ((i * lambda_bytes) % U64)) iv (padd e6 ((((((2 * i) % U64) + 1) % U64) * lambda_bytes) % U64)) params.lambda ((lambda_bytes * 2) % U32)
        let i : Nat := (i + 1) % U64
        pure i)
      i
  pure tree

/-- vc.c:67-76 `generate_seeds`. -/
def generate_seeds (F : FImpl) (rootSeed : CPtr) (iv : CPtr) (params : Params) (depth : Nat) : CM TreeC := do
  let lambdaBytes : Nat := params.lambda / 8
  let e1 ← create_tree params depth
  let tree : TreeC := e1
  let e2 ← uget tree.nodes
  memcpy (α := Byte) (padd e2 ((0 * lambdaBytes) % U32)) rootSeed lambdaBytes
  let e3 ← expand_seeds F tree iv params
  let tree := e3
  pure tree

/-- vc.c:84-89 `getNodeIndex`. -/
def getNodeIndex (depth : Nat) (levelIndex : Nat) : CM Nat := do
  if depth = 0 then (do
    pure 0)
  else (do
    let e1 ← ishl 2 ((depth + U64 - 1) % U64)
    let e2 ← isub e1 2
    pure ((e2 + ((levelIndex + 1) % U64)) % U64))

/-- vc.c:93-101 `BitDec`. -/
def BitDec (leafIndex : Nat) (depth : Nat) (out : CPtr) : CM Nat := do
  let e1 ← cshl 32 1 depth
  if leafIndex ≥ e1 then (do
    pure 4294967295)
  else (do
    let j : Nat := 0
    let e2 : Nat × Nat ← cwhile
        (fun _s1 =>
          let j : Nat := _s1.2
          decide (j < depth))
        (fun _s1 => do
          let leafIndex : Nat := _s1.1
          let j : Nat := _s1.2
          st out j (BitVec.ofNat 8 (leafIndex % 2))
          let j : Nat := (j + 1) % U32
          let leafIndex : Nat := leafIndex / 2
          pure (leafIndex, j))
        (leafIndex, j)
    let leafIndex : Nat := e2.1
    pure 1)

/-- vc.c:103-109 `NumRec`. -/
def NumRec (depth : Nat) (bi : CPtr) : CM Nat := do
  let out : Nat := 0
  let i : Nat := 0
  let e1 : Nat × Nat ← cwhile
      (fun _s1 =>
        let i : Nat := _s1.2
        decide (i < depth))
      (fun _s1 => do
        let out : Nat := _s1.1
        let i : Nat := _s1.2
        let e2 : Byte ← ld bi i
        let e3 ← cshl 32 e2.toNat i
        let out : Nat := (out + e3) % U32
        let i : Nat := (i + 1) % U32
        pure (out, i))
      (out, i)
  let out : Nat := e1.1
  pure out

/-- vc.c:111-164 `vector_commitment`. -/
def vector_commitment (F : FImpl) (I : HImpl) (rootKey : CPtr) (iv : CPtr) (params : Params) (lambda : Nat)
    (vecCom : VecComC) (depth : Nat) : CM VecComC := do
  let lambdaBytes : Nat := lambda / 8
  let e1 ← ishl 1 depth
  let numVoleInstances : Nat := e1
  let e2 ← generate_seeds F rootKey iv params depth
  let tree : TreeC := e2
  let e3 ← alloc .heap (malloc ((lambdaBytes * 2) % U32) : Mem Byte)
  let vecCom := { vecCom with h := some e3 }
  let e4 ← alloc .heap (malloc ((((numVoleInstances * lambdaBytes) % U32) * 2) % U32) : Mem Byte)
  let vecCom := { vecCom with com := some e4 }
  let e5 ← alloc .heap (malloc ((numVoleInstances * lambdaBytes) % U32) : Mem Byte)
  let vecCom := { vecCom with sd := some e5 }
  let e6 ← uget tree.nodes
  let vecCom := { vecCom with k := some (padd e6 ((0 * lambdaBytes) % U32)) }
  let e7 ← uget tree.numNodes
  let e8 ← uget tree.numLeaves
  let base_index : Nat := (e7 + U64 - e8) % U64
  let i : Nat := 0
  let e9 : Nat ← cwhile
      (fun _s1 =>
        let i : Nat := _s1
        decide (i < (((numVoleInstances / 4) * 4) % U32)))
      (fun _s1 => do
        let i : Nat := _s1
        let h0_ctx ← I.new4
        let e10 ← I.H0_x4_init h0_ctx lambda
        let h0_ctx := e10
        let e11 ← uget tree.nodes
        let e12 ← uget tree.nodes
        let e13 ← uget tree.nodes
        let e14 ← uget tree.nodes
        let e15 ← I.H0_x4_update h0_ctx (padd e11 ((((base_index + i) % U64) * lambdaBytes) % U64)) (padd e12 ((((((base_index + i) % U64) + 1) % U64) * lambdaBytes) % U64)) (padd e13 ((((((base_index + i) % U64) + 2) % U64) * lambdaBytes) % U64)) (padd e14 ((((((base_index + i) % U64) + 3) % U64) * lambdaBytes) % U64)) lambdaBytes
        let h0_ctx := e15
        let e16 ← I.H0_x4_update h0_ctx iv iv iv iv 16
        let h0_ctx := e16
        let e17 ← uget vecCom.sd
        let e18 ← uget vecCom.sd
        let e19 ← uget vecCom.sd
        let e20 ← uget vecCom.sd
        let e21 ← uget vecCom.com
        let e22 ← uget vecCom.com
        let e23 ← uget vecCom.com
        let e24 ← uget vecCom.com
        let e25 ← I.H0_x4_final h0_ctx (padd e17 ((i * lambdaBytes) % U32)) (padd e18 ((((i + 1) % U32) * lambdaBytes) % U32)) (padd e19 ((((i + 2) % U32) * lambdaBytes) % U32)) (padd e20 ((((i + 3) % U32) * lambdaBytes) % U32)) lambdaBytes (padd e21 ((((i * lambdaBytes) % U32) * 2) % U32)) (padd e22 ((((((i + 1) % U32) * lambdaBytes) % U32) * 2) % U32)) (padd e23 ((((((i + 2) % U32) * lambdaBytes) % U32) * 2) % U32)) (padd e24 ((((((i + 3) % U32) * lambdaBytes) % U32) * 2) % U32)) ((lambdaBytes * 2) % U32)
        let h0_ctx := e25
        I.drop4 h0_ctx
        let i : Nat := (i + 4) % U32
        pure i)
      i
  let i : Nat := e9
  let e26 : Nat ← cwhile
      (fun _s1 =>
        let i : Nat := _s1
        decide (i < numVoleInstances))
      (fun _s1 => do
        let i : Nat := _s1
        let h0_ctx ← I.new
        let e27 ← I.H0_init h0_ctx lambda
        let h0_ctx := e27
        let e28 ← uget tree.nodes
        let e29 ← I.H0_update h0_ctx (padd e28 ((((base_index + i) % U64) * lambdaBytes) % U64)) lambdaBytes
        let h0_ctx := e29
        let e30 ← I.H0_update h0_ctx iv 16
        let h0_ctx := e30
        let e31 ← uget vecCom.sd
        let e32 ← uget vecCom.com
        let e33 ← I.H0_final h0_ctx (padd e31 ((i * lambdaBytes) % U32)) lambdaBytes (padd e32 ((i * ((lambdaBytes * 2) % U32)) % U32)) ((lambdaBytes * 2) % U32)
        let h0_ctx := e33
        I.drop h0_ctx
        let i : Nat := (i + 1) % U32
        pure i)
      i
  let i : Nat := e26
  let tree := { tree with nodes := some (none : CPtr) }
  let h1_ctx ← I.new
  let e34 ← I.H1_init h1_ctx lambda
  let h1_ctx := e34
  let j : Nat := 0
  let e35 : I.Ctx × Nat ← cwhile
      (fun _s1 =>
        let j : Nat := _s1.2
        decide (j < numVoleInstances))
      (fun _s1 => do
        let h1_ctx : I.Ctx := _s1.1
        let j : Nat := _s1.2
        let e36 ← uget vecCom.com
        let e37 ← I.H1_update h1_ctx (padd e36 ((j * ((lambdaBytes * 2) % U32)) % U32)) ((lambdaBytes * 2) % U32)
        let h1_ctx := e37
        let j : Nat := (j + 1) % U32
        pure (h1_ctx, j))
      (h1_ctx, j)
  let h1_ctx : I.Ctx := e35.1
  let e38 ← uget vecCom.h
  let e39 ← I.H1_final h1_ctx e38 ((lambdaBytes * 2) % U32)
  let h1_ctx := e39
  I.drop h1_ctx
  pure vecCom

/-- vc.c:166-181 `vector_open`. -/
def vector_open (k : CPtr) (com : CPtr) (b : CPtr) (cop : CPtr) (com_j : CPtr) (depth : Nat) (lambdaBytes : Nat) : CM Unit := do
  let e1 ← NumRec depth b
  let leafIndex : Nat := e1
  let a : Nat := 0
  let i : Nat := 0
  let e2 : Nat × Nat ← cwhile
      (fun _s1 =>
        let i : Nat := _s1.2
        decide (i < depth))
      (fun _s1 => do
        let a : Nat := _s1.1
        let i : Nat := _s1.2
        let e3 : Byte ← ld b ((((depth + U32 - 1) % U32) + U32 - i) % U32)
        let e4 ← getNodeIndex ((i + 1) % U32) ((((2 * a) % U32) + (if ¬ (e3 ≠ 0) then 1 else 0)) % U32)
        memcpy (α := Byte) (padd cop ((lambdaBytes * i) % U32)) (padd k ((lambdaBytes * e4) % U64)) lambdaBytes
        let e5 : Byte ← ld b ((((depth + U32 - 1) % U32) + U32 - i) % U32)
        let a : Nat := (((2 * a) % U32) + e5.toNat) % U32
        let i : Nat := (i + 1) % U32
        pure (a, i))
      (a, i)
  let a : Nat := e2.1
  memcpy (α := Byte) com_j (padd com ((((leafIndex * lambdaBytes) % U64) * 2) % U64)) ((lambdaBytes * 2) % U32)
  pure ()

/-- vc.c:183-284 `vector_reconstruction`. -/
def vector_reconstruction (F : FImpl) (I : HImpl) (iv : CPtr) (cop : CPtr) (com_j : CPtr) (b : CPtr)
    (lambda : Nat) (depth : Nat) (vecComRec : VecComRecC) : CM VecComRecC := do
  let lambdaBytes : Nat := lambda / 8
  let e1 ← ishl 1 depth
  let numVoleInstances : Nat := e1
  let e2 ← NumRec depth b
  let leafIndex : Nat := e2
  let a : Nat := 0
  let i : Nat := 1
  let e3 : Nat × Nat ← cwhile
      (fun _s1 =>
        let i : Nat := _s1.2
        decide (i ≤ depth))
      (fun _s1 => do
        let a : Nat := _s1.1
        let i : Nat := _s1.2
        let e4 ← uget vecComRec.k
        let e5 : Byte ← ld b ((depth + U32 - i) % U32)
        let e6 ← getNodeIndex i ((((2 * a) % U32) + (if ¬ (e5 ≠ 0) then 1 else 0)) % U32)
        memcpy (α := Byte) (padd e4 ((lambdaBytes * e6) % U64)) (padd cop ((lambdaBytes * ((i + U32 - 1) % U32)) % U32)) lambdaBytes
        let e7 ← uget vecComRec.k
        let e8 : Byte ← ld b ((depth + U32 - i) % U32)
        let e9 ← getNodeIndex i ((((2 * a) % U32) + e8.toNat) % U32)
        memset0 (padd e7 ((lambdaBytes * e9) % U64)) lambdaBytes
        let e10 ← ishl 1 ((i + U32 - 1) % U32)
        let current_depth : Nat := e10
        let j : Nat := 0
        let e11 : Nat ← cwhile
            (fun _s2 =>
              let j : Nat := _s2
              decide (j < current_depth))
            (fun _s2 => do
              let j : Nat := _s2
              if j = a then (do
                let j : Nat := (j + 1) % U32
                pure j)
              else (do
                let out ← alloc .stack (malloc 64 : Mem Byte)
                let e12 ← uget vecComRec.k
                let e13 ← getNodeIndex ((i + U32 - 1) % U32) j
                prg F (padd e12 ((lambdaBytes * e13) % U64)) iv out lambda ((lambdaBytes * 2) % U32)
                let e14 ← uget vecComRec.k
                let e15 ← getNodeIndex i ((2 * j) % U32)
                memcpy (α := Byte) (padd e14 ((lambdaBytes * e15) % U64)) out lambdaBytes
                let e16 ← uget vecComRec.k
                let e17 ← getNodeIndex i ((((2 * j) % U32) + 1) % U32)
                memcpy (α := Byte) (padd e16 ((lambdaBytes * e17) % U64)) (padd out lambdaBytes) lambdaBytes
                cfree .stack out
                let j : Nat := (j + 1) % U32
                pure j))
            j
        let e18 : Byte ← ld b ((depth + U32 - i) % U32)
        let a : Nat := (((a * 2) % U32) + e18.toNat) % U32
        let i : Nat := (i + 1) % U32
        pure (a, i))
      (a, i)
  let a : Nat := e3.1
  let j : Nat := 0
  let e19 : Nat ← cwhile
      (fun _s1 =>
        let j : Nat := _s1
        decide (j < (((leafIndex / 4) * 4) % U64)))
      (fun _s1 => do
        let j : Nat := _s1
        let h0_ctx ← I.new4
        let e20 ← I.H0_x4_init h0_ctx lambda
        let h0_ctx := e20
        let e21 ← uget vecComRec.k
        let e22 ← getNodeIndex depth j
        let e23 ← uget vecComRec.k
        let e24 ← getNodeIndex depth ((j + 1) % U32)
        let e25 ← uget vecComRec.k
        let e26 ← getNodeIndex depth ((j + 2) % U32)
        let e27 ← uget vecComRec.k
        let e28 ← getNodeIndex depth ((j + 3) % U32)
        let e29 ← I.H0_x4_update h0_ctx (padd e21 ((e22 * lambdaBytes) % U64)) (padd e23 ((e24 * lambdaBytes) % U64)) (padd e25 ((e26 * lambdaBytes) % U64)) (padd e27 ((e28 * lambdaBytes) % U64)) lambdaBytes
        let h0_ctx := e29
        let e30 ← I.H0_x4_update h0_ctx iv iv iv iv 16
        let h0_ctx := e30
        let e31 ← uget vecComRec.s
        let e32 ← uget vecComRec.s
        let e33 ← uget vecComRec.s
        let e34 ← uget vecComRec.s
        let e35 ← uget vecComRec.com
        let e36 ← uget vecComRec.com
        let e37 ← uget vecComRec.com
        let e38 ← uget vecComRec.com
        let e39 ← I.H0_x4_final h0_ctx (padd e31 ((j * lambdaBytes) % U32)) (padd e32 ((((j + 1) % U32) * lambdaBytes) % U32)) (padd e33 ((((j + 2) % U32) * lambdaBytes) % U32)) (padd e34 ((((j + 3) % U32) * lambdaBytes) % U32)) lambdaBytes (padd e35 ((((j * lambdaBytes) % U32) * 2) % U32)) (padd e36 ((((((j + 1) % U32) * lambdaBytes) % U32) * 2) % U32)) (padd e37 ((((((j + 2) % U32) * lambdaBytes) % U32) * 2) % U32)) (padd e38 ((((((j + 3) % U32) * lambdaBytes) % U32) * 2) % U32)) ((lambdaBytes * 2) % U32)
        let h0_ctx := e39
        I.drop4 h0_ctx
        let j : Nat := (j + 4) % U32
        pure j)
      j
  let j : Nat := e19
  let e40 : Nat ← cwhile
      (fun _s1 =>
        let j : Nat := _s1
        decide (j < leafIndex))
      (fun _s1 => do
        let j : Nat := _s1
        let h0_ctx ← I.new
        let e41 ← I.H0_init h0_ctx lambda
        let h0_ctx := e41
        let e42 ← uget vecComRec.k
        let e43 ← getNodeIndex depth j
        let e44 ← I.H0_update h0_ctx (padd e42 ((e43 * lambdaBytes) % U64)) lambdaBytes
        let h0_ctx := e44
        let e45 ← I.H0_update h0_ctx iv 16
        let h0_ctx := e45
        let e46 ← uget vecComRec.s
        let e47 ← uget vecComRec.com
        let e48 ← I.H0_final h0_ctx (padd e46 ((j * lambdaBytes) % U32)) lambdaBytes (padd e47 ((((j * lambdaBytes) % U32) * 2) % U32)) ((lambdaBytes * 2) % U32)
        let h0_ctx := e48
        I.drop h0_ctx
        let j : Nat := (j + 1) % U32
        pure j)
      j
  let j : Nat := e40
  let j : Nat := (j + 1) % U32
  let e49 : Nat ← cwhile
      (fun _s1 =>
        let j : Nat := _s1
        decide ((j < numVoleInstances) ∧ (j % 4 ≠ 0)))
      (fun _s1 => do
        let j : Nat := _s1
        let h0_ctx ← I.new
        let e50 ← I.H0_init h0_ctx lambda
        let h0_ctx := e50
        let e51 ← uget vecComRec.k
        let e52 ← getNodeIndex depth j
        let e53 ← I.H0_update h0_ctx (padd e51 ((e52 * lambdaBytes) % U64)) lambdaBytes
        let h0_ctx := e53
        let e54 ← I.H0_update h0_ctx iv 16
        let h0_ctx := e54
        let e55 ← uget vecComRec.s
        let e56 ← uget vecComRec.com
        let e57 ← I.H0_final h0_ctx (padd e55 ((j * lambdaBytes) % U32)) lambdaBytes (padd e56 ((((j * lambdaBytes) % U32) * 2) % U32)) ((lambdaBytes * 2) % U32)
        let h0_ctx := e57
        I.drop h0_ctx
        let j : Nat := (j + 1) % U32
        pure j)
      j
  let j : Nat := e49
  let e58 : Nat ← cwhile
      (fun _s1 =>
        let j : Nat := _s1
        decide (j < (((numVoleInstances / 4) * 4) % U32)))
      (fun _s1 => do
        let j : Nat := _s1
        let h0_ctx ← I.new4
        let e59 ← I.H0_x4_init h0_ctx lambda
        let h0_ctx := e59
        let e60 ← uget vecComRec.k
        let e61 ← getNodeIndex depth j
        let e62 ← uget vecComRec.k
        let e63 ← getNodeIndex depth ((j + 1) % U32)
        let e64 ← uget vecComRec.k
        let e65 ← getNodeIndex depth ((j + 2) % U32)
        let e66 ← uget vecComRec.k
        let e67 ← getNodeIndex depth ((j + 3) % U32)
        let e68 ← I.H0_x4_update h0_ctx (padd e60 ((e61 * lambdaBytes) % U64)) (padd e62 ((e63 * lambdaBytes) % U64)) (padd e64 ((e65 * lambdaBytes) % U64)) (padd e66 ((e67 * lambdaBytes) % U64)) lambdaBytes
        let h0_ctx := e68
        let e69 ← I.H0_x4_update h0_ctx iv iv iv iv 16
        let h0_ctx := e69
        let e70 ← uget vecComRec.s
        let e71 ← uget vecComRec.s
        let e72 ← uget vecComRec.s
        let e73 ← uget vecComRec.s
        let e74 ← uget vecComRec.com
        let e75 ← uget vecComRec.com
        let e76 ← uget vecComRec.com
        let e77 ← uget vecComRec.com
        let e78 ← I.H0_x4_final h0_ctx (padd e70 ((j * lambdaBytes) % U32)) (padd e71 ((((j + 1) % U32) * lambdaBytes) % U32)) (padd e72 ((((j + 2) % U32) * lambdaBytes) % U32)) (padd e73 ((((j + 3) % U32) * lambdaBytes) % U32)) lambdaBytes (padd e74 ((((j * lambdaBytes) % U32) * 2) % U32)) (padd e75 ((((((j + 1) % U32) * lambdaBytes) % U32) * 2) % U32)) (padd e76 ((((((j + 2) % U32) * lambdaBytes) % U32) * 2) % U32)) (padd e77 ((((((j + 3) % U32) * lambdaBytes) % U32) * 2) % U32)) ((lambdaBytes * 2) % U32)
        let h0_ctx := e78
        I.drop4 h0_ctx
        let j : Nat := (j + 4) % U32
        pure j)
      j
  let j : Nat := e58
  let e79 : Nat ← cwhile
      (fun _s1 =>
        let j : Nat := _s1
        decide (j < numVoleInstances))
      (fun _s1 => do
        let j : Nat := _s1
        let h0_ctx ← I.new
        let e80 ← I.H0_init h0_ctx lambda
        let h0_ctx := e80
        let e81 ← uget vecComRec.k
        let e82 ← getNodeIndex depth j
        let e83 ← I.H0_update h0_ctx (padd e81 ((e82 * lambdaBytes) % U64)) lambdaBytes
        let h0_ctx := e83
        let e84 ← I.H0_update h0_ctx iv 16
        let h0_ctx := e84
        let e85 ← uget vecComRec.s
        let e86 ← uget vecComRec.com
        let e87 ← I.H0_final h0_ctx (padd e85 ((j * lambdaBytes) % U32)) lambdaBytes (padd e86 ((((j * lambdaBytes) % U32) * 2) % U32)) ((lambdaBytes * 2) % U32)
        let h0_ctx := e87
        I.drop h0_ctx
        let j : Nat := (j + 1) % U32
        pure j)
      j
  let j : Nat := e79
  let e88 ← uget vecComRec.com
  memcpy (α := Byte) (padd e88 ((((lambdaBytes * 2) % U32) * leafIndex) % U64)) com_j ((lambdaBytes * 2) % U32)
  let h1_ctx ← I.new
  let e89 ← I.H1_init h1_ctx lambda
  let h1_ctx := e89
  let e90 ← uget vecComRec.com
  let e91 ← I.H1_update h1_ctx e90 ((((lambdaBytes * 2) % U32) * numVoleInstances) % U32)
  let h1_ctx := e91
  let e92 ← uget vecComRec.h
  let e93 ← I.H1_final h1_ctx e92 ((lambdaBytes * 2) % U32)
  let h1_ctx := e93
  I.drop h1_ctx
  pure vecComRec

/-- vc.c:318-323 `vec_com_clear`. -/
def vec_com_clear (com : VecComC) : CM VecComC := do
  let e1 ← uget com.sd
  cfree .heap e1
  let e2 ← uget com.com
  cfree .heap e2
  let e3 ← uget com.k
  cfree .heap e3
  let e4 ← uget com.h
  cfree .heap e4
  pure com

/-- vc.c:325-330 `vec_com_rec_clear`. -/
def vec_com_rec_clear (rec : VecComRecC) : CM VecComRecC := do
  let e1 ← uget rec.s
  cfree .heap e1
  let e2 ← uget rec.com
  cfree .heap e2
  let e3 ← uget rec.k
  cfree .heap e3
  let e4 ← uget rec.h
  cfree .heap e4
  pure rec

end Faest.GenW
