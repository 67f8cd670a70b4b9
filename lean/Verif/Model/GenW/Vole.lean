/-
Generated by tools/c2lean.py from vole.c. Do not edit.
-/
import Verif.Model.GenW.Vc

set_option linter.unusedVariables false

namespace Faest.GenW
open Faest.C

/-- vole.c:18-56 `ConvertToVole`. -/
def ConvertToVole (F : FImpl) (iv : CPtr) (sd : CPtr) (sd0_bot : Bool) (lambda : Nat) (depth : Nat)
    (outLenBytes : Nat) (u : CPtr) (v : CPtr) : CM Unit := do
  let e1 ← ishl 1 depth
  let num_instances : Nat := e1
  let lambda_bytes : Nat := lambda / 8
  let e2 ← alloc .heap (calloc (((2 * num_instances) % U32) * outLenBytes) zeroed : Mem Byte)
  let r : CPtr := e2
  let e3 : Unit ← (
    if (¬ (sd0_bot = true)) then (do
      prg F sd iv (padd r ((((((0 * num_instances) % U32) + 0) % U32) * outLenBytes) % U32)) lambda outLenBytes
      pure ())
    else (do
      pure ()))
  let i : Nat := 1
  let e4 : Nat ← cwhile
      (fun _s1 =>
        let i : Nat := _s1
        decide (i < num_instances))
      (fun _s1 => do
        let i : Nat := _s1
        prg F (padd sd ((lambda_bytes * i) % U32)) iv (padd r ((((((0 * num_instances) % U32) + i) % U32) * outLenBytes) % U32)) lambda outLenBytes
        let i : Nat := (i + 1) % U32
        pure i)
      i
  memset0 v ((depth * outLenBytes) % U32)
  let j : Nat := 0
  let e5 : Nat ← cwhile
      (fun _s1 =>
        let j : Nat := _s1
        decide (j < depth))
      (fun _s1 => do
        let j : Nat := _s1
        let e6 ← cshr 32 num_instances ((j + 1) % U32)
        let depthloop : Nat := e6
        let i : Nat := 0
        let e7 : Nat ← cwhile
            (fun _s2 =>
              let i : Nat := _s2
              decide (i < depthloop))
            (fun _s2 => do
              let i : Nat := _s2
              xor_u8_array (padd v ((j * outLenBytes) % U32)) (padd r (((((((j % 2) * num_instances) % U32) + ((((2 * i) % U32) + 1) % U32)) % U32) * outLenBytes) % U32)) (padd v ((j * outLenBytes) % U32)) outLenBytes
              xor_u8_array (padd r (((((((j % 2) * num_instances) % U32) + ((2 * i) % U32)) % U32) * outLenBytes) % U32)) (padd r (((((((j % 2) * num_instances) % U32) + ((((2 * i) % U32) + 1) % U32)) % U32) * outLenBytes) % U32)) (padd r (((((((((j + 1) % U32) % 2) * num_instances) % U32) + i) % U32) * outLenBytes) % U32)) outLenBytes
              let i : Nat := (i + 1) % U32
              pure i)
            i
        let j : Nat := (j + 1) % U32
        pure j)
      j
  let e8 : Unit ← (
    if (¬ (sd0_bot = true)) ∧ (u.isSome = true) then (do
      memcpy (α := Byte) u (padd r (((((((depth % 2) * num_instances) % U32) + 0) % U32) * outLenBytes) % U32)) outLenBytes
      pure ())
    else (do
      pure ()))
  cfree .heap r
  pure ()

/-- vole.c:58-81 `ChalDec`. -/
def ChalDec (chal : CPtr) (i : Nat) (k0 : Nat) (t0 : Nat) (k1 : Nat) (t1 : Nat) (chalout : CPtr) : CM Nat := do
  if i ≥ ((t0 + t1) % U32) then (do
    pure 0)
  else (do
    let e1 : Nat × Nat ← (
      if i < t0 then (do
        let lo : Nat := (i * k0) % U32
        let hi : Nat := (((i + 1) % U32) * k0) % U32
        pure (lo, hi))
      else (do
        let t : Nat := (i + U32 - t0) % U32
        let lo : Nat := (((t0 * k0) % U32) + ((t * k1) % U32)) % U32
        let hi : Nat := (((t0 * k0) % U32) + ((((t + 1) % U32) * k1) % U32)) % U32
        pure (lo, hi)))
    let lo : Nat := e1.1
    let hi : Nat := e1.2
    cassert (decide ((((hi + U32 - lo) % U32) = k0) ∨ (((hi + U32 - lo) % U32) = k1)))
    let j : Nat := lo
    let e2 : Nat ← cwhile
        (fun _s1 =>
          let j : Nat := _s1
          decide (j < hi))
        (fun _s1 => do
          let j : Nat := _s1
          let e3 : Byte ← ld chal (j / 8)
          st chalout ((j + U32 - lo) % U32) (BitVec.ofNat 8 ((e3.toNat >>> (j % 8)) &&& 1))
          let j : Nat := (j + 1) % U32
          pure j)
        j
    pure 1)

/-- vole.c:83-130 `vole_commit`. -/
def vole_commit (F : FImpl) (I : HImpl) (rootKey : CPtr) (iv : CPtr) (ellhat : Nat) (params : Params)
    (hcom : CPtr) (vecCom : CPtr) (c : CPtr) (u : CPtr) (v : CPtr) : CM Unit := do
  let lambda : Nat := params.lambda
  let lambda_bytes : Nat := lambda / 8
  let ellhat_bytes : Nat := ((ellhat + 7) % U32) / 8
  let tau : Nat := params.tau
  let tau0 : Nat := params.t0
  let k0 : Nat := params.k0
  let k1 : Nat := params.k1
  let e1 ← alloc .heap (malloc ((tau * ellhat_bytes) % U32) : Mem Byte)
  let ui : CPtr := e1
  let e2 ← alloc .heap (malloc ((tau * lambda_bytes) % U32) : Mem Byte)
  let expanded_keys : CPtr := e2
  prg F rootKey iv expanded_keys lambda ((lambda_bytes * tau) % U32)
  let h1_ctx ← I.new
  let e3 ← I.H1_init h1_ctx lambda
  let h1_ctx := e3
  let v_idx : Nat := 0
  let i : Nat := 0
  let e4 : I.Ctx × Nat × Nat ← cwhile
      (fun _s1 =>
        let i : Nat := _s1.2.2
        decide (i < tau))
      (fun _s1 => do
        let h1_ctx : I.Ctx := _s1.1
        let v_idx : Nat := _s1.2.1
        let i : Nat := _s1.2.2
        let depth : Nat := (if i < tau0 then k0 else k1)
        let e5 : VecComC ← ld vecCom i
        let e6 ← vector_commitment F I (padd expanded_keys ((i * lambda_bytes) % U32)) iv params lambda e5 depth
        st vecCom i e6
        let e7 : VecComC ← ld vecCom i
        let e8 ← uget e7.sd
        let e9 : CPtr ← ld v v_idx
        ConvertToVole F iv e8 false lambda depth ellhat_bytes (padd ui ((i * ellhat_bytes) % U32)) e9
        let v_idx : Nat := (v_idx + depth) % U32
        let e10 : VecComC ← ld vecCom i
        let e11 ← uget e10.h
        let e12 ← I.H1_update h1_ctx e11 ((lambda_bytes * 2) % U32)
        let h1_ctx := e12
        let i : Nat := (i + 1) % U32
        pure (h1_ctx, v_idx, i))
      (h1_ctx, v_idx, i)
  let h1_ctx : I.Ctx := e4.1
  let v_idx : Nat := e4.2.1
  cfree .heap expanded_keys
  memcpy (α := Byte) u ui ellhat_bytes
  let i : Nat := 1
  let e13 : Nat ← cwhile
      (fun _s1 =>
        let i : Nat := _s1
        decide (i < tau))
      (fun _s1 => do
        let i : Nat := _s1
        xor_u8_array u (padd ui ((i * ellhat_bytes) % U32)) (padd c ((((i + U32 - 1) % U32) * ellhat_bytes) % U32)) ellhat_bytes
        let i : Nat := (i + 1) % U32
        pure i)
      i
  cfree .heap ui
  let e14 ← I.H1_final h1_ctx hcom ((lambda_bytes * 2) % U32)
  let h1_ctx := e14
  I.drop h1_ctx
  pure ()

/-- vole.c:132-190 `vole_reconstruct`. -/
def vole_reconstruct (F : FImpl) (I : HImpl) (iv : CPtr) (chall : CPtr) (pdec : CPtr) (com_j : CPtr)
    (hcom : CPtr) (q : CPtr) (ellhat : Nat) (params : Params) : CM Unit := do
  let lambda : Nat := params.lambda
  let lambda_bytes : Nat := lambda / 8
  let ellhat_bytes : Nat := ((ellhat + 7) % U32) / 8
  let tau : Nat := params.tau
  let tau0 : Nat := params.t0
  let tau1 : Nat := params.t1
  let k0 : Nat := params.k0
  let k1 : Nat := params.k1
  let e1 ← ishl 1 (if k0 > k1 then k0 else k1)
  let e2 ← alloc .heap (malloc ((e1 * lambda_bytes) % U32) : Mem Byte)
  let sd : CPtr := e2
  memset0 sd lambda_bytes
  let h1_ctx ← I.new
  let e3 ← I.H1_init h1_ctx lambda
  let h1_ctx := e3
  let vecComRec : VecComRecC := {}
  let e4 ← alloc .heap (malloc ((lambda_bytes * 2) % U32) : Mem Byte)
  let vecComRec := { vecComRec with h := some e4 }
  let e5 ← getBinaryTreeNodeCount (if k0 > k1 then k0 else k1)
  let e6 ← alloc .heap (calloc (e5 * lambda_bytes) zeroed : Mem Byte)
  let vecComRec := { vecComRec with k := some e6 }
  let e7 ← ishl 1 (if k0 > k1 then k0 else k1)
  let e8 ← alloc .heap (malloc ((((e7 * lambda_bytes) % U32) * 2) % U32) : Mem Byte)
  let vecComRec := { vecComRec with com := some e8 }
  let e9 ← ishl 1 (if k0 > k1 then k0 else k1)
  let e10 ← alloc .heap (malloc ((e9 * lambda_bytes) % U32) : Mem Byte)
  let vecComRec := { vecComRec with s := some e10 }
  let q_idx : Nat := 0
  let i : Nat := 0
  let e11 : I.Ctx × VecComRecC × Nat × Nat ← cwhile
      (fun _s1 =>
        let i : Nat := _s1.2.2.2
        decide (i < tau))
      (fun _s1 => do
        let h1_ctx : I.Ctx := _s1.1
        let vecComRec : VecComRecC := _s1.2.1
        let q_idx : Nat := _s1.2.2.1
        let i : Nat := _s1.2.2.2
        let depth : Nat := (if i < tau0 then k0 else k1)
        let e12 ← ishl 1 depth
        let N : Nat := e12
        let chalout ← alloc .stack (malloc 12 : Mem Byte)
        let e13 ← ChalDec chall i k0 tau0 k1 tau1 chalout
        let e14 ← NumRec depth chalout
        let idx : Nat := e14
        let e15 : CPtr ← ld pdec i
        let e16 : CPtr ← ld com_j i
        let e17 ← vector_reconstruction F I iv e15 e16 chalout lambda depth vecComRec
        let vecComRec := e17
        let j : Nat := 1
        let e18 : Nat ← cwhile
            (fun _s2 =>
              let j : Nat := _s2
              decide (j < N))
            (fun _s2 => do
              let j : Nat := _s2
              let e19 ← uget vecComRec.s
              memcpy (α := Byte) (padd sd ((j * lambda_bytes) % U32)) (padd e19 ((lambda_bytes * (j ^^^ idx)) % U32)) lambda_bytes
              let j : Nat := (j + 1) % U32
              pure j)
            j
        let e20 : CPtr ← ld q q_idx
        ConvertToVole F iv sd true lambda depth ellhat_bytes (none : CPtr) e20
        let q_idx : Nat := (q_idx + depth) % U32
        let e21 ← uget vecComRec.h
        let e22 ← I.H1_update h1_ctx e21 ((lambda_bytes * 2) % U32)
        let h1_ctx := e22
        cfree .stack chalout
        let i : Nat := (i + 1) % U32
        pure (h1_ctx, vecComRec, q_idx, i))
      (h1_ctx, vecComRec, q_idx, i)
  let h1_ctx : I.Ctx := e11.1
  let vecComRec : VecComRecC := e11.2.1
  let q_idx : Nat := e11.2.2.1
  let e23 ← vec_com_rec_clear vecComRec
  let vecComRec := e23
  cfree .heap sd
  let e24 ← I.H1_final h1_ctx hcom ((lambda_bytes * 2) % U32)
  let h1_ctx := e24
  I.drop h1_ctx
  pure ()

end Faest.GenW
