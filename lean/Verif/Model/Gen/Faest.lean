/-
Generated by tools/c2lean.py from faest.c. Do not edit.
-/
import Verif.Model.Gen.FaestAes

set_option linter.unusedVariables false

namespace Faest.Gen
open Faest.C

/-- faest.c:22-29 `signature_c`. -/
def signature_c (base_ptr : CPtr) (index : Nat) (params : Params) : CM CPtr := do
  let lambda_bytes : Nat := params.lambda / 8
  let ell_bytes : Nat := params.l / 8
  let ell_hat_bytes : Nat := (((ell_bytes + ((2 * lambda_bytes) % U64)) % U64) + 2) % U64
  pure (padd base_ptr ((index * ell_hat_bytes) % U64))

/-- faest.c:31-38 `signature_u_tilde`. -/
def signature_u_tilde (base_ptr : CPtr) (params : Params) : CM CPtr := do
  let lambda_bytes : Nat := params.lambda / 8
  let ell_bytes : Nat := params.l / 8
  let ell_hat_bytes : Nat := (((ell_bytes + ((2 * lambda_bytes) % U64)) % U64) + 2) % U64
  let e1 ← isub params.tau 1
  pure (padd base_ptr ((e1 * ell_hat_bytes) % U64))

/-- faest.c:40-47 `signature_d`. -/
def signature_d (base_ptr : CPtr) (params : Params) : CM CPtr := do
  let lambda_bytes : Nat := params.lambda / 8
  let ell_bytes : Nat := params.l / 8
  let ell_hat_bytes : Nat := (((ell_bytes + ((2 * lambda_bytes) % U64)) % U64) + 2) % U64
  let utilde_bytes : Nat := (lambda_bytes + 2) % U64
  let e1 ← isub params.tau 1
  pure (padd (padd base_ptr ((e1 * ell_hat_bytes) % U64)) utilde_bytes)

/-- faest.c:49-57 `signature_a_tilde`. -/
def signature_a_tilde (base_ptr : CPtr) (params : Params) : CM CPtr := do
  let lambda_bytes : Nat := params.lambda / 8
  let ell_bytes : Nat := params.l / 8
  let ell_hat_bytes : Nat := (((ell_bytes + ((2 * lambda_bytes) % U64)) % U64) + 2) % U64
  let utilde_bytes : Nat := (lambda_bytes + 2) % U64
  let e1 ← isub params.tau 1
  pure (padd (padd (padd base_ptr ((e1 * ell_hat_bytes) % U64)) utilde_bytes) ell_bytes)

/-- faest.c:59-76 `signature_pdec`. -/
def signature_pdec (base_ptr : CPtr) (index : Nat) (params : Params) : CM CPtr := do
  let tau0 : Nat := params.t0
  let lambda_bytes : Nat := params.lambda / 8
  let ell_bytes : Nat := params.l / 8
  let ell_hat_bytes : Nat := (((ell_bytes + ((2 * lambda_bytes) % U64)) % U64) + 2) % U64
  let utilde_bytes : Nat := (lambda_bytes + 2) % U64
  let e1 ← isub params.tau 1
  let base_ptr : CPtr := padd base_ptr ((((((((e1 * ell_hat_bytes) % U64) + utilde_bytes) % U64) + ell_bytes) % U64) + lambda_bytes) % U64)
  if index < tau0 then (do
    pure (padd base_ptr ((((index * (params.k0 + 2)) % U32) * lambda_bytes) % U64)))
  else (do
    pure (padd base_ptr ((((((((index + U32 - tau0) % U32) * (params.k1 + 2)) % U32) + ((tau0 * (params.k0 + 2)) % U32)) % U32) * lambda_bytes) % U64)))

/-- faest.c:78-96 `signature_com`. -/
def signature_com (base_ptr : CPtr) (index : Nat) (params : Params) : CM CPtr := do
  let tau0 : Nat := params.t0
  let lambda_bytes : Nat := params.lambda / 8
  let ell_bytes : Nat := params.l / 8
  let ell_hat_bytes : Nat := (((ell_bytes + ((2 * lambda_bytes) % U64)) % U64) + 2) % U64
  let utilde_bytes : Nat := (lambda_bytes + 2) % U64
  let e1 ← isub params.tau 1
  let base_ptr : CPtr := padd base_ptr ((((((((e1 * ell_hat_bytes) % U64) + utilde_bytes) % U64) + ell_bytes) % U64) + lambda_bytes) % U64)
  if index < tau0 then (do
    pure (padd base_ptr ((((((index * (params.k0 + 2)) % U32) + params.k0) % U32) * lambda_bytes) % U64)))
  else (do
    pure (padd base_ptr ((((((((((index + U32 - tau0) % U32) * (params.k1 + 2)) % U32) + params.k1) % U32) + ((tau0 * (params.k0 + 2)) % U32)) % U32) * lambda_bytes) % U64)))

/-- faest.c:98-102 `signature_chall_3`. -/
def signature_chall_3 (base_ptr : CPtr) (params : Params) : CM CPtr := do
  let lambda_bytes : Nat := params.lambda / 8
  pure (psub (psub (padd base_ptr params.sigSize) 16) lambda_bytes)

/-- faest.c:104-106 `signature_iv`. -/
def signature_iv (base_ptr : CPtr) (params : Params) : CM CPtr := do
  pure (psub (padd base_ptr params.sigSize) 16)

/-- faest.c:110-117 `dsignature_c`. -/
def dsignature_c (base_ptr : CPtr) (index : Nat) (params : Params) : CM CPtr := do
  let lambda_bytes : Nat := params.lambda / 8
  let ell_bytes : Nat := params.l / 8
  let ell_hat_bytes : Nat := (((ell_bytes + ((2 * lambda_bytes) % U64)) % U64) + 2) % U64
  pure (padd base_ptr ((index * ell_hat_bytes) % U64))

/-- faest.c:119-126 `dsignature_u_tilde`. -/
def dsignature_u_tilde (base_ptr : CPtr) (params : Params) : CM CPtr := do
  let lambda_bytes : Nat := params.lambda / 8
  let ell_bytes : Nat := params.l / 8
  let ell_hat_bytes : Nat := (((ell_bytes + ((2 * lambda_bytes) % U64)) % U64) + 2) % U64
  let e1 ← isub params.tau 1
  pure (padd base_ptr ((e1 * ell_hat_bytes) % U64))

/-- faest.c:128-136 `dsignature_d`. -/
def dsignature_d (base_ptr : CPtr) (params : Params) : CM CPtr := do
  let lambda_bytes : Nat := params.lambda / 8
  let ell_bytes : Nat := params.l / 8
  let ell_hat_bytes : Nat := (((ell_bytes + ((2 * lambda_bytes) % U64)) % U64) + 2) % U64
  let utilde_bytes : Nat := (lambda_bytes + 2) % U64
  let e1 ← isub params.tau 1
  pure (padd (padd base_ptr ((e1 * ell_hat_bytes) % U64)) utilde_bytes)

/-- faest.c:138-146 `dsignature_a_tilde`. -/
def dsignature_a_tilde (base_ptr : CPtr) (params : Params) : CM CPtr := do
  let lambda_bytes : Nat := params.lambda / 8
  let ell_bytes : Nat := params.l / 8
  let ell_hat_bytes : Nat := (((ell_bytes + ((2 * lambda_bytes) % U64)) % U64) + 2) % U64
  let utilde_bytes : Nat := (lambda_bytes + 2) % U64
  let e1 ← isub params.tau 1
  pure (padd (padd (padd base_ptr ((e1 * ell_hat_bytes) % U64)) utilde_bytes) ell_bytes)

/-- faest.c:148-165 `dsignature_pdec`. -/
def dsignature_pdec (base_ptr : CPtr) (index : Nat) (params : Params) : CM CPtr := do
  let tau0 : Nat := params.t0
  let lambda_bytes : Nat := params.lambda / 8
  let ell_bytes : Nat := params.l / 8
  let ell_hat_bytes : Nat := (((ell_bytes + ((2 * lambda_bytes) % U64)) % U64) + 2) % U64
  let utilde_bytes : Nat := (lambda_bytes + 2) % U64
  let e1 ← isub params.tau 1
  let base_ptr : CPtr := padd base_ptr ((((((((e1 * ell_hat_bytes) % U64) + utilde_bytes) % U64) + ell_bytes) % U64) + lambda_bytes) % U64)
  if index < tau0 then (do
    pure (padd base_ptr ((((index * (params.k0 + 2)) % U32) * lambda_bytes) % U64)))
  else (do
    pure (padd base_ptr ((((((((index + U32 - tau0) % U32) * (params.k1 + 2)) % U32) + ((tau0 * (params.k0 + 2)) % U32)) % U32) * lambda_bytes) % U64)))

/-- faest.c:167-185 `dsignature_com`. -/
def dsignature_com (base_ptr : CPtr) (index : Nat) (params : Params) : CM CPtr := do
  let tau0 : Nat := params.t0
  let lambda_bytes : Nat := params.lambda / 8
  let ell_bytes : Nat := params.l / 8
  let ell_hat_bytes : Nat := (((ell_bytes + ((2 * lambda_bytes) % U64)) % U64) + 2) % U64
  let utilde_bytes : Nat := (lambda_bytes + 2) % U64
  let e1 ← isub params.tau 1
  let base_ptr : CPtr := padd base_ptr ((((((((e1 * ell_hat_bytes) % U64) + utilde_bytes) % U64) + ell_bytes) % U64) + lambda_bytes) % U64)
  if index < tau0 then (do
    pure (padd base_ptr ((((((index * (params.k0 + 2)) % U32) + params.k0) % U32) * lambda_bytes) % U64)))
  else (do
    pure (padd base_ptr ((((((((((index + U32 - tau0) % U32) * (params.k1 + 2)) % U32) + params.k1) % U32) + ((tau0 * (params.k0 + 2)) % U32)) % U32) * lambda_bytes) % U64)))

/-- faest.c:187-191 `dsignature_chall_3`. -/
def dsignature_chall_3 (base_ptr : CPtr) (params : Params) : CM CPtr := do
  let lambda_bytes : Nat := params.lambda / 8
  pure (psub (psub (padd base_ptr params.sigSize) 16) lambda_bytes)

/-- faest.c:193-196 `dsignature_iv`. -/
def dsignature_iv (base_ptr : CPtr) (params : Params) : CM CPtr := do
  pure (psub (padd base_ptr params.sigSize) 16)

/-- faest.c:198-206 `hash_mu`. -/
def hash_mu (I : HImpl) (mu : CPtr) (owf_input : CPtr) (owf_output : CPtr) (owf_size : Nat) (msg : CPtr)
    (msglen : Nat) (lambda : Nat) : CM Unit := do
  let h1_ctx ← I.new
  let e1 ← I.H1_init h1_ctx lambda
  let h1_ctx := e1
  let e2 ← I.H1_update h1_ctx owf_input owf_size
  let h1_ctx := e2
  let e3 ← I.H1_update h1_ctx owf_output owf_size
  let h1_ctx := e3
  let e4 ← I.H1_update h1_ctx msg msglen
  let h1_ctx := e4
  let e5 ← I.H1_final h1_ctx mu (((2 * lambda) % U32) / 8)
  let h1_ctx := e5
  I.drop h1_ctx
  pure ()

/-- faest.c:208-221 `hash_challenge_1`. -/
def hash_challenge_1 (I : HImpl) (chall_1 : CPtr) (mu : CPtr) (hcom : CPtr) (c : CPtr) (iv : CPtr) (lambda : Nat)
    (ell : Nat) (tau : Nat) : CM Unit := do
  let lambda_bytes : Nat := lambda / 8
  let ell_hat_bytes : Nat := ((((ell / 8) + ((lambda_bytes * 2) % U32)) % U32) + 2) % U32
  let h2_ctx ← I.new
  let e1 ← I.H2_init h2_ctx lambda
  let h2_ctx := e1
  let e2 ← I.H2_update h2_ctx mu ((lambda_bytes * 2) % U32)
  let h2_ctx := e2
  let e3 ← I.H2_update h2_ctx hcom ((lambda_bytes * 2) % U32)
  let h2_ctx := e3
  let e4 ← I.H2_update h2_ctx c ((ell_hat_bytes * ((tau + U32 - 1) % U32)) % U32)
  let h2_ctx := e4
  let e5 ← I.H2_update h2_ctx iv 16
  let h2_ctx := e5
  let e6 ← I.H2_final h2_ctx chall_1 ((((5 * lambda_bytes) % U32) + 8) % U32)
  let h2_ctx := e6
  I.drop h2_ctx
  pure ()

/-- faest.c:223-237 `hash_challenge_2`. -/
def hash_challenge_2 (I : HImpl) (chall_2 : CPtr) (chall_1 : CPtr) (u_tilde : CPtr) (h_v : CPtr) (d : CPtr)
    (lambda : Nat) (ell : Nat) : CM Unit := do
  let lambda_bytes : Nat := lambda / 8
  let ell_bytes : Nat := ell / 8
  let u_tilde_bytes : Nat := (lambda_bytes + 2) % U32
  let h2_ctx_1 ← I.new
  let e1 ← I.H2_init h2_ctx_1 lambda
  let h2_ctx_1 := e1
  let e2 ← I.H2_update h2_ctx_1 chall_1 ((((5 * lambda_bytes) % U32) + 8) % U32)
  let h2_ctx_1 := e2
  let e3 ← I.H2_update h2_ctx_1 u_tilde u_tilde_bytes
  let h2_ctx_1 := e3
  let e4 ← I.H2_update h2_ctx_1 h_v ((2 * lambda_bytes) % U32)
  let h2_ctx_1 := e4
  let e5 ← I.H2_update h2_ctx_1 d ell_bytes
  let h2_ctx_1 := e5
  let e6 ← I.H2_final h2_ctx_1 chall_2 ((((3 * lambda_bytes) % U32) + 8) % U32)
  let h2_ctx_1 := e6
  I.drop h2_ctx_1
  pure ()

/-- faest.c:239-249 `hash_challenge_3`. -/
def hash_challenge_3 (I : HImpl) (chall_3 : CPtr) (chall_2 : CPtr) (a_tilde : CPtr) (b_tilde : CPtr)
    (lambda : Nat) : CM Unit := do
  let lambda_bytes : Nat := lambda / 8
  let h2_ctx_2 ← I.new
  let e1 ← I.H2_init h2_ctx_2 lambda
  let h2_ctx_2 := e1
  let e2 ← I.H2_update h2_ctx_2 chall_2 ((((3 * lambda_bytes) % U32) + 8) % U32)
  let h2_ctx_2 := e2
  let e3 ← I.H2_update h2_ctx_2 a_tilde lambda_bytes
  let h2_ctx_2 := e3
  let e4 ← I.H2_update h2_ctx_2 b_tilde lambda_bytes
  let h2_ctx_2 := e4
  let e5 ← I.H2_final h2_ctx_2 chall_3 lambda_bytes
  let h2_ctx_2 := e5
  I.drop h2_ctx_2
  pure ()

/-- faest.c:251-360 `faest_sign`. -/
def faest_sign (I : HImpl) (sig : CPtr) (msg : CPtr) (msglen : Nat) (owf_key : CPtr) (owf_input : CPtr)
    (owf_output : CPtr) (rho : CPtr) (rholen : Nat) (params : Params) : CM Unit := do
  let l : Nat := params.l
  let ell_bytes : Nat := l / 8
  let lambda : Nat := params.lambda
  let lambdaBytes : Nat := lambda / 8
  let tau : Nat := params.tau
  let tau0 : Nat := params.t0
  let ell_hat : Nat := (((l + ((lambda * 2) % U32)) % U32) + 16) % U32
  let ell_hat_bytes : Nat := ell_hat / 8
  let mu ← alloc .stack (malloc 64 : Mem Byte)
  hash_mu I mu owf_input owf_output (params.pkSize / 2) msg msglen lambda
  let rootkey ← alloc .stack (malloc 32 : Mem Byte)
  let h3_ctx ← I.new
  let e1 ← I.H3_init h3_ctx lambda
  let h3_ctx := e1
  let e2 ← I.H3_update h3_ctx owf_key lambdaBytes
  let h3_ctx := e2
  let e3 ← I.H3_update h3_ctx mu ((lambdaBytes * 2) % U32)
  let h3_ctx := e3
  let e4 : I.Ctx ← (
    if (rho.isSome = true) ∧ (rholen ≠ 0) then (do
      let e5 ← I.H3_update h3_ctx rho rholen
      let h3_ctx := e5
      pure h3_ctx)
    else (do
      pure h3_ctx))
  let h3_ctx : I.Ctx := e4
  let e6 ← signature_iv sig params
  let e7 ← I.H3_final h3_ctx rootkey lambdaBytes e6
  let h3_ctx := e7
  I.drop h3_ctx
  let hcom ← alloc .stack (malloc 64 : Mem Byte)
  let e8 ← alloc .heap (calloc tau zeroed : Mem VecComC)
  let vecCom : CPtr := e8
  let e9 ← alloc .heap (malloc ell_hat_bytes : Mem Byte)
  let u : CPtr := e9
  let e10 ← alloc .heap (malloc lambda : Mem CPtr)
  let V : CPtr := e10
  let e11 ← alloc .heap (calloc (lambda * ell_hat_bytes) zeroed : Mem Byte)
  st V 0 e11
  let i : Nat := 1
  let e12 : Nat ← cwhile
      (fun _s1 =>
        let i : Nat := _s1
        decide (i < lambda))
      (fun _s1 => do
        let i : Nat := _s1
        let e13 : CPtr ← ld V 0
        st V i (padd e13 ((i * ell_hat_bytes) % U32))
        let i : Nat := (i + 1) % U32
        pure i)
      i
  let e14 ← signature_iv sig params
  let e15 ← signature_c sig 0 params
  vole_commit I rootkey e14 ell_hat params hcom vecCom e15 u V
  let chall_1 ← alloc .stack (malloc 168 : Mem Byte)
  let e16 ← signature_c sig 0 params
  let e17 ← signature_iv sig params
  hash_challenge_1 I chall_1 mu hcom e16 e17 lambda l tau
  let e18 ← signature_u_tilde sig params
  vole_hash e18 chall_1 u l lambda
  let h_v ← alloc .stack (malloc 64 : Mem Byte)
  let h1_ctx_1 ← I.new
  let e19 ← I.H1_init h1_ctx_1 lambda
  let h1_ctx_1 := e19
  let V_tilde ← alloc .stack (malloc 34 : Mem Byte)
  let i : Nat := 0
  let e20 : I.Ctx × Nat ← cwhile
      (fun _s1 =>
        let i : Nat := _s1.2
        decide (i ≠ lambda))
      (fun _s1 => do
        let h1_ctx_1 : I.Ctx := _s1.1
        let i : Nat := _s1.2
        let e21 : CPtr ← ld V i
        vole_hash V_tilde chall_1 e21 l lambda
        let e22 ← I.H1_update h1_ctx_1 V_tilde ((lambdaBytes + 2) % U32)
        let h1_ctx_1 := e22
        let i : Nat := (i + 1) % U32
        pure (h1_ctx_1, i))
      (h1_ctx_1, i)
  let h1_ctx_1 : I.Ctx := e20.1
  let e23 ← I.H1_final h1_ctx_1 h_v ((lambdaBytes * 2) % U32)
  let h1_ctx_1 := e23
  cfree .stack V_tilde
  I.drop h1_ctx_1
  let e24 ← aes_extend_witness owf_key owf_input params
  let w : CPtr := e24
  let e25 ← signature_d sig params
  xor_u8_array w u e25 ell_bytes
  let chall_2 ← alloc .stack (malloc 104 : Mem Byte)
  let e26 ← signature_u_tilde sig params
  let e27 ← signature_d sig params
  hash_challenge_2 I chall_2 chall_1 e26 h_v e27 lambda l
  let b_tilde ← alloc .stack (malloc 32 : Mem Byte)
  let e28 ← signature_a_tilde sig params
  aes_prove w u V owf_input owf_output chall_2 e28 b_tilde params
  let e29 : CPtr ← ld V 0
  cfree .heap e29
  cfree .heap V
  let V : CPtr := (none : CPtr)
  cfree .heap w
  let w : CPtr := (none : CPtr)
  cfree .heap u
  let u : CPtr := (none : CPtr)
  let e30 ← signature_chall_3 sig params
  let e31 ← signature_a_tilde sig params
  hash_challenge_3 I e30 chall_2 e31 b_tilde lambda
  let i : Nat := 0
  let e32 : Nat ← cwhile
      (fun _s1 =>
        let i : Nat := _s1
        decide (i < tau))
      (fun _s1 => do
        let i : Nat := _s1
        let s_ ← alloc .stack (malloc 12 : Mem Byte)
        let e33 ← signature_chall_3 sig params
        let e34 ← ChalDec e33 i params.k0 params.t0 params.k1 params.t1 s_
        let depth : Nat := (if i < tau0 then params.k0 else params.k1)
        let e35 : VecComC ← ld vecCom i
        let e36 ← uget e35.k
        let e37 : VecComC ← ld vecCom i
        let e38 ← uget e37.com
        let e39 ← signature_pdec sig i params
        let e40 ← signature_com sig i params
        vector_open e36 e38 s_ e39 e40 depth lambdaBytes
        let e41 : VecComC ← ld vecCom i
        let e42 ← vec_com_clear e41
        st vecCom i e42
        cfree .stack s_
        let i : Nat := (i + 1) % U32
        pure i)
      i
  cfree .heap vecCom
  let vecCom : CPtr := (none : CPtr)
  cfree .stack b_tilde
  cfree .stack chall_2
  cfree .stack h_v
  cfree .stack chall_1
  cfree .stack hcom
  cfree .stack rootkey
  cfree .stack mu
  pure ()

/-- faest.c:362-492 `faest_verify`. -/
def faest_verify (I : HImpl) (msg : CPtr) (msglen : Nat) (sig : CPtr) (owf_input : CPtr) (owf_output : CPtr)
    (params : Params) : CM Nat := do
  let l : Nat := params.l
  let lambda : Nat := params.lambda
  let lambdaBytes : Nat := lambda / 8
  let tau : Nat := params.tau
  let tau0 : Nat := params.t0
  let ell_hat : Nat := (((l + ((lambda * 2) % U32)) % U32) + 16) % U32
  let ell_hat_bytes : Nat := ell_hat / 8
  let utilde_bytes : Nat := (lambdaBytes + 2) % U32
  let k0 : Nat := params.k0
  let k1 : Nat := params.k1
  let mu ← alloc .stack (malloc 64 : Mem Byte)
  hash_mu I mu owf_input owf_output (params.pkSize / 2) msg msglen lambda
  let e1 ← alloc .heap (malloc lambda : Mem CPtr)
  let qprime : CPtr := e1
  let e2 ← alloc .heap (calloc (lambda * ell_hat_bytes) zeroed : Mem Byte)
  st qprime 0 e2
  let i : Nat := 1
  let e3 : Nat ← cwhile
      (fun _s1 =>
        let i : Nat := _s1
        decide (i < lambda))
      (fun _s1 => do
        let i : Nat := _s1
        let e4 : CPtr ← ld qprime 0
        st qprime i (padd e4 ((i * ell_hat_bytes) % U32))
        let i : Nat := (i + 1) % U32
        pure i)
      i
  let hcom ← alloc .stack (malloc 64 : Mem Byte)
  let pdec ← alloc .stack (malloc 32 : Mem CPtr)
  let com ← alloc .stack (malloc 32 : Mem CPtr)
  let i : Nat := 0
  let e5 : Nat ← cwhile
      (fun _s1 =>
        let i : Nat := _s1
        decide (i < tau))
      (fun _s1 => do
        let i : Nat := _s1
        let e6 ← dsignature_pdec sig i params
        st pdec i e6
        let e7 ← dsignature_com sig i params
        st com i e7
        let i : Nat := (i + 1) % U32
        pure i)
      i
  let e8 ← dsignature_iv sig params
  let e9 ← dsignature_chall_3 sig params
  vole_reconstruct I e8 e9 pdec com hcom qprime ell_hat params
  cfree .stack com
  cfree .stack pdec
  let chall_1 ← alloc .stack (malloc 168 : Mem Byte)
  let e10 ← dsignature_c sig 0 params
  let e11 ← dsignature_iv sig params
  hash_challenge_1 I chall_1 mu hcom e10 e11 lambda l tau
  let e12 ← alloc .heap (malloc lambda : Mem CPtr)
  let q : CPtr := e12
  let e13 ← alloc .heap (calloc (lambda * ell_hat_bytes) zeroed : Mem Byte)
  st q 0 e13
  let i : Nat := 1
  let e14 : Nat ← cwhile
      (fun _s1 =>
        let i : Nat := _s1
        decide (i < lambda))
      (fun _s1 => do
        let i : Nat := _s1
        let e15 : CPtr ← ld q 0
        st q i (padd e15 ((i * ell_hat_bytes) % U32))
        let i : Nat := (i + 1) % U32
        pure i)
      i
  let e16 ← alloc .heap (malloc lambda : Mem CPtr)
  let Dtilde : CPtr := e16
  let e17 ← alloc .heap (calloc (lambda * ((lambdaBytes + 2) % U32)) zeroed : Mem Byte)
  st Dtilde 0 e17
  let i : Nat := 1
  let e18 : Nat ← cwhile
      (fun _s1 =>
        let i : Nat := _s1
        decide (i < lambda))
      (fun _s1 => do
        let i : Nat := _s1
        let e19 : CPtr ← ld Dtilde 0
        st Dtilde i (padd e19 ((i * ((lambdaBytes + 2) % U32)) % U32))
        let i : Nat := (i + 1) % U32
        pure i)
      i
  let Dtilde_idx : Nat := 0
  let q_idx : Nat := 0
  let i : Nat := 0
  let e20 : Nat × Nat × Nat ← cwhile
      (fun _s1 =>
        let i : Nat := _s1.2.2
        decide (i < tau))
      (fun _s1 => do
        let Dtilde_idx : Nat := _s1.1
        let q_idx : Nat := _s1.2.1
        let i : Nat := _s1.2.2
        let depth : Nat := (if i < tau0 then k0 else k1)
        let delta ← alloc .stack (malloc 12 : Mem Byte)
        let e21 ← dsignature_chall_3 sig params
        let e22 ← ChalDec e21 i params.k0 params.t0 params.k1 params.t1 delta
        let j : Nat := 0
        let e23 : Nat × Nat ← cwhile
            (fun _s2 =>
              let j : Nat := _s2.2
              decide (j ≠ depth))
            (fun _s2 => do
              let Dtilde_idx : Nat := _s2.1
              let j : Nat := _s2.2
              cassert (decide (Dtilde_idx < lambda))
              let e24 : CPtr ← ld Dtilde Dtilde_idx
              let e25 ← dsignature_u_tilde sig params
              let e26 : CPtr ← ld Dtilde Dtilde_idx
              let e27 : Byte ← ld delta j
              masked_xor_u8_array e24 e25 e26 e27 utilde_bytes
              let j : Nat := (j + 1) % U32
              let Dtilde_idx : Nat := (Dtilde_idx + 1) % U32
              pure (Dtilde_idx, j))
            (Dtilde_idx, j)
        let Dtilde_idx : Nat := e23.1
        let e28 : Nat ← (
          if i = 0 then (do
            let e29 : CPtr ← ld q q_idx
            let e30 : CPtr ← ld qprime q_idx
            memcpy (α := Byte) e29 e30 ((ell_hat_bytes * depth) % U32)
            let q_idx : Nat := (q_idx + depth) % U32
            pure q_idx)
          else (do
            let d : Nat := 0
            let e31 : Nat × Nat ← cwhile
                (fun _s2 =>
                  let d : Nat := _s2.2
                  decide (d < depth))
                (fun _s2 => do
                  let q_idx : Nat := _s2.1
                  let d : Nat := _s2.2
                  let e32 : CPtr ← ld qprime q_idx
                  let e33 ← dsignature_c sig ((i + U32 - 1) % U32) params
                  let e34 : CPtr ← ld q q_idx
                  let e35 : Byte ← ld delta d
                  masked_xor_u8_array e32 e33 e34 e35 ell_hat_bytes
                  let d : Nat := (d + 1) % U32
                  let q_idx : Nat := (q_idx + 1) % U32
                  pure (q_idx, d))
                (q_idx, d)
            let q_idx : Nat := e31.1
            pure q_idx))
        let q_idx : Nat := e28
        cfree .stack delta
        let i : Nat := (i + 1) % U32
        pure (Dtilde_idx, q_idx, i))
      (Dtilde_idx, q_idx, i)
  let Dtilde_idx : Nat := e20.1
  let q_idx : Nat := e20.2.1
  let e36 : CPtr ← ld qprime 0
  cfree .heap e36
  cfree .heap qprime
  let qprime : CPtr := (none : CPtr)
  let h_v ← alloc .stack (malloc 64 : Mem Byte)
  let h1_ctx_1 ← I.new
  let e37 ← I.H1_init h1_ctx_1 lambda
  let h1_ctx_1 := e37
  let Q_tilde ← alloc .stack (malloc 34 : Mem Byte)
  let i : Nat := 0
  let e38 : I.Ctx × Nat ← cwhile
      (fun _s1 =>
        let i : Nat := _s1.2
        decide (i ≠ lambda))
      (fun _s1 => do
        let h1_ctx_1 : I.Ctx := _s1.1
        let i : Nat := _s1.2
        let e39 : CPtr ← ld q i
        vole_hash Q_tilde chall_1 e39 l lambda
        let e40 : CPtr ← ld Dtilde i
        xor_u8_array Q_tilde e40 Q_tilde ((lambdaBytes + 2) % U32)
        let e41 ← I.H1_update h1_ctx_1 Q_tilde ((lambdaBytes + 2) % U32)
        let h1_ctx_1 := e41
        let i : Nat := (i + 1) % U32
        pure (h1_ctx_1, i))
      (h1_ctx_1, i)
  let h1_ctx_1 : I.Ctx := e38.1
  let e42 ← I.H1_final h1_ctx_1 h_v ((lambdaBytes * 2) % U32)
  let h1_ctx_1 := e42
  cfree .stack Q_tilde
  I.drop h1_ctx_1
  let e43 : CPtr ← ld Dtilde 0
  cfree .heap e43
  cfree .heap Dtilde
  let Dtilde : CPtr := (none : CPtr)
  let chall_2 ← alloc .stack (malloc 104 : Mem Byte)
  let e44 ← dsignature_u_tilde sig params
  let e45 ← dsignature_d sig params
  hash_challenge_2 I chall_2 chall_1 e44 h_v e45 lambda l
  let e46 ← dsignature_d sig params
  let e47 ← dsignature_chall_3 sig params
  let e48 ← dsignature_a_tilde sig params
  let e49 ← aes_verify e46 q chall_2 e47 e48 owf_input owf_output params
  let b_tilde : CPtr := e49
  let e50 : CPtr ← ld q 0
  cfree .heap e50
  cfree .heap q
  let q : CPtr := (none : CPtr)
  let chall_3 ← alloc .stack (malloc 32 : Mem Byte)
  let e51 ← dsignature_a_tilde sig params
  hash_challenge_3 I chall_3 chall_2 e51 b_tilde lambda
  cfree .heap b_tilde
  let b_tilde : CPtr := (none : CPtr)
  let e52 ← dsignature_chall_3 sig params
  let e53 ← memcmp chall_3 e52 lambdaBytes
  let e54 := (if e53 = 0 then 0 else 4294967295)
  cfree .stack chall_3
  cfree .stack chall_2
  cfree .stack h_v
  cfree .stack chall_1
  cfree .stack hcom
  cfree .stack mu
  pure e54

end Faest.Gen
