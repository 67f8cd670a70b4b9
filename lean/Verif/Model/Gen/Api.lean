/-
Generated by tools/c2lean.py from faest_param.c.in. Do not edit.
-/
import Verif.Model.Gen.Instances
import Verif.Model.Gen.Faest
import Verif.Model.Gen.Owf
import Verif.Model.Gen.Compat

set_option linter.unusedVariables false

namespace Faest.Gen
open Faest.C

/-- faest_param.c.in:28-46 `faest_128s_keygen`. -/
def faest_128s_keygen (R : CPtr) (pk : CPtr) (sk : CPtr) : CM Nat := do
  if (¬ (pk.isSome = true)) ∨ (¬ (sk.isSome = true)) then (do
    pure 4294967295)
  else (do
    let done : Bool := false
    let e1 : Bool ← cwhile
        (fun _s1 =>
          let done : Bool := _s1
          decide ((¬ (done = true))))
        (fun _s1 => do
          let done : Bool := _s1
          let e2 ← rand_bytes R sk 32
          let e3 ← owf_128 (padd sk 16) sk (padd pk 16)
          let done : Bool := e3
          pure done)
        done
    let done : Bool := e1
    memcpy (α := Byte) pk sk 16
    pure 0)

/-- faest_param.c.in:48-61 `faest_128s_validate_keypair`. -/
def faest_128s_validate_keypair (pk : CPtr) (sk : CPtr) : CM Nat := do
  if (¬ (sk.isSome = true)) ∨ (¬ (pk.isSome = true)) then (do
    pure 4294967295)
  else (do
    let pk_check ← alloc .stack (malloc 32 : Mem Byte)
    let e1 ← owf_128 (padd sk 16) sk (padd pk_check 16)
    if (¬ (e1 = true)) then (do
      cfree .stack pk_check
      pure 1)
    else (do
      memcpy (α := Byte) pk_check sk 16
      let e2 ← faest_timingsafe_bcmp pk_check pk 32
      let e3 := (if e2 = 0 then 0 else 2)
      cfree .stack pk_check
      pure e3))

/-- faest_param.c.in:63-81 `faest_128s_sign_with_randomness`. -/
def faest_128s_sign_with_randomness (I : HImpl) (sk : CPtr) (message : CPtr) (message_len : Nat) (rho : CPtr)
    (rho_len : Nat) (signature : CPtr) (signature_len : CPtr) : CM Nat := do
  let e2 : Bool ← (if ((¬ (sk.isSome = true)) ∨ (¬ (signature.isSome = true))) ∨ (¬ (signature_len.isSome = true)) then pure true
    else (do
      let e1 : Nat ← ld signature_len 0
      pure (decide (e1 < 5006))))
  if (e2 = true) ∨ ((¬ (rho.isSome = true)) ∧ (rho_len ≠ 0)) then (do
    pure 4294967295)
  else (do
    let owf_output ← alloc .stack (malloc 16 : Mem Byte)
    let e3 ← owf_128 (padd sk 16) sk owf_output
    if (¬ (e3 = true)) then (do
      cfree .stack owf_output
      pure 4294967295)
    else (do
      let params : Params := faest_get_paramset (some ParamId.p128S)
      faest_sign I signature message message_len (padd sk 16) sk owf_output rho rho_len params
      st signature_len 0 5006
      cfree .stack owf_output
      pure 0))

/-- faest_param.c.in:83-92 `faest_128s_sign`. -/
def faest_128s_sign (I : HImpl) (R : CPtr) (sk : CPtr) (message : CPtr) (message_len : Nat) (signature : CPtr)
    (signature_len : CPtr) : CM Nat := do
  let e2 : Bool ← (if ((¬ (sk.isSome = true)) ∨ (¬ (signature.isSome = true))) ∨ (¬ (signature_len.isSome = true)) then pure true
    else (do
      let e1 : Nat ← ld signature_len 0
      pure (decide (e1 < 5006))))
  if e2 = true then (do
    pure 4294967295)
  else (do
    let rho ← alloc .stack (malloc 16 : Mem Byte)
    let e3 ← rand_bytes R rho 16
    let e4 ← faest_128s_sign_with_randomness I sk message message_len rho 16 signature signature_len
    cfree .stack rho
    pure e4)

/-- faest_param.c.in:94-101 `faest_128s_verify`. -/
def faest_128s_verify (I : HImpl) (pk : CPtr) (message : CPtr) (message_len : Nat) (signature : CPtr)
    (signature_len : Nat) : CM Nat := do
  if ((¬ (pk.isSome = true)) ∨ (¬ (signature.isSome = true))) ∨ (signature_len ≠ 5006) then (do
    pure 4294967295)
  else (do
    let params : Params := faest_get_paramset (some ParamId.p128S)
    let e1 ← faest_verify I message message_len signature pk (padd pk 16) params
    pure e1)

/-- faest_param.c.in:103-105 `faest_128s_clear_private_key`. -/
def faest_128s_clear_private_key (key : CPtr) : CM Unit := do
  faest_explicit_bzero key 32
  pure ()

/-- faest_param.c.in:28-46 `faest_128f_keygen`. -/
def faest_128f_keygen (R : CPtr) (pk : CPtr) (sk : CPtr) : CM Nat := do
  if (¬ (pk.isSome = true)) ∨ (¬ (sk.isSome = true)) then (do
    pure 4294967295)
  else (do
    let done : Bool := false
    let e1 : Bool ← cwhile
        (fun _s1 =>
          let done : Bool := _s1
          decide ((¬ (done = true))))
        (fun _s1 => do
          let done : Bool := _s1
          let e2 ← rand_bytes R sk 32
          let e3 ← owf_128 (padd sk 16) sk (padd pk 16)
          let done : Bool := e3
          pure done)
        done
    let done : Bool := e1
    memcpy (α := Byte) pk sk 16
    pure 0)

/-- faest_param.c.in:48-61 `faest_128f_validate_keypair`. -/
def faest_128f_validate_keypair (pk : CPtr) (sk : CPtr) : CM Nat := do
  if (¬ (sk.isSome = true)) ∨ (¬ (pk.isSome = true)) then (do
    pure 4294967295)
  else (do
    let pk_check ← alloc .stack (malloc 32 : Mem Byte)
    let e1 ← owf_128 (padd sk 16) sk (padd pk_check 16)
    if (¬ (e1 = true)) then (do
      cfree .stack pk_check
      pure 1)
    else (do
      memcpy (α := Byte) pk_check sk 16
      let e2 ← faest_timingsafe_bcmp pk_check pk 32
      let e3 := (if e2 = 0 then 0 else 2)
      cfree .stack pk_check
      pure e3))

/-- faest_param.c.in:63-81 `faest_128f_sign_with_randomness`. -/
def faest_128f_sign_with_randomness (I : HImpl) (sk : CPtr) (message : CPtr) (message_len : Nat) (rho : CPtr)
    (rho_len : Nat) (signature : CPtr) (signature_len : CPtr) : CM Nat := do
  let e2 : Bool ← (if ((¬ (sk.isSome = true)) ∨ (¬ (signature.isSome = true))) ∨ (¬ (signature_len.isSome = true)) then pure true
    else (do
      let e1 : Nat ← ld signature_len 0
      pure (decide (e1 < 6336))))
  if (e2 = true) ∨ ((¬ (rho.isSome = true)) ∧ (rho_len ≠ 0)) then (do
    pure 4294967295)
  else (do
    let owf_output ← alloc .stack (malloc 16 : Mem Byte)
    let e3 ← owf_128 (padd sk 16) sk owf_output
    if (¬ (e3 = true)) then (do
      cfree .stack owf_output
      pure 4294967295)
    else (do
      let params : Params := faest_get_paramset (some ParamId.p128F)
      faest_sign I signature message message_len (padd sk 16) sk owf_output rho rho_len params
      st signature_len 0 6336
      cfree .stack owf_output
      pure 0))

/-- faest_param.c.in:83-92 `faest_128f_sign`. -/
def faest_128f_sign (I : HImpl) (R : CPtr) (sk : CPtr) (message : CPtr) (message_len : Nat) (signature : CPtr)
    (signature_len : CPtr) : CM Nat := do
  let e2 : Bool ← (if ((¬ (sk.isSome = true)) ∨ (¬ (signature.isSome = true))) ∨ (¬ (signature_len.isSome = true)) then pure true
    else (do
      let e1 : Nat ← ld signature_len 0
      pure (decide (e1 < 6336))))
  if e2 = true then (do
    pure 4294967295)
  else (do
    let rho ← alloc .stack (malloc 16 : Mem Byte)
    let e3 ← rand_bytes R rho 16
    let e4 ← faest_128f_sign_with_randomness I sk message message_len rho 16 signature signature_len
    cfree .stack rho
    pure e4)

/-- faest_param.c.in:94-101 `faest_128f_verify`. -/
def faest_128f_verify (I : HImpl) (pk : CPtr) (message : CPtr) (message_len : Nat) (signature : CPtr)
    (signature_len : Nat) : CM Nat := do
  if ((¬ (pk.isSome = true)) ∨ (¬ (signature.isSome = true))) ∨ (signature_len ≠ 6336) then (do
    pure 4294967295)
  else (do
    let params : Params := faest_get_paramset (some ParamId.p128F)
    let e1 ← faest_verify I message message_len signature pk (padd pk 16) params
    pure e1)

/-- faest_param.c.in:103-105 `faest_128f_clear_private_key`. -/
def faest_128f_clear_private_key (key : CPtr) : CM Unit := do
  faest_explicit_bzero key 32
  pure ()

/-- faest_param.c.in:28-46 `faest_em_128s_keygen`. -/
def faest_em_128s_keygen (R : CPtr) (pk : CPtr) (sk : CPtr) : CM Nat := do
  if (¬ (pk.isSome = true)) ∨ (¬ (sk.isSome = true)) then (do
    pure 4294967295)
  else (do
    let done : Bool := false
    let e1 : Bool ← cwhile
        (fun _s1 =>
          let done : Bool := _s1
          decide ((¬ (done = true))))
        (fun _s1 => do
          let done : Bool := _s1
          let e2 ← rand_bytes R sk 32
          let e3 ← owf_em_128 (padd sk 16) sk (padd pk 16)
          let done : Bool := e3
          pure done)
        done
    let done : Bool := e1
    memcpy (α := Byte) pk sk 16
    pure 0)

/-- faest_param.c.in:48-61 `faest_em_128s_validate_keypair`. -/
def faest_em_128s_validate_keypair (pk : CPtr) (sk : CPtr) : CM Nat := do
  if (¬ (sk.isSome = true)) ∨ (¬ (pk.isSome = true)) then (do
    pure 4294967295)
  else (do
    let pk_check ← alloc .stack (malloc 32 : Mem Byte)
    let e1 ← owf_em_128 (padd sk 16) sk (padd pk_check 16)
    if (¬ (e1 = true)) then (do
      cfree .stack pk_check
      pure 1)
    else (do
      memcpy (α := Byte) pk_check sk 16
      let e2 ← faest_timingsafe_bcmp pk_check pk 32
      let e3 := (if e2 = 0 then 0 else 2)
      cfree .stack pk_check
      pure e3))

/-- faest_param.c.in:63-81 `faest_em_128s_sign_with_randomness`. -/
def faest_em_128s_sign_with_randomness (I : HImpl) (sk : CPtr) (message : CPtr) (message_len : Nat) (rho : CPtr)
    (rho_len : Nat) (signature : CPtr) (signature_len : CPtr) : CM Nat := do
  let e2 : Bool ← (if ((¬ (sk.isSome = true)) ∨ (¬ (signature.isSome = true))) ∨ (¬ (signature_len.isSome = true)) then pure true
    else (do
      let e1 : Nat ← ld signature_len 0
      pure (decide (e1 < 4566))))
  if (e2 = true) ∨ ((¬ (rho.isSome = true)) ∧ (rho_len ≠ 0)) then (do
    pure 4294967295)
  else (do
    let owf_output ← alloc .stack (malloc 16 : Mem Byte)
    let e3 ← owf_em_128 (padd sk 16) sk owf_output
    if (¬ (e3 = true)) then (do
      cfree .stack owf_output
      pure 4294967295)
    else (do
      let params : Params := faest_get_paramset (some ParamId.pEM128S)
      faest_sign I signature message message_len (padd sk 16) sk owf_output rho rho_len params
      st signature_len 0 4566
      cfree .stack owf_output
      pure 0))

/-- faest_param.c.in:83-92 `faest_em_128s_sign`. -/
def faest_em_128s_sign (I : HImpl) (R : CPtr) (sk : CPtr) (message : CPtr) (message_len : Nat) (signature : CPtr)
    (signature_len : CPtr) : CM Nat := do
  let e2 : Bool ← (if ((¬ (sk.isSome = true)) ∨ (¬ (signature.isSome = true))) ∨ (¬ (signature_len.isSome = true)) then pure true
    else (do
      let e1 : Nat ← ld signature_len 0
      pure (decide (e1 < 4566))))
  if e2 = true then (do
    pure 4294967295)
  else (do
    let rho ← alloc .stack (malloc 16 : Mem Byte)
    let e3 ← rand_bytes R rho 16
    let e4 ← faest_em_128s_sign_with_randomness I sk message message_len rho 16 signature signature_len
    cfree .stack rho
    pure e4)

/-- faest_param.c.in:94-101 `faest_em_128s_verify`. -/
def faest_em_128s_verify (I : HImpl) (pk : CPtr) (message : CPtr) (message_len : Nat) (signature : CPtr)
    (signature_len : Nat) : CM Nat := do
  if ((¬ (pk.isSome = true)) ∨ (¬ (signature.isSome = true))) ∨ (signature_len ≠ 4566) then (do
    pure 4294967295)
  else (do
    let params : Params := faest_get_paramset (some ParamId.pEM128S)
    let e1 ← faest_verify I message message_len signature pk (padd pk 16) params
    pure e1)

/-- faest_param.c.in:103-105 `faest_em_128s_clear_private_key`. -/
def faest_em_128s_clear_private_key (key : CPtr) : CM Unit := do
  faest_explicit_bzero key 32
  pure ()

/-- faest_param.c.in:28-46 `faest_em_128f_keygen`. -/
def faest_em_128f_keygen (R : CPtr) (pk : CPtr) (sk : CPtr) : CM Nat := do
  if (¬ (pk.isSome = true)) ∨ (¬ (sk.isSome = true)) then (do
    pure 4294967295)
  else (do
    let done : Bool := false
    let e1 : Bool ← cwhile
        (fun _s1 =>
          let done : Bool := _s1
          decide ((¬ (done = true))))
        (fun _s1 => do
          let done : Bool := _s1
          let e2 ← rand_bytes R sk 32
          let e3 ← owf_em_128 (padd sk 16) sk (padd pk 16)
          let done : Bool := e3
          pure done)
        done
    let done : Bool := e1
    memcpy (α := Byte) pk sk 16
    pure 0)

/-- faest_param.c.in:48-61 `faest_em_128f_validate_keypair`. -/
def faest_em_128f_validate_keypair (pk : CPtr) (sk : CPtr) : CM Nat := do
  if (¬ (sk.isSome = true)) ∨ (¬ (pk.isSome = true)) then (do
    pure 4294967295)
  else (do
    let pk_check ← alloc .stack (malloc 32 : Mem Byte)
    let e1 ← owf_em_128 (padd sk 16) sk (padd pk_check 16)
    if (¬ (e1 = true)) then (do
      cfree .stack pk_check
      pure 1)
    else (do
      memcpy (α := Byte) pk_check sk 16
      let e2 ← faest_timingsafe_bcmp pk_check pk 32
      let e3 := (if e2 = 0 then 0 else 2)
      cfree .stack pk_check
      pure e3))

/-- faest_param.c.in:63-81 `faest_em_128f_sign_with_randomness`. -/
def faest_em_128f_sign_with_randomness (I : HImpl) (sk : CPtr) (message : CPtr) (message_len : Nat) (rho : CPtr)
    (rho_len : Nat) (signature : CPtr) (signature_len : CPtr) : CM Nat := do
  let e2 : Bool ← (if ((¬ (sk.isSome = true)) ∨ (¬ (signature.isSome = true))) ∨ (¬ (signature_len.isSome = true)) then pure true
    else (do
      let e1 : Nat ← ld signature_len 0
      pure (decide (e1 < 5696))))
  if (e2 = true) ∨ ((¬ (rho.isSome = true)) ∧ (rho_len ≠ 0)) then (do
    pure 4294967295)
  else (do
    let owf_output ← alloc .stack (malloc 16 : Mem Byte)
    let e3 ← owf_em_128 (padd sk 16) sk owf_output
    if (¬ (e3 = true)) then (do
      cfree .stack owf_output
      pure 4294967295)
    else (do
      let params : Params := faest_get_paramset (some ParamId.pEM128F)
      faest_sign I signature message message_len (padd sk 16) sk owf_output rho rho_len params
      st signature_len 0 5696
      cfree .stack owf_output
      pure 0))

/-- faest_param.c.in:83-92 `faest_em_128f_sign`. -/
def faest_em_128f_sign (I : HImpl) (R : CPtr) (sk : CPtr) (message : CPtr) (message_len : Nat) (signature : CPtr)
    (signature_len : CPtr) : CM Nat := do
  let e2 : Bool ← (if ((¬ (sk.isSome = true)) ∨ (¬ (signature.isSome = true))) ∨ (¬ (signature_len.isSome = true)) then pure true
    else (do
      let e1 : Nat ← ld signature_len 0
      pure (decide (e1 < 5696))))
  if e2 = true then (do
    pure 4294967295)
  else (do
    let rho ← alloc .stack (malloc 16 : Mem Byte)
    let e3 ← rand_bytes R rho 16
    let e4 ← faest_em_128f_sign_with_randomness I sk message message_len rho 16 signature signature_len
    cfree .stack rho
    pure e4)

/-- faest_param.c.in:94-101 `faest_em_128f_verify`. -/
def faest_em_128f_verify (I : HImpl) (pk : CPtr) (message : CPtr) (message_len : Nat) (signature : CPtr)
    (signature_len : Nat) : CM Nat := do
  if ((¬ (pk.isSome = true)) ∨ (¬ (signature.isSome = true))) ∨ (signature_len ≠ 5696) then (do
    pure 4294967295)
  else (do
    let params : Params := faest_get_paramset (some ParamId.pEM128F)
    let e1 ← faest_verify I message message_len signature pk (padd pk 16) params
    pure e1)

/-- faest_param.c.in:103-105 `faest_em_128f_clear_private_key`. -/
def faest_em_128f_clear_private_key (key : CPtr) : CM Unit := do
  faest_explicit_bzero key 32
  pure ()

/-- faest_param.c.in:28-46 `faest_192s_keygen`. -/
def faest_192s_keygen (R : CPtr) (pk : CPtr) (sk : CPtr) : CM Nat := do
  if (¬ (pk.isSome = true)) ∨ (¬ (sk.isSome = true)) then (do
    pure 4294967295)
  else (do
    let done : Bool := false
    let e1 : Bool ← cwhile
        (fun _s1 =>
          let done : Bool := _s1
          decide ((¬ (done = true))))
        (fun _s1 => do
          let done : Bool := _s1
          let e2 ← rand_bytes R sk 56
          let e3 ← owf_192 (padd sk 32) sk (padd pk 32)
          let done : Bool := e3
          pure done)
        done
    let done : Bool := e1
    memcpy (α := Byte) pk sk 32
    pure 0)

/-- faest_param.c.in:48-61 `faest_192s_validate_keypair`. -/
def faest_192s_validate_keypair (pk : CPtr) (sk : CPtr) : CM Nat := do
  if (¬ (sk.isSome = true)) ∨ (¬ (pk.isSome = true)) then (do
    pure 4294967295)
  else (do
    let pk_check ← alloc .stack (malloc 64 : Mem Byte)
    let e1 ← owf_192 (padd sk 32) sk (padd pk_check 32)
    if (¬ (e1 = true)) then (do
      cfree .stack pk_check
      pure 1)
    else (do
      memcpy (α := Byte) pk_check sk 32
      let e2 ← faest_timingsafe_bcmp pk_check pk 64
      let e3 := (if e2 = 0 then 0 else 2)
      cfree .stack pk_check
      pure e3))

/-- faest_param.c.in:63-81 `faest_192s_sign_with_randomness`. -/
def faest_192s_sign_with_randomness (I : HImpl) (sk : CPtr) (message : CPtr) (message_len : Nat) (rho : CPtr)
    (rho_len : Nat) (signature : CPtr) (signature_len : CPtr) : CM Nat := do
  let e2 : Bool ← (if ((¬ (sk.isSome = true)) ∨ (¬ (signature.isSome = true))) ∨ (¬ (signature_len.isSome = true)) then pure true
    else (do
      let e1 : Nat ← ld signature_len 0
      pure (decide (e1 < 12744))))
  if (e2 = true) ∨ ((¬ (rho.isSome = true)) ∧ (rho_len ≠ 0)) then (do
    pure 4294967295)
  else (do
    let owf_output ← alloc .stack (malloc 32 : Mem Byte)
    let e3 ← owf_192 (padd sk 32) sk owf_output
    if (¬ (e3 = true)) then (do
      cfree .stack owf_output
      pure 4294967295)
    else (do
      let params : Params := faest_get_paramset (some ParamId.p192S)
      faest_sign I signature message message_len (padd sk 32) sk owf_output rho rho_len params
      st signature_len 0 12744
      cfree .stack owf_output
      pure 0))

/-- faest_param.c.in:83-92 `faest_192s_sign`. -/
def faest_192s_sign (I : HImpl) (R : CPtr) (sk : CPtr) (message : CPtr) (message_len : Nat) (signature : CPtr)
    (signature_len : CPtr) : CM Nat := do
  let e2 : Bool ← (if ((¬ (sk.isSome = true)) ∨ (¬ (signature.isSome = true))) ∨ (¬ (signature_len.isSome = true)) then pure true
    else (do
      let e1 : Nat ← ld signature_len 0
      pure (decide (e1 < 12744))))
  if e2 = true then (do
    pure 4294967295)
  else (do
    let rho ← alloc .stack (malloc 24 : Mem Byte)
    let e3 ← rand_bytes R rho 24
    let e4 ← faest_192s_sign_with_randomness I sk message message_len rho 24 signature signature_len
    cfree .stack rho
    pure e4)

/-- faest_param.c.in:94-101 `faest_192s_verify`. -/
def faest_192s_verify (I : HImpl) (pk : CPtr) (message : CPtr) (message_len : Nat) (signature : CPtr)
    (signature_len : Nat) : CM Nat := do
  if ((¬ (pk.isSome = true)) ∨ (¬ (signature.isSome = true))) ∨ (signature_len ≠ 12744) then (do
    pure 4294967295)
  else (do
    let params : Params := faest_get_paramset (some ParamId.p192S)
    let e1 ← faest_verify I message message_len signature pk (padd pk 32) params
    pure e1)

/-- faest_param.c.in:103-105 `faest_192s_clear_private_key`. -/
def faest_192s_clear_private_key (key : CPtr) : CM Unit := do
  faest_explicit_bzero key 56
  pure ()

/-- faest_param.c.in:28-46 `faest_192f_keygen`. -/
def faest_192f_keygen (R : CPtr) (pk : CPtr) (sk : CPtr) : CM Nat := do
  if (¬ (pk.isSome = true)) ∨ (¬ (sk.isSome = true)) then (do
    pure 4294967295)
  else (do
    let done : Bool := false
    let e1 : Bool ← cwhile
        (fun _s1 =>
          let done : Bool := _s1
          decide ((¬ (done = true))))
        (fun _s1 => do
          let done : Bool := _s1
          let e2 ← rand_bytes R sk 56
          let e3 ← owf_192 (padd sk 32) sk (padd pk 32)
          let done : Bool := e3
          pure done)
        done
    let done : Bool := e1
    memcpy (α := Byte) pk sk 32
    pure 0)

/-- faest_param.c.in:48-61 `faest_192f_validate_keypair`. -/
def faest_192f_validate_keypair (pk : CPtr) (sk : CPtr) : CM Nat := do
  if (¬ (sk.isSome = true)) ∨ (¬ (pk.isSome = true)) then (do
    pure 4294967295)
  else (do
    let pk_check ← alloc .stack (malloc 64 : Mem Byte)
    let e1 ← owf_192 (padd sk 32) sk (padd pk_check 32)
    if (¬ (e1 = true)) then (do
      cfree .stack pk_check
      pure 1)
    else (do
      memcpy (α := Byte) pk_check sk 32
      let e2 ← faest_timingsafe_bcmp pk_check pk 64
      let e3 := (if e2 = 0 then 0 else 2)
      cfree .stack pk_check
      pure e3))

/-- faest_param.c.in:63-81 `faest_192f_sign_with_randomness`. -/
def faest_192f_sign_with_randomness (I : HImpl) (sk : CPtr) (message : CPtr) (message_len : Nat) (rho : CPtr)
    (rho_len : Nat) (signature : CPtr) (signature_len : CPtr) : CM Nat := do
  let e2 : Bool ← (if ((¬ (sk.isSome = true)) ∨ (¬ (signature.isSome = true))) ∨ (¬ (signature_len.isSome = true)) then pure true
    else (do
      let e1 : Nat ← ld signature_len 0
      pure (decide (e1 < 16792))))
  if (e2 = true) ∨ ((¬ (rho.isSome = true)) ∧ (rho_len ≠ 0)) then (do
    pure 4294967295)
  else (do
    let owf_output ← alloc .stack (malloc 32 : Mem Byte)
    let e3 ← owf_192 (padd sk 32) sk owf_output
    if (¬ (e3 = true)) then (do
      cfree .stack owf_output
      pure 4294967295)
    else (do
      let params : Params := faest_get_paramset (some ParamId.p192F)
      faest_sign I signature message message_len (padd sk 32) sk owf_output rho rho_len params
      st signature_len 0 16792
      cfree .stack owf_output
      pure 0))

/-- faest_param.c.in:83-92 `faest_192f_sign`. -/
def faest_192f_sign (I : HImpl) (R : CPtr) (sk : CPtr) (message : CPtr) (message_len : Nat) (signature : CPtr)
    (signature_len : CPtr) : CM Nat := do
  let e2 : Bool ← (if ((¬ (sk.isSome = true)) ∨ (¬ (signature.isSome = true))) ∨ (¬ (signature_len.isSome = true)) then pure true
    else (do
      let e1 : Nat ← ld signature_len 0
      pure (decide (e1 < 16792))))
  if e2 = true then (do
    pure 4294967295)
  else (do
    let rho ← alloc .stack (malloc 24 : Mem Byte)
    let e3 ← rand_bytes R rho 24
    let e4 ← faest_192f_sign_with_randomness I sk message message_len rho 24 signature signature_len
    cfree .stack rho
    pure e4)

/-- faest_param.c.in:94-101 `faest_192f_verify`. -/
def faest_192f_verify (I : HImpl) (pk : CPtr) (message : CPtr) (message_len : Nat) (signature : CPtr)
    (signature_len : Nat) : CM Nat := do
  if ((¬ (pk.isSome = true)) ∨ (¬ (signature.isSome = true))) ∨ (signature_len ≠ 16792) then (do
    pure 4294967295)
  else (do
    let params : Params := faest_get_paramset (some ParamId.p192F)
    let e1 ← faest_verify I message message_len signature pk (padd pk 32) params
    pure e1)

/-- faest_param.c.in:103-105 `faest_192f_clear_private_key`. -/
def faest_192f_clear_private_key (key : CPtr) : CM Unit := do
  faest_explicit_bzero key 56
  pure ()

/-- faest_param.c.in:28-46 `faest_em_192s_keygen`. -/
def faest_em_192s_keygen (R : CPtr) (pk : CPtr) (sk : CPtr) : CM Nat := do
  if (¬ (pk.isSome = true)) ∨ (¬ (sk.isSome = true)) then (do
    pure 4294967295)
  else (do
    let done : Bool := false
    let e1 : Bool ← cwhile
        (fun _s1 =>
          let done : Bool := _s1
          decide ((¬ (done = true))))
        (fun _s1 => do
          let done : Bool := _s1
          let e2 ← rand_bytes R sk 48
          let e3 ← owf_em_192 (padd sk 24) sk (padd pk 24)
          let done : Bool := e3
          pure done)
        done
    let done : Bool := e1
    memcpy (α := Byte) pk sk 24
    pure 0)

/-- faest_param.c.in:48-61 `faest_em_192s_validate_keypair`. -/
def faest_em_192s_validate_keypair (pk : CPtr) (sk : CPtr) : CM Nat := do
  if (¬ (sk.isSome = true)) ∨ (¬ (pk.isSome = true)) then (do
    pure 4294967295)
  else (do
    let pk_check ← alloc .stack (malloc 48 : Mem Byte)
    let e1 ← owf_em_192 (padd sk 24) sk (padd pk_check 24)
    if (¬ (e1 = true)) then (do
      cfree .stack pk_check
      pure 1)
    else (do
      memcpy (α := Byte) pk_check sk 24
      let e2 ← faest_timingsafe_bcmp pk_check pk 48
      let e3 := (if e2 = 0 then 0 else 2)
      cfree .stack pk_check
      pure e3))

/-- faest_param.c.in:63-81 `faest_em_192s_sign_with_randomness`. -/
def faest_em_192s_sign_with_randomness (I : HImpl) (sk : CPtr) (message : CPtr) (message_len : Nat) (rho : CPtr)
    (rho_len : Nat) (signature : CPtr) (signature_len : CPtr) : CM Nat := do
  let e2 : Bool ← (if ((¬ (sk.isSome = true)) ∨ (¬ (signature.isSome = true))) ∨ (¬ (signature_len.isSome = true)) then pure true
    else (do
      let e1 : Nat ← ld signature_len 0
      pure (decide (e1 < 10824))))
  if (e2 = true) ∨ ((¬ (rho.isSome = true)) ∧ (rho_len ≠ 0)) then (do
    pure 4294967295)
  else (do
    let owf_output ← alloc .stack (malloc 24 : Mem Byte)
    let e3 ← owf_em_192 (padd sk 24) sk owf_output
    if (¬ (e3 = true)) then (do
      cfree .stack owf_output
      pure 4294967295)
    else (do
      let params : Params := faest_get_paramset (some ParamId.pEM192S)
      faest_sign I signature message message_len (padd sk 24) sk owf_output rho rho_len params
      st signature_len 0 10824
      cfree .stack owf_output
      pure 0))

/-- faest_param.c.in:83-92 `faest_em_192s_sign`. -/
def faest_em_192s_sign (I : HImpl) (R : CPtr) (sk : CPtr) (message : CPtr) (message_len : Nat) (signature : CPtr)
    (signature_len : CPtr) : CM Nat := do
  let e2 : Bool ← (if ((¬ (sk.isSome = true)) ∨ (¬ (signature.isSome = true))) ∨ (¬ (signature_len.isSome = true)) then pure true
    else (do
      let e1 : Nat ← ld signature_len 0
      pure (decide (e1 < 10824))))
  if e2 = true then (do
    pure 4294967295)
  else (do
    let rho ← alloc .stack (malloc 24 : Mem Byte)
    let e3 ← rand_bytes R rho 24
    let e4 ← faest_em_192s_sign_with_randomness I sk message message_len rho 24 signature signature_len
    cfree .stack rho
    pure e4)

/-- faest_param.c.in:94-101 `faest_em_192s_verify`. -/
def faest_em_192s_verify (I : HImpl) (pk : CPtr) (message : CPtr) (message_len : Nat) (signature : CPtr)
    (signature_len : Nat) : CM Nat := do
  if ((¬ (pk.isSome = true)) ∨ (¬ (signature.isSome = true))) ∨ (signature_len ≠ 10824) then (do
    pure 4294967295)
  else (do
    let params : Params := faest_get_paramset (some ParamId.pEM192S)
    let e1 ← faest_verify I message message_len signature pk (padd pk 24) params
    pure e1)

/-- faest_param.c.in:103-105 `faest_em_192s_clear_private_key`. -/
def faest_em_192s_clear_private_key (key : CPtr) : CM Unit := do
  faest_explicit_bzero key 48
  pure ()

/-- faest_param.c.in:28-46 `faest_em_192f_keygen`. -/
def faest_em_192f_keygen (R : CPtr) (pk : CPtr) (sk : CPtr) : CM Nat := do
  if (¬ (pk.isSome = true)) ∨ (¬ (sk.isSome = true)) then (do
    pure 4294967295)
  else (do
    let done : Bool := false
    let e1 : Bool ← cwhile
        (fun _s1 =>
          let done : Bool := _s1
          decide ((¬ (done = true))))
        (fun _s1 => do
          let done : Bool := _s1
          let e2 ← rand_bytes R sk 48
          let e3 ← owf_em_192 (padd sk 24) sk (padd pk 24)
          let done : Bool := e3
          pure done)
        done
    let done : Bool := e1
    memcpy (α := Byte) pk sk 24
    pure 0)

/-- faest_param.c.in:48-61 `faest_em_192f_validate_keypair`. -/
def faest_em_192f_validate_keypair (pk : CPtr) (sk : CPtr) : CM Nat := do
  if (¬ (sk.isSome = true)) ∨ (¬ (pk.isSome = true)) then (do
    pure 4294967295)
  else (do
    let pk_check ← alloc .stack (malloc 48 : Mem Byte)
    let e1 ← owf_em_192 (padd sk 24) sk (padd pk_check 24)
    if (¬ (e1 = true)) then (do
      cfree .stack pk_check
      pure 1)
    else (do
      memcpy (α := Byte) pk_check sk 24
      let e2 ← faest_timingsafe_bcmp pk_check pk 48
      let e3 := (if e2 = 0 then 0 else 2)
      cfree .stack pk_check
      pure e3))

/-- faest_param.c.in:63-81 `faest_em_192f_sign_with_randomness`. -/
def faest_em_192f_sign_with_randomness (I : HImpl) (sk : CPtr) (message : CPtr) (message_len : Nat) (rho : CPtr)
    (rho_len : Nat) (signature : CPtr) (signature_len : CPtr) : CM Nat := do
  let e2 : Bool ← (if ((¬ (sk.isSome = true)) ∨ (¬ (signature.isSome = true))) ∨ (¬ (signature_len.isSome = true)) then pure true
    else (do
      let e1 : Nat ← ld signature_len 0
      pure (decide (e1 < 13912))))
  if (e2 = true) ∨ ((¬ (rho.isSome = true)) ∧ (rho_len ≠ 0)) then (do
    pure 4294967295)
  else (do
    let owf_output ← alloc .stack (malloc 24 : Mem Byte)
    let e3 ← owf_em_192 (padd sk 24) sk owf_output
    if (¬ (e3 = true)) then (do
      cfree .stack owf_output
      pure 4294967295)
    else (do
      let params : Params := faest_get_paramset (some ParamId.pEM192F)
      faest_sign I signature message message_len (padd sk 24) sk owf_output rho rho_len params
      st signature_len 0 13912
      cfree .stack owf_output
      pure 0))

/-- faest_param.c.in:83-92 `faest_em_192f_sign`. -/
def faest_em_192f_sign (I : HImpl) (R : CPtr) (sk : CPtr) (message : CPtr) (message_len : Nat) (signature : CPtr)
    (signature_len : CPtr) : CM Nat := do
  let e2 : Bool ← (if ((¬ (sk.isSome = true)) ∨ (¬ (signature.isSome = true))) ∨ (¬ (signature_len.isSome = true)) then pure true
    else (do
      let e1 : Nat ← ld signature_len 0
      pure (decide (e1 < 13912))))
  if e2 = true then (do
    pure 4294967295)
  else (do
    let rho ← alloc .stack (malloc 24 : Mem Byte)
    let e3 ← rand_bytes R rho 24
    let e4 ← faest_em_192f_sign_with_randomness I sk message message_len rho 24 signature signature_len
    cfree .stack rho
    pure e4)

/-- faest_param.c.in:94-101 `faest_em_192f_verify`. -/
def faest_em_192f_verify (I : HImpl) (pk : CPtr) (message : CPtr) (message_len : Nat) (signature : CPtr)
    (signature_len : Nat) : CM Nat := do
  if ((¬ (pk.isSome = true)) ∨ (¬ (signature.isSome = true))) ∨ (signature_len ≠ 13912) then (do
    pure 4294967295)
  else (do
    let params : Params := faest_get_paramset (some ParamId.pEM192F)
    let e1 ← faest_verify I message message_len signature pk (padd pk 24) params
    pure e1)

/-- faest_param.c.in:103-105 `faest_em_192f_clear_private_key`. -/
def faest_em_192f_clear_private_key (key : CPtr) : CM Unit := do
  faest_explicit_bzero key 48
  pure ()

/-- faest_param.c.in:28-46 `faest_256s_keygen`. -/
def faest_256s_keygen (R : CPtr) (pk : CPtr) (sk : CPtr) : CM Nat := do
  if (¬ (pk.isSome = true)) ∨ (¬ (sk.isSome = true)) then (do
    pure 4294967295)
  else (do
    let done : Bool := false
    let e1 : Bool ← cwhile
        (fun _s1 =>
          let done : Bool := _s1
          decide ((¬ (done = true))))
        (fun _s1 => do
          let done : Bool := _s1
          let e2 ← rand_bytes R sk 64
          let e3 ← owf_256 (padd sk 32) sk (padd pk 32)
          let done : Bool := e3
          pure done)
        done
    let done : Bool := e1
    memcpy (α := Byte) pk sk 32
    pure 0)

/-- faest_param.c.in:48-61 `faest_256s_validate_keypair`. -/
def faest_256s_validate_keypair (pk : CPtr) (sk : CPtr) : CM Nat := do
  if (¬ (sk.isSome = true)) ∨ (¬ (pk.isSome = true)) then (do
    pure 4294967295)
  else (do
    let pk_check ← alloc .stack (malloc 64 : Mem Byte)
    let e1 ← owf_256 (padd sk 32) sk (padd pk_check 32)
    if (¬ (e1 = true)) then (do
      cfree .stack pk_check
      pure 1)
    else (do
      memcpy (α := Byte) pk_check sk 32
      let e2 ← faest_timingsafe_bcmp pk_check pk 64
      let e3 := (if e2 = 0 then 0 else 2)
      cfree .stack pk_check
      pure e3))

/-- faest_param.c.in:63-81 `faest_256s_sign_with_randomness`. -/
def faest_256s_sign_with_randomness (I : HImpl) (sk : CPtr) (message : CPtr) (message_len : Nat) (rho : CPtr)
    (rho_len : Nat) (signature : CPtr) (signature_len : CPtr) : CM Nat := do
  let e2 : Bool ← (if ((¬ (sk.isSome = true)) ∨ (¬ (signature.isSome = true))) ∨ (¬ (signature_len.isSome = true)) then pure true
    else (do
      let e1 : Nat ← ld signature_len 0
      pure (decide (e1 < 22100))))
  if (e2 = true) ∨ ((¬ (rho.isSome = true)) ∧ (rho_len ≠ 0)) then (do
    pure 4294967295)
  else (do
    let owf_output ← alloc .stack (malloc 32 : Mem Byte)
    let e3 ← owf_256 (padd sk 32) sk owf_output
    if (¬ (e3 = true)) then (do
      cfree .stack owf_output
      pure 4294967295)
    else (do
      let params : Params := faest_get_paramset (some ParamId.p256S)
      faest_sign I signature message message_len (padd sk 32) sk owf_output rho rho_len params
      st signature_len 0 22100
      cfree .stack owf_output
      pure 0))

/-- faest_param.c.in:83-92 `faest_256s_sign`. -/
def faest_256s_sign (I : HImpl) (R : CPtr) (sk : CPtr) (message : CPtr) (message_len : Nat) (signature : CPtr)
    (signature_len : CPtr) : CM Nat := do
  let e2 : Bool ← (if ((¬ (sk.isSome = true)) ∨ (¬ (signature.isSome = true))) ∨ (¬ (signature_len.isSome = true)) then pure true
    else (do
      let e1 : Nat ← ld signature_len 0
      pure (decide (e1 < 22100))))
  if e2 = true then (do
    pure 4294967295)
  else (do
    let rho ← alloc .stack (malloc 32 : Mem Byte)
    let e3 ← rand_bytes R rho 32
    let e4 ← faest_256s_sign_with_randomness I sk message message_len rho 32 signature signature_len
    cfree .stack rho
    pure e4)

/-- faest_param.c.in:94-101 `faest_256s_verify`. -/
def faest_256s_verify (I : HImpl) (pk : CPtr) (message : CPtr) (message_len : Nat) (signature : CPtr)
    (signature_len : Nat) : CM Nat := do
  if ((¬ (pk.isSome = true)) ∨ (¬ (signature.isSome = true))) ∨ (signature_len ≠ 22100) then (do
    pure 4294967295)
  else (do
    let params : Params := faest_get_paramset (some ParamId.p256S)
    let e1 ← faest_verify I message message_len signature pk (padd pk 32) params
    pure e1)

/-- faest_param.c.in:103-105 `faest_256s_clear_private_key`. -/
def faest_256s_clear_private_key (key : CPtr) : CM Unit := do
  faest_explicit_bzero key 64
  pure ()

/-- faest_param.c.in:28-46 `faest_256f_keygen`. -/
def faest_256f_keygen (R : CPtr) (pk : CPtr) (sk : CPtr) : CM Nat := do
  if (¬ (pk.isSome = true)) ∨ (¬ (sk.isSome = true)) then (do
    pure 4294967295)
  else (do
    let done : Bool := false
    let e1 : Bool ← cwhile
        (fun _s1 =>
          let done : Bool := _s1
          decide ((¬ (done = true))))
        (fun _s1 => do
          let done : Bool := _s1
          let e2 ← rand_bytes R sk 64
          let e3 ← owf_256 (padd sk 32) sk (padd pk 32)
          let done : Bool := e3
          pure done)
        done
    let done : Bool := e1
    memcpy (α := Byte) pk sk 32
    pure 0)

/-- faest_param.c.in:48-61 `faest_256f_validate_keypair`. -/
def faest_256f_validate_keypair (pk : CPtr) (sk : CPtr) : CM Nat := do
  if (¬ (sk.isSome = true)) ∨ (¬ (pk.isSome = true)) then (do
    pure 4294967295)
  else (do
    let pk_check ← alloc .stack (malloc 64 : Mem Byte)
    let e1 ← owf_256 (padd sk 32) sk (padd pk_check 32)
    if (¬ (e1 = true)) then (do
      cfree .stack pk_check
      pure 1)
    else (do
      memcpy (α := Byte) pk_check sk 32
      let e2 ← faest_timingsafe_bcmp pk_check pk 64
      let e3 := (if e2 = 0 then 0 else 2)
      cfree .stack pk_check
      pure e3))

/-- faest_param.c.in:63-81 `faest_256f_sign_with_randomness`. -/
def faest_256f_sign_with_randomness (I : HImpl) (sk : CPtr) (message : CPtr) (message_len : Nat) (rho : CPtr)
    (rho_len : Nat) (signature : CPtr) (signature_len : CPtr) : CM Nat := do
  let e2 : Bool ← (if ((¬ (sk.isSome = true)) ∨ (¬ (signature.isSome = true))) ∨ (¬ (signature_len.isSome = true)) then pure true
    else (do
      let e1 : Nat ← ld signature_len 0
      pure (decide (e1 < 28400))))
  if (e2 = true) ∨ ((¬ (rho.isSome = true)) ∧ (rho_len ≠ 0)) then (do
    pure 4294967295)
  else (do
    let owf_output ← alloc .stack (malloc 32 : Mem Byte)
    let e3 ← owf_256 (padd sk 32) sk owf_output
    if (¬ (e3 = true)) then (do
      cfree .stack owf_output
      pure 4294967295)
    else (do
      let params : Params := faest_get_paramset (some ParamId.p256F)
      faest_sign I signature message message_len (padd sk 32) sk owf_output rho rho_len params
      st signature_len 0 28400
      cfree .stack owf_output
      pure 0))

/-- faest_param.c.in:83-92 `faest_256f_sign`. -/
def faest_256f_sign (I : HImpl) (R : CPtr) (sk : CPtr) (message : CPtr) (message_len : Nat) (signature : CPtr)
    (signature_len : CPtr) : CM Nat := do
  let e2 : Bool ← (if ((¬ (sk.isSome = true)) ∨ (¬ (signature.isSome = true))) ∨ (¬ (signature_len.isSome = true)) then pure true
    else (do
      let e1 : Nat ← ld signature_len 0
      pure (decide (e1 < 28400))))
  if e2 = true then (do
    pure 4294967295)
  else (do
    let rho ← alloc .stack (malloc 32 : Mem Byte)
    let e3 ← rand_bytes R rho 32
    let e4 ← faest_256f_sign_with_randomness I sk message message_len rho 32 signature signature_len
    cfree .stack rho
    pure e4)

/-- faest_param.c.in:94-101 `faest_256f_verify`. -/
def faest_256f_verify (I : HImpl) (pk : CPtr) (message : CPtr) (message_len : Nat) (signature : CPtr)
    (signature_len : Nat) : CM Nat := do
  if ((¬ (pk.isSome = true)) ∨ (¬ (signature.isSome = true))) ∨ (signature_len ≠ 28400) then (do
    pure 4294967295)
  else (do
    let params : Params := faest_get_paramset (some ParamId.p256F)
    let e1 ← faest_verify I message message_len signature pk (padd pk 32) params
    pure e1)

/-- faest_param.c.in:103-105 `faest_256f_clear_private_key`. -/
def faest_256f_clear_private_key (key : CPtr) : CM Unit := do
  faest_explicit_bzero key 64
  pure ()

/-- faest_param.c.in:28-46 `faest_em_256s_keygen`. -/
def faest_em_256s_keygen (R : CPtr) (pk : CPtr) (sk : CPtr) : CM Nat := do
  if (¬ (pk.isSome = true)) ∨ (¬ (sk.isSome = true)) then (do
    pure 4294967295)
  else (do
    let done : Bool := false
    let e1 : Bool ← cwhile
        (fun _s1 =>
          let done : Bool := _s1
          decide ((¬ (done = true))))
        (fun _s1 => do
          let done : Bool := _s1
          let e2 ← rand_bytes R sk 64
          let e3 ← owf_em_256 (padd sk 32) sk (padd pk 32)
          let done : Bool := e3
          pure done)
        done
    let done : Bool := e1
    memcpy (α := Byte) pk sk 32
    pure 0)

/-- faest_param.c.in:48-61 `faest_em_256s_validate_keypair`. -/
def faest_em_256s_validate_keypair (pk : CPtr) (sk : CPtr) : CM Nat := do
  if (¬ (sk.isSome = true)) ∨ (¬ (pk.isSome = true)) then (do
    pure 4294967295)
  else (do
    let pk_check ← alloc .stack (malloc 64 : Mem Byte)
    let e1 ← owf_em_256 (padd sk 32) sk (padd pk_check 32)
    if (¬ (e1 = true)) then (do
      cfree .stack pk_check
      pure 1)
    else (do
      memcpy (α := Byte) pk_check sk 32
      let e2 ← faest_timingsafe_bcmp pk_check pk 64
      let e3 := (if e2 = 0 then 0 else 2)
      cfree .stack pk_check
      pure e3))

/-- faest_param.c.in:63-81 `faest_em_256s_sign_with_randomness`. -/
def faest_em_256s_sign_with_randomness (I : HImpl) (sk : CPtr) (message : CPtr) (message_len : Nat) (rho : CPtr)
    (rho_len : Nat) (signature : CPtr) (signature_len : CPtr) : CM Nat := do
  let e2 : Bool ← (if ((¬ (sk.isSome = true)) ∨ (¬ (signature.isSome = true))) ∨ (¬ (signature_len.isSome = true)) then pure true
    else (do
      let e1 : Nat ← ld signature_len 0
      pure (decide (e1 < 20956))))
  if (e2 = true) ∨ ((¬ (rho.isSome = true)) ∧ (rho_len ≠ 0)) then (do
    pure 4294967295)
  else (do
    let owf_output ← alloc .stack (malloc 32 : Mem Byte)
    let e3 ← owf_em_256 (padd sk 32) sk owf_output
    if (¬ (e3 = true)) then (do
      cfree .stack owf_output
      pure 4294967295)
    else (do
      let params : Params := faest_get_paramset (some ParamId.pEM256S)
      faest_sign I signature message message_len (padd sk 32) sk owf_output rho rho_len params
      st signature_len 0 20956
      cfree .stack owf_output
      pure 0))

/-- faest_param.c.in:83-92 `faest_em_256s_sign`. -/
def faest_em_256s_sign (I : HImpl) (R : CPtr) (sk : CPtr) (message : CPtr) (message_len : Nat) (signature : CPtr)
    (signature_len : CPtr) : CM Nat := do
  let e2 : Bool ← (if ((¬ (sk.isSome = true)) ∨ (¬ (signature.isSome = true))) ∨ (¬ (signature_len.isSome = true)) then pure true
    else (do
      let e1 : Nat ← ld signature_len 0
      pure (decide (e1 < 20956))))
  if e2 = true then (do
    pure 4294967295)
  else (do
    let rho ← alloc .stack (malloc 32 : Mem Byte)
    let e3 ← rand_bytes R rho 32
    let e4 ← faest_em_256s_sign_with_randomness I sk message message_len rho 32 signature signature_len
    cfree .stack rho
    pure e4)

/-- faest_param.c.in:94-101 `faest_em_256s_verify`. -/
def faest_em_256s_verify (I : HImpl) (pk : CPtr) (message : CPtr) (message_len : Nat) (signature : CPtr)
    (signature_len : Nat) : CM Nat := do
  if ((¬ (pk.isSome = true)) ∨ (¬ (signature.isSome = true))) ∨ (signature_len ≠ 20956) then (do
    pure 4294967295)
  else (do
    let params : Params := faest_get_paramset (some ParamId.pEM256S)
    let e1 ← faest_verify I message message_len signature pk (padd pk 32) params
    pure e1)

/-- faest_param.c.in:103-105 `faest_em_256s_clear_private_key`. -/
def faest_em_256s_clear_private_key (key : CPtr) : CM Unit := do
  faest_explicit_bzero key 64
  pure ()

/-- faest_param.c.in:28-46 `faest_em_256f_keygen`. -/
def faest_em_256f_keygen (R : CPtr) (pk : CPtr) (sk : CPtr) : CM Nat := do
  if (¬ (pk.isSome = true)) ∨ (¬ (sk.isSome = true)) then (do
    pure 4294967295)
  else (do
    let done : Bool := false
    let e1 : Bool ← cwhile
        (fun _s1 =>
          let done : Bool := _s1
          decide ((¬ (done = true))))
        (fun _s1 => do
          let done : Bool := _s1
          let e2 ← rand_bytes R sk 64
          let e3 ← owf_em_256 (padd sk 32) sk (padd pk 32)
          let done : Bool := e3
          pure done)
        done
    let done : Bool := e1
    memcpy (α := Byte) pk sk 32
    pure 0)

/-- faest_param.c.in:48-61 `faest_em_256f_validate_keypair`. -/
def faest_em_256f_validate_keypair (pk : CPtr) (sk : CPtr) : CM Nat := do
  if (¬ (sk.isSome = true)) ∨ (¬ (pk.isSome = true)) then (do
    pure 4294967295)
  else (do
    let pk_check ← alloc .stack (malloc 64 : Mem Byte)
    let e1 ← owf_em_256 (padd sk 32) sk (padd pk_check 32)
    if (¬ (e1 = true)) then (do
      cfree .stack pk_check
      pure 1)
    else (do
      memcpy (α := Byte) pk_check sk 32
      let e2 ← faest_timingsafe_bcmp pk_check pk 64
      let e3 := (if e2 = 0 then 0 else 2)
      cfree .stack pk_check
      pure e3))

/-- faest_param.c.in:63-81 `faest_em_256f_sign_with_randomness`. -/
def faest_em_256f_sign_with_randomness (I : HImpl) (sk : CPtr) (message : CPtr) (message_len : Nat) (rho : CPtr)
    (rho_len : Nat) (signature : CPtr) (signature_len : CPtr) : CM Nat := do
  let e2 : Bool ← (if ((¬ (sk.isSome = true)) ∨ (¬ (signature.isSome = true))) ∨ (¬ (signature_len.isSome = true)) then pure true
    else (do
      let e1 : Nat ← ld signature_len 0
      pure (decide (e1 < 26736))))
  if (e2 = true) ∨ ((¬ (rho.isSome = true)) ∧ (rho_len ≠ 0)) then (do
    pure 4294967295)
  else (do
    let owf_output ← alloc .stack (malloc 32 : Mem Byte)
    let e3 ← owf_em_256 (padd sk 32) sk owf_output
    if (¬ (e3 = true)) then (do
      cfree .stack owf_output
      pure 4294967295)
    else (do
      let params : Params := faest_get_paramset (some ParamId.pEM256F)
      faest_sign I signature message message_len (padd sk 32) sk owf_output rho rho_len params
      st signature_len 0 26736
      cfree .stack owf_output
      pure 0))

/-- faest_param.c.in:83-92 `faest_em_256f_sign`. -/
def faest_em_256f_sign (I : HImpl) (R : CPtr) (sk : CPtr) (message : CPtr) (message_len : Nat) (signature : CPtr)
    (signature_len : CPtr) : CM Nat := do
  let e2 : Bool ← (if ((¬ (sk.isSome = true)) ∨ (¬ (signature.isSome = true))) ∨ (¬ (signature_len.isSome = true)) then pure true
    else (do
      let e1 : Nat ← ld signature_len 0
      pure (decide (e1 < 26736))))
  if e2 = true then (do
    pure 4294967295)
  else (do
    let rho ← alloc .stack (malloc 32 : Mem Byte)
    let e3 ← rand_bytes R rho 32
    let e4 ← faest_em_256f_sign_with_randomness I sk message message_len rho 32 signature signature_len
    cfree .stack rho
    pure e4)

/-- faest_param.c.in:94-101 `faest_em_256f_verify`. -/
def faest_em_256f_verify (I : HImpl) (pk : CPtr) (message : CPtr) (message_len : Nat) (signature : CPtr)
    (signature_len : Nat) : CM Nat := do
  if ((¬ (pk.isSome = true)) ∨ (¬ (signature.isSome = true))) ∨ (signature_len ≠ 26736) then (do
    pure 4294967295)
  else (do
    let params : Params := faest_get_paramset (some ParamId.pEM256F)
    let e1 ← faest_verify I message message_len signature pk (padd pk 32) params
    pure e1)

/-- faest_param.c.in:103-105 `faest_em_256f_clear_private_key`. -/
def faest_em_256f_clear_private_key (key : CPtr) : CM Unit := do
  faest_explicit_bzero key 64
  pure ()

end Faest.Gen
