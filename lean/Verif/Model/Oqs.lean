/-
hash_shake.h with the macro `OQS` (:17-199): SHAKE of liboqs, and random_oracle.c over it.

The functions of liboqs are parameters.  A context of theirs is a struct with one pointer to memory which `init` allocates
and `ctx_release` gives back (oqs/sha3.h, oqs/sha3x4.h; liboqs is not part of the repository).  `hash_init_prefix_x4` (:141-154) is left
out: nothing calls it, and it does not compile.
-/
import Verif.Model.HImpl

namespace Faest.Oqs
open Faest.C

/-- oqs/sha3.h, oqs/sha3x4.h: the incremental functions, `OQS_SHA3_shake128_inc_*` for `false` and `OQS_SHA3_shake256_inc_*` for
`true`; `init` gives the pointer which it stores in the context.  The functions with a `4` are `OQS_SHA3_shake*_x4_inc_*`. -/
structure Lib where
  init : Bool → CM CPtr
  absorb : Bool → CPtr → CPtr → Nat → CM Unit
  finalize : Bool → CPtr → CM Unit
  squeeze : Bool → CPtr → Nat → CPtr → CM Unit
  release : Bool → CPtr → CM Unit
  init4 : Bool → CM CPtr
  absorb4 : Bool → CPtr → CPtr → CPtr → CPtr → CPtr → Nat → CM Unit
  finalize4 : Bool → CPtr → CM Unit
  squeeze4 : Bool → CPtr → CPtr → CPtr → CPtr → Nat → CPtr → CM Unit
  release4 : Bool → CPtr → CM Unit

/-- hash_shake.h:42-48 `hash_context` and :97-103 `hash_context_x4`.  Of the union: the member which was stored last, and its
pointer; `none` without value, also after `ctx_release`.  Reading the other member is undefined here. -/
structure Ctx where
  u : Option (Bool × CPtr) := none
  shake256 : Option Nat := none

/-- `ctx->shake256_ctx` for `true`, `ctx->shake128_ctx` for `false`. -/
def Ctx.mem (c : Ctx) (w : Bool) : CM CPtr := do
  let p ← lft c.u
  if p.1 = w then pure p.2 else lft none

variable (L : Lib)

/-- hash_shake.h:54-62 `hash_init`. -/
def hash_init (_ctx : Ctx) (security_param : Nat) : CM Ctx := do
  if security_param = 128 then (do
    let p ← L.init false
    pure ⟨some (false, p), some 0⟩)
  else (do
    let p ← L.init true
    pure ⟨some (true, p), some 1⟩)

/-- hash_shake.h:64-70 `hash_update`. -/
def hash_update (ctx : Ctx) (data : CPtr) (size : Nat) : CM Unit := do
  let f ← lft ctx.shake256
  if f ≠ 0 then (do
    let p ← ctx.mem true
    L.absorb true p data size)
  else (do
    let p ← ctx.mem false
    L.absorb false p data size)

/-- hash_shake.h:72-78 `hash_final`. -/
def hash_final (ctx : Ctx) : CM Unit := do
  let f ← lft ctx.shake256
  if f ≠ 0 then (do
    let p ← ctx.mem true
    L.finalize true p)
  else (do
    let p ← ctx.mem false
    L.finalize false p)

/-- hash_shake.h:80-86 `hash_squeeze`. -/
def hash_squeeze (ctx : Ctx) (buffer : CPtr) (buflen : Nat) : CM Unit := do
  let f ← lft ctx.shake256
  if f ≠ 0 then (do
    let p ← ctx.mem true
    L.squeeze true buffer buflen p)
  else (do
    let p ← ctx.mem false
    L.squeeze false buffer buflen p)

/-- hash_shake.h:88-94 `hash_clear`; the pointer has no value afterwards. -/
def hash_clear (ctx : Ctx) : CM Ctx := do
  let f ← lft ctx.shake256
  if f ≠ 0 then (do
    let p ← ctx.mem true
    L.release true p
    pure { ctx with u := none })
  else (do
    let p ← ctx.mem false
    L.release false p
    pure { ctx with u := none })

/-- hash_shake.h:105-113 `hash_init_x4`. -/
def hash_init_x4 (_ctx : Ctx) (security_param : Nat) : CM Ctx := do
  if security_param = 128 then (do
    let p ← L.init4 false
    pure ⟨some (false, p), some 0⟩)
  else (do
    let p ← L.init4 true
    pure ⟨some (true, p), some 1⟩)

/-- hash_shake.h:123-131 `hash_update_x4_4`. -/
def hash_update_x4_4 (ctx : Ctx) (data0 data1 data2 data3 : CPtr) (size : Nat) : CM Unit := do
  let f ← lft ctx.shake256
  if f ≠ 0 then (do
    let p ← ctx.mem true
    L.absorb4 true p data0 data1 data2 data3 size)
  else (do
    let p ← ctx.mem false
    L.absorb4 false p data0 data1 data2 data3 size)

/-- hash_shake.h:133-139 `hash_update_x4_1`. -/
def hash_update_x4_1 (ctx : Ctx) (data : CPtr) (size : Nat) : CM Unit := do
  let f ← lft ctx.shake256
  if f ≠ 0 then (do
    let p ← ctx.mem true
    L.absorb4 true p data data data data size)
  else (do
    let p ← ctx.mem false
    L.absorb4 false p data data data data size)

/-- hash_shake.h:156-162 `hash_final_x4`. -/
def hash_final_x4 (ctx : Ctx) : CM Unit := do
  let f ← lft ctx.shake256
  if f ≠ 0 then (do
    let p ← ctx.mem true
    L.finalize4 true p)
  else (do
    let p ← ctx.mem false
    L.finalize4 false p)

/-- hash_shake.h:174-183 `hash_squeeze_x4_4`. -/
def hash_squeeze_x4_4 (ctx : Ctx) (buffer0 buffer1 buffer2 buffer3 : CPtr) (buflen : Nat) : CM Unit := do
  let f ← lft ctx.shake256
  if f ≠ 0 then (do
    let p ← ctx.mem true
    L.squeeze4 true buffer0 buffer1 buffer2 buffer3 buflen p)
  else (do
    let p ← ctx.mem false
    L.squeeze4 false buffer0 buffer1 buffer2 buffer3 buflen p)

/-- hash_shake.h:185-191 `hash_clear_x4`. -/
def hash_clear_x4 (ctx : Ctx) : CM Ctx := do
  let f ← lft ctx.shake256
  if f ≠ 0 then (do
    let p ← ctx.mem true
    L.release4 true p
    pure { ctx with u := none })
  else (do
    let p ← ctx.mem false
    L.release4 false p
    pure { ctx with u := none })

/-- random_oracle.c:17-19 `H0_init`, :54-56, :70-72, :86-88 `H1_init` to `H3_init`. -/
def H_init (ctx : Ctx) (security_param : Nat) : CM Ctx := hash_init L ctx (if security_param = 128 then 128 else 256)

/-- random_oracle.c:21-23 `H0_update`, :58-60, :74-76, :90-92 `H1_update` to `H3_update`. -/
def H_update (ctx : Ctx) (src : CPtr) (len : Nat) : CM Ctx := do
  hash_update L ctx src len
  pure ctx

/-- random_oracle.c:25-32 `H0_final`. -/
def H0_final (ctx : Ctx) (seed : CPtr) (seed_len : Nat) (commitment : CPtr) (commitment_len : Nat) : CM Ctx := do
  let domain_sep_H0 ← alloc .stack (malloc 1 : Mem Byte)
  st domain_sep_H0 0 (0 : Byte)
  hash_update L ctx domain_sep_H0 1
  hash_final L ctx
  hash_squeeze L ctx seed seed_len
  hash_squeeze L ctx commitment commitment_len
  let ctx ← hash_clear L ctx
  cfree .stack domain_sep_H0
  pure ctx

/-- random_oracle.c:62-67 `H1_final`. -/
def H1_final (ctx : Ctx) (digest : CPtr) (len : Nat) : CM Ctx := do
  let domain_sep_H1 ← alloc .stack (malloc 1 : Mem Byte)
  st domain_sep_H1 0 (1 : Byte)
  hash_update L ctx domain_sep_H1 1
  hash_final L ctx
  hash_squeeze L ctx digest len
  let ctx ← hash_clear L ctx
  cfree .stack domain_sep_H1
  pure ctx

/-- random_oracle.c:78-83 `H2_final`. -/
def H2_final (ctx : Ctx) (digest : CPtr) (len : Nat) : CM Ctx := do
  let domain_sep_H2 ← alloc .stack (malloc 1 : Mem Byte)
  st domain_sep_H2 0 (2 : Byte)
  hash_update L ctx domain_sep_H2 1
  hash_final L ctx
  hash_squeeze L ctx digest len
  let ctx ← hash_clear L ctx
  cfree .stack domain_sep_H2
  pure ctx

/-- random_oracle.c:94-100 `H3_final`. -/
def H3_final (ctx : Ctx) (digest : CPtr) (len : Nat) (iv : CPtr) : CM Ctx := do
  let domain_sep_H3 ← alloc .stack (malloc 1 : Mem Byte)
  st domain_sep_H3 0 (3 : Byte)
  hash_update L ctx domain_sep_H3 1
  hash_final L ctx
  hash_squeeze L ctx digest len
  hash_squeeze L ctx iv 16
  let ctx ← hash_clear L ctx
  cfree .stack domain_sep_H3
  pure ctx

/-- random_oracle.c:34-36 `H0_x4_init`. -/
def H0_x4_init (ctx : Ctx) (security_param : Nat) : CM Ctx := hash_init_x4 L ctx (if security_param = 128 then 128 else 256)

/-- random_oracle.c:38-41 `H0_x4_update`. -/
def H0_x4_update (ctx : Ctx) (src0 src1 src2 src3 : CPtr) (len : Nat) : CM Ctx := do
  hash_update_x4_4 L ctx src0 src1 src2 src3 len
  pure ctx

/-- random_oracle.c:43-51 `H0_x4_final`. -/
def H0_x4_final (ctx : Ctx) (seed0 seed1 seed2 seed3 : CPtr) (seed_len : Nat) (commitment0 commitment1 commitment2 commitment3 : CPtr)
    (commitment_len : Nat) : CM Ctx := do
  let domain_sep_H0 ← alloc .stack (malloc 1 : Mem Byte)
  st domain_sep_H0 0 (0 : Byte)
  hash_update_x4_1 L ctx domain_sep_H0 1
  hash_final_x4 L ctx
  hash_squeeze_x4_4 L ctx seed0 seed1 seed2 seed3 seed_len
  hash_squeeze_x4_4 L ctx commitment0 commitment1 commitment2 commitment3 commitment_len
  let ctx ← hash_clear_x4 L ctx
  cfree .stack domain_sep_H0
  pure ctx

/-- random_oracle.c with hash_shake.h for `OQS`.  A context is a local variable without value. -/
def impl : HImpl where
  Ctx := Ctx
  Ctx4 := Ctx
  new := pure {}
  drop _ := pure ()
  new4 := pure {}
  drop4 _ := pure ()
  H0_init := H_init L
  H1_init := H_init L
  H2_init := H_init L
  H3_init := H_init L
  H0_update := H_update L
  H1_update := H_update L
  H2_update := H_update L
  H3_update := H_update L
  H0_final := H0_final L
  H1_final := H1_final L
  H2_final := H2_final L
  H3_final := H3_final L
  H0_x4_init := H0_x4_init L
  H0_x4_update := H0_x4_update L
  H0_x4_final := H0_x4_final L

end Faest.Oqs
