/-
Generated by tools/c2hash.py from hash_shake.h and random_oracle.c. Do not edit.
-/
import Verif.Model.Gen.KeccakHashX4

set_option linter.unusedVariables false

namespace Faest.GenH
open Faest.C

/-- hash_shake.h:212-218 `hash_init`. -/
def hash_init (K1 : SpImpl) (ctx : HashC) (security_param : Nat) : CM HashC := do
  let e1 : HashC ← (
    if security_param = 128 then (do
      let e2 ← Keccak_HashInitialize K1 ctx 1344 256 0 (31 : Byte)
      let ctx := e2.2
      pure ctx)
    else (do
      let e3 ← Keccak_HashInitialize K1 ctx 1088 512 0 (31 : Byte)
      let ctx := e3.2
      pure ctx))
  let ctx : HashC := e1
  pure ctx

/-- hash_shake.h:220-222 `hash_update`. -/
def hash_update (K1 : SpImpl) (ctx : HashC) (data : CPtr) (size : Nat) : CM HashC := do
  let e1 ← Keccak_HashUpdate K1 ctx data ((size <<< 3) % U64)
  let ctx := e1.2
  pure ctx

/-- hash_shake.h:224-226 `hash_final`. -/
def hash_final (K1 : SpImpl) (ctx : HashC) : CM HashC := do
  let e1 ← Keccak_HashFinal K1 ctx (none : CPtr)
  let ctx := e1.2
  pure ctx

/-- hash_shake.h:228-230 `hash_squeeze`. -/
def hash_squeeze (K1 : SpImpl) (ctx : HashC) (buffer : CPtr) (buflen : Nat) : CM HashC := do
  let e1 ← Keccak_HashSqueeze K1 ctx buffer ((buflen <<< 3) % U64)
  let ctx := e1.2
  pure ctx

/-- hash_shake.h:240-244 `hash_init_prefix`. -/
def hash_init_prefix (K1 : SpImpl) (ctx : HashC) (security_param : Nat) (prefix_ : Byte) : CM HashC := do
  let prefix_p ← alloc .stack (malloc 1 : Mem Byte)
  st prefix_p 0 prefix_
  let e1 ← hash_init K1 ctx security_param
  let ctx := e1
  let e2 ← hash_update K1 ctx prefix_p 1
  let ctx := e2
  cfree .stack prefix_p
  pure ctx

/-- hash_shake.h:250-256 `hash_init_x4`. -/
def hash_init_x4 (K4 : P4Impl) (ctx : HashC) (security_param : Nat) : CM HashC := do
  let e1 : HashC ← (
    if security_param = 128 then (do
      let e2 ← Keccak_HashInitializetimes4 K4 ctx 1344 256 0 (31 : Byte)
      let ctx := e2.2
      pure ctx)
    else (do
      let e3 ← Keccak_HashInitializetimes4 K4 ctx 1088 512 0 (31 : Byte)
      let ctx := e3.2
      pure ctx))
  let ctx : HashC := e1
  pure ctx

/-- hash_shake.h:258-260 `hash_update_x4`. -/
def hash_update_x4 (K4 : P4Impl) (ctx : HashC) (data : CPtr) (size : Nat) : CM HashC := do
  let e1 ← Keccak_HashUpdatetimes4 K4 ctx data ((size <<< 3) % U64)
  let ctx := e1.2
  pure ctx

/-- hash_shake.h:262-267 `hash_update_x4_4`. -/
def hash_update_x4_4 (K4 : P4Impl) (ctx : HashC) (data0 : CPtr) (data1 : CPtr) (data2 : CPtr) (data3 : CPtr)
    (size : Nat) : CM HashC := do
  let data ← alloc .stack (malloc 4 : Mem CPtr)
  st data 0 data0
  st data 1 data1
  st data 2 data2
  st data 3 data3
  let e1 ← hash_update_x4 K4 ctx data size
  let ctx := e1
  cfree .stack data
  pure ctx

/-- hash_shake.h:269-272 `hash_update_x4_1`. -/
def hash_update_x4_1 (K4 : P4Impl) (ctx : HashC) (data : CPtr) (size : Nat) : CM HashC := do
  let tmp ← alloc .stack (malloc 4 : Mem CPtr)
  st tmp 0 data
  st tmp 1 data
  st tmp 2 data
  st tmp 3 data
  let e1 ← hash_update_x4 K4 ctx tmp size
  let ctx := e1
  cfree .stack tmp
  pure ctx

/-- hash_shake.h:274-278 `hash_init_prefix_x4`. -/
def hash_init_prefix_x4 (K4 : P4Impl) (ctx : HashC) (security_param : Nat) (prefix_ : Byte) : CM HashC := do
  let prefix_p ← alloc .stack (malloc 1 : Mem Byte)
  st prefix_p 0 prefix_
  let e1 ← hash_init_x4 K4 ctx security_param
  let ctx := e1
  let e2 ← hash_update_x4_1 K4 ctx prefix_p 1
  let ctx := e2
  cfree .stack prefix_p
  pure ctx

/-- hash_shake.h:280-282 `hash_final_x4`. -/
def hash_final_x4 (K4 : P4Impl) (ctx : HashC) : CM HashC := do
  let e1 ← Keccak_HashFinaltimes4 K4 ctx (none : CPtr)
  let ctx := e1.2
  pure ctx

/-- hash_shake.h:284-286 `hash_squeeze_x4`. -/
def hash_squeeze_x4 (K4 : P4Impl) (ctx : HashC) (buffer : CPtr) (buflen : Nat) : CM HashC := do
  let e1 ← Keccak_HashSqueezetimes4 K4 ctx buffer ((buflen <<< 3) % U64)
  let ctx := e1.2
  pure ctx

/-- hash_shake.h:288-292 `hash_squeeze_x4_4`. -/
def hash_squeeze_x4_4 (K4 : P4Impl) (ctx : HashC) (buffer0 : CPtr) (buffer1 : CPtr) (buffer2 : CPtr)
    (buffer3 : CPtr) (buflen : Nat) : CM HashC := do
  let buffer ← alloc .stack (malloc 4 : Mem CPtr)
  st buffer 0 buffer0
  st buffer 1 buffer1
  st buffer 2 buffer2
  st buffer 3 buffer3
  let e1 ← hash_squeeze_x4 K4 ctx buffer buflen
  let ctx := e1
  cfree .stack buffer
  pure ctx

/-- random_oracle.c:17-19 `H0_init`. -/
def H0_init (K1 : SpImpl) (ctx : HashC) (security_param : Nat) : CM HashC := do
  let e1 ← hash_init K1 ctx (if security_param = 128 then 128 else 256)
  let ctx := e1
  pure ctx

/-- random_oracle.c:21-23 `H0_update`. -/
def H0_update (K1 : SpImpl) (ctx : HashC) (src : CPtr) (len : Nat) : CM HashC := do
  let e1 ← hash_update K1 ctx src len
  let ctx := e1
  pure ctx

/-- random_oracle.c:25-32 `H0_final`. -/
def H0_final (K1 : SpImpl) (ctx : HashC) (seed : CPtr) (seed_len : Nat) (commitment : CPtr)
    (commitment_len : Nat) : CM HashC := do
  let domain_sep_H0 ← alloc .stack (malloc 1 : Mem Byte)
  st domain_sep_H0 0 (0 : Byte)
  let e1 ← hash_update K1 ctx domain_sep_H0 1
  let ctx := e1
  let e2 ← hash_final K1 ctx
  let ctx := e2
  let e3 ← hash_squeeze K1 ctx seed seed_len
  let ctx := e3
  let e4 ← hash_squeeze K1 ctx commitment commitment_len
  let ctx := e4
  cfree .stack domain_sep_H0
  pure ctx

/-- random_oracle.c:34-36 `H0_x4_init`. -/
def H0_x4_init (K4 : P4Impl) (ctx : HashC) (security_param : Nat) : CM HashC := do
  let e1 ← hash_init_x4 K4 ctx (if security_param = 128 then 128 else 256)
  let ctx := e1
  pure ctx

/-- random_oracle.c:38-41 `H0_x4_update`. -/
def H0_x4_update (K4 : P4Impl) (ctx : HashC) (src0 : CPtr) (src1 : CPtr) (src2 : CPtr) (src3 : CPtr) (len : Nat) : CM HashC := do
  let e1 ← hash_update_x4_4 K4 ctx src0 src1 src2 src3 len
  let ctx := e1
  pure ctx

/-- random_oracle.c:43-51 `H0_x4_final`. -/
def H0_x4_final (K4 : P4Impl) (ctx : HashC) (seed0 : CPtr) (seed1 : CPtr) (seed2 : CPtr) (seed3 : CPtr)
    (seed_len : Nat) (commitment0 : CPtr) (commitment1 : CPtr) (commitment2 : CPtr) (commitment3 : CPtr)
    (commitment_len : Nat) : CM HashC := do
  let domain_sep_H0 ← alloc .stack (malloc 1 : Mem Byte)
  st domain_sep_H0 0 (0 : Byte)
  let e1 ← hash_update_x4_1 K4 ctx domain_sep_H0 1
  let ctx := e1
  let e2 ← hash_final_x4 K4 ctx
  let ctx := e2
  let e3 ← hash_squeeze_x4_4 K4 ctx seed0 seed1 seed2 seed3 seed_len
  let ctx := e3
  let e4 ← hash_squeeze_x4_4 K4 ctx commitment0 commitment1 commitment2 commitment3 commitment_len
  let ctx := e4
  cfree .stack domain_sep_H0
  pure ctx

/-- random_oracle.c:54-56 `H1_init`. -/
def H1_init (K1 : SpImpl) (ctx : HashC) (security_param : Nat) : CM HashC := do
  let e1 ← hash_init K1 ctx (if security_param = 128 then 128 else 256)
  let ctx := e1
  pure ctx

/-- random_oracle.c:58-60 `H1_update`. -/
def H1_update (K1 : SpImpl) (ctx : HashC) (src : CPtr) (len : Nat) : CM HashC := do
  let e1 ← hash_update K1 ctx src len
  let ctx := e1
  pure ctx

/-- random_oracle.c:62-67 `H1_final`. -/
def H1_final (K1 : SpImpl) (ctx : HashC) (digest : CPtr) (len : Nat) : CM HashC := do
  let domain_sep_H1 ← alloc .stack (malloc 1 : Mem Byte)
  st domain_sep_H1 0 (1 : Byte)
  let e1 ← hash_update K1 ctx domain_sep_H1 1
  let ctx := e1
  let e2 ← hash_final K1 ctx
  let ctx := e2
  let e3 ← hash_squeeze K1 ctx digest len
  let ctx := e3
  cfree .stack domain_sep_H1
  pure ctx

/-- random_oracle.c:70-72 `H2_init`. -/
def H2_init (K1 : SpImpl) (ctx : HashC) (security_param : Nat) : CM HashC := do
  let e1 ← hash_init K1 ctx (if security_param = 128 then 128 else 256)
  let ctx := e1
  pure ctx

/-- random_oracle.c:74-76 `H2_update`. -/
def H2_update (K1 : SpImpl) (ctx : HashC) (src : CPtr) (len : Nat) : CM HashC := do
  let e1 ← hash_update K1 ctx src len
  let ctx := e1
  pure ctx

/-- random_oracle.c:78-83 `H2_final`. -/
def H2_final (K1 : SpImpl) (ctx : HashC) (digest : CPtr) (len : Nat) : CM HashC := do
  let domain_sep_H2 ← alloc .stack (malloc 1 : Mem Byte)
  st domain_sep_H2 0 (2 : Byte)
  let e1 ← hash_update K1 ctx domain_sep_H2 1
  let ctx := e1
  let e2 ← hash_final K1 ctx
  let ctx := e2
  let e3 ← hash_squeeze K1 ctx digest len
  let ctx := e3
  cfree .stack domain_sep_H2
  pure ctx

/-- random_oracle.c:86-88 `H3_init`. -/
def H3_init (K1 : SpImpl) (ctx : HashC) (security_param : Nat) : CM HashC := do
  let e1 ← hash_init K1 ctx (if security_param = 128 then 128 else 256)
  let ctx := e1
  pure ctx

/-- random_oracle.c:90-92 `H3_update`. -/
def H3_update (K1 : SpImpl) (ctx : HashC) (src : CPtr) (len : Nat) : CM HashC := do
  let e1 ← hash_update K1 ctx src len
  let ctx := e1
  pure ctx

/-- random_oracle.c:94-100 `H3_final`. -/
def H3_final (K1 : SpImpl) (ctx : HashC) (digest : CPtr) (len : Nat) (iv : CPtr) : CM HashC := do
  let domain_sep_H3 ← alloc .stack (malloc 1 : Mem Byte)
  st domain_sep_H3 0 (3 : Byte)
  let e1 ← hash_update K1 ctx domain_sep_H3 1
  let ctx := e1
  let e2 ← hash_final K1 ctx
  let ctx := e2
  let e3 ← hash_squeeze K1 ctx digest len
  let ctx := e3
  let e4 ← hash_squeeze K1 ctx iv 16
  let ctx := e4
  cfree .stack domain_sep_H3
  pure ctx

end Faest.GenH
