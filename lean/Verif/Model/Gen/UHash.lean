/-
Generated by tools/c2lean.py from universal_hashing.c. Do not edit.
-/
import Verif.Model.Gen.Utils

set_option linter.unusedVariables false

namespace Faest.Gen
open Faest.C

/-- universal_hashing.c:16-38 `compute_h1`. -/
def compute_h1 (t : CPtr) (x : CPtr) (lambda : Nat) (ell : Nat) : CM (BF 64) := do
  let e1 ← bf_load 64 t
  let b_t : BF 64 := e1
  let lambda_bytes : Nat := lambda / 8
  let e2 ← cdiv ((((((ell + lambda) % U32) + lambda) % U32) + U32 - 1) % U32) lambda
  let length_lambda : Nat := e2
  let tmp ← alloc .stack (calloc 32 zeroed : Mem Byte)
  let e3 ← cmod ((ell + lambda) % U32) lambda
  let e5 ← (if e3 = 0 then (do
      pure lambda_bytes)
    else (do
      let e4 ← cmod ((ell + lambda) % U32) lambda
      pure (e4 / 8)))
  memcpy (α := Byte) tmp (padd x ((((length_lambda + U32 - 1) % U32) * lambda_bytes) % U32)) e5
  let h1 : BF 64 := (bfZero : BF 64)
  let running_t : BF 64 := (bfOne : BF 64)
  let i : Nat := 0
  let e6 : BF 64 × BF 64 × Nat ← cwhile
      (fun _s1 =>
        let i : Nat := _s1.2.2
        decide (i < lambda_bytes))
      (fun _s1 => do
        let h1 : BF 64 := _s1.1
        let running_t : BF 64 := _s1.2.1
        let i : Nat := _s1.2.2
        let e7 ← bf_load 64 (padd tmp ((((lambda_bytes + U32 - i) % U32) + U32 - 8) % U32))
        let h1 : BF 64 := bfAdd h1 (bfMul running_t e7)
        let i : Nat := (i + 8) % U32
        let running_t : BF 64 := bfMul running_t b_t
        pure (h1, running_t, i))
      (h1, running_t, i)
  let h1 : BF 64 := e6.1
  let running_t : BF 64 := e6.2.1
  let i : Nat := e6.2.2
  let e8 : BF 64 × BF 64 × Nat ← cwhile
      (fun _s1 =>
        let i : Nat := _s1.2.2
        decide (i < ((length_lambda * lambda_bytes) % U32)))
      (fun _s1 => do
        let h1 : BF 64 := _s1.1
        let running_t : BF 64 := _s1.2.1
        let i : Nat := _s1.2.2
        let e9 ← bf_load 64 (padd x ((((((length_lambda * lambda_bytes) % U32) + U32 - i) % U32) + U32 - 8) % U32))
        let h1 : BF 64 := bfAdd h1 (bfMul running_t e9)
        let i : Nat := (i + 8) % U32
        let running_t : BF 64 := bfMul running_t b_t
        pure (h1, running_t, i))
      (h1, running_t, i)
  let h1 : BF 64 := e8.1
  let running_t : BF 64 := e8.2.1
  let i : Nat := e8.2.2
  cfree .stack tmp
  pure h1

/-- universal_hashing.c:40-73 `vole_hash_128`. -/
def vole_hash_128 (h : CPtr) (sd : CPtr) (x : CPtr) (ell : Nat) : CM Unit := do
  let r0 : CPtr := sd
  let r1 : CPtr := padd sd 16
  let r2 : CPtr := padd sd 32
  let r3 : CPtr := padd sd 48
  let s : CPtr := padd sd 64
  let t : CPtr := padd sd 80
  let x1 : CPtr := padd x (((ell + 128) % U32) / 8)
  let length_lambda : Nat := ((((ell + 256) % U32) + U32 - 1) % U32) / 128
  let tmp ← alloc .stack (calloc 16 zeroed : Mem Byte)
  memcpy (α := Byte) tmp (padd x ((((length_lambda + U32 - 1) % U32) * 16) % U32)) (if (((ell + 128) % U32) % 128) = 0 then 16 else (((ell + 128) % U32) % 128) / 8)
  let e1 ← bf_load 128 tmp
  let h0 : BF 128 := e1
  let e2 ← bf_load 128 s
  let b_s : BF 128 := e2
  let running_s : BF 128 := b_s
  let i : Nat := 1
  let e3 : BF 128 × BF 128 × Nat ← cwhile
      (fun _s1 =>
        let i : Nat := _s1.2.2
        decide (i ≠ length_lambda))
      (fun _s1 => do
        let h0 : BF 128 := _s1.1
        let running_s : BF 128 := _s1.2.1
        let i : Nat := _s1.2.2
        let e4 ← bf_load 128 (padd x ((((((length_lambda + U32 - 1) % U32) + U32 - i) % U32) * 16) % U32))
        let h0 : BF 128 := bfAdd h0 (bfMul running_s e4)
        let i : Nat := (i + 1) % U32
        let running_s : BF 128 := bfMul running_s b_s
        pure (h0, running_s, i))
      (h0, running_s, i)
  let h0 : BF 128 := e3.1
  let running_s : BF 128 := e3.2.1
  let e5 ← compute_h1 t x 128 ell
  let h1 : BF 64 := e5
  let e6 ← bf_load 128 r0
  let e7 ← bf_load 128 r1
  let h2 : BF 128 := bfAdd (bfMul e6 h0) (bfMul64 e7 h1)
  let e8 ← bf_load 128 r2
  let e9 ← bf_load 128 r3
  let h3 : BF 128 := bfAdd (bfMul e8 h0) (bfMul64 e9 h1)
  bf_store h h2
  bf_store tmp h3
  memcpy (α := Byte) (padd h 16) tmp 2
  xor_u8_array h x1 h 18
  cfree .stack tmp
  pure ()

/-- universal_hashing.c:75-108 `vole_hash_192`. -/
def vole_hash_192 (h : CPtr) (sd : CPtr) (x : CPtr) (ell : Nat) : CM Unit := do
  let r0 : CPtr := sd
  let r1 : CPtr := padd sd 24
  let r2 : CPtr := padd sd 48
  let r3 : CPtr := padd sd 72
  let s : CPtr := padd sd 96
  let t : CPtr := padd sd 120
  let x1 : CPtr := padd x (((ell + 192) % U32) / 8)
  let length_lambda : Nat := ((((ell + 384) % U32) + U32 - 1) % U32) / 192
  let tmp ← alloc .stack (calloc 24 zeroed : Mem Byte)
  memcpy (α := Byte) tmp (padd x ((((length_lambda + U32 - 1) % U32) * 24) % U32)) (if (((ell + 192) % U32) % 192) = 0 then 24 else (((ell + 192) % U32) % 192) / 8)
  let e1 ← bf_load 192 tmp
  let h0 : BF 192 := e1
  let e2 ← bf_load 192 s
  let b_s : BF 192 := e2
  let running_s : BF 192 := b_s
  let i : Nat := 1
  let e3 : BF 192 × BF 192 × Nat ← cwhile
      (fun _s1 =>
        let i : Nat := _s1.2.2
        decide (i ≠ length_lambda))
      (fun _s1 => do
        let h0 : BF 192 := _s1.1
        let running_s : BF 192 := _s1.2.1
        let i : Nat := _s1.2.2
        let e4 ← bf_load 192 (padd x ((((((length_lambda + U32 - 1) % U32) + U32 - i) % U32) * 24) % U32))
        let h0 : BF 192 := bfAdd h0 (bfMul running_s e4)
        let i : Nat := (i + 1) % U32
        let running_s : BF 192 := bfMul running_s b_s
        pure (h0, running_s, i))
      (h0, running_s, i)
  let h0 : BF 192 := e3.1
  let running_s : BF 192 := e3.2.1
  let e5 ← compute_h1 t x 192 ell
  let h1 : BF 64 := e5
  let e6 ← bf_load 192 r0
  let e7 ← bf_load 192 r1
  let h2 : BF 192 := bfAdd (bfMul e6 h0) (bfMul64 e7 h1)
  let e8 ← bf_load 192 r2
  let e9 ← bf_load 192 r3
  let h3 : BF 192 := bfAdd (bfMul e8 h0) (bfMul64 e9 h1)
  bf_store h h2
  bf_store tmp h3
  memcpy (α := Byte) (padd h 24) tmp 2
  xor_u8_array h x1 h 26
  cfree .stack tmp
  pure ()

/-- universal_hashing.c:110-143 `vole_hash_256`. -/
def vole_hash_256 (h : CPtr) (sd : CPtr) (x : CPtr) (ell : Nat) : CM Unit := do
  let r0 : CPtr := sd
  let r1 : CPtr := padd sd 32
  let r2 : CPtr := padd sd 64
  let r3 : CPtr := padd sd 96
  let s : CPtr := padd sd 128
  let t : CPtr := padd sd 160
  let x1 : CPtr := padd x (((ell + 256) % U32) / 8)
  let length_lambda : Nat := ((((ell + 512) % U32) + U32 - 1) % U32) / 256
  let tmp ← alloc .stack (calloc 32 zeroed : Mem Byte)
  memcpy (α := Byte) tmp (padd x ((((length_lambda + U32 - 1) % U32) * 32) % U32)) (if (((ell + 256) % U32) % 256) = 0 then 32 else (((ell + 256) % U32) % 256) / 8)
  let e1 ← bf_load 256 tmp
  let h0 : BF 256 := e1
  let e2 ← bf_load 256 s
  let b_s : BF 256 := e2
  let running_s : BF 256 := b_s
  let i : Nat := 1
  let e3 : BF 256 × BF 256 × Nat ← cwhile
      (fun _s1 =>
        let i : Nat := _s1.2.2
        decide (i ≠ length_lambda))
      (fun _s1 => do
        let h0 : BF 256 := _s1.1
        let running_s : BF 256 := _s1.2.1
        let i : Nat := _s1.2.2
        let e4 ← bf_load 256 (padd x ((((((length_lambda + U32 - 1) % U32) + U32 - i) % U32) * 32) % U32))
        let h0 : BF 256 := bfAdd h0 (bfMul running_s e4)
        let i : Nat := (i + 1) % U32
        let running_s : BF 256 := bfMul running_s b_s
        pure (h0, running_s, i))
      (h0, running_s, i)
  let h0 : BF 256 := e3.1
  let running_s : BF 256 := e3.2.1
  let e5 ← compute_h1 t x 256 ell
  let h1 : BF 64 := e5
  let e6 ← bf_load 256 r0
  let e7 ← bf_load 256 r1
  let h2 : BF 256 := bfAdd (bfMul e6 h0) (bfMul64 e7 h1)
  let e8 ← bf_load 256 r2
  let e9 ← bf_load 256 r3
  let h3 : BF 256 := bfAdd (bfMul e8 h0) (bfMul64 e9 h1)
  bf_store h h2
  bf_store tmp h3
  memcpy (α := Byte) (padd h 32) tmp 2
  xor_u8_array h x1 h 34
  cfree .stack tmp
  pure ()

/-- universal_hashing.c:145-157 `vole_hash`. -/
def vole_hash (h : CPtr) (sd : CPtr) (x : CPtr) (ell : Nat) (lambda : Nat) : CM Unit := do
  let e1 : Unit ← (
    if lambda = 256 then (do
      vole_hash_256 h sd x ell
      pure ())
    else (if lambda = 192 then (do
      vole_hash_192 h sd x ell
      pure ())
    else (do
      vole_hash_128 h sd x ell
      pure ())))
  pure ()

/-- universal_hashing.c:159-168 `zk_hash_128_init`. -/
def zk_hash_128_init (ctx : ZkC 128) (sd : CPtr) : CM (ZkC 128) := do
  let s : CPtr := padd sd 32
  let t : CPtr := padd sd 48
  let ctx := { ctx with h0 := some (bfZero : BF 128) }
  let ctx := { ctx with h1 := some (bfZero : BF 128) }
  let e1 ← bf_load 128 s
  let ctx := { ctx with s := some e1 }
  let e2 ← bf_load 64 t
  let ctx := { ctx with t := some e2 }
  let ctx := { ctx with sd := some sd }
  pure ctx

/-- universal_hashing.c:170-173 `zk_hash_128_update`. -/
def zk_hash_128_update (ctx : ZkC 128) (v : BF 128) : CM (ZkC 128) := do
  let e1 ← uget ctx.h0
  let e2 ← uget ctx.s
  let ctx := { ctx with h0 := some (bfAdd (bfMul e1 e2) v) }
  let e3 ← uget ctx.h1
  let e4 ← uget ctx.t
  let ctx := { ctx with h1 := some (bfAdd (bfMul64 e3 e4) v) }
  pure ctx

/-- universal_hashing.c:175-182 `zk_hash_128_finalize`. -/
def zk_hash_128_finalize (h : CPtr) (ctx : ZkC 128) (x1 : BF 128) : CM (ZkC 128) := do
  let e1 ← uget ctx.sd
  let r0 : CPtr := e1
  let e2 ← uget ctx.sd
  let r1 : CPtr := padd e2 16
  let e3 ← bf_load 128 r0
  let e4 ← uget ctx.h0
  let e5 ← bf_load 128 r1
  let e6 ← uget ctx.h1
  bf_store h (bfAdd (bfAdd (bfMul e3 e4) (bfMul e5 e6)) x1)
  pure ctx

/-- universal_hashing.c:184-193 `zk_hash_192_init`. -/
def zk_hash_192_init (ctx : ZkC 192) (sd : CPtr) : CM (ZkC 192) := do
  let s : CPtr := padd sd 48
  let t : CPtr := padd sd 72
  let ctx := { ctx with h0 := some (bfZero : BF 192) }
  let ctx := { ctx with h1 := some (bfZero : BF 192) }
  let e1 ← bf_load 192 s
  let ctx := { ctx with s := some e1 }
  let e2 ← bf_load 64 t
  let ctx := { ctx with t := some e2 }
  let ctx := { ctx with sd := some sd }
  pure ctx

/-- universal_hashing.c:195-198 `zk_hash_192_update`. -/
def zk_hash_192_update (ctx : ZkC 192) (v : BF 192) : CM (ZkC 192) := do
  let e1 ← uget ctx.h0
  let e2 ← uget ctx.s
  let ctx := { ctx with h0 := some (bfAdd (bfMul e1 e2) v) }
  let e3 ← uget ctx.h1
  let e4 ← uget ctx.t
  let ctx := { ctx with h1 := some (bfAdd (bfMul64 e3 e4) v) }
  pure ctx

/-- universal_hashing.c:200-207 `zk_hash_192_finalize`. -/
def zk_hash_192_finalize (h : CPtr) (ctx : ZkC 192) (x1 : BF 192) : CM (ZkC 192) := do
  let e1 ← uget ctx.sd
  let r0 : CPtr := e1
  let e2 ← uget ctx.sd
  let r1 : CPtr := padd e2 24
  let e3 ← bf_load 192 r0
  let e4 ← uget ctx.h0
  let e5 ← bf_load 192 r1
  let e6 ← uget ctx.h1
  bf_store h (bfAdd (bfAdd (bfMul e3 e4) (bfMul e5 e6)) x1)
  pure ctx

/-- universal_hashing.c:209-218 `zk_hash_256_init`. -/
def zk_hash_256_init (ctx : ZkC 256) (sd : CPtr) : CM (ZkC 256) := do
  let s : CPtr := padd sd 64
  let t : CPtr := padd sd 96
  let ctx := { ctx with h0 := some (bfZero : BF 256) }
  let ctx := { ctx with h1 := some (bfZero : BF 256) }
  let e1 ← bf_load 256 s
  let ctx := { ctx with s := some e1 }
  let e2 ← bf_load 64 t
  let ctx := { ctx with t := some e2 }
  let ctx := { ctx with sd := some sd }
  pure ctx

/-- universal_hashing.c:220-223 `zk_hash_256_update`. -/
def zk_hash_256_update (ctx : ZkC 256) (v : BF 256) : CM (ZkC 256) := do
  let e1 ← uget ctx.h0
  let e2 ← uget ctx.s
  let ctx := { ctx with h0 := some (bfAdd (bfMul e1 e2) v) }
  let e3 ← uget ctx.h1
  let e4 ← uget ctx.t
  let ctx := { ctx with h1 := some (bfAdd (bfMul64 e3 e4) v) }
  pure ctx

/-- universal_hashing.c:225-232 `zk_hash_256_finalize`. -/
def zk_hash_256_finalize (h : CPtr) (ctx : ZkC 256) (x1 : BF 256) : CM (ZkC 256) := do
  let e1 ← uget ctx.sd
  let r0 : CPtr := e1
  let e2 ← uget ctx.sd
  let r1 : CPtr := padd e2 32
  let e3 ← bf_load 256 r0
  let e4 ← uget ctx.h0
  let e5 ← bf_load 256 r1
  let e6 ← uget ctx.h1
  bf_store h (bfAdd (bfAdd (bfMul e3 e4) (bfMul e5 e6)) x1)
  pure ctx

end Faest.Gen
