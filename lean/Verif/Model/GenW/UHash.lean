/-
Generated by tools/c2lean.py from universal_hashing.c. Do not edit.
-/
import Verif.Model.GenW.Utils

set_option linter.unusedVariables false

namespace Faest.GenW
open Faest.C

/-- universal_hashing.c:16-38 `compute_h1`. -/
def compute_h1 (F : FImpl) (t : CPtr) (x : CPtr) (lambda : Nat) (ell : Nat) : CM (BF 64) := do
  let e1 ← F.f64.load t
  let b_t : BF 64 := e1
  let lambda_bytes : Nat := lambda / 8
  let e2 ← cdiv ((((((ell + lambda) % U32) + lambda) % U32) + U32 - 1) % U32) lambda
  let length_lambda : Nat := e2
  let tmp ← alloc .stack (calloc 32 zeroed : Mem Byte)
  let e3 ← cmod ((ell + lambda) % U32) lambda
  let e5 ← (if e3 = 0 then (do
      pure lambda_bytes)
    else (do
      let e4 ← cmod ((ell + lambda) % U32) lambda
      pure (e4 / 8)))
  memcpy (α := Byte) tmp (padd x ((((length_lambda + U32 - 1) % U32) * lambda_bytes) % U32)) e5
  let e6 ← F.f64.zero
  let h1 : BF 64 := e6
  let e7 ← F.f64.one
  let running_t : BF 64 := e7
  let i : Nat := 0
  let e8 : BF 64 × BF 64 × Nat ← cwhile
      (fun _s1 =>
        let i : Nat := _s1.2.2
        decide (i < lambda_bytes))
      (fun _s1 => do
        let h1 : BF 64 := _s1.1
        let running_t : BF 64 := _s1.2.1
        let i : Nat := _s1.2.2
        let e9 ← F.f64.load (padd tmp ((((lambda_bytes + U32 - i) % U32) + U32 - 8) % U32))
        let e10 ← F.f64.mul running_t e9
        let e11 ← F.f64.add h1 e10
        let h1 : BF 64 := e11
        let i : Nat := (i + 8) % U32
        let e12 ← F.f64.mul running_t b_t
        let running_t : BF 64 := e12
        pure (h1, running_t, i))
      (h1, running_t, i)
  let h1 : BF 64 := e8.1
  let running_t : BF 64 := e8.2.1
  let i : Nat := e8.2.2
  let e13 : BF 64 × BF 64 × Nat ← cwhile
      (fun _s1 =>
        let i : Nat := _s1.2.2
        decide (i < ((length_lambda * lambda_bytes) % U32)))
      (fun _s1 => do
        let h1 : BF 64 := _s1.1
        let running_t : BF 64 := _s1.2.1
        let i : Nat := _s1.2.2
        let e14 ← F.f64.load (padd x ((((((length_lambda * lambda_bytes) % U32) + U32 - i) % U32) + U32 - 8) % U32))
        let e15 ← F.f64.mul running_t e14
        let e16 ← F.f64.add h1 e15
        let h1 : BF 64 := e16
        let i : Nat := (i + 8) % U32
        let e17 ← F.f64.mul running_t b_t
        let running_t : BF 64 := e17
        pure (h1, running_t, i))
      (h1, running_t, i)
  let h1 : BF 64 := e13.1
  let running_t : BF 64 := e13.2.1
  let i : Nat := e13.2.2
  cfree .stack tmp
  pure h1

/-- universal_hashing.c:40-73 `vole_hash_128`. -/
def vole_hash_128 (F : FImpl) (h : CPtr) (sd : CPtr) (x : CPtr) (ell : Nat) : CM Unit := do
  let r0 : CPtr := sd
  let r1 : CPtr := padd sd 16
  let r2 : CPtr := padd sd 32
  let r3 : CPtr := padd sd 48
  let s : CPtr := padd sd 64
  let t : CPtr := padd sd 80
  let x1 : CPtr := padd x (((ell + 128) % U32) / 8)
  let length_lambda : Nat := ((((ell + 256) % U32) + U32 - 1) % U32) / 128
  let tmp ← alloc .stack (calloc 16 zeroed : Mem Byte)
  memcpy (α := Byte) tmp (padd x ((((length_lambda + U32 - 1) % U32) * 16) % U32)) (if (((ell + 128) % U32) % 128) = 0 then 16 else (((ell + 128) % U32) % 128) / 8)
  let e1 ← F.f128.load tmp
  let h0 : BF 128 := e1
  let e2 ← F.f128.load s
  let b_s : BF 128 := e2
  let running_s : BF 128 := b_s
  let i : Nat := 1
  let e3 : BF 128 × BF 128 × Nat ← cwhile
      (fun _s1 =>
        let i : Nat := _s1.2.2
        decide (i ≠ length_lambda))
      (fun _s1 => do
        let h0 : BF 128 := _s1.1
        let running_s : BF 128 := _s1.2.1
        let i : Nat := _s1.2.2
        let e4 ← F.f128.load (padd x ((((((length_lambda + U32 - 1) % U32) + U32 - i) % U32) * 16) % U32))
        let e5 ← F.f128.mul running_s e4
        let e6 ← F.f128.add h0 e5
        let h0 : BF 128 := e6
        let i : Nat := (i + 1) % U32
        let e7 ← F.f128.mul running_s b_s
        let running_s : BF 128 := e7
        pure (h0, running_s, i))
      (h0, running_s, i)
  let h0 : BF 128 := e3.1
  let running_s : BF 128 := e3.2.1
  let e8 ← compute_h1 F t x 128 ell
  let h1 : BF 64 := e8
  let e9 ← F.f128.load r0
  let e10 ← F.f128.mul e9 h0
  let e11 ← F.f128.load r1
  let e12 ← F.f128.mul_64 e11 h1
  let e13 ← F.f128.add e10 e12
  let h2 : BF 128 := e13
  let e14 ← F.f128.load r2
  let e15 ← F.f128.mul e14 h0
  let e16 ← F.f128.load r3
  let e17 ← F.f128.mul_64 e16 h1
  let e18 ← F.f128.add e15 e17
  let h3 : BF 128 := e18
  F.f128.store h h2
  F.f128.store tmp h3
  memcpy (α := Byte) (padd h 16) tmp 2
  xor_u8_array h x1 h 18
  cfree .stack tmp
  pure ()

/-- universal_hashing.c:75-108 `vole_hash_192`. -/
def vole_hash_192 (F : FImpl) (h : CPtr) (sd : CPtr) (x : CPtr) (ell : Nat) : CM Unit := do
  let r0 : CPtr := sd
  let r1 : CPtr := padd sd 24
  let r2 : CPtr := padd sd 48
  let r3 : CPtr := padd sd 72
  let s : CPtr := padd sd 96
  let t : CPtr := padd sd 120
  let x1 : CPtr := padd x (((ell + 192) % U32) / 8)
  let length_lambda : Nat := ((((ell + 384) % U32) + U32 - 1) % U32) / 192
  let tmp ← alloc .stack (calloc 24 zeroed : Mem Byte)
  memcpy (α := Byte) tmp (padd x ((((length_lambda + U32 - 1) % U32) * 24) % U32)) (if (((ell + 192) % U32) % 192) = 0 then 24 else (((ell + 192) % U32) % 192) / 8)
  let e1 ← F.f192.load tmp
  let h0 : BF 192 := e1
  let e2 ← F.f192.load s
  let b_s : BF 192 := e2
  let running_s : BF 192 := b_s
  let i : Nat := 1
  let e3 : BF 192 × BF 192 × Nat ← cwhile
      (fun _s1 =>
        let i : Nat := _s1.2.2
        decide (i ≠ length_lambda))
      (fun _s1 => do
        let h0 : BF 192 := _s1.1
        let running_s : BF 192 := _s1.2.1
        let i : Nat := _s1.2.2
        let e4 ← F.f192.load (padd x ((((((length_lambda + U32 - 1) % U32) + U32 - i) % U32) * 24) % U32))
        let e5 ← F.f192.mul running_s e4
        let e6 ← F.f192.add h0 e5
        let h0 : BF 192 := e6
        let i : Nat := (i + 1) % U32
        let e7 ← F.f192.mul running_s b_s
        let running_s : BF 192 := e7
        pure (h0, running_s, i))
      (h0, running_s, i)
  let h0 : BF 192 := e3.1
  let running_s : BF 192 := e3.2.1
  let e8 ← compute_h1 F t x 192 ell
  let h1 : BF 64 := e8
  let e9 ← F.f192.load r0
  let e10 ← F.f192.mul e9 h0
  let e11 ← F.f192.load r1
  let e12 ← F.f192.mul_64 e11 h1
  let e13 ← F.f192.add e10 e12
  let h2 : BF 192 := e13
  let e14 ← F.f192.load r2
  let e15 ← F.f192.mul e14 h0
  let e16 ← F.f192.load r3
  let e17 ← F.f192.mul_64 e16 h1
  let e18 ← F.f192.add e15 e17
  let h3 : BF 192 := e18
  F.f192.store h h2
  F.f192.store tmp h3
  memcpy (α := Byte) (padd h 24) tmp 2
  xor_u8_array h x1 h 26
  cfree .stack tmp
  pure ()

/-- universal_hashing.c:110-143 `vole_hash_256`. -/
def vole_hash_256 (F : FImpl) (h : CPtr) (sd : CPtr) (x : CPtr) (ell : Nat) : CM Unit := do
  let r0 : CPtr := sd
  let r1 : CPtr := padd sd 32
  let r2 : CPtr := padd sd 64
  let r3 : CPtr := padd sd 96
  let s : CPtr := padd sd 128
  let t : CPtr := padd sd 160
  let x1 : CPtr := padd x (((ell + 256) % U32) / 8)
  let length_lambda : Nat := ((((ell + 512) % U32) + U32 - 1) % U32) / 256
  let tmp ← alloc .stack (calloc 32 zeroed : Mem Byte)
  memcpy (α := Byte) tmp (padd x ((((length_lambda + U32 - 1) % U32) * 32) % U32)) (if (((ell + 256) % U32) % 256) = 0 then 32 else (((ell + 256) % U32) % 256) / 8)
  let e1 ← F.f256.load tmp
  let h0 : BF 256 := e1
  let e2 ← F.f256.load s
  let b_s : BF 256 := e2
  let running_s : BF 256 := b_s
  let i : Nat := 1
  let e3 : BF 256 × BF 256 × Nat ← cwhile
      (fun _s1 =>
        let i : Nat := _s1.2.2
        decide (i ≠ length_lambda))
      (fun _s1 => do
        let h0 : BF 256 := _s1.1
        let running_s : BF 256 := _s1.2.1
        let i : Nat := _s1.2.2
        let e4 ← F.f256.load (padd x ((((((length_lambda + U32 - 1) % U32) + U32 - i) % U32) * 32) % U32))
        let e5 ← F.f256.mul running_s e4
        let e6 ← F.f256.add h0 e5
        let h0 : BF 256 := e6
        let i : Nat := (i + 1) % U32
        let e7 ← F.f256.mul running_s b_s
        let running_s : BF 256 := e7
        pure (h0, running_s, i))
      (h0, running_s, i)
  let h0 : BF 256 := e3.1
  let running_s : BF 256 := e3.2.1
  let e8 ← compute_h1 F t x 256 ell
  let h1 : BF 64 := e8
  let e9 ← F.f256.load r0
  let e10 ← F.f256.mul e9 h0
  let e11 ← F.f256.load r1
  let e12 ← F.f256.mul_64 e11 h1
  let e13 ← F.f256.add e10 e12
  let h2 : BF 256 := e13
  let e14 ← F.f256.load r2
  let e15 ← F.f256.mul e14 h0
  let e16 ← F.f256.load r3
  let e17 ← F.f256.mul_64 e16 h1
  let e18 ← F.f256.add e15 e17
  let h3 : BF 256 := e18
  F.f256.store h h2
  F.f256.store tmp h3
  memcpy (α := Byte) (padd h 32) tmp 2
  xor_u8_array h x1 h 34
  cfree .stack tmp
  pure ()

/-- universal_hashing.c:145-157 `vole_hash`. -/
def vole_hash (F : FImpl) (h : CPtr) (sd : CPtr) (x : CPtr) (ell : Nat) (lambda : Nat) : CM Unit := do
  let e1 : Unit ← (
    if lambda = 256 then (do
      vole_hash_256 F h sd x ell
      pure ())
    else (if lambda = 192 then (do
      vole_hash_192 F h sd x ell
      pure ())
    else (do
      vole_hash_128 F h sd x ell
      pure ())))
  pure ()

/-- universal_hashing.c:159-168 `zk_hash_128_init`. -/
def zk_hash_128_init (F : FImpl) (ctx : ZkC 128) (sd : CPtr) : CM (ZkC 128) := do
  let s : CPtr := padd sd 32
  let t : CPtr := padd sd 48
  let e1 ← F.f128.zero
  let ctx := { ctx with h0 := some e1 }
  let e2 ← F.f128.zero
  let ctx := { ctx with h1 := some e2 }
  let e3 ← F.f128.load s
  let ctx := { ctx with s := some e3 }
  let e4 ← F.f64.load t
  let ctx := { ctx with t := some e4 }
  let ctx := { ctx with sd := some sd }
  pure ctx

/-- universal_hashing.c:170-173 `zk_hash_128_update`. -/
def zk_hash_128_update (F : FImpl) (ctx : ZkC 128) (v : BF 128) : CM (ZkC 128) := do
  let e1 ← uget ctx.h0
  let e2 ← uget ctx.s
  let e3 ← F.f128.mul e1 e2
  let e4 ← F.f128.add e3 v
  let ctx := { ctx with h0 := some e4 }
  let e5 ← uget ctx.h1
  let e6 ← uget ctx.t
  let e7 ← F.f128.mul_64 e5 e6
  let e8 ← F.f128.add e7 v
  let ctx := { ctx with h1 := some e8 }
  pure ctx

/-- universal_hashing.c:175-182 `zk_hash_128_finalize`. -/
def zk_hash_128_finalize (F : FImpl) (h : CPtr) (ctx : ZkC 128) (x1 : BF 128) : CM (ZkC 128) := do
  let e1 ← uget ctx.sd
  let r0 : CPtr := e1
  let e2 ← uget ctx.sd
  let r1 : CPtr := padd e2 16
  let e3 ← F.f128.load r0
  let e4 ← uget ctx.h0
  let e5 ← F.f128.mul e3 e4
  let e6 ← F.f128.load r1
  let e7 ← uget ctx.h1
  let e8 ← F.f128.mul e6 e7
  let e9 ← F.f128.add e5 e8
  let e10 ← F.f128.add e9 x1
  F.f128.store h e10
  pure ctx

/-- universal_hashing.c:184-193 `zk_hash_192_init`. -/
def zk_hash_192_init (F : FImpl) (ctx : ZkC 192) (sd : CPtr) : CM (ZkC 192) := do
  let s : CPtr := padd sd 48
  let t : CPtr := padd sd 72
  let e1 ← F.f192.zero
  let ctx := { ctx with h0 := some e1 }
  let e2 ← F.f192.zero
  let ctx := { ctx with h1 := some e2 }
  let e3 ← F.f192.load s
  let ctx := { ctx with s := some e3 }
  let e4 ← F.f64.load t
  let ctx := { ctx with t := some e4 }
  let ctx := { ctx with sd := some sd }
  pure ctx

/-- universal_hashing.c:195-198 `zk_hash_192_update`. -/
def zk_hash_192_update (F : FImpl) (ctx : ZkC 192) (v : BF 192) : CM (ZkC 192) := do
  let e1 ← uget ctx.h0
  let e2 ← uget ctx.s
  let e3 ← F.f192.mul e1 e2
  let e4 ← F.f192.add e3 v
  let ctx := { ctx with h0 := some e4 }
  let e5 ← uget ctx.h1
  let e6 ← uget ctx.t
  let e7 ← F.f192.mul_64 e5 e6
  let e8 ← F.f192.add e7 v
  let ctx := { ctx with h1 := some e8 }
  pure ctx

/-- universal_hashing.c:200-207 `zk_hash_192_finalize`. -/
def zk_hash_192_finalize (F : FImpl) (h : CPtr) (ctx : ZkC 192) (x1 : BF 192) : CM (ZkC 192) := do
  let e1 ← uget ctx.sd
  let r0 : CPtr := e1
  let e2 ← uget ctx.sd
  let r1 : CPtr := padd e2 24
  let e3 ← F.f192.load r0
  let e4 ← uget ctx.h0
  let e5 ← F.f192.mul e3 e4
  let e6 ← F.f192.load r1
  let e7 ← uget ctx.h1
  let e8 ← F.f192.mul e6 e7
  let e9 ← F.f192.add e5 e8
  let e10 ← F.f192.add e9 x1
  F.f192.store h e10
  pure ctx

/-- universal_hashing.c:209-218 `zk_hash_256_init`. -/
def zk_hash_256_init (F : FImpl) (ctx : ZkC 256) (sd : CPtr) : CM (ZkC 256) := do
  let s : CPtr := padd sd 64
  let t : CPtr := padd sd 96
  let e1 ← F.f256.zero
  let ctx := { ctx with h0 := some e1 }
  let e2 ← F.f256.zero
  let ctx := { ctx with h1 := some e2 }
  let e3 ← F.f256.load s
  let ctx := { ctx with s := some e3 }
  let e4 ← F.f64.load t
  let ctx := { ctx with t := some e4 }
  let ctx := { ctx with sd := some sd }
  pure ctx

/-- universal_hashing.c:220-223 `zk_hash_256_update`. -/
def zk_hash_256_update (F : FImpl) (ctx : ZkC 256) (v : BF 256) : CM (ZkC 256) := do
  let e1 ← uget ctx.h0
  let e2 ← uget ctx.s
  let e3 ← F.f256.mul e1 e2
  let e4 ← F.f256.add e3 v
  let ctx := { ctx with h0 := some e4 }
  let e5 ← uget ctx.h1
  let e6 ← uget ctx.t
  let e7 ← F.f256.mul_64 e5 e6
  let e8 ← F.f256.add e7 v
  let ctx := { ctx with h1 := some e8 }
  pure ctx

/-- universal_hashing.c:225-232 `zk_hash_256_finalize`. -/
def zk_hash_256_finalize (F : FImpl) (h : CPtr) (ctx : ZkC 256) (x1 : BF 256) : CM (ZkC 256) := do
  let e1 ← uget ctx.sd
  let r0 : CPtr := e1
  let e2 ← uget ctx.sd
  let r1 : CPtr := padd e2 32
  let e3 ← F.f256.load r0
  let e4 ← uget ctx.h0
  let e5 ← F.f256.mul e3 e4
  let e6 ← F.f256.load r1
  let e7 ← uget ctx.h1
  let e8 ← F.f256.mul e6 e7
  let e9 ← F.f256.add e5 e8
  let e10 ← F.f256.add e9 x1
  F.f256.store h e10
  pure ctx

end Faest.GenW
