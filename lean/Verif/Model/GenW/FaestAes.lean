/-
Generated by tools/c2lean.py from faest_aes.c. Do not edit.
-/
import Verif.Model.GenW.Vole
import Verif.Model.GenW.UHash

set_option linter.unusedVariables false

namespace Faest.GenW
open Faest.C

/-- faest_aes.c:74-77 -/
def Rcon : List Byte :=
  [0x01, 0x02, 0x04, 0x08, 0x10, 0x20, 0x40, 0x80, 0x1b, 0x36, 0x6c, 0xd8, 0xab, 0x4d, 0x9a,
   0x2f, 0x5e, 0xbc, 0x63, 0xc6, 0x97, 0x35, 0x6a, 0xd4, 0xb3, 0x7d, 0xfa, 0xef, 0xc5, 0x91]

/-- faest_aes.c:79-93 `column_to_row_major_and_shrink_V_128`. -/
def column_to_row_major_and_shrink_V_128 (F : FImpl) (v : CPtr) (ell : Nat) : CM CPtr := do
  let e1 ← alloc .aligned (malloc ((ell + 128) % U32) : Mem (BF 128))
  let new_v : CPtr := e1
  let row : Nat := 0
  let e2 : Nat ← cwhile
      (fun _s1 =>
        let row : Nat := _s1
        decide (row ≠ ((ell + 128) % U32)))
      (fun _s1 => do
        let row : Nat := _s1
        let new_row ← alloc .stack (calloc 16 zeroed : Mem Byte)
        let column : Nat := 0
        let e3 : Nat ← cwhile
            (fun _s2 =>
              let column : Nat := _s2
              decide (column ≠ 128))
            (fun _s2 => do
              let column : Nat := _s2
              let e4 : Byte ← ld new_row (column / 8)
              let e5 : CPtr ← ld v column
              let e6 : Byte ← ld e5 (row / 8)
              st new_row (column / 8) (BitVec.ofNat 8 (e4.toNat ||| (((e6.toNat >>> (row % 8)) &&& 1) <<< (column % 8))))
              let column : Nat := (column + 1) % U32
              pure column)
            column
        let e7 ← F.f128.load new_row
        st new_v row e7
        cfree .stack new_row
        let row : Nat := (row + 1) % U32
        pure row)
      row
  pure new_v

/-- faest_aes.c:95-109 `column_to_row_major_and_shrink_V_192`. -/
def column_to_row_major_and_shrink_V_192 (F : FImpl) (v : CPtr) (ell : Nat) : CM CPtr := do
  let e1 ← alloc .aligned (malloc ((ell + 192) % U32) : Mem (BF 192))
  let new_v : CPtr := e1
  let row : Nat := 0
  let e2 : Nat ← cwhile
      (fun _s1 =>
        let row : Nat := _s1
        decide (row ≠ ((ell + 192) % U32)))
      (fun _s1 => do
        let row : Nat := _s1
        let new_row ← alloc .stack (calloc 24 zeroed : Mem Byte)
        let column : Nat := 0
        let e3 : Nat ← cwhile
            (fun _s2 =>
              let column : Nat := _s2
              decide (column ≠ 192))
            (fun _s2 => do
              let column : Nat := _s2
              let e4 : Byte ← ld new_row (column / 8)
              let e5 : CPtr ← ld v column
              let e6 : Byte ← ld e5 (row / 8)
              st new_row (column / 8) (BitVec.ofNat 8 (e4.toNat ||| (((e6.toNat >>> (row % 8)) &&& 1) <<< (column % 8))))
              let column : Nat := (column + 1) % U32
              pure column)
            column
        let e7 ← F.f192.load new_row
        st new_v row e7
        cfree .stack new_row
        let row : Nat := (row + 1) % U32
        pure row)
      row
  pure new_v

/-- faest_aes.c:111-125 `column_to_row_major_and_shrink_V_256`. -/
def column_to_row_major_and_shrink_V_256 (F : FImpl) (v : CPtr) (ell : Nat) : CM CPtr := do
  let e1 ← alloc .aligned (malloc ((ell + 256) % U32) : Mem (BF 256))
  let new_v : CPtr := e1
  let row : Nat := 0
  let e2 : Nat ← cwhile
      (fun _s1 =>
        let row : Nat := _s1
        decide (row ≠ ((ell + 256) % U32)))
      (fun _s1 => do
        let row : Nat := _s1
        let new_row ← alloc .stack (calloc 32 zeroed : Mem Byte)
        let column : Nat := 0
        let e3 : Nat ← cwhile
            (fun _s2 =>
              let column : Nat := _s2
              decide (column ≠ 256))
            (fun _s2 => do
              let column : Nat := _s2
              let e4 : Byte ← ld new_row (column / 8)
              let e5 : CPtr ← ld v column
              let e6 : Byte ← ld e5 (row / 8)
              st new_row (column / 8) (BitVec.ofNat 8 (e4.toNat ||| (((e6.toNat >>> (row % 8)) &&& 1) <<< (column % 8))))
              let column : Nat := (column + 1) % U32
              pure column)
            column
        let e7 ← F.f256.load new_row
        st new_v row e7
        cfree .stack new_row
        let row : Nat := (row + 1) % U32
        pure row)
      row
  pure new_v

/-- faest_aes.c:129-157 `aes_key_schedule_forward_1`. -/
def aes_key_schedule_forward_1 (x : CPtr) (out : CPtr) (params : Params) : CM Unit := do
  let lambda : Nat := params.lambda
  let R : Nat := params.R
  let Nwd : Nat := params.Nwd
  let lambdaBytes : Nat := lambda / 8
  let out_len : Nat := ((((R + 1) % U32) * 128) % U32) / 8
  memcpy (α := Byte) out x lambdaBytes
  memset0 (padd out lambdaBytes) ((out_len + U32 - lambdaBytes) % U32)
  let i_wd : Nat := lambda
  let j : Nat := Nwd
  let e1 : Nat × Nat ← cwhile
      (fun _s1 =>
        let j : Nat := _s1.2
        decide (j < ((4 * ((R + 1) % U32)) % U32)))
      (fun _s1 => do
        let i_wd : Nat := _s1.1
        let j : Nat := _s1.2
        let e2 ← cmod j Nwd
        let e3 ← cmod j Nwd
        let e4 : Nat ← (
          if (e2 = 0) ∨ ((Nwd > 6) ∧ (e3 = 4)) then (do
            memcpy (α := Byte) (padd out (((32 * j) % U32) / 8)) (padd x (i_wd / 8)) 4
            let i_wd : Nat := (i_wd + 32) % U32
            pure i_wd)
          else (do
            let i : Nat := 0
            let e5 : Nat ← cwhile
                (fun _s2 =>
                  let i : Nat := _s2
                  decide (i < 32))
                (fun _s2 => do
                  let i : Nat := _s2
                  let e6 : Byte ← ld out (((((32 * j) % U32) + i) % U32) / 8)
                  let e7 : Byte ← ld out (((((32 * ((j + U32 - Nwd) % U32)) % U32) + i) % U32) / 8)
                  let e8 : Byte ← ld out (((((32 * ((j + U32 - 1) % U32)) % U32) + i) % U32) / 8)
                  st out (((((32 * j) % U32) + i) % U32) / 8) (BitVec.ofNat 8 (e6.toNat ||| (e7.toNat ^^^ e8.toNat)))
                  let i : Nat := (i + 8) % U32
                  pure i)
                i
            pure i_wd))
        let i_wd : Nat := e4
        let j : Nat := (j + 1) % U32
        pure (i_wd, j))
      (i_wd, j)
  let i_wd : Nat := e1.1
  pure ()

/-- faest_aes.c:159-204 `aes_key_schedule_backward_1`. -/
def aes_key_schedule_backward_1 (F : FImpl) (x : CPtr) (xk : CPtr) (out : CPtr) (params : Params) : CM Unit := do
  let lambda : Nat := params.lambda
  let Ske : Nat := params.Ske
  let iwd : Nat := 0
  let c : Nat := 0
  let rmvRcon : Bool := true
  let ircon : Nat := 0
  let j : Nat := 0
  let e1 : Nat × Nat × Bool × Nat × Nat ← cwhile
      (fun _s1 =>
        let j : Nat := _s1.2.2.2.2
        decide (j < Ske))
      (fun _s1 => do
        let iwd : Nat := _s1.1
        let c : Nat := _s1.2.1
        let rmvRcon : Bool := _s1.2.2.1
        let ircon : Nat := _s1.2.2.2.1
        let j : Nat := _s1.2.2.2.2
        let e2 : Byte ← ld x j
        let e3 : Byte ← ld xk ((iwd + c) % U32)
        let x_tilde : Byte := BitVec.ofNat 8 (e2.toNat ^^^ e3.toNat)
        let e4 : Nat × Byte ← (
          if (rmvRcon = true) ∧ (c = 0) then (do
            let e5 ← tget Rcon ircon
            let x_tilde : Byte := BitVec.ofNat 8 (x_tilde.toNat ^^^ e5.toNat)
            let ircon : Nat := (ircon + 1) % U32
            pure (ircon, x_tilde))
          else (do
            pure (ircon, x_tilde)))
        let ircon : Nat := e4.1
        let x_tilde : Byte := e4.2
        let e6 ← F.rotr8 x_tilde 7
        let e7 ← F.rotr8 x_tilde 5
        let e8 ← F.rotr8 x_tilde 2
        let y_tilde : Byte := BitVec.ofNat 8 ((e6.toNat ^^^ e7.toNat) ^^^ e8.toNat)
        st out j (BitVec.ofNat 8 (y_tilde.toNat ^^^ 5))
        let c : Nat := (c + 1) % U32
        let e9 : Nat × Nat × Bool ← (
          if c = 4 then (do
            let c : Nat := 0
            let e10 : Nat × Bool ← (
              if lambda = 192 then (do
                let iwd : Nat := (iwd + 24) % U32
                pure (iwd, rmvRcon))
              else (do
                let iwd : Nat := (iwd + 16) % U32
                let e11 : Bool ← (
                  if lambda = 256 then (do
                    let rmvRcon : Bool := decide (¬ (rmvRcon = true))
                    pure rmvRcon)
                  else (do
                    pure rmvRcon))
                let rmvRcon : Bool := e11
                pure (iwd, rmvRcon)))
            let iwd : Nat := e10.1
            let rmvRcon : Bool := e10.2
            pure (iwd, c, rmvRcon))
          else (do
            pure (iwd, c, rmvRcon)))
        let iwd : Nat := e9.1
        let c : Nat := e9.2.1
        let rmvRcon : Bool := e9.2.2
        let j : Nat := (j + 1) % U32
        pure (iwd, c, rmvRcon, ircon, j))
      (iwd, c, rmvRcon, ircon, j)
  let iwd : Nat := e1.1
  let c : Nat := e1.2.1
  let rmvRcon : Bool := e1.2.2.1
  let ircon : Nat := e1.2.2.2.1
  pure ()

/-- faest_aes.c:208-228 `aes_key_schedule_forward_128`. -/
def aes_key_schedule_forward_128 (F : FImpl) (v : CPtr) (bf_out : CPtr) : CM Unit := do
  memcpy (α := BF 128) bf_out v 128
  let i_wd : Nat := 128
  let j : Nat := 4
  let e1 : Nat × Nat ← cwhile
      (fun _s1 =>
        let j : Nat := _s1.2
        decide (j < 44))
      (fun _s1 => do
        let i_wd : Nat := _s1.1
        let j : Nat := _s1.2
        let e2 : Nat ← (
          if ((j % 4) = 0) ∨ ((4 > 6) ∧ ((j % 4) = 4)) then (do
            memcpy (α := BF 128) (padd bf_out ((j * 32) % U32)) (padd v i_wd) 32
            let i_wd : Nat := (i_wd + 32) % U32
            pure i_wd)
          else (do
            let i : Nat := 0
            let e3 : Nat ← cwhile
                (fun _s2 =>
                  let i : Nat := _s2
                  decide (i < 32))
                (fun _s2 => do
                  let i : Nat := _s2
                  let e4 : BF 128 ← ld bf_out ((((32 * ((j + U32 - 4) % U32)) % U32) + i) % U32)
                  let e5 : BF 128 ← ld bf_out ((((32 * ((j + U32 - 1) % U32)) % U32) + i) % U32)
                  let e6 ← F.f128.add e4 e5
                  st bf_out ((((32 * j) % U32) + i) % U32) e6
                  let i : Nat := (i + 1) % U32
                  pure i)
                i
            pure i_wd))
        let i_wd : Nat := e2
        let j : Nat := (j + 1) % U32
        pure (i_wd, j))
      (i_wd, j)
  let i_wd : Nat := e1.1
  pure ()

/-- faest_aes.c:230-282 `aes_key_schedule_backward_128`. -/
def aes_key_schedule_backward_128 (F : FImpl) (v : CPtr) (Vk : CPtr) (Mtag : Byte) (Mkey : Byte) (delta : CPtr)
    (bf_out : CPtr) : CM Unit := do
  cassert (decide (¬ (((Mtag.toNat = 1) ∧ (Mkey.toNat = 1)) ∨ ((Mkey.toNat = 1) ∧ (¬ (delta.isSome = true))))))
  let e3 ← (if delta.isSome = true then (do
      let e1 ← F.f128.load delta
      pure e1)
    else (do
      let e2 ← F.f128.zero
      pure e2))
  let bf_delta : BF 128 := e3
  let iwd : Nat := 0
  let c : Nat := 0
  let ircon : Nat := 0
  let e4 ← F.f128.from_bit (BitVec.ofNat 8 (1 ^^^ Mkey.toNat))
  let bf_minus_mkey : BF 128 := e4
  let minus_mtag : Byte := BitVec.ofNat 8 (1 ^^^ Mtag.toNat)
  let e5 ← F.f128.mul_bit bf_delta Mkey
  let bf_mkey_times_delta : BF 128 := e5
  let e6 ← F.f128.add bf_mkey_times_delta bf_minus_mkey
  let bf_mkey_times_delta : BF 128 := e6
  let j : Nat := 0
  let e7 : Nat × Nat × Nat × Nat ← cwhile
      (fun _s1 =>
        let j : Nat := _s1.2.2.2
        decide (j < 40))
      (fun _s1 => do
        let iwd : Nat := _s1.1
        let c : Nat := _s1.2.1
        let ircon : Nat := _s1.2.2.1
        let j : Nat := _s1.2.2.2
        let bf_x_tilde ← alloc .stack (malloc 8 : Mem (BF 128))
        let i : Nat := 0
        let e8 : Nat ← cwhile
            (fun _s2 =>
              let i : Nat := _s2
              decide (i < 8))
            (fun _s2 => do
              let i : Nat := _s2
              let e9 : BF 128 ← ld v ((((8 * j) % U32) + i) % U32)
              let e10 : BF 128 ← ld Vk ((((iwd + ((8 * c) % U32)) % U32) + i) % U32)
              let e11 ← F.f128.add e9 e10
              st bf_x_tilde i e11
              let i : Nat := (i + 1) % U32
              pure i)
            i
        let e12 : Nat ← (
          if (Mtag.toNat = 0) ∧ (c = 0) then (do
            let e13 ← tget Rcon ircon
            let r : Byte := e13
            let ircon : Nat := (ircon + 1) % U32
            let bf_r ← alloc .stack (malloc 8 : Mem (BF 128))
            let i : Nat := 0
            let e14 : Nat ← cwhile
                (fun _s2 =>
                  let i : Nat := _s2
                  decide (i < 8))
                (fun _s2 => do
                  let i : Nat := _s2
                  let e15 ← cshr 32 r.toNat i
                  let e16 ← F.f128.mul_bit bf_mkey_times_delta (BitVec.ofNat 8 (e15 &&& 1))
                  st bf_r i e16
                  let e17 : BF 128 ← ld bf_x_tilde i
                  let e18 : BF 128 ← ld bf_r i
                  let e19 ← F.f128.add e17 e18
                  st bf_x_tilde i e19
                  let i : Nat := (i + 1) % U32
                  pure i)
                i
            cfree .stack bf_r
            pure ircon)
          else (do
            pure ircon))
        let ircon : Nat := e12
        let i : Nat := 0
        let e20 : Nat ← cwhile
            (fun _s2 =>
              let i : Nat := _s2
              decide (i < 8))
            (fun _s2 => do
              let i : Nat := _s2
              let e21 : BF 128 ← ld bf_x_tilde (((i + 7) % U32) % 8)
              let e22 : BF 128 ← ld bf_x_tilde (((i + 5) % U32) % 8)
              let e23 ← F.f128.add e21 e22
              let e24 : BF 128 ← ld bf_x_tilde (((i + 2) % U32) % 8)
              let e25 ← F.f128.add e23 e24
              st bf_out ((i + ((8 * j) % U32)) % U32) e25
              let i : Nat := (i + 1) % U32
              pure i)
            i
        let e26 : BF 128 ← ld bf_out ((0 + ((8 * j) % U32)) % U32)
        let e27 ← F.f128.mul_bit bf_mkey_times_delta minus_mtag
        let e28 ← F.f128.add e26 e27
        st bf_out ((0 + ((8 * j) % U32)) % U32) e28
        let e29 : BF 128 ← ld bf_out ((2 + ((8 * j) % U32)) % U32)
        let e30 ← F.f128.mul_bit bf_mkey_times_delta minus_mtag
        let e31 ← F.f128.add e29 e30
        st bf_out ((2 + ((8 * j) % U32)) % U32) e31
        let c : Nat := (c + 1) % U32
        let e32 : Nat × Nat ← (
          if c = 4 then (do
            let c : Nat := 0
            let iwd : Nat := (iwd + 128) % U32
            pure (iwd, c))
          else (do
            pure (iwd, c)))
        let iwd : Nat := e32.1
        let c : Nat := e32.2
        cfree .stack bf_x_tilde
        let j : Nat := (j + 1) % U32
        pure (iwd, c, ircon, j))
      (iwd, c, ircon, j)
  let iwd : Nat := e7.1
  let c : Nat := e7.2.1
  let ircon : Nat := e7.2.2.1
  pure ()

/-- faest_aes.c:284-332 `aes_key_schedule_constraints_Mkey_0_128`. -/
def aes_key_schedule_constraints_Mkey_0_128 (F : FImpl) (w : CPtr) (v : CPtr) (a0_ctx : ZkC 128)
    (a1_ctx : ZkC 128) (k : CPtr) (vk : CPtr) (params : Params) : CM (ZkC 128 × ZkC 128) := do
  cassert (decide (40 = params.Ske))
  aes_key_schedule_forward_1 w k params
  aes_key_schedule_forward_128 F v vk
  let w_dash ← alloc .stack (malloc 40 : Mem Byte)
  aes_key_schedule_backward_1 F (padd w 16) k w_dash params
  let v_w_dash ← alloc .stack (malloc 320 : Mem (BF 128))
  aes_key_schedule_backward_128 F (padd v 128) vk (1 : Byte) (0 : Byte) (none : CPtr) v_w_dash
  let iwd : Nat := 96
  let j : Nat := 0
  let e1 : ZkC 128 × ZkC 128 × Nat × Nat ← cwhile
      (fun _s1 =>
        let j : Nat := _s1.2.2.2
        decide (j < 10))
      (fun _s1 => do
        let a0_ctx : ZkC 128 := _s1.1
        let a1_ctx : ZkC 128 := _s1.2.1
        let iwd : Nat := _s1.2.2.1
        let j : Nat := _s1.2.2.2
        let bf_k_hat ← alloc .stack (malloc 4 : Mem (BF 128))
        let bf_v_k_hat ← alloc .stack (malloc 4 : Mem (BF 128))
        let bf_w_dash_hat ← alloc .stack (malloc 4 : Mem (BF 128))
        let bf_v_w_dash_hat ← alloc .stack (malloc 4 : Mem (BF 128))
        let r : Nat := 0
        let e2 : Nat ← cwhile
            (fun _s2 =>
              let r : Nat := _s2
              decide (r ≤ 3))
            (fun _s2 => do
              let r : Nat := _s2
              let e3 : Byte ← ld k (((iwd + ((8 * r) % U32)) % U32) / 8)
              let e4 ← F.f128.byte_combine_bits e3
              st bf_k_hat (((r + 3) % U32) % 4) e4
              let e5 ← F.f128.byte_combine (padd vk ((iwd + ((8 * r) % U32)) % U32))
              st bf_v_k_hat (((r + 3) % U32) % 4) e5
              let e6 : Byte ← ld w_dash (((((32 * j) % U32) + ((8 * r) % U32)) % U32) / 8)
              let e7 ← F.f128.byte_combine_bits e6
              st bf_w_dash_hat r e7
              let e8 ← F.f128.byte_combine (padd v_w_dash ((((32 * j) % U32) + ((8 * r) % U32)) % U32))
              st bf_v_w_dash_hat r e8
              let r : Nat := (r + 1) % U32
              pure r)
            r
        let r : Nat := 0
        let e9 : ZkC 128 × ZkC 128 × Nat ← cwhile
            (fun _s2 =>
              let r : Nat := _s2.2.2
              decide (r ≤ 3))
            (fun _s2 => do
              let a0_ctx : ZkC 128 := _s2.1
              let a1_ctx : ZkC 128 := _s2.2.1
              let r : Nat := _s2.2.2
              let e10 : BF 128 ← ld bf_v_k_hat r
              let e11 : BF 128 ← ld bf_v_w_dash_hat r
              let e12 ← F.f128.mul e10 e11
              let tmp : BF 128 := e12
              let e13 ← zk_hash_128_update F a0_ctx tmp
              let a0_ctx := e13
              let e14 : BF 128 ← ld bf_k_hat r
              let e15 : BF 128 ← ld bf_v_k_hat r
              let e16 ← F.f128.add e14 e15
              let e17 : BF 128 ← ld bf_w_dash_hat r
              let e18 : BF 128 ← ld bf_v_w_dash_hat r
              let e19 ← F.f128.add e17 e18
              let e20 ← F.f128.mul e16 e19
              let e21 ← F.f128.one
              let e22 ← F.f128.add e20 e21
              let e23 ← F.f128.add e22 tmp
              let e24 ← zk_hash_128_update F a1_ctx e23
              let a1_ctx := e24
              let r : Nat := (r + 1) % U32
              pure (a0_ctx, a1_ctx, r))
            (a0_ctx, a1_ctx, r)
        let a0_ctx : ZkC 128 := e9.1
        let a1_ctx : ZkC 128 := e9.2.1
        let iwd : Nat := (iwd + 128) % U32
        cfree .stack bf_v_w_dash_hat
        cfree .stack bf_w_dash_hat
        cfree .stack bf_v_k_hat
        cfree .stack bf_k_hat
        let j : Nat := (j + 1) % U32
        pure (a0_ctx, a1_ctx, iwd, j))
      (a0_ctx, a1_ctx, iwd, j)
  let a0_ctx : ZkC 128 := e1.1
  let a1_ctx : ZkC 128 := e1.2.1
  let iwd : Nat := e1.2.2.1
  cfree .stack v_w_dash
  cfree .stack w_dash
  pure (a0_ctx, a1_ctx)

/-- faest_aes.c:334-362 `aes_key_schedule_constraints_Mkey_1_128`. -/
def aes_key_schedule_constraints_Mkey_1_128 (F : FImpl) (q : CPtr) (delta : CPtr) (b0_ctx : ZkC 128) (qk : CPtr) : CM (ZkC 128) := do
  aes_key_schedule_forward_128 F q qk
  let q_w_dash ← alloc .stack (malloc 320 : Mem (BF 128))
  aes_key_schedule_backward_128 F (padd q 128) qk (0 : Byte) (1 : Byte) delta q_w_dash
  let e1 ← F.f128.load delta
  let bf_delta : BF 128 := e1
  let e2 ← F.f128.mul bf_delta bf_delta
  let delta_squared : BF 128 := e2
  let iwd : Nat := 96
  let j : Nat := 0
  let e3 : ZkC 128 × Nat × Nat ← cwhile
      (fun _s1 =>
        let j : Nat := _s1.2.2
        decide (j < 10))
      (fun _s1 => do
        let b0_ctx : ZkC 128 := _s1.1
        let iwd : Nat := _s1.2.1
        let j : Nat := _s1.2.2
        let bf_q_hat_k ← alloc .stack (malloc 4 : Mem (BF 128))
        let bf_q_hat_w_dash ← alloc .stack (malloc 4 : Mem (BF 128))
        let r : Nat := 0
        let e4 : Nat ← cwhile
            (fun _s2 =>
              let r : Nat := _s2
              decide (r ≤ 3))
            (fun _s2 => do
              let r : Nat := _s2
              let e5 ← F.f128.byte_combine (padd qk ((iwd + ((8 * r) % U32)) % U32))
              st bf_q_hat_k (((r + 3) % U32) % 4) e5
              let e6 ← F.f128.byte_combine (padd q_w_dash ((((32 * j) % U32) + ((8 * r) % U32)) % U32))
              st bf_q_hat_w_dash r e6
              let r : Nat := (r + 1) % U32
              pure r)
            r
        let r : Nat := 0
        let e7 : ZkC 128 × Nat ← cwhile
            (fun _s2 =>
              let r : Nat := _s2.2
              decide (r ≤ 3))
            (fun _s2 => do
              let b0_ctx : ZkC 128 := _s2.1
              let r : Nat := _s2.2
              let e8 : BF 128 ← ld bf_q_hat_k r
              let e9 : BF 128 ← ld bf_q_hat_w_dash r
              let e10 ← F.f128.mul e8 e9
              let bf_tmp : BF 128 := e10
              let e11 ← F.f128.add bf_tmp delta_squared
              let e12 ← zk_hash_128_update F b0_ctx e11
              let b0_ctx := e12
              let r : Nat := (r + 1) % U32
              pure (b0_ctx, r))
            (b0_ctx, r)
        let b0_ctx : ZkC 128 := e7.1
        let iwd : Nat := (iwd + 128) % U32
        cfree .stack bf_q_hat_w_dash
        cfree .stack bf_q_hat_k
        let j : Nat := (j + 1) % U32
        pure (b0_ctx, iwd, j))
      (b0_ctx, iwd, j)
  let b0_ctx : ZkC 128 := e3.1
  let iwd : Nat := e3.2.1
  cfree .stack q_w_dash
  pure b0_ctx

/-- faest_aes.c:364-419 `aes_enc_forward_128_1`. -/
def aes_enc_forward_128_1 (F : FImpl) (x : CPtr) (xk : CPtr) (in_ : CPtr) (bf_y : CPtr) : CM Unit := do
  let i : Nat := 0
  let e1 : Nat ← cwhile
      (fun _s1 =>
        let i : Nat := _s1
        decide (i < 16))
      (fun _s1 => do
        let i : Nat := _s1
        let e2 : Byte ← ld in_ i
        let xin : Byte := e2
        let e3 ← F.f128.byte_combine_bits xin
        let e4 : Byte ← ld xk i
        let e5 ← F.f128.byte_combine_bits e4
        let e6 ← F.f128.add e3 e5
        st bf_y i e6
        let i : Nat := (i + 1) % U32
        pure i)
      i
  let e7 ← F.f128.byte_combine_bits (2 : Byte)
  let bf_two : BF 128 := e7
  let e8 ← F.f128.byte_combine_bits (3 : Byte)
  let bf_three : BF 128 := e8
  let j : Nat := 1
  let e9 : Nat ← cwhile
      (fun _s1 =>
        let j : Nat := _s1
        decide (j < 10))
      (fun _s1 => do
        let j : Nat := _s1
        let c : Nat := 0
        let e10 : Nat ← cwhile
            (fun _s2 =>
              let c : Nat := _s2
              decide (c ≤ 3))
            (fun _s2 => do
              let c : Nat := _s2
              let ix : Nat := (((128 * ((j + U32 - 1) % U32)) % U32) + ((32 * c) % U32)) % U32
              let ik : Nat := (((128 * j) % U32) + ((32 * c) % U32)) % U32
              let iy : Nat := (((16 * j) % U32) + ((4 * c) % U32)) % U32
              let bf_x_hat ← alloc .stack (malloc 4 : Mem (BF 128))
              let bf_xk_hat ← alloc .stack (malloc 4 : Mem (BF 128))
              let r : Nat := 0
              let e11 : Nat ← cwhile
                  (fun _s3 =>
                    let r : Nat := _s3
                    decide (r ≤ 3))
                  (fun _s3 => do
                    let r : Nat := _s3
                    let e12 : Byte ← ld x (((ix + ((8 * r) % U32)) % U32) / 8)
                    let e13 ← F.f128.byte_combine_bits e12
                    st bf_x_hat r e13
                    let e14 : Byte ← ld xk (((ik + ((8 * r) % U32)) % U32) / 8)
                    let e15 ← F.f128.byte_combine_bits e14
                    st bf_xk_hat r e15
                    let r : Nat := (r + 1) % U32
                    pure r)
                  r
              let e16 : BF 128 ← ld bf_xk_hat 0
              let e17 : BF 128 ← ld bf_x_hat 0
              let e18 ← F.f128.mul e17 bf_two
              let e19 ← F.f128.add e16 e18
              st bf_y ((iy + 0) % U32) e19
              let e20 : BF 128 ← ld bf_y ((iy + 0) % U32)
              let e21 : BF 128 ← ld bf_x_hat 1
              let e22 ← F.f128.mul e21 bf_three
              let e23 ← F.f128.add e20 e22
              st bf_y ((iy + 0) % U32) e23
              let e24 : BF 128 ← ld bf_y ((iy + 0) % U32)
              let e25 : BF 128 ← ld bf_x_hat 2
              let e26 ← F.f128.add e24 e25
              st bf_y ((iy + 0) % U32) e26
              let e27 : BF 128 ← ld bf_y ((iy + 0) % U32)
              let e28 : BF 128 ← ld bf_x_hat 3
              let e29 ← F.f128.add e27 e28
              st bf_y ((iy + 0) % U32) e29
              let e30 : BF 128 ← ld bf_xk_hat 1
              let e31 : BF 128 ← ld bf_x_hat 0
              let e32 ← F.f128.add e30 e31
              st bf_y ((iy + 1) % U32) e32
              let e33 : BF 128 ← ld bf_y ((iy + 1) % U32)
              let e34 : BF 128 ← ld bf_x_hat 1
              let e35 ← F.f128.mul e34 bf_two
              let e36 ← F.f128.add e33 e35
              st bf_y ((iy + 1) % U32) e36
              let e37 : BF 128 ← ld bf_y ((iy + 1) % U32)
              let e38 : BF 128 ← ld bf_x_hat 2
              let e39 ← F.f128.mul e38 bf_three
              let e40 ← F.f128.add e37 e39
              st bf_y ((iy + 1) % U32) e40
              let e41 : BF 128 ← ld bf_y ((iy + 1) % U32)
              let e42 : BF 128 ← ld bf_x_hat 3
              let e43 ← F.f128.add e41 e42
              st bf_y ((iy + 1) % U32) e43
              let e44 : BF 128 ← ld bf_xk_hat 2
              let e45 : BF 128 ← ld bf_x_hat 0
              let e46 ← F.f128.add e44 e45
              st bf_y ((iy + 2) % U32) e46
              let e47 : BF 128 ← ld bf_y ((iy + 2) % U32)
              let e48 : BF 128 ← ld bf_x_hat 1
              let e49 ← F.f128.add e47 e48
              st bf_y ((iy + 2) % U32) e49
              let e50 : BF 128 ← ld bf_y ((iy + 2) % U32)
              let e51 : BF 128 ← ld bf_x_hat 2
              let e52 ← F.f128.mul e51 bf_two
              let e53 ← F.f128.add e50 e52
              st bf_y ((iy + 2) % U32) e53
              let e54 : BF 128 ← ld bf_y ((iy + 2) % U32)
              let e55 : BF 128 ← ld bf_x_hat 3
              let e56 ← F.f128.mul e55 bf_three
              let e57 ← F.f128.add e54 e56
              st bf_y ((iy + 2) % U32) e57
              let e58 : BF 128 ← ld bf_xk_hat 3
              let e59 : BF 128 ← ld bf_x_hat 0
              let e60 ← F.f128.mul e59 bf_three
              let e61 ← F.f128.add e58 e60
              st bf_y ((iy + 3) % U32) e61
              let e62 : BF 128 ← ld bf_y ((iy + 3) % U32)
              let e63 : BF 128 ← ld bf_x_hat 1
              let e64 ← F.f128.add e62 e63
              st bf_y ((iy + 3) % U32) e64
              let e65 : BF 128 ← ld bf_y ((iy + 3) % U32)
              let e66 : BF 128 ← ld bf_x_hat 2
              let e67 ← F.f128.add e65 e66
              st bf_y ((iy + 3) % U32) e67
              let e68 : BF 128 ← ld bf_y ((iy + 3) % U32)
              let e69 : BF 128 ← ld bf_x_hat 3
              let e70 ← F.f128.mul e69 bf_two
              let e71 ← F.f128.add e68 e70
              st bf_y ((iy + 3) % U32) e71
              cfree .stack bf_xk_hat
              cfree .stack bf_x_hat
              let c : Nat := (c + 1) % U32
              pure c)
            c
        let j : Nat := (j + 1) % U32
        pure j)
      j
  pure ()

/-- faest_aes.c:421-478 `aes_enc_forward_128`. -/
def aes_enc_forward_128 (F : FImpl) (bf_x : CPtr) (bf_xk : CPtr) (in_ : CPtr) (Mtag : Byte) (Mkey : Byte)
    (delta : CPtr) (bf_y : CPtr) : CM Unit := do
  let e3 ← (if delta.isSome = true then (do
      let e1 ← F.f128.load delta
      pure e1)
    else (do
      let e2 ← F.f128.zero
      pure e2))
  let bf_delta : BF 128 := e3
  let e4 ← F.f128.mul_bit bf_delta Mkey
  let e5 ← F.f128.from_bit (BitVec.ofNat 8 (1 ^^^ Mkey.toNat))
  let e6 ← F.f128.add e4 e5
  let bf_factor : BF 128 := e6
  let i : Nat := 0
  let e7 : Nat ← cwhile
      (fun _s1 =>
        let i : Nat := _s1
        decide (i < 16))
      (fun _s1 => do
        let i : Nat := _s1
        let bf_xin ← alloc .stack (malloc 8 : Mem (BF 128))
        let j : Nat := 0
        let e8 : Nat ← cwhile
            (fun _s2 =>
              let j : Nat := _s2
              decide (j < 8))
            (fun _s2 => do
              let j : Nat := _s2
              let e9 : Byte ← ld in_ i
              let e10 ← cshr 32 e9.toNat j
              let e11 ← F.f128.mul_bit bf_factor (BitVec.ofNat 8 ((1 ^^^ Mtag.toNat) &&& (e10 &&& 1)))
              st bf_xin j e11
              let j : Nat := (j + 1) % U32
              pure j)
            j
        let e12 ← F.f128.byte_combine bf_xin
        let e13 ← F.f128.byte_combine (padd bf_xk ((8 * i) % U32))
        let e14 ← F.f128.add e12 e13
        st bf_y i e14
        cfree .stack bf_xin
        let i : Nat := (i + 1) % U32
        pure i)
      i
  let e15 ← F.f128.byte_combine_bits (2 : Byte)
  let bf_two : BF 128 := e15
  let e16 ← F.f128.byte_combine_bits (3 : Byte)
  let bf_three : BF 128 := e16
  let j : Nat := 1
  let e17 : Nat ← cwhile
      (fun _s1 =>
        let j : Nat := _s1
        decide (j < 10))
      (fun _s1 => do
        let j : Nat := _s1
        let c : Nat := 0
        let e18 : Nat ← cwhile
            (fun _s2 =>
              let c : Nat := _s2
              decide (c ≤ 3))
            (fun _s2 => do
              let c : Nat := _s2
              let ix : Nat := (((128 * ((j + U32 - 1) % U32)) % U32) + ((32 * c) % U32)) % U32
              let ik : Nat := (((128 * j) % U32) + ((32 * c) % U32)) % U32
              let iy : Nat := (((16 * j) % U32) + ((4 * c) % U32)) % U32
              let bf_x_hat ← alloc .stack (malloc 4 : Mem (BF 128))
              let bf_xk_hat ← alloc .stack (malloc 4 : Mem (BF 128))
              let r : Nat := 0
              let e19 : Nat ← cwhile
                  (fun _s3 =>
                    let r : Nat := _s3
                    decide (r ≤ 3))
                  (fun _s3 => do
                    let r : Nat := _s3
                    let e20 ← F.f128.byte_combine (padd bf_x ((ix + ((8 * r) % U32)) % U32))
                    st bf_x_hat r e20
                    let e21 ← F.f128.byte_combine (padd bf_xk ((ik + ((8 * r) % U32)) % U32))
                    st bf_xk_hat r e21
                    let r : Nat := (r + 1) % U32
                    pure r)
                  r
              let e22 : BF 128 ← ld bf_xk_hat 0
              let e23 : BF 128 ← ld bf_x_hat 0
              let e24 ← F.f128.mul e23 bf_two
              let e25 ← F.f128.add e22 e24
              st bf_y ((iy + 0) % U32) e25
              let e26 : BF 128 ← ld bf_y ((iy + 0) % U32)
              let e27 : BF 128 ← ld bf_x_hat 1
              let e28 ← F.f128.mul e27 bf_three
              let e29 ← F.f128.add e26 e28
              st bf_y ((iy + 0) % U32) e29
              let e30 : BF 128 ← ld bf_y ((iy + 0) % U32)
              let e31 : BF 128 ← ld bf_x_hat 2
              let e32 ← F.f128.add e30 e31
              st bf_y ((iy + 0) % U32) e32
              let e33 : BF 128 ← ld bf_y ((iy + 0) % U32)
              let e34 : BF 128 ← ld bf_x_hat 3
              let e35 ← F.f128.add e33 e34
              st bf_y ((iy + 0) % U32) e35
              let e36 : BF 128 ← ld bf_xk_hat 1
              let e37 : BF 128 ← ld bf_x_hat 0
              let e38 ← F.f128.add e36 e37
              st bf_y ((iy + 1) % U32) e38
              let e39 : BF 128 ← ld bf_y ((iy + 1) % U32)
              let e40 : BF 128 ← ld bf_x_hat 1
              let e41 ← F.f128.mul e40 bf_two
              let e42 ← F.f128.add e39 e41
              st bf_y ((iy + 1) % U32) e42
              let e43 : BF 128 ← ld bf_y ((iy + 1) % U32)
              let e44 : BF 128 ← ld bf_x_hat 2
              let e45 ← F.f128.mul e44 bf_three
              let e46 ← F.f128.add e43 e45
              st bf_y ((iy + 1) % U32) e46
              let e47 : BF 128 ← ld bf_y ((iy + 1) % U32)
              let e48 : BF 128 ← ld bf_x_hat 3
              let e49 ← F.f128.add e47 e48
              st bf_y ((iy + 1) % U32) e49
              let e50 : BF 128 ← ld bf_xk_hat 2
              let e51 : BF 128 ← ld bf_x_hat 0
              let e52 ← F.f128.add e50 e51
              st bf_y ((iy + 2) % U32) e52
              let e53 : BF 128 ← ld bf_y ((iy + 2) % U32)
              let e54 : BF 128 ← ld bf_x_hat 1
              let e55 ← F.f128.add e53 e54
              st bf_y ((iy + 2) % U32) e55
              let e56 : BF 128 ← ld bf_y ((iy + 2) % U32)
              let e57 : BF 128 ← ld bf_x_hat 2
              let e58 ← F.f128.mul e57 bf_two
              let e59 ← F.f128.add e56 e58
              st bf_y ((iy + 2) % U32) e59
              let e60 : BF 128 ← ld bf_y ((iy + 2) % U32)
              let e61 : BF 128 ← ld bf_x_hat 3
              let e62 ← F.f128.mul e61 bf_three
              let e63 ← F.f128.add e60 e62
              st bf_y ((iy + 2) % U32) e63
              let e64 : BF 128 ← ld bf_xk_hat 3
              let e65 : BF 128 ← ld bf_x_hat 0
              let e66 ← F.f128.mul e65 bf_three
              let e67 ← F.f128.add e64 e66
              st bf_y ((iy + 3) % U32) e67
              let e68 : BF 128 ← ld bf_y ((iy + 3) % U32)
              let e69 : BF 128 ← ld bf_x_hat 1
              let e70 ← F.f128.add e68 e69
              st bf_y ((iy + 3) % U32) e70
              let e71 : BF 128 ← ld bf_y ((iy + 3) % U32)
              let e72 : BF 128 ← ld bf_x_hat 2
              let e73 ← F.f128.add e71 e72
              st bf_y ((iy + 3) % U32) e73
              let e74 : BF 128 ← ld bf_y ((iy + 3) % U32)
              let e75 : BF 128 ← ld bf_x_hat 3
              let e76 ← F.f128.mul e75 bf_two
              let e77 ← F.f128.add e74 e76
              st bf_y ((iy + 3) % U32) e77
              cfree .stack bf_xk_hat
              cfree .stack bf_x_hat
              let c : Nat := (c + 1) % U32
              pure c)
            c
        let j : Nat := (j + 1) % U32
        pure j)
      j
  pure ()

/-- faest_aes.c:480-510 `aes_enc_backward_128_1`. -/
def aes_enc_backward_128_1 (F : FImpl) (x : CPtr) (xk : CPtr) (out : CPtr) (y_out : CPtr) : CM Unit := do
  let j : Nat := 0
  let e1 : Nat ← cwhile
      (fun _s1 =>
        let j : Nat := _s1
        decide (j < 10))
      (fun _s1 => do
        let j : Nat := _s1
        let c : Nat := 0
        let e2 : Nat ← cwhile
            (fun _s2 =>
              let c : Nat := _s2
              decide (c ≤ 3))
            (fun _s2 => do
              let c : Nat := _s2
              let r : Nat := 0
              let e3 : Nat ← cwhile
                  (fun _s3 =>
                    let r : Nat := _s3
                    decide (r ≤ 3))
                  (fun _s3 => do
                    let r : Nat := _s3
                    let ird : Nat := (((((128 * j) % U32) + ((32 * (((((c + U32 - r) % U32) + 4) % U32) % 4)) % U32)) % U32) + ((8 * r) % U32)) % U32
                    let e4 : Byte ← (
                      if j < 9 then (do
                        let e5 : Byte ← ld x (ird / 8)
                        let xtilde : Byte := e5
                        pure xtilde)
                      else (do
                        let e6 : Byte ← ld out (((ird + U32 - 1152) % U32) / 8)
                        let xout : Byte := e6
                        let e7 : Byte ← ld xk (((128 + ird) % U32) / 8)
                        let xtilde : Byte := BitVec.ofNat 8 (xout.toNat ^^^ e7.toNat)
                        pure xtilde))
                    let xtilde : Byte := e4
                    let e8 ← F.rotr8 xtilde 7
                    let e9 ← F.rotr8 xtilde 5
                    let e10 ← F.rotr8 xtilde 2
                    let ytilde : Byte := BitVec.ofNat 8 (((e8.toNat ^^^ e9.toNat) ^^^ e10.toNat) ^^^ 5)
                    let e11 ← F.f128.byte_combine_bits ytilde
                    st y_out ((((((16 * j) % U32) + ((4 * c) % U32)) % U32) + r) % U32) e11
                    let r : Nat := (r + 1) % U32
                    pure r)
                  r
              let c : Nat := (c + 1) % U32
              pure c)
            c
        let j : Nat := (j + 1) % U32
        pure j)
      j
  pure ()

/-- faest_aes.c:512-555 `aes_enc_backward_128`. -/
def aes_enc_backward_128 (F : FImpl) (bf_x : CPtr) (bf_xk : CPtr) (Mtag : Byte) (Mkey : Byte) (delta : CPtr)
    (out : CPtr) (y_out : CPtr) : CM Unit := do
  let e3 ← (if delta.isSome = true then (do
      let e1 ← F.f128.load delta
      pure e1)
    else (do
      let e2 ← F.f128.zero
      pure e2))
  let bf_delta : BF 128 := e3
  let e4 ← F.f128.mul_bit bf_delta Mkey
  let e5 ← F.f128.from_bit (BitVec.ofNat 8 (1 ^^^ Mkey.toNat))
  let e6 ← F.f128.add e4 e5
  let e7 ← F.f128.mul_bit e6 (BitVec.ofNat 8 (1 ^^^ Mtag.toNat))
  let factor : BF 128 := e7
  let j : Nat := 0
  let e8 : Nat ← cwhile
      (fun _s1 =>
        let j : Nat := _s1
        decide (j < 10))
      (fun _s1 => do
        let j : Nat := _s1
        let c : Nat := 0
        let e9 : Nat ← cwhile
            (fun _s2 =>
              let c : Nat := _s2
              decide (c ≤ 3))
            (fun _s2 => do
              let c : Nat := _s2
              let r : Nat := 0
              let e10 : Nat ← cwhile
                  (fun _s3 =>
                    let r : Nat := _s3
                    decide (r ≤ 3))
                  (fun _s3 => do
                    let r : Nat := _s3
                    let bf_x_tilde ← alloc .stack (malloc 8 : Mem (BF 128))
                    let ird : Nat := (((((128 * j) % U32) + ((32 * (((((c + U32 - r) % U32) + 4) % U32) % 4)) % U32)) % U32) + ((8 * r) % U32)) % U32
                    let e11 : Unit ← (
                      if j < 9 then (do
                        memcpy (α := BF 128) bf_x_tilde (padd bf_x ird) 8
                        pure ())
                      else (do
                        let i : Nat := 0
                        let e12 : Nat ← cwhile
                            (fun _s4 =>
                              let i : Nat := _s4
                              decide (i < 8))
                            (fun _s4 => do
                              let i : Nat := _s4
                              let e13 : Byte ← ld out (((ird + U32 - 1152) % U32) / 8)
                              let e14 ← cshr 32 e13.toNat i
                              let e15 ← F.f128.mul_bit factor (BitVec.ofNat 8 (e14 &&& 1))
                              let bf_xout : BF 128 := e15
                              let e16 : BF 128 ← ld bf_xk ((((128 + ird) % U32) + i) % U32)
                              let e17 ← F.f128.add bf_xout e16
                              st bf_x_tilde i e17
                              let i : Nat := (i + 1) % U32
                              pure i)
                            i
                        pure ()))
                    let bf_y_tilde ← alloc .stack (malloc 8 : Mem (BF 128))
                    let i : Nat := 0
                    let e18 : Nat ← cwhile
                        (fun _s4 =>
                          let i : Nat := _s4
                          decide (i < 8))
                        (fun _s4 => do
                          let i : Nat := _s4
                          let e19 : BF 128 ← ld bf_x_tilde (((i + 7) % U32) % 8)
                          let e20 : BF 128 ← ld bf_x_tilde (((i + 5) % U32) % 8)
                          let e21 ← F.f128.add e19 e20
                          let e22 : BF 128 ← ld bf_x_tilde (((i + 2) % U32) % 8)
                          let e23 ← F.f128.add e21 e22
                          st bf_y_tilde i e23
                          let i : Nat := (i + 1) % U32
                          pure i)
                        i
                    let e24 : BF 128 ← ld bf_y_tilde 0
                    let e25 ← F.f128.add e24 factor
                    st bf_y_tilde 0 e25
                    let e26 : BF 128 ← ld bf_y_tilde 2
                    let e27 ← F.f128.add e26 factor
                    st bf_y_tilde 2 e27
                    let e28 ← F.f128.byte_combine bf_y_tilde
                    st y_out ((((((16 * j) % U32) + ((4 * c) % U32)) % U32) + r) % U32) e28
                    cfree .stack bf_y_tilde
                    cfree .stack bf_x_tilde
                    let r : Nat := (r + 1) % U32
                    pure r)
                  r
              let c : Nat := (c + 1) % U32
              pure c)
            c
        let j : Nat := (j + 1) % U32
        pure j)
      j
  pure ()

/-- faest_aes.c:557-578 `aes_enc_constraints_Mkey_0_128`. -/
def aes_enc_constraints_Mkey_0_128 (F : FImpl) (in_ : CPtr) (out : CPtr) (w : CPtr) (v : CPtr) (k : CPtr)
    (vk : CPtr) (a0_ctx : ZkC 128) (a1_ctx : ZkC 128) : CM (ZkC 128 × ZkC 128) := do
  let s ← alloc .stack (malloc 160 : Mem (BF 128))
  let vs ← alloc .stack (malloc 160 : Mem (BF 128))
  let s_dash ← alloc .stack (malloc 160 : Mem (BF 128))
  let vs_dash ← alloc .stack (malloc 160 : Mem (BF 128))
  aes_enc_forward_128_1 F w k in_ s
  aes_enc_forward_128 F v vk in_ (1 : Byte) (0 : Byte) (none : CPtr) vs
  aes_enc_backward_128_1 F w k out s_dash
  aes_enc_backward_128 F v vk (1 : Byte) (0 : Byte) (none : CPtr) out vs_dash
  let j : Nat := 0
  let e1 : ZkC 128 × ZkC 128 × Nat ← cwhile
      (fun _s1 =>
        let j : Nat := _s1.2.2
        decide (j < 160))
      (fun _s1 => do
        let a0_ctx : ZkC 128 := _s1.1
        let a1_ctx : ZkC 128 := _s1.2.1
        let j : Nat := _s1.2.2
        let e2 : BF 128 ← ld vs j
        let e3 : BF 128 ← ld vs_dash j
        let e4 ← F.f128.mul e2 e3
        let tmp : BF 128 := e4
        let e5 ← zk_hash_128_update F a0_ctx tmp
        let a0_ctx := e5
        let e6 : BF 128 ← ld s j
        let e7 : BF 128 ← ld vs j
        let e8 ← F.f128.add e6 e7
        let e9 : BF 128 ← ld s_dash j
        let e10 : BF 128 ← ld vs_dash j
        let e11 ← F.f128.add e9 e10
        let e12 ← F.f128.mul e8 e11
        let e13 ← F.f128.add e12 tmp
        let e14 ← F.f128.one
        let e15 ← F.f128.add e13 e14
        let e16 ← zk_hash_128_update F a1_ctx e15
        let a1_ctx := e16
        let j : Nat := (j + 1) % U32
        pure (a0_ctx, a1_ctx, j))
      (a0_ctx, a1_ctx, j)
  let a0_ctx : ZkC 128 := e1.1
  let a1_ctx : ZkC 128 := e1.2.1
  cfree .stack vs_dash
  cfree .stack s_dash
  cfree .stack vs
  cfree .stack s
  pure (a0_ctx, a1_ctx)

/-- faest_aes.c:580-596 `aes_enc_constraints_Mkey_1_128`. -/
def aes_enc_constraints_Mkey_1_128 (F : FImpl) (in_ : CPtr) (out : CPtr) (q : CPtr) (qk : CPtr) (delta : CPtr)
    (b0_ctx : ZkC 128) : CM (ZkC 128) := do
  let qs ← alloc .stack (malloc 160 : Mem (BF 128))
  let qs_dash ← alloc .stack (malloc 160 : Mem (BF 128))
  aes_enc_forward_128 F q qk in_ (0 : Byte) (1 : Byte) delta qs
  aes_enc_backward_128 F q qk (0 : Byte) (1 : Byte) delta out qs_dash
  let e1 ← F.f128.load delta
  let e2 ← F.f128.load delta
  let e3 ← F.f128.mul e1 e2
  let minus_part : BF 128 := e3
  let j : Nat := 0
  let e4 : ZkC 128 × Nat ← cwhile
      (fun _s1 =>
        let j : Nat := _s1.2
        decide (j < 160))
      (fun _s1 => do
        let b0_ctx : ZkC 128 := _s1.1
        let j : Nat := _s1.2
        let e5 : BF 128 ← ld qs j
        let e6 : BF 128 ← ld qs_dash j
        let e7 ← F.f128.mul e5 e6
        let e8 ← F.f128.add e7 minus_part
        let e9 ← zk_hash_128_update F b0_ctx e8
        let b0_ctx := e9
        let j : Nat := (j + 1) % U32
        pure (b0_ctx, j))
      (b0_ctx, j)
  let b0_ctx : ZkC 128 := e4.1
  cfree .stack qs_dash
  cfree .stack qs
  pure b0_ctx

/-- faest_aes.c:598-632 `aes_prove_128`. -/
def aes_prove_128 (F : FImpl) (w : CPtr) (u : CPtr) (V : CPtr) (in_ : CPtr) (out : CPtr) (chall : CPtr)
    (a_tilde : CPtr) (b_tilde : CPtr) (params : Params) : CM Unit := do
  let e1 ← column_to_row_major_and_shrink_V_128 F V 1600
  let bf_v : CPtr := e1
  let e2 ← alloc .heap (malloc 176 : Mem Byte)
  let k : CPtr := e2
  let e3 ← alloc .aligned (malloc 1408 : Mem (BF 128))
  let vk : CPtr := e3
  let a0_ctx : ZkC 128 := {}
  let a1_ctx : ZkC 128 := {}
  let e4 ← zk_hash_128_init F a0_ctx chall
  let a0_ctx := e4
  let e5 ← zk_hash_128_init F a1_ctx chall
  let a1_ctx := e5
  let e6 ← aes_key_schedule_constraints_Mkey_0_128 F w bf_v a0_ctx a1_ctx k vk params
  let a0_ctx := e6.1
  let a1_ctx := e6.2
  let e7 ← aes_enc_constraints_Mkey_0_128 F in_ out (padd w 56) (padd bf_v 448) k vk a0_ctx a1_ctx
  let a0_ctx := e7.1
  let a1_ctx := e7.2
  cfree .aligned vk
  cfree .heap k
  let e8 ← F.f128.load (padd u 200)
  let e9 ← zk_hash_128_finalize F a_tilde a1_ctx e8
  let a1_ctx := e9
  let e10 ← F.f128.sum_poly (padd bf_v 1600)
  let e11 ← zk_hash_128_finalize F b_tilde a0_ctx e10
  let a0_ctx := e11
  cfree .aligned bf_v
  pure ()

/-- faest_aes.c:634-684 `aes_verify_128`. -/
def aes_verify_128 (F : FImpl) (d : CPtr) (Q : CPtr) (chall_2 : CPtr) (chall_3 : CPtr) (a_tilde : CPtr)
    (in_ : CPtr) (out : CPtr) (params : Params) : CM CPtr := do
  let tau : Nat := params.tau
  let t0 : Nat := params.t0
  let k0 : Nat := params.k0
  let t1 : Nat := params.t1
  let k1 : Nat := params.k1
  let delta : CPtr := chall_3
  let i : Nat := 0
  let col : Nat := 0
  let e1 : Nat × Nat ← cwhile
      (fun _s1 =>
        let i : Nat := _s1.1
        decide (i < tau))
      (fun _s1 => do
        let i : Nat := _s1.1
        let col : Nat := _s1.2
        let depth : Nat := (if i < t0 then k0 else k1)
        let decoded_challenge ← alloc .stack (malloc 12 : Mem Byte)
        let e2 ← ChalDec chall_3 i k0 t0 k1 t1 decoded_challenge
        let j : Nat := 0
        let e3 : Nat × Nat ← cwhile
            (fun _s2 =>
              let j : Nat := _s2.2
              decide (j < depth))
            (fun _s2 => do
              let col : Nat := _s2.1
              let j : Nat := _s2.2
              let e4 : Byte ← ld decoded_challenge j
              let e5 : Unit ← (
                if e4.toNat = 1 then (do
                  let e6 : CPtr ← ld Q col
                  let e7 : CPtr ← ld Q col
                  xor_u8_array d e6 e7 200
                  pure ())
                else (do
                  pure ()))
              let j : Nat := (j + 1) % U32
              let col : Nat := (col + 1) % U32
              pure (col, j))
            (col, j)
        let col : Nat := e3.1
        cfree .stack decoded_challenge
        let i : Nat := (i + 1) % U32
        pure (i, col))
      (i, col)
  let e8 ← column_to_row_major_and_shrink_V_128 F Q 1600
  let bf_q : CPtr := e8
  let e9 ← alloc .aligned (malloc 1408 : Mem (BF 128))
  let qk : CPtr := e9
  let b0_ctx : ZkC 128 := {}
  let e10 ← zk_hash_128_init F b0_ctx chall_2
  let b0_ctx := e10
  let e11 ← aes_key_schedule_constraints_Mkey_1_128 F bf_q delta b0_ctx qk
  let b0_ctx := e11
  let e12 ← aes_enc_constraints_Mkey_1_128 F in_ out (padd bf_q 448) qk delta b0_ctx
  let b0_ctx := e12
  cfree .aligned qk
  let e13 ← alloc .heap (malloc 16 : Mem Byte)
  let q_tilde : CPtr := e13
  let e14 ← F.f128.sum_poly (padd bf_q 1600)
  let e15 ← zk_hash_128_finalize F q_tilde b0_ctx e14
  let b0_ctx := e15
  cfree .aligned bf_q
  let e16 ← F.f128.load q_tilde
  let bf_qtilde : BF 128 := e16
  let e17 ← F.f128.load a_tilde
  let e18 ← F.f128.load delta
  let e19 ← F.f128.mul e17 e18
  let e20 ← F.f128.add bf_qtilde e19
  F.f128.store q_tilde e20
  pure q_tilde

/-- faest_aes.c:688-707 `aes_key_schedule_forward_192`. -/
def aes_key_schedule_forward_192 (F : FImpl) (v : CPtr) (bf_out : CPtr) : CM Unit := do
  memcpy (α := BF 192) bf_out v 192
  let i_wd : Nat := 192
  let j : Nat := 6
  let e1 : Nat × Nat ← cwhile
      (fun _s1 =>
        let j : Nat := _s1.2
        decide (j < 52))
      (fun _s1 => do
        let i_wd : Nat := _s1.1
        let j : Nat := _s1.2
        let e2 : Nat ← (
          if ((j % 6) = 0) ∨ ((6 > 6) ∧ ((j % 6) = 4)) then (do
            memcpy (α := BF 192) (padd bf_out ((j * 32) % U32)) (padd v i_wd) 32
            let i_wd : Nat := (i_wd + 32) % U32
            pure i_wd)
          else (do
            let i : Nat := 0
            let e3 : Nat ← cwhile
                (fun _s2 =>
                  let i : Nat := _s2
                  decide (i < 32))
                (fun _s2 => do
                  let i : Nat := _s2
                  let e4 : BF 192 ← ld bf_out ((((32 * ((j + U32 - 6) % U32)) % U32) + i) % U32)
                  let e5 : BF 192 ← ld bf_out ((((32 * ((j + U32 - 1) % U32)) % U32) + i) % U32)
                  let e6 ← F.f192.add e4 e5
                  st bf_out ((((32 * j) % U32) + i) % U32) e6
                  let i : Nat := (i + 1) % U32
                  pure i)
                i
            pure i_wd))
        let i_wd : Nat := e2
        let j : Nat := (j + 1) % U32
        pure (i_wd, j))
      (i_wd, j)
  let i_wd : Nat := e1.1
  pure ()

/-- faest_aes.c:709-760 `aes_key_schedule_backward_192`. -/
def aes_key_schedule_backward_192 (F : FImpl) (v : CPtr) (Vk : CPtr) (Mtag : Byte) (Mkey : Byte) (delta : CPtr)
    (bf_out : CPtr) : CM Unit := do
  cassert (decide (¬ (((Mtag.toNat = 1) ∧ (Mkey.toNat = 1)) ∨ ((Mkey.toNat = 1) ∧ (¬ (delta.isSome = true))))))
  let e3 ← (if delta.isSome = true then (do
      let e1 ← F.f192.load delta
      pure e1)
    else (do
      let e2 ← F.f192.zero
      pure e2))
  let bf_delta : BF 192 := e3
  let iwd : Nat := 0
  let c : Nat := 0
  let ircon : Nat := 0
  let e4 ← F.f192.from_bit (BitVec.ofNat 8 (1 ^^^ Mkey.toNat))
  let bf_minus_mkey : BF 192 := e4
  let minus_mtag : Byte := BitVec.ofNat 8 (1 ^^^ Mtag.toNat)
  let e5 ← F.f192.mul_bit bf_delta Mkey
  let bf_mkey_times_delta : BF 192 := e5
  let e6 ← F.f192.add bf_mkey_times_delta bf_minus_mkey
  let bf_mkey_times_delta : BF 192 := e6
  let j : Nat := 0
  let e7 : Nat × Nat × Nat × Nat ← cwhile
      (fun _s1 =>
        let j : Nat := _s1.2.2.2
        decide (j < 32))
      (fun _s1 => do
        let iwd : Nat := _s1.1
        let c : Nat := _s1.2.1
        let ircon : Nat := _s1.2.2.1
        let j : Nat := _s1.2.2.2
        let bf_x_tilde ← alloc .stack (malloc 8 : Mem (BF 192))
        let i : Nat := 0
        let e8 : Nat ← cwhile
            (fun _s2 =>
              let i : Nat := _s2
              decide (i < 8))
            (fun _s2 => do
              let i : Nat := _s2
              let e9 : BF 192 ← ld v ((((8 * j) % U32) + i) % U32)
              let e10 : BF 192 ← ld Vk ((((iwd + ((8 * c) % U32)) % U32) + i) % U32)
              let e11 ← F.f192.add e9 e10
              st bf_x_tilde i e11
              let i : Nat := (i + 1) % U32
              pure i)
            i
        let e12 : Nat ← (
          if (Mtag.toNat = 0) ∧ (c = 0) then (do
            let e13 ← tget Rcon ircon
            let r : Byte := e13
            let ircon : Nat := (ircon + 1) % U32
            let bf_r ← alloc .stack (malloc 8 : Mem (BF 192))
            let i : Nat := 0
            let e14 : Nat ← cwhile
                (fun _s2 =>
                  let i : Nat := _s2
                  decide (i < 8))
                (fun _s2 => do
                  let i : Nat := _s2
                  let e15 ← cshr 32 r.toNat i
                  let e16 ← F.f192.mul_bit bf_mkey_times_delta (BitVec.ofNat 8 (e15 &&& 1))
                  st bf_r i e16
                  let e17 : BF 192 ← ld bf_x_tilde i
                  let e18 : BF 192 ← ld bf_r i
                  let e19 ← F.f192.add e17 e18
                  st bf_x_tilde i e19
                  let i : Nat := (i + 1) % U32
                  pure i)
                i
            cfree .stack bf_r
            pure ircon)
          else (do
            pure ircon))
        let ircon : Nat := e12
        let i : Nat := 0
        let e20 : Nat ← cwhile
            (fun _s2 =>
              let i : Nat := _s2
              decide (i < 8))
            (fun _s2 => do
              let i : Nat := _s2
              let e21 : BF 192 ← ld bf_x_tilde (((i + 7) % U32) % 8)
              let e22 : BF 192 ← ld bf_x_tilde (((i + 5) % U32) % 8)
              let e23 ← F.f192.add e21 e22
              let e24 : BF 192 ← ld bf_x_tilde (((i + 2) % U32) % 8)
              let e25 ← F.f192.add e23 e24
              st bf_out ((i + ((8 * j) % U32)) % U32) e25
              let i : Nat := (i + 1) % U32
              pure i)
            i
        let e26 : BF 192 ← ld bf_out ((0 + ((8 * j) % U32)) % U32)
        let e27 ← F.f192.mul_bit bf_mkey_times_delta minus_mtag
        let e28 ← F.f192.add e26 e27
        st bf_out ((0 + ((8 * j) % U32)) % U32) e28
        let e29 : BF 192 ← ld bf_out ((2 + ((8 * j) % U32)) % U32)
        let e30 ← F.f192.mul_bit bf_mkey_times_delta minus_mtag
        let e31 ← F.f192.add e29 e30
        st bf_out ((2 + ((8 * j) % U32)) % U32) e31
        let c : Nat := (c + 1) % U32
        let e32 : Nat × Nat ← (
          if c = 4 then (do
            let c : Nat := 0
            let iwd : Nat := (iwd + 192) % U32
            pure (iwd, c))
          else (do
            pure (iwd, c)))
        let iwd : Nat := e32.1
        let c : Nat := e32.2
        cfree .stack bf_x_tilde
        let j : Nat := (j + 1) % U32
        pure (iwd, c, ircon, j))
      (iwd, c, ircon, j)
  let iwd : Nat := e7.1
  let c : Nat := e7.2.1
  let ircon : Nat := e7.2.2.1
  pure ()

/-- faest_aes.c:762-810 `aes_key_schedule_constraints_Mkey_0_192`. -/
def aes_key_schedule_constraints_Mkey_0_192 (F : FImpl) (w : CPtr) (v : CPtr) (a0_ctx : ZkC 192)
    (a1_ctx : ZkC 192) (k : CPtr) (vk : CPtr) (params : Params) : CM (ZkC 192 × ZkC 192) := do
  cassert (decide (32 = params.Ske))
  aes_key_schedule_forward_1 w k params
  aes_key_schedule_forward_192 F v vk
  let w_dash ← alloc .stack (malloc 32 : Mem Byte)
  aes_key_schedule_backward_1 F (padd w 24) k w_dash params
  let v_w_dash ← alloc .stack (malloc 256 : Mem (BF 192))
  aes_key_schedule_backward_192 F (padd v 192) vk (1 : Byte) (0 : Byte) (none : CPtr) v_w_dash
  let iwd : Nat := 160
  let j : Nat := 0
  let e1 : ZkC 192 × ZkC 192 × Nat × Nat ← cwhile
      (fun _s1 =>
        let j : Nat := _s1.2.2.2
        decide (j < 8))
      (fun _s1 => do
        let a0_ctx : ZkC 192 := _s1.1
        let a1_ctx : ZkC 192 := _s1.2.1
        let iwd : Nat := _s1.2.2.1
        let j : Nat := _s1.2.2.2
        let bf_k_hat ← alloc .stack (malloc 4 : Mem (BF 192))
        let bf_v_k_hat ← alloc .stack (malloc 4 : Mem (BF 192))
        let bf_w_dash_hat ← alloc .stack (malloc 4 : Mem (BF 192))
        let bf_v_w_dash_hat ← alloc .stack (malloc 4 : Mem (BF 192))
        let r : Nat := 0
        let e2 : Nat ← cwhile
            (fun _s2 =>
              let r : Nat := _s2
              decide (r ≤ 3))
            (fun _s2 => do
              let r : Nat := _s2
              let e3 : Byte ← ld k (((iwd + ((8 * r) % U32)) % U32) / 8)
              let e4 ← F.f192.byte_combine_bits e3
              st bf_k_hat (((r + 3) % U32) % 4) e4
              let e5 ← F.f192.byte_combine (padd vk ((iwd + ((8 * r) % U32)) % U32))
              st bf_v_k_hat (((r + 3) % U32) % 4) e5
              let e6 : Byte ← ld w_dash (((((32 * j) % U32) + ((8 * r) % U32)) % U32) / 8)
              let e7 ← F.f192.byte_combine_bits e6
              st bf_w_dash_hat r e7
              let e8 ← F.f192.byte_combine (padd v_w_dash ((((32 * j) % U32) + ((8 * r) % U32)) % U32))
              st bf_v_w_dash_hat r e8
              let r : Nat := (r + 1) % U32
              pure r)
            r
        let r : Nat := 0
        let e9 : ZkC 192 × ZkC 192 × Nat ← cwhile
            (fun _s2 =>
              let r : Nat := _s2.2.2
              decide (r ≤ 3))
            (fun _s2 => do
              let a0_ctx : ZkC 192 := _s2.1
              let a1_ctx : ZkC 192 := _s2.2.1
              let r : Nat := _s2.2.2
              let e10 : BF 192 ← ld bf_v_k_hat r
              let e11 : BF 192 ← ld bf_v_w_dash_hat r
              let e12 ← F.f192.mul e10 e11
              let tmp : BF 192 := e12
              let e13 ← zk_hash_192_update F a0_ctx tmp
              let a0_ctx := e13
              let e14 : BF 192 ← ld bf_k_hat r
              let e15 : BF 192 ← ld bf_v_k_hat r
              let e16 ← F.f192.add e14 e15
              let e17 : BF 192 ← ld bf_w_dash_hat r
              let e18 : BF 192 ← ld bf_v_w_dash_hat r
              let e19 ← F.f192.add e17 e18
              let e20 ← F.f192.mul e16 e19
              let e21 ← F.f192.one
              let e22 ← F.f192.add e20 e21
              let e23 ← F.f192.add e22 tmp
              let e24 ← zk_hash_192_update F a1_ctx e23
              let a1_ctx := e24
              let r : Nat := (r + 1) % U32
              pure (a0_ctx, a1_ctx, r))
            (a0_ctx, a1_ctx, r)
        let a0_ctx : ZkC 192 := e9.1
        let a1_ctx : ZkC 192 := e9.2.1
        let iwd : Nat := (iwd + 192) % U32
        cfree .stack bf_v_w_dash_hat
        cfree .stack bf_w_dash_hat
        cfree .stack bf_v_k_hat
        cfree .stack bf_k_hat
        let j : Nat := (j + 1) % U32
        pure (a0_ctx, a1_ctx, iwd, j))
      (a0_ctx, a1_ctx, iwd, j)
  let a0_ctx : ZkC 192 := e1.1
  let a1_ctx : ZkC 192 := e1.2.1
  let iwd : Nat := e1.2.2.1
  cfree .stack v_w_dash
  cfree .stack w_dash
  pure (a0_ctx, a1_ctx)

/-- faest_aes.c:812-840 `aes_key_schedule_constraints_Mkey_1_192`. -/
def aes_key_schedule_constraints_Mkey_1_192 (F : FImpl) (q : CPtr) (delta : CPtr) (b0_ctx : ZkC 192) (qk : CPtr) : CM (ZkC 192) := do
  aes_key_schedule_forward_192 F q qk
  let q_w_dash ← alloc .stack (malloc 256 : Mem (BF 192))
  aes_key_schedule_backward_192 F (padd q 192) qk (0 : Byte) (1 : Byte) delta q_w_dash
  let e1 ← F.f192.load delta
  let bf_delta : BF 192 := e1
  let e2 ← F.f192.mul bf_delta bf_delta
  let delta_squared : BF 192 := e2
  let iwd : Nat := 160
  let j : Nat := 0
  let e3 : ZkC 192 × Nat × Nat ← cwhile
      (fun _s1 =>
        let j : Nat := _s1.2.2
        decide (j < 8))
      (fun _s1 => do
        let b0_ctx : ZkC 192 := _s1.1
        let iwd : Nat := _s1.2.1
        let j : Nat := _s1.2.2
        let bf_q_hat_k ← alloc .stack (malloc 4 : Mem (BF 192))
        let bf_q_hat_w_dash ← alloc .stack (malloc 4 : Mem (BF 192))
        let r : Nat := 0
        let e4 : Nat ← cwhile
            (fun _s2 =>
              let r : Nat := _s2
              decide (r ≤ 3))
            (fun _s2 => do
              let r : Nat := _s2
              let e5 ← F.f192.byte_combine (padd qk ((iwd + ((8 * r) % U32)) % U32))
              st bf_q_hat_k (((r + 3) % U32) % 4) e5
              let e6 ← F.f192.byte_combine (padd q_w_dash ((((32 * j) % U32) + ((8 * r) % U32)) % U32))
              st bf_q_hat_w_dash r e6
              let r : Nat := (r + 1) % U32
              pure r)
            r
        let r : Nat := 0
        let e7 : ZkC 192 × Nat ← cwhile
            (fun _s2 =>
              let r : Nat := _s2.2
              decide (r ≤ 3))
            (fun _s2 => do
              let b0_ctx : ZkC 192 := _s2.1
              let r : Nat := _s2.2
              let e8 : BF 192 ← ld bf_q_hat_k r
              let e9 : BF 192 ← ld bf_q_hat_w_dash r
              let e10 ← F.f192.mul e8 e9
              let bf_tmp : BF 192 := e10
              let e11 ← F.f192.add bf_tmp delta_squared
              let e12 ← zk_hash_192_update F b0_ctx e11
              let b0_ctx := e12
              let r : Nat := (r + 1) % U32
              pure (b0_ctx, r))
            (b0_ctx, r)
        let b0_ctx : ZkC 192 := e7.1
        let iwd : Nat := (iwd + 192) % U32
        cfree .stack bf_q_hat_w_dash
        cfree .stack bf_q_hat_k
        let j : Nat := (j + 1) % U32
        pure (b0_ctx, iwd, j))
      (b0_ctx, iwd, j)
  let b0_ctx : ZkC 192 := e3.1
  let iwd : Nat := e3.2.1
  cfree .stack q_w_dash
  pure b0_ctx

/-- faest_aes.c:842-895 `aes_enc_forward_192_1`. -/
def aes_enc_forward_192_1 (F : FImpl) (x : CPtr) (xk : CPtr) (in_ : CPtr) (Mtag : Byte) (Mkey : Byte)
    (bf_y : CPtr) : CM Unit := do
  let i : Nat := 0
  let e1 : Nat ← cwhile
      (fun _s1 =>
        let i : Nat := _s1
        decide (i < 16))
      (fun _s1 => do
        let i : Nat := _s1
        let e2 : Byte ← ld in_ i
        let xin : Byte := BitVec.ofNat 8 (e2.toNat &&& ((U32 - ((1 ^^^ Mtag.toNat) &&& (1 ^^^ Mkey.toNat))) % U32))
        let e3 ← F.f192.byte_combine_bits xin
        let e4 : Byte ← ld xk i
        let e5 ← F.f192.byte_combine_bits e4
        let e6 ← F.f192.add e3 e5
        st bf_y i e6
        let i : Nat := (i + 1) % U32
        pure i)
      i
  let e7 ← F.f192.byte_combine_bits (2 : Byte)
  let bf_two : BF 192 := e7
  let e8 ← F.f192.byte_combine_bits (3 : Byte)
  let bf_three : BF 192 := e8
  let j : Nat := 1
  let e9 : Nat ← cwhile
      (fun _s1 =>
        let j : Nat := _s1
        decide (j < 12))
      (fun _s1 => do
        let j : Nat := _s1
        let c : Nat := 0
        let e10 : Nat ← cwhile
            (fun _s2 =>
              let c : Nat := _s2
              decide (c ≤ 3))
            (fun _s2 => do
              let c : Nat := _s2
              let ix : Nat := (((128 * ((j + U32 - 1) % U32)) % U32) + ((32 * c) % U32)) % U32
              let ik : Nat := (((128 * j) % U32) + ((32 * c) % U32)) % U32
              let iy : Nat := (((16 * j) % U32) + ((4 * c) % U32)) % U32
              let bf_x_hat ← alloc .stack (malloc 4 : Mem (BF 192))
              let bf_xk_hat ← alloc .stack (malloc 4 : Mem (BF 192))
              let r : Nat := 0
              let e11 : Nat ← cwhile
                  (fun _s3 =>
                    let r : Nat := _s3
                    decide (r ≤ 3))
                  (fun _s3 => do
                    let r : Nat := _s3
                    let e12 : Byte ← ld x (((ix + ((8 * r) % U32)) % U32) / 8)
                    let e13 ← F.f192.byte_combine_bits e12
                    st bf_x_hat r e13
                    let e14 : Byte ← ld xk (((ik + ((8 * r) % U32)) % U32) / 8)
                    let e15 ← F.f192.byte_combine_bits e14
                    st bf_xk_hat r e15
                    let r : Nat := (r + 1) % U32
                    pure r)
                  r
              let e16 : BF 192 ← ld bf_xk_hat 0
              let e17 : BF 192 ← ld bf_x_hat 0
              let e18 ← F.f192.mul e17 bf_two
              let e19 ← F.f192.add e16 e18
              st bf_y ((iy + 0) % U32) e19
              let e20 : BF 192 ← ld bf_y ((iy + 0) % U32)
              let e21 : BF 192 ← ld bf_x_hat 1
              let e22 ← F.f192.mul e21 bf_three
              let e23 ← F.f192.add e20 e22
              st bf_y ((iy + 0) % U32) e23
              let e24 : BF 192 ← ld bf_y ((iy + 0) % U32)
              let e25 : BF 192 ← ld bf_x_hat 2
              let e26 ← F.f192.add e24 e25
              st bf_y ((iy + 0) % U32) e26
              let e27 : BF 192 ← ld bf_y ((iy + 0) % U32)
              let e28 : BF 192 ← ld bf_x_hat 3
              let e29 ← F.f192.add e27 e28
              st bf_y ((iy + 0) % U32) e29
              let e30 : BF 192 ← ld bf_xk_hat 1
              let e31 : BF 192 ← ld bf_x_hat 0
              let e32 ← F.f192.add e30 e31
              st bf_y ((iy + 1) % U32) e32
              let e33 : BF 192 ← ld bf_y ((iy + 1) % U32)
              let e34 : BF 192 ← ld bf_x_hat 1
              let e35 ← F.f192.mul e34 bf_two
              let e36 ← F.f192.add e33 e35
              st bf_y ((iy + 1) % U32) e36
              let e37 : BF 192 ← ld bf_y ((iy + 1) % U32)
              let e38 : BF 192 ← ld bf_x_hat 2
              let e39 ← F.f192.mul e38 bf_three
              let e40 ← F.f192.add e37 e39
              st bf_y ((iy + 1) % U32) e40
              let e41 : BF 192 ← ld bf_y ((iy + 1) % U32)
              let e42 : BF 192 ← ld bf_x_hat 3
              let e43 ← F.f192.add e41 e42
              st bf_y ((iy + 1) % U32) e43
              let e44 : BF 192 ← ld bf_xk_hat 2
              let e45 : BF 192 ← ld bf_x_hat 0
              let e46 ← F.f192.add e44 e45
              st bf_y ((iy + 2) % U32) e46
              let e47 : BF 192 ← ld bf_y ((iy + 2) % U32)
              let e48 : BF 192 ← ld bf_x_hat 1
              let e49 ← F.f192.add e47 e48
              st bf_y ((iy + 2) % U32) e49
              let e50 : BF 192 ← ld bf_y ((iy + 2) % U32)
              let e51 : BF 192 ← ld bf_x_hat 2
              let e52 ← F.f192.mul e51 bf_two
              let e53 ← F.f192.add e50 e52
              st bf_y ((iy + 2) % U32) e53
              let e54 : BF 192 ← ld bf_y ((iy + 2) % U32)
              let e55 : BF 192 ← ld bf_x_hat 3
              let e56 ← F.f192.mul e55 bf_three
              let e57 ← F.f192.add e54 e56
              st bf_y ((iy + 2) % U32) e57
              let e58 : BF 192 ← ld bf_xk_hat 3
              let e59 : BF 192 ← ld bf_x_hat 0
              let e60 ← F.f192.mul e59 bf_three
              let e61 ← F.f192.add e58 e60
              st bf_y ((iy + 3) % U32) e61
              let e62 : BF 192 ← ld bf_y ((iy + 3) % U32)
              let e63 : BF 192 ← ld bf_x_hat 1
              let e64 ← F.f192.add e62 e63
              st bf_y ((iy + 3) % U32) e64
              let e65 : BF 192 ← ld bf_y ((iy + 3) % U32)
              let e66 : BF 192 ← ld bf_x_hat 2
              let e67 ← F.f192.add e65 e66
              st bf_y ((iy + 3) % U32) e67
              let e68 : BF 192 ← ld bf_y ((iy + 3) % U32)
              let e69 : BF 192 ← ld bf_x_hat 3
              let e70 ← F.f192.mul e69 bf_two
              let e71 ← F.f192.add e68 e70
              st bf_y ((iy + 3) % U32) e71
              cfree .stack bf_xk_hat
              cfree .stack bf_x_hat
              let c : Nat := (c + 1) % U32
              pure c)
            c
        let j : Nat := (j + 1) % U32
        pure j)
      j
  pure ()

/-- faest_aes.c:897-954 `aes_enc_forward_192`. -/
def aes_enc_forward_192 (F : FImpl) (bf_x : CPtr) (bf_xk : CPtr) (in_ : CPtr) (Mtag : Byte) (Mkey : Byte)
    (delta : CPtr) (bf_y : CPtr) : CM Unit := do
  let e3 ← (if delta.isSome = true then (do
      let e1 ← F.f192.load delta
      pure e1)
    else (do
      let e2 ← F.f192.zero
      pure e2))
  let bf_delta : BF 192 := e3
  let e4 ← F.f192.mul_bit bf_delta Mkey
  let e5 ← F.f192.from_bit (BitVec.ofNat 8 (1 ^^^ Mkey.toNat))
  let e6 ← F.f192.add e4 e5
  let bf_factor : BF 192 := e6
  let i : Nat := 0
  let e7 : Nat ← cwhile
      (fun _s1 =>
        let i : Nat := _s1
        decide (i < 16))
      (fun _s1 => do
        let i : Nat := _s1
        let bf_xin ← alloc .stack (malloc 8 : Mem (BF 192))
        let j : Nat := 0
        let e8 : Nat ← cwhile
            (fun _s2 =>
              let j : Nat := _s2
              decide (j < 8))
            (fun _s2 => do
              let j : Nat := _s2
              let e9 : Byte ← ld in_ i
              let e10 ← cshr 32 e9.toNat j
              let e11 ← F.f192.mul_bit bf_factor (BitVec.ofNat 8 ((1 ^^^ Mtag.toNat) &&& (e10 &&& 1)))
              st bf_xin j e11
              let j : Nat := (j + 1) % U32
              pure j)
            j
        let e12 ← F.f192.byte_combine bf_xin
        let e13 ← F.f192.byte_combine (padd bf_xk ((8 * i) % U32))
        let e14 ← F.f192.add e12 e13
        st bf_y i e14
        cfree .stack bf_xin
        let i : Nat := (i + 1) % U32
        pure i)
      i
  let e15 ← F.f192.byte_combine_bits (2 : Byte)
  let bf_two : BF 192 := e15
  let e16 ← F.f192.byte_combine_bits (3 : Byte)
  let bf_three : BF 192 := e16
  let j : Nat := 1
  let e17 : Nat ← cwhile
      (fun _s1 =>
        let j : Nat := _s1
        decide (j < 12))
      (fun _s1 => do
        let j : Nat := _s1
        let c : Nat := 0
        let e18 : Nat ← cwhile
            (fun _s2 =>
              let c : Nat := _s2
              decide (c ≤ 3))
            (fun _s2 => do
              let c : Nat := _s2
              let ix : Nat := (((128 * ((j + U32 - 1) % U32)) % U32) + ((32 * c) % U32)) % U32
              let ik : Nat := (((128 * j) % U32) + ((32 * c) % U32)) % U32
              let iy : Nat := (((16 * j) % U32) + ((4 * c) % U32)) % U32
              let bf_x_hat ← alloc .stack (malloc 4 : Mem (BF 192))
              let bf_xk_hat ← alloc .stack (malloc 4 : Mem (BF 192))
              let r : Nat := 0
              let e19 : Nat ← cwhile
                  (fun _s3 =>
                    let r : Nat := _s3
                    decide (r ≤ 3))
                  (fun _s3 => do
                    let r : Nat := _s3
                    let e20 ← F.f192.byte_combine (padd bf_x ((ix + ((8 * r) % U32)) % U32))
                    st bf_x_hat r e20
                    let e21 ← F.f192.byte_combine (padd bf_xk ((ik + ((8 * r) % U32)) % U32))
                    st bf_xk_hat r e21
                    let r : Nat := (r + 1) % U32
                    pure r)
                  r
              let e22 : BF 192 ← ld bf_xk_hat 0
              let e23 : BF 192 ← ld bf_x_hat 0
              let e24 ← F.f192.mul e23 bf_two
              let e25 ← F.f192.add e22 e24
              st bf_y ((iy + 0) % U32) e25
              let e26 : BF 192 ← ld bf_y ((iy + 0) % U32)
              let e27 : BF 192 ← ld bf_x_hat 1
              let e28 ← F.f192.mul e27 bf_three
              let e29 ← F.f192.add e26 e28
              st bf_y ((iy + 0) % U32) e29
              let e30 : BF 192 ← ld bf_y ((iy + 0) % U32)
              let e31 : BF 192 ← ld bf_x_hat 2
              let e32 ← F.f192.add e30 e31
              st bf_y ((iy + 0) % U32) e32
              let e33 : BF 192 ← ld bf_y ((iy + 0) % U32)
              let e34 : BF 192 ← ld bf_x_hat 3
              let e35 ← F.f192.add e33 e34
              st bf_y ((iy + 0) % U32) e35
              let e36 : BF 192 ← ld bf_xk_hat 1
              let e37 : BF 192 ← ld bf_x_hat 0
              let e38 ← F.f192.add e36 e37
              st bf_y ((iy + 1) % U32) e38
              let e39 : BF 192 ← ld bf_y ((iy + 1) % U32)
              let e40 : BF 192 ← ld bf_x_hat 1
              let e41 ← F.f192.mul e40 bf_two
              let e42 ← F.f192.add e39 e41
              st bf_y ((iy + 1) % U32) e42
              let e43 : BF 192 ← ld bf_y ((iy + 1) % U32)
              let e44 : BF 192 ← ld bf_x_hat 2
              let e45 ← F.f192.mul e44 bf_three
              let e46 ← F.f192.add e43 e45
              st bf_y ((iy + 1) % U32) e46
              let e47 : BF 192 ← ld bf_y ((iy + 1) % U32)
              let e48 : BF 192 ← ld bf_x_hat 3
              let e49 ← F.f192.add e47 e48
              st bf_y ((iy + 1) % U32) e49
              let e50 : BF 192 ← ld bf_xk_hat 2
              let e51 : BF 192 ← ld bf_x_hat 0
              let e52 ← F.f192.add e50 e51
              st bf_y ((iy + 2) % U32) e52
              let e53 : BF 192 ← ld bf_y ((iy + 2) % U32)
              let e54 : BF 192 ← ld bf_x_hat 1
              let e55 ← F.f192.add e53 e54
              st bf_y ((iy + 2) % U32) e55
              let e56 : BF 192 ← ld bf_y ((iy + 2) % U32)
              let e57 : BF 192 ← ld bf_x_hat 2
              let e58 ← F.f192.mul e57 bf_two
              let e59 ← F.f192.add e56 e58
              st bf_y ((iy + 2) % U32) e59
              let e60 : BF 192 ← ld bf_y ((iy + 2) % U32)
              let e61 : BF 192 ← ld bf_x_hat 3
              let e62 ← F.f192.mul e61 bf_three
              let e63 ← F.f192.add e60 e62
              st bf_y ((iy + 2) % U32) e63
              let e64 : BF 192 ← ld bf_xk_hat 3
              let e65 : BF 192 ← ld bf_x_hat 0
              let e66 ← F.f192.mul e65 bf_three
              let e67 ← F.f192.add e64 e66
              st bf_y ((iy + 3) % U32) e67
              let e68 : BF 192 ← ld bf_y ((iy + 3) % U32)
              let e69 : BF 192 ← ld bf_x_hat 1
              let e70 ← F.f192.add e68 e69
              st bf_y ((iy + 3) % U32) e70
              let e71 : BF 192 ← ld bf_y ((iy + 3) % U32)
              let e72 : BF 192 ← ld bf_x_hat 2
              let e73 ← F.f192.add e71 e72
              st bf_y ((iy + 3) % U32) e73
              let e74 : BF 192 ← ld bf_y ((iy + 3) % U32)
              let e75 : BF 192 ← ld bf_x_hat 3
              let e76 ← F.f192.mul e75 bf_two
              let e77 ← F.f192.add e74 e76
              st bf_y ((iy + 3) % U32) e77
              cfree .stack bf_xk_hat
              cfree .stack bf_x_hat
              let c : Nat := (c + 1) % U32
              pure c)
            c
        let j : Nat := (j + 1) % U32
        pure j)
      j
  pure ()

/-- faest_aes.c:956-985 `aes_enc_backward_192_1`. -/
def aes_enc_backward_192_1 (F : FImpl) (x : CPtr) (xk : CPtr) (Mtag : Byte) (Mkey : Byte) (out : CPtr)
    (y_out : CPtr) : CM Unit := do
  let j : Nat := 0
  let e1 : Nat ← cwhile
      (fun _s1 =>
        let j : Nat := _s1
        decide (j < 12))
      (fun _s1 => do
        let j : Nat := _s1
        let c : Nat := 0
        let e2 : Nat ← cwhile
            (fun _s2 =>
              let c : Nat := _s2
              decide (c ≤ 3))
            (fun _s2 => do
              let c : Nat := _s2
              let r : Nat := 0
              let e3 : Nat ← cwhile
                  (fun _s3 =>
                    let r : Nat := _s3
                    decide (r ≤ 3))
                  (fun _s3 => do
                    let r : Nat := _s3
                    let ird : Nat := (((((128 * j) % U32) + ((32 * (((((c + U32 - r) % U32) + 4) % U32) % 4)) % U32)) % U32) + ((8 * r) % U32)) % U32
                    let e4 : Byte ← (
                      if j < 11 then (do
                        let e5 : Byte ← ld x (ird / 8)
                        let xtilde : Byte := e5
                        pure xtilde)
                      else (do
                        let e6 : Byte ← ld out (((ird + U32 - 1408) % U32) / 8)
                        let xout : Byte := BitVec.ofNat 8 (e6.toNat &&& ((U32 - ((1 ^^^ Mtag.toNat) &&& (1 ^^^ Mkey.toNat))) % U32))
                        let e7 : Byte ← ld xk (((128 + ird) % U32) / 8)
                        let xtilde : Byte := BitVec.ofNat 8 (xout.toNat ^^^ e7.toNat)
                        pure xtilde))
                    let xtilde : Byte := e4
                    let e8 ← F.rotr8 xtilde 7
                    let e9 ← F.rotr8 xtilde 5
                    let e10 ← F.rotr8 xtilde 2
                    let ytilde : Byte := BitVec.ofNat 8 ((e8.toNat ^^^ e9.toNat) ^^^ e10.toNat)
                    let ytilde : Byte := BitVec.ofNat 8 (ytilde.toNat ^^^ (((1 ^^^ Mtag.toNat) &&& (1 ^^^ Mkey.toNat)) <<< 0))
                    let ytilde : Byte := BitVec.ofNat 8 (ytilde.toNat ^^^ (((1 ^^^ Mtag.toNat) &&& (1 ^^^ Mkey.toNat)) <<< 2))
                    let e11 ← F.f192.byte_combine_bits ytilde
                    st y_out ((((((16 * j) % U32) + ((4 * c) % U32)) % U32) + r) % U32) e11
                    let r : Nat := (r + 1) % U32
                    pure r)
                  r
              let c : Nat := (c + 1) % U32
              pure c)
            c
        let j : Nat := (j + 1) % U32
        pure j)
      j
  pure ()

/-- faest_aes.c:987-1030 `aes_enc_backward_192`. -/
def aes_enc_backward_192 (F : FImpl) (bf_x : CPtr) (bf_xk : CPtr) (Mtag : Byte) (Mkey : Byte) (delta : CPtr)
    (out : CPtr) (y_out : CPtr) : CM Unit := do
  let e3 ← (if delta.isSome = true then (do
      let e1 ← F.f192.load delta
      pure e1)
    else (do
      let e2 ← F.f192.zero
      pure e2))
  let bf_delta : BF 192 := e3
  let e4 ← F.f192.mul_bit bf_delta Mkey
  let e5 ← F.f192.from_bit (BitVec.ofNat 8 (1 ^^^ Mkey.toNat))
  let e6 ← F.f192.add e4 e5
  let e7 ← F.f192.mul_bit e6 (BitVec.ofNat 8 (1 ^^^ Mtag.toNat))
  let factor : BF 192 := e7
  let j : Nat := 0
  let e8 : Nat ← cwhile
      (fun _s1 =>
        let j : Nat := _s1
        decide (j < 12))
      (fun _s1 => do
        let j : Nat := _s1
        let c : Nat := 0
        let e9 : Nat ← cwhile
            (fun _s2 =>
              let c : Nat := _s2
              decide (c ≤ 3))
            (fun _s2 => do
              let c : Nat := _s2
              let r : Nat := 0
              let e10 : Nat ← cwhile
                  (fun _s3 =>
                    let r : Nat := _s3
                    decide (r ≤ 3))
                  (fun _s3 => do
                    let r : Nat := _s3
                    let bf_x_tilde ← alloc .stack (malloc 8 : Mem (BF 192))
                    let ird : Nat := (((((128 * j) % U32) + ((32 * (((((c + U32 - r) % U32) + 4) % U32) % 4)) % U32)) % U32) + ((8 * r) % U32)) % U32
                    let e11 : Unit ← (
                      if j < 11 then (do
                        memcpy (α := BF 192) bf_x_tilde (padd bf_x ird) 8
                        pure ())
                      else (do
                        let i : Nat := 0
                        let e12 : Nat ← cwhile
                            (fun _s4 =>
                              let i : Nat := _s4
                              decide (i < 8))
                            (fun _s4 => do
                              let i : Nat := _s4
                              let e13 : Byte ← ld out (((ird + U32 - 1408) % U32) / 8)
                              let e14 ← cshr 32 e13.toNat i
                              let e15 ← F.f192.mul_bit factor (BitVec.ofNat 8 (e14 &&& 1))
                              let bf_xout : BF 192 := e15
                              let e16 : BF 192 ← ld bf_xk ((((128 + ird) % U32) + i) % U32)
                              let e17 ← F.f192.add bf_xout e16
                              st bf_x_tilde i e17
                              let i : Nat := (i + 1) % U32
                              pure i)
                            i
                        pure ()))
                    let bf_y_tilde ← alloc .stack (malloc 8 : Mem (BF 192))
                    let i : Nat := 0
                    let e18 : Nat ← cwhile
                        (fun _s4 =>
                          let i : Nat := _s4
                          decide (i < 8))
                        (fun _s4 => do
                          let i : Nat := _s4
                          let e19 : BF 192 ← ld bf_x_tilde (((i + 7) % U32) % 8)
                          let e20 : BF 192 ← ld bf_x_tilde (((i + 5) % U32) % 8)
                          let e21 ← F.f192.add e19 e20
                          let e22 : BF 192 ← ld bf_x_tilde (((i + 2) % U32) % 8)
                          let e23 ← F.f192.add e21 e22
                          st bf_y_tilde i e23
                          let i : Nat := (i + 1) % U32
                          pure i)
                        i
                    let e24 : BF 192 ← ld bf_y_tilde 0
                    let e25 ← F.f192.add e24 factor
                    st bf_y_tilde 0 e25
                    let e26 : BF 192 ← ld bf_y_tilde 2
                    let e27 ← F.f192.add e26 factor
                    st bf_y_tilde 2 e27
                    let e28 ← F.f192.byte_combine bf_y_tilde
                    st y_out ((((((16 * j) % U32) + ((4 * c) % U32)) % U32) + r) % U32) e28
                    cfree .stack bf_y_tilde
                    cfree .stack bf_x_tilde
                    let r : Nat := (r + 1) % U32
                    pure r)
                  r
              let c : Nat := (c + 1) % U32
              pure c)
            c
        let j : Nat := (j + 1) % U32
        pure j)
      j
  pure ()

/-- faest_aes.c:1032-1053 `aes_enc_constraints_Mkey_0_192`. -/
def aes_enc_constraints_Mkey_0_192 (F : FImpl) (in_ : CPtr) (out : CPtr) (w : CPtr) (v : CPtr) (k : CPtr)
    (vk : CPtr) (a0_ctx : ZkC 192) (a1_ctx : ZkC 192) : CM (ZkC 192 × ZkC 192) := do
  let s ← alloc .stack (malloc 192 : Mem (BF 192))
  let vs ← alloc .stack (malloc 192 : Mem (BF 192))
  let s_dash ← alloc .stack (malloc 192 : Mem (BF 192))
  let vs_dash ← alloc .stack (malloc 192 : Mem (BF 192))
  aes_enc_forward_192_1 F w k in_ (0 : Byte) (0 : Byte) s
  aes_enc_forward_192 F v vk in_ (1 : Byte) (0 : Byte) (none : CPtr) vs
  aes_enc_backward_192_1 F w k (0 : Byte) (0 : Byte) out s_dash
  aes_enc_backward_192 F v vk (1 : Byte) (0 : Byte) (none : CPtr) out vs_dash
  let j : Nat := 0
  let e1 : ZkC 192 × ZkC 192 × Nat ← cwhile
      (fun _s1 =>
        let j : Nat := _s1.2.2
        decide (j < 192))
      (fun _s1 => do
        let a0_ctx : ZkC 192 := _s1.1
        let a1_ctx : ZkC 192 := _s1.2.1
        let j : Nat := _s1.2.2
        let e2 : BF 192 ← ld vs j
        let e3 : BF 192 ← ld vs_dash j
        let e4 ← F.f192.mul e2 e3
        let tmp : BF 192 := e4
        let e5 ← zk_hash_192_update F a0_ctx tmp
        let a0_ctx := e5
        let e6 : BF 192 ← ld s j
        let e7 : BF 192 ← ld vs j
        let e8 ← F.f192.add e6 e7
        let e9 : BF 192 ← ld s_dash j
        let e10 : BF 192 ← ld vs_dash j
        let e11 ← F.f192.add e9 e10
        let e12 ← F.f192.mul e8 e11
        let e13 ← F.f192.add e12 tmp
        let e14 ← F.f192.one
        let e15 ← F.f192.add e13 e14
        let e16 ← zk_hash_192_update F a1_ctx e15
        let a1_ctx := e16
        let j : Nat := (j + 1) % U32
        pure (a0_ctx, a1_ctx, j))
      (a0_ctx, a1_ctx, j)
  let a0_ctx : ZkC 192 := e1.1
  let a1_ctx : ZkC 192 := e1.2.1
  cfree .stack vs_dash
  cfree .stack s_dash
  cfree .stack vs
  cfree .stack s
  pure (a0_ctx, a1_ctx)

/-- faest_aes.c:1055-1070 `aes_enc_constraints_Mkey_1_192`. -/
def aes_enc_constraints_Mkey_1_192 (F : FImpl) (in_ : CPtr) (out : CPtr) (q : CPtr) (qk : CPtr) (delta : CPtr)
    (b0_ctx : ZkC 192) : CM (ZkC 192) := do
  let qs ← alloc .stack (malloc 192 : Mem (BF 192))
  let qs_dash ← alloc .stack (malloc 192 : Mem (BF 192))
  aes_enc_forward_192 F q qk in_ (0 : Byte) (1 : Byte) delta qs
  aes_enc_backward_192 F q qk (0 : Byte) (1 : Byte) delta out qs_dash
  let e1 ← F.f192.load delta
  let e2 ← F.f192.load delta
  let e3 ← F.f192.mul e1 e2
  let minus_part : BF 192 := e3
  let j : Nat := 0
  let e4 : ZkC 192 × Nat ← cwhile
      (fun _s1 =>
        let j : Nat := _s1.2
        decide (j < 192))
      (fun _s1 => do
        let b0_ctx : ZkC 192 := _s1.1
        let j : Nat := _s1.2
        let e5 : BF 192 ← ld qs j
        let e6 : BF 192 ← ld qs_dash j
        let e7 ← F.f192.mul e5 e6
        let e8 ← F.f192.add e7 minus_part
        let e9 ← zk_hash_192_update F b0_ctx e8
        let b0_ctx := e9
        let j : Nat := (j + 1) % U32
        pure (b0_ctx, j))
      (b0_ctx, j)
  let b0_ctx : ZkC 192 := e4.1
  cfree .stack qs_dash
  cfree .stack qs
  pure b0_ctx

/-- faest_aes.c:1072-1108 `aes_prove_192`. -/
def aes_prove_192 (F : FImpl) (w : CPtr) (u : CPtr) (V : CPtr) (in_ : CPtr) (out : CPtr) (chall : CPtr)
    (a_tilde : CPtr) (b_tilde : CPtr) (params : Params) : CM Unit := do
  let e1 ← column_to_row_major_and_shrink_V_192 F V 3264
  let bf_v : CPtr := e1
  let e2 ← alloc .heap (malloc 208 : Mem Byte)
  let k : CPtr := e2
  let e3 ← alloc .aligned (malloc 1664 : Mem (BF 192))
  let vk : CPtr := e3
  let a0_ctx : ZkC 192 := {}
  let a1_ctx : ZkC 192 := {}
  let e4 ← zk_hash_192_init F a0_ctx chall
  let a0_ctx := e4
  let e5 ← zk_hash_192_init F a1_ctx chall
  let a1_ctx := e5
  let e6 ← aes_key_schedule_constraints_Mkey_0_192 F w bf_v a0_ctx a1_ctx k vk params
  let a0_ctx := e6.1
  let a1_ctx := e6.2
  let e7 ← aes_enc_constraints_Mkey_0_192 F in_ out (padd w 56) (padd bf_v 448) k vk a0_ctx a1_ctx
  let a0_ctx := e7.1
  let a1_ctx := e7.2
  let e8 ← aes_enc_constraints_Mkey_0_192 F (padd in_ 16) (padd out 16) (padd w 232) (padd (padd bf_v 448) 1408) k vk a0_ctx a1_ctx
  let a0_ctx := e8.1
  let a1_ctx := e8.2
  cfree .aligned vk
  cfree .heap k
  let e9 ← F.f192.load (padd u 408)
  let e10 ← zk_hash_192_finalize F a_tilde a1_ctx e9
  let a1_ctx := e10
  let e11 ← F.f192.sum_poly (padd bf_v 3264)
  let e12 ← zk_hash_192_finalize F b_tilde a0_ctx e11
  let a0_ctx := e12
  cfree .aligned bf_v
  pure ()

/-- faest_aes.c:1110-1163 `aes_verify_192`. -/
def aes_verify_192 (F : FImpl) (d : CPtr) (Q : CPtr) (chall_2 : CPtr) (chall_3 : CPtr) (a_tilde : CPtr)
    (in_ : CPtr) (out : CPtr) (params : Params) : CM CPtr := do
  let tau : Nat := params.tau
  let t0 : Nat := params.t0
  let k0 : Nat := params.k0
  let t1 : Nat := params.t1
  let k1 : Nat := params.k1
  let delta : CPtr := chall_3
  let i : Nat := 0
  let col : Nat := 0
  let e1 : Nat × Nat ← cwhile
      (fun _s1 =>
        let i : Nat := _s1.1
        decide (i < tau))
      (fun _s1 => do
        let i : Nat := _s1.1
        let col : Nat := _s1.2
        let depth : Nat := (if i < t0 then k0 else k1)
        let decoded_challenge ← alloc .stack (malloc 12 : Mem Byte)
        let e2 ← ChalDec chall_3 i k0 t0 k1 t1 decoded_challenge
        let j : Nat := 0
        let e3 : Nat × Nat ← cwhile
            (fun _s2 =>
              let j : Nat := _s2.2
              decide (j < depth))
            (fun _s2 => do
              let col : Nat := _s2.1
              let j : Nat := _s2.2
              let e4 : Byte ← ld decoded_challenge j
              let e5 : Unit ← (
                if e4.toNat = 1 then (do
                  let e6 : CPtr ← ld Q col
                  let e7 : CPtr ← ld Q col
                  xor_u8_array d e6 e7 408
                  pure ())
                else (do
                  pure ()))
              let j : Nat := (j + 1) % U32
              let col : Nat := (col + 1) % U32
              pure (col, j))
            (col, j)
        let col : Nat := e3.1
        cfree .stack decoded_challenge
        let i : Nat := (i + 1) % U32
        pure (i, col))
      (i, col)
  let e8 ← column_to_row_major_and_shrink_V_192 F Q 3264
  let bf_q : CPtr := e8
  let e9 ← alloc .aligned (malloc 1664 : Mem (BF 192))
  let qk : CPtr := e9
  let b0_ctx : ZkC 192 := {}
  let e10 ← zk_hash_192_init F b0_ctx chall_2
  let b0_ctx := e10
  let e11 ← aes_key_schedule_constraints_Mkey_1_192 F bf_q delta b0_ctx qk
  let b0_ctx := e11
  let e12 ← aes_enc_constraints_Mkey_1_192 F in_ out (padd bf_q 448) qk delta b0_ctx
  let b0_ctx := e12
  let e13 ← aes_enc_constraints_Mkey_1_192 F (padd in_ 16) (padd out 16) (padd (padd bf_q 448) 1408) qk delta b0_ctx
  let b0_ctx := e13
  cfree .aligned qk
  let e14 ← alloc .heap (malloc 24 : Mem Byte)
  let q_tilde : CPtr := e14
  let e15 ← F.f192.sum_poly (padd bf_q 3264)
  let e16 ← zk_hash_192_finalize F q_tilde b0_ctx e15
  let b0_ctx := e16
  cfree .aligned bf_q
  let e17 ← F.f192.load q_tilde
  let bf_qtilde : BF 192 := e17
  let e18 ← F.f192.load a_tilde
  let e19 ← F.f192.load delta
  let e20 ← F.f192.mul e18 e19
  let e21 ← F.f192.add bf_qtilde e20
  F.f192.store q_tilde e21
  pure q_tilde

/-- faest_aes.c:1167-1186 `aes_key_schedule_forward_256`. -/
def aes_key_schedule_forward_256 (F : FImpl) (v : CPtr) (bf_out : CPtr) : CM Unit := do
  memcpy (α := BF 256) bf_out v 256
  let i_wd : Nat := 256
  let j : Nat := 8
  let e1 : Nat × Nat ← cwhile
      (fun _s1 =>
        let j : Nat := _s1.2
        decide (j < 60))
      (fun _s1 => do
        let i_wd : Nat := _s1.1
        let j : Nat := _s1.2
        let e2 : Nat ← (
          if ((j % 8) = 0) ∨ ((8 > 6) ∧ ((j % 8) = 4)) then (do
            memcpy (α := BF 256) (padd bf_out ((j * 32) % U32)) (padd v i_wd) 32
            let i_wd : Nat := (i_wd + 32) % U32
            pure i_wd)
          else (do
            let i : Nat := 0
            let e3 : Nat ← cwhile
                (fun _s2 =>
                  let i : Nat := _s2
                  decide (i < 32))
                (fun _s2 => do
                  let i : Nat := _s2
                  let e4 : BF 256 ← ld bf_out ((((32 * ((j + U32 - 8) % U32)) % U32) + i) % U32)
                  let e5 : BF 256 ← ld bf_out ((((32 * ((j + U32 - 1) % U32)) % U32) + i) % U32)
                  let e6 ← F.f256.add e4 e5
                  st bf_out ((((32 * j) % U32) + i) % U32) e6
                  let i : Nat := (i + 1) % U32
                  pure i)
                i
            pure i_wd))
        let i_wd : Nat := e2
        let j : Nat := (j + 1) % U32
        pure (i_wd, j))
      (i_wd, j)
  let i_wd : Nat := e1.1
  pure ()

/-- faest_aes.c:1188-1241 `aes_key_schedule_backward_256`. -/
def aes_key_schedule_backward_256 (F : FImpl) (v : CPtr) (Vk : CPtr) (Mtag : Byte) (Mkey : Byte) (delta : CPtr)
    (bf_out : CPtr) : CM Unit := do
  cassert (decide (¬ (((Mtag.toNat = 1) ∧ (Mkey.toNat = 1)) ∨ ((Mkey.toNat = 1) ∧ (¬ (delta.isSome = true))))))
  let iwd : Nat := 0
  let c : Nat := 0
  let rmvRcon : Bool := true
  let ircon : Nat := 0
  let e3 ← (if delta.isSome = true then (do
      let e1 ← F.f256.load delta
      pure e1)
    else (do
      let e2 ← F.f256.zero
      pure e2))
  let bf_delta : BF 256 := e3
  let e4 ← F.f256.from_bit (BitVec.ofNat 8 (1 ^^^ Mkey.toNat))
  let bf_minus_mkey : BF 256 := e4
  let minus_mtag : Byte := BitVec.ofNat 8 (1 ^^^ Mtag.toNat)
  let e5 ← F.f256.mul_bit bf_delta Mkey
  let bf_mkey_times_delta : BF 256 := e5
  let e6 ← F.f256.add bf_mkey_times_delta bf_minus_mkey
  let bf_mkey_times_delta : BF 256 := e6
  let j : Nat := 0
  let e7 : Nat × Nat × Bool × Nat × Nat ← cwhile
      (fun _s1 =>
        let j : Nat := _s1.2.2.2.2
        decide (j < 52))
      (fun _s1 => do
        let iwd : Nat := _s1.1
        let c : Nat := _s1.2.1
        let rmvRcon : Bool := _s1.2.2.1
        let ircon : Nat := _s1.2.2.2.1
        let j : Nat := _s1.2.2.2.2
        let bf_x_tilde ← alloc .stack (malloc 8 : Mem (BF 256))
        let i : Nat := 0
        let e8 : Nat ← cwhile
            (fun _s2 =>
              let i : Nat := _s2
              decide (i < 8))
            (fun _s2 => do
              let i : Nat := _s2
              let e9 : BF 256 ← ld v ((((8 * j) % U32) + i) % U32)
              let e10 : BF 256 ← ld Vk ((((iwd + ((8 * c) % U32)) % U32) + i) % U32)
              let e11 ← F.f256.add e9 e10
              st bf_x_tilde i e11
              let i : Nat := (i + 1) % U32
              pure i)
            i
        let e12 : Nat ← (
          if ((Mtag.toNat = 0) ∧ (rmvRcon = true)) ∧ (c = 0) then (do
            let e13 ← tget Rcon ircon
            let r : Byte := e13
            let ircon : Nat := (ircon + 1) % U32
            let bf_r ← alloc .stack (malloc 8 : Mem (BF 256))
            let i : Nat := 0
            let e14 : Nat ← cwhile
                (fun _s2 =>
                  let i : Nat := _s2
                  decide (i < 8))
                (fun _s2 => do
                  let i : Nat := _s2
                  let e15 ← cshr 32 r.toNat i
                  let e16 ← F.f256.mul_bit bf_mkey_times_delta (BitVec.ofNat 8 (e15 &&& 1))
                  st bf_r i e16
                  let e17 : BF 256 ← ld bf_x_tilde i
                  let e18 : BF 256 ← ld bf_r i
                  let e19 ← F.f256.add e17 e18
                  st bf_x_tilde i e19
                  let i : Nat := (i + 1) % U32
                  pure i)
                i
            cfree .stack bf_r
            pure ircon)
          else (do
            pure ircon))
        let ircon : Nat := e12
        let i : Nat := 0
        let e20 : Nat ← cwhile
            (fun _s2 =>
              let i : Nat := _s2
              decide (i < 8))
            (fun _s2 => do
              let i : Nat := _s2
              let e21 : BF 256 ← ld bf_x_tilde (((i + 7) % U32) % 8)
              let e22 : BF 256 ← ld bf_x_tilde (((i + 5) % U32) % 8)
              let e23 ← F.f256.add e21 e22
              let e24 : BF 256 ← ld bf_x_tilde (((i + 2) % U32) % 8)
              let e25 ← F.f256.add e23 e24
              st bf_out ((i + ((8 * j) % U32)) % U32) e25
              let i : Nat := (i + 1) % U32
              pure i)
            i
        let e26 : BF 256 ← ld bf_out ((0 + ((8 * j) % U32)) % U32)
        let e27 ← F.f256.mul_bit bf_mkey_times_delta minus_mtag
        let e28 ← F.f256.add e26 e27
        st bf_out ((0 + ((8 * j) % U32)) % U32) e28
        let e29 : BF 256 ← ld bf_out ((2 + ((8 * j) % U32)) % U32)
        let e30 ← F.f256.mul_bit bf_mkey_times_delta minus_mtag
        let e31 ← F.f256.add e29 e30
        st bf_out ((2 + ((8 * j) % U32)) % U32) e31
        let c : Nat := (c + 1) % U32
        let e32 : Nat × Nat × Bool ← (
          if c = 4 then (do
            let c : Nat := 0
            let iwd : Nat := (iwd + 128) % U32
            let rmvRcon : Bool := decide (¬ (rmvRcon = true))
            pure (iwd, c, rmvRcon))
          else (do
            pure (iwd, c, rmvRcon)))
        let iwd : Nat := e32.1
        let c : Nat := e32.2.1
        let rmvRcon : Bool := e32.2.2
        cfree .stack bf_x_tilde
        let j : Nat := (j + 1) % U32
        pure (iwd, c, rmvRcon, ircon, j))
      (iwd, c, rmvRcon, ircon, j)
  let iwd : Nat := e7.1
  let c : Nat := e7.2.1
  let rmvRcon : Bool := e7.2.2.1
  let ircon : Nat := e7.2.2.2.1
  pure ()

/-- faest_aes.c:1243-1299 `aes_key_schedule_constraints_Mkey_0_256`. -/
def aes_key_schedule_constraints_Mkey_0_256 (F : FImpl) (w : CPtr) (v : CPtr) (a0_ctx : ZkC 256)
    (a1_ctx : ZkC 256) (k : CPtr) (vk : CPtr) (params : Params) : CM (ZkC 256 × ZkC 256) := do
  cassert (decide (52 = params.Ske))
  aes_key_schedule_forward_1 w k params
  aes_key_schedule_forward_256 F v vk
  let w_dash ← alloc .stack (malloc 52 : Mem Byte)
  aes_key_schedule_backward_1 F (padd w 32) k w_dash params
  let v_w_dash ← alloc .stack (malloc 416 : Mem (BF 256))
  aes_key_schedule_backward_256 F (padd v 256) vk (1 : Byte) (0 : Byte) (none : CPtr) v_w_dash
  let rotate_word : Bool := true
  let iwd : Nat := 224
  let j : Nat := 0
  let e1 : ZkC 256 × ZkC 256 × Bool × Nat × Nat ← cwhile
      (fun _s1 =>
        let j : Nat := _s1.2.2.2.2
        decide (j < 13))
      (fun _s1 => do
        let a0_ctx : ZkC 256 := _s1.1
        let a1_ctx : ZkC 256 := _s1.2.1
        let rotate_word : Bool := _s1.2.2.1
        let iwd : Nat := _s1.2.2.2.1
        let j : Nat := _s1.2.2.2.2
        let bf_k_hat ← alloc .stack (malloc 4 : Mem (BF 256))
        let bf_v_k_hat ← alloc .stack (malloc 4 : Mem (BF 256))
        let bf_w_dash_hat ← alloc .stack (malloc 4 : Mem (BF 256))
        let bf_v_w_dash_hat ← alloc .stack (malloc 4 : Mem (BF 256))
        let r : Nat := 0
        let e2 : Nat ← cwhile
            (fun _s2 =>
              let r : Nat := _s2
              decide (r ≤ 3))
            (fun _s2 => do
              let r : Nat := _s2
              let e3 : Unit ← (
                if rotate_word = true then (do
                  let e4 : Byte ← ld k (((iwd + ((8 * r) % U32)) % U32) / 8)
                  let e5 ← F.f256.byte_combine_bits e4
                  st bf_k_hat (((r + 3) % U32) % 4) e5
                  let e6 ← F.f256.byte_combine (padd vk ((iwd + ((8 * r) % U32)) % U32))
                  st bf_v_k_hat (((r + 3) % U32) % 4) e6
                  let e7 : Byte ← ld w_dash (((((32 * j) % U32) + ((8 * r) % U32)) % U32) / 8)
                  let e8 ← F.f256.byte_combine_bits e7
                  st bf_w_dash_hat r e8
                  let e9 ← F.f256.byte_combine (padd v_w_dash ((((32 * j) % U32) + ((8 * r) % U32)) % U32))
                  st bf_v_w_dash_hat r e9
                  pure ())
                else (do
                  let e10 : Byte ← ld k (((iwd + ((8 * r) % U32)) % U32) / 8)
                  let e11 ← F.f256.byte_combine_bits e10
                  st bf_k_hat r e11
                  let e12 ← F.f256.byte_combine (padd vk ((iwd + ((8 * r) % U32)) % U32))
                  st bf_v_k_hat r e12
                  let e13 : Byte ← ld w_dash (((((32 * j) % U32) + ((8 * r) % U32)) % U32) / 8)
                  let e14 ← F.f256.byte_combine_bits e13
                  st bf_w_dash_hat r e14
                  let e15 ← F.f256.byte_combine (padd v_w_dash ((((32 * j) % U32) + ((8 * r) % U32)) % U32))
                  st bf_v_w_dash_hat r e15
                  pure ()))
              let r : Nat := (r + 1) % U32
              pure r)
            r
        let r : Nat := 0
        let e16 : ZkC 256 × ZkC 256 × Nat ← cwhile
            (fun _s2 =>
              let r : Nat := _s2.2.2
              decide (r ≤ 3))
            (fun _s2 => do
              let a0_ctx : ZkC 256 := _s2.1
              let a1_ctx : ZkC 256 := _s2.2.1
              let r : Nat := _s2.2.2
              let e17 : BF 256 ← ld bf_v_k_hat r
              let e18 : BF 256 ← ld bf_v_w_dash_hat r
              let e19 ← F.f256.mul e17 e18
              let tmp : BF 256 := e19
              let e20 ← zk_hash_256_update F a0_ctx tmp
              let a0_ctx := e20
              let e21 : BF 256 ← ld bf_k_hat r
              let e22 : BF 256 ← ld bf_v_k_hat r
              let e23 ← F.f256.add e21 e22
              let e24 : BF 256 ← ld bf_w_dash_hat r
              let e25 : BF 256 ← ld bf_v_w_dash_hat r
              let e26 ← F.f256.add e24 e25
              let e27 ← F.f256.mul e23 e26
              let e28 ← F.f256.one
              let e29 ← F.f256.add e27 e28
              let e30 ← F.f256.add e29 tmp
              let e31 ← zk_hash_256_update F a1_ctx e30
              let a1_ctx := e31
              let r : Nat := (r + 1) % U32
              pure (a0_ctx, a1_ctx, r))
            (a0_ctx, a1_ctx, r)
        let a0_ctx : ZkC 256 := e16.1
        let a1_ctx : ZkC 256 := e16.2.1
        let iwd : Nat := (iwd + 128) % U32
        let rotate_word : Bool := decide (¬ (rotate_word = true))
        cfree .stack bf_v_w_dash_hat
        cfree .stack bf_w_dash_hat
        cfree .stack bf_v_k_hat
        cfree .stack bf_k_hat
        let j : Nat := (j + 1) % U32
        pure (a0_ctx, a1_ctx, rotate_word, iwd, j))
      (a0_ctx, a1_ctx, rotate_word, iwd, j)
  let a0_ctx : ZkC 256 := e1.1
  let a1_ctx : ZkC 256 := e1.2.1
  let rotate_word : Bool := e1.2.2.1
  let iwd : Nat := e1.2.2.2.1
  cfree .stack v_w_dash
  cfree .stack w_dash
  pure (a0_ctx, a1_ctx)

/-- faest_aes.c:1301-1335 `aes_key_schedule_constraints_Mkey_1_256`. -/
def aes_key_schedule_constraints_Mkey_1_256 (F : FImpl) (q : CPtr) (delta : CPtr) (b0_ctx : ZkC 256) (qk : CPtr) : CM (ZkC 256) := do
  aes_key_schedule_forward_256 F q qk
  let q_w_dash ← alloc .stack (malloc 416 : Mem (BF 256))
  aes_key_schedule_backward_256 F (padd q 256) qk (0 : Byte) (1 : Byte) delta q_w_dash
  let e1 ← F.f256.load delta
  let bf_delta : BF 256 := e1
  let e2 ← F.f256.mul bf_delta bf_delta
  let bf_delta_squared : BF 256 := e2
  let rotate_word : Bool := true
  let iwd : Nat := 224
  let j : Nat := 0
  let e3 : ZkC 256 × Bool × Nat × Nat ← cwhile
      (fun _s1 =>
        let j : Nat := _s1.2.2.2
        decide (j < 13))
      (fun _s1 => do
        let b0_ctx : ZkC 256 := _s1.1
        let rotate_word : Bool := _s1.2.1
        let iwd : Nat := _s1.2.2.1
        let j : Nat := _s1.2.2.2
        let bf_q_hat_k ← alloc .stack (malloc 4 : Mem (BF 256))
        let bf_q_hat_w_dash ← alloc .stack (malloc 4 : Mem (BF 256))
        let r : Nat := 0
        let e4 : Nat ← cwhile
            (fun _s2 =>
              let r : Nat := _s2
              decide (r ≤ 3))
            (fun _s2 => do
              let r : Nat := _s2
              let e5 : Unit ← (
                if rotate_word = true then (do
                  let e6 ← F.f256.byte_combine (padd qk ((iwd + ((8 * r) % U32)) % U32))
                  st bf_q_hat_k (((r + 3) % U32) % 4) e6
                  let e7 ← F.f256.byte_combine (padd q_w_dash ((((32 * j) % U32) + ((8 * r) % U32)) % U32))
                  st bf_q_hat_w_dash r e7
                  pure ())
                else (do
                  let e8 ← F.f256.byte_combine (padd qk ((iwd + ((8 * r) % U32)) % U32))
                  st bf_q_hat_k r e8
                  let e9 ← F.f256.byte_combine (padd q_w_dash ((((32 * j) % U32) + ((8 * r) % U32)) % U32))
                  st bf_q_hat_w_dash r e9
                  pure ()))
              let r : Nat := (r + 1) % U32
              pure r)
            r
        let r : Nat := 0
        let e10 : ZkC 256 × Nat ← cwhile
            (fun _s2 =>
              let r : Nat := _s2.2
              decide (r ≤ 3))
            (fun _s2 => do
              let b0_ctx : ZkC 256 := _s2.1
              let r : Nat := _s2.2
              let e11 : BF 256 ← ld bf_q_hat_k r
              let e12 : BF 256 ← ld bf_q_hat_w_dash r
              let e13 ← F.f256.mul e11 e12
              let bf_tmp : BF 256 := e13
              let e14 ← F.f256.add bf_tmp bf_delta_squared
              let e15 ← zk_hash_256_update F b0_ctx e14
              let b0_ctx := e15
              let r : Nat := (r + 1) % U32
              pure (b0_ctx, r))
            (b0_ctx, r)
        let b0_ctx : ZkC 256 := e10.1
        let iwd : Nat := (iwd + 128) % U32
        let rotate_word : Bool := decide (¬ (rotate_word = true))
        cfree .stack bf_q_hat_w_dash
        cfree .stack bf_q_hat_k
        let j : Nat := (j + 1) % U32
        pure (b0_ctx, rotate_word, iwd, j))
      (b0_ctx, rotate_word, iwd, j)
  let b0_ctx : ZkC 256 := e3.1
  let rotate_word : Bool := e3.2.1
  let iwd : Nat := e3.2.2.1
  cfree .stack q_w_dash
  pure b0_ctx

/-- faest_aes.c:1337-1389 `aes_enc_forward_256_1`. -/
def aes_enc_forward_256_1 (F : FImpl) (x : CPtr) (xk : CPtr) (in_ : CPtr) (Mtag : Byte) (Mkey : Byte)
    (bf_y : CPtr) : CM Unit := do
  let i : Nat := 0
  let e1 : Nat ← cwhile
      (fun _s1 =>
        let i : Nat := _s1
        decide (i < 16))
      (fun _s1 => do
        let i : Nat := _s1
        let e2 : Byte ← ld in_ i
        let xin : Byte := BitVec.ofNat 8 (e2.toNat &&& ((U32 - ((1 ^^^ Mtag.toNat) &&& (1 ^^^ Mkey.toNat))) % U32))
        let e3 ← F.f256.byte_combine_bits xin
        let e4 : Byte ← ld xk i
        let e5 ← F.f256.byte_combine_bits e4
        let e6 ← F.f256.add e3 e5
        st bf_y i e6
        let i : Nat := (i + 1) % U32
        pure i)
      i
  let e7 ← F.f256.byte_combine_bits (2 : Byte)
  let bf_two : BF 256 := e7
  let e8 ← F.f256.byte_combine_bits (3 : Byte)
  let bf_three : BF 256 := e8
  let j : Nat := 1
  let e9 : Nat ← cwhile
      (fun _s1 =>
        let j : Nat := _s1
        decide (j < 14))
      (fun _s1 => do
        let j : Nat := _s1
        let c : Nat := 0
        let e10 : Nat ← cwhile
            (fun _s2 =>
              let c : Nat := _s2
              decide (c ≤ 3))
            (fun _s2 => do
              let c : Nat := _s2
              let ix : Nat := (((128 * ((j + U32 - 1) % U32)) % U32) + ((32 * c) % U32)) % U32
              let ik : Nat := (((128 * j) % U32) + ((32 * c) % U32)) % U32
              let iy : Nat := (((16 * j) % U32) + ((4 * c) % U32)) % U32
              let bf_x_hat ← alloc .stack (malloc 4 : Mem (BF 256))
              let bf_xk_hat ← alloc .stack (malloc 4 : Mem (BF 256))
              let r : Nat := 0
              let e11 : Nat ← cwhile
                  (fun _s3 =>
                    let r : Nat := _s3
                    decide (r ≤ 3))
                  (fun _s3 => do
                    let r : Nat := _s3
                    let e12 : Byte ← ld x (((ix + ((8 * r) % U32)) % U32) / 8)
                    let e13 ← F.f256.byte_combine_bits e12
                    st bf_x_hat r e13
                    let e14 : Byte ← ld xk (((ik + ((8 * r) % U32)) % U32) / 8)
                    let e15 ← F.f256.byte_combine_bits e14
                    st bf_xk_hat r e15
                    let r : Nat := (r + 1) % U32
                    pure r)
                  r
              let e16 : BF 256 ← ld bf_xk_hat 0
              let e17 : BF 256 ← ld bf_x_hat 0
              let e18 ← F.f256.mul e17 bf_two
              let e19 ← F.f256.add e16 e18
              st bf_y ((iy + 0) % U32) e19
              let e20 : BF 256 ← ld bf_y ((iy + 0) % U32)
              let e21 : BF 256 ← ld bf_x_hat 1
              let e22 ← F.f256.mul e21 bf_three
              let e23 ← F.f256.add e20 e22
              st bf_y ((iy + 0) % U32) e23
              let e24 : BF 256 ← ld bf_y ((iy + 0) % U32)
              let e25 : BF 256 ← ld bf_x_hat 2
              let e26 ← F.f256.add e24 e25
              st bf_y ((iy + 0) % U32) e26
              let e27 : BF 256 ← ld bf_y ((iy + 0) % U32)
              let e28 : BF 256 ← ld bf_x_hat 3
              let e29 ← F.f256.add e27 e28
              st bf_y ((iy + 0) % U32) e29
              let e30 : BF 256 ← ld bf_xk_hat 1
              let e31 : BF 256 ← ld bf_x_hat 0
              let e32 ← F.f256.add e30 e31
              st bf_y ((iy + 1) % U32) e32
              let e33 : BF 256 ← ld bf_y ((iy + 1) % U32)
              let e34 : BF 256 ← ld bf_x_hat 1
              let e35 ← F.f256.mul e34 bf_two
              let e36 ← F.f256.add e33 e35
              st bf_y ((iy + 1) % U32) e36
              let e37 : BF 256 ← ld bf_y ((iy + 1) % U32)
              let e38 : BF 256 ← ld bf_x_hat 2
              let e39 ← F.f256.mul e38 bf_three
              let e40 ← F.f256.add e37 e39
              st bf_y ((iy + 1) % U32) e40
              let e41 : BF 256 ← ld bf_y ((iy + 1) % U32)
              let e42 : BF 256 ← ld bf_x_hat 3
              let e43 ← F.f256.add e41 e42
              st bf_y ((iy + 1) % U32) e43
              let e44 : BF 256 ← ld bf_xk_hat 2
              let e45 : BF 256 ← ld bf_x_hat 0
              let e46 ← F.f256.add e44 e45
              st bf_y ((iy + 2) % U32) e46
              let e47 : BF 256 ← ld bf_y ((iy + 2) % U32)
              let e48 : BF 256 ← ld bf_x_hat 1
              let e49 ← F.f256.add e47 e48
              st bf_y ((iy + 2) % U32) e49
              let e50 : BF 256 ← ld bf_y ((iy + 2) % U32)
              let e51 : BF 256 ← ld bf_x_hat 2
              let e52 ← F.f256.mul e51 bf_two
              let e53 ← F.f256.add e50 e52
              st bf_y ((iy + 2) % U32) e53
              let e54 : BF 256 ← ld bf_y ((iy + 2) % U32)
              let e55 : BF 256 ← ld bf_x_hat 3
              let e56 ← F.f256.mul e55 bf_three
              let e57 ← F.f256.add e54 e56
              st bf_y ((iy + 2) % U32) e57
              let e58 : BF 256 ← ld bf_xk_hat 3
              let e59 : BF 256 ← ld bf_x_hat 0
              let e60 ← F.f256.mul e59 bf_three
              let e61 ← F.f256.add e58 e60
              st bf_y ((iy + 3) % U32) e61
              let e62 : BF 256 ← ld bf_y ((iy + 3) % U32)
              let e63 : BF 256 ← ld bf_x_hat 1
              let e64 ← F.f256.add e62 e63
              st bf_y ((iy + 3) % U32) e64
              let e65 : BF 256 ← ld bf_y ((iy + 3) % U32)
              let e66 : BF 256 ← ld bf_x_hat 2
              let e67 ← F.f256.add e65 e66
              st bf_y ((iy + 3) % U32) e67
              let e68 : BF 256 ← ld bf_y ((iy + 3) % U32)
              let e69 : BF 256 ← ld bf_x_hat 3
              let e70 ← F.f256.mul e69 bf_two
              let e71 ← F.f256.add e68 e70
              st bf_y ((iy + 3) % U32) e71
              cfree .stack bf_xk_hat
              cfree .stack bf_x_hat
              let c : Nat := (c + 1) % U32
              pure c)
            c
        let j : Nat := (j + 1) % U32
        pure j)
      j
  pure ()

/-- faest_aes.c:1391-1448 `aes_enc_forward_256`. -/
def aes_enc_forward_256 (F : FImpl) (bf_x : CPtr) (bf_xk : CPtr) (in_ : CPtr) (Mtag : Byte) (Mkey : Byte)
    (delta : CPtr) (bf_y : CPtr) : CM Unit := do
  let e3 ← (if delta.isSome = true then (do
      let e1 ← F.f256.load delta
      pure e1)
    else (do
      let e2 ← F.f256.zero
      pure e2))
  let bf_delta : BF 256 := e3
  let e4 ← F.f256.mul_bit bf_delta Mkey
  let e5 ← F.f256.from_bit (BitVec.ofNat 8 (1 ^^^ Mkey.toNat))
  let e6 ← F.f256.add e4 e5
  let bf_factor : BF 256 := e6
  let i : Nat := 0
  let e7 : Nat ← cwhile
      (fun _s1 =>
        let i : Nat := _s1
        decide (i < 16))
      (fun _s1 => do
        let i : Nat := _s1
        let bf_xin ← alloc .stack (malloc 8 : Mem (BF 256))
        let j : Nat := 0
        let e8 : Nat ← cwhile
            (fun _s2 =>
              let j : Nat := _s2
              decide (j < 8))
            (fun _s2 => do
              let j : Nat := _s2
              let e9 : Byte ← ld in_ i
              let e10 ← cshr 32 e9.toNat j
              let e11 ← F.f256.mul_bit bf_factor (BitVec.ofNat 8 ((1 ^^^ Mtag.toNat) &&& (e10 &&& 1)))
              st bf_xin j e11
              let j : Nat := (j + 1) % U32
              pure j)
            j
        let e12 ← F.f256.byte_combine bf_xin
        let e13 ← F.f256.byte_combine (padd bf_xk ((8 * i) % U32))
        let e14 ← F.f256.add e12 e13
        st bf_y i e14
        cfree .stack bf_xin
        let i : Nat := (i + 1) % U32
        pure i)
      i
  let e15 ← F.f256.byte_combine_bits (2 : Byte)
  let bf_two : BF 256 := e15
  let e16 ← F.f256.byte_combine_bits (3 : Byte)
  let bf_three : BF 256 := e16
  let j : Nat := 1
  let e17 : Nat ← cwhile
      (fun _s1 =>
        let j : Nat := _s1
        decide (j < 14))
      (fun _s1 => do
        let j : Nat := _s1
        let c : Nat := 0
        let e18 : Nat ← cwhile
            (fun _s2 =>
              let c : Nat := _s2
              decide (c ≤ 3))
            (fun _s2 => do
              let c : Nat := _s2
              let ix : Nat := (((128 * ((j + U32 - 1) % U32)) % U32) + ((32 * c) % U32)) % U32
              let ik : Nat := (((128 * j) % U32) + ((32 * c) % U32)) % U32
              let iy : Nat := (((16 * j) % U32) + ((4 * c) % U32)) % U32
              let bf_x_hat ← alloc .stack (malloc 4 : Mem (BF 256))
              let bf_xk_hat ← alloc .stack (malloc 4 : Mem (BF 256))
              let r : Nat := 0
              let e19 : Nat ← cwhile
                  (fun _s3 =>
                    let r : Nat := _s3
                    decide (r ≤ 3))
                  (fun _s3 => do
                    let r : Nat := _s3
                    let e20 ← F.f256.byte_combine (padd bf_x ((ix + ((8 * r) % U32)) % U32))
                    st bf_x_hat r e20
                    let e21 ← F.f256.byte_combine (padd bf_xk ((ik + ((8 * r) % U32)) % U32))
                    st bf_xk_hat r e21
                    let r : Nat := (r + 1) % U32
                    pure r)
                  r
              let e22 : BF 256 ← ld bf_xk_hat 0
              let e23 : BF 256 ← ld bf_x_hat 0
              let e24 ← F.f256.mul e23 bf_two
              let e25 ← F.f256.add e22 e24
              st bf_y ((iy + 0) % U32) e25
              let e26 : BF 256 ← ld bf_y ((iy + 0) % U32)
              let e27 : BF 256 ← ld bf_x_hat 1
              let e28 ← F.f256.mul e27 bf_three
              let e29 ← F.f256.add e26 e28
              st bf_y ((iy + 0) % U32) e29
              let e30 : BF 256 ← ld bf_y ((iy + 0) % U32)
              let e31 : BF 256 ← ld bf_x_hat 2
              let e32 ← F.f256.add e30 e31
              st bf_y ((iy + 0) % U32) e32
              let e33 : BF 256 ← ld bf_y ((iy + 0) % U32)
              let e34 : BF 256 ← ld bf_x_hat 3
              let e35 ← F.f256.add e33 e34
              st bf_y ((iy + 0) % U32) e35
              let e36 : BF 256 ← ld bf_xk_hat 1
              let e37 : BF 256 ← ld bf_x_hat 0
              let e38 ← F.f256.add e36 e37
              st bf_y ((iy + 1) % U32) e38
              let e39 : BF 256 ← ld bf_y ((iy + 1) % U32)
              let e40 : BF 256 ← ld bf_x_hat 1
              let e41 ← F.f256.mul e40 bf_two
              let e42 ← F.f256.add e39 e41
              st bf_y ((iy + 1) % U32) e42
              let e43 : BF 256 ← ld bf_y ((iy + 1) % U32)
              let e44 : BF 256 ← ld bf_x_hat 2
              let e45 ← F.f256.mul e44 bf_three
              let e46 ← F.f256.add e43 e45
              st bf_y ((iy + 1) % U32) e46
              let e47 : BF 256 ← ld bf_y ((iy + 1) % U32)
              let e48 : BF 256 ← ld bf_x_hat 3
              let e49 ← F.f256.add e47 e48
              st bf_y ((iy + 1) % U32) e49
              let e50 : BF 256 ← ld bf_xk_hat 2
              let e51 : BF 256 ← ld bf_x_hat 0
              let e52 ← F.f256.add e50 e51
              st bf_y ((iy + 2) % U32) e52
              let e53 : BF 256 ← ld bf_y ((iy + 2) % U32)
              let e54 : BF 256 ← ld bf_x_hat 1
              let e55 ← F.f256.add e53 e54
              st bf_y ((iy + 2) % U32) e55
              let e56 : BF 256 ← ld bf_y ((iy + 2) % U32)
              let e57 : BF 256 ← ld bf_x_hat 2
              let e58 ← F.f256.mul e57 bf_two
              let e59 ← F.f256.add e56 e58
              st bf_y ((iy + 2) % U32) e59
              let e60 : BF 256 ← ld bf_y ((iy + 2) % U32)
              let e61 : BF 256 ← ld bf_x_hat 3
              let e62 ← F.f256.mul e61 bf_three
              let e63 ← F.f256.add e60 e62
              st bf_y ((iy + 2) % U32) e63
              let e64 : BF 256 ← ld bf_xk_hat 3
              let e65 : BF 256 ← ld bf_x_hat 0
              let e66 ← F.f256.mul e65 bf_three
              let e67 ← F.f256.add e64 e66
              st bf_y ((iy + 3) % U32) e67
              let e68 : BF 256 ← ld bf_y ((iy + 3) % U32)
              let e69 : BF 256 ← ld bf_x_hat 1
              let e70 ← F.f256.add e68 e69
              st bf_y ((iy + 3) % U32) e70
              let e71 : BF 256 ← ld bf_y ((iy + 3) % U32)
              let e72 : BF 256 ← ld bf_x_hat 2
              let e73 ← F.f256.add e71 e72
              st bf_y ((iy + 3) % U32) e73
              let e74 : BF 256 ← ld bf_y ((iy + 3) % U32)
              let e75 : BF 256 ← ld bf_x_hat 3
              let e76 ← F.f256.mul e75 bf_two
              let e77 ← F.f256.add e74 e76
              st bf_y ((iy + 3) % U32) e77
              cfree .stack bf_xk_hat
              cfree .stack bf_x_hat
              let c : Nat := (c + 1) % U32
              pure c)
            c
        let j : Nat := (j + 1) % U32
        pure j)
      j
  pure ()

/-- faest_aes.c:1450-1478 `aes_enc_backward_256_1`. -/
def aes_enc_backward_256_1 (F : FImpl) (x : CPtr) (xk : CPtr) (Mtag : Byte) (Mkey : Byte) (out : CPtr)
    (y_out : CPtr) : CM Unit := do
  let j : Nat := 0
  let e1 : Nat ← cwhile
      (fun _s1 =>
        let j : Nat := _s1
        decide (j < 14))
      (fun _s1 => do
        let j : Nat := _s1
        let c : Nat := 0
        let e2 : Nat ← cwhile
            (fun _s2 =>
              let c : Nat := _s2
              decide (c ≤ 3))
            (fun _s2 => do
              let c : Nat := _s2
              let r : Nat := 0
              let e3 : Nat ← cwhile
                  (fun _s3 =>
                    let r : Nat := _s3
                    decide (r ≤ 3))
                  (fun _s3 => do
                    let r : Nat := _s3
                    let ird : Nat := (((((128 * j) % U32) + ((32 * (((((c + U32 - r) % U32) + 4) % U32) % 4)) % U32)) % U32) + ((8 * r) % U32)) % U32
                    let e4 : Byte ← (
                      if j < 13 then (do
                        let e5 : Byte ← ld x (ird / 8)
                        let xtilde : Byte := e5
                        pure xtilde)
                      else (do
                        let e6 : Byte ← ld out (((ird + U32 - 1664) % U32) / 8)
                        let xout : Byte := BitVec.ofNat 8 (e6.toNat &&& ((U32 - ((1 ^^^ Mtag.toNat) &&& (1 ^^^ Mkey.toNat))) % U32))
                        let e7 : Byte ← ld xk (((128 + ird) % U32) / 8)
                        let xtilde : Byte := BitVec.ofNat 8 (xout.toNat ^^^ e7.toNat)
                        pure xtilde))
                    let xtilde : Byte := e4
                    let e8 ← F.rotr8 xtilde 7
                    let e9 ← F.rotr8 xtilde 5
                    let e10 ← F.rotr8 xtilde 2
                    let ytilde : Byte := BitVec.ofNat 8 ((e8.toNat ^^^ e9.toNat) ^^^ e10.toNat)
                    let ytilde : Byte := BitVec.ofNat 8 (ytilde.toNat ^^^ (((1 ^^^ Mtag.toNat) &&& (1 ^^^ Mkey.toNat)) <<< 0))
                    let ytilde : Byte := BitVec.ofNat 8 (ytilde.toNat ^^^ (((1 ^^^ Mtag.toNat) &&& (1 ^^^ Mkey.toNat)) <<< 2))
                    let e11 ← F.f256.byte_combine_bits ytilde
                    st y_out ((((((16 * j) % U32) + ((4 * c) % U32)) % U32) + r) % U32) e11
                    let r : Nat := (r + 1) % U32
                    pure r)
                  r
              let c : Nat := (c + 1) % U32
              pure c)
            c
        let j : Nat := (j + 1) % U32
        pure j)
      j
  pure ()

/-- faest_aes.c:1480-1523 `aes_enc_backward_256`. -/
def aes_enc_backward_256 (F : FImpl) (bf_x : CPtr) (bf_xk : CPtr) (Mtag : Byte) (Mkey : Byte) (delta : CPtr)
    (out : CPtr) (y_out : CPtr) : CM Unit := do
  let e3 ← (if delta.isSome = true then (do
      let e1 ← F.f256.load delta
      pure e1)
    else (do
      let e2 ← F.f256.zero
      pure e2))
  let bf_delta : BF 256 := e3
  let e4 ← F.f256.mul_bit bf_delta Mkey
  let e5 ← F.f256.from_bit (BitVec.ofNat 8 (1 ^^^ Mkey.toNat))
  let e6 ← F.f256.add e4 e5
  let e7 ← F.f256.mul_bit e6 (BitVec.ofNat 8 (1 ^^^ Mtag.toNat))
  let factor : BF 256 := e7
  let j : Nat := 0
  let e8 : Nat ← cwhile
      (fun _s1 =>
        let j : Nat := _s1
        decide (j < 14))
      (fun _s1 => do
        let j : Nat := _s1
        let c : Nat := 0
        let e9 : Nat ← cwhile
            (fun _s2 =>
              let c : Nat := _s2
              decide (c ≤ 3))
            (fun _s2 => do
              let c : Nat := _s2
              let r : Nat := 0
              let e10 : Nat ← cwhile
                  (fun _s3 =>
                    let r : Nat := _s3
                    decide (r ≤ 3))
                  (fun _s3 => do
                    let r : Nat := _s3
                    let bf_x_tilde ← alloc .stack (malloc 8 : Mem (BF 256))
                    let ird : Nat := (((((128 * j) % U32) + ((32 * (((((c + U32 - r) % U32) + 4) % U32) % 4)) % U32)) % U32) + ((8 * r) % U32)) % U32
                    let e11 : Unit ← (
                      if j < 13 then (do
                        memcpy (α := BF 256) bf_x_tilde (padd bf_x ird) 8
                        pure ())
                      else (do
                        let i : Nat := 0
                        let e12 : Nat ← cwhile
                            (fun _s4 =>
                              let i : Nat := _s4
                              decide (i < 8))
                            (fun _s4 => do
                              let i : Nat := _s4
                              let e13 : Byte ← ld out (((ird + U32 - 1664) % U32) / 8)
                              let e14 ← cshr 32 e13.toNat i
                              let e15 ← F.f256.mul_bit factor (BitVec.ofNat 8 (e14 &&& 1))
                              let bf_xout : BF 256 := e15
                              let e16 : BF 256 ← ld bf_xk ((((128 + ird) % U32) + i) % U32)
                              let e17 ← F.f256.add bf_xout e16
                              st bf_x_tilde i e17
                              let i : Nat := (i + 1) % U32
                              pure i)
                            i
                        pure ()))
                    let bf_y_tilde ← alloc .stack (malloc 8 : Mem (BF 256))
                    let i : Nat := 0
                    let e18 : Nat ← cwhile
                        (fun _s4 =>
                          let i : Nat := _s4
                          decide (i < 8))
                        (fun _s4 => do
                          let i : Nat := _s4
                          let e19 : BF 256 ← ld bf_x_tilde (((i + 7) % U32) % 8)
                          let e20 : BF 256 ← ld bf_x_tilde (((i + 5) % U32) % 8)
                          let e21 ← F.f256.add e19 e20
                          let e22 : BF 256 ← ld bf_x_tilde (((i + 2) % U32) % 8)
                          let e23 ← F.f256.add e21 e22
                          st bf_y_tilde i e23
                          let i : Nat := (i + 1) % U32
                          pure i)
                        i
                    let e24 : BF 256 ← ld bf_y_tilde 0
                    let e25 ← F.f256.add e24 factor
                    st bf_y_tilde 0 e25
                    let e26 : BF 256 ← ld bf_y_tilde 2
                    let e27 ← F.f256.add e26 factor
                    st bf_y_tilde 2 e27
                    let e28 ← F.f256.byte_combine bf_y_tilde
                    st y_out ((((((16 * j) % U32) + ((4 * c) % U32)) % U32) + r) % U32) e28
                    cfree .stack bf_y_tilde
                    cfree .stack bf_x_tilde
                    let r : Nat := (r + 1) % U32
                    pure r)
                  r
              let c : Nat := (c + 1) % U32
              pure c)
            c
        let j : Nat := (j + 1) % U32
        pure j)
      j
  pure ()

/-- faest_aes.c:1525-1545 `aes_enc_constraints_Mkey_0_256`. -/
def aes_enc_constraints_Mkey_0_256 (F : FImpl) (in_ : CPtr) (out : CPtr) (w : CPtr) (v : CPtr) (k : CPtr)
    (vk : CPtr) (a0_ctx : ZkC 256) (a1_ctx : ZkC 256) : CM (ZkC 256 × ZkC 256) := do
  let s ← alloc .stack (malloc 224 : Mem (BF 256))
  let vs ← alloc .stack (malloc 224 : Mem (BF 256))
  let s_dash ← alloc .stack (malloc 224 : Mem (BF 256))
  let vs_dash ← alloc .stack (malloc 224 : Mem (BF 256))
  aes_enc_forward_256_1 F w k in_ (0 : Byte) (0 : Byte) s
  aes_enc_forward_256 F v vk in_ (1 : Byte) (0 : Byte) (none : CPtr) vs
  aes_enc_backward_256_1 F w k (0 : Byte) (0 : Byte) out s_dash
  aes_enc_backward_256 F v vk (1 : Byte) (0 : Byte) (none : CPtr) out vs_dash
  let j : Nat := 0
  let e1 : ZkC 256 × ZkC 256 × Nat ← cwhile
      (fun _s1 =>
        let j : Nat := _s1.2.2
        decide (j < 224))
      (fun _s1 => do
        let a0_ctx : ZkC 256 := _s1.1
        let a1_ctx : ZkC 256 := _s1.2.1
        let j : Nat := _s1.2.2
        let e2 : BF 256 ← ld vs j
        let e3 : BF 256 ← ld vs_dash j
        let e4 ← F.f256.mul e2 e3
        let tmp : BF 256 := e4
        let e5 ← zk_hash_256_update F a0_ctx tmp
        let a0_ctx := e5
        let e6 : BF 256 ← ld s j
        let e7 : BF 256 ← ld vs j
        let e8 ← F.f256.add e6 e7
        let e9 : BF 256 ← ld s_dash j
        let e10 : BF 256 ← ld vs_dash j
        let e11 ← F.f256.add e9 e10
        let e12 ← F.f256.mul e8 e11
        let e13 ← F.f256.add e12 tmp
        let e14 ← F.f256.one
        let e15 ← F.f256.add e13 e14
        let e16 ← zk_hash_256_update F a1_ctx e15
        let a1_ctx := e16
        let j : Nat := (j + 1) % U32
        pure (a0_ctx, a1_ctx, j))
      (a0_ctx, a1_ctx, j)
  let a0_ctx : ZkC 256 := e1.1
  let a1_ctx : ZkC 256 := e1.2.1
  cfree .stack vs_dash
  cfree .stack s_dash
  cfree .stack vs
  cfree .stack s
  pure (a0_ctx, a1_ctx)

/-- faest_aes.c:1547-1561 `aes_enc_constraints_Mkey_1_256`. -/
def aes_enc_constraints_Mkey_1_256 (F : FImpl) (in_ : CPtr) (out : CPtr) (q : CPtr) (qk : CPtr) (delta : CPtr)
    (b0_ctx : ZkC 256) : CM (ZkC 256) := do
  let qs ← alloc .stack (malloc 224 : Mem (BF 256))
  let qs_dash ← alloc .stack (malloc 224 : Mem (BF 256))
  aes_enc_forward_256 F q qk in_ (0 : Byte) (1 : Byte) delta qs
  aes_enc_backward_256 F q qk (0 : Byte) (1 : Byte) delta out qs_dash
  let e1 ← F.f256.load delta
  let e2 ← F.f256.load delta
  let e3 ← F.f256.mul e1 e2
  let minus_part : BF 256 := e3
  let j : Nat := 0
  let e4 : ZkC 256 × Nat ← cwhile
      (fun _s1 =>
        let j : Nat := _s1.2
        decide (j < 224))
      (fun _s1 => do
        let b0_ctx : ZkC 256 := _s1.1
        let j : Nat := _s1.2
        let e5 : BF 256 ← ld qs j
        let e6 : BF 256 ← ld qs_dash j
        let e7 ← F.f256.mul e5 e6
        let e8 ← F.f256.add e7 minus_part
        let e9 ← zk_hash_256_update F b0_ctx e8
        let b0_ctx := e9
        let j : Nat := (j + 1) % U32
        pure (b0_ctx, j))
      (b0_ctx, j)
  let b0_ctx : ZkC 256 := e4.1
  cfree .stack qs_dash
  cfree .stack qs
  pure b0_ctx

/-- faest_aes.c:1563-1599 `aes_prove_256`. -/
def aes_prove_256 (F : FImpl) (w : CPtr) (u : CPtr) (V : CPtr) (in_ : CPtr) (out : CPtr) (chall : CPtr)
    (a_tilde : CPtr) (b_tilde : CPtr) (params : Params) : CM Unit := do
  let e1 ← column_to_row_major_and_shrink_V_256 F V 4000
  let bf_v : CPtr := e1
  let e2 ← alloc .heap (malloc 240 : Mem Byte)
  let k : CPtr := e2
  let e3 ← alloc .aligned (malloc 1920 : Mem (BF 256))
  let vk : CPtr := e3
  let a0_ctx : ZkC 256 := {}
  let a1_ctx : ZkC 256 := {}
  let e4 ← zk_hash_256_init F a0_ctx chall
  let a0_ctx := e4
  let e5 ← zk_hash_256_init F a1_ctx chall
  let a1_ctx := e5
  let e6 ← aes_key_schedule_constraints_Mkey_0_256 F w bf_v a0_ctx a1_ctx k vk params
  let a0_ctx := e6.1
  let a1_ctx := e6.2
  let e7 ← aes_enc_constraints_Mkey_0_256 F in_ out (padd w 84) (padd bf_v 672) k vk a0_ctx a1_ctx
  let a0_ctx := e7.1
  let a1_ctx := e7.2
  let e8 ← aes_enc_constraints_Mkey_0_256 F (padd in_ 16) (padd out 16) (padd w 292) (padd (padd bf_v 672) 1664) k vk a0_ctx a1_ctx
  let a0_ctx := e8.1
  let a1_ctx := e8.2
  cfree .aligned vk
  cfree .heap k
  let e9 ← F.f256.load (padd u 500)
  let e10 ← zk_hash_256_finalize F a_tilde a1_ctx e9
  let a1_ctx := e10
  let e11 ← F.f256.sum_poly (padd bf_v 4000)
  let e12 ← zk_hash_256_finalize F b_tilde a0_ctx e11
  let a0_ctx := e12
  cfree .aligned bf_v
  pure ()

/-- faest_aes.c:1601-1653 `aes_verify_256`. -/
def aes_verify_256 (F : FImpl) (d : CPtr) (Q : CPtr) (chall_2 : CPtr) (chall_3 : CPtr) (a_tilde : CPtr)
    (in_ : CPtr) (out : CPtr) (params : Params) : CM CPtr := do
  let tau : Nat := params.tau
  let t0 : Nat := params.t0
  let k0 : Nat := params.k0
  let t1 : Nat := params.t1
  let k1 : Nat := params.k1
  let delta : CPtr := chall_3
  let i : Nat := 0
  let col : Nat := 0
  let e1 : Nat × Nat ← cwhile
      (fun _s1 =>
        let i : Nat := _s1.1
        decide (i < tau))
      (fun _s1 => do
        let i : Nat := _s1.1
        let col : Nat := _s1.2
        let depth : Nat := (if i < t0 then k0 else k1)
        let decoded_challenge ← alloc .stack (malloc 12 : Mem Byte)
        let e2 ← ChalDec chall_3 i k0 t0 k1 t1 decoded_challenge
        let j : Nat := 0
        let e3 : Nat × Nat ← cwhile
            (fun _s2 =>
              let j : Nat := _s2.2
              decide (j < depth))
            (fun _s2 => do
              let col : Nat := _s2.1
              let j : Nat := _s2.2
              let e4 : Byte ← ld decoded_challenge j
              let e5 : Unit ← (
                if e4.toNat = 1 then (do
                  let e6 : CPtr ← ld Q col
                  let e7 : CPtr ← ld Q col
                  xor_u8_array d e6 e7 500
                  pure ())
                else (do
                  pure ()))
              let j : Nat := (j + 1) % U32
              let col : Nat := (col + 1) % U32
              pure (col, j))
            (col, j)
        let col : Nat := e3.1
        cfree .stack decoded_challenge
        let i : Nat := (i + 1) % U32
        pure (i, col))
      (i, col)
  let e8 ← column_to_row_major_and_shrink_V_256 F Q 4000
  let bf_q : CPtr := e8
  let e9 ← alloc .aligned (malloc 1920 : Mem (BF 256))
  let qk : CPtr := e9
  let b0_ctx : ZkC 256 := {}
  let e10 ← zk_hash_256_init F b0_ctx chall_2
  let b0_ctx := e10
  let e11 ← aes_key_schedule_constraints_Mkey_1_256 F bf_q delta b0_ctx qk
  let b0_ctx := e11
  let e12 ← aes_enc_constraints_Mkey_1_256 F in_ out (padd bf_q 672) qk delta b0_ctx
  let b0_ctx := e12
  let e13 ← aes_enc_constraints_Mkey_1_256 F (padd in_ 16) (padd out 16) (padd (padd bf_q 672) 1664) qk delta b0_ctx
  let b0_ctx := e13
  cfree .aligned qk
  let e14 ← alloc .heap (malloc 32 : Mem Byte)
  let q_tilde : CPtr := e14
  let e15 ← F.f256.sum_poly (padd bf_q 4000)
  let e16 ← zk_hash_256_finalize F q_tilde b0_ctx e15
  let b0_ctx := e16
  cfree .aligned bf_q
  let e17 ← F.f256.load q_tilde
  let bf_qtilde : BF 256 := e17
  let e18 ← F.f256.load a_tilde
  let e19 ← F.f256.load delta
  let e20 ← F.f256.mul e18 e19
  let e21 ← F.f256.add bf_qtilde e20
  F.f256.store q_tilde e21
  pure q_tilde

/-- faest_aes.c:1657-1699 `em_enc_forward_128_1`. -/
def em_enc_forward_128_1 (F : FImpl) (z : CPtr) (x : CPtr) (bf_y : CPtr) : CM Unit := do
  let j : Nat := 0
  let e1 : Nat ← cwhile
      (fun _s1 =>
        let j : Nat := _s1
        decide (j < 16))
      (fun _s1 => do
        let j : Nat := _s1
        let e2 : Byte ← ld z j
        let e3 ← F.f128.byte_combine_bits e2
        let e4 : Byte ← ld x j
        let e5 ← F.f128.byte_combine_bits e4
        let e6 ← F.f128.add e3 e5
        st bf_y j e6
        let j : Nat := (j + 1) % U32
        pure j)
      j
  let e7 ← F.f128.byte_combine_bits (2 : Byte)
  let bf_two : BF 128 := e7
  let e8 ← F.f128.byte_combine_bits (3 : Byte)
  let bf_three : BF 128 := e8
  let j : Nat := 1
  let e9 : Nat ← cwhile
      (fun _s1 =>
        let j : Nat := _s1
        decide (j < 10))
      (fun _s1 => do
        let j : Nat := _s1
        let c : Nat := 0
        let e10 : Nat ← cwhile
            (fun _s2 =>
              let c : Nat := _s2
              decide (c < 4))
            (fun _s2 => do
              let c : Nat := _s2
              let i : Nat := (((128 * j) % U32) + ((32 * c) % U32)) % U32
              let iy : Nat := (((16 * j) % U32) + ((4 * c) % U32)) % U32
              let bf_x_hat ← alloc .stack (malloc 4 : Mem (BF 128))
              let bf_z_hat ← alloc .stack (malloc 4 : Mem (BF 128))
              let r : Nat := 0
              let e11 : Nat ← cwhile
                  (fun _s3 =>
                    let r : Nat := _s3
                    decide (r ≤ 3))
                  (fun _s3 => do
                    let r : Nat := _s3
                    let e12 : Byte ← ld z (((i + ((8 * r) % U32)) % U32) / 8)
                    let e13 ← F.f128.byte_combine_bits e12
                    st bf_z_hat r e13
                    let e14 : Byte ← ld x (((i + ((8 * r) % U32)) % U32) / 8)
                    let e15 ← F.f128.byte_combine_bits e14
                    st bf_x_hat r e15
                    let r : Nat := (r + 1) % U32
                    pure r)
                  r
              let e16 : BF 128 ← ld bf_z_hat 0
              let e17 ← F.f128.mul e16 bf_two
              let e18 : BF 128 ← ld bf_z_hat 1
              let e19 ← F.f128.mul e18 bf_three
              let e20 ← F.f128.add e17 e19
              st bf_y ((iy + 0) % U32) e20
              let e21 : BF 128 ← ld bf_y ((iy + 0) % U32)
              let e22 : BF 128 ← ld bf_z_hat 2
              let e23 ← F.f128.add e21 e22
              st bf_y ((iy + 0) % U32) e23
              let e24 : BF 128 ← ld bf_y ((iy + 0) % U32)
              let e25 : BF 128 ← ld bf_z_hat 3
              let e26 ← F.f128.add e24 e25
              st bf_y ((iy + 0) % U32) e26
              let e27 : BF 128 ← ld bf_y ((iy + 0) % U32)
              let e28 : BF 128 ← ld bf_x_hat 0
              let e29 ← F.f128.add e27 e28
              st bf_y ((iy + 0) % U32) e29
              let e30 : BF 128 ← ld bf_z_hat 0
              let e31 : BF 128 ← ld bf_z_hat 1
              let e32 ← F.f128.mul e31 bf_two
              let e33 ← F.f128.add e30 e32
              st bf_y ((iy + 1) % U32) e33
              let e34 : BF 128 ← ld bf_y ((iy + 1) % U32)
              let e35 : BF 128 ← ld bf_z_hat 2
              let e36 ← F.f128.mul e35 bf_three
              let e37 ← F.f128.add e34 e36
              st bf_y ((iy + 1) % U32) e37
              let e38 : BF 128 ← ld bf_y ((iy + 1) % U32)
              let e39 : BF 128 ← ld bf_z_hat 3
              let e40 ← F.f128.add e38 e39
              st bf_y ((iy + 1) % U32) e40
              let e41 : BF 128 ← ld bf_y ((iy + 1) % U32)
              let e42 : BF 128 ← ld bf_x_hat 1
              let e43 ← F.f128.add e41 e42
              st bf_y ((iy + 1) % U32) e43
              let e44 : BF 128 ← ld bf_z_hat 0
              let e45 : BF 128 ← ld bf_z_hat 1
              let e46 ← F.f128.add e44 e45
              st bf_y ((iy + 2) % U32) e46
              let e47 : BF 128 ← ld bf_y ((iy + 2) % U32)
              let e48 : BF 128 ← ld bf_z_hat 2
              let e49 ← F.f128.mul e48 bf_two
              let e50 ← F.f128.add e47 e49
              st bf_y ((iy + 2) % U32) e50
              let e51 : BF 128 ← ld bf_y ((iy + 2) % U32)
              let e52 : BF 128 ← ld bf_z_hat 3
              let e53 ← F.f128.mul e52 bf_three
              let e54 ← F.f128.add e51 e53
              st bf_y ((iy + 2) % U32) e54
              let e55 : BF 128 ← ld bf_y ((iy + 2) % U32)
              let e56 : BF 128 ← ld bf_x_hat 2
              let e57 ← F.f128.add e55 e56
              st bf_y ((iy + 2) % U32) e57
              let e58 : BF 128 ← ld bf_z_hat 0
              let e59 ← F.f128.mul e58 bf_three
              let e60 : BF 128 ← ld bf_z_hat 1
              let e61 ← F.f128.add e59 e60
              st bf_y ((iy + 3) % U32) e61
              let e62 : BF 128 ← ld bf_y ((iy + 3) % U32)
              let e63 : BF 128 ← ld bf_z_hat 2
              let e64 ← F.f128.add e62 e63
              st bf_y ((iy + 3) % U32) e64
              let e65 : BF 128 ← ld bf_y ((iy + 3) % U32)
              let e66 : BF 128 ← ld bf_z_hat 3
              let e67 ← F.f128.mul e66 bf_two
              let e68 ← F.f128.add e65 e67
              st bf_y ((iy + 3) % U32) e68
              let e69 : BF 128 ← ld bf_y ((iy + 3) % U32)
              let e70 : BF 128 ← ld bf_x_hat 3
              let e71 ← F.f128.add e69 e70
              st bf_y ((iy + 3) % U32) e71
              cfree .stack bf_z_hat
              cfree .stack bf_x_hat
              let c : Nat := (c + 1) % U32
              pure c)
            c
        let j : Nat := (j + 1) % U32
        pure j)
      j
  pure ()

/-- faest_aes.c:1701-1751 `em_enc_forward_128`. -/
def em_enc_forward_128 (F : FImpl) (bf_z : CPtr) (bf_x : CPtr) (bf_y : CPtr) : CM Unit := do
  let j : Nat := 0
  let e1 : Nat ← cwhile
      (fun _s1 =>
        let j : Nat := _s1
        decide (j < 16))
      (fun _s1 => do
        let j : Nat := _s1
        let e2 ← F.f128.byte_combine (padd bf_z ((8 * j) % U32))
        st bf_y j e2
        let e3 : Unit ← (
          if bf_x.isSome = true then (do
            let e4 : BF 128 ← ld bf_y j
            let e5 ← F.f128.byte_combine (padd bf_x ((8 * j) % U32))
            let e6 ← F.f128.add e4 e5
            st bf_y j e6
            pure ())
          else (do
            pure ()))
        let j : Nat := (j + 1) % U32
        pure j)
      j
  let e7 ← F.f128.byte_combine_bits (2 : Byte)
  let bf_two : BF 128 := e7
  let e8 ← F.f128.byte_combine_bits (3 : Byte)
  let bf_three : BF 128 := e8
  let j : Nat := 1
  let e9 : Nat ← cwhile
      (fun _s1 =>
        let j : Nat := _s1
        decide (j < 10))
      (fun _s1 => do
        let j : Nat := _s1
        let c : Nat := 0
        let e10 : Nat ← cwhile
            (fun _s2 =>
              let c : Nat := _s2
              decide (c < 4))
            (fun _s2 => do
              let c : Nat := _s2
              let i : Nat := (((128 * j) % U32) + ((32 * c) % U32)) % U32
              let iy : Nat := (((16 * j) % U32) + ((4 * c) % U32)) % U32
              let bf_x_hat ← alloc .stack (malloc 4 : Mem (BF 128))
              let bf_z_hat ← alloc .stack (malloc 4 : Mem (BF 128))
              let r : Nat := 0
              let e11 : Nat ← cwhile
                  (fun _s3 =>
                    let r : Nat := _s3
                    decide (r ≤ 3))
                  (fun _s3 => do
                    let r : Nat := _s3
                    let e12 ← F.f128.byte_combine (padd bf_z ((i + ((8 * r) % U32)) % U32))
                    st bf_z_hat r e12
                    let e13 : Unit ← (
                      if bf_x.isSome = true then (do
                        let e14 ← F.f128.byte_combine (padd bf_x ((i + ((8 * r) % U32)) % U32))
                        st bf_x_hat r e14
                        pure ())
                      else (do
                        let e15 ← F.f128.zero
                        st bf_x_hat r e15
                        pure ()))
                    let r : Nat := (r + 1) % U32
                    pure r)
                  r
              let e16 : BF 128 ← ld bf_z_hat 0
              let e17 ← F.f128.mul e16 bf_two
              let e18 : BF 128 ← ld bf_z_hat 1
              let e19 ← F.f128.mul e18 bf_three
              let e20 ← F.f128.add e17 e19
              st bf_y ((iy + 0) % U32) e20
              let e21 : BF 128 ← ld bf_y ((iy + 0) % U32)
              let e22 : BF 128 ← ld bf_z_hat 2
              let e23 ← F.f128.add e21 e22
              st bf_y ((iy + 0) % U32) e23
              let e24 : BF 128 ← ld bf_y ((iy + 0) % U32)
              let e25 : BF 128 ← ld bf_z_hat 3
              let e26 ← F.f128.add e24 e25
              st bf_y ((iy + 0) % U32) e26
              let e27 : BF 128 ← ld bf_y ((iy + 0) % U32)
              let e28 : BF 128 ← ld bf_x_hat 0
              let e29 ← F.f128.add e27 e28
              st bf_y ((iy + 0) % U32) e29
              let e30 : BF 128 ← ld bf_z_hat 0
              let e31 : BF 128 ← ld bf_z_hat 1
              let e32 ← F.f128.mul e31 bf_two
              let e33 ← F.f128.add e30 e32
              st bf_y ((iy + 1) % U32) e33
              let e34 : BF 128 ← ld bf_y ((iy + 1) % U32)
              let e35 : BF 128 ← ld bf_z_hat 2
              let e36 ← F.f128.mul e35 bf_three
              let e37 ← F.f128.add e34 e36
              st bf_y ((iy + 1) % U32) e37
              let e38 : BF 128 ← ld bf_y ((iy + 1) % U32)
              let e39 : BF 128 ← ld bf_z_hat 3
              let e40 ← F.f128.add e38 e39
              st bf_y ((iy + 1) % U32) e40
              let e41 : BF 128 ← ld bf_y ((iy + 1) % U32)
              let e42 : BF 128 ← ld bf_x_hat 1
              let e43 ← F.f128.add e41 e42
              st bf_y ((iy + 1) % U32) e43
              let e44 : BF 128 ← ld bf_z_hat 0
              let e45 : BF 128 ← ld bf_z_hat 1
              let e46 ← F.f128.add e44 e45
              st bf_y ((iy + 2) % U32) e46
              let e47 : BF 128 ← ld bf_y ((iy + 2) % U32)
              let e48 : BF 128 ← ld bf_z_hat 2
              let e49 ← F.f128.mul e48 bf_two
              let e50 ← F.f128.add e47 e49
              st bf_y ((iy + 2) % U32) e50
              let e51 : BF 128 ← ld bf_y ((iy + 2) % U32)
              let e52 : BF 128 ← ld bf_z_hat 3
              let e53 ← F.f128.mul e52 bf_three
              let e54 ← F.f128.add e51 e53
              st bf_y ((iy + 2) % U32) e54
              let e55 : BF 128 ← ld bf_y ((iy + 2) % U32)
              let e56 : BF 128 ← ld bf_x_hat 2
              let e57 ← F.f128.add e55 e56
              st bf_y ((iy + 2) % U32) e57
              let e58 : BF 128 ← ld bf_z_hat 0
              let e59 ← F.f128.mul e58 bf_three
              let e60 : BF 128 ← ld bf_z_hat 1
              let e61 ← F.f128.add e59 e60
              st bf_y ((iy + 3) % U32) e61
              let e62 : BF 128 ← ld bf_y ((iy + 3) % U32)
              let e63 : BF 128 ← ld bf_z_hat 2
              let e64 ← F.f128.add e62 e63
              st bf_y ((iy + 3) % U32) e64
              let e65 : BF 128 ← ld bf_y ((iy + 3) % U32)
              let e66 : BF 128 ← ld bf_z_hat 3
              let e67 ← F.f128.mul e66 bf_two
              let e68 ← F.f128.add e65 e67
              st bf_y ((iy + 3) % U32) e68
              let e69 : BF 128 ← ld bf_y ((iy + 3) % U32)
              let e70 : BF 128 ← ld bf_x_hat 3
              let e71 ← F.f128.add e69 e70
              st bf_y ((iy + 3) % U32) e71
              cfree .stack bf_z_hat
              cfree .stack bf_x_hat
              let c : Nat := (c + 1) % U32
              pure c)
            c
        let j : Nat := (j + 1) % U32
        pure j)
      j
  pure ()

/-- faest_aes.c:1753-1780 `em_enc_backward_128_1`. -/
def em_enc_backward_128_1 (F : FImpl) (z : CPtr) (x : CPtr) (z_out : CPtr) (y_out : CPtr) : CM Unit := do
  let j : Nat := 0
  let e1 : Nat ← cwhile
      (fun _s1 =>
        let j : Nat := _s1
        decide (j < 10))
      (fun _s1 => do
        let j : Nat := _s1
        let c : Nat := 0
        let e2 : Nat ← cwhile
            (fun _s2 =>
              let c : Nat := _s2
              decide (c < 4))
            (fun _s2 => do
              let c : Nat := _s2
              let r : Nat := 0
              let e3 : Nat ← cwhile
                  (fun _s3 =>
                    let r : Nat := _s3
                    decide (r ≤ 3))
                  (fun _s3 => do
                    let r : Nat := _s3
                    let icol : Nat := ((((c + U32 - r) % U32) + 4) % U32) % 4
                    let ird : Nat := (((((128 + ((128 * j) % U32)) % U32) + ((32 * icol) % U32)) % U32) + ((8 * r) % U32)) % U32
                    let z_tilde : Byte := (0 : Byte)
                    let e4 : Byte ← (
                      if j < 9 then (do
                        let e5 : Byte ← ld z (ird / 8)
                        let z_tilde : Byte := e5
                        pure z_tilde)
                      else (do
                        let e6 : Byte ← ld z_out (((ird + U32 - ((128 * ((j + 1) % U32)) % U32)) % U32) / 8)
                        let e7 : Byte ← ld x (ird / 8)
                        let z_tilde : Byte := BitVec.ofNat 8 (e6.toNat ^^^ e7.toNat)
                        pure z_tilde))
                    let z_tilde : Byte := e4
                    let e8 ← F.rotr8 z_tilde 7
                    let e9 ← F.rotr8 z_tilde 5
                    let e10 ← F.rotr8 z_tilde 2
                    let y_tilde : Byte := BitVec.ofNat 8 (((e8.toNat ^^^ e9.toNat) ^^^ e10.toNat) ^^^ 5)
                    let e11 ← F.f128.byte_combine_bits y_tilde
                    st y_out ((((((16 * j) % U32) + ((4 * c) % U32)) % U32) + r) % U32) e11
                    let r : Nat := (r + 1) % U32
                    pure r)
                  r
              let c : Nat := (c + 1) % U32
              pure c)
            c
        let j : Nat := (j + 1) % U32
        pure j)
      j
  pure ()

/-- faest_aes.c:1782-1822 `em_enc_backward_128`. -/
def em_enc_backward_128 (F : FImpl) (bf_z : CPtr) (bf_x : CPtr) (bf_z_out : CPtr) (Mtag : Byte) (Mkey : Byte)
    (delta : CPtr) (y_out : CPtr) : CM Unit := do
  let e3 ← (if delta.isSome = true then (do
      let e1 ← F.f128.load delta
      pure e1)
    else (do
      let e2 ← F.f128.zero
      pure e2))
  let bf_delta : BF 128 := e3
  let e4 ← F.f128.mul_bit bf_delta Mkey
  let e5 ← F.f128.from_bit (BitVec.ofNat 8 (1 ^^^ Mkey.toNat))
  let e6 ← F.f128.add e4 e5
  let e7 ← F.f128.mul_bit e6 (BitVec.ofNat 8 (1 ^^^ Mtag.toNat))
  let factor : BF 128 := e7
  let j : Nat := 0
  let e8 : Nat ← cwhile
      (fun _s1 =>
        let j : Nat := _s1
        decide (j < 10))
      (fun _s1 => do
        let j : Nat := _s1
        let c : Nat := 0
        let e9 : Nat ← cwhile
            (fun _s2 =>
              let c : Nat := _s2
              decide (c < 4))
            (fun _s2 => do
              let c : Nat := _s2
              let r : Nat := 0
              let e10 : Nat ← cwhile
                  (fun _s3 =>
                    let r : Nat := _s3
                    decide (r ≤ 3))
                  (fun _s3 => do
                    let r : Nat := _s3
                    let bf_z_tilde ← alloc .stack (malloc 8 : Mem (BF 128))
                    let icol : Nat := ((((c + U32 - r) % U32) + 4) % U32) % 4
                    let ird : Nat := (((((128 + ((128 * j) % U32)) % U32) + ((32 * icol) % U32)) % U32) + ((8 * r) % U32)) % U32
                    let e11 : Unit ← (
                      if j < 9 then (do
                        memcpy (α := BF 128) bf_z_tilde (padd bf_z ird) 8
                        pure ())
                      else (do
                        let i : Nat := 0
                        let e12 : Nat ← cwhile
                            (fun _s4 =>
                              let i : Nat := _s4
                              decide (i < 8))
                            (fun _s4 => do
                              let i : Nat := _s4
                              let e13 : BF 128 ← ld bf_z_out ((((ird + U32 - ((128 * ((j + 1) % U32)) % U32)) % U32) + i) % U32)
                              st bf_z_tilde i e13
                              let e14 : Unit ← (
                                if bf_x.isSome = true then (do
                                  let e15 : BF 128 ← ld bf_z_tilde i
                                  let e16 : BF 128 ← ld bf_x ((ird + i) % U32)
                                  let e17 ← F.f128.add e15 e16
                                  st bf_z_tilde i e17
                                  pure ())
                                else (do
                                  pure ()))
                              let i : Nat := (i + 1) % U32
                              pure i)
                            i
                        pure ()))
                    let bf_y_tilde ← alloc .stack (malloc 8 : Mem (BF 128))
                    let i : Nat := 0
                    let e18 : Nat ← cwhile
                        (fun _s4 =>
                          let i : Nat := _s4
                          decide (i < 8))
                        (fun _s4 => do
                          let i : Nat := _s4
                          let e19 : BF 128 ← ld bf_z_tilde (((i + 7) % U32) % 8)
                          let e20 : BF 128 ← ld bf_z_tilde (((i + 5) % U32) % 8)
                          let e21 ← F.f128.add e19 e20
                          let e22 : BF 128 ← ld bf_z_tilde (((i + 2) % U32) % 8)
                          let e23 ← F.f128.add e21 e22
                          st bf_y_tilde i e23
                          let i : Nat := (i + 1) % U32
                          pure i)
                        i
                    let e24 : BF 128 ← ld bf_y_tilde 0
                    let e25 ← F.f128.add e24 factor
                    st bf_y_tilde 0 e25
                    let e26 : BF 128 ← ld bf_y_tilde 2
                    let e27 ← F.f128.add e26 factor
                    st bf_y_tilde 2 e27
                    let e28 ← F.f128.byte_combine bf_y_tilde
                    st y_out ((((((16 * j) % U32) + ((4 * c) % U32)) % U32) + r) % U32) e28
                    cfree .stack bf_y_tilde
                    cfree .stack bf_z_tilde
                    let r : Nat := (r + 1) % U32
                    pure r)
                  r
              let c : Nat := (c + 1) % U32
              pure c)
            c
        let j : Nat := (j + 1) % U32
        pure j)
      j
  pure ()

/-- faest_aes.c:1824-1849 `em_enc_constraints_Mkey_0_128`. -/
def em_enc_constraints_Mkey_0_128 (F : FImpl) (out : CPtr) (x : CPtr) (w : CPtr) (bf_v : CPtr) (a0_ctx : ZkC 128)
    (a1_ctx : ZkC 128) : CM (ZkC 128 × ZkC 128) := do
  let w_out ← alloc .stack (malloc 16 : Mem Byte)
  xor_u8_array out w w_out 16
  let bf_s ← alloc .stack (malloc 160 : Mem (BF 128))
  let bf_vs ← alloc .stack (malloc 160 : Mem (BF 128))
  let bf_s_dash ← alloc .stack (malloc 160 : Mem (BF 128))
  let bf_vs_dash ← alloc .stack (malloc 160 : Mem (BF 128))
  em_enc_forward_128_1 F w x bf_s
  em_enc_forward_128 F bf_v (none : CPtr) bf_vs
  em_enc_backward_128_1 F w x w_out bf_s_dash
  em_enc_backward_128 F bf_v (none : CPtr) bf_v (1 : Byte) (0 : Byte) (none : CPtr) bf_vs_dash
  let j : Nat := 0
  let e1 : ZkC 128 × ZkC 128 × Nat ← cwhile
      (fun _s1 =>
        let j : Nat := _s1.2.2
        decide (j < 160))
      (fun _s1 => do
        let a0_ctx : ZkC 128 := _s1.1
        let a1_ctx : ZkC 128 := _s1.2.1
        let j : Nat := _s1.2.2
        let e2 : BF 128 ← ld bf_vs j
        let e3 : BF 128 ← ld bf_vs_dash j
        let e4 ← F.f128.mul e2 e3
        let tmp : BF 128 := e4
        let e5 ← zk_hash_128_update F a0_ctx tmp
        let a0_ctx := e5
        let e6 : BF 128 ← ld bf_s j
        let e7 : BF 128 ← ld bf_vs j
        let e8 ← F.f128.add e6 e7
        let e9 : BF 128 ← ld bf_s_dash j
        let e10 : BF 128 ← ld bf_vs_dash j
        let e11 ← F.f128.add e9 e10
        let e12 ← F.f128.mul e8 e11
        let e13 ← F.f128.add e12 tmp
        let e14 ← F.f128.one
        let e15 ← F.f128.add e13 e14
        let e16 ← zk_hash_128_update F a1_ctx e15
        let a1_ctx := e16
        let j : Nat := (j + 1) % U32
        pure (a0_ctx, a1_ctx, j))
      (a0_ctx, a1_ctx, j)
  let a0_ctx : ZkC 128 := e1.1
  let a1_ctx : ZkC 128 := e1.2.1
  cfree .stack bf_vs_dash
  cfree .stack bf_s_dash
  cfree .stack bf_vs
  cfree .stack bf_s
  cfree .stack w_out
  pure (a0_ctx, a1_ctx)

/-- faest_aes.c:1851-1879 `em_enc_constraints_Mkey_1_128`. -/
def em_enc_constraints_Mkey_1_128 (F : FImpl) (out : CPtr) (x : CPtr) (bf_q : CPtr) (delta : CPtr)
    (b0_ctx : ZkC 128) : CM (ZkC 128) := do
  let e1 ← F.f128.load delta
  let bf_delta : BF 128 := e1
  let e2 ← alloc .aligned (malloc 1408 : Mem (BF 128))
  let bf_x : CPtr := e2
  let i : Nat := 0
  let e3 : Nat ← cwhile
      (fun _s1 =>
        let i : Nat := _s1
        decide (i < 1408))
      (fun _s1 => do
        let i : Nat := _s1
        let e4 : Byte ← ld x (i / 8)
        let e5 ← F.f128.mul_bit bf_delta (BitVec.ofNat 8 ((e4.toNat >>> (i % 8)) &&& 1))
        st bf_x i e5
        let i : Nat := (i + 1) % U32
        pure i)
      i
  let e6 ← alloc .aligned (malloc 128 : Mem (BF 128))
  let bf_q_out : CPtr := e6
  let i : Nat := 0
  let e7 : Nat ← cwhile
      (fun _s1 =>
        let i : Nat := _s1
        decide (i < 128))
      (fun _s1 => do
        let i : Nat := _s1
        let e8 : Byte ← ld out (i / 8)
        let e9 ← F.f128.mul_bit bf_delta (BitVec.ofNat 8 ((e8.toNat >>> (i % 8)) &&& 1))
        let e10 : BF 128 ← ld bf_q i
        let e11 ← F.f128.add e9 e10
        st bf_q_out i e11
        let i : Nat := (i + 1) % U32
        pure i)
      i
  let bf_qs ← alloc .stack (malloc 160 : Mem (BF 128))
  let bf_qs_dash ← alloc .stack (malloc 160 : Mem (BF 128))
  em_enc_forward_128 F bf_q bf_x bf_qs
  em_enc_backward_128 F bf_q bf_x bf_q_out (0 : Byte) (1 : Byte) delta bf_qs_dash
  cfree .aligned bf_q_out
  cfree .aligned bf_x
  let e12 ← F.f128.mul bf_delta bf_delta
  let minus_part : BF 128 := e12
  let j : Nat := 0
  let e13 : ZkC 128 × Nat ← cwhile
      (fun _s1 =>
        let j : Nat := _s1.2
        decide (j < 160))
      (fun _s1 => do
        let b0_ctx : ZkC 128 := _s1.1
        let j : Nat := _s1.2
        let e14 : BF 128 ← ld bf_qs j
        let e15 : BF 128 ← ld bf_qs_dash j
        let e16 ← F.f128.mul e14 e15
        let e17 ← F.f128.add e16 minus_part
        let e18 ← zk_hash_128_update F b0_ctx e17
        let b0_ctx := e18
        let j : Nat := (j + 1) % U32
        pure (b0_ctx, j))
      (b0_ctx, j)
  let b0_ctx : ZkC 128 := e13.1
  cfree .stack bf_qs_dash
  cfree .stack bf_qs
  pure b0_ctx

/-- faest_aes.c:1881-1910 `em_prove_128`. -/
def em_prove_128 (F : FImpl) (w : CPtr) (u : CPtr) (V : CPtr) (in_ : CPtr) (out : CPtr) (chall : CPtr)
    (a_tilde : CPtr) (b_tilde : CPtr) : CM Unit := do
  let x ← alloc .stack (malloc 1408 : Mem Byte)
  let round_keys ← alloc .stack (malloc 480 : Mem Byte)
  let e1 ← aes128_init_round_keys F round_keys in_
  let tmp_x : CPtr := x
  let r : Nat := 0
  let e2 : CPtr × Nat ← cwhile
      (fun _s1 =>
        let r : Nat := _s1.2
        decide (r ≠ 11))
      (fun _s1 => do
        let tmp_x : CPtr := _s1.1
        let r : Nat := _s1.2
        let i : Nat := 0
        let e3 : CPtr × Nat ← cwhile
            (fun _s2 =>
              let i : Nat := _s2.2
              decide (i ≠ 4))
            (fun _s2 => do
              let tmp_x : CPtr := _s2.1
              let i : Nat := _s2.2
              memcpy (α := Byte) tmp_x (padd round_keys (32 * r + (4 * i))) 4
              let tmp_x : CPtr := padd tmp_x 4
              let i : Nat := (i + 1) % U32
              pure (tmp_x, i))
            (tmp_x, i)
        let tmp_x : CPtr := e3.1
        let r : Nat := (r + 1) % U32
        pure (tmp_x, r))
      (tmp_x, r)
  let tmp_x : CPtr := e2.1
  cfree .stack round_keys
  let e4 ← column_to_row_major_and_shrink_V_128 F V 1280
  let bf_v : CPtr := e4
  let a0_ctx : ZkC 128 := {}
  let a1_ctx : ZkC 128 := {}
  let e5 ← zk_hash_128_init F a0_ctx chall
  let a0_ctx := e5
  let e6 ← zk_hash_128_init F a1_ctx chall
  let a1_ctx := e6
  let e7 ← em_enc_constraints_Mkey_0_128 F out x w bf_v a0_ctx a1_ctx
  let a0_ctx := e7.1
  let a1_ctx := e7.2
  let e8 ← F.f128.load (padd u 160)
  let e9 ← zk_hash_128_finalize F a_tilde a1_ctx e8
  let a1_ctx := e9
  let e10 ← F.f128.sum_poly (padd bf_v 1280)
  let e11 ← zk_hash_128_finalize F b_tilde a0_ctx e10
  let a0_ctx := e11
  cfree .aligned bf_v
  cfree .stack x
  pure ()

/-- faest_aes.c:1912-1962 `em_verify_128`. -/
def em_verify_128 (F : FImpl) (d : CPtr) (Q : CPtr) (chall_2 : CPtr) (chall_3 : CPtr) (a_tilde : CPtr)
    (in_ : CPtr) (out : CPtr) (params : Params) : CM CPtr := do
  let tau : Nat := params.tau
  let t0 : Nat := params.t0
  let k0 : Nat := params.k0
  let t1 : Nat := params.t1
  let k1 : Nat := params.k1
  let delta : CPtr := chall_3
  let i : Nat := 0
  let col : Nat := 0
  let e1 : Nat × Nat ← cwhile
      (fun _s1 =>
        let i : Nat := _s1.1
        decide (i < tau))
      (fun _s1 => do
        let i : Nat := _s1.1
        let col : Nat := _s1.2
        let depth : Nat := (if i < t0 then k0 else k1)
        let decoded_challenge ← alloc .stack (malloc 12 : Mem Byte)
        let e2 ← ChalDec chall_3 i k0 t0 k1 t1 decoded_challenge
        let j : Nat := 0
        let e3 : Nat × Nat ← cwhile
            (fun _s2 =>
              let j : Nat := _s2.2
              decide (j < depth))
            (fun _s2 => do
              let col : Nat := _s2.1
              let j : Nat := _s2.2
              let e4 : Byte ← ld decoded_challenge j
              let e5 : Unit ← (
                if e4.toNat = 1 then (do
                  let e6 : CPtr ← ld Q col
                  let e7 : CPtr ← ld Q col
                  xor_u8_array d e6 e7 160
                  pure ())
                else (do
                  pure ()))
              let j : Nat := (j + 1) % U32
              let col : Nat := (col + 1) % U32
              pure (col, j))
            (col, j)
        let col : Nat := e3.1
        cfree .stack decoded_challenge
        let i : Nat := (i + 1) % U32
        pure (i, col))
      (i, col)
  let e8 ← column_to_row_major_and_shrink_V_128 F Q 1280
  let bf_q : CPtr := e8
  let x ← alloc .stack (malloc 176 : Mem Byte)
  let round_keys ← alloc .stack (malloc 480 : Mem Byte)
  let e9 ← aes128_init_round_keys F round_keys in_
  let tmp_x : CPtr := x
  let r : Nat := 0
  let e10 : CPtr × Nat ← cwhile
      (fun _s1 =>
        let r : Nat := _s1.2
        decide (r ≠ 11))
      (fun _s1 => do
        let tmp_x : CPtr := _s1.1
        let r : Nat := _s1.2
        let i : Nat := 0
        let e11 : CPtr × Nat ← cwhile
            (fun _s2 =>
              let i : Nat := _s2.2
              decide (i ≠ 4))
            (fun _s2 => do
              let tmp_x : CPtr := _s2.1
              let i : Nat := _s2.2
              memcpy (α := Byte) tmp_x (padd round_keys (32 * r + (4 * i))) 4
              let tmp_x : CPtr := padd tmp_x 4
              let i : Nat := (i + 1) % U32
              pure (tmp_x, i))
            (tmp_x, i)
        let tmp_x : CPtr := e11.1
        let r : Nat := (r + 1) % U32
        pure (tmp_x, r))
      (tmp_x, r)
  let tmp_x : CPtr := e10.1
  cfree .stack round_keys
  let b0_ctx : ZkC 128 := {}
  let e12 ← zk_hash_128_init F b0_ctx chall_2
  let b0_ctx := e12
  let e13 ← em_enc_constraints_Mkey_1_128 F out x bf_q delta b0_ctx
  let b0_ctx := e13
  let e14 ← alloc .heap (malloc 16 : Mem Byte)
  let q_tilde : CPtr := e14
  let e15 ← F.f128.sum_poly (padd bf_q 1280)
  let e16 ← zk_hash_128_finalize F q_tilde b0_ctx e15
  let b0_ctx := e16
  cfree .aligned bf_q
  let e17 ← F.f128.load q_tilde
  let bf_qtilde : BF 128 := e17
  let e18 ← F.f128.load a_tilde
  let e19 ← F.f128.load delta
  let e20 ← F.f128.mul e18 e19
  let e21 ← F.f128.add bf_qtilde e20
  F.f128.store q_tilde e21
  cfree .stack x
  pure q_tilde

/-- faest_aes.c:1966-2009 `em_enc_forward_192_1`. -/
def em_enc_forward_192_1 (F : FImpl) (z : CPtr) (x : CPtr) (bf_y : CPtr) : CM Unit := do
  let j : Nat := 0
  let e1 : Nat ← cwhile
      (fun _s1 =>
        let j : Nat := _s1
        decide (j < 24))
      (fun _s1 => do
        let j : Nat := _s1
        let e2 : Byte ← ld z j
        let e3 ← F.f192.byte_combine_bits e2
        let e4 : Byte ← ld x j
        let e5 ← F.f192.byte_combine_bits e4
        let e6 ← F.f192.add e3 e5
        st bf_y j e6
        let j : Nat := (j + 1) % U32
        pure j)
      j
  let e7 ← F.f192.byte_combine_bits (2 : Byte)
  let bf_two : BF 192 := e7
  let e8 ← F.f192.byte_combine_bits (3 : Byte)
  let bf_three : BF 192 := e8
  let j : Nat := 1
  let e9 : Nat ← cwhile
      (fun _s1 =>
        let j : Nat := _s1
        decide (j < 12))
      (fun _s1 => do
        let j : Nat := _s1
        let c : Nat := 0
        let e10 : Nat ← cwhile
            (fun _s2 =>
              let c : Nat := _s2
              decide (c < 6))
            (fun _s2 => do
              let c : Nat := _s2
              let i : Nat := (((192 * j) % U32) + ((32 * c) % U32)) % U32
              let iy : Nat := (((24 * j) % U32) + ((4 * c) % U32)) % U32
              let bf_x_hat ← alloc .stack (malloc 4 : Mem (BF 192))
              let bf_z_hat ← alloc .stack (malloc 4 : Mem (BF 192))
              let r : Nat := 0
              let e11 : Nat ← cwhile
                  (fun _s3 =>
                    let r : Nat := _s3
                    decide (r ≤ 3))
                  (fun _s3 => do
                    let r : Nat := _s3
                    let e12 : Byte ← ld z (((i + ((8 * r) % U32)) % U32) / 8)
                    let e13 ← F.f192.byte_combine_bits e12
                    st bf_z_hat r e13
                    let e14 : Byte ← ld x (((i + ((8 * r) % U32)) % U32) / 8)
                    let e15 ← F.f192.byte_combine_bits e14
                    st bf_x_hat r e15
                    let r : Nat := (r + 1) % U32
                    pure r)
                  r
              let e16 : BF 192 ← ld bf_z_hat 0
              let e17 ← F.f192.mul e16 bf_two
              let e18 : BF 192 ← ld bf_z_hat 1
              let e19 ← F.f192.mul e18 bf_three
              let e20 ← F.f192.add e17 e19
              st bf_y ((iy + 0) % U32) e20
              let e21 : BF 192 ← ld bf_y ((iy + 0) % U32)
              let e22 : BF 192 ← ld bf_z_hat 2
              let e23 ← F.f192.add e21 e22
              st bf_y ((iy + 0) % U32) e23
              let e24 : BF 192 ← ld bf_y ((iy + 0) % U32)
              let e25 : BF 192 ← ld bf_z_hat 3
              let e26 ← F.f192.add e24 e25
              st bf_y ((iy + 0) % U32) e26
              let e27 : BF 192 ← ld bf_y ((iy + 0) % U32)
              let e28 : BF 192 ← ld bf_x_hat 0
              let e29 ← F.f192.add e27 e28
              st bf_y ((iy + 0) % U32) e29
              let e30 : BF 192 ← ld bf_z_hat 0
              let e31 : BF 192 ← ld bf_z_hat 1
              let e32 ← F.f192.mul e31 bf_two
              let e33 ← F.f192.add e30 e32
              st bf_y ((iy + 1) % U32) e33
              let e34 : BF 192 ← ld bf_y ((iy + 1) % U32)
              let e35 : BF 192 ← ld bf_z_hat 2
              let e36 ← F.f192.mul e35 bf_three
              let e37 ← F.f192.add e34 e36
              st bf_y ((iy + 1) % U32) e37
              let e38 : BF 192 ← ld bf_y ((iy + 1) % U32)
              let e39 : BF 192 ← ld bf_z_hat 3
              let e40 ← F.f192.add e38 e39
              st bf_y ((iy + 1) % U32) e40
              let e41 : BF 192 ← ld bf_y ((iy + 1) % U32)
              let e42 : BF 192 ← ld bf_x_hat 1
              let e43 ← F.f192.add e41 e42
              st bf_y ((iy + 1) % U32) e43
              let e44 : BF 192 ← ld bf_z_hat 0
              let e45 : BF 192 ← ld bf_z_hat 1
              let e46 ← F.f192.add e44 e45
              st bf_y ((iy + 2) % U32) e46
              let e47 : BF 192 ← ld bf_y ((iy + 2) % U32)
              let e48 : BF 192 ← ld bf_z_hat 2
              let e49 ← F.f192.mul e48 bf_two
              let e50 ← F.f192.add e47 e49
              st bf_y ((iy + 2) % U32) e50
              let e51 : BF 192 ← ld bf_y ((iy + 2) % U32)
              let e52 : BF 192 ← ld bf_z_hat 3
              let e53 ← F.f192.mul e52 bf_three
              let e54 ← F.f192.add e51 e53
              st bf_y ((iy + 2) % U32) e54
              let e55 : BF 192 ← ld bf_y ((iy + 2) % U32)
              let e56 : BF 192 ← ld bf_x_hat 2
              let e57 ← F.f192.add e55 e56
              st bf_y ((iy + 2) % U32) e57
              let e58 : BF 192 ← ld bf_z_hat 0
              let e59 ← F.f192.mul e58 bf_three
              let e60 : BF 192 ← ld bf_z_hat 1
              let e61 ← F.f192.add e59 e60
              st bf_y ((iy + 3) % U32) e61
              let e62 : BF 192 ← ld bf_y ((iy + 3) % U32)
              let e63 : BF 192 ← ld bf_z_hat 2
              let e64 ← F.f192.add e62 e63
              st bf_y ((iy + 3) % U32) e64
              let e65 : BF 192 ← ld bf_y ((iy + 3) % U32)
              let e66 : BF 192 ← ld bf_z_hat 3
              let e67 ← F.f192.mul e66 bf_two
              let e68 ← F.f192.add e65 e67
              st bf_y ((iy + 3) % U32) e68
              let e69 : BF 192 ← ld bf_y ((iy + 3) % U32)
              let e70 : BF 192 ← ld bf_x_hat 3
              let e71 ← F.f192.add e69 e70
              st bf_y ((iy + 3) % U32) e71
              cfree .stack bf_z_hat
              cfree .stack bf_x_hat
              let c : Nat := (c + 1) % U32
              pure c)
            c
        let j : Nat := (j + 1) % U32
        pure j)
      j
  pure ()

/-- faest_aes.c:2011-2061 `em_enc_forward_192`. -/
def em_enc_forward_192 (F : FImpl) (bf_z : CPtr) (bf_x : CPtr) (bf_y : CPtr) : CM Unit := do
  let j : Nat := 0
  let e1 : Nat ← cwhile
      (fun _s1 =>
        let j : Nat := _s1
        decide (j < 24))
      (fun _s1 => do
        let j : Nat := _s1
        let e2 ← F.f192.byte_combine (padd bf_z ((8 * j) % U32))
        st bf_y j e2
        let e3 : Unit ← (
          if bf_x.isSome = true then (do
            let e4 : BF 192 ← ld bf_y j
            let e5 ← F.f192.byte_combine (padd bf_x ((8 * j) % U32))
            let e6 ← F.f192.add e4 e5
            st bf_y j e6
            pure ())
          else (do
            pure ()))
        let j : Nat := (j + 1) % U32
        pure j)
      j
  let e7 ← F.f192.byte_combine_bits (2 : Byte)
  let bf_two : BF 192 := e7
  let e8 ← F.f192.byte_combine_bits (3 : Byte)
  let bf_three : BF 192 := e8
  let j : Nat := 1
  let e9 : Nat ← cwhile
      (fun _s1 =>
        let j : Nat := _s1
        decide (j < 12))
      (fun _s1 => do
        let j : Nat := _s1
        let c : Nat := 0
        let e10 : Nat ← cwhile
            (fun _s2 =>
              let c : Nat := _s2
              decide (c < 6))
            (fun _s2 => do
              let c : Nat := _s2
              let i : Nat := (((192 * j) % U32) + ((32 * c) % U32)) % U32
              let iy : Nat := (((24 * j) % U32) + ((4 * c) % U32)) % U32
              let bf_x_hat ← alloc .stack (malloc 4 : Mem (BF 192))
              let bf_z_hat ← alloc .stack (malloc 4 : Mem (BF 192))
              let r : Nat := 0
              let e11 : Nat ← cwhile
                  (fun _s3 =>
                    let r : Nat := _s3
                    decide (r ≤ 3))
                  (fun _s3 => do
                    let r : Nat := _s3
                    let e12 ← F.f192.byte_combine (padd bf_z ((i + ((8 * r) % U32)) % U32))
                    st bf_z_hat r e12
                    let e13 : Unit ← (
                      if bf_x.isSome = true then (do
                        let e14 ← F.f192.byte_combine (padd bf_x ((i + ((8 * r) % U32)) % U32))
                        st bf_x_hat r e14
                        pure ())
                      else (do
                        let e15 ← F.f192.zero
                        st bf_x_hat r e15
                        pure ()))
                    let r : Nat := (r + 1) % U32
                    pure r)
                  r
              let e16 : BF 192 ← ld bf_z_hat 0
              let e17 ← F.f192.mul e16 bf_two
              let e18 : BF 192 ← ld bf_z_hat 1
              let e19 ← F.f192.mul e18 bf_three
              let e20 ← F.f192.add e17 e19
              st bf_y ((iy + 0) % U32) e20
              let e21 : BF 192 ← ld bf_y ((iy + 0) % U32)
              let e22 : BF 192 ← ld bf_z_hat 2
              let e23 ← F.f192.add e21 e22
              st bf_y ((iy + 0) % U32) e23
              let e24 : BF 192 ← ld bf_y ((iy + 0) % U32)
              let e25 : BF 192 ← ld bf_z_hat 3
              let e26 ← F.f192.add e24 e25
              st bf_y ((iy + 0) % U32) e26
              let e27 : BF 192 ← ld bf_y ((iy + 0) % U32)
              let e28 : BF 192 ← ld bf_x_hat 0
              let e29 ← F.f192.add e27 e28
              st bf_y ((iy + 0) % U32) e29
              let e30 : BF 192 ← ld bf_z_hat 0
              let e31 : BF 192 ← ld bf_z_hat 1
              let e32 ← F.f192.mul e31 bf_two
              let e33 ← F.f192.add e30 e32
              st bf_y ((iy + 1) % U32) e33
              let e34 : BF 192 ← ld bf_y ((iy + 1) % U32)
              let e35 : BF 192 ← ld bf_z_hat 2
              let e36 ← F.f192.mul e35 bf_three
              let e37 ← F.f192.add e34 e36
              st bf_y ((iy + 1) % U32) e37
              let e38 : BF 192 ← ld bf_y ((iy + 1) % U32)
              let e39 : BF 192 ← ld bf_z_hat 3
              let e40 ← F.f192.add e38 e39
              st bf_y ((iy + 1) % U32) e40
              let e41 : BF 192 ← ld bf_y ((iy + 1) % U32)
              let e42 : BF 192 ← ld bf_x_hat 1
              let e43 ← F.f192.add e41 e42
              st bf_y ((iy + 1) % U32) e43
              let e44 : BF 192 ← ld bf_z_hat 0
              let e45 : BF 192 ← ld bf_z_hat 1
              let e46 ← F.f192.add e44 e45
              st bf_y ((iy + 2) % U32) e46
              let e47 : BF 192 ← ld bf_y ((iy + 2) % U32)
              let e48 : BF 192 ← ld bf_z_hat 2
              let e49 ← F.f192.mul e48 bf_two
              let e50 ← F.f192.add e47 e49
              st bf_y ((iy + 2) % U32) e50
              let e51 : BF 192 ← ld bf_y ((iy + 2) % U32)
              let e52 : BF 192 ← ld bf_z_hat 3
              let e53 ← F.f192.mul e52 bf_three
              let e54 ← F.f192.add e51 e53
              st bf_y ((iy + 2) % U32) e54
              let e55 : BF 192 ← ld bf_y ((iy + 2) % U32)
              let e56 : BF 192 ← ld bf_x_hat 2
              let e57 ← F.f192.add e55 e56
              st bf_y ((iy + 2) % U32) e57
              let e58 : BF 192 ← ld bf_z_hat 0
              let e59 ← F.f192.mul e58 bf_three
              let e60 : BF 192 ← ld bf_z_hat 1
              let e61 ← F.f192.add e59 e60
              st bf_y ((iy + 3) % U32) e61
              let e62 : BF 192 ← ld bf_y ((iy + 3) % U32)
              let e63 : BF 192 ← ld bf_z_hat 2
              let e64 ← F.f192.add e62 e63
              st bf_y ((iy + 3) % U32) e64
              let e65 : BF 192 ← ld bf_y ((iy + 3) % U32)
              let e66 : BF 192 ← ld bf_z_hat 3
              let e67 ← F.f192.mul e66 bf_two
              let e68 ← F.f192.add e65 e67
              st bf_y ((iy + 3) % U32) e68
              let e69 : BF 192 ← ld bf_y ((iy + 3) % U32)
              let e70 : BF 192 ← ld bf_x_hat 3
              let e71 ← F.f192.add e69 e70
              st bf_y ((iy + 3) % U32) e71
              cfree .stack bf_z_hat
              cfree .stack bf_x_hat
              let c : Nat := (c + 1) % U32
              pure c)
            c
        let j : Nat := (j + 1) % U32
        pure j)
      j
  pure ()

/-- faest_aes.c:2063-2089 `em_enc_backward_192_1`. -/
def em_enc_backward_192_1 (F : FImpl) (z : CPtr) (x : CPtr) (z_out : CPtr) (y_out : CPtr) : CM Unit := do
  let j : Nat := 0
  let e1 : Nat ← cwhile
      (fun _s1 =>
        let j : Nat := _s1
        decide (j < 12))
      (fun _s1 => do
        let j : Nat := _s1
        let c : Nat := 0
        let e2 : Nat ← cwhile
            (fun _s2 =>
              let c : Nat := _s2
              decide (c < 6))
            (fun _s2 => do
              let c : Nat := _s2
              let r : Nat := 0
              let e3 : Nat ← cwhile
                  (fun _s3 =>
                    let r : Nat := _s3
                    decide (r ≤ 3))
                  (fun _s3 => do
                    let r : Nat := _s3
                    let icol : Nat := ((((c + U32 - r) % U32) + 6) % U32) % 6
                    let ird : Nat := (((((192 + ((192 * j) % U32)) % U32) + ((32 * icol) % U32)) % U32) + ((8 * r) % U32)) % U32
                    let z_tilde : Byte := (0 : Byte)
                    let e4 : Byte ← (
                      if j < 11 then (do
                        let e5 : Byte ← ld z (ird / 8)
                        let z_tilde : Byte := e5
                        pure z_tilde)
                      else (do
                        let e6 : Byte ← ld z_out (((ird + U32 - ((192 * ((j + 1) % U32)) % U32)) % U32) / 8)
                        let e7 : Byte ← ld x (ird / 8)
                        let z_tilde : Byte := BitVec.ofNat 8 (e6.toNat ^^^ e7.toNat)
                        pure z_tilde))
                    let z_tilde : Byte := e4
                    let e8 ← F.rotr8 z_tilde 7
                    let e9 ← F.rotr8 z_tilde 5
                    let e10 ← F.rotr8 z_tilde 2
                    let y_tilde : Byte := BitVec.ofNat 8 (((e8.toNat ^^^ e9.toNat) ^^^ e10.toNat) ^^^ 5)
                    let e11 ← F.f192.byte_combine_bits y_tilde
                    st y_out ((((((24 * j) % U32) + ((4 * c) % U32)) % U32) + r) % U32) e11
                    let r : Nat := (r + 1) % U32
                    pure r)
                  r
              let c : Nat := (c + 1) % U32
              pure c)
            c
        let j : Nat := (j + 1) % U32
        pure j)
      j
  pure ()

/-- faest_aes.c:2091-2131 `em_enc_backward_192`. -/
def em_enc_backward_192 (F : FImpl) (bf_z : CPtr) (bf_x : CPtr) (bf_z_out : CPtr) (Mtag : Byte) (Mkey : Byte)
    (delta : CPtr) (y_out : CPtr) : CM Unit := do
  let e3 ← (if delta.isSome = true then (do
      let e1 ← F.f192.load delta
      pure e1)
    else (do
      let e2 ← F.f192.zero
      pure e2))
  let bf_delta : BF 192 := e3
  let e4 ← F.f192.mul_bit bf_delta Mkey
  let e5 ← F.f192.from_bit (BitVec.ofNat 8 (1 ^^^ Mkey.toNat))
  let e6 ← F.f192.add e4 e5
  let e7 ← F.f192.mul_bit e6 (BitVec.ofNat 8 (1 ^^^ Mtag.toNat))
  let factor : BF 192 := e7
  let j : Nat := 0
  let e8 : Nat ← cwhile
      (fun _s1 =>
        let j : Nat := _s1
        decide (j < 12))
      (fun _s1 => do
        let j : Nat := _s1
        let c : Nat := 0
        let e9 : Nat ← cwhile
            (fun _s2 =>
              let c : Nat := _s2
              decide (c < 6))
            (fun _s2 => do
              let c : Nat := _s2
              let r : Nat := 0
              let e10 : Nat ← cwhile
                  (fun _s3 =>
                    let r : Nat := _s3
                    decide (r ≤ 3))
                  (fun _s3 => do
                    let r : Nat := _s3
                    let bf_z_tilde ← alloc .stack (malloc 8 : Mem (BF 192))
                    let icol : Nat := ((((c + U32 - r) % U32) + 6) % U32) % 6
                    let ird : Nat := (((((192 + ((192 * j) % U32)) % U32) + ((32 * icol) % U32)) % U32) + ((8 * r) % U32)) % U32
                    let e11 : Unit ← (
                      if j < 11 then (do
                        memcpy (α := BF 192) bf_z_tilde (padd bf_z ird) 8
                        pure ())
                      else (do
                        let i : Nat := 0
                        let e12 : Nat ← cwhile
                            (fun _s4 =>
                              let i : Nat := _s4
                              decide (i < 8))
                            (fun _s4 => do
                              let i : Nat := _s4
                              let e13 : BF 192 ← ld bf_z_out ((((ird + U32 - ((192 * ((j + 1) % U32)) % U32)) % U32) + i) % U32)
                              st bf_z_tilde i e13
                              let e14 : Unit ← (
                                if bf_x.isSome = true then (do
                                  let e15 : BF 192 ← ld bf_z_tilde i
                                  let e16 : BF 192 ← ld bf_x ((ird + i) % U32)
                                  let e17 ← F.f192.add e15 e16
                                  st bf_z_tilde i e17
                                  pure ())
                                else (do
                                  pure ()))
                              let i : Nat := (i + 1) % U32
                              pure i)
                            i
                        pure ()))
                    let bf_y_tilde ← alloc .stack (malloc 8 : Mem (BF 192))
                    let i : Nat := 0
                    let e18 : Nat ← cwhile
                        (fun _s4 =>
                          let i : Nat := _s4
                          decide (i < 8))
                        (fun _s4 => do
                          let i : Nat := _s4
                          let e19 : BF 192 ← ld bf_z_tilde (((i + 7) % U32) % 8)
                          let e20 : BF 192 ← ld bf_z_tilde (((i + 5) % U32) % 8)
                          let e21 ← F.f192.add e19 e20
                          let e22 : BF 192 ← ld bf_z_tilde (((i + 2) % U32) % 8)
                          let e23 ← F.f192.add e21 e22
                          st bf_y_tilde i e23
                          let i : Nat := (i + 1) % U32
                          pure i)
                        i
                    let e24 : BF 192 ← ld bf_y_tilde 0
                    let e25 ← F.f192.add e24 factor
                    st bf_y_tilde 0 e25
                    let e26 : BF 192 ← ld bf_y_tilde 2
                    let e27 ← F.f192.add e26 factor
                    st bf_y_tilde 2 e27
                    let e28 ← F.f192.byte_combine bf_y_tilde
                    st y_out ((((((24 * j) % U32) + ((4 * c) % U32)) % U32) + r) % U32) e28
                    cfree .stack bf_y_tilde
                    cfree .stack bf_z_tilde
                    let r : Nat := (r + 1) % U32
                    pure r)
                  r
              let c : Nat := (c + 1) % U32
              pure c)
            c
        let j : Nat := (j + 1) % U32
        pure j)
      j
  pure ()

/-- faest_aes.c:2133-2158 `em_enc_constraints_Mkey_0_192`. -/
def em_enc_constraints_Mkey_0_192 (F : FImpl) (out : CPtr) (x : CPtr) (w : CPtr) (bf_v : CPtr) (a0_ctx : ZkC 192)
    (a1_ctx : ZkC 192) : CM (ZkC 192 × ZkC 192) := do
  let w_out ← alloc .stack (malloc 24 : Mem Byte)
  xor_u8_array out w w_out 24
  let bf_s ← alloc .stack (malloc 288 : Mem (BF 192))
  let bf_vs ← alloc .stack (malloc 288 : Mem (BF 192))
  let bf_s_dash ← alloc .stack (malloc 288 : Mem (BF 192))
  let bf_vs_dash ← alloc .stack (malloc 288 : Mem (BF 192))
  em_enc_forward_192_1 F w x bf_s
  em_enc_forward_192 F bf_v (none : CPtr) bf_vs
  em_enc_backward_192_1 F w x w_out bf_s_dash
  em_enc_backward_192 F bf_v (none : CPtr) bf_v (1 : Byte) (0 : Byte) (none : CPtr) bf_vs_dash
  let j : Nat := 0
  let e1 : ZkC 192 × ZkC 192 × Nat ← cwhile
      (fun _s1 =>
        let j : Nat := _s1.2.2
        decide (j < 288))
      (fun _s1 => do
        let a0_ctx : ZkC 192 := _s1.1
        let a1_ctx : ZkC 192 := _s1.2.1
        let j : Nat := _s1.2.2
        let e2 : BF 192 ← ld bf_vs j
        let e3 : BF 192 ← ld bf_vs_dash j
        let e4 ← F.f192.mul e2 e3
        let tmp : BF 192 := e4
        let e5 ← zk_hash_192_update F a0_ctx tmp
        let a0_ctx := e5
        let e6 : BF 192 ← ld bf_s j
        let e7 : BF 192 ← ld bf_vs j
        let e8 ← F.f192.add e6 e7
        let e9 : BF 192 ← ld bf_s_dash j
        let e10 : BF 192 ← ld bf_vs_dash j
        let e11 ← F.f192.add e9 e10
        let e12 ← F.f192.mul e8 e11
        let e13 ← F.f192.add e12 tmp
        let e14 ← F.f192.one
        let e15 ← F.f192.add e13 e14
        let e16 ← zk_hash_192_update F a1_ctx e15
        let a1_ctx := e16
        let j : Nat := (j + 1) % U32
        pure (a0_ctx, a1_ctx, j))
      (a0_ctx, a1_ctx, j)
  let a0_ctx : ZkC 192 := e1.1
  let a1_ctx : ZkC 192 := e1.2.1
  cfree .stack bf_vs_dash
  cfree .stack bf_s_dash
  cfree .stack bf_vs
  cfree .stack bf_s
  cfree .stack w_out
  pure (a0_ctx, a1_ctx)

/-- faest_aes.c:2160-2188 `em_enc_constraints_Mkey_1_192`. -/
def em_enc_constraints_Mkey_1_192 (F : FImpl) (out : CPtr) (x : CPtr) (bf_q : CPtr) (delta : CPtr)
    (b0_ctx : ZkC 192) : CM (ZkC 192) := do
  let e1 ← F.f192.load delta
  let bf_delta : BF 192 := e1
  let e2 ← alloc .aligned (malloc 2496 : Mem (BF 192))
  let bf_x : CPtr := e2
  let i : Nat := 0
  let e3 : Nat ← cwhile
      (fun _s1 =>
        let i : Nat := _s1
        decide (i < 2496))
      (fun _s1 => do
        let i : Nat := _s1
        let e4 : Byte ← ld x (i / 8)
        let e5 ← F.f192.mul_bit bf_delta (BitVec.ofNat 8 ((e4.toNat >>> (i % 8)) &&& 1))
        st bf_x i e5
        let i : Nat := (i + 1) % U32
        pure i)
      i
  let e6 ← alloc .aligned (malloc 192 : Mem (BF 192))
  let bf_q_out : CPtr := e6
  let i : Nat := 0
  let e7 : Nat ← cwhile
      (fun _s1 =>
        let i : Nat := _s1
        decide (i < 192))
      (fun _s1 => do
        let i : Nat := _s1
        let e8 : Byte ← ld out (i / 8)
        let e9 ← F.f192.mul_bit bf_delta (BitVec.ofNat 8 ((e8.toNat >>> (i % 8)) &&& 1))
        let e10 : BF 192 ← ld bf_q i
        let e11 ← F.f192.add e9 e10
        st bf_q_out i e11
        let i : Nat := (i + 1) % U32
        pure i)
      i
  let bf_qs ← alloc .stack (malloc 288 : Mem (BF 192))
  let bf_qs_dash ← alloc .stack (malloc 288 : Mem (BF 192))
  em_enc_forward_192 F bf_q bf_x bf_qs
  em_enc_backward_192 F bf_q bf_x bf_q_out (0 : Byte) (1 : Byte) delta bf_qs_dash
  cfree .aligned bf_q_out
  cfree .aligned bf_x
  let e12 ← F.f192.mul bf_delta bf_delta
  let minus_part : BF 192 := e12
  let j : Nat := 0
  let e13 : ZkC 192 × Nat ← cwhile
      (fun _s1 =>
        let j : Nat := _s1.2
        decide (j < 288))
      (fun _s1 => do
        let b0_ctx : ZkC 192 := _s1.1
        let j : Nat := _s1.2
        let e14 : BF 192 ← ld bf_qs j
        let e15 : BF 192 ← ld bf_qs_dash j
        let e16 ← F.f192.mul e14 e15
        let e17 ← F.f192.add e16 minus_part
        let e18 ← zk_hash_192_update F b0_ctx e17
        let b0_ctx := e18
        let j : Nat := (j + 1) % U32
        pure (b0_ctx, j))
      (b0_ctx, j)
  let b0_ctx : ZkC 192 := e13.1
  cfree .stack bf_qs_dash
  cfree .stack bf_qs
  pure b0_ctx

/-- faest_aes.c:2190-2219 `em_prove_192`. -/
def em_prove_192 (F : FImpl) (w : CPtr) (u : CPtr) (V : CPtr) (in_ : CPtr) (out : CPtr) (chall : CPtr)
    (a_tilde : CPtr) (b_tilde : CPtr) : CM Unit := do
  let x ← alloc .stack (malloc 312 : Mem Byte)
  let round_keys ← alloc .stack (malloc 480 : Mem Byte)
  let e1 ← rijndael192_init_round_keys F round_keys in_
  let tmp_x : CPtr := x
  let r : Nat := 0
  let e2 : CPtr × Nat ← cwhile
      (fun _s1 =>
        let r : Nat := _s1.2
        decide (r ≠ 13))
      (fun _s1 => do
        let tmp_x : CPtr := _s1.1
        let r : Nat := _s1.2
        let i : Nat := 0
        let e3 : CPtr × Nat ← cwhile
            (fun _s2 =>
              let i : Nat := _s2.2
              decide (i ≠ 6))
            (fun _s2 => do
              let tmp_x : CPtr := _s2.1
              let i : Nat := _s2.2
              memcpy (α := Byte) tmp_x (padd round_keys (32 * r + (4 * i))) 4
              let tmp_x : CPtr := padd tmp_x 4
              let i : Nat := (i + 1) % U32
              pure (tmp_x, i))
            (tmp_x, i)
        let tmp_x : CPtr := e3.1
        let r : Nat := (r + 1) % U32
        pure (tmp_x, r))
      (tmp_x, r)
  let tmp_x : CPtr := e2.1
  cfree .stack round_keys
  let e4 ← column_to_row_major_and_shrink_V_192 F V 2304
  let bf_v : CPtr := e4
  let a0_ctx : ZkC 192 := {}
  let a1_ctx : ZkC 192 := {}
  let e5 ← zk_hash_192_init F a0_ctx chall
  let a0_ctx := e5
  let e6 ← zk_hash_192_init F a1_ctx chall
  let a1_ctx := e6
  let e7 ← em_enc_constraints_Mkey_0_192 F out x w bf_v a0_ctx a1_ctx
  let a0_ctx := e7.1
  let a1_ctx := e7.2
  let e8 ← F.f192.load (padd u 288)
  let e9 ← zk_hash_192_finalize F a_tilde a1_ctx e8
  let a1_ctx := e9
  let e10 ← F.f192.sum_poly (padd bf_v 2304)
  let e11 ← zk_hash_192_finalize F b_tilde a0_ctx e10
  let a0_ctx := e11
  cfree .aligned bf_v
  cfree .stack x
  pure ()

/-- faest_aes.c:2221-2271 `em_verify_192`. -/
def em_verify_192 (F : FImpl) (d : CPtr) (Q : CPtr) (chall_2 : CPtr) (chall_3 : CPtr) (a_tilde : CPtr)
    (in_ : CPtr) (out : CPtr) (params : Params) : CM CPtr := do
  let tau : Nat := params.tau
  let t0 : Nat := params.t0
  let k0 : Nat := params.k0
  let t1 : Nat := params.t1
  let k1 : Nat := params.k1
  let delta : CPtr := chall_3
  let i : Nat := 0
  let col : Nat := 0
  let e1 : Nat × Nat ← cwhile
      (fun _s1 =>
        let i : Nat := _s1.1
        decide (i < tau))
      (fun _s1 => do
        let i : Nat := _s1.1
        let col : Nat := _s1.2
        let depth : Nat := (if i < t0 then k0 else k1)
        let decoded_challenge ← alloc .stack (malloc 12 : Mem Byte)
        let e2 ← ChalDec chall_3 i k0 t0 k1 t1 decoded_challenge
        let j : Nat := 0
        let e3 : Nat × Nat ← cwhile
            (fun _s2 =>
              let j : Nat := _s2.2
              decide (j < depth))
            (fun _s2 => do
              let col : Nat := _s2.1
              let j : Nat := _s2.2
              let e4 : Byte ← ld decoded_challenge j
              let e5 : Unit ← (
                if e4.toNat = 1 then (do
                  let e6 : CPtr ← ld Q col
                  let e7 : CPtr ← ld Q col
                  xor_u8_array d e6 e7 288
                  pure ())
                else (do
                  pure ()))
              let j : Nat := (j + 1) % U32
              let col : Nat := (col + 1) % U32
              pure (col, j))
            (col, j)
        let col : Nat := e3.1
        cfree .stack decoded_challenge
        let i : Nat := (i + 1) % U32
        pure (i, col))
      (i, col)
  let e8 ← column_to_row_major_and_shrink_V_192 F Q 2304
  let bf_q : CPtr := e8
  let x ← alloc .stack (malloc 312 : Mem Byte)
  let round_keys ← alloc .stack (malloc 480 : Mem Byte)
  let e9 ← rijndael192_init_round_keys F round_keys in_
  let tmp_x : CPtr := x
  let r : Nat := 0
  let e10 : CPtr × Nat ← cwhile
      (fun _s1 =>
        let r : Nat := _s1.2
        decide (r ≠ 13))
      (fun _s1 => do
        let tmp_x : CPtr := _s1.1
        let r : Nat := _s1.2
        let i : Nat := 0
        let e11 : CPtr × Nat ← cwhile
            (fun _s2 =>
              let i : Nat := _s2.2
              decide (i ≠ 6))
            (fun _s2 => do
              let tmp_x : CPtr := _s2.1
              let i : Nat := _s2.2
              memcpy (α := Byte) tmp_x (padd round_keys (32 * r + (4 * i))) 4
              let tmp_x : CPtr := padd tmp_x 4
              let i : Nat := (i + 1) % U32
              pure (tmp_x, i))
            (tmp_x, i)
        let tmp_x : CPtr := e11.1
        let r : Nat := (r + 1) % U32
        pure (tmp_x, r))
      (tmp_x, r)
  let tmp_x : CPtr := e10.1
  cfree .stack round_keys
  let b0_ctx : ZkC 192 := {}
  let e12 ← zk_hash_192_init F b0_ctx chall_2
  let b0_ctx := e12
  let e13 ← em_enc_constraints_Mkey_1_192 F out x bf_q delta b0_ctx
  let b0_ctx := e13
  let e14 ← alloc .heap (malloc 24 : Mem Byte)
  let q_tilde : CPtr := e14
  let e15 ← F.f192.sum_poly (padd bf_q 2304)
  let e16 ← zk_hash_192_finalize F q_tilde b0_ctx e15
  let b0_ctx := e16
  cfree .aligned bf_q
  let e17 ← F.f192.load q_tilde
  let bf_qtilde : BF 192 := e17
  let e18 ← F.f192.load a_tilde
  let e19 ← F.f192.load delta
  let e20 ← F.f192.mul e18 e19
  let e21 ← F.f192.add bf_qtilde e20
  F.f192.store q_tilde e21
  cfree .stack x
  pure q_tilde

/-- faest_aes.c:2275-2318 `em_enc_forward_256_1`. -/
def em_enc_forward_256_1 (F : FImpl) (z : CPtr) (x : CPtr) (bf_y : CPtr) : CM Unit := do
  let j : Nat := 0
  let e1 : Nat ← cwhile
      (fun _s1 =>
        let j : Nat := _s1
        decide (j < 32))
      (fun _s1 => do
        let j : Nat := _s1
        let e2 : Byte ← ld z j
        let e3 ← F.f256.byte_combine_bits e2
        let e4 : Byte ← ld x j
        let e5 ← F.f256.byte_combine_bits e4
        let e6 ← F.f256.add e3 e5
        st bf_y j e6
        let j : Nat := (j + 1) % U32
        pure j)
      j
  let e7 ← F.f256.byte_combine_bits (2 : Byte)
  let bf_two : BF 256 := e7
  let e8 ← F.f256.byte_combine_bits (3 : Byte)
  let bf_three : BF 256 := e8
  let j : Nat := 1
  let e9 : Nat ← cwhile
      (fun _s1 =>
        let j : Nat := _s1
        decide (j < 14))
      (fun _s1 => do
        let j : Nat := _s1
        let c : Nat := 0
        let e10 : Nat ← cwhile
            (fun _s2 =>
              let c : Nat := _s2
              decide (c < 8))
            (fun _s2 => do
              let c : Nat := _s2
              let i : Nat := (((256 * j) % U32) + ((32 * c) % U32)) % U32
              let iy : Nat := (((32 * j) % U32) + ((4 * c) % U32)) % U32
              let bf_x_hat ← alloc .stack (malloc 4 : Mem (BF 256))
              let bf_z_hat ← alloc .stack (malloc 4 : Mem (BF 256))
              let r : Nat := 0
              let e11 : Nat ← cwhile
                  (fun _s3 =>
                    let r : Nat := _s3
                    decide (r ≤ 3))
                  (fun _s3 => do
                    let r : Nat := _s3
                    let e12 : Byte ← ld z (((i + ((8 * r) % U32)) % U32) / 8)
                    let e13 ← F.f256.byte_combine_bits e12
                    st bf_z_hat r e13
                    let e14 : Byte ← ld x (((i + ((8 * r) % U32)) % U32) / 8)
                    let e15 ← F.f256.byte_combine_bits e14
                    st bf_x_hat r e15
                    let r : Nat := (r + 1) % U32
                    pure r)
                  r
              let e16 : BF 256 ← ld bf_z_hat 0
              let e17 ← F.f256.mul e16 bf_two
              let e18 : BF 256 ← ld bf_z_hat 1
              let e19 ← F.f256.mul e18 bf_three
              let e20 ← F.f256.add e17 e19
              st bf_y ((iy + 0) % U32) e20
              let e21 : BF 256 ← ld bf_y ((iy + 0) % U32)
              let e22 : BF 256 ← ld bf_z_hat 2
              let e23 ← F.f256.add e21 e22
              st bf_y ((iy + 0) % U32) e23
              let e24 : BF 256 ← ld bf_y ((iy + 0) % U32)
              let e25 : BF 256 ← ld bf_z_hat 3
              let e26 ← F.f256.add e24 e25
              st bf_y ((iy + 0) % U32) e26
              let e27 : BF 256 ← ld bf_y ((iy + 0) % U32)
              let e28 : BF 256 ← ld bf_x_hat 0
              let e29 ← F.f256.add e27 e28
              st bf_y ((iy + 0) % U32) e29
              let e30 : BF 256 ← ld bf_z_hat 0
              let e31 : BF 256 ← ld bf_z_hat 1
              let e32 ← F.f256.mul e31 bf_two
              let e33 ← F.f256.add e30 e32
              st bf_y ((iy + 1) % U32) e33
              let e34 : BF 256 ← ld bf_y ((iy + 1) % U32)
              let e35 : BF 256 ← ld bf_z_hat 2
              let e36 ← F.f256.mul e35 bf_three
              let e37 ← F.f256.add e34 e36
              st bf_y ((iy + 1) % U32) e37
              let e38 : BF 256 ← ld bf_y ((iy + 1) % U32)
              let e39 : BF 256 ← ld bf_z_hat 3
              let e40 ← F.f256.add e38 e39
              st bf_y ((iy + 1) % U32) e40
              let e41 : BF 256 ← ld bf_y ((iy + 1) % U32)
              let e42 : BF 256 ← ld bf_x_hat 1
              let e43 ← F.f256.add e41 e42
              st bf_y ((iy + 1) % U32) e43
              let e44 : BF 256 ← ld bf_z_hat 0
              let e45 : BF 256 ← ld bf_z_hat 1
              let e46 ← F.f256.add e44 e45
              st bf_y ((iy + 2) % U32) e46
              let e47 : BF 256 ← ld bf_y ((iy + 2) % U32)
              let e48 : BF 256 ← ld bf_z_hat 2
              let e49 ← F.f256.mul e48 bf_two
              let e50 ← F.f256.add e47 e49
              st bf_y ((iy + 2) % U32) e50
              let e51 : BF 256 ← ld bf_y ((iy + 2) % U32)
              let e52 : BF 256 ← ld bf_z_hat 3
              let e53 ← F.f256.mul e52 bf_three
              let e54 ← F.f256.add e51 e53
              st bf_y ((iy + 2) % U32) e54
              let e55 : BF 256 ← ld bf_y ((iy + 2) % U32)
              let e56 : BF 256 ← ld bf_x_hat 2
              let e57 ← F.f256.add e55 e56
              st bf_y ((iy + 2) % U32) e57
              let e58 : BF 256 ← ld bf_z_hat 0
              let e59 ← F.f256.mul e58 bf_three
              let e60 : BF 256 ← ld bf_z_hat 1
              let e61 ← F.f256.add e59 e60
              st bf_y ((iy + 3) % U32) e61
              let e62 : BF 256 ← ld bf_y ((iy + 3) % U32)
              let e63 : BF 256 ← ld bf_z_hat 2
              let e64 ← F.f256.add e62 e63
              st bf_y ((iy + 3) % U32) e64
              let e65 : BF 256 ← ld bf_y ((iy + 3) % U32)
              let e66 : BF 256 ← ld bf_z_hat 3
              let e67 ← F.f256.mul e66 bf_two
              let e68 ← F.f256.add e65 e67
              st bf_y ((iy + 3) % U32) e68
              let e69 : BF 256 ← ld bf_y ((iy + 3) % U32)
              let e70 : BF 256 ← ld bf_x_hat 3
              let e71 ← F.f256.add e69 e70
              st bf_y ((iy + 3) % U32) e71
              cfree .stack bf_z_hat
              cfree .stack bf_x_hat
              let c : Nat := (c + 1) % U32
              pure c)
            c
        let j : Nat := (j + 1) % U32
        pure j)
      j
  pure ()

/-- faest_aes.c:2320-2370 `em_enc_forward_256`. -/
def em_enc_forward_256 (F : FImpl) (bf_z : CPtr) (bf_x : CPtr) (bf_y : CPtr) : CM Unit := do
  let j : Nat := 0
  let e1 : Nat ← cwhile
      (fun _s1 =>
        let j : Nat := _s1
        decide (j < 32))
      (fun _s1 => do
        let j : Nat := _s1
        let e2 ← F.f256.byte_combine (padd bf_z ((8 * j) % U32))
        st bf_y j e2
        let e3 : Unit ← (
          if bf_x.isSome = true then (do
            let e4 : BF 256 ← ld bf_y j
            let e5 ← F.f256.byte_combine (padd bf_x ((8 * j) % U32))
            let e6 ← F.f256.add e4 e5
            st bf_y j e6
            pure ())
          else (do
            pure ()))
        let j : Nat := (j + 1) % U32
        pure j)
      j
  let e7 ← F.f256.byte_combine_bits (2 : Byte)
  let bf_two : BF 256 := e7
  let e8 ← F.f256.byte_combine_bits (3 : Byte)
  let bf_three : BF 256 := e8
  let j : Nat := 1
  let e9 : Nat ← cwhile
      (fun _s1 =>
        let j : Nat := _s1
        decide (j < 14))
      (fun _s1 => do
        let j : Nat := _s1
        let c : Nat := 0
        let e10 : Nat ← cwhile
            (fun _s2 =>
              let c : Nat := _s2
              decide (c < 8))
            (fun _s2 => do
              let c : Nat := _s2
              let i : Nat := (((256 * j) % U32) + ((32 * c) % U32)) % U32
              let iy : Nat := (((32 * j) % U32) + ((4 * c) % U32)) % U32
              let bf_x_hat ← alloc .stack (malloc 4 : Mem (BF 256))
              let bf_z_hat ← alloc .stack (malloc 4 : Mem (BF 256))
              let r : Nat := 0
              let e11 : Nat ← cwhile
                  (fun _s3 =>
                    let r : Nat := _s3
                    decide (r ≤ 3))
                  (fun _s3 => do
                    let r : Nat := _s3
                    let e12 ← F.f256.byte_combine (padd bf_z ((i + ((8 * r) % U32)) % U32))
                    st bf_z_hat r e12
                    let e13 : Unit ← (
                      if bf_x.isSome = true then (do
                        let e14 ← F.f256.byte_combine (padd bf_x ((i + ((8 * r) % U32)) % U32))
                        st bf_x_hat r e14
                        pure ())
                      else (do
                        let e15 ← F.f256.zero
                        st bf_x_hat r e15
                        pure ()))
                    let r : Nat := (r + 1) % U32
                    pure r)
                  r
              let e16 : BF 256 ← ld bf_z_hat 0
              let e17 ← F.f256.mul e16 bf_two
              let e18 : BF 256 ← ld bf_z_hat 1
              let e19 ← F.f256.mul e18 bf_three
              let e20 ← F.f256.add e17 e19
              st bf_y ((iy + 0) % U32) e20
              let e21 : BF 256 ← ld bf_y ((iy + 0) % U32)
              let e22 : BF 256 ← ld bf_z_hat 2
              let e23 ← F.f256.add e21 e22
              st bf_y ((iy + 0) % U32) e23
              let e24 : BF 256 ← ld bf_y ((iy + 0) % U32)
              let e25 : BF 256 ← ld bf_z_hat 3
              let e26 ← F.f256.add e24 e25
              st bf_y ((iy + 0) % U32) e26
              let e27 : BF 256 ← ld bf_y ((iy + 0) % U32)
              let e28 : BF 256 ← ld bf_x_hat 0
              let e29 ← F.f256.add e27 e28
              st bf_y ((iy + 0) % U32) e29
              let e30 : BF 256 ← ld bf_z_hat 0
              let e31 : BF 256 ← ld bf_z_hat 1
              let e32 ← F.f256.mul e31 bf_two
              let e33 ← F.f256.add e30 e32
              st bf_y ((iy + 1) % U32) e33
              let e34 : BF 256 ← ld bf_y ((iy + 1) % U32)
              let e35 : BF 256 ← ld bf_z_hat 2
              let e36 ← F.f256.mul e35 bf_three
              let e37 ← F.f256.add e34 e36
              st bf_y ((iy + 1) % U32) e37
              let e38 : BF 256 ← ld bf_y ((iy + 1) % U32)
              let e39 : BF 256 ← ld bf_z_hat 3
              let e40 ← F.f256.add e38 e39
              st bf_y ((iy + 1) % U32) e40
              let e41 : BF 256 ← ld bf_y ((iy + 1) % U32)
              let e42 : BF 256 ← ld bf_x_hat 1
              let e43 ← F.f256.add e41 e42
              st bf_y ((iy + 1) % U32) e43
              let e44 : BF 256 ← ld bf_z_hat 0
              let e45 : BF 256 ← ld bf_z_hat 1
              let e46 ← F.f256.add e44 e45
              st bf_y ((iy + 2) % U32) e46
              let e47 : BF 256 ← ld bf_y ((iy + 2) % U32)
              let e48 : BF 256 ← ld bf_z_hat 2
              let e49 ← F.f256.mul e48 bf_two
              let e50 ← F.f256.add e47 e49
              st bf_y ((iy + 2) % U32) e50
              let e51 : BF 256 ← ld bf_y ((iy + 2) % U32)
              let e52 : BF 256 ← ld bf_z_hat 3
              let e53 ← F.f256.mul e52 bf_three
              let e54 ← F.f256.add e51 e53
              st bf_y ((iy + 2) % U32) e54
              let e55 : BF 256 ← ld bf_y ((iy + 2) % U32)
              let e56 : BF 256 ← ld bf_x_hat 2
              let e57 ← F.f256.add e55 e56
              st bf_y ((iy + 2) % U32) e57
              let e58 : BF 256 ← ld bf_z_hat 0
              let e59 ← F.f256.mul e58 bf_three
              let e60 : BF 256 ← ld bf_z_hat 1
              let e61 ← F.f256.add e59 e60
              st bf_y ((iy + 3) % U32) e61
              let e62 : BF 256 ← ld bf_y ((iy + 3) % U32)
              let e63 : BF 256 ← ld bf_z_hat 2
              let e64 ← F.f256.add e62 e63
              st bf_y ((iy + 3) % U32) e64
              let e65 : BF 256 ← ld bf_y ((iy + 3) % U32)
              let e66 : BF 256 ← ld bf_z_hat 3
              let e67 ← F.f256.mul e66 bf_two
              let e68 ← F.f256.add e65 e67
              st bf_y ((iy + 3) % U32) e68
              let e69 : BF 256 ← ld bf_y ((iy + 3) % U32)
              let e70 : BF 256 ← ld bf_x_hat 3
              let e71 ← F.f256.add e69 e70
              st bf_y ((iy + 3) % U32) e71
              cfree .stack bf_z_hat
              cfree .stack bf_x_hat
              let c : Nat := (c + 1) % U32
              pure c)
            c
        let j : Nat := (j + 1) % U32
        pure j)
      j
  pure ()

/-- faest_aes.c:2372-2401 `em_enc_backward_256_1`. -/
def em_enc_backward_256_1 (F : FImpl) (z : CPtr) (x : CPtr) (z_out : CPtr) (y_out : CPtr) : CM Unit := do
  let j : Nat := 0
  let e1 : Nat ← cwhile
      (fun _s1 =>
        let j : Nat := _s1
        decide (j < 14))
      (fun _s1 => do
        let j : Nat := _s1
        let c : Nat := 0
        let e2 : Nat ← cwhile
            (fun _s2 =>
              let c : Nat := _s2
              decide (c < 8))
            (fun _s2 => do
              let c : Nat := _s2
              let r : Nat := 0
              let e3 : Nat ← cwhile
                  (fun _s3 =>
                    let r : Nat := _s3
                    decide (r ≤ 3))
                  (fun _s3 => do
                    let r : Nat := _s3
                    let icol : Nat := ((((c + U32 - r) % U32) + 8) % U32) % 8
                    let e4 : Nat ← (
                      if (8 = 8) ∧ (r ≥ 2) then (do
                        let icol : Nat := ((((icol + U32 - 1) % U32) + 8) % U32) % 8
                        pure icol)
                      else (do
                        pure icol))
                    let icol : Nat := e4
                    let ird : Nat := (((((256 + ((256 * j) % U32)) % U32) + ((32 * icol) % U32)) % U32) + ((8 * r) % U32)) % U32
                    let z_tilde : Byte := (0 : Byte)
                    let e5 : Byte ← (
                      if j < 13 then (do
                        let e6 : Byte ← ld z (ird / 8)
                        let z_tilde : Byte := e6
                        pure z_tilde)
                      else (do
                        let e7 : Byte ← ld z_out (((ird + U32 - ((256 * ((j + 1) % U32)) % U32)) % U32) / 8)
                        let e8 : Byte ← ld x (ird / 8)
                        let z_tilde : Byte := BitVec.ofNat 8 (e7.toNat ^^^ e8.toNat)
                        pure z_tilde))
                    let z_tilde : Byte := e5
                    let e9 ← F.rotr8 z_tilde 7
                    let e10 ← F.rotr8 z_tilde 5
                    let e11 ← F.rotr8 z_tilde 2
                    let y_tilde : Byte := BitVec.ofNat 8 (((e9.toNat ^^^ e10.toNat) ^^^ e11.toNat) ^^^ 5)
                    let e12 ← F.f256.byte_combine_bits y_tilde
                    st y_out ((((((32 * j) % U32) + ((4 * c) % U32)) % U32) + r) % U32) e12
                    let r : Nat := (r + 1) % U32
                    pure r)
                  r
              let c : Nat := (c + 1) % U32
              pure c)
            c
        let j : Nat := (j + 1) % U32
        pure j)
      j
  pure ()

/-- faest_aes.c:2403-2446 `em_enc_backward_256`. -/
def em_enc_backward_256 (F : FImpl) (bf_z : CPtr) (bf_x : CPtr) (bf_z_out : CPtr) (Mtag : Byte) (Mkey : Byte)
    (delta : CPtr) (y_out : CPtr) : CM Unit := do
  let e3 ← (if delta.isSome = true then (do
      let e1 ← F.f256.load delta
      pure e1)
    else (do
      let e2 ← F.f256.zero
      pure e2))
  let bf_delta : BF 256 := e3
  let e4 ← F.f256.mul_bit bf_delta Mkey
  let e5 ← F.f256.from_bit (BitVec.ofNat 8 (1 ^^^ Mkey.toNat))
  let e6 ← F.f256.add e4 e5
  let e7 ← F.f256.mul_bit e6 (BitVec.ofNat 8 (1 ^^^ Mtag.toNat))
  let factor : BF 256 := e7
  let j : Nat := 0
  let e8 : Nat ← cwhile
      (fun _s1 =>
        let j : Nat := _s1
        decide (j < 14))
      (fun _s1 => do
        let j : Nat := _s1
        let c : Nat := 0
        let e9 : Nat ← cwhile
            (fun _s2 =>
              let c : Nat := _s2
              decide (c < 8))
            (fun _s2 => do
              let c : Nat := _s2
              let r : Nat := 0
              let e10 : Nat ← cwhile
                  (fun _s3 =>
                    let r : Nat := _s3
                    decide (r ≤ 3))
                  (fun _s3 => do
                    let r : Nat := _s3
                    let bf_z_tilde ← alloc .stack (malloc 8 : Mem (BF 256))
                    let icol : Nat := ((((c + U32 - r) % U32) + 8) % U32) % 8
                    let e11 : Nat ← (
                      if (8 = 8) ∧ (r ≥ 2) then (do
                        let icol : Nat := ((((icol + U32 - 1) % U32) + 8) % U32) % 8
                        pure icol)
                      else (do
                        pure icol))
                    let icol : Nat := e11
                    let ird : Nat := (((((256 + ((256 * j) % U32)) % U32) + ((32 * icol) % U32)) % U32) + ((8 * r) % U32)) % U32
                    let e12 : Unit ← (
                      if j < 13 then (do
                        memcpy (α := BF 256) bf_z_tilde (padd bf_z ird) 8
                        pure ())
                      else (do
                        let i : Nat := 0
                        let e13 : Nat ← cwhile
                            (fun _s4 =>
                              let i : Nat := _s4
                              decide (i < 8))
                            (fun _s4 => do
                              let i : Nat := _s4
                              let e14 : BF 256 ← ld bf_z_out ((((ird + U32 - ((256 * ((j + 1) % U32)) % U32)) % U32) + i) % U32)
                              st bf_z_tilde i e14
                              let e15 : Unit ← (
                                if bf_x.isSome = true then (do
                                  let e16 : BF 256 ← ld bf_z_tilde i
                                  let e17 : BF 256 ← ld bf_x ((ird + i) % U32)
                                  let e18 ← F.f256.add e16 e17
                                  st bf_z_tilde i e18
                                  pure ())
                                else (do
                                  pure ()))
                              let i : Nat := (i + 1) % U32
                              pure i)
                            i
                        pure ()))
                    let bf_y_tilde ← alloc .stack (malloc 8 : Mem (BF 256))
                    let i : Nat := 0
                    let e19 : Nat ← cwhile
                        (fun _s4 =>
                          let i : Nat := _s4
                          decide (i < 8))
                        (fun _s4 => do
                          let i : Nat := _s4
                          let e20 : BF 256 ← ld bf_z_tilde (((i + 7) % U32) % 8)
                          let e21 : BF 256 ← ld bf_z_tilde (((i + 5) % U32) % 8)
                          let e22 ← F.f256.add e20 e21
                          let e23 : BF 256 ← ld bf_z_tilde (((i + 2) % U32) % 8)
                          let e24 ← F.f256.add e22 e23
                          st bf_y_tilde i e24
                          let i : Nat := (i + 1) % U32
                          pure i)
                        i
                    let e25 : BF 256 ← ld bf_y_tilde 0
                    let e26 ← F.f256.add e25 factor
                    st bf_y_tilde 0 e26
                    let e27 : BF 256 ← ld bf_y_tilde 2
                    let e28 ← F.f256.add e27 factor
                    st bf_y_tilde 2 e28
                    let e29 ← F.f256.byte_combine bf_y_tilde
                    st y_out ((((((32 * j) % U32) + ((4 * c) % U32)) % U32) + r) % U32) e29
                    cfree .stack bf_y_tilde
                    cfree .stack bf_z_tilde
                    let r : Nat := (r + 1) % U32
                    pure r)
                  r
              let c : Nat := (c + 1) % U32
              pure c)
            c
        let j : Nat := (j + 1) % U32
        pure j)
      j
  pure ()

/-- faest_aes.c:2448-2473 `em_enc_constraints_Mkey_0_256`. -/
def em_enc_constraints_Mkey_0_256 (F : FImpl) (out : CPtr) (x : CPtr) (w : CPtr) (bf_v : CPtr) (a0_ctx : ZkC 256)
    (a1_ctx : ZkC 256) : CM (ZkC 256 × ZkC 256) := do
  let w_out ← alloc .stack (malloc 32 : Mem Byte)
  xor_u8_array out w w_out 32
  let bf_s ← alloc .stack (malloc 448 : Mem (BF 256))
  let bf_vs ← alloc .stack (malloc 448 : Mem (BF 256))
  let bf_s_dash ← alloc .stack (malloc 448 : Mem (BF 256))
  let bf_vs_dash ← alloc .stack (malloc 448 : Mem (BF 256))
  em_enc_forward_256_1 F w x bf_s
  em_enc_forward_256 F bf_v (none : CPtr) bf_vs
  em_enc_backward_256_1 F w x w_out bf_s_dash
  em_enc_backward_256 F bf_v (none : CPtr) bf_v (1 : Byte) (0 : Byte) (none : CPtr) bf_vs_dash
  let j : Nat := 0
  let e1 : ZkC 256 × ZkC 256 × Nat ← cwhile
      (fun _s1 =>
        let j : Nat := _s1.2.2
        decide (j < 448))
      (fun _s1 => do
        let a0_ctx : ZkC 256 := _s1.1
        let a1_ctx : ZkC 256 := _s1.2.1
        let j : Nat := _s1.2.2
        let e2 : BF 256 ← ld bf_vs j
        let e3 : BF 256 ← ld bf_vs_dash j
        let e4 ← F.f256.mul e2 e3
        let tmp : BF 256 := e4
        let e5 ← zk_hash_256_update F a0_ctx tmp
        let a0_ctx := e5
        let e6 : BF 256 ← ld bf_s j
        let e7 : BF 256 ← ld bf_vs j
        let e8 ← F.f256.add e6 e7
        let e9 : BF 256 ← ld bf_s_dash j
        let e10 : BF 256 ← ld bf_vs_dash j
        let e11 ← F.f256.add e9 e10
        let e12 ← F.f256.mul e8 e11
        let e13 ← F.f256.add e12 tmp
        let e14 ← F.f256.one
        let e15 ← F.f256.add e13 e14
        let e16 ← zk_hash_256_update F a1_ctx e15
        let a1_ctx := e16
        let j : Nat := (j + 1) % U32
        pure (a0_ctx, a1_ctx, j))
      (a0_ctx, a1_ctx, j)
  let a0_ctx : ZkC 256 := e1.1
  let a1_ctx : ZkC 256 := e1.2.1
  cfree .stack bf_vs_dash
  cfree .stack bf_s_dash
  cfree .stack bf_vs
  cfree .stack bf_s
  cfree .stack w_out
  pure (a0_ctx, a1_ctx)

/-- faest_aes.c:2475-2503 `em_enc_constraints_Mkey_1_256`. -/
def em_enc_constraints_Mkey_1_256 (F : FImpl) (out : CPtr) (x : CPtr) (bf_q : CPtr) (delta : CPtr)
    (b0_ctx : ZkC 256) : CM (ZkC 256) := do
  let e1 ← F.f256.load delta
  let bf_delta : BF 256 := e1
  let e2 ← alloc .aligned (malloc 3840 : Mem (BF 256))
  let bf_x : CPtr := e2
  let i : Nat := 0
  let e3 : Nat ← cwhile
      (fun _s1 =>
        let i : Nat := _s1
        decide (i < 3840))
      (fun _s1 => do
        let i : Nat := _s1
        let e4 : Byte ← ld x (i / 8)
        let e5 ← F.f256.mul_bit bf_delta (BitVec.ofNat 8 ((e4.toNat >>> (i % 8)) &&& 1))
        st bf_x i e5
        let i : Nat := (i + 1) % U32
        pure i)
      i
  let e6 ← alloc .aligned (malloc 256 : Mem (BF 256))
  let bf_q_out : CPtr := e6
  let i : Nat := 0
  let e7 : Nat ← cwhile
      (fun _s1 =>
        let i : Nat := _s1
        decide (i < 256))
      (fun _s1 => do
        let i : Nat := _s1
        let e8 : Byte ← ld out (i / 8)
        let e9 ← F.f256.mul_bit bf_delta (BitVec.ofNat 8 ((e8.toNat >>> (i % 8)) &&& 1))
        let e10 : BF 256 ← ld bf_q i
        let e11 ← F.f256.add e9 e10
        st bf_q_out i e11
        let i : Nat := (i + 1) % U32
        pure i)
      i
  let bf_qs ← alloc .stack (malloc 448 : Mem (BF 256))
  let bf_qs_dash ← alloc .stack (malloc 448 : Mem (BF 256))
  em_enc_forward_256 F bf_q bf_x bf_qs
  em_enc_backward_256 F bf_q bf_x bf_q_out (0 : Byte) (1 : Byte) delta bf_qs_dash
  cfree .aligned bf_q_out
  cfree .aligned bf_x
  let e12 ← F.f256.mul bf_delta bf_delta
  let minus_part : BF 256 := e12
  let j : Nat := 0
  let e13 : ZkC 256 × Nat ← cwhile
      (fun _s1 =>
        let j : Nat := _s1.2
        decide (j < 448))
      (fun _s1 => do
        let b0_ctx : ZkC 256 := _s1.1
        let j : Nat := _s1.2
        let e14 : BF 256 ← ld bf_qs j
        let e15 : BF 256 ← ld bf_qs_dash j
        let e16 ← F.f256.mul e14 e15
        let e17 ← F.f256.add e16 minus_part
        let e18 ← zk_hash_256_update F b0_ctx e17
        let b0_ctx := e18
        let j : Nat := (j + 1) % U32
        pure (b0_ctx, j))
      (b0_ctx, j)
  let b0_ctx : ZkC 256 := e13.1
  cfree .stack bf_qs_dash
  cfree .stack bf_qs
  pure b0_ctx

/-- faest_aes.c:2505-2534 `em_prove_256`. -/
def em_prove_256 (F : FImpl) (w : CPtr) (u : CPtr) (V : CPtr) (in_ : CPtr) (out : CPtr) (chall : CPtr)
    (a_tilde : CPtr) (b_tilde : CPtr) : CM Unit := do
  let x ← alloc .stack (malloc 480 : Mem Byte)
  let round_keys ← alloc .stack (malloc 480 : Mem Byte)
  let e1 ← rijndael256_init_round_keys F round_keys in_
  let tmp_x : CPtr := x
  let r : Nat := 0
  let e2 : CPtr × Nat ← cwhile
      (fun _s1 =>
        let r : Nat := _s1.2
        decide (r ≠ 15))
      (fun _s1 => do
        let tmp_x : CPtr := _s1.1
        let r : Nat := _s1.2
        let i : Nat := 0
        let e3 : CPtr × Nat ← cwhile
            (fun _s2 =>
              let i : Nat := _s2.2
              decide (i ≠ 8))
            (fun _s2 => do
              let tmp_x : CPtr := _s2.1
              let i : Nat := _s2.2
              memcpy (α := Byte) tmp_x (padd round_keys (32 * r + (4 * i))) 4
              let tmp_x : CPtr := padd tmp_x 4
              let i : Nat := (i + 1) % U32
              pure (tmp_x, i))
            (tmp_x, i)
        let tmp_x : CPtr := e3.1
        let r : Nat := (r + 1) % U32
        pure (tmp_x, r))
      (tmp_x, r)
  let tmp_x : CPtr := e2.1
  cfree .stack round_keys
  let e4 ← column_to_row_major_and_shrink_V_256 F V 3584
  let bf_v : CPtr := e4
  let a0_ctx : ZkC 256 := {}
  let a1_ctx : ZkC 256 := {}
  let e5 ← zk_hash_256_init F a0_ctx chall
  let a0_ctx := e5
  let e6 ← zk_hash_256_init F a1_ctx chall
  let a1_ctx := e6
  let e7 ← em_enc_constraints_Mkey_0_256 F out x w bf_v a0_ctx a1_ctx
  let a0_ctx := e7.1
  let a1_ctx := e7.2
  let e8 ← F.f256.load (padd u 448)
  let e9 ← zk_hash_256_finalize F a_tilde a1_ctx e8
  let a1_ctx := e9
  let e10 ← F.f256.sum_poly (padd bf_v 3584)
  let e11 ← zk_hash_256_finalize F b_tilde a0_ctx e10
  let a0_ctx := e11
  cfree .aligned bf_v
  cfree .stack x
  pure ()

/-- faest_aes.c:2536-2586 `em_verify_256`. -/
def em_verify_256 (F : FImpl) (d : CPtr) (Q : CPtr) (chall_2 : CPtr) (chall_3 : CPtr) (a_tilde : CPtr)
    (in_ : CPtr) (out : CPtr) (params : Params) : CM CPtr := do
  let tau : Nat := params.tau
  let t0 : Nat := params.t0
  let k0 : Nat := params.k0
  let t1 : Nat := params.t1
  let k1 : Nat := params.k1
  let delta : CPtr := chall_3
  let i : Nat := 0
  let col : Nat := 0
  let e1 : Nat × Nat ← cwhile
      (fun _s1 =>
        let i : Nat := _s1.1
        decide (i < tau))
      (fun _s1 => do
        let i : Nat := _s1.1
        let col : Nat := _s1.2
        let depth : Nat := (if i < t0 then k0 else k1)
        let decoded_challenge ← alloc .stack (malloc 12 : Mem Byte)
        let e2 ← ChalDec chall_3 i k0 t0 k1 t1 decoded_challenge
        let j : Nat := 0
        let e3 : Nat × Nat ← cwhile
            (fun _s2 =>
              let j : Nat := _s2.2
              decide (j < depth))
            (fun _s2 => do
              let col : Nat := _s2.1
              let j : Nat := _s2.2
              let e4 : Byte ← ld decoded_challenge j
              let e5 : Unit ← (
                if e4.toNat = 1 then (do
                  let e6 : CPtr ← ld Q col
                  let e7 : CPtr ← ld Q col
                  xor_u8_array d e6 e7 448
                  pure ())
                else (do
                  pure ()))
              let j : Nat := (j + 1) % U32
              let col : Nat := (col + 1) % U32
              pure (col, j))
            (col, j)
        let col : Nat := e3.1
        cfree .stack decoded_challenge
        let i : Nat := (i + 1) % U32
        pure (i, col))
      (i, col)
  let e8 ← column_to_row_major_and_shrink_V_256 F Q 3584
  let bf_q : CPtr := e8
  let x ← alloc .stack (malloc 480 : Mem Byte)
  let round_keys ← alloc .stack (malloc 480 : Mem Byte)
  let e9 ← rijndael256_init_round_keys F round_keys in_
  let tmp_x : CPtr := x
  let r : Nat := 0
  let e10 : CPtr × Nat ← cwhile
      (fun _s1 =>
        let r : Nat := _s1.2
        decide (r ≠ 15))
      (fun _s1 => do
        let tmp_x : CPtr := _s1.1
        let r : Nat := _s1.2
        let i : Nat := 0
        let e11 : CPtr × Nat ← cwhile
            (fun _s2 =>
              let i : Nat := _s2.2
              decide (i ≠ 8))
            (fun _s2 => do
              let tmp_x : CPtr := _s2.1
              let i : Nat := _s2.2
              memcpy (α := Byte) tmp_x (padd round_keys (32 * r + (4 * i))) 4
              let tmp_x : CPtr := padd tmp_x 4
              let i : Nat := (i + 1) % U32
              pure (tmp_x, i))
            (tmp_x, i)
        let tmp_x : CPtr := e11.1
        let r : Nat := (r + 1) % U32
        pure (tmp_x, r))
      (tmp_x, r)
  let tmp_x : CPtr := e10.1
  cfree .stack round_keys
  let b0_ctx : ZkC 256 := {}
  let e12 ← zk_hash_256_init F b0_ctx chall_2
  let b0_ctx := e12
  let e13 ← em_enc_constraints_Mkey_1_256 F out x bf_q delta b0_ctx
  let b0_ctx := e13
  let e14 ← alloc .heap (malloc 32 : Mem Byte)
  let q_tilde : CPtr := e14
  let e15 ← F.f256.sum_poly (padd bf_q 3584)
  let e16 ← zk_hash_256_finalize F q_tilde b0_ctx e15
  let b0_ctx := e16
  cfree .aligned bf_q
  let e17 ← F.f256.load q_tilde
  let bf_qtilde : BF 256 := e17
  let e18 ← F.f256.load a_tilde
  let e19 ← F.f256.load delta
  let e20 ← F.f256.mul e18 e19
  let e21 ← F.f256.add bf_qtilde e20
  F.f256.store q_tilde e21
  cfree .stack x
  pure q_tilde

/-- faest_aes.c:2590-2615 `aes_prove`. -/
def aes_prove (F : FImpl) (w : CPtr) (u : CPtr) (V : CPtr) (in_ : CPtr) (out : CPtr) (chall : CPtr)
    (a_tilde : CPtr) (b_tilde : CPtr) (params : Params) : CM Unit := do
  let e1 : Unit ← (
    if params.lambda = 256 then (do
      let e2 : Unit ← (
        if params.Lke ≠ 0 then (do
          aes_prove_256 F w u V in_ out chall a_tilde b_tilde params
          pure ())
        else (do
          em_prove_256 F w u V in_ out chall a_tilde b_tilde
          pure ()))
      pure ())
    else (if params.lambda = 192 then (do
      let e3 : Unit ← (
        if params.Lke ≠ 0 then (do
          aes_prove_192 F w u V in_ out chall a_tilde b_tilde params
          pure ())
        else (do
          em_prove_192 F w u V in_ out chall a_tilde b_tilde
          pure ()))
      pure ())
    else (do
      let e4 : Unit ← (
        if params.Lke ≠ 0 then (do
          aes_prove_128 F w u V in_ out chall a_tilde b_tilde params
          pure ())
        else (do
          em_prove_128 F w u V in_ out chall a_tilde b_tilde
          pure ()))
      pure ())))
  pure ()

/-- faest_aes.c:2617-2640 `aes_verify`. -/
def aes_verify (F : FImpl) (d : CPtr) (Q : CPtr) (chall_2 : CPtr) (chall_3 : CPtr) (a_tilde : CPtr) (in_ : CPtr)
    (out : CPtr) (params : Params) : CM CPtr := do
  if params.lambda = 256 then (do
    if params.Lke ≠ 0 then (do
      let e1 ← aes_verify_256 F d Q chall_2 chall_3 a_tilde in_ out params
      pure e1)
    else (do
      let e2 ← em_verify_256 F d Q chall_2 chall_3 a_tilde in_ out params
      pure e2))
  else (if params.lambda = 192 then (do
    if params.Lke ≠ 0 then (do
      let e3 ← aes_verify_192 F d Q chall_2 chall_3 a_tilde in_ out params
      pure e3)
    else (do
      let e4 ← em_verify_192 F d Q chall_2 chall_3 a_tilde in_ out params
      pure e4))
  else (do
    if params.Lke ≠ 0 then (do
      let e5 ← aes_verify_128 F d Q chall_2 chall_3 a_tilde in_ out params
      pure e5)
    else (do
      let e6 ← em_verify_128 F d Q chall_2 chall_3 a_tilde in_ out params
      pure e6)))

end Faest.GenW
