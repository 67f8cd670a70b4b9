/-
Generated by tools/c2lean.py from faest_aes.c. Do not edit.
-/
import Verif.Model.Gen.Vole
import Verif.Model.Gen.UHash

set_option linter.unusedVariables false

namespace Faest.Gen
open Faest.C

/-- faest_aes.c:74-77 -/
def Rcon : List Byte :=
  [0x01, 0x02, 0x04, 0x08, 0x10, 0x20, 0x40, 0x80, 0x1b, 0x36, 0x6c, 0xd8, 0xab, 0x4d, 0x9a,
   0x2f, 0x5e, 0xbc, 0x63, 0xc6, 0x97, 0x35, 0x6a, 0xd4, 0xb3, 0x7d, 0xfa, 0xef, 0xc5, 0x91]

/-- faest_aes.c:79-93 `column_to_row_major_and_shrink_V_128`. -/
def column_to_row_major_and_shrink_V_128 (v : CPtr) (ell : Nat) : CM CPtr := do
  let e1 ← alloc .aligned (malloc ((ell + 128) % U32) : Mem (BF 128))
  let new_v : CPtr := e1
  let row : Nat := 0
  let e2 : Nat ← cwhile
      (fun _s1 =>
        let row : Nat := _s1
        decide (row ≠ ((ell + 128) % U32)))
      (fun _s1 => do
        let row : Nat := _s1
        let new_row ← alloc .stack (calloc 16 zeroed : Mem Byte)
        let column : Nat := 0
        let e3 : Nat ← cwhile
            (fun _s2 =>
              let column : Nat := _s2
              decide (column ≠ 128))
            (fun _s2 => do
              let column : Nat := _s2
              let e4 : Byte ← ld new_row (column / 8)
              let e5 : CPtr ← ld v column
              let e6 : Byte ← ld e5 (row / 8)
              st new_row (column / 8) (BitVec.ofNat 8 (e4.toNat ||| (((e6.toNat >>> (row % 8)) &&& 1) <<< (column % 8))))
              let column : Nat := (column + 1) % U32
              pure column)
            column
        let e7 ← bf_load 128 new_row
        st new_v row e7
        cfree .stack new_row
        let row : Nat := (row + 1) % U32
        pure row)
      row
  pure new_v

/-- faest_aes.c:95-109 `column_to_row_major_and_shrink_V_192`. -/
def column_to_row_major_and_shrink_V_192 (v : CPtr) (ell : Nat) : CM CPtr := do
  let e1 ← alloc .aligned (malloc ((ell + 192) % U32) : Mem (BF 192))
  let new_v : CPtr := e1
  let row : Nat := 0
  let e2 : Nat ← cwhile
      (fun _s1 =>
        let row : Nat := _s1
        decide (row ≠ ((ell + 192) % U32)))
      (fun _s1 => do
        let row : Nat := _s1
        let new_row ← alloc .stack (calloc 24 zeroed : Mem Byte)
        let column : Nat := 0
        let e3 : Nat ← cwhile
            (fun _s2 =>
              let column : Nat := _s2
              decide (column ≠ 192))
            (fun _s2 => do
              let column : Nat := _s2
              let e4 : Byte ← ld new_row (column / 8)
              let e5 : CPtr ← ld v column
              let e6 : Byte ← ld e5 (row / 8)
              st new_row (column / 8) (BitVec.ofNat 8 (e4.toNat ||| (((e6.toNat >>> (row % 8)) &&& 1) <<< (column % 8))))
              let column : Nat := (column + 1) % U32
              pure column)
            column
        let e7 ← bf_load 192 new_row
        st new_v row e7
        cfree .stack new_row
        let row : Nat := (row + 1) % U32
        pure row)
      row
  pure new_v

/-- faest_aes.c:111-125 `column_to_row_major_and_shrink_V_256`. -/
def column_to_row_major_and_shrink_V_256 (v : CPtr) (ell : Nat) : CM CPtr := do
  let e1 ← alloc .aligned (malloc ((ell + 256) % U32) : Mem (BF 256))
  let new_v : CPtr := e1
  let row : Nat := 0
  let e2 : Nat ← cwhile
      (fun _s1 =>
        let row : Nat := _s1
        decide (row ≠ ((ell + 256) % U32)))
      (fun _s1 => do
        let row : Nat := _s1
        let new_row ← alloc .stack (calloc 32 zeroed : Mem Byte)
        let column : Nat := 0
        let e3 : Nat ← cwhile
            (fun _s2 =>
              let column : Nat := _s2
              decide (column ≠ 256))
            (fun _s2 => do
              let column : Nat := _s2
              let e4 : Byte ← ld new_row (column / 8)
              let e5 : CPtr ← ld v column
              let e6 : Byte ← ld e5 (row / 8)
              st new_row (column / 8) (BitVec.ofNat 8 (e4.toNat ||| (((e6.toNat >>> (row % 8)) &&& 1) <<< (column % 8))))
              let column : Nat := (column + 1) % U32
              pure column)
            column
        let e7 ← bf_load 256 new_row
        st new_v row e7
        cfree .stack new_row
        let row : Nat := (row + 1) % U32
        pure row)
      row
  pure new_v

/-- faest_aes.c:129-157 `aes_key_schedule_forward_1`. -/
def aes_key_schedule_forward_1 (x : CPtr) (out : CPtr) (params : Params) : CM Unit := do
  let lambda : Nat := params.lambda
  let R : Nat := params.R
  let Nwd : Nat := params.Nwd
  let lambdaBytes : Nat := lambda / 8
  let out_len : Nat := ((((R + 1) % U32) * 128) % U32) / 8
  memcpy (α := Byte) out x lambdaBytes
  memset0 (padd out lambdaBytes) ((out_len + U32 - lambdaBytes) % U32)
  let i_wd : Nat := lambda
  let j : Nat := Nwd
  let e1 : Nat × Nat ← cwhile
      (fun _s1 =>
        let j : Nat := _s1.2
        decide (j < ((4 * ((R + 1) % U32)) % U32)))
      (fun _s1 => do
        let i_wd : Nat := _s1.1
        let j : Nat := _s1.2
        let e2 ← cmod j Nwd
        let e3 ← cmod j Nwd
        let e4 : Nat ← (
          if (e2 = 0) ∨ ((Nwd > 6) ∧ (e3 = 4)) then (do
            memcpy (α := Byte) (padd out (((32 * j) % U32) / 8)) (padd x (i_wd / 8)) 4
            let i_wd : Nat := (i_wd + 32) % U32
            pure i_wd)
          else (do
            let i : Nat := 0
            let e5 : Nat ← cwhile
                (fun _s2 =>
                  let i : Nat := _s2
                  decide (i < 32))
                (fun _s2 => do
                  let i : Nat := _s2
                  let e6 : Byte ← ld out (((((32 * j) % U32) + i) % U32) / 8)
                  let e7 : Byte ← ld out (((((32 * ((j + U32 - Nwd) % U32)) % U32) + i) % U32) / 8)
                  let e8 : Byte ← ld out (((((32 * ((j + U32 - 1) % U32)) % U32) + i) % U32) / 8)
                  st out (((((32 * j) % U32) + i) % U32) / 8) (BitVec.ofNat 8 (e6.toNat ||| (e7.toNat ^^^ e8.toNat)))
                  let i : Nat := (i + 8) % U32
                  pure i)
                i
            pure i_wd))
        let i_wd : Nat := e4
        let j : Nat := (j + 1) % U32
        pure (i_wd, j))
      (i_wd, j)
  let i_wd : Nat := e1.1
  pure ()

/-- faest_aes.c:159-204 `aes_key_schedule_backward_1`. -/
def aes_key_schedule_backward_1 (x : CPtr) (xk : CPtr) (out : CPtr) (params : Params) : CM Unit := do
  let lambda : Nat := params.lambda
  let Ske : Nat := params.Ske
  let iwd : Nat := 0
  let c : Nat := 0
  let rmvRcon : Bool := true
  let ircon : Nat := 0
  let j : Nat := 0
  let e1 : Nat × Nat × Bool × Nat × Nat ← cwhile
      (fun _s1 =>
        let j : Nat := _s1.2.2.2.2
        decide (j < Ske))
      (fun _s1 => do
        let iwd : Nat := _s1.1
        let c : Nat := _s1.2.1
        let rmvRcon : Bool := _s1.2.2.1
        let ircon : Nat := _s1.2.2.2.1
        let j : Nat := _s1.2.2.2.2
        let e2 : Byte ← ld x j
        let e3 : Byte ← ld xk ((iwd + c) % U32)
        let x_tilde : Byte := BitVec.ofNat 8 (e2.toNat ^^^ e3.toNat)
        let e4 : Nat × Byte ← (
          if (rmvRcon = true) ∧ (c = 0) then (do
            let e5 ← tget Rcon ircon
            let x_tilde : Byte := BitVec.ofNat 8 (x_tilde.toNat ^^^ e5.toNat)
            let ircon : Nat := (ircon + 1) % U32
            pure (ircon, x_tilde))
          else (do
            pure (ircon, x_tilde)))
        let ircon : Nat := e4.1
        let x_tilde : Byte := e4.2
        let y_tilde : Byte := BitVec.ofNat 8 ((((rotr8 x_tilde 7).toNat) ^^^ ((rotr8 x_tilde 5).toNat)) ^^^ ((rotr8 x_tilde 2).toNat))
        st out j (BitVec.ofNat 8 (y_tilde.toNat ^^^ 5))
        let c : Nat := (c + 1) % U32
        let e6 : Nat × Nat × Bool ← (
          if c = 4 then (do
            let c : Nat := 0
            let e7 : Nat × Bool ← (
              if lambda = 192 then (do
                let iwd : Nat := (iwd + 24) % U32
                pure (iwd, rmvRcon))
              else (do
                let iwd : Nat := (iwd + 16) % U32
                let e8 : Bool ← (
                  if lambda = 256 then (do
                    let rmvRcon : Bool := decide (¬ (rmvRcon = true))
                    pure rmvRcon)
                  else (do
                    pure rmvRcon))
                let rmvRcon : Bool := e8
                pure (iwd, rmvRcon)))
            let iwd : Nat := e7.1
            let rmvRcon : Bool := e7.2
            pure (iwd, c, rmvRcon))
          else (do
            pure (iwd, c, rmvRcon)))
        let iwd : Nat := e6.1
        let c : Nat := e6.2.1
        let rmvRcon : Bool := e6.2.2
        let j : Nat := (j + 1) % U32
        pure (iwd, c, rmvRcon, ircon, j))
      (iwd, c, rmvRcon, ircon, j)
  let iwd : Nat := e1.1
  let c : Nat := e1.2.1
  let rmvRcon : Bool := e1.2.2.1
  let ircon : Nat := e1.2.2.2.1
  pure ()

/-- faest_aes.c:208-228 `aes_key_schedule_forward_128`. -/
def aes_key_schedule_forward_128 (v : CPtr) (bf_out : CPtr) : CM Unit := do
  memcpy (α := BF 128) bf_out v 128
  let i_wd : Nat := 128
  let j : Nat := 4
  let e1 : Nat × Nat ← cwhile
      (fun _s1 =>
        let j : Nat := _s1.2
        decide (j < 44))
      (fun _s1 => do
        let i_wd : Nat := _s1.1
        let j : Nat := _s1.2
        let e2 : Nat ← (
          if ((j % 4) = 0) ∨ ((4 > 6) ∧ ((j % 4) = 4)) then (do
            memcpy (α := BF 128) (padd bf_out ((j * 32) % U32)) (padd v i_wd) 32
            let i_wd : Nat := (i_wd + 32) % U32
            pure i_wd)
          else (do
            let i : Nat := 0
            let e3 : Nat ← cwhile
                (fun _s2 =>
                  let i : Nat := _s2
                  decide (i < 32))
                (fun _s2 => do
                  let i : Nat := _s2
                  let e4 : BF 128 ← ld bf_out ((((32 * ((j + U32 - 4) % U32)) % U32) + i) % U32)
                  let e5 : BF 128 ← ld bf_out ((((32 * ((j + U32 - 1) % U32)) % U32) + i) % U32)
                  st bf_out ((((32 * j) % U32) + i) % U32) (bfAdd e4 e5)
                  let i : Nat := (i + 1) % U32
                  pure i)
                i
            pure i_wd))
        let i_wd : Nat := e2
        let j : Nat := (j + 1) % U32
        pure (i_wd, j))
      (i_wd, j)
  let i_wd : Nat := e1.1
  pure ()

/-- faest_aes.c:230-282 `aes_key_schedule_backward_128`. -/
def aes_key_schedule_backward_128 (v : CPtr) (Vk : CPtr) (Mtag : Byte) (Mkey : Byte) (delta : CPtr)
    (bf_out : CPtr) : CM Unit := do
  cassert (decide (¬ (((Mtag.toNat = 1) ∧ (Mkey.toNat = 1)) ∨ ((Mkey.toNat = 1) ∧ (¬ (delta.isSome = true))))))
  let e2 ← (if delta.isSome = true then (do
      let e1 ← bf_load 128 delta
      pure e1)
    else (do
      pure (bfZero : BF 128)))
  let bf_delta : BF 128 := e2
  let iwd : Nat := 0
  let c : Nat := 0
  let ircon : Nat := 0
  let bf_minus_mkey : BF 128 := (bfFromBit (n := 128)) (BitVec.ofNat 8 (1 ^^^ Mkey.toNat))
  let minus_mtag : Byte := BitVec.ofNat 8 (1 ^^^ Mtag.toNat)
  let bf_mkey_times_delta : BF 128 := bfMulBit bf_delta Mkey
  let bf_mkey_times_delta : BF 128 := bfAdd bf_mkey_times_delta bf_minus_mkey
  let j : Nat := 0
  let e3 : Nat × Nat × Nat × Nat ← cwhile
      (fun _s1 =>
        let j : Nat := _s1.2.2.2
        decide (j < 40))
      (fun _s1 => do
        let iwd : Nat := _s1.1
        let c : Nat := _s1.2.1
        let ircon : Nat := _s1.2.2.1
        let j : Nat := _s1.2.2.2
        let bf_x_tilde ← alloc .stack (malloc 8 : Mem (BF 128))
        let i : Nat := 0
        let e4 : Nat ← cwhile
            (fun _s2 =>
              let i : Nat := _s2
              decide (i < 8))
            (fun _s2 => do
              let i : Nat := _s2
              let e5 : BF 128 ← ld v ((((8 * j) % U32) + i) % U32)
              let e6 : BF 128 ← ld Vk ((((iwd + ((8 * c) % U32)) % U32) + i) % U32)
              st bf_x_tilde i (bfAdd e5 e6)
              let i : Nat := (i + 1) % U32
              pure i)
            i
        let e7 : Nat ← (
          if (Mtag.toNat = 0) ∧ (c = 0) then (do
            let e8 ← tget Rcon ircon
            let r : Byte := e8
            let ircon : Nat := (ircon + 1) % U32
            let bf_r ← alloc .stack (malloc 8 : Mem (BF 128))
            let i : Nat := 0
            let e9 : Nat ← cwhile
                (fun _s2 =>
                  let i : Nat := _s2
                  decide (i < 8))
                (fun _s2 => do
                  let i : Nat := _s2
                  let e10 ← cshr 32 r.toNat i
                  st bf_r i (bfMulBit bf_mkey_times_delta (BitVec.ofNat 8 (e10 &&& 1)))
                  let e11 : BF 128 ← ld bf_x_tilde i
                  let e12 : BF 128 ← ld bf_r i
                  st bf_x_tilde i (bfAdd e11 e12)
                  let i : Nat := (i + 1) % U32
                  pure i)
                i
            cfree .stack bf_r
            pure ircon)
          else (do
            pure ircon))
        let ircon : Nat := e7
        let i : Nat := 0
        let e13 : Nat ← cwhile
            (fun _s2 =>
              let i : Nat := _s2
              decide (i < 8))
            (fun _s2 => do
              let i : Nat := _s2
              let e14 : BF 128 ← ld bf_x_tilde (((i + 7) % U32) % 8)
              let e15 : BF 128 ← ld bf_x_tilde (((i + 5) % U32) % 8)
              let e16 : BF 128 ← ld bf_x_tilde (((i + 2) % U32) % 8)
              st bf_out ((i + ((8 * j) % U32)) % U32) (bfAdd (bfAdd e14 e15) e16)
              let i : Nat := (i + 1) % U32
              pure i)
            i
        let e17 : BF 128 ← ld bf_out ((0 + ((8 * j) % U32)) % U32)
        st bf_out ((0 + ((8 * j) % U32)) % U32) (bfAdd e17 (bfMulBit bf_mkey_times_delta minus_mtag))
        let e18 : BF 128 ← ld bf_out ((2 + ((8 * j) % U32)) % U32)
        st bf_out ((2 + ((8 * j) % U32)) % U32) (bfAdd e18 (bfMulBit bf_mkey_times_delta minus_mtag))
        let c : Nat := (c + 1) % U32
        let e19 : Nat × Nat ← (
          if c = 4 then (do
            let c : Nat := 0
            let iwd : Nat := (iwd + 128) % U32
            pure (iwd, c))
          else (do
            pure (iwd, c)))
        let iwd : Nat := e19.1
        let c : Nat := e19.2
        cfree .stack bf_x_tilde
        let j : Nat := (j + 1) % U32
        pure (iwd, c, ircon, j))
      (iwd, c, ircon, j)
  let iwd : Nat := e3.1
  let c : Nat := e3.2.1
  let ircon : Nat := e3.2.2.1
  pure ()

/-- faest_aes.c:284-332 `aes_key_schedule_constraints_Mkey_0_128`. -/
def aes_key_schedule_constraints_Mkey_0_128 (w : CPtr) (v : CPtr) (a0_ctx : ZkC 128) (a1_ctx : ZkC 128)
    (k : CPtr) (vk : CPtr) (params : Params) : CM (ZkC 128 × ZkC 128) := do
  cassert (decide (40 = params.Ske))
  aes_key_schedule_forward_1 w k params
  aes_key_schedule_forward_128 v vk
  let w_dash ← alloc .stack (malloc 40 : Mem Byte)
  aes_key_schedule_backward_1 (padd w 16) k w_dash params
  let v_w_dash ← alloc .stack (malloc 320 : Mem (BF 128))
  aes_key_schedule_backward_128 (padd v 128) vk (1 : Byte) (0 : Byte) (none : CPtr) v_w_dash
  let iwd : Nat := 96
  let j : Nat := 0
  let e1 : ZkC 128 × ZkC 128 × Nat × Nat ← cwhile
      (fun _s1 =>
        let j : Nat := _s1.2.2.2
        decide (j < 10))
      (fun _s1 => do
        let a0_ctx : ZkC 128 := _s1.1
        let a1_ctx : ZkC 128 := _s1.2.1
        let iwd : Nat := _s1.2.2.1
        let j : Nat := _s1.2.2.2
        let bf_k_hat ← alloc .stack (malloc 4 : Mem (BF 128))
        let bf_v_k_hat ← alloc .stack (malloc 4 : Mem (BF 128))
        let bf_w_dash_hat ← alloc .stack (malloc 4 : Mem (BF 128))
        let bf_v_w_dash_hat ← alloc .stack (malloc 4 : Mem (BF 128))
        let r : Nat := 0
        let e2 : Nat ← cwhile
            (fun _s2 =>
              let r : Nat := _s2
              decide (r ≤ 3))
            (fun _s2 => do
              let r : Nat := _s2
              let e3 : Byte ← ld k (((iwd + ((8 * r) % U32)) % U32) / 8)
              let e4 ← bf_byte_combine_bits 128 e3
              st bf_k_hat (((r + 3) % U32) % 4) e4
              let e5 ← bf_byte_combine 128 (padd vk ((iwd + ((8 * r) % U32)) % U32))
              st bf_v_k_hat (((r + 3) % U32) % 4) e5
              let e6 : Byte ← ld w_dash (((((32 * j) % U32) + ((8 * r) % U32)) % U32) / 8)
              let e7 ← bf_byte_combine_bits 128 e6
              st bf_w_dash_hat r e7
              let e8 ← bf_byte_combine 128 (padd v_w_dash ((((32 * j) % U32) + ((8 * r) % U32)) % U32))
              st bf_v_w_dash_hat r e8
              let r : Nat := (r + 1) % U32
              pure r)
            r
        let r : Nat := 0
        let e9 : ZkC 128 × ZkC 128 × Nat ← cwhile
            (fun _s2 =>
              let r : Nat := _s2.2.2
              decide (r ≤ 3))
            (fun _s2 => do
              let a0_ctx : ZkC 128 := _s2.1
              let a1_ctx : ZkC 128 := _s2.2.1
              let r : Nat := _s2.2.2
              let e10 : BF 128 ← ld bf_v_k_hat r
              let e11 : BF 128 ← ld bf_v_w_dash_hat r
              let tmp : BF 128 := bfMul e10 e11
              let e12 ← zk_hash_128_update a0_ctx tmp
              let a0_ctx := e12
              let e13 : BF 128 ← ld bf_k_hat r
              let e14 : BF 128 ← ld bf_v_k_hat r
              let e15 : BF 128 ← ld bf_w_dash_hat r
              let e16 : BF 128 ← ld bf_v_w_dash_hat r
              let e17 ← zk_hash_128_update a1_ctx (bfAdd (bfAdd (bfMul (bfAdd e13 e14) (bfAdd e15 e16)) (bfOne : BF 128)) tmp)
              let a1_ctx := e17
              let r : Nat := (r + 1) % U32
              pure (a0_ctx, a1_ctx, r))
            (a0_ctx, a1_ctx, r)
        let a0_ctx : ZkC 128 := e9.1
        let a1_ctx : ZkC 128 := e9.2.1
        let iwd : Nat := (iwd + 128) % U32
        cfree .stack bf_v_w_dash_hat
        cfree .stack bf_w_dash_hat
        cfree .stack bf_v_k_hat
        cfree .stack bf_k_hat
        let j : Nat := (j + 1) % U32
        pure (a0_ctx, a1_ctx, iwd, j))
      (a0_ctx, a1_ctx, iwd, j)
  let a0_ctx : ZkC 128 := e1.1
  let a1_ctx : ZkC 128 := e1.2.1
  let iwd : Nat := e1.2.2.1
  cfree .stack v_w_dash
  cfree .stack w_dash
  pure (a0_ctx, a1_ctx)

/-- faest_aes.c:334-362 `aes_key_schedule_constraints_Mkey_1_128`. -/
def aes_key_schedule_constraints_Mkey_1_128 (q : CPtr) (delta : CPtr) (b0_ctx : ZkC 128) (qk : CPtr) : CM (ZkC 128) := do
  aes_key_schedule_forward_128 q qk
  let q_w_dash ← alloc .stack (malloc 320 : Mem (BF 128))
  aes_key_schedule_backward_128 (padd q 128) qk (0 : Byte) (1 : Byte) delta q_w_dash
  let e1 ← bf_load 128 delta
  let bf_delta : BF 128 := e1
  let delta_squared : BF 128 := bfMul bf_delta bf_delta
  let iwd : Nat := 96
  let j : Nat := 0
  let e2 : ZkC 128 × Nat × Nat ← cwhile
      (fun _s1 =>
        let j : Nat := _s1.2.2
        decide (j < 10))
      (fun _s1 => do
        let b0_ctx : ZkC 128 := _s1.1
        let iwd : Nat := _s1.2.1
        let j : Nat := _s1.2.2
        let bf_q_hat_k ← alloc .stack (malloc 4 : Mem (BF 128))
        let bf_q_hat_w_dash ← alloc .stack (malloc 4 : Mem (BF 128))
        let r : Nat := 0
        let e3 : Nat ← cwhile
            (fun _s2 =>
              let r : Nat := _s2
              decide (r ≤ 3))
            (fun _s2 => do
              let r : Nat := _s2
              let e4 ← bf_byte_combine 128 (padd qk ((iwd + ((8 * r) % U32)) % U32))
              st bf_q_hat_k (((r + 3) % U32) % 4) e4
              let e5 ← bf_byte_combine 128 (padd q_w_dash ((((32 * j) % U32) + ((8 * r) % U32)) % U32))
              st bf_q_hat_w_dash r e5
              let r : Nat := (r + 1) % U32
              pure r)
            r
        let r : Nat := 0
        let e6 : ZkC 128 × Nat ← cwhile
            (fun _s2 =>
              let r : Nat := _s2.2
              decide (r ≤ 3))
            (fun _s2 => do
              let b0_ctx : ZkC 128 := _s2.1
              let r : Nat := _s2.2
              let e7 : BF 128 ← ld bf_q_hat_k r
              let e8 : BF 128 ← ld bf_q_hat_w_dash r
              let bf_tmp : BF 128 := bfMul e7 e8
              let e9 ← zk_hash_128_update b0_ctx (bfAdd bf_tmp delta_squared)
              let b0_ctx := e9
              let r : Nat := (r + 1) % U32
              pure (b0_ctx, r))
            (b0_ctx, r)
        let b0_ctx : ZkC 128 := e6.1
        let iwd : Nat := (iwd + 128) % U32
        cfree .stack bf_q_hat_w_dash
        cfree .stack bf_q_hat_k
        let j : Nat := (j + 1) % U32
        pure (b0_ctx, iwd, j))
      (b0_ctx, iwd, j)
  let b0_ctx : ZkC 128 := e2.1
  let iwd : Nat := e2.2.1
  cfree .stack q_w_dash
  pure b0_ctx

/-- faest_aes.c:364-419 `aes_enc_forward_128_1`. -/
def aes_enc_forward_128_1 (x : CPtr) (xk : CPtr) (in_ : CPtr) (bf_y : CPtr) : CM Unit := do
  let i : Nat := 0
  let e1 : Nat ← cwhile
      (fun _s1 =>
        let i : Nat := _s1
        decide (i < 16))
      (fun _s1 => do
        let i : Nat := _s1
        let e2 : Byte ← ld in_ i
        let xin : Byte := e2
        let e3 ← bf_byte_combine_bits 128 xin
        let e4 : Byte ← ld xk i
        let e5 ← bf_byte_combine_bits 128 e4
        st bf_y i (bfAdd e3 e5)
        let i : Nat := (i + 1) % U32
        pure i)
      i
  let e6 ← bf_byte_combine_bits 128 (2 : Byte)
  let bf_two : BF 128 := e6
  let e7 ← bf_byte_combine_bits 128 (3 : Byte)
  let bf_three : BF 128 := e7
  let j : Nat := 1
  let e8 : Nat ← cwhile
      (fun _s1 =>
        let j : Nat := _s1
        decide (j < 10))
      (fun _s1 => do
        let j : Nat := _s1
        let c : Nat := 0
        let e9 : Nat ← cwhile
            (fun _s2 =>
              let c : Nat := _s2
              decide (c ≤ 3))
            (fun _s2 => do
              let c : Nat := _s2
              let ix : Nat := (((128 * ((j + U32 - 1) % U32)) % U32) + ((32 * c) % U32)) % U32
              let ik : Nat := (((128 * j) % U32) + ((32 * c) % U32)) % U32
              let iy : Nat := (((16 * j) % U32) + ((4 * c) % U32)) % U32
              let bf_x_hat ← alloc .stack (malloc 4 : Mem (BF 128))
              let bf_xk_hat ← alloc .stack (malloc 4 : Mem (BF 128))
              let r : Nat := 0
              let e10 : Nat ← cwhile
                  (fun _s3 =>
                    let r : Nat := _s3
                    decide (r ≤ 3))
                  (fun _s3 => do
                    let r : Nat := _s3
                    let e11 : Byte ← ld x (((ix + ((8 * r) % U32)) % U32) / 8)
                    let e12 ← bf_byte_combine_bits 128 e11
                    st bf_x_hat r e12
                    let e13 : Byte ← ld xk (((ik + ((8 * r) % U32)) % U32) / 8)
                    let e14 ← bf_byte_combine_bits 128 e13
                    st bf_xk_hat r e14
                    let r : Nat := (r + 1) % U32
                    pure r)
                  r
              let e15 : BF 128 ← ld bf_xk_hat 0
              let e16 : BF 128 ← ld bf_x_hat 0
              st bf_y ((iy + 0) % U32) (bfAdd e15 (bfMul e16 bf_two))
              let e17 : BF 128 ← ld bf_y ((iy + 0) % U32)
              let e18 : BF 128 ← ld bf_x_hat 1
              st bf_y ((iy + 0) % U32) (bfAdd e17 (bfMul e18 bf_three))
              let e19 : BF 128 ← ld bf_y ((iy + 0) % U32)
              let e20 : BF 128 ← ld bf_x_hat 2
              st bf_y ((iy + 0) % U32) (bfAdd e19 e20)
              let e21 : BF 128 ← ld bf_y ((iy + 0) % U32)
              let e22 : BF 128 ← ld bf_x_hat 3
              st bf_y ((iy + 0) % U32) (bfAdd e21 e22)
              let e23 : BF 128 ← ld bf_xk_hat 1
              let e24 : BF 128 ← ld bf_x_hat 0
              st bf_y ((iy + 1) % U32) (bfAdd e23 e24)
              let e25 : BF 128 ← ld bf_y ((iy + 1) % U32)
              let e26 : BF 128 ← ld bf_x_hat 1
              st bf_y ((iy + 1) % U32) (bfAdd e25 (bfMul e26 bf_two))
              let e27 : BF 128 ← ld bf_y ((iy + 1) % U32)
              let e28 : BF 128 ← ld bf_x_hat 2
              st bf_y ((iy + 1) % U32) (bfAdd e27 (bfMul e28 bf_three))
              let e29 : BF 128 ← ld bf_y ((iy + 1) % U32)
              let e30 : BF 128 ← ld bf_x_hat 3
              st bf_y ((iy + 1) % U32) (bfAdd e29 e30)
              let e31 : BF 128 ← ld bf_xk_hat 2
              let e32 : BF 128 ← ld bf_x_hat 0
              st bf_y ((iy + 2) % U32) (bfAdd e31 e32)
              let e33 : BF 128 ← ld bf_y ((iy + 2) % U32)
              let e34 : BF 128 ← ld bf_x_hat 1
              st bf_y ((iy + 2) % U32) (bfAdd e33 e34)
              let e35 : BF 128 ← ld bf_y ((iy + 2) % U32)
              let e36 : BF 128 ← ld bf_x_hat 2
              st bf_y ((iy + 2) % U32) (bfAdd e35 (bfMul e36 bf_two))
              let e37 : BF 128 ← ld bf_y ((iy + 2) % U32)
              let e38 : BF 128 ← ld bf_x_hat 3
              st bf_y ((iy + 2) % U32) (bfAdd e37 (bfMul e38 bf_three))
              let e39 : BF 128 ← ld bf_xk_hat 3
              let e40 : BF 128 ← ld bf_x_hat 0
              st bf_y ((iy + 3) % U32) (bfAdd e39 (bfMul e40 bf_three))
              let e41 : BF 128 ← ld bf_y ((iy + 3) % U32)
              let e42 : BF 128 ← ld bf_x_hat 1
              st bf_y ((iy + 3) % U32) (bfAdd e41 e42)
              let e43 : BF 128 ← ld bf_y ((iy + 3) % U32)
              let e44 : BF 128 ← ld bf_x_hat 2
              st bf_y ((iy + 3) % U32) (bfAdd e43 e44)
              let e45 : BF 128 ← ld bf_y ((iy + 3) % U32)
              let e46 : BF 128 ← ld bf_x_hat 3
              st bf_y ((iy + 3) % U32) (bfAdd e45 (bfMul e46 bf_two))
              cfree .stack bf_xk_hat
              cfree .stack bf_x_hat
              let c : Nat := (c + 1) % U32
              pure c)
            c
        let j : Nat := (j + 1) % U32
        pure j)
      j
  pure ()

/-- faest_aes.c:421-478 `aes_enc_forward_128`. -/
def aes_enc_forward_128 (bf_x : CPtr) (bf_xk : CPtr) (in_ : CPtr) (Mtag : Byte) (Mkey : Byte) (delta : CPtr)
    (bf_y : CPtr) : CM Unit := do
  let e2 ← (if delta.isSome = true then (do
      let e1 ← bf_load 128 delta
      pure e1)
    else (do
      pure (bfZero : BF 128)))
  let bf_delta : BF 128 := e2
  let bf_factor : BF 128 := bfAdd (bfMulBit bf_delta Mkey) ((bfFromBit (n := 128)) (BitVec.ofNat 8 (1 ^^^ Mkey.toNat)))
  let i : Nat := 0
  let e3 : Nat ← cwhile
      (fun _s1 =>
        let i : Nat := _s1
        decide (i < 16))
      (fun _s1 => do
        let i : Nat := _s1
        let bf_xin ← alloc .stack (malloc 8 : Mem (BF 128))
        let j : Nat := 0
        let e4 : Nat ← cwhile
            (fun _s2 =>
              let j : Nat := _s2
              decide (j < 8))
            (fun _s2 => do
              let j : Nat := _s2
              let e5 : Byte ← ld in_ i
              let e6 ← cshr 32 e5.toNat j
              st bf_xin j (bfMulBit bf_factor (BitVec.ofNat 8 ((1 ^^^ Mtag.toNat) &&& (e6 &&& 1))))
              let j : Nat := (j + 1) % U32
              pure j)
            j
        let e7 ← bf_byte_combine 128 bf_xin
        let e8 ← bf_byte_combine 128 (padd bf_xk ((8 * i) % U32))
        st bf_y i (bfAdd e7 e8)
        cfree .stack bf_xin
        let i : Nat := (i + 1) % U32
        pure i)
      i
  let e9 ← bf_byte_combine_bits 128 (2 : Byte)
  let bf_two : BF 128 := e9
  let e10 ← bf_byte_combine_bits 128 (3 : Byte)
  let bf_three : BF 128 := e10
  let j : Nat := 1
  let e11 : Nat ← cwhile
      (fun _s1 =>
        let j : Nat := _s1
        decide (j < 10))
      (fun _s1 => do
        let j : Nat := _s1
        let c : Nat := 0
        let e12 : Nat ← cwhile
            (fun _s2 =>
              let c : Nat := _s2
              decide (c ≤ 3))
            (fun _s2 => do
              let c : Nat := _s2
              let ix : Nat := (((128 * ((j + U32 - 1) % U32)) % U32) + ((32 * c) % U32)) % U32
              let ik : Nat := (((128 * j) % U32) + ((32 * c) % U32)) % U32
              let iy : Nat := (((16 * j) % U32) + ((4 * c) % U32)) % U32
              let bf_x_hat ← alloc .stack (malloc 4 : Mem (BF 128))
              let bf_xk_hat ← alloc .stack (malloc 4 : Mem (BF 128))
              let r : Nat := 0
              let e13 : Nat ← cwhile
                  (fun _s3 =>
                    let r : Nat := _s3
                    decide (r ≤ 3))
                  (fun _s3 => do
                    let r : Nat := _s3
                    let e14 ← bf_byte_combine 128 (padd bf_x ((ix + ((8 * r) % U32)) % U32))
                    st bf_x_hat r e14
                    let e15 ← bf_byte_combine 128 (padd bf_xk ((ik + ((8 * r) % U32)) % U32))
                    st bf_xk_hat r e15
                    let r : Nat := (r + 1) % U32
                    pure r)
                  r
              let e16 : BF 128 ← ld bf_xk_hat 0
              let e17 : BF 128 ← ld bf_x_hat 0
              st bf_y ((iy + 0) % U32) (bfAdd e16 (bfMul e17 bf_two))
              let e18 : BF 128 ← ld bf_y ((iy + 0) % U32)
              let e19 : BF 128 ← ld bf_x_hat 1
              st bf_y ((iy + 0) % U32) (bfAdd e18 (bfMul e19 bf_three))
              let e20 : BF 128 ← ld bf_y ((iy + 0) % U32)
              let e21 : BF 128 ← ld bf_x_hat 2
              st bf_y ((iy + 0) % U32) (bfAdd e20 e21)
              let e22 : BF 128 ← ld bf_y ((iy + 0) % U32)
              let e23 : BF 128 ← ld bf_x_hat 3
              st bf_y ((iy + 0) % U32) (bfAdd e22 e23)
              let e24 : BF 128 ← ld bf_xk_hat 1
              let e25 : BF 128 ← ld bf_x_hat 0
              st bf_y ((iy + 1) % U32) (bfAdd e24 e25)
              let e26 : BF 128 ← ld bf_y ((iy + 1) % U32)
              let e27 : BF 128 ← ld bf_x_hat 1
              st bf_y ((iy + 1) % U32) (bfAdd e26 (bfMul e27 bf_two))
              let e28 : BF 128 ← ld bf_y ((iy + 1) % U32)
              let e29 : BF 128 ← ld bf_x_hat 2
              st bf_y ((iy + 1) % U32) (bfAdd e28 (bfMul e29 bf_three))
              let e30 : BF 128 ← ld bf_y ((iy + 1) % U32)
              let e31 : BF 128 ← ld bf_x_hat 3
              st bf_y ((iy + 1) % U32) (bfAdd e30 e31)
              let e32 : BF 128 ← ld bf_xk_hat 2
              let e33 : BF 128 ← ld bf_x_hat 0
              st bf_y ((iy + 2) % U32) (bfAdd e32 e33)
              let e34 : BF 128 ← ld bf_y ((iy + 2) % U32)
              let e35 : BF 128 ← ld bf_x_hat 1
              st bf_y ((iy + 2) % U32) (bfAdd e34 e35)
              let e36 : BF 128 ← ld bf_y ((iy + 2) % U32)
              let e37 : BF 128 ← ld bf_x_hat 2
              st bf_y ((iy + 2) % U32) (bfAdd e36 (bfMul e37 bf_two))
              let e38 : BF 128 ← ld bf_y ((iy + 2) % U32)
              let e39 : BF 128 ← ld bf_x_hat 3
              st bf_y ((iy + 2) % U32) (bfAdd e38 (bfMul e39 bf_three))
              let e40 : BF 128 ← ld bf_xk_hat 3
              let e41 : BF 128 ← ld bf_x_hat 0
              st bf_y ((iy + 3) % U32) (bfAdd e40 (bfMul e41 bf_three))
              let e42 : BF 128 ← ld bf_y ((iy + 3) % U32)
              let e43 : BF 128 ← ld bf_x_hat 1
              st bf_y ((iy + 3) % U32) (bfAdd e42 e43)
              let e44 : BF 128 ← ld bf_y ((iy + 3) % U32)
              let e45 : BF 128 ← ld bf_x_hat 2
              st bf_y ((iy + 3) % U32) (bfAdd e44 e45)
              let e46 : BF 128 ← ld bf_y ((iy + 3) % U32)
              let e47 : BF 128 ← ld bf_x_hat 3
              st bf_y ((iy + 3) % U32) (bfAdd e46 (bfMul e47 bf_two))
              cfree .stack bf_xk_hat
              cfree .stack bf_x_hat
              let c : Nat := (c + 1) % U32
              pure c)
            c
        let j : Nat := (j + 1) % U32
        pure j)
      j
  pure ()

/-- faest_aes.c:480-510 `aes_enc_backward_128_1`. -/
def aes_enc_backward_128_1 (x : CPtr) (xk : CPtr) (out : CPtr) (y_out : CPtr) : CM Unit := do
  let j : Nat := 0
  let e1 : Nat ← cwhile
      (fun _s1 =>
        let j : Nat := _s1
        decide (j < 10))
      (fun _s1 => do
        let j : Nat := _s1
        let c : Nat := 0
        let e2 : Nat ← cwhile
            (fun _s2 =>
              let c : Nat := _s2
              decide (c ≤ 3))
            (fun _s2 => do
              let c : Nat := _s2
              let r : Nat := 0
              let e3 : Nat ← cwhile
                  (fun _s3 =>
                    let r : Nat := _s3
                    decide (r ≤ 3))
                  (fun _s3 => do
                    let r : Nat := _s3
                    let ird : Nat := (((((128 * j) % U32) + ((32 * (((((c + U32 - r) % U32) + 4) % U32) % 4)) % U32)) % U32) + ((8 * r) % U32)) % U32
                    let e4 : Byte ← (
                      if j < 9 then (do
                        let e5 : Byte ← ld x (ird / 8)
                        let xtilde : Byte := e5
                        pure xtilde)
                      else (do
                        let e6 : Byte ← ld out (((ird + U32 - 1152) % U32) / 8)
                        let xout : Byte := e6
                        let e7 : Byte ← ld xk (((128 + ird) % U32) / 8)
                        let xtilde : Byte := BitVec.ofNat 8 (xout.toNat ^^^ e7.toNat)
                        pure xtilde))
                    let xtilde : Byte := e4
                    let ytilde : Byte := BitVec.ofNat 8 (((((rotr8 xtilde 7).toNat) ^^^ ((rotr8 xtilde 5).toNat)) ^^^ ((rotr8 xtilde 2).toNat)) ^^^ 5)
                    let e8 ← bf_byte_combine_bits 128 ytilde
                    st y_out ((((((16 * j) % U32) + ((4 * c) % U32)) % U32) + r) % U32) e8
                    let r : Nat := (r + 1) % U32
                    pure r)
                  r
              let c : Nat := (c + 1) % U32
              pure c)
            c
        let j : Nat := (j + 1) % U32
        pure j)
      j
  pure ()

/-- faest_aes.c:512-555 `aes_enc_backward_128`. -/
def aes_enc_backward_128 (bf_x : CPtr) (bf_xk : CPtr) (Mtag : Byte) (Mkey : Byte) (delta : CPtr) (out : CPtr)
    (y_out : CPtr) : CM Unit := do
  let e2 ← (if delta.isSome = true then (do
      let e1 ← bf_load 128 delta
      pure e1)
    else (do
      pure (bfZero : BF 128)))
  let bf_delta : BF 128 := e2
  let factor : BF 128 := bfMulBit (bfAdd (bfMulBit bf_delta Mkey) ((bfFromBit (n := 128)) (BitVec.ofNat 8 (1 ^^^ Mkey.toNat)))) (BitVec.ofNat 8 (1 ^^^ Mtag.toNat))
  let j : Nat := 0
  let e3 : Nat ← cwhile
      (fun _s1 =>
        let j : Nat := _s1
        decide (j < 10))
      (fun _s1 => do
        let j : Nat := _s1
        let c : Nat := 0
        let e4 : Nat ← cwhile
            (fun _s2 =>
              let c : Nat := _s2
              decide (c ≤ 3))
            (fun _s2 => do
              let c : Nat := _s2
              let r : Nat := 0
              let e5 : Nat ← cwhile
                  (fun _s3 =>
                    let r : Nat := _s3
                    decide (r ≤ 3))
                  (fun _s3 => do
                    let r : Nat := _s3
                    let bf_x_tilde ← alloc .stack (malloc 8 : Mem (BF 128))
                    let ird : Nat := (((((128 * j) % U32) + ((32 * (((((c + U32 - r) % U32) + 4) % U32) % 4)) % U32)) % U32) + ((8 * r) % U32)) % U32
                    let e6 : Unit ← (
                      if j < 9 then (do
                        memcpy (α := BF 128) bf_x_tilde (padd bf_x ird) 8
                        pure ())
                      else (do
                        let i : Nat := 0
                        let e7 : Nat ← cwhile
                            (fun _s4 =>
                              let i : Nat := _s4
                              decide (i < 8))
                            (fun _s4 => do
                              let i : Nat := _s4
                              let e8 : Byte ← ld out (((ird + U32 - 1152) % U32) / 8)
                              let e9 ← cshr 32 e8.toNat i
                              let bf_xout : BF 128 := bfMulBit factor (BitVec.ofNat 8 (e9 &&& 1))
                              let e10 : BF 128 ← ld bf_xk ((((128 + ird) % U32) + i) % U32)
                              st bf_x_tilde i (bfAdd bf_xout e10)
                              let i : Nat := (i + 1) % U32
                              pure i)
                            i
                        pure ()))
                    let bf_y_tilde ← alloc .stack (malloc 8 : Mem (BF 128))
                    let i : Nat := 0
                    let e11 : Nat ← cwhile
                        (fun _s4 =>
                          let i : Nat := _s4
                          decide (i < 8))
                        (fun _s4 => do
                          let i : Nat := _s4
                          let e12 : BF 128 ← ld bf_x_tilde (((i + 7) % U32) % 8)
                          let e13 : BF 128 ← ld bf_x_tilde (((i + 5) % U32) % 8)
                          let e14 : BF 128 ← ld bf_x_tilde (((i + 2) % U32) % 8)
                          st bf_y_tilde i (bfAdd (bfAdd e12 e13) e14)
                          let i : Nat := (i + 1) % U32
                          pure i)
                        i
                    let e15 : BF 128 ← ld bf_y_tilde 0
                    st bf_y_tilde 0 (bfAdd e15 factor)
                    let e16 : BF 128 ← ld bf_y_tilde 2
                    st bf_y_tilde 2 (bfAdd e16 factor)
                    let e17 ← bf_byte_combine 128 bf_y_tilde
                    st y_out ((((((16 * j) % U32) + ((4 * c) % U32)) % U32) + r) % U32) e17
                    cfree .stack bf_y_tilde
                    cfree .stack bf_x_tilde
                    let r : Nat := (r + 1) % U32
                    pure r)
                  r
              let c : Nat := (c + 1) % U32
              pure c)
            c
        let j : Nat := (j + 1) % U32
        pure j)
      j
  pure ()

/-- faest_aes.c:557-578 `aes_enc_constraints_Mkey_0_128`. -/
def aes_enc_constraints_Mkey_0_128 (in_ : CPtr) (out : CPtr) (w : CPtr) (v : CPtr) (k : CPtr) (vk : CPtr)
    (a0_ctx : ZkC 128) (a1_ctx : ZkC 128) : CM (ZkC 128 × ZkC 128) := do
  let s ← alloc .stack (malloc 160 : Mem (BF 128))
  let vs ← alloc .stack (malloc 160 : Mem (BF 128))
  let s_dash ← alloc .stack (malloc 160 : Mem (BF 128))
  let vs_dash ← alloc .stack (malloc 160 : Mem (BF 128))
  aes_enc_forward_128_1 w k in_ s
  aes_enc_forward_128 v vk in_ (1 : Byte) (0 : Byte) (none : CPtr) vs
  aes_enc_backward_128_1 w k out s_dash
  aes_enc_backward_128 v vk (1 : Byte) (0 : Byte) (none : CPtr) out vs_dash
  let j : Nat := 0
  let e1 : ZkC 128 × ZkC 128 × Nat ← cwhile
      (fun _s1 =>
        let j : Nat := _s1.2.2
        decide (j < 160))
      (fun _s1 => do
        let a0_ctx : ZkC 128 := _s1.1
        let a1_ctx : ZkC 128 := _s1.2.1
        let j : Nat := _s1.2.2
        let e2 : BF 128 ← ld vs j
        let e3 : BF 128 ← ld vs_dash j
        let tmp : BF 128 := bfMul e2 e3
        let e4 ← zk_hash_128_update a0_ctx tmp
        let a0_ctx := e4
        let e5 : BF 128 ← ld s j
        let e6 : BF 128 ← ld vs j
        let e7 : BF 128 ← ld s_dash j
        let e8 : BF 128 ← ld vs_dash j
        let e9 ← zk_hash_128_update a1_ctx (bfAdd (bfAdd (bfMul (bfAdd e5 e6) (bfAdd e7 e8)) tmp) (bfOne : BF 128))
        let a1_ctx := e9
        let j : Nat := (j + 1) % U32
        pure (a0_ctx, a1_ctx, j))
      (a0_ctx, a1_ctx, j)
  let a0_ctx : ZkC 128 := e1.1
  let a1_ctx : ZkC 128 := e1.2.1
  cfree .stack vs_dash
  cfree .stack s_dash
  cfree .stack vs
  cfree .stack s
  pure (a0_ctx, a1_ctx)

/-- faest_aes.c:580-596 `aes_enc_constraints_Mkey_1_128`. -/
def aes_enc_constraints_Mkey_1_128 (in_ : CPtr) (out : CPtr) (q : CPtr) (qk : CPtr) (delta : CPtr)
    (b0_ctx : ZkC 128) : CM (ZkC 128) := do
  let qs ← alloc .stack (malloc 160 : Mem (BF 128))
  let qs_dash ← alloc .stack (malloc 160 : Mem (BF 128))
  aes_enc_forward_128 q qk in_ (0 : Byte) (1 : Byte) delta qs
  aes_enc_backward_128 q qk (0 : Byte) (1 : Byte) delta out qs_dash
  let e1 ← bf_load 128 delta
  let e2 ← bf_load 128 delta
  let minus_part : BF 128 := bfMul e1 e2
  let j : Nat := 0
  let e3 : ZkC 128 × Nat ← cwhile
      (fun _s1 =>
        let j : Nat := _s1.2
        decide (j < 160))
      (fun _s1 => do
        let b0_ctx : ZkC 128 := _s1.1
        let j : Nat := _s1.2
        let e4 : BF 128 ← ld qs j
        let e5 : BF 128 ← ld qs_dash j
        let e6 ← zk_hash_128_update b0_ctx (bfAdd (bfMul e4 e5) minus_part)
        let b0_ctx := e6
        let j : Nat := (j + 1) % U32
        pure (b0_ctx, j))
      (b0_ctx, j)
  let b0_ctx : ZkC 128 := e3.1
  cfree .stack qs_dash
  cfree .stack qs
  pure b0_ctx

/-- faest_aes.c:598-632 `aes_prove_128`. -/
def aes_prove_128 (w : CPtr) (u : CPtr) (V : CPtr) (in_ : CPtr) (out : CPtr) (chall : CPtr) (a_tilde : CPtr)
    (b_tilde : CPtr) (params : Params) : CM Unit := do
  let e1 ← column_to_row_major_and_shrink_V_128 V 1600
  let bf_v : CPtr := e1
  let e2 ← alloc .heap (malloc 176 : Mem Byte)
  let k : CPtr := e2
  let e3 ← alloc .aligned (malloc 1408 : Mem (BF 128))
  let vk : CPtr := e3
  let a0_ctx : ZkC 128 := {}
  let a1_ctx : ZkC 128 := {}
  let e4 ← zk_hash_128_init a0_ctx chall
  let a0_ctx := e4
  let e5 ← zk_hash_128_init a1_ctx chall
  let a1_ctx := e5
  let e6 ← aes_key_schedule_constraints_Mkey_0_128 w bf_v a0_ctx a1_ctx k vk params
  let a0_ctx := e6.1
  let a1_ctx := e6.2
  let e7 ← aes_enc_constraints_Mkey_0_128 in_ out (padd w 56) (padd bf_v 448) k vk a0_ctx a1_ctx
  let a0_ctx := e7.1
  let a1_ctx := e7.2
  cfree .aligned vk
  cfree .heap k
  let e8 ← bf_load 128 (padd u 200)
  let e9 ← zk_hash_128_finalize a_tilde a1_ctx e8
  let a1_ctx := e9
  let e10 ← bf_sum_poly 128 (padd bf_v 1600)
  let e11 ← zk_hash_128_finalize b_tilde a0_ctx e10
  let a0_ctx := e11
  cfree .aligned bf_v
  pure ()

/-- faest_aes.c:634-684 `aes_verify_128`. -/
def aes_verify_128 (d : CPtr) (Q : CPtr) (chall_2 : CPtr) (chall_3 : CPtr) (a_tilde : CPtr) (in_ : CPtr)
    (out : CPtr) (params : Params) : CM CPtr := do
  let tau : Nat := params.tau
  let t0 : Nat := params.t0
  let k0 : Nat := params.k0
  let t1 : Nat := params.t1
  let k1 : Nat := params.k1
  let delta : CPtr := chall_3
  let i : Nat := 0
  let col : Nat := 0
  let e1 : Nat × Nat ← cwhile
      (fun _s1 =>
        let i : Nat := _s1.1
        decide (i < tau))
      (fun _s1 => do
        let i : Nat := _s1.1
        let col : Nat := _s1.2
        let depth : Nat := (if i < t0 then k0 else k1)
        let decoded_challenge ← alloc .stack (malloc 12 : Mem Byte)
        let e2 ← ChalDec chall_3 i k0 t0 k1 t1 decoded_challenge
        let j : Nat := 0
        let e3 : Nat × Nat ← cwhile
            (fun _s2 =>
              let j : Nat := _s2.2
              decide (j < depth))
            (fun _s2 => do
              let col : Nat := _s2.1
              let j : Nat := _s2.2
              let e4 : Byte ← ld decoded_challenge j
              let e5 : Unit ← (
                if e4.toNat = 1 then (do
                  let e6 : CPtr ← ld Q col
                  let e7 : CPtr ← ld Q col
                  xor_u8_array d e6 e7 200
                  pure ())
                else (do
                  pure ()))
              let j : Nat := (j + 1) % U32
              let col : Nat := (col + 1) % U32
              pure (col, j))
            (col, j)
        let col : Nat := e3.1
        cfree .stack decoded_challenge
        let i : Nat := (i + 1) % U32
        pure (i, col))
      (i, col)
  let e8 ← column_to_row_major_and_shrink_V_128 Q 1600
  let bf_q : CPtr := e8
  let e9 ← alloc .aligned (malloc 1408 : Mem (BF 128))
  let qk : CPtr := e9
  let b0_ctx : ZkC 128 := {}
  let e10 ← zk_hash_128_init b0_ctx chall_2
  let b0_ctx := e10
  let e11 ← aes_key_schedule_constraints_Mkey_1_128 bf_q delta b0_ctx qk
  let b0_ctx := e11
  let e12 ← aes_enc_constraints_Mkey_1_128 in_ out (padd bf_q 448) qk delta b0_ctx
  let b0_ctx := e12
  cfree .aligned qk
  let e13 ← alloc .heap (malloc 16 : Mem Byte)
  let q_tilde : CPtr := e13
  let e14 ← bf_sum_poly 128 (padd bf_q 1600)
  let e15 ← zk_hash_128_finalize q_tilde b0_ctx e14
  let b0_ctx := e15
  cfree .aligned bf_q
  let e16 ← bf_load 128 q_tilde
  let bf_qtilde : BF 128 := e16
  let e17 ← bf_load 128 a_tilde
  let e18 ← bf_load 128 delta
  bf_store q_tilde (bfAdd bf_qtilde (bfMul e17 e18))
  pure q_tilde

/-- faest_aes.c:688-707 `aes_key_schedule_forward_192`. -/
def aes_key_schedule_forward_192 (v : CPtr) (bf_out : CPtr) : CM Unit := do
  memcpy (α := BF 192) bf_out v 192
  let i_wd : Nat := 192
  let j : Nat := 6
  let e1 : Nat × Nat ← cwhile
      (fun _s1 =>
        let j : Nat := _s1.2
        decide (j < 52))
      (fun _s1 => do
        let i_wd : Nat := _s1.1
        let j : Nat := _s1.2
        let e2 : Nat ← (
          if ((j % 6) = 0) ∨ ((6 > 6) ∧ ((j % 6) = 4)) then (do
            memcpy (α := BF 192) (padd bf_out ((j * 32) % U32)) (padd v i_wd) 32
            let i_wd : Nat := (i_wd + 32) % U32
            pure i_wd)
          else (do
            let i : Nat := 0
            let e3 : Nat ← cwhile
                (fun _s2 =>
                  let i : Nat := _s2
                  decide (i < 32))
                (fun _s2 => do
                  let i : Nat := _s2
                  let e4 : BF 192 ← ld bf_out ((((32 * ((j + U32 - 6) % U32)) % U32) + i) % U32)
                  let e5 : BF 192 ← ld bf_out ((((32 * ((j + U32 - 1) % U32)) % U32) + i) % U32)
                  st bf_out ((((32 * j) % U32) + i) % U32) (bfAdd e4 e5)
                  let i : Nat := (i + 1) % U32
                  pure i)
                i
            pure i_wd))
        let i_wd : Nat := e2
        let j : Nat := (j + 1) % U32
        pure (i_wd, j))
      (i_wd, j)
  let i_wd : Nat := e1.1
  pure ()

/-- faest_aes.c:709-760 `aes_key_schedule_backward_192`. -/
def aes_key_schedule_backward_192 (v : CPtr) (Vk : CPtr) (Mtag : Byte) (Mkey : Byte) (delta : CPtr)
    (bf_out : CPtr) : CM Unit := do
  cassert (decide (¬ (((Mtag.toNat = 1) ∧ (Mkey.toNat = 1)) ∨ ((Mkey.toNat = 1) ∧ (¬ (delta.isSome = true))))))
  let e2 ← (if delta.isSome = true then (do
      let e1 ← bf_load 192 delta
      pure e1)
    else (do
      pure (bfZero : BF 192)))
  let bf_delta : BF 192 := e2
  let iwd : Nat := 0
  let c : Nat := 0
  let ircon : Nat := 0
  let bf_minus_mkey : BF 192 := (bfFromBit (n := 192)) (BitVec.ofNat 8 (1 ^^^ Mkey.toNat))
  let minus_mtag : Byte := BitVec.ofNat 8 (1 ^^^ Mtag.toNat)
  let bf_mkey_times_delta : BF 192 := bfMulBit bf_delta Mkey
  let bf_mkey_times_delta : BF 192 := bfAdd bf_mkey_times_delta bf_minus_mkey
  let j : Nat := 0
  let e3 : Nat × Nat × Nat × Nat ← cwhile
      (fun _s1 =>
        let j : Nat := _s1.2.2.2
        decide (j < 32))
      (fun _s1 => do
        let iwd : Nat := _s1.1
        let c : Nat := _s1.2.1
        let ircon : Nat := _s1.2.2.1
        let j : Nat := _s1.2.2.2
        let bf_x_tilde ← alloc .stack (malloc 8 : Mem (BF 192))
        let i : Nat := 0
        let e4 : Nat ← cwhile
            (fun _s2 =>
              let i : Nat := _s2
              decide (i < 8))
            (fun _s2 => do
              let i : Nat := _s2
              let e5 : BF 192 ← ld v ((((8 * j) % U32) + i) % U32)
              let e6 : BF 192 ← ld Vk ((((iwd + ((8 * c) % U32)) % U32) + i) % U32)
              st bf_x_tilde i (bfAdd e5 e6)
              let i : Nat := (i + 1) % U32
              pure i)
            i
        let e7 : Nat ← (
          if (Mtag.toNat = 0) ∧ (c = 0) then (do
            let e8 ← tget Rcon ircon
            let r : Byte := e8
            let ircon : Nat := (ircon + 1) % U32
            let bf_r ← alloc .stack (malloc 8 : Mem (BF 192))
            let i : Nat := 0
            let e9 : Nat ← cwhile
                (fun _s2 =>
                  let i : Nat := _s2
                  decide (i < 8))
                (fun _s2 => do
                  let i : Nat := _s2
                  let e10 ← cshr 32 r.toNat i
                  st bf_r i (bfMulBit bf_mkey_times_delta (BitVec.ofNat 8 (e10 &&& 1)))
                  let e11 : BF 192 ← ld bf_x_tilde i
                  let e12 : BF 192 ← ld bf_r i
                  st bf_x_tilde i (bfAdd e11 e12)
                  let i : Nat := (i + 1) % U32
                  pure i)
                i
            cfree .stack bf_r
            pure ircon)
          else (do
            pure ircon))
        let ircon : Nat := e7
        let i : Nat := 0
        let e13 : Nat ← cwhile
            (fun _s2 =>
              let i : Nat := _s2
              decide (i < 8))
            (fun _s2 => do
              let i : Nat := _s2
              let e14 : BF 192 ← ld bf_x_tilde (((i + 7) % U32) % 8)
              let e15 : BF 192 ← ld bf_x_tilde (((i + 5) % U32) % 8)
              let e16 : BF 192 ← ld bf_x_tilde (((i + 2) % U32) % 8)
              st bf_out ((i + ((8 * j) % U32)) % U32) (bfAdd (bfAdd e14 e15) e16)
              let i : Nat := (i + 1) % U32
              pure i)
            i
        let e17 : BF 192 ← ld bf_out ((0 + ((8 * j) % U32)) % U32)
        st bf_out ((0 + ((8 * j) % U32)) % U32) (bfAdd e17 (bfMulBit bf_mkey_times_delta minus_mtag))
        let e18 : BF 192 ← ld bf_out ((2 + ((8 * j) % U32)) % U32)
        st bf_out ((2 + ((8 * j) % U32)) % U32) (bfAdd e18 (bfMulBit bf_mkey_times_delta minus_mtag))
        let c : Nat := (c + 1) % U32
        let e19 : Nat × Nat ← (
          if c = 4 then (do
            let c : Nat := 0
            let iwd : Nat := (iwd + 192) % U32
            pure (iwd, c))
          else (do
            pure (iwd, c)))
        let iwd : Nat := e19.1
        let c : Nat := e19.2
        cfree .stack bf_x_tilde
        let j : Nat := (j + 1) % U32
        pure (iwd, c, ircon, j))
      (iwd, c, ircon, j)
  let iwd : Nat := e3.1
  let c : Nat := e3.2.1
  let ircon : Nat := e3.2.2.1
  pure ()

/-- faest_aes.c:762-810 `aes_key_schedule_constraints_Mkey_0_192`. -/
def aes_key_schedule_constraints_Mkey_0_192 (w : CPtr) (v : CPtr) (a0_ctx : ZkC 192) (a1_ctx : ZkC 192)
    (k : CPtr) (vk : CPtr) (params : Params) : CM (ZkC 192 × ZkC 192) := do
  cassert (decide (32 = params.Ske))
  aes_key_schedule_forward_1 w k params
  aes_key_schedule_forward_192 v vk
  let w_dash ← alloc .stack (malloc 32 : Mem Byte)
  aes_key_schedule_backward_1 (padd w 24) k w_dash params
  let v_w_dash ← alloc .stack (malloc 256 : Mem (BF 192))
  aes_key_schedule_backward_192 (padd v 192) vk (1 : Byte) (0 : Byte) (none : CPtr) v_w_dash
  let iwd : Nat := 160
  let j : Nat := 0
  let e1 : ZkC 192 × ZkC 192 × Nat × Nat ← cwhile
      (fun _s1 =>
        let j : Nat := _s1.2.2.2
        decide (j < 8))
      (fun _s1 => do
        let a0_ctx : ZkC 192 := _s1.1
        let a1_ctx : ZkC 192 := _s1.2.1
        let iwd : Nat := _s1.2.2.1
        let j : Nat := _s1.2.2.2
        let bf_k_hat ← alloc .stack (malloc 4 : Mem (BF 192))
        let bf_v_k_hat ← alloc .stack (malloc 4 : Mem (BF 192))
        let bf_w_dash_hat ← alloc .stack (malloc 4 : Mem (BF 192))
        let bf_v_w_dash_hat ← alloc .stack (malloc 4 : Mem (BF 192))
        let r : Nat := 0
        let e2 : Nat ← cwhile
            (fun _s2 =>
              let r : Nat := _s2
              decide (r ≤ 3))
            (fun _s2 => do
              let r : Nat := _s2
              let e3 : Byte ← ld k (((iwd + ((8 * r) % U32)) % U32) / 8)
              let e4 ← bf_byte_combine_bits 192 e3
              st bf_k_hat (((r + 3) % U32) % 4) e4
              let e5 ← bf_byte_combine 192 (padd vk ((iwd + ((8 * r) % U32)) % U32))
              st bf_v_k_hat (((r + 3) % U32) % 4) e5
              let e6 : Byte ← ld w_dash (((((32 * j) % U32) + ((8 * r) % U32)) % U32) / 8)
              let e7 ← bf_byte_combine_bits 192 e6
              st bf_w_dash_hat r e7
              let e8 ← bf_byte_combine 192 (padd v_w_dash ((((32 * j) % U32) + ((8 * r) % U32)) % U32))
              st bf_v_w_dash_hat r e8
              let r : Nat := (r + 1) % U32
              pure r)
            r
        let r : Nat := 0
        let e9 : ZkC 192 × ZkC 192 × Nat ← cwhile
            (fun _s2 =>
              let r : Nat := _s2.2.2
              decide (r ≤ 3))
            (fun _s2 => do
              let a0_ctx : ZkC 192 := _s2.1
              let a1_ctx : ZkC 192 := _s2.2.1
              let r : Nat := _s2.2.2
              let e10 : BF 192 ← ld bf_v_k_hat r
              let e11 : BF 192 ← ld bf_v_w_dash_hat r
              let tmp : BF 192 := bfMul e10 e11
              let e12 ← zk_hash_192_update a0_ctx tmp
              let a0_ctx := e12
              let e13 : BF 192 ← ld bf_k_hat r
              let e14 : BF 192 ← ld bf_v_k_hat r
              let e15 : BF 192 ← ld bf_w_dash_hat r
              let e16 : BF 192 ← ld bf_v_w_dash_hat r
              let e17 ← zk_hash_192_update a1_ctx (bfAdd (bfAdd (bfMul (bfAdd e13 e14) (bfAdd e15 e16)) (bfOne : BF 192)) tmp)
              let a1_ctx := e17
              let r : Nat := (r + 1) % U32
              pure (a0_ctx, a1_ctx, r))
            (a0_ctx, a1_ctx, r)
        let a0_ctx : ZkC 192 := e9.1
        let a1_ctx : ZkC 192 := e9.2.1
        let iwd : Nat := (iwd + 192) % U32
        cfree .stack bf_v_w_dash_hat
        cfree .stack bf_w_dash_hat
        cfree .stack bf_v_k_hat
        cfree .stack bf_k_hat
        let j : Nat := (j + 1) % U32
        pure (a0_ctx, a1_ctx, iwd, j))
      (a0_ctx, a1_ctx, iwd, j)
  let a0_ctx : ZkC 192 := e1.1
  let a1_ctx : ZkC 192 := e1.2.1
  let iwd : Nat := e1.2.2.1
  cfree .stack v_w_dash
  cfree .stack w_dash
  pure (a0_ctx, a1_ctx)

/-- faest_aes.c:812-840 `aes_key_schedule_constraints_Mkey_1_192`. -/
def aes_key_schedule_constraints_Mkey_1_192 (q : CPtr) (delta : CPtr) (b0_ctx : ZkC 192) (qk : CPtr) : CM (ZkC 192) := do
  aes_key_schedule_forward_192 q qk
  let q_w_dash ← alloc .stack (malloc 256 : Mem (BF 192))
  aes_key_schedule_backward_192 (padd q 192) qk (0 : Byte) (1 : Byte) delta q_w_dash
  let e1 ← bf_load 192 delta
  let bf_delta : BF 192 := e1
  let delta_squared : BF 192 := bfMul bf_delta bf_delta
  let iwd : Nat := 160
  let j : Nat := 0
  let e2 : ZkC 192 × Nat × Nat ← cwhile
      (fun _s1 =>
        let j : Nat := _s1.2.2
        decide (j < 8))
      (fun _s1 => do
        let b0_ctx : ZkC 192 := _s1.1
        let iwd : Nat := _s1.2.1
        let j : Nat := _s1.2.2
        let bf_q_hat_k ← alloc .stack (malloc 4 : Mem (BF 192))
        let bf_q_hat_w_dash ← alloc .stack (malloc 4 : Mem (BF 192))
        let r : Nat := 0
        let e3 : Nat ← cwhile
            (fun _s2 =>
              let r : Nat := _s2
              decide (r ≤ 3))
            (fun _s2 => do
              let r : Nat := _s2
              let e4 ← bf_byte_combine 192 (padd qk ((iwd + ((8 * r) % U32)) % U32))
              st bf_q_hat_k (((r + 3) % U32) % 4) e4
              let e5 ← bf_byte_combine 192 (padd q_w_dash ((((32 * j) % U32) + ((8 * r) % U32)) % U32))
              st bf_q_hat_w_dash r e5
              let r : Nat := (r + 1) % U32
              pure r)
            r
        let r : Nat := 0
        let e6 : ZkC 192 × Nat ← cwhile
            (fun _s2 =>
              let r : Nat := _s2.2
              decide (r ≤ 3))
            (fun _s2 => do
              let b0_ctx : ZkC 192 := _s2.1
              let r : Nat := _s2.2
              let e7 : BF 192 ← ld bf_q_hat_k r
              let e8 : BF 192 ← ld bf_q_hat_w_dash r
              let bf_tmp : BF 192 := bfMul e7 e8
              let e9 ← zk_hash_192_update b0_ctx (bfAdd bf_tmp delta_squared)
              let b0_ctx := e9
              let r : Nat := (r + 1) % U32
              pure (b0_ctx, r))
            (b0_ctx, r)
        let b0_ctx : ZkC 192 := e6.1
        let iwd : Nat := (iwd + 192) % U32
        cfree .stack bf_q_hat_w_dash
        cfree .stack bf_q_hat_k
        let j : Nat := (j + 1) % U32
        pure (b0_ctx, iwd, j))
      (b0_ctx, iwd, j)
  let b0_ctx : ZkC 192 := e2.1
  let iwd : Nat := e2.2.1
  cfree .stack q_w_dash
  pure b0_ctx

/-- faest_aes.c:842-895 `aes_enc_forward_192_1`. -/
def aes_enc_forward_192_1 (x : CPtr) (xk : CPtr) (in_ : CPtr) (Mtag : Byte) (Mkey : Byte) (bf_y : CPtr) : CM Unit := do
  let i : Nat := 0
  let e1 : Nat ← cwhile
      (fun _s1 =>
        let i : Nat := _s1
        decide (i < 16))
      (fun _s1 => do
        let i : Nat := _s1
        let e2 : Byte ← ld in_ i
        let xin : Byte := BitVec.ofNat 8 (e2.toNat &&& ((U32 - ((1 ^^^ Mtag.toNat) &&& (1 ^^^ Mkey.toNat))) % U32))
        let e3 ← bf_byte_combine_bits 192 xin
        let e4 : Byte ← ld xk i
        let e5 ← bf_byte_combine_bits 192 e4
        st bf_y i (bfAdd e3 e5)
        let i : Nat := (i + 1) % U32
        pure i)
      i
  let e6 ← bf_byte_combine_bits 192 (2 : Byte)
  let bf_two : BF 192 := e6
  let e7 ← bf_byte_combine_bits 192 (3 : Byte)
  let bf_three : BF 192 := e7
  let j : Nat := 1
  let e8 : Nat ← cwhile
      (fun _s1 =>
        let j : Nat := _s1
        decide (j < 12))
      (fun _s1 => do
        let j : Nat := _s1
        let c : Nat := 0
        let e9 : Nat ← cwhile
            (fun _s2 =>
              let c : Nat := _s2
              decide (c ≤ 3))
            (fun _s2 => do
              let c : Nat := _s2
              let ix : Nat := (((128 * ((j + U32 - 1) % U32)) % U32) + ((32 * c) % U32)) % U32
              let ik : Nat := (((128 * j) % U32) + ((32 * c) % U32)) % U32
              let iy : Nat := (((16 * j) % U32) + ((4 * c) % U32)) % U32
              let bf_x_hat ← alloc .stack (malloc 4 : Mem (BF 192))
              let bf_xk_hat ← alloc .stack (malloc 4 : Mem (BF 192))
              let r : Nat := 0
              let e10 : Nat ← cwhile
                  (fun _s3 =>
                    let r : Nat := _s3
                    decide (r ≤ 3))
                  (fun _s3 => do
                    let r : Nat := _s3
                    let e11 : Byte ← ld x (((ix + ((8 * r) % U32)) % U32) / 8)
                    let e12 ← bf_byte_combine_bits 192 e11
                    st bf_x_hat r e12
                    let e13 : Byte ← ld xk (((ik + ((8 * r) % U32)) % U32) / 8)
                    let e14 ← bf_byte_combine_bits 192 e13
                    st bf_xk_hat r e14
                    let r : Nat := (r + 1) % U32
                    pure r)
                  r
              let e15 : BF 192 ← ld bf_xk_hat 0
              let e16 : BF 192 ← ld bf_x_hat 0
              st bf_y ((iy + 0) % U32) (bfAdd e15 (bfMul e16 bf_two))
              let e17 : BF 192 ← ld bf_y ((iy + 0) % U32)
              let e18 : BF 192 ← ld bf_x_hat 1
              st bf_y ((iy + 0) % U32) (bfAdd e17 (bfMul e18 bf_three))
              let e19 : BF 192 ← ld bf_y ((iy + 0) % U32)
              let e20 : BF 192 ← ld bf_x_hat 2
              st bf_y ((iy + 0) % U32) (bfAdd e19 e20)
              let e21 : BF 192 ← ld bf_y ((iy + 0) % U32)
              let e22 : BF 192 ← ld bf_x_hat 3
              st bf_y ((iy + 0) % U32) (bfAdd e21 e22)
              let e23 : BF 192 ← ld bf_xk_hat 1
              let e24 : BF 192 ← ld bf_x_hat 0
              st bf_y ((iy + 1) % U32) (bfAdd e23 e24)
              let e25 : BF 192 ← ld bf_y ((iy + 1) % U32)
              let e26 : BF 192 ← ld bf_x_hat 1
              st bf_y ((iy + 1) % U32) (bfAdd e25 (bfMul e26 bf_two))
              let e27 : BF 192 ← ld bf_y ((iy + 1) % U32)
              let e28 : BF 192 ← ld bf_x_hat 2
              st bf_y ((iy + 1) % U32) (bfAdd e27 (bfMul e28 bf_three))
              let e29 : BF 192 ← ld bf_y ((iy + 1) % U32)
              let e30 : BF 192 ← ld bf_x_hat 3
              st bf_y ((iy + 1) % U32) (bfAdd e29 e30)
              let e31 : BF 192 ← ld bf_xk_hat 2
              let e32 : BF 192 ← ld bf_x_hat 0
              st bf_y ((iy + 2) % U32) (bfAdd e31 e32)
              let e33 : BF 192 ← ld bf_y ((iy + 2) % U32)
              let e34 : BF 192 ← ld bf_x_hat 1
              st bf_y ((iy + 2) % U32) (bfAdd e33 e34)
              let e35 : BF 192 ← ld bf_y ((iy + 2) % U32)
              let e36 : BF 192 ← ld bf_x_hat 2
              st bf_y ((iy + 2) % U32) (bfAdd e35 (bfMul e36 bf_two))
              let e37 : BF 192 ← ld bf_y ((iy + 2) % U32)
              let e38 : BF 192 ← ld bf_x_hat 3
              st bf_y ((iy + 2) % U32) (bfAdd e37 (bfMul e38 bf_three))
              let e39 : BF 192 ← ld bf_xk_hat 3
              let e40 : BF 192 ← ld bf_x_hat 0
              st bf_y ((iy + 3) % U32) (bfAdd e39 (bfMul e40 bf_three))
              let e41 : BF 192 ← ld bf_y ((iy + 3) % U32)
              let e42 : BF 192 ← ld bf_x_hat 1
              st bf_y ((iy + 3) % U32) (bfAdd e41 e42)
              let e43 : BF 192 ← ld bf_y ((iy + 3) % U32)
              let e44 : BF 192 ← ld bf_x_hat 2
              st bf_y ((iy + 3) % U32) (bfAdd e43 e44)
              let e45 : BF 192 ← ld bf_y ((iy + 3) % U32)
              let e46 : BF 192 ← ld bf_x_hat 3
              st bf_y ((iy + 3) % U32) (bfAdd e45 (bfMul e46 bf_two))
              cfree .stack bf_xk_hat
              cfree .stack bf_x_hat
              let c : Nat := (c + 1) % U32
              pure c)
            c
        let j : Nat := (j + 1) % U32
        pure j)
      j
  pure ()

/-- faest_aes.c:897-954 `aes_enc_forward_192`. -/
def aes_enc_forward_192 (bf_x : CPtr) (bf_xk : CPtr) (in_ : CPtr) (Mtag : Byte) (Mkey : Byte) (delta : CPtr)
    (bf_y : CPtr) : CM Unit := do
  let e2 ← (if delta.isSome = true then (do
      let e1 ← bf_load 192 delta
      pure e1)
    else (do
      pure (bfZero : BF 192)))
  let bf_delta : BF 192 := e2
  let bf_factor : BF 192 := bfAdd (bfMulBit bf_delta Mkey) ((bfFromBit (n := 192)) (BitVec.ofNat 8 (1 ^^^ Mkey.toNat)))
  let i : Nat := 0
  let e3 : Nat ← cwhile
      (fun _s1 =>
        let i : Nat := _s1
        decide (i < 16))
      (fun _s1 => do
        let i : Nat := _s1
        let bf_xin ← alloc .stack (malloc 8 : Mem (BF 192))
        let j : Nat := 0
        let e4 : Nat ← cwhile
            (fun _s2 =>
              let j : Nat := _s2
              decide (j < 8))
            (fun _s2 => do
              let j : Nat := _s2
              let e5 : Byte ← ld in_ i
              let e6 ← cshr 32 e5.toNat j
              st bf_xin j (bfMulBit bf_factor (BitVec.ofNat 8 ((1 ^^^ Mtag.toNat) &&& (e6 &&& 1))))
              let j : Nat := (j + 1) % U32
              pure j)
            j
        let e7 ← bf_byte_combine 192 bf_xin
        let e8 ← bf_byte_combine 192 (padd bf_xk ((8 * i) % U32))
        st bf_y i (bfAdd e7 e8)
        cfree .stack bf_xin
        let i : Nat := (i + 1) % U32
        pure i)
      i
  let e9 ← bf_byte_combine_bits 192 (2 : Byte)
  let bf_two : BF 192 := e9
  let e10 ← bf_byte_combine_bits 192 (3 : Byte)
  let bf_three : BF 192 := e10
  let j : Nat := 1
  let e11 : Nat ← cwhile
      (fun _s1 =>
        let j : Nat := _s1
        decide (j < 12))
      (fun _s1 => do
        let j : Nat := _s1
        let c : Nat := 0
        let e12 : Nat ← cwhile
            (fun _s2 =>
              let c : Nat := _s2
              decide (c ≤ 3))
            (fun _s2 => do
              let c : Nat := _s2
              let ix : Nat := (((128 * ((j + U32 - 1) % U32)) % U32) + ((32 * c) % U32)) % U32
              let ik : Nat := (((128 * j) % U32) + ((32 * c) % U32)) % U32
              let iy : Nat := (((16 * j) % U32) + ((4 * c) % U32)) % U32
              let bf_x_hat ← alloc .stack (malloc 4 : Mem (BF 192))
              let bf_xk_hat ← alloc .stack (malloc 4 : Mem (BF 192))
              let r : Nat := 0
              let e13 : Nat ← cwhile
                  (fun _s3 =>
                    let r : Nat := _s3
                    decide (r ≤ 3))
                  (fun _s3 => do
                    let r : Nat := _s3
                    let e14 ← bf_byte_combine 192 (padd bf_x ((ix + ((8 * r) % U32)) % U32))
                    st bf_x_hat r e14
                    let e15 ← bf_byte_combine 192 (padd bf_xk ((ik + ((8 * r) % U32)) % U32))
                    st bf_xk_hat r e15
                    let r : Nat := (r + 1) % U32
                    pure r)
                  r
              let e16 : BF 192 ← ld bf_xk_hat 0
              let e17 : BF 192 ← ld bf_x_hat 0
              st bf_y ((iy + 0) % U32) (bfAdd e16 (bfMul e17 bf_two))
              let e18 : BF 192 ← ld bf_y ((iy + 0) % U32)
              let e19 : BF 192 ← ld bf_x_hat 1
              st bf_y ((iy + 0) % U32) (bfAdd e18 (bfMul e19 bf_three))
              let e20 : BF 192 ← ld bf_y ((iy + 0) % U32)
              let e21 : BF 192 ← ld bf_x_hat 2
              st bf_y ((iy + 0) % U32) (bfAdd e20 e21)
              let e22 : BF 192 ← ld bf_y ((iy + 0) % U32)
              let e23 : BF 192 ← ld bf_x_hat 3
              st bf_y ((iy + 0) % U32) (bfAdd e22 e23)
              let e24 : BF 192 ← ld bf_xk_hat 1
              let e25 : BF 192 ← ld bf_x_hat 0
              st bf_y ((iy + 1) % U32) (bfAdd e24 e25)
              let e26 : BF 192 ← ld bf_y ((iy + 1) % U32)
              let e27 : BF 192 ← ld bf_x_hat 1
              st bf_y ((iy + 1) % U32) (bfAdd e26 (bfMul e27 bf_two))
              let e28 : BF 192 ← ld bf_y ((iy + 1) % U32)
              let e29 : BF 192 ← ld bf_x_hat 2
              st bf_y ((iy + 1) % U32) (bfAdd e28 (bfMul e29 bf_three))
              let e30 : BF 192 ← ld bf_y ((iy + 1) % U32)
              let e31 : BF 192 ← ld bf_x_hat 3
              st bf_y ((iy + 1) % U32) (bfAdd e30 e31)
              let e32 : BF 192 ← ld bf_xk_hat 2
              let e33 : BF 192 ← ld bf_x_hat 0
              st bf_y ((iy + 2) % U32) (bfAdd e32 e33)
              let e34 : BF 192 ← ld bf_y ((iy + 2) % U32)
              let e35 : BF 192 ← ld bf_x_hat 1
              st bf_y ((iy + 2) % U32) (bfAdd e34 e35)
              let e36 : BF 192 ← ld bf_y ((iy + 2) % U32)
              let e37 : BF 192 ← ld bf_x_hat 2
              st bf_y ((iy + 2) % U32) (bfAdd e36 (bfMul e37 bf_two))
              let e38 : BF 192 ← ld bf_y ((iy + 2) % U32)
              let e39 : BF 192 ← ld bf_x_hat 3
              st bf_y ((iy + 2) % U32) (bfAdd e38 (bfMul e39 bf_three))
              let e40 : BF 192 ← ld bf_xk_hat 3
              let e41 : BF 192 ← ld bf_x_hat 0
              st bf_y ((iy + 3) % U32) (bfAdd e40 (bfMul e41 bf_three))
              let e42 : BF 192 ← ld bf_y ((iy + 3) % U32)
              let e43 : BF 192 ← ld bf_x_hat 1
              st bf_y ((iy + 3) % U32) (bfAdd e42 e43)
              let e44 : BF 192 ← ld bf_y ((iy + 3) % U32)
              let e45 : BF 192 ← ld bf_x_hat 2
              st bf_y ((iy + 3) % U32) (bfAdd e44 e45)
              let e46 : BF 192 ← ld bf_y ((iy + 3) % U32)
              let e47 : BF 192 ← ld bf_x_hat 3
              st bf_y ((iy + 3) % U32) (bfAdd e46 (bfMul e47 bf_two))
              cfree .stack bf_xk_hat
              cfree .stack bf_x_hat
              let c : Nat := (c + 1) % U32
              pure c)
            c
        let j : Nat := (j + 1) % U32
        pure j)
      j
  pure ()

/-- faest_aes.c:956-985 `aes_enc_backward_192_1`. -/
def aes_enc_backward_192_1 (x : CPtr) (xk : CPtr) (Mtag : Byte) (Mkey : Byte) (out : CPtr) (y_out : CPtr) : CM Unit := do
  let j : Nat := 0
  let e1 : Nat ← cwhile
      (fun _s1 =>
        let j : Nat := _s1
        decide (j < 12))
      (fun _s1 => do
        let j : Nat := _s1
        let c : Nat := 0
        let e2 : Nat ← cwhile
            (fun _s2 =>
              let c : Nat := _s2
              decide (c ≤ 3))
            (fun _s2 => do
              let c : Nat := _s2
              let r : Nat := 0
              let e3 : Nat ← cwhile
                  (fun _s3 =>
                    let r : Nat := _s3
                    decide (r ≤ 3))
                  (fun _s3 => do
                    let r : Nat := _s3
                    let ird : Nat := (((((128 * j) % U32) + ((32 * (((((c + U32 - r) % U32) + 4) % U32) % 4)) % U32)) % U32) + ((8 * r) % U32)) % U32
                    let e4 : Byte ← (
                      if j < 11 then (do
                        let e5 : Byte ← ld x (ird / 8)
                        let xtilde : Byte := e5
                        pure xtilde)
                      else (do
                        let e6 : Byte ← ld out (((ird + U32 - 1408) % U32) / 8)
                        let xout : Byte := BitVec.ofNat 8 (e6.toNat &&& ((U32 - ((1 ^^^ Mtag.toNat) &&& (1 ^^^ Mkey.toNat))) % U32))
                        let e7 : Byte ← ld xk (((128 + ird) % U32) / 8)
                        let xtilde : Byte := BitVec.ofNat 8 (xout.toNat ^^^ e7.toNat)
                        pure xtilde))
                    let xtilde : Byte := e4
                    let ytilde : Byte := BitVec.ofNat 8 ((((rotr8 xtilde 7).toNat) ^^^ ((rotr8 xtilde 5).toNat)) ^^^ ((rotr8 xtilde 2).toNat))
                    let ytilde : Byte := BitVec.ofNat 8 (ytilde.toNat ^^^ (((1 ^^^ Mtag.toNat) &&& (1 ^^^ Mkey.toNat)) <<< 0))
                    let ytilde : Byte := BitVec.ofNat 8 (ytilde.toNat ^^^ (((1 ^^^ Mtag.toNat) &&& (1 ^^^ Mkey.toNat)) <<< 2))
                    let e8 ← bf_byte_combine_bits 192 ytilde
                    st y_out ((((((16 * j) % U32) + ((4 * c) % U32)) % U32) + r) % U32) e8
                    let r : Nat := (r + 1) % U32
                    pure r)
                  r
              let c : Nat := (c + 1) % U32
              pure c)
            c
        let j : Nat := (j + 1) % U32
        pure j)
      j
  pure ()

/-- faest_aes.c:987-1030 `aes_enc_backward_192`. -/
def aes_enc_backward_192 (bf_x : CPtr) (bf_xk : CPtr) (Mtag : Byte) (Mkey : Byte) (delta : CPtr) (out : CPtr)
    (y_out : CPtr) : CM Unit := do
  let e2 ← (if delta.isSome = true then (do
      let e1 ← bf_load 192 delta
      pure e1)
    else (do
      pure (bfZero : BF 192)))
  let bf_delta : BF 192 := e2
  let factor : BF 192 := bfMulBit (bfAdd (bfMulBit bf_delta Mkey) ((bfFromBit (n := 192)) (BitVec.ofNat 8 (1 ^^^ Mkey.toNat)))) (BitVec.ofNat 8 (1 ^^^ Mtag.toNat))
  let j : Nat := 0
  let e3 : Nat ← cwhile
      (fun _s1 =>
        let j : Nat := _s1
        decide (j < 12))
      (fun _s1 => do
        let j : Nat := _s1
        let c : Nat := 0
        let e4 : Nat ← cwhile
            (fun _s2 =>
              let c : Nat := _s2
              decide (c ≤ 3))
            (fun _s2 => do
              let c : Nat := _s2
              let r : Nat := 0
              let e5 : Nat ← cwhile
                  (fun _s3 =>
                    let r : Nat := _s3
                    decide (r ≤ 3))
                  (fun _s3 => do
                    let r : Nat := _s3
                    let bf_x_tilde ← alloc .stack (malloc 8 : Mem (BF 192))
                    let ird : Nat := (((((128 * j) % U32) + ((32 * (((((c + U32 - r) % U32) + 4) % U32) % 4)) % U32)) % U32) + ((8 * r) % U32)) % U32
                    let e6 : Unit ← (
                      if j < 11 then (do
                        memcpy (α := BF 192) bf_x_tilde (padd bf_x ird) 8
                        pure ())
                      else (do
                        let i : Nat := 0
                        let e7 : Nat ← cwhile
                            (fun _s4 =>
                              let i : Nat := _s4
                              decide (i < 8))
                            (fun _s4 => do
                              let i : Nat := _s4
                              let e8 : Byte ← ld out (((ird + U32 - 1408) % U32) / 8)
                              let e9 ← cshr 32 e8.toNat i
                              let bf_xout : BF 192 := bfMulBit factor (BitVec.ofNat 8 (e9 &&& 1))
                              let e10 : BF 192 ← ld bf_xk ((((128 + ird) % U32) + i) % U32)
                              st bf_x_tilde i (bfAdd bf_xout e10)
                              let i : Nat := (i + 1) % U32
                              pure i)
                            i
                        pure ()))
                    let bf_y_tilde ← alloc .stack (malloc 8 : Mem (BF 192))
                    let i : Nat := 0
                    let e11 : Nat ← cwhile
                        (fun _s4 =>
                          let i : Nat := _s4
                          decide (i < 8))
                        (fun _s4 => do
                          let i : Nat := _s4
                          let e12 : BF 192 ← ld bf_x_tilde (((i + 7) % U32) % 8)
                          let e13 : BF 192 ← ld bf_x_tilde (((i + 5) % U32) % 8)
                          let e14 : BF 192 ← ld bf_x_tilde (((i + 2) % U32) % 8)
                          st bf_y_tilde i (bfAdd (bfAdd e12 e13) e14)
                          let i : Nat := (i + 1) % U32
                          pure i)
                        i
                    let e15 : BF 192 ← ld bf_y_tilde 0
                    st bf_y_tilde 0 (bfAdd e15 factor)
                    let e16 : BF 192 ← ld bf_y_tilde 2
                    st bf_y_tilde 2 (bfAdd e16 factor)
                    let e17 ← bf_byte_combine 192 bf_y_tilde
                    st y_out ((((((16 * j) % U32) + ((4 * c) % U32)) % U32) + r) % U32) e17
                    cfree .stack bf_y_tilde
                    cfree .stack bf_x_tilde
                    let r : Nat := (r + 1) % U32
                    pure r)
                  r
              let c : Nat := (c + 1) % U32
              pure c)
            c
        let j : Nat := (j + 1) % U32
        pure j)
      j
  pure ()

/-- faest_aes.c:1032-1053 `aes_enc_constraints_Mkey_0_192`. -/
def aes_enc_constraints_Mkey_0_192 (in_ : CPtr) (out : CPtr) (w : CPtr) (v : CPtr) (k : CPtr) (vk : CPtr)
    (a0_ctx : ZkC 192) (a1_ctx : ZkC 192) : CM (ZkC 192 × ZkC 192) := do
  let s ← alloc .stack (malloc 192 : Mem (BF 192))
  let vs ← alloc .stack (malloc 192 : Mem (BF 192))
  let s_dash ← alloc .stack (malloc 192 : Mem (BF 192))
  let vs_dash ← alloc .stack (malloc 192 : Mem (BF 192))
  aes_enc_forward_192_1 w k in_ (0 : Byte) (0 : Byte) s
  aes_enc_forward_192 v vk in_ (1 : Byte) (0 : Byte) (none : CPtr) vs
  aes_enc_backward_192_1 w k (0 : Byte) (0 : Byte) out s_dash
  aes_enc_backward_192 v vk (1 : Byte) (0 : Byte) (none : CPtr) out vs_dash
  let j : Nat := 0
  let e1 : ZkC 192 × ZkC 192 × Nat ← cwhile
      (fun _s1 =>
        let j : Nat := _s1.2.2
        decide (j < 192))
      (fun _s1 => do
        let a0_ctx : ZkC 192 := _s1.1
        let a1_ctx : ZkC 192 := _s1.2.1
        let j : Nat := _s1.2.2
        let e2 : BF 192 ← ld vs j
        let e3 : BF 192 ← ld vs_dash j
        let tmp : BF 192 := bfMul e2 e3
        let e4 ← zk_hash_192_update a0_ctx tmp
        let a0_ctx := e4
        let e5 : BF 192 ← ld s j
        let e6 : BF 192 ← ld vs j
        let e7 : BF 192 ← ld s_dash j
        let e8 : BF 192 ← ld vs_dash j
        let e9 ← zk_hash_192_update a1_ctx (bfAdd (bfAdd (bfMul (bfAdd e5 e6) (bfAdd e7 e8)) tmp) (bfOne : BF 192))
        let a1_ctx := e9
        let j : Nat := (j + 1) % U32
        pure (a0_ctx, a1_ctx, j))
      (a0_ctx, a1_ctx, j)
  let a0_ctx : ZkC 192 := e1.1
  let a1_ctx : ZkC 192 := e1.2.1
  cfree .stack vs_dash
  cfree .stack s_dash
  cfree .stack vs
  cfree .stack s
  pure (a0_ctx, a1_ctx)

/-- faest_aes.c:1055-1070 `aes_enc_constraints_Mkey_1_192`. -/
def aes_enc_constraints_Mkey_1_192 (in_ : CPtr) (out : CPtr) (q : CPtr) (qk : CPtr) (delta : CPtr)
    (b0_ctx : ZkC 192) : CM (ZkC 192) := do
  let qs ← alloc .stack (malloc 192 : Mem (BF 192))
  let qs_dash ← alloc .stack (malloc 192 : Mem (BF 192))
  aes_enc_forward_192 q qk in_ (0 : Byte) (1 : Byte) delta qs
  aes_enc_backward_192 q qk (0 : Byte) (1 : Byte) delta out qs_dash
  let e1 ← bf_load 192 delta
  let e2 ← bf_load 192 delta
  let minus_part : BF 192 := bfMul e1 e2
  let j : Nat := 0
  let e3 : ZkC 192 × Nat ← cwhile
      (fun _s1 =>
        let j : Nat := _s1.2
        decide (j < 192))
      (fun _s1 => do
        let b0_ctx : ZkC 192 := _s1.1
        let j : Nat := _s1.2
        let e4 : BF 192 ← ld qs j
        let e5 : BF 192 ← ld qs_dash j
        let e6 ← zk_hash_192_update b0_ctx (bfAdd (bfMul e4 e5) minus_part)
        let b0_ctx := e6
        let j : Nat := (j + 1) % U32
        pure (b0_ctx, j))
      (b0_ctx, j)
  let b0_ctx : ZkC 192 := e3.1
  cfree .stack qs_dash
  cfree .stack qs
  pure b0_ctx

/-- faest_aes.c:1072-1108 `aes_prove_192`. -/
def aes_prove_192 (w : CPtr) (u : CPtr) (V : CPtr) (in_ : CPtr) (out : CPtr) (chall : CPtr) (a_tilde : CPtr)
    (b_tilde : CPtr) (params : Params) : CM Unit := do
  let e1 ← column_to_row_major_and_shrink_V_192 V 3264
  let bf_v : CPtr := e1
  let e2 ← alloc .heap (malloc 208 : Mem Byte)
  let k : CPtr := e2
  let e3 ← alloc .aligned (malloc 1664 : Mem (BF 192))
  let vk : CPtr := e3
  let a0_ctx : ZkC 192 := {}
  let a1_ctx : ZkC 192 := {}
  let e4 ← zk_hash_192_init a0_ctx chall
  let a0_ctx := e4
  let e5 ← zk_hash_192_init a1_ctx chall
  let a1_ctx := e5
  let e6 ← aes_key_schedule_constraints_Mkey_0_192 w bf_v a0_ctx a1_ctx k vk params
  let a0_ctx := e6.1
  let a1_ctx := e6.2
  let e7 ← aes_enc_constraints_Mkey_0_192 in_ out (padd w 56) (padd bf_v 448) k vk a0_ctx a1_ctx
  let a0_ctx := e7.1
  let a1_ctx := e7.2
  let e8 ← aes_enc_constraints_Mkey_0_192 (padd in_ 16) (padd out 16) (padd w 232) (padd (padd bf_v 448) 1408) k vk a0_ctx a1_ctx
  let a0_ctx := e8.1
  let a1_ctx := e8.2
  cfree .aligned vk
  cfree .heap k
  let e9 ← bf_load 192 (padd u 408)
  let e10 ← zk_hash_192_finalize a_tilde a1_ctx e9
  let a1_ctx := e10
  let e11 ← bf_sum_poly 192 (padd bf_v 3264)
  let e12 ← zk_hash_192_finalize b_tilde a0_ctx e11
  let a0_ctx := e12
  cfree .aligned bf_v
  pure ()

/-- faest_aes.c:1110-1163 `aes_verify_192`. -/
def aes_verify_192 (d : CPtr) (Q : CPtr) (chall_2 : CPtr) (chall_3 : CPtr) (a_tilde : CPtr) (in_ : CPtr)
    (out : CPtr) (params : Params) : CM CPtr := do
  let tau : Nat := params.tau
  let t0 : Nat := params.t0
  let k0 : Nat := params.k0
  let t1 : Nat := params.t1
  let k1 : Nat := params.k1
  let delta : CPtr := chall_3
  let i : Nat := 0
  let col : Nat := 0
  let e1 : Nat × Nat ← cwhile
      (fun _s1 =>
        let i : Nat := _s1.1
        decide (i < tau))
      (fun _s1 => do
        let i : Nat := _s1.1
        let col : Nat := _s1.2
        let depth : Nat := (if i < t0 then k0 else k1)
        let decoded_challenge ← alloc .stack (malloc 12 : Mem Byte)
        let e2 ← ChalDec chall_3 i k0 t0 k1 t1 decoded_challenge
        let j : Nat := 0
        let e3 : Nat × Nat ← cwhile
            (fun _s2 =>
              let j : Nat := _s2.2
              decide (j < depth))
            (fun _s2 => do
              let col : Nat := _s2.1
              let j : Nat := _s2.2
              let e4 : Byte ← ld decoded_challenge j
              let e5 : Unit ← (
                if e4.toNat = 1 then (do
                  let e6 : CPtr ← ld Q col
                  let e7 : CPtr ← ld Q col
                  xor_u8_array d e6 e7 408
                  pure ())
                else (do
                  pure ()))
              let j : Nat := (j + 1) % U32
              let col : Nat := (col + 1) % U32
              pure (col, j))
            (col, j)
        let col : Nat := e3.1
        cfree .stack decoded_challenge
        let i : Nat := (i + 1) % U32
        pure (i, col))
      (i, col)
  let e8 ← column_to_row_major_and_shrink_V_192 Q 3264
  let bf_q : CPtr := e8
  let e9 ← alloc .aligned (malloc 1664 : Mem (BF 192))
  let qk : CPtr := e9
  let b0_ctx : ZkC 192 := {}
  let e10 ← zk_hash_192_init b0_ctx chall_2
  let b0_ctx := e10
  let e11 ← aes_key_schedule_constraints_Mkey_1_192 bf_q delta b0_ctx qk
  let b0_ctx := e11
  let e12 ← aes_enc_constraints_Mkey_1_192 in_ out (padd bf_q 448) qk delta b0_ctx
  let b0_ctx := e12
  let e13 ← aes_enc_constraints_Mkey_1_192 (padd in_ 16) (padd out 16) (padd (padd bf_q 448) 1408) qk delta b0_ctx
  let b0_ctx := e13
  cfree .aligned qk
  let e14 ← alloc .heap (malloc 24 : Mem Byte)
  let q_tilde : CPtr := e14
  let e15 ← bf_sum_poly 192 (padd bf_q 3264)
  let e16 ← zk_hash_192_finalize q_tilde b0_ctx e15
  let b0_ctx := e16
  cfree .aligned bf_q
  let e17 ← bf_load 192 q_tilde
  let bf_qtilde : BF 192 := e17
  let e18 ← bf_load 192 a_tilde
  let e19 ← bf_load 192 delta
  bf_store q_tilde (bfAdd bf_qtilde (bfMul e18 e19))
  pure q_tilde

/-- faest_aes.c:1167-1186 `aes_key_schedule_forward_256`. -/
def aes_key_schedule_forward_256 (v : CPtr) (bf_out : CPtr) : CM Unit := do
  memcpy (α := BF 256) bf_out v 256
  let i_wd : Nat := 256
  let j : Nat := 8
  let e1 : Nat × Nat ← cwhile
      (fun _s1 =>
        let j : Nat := _s1.2
        decide (j < 60))
      (fun _s1 => do
        let i_wd : Nat := _s1.1
        let j : Nat := _s1.2
        let e2 : Nat ← (
          if ((j % 8) = 0) ∨ ((8 > 6) ∧ ((j % 8) = 4)) then (do
            memcpy (α := BF 256) (padd bf_out ((j * 32) % U32)) (padd v i_wd) 32
            let i_wd : Nat := (i_wd + 32) % U32
            pure i_wd)
          else (do
            let i : Nat := 0
            let e3 : Nat ← cwhile
                (fun _s2 =>
                  let i : Nat := _s2
                  decide (i < 32))
                (fun _s2 => do
                  let i : Nat := _s2
                  let e4 : BF 256 ← ld bf_out ((((32 * ((j + U32 - 8) % U32)) % U32) + i) % U32)
                  let e5 : BF 256 ← ld bf_out ((((32 * ((j + U32 - 1) % U32)) % U32) + i) % U32)
                  st bf_out ((((32 * j) % U32) + i) % U32) (bfAdd e4 e5)
                  let i : Nat := (i + 1) % U32
                  pure i)
                i
            pure i_wd))
        let i_wd : Nat := e2
        let j : Nat := (j + 1) % U32
        pure (i_wd, j))
      (i_wd, j)
  let i_wd : Nat := e1.1
  pure ()

/-- faest_aes.c:1188-1241 `aes_key_schedule_backward_256`. -/
def aes_key_schedule_backward_256 (v : CPtr) (Vk : CPtr) (Mtag : Byte) (Mkey : Byte) (delta : CPtr)
    (bf_out : CPtr) : CM Unit := do
  cassert (decide (¬ (((Mtag.toNat = 1) ∧ (Mkey.toNat = 1)) ∨ ((Mkey.toNat = 1) ∧ (¬ (delta.isSome = true))))))
  let iwd : Nat := 0
  let c : Nat := 0
  let rmvRcon : Bool := true
  let ircon : Nat := 0
  let e2 ← (if delta.isSome = true then (do
      let e1 ← bf_load 256 delta
      pure e1)
    else (do
      pure (bfZero : BF 256)))
  let bf_delta : BF 256 := e2
  let bf_minus_mkey : BF 256 := (bfFromBit (n := 256)) (BitVec.ofNat 8 (1 ^^^ Mkey.toNat))
  let minus_mtag : Byte := BitVec.ofNat 8 (1 ^^^ Mtag.toNat)
  let bf_mkey_times_delta : BF 256 := bfMulBit bf_delta Mkey
  let bf_mkey_times_delta : BF 256 := bfAdd bf_mkey_times_delta bf_minus_mkey
  let j : Nat := 0
  let e3 : Nat × Nat × Bool × Nat × Nat ← cwhile
      (fun _s1 =>
        let j : Nat := _s1.2.2.2.2
        decide (j < 52))
      (fun _s1 => do
        let iwd : Nat := _s1.1
        let c : Nat := _s1.2.1
        let rmvRcon : Bool := _s1.2.2.1
        let ircon : Nat := _s1.2.2.2.1
        let j : Nat := _s1.2.2.2.2
        let bf_x_tilde ← alloc .stack (malloc 8 : Mem (BF 256))
        let i : Nat := 0
        let e4 : Nat ← cwhile
            (fun _s2 =>
              let i : Nat := _s2
              decide (i < 8))
            (fun _s2 => do
              let i : Nat := _s2
              let e5 : BF 256 ← ld v ((((8 * j) % U32) + i) % U32)
              let e6 : BF 256 ← ld Vk ((((iwd + ((8 * c) % U32)) % U32) + i) % U32)
              st bf_x_tilde i (bfAdd e5 e6)
              let i : Nat := (i + 1) % U32
              pure i)
            i
        let e7 : Nat ← (
          if ((Mtag.toNat = 0) ∧ (rmvRcon = true)) ∧ (c = 0) then (do
            let e8 ← tget Rcon ircon
            let r : Byte := e8
            let ircon : Nat := (ircon + 1) % U32
            let bf_r ← alloc .stack (malloc 8 : Mem (BF 256))
            let i : Nat := 0
            let e9 : Nat ← cwhile
                (fun _s2 =>
                  let i : Nat := _s2
                  decide (i < 8))
                (fun _s2 => do
                  let i : Nat := _s2
                  let e10 ← cshr 32 r.toNat i
                  st bf_r i (bfMulBit bf_mkey_times_delta (BitVec.ofNat 8 (e10 &&& 1)))
                  let e11 : BF 256 ← ld bf_x_tilde i
                  let e12 : BF 256 ← ld bf_r i
                  st bf_x_tilde i (bfAdd e11 e12)
                  let i : Nat := (i + 1) % U32
                  pure i)
                i
            cfree .stack bf_r
            pure ircon)
          else (do
            pure ircon))
        let ircon : Nat := e7
        let i : Nat := 0
        let e13 : Nat ← cwhile
            (fun _s2 =>
              let i : Nat := _s2
              decide (i < 8))
            (fun _s2 => do
              let i : Nat := _s2
              let e14 : BF 256 ← ld bf_x_tilde (((i + 7) % U32) % 8)
              let e15 : BF 256 ← ld bf_x_tilde (((i + 5) % U32) % 8)
              let e16 : BF 256 ← ld bf_x_tilde (((i + 2) % U32) % 8)
              st bf_out ((i + ((8 * j) % U32)) % U32) (bfAdd (bfAdd e14 e15) e16)
              let i : Nat := (i + 1) % U32
              pure i)
            i
        let e17 : BF 256 ← ld bf_out ((0 + ((8 * j) % U32)) % U32)
        st bf_out ((0 + ((8 * j) % U32)) % U32) (bfAdd e17 (bfMulBit bf_mkey_times_delta minus_mtag))
        let e18 : BF 256 ← ld bf_out ((2 + ((8 * j) % U32)) % U32)
        st bf_out ((2 + ((8 * j) % U32)) % U32) (bfAdd e18 (bfMulBit bf_mkey_times_delta minus_mtag))
        let c : Nat := (c + 1) % U32
        let e19 : Nat × Nat × Bool ← (
          if c = 4 then (do
            let c : Nat := 0
            let iwd : Nat := (iwd + 128) % U32
            let rmvRcon : Bool := decide (¬ (rmvRcon = true))
            pure (iwd, c, rmvRcon))
          else (do
            pure (iwd, c, rmvRcon)))
        let iwd : Nat := e19.1
        let c : Nat := e19.2.1
        let rmvRcon : Bool := e19.2.2
        cfree .stack bf_x_tilde
        let j : Nat := (j + 1) % U32
        pure (iwd, c, rmvRcon, ircon, j))
      (iwd, c, rmvRcon, ircon, j)
  let iwd : Nat := e3.1
  let c : Nat := e3.2.1
  let rmvRcon : Bool := e3.2.2.1
  let ircon : Nat := e3.2.2.2.1
  pure ()

/-- faest_aes.c:1243-1299 `aes_key_schedule_constraints_Mkey_0_256`. -/
def aes_key_schedule_constraints_Mkey_0_256 (w : CPtr) (v : CPtr) (a0_ctx : ZkC 256) (a1_ctx : ZkC 256)
    (k : CPtr) (vk : CPtr) (params : Params) : CM (ZkC 256 × ZkC 256) := do
  cassert (decide (52 = params.Ske))
  aes_key_schedule_forward_1 w k params
  aes_key_schedule_forward_256 v vk
  let w_dash ← alloc .stack (malloc 52 : Mem Byte)
  aes_key_schedule_backward_1 (padd w 32) k w_dash params
  let v_w_dash ← alloc .stack (malloc 416 : Mem (BF 256))
  aes_key_schedule_backward_256 (padd v 256) vk (1 : Byte) (0 : Byte) (none : CPtr) v_w_dash
  let rotate_word : Bool := true
  let iwd : Nat := 224
  let j : Nat := 0
  let e1 : ZkC 256 × ZkC 256 × Bool × Nat × Nat ← cwhile
      (fun _s1 =>
        let j : Nat := _s1.2.2.2.2
        decide (j < 13))
      (fun _s1 => do
        let a0_ctx : ZkC 256 := _s1.1
        let a1_ctx : ZkC 256 := _s1.2.1
        let rotate_word : Bool := _s1.2.2.1
        let iwd : Nat := _s1.2.2.2.1
        let j : Nat := _s1.2.2.2.2
        let bf_k_hat ← alloc .stack (malloc 4 : Mem (BF 256))
        let bf_v_k_hat ← alloc .stack (malloc 4 : Mem (BF 256))
        let bf_w_dash_hat ← alloc .stack (malloc 4 : Mem (BF 256))
        let bf_v_w_dash_hat ← alloc .stack (malloc 4 : Mem (BF 256))
        let r : Nat := 0
        let e2 : Nat ← cwhile
            (fun _s2 =>
              let r : Nat := _s2
              decide (r ≤ 3))
            (fun _s2 => do
              let r : Nat := _s2
              let e3 : Unit ← (
                if rotate_word = true then (do
                  let e4 : Byte ← ld k (((iwd + ((8 * r) % U32)) % U32) / 8)
                  let e5 ← bf_byte_combine_bits 256 e4
                  st bf_k_hat (((r + 3) % U32) % 4) e5
                  let e6 ← bf_byte_combine 256 (padd vk ((iwd + ((8 * r) % U32)) % U32))
                  st bf_v_k_hat (((r + 3) % U32) % 4) e6
                  let e7 : Byte ← ld w_dash (((((32 * j) % U32) + ((8 * r) % U32)) % U32) / 8)
                  let e8 ← bf_byte_combine_bits 256 e7
                  st bf_w_dash_hat r e8
                  let e9 ← bf_byte_combine 256 (padd v_w_dash ((((32 * j) % U32) + ((8 * r) % U32)) % U32))
                  st bf_v_w_dash_hat r e9
                  pure ())
                else (do
                  let e10 : Byte ← ld k (((iwd + ((8 * r) % U32)) % U32) / 8)
                  let e11 ← bf_byte_combine_bits 256 e10
                  st bf_k_hat r e11
                  let e12 ← bf_byte_combine 256 (padd vk ((iwd + ((8 * r) % U32)) % U32))
                  st bf_v_k_hat r e12
                  let e13 : Byte ← ld w_dash (((((32 * j) % U32) + ((8 * r) % U32)) % U32) / 8)
                  let e14 ← bf_byte_combine_bits 256 e13
                  st bf_w_dash_hat r e14
                  let e15 ← bf_byte_combine 256 (padd v_w_dash ((((32 * j) % U32) + ((8 * r) % U32)) % U32))
                  st bf_v_w_dash_hat r e15
                  pure ()))
              let r : Nat := (r + 1) % U32
              pure r)
            r
        let r : Nat := 0
        let e16 : ZkC 256 × ZkC 256 × Nat ← cwhile
            (fun _s2 =>
              let r : Nat := _s2.2.2
              decide (r ≤ 3))
            (fun _s2 => do
              let a0_ctx : ZkC 256 := _s2.1
              let a1_ctx : ZkC 256 := _s2.2.1
              let r : Nat := _s2.2.2
              let e17 : BF 256 ← ld bf_v_k_hat r
              let e18 : BF 256 ← ld bf_v_w_dash_hat r
              let tmp : BF 256 := bfMul e17 e18
              let e19 ← zk_hash_256_update a0_ctx tmp
              let a0_ctx := e19
              let e20 : BF 256 ← ld bf_k_hat r
              let e21 : BF 256 ← ld bf_v_k_hat r
              let e22 : BF 256 ← ld bf_w_dash_hat r
              let e23 : BF 256 ← ld bf_v_w_dash_hat r
              let e24 ← zk_hash_256_update a1_ctx (bfAdd (bfAdd (bfMul (bfAdd e20 e21) (bfAdd e22 e23)) (bfOne : BF 256)) tmp)
              let a1_ctx := e24
              let r : Nat := (r + 1) % U32
              pure (a0_ctx, a1_ctx, r))
            (a0_ctx, a1_ctx, r)
        let a0_ctx : ZkC 256 := e16.1
        let a1_ctx : ZkC 256 := e16.2.1
        let iwd : Nat := (iwd + 128) % U32
        let rotate_word : Bool := decide (¬ (rotate_word = true))
        cfree .stack bf_v_w_dash_hat
        cfree .stack bf_w_dash_hat
        cfree .stack bf_v_k_hat
        cfree .stack bf_k_hat
        let j : Nat := (j + 1) % U32
        pure (a0_ctx, a1_ctx, rotate_word, iwd, j))
      (a0_ctx, a1_ctx, rotate_word, iwd, j)
  let a0_ctx : ZkC 256 := e1.1
  let a1_ctx : ZkC 256 := e1.2.1
  let rotate_word : Bool := e1.2.2.1
  let iwd : Nat := e1.2.2.2.1
  cfree .stack v_w_dash
  cfree .stack w_dash
  pure (a0_ctx, a1_ctx)

/-- faest_aes.c:1301-1335 `aes_key_schedule_constraints_Mkey_1_256`. -/
def aes_key_schedule_constraints_Mkey_1_256 (q : CPtr) (delta : CPtr) (b0_ctx : ZkC 256) (qk : CPtr) : CM (ZkC 256) := do
  aes_key_schedule_forward_256 q qk
  let q_w_dash ← alloc .stack (malloc 416 : Mem (BF 256))
  aes_key_schedule_backward_256 (padd q 256) qk (0 : Byte) (1 : Byte) delta q_w_dash
  let e1 ← bf_load 256 delta
  let bf_delta : BF 256 := e1
  let bf_delta_squared : BF 256 := bfMul bf_delta bf_delta
  let rotate_word : Bool := true
  let iwd : Nat := 224
  let j : Nat := 0
  let e2 : ZkC 256 × Bool × Nat × Nat ← cwhile
      (fun _s1 =>
        let j : Nat := _s1.2.2.2
        decide (j < 13))
      (fun _s1 => do
        let b0_ctx : ZkC 256 := _s1.1
        let rotate_word : Bool := _s1.2.1
        let iwd : Nat := _s1.2.2.1
        let j : Nat := _s1.2.2.2
        let bf_q_hat_k ← alloc .stack (malloc 4 : Mem (BF 256))
        let bf_q_hat_w_dash ← alloc .stack (malloc 4 : Mem (BF 256))
        let r : Nat := 0
        let e3 : Nat ← cwhile
            (fun _s2 =>
              let r : Nat := _s2
              decide (r ≤ 3))
            (fun _s2 => do
              let r : Nat := _s2
              let e4 : Unit ← (
                if rotate_word = true then (do
                  let e5 ← bf_byte_combine 256 (padd qk ((iwd + ((8 * r) % U32)) % U32))
                  st bf_q_hat_k (((r + 3) % U32) % 4) e5
                  let e6 ← bf_byte_combine 256 (padd q_w_dash ((((32 * j) % U32) + ((8 * r) % U32)) % U32))
                  st bf_q_hat_w_dash r e6
                  pure ())
                else (do
                  let e7 ← bf_byte_combine 256 (padd qk ((iwd + ((8 * r) % U32)) % U32))
                  st bf_q_hat_k r e7
                  let e8 ← bf_byte_combine 256 (padd q_w_dash ((((32 * j) % U32) + ((8 * r) % U32)) % U32))
                  st bf_q_hat_w_dash r e8
                  pure ()))
              let r : Nat := (r + 1) % U32
              pure r)
            r
        let r : Nat := 0
        let e9 : ZkC 256 × Nat ← cwhile
            (fun _s2 =>
              let r : Nat := _s2.2
              decide (r ≤ 3))
            (fun _s2 => do
              let b0_ctx : ZkC 256 := _s2.1
              let r : Nat := _s2.2
              let e10 : BF 256 ← ld bf_q_hat_k r
              let e11 : BF 256 ← ld bf_q_hat_w_dash r
              let bf_tmp : BF 256 := bfMul e10 e11
              let e12 ← zk_hash_256_update b0_ctx (bfAdd bf_tmp bf_delta_squared)
              let b0_ctx := e12
              let r : Nat := (r + 1) % U32
              pure (b0_ctx, r))
            (b0_ctx, r)
        let b0_ctx : ZkC 256 := e9.1
        let iwd : Nat := (iwd + 128) % U32
        let rotate_word : Bool := decide (¬ (rotate_word = true))
        cfree .stack bf_q_hat_w_dash
        cfree .stack bf_q_hat_k
        let j : Nat := (j + 1) % U32
        pure (b0_ctx, rotate_word, iwd, j))
      (b0_ctx, rotate_word, iwd, j)
  let b0_ctx : ZkC 256 := e2.1
  let rotate_word : Bool := e2.2.1
  let iwd : Nat := e2.2.2.1
  cfree .stack q_w_dash
  pure b0_ctx

/-- faest_aes.c:1337-1389 `aes_enc_forward_256_1`. -/
def aes_enc_forward_256_1 (x : CPtr) (xk : CPtr) (in_ : CPtr) (Mtag : Byte) (Mkey : Byte) (bf_y : CPtr) : CM Unit := do
  let i : Nat := 0
  let e1 : Nat ← cwhile
      (fun _s1 =>
        let i : Nat := _s1
        decide (i < 16))
      (fun _s1 => do
        let i : Nat := _s1
        let e2 : Byte ← ld in_ i
        let xin : Byte := BitVec.ofNat 8 (e2.toNat &&& ((U32 - ((1 ^^^ Mtag.toNat) &&& (1 ^^^ Mkey.toNat))) % U32))
        let e3 ← bf_byte_combine_bits 256 xin
        let e4 : Byte ← ld xk i
        let e5 ← bf_byte_combine_bits 256 e4
        st bf_y i (bfAdd e3 e5)
        let i : Nat := (i + 1) % U32
        pure i)
      i
  let e6 ← bf_byte_combine_bits 256 (2 : Byte)
  let bf_two : BF 256 := e6
  let e7 ← bf_byte_combine_bits 256 (3 : Byte)
  let bf_three : BF 256 := e7
  let j : Nat := 1
  let e8 : Nat ← cwhile
      (fun _s1 =>
        let j : Nat := _s1
        decide (j < 14))
      (fun _s1 => do
        let j : Nat := _s1
        let c : Nat := 0
        let e9 : Nat ← cwhile
            (fun _s2 =>
              let c : Nat := _s2
              decide (c ≤ 3))
            (fun _s2 => do
              let c : Nat := _s2
              let ix : Nat := (((128 * ((j + U32 - 1) % U32)) % U32) + ((32 * c) % U32)) % U32
              let ik : Nat := (((128 * j) % U32) + ((32 * c) % U32)) % U32
              let iy : Nat := (((16 * j) % U32) + ((4 * c) % U32)) % U32
              let bf_x_hat ← alloc .stack (malloc 4 : Mem (BF 256))
              let bf_xk_hat ← alloc .stack (malloc 4 : Mem (BF 256))
              let r : Nat := 0
              let e10 : Nat ← cwhile
                  (fun _s3 =>
                    let r : Nat := _s3
                    decide (r ≤ 3))
                  (fun _s3 => do
                    let r : Nat := _s3
                    let e11 : Byte ← ld x (((ix + ((8 * r) % U32)) % U32) / 8)
                    let e12 ← bf_byte_combine_bits 256 e11
                    st bf_x_hat r e12
                    let e13 : Byte ← ld xk (((ik + ((8 * r) % U32)) % U32) / 8)
                    let e14 ← bf_byte_combine_bits 256 e13
                    st bf_xk_hat r e14
                    let r : Nat := (r + 1) % U32
                    pure r)
                  r
              let e15 : BF 256 ← ld bf_xk_hat 0
              let e16 : BF 256 ← ld bf_x_hat 0
              st bf_y ((iy + 0) % U32) (bfAdd e15 (bfMul e16 bf_two))
              let e17 : BF 256 ← ld bf_y ((iy + 0) % U32)
              let e18 : BF 256 ← ld bf_x_hat 1
              st bf_y ((iy + 0) % U32) (bfAdd e17 (bfMul e18 bf_three))
              let e19 : BF 256 ← ld bf_y ((iy + 0) % U32)
              let e20 : BF 256 ← ld bf_x_hat 2
              st bf_y ((iy + 0) % U32) (bfAdd e19 e20)
              let e21 : BF 256 ← ld bf_y ((iy + 0) % U32)
              let e22 : BF 256 ← ld bf_x_hat 3
              st bf_y ((iy + 0) % U32) (bfAdd e21 e22)
              let e23 : BF 256 ← ld bf_xk_hat 1
              let e24 : BF 256 ← ld bf_x_hat 0
              st bf_y ((iy + 1) % U32) (bfAdd e23 e24)
              let e25 : BF 256 ← ld bf_y ((iy + 1) % U32)
              let e26 : BF 256 ← ld bf_x_hat 1
              st bf_y ((iy + 1) % U32) (bfAdd e25 (bfMul e26 bf_two))
              let e27 : BF 256 ← ld bf_y ((iy + 1) % U32)
              let e28 : BF 256 ← ld bf_x_hat 2
              st bf_y ((iy + 1) % U32) (bfAdd e27 (bfMul e28 bf_three))
              let e29 : BF 256 ← ld bf_y ((iy + 1) % U32)
              let e30 : BF 256 ← ld bf_x_hat 3
              st bf_y ((iy + 1) % U32) (bfAdd e29 e30)
              let e31 : BF 256 ← ld bf_xk_hat 2
              let e32 : BF 256 ← ld bf_x_hat 0
              st bf_y ((iy + 2) % U32) (bfAdd e31 e32)
              let e33 : BF 256 ← ld bf_y ((iy + 2) % U32)
              let e34 : BF 256 ← ld bf_x_hat 1
              st bf_y ((iy + 2) % U32) (bfAdd e33 e34)
              let e35 : BF 256 ← ld bf_y ((iy + 2) % U32)
              let e36 : BF 256 ← ld bf_x_hat 2
              st bf_y ((iy + 2) % U32) (bfAdd e35 (bfMul e36 bf_two))
              let e37 : BF 256 ← ld bf_y ((iy + 2) % U32)
              let e38 : BF 256 ← ld bf_x_hat 3
              st bf_y ((iy + 2) % U32) (bfAdd e37 (bfMul e38 bf_three))
              let e39 : BF 256 ← ld bf_xk_hat 3
              let e40 : BF 256 ← ld bf_x_hat 0
              st bf_y ((iy + 3) % U32) (bfAdd e39 (bfMul e40 bf_three))
              let e41 : BF 256 ← ld bf_y ((iy + 3) % U32)
              let e42 : BF 256 ← ld bf_x_hat 1
              st bf_y ((iy + 3) % U32) (bfAdd e41 e42)
              let e43 : BF 256 ← ld bf_y ((iy + 3) % U32)
              let e44 : BF 256 ← ld bf_x_hat 2
              st bf_y ((iy + 3) % U32) (bfAdd e43 e44)
              let e45 : BF 256 ← ld bf_y ((iy + 3) % U32)
              let e46 : BF 256 ← ld bf_x_hat 3
              st bf_y ((iy + 3) % U32) (bfAdd e45 (bfMul e46 bf_two))
              cfree .stack bf_xk_hat
              cfree .stack bf_x_hat
              let c : Nat := (c + 1) % U32
              pure c)
            c
        let j : Nat := (j + 1) % U32
        pure j)
      j
  pure ()

/-- faest_aes.c:1391-1448 `aes_enc_forward_256`. -/
def aes_enc_forward_256 (bf_x : CPtr) (bf_xk : CPtr) (in_ : CPtr) (Mtag : Byte) (Mkey : Byte) (delta : CPtr)
    (bf_y : CPtr) : CM Unit := do
  let e2 ← (if delta.isSome = true then (do
      let e1 ← bf_load 256 delta
      pure e1)
    else (do
      pure (bfZero : BF 256)))
  let bf_delta : BF 256 := e2
  let bf_factor : BF 256 := bfAdd (bfMulBit bf_delta Mkey) ((bfFromBit (n := 256)) (BitVec.ofNat 8 (1 ^^^ Mkey.toNat)))
  let i : Nat := 0
  let e3 : Nat ← cwhile
      (fun _s1 =>
        let i : Nat := _s1
        decide (i < 16))
      (fun _s1 => do
        let i : Nat := _s1
        let bf_xin ← alloc .stack (malloc 8 : Mem (BF 256))
        let j : Nat := 0
        let e4 : Nat ← cwhile
            (fun _s2 =>
              let j : Nat := _s2
              decide (j < 8))
            (fun _s2 => do
              let j : Nat := _s2
              let e5 : Byte ← ld in_ i
              let e6 ← cshr 32 e5.toNat j
              st bf_xin j (bfMulBit bf_factor (BitVec.ofNat 8 ((1 ^^^ Mtag.toNat) &&& (e6 &&& 1))))
              let j : Nat := (j + 1) % U32
              pure j)
            j
        let e7 ← bf_byte_combine 256 bf_xin
        let e8 ← bf_byte_combine 256 (padd bf_xk ((8 * i) % U32))
        st bf_y i (bfAdd e7 e8)
        cfree .stack bf_xin
        let i : Nat := (i + 1) % U32
        pure i)
      i
  let e9 ← bf_byte_combine_bits 256 (2 : Byte)
  let bf_two : BF 256 := e9
  let e10 ← bf_byte_combine_bits 256 (3 : Byte)
  let bf_three : BF 256 := e10
  let j : Nat := 1
  let e11 : Nat ← cwhile
      (fun _s1 =>
        let j : Nat := _s1
        decide (j < 14))
      (fun _s1 => do
        let j : Nat := _s1
        let c : Nat := 0
        let e12 : Nat ← cwhile
            (fun _s2 =>
              let c : Nat := _s2
              decide (c ≤ 3))
            (fun _s2 => do
              let c : Nat := _s2
              let ix : Nat := (((128 * ((j + U32 - 1) % U32)) % U32) + ((32 * c) % U32)) % U32
              let ik : Nat := (((128 * j) % U32) + ((32 * c) % U32)) % U32
              let iy : Nat := (((16 * j) % U32) + ((4 * c) % U32)) % U32
              let bf_x_hat ← alloc .stack (malloc 4 : Mem (BF 256))
              let bf_xk_hat ← alloc .stack (malloc 4 : Mem (BF 256))
              let r : Nat := 0
              let e13 : Nat ← cwhile
                  (fun _s3 =>
                    let r : Nat := _s3
                    decide (r ≤ 3))
                  (fun _s3 => do
                    let r : Nat := _s3
                    let e14 ← bf_byte_combine 256 (padd bf_x ((ix + ((8 * r) % U32)) % U32))
                    st bf_x_hat r e14
                    let e15 ← bf_byte_combine 256 (padd bf_xk ((ik + ((8 * r) % U32)) % U32))
                    st bf_xk_hat r e15
                    let r : Nat := (r + 1) % U32
                    pure r)
                  r
              let e16 : BF 256 ← ld bf_xk_hat 0
              let e17 : BF 256 ← ld bf_x_hat 0
              st bf_y ((iy + 0) % U32) (bfAdd e16 (bfMul e17 bf_two))
              let e18 : BF 256 ← ld bf_y ((iy + 0) % U32)
              let e19 : BF 256 ← ld bf_x_hat 1
              st bf_y ((iy + 0) % U32) (bfAdd e18 (bfMul e19 bf_three))
              let e20 : BF 256 ← ld bf_y ((iy + 0) % U32)
              let e21 : BF 256 ← ld bf_x_hat 2
              st bf_y ((iy + 0) % U32) (bfAdd e20 e21)
              let e22 : BF 256 ← ld bf_y ((iy + 0) % U32)
              let e23 : BF 256 ← ld bf_x_hat 3
              st bf_y ((iy + 0) % U32) (bfAdd e22 e23)
              let e24 : BF 256 ← ld bf_xk_hat 1
              let e25 : BF 256 ← ld bf_x_hat 0
              st bf_y ((iy + 1) % U32) (bfAdd e24 e25)
              let e26 : BF 256 ← ld bf_y ((iy + 1) % U32)
              let e27 : BF 256 ← ld bf_x_hat 1
              st bf_y ((iy + 1) % U32) (bfAdd e26 (bfMul e27 bf_two))
              let e28 : BF 256 ← ld bf_y ((iy + 1) % U32)
              let e29 : BF 256 ← ld bf_x_hat 2
              st bf_y ((iy + 1) % U32) (bfAdd e28 (bfMul e29 bf_three))
              let e30 : BF 256 ← ld bf_y ((iy + 1) % U32)
              let e31 : BF 256 ← ld bf_x_hat 3
              st bf_y ((iy + 1) % U32) (bfAdd e30 e31)
              let e32 : BF 256 ← ld bf_xk_hat 2
              let e33 : BF 256 ← ld bf_x_hat 0
              st bf_y ((iy + 2) % U32) (bfAdd e32 e33)
              let e34 : BF 256 ← ld bf_y ((iy + 2) % U32)
              let e35 : BF 256 ← ld bf_x_hat 1
              st bf_y ((iy + 2) % U32) (bfAdd e34 e35)
              let e36 : BF 256 ← ld bf_y ((iy + 2) % U32)
              let e37 : BF 256 ← ld bf_x_hat 2
              st bf_y ((iy + 2) % U32) (bfAdd e36 (bfMul e37 bf_two))
              let e38 : BF 256 ← ld bf_y ((iy + 2) % U32)
              let e39 : BF 256 ← ld bf_x_hat 3
              st bf_y ((iy + 2) % U32) (bfAdd e38 (bfMul e39 bf_three))
              let e40 : BF 256 ← ld bf_xk_hat 3
              let e41 : BF 256 ← ld bf_x_hat 0
              st bf_y ((iy + 3) % U32) (bfAdd e40 (bfMul e41 bf_three))
              let e42 : BF 256 ← ld bf_y ((iy + 3) % U32)
              let e43 : BF 256 ← ld bf_x_hat 1
              st bf_y ((iy + 3) % U32) (bfAdd e42 e43)
              let e44 : BF 256 ← ld bf_y ((iy + 3) % U32)
              let e45 : BF 256 ← ld bf_x_hat 2
              st bf_y ((iy + 3) % U32) (bfAdd e44 e45)
              let e46 : BF 256 ← ld bf_y ((iy + 3) % U32)
              let e47 : BF 256 ← ld bf_x_hat 3
              st bf_y ((iy + 3) % U32) (bfAdd e46 (bfMul e47 bf_two))
              cfree .stack bf_xk_hat
              cfree .stack bf_x_hat
              let c : Nat := (c + 1) % U32
              pure c)
            c
        let j : Nat := (j + 1) % U32
        pure j)
      j
  pure ()

/-- faest_aes.c:1450-1478 `aes_enc_backward_256_1`. -/
def aes_enc_backward_256_1 (x : CPtr) (xk : CPtr) (Mtag : Byte) (Mkey : Byte) (out : CPtr) (y_out : CPtr) : CM Unit := do
  let j : Nat := 0
  let e1 : Nat ← cwhile
      (fun _s1 =>
        let j : Nat := _s1
        decide (j < 14))
      (fun _s1 => do
        let j : Nat := _s1
        let c : Nat := 0
        let e2 : Nat ← cwhile
            (fun _s2 =>
              let c : Nat := _s2
              decide (c ≤ 3))
            (fun _s2 => do
              let c : Nat := _s2
              let r : Nat := 0
              let e3 : Nat ← cwhile
                  (fun _s3 =>
                    let r : Nat := _s3
                    decide (r ≤ 3))
                  (fun _s3 => do
                    let r : Nat := _s3
                    let ird : Nat := (((((128 * j) % U32) + ((32 * (((((c + U32 - r) % U32) + 4) % U32) % 4)) % U32)) % U32) + ((8 * r) % U32)) % U32
                    let e4 : Byte ← (
                      if j < 13 then (do
                        let e5 : Byte ← ld x (ird / 8)
                        let xtilde : Byte := e5
                        pure xtilde)
                      else (do
                        let e6 : Byte ← ld out (((ird + U32 - 1664) % U32) / 8)
                        let xout : Byte := BitVec.ofNat 8 (e6.toNat &&& ((U32 - ((1 ^^^ Mtag.toNat) &&& (1 ^^^ Mkey.toNat))) % U32))
                        let e7 : Byte ← ld xk (((128 + ird) % U32) / 8)
                        let xtilde : Byte := BitVec.ofNat 8 (xout.toNat ^^^ e7.toNat)
                        pure xtilde))
                    let xtilde : Byte := e4
                    let ytilde : Byte := BitVec.ofNat 8 ((((rotr8 xtilde 7).toNat) ^^^ ((rotr8 xtilde 5).toNat)) ^^^ ((rotr8 xtilde 2).toNat))
                    let ytilde : Byte := BitVec.ofNat 8 (ytilde.toNat ^^^ (((1 ^^^ Mtag.toNat) &&& (1 ^^^ Mkey.toNat)) <<< 0))
                    let ytilde : Byte := BitVec.ofNat 8 (ytilde.toNat ^^^ (((1 ^^^ Mtag.toNat) &&& (1 ^^^ Mkey.toNat)) <<< 2))
                    let e8 ← bf_byte_combine_bits 256 ytilde
                    st y_out ((((((16 * j) % U32) + ((4 * c) % U32)) % U32) + r) % U32) e8
                    let r : Nat := (r + 1) % U32
                    pure r)
                  r
              let c : Nat := (c + 1) % U32
              pure c)
            c
        let j : Nat := (j + 1) % U32
        pure j)
      j
  pure ()

/-- faest_aes.c:1480-1523 `aes_enc_backward_256`. -/
def aes_enc_backward_256 (bf_x : CPtr) (bf_xk : CPtr) (Mtag : Byte) (Mkey : Byte) (delta : CPtr) (out : CPtr)
    (y_out : CPtr) : CM Unit := do
  let e2 ← (if delta.isSome = true then (do
      let e1 ← bf_load 256 delta
      pure e1)
    else (do
      pure (bfZero : BF 256)))
  let bf_delta : BF 256 := e2
  let factor : BF 256 := bfMulBit (bfAdd (bfMulBit bf_delta Mkey) ((bfFromBit (n := 256)) (BitVec.ofNat 8 (1 ^^^ Mkey.toNat)))) (BitVec.ofNat 8 (1 ^^^ Mtag.toNat))
  let j : Nat := 0
  let e3 : Nat ← cwhile
      (fun _s1 =>
        let j : Nat := _s1
        decide (j < 14))
      (fun _s1 => do
        let j : Nat := _s1
        let c : Nat := 0
        let e4 : Nat ← cwhile
            (fun _s2 =>
              let c : Nat := _s2
              decide (c ≤ 3))
            (fun _s2 => do
              let c : Nat := _s2
              let r : Nat := 0
              let e5 : Nat ← cwhile
                  (fun _s3 =>
                    let r : Nat := _s3
                    decide (r ≤ 3))
                  (fun _s3 => do
                    let r : Nat := _s3
                    let bf_x_tilde ← alloc .stack (malloc 8 : Mem (BF 256))
                    let ird : Nat := (((((128 * j) % U32) + ((32 * (((((c + U32 - r) % U32) + 4) % U32) % 4)) % U32)) % U32) + ((8 * r) % U32)) % U32
                    let e6 : Unit ← (
                      if j < 13 then (do
                        memcpy (α := BF 256) bf_x_tilde (padd bf_x ird) 8
                        pure ())
                      else (do
                        let i : Nat := 0
                        let e7 : Nat ← cwhile
                            (fun _s4 =>
                              let i : Nat := _s4
                              decide (i < 8))
                            (fun _s4 => do
                              let i : Nat := _s4
                              let e8 : Byte ← ld out (((ird + U32 - 1664) % U32) / 8)
                              let e9 ← cshr 32 e8.toNat i
                              let bf_xout : BF 256 := bfMulBit factor (BitVec.ofNat 8 (e9 &&& 1))
                              let e10 : BF 256 ← ld bf_xk ((((128 + ird) % U32) + i) % U32)
                              st bf_x_tilde i (bfAdd bf_xout e10)
                              let i : Nat := (i + 1) % U32
                              pure i)
                            i
                        pure ()))
                    let bf_y_tilde ← alloc .stack (malloc 8 : Mem (BF 256))
                    let i : Nat := 0
                    let e11 : Nat ← cwhile
                        (fun _s4 =>
                          let i : Nat := _s4
                          decide (i < 8))
                        (fun _s4 => do
                          let i : Nat := _s4
                          let e12 : BF 256 ← ld bf_x_tilde (((i + 7) % U32) % 8)
                          let e13 : BF 256 ← ld bf_x_tilde (((i + 5) % U32) % 8)
                          let e14 : BF 256 ← ld bf_x_tilde (((i + 2) % U32) % 8)
                          st bf_y_tilde i (bfAdd (bfAdd e12 e13) e14)
                          let i : Nat := (i + 1) % U32
                          pure i)
                        i
                    let e15 : BF 256 ← ld bf_y_tilde 0
                    st bf_y_tilde 0 (bfAdd e15 factor)
                    let e16 : BF 256 ← ld bf_y_tilde 2
                    st bf_y_tilde 2 (bfAdd e16 factor)
                    let e17 ← bf_byte_combine 256 bf_y_tilde
                    st y_out ((((((16 * j) % U32) + ((4 * c) % U32)) % U32) + r) % U32) e17
                    cfree .stack bf_y_tilde
                    cfree .stack bf_x_tilde
                    let r : Nat := (r + 1) % U32
                    pure r)
                  r
              let c : Nat := (c + 1) % U32
              pure c)
            c
        let j : Nat := (j + 1) % U32
        pure j)
      j
  pure ()

/-- faest_aes.c:1525-1545 `aes_enc_constraints_Mkey_0_256`. -/
def aes_enc_constraints_Mkey_0_256 (in_ : CPtr) (out : CPtr) (w : CPtr) (v : CPtr) (k : CPtr) (vk : CPtr)
    (a0_ctx : ZkC 256) (a1_ctx : ZkC 256) : CM (ZkC 256 × ZkC 256) := do
  let s ← alloc .stack (malloc 224 : Mem (BF 256))
  let vs ← alloc .stack (malloc 224 : Mem (BF 256))
  let s_dash ← alloc .stack (malloc 224 : Mem (BF 256))
  let vs_dash ← alloc .stack (malloc 224 : Mem (BF 256))
  aes_enc_forward_256_1 w k in_ (0 : Byte) (0 : Byte) s
  aes_enc_forward_256 v vk in_ (1 : Byte) (0 : Byte) (none : CPtr) vs
  aes_enc_backward_256_1 w k (0 : Byte) (0 : Byte) out s_dash
  aes_enc_backward_256 v vk (1 : Byte) (0 : Byte) (none : CPtr) out vs_dash
  let j : Nat := 0
  let e1 : ZkC 256 × ZkC 256 × Nat ← cwhile
      (fun _s1 =>
        let j : Nat := _s1.2.2
        decide (j < 224))
      (fun _s1 => do
        let a0_ctx : ZkC 256 := _s1.1
        let a1_ctx : ZkC 256 := _s1.2.1
        let j : Nat := _s1.2.2
        let e2 : BF 256 ← ld vs j
        let e3 : BF 256 ← ld vs_dash j
        let tmp : BF 256 := bfMul e2 e3
        let e4 ← zk_hash_256_update a0_ctx tmp
        let a0_ctx := e4
        let e5 : BF 256 ← ld s j
        let e6 : BF 256 ← ld vs j
        let e7 : BF 256 ← ld s_dash j
        let e8 : BF 256 ← ld vs_dash j
        let e9 ← zk_hash_256_update a1_ctx (bfAdd (bfAdd (bfMul (bfAdd e5 e6) (bfAdd e7 e8)) tmp) (bfOne : BF 256))
        let a1_ctx := e9
        let j : Nat := (j + 1) % U32
        pure (a0_ctx, a1_ctx, j))
      (a0_ctx, a1_ctx, j)
  let a0_ctx : ZkC 256 := e1.1
  let a1_ctx : ZkC 256 := e1.2.1
  cfree .stack vs_dash
  cfree .stack s_dash
  cfree .stack vs
  cfree .stack s
  pure (a0_ctx, a1_ctx)

/-- faest_aes.c:1547-1561 `aes_enc_constraints_Mkey_1_256`. -/
def aes_enc_constraints_Mkey_1_256 (in_ : CPtr) (out : CPtr) (q : CPtr) (qk : CPtr) (delta : CPtr)
    (b0_ctx : ZkC 256) : CM (ZkC 256) := do
  let qs ← alloc .stack (malloc 224 : Mem (BF 256))
  let qs_dash ← alloc .stack (malloc 224 : Mem (BF 256))
  aes_enc_forward_256 q qk in_ (0 : Byte) (1 : Byte) delta qs
  aes_enc_backward_256 q qk (0 : Byte) (1 : Byte) delta out qs_dash
  let e1 ← bf_load 256 delta
  let e2 ← bf_load 256 delta
  let minus_part : BF 256 := bfMul e1 e2
  let j : Nat := 0
  let e3 : ZkC 256 × Nat ← cwhile
      (fun _s1 =>
        let j : Nat := _s1.2
        decide (j < 224))
      (fun _s1 => do
        let b0_ctx : ZkC 256 := _s1.1
        let j : Nat := _s1.2
        let e4 : BF 256 ← ld qs j
        let e5 : BF 256 ← ld qs_dash j
        let e6 ← zk_hash_256_update b0_ctx (bfAdd (bfMul e4 e5) minus_part)
        let b0_ctx := e6
        let j : Nat := (j + 1) % U32
        pure (b0_ctx, j))
      (b0_ctx, j)
  let b0_ctx : ZkC 256 := e3.1
  cfree .stack qs_dash
  cfree .stack qs
  pure b0_ctx

/-- faest_aes.c:1563-1599 `aes_prove_256`. -/
def aes_prove_256 (w : CPtr) (u : CPtr) (V : CPtr) (in_ : CPtr) (out : CPtr) (chall : CPtr) (a_tilde : CPtr)
    (b_tilde : CPtr) (params : Params) : CM Unit := do
  let e1 ← column_to_row_major_and_shrink_V_256 V 4000
  let bf_v : CPtr := e1
  let e2 ← alloc .heap (malloc 240 : Mem Byte)
  let k : CPtr := e2
  let e3 ← alloc .aligned (malloc 1920 : Mem (BF 256))
  let vk : CPtr := e3
  let a0_ctx : ZkC 256 := {}
  let a1_ctx : ZkC 256 := {}
  let e4 ← zk_hash_256_init a0_ctx chall
  let a0_ctx := e4
  let e5 ← zk_hash_256_init a1_ctx chall
  let a1_ctx := e5
  let e6 ← aes_key_schedule_constraints_Mkey_0_256 w bf_v a0_ctx a1_ctx k vk params
  let a0_ctx := e6.1
  let a1_ctx := e6.2
  let e7 ← aes_enc_constraints_Mkey_0_256 in_ out (padd w 84) (padd bf_v 672) k vk a0_ctx a1_ctx
  let a0_ctx := e7.1
  let a1_ctx := e7.2
  let e8 ← aes_enc_constraints_Mkey_0_256 (padd in_ 16) (padd out 16) (padd w 292) (padd (padd bf_v 672) 1664) k vk a0_ctx a1_ctx
  let a0_ctx := e8.1
  let a1_ctx := e8.2
  cfree .aligned vk
  cfree .heap k
  let e9 ← bf_load 256 (padd u 500)
  let e10 ← zk_hash_256_finalize a_tilde a1_ctx e9
  let a1_ctx := e10
  let e11 ← bf_sum_poly 256 (padd bf_v 4000)
  let e12 ← zk_hash_256_finalize b_tilde a0_ctx e11
  let a0_ctx := e12
  cfree .aligned bf_v
  pure ()

/-- faest_aes.c:1601-1653 `aes_verify_256`. -/
def aes_verify_256 (d : CPtr) (Q : CPtr) (chall_2 : CPtr) (chall_3 : CPtr) (a_tilde : CPtr) (in_ : CPtr)
    (out : CPtr) (params : Params) : CM CPtr := do
  let tau : Nat := params.tau
  let t0 : Nat := params.t0
  let k0 : Nat := params.k0
  let t1 : Nat := params.t1
  let k1 : Nat := params.k1
  let delta : CPtr := chall_3
  let i : Nat := 0
  let col : Nat := 0
  let e1 : Nat × Nat ← cwhile
      (fun _s1 =>
        let i : Nat := _s1.1
        decide (i < tau))
      (fun _s1 => do
        let i : Nat := _s1.1
        let col : Nat := _s1.2
        let depth : Nat := (if i < t0 then k0 else k1)
        let decoded_challenge ← alloc .stack (malloc 12 : Mem Byte)
        let e2 ← ChalDec chall_3 i k0 t0 k1 t1 decoded_challenge
        let j : Nat := 0
        let e3 : Nat × Nat ← cwhile
            (fun _s2 =>
              let j : Nat := _s2.2
              decide (j < depth))
            (fun _s2 => do
              let col : Nat := _s2.1
              let j : Nat := _s2.2
              let e4 : Byte ← ld decoded_challenge j
              let e5 : Unit ← (
                if e4.toNat = 1 then (do
                  let e6 : CPtr ← ld Q col
                  let e7 : CPtr ← ld Q col
                  xor_u8_array d e6 e7 500
                  pure ())
                else (do
                  pure ()))
              let j : Nat := (j + 1) % U32
              let col : Nat := (col + 1) % U32
              pure (col, j))
            (col, j)
        let col : Nat := e3.1
        cfree .stack decoded_challenge
        let i : Nat := (i + 1) % U32
        pure (i, col))
      (i, col)
  let e8 ← column_to_row_major_and_shrink_V_256 Q 4000
  let bf_q : CPtr := e8
  let e9 ← alloc .aligned (malloc 1920 : Mem (BF 256))
  let qk : CPtr := e9
  let b0_ctx : ZkC 256 := {}
  let e10 ← zk_hash_256_init b0_ctx chall_2
  let b0_ctx := e10
  let e11 ← aes_key_schedule_constraints_Mkey_1_256 bf_q delta b0_ctx qk
  let b0_ctx := e11
  let e12 ← aes_enc_constraints_Mkey_1_256 in_ out (padd bf_q 672) qk delta b0_ctx
  let b0_ctx := e12
  let e13 ← aes_enc_constraints_Mkey_1_256 (padd in_ 16) (padd out 16) (padd (padd bf_q 672) 1664) qk delta b0_ctx
  let b0_ctx := e13
  cfree .aligned qk
  let e14 ← alloc .heap (malloc 32 : Mem Byte)
  let q_tilde : CPtr := e14
  let e15 ← bf_sum_poly 256 (padd bf_q 4000)
  let e16 ← zk_hash_256_finalize q_tilde b0_ctx e15
  let b0_ctx := e16
  cfree .aligned bf_q
  let e17 ← bf_load 256 q_tilde
  let bf_qtilde : BF 256 := e17
  let e18 ← bf_load 256 a_tilde
  let e19 ← bf_load 256 delta
  bf_store q_tilde (bfAdd bf_qtilde (bfMul e18 e19))
  pure q_tilde

/-- faest_aes.c:1657-1699 `em_enc_forward_128_1`. -/
def em_enc_forward_128_1 (z : CPtr) (x : CPtr) (bf_y : CPtr) : CM Unit := do
  let j : Nat := 0
  let e1 : Nat ← cwhile
      (fun _s1 =>
        let j : Nat := _s1
        decide (j < 16))
      (fun _s1 => do
        let j : Nat := _s1
        let e2 : Byte ← ld z j
        let e3 ← bf_byte_combine_bits 128 e2
        let e4 : Byte ← ld x j
        let e5 ← bf_byte_combine_bits 128 e4
        st bf_y j (bfAdd e3 e5)
        let j : Nat := (j + 1) % U32
        pure j)
      j
  let e6 ← bf_byte_combine_bits 128 (2 : Byte)
  let bf_two : BF 128 := e6
  let e7 ← bf_byte_combine_bits 128 (3 : Byte)
  let bf_three : BF 128 := e7
  let j : Nat := 1
  let e8 : Nat ← cwhile
      (fun _s1 =>
        let j : Nat := _s1
        decide (j < 10))
      (fun _s1 => do
        let j : Nat := _s1
        let c : Nat := 0
        let e9 : Nat ← cwhile
            (fun _s2 =>
              let c : Nat := _s2
              decide (c < 4))
            (fun _s2 => do
              let c : Nat := _s2
              let i : Nat := (((128 * j) % U32) + ((32 * c) % U32)) % U32
              let iy : Nat := (((16 * j) % U32) + ((4 * c) % U32)) % U32
              let bf_x_hat ← alloc .stack (malloc 4 : Mem (BF 128))
              let bf_z_hat ← alloc .stack (malloc 4 : Mem (BF 128))
              let r : Nat := 0
              let e10 : Nat ← cwhile
                  (fun _s3 =>
                    let r : Nat := _s3
                    decide (r ≤ 3))
                  (fun _s3 => do
                    let r : Nat := _s3
                    let e11 : Byte ← ld z (((i + ((8 * r) % U32)) % U32) / 8)
                    let e12 ← bf_byte_combine_bits 128 e11
                    st bf_z_hat r e12
                    let e13 : Byte ← ld x (((i + ((8 * r) % U32)) % U32) / 8)
                    let e14 ← bf_byte_combine_bits 128 e13
                    st bf_x_hat r e14
                    let r : Nat := (r + 1) % U32
                    pure r)
                  r
              let e15 : BF 128 ← ld bf_z_hat 0
              let e16 : BF 128 ← ld bf_z_hat 1
              st bf_y ((iy + 0) % U32) (bfAdd (bfMul e15 bf_two) (bfMul e16 bf_three))
              let e17 : BF 128 ← ld bf_y ((iy + 0) % U32)
              let e18 : BF 128 ← ld bf_z_hat 2
              st bf_y ((iy + 0) % U32) (bfAdd e17 e18)
              let e19 : BF 128 ← ld bf_y ((iy + 0) % U32)
              let e20 : BF 128 ← ld bf_z_hat 3
              st bf_y ((iy + 0) % U32) (bfAdd e19 e20)
              let e21 : BF 128 ← ld bf_y ((iy + 0) % U32)
              let e22 : BF 128 ← ld bf_x_hat 0
              st bf_y ((iy + 0) % U32) (bfAdd e21 e22)
              let e23 : BF 128 ← ld bf_z_hat 0
              let e24 : BF 128 ← ld bf_z_hat 1
              st bf_y ((iy + 1) % U32) (bfAdd e23 (bfMul e24 bf_two))
              let e25 : BF 128 ← ld bf_y ((iy + 1) % U32)
              let e26 : BF 128 ← ld bf_z_hat 2
              st bf_y ((iy + 1) % U32) (bfAdd e25 (bfMul e26 bf_three))
              let e27 : BF 128 ← ld bf_y ((iy + 1) % U32)
              let e28 : BF 128 ← ld bf_z_hat 3
              st bf_y ((iy + 1) % U32) (bfAdd e27 e28)
              let e29 : BF 128 ← ld bf_y ((iy + 1) % U32)
              let e30 : BF 128 ← ld bf_x_hat 1
              st bf_y ((iy + 1) % U32) (bfAdd e29 e30)
              let e31 : BF 128 ← ld bf_z_hat 0
              let e32 : BF 128 ← ld bf_z_hat 1
              st bf_y ((iy + 2) % U32) (bfAdd e31 e32)
              let e33 : BF 128 ← ld bf_y ((iy + 2) % U32)
              let e34 : BF 128 ← ld bf_z_hat 2
              st bf_y ((iy + 2) % U32) (bfAdd e33 (bfMul e34 bf_two))
              let e35 : BF 128 ← ld bf_y ((iy + 2) % U32)
              let e36 : BF 128 ← ld bf_z_hat 3
              st bf_y ((iy + 2) % U32) (bfAdd e35 (bfMul e36 bf_three))
              let e37 : BF 128 ← ld bf_y ((iy + 2) % U32)
              let e38 : BF 128 ← ld bf_x_hat 2
              st bf_y ((iy + 2) % U32) (bfAdd e37 e38)
              let e39 : BF 128 ← ld bf_z_hat 0
              let e40 : BF 128 ← ld bf_z_hat 1
              st bf_y ((iy + 3) % U32) (bfAdd (bfMul e39 bf_three) e40)
              let e41 : BF 128 ← ld bf_y ((iy + 3) % U32)
              let e42 : BF 128 ← ld bf_z_hat 2
              st bf_y ((iy + 3) % U32) (bfAdd e41 e42)
              let e43 : BF 128 ← ld bf_y ((iy + 3) % U32)
              let e44 : BF 128 ← ld bf_z_hat 3
              st bf_y ((iy + 3) % U32) (bfAdd e43 (bfMul e44 bf_two))
              let e45 : BF 128 ← ld bf_y ((iy + 3) % U32)
              let e46 : BF 128 ← ld bf_x_hat 3
              st bf_y ((iy + 3) % U32) (bfAdd e45 e46)
              cfree .stack bf_z_hat
              cfree .stack bf_x_hat
              let c : Nat := (c + 1) % U32
              pure c)
            c
        let j : Nat := (j + 1) % U32
        pure j)
      j
  pure ()

/-- faest_aes.c:1701-1751 `em_enc_forward_128`. -/
def em_enc_forward_128 (bf_z : CPtr) (bf_x : CPtr) (bf_y : CPtr) : CM Unit := do
  let j : Nat := 0
  let e1 : Nat ← cwhile
      (fun _s1 =>
        let j : Nat := _s1
        decide (j < 16))
      (fun _s1 => do
        let j : Nat := _s1
        let e2 ← bf_byte_combine 128 (padd bf_z ((8 * j) % U32))
        st bf_y j e2
        let e3 : Unit ← (
          if bf_x.isSome = true then (do
            let e4 : BF 128 ← ld bf_y j
            let e5 ← bf_byte_combine 128 (padd bf_x ((8 * j) % U32))
            st bf_y j (bfAdd e4 e5)
            pure ())
          else (do
            pure ()))
        let j : Nat := (j + 1) % U32
        pure j)
      j
  let e6 ← bf_byte_combine_bits 128 (2 : Byte)
  let bf_two : BF 128 := e6
  let e7 ← bf_byte_combine_bits 128 (3 : Byte)
  let bf_three : BF 128 := e7
  let j : Nat := 1
  let e8 : Nat ← cwhile
      (fun _s1 =>
        let j : Nat := _s1
        decide (j < 10))
      (fun _s1 => do
        let j : Nat := _s1
        let c : Nat := 0
        let e9 : Nat ← cwhile
            (fun _s2 =>
              let c : Nat := _s2
              decide (c < 4))
            (fun _s2 => do
              let c : Nat := _s2
              let i : Nat := (((128 * j) % U32) + ((32 * c) % U32)) % U32
              let iy : Nat := (((16 * j) % U32) + ((4 * c) % U32)) % U32
              let bf_x_hat ← alloc .stack (malloc 4 : Mem (BF 128))
              let bf_z_hat ← alloc .stack (malloc 4 : Mem (BF 128))
              let r : Nat := 0
              let e10 : Nat ← cwhile
                  (fun _s3 =>
                    let r : Nat := _s3
                    decide (r ≤ 3))
                  (fun _s3 => do
                    let r : Nat := _s3
                    let e11 ← bf_byte_combine 128 (padd bf_z ((i + ((8 * r) % U32)) % U32))
                    st bf_z_hat r e11
                    let e12 : Unit ← (
                      if bf_x.isSome = true then (do
                        let e13 ← bf_byte_combine 128 (padd bf_x ((i + ((8 * r) % U32)) % U32))
                        st bf_x_hat r e13
                        pure ())
                      else (do
                        st bf_x_hat r (bfZero : BF 128)
                        pure ()))
                    let r : Nat := (r + 1) % U32
                    pure r)
                  r
              let e14 : BF 128 ← ld bf_z_hat 0
              let e15 : BF 128 ← ld bf_z_hat 1
              st bf_y ((iy + 0) % U32) (bfAdd (bfMul e14 bf_two) (bfMul e15 bf_three))
              let e16 : BF 128 ← ld bf_y ((iy + 0) % U32)
              let e17 : BF 128 ← ld bf_z_hat 2
              st bf_y ((iy + 0) % U32) (bfAdd e16 e17)
              let e18 : BF 128 ← ld bf_y ((iy + 0) % U32)
              let e19 : BF 128 ← ld bf_z_hat 3
              st bf_y ((iy + 0) % U32) (bfAdd e18 e19)
              let e20 : BF 128 ← ld bf_y ((iy + 0) % U32)
              let e21 : BF 128 ← ld bf_x_hat 0
              st bf_y ((iy + 0) % U32) (bfAdd e20 e21)
              let e22 : BF 128 ← ld bf_z_hat 0
              let e23 : BF 128 ← ld bf_z_hat 1
              st bf_y ((iy + 1) % U32) (bfAdd e22 (bfMul e23 bf_two))
              let e24 : BF 128 ← ld bf_y ((iy + 1) % U32)
              let e25 : BF 128 ← ld bf_z_hat 2
              st bf_y ((iy + 1) % U32) (bfAdd e24 (bfMul e25 bf_three))
              let e26 : BF 128 ← ld bf_y ((iy + 1) % U32)
              let e27 : BF 128 ← ld bf_z_hat 3
              st bf_y ((iy + 1) % U32) (bfAdd e26 e27)
              let e28 : BF 128 ← ld bf_y ((iy + 1) % U32)
              let e29 : BF 128 ← ld bf_x_hat 1
              st bf_y ((iy + 1) % U32) (bfAdd e28 e29)
              let e30 : BF 128 ← ld bf_z_hat 0
              let e31 : BF 128 ← ld bf_z_hat 1
              st bf_y ((iy + 2) % U32) (bfAdd e30 e31)
              let e32 : BF 128 ← ld bf_y ((iy + 2) % U32)
              let e33 : BF 128 ← ld bf_z_hat 2
              st bf_y ((iy + 2) % U32) (bfAdd e32 (bfMul e33 bf_two))
              let e34 : BF 128 ← ld bf_y ((iy + 2) % U32)
              let e35 : BF 128 ← ld bf_z_hat 3
              st bf_y ((iy + 2) % U32) (bfAdd e34 (bfMul e35 bf_three))
              let e36 : BF 128 ← ld bf_y ((iy + 2) % U32)
              let e37 : BF 128 ← ld bf_x_hat 2
              st bf_y ((iy + 2) % U32) (bfAdd e36 e37)
              let e38 : BF 128 ← ld bf_z_hat 0
              let e39 : BF 128 ← ld bf_z_hat 1
              st bf_y ((iy + 3) % U32) (bfAdd (bfMul e38 bf_three) e39)
              let e40 : BF 128 ← ld bf_y ((iy + 3) % U32)
              let e41 : BF 128 ← ld bf_z_hat 2
              st bf_y ((iy + 3) % U32) (bfAdd e40 e41)
              let e42 : BF 128 ← ld bf_y ((iy + 3) % U32)
              let e43 : BF 128 ← ld bf_z_hat 3
              st bf_y ((iy + 3) % U32) (bfAdd e42 (bfMul e43 bf_two))
              let e44 : BF 128 ← ld bf_y ((iy + 3) % U32)
              let e45 : BF 128 ← ld bf_x_hat 3
              st bf_y ((iy + 3) % U32) (bfAdd e44 e45)
              cfree .stack bf_z_hat
              cfree .stack bf_x_hat
              let c : Nat := (c + 1) % U32
              pure c)
            c
        let j : Nat := (j + 1) % U32
        pure j)
      j
  pure ()

/-- faest_aes.c:1753-1780 `em_enc_backward_128_1`. -/
def em_enc_backward_128_1 (z : CPtr) (x : CPtr) (z_out : CPtr) (y_out : CPtr) : CM Unit := do
  let j : Nat := 0
  let e1 : Nat ← cwhile
      (fun _s1 =>
        let j : Nat := _s1
        decide (j < 10))
      (fun _s1 => do
        let j : Nat := _s1
        let c : Nat := 0
        let e2 : Nat ← cwhile
            (fun _s2 =>
              let c : Nat := _s2
              decide (c < 4))
            (fun _s2 => do
              let c : Nat := _s2
              let r : Nat := 0
              let e3 : Nat ← cwhile
                  (fun _s3 =>
                    let r : Nat := _s3
                    decide (r ≤ 3))
                  (fun _s3 => do
                    let r : Nat := _s3
                    let icol : Nat := ((((c + U32 - r) % U32) + 4) % U32) % 4
                    let ird : Nat := (((((128 + ((128 * j) % U32)) % U32) + ((32 * icol) % U32)) % U32) + ((8 * r) % U32)) % U32
                    let z_tilde : Byte := (0 : Byte)
                    let e4 : Byte ← (
                      if j < 9 then (do
                        let e5 : Byte ← ld z (ird / 8)
                        let z_tilde : Byte := e5
                        pure z_tilde)
                      else (do
                        let e6 : Byte ← ld z_out (((ird + U32 - ((128 * ((j + 1) % U32)) % U32)) % U32) / 8)
                        let e7 : Byte ← ld x (ird / 8)
                        let z_tilde : Byte := BitVec.ofNat 8 (e6.toNat ^^^ e7.toNat)
                        pure z_tilde))
                    let z_tilde : Byte := e4
                    let y_tilde : Byte := BitVec.ofNat 8 (((((rotr8 z_tilde 7).toNat) ^^^ ((rotr8 z_tilde 5).toNat)) ^^^ ((rotr8 z_tilde 2).toNat)) ^^^ 5)
                    let e8 ← bf_byte_combine_bits 128 y_tilde
                    st y_out ((((((16 * j) % U32) + ((4 * c) % U32)) % U32) + r) % U32) e8
                    let r : Nat := (r + 1) % U32
                    pure r)
                  r
              let c : Nat := (c + 1) % U32
              pure c)
            c
        let j : Nat := (j + 1) % U32
        pure j)
      j
  pure ()

/-- faest_aes.c:1782-1822 `em_enc_backward_128`. -/
def em_enc_backward_128 (bf_z : CPtr) (bf_x : CPtr) (bf_z_out : CPtr) (Mtag : Byte) (Mkey : Byte) (delta : CPtr)
    (y_out : CPtr) : CM Unit := do
  let e2 ← (if delta.isSome = true then (do
      let e1 ← bf_load 128 delta
      pure e1)
    else (do
      pure (bfZero : BF 128)))
  let bf_delta : BF 128 := e2
  let factor : BF 128 := bfMulBit (bfAdd (bfMulBit bf_delta Mkey) ((bfFromBit (n := 128)) (BitVec.ofNat 8 (1 ^^^ Mkey.toNat)))) (BitVec.ofNat 8 (1 ^^^ Mtag.toNat))
  let j : Nat := 0
  let e3 : Nat ← cwhile
      (fun _s1 =>
        let j : Nat := _s1
        decide (j < 10))
      (fun _s1 => do
        let j : Nat := _s1
        let c : Nat := 0
        let e4 : Nat ← cwhile
            (fun _s2 =>
              let c : Nat := _s2
              decide (c < 4))
            (fun _s2 => do
              let c : Nat := _s2
              let r : Nat := 0
              let e5 : Nat ← cwhile
                  (fun _s3 =>
                    let r : Nat := _s3
                    decide (r ≤ 3))
                  (fun _s3 => do
                    let r : Nat := _s3
                    let bf_z_tilde ← alloc .stack (malloc 8 : Mem (BF 128))
                    let icol : Nat := ((((c + U32 - r) % U32) + 4) % U32) % 4
                    let ird : Nat := (((((128 + ((128 * j) % U32)) % U32) + ((32 * icol) % U32)) % U32) + ((8 * r) % U32)) % U32
                    let e6 : Unit ← (
                      if j < 9 then (do
                        memcpy (α := BF 128) bf_z_tilde (padd bf_z ird) 8
                        pure ())
                      else (do
                        let i : Nat := 0
                        let e7 : Nat ← cwhile
                            (fun _s4 =>
                              let i : Nat := _s4
                              decide (i < 8))
                            (fun _s4 => do
                              let i : Nat := _s4
                              let e8 : BF 128 ← ld bf_z_out ((((ird + U32 - ((128 * ((j + 1) % U32)) % U32)) % U32) + i) % U32)
                              st bf_z_tilde i e8
                              let e9 : Unit ← (
                                if bf_x.isSome = true then (do
                                  let e10 : BF 128 ← ld bf_z_tilde i
                                  let e11 : BF 128 ← ld bf_x ((ird + i) % U32)
                                  st bf_z_tilde i (bfAdd e10 e11)
                                  pure ())
                                else (do
                                  pure ()))
                              let i : Nat := (i + 1) % U32
                              pure i)
                            i
                        pure ()))
                    let bf_y_tilde ← alloc .stack (malloc 8 : Mem (BF 128))
                    let i : Nat := 0
                    let e12 : Nat ← cwhile
                        (fun _s4 =>
                          let i : Nat := _s4
                          decide (i < 8))
                        (fun _s4 => do
                          let i : Nat := _s4
                          let e13 : BF 128 ← ld bf_z_tilde (((i + 7) % U32) % 8)
                          let e14 : BF 128 ← ld bf_z_tilde (((i + 5) % U32) % 8)
                          let e15 : BF 128 ← ld bf_z_tilde (((i + 2) % U32) % 8)
                          st bf_y_tilde i (bfAdd (bfAdd e13 e14) e15)
                          let i : Nat := (i + 1) % U32
                          pure i)
                        i
                    let e16 : BF 128 ← ld bf_y_tilde 0
                    st bf_y_tilde 0 (bfAdd e16 factor)
                    let e17 : BF 128 ← ld bf_y_tilde 2
                    st bf_y_tilde 2 (bfAdd e17 factor)
                    let e18 ← bf_byte_combine 128 bf_y_tilde
                    st y_out ((((((16 * j) % U32) + ((4 * c) % U32)) % U32) + r) % U32) e18
                    cfree .stack bf_y_tilde
                    cfree .stack bf_z_tilde
                    let r : Nat := (r + 1) % U32
                    pure r)
                  r
              let c : Nat := (c + 1) % U32
              pure c)
            c
        let j : Nat := (j + 1) % U32
        pure j)
      j
  pure ()

/-- faest_aes.c:1824-1849 `em_enc_constraints_Mkey_0_128`. -/
def em_enc_constraints_Mkey_0_128 (out : CPtr) (x : CPtr) (w : CPtr) (bf_v : CPtr) (a0_ctx : ZkC 128)
    (a1_ctx : ZkC 128) : CM (ZkC 128 × ZkC 128) := do
  let w_out ← alloc .stack (malloc 16 : Mem Byte)
  xor_u8_array out w w_out 16
  let bf_s ← alloc .stack (malloc 160 : Mem (BF 128))
  let bf_vs ← alloc .stack (malloc 160 : Mem (BF 128))
  let bf_s_dash ← alloc .stack (malloc 160 : Mem (BF 128))
  let bf_vs_dash ← alloc .stack (malloc 160 : Mem (BF 128))
  em_enc_forward_128_1 w x bf_s
  em_enc_forward_128 bf_v (none : CPtr) bf_vs
  em_enc_backward_128_1 w x w_out bf_s_dash
  em_enc_backward_128 bf_v (none : CPtr) bf_v (1 : Byte) (0 : Byte) (none : CPtr) bf_vs_dash
  let j : Nat := 0
  let e1 : ZkC 128 × ZkC 128 × Nat ← cwhile
      (fun _s1 =>
        let j : Nat := _s1.2.2
        decide (j < 160))
      (fun _s1 => do
        let a0_ctx : ZkC 128 := _s1.1
        let a1_ctx : ZkC 128 := _s1.2.1
        let j : Nat := _s1.2.2
        let e2 : BF 128 ← ld bf_vs j
        let e3 : BF 128 ← ld bf_vs_dash j
        let tmp : BF 128 := bfMul e2 e3
        let e4 ← zk_hash_128_update a0_ctx tmp
        let a0_ctx := e4
        let e5 : BF 128 ← ld bf_s j
        let e6 : BF 128 ← ld bf_vs j
        let e7 : BF 128 ← ld bf_s_dash j
        let e8 : BF 128 ← ld bf_vs_dash j
        let e9 ← zk_hash_128_update a1_ctx (bfAdd (bfAdd (bfMul (bfAdd e5 e6) (bfAdd e7 e8)) tmp) (bfOne : BF 128))
        let a1_ctx := e9
        let j : Nat := (j + 1) % U32
        pure (a0_ctx, a1_ctx, j))
      (a0_ctx, a1_ctx, j)
  let a0_ctx : ZkC 128 := e1.1
  let a1_ctx : ZkC 128 := e1.2.1
  cfree .stack bf_vs_dash
  cfree .stack bf_s_dash
  cfree .stack bf_vs
  cfree .stack bf_s
  cfree .stack w_out
  pure (a0_ctx, a1_ctx)

/-- faest_aes.c:1851-1879 `em_enc_constraints_Mkey_1_128`. -/
def em_enc_constraints_Mkey_1_128 (out : CPtr) (x : CPtr) (bf_q : CPtr) (delta : CPtr) (b0_ctx : ZkC 128) : CM (ZkC 128) := do
  let e1 ← bf_load 128 delta
  let bf_delta : BF 128 := e1
  let e2 ← alloc .aligned (malloc 1408 : Mem (BF 128))
  let bf_x : CPtr := e2
  let i : Nat := 0
  let e3 : Nat ← cwhile
      (fun _s1 =>
        let i : Nat := _s1
        decide (i < 1408))
      (fun _s1 => do
        let i : Nat := _s1
        let e4 : Byte ← ld x (i / 8)
        st bf_x i (bfMulBit bf_delta (BitVec.ofNat 8 ((e4.toNat >>> (i % 8)) &&& 1)))
        let i : Nat := (i + 1) % U32
        pure i)
      i
  let e5 ← alloc .aligned (malloc 128 : Mem (BF 128))
  let bf_q_out : CPtr := e5
  let i : Nat := 0
  let e6 : Nat ← cwhile
      (fun _s1 =>
        let i : Nat := _s1
        decide (i < 128))
      (fun _s1 => do
        let i : Nat := _s1
        let e7 : Byte ← ld out (i / 8)
        let e8 : BF 128 ← ld bf_q i
        st bf_q_out i (bfAdd (bfMulBit bf_delta (BitVec.ofNat 8 ((e7.toNat >>> (i % 8)) &&& 1))) e8)
        let i : Nat := (i + 1) % U32
        pure i)
      i
  let bf_qs ← alloc .stack (malloc 160 : Mem (BF 128))
  let bf_qs_dash ← alloc .stack (malloc 160 : Mem (BF 128))
  em_enc_forward_128 bf_q bf_x bf_qs
  em_enc_backward_128 bf_q bf_x bf_q_out (0 : Byte) (1 : Byte) delta bf_qs_dash
  cfree .aligned bf_q_out
  cfree .aligned bf_x
  let minus_part : BF 128 := bfMul bf_delta bf_delta
  let j : Nat := 0
  let e9 : ZkC 128 × Nat ← cwhile
      (fun _s1 =>
        let j : Nat := _s1.2
        decide (j < 160))
      (fun _s1 => do
        let b0_ctx : ZkC 128 := _s1.1
        let j : Nat := _s1.2
        let e10 : BF 128 ← ld bf_qs j
        let e11 : BF 128 ← ld bf_qs_dash j
        let e12 ← zk_hash_128_update b0_ctx (bfAdd (bfMul e10 e11) minus_part)
        let b0_ctx := e12
        let j : Nat := (j + 1) % U32
        pure (b0_ctx, j))
      (b0_ctx, j)
  let b0_ctx : ZkC 128 := e9.1
  cfree .stack bf_qs_dash
  cfree .stack bf_qs
  pure b0_ctx

/-- faest_aes.c:1881-1910 `em_prove_128`. -/
def em_prove_128 (w : CPtr) (u : CPtr) (V : CPtr) (in_ : CPtr) (out : CPtr) (chall : CPtr) (a_tilde : CPtr)
    (b_tilde : CPtr) : CM Unit := do
  let x ← alloc .stack (malloc 1408 : Mem Byte)
  let round_keys ← alloc .stack (malloc 480 : Mem Byte)
  let e1 ← aes128_init_round_keys round_keys in_
  let tmp_x : CPtr := x
  let r : Nat := 0
  let e2 : CPtr × Nat ← cwhile
      (fun _s1 =>
        let r : Nat := _s1.2
        decide (r ≠ 11))
      (fun _s1 => do
        let tmp_x : CPtr := _s1.1
        let r : Nat := _s1.2
        let i : Nat := 0
        let e3 : CPtr × Nat ← cwhile
            (fun _s2 =>
              let i : Nat := _s2.2
              decide (i ≠ 4))
            (fun _s2 => do
              let tmp_x : CPtr := _s2.1
              let i : Nat := _s2.2
              memcpy (α := Byte) tmp_x (padd round_keys (32 * r + (4 * i))) 4
              let tmp_x : CPtr := padd tmp_x 4
              let i : Nat := (i + 1) % U32
              pure (tmp_x, i))
            (tmp_x, i)
        let tmp_x : CPtr := e3.1
        let r : Nat := (r + 1) % U32
        pure (tmp_x, r))
      (tmp_x, r)
  let tmp_x : CPtr := e2.1
  cfree .stack round_keys
  let e4 ← column_to_row_major_and_shrink_V_128 V 1280
  let bf_v : CPtr := e4
  let a0_ctx : ZkC 128 := {}
  let a1_ctx : ZkC 128 := {}
  let e5 ← zk_hash_128_init a0_ctx chall
  let a0_ctx := e5
  let e6 ← zk_hash_128_init a1_ctx chall
  let a1_ctx := e6
  let e7 ← em_enc_constraints_Mkey_0_128 out x w bf_v a0_ctx a1_ctx
  let a0_ctx := e7.1
  let a1_ctx := e7.2
  let e8 ← bf_load 128 (padd u 160)
  let e9 ← zk_hash_128_finalize a_tilde a1_ctx e8
  let a1_ctx := e9
  let e10 ← bf_sum_poly 128 (padd bf_v 1280)
  let e11 ← zk_hash_128_finalize b_tilde a0_ctx e10
  let a0_ctx := e11
  cfree .aligned bf_v
  cfree .stack x
  pure ()

/-- faest_aes.c:1912-1962 `em_verify_128`. -/
def em_verify_128 (d : CPtr) (Q : CPtr) (chall_2 : CPtr) (chall_3 : CPtr) (a_tilde : CPtr) (in_ : CPtr)
    (out : CPtr) (params : Params) : CM CPtr := do
  let tau : Nat := params.tau
  let t0 : Nat := params.t0
  let k0 : Nat := params.k0
  let t1 : Nat := params.t1
  let k1 : Nat := params.k1
  let delta : CPtr := chall_3
  let i : Nat := 0
  let col : Nat := 0
  let e1 : Nat × Nat ← cwhile
      (fun _s1 =>
        let i : Nat := _s1.1
        decide (i < tau))
      (fun _s1 => do
        let i : Nat := _s1.1
        let col : Nat := _s1.2
        let depth : Nat := (if i < t0 then k0 else k1)
        let decoded_challenge ← alloc .stack (malloc 12 : Mem Byte)
        let e2 ← ChalDec chall_3 i k0 t0 k1 t1 decoded_challenge
        let j : Nat := 0
        let e3 : Nat × Nat ← cwhile
            (fun _s2 =>
              let j : Nat := _s2.2
              decide (j < depth))
            (fun _s2 => do
              let col : Nat := _s2.1
              let j : Nat := _s2.2
              let e4 : Byte ← ld decoded_challenge j
              let e5 : Unit ← (
                if e4.toNat = 1 then (do
                  let e6 : CPtr ← ld Q col
                  let e7 : CPtr ← ld Q col
                  xor_u8_array d e6 e7 160
                  pure ())
                else (do
                  pure ()))
              let j : Nat := (j + 1) % U32
              let col : Nat := (col + 1) % U32
              pure (col, j))
            (col, j)
        let col : Nat := e3.1
        cfree .stack decoded_challenge
        let i : Nat := (i + 1) % U32
        pure (i, col))
      (i, col)
  let e8 ← column_to_row_major_and_shrink_V_128 Q 1280
  let bf_q : CPtr := e8
  let x ← alloc .stack (malloc 176 : Mem Byte)
  let round_keys ← alloc .stack (malloc 480 : Mem Byte)
  let e9 ← aes128_init_round_keys round_keys in_
  let tmp_x : CPtr := x
  let r : Nat := 0
  let e10 : CPtr × Nat ← cwhile
      (fun _s1 =>
        let r : Nat := _s1.2
        decide (r ≠ 11))
      (fun _s1 => do
        let tmp_x : CPtr := _s1.1
        let r : Nat := _s1.2
        let i : Nat := 0
        let e11 : CPtr × Nat ← cwhile
            (fun _s2 =>
              let i : Nat := _s2.2
              decide (i ≠ 4))
            (fun _s2 => do
              let tmp_x : CPtr := _s2.1
              let i : Nat := _s2.2
              memcpy (α := Byte) tmp_x (padd round_keys (32 * r + (4 * i))) 4
              let tmp_x : CPtr := padd tmp_x 4
              let i : Nat := (i + 1) % U32
              pure (tmp_x, i))
            (tmp_x, i)
        let tmp_x : CPtr := e11.1
        let r : Nat := (r + 1) % U32
        pure (tmp_x, r))
      (tmp_x, r)
  let tmp_x : CPtr := e10.1
  cfree .stack round_keys
  let b0_ctx : ZkC 128 := {}
  let e12 ← zk_hash_128_init b0_ctx chall_2
  let b0_ctx := e12
  let e13 ← em_enc_constraints_Mkey_1_128 out x bf_q delta b0_ctx
  let b0_ctx := e13
  let e14 ← alloc .heap (malloc 16 : Mem Byte)
  let q_tilde : CPtr := e14
  let e15 ← bf_sum_poly 128 (padd bf_q 1280)
  let e16 ← zk_hash_128_finalize q_tilde b0_ctx e15
  let b0_ctx := e16
  cfree .aligned bf_q
  let e17 ← bf_load 128 q_tilde
  let bf_qtilde : BF 128 := e17
  let e18 ← bf_load 128 a_tilde
  let e19 ← bf_load 128 delta
  bf_store q_tilde (bfAdd bf_qtilde (bfMul e18 e19))
  cfree .stack x
  pure q_tilde

/-- faest_aes.c:1966-2009 `em_enc_forward_192_1`. -/
def em_enc_forward_192_1 (z : CPtr) (x : CPtr) (bf_y : CPtr) : CM Unit := do
  let j : Nat := 0
  let e1 : Nat ← cwhile
      (fun _s1 =>
        let j : Nat := _s1
        decide (j < 24))
      (fun _s1 => do
        let j : Nat := _s1
        let e2 : Byte ← ld z j
        let e3 ← bf_byte_combine_bits 192 e2
        let e4 : Byte ← ld x j
        let e5 ← bf_byte_combine_bits 192 e4
        st bf_y j (bfAdd e3 e5)
        let j : Nat := (j + 1) % U32
        pure j)
      j
  let e6 ← bf_byte_combine_bits 192 (2 : Byte)
  let bf_two : BF 192 := e6
  let e7 ← bf_byte_combine_bits 192 (3 : Byte)
  let bf_three : BF 192 := e7
  let j : Nat := 1
  let e8 : Nat ← cwhile
      (fun _s1 =>
        let j : Nat := _s1
        decide (j < 12))
      (fun _s1 => do
        let j : Nat := _s1
        let c : Nat := 0
        let e9 : Nat ← cwhile
            (fun _s2 =>
              let c : Nat := _s2
              decide (c < 6))
            (fun _s2 => do
              let c : Nat := _s2
              let i : Nat := (((192 * j) % U32) + ((32 * c) % U32)) % U32
              let iy : Nat := (((24 * j) % U32) + ((4 * c) % U32)) % U32
              let bf_x_hat ← alloc .stack (malloc 4 : Mem (BF 192))
              let bf_z_hat ← alloc .stack (malloc 4 : Mem (BF 192))
              let r : Nat := 0
              let e10 : Nat ← cwhile
                  (fun _s3 =>
                    let r : Nat := _s3
                    decide (r ≤ 3))
                  (fun _s3 => do
                    let r : Nat := _s3
                    let e11 : Byte ← ld z (((i + ((8 * r) % U32)) % U32) / 8)
                    let e12 ← bf_byte_combine_bits 192 e11
                    st bf_z_hat r e12
                    let e13 : Byte ← ld x (((i + ((8 * r) % U32)) % U32) / 8)
                    let e14 ← bf_byte_combine_bits 192 e13
                    st bf_x_hat r e14
                    let r : Nat := (r + 1) % U32
                    pure r)
                  r
              let e15 : BF 192 ← ld bf_z_hat 0
              let e16 : BF 192 ← ld bf_z_hat 1
              st bf_y ((iy + 0) % U32) (bfAdd (bfMul e15 bf_two) (bfMul e16 bf_three))
              let e17 : BF 192 ← ld bf_y ((iy + 0) % U32)
              let e18 : BF 192 ← ld bf_z_hat 2
              st bf_y ((iy + 0) % U32) (bfAdd e17 e18)
              let e19 : BF 192 ← ld bf_y ((iy + 0) % U32)
              let e20 : BF 192 ← ld bf_z_hat 3
              st bf_y ((iy + 0) % U32) (bfAdd e19 e20)
              let e21 : BF 192 ← ld bf_y ((iy + 0) % U32)
              let e22 : BF 192 ← ld bf_x_hat 0
              st bf_y ((iy + 0) % U32) (bfAdd e21 e22)
              let e23 : BF 192 ← ld bf_z_hat 0
              let e24 : BF 192 ← ld bf_z_hat 1
              st bf_y ((iy + 1) % U32) (bfAdd e23 (bfMul e24 bf_two))
              let e25 : BF 192 ← ld bf_y ((iy + 1) % U32)
              let e26 : BF 192 ← ld bf_z_hat 2
              st bf_y ((iy + 1) % U32) (bfAdd e25 (bfMul e26 bf_three))
              let e27 : BF 192 ← ld bf_y ((iy + 1) % U32)
              let e28 : BF 192 ← ld bf_z_hat 3
              st bf_y ((iy + 1) % U32) (bfAdd e27 e28)
              let e29 : BF 192 ← ld bf_y ((iy + 1) % U32)
              let e30 : BF 192 ← ld bf_x_hat 1
              st bf_y ((iy + 1) % U32) (bfAdd e29 e30)
              let e31 : BF 192 ← ld bf_z_hat 0
              let e32 : BF 192 ← ld bf_z_hat 1
              st bf_y ((iy + 2) % U32) (bfAdd e31 e32)
              let e33 : BF 192 ← ld bf_y ((iy + 2) % U32)
              let e34 : BF 192 ← ld bf_z_hat 2
              st bf_y ((iy + 2) % U32) (bfAdd e33 (bfMul e34 bf_two))
              let e35 : BF 192 ← ld bf_y ((iy + 2) % U32)
              let e36 : BF 192 ← ld bf_z_hat 3
              st bf_y ((iy + 2) % U32) (bfAdd e35 (bfMul e36 bf_three))
              let e37 : BF 192 ← ld bf_y ((iy + 2) % U32)
              let e38 : BF 192 ← ld bf_x_hat 2
              st bf_y ((iy + 2) % U32) (bfAdd e37 e38)
              let e39 : BF 192 ← ld bf_z_hat 0
              let e40 : BF 192 ← ld bf_z_hat 1
              st bf_y ((iy + 3) % U32) (bfAdd (bfMul e39 bf_three) e40)
              let e41 : BF 192 ← ld bf_y ((iy + 3) % U32)
              let e42 : BF 192 ← ld bf_z_hat 2
              st bf_y ((iy + 3) % U32) (bfAdd e41 e42)
              let e43 : BF 192 ← ld bf_y ((iy + 3) % U32)
              let e44 : BF 192 ← ld bf_z_hat 3
              st bf_y ((iy + 3) % U32) (bfAdd e43 (bfMul e44 bf_two))
              let e45 : BF 192 ← ld bf_y ((iy + 3) % U32)
              let e46 : BF 192 ← ld bf_x_hat 3
              st bf_y ((iy + 3) % U32) (bfAdd e45 e46)
              cfree .stack bf_z_hat
              cfree .stack bf_x_hat
              let c : Nat := (c + 1) % U32
              pure c)
            c
        let j : Nat := (j + 1) % U32
        pure j)
      j
  pure ()

/-- faest_aes.c:2011-2061 `em_enc_forward_192`. -/
def em_enc_forward_192 (bf_z : CPtr) (bf_x : CPtr) (bf_y : CPtr) : CM Unit := do
  let j : Nat := 0
  let e1 : Nat ← cwhile
      (fun _s1 =>
        let j : Nat := _s1
        decide (j < 24))
      (fun _s1 => do
        let j : Nat := _s1
        let e2 ← bf_byte_combine 192 (padd bf_z ((8 * j) % U32))
        st bf_y j e2
        let e3 : Unit ← (
          if bf_x.isSome = true then (do
            let e4 : BF 192 ← ld bf_y j
            let e5 ← bf_byte_combine 192 (padd bf_x ((8 * j) % U32))
            st bf_y j (bfAdd e4 e5)
            pure ())
          else (do
            pure ()))
        let j : Nat := (j + 1) % U32
        pure j)
      j
  let e6 ← bf_byte_combine_bits 192 (2 : Byte)
  let bf_two : BF 192 := e6
  let e7 ← bf_byte_combine_bits 192 (3 : Byte)
  let bf_three : BF 192 := e7
  let j : Nat := 1
  let e8 : Nat ← cwhile
      (fun _s1 =>
        let j : Nat := _s1
        decide (j < 12))
      (fun _s1 => do
        let j : Nat := _s1
        let c : Nat := 0
        let e9 : Nat ← cwhile
            (fun _s2 =>
              let c : Nat := _s2
              decide (c < 6))
            (fun _s2 => do
              let c : Nat := _s2
              let i : Nat := (((192 * j) % U32) + ((32 * c) % U32)) % U32
              let iy : Nat := (((24 * j) % U32) + ((4 * c) % U32)) % U32
              let bf_x_hat ← alloc .stack (malloc 4 : Mem (BF 192))
              let bf_z_hat ← alloc .stack (malloc 4 : Mem (BF 192))
              let r : Nat := 0
              let e10 : Nat ← cwhile
                  (fun _s3 =>
                    let r : Nat := _s3
                    decide (r ≤ 3))
                  (fun _s3 => do
                    let r : Nat := _s3
                    let e11 ← bf_byte_combine 192 (padd bf_z ((i + ((8 * r) % U32)) % U32))
                    st bf_z_hat r e11
                    let e12 : Unit ← (
                      if bf_x.isSome = true then (do
                        let e13 ← bf_byte_combine 192 (padd bf_x ((i + ((8 * r) % U32)) % U32))
                        st bf_x_hat r e13
                        pure ())
                      else (do
                        st bf_x_hat r (bfZero : BF 192)
                        pure ()))
                    let r : Nat := (r + 1) % U32
                    pure r)
                  r
              let e14 : BF 192 ← ld bf_z_hat 0
              let e15 : BF 192 ← ld bf_z_hat 1
              st bf_y ((iy + 0) % U32) (bfAdd (bfMul e14 bf_two) (bfMul e15 bf_three))
              let e16 : BF 192 ← ld bf_y ((iy + 0) % U32)
              let e17 : BF 192 ← ld bf_z_hat 2
              st bf_y ((iy + 0) % U32) (bfAdd e16 e17)
              let e18 : BF 192 ← ld bf_y ((iy + 0) % U32)
              let e19 : BF 192 ← ld bf_z_hat 3
              st bf_y ((iy + 0) % U32) (bfAdd e18 e19)
              let e20 : BF 192 ← ld bf_y ((iy + 0) % U32)
              let e21 : BF 192 ← ld bf_x_hat 0
              st bf_y ((iy + 0) % U32) (bfAdd e20 e21)
              let e22 : BF 192 ← ld bf_z_hat 0
              let e23 : BF 192 ← ld bf_z_hat 1
              st bf_y ((iy + 1) % U32) (bfAdd e22 (bfMul e23 bf_two))
              let e24 : BF 192 ← ld bf_y ((iy + 1) % U32)
              let e25 : BF 192 ← ld bf_z_hat 2
              st bf_y ((iy + 1) % U32) (bfAdd e24 (bfMul e25 bf_three))
              let e26 : BF 192 ← ld bf_y ((iy + 1) % U32)
              let e27 : BF 192 ← ld bf_z_hat 3
              st bf_y ((iy + 1) % U32) (bfAdd e26 e27)
              let e28 : BF 192 ← ld bf_y ((iy + 1) % U32)
              let e29 : BF 192 ← ld bf_x_hat 1
              st bf_y ((iy + 1) % U32) (bfAdd e28 e29)
              let e30 : BF 192 ← ld bf_z_hat 0
              let e31 : BF 192 ← ld bf_z_hat 1
              st bf_y ((iy + 2) % U32) (bfAdd e30 e31)
              let e32 : BF 192 ← ld bf_y ((iy + 2) % U32)
              let e33 : BF 192 ← ld bf_z_hat 2
              st bf_y ((iy + 2) % U32) (bfAdd e32 (bfMul e33 bf_two))
              let e34 : BF 192 ← ld bf_y ((iy + 2) % U32)
              let e35 : BF 192 ← ld bf_z_hat 3
              st bf_y ((iy + 2) % U32) (bfAdd e34 (bfMul e35 bf_three))
              let e36 : BF 192 ← ld bf_y ((iy + 2) % U32)
              let e37 : BF 192 ← ld bf_x_hat 2
              st bf_y ((iy + 2) % U32) (bfAdd e36 e37)
              let e38 : BF 192 ← ld bf_z_hat 0
              let e39 : BF 192 ← ld bf_z_hat 1
              st bf_y ((iy + 3) % U32) (bfAdd (bfMul e38 bf_three) e39)
              let e40 : BF 192 ← ld bf_y ((iy + 3) % U32)
              let e41 : BF 192 ← ld bf_z_hat 2
              st bf_y ((iy + 3) % U32) (bfAdd e40 e41)
              let e42 : BF 192 ← ld bf_y ((iy + 3) % U32)
              let e43 : BF 192 ← ld bf_z_hat 3
              st bf_y ((iy + 3) % U32) (bfAdd e42 (bfMul e43 bf_two))
              let e44 : BF 192 ← ld bf_y ((iy + 3) % U32)
              let e45 : BF 192 ← ld bf_x_hat 3
              st bf_y ((iy + 3) % U32) (bfAdd e44 e45)
              cfree .stack bf_z_hat
              cfree .stack bf_x_hat
              let c : Nat := (c + 1) % U32
              pure c)
            c
        let j : Nat := (j + 1) % U32
        pure j)
      j
  pure ()

/-- faest_aes.c:2063-2089 `em_enc_backward_192_1`. -/
def em_enc_backward_192_1 (z : CPtr) (x : CPtr) (z_out : CPtr) (y_out : CPtr) : CM Unit := do
  let j : Nat := 0
  let e1 : Nat ← cwhile
      (fun _s1 =>
        let j : Nat := _s1
        decide (j < 12))
      (fun _s1 => do
        let j : Nat := _s1
        let c : Nat := 0
        let e2 : Nat ← cwhile
            (fun _s2 =>
              let c : Nat := _s2
              decide (c < 6))
            (fun _s2 => do
              let c : Nat := _s2
              let r : Nat := 0
              let e3 : Nat ← cwhile
                  (fun _s3 =>
                    let r : Nat := _s3
                    decide (r ≤ 3))
                  (fun _s3 => do
                    let r : Nat := _s3
                    let icol : Nat := ((((c + U32 - r) % U32) + 6) % U32) % 6
                    let ird : Nat := (((((192 + ((192 * j) % U32)) % U32) + ((32 * icol) % U32)) % U32) + ((8 * r) % U32)) % U32
                    let z_tilde : Byte := (0 : Byte)
                    let e4 : Byte ← (
                      if j < 11 then (do
                        let e5 : Byte ← ld z (ird / 8)
                        let z_tilde : Byte := e5
                        pure z_tilde)
                      else (do
                        let e6 : Byte ← ld z_out (((ird + U32 - ((192 * ((j + 1) % U32)) % U32)) % U32) / 8)
                        let e7 : Byte ← ld x (ird / 8)
                        let z_tilde : Byte := BitVec.ofNat 8 (e6.toNat ^^^ e7.toNat)
                        pure z_tilde))
                    let z_tilde : Byte := e4
                    let y_tilde : Byte := BitVec.ofNat 8 (((((rotr8 z_tilde 7).toNat) ^^^ ((rotr8 z_tilde 5).toNat)) ^^^ ((rotr8 z_tilde 2).toNat)) ^^^ 5)
                    let e8 ← bf_byte_combine_bits 192 y_tilde
                    st y_out ((((((24 * j) % U32) + ((4 * c) % U32)) % U32) + r) % U32) e8
                    let r : Nat := (r + 1) % U32
                    pure r)
                  r
              let c : Nat := (c + 1) % U32
              pure c)
            c
        let j : Nat := (j + 1) % U32
        pure j)
      j
  pure ()

/-- faest_aes.c:2091-2131 `em_enc_backward_192`. -/
def em_enc_backward_192 (bf_z : CPtr) (bf_x : CPtr) (bf_z_out : CPtr) (Mtag : Byte) (Mkey : Byte) (delta : CPtr)
    (y_out : CPtr) : CM Unit := do
  let e2 ← (if delta.isSome = true then (do
      let e1 ← bf_load 192 delta
      pure e1)
    else (do
      pure (bfZero : BF 192)))
  let bf_delta : BF 192 := e2
  let factor : BF 192 := bfMulBit (bfAdd (bfMulBit bf_delta Mkey) ((bfFromBit (n := 192)) (BitVec.ofNat 8 (1 ^^^ Mkey.toNat)))) (BitVec.ofNat 8 (1 ^^^ Mtag.toNat))
  let j : Nat := 0
  let e3 : Nat ← cwhile
      (fun _s1 =>
        let j : Nat := _s1
        decide (j < 12))
      (fun _s1 => do
        let j : Nat := _s1
        let c : Nat := 0
        let e4 : Nat ← cwhile
            (fun _s2 =>
              let c : Nat := _s2
              decide (c < 6))
            (fun _s2 => do
              let c : Nat := _s2
              let r : Nat := 0
              let e5 : Nat ← cwhile
                  (fun _s3 =>
                    let r : Nat := _s3
                    decide (r ≤ 3))
                  (fun _s3 => do
                    let r : Nat := _s3
                    let bf_z_tilde ← alloc .stack (malloc 8 : Mem (BF 192))
                    let icol : Nat := ((((c + U32 - r) % U32) + 6) % U32) % 6
                    let ird : Nat := (((((192 + ((192 * j) % U32)) % U32) + ((32 * icol) % U32)) % U32) + ((8 * r) % U32)) % U32
                    let e6 : Unit ← (
                      if j < 11 then (do
                        memcpy (α := BF 192) bf_z_tilde (padd bf_z ird) 8
                        pure ())
                      else (do
                        let i : Nat := 0
                        let e7 : Nat ← cwhile
                            (fun _s4 =>
                              let i : Nat := _s4
                              decide (i < 8))
                            (fun _s4 => do
                              let i : Nat := _s4
                              let e8 : BF 192 ← ld bf_z_out ((((ird + U32 - ((192 * ((j + 1) % U32)) % U32)) % U32) + i) % U32)
                              st bf_z_tilde i e8
                              let e9 : Unit ← (
                                if bf_x.isSome = true then (do
                                  let e10 : BF 192 ← ld bf_z_tilde i
                                  let e11 : BF 192 ← ld bf_x ((ird + i) % U32)
                                  st bf_z_tilde i (bfAdd e10 e11)
                                  pure ())
                                else (do
                                  pure ()))
                              let i : Nat := (i + 1) % U32
                              pure i)
                            i
                        pure ()))
                    let bf_y_tilde ← alloc .stack (malloc 8 : Mem (BF 192))
                    let i : Nat := 0
                    let e12 : Nat ← cwhile
                        (fun _s4 =>
                          let i : Nat := _s4
                          decide (i < 8))
                        (fun _s4 => do
                          let i : Nat := _s4
                          let e13 : BF 192 ← ld bf_z_tilde (((i + 7) % U32) % 8)
                          let e14 : BF 192 ← ld bf_z_tilde (((i + 5) % U32) % 8)
                          let e15 : BF 192 ← ld bf_z_tilde (((i + 2) % U32) % 8)
                          st bf_y_tilde i (bfAdd (bfAdd e13 e14) e15)
                          let i : Nat := (i + 1) % U32
                          pure i)
                        i
                    let e16 : BF 192 ← ld bf_y_tilde 0
                    st bf_y_tilde 0 (bfAdd e16 factor)
                    let e17 : BF 192 ← ld bf_y_tilde 2
                    st bf_y_tilde 2 (bfAdd e17 factor)
                    let e18 ← bf_byte_combine 192 bf_y_tilde
                    st y_out ((((((24 * j) % U32) + ((4 * c) % U32)) % U32) + r) % U32) e18
                    cfree .stack bf_y_tilde
                    cfree .stack bf_z_tilde
                    let r : Nat := (r + 1) % U32
                    pure r)
                  r
              let c : Nat := (c + 1) % U32
              pure c)
            c
        let j : Nat := (j + 1) % U32
        pure j)
      j
  pure ()

/-- faest_aes.c:2133-2158 `em_enc_constraints_Mkey_0_192`. -/
def em_enc_constraints_Mkey_0_192 (out : CPtr) (x : CPtr) (w : CPtr) (bf_v : CPtr) (a0_ctx : ZkC 192)
    (a1_ctx : ZkC 192) : CM (ZkC 192 × ZkC 192) := do
  let w_out ← alloc .stack (malloc 24 : Mem Byte)
  xor_u8_array out w w_out 24
  let bf_s ← alloc .stack (malloc 288 : Mem (BF 192))
  let bf_vs ← alloc .stack (malloc 288 : Mem (BF 192))
  let bf_s_dash ← alloc .stack (malloc 288 : Mem (BF 192))
  let bf_vs_dash ← alloc .stack (malloc 288 : Mem (BF 192))
  em_enc_forward_192_1 w x bf_s
  em_enc_forward_192 bf_v (none : CPtr) bf_vs
  em_enc_backward_192_1 w x w_out bf_s_dash
  em_enc_backward_192 bf_v (none : CPtr) bf_v (1 : Byte) (0 : Byte) (none : CPtr) bf_vs_dash
  let j : Nat := 0
  let e1 : ZkC 192 × ZkC 192 × Nat ← cwhile
      (fun _s1 =>
        let j : Nat := _s1.2.2
        decide (j < 288))
      (fun _s1 => do
        let a0_ctx : ZkC 192 := _s1.1
        let a1_ctx : ZkC 192 := _s1.2.1
        let j : Nat := _s1.2.2
        let e2 : BF 192 ← ld bf_vs j
        let e3 : BF 192 ← ld bf_vs_dash j
        let tmp : BF 192 := bfMul e2 e3
        let e4 ← zk_hash_192_update a0_ctx tmp
        let a0_ctx := e4
        let e5 : BF 192 ← ld bf_s j
        let e6 : BF 192 ← ld bf_vs j
        let e7 : BF 192 ← ld bf_s_dash j
        let e8 : BF 192 ← ld bf_vs_dash j
        let e9 ← zk_hash_192_update a1_ctx (bfAdd (bfAdd (bfMul (bfAdd e5 e6) (bfAdd e7 e8)) tmp) (bfOne : BF 192))
        let a1_ctx := e9
        let j : Nat := (j + 1) % U32
        pure (a0_ctx, a1_ctx, j))
      (a0_ctx, a1_ctx, j)
  let a0_ctx : ZkC 192 := e1.1
  let a1_ctx : ZkC 192 := e1.2.1
  cfree .stack bf_vs_dash
  cfree .stack bf_s_dash
  cfree .stack bf_vs
  cfree .stack bf_s
  cfree .stack w_out
  pure (a0_ctx, a1_ctx)

/-- faest_aes.c:2160-2188 `em_enc_constraints_Mkey_1_192`. -/
def em_enc_constraints_Mkey_1_192 (out : CPtr) (x : CPtr) (bf_q : CPtr) (delta : CPtr) (b0_ctx : ZkC 192) : CM (ZkC 192) := do
  let e1 ← bf_load 192 delta
  let bf_delta : BF 192 := e1
  let e2 ← alloc .aligned (malloc 2496 : Mem (BF 192))
  let bf_x : CPtr := e2
  let i : Nat := 0
  let e3 : Nat ← cwhile
      (fun _s1 =>
        let i : Nat := _s1
        decide (i < 2496))
      (fun _s1 => do
        let i : Nat := _s1
        let e4 : Byte ← ld x (i / 8)
        st bf_x i (bfMulBit bf_delta (BitVec.ofNat 8 ((e4.toNat >>> (i % 8)) &&& 1)))
        let i : Nat := (i + 1) % U32
        pure i)
      i
  let e5 ← alloc .aligned (malloc 192 : Mem (BF 192))
  let bf_q_out : CPtr := e5
  let i : Nat := 0
  let e6 : Nat ← cwhile
      (fun _s1 =>
        let i : Nat := _s1
        decide (i < 192))
      (fun _s1 => do
        let i : Nat := _s1
        let e7 : Byte ← ld out (i / 8)
        let e8 : BF 192 ← ld bf_q i
        st bf_q_out i (bfAdd (bfMulBit bf_delta (BitVec.ofNat 8 ((e7.toNat >>> (i % 8)) &&& 1))) e8)
        let i : Nat := (i + 1) % U32
        pure i)
      i
  let bf_qs ← alloc .stack (malloc 288 : Mem (BF 192))
  let bf_qs_dash ← alloc .stack (malloc 288 : Mem (BF 192))
  em_enc_forward_192 bf_q bf_x bf_qs
  em_enc_backward_192 bf_q bf_x bf_q_out (0 : Byte) (1 : Byte) delta bf_qs_dash
  cfree .aligned bf_q_out
  cfree .aligned bf_x
  let minus_part : BF 192 := bfMul bf_delta bf_delta
  let j : Nat := 0
  let e9 : ZkC 192 × Nat ← cwhile
      (fun _s1 =>
        let j : Nat := _s1.2
        decide (j < 288))
      (fun _s1 => do
        let b0_ctx : ZkC 192 := _s1.1
        let j : Nat := _s1.2
        let e10 : BF 192 ← ld bf_qs j
        let e11 : BF 192 ← ld bf_qs_dash j
        let e12 ← zk_hash_192_update b0_ctx (bfAdd (bfMul e10 e11) minus_part)
        let b0_ctx := e12
        let j : Nat := (j + 1) % U32
        pure (b0_ctx, j))
      (b0_ctx, j)
  let b0_ctx : ZkC 192 := e9.1
  cfree .stack bf_qs_dash
  cfree .stack bf_qs
  pure b0_ctx

/-- faest_aes.c:2190-2219 `em_prove_192`. -/
def em_prove_192 (w : CPtr) (u : CPtr) (V : CPtr) (in_ : CPtr) (out : CPtr) (chall : CPtr) (a_tilde : CPtr)
    (b_tilde : CPtr) : CM Unit := do
  let x ← alloc .stack (malloc 312 : Mem Byte)
  let round_keys ← alloc .stack (malloc 480 : Mem Byte)
  let e1 ← rijndael192_init_round_keys round_keys in_
  let tmp_x : CPtr := x
  let r : Nat := 0
  let e2 : CPtr × Nat ← cwhile
      (fun _s1 =>
        let r : Nat := _s1.2
        decide (r ≠ 13))
      (fun _s1 => do
        let tmp_x : CPtr := _s1.1
        let r : Nat := _s1.2
        let i : Nat := 0
        let e3 : CPtr × Nat ← cwhile
            (fun _s2 =>
              let i : Nat := _s2.2
              decide (i ≠ 6))
            (fun _s2 => do
              let tmp_x : CPtr := _s2.1
              let i : Nat := _s2.2
              memcpy (α := Byte) tmp_x (padd round_keys (32 * r + (4 * i))) 4
              let tmp_x : CPtr := padd tmp_x 4
              let i : Nat := (i + 1) % U32
              pure (tmp_x, i))
            (tmp_x, i)
        let tmp_x : CPtr := e3.1
        let r : Nat := (r + 1) % U32
        pure (tmp_x, r))
      (tmp_x, r)
  let tmp_x : CPtr := e2.1
  cfree .stack round_keys
  let e4 ← column_to_row_major_and_shrink_V_192 V 2304
  let bf_v : CPtr := e4
  let a0_ctx : ZkC 192 := {}
  let a1_ctx : ZkC 192 := {}
  let e5 ← zk_hash_192_init a0_ctx chall
  let a0_ctx := e5
  let e6 ← zk_hash_192_init a1_ctx chall
  let a1_ctx := e6
  let e7 ← em_enc_constraints_Mkey_0_192 out x w bf_v a0_ctx a1_ctx
  let a0_ctx := e7.1
  let a1_ctx := e7.2
  let e8 ← bf_load 192 (padd u 288)
  let e9 ← zk_hash_192_finalize a_tilde a1_ctx e8
  let a1_ctx := e9
  let e10 ← bf_sum_poly 192 (padd bf_v 2304)
  let e11 ← zk_hash_192_finalize b_tilde a0_ctx e10
  let a0_ctx := e11
  cfree .aligned bf_v
  cfree .stack x
  pure ()

/-- faest_aes.c:2221-2271 `em_verify_192`. -/
def em_verify_192 (d : CPtr) (Q : CPtr) (chall_2 : CPtr) (chall_3 : CPtr) (a_tilde : CPtr) (in_ : CPtr)
    (out : CPtr) (params : Params) : CM CPtr := do
  let tau : Nat := params.tau
  let t0 : Nat := params.t0
  let k0 : Nat := params.k0
  let t1 : Nat := params.t1
  let k1 : Nat := params.k1
  let delta : CPtr := chall_3
  let i : Nat := 0
  let col : Nat := 0
  let e1 : Nat × Nat ← cwhile
      (fun _s1 =>
        let i : Nat := _s1.1
        decide (i < tau))
      (fun _s1 => do
        let i : Nat := _s1.1
        let col : Nat := _s1.2
        let depth : Nat := (if i < t0 then k0 else k1)
        let decoded_challenge ← alloc .stack (malloc 12 : Mem Byte)
        let e2 ← ChalDec chall_3 i k0 t0 k1 t1 decoded_challenge
        let j : Nat := 0
        let e3 : Nat × Nat ← cwhile
            (fun _s2 =>
              let j : Nat := _s2.2
              decide (j < depth))
            (fun _s2 => do
              let col : Nat := _s2.1
              let j : Nat := _s2.2
              let e4 : Byte ← ld decoded_challenge j
              let e5 : Unit ← (
                if e4.toNat = 1 then (do
                  let e6 : CPtr ← ld Q col
                  let e7 : CPtr ← ld Q col
                  xor_u8_array d e6 e7 288
                  pure ())
                else (do
                  pure ()))
              let j : Nat := (j + 1) % U32
              let col : Nat := (col + 1) % U32
              pure (col, j))
            (col, j)
        let col : Nat := e3.1
        cfree .stack decoded_challenge
        let i : Nat := (i + 1) % U32
        pure (i, col))
      (i, col)
  let e8 ← column_to_row_major_and_shrink_V_192 Q 2304
  let bf_q : CPtr := e8
  let x ← alloc .stack (malloc 312 : Mem Byte)
  let round_keys ← alloc .stack (malloc 480 : Mem Byte)
  let e9 ← rijndael192_init_round_keys round_keys in_
  let tmp_x : CPtr := x
  let r : Nat := 0
  let e10 : CPtr × Nat ← cwhile
      (fun _s1 =>
        let r : Nat := _s1.2
        decide (r ≠ 13))
      (fun _s1 => do
        let tmp_x : CPtr := _s1.1
        let r : Nat := _s1.2
        let i : Nat := 0
        let e11 : CPtr × Nat ← cwhile
            (fun _s2 =>
              let i : Nat := _s2.2
              decide (i ≠ 6))
            (fun _s2 => do
              let tmp_x : CPtr := _s2.1
              let i : Nat := _s2.2
              memcpy (α := Byte) tmp_x (padd round_keys (32 * r + (4 * i))) 4
              let tmp_x : CPtr := padd tmp_x 4
              let i : Nat := (i + 1) % U32
              pure (tmp_x, i))
            (tmp_x, i)
        let tmp_x : CPtr := e11.1
        let r : Nat := (r + 1) % U32
        pure (tmp_x, r))
      (tmp_x, r)
  let tmp_x : CPtr := e10.1
  cfree .stack round_keys
  let b0_ctx : ZkC 192 := {}
  let e12 ← zk_hash_192_init b0_ctx chall_2
  let b0_ctx := e12
  let e13 ← em_enc_constraints_Mkey_1_192 out x bf_q delta b0_ctx
  let b0_ctx := e13
  let e14 ← alloc .heap (malloc 24 : Mem Byte)
  let q_tilde : CPtr := e14
  let e15 ← bf_sum_poly 192 (padd bf_q 2304)
  let e16 ← zk_hash_192_finalize q_tilde b0_ctx e15
  let b0_ctx := e16
  cfree .aligned bf_q
  let e17 ← bf_load 192 q_tilde
  let bf_qtilde : BF 192 := e17
  let e18 ← bf_load 192 a_tilde
  let e19 ← bf_load 192 delta
  bf_store q_tilde (bfAdd bf_qtilde (bfMul e18 e19))
  cfree .stack x
  pure q_tilde

/-- faest_aes.c:2275-2318 `em_enc_forward_256_1`. -/
def em_enc_forward_256_1 (z : CPtr) (x : CPtr) (bf_y : CPtr) : CM Unit := do
  let j : Nat := 0
  let e1 : Nat ← cwhile
      (fun _s1 =>
        let j : Nat := _s1
        decide (j < 32))
      (fun _s1 => do
        let j : Nat := _s1
        let e2 : Byte ← ld z j
        let e3 ← bf_byte_combine_bits 256 e2
        let e4 : Byte ← ld x j
        let e5 ← bf_byte_combine_bits 256 e4
        st bf_y j (bfAdd e3 e5)
        let j : Nat := (j + 1) % U32
        pure j)
      j
  let e6 ← bf_byte_combine_bits 256 (2 : Byte)
  let bf_two : BF 256 := e6
  let e7 ← bf_byte_combine_bits 256 (3 : Byte)
  let bf_three : BF 256 := e7
  let j : Nat := 1
  let e8 : Nat ← cwhile
      (fun _s1 =>
        let j : Nat := _s1
        decide (j < 14))
      (fun _s1 => do
        let j : Nat := _s1
        let c : Nat := 0
        let e9 : Nat ← cwhile
            (fun _s2 =>
              let c : Nat := _s2
              decide (c < 8))
            (fun _s2 => do
              let c : Nat := _s2
              let i : Nat := (((256 * j) % U32) + ((32 * c) % U32)) % U32
              let iy : Nat := (((32 * j) % U32) + ((4 * c) % U32)) % U32
              let bf_x_hat ← alloc .stack (malloc 4 : Mem (BF 256))
              let bf_z_hat ← alloc .stack (malloc 4 : Mem (BF 256))
              let r : Nat := 0
              let e10 : Nat ← cwhile
                  (fun _s3 =>
                    let r : Nat := _s3
                    decide (r ≤ 3))
                  (fun _s3 => do
                    let r : Nat := _s3
                    let e11 : Byte ← ld z (((i + ((8 * r) % U32)) % U32) / 8)
                    let e12 ← bf_byte_combine_bits 256 e11
                    st bf_z_hat r e12
                    let e13 : Byte ← ld x (((i + ((8 * r) % U32)) % U32) / 8)
                    let e14 ← bf_byte_combine_bits 256 e13
                    st bf_x_hat r e14
                    let r : Nat := (r + 1) % U32
                    pure r)
                  r
              let e15 : BF 256 ← ld bf_z_hat 0
              let e16 : BF 256 ← ld bf_z_hat 1
              st bf_y ((iy + 0) % U32) (bfAdd (bfMul e15 bf_two) (bfMul e16 bf_three))
              let e17 : BF 256 ← ld bf_y ((iy + 0) % U32)
              let e18 : BF 256 ← ld bf_z_hat 2
              st bf_y ((iy + 0) % U32) (bfAdd e17 e18)
              let e19 : BF 256 ← ld bf_y ((iy + 0) % U32)
              let e20 : BF 256 ← ld bf_z_hat 3
              st bf_y ((iy + 0) % U32) (bfAdd e19 e20)
              let e21 : BF 256 ← ld bf_y ((iy + 0) % U32)
              let e22 : BF 256 ← ld bf_x_hat 0
              st bf_y ((iy + 0) % U32) (bfAdd e21 e22)
              let e23 : BF 256 ← ld bf_z_hat 0
              let e24 : BF 256 ← ld bf_z_hat 1
              st bf_y ((iy + 1) % U32) (bfAdd e23 (bfMul e24 bf_two))
              let e25 : BF 256 ← ld bf_y ((iy + 1) % U32)
              let e26 : BF 256 ← ld bf_z_hat 2
              st bf_y ((iy + 1) % U32) (bfAdd e25 (bfMul e26 bf_three))
              let e27 : BF 256 ← ld bf_y ((iy + 1) % U32)
              let e28 : BF 256 ← ld bf_z_hat 3
              st bf_y ((iy + 1) % U32) (bfAdd e27 e28)
              let e29 : BF 256 ← ld bf_y ((iy + 1) % U32)
              let e30 : BF 256 ← ld bf_x_hat 1
              st bf_y ((iy + 1) % U32) (bfAdd e29 e30)
              let e31 : BF 256 ← ld bf_z_hat 0
              let e32 : BF 256 ← ld bf_z_hat 1
              st bf_y ((iy + 2) % U32) (bfAdd e31 e32)
              let e33 : BF 256 ← ld bf_y ((iy + 2) % U32)
              let e34 : BF 256 ← ld bf_z_hat 2
              st bf_y ((iy + 2) % U32) (bfAdd e33 (bfMul e34 bf_two))
              let e35 : BF 256 ← ld bf_y ((iy + 2) % U32)
              let e36 : BF 256 ← ld bf_z_hat 3
              st bf_y ((iy + 2) % U32) (bfAdd e35 (bfMul e36 bf_three))
              let e37 : BF 256 ← ld bf_y ((iy + 2) % U32)
              let e38 : BF 256 ← ld bf_x_hat 2
              st bf_y ((iy + 2) % U32) (bfAdd e37 e38)
              let e39 : BF 256 ← ld bf_z_hat 0
              let e40 : BF 256 ← ld bf_z_hat 1
              st bf_y ((iy + 3) % U32) (bfAdd (bfMul e39 bf_three) e40)
              let e41 : BF 256 ← ld bf_y ((iy + 3) % U32)
              let e42 : BF 256 ← ld bf_z_hat 2
              st bf_y ((iy + 3) % U32) (bfAdd e41 e42)
              let e43 : BF 256 ← ld bf_y ((iy + 3) % U32)
              let e44 : BF 256 ← ld bf_z_hat 3
              st bf_y ((iy + 3) % U32) (bfAdd e43 (bfMul e44 bf_two))
              let e45 : BF 256 ← ld bf_y ((iy + 3) % U32)
              let e46 : BF 256 ← ld bf_x_hat 3
              st bf_y ((iy + 3) % U32) (bfAdd e45 e46)
              cfree .stack bf_z_hat
              cfree .stack bf_x_hat
              let c : Nat := (c + 1) % U32
              pure c)
            c
        let j : Nat := (j + 1) % U32
        pure j)
      j
  pure ()

/-- faest_aes.c:2320-2370 `em_enc_forward_256`. -/
def em_enc_forward_256 (bf_z : CPtr) (bf_x : CPtr) (bf_y : CPtr) : CM Unit := do
  let j : Nat := 0
  let e1 : Nat ← cwhile
      (fun _s1 =>
        let j : Nat := _s1
        decide (j < 32))
      (fun _s1 => do
        let j : Nat := _s1
        let e2 ← bf_byte_combine 256 (padd bf_z ((8 * j) % U32))
        st bf_y j e2
        let e3 : Unit ← (
          if bf_x.isSome = true then (do
            let e4 : BF 256 ← ld bf_y j
            let e5 ← bf_byte_combine 256 (padd bf_x ((8 * j) % U32))
            st bf_y j (bfAdd e4 e5)
            pure ())
          else (do
            pure ()))
        let j : Nat := (j + 1) % U32
        pure j)
      j
  let e6 ← bf_byte_combine_bits 256 (2 : Byte)
  let bf_two : BF 256 := e6
  let e7 ← bf_byte_combine_bits 256 (3 : Byte)
  let bf_three : BF 256 := e7
  let j : Nat := 1
  let e8 : Nat ← cwhile
      (fun _s1 =>
        let j : Nat := _s1
        decide (j < 14))
      (fun _s1 => do
        let j : Nat := _s1
        let c : Nat := 0
        let e9 : Nat ← cwhile
            (fun _s2 =>
              let c : Nat := _s2
              decide (c < 8))
            (fun _s2 => do
              let c : Nat := _s2
              let i : Nat := (((256 * j) % U32) + ((32 * c) % U32)) % U32
              let iy : Nat := (((32 * j) % U32) + ((4 * c) % U32)) % U32
              let bf_x_hat ← alloc .stack (malloc 4 : Mem (BF 256))
              let bf_z_hat ← alloc .stack (malloc 4 : Mem (BF 256))
              let r : Nat := 0
              let e10 : Nat ← cwhile
                  (fun _s3 =>
                    let r : Nat := _s3
                    decide (r ≤ 3))
                  (fun _s3 => do
                    let r : Nat := _s3
                    let e11 ← bf_byte_combine 256 (padd bf_z ((i + ((8 * r) % U32)) % U32))
                    st bf_z_hat r e11
                    let e12 : Unit ← (
                      if bf_x.isSome = true then (do
                        let e13 ← bf_byte_combine 256 (padd bf_x ((i + ((8 * r) % U32)) % U32))
                        st bf_x_hat r e13
                        pure ())
                      else (do
                        st bf_x_hat r (bfZero : BF 256)
                        pure ()))
                    let r : Nat := (r + 1) % U32
                    pure r)
                  r
              let e14 : BF 256 ← ld bf_z_hat 0
              let e15 : BF 256 ← ld bf_z_hat 1
              st bf_y ((iy + 0) % U32) (bfAdd (bfMul e14 bf_two) (bfMul e15 bf_three))
              let e16 : BF 256 ← ld bf_y ((iy + 0) % U32)
              let e17 : BF 256 ← ld bf_z_hat 2
              st bf_y ((iy + 0) % U32) (bfAdd e16 e17)
              let e18 : BF 256 ← ld bf_y ((iy + 0) % U32)
              let e19 : BF 256 ← ld bf_z_hat 3
              st bf_y ((iy + 0) % U32) (bfAdd e18 e19)
              let e20 : BF 256 ← ld bf_y ((iy + 0) % U32)
              let e21 : BF 256 ← ld bf_x_hat 0
              st bf_y ((iy + 0) % U32) (bfAdd e20 e21)
              let e22 : BF 256 ← ld bf_z_hat 0
              let e23 : BF 256 ← ld bf_z_hat 1
              st bf_y ((iy + 1) % U32) (bfAdd e22 (bfMul e23 bf_two))
              let e24 : BF 256 ← ld bf_y ((iy + 1) % U32)
              let e25 : BF 256 ← ld bf_z_hat 2
              st bf_y ((iy + 1) % U32) (bfAdd e24 (bfMul e25 bf_three))
              let e26 : BF 256 ← ld bf_y ((iy + 1) % U32)
              let e27 : BF 256 ← ld bf_z_hat 3
              st bf_y ((iy + 1) % U32) (bfAdd e26 e27)
              let e28 : BF 256 ← ld bf_y ((iy + 1) % U32)
              let e29 : BF 256 ← ld bf_x_hat 1
              st bf_y ((iy + 1) % U32) (bfAdd e28 e29)
              let e30 : BF 256 ← ld bf_z_hat 0
              let e31 : BF 256 ← ld bf_z_hat 1
              st bf_y ((iy + 2) % U32) (bfAdd e30 e31)
              let e32 : BF 256 ← ld bf_y ((iy + 2) % U32)
              let e33 : BF 256 ← ld bf_z_hat 2
              st bf_y ((iy + 2) % U32) (bfAdd e32 (bfMul e33 bf_two))
              let e34 : BF 256 ← ld bf_y ((iy + 2) % U32)
              let e35 : BF 256 ← ld bf_z_hat 3
              st bf_y ((iy + 2) % U32) (bfAdd e34 (bfMul e35 bf_three))
              let e36 : BF 256 ← ld bf_y ((iy + 2) % U32)
              let e37 : BF 256 ← ld bf_x_hat 2
              st bf_y ((iy + 2) % U32) (bfAdd e36 e37)
              let e38 : BF 256 ← ld bf_z_hat 0
              let e39 : BF 256 ← ld bf_z_hat 1
              st bf_y ((iy + 3) % U32) (bfAdd (bfMul e38 bf_three) e39)
              let e40 : BF 256 ← ld bf_y ((iy + 3) % U32)
              let e41 : BF 256 ← ld bf_z_hat 2
              st bf_y ((iy + 3) % U32) (bfAdd e40 e41)
              let e42 : BF 256 ← ld bf_y ((iy + 3) % U32)
              let e43 : BF 256 ← ld bf_z_hat 3
              st bf_y ((iy + 3) % U32) (bfAdd e42 (bfMul e43 bf_two))
              let e44 : BF 256 ← ld bf_y ((iy + 3) % U32)
              let e45 : BF 256 ← ld bf_x_hat 3
              st bf_y ((iy + 3) % U32) (bfAdd e44 e45)
              cfree .stack bf_z_hat
              cfree .stack bf_x_hat
              let c : Nat := (c + 1) % U32
              pure c)
            c
        let j : Nat := (j + 1) % U32
        pure j)
      j
  pure ()

/-- faest_aes.c:2372-2401 `em_enc_backward_256_1`. -/
def em_enc_backward_256_1 (z : CPtr) (x : CPtr) (z_out : CPtr) (y_out : CPtr) : CM Unit := do
  let j : Nat := 0
  let e1 : Nat ← cwhile
      (fun _s1 =>
        let j : Nat := _s1
        decide (j < 14))
      (fun _s1 => do
        let j : Nat := _s1
        let c : Nat := 0
        let e2 : Nat ← cwhile
            (fun _s2 =>
              let c : Nat := _s2
              decide (c < 8))
            (fun _s2 => do
              let c : Nat := _s2
              let r : Nat := 0
              let e3 : Nat ← cwhile
                  (fun _s3 =>
                    let r : Nat := _s3
                    decide (r ≤ 3))
                  (fun _s3 => do
                    let r : Nat := _s3
                    let icol : Nat := ((((c + U32 - r) % U32) + 8) % U32) % 8
                    let e4 : Nat ← (
                      if (8 = 8) ∧ (r ≥ 2) then (do
                        let icol : Nat := ((((icol + U32 - 1) % U32) + 8) % U32) % 8
                        pure icol)
                      else (do
                        pure icol))
                    let icol : Nat := e4
                    let ird : Nat := (((((256 + ((256 * j) % U32)) % U32) + ((32 * icol) % U32)) % U32) + ((8 * r) % U32)) % U32
                    let z_tilde : Byte := (0 : Byte)
                    let e5 : Byte ← (
                      if j < 13 then (do
                        let e6 : Byte ← ld z (ird / 8)
                        let z_tilde : Byte := e6
                        pure z_tilde)
                      else (do
                        let e7 : Byte ← ld z_out (((ird + U32 - ((256 * ((j + 1) % U32)) % U32)) % U32) / 8)
                        let e8 : Byte ← ld x (ird / 8)
                        let z_tilde : Byte := BitVec.ofNat 8 (e7.toNat ^^^ e8.toNat)
                        pure z_tilde))
                    let z_tilde : Byte := e5
                    let y_tilde : Byte := BitVec.ofNat 8 (((((rotr8 z_tilde 7).toNat) ^^^ ((rotr8 z_tilde 5).toNat)) ^^^ ((rotr8 z_tilde 2).toNat)) ^^^ 5)
                    let e9 ← bf_byte_combine_bits 256 y_tilde
                    st y_out ((((((32 * j) % U32) + ((4 * c) % U32)) % U32) + r) % U32) e9
                    let r : Nat := (r + 1) % U32
                    pure r)
                  r
              let c : Nat := (c + 1) % U32
              pure c)
            c
        let j : Nat := (j + 1) % U32
        pure j)
      j
  pure ()

/-- faest_aes.c:2403-2446 `em_enc_backward_256`. -/
def em_enc_backward_256 (bf_z : CPtr) (bf_x : CPtr) (bf_z_out : CPtr) (Mtag : Byte) (Mkey : Byte) (delta : CPtr)
    (y_out : CPtr) : CM Unit := do
  let e2 ← (if delta.isSome = true then (do
      let e1 ← bf_load 256 delta
      pure e1)
    else (do
      pure (bfZero : BF 256)))
  let bf_delta : BF 256 := e2
  let factor : BF 256 := bfMulBit (bfAdd (bfMulBit bf_delta Mkey) ((bfFromBit (n := 256)) (BitVec.ofNat 8 (1 ^^^ Mkey.toNat)))) (BitVec.ofNat 8 (1 ^^^ Mtag.toNat))
  let j : Nat := 0
  let e3 : Nat ← cwhile
      (fun _s1 =>
        let j : Nat := _s1
        decide (j < 14))
      (fun _s1 => do
        let j : Nat := _s1
        let c : Nat := 0
        let e4 : Nat ← cwhile
            (fun _s2 =>
              let c : Nat := _s2
              decide (c < 8))
            (fun _s2 => do
              let c : Nat := _s2
              let r : Nat := 0
              let e5 : Nat ← cwhile
                  (fun _s3 =>
                    let r : Nat := _s3
                    decide (r ≤ 3))
                  (fun _s3 => do
                    let r : Nat := _s3
                    let bf_z_tilde ← alloc .stack (malloc 8 : Mem (BF 256))
                    let icol : Nat := ((((c + U32 - r) % U32) + 8) % U32) % 8
                    let e6 : Nat ← (
                      if (8 = 8) ∧ (r ≥ 2) then (do
                        let icol : Nat := ((((icol + U32 - 1) % U32) + 8) % U32) % 8
                        pure icol)
                      else (do
                        pure icol))
                    let icol : Nat := e6
                    let ird : Nat := (((((256 + ((256 * j) % U32)) % U32) + ((32 * icol) % U32)) % U32) + ((8 * r) % U32)) % U32
                    let e7 : Unit ← (
                      if j < 13 then (do
                        memcpy (α := BF 256) bf_z_tilde (padd bf_z ird) 8
                        pure ())
                      else (do
                        let i : Nat := 0
                        let e8 : Nat ← cwhile
                            (fun _s4 =>
                              let i : Nat := _s4
                              decide (i < 8))
                            (fun _s4 => do
                              let i : Nat := _s4
                              let e9 : BF 256 ← ld bf_z_out ((((ird + U32 - ((256 * ((j + 1) % U32)) % U32)) % U32) + i) % U32)
                              st bf_z_tilde i e9
                              let e10 : Unit ← (
                                if bf_x.isSome = true then (do
                                  let e11 : BF 256 ← ld bf_z_tilde i
                                  let e12 : BF 256 ← ld bf_x ((ird + i) % U32)
                                  st bf_z_tilde i (bfAdd e11 e12)
                                  pure ())
                                else (do
                                  pure ()))
                              let i : Nat := (i + 1) % U32
                              pure i)
                            i
                        pure ()))
                    let bf_y_tilde ← alloc .stack (malloc 8 : Mem (BF 256))
                    let i : Nat := 0
                    let e13 : Nat ← cwhile
                        (fun _s4 =>
                          let i : Nat := _s4
                          decide (i < 8))
                        (fun _s4 => do
                          let i : Nat := _s4
                          let e14 : BF 256 ← ld bf_z_tilde (((i + 7) % U32) % 8)
                          let e15 : BF 256 ← ld bf_z_tilde (((i + 5) % U32) % 8)
                          let e16 : BF 256 ← ld bf_z_tilde (((i + 2) % U32) % 8)
                          st bf_y_tilde i (bfAdd (bfAdd e14 e15) e16)
                          let i : Nat := (i + 1) % U32
                          pure i)
                        i
                    let e17 : BF 256 ← ld bf_y_tilde 0
                    st bf_y_tilde 0 (bfAdd e17 factor)
                    let e18 : BF 256 ← ld bf_y_tilde 2
                    st bf_y_tilde 2 (bfAdd e18 factor)
                    let e19 ← bf_byte_combine 256 bf_y_tilde
                    st y_out ((((((32 * j) % U32) + ((4 * c) % U32)) % U32) + r) % U32) e19
                    cfree .stack bf_y_tilde
                    cfree .stack bf_z_tilde
                    let r : Nat := (r + 1) % U32
                    pure r)
                  r
              let c : Nat := (c + 1) % U32
              pure c)
            c
        let j : Nat := (j + 1) % U32
        pure j)
      j
  pure ()

/-- faest_aes.c:2448-2473 `em_enc_constraints_Mkey_0_256`. -/
def em_enc_constraints_Mkey_0_256 (out : CPtr) (x : CPtr) (w : CPtr) (bf_v : CPtr) (a0_ctx : ZkC 256)
    (a1_ctx : ZkC 256) : CM (ZkC 256 × ZkC 256) := do
  let w_out ← alloc .stack (malloc 32 : Mem Byte)
  xor_u8_array out w w_out 32
  let bf_s ← alloc .stack (malloc 448 : Mem (BF 256))
  let bf_vs ← alloc .stack (malloc 448 : Mem (BF 256))
  let bf_s_dash ← alloc .stack (malloc 448 : Mem (BF 256))
  let bf_vs_dash ← alloc .stack (malloc 448 : Mem (BF 256))
  em_enc_forward_256_1 w x bf_s
  em_enc_forward_256 bf_v (none : CPtr) bf_vs
  em_enc_backward_256_1 w x w_out bf_s_dash
  em_enc_backward_256 bf_v (none : CPtr) bf_v (1 : Byte) (0 : Byte) (none : CPtr) bf_vs_dash
  let j : Nat := 0
  let e1 : ZkC 256 × ZkC 256 × Nat ← cwhile
      (fun _s1 =>
        let j : Nat := _s1.2.2
        decide (j < 448))
      (fun _s1 => do
        let a0_ctx : ZkC 256 := _s1.1
        let a1_ctx : ZkC 256 := _s1.2.1
        let j : Nat := _s1.2.2
        let e2 : BF 256 ← ld bf_vs j
        let e3 : BF 256 ← ld bf_vs_dash j
        let tmp : BF 256 := bfMul e2 e3
        let e4 ← zk_hash_256_update a0_ctx tmp
        let a0_ctx := e4
        let e5 : BF 256 ← ld bf_s j
        let e6 : BF 256 ← ld bf_vs j
        let e7 : BF 256 ← ld bf_s_dash j
        let e8 : BF 256 ← ld bf_vs_dash j
        let e9 ← zk_hash_256_update a1_ctx (bfAdd (bfAdd (bfMul (bfAdd e5 e6) (bfAdd e7 e8)) tmp) (bfOne : BF 256))
        let a1_ctx := e9
        let j : Nat := (j + 1) % U32
        pure (a0_ctx, a1_ctx, j))
      (a0_ctx, a1_ctx, j)
  let a0_ctx : ZkC 256 := e1.1
  let a1_ctx : ZkC 256 := e1.2.1
  cfree .stack bf_vs_dash
  cfree .stack bf_s_dash
  cfree .stack bf_vs
  cfree .stack bf_s
  cfree .stack w_out
  pure (a0_ctx, a1_ctx)

/-- faest_aes.c:2475-2503 `em_enc_constraints_Mkey_1_256`. -/
def em_enc_constraints_Mkey_1_256 (out : CPtr) (x : CPtr) (bf_q : CPtr) (delta : CPtr) (b0_ctx : ZkC 256) : CM (ZkC 256) := do
  let e1 ← bf_load 256 delta
  let bf_delta : BF 256 := e1
  let e2 ← alloc .aligned (malloc 3840 : Mem (BF 256))
  let bf_x : CPtr := e2
  let i : Nat := 0
  let e3 : Nat ← cwhile
      (fun _s1 =>
        let i : Nat := _s1
        decide (i < 3840))
      (fun _s1 => do
        let i : Nat := _s1
        let e4 : Byte ← ld x (i / 8)
        st bf_x i (bfMulBit bf_delta (BitVec.ofNat 8 ((e4.toNat >>> (i % 8)) &&& 1)))
        let i : Nat := (i + 1) % U32
        pure i)
      i
  let e5 ← alloc .aligned (malloc 256 : Mem (BF 256))
  let bf_q_out : CPtr := e5
  let i : Nat := 0
  let e6 : Nat ← cwhile
      (fun _s1 =>
        let i : Nat := _s1
        decide (i < 256))
      (fun _s1 => do
        let i : Nat := _s1
        let e7 : Byte ← ld out (i / 8)
        let e8 : BF 256 ← ld bf_q i
        st bf_q_out i (bfAdd (bfMulBit bf_delta (BitVec.ofNat 8 ((e7.toNat >>> (i % 8)) &&& 1))) e8)
        let i : Nat := (i + 1) % U32
        pure i)
      i
  let bf_qs ← alloc .stack (malloc 448 : Mem (BF 256))
  let bf_qs_dash ← alloc .stack (malloc 448 : Mem (BF 256))
  em_enc_forward_256 bf_q bf_x bf_qs
  em_enc_backward_256 bf_q bf_x bf_q_out (0 : Byte) (1 : Byte) delta bf_qs_dash
  cfree .aligned bf_q_out
  cfree .aligned bf_x
  let minus_part : BF 256 := bfMul bf_delta bf_delta
  let j : Nat := 0
  let e9 : ZkC 256 × Nat ← cwhile
      (fun _s1 =>
        let j : Nat := _s1.2
        decide (j < 448))
      (fun _s1 => do
        let b0_ctx : ZkC 256 := _s1.1
        let j : Nat := _s1.2
        let e10 : BF 256 ← ld bf_qs j
        let e11 : BF 256 ← ld bf_qs_dash j
        let e12 ← zk_hash_256_update b0_ctx (bfAdd (bfMul e10 e11) minus_part)
        let b0_ctx := e12
        let j : Nat := (j + 1) % U32
        pure (b0_ctx, j))
      (b0_ctx, j)
  let b0_ctx : ZkC 256 := e9.1
  cfree .stack bf_qs_dash
  cfree .stack bf_qs
  pure b0_ctx

/-- faest_aes.c:2505-2534 `em_prove_256`. -/
def em_prove_256 (w : CPtr) (u : CPtr) (V : CPtr) (in_ : CPtr) (out : CPtr) (chall : CPtr) (a_tilde : CPtr)
    (b_tilde : CPtr) : CM Unit := do
  let x ← alloc .stack (malloc 480 : Mem Byte)
  let round_keys ← alloc .stack (malloc 480 : Mem Byte)
  let e1 ← rijndael256_init_round_keys round_keys in_
  let tmp_x : CPtr := x
  let r : Nat := 0
  let e2 : CPtr × Nat ← cwhile
      (fun _s1 =>
        let r : Nat := _s1.2
        decide (r ≠ 15))
      (fun _s1 => do
        let tmp_x : CPtr := _s1.1
        let r : Nat := _s1.2
        let i : Nat := 0
        let e3 : CPtr × Nat ← cwhile
            (fun _s2 =>
              let i : Nat := _s2.2
              decide (i ≠ 8))
            (fun _s2 => do
              let tmp_x : CPtr := _s2.1
              let i : Nat := _s2.2
              memcpy (α := Byte) tmp_x (padd round_keys (32 * r + (4 * i))) 4
              let tmp_x : CPtr := padd tmp_x 4
              let i : Nat := (i + 1) % U32
              pure (tmp_x, i))
            (tmp_x, i)
        let tmp_x : CPtr := e3.1
        let r : Nat := (r + 1) % U32
        pure (tmp_x, r))
      (tmp_x, r)
  let tmp_x : CPtr := e2.1
  cfree .stack round_keys
  let e4 ← column_to_row_major_and_shrink_V_256 V 3584
  let bf_v : CPtr := e4
  let a0_ctx : ZkC 256 := {}
  let a1_ctx : ZkC 256 := {}
  let e5 ← zk_hash_256_init a0_ctx chall
  let a0_ctx := e5
  let e6 ← zk_hash_256_init a1_ctx chall
  let a1_ctx := e6
  let e7 ← em_enc_constraints_Mkey_0_256 out x w bf_v a0_ctx a1_ctx
  let a0_ctx := e7.1
  let a1_ctx := e7.2
  let e8 ← bf_load 256 (padd u 448)
  let e9 ← zk_hash_256_finalize a_tilde a1_ctx e8
  let a1_ctx := e9
  let e10 ← bf_sum_poly 256 (padd bf_v 3584)
  let e11 ← zk_hash_256_finalize b_tilde a0_ctx e10
  let a0_ctx := e11
  cfree .aligned bf_v
  cfree .stack x
  pure ()

/-- faest_aes.c:2536-2586 `em_verify_256`. -/
def em_verify_256 (d : CPtr) (Q : CPtr) (chall_2 : CPtr) (chall_3 : CPtr) (a_tilde : CPtr) (in_ : CPtr)
    (out : CPtr) (params : Params) : CM CPtr := do
  let tau : Nat := params.tau
  let t0 : Nat := params.t0
  let k0 : Nat := params.k0
  let t1 : Nat := params.t1
  let k1 : Nat := params.k1
  let delta : CPtr := chall_3
  let i : Nat := 0
  let col : Nat := 0
  let e1 : Nat × Nat ← cwhile
      (fun _s1 =>
        let i : Nat := _s1.1
        decide (i < tau))
      (fun _s1 => do
        let i : Nat := _s1.1
        let col : Nat := _s1.2
        let depth : Nat := (if i < t0 then k0 else k1)
        let decoded_challenge ← alloc .stack (malloc 12 : Mem Byte)
        let e2 ← ChalDec chall_3 i k0 t0 k1 t1 decoded_challenge
        let j : Nat := 0
        let e3 : Nat × Nat ← cwhile
            (fun _s2 =>
              let j : Nat := _s2.2
              decide (j < depth))
            (fun _s2 => do
              let col : Nat := _s2.1
              let j : Nat := _s2.2
              let e4 : Byte ← ld decoded_challenge j
              let e5 : Unit ← (
                if e4.toNat = 1 then (do
                  let e6 : CPtr ← ld Q col
                  let e7 : CPtr ← ld Q col
                  xor_u8_array d e6 e7 448
                  pure ())
                else (do
                  pure ()))
              let j : Nat := (j + 1) % U32
              let col : Nat := (col + 1) % U32
              pure (col, j))
            (col, j)
        let col : Nat := e3.1
        cfree .stack decoded_challenge
        let i : Nat := (i + 1) % U32
        pure (i, col))
      (i, col)
  let e8 ← column_to_row_major_and_shrink_V_256 Q 3584
  let bf_q : CPtr := e8
  let x ← alloc .stack (malloc 480 : Mem Byte)
  let round_keys ← alloc .stack (malloc 480 : Mem Byte)
  let e9 ← rijndael256_init_round_keys round_keys in_
  let tmp_x : CPtr := x
  let r : Nat := 0
  let e10 : CPtr × Nat ← cwhile
      (fun _s1 =>
        let r : Nat := _s1.2
        decide (r ≠ 15))
      (fun _s1 => do
        let tmp_x : CPtr := _s1.1
        let r : Nat := _s1.2
        let i : Nat := 0
        let e11 : CPtr × Nat ← cwhile
            (fun _s2 =>
              let i : Nat := _s2.2
              decide (i ≠ 8))
            (fun _s2 => do
              let tmp_x : CPtr := _s2.1
              let i : Nat := _s2.2
              memcpy (α := Byte) tmp_x (padd round_keys (32 * r + (4 * i))) 4
              let tmp_x : CPtr := padd tmp_x 4
              let i : Nat := (i + 1) % U32
              pure (tmp_x, i))
            (tmp_x, i)
        let tmp_x : CPtr := e11.1
        let r : Nat := (r + 1) % U32
        pure (tmp_x, r))
      (tmp_x, r)
  let tmp_x : CPtr := e10.1
  cfree .stack round_keys
  let b0_ctx : ZkC 256 := {}
  let e12 ← zk_hash_256_init b0_ctx chall_2
  let b0_ctx := e12
  let e13 ← em_enc_constraints_Mkey_1_256 out x bf_q delta b0_ctx
  let b0_ctx := e13
  let e14 ← alloc .heap (malloc 32 : Mem Byte)
  let q_tilde : CPtr := e14
  let e15 ← bf_sum_poly 256 (padd bf_q 3584)
  let e16 ← zk_hash_256_finalize q_tilde b0_ctx e15
  let b0_ctx := e16
  cfree .aligned bf_q
  let e17 ← bf_load 256 q_tilde
  let bf_qtilde : BF 256 := e17
  let e18 ← bf_load 256 a_tilde
  let e19 ← bf_load 256 delta
  bf_store q_tilde (bfAdd bf_qtilde (bfMul e18 e19))
  cfree .stack x
  pure q_tilde

/-- faest_aes.c:2590-2615 `aes_prove`. -/
def aes_prove (w : CPtr) (u : CPtr) (V : CPtr) (in_ : CPtr) (out : CPtr) (chall : CPtr) (a_tilde : CPtr)
    (b_tilde : CPtr) (params : Params) : CM Unit := do
  let e1 : Unit ← (
    if params.lambda = 256 then (do
      let e2 : Unit ← (
        if params.Lke ≠ 0 then (do
          aes_prove_256 w u V in_ out chall a_tilde b_tilde params
          pure ())
        else (do
          em_prove_256 w u V in_ out chall a_tilde b_tilde
          pure ()))
      pure ())
    else (if params.lambda = 192 then (do
      let e3 : Unit ← (
        if params.Lke ≠ 0 then (do
          aes_prove_192 w u V in_ out chall a_tilde b_tilde params
          pure ())
        else (do
          em_prove_192 w u V in_ out chall a_tilde b_tilde
          pure ()))
      pure ())
    else (do
      let e4 : Unit ← (
        if params.Lke ≠ 0 then (do
          aes_prove_128 w u V in_ out chall a_tilde b_tilde params
          pure ())
        else (do
          em_prove_128 w u V in_ out chall a_tilde b_tilde
          pure ()))
      pure ())))
  pure ()

/-- faest_aes.c:2617-2640 `aes_verify`. -/
def aes_verify (d : CPtr) (Q : CPtr) (chall_2 : CPtr) (chall_3 : CPtr) (a_tilde : CPtr) (in_ : CPtr) (out : CPtr)
    (params : Params) : CM CPtr := do
  if params.lambda = 256 then (do
    if params.Lke ≠ 0 then (do
      let e1 ← aes_verify_256 d Q chall_2 chall_3 a_tilde in_ out params
      pure e1)
    else (do
      let e2 ← em_verify_256 d Q chall_2 chall_3 a_tilde in_ out params
      pure e2))
  else (if params.lambda = 192 then (do
    if params.Lke ≠ 0 then (do
      let e3 ← aes_verify_192 d Q chall_2 chall_3 a_tilde in_ out params
      pure e3)
    else (do
      let e4 ← em_verify_192 d Q chall_2 chall_3 a_tilde in_ out params
      pure e4))
  else (do
    if params.Lke ≠ 0 then (do
      let e5 ← aes_verify_128 d Q chall_2 chall_3 a_tilde in_ out params
      pure e5)
    else (do
      let e6 ← em_verify_128 d Q chall_2 chall_3 a_tilde in_ out params
      pure e6)))

end Faest.Gen
