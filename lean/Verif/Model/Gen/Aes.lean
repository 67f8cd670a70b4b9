/-
Generated by tools/c2lean.py from aes.c. Do not edit.
-/
import Verif.Model.Gen.Utils

set_option linter.unusedVariables false

namespace Faest.Gen
open Faest.C

/-- aes.c:32-35 -/
def round_constants : List Byte :=
  [0x01, 0x02, 0x04, 0x08, 0x10, 0x20, 0x40, 0x80, 0x1b, 0x36, 0x6c, 0xd8, 0xab, 0x4d, 0x9a,
   0x2f, 0x5e, 0xbc, 0x63, 0xc6, 0x97, 0x35, 0x6a, 0xd4, 0xb3, 0x7d, 0xfa, 0xef, 0xc5, 0x91]

/-- aes.c:37-39 `contains_zero`. -/
def contains_zero (block : CPtr) : CM Nat := do
  let e1 : Byte ← ld block 0
  let e2 : Byte ← ld block 1
  let e3 : Byte ← ld block 2
  let e4 : Byte ← ld block 3
  pure ((((if ¬ (e1 ≠ 0) then 1 else 0) ||| (if ¬ (e2 ≠ 0) then 1 else 0)) ||| (if ¬ (e3 ≠ 0) then 1 else 0)) ||| (if ¬ (e4 ≠ 0) then 1 else 0))

/-- aes.c:41-60 `compute_sbox`. -/
def compute_sbox (in_ : Byte) : CM Byte := do
  let t : Byte := bf8_inv in_
  let t0 : Byte := BitVec.ofNat 8 (((parity8 (BitVec.ofNat 8 (t.toNat &&& 241))).toNat) <<< 0)
  let t0 : Byte := BitVec.ofNat 8 (t0.toNat ^^^ (((parity8 (BitVec.ofNat 8 (t.toNat &&& 227))).toNat) <<< 1))
  let t0 : Byte := BitVec.ofNat 8 (t0.toNat ^^^ (((parity8 (BitVec.ofNat 8 (t.toNat &&& 199))).toNat) <<< 2))
  let t0 : Byte := BitVec.ofNat 8 (t0.toNat ^^^ (((parity8 (BitVec.ofNat 8 (t.toNat &&& 143))).toNat) <<< 3))
  let t0 : Byte := BitVec.ofNat 8 (t0.toNat ^^^ (((parity8 (BitVec.ofNat 8 (t.toNat &&& 31))).toNat) <<< 4))
  let t0 : Byte := BitVec.ofNat 8 (t0.toNat ^^^ (((parity8 (BitVec.ofNat 8 (t.toNat &&& 62))).toNat) <<< 5))
  let t0 : Byte := BitVec.ofNat 8 (t0.toNat ^^^ (((parity8 (BitVec.ofNat 8 (t.toNat &&& 124))).toNat) <<< 6))
  let t0 : Byte := BitVec.ofNat 8 (t0.toNat ^^^ (((parity8 (BitVec.ofNat 8 (t.toNat &&& 248))).toNat) <<< 7))
  pure (BitVec.ofNat 8 (t0.toNat ^^^ 99))

/-- aes.c:62-71 `aes_increment_iv`. -/
def aes_increment_iv (iv : CPtr) : CM Unit := do
  let i : Nat := 16
  let _brk : Bool := false
  let e1 : Nat × Bool ← cwhile
      (fun _s1 =>
        let i : Nat := _s1.1
        let _brk : Bool := _s1.2
        decide (_brk = false ∧ i > 0))
      (fun _s1 => do
        let i : Nat := _s1.1
        let _brk : Bool := _s1.2
        let e2 : Byte ← ld iv ((i + U32 - 1) % U32)
        if e2.toNat = 255 then (do
          st iv ((i + U32 - 1) % U32) (0 : Byte)
          let i : Nat := (i + U32 - 1) % U32
          pure (i, _brk))
        else (do
          let e3 : Byte ← ld iv ((i + U32 - 1) % U32)
          st iv ((i + U32 - 1) % U32) (BitVec.ofNat 8 (e3.toNat + 1))
          let _brk : Bool := true
          pure (i, _brk)))
      (i, _brk)
  pure ()

/-- aes.c:75-80 `add_round_key`. -/
def add_round_key (round : Nat) (state : CPtr) (round_key : CPtr) (block_words : Nat) : CM Unit := do
  let c : Nat := 0
  let e1 : Nat ← cwhile
      (fun _s1 =>
        let c : Nat := _s1
        decide (c < block_words))
      (fun _s1 => do
        let c : Nat := _s1
        xor_u8_array (padd state (4 * c)) (padd round_key (32 * round + (4 * c))) (padd state (4 * c)) 4
        let c : Nat := (c + 1) % U32
        pure c)
      c
  pure ()

/-- aes.c:82-93 `sub_bytes`. -/
def sub_bytes (state : CPtr) (block_words : Nat) : CM Nat := do
  let ret : Nat := 0
  let c : Nat := 0
  let e1 : Nat × Nat ← cwhile
      (fun _s1 =>
        let c : Nat := _s1.2
        decide (c < block_words))
      (fun _s1 => do
        let ret : Nat := _s1.1
        let c : Nat := _s1.2
        let e2 ← contains_zero (padd state (4 * c))
        let ret : Nat := ret ||| e2
        let r : Nat := 0
        let e3 : Nat ← cwhile
            (fun _s2 =>
              let r : Nat := _s2
              decide (r < 4))
            (fun _s2 => do
              let r : Nat := _s2
              let e4 : Byte ← ld state (4 * c + r)
              let e5 ← compute_sbox e4
              st state (4 * c + r) e5
              let r : Nat := (r + 1) % U32
              pure r)
            r
        let c : Nat := (c + 1) % U32
        pure (ret, c))
      (ret, c)
  let ret : Nat := e1.1
  pure ret

/-- aes.c:95-120 `shift_row`. -/
def shift_row (state : CPtr) (block_words : Nat) : CM Unit := do
  let new_state ← alloc .stack (malloc 32 : Mem Byte)
  let e1 : Unit ← (
    if block_words = 4 ∨ block_words = 6 then (do
      let i : Nat := 0
      let e2 : Nat ← cwhile
          (fun _s1 =>
            let i : Nat := _s1
            decide (i < block_words))
          (fun _s1 => do
            let i : Nat := _s1
            let e3 : Byte ← ld state (4 * i)
            st new_state (4 * i) e3
            let e4 ← cmod ((i + 1) % U32) block_words
            let e5 : Byte ← ld state (4 * e4 + 1)
            st new_state (4 * i + 1) e5
            let e6 ← cmod ((i + 2) % U32) block_words
            let e7 : Byte ← ld state (4 * e6 + 2)
            st new_state (4 * i + 2) e7
            let e8 ← cmod ((i + 3) % U32) block_words
            let e9 : Byte ← ld state (4 * e8 + 3)
            st new_state (4 * i + 3) e9
            let i : Nat := (i + 1) % U32
            pure i)
          i
      pure ())
    else (if block_words = 8 then (do
      let i : Nat := 0
      let e10 : Nat ← cwhile
          (fun _s1 =>
            let i : Nat := _s1
            decide (i < block_words))
          (fun _s1 => do
            let i : Nat := _s1
            let e11 : Byte ← ld state (4 * i)
            st new_state (4 * i) e11
            let e12 : Byte ← ld state (4 * (((i + 1) % U32) % 8) + 1)
            st new_state (4 * i + 1) e12
            let e13 : Byte ← ld state (4 * (((i + 3) % U32) % 8) + 2)
            st new_state (4 * i + 2) e13
            let e14 : Byte ← ld state (4 * (((i + 4) % U32) % 8) + 3)
            st new_state (4 * i + 3) e14
            let i : Nat := (i + 1) % U32
            pure i)
          i
      pure ())
    else (do
      pure ())))
  let i : Nat := 0
  let e15 : Nat ← cwhile
      (fun _s1 =>
        let i : Nat := _s1
        decide (i < block_words))
      (fun _s1 => do
        let i : Nat := _s1
        memcpy (α := Byte) (padd state (4 * i)) (padd new_state (4 * i)) 4
        let i : Nat := (i + 1) % U32
        pure i)
      i
  cfree .stack new_state
  pure ()

/-- aes.c:122-137 `mix_column`. -/
def mix_column (state : CPtr) (block_words : Nat) : CM Unit := do
  let c : Nat := 0
  let e1 : Nat ← cwhile
      (fun _s1 =>
        let c : Nat := _s1
        decide (c < block_words))
      (fun _s1 => do
        let c : Nat := _s1
        let e2 : Byte ← ld state (4 * c)
        let e3 : Byte ← ld state (4 * c + 1)
        let e4 : Byte ← ld state (4 * c + 2)
        let e5 : Byte ← ld state (4 * c + 3)
        let tmp : Byte := BitVec.ofNat 8 (((((bf8Mul e2 (2 : Byte)).toNat) ^^^ ((bf8Mul e3 (3 : Byte)).toNat)) ^^^ e4.toNat) ^^^ e5.toNat)
        let e6 : Byte ← ld state (4 * c)
        let e7 : Byte ← ld state (4 * c + 1)
        let e8 : Byte ← ld state (4 * c + 2)
        let e9 : Byte ← ld state (4 * c + 3)
        let tmp_1 : Byte := BitVec.ofNat 8 (((e6.toNat ^^^ ((bf8Mul e7 (2 : Byte)).toNat)) ^^^ ((bf8Mul e8 (3 : Byte)).toNat)) ^^^ e9.toNat)
        let e10 : Byte ← ld state (4 * c)
        let e11 : Byte ← ld state (4 * c + 1)
        let e12 : Byte ← ld state (4 * c + 2)
        let e13 : Byte ← ld state (4 * c + 3)
        let tmp_2 : Byte := BitVec.ofNat 8 (((e10.toNat ^^^ e11.toNat) ^^^ ((bf8Mul e12 (2 : Byte)).toNat)) ^^^ ((bf8Mul e13 (3 : Byte)).toNat))
        let e14 : Byte ← ld state (4 * c)
        let e15 : Byte ← ld state (4 * c + 1)
        let e16 : Byte ← ld state (4 * c + 2)
        let e17 : Byte ← ld state (4 * c + 3)
        let tmp_3 : Byte := BitVec.ofNat 8 (((((bf8Mul e14 (3 : Byte)).toNat) ^^^ e15.toNat) ^^^ e16.toNat) ^^^ ((bf8Mul e17 (2 : Byte)).toNat))
        st state (4 * c) tmp
        st state (4 * c + 1) tmp_1
        st state (4 * c + 2) tmp_2
        st state (4 * c + 3) tmp_3
        let c : Nat := (c + 1) % U32
        pure c)
      c
  pure ()

/-- aes.c:140-145 `sub_words`. -/
def sub_words (words : CPtr) : CM Unit := do
  let e1 : Byte ← ld words 0
  let e2 ← compute_sbox e1
  st words 0 e2
  let e3 : Byte ← ld words 1
  let e4 ← compute_sbox e3
  st words 1 e4
  let e5 : Byte ← ld words 2
  let e6 ← compute_sbox e5
  st words 2 e6
  let e7 : Byte ← ld words 3
  let e8 ← compute_sbox e7
  st words 3 e8
  pure ()

/-- aes.c:147-153 `rot_word`. -/
def rot_word (words : CPtr) : CM Unit := do
  let e1 : Byte ← ld words 0
  let tmp : Byte := e1
  let e2 : Byte ← ld words 1
  st words 0 e2
  let e3 : Byte ← ld words 2
  st words 1 e3
  let e4 : Byte ← ld words 3
  st words 2 e4
  st words 3 tmp
  pure ()

/-- aes.c:155-194 `expand_key`. -/
def expand_key (round_keys : CPtr) (key : CPtr) (key_words : Nat) (block_words : Nat) (num_rounds : Nat) : CM Nat := do
  let ret : Nat := 0
  let k : Nat := 0
  let e1 : Nat ← cwhile
      (fun _s1 =>
        let k : Nat := _s1
        decide (k < key_words))
      (fun _s1 => do
        let k : Nat := _s1
        let e2 ← cdiv k block_words
        let e3 ← cmod k block_words
        let e4 ← bf8_load (padd key ((4 * k) % U32))
        st round_keys (32 * e2 + (4 * e3)) e4
        let e5 ← cdiv k block_words
        let e6 ← cmod k block_words
        let e7 ← bf8_load (padd key ((((4 * k) % U32) + 1) % U32))
        st round_keys (32 * e5 + (4 * e6) + 1) e7
        let e8 ← cdiv k block_words
        let e9 ← cmod k block_words
        let e10 ← bf8_load (padd key ((((4 * k) % U32) + 2) % U32))
        st round_keys (32 * e8 + (4 * e9) + 2) e10
        let e11 ← cdiv k block_words
        let e12 ← cmod k block_words
        let e13 ← bf8_load (padd key ((((4 * k) % U32) + 3) % U32))
        st round_keys (32 * e11 + (4 * e12) + 3) e13
        let k : Nat := (k + 1) % U32
        pure k)
      k
  let k : Nat := key_words
  let e14 : Nat × Nat ← cwhile
      (fun _s1 =>
        let k : Nat := _s1.2
        decide (k < ((block_words * ((num_rounds + 1) % U32)) % U32)))
      (fun _s1 => do
        let ret : Nat := _s1.1
        let k : Nat := _s1.2
        let tmp ← alloc .stack (malloc 4 : Mem Byte)
        let e15 ← cdiv ((k + U32 - 1) % U32) block_words
        let e16 ← cmod ((k + U32 - 1) % U32) block_words
        memcpy (α := Byte) tmp (padd round_keys (32 * e15 + (4 * e16))) 4
        let e17 ← cmod k key_words
        let e18 : Nat ← (
          if e17 = 0 then (do
            rot_word tmp
            let e19 ← contains_zero tmp
            let ret : Nat := ret ||| e19
            sub_words tmp
            let e20 : Byte ← ld tmp 0
            let e21 ← cdiv k key_words
            let e22 ← tget round_constants ((e21 + U32 - 1) % U32)
            st tmp 0 (BitVec.ofNat 8 (e20.toNat ^^^ e22.toNat))
            pure ret)
          else (do
            pure ret))
        let ret : Nat := e18
        let e23 ← cmod k key_words
        let e24 : Nat ← (
          if (key_words > 6) ∧ (e23 = 4) then (do
            let e25 ← contains_zero tmp
            let ret : Nat := ret ||| e25
            sub_words tmp
            pure ret)
          else (do
            pure ret))
        let ret : Nat := e24
        let m : Nat := (k + U32 - key_words) % U32
        let e26 ← cdiv k block_words
        let e27 ← cmod k block_words
        let e28 ← cdiv m block_words
        let e29 ← cmod m block_words
        let e30 : Byte ← ld round_keys (32 * e28 + (4 * e29))
        let e31 : Byte ← ld tmp 0
        st round_keys (32 * e26 + (4 * e27)) (BitVec.ofNat 8 (e30.toNat ^^^ e31.toNat))
        let e32 ← cdiv k block_words
        let e33 ← cmod k block_words
        let e34 ← cdiv m block_words
        let e35 ← cmod m block_words
        let e36 : Byte ← ld round_keys (32 * e34 + (4 * e35) + 1)
        let e37 : Byte ← ld tmp 1
        st round_keys (32 * e32 + (4 * e33) + 1) (BitVec.ofNat 8 (e36.toNat ^^^ e37.toNat))
        let e38 ← cdiv k block_words
        let e39 ← cmod k block_words
        let e40 ← cdiv m block_words
        let e41 ← cmod m block_words
        let e42 : Byte ← ld round_keys (32 * e40 + (4 * e41) + 2)
        let e43 : Byte ← ld tmp 2
        st round_keys (32 * e38 + (4 * e39) + 2) (BitVec.ofNat 8 (e42.toNat ^^^ e43.toNat))
        let e44 ← cdiv k block_words
        let e45 ← cmod k block_words
        let e46 ← cdiv m block_words
        let e47 ← cmod m block_words
        let e48 : Byte ← ld round_keys (32 * e46 + (4 * e47) + 3)
        let e49 : Byte ← ld tmp 3
        st round_keys (32 * e44 + (4 * e45) + 3) (BitVec.ofNat 8 (e48.toNat ^^^ e49.toNat))
        cfree .stack tmp
        let k : Nat := (k + 1) % U32
        pure (ret, k))
      (ret, k)
  let ret : Nat := e14.1
  pure ret

/-- aes.c:198-200 `aes128_init_round_keys`. -/
def aes128_init_round_keys (round_key : CPtr) (key : CPtr) : CM Nat := do
  let e1 ← expand_key round_key key 4 4 10
  pure e1

/-- aes.c:202-204 `aes192_init_round_keys`. -/
def aes192_init_round_keys (round_key : CPtr) (key : CPtr) : CM Nat := do
  let e1 ← expand_key round_key key 6 4 12
  pure e1

/-- aes.c:206-208 `aes256_init_round_keys`. -/
def aes256_init_round_keys (round_key : CPtr) (key : CPtr) : CM Nat := do
  let e1 ← expand_key round_key key 8 4 14
  pure e1

/-- aes.c:210-212 `rijndael192_init_round_keys`. -/
def rijndael192_init_round_keys (round_key : CPtr) (key : CPtr) : CM Nat := do
  let e1 ← expand_key round_key key 6 6 12
  pure e1

/-- aes.c:214-216 `rijndael256_init_round_keys`. -/
def rijndael256_init_round_keys (round_key : CPtr) (key : CPtr) : CM Nat := do
  let e1 ← expand_key round_key key 8 8 14
  pure e1

/-- aes.c:218-222 `load_state`. -/
def load_state (state : CPtr) (src : CPtr) (block_words : Nat) : CM Unit := do
  let i : Nat := 0
  let e1 : Nat ← cwhile
      (fun _s1 =>
        let i : Nat := _s1
        decide (i ≠ ((block_words * 4) % U32)))
      (fun _s1 => do
        let i : Nat := _s1
        let e2 ← bf8_load (padd src i)
        st state (4 * (i / 4) + (i % 4)) e2
        let i : Nat := (i + 1) % U32
        pure i)
      i
  pure ()

/-- aes.c:224-228 `store_state`. -/
def store_state (dst : CPtr) (state : CPtr) (block_words : Nat) : CM Unit := do
  let i : Nat := 0
  let e1 : Nat ← cwhile
      (fun _s1 =>
        let i : Nat := _s1
        decide (i ≠ ((block_words * 4) % U32)))
      (fun _s1 => do
        let i : Nat := _s1
        let e2 : Byte ← ld state (4 * (i / 4) + (i % 4))
        bf8_store (padd dst i) e2
        let i : Nat := (i + 1) % U32
        pure i)
      i
  pure ()

/-- aes.c:230-250 `aes_encrypt`. -/
def aes_encrypt (keys : CPtr) (state : CPtr) (block_words : Nat) (num_rounds : Nat) : CM Nat := do
  let ret : Nat := 0
  add_round_key 0 state keys block_words
  let round : Nat := 1
  let e1 : Nat × Nat ← cwhile
      (fun _s1 =>
        let round : Nat := _s1.2
        decide (round < num_rounds))
      (fun _s1 => do
        let ret : Nat := _s1.1
        let round : Nat := _s1.2
        let e2 ← sub_bytes state block_words
        let ret : Nat := ret ||| e2
        shift_row state block_words
        mix_column state block_words
        add_round_key round state keys block_words
        let round : Nat := (round + 1) % U32
        pure (ret, round))
      (ret, round)
  let ret : Nat := e1.1
  let e3 ← sub_bytes state block_words
  let ret : Nat := ret ||| e3
  shift_row state block_words
  add_round_key num_rounds state keys block_words
  pure ret

/-- aes.c:252-259 `aes128_encrypt_block`. -/
def aes128_encrypt_block (key : CPtr) (plaintext : CPtr) (ciphertext : CPtr) : CM Nat := do
  let state ← alloc .stack (malloc 32 : Mem Byte)
  load_state state plaintext 4
  let e1 ← aes_encrypt key state 4 10
  let ret : Nat := e1
  store_state ciphertext state 4
  cfree .stack state
  pure ret

/-- aes.c:261-268 `aes192_encrypt_block`. -/
def aes192_encrypt_block (key : CPtr) (plaintext : CPtr) (ciphertext : CPtr) : CM Nat := do
  let state ← alloc .stack (malloc 32 : Mem Byte)
  load_state state plaintext 4
  let e1 ← aes_encrypt key state 4 12
  let ret : Nat := e1
  store_state ciphertext state 4
  cfree .stack state
  pure ret

/-- aes.c:270-277 `aes256_encrypt_block`. -/
def aes256_encrypt_block (key : CPtr) (plaintext : CPtr) (ciphertext : CPtr) : CM Nat := do
  let state ← alloc .stack (malloc 32 : Mem Byte)
  load_state state plaintext 4
  let e1 ← aes_encrypt key state 4 14
  let ret : Nat := e1
  store_state ciphertext state 4
  cfree .stack state
  pure ret

/-- aes.c:279-286 `rijndael192_encrypt_block`. -/
def rijndael192_encrypt_block (key : CPtr) (plaintext : CPtr) (ciphertext : CPtr) : CM Nat := do
  let state ← alloc .stack (malloc 32 : Mem Byte)
  load_state state plaintext 6
  let e1 ← aes_encrypt key state 6 12
  let ret : Nat := e1
  store_state ciphertext state 6
  cfree .stack state
  pure ret

/-- aes.c:288-295 `rijndael256_encrypt_block`. -/
def rijndael256_encrypt_block (key : CPtr) (plaintext : CPtr) (ciphertext : CPtr) : CM Nat := do
  let state ← alloc .stack (malloc 32 : Mem Byte)
  load_state state plaintext 8
  let e1 ← aes_encrypt key state 8 14
  let ret : Nat := e1
  store_state ciphertext state 8
  cfree .stack state
  pure ret

/-- aes.c:297-391 `prg`. -/
def prg (key : CPtr) (iv : CPtr) (out : CPtr) (seclvl : Nat) (outlen : Nat) : CM Unit := do
  let internal_iv ← alloc .stack (malloc 16 : Mem Byte)
  memcpy (α := Byte) internal_iv iv 16
  let round_key ← alloc .stack (malloc 480 : Mem Byte)
  if seclvl = 256 then (do
    let e1 ← aes256_init_round_keys round_key key
    let e2 : CPtr × Nat ← cwhile
        (fun _s1 =>
          let outlen : Nat := _s1.2
          decide (outlen ≥ 16))
        (fun _s1 => do
          let out : CPtr := _s1.1
          let outlen : Nat := _s1.2
          let state ← alloc .stack (malloc 32 : Mem Byte)
          load_state state internal_iv 4
          let e3 ← aes_encrypt round_key state 4 14
          store_state out state 4
          aes_increment_iv internal_iv
          cfree .stack state
          let outlen : Nat := (outlen + U64 - 16) % U64
          let out : CPtr := padd out 16
          pure (out, outlen))
        (out, outlen)
    let out : CPtr := e2.1
    let outlen : Nat := e2.2
    let e4 : Unit ← (
      if outlen ≠ 0 then (do
        let state ← alloc .stack (malloc 32 : Mem Byte)
        load_state state internal_iv 4
        let e5 ← aes_encrypt round_key state 4 14
        let tmp ← alloc .stack (malloc 16 : Mem Byte)
        store_state tmp state 4
        memcpy (α := Byte) out tmp outlen
        cfree .stack tmp
        cfree .stack state
        pure ())
      else (do
        pure ()))
    cfree .stack round_key
    cfree .stack internal_iv
    pure ())
  else (if seclvl = 192 then (do
    let e6 ← aes192_init_round_keys round_key key
    let e7 : CPtr × Nat ← cwhile
        (fun _s1 =>
          let outlen : Nat := _s1.2
          decide (outlen ≥ 16))
        (fun _s1 => do
          let out : CPtr := _s1.1
          let outlen : Nat := _s1.2
          let state ← alloc .stack (malloc 32 : Mem Byte)
          load_state state internal_iv 4
          let e8 ← aes_encrypt round_key state 4 12
          store_state out state 4
          aes_increment_iv internal_iv
          cfree .stack state
          let outlen : Nat := (outlen + U64 - 16) % U64
          let out : CPtr := padd out 16
          pure (out, outlen))
        (out, outlen)
    let out : CPtr := e7.1
    let outlen : Nat := e7.2
    let e9 : Unit ← (
      if outlen ≠ 0 then (do
        let state ← alloc .stack (malloc 32 : Mem Byte)
        load_state state internal_iv 4
        let e10 ← aes_encrypt round_key state 4 12
        let tmp ← alloc .stack (malloc 16 : Mem Byte)
        store_state tmp state 4
        memcpy (α := Byte) out tmp outlen
        cfree .stack tmp
        cfree .stack state
        pure ())
      else (do
        pure ()))
    cfree .stack round_key
    cfree .stack internal_iv
    pure ())
  else (do
    let e11 ← aes128_init_round_keys round_key key
    let e12 : CPtr × Nat ← cwhile
        (fun _s1 =>
          let outlen : Nat := _s1.2
          decide (outlen ≥ 16))
        (fun _s1 => do
          let out : CPtr := _s1.1
          let outlen : Nat := _s1.2
          let state ← alloc .stack (malloc 32 : Mem Byte)
          load_state state internal_iv 4
          let e13 ← aes_encrypt round_key state 4 10
          store_state out state 4
          aes_increment_iv internal_iv
          cfree .stack state
          let outlen : Nat := (outlen + U64 - 16) % U64
          let out : CPtr := padd out 16
          pure (out, outlen))
        (out, outlen)
    let out : CPtr := e12.1
    let outlen : Nat := e12.2
    let e14 : Unit ← (
      if outlen ≠ 0 then (do
        let state ← alloc .stack (malloc 32 : Mem Byte)
        load_state state internal_iv 4
        let e15 ← aes_encrypt round_key state 4 10
        let tmp ← alloc .stack (malloc 16 : Mem Byte)
        store_state tmp state 4
        memcpy (α := Byte) out tmp outlen
        cfree .stack tmp
        cfree .stack state
        pure ())
      else (do
        pure ()))
    cfree .stack round_key
    cfree .stack internal_iv
    pure ()))

/-- aes.c:393-498 `aes_extend_witness`. -/
def aes_extend_witness (key : CPtr) (in_ : CPtr) (params : Params) : CM CPtr := do
  let lambda : Nat := params.lambda
  let l : Nat := params.l
  let L_ke : Nat := params.Lke
  let S_ke : Nat := params.Ske
  let num_rounds : Nat := params.R
  let e1 ← alloc .heap (malloc (((l + 7) % U32) / 8) : Mem Byte)
  let w : CPtr := e1
  let w_out : CPtr := w
  let block_words : Nat := 4
  let beta : Nat := 1
  let e2 : Nat × Nat ← (
    if params.id = (some ParamId.p192F) ∨ params.id = (some ParamId.p192S) ∨ params.id = (some ParamId.p256F) ∨ params.id = (some ParamId.p256S) then (do
      let beta : Nat := 2
      pure (block_words, beta))
    else (if params.id = (some ParamId.pEM192F) ∨ params.id = (some ParamId.pEM192S) then (do
      let block_words : Nat := 6
      pure (block_words, beta))
    else (if params.id = (some ParamId.pEM256F) ∨ params.id = (some ParamId.pEM256S) then (do
      let block_words : Nat := 8
      pure (block_words, beta))
    else (do
      pure (block_words, beta)))))
  let block_words : Nat := e2.1
  let beta : Nat := e2.2
  let e3 : CPtr × CPtr ← (
    if ¬ (L_ke ≠ 0) then (do
      let tmp : CPtr := key
      let key : CPtr := in_
      let in_ : CPtr := tmp
      pure (key, in_))
    else (do
      pure (key, in_)))
  let key : CPtr := e3.1
  let in_ : CPtr := e3.2
  let round_keys ← alloc .stack (malloc 480 : Mem Byte)
  let e4 : Unit ← (
    if lambda = 256 then (do
      let e5 : Unit ← (
        if block_words = 8 then (do
          let e6 ← rijndael256_init_round_keys round_keys key
          pure ())
        else (do
          let e7 ← aes256_init_round_keys round_keys key
          pure ()))
      pure ())
    else (if lambda = 192 then (do
      let e8 : Unit ← (
        if block_words = 6 then (do
          let e9 ← rijndael192_init_round_keys round_keys key
          pure ())
        else (do
          let e10 ← aes192_init_round_keys round_keys key
          pure ()))
      pure ())
    else (do
      let e11 ← aes128_init_round_keys round_keys key
      pure ())))
  let e12 : CPtr ← (
    if L_ke > 0 then (do
      let i : Nat := 0
      let e13 : CPtr × Nat ← cwhile
          (fun _s1 =>
            let i : Nat := _s1.2
            decide (i ≠ params.Nwd))
          (fun _s1 => do
            let w : CPtr := _s1.1
            let i : Nat := _s1.2
            memcpy (α := Byte) w (padd round_keys (32 * (i / 4) + (4 * (i % 4)))) 4
            let w : CPtr := padd w 4
            let i : Nat := (i + 1) % U32
            pure (w, i))
          (w, i)
      let w : CPtr := e13.1
      let j : Nat := 0
      let ik : Nat := params.Nwd
      let e14 : CPtr × Nat × Nat ← cwhile
          (fun _s1 =>
            let j : Nat := _s1.2.1
            decide (j < (S_ke / 4)))
          (fun _s1 => do
            let w : CPtr := _s1.1
            let j : Nat := _s1.2.1
            let ik : Nat := _s1.2.2
            memcpy (α := Byte) w (padd round_keys (32 * (ik / 4) + (4 * (ik % 4)))) 4
            let w : CPtr := padd w 4
            let ik : Nat := (ik + (if lambda = 192 then 6 else 4)) % U32
            let j : Nat := (j + 1) % U32
            pure (w, j, ik))
          (w, j, ik)
      let w : CPtr := e14.1
      pure w)
    else (do
      memcpy (α := Byte) w in_ (lambda / 8)
      let w : CPtr := padd w (lambda / 8)
      pure w))
  let w : CPtr := e12
  let b : Nat := 0
  let e15 : CPtr × CPtr × Nat ← cwhile
      (fun _s1 =>
        let b : Nat := _s1.2.2
        decide (b < beta))
      (fun _s1 => do
        let in_ : CPtr := _s1.1
        let w : CPtr := _s1.2.1
        let b : Nat := _s1.2.2
        let state ← alloc .stack (malloc 32 : Mem Byte)
        load_state state in_ block_words
        add_round_key 0 state round_keys block_words
        let round : Nat := 1
        let e16 : CPtr × Nat ← cwhile
            (fun _s2 =>
              let round : Nat := _s2.2
              decide (round < num_rounds))
            (fun _s2 => do
              let w : CPtr := _s2.1
              let round : Nat := _s2.2
              let e17 ← sub_bytes state block_words
              shift_row state block_words
              store_state w state block_words
              let w : CPtr := padd w ((4 * block_words) % U64)
              mix_column state block_words
              add_round_key round state round_keys block_words
              let round : Nat := (round + 1) % U32
              pure (w, round))
            (w, round)
        let w : CPtr := e16.1
        cfree .stack state
        let b : Nat := (b + 1) % U32
        let in_ : CPtr := padd in_ ((4 * block_words) % U64)
        pure (in_, w, b))
      (in_, w, b)
  let in_ : CPtr := e15.1
  let w : CPtr := e15.2.1
  cfree .stack round_keys
  pure w_out

end Faest.Gen
