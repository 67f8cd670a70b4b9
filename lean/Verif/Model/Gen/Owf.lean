/-
Generated by tools/c2lean.py from owf.c. Do not edit.
-/
import Verif.Model.Gen.Aes

set_option linter.unusedVariables false

namespace Faest.Gen
open Faest.C

/-- owf.c:12-17 `owf_128`. -/
def owf_128 (key : CPtr) (input : CPtr) (output : CPtr) : CM Bool := do
  let round_keys ← alloc .stack (malloc 480 : Mem Byte)
  let e1 ← aes128_init_round_keys round_keys key
  let ret : Nat := e1
  let e2 ← aes128_encrypt_block round_keys input output
  let ret : Nat := ret ||| e2
  let e3 := decide (ret = 0)
  cfree .stack round_keys
  pure e3

/-- owf.c:19-25 `owf_192`. -/
def owf_192 (key : CPtr) (input : CPtr) (output : CPtr) : CM Bool := do
  let round_keys ← alloc .stack (malloc 480 : Mem Byte)
  let e1 ← aes192_init_round_keys round_keys key
  let ret : Nat := e1
  let e2 ← aes192_encrypt_block round_keys input output
  let ret : Nat := ret ||| e2
  let e3 ← aes192_encrypt_block round_keys (padd input 16) (padd output 16)
  let ret : Nat := ret ||| e3
  let e4 := decide (ret = 0)
  cfree .stack round_keys
  pure e4

/-- owf.c:27-33 `owf_256`. -/
def owf_256 (key : CPtr) (input : CPtr) (output : CPtr) : CM Bool := do
  let round_keys ← alloc .stack (malloc 480 : Mem Byte)
  let e1 ← aes256_init_round_keys round_keys key
  let ret : Nat := e1
  let e2 ← aes256_encrypt_block round_keys input output
  let ret : Nat := ret ||| e2
  let e3 ← aes256_encrypt_block round_keys (padd input 16) (padd output 16)
  let ret : Nat := ret ||| e3
  let e4 := decide (ret = 0)
  cfree .stack round_keys
  pure e4

/-- owf.c:35-43 `owf_em_128`. -/
def owf_em_128 (key : CPtr) (input : CPtr) (output : CPtr) : CM Bool := do
  let round_keys ← alloc .stack (malloc 480 : Mem Byte)
  let e1 ← aes128_init_round_keys round_keys input
  let e2 ← aes128_encrypt_block round_keys key output
  let ret : Nat := e2
  let i : Nat := 0
  let e3 : Nat ← cwhile
      (fun _s1 =>
        let i : Nat := _s1
        decide (i ≠ 16))
      (fun _s1 => do
        let i : Nat := _s1
        let e4 : Byte ← ld output i
        let e5 : Byte ← ld key i
        st output i (BitVec.ofNat 8 (e4.toNat ^^^ e5.toNat))
        let i : Nat := (i + 1) % U32
        pure i)
      i
  let e6 := decide (ret = 0)
  cfree .stack round_keys
  pure e6

/-- owf.c:45-53 `owf_em_192`. -/
def owf_em_192 (key : CPtr) (input : CPtr) (output : CPtr) : CM Bool := do
  let round_keys ← alloc .stack (malloc 480 : Mem Byte)
  let e1 ← rijndael192_init_round_keys round_keys input
  let e2 ← rijndael192_encrypt_block round_keys key output
  let ret : Nat := e2
  let i : Nat := 0
  let e3 : Nat ← cwhile
      (fun _s1 =>
        let i : Nat := _s1
        decide (i ≠ 24))
      (fun _s1 => do
        let i : Nat := _s1
        let e4 : Byte ← ld output i
        let e5 : Byte ← ld key i
        st output i (BitVec.ofNat 8 (e4.toNat ^^^ e5.toNat))
        let i : Nat := (i + 1) % U32
        pure i)
      i
  let e6 := decide (ret = 0)
  cfree .stack round_keys
  pure e6

/-- owf.c:55-63 `owf_em_256`. -/
def owf_em_256 (key : CPtr) (input : CPtr) (output : CPtr) : CM Bool := do
  let round_keys ← alloc .stack (malloc 480 : Mem Byte)
  let e1 ← rijndael256_init_round_keys round_keys input
  let e2 ← rijndael256_encrypt_block round_keys key output
  let ret : Nat := e2
  let i : Nat := 0
  let e3 : Nat ← cwhile
      (fun _s1 =>
        let i : Nat := _s1
        decide (i ≠ 32))
      (fun _s1 => do
        let i : Nat := _s1
        let e4 : Byte ← ld output i
        let e5 : Byte ← ld key i
        st output i (BitVec.ofNat 8 (e4.toNat ^^^ e5.toNat))
        let i : Nat := (i + 1) % U32
        pure i)
      i
  let e6 := decide (ret = 0)
  cfree .stack round_keys
  pure e6

end Faest.Gen
