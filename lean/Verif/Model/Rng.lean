/-
The random bit generator of the programs making the test vectors: tools/rng.c, and `rand_bytes` of randomness.c on
top of it.

AES-256 of OpenSSL is a parameter, a function of 32 bytes of key and 16 bytes of input.  A failing call of OpenSSL ends
the program (`handleErrors`) and is not modelled.
-/
import Verif.Model.Basic

namespace Faest.Rng

/-- A block cipher: key, input, output. -/
abbrev Ecb := List Byte → List Byte → List Byte

/-- tools/rng.c:14-18 `AES256_CTR_DRBG_struct`; the object `DRBG_ctx` of line 20. -/
structure Ctx where
  /-- `Key[32]` -/
  key : Mem Byte
  /-- `V[16]` -/
  v : Mem Byte
  /-- `reseed_counter` -/
  reseed : Int

/-- tools/rng.c:20: objects with static storage start as zeros. -/
def start : Ctx := ⟨calloc 32 0, calloc 16 0, 0⟩

/-- `INT_MAX`. -/
def intMax : Int := 2147483647

/-- Sum of values of type `int`: undefined beyond `INT_MAX`. -/
def addInt (a b : Int) : Option Int := if a + b ≤ intMax then some (a + b) else none

/-- tools/rng.c:31-48 `AES256_ECB`, `buffer` being `buf + off`. -/
def aes256Ecb (E : Ecb) (key ctr buf : Mem Byte) (off : Nat) : Option (Mem Byte) := do
  let k ← rdN key 0 32
  let c ← rdN ctr 0 16
  wrN buf off (E k c)

/-- tools/rng.c:56-63 and 93-100: the loop over `V` from byte 15 down, `j` bytes left to visit. -/
def incrementLoop : Nat → Mem Byte → Option (Mem Byte)
  | 0, v => some v
  | j + 1, v => do
    let b ← rd v j
    if b = 0xff then
      let v ← wr v j 0x00
      incrementLoop j v
    else
      wr v j (b + 1)

/-- tools/rng.c:67-69 and 79-81: `a[i] ^= b[i]` for `i < 48`. -/
def xor48 (a b : Mem Byte) : Option (Mem Byte) :=
  forN 48 a (fun i a => do
    let x ← rd a i
    let y ← rd b i
    wr a i (x ^^^ y))

/-- tools/rng.c:50-72 `AES256_CTR_DRBG_Update`; no `provided` is the null pointer. -/
def update (E : Ecb) (provided : Option (Mem Byte)) (key v : Mem Byte) : Option (Mem Byte × Mem Byte) := do
  let (temp, v) ← forN 3 (malloc 48, v) (fun i s => do
    let v ← incrementLoop 16 s.2
    let temp ← aes256Ecb E key v s.1 (16 * i)
    pure (temp, v))
  let temp ← (match provided with
    | some d => xor48 temp d
    | none => some temp)
  let key ← wrN key 0 (← rdN temp 0 32)
  let v ← wrN v 0 (← rdN temp 32 16)
  pure (key, v)

/-- tools/rng.c:74-86 `randombytes_init`; `security_strength` is not used. -/
def randombytesInit (E : Ecb) (ctx : Ctx) (entropy : Mem Byte) (personalization : Option (Mem Byte)) :
    Option Ctx := do
  let seed ← wrN (malloc 48) 0 (← rdN entropy 0 48)
  let seed ← (match personalization with
    | some p => xor48 seed p
    | none => some seed)
  let key ← wrN ctx.key 0 (List.replicate 32 0x00)
  let v ← wrN ctx.v 0 (List.replicate 16 0x00)
  let (key, v) ← update E (some seed) key v
  pure ⟨key, v, 1⟩

/-- tools/rng.c:91-111: the loop.  The first argument is fuel.  `i` is an `int`: `i += 16` beyond `INT_MAX` is
undefined. -/
def randombytesLoop (E : Ecb) (key : Mem Byte) : Nat → Mem Byte → Mem Byte → Nat → Nat → Option (Mem Byte × Mem Byte)
  | 0, _, _, _, _ => none
  | fuel + 1, x, v, i, xlen =>
    if xlen > 0 then do
      let v ← incrementLoop 16 v
      let block ← aes256Ecb E key v (malloc 16) 0
      if xlen > 15 then do
        let x ← wrN x i (← rdN block 0 16)
        let i ← addInt i 16
        randombytesLoop E key fuel x v i.toNat (xlen - 16)
      else do
        let x ← wrN x i (← rdN block 0 xlen)
        randombytesLoop E key fuel x v i 0
    else some (x, v)

/-- tools/rng.c:88-116 `randombytes`: the value returned, the buffer and the state.  `reseed_counter++` at `INT_MAX` is
undefined. -/
def randombytes (E : Ecb) (ctx : Ctx) (x : Mem Byte) (xlen : Nat) : Option (Int × Mem Byte × Ctx) := do
  let (x, v) ← randombytesLoop E ctx.key (xlen + 1) x ctx.v 0 xlen
  let (key, v) ← update E none ctx.key v
  let reseed ← addInt ctx.reseed 1
  pure (0, x, ⟨key, v, reseed⟩)

/-- randomness.c:21-24 `rand_bytes` with `HAVE_RANDOMBYTES`. -/
def randBytes (E : Ecb) (ctx : Ctx) (dst : Mem Byte) (len : Nat) : Option (Int × Mem Byte × Ctx) := do
  let (_, dst, ctx) ← randombytes E ctx dst len
  pure (0, dst, ctx)

end Faest.Rng
