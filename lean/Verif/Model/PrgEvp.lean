/-
`prg` of aes.c:297-391 in the variant that uses OpenSSL.
-/
import Verif.Model.Basic

namespace Faest.Evp

/-- The stream ciphers behind `EVP_aes_128_ctr` (128), `EVP_aes_192_ctr` (192), `EVP_aes_256_ctr` (256): byte `pos` of
the key stream for a key of `sel / 8` bytes and an iv of 16 bytes.  OpenSSL is a parameter. -/
abbrev KeyStream := Nat → List Byte → List Byte → Nat → Byte

/-- `EVP_CIPHER_CTX` of a stream cipher: cipher, key, iv and number of bytes encrypted so far. -/
structure Ctx where
  sel : Nat
  key : List Byte
  iv : List Byte
  pos : Nat

/-- `EVP_EncryptInit_ex(ctx, cipher, NULL, key, iv)`. -/
def encryptInit (sel : Nat) (key iv : Mem Byte) : Option Ctx := do
  pure ⟨sel, ← rdN key 0 (sel / 8), ← rdN iv 0 16, 0⟩

/-- `EVP_EncryptUpdate(ctx, out + off, &len, plaintext, n)`. -/
def encryptUpdate (S : KeyStream) (ctx : Ctx) (out : Mem Byte) (off : Nat) (plaintext : Mem Byte) (n : Nat) :
    Option (Mem Byte × Ctx) := do
  let p ← rdN plaintext 0 n
  let out ← wrN out off (p.mapIdx fun t b => b ^^^ S ctx.sel ctx.key ctx.iv (ctx.pos + t))
  pure (out, { ctx with pos := ctx.pos + n })

/-- aes.c:361-391; `EVP_EncryptFinal_ex` writes nothing for a stream cipher.  The `assert` on the context and the
release of the context are not modelled. -/
def prgEvp (S : KeyStream) (key iv out : Mem Byte) (seclvl outlen : Nat) : Option (Mem Byte) := do
  let sel := if seclvl = 256 then 256 else if seclvl = 192 then 192 else 128
  let ctx ← encryptInit sel key iv
  let plaintext : Mem Byte := calloc 16 0
  let s ← forN (outlen / 16) (out, ctx) (fun idx s => encryptUpdate S s.2 s.1 (16 * idx) plaintext 16)
  if outlen % 16 ≠ 0 then do
    let r ← encryptUpdate S s.2 s.1 (16 * (outlen / 16)) plaintext (outlen % 16)
    pure r.1
  else pure s.1

end Faest.Evp
