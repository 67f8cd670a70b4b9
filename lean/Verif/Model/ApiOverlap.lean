/-
crypto_sign and crypto_sign_open when message and signed message lie in the same memory object.
-/
import Verif.Model.Api

namespace Faest

/-- `memmove(buf + dst, buf + src, n)`: all bytes are read before the first is written. -/
def memmove (buf : Mem Byte) (dst src n : Nat) : Option (Mem Byte) := do
  let l ← rdN buf src n
  wrN buf dst l

/-- crypto_sign.c.in:23-30 `crypto_sign`, `sm` and `m` offsets in the object `buf`: return code, the object and
`*smlen`. -/
def cryptoSignIn (X : XOF) (i : ParamId) (rand : Rand) (buf : Mem Byte) (sm m mlen : Nat) (sk : Option (Mem Byte)) :
    Option (Int × Mem Byte × Nat) := do
  let smlen := mlen + (params i).sigSize
  let buf ← memmove buf sm m mlen
  let msgp ← ptr buf sm
  let sigp ← ptr buf (sm + mlen)
  let r ← sign X i rand sk msgp mlen (some sigp) (some (params i).sigSize)
  let sg ← r.signature
  pure (r.ret, buf.take (sm + mlen) ++ sg, smlen)

/-- crypto_sign.c.in:32-46 `crypto_sign_open`, `m` and `sm` offsets in the object `buf`: return code, the object
and `*mlen`. -/
def cryptoSignOpenIn (X : XOF) (i : ParamId) (buf : Mem Byte) (m mlen sm smlen : Nat) (pk : Option (Mem Byte)) :
    Option (Int × Mem Byte × Nat) :=
  if smlen < (params i).sigSize then some (-1, buf, mlen)
  else do
    let mLength := smlen - (params i).sigSize
    let smp ← ptr buf sm
    let sigp ← ptr buf (sm + mLength)
    let r ← verify X i pk smp mLength (some sigp) (params i).sigSize
    if r ≠ 0 then pure (-1, buf, mlen)
    else do
      let buf ← memmove buf m sm mLength
      pure (0, buf, mLength)

end Faest
