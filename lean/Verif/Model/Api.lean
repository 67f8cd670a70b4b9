/-
Public interface: faest_param.c.in, crypto_sign.c.in, compat.c.

A pointer argument is `Option (Mem Byte)`; `none` is NULL.
-/
import Verif.Model.Faest
import Verif.Model.Owf

namespace Faest

/-- Random source, randomness.c: call number `k` asking for `len` bytes returns the code of
`rand_bytes` and the bytes stored to the destination (in order from its start; a failing call
may store fewer than `len` bytes). -/
abbrev Rand := Nat → Nat → Int × List Byte

/-- faest_param.c.in:20-26: `PK_INPUT`, `PK_OUTPUT`, `SK_INPUT`, `SK_KEY`: offsets 0 and
`PK_SIZE / 2`. -/
def half (P : Params) : Nat := P.pkSize / 2

/-- faest_param.c.in:33-40: the loop of keygen, `k` counting the calls of `rand_bytes`. The
return value of `rand_bytes` is ignored. `none`: undefined behaviour, or fuel exhausted. -/
def keygenLoop (i : ParamId) (rand : Rand) : Nat → Nat → Mem Byte → Mem Byte →
    Option (Mem Byte × Mem Byte)
  | 0, _, _, _ => none
  | fuel + 1, k, pk, sk => do
    let sk ← wrN sk 0 ((rand k (params i).skSize).2.take (params i).skSize)
    let key ← ptr sk (half (params i))
    let (out, done) ← owf i key sk
    let pk ← wrN pk (half (params i)) out
    if done then pure (pk, sk) else keygenLoop i rand fuel (k + 1) pk sk

/-- faest_param.c.in:28-46 `faest_*_keygen`: return code and the buffers `pk`, `sk`. -/
def keygen (i : ParamId) (rand : Rand) (fuel : Nat) (pk sk : Option (Mem Byte)) :
    Option (Int × Option (Mem Byte) × Option (Mem Byte)) :=
  match pk, sk with
  | some pk, some sk => do
    let (pk, sk) ← keygenLoop i rand fuel 0 pk sk
    let inp ← rdN sk 0 (half (params i))
    let pk ← wrN pk 0 inp
    pure (0, some pk, some sk)
  | pk, sk => some (-1, pk, sk)

/-- A program reading bytes of two buffers (`false`: the first, `true`: the second). -/
inductive RdProg (α : Type) where
  | ret (a : α)
  | read (buf : Bool) (i : Nat) (k : Byte → RdProg α)

/-- Result and sequence of memory accesses of a program. -/
def RdProg.run {α : Type} (a b : Mem Byte) : RdProg α → Option (α × List (Bool × Nat))
  | .ret x => some (x, [])
  | .read buf i k => do
    let v ← rd (if buf then b else a) i
    let (x, t) ← (k v).run a b
    pure (x, (buf, i) :: t)

/-- compat.c:121-125: the loop, `len` bytes being left at `p1 = a + i`, `p2 = b + i`:
`res |= *p1 ^ *p2`. -/
def bcmpLoop : Nat → Nat → BitVec 32 → RdProg (BitVec 32)
  | 0, _, res => .ret res
  | len + 1, i, res =>
    .read false i fun x => .read true i fun y => bcmpLoop len (i + 1) (res ||| (x ^^^ y).zeroExtend 32)

/-- compat.c:113-126 `faest_timingsafe_bcmp` (portable version), with the sequence of accesses. -/
def timingsafeBcmpT (a b : Mem Byte) (len : Nat) : Option (Nat × List (Bool × Nat)) := do
  let (res, t) ← (bcmpLoop len 0 0).run a b
  pure (res.toNat, t)

/-- compat.c:113-126 `faest_timingsafe_bcmp`: the result. -/
def timingsafeBcmp (a b : Mem Byte) (len : Nat) : Option Nat := (timingsafeBcmpT a b len).map (·.1)

/-- faest_param.c.in:48-61 `faest_*_validate_keypair`. -/
def validateKeypair (i : ParamId) (pk sk : Option (Mem Byte)) : Option Int :=
  match pk, sk with
  | some pk, some sk => do
    let key ← ptr sk (half (params i))
    let (out, ok) ← owf i key sk
    if !ok then pure 1
    else do
      let chk ← wrN (malloc (params i).pkSize) (half (params i)) out
      let inp ← rdN sk 0 (half (params i))
      let chk ← wrN chk 0 inp
      let r ← timingsafeBcmp chk pk (params i).pkSize
      pure (if r = 0 then 0 else 2)
  | _, _ => some (-1)

/-- Result of the signing functions: return code, signature buffer, `*signature_len`. -/
structure SignResult where
  ret : Int
  signature : Option (Mem Byte)
  len : Option Nat

/-- faest_param.c.in:63-81 `faest_*_sign_with_randomness`. -/
def signWithRandomness (X : XOF) (i : ParamId) (sk : Option (Mem Byte)) (msg : Mem Byte) (msglen : Nat)
    (rho : Option (Mem Byte)) (rholen : Nat) (signature : Option (Mem Byte)) (len : Option Nat) :
    Option SignResult :=
  match sk, signature, len with
  | some sk, some sig, some n =>
    if n < (params i).sigSize ∨ (rho.isNone ∧ rholen ≠ 0) then
      some ⟨-1, some sig, some n⟩
    else do
      let key ← ptr sk (half (params i))
      let (out, ok) ← owf i key sk
      let out ← wrN (malloc (half (params i))) 0 out
      if !ok then pure ⟨-1, some sig, some n⟩
      else do
        let sig ← faestSign X (params i) sig msg msglen key sk out rho rholen
        pure ⟨0, some sig, some (params i).sigSize⟩
  | _, sg, n => some ⟨-1, sg, n⟩

/-- faest_param.c.in:83-92 `faest_*_sign`; the array `rho` is uninitialised before `rand_bytes`, whose
return value is ignored. -/
def sign (X : XOF) (i : ParamId) (rand : Rand) (sk : Option (Mem Byte)) (msg : Mem Byte) (msglen : Nat)
    (signature : Option (Mem Byte)) (len : Option Nat) : Option SignResult :=
  match sk, signature, len with
  | some sk, some sig, some n =>
    if n < (params i).sigSize then some ⟨-1, some sig, some n⟩
    else do
      let lb := (params i).lambda / 8
      let rho ← wrN (malloc lb) 0 ((rand 0 lb).2.take lb)
      signWithRandomness X i (some sk) msg msglen (some rho) lb (some sig) (some n)
  | _, sg, n => some ⟨-1, sg, n⟩

/-- faest_param.c.in:94-101 `faest_*_verify`. -/
def verify (X : XOF) (i : ParamId) (pk : Option (Mem Byte)) (msg : Mem Byte) (msglen : Nat)
    (signature : Option (Mem Byte)) (len : Nat) : Option Int :=
  match pk, signature with
  | some pk, some sig =>
    if len ≠ (params i).sigSize then some (-1)
    else do
      let out ← ptr pk (half (params i))
      faestVerify X (params i) msg msglen sig pk out
  | _, _ => some (-1)

/-- compat.c:134-143 `faest_explicit_bzero` (portable version): a loop writing zeros. -/
def explicitBzero (m : Mem Byte) (n : Nat) : Option (Mem Byte) := forN n m (fun i m => wr m i 0)

/-- faest_param.c.in:103-105 `faest_*_clear_private_key`. -/
def clearPrivateKey (i : ParamId) (key : Mem Byte) : Option (Mem Byte) :=
  explicitBzero key (params i).skSize

/-- crypto_sign.c.in:19-21 `crypto_sign_keypair`. -/
def cryptoSignKeypair (i : ParamId) (rand : Rand) (fuel : Nat) (pk sk : Option (Mem Byte)) :
    Option (Int × Option (Mem Byte) × Option (Mem Byte)) := keygen i rand fuel pk sk

/-- crypto_sign.c.in:23-30 `crypto_sign`: return code, buffer `sm` and `*smlen`.  The message is
moved to the front of `sm`, the signature is written behind it. -/
def cryptoSign (X : XOF) (i : ParamId) (rand : Rand) (sm : Mem Byte) (m : Mem Byte) (mlen : Nat)
    (sk : Option (Mem Byte)) : Option (Int × Mem Byte × Nat) := do
  let smlen := mlen + (params i).sigSize
  let msg ← rdN m 0 mlen
  let sm ← wrN sm 0 msg
  let sigp ← ptr sm mlen
  let r ← sign X i rand sk sm mlen (some sigp) (some (params i).sigSize)
  let sg ← r.signature
  pure (r.ret, sm.take mlen ++ sg, smlen)

/-- crypto_sign.c.in:32-46 `crypto_sign_open`: return code, buffer `m` and `*mlen` (the values
before the call if they are not written). -/
def cryptoSignOpen (X : XOF) (i : ParamId) (m : Mem Byte) (mlen : Nat) (sm : Mem Byte) (smlen : Nat)
    (pk : Option (Mem Byte)) : Option (Int × Mem Byte × Nat) :=
  if smlen < (params i).sigSize then some (-1, m, mlen)
  else do
    let mLength := smlen - (params i).sigSize
    let sigp ← ptr sm mLength
    let r ← verify X i pk sm mLength (some sigp) (params i).sigSize
    if r ≠ 0 then pure (-1, m, mlen)
    else do
      let msg ← rdN sm 0 mLength
      let m ← wrN m 0 msg
      pure (0, m, mLength)

end Faest
