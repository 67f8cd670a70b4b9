/-
AES, Rijndael, PRG and extended witness: aes.c.

`aes_round_keys_t` (aes.h:20-31: 15 round keys of 8 words of 4 bytes) is a flat buffer of
480 bytes, `aes_block_t` (8 words of 4 bytes) a flat buffer of 32 bytes.
-/
import Verif.Model.Fields
import Verif.Model.Params

namespace Faest

/-- bf8_mul on bytes (`bf8_t` is `uint8_t`). -/
def bf8Mul (a b : Byte) : Byte := (bfMul (n := 8) ⟨a⟩ ⟨b⟩).v

/-- aes.c:32-35 `round_constants` (identical to `Rcon`, faest_aes.c:74-77). -/
def roundConstants : List Byte :=
  [0x01, 0x02, 0x04, 0x08, 0x10, 0x20, 0x40, 0x80, 0x1b, 0x36, 0x6c, 0xd8, 0xab, 0x4d, 0x9a,
   0x2f, 0x5e, 0xbc, 0x63, 0xc6, 0x97, 0x35, 0x6a, 0xd4, 0xb3, 0x7d, 0xfa, 0xef, 0xc5, 0x91]

/-- compat.h:208-213 `parity8` (the portable variant): xor of the eight bits. -/
def parity8 (n : Byte) : Byte :=
  let n := n ^^^ (n >>> 4)
  let n := n ^^^ (n >>> 2)
  let n := n ^^^ (n >>> 1)
  if (~~~ n) &&& 1 = 0 then 1 else 0

/-- aes.c:37-39 `contains_zero(block)`, `block` pointing to `m + off`. -/
def containsZero (m : Mem Byte) (off : Nat) : Option Bool := do
  let b0 ← rd m off
  let b1 ← rd m (off + 1)
  let b2 ← rd m (off + 2)
  let b3 ← rd m (off + 3)
  pure (b0 == 0 || b1 == 0 || b2 == 0 || b3 == 0)

/-- aes.c:41-60 `compute_sbox`. -/
def computeSbox (x : Byte) : Byte :=
  let t := (bf8Inv ⟨x⟩).v
  let t0 := parity8 (t &&& (1 ||| (1 <<< 4) ||| (1 <<< 5) ||| (1 <<< 6) ||| (1 <<< 7))) <<< 0
  let t0 := t0 ^^^ (parity8 (t &&& (1 ||| (1 <<< 1) ||| (1 <<< 5) ||| (1 <<< 6) ||| (1 <<< 7))) <<< 1)
  let t0 := t0 ^^^ (parity8 (t &&& (1 ||| (1 <<< 1) ||| (1 <<< 2) ||| (1 <<< 6) ||| (1 <<< 7))) <<< 2)
  let t0 := t0 ^^^ (parity8 (t &&& (1 ||| (1 <<< 1) ||| (1 <<< 2) ||| (1 <<< 3) ||| (1 <<< 7))) <<< 3)
  let t0 := t0 ^^^ (parity8 (t &&& (1 ||| (1 <<< 1) ||| (1 <<< 2) ||| (1 <<< 3) ||| (1 <<< 4))) <<< 4)
  let t0 := t0 ^^^ (parity8 (t &&& ((1 <<< 1) ||| (1 <<< 2) ||| (1 <<< 3) ||| (1 <<< 4) ||| (1 <<< 5))) <<< 5)
  let t0 := t0 ^^^ (parity8 (t &&& ((1 <<< 2) ||| (1 <<< 3) ||| (1 <<< 4) ||| (1 <<< 5) ||| (1 <<< 6))) <<< 6)
  let t0 := t0 ^^^ (parity8 (t &&& ((1 <<< 3) ||| (1 <<< 4) ||| (1 <<< 5) ||| (1 <<< 6) ||| (1 <<< 7))) <<< 7)
  t0 ^^^ (1 ||| (1 <<< 1) ||| (1 <<< 5) ||| (1 <<< 6))

/-- aes.c:62-71 `aes_increment_iv`: the loop from byte 15 down, `i` bytes left to visit. -/
def aesIncrementIvLoop : Nat → Mem Byte → Option (Mem Byte)
  | 0, iv => some iv
  | i + 1, iv => do
    let b ← rd iv i
    if b = 0xff then
      let iv ← wr iv i 0x00
      aesIncrementIvLoop i iv
    else
      wr iv i (b + 0x01)

/-- aes.c:62-71. -/
def aesIncrementIv (iv : Mem Byte) : Option (Mem Byte) := aesIncrementIvLoop 16 iv

/-- Position of `round_keys[a][b][r]` in the flat buffer. -/
def rkIdx (a b r : Nat) : Nat := (a * 8 + b) * 4 + r
/-- Number of bytes of `aes_round_keys_t`. -/
def rkSize : Nat := 15 * 8 * 4
/-- Position of `state[c][r]`. -/
def stIdx (c r : Nat) : Nat := c * 4 + r
/-- Number of bytes of `aes_block_t`. -/
def stSize : Nat := 8 * 4

/-- aes.c:75-80 `add_round_key`. -/
def addRoundKey (round : Nat) (state rk : Mem Byte) (bw : Nat) : Option (Mem Byte) :=
  forN bw state (fun c state =>
    forN 4 state (fun r state => do
      let a ← rd state (stIdx c r)
      let b ← rd rk (rkIdx round c r)
      wr state (stIdx c r) (a ^^^ b)))

/-- aes.c:82-93 `sub_bytes`; the flag is the returned `ret`. -/
def subBytes (state : Mem Byte) (bw : Nat) : Option (Mem Byte × Bool) :=
  forN bw (state, false) (fun c s => do
    let z ← containsZero s.1 (stIdx c 0)
    let st ← forN 4 s.1 (fun r state => do
      let a ← rd state (stIdx c r)
      wr state (stIdx c r) (computeSbox a))
    pure (st, s.2 || z))

/-- aes.c:95-120 `shift_row`. For other values of `block_words` the C code copies an
uninitialised block; the model is undefined then (reads of `malloc` cells). -/
def shiftRow (state : Mem Byte) (bw : Nat) : Option (Mem Byte) := do
  let new ←
    if bw = 4 ∨ bw = 6 then
      forN bw (malloc stSize) (fun i new => do
        let new ← wr new (stIdx i 0) (← rd state (stIdx i 0))
        let new ← wr new (stIdx i 1) (← rd state (stIdx ((i + 1) % bw) 1))
        let new ← wr new (stIdx i 2) (← rd state (stIdx ((i + 2) % bw) 2))
        wr new (stIdx i 3) (← rd state (stIdx ((i + 3) % bw) 3)))
    else if bw = 8 then
      forN bw (malloc stSize) (fun i new => do
        let new ← wr new (stIdx i 0) (← rd state (stIdx i 0))
        let new ← wr new (stIdx i 1) (← rd state (stIdx ((i + 1) % 8) 1))
        let new ← wr new (stIdx i 2) (← rd state (stIdx ((i + 3) % 8) 2))
        wr new (stIdx i 3) (← rd state (stIdx ((i + 4) % 8) 3)))
    else some (malloc stSize)
  forN bw state (fun i state => do
    let w ← rdN new (stIdx i 0) 4
    wrN state (stIdx i 0) w)

/-- aes.c:122-137 `mix_column`. -/
def mixColumn (state : Mem Byte) (bw : Nat) : Option (Mem Byte) :=
  forN bw state (fun c state => do
    let s0 ← rd state (stIdx c 0)
    let s1 ← rd state (stIdx c 1)
    let s2 ← rd state (stIdx c 2)
    let s3 ← rd state (stIdx c 3)
    let tmp := bf8Mul s0 0x02 ^^^ bf8Mul s1 0x03 ^^^ s2 ^^^ s3
    let tmp1 := s0 ^^^ bf8Mul s1 0x02 ^^^ bf8Mul s2 0x03 ^^^ s3
    let tmp2 := s0 ^^^ s1 ^^^ bf8Mul s2 0x02 ^^^ bf8Mul s3 0x03
    let tmp3 := bf8Mul s0 0x03 ^^^ s1 ^^^ s2 ^^^ bf8Mul s3 0x02
    let state ← wr state (stIdx c 0) tmp
    let state ← wr state (stIdx c 1) tmp1
    let state ← wr state (stIdx c 2) tmp2
    wr state (stIdx c 3) tmp3)

/-- aes.c:140-145 `sub_words` on a four-byte word. -/
def subWords (w : Mem Byte) : Option (Mem Byte) := do
  let w ← wr w 0 (computeSbox (← rd w 0))
  let w ← wr w 1 (computeSbox (← rd w 1))
  let w ← wr w 2 (computeSbox (← rd w 2))
  wr w 3 (computeSbox (← rd w 3))

/-- aes.c:147-153 `rot_word`. -/
def rotWord (w : Mem Byte) : Option (Mem Byte) := do
  let tmp ← rd w 0
  let w ← wr w 0 (← rd w 1)
  let w ← wr w 1 (← rd w 2)
  let w ← wr w 2 (← rd w 3)
  wr w 3 tmp

/-- aes.c:166-191: one iteration `k` of the second loop of `expand_key`. -/
def expandKeyStep (kw bw : Nat) (k : Nat) (s : Mem Byte × Bool) : Option (Mem Byte × Bool) := do
  let rk := s.1
  let tmp := ofList (← rdN rk (rkIdx ((k - 1) / bw) ((k - 1) % bw) 0) 4)
  let (tmp, z1) ←
    if k % kw = 0 then do
      let tmp ← rotWord tmp
      let z ← containsZero tmp 0
      let tmp ← subWords tmp
      let rc ← roundConstants[(k / kw) - 1]?
      let tmp ← wr tmp 0 ((← rd tmp 0) ^^^ rc)
      pure (tmp, z)
    else pure (tmp, false)
  let (tmp, z2) ←
    if kw > 6 ∧ k % kw = 4 then do
      let z ← containsZero tmp 0
      let tmp ← subWords tmp
      pure (tmp, z)
    else pure (tmp, false)
  let m := k - kw
  let rk ← forN 4 rk (fun r rk => do
    let a ← rd rk (rkIdx (m / bw) (m % bw) r)
    let b ← rd tmp r
    wr rk (rkIdx (k / bw) (k % bw) r) (a ^^^ b))
  pure (rk, s.2 || z1 || z2)

/-- aes.c:155-194 `expand_key`, reading the key at `key[0 ..]`; returns the round keys and
the zero flag. -/
def expandKey (key : Mem Byte) (kw bw rounds : Nat) : Option (Mem Byte × Bool) := do
  let rk ← forN kw (malloc rkSize) (fun k rk =>
    forN 4 rk (fun r rk => do
      let b ← rd key (4 * k + r)
      wr rk (rkIdx (k / bw) (k % bw) r) b))
  forR kw (bw * (rounds + 1)) (rk, false) (expandKeyStep kw bw)

/-- aes.c:218-222 `load_state` from `src + off`. -/
def loadState (src : Mem Byte) (off bw : Nat) : Option (Mem Byte) :=
  forN (bw * 4) (malloc stSize) (fun i st => do
    let b ← rd src (off + i)
    wr st (stIdx (i / 4) (i % 4)) b)

/-- aes.c:224-228 `store_state`: the bytes written to the destination. -/
def storeState (state : Mem Byte) (bw : Nat) : Option (List Byte) :=
  tabM (bw * 4) (fun i => rd state (stIdx (i / 4) (i % 4)))

/-- aes.c:238-243: one inner round. -/
def aesRound (rk : Mem Byte) (bw : Nat) (round : Nat) (s : Mem Byte × Bool) :
    Option (Mem Byte × Bool) := do
  let (st, z) ← subBytes s.1 bw
  let st ← shiftRow st bw
  let st ← mixColumn st bw
  let st ← addRoundKey round st rk bw
  pure (st, s.2 || z)

/-- aes.c:230-250 `aes_encrypt`; returns the state and the zero flag. -/
def aesEncrypt (rk : Mem Byte) (state : Mem Byte) (bw rounds : Nat) : Option (Mem Byte × Bool) := do
  let st ← addRoundKey 0 state rk bw
  let s ← forR 1 rounds (st, false) (aesRound rk bw)
  let (st, z) ← subBytes s.1 bw
  let st ← shiftRow st bw
  let st ← addRoundKey rounds st rk bw
  pure (st, s.2 || z)

/-- aes.c:252-295 `aes128/192/256_encrypt_block`, `rijndael192/256_encrypt_block`: plaintext at
`src + off`. -/
def encryptBlock (rk : Mem Byte) (src : Mem Byte) (off bw rounds : Nat) :
    Option (List Byte × Bool) := do
  let st ← loadState src off bw
  let (st, z) ← aesEncrypt rk st bw rounds
  let out ← storeState st bw
  pure (out, z)

/-- aes.c:20-30: number of rounds and key words by security level. -/
def aesRounds (lambda : Nat) : Nat := if lambda = 256 then 14 else if lambda = 192 then 12 else 10
def aesKeyWords (lambda : Nat) : Nat := if lambda = 256 then 8 else if lambda = 192 then 6 else 4

/-- aes.c:297-359 `prg` (the variant without OpenSSL; `switch` with default 128): `outlen`
bytes of counter mode.  The loop runs `outlen / 16` times, then a truncated block. -/
def prg (key iv : Mem Byte) (seclvl outlen : Nat) : Option (List Byte) := do
  let ivl ← rdN iv 0 16
  let (rk, _) ← expandKey key (aesKeyWords seclvl) 4 (aesRounds seclvl)
  let (out, iiv) ← forN (outlen / 16) (([] : List Byte), ofList ivl) (fun _ s => do
    let (blk, _) ← encryptBlock rk s.2 0 4 (aesRounds seclvl)
    let iiv ← aesIncrementIv s.2
    pure (s.1 ++ blk, iiv))
  if outlen % 16 ≠ 0 then do
    let (blk, _) ← encryptBlock rk iiv 0 4 (aesRounds seclvl)
    let tail ← rdN (ofList blk) 0 (outlen % 16)
    pure (out ++ tail)
  else pure out

/-- aes.c:403-422: block words and beta by parameter id. -/
def witnessShape (P : Params) : Nat × Nat :=
  match P.id with
  | some .p192F | some .p192S | some .p256F | some .p256S => (4, 2)
  | some .pEM192F | some .pEM192S => (6, 1)
  | some .pEM256F | some .pEM256S => (8, 1)
  | _ => (4, 1)

/-- aes.c:482-494: one round of the witness loop; state, witness buffer and write position. -/
def witnessRound (rk : Mem Byte) (bw : Nat) (round : Nat) (s : Mem Byte × Mem Byte × Nat) :
    Option (Mem Byte × Mem Byte × Nat) := do
  let (st, _) ← subBytes s.1 bw
  let st ← shiftRow st bw
  let o ← storeState st bw
  let w ← wrN s.2.1 s.2.2 o
  let st ← mixColumn st bw
  let st ← addRoundKey round st rk bw
  pure (st, w, s.2.2 + 4 * bw)

/-- aes.c:431-451: the key schedule of the witness. -/
def witnessSchedule (P : Params) (bw : Nat) (key : Mem Byte) : Option (Mem Byte × Bool) :=
  if P.lambda = 256 then
    (if bw = 8 then expandKey key 8 8 14 else expandKey key 8 4 14)
  else if P.lambda = 192 then
    (if bw = 6 then expandKey key 6 6 12 else expandKey key 6 4 12)
  else expandKey key 4 4 10

/-- aes.c:453-471: the part of the witness before the states: the key and the words of the key schedule
which use S-boxes (AES), the secret key (EM). Returns the buffer and the write position. -/
def witnessKey (P : Params) (rk inp w : Mem Byte) : Option (Mem Byte × Nat) :=
  if P.Lke > 0 then do
    let (w, pos) ← forN P.Nwd (w, 0) (fun i (s : Mem Byte × Nat) => do
      let wd ← rdN rk (rkIdx (i / 4) (i % 4) 0) 4
      let w ← wrN s.1 s.2 wd
      pure (w, s.2 + 4))
    let (w, pos, _) ← forN (P.Ske / 4) (w, pos, P.Nwd) (fun _ (s : Mem Byte × Nat × Nat) => do
      let ik := s.2.2
      let wd ← rdN rk (rkIdx (ik / 4) (ik % 4) 0) 4
      let w ← wrN s.1 s.2.1 wd
      pure (w, s.2.1 + 4, ik + (if P.lambda = 192 then 6 else 4)))
    pure (w, pos)
  else do
    let wd ← rdN inp 0 (P.lambda / 8)
    let w ← wrN w 0 wd
    pure (w, P.lambda / 8)

/-- aes.c:473-495: the states of block `b`. -/
def witnessBlock (P : Params) (bw : Nat) (rk inp : Mem Byte) (b : Nat) (s : Mem Byte × Nat) :
    Option (Mem Byte × Nat) := do
  let st ← loadState inp (4 * bw * b) bw
  let st ← addRoundKey 0 st rk bw
  let (_, w, pos) ← forR 1 P.R (st, s.1, s.2) (witnessRound rk bw)
  pure (w, pos)

/-- aes.c:393-498 `aes_extend_witness`. For the EM variants input and key are switched (424-429). -/
def aesExtendWitness (key inp : Mem Byte) (P : Params) : Option (Mem Byte) := do
  let key' := if P.Lke = 0 then inp else key
  let inp' := if P.Lke = 0 then key else inp
  let (rk, _) ← witnessSchedule P (witnessShape P).1 key'
  let (w, pos) ← witnessKey P rk inp' (malloc ((P.l + 7) / 8))
  let (w, _) ← forN (witnessShape P).2 (w, pos) (witnessBlock P (witnessShape P).1 rk inp')
  pure w

end Faest
