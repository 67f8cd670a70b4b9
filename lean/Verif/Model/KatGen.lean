/-
The program making the test vectors: tools/PQCgenKAT_sign.c, over tools/rng.c and crypto_sign.c.in.

A file is the list of its characters: the characters written so far, or those not read yet.  Opening a file succeeds.
Of stdio.h: `%d`, `%llu` and `%02X` are written as in the standard, and `%d`, `%llu` read after white space a number without sign.
Memory is freed implicitly.  Lengths of messages are below `2^31` (`(int)mlen`).  Arrays of characters for names of files are left out.
-/
import Verif.Model.Api
import Verif.Model.Rng

namespace Faest.KatGen
open Rng (Ecb Ctx)

abbrev Text := List Char

/-! ### Formatted output and input -/

/-- A digit of `%X`. -/
def hexDigit (d : Nat) : Char :=
  ['0', '1', '2', '3', '4', '5', '6', '7', '8', '9', 'A', 'B', 'C', 'D', 'E', 'F'].getD d '0'

/-- `%02X` of a byte. -/
def hex2 (b : Byte) : Text := [hexDigit (b.toNat / 16), hexDigit (b.toNat % 16)]

/-- `%d` and `%llu` of a number which is not negative. -/
def dec (n : Nat) : Text := if n < 10 then [hexDigit n] else dec (n / 10) ++ [hexDigit (n % 10)]
decreasing_by omega

/-- `isdigit`. -/
def isDigit (c : Char) : Bool := '0'.toNat ≤ c.toNat && c.toNat ≤ '9'.toNat

/-- `isspace` in the locale "C". -/
def isSpace (c : Char) : Bool := c = ' ' || (9 ≤ c.toNat && c.toNat ≤ 13)

/-- `fscanf` with `%d` or `%llu` for values up to `max`: the number and what is left to read.  `none`: no digit is found, or the
number is too large. -/
def scanDec (max : Nat) (s : Text) : Option (Nat × Text) :=
  let t := s.dropWhile isSpace
  let ds := t.takeWhile isDigit
  let n := ds.foldl (fun a c => 10 * a + (c.toNat - '0'.toNat)) 0
  if ds = [] ∨ max < n then none else some (n, t.dropWhile isDigit)

/-! ### The functions of tools/PQCgenKAT_sign.c -/

/-- tools/PQCgenKAT_sign.c:196-208: the loop, `line` being the `len` characters in front of the 0 byte. -/
def findLoop (marker : Text) : Text → Text → Bool × Text
  | [], line => if line = marker then (true, []) else (false, [])
  | c :: s, line => if line = marker then (true, c :: s) else findLoop marker s (line.drop 1 ++ [c])

/-- tools/PQCgenKAT_sign.c:179-211 `FindMarker`: the value returned and what is left to read.  Only the first 49 characters of
the marker count.  (Lines 188-193 read so many characters; a file with less of them is read to its end.) -/
def findMarker (s marker : Text) : Bool × Text :=
  let len := if marker.length > 50 - 1 then 50 - 1 else marker.length
  if s.length < len then (false, [])
  else findLoop (marker.take len) (s.drop len) (s.take len)

/-- `isxdigit`. -/
def isXdigit (c : Char) : Bool :=
  isDigit c || ('A'.toNat ≤ c.toNat && c.toNat ≤ 'F'.toNat) || ('a'.toNat ≤ c.toNat && c.toNat ≤ 'f'.toNat)

/-- tools/PQCgenKAT_sign.c:238-245: the variable `ich`. -/
def ich (c : Char) : Byte :=
  if '0'.toNat ≤ c.toNat ∧ c.toNat ≤ '9'.toNat then BitVec.ofNat 8 (c.toNat - '0'.toNat)
  else if 'A'.toNat ≤ c.toNat ∧ c.toNat ≤ 'F'.toNat then BitVec.ofNat 8 (c.toNat - 'A'.toNat + 10)
  else if 'a'.toNat ≤ c.toNat ∧ c.toNat ≤ 'f'.toNat then BitVec.ofNat 8 (c.toNat - 'a'.toNat + 10)
  else 0

/-- tools/PQCgenKAT_sign.c:247-249: a digit is shifted into `A`. -/
def shiftIn (A : Mem Byte) (length : Nat) (d : Byte) : Option (Mem Byte) := do
  let A ← forN (length - 1) A (fun i A => do
    let a ← rd A i
    let b ← rd A (i + 1)
    wr A i (a <<< 4 ||| b >>> 4))
  let a ← rd A (length - 1)
  wr A (length - 1) (a <<< 4 ||| d)

/-- tools/PQCgenKAT_sign.c:227-250: the loop. -/
def hexLoop (length : Nat) : Text → Bool → Mem Byte → Option (Mem Byte × Text)
  | [], _, A => some (A, [])
  | c :: s, started, A =>
    if isXdigit c then do
      let A ← shiftIn A length (ich c)
      hexLoop length s true A
    else if started then some (A, s)
    else if c = '\n' then some (A, s)
    else hexLoop length s false A

/-- tools/PQCgenKAT_sign.c:216-255 `ReadHex`: the value returned, the buffer and what is left to read. -/
def readHex (s : Text) (A : Mem Byte) (length : Nat) (str : Text) : Option (Bool × Mem Byte × Text) :=
  if length = 0 then do
    let A ← wr A 0 0x00
    pure (true, A, s)
  else do
    let A ← wrN A 0 (List.replicate length 0x00)
    let r := findMarker s str
    if r.1 then do
      let (A, s) ← hexLoop length r.2 false A
      pure (true, A, s)
    else pure (false, A, r.2)

/-- tools/PQCgenKAT_sign.c:257-269 `fprintBstr`: the characters written. -/
def fprintBstr (S : Text) (A : Mem Byte) (L : Nat) : Option Text := do
  let l ← rdN A 0 L
  pure (S ++ l.flatMap hex2 ++ (if L = 0 then ['0', '0'] else []) ++ ['\n'])

/-! ### The functions of crypto_sign.c.in with the generator of tools/rng.c -/

/-- faest_param.c.in:33-40: the loop of `faest_*_keygen`, with `rand_bytes` of tools/rng.c. -/
def keypairLoop (E : Ecb) (i : ParamId) : Nat → Ctx → Mem Byte → Mem Byte → Option (Mem Byte × Mem Byte × Ctx)
  | 0, _, _, _ => none
  | fuel + 1, ctx, pk, sk => do
    let (_, sk, ctx) ← Rng.randBytes E ctx sk (params i).skSize
    let key ← ptr sk (half (params i))
    let (out, done) ← owf i key sk
    let pk ← wrN pk (half (params i)) out
    if done then pure (pk, sk, ctx) else keypairLoop E i fuel ctx pk sk

/-- crypto_sign.c.in:19-21 `crypto_sign_keypair`, faest_param.c.in:28-46. -/
def keypair (E : Ecb) (i : ParamId) (fuel : Nat) (ctx : Ctx) (pk sk : Mem Byte) : Option (Int × Mem Byte × Mem Byte × Ctx) := do
  let (pk, sk, ctx) ← keypairLoop E i fuel ctx pk sk
  let inp ← rdN sk 0 (half (params i))
  let pk ← wrN pk 0 inp
  pure (0, pk, sk, ctx)

/-- crypto_sign.c.in:23-30 `crypto_sign`; the call of `rand_bytes` (faest_param.c.in:90) is written in front of the rest. -/
def csign (E : Ecb) (X : XOF) (i : ParamId) (ctx : Ctx) (sm m : Mem Byte) (mlen : Nat) (sk : Mem Byte) :
    Option (Int × Mem Byte × Nat × Ctx) := do
  let lb := (params i).lambda / 8
  let (r, rho, ctx) ← Rng.randBytes E ctx (malloc lb) lb
  let bs ← rdN rho 0 lb
  let (r, sm, smlen) ← cryptoSign X i (fun _ _ => (r, bs)) sm m mlen (some sk)
  pure (r, sm, smlen, ctx)

/-! ### The program -/

def tCount : Text := ['c', 'o', 'u', 'n', 't', ' ', '=', ' ']
def tSeed : Text := ['s', 'e', 'e', 'd', ' ', '=', ' ']
def tMlen : Text := ['m', 'l', 'e', 'n', ' ', '=', ' ']
def tMsg : Text := ['m', 's', 'g', ' ', '=', ' ']
def tPk : Text := ['p', 'k', ' ', '=', ' ']
def tSk : Text := ['s', 'k', ' ', '=', ' ']
def tSmlen : Text := ['s', 'm', 'l', 'e', 'n', ' ', '=', ' ']
def tSm : Text := ['s', 'm', ' ', '=', ' ']
/-- tools/PQCgenKAT_sign.c:83-86. -/
def tEmpty : Text := ['p', 'k', ' ', '=', '\n', 's', 'k', ' ', '=', '\n', 's', 'm', 'l', 'e', 'n', ' ', '=', '\n',
  's', 'm', ' ', '=', '\n', '\n']

/-- tools/PQCgenKAT_sign.c:75-87: one pass through the loop; the state of the generator, the arrays `seed` and `msg`, and the file. -/
def reqPass (E : Ecb) (i : Nat) (st : Ctx × Mem Byte × Mem Byte × Text) : Option (Ctx × Mem Byte × Mem Byte × Text) := do
  let (ctx, seed, msg, req) := st
  let req := req ++ (tCount ++ dec i ++ ['\n'])
  let (_, seed, ctx) ← Rng.randombytes E ctx seed 48
  let t ← fprintBstr tSeed seed 48
  let req := req ++ t
  let mlen := 33 * (i + 1)
  let req := req ++ (tMlen ++ dec mlen ++ ['\n'])
  let (_, msg, ctx) ← Rng.randombytes E ctx msg mlen
  let t ← fprintBstr tMsg msg mlen
  let req := req ++ t
  let req := req ++ tEmpty
  pure (ctx, seed, msg, req)

/-- tools/PQCgenKAT_sign.c:71-88: the request file. -/
def request (E : Ecb) : Option (Ctx × Mem Byte × Text) := do
  let entropy_input ← forN 48 (malloc 48) (fun i e => wr e i (BitVec.ofNat 8 i))
  let ctx ← Rng.randombytesInit E Rng.start entropy_input none
  let (ctx, seed, _, req) ← forN 100 (ctx, malloc 48, malloc 3300, []) (reqPass E)
  pure (ctx, seed, req)

/-- tools/PQCgenKAT_sign.c:98-168: the loop; the value returned by the program and the response file.  The first argument is fuel for
the loop, `kf` for the loop of key generation. -/
def response (E : Ecb) (X : XOF) (i : ParamId) (kf : Nat) : Nat → Text → Text → Ctx → Mem Byte → Mem Byte → Mem Byte →
    Option (Int × Text)
  | 0, _, _, _, _, _, _ => none
  | fuel + 1, req, rsp, ctx, seed, pk, sk =>
    let r := findMarker req tCount
    if r.1 then do
      let (count, req) ← scanDec 2147483647 r.2
      let rsp := rsp ++ (tCount ++ dec count ++ ['\n'])
      let (ok, seed, req) ← readHex req seed 48 tSeed
      if ok then do
        let t ← fprintBstr tSeed seed 48
        let rsp := rsp ++ t
        let ctx ← Rng.randombytesInit E ctx seed none
        let r := findMarker req tMlen
        if r.1 then do
          let (mlen, req) ← scanDec 18446744073709551615 r.2
          let rsp := rsp ++ (tMlen ++ dec mlen ++ ['\n'])
          let m := calloc mlen (0 : Byte)
          let m1 := calloc (mlen + (params i).sigSize) (0 : Byte)
          let sm := calloc (mlen + (params i).sigSize) (0 : Byte)
          let (ok, m, req) ← readHex req m mlen tMsg
          if ok then do
            let t ← fprintBstr tMsg m mlen
            let rsp := rsp ++ t
            let (ret, pk, sk, ctx) ← keypair E i kf ctx pk sk
            if ret ≠ 0 then pure (-4, rsp) else do
            let t ← fprintBstr tPk pk (params i).pkSize
            let rsp := rsp ++ t
            let t ← fprintBstr tSk sk (params i).skSize
            let rsp := rsp ++ t
            let (ret, sm, smlen, ctx) ← csign E X i ctx sm m mlen sk
            if ret ≠ 0 then pure (-4, rsp) else do
            let rsp := rsp ++ (tSmlen ++ dec smlen ++ ['\n'])
            let t ← fprintBstr tSm sm smlen
            let rsp := rsp ++ t
            let rsp := rsp ++ ['\n']
            let (ret, m1, mlen1) ← cryptoSignOpen X i m1 0 sm smlen (some pk)
            if ret ≠ 0 then pure (-4, rsp) else do
            if mlen ≠ mlen1 then pure (-4, rsp) else do
            let a ← rdN m 0 mlen
            let b ← rdN m1 0 mlen
            if a ≠ b then pure (-4, rsp)
            else response E X i kf fuel req rsp ctx seed pk sk
          else pure (-3, rsp)
        else pure (-3, rsp)
      else pure (-3, rsp)
    else pure (0, rsp)

/-- tools/PQCgenKAT_sign.c:46-174 `main`: the value returned and the two files.  `name` is `CRYPTO_ALGNAME`. -/
def main (E : Ecb) (X : XOF) (i : ParamId) (name : Text) (kf fuel : Nat) : Option (Int × Text × Text) := do
  let (ctx, seed, req) ← request E
  let rsp := ['#', ' '] ++ name ++ ['\n', '\n']
  let (ret, rsp) ← response E X i kf fuel req rsp ctx seed (malloc (params i).pkSize) (malloc (params i).skSize)
  pure (ret, req, rsp)

end Faest.KatGen
