/-
The test program of the interface: tests/api_test.c.  What is printed, and the marks for valgrind, are left out.  Each call has its own
source of randomness.
-/
import Verif.Model.ApiOverlap

namespace Faest.ApiTest

/-- tests/api_test.c:69-98: the part where message and signed message are in the same buffer. -/
def inPlace (X : XOF) (i : ParamId) (rand : Rand) (pk sk message sm : Mem Byte) : Option Int := do
  let l ← rdN message 0 32
  let sm ← wrN sm 0 l
  let (ret, sm, smlen) ← cryptoSignIn X i rand sm 0 0 32 (some sk)
  if ret ≠ 0 then pure (-1) else do
  let mlen := smlen
  let (ret, sm, mlen) ← cryptoSignOpenIn X i sm 0 mlen 0 smlen (some pk)
  if ret ≠ 0 then pure (-1) else do
  if mlen ≠ 32 then pure (-1) else do
  let a ← rdN message 0 32
  let b ← rdN sm 0 32
  if a ≠ b then pure (-1) else pure 0

/-- tests/api_test.c:24-99 `main`: the value returned. -/
def main (X : XOF) (i : ParamId) (rand1 rand2 rand3 : Rand) (fuel : Nat) : Option Int := do
  let pk := calloc (params i).pkSize (0 : Byte)
  let sk := calloc (params i).skSize (0 : Byte)
  let message := calloc 32 (0 : Byte)
  let omessage := calloc 32 (0 : Byte)
  let sm := calloc (32 + (params i).sigSize) (0 : Byte)
  let (ret, pk, sk) ← cryptoSignKeypair i rand1 fuel (some pk) (some sk)
  if ret ≠ 0 then pure (-1) else do
  let pk ← pk
  let sk ← sk
  let (ret, sm, smlen) ← cryptoSign X i rand2 sm message 32 (some sk)
  if ret ≠ 0 then pure (-1) else do
  let mlen := 32
  let (ret, omessage, mlen) ← cryptoSignOpen X i omessage mlen sm smlen (some pk)
  if ret ≠ 0 then pure (-1) else do
  if mlen ≠ 32 then pure (-1) else do
  let a ← rdN message 0 32
  let b ← rdN omessage 0 32
  if a ≠ b then pure (-1) else do
  inPlace X i rand3 pk sk message sm

end Faest.ApiTest
