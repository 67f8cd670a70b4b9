/-
random_oracle.c and the hashing functions of faest.c, as sequences of calls of the hash interface of
Model/Shake.lean: contexts with their sponge state, input pointers with lengths, output buffers.

Model/Oracle.lean has the same functions with an ideal extendable output function and contexts which are
lists of bytes; Props/C43.lean proves that the functions below compute those.
-/
import Verif.Model.Shake
import Verif.Model.Params

namespace Faest.Keccak

/-- random_oracle.c:17-19, 54-56, 70-72, 86-88 `H0_init`, `H1_init`, `H2_init`, `H3_init`. -/
def roInit (ctx : HashInstance) (securityParam : Nat) : Option HashInstance :=
  hashInit ctx (if securityParam = 128 then 128 else 256)

/-- random_oracle.c:21-23, 58-60, 74-76, 90-92 `H0_update` … `H3_update`. -/
def roUpdate (w : Nat) (ctx : HashInstance) (src : Mem Byte) (len : Nat) : Option HashInstance :=
  hashUpdate w ctx src len

/-- random_oracle.c:25-32 `H0_final`: the buffers `seed` and `commitment` after the call. -/
def h0Final (w : Nat) (ctx : HashInstance) (seed : Mem Byte) (seedLen : Nat) (commitment : Mem Byte)
    (commitmentLen : Nat) : Option (Mem Byte × Mem Byte) := do
  let ctx ← hashUpdate w ctx (ofList [0x00]) 1
  let ctx ← hashFinal w ctx
  let (ctx, seed) ← hashSqueeze w ctx seed seedLen
  let (_, commitment) ← hashSqueeze w ctx commitment commitmentLen
  pure (seed, commitment)

/-- random_oracle.c:62-67 `H1_final`: the buffer `digest` after the call. -/
def h1Final (w : Nat) (ctx : HashInstance) (digest : Mem Byte) (len : Nat) : Option (Mem Byte) := do
  let ctx ← hashUpdate w ctx (ofList [0x01]) 1
  let ctx ← hashFinal w ctx
  let (_, digest) ← hashSqueeze w ctx digest len
  pure digest

/-- random_oracle.c:78-83 `H2_final`. -/
def h2Final (w : Nat) (ctx : HashInstance) (digest : Mem Byte) (len : Nat) : Option (Mem Byte) := do
  let ctx ← hashUpdate w ctx (ofList [0x02]) 1
  let ctx ← hashFinal w ctx
  let (_, digest) ← hashSqueeze w ctx digest len
  pure digest

/-- random_oracle.c:94-100 `H3_final`: the buffers `digest` and `iv` after the call. -/
def h3Final (w : Nat) (ctx : HashInstance) (digest : Mem Byte) (len : Nat) (iv : Mem Byte) :
    Option (Mem Byte × Mem Byte) := do
  let ctx ← hashUpdate w ctx (ofList [0x03]) 1
  let ctx ← hashFinal w ctx
  let (ctx, digest) ← hashSqueeze w ctx digest len
  let (_, iv) ← hashSqueeze w ctx iv 16
  pure (digest, iv)

/-- random_oracle.c:34-36 `H0_x4_init`. -/
def roInitX4 (ctx : HashInstance) (securityParam : Nat) : Option HashInstance :=
  hashInitX4 ctx (if securityParam = 128 then 128 else 256)

/-- random_oracle.c:38-41 `H0_x4_update`. -/
def roUpdateX4 (w : Nat) (ctx : HashInstance) (src : Nat → Mem Byte) (len : Nat) : Option HashInstance :=
  hashUpdateX4 w ctx src len

/-- random_oracle.c:43-51 `H0_x4_final`. -/
def h0FinalX4 (w : Nat) (ctx : HashInstance) (seed : Nat → Mem Byte) (seedLen : Nat)
    (commitment : Nat → Mem Byte) (commitmentLen : Nat) : Option ((Nat → Mem Byte) × (Nat → Mem Byte)) := do
  let ctx ← hashUpdateX4_1 w ctx (ofList [0x00]) 1
  let ctx ← hashFinalX4 w ctx
  let (ctx, seed) ← hashSqueezeX4 w ctx seed seedLen
  let (_, commitment) ← hashSqueezeX4 w ctx commitment commitmentLen
  pure (seed, commitment)

/-- faest.c:198-206 `hash_mu`: the buffer `mu` after the call. -/
def hashMuC (w : Nat) (mu owfInput owfOutput : Mem Byte) (owfSize : Nat) (msg : Mem Byte) (msglen lambda : Nat) :
    Option (Mem Byte) := do
  let ctx ← roInit hashFresh lambda
  let ctx ← roUpdate w ctx owfInput owfSize
  let ctx ← roUpdate w ctx owfOutput owfSize
  let ctx ← roUpdate w ctx msg msglen
  h1Final w ctx mu (2 * lambda / 8)

/-- faest.c:208-221 `hash_challenge_1`. -/
def hashChallenge1C (w : Nat) (chall1 mu hcom c iv : Mem Byte) (lambda ell tau : Nat) : Option (Mem Byte) := do
  let lambdaBytes := lambda / 8
  let ellHatBytes := ell / 8 + lambdaBytes * 2 + UNIVERSAL_HASH_B
  let ctx ← roInit hashFresh lambda
  let ctx ← roUpdate w ctx mu (lambdaBytes * 2)
  let ctx ← roUpdate w ctx hcom (lambdaBytes * 2)
  let ctx ← roUpdate w ctx c (ellHatBytes * (tau - 1))
  let ctx ← roUpdate w ctx iv IV_SIZE
  h2Final w ctx chall1 (5 * lambdaBytes + 8)

/-- faest.c:223-237 `hash_challenge_2`. -/
def hashChallenge2C (w : Nat) (chall2 chall1 uTilde hV d : Mem Byte) (lambda ell : Nat) : Option (Mem Byte) := do
  let lambdaBytes := lambda / 8
  let ellBytes := ell / 8
  let uTildeBytes := lambdaBytes + UNIVERSAL_HASH_B
  let ctx ← roInit hashFresh lambda
  let ctx ← roUpdate w ctx chall1 (5 * lambdaBytes + 8)
  let ctx ← roUpdate w ctx uTilde uTildeBytes
  let ctx ← roUpdate w ctx hV (2 * lambdaBytes)
  let ctx ← roUpdate w ctx d ellBytes
  h2Final w ctx chall2 (3 * lambdaBytes + 8)

/-- faest.c:239-249 `hash_challenge_3`. -/
def hashChallenge3C (w : Nat) (chall3 chall2 aTilde bTilde : Mem Byte) (lambda : Nat) : Option (Mem Byte) := do
  let lambdaBytes := lambda / 8
  let ctx ← roInit hashFresh lambda
  let ctx ← roUpdate w ctx chall2 (3 * lambdaBytes + 8)
  let ctx ← roUpdate w ctx aTilde lambdaBytes
  let ctx ← roUpdate w ctx bTilde lambdaBytes
  h2Final w ctx chall3 lambdaBytes

end Faest.Keccak
