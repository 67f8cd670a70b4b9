/-
One-way functions: owf.c, owf.h.
-/
import Verif.Model.Aes

namespace Faest

/-- owf.c:12-17 owf_128: output bytes and success flag. -/
def owf128 (key input : Mem Byte) : Option (List Byte × Bool) := do
  let (rk, z) ← expandKey key 4 4 10
  let (out, z1) ← encryptBlock rk input 0 4 10
  pure (out, !(z || z1))

/-- owf.c:19-25 owf_192. -/
def owf192 (key input : Mem Byte) : Option (List Byte × Bool) := do
  let (rk, z) ← expandKey key 6 4 12
  let (out, z1) ← encryptBlock rk input 0 4 12
  let (out2, z2) ← encryptBlock rk input 16 4 12
  pure (out ++ out2, !(z || z1 || z2))

/-- owf.c:27-33 owf_256. -/
def owf256 (key input : Mem Byte) : Option (List Byte × Bool) := do
  let (rk, z) ← expandKey key 8 4 14
  let (out, z1) ← encryptBlock rk input 0 4 14
  let (out2, z2) ← encryptBlock rk input 16 4 14
  pure (out ++ out2, !(z || z1 || z2))

/-- owf.c:35-63 owf_em_128/192/256: `bw` words per block, key schedule from the *input*;
the flag of the key schedule is ignored. -/
def owfEm (bw rounds : Nat) (key input : Mem Byte) : Option (List Byte × Bool) := do
  let (rk, _) ← expandKey input bw bw rounds
  let (out, z) ← encryptBlock rk key 0 bw rounds
  let out ← xorArr (ofList out) key (4 * bw)
  pure (out, !z)

/-- owf.h:25-37: the macro choosing the one-way function of a parameter set. -/
def owf (i : ParamId) (key input : Mem Byte) : Option (List Byte × Bool) :=
  match i with
  | .p128S | .p128F => owf128 key input
  | .p192S | .p192F => owf192 key input
  | .p256S | .p256F => owf256 key input
  | .pEM128S | .pEM128F => owfEm 4 10 key input
  | .pEM192S | .pEM192F => owfEm 6 12 key input
  | .pEM256S | .pEM256F => owfEm 8 14 key input

end Faest
