/-
Specification of the values compared by the S-box constraints.

All functions are generic in the type of the lifted values: they are used for the witness itself
(bytes), for the prover's tags and for the verifier's keys.
-/
import Verif.Proofs.LoadStore
import Verif.Spec.Rijndael
import Verif.Model.Params

namespace Faest.Spec

/-- Distance of consecutive key-schedule words which use S-boxes. -/
def ksStep (Nwd : Nat) : Nat := if Nwd = 6 then 6 else 4

/-- The expanded key as a function of the witness `x`: words are made of `W` units (32 bits or 4
bytes); the first `Nwd` words are the key, the outputs of the words with S-boxes follow in the
witness, all other words are sums. -/
def liftKey {A : Type} (add : A → A → A) (W Nwd : Nat) (x : Nat → A) (k : Nat) (i : Nat) : A :=
  if _h : k < Nwd ∨ Nwd = 0 then x (W * k + i)
  else if (k - Nwd) % ksStep Nwd = 0 then x (W * (Nwd + (k - Nwd) / ksStep Nwd) + i)
  else add (liftKey add W Nwd x (k - Nwd) i) (liftKey add W Nwd x (k - 1) i)
termination_by k
decreasing_by all_goals omega

/-- Cell `p` of the expanded key. -/
def keyCell {A : Type} (add : A → A → A) (W Nwd : Nat) (x : Nat → A) (p : Nat) : A :=
  liftKey add W Nwd x (p / W) (p % W)

/-- The round constant added to byte `c` of the `t`-th word with S-boxes. -/
def ksRc (Nwd t c : Nat) : Byte :=
  if c = 0 ∧ (Nwd = 8 → t % 2 = 0) then rcon (if Nwd = 8 then t / 2 else t) else 0

/-- The inverse of the affine map of the S-box on lifted bits; `one` is the lifted constant 1. -/
def invAffL {n : Nat} (one : BF n) (x : Nat → BF n) (i : Nat) : BF n :=
  x ((i + 7) % 8) + x ((i + 5) % 8) + x ((i + 2) % 8) + (if i = 0 ∨ i = 2 then one else 0)

/-- Position in the expanded key of the byte entering the `p`-th S-box of the key schedule. -/
def ksSel (Nwd p : Nat) : Nat :=
  4 * (Nwd - 1 + ksStep Nwd * (p / 4)) +
    (if Nwd = 8 → (p / 4) % 2 = 0 then (p % 4 + 1) % 4 else p % 4)

/-- The output of the `p`-th S-box of the key schedule: the new word is the old word plus the
S-box outputs plus the round constant. -/
def ksOutL {n : Nat} (Nwd : Nat) (one : BF n) (x : Nat → BF n) (p i : Nat) : BF n :=
  x (32 * Nwd + 8 * p + i) + liftKey (· + ·) 32 Nwd x (ksStep Nwd * (p / 4)) (8 * (p % 4) + i)
    + one * BF.bitF n ((ksRc Nwd (p / 4) (p % 4)).getLsbD i)

/-- The same on the bytes of the witness. -/
def ksOutB (Nwd : Nat) (w : Nat → Byte) (p : Nat) : Byte :=
  w (4 * Nwd + p) ^^^ liftKey (· ^^^ ·) 4 Nwd w (ksStep Nwd * (p / 4)) (p % 4)
    ^^^ ksRc Nwd (p / 4) (p % 4)

/-- Lifted input of the `p`-th S-box of the key schedule. -/
def ksS {n : Nat} (Nwd : Nat) (x : Nat → BF n) (p : Nat) : BF n :=
  BF.bc (fun i => keyCell (· + ·) 32 Nwd x (8 * ksSel Nwd p + i))

/-- Lifted inverse of the input of the `p`-th S-box, from its output. -/
def ksSd {n : Nat} (Nwd : Nat) (one : BF n) (x : Nat → BF n) (p : Nat) : BF n :=
  BF.bc (invAffL one (ksOutL Nwd one x p))

/-- The input byte of the `p`-th S-box of the key schedule. -/
def ksSB (Nwd : Nat) (w : Nat → Byte) (p : Nat) : Byte := keyCell (· ^^^ ·) 4 Nwd w (ksSel Nwd p)

/-- The prover's hashed values of one constraint `s * s' = 1` (coefficients 0 and 1 in `Δ`). -/
def conA0 {n : Nat} (vs vsd : BF n) : BF n := vs * vsd
def conA1 {n : Nat} (s vs sd vsd : BF n) : BF n := (s + vs) * (sd + vsd) + vs * vsd + 1

/-- The verifier's hashed value of one constraint. -/
def conB {n : Nat} (d qs qsd : BF n) : BF n := qs * qsd + d * d

/-! ### Encryption rounds -/

/-- Row `r` of MixColumns on one lifted column. -/
def mixL {n : Nat} (two three : BF n) (x : Nat → BF n) (r : Nat) : BF n :=
  two * x r + three * x ((r + 1) % 4) + x ((r + 2) % 4) + x ((r + 3) % 4)

/-- Lifted input of the S-box number `idx`, counted through all rounds of `4 * Nb` S-boxes.
`I`: lifted bytes of the plaintext, `K`: of the round keys, `X`: of the states after ShiftRows. -/
def encS {n : Nat} (Nb : Nat) (two three : BF n) (I K X : Nat → BF n) (idx : Nat) : BF n :=
  if idx < 4 * Nb then I idx + K idx
  else mixL two three (fun r => X (idx - 4 * Nb - idx % 4 + r)) (idx % 4) + K idx

/-- Column holding, after ShiftRows, the byte which was in column `c` and row `r`. -/
def icol (Nb c r : Nat) : Nat := (c + Nb - shiftOffset Nb r) % Nb

/-- Position after ShiftRows of the output of the S-box number `idx`. -/
def srcIdx (Nb idx : Nat) : Nat :=
  4 * Nb * (idx / (4 * Nb)) + 4 * icol Nb (idx % (4 * Nb) / 4) (idx % 4) + idx % 4

/-- The output of the S-boxes, in the order after ShiftRows: the committed states `x`, in the last
round the ciphertext `o` plus the last round key. `U` is the number of units (bits) in a byte. -/
def encOut {A : Type} (add : A → A → A) (U Nb R : Nat) (x o k : Nat → A) (b i : Nat) : A :=
  if b < 4 * Nb * (R - 1) then x (U * b + i)
  else add (o (U * (b - 4 * Nb * (R - 1)) + i)) (k (U * (b + 4 * Nb) + i))

/-- Lifted inverse of the input of the S-box number `idx`, from its output. -/
def encSd {n : Nat} (Nb R : Nat) (one : BF n) (x o k : Nat → BF n) (idx : Nat) : BF n :=
  BF.bc (invAffL one (encOut (· + ·) 8 Nb R x o k (srcIdx Nb idx)))

/-- The output byte of the S-box number `idx`. -/
def encOutB (Nb R : Nat) (x o k : Nat → Byte) (idx : Nat) : Byte :=
  encOut (· ^^^ ·) 1 Nb R x o k (srcIdx Nb idx) 0

/-- Byte `b` of lifted bits. -/
def byteL {n : Nat} (x : Nat → BF n) (b : Nat) : BF n := BF.bc (fun i => x (8 * b + i))

/-! ### The whole constraint system -/

/-- The round keys of the public key schedule (Even-Mansour), byte by byte. -/
def emKey (Nwd : Nat) (I : Nat → Byte) (b : Nat) : Byte := keyWord Nwd I (b / 4) (b % 4)

/-- The number of S-boxes. -/
def conCount (P : Params) : Nat := P.Ske + P.beta * P.Senc

/-- Lifted input of S-box `p`, for the lifted constant `one` and the lifted witness bits `x`; `I` is
the public input of the one-way function. -/
def conIn {n : Nat} (P : Params) (I : Nat → Byte) (one : BF n) (x : Nat → BF n) (p : Nat) : BF n :=
  if P.Lke = 0 then
    encS P.Nwd (BF.emb n 2) (BF.emb n 3) (byteL x)
      (byteL fun i => one * BF.bitF n (bitOf (emKey P.Nwd I) i)) (fun b => byteL x (4 * P.Nwd + b)) p
  else if p < P.Ske then ksS P.Nwd x p
  else
    encS 4 (BF.emb n 2) (BF.emb n 3)
      (fun b => one * BF.emb n (I (16 * ((p - P.Ske) / P.Senc) + b)))
      (byteL (keyCell (· + ·) 32 P.Nwd x))
      (byteL fun i => x (P.Lke + P.Lenc * ((p - P.Ske) / P.Senc) + i)) ((p - P.Ske) % P.Senc)

/-- Lifted inverse of the input of S-box `p`, computed from its output; `O` is the output of the
one-way function. -/
def conOut {n : Nat} (P : Params) (I O : Nat → Byte) (one : BF n) (x : Nat → BF n) (p : Nat) : BF n :=
  if P.Lke = 0 then
    encSd P.Nwd P.R one (fun b => x (32 * P.Nwd + b)) (fun i => one * BF.bitF n (bitOf O i) + x i)
      (fun i => one * BF.bitF n (bitOf (emKey P.Nwd I) i)) p
  else if p < P.Ske then ksSd P.Nwd one x p
  else
    encSd 4 P.R one (fun i => x (P.Lke + P.Lenc * ((p - P.Ske) / P.Senc) + i))
      (fun i => one * BF.bitF n (bitOf (fun b => O (16 * ((p - P.Ske) / P.Senc) + b)) i))
      (keyCell (· + ·) 32 P.Nwd x) ((p - P.Ske) % P.Senc)

/-- The bits of a witness as field elements. -/
def bitsL (n : Nat) (w : Nat → Byte) (i : Nat) : BF n := BF.bitF n (bitOf w i)

/-- The values hashed by the prover and by the verifier. -/
def listA0 {n : Nat} (P : Params) (I O : Nat → Byte) (v : Nat → BF n) : List (BF n) :=
  tabP (conCount P) fun p => conA0 (conIn P I 0 v p) (conOut P I O 0 v p)
def listA1 {n : Nat} (P : Params) (I O w : Nat → Byte) (v : Nat → BF n) : List (BF n) :=
  tabP (conCount P) fun p => conA1 (conIn P I 1 (bitsL n w) p) (conIn P I 0 v p)
    (conOut P I O 1 (bitsL n w) p) (conOut P I O 0 v p)
def listB {n : Nat} (P : Params) (I O : Nat → Byte) (d : BF n) (q : Nat → BF n) : List (BF n) :=
  tabP (conCount P) fun p => conB d (conIn P I d q p) (conOut P I O d q p)

/-- Row `i` of a matrix of `n` columns of bits, as a field element. -/
def rowF (n : Nat) (col : Nat → Nat → Byte) (i : Nat) : BF n :=
  ∑ p ∈ Finset.range n, BF.bitF n (bitOf (col p) i) * BF.xelt ^ p

/-- `g 0 + g 1 X + … + g (n-1) X^(n-1)`. -/
def polyAt {n : Nat} (g : Nat → BF n) : BF n := ∑ i ∈ Finset.range n, g i * BF.xelt ^ i

end Faest.Spec
