/-
Specification of counter mode and of the one-way functions.
-/
import Verif.Spec.Rijndael
import Verif.Model.Params

namespace Faest.Spec

/-- Big-endian number of the first `n` bytes. -/
def beNat (b : Nat → BitVec 8) : Nat → Nat
  | 0 => 0
  | n + 1 => beNat b n * 256 + (b n).toNat

/-- The 16-byte big-endian encoding of `iv + i` modulo `2^128`. -/
def counter (iv : Nat → BitVec 8) (i : Nat) : Nat → BitVec 8 :=
  fun j => BitVec.ofNat 8 ((beNat iv 16 + i) % 2 ^ 128 / 256 ^ (15 - j))

/-- Key words of AES for a security level. -/
def aesNk (lambda : Nat) : Nat := lambda / 32
/-- Rounds of AES for a security level. -/
def aesNr (lambda : Nat) : Nat := lambda / 32 + 6

/-- The counter-mode key stream. -/
def prgStream (lambda : Nat) (key iv : Nat → BitVec 8) (n : Nat) : BitVec 8 :=
  encrypt (aesNk lambda) 4 (aesNr lambda) key (counter iv (n / 16)) (n % 16)

/-- Even-Mansour parameter sets. -/
def isEm : ParamId → Bool
  | .pEM128S | .pEM128F | .pEM192S | .pEM192F | .pEM256S | .pEM256F => true
  | _ => false

/-- Security level. -/
def lam : ParamId → Nat
  | .p128S | .p128F | .pEM128S | .pEM128F => 128
  | .p192S | .p192F | .pEM192S | .pEM192F => 192
  | _ => 256

/-- Number of bytes of the one-way function's input: one block for AES-128, two blocks for AES-192
and AES-256, a Rijndael key for Even-Mansour. -/
def owfInLen (i : ParamId) : Nat :=
  if isEm i then lam i / 8 else if lam i = 128 then 16 else 32

/-- Number of bytes of the one-way function's output. -/
def owfOutLen (i : ParamId) : Nat := owfInLen i

/-- The one-way function: `AES_key(input)` block by block, or `Rijndael_input(key) + key`. -/
def owf (i : ParamId) (key inp : Nat → BitVec 8) (n : Nat) : BitVec 8 :=
  if isEm i then
    encrypt (lam i / 32) (lam i / 32) (lam i / 32 + 6) inp key n ^^^ key n
  else
    encrypt (lam i / 32) 4 (lam i / 32 + 6) key (fun j => inp (16 * (n / 16) + j)) (n % 16)

/-- No S-box of the encryption of block `p` has input zero. -/
def encNonzero (Nk Nb Nr : Nat) (key p : Nat → BitVec 8) : Prop :=
  ∀ i, i < Nr → ∀ c, c < Nb → ∀ r, r < 4 → roundState Nb (keyWord Nk key) (blockState p) i c r ≠ 0

/-- No S-box of the key expansion to `tot` words has input zero. -/
def ksNonzero (Nk tot : Nat) (key : Nat → BitVec 8) : Prop :=
  ∀ k, Nk ≤ k → k < tot → ∀ t, ksSboxInput Nk k (keyWord Nk key (k - 1)) = some t →
    ∀ r, r < 4 → t r ≠ 0

/-- No S-box input which is part of the statement proved by a signature is zero. -/
def owfGood (i : ParamId) (key inp : Nat → BitVec 8) : Prop :=
  if isEm i then
    encNonzero (lam i / 32) (lam i / 32) (lam i / 32 + 6) inp key
  else
    ksNonzero (lam i / 32) (4 * (lam i / 32 + 7)) key ∧
    ∀ b, 16 * b < owfInLen i →
      encNonzero (lam i / 32) 4 (lam i / 32 + 6) key (fun j => inp (16 * b + j))

end Faest.Spec
