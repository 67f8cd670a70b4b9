/-
Random oracles: random_oracle.c.

A hash context is the list of bytes absorbed so far.  `X sel input pos` is byte `pos` of the
output stream of SHAKE128 (`sel = 128`) or SHAKE256 (`sel = 256`) on `input`.
-/
import Verif.Model.Basic

namespace Faest

/-- The extendable output functions behind `hash_init`/`hash_update`/`hash_final`/`hash_squeeze`. -/
abbrev XOF := Nat → List Byte → Nat → Byte

/-- random_oracle.c:17-19 etc.: `security_param == 128 ? 128 : 256`. -/
def hashSel (lambda : Nat) : Nat := if lambda = 128 then 128 else 256

/-- Bytes `off … off+len-1` of the output stream. -/
def squeeze (X : XOF) (sel : Nat) (input : List Byte) (off len : Nat) : List Byte :=
  tabP len (fun i => X sel input (off + i))

/-- random_oracle.c:17-32 H0: seed of `seedLen` and commitment of `comLen` bytes. -/
def H0 (X : XOF) (lambda : Nat) (ctx : List Byte) (seedLen comLen : Nat) : List Byte × List Byte :=
  let inp := ctx ++ [0]
  (squeeze X (hashSel lambda) inp 0 seedLen, squeeze X (hashSel lambda) inp seedLen comLen)

/-- random_oracle.c:34-51 H0_x4 (hash_shake.h:325-400): four independent instances. -/
def H0x4 (X : XOF) (lambda : Nat) (ctx : Nat → List Byte) (seedLen comLen : Nat) :
    Nat → List Byte × List Byte :=
  fun i =>
    let inp := ctx i ++ [0]
    (squeeze X (hashSel lambda) inp 0 seedLen, squeeze X (hashSel lambda) inp seedLen comLen)

/-- random_oracle.c:54-67 H1. -/
def H1 (X : XOF) (lambda : Nat) (ctx : List Byte) (len : Nat) : List Byte :=
  squeeze X (hashSel lambda) (ctx ++ [1]) 0 len

/-- random_oracle.c:70-83 H2. -/
def H2 (X : XOF) (lambda : Nat) (ctx : List Byte) (len : Nat) : List Byte :=
  squeeze X (hashSel lambda) (ctx ++ [2]) 0 len

/-- random_oracle.c:86-100 H3: digest and iv. -/
def H3 (X : XOF) (lambda : Nat) (ctx : List Byte) (len : Nat) : List Byte × List Byte :=
  let inp := ctx ++ [3]
  (squeeze X (hashSel lambda) inp 0 len, squeeze X (hashSel lambda) inp len 16)

end Faest
