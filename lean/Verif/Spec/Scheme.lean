/-
Specification of signatures: the layout of the bytes of a signature, when a string of bytes is a
valid signature, and which signature is produced.  A signature is a function from positions to bytes.
-/
import Verif.Spec.Witness
import Verif.Spec.Vole
import Verif.Spec.UHash

namespace Faest.Spec

/-! ### Layout -/

/-- Bytes of one column of the VOLE matrix: witness, mask, and the part hidden by `u_tilde`. -/
def colBytes (P : Params) : Nat := P.l / 8 + P.lambda / 8 + (P.lambda / 8 + 2)

/-- Correction string `i`. -/
def posC (P : Params) (i : Nat) : Nat := i * colBytes P
/-- `u_tilde` follows the `tau - 1` correction strings. -/
def posU (P : Params) : Nat := posC P (P.tau - 1)
/-- `d` follows `u_tilde`. -/
def posD (P : Params) : Nat := posU P + (P.lambda / 8 + 2)
/-- `a_tilde` follows `d`. -/
def posA (P : Params) : Nat := posD P + P.l / 8
/-- The opening of tree `i`: one node for each level, then a commitment of two seed lengths. -/
def posTree (P : Params) (i : Nat) : Nat := posA P + P.lambda / 8 + P.lambda / 8 * (colStart P i + 2 * i)
/-- The commitment of tree `i`. -/
def posCom (P : Params) (i : Nat) : Nat := posTree P i + P.lambda / 8 * depth P i
/-- The challenge follows the last opening. -/
def posChall (P : Params) : Nat := posTree P P.tau
/-- The iv follows the challenge. -/
def posIv (P : Params) : Nat := posChall P + P.lambda / 8

/-! ### Hashes -/

/-- Output of `len` bytes of the random oracle with number `b`. -/
def ro (X : XOF) (P : Params) (b : Byte) (len : Nat) (input : List Byte) : List Byte :=
  squeeze X (hashSel P.lambda) (input ++ [b]) 0 len

/-- The message digest for the public key `(I, O)`. -/
def muOf (X : XOF) (P : Params) (I O : Nat → Byte) (m : List Byte) : List Byte :=
  ro X P 1 (2 * (P.lambda / 8)) (tabP (P.pkSize / 2) I ++ tabP (P.pkSize / 2) O ++ m)

/-- Byte `t`, if the bit is set. -/
def sel (b : Bool) (x : Byte) : Byte := if b then x else 0

/-! ### Verification -/

section verify
variable (X : XOF) (P : Params) (sg : Nat → Byte)

def sgIv : List Byte := tabP 16 fun t => sg (posIv P + t)
def sgChall (t : Nat) : Byte := sg (posChall P + t)
def sgNode (i l : Nat) : List Byte := tabP (P.lambda / 8) fun t => sg (posTree P i + (P.lambda / 8 * l + t))
def sgCom (i : Nat) : List Byte := tabP (P.lambda / 8 * 2) fun t => sg (posCom P i + t)
def sgU : List Byte := tabP (P.lambda / 8 + 2) fun t => sg (posU P + t)
def sgD : List Byte := tabP (P.l / 8) fun t => sg (posD P + t)
def sgA : List Byte := tabP (P.lambda / 8) fun t => sg (posA P + t)
/-- The correction of column `p`; tree 0 needs none. -/
def sgCorr (p t : Nat) : Byte := if treeOf P p = 0 then 0 else sg (posC P (treeOf P p - 1) + t)

/-- Digest of the commitments recomputed from the openings. -/
def vHcom : List Byte := hcomOf X P (vCom X P (sgIv P sg) (sgChall P sg) (sgNode P sg) (sgCom P sg))

/-- Column `p` of the keys. -/
def vCol (p t : Nat) : Byte :=
  vQ X P (sgIv P sg) (sgChall P sg) (sgNode P sg) p t ^^^ sel (strBit (sgChall P sg) p) (sgCorr P sg p t)

/-- Column `p` of the keys, corrected by `d` on the witness bits. -/
def vColW (p t : Nat) : Byte :=
  vCol X P sg p t ^^^ sel (strBit (sgChall P sg) p && decide (t < P.l / 8)) (sg (posD P + t))

/-- The challenge for the VOLE hash. -/
def vChall1 (mu : List Byte) : List Byte :=
  ro X P 2 (5 * (P.lambda / 8) + 8) (mu ++ vHcom X P sg ++ tabP (posU P) sg ++ sgIv P sg)

/-- Hashed column `p`, as the prover must have hashed it. -/
def vTag (ch1 : List Byte) (p t : Nat) : Byte :=
  voleHash P.lambda P.l (byteFn ch1) (vCol X P sg p) t ^^^ sel (strBit (sgChall P sg) p) (sg (posU P + t))

/-- Digest of the hashed columns. -/
def vHv (ch1 : List Byte) : List Byte :=
  ro X P 1 (2 * (P.lambda / 8)) (tabP P.lambda fun p => tabP (P.lambda / 8 + 2) (vTag X P sg ch1 p)).flatten

/-- The challenge for the ZK hash. -/
def vChall2 (mu : List Byte) : List Byte :=
  let ch1 := vChall1 X P sg mu
  ro X P 2 (3 * (P.lambda / 8) + 8) (ch1 ++ sgU P sg ++ vHv X P sg ch1 ++ sgD P sg)

/-- The recomputed `b_tilde`. -/
def vB (I O : Nat → Byte) (ch2 : List Byte) : BF P.lambda :=
  zkHash P.lambda (byteFn ch2)
    (listB P I O (loadF P.lambda (sgChall P sg)) (rowF P.lambda (vColW X P sg)))
    (polyAt fun j => rowF P.lambda (vColW X P sg) (P.l + j))
  + loadF P.lambda (fun t => sg (posA P + t)) * loadF P.lambda (sgChall P sg)

/-- The recomputed final challenge. -/
def vChall3 (I O : Nat → Byte) (m : List Byte) : List Byte :=
  let ch2 := vChall2 X P sg (muOf X P I O m)
  ro X P 2 (P.lambda / 8) (ch2 ++ sgA P sg ++ (vB X P sg I O ch2).toBytes)

/-- `sg` is a valid signature of `m` for the public key `(I, O)`. -/
def Valid (I O : Nat → Byte) (m : List Byte) : Prop :=
  vChall3 X P sg I O m = tabP (P.lambda / 8) (sgChall P sg)

end verify

/-! ### Signing -/

section sign
variable (X : XOF) (P : Params) (key I O : Nat → Byte) (m rho : List Byte)

/-- Root key and iv. -/
def sRootIv : List Byte := ro X P 3 (P.lambda / 8 + 16) (tabP (P.lambda / 8) key ++ muOf X P I O m ++ rho)
def sRoot : List Byte := (sRootIv X P key I O m rho).take (P.lambda / 8)
def sIv : List Byte := (sRootIv X P key I O m rho).drop (P.lambda / 8)

/-- VOLE value and columns. -/
def sU (i t : Nat) : Byte := pU X P (sRoot X P key I O m rho) (sIv X P key I O m rho) i t
def sV (p t : Nat) : Byte := pV X P (sRoot X P key I O m rho) (sIv X P key I O m rho) p t

/-- Byte `t` of correction string `i`. -/
def sCorr (i t : Nat) : Byte := sU X P key I O m rho 0 t ^^^ sU X P key I O m rho (i + 1) t

def sCorrs : List Byte :=
  tabP (posU P) fun q => sCorr X P key I O m rho (q / colBytes P) (q % colBytes P)

def sChall1 : List Byte :=
  ro X P 2 (5 * (P.lambda / 8) + 8) (muOf X P I O m
    ++ hcomOf X P (pCom X P (sRoot X P key I O m rho) (sIv X P key I O m rho))
    ++ sCorrs X P key I O m rho ++ sIv X P key I O m rho)

def sUt (t : Nat) : Byte :=
  voleHash P.lambda P.l (byteFn (sChall1 X P key I O m rho)) (sU X P key I O m rho 0) t

def sTag (p t : Nat) : Byte :=
  voleHash P.lambda P.l (byteFn (sChall1 X P key I O m rho)) (sV X P key I O m rho p) t

def sHv : List Byte :=
  ro X P 1 (2 * (P.lambda / 8))
    (tabP P.lambda fun p => tabP (P.lambda / 8 + 2) (sTag X P key I O m rho p)).flatten

def sD (t : Nat) : Byte := witness P key I t ^^^ sU X P key I O m rho 0 t

def sChall2 : List Byte :=
  ro X P 2 (3 * (P.lambda / 8) + 8) (sChall1 X P key I O m rho
    ++ tabP (P.lambda / 8 + 2) (sUt X P key I O m rho) ++ sHv X P key I O m rho
    ++ tabP (P.l / 8) (sD X P key I O m rho))

def sA : BF P.lambda :=
  zkHash P.lambda (byteFn (sChall2 X P key I O m rho))
    (listA1 P I O (witness P key I) (rowF P.lambda (sV X P key I O m rho)))
    (loadF P.lambda fun t => sU X P key I O m rho 0 (P.l / 8 + t))

def sB : BF P.lambda :=
  zkHash P.lambda (byteFn (sChall2 X P key I O m rho))
    (listA0 P I O (rowF P.lambda (sV X P key I O m rho)))
    (polyAt fun j => rowF P.lambda (sV X P key I O m rho) (P.l + j))

def sChall3 : List Byte :=
  ro X P 2 (P.lambda / 8) (sChall2 X P key I O m rho
    ++ (sA X P key I O m rho).toBytes ++ (sB X P key I O m rho).toBytes)

/-- Opening of tree `i` at the leaf chosen by the challenge: the siblings of the path from the top,
then the commitment of the leaf. -/
def sOpen (i : Nat) : List Byte :=
  let j := leafIdx P (byteFn (sChall3 X P key I O m rho)) i
  let root := sRoot X P key I O m rho
  let iv := sIv X P key I O m rho
  (tabP (depth P i) fun l => pNode P root iv i (l + 1) (sib (anc (depth P i) j (l + 1)))).flatten
    ++ pCom X P root iv i j

/-- The signature. -/
def sSig : List Byte :=
  sCorrs X P key I O m rho ++ tabP (P.lambda / 8 + 2) (sUt X P key I O m rho)
    ++ tabP (P.l / 8) (sD X P key I O m rho) ++ (sA X P key I O m rho).toBytes
    ++ (tabP P.tau (sOpen X P key I O m rho)).flatten
    ++ sChall3 X P key I O m rho ++ sIv X P key I O m rho

end sign

end Faest.Spec
