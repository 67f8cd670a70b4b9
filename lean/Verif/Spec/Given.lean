/-
Signing with given leaves: the signature as a function of the strings and commitments of all leaves, wherever they
come from.  Used to say what a signature tells about the key (C64).
-/
import Mathlib.Data.Set.Defs
import Verif.Spec.Scheme
import Verif.Spec.Api

namespace Faest.Spec

section
variable (X : XOF) (P : Params) (key I O : Nat → Byte) (m iv : List Byte)
  (R : Nat → Nat → Nat → Byte) (C : Nat → Nat → List Byte)

/-- VOLE value of tree `i` and column `p` of the tags, for the strings `R i j` of the leaves. -/
def gU (i t : Nat) : Byte := voleU (2 ^ depth P i) (R i) t
@[inherit_doc gU] def gV (p t : Nat) : Byte := voleV (2 ^ depth P (treeOf P p)) (R (treeOf P p)) (posOf P p) t

/-- The correction strings. -/
def gCorrs : List Byte :=
  tabP (posU P) fun q => gU P R 0 (q % colBytes P) ^^^ gU P R (q / colBytes P + 1) (q % colBytes P)

/-- First challenge; `C i j` is the commitment of leaf `j` of tree `i`. -/
def gChall1 : List Byte := ro X P 2 (5 * (P.lambda / 8) + 8) (muOf X P I O m ++ hcomOf X P C ++ gCorrs P R ++ iv)

def gUt (t : Nat) : Byte := voleHash P.lambda P.l (byteFn (gChall1 X P I O m iv R C)) (gU P R 0) t
def gTag (p t : Nat) : Byte := voleHash P.lambda P.l (byteFn (gChall1 X P I O m iv R C)) (gV P R p) t
def gHv : List Byte :=
  ro X P 1 (2 * (P.lambda / 8)) (tabP P.lambda fun p => tabP (P.lambda / 8 + 2) (gTag X P I O m iv R C p)).flatten
def gD (t : Nat) : Byte := witness P key I t ^^^ gU P R 0 t

/-- Second challenge. -/
def gChall2 : List Byte :=
  ro X P 2 (3 * (P.lambda / 8) + 8) (gChall1 X P I O m iv R C ++ tabP (P.lambda / 8 + 2) (gUt X P I O m iv R C)
    ++ gHv X P I O m iv R C ++ tabP (P.l / 8) (gD P key I R))

def gA : BF P.lambda :=
  zkHash P.lambda (byteFn (gChall2 X P key I O m iv R C))
    (listA1 P I O (witness P key I) (rowF P.lambda (gV P R))) (loadF P.lambda fun t => gU P R 0 (P.l / 8 + t))
def gB : BF P.lambda :=
  zkHash P.lambda (byteFn (gChall2 X P key I O m iv R C))
    (listA0 P I O (rowF P.lambda (gV P R))) (polyAt fun j => rowF P.lambda (gV P R) (P.l + j))

/-- Third challenge. -/
def gChall3 : List Byte :=
  ro X P 2 (P.lambda / 8) (gChall2 X P key I O m iv R C ++ (gA X P key I O m iv R C).toBytes
    ++ (gB X P key I O m iv R C).toBytes)

/-- The signature; `op ch i` are the nodes of tree `i` which are opened for the challenge `ch`. -/
def gSig (op : List Byte → Nat → List Byte) : List Byte :=
  gCorrs P R ++ tabP (P.lambda / 8 + 2) (gUt X P I O m iv R C) ++ tabP (P.l / 8) (gD P key I R)
    ++ (gA X P key I O m iv R C).toBytes
    ++ (tabP P.tau fun i => op (gChall3 X P key I O m iv R C) i
          ++ C i (leafIdx P (byteFn (gChall3 X P key I O m iv R C)) i)).flatten
    ++ gChall3 X P key I O m iv R C ++ iv

end

/-- What a signature does not show: for every tree the string and the commitment of the leaf which stays closed (the
commitment is shown, but not how it was made). -/
structure Hidden (P : Params) where
  str : Fin P.tau → Fin (colBytes P) → Byte
  com : Fin P.tau → Fin (P.lambda / 8 * 2) → Byte

/-- As functions on all numbers. -/
def Hidden.s {P : Params} (h : Hidden P) (i t : Nat) : Byte :=
  if hi : i < P.tau then if ht : t < colBytes P then h.str ⟨i, hi⟩ ⟨t, ht⟩ else 0 else 0
@[inherit_doc Hidden.s] def Hidden.c {P : Params} (h : Hidden P) (i : Nat) : List Byte :=
  tabP (P.lambda / 8 * 2) fun t => if hi : i < P.tau then if ht : t < P.lambda / 8 * 2 then h.com ⟨i, hi⟩ ⟨t, ht⟩ else 0 else 0

section
variable (X : XOF) (P : Params) (key I O : Nat → Byte) (m iv ch : List Byte) (node : Nat → Nat → List Byte)
  (h : Hidden P)

/-- The strings of all leaves: for the leaf selected by `ch` the hidden one, for all others those which the opened
nodes give. -/
def leafStrs (i j t : Nat) : Byte :=
  if j = leafIdx P (byteFn ch) i then h.s i t
  else expand P.lambda iv (leafSd X P.lambda iv (vNode P iv (byteFn ch) node i (depth P i) j)) t

/-- The commitments of all leaves. -/
def leafComs (i j : Nat) : List Byte := vCom X P iv (byteFn ch) node h.c i j

/-- The third challenge and the signature which a signer with these leaves computes. -/
def hChall : List Byte :=
  gChall3 X P key I O m iv (leafStrs X P iv ch node h) (leafComs X P iv ch node h)
@[inherit_doc hChall] def hSig : List Byte :=
  gSig X P key I O m iv (leafStrs X P iv ch node h) (leafComs X P iv ch node h)
    fun _ i => (tabP (depth P i) (node i)).flatten

end

/-- The parts of a signature which open the trees. -/
structure Opens (P : Params) (iv ch : List Byte) (node : Nat → Nat → List Byte) (sg : Nat → Byte) : Prop where
  iv : sgIv P sg = iv
  ch : tabP (P.lambda / 8) (sgChall P sg) = ch
  node : ∀ i, i < P.tau → ∀ l, l < depth P i → sgNode P sg i l = node i l

/-- The same for a secret key `sk` as in the API. -/
def skSig (X : XOF) (i : ParamId) (sk m iv ch : List Byte) (node : Nat → Nat → List Byte) (h : Hidden (params i)) : List Byte :=
  hSig X (params i) (byteFn (sk.drop ((params i).pkSize / 2))) (byteFn sk)
    (owf i (byteFn (sk.drop ((params i).pkSize / 2))) (byteFn sk)) m iv ch node h
@[inherit_doc skSig] def skChall (X : XOF) (i : ParamId) (sk m iv ch : List Byte) (node : Nat → Nat → List Byte)
    (h : Hidden (params i)) : List Byte :=
  hChall X (params i) (byteFn (sk.drop ((params i).pkSize / 2))) (byteFn sk)
    (owf i (byteFn (sk.drop ((params i).pkSize / 2))) (byteFn sk)) m iv ch node h

/-- What the signer hides: the string and the commitment of the leaf selected by its third challenge, in every tree. -/
def realHidden (X : XOF) (P : Params) (key I O : Nat → Byte) (m r : List Byte) : Hidden P where
  str a t := pR X P (sRoot X P key I O m r) (sIv X P key I O m r) a.1
    (leafIdx P (byteFn (sChall3 X P key I O m r)) a.1) t.1
  com a t := byteFn (pCom X P (sRoot X P key I O m r) (sIv X P key I O m r) a.1
    (leafIdx P (byteFn (sChall3 X P key I O m r)) a.1)) t.1

/-- The valid signatures of `m` under `pk` with the given openings.  No secret key occurs here. -/
def sigsWith (X : XOF) (i : ParamId) (pk m iv ch : List Byte) (node : Nat → Nat → List Byte) : Set (List Byte) :=
  {sg | sg.length = (params i).sigSize ∧ ValidSig X i pk m sg ∧ Opens (params i) iv ch node (byteFn sg)}

end Faest.Spec
