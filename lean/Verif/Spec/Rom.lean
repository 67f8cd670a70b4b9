/-
Random oracles and adversaries: what C63 is about.
-/
import Mathlib.Data.Set.Finite.List
import Verif.Spec.Scheme

namespace Faest.Rom

/-- A question: which of the two hash functions (`true`: SHAKE128), and a string of at most `L` bytes. -/
abbrev Qry (L : Nat) := Bool × {s : List Byte // s.length ≤ L}

/-- There are finitely many questions. -/
noncomputable instance (L : Nat) : Fintype {s : List Byte // s.length ≤ L} :=
  haveI : Finite Byte := Finite.of_injective BitVec.toFin fun _ _ h => BitVec.eq_of_toFin_eq h
  @Fintype.ofFinite _ (List.finite_length_le Byte L).to_subtype

/-- An answer: the first `M` bytes of the output. -/
abbrev Ans (M : Nat) := Fin M → Byte

/-- Byte `t` of an answer. -/
def byteOf {M : Nat} (r : Ans M) (t : Nat) : Byte := if h : t < M then r ⟨t, h⟩ else 0

/-- A table of answers as hash functions.  Outside of the table the output is zero. -/
def xof {L M : Nat} (f : Qry L → Ans M) : XOF := fun sel s t =>
  if h : s.length ≤ L then byteOf (f (decide (sel = 128), ⟨s, h⟩)) t else 0

section
variable {D R : Type}

/-- The answers to the first `k` questions of an adversary: the next question depends on the answers so far. -/
def answers (A : List R → D) (f : D → R) : Nat → List R
  | 0 => []
  | k + 1 => answers A f k ++ [f (A (answers A f k))]

/-- Question number `k`. -/
def question (A : List R → D) (f : D → R) (k : Nat) : D := A (answers A f k)

/-- The first `k` questions with their answers, oldest first. -/
def log (A : List R → D) (f : D → R) (k : Nat) : List (D × R) :=
  (List.range k).map fun j => (question A f j, f (question A f j))

end

/-! ### Questions of the verifier -/

section
variable (X : XOF) (P : Params) (pk m sg : List Byte)
open Spec

/-- Message digest and the first two challenges. -/
def vMu : List Byte := muOf X P (byteFn pk) (byteFn (pk.drop (P.pkSize / 2))) m
@[inherit_doc vMu] def vC1 : List Byte := vChall1 X P (byteFn sg) (vMu X P pk m)
@[inherit_doc vMu] def vC2 : List Byte := vChall2 X P (byteFn sg) (vMu X P pk m)

/-- The string hashed for leaf `j` of tree `a`. -/
def leafStr (a j : Nat) : List Byte :=
  vNode P (sgIv P (byteFn sg)) (sgChall P (byteFn sg)) (sgNode P (byteFn sg)) a (depth P a) j ++ sgIv P (byteFn sg) ++ [0]

/-- The leaf commitments of tree `a`. -/
def comOf (a j : Nat) : List Byte :=
  vCom X P (sgIv P (byteFn sg)) (sgChall P (byteFn sg)) (sgNode P (byteFn sg)) (sgCom P (byteFn sg)) a j

/-- The string hashed for tree `a`. -/
def treeStr (a : Nat) : List Byte := (tabP (2 ^ depth P a) (comOf X P sg a)).flatten ++ [1]

/-- The string hashed for all trees. -/
def treesStr : List Byte :=
  (tabP P.tau fun a => comDigest X P.lambda (2 ^ depth P a) (comOf X P sg a)).flatten ++ [1]

/-- The string hashed for the message digest. -/
def muStr : List Byte :=
  tabP (P.pkSize / 2) (byteFn pk) ++ tabP (P.pkSize / 2) (byteFn (pk.drop (P.pkSize / 2))) ++ m ++ [1]

/-- The string hashed for `chall_1`. -/
def str1 : List Byte :=
  vMu X P pk m ++ vHcom X P (byteFn sg) ++ tabP (posU P) (byteFn sg) ++ sgIv P (byteFn sg) ++ [2]

/-- The string hashed for the columns. -/
def tagsStr : List Byte :=
  (tabP P.lambda fun p => tabP (P.lambda / 8 + 2) (vTag X P (byteFn sg) (vC1 X P pk m sg) p)).flatten ++ [1]

/-- The string hashed for `chall_2`. -/
def str2 : List Byte :=
  vC1 X P pk m sg ++ sgU P (byteFn sg) ++ vHv X P (byteFn sg) (vC1 X P pk m sg) ++ sgD P (byteFn sg) ++ [2]

/-- The string hashed for `chall_3`. -/
def str3 : List Byte :=
  vC2 X P pk m sg ++ sgA P (byteFn sg) ++ (vB X P (byteFn sg) (byteFn pk) (byteFn (pk.drop (P.pkSize / 2)))
    (vC2 X P pk m sg)).toBytes ++ [2]

/-- All strings hashed by the verifier in the order in which they are needed: the leaves (numbered as if all trees had
the larger depth), the trees, the digest of the trees, and the rest. -/
def vstr (n : Nat) : List Byte :=
  if n < P.tau * 2 ^ P.k0 then leafStr P sg (n / 2 ^ P.k0) (n % 2 ^ P.k0)
  else if n < P.tau * 2 ^ P.k0 + P.tau then treeStr X P sg (n - P.tau * 2 ^ P.k0)
  else if n = P.tau * 2 ^ P.k0 + P.tau then treesStr X P sg
  else if n = P.tau * 2 ^ P.k0 + P.tau + 1 then muStr P pk m
  else if n = P.tau * 2 ^ P.k0 + P.tau + 2 then str1 X P pk m sg
  else if n = P.tau * 2 ^ P.k0 + P.tau + 3 then tagsStr X P pk m sg
  else if n = P.tau * 2 ^ P.k0 + P.tau + 4 then str2 X P pk m sg
  else str3 X P pk m sg

/-- Their number. -/
def vcount : Nat := P.tau * 2 ^ P.k0 + P.tau + 6

end

/-- A string as a question to the hash function of the parameter set. -/
def ask (P : Params) {L : Nat} (s : List Byte) : Qry L :=
  (decide (hashSel P.lambda = 128), if h : s.length ≤ L then ⟨s, h⟩ else ⟨[], Nat.zero_le _⟩)

/-- The first `T` questions of the adversary and then those of the verifier for the output `(m, sg)`. -/
def fullLog {L M : Nat} (P : Params) (pk : List Byte) (A : List (Ans M) → Qry L)
    (out : List (Ans M) → List Byte × List Byte) (f : Qry L → Ans M) (T : Nat) : List (Qry L × Ans M) :=
  log A f T ++ (List.range (vcount P)).map fun n =>
    (ask P (vstr (xof f) P pk (out (answers A f T)).1 (out (answers A f T)).2 n),
      f (ask P (vstr (xof f) P pk (out (answers A f T)).1 (out (answers A f T)).2 n)))

/-! ### The extractor -/

section
variable {L M : Nat} (P : Params) (lg : List (Qry L × Ans M))

/-- `n` bytes of a string from position `p`. -/
def part (s : List Byte) (p n : Nat) : List Byte := (s.drop p).take n

/-- The `2 lambda` bits of an answer from byte `o`. -/
def window (o : Nat) (r : Ans M) : List Byte := tabP (P.lambda / 8 * 2) fun t => byteOf r (o + t)

/-- The first entry of a log whose answer has the string `w` at byte `o`. -/
def find (o : Nat) (w : List Byte) : Option (Qry L × Ans M) := lg.find? fun e => decide (window P o e.2 = w)

/-- What was asked in this entry. -/
def findStr (o : Nat) (w : List Byte) : List Byte := ((find P lg o w).map fun e => e.1.2.1).getD []

/-- The log before the first time `q` was asked. -/
def before (q : Qry L) : List (Qry L × Ans M) := lg.takeWhile fun e => decide (e.1 ≠ q)

/-- A question for `chall_1`: `mu`, digest of the trees, corrections, iv. -/
def xIv (s1 : List Byte) : List Byte := part s1 (P.lambda / 8 * 4 + Spec.posU P) 16
/-- The correction of tree `i`. -/
def xCorr (s1 : List Byte) (i t : Nat) : Byte :=
  if i = 0 then 0 else Spec.byteFn s1 (P.lambda / 8 * 4 + (Spec.posC P (i - 1) + t))
/-- Digest of tree `i`. -/
def xDigest (s1 : List Byte) (i : Nat) : List Byte :=
  part (findStr P lg 0 (part s1 (P.lambda / 8 * 2) (P.lambda / 8 * 2))) (i * (P.lambda / 8 * 2)) (P.lambda / 8 * 2)
/-- Commitment of leaf `j` of tree `i`. -/
def xCom (s1 : List Byte) (i j : Nat) : List Byte :=
  part (findStr P lg 0 (xDigest P lg s1 i)) (j * (P.lambda / 8 * 2)) (P.lambda / 8 * 2)
/-- Seed of leaf `j` of tree `i`: the start of the answer which ends with the commitment. -/
def xSd (s1 : List Byte) (i j : Nat) : List Byte :=
  ((find P lg (P.lambda / 8) (xCom P lg s1 i j)).map fun e => tabP (P.lambda / 8) (byteOf e.2)).getD []
/-- The string of leaf `j` of tree `i`. -/
def xR (s1 : List Byte) (i j t : Nat) : Byte := Spec.expand P.lambda (xIv P s1) (xSd P lg s1 i j) t
/-- The value of tree `i`: exclusive or of all strings and the correction. -/
def xU (s1 : List Byte) (i t : Nat) : Byte :=
  Spec.voleU (2 ^ Spec.depth P i) (xR P lg s1 i) t ^^^ xCorr P s1 i t

/-- The key which tree `i` gives for a question `e` for `chall_2`: find the question for `chall_1`, take the value of
the tree from the questions before it, add `d`. -/
def xKey (e : Qry L × Ans M) (i : Nat) : List Byte :=
  match find P (before lg e.1) 0 (part e.1.2.1 0 (P.lambda / 8 * 2)) with
  | some e1 => tabP (P.lambda / 8) fun t => Spec.byteFn e.1.2.1 (P.lambda / 8 * 8 + 10 + t) ^^^
      xU P (before (before lg e.1) e1.1) e1.1.2.1 i t
  | none => []

/-- All keys which the extractor finds in a log: `tau` for every question. -/
def keys : List (List Byte) := lg.flatMap fun e => (List.range P.tau).map (xKey P lg e)

end

end Faest.Rom
