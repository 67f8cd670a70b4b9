/-
C24: accepted signatures bind message and public key.  C25: no slack bytes.  C26: hash inputs are unambiguous.

A collision is stated for explicit inputs: the strings hashed while verifying the two signatures at hand.
(That some two strings collide is true of every function with outputs of bounded length.)
-/
import Verif.Proofs.Kat

namespace Faest.Props
open Spec (byteFn strBit depth colStart leafIdx hcomOf comDigest vCom vNode recNode anc sib child prgL leafCom
  colBytes posC posU posD posA posTree posCom posChall posIv ro muOf sgIv sgChall sgNode sgCom sgU sgD sgA vHcom
  vHv vB vChall1 vChall2 vChall3)

/-- Two different arguments with the same value. -/
def Coll {α β : Type} (f : α → β) (x x' : α) : Prop := x ≠ x' ∧ f x = f x'

theorem coll_or {α β : Type} {f : α → β} {x x' : α} (h : f x = f x') : x = x' ∨ Coll f x x' := by
  by_cases hx : x = x'
  · exact .inl hx
  · exact .inr ⟨hx, h⟩

/-! ### C26 -/

/-- **C26.** The value of H0 depends only on the hash of strings with final byte 0, H1 of those with final byte 1,
H2 of those with final byte 2 and H3 of those with final byte 3. -/
theorem C26_final_bytes (lam : Nat) (X X' : XOF) (ctx : List Byte) (n n' : Nat) (b : Byte)
    (h : ∀ sel inp pos, inp.getLast? = some b → X sel inp pos = X' sel inp pos) :
    (b = 0 → H0 X lam ctx n n' = H0 X' lam ctx n n') ∧ (b = 1 → H1 X lam ctx n = H1 X' lam ctx n) ∧
      (b = 2 → H2 X lam ctx n = H2 X' lam ctx n) ∧ (b = 3 → H3 X lam ctx n = H3 X' lam ctx n) := by
  have hs : ∀ o l, squeeze X (hashSel lam) (ctx ++ [b]) o l = squeeze X' (hashSel lam) (ctx ++ [b]) o l :=
    fun o l => tabP_congr fun t _ => h _ _ _ (by simp)
  refine ⟨?_, ?_, ?_, ?_⟩ <;> rintro rfl
  · unfold H0; simp only [hs]
  · exact hs _ _
  · exact hs _ _
  · unfold H3; simp only [hs]

/-- The four-way version of H0 hashes strings with final byte 0 as well. -/
theorem C26_final_bytes_x4 (lam : Nat) (X X' : XOF) (ctx : Nat → List Byte) (n n' : Nat)
    (h : ∀ sel inp pos, inp.getLast? = some 0 → X sel inp pos = X' sel inp pos) (k : Nat) :
    H0x4 X lam ctx n n' k = H0x4 X' lam ctx n n' k := by
  have hs : ∀ o l, squeeze X (hashSel lam) (ctx k ++ [0]) o l = squeeze X' (hashSel lam) (ctx k ++ [0]) o l :=
    fun o l => tabP_congr fun t _ => h _ _ _ (by simp)
  unfold H0x4
  simp only [hs]

/-- No string has two final bytes: inputs of different oracles are different. -/
theorem C26_domains_disjoint (x y : List Byte) (b c : Byte) (h : b ≠ c) : x ++ [b] ≠ y ++ [c] := by
  intro he
  exact h (by simpa using congrArg List.getLast? he)

/-- **C26.** `hash_mu` hashes one string which determines public key and message. -/
theorem C26_mu (lam half : Nat) : ∃ enc : List Byte → List Byte → List Byte → List Byte,
    (∀ X inp out m, hashMu X inp out m lam = squeeze X (hashSel lam) (enc inp out m) 0 (2 * lam / 8)) ∧
    (∀ inp out m, (enc inp out m).getLast? = some 1) ∧
    ∀ inp out m inp' out' m', inp.length = half → inp'.length = half → out.length = half → out'.length = half →
      enc inp out m = enc inp' out' m' → inp = inp' ∧ out = out' ∧ m = m' := by
  refine ⟨fun inp out m => inp ++ out ++ m ++ [1], fun _ _ _ _ => rfl, fun _ _ _ => by simp, ?_⟩
  intro inp out m inp' out' m' h1 h2 h3 h4 h
  obtain ⟨h, -⟩ := List.append_inj' h rfl
  obtain ⟨h, e3⟩ := List.append_inj h (by simp [h1, h2, h3, h4])
  obtain ⟨e1, e2⟩ := List.append_inj h (by rw [h1, h2])
  exact ⟨e1, e2, e3⟩

/-- **C26.** `hash_challenge_1` hashes one string which determines `mu`, `hcom`, the corrections and the iv. -/
theorem C26_challenge_1 (lam nmu nh niv : Nat) : ∃ enc : List Byte → List Byte → List Byte → List Byte → List Byte,
    (∀ X mu hcom c iv, hashChallenge1 X mu hcom c iv lam
      = squeeze X (hashSel lam) (enc mu hcom c iv) 0 (5 * (lam / 8) + 8)) ∧
    (∀ mu hcom c iv, (enc mu hcom c iv).getLast? = some 2) ∧
    ∀ mu hcom c iv mu' hcom' c' iv', mu.length = nmu → mu'.length = nmu → hcom.length = nh → hcom'.length = nh →
      iv.length = niv → iv'.length = niv → enc mu hcom c iv = enc mu' hcom' c' iv' →
      mu = mu' ∧ hcom = hcom' ∧ c = c' ∧ iv = iv' := by
  refine ⟨fun mu hcom c iv => mu ++ hcom ++ c ++ iv ++ [2], fun _ _ _ _ _ => rfl, fun _ _ _ _ => by simp, ?_⟩
  intro mu hcom c iv mu' hcom' c' iv' h1 h2 h3 h4 h5 h6 h
  obtain ⟨h, -⟩ := List.append_inj' h rfl
  obtain ⟨h, e4⟩ := List.append_inj' h (by rw [h5, h6])
  obtain ⟨h, e3⟩ := List.append_inj h (by simp [h1, h2, h3, h4])
  obtain ⟨e1, e2⟩ := List.append_inj h (by rw [h1, h2])
  exact ⟨e1, e2, e3, e4⟩

/-- **C26.** `hash_challenge_2`. -/
theorem C26_challenge_2 (lam n1 nu nh : Nat) : ∃ enc : List Byte → List Byte → List Byte → List Byte → List Byte,
    (∀ X ch u hv d, hashChallenge2 X ch u hv d lam = squeeze X (hashSel lam) (enc ch u hv d) 0 (3 * (lam / 8) + 8)) ∧
    (∀ ch u hv d, (enc ch u hv d).getLast? = some 2) ∧
    ∀ ch u hv d ch' u' hv' d', ch.length = n1 → ch'.length = n1 → u.length = nu → u'.length = nu →
      hv.length = nh → hv'.length = nh → enc ch u hv d = enc ch' u' hv' d' →
      ch = ch' ∧ u = u' ∧ hv = hv' ∧ d = d' := by
  refine ⟨fun mu hcom c iv => mu ++ hcom ++ c ++ iv ++ [2], fun _ _ _ _ _ => rfl, fun _ _ _ _ => by simp, ?_⟩
  intro mu hcom c iv mu' hcom' c' iv' h1 h2 h3 h4 h5 h6 h
  obtain ⟨h, -⟩ := List.append_inj' h rfl
  obtain ⟨h, e4⟩ := List.append_inj h (by simp [h1, h2, h3, h4, h5, h6])
  obtain ⟨h, e3⟩ := List.append_inj h (by simp [h1, h2, h3, h4])
  obtain ⟨e1, e2⟩ := List.append_inj h (by rw [h1, h2])
  exact ⟨e1, e2, e3, e4⟩

/-- **C26.** `hash_challenge_3`. -/
theorem C26_challenge_3 (lam n2 na : Nat) : ∃ enc : List Byte → List Byte → List Byte → List Byte,
    (∀ X ch a b, hashChallenge3 X ch a b lam = squeeze X (hashSel lam) (enc ch a b) 0 (lam / 8)) ∧
    (∀ ch a b, (enc ch a b).getLast? = some 2) ∧
    ∀ ch a b ch' a' b', ch.length = n2 → ch'.length = n2 → a.length = na → a'.length = na →
      enc ch a b = enc ch' a' b' → ch = ch' ∧ a = a' ∧ b = b' := by
  refine ⟨fun ch a b => ch ++ a ++ b ++ [2], fun _ _ _ _ => rfl, fun _ _ _ => by simp, ?_⟩
  intro inp out m inp' out' m' h1 h2 h3 h4 h
  obtain ⟨h, -⟩ := List.append_inj' h rfl
  obtain ⟨h, e3⟩ := List.append_inj h (by simp [h1, h2, h3, h4])
  obtain ⟨e1, e2⟩ := List.append_inj h (by rw [h1, h2])
  exact ⟨e1, e2, e3⟩

example : ∃ X : XOF, hashMu X [1] [2] [3] 128 ≠ hashMu X [1] [2] [4] 128 := by
  refine ⟨fun _ inp _ => if inp = [1, 2, 3, 1] then 1 else 0, ?_⟩
  decide

/-! ### The strings hashed by verification -/

section inputs
variable (X : XOF) (i : ParamId) (sg pk m : List Byte)

/-- Input of `hash_mu`. -/
def inMu : List Byte := pk ++ m
/-- Digest of public key and message. -/
def digest : List Byte := ro X (params i) 1 (2 * ((params i).lambda / 8)) (inMu pk m)
/-- Input of `hash_challenge_1`: digest, digest of the recomputed commitments, corrections, iv. -/
def in1 : List Byte :=
  digest X i pk m ++ vHcom X (params i) (byteFn sg) ++ sg.take (posU (params i)) ++ sg.drop (posIv (params i))
/-- First challenge. -/
def ch1 : List Byte := ro X (params i) 2 (5 * ((params i).lambda / 8) + 8) (in1 X i sg pk m)
/-- Input of `hash_challenge_2`: first challenge, `u_tilde`, digest of the hashed columns, `d`. -/
def in2 : List Byte :=
  ch1 X i sg pk m ++ (sg.drop (posU (params i))).take ((params i).lambda / 8 + 2)
    ++ vHv X (params i) (byteFn sg) (ch1 X i sg pk m) ++ (sg.drop (posD (params i))).take ((params i).l / 8)
/-- Second challenge. -/
def ch2 : List Byte := ro X (params i) 2 (3 * ((params i).lambda / 8) + 8) (in2 X i sg pk m)
/-- Input of `hash_challenge_3`: second challenge, `a_tilde`, recomputed `b_tilde`. -/
def in3 : List Byte :=
  ch2 X i sg pk m ++ (sg.drop (posA (params i))).take ((params i).lambda / 8)
    ++ (vB X (params i) (byteFn sg) (byteFn pk) (byteFn (pk.drop ((params i).pkSize / 2))) (ch2 X i sg pk m)).toBytes
/-- Final challenge. -/
def ch3 : List Byte := ro X (params i) 2 ((params i).lambda / 8) (in3 X i sg pk m)

end inputs

theorem tabP_sub (sg : List Byte) {off n : Nat} (h : off + n ≤ sg.length) :
    tabP n (fun t => byteFn sg (off + t)) = (sg.drop off).take n := by
  symm
  refine list_eq_tabP _ _ _ (by simp; omega) fun t ht => ?_
  rw [List.getElem?_take, if_pos ht, List.getElem?_drop]
  exact byteFn_getElem? rfl (by omega)

section
variable {X : XOF} {i : ParamId} {sg pk m : List Byte}

theorem layout_facts (i : ParamId) : posIv (params i) + 16 = (params i).sigSize ∧
    posU (params i) + ((params i).lambda / 8 + 2) = posD (params i) ∧
    posD (params i) + (params i).l / 8 = posA (params i) ∧
    posA (params i) + (params i).lambda / 8 ≤ posChall (params i) ∧
    posChall (params i) + (params i).lambda / 8 = posIv (params i) := by
  cases i <;> decide

theorem digest_eq (hpk : pk.length = (params i).pkSize) :
    muOf X (params i) (byteFn pk) (byteFn (pk.drop ((params i).pkSize / 2))) m = digest X i pk m := by
  have h2 := params_pk2 i
  have e1 := tabP_sub pk (off := 0) (n := (params i).pkSize / 2) (by omega)
  simp only [Nat.zero_add, List.drop_zero] at e1
  have e2 := tabP_sub (pk.drop ((params i).pkSize / 2)) (off := 0) (n := (params i).pkSize / 2)
    (by rw [List.length_drop]; omega)
  simp only [Nat.zero_add, List.drop_zero] at e2
  unfold muOf digest inMu
  rw [e1, e2, List.take_of_length_le (l := pk.drop _) (by rw [List.length_drop]; omega), List.take_append_drop]

/-- The recomputed challenge of the specification is `ch3`. -/
theorem ch3_eq (hpk : pk.length = (params i).pkSize) (hs : sg.length = (params i).sigSize) :
    vChall3 X (params i) (byteFn sg) (byteFn pk) (byteFn (pk.drop ((params i).pkSize / 2))) m = ch3 X i sg pk m := by
  obtain ⟨l1, l2, l3, l4, l5⟩ := layout_facts i
  have hIv : sgIv (params i) (byteFn sg) = sg.drop (posIv (params i)) := by
    unfold sgIv
    rw [tabP_sub sg (by omega), List.take_of_length_le (by rw [List.length_drop]; omega)]
  have hC : tabP (posU (params i)) (byteFn sg) = sg.take (posU (params i)) := by
    have := tabP_sub sg (off := 0) (n := posU (params i)) (by omega)
    simpa only [Nat.zero_add, List.drop_zero] using this
  have hU : sgU (params i) (byteFn sg) = (sg.drop (posU (params i))).take ((params i).lambda / 8 + 2) :=
    tabP_sub sg (by omega)
  have hD : sgD (params i) (byteFn sg) = (sg.drop (posD (params i))).take ((params i).l / 8) := tabP_sub sg (by omega)
  have hA : sgA (params i) (byteFn sg) = (sg.drop (posA (params i))).take ((params i).lambda / 8) :=
    tabP_sub sg (by omega)
  have h1 : vChall1 X (params i) (byteFn sg) (digest X i pk m) = ch1 X i sg pk m := by
    unfold vChall1 ch1 in1
    rw [hIv, hC]
  have h2 : vChall2 X (params i) (byteFn sg) (digest X i pk m) = ch2 X i sg pk m := by
    unfold vChall2 ch2 in2
    rw [h1, hU, hD]
  unfold vChall3 ch3 in3
  rw [digest_eq hpk, h2, hA]

/-- Acceptance: the recomputed challenge is the one in the signature. -/
theorem accepted_iff (X : XOF) (i : ParamId) (sg pk m : List Byte) (hpk : pk.length = (params i).pkSize)
    (hs : sg.length = (params i).sigSize) :
    verify X i (some (ofList pk)) (ofList m) m.length (some (ofList sg)) (params i).sigSize = some 0 ↔
      ch3 X i sg pk m = (sg.drop (posChall (params i))).take ((params i).lambda / 8) := by
  obtain ⟨l1, l2, l3, l4, l5⟩ := layout_facts i
  obtain ⟨r, h1, -, h2⟩ := verify_ok X (i := i) (m := m) hpk (rdN_ofList m) (has_ofList_le sg hs.ge)
  rw [h1]
  have : some r = some 0 ↔ r = 0 := by simp
  rw [this, h2]
  show vChall3 _ _ _ _ _ _ = tabP _ (sgChall (params i) (byteFn sg)) ↔ _
  rw [ch3_eq hpk hs, show tabP ((params i).lambda / 8) (sgChall (params i) (byteFn sg))
    = (sg.drop (posChall (params i))).take ((params i).lambda / 8) from tabP_sub sg (by omega)]

theorem digest_length : (digest X i pk m).length = 2 * ((params i).lambda / 8) := ro_length ..
theorem ch1_length : (ch1 X i sg pk m).length = 5 * ((params i).lambda / 8) + 8 := ro_length ..
theorem ch2_length : (ch2 X i sg pk m).length = 3 * ((params i).lambda / 8) + 8 := ro_length ..
theorem vHcom_length (f : Nat → Byte) : (vHcom X (params i) f).length = (params i).lambda / 8 * 2 := by
  unfold vHcom hcomOf squeeze
  rw [tabP_length]
theorem vHv_length (f : Nat → Byte) (c : List Byte) : (vHv X (params i) f c).length = 2 * ((params i).lambda / 8) :=
  ro_length ..

end

/-- **C26.** The three challenge hashes use the same final byte 2, but their inputs have different lengths: within one
parameter set no input of one is an input of another. -/
theorem C26_challenge_inputs_differ (X : XOF) (i : ParamId) (sg pk m sg' pk' m' : List Byte)
    (hs : sg.length = (params i).sigSize) (hs' : sg'.length = (params i).sigSize) :
    in1 X i sg pk m ≠ in2 X i sg' pk' m' ∧ in1 X i sg pk m ≠ in3 X i sg' pk' m' ∧
      in2 X i sg pk m ≠ in3 X i sg' pk' m' := by
  have hl : posU (params i) ≤ (params i).sigSize ∧ posIv (params i) + 16 = (params i).sigSize ∧
      posU (params i) + ((params i).lambda / 8 + 2) ≤ (params i).sigSize ∧
      posD (params i) + (params i).l / 8 ≤ (params i).sigSize ∧
      posA (params i) + (params i).lambda / 8 ≤ (params i).sigSize ∧
      let lb := (params i).lambda / 8
      let n1 := 4 * lb + posU (params i) + 16
      let n2 := 8 * lb + 10 + (params i).l / 8
      n1 ≠ n2 ∧ n1 ≠ 5 * lb + 8 ∧ n2 ≠ 5 * lb + 8 := by cases i <;> decide
  obtain ⟨a1, a2, a3, a4, a5, b1, b2, b3⟩ := hl
  have e1 : ∀ sg pk m : List Byte, sg.length = (params i).sigSize → (in1 X i sg pk m).length
      = 4 * ((params i).lambda / 8) + posU (params i) + 16 := by
    intro sg pk m hs
    unfold in1
    rw [List.length_append, List.length_append, List.length_append, digest_length, vHcom_length, List.length_take,
      List.length_drop, hs]
    omega
  have e2 : ∀ sg pk m : List Byte, sg.length = (params i).sigSize → (in2 X i sg pk m).length
      = 8 * ((params i).lambda / 8) + 10 + (params i).l / 8 := by
    intro sg pk m hs
    unfold in2
    rw [List.length_append, List.length_append, List.length_append, ch1_length, vHv_length, List.length_take,
      List.length_take, List.length_drop, List.length_drop, hs]
    omega
  have e3 : ∀ sg pk m : List Byte, sg.length = (params i).sigSize → (in3 X i sg pk m).length
      = 5 * ((params i).lambda / 8) + 8 := by
    intro sg pk m hs
    unfold in3
    rw [List.length_append, List.length_append, ch2_length, toBytes_length, List.length_take, List.length_drop, hs]
    omega
  refine ⟨fun h => ?_, fun h => ?_, fun h => ?_⟩
  · exact b1 (by rw [← e1 sg pk m hs, h, e2 _ _ _ hs'])
  · exact b2 (by rw [← e1 sg pk m hs, h, e3 _ _ _ hs'])
  · exact b3 (by rw [← e2 sg pk m hs, h, e3 _ _ _ hs'])

/-! ### C24 -/

/-- **C24.** If the same signature is accepted for two different pairs of public key and message, then one of four
explicit pairs of strings collides: the inputs of `hash_mu` under H1, or those of `hash_challenge_1/2/3` under H2, at
the output lengths used by the scheme. -/
theorem C24_binding (X : XOF) (i : ParamId) (sg pk m pk' m' : List Byte) (hpk : pk.length = (params i).pkSize)
    (hpk' : pk'.length = (params i).pkSize) (hs : sg.length = (params i).sigSize)
    (hv : verify X i (some (ofList pk)) (ofList m) m.length (some (ofList sg)) (params i).sigSize = some 0)
    (hv' : verify X i (some (ofList pk')) (ofList m') m'.length (some (ofList sg)) (params i).sigSize = some 0)
    (hne : (pk, m) ≠ (pk', m')) :
    let lb := (params i).lambda / 8
    Coll (fun x => H1 X (params i).lambda x (2 * lb)) (pk ++ m) (pk' ++ m') ∨
    Coll (fun x => H2 X (params i).lambda x (5 * lb + 8)) (in1 X i sg pk m) (in1 X i sg pk' m') ∨
    Coll (fun x => H2 X (params i).lambda x (3 * lb + 8)) (in2 X i sg pk m) (in2 X i sg pk' m') ∨
    Coll (fun x => H2 X (params i).lambda x lb) (in3 X i sg pk m) (in3 X i sg pk' m') := by
  intro lb
  rw [accepted_iff X i sg pk m hpk hs] at hv
  rw [accepted_iff X i sg pk' m' hpk' hs] at hv'
  rcases coll_or (f := fun x => H2 X (params i).lambda x lb) (hv.trans hv'.symm) with h3 | h3
  swap; · exact .inr (.inr (.inr h3))
  unfold in3 at h3
  rw [List.append_assoc, List.append_assoc] at h3
  obtain ⟨h3, -⟩ := List.append_inj h3 (by rw [ch2_length, ch2_length])
  rcases coll_or (f := fun x => H2 X (params i).lambda x (3 * lb + 8)) h3 with h2 | h2
  swap; · exact .inr (.inr (.inl h2))
  unfold in2 at h2
  rw [List.append_assoc, List.append_assoc, List.append_assoc, List.append_assoc] at h2
  obtain ⟨h2, -⟩ := List.append_inj h2 (by rw [ch1_length, ch1_length])
  rcases coll_or (f := fun x => H2 X (params i).lambda x (5 * lb + 8)) h2 with h1 | h1
  swap; · exact .inr (.inl h1)
  unfold in1 at h1
  rw [List.append_assoc, List.append_assoc, List.append_assoc, List.append_assoc] at h1
  obtain ⟨h1, -⟩ := List.append_inj h1 (by rw [digest_length, digest_length])
  rcases coll_or (f := fun x => H1 X (params i).lambda x (2 * lb)) h1 with h0 | h0
  swap; · exact .inl h0
  unfold inMu at h0
  obtain ⟨rfl, rfl⟩ := List.append_inj h0 (by rw [hpk, hpk'])
  exact absurd rfl hne

/-! ### C25 -/

/-- Node `j` of level `l` of tree `k` as recomputed by verification. -/
def recomputed (i : ParamId) (sg : List Byte) (k l j : Nat) : List Byte :=
  vNode (params i) (sg.drop (posIv (params i))) (sgChall (params i) (byteFn sg)) (sgNode (params i) (byteFn sg)) k l j

/-- Leaf commitment `j` of tree `k` as seen by verification: recomputed from the leaf, or, at the hidden leaf, the
one in the signature. -/
def commitment (X : XOF) (i : ParamId) (sg : List Byte) (k j : Nat) : List Byte :=
  vCom X (params i) (sg.drop (posIv (params i))) (sgChall (params i) (byteFn sg)) (sgNode (params i) (byteFn sg))
    (sgCom (params i) (byteFn sg)) k j

/-- All leaf commitments of tree `k`. -/
def treeInput (X : XOF) (i : ParamId) (sg : List Byte) (k : Nat) : List Byte :=
  (tabP (2 ^ depth (params i) k) (commitment X i sg k)).flatten

/-- The digests of all trees. -/
def comInput (X : XOF) (i : ParamId) (sg : List Byte) : List Byte :=
  (tabP (params i).tau fun k => H1 X (params i).lambda (treeInput X i sg k) ((params i).lambda / 8 * 2)).flatten

theorem sgIv_eq {i : ParamId} {sg : List Byte} (hs : sg.length = (params i).sigSize) :
    sgIv (params i) (byteFn sg) = sg.drop (posIv (params i)) := by
  obtain ⟨l1, l2, l3, l4, l5⟩ := layout_facts i
  unfold sgIv
  rw [tabP_sub sg (by omega), List.take_of_length_le (by rw [List.length_drop]; omega)]

/-- The digest of the commitments is the hash of `comInput`. -/
theorem vHcom_eq {X : XOF} {i : ParamId} {sg : List Byte} (hs : sg.length = (params i).sigSize) :
    vHcom X (params i) (byteFn sg) = H1 X (params i).lambda (comInput X i sg) ((params i).lambda / 8 * 2) := by
  unfold vHcom
  rw [sgIv_eq hs]
  rfl

theorem flatten_tabP_inj {n k : Nat} {f g : Nat → List Byte} (hf : ∀ j, j < n → (f j).length = k)
    (hg : ∀ j, j < n → (g j).length = k) (h : (tabP n f).flatten = (tabP n g).flatten) :
    ∀ j, j < n → f j = g j := by
  induction n with
  | zero => intro j hj; omega
  | succ n ih =>
    rw [flatten_tabP_succ, flatten_tabP_succ] at h
    obtain ⟨h1, h2⟩ := List.append_inj' h (by rw [hf n (by omega), hg n (by omega)])
    intro j hj
    by_cases he : j = n
    · rw [he]; exact h2
    · exact ih (fun j hj => hf j (by omega)) (fun j hj => hg j (by omega)) h1 j (by omega)

theorem commitment_length {X : XOF} {i : ParamId} {sg : List Byte} {k j : Nat} :
    (commitment X i sg k j).length = (params i).lambda / 8 * 2 := by
  unfold commitment vCom
  split
  · exact tabP_length ..
  · exact tabP_length ..

theorem child_append (lam : Nat) (iv key : List Byte) :
    child lam iv key 0 ++ child lam iv key 1 = prgL lam key iv (lam / 8 * 2) := by
  unfold child
  rw [if_pos rfl, if_neg (by decide), List.take_append_drop]

theorem recNode_length {lam d leaf : Nat} {iv : List Byte} {cop : Nat → List Byte}
    (hc : ∀ l, (cop l).length = lam / 8) : ∀ l j, (recNode lam iv cop d leaf l j).length = lam / 8 := by
  intro l j
  cases l with
  | zero => simp [recNode]
  | succ l =>
    unfold recNode
    split
    · split
      · simp
      · exact hc l
    · unfold child prgL
      split
      · rw [List.length_take, tabP_length]; omega
      · rw [List.length_drop, tabP_length]; omega

/-- If all leaves but the hidden one agree then all nodes off the hidden path agree, or two keys collide under the
PRG. -/
theorem nodes_agree {lam d leaf : Nat} {iv : List Byte} {cop cop' : Nat → List Byte} (hleaf : leaf < 2 ^ d)
    (h : ∀ j, j < 2 ^ d → j ≠ leaf → recNode lam iv cop d leaf d j = recNode lam iv cop' d leaf d j) :
    (∀ n l j, l + n = d → j < 2 ^ l → j ≠ anc d leaf l →
      recNode lam iv cop d leaf l j = recNode lam iv cop' d leaf l j) ∨
    ∃ l j, l < d ∧ j < 2 ^ l ∧ Coll (fun key => prgL lam key iv (lam / 8 * 2))
      (recNode lam iv cop d leaf l j) (recNode lam iv cop' d leaf l j) := by
  by_cases hcol : ∃ l j, l < d ∧ j < 2 ^ l ∧ Coll (fun key => prgL lam key iv (lam / 8 * 2))
      (recNode lam iv cop d leaf l j) (recNode lam iv cop' d leaf l j)
  · exact .inr hcol
  left
  intro n
  induction n with
  | zero =>
    intro l j hl hj hne
    obtain rfl : l = d := by omega
    refine h j hj ?_
    intro he
    apply hne
    unfold anc
    rw [he, Nat.sub_self, Nat.pow_zero, Nat.div_one]
  | succ n ih =>
    intro l j hl hj hne
    have hanc : anc d leaf l = anc d leaf (l + 1) / 2 := by
      unfold anc
      rw [Nat.div_div_eq_div_mul, ← Nat.pow_succ]
      congr 2
      omega
    have hpow : 2 ^ (l + 1) = 2 * 2 ^ l := by rw [Nat.pow_succ]; omega
    have c0 := ih (l + 1) (2 * j) (by omega) (by omega) (by intro he; apply hne; rw [hanc]; omega)
    have c1 := ih (l + 1) (2 * j + 1) (by omega) (by omega) (by intro he; apply hne; rw [hanc]; omega)
    have hr : ∀ (c : Nat → List Byte) (b : Nat), b < 2 → recNode lam iv c d leaf (l + 1) (2 * j + b)
        = child lam iv (recNode lam iv c d leaf l j) b := by
      intro c b hb
      have e1 : (2 * j + b) / 2 = j := by omega
      have e2 : (2 * j + b) % 2 = b := by omega
      rw [recNode, e1, e2, if_neg hne]
    have c0' : child lam iv (recNode lam iv cop d leaf l j) 0 = child lam iv (recNode lam iv cop' d leaf l j) 0 := by
      rw [← hr cop 0 (by omega), ← hr cop' 0 (by omega)]; exact c0
    have c1' : child lam iv (recNode lam iv cop d leaf l j) 1 = child lam iv (recNode lam iv cop' d leaf l j) 1 := by
      rw [← hr cop 1 (by omega), ← hr cop' 1 (by omega)]; exact c1
    have hp : prgL lam (recNode lam iv cop d leaf l j) iv (lam / 8 * 2)
        = prgL lam (recNode lam iv cop' d leaf l j) iv (lam / 8 * 2) := by
      rw [← child_append, ← child_append, c0', c1']
    rcases coll_or (f := fun key => prgL lam key iv (lam / 8 * 2)) hp with he | hc
    · exact he
    · exact absurd ⟨l, j, by omega, hj, hc⟩ hcol

theorem sib_div (j : Nat) : sib j / 2 = j / 2 ∧ sib j ≠ j := by
  unfold sib
  split <;> constructor <;> omega

theorem bitsNat_lt (f : Nat → Bool) (n : Nat) : Spec.bitsNat f n < 2 ^ n := by
  induction n with
  | zero => simp [Spec.bitsNat]
  | succ n ih =>
    rw [Spec.bitsNat, Nat.pow_succ]
    split <;> omega

/-- The opening is determined by the nodes off the hidden path. -/
theorem cop_of_nodes {lam d leaf : Nat} {iv : List Byte} {cop : Nat → List Byte} {l : Nat} (hl : l < d) :
    recNode lam iv cop d leaf (l + 1) (sib (anc d leaf (l + 1))) = cop l := by
  have hanc : anc d leaf l = anc d leaf (l + 1) / 2 := by
    unfold anc
    rw [Nat.div_div_eq_div_mul, ← Nat.pow_succ]
    congr 2
    omega
  obtain ⟨h1, h2⟩ := sib_div (anc d leaf (l + 1))
  rw [recNode, if_pos (by rw [h1, hanc]), if_neg h2]

theorem sib_lt {j n : Nat} (h : j < 2 ^ (n + 1)) : sib j < 2 ^ (n + 1) := by
  have : 2 ^ (n + 1) = 2 * 2 ^ n := by rw [Nat.pow_succ]; omega
  unfold sib
  split <;> omega

/-- Every position of a signature lies in one of the fields. -/
theorem position_cases (i : ParamId) (p : Nat) (hp : p < (params i).sigSize) :
    p < posU (params i) ∨ (posU (params i) ≤ p ∧ p < posD (params i)) ∨
    (posD (params i) ≤ p ∧ p < posA (params i)) ∨
    (posA (params i) ≤ p ∧ p < posA (params i) + (params i).lambda / 8) ∨
    (∃ k l t, k < (params i).tau ∧ l < depth (params i) k ∧ t < (params i).lambda / 8 ∧
      p = posTree (params i) k + ((params i).lambda / 8 * l + t)) ∨
    (∃ k t, k < (params i).tau ∧ t < (params i).lambda / 8 * 2 ∧ p = posCom (params i) k + t) ∨
    (posChall (params i) ≤ p ∧ p < posIv (params i)) ∨ posIv (params i) ≤ p := by
  have hwf := params_wf i
  by_cases h1 : p < posA (params i) + (params i).lambda / 8
  · omega
  by_cases h2 : posChall (params i) ≤ p
  · omega
  have h0 : posTree (params i) 0 = posA (params i) + (params i).lambda / 8 := PWF.posTree_zero
  have : ∀ n, n ≤ (params i).tau → p < posTree (params i) n → ∃ k, k < n ∧ posTree (params i) k ≤ p ∧
      p < posTree (params i) (k + 1) := by
    intro n
    induction n with
    | zero => intro _ h; omega
    | succ n ih =>
      intro hn h
      by_cases hc : p < posTree (params i) n
      · obtain ⟨k, a, b, c⟩ := ih (by omega) hc
        exact ⟨k, by omega, b, c⟩
      · exact ⟨n, by omega, by omega, h⟩
  obtain ⟨k, hk, hk1, hk2⟩ := this _ (Nat.le_refl _) (by unfold posChall at h2; omega)
  rw [PWF.posTree_succ] at hk2
  have hlb : 0 < (params i).lambda / 8 := by cases i <;> decide
  by_cases hc : p < posCom (params i) k
  · right; right; right; right; left
    unfold posCom at hc
    refine ⟨k, (p - posTree (params i) k) / ((params i).lambda / 8),
      (p - posTree (params i) k) % ((params i).lambda / 8), hk, ?_, Nat.mod_lt _ hlb, ?_⟩
    · exact Nat.div_lt_of_lt_mul (by omega)
    · rw [Nat.div_add_mod]; omega
  · right; right; right; right; right; left
    refine ⟨k, p - posCom (params i) k, hk, ?_, by omega⟩
    omega

/-- **C25.** If two different strings with the same final challenge are accepted as signatures of the same message
under the same public key, then one of the following explicit pairs collides: the inputs of one of the three
challenge hashes (H2), the strings of tree digests or of leaf commitments of one tree (H1), a leaf (the commitment
part of H0), or a node of one of the recomputed trees (PRG of twice the seed length, same iv). -/
theorem C25_no_slack (X : XOF) (i : ParamId) (sg sg' pk m : List Byte) (hpk : pk.length = (params i).pkSize)
    (hs : sg.length = (params i).sigSize) (hs' : sg'.length = (params i).sigSize)
    (hv : verify X i (some (ofList pk)) (ofList m) m.length (some (ofList sg)) (params i).sigSize = some 0)
    (hv' : verify X i (some (ofList pk)) (ofList m) m.length (some (ofList sg')) (params i).sigSize = some 0)
    (hch : (sg.drop (offChall3 (params i))).take ((params i).lambda / 8)
      = (sg'.drop (offChall3 (params i))).take ((params i).lambda / 8))
    (hne : sg ≠ sg') :
    let P := params i
    let lb := P.lambda / 8
    let iv := sg.drop (offIv P)
    Coll (fun x => H2 X P.lambda x lb) (in3 X i sg pk m) (in3 X i sg' pk m) ∨
    Coll (fun x => H2 X P.lambda x (3 * lb + 8)) (in2 X i sg pk m) (in2 X i sg' pk m) ∨
    Coll (fun x => H2 X P.lambda x (5 * lb + 8)) (in1 X i sg pk m) (in1 X i sg' pk m) ∨
    Coll (fun x => H1 X P.lambda x (2 * lb)) (comInput X i sg) (comInput X i sg') ∨
    (∃ k, k < P.tau ∧ Coll (fun x => H1 X P.lambda x (2 * lb)) (treeInput X i sg k) (treeInput X i sg' k)) ∨
    (∃ k j, k < P.tau ∧ j < 2 ^ depth P k ∧ Coll (fun node => (H0 X P.lambda (node ++ iv) lb (2 * lb)).2)
      (recomputed i sg k (depth P k) j) (recomputed i sg' k (depth P k) j)) ∨
    (∃ k l j, k < P.tau ∧ l < depth P k ∧ j < 2 ^ l ∧ Coll (fun node => prgL P.lambda node iv (2 * lb))
      (recomputed i sg k l j) (recomputed i sg' k l j)) := by
  intro P lb iv
  have hwf := params_wf i
  obtain ⟨l1, l2, l3, l4, l5⟩ : posIv P + 16 = P.sigSize ∧ posU P + (P.lambda / 8 + 2) = posD P ∧
      posD P + P.l / 8 = posA P ∧ posA P + P.lambda / 8 ≤ posChall P ∧ posChall P + P.lambda / 8 = posIv P :=
    layout_facts i
  have hs1 : sg.length = P.sigSize := hs
  have hs1' : sg'.length = P.sigSize := hs'
  have hoc : offChall3 P = posChall P := hwf.offChall3_eq
  have hoi : offIv P = posIv P := hwf.offIv_eq
  rw [hoc] at hch
  have hiv : iv = sg.drop (posIv P) := by rw [← hoi]
  clear_value iv
  rw [accepted_iff X i sg pk m hpk hs] at hv
  rw [accepted_iff X i sg' pk m hpk hs'] at hv'
  have hlb2 : lb * 2 = 2 * lb := Nat.mul_comm ..
  -- the three challenges
  rcases coll_or (f := fun x => H2 X P.lambda x lb) (hv.trans (hch.trans hv'.symm)) with h3 | h3
  swap; · exact .inl h3
  right
  unfold in3 at h3
  obtain ⟨h3, -⟩ := List.append_inj' h3 (by rw [toBytes_length, toBytes_length])
  obtain ⟨h3, hA⟩ := List.append_inj h3 (by rw [ch2_length, ch2_length])
  rcases coll_or (f := fun x => H2 X P.lambda x (3 * lb + 8)) h3 with h2 | h2
  swap; · exact .inl h2
  right
  unfold in2 at h2
  obtain ⟨h2, hD⟩ := List.append_inj' h2 (by
    rw [List.length_take, List.length_take, List.length_drop, List.length_drop, hs, hs'])
  obtain ⟨h2, -⟩ := List.append_inj' h2 (by rw [vHv_length, vHv_length])
  obtain ⟨h2, hU⟩ := List.append_inj h2 (by rw [ch1_length, ch1_length])
  rcases coll_or (f := fun x => H2 X P.lambda x (5 * lb + 8)) h2 with h1 | h1
  swap; · exact .inl h1
  right
  unfold in1 at h1
  obtain ⟨h1, hIv⟩ := List.append_inj' h1 (by rw [List.length_drop, List.length_drop, hs, hs'])
  obtain ⟨h1, hC⟩ := List.append_inj' h1 (by rw [List.length_take, List.length_take, hs, hs'])
  obtain ⟨-, hH⟩ := List.append_inj h1 rfl
  -- the commitments
  rw [vHcom_eq hs, vHcom_eq hs'] at hH
  have hH : H1 X P.lambda (comInput X i sg) (lb * 2) = H1 X P.lambda (comInput X i sg') (lb * 2) := hH
  rw [hlb2] at hH
  rcases coll_or (f := fun x => H1 X P.lambda x (2 * lb)) hH with h0 | h0
  swap; · exact .inl h0
  right
  by_cases hT : ∃ k, k < P.tau ∧ Coll (fun x => H1 X P.lambda x (2 * lb)) (treeInput X i sg k) (treeInput X i sg' k)
  · exact .inl hT
  right
  have htree : ∀ k, k < P.tau → treeInput X i sg k = treeInput X i sg' k := by
    intro k hk
    unfold comInput at h0
    have := flatten_tabP_inj (k := P.lambda / 8 * 2) (fun _ _ => tabP_length ..) (fun _ _ => tabP_length ..) h0 k hk
    have this : H1 X P.lambda (treeInput X i sg k) (lb * 2) = H1 X P.lambda (treeInput X i sg' k) (lb * 2) := this
    rw [hlb2] at this
    rcases coll_or (f := fun x => H1 X P.lambda x (2 * lb)) this with h | h
    · exact h
    · exact absurd ⟨k, hk, h⟩ hT
  have hcom : ∀ k, k < P.tau → ∀ j, j < 2 ^ depth P k → commitment X i sg k j = commitment X i sg' k j := by
    intro k hk
    exact flatten_tabP_inj (fun _ _ => commitment_length) (fun _ _ => commitment_length) (htree k hk)
  -- same hidden leaves
  have hchf : ∀ t, t < P.lambda / 8 → sgChall P (byteFn sg) t = sgChall P (byteFn sg') t := by
    refine tabP_inj ?_
    rw [show tabP (P.lambda / 8) (sgChall P (byteFn sg)) = _ from tabP_sub sg (by omega),
      show tabP (P.lambda / 8) (sgChall P (byteFn sg')) = _ from tabP_sub sg' (by omega)]
    exact hch
  have hleaf : ∀ k, k < P.tau → leafIdx P (sgChall P (byteFn sg)) k = leafIdx P (sgChall P (byteFn sg')) k := by
    intro k hk
    exact leafIdx_congr hwf hchf hk
  have hll : ∀ k, leafIdx P (sgChall P (byteFn sg)) k < 2 ^ depth P k := fun k => bitsNat_lt _ _
  -- hidden commitments
  have hcomj : ∀ k, k < P.tau → sgCom P (byteFn sg) k = sgCom P (byteFn sg') k := by
    intro k hk
    have := hcom k hk _ (hll k)
    unfold commitment vCom at this
    rwa [if_pos rfl, if_pos (hleaf k hk)] at this
  -- leaves
  by_cases hL : ∃ k j, k < P.tau ∧ j < 2 ^ depth P k ∧ Coll (fun node => (H0 X P.lambda (node ++ iv) lb (2 * lb)).2)
      (recomputed i sg k (depth P k) j) (recomputed i sg' k (depth P k) j)
  · exact .inl hL
  right
  have hleaves : ∀ k, k < P.tau → ∀ j, j < 2 ^ depth P k → j ≠ leafIdx P (sgChall P (byteFn sg)) k →
      recomputed i sg k (depth P k) j = recomputed i sg' k (depth P k) j := by
    intro k hk j hj hne
    have := hcom k hk j hj
    unfold commitment vCom at this
    rw [if_neg hne, if_neg (by rw [← hleaf k hk]; exact hne), ← hIv, ← hiv] at this
    rcases coll_or (f := fun node => (H0 X P.lambda (node ++ iv) lb (2 * lb)).2)
      (x := recomputed i sg k (depth P k) j) (x' := recomputed i sg' k (depth P k) j) (by
        unfold recomputed
        rw [← hIv, ← hiv, ← hlb2]
        exact this) with h | h
    · exact h
    · exact absurd ⟨k, j, hk, hj, h⟩ hL
  -- nodes
  by_contra hcon
  apply hne
  have hnode : ∀ k, k < P.tau → ∀ l, l < depth P k → sgNode P (byteFn sg) k l = sgNode P (byteFn sg') k l := by
    intro k hk l hl
    have hag := nodes_agree (lam := P.lambda) (iv := iv) (cop := sgNode P (byteFn sg) k)
      (cop' := sgNode P (byteFn sg') k) (hll k) (fun j hj hne => by
        have := hleaves k hk j hj hne
        unfold recomputed vNode at this
        rw [← hIv, ← hiv, ← hleaf k hk] at this
        exact this)
    rcases hag with hag | ⟨l', j, hl', hj, hc⟩
    · have hb : anc (depth P k) (leafIdx P (sgChall P (byteFn sg)) k) (l + 1) < 2 ^ (l + 1) := by
        unfold anc
        refine Nat.div_lt_of_lt_mul ?_
        rw [← Nat.pow_add]
        have : depth P k - (l + 1) + (l + 1) = depth P k := by omega
        rw [this]
        exact hll k
      have := hag (depth P k - (l + 1)) (l + 1) _ (by omega) (sib_lt hb) (sib_div _).2
      rwa [cop_of_nodes hl, cop_of_nodes hl] at this
    · exfalso
      apply hcon
      refine ⟨k, l', j, hk, hl', hj, ?_⟩
      unfold recomputed vNode
      rw [← hIv, ← hiv, ← hleaf k hk, ← hlb2]
      exact hc
  -- all fields agree
  have hsub : ∀ {off n : Nat}, off + n ≤ sg.length → (sg.drop off).take n = (sg'.drop off).take n →
      ∀ p, off ≤ p → p < off + n → byteFn sg p = byteFn sg' p := by
    intro off n hl h p h1 h2
    have e := congrArg (fun l : List Byte => l[p - off]?) h
    simp only [List.getElem?_take, if_pos (by omega : p - off < n), List.getElem?_drop,
      Nat.add_sub_cancel' h1] at e
    unfold byteFn
    rw [e]
  refine eq_of_byteFn (by rw [hs, hs']) fun p hp => ?_
  rw [hs] at hp
  have hU : (sg.drop (posU P)).take (P.lambda / 8 + 2) = (sg'.drop (posU P)).take (P.lambda / 8 + 2) := hU
  have hD : (sg.drop (posD P)).take (P.l / 8) = (sg'.drop (posD P)).take (P.l / 8) := hD
  have hA : (sg.drop (posA P)).take (P.lambda / 8) = (sg'.drop (posA P)).take (P.lambda / 8) := hA
  have hC' : ∀ p, p < posU P → byteFn sg p = byteFn sg' p := by
    intro p hp
    exact hsub (off := 0) (n := posU P) (by omega) (by simpa only [List.drop_zero] using hC) p (by omega) (by omega)
  rcases position_cases i p hp with h | ⟨ha, hb⟩ | ⟨ha, hb⟩ | ⟨ha, hb⟩ | ⟨k, l, t, hk, hl, ht, rfl⟩ | ⟨k, t, hk, ht, rfl⟩ |
    ⟨ha, hb⟩ | h
  · exact hC' p h
  · exact hsub (by omega) hU p ha (by rw [l2]; exact hb)
  · exact hsub (by omega) hD p ha (by rw [l3]; exact hb)
  · exact hsub (by omega) hA p ha hb
  · exact tabP_inj (hnode k hk l hl) t ht
  · exact tabP_inj (hcomj k hk) t ht
  · exact hsub (off := posChall P) (n := P.lambda / 8) (by omega) hch p ha (by rw [l5]; exact hb)
  · refine hsub (off := posIv P) (n := 16) (by omega) ?_ p h (by rw [l1]; exact hp)
    rw [hIv]

/-- For the hash that is constantly zero, strings with zero final challenge are accepted for every key and message:
the hypotheses of `C24_binding` and `C25_no_slack` can be met. -/
theorem zero_hash_accepts (i : ParamId) (sg pk m : List Byte) (hpk : pk.length = (params i).pkSize)
    (hs : sg.length = (params i).sigSize)
    (hz : (sg.drop (posChall (params i))).take ((params i).lambda / 8) = List.replicate ((params i).lambda / 8) 0) :
    verify (fun _ _ _ => 0) i (some (ofList pk)) (ofList m) m.length (some (ofList sg)) (params i).sigSize
      = some 0 := by
  rw [accepted_iff _ i sg pk m hpk hs, hz]
  refine List.eq_replicate_iff.mpr ⟨ro_length .., fun b hb => ?_⟩
  unfold ch3 ro squeeze at hb
  rw [List.mem_iff_getElem?] at hb
  obtain ⟨k, hk⟩ := hb
  rw [tabP_getElem?] at hk
  split at hk
  · exact (Option.some.inj hk).symm
  · cases hk

/-- The zero string of the length of a signature, with one byte replaced. -/
def nearlyZero (i : ParamId) (b : Byte) : List Byte := b :: List.replicate ((params i).sigSize - 1) 0

theorem nearlyZero_facts (b : Byte) : (nearlyZero .p128F b).length = (params .p128F).sigSize ∧
    ((nearlyZero .p128F b).drop (posChall (params .p128F))).take ((params .p128F).lambda / 8)
      = List.replicate ((params .p128F).lambda / 8) 0 := by
  have h : posChall (params .p128F) = (posChall (params .p128F) - 1) + 1 := by decide
  constructor
  · rw [nearlyZero, List.length_cons, List.length_replicate]; decide
  · rw [nearlyZero, h, List.drop_succ_cons, List.drop_replicate, List.take_replicate]
    congr 1

-- one string accepted for two messages (C24), two strings accepted for one message (C25)
example : let X : XOF := fun _ _ _ => 0
    verify X .p128F (some (ofList Concrete.pk)) (ofList [1]) 1 (some (ofList (nearlyZero .p128F 0)))
      (params .p128F).sigSize = some 0 ∧
    verify X .p128F (some (ofList Concrete.pk)) (ofList [2]) 1 (some (ofList (nearlyZero .p128F 0)))
      (params .p128F).sigSize = some 0 ∧
    verify X .p128F (some (ofList Concrete.pk)) (ofList [2]) 1 (some (ofList (nearlyZero .p128F 1)))
      (params .p128F).sigSize = some 0 ∧
    (Concrete.pk, [1]) ≠ (Concrete.pk, ([2] : List Byte)) ∧ nearlyZero .p128F 0 ≠ nearlyZero .p128F 1 ∧
    ((nearlyZero .p128F 0).drop (offChall3 (params .p128F))).take ((params .p128F).lambda / 8)
      = ((nearlyZero .p128F 1).drop (offChall3 (params .p128F))).take ((params .p128F).lambda / 8) := by
  have hl : Concrete.pk.length = (params .p128F).pkSize := by decide
  refine ⟨?_, ?_, ?_, by decide, ?_, ?_⟩
  · exact zero_hash_accepts .p128F _ _ [1] hl (nearlyZero_facts 0).1 (nearlyZero_facts 0).2
  · exact zero_hash_accepts .p128F _ _ [2] hl (nearlyZero_facts 0).1 (nearlyZero_facts 0).2
  · exact zero_hash_accepts .p128F _ _ [2] hl (nearlyZero_facts 1).1 (nearlyZero_facts 1).2
  · intro h
    exact absurd (List.cons.inj h).1 (by decide)
  · rw [(params_wf .p128F).offChall3_eq, (nearlyZero_facts 0).2, (nearlyZero_facts 1).2]

end Faest.Props
