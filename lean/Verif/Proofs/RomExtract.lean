/-
If no answer is bad, the extractor finds a key from an accepted signature.
-/
import Verif.Proofs.RomBad
import Verif.Proofs.VoleCorr

namespace Faest.Rom
open Spec

/-- The strings hashed by the verifier. -/
inductive Hashed (X : XOF) (P : Params) (pk m sg : List Byte) : List Byte → Prop
  | leaf (a j : Nat) (ha : a < P.tau) (hj : j < 2 ^ depth P a) : Hashed X P pk m sg (leafStr P sg a j)
  | tree (a : Nat) (ha : a < P.tau) : Hashed X P pk m sg (treeStr X P sg a)
  | trees : Hashed X P pk m sg (treesStr X P sg)
  | mu : Hashed X P pk m sg (muStr P pk m)
  | chall1 : Hashed X P pk m sg (str1 X P pk m sg)
  | tags : Hashed X P pk m sg (tagsStr X P pk m sg)
  | chall2 : Hashed X P pk m sg (str2 X P pk m sg)
  | chall3 : Hashed X P pk m sg (str3 X P pk m sg)

section
variable {L M : Nat} {P : Params} {A : List (Ans M) → Qry L} {f : Qry L → Ans M} {T : Nat}

/-- The string `s` is asked for the first time as question `k`. -/
structure Asked (P : Params) (A : List (Ans M) → Qry L) (f : Qry L → Ans M) (T k : Nat) (q : Qry L) (s : List Byte) :
    Prop where
  lt : k < T
  first : FirstAt A f k q
  sel : q.1 = decide (hashSel P.lambda = 128)
  str : q.2.1 = s

theorem Asked.byte {k : Nat} {q : Qry L} {s : List Byte} (h : Asked P A f T k q s) (t : Nat) :
    xof f (hashSel P.lambda) s t = byteOf (f q) t := by
  unfold xof
  rw [dif_pos (by rw [← h.str]; exact q.2.2)]
  congr 2
  exact Prod.ext h.sel.symm (Subtype.ext h.str.symm)

theorem Asked.squeeze {k : Nat} {q : Qry L} {s : List Byte} (h : Asked P A f T k q s) (o n : Nat) :
    squeeze (xof f) (hashSel P.lambda) s o n = tabP n fun t => byteOf (f q) (o + t) :=
  tabP_congr fun _ _ => h.byte _

theorem Asked.squeeze0 {k : Nat} {q : Qry L} {s : List Byte} (h : Asked P A f T k q s) (n : Nat) :
    Faest.squeeze (xof f) (hashSel P.lambda) s 0 n = tabP n (byteOf (f q)) := by
  rw [h.squeeze]
  exact tabP_congr fun t _ => by rw [Nat.zero_add]

theorem Asked.win {k : Nat} {q : Qry L} {s : List Byte} (h : Asked P A f T k q s) (o : Nat) :
    Faest.squeeze (xof f) (hashSel P.lambda) s o (P.lambda / 8 * 2) = window P o (f q) := h.squeeze _ _

theorem squeeze_length (X : XOF) (sel : Nat) (s : List Byte) (o n : Nat) : (Faest.squeeze X sel s o n).length = n :=
  tabP_length _ _

theorem exists_asked {s : List Byte} (h : ∃ e ∈ log A f T, e.1.1 = decide (hashSel P.lambda = 128) ∧ e.1.2.1 = s) :
    ∃ k q, Asked P A f T k q s := by
  obtain ⟨e, he, h1, h2⟩ := h
  obtain ⟨k, hk, rfl⟩ := mem_log.1 he
  obtain ⟨k', hk', hf⟩ := exists_first (A := A) (f := f) (n := T) ⟨k, hk, rfl⟩
  exact ⟨k', _, hk', hf, h1, h2⟩

/-- A string which contains the answer to another one is asked later, and the other one is found. -/
theorem found (h : NoHit P A f T) {o : Nat} (ho : o = 0 ∨ o = P.lambda / 8) {k k' n p : Nat} {q q' : Qry L}
    {s s' : List Byte} (ha : Asked P A f T k q s) (hb : Asked P A f T k' q' s') (hp : p + P.lambda / 8 * 2 ≤ s'.length)
    (e : part s' p (P.lambda / 8 * 2) = Faest.squeeze (xof f) (hashSel P.lambda) s o (P.lambda / 8 * 2))
    (hk : k' ≤ n) (hn : n ≤ T) :
    k < k' ∧ find P (log A f n) o (part s' p (P.lambda / 8 * 2)) = some (q, f q) := by
  have hlt : k < k' := order h ho ha.lt ha.first hb.first (by rw [hb.str]; exact hp) (by rw [hb.str, e]; exact ha.win o)
  refine ⟨hlt, ?_⟩
  rw [e, ha.win]
  exact find_log h ho ha.first (by omega) hn

variable {pk m sg : List Byte}

theorem comOf_length (X : XOF) (a j : Nat) : (comOf X P sg a j).length = P.lambda / 8 * 2 := by
  unfold comOf vCom
  split
  · exact tabP_length _ _
  · exact squeeze_length _ _ _ _ _

theorem muOf_length (X : XOF) (I O : Nat → Byte) : (muOf X P I O m).length = P.lambda / 8 * 2 := by
  rw [Nat.mul_comm]; exact tabP_length _ _

theorem vHcom_length (X : XOF) (g : Nat → Byte) : (vHcom X P g).length = P.lambda / 8 * 2 := tabP_length _ _

theorem str1_hcom : part (str1 (xof f) P pk m sg) (P.lambda / 8 * 2) (P.lambda / 8 * 2) = vHcom (xof f) P (byteFn sg) := by
  unfold str1 vMu
  simp only [List.append_assoc]
  exact part_append (muOf_length _ _ _) (vHcom_length _ _)

theorem str1_length : (str1 (xof f) P pk m sg).length = P.lambda / 8 * 4 + posU P + 17 := by
  unfold str1 sgIv vMu
  simp only [List.length_append, muOf_length, vHcom_length, tabP_length, List.length_singleton]
  omega

theorem str1_iv : xIv P (str1 (xof f) P pk m sg) = sgIv P (byteFn sg) := by
  unfold xIv str1 vMu
  simp only [List.append_assoc]
  rw [← List.append_assoc, ← List.append_assoc]
  refine part_append ?_ (tabP_length _ _)
  simp only [List.length_append, muOf_length, vHcom_length, tabP_length]
  omega

theorem byteFn_append_right (a b : List Byte) (t : Nat) : byteFn (a ++ b) (a.length + t) = byteFn b t := by
  unfold byteFn
  rw [List.getElem?_append_right (by omega), Nat.add_sub_cancel_left]

theorem byteFn_append_left {a b : List Byte} {t : Nat} (h : t < a.length) : byteFn (a ++ b) t = byteFn a t := by
  unfold byteFn
  rw [List.getElem?_append_left h]

theorem str1_corr {a t : Nat} (ha : a < P.tau) (ht : t < colBytes P) :
    xCorr P (str1 (xof f) P pk m sg) a t = if a = 0 then 0 else byteFn sg (posC P (a - 1) + t) := by
  unfold xCorr
  split
  · rfl
  · rename_i h0
    have hb : posC P (a - 1) + t < posU P := by
      unfold posU posC
      have : (a - 1 + 1) * colBytes P ≤ (P.tau - 1) * colBytes P := Nat.mul_le_mul_right _ (by omega)
      rw [Nat.succ_mul] at this; omega
    unfold str1 vMu
    simp only [List.append_assoc]
    rw [← List.append_assoc]
    have hl : (muOf (xof f) P (byteFn pk) (byteFn (pk.drop (P.pkSize / 2))) m ++ vHcom (xof f) P (byteFn sg)).length
        = P.lambda / 8 * 4 := by
      simp only [List.length_append, muOf_length, vHcom_length]; omega
    rw [← hl, byteFn_append_right, byteFn_append_left (by rw [tabP_length]; exact hb), byteFn_tabP hb]

/-- The seeds of all leaves but the hidden ones are extracted. -/
theorem sd_extracted (h : NoHit P A f T)
    (hask : ∀ s, Hashed (xof f) P pk m sg s →
      ∃ e ∈ log A f T, e.1.1 = decide (hashSel P.lambda = 128) ∧ e.1.2.1 = s)
    {k1 : Nat} {q1 : Qry L} (h1 : Asked P A f T k1 q1 (str1 (xof f) P pk m sg)) {a j : Nat} (ha : a < P.tau)
    (hj : j < 2 ^ depth P a) (hne : j ≠ leafIdx P (sgChall P (byteFn sg)) a) :
    xSd P (log A f k1) (str1 (xof f) P pk m sg) a j = leafSd (xof f) P.lambda (sgIv P (byteFn sg))
      (vNode P (sgIv P (byteFn sg)) (sgChall P (byteFn sg)) (sgNode P (byteFn sg)) a (depth P a) j) := by
  obtain ⟨kt, qt, ht⟩ := exists_asked (hask _ .trees)
  obtain ⟨ka, qa, hqa⟩ := exists_asked (hask _ (.tree a ha))
  obtain ⟨kl, ql, hl⟩ := exists_asked (hask _ (.leaf a j ha hj))
  replace ht : Asked P A f T kt qt ((tabP P.tau fun a =>
    comDigest (xof f) P.lambda (2 ^ depth P a) (comOf (xof f) P sg a)).flatten ++ [1]) := ht
  replace hqa : Asked P A f T ka qa ((tabP (2 ^ depth P a) (comOf (xof f) P sg a)).flatten ++ [1]) := hqa
  have hdl : ∀ a, (comDigest (xof f) P.lambda (2 ^ depth P a) (comOf (xof f) P sg a)).length = P.lambda / 8 * 2 :=
    fun a => squeeze_length _ _ _ _ _
  have hcl := comOf_length (P := P) (sg := sg) (xof f)
  -- digest of the trees
  obtain ⟨o1, f1⟩ := found h (.inl rfl) ht h1 (p := P.lambda / 8 * 2) (n := k1) (by rw [str1_length]; omega)
    str1_hcom (Nat.le_refl _) h1.lt.le
  have hD : ∀ a, a < P.tau → xDigest P (log A f k1) (str1 (xof f) P pk m sg) a
      = comDigest (xof f) P.lambda (2 ^ depth P a) (comOf (xof f) P sg a) := by
    intro a ha
    unfold xDigest findStr
    rw [f1, Option.map_some, Option.getD_some, ht.str]
    exact part_flatten hdl ha _
  -- digest of tree `a`
  have e2 : part ((tabP P.tau fun a => comDigest (xof f) P.lambda (2 ^ depth P a) (comOf (xof f) P sg a)).flatten ++ [1])
      (a * (P.lambda / 8 * 2)) (P.lambda / 8 * 2) = comDigest (xof f) P.lambda (2 ^ depth P a) (comOf (xof f) P sg a) :=
    part_flatten hdl ha _
  have hlen2 : a * (P.lambda / 8 * 2) + P.lambda / 8 * 2 ≤ P.lambda / 8 * 2 * P.tau := by
    have := Nat.mul_le_mul_left (P.lambda / 8 * 2) (show a + 1 ≤ P.tau by omega)
    rw [Nat.mul_succ] at this; rwa [Nat.mul_comm a]
  obtain ⟨o2, f2⟩ := found h (.inl rfl) hqa ht (p := a * (P.lambda / 8 * 2)) (n := k1)
    (by rw [List.length_append, flatten_len hdl]; omega) e2 (by omega) h1.lt.le
  have hC : xCom P (log A f k1) (str1 (xof f) P pk m sg) a j = comOf (xof f) P sg a j := by
    unfold xCom findStr
    rw [hD a ha, ← e2, f2, Option.map_some, Option.getD_some, hqa.str]
    exact part_flatten (hcl a) hj _
  -- commitment of the leaf
  have e3 : part ((tabP (2 ^ depth P a) (comOf (xof f) P sg a)).flatten ++ [1]) (j * (P.lambda / 8 * 2)) (P.lambda / 8 * 2)
      = comOf (xof f) P sg a j := part_flatten (hcl a) hj _
  have e4 : comOf (xof f) P sg a j = leafCom (xof f) P.lambda (sgIv P (byteFn sg))
      (vNode P (sgIv P (byteFn sg)) (sgChall P (byteFn sg)) (sgNode P (byteFn sg)) a (depth P a) j) := by
    unfold comOf vCom
    rw [if_neg hne]
  have hlen3 : j * (P.lambda / 8 * 2) + P.lambda / 8 * 2 ≤ P.lambda / 8 * 2 * 2 ^ depth P a := by
    have := Nat.mul_le_mul_left (P.lambda / 8 * 2) (show j + 1 ≤ 2 ^ depth P a by omega)
    rw [Nat.mul_succ] at this; rwa [Nat.mul_comm j]
  obtain ⟨o3, f3⟩ := found h (.inr rfl) hl hqa (p := j * (P.lambda / 8 * 2)) (n := k1)
    (by rw [List.length_append, flatten_len (hcl a)]; omega)
    (e3.trans e4) (by omega) h1.lt.le
  unfold xSd
  rw [hC, ← e3]
  rw [f3, Option.map_some, Option.getD_some]
  exact (hl.squeeze0 _).symm

/-- The columns of the verifier are those of the extracted commitment. -/
theorem col_extracted (hP : PWF P) (h : NoHit P A f T)
    (hask : ∀ s, Hashed (xof f) P pk m sg s →
      ∃ e ∈ log A f T, e.1.1 = decide (hashSel P.lambda = 128) ∧ e.1.2.1 = s)
    {k1 : Nat} {q1 : Qry L} (h1 : Asked P A f T k1 q1 (str1 (xof f) P pk m sg)) {p : Nat} (hp : p < P.lambda) {t : Nat}
    (ht : t < colBytes P) :
    vCol (xof f) P (byteFn sg) p t = xV P (log A f k1) (str1 (xof f) P pk m sg) p t
      ^^^ if strBit (sgChall P (byteFn sg)) p then xU P (log A f k1) (str1 (xof f) P pk m sg) (treeOf P p) t else 0 := by
  obtain ⟨a, j, ha, hj, rfl⟩ := hP.col_exists hp
  unfold vCol xV
  rw [vQ_col hP hj, hP.treeOf_col hj, show posOf P (colStart P a + j) = j by
      unfold posOf; rw [hP.treeOf_col hj]; omega,
    voleV_shift (depth P a) (leafIdx P (sgChall P (byteFn sg)) a) j t (leafIdx_lt P _ a)
      (xR P (log A f k1) (str1 (xof f) P pk m sg) a)]
  · rw [leafIdx_bit hj]
    unfold xU Spec.sel sgCorr
    rw [str1_corr ha ht, hP.treeOf_col hj]
    cases strBit (sgChall P (byteFn sg)) (colStart P a + j)
    · simp
    · simp [BitVec.xor_assoc]
  · intro k hk hk0
    unfold vR xR
    rw [if_neg hk0, str1_iv]
    have := sd_extracted h hask h1 ha (nat_xor_lt hk (leafIdx_lt P (sgChall P (byteFn sg)) a)) (nat_xor_ne hk0)
    exact congrArg (fun sd => expand P.lambda (sgIv P (byteFn sg)) sd t) this.symm

theorem tabP_take {α : Type} {n k : Nat} (h : k ≤ n) (g : Nat → α) : (tabP n g).take k = tabP k g := by
  refine list_eq_tabP _ _ _ (by rw [List.length_take, tabP_length]; omega) fun t ht => ?_
  rw [List.getElem?_take, if_pos ht, tabP_getElem?, if_pos (by omega)]

theorem squeeze_take (X : XOF) (sel : Nat) (s : List Byte) {n k : Nat} (h : k ≤ n) :
    (Faest.squeeze X sel s 0 n).take k = Faest.squeeze X sel s 0 k := tabP_take h _

end

section
variable {L M : Nat} {i : ParamId} {A : List (Ans M) → Qry L} {f : Qry L → Ans M} {T : Nat} {pk m sg : List Byte}

/-- **The extractor works** if no answer is bad. -/
theorem extract
    (hgood : ∀ k, k < T → Fresh A f k → f (question A f k) ∉ Bad i (byteFn pk) (byteFn (pk.drop ((params i).pkSize / 2)))
      (ofList pk) (ofList (pk.drop ((params i).pkSize / 2))) (log A f k) (question A f k))
    (hpk : pk.length = (params i).pkSize) (hsg : sg.length = (params i).sigSize)
    (hver : verify (xof f) i (some (ofList pk)) (ofList m) m.length (some (ofList sg)) sg.length = some 0)
    (hask : ∀ s, Hashed (xof f) (params i) pk m sg s →
      ∃ e ∈ log A f T, e.1.1 = decide (hashSel (params i).lambda = 128) ∧ e.1.2.1 = s) :
    ∃ key ∈ keys (params i) (log A f T), owf i (ofList key) (ofList pk)
      = some (tabP ((params i).pkSize / 2) (byteFn (pk.drop ((params i).pkSize / 2))), true) := by
  classical
  have hP := params_wf i
  have hp2 := params_pk2 i
  have h8 : 8 * ((params i).lambda / 8) = (params i).lambda := by cases i <;> decide
  have hl8 := hP.l8
  have hno : NoHit (params i) A f T := fun k hk hf h => hgood k hk hf (Or.inl h)
  obtain ⟨k1, q1, h1⟩ := exists_asked (hask _ .chall1)
  obtain ⟨k2, q2, h2⟩ := exists_asked (hask _ .chall2)
  obtain ⟨k3, q3, h3⟩ := exists_asked (hask _ .chall3)
  obtain ⟨kT, qT, hT⟩ := exists_asked (hask _ .tags)
  replace h1 : Asked (params i) A f T k1 q1 (str1 (xof f) (params i) pk m sg) := h1
  replace h2 : Asked (params i) A f T k2 q2 (str2 (xof f) (params i) pk m sg) := h2
  replace h3 : Asked (params i) A f T k3 q3 (str3 (xof f) (params i) pk m sg) := h3
  have hch1 : vChall1 (xof f) (params i) (byteFn sg)
      (muOf (xof f) (params i) (byteFn pk) (byteFn (pk.drop ((params i).pkSize / 2))) m)
      = List.ofFn (pre (5 * ((params i).lambda / 8) + 8) (f q1)) := by
    rw [ofFn_pre]; exact h1.squeeze0 _
  have hch2 : vChall2 (xof f) (params i) (byteFn sg)
      (muOf (xof f) (params i) (byteFn pk) (byteFn (pk.drop ((params i).pkSize / 2))) m)
      = List.ofFn (pre (3 * ((params i).lambda / 8) + 8) (f q2)) := by
    rw [ofFn_pre]; exact h2.squeeze0 _
  have hch3 : vChall3 (xof f) (params i) (byteFn sg) (byteFn pk) (byteFn (pk.drop ((params i).pkSize / 2))) m
      = List.ofFn (pre ((params i).lambda / 8) (f q3)) := by
    rw [ofFn_pre]; exact h3.squeeze0 _
  have hl1 : (vChall1 (xof f) (params i) (byteFn sg)
      (muOf (xof f) (params i) (byteFn pk) (byteFn (pk.drop ((params i).pkSize / 2))) m)).length
      = 5 * ((params i).lambda / 8) + 8 := squeeze_length _ _ _ _ _
  have hl2 : (vChall2 (xof f) (params i) (byteFn sg)
      (muOf (xof f) (params i) (byteFn pk) (byteFn (pk.drop ((params i).pkSize / 2))) m)).length
      = 3 * ((params i).lambda / 8) + 8 := squeeze_length _ _ _ _ _
  have hlu : (sgU (params i) (byteFn sg)).length = (params i).lambda / 8 + 2 := tabP_length _ _
  have hld : (sgD (params i) (byteFn sg)).length = (params i).l / 8 := tabP_length _ _
  have hla : (sgA (params i) (byteFn sg)).length = (params i).lambda / 8 := tabP_length _ _
  have hlh : ∀ c, (vHv (xof f) (params i) (byteFn sg) c).length = (params i).lambda / 8 * 2 := fun c => by
    rw [Nat.mul_comm]; exact squeeze_length _ _ _ _ _
  have hlb : ∀ b : BF (params i).lambda, b.toBytes.length = (params i).lambda / 8 := fun b => by
    simp [BF.toBytes]
  -- parts of the strings
  have p20 : part (str2 (xof f) (params i) pk m sg) 0 ((params i).lambda / 8 * 2) = Faest.squeeze (xof f)
      (hashSel (params i).lambda) (str1 (xof f) (params i) pk m sg) 0 ((params i).lambda / 8 * 2) := by
    unfold str2 vC1 vMu
    simp only [List.append_assoc]
    rw [part_zero (by omega)]
    exact squeeze_take _ _ _ (by omega)
  have p2u : xUt i (str2 (xof f) (params i) pk m sg) = sgU (params i) (byteFn sg) := by
    unfold xUt str2 vC1 vMu
    simp only [List.append_assoc]
    exact part_append (by omega) hlu
  have p2h : xHv i (str2 (xof f) (params i) pk m sg) = vHv (xof f) (params i) (byteFn sg) (vChall1 (xof f) (params i) (byteFn sg)
      (muOf (xof f) (params i) (byteFn pk) (byteFn (pk.drop ((params i).pkSize / 2))) m)) := by
    unfold xHv str2 vC1 vMu
    simp only [List.append_assoc]
    rw [← List.append_assoc]
    exact part_append (by rw [List.length_append]; omega) (hlh _)
  have e2d : ∃ z, z.length = (params i).lambda / 8 * 8 + 10 ∧
      str2 (xof f) (params i) pk m sg = z ++ (sgD (params i) (byteFn sg) ++ [2]) := by
    refine ⟨_, ?_, List.append_assoc _ _ _⟩
    have hl1' : (vC1 (xof f) (params i) pk m sg).length = 5 * ((params i).lambda / 8) + 8 := hl1
    rw [List.length_append, List.length_append, hlh]; omega
  have p2d : xD i (str2 (xof f) (params i) pk m sg) = sgD (params i) (byteFn sg) := by
    obtain ⟨z, hz, e⟩ := e2d
    unfold xD
    rw [e]
    exact part_append hz hld
  have p30 : part (str3 (xof f) (params i) pk m sg) 0 ((params i).lambda / 8 * 2) = Faest.squeeze (xof f)
      (hashSel (params i).lambda) (str2 (xof f) (params i) pk m sg) 0 ((params i).lambda / 8 * 2) := by
    unfold str3 vC2 vMu
    simp only [List.append_assoc]
    rw [part_zero (by omega)]
    exact squeeze_take _ _ _ (by omega)
  have p3a : xA i (str3 (xof f) (params i) pk m sg) = sgA (params i) (byteFn sg) := by
    unfold xA str3 vC2 vMu
    simp only [List.append_assoc]
    exact part_append (by omega) hla
  have p3b : xB i (str3 (xof f) (params i) pk m sg) = (vB (xof f) (params i) (byteFn sg) (byteFn pk)
        (byteFn (pk.drop ((params i).pkSize / 2))) (vChall2 (xof f) (params i) (byteFn sg)
        (muOf (xof f) (params i) (byteFn pk) (byteFn (pk.drop ((params i).pkSize / 2))) m))).toBytes := by
    unfold xB str3 vC2 vMu
    simp only [List.append_assoc]
    rw [← List.append_assoc]
    exact part_append (by rw [List.length_append]; omega) (hlb _)
  have len2 : (params i).lambda / 8 * 8 + 10 ≤ (str2 (xof f) (params i) pk m sg).length := by
    obtain ⟨z, hz, e⟩ := e2d
    rw [e, List.length_append]; omega
  have len3 : (params i).lambda / 8 * 3 + 8 ≤ (str3 (xof f) (params i) pk m sg).length := by
    unfold str3 vC2 vMu
    simp only [List.length_append]
    omega
  -- who is found
  obtain ⟨o12, f12⟩ := found hno (.inl rfl) h1 h2 (p := 0) (n := k2) (by omega) p20 (Nat.le_refl _) h2.lt.le
  obtain ⟨o23, f23⟩ := found hno (.inl rfl) h2 h3 (p := 0) (n := k3) (by omega) p30 (Nat.le_refl _) h3.lt.le
  have pT : part (str2 (xof f) (params i) pk m sg) ((params i).lambda / 8 * 6 + 10) ((params i).lambda / 8 * 2)
      = Faest.squeeze (xof f) (hashSel (params i).lambda) ((tabP (params i).lambda fun p =>
        tabP ((params i).lambda / 8 + 2) (vTag (xof f) (params i) (byteFn sg) (vChall1 (xof f) (params i) (byteFn sg)
        (muOf (xof f) (params i) (byteFn pk) (byteFn (pk.drop ((params i).pkSize / 2))) m)) p)).flatten ++ [1]) 0
        ((params i).lambda / 8 * 2) := by
    have := p2h
    unfold xHv at this
    rw [this, Nat.mul_comm ((params i).lambda / 8) 2]
    rfl
  obtain ⟨-, fT⟩ := found hno (.inl rfl) hT h2 (p := (params i).lambda / 8 * 6 + 10) (n := k2) (by omega) pT
    (Nat.le_refl _) h2.lt.le
  have b21 : before (log A f k2) q1 = log A f k1 := before_log h1.first o12
  have b32 : before (log A f k3) q2 = log A f k2 := before_log h2.first o23
  -- the checks
  set v := xV (params i) (log A f k1) (str1 (xof f) (params i) pk m sg) with hv
  set u := xU (params i) (log A f k1) (str1 (xof f) (params i) pk m sg) with hu
  have hcb : colBytes (params i) = Props.colLen i := by
    unfold colBytes Props.colLen; omega
  obtain ⟨-, -, hc3, hchk⟩ := Props.accepted_checks (xof f) i hpk hsg hver v u
    (fun p hp t ht => col_extracted hP hno hask h1 hp (by omega))
  rw [hch1, hch2, ← hc3, hch3, ← p2u, ← p2d, ← p3a] at hchk
  rw [← hch2, ← p3b] at hchk
  have hpass : pre ((params i).lambda / 8) (f q3) ∈ Pass i (ofList pk) (ofList (pk.drop ((params i).pkSize / 2)))
      (log A f k1) (log A f k2) (str1 (xof f) (params i) pk m sg) (str2 (xof f) (params i) pk m sg) (str3 (xof f) (params i) pk m sg)
      (f q1) (f q2) := by
    refine ⟨fun p hp => ?_, ?_⟩
    · obtain ⟨hh, e1, e2⟩ := hchk.1 p hp
      refine ⟨hh, e1, ?_⟩
      rw [← e2]
      unfold xT findStr xHv
      rw [fT, Option.map_some, Option.getD_some, hT.str, ← hch1]
      exact part_flatten (fun _ => tabP_length _ _) hp _
    · rw [← hch2]; exact hchk.2
  have hcard : 2 < (Finset.univ.filter (· ∈ Pass i (ofList pk) (ofList (pk.drop ((params i).pkSize / 2)))
      (log A f k1) (log A f k2) (str1 (xof f) (params i) pk m sg) (str2 (xof f) (params i) pk m sg) (str3 (xof f) (params i) pk m sg)
      (f q1) (f q2))).card := by
    by_contra hle
    refine hgood k3 h3.lt h3.first.fresh (Or.inr (Or.inr (Or.inr ?_)))
    rw [h3.first.1]
    refine ⟨(q2, f q2), by rw [h3.str]; exact f23, (q1, f q1), ?_, ?_⟩
    · dsimp only
      rw [b32, h2.str]
      exact f12
    · dsimp only
      rw [b32, b21, h1.str, h2.str, h3.str]
      exact ⟨not_lt.1 hle, hpass⟩
  have hk1 : pre (5 * ((params i).lambda / 8) + 8) (f q1) ∉ Props.badKeys i u := by
    intro hb
    refine hgood k1 h1.lt h1.first.fresh (Or.inr (Or.inl ?_))
    rw [h1.first.1]
    show _ ∈ Props.badKeys i _
    rw [h1.str]
    exact hb
  have hpick := pick_counts i v u _ hk1 (xUt i (str2 (xof f) (params i) pk m sg)) (by rw [p2u]; exact hlu)
  set j := xJ i (log A f k1) (str1 (xof f) (params i) pk m sg) (str2 (xof f) (params i) pk m sg) (f q1) with hj
  set w := xW i (log A f k1) (str1 (xof f) (params i) pk m sg) (str2 (xof f) (params i) pk m sg) j with hw
  replace hpick : Counts i v u (pre (5 * ((params i).lambda / 8) + 8) (f q1)) (xUt i (str2 (xof f) (params i) pk m sg)) j := hpick
  have hi := has_ofList_le pk (n := (params i).pkSize / 2) (by omega)
  have ho := has_ofList_le (pk.drop ((params i).pkSize / 2)) (n := (params i).pkSize / 2)
    (by rw [List.length_drop]; omega)
  obtain ⟨v', hv'⟩ := hpick.2 (xT i (log A f k2) (str2 (xof f) (params i) pk m sg))
  have hd : ∀ t, t < (params i).l / 8 → rd (ofList (xD i (str2 (xof f) (params i) pk m sg))) t = some (w t ^^^ u j t) := by
    intro t ht
    obtain ⟨z, hz, e⟩ := e2d
    rw [p2d, rd_ofList, byteFn_getElem? hld ht, hw]
    unfold xW
    rw [e, ← hz, byteFn_append_right, byteFn_append_left (by omega), BitVec.xor_assoc, ← hu, BitVec.xor_self,
      BitVec.xor_zero]
  have hzero : zkHash (params i).lambda (seedFn (pre (3 * ((params i).lambda / 8) + 8) (f q2)))
      (viol i (byteFn pk) (byteFn (pk.drop ((params i).pkSize / 2))) w) 0 = 0 := by
    by_contra hne
    obtain ⟨c0, h0, c1, h1', c2, h2', h01, h02, h12⟩ := Finset.two_lt_card.1 hcard
    have hinj : ∀ c c' : Fin ((params i).lambda / 8) → Byte, c ≠ c' → List.ofFn c ≠ List.ofFn c' :=
      fun c c' h h' => h (List.ofFn_injective h')
    have hsdf := has_byteFn (List.ofFn (pre (3 * ((params i).lambda / 8) + 8) (f q2)))
    rw [List.length_ofFn] at hsdf
    have haf := has_byteFn (xA i (str3 (xof f) (params i) pk m sg))
    rw [show (xA i (str3 (xof f) (params i) pk m sg)).length = (params i).lambda / 8 by rw [p3a]; exact hla] at haf
    obtain ⟨b, hb⟩ := C23_two_challenges i (b := xB i (str3 (xof f) (params i) pk m sg)) (L := Props.colLen i) (v := v')
      hd (by have := Props.colLen_eq i; omega) hi ho hsdf haf (by rw [byteFn_ofFn]; exact hne)
      (fun b : Fin 3 => List.ofFn (match b with | 0 => c0 | 1 => c1 | 2 => c2))
      (fun b : Fin 3 => ofList (tabP (params i).lambda (Props.qCol i v u
        (List.ofFn (match b with | 0 => c0 | 1 => c1 | 2 => c2)))))
      (fun b => List.length_ofFn) (by
        intro b c hc
        rw [rd_ofList, tabP_getElem?, if_pos hc]
        refine congrArg some ?_
        refine hv' _ ?_ c hc
        match b with
        | 0 => exact (Finset.mem_filter.1 h0).2.1
        | 1 => exact (Finset.mem_filter.1 h1').2.1
        | 2 => exact (Finset.mem_filter.1 h2').2.1) (by
        intro b b' hbb'
        apply hinj
        match b, b' with
        | 0, 0 => exact absurd rfl hbb'
        | 0, 1 => exact h01
        | 0, 2 => exact h02
        | 1, 0 => exact h01.symm
        | 1, 1 => exact absurd rfl hbb'
        | 1, 2 => exact h12
        | 2, 0 => exact h02.symm
        | 2, 1 => exact h12.symm
        | 2, 2 => exact absurd rfl hbb')
    refine hb ?_
    match b with
    | 0 => exact (Finset.mem_filter.1 h0).2.2
    | 1 => exact (Finset.mem_filter.1 h1').2.2
    | 2 => exact (Finset.mem_filter.1 h2').2.2
  have hsat : ¬ ∃ y ∈ viol i (byteFn pk) (byteFn (pk.drop ((params i).pkSize / 2))) w, y ≠ 0 := by
    intro hy
    refine hgood k2 h2.lt h2.first.fresh (Or.inr (Or.inr (Or.inl ?_)))
    rw [h2.first.1]
    refine ⟨(q1, f q1), by rw [h2.str]; exact f12, ?_, ?_⟩
    · dsimp only
      rw [b21, h1.str, h2.str]
      exact hy
    · dsimp only
      rw [b21, h1.str, h2.str]
      exact hzero
  refine ⟨xKey (params i) (log A f T) (q2, f q2) j, ?_, ?_⟩
  · exact List.mem_flatMap.2 ⟨(q2, f q2), h2.first.mem h2.lt, List.mem_map.2 ⟨j, List.mem_range.2 hpick.1, rfl⟩⟩
  · have hkey : xKey (params i) (log A f T) (q2, f q2) j = tabP ((params i).lambda / 8) w := by
      unfold xKey
      dsimp only
      rw [before_log h2.first h2.lt, h2.str, f12]
      dsimp only
      rw [b21, h1.str]
      rfl
    rw [hkey]
    refine C37_satisfying_is_preimage i (has_tabP _ _) hi fun p hp => ?_
    by_contra hne
    refine hsat ⟨_, List.mem_iff_getElem?.2 ⟨p, by unfold viol; rw [tabP_getElem?, if_pos hp]⟩, ?_⟩
    exact fun h'' => hne (sub_eq_zero.1 h'')

end

end Faest.Rom
