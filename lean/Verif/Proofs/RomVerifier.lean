/-
The verifier asks only the listed strings, and each string is determined by the answers to the earlier ones.
-/
import Verif.Proofs.RomExtract

namespace Faest.Rom
open Spec

/-- Two hash functions give the same output for a string. -/
def EqOn (P : Params) (X Y : XOF) (s : List Byte) : Prop := ∀ t, X (hashSel P.lambda) s t = Y (hashSel P.lambda) s t

theorem EqOn.squeeze {P : Params} {X Y : XOF} {s : List Byte} (h : EqOn P X Y s) (o n : Nat) :
    Faest.squeeze X (hashSel P.lambda) s o n = Faest.squeeze Y (hashSel P.lambda) s o n :=
  tabP_congr fun _ _ => h _

section
variable {P : Params} {X Y : XOF} {pk m sg : List Byte}

theorem comOf_eq {a j : Nat} (h : EqOn P X Y (leafStr P sg a j)) : comOf X P sg a j = comOf Y P sg a j := by
  unfold comOf vCom
  split
  · rfl
  · exact h.squeeze _ _

theorem treeStr_eq {a : Nat} (h : ∀ j, j < 2 ^ depth P a → EqOn P X Y (leafStr P sg a j)) :
    treeStr X P sg a = treeStr Y P sg a := by
  unfold treeStr
  rw [tabP_congr fun j hj => comOf_eq (h j hj)]

theorem treesStr_eq (h : ∀ a, a < P.tau → ∀ j, j < 2 ^ depth P a → EqOn P X Y (leafStr P sg a j))
    (h1 : ∀ a, a < P.tau → EqOn P X Y (treeStr X P sg a)) : treesStr X P sg = treesStr Y P sg := by
  unfold treesStr
  congr 2
  refine tabP_congr fun a ha => ?_
  have e := (h1 a ha).squeeze 0 (P.lambda / 8 * 2)
  have e2 := treeStr_eq (h a ha)
  rw [e2] at e
  refine Eq.trans ?_ e
  rw [← e2]
  rfl

theorem vHcom_eq (h : treesStr X P sg = treesStr Y P sg) (h1 : EqOn P X Y (treesStr X P sg)) :
    vHcom X P (byteFn sg) = vHcom Y P (byteFn sg) := by
  have e := h1.squeeze 0 (P.lambda / 8 * 2)
  refine Eq.trans ?_ (e.trans ?_)
  · rfl
  · rw [h]; rfl

theorem vMu_eq (h : EqOn P X Y (muStr P pk m)) : vMu X P pk m = vMu Y P pk m := h.squeeze 0 _

theorem str1_eq (h : vMu X P pk m = vMu Y P pk m) (h1 : vHcom X P (byteFn sg) = vHcom Y P (byteFn sg)) :
    str1 X P pk m sg = str1 Y P pk m sg := by
  unfold str1; rw [h, h1]

theorem vC1_eq (h : str1 X P pk m sg = str1 Y P pk m sg) (h1 : EqOn P X Y (str1 X P pk m sg)) :
    vC1 X P pk m sg = vC1 Y P pk m sg := by
  have e := h1.squeeze 0 (5 * (P.lambda / 8) + 8)
  refine Eq.trans ?_ (e.trans ?_)
  · rfl
  · rw [h]; rfl

theorem vCol_eq (hP : PWF P) (h : ∀ a, a < P.tau → ∀ j, j < 2 ^ depth P a → EqOn P X Y (leafStr P sg a j)) {p : Nat}
    (hp : p < P.lambda) : vCol X P (byteFn sg) p = vCol Y P (byteFn sg) p := by
  obtain ⟨a, j, ha, hj, rfl⟩ := hP.col_exists hp
  funext t
  unfold vCol
  rw [vQ_col hP hj, vQ_col hP hj]
  congr 1
  unfold voleV
  refine xsum_congr fun k hk => ?_
  split
  · unfold vR
    split
    · rfl
    · have := (h a ha (Nat.xor k (leafIdx P (sgChall P (byteFn sg)) a))
        (nat_xor_lt hk (leafIdx_lt P (sgChall P (byteFn sg)) a))).squeeze 0 (P.lambda / 8)
      exact congrArg (fun sd => expand P.lambda (sgIv P (byteFn sg)) sd t) this
  · rfl

theorem tagsStr_eq (hc : ∀ p, p < P.lambda → vCol X P (byteFn sg) p = vCol Y P (byteFn sg) p)
    (h : vC1 X P pk m sg = vC1 Y P pk m sg) : tagsStr X P pk m sg = tagsStr Y P pk m sg := by
  unfold tagsStr
  congr 2
  refine tabP_congr fun p hp => tabP_congr fun t _ => ?_
  unfold vTag
  rw [h, hc p hp]

theorem vHv_eq (h : tagsStr X P pk m sg = tagsStr Y P pk m sg) (h1 : EqOn P X Y (tagsStr X P pk m sg)) :
    vHv X P (byteFn sg) (vC1 X P pk m sg) = vHv Y P (byteFn sg) (vC1 Y P pk m sg) := by
  have e := h1.squeeze 0 (2 * (P.lambda / 8))
  refine Eq.trans ?_ (e.trans ?_)
  · rfl
  · rw [h]; rfl

theorem str2_eq (h : vC1 X P pk m sg = vC1 Y P pk m sg)
    (h1 : vHv X P (byteFn sg) (vC1 X P pk m sg) = vHv Y P (byteFn sg) (vC1 Y P pk m sg)) :
    str2 X P pk m sg = str2 Y P pk m sg := by
  unfold str2; rw [h1, h]

theorem vC2_eq (h : str2 X P pk m sg = str2 Y P pk m sg) (h1 : EqOn P X Y (str2 X P pk m sg)) :
    vC2 X P pk m sg = vC2 Y P pk m sg := by
  have e := h1.squeeze 0 (3 * (P.lambda / 8) + 8)
  refine Eq.trans ?_ (e.trans ?_)
  · rfl
  · rw [h]; rfl

theorem str3_eq (hc : ∀ p, p < P.lambda → vCol X P (byteFn sg) p = vCol Y P (byteFn sg) p)
    (h : vC2 X P pk m sg = vC2 Y P pk m sg) : str3 X P pk m sg = str3 Y P pk m sg := by
  have hr : rowF P.lambda (vColW X P (byteFn sg)) = rowF P.lambda (vColW Y P (byteFn sg)) := by
    funext t
    unfold rowF
    refine Finset.sum_congr rfl fun p hp => ?_
    have : vColW X P (byteFn sg) p = vColW Y P (byteFn sg) p := by
      funext k
      unfold vColW
      rw [hc p (Finset.mem_range.1 hp)]
    rw [this]
  unfold str3 vB
  rw [h, hr]

/-- The listed strings contain all. -/
theorem vstr_leaf (hk : P.k1 ≤ P.k0) {a j : Nat} (ha : a < P.tau) (hj : j < 2 ^ depth P a) :
    a * 2 ^ P.k0 + j < P.tau * 2 ^ P.k0 ∧ vstr X P pk m sg (a * 2 ^ P.k0 + j) = leafStr P sg a j := by
  have hj0 : j < 2 ^ P.k0 := by
    refine lt_of_lt_of_le hj (Nat.pow_le_pow_right (by omega) ?_)
    unfold depth; split <;> omega
  have h1 : a * 2 ^ P.k0 + j < P.tau * 2 ^ P.k0 := by
    have := Nat.mul_le_mul_right (2 ^ P.k0) (show a + 1 ≤ P.tau by omega)
    rw [Nat.succ_mul] at this; omega
  have hpos : 0 < 2 ^ P.k0 := by omega
  refine ⟨h1, ?_⟩
  unfold vstr
  rw [if_pos h1, Nat.mul_comm a, Nat.mul_add_div hpos, Nat.mul_add_mod, Nat.div_eq_of_lt hj0, Nat.mod_eq_of_lt hj0,
    Nat.add_zero]

theorem vstr_tree {a : Nat} (ha : a < P.tau) :
    vstr X P pk m sg (P.tau * 2 ^ P.k0 + a) = treeStr X P sg a := by
  unfold vstr
  rw [if_neg (by omega), if_pos (by omega), Nat.add_sub_cancel_left]

theorem vstr_rest : vstr X P pk m sg (P.tau * 2 ^ P.k0 + P.tau) = treesStr X P sg ∧
    vstr X P pk m sg (P.tau * 2 ^ P.k0 + P.tau + 1) = muStr P pk m ∧
    vstr X P pk m sg (P.tau * 2 ^ P.k0 + P.tau + 2) = str1 X P pk m sg ∧
    vstr X P pk m sg (P.tau * 2 ^ P.k0 + P.tau + 3) = tagsStr X P pk m sg ∧
    vstr X P pk m sg (P.tau * 2 ^ P.k0 + P.tau + 4) = str2 X P pk m sg ∧
    vstr X P pk m sg (P.tau * 2 ^ P.k0 + P.tau + 5) = str3 X P pk m sg := by
  refine ⟨?_, ?_, ?_, ?_, ?_, ?_⟩
  · unfold vstr; rw [if_neg (by omega), if_neg (by omega), if_pos rfl]
  · unfold vstr; rw [if_neg (by omega), if_neg (by omega), if_neg (by omega), if_pos rfl]
  · unfold vstr; rw [if_neg (by omega), if_neg (by omega), if_neg (by omega), if_neg (by omega), if_pos rfl]
  · unfold vstr
    rw [if_neg (by omega), if_neg (by omega), if_neg (by omega), if_neg (by omega), if_neg (by omega), if_pos rfl]
  · unfold vstr
    rw [if_neg (by omega), if_neg (by omega), if_neg (by omega), if_neg (by omega), if_neg (by omega), if_neg (by omega),
      if_pos rfl]
  · unfold vstr
    rw [if_neg (by omega), if_neg (by omega), if_neg (by omega), if_neg (by omega), if_neg (by omega), if_neg (by omega),
      if_neg (by omega)]

theorem hashed_vstr (hk : P.k1 ≤ P.k0) {s : List Byte} (h : Hashed X P pk m sg s) :
    ∃ n, n < vcount P ∧ vstr X P pk m sg n = s := by
  obtain ⟨r1, r2, r3, r4, r5, r6⟩ := vstr_rest (X := X) (P := P) (pk := pk) (m := m) (sg := sg)
  unfold vcount
  cases h with
  | leaf a j ha hj =>
    have := vstr_leaf (X := X) (pk := pk) (m := m) (sg := sg) hk ha hj
    exact ⟨_, by omega, this.2⟩
  | tree a ha => exact ⟨_, by omega, vstr_tree ha⟩
  | trees => exact ⟨_, by omega, r1⟩
  | mu => exact ⟨_, by omega, r2⟩
  | chall1 => exact ⟨_, by omega, r3⟩
  | tags => exact ⟨_, by omega, r4⟩
  | chall2 => exact ⟨_, by omega, r5⟩
  | chall3 => exact ⟨_, by omega, r6⟩

/-- Each string is determined by the answers to the earlier ones. -/
theorem vstr_local (hP : PWF P) (hk : P.k1 ≤ P.k0) {n : Nat} (hn : n < vcount P)
    (h : ∀ j, j < n → EqOn P X Y (vstr X P pk m sg j)) : vstr X P pk m sg n = vstr Y P pk m sg n := by
  obtain ⟨r1, r2, r3, r4, r5, r6⟩ := vstr_rest (X := X) (P := P) (pk := pk) (m := m) (sg := sg)
  obtain ⟨r1', r2', r3', r4', r5', r6'⟩ := vstr_rest (X := Y) (P := P) (pk := pk) (m := m) (sg := sg)
  unfold vcount at hn
  by_cases c0 : n < P.tau * 2 ^ P.k0
  · unfold vstr; rw [if_pos c0, if_pos c0]
  have hl : ∀ a, a < P.tau → ∀ j, j < 2 ^ depth P a → EqOn P X Y (leafStr P sg a j) := by
    intro a ha j hj
    have := vstr_leaf (X := X) (pk := pk) (m := m) (sg := sg) hk ha hj
    rw [← this.2]
    exact h _ (by omega)
  by_cases c1 : n < P.tau * 2 ^ P.k0 + P.tau
  · obtain ⟨a, rfl⟩ : ∃ a, n = P.tau * 2 ^ P.k0 + a := ⟨n - P.tau * 2 ^ P.k0, by omega⟩
    rw [vstr_tree (by omega), vstr_tree (by omega)]
    exact treeStr_eq (hl a (by omega))
  have ht : ∀ a, a < P.tau → EqOn P X Y (treeStr X P sg a) := by
    intro a ha
    rw [← vstr_tree (X := X) (pk := pk) (m := m) ha]
    exact h _ (by omega)
  have e0 := treesStr_eq hl ht
  have ec : ∀ p, p < P.lambda → vCol X P (byteFn sg) p = vCol Y P (byteFn sg) p := fun p hp => vCol_eq hP hl hp
  obtain ⟨b, rfl⟩ : ∃ b, n = P.tau * 2 ^ P.k0 + P.tau + b := ⟨n - (P.tau * 2 ^ P.k0 + P.tau), by omega⟩
  have hb : b < 6 := by omega
  have g0 : 0 < b → EqOn P X Y (treesStr X P sg) := fun hb => by rw [← r1]; exact h _ (by omega)
  have g1 : 1 < b → EqOn P X Y (muStr P pk m) := fun hb => by rw [← r2]; exact h _ (by omega)
  have g2 : 2 < b → EqOn P X Y (str1 X P pk m sg) := fun hb => by rw [← r3]; exact h _ (by omega)
  have g3 : 3 < b → EqOn P X Y (tagsStr X P pk m sg) := fun hb => by rw [← r4]; exact h _ (by omega)
  have g4 : 4 < b → EqOn P X Y (str2 X P pk m sg) := fun hb => by rw [← r5]; exact h _ (by omega)
  have q1 : 1 < b → str1 X P pk m sg = str1 Y P pk m sg := fun hb => str1_eq (vMu_eq (g1 hb)) (vHcom_eq e0 (g0 (by omega)))
  have q2 : 2 < b → vC1 X P pk m sg = vC1 Y P pk m sg := fun hb => vC1_eq (q1 (by omega)) (g2 hb)
  have q3 : 2 < b → tagsStr X P pk m sg = tagsStr Y P pk m sg := fun hb => tagsStr_eq ec (q2 hb)
  have q4 : 3 < b → str2 X P pk m sg = str2 Y P pk m sg := fun hb =>
    str2_eq (q2 (by omega)) (vHv_eq (q3 (by omega)) (g3 hb))
  have q5 : 4 < b → vC2 X P pk m sg = vC2 Y P pk m sg := fun hb => vC2_eq (q4 (by omega)) (g4 hb)
  match b with
  | 0 => rw [Nat.add_zero, r1, r1', e0]
  | 1 => rw [r2, r2']
  | 2 => rw [r3, r3']; exact q1 (by omega)
  | 3 => rw [r4, r4']; exact q3 (by omega)
  | 4 => rw [r5, r5']; exact q4 (by omega)
  | 5 => rw [r6, r6']; exact str3_eq ec (q5 (by omega))

/-- Validity depends only on the answers to these strings. -/
theorem valid_local (hP : PWF P) (hk : P.k1 ≤ P.k0) (h : ∀ j, j < vcount P → EqOn P X Y (vstr X P pk m sg j)) :
    vChall3 X P (byteFn sg) (byteFn pk) (byteFn (pk.drop (P.pkSize / 2))) m
      = vChall3 Y P (byteFn sg) (byteFn pk) (byteFn (pk.drop (P.pkSize / 2))) m := by
  have r := (vstr_rest (X := X) (P := P) (pk := pk) (m := m) (sg := sg)).2.2.2.2.2
  have r' := (vstr_rest (X := Y) (P := P) (pk := pk) (m := m) (sg := sg)).2.2.2.2.2
  have e := vstr_local (n := P.tau * 2 ^ P.k0 + P.tau + 5) hP hk (by unfold vcount; omega) fun j hj =>
    h j (by unfold vcount; omega)
  have g : EqOn P X Y (str3 X P pk m sg) := by rw [← r]; exact h _ (by unfold vcount; omega)
  rw [r, r'] at e
  have := g.squeeze 0 (P.lambda / 8)
  refine Eq.trans ?_ (this.trans ?_)
  · rfl
  · rw [e]; rfl

end

end Faest.Rom
