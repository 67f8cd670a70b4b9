/-
C63: knowledge soundness of the signatures in the random oracle model, for an adversary who gets a public key and no
signatures.
-/
import Verif.Proofs.RomAdv
import Verif.Props.C01

namespace Faest.Props
open Rom
open Spec (byteFn)

/-- `faest_verify` depends on the hash functions only through their outputs for the listed strings. -/
theorem C63_verifier_questions (i : ParamId) {X Y : XOF} {pk m sg : List Byte} (hpk : pk.length = (params i).pkSize)
    (h : ∀ n, n < vcount (params i) → ∀ t, X (hashSel (params i).lambda) (vstr X (params i) pk m sg n) t
      = Y (hashSel (params i).lambda) (vstr X (params i) pk m sg n) t) :
    verify X i (some (ofList pk)) (ofList m) m.length (some (ofList sg)) sg.length
      = verify Y i (some (ofList pk)) (ofList m) m.length (some (ofList sg)) sg.length := by
  by_cases hl : sg.length = (params i).sigSize
  · have hs : Has (ofList sg) 0 (params i).sigSize (byteFn sg) := hl ▸ has_byteFn sg
    obtain ⟨r, h1, h2, h3⟩ := verify_ok X hpk (rdN_ofList m) hs
    obtain ⟨r', h1', h2', h3'⟩ := verify_ok Y hpk (rdN_ofList m) hs
    rw [hl, h1, h1']
    have e : Spec.ValidSig X i pk m sg ↔ Spec.ValidSig Y i pk m sg := by
      unfold Spec.ValidSig Spec.Valid
      rw [valid_local (params_wf i) (params_len i).2.2.1 h]
    have e' : r = 0 ↔ r' = 0 := h3.trans (e.trans h3'.symm)
    rcases h2 with rfl | rfl <;> rcases h2' with rfl | rfl
    · rfl
    · exact absurd (e'.1 rfl) (by decide)
    · exact absurd (e'.2 rfl) (by decide)
    · rfl
  · unfold verify
    dsimp only
    rw [if_pos hl, if_pos hl]

section
variable {L M : Nat}

/-- The output of the adversary is accepted. -/
def Accepted (i : ParamId) (pk : List Byte) (A : List (Ans M) → Qry L) (out : List (Ans M) → List Byte × List Byte)
    (T : Nat) (f : Qry L → Ans M) : Prop :=
  verify (xof f) i (some (ofList pk)) (ofList (out (answers A f T)).1) (out (answers A f T)).1.length
    (some (ofList (out (answers A f T)).2)) (out (answers A f T)).2.length = some 0

/-- The extractor finds a key which the one-way function accepts and maps to the output in the public key. -/
def Extracted (i : ParamId) (pk : List Byte) (A : List (Ans M) → Qry L) (out : List (Ans M) → List Byte × List Byte)
    (T : Nat) (f : Qry L → Ans M) : Prop :=
  ∃ key ∈ keys (params i) (fullLog (params i) pk A out f T),
    owf i (ofList key) (ofList pk) = some (pk.drop ((params i).pkSize / 2), true)

open Classical in
/-- **C63.** Let an adversary ask `T` questions, each depending on the answers before, and give out a message and a
signature.  Of all tables of answers, the part for which the signature is accepted although the extractor finds no
key is at most `Q (2^-(lambda-2) + 2 Q (L+2) 2^-(2 lambda))`, where `Q` is `T` plus the number of questions of the
verifier and `L` bounds the length of the questions. -/
theorem C63_knowledge_soundness (i : ParamId) (hM : 5 * ((params i).lambda / 8) + 8 ≤ M) {pk : List Byte}
    (hpk : pk.length = (params i).pkSize) (A : List (Ans M) → Qry L) (out : List (Ans M) → List Byte × List Byte)
    (hL : ∀ rs, (out rs).1.length + 2 ^ 19 ≤ L) (T : Nat) :
    ((Finset.univ.filter fun f : Qry L → Ans M => Accepted i pk A out T f ∧ ¬ Extracted i pk A out T f).card : ℚ)
      ≤ ((T + vcount (params i) : ℕ) : ℚ) * (1 / 2 ^ ((params i).lambda - 2)
          + 2 * ((T + vcount (params i) : ℕ) : ℚ) * (L + 2) / 2 ^ (2 * (params i).lambda))
        * Fintype.card (Qry L → Ans M) := by
  have hP := params_wf i
  have hk := (params_len i).2.2.1
  have hp2 := params_pk2 i
  have hrun := bad_run (advOf (ext (params i) pk A out T)) (Bad i (byteFn pk)
    (byteFn (pk.drop ((params i).pkSize / 2))) (ofList pk) (ofList (pk.drop ((params i).pkSize / 2))))
    (T + vcount (params i)) (1 / 2 ^ ((params i).lambda - 2)
      + 2 * ((T + vcount (params i) : ℕ) : ℚ) * (L + 2) / 2 ^ (2 * (params i).lambda)) (by positivity)
    (fun lg q hlg => count_bad hM lg q hlg)
  refine le_trans ?_ hrun
  refine Nat.cast_le.2 (Finset.card_le_card fun f hf => ?_)
  obtain ⟨hacc, hno⟩ := (Finset.mem_filter.1 hf).2
  refine Finset.mem_filter.2 ⟨Finset.mem_univ _, ?_⟩
  by_contra hgood
  apply hno
  have hsg : (out (answers A f T)).2.length = (params i).sigSize := by
    by_contra hne
    unfold Accepted verify at hacc
    dsimp only at hacc
    rw [if_pos hne] at hacc
    exact absurd (Option.some.inj hacc) (by decide)
  have hext := extract (A := advOf (ext (params i) pk A out T)) (f := f) (T := T + vcount (params i)) (i := i)
    (pk := pk) (m := (out (answers A f T)).1) (sg := (out (answers A f T)).2)
    (fun k hk' hf hb => hgood ⟨k, hk', hf, hb⟩) hpk hsg hacc (by
      intro s hs
      obtain ⟨n, hn, rfl⟩ := hashed_vstr hk hs
      have hq := ext_verifier (A := A) (out := out) (pk := pk) (T := T) hP hk f n hn
      have hlen := (hashed_length hs).trans (hL (answers A f T))
      refine ⟨_, mem_log.2 ⟨T + n, by omega, rfl⟩, ?_, ?_⟩
      · dsimp only
        rw [hq]; rfl
      · dsimp only
        rw [hq]
        unfold ask
        rw [dif_pos hlen])
  rw [ext_fullLog hP hk] at hext
  obtain ⟨key, h1, h2⟩ := hext
  refine ⟨key, h1, h2.trans ?_⟩
  have : tabP ((params i).pkSize / 2) (byteFn (pk.drop ((params i).pkSize / 2))) = pk.drop ((params i).pkSize / 2) := by
    have := tabP_byteFn (pk.drop ((params i).pkSize / 2))
    rwa [show (pk.drop ((params i).pkSize / 2)).length = (params i).pkSize / 2 by
      rw [List.length_drop]; omega] at this
  rw [this]

open Classical in
/-- If a signature is accepted for many tables, a key is found for almost as many. -/
theorem C63_forgery (i : ParamId) (hM : 5 * ((params i).lambda / 8) + 8 ≤ M) {pk : List Byte}
    (hpk : pk.length = (params i).pkSize) (A : List (Ans M) → Qry L) (out : List (Ans M) → List Byte × List Byte)
    (hL : ∀ rs, (out rs).1.length + 2 ^ 19 ≤ L) (T : Nat) :
    ((Finset.univ.filter fun f : Qry L → Ans M => Accepted i pk A out T f).card : ℚ) / Fintype.card (Qry L → Ans M)
      ≤ ((Finset.univ.filter fun f : Qry L → Ans M => Extracted i pk A out T f).card : ℚ) / Fintype.card (Qry L → Ans M)
        + ((T + vcount (params i) : ℕ) : ℚ) * (1 / 2 ^ ((params i).lambda - 2)
          + 2 * ((T + vcount (params i) : ℕ) : ℚ) * (L + 2) / 2 ^ (2 * (params i).lambda)) := by
  have hpos : (0 : ℚ) < Fintype.card (Qry L → Ans M) := by
    have : Nonempty (Qry L → Ans M) := ⟨fun _ _ => 0⟩
    exact_mod_cast Fintype.card_pos
  have h := C63_knowledge_soundness i hM hpk A out hL T
  rw [div_add' _ _ _ hpos.ne', div_le_div_iff_of_pos_right hpos]
  have hsub : (Finset.univ.filter fun f : Qry L → Ans M => Accepted i pk A out T f)
      ⊆ (Finset.univ.filter fun f : Qry L → Ans M => Extracted i pk A out T f)
        ∪ Finset.univ.filter fun f : Qry L → Ans M => Accepted i pk A out T f ∧ ¬ Extracted i pk A out T f := by
    intro f hf
    have hf := (Finset.mem_filter.1 hf).2
    by_cases he : Extracted i pk A out T f
    · exact Finset.mem_union_left _ (Finset.mem_filter.2 ⟨Finset.mem_univ _, he⟩)
    · exact Finset.mem_union_right _ (Finset.mem_filter.2 ⟨Finset.mem_univ _, hf, he⟩)
  have hc := (Finset.card_le_card hsub).trans (Finset.card_union_le _ _)
  have hq : ((Finset.univ.filter fun f : Qry L → Ans M => Accepted i pk A out T f).card : ℚ)
      ≤ (Finset.univ.filter fun f : Qry L → Ans M => Extracted i pk A out T f).card
        + (Finset.univ.filter fun f : Qry L → Ans M => Accepted i pk A out T f ∧ ¬ Extracted i pk A out T f).card := by
    exact_mod_cast hc
  linarith

end

/-- Number of questions of the verifier, at most. -/
theorem C63_vcount (i : ParamId) : vcount (params i) ≤ 2 ^ 17 := by
  cases i <;> decide

open Classical in
/-- **C63 for the parameter sets.** With fewer than `2^64` questions of at most `2^60` bytes the part of the tables is
below `2^-(lambda-67)`. -/
theorem C63_parameters (i : ParamId) {pk : List Byte} (hpk : pk.length = (params i).pkSize)
    (A : List (Ans (5 * ((params i).lambda / 8) + 8)) → Qry (2 ^ 60))
    (out : List (Ans (5 * ((params i).lambda / 8) + 8)) → List Byte × List Byte)
    (hL : ∀ rs, (out rs).1.length + 2 ^ 19 ≤ 2 ^ 60) {T : Nat} (hT : T ≤ 2 ^ 64) :
    ((Finset.univ.filter fun f : Qry (2 ^ 60) → Ans (5 * ((params i).lambda / 8) + 8) =>
        Accepted i pk A out T f ∧ ¬ Extracted i pk A out T f).card : ℚ)
      ≤ 1 / 2 ^ ((params i).lambda - 67) * Fintype.card (Qry (2 ^ 60) → Ans (5 * ((params i).lambda / 8) + 8)) := by
  refine (C63_knowledge_soundness i (Nat.le_refl _) hpk A out hL T).trans (mul_le_mul_of_nonneg_right ?_ (Nat.cast_nonneg _))
  have hQ : ((T + vcount (params i) : ℕ) : ℚ) ≤ 2 ^ 64 + 2 ^ 17 := by
    have := C63_vcount i
    exact_mod_cast Nat.add_le_add hT this
  have h0 : (0 : ℚ) ≤ ((T + vcount (params i) : ℕ) : ℚ) := Nat.cast_nonneg _
  calc ((T + vcount (params i) : ℕ) : ℚ) * (1 / 2 ^ ((params i).lambda - 2)
          + 2 * ((T + vcount (params i) : ℕ) : ℚ) * ((2 ^ 60 : ℕ) + 2) / 2 ^ (2 * (params i).lambda))
      ≤ (2 ^ 64 + 2 ^ 17) * (1 / 2 ^ ((params i).lambda - 2)
          + 2 * (2 ^ 64 + 2 ^ 17) * ((2 ^ 60 : ℕ) + 2) / 2 ^ (2 * (params i).lambda)) := by
        gcongr
    _ ≤ 1 / 2 ^ ((params i).lambda - 67) := by
        have h128 : 128 ≤ (params i).lambda := by cases i <;> decide
        obtain ⟨n, hn⟩ := Nat.exists_eq_add_of_le h128
        have hy : (1 : ℚ) ≤ 2 ^ n := one_le_pow₀ (by norm_num)
        rw [hn, show 128 + n - 2 = 126 + n by omega, show 128 + n - 67 = 61 + n by omega,
          show 2 * (128 + n) = 256 + n + n by omega, pow_add, pow_add, pow_add, pow_add]
        set y : ℚ := 2 ^ n with hyd
        have hy0 : (0 : ℚ) < y := by linarith
        have e1 : (1 : ℚ) / (2 ^ 126 * y) = 1 / 2 ^ 126 / y := by field_simp
        have e2 : (2 : ℚ) * (2 ^ 64 + 2 ^ 17) * ((2 ^ 60 : ℕ) + 2) / (2 ^ 256 * y * y)
            ≤ 2 * (2 ^ 64 + 2 ^ 17) * ((2 ^ 60 : ℕ) + 2) / 2 ^ 256 / y := by
          rw [div_div]
          refine div_le_div_of_nonneg_left (by positivity) (by positivity) ?_
          nlinarith [mul_pos hy0 hy0]
        have e3 : (1 : ℚ) / (2 ^ 61 * y) = 1 / 2 ^ 61 / y := by field_simp
        rw [e1, e3]
        have h1 : (2 ^ 64 + 2 ^ 17 : ℚ) * (1 / 2 ^ 126 + 2 * (2 ^ 64 + 2 ^ 17) * ((2 ^ 60 : ℕ) + 2) / 2 ^ 256)
            ≤ 1 / 2 ^ 61 := by norm_num
        calc (2 ^ 64 + 2 ^ 17 : ℚ) * (1 / 2 ^ 126 / y
              + 2 * (2 ^ 64 + 2 ^ 17) * ((2 ^ 60 : ℕ) + 2) / (2 ^ 256 * y * y))
            ≤ (2 ^ 64 + 2 ^ 17) * (1 / 2 ^ 126 / y
              + 2 * (2 ^ 64 + 2 ^ 17) * ((2 ^ 60 : ℕ) + 2) / 2 ^ 256 / y) :=
              mul_le_mul_of_nonneg_left (by linarith) (by positivity)
          _ = (2 ^ 64 + 2 ^ 17) * (1 / 2 ^ 126 + 2 * (2 ^ 64 + 2 ^ 17) * ((2 ^ 60 : ℕ) + 2) / 2 ^ 256) / y := by ring
          _ ≤ 1 / 2 ^ 61 / y := by gcongr

/-- The extractor tries `tau` keys for every question. -/
theorem C63_keys {L M : Nat} (i : ParamId) (pk : List Byte) (A : List (Ans M) → Qry L)
    (out : List (Ans M) → List Byte × List Byte) (T : Nat) (f : Qry L → Ans M) :
    (keys (params i) (fullLog (params i) pk A out f T)).length = (T + vcount (params i)) * (params i).tau := by
  have : (fullLog (params i) pk A out f T).length = T + vcount (params i) := by
    unfold fullLog
    rw [List.length_append, log_length, List.length_map, List.length_range]
  unfold keys
  rw [List.length_flatMap, ← this]
  have h : ∀ lg lg' : List (Qry L × Ans M), (lg.map fun e => ((List.range (params i).tau).map
      (xKey (params i) lg' e)).length).sum = lg.length * (params i).tau := by
    intro lg lg'
    induction lg with
    | nil => simp
    | cons e lg ih => rw [List.map_cons, List.sum_cons, ih]; simp; ring
  exact h _ _

/-- There are adversaries whose output is accepted for all tables: the signer, who here asks everything and then
computes a signature. -/
theorem C63_signer {L M : Nat} (i : ParamId) {sk : List Byte} (hsk : sk.length = (params i).skSize)
    (hg : Spec.skGood i sk) (m r : List Byte) :
    ∃ (A : List (Ans M) → Qry L) (out : List (Ans M) → List Byte × List Byte) (T : Nat), (∀ rs, (out rs).1 = m) ∧
      ∀ f, Accepted i (Spec.pkOf i sk) A out T f := by
  let n := Fintype.card (Qry L)
  let e : Qry L ≃ Fin n := Fintype.equivFin _
  have hpos : 0 < n := Fintype.card_pos_iff.2 ⟨(true, ⟨[], Nat.zero_le _⟩)⟩
  let A : List (Ans M) → Qry L := fun rs => e.symm ⟨rs.length % n, Nat.mod_lt _ hpos⟩
  let tab : List (Ans M) → Qry L → Ans M := fun rs q => (rs[(e q).1]?).getD fun _ => 0
  have hq : ∀ f k, question A f k = e.symm ⟨k % n, Nat.mod_lt _ hpos⟩ := by
    intro f k
    unfold question
    simp only [A]
    congr 2
    rw [answers_length]
  have htab : ∀ f, tab (answers A f n) = f := by
    intro f
    funext q
    simp only [tab]
    rw [← log_snd, List.getElem?_map]
    unfold log
    rw [List.getElem?_map, List.getElem?_range (e q).2]
    simp only [Option.map_some, Option.getD_some]
    rw [hq]
    congr 1
    rw [Equiv.symm_apply_eq]
    exact Fin.ext (Nat.mod_eq_of_lt (e q).2)
  refine ⟨A, fun rs => (m, Spec.signature (xof (tab rs)) i sk m r), n, fun _ => rfl, fun f => ?_⟩
  unfold Accepted
  dsimp only
  rw [htab]
  have hl := signature_length (xof f) i sk m r
  have hs : Has (ofList (Spec.signature (xof f) i sk m r)) 0 (params i).sigSize
      (byteFn (Spec.signature (xof f) i sk m r)) := hl ▸ has_byteFn _
  obtain ⟨v, h1, -, h3⟩ := verify_ok (xof f) (pkOf_length hsk.ge) (rdN_ofList m) hs
  rw [hl, h1, h3.2 (signature_valid (xof f) hsk hg)]

/-- The hypotheses are met by the known-answer key pair of FAEST-128f and messages of up to a million bytes. -/
example : ∃ (A : List (Ans 88) → Qry (2 ^ 21)) (out : List (Ans 88) → List Byte × List Byte) (T : Nat),
    (∀ rs, (out rs).1.length + 2 ^ 19 ≤ 2 ^ 21) ∧ ∀ f, Accepted .p128F (Spec.pkOf .p128F Concrete.sk) A out T f := by
  obtain ⟨A, out, T, h1, h2⟩ := C63_signer (L := 2 ^ 21) (M := 88) .p128F (sk := Concrete.sk) rfl Concrete.kat_good
    (List.replicate 1000000 7) []
  exact ⟨A, out, T, fun rs => by rw [h1, List.length_replicate]; norm_num, h2⟩

/-- The bound for one million questions. -/
example (pk : List Byte) (hpk : pk.length = 32) (A : List (Ans 88) → Qry (2 ^ 60))
    (out : List (Ans 88) → List Byte × List Byte) (hL : ∀ rs, (out rs).1.length + 2 ^ 19 ≤ 2 ^ 60) :=
  C63_parameters .p128F hpk A out hL (T := 1000000) (by norm_num)

end Faest.Props
