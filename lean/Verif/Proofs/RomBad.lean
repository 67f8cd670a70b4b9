/-
Challenges which are bad for the verifier, as sets which are fixed before the question is answered.
-/
import Verif.Proofs.RomLog
import Verif.Props.C39

namespace Faest.Rom
open Spec (byteFn conCount conIn conOut bitsL strBit treeOf)
open Props (badKeys ChecksPass qCol colLen)

/-- Column `p` to which the prover is committed. -/
def xV {L M : Nat} (P : Params) (lg : List (Qry L × Ans M)) (s1 : List Byte) (p t : Nat) : Byte :=
  Spec.voleV (2 ^ Spec.depth P (treeOf P p)) (xR P lg s1 (treeOf P p)) (Spec.posOf P p) t

/-- The constraints for a witness, each minus one. -/
def viol (i : ParamId) (I O w : Nat → Byte) : List (BF (params i).lambda) :=
  tabP (conCount (params i)) fun p => conIn (params i) I 1 (bitsL (params i).lambda w) p
    * conOut (params i) I O 1 (bitsL (params i).lambda w) p - 1

/-- A tree whose value counts for the given `chall_1` and `u_tilde`. -/
def Counts (i : ParamId) (v u : Nat → Nat → Byte) (ch1 : Fin (5 * ((params i).lambda / 8) + 8) → Byte)
    (ut : List Byte) (j : Nat) : Prop :=
  j < (params i).tau ∧ ∀ T : Nat → List Byte, ∃ v' : Nat → Nat → Byte, ∀ ch3 : List Byte,
    (∀ p, p < (params i).lambda → ∃ h, voleHash (ofList (List.ofFn ch1)) (ofList (qCol i v u ch3 p)) (params i).l
        (params i).lambda = some h ∧
      T p = if (ch3.getD (p / 8) 0).getLsbD (p % 8) then List.zipWith (· ^^^ ·) h ut else h) →
    ∀ p, p < (params i).lambda → qCol i v u ch3 p = qCol i v' (fun _ => u j) ch3 p

/-- One such tree. -/
noncomputable def pick (i : ParamId) (v u : Nat → Nat → Byte) (ch1 : Fin (5 * ((params i).lambda / 8) + 8) → Byte)
    (ut : List Byte) : Nat := Classical.epsilon (Counts i v u ch1 ut)

theorem pick_counts (i : ParamId) (v u : Nat → Nat → Byte) (ch1 : Fin (5 * ((params i).lambda / 8) + 8) → Byte)
    (hch1 : ch1 ∉ badKeys i u) (ut : List Byte) (hut : ut.length = (params i).lambda / 8 + 2) :
    Counts i v u ch1 ut (pick i v u ch1 ut) :=
  Classical.epsilon_spec (Props.C40_consistency_check i v u ch1 hch1 ut hut)

/-- The witness given by tree `j` for a question `s2` for `chall_2`. -/
def xW {L M : Nat} (i : ParamId) (lg : List (Qry L × Ans M)) (s1 s2 : List Byte) (j t : Nat) : Byte :=
  byteFn s2 ((params i).lambda / 8 * 8 + 10 + t) ^^^ xU (params i) lg s1 j t

section
variable {L M : Nat} (i : ParamId) (I O : Nat → Byte) (inp out : Mem Byte)

/-- Parts of a question for `chall_2`. -/
def xUt (s2 : List Byte) : List Byte := part s2 ((params i).lambda / 8 * 5 + 8) ((params i).lambda / 8 + 2)
/-- Digest of the hashed columns. -/
def xHv (s2 : List Byte) : List Byte := part s2 ((params i).lambda / 8 * 6 + 10) ((params i).lambda / 8 * 2)
/-- Corrected witness. -/
def xD (s2 : List Byte) : List Byte := part s2 ((params i).lambda / 8 * 8 + 10) ((params i).l / 8)
/-- Parts of a question for `chall_3`. -/
def xA (s3 : List Byte) : List Byte := part s3 ((params i).lambda / 8 * 3 + 8) ((params i).lambda / 8)
@[inherit_doc xA] def xB (s3 : List Byte) : List Byte := part s3 ((params i).lambda / 8 * 4 + 8) ((params i).lambda / 8)
/-- Hashed columns. -/
def xT (lg : List (Qry L × Ans M)) (s2 : List Byte) (p : Nat) : List Byte :=
  part (findStr (params i) lg 0 (xHv i s2)) (p * ((params i).lambda / 8 + 2)) ((params i).lambda / 8 + 2)

/-- The tree picked. -/
noncomputable def xJ (lg1 : List (Qry L × Ans M)) (s1 s2 : List Byte) (r1 : Ans M) : Nat :=
  pick i (xV (params i) lg1 s1) (xU (params i) lg1 s1) (pre (5 * ((params i).lambda / 8) + 8) r1) (xUt i s2)

/-- `chall_1` does not distinguish trees. -/
def Bad1 (lg : List (Qry L × Ans M)) (q : Qry L) : Set (Ans M) :=
  {r | pre (5 * ((params i).lambda / 8) + 8) r ∈ badKeys i (xU (params i) lg q.2.1)}

/-- `chall_2` does not notice violated constraints. -/
def Bad2 (lg : List (Qry L × Ans M)) (q : Qry L) : Set (Ans M) :=
  {r | ∃ e1, find (params i) lg 0 (part q.2.1 0 ((params i).lambda / 8 * 2)) = some e1 ∧
    (∃ y ∈ viol i I O (xW i (before lg e1.1) e1.1.2.1 q.2.1 (xJ i (before lg e1.1) e1.1.2.1 q.2.1 e1.2)), y ≠ 0) ∧
    Spec.zkHash (params i).lambda (seedFn (pre (3 * ((params i).lambda / 8) + 8) r))
      (viol i I O (xW i (before lg e1.1) e1.1.2.1 q.2.1 (xJ i (before lg e1.1) e1.1.2.1 q.2.1 e1.2))) 0 = 0}

/-- Final challenges for which the checks pass. -/
def Pass (lg1 lg2 : List (Qry L × Ans M)) (s1 s2 s3 : List Byte) (r1 r2 : Ans M) :
    Set (Fin ((params i).lambda / 8) → Byte) :=
  {c | ChecksPass i (xV (params i) lg1 s1) (xU (params i) lg1 s1) inp out
    (List.ofFn (pre (5 * ((params i).lambda / 8) + 8) r1)) (xUt i s2) (xT i lg2 s2) (xD i s2)
    (List.ofFn (pre (3 * ((params i).lambda / 8) + 8) r2)) (xA i s3) (xB i s3) (List.ofFn c)}

open Classical in
/-- `chall_3` is one of at most two which pass. -/
def Bad3 (lg : List (Qry L × Ans M)) (q : Qry L) : Set (Ans M) :=
  {r | ∃ e2, find (params i) lg 0 (part q.2.1 0 ((params i).lambda / 8 * 2)) = some e2 ∧
    ∃ e1, find (params i) (before lg e2.1) 0 (part e2.1.2.1 0 ((params i).lambda / 8 * 2)) = some e1 ∧
    (Finset.univ.filter (· ∈ Pass i inp out (before (before lg e2.1) e1.1) (before lg e2.1) e1.1.2.1 e2.1.2.1 q.2.1
      e1.2 e2.2)).card ≤ 2 ∧
    pre ((params i).lambda / 8) r ∈ Pass i inp out (before (before lg e2.1) e1.1) (before lg e2.1) e1.1.2.1 e2.1.2.1
      q.2.1 e1.2 e2.2}

/-- All bad answers. -/
def Bad (lg : List (Qry L × Ans M)) (q : Qry L) : Set (Ans M) :=
  {r | r ∈ Hit (params i) lg q ∨ r ∈ Bad1 i lg q ∨ r ∈ Bad2 i I O lg q ∨ r ∈ Bad3 i inp out lg q}

variable {i I O inp out}

open Classical in
theorem count_bad1 (hM : 5 * ((params i).lambda / 8) + 8 ≤ M) (lg : List (Qry L × Ans M)) (q : Qry L) :
    (Finset.univ.filter (· ∈ Bad1 i lg q)).card ≤ ((params i).tau.choose 2 * (2 ^ (4 * (params i).lambda + 48)
        + (((params i).l + 2 * (params i).lambda - 1) / (params i).lambda - 1)
          * (((params i).l + 2 * (params i).lambda - 1) / (params i).lambda * ((params i).lambda / 64) - 1)
          * 2 ^ (4 * (params i).lambda))) * 256 ^ (M - (5 * ((params i).lambda / 8) + 8)) := by
  refine le_trans (Finset.card_le_card fun r hr => ?_) ((count_pre hM
    (Finset.univ.filter (· ∈ badKeys i (xU (params i) lg q.2.1)))).trans
      (Nat.mul_le_mul_right _ (Props.badKeys_card i _)))
  exact Finset.mem_filter.2 ⟨Finset.mem_univ _, Finset.mem_filter.2 ⟨Finset.mem_univ _, (Finset.mem_filter.1 hr).2⟩⟩

open Classical in
theorem count_bad2 (hM : 3 * ((params i).lambda / 8) + 8 ≤ M) (lg : List (Qry L × Ans M)) (q : Qry L) :
    (Finset.univ.filter (· ∈ Bad2 i I O lg q)).card ≤ (2 ^ (2 * (params i).lambda + 64)
          + (conCount (params i) - 1) ^ 2 * 2 ^ (2 * (params i).lambda))
        * 256 ^ (M - (3 * ((params i).lambda / 8) + 8)) := by
  have hn : (params i).lambda = 128 ∨ (params i).lambda = 192 ∨ (params i).lambda = 256 := by
    cases i <;> decide
  by_cases h : ∃ e1, find (params i) lg 0 (part q.2.1 0 ((params i).lambda / 8 * 2)) = some e1 ∧
    (∃ y ∈ viol i I O (xW i (before lg e1.1) e1.1.2.1 q.2.1 (xJ i (before lg e1.1) e1.1.2.1 q.2.1 e1.2)), y ≠ 0)
  · obtain ⟨e1, h1, h2⟩ := h
    have hz := zk_count hn h2 0
    rw [show (viol i I O (xW i (before lg e1.1) e1.1.2.1 q.2.1 (xJ i (before lg e1.1) e1.1.2.1 q.2.1 e1.2))).length
      = conCount (params i) from tabP_length _ _] at hz
    refine le_trans (Finset.card_le_card fun r hr => ?_) ((count_pre hM _).trans (Nat.mul_le_mul_right _ hz))
    obtain ⟨e, h3, -, h4⟩ := (Finset.mem_filter.1 hr).2
    rw [h1] at h3
    obtain rfl := Option.some.inj h3
    exact Finset.mem_filter.2 ⟨Finset.mem_univ _, Finset.mem_filter.2 ⟨Finset.mem_univ _, h4⟩⟩
  · rw [Finset.filter_false_of_mem, Finset.card_empty]
    · exact Nat.zero_le _
    · rintro r - ⟨e1, h1, h2, -⟩
      exact h ⟨e1, h1, h2⟩

open Classical in
theorem count_bad3 (hM : (params i).lambda / 8 ≤ M) (lg : List (Qry L × Ans M)) (q : Qry L) :
    (Finset.univ.filter (· ∈ Bad3 i inp out lg q)).card ≤ 2 * 256 ^ (M - (params i).lambda / 8) := by
  by_cases h : ∃ e2, find (params i) lg 0 (part q.2.1 0 ((params i).lambda / 8 * 2)) = some e2 ∧
    ∃ e1, find (params i) (before lg e2.1) 0 (part e2.1.2.1 0 ((params i).lambda / 8 * 2)) = some e1 ∧
    (Finset.univ.filter (· ∈ Pass i inp out (before (before lg e2.1) e1.1) (before lg e2.1) e1.1.2.1 e2.1.2.1 q.2.1
      e1.2 e2.2)).card ≤ 2
  · obtain ⟨e2, h2, e1, h1, hc⟩ := h
    refine le_trans (Finset.card_le_card fun r hr => ?_) ((count_pre hM _).trans (Nat.mul_le_mul_right _ hc))
    obtain ⟨e, h3, e', h4, -, h5⟩ := (Finset.mem_filter.1 hr).2
    rw [h2] at h3
    obtain rfl := Option.some.inj h3
    rw [h1] at h4
    obtain rfl := Option.some.inj h4
    exact Finset.mem_filter.2 ⟨Finset.mem_univ _, Finset.mem_filter.2 ⟨Finset.mem_univ _, h5⟩⟩
  · rw [Finset.filter_false_of_mem, Finset.card_empty]
    · exact Nat.zero_le _
    · rintro r - ⟨e2, h2, e1, h1, hc, -⟩
      exact h ⟨e2, h2, e1, h1, hc⟩

/-- The numbers for the parameter sets. -/
theorem bad_numbers (i : ParamId) : ((params i).tau.choose 2 * (2 ^ (4 * (params i).lambda + 48)
        + (((params i).l + 2 * (params i).lambda - 1) / (params i).lambda - 1)
          * (((params i).l + 2 * (params i).lambda - 1) / (params i).lambda * ((params i).lambda / 64) - 1)
          * 2 ^ (4 * (params i).lambda))
      + (2 ^ (2 * (params i).lambda + 64) + (conCount (params i) - 1) ^ 2 * 2 ^ (2 * (params i).lambda))
        * 256 ^ (2 * ((params i).lambda / 8))
      + 2 * 256 ^ (4 * ((params i).lambda / 8) + 8)) * 2 ^ ((params i).lambda - 2)
    ≤ 256 ^ (5 * ((params i).lambda / 8) + 8) := by
  cases i <;> decide +kernel

theorem pow256 (n : Nat) : 256 ^ n = 2 ^ (8 * n) := (Nat.pow_mul 2 8 n).symm

/-- The arithmetic. -/
theorem bad_arith (B1 B2 lb lam K T L N : Nat) (h8 : 8 * lb = lam)
    (hn : (B1 + B2 * 256 ^ (2 * lb) + 2 * 256 ^ (4 * lb + 8)) * 2 ^ (lam - 2) ≤ 256 ^ (5 * lb + 8))
    (hle : N ≤ 2 * T * (L + 2) * 256 ^ (3 * lb + 8 + K)
        + (B1 * 256 ^ K + (B2 * 256 ^ (2 * lb + K) + 2 * 256 ^ (4 * lb + 8 + K)))) :
    (N : ℚ) ≤ (1 / 2 ^ (lam - 2) + 2 * T * (L + 2) / 2 ^ (2 * lam)) * (256 ^ (5 * lb + 8 + K) : ℕ) := by
  have hA : (B1 * 256 ^ K + (B2 * 256 ^ (2 * lb + K) + 2 * 256 ^ (4 * lb + 8 + K))) * 2 ^ (lam - 2)
      ≤ 256 ^ (5 * lb + 8 + K) := by
    have e : (B1 * 256 ^ K + (B2 * 256 ^ (2 * lb + K) + 2 * 256 ^ (4 * lb + 8 + K))) * 2 ^ (lam - 2)
        = ((B1 + B2 * 256 ^ (2 * lb) + 2 * 256 ^ (4 * lb + 8)) * 2 ^ (lam - 2)) * 256 ^ K := by
      rw [Nat.pow_add 256 (2 * lb) K, Nat.pow_add 256 (4 * lb + 8) K]; ring
    rw [e, Nat.pow_add 256 (5 * lb + 8) K]
    exact Nat.mul_le_mul_right _ hn
  have hB : 256 ^ (3 * lb + 8 + K) * 2 ^ (2 * lam) = 256 ^ (5 * lb + 8 + K) := by
    have : 2 ^ (2 * lam) = 256 ^ (2 * lb) := by
      rw [pow256]; congr 1; omega
    rw [this, ← Nat.pow_add]; congr 1; omega
  have hAq : ((B1 * 256 ^ K + (B2 * 256 ^ (2 * lb + K) + 2 * 256 ^ (4 * lb + 8 + K)) : ℕ) : ℚ)
      ≤ 1 / 2 ^ (lam - 2) * (256 ^ (5 * lb + 8 + K) : ℕ) := by
    rw [one_div, inv_mul_eq_div, le_div_iff₀ (by positivity)]
    exact_mod_cast hA
  have hBq : ((2 * T * (L + 2) * 256 ^ (3 * lb + 8 + K) : ℕ) : ℚ)
      = 2 * T * (L + 2) / 2 ^ (2 * lam) * (256 ^ (5 * lb + 8 + K) : ℕ) := by
    rw [← hB]
    have : (2 : ℚ) ^ (2 * lam) ≠ 0 := by positivity
    push_cast
    field_simp
  have hq : (N : ℚ) ≤ ((2 * T * (L + 2) * 256 ^ (3 * lb + 8 + K)
        + (B1 * 256 ^ K + (B2 * 256 ^ (2 * lb + K) + 2 * 256 ^ (4 * lb + 8 + K))) : ℕ) : ℚ) := by exact_mod_cast hle
  refine hq.trans ?_
  rw [Nat.cast_add, hBq, add_mul]
  linarith

open Classical in
/-- The part of bad answers. -/
theorem count_bad (hM : 5 * ((params i).lambda / 8) + 8 ≤ M) (lg : List (Qry L × Ans M)) (q : Qry L) {T : Nat}
    (hT : lg.length < T) :
    ((Finset.univ.filter (· ∈ Bad i I O inp out lg q)).card : ℚ)
      ≤ (1 / 2 ^ ((params i).lambda - 2) + 2 * T * (L + 2) / 2 ^ (2 * (params i).lambda)) * Fintype.card (Ans M) := by
  have h0 := count_hit (P := params i) (by omega) lg q hT
  have h1 := count_bad1 hM lg q
  have h2 := count_bad2 (I := I) (O := O) (by omega : 3 * ((params i).lambda / 8) + 8 ≤ M) lg q
  have h3 := count_bad3 (inp := inp) (out := out) (by omega : (params i).lambda / 8 ≤ M) lg q
  have hn := bad_numbers i
  have h8 : 8 * ((params i).lambda / 8) = (params i).lambda := by cases i <;> decide
  set B1 := (params i).tau.choose 2 * (2 ^ (4 * (params i).lambda + 48)
        + (((params i).l + 2 * (params i).lambda - 1) / (params i).lambda - 1)
          * (((params i).l + 2 * (params i).lambda - 1) / (params i).lambda * ((params i).lambda / 64) - 1)
          * 2 ^ (4 * (params i).lambda)) with hB1
  set B2 := 2 ^ (2 * (params i).lambda + 64) + (conCount (params i) - 1) ^ 2 * 2 ^ (2 * (params i).lambda) with hB2
  set lb := (params i).lambda / 8 with hlb
  obtain ⟨K, rfl⟩ : ∃ K, M = 5 * lb + 8 + K := ⟨M - (5 * lb + 8), by omega⟩
  have e1 : 5 * lb + 8 + K - (5 * lb + 8) = K := by omega
  have e2 : 5 * lb + 8 + K - (3 * lb + 8) = 2 * lb + K := by omega
  have e3 : 5 * lb + 8 + K - lb = 4 * lb + 8 + K := by omega
  have e0 : 5 * lb + 8 + K - lb * 2 = 3 * lb + 8 + K := by omega
  rw [e0] at h0
  rw [e1] at h1
  rw [e2] at h2
  rw [e3] at h3
  have hcard : Fintype.card (Ans (5 * lb + 8 + K)) = 256 ^ (5 * lb + 8 + K) := by
    rw [card_seeds, pow256]
  have hsub : (Finset.univ.filter (· ∈ Bad i I O inp out lg q)) ⊆
      (Finset.univ.filter (· ∈ Hit (params i) lg q)) ∪ ((Finset.univ.filter (· ∈ Bad1 i lg q)) ∪
        ((Finset.univ.filter (· ∈ Bad2 i I O lg q)) ∪ (Finset.univ.filter (· ∈ Bad3 i inp out lg q)))) := by
    intro r hr
    simp only [Finset.mem_union, Finset.mem_filter, Finset.mem_univ, true_and]
    exact (Finset.mem_filter.1 hr).2
  have hle := (Finset.card_le_card hsub).trans ((Finset.card_union_le _ _).trans (Nat.add_le_add h0
    ((Finset.card_union_le _ _).trans (Nat.add_le_add h1 ((Finset.card_union_le _ _).trans (Nat.add_le_add h2 h3))))))
  rw [hcard]
  exact bad_arith B1 B2 lb (params i).lambda K T L _ h8 hn hle

end

end Faest.Rom
