/-
The adversary continued by the questions of the verifier.
-/
import Verif.Proofs.RomVerifier

namespace Faest.Rom
open Spec

section
variable {D R : Type}

/-- The log as seen by an adversary which chooses the next question from the log. -/
def mk (B : List (D × R) → D) (rs : List R) : List (D × R) := rs.foldl (fun lg r => lg ++ [(B lg, r)]) []

/-- Such an adversary. -/
def advOf (B : List (D × R) → D) (rs : List R) : D := B (mk B rs)

theorem log_succ (A : List R → D) (f : D → R) (k : Nat) :
    log A f (k + 1) = log A f k ++ [(question A f k, f (question A f k))] := by
  unfold log
  rw [List.range_succ, List.map_append]
  rfl

theorem mk_answers (B : List (D × R) → D) (f : D → R) (k : Nat) : mk B (answers (advOf B) f k) = log (advOf B) f k := by
  induction k with
  | zero => rfl
  | succ k ih =>
    rw [answers, log_succ, ← ih]
    unfold mk
    rw [List.foldl_append]
    rfl

theorem question_advOf (B : List (D × R) → D) (f : D → R) (k : Nat) :
    question (advOf B) f k = B (log (advOf B) f k) := by
  rw [← mk_answers]
  rfl

theorem log_snd (A : List R → D) (f : D → R) (k : Nat) : (log A f k).map Prod.snd = answers A f k := by
  induction k with
  | zero => rfl
  | succ k ih => rw [log_succ, List.map_append, ih]; rfl

theorem log_add (A : List R → D) (f : D → R) (k n : Nat) : log A f (k + n) = log A f k ++ (List.range n).map fun j =>
    (question A f (k + j), f (question A f (k + j))) := by
  unfold log
  rw [List.range_add, List.map_append, List.map_map]
  rfl

end

section
variable {L M : Nat}

/-- The table known from a log. -/
def tabOf (lg : List (Qry L × Ans M)) (q : Qry L) : Ans M :=
  ((lg.find? fun e => decide (e.1 = q)).map Prod.snd).getD fun _ => 0

theorem tabOf_log {A : List (Ans M) → Qry L} {f : Qry L → Ans M} {n : Nat} {q : Qry L}
    (h : ∃ k, k < n ∧ question A f k = q) : tabOf (log A f n) q = f q := by
  obtain ⟨k, hk, hq⟩ := h
  have hs : ((log A f n).find? fun e => decide (e.1 = q)).isSome := by
    rw [List.find?_isSome]
    exact ⟨_, mem_log.2 ⟨k, hk, rfl⟩, by simpa using hq⟩
  obtain ⟨e, he⟩ := Option.isSome_iff_exists.1 hs
  have h1 := log_answer (List.mem_of_find?_eq_some he)
  have h2 : e.1 = q := by simpa using List.find?_some he
  unfold tabOf
  rw [he, Option.map_some, Option.getD_some, h1, h2]

theorem eqOn_of_ask {P : Params} {f g : Qry L → Ans M} {s : List Byte} (h : f (ask P s) = g (ask P s)) :
    EqOn P (xof f) (xof g) s := by
  intro t
  unfold xof
  split
  · rename_i hs
    have e : (ask P s : Qry L) = (decide (hashSel P.lambda = 128), ⟨s, hs⟩) := by
      unfold ask; rw [dif_pos hs]
    rw [← e, h]
  · rfl

variable (P : Params) (pk : List Byte) (A : List (Ans M) → Qry L) (out : List (Ans M) → List Byte × List Byte) (T : Nat)

/-- First the questions of the adversary, then those of the verifier. -/
def ext (lg : List (Qry L × Ans M)) : Qry L :=
  if lg.length < T then A (lg.map Prod.snd)
  else ask P (vstr (xof (tabOf lg)) P pk (out ((lg.take T).map Prod.snd)).1 (out ((lg.take T).map Prod.snd)).2
    (lg.length - T))

variable {P pk A out T}

theorem ext_answers (f : Qry L → Ans M) : ∀ k, k ≤ T →
    answers (advOf (ext P pk A out T)) f k = answers A f k := by
  intro k
  induction k with
  | zero => intro _; rfl
  | succ k ih =>
    intro hk
    have e := ih (by omega)
    have hq := question_advOf (ext P pk A out T) f k
    unfold question at hq
    rw [answers, answers, hq]
    unfold ext
    rw [if_pos (by rw [log_length]; omega)]
    have := log_snd (advOf (ext P pk A out T)) f k
    unfold ext at this e
    rw [this, e]

theorem ext_question (f : Qry L → Ans M) {k : Nat} (hk : k < T) :
    question (advOf (ext P pk A out T)) f k = question A f k := by
  rw [question_advOf]
  unfold ext
  rw [if_pos (by rw [log_length]; omega)]
  have := log_snd (advOf (ext P pk A out T)) f k
  have e := ext_answers (P := P) (pk := pk) (A := A) (out := out) (T := T) f k (by omega)
  unfold ext at this e
  rw [this, e]
  rfl

theorem ext_log (f : Qry L → Ans M) : log (advOf (ext P pk A out T)) f T = log A f T := by
  unfold log
  refine List.map_congr_left fun k hk => ?_
  rw [ext_question f (List.mem_range.1 hk)]

theorem ext_verifier (hP : PWF P) (hk : P.k1 ≤ P.k0) (f : Qry L → Ans M) : ∀ n, n < vcount P →
    question (advOf (ext P pk A out T)) f (T + n)
      = ask P (vstr (xof f) P pk (out (answers A f T)).1 (out (answers A f T)).2 n) := by
  intro n
  induction n using Nat.strongRecOn with
  | _ n ih =>
    intro hn
    rw [question_advOf]
    have hl := log_length (advOf (ext P pk A out T)) f (T + n)
    have ht : ((log (advOf (ext P pk A out T)) f (T + n)).take T).map Prod.snd = answers A f T := by
      rw [log_add, List.take_append_of_le_length (by rw [log_length]), List.take_of_length_le (by rw [log_length]),
        log_snd, ext_answers f T (Nat.le_refl _)]
    have hu : ∀ lg : List (Qry L × Ans M), ¬ lg.length < T → ext P pk A out T lg
        = ask P (vstr (xof (tabOf lg)) P pk (out ((lg.take T).map Prod.snd)).1 (out ((lg.take T).map Prod.snd)).2
          (lg.length - T)) := fun lg h => if_neg h
    rw [hu _ (by omega), ht, hl, Nat.add_sub_cancel_left]
    refine congrArg (ask P) (vstr_local hP hk hn fun j hj => eqOn_of_ask ?_).symm
    exact (tabOf_log ⟨T + j, by omega, ih j hj (by omega)⟩).symm

theorem ext_fullLog (hP : PWF P) (hk : P.k1 ≤ P.k0) (f : Qry L → Ans M) :
    log (advOf (ext P pk A out T)) f (T + vcount P) = fullLog P pk A out f T := by
  rw [log_add, ext_log]
  unfold fullLog
  congr 1
  refine List.map_congr_left fun n hn => ?_
  rw [ext_verifier hP hk f n (List.mem_range.1 hn)]

end

/-! ### Lengths -/

section
variable {P : Params} {X : XOF} {pk m sg : List Byte}

theorem vNode_length (a l j : Nat) : (vNode P (sgIv P (byteFn sg)) (sgChall P (byteFn sg)) (sgNode P (byteFn sg)) a l j).length
    = P.lambda / 8 := by
  unfold vNode
  cases l with
  | zero => exact List.length_replicate
  | succ l =>
    unfold recNode
    split
    · split
      · exact List.length_replicate
      · exact tabP_length _ _
    · unfold child prgL
      split
      · rw [List.length_take, tabP_length]; omega
      · rw [List.length_drop, tabP_length]; omega

theorem params_len (i : ParamId) : (params i).lambda / 8 ≤ 32 ∧ (params i).lambda ≤ 256 ∧ (params i).k1 ≤ (params i).k0
    ∧ (params i).k0 ≤ 12 ∧ (params i).tau ≤ 32 ∧ posU (params i) ≤ 65536 ∧ (params i).l / 8 ≤ 4096
    ∧ (params i).pkSize ≤ 64 := by
  cases i <;> decide

theorem hashed_length {i : ParamId} {s : List Byte} (h : Hashed X (params i) pk m sg s) :
    s.length ≤ m.length + 2 ^ 19 := by
  obtain ⟨h1, h2, h3, h4, h5, h6, h7, h8⟩ := params_len i
  cases h with
  | leaf a j ha hj =>
    unfold leafStr
    rw [List.length_append, List.length_append, vNode_length, List.length_singleton,
      show (sgIv (params i) (byteFn sg)).length = 16 from tabP_length _ _]
    omega
  | tree a ha =>
    unfold treeStr
    rw [List.length_append, flatten_len (comOf_length X a), List.length_singleton]
    have hd : depth (params i) a ≤ 12 := by unfold depth; split <;> omega
    have h2d : 2 ^ depth (params i) a ≤ 2 ^ 12 := Nat.pow_le_pow_right (by omega) hd
    have := Nat.mul_le_mul (show (params i).lambda / 8 * 2 ≤ 64 by omega) h2d
    omega
  | trees =>
    unfold treesStr
    have hl : ∀ a, (comDigest X (params i).lambda (2 ^ depth (params i) a) (comOf X (params i) sg a)).length
        = (params i).lambda / 8 * 2 := fun a => squeeze_length _ _ _ _ _
    rw [List.length_append, flatten_len hl, List.length_singleton]
    have := Nat.mul_le_mul (show (params i).lambda / 8 * 2 ≤ 64 by omega) h5
    omega
  | mu =>
    unfold muStr
    simp only [List.length_append, tabP_length, List.length_singleton]
    omega
  | chall1 =>
    unfold str1 sgIv vMu
    simp only [List.length_append, muOf_length, vHcom_length, tabP_length, List.length_singleton]
    omega
  | tags =>
    unfold tagsStr
    rw [List.length_append, flatten_len (fun p => tabP_length _ _), List.length_singleton]
    have := Nat.mul_le_mul (show (params i).lambda / 8 + 2 ≤ 34 by omega) h2
    omega
  | chall2 =>
    unfold str2 vC1 vChall1 sgU vHv sgD ro
    simp only [List.length_append, tabP_length, squeeze_length, List.length_singleton]
    omega
  | chall3 =>
    unfold str3 vC2 vChall2 sgA ro
    simp only [List.length_append, tabP_length, squeeze_length, List.length_singleton, BF.toBytes]
    simp
    omega

end

end Faest.Rom
