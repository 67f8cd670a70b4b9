/-
Logs of an adversary, parts of strings, and answers which contain nothing seen before.
-/
import Verif.Proofs.RomCount
import Verif.Proofs.SignRefine
import Verif.Proofs.UHashCount

namespace Faest.Rom

/-! ### Logs -/

section
variable {D R : Type} {A : List R → D} {f : D → R}

/-- `q` is asked for the first time as question number `k`. -/
def FirstAt (A : List R → D) (f : D → R) (k : Nat) (q : D) : Prop :=
  question A f k = q ∧ ∀ j, j < k → question A f j ≠ q

theorem FirstAt.fresh {k : Nat} {q : D} (h : FirstAt A f k q) : Fresh A f k := fun j hj => by
  rw [h.1]; exact h.2 j hj

theorem FirstAt.uniq {k k' : Nat} {q : D} (h : FirstAt A f k q) (h' : FirstAt A f k' q) : k = k' := by
  rcases Nat.lt_trichotomy k k' with hl | hl | hl
  · exact absurd h.1 (h'.2 k hl)
  · exact hl
  · exact absurd h'.1 (h.2 k' hl)

theorem mem_log {n : Nat} {e : D × R} : e ∈ log A f n ↔ ∃ k, k < n ∧ e = (question A f k, f (question A f k)) := by
  unfold log
  rw [List.mem_map]
  constructor
  · rintro ⟨k, hk, rfl⟩; exact ⟨k, List.mem_range.1 hk, rfl⟩
  · rintro ⟨k, hk, rfl⟩; exact ⟨k, List.mem_range.2 hk, rfl⟩

theorem log_answer {n : Nat} {e : D × R} (h : e ∈ log A f n) : e.2 = f e.1 := by
  obtain ⟨k, -, rfl⟩ := mem_log.1 h; rfl

theorem exists_first {n : Nat} {q : D} (h : ∃ k, k < n ∧ question A f k = q) : ∃ k, k < n ∧ FirstAt A f k q := by
  classical
  obtain ⟨k, hk, hq⟩ := h
  have hex : ∃ k, question A f k = q := ⟨k, hq⟩
  refine ⟨Nat.find hex, lt_of_le_of_lt (Nat.find_min' hex hq) hk, Nat.find_spec hex, fun j hj => Nat.find_min hex hj⟩

theorem FirstAt.mem {k n : Nat} {q : D} (h : FirstAt A f k q) (hk : k < n) : (q, f q) ∈ log A f n :=
  mem_log.2 ⟨k, hk, by rw [h.1]⟩

end

section
variable {L M : Nat} {A : List (Ans M) → Qry L} {f : Qry L → Ans M}

theorem before_log {k n : Nat} {q : Qry L} (h : FirstAt A f k q) (hk : k < n) : before (log A f n) q = log A f k := by
  obtain ⟨m, rfl⟩ : ∃ m, n = k + (m + 1) := ⟨n - k - 1, by omega⟩
  unfold before log
  rw [List.range_add, List.map_append, List.range_succ_eq_map, List.map_cons, List.map_cons, Nat.add_zero, h.1]
  rw [List.takeWhile_append_of_pos, List.takeWhile_cons_of_neg, List.append_nil]
  · simp
  · intro e he
    obtain ⟨j, hj, rfl⟩ := mem_log.1 he
    simpa using h.2 j hj

end

/-! ### Parts of strings -/

theorem part_append {a b c : List Byte} {p n : Nat} (hp : a.length = p) (hn : b.length = n) :
    part (a ++ (b ++ c)) p n = b := by
  unfold part
  rw [List.drop_append_of_le_length (by omega), List.drop_of_length_le (by omega), List.nil_append,
    List.take_append_of_le_length (by omega), List.take_of_length_le (by omega)]

theorem part_zero {b c : List Byte} {n : Nat} (hn : n ≤ b.length) : part (b ++ c) 0 n = b.take n := by
  unfold part
  rw [List.drop_zero, List.take_append_of_le_length hn]

theorem part_length {s : List Byte} {p n : Nat} (h : p + n ≤ s.length) : (part s p n).length = n := by
  unfold part
  rw [List.length_take, List.length_drop]; omega

theorem part_flatten {n : Nat} {g : Nat → List Byte} (hg : ∀ j, (g j).length = n) {N j : Nat} (hj : j < N)
    (c : List Byte) : part ((tabP N g).flatten ++ c) (j * n) n = g j := by
  have hl : (tabP N g).flatten.length = n * N := flatten_length hg N
  have hjn : n * j + n ≤ n * N := by
    have := Nat.mul_le_mul_left n (show j + 1 ≤ N by omega)
    rwa [Nat.mul_succ] at this
  rw [Nat.mul_comm j n]
  refine List.ext_getElem? fun t => ?_
  unfold part
  by_cases ht : t < n
  · rw [List.getElem?_take, if_pos ht, List.getElem?_drop, List.getElem?_append_left (by rw [hl]; omega),
      flatten_get hg (by omega)]
    have hpos : 0 < n := by omega
    rw [Nat.mul_add_div hpos, Nat.mul_add_mod, Nat.div_eq_of_lt ht, Nat.mod_eq_of_lt ht, Nat.add_zero]
  · rw [List.getElem?_take, if_neg ht, List.getElem?_eq_none (by rw [hg]; omega)]

theorem flatten_len {n : Nat} {g : Nat → List Byte} (hg : ∀ j, (g j).length = n) (N : Nat) :
    (tabP N g).flatten.length = n * N := flatten_length hg N

/-! ### Counting answers -/

/-- The first `n` bytes of an answer. -/
def pre {M : Nat} (n : Nat) (r : Ans M) : Fin n → Byte := fun t => byteOf r t

theorem ofFn_pre {M n : Nat} (r : Ans M) : List.ofFn (pre n r) = tabP n (byteOf r) := by
  refine list_eq_tabP _ _ _ List.length_ofFn fun t ht => ?_
  rw [List.getElem?_ofFn, dif_pos ht]
  rfl

open Classical in
theorem count_pos {M n : Nat} (o : Nat) (h : o + n ≤ M) (S : Finset (Fin n → Byte)) :
    (Finset.univ.filter fun r : Ans M => (fun t : Fin n => byteOf r (o + t)) ∈ S).card ≤ S.card * 256 ^ (M - n) := by
  let e : Fin n → Fin M := fun t => ⟨o + t, by omega⟩
  have he : Function.Injective e := by
    intro a b hab
    have := congrArg Fin.val hab
    simp only [e] at this
    exact Fin.ext (by omega)
  have hb : ∀ (r : Ans M) (t : Fin n), byteOf r (o + t) = r (e t) := by
    intro r t
    unfold byteOf
    rw [dif_pos (by omega)]
  have hcard : Fintype.card ({x : Fin M // x ∉ Set.range e} → Byte) = 256 ^ (M - n) := by
    rw [Fintype.card_fun, card_bitVec]
    congr 1
    have h1 := Fintype.card_subtype_compl (fun x => x ∈ Set.range e)
    rw [h1, Fintype.card_fin]
    congr 1
    have := Set.card_range_of_injective he
    rw [Fintype.card_fin] at this
    exact (Fintype.card_congr (Equiv.refl _)).trans this
  rw [← hcard, ← Finset.card_univ, ← Finset.card_product]
  refine Finset.card_le_card_of_injOn (fun r => (fun t => byteOf r (o + t), fun x => r x.1)) ?_ ?_
  · intro r hr
    exact Finset.mem_product.2 ⟨(Finset.mem_filter.1 hr).2, Finset.mem_univ _⟩
  · intro r _ r' _ hrr
    have h1 := congrArg Prod.fst hrr
    have h2 := congrArg Prod.snd hrr
    dsimp only at h1 h2
    funext x
    by_cases hx : x ∈ Set.range e
    · obtain ⟨t, rfl⟩ := hx
      have := congrFun h1 t
      rwa [hb, hb] at this
    · exact congrFun h2 ⟨x, hx⟩

open Classical in
theorem count_pre {M n : Nat} (h : n ≤ M) (S : Finset (Fin n → Byte)) :
    (Finset.univ.filter fun r : Ans M => pre n r ∈ S).card ≤ S.card * 256 ^ (M - n) := by
  have := count_pos (M := M) (n := n) 0 (by omega) S
  have e : ∀ r : Ans M, (fun t : Fin n => byteOf r (0 + t)) = pre n r := by
    intro r; funext t; rw [Nat.zero_add]; rfl
  simpa only [e] using this

open Classical in
theorem count_window {M : Nat} {P : Params} {o : Nat} (h : o + P.lambda / 8 * 2 ≤ M) (w : List Byte) :
    (Finset.univ.filter fun r : Ans M => window P o r = w).card ≤ 256 ^ (M - P.lambda / 8 * 2) := by
  have := count_pos (M := M) (n := P.lambda / 8 * 2) o h {fun t : Fin (P.lambda / 8 * 2) => Spec.byteFn w t}
  rw [Finset.card_singleton, Nat.one_mul] at this
  refine le_trans (Finset.card_le_card fun r hr => ?_) this
  refine Finset.mem_filter.2 ⟨Finset.mem_univ _, Finset.mem_singleton.2 ?_⟩
  funext t
  rw [← (Finset.mem_filter.1 hr).2]
  unfold window
  rw [byteFn_tabP t.2]

/-! ### Answers which contain something seen before -/

section
variable {L M : Nat} (P : Params)

/-- Strings which a new answer should not contain: the answers so far and all parts of the questions. -/
def targets (lg : List (Qry L × Ans M)) (q : Qry L) (o : Nat) : List (List Byte) :=
  lg.map (fun e => window P o e.2) ++ (q.2.1 :: lg.map fun e => e.1.2.1).flatMap fun s =>
    (List.range (L + 1)).map fun p => part s p (P.lambda / 8 * 2)

/-- Answers which contain such a string. -/
def Hit (lg : List (Qry L × Ans M)) (q : Qry L) : Set (Ans M) :=
  {r | window P 0 r ∈ targets P lg q 0 ∨ window P (P.lambda / 8) r ∈ targets P lg q (P.lambda / 8)}

variable {P}

theorem targets_length (lg : List (Qry L × Ans M)) (q : Qry L) (o : Nat) :
    (targets P lg q o).length = lg.length + (lg.length + 1) * (L + 1) := by
  unfold targets
  rw [List.length_append, List.length_map, List.length_flatMap]
  have : ∀ xs : List (List Byte), (xs.map fun s =>
      ((List.range (L + 1)).map fun p => part s p (P.lambda / 8 * 2)).length).sum = xs.length * (L + 1) := by
    intro xs
    induction xs with
    | nil => simp
    | cons x xs ih => rw [List.map_cons, List.sum_cons, ih]; simp; ring
  rw [this]
  simp

open Classical in
theorem count_targets {o : Nat} (h : o + P.lambda / 8 * 2 ≤ M) (W : List (List Byte)) :
    (Finset.univ.filter fun r : Ans M => window P o r ∈ W).card ≤ W.length * 256 ^ (M - P.lambda / 8 * 2) := by
  have h1 : (Finset.univ.filter fun r : Ans M => window P o r ∈ W)
      ⊆ W.toFinset.biUnion fun w => Finset.univ.filter fun r : Ans M => window P o r = w := by
    intro r hr
    exact Finset.mem_biUnion.2 ⟨_, List.mem_toFinset.2 (Finset.mem_filter.1 hr).2,
      Finset.mem_filter.2 ⟨Finset.mem_univ _, rfl⟩⟩
  refine (Finset.card_le_card h1).trans ?_
  refine (Finset.card_biUnion_le_card_mul _ _ _ fun w _ => count_window h w).trans ?_
  exact Nat.mul_le_mul_right _ (List.toFinset_card_le _)

open Classical in
theorem count_hit (h : P.lambda / 8 * 3 ≤ M) (lg : List (Qry L × Ans M)) (q : Qry L) {T : Nat} (hT : lg.length < T) :
    (Finset.univ.filter (· ∈ Hit P lg q)).card ≤ 2 * T * (L + 2) * 256 ^ (M - P.lambda / 8 * 2) := by
  have h0 := count_targets (P := P) (M := M) (o := 0) (by omega) (targets P lg q 0)
  have h1 := count_targets (P := P) (M := M) (o := P.lambda / 8) (by omega) (targets P lg q (P.lambda / 8))
  rw [targets_length] at h0 h1
  have hsub : (Finset.univ.filter (· ∈ Hit P lg q))
      ⊆ (Finset.univ.filter fun r : Ans M => window P 0 r ∈ targets P lg q 0)
        ∪ Finset.univ.filter fun r : Ans M => window P (P.lambda / 8) r ∈ targets P lg q (P.lambda / 8) := by
    intro r hr
    rcases (Finset.mem_filter.1 hr).2 with h | h
    · exact Finset.mem_union_left _ (Finset.mem_filter.2 ⟨Finset.mem_univ _, h⟩)
    · exact Finset.mem_union_right _ (Finset.mem_filter.2 ⟨Finset.mem_univ _, h⟩)
  refine (Finset.card_le_card hsub).trans ((Finset.card_union_le _ _).trans ((Nat.add_le_add h0 h1).trans ?_))
  rw [← Nat.add_mul]
  refine Nat.mul_le_mul_right _ ?_
  have h2 : (lg.length + 1) * (L + 1) ≤ T * (L + 1) := Nat.mul_le_mul_right _ hT
  have h3 : 2 * T * (L + 2) = 2 * T + 2 * (T * (L + 1)) := by ring
  rw [h3]; omega

/-! ### Runs without such answers -/

variable {A : List (Ans M) → Qry L} {f : Qry L → Ans M} {T : Nat}

/-- No new answer contains something seen before. -/
def NoHit (P : Params) (A : List (Ans M) → Qry L) (f : Qry L → Ans M) (T : Nat) : Prop :=
  ∀ k, k < T → Fresh A f k → f (question A f k) ∉ Hit P (log A f k) (question A f k)

/-- A question which contains an answer comes after it. -/
theorem order (h : NoHit P A f T) {o : Nat} (ho : o = 0 ∨ o = P.lambda / 8) {q q' : Qry L} {k k' p : Nat} (hk : k < T)
    (hq : FirstAt A f k q) (hq' : FirstAt A f k' q') (hp : p + P.lambda / 8 * 2 ≤ q'.2.1.length)
    (e : part q'.2.1 p (P.lambda / 8 * 2) = window P o (f q)) : k < k' := by
  by_contra hn
  refine h k hk hq.fresh ?_
  rw [hq.1]
  have ht : window P o (f q) ∈ targets P (log A f k) q o := by
    refine List.mem_append_right _ (List.mem_flatMap.2 ⟨q'.2.1, ?_, List.mem_map.2 ⟨p, ?_, e⟩⟩)
    · rcases Nat.lt_or_ge k' k with hl | hl
      · exact List.mem_cons_of_mem _ (List.mem_map.2 ⟨_, hq'.mem hl, rfl⟩)
      · obtain rfl : k = k' := by omega
        rw [← hq.1, hq'.1]
        exact List.mem_cons_self
    · have := q'.2.2
      exact List.mem_range.2 (by omega)
  rcases ho with rfl | rfl
  · exact Or.inl ht
  · exact Or.inr ht

theorem window_inj (h : NoHit P A f T) {o : Nat} (ho : o = 0 ∨ o = P.lambda / 8) {q q' : Qry L} {k k' : Nat}
    (hk : k < T) (hk' : k' < T) (hq : FirstAt A f k q) (hq' : FirstAt A f k' q')
    (e : window P o (f q) = window P o (f q')) : q = q' := by
  have key : ∀ {q q' : Qry L} {k k' : Nat}, k' < T → FirstAt A f k q → FirstAt A f k' q' → k < k' →
      window P o (f q) = window P o (f q') → False := by
    intro q q' k k' hk' hq hq' hlt e
    refine h k' hk' hq'.fresh ?_
    rw [hq'.1]
    have ht : window P o (f q') ∈ targets P (log A f k') q' o :=
      List.mem_append_left _ (List.mem_map.2 ⟨_, hq.mem hlt, e⟩)
    rcases ho with rfl | rfl
    · exact Or.inl ht
    · exact Or.inr ht
  rcases Nat.lt_trichotomy k k' with hl | hl | hl
  · exact (key hk' hq hq' hl e).elim
  · rw [← hq.1, hl, hq'.1]
  · exact (key hk hq' hq hl e.symm).elim

/-- The extractor finds the question whose answer it looks for. -/
theorem find_log (h : NoHit P A f T) {o : Nat} (ho : o = 0 ∨ o = P.lambda / 8) {q : Qry L} {k n : Nat}
    (hq : FirstAt A f k q) (hk : k < n) (hn : n ≤ T) : find P (log A f n) o (window P o (f q)) = some (q, f q) := by
  unfold find
  have hs : ((log A f n).find? fun e => decide (window P o e.2 = window P o (f q))).isSome := by
    rw [List.find?_isSome]
    exact ⟨_, hq.mem hk, by simp⟩
  obtain ⟨e, he⟩ := Option.isSome_iff_exists.1 hs
  have h1 := List.mem_of_find?_eq_some he
  have h2 := List.find?_some he
  have h3 := log_answer h1
  obtain ⟨k', hk', he'⟩ := mem_log.1 h1
  obtain ⟨k2, hk2, hf2⟩ := exists_first (A := A) (f := f) (n := n) (q := e.1) ⟨k', hk', by rw [he']⟩
  have h2 : window P o (f e.1) = window P o (f q) := by rw [← h3]; simpa using h2
  have h4 := window_inj h ho (by omega) (by omega) hf2 hq h2
  rw [he]
  exact congrArg some (Prod.ext h4 (by rw [h3, h4]))

end

end Faest.Rom
