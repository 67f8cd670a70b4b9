/-
Counting of the tables for which some question of an adversary gets an answer that was bad beforehand.
-/
import Mathlib.Data.Fintype.BigOperators
import Mathlib.Data.Fintype.Pi
import Mathlib.Data.Rat.Defs
import Mathlib.Algebra.Order.Field.Rat
import Mathlib.Tactic.Ring
import Mathlib.Tactic.Linarith
import Verif.Spec.Rom

namespace Faest.Rom

section
variable {D R : Type}

theorem answers_length (A : List R → D) (f : D → R) (k : Nat) : (answers A f k).length = k := by
  induction k with
  | zero => rfl
  | succ k ih => rw [answers, List.length_append, ih, List.length_singleton]

theorem log_length (A : List R → D) (f : D → R) (k : Nat) : (log A f k).length = k := by
  unfold log
  rw [List.length_map, List.length_range]

/-- Tables which agree on the questions asked give the same answers. -/
theorem answers_congr (A : List R → D) {f g : D → R} {k : Nat} (h : ∀ j, j < k → f (question A f j) = g (question A f j)) :
    ∀ j, j ≤ k → answers A g j = answers A f j := by
  intro j
  induction j with
  | zero => intro _; rfl
  | succ j ih =>
    intro hj
    have e := ih (by omega)
    have := h j (by omega)
    unfold question at this
    rw [answers, answers, e, this]

theorem log_congr (A : List R → D) {f g : D → R} {k : Nat} (h : ∀ j, j < k → f (question A f j) = g (question A f j)) :
    log A g k = log A f k := by
  unfold log
  refine List.map_congr_left fun j hj => ?_
  have hj := List.mem_range.1 hj
  have e : question A g j = question A f j := by
    unfold question
    rw [answers_congr A h j (by omega)]
  rw [e, h j hj]

/-- Question `k` is asked for the first time. -/
def Fresh (A : List R → D) (f : D → R) (k : Nat) : Prop := ∀ j, j < k → question A f j ≠ question A f k

variable [DecidableEq D] [Fintype D] [Fintype R]

open Classical in
/-- One step: the part of the tables for which the answer is bad is at most the part of bad answers. -/
theorem bad_step (A : List R → D) (bad : List (D × R) → D → Set R) (k : Nat) (c : ℚ) (hc : 0 ≤ c)
    (h : ∀ lg q, lg.length = k → ((Finset.univ.filter (· ∈ bad lg q)).card : ℚ) ≤ c * Fintype.card R) :
    ((Finset.univ.filter fun f : D → R => Fresh A f k ∧ f (question A f k) ∈ bad (log A f k) (question A f k)).card : ℚ)
      ≤ c * Fintype.card (D → R) := by
  by_cases hR : IsEmpty R
  · by_cases hD : IsEmpty D
    · have : (Finset.univ.filter fun f : D → R => Fresh A f k ∧ f (question A f k) ∈ bad (log A f k) (question A f k)) = ∅ := by
        refine Finset.filter_false_of_mem fun f _ h => hD.false (question A f k)
      rw [this, Finset.card_empty]
      positivity
    · have hD := not_isEmpty_iff.1 hD
      have : (Finset.univ.filter fun f : D → R => Fresh A f k ∧ f (question A f k) ∈ bad (log A f k) (question A f k)) = ∅ := by
        refine Finset.filter_false_of_mem fun f _ h => hR.false (f (question A f k))
      rw [this, Finset.card_empty]
      positivity
  have hR := not_isEmpty_iff.1 hR
  have hpos : (0 : ℚ) < Fintype.card R := by exact_mod_cast Fintype.card_pos
  -- changing the answer to a fresh question
  have hup : ∀ (f : D → R) (r : R), Fresh A f k → ∀ j, j < k →
      f (question A f j) = Function.update f (question A f k) r (question A f j) := by
    intro f r hf j hj
    rw [Function.update_of_ne (hf j hj)]
  have hq : ∀ (f : D → R) (r : R), Fresh A f k → ∀ j, j ≤ k →
      question A (Function.update f (question A f k) r) j = question A f j := by
    intro f r hf j hj
    exact congrArg A (answers_congr A (hup f r hf) j hj)
  have hfr : ∀ (f : D → R) (r : R), Fresh A f k → Fresh A (Function.update f (question A f k) r) k := by
    intro f r hf j hj
    rw [hq f r hf j (by omega), hq f r hf k (Nat.le_refl _)]
    exact hf j hj
  have hl : ∀ (f : D → R) (r : R), Fresh A f k → log A (Function.update f (question A f k) r) k = log A f k :=
    fun f r hf => log_congr A (hup f r hf)
  let B := Finset.univ.filter fun f : D → R => Fresh A f k ∧ f (question A f k) ∈ bad (log A f k) (question A f k)
  let C := Finset.univ.filter fun x : (D → R) × R => Fresh A x.1 k ∧ x.2 ∈ bad (log A x.1 k) (question A x.1 k)
  have h1 : (B ×ˢ (Finset.univ : Finset R)).card ≤ C.card := by
    refine Finset.card_le_card_of_injOn (fun x => (Function.update x.1 (question A x.1 k) x.2, x.1 (question A x.1 k))) ?_ ?_
    · intro x hx
      have hx := (Finset.mem_filter.1 (Finset.mem_product.1 hx).1).2
      refine Finset.mem_filter.2 ⟨Finset.mem_univ _, hfr _ _ hx.1, ?_⟩
      dsimp only
      rw [hl _ _ hx.1, hq _ _ hx.1 k (Nat.le_refl _)]
      exact hx.2
    · intro x hx y hy e
      have hx := (Finset.mem_filter.1 (Finset.mem_product.1 hx).1).2
      have hy := (Finset.mem_filter.1 (Finset.mem_product.1 hy).1).2
      have e1 := congrArg Prod.fst e
      have e2 := congrArg Prod.snd e
      dsimp only at e1 e2
      have eq : question A x.1 k = question A y.1 k := by
        rw [← hq x.1 x.2 hx.1 k (Nat.le_refl _), e1, hq y.1 y.2 hy.1 k (Nat.le_refl _)]
      refine Prod.ext ?_ ?_
      · funext z
        by_cases hz : z = question A x.1 k
        · rw [hz, e2, eq]
        · have := congrFun e1 z
          rwa [Function.update_of_ne hz, Function.update_of_ne (by rw [← eq]; exact hz)] at this
      · have := congrFun e1 (question A x.1 k)
        rwa [Function.update_self, eq, Function.update_self] at this
  have h2 : (C.card : ℚ) ≤ c * Fintype.card R * Fintype.card (D → R) := by
    have : C.card = ∑ f : D → R, (Finset.univ.filter fun r : R => Fresh A f k ∧ r ∈ bad (log A f k) (question A f k)).card := by
      rw [Finset.card_eq_sum_card_fiberwise (f := Prod.fst) (t := Finset.univ) fun _ _ => Finset.mem_univ _]
      refine Finset.sum_congr rfl fun f _ => ?_
      refine Finset.card_bij' (fun x _ => x.2) (fun r _ => (f, r)) ?_ ?_ ?_ ?_
      · intro x hx
        obtain ⟨hx, hf⟩ := Finset.mem_filter.1 hx
        rw [← hf]
        exact Finset.mem_filter.2 ⟨Finset.mem_univ _, (Finset.mem_filter.1 hx).2⟩
      · intro r hr
        exact Finset.mem_filter.2 ⟨Finset.mem_filter.2 ⟨Finset.mem_univ _, (Finset.mem_filter.1 hr).2⟩, rfl⟩
      · intro x hx
        obtain ⟨hx, rfl⟩ := Finset.mem_filter.1 hx
        rfl
      · intro r _
        rfl
    rw [this]
    push_cast
    calc ∑ f : D → R, ((Finset.univ.filter fun r : R => Fresh A f k ∧ r ∈ bad (log A f k) (question A f k)).card : ℚ)
        ≤ ∑ _f : D → R, c * Fintype.card R := by
          refine Finset.sum_le_sum fun f _ => le_trans ?_ (h (log A f k) (question A f k) (log_length A f k))
          have hs : (Finset.univ.filter fun r : R => Fresh A f k ∧ r ∈ bad (log A f k) (question A f k))
              ⊆ Finset.univ.filter fun r : R => r ∈ bad (log A f k) (question A f k) :=
            fun r hr => Finset.mem_filter.2 ⟨Finset.mem_univ _, (Finset.mem_filter.1 hr).2.2⟩
          exact_mod_cast Finset.card_le_card hs
      _ = c * Fintype.card R * Fintype.card (D → R) := by
          rw [Finset.sum_const, Finset.card_univ, nsmul_eq_mul]; ring
  have h3 : (B.card : ℚ) * Fintype.card R ≤ C.card := by
    have := h1
    rw [Finset.card_product, Finset.card_univ] at this
    exact_mod_cast this
  have h4 : (B.card : ℚ) * Fintype.card R ≤ (c * Fintype.card (D → R)) * Fintype.card R := by
    refine h3.trans (h2.trans (le_of_eq ?_))
    ring
  exact le_of_mul_le_mul_right h4 hpos

open Classical in
/-- All steps. -/
theorem bad_run (A : List R → D) (bad : List (D × R) → D → Set R) (T : Nat) (c : ℚ) (hc : 0 ≤ c)
    (h : ∀ lg q, lg.length < T → ((Finset.univ.filter (· ∈ bad lg q)).card : ℚ) ≤ c * Fintype.card R) :
    ((Finset.univ.filter fun f : D → R => ∃ k, k < T ∧ Fresh A f k ∧
        f (question A f k) ∈ bad (log A f k) (question A f k)).card : ℚ) ≤ T * c * Fintype.card (D → R) := by
  have hsub : (Finset.univ.filter fun f : D → R => ∃ k, k < T ∧ Fresh A f k ∧
        f (question A f k) ∈ bad (log A f k) (question A f k))
      ⊆ (Finset.range T).biUnion fun k => Finset.univ.filter fun f : D → R => Fresh A f k ∧
        f (question A f k) ∈ bad (log A f k) (question A f k) := by
    intro f hf
    obtain ⟨k, hk, hb⟩ := (Finset.mem_filter.1 hf).2
    exact Finset.mem_biUnion.2 ⟨k, Finset.mem_range.2 hk, Finset.mem_filter.2 ⟨Finset.mem_univ _, hb⟩⟩
  have h1 := (Finset.card_le_card hsub).trans Finset.card_biUnion_le
  have h2 : ((Finset.univ.filter fun f : D → R => ∃ k, k < T ∧ Fresh A f k ∧
        f (question A f k) ∈ bad (log A f k) (question A f k)).card : ℚ)
      ≤ ∑ k ∈ Finset.range T, ((Finset.univ.filter fun f : D → R => Fresh A f k ∧
        f (question A f k) ∈ bad (log A f k) (question A f k)).card : ℚ) := by exact_mod_cast h1
  refine h2.trans ?_
  calc ∑ k ∈ Finset.range T, ((Finset.univ.filter fun f : D → R => Fresh A f k ∧
        f (question A f k) ∈ bad (log A f k) (question A f k)).card : ℚ)
      ≤ ∑ _k ∈ Finset.range T, c * Fintype.card (D → R) := by
        refine Finset.sum_le_sum fun k hk => bad_step A bad k c hc fun lg q hl => h lg q ?_
        rw [hl]; exact Finset.mem_range.1 hk
    _ = T * c * Fintype.card (D → R) := by
        rw [Finset.sum_const, Finset.card_range, nsmul_eq_mul]; ring

end

end Faest.Rom
