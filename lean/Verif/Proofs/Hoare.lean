/-
Reasoning about the memory model: total-correctness triples `Ok x Q` ("`x` is defined and its
value satisfies `Q`") and the contents `Has m off n g` of a buffer range.
-/
import Verif.Model.Basic
import Mathlib.Tactic.Common

namespace Faest

/-- `x` is defined and its value satisfies `Q`. -/
def Ok {α : Type} (x : Option α) (Q : α → Prop) : Prop := ∃ a, x = some a ∧ Q a

/-- Cells `off … off+n-1` of `m` hold `g 0 … g (n-1)`. -/
def Has {α : Type} (m : Mem α) (off n : Nat) (g : Nat → α) : Prop :=
  ∀ i, i < n → rd m (off + i) = some (g i)

section ok
variable {α β S : Type}

theorem Ok.some {a : α} {Q : α → Prop} (h : Q a) : Ok (some a) Q := ⟨a, rfl, h⟩
theorem Ok.pure {a : α} {Q : α → Prop} (h : Q a) : Ok (pure a) Q := ⟨a, rfl, h⟩

theorem Ok.bind {x : Option α} {f : α → Option β} {P : α → Prop} {Q : β → Prop}
    (hx : Ok x P) (hf : ∀ a, P a → Ok (f a) Q) : Ok (x >>= f) Q := by
  obtain ⟨a, rfl, ha⟩ := hx
  exact hf a ha

theorem Ok.bind' {x : Option α} {f : α → Option β} {P : α → Prop} {Q : β → Prop}
    (hx : Ok x P) (hf : ∀ a, P a → Ok (f a) Q) : Ok (x.bind f) Q := by
  obtain ⟨a, rfl, ha⟩ := hx
  exact hf a ha

/-- Step over a computation whose value is known. -/
theorem Ok.step {x : Option α} {a : α} {f : α → Option β} {Q : β → Prop}
    (hx : x = Option.some a) (hf : Ok (f a) Q) : Ok (x >>= f) Q := by
  subst hx; exact hf

theorem Ok.mono {x : Option α} {P Q : α → Prop} (hx : Ok x P) (h : ∀ a, P a → Q a) : Ok x Q := by
  obtain ⟨a, rfl, ha⟩ := hx
  exact ⟨a, rfl, h a ha⟩

theorem Ok.eq {x : Option α} {a : α} (h : Ok x (fun b => b = a)) : x = Option.some a := by
  obtain ⟨b, rfl, rfl⟩ := h; rfl

theorem Ok.of_eq {x : Option α} {a : α} {Q : α → Prop} (h : x = Option.some a) (hq : Q a) :
    Ok x Q := ⟨a, h, hq⟩

theorem Ok.forN {n : Nat} {s : S} {f : Nat → S → Option S} (I : Nat → S → Prop)
    (h0 : I 0 s) (hs : ∀ i, i < n → ∀ s, I i s → Ok (f i s) (I (i + 1))) :
    Ok (forN n s f) (I n) := by
  induction n with
  | zero => exact ⟨s, rfl, h0⟩
  | succ k ih =>
    unfold Faest.forN
    refine Ok.bind' (ih fun i hi => hs i (by omega)) ?_
    intro a ha
    exact hs k (by omega) a ha

theorem Ok.forR {lo hi : Nat} {s : S} {f : Nat → S → Option S} (I : Nat → S → Prop)
    (hle : lo ≤ hi) (h0 : I lo s)
    (hs : ∀ i, lo ≤ i → i < hi → ∀ s, I i s → Ok (f i s) (I (i + 1))) :
    Ok (forR lo hi s f) (I hi) := by
  unfold Faest.forR
  have := Ok.forN (n := hi - lo) (s := s) (f := fun i => f (lo + i)) (fun i => I (lo + i)) h0
    (fun i hi' s hI => by
      have := hs (lo + i) (by omega) (by omega) s hI
      exact this)
  rwa [Nat.add_sub_cancel' hle] at this

theorem forN_zero (s : S) (f : Nat → S → Option S) : forN 0 s f = some s := rfl
theorem forN_succ (n : Nat) (s : S) (f : Nat → S → Option S) :
    forN (n + 1) s f = (forN n s f).bind (f n) := rfl

theorem forN_congr {n : Nat} {s : S} {f f' : Nat → S → Option S}
    (h : ∀ i, i < n → f i = f' i) : forN n s f = forN n s f' := by
  induction n with
  | zero => rfl
  | succ k ih => rw [forN_succ, forN_succ, ih fun i hi => h i (by omega), h k (by omega)]

/-- The strided loop, with the invariant at every visited index. -/
theorem Ok.forStep {hi step : Nat} {f : Nat → S → Option S} (I : Nat → S → Prop)
    (hstep : 0 < step)
    (hs : ∀ j, j < hi → ∀ s, I j s → Ok (f j s) (I (j + step))) :
    ∀ (fuel j : Nat) (s : S), hi - j < fuel → I j s →
      Ok (forStep hi step fuel j s f) (fun r => hi ≤ r.1 ∧ I r.1 r.2) := by
  intro fuel
  induction fuel with
  | zero => intro j s h; omega
  | succ k ih =>
    intro j s hf hI
    unfold Faest.forStep
    by_cases hj : j < hi
    · rw [if_pos hj]
      refine Ok.bind' (hs j hj s hI) ?_
      intro s' hI'
      exact ih _ _ (by omega) hI'
    · rw [if_neg hj]
      exact ⟨_, rfl, by omega, hI⟩

end ok

section mem
variable {α : Type}

theorem rd_lt {m : Mem α} {i : Nat} {a : α} (h : rd m i = some a) : i < m.length := by
  unfold rd at h
  by_contra hc
  rw [List.getElem?_eq_none (by omega)] at h
  simp at h

theorem rd_eq_none_of_ge {m : Mem α} {i : Nat} (h : m.length ≤ i) : rd m i = none := by
  unfold rd
  rw [List.getElem?_eq_none h]; rfl

theorem rd_set {m : Mem α} {i : Nat} {a : α} (hi : i < m.length) (j : Nat) :
    rd (m.set i (some a)) j = if j = i then some a else rd m j := by
  unfold rd
  rw [List.getElem?_set]
  by_cases h : i = j
  · subst h; simp [hi]
  · simp [h, Ne.symm h]

theorem Ok.wr {m : Mem α} {i : Nat} {a : α} {Q : Mem α → Prop} (hi : i < m.length)
    (hq : ∀ m', m'.length = m.length → (∀ j, rd m' j = if j = i then Option.some a else rd m j) → Q m') :
    Ok (wr m i a) Q := by
  refine ⟨m.set i (Option.some a), ?_, hq _ (by simp) (rd_set hi)⟩
  unfold Faest.wr
  rw [if_pos hi]

theorem rd_malloc (n i : Nat) : rd (malloc n : Mem α) i = none := by
  unfold rd malloc
  by_cases h : i < n
  · rw [List.getElem?_replicate]; simp [h]
  · rw [List.getElem?_replicate]; simp [h]

@[simp] theorem malloc_length (n : Nat) : (malloc n : Mem α).length = n := by simp [malloc]
@[simp] theorem calloc_length (n : Nat) (z : α) : (calloc n z : Mem α).length = n := by
  simp [calloc]
@[simp] theorem ofList_length (l : List α) : (ofList l).length = l.length := by simp [ofList]
@[simp] theorem tabP_length (n : Nat) (g : Nat → α) : (tabP n g).length = n := by simp [tabP]
@[simp] theorem full_length (n : Nat) (g : Nat → α) : (full n g).length = n := by simp [full]

theorem rd_calloc {n i : Nat} {z : α} (h : i < n) : rd (calloc n z) i = some z := by
  unfold rd calloc
  rw [List.getElem?_replicate]; simp [h]

theorem rd_ofList (l : List α) (i : Nat) : rd (ofList l) i = l[i]? := by
  unfold rd ofList
  rw [List.getElem?_map]
  cases l[i]? <;> rfl

theorem tabP_getElem? (n : Nat) (g : Nat → α) (i : Nat) :
    (tabP n g)[i]? = if i < n then some (g i) else none := by
  unfold tabP
  rw [List.getElem?_map]
  by_cases h : i < n
  · rw [List.getElem?_range h]; simp [h]
  · rw [List.getElem?_eq_none (by simp; omega)]; simp [h]

@[simp] theorem tabP_getElem (n : Nat) (g : Nat → α) (i : Nat) (h : i < (tabP n g).length) :
    (tabP n g)[i] = g i := by
  simp [tabP]

theorem rd_full {n i : Nat} {g : Nat → α} (h : i < n) : rd (full n g) i = some (g i) := by
  unfold full; rw [rd_ofList, tabP_getElem?, if_pos h]

theorem has_full (n : Nat) (g : Nat → α) : Has (full n g) 0 n g := by
  intro i hi; rw [Nat.zero_add]; exact rd_full hi

theorem list_eq_tabP (l : List α) (g : Nat → α) (n : Nat) (hn : l.length = n)
    (h : ∀ i, i < n → l[i]? = some (g i)) : l = tabP n g := by
  apply List.ext_getElem?
  intro i
  rw [tabP_getElem?]
  by_cases hi : i < n
  · rw [if_pos hi, h i hi]
  · rw [if_neg hi, List.getElem?_eq_none (by omega)]

theorem tabP_congr {n : Nat} {g h : Nat → α} (e : ∀ i, i < n → g i = h i) :
    tabP n g = tabP n h := by
  unfold tabP
  apply List.map_congr_left
  intro i hi
  exact e i (List.mem_range.1 hi)

theorem tabP_inj {n : Nat} {g h : Nat → α} (e : tabP n g = tabP n h) :
    ∀ i, i < n → g i = h i := by
  intro i hi
  have := congrArg (fun l : List α => l[i]?) e
  simp only [tabP_getElem?, if_pos hi] at this
  exact Option.some.inj this

theorem tabP_succ (n : Nat) (g : Nat → α) : tabP (n + 1) g = tabP n g ++ [g n] := by
  unfold tabP; rw [List.range_succ]; simp

theorem tabP_add (a b : Nat) (g : Nat → α) :
    tabP (a + b) g = tabP a g ++ tabP b (fun i => g (a + i)) := by
  induction b with
  | zero => simp [tabP]
  | succ b ih => rw [← Nat.add_assoc, tabP_succ, ih, tabP_succ, List.append_assoc]

theorem tabP_map {β : Type} (n : Nat) (g : Nat → α) (f : α → β) :
    (tabP n g).map f = tabP n (fun i => f (g i)) := by
  unfold tabP; rw [List.map_map]; rfl

theorem tabM_eq {n : Nat} {f : Nat → Option α} {g : Nat → α} (h : ∀ i, i < n → f i = some (g i)) :
    tabM n f = some (tabP n g) := by
  unfold tabM tabP
  induction n with
  | zero => rfl
  | succ k ih =>
    rw [List.range_succ, List.mapM_append, ih fun i hi => h i (by omega)]
    simp [h k (by omega)]

theorem fill_eq {n : Nat} {f : Nat → Option α} {g : Nat → α} (h : ∀ i, i < n → f i = some (g i)) :
    fill n f = some (full n g) := by
  unfold fill; rw [tabM_eq h]; rfl

/-- Converse: a defined table was defined at every index. -/
theorem tabM_some {n : Nat} {f : Nat → Option α} {l : List α} (h : tabM n f = some l) :
    l.length = n ∧ ∀ i, i < n → f i = l[i]? := by
  unfold tabM at h
  induction n generalizing l with
  | zero => simp at h; subst h; simp
  | succ k ih =>
    rw [List.range_succ, List.mapM_append] at h
    cases h1 : List.mapM f (List.range k) with
    | none => rw [h1] at h; simp at h
    | some l1 =>
      rw [h1] at h
      cases h2 : f k with
      | none => simp [h2] at h
      | some a =>
        simp [h2] at h
        subst h
        obtain ⟨hl, hi⟩ := ih h1
        refine ⟨by simp [hl], ?_⟩
        intro i hik
        by_cases he : i = k
        · subst he; rw [h2, List.getElem?_append_right (by omega), hl]; simp
        · rw [List.getElem?_append_left (by omega)]; exact hi i (by omega)

theorem Has.rd {m : Mem α} {off n : Nat} {g : Nat → α} (h : Has m off n g) {i : Nat} (hi : i < n) :
    rd m (off + i) = some (g i) := h i hi

/-- Read at a given position. -/
theorem Has.rd' {m : Mem α} {off n : Nat} {g : Nat → α} (h : Has m off n g) {k : Nat}
    (h1 : off ≤ k) (h2 : k < off + n) : Faest.rd m k = some (g (k - off)) := by
  have := h (k - off) (by omega)
  rwa [Nat.add_sub_cancel' h1] at this

theorem Has.rd0 {m : Mem α} {n : Nat} {g : Nat → α} (h : Has m 0 n g) {k : Nat}
    (h2 : k < n) : Faest.rd m k = some (g k) := by
  have := h k h2
  rwa [Nat.zero_add] at this

theorem Has.mono {m : Mem α} {off n k : Nat} {g : Nat → α} (h : Has m off n g) (hk : k ≤ n) :
    Has m off k g := fun i hi => h i (by omega)

theorem Has.congr {m : Mem α} {off n : Nat} {g g' : Nat → α} (h : Has m off n g)
    (e : ∀ i, i < n → g i = g' i) : Has m off n g' := fun i hi => by rw [h i hi, e i hi]

theorem Has.sub {m : Mem α} {off n : Nat} {g : Nat → α} (h : Has m off n g) (a k : Nat)
    (hk : a + k ≤ n) : Has m (off + a) k (fun i => g (a + i)) := fun i hi => by
  rw [Nat.add_assoc]; exact h (a + i) (by omega)

theorem Has.le {m : Mem α} {off n : Nat} {g : Nat → α} (h : Has m off n g) (hn : 0 < n) :
    off + n ≤ m.length := by
  have := rd_lt (h (n - 1) (by omega))
  omega

theorem rd_drop (m : Mem α) (k i : Nat) : rd (m.drop k) i = rd m (k + i) := by
  unfold rd; rw [List.getElem?_drop]

theorem has_drop {m : Mem α} {k off n : Nat} {g : Nat → α} :
    Has (m.drop k) off n g ↔ Has m (k + off) n g := by
  unfold Has
  simp only [rd_drop, Nat.add_assoc]

theorem ptr_eq {m : Mem α} {off : Nat} (h : off ≤ m.length) : ptr m off = some (m.drop off) := by
  unfold ptr; rw [if_pos h]

theorem rdN_eq {m : Mem α} {off n : Nat} {g : Nat → α} (h : Has m off n g)
    (hl : off + n ≤ m.length) : rdN m off n = some (tabP n g) := by
  unfold rdN
  rw [if_pos hl]
  have e : (m.drop off).take n = ofList (tabP n g) := by
    apply List.ext_getElem?
    intro i
    unfold ofList
    rw [List.getElem?_take, List.getElem?_drop, List.getElem?_map, tabP_getElem?]
    by_cases hi : i < n
    · rw [if_pos hi, if_pos hi]
      have := h i hi
      unfold Faest.rd at this
      cases hh : m[off + i]? with
      | none => rw [hh] at this; simp at this
      | some o =>
        rw [hh] at this
        simp at this
        simp [this]
    · rw [if_neg hi, if_neg hi]; rfl
  rw [e]
  generalize tabP n g = l
  unfold ofList
  induction l with
  | nil => rfl
  | cons a l ih => rw [List.map_cons, List.mapM_cons, ih]; rfl

theorem rdN_has {m : Mem α} {off n : Nat} {g : Nat → α} (h : Has m off n g) (hn : 0 < n) :
    rdN m off n = some (tabP n g) := rdN_eq h (h.le hn)

theorem rdN_ofList (l : List α) : rdN (ofList l) 0 l.length = some l := by
  unfold rdN
  rw [if_pos (by simp)]
  simp only [List.drop_zero]
  rw [List.take_of_length_le (by simp)]
  unfold ofList
  induction l with
  | nil => rfl
  | cons a l ih => rw [List.map_cons, List.mapM_cons, ih]; rfl

theorem Ok.wrN {m : Mem α} {off : Nat} {l : List α} {Q : Mem α → Prop}
    (hl : off + l.length ≤ m.length)
    (hq : ∀ m', m'.length = m.length →
      (∀ j, Faest.rd m' j = if off ≤ j ∧ j < off + l.length then l[j - off]? else Faest.rd m j) → Q m') :
    Ok (wrN m off l) Q := by
  refine ⟨m.take off ++ l.map Option.some ++ m.drop (off + l.length), ?_, hq _ ?_ ?_⟩
  · unfold Faest.wrN
    rw [if_pos hl]
  · simp; omega
  · intro j
    unfold Faest.rd
    by_cases h1 : j < off
    · rw [List.append_assoc, List.getElem?_append_left (by simp; omega), List.getElem?_take,
        if_pos h1, if_neg (by omega)]
    · by_cases h2 : j < off + l.length
      · rw [if_pos ⟨by omega, h2⟩, List.getElem?_append_left (by simp; omega),
          List.getElem?_append_right (by simp; omega)]
        simp only [List.length_take, List.getElem?_map]
        rw [Nat.min_eq_left (by omega)]
        cases l[j - off]? <;> rfl
      · rw [if_neg (by omega), List.getElem?_append_right (by simp; omega), List.getElem?_drop]
        congr 2
        simp
        omega

theorem mem_ext_of_rd {m : Mem α} {n : Nat} {g : Nat → α} (hl : m.length = n) (h : Has m 0 n g) :
    m = full n g := by
  apply List.ext_getElem?
  intro i
  by_cases hi : i < n
  · have h1 := h.rd0 hi
    have h2 : Faest.rd (full n g) i = some (g i) := rd_full hi
    unfold Faest.rd at h1 h2
    cases e1 : m[i]? with
    | none => rw [e1] at h1; simp at h1
    | some a =>
      cases e2 : (full n g)[i]? with
      | none => rw [e2] at h2; simp at h2
      | some b =>
        rw [e1] at h1; rw [e2] at h2
        simp at h1 h2
        rw [h1, h2]
  · rw [List.getElem?_eq_none (by omega), List.getElem?_eq_none (by simp; omega)]

theorem has_ofList (l : List α) (g : Nat → α) (h : ∀ i, i < l.length → l[i]? = some (g i)) :
    Has (ofList l) 0 l.length g := by
  intro i hi
  rw [Nat.zero_add, rd_ofList, h i hi]

end mem

end Faest
