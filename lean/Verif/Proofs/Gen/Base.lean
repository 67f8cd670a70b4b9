/-
Reasoning about the translated C code (Model/CSem.lean, Model/Gen).

The state of the memory is described by the multiset of its live blocks.  `T D p Q` says that `p` runs from any
memory with exactly the blocks `D` to its end, without undefined behaviour, and that its value and the blocks
afterwards satisfy `Q`.
-/
import Mathlib.Data.Multiset.MapFold
import Mathlib.Data.Multiset.UnionInter
import Mathlib.Algebra.Order.Group.Multiset
import Verif.Model.CSem
import Verif.Proofs.FlatBase

namespace Faest.C

/-- A set of blocks. -/
abbrev Blocks := Multiset (Nat × Cell)

/-- The live blocks of `H` are exactly those of `D`, and no block from `next` on is in use. -/
structure Sat (H : Heap) (D : Blocks) : Prop where
  mem : ∀ i x, H.cells i = some x ↔ (i, x) ∈ D
  nodup : (D.map Prod.fst).Nodup
  fresh : ∀ i, H.next ≤ i → H.cells i = none

/-- A block. -/
def bl {α : Type} [Ty α] (k : Kind) (i : Nat) (m : Mem α) : Blocks := {(i, ⟨k, Ty.toData m⟩)}

theorem Sat.get {H : Heap} {i : Nat} {c : Cell} {D : Blocks} (h : Sat H ({(i, c)} + D)) : H.cells i = some c :=
  (h.mem i c).2 (by simp)

theorem Sat.alloc {H : Heap} {D : Blocks} (h : Sat H D) (c : Cell) :
    Sat ⟨H.next + 1, upd H.cells H.next (some c)⟩ ({(H.next, c)} + D) := by
  have hn : ∀ x, (H.next, x) ∉ D := fun x hx => by
    have := (h.mem _ _).2 hx
    rw [h.fresh _ (Nat.le_refl _)] at this
    cases this
  refine ⟨fun i x => ?_, ?_, fun i hi => ?_⟩
  · unfold upd
    simp only [Multiset.singleton_add, Multiset.mem_cons, Prod.mk.injEq]
    by_cases hi : i = H.next
    · subst hi
      simp only [if_true, Option.some.injEq, true_and]
      constructor
      · rintro rfl; exact Or.inl rfl
      · rintro (rfl | hx)
        · rfl
        · exact absurd hx (hn x)
    · simp [hi, h.mem]
  · simp only [Multiset.singleton_add, Multiset.map_cons, Multiset.nodup_cons]
    refine ⟨fun hm => ?_, h.nodup⟩
    obtain ⟨⟨j, x⟩, hx, hj⟩ := Multiset.mem_map.1 hm
    simp only at hj
    subst hj
    exact hn x hx
  · replace hi : H.next + 1 ≤ i := hi
    show upd H.cells H.next (some c) i = none
    unfold upd
    rw [if_neg (by omega)]
    exact h.fresh i (by omega)

theorem Sat.free {H : Heap} {i : Nat} {c : Cell} {D : Blocks} (h : Sat H ({(i, c)} + D)) :
    Sat ⟨H.next, upd H.cells i none⟩ D := by
  have hnd := h.nodup
  simp only [Multiset.singleton_add, Multiset.map_cons, Multiset.nodup_cons] at hnd
  refine ⟨fun j x => ?_, hnd.2, fun j hj => ?_⟩
  · unfold upd
    have := h.mem j x
    simp only [Multiset.singleton_add, Multiset.mem_cons, Prod.mk.injEq] at this
    by_cases hj : j = i
    · subst hj
      simp only [if_true, reduceCtorEq, false_iff]
      exact fun hx => hnd.1 (Multiset.mem_map.2 ⟨_, hx, rfl⟩)
    · simpa [hj] using this
  · show upd H.cells i none j = none
    unfold upd
    split
    · rfl
    · exact h.fresh j hj

theorem Sat.put {H : Heap} {i : Nat} {c c' : Cell} {D : Blocks} (h : Sat H ({(i, c)} + D)) :
    Sat ⟨H.next, upd H.cells i (some c')⟩ ({(i, c')} + D) := by
  have hnd := h.nodup
  simp only [Multiset.singleton_add, Multiset.map_cons, Multiset.nodup_cons] at hnd
  refine ⟨fun j x => ?_, ?_, fun j hj => ?_⟩
  · unfold upd
    have := h.mem j x
    simp only [Multiset.singleton_add, Multiset.mem_cons, Prod.mk.injEq] at this ⊢
    by_cases hj : j = i
    · subst hj
      simp only [if_true, Option.some.injEq, true_and]
      constructor
      · rintro rfl; exact Or.inl rfl
      · rintro (rfl | hx)
        · rfl
        · exact absurd (Multiset.mem_map.2 ⟨_, hx, rfl⟩) hnd.1
    · simpa [hj] using this
  · simp only [Multiset.singleton_add, Multiset.map_cons, Multiset.nodup_cons]
    exact hnd
  · show upd H.cells i (some c') j = none
    unfold upd
    have := h.fresh j hj
    split
    · subst_vars
      rw [h.get] at this
      cases this
    · exact this

theorem Sat.ne {H : Heap} {i j : Nat} {c x : Cell} {D : Blocks} (h : Sat H ({(i, c)} + D)) (hj : (j, x) ∈ D) :
    j ≠ i := by
  have hnd := h.nodup
  simp only [Multiset.singleton_add, Multiset.map_cons, Multiset.nodup_cons] at hnd
  rintro rfl
  exact hnd.1 (Multiset.mem_map.2 ⟨_, hj, rfl⟩)

/-- Every heap with fresh blocks from `next` on has a description. -/
theorem sat_exists (H : Heap) (hf : ∀ i, H.next ≤ i → H.cells i = none) : ∃ D, Sat H D := by
  suffices hk : ∀ k, ∃ D : Blocks, (∀ i x, (i < k ∧ H.cells i = some x) ↔ (i, x) ∈ D) ∧ (D.map Prod.fst).Nodup by
    obtain ⟨D, h1, h2⟩ := hk H.next
    refine ⟨D, fun i x => ⟨fun hx => (h1 i x).1 ⟨?_, hx⟩, fun hx => ((h1 i x).2 hx).2⟩, h2, hf⟩
    by_contra hlt
    rw [hf i (by omega)] at hx
    cases hx
  intro k
  induction k with
  | zero => exact ⟨0, by simp, by simp⟩
  | succ k ih =>
    obtain ⟨D, h1, h2⟩ := ih
    rcases hc : H.cells k with _ | c
    · refine ⟨D, fun i x => ?_, h2⟩
      rw [← h1]
      constructor
      · rintro ⟨hi, hx⟩
        refine ⟨?_, hx⟩
        rcases Nat.lt_succ_iff_lt_or_eq.1 hi with hi | rfl
        · exact hi
        · rw [hc] at hx; cases hx
      · rintro ⟨hi, hx⟩
        exact ⟨by omega, hx⟩
    · refine ⟨{(k, c)} + D, fun i x => ?_, ?_⟩
      · simp only [Multiset.singleton_add, Multiset.mem_cons, Prod.mk.injEq, ← h1]
        constructor
        · rintro ⟨hi, hx⟩
          rcases Nat.lt_succ_iff_lt_or_eq.1 hi with hi | rfl
          · exact Or.inr ⟨hi, hx⟩
          · rw [hc] at hx
            exact Or.inl ⟨rfl, (Option.some.inj hx).symm⟩
        · rintro (⟨rfl, rfl⟩ | ⟨hi, hx⟩)
          · exact ⟨by omega, hc⟩
          · exact ⟨by omega, hx⟩
      · simp only [Multiset.singleton_add, Multiset.map_cons, Multiset.nodup_cons]
        refine ⟨fun hm => ?_, h2⟩
        obtain ⟨⟨j, x⟩, hx, hj⟩ := Multiset.mem_map.1 hm
        have := ((h1 j x).2 hx).1
        simp only at hj
        omega

/-- Two heaps with the same description have the same live blocks. -/
theorem Sat.cells_eq {H H' : Heap} {D : Blocks} (h : Sat H D) (h' : Sat H' D) : H'.cells = H.cells := by
  funext i
  apply Option.ext
  intro x
  rw [h'.mem, h.mem]

/-- `p` runs from a memory with the blocks `D` to its end, with value and blocks as stated. -/
def T {β : Type} (D : Blocks) (p : CM β) (Q : β → Blocks → Prop) : Prop :=
  ∀ H, Sat H D → ∃ b H' D', p H = some (b, H') ∧ Sat H' D' ∧ Q b D'

/-- `T` with known value and blocks at the end. -/
def Runs {β : Type} (D : Blocks) (p : CM β) (b : β) (E : Blocks) : Prop := T D p fun b' D' => b' = b ∧ D' = E

/-- The cells at and after `p` hold at least what is in `μ`. -/
def View {α : Type} [Ty α] (D : Blocks) (p : CPtr) (μ : Mem α) : Prop :=
  ∃ b o k m, p = some ⟨b, o⟩ ∧ (b, ⟨k, Ty.toData m⟩) ∈ D ∧ Le μ (m.drop o)

/-! ### Finding a block -/

theorem fnd_there {A E X D : Blocks} (h : D = A + E) : X + D = A + (X + E) := by rw [h, add_left_comm]
theorem fnd_last {A : Blocks} : A = A + 0 := (add_zero A).symm
theorem fnd_and {A D D1 E : Blocks} (h : D = A + D1) (h' : D1 = E) : D = A + E := by rw [h, h']

/-- Find one block in a sum. -/
syntax "hfind1" : tactic
macro_rules | `(tactic| hfind1) => `(tactic| first | with_reducible exact rfl | with_reducible exact fnd_last |
  (with_reducible apply fnd_there; hfind1))

/-- Find several blocks in a sum. -/
syntax "hfind" : tactic
macro_rules | `(tactic| hfind) => `(tactic| first | with_reducible exact rfl |
  (with_reducible apply fnd_and; hfind1; hfind))

/-! ### Views -/

section view
variable {α : Type} [Ty α] {D E F : Blocks} {p : CPtr} {μ μ' : Mem α}

omit [Ty α] in
theorem rd_drop (m : Mem α) (o i : Nat) : rd (m.drop o) i = rd m (o + i) := by
  unfold rd; rw [List.getElem?_drop]

theorem View.le (h : View D p μ) (hl : Le μ' μ) : View D p μ' := by
  obtain ⟨b, o, k, m, hp, hm, hle⟩ := h
  exact ⟨b, o, k, m, hp, hm, ⟨hl.len.trans hle.len, fun i x hx => hle.dat i x (hl.dat i x hx)⟩⟩

theorem View.here {k : Kind} {i o : Nat} {m : Mem α} : View (bl k i m + E) (some ⟨i, o⟩) (m.drop o) :=
  ⟨i, o, k, m, rfl, by simp [bl], Le.rfl⟩

theorem View.here0 {k : Kind} {i : Nat} {m : Mem α} : View (bl k i m + E) (some ⟨i, 0⟩) m :=
  ⟨i, 0, k, m, rfl, by simp [bl], Le.rfl⟩

theorem View.last {k : Kind} {i o : Nat} {m : Mem α} : View (bl k i m) (some ⟨i, o⟩) (m.drop o) :=
  ⟨i, o, k, m, rfl, by simp [bl], Le.rfl⟩

theorem View.last0 {k : Kind} {i : Nat} {m : Mem α} : View (bl k i m) (some ⟨i, 0⟩) m :=
  ⟨i, 0, k, m, rfl, by simp [bl], Le.rfl⟩

theorem View.there (h : View D p μ) : View (E + D) p μ := by
  obtain ⟨b, o, k, m, hp, hm, hle⟩ := h
  exact ⟨b, o, k, m, hp, Multiset.mem_add.2 (Or.inr hm), hle⟩

theorem View.left (h : View D p μ) : View (D + E) p μ := by
  obtain ⟨b, o, k, m, hp, hm, hle⟩ := h
  exact ⟨b, o, k, m, hp, Multiset.mem_add.2 (Or.inl hm), hle⟩

theorem View.padd (h : View D p μ) {k : Nat} : View D (padd p k) (μ.drop k) := by
  obtain ⟨b, o, kd, m, rfl, hm, hle⟩ := h
  refine ⟨b, o + k, kd, m, rfl, hm, ?_⟩
  have := hle.drop (k := k)
  rwa [List.drop_drop] at this

theorem View.padd0 (h : View D p μ) : View D (C.padd p 0) μ := by
  obtain ⟨b, o, kd, m, rfl, hm, hle⟩ := h
  exact ⟨b, o, kd, m, rfl, hm, hle⟩

theorem View.ptr (h : View D p μ) {k : Nat} (hk : Faest.ptr μ k = some μ') : View D (C.padd p k) μ' := by
  obtain ⟨-, rfl⟩ := ptr_inv hk
  exact h.padd

end view

theorem padd_padd (p : CPtr) (a b : Nat) : padd (padd p a) b = padd p (a + b) := by
  cases p with
  | none => rfl
  | some q => simp [padd, Nat.add_assoc]

theorem padd_zero (p : CPtr) : padd p 0 = p := by cases p <;> rfl

/-- Find the block of a pointer. -/
syntax "hview" : tactic
macro_rules | `(tactic| hview) => `(tactic|
  first
  | (with_reducible assumption)
  | (with_reducible exact View.here0)
  | (with_reducible exact View.here)
  | (with_reducible exact View.last0)
  | (with_reducible exact View.last)
  | (with_reducible apply View.there; hview)
  | (with_reducible apply View.left; hview)
  | (with_reducible apply View.padd; hview))

/-! ### Rules -/

section rules
variable {α β γ δ S : Type} {D E F : Blocks} {Q : δ → Blocks → Prop}

theorem bind_run {p : CM β} {g : β → CM δ} {H H' : Heap} {b : β} (h : p H = some (b, H')) : (p >>= g) H = g b H' := by
  show (p H).bind _ = _
  rw [h]; rfl

theorem t_pure {a : δ} (h : Q a D) : T D (pure a) Q := fun H hH => ⟨a, H, D, rfl, hH, h⟩

theorem t_mono {Q' : δ → Blocks → Prop} {p : CM δ} (h : T D p Q') (k : ∀ b D', Q' b D' → Q b D') : T D p Q := by
  intro H hH
  obtain ⟨b, H', D', hb, hs, hr⟩ := h H hH
  exact ⟨b, H', D', hb, hs, k b D' hr⟩

theorem t_perm {p : CM δ} {D' : Blocks} (hD : D = D') (h : T D' p Q) : T D p Q := hD ▸ h

theorem t_assoc {p : CM α} {q : α → CM β} {g : β → CM δ} (k : T D (p >>= fun a => q a >>= g) Q) :
    T D ((p >>= q) >>= g) Q := by rwa [bind_assoc]

theorem t_pbind {a : α} {g : α → CM δ} (k : T D (g a) Q) : T D ((pure a : CM α) >>= g) Q := by rwa [pure_bind]

/-- A call. -/
theorem t_call {R : β → Blocks → Prop} {p : CM β} {g : β → CM δ} {D' : Blocks} (hD : D = D') (h : T D' p R)
    (k : ∀ b E, R b E → T E (g b) Q) : T D (p >>= g) Q := by
  subst hD
  intro H hH
  obtain ⟨b, H', D', hb, hs, hr⟩ := h H hH
  obtain ⟨d, H'', D'', hd, hs', hq⟩ := k b D' hr H' hs
  exact ⟨d, H'', D'', by rw [bind_run hb, hd], hs', hq⟩

/-- A call with known result. -/
theorem t_run {p : CM β} {b : β} {g : β → CM δ} {D' : Blocks} (hD : D = D') (h : Runs D' p b E)
    (k : T E (g b) Q) : T D (p >>= g) Q :=
  t_call hD h fun _ _ hb => by rw [hb.1, hb.2]; exact k

theorem t_lft {x : Option β} {b : β} {g : β → CM δ} (h : x = some b) (k : T D (g b) Q) : T D (lft x >>= g) Q :=
  t_run (b := b) rfl (fun H hH => ⟨b, H, D, by rw [h]; rfl, hH, rfl, rfl⟩) k

theorem t_uget {x : Option β} {b : β} {g : β → CM δ} (h : x = some b) (k : T D (g b) Q) : T D (uget x >>= g) Q :=
  t_lft h k

theorem t_tget {t : List Byte} {i : Nat} {b : Byte} {g : Byte → CM δ} (h : t[i]? = some b) (k : T D (g b) Q) :
    T D (tget t i >>= g) Q := t_lft h k

theorem t_assert {c : Bool} {g : Unit → CM δ} (h : c = true) (k : T D (g ()) Q) : T D (cassert c >>= g) Q :=
  t_lft (if_pos h) k

theorem t_ishl {a b : Nat} {g : Nat → CM δ} (h : b < 32 ∧ a <<< b < 2147483648) (k : T D (g (a <<< b)) Q) :
    T D (ishl a b >>= g) Q := t_lft (if_pos h) k
theorem t_iadd {a b : Nat} {g : Nat → CM δ} (h : a + b < 2147483648) (k : T D (g (a + b)) Q) :
    T D (iadd a b >>= g) Q := t_lft (if_pos h) k
theorem t_imul {a b : Nat} {g : Nat → CM δ} (h : a * b < 2147483648) (k : T D (g (a * b)) Q) :
    T D (imul a b >>= g) Q := t_lft (if_pos h) k
theorem t_isub {a b : Nat} {g : Nat → CM δ} (h : b ≤ a) (k : T D (g (a - b)) Q) :
    T D (isub a b >>= g) Q := t_lft (if_pos h) k
theorem t_cshl {w a b : Nat} {g : Nat → CM δ} (h : b < w) (k : T D (g ((a <<< b) % 2 ^ w)) Q) :
    T D (cshl w a b >>= g) Q := t_lft (if_pos h) k
theorem t_cshr {w a b : Nat} {g : Nat → CM δ} (h : b < w) (k : T D (g (a >>> b)) Q) :
    T D (cshr w a b >>= g) Q := t_lft (if_pos h) k
theorem t_cdiv {a b : Nat} {g : Nat → CM δ} (h : 0 < b) (k : T D (g (a / b)) Q) :
    T D (cdiv a b >>= g) Q := t_lft (if_neg (by omega)) k
theorem t_cmod {a b : Nat} {g : Nat → CM δ} (h : 0 < b) (k : T D (g (a % b)) Q) :
    T D (cmod a b >>= g) Q := t_lft (if_neg (by omega)) k

theorem t_alloc [Ty α] {kd : Kind} {m : Mem α} {g : CPtr → CM δ} (k : ∀ i, T (bl kd i m + D) (g (some ⟨i, 0⟩)) Q) :
    T D (alloc kd m >>= g) Q := by
  intro H hH
  have : C.alloc kd m H = some (some ⟨H.next, 0⟩, ⟨H.next + 1, upd H.cells H.next (some ⟨kd, Ty.toData m⟩)⟩) := rfl
  rw [bind_run this]
  exact k _ _ (hH.alloc _)

theorem t_free [Ty α] {kd : Kind} {m : Mem α} {i : Nat} {g : Unit → CM δ} (hD : D = bl kd i m + F)
    (k : T F (g ()) Q) : T D (cfree kd (some ⟨i, 0⟩) >>= g) Q := by
  subst hD
  intro H hH
  have : cfree kd (some ⟨i, 0⟩) H = some ((), ⟨H.next, upd H.cells i none⟩) := by
    unfold cfree
    simp only
    rw [hH.get]
    simp
  rw [bind_run this]
  exact k _ hH.free

theorem t_free0 {kd : Kind} {g : Unit → CM δ} (hk : kd ≠ .stack) (k : T D (g ()) Q) : T D (cfree kd none >>= g) Q := by
  intro H hH
  have : cfree kd none H = some ((), H) := by
    unfold cfree
    simp only
    rw [if_neg hk]
  rw [bind_run this]
  exact k _ hH

theorem runs_blk [Ty α] {b o : Nat} {kd : Kind} {m : Mem α} (h : (b, ⟨kd, Ty.toData m⟩) ∈ D) :
    Runs D (blk ⟨b, o⟩) m D := by
  intro H hH
  refine ⟨m, H, D, ?_, hH, rfl, rfl⟩
  unfold blk
  simp only
  rw [(hH.mem _ _).2 h]
  simp only [Ty.get_toData, Option.map_some]

theorem runs_put [Ty α] {b o : Nat} {kd : Kind} {m m' : Mem α} :
    Runs (bl kd b m + F) (put ⟨b, o⟩ m') () (bl kd b m' + F) := by
  intro H hH
  refine ⟨(), _, _, ?_, Sat.put hH, rfl, rfl⟩
  unfold put
  simp only
  rw [hH.get]

theorem t_ld [Ty α] {p : CPtr} {i : Nat} {μ : Mem α} {x : α} {g : α → CM δ} (hv : View D p μ)
    (hr : rd μ i = some x) (k : T D (g x) Q) : T D (ld p i >>= g) Q := by
  obtain ⟨b, o, kd, m, rfl, hm, hle⟩ := hv
  have h := hle.dat i x hr
  rw [rd_drop] at h
  unfold ld
  refine t_assoc (t_lft rfl (t_assoc (t_run rfl (runs_blk hm) ?_)))
  exact t_lft h k

theorem rdN_drop {m : Mem α} {o n : Nat} {l : List α} (hn : 0 < n) (h : rdN (m.drop o) 0 n = some l) :
    rdN m o n = some l := by
  unfold rdN at h ⊢
  rw [List.length_drop] at h
  split at h
  · rw [if_pos (by omega), ← h, List.drop_zero]
  · cases h

theorem t_ldN [Ty α] {p : CPtr} {n : Nat} {μ : Mem α} {l : List α} {g : List α → CM δ} (hv : View D p μ)
    (hn : 0 < n) (hr : rdN μ 0 n = some l) (k : T D (g l) Q) : T D (ldN p n >>= g) Q := by
  obtain ⟨b, o, kd, m, rfl, hm, hle⟩ := hv
  have h := rdN_drop hn (hle.rdN hr)
  unfold ldN
  refine t_assoc (t_lft rfl (t_assoc (t_run rfl (runs_blk hm) ?_)))
  exact t_lft h k

theorem mem_bl [Ty α] {kd : Kind} {b : Nat} {m : Mem α} : (b, (⟨kd, Ty.toData m⟩ : Cell)) ∈ bl kd b m + F := by
  simp [bl]

theorem t_st [Ty α] {kd : Kind} {b o i : Nat} {m m' : Mem α} {x : α} {g : Unit → CM δ} (hD : D = bl kd b m + F)
    (hw : wr m (o + i) x = some m') (k : T (bl kd b m' + F) (g ()) Q) : T D (st (some ⟨b, o⟩) i x >>= g) Q := by
  subst hD
  unfold st
  refine t_assoc (t_lft rfl (t_assoc (t_run rfl (runs_blk mem_bl) (t_assoc (t_lft hw ?_)))))
  exact t_run rfl runs_put k

theorem t_stN [Ty α] {kd : Kind} {b o : Nat} {m m' : Mem α} {l : List α} {g : Unit → CM δ} (hD : D = bl kd b m + F)
    (hw : wrN m o l = some m') (k : T (bl kd b m' + F) (g ()) Q) : T D (stN (some ⟨b, o⟩) l >>= g) Q := by
  subst hD
  unfold stN
  refine t_assoc (t_lft rfl (t_assoc (t_run rfl (runs_blk mem_bl) (t_assoc (t_lft hw ?_)))))
  exact t_run rfl runs_put k

theorem runs_stN [Ty α] {kd : Kind} {b o : Nat} {m m' : Mem α} {l : List α} (hw : wrN m o l = some m') :
    Runs (bl kd b m + F) (stN (some ⟨b, o⟩) l) () (bl kd b m' + F) := by
  have := t_stN (g := fun _ => pure ()) (Q := fun b' D' => b' = () ∧ D' = bl kd b m' + F) (D := bl kd b m + F) rfl hw
    (t_pure ⟨rfl, rfl⟩)
  rwa [bind_pure] at this

/-- `memcpy` between different blocks. -/
theorem t_memcpy [Ty α] {kd : Kind} {b o n : Nat} {src : CPtr} {μ m m' : Mem α} {l : List α} {g : Unit → CM δ}
    (hD : D = bl kd b m + F) (hv : View F src μ) (hn : 0 < n) (hr : rdN μ 0 n = some l) (hw : wrN m o l = some m')
    (k : T (bl kd b m' + F) (g ()) Q) : T D (memcpy (α := α) (some ⟨b, o⟩) src n >>= g) Q := by
  subst hD
  unfold memcpy
  refine t_assoc (t_ldN hv.there hn hr ?_)
  intro H hH
  have ho : overlap (some ⟨b, o⟩) src n = false := by
    obtain ⟨b', o', kd', m0, rfl, hm, -⟩ := hv
    have := Sat.ne hH hm
    unfold overlap
    simp only [decide_eq_false_iff_not, not_and]
    intro h
    exact absurd h.symm this
  rw [ho, if_neg (by simp)]
  exact t_stN rfl hw k H hH

/-- `memcpy` inside a block. -/
theorem t_memcpy_same [Ty α] {kd : Kind} {b o o' n : Nat} {m m' : Mem α} {l : List α} {g : Unit → CM δ}
    (hD : D = bl kd b m + F) (hr : rdN m o' n = some l) (hw : wrN m o l = some m')
    (hd : o + n ≤ o' ∨ o' + n ≤ o)
    (k : T (bl kd b m' + F) (g ()) Q) : T D (memcpy (α := α) (some ⟨b, o⟩) (some ⟨b, o'⟩) n >>= g) Q := by
  subst hD
  unfold memcpy ldN
  refine t_assoc (t_assoc (t_lft rfl (t_assoc (t_run rfl (runs_blk mem_bl) (t_lft hr ?_)))))
  have ho : overlap (some ⟨b, o⟩) (some ⟨b, o'⟩) n = false := by
    unfold overlap
    simp only [decide_eq_false_iff_not, not_and]
    intro _
    omega
  rw [ho, if_neg (by simp)]
  exact t_stN rfl hw k

theorem t_memset0 {kd : Kind} {b o n : Nat} {m m' : Mem Byte} {g : Unit → CM δ} (hD : D = bl kd b m + F)
    (hw : wrN m o (List.replicate n 0) = some m') (k : T (bl kd b m' + F) (g ()) Q) :
    T D (memset0 (some ⟨b, o⟩) n >>= g) Q := t_stN hD hw k

theorem t_memcmp {p q : CPtr} {n : Nat} {μ ν : Mem Byte} {x y : List Byte} {g : Nat → CM δ} (hp : View D p μ)
    (hq : View D q ν) (hn : 0 < n) (hx : rdN μ 0 n = some x) (hy : rdN ν 0 n = some y)
    (k : T D (g (if x = y then 0 else 1)) Q) : T D (memcmp p q n >>= g) Q := by
  unfold memcmp
  refine t_assoc (t_ldN hp hn hx (t_assoc (t_ldN hq hn hy ?_)))
  exact t_pbind k

theorem t_ite_pos {c : Prop} [Decidable c] {x y : CM β} {g : β → CM δ} (hc : c) (k : T D (x >>= g) Q) :
    T D ((if c then x else y) >>= g) Q := by rwa [if_pos hc]
theorem t_ite_neg {c : Prop} [Decidable c] {x y : CM β} {g : β → CM δ} (hc : ¬ c) (k : T D (y >>= g) Q) :
    T D ((if c then x else y) >>= g) Q := by rwa [if_neg hc]

/-! ### Loops -/

theorem runs_whileF {c : S → Bool} {b : S → CM S} (N : Nat) (st : Nat → S) (Ds : Nat → Blocks)
    (hc : ∀ i, i < N → c (st i) = true) (hcN : c (st N) = false)
    (hb : ∀ i, i < N → Runs (Ds i) (b (st i)) (st (i + 1)) (Ds (i + 1))) :
    ∀ i fuel, i ≤ N → N - i < fuel → Runs (Ds i) (cwhileF fuel c b (st i)) (st N) (Ds N) := by
  intro i fuel
  induction fuel generalizing i with
  | zero => intro _ h; omega
  | succ fuel ih =>
    intro hi hf
    unfold cwhileF
    by_cases h : i = N
    · subst h
      rw [hcN, if_neg (by simp)]
      exact t_pure ⟨rfl, rfl⟩
    · rw [hc i (by omega), if_pos rfl]
      exact t_run rfl (hb i (by omega)) (ih (i + 1) (by omega) (by omega))

/-- A loop with `N` iterations; `st i` and `Ds i` are the variables and blocks before iteration `i`. -/
theorem runs_while {c : S → Bool} {b : S → CM S} (N : Nat) (st : Nat → S) (Ds : Nat → Blocks)
    (hN : N < 18446744073709551616)
    (hc : ∀ i, i < N → c (st i) = true) (hcN : c (st N) = false)
    (hb : ∀ i, i < N → Runs (Ds i) (b (st i)) (st (i + 1)) (Ds (i + 1))) :
    Runs (Ds 0) (cwhile c b (st 0)) (st N) (Ds N) :=
  runs_whileF N st Ds hc hcN hb 0 _ (Nat.zero_le _) (by omega)

/-- A loop inside a function. -/
theorem t_while {c : S → Bool} {b : S → CM S} {s : S} {g : S → CM δ} (N : Nat) (st : Nat → S) (Ds : Nat → Blocks)
    (hN : N < 18446744073709551616) (hs : s = st 0) (hD : D = Ds 0)
    (hc : ∀ i, i < N → c (st i) = true) (hcN : c (st N) = false)
    (hb : ∀ i, i < N → Runs (Ds i) (b (st i)) (st (i + 1)) (Ds (i + 1)))
    (k : T (Ds N) (g (st N)) Q) : T D (cwhile c b s >>= g) Q := by
  subst hs
  exact t_run hD (runs_while N st Ds hN hc hcN hb) k

theorem whileF_inv {c : S → Bool} {b : S → CM S} (I : S → Blocks → Prop) (μ : S → Nat)
    (hb : ∀ s D, I s D → c s = true → T D (b s) fun s' D' => I s' D' ∧ μ s' < μ s) :
    ∀ fuel s D, I s D → μ s < fuel → T D (cwhileF fuel c b s) fun s' D' => I s' D' ∧ c s' = false := by
  intro fuel
  induction fuel with
  | zero => intro s D _ h; omega
  | succ fuel ih =>
    intro s D hI hf
    unfold cwhileF
    by_cases h : c s = true
    · rw [if_pos h]
      exact t_call rfl (hb s D hI h) fun s' D' hs => ih s' D' hs.1 (by omega)
    · rw [if_neg h]
      exact t_pure ⟨hI, by simpa using h⟩

/-- A loop with an invariant and a decreasing quantity. -/
theorem t_whileI {c : S → Bool} {b : S → CM S} {s : S} {g : S → CM δ} (I : S → Blocks → Prop) (μ : S → Nat)
    (h0 : I s D) (hμ : μ s < 18446744073709551616)
    (hb : ∀ s D, I s D → c s = true → T D (b s) fun s' D' => I s' D' ∧ μ s' < μ s)
    (k : ∀ s D, I s D → c s = false → T D (g s) Q) : T D (cwhile c b s >>= g) Q :=
  t_call rfl (whileF_inv I μ hb _ s D h0 hμ) fun s' D' h => k s' D' h.1 h.2

/-- One step of a loop. -/
theorem cwhileF_step {c : S → Bool} {b : S → CM S} {s : S} {k : Nat} (h : c s = true) :
    cwhileF (k + 1) c b s = b s >>= cwhileF k c b := by
  rw [cwhileF, if_pos h]

theorem cwhileF_end {c : S → Bool} {b : S → CM S} {s : S} {k : Nat} (h : c s = false) :
    cwhileF (k + 1) c b s = pure s := by
  rw [cwhileF, if_neg (by simp [h])]

/-- The states of a loop of the model. -/
theorem forN_seq {n : Nat} {s s' : S} {f : Nat → S → Option S} (h : forN n s f = some s') :
    ∃ g : Nat → S, g 0 = s ∧ g n = s' ∧ ∀ i, i < n → f i (g i) = some (g (i + 1)) := by
  induction n generalizing s' with
  | zero => exact ⟨fun _ => s, rfl, Option.some.inj h, fun i hi => absurd hi (by omega)⟩
  | succ n ih =>
    obtain ⟨t, ht, h'⟩ := Option.bind_eq_some_iff.1 h
    obtain ⟨g, h0, hn, hg⟩ := ih ht
    refine ⟨fun i => if i = n + 1 then s' else g i, ?_, ?_, fun i hi => ?_⟩
    · simp [h0]
    · simp
    · simp only [if_neg (show ¬ i = n + 1 by omega)]
      by_cases hi' : i = n
      · subst hi'
        simp only [if_true]
        rw [hn]; exact h'
      · rw [if_neg (by omega)]
        exact hg i (by omega)

theorem forR_seq {lo hi : Nat} {s s' : S} {f : Nat → S → Option S} (h : forR lo hi s f = some s') :
    ∃ g : Nat → S, g 0 = s ∧ g (hi - lo) = s' ∧ ∀ i, i < hi - lo → f (lo + i) (g i) = some (g (i + 1)) :=
  forN_seq h

/-- The states of a strided loop of the model. -/
theorem forStep_seq {hi step : Nat} {f : Nat → S → Option S} :
    ∀ {fuel j j' : Nat} {s s' : S}, forStep hi step fuel j s f = some (j', s') →
    ∃ (N : Nat) (g : Nat → S), g 0 = s ∧ g N = s' ∧ j' = j + N * step ∧ ¬ j + N * step < hi ∧
      ∀ i, i < N → j + i * step < hi ∧ f (j + i * step) (g i) = some (g (i + 1)) := by
  intro fuel
  induction fuel with
  | zero => intro j j' s s' h; cases h
  | succ fuel ih =>
    intro j j' s s' h
    unfold forStep at h
    by_cases hj : j < hi
    · rw [if_pos hj] at h
      obtain ⟨t, ht, h⟩ := Option.bind_eq_some_iff.1 h
      obtain ⟨N, g, g0, gN, rfl, hN, hg⟩ := ih h
      refine ⟨N + 1, fun i => if i = 0 then s else g (i - 1), rfl, by simpa using gN, by rw [Nat.succ_mul]; omega,
        by rw [Nat.succ_mul]; omega, fun i hi' => ?_⟩
      rcases i with _ | i
      · refine ⟨by simpa using hj, ?_⟩
        simp only [Nat.zero_mul, Nat.add_zero, if_true]
        rw [ht]; simp [g0]
      · have := hg i (by omega)
        have e : j + (i + 1) * step = j + step + i * step := by rw [Nat.succ_mul]; omega
        rw [e]
        simpa using this
    · rw [if_neg hj] at h
      simp only [Option.some.injEq, Prod.mk.injEq] at h
      obtain ⟨rfl, rfl⟩ := h
      exact ⟨0, fun _ => s, rfl, rfl, by omega, by omega, fun i hi' => absurd hi' (by omega)⟩

/-! ### Writing a range cell by cell -/

/-- `m` with `l` written at `o`. -/
def W (m : Mem α) (o : Nat) (l : List α) : Mem α := m.take o ++ l.map some ++ m.drop (o + l.length)

theorem W_nil (m : Mem α) (o : Nat) : W m o [] = m := by simp [W]

theorem wrN_W {m : Mem α} {o : Nat} {l : List α} (h : o + l.length ≤ m.length) : wrN m o l = some (W m o l) :=
  if_pos h

theorem wrN_eq_W {m m' : Mem α} {o : Nat} {l : List α} (h : wrN m o l = some m') :
    o + l.length ≤ m.length ∧ m' = W m o l := by
  unfold wrN at h
  split at h
  · exact ⟨by assumption, (Option.some.inj h).symm⟩
  · cases h

theorem length_W {m : Mem α} {o : Nat} {l : List α} (h : o + l.length ≤ m.length) : (W m o l).length = m.length := by
  simp [W]; omega

theorem rd_W {m : Mem α} {o : Nat} {l : List α} (h : o + l.length ≤ m.length) (i : Nat) :
    rd (W m o l) i = if o ≤ i ∧ i < o + l.length then l[i - o]? else rd m i := by
  unfold rd W
  have ht : (List.take o m).length = o := by simp; omega
  split
  · next h' =>
    rw [List.getElem?_append_left (by simp; omega), List.getElem?_append_right (by omega), ht, List.getElem?_map]
    rw [List.getElem?_eq_getElem (by omega)]
    rfl
  · next h' =>
    by_cases hi : i < o
    · rw [List.getElem?_append_left (by simp; omega), List.getElem?_append_left (by omega), List.getElem?_take_of_lt hi]
    · rw [List.getElem?_append_right (by simp; omega), List.getElem?_drop]
      congr 2
      simp; omega

theorem mem_ext {m m' : Mem α} (hl : m.length = m'.length) (h : ∀ i, i < m.length → m[i]? = m'[i]?) : m = m' := by
  apply List.ext_getElem?
  intro i
  by_cases hi : i < m.length
  · exact h i hi
  · rw [List.getElem?_eq_none (by omega), List.getElem?_eq_none (by omega)]

theorem getElem?_W {m : Mem α} {o : Nat} {l : List α} (h : o + l.length ≤ m.length) (i : Nat) :
    (W m o l)[i]? = if o ≤ i ∧ i < o + l.length then l[i - o]?.map some else m[i]? := by
  unfold W
  have ht : (List.take o m).length = o := by simp; omega
  split
  · next h' =>
    rw [List.getElem?_append_left (by simp; omega), List.getElem?_append_right (by omega), ht, List.getElem?_map]
  · next h' =>
    by_cases hi : i < o
    · rw [List.getElem?_append_left (by simp; omega), List.getElem?_append_left (by omega), List.getElem?_take_of_lt hi]
    · rw [List.getElem?_append_right (by simp; omega), List.getElem?_drop]
      congr 1
      simp; omega

theorem wr_W {m : Mem α} {o i : Nat} {l : List α} {x : α} (h : o + l.length ≤ m.length) (hx : l[i]? = some x) :
    wr (W m o (l.take i)) (o + i) x = some (W m o (l.take (i + 1))) := by
  have hi : i < l.length := by
    by_contra hc
    rw [List.getElem?_eq_none (by omega)] at hx
    cases hx
  have h1 : o + (l.take i).length ≤ m.length := by simp; omega
  have h2 : o + (l.take (i + 1)).length ≤ m.length := by simp; omega
  unfold wr
  rw [if_pos (by rw [length_W h1]; omega)]
  refine congrArg some (mem_ext (by rw [List.length_set, length_W h1, length_W h2]) fun j hj => ?_)
  rw [List.getElem?_set, getElem?_W h1, getElem?_W h2, length_W h1]
  simp only [List.length_take]
  by_cases hji : o + i = j
  · subst hji
    rw [if_pos rfl, if_pos (by omega), if_pos (by omega), Nat.add_sub_cancel_left, List.getElem?_take_of_lt (by omega), hx]
    rfl
  · rw [if_neg hji]
    by_cases hc : o ≤ j ∧ j < o + min i l.length
    · rw [if_pos hc, if_pos (by omega), List.getElem?_take_of_lt (by omega), List.getElem?_take_of_lt (by omega)]
    · rw [if_neg hc, if_neg (by omega)]

theorem W_take_full (m : Mem α) (o : Nat) (l : List α) {n : Nat} (h : l.length ≤ n) : W m o (l.take n) = W m o l := by
  rw [List.take_of_length_le h]

theorem W_take_zero (m : Mem α) (o : Nat) (l : List α) : W m o (l.take 0) = m := by simp [W]

end rules

/-! ### Bytes and integers -/

theorem ofNat_xor (a b : Nat) : BitVec.ofNat 8 (a ^^^ b) = BitVec.ofNat 8 a ^^^ BitVec.ofNat 8 b := by
  apply BitVec.eq_of_getLsbD_eq
  intro i hi
  simp [hi]
theorem ofNat_and (a b : Nat) : BitVec.ofNat 8 (a &&& b) = BitVec.ofNat 8 a &&& BitVec.ofNat 8 b := by
  apply BitVec.eq_of_getLsbD_eq
  intro i hi
  simp [hi]
theorem ofNat_or (a b : Nat) : BitVec.ofNat 8 (a ||| b) = BitVec.ofNat 8 a ||| BitVec.ofNat 8 b := by
  apply BitVec.eq_of_getLsbD_eq
  intro i hi
  simp [hi]
theorem ofNat_shl (a k : Nat) : BitVec.ofNat 8 (a <<< k) = BitVec.ofNat 8 a <<< k := by
  apply BitVec.eq_of_getLsbD_eq
  intro i hi
  simp only [BitVec.getLsbD_shiftLeft, BitVec.getLsbD_ofNat, hi, decide_true, Bool.true_and, Nat.testBit_shiftLeft]
  by_cases h : i < k
  · simp [h]
  · have : i - k < 8 := by omega
    simp [h, this]; omega
theorem ofNat_shr (a : Byte) (k : Nat) : BitVec.ofNat 8 (a.toNat >>> k) = a >>> k := by
  apply BitVec.eq_of_toNat_eq
  rw [← BitVec.toNat_ushiftRight, BitVec.toNat_ofNat, Nat.mod_eq_of_lt (BitVec.isLt _)]
theorem ofNat_toNat (a : Byte) : BitVec.ofNat 8 a.toNat = a := by simp
theorem ofNat_add (a b : Nat) : BitVec.ofNat 8 (a + b) = BitVec.ofNat 8 a + BitVec.ofNat 8 b := BitVec.ofNat_add a b

/-- Bytes computed as integers. -/
macro "bsimp" : tactic => `(tactic| simp only [ofNat_xor, ofNat_and, ofNat_or, ofNat_shl, ofNat_shr, ofNat_toNat])

theorem subw32 {a b : Nat} (h : b ≤ a) (ha : a < 4294967296) : (a + 4294967296 - b) % 4294967296 = a - b := by omega
theorem subw64 {a b : Nat} (h : b ≤ a) (ha : a < 18446744073709551616) :
    (a + 18446744073709551616 - b) % 18446744073709551616 = a - b := by omega

/-- Arithmetic without wrap-around. -/
macro "nowrap" : tactic => `(tactic| simp (disch := omega) only [Nat.mod_eq_of_lt, subw32, subw64])

/-- Take a computation of the model apart. -/
macro "inv " h:ident : tactic => `(tactic|
  simp only [Option.bind_eq_bind, Option.bind_eq_some_iff, Option.pure_def, Option.some.injEq] at $h:ident)

section
variable {α β γ δ S : Type} {D E F : Blocks} {Q : δ → Blocks → Prop}

theorem t_bf8_load {p : CPtr} {μ : Mem Byte} {x : Byte} {i : Nat} {g : Byte → CM δ} (hv : View D p μ)
    (hr : rd μ i = some x) (k : T D (g x) Q) : T D (bf8_load (padd p i) >>= g) Q :=
  t_ld (i := 0) hv.padd (by rw [rd_drop]; exact hr) k

theorem t_bf8_store {kd : Kind} {b o i : Nat} {m m' : Mem Byte} {x : Byte} {g : Unit → CM δ} (hD : D = bl kd b m + F)
    (hw : wr m (o + i) x = some m') (k : T (bl kd b m' + F) (g ()) Q) :
    T D (bf8_store (padd (some ⟨b, o⟩) i) x >>= g) Q := t_st (i := 0) hD hw k

/-- A loop of the model which writes consecutive cells. -/
theorem forN_wr {n p : Nat} {m m' : Mem α} {f : Nat → Mem α → Option α}
    (h : forN n m (fun r m => do let x ← f r m; wr m (p + r) x) = some m') (hn : p + n ≤ m.length) :
    ∃ l : List α, l.length = n ∧ wrN m p l = some m' ∧ ∀ r, r < n → f r (W m p (l.take r)) = l[r]? := by
  induction n generalizing m' with
  | zero =>
    obtain rfl := Option.some.inj h
    exact ⟨[], rfl, by rw [wrN_W (by simpa using hn), W_nil], fun r hr => absurd hr (by omega)⟩
  | succ n ih =>
    obtain ⟨m1, h1, h2⟩ := Option.bind_eq_some_iff.1 h
    obtain ⟨l, hl, hw, hf⟩ := ih h1 (by omega)
    obtain ⟨x, hx, hw'⟩ := Option.bind_eq_some_iff.1 h2
    obtain ⟨hm, rfl⟩ := wrN_eq_W hw
    have ht : ∀ r, r ≤ n → (l ++ [x]).take r = l.take r := fun r hr => by rw [List.take_append_of_le_length (by omega)]
    refine ⟨l ++ [x], by simp [hl], ?_, fun r hr => ?_⟩
    · rw [wrN_W (by simp [hl]; omega), ← hw']
      have := wr_W (m := m) (o := p) (i := n) (l := l ++ [x]) (x := x) (by simp [hl]; omega)
        (by rw [List.getElem?_append_right (by omega), hl]; simp)
      rw [ht n (Nat.le_refl n), List.take_of_length_le (by omega), List.take_of_length_le (by simp [hl])] at this
      exact this.symm
    · rw [ht r (by omega)]
      by_cases hrn : r = n
      · subst hrn
        rw [List.take_of_length_le (by omega), hx, List.getElem?_append_right (by omega), hl]
        simp
      · rw [List.getElem?_append_left (by omega)]
        exact hf r (by omega)

theorem rdN_drop0 (m : Mem α) (o n : Nat) (hn : o + n ≤ m.length) : rdN (m.drop o) 0 n = rdN m o n := by
  unfold rdN
  rw [List.length_drop, if_pos (by omega), if_pos (by omega), List.drop_zero]

/-- A range of a buffer as seen from its first cell. -/
theorem rdN_at {m : Mem α} {o n : Nat} {l : List α} (h : rdN m o n = some l) : rdN (m.drop o) 0 n = some l := by
  rw [rdN_drop0 _ _ _ (rdN_le h), h]

theorem wrN_W_append {m : Mem α} {o : Nat} {xs ys : List α} (h : o + (xs.length + ys.length) ≤ m.length) :
    wrN (W m o xs) (o + xs.length) ys = some (W m o (xs ++ ys)) := by
  have h1 : wrN m o xs = some (W m o xs) := wrN_W (by omega)
  have h2 : wrN (W m o xs) (o + xs.length) ys = some (W (W m o xs) (o + xs.length) ys) :=
    wrN_W (by rw [length_W (by omega)]; omega)
  rw [h2, ← wrN_append h1 h2, wrN_W (by simpa using h)]

theorem rd_lt {m : Mem α} {i : Nat} {x : α} (h : rd m i = some x) : i < m.length := by
  unfold rd at h
  by_contra hc
  rw [List.getElem?_eq_none (by omega)] at h
  cases h

theorem wr_lt {m m' : Mem α} {i : Nat} {x : α} (h : wr m i x = some m') : i < m.length ∧ m'.length = m.length := by
  unfold wr at h
  split at h
  · obtain rfl := Option.some.inj h
    exact ⟨by assumption, by simp⟩
  · cases h

theorem le_W {m : Mem α} {o : Nat} {l : List α} (h : o + l.length ≤ m.length) : Le (ofList l) ((W m o l).drop o) := by
  refine ⟨?_, fun i x hx => ?_⟩
  · rw [ofList_length, List.length_drop, length_W h]; omega
  · have hi := rd_lt hx
    rw [ofList_length] at hi
    rw [rd_drop, rd_W h, if_pos (by omega)]
    rw [rd_ofList] at hx
    rw [show o + i - o = i by omega]
    exact hx

theorem W_W {m : Mem α} {o : Nat} {a b : List α} (h : o + a.length ≤ m.length) (hl : a.length = b.length) :
    W (W m o a) o b = W m o b := by
  have h1 : o + b.length ≤ (W m o a).length := by rw [length_W h]; omega
  refine mem_ext (by rw [length_W h1, length_W h, length_W (by omega)]) fun i hi => ?_
  have h2 : o + b.length ≤ m.length := by omega
  rw [getElem?_W h1, getElem?_W h2]
  split
  · rfl
  · rw [getElem?_W h, if_neg (by omega)]

/-- Overwriting a range. -/
theorem wrN_over {m m' : Mem α} {o : Nat} {a b : List α} (h : o + a.length ≤ m.length) (hl : a.length = b.length)
    (hw : wrN m o b = some m') : wrN (W m o a) o b = some m' := by
  obtain ⟨-, rfl⟩ := wrN_eq_W hw
  rw [wrN_W (by rw [length_W h]; omega), W_W h hl]

theorem wrN_fresh {n : Nat} {l : List α} (h : l.length = n) {x : Option α} : wrN (List.replicate n x) 0 l = some (ofList l) := by
  rw [wrN_W (by simp [h])]
  simp [W, h, ofList]

theorem rdN_ofList_take (l : List α) {n : Nat} (h : n ≤ l.length) : rdN (ofList l) 0 n = some (l.take n) := by
  have := rdN_of_rd (m := ofList l) (off := 0) (l := l.take n) (by rw [ofList_length]; simp) fun t ht => by
    simp only [List.length_take] at ht
    rw [rd_ofList, List.getElem?_take, if_pos (by omega), Nat.zero_add]
  rwa [List.length_take, Nat.min_eq_left h] at this

theorem t_bf_load {n : Nat} {p : CPtr} {μ : Mem Byte} {o : Nat} {x : BF n} {g : BF n → CM δ} (hn : 8 ≤ n) (hv : View D p μ)
    (hr : bfLoad n μ o = some x) (k : T D (g x) Q) : T D (bf_load n (padd p o) >>= g) Q := by
  unfold bfLoad at hr
  inv hr
  obtain ⟨l, hl, rfl⟩ := hr
  unfold bf_load
  exact t_assoc (t_ldN hv.padd (by omega) (rdN_at hl) (t_pbind k))

theorem t_bf_load0 {n : Nat} {p : CPtr} {μ : Mem Byte} {x : BF n} {g : BF n → CM δ} (hn : 8 ≤ n) (hv : View D p μ)
    (hr : bfLoad n μ 0 = some x) (k : T D (g x) Q) : T D (bf_load n p >>= g) Q := by
  have := t_bf_load (g := g) hn hv hr k
  rwa [padd_zero] at this

theorem t_bf_store {n : Nat} {kd : Kind} {b o : Nat} {m m' : Mem Byte} {a : BF n} {g : Unit → CM δ} (hD : D = bl kd b m + F)
    (hw : wrN m o a.toBytes = some m') (k : T (bl kd b m' + F) (g ()) Q) : T D (bf_store (some ⟨b, o⟩) a >>= g) Q :=
  t_stN hD hw k

/-- A field element read at an equal index. -/
macro "blx " h:term : tactic => `(tactic|
  first
  | exact $h
  | exact Eq.trans (congrArg (bfLoad _ _) (by omega)) $h)

end

/-- A read at an equal index. -/
macro "rdx " h:term : tactic => `(tactic|
  first
  | exact $h
  | ((try simp only [rd_drop]); exact Eq.trans (congrArg (rd _) (by omega)) $h))
/-- A write at an equal index. -/
macro "wrx " h:term : tactic => `(tactic|
  first
  | exact $h
  | exact Eq.trans (congrArg (fun j => wr _ j _) (by omega)) $h)

end Faest.C
