/-
Simulation of the functions on byte-addressed buffers by the functions on the heap.

The state of the heap is described by the multiset of its live blocks.
-/
import Mathlib.Data.Multiset.MapFold
import Mathlib.Data.Multiset.UnionInter
import Mathlib.Algebra.Order.Group.Multiset
import Verif.Model.Heap
import Verif.Proofs.FlatBase

namespace Faest.Heap

/-- A set of blocks. -/
abbrev Blocks := Multiset (Nat × Cell)

/-- The live blocks of `H` are exactly those of `D`, and no block from `next` on is in use. -/
structure Sat (H : Heap) (D : Blocks) : Prop where
  mem : ∀ i x, H.cells i = some x ↔ (i, x) ∈ D
  nodup : (D.map Prod.fst).Nodup
  fresh : ∀ i, H.next ≤ i → H.cells i = none

/-- A block of bytes. -/
def b8 (i : Nat) (m : Mem Byte) : Blocks := {(i, ⟨false, .bytes m⟩)}
/-- An aligned block of field elements. -/
def el (n i : Nat) (m : Mem (BF n)) : Blocks := {(i, ⟨true, .elems n m⟩)}
/-- A block of pointers. -/
def pt (i : Nat) (m : Mem Ptr) : Blocks := {(i, ⟨false, .ptrs m⟩)}
/-- A block of `vec_com_t`. -/
def cm (i : Nat) (m : Mem VcPtrs) : Blocks := {(i, ⟨false, .coms m⟩)}

theorem Sat.get {H : Heap} {i : Nat} {c : Cell} {D : Blocks} (h : Sat H ({(i, c)} + D)) : H.cells i = some c :=
  (h.mem i c).2 (by simp)

theorem Sat.alloc {H : Heap} {D : Blocks} (h : Sat H D) (c : Cell) :
    Sat ⟨H.next + 1, upd H.cells H.next (some c)⟩ ({(H.next, c)} + D) := by
  have hn : ∀ x, (H.next, x) ∉ D := fun x hx => by
    have := (h.mem _ _).2 hx
    rw [h.fresh _ (Nat.le_refl _)] at this
    cases this
  refine ⟨fun i x => ?_, ?_, fun i hi => ?_⟩
  · unfold upd
    simp only [Multiset.singleton_add, Multiset.mem_cons, Prod.mk.injEq]
    by_cases hi : i = H.next
    · subst hi
      simp only [if_true, Option.some.injEq, true_and]
      constructor
      · rintro rfl; exact Or.inl rfl
      · rintro (rfl | hx)
        · rfl
        · exact absurd hx (hn x)
    · simp [hi, h.mem]
  · simp only [Multiset.singleton_add, Multiset.map_cons, Multiset.nodup_cons]
    refine ⟨fun hm => ?_, h.nodup⟩
    obtain ⟨⟨j, x⟩, hx, hj⟩ := Multiset.mem_map.1 hm
    simp only at hj
    subst hj
    exact hn x hx
  · replace hi : H.next + 1 ≤ i := hi
    show upd H.cells H.next (some c) i = none
    unfold upd
    rw [if_neg (by omega)]
    exact h.fresh i (by omega)

theorem Sat.free {H : Heap} {i : Nat} {c : Cell} {D : Blocks} (h : Sat H ({(i, c)} + D)) :
    Sat ⟨H.next, upd H.cells i none⟩ D := by
  have hnd := h.nodup
  simp only [Multiset.singleton_add, Multiset.map_cons, Multiset.nodup_cons] at hnd
  refine ⟨fun j x => ?_, hnd.2, fun j hj => ?_⟩
  · unfold upd
    have := h.mem j x
    simp only [Multiset.singleton_add, Multiset.mem_cons, Prod.mk.injEq] at this
    by_cases hj : j = i
    · subst hj
      simp only [if_true, reduceCtorEq, false_iff]
      exact fun hx => hnd.1 (Multiset.mem_map.2 ⟨_, hx, rfl⟩)
    · simpa [hj] using this
  · show upd H.cells i none j = none
    unfold upd
    split
    · rfl
    · exact h.fresh j hj

theorem Sat.put {H : Heap} {i : Nat} {c c' : Cell} {D : Blocks} (h : Sat H ({(i, c)} + D)) :
    Sat ⟨H.next, upd H.cells i (some c')⟩ ({(i, c')} + D) := by
  have hnd := h.nodup
  simp only [Multiset.singleton_add, Multiset.map_cons, Multiset.nodup_cons] at hnd
  refine ⟨fun j x => ?_, ?_, fun j hj => ?_⟩
  · unfold upd
    have := h.mem j x
    simp only [Multiset.singleton_add, Multiset.mem_cons, Prod.mk.injEq] at this ⊢
    by_cases hj : j = i
    · subst hj
      simp only [if_true, Option.some.injEq, true_and]
      constructor
      · rintro rfl; exact Or.inl rfl
      · rintro (rfl | hx)
        · rfl
        · exact absurd (Multiset.mem_map.2 ⟨_, hx, rfl⟩) hnd.1
    · simpa [hj] using this
  · simp only [Multiset.singleton_add, Multiset.map_cons, Multiset.nodup_cons]
    exact hnd
  · show upd H.cells i (some c') j = none
    unfold upd
    have := h.fresh j hj
    split
    · subst_vars
      rw [h.get] at this
      cases this
    · exact this

/-- Every heap with fresh blocks from `next` on has a description. -/
theorem sat_exists (H : Heap) (hf : ∀ i, H.next ≤ i → H.cells i = none) : ∃ D, Sat H D := by
  suffices hk : ∀ k, ∃ D : Blocks, (∀ i x, (i < k ∧ H.cells i = some x) ↔ (i, x) ∈ D) ∧ (D.map Prod.fst).Nodup by
    obtain ⟨D, h1, h2⟩ := hk H.next
    refine ⟨D, fun i x => ⟨fun hx => (h1 i x).1 ⟨?_, hx⟩, fun hx => ((h1 i x).2 hx).2⟩, h2, hf⟩
    by_contra hlt
    rw [hf i (by omega)] at hx
    cases hx
  intro k
  induction k with
  | zero => exact ⟨0, by simp, by simp⟩
  | succ k ih =>
    obtain ⟨D, h1, h2⟩ := ih
    rcases hc : H.cells k with _ | c
    · refine ⟨D, fun i x => ?_, h2⟩
      rw [← h1]
      constructor
      · rintro ⟨hi, hx⟩
        refine ⟨?_, hx⟩
        rcases Nat.lt_succ_iff_lt_or_eq.1 hi with hi | rfl
        · exact hi
        · rw [hc] at hx; cases hx
      · rintro ⟨hi, hx⟩
        exact ⟨by omega, hx⟩
    · refine ⟨{(k, c)} + D, fun i x => ?_, ?_⟩
      · simp only [Multiset.singleton_add, Multiset.mem_cons, Prod.mk.injEq, ← h1]
        constructor
        · rintro ⟨hi, hx⟩
          rcases Nat.lt_succ_iff_lt_or_eq.1 hi with hi | rfl
          · exact Or.inr ⟨hi, hx⟩
          · rw [hc] at hx
            exact Or.inl ⟨rfl, (Option.some.inj hx).symm⟩
        · rintro (⟨rfl, rfl⟩ | ⟨hi, hx⟩)
          · exact ⟨by omega, hc⟩
          · exact ⟨by omega, hx⟩
      · simp only [Multiset.singleton_add, Multiset.map_cons, Multiset.nodup_cons]
        refine ⟨fun hm => ?_, h2⟩
        obtain ⟨⟨j, x⟩, hx, hj⟩ := Multiset.mem_map.1 hm
        have := ((h1 j x).2 hx).1
        simp only at hj
        omega

/-- Two heaps with the same description have the same live blocks. -/
theorem Sat.cells_eq {H H' : Heap} {D : Blocks} (h : Sat H D) (h' : Sat H' D) : H'.cells = H.cells := by
  funext i
  apply Option.ext
  intro x
  rw [h'.mem, h.mem]

/-- Whenever `x` has a value, `p` runs from a heap with blocks `D` to its end, and value and blocks are as stated. -/
def HSim {α β : Type} (D : Blocks) (x : Option α) (p : HM β) (Q : α → β → Blocks → Prop) : Prop :=
  ∀ a, x = some a → ∀ H, Sat H D → ∃ b H' D', p H = some (b, H') ∧ Sat H' D' ∧ Q a b D'

section rules
variable {α β γ δ S T : Type} {D F : Blocks}

theorem hbind_eq {p : HM β} {g : β → HM δ} {H H' : Heap} {b : β} (h : p H = some (b, H')) : (p >>= g) H = g b H' := by
  show (p H).bind _ = _
  rw [h]; rfl

theorem hs_bind {R : α → β → Blocks → Prop} {Q : γ → δ → Blocks → Prop} {x : Option α} {p : HM β}
    {f : α → Option γ} {g : β → HM δ} (h : HSim D x p R) (k : ∀ a b D', x = Option.some a → R a b D' → HSim D' (f a) (g b) Q) :
    HSim D (x >>= f) (p >>= g) Q := by
  intro c hc H hH
  obtain ⟨a, ha, hc⟩ := Option.bind_eq_some_iff.1 hc
  obtain ⟨b, H', D', hb, hs, hr⟩ := h a ha H hH
  obtain ⟨d, H'', D'', hd, hs', hq⟩ := k a b D' ha hr c hc H' hs
  exact ⟨d, H'', D'', by rw [hbind_eq hb, hd], hs', hq⟩

/-- A call on the heap which matches the beginning of the computation on the left; `D` is permuted first. -/
theorem hs_call {R : α → β → Blocks → Prop} {Q : γ → δ → Blocks → Prop} {x : Option α} {p : HM β}
    {f : α → Option γ} {g : β → HM δ} {D' : Blocks} (hD : D = D') (h : HSim D' x p R)
    (k : ∀ a b D', x = Option.some a → R a b D' → HSim D' (f a) (g b) Q) : HSim D (x >>= f) (p >>= g) Q := by
  subst hD; exact hs_bind h k

theorem hs_tail {R Q : α → β → Blocks → Prop} {x : Option α} {p : HM β} {D' : Blocks} (hD : D = D')
    (h : HSim D' x p R) (k : ∀ a b D', x = Option.some a → R a b D' → Q a b D') : HSim D x p Q := by
  subst hD
  intro a ha H hH
  obtain ⟨b, H', D', hb, hs, hr⟩ := h a ha H hH
  exact ⟨b, H', D', hb, hs, k a b D' ha hr⟩

/-- A call on the heap without counterpart on the left. -/
theorem hs_callR {R : Unit → β → Blocks → Prop} {Q : γ → δ → Blocks → Prop} {x : Option γ} {p : HM β}
    {g : β → HM δ} {D' : Blocks} (hD : D = D') (h : HSim D' (some ()) p R)
    (k : ∀ b D', R () b D' → HSim D' x (g b) Q) : HSim D x (p >>= g) Q := by
  subst hD
  intro c hc H hH
  obtain ⟨b, H', D', hb, hs, hr⟩ := h () rfl H hH
  obtain ⟨d, H'', D'', hd, hs', hq⟩ := k b D' hr c hc H' hs
  exact ⟨d, H'', D'', by rw [hbind_eq hb, hd], hs', hq⟩

theorem hs_same {Q : γ → δ → Blocks → Prop} {x : Option α} {f : α → Option γ} {g : α → HM δ}
    (k : ∀ a, x = some a → HSim D (f a) (g a) Q) : HSim D (x >>= f) (lft x >>= g) Q := by
  intro c hc H hH
  obtain ⟨a, ha, hc⟩ := Option.bind_eq_some_iff.1 hc
  have : lft x H = some (a, H) := by rw [ha]; rfl
  rw [hbind_eq this]
  exact k a ha c hc H hH

theorem hs_left {Q : γ → δ → Blocks → Prop} {x : Option α} {f : α → Option γ} {p : HM δ}
    (k : ∀ a, x = some a → HSim D (f a) p Q) : HSim D (x >>= f) p Q := by
  intro c hc
  obtain ⟨a, ha, hc⟩ := Option.bind_eq_some_iff.1 hc
  exact k a ha c hc

theorem hs_right {Q : γ → δ → Blocks → Prop} {x : Option γ} {y : Option β} {b : β} {g : β → HM δ}
    (hb : y = some b) (k : HSim D x (g b) Q) : HSim D x (lft y >>= g) Q := by
  intro c hc H hH
  have : lft y H = some (b, H) := by rw [hb]; rfl
  rw [hbind_eq this]
  exact k c hc H hH

theorem hs_pure {Q : γ → δ → Blocks → Prop} {a : γ} {b : δ} (h : Q a b D) : HSim D (pure a) (pure b : HM δ) Q := by
  intro c hc H hH
  obtain rfl := Option.some.inj hc
  exact ⟨b, H, D, rfl, hH, h⟩

theorem hs_some {Q : γ → δ → Blocks → Prop} {a : γ} {b : δ} (h : Q a b D) :
    HSim D (some a) (Pure.pure b : HM δ) Q := hs_pure h

theorem hs_none {Q : γ → δ → Blocks → Prop} {p : HM δ} : HSim D none p Q := fun _ h => by cases h

theorem hs_lft {Q : γ → γ → Blocks → Prop} {x : Option γ} (h : ∀ a, x = some a → Q a a D) : HSim D x (lft x) Q := by
  intro c hc H hH
  exact ⟨c, H, D, by rw [hc]; rfl, hH, h c hc⟩

theorem hs_alloc {Q : γ → δ → Blocks → Prop} {x : Option γ} {c : Cell} {g : Nat → HM δ}
    (k : ∀ i, HSim ({(i, c)} + D) x (g i) Q) : HSim D x (alloc c >>= g) Q := by
  intro a ha H hH
  have : Heap.alloc c H = some (H.next, ⟨H.next + 1, upd H.cells H.next (Option.some c)⟩) := rfl
  rw [hbind_eq this]
  exact k _ a ha _ (hH.alloc c)

theorem free_eq {H : Heap} {i : Nat} {c : Cell} (h : H.cells i = Option.some c) :
    free c.aligned i H = some ((), ⟨H.next, upd H.cells i Option.none⟩) := by
  unfold free; rw [h]; exact if_pos rfl

theorem hs_free {Q : γ → δ → Blocks → Prop} {x : Option γ} {i : Nat} {al : Bool} {b : Blk} {g : Unit → HM δ}
    (hD : D = {(i, ⟨al, b⟩)} + F) (k : HSim F x (g ()) Q) : HSim D x (free al i >>= g) Q := by
  subst hD
  intro a ha H hH
  rw [hbind_eq (free_eq hH.get)]
  exact k a ha _ hH.free

theorem hs_bytes {Q : γ → δ → Blocks → Prop} {x : Option γ} {i : Nat} {m : Mem Byte} {g : Mem Byte → HM δ}
    (hD : D = b8 i m + F) (k : HSim D x (g m) Q) : HSim D x (bytes i >>= g) Q := by
  intro a ha H hH
  have hg : H.cells i = Option.some ⟨false, .bytes m⟩ := by subst hD; exact hH.get
  have : Heap.bytes i H = some (m, H) := by unfold Heap.bytes; rw [hg]
  rw [hbind_eq this]
  exact k a ha _ hH

theorem hs_elems {Q : γ → δ → Blocks → Prop} {x : Option γ} {n i : Nat} {m : Mem (BF n)} {g : Mem (BF n) → HM δ}
    (hD : D = el n i m + F) (k : HSim D x (g m) Q) : HSim D x (elems n i >>= g) Q := by
  intro a ha H hH
  have hg : H.cells i = Option.some ⟨true, .elems n m⟩ := by subst hD; exact hH.get
  have : Heap.elems n i H = some (m, H) := by
    unfold Heap.elems; rw [hg]; exact dif_pos rfl
  rw [hbind_eq this]
  exact k a ha _ hH

theorem hs_ptrs {Q : γ → δ → Blocks → Prop} {x : Option γ} {i : Nat} {m : Mem Ptr} {g : Mem Ptr → HM δ}
    (hD : D = pt i m + F) (k : HSim D x (g m) Q) : HSim D x (ptrs i >>= g) Q := by
  intro a ha H hH
  have hg : H.cells i = Option.some ⟨false, .ptrs m⟩ := by subst hD; exact hH.get
  have : Heap.ptrs i H = some (m, H) := by unfold Heap.ptrs; rw [hg]
  rw [hbind_eq this]
  exact k a ha _ hH

theorem hs_coms {Q : γ → δ → Blocks → Prop} {x : Option γ} {i : Nat} {m : Mem VcPtrs} {g : Mem VcPtrs → HM δ}
    (hD : D = cm i m + F) (k : HSim D x (g m) Q) : HSim D x (coms i >>= g) Q := by
  intro a ha H hH
  have hg : H.cells i = Option.some ⟨false, .coms m⟩ := by subst hD; exact hH.get
  have : Heap.coms i H = some (m, H) := by unfold Heap.coms; rw [hg]
  rw [hbind_eq this]
  exact k a ha _ hH

theorem hs_put {Q : γ → δ → Blocks → Prop} {x : Option γ} {i : Nat} {al : Bool} {b b' : Blk} {g : Unit → HM δ}
    (hD : D = {(i, ⟨al, b⟩)} + F) (hl : b.shape = b'.shape) (k : HSim ({(i, ⟨al, b'⟩)} + F) x (g ()) Q) :
    HSim D x (put i b' >>= g) Q := by
  subst hD
  intro a ha H hH
  have : Heap.put i b' H = some ((), ⟨H.next, upd H.cells i (Option.some ⟨al, b'⟩)⟩) := by
    unfold Heap.put; rw [hH.get]; exact if_pos hl
  rw [hbind_eq this]
  exact k a ha _ hH.put

theorem hs_putB {Q : γ → δ → Blocks → Prop} {x : Option γ} {i : Nat} {m m' : Mem Byte} {g : Unit → HM δ}
    (hD : D = b8 i m + F) (hl : m'.length = m.length) (k : HSim (b8 i m' + F) x (g ()) Q) :
    HSim D x (put i (.bytes m') >>= g) Q := hs_put hD (by simp [Blk.shape, hl]) k

theorem hs_putE {Q : γ → δ → Blocks → Prop} {x : Option γ} {n i : Nat} {m m' : Mem (BF n)} {g : Unit → HM δ}
    (hD : D = el n i m + F) (hl : m'.length = m.length) (k : HSim (el n i m' + F) x (g ()) Q) :
    HSim D x (put i (.elems n m') >>= g) Q := hs_put hD (by simp [Blk.shape, hl]) k

theorem hs_putP {Q : γ → δ → Blocks → Prop} {x : Option γ} {i : Nat} {m m' : Mem Ptr} {g : Unit → HM δ}
    (hD : D = pt i m + F) (hl : m'.length = m.length) (k : HSim (pt i m' + F) x (g ()) Q) :
    HSim D x (put i (.ptrs m') >>= g) Q := hs_put hD (by simp [Blk.shape, hl]) k

theorem hs_putC {Q : γ → δ → Blocks → Prop} {x : Option γ} {i : Nat} {m m' : Mem VcPtrs} {g : Unit → HM δ}
    (hD : D = cm i m + F) (hl : m'.length = m.length) (k : HSim (cm i m' + F) x (g ()) Q) :
    HSim D x (put i (.coms m') >>= g) Q := hs_put hD (by simp [Blk.shape, hl]) k

theorem hs_freeB {Q : γ → δ → Blocks → Prop} {x : Option γ} {i : Nat} {m : Mem Byte} {g : Unit → HM δ}
    (hD : D = b8 i m + F) (k : HSim F x (g ()) Q) : HSim D x (Heap.free false i >>= g) Q := hs_free hD k

theorem hs_freeE {Q : γ → δ → Blocks → Prop} {x : Option γ} {n i : Nat} {m : Mem (BF n)} {g : Unit → HM δ}
    (hD : D = el n i m + F) (k : HSim F x (g ()) Q) : HSim D x (Heap.free true i >>= g) Q := hs_free hD k

theorem hs_freeP {Q : γ → δ → Blocks → Prop} {x : Option γ} {i : Nat} {m : Mem Ptr} {g : Unit → HM δ}
    (hD : D = pt i m + F) (k : HSim F x (g ()) Q) : HSim D x (Heap.free false i >>= g) Q := hs_free hD k

theorem hs_freeC {Q : γ → δ → Blocks → Prop} {x : Option γ} {i : Nat} {m : Mem VcPtrs} {g : Unit → HM δ}
    (hD : D = cm i m + F) (k : HSim F x (g ()) Q) : HSim D x (Heap.free false i >>= g) Q := hs_free hD k

theorem hs_allocB {Q : γ → δ → Blocks → Prop} {x : Option γ} {m : Mem Byte} {g : Nat → HM δ}
    (k : ∀ i, HSim (b8 i m + D) x (g i) Q) : HSim D x (Heap.alloc ⟨false, .bytes m⟩ >>= g) Q := hs_alloc k

theorem hs_allocE {Q : γ → δ → Blocks → Prop} {x : Option γ} {n : Nat} {m : Mem (BF n)} {g : Nat → HM δ}
    (k : ∀ i, HSim (el n i m + D) x (g i) Q) : HSim D x (Heap.alloc ⟨true, .elems n m⟩ >>= g) Q := hs_alloc k

theorem hs_allocP {Q : γ → δ → Blocks → Prop} {x : Option γ} {m : Mem Ptr} {g : Nat → HM δ}
    (k : ∀ i, HSim (pt i m + D) x (g i) Q) : HSim D x (Heap.alloc ⟨false, .ptrs m⟩ >>= g) Q := hs_alloc k

theorem hs_allocC {Q : γ → δ → Blocks → Prop} {x : Option γ} {m : Mem VcPtrs} {g : Nat → HM δ}
    (k : ∀ i, HSim (cm i m + D) x (g i) Q) : HSim D x (Heap.alloc ⟨false, .coms m⟩ >>= g) Q := hs_alloc k

theorem hs_perm {Q : γ → δ → Blocks → Prop} {x : Option γ} {p : HM δ} {D' : Blocks} (hD : D = D')
    (k : HSim D' x p Q) : HSim D x p Q := hD ▸ k

theorem hs_assoc {Q : γ → δ → Blocks → Prop} {x : Option γ} {p : HM α} {q : α → HM β} {g : β → HM δ}
    (k : HSim D x (p >>= fun a => q a >>= g) Q) : HSim D x ((p >>= q) >>= g) Q := by
  rwa [bind_assoc]

theorem hs_loop {n : Nat} {s : S} {t : T} {f : Nat → S → Option S} {g : Nat → T → HM T}
    (I : Nat → S → T → Blocks → Prop) (h0 : I 0 s t D)
    (hf : ∀ i, i < n → ∀ s t D, I i s t D → HSim D (f i s) (g i t) (I (i + 1))) :
    HSim D (forN n s f) (loop n t g) (I n) := by
  induction n with
  | zero =>
    intro a ha H hH
    obtain rfl := Option.some.inj ha
    exact ⟨t, H, D, rfl, hH, h0⟩
  | succ n ih =>
    have := hs_bind (ih fun i hi => hf i (by omega)) fun a b D' _ h => hf n (by omega) a b D' h
    exact this

end rules

/-! ### Finding a block -/

theorem fnd_there {A E X D : Blocks} (h : D = A + E) : X + D = A + (X + E) := by rw [h, add_left_comm]
theorem fnd_last {A : Blocks} : A = A + 0 := (add_zero A).symm
theorem fnd_and {A D D1 E : Blocks} (h : D = A + D1) (h' : D1 = E) : D = A + E := by rw [h, h']

/-- Find one block in a sum. -/
syntax "hfind1" : tactic
macro_rules | `(tactic| hfind1) => `(tactic| first | with_reducible exact rfl | with_reducible exact fnd_last |
  (with_reducible apply fnd_there; hfind1))

/-- Find several blocks in a sum. -/
syntax "hfind" : tactic
macro_rules | `(tactic| hfind) => `(tactic| first | with_reducible exact rfl |
  (with_reducible apply fnd_and; hfind1; hfind))


/-! ### Results of computations off the heap -/

/-- Every value of `x` satisfies `Q`. -/
def Aft {α : Type} (x : Option α) (Q : α → Prop) : Prop := ∀ a, x = some a → Q a

theorem Aft.bind {α β : Type} {x : Option α} {f : α → Option β} {Q : β → Prop}
    (h : ∀ a, x = some a → Aft (f a) Q) : Aft (x >>= f) Q := by
  intro b hb
  obtain ⟨a, ha, hb⟩ := Option.bind_eq_some_iff.1 hb
  exact h a ha b hb

theorem Aft.pure {α : Type} {a : α} {Q : α → Prop} (h : Q a) : Aft (pure a) Q := by
  intro b hb
  obtain rfl := Option.some.inj hb
  exact h

theorem Aft.forN {S : Type} {n : Nat} {s : S} {f : Nat → S → Option S} (I : S → Prop) (h0 : I s)
    (hf : ∀ i s, I s → Aft (f i s) I) : Aft (forN n s f) I := by
  induction n with
  | zero => exact Aft.pure h0
  | succ n ih => exact Aft.bind fun a ha => hf n a (ih a ha)

theorem aft_wrN {α : Type} {m : Mem α} {off : Nat} {l : List α} :
    Aft (wrN m off l) (fun m' => m'.length = m.length ∧ off + l.length ≤ m.length) := by
  intro m' h
  unfold wrN at h
  split at h
  · obtain rfl := Option.some.inj h
    refine ⟨?_, by assumption⟩
    simp
    omega
  · cases h

theorem Aft.mono {α : Type} {x : Option α} {Q R : α → Prop} (h : Aft x Q) (k : ∀ a, Q a → R a) : Aft x R :=
  fun a ha => k a (h a ha)

theorem Aft.none {α : Type} {Q : α → Prop} : Aft Option.none Q := fun _ h => by cases h

theorem Aft.some {α : Type} {a : α} {Q : α → Prop} (h : Q a) : Aft (Option.some a) Q := Aft.pure h

theorem Aft.forR {S : Type} {lo hi : Nat} {s : S} {f : Nat → S → Option S} (I : S → Prop) (h0 : I s)
    (hf : ∀ i s, I s → Aft (f i s) I) : Aft (forR lo hi s f) I := Aft.forN I h0 fun _ _ => hf _ _

theorem Aft.forStep {S : Type} {hi step : Nat} {f : Nat → S → Option S} (I : S → Prop)
    (hf : ∀ i s, I s → Aft (f i s) I) : ∀ {fuel j : Nat} {s : S}, I s → Aft (forStep hi step fuel j s f) (fun r => I r.2)
  | 0, _, _, _ => Aft.none
  | fuel + 1, j, s, h0 => by
    unfold Faest.forStep
    split
    · exact Aft.bind (x := f j s) fun a ha => Aft.forStep I hf (hf j s h0 a ha)
    · exact Aft.some h0

theorem Aft.forUntil4 {S : Type} {n : Nat} {f : Nat → S → Option S} (I : S → Prop)
    (hf : ∀ i s, I s → Aft (f i s) I) : ∀ {fuel j : Nat} {s : S}, I s → Aft (forUntil4 n fuel j s f) (fun r => I r.2)
  | 0, _, _, _ => Aft.none
  | fuel + 1, j, s, h0 => by
    unfold Faest.forUntil4
    split
    · exact Aft.bind (x := f j s) fun a ha => Aft.forUntil4 I hf (hf j s h0 a ha)
    · exact Aft.some h0

theorem aft_wr {α : Type} {m : Mem α} {i : Nat} {x : α} : Aft (wr m i x) (fun m' => m'.length = m.length) :=
  fun _ h => (wr_inv h).2.1

theorem aft_fill {α : Type} {n : Nat} {f : Nat → Option α} : Aft (fill n f) (fun m => m.length = n) := by
  intro m h
  unfold fill at h
  obtain ⟨l, h1, rfl⟩ := Option.map_eq_some_iff.1 h
  rw [ofList, List.length_map, tabM_length h1]

/-! ### Stores -/

section
variable {γ δ : Type} {D F : Blocks}

/-- storeAt on a block of bytes. -/
theorem hs_storeAt {Q : γ → δ → Blocks → Prop} {x : Option γ} {i off : Nat} {m m' : Mem Byte} {l : List Byte}
    {g : Unit → HM δ} (hw : wrN m off l = some m') (hD : D = b8 i m + F) (k : HSim (b8 i m' + F) x (g ()) Q) :
    HSim D x (storeAt i off l >>= g) Q := by
  subst hD
  unfold storeAt
  refine hs_assoc ?_
  refine hs_bytes (by hfind1) ?_
  refine hs_assoc ?_
  refine hs_right hw ?_
  exact hs_putB (by hfind1) (aft_wrN _ hw).1 k

/-- `x` has been computed on the left already. -/
theorem hs_run {α β : Type} {R : α → β → Blocks → Prop} {Q : γ → δ → Blocks → Prop} {x : Option α} {a : α}
    {y : Option γ} {p : HM β} {g : β → HM δ} {D' : Blocks} (ha : x = some a) (hD : D = D') (h : HSim D' x p R)
    (k : ∀ b D', R a b D' → HSim D' y (g b) Q) : HSim D y (p >>= g) Q := by
  subst hD
  intro c hc H hH
  obtain ⟨b, H', D', hb, hs, hr⟩ := h a ha H hH
  obtain ⟨d, H'', D'', hd, hs', hq⟩ := k b D' hr c hc H' hs
  exact ⟨d, H'', D'', by rw [hbind_eq hb, hd], hs', hq⟩

/-- The last computation on the left. -/
theorem hs_last {Q : γ → δ → Blocks → Prop} {x : Option γ} {p : HM δ}
    (k : ∀ a, x = some a → HSim D (pure a) p Q) : HSim D x p Q := fun a ha => k a ha a rfl

/-- A computation off the heap in several steps. -/
theorem hs_lbind {α β : Type} {Q : γ → δ → Blocks → Prop} {y : Option γ} {x : Option α} {f : α → Option β}
    {g : β → HM δ} (k : HSim D y (lft x >>= fun a => lft (f a) >>= g) Q) : HSim D y (lft (x >>= f) >>= g) Q := by
  intro a ha H hH
  obtain ⟨b, H', D', hb, hs, hr⟩ := k a ha H hH
  refine ⟨b, H', D', ?_, hs, hr⟩
  rw [← hb]
  cases x <;> rfl

theorem hs_lpure {α : Type} {Q : γ → δ → Blocks → Prop} {y : Option γ} {a : α} {g : α → HM δ}
    (k : HSim D y (g a) Q) : HSim D y (lft (pure a) >>= g) Q := hs_right rfl k

/-- `pure` inside a computation on the heap. -/
theorem hs_hpure {α : Type} {Q : γ → δ → Blocks → Prop} {y : Option γ} {a : α} {g : α → HM δ}
    (k : HSim D y (g a) Q) : HSim D y ((pure a : HM α) >>= g) Q := by
  rwa [pure_bind]

theorem free_run {R : γ → Unit → Blocks → Prop} {x : Option γ} {i : Nat} {al : Bool} {b : Blk}
    (hD : D = {(i, ⟨al, b⟩)} + F) (k : ∀ a, x = some a → R a () F) : HSim D x (free al i) R := by
  subst hD
  intro a ha H hH
  exact ⟨(), _, F, free_eq hH.get, hH.free, k a ha⟩

theorem hs_freeB_tail {R : γ → Unit → Blocks → Prop} {x : Option γ} {i : Nat} {m : Mem Byte}
    (hD : D = b8 i m + F) (k : ∀ a, x = some a → R a () F) : HSim D x (free false i) R := free_run hD k

theorem hs_freeP_tail {R : γ → Unit → Blocks → Prop} {x : Option γ} {i : Nat} {m : Mem Ptr}
    (hD : D = pt i m + F) (k : ∀ a, x = some a → R a () F) : HSim D x (free false i) R := free_run hD k

end

end Faest.Heap
