/-
Writes of bytes through a pointer into blocks which are not named.
-/
import Verif.Proofs.Gen.Base

namespace Faest.C

/-- No block number twice. -/
def ND (D : Blocks) : Prop := (D.map Prod.fst).Nodup

/-- Write bytes into a block. -/
def wrC (o : Nat) (l : List Byte) (c : Cell) : Cell :=
  match c.data with
  | .bytes m => ⟨c.kind, .bytes (W m o l)⟩
  | _ => c

/-- The blocks after `l` was written at `q`. -/
def up (D : Blocks) (q : Ptr) (l : List Byte) : Blocks :=
  D.map fun x => if x.1 = q.blk then (x.1, wrC q.off l x.2) else x

/-- There are `n` bytes at `q`. -/
def Valid (D : Blocks) (q : Ptr) (n : Nat) : Prop :=
  ∃ kd, ∃ m : Mem Byte, (q.blk, ⟨kd, .bytes m⟩) ∈ D ∧ q.off + n ≤ m.length

variable {δ : Type} {D E F : Blocks} {Q : δ → Blocks → Prop}

theorem t_nd {p : CM δ} (h : ND D → T D p Q) : T D p Q := fun H hH => h hH.nodup H hH

theorem runs_nd {p : CM δ} {b : δ} (h : ND D → Runs D p b E) : Runs D p b E := t_nd h

theorem up_fst (D : Blocks) (q : Ptr) (l : List Byte) : (up D q l).map Prod.fst = D.map Prod.fst := by
  unfold up
  rw [Multiset.map_map]
  refine Multiset.map_congr rfl fun x _ => ?_
  simp only [Function.comp]
  split <;> rfl

theorem ND.up (h : ND D) (q : Ptr) (l : List Byte) : ND (up D q l) := by
  unfold ND; rw [up_fst]; exact h

theorem ND.of_up {q : Ptr} {l : List Byte} (h : ND (C.up D q l)) : ND D := by
  unfold ND at *; rwa [up_fst] at h

theorem ND.left (h : ND (D + E)) : ND D := by
  unfold ND at *; rw [Multiset.map_add] at h; exact (Multiset.nodup_add.1 h).1

theorem ND.right (h : ND (D + E)) : ND E := by
  unfold ND at *; rw [Multiset.map_add] at h; exact (Multiset.nodup_add.1 h).2.1

theorem ND.disj (h : ND (D + E)) {i : Nat} {c c' : Cell} (h1 : (i, c) ∈ D) (h2 : (i, c') ∈ E) : False := by
  unfold ND at h
  rw [Multiset.map_add] at h
  have := (Multiset.nodup_add.1 h).2.2
  exact Multiset.disjoint_left.1 this (Multiset.mem_map.2 ⟨_, h1, rfl⟩) (Multiset.mem_map.2 ⟨_, h2, rfl⟩)

theorem ND.uniq (h : ND D) {i : Nat} {c c' : Cell} (h1 : (i, c) ∈ D) (h2 : (i, c') ∈ D) : c = c' := by
  obtain ⟨E, rfl⟩ := Multiset.exists_cons_of_mem h1
  rcases Multiset.mem_cons.1 h2 with h3 | h3
  · exact (Prod.mk.inj h3).2.symm
  · exfalso
    rw [← Multiset.singleton_add] at h
    exact h.disj (Multiset.mem_singleton_self _) h3

theorem up_none {q : Ptr} {l : List Byte} (h : ∀ c, (q.blk, c) ∉ D) : up D q l = D := by
  unfold up
  conv_rhs => rw [← Multiset.map_id D]
  refine Multiset.map_congr rfl fun x hx => ?_
  rw [if_neg]
  · rfl
  · rintro rfl'
    obtain ⟨i, c⟩ := x
    simp only at rfl'
    subst rfl'
    exact h c hx

theorem up_add (D E : Blocks) (q : Ptr) (l : List Byte) : up (D + E) q l = up D q l + up E q l := by
  unfold up; exact Multiset.map_add _ _ _

theorem up_bl {kd : Kind} {b o : Nat} {m : Mem Byte} {l : List Byte} (h : ND (bl kd b m + F)) :
    up (bl kd b m + F) ⟨b, o⟩ l = bl kd b (W m o l) + F := by
  rw [up_add, up_none (D := F)]
  · congr 1
    unfold up bl
    rw [Multiset.map_singleton, if_pos rfl]
    rfl
  · intro c hc
    exact h.disj (D := bl kd b m) (Multiset.mem_singleton_self _) hc

/-- A write into the other blocks. -/
theorem up_frame {q : Ptr} {l : List Byte} {n : Nat} (h : ND (D + F)) (hv : Valid F q n) :
    up (D + F) q l = D + up F q l := by
  rw [up_add, up_none (D := D)]
  obtain ⟨kd, m, hm, -⟩ := hv
  exact fun c hc => h.disj hc hm

theorem Valid.right {q : Ptr} {n : Nat} (h : Valid F q n) : Valid (D + F) q n := by
  obtain ⟨kd, m, hm, hl⟩ := h
  exact ⟨kd, m, Multiset.mem_add.2 (Or.inr hm), hl⟩

theorem Valid.mono {q : Ptr} {n k : Nat} (h : Valid F q n) (hk : k ≤ n) : Valid F q k := by
  obtain ⟨kd, m, hm, hl⟩ := h
  exact ⟨kd, m, hm, by omega⟩

theorem Valid.sub {q : Ptr} {n a k : Nat} (h : Valid F q n) (hk : a + k ≤ n) : Valid F ⟨q.blk, q.off + a⟩ k := by
  obtain ⟨kd, m, hm, hl⟩ := h
  exact ⟨kd, m, hm, by simp only; omega⟩

theorem Valid.block {q : Ptr} {n : Nat} (h : Valid F q n) :
    ∃ kd, ∃ m : Mem Byte, ∃ F', F = bl kd q.blk m + F' ∧ q.off + n ≤ m.length := by
  obtain ⟨kd, m, hm, hl⟩ := h
  obtain ⟨F', rfl⟩ := Multiset.exists_cons_of_mem hm
  exact ⟨kd, m, F', (Multiset.singleton_add _ _).symm, hl⟩

theorem valid_bl {kd : Kind} {b o n : Nat} {m : Mem Byte} (h : o + n ≤ m.length) : Valid (bl kd b m + F) ⟨b, o⟩ n :=
  ⟨kd, m, by simp only; exact mem_bl, h⟩

theorem Valid.up {q q' : Ptr} {n : Nat} {l : List Byte} (h : Valid F q n) (h' : Valid F q' l.length) (hn : ND F) :
    Valid (up F q' l) q n := by
  obtain ⟨kd, m, hm, hl⟩ := h
  obtain ⟨kd', m', hm', hl'⟩ := h'
  by_cases e : q.blk = q'.blk
  · rw [← e] at hm'
    have he := hn.uniq hm hm'
    injection he with e1 e2
    injection e2 with e3
    subst e3
    refine ⟨kd, W m q'.off l, Multiset.mem_map.2 ⟨_, hm, ?_⟩, by rw [length_W hl']; exact hl⟩
    rw [if_pos e]; rfl
  · refine ⟨kd, m, Multiset.mem_map.2 ⟨_, hm, ?_⟩, hl⟩
    rw [if_neg e]

theorem up_nil (q : Ptr) : up F q [] = F := by
  unfold up
  conv_rhs => rw [← Multiset.map_id F]
  refine Multiset.map_congr rfl fun x _ => ?_
  split
  · unfold wrC
    obtain ⟨i, k, d⟩ := x
    cases d <;> simp [W_nil]
  · rfl

/-- Consecutive writes. -/
theorem up_append {q : Ptr} {l l' : List Byte} (h : Valid F q (l.length + l'.length)) (hn : ND F) :
    up (up F q l) ⟨q.blk, q.off + l.length⟩ l' = up F q (l ++ l') := by
  obtain ⟨kd, m, F', rfl, hl⟩ := h.block
  obtain ⟨b, o⟩ := q
  simp only at *
  rw [up_bl hn, up_bl, up_bl hn]
  · congr 2
    have := wrN_W_append (m := m) (o := o) (xs := l) (ys := l') hl
    exact (wrN_eq_W this).2.symm
  · have := hn.up ⟨b, o⟩ l
    rwa [up_bl hn] at this

/-- Writes at different places. -/
theorem W_comm {m : Mem Byte} {o o' : Nat} {l l' : List Byte} (h : o + l.length ≤ m.length)
    (h' : o' + l'.length ≤ m.length) (hd : o + l.length ≤ o' ∨ o' + l'.length ≤ o) :
    W (W m o l) o' l' = W (W m o' l') o l := by
  have h1 : o' + l'.length ≤ (W m o l).length := by rw [length_W h]; exact h'
  have h2 : o + l.length ≤ (W m o' l').length := by rw [length_W h']; exact h
  refine mem_ext (by rw [length_W h1, length_W h2, length_W h, length_W h']) fun i _ => ?_
  rw [getElem?_W h1, getElem?_W h2, getElem?_W h, getElem?_W h']
  split
  · rw [if_neg (by omega)]
  · rfl

/-- The ranges do not overlap. -/
def Apart (q : Ptr) (n : Nat) (q' : Ptr) (n' : Nat) : Prop :=
  q.blk = q'.blk → q.off + n ≤ q'.off ∨ q'.off + n' ≤ q.off

theorem up_comm {q q' : Ptr} {l l' : List Byte} (h : Valid F q l.length) (h' : Valid F q' l'.length) (hn : ND F)
    (hd : Apart q l.length q' l'.length) : up (up F q l) q' l' = up (up F q' l') q l := by
  obtain ⟨kd, m, hm, hl⟩ := h
  obtain ⟨kd', m', hm', hl'⟩ := h'
  unfold up
  rw [Multiset.map_map, Multiset.map_map]
  refine Multiset.map_congr rfl fun x hx => ?_
  obtain ⟨i, c⟩ := x
  obtain ⟨b, o⟩ := q
  obtain ⟨b', o'⟩ := q'
  simp only at hm hl hm' hl'
  by_cases e : i = b
  · subst e
    by_cases e' : i = b'
    · subst e'
      obtain rfl := hn.uniq hx hm
      have he := hn.uniq hm hm'
      injection he with e1 e2
      injection e2 with e3
      subst e3
      have := W_comm hl hl' (hd rfl)
      simp [wrC, this]
    · simp [e']
  · by_cases e' : i = b'
    · subst e'
      simp [e]
    · simp [e, e']

theorem Sat.det {H : Heap} (h : Sat H D) (h' : Sat H E) : D = E := by
  have h1 := h.nodup.of_map
  have h2 := h'.nodup.of_map
  refine (Multiset.Nodup.ext h1 h2).2 fun x => ?_
  obtain ⟨i, c⟩ := x
  rw [← h.mem, ← h'.mem]

theorem runs_stN_up {q : Ptr} {l : List Byte} (h : Valid F q l.length) : Runs F (stN (some q) l) () (up F q l) := by
  refine runs_nd fun hn => ?_
  obtain ⟨kd, m, F', rfl, hl⟩ := h.block
  obtain ⟨b, o⟩ := q
  rw [up_bl hn]
  exact runs_stN (wrN_W hl)

theorem t_up {q : Ptr} {l : List Byte} {g : Unit → CM δ} (h : Valid D q l.length)
    (k : T (up D q l) (g ()) Q) : T D (stN (some q) l >>= g) Q := t_run rfl (runs_stN_up h) k

/-- `memcpy` to other blocks. -/
theorem t_memcpy_up {kd : Kind} {b o n : Nat} {q : Ptr} {m : Mem Byte} {l : List Byte} {g : Unit → CM δ}
    (hD : D = bl kd b m + F) (hv : Valid F q n) (hr : rdN m o n = some l)
    (k : T (bl kd b m + up F q l) (g ()) Q) : T D (memcpy (α := Byte) (some q) (some ⟨b, o⟩) n >>= g) Q := by
  subst hD
  refine t_nd fun hn => ?_
  have hne : q.blk ≠ b := by
    obtain ⟨kd', m', hm', -⟩ := hv
    rintro rfl
    exact hn.disj (D := bl kd q.blk m) (Multiset.mem_singleton_self _) hm'
  have hl := rdN_length hr
  unfold memcpy ldN
  refine t_assoc (t_assoc (t_lft rfl (t_assoc (t_run rfl (runs_blk mem_bl) (t_lft hr ?_)))))
  have ho : overlap (some q) (some ⟨b, o⟩) n = false := by
    unfold overlap
    simp [hne]
  rw [ho, if_neg (by simp)]
  refine t_up (by rw [hl]; exact hv.right) ?_
  rw [up_frame hn hv]
  exact k

/-! ### What a computation which runs does -/

/-- The computation runs from some memory with the blocks `D`. -/
def At (D : Blocks) (p : CM δ) (Q : δ → Blocks → Prop) : Prop :=
  ∃ H, Sat H D ∧ ∃ b H' D', p H = some (b, H') ∧ Sat H' D' ∧ Q b D'

/-- There is a memory with just the blocks `F`. -/
theorem Sat.sub {H : Heap} (h : Sat H (D + F)) : ∃ H', Sat H' F := by
  classical
  refine ⟨⟨H.next, fun i => if ∃ c, (i, c) ∈ F then H.cells i else none⟩, ?_, ?_, ?_⟩
  · intro i x
    dsimp only
    constructor
    · intro h1
      split at h1
      next hc =>
        obtain ⟨c, hc⟩ := hc
        have hc' := (h.mem i c).2 (Multiset.mem_add.2 (Or.inr hc))
        rw [hc'] at h1
        obtain rfl := Option.some.inj h1
        exact hc
      next => cases h1
    · intro h1
      rw [if_pos ⟨x, h1⟩]
      exact (h.mem i x).2 (Multiset.mem_add.2 (Or.inr h1))
  · have := h.nodup
    rw [Multiset.map_add] at this
    exact (Multiset.nodup_add.1 this).2.1
  · intro i hi
    dsimp only
    split
    · exact h.fresh i hi
    · rfl

theorem T.at {p : CM δ} {H : Heap} (h : T F p Q) (hH : Sat H F) : At F p Q := ⟨H, hH, h H hH⟩

/-- Assume that the computation on the other blocks runs. -/
theorem t_at {β : Type} {p : CM δ} {p' : CM β} {R : β → Blocks → Prop} (h : T F p' R) (k : At F p' R → T (D + F) p Q) :
    T (D + F) p Q := by
  intro H hH
  obtain ⟨H', hs⟩ := hH.sub
  exact k (h.at hs) H hH

theorem At.pure {x : δ} (h : At F (pure x) Q) : Q x F := by
  obtain ⟨H, hH, b, H', D', hr, hs, hq⟩ := h
  obtain ⟨rfl, rfl⟩ := Prod.mk.inj (Option.some.inj hr)
  rw [Sat.det hH hs]
  exact hq

theorem At.lft {β : Type} {o : Option β} {g : β → CM δ} (h : At F (lft o >>= g) Q) : ∃ x, o = some x ∧ At F (g x) Q := by
  obtain ⟨H, hH, b, H', D', hr, hs, hq⟩ := h
  cases o with
  | none => cases hr
  | some x => exact ⟨x, rfl, H, hH, b, H', D', hr, hs, hq⟩

/-- Stores. -/
theorem At.stN {p : CPtr} {l : List Byte} {g : Unit → CM δ} (h : At F (stN p l >>= g) Q) :
    ∃ q, p = some q ∧ Valid F q l.length ∧ At (C.up F q l) (g ()) Q := by
  obtain ⟨H, hH, b, H', D', hr, hs, hq⟩ := h
  cases p with
  | none => cases hr
  | some q =>
    have hv : Valid F q l.length := by
      unfold C.stN blk at hr
      cases hc : H.cells q.blk with
      | none =>
        exfalso
        simp [bind, StateT.bind, C.lft, hc] at hr
      | some c =>
        obtain ⟨kd, d⟩ := c
        cases d with
        | bytes m =>
          refine ⟨kd, m, (hH.mem _ _).1 hc, ?_⟩
          by_contra hl
          have hw : wrN m q.off l = none := if_neg hl
          have : (Ty.get (Data.bytes m) : Option (Mem Byte)) = some m := rfl
          simp [bind, StateT.bind, C.lft, hc, this, hw] at hr
        | _ =>
          exfalso
          simp [bind, StateT.bind, C.lft, hc, Ty.get] at hr
    refine ⟨q, rfl, hv, ?_⟩
    obtain ⟨_, H2, D2, hr2, hs2, -, rfl⟩ := runs_stN_up (l := l) hv H hH
    refine ⟨H2, hs2, b, H', D', ?_, hs, hq⟩
    have : (C.stN (some q) l >>= g) H = (C.stN (some q) l H).bind fun x => g x.1 x.2 := rfl
    rw [this, hr2] at hr
    exact hr

/-- Loads. -/
theorem At.ldN {p : CPtr} {n : Nat} {g : List Byte → CM δ} (h : At F (ldN p n >>= g) Q) :
    ∃ l μ, l.length = n ∧ View F p μ ∧ Has μ 0 n (fun j => l.getD j 0) ∧ At F (g l) Q := by
  obtain ⟨H, hH, b, H', D', hr, hs, hq⟩ := h
  cases p with
  | none => cases hr
  | some q =>
    unfold C.ldN blk at hr
    cases hc : H.cells q.blk with
    | none =>
      exfalso
      simp [bind, StateT.bind, C.lft, hc] at hr
    | some c =>
      obtain ⟨kd, d⟩ := c
      cases d with
      | bytes m =>
        have hm := (hH.mem _ _).1 hc
        have hg : (Ty.get (Data.bytes m) : Option (Mem Byte)) = some m := rfl
        cases hl : rdN m q.off n with
        | none =>
          exfalso
          simp [bind, StateT.bind, C.lft, hc, hg, hl] at hr
        | some l =>
          have hlen := rdN_length hl
          refine ⟨l, ofList l, hlen, ⟨q.blk, q.off, kd, m, rfl, hm, Le.ofRdN hl⟩, ?_, H, hH, b, H', D', ?_, hs, hq⟩
          · intro j hj
            rw [rd_ofList, Nat.zero_add, List.getElem?_eq_getElem (by omega)]
            simp [List.getD_eq_getElem?_getD, List.getElem?_eq_getElem (by omega : j < l.length)]
          · simpa [bind, StateT.bind, C.lft, hc, hg, hl] using hr
      | _ =>
        exfalso
        simp [bind, StateT.bind, C.lft, hc, Ty.get] at hr

end Faest.C
