/-
Simulation of computations on arrays of byte strings by computations on byte-addressed buffers.
-/
import Verif.Model.Flat
import Verif.Proofs.VoleRefine

namespace Faest

/-- Whenever `x` has a value, so has `y`, and the values are related. -/
def Sim {α β : Type} (R : α → β → Prop) (x : Option α) (y : Option β) : Prop :=
  ∀ a, x = some a → ∃ b, y = some b ∧ R a b

section sim
variable {α β γ δ S T : Type}

theorem Sim.bind {R : α → β → Prop} {Q : γ → δ → Prop} {x : Option α} {y : Option β}
    {f : α → Option γ} {g : β → Option δ} (h : Sim R x y) (k : ∀ a b, R a b → Sim Q (f a) (g b)) :
    Sim Q (x >>= f) (y >>= g) := by
  intro c hc
  obtain ⟨a, ha, hc⟩ := Option.bind_eq_some_iff.1 hc
  obtain ⟨b, hb, hr⟩ := h a ha
  obtain ⟨d, hd, hq⟩ := k a b hr c hc
  exact ⟨d, Option.bind_eq_some_iff.2 ⟨b, hb, hd⟩, hq⟩

theorem Sim.bind' {R : α → β → Prop} {Q : γ → δ → Prop} {x : Option α} {y : Option β}
    {f : α → Option γ} {g : β → Option δ} (h : Sim R x y) (k : ∀ a b, R a b → Sim Q (f a) (g b)) :
    Sim Q (x.bind f) (y.bind g) := h.bind k

/-- The same computation on both sides. -/
theorem Sim.same {Q : γ → δ → Prop} {x : Option α} {f : α → Option γ} {g : α → Option δ}
    (k : ∀ a, x = some a → Sim Q (f a) (g a)) : Sim Q (x >>= f) (x >>= g) := by
  intro c hc
  obtain ⟨a, ha, hc⟩ := Option.bind_eq_some_iff.1 hc
  obtain ⟨d, hd, hq⟩ := k a ha c hc
  exact ⟨d, Option.bind_eq_some_iff.2 ⟨a, ha, hd⟩, hq⟩

/-- A computation on the left only. -/
theorem Sim.left {Q : γ → δ → Prop} {x : Option α} {f : α → Option γ} {y : Option δ}
    (k : ∀ a, x = some a → Sim Q (f a) y) : Sim Q (x >>= f) y := by
  intro c hc
  obtain ⟨a, ha, hc⟩ := Option.bind_eq_some_iff.1 hc
  exact k a ha c hc

/-- A computation on the right only. -/
theorem Sim.right {Q : γ → δ → Prop} {x : Option γ} {y : Option β} {b : β} {g : β → Option δ}
    (hb : y = some b) (k : Sim Q x (g b)) : Sim Q x (y >>= g) := by
  intro c hc
  obtain ⟨d, hd, hq⟩ := k c hc
  exact ⟨d, Option.bind_eq_some_iff.2 ⟨b, hb, hd⟩, hq⟩

theorem Sim.pure {Q : γ → δ → Prop} {a : γ} {b : δ} (h : Q a b) : Sim Q (pure a) (pure b) := by
  rintro c hc
  obtain rfl := Option.some.inj hc
  exact ⟨b, rfl, h⟩

theorem Sim.some {Q : γ → δ → Prop} {a : γ} {b : δ} (h : Q a b) : Sim Q (some a) (some b) := Sim.pure h

theorem Sim.none {Q : γ → δ → Prop} {y : Option δ} : Sim Q none y := fun _ h => absurd h (by simp)

theorem Sim.rfl {x : Option α} : Sim (fun a b => b = a) x x := fun a h => ⟨a, h, Eq.refl a⟩

theorem Sim.mono {Q Q' : γ → δ → Prop} {x : Option γ} {y : Option δ} (h : Sim Q x y)
    (hm : ∀ a b, x = Option.some a → Q a b → Q' a b) : Sim Q' x y := by
  intro a ha
  obtain ⟨b, hb, hq⟩ := h a ha
  exact ⟨b, hb, hm a b ha hq⟩

theorem Sim.forN {n : Nat} {s : S} {t : T} {f : Nat → S → Option S} {g : Nat → T → Option T}
    (I : Nat → S → T → Prop) (h0 : I 0 s t)
    (hf : ∀ i, i < n → ∀ s t, I i s t → Sim (I (i + 1)) (f i s) (g i t)) :
    Sim (I n) (forN n s f) (forN n t g) := by
  induction n with
  | zero => exact Sim.some h0
  | succ n ih => exact (ih fun i hi => hf i (by omega)).bind' (hf n (by omega))

theorem Sim.forR {lo hi : Nat} {s : S} {t : T} {f : Nat → S → Option S} {g : Nat → T → Option T}
    (I : S → T → Prop) (h0 : I s t)
    (hf : ∀ i, lo ≤ i → i < hi → ∀ s t, I s t → Sim I (f i s) (g i t)) :
    Sim I (forR lo hi s f) (forR lo hi t g) :=
  Sim.forN (fun _ => I) h0 fun i hi s t h => hf (lo + i) (by omega) (by omega) s t h

theorem Sim.forStep {hi step : Nat} {f : Nat → S → Option S} {g : Nat → T → Option T} (I : S → T → Prop)
    (hf : ∀ i, ∀ s t, I s t → Sim I (f i s) (g i t)) :
    ∀ (fuel j : Nat) (s : S) (t : T), I s t →
      Sim (fun a b => b.1 = a.1 ∧ I a.2 b.2) (forStep hi step fuel j s f) (forStep hi step fuel j t g)
  | 0, _, _, _, _ => Sim.none
  | fuel + 1, j, s, t, h => by
    unfold Faest.forStep
    split
    · exact (hf j s t h).bind' fun a b hab => Sim.forStep I hf fuel (j + step) a b hab
    · exact Sim.some ⟨Eq.refl _, h⟩

theorem Sim.forUntil4 {N : Nat} {f : Nat → S → Option S} {g : Nat → T → Option T} (I : S → T → Prop)
    (hf : ∀ i, ∀ s t, I s t → Sim I (f i s) (g i t)) :
    ∀ (fuel j : Nat) (s : S) (t : T), I s t →
      Sim (fun a b => b.1 = a.1 ∧ I a.2 b.2) (forUntil4 N fuel j s f) (forUntil4 N fuel j t g)
  | 0, _, _, _, _ => Sim.none
  | fuel + 1, j, s, t, h => by
    unfold Faest.forUntil4
    split
    · exact (hf j s t h).bind' fun a b hab => Sim.forUntil4 I hf fuel (j + 1) a b hab
    · exact Sim.some ⟨Eq.refl _, h⟩

theorem Sim.tabM {n : Nat} {f g : Nat → Option α} (h : ∀ i, i < n → Sim (fun a b => b = a) (f i) (g i)) :
    Sim (fun a b => b = a) (tabM n f) (tabM n g) := by
  unfold Faest.tabM
  have : ∀ l : List Nat, (∀ i ∈ l, i < n) → Sim (fun a b => b = a) (l.mapM f) (l.mapM g) := by
    intro l
    induction l with
    | nil => intro _; exact Sim.rfl
    | cons a l ih =>
      intro hl
      rw [List.mapM_cons, List.mapM_cons]
      refine (h a (hl a (by simp))).bind ?_
      rintro x _ rfl
      refine (ih fun i hi => hl i (by simp [hi])).bind ?_
      rintro y _ rfl
      exact Sim.rfl
  exact this _ fun i hi => List.mem_range.1 hi

theorem Sim.fill {n : Nat} {f g : Nat → Option α} (h : ∀ i, i < n → Sim (fun a b => b = a) (f i) (g i)) :
    Sim (fun a b => b = a) (fill n f) (fill n g) := by
  intro a ha
  unfold Faest.fill at ha ⊢
  obtain ⟨l, hl, rfl⟩ := Option.map_eq_some_iff.1 ha
  obtain ⟨b, hb, rfl⟩ := Sim.tabM h l hl
  exact ⟨_, by rw [hb]; rfl, Eq.refl _⟩

end sim

/-! ### Slices -/

theorem rdN_le {α : Type} {m : Mem α} {off n : Nat} {l : List α} (h : rdN m off n = some l) :
    off + n ≤ m.length := by
  unfold rdN at h
  split at h
  · assumption
  · simp at h

theorem mapM_id_ofList {α : Type} : ∀ {c : List (Option α)} {l : List α}, c.mapM id = some l → c = ofList l
  | [], l, h => by
    obtain rfl : [] = l := by simpa using h
    rfl
  | a :: c, l, h => by
    rw [List.mapM_cons] at h
    simp only [bind, Option.bind_eq_some_iff, pure, Option.some.injEq, id] at h
    obtain ⟨x, rfl, t, ht, rfl⟩ := h
    rw [mapM_id_ofList ht]
    rfl

theorem rdN_length {α : Type} {m : Mem α} {off n : Nat} {l : List α} (h : rdN m off n = some l) :
    l.length = n := by
  have hle := rdN_le h
  unfold rdN at h
  rw [if_pos hle] at h
  have := congrArg List.length (mapM_id_ofList h)
  rw [List.length_take, List.length_drop, ofList_length] at this
  omega

theorem rd_of_rdN {α : Type} {m : Mem α} {off n : Nat} {l : List α} (h : rdN m off n = some l) {t : Nat}
    (ht : t < n) : rd m (off + t) = l[t]? := by
  have hle := rdN_le h
  unfold rdN at h
  rw [if_pos hle] at h
  have := congrArg (fun c : List (Option α) => c[t]?.join) (mapM_id_ofList h)
  simp only [List.getElem?_take, if_pos ht, List.getElem?_drop] at this
  unfold rd
  rw [this]
  exact rd_ofList l t

theorem rdN_of_rd {α : Type} {m : Mem α} {off : Nat} {l : List α} (hle : off + l.length ≤ m.length)
    (h : ∀ t, t < l.length → rd m (off + t) = l[t]?) : rdN m off l.length = some l := by
  cases l with
  | nil =>
    unfold rdN
    rw [if_pos hle]
    simp
  | cons a l =>
    have e := rdN_eq (m := m) (off := off) (n := (a :: l).length) (g := fun t => (a :: l)[t]?.getD a)
      (fun t ht => by
        rw [h t ht]
        simp only [List.getElem?_eq_getElem ht, Option.getD_some]) hle
    rw [e]
    refine congrArg some ?_
    refine (list_eq_tabP _ _ _ rfl ?_).symm
    intro t ht
    simp only [List.getElem?_eq_getElem ht, Option.getD_some]

theorem wrN_some {α : Type} {m : Mem α} {off : Nat} {l : List α} (h : off + l.length ≤ m.length) :
    ∃ m', wrN m off l = some m' ∧ m'.length = m.length ∧
      ∀ j, rd m' j = if off ≤ j ∧ j < off + l.length then l[j - off]? else rd m j :=
  Ok.wrN h fun _ hl hr => ⟨hl, hr⟩

theorem wrN_inv {α : Type} {m m' : Mem α} {off : Nat} {l : List α} (h : wrN m off l = some m') :
    off + l.length ≤ m.length ∧ m'.length = m.length ∧
      ∀ j, rd m' j = if off ≤ j ∧ j < off + l.length then l[j - off]? else rd m j := by
  have hle : off + l.length ≤ m.length := by
    unfold wrN at h
    split at h
    · assumption
    · simp at h
  obtain ⟨m1, h1, h2⟩ := wrN_some hle
  obtain rfl := Option.some.inj (h.symm.trans h1)
  exact ⟨hle, h2⟩

theorem wr_inv {α : Type} {m m' : Mem α} {i : Nat} {x : α} (h : wr m i x = some m') :
    i < m.length ∧ m'.length = m.length ∧ ∀ j, rd m' j = if j = i then some x else rd m j := by
  unfold wr at h
  split at h
  · rename_i hi
    obtain rfl := Option.some.inj h
    refine ⟨hi, List.length_set, fun j => rd_set hi j⟩
  · simp at h

theorem ptr_inv {α : Type} {m m' : Mem α} {off : Nat} (h : ptr m off = some m') :
    off ≤ m.length ∧ m' = m.drop off := by
  unfold ptr at h
  split at h
  · exact ⟨by assumption, (Option.some.inj h).symm⟩
  · simp at h

/-! ### Arrays of byte strings as byte arrays -/

/-- `f` is the byte array with the elements of `m`, `L` bytes each, one after the other. -/
structure Fl (L : Nat) (m : Mem (List Byte)) (f : Mem Byte) : Prop where
  len : f.length = m.length * L
  dat : ∀ i xs, rd m i = some xs → xs.length = L ∧ ∀ t, t < L → rd f (i * L + t) = xs[t]?

theorem block_le {i n L : Nat} (h : i < n) : i * L + L ≤ n * L := by
  have := Nat.mul_le_mul_right L h
  rw [Nat.succ_mul] at this
  exact this

theorem Fl.le {L : Nat} {m : Mem (List Byte)} {f : Mem Byte} (h : Fl L m f) {i : Nat} (hi : i < m.length) :
    i * L + L ≤ f.length := by
  rw [h.len]; exact block_le hi

theorem Fl.rdN {L : Nat} {m : Mem (List Byte)} {f : Mem Byte} (h : Fl L m f) {i : Nat} {xs : List Byte}
    (hx : rd m i = some xs) : Faest.rdN f (i * L) L = some xs := by
  obtain ⟨hl, hd⟩ := h.dat i xs hx
  have hle := h.le (rd_lt hx)
  subst hl
  exact rdN_of_rd hle hd

theorem Fl.rd {L : Nat} {m : Mem (List Byte)} {f : Mem Byte} (h : Fl L m f) (i : Nat) :
    Sim (fun xs ys => ys = xs ∧ xs.length = L) (rd m i) (Faest.rdN f (i * L) L) :=
  fun xs hx => ⟨xs, h.rdN hx, rfl, (h.dat i xs hx).1⟩

theorem Fl.wr {L : Nat} {m m' : Mem (List Byte)} {f : Mem Byte} (h : Fl L m f) {i : Nat} {xs : List Byte}
    (hl : xs.length = L) (hw : wr m i xs = some m') : ∃ f', wrN f (i * L) xs = some f' ∧ Fl L m' f' := by
  obtain ⟨hi, hlen, hr⟩ := wr_inv hw
  have hle := h.le hi
  obtain ⟨f', hf', hfl, hfr⟩ := wrN_some (m := f) (off := i * L) (l := xs) (by omega)
  refine ⟨f', hf', ?_, ?_⟩
  · rw [hfl, h.len, hlen]
  · intro k ys hk
    rw [hr] at hk
    by_cases hc : k = i
    · rw [if_pos hc] at hk
      obtain rfl := Option.some.inj hk
      refine ⟨hl, fun t ht => ?_⟩
      rw [hfr, hc, if_pos (by omega), Nat.add_sub_cancel_left]
    · rw [if_neg hc] at hk
      obtain ⟨h1, h2⟩ := h.dat k ys hk
      refine ⟨h1, fun t ht => ?_⟩
      rw [hfr, if_neg ?_, h2 t ht]
      rcases Nat.lt_or_gt_of_ne hc with hlt | hgt
      · have := block_le (L := L) hlt
        omega
      · have := block_le (L := L) hgt
        omega

theorem Fl.wrSim {L : Nat} {m : Mem (List Byte)} {f : Mem Byte} (h : Fl L m f) {i : Nat} {xs : List Byte}
    (hl : xs.length = L) : Sim (Fl L) (Faest.wr m i xs) (wrN f (i * L) xs) := fun _ hw => h.wr hl hw

/-- Writing two neighbouring elements at once. -/
theorem wrN_append {α : Type} {f f1 f2 : Mem α} {off : Nat} {xs ys : List α} (h1 : wrN f off xs = some f1)
    (h2 : wrN f1 (off + xs.length) ys = some f2) : wrN f off (xs ++ ys) = some f2 := by
  obtain ⟨a1, b1, -⟩ := wrN_inv h1
  obtain ⟨a2, b2, -⟩ := wrN_inv h2
  unfold wrN at h1 h2 ⊢
  rw [if_pos a1] at h1
  rw [if_pos a2] at h2
  rw [if_pos (by rw [List.length_append]; omega), ← h2]
  obtain rfl := Option.some.inj h1
  refine congrArg some ?_
  have e1 : (List.take off f).length = off := by rw [List.length_take]; omega
  rw [List.take_left' (by rw [List.length_append, List.length_map, e1])]
  rw [← List.drop_drop (i := ys.length), List.drop_left' (by rw [List.length_append, List.length_map, e1]),
    List.drop_drop, List.map_append, List.length_append]
  simp only [List.append_assoc, Nat.add_assoc]

/-- A larger buffer with the same initialised cells. -/
structure Le {α : Type} (a b : Mem α) : Prop where
  len : a.length ≤ b.length
  dat : ∀ i x, rd a i = some x → rd b i = some x

theorem Le.rfl {α : Type} {a : Mem α} : Le a a := ⟨Nat.le_refl _, fun _ _ h => h⟩

theorem Le.rdN {α : Type} {a b : Mem α} (h : Le a b) {off n : Nat} {l : List α}
    (hl : rdN a off n = some l) : Faest.rdN b off n = some l := by
  have h1 := rdN_le hl
  have h2 := rdN_length hl
  have h3 := h.len
  subst h2
  refine rdN_of_rd (by omega) fun t ht => ?_
  have h4 := rd_of_rdN hl ht
  rw [List.getElem?_eq_getElem ht] at h4 ⊢
  exact h.dat _ _ h4

theorem Le.rdNSim {α : Type} {a b : Mem α} (h : Le a b) {off n : Nat} :
    Sim (fun x y => y = x) (Faest.rdN a off n) (Faest.rdN b off n) := fun l hl => ⟨l, h.rdN hl, Eq.refl l⟩

theorem Le.rdSim {α : Type} {a b : Mem α} (h : Le a b) {i : Nat} :
    Sim (fun x y => y = x) (Faest.rd a i) (Faest.rd b i) := fun l hl => ⟨l, h.dat i l hl, Eq.refl l⟩

theorem Le.drop {α : Type} {a b : Mem α} (h : Le a b) {k : Nat} : Le (a.drop k) (b.drop k) := by
  refine ⟨?_, fun i x hx => ?_⟩
  · have := h.len
    rw [List.length_drop, List.length_drop]; omega
  · rw [rd_drop] at hx ⊢
    exact h.dat _ _ hx

theorem Le.ptrSim {α : Type} {a b : Mem α} (h : Le a b) {k : Nat} : Sim Le (ptr a k) (ptr b k) := by
  intro p hp
  obtain ⟨hk, rfl⟩ := ptr_inv hp
  have := h.len
  exact ⟨_, ptr_eq (by omega), h.drop⟩

theorem Fl.slice {L : Nat} {m : Mem (List Byte)} {f : Mem Byte} (h : Fl L m f) {i : Nat} {xs : List Byte}
    (hx : Faest.rd m i = some xs) : Le (ofList xs) (f.drop (i * L)) := by
  obtain ⟨hl, hd⟩ := h.dat i xs hx
  have hle := h.le (rd_lt hx)
  refine ⟨by rw [ofList_length, List.length_drop]; omega, fun t y hy => ?_⟩
  rw [rd_ofList] at hy
  rw [rd_drop, hd t ?_, hy]
  have := (List.getElem?_eq_some_iff.1 hy).1
  omega

theorem Fl.ptr {L : Nat} {m : Mem (List Byte)} {f : Mem Byte} (h : Fl L m f) {i : Nat} :
    Sim (fun xs p => xs.length = L ∧ Le (ofList xs) p) (Faest.rd m i) (Faest.ptr f (i * L)) := by
  intro xs hx
  have hle := h.le (rd_lt hx)
  exact ⟨_, ptr_eq (by omega), (h.dat i xs hx).1, h.slice hx⟩

theorem Le.ofRdN {m : Mem Byte} {off n : Nat} {l : List Byte} (h : Faest.rdN m off n = some l) :
    Le (ofList l) (m.drop off) := by
  have h1 := rdN_le h
  have h2 := rdN_length h
  refine ⟨by rw [ofList_length, List.length_drop]; omega, fun t y hy => ?_⟩
  rw [rd_ofList] at hy
  have h3 := (List.getElem?_eq_some_iff.1 hy).1
  rw [rd_drop, rd_of_rdN h (by omega), hy]

theorem Le.ofRdN0 {m : Mem Byte} {n : Nat} {l : List Byte} (h : Faest.rdN m 0 n = some l) : Le (ofList l) m := by
  have := Le.ofRdN h
  rwa [List.drop_zero] at this

theorem le_ofWrN {m m' : Mem Byte} {l : List Byte} (h : wrN m 0 l = some m') : Le (ofList l) m' := by
  obtain ⟨h1, h2, h3⟩ := wrN_inv h
  refine ⟨by rw [ofList_length]; omega, fun t y hy => ?_⟩
  rw [rd_ofList] at hy
  have := (List.getElem?_eq_some_iff.1 hy).1
  rw [h3, if_pos (by omega), Nat.sub_zero, hy]

theorem fl_malloc (L n : Nat) : Fl L (malloc n) (malloc (n * L)) :=
  ⟨by rw [malloc_length, malloc_length], fun i xs h => by rw [rd_malloc] at h; exact absurd h (by simp)⟩

theorem fl_calloc (L n : Nat) : Fl L (calloc n (List.replicate L 0)) (calloc (n * L) 0) := by
  refine ⟨by rw [calloc_length, calloc_length], fun i xs h => ?_⟩
  have hi := rd_lt h
  rw [calloc_length] at hi
  rw [rd_calloc hi] at h
  obtain rfl := Option.some.inj h
  refine ⟨List.length_replicate, fun t ht => ?_⟩
  have := block_le (L := L) hi
  rw [rd_calloc (by omega), List.getElem?_replicate, if_pos ht]

/-! ### Functions reading part of a larger buffer -/

theorem xorArr_sim {a b a' b' : Mem Byte} (ha : Le a a') (hb : Le b b') {n : Nat} :
    Sim (fun x y => y = x) (xorArr a b n) (xorArr a' b' n) := by
  refine Sim.tabM fun i _ => ?_
  refine ha.rdSim.bind ?_
  rintro x _ rfl
  refine hb.rdSim.bind ?_
  rintro y _ rfl
  exact Sim.rfl

theorem maskedXorArr_sim {a b a' b' : Mem Byte} (ha : Le a a') (hb : Le b b') {c : Byte} {n : Nat} :
    Sim (fun x y => y = x) (maskedXorArr a b c n) (maskedXorArr a' b' c n) := by
  refine Sim.tabM fun i _ => ?_
  refine ha.rdSim.bind ?_
  rintro x _ rfl
  refine hb.rdSim.bind ?_
  rintro y _ rfl
  exact Sim.rfl

theorem tabM_length {α : Type} {n : Nat} {f : Nat → Option α} {l : List α} (h : tabM n f = some l) : l.length = n :=
  (tabM_some h).1

theorem ptrGetBit_sim {a a' : Mem Byte} (ha : Le a a') {i : Nat} :
    Sim (fun x y => y = x) (ptrGetBit a i) (ptrGetBit a' i) := by
  refine ha.rdSim.bind ?_
  rintro x _ rfl
  exact Sim.rfl

theorem bfLoad_sim {n : Nat} {a a' : Mem Byte} (ha : Le a a') {off : Nat} :
    Sim (fun x y => y = x) (bfLoad n a off) (bfLoad n a' off) := by
  refine ha.rdNSim.bind ?_
  rintro x _ rfl
  exact Sim.rfl

/-- The PRG reads only the first bytes of the buffer with the key. -/
theorem prg_sim {lam n : Nat} {key iv : List Byte} {p : Mem Byte} (hlam : LamOk lam) (hk : key.length = lam / 8)
    (hv : iv.length = 16) (hp : Le (ofList key) p) :
    Sim (fun x y => y = x ∧ x.length = n) (prg (ofList key) (ofList iv) lam n) (prg p (ofList iv) lam n) := by
  intro out ho
  have hh : Has (ofList key) 0 (lam / 8) (Spec.byteFn key) := hk ▸ has_byteFn key
  have e := prg_ok (outlen := n) hlam hh (hv ▸ has_byteFn iv)
  have e' := prg_ok (outlen := n) (key := p) hlam (fun i hi => hp.dat _ _ (hh i hi)) (hv ▸ has_byteFn iv)
  rw [e] at ho
  obtain rfl := Option.some.inj ho
  exact ⟨_, e', rfl, tabP_length _ _⟩

end Faest
