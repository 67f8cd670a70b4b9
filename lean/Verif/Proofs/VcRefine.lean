/-
The vector commitment code computes the specification.
-/
import Verif.Model.Vc
import Verif.Spec.Ggm
import Verif.Proofs.Prg

namespace Faest
open Spec (byteFn prgL child treeNode leafSd leafCom comDigest anc sib recNode)

theorem has_byteFn (l : List Byte) : Has (ofList l) 0 l.length (byteFn l) :=
  has_ofList l _ fun i hi => by
    unfold byteFn
    rw [List.getElem?_eq_getElem hi]; rfl

theorem byteFn_tabP {n : Nat} {g : Nat → Byte} {i : Nat} (h : i < n) : byteFn (tabP n g) i = g i := by
  unfold byteFn
  rw [tabP_getElem?, if_pos h]; rfl

theorem tabP_byteFn (l : List Byte) : tabP l.length (byteFn l) = l := by
  symm
  refine list_eq_tabP l _ _ rfl fun i hi => ?_
  unfold byteFn
  rw [List.getElem?_eq_getElem hi]; rfl

/-- Security levels of the scheme. -/
def LamOk (lam : Nat) : Prop := lam = 128 ∨ lam = 192 ∨ lam = 256

theorem prgL_ok {lam n : Nat} {key iv : List Byte} (hlam : LamOk lam) (hk : key.length = lam / 8)
    (hv : iv.length = 16) : prg (ofList key) (ofList iv) lam n = some (prgL lam key iv n) :=
  prg_ok hlam (hk ▸ has_byteFn key) (hv ▸ has_byteFn iv)

@[simp] theorem prgL_length (lam n : Nat) (key iv : List Byte) : (prgL lam key iv n).length = n := by
  simp [prgL]

theorem child_length (lam : Nat) (iv key : List Byte) (b : Nat) :
    (child lam iv key b).length = lam / 8 := by
  unfold child
  split
  · rw [List.length_take, prgL_length]; omega
  · rw [List.length_drop, prgL_length]; omega

theorem treeNode_length {lam : Nat} {iv root : List Byte} (hr : root.length = lam / 8) (l j : Nat) :
    (treeNode lam iv root l j).length = lam / 8 := by
  cases l with
  | zero => exact hr
  | succ l => exact child_length ..

/-- Nodes by position in the array. -/
def flatNode (lam : Nat) (iv root : List Byte) : Nat → List Byte
  | 0 => root
  | k + 1 => child lam iv (flatNode lam iv root (k / 2)) (k % 2)

theorem flatNode_level (lam : Nat) (iv root : List Byte) : ∀ (l j : Nat), j < 2 ^ l →
    flatNode lam iv root (2 ^ l - 1 + j) = treeNode lam iv root l j := by
  intro l
  induction l with
  | zero =>
    intro j hj
    obtain rfl : j = 0 := by simpa using hj
    rw [show 2 ^ 0 - 1 + 0 = 0 from rfl, flatNode, treeNode]
  | succ l ih =>
    intro j hj
    have hp : 0 < 2 ^ l := Nat.two_pow_pos l
    rw [Nat.pow_succ] at hj ⊢
    rw [show 2 ^ l * 2 - 1 + j = (2 ^ l * 2 - 2 + j) + 1 by omega, flatNode, treeNode,
      show (2 ^ l * 2 - 2 + j) / 2 = 2 ^ l - 1 + j / 2 by omega,
      show (2 ^ l * 2 - 2 + j) % 2 = j % 2 by omega, ih (j / 2) (by omega)]

theorem flatNode_length {lam : Nat} {iv root : List Byte} (hr : root.length = lam / 8) (k : Nat) :
    (flatNode lam iv root k).length = lam / 8 := by
  cases k with
  | zero => rw [flatNode]; exact hr
  | succ l => rw [flatNode]; exact child_length ..

theorem prg_take_child {lam : Nat} {iv key : List Byte} :
    (prgL lam key iv (lam / 8 * 2)).take (lam / 8) = child lam iv key 0 := by
  unfold child; rw [if_pos rfl]

theorem prg_drop_child {lam : Nat} {iv key : List Byte} :
    (prgL lam key iv (lam / 8 * 2)).drop (lam / 8) = child lam iv key 1 := by
  unfold child; rw [if_neg (by decide)]

theorem generateSeeds_ok {lam d : Nat} {root iv : List Byte} (hlam : LamOk lam)
    (hr : root.length = lam / 8) (hv : iv.length = 16) (h1 : 1 ≤ d) (h2 : d ≤ 29) :
    generateSeeds root iv lam d = some (full (2 ^ (d + 1) - 1) (flatNode lam iv root)) := by
  have hp : 2 ≤ 2 ^ d := by
    calc 2 = 2 ^ 1 := rfl
      _ ≤ 2 ^ d := Nat.pow_le_pow_right (by decide) h1
  have hp2 : 2 ^ (d + 1) = 2 * 2 ^ d := by rw [Nat.pow_succ]; omega
  apply Ok.eq
  unfold generateSeeds
  refine Ok.step (a := 2 ^ (d + 1) - 1) (by unfold getBinaryTreeNodeCount; rw [if_pos (by omega)]) ?_
  refine Ok.bind (Ok.wr (Q := fun m => m.length = 2 ^ (d + 1) - 1 ∧ rd m 0 = some root) ?_ ?_) ?_
  · rw [calloc_length]; omega
  · intro m' hl hm
    exact ⟨by rw [hl, calloc_length], by rw [hm, if_pos rfl]⟩
  rintro m ⟨hl, hm⟩
  unfold expandSeeds
  refine Ok.step (a := 2 ^ d - 2) ?_ ?_
  · unfold getParent isLeftChild
    rw [hl, if_neg (by omega)]
    have : (2 ^ (d + 1) - 1 - 1) % 2 = 0 := by omega
    simp only [this]
    simp
    omega
  rw [hl, if_pos (by omega)]
  refine (Ok.forN (fun i m => m.length = 2 ^ (d + 1) - 1 ∧
    ∀ k, k < 2 * i + 1 → rd m k = some (flatNode lam iv root k)) ?_ ?_).mono ?_
  · refine ⟨hl, ?_⟩
    intro k hk
    obtain rfl : k = 0 := by omega
    rw [hm, flatNode]
  · rintro i hi m ⟨hl, hm⟩
    refine Ok.step (hm i (by omega)) ?_
    refine Ok.step (prgL_ok hlam (flatNode_length hr i) hv) ?_
    refine Ok.bind (Ok.wr (Q := fun m' => m'.length = 2 ^ (d + 1) - 1 ∧ ∀ k, rd m' k =
      if k = 2 * i + 1 then some (flatNode lam iv root (2 * i + 1)) else rd m k) (by omega) ?_) ?_
    · intro m' hl' hm'
      refine ⟨by omega, ?_⟩
      intro k
      rw [hm', prg_take_child, flatNode, show 2 * i / 2 = i by omega, show 2 * i % 2 = 0 by omega]
    rintro m1 ⟨hl1, hm1⟩
    refine Ok.wr (by omega) ?_
    intro m2 hl2 hm2
    refine ⟨by omega, ?_⟩
    intro k hk
    rw [hm2, hm1, prg_drop_child]
    by_cases hc : k = 2 * i + 2
    · rw [if_pos hc, hc, flatNode, show (2 * i + 1) / 2 = i by omega, show (2 * i + 1) % 2 = 1 by omega]
    · rw [if_neg hc]
      by_cases hc2 : k = 2 * i + 1
      · rw [if_pos hc2, hc2]
      · rw [if_neg hc2, hm k (by omega)]
  · rintro m ⟨hl, hm⟩
    refine mem_ext_of_rd hl fun k hk => ?_
    rw [Nat.zero_add]
    exact hm k (by omega)

/-! ### Leaf hashing -/

/-- The cells of `T` hold the leaf values of the nodes `nd`. -/
def LeafDone (X : XOF) (lam : Nat) (iv : List Byte) (nd : Nat → List Byte) (T : Nat → Prop)
    (s : Mem (List Byte) × Mem (List Byte)) : Prop :=
  ∀ j, T j → rd s.1 j = some (leafSd X lam iv (nd j)) ∧ rd s.2 j = some (leafCom X lam iv (nd j))

theorem leafBody1_ok {X : XOF} {lam M : Nat} {iv : List Byte} {tree : Mem (List Byte)}
    {idx : Nat → Option Nat} {nd : Nat → List Byte} {T : Nat → Prop} {j : Nat}
    {s : Mem (List Byte) × Mem (List Byte)} (hlen : s.1.length = M ∧ s.2.length = M) (hj : j < M)
    (hnd : ∃ p, idx j = some p ∧ rd tree p = some (nd j)) (hs : LeafDone X lam iv nd T s) :
    Ok (leafBody1 X lam iv tree idx j s) (fun s' => (s'.1.length = M ∧ s'.2.length = M) ∧
      LeafDone X lam iv nd (fun k => T k ∨ k = j) s') := by
  obtain ⟨p, h1, h2⟩ := hnd
  unfold leafBody1
  refine Ok.step h1 (Ok.step h2 ?_)
  unfold leafHash1
  refine Ok.bind (Ok.wr (Q := fun m => m.length = M ∧ ∀ k, rd m k = if k = j then
    some (leafSd X lam iv (nd j)) else rd s.1 k) (by omega) ?_) ?_
  · intro m hl hm
    exact ⟨by omega, hm⟩
  rintro m1 ⟨hl1, hm1⟩
  refine Ok.bind (Ok.wr (Q := fun m => m.length = M ∧ ∀ k, rd m k = if k = j then
    some (leafCom X lam iv (nd j)) else rd s.2 k) (by omega) ?_) ?_
  · intro m hl hm
    exact ⟨by omega, hm⟩
  rintro m2 ⟨hl2, hm2⟩
  refine Ok.pure ⟨⟨hl1, hl2⟩, ?_⟩
  intro k hk
  simp only [hm1, hm2]
  by_cases hc : k = j
  · subst hc; simp
  · rw [if_neg hc, if_neg hc]
    exact hs k (hk.resolve_right hc)

theorem leafBody4_ok {X : XOF} {lam M : Nat} {iv : List Byte} {tree : Mem (List Byte)}
    {idx : Nat → Option Nat} {nd : Nat → List Byte} {T : Nat → Prop} {j : Nat}
    {s : Mem (List Byte) × Mem (List Byte)} (hlen : s.1.length = M ∧ s.2.length = M) (hj : j + 3 < M)
    (hnd : ∀ c, c < 4 → ∃ p, idx (j + c) = some p ∧ rd tree p = some (nd (j + c)))
    (hs : LeafDone X lam iv nd T s) :
    Ok (leafBody4 X lam iv tree idx j s) (fun s' => (s'.1.length = M ∧ s'.2.length = M) ∧
      LeafDone X lam iv nd (fun k => T k ∨ (j ≤ k ∧ k < j + 4)) s') := by
  obtain ⟨p0, h0, g0⟩ := hnd 0 (by decide)
  obtain ⟨p1, h1, g1⟩ := hnd 1 (by decide)
  obtain ⟨p2, h2, g2⟩ := hnd 2 (by decide)
  obtain ⟨p3, h3, g3⟩ := hnd 3 (by decide)
  rw [Nat.add_zero] at h0 g0
  unfold leafBody4
  refine Ok.step h0 (Ok.step g0 (Ok.step h1 (Ok.step g1 (Ok.step h2 (Ok.step g2 (Ok.step h3
    (Ok.step g3 ?_)))))))
  unfold leafHash4
  have wr4 : ∀ (m : Mem (List Byte)) (f : Nat → List Byte) (x0 x1 x2 x3 : List Byte)
      (R : Mem (List Byte) → Option (Mem (List Byte) × Mem (List Byte)))
      (Q : Mem (List Byte) × Mem (List Byte) → Prop), m.length = M →
      x0 = f j → x1 = f (j + 1) → x2 = f (j + 2) → x3 = f (j + 3) →
      (∀ m', m'.length = M → (∀ k, rd m' k = if j ≤ k ∧ k < j + 4 then some (f k) else rd m k) →
        Ok (R m') Q) →
      Ok (do
        let m ← wr m j x0
        let m ← wr m (j + 1) x1
        let m ← wr m (j + 2) x2
        let m ← wr m (j + 3) x3
        R m) Q := by
    intro m f x0 x1 x2 x3 R Q hl e0 e1 e2 e3 hR
    subst e0 e1 e2 e3
    refine Ok.bind (Ok.wr (Q := fun m' => m'.length = M ∧ ∀ k, rd m' k = if k = j then
      some (f j) else rd m k) (by omega) fun m' hl' hm' => ⟨by omega, hm'⟩) ?_
    rintro m1 ⟨hl1, hm1⟩
    refine Ok.bind (Ok.wr (Q := fun m' => m'.length = M ∧ ∀ k, rd m' k = if k = j + 1 then
      some (f (j + 1)) else rd m1 k) (by omega) fun m' hl' hm' => ⟨by omega, hm'⟩) ?_
    rintro m2 ⟨hl2, hm2⟩
    refine Ok.bind (Ok.wr (Q := fun m' => m'.length = M ∧ ∀ k, rd m' k = if k = j + 2 then
      some (f (j + 2)) else rd m2 k) (by omega) fun m' hl' hm' => ⟨by omega, hm'⟩) ?_
    rintro m3 ⟨hl3, hm3⟩
    refine Ok.bind (Ok.wr (Q := fun m' => m'.length = M ∧ ∀ k, rd m' k = if k = j + 3 then
      some (f (j + 3)) else rd m3 k) (by omega) fun m' hl' hm' => ⟨by omega, hm'⟩) ?_
    rintro m4 ⟨hl4, hm4⟩
    refine hR m4 hl4 fun k => ?_
    rw [hm4, hm3, hm2, hm1]
    by_cases c3 : k = j + 3
    · rw [if_pos c3, if_pos (by omega), c3]
    rw [if_neg c3]
    by_cases c2 : k = j + 2
    · rw [if_pos c2, if_pos (by omega), c2]
    rw [if_neg c2]
    by_cases c1 : k = j + 1
    · rw [if_pos c1, if_pos (by omega), c1]
    rw [if_neg c1]
    by_cases c0 : k = j
    · rw [if_pos c0, if_pos (by omega), c0]
    rw [if_neg c0, if_neg (by omega)]
  refine wr4 s.1 (fun k => leafSd X lam iv (nd k)) _ _ _ _ _ _ hlen.1 rfl rfl rfl rfl ?_
  intro sd hl1 hm1
  refine wr4 s.2 (fun k => leafCom X lam iv (nd k)) _ _ _ _ _ _ hlen.2 rfl rfl rfl rfl ?_
  intro com hl2 hm2
  refine Ok.pure ⟨⟨hl1, hl2⟩, ?_⟩
  intro k hk
  simp only [hm1, hm2]
  by_cases hc : j ≤ k ∧ k < j + 4
  · rw [if_pos hc, if_pos hc]; exact ⟨rfl, rfl⟩
  · rw [if_neg hc, if_neg hc]
    exact hs k (hk.resolve_right hc)

theorem LeafDone.mono {X : XOF} {lam : Nat} {iv : List Byte} {nd : Nat → List Byte} {T T' : Nat → Prop}
    {s : Mem (List Byte) × Mem (List Byte)} (h : LeafDone X lam iv nd T s) (hT : ∀ k, T' k → T k) :
    LeafDone X lam iv nd T' s := fun j hj => h j (hT j hj)

/-- The four-way loop. -/
theorem leafLoop4_ok {X : XOF} {lam M hi : Nat} {iv : List Byte} {tree : Mem (List Byte)}
    {idx : Nat → Option Nat} {nd : Nat → List Byte} {E : Nat → Prop} {fuel j0 : Nat}
    {s : Mem (List Byte) × Mem (List Byte)} (hlen : s.1.length = M ∧ s.2.length = M)
    (h4 : hi % 4 = 0) (hM : hi ≤ M) (hj0 : j0 % 4 = 0 ∨ hi ≤ j0) (hfuel : hi - j0 < fuel)
    (hnd : ∀ j, j0 ≤ j → j < hi → ∃ p, idx j = some p ∧ rd tree p = some (nd j))
    (hs : LeafDone X lam iv nd (fun k => k < j0 ∧ ¬ E k) s) :
    Ok (forStep hi 4 fuel j0 s (leafBody4 X lam iv tree idx)) (fun r =>
      (r.1 = if j0 ≤ hi then hi else j0) ∧ (r.2.1.length = M ∧ r.2.2.length = M) ∧
      LeafDone X lam iv nd (fun k => k < r.1 ∧ ¬ E k) r.2) := by
  by_cases hc : hi ≤ j0
  · obtain ⟨f, rfl⟩ : ∃ f, fuel = f + 1 := ⟨fuel - 1, by omega⟩
    unfold forStep
    rw [if_neg (by omega)]
    refine Ok.some ⟨?_, hlen, hs⟩
    by_cases h : j0 ≤ hi
    · rw [if_pos h]; omega
    · rw [if_neg h]
  · have hj4 : j0 % 4 = 0 := by omega
    refine (Ok.forStep (fun j (s : Mem (List Byte) × Mem (List Byte)) => (j % 4 = 0 ∧ j0 ≤ j ∧ j ≤ hi) ∧
      (s.1.length = M ∧ s.2.length = M) ∧ LeafDone X lam iv nd (fun k => k < j ∧ ¬ E k) s)
      (by decide) ?_ fuel j0 s hfuel ⟨⟨hj4, Nat.le_refl _, by omega⟩, hlen, hs⟩).mono ?_
    · rintro j hj s ⟨⟨h1, h2, h3⟩, h5, h6⟩
      refine (leafBody4_ok h5 (by omega) (fun c hc => hnd (j + c) (by omega) (by omega)) h6).mono ?_
      rintro s' ⟨h7, h8⟩
      refine ⟨⟨by omega, by omega, by omega⟩, h7, h8.mono ?_⟩
      rintro k ⟨hk, hE⟩
      by_cases hkj : k < j
      · exact .inl ⟨hkj, hE⟩
      · exact .inr (by omega)
    · rintro ⟨j, s'⟩ ⟨h1, ⟨h2, h3, h4'⟩, h5, h6⟩
      simp only at h1 h2 h3 h4' h5 h6 ⊢
      exact ⟨by rw [if_pos (by omega)]; omega, h5, h6⟩

/-- The one-by-one loop. -/
theorem leafLoop1_ok {X : XOF} {lam M hi : Nat} {iv : List Byte} {tree : Mem (List Byte)}
    {idx : Nat → Option Nat} {nd : Nat → List Byte} {E : Nat → Prop} {fuel j0 : Nat}
    {s : Mem (List Byte) × Mem (List Byte)} (hlen : s.1.length = M ∧ s.2.length = M)
    (hM : hi ≤ M) (hfuel : hi - j0 < fuel)
    (hnd : ∀ j, j0 ≤ j → j < hi → ∃ p, idx j = some p ∧ rd tree p = some (nd j))
    (hs : LeafDone X lam iv nd (fun k => k < j0 ∧ ¬ E k) s) :
    Ok (forStep hi 1 fuel j0 s (leafBody1 X lam iv tree idx)) (fun r =>
      (r.1 = if j0 ≤ hi then hi else j0) ∧ (r.2.1.length = M ∧ r.2.2.length = M) ∧
      LeafDone X lam iv nd (fun k => k < r.1 ∧ ¬ E k) r.2) := by
  by_cases hc : hi ≤ j0
  · obtain ⟨f, rfl⟩ : ∃ f, fuel = f + 1 := ⟨fuel - 1, by omega⟩
    unfold forStep
    rw [if_neg (by omega)]
    refine Ok.some ⟨?_, hlen, hs⟩
    by_cases h : j0 ≤ hi
    · rw [if_pos h]; omega
    · rw [if_neg h]
  · refine (Ok.forStep (fun j (s : Mem (List Byte) × Mem (List Byte)) => (j0 ≤ j ∧ j ≤ hi) ∧
      (s.1.length = M ∧ s.2.length = M) ∧ LeafDone X lam iv nd (fun k => k < j ∧ ¬ E k) s)
      (by decide) ?_ fuel j0 s hfuel ⟨⟨Nat.le_refl _, by omega⟩, hlen, hs⟩).mono ?_
    · rintro j hj s ⟨⟨h2, h3⟩, h5, h6⟩
      refine (leafBody1_ok h5 (by omega) (hnd j (by omega) (by omega)) h6).mono ?_
      rintro s' ⟨h7, h8⟩
      refine ⟨⟨by omega, by omega⟩, h7, h8.mono ?_⟩
      rintro k ⟨hk, hE⟩
      by_cases hkj : k < j
      · exact .inl ⟨hkj, hE⟩
      · exact .inr (by omega)
    · rintro ⟨j, s'⟩ ⟨h1, ⟨h3, h4'⟩, h5, h6⟩
      simp only at h1 h3 h4' h5 h6 ⊢
      exact ⟨by rw [if_pos (by omega)]; omega, h5, h6⟩

/-- The loop up to the next multiple of four. -/
theorem leafLoopUntil_ok {X : XOF} {lam M N : Nat} {iv : List Byte} {tree : Mem (List Byte)}
    {idx : Nat → Option Nat} {nd : Nat → List Byte} {E : Nat → Prop} (hM : N ≤ M) :
    ∀ {fuel j0 : Nat} {s : Mem (List Byte) × Mem (List Byte)},
    (s.1.length = M ∧ s.2.length = M) → N - j0 < fuel → j0 ≤ N →
    (∀ j, j0 ≤ j → j < N → ∃ p, idx j = some p ∧ rd tree p = some (nd j)) →
    LeafDone X lam iv nd (fun k => k < j0 ∧ ¬ E k) s →
    Ok (forUntil4 N fuel j0 s (leafBody1 X lam iv tree idx)) (fun r =>
      (j0 ≤ r.1 ∧ r.1 ≤ N ∧ (r.1 % 4 = 0 ∨ r.1 = N)) ∧ (r.2.1.length = M ∧ r.2.2.length = M) ∧
      LeafDone X lam iv nd (fun k => k < r.1 ∧ ¬ E k) r.2) := by
  intro fuel
  induction fuel with
  | zero => intro j0 s _ h; omega
  | succ fuel ih =>
    intro j0 s hlen hfuel hj0 hnd hs
    unfold forUntil4
    by_cases hc : j0 < N ∧ j0 % 4 ≠ 0
    · rw [if_pos hc]
      refine Ok.bind' (leafBody1_ok hlen (by omega) (hnd j0 (Nat.le_refl _) hc.1) hs) ?_
      rintro s' ⟨h1, h2⟩
      refine (ih h1 (by omega) (by omega) (fun j h => hnd j (by omega)) (h2.mono ?_)).mono ?_
      · rintro k ⟨hk, hE⟩
        by_cases hkj : k < j0
        · exact .inl ⟨hkj, hE⟩
        · exact .inr (by omega)
      · rintro r ⟨⟨a, b, c⟩, d⟩
        exact ⟨⟨by omega, b, c⟩, d⟩
    · rw [if_neg hc]
      exact Ok.some ⟨⟨Nat.le_refl _, hj0, by omega⟩, hlen, hs⟩

/-! ### Commitment -/

theorem flatten_tabP_succ (N : Nat) (f : Nat → List Byte) :
    (tabP (N + 1) f).flatten = (tabP N f).flatten ++ f N := by
  rw [tabP_succ, List.flatten_append]; simp

theorem two_pow_le_12 {d : Nat} (h : d ≤ 12) : 2 ^ d ≤ 4096 := by
  calc 2 ^ d ≤ 2 ^ 12 := Nat.pow_le_pow_right (by decide) h
    _ = 4096 := rfl

theorem vectorCommitment_ok {X : XOF} {lam d : Nat} {root iv : List Byte} (hlam : LamOk lam)
    (hr : root.length = lam / 8) (hv : iv.length = 16) (h1 : 1 ≤ d) (h2 : d ≤ 12) :
    vectorCommitment X root iv lam d = some
      { h := comDigest X lam (2 ^ d) (fun j => leafCom X lam iv (treeNode lam iv root d j))
        k := full (2 ^ (d + 1) - 1) (flatNode lam iv root)
        com := full (2 ^ d) (fun j => leafCom X lam iv (treeNode lam iv root d j))
        sd := full (2 ^ d) (fun j => leafSd X lam iv (treeNode lam iv root d j)) } := by
  have hN := two_pow_le_12 h2
  have hp : 0 < 2 ^ d := Nat.two_pow_pos d
  have hp2 : 2 ^ (d + 1) = 2 * 2 ^ d := by rw [Nat.pow_succ]; omega
  have hlb : lam / 8 ≤ 32 := by unfold LamOk at hlam; omega
  apply Ok.eq
  unfold vectorCommitment
  simp only []
  rw [if_pos (by omega)]
  refine Ok.step rfl (Ok.step (generateSeeds_ok hlam hr hv h1 (by omega)) ?_)
  have hmul : 2 ^ d * (lam / 8) * 2 < 2 ^ 32 := by
    have : 2 ^ d * (lam / 8) ≤ 4096 * 32 := Nat.mul_le_mul hN hlb
    omega
  refine Ok.step (a := 2 ^ d * (lam / 8) * 2) (by unfold u32; rw [if_pos hmul]) ?_
  have hnd : ∀ j, j < 2 ^ d → ∃ p, (fun i => some ((full (2 ^ (d + 1) - 1) (flatNode lam iv root)).length
      - 2 ^ d + i)) j = some p ∧ rd (full (2 ^ (d + 1) - 1) (flatNode lam iv root)) p
        = some (treeNode lam iv root d j) := by
    intro j hj
    refine ⟨_, rfl, ?_⟩
    have hlen : (full (2 ^ (d + 1) - 1) (flatNode lam iv root)).length = 2 ^ (d + 1) - 1 := by
      simp [full]
    rw [hlen, show 2 ^ (d + 1) - 1 - 2 ^ d + j = 2 ^ d - 1 + j by omega, rd_full (by omega),
      flatNode_level _ _ _ _ _ hj]
  refine Ok.bind (leafLoop4_ok (M := 2 ^ d) (nd := treeNode lam iv root d) (E := fun _ => False)
    ⟨by simp, by simp⟩ (by omega) (by omega) (.inl rfl) (by omega) (fun j _ hj => hnd j (by omega)) ?_) ?_
  · intro k hk; omega
  rintro ⟨i, s⟩ ⟨hi, hl, hs⟩
  simp only at hi hl hs ⊢
  refine Ok.bind (leafLoop1_ok (M := 2 ^ d) (nd := treeNode lam iv root d) (E := fun _ => False)
    hl (Nat.le_refl _) (by omega) (fun j _ hj => hnd j hj) hs) ?_
  rintro ⟨i2, s2⟩ ⟨hi2, hl2, hs2⟩
  simp only at hi2 hl2 hs2 ⊢
  have hi2' : i2 = 2 ^ d := by
    rw [if_pos (Nat.zero_le _)] at hi
    rw [hi2, if_pos (by omega)]
  have hcom : ∀ j, j < 2 ^ d → rd s2.2 j = some (leafCom X lam iv (treeNode lam iv root d j)) :=
    fun j hj => (hs2 j ⟨by omega, fun h => h⟩).2
  have hsd : ∀ j, j < 2 ^ d → rd s2.1 j = some (leafSd X lam iv (treeNode lam iv root d j)) :=
    fun j hj => (hs2 j ⟨by omega, fun h => h⟩).1
  refine Ok.bind (Ok.forN (fun j ctx => ctx = (tabP j (fun j => leafCom X lam iv
    (treeNode lam iv root d j))).flatten) rfl ?_) ?_
  · rintro j hj ctx rfl
    refine Ok.step (hcom j hj) (Ok.pure ?_)
    rw [flatten_tabP_succ]
  · rintro ctx rfl
    refine Ok.pure ?_
    have e1 : s2.2 = full (2 ^ d) (fun j => leafCom X lam iv (treeNode lam iv root d j)) :=
      mem_ext_of_rd hl2.2 fun j hj => by rw [Nat.zero_add]; exact hcom j hj
    have e2 : s2.1 = full (2 ^ d) (fun j => leafSd X lam iv (treeNode lam iv root d j)) :=
      mem_ext_of_rd hl2.1 fun j hj => by rw [Nat.zero_add]; exact hsd j hj
    rw [e1, e2]
    rfl

/-! ### Opening -/

/-- `b` holds the `d` low bits of `idx`. -/
def BitsOf (b : Mem Byte) (d idx : Nat) : Prop :=
  idx < 2 ^ d ∧ ∀ j, j < d → rd b j = some (BitVec.ofNat 8 (idx / 2 ^ j % 2))

theorem ofNat8_bit_toNat (x : Nat) : (BitVec.ofNat 8 (x % 2)).toNat = x % 2 := by
  rw [BitVec.toNat_ofNat]; omega

theorem cNot_bit (x : Nat) : cNot (BitVec.ofNat 8 (x % 2)) = 1 - x % 2 := by
  unfold cNot
  rcases Nat.mod_two_eq_zero_or_one x with h | h <;> rw [h] <;> rfl

theorem numRec_ok {b : Mem Byte} {d idx : Nat} (hb : BitsOf b d idx) (hd : d ≤ 31) :
    numRec d b = some idx := by
  apply Ok.eq
  unfold numRec
  refine (Ok.forN (fun i out => out = idx % 2 ^ i) ?_ ?_).mono ?_
  · simp [Nat.mod_one]
  · rintro i hi out rfl
    refine Ok.step (hb.2 i hi) ?_
    rw [if_pos (by omega), ofNat8_bit_toNat]
    have e : idx % 2 ^ i + idx / 2 ^ i % 2 * 2 ^ i = idx % 2 ^ (i + 1) := by
      rw [Nat.pow_succ, Nat.mod_mul, Nat.mul_comm (2 ^ i)]
    rw [e]
    have : idx % 2 ^ (i + 1) < 2 ^ 32 :=
      calc idx % 2 ^ (i + 1) < 2 ^ (i + 1) := Nat.mod_lt _ (Nat.two_pow_pos _)
        _ ≤ 2 ^ 32 := Nat.pow_le_pow_right (by decide) (by omega)
    unfold u32
    rw [if_pos this]
    exact Ok.some rfl
  · rintro out rfl
    exact Nat.mod_eq_of_lt hb.1

theorem anc_zero {d idx : Nat} (h : idx < 2 ^ d) : anc d idx 0 = 0 := by
  unfold anc; exact Nat.div_eq_of_lt (by simpa using h)

theorem anc_self (d idx : Nat) : anc d idx d = idx := by
  unfold anc; simp

theorem anc_succ {d idx l : Nat} (h : l < d) :
    anc d idx (l + 1) = 2 * anc d idx l + idx / 2 ^ (d - 1 - l) % 2 := by
  unfold anc
  rw [show d - l = (d - 1 - l) + 1 by omega, show d - (l + 1) = d - 1 - l by omega, Nat.pow_succ,
    ← Nat.div_div_eq_div_mul]
  omega

theorem anc_div_two {d idx l : Nat} (h : l < d) : anc d idx (l + 1) / 2 = anc d idx l := by
  rw [anc_succ h]; omega

theorem anc_lt {d idx l : Nat} (h : idx < 2 ^ d) (hl : l ≤ d) : anc d idx l < 2 ^ l := by
  unfold anc
  rw [Nat.div_lt_iff_lt_mul (Nat.two_pow_pos _), ← Nat.pow_add]
  rwa [Nat.add_sub_cancel' hl]

theorem sib_anc {d idx l : Nat} (h : l < d) :
    2 * anc d idx l + (1 - idx / 2 ^ (d - 1 - l) % 2) = sib (anc d idx (l + 1)) := by
  rw [anc_succ h]
  unfold sib
  split <;> omega

theorem sib_lt {j l : Nat} (h : j < 2 ^ (l + 1)) : sib j < 2 ^ (l + 1) := by
  rw [Nat.pow_succ] at h ⊢
  unfold sib; split <;> omega

theorem sib_ne (j : Nat) : sib j ≠ j := by unfold sib; split <;> omega
theorem sib_div_two (j : Nat) : sib j / 2 = j / 2 := by unfold sib; split <;> omega
theorem eq_sib {i j : Nat} (h : i / 2 = j / 2) (hne : i ≠ j) : i = sib j := by
  unfold sib; split <;> omega

theorem getNodeIndex_ok {l j : Nat} (hl : l ≤ 29) (hj : j < 2 ^ l) :
    getNodeIndex l j = some (2 ^ l - 1 + j) := by
  unfold getNodeIndex
  cases l with
  | zero =>
    obtain rfl : j = 0 := by simpa using hj
    rw [if_pos rfl]
    rfl
  | succ l =>
    have := Nat.two_pow_pos l
    rw [if_neg (by omega), if_pos hl, Nat.pow_succ]
    congr 1
    simp only [Nat.add_sub_cancel]
    omega

/-- The sibling path of a leaf, as a string. -/
def pathByte (nd : Nat → Nat → List Byte) (d idx lb q : Nat) : Byte :=
  byteFn (nd (q / lb + 1) (sib (anc d idx (q / lb + 1)))) (q % lb)

theorem byteFn_getElem? {l : List Byte} {n i : Nat} (hl : l.length = n) (hi : i < n) :
    l[i]? = some (byteFn l i) := by
  unfold byteFn
  rw [List.getElem?_eq_getElem (by omega)]; rfl

theorem vectorOpen_ok {lam d idx : Nat} {k com : Mem (List Byte)} {b dst : Mem Byte}
    {offCop offCom : Nat} {nd : Nat → Nat → List Byte} {cm : List Byte} (hlam : LamOk lam)
    (hb : BitsOf b d idx) (hd : d ≤ 12)
    (hk : ∀ l j, l ≤ d → j < 2 ^ l → rd k (2 ^ l - 1 + j) = some (nd l j))
    (hnd : ∀ l j, (nd l j).length = lam / 8) (hcom : rd com idx = some cm)
    (hcl : cm.length = lam / 8 * 2) (ho1 : offCop + lam / 8 * d ≤ offCom)
    (ho2 : offCom + lam / 8 * 2 ≤ dst.length) :
    Ok (vectorOpen k com b dst offCop offCom d (lam / 8)) (fun dst' => dst'.length = dst.length ∧
      ∀ p, rd dst' p = if offCop ≤ p ∧ p < offCop + lam / 8 * d then
          some (pathByte nd d idx (lam / 8) (p - offCop))
        else if offCom ≤ p ∧ p < offCom + lam / 8 * 2 then some (byteFn cm (p - offCom))
        else rd dst p) := by
  have hlb : 0 < lam / 8 := by unfold LamOk at hlam; omega
  unfold vectorOpen
  refine Ok.step (numRec_ok hb (by omega)) ?_
  refine Ok.bind (Ok.forN (fun i (s : Mem Byte × Nat) => s.2 = anc d idx i ∧
    s.1.length = dst.length ∧ ∀ p, rd s.1 p = if offCop ≤ p ∧ p < offCop + lam / 8 * i then
          some (pathByte nd d idx (lam / 8) (p - offCop)) else rd dst p) ?_ ?_) ?_
  · refine ⟨(anc_zero hb.1).symm, rfl, ?_⟩
    intro p
    rw [if_neg (by omega)]
  · rintro i hi ⟨m, a⟩ ⟨rfl, hl, hm⟩
    simp only at hl hm ⊢
    refine Ok.step (hb.2 (d - 1 - i) (by omega)) ?_
    have hlt : sib (anc d idx (i + 1)) < 2 ^ (i + 1) := sib_lt (anc_lt hb.1 (by omega))
    rw [cNot_bit, sib_anc hi, ofNat8_bit_toNat, ← anc_succ hi]
    refine Ok.step (getNodeIndex_ok (by omega) hlt) ?_
    refine Ok.step (hk _ _ (by omega) hlt) ?_
    have hle : lam / 8 * (i + 1) ≤ lam / 8 * d := Nat.mul_le_mul_left _ hi
    have hs : lam / 8 * (i + 1) = lam / 8 * i + lam / 8 := by rw [Nat.mul_succ]
    have hnl := hnd (i + 1) (sib (anc d idx (i + 1)))
    refine Ok.bind (Ok.wrN (Q := fun m' => m'.length = dst.length ∧ ∀ p, rd m' p =
      if offCop + lam / 8 * i ≤ p ∧ p < offCop + lam / 8 * i + lam / 8 then
        (nd (i + 1) (sib (anc d idx (i + 1))))[p - (offCop + lam / 8 * i)]? else rd m p) ?_ ?_) ?_
    · omega
    · intro m' hl' hm'
      rw [hnl] at hm'
      exact ⟨by omega, hm'⟩
    rintro m' ⟨hl', hm'⟩
    refine Ok.pure ⟨rfl, hl', ?_⟩
    intro p
    rw [hm', hm]
    by_cases hc : offCop + lam / 8 * i ≤ p ∧ p < offCop + lam / 8 * i + lam / 8
    · rw [if_pos hc, if_pos (by omega), byteFn_getElem? hnl (by omega)]
      have e : p - offCop = lam / 8 * i + (p - (offCop + lam / 8 * i)) := by omega
      have e1 : (p - offCop) / (lam / 8) = i := by
        rw [e, Nat.mul_add_div hlb, Nat.div_eq_of_lt (a := p - _) (by omega), Nat.add_zero]
      have e2 : (p - offCop) % (lam / 8) = p - (offCop + lam / 8 * i) := by
        rw [e, Nat.mul_add_mod, Nat.mod_eq_of_lt (by omega)]
      unfold pathByte
      rw [e1, e2]
    · rw [if_neg hc]
      by_cases hc2 : offCop ≤ p ∧ p < offCop + lam / 8 * i
      · rw [if_pos hc2, if_pos (by omega)]
      · rw [if_neg hc2, if_neg (by omega)]
  rintro ⟨m, a⟩ ⟨_, hl, hm⟩
  simp only at hl hm ⊢
  refine Ok.step hcom ?_
  refine Ok.wrN (by omega) ?_
  intro m' hl' hm'
  refine ⟨by omega, ?_⟩
  intro p
  rw [hm', hm, hcl]
  by_cases hc : offCom ≤ p ∧ p < offCom + lam / 8 * 2
  · rw [if_pos hc, if_neg (by omega), if_pos hc, byteFn_getElem? hcl (by omega)]
  · rw [if_neg hc, if_neg hc]

/-! ### Reconstruction -/

/-- Part `l` of the string `copB`. -/
def copPart (lb : Nat) (copB : Nat → Byte) (l : Nat) : List Byte := tabP lb fun i => copB (lb * l + i)

theorem recNode_length {lam : Nat} {iv : List Byte} {cop : Nat → List Byte} {d leaf : Nat}
    (hc : ∀ l, (cop l).length = lam / 8) (l j : Nat) :
    (recNode lam iv cop d leaf l j).length = lam / 8 := by
  cases l with
  | zero => simp [recNode]
  | succ l =>
    rw [recNode]
    split
    · split
      · simp
      · exact hc l
    · exact child_length ..

theorem two_pow_level {l l' j j' : Nat} (hj : j < 2 ^ l) (hj' : j' < 2 ^ l')
    (h : 2 ^ l - 1 + j = 2 ^ l' - 1 + j') : l = l' ∧ j = j' := by
  have key : l = l' := by
    rcases Nat.lt_trichotomy l l' with hlt | he | hgt
    · have h1 : 2 ^ (l + 1) ≤ 2 ^ l' := Nat.pow_le_pow_right (by decide) hlt
      rw [Nat.pow_succ] at h1
      have := Nat.two_pow_pos l
      omega
    · exact he
    · have h1 : 2 ^ (l' + 1) ≤ 2 ^ l := Nat.pow_le_pow_right (by decide) hgt
      rw [Nat.pow_succ] at h1
      have := Nat.two_pow_pos l'
      omega
  subst key
  exact ⟨rfl, by omega⟩

theorem reconLevel_ok {lam d idx K t : Nat} {iv : List Byte} {cop : Nat → List Byte}
    {k : Mem (List Byte)} (hlam : LamOk lam) (hv : iv.length = 16) (hcop : ∀ l, (cop l).length = lam / 8)
    (hidx : idx < 2 ^ d) (ht : t < d) (hd : d ≤ 12) (hK : 2 ^ (d + 1) - 1 ≤ K) (hl : k.length = K)
    (hk : ∀ l j, 1 ≤ l → l ≤ t → j < 2 ^ l → rd k (2 ^ l - 1 + j)
      = some (recNode lam iv cop d idx l j))
    (hk2 : ∀ j, j / 2 = anc d idx t → rd k (2 ^ (t + 1) - 1 + j)
      = some (recNode lam iv cop d idx (t + 1) j)) :
    Ok (reconLevel iv lam (t + 1) (anc d idx t) k) (fun k' => k'.length = K ∧
      ∀ l j, 1 ≤ l → l ≤ t + 1 → j < 2 ^ l → rd k' (2 ^ l - 1 + j)
        = some (recNode lam iv cop d idx l j)) := by
  have hpt : 2 ^ (t + 1) ≤ 2 ^ d := Nat.pow_le_pow_right (by decide) ht
  have hpd : 2 ^ (d + 1) = 2 * 2 ^ d := by rw [Nat.pow_succ]; omega
  have hps : 2 ^ (t + 1) = 2 * 2 ^ t := by rw [Nat.pow_succ]; omega
  have hpp := Nat.two_pow_pos t
  unfold reconLevel
  simp only [Nat.add_sub_cancel]
  refine (Ok.forN (fun j k => k.length = K ∧ (∀ l j, 1 ≤ l → l ≤ t → j < 2 ^ l →
      rd k (2 ^ l - 1 + j) = some (recNode lam iv cop d idx l j)) ∧
    (∀ j', (j' / 2 = anc d idx t ∨ j' < 2 * j) → rd k (2 ^ (t + 1) - 1 + j')
      = some (recNode lam iv cop d idx (t + 1) j'))) ?_ ?_).mono ?_
  · refine ⟨hl, hk, ?_⟩
    rintro j' (h | h)
    · exact hk2 j' h
    · omega
  · rintro j hj k ⟨hl, hk, hk2⟩
    by_cases hja : j = anc d idx t
    · rw [if_pos hja]
      refine Ok.some ⟨hl, hk, ?_⟩
      rintro j' (h | h)
      · exact hk2 j' (.inl h)
      · by_cases h2 : j' < 2 * j
        · exact hk2 j' (.inr h2)
        · exact hk2 j' (.inl (by omega))
    · rw [if_neg hja]
      have ht1 : 1 ≤ t := by
        rcases Nat.eq_zero_or_pos t with h0 | h0
        · subst h0
          rw [anc_zero hidx] at hja
          simp only [Nat.pow_zero] at hj
          omega
        · exact h0
      refine Ok.step (getNodeIndex_ok (by omega) hj) ?_
      refine Ok.step (hk t j ht1 (Nat.le_refl _) hj) ?_
      refine Ok.step (prgL_ok hlam (recNode_length hcop t j) hv) ?_
      rw [prg_take_child, prg_drop_child]
      refine Ok.step (getNodeIndex_ok (by omega) (j := 2 * j) (by omega)) ?_
      refine Ok.bind (Ok.wr (Q := fun m' => m'.length = K ∧ ∀ p, rd m' p =
        if p = 2 ^ (t + 1) - 1 + 2 * j then some (child lam iv (recNode lam iv cop d idx t j) 0)
        else rd k p) (by omega) fun m' hl' hm' => ⟨by omega, hm'⟩) ?_
      rintro k1 ⟨hl1, hk1⟩
      refine Ok.step (getNodeIndex_ok (by omega) (j := 2 * j + 1) (by omega)) ?_
      refine Ok.wr (by omega) ?_
      intro k2 hl2 hk2'
      refine ⟨by omega, ?_, ?_⟩
      · intro l j' h1 h2 h3
        have hll : 2 ^ l ≤ 2 ^ t := Nat.pow_le_pow_right (by decide) h2
        rw [hk2', if_neg (by omega), hk1, if_neg (by omega), hk l j' h1 h2 h3]
      · intro j' h
        rw [hk2', hk1]
        by_cases hc1 : j' = 2 * j + 1
        · subst hc1
          rw [if_pos rfl, recNode, show (2 * j + 1) / 2 = j by omega, if_neg hja,
            show (2 * j + 1) % 2 = 1 by omega]
        · rw [if_neg (by omega)]
          by_cases hc2 : j' = 2 * j
          · subst hc2
            rw [if_pos rfl, recNode, show (2 * j) / 2 = j by omega, if_neg hja,
              show (2 * j) % 2 = 0 by omega]
          · rw [if_neg (by omega)]
            rcases h with h | h
            · exact hk2 j' (.inl h)
            · exact hk2 j' (.inr (by omega))
  · rintro k' ⟨hl, hk, hk2⟩
    refine ⟨hl, ?_⟩
    intro l j h1 h2 h3
    by_cases hlt : l ≤ t
    · exact hk l j h1 hlt h3
    · obtain rfl : l = t + 1 := by omega
      exact hk2 j (.inr (by omega))

theorem reconTree_ok {lam d idx K : Nat} {iv : List Byte} {copB : Nat → Byte} {cop b : Mem Byte}
    {k : Mem (List Byte)} (hlam : LamOk lam) (hv : iv.length = 16) (hb : BitsOf b d idx)
    (hcop : Has cop 0 (lam / 8 * d) copB) (hd : d ≤ 12) (hK : 2 ^ (d + 1) - 1 ≤ K) (hl : k.length = K) :
    Ok (reconTree iv cop b lam d k) (fun k' => k'.length = K ∧ ∀ l j, 1 ≤ l → l ≤ d → j < 2 ^ l →
      rd k' (2 ^ l - 1 + j) = some (recNode lam iv (copPart (lam / 8) copB) d idx l j)) := by
  have hlb : 0 < lam / 8 := by unfold LamOk at hlam; omega
  have hcl : ∀ l, (copPart (lam / 8) copB l).length = lam / 8 := fun l => by simp [copPart]
  unfold reconTree forR
  rw [Nat.add_sub_cancel]
  refine Ok.bind (Ok.forN (fun t (s : Mem (List Byte) × Nat) => s.2 = anc d idx t ∧ s.1.length = K ∧
    ∀ l j, 1 ≤ l → l ≤ t → j < 2 ^ l → rd s.1 (2 ^ l - 1 + j)
      = some (recNode lam iv (copPart (lam / 8) copB) d idx l j)) ?_ ?_) ?_
  · exact ⟨(anc_zero hb.1).symm, hl, fun l j h1 h2 => by omega⟩
  · rintro t ht ⟨k, a⟩ ⟨rfl, hl, hk⟩
    simp only at hl hk ⊢
    rw [show d - (1 + t) = d - 1 - t by omega, show 1 + t - 1 = t by omega, show 1 + t = t + 1 by omega]
    have hpt : 2 ^ (t + 1) ≤ 2 ^ d := Nat.pow_le_pow_right (by decide) ht
    have hpd : 2 ^ (d + 1) = 2 * 2 ^ d := by rw [Nat.pow_succ]; omega
    have hps : 2 ^ (t + 1) = 2 * 2 ^ t := by rw [Nat.pow_succ]; omega
    have hlt1 : anc d idx (t + 1) < 2 ^ (t + 1) := anc_lt hb.1 (by omega)
    have hlt : sib (anc d idx (t + 1)) < 2 ^ (t + 1) := sib_lt hlt1
    refine Ok.step (hb.2 (d - 1 - t) (by omega)) ?_
    have hmul : lam / 8 * t + lam / 8 ≤ lam / 8 * d := by
      rw [← Nat.mul_succ]; exact Nat.mul_le_mul_left _ ht
    have hc := hcop.sub (lam / 8 * t) (lam / 8) hmul
    rw [Nat.zero_add] at hc
    refine Ok.step (rdN_has hc hlb) ?_
    rw [cNot_bit, sib_anc ht, ofNat8_bit_toNat, ← anc_succ ht]
    refine Ok.step (getNodeIndex_ok (by omega) hlt) ?_
    refine Ok.bind (Ok.wr (Q := fun m' => m'.length = K ∧ ∀ p, rd m' p =
        if p = 2 ^ (t + 1) - 1 + sib (anc d idx (t + 1)) then some (copPart (lam / 8) copB t)
        else rd k p) (by omega) fun m' hl' hm' => ⟨by omega, hm'⟩) ?_
    rintro k1 ⟨hl1, hk1⟩
    refine Ok.step (getNodeIndex_ok (by omega) hlt1) ?_
    refine Ok.bind (Ok.wr (Q := fun m' => m'.length = K ∧ ∀ p, rd m' p =
        if p = 2 ^ (t + 1) - 1 + anc d idx (t + 1) then some (List.replicate (lam / 8) 0)
        else rd k1 p) (by omega) fun m' hl' hm' => ⟨by omega, hm'⟩) ?_
    rintro k2 ⟨hl2, hk2⟩
    refine Ok.bind (reconLevel_ok (cop := copPart (lam / 8) copB) hlam hv hcl hb.1 ht hd hK hl2
      ?_ ?_) ?_
    · intro l j h1 h2 h3
      have hll : 2 ^ l ≤ 2 ^ t := Nat.pow_le_pow_right (by decide) h2
      rw [hk2, if_neg (by omega), hk1, if_neg (by omega)]
      exact hk l j h1 h2 h3
    · intro j hj
      rw [hk2, recNode, if_pos hj]
      by_cases hc : j = anc d idx (t + 1)
      · rw [if_pos (by omega), if_pos hc]
      · have : j = sib (anc d idx (t + 1)) := eq_sib (by rw [hj, anc_div_two ht]) hc
        rw [if_neg (by omega), if_neg hc, hk1, if_pos (by omega)]
    · rintro k3 ⟨hl3, hk3⟩
      refine Ok.pure ⟨?_, hl3, hk3⟩
      show _ = anc d idx (t + 1)
      rw [anc_succ ht, Nat.mul_comm 2]
  · rintro ⟨k', a⟩ ⟨_, h⟩
    exact Ok.pure h

/-- Commitments of the reconstruction. -/
def recCom (X : XOF) (lam : Nat) (iv : List Byte) (nd : Nat → List Byte) (idx : Nat) (comj : List Byte)
    (j : Nat) : List Byte := if j = idx then comj else leafCom X lam iv (nd j)

theorem vectorReconstruction_ok {X : XOF} {lam d idx K M : Nat} {iv : List Byte}
    {copB comB : Nat → Byte} {cop comj b : Mem Byte} {vr : VecComRec} (hlam : LamOk lam)
    (hv : iv.length = 16) (hb : BitsOf b d idx) (hcop : Has cop 0 (lam / 8 * d) copB)
    (hcom : Has comj 0 (lam / 8 * 2) comB) (h1 : 1 ≤ d) (hd : d ≤ 12) (hK : 2 ^ (d + 1) - 1 ≤ K)
    (hM : 2 ^ d ≤ M) (hlk : vr.k.length = K) (hlc : vr.com.length = M) (hls : vr.s.length = M) :
    Ok (vectorReconstruction X iv cop comj b lam d vr) (fun r =>
      (r.k.length = K ∧ r.com.length = M ∧ r.s.length = M) ∧
      (∀ j, j < 2 ^ d → j ≠ idx → rd r.s j = some (leafSd X lam iv
        (recNode lam iv (copPart (lam / 8) copB) d idx d j))) ∧
      (∀ j, j < 2 ^ d → rd r.k (2 ^ d - 1 + j)
        = some (recNode lam iv (copPart (lam / 8) copB) d idx d j)) ∧
      (∀ j, j < 2 ^ d → rd r.com j = some (recCom X lam iv
        (recNode lam iv (copPart (lam / 8) copB) d idx d) idx (tabP (lam / 8 * 2) comB) j)) ∧
      r.h = comDigest X lam (2 ^ d) (recCom X lam iv
        (recNode lam iv (copPart (lam / 8) copB) d idx d) idx (tabP (lam / 8 * 2) comB))) := by
  have hN := two_pow_le_12 hd
  have hp : 0 < 2 ^ d := Nat.two_pow_pos d
  have hi := hb.1
  have hlb : 0 < lam / 8 := by unfold LamOk at hlam; omega
  unfold vectorReconstruction
  simp only []
  rw [if_pos (by omega)]
  refine Ok.step rfl (Ok.step (numRec_ok hb (by omega)) ?_)
  refine Ok.bind (reconTree_ok hlam hv hb hcop hd hK hlk) ?_
  rintro k ⟨hkl, hk⟩
  generalize hnd' : recNode lam iv (copPart (lam / 8) copB) d idx d = nd
  have hnd : ∀ j, j < 2 ^ d → ∃ p, (fun j => getNodeIndex d j) j = some p ∧ rd k p = some (nd j) := by
    intro j hj
    exact ⟨_, getNodeIndex_ok (by omega) hj, by rw [hk d j h1 (Nat.le_refl _) hj, hnd']⟩
  refine Ok.bind (leafLoop4_ok (M := M) (nd := nd) (E := fun k => k = idx)
    ⟨hls, hlc⟩ (by omega) (by omega) (.inl rfl) (by omega) (fun j _ hj => hnd j (by omega)) ?_) ?_
  · intro k hk; omega
  rintro ⟨j1, s1⟩ ⟨hj1, hl1, hs1⟩
  simp only at hj1 hl1 hs1 ⊢
  rw [if_pos (Nat.zero_le _)] at hj1
  refine Ok.bind (leafLoop1_ok (M := M) (nd := nd) (E := fun k => k = idx) hl1
    (by omega) (by omega) (fun j _ hj => hnd j (by omega)) hs1) ?_
  rintro ⟨j2, s2⟩ ⟨hj2, hl2, hs2⟩
  simp only at hj2 hl2 hs2 ⊢
  rw [if_pos (by omega)] at hj2
  refine Ok.bind (leafLoopUntil_ok (M := M) (nd := nd) (E := fun k => k = idx) hM hl2
    (by omega) (by omega) (fun j _ hj => hnd j hj) (hs2.mono ?_)) ?_
  · rintro k ⟨hk1, hk2⟩
    exact ⟨by omega, hk2⟩
  rintro ⟨j3, s3⟩ ⟨⟨hj3, hj3', hj3''⟩, hl3, hs3⟩
  simp only at hj3 hj3' hj3'' hl3 hs3 ⊢
  refine Ok.bind (leafLoop4_ok (M := M) (nd := nd) (E := fun k => k = idx)
    hl3 (by omega) (by omega) (by omega) (by omega) (fun j _ hj => hnd j (by omega)) hs3) ?_
  rintro ⟨j4, s4⟩ ⟨hj4, hl4, hs4⟩
  simp only at hj4 hl4 hs4 ⊢
  have hj4' : j4 ≤ 2 ^ d := by
    rw [hj4]; split <;> omega
  refine Ok.bind (leafLoop1_ok (M := M) (nd := nd) (E := fun k => k = idx) hl4
    hM (by omega) (fun j _ hj => hnd j hj) hs4) ?_
  rintro ⟨j5, s5⟩ ⟨hj5, hl5, hs5⟩
  simp only at hj5 hl5 hs5 ⊢
  rw [if_pos hj4'] at hj5
  refine Ok.step (rdN_has hcom (by omega)) ?_
  refine Ok.bind (Ok.wr (Q := fun m' => m'.length = M ∧ ∀ p, rd m' p =
        if p = idx then some (tabP (lam / 8 * 2) comB) else rd s5.2 p)
        (by rw [hl5.2]; omega) fun m' hl' hm' => ⟨by rw [hl', hl5.2], hm'⟩) ?_
  rintro com ⟨hcl, hcm⟩
  have hhas : Has com 0 (2 ^ d) (recCom X lam iv nd idx (tabP (lam / 8 * 2) comB)) := by
    intro j hj
    rw [Nat.zero_add, hcm]
    unfold recCom
    by_cases hc : j = idx
    · rw [if_pos hc, if_pos hc]
    · rw [if_neg hc, if_neg hc]
      exact (hs5 j ⟨by omega, hc⟩).2
  refine Ok.step (rdN_has hhas hp) ?_
  refine Ok.pure ⟨⟨hkl, hcl, hl5.1⟩, ?_, fun j hj => by rw [← hnd']; exact hk d j h1 (Nat.le_refl _) hj,
    fun j hj => hhas.rd0 hj, rfl⟩
  intro j hj hne
  exact (hs5 j ⟨by omega, hne⟩).1

/-- On an honest sibling path the recomputed nodes off the path are those of the tree. -/
theorem recNode_honest {lam d idx : Nat} {iv root : List Byte} {cop : Nat → List Byte}
    (hcop : ∀ l, l < d → cop l = treeNode lam iv root (l + 1) (sib (anc d idx (l + 1)))) :
    ∀ (l j : Nat), l ≤ d → j ≠ anc d idx l → j < 2 ^ l → idx < 2 ^ d →
      recNode lam iv cop d idx l j = treeNode lam iv root l j := by
  intro l
  induction l with
  | zero =>
    intro j _ hne hj hi
    rw [anc_zero hi] at hne
    simp only [Nat.pow_zero] at hj
    omega
  | succ l ih =>
    intro j hl hne hj hi
    rw [recNode, treeNode]
    rw [Nat.pow_succ] at hj
    by_cases hc : j / 2 = anc d idx l
    · rw [if_pos hc, if_neg hne, hcop l (by omega)]
      have : j = sib (anc d idx (l + 1)) := eq_sib (by rw [hc, anc_div_two (by omega)]) hne
      rw [← this, treeNode]
    · rw [if_neg hc, ih (j / 2) (by omega) hc (by omega) hi]

end Faest
