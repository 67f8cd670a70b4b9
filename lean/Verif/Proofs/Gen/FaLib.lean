/-
Rules for the translation of faest_aes.c: field elements in arrays.
-/
import Verif.Model.Gen.FaestAes
import Verif.Model.FaestAes
import Verif.Proofs.Gen.UHash
import Verif.Proofs.Gen.Aes2

namespace Faest.C

section
variable {α δ : Type} {n : Nat} {D F : Blocks} {kd : Kind} {Q : δ → Blocks → Prop}

/-! ### Reading several field elements -/

theorem rdN_exists {m : Mem α} {o n : Nat} {f : Nat → α} (h : ∀ i, i < n → rd m (o + i) = some (f i)) (ho : o ≤ m.length) :
    rdN m o n = some (tabP n f) := by
  have hl : (tabP n f).length = n := tabP_length ..
  have hle : o + n ≤ m.length := by
    rcases n with _ | n
    · exact ho
    · have := rd_lt (h n (by omega)); omega
  have := rdN_of_rd (m := m) (off := o) (l := tabP n f) (by rw [hl]; exact hle) fun t ht => by
    rw [hl] at ht
    rw [h t ht, tabP_getElem?, if_pos ht]
  rwa [hl] at this

theorem byteCombine_inv {μ : Mem (BF n)} {o : Nat} {y : BF n} (h : byteCombine μ o = some y) :
    ∃ l, rdN μ o 8 = some l ∧ byteCombine (ofList l) 0 = some y := by
  have h' := h
  unfold byteCombine at h
  inv h
  obtain ⟨x0, h0, h⟩ := h
  obtain ⟨g, g0, gN, hg⟩ := forR_seq h
  have hr : ∀ i, i < 8 → ∃ x, rd μ (o + i) = some x := by
    intro i hi
    rcases i with _ | i
    · exact ⟨x0, h0⟩
    · have hb := hg i (by omega)
      inv hb
      obtain ⟨x, hx, -⟩ := hb
      exact ⟨x, by rw [← hx]; congr 1; omega⟩
  have hr' : ∀ i, i < 8 → rd μ (o + i) = some ((rd μ (o + i)).getD bfZero) := by
    intro i hi
    obtain ⟨x, hx⟩ := hr i hi
    rw [hx]; rfl
  have hl := rdN_exists (m := μ) (o := o) (n := 8) hr' (by have := rd_lt h0; omega)
  refine ⟨_, hl, ?_⟩
  have e : ∀ i, i < 8 → rd (ofList (tabP 8 fun i => (rd μ (o + i)).getD bfZero)) (0 + i) = rd μ (o + i) := by
    intro i hi
    rw [rd_ofList, rd_of_rdN hl hi, Nat.zero_add]
  rw [← h']
  unfold byteCombine
  have e0 := e 0 (by omega)
  simp only [Nat.add_zero] at e0
  rw [e0, h0]
  simp only [Option.bind_eq_bind, Option.bind_some]
  unfold forR
  refine forN_congr fun i hi => ?_
  funext s
  show (rd _ (0 + (1 + i))).bind _ = _
  rw [e (1 + i) (by omega)]

theorem t_bcb {x : Byte} {y : BF n} {g : BF n → CM δ} (h : byteCombineBits n x = some y) (k : T D (g y) Q) :
    T D (bf_byte_combine_bits n x >>= g) Q := t_lft h k

theorem t_bc {p : CPtr} {μ : Mem (BF n)} {o : Nat} {y : BF n} {g : BF n → CM δ} (hv : View D p μ)
    (h : byteCombine μ o = some y) (k : T D (g y) Q) : T D (bf_byte_combine n (padd p o) >>= g) Q := by
  obtain ⟨l, hl, h'⟩ := byteCombine_inv h
  unfold bf_byte_combine
  exact t_assoc (t_ldN hv.padd (by decide) (rdN_at hl) (t_lft h' k))

theorem t_bc0 {p : CPtr} {μ : Mem (BF n)} {y : BF n} {g : BF n → CM δ} (hv : View D p μ)
    (h : byteCombine μ 0 = some y) (k : T D (g y) Q) : T D (bf_byte_combine n p >>= g) Q := by
  have := t_bc (g := g) hv h k
  rwa [padd_zero] at this

theorem t_sumpoly {p : CPtr} {μ : Mem (BF n)} {y : BF n} {g : BF n → CM δ} (hn : 8 ≤ n) (hv : View D p μ)
    (h : bfSumPoly μ = some y) (k : T D (g y) Q) : T D (bf_sum_poly n p >>= g) Q := by
  have h' := h
  unfold bfSumPoly at h
  inv h
  obtain ⟨x0, h0, h⟩ := h
  obtain ⟨s, g0, gN, hg⟩ := forR_seq h
  have hr : ∀ i, i < n → rd μ (0 + i) = some ((rd μ (0 + i)).getD bfZero) := by
    intro i hi
    by_cases hi' : i = n - 1
    · subst hi'; rw [Nat.zero_add, h0]; rfl
    · have hb := hg (n - 1 - i - 1) (by omega)
      inv hb
      obtain ⟨x, hx, -⟩ := hb
      rw [show n - 1 - (1 + (n - 1 - i - 1)) = 0 + i by omega] at hx
      rw [hx]; rfl
  have hl := rdN_exists (m := μ) (o := 0) (n := n) hr (by omega)
  have e : ∀ i, i < n → rd (ofList (tabP n fun i => (rd μ (0 + i)).getD bfZero)) i = rd μ i := by
    intro i hi
    have := rd_of_rdN hl hi
    rw [Nat.zero_add] at this
    rw [rd_ofList, this]
  unfold bf_sum_poly
  refine t_assoc (t_ldN hv (by omega) hl (t_lft (b := y) ?_ k))
  rw [← h']
  unfold bfSumPoly
  rw [e (n - 1) (by omega)]
  unfold forR
  have : ∀ r : BF n, forN (n - 1) r (fun i ret => do
      let x ← rd (ofList (tabP n fun i => (rd μ (0 + i)).getD bfZero)) (n - 1 - (1 + i))
      pure (bfAdd (bfDbl ret) x)) = forN (n - 1) r (fun i ret => do
      let x ← rd μ (n - 1 - (1 + i))
      pure (bfAdd (bfDbl ret) x)) := fun r => forN_congr fun i hi => by
    funext s
    rw [e _ (by omega)]
  rw [h0]
  exact this x0

/-! ### Loops filling an array -/

theorem W_fresh {N : Nat} {l : List α} (h : l.length = N) : W (malloc N : Mem α) 0 l = ofList l := by
  simp [W, malloc, h, ofList]

theorem t_fill [Ty α] {c : Nat → Bool} {b : Nat → CM Nat} {g : Nat → CM δ} {s o N : Nat} {m : Mem α} (l : List α)
    (hD : D = bl kd s m + F) (hl : l.length = N) (ho : o + N ≤ m.length) (hN : N < 18446744073709551616)
    (hc : ∀ i, i ≤ N → c i = decide (i < N))
    (hb : ∀ i x, i < N → l[i]? = some x → wr (W m o (l.take i)) (o + i) x = some (W m o (l.take (i + 1))) →
      Runs (bl kd s (W m o (l.take i)) + F) (b i) (i + 1) (bl kd s (W m o (l.take (i + 1))) + F))
    (k : T (bl kd s (W m o l) + F) (g N) Q) : T D (cwhile c b 0 >>= g) Q := by
  refine t_while N (fun i => i) (fun i => bl kd s (W m o (l.take i)) + F) hN rfl (by rw [W_take_zero, hD])
    (fun i hi => by rw [hc i (by omega)]; simpa using hi) (by rw [hc N (by omega)]; simp) (fun i hi => ?_) ?_
  · have hx : l[i]? = some l[i] := List.getElem?_eq_getElem (by omega)
    exact hb i _ hi hx (wr_W (by omega) hx)
  · rw [W_take_full _ _ _ (by omega)]; exact k

/-- The same for a new array. -/
theorem t_fill0 [Ty α] {c : Nat → Bool} {b : Nat → CM Nat} {g : Nat → CM δ} {s N : Nat} (l : List α)
    (hD : D = bl kd s (malloc N : Mem α) + F) (hl : l.length = N) (hN : N < 18446744073709551616)
    (hc : ∀ i, i ≤ N → c i = decide (i < N))
    (hb : ∀ i x, i < N → l[i]? = some x → wr (W (malloc N : Mem α) 0 (l.take i)) (0 + i) x = some (W (malloc N) 0 (l.take (i + 1))) →
      Runs (bl kd s (W (malloc N) 0 (l.take i)) + F) (b i) (i + 1) (bl kd s (W (malloc N) 0 (l.take (i + 1))) + F))
    (k : T (bl kd s (ofList l) + F) (g N) Q) : T D (cwhile c b 0 >>= g) Q := by
  refine t_fill l hD hl (by simp [malloc]) hN hc hb ?_
  rw [W_fresh hl]; exact k

theorem fill_some {N : Nat} {f : Nat → Option α} {m : Mem α} (h : fill N f = some m) :
    ∃ l : List α, m = ofList l ∧ l.length = N ∧ ∀ i x, i < N → l[i]? = some x → f i = some x := by
  unfold fill at h
  rw [Option.map_eq_some_iff] at h
  obtain ⟨l, hl, rfl⟩ := h
  refine ⟨l, rfl, tabM_length hl, fun i x hi hx => ?_⟩
  rw [(tabM_some hl).2 i hi, hx]

theorem tabM_at {N : Nat} {f : Nat → Option α} {l : List α} (h : tabM N f = some l) :
    l.length = N ∧ ∀ i x, i < N → l[i]? = some x → f i = some x :=
  ⟨tabM_length h, fun i x hi hx => by rw [(tabM_some h).2 i hi, hx]⟩

/-! ### Rewriting cells of a written range -/

theorem wr_W_set {m : Mem α} {o j i : Nat} {l : List α} {x : α} (h : o + l.length ≤ m.length) (hj : j < l.length)
    (hi : i = o + j) : wr (W m o l) i x = some (W m o (l.set j x)) := by
  subst hi
  unfold wr
  rw [if_pos (by rw [length_W h]; omega)]
  have h2 : o + (l.set j x).length ≤ m.length := by simpa using h
  refine congrArg some (mem_ext (by rw [List.length_set, length_W h, length_W h2]) fun t ht => ?_)
  rw [List.getElem?_set, getElem?_W h, getElem?_W h2, length_W h, List.length_set]
  by_cases e : o + j = t
  · subst e
    rw [if_pos rfl, if_pos (by omega), if_pos (by omega), Nat.add_sub_cancel_left, List.getElem?_set_self hj]
    rfl
  · rw [if_neg e]
    split
    · rw [List.getElem?_set_ne (by omega)]
    · rfl

theorem wr_W_push {m : Mem α} {o i : Nat} {l : List α} {x : α} (h : o + l.length < m.length) (hi : i = o + l.length) :
    wr (W m o l) i x = some (W m o (l ++ [x])) := by
  subst hi
  have := wr_W (m := m) (o := o) (i := l.length) (l := l ++ [x]) (x := x) (by simp; omega) (by simp)
  rwa [List.take_append_of_le_length (Nat.le_refl _), List.take_length, List.take_of_length_le (by simp)] at this

theorem rd_W_at {m : Mem α} {o i j : Nat} {l : List α} (h : o + l.length ≤ m.length) (hi : i = o + j) (hj : j < l.length) :
    rd (W m o l) i = l[j]? := by
  subst hi
  rw [rd_W h, if_pos (by omega), Nat.add_sub_cancel_left]

/-- `y[i] = f(p[a], q[b])` on the next cell. -/
theorem t_new {p q : CPtr} {s o i a b : Nat} {m : Mem (BF n)} {l : List (BF n)} {μ ν : Mem (BF n)} {x y : BF n}
    {f : BF n → BF n → BF n} {g : CM δ} (hD : D = bl kd s (W m o l) + F) (hp : View F p μ) (hq : View F q ν)
    (hx : rd μ a = some x) (hy : rd ν b = some y) (hi : i = o + l.length) (hl : o + l.length < m.length)
    (k : T (bl kd s (W m o (l ++ [f x y])) + F) g Q) :
    T D (do
      let e : BF n ← ld p a
      let e' : BF n ← ld q b
      st (some ⟨s, 0⟩) i (f e e')
      g) Q := by
  subst hD
  refine t_ld (View.there hp) hx (t_ld (View.there hq) hy ?_)
  exact t_st rfl (by rw [Nat.zero_add]; exact wr_W_push hl hi) k

/-- `y[i] = f(y[i], q[b])` on the last cell written. -/
theorem t_upd {q : CPtr} {s o i b : Nat} {m : Mem (BF n)} {l : List (BF n)} {ν : Mem (BF n)} {x y : BF n}
    {f : BF n → BF n → BF n} {g : CM δ} (hD : D = bl kd s (W m o (l ++ [x])) + F) (hq : View F q ν)
    (hy : rd ν b = some y) (hi : i = o + l.length) (hl : o + l.length < m.length)
    (k : T (bl kd s (W m o (l ++ [f x y])) + F) g Q) :
    T D (do
      let e : BF n ← ld (some ⟨s, 0⟩) i
      let e' : BF n ← ld q b
      st (some ⟨s, 0⟩) i (f e e')
      g) Q := by
  subst hD
  refine t_ld View.here0 (x := x) (by rw [rd_W_at (by simp; omega) hi (by simp)]; simp) (t_ld (View.there hq) hy ?_)
  refine t_st rfl (m' := W m o (l ++ [f x y])) ?_ k
  rw [wr_W_set (j := l.length) (by simp; omega) (by simp) (by omega)]
  simp

/-- MixColumns and AddRoundKey, as written in `aes_enc_forward_*`. -/
theorem t_mix_aes {xh kh : CPtr} {s o i0 i1 i2 i3 : Nat} {m m' : Mem (BF n)}
    {x0 x1 x2 x3 k0 k1 k2 k3 two three : BF n} {g : CM δ} (hD : D = bl kd s m + F)
    (hx : View F xh (ofList [x0, x1, x2, x3])) (hk : View F kh (ofList [k0, k1, k2, k3]))
    (h0 : i0 = o) (h1 : i1 = o + 1) (h2 : i2 = o + 2) (h3 : i3 = o + 3)
    (hw : wrN m o [bfAdd (bfAdd (bfAdd (bfAdd k0 (bfMul x0 two)) (bfMul x1 three)) x2) x3,
      bfAdd (bfAdd (bfAdd (bfAdd k1 x0) (bfMul x1 two)) (bfMul x2 three)) x3,
      bfAdd (bfAdd (bfAdd (bfAdd k2 x0) x1) (bfMul x2 two)) (bfMul x3 three),
      bfAdd (bfAdd (bfAdd (bfAdd k3 (bfMul x0 three)) x1) x2) (bfMul x3 two)] = some m')
    (k : T (bl kd s m' + F) g Q) :
    T D (do
      let e15 : BF n ← ld kh 0
      let e16 : BF n ← ld xh 0
      st (some ⟨s, 0⟩) i0 (bfAdd e15 (bfMul e16 two))
      let e17 : BF n ← ld (some ⟨s, 0⟩) i0
      let e18 : BF n ← ld xh 1
      st (some ⟨s, 0⟩) i0 (bfAdd e17 (bfMul e18 three))
      let e19 : BF n ← ld (some ⟨s, 0⟩) i0
      let e20 : BF n ← ld xh 2
      st (some ⟨s, 0⟩) i0 (bfAdd e19 e20)
      let e21 : BF n ← ld (some ⟨s, 0⟩) i0
      let e22 : BF n ← ld xh 3
      st (some ⟨s, 0⟩) i0 (bfAdd e21 e22)
      let e23 : BF n ← ld kh 1
      let e24 : BF n ← ld xh 0
      st (some ⟨s, 0⟩) i1 (bfAdd e23 e24)
      let e25 : BF n ← ld (some ⟨s, 0⟩) i1
      let e26 : BF n ← ld xh 1
      st (some ⟨s, 0⟩) i1 (bfAdd e25 (bfMul e26 two))
      let e27 : BF n ← ld (some ⟨s, 0⟩) i1
      let e28 : BF n ← ld xh 2
      st (some ⟨s, 0⟩) i1 (bfAdd e27 (bfMul e28 three))
      let e29 : BF n ← ld (some ⟨s, 0⟩) i1
      let e30 : BF n ← ld xh 3
      st (some ⟨s, 0⟩) i1 (bfAdd e29 e30)
      let e31 : BF n ← ld kh 2
      let e32 : BF n ← ld xh 0
      st (some ⟨s, 0⟩) i2 (bfAdd e31 e32)
      let e33 : BF n ← ld (some ⟨s, 0⟩) i2
      let e34 : BF n ← ld xh 1
      st (some ⟨s, 0⟩) i2 (bfAdd e33 e34)
      let e35 : BF n ← ld (some ⟨s, 0⟩) i2
      let e36 : BF n ← ld xh 2
      st (some ⟨s, 0⟩) i2 (bfAdd e35 (bfMul e36 two))
      let e37 : BF n ← ld (some ⟨s, 0⟩) i2
      let e38 : BF n ← ld xh 3
      st (some ⟨s, 0⟩) i2 (bfAdd e37 (bfMul e38 three))
      let e39 : BF n ← ld kh 3
      let e40 : BF n ← ld xh 0
      st (some ⟨s, 0⟩) i3 (bfAdd e39 (bfMul e40 three))
      let e41 : BF n ← ld (some ⟨s, 0⟩) i3
      let e42 : BF n ← ld xh 1
      st (some ⟨s, 0⟩) i3 (bfAdd e41 e42)
      let e43 : BF n ← ld (some ⟨s, 0⟩) i3
      let e44 : BF n ← ld xh 2
      st (some ⟨s, 0⟩) i3 (bfAdd e43 e44)
      let e45 : BF n ← ld (some ⟨s, 0⟩) i3
      let e46 : BF n ← ld xh 3
      st (some ⟨s, 0⟩) i3 (bfAdd e45 (bfMul e46 two))
      g) Q := by
  obtain ⟨hm, rfl⟩ := wrN_eq_W hw
  simp only [List.length_cons, List.length_nil] at hm
  refine t_new (l := []) (o := o) (m := m) (by rw [W_nil]; exact hD) hk hx rfl rfl (by simp; omega) (by simp; omega) ?_
  refine t_upd (l := []) rfl hx rfl (by simp; omega) (by simp; omega) ?_
  refine t_upd (l := []) rfl hx rfl (by simp; omega) (by simp; omega) ?_
  refine t_upd (l := []) rfl hx rfl (by simp; omega) (by simp; omega) ?_
  refine t_new rfl hk hx rfl rfl (by simp; omega) (by simp; omega) ?_
  refine t_upd rfl hx rfl (by simp; omega) (by simp; omega) ?_
  refine t_upd rfl hx rfl (by simp; omega) (by simp; omega) ?_
  refine t_upd rfl hx rfl (by simp; omega) (by simp; omega) ?_
  refine t_new rfl hk hx rfl rfl (by simp; omega) (by simp; omega) ?_
  refine t_upd rfl hx rfl (by simp; omega) (by simp; omega) ?_
  refine t_upd rfl hx rfl (by simp; omega) (by simp; omega) ?_
  refine t_upd rfl hx rfl (by simp; omega) (by simp; omega) ?_
  refine t_new rfl hk hx rfl rfl (by simp; omega) (by simp; omega) ?_
  refine t_upd rfl hx rfl (by simp; omega) (by simp; omega) ?_
  refine t_upd rfl hx rfl (by simp; omega) (by simp; omega) ?_
  refine t_upd rfl hx rfl (by simp; omega) (by simp; omega) ?_
  exact k

/-- MixColumns and AddRoundKey, as written in `em_enc_forward_*`. -/
theorem t_mix_em {zh xh : CPtr} {s o i0 i1 i2 i3 : Nat} {m m' : Mem (BF n)}
    {z0 z1 z2 z3 x0 x1 x2 x3 two three : BF n} {g : CM δ} (hD : D = bl kd s m + F)
    (hz : View F zh (ofList [z0, z1, z2, z3])) (hx : View F xh (ofList [x0, x1, x2, x3]))
    (h0 : i0 = o) (h1 : i1 = o + 1) (h2 : i2 = o + 2) (h3 : i3 = o + 3)
    (hw : wrN m o [bfAdd (bfAdd (bfAdd (bfAdd (bfMul z0 two) (bfMul z1 three)) z2) z3) x0,
      bfAdd (bfAdd (bfAdd (bfAdd z0 (bfMul z1 two)) (bfMul z2 three)) z3) x1,
      bfAdd (bfAdd (bfAdd (bfAdd z0 z1) (bfMul z2 two)) (bfMul z3 three)) x2,
      bfAdd (bfAdd (bfAdd (bfAdd (bfMul z0 three) z1) z2) (bfMul z3 two)) x3] = some m')
    (k : T (bl kd s m' + F) g Q) :
    T D (do
      let e15 : BF n ← ld zh 0
      let e16 : BF n ← ld zh 1
      st (some ⟨s, 0⟩) i0 (bfAdd (bfMul e15 two) (bfMul e16 three))
      let e17 : BF n ← ld (some ⟨s, 0⟩) i0
      let e18 : BF n ← ld zh 2
      st (some ⟨s, 0⟩) i0 (bfAdd e17 e18)
      let e19 : BF n ← ld (some ⟨s, 0⟩) i0
      let e20 : BF n ← ld zh 3
      st (some ⟨s, 0⟩) i0 (bfAdd e19 e20)
      let e21 : BF n ← ld (some ⟨s, 0⟩) i0
      let e22 : BF n ← ld xh 0
      st (some ⟨s, 0⟩) i0 (bfAdd e21 e22)
      let e23 : BF n ← ld zh 0
      let e24 : BF n ← ld zh 1
      st (some ⟨s, 0⟩) i1 (bfAdd e23 (bfMul e24 two))
      let e25 : BF n ← ld (some ⟨s, 0⟩) i1
      let e26 : BF n ← ld zh 2
      st (some ⟨s, 0⟩) i1 (bfAdd e25 (bfMul e26 three))
      let e27 : BF n ← ld (some ⟨s, 0⟩) i1
      let e28 : BF n ← ld zh 3
      st (some ⟨s, 0⟩) i1 (bfAdd e27 e28)
      let e29 : BF n ← ld (some ⟨s, 0⟩) i1
      let e30 : BF n ← ld xh 1
      st (some ⟨s, 0⟩) i1 (bfAdd e29 e30)
      let e31 : BF n ← ld zh 0
      let e32 : BF n ← ld zh 1
      st (some ⟨s, 0⟩) i2 (bfAdd e31 e32)
      let e33 : BF n ← ld (some ⟨s, 0⟩) i2
      let e34 : BF n ← ld zh 2
      st (some ⟨s, 0⟩) i2 (bfAdd e33 (bfMul e34 two))
      let e35 : BF n ← ld (some ⟨s, 0⟩) i2
      let e36 : BF n ← ld zh 3
      st (some ⟨s, 0⟩) i2 (bfAdd e35 (bfMul e36 three))
      let e37 : BF n ← ld (some ⟨s, 0⟩) i2
      let e38 : BF n ← ld xh 2
      st (some ⟨s, 0⟩) i2 (bfAdd e37 e38)
      let e39 : BF n ← ld zh 0
      let e40 : BF n ← ld zh 1
      st (some ⟨s, 0⟩) i3 (bfAdd (bfMul e39 three) e40)
      let e41 : BF n ← ld (some ⟨s, 0⟩) i3
      let e42 : BF n ← ld zh 2
      st (some ⟨s, 0⟩) i3 (bfAdd e41 e42)
      let e43 : BF n ← ld (some ⟨s, 0⟩) i3
      let e44 : BF n ← ld zh 3
      st (some ⟨s, 0⟩) i3 (bfAdd e43 (bfMul e44 two))
      let e45 : BF n ← ld (some ⟨s, 0⟩) i3
      let e46 : BF n ← ld xh 3
      st (some ⟨s, 0⟩) i3 (bfAdd e45 e46)
      g) Q := by
  obtain ⟨hm, rfl⟩ := wrN_eq_W hw
  simp only [List.length_cons, List.length_nil] at hm
  refine t_new (l := []) (o := o) (m := m) (by rw [W_nil]; exact hD) hz hz rfl rfl (by simp; omega) (by simp; omega) ?_
  refine t_upd (l := []) rfl hz rfl (by simp; omega) (by simp; omega) ?_
  refine t_upd (l := []) rfl hz rfl (by simp; omega) (by simp; omega) ?_
  refine t_upd (l := []) rfl hx rfl (by simp; omega) (by simp; omega) ?_
  refine t_new rfl hz hz rfl rfl (by simp; omega) (by simp; omega) ?_
  refine t_upd rfl hz rfl (by simp; omega) (by simp; omega) ?_
  refine t_upd rfl hz rfl (by simp; omega) (by simp; omega) ?_
  refine t_upd rfl hx rfl (by simp; omega) (by simp; omega) ?_
  refine t_new rfl hz hz rfl rfl (by simp; omega) (by simp; omega) ?_
  refine t_upd rfl hz rfl (by simp; omega) (by simp; omega) ?_
  refine t_upd rfl hz rfl (by simp; omega) (by simp; omega) ?_
  refine t_upd rfl hx rfl (by simp; omega) (by simp; omega) ?_
  refine t_new rfl hz hz rfl rfl (by simp; omega) (by simp; omega) ?_
  refine t_upd rfl hz rfl (by simp; omega) (by simp; omega) ?_
  refine t_upd rfl hz rfl (by simp; omega) (by simp; omega) ?_
  refine t_upd rfl hx rfl (by simp; omega) (by simp; omega) ?_
  exact k

/-- What one column of the forward computation reads. -/
theorem mixRead_inv {mix : BF n → BF n → (Nat → BF n) → (Nat → BF n) → List (BF n)} {two three : BF n}
    {fx fk : Nat → Option (BF n)} {l : List (BF n)} (h : mixRead mix two three fx fk = some l) :
    ∃ x0 x1 x2 x3 k0 k1 k2 k3 : BF n,
      (∀ i x, i < 4 → [x0, x1, x2, x3][i]? = some x → fx i = some x) ∧
      (∀ i x, i < 4 → [k0, k1, k2, k3][i]? = some x → fk i = some x) ∧
      l = mix two three (fun r => if r = 0 then x0 else if r = 1 then x1 else if r = 2 then x2 else x3)
        (fun r => if r = 0 then k0 else if r = 1 then k1 else if r = 2 then k2 else k3) := by
  unfold mixRead at h
  inv h
  obtain ⟨x0, h0, k0, g0, x1, h1, k1, g1, x2, h2, k2, g2, x3, h3, k3, g3, rfl⟩ := h
  refine ⟨x0, x1, x2, x3, k0, k1, k2, k3, ?_, ?_, rfl⟩
  · intro i x hi hx
    match i, hi with
    | 0, _ => rw [h0]; exact hx
    | 1, _ => rw [h1]; exact hx
    | 2, _ => rw [h2]; exact hx
    | 3, _ => rw [h3]; exact hx
  · intro i x hi hx
    match i, hi with
    | 0, _ => rw [g0]; exact hx
    | 1, _ => rw [g1]; exact hx
    | 2, _ => rw [g2]; exact hx
    | 3, _ => rw [g3]; exact hx

/-- The inverse affine map: a loop over eight bits and two corrections. -/
theorem t_invaff {s o i0 i2 : Nat} {m m' : Mem (BF n)} {μ : Mem (BF n)} {y : List (BF n)} {add : BF n}
    {c : Nat → Bool} {b : Nat → CM Nat} {g : CM δ} (hD : D = bl kd s m + F)
    (h : invAffineBF μ add = some y) (hw : wrN m o y = some m') (h0 : i0 = o) (h2 : i2 = o + 2)
    (hc : ∀ i, i ≤ 8 → c i = decide (i < 8))
    (hb : ∀ i m m', i < 8 → ∀ a b' c', rd μ ((i + 7) % 8) = some a → rd μ ((i + 5) % 8) = some b' → rd μ ((i + 2) % 8) = some c' →
      wr m (o + i) (bfAdd (bfAdd a b') c') = some m' → Runs (bl kd s m + F) (b i) (i + 1) (bl kd s m' + F))
    (k : T (bl kd s m' + F) g Q) :
    T D (do
      let _ ← cwhile c b 0
      let e17 : BF n ← ld (some ⟨s, 0⟩) i0
      st (some ⟨s, 0⟩) i0 (bfAdd e17 add)
      let e18 : BF n ← ld (some ⟨s, 0⟩) i2
      st (some ⟨s, 0⟩) i2 (bfAdd e18 add)
      g) Q := by
  unfold invAffineBF at h
  obtain ⟨hl, hy⟩ := tabM_at h
  have hy' : ∀ i x, i < 8 → y[i]? = some x → ∃ a b c, rd μ ((i + 7) % 8) = some a ∧ rd μ ((i + 5) % 8) = some b ∧
      rd μ ((i + 2) % 8) = some c ∧ (if i = 0 ∨ i = 2 then bfAdd (bfAdd (bfAdd a b) c) add else bfAdd (bfAdd a b) c) = x := by
    intro i x hi hx
    have hb := hy i x hi hx
    inv hb
    obtain ⟨a, ha, b, hb, c, hc, e⟩ := hb
    exact ⟨a, b, c, ha, hb, hc, e⟩
  obtain ⟨hm, rfl⟩ := wrN_eq_W hw
  match y, hl with
  | [y0, y1, y2, y3, y4, y5, y6, y7], _ =>
    obtain ⟨a0, b0, c0, ha0, hb0, hc0, e0⟩ := hy' 0 y0 (by decide) rfl
    obtain ⟨a2, b2, c2, ha2, hb2, hc2, e2⟩ := hy' 2 y2 (by decide) rfl
    simp only [true_or, or_true, if_true] at e0 e2
    simp only [List.length_cons, List.length_nil] at hm
    refine t_fill (o := o) (N := 8) [bfAdd (bfAdd a0 b0) c0, y1, bfAdd (bfAdd a2 b2) c2, y3, y4, y5, y6, y7] hD rfl (by omega) (by decide) hc
      (fun i x hi hx' hw' => ?_) ?_
    · match i, hi with
      | 0, _ =>
        simp only [List.getElem?_cons_zero, Option.some.injEq] at hx'
        subst hx'
        exact hb 0 _ _ (by decide) a0 b0 c0 ha0 hb0 hc0 hw'
      | 2, _ =>
        simp only [List.getElem?_cons_succ, List.getElem?_cons_zero, Option.some.injEq] at hx'
        subst hx'
        exact hb 2 _ _ (by decide) a2 b2 c2 ha2 hb2 hc2 hw'
      | 1, _ =>
        obtain ⟨a, b', c', ha, hb', hc', e⟩ := hy' 1 x (by decide) hx'
        rw [if_neg (by decide)] at e
        subst e
        exact hb 1 _ _ (by decide) a b' c' ha hb' hc' hw'
      | i + 3, _ =>
        obtain ⟨a, b', c', ha, hb', hc', e⟩ := hy' (i + 3) x (by omega) hx'
        rw [if_neg (by omega)] at e
        subst e
        exact hb (i + 3) _ _ (by omega) a b' c' ha hb' hc' hw'
    · refine t_ld View.here0 (x := bfAdd (bfAdd a0 b0) c0) (by rw [rd_W_at (j := 0) (by simp; omega) (by omega) (by simp)]; rfl) ?_
      refine t_st rfl (by rw [Nat.zero_add]; exact wr_W_set (j := 0) (by simp; omega) (by simp) (by omega)) ?_
      refine t_ld View.here0 (x := bfAdd (bfAdd a2 b2) c2) (by rw [rd_W_at (j := 2) (by simp; omega) (by omega) (by simp)]; rfl) ?_
      refine t_st rfl (by rw [Nat.zero_add]; exact wr_W_set (j := 2) (by simp; omega) (by simp) (by omega)) ?_
      rw [e0, e2]
      exact k

/-- The round constant is added to the bits of a byte. -/
theorem t_rcon {t : Nat} {r : Byte} {mkd : BF n} {l : List (BF n)} {m' : Mem (BF n)} {ircon : Nat} {g : CM δ}
    (hD : D = bl kd t (ofList l) + F) (hr : roundConstants[ircon]? = some r) (h : ksRconF true ircon mkd (ofList l) = some m')
    (hl : l.length = 8) (k : T (bl kd t m' + F) g Q) :
    T D (do
      let bf_r ← alloc .stack (malloc 8 : Mem (BF n))
      let _ ← cwhile (fun i => decide (i < 8)) (fun i => do
        let e10 ← cshr 32 r.toNat i
        st bf_r i (bfMulBit mkd (BitVec.ofNat 8 (e10 &&& 1)))
        let e11 : BF n ← ld (some ⟨t, 0⟩) i
        let e12 : BF n ← ld bf_r i
        st (some ⟨t, 0⟩) i (bfAdd e11 e12)
        pure ((i + 1) % 4294967296)) 0
      cfree .stack bf_r
      g) Q := by
  unfold ksRconF at h
  rw [if_pos rfl, hr] at h
  obtain ⟨l', rfl, hl', hx⟩ := fill_some h
  refine t_alloc fun b => ?_
  have hw0 : ∀ i, i ≤ 8 → 0 + (List.take i (tabP 8 fun i => bfMulBit mkd (getBit r i))).length ≤ (malloc 8 : Mem (BF n)).length :=
    fun i hi => by simp [malloc, tabP_length]
  have hw1 : ∀ i, 0 + (List.take i l').length ≤ (ofList l).length := fun i => by simp [ofList_length, hl, hl']
  refine t_while 8 (fun i => i) (fun i => bl .stack b (W (malloc 8) 0 ((tabP 8 fun i => bfMulBit mkd (getBit r i)).take i)) +
    (bl kd t (W (ofList l) 0 (l'.take i)) + F)) (by decide) rfl (by rw [W_take_zero, W_take_zero, hD]) (fun i hi => by simpa using hi) rfl
    (fun i hi => ?_) ?_
  · have hy : l'[i]? = some l'[i] := List.getElem?_eq_getElem (by omega)
    have hb := hx i _ hi hy
    inv hb
    obtain ⟨y, hy', e⟩ := hb
    refine t_cshr (by omega) ?_
    have hbit : BitVec.ofNat 8 ((r.toNat >>> i) &&& 1) = getBit r i := by
      unfold getBit; rw [ofNat_and, ofNat_shr]; rfl
    rw [hbit]
    have ht : (tabP 8 fun i => bfMulBit mkd (getBit r i))[i]? = some (bfMulBit mkd (getBit r i)) := by rw [tabP_getElem?, if_pos hi]
    refine t_st rfl (wr_W (by simp [malloc, tabP_length]) ht) ?_
    refine t_ld (View.there View.here0) (x := y) ?_ (t_ld View.here0 (x := bfMulBit mkd (getBit r i)) ?_ ?_)
    · rw [rd_W (hw1 i), if_neg (by simp)]; exact hy'
    · rw [rd_W_at (j := i) (hw0 _ (by omega)) (by omega) (by simp [tabP_length]; omega), List.getElem?_take_of_lt (by omega), ht]
    refine t_st (by hfind1) (wr_W (o := 0) (l := l') (by simp [ofList_length, hl, hl']) (by rw [hy, e])) (t_pure ⟨by omega, by hfind⟩)
  · refine t_free rfl ?_
    rw [W_take_full _ _ _ (by omega)]
    have : W (ofList l) 0 l' = ofList l' := by simp [W, ofList, hl, hl']
    rw [this]
    exact k

/-- The pointer `delta` and what it points to. -/
def DeltaV (D : Blocks) (dp : CPtr) (d : Option (Mem Byte)) : Prop :=
  match d with
  | some m => ∃ a, dp = some a ∧ View D dp m
  | none => dp = none

theorem DeltaV.there {E : Blocks} {dp : CPtr} {d : Option (Mem Byte)} (h : DeltaV D dp d) : DeltaV (E + D) dp d := by
  rcases d with _ | m
  · exact h
  · obtain ⟨a, h1, h2⟩ := h
    exact ⟨a, h1, h2.there⟩

theorem View.delta {dp : CPtr} {m : Mem Byte} (h : View D dp m) : DeltaV D dp (some m) := by
  obtain ⟨b, o, kd, m', rfl, h⟩ := h
  exact ⟨_, rfl, b, o, kd, m', rfl, h⟩

theorem DeltaV.isSome {dp : CPtr} {d : Option (Mem Byte)} (h : DeltaV D dp d) : dp.isSome = d.isSome := by
  rcases d with _ | m
  · have : dp = none := h
    rw [this]; rfl
  · obtain ⟨a, h1, h2⟩ := h
    rw [h1]; rfl

/-- `delta ? bf_load(delta) : bf_zero()`. -/
theorem t_delta {dp : CPtr} {d : Option (Mem Byte)} {x : BF n} {g : BF n → CM δ} (hn : 8 ≤ n)
    (hd : DeltaV D dp d)
    (h : loadDelta n d = some x) (k : T D (g x) Q) :
    T D ((if dp.isSome = true then bf_load n dp else pure (bfZero : BF n)) >>= g) Q := by
  rcases d with _ | m
  · have hd' : dp = none := hd
    subst hd'
    unfold loadDelta at h
    obtain rfl := Option.some.inj h
    exact t_pbind k
  · obtain ⟨a, rfl, hv⟩ := hd
    exact t_bf_load0 hn hv h k

theorem byte_one (b : Byte) : (b.toNat = 1) ↔ b = 1 := by revert b; decide
theorem byte_zero (b : Byte) : (b.toNat = 0) ↔ b = 0 := by revert b; decide

/-- The translated state of a `zk_hash` context. -/
def zc (z : ZkCtx n) (p : CPtr) : ZkC n := ⟨some z.h0, some z.h1, some z.s, some z.t, some p⟩

end

end Faest.C
