/-
Counting of the seeds for which the universal hashes collide.
-/
import Mathlib.Algebra.Polynomial.Roots
import Mathlib.Algebra.BigOperators.Fin
import Mathlib.Data.Fintype.BigOperators
import Verif.Proofs.UHash

namespace Faest
open Spec (polyHash listHash lift64 elt zkHash padded uhBlocks uhH0 uhH1)

variable {n : Nat}

/-! ### Roots -/

open Polynomial in
/-- A polynomial with `m` coefficients which are not all zero has at most `m - 1` roots. -/
theorem polyHash_roots (hg : BF.GoodSize n) {m : Nat} {y : Nat → BF n} (hy : ∃ i, i < m ∧ y i ≠ 0) :
    (Finset.univ.filter fun k : BF n => polyHash k y m = 0).card ≤ m - 1 := by
  let _ : Field (BF n) := (BF.isField hg).toField
  let p : (BF n)[X] := ∑ i ∈ Finset.range m, C (y (m - 1 - i)) * X ^ i
  have hc : ∀ i, i < m → p.coeff i = y (m - 1 - i) := by
    intro i hi
    simp only [p, finsetSum_coeff, coeff_C_mul_X_pow]
    rw [Finset.sum_ite_eq (Finset.range m) i, if_pos (Finset.mem_range.2 hi)]
  have hp : p ≠ 0 := by
    obtain ⟨i, hi, hyi⟩ := hy
    intro h
    have := hc (m - 1 - i) (by omega)
    rw [h, coeff_zero, show m - 1 - (m - 1 - i) = i by omega] at this
    exact hyi this.symm
  have hd : p.natDegree ≤ m - 1 := by
    refine natDegree_sum_le_of_forall_le _ _ fun i hi => ?_
    exact (natDegree_C_mul_X_pow_le _ _).trans (by have := Finset.mem_range.1 hi; omega)
  have hev : ∀ k : BF n, polyHash k y m = p.eval k := by
    intro k
    simp only [p, eval_finsetSum, eval_mul, eval_C, eval_pow, eval_X]
    rfl
  have hsub : (Finset.univ.filter fun k : BF n => polyHash k y m = 0) ⊆ p.roots.toFinset := by
    intro k hk
    rw [Multiset.mem_toFinset, mem_roots hp, IsRoot, ← hev]
    exact (Finset.mem_filter.1 hk).2
  exact (Finset.card_le_card hsub).trans ((Multiset.toFinset_card_le _).trans ((card_roots' p).trans hd))

theorem listHash_eq_polyHash (key : BF n) (ys : List (BF n)) :
    listHash key ys = polyHash key (fun i => ys.getD i 0) ys.length := by
  induction ys with
  | nil => simp [listHash, polyHash]
  | cons y ys ih =>
    rw [listHash, ih, List.length_cons]
    unfold polyHash
    rw [Finset.sum_range_succ, add_comm]
    congr 1
    · refine Finset.sum_congr rfl fun i hi => ?_
      have := Finset.mem_range.1 hi
      rw [show ys.length + 1 - 1 - i = (ys.length - 1 - i) + 1 by omega]
      simp
    · simp

theorem lift64_inj (hn : 64 ≤ n) : Function.Injective (lift64 n) := by
  intro a b h
  have hv := congrArg BF.v h
  ext1
  unfold lift64 at hv
  apply BitVec.eq_of_getLsbD_eq
  intro i hi
  have := congrArg (fun v : BitVec n => v.getLsbD i) hv
  simp only [BitVec.truncate_eq_setWidth, BitVec.getLsbD_setWidth] at this
  simpa [show i < n by omega] using this

/-! ### Linear equations -/

/-- `a h + b k = c` has exactly `2^n` solutions `(a, b)` if `(h, k)` is not zero. -/
theorem card_lin (hg : BF.GoodSize n) {h k : BF n} (hne : h ≠ 0 ∨ k ≠ 0) (c : BF n) :
    (Finset.univ.filter fun r : BF n × BF n => r.1 * h + r.2 * k = c).card = 2 ^ n := by
  let _ : Field (BF n) := (BF.isField hg).toField
  rw [← BF.card_eq (n := n), ← Finset.card_univ]
  rcases hne with hh | hk
  · refine Finset.card_bij (fun r _ => r.2) (fun _ _ => Finset.mem_univ _) ?_ ?_
    · rintro ⟨a, b⟩ ha ⟨a', b'⟩ ha' (rfl : b = b')
      have e := (Finset.mem_filter.1 ha).2
      have e' := (Finset.mem_filter.1 ha').2
      dsimp only at e e'
      have : a * h = a' * h := by linear_combination e - e'
      rw [mul_right_cancel₀ hh this]
    · intro b _
      refine ⟨((c - b * k) / h, b), ?_, rfl⟩
      rw [Finset.mem_filter]
      refine ⟨Finset.mem_univ _, ?_⟩
      dsimp only
      rw [div_mul_cancel₀ _ hh]; ring
  · refine Finset.card_bij (fun r _ => r.1) (fun _ _ => Finset.mem_univ _) ?_ ?_
    · rintro ⟨a, b⟩ ha ⟨a', b'⟩ ha' (rfl : a = a')
      have e := (Finset.mem_filter.1 ha).2
      have e' := (Finset.mem_filter.1 ha').2
      dsimp only at e e'
      have : b * k = b' * k := by linear_combination e - e'
      rw [mul_right_cancel₀ hk this]
    · intro a _
      refine ⟨(a, (c - a * h) / k), ?_, rfl⟩
      rw [Finset.mem_filter]
      refine ⟨Finset.mem_univ _, ?_⟩
      dsimp only
      rw [div_mul_cancel₀ _ hk]; ring

/-- The same for a set of values. -/
theorem card_lin_mem (hg : BF.GoodSize n) {h k : BF n} (hne : h ≠ 0 ∨ k ≠ 0) (S : Finset (BF n)) :
    (Finset.univ.filter fun r : BF n × BF n => r.1 * h + r.2 * k ∈ S).card = S.card * 2 ^ n := by
  have := Finset.card_eq_sum_card_fiberwise (f := fun r : BF n × BF n => r.1 * h + r.2 * k) (t := S)
    (s := Finset.univ.filter fun r : BF n × BF n => r.1 * h + r.2 * k ∈ S) (fun r hr => (Finset.mem_filter.1 hr).2)
  rw [this, Finset.sum_const_nat (m := 2 ^ n)]
  intro c hc
  rw [Finset.filter_filter, ← card_lin hg hne c]
  congr 1
  ext r
  simp only [Finset.mem_filter, Finset.mem_univ, true_and]
  exact ⟨fun h => h.2, fun h => ⟨h ▸ hc, h⟩⟩

/-- Counting pairs by the second component. -/
theorem card_prod_le {A B : Type} [Fintype A] [Fintype B] [DecidableEq B] (p : A → B → Prop)
    [∀ a b, Decidable (p a b)] (bad : Finset B) {L : Nat}
    (h : ∀ b, b ∉ bad → (Finset.univ.filter fun a => p a b).card ≤ L) :
    (Finset.univ.filter fun r : A × B => p r.1 r.2).card ≤ Fintype.card B * L + bad.card * Fintype.card A := by
  have h0 := Finset.card_eq_sum_card_fiberwise (f := Prod.snd) (t := (Finset.univ : Finset B))
    (s := Finset.univ.filter fun r : A × B => p r.1 r.2) (fun r _ => Finset.mem_coe.2 (Finset.mem_univ _))
  have h1 : ∀ b, ((Finset.univ.filter fun r : A × B => p r.1 r.2).filter fun r => r.2 = b).card
      = (Finset.univ.filter fun a => p a b).card := by
    intro b
    refine Finset.card_bij (fun r _ => r.1) ?_ ?_ ?_
    · rintro ⟨a, b'⟩ hr
      simp only [Finset.mem_filter, Finset.mem_univ, true_and] at hr ⊢
      exact hr.2 ▸ hr.1
    · rintro ⟨a, b'⟩ hr ⟨a', b''⟩ hr' (rfl : a = a')
      simp only [Finset.mem_filter, Finset.mem_univ, true_and] at hr hr'
      rw [hr.2, hr'.2]
    · intro a ha
      exact ⟨(a, b), by simpa using ha, rfl⟩
  rw [h0, Finset.sum_congr rfl fun b _ => h1 b]
  calc ∑ b, (Finset.univ.filter fun a => p a b).card
      ≤ ∑ b, (L + if b ∈ bad then Fintype.card A else 0) := by
        refine Finset.sum_le_sum fun b _ => ?_
        by_cases hb : b ∈ bad
        · rw [if_pos hb]
          exact (Finset.card_le_univ _).trans (Nat.le_add_left _ _)
        · rw [if_neg hb]; exact h b hb
    _ = Fintype.card B * L + bad.card * Fintype.card A := by
        rw [Finset.sum_add_distrib, Finset.sum_const, Finset.card_univ, smul_eq_mul, Finset.sum_ite_mem,
          Finset.univ_inter, Finset.sum_const, smul_eq_mul]

theorem card_and {A B : Type} [Fintype A] [Fintype B] (p : A → Prop) (q : B → Prop) [DecidablePred p]
    [DecidablePred q] : (Finset.univ.filter fun r : A × B => p r.1 ∧ q r.2).card
      = (Finset.univ.filter p).card * (Finset.univ.filter q).card := by
  rw [← Finset.card_product, ← Finset.filter_product, Finset.univ_product_univ]

/-! ### Seeds -/

/-- Bit strings and numbers. -/
def bitVecEquiv (w : Nat) : BitVec w ≃ Fin (2 ^ w) where
  toFun a := a.toFin
  invFun i := ⟨i⟩
  left_inv _ := rfl
  right_inv _ := rfl

instance fintypeBitVec (w : Nat) : Fintype (BitVec w) := Fintype.ofEquiv _ (bitVecEquiv w).symm

theorem card_bitVec (w : Nat) : Fintype.card (BitVec w) = 2 ^ w := by
  rw [Fintype.card_congr (bitVecEquiv w), Fintype.card_fin]

theorem card_seeds (N : Nat) : Fintype.card (Fin N → Byte) = 2 ^ (8 * N) := by
  rw [Fintype.card_fun, card_bitVec, Fintype.card_fin, Nat.pow_mul]

/-- A seed of `N` bytes, continued by zeros. -/
def seedFn {N : Nat} (sd : Fin N → Byte) (t : Nat) : Byte := if h : t < N then sd ⟨t, h⟩ else 0

theorem byteFn_ofFn {N : Nat} (sd : Fin N → Byte) : Spec.byteFn (List.ofFn sd) = seedFn sd := by
  funext t
  unfold Spec.byteFn seedFn
  rw [List.getElem?_ofFn]
  split <;> rfl

theorem loadF_inj (hn : 8 ∣ n) {g h : Nat → Byte} (e : loadF n g = loadF n h) {t : Nat} (ht : t < n / 8) :
    g t = h t := by
  have := congrArg (fun a => byteAt a t) e
  simp only [loadF] at this
  rwa [byteAt_ofBytes hn _ _ ht, byteAt_ofBytes hn _ _ ht] at this

/-- A seed of some elements and 64 bits more is determined by them. -/
theorem seed_inj (hn : 8 ∣ n) (hp : 0 < n) {m N : Nat} (hN : N = m * (n / 8) + 8) {sd sd' : Fin N → Byte}
    (h : ∀ i, i < m → elt n (seedFn sd) i = elt n (seedFn sd') i)
    (h' : loadF 64 (fun k => seedFn sd (m * (n / 8) + k)) = loadF 64 fun k => seedFn sd' (m * (n / 8) + k)) :
    sd = sd' := by
  have h8 : 0 < n / 8 := Nat.div_pos (Nat.le_of_dvd hp hn) (by decide)
  funext t
  have key : seedFn sd t = seedFn sd' t := by
    by_cases ht : t.val < m * (n / 8)
    · have hi : t.val / (n / 8) < m := (Nat.div_lt_iff_lt_mul h8).2 ht
      have := loadF_inj hn (h _ hi) (Nat.mod_lt t.val h8)
      rwa [Nat.div_add_mod'] at this
    · have := loadF_inj (by decide) h' (t := t.val - m * (n / 8)) (by have := t.isLt; omega)
      rwa [show m * (n / 8) + (t.val - m * (n / 8)) = t.val by omega] at this
  unfold seedFn at key
  simpa [t.isLt] using key

/-! ### ZKHash -/

theorem zk_bad (hl : BF.LamSize n) {ds : List (BF n)} (hd : ∃ d ∈ ds, d ≠ 0) :
    (Finset.univ.filter fun q : BF n × BF 64 =>
      listHash q.1 ds = 0 ∧ listHash (lift64 n q.2) ds = 0).card ≤ (ds.length - 1) * (ds.length - 1) := by
  have h64 : 64 ≤ n := by rcases hl with rfl | rfl | rfl <;> decide
  have hex : ∃ i, i < ds.length ∧ ds.getD i 0 ≠ 0 := by
    obtain ⟨d, hm, hne⟩ := hd
    obtain ⟨i, hi, rfl⟩ := List.mem_iff_getElem.1 hm
    exact ⟨i, hi, by simpa [List.getD, hi] using hne⟩
  have h1 := polyHash_roots hl.good hex
  simp only [← listHash_eq_polyHash] at h1
  have h2 : (Finset.univ.filter fun q : BF 64 => listHash (lift64 n q) ds = 0).card ≤ ds.length - 1 := by
    refine le_trans (Finset.card_le_card_of_injOn (lift64 n) ?_ ((lift64_inj h64).injOn)) h1
    intro q hq
    simpa using hq
  rw [card_and (fun k : BF n => listHash k ds = 0) (fun k : BF 64 => listHash (lift64 n k) ds = 0)]
  exact Nat.mul_le_mul h1 h2

/-- Number of seeds for which ZKHash maps a list which is not zero to a given value. -/
theorem zk_count (hl : BF.LamSize n) {ds : List (BF n)} (hd : ∃ d ∈ ds, d ≠ 0) (x : BF n) :
    (Finset.univ.filter fun sd : Fin (3 * (n / 8) + 8) → Byte => zkHash n (seedFn sd) ds x = 0).card
      ≤ 2 ^ (2 * n + 64) + (ds.length - 1) ^ 2 * 2 ^ (2 * n) := by
  have h8 : 8 ∣ n := by rcases hl with rfl | rfl | rfl <;> decide
  have hp : 0 < n := by rcases hl with rfl | rfl | rfl <;> decide
  have hcount := card_prod_le (A := BF n × BF n) (B := BF n × BF 64)
    (fun r q => r.1 * listHash q.1 ds + r.2 * listHash (lift64 n q.2) ds = -x)
    (Finset.univ.filter fun q : BF n × BF 64 => listHash q.1 ds = 0 ∧ listHash (lift64 n q.2) ds = 0)
    (L := 2 ^ n) (by
      intro q hq
      refine le_of_eq (card_lin hl.good ?_ (-x))
      simp only [Finset.mem_filter, Finset.mem_univ, true_and] at hq
      by_cases h : listHash q.1 ds = 0
      · exact .inr fun h' => hq ⟨h, h'⟩
      · exact .inl h)
  have hinj : (Finset.univ.filter fun sd : Fin (3 * (n / 8) + 8) → Byte => zkHash n (seedFn sd) ds x = 0).card
      ≤ (Finset.univ.filter fun r : (BF n × BF n) × (BF n × BF 64) =>
        r.1.1 * listHash r.2.1 ds + r.1.2 * listHash (lift64 n r.2.2) ds = -x).card := by
    refine Finset.card_le_card_of_injOn (fun sd => ((elt n (seedFn sd) 0, elt n (seedFn sd) 1),
      (elt n (seedFn sd) 2, loadF 64 fun k => seedFn sd (3 * (n / 8) + k)))) ?_ ?_
    · intro sd hsd
      simp only [Finset.coe_filter, Finset.mem_univ, true_and, Set.mem_ofPred_eq] at hsd ⊢
      exact eq_neg_of_add_eq_zero_left hsd
    · intro sd _ sd' _ h
      simp only [Prod.mk.injEq] at h
      obtain ⟨⟨e0, e1⟩, e2, e3⟩ := h
      refine seed_inj h8 hp rfl (fun i hi => ?_) e3
      rcases (by omega : i = 0 ∨ i = 1 ∨ i = 2) with rfl | rfl | rfl
      · exact e0
      · exact e1
      · exact e2
  refine hinj.trans (hcount.trans ?_)
  simp only [Fintype.card_prod, BF.card_eq]
  have e1 : 2 ^ n * 2 ^ 64 * 2 ^ n = 2 ^ (2 * n + 64) := by
    rw [← Nat.pow_add, ← Nat.pow_add]; congr 1; omega
  have e2 : 2 ^ n * 2 ^ n = 2 ^ (2 * n) := by rw [← Nat.pow_add]; congr 1; omega
  rw [e1, e2, Nat.pow_two]
  exact Nat.add_le_add_left (Nat.mul_le_mul_right _ (zk_bad hl hd)) _

/-! ### VOLEHash -/

/-- A position which is not zero gives an element which is not zero. -/
theorem elt_ne_zero (hn : 8 ∣ n) (hp : 0 < n) {g : Nat → Byte} {j : Nat} (hj : g j ≠ 0) :
    elt n g (j / (n / 8)) ≠ 0 := by
  have h8 : 0 < n / 8 := Nat.div_pos (Nat.le_of_dvd hp hn) (by decide)
  intro h
  have e : elt n g (j / (n / 8)) = elt n (fun _ => 0) 0 := by rw [h, elt_zero hn]
  have := loadF_inj hn e (Nat.mod_lt j h8)
  rw [Nat.div_add_mod'] at this
  exact hj this

theorem card_low16 (hn : 16 ≤ n) (a b : Byte) :
    (Finset.univ.filter fun v : BF n => byteAt v 0 = a ∧ byteAt v 1 = b).card ≤ 2 ^ (n - 16) := by
  rw [← Fintype.card_fin (2 ^ (n - 16)), ← Finset.card_univ]
  refine Finset.card_le_card_of_injOn (fun v => (v.v.extractLsb' 16 (n - 16)).toFin)
    (fun _ _ => Finset.mem_coe.2 (Finset.mem_univ _)) ?_
  intro v hv w hw h
  simp only [Finset.coe_filter, Finset.mem_univ, true_and, Set.mem_ofPred_eq] at hv hw
  have h' : v.v.extractLsb' 16 (n - 16) = w.v.extractLsb' 16 (n - 16) := BitVec.toFin_inj.1 h
  ext1
  apply BitVec.eq_of_getLsbD_eq
  intro i hi
  by_cases h0 : i < 8
  · have := byteAt_getLsbD v 0 i h0
    have := byteAt_getLsbD w 0 i h0
    simp_all
  · by_cases h1 : i < 16
    · have e := byteAt_getLsbD v 1 (i - 8) (by omega)
      have e' := byteAt_getLsbD w 1 (i - 8) (by omega)
      rw [hv.2] at e
      rw [hw.2] at e'
      rw [show 8 * 1 + (i - 8) = i by omega] at e e'
      rw [← e, ← e']
    · have := congrArg (fun u => u.getLsbD (i - 16)) h'
      simp only [BitVec.getLsbD_extractLsb'] at this
      simpa [show i - 16 < n - 16 by omega, show 16 + (i - 16) = i by omega] using this

theorem vole_bad (hl : BF.LamSize n) {ell : Nat} (h8 : ell % 8 = 0) {z : Nat → Byte}
    (hz : ∃ j, j < (ell + n) / 8 ∧ z j ≠ 0) :
    (Finset.univ.filter fun q : BF n × BF 64 =>
      polyHash q.1 (elt n (padded z ((ell + n) / 8))) (uhBlocks n ell) = 0 ∧
      lift64 n (polyHash q.2 (elt 64 (padded z ((ell + n) / 8))) (uhBlocks n ell * (n / 64))) = 0).card
      ≤ (uhBlocks n ell - 1) * (uhBlocks n ell * (n / 64) - 1) := by
  have h8n : 8 ∣ n := by rcases hl with rfl | rfl | rfl <;> decide
  have h64 : 64 ≤ n := by rcases hl with rfl | rfl | rfl <;> decide
  obtain ⟨j, hj, hzj⟩ := hz
  have hpz : padded z ((ell + n) / 8) j ≠ 0 := by unfold padded; rwa [if_pos hj]
  have b0 : j / (n / 8) < uhBlocks n ell := by
    unfold uhBlocks; rcases hl with rfl | rfl | rfl <;> omega
  have b1 : j / (64 / 8) < uhBlocks n ell * (n / 64) := by
    unfold uhBlocks; rcases hl with rfl | rfl | rfl <;> omega
  have c0 := polyHash_roots hl.good ⟨_, b0, elt_ne_zero h8n (by omega) hpz⟩
  have c1 := polyHash_roots (n := 64) (.inr (.inl rfl)) ⟨_, b1, elt_ne_zero (by decide) (by decide) hpz⟩
  have e : ∀ a : BF 64, lift64 n a = 0 ↔ a = 0 := by
    intro a
    have h0 : lift64 n 0 = 0 := by
      ext1; unfold lift64
      apply BitVec.eq_of_getLsbD_eq
      intro i hi
      simp
    constructor
    · intro h; exact lift64_inj h64 (h.trans h0.symm)
    · rintro rfl; exact h0
  simp only [e]
  rw [card_and (fun k : BF n => polyHash k (elt n (padded z ((ell + n) / 8))) (uhBlocks n ell) = 0)
    (fun k : BF 64 => polyHash k (elt 64 (padded z ((ell + n) / 8))) (uhBlocks n ell * (n / 64)) = 0)]
  exact Nat.mul_le_mul c0 c1

/-- Number of seeds for which VOLEHash maps an input which is not zero to zero. -/
theorem vole_count (hl : BF.LamSize n) {ell : Nat} (h8 : ell % 8 = 0) {z : Nat → Byte}
    (hz : ∃ j, j < (ell + n) / 8 + (n / 8 + 2) ∧ z j ≠ 0) :
    (Finset.univ.filter fun sd : Fin (5 * (n / 8) + 8) → Byte =>
      ∀ t, t < n / 8 + 2 → Spec.voleHash n ell (seedFn sd) z t = 0).card
      ≤ 2 ^ (4 * n + 48) + (uhBlocks n ell - 1) * (uhBlocks n ell * (n / 64) - 1) * 2 ^ (4 * n) := by
  classical
  have h8n : 8 ∣ n := by rcases hl with rfl | rfl | rfl <;> decide
  have h64 : 64 ≤ n := by rcases hl with rfl | rfl | rfl <;> decide
  by_cases hz' : ∃ j, j < (ell + n) / 8 ∧ z j ≠ 0
  · let P0 : BF n → BF n := fun k => polyHash k (elt n (padded z ((ell + n) / 8))) (uhBlocks n ell)
    let P1 : BF 64 → BF n := fun k =>
      lift64 n (polyHash k (elt 64 (padded z ((ell + n) / 8))) (uhBlocks n ell * (n / 64)))
    let c : BF n := loadF n fun t => z ((ell + n) / 8 + t)
    let S : Finset (BF n) := Finset.univ.filter fun v : BF n =>
      byteAt v 0 = z ((ell + n) / 8 + n / 8) ∧ byteAt v 1 = z ((ell + n) / 8 + (n / 8 + 1))
    have hcount := card_prod_le (A := (BF n × BF n) × (BF n × BF n)) (B := BF n × BF 64)
      (fun r q => (r.1.1 * P0 q.1 + r.1.2 * P1 q.2 = c) ∧ (r.2.1 * P0 q.1 + r.2.2 * P1 q.2 ∈ S))
      (Finset.univ.filter fun q : BF n × BF 64 => P0 q.1 = 0 ∧ P1 q.2 = 0)
      (L := 2 ^ n * (2 ^ (n - 16) * 2 ^ n)) (by
        intro q hq
        simp only [Finset.mem_filter, Finset.mem_univ, true_and] at hq
        have hne : P0 q.1 ≠ 0 ∨ P1 q.2 ≠ 0 := by
          by_cases h : P0 q.1 = 0
          · exact .inr fun h' => hq ⟨h, h'⟩
          · exact .inl h
        rw [card_and (fun r : BF n × BF n => r.1 * P0 q.1 + r.2 * P1 q.2 = c)
          (fun r : BF n × BF n => r.1 * P0 q.1 + r.2 * P1 q.2 ∈ S), card_lin hl.good hne, card_lin_mem hl.good hne]
        exact Nat.mul_le_mul_left _ (Nat.mul_le_mul_right _ (card_low16 (by omega) _ _)))
    have hinj : (Finset.univ.filter fun sd : Fin (5 * (n / 8) + 8) → Byte =>
        ∀ t, t < n / 8 + 2 → Spec.voleHash n ell (seedFn sd) z t = 0).card
        ≤ (Finset.univ.filter fun r : ((BF n × BF n) × (BF n × BF n)) × (BF n × BF 64) =>
          (r.1.1.1 * P0 r.2.1 + r.1.1.2 * P1 r.2.2 = c) ∧ (r.1.2.1 * P0 r.2.1 + r.1.2.2 * P1 r.2.2 ∈ S)).card := by
      refine Finset.card_le_card_of_injOn (fun sd => (((elt n (seedFn sd) 0, elt n (seedFn sd) 1),
        (elt n (seedFn sd) 2, elt n (seedFn sd) 3)),
        (elt n (seedFn sd) 4, loadF 64 fun k => seedFn sd (5 * (n / 8) + k)))) ?_ ?_
      · intro sd hsd
        simp only [Finset.coe_filter, Finset.mem_univ, true_and, Set.mem_ofPred_eq] at hsd ⊢
        have hx : ∀ a b : Byte, a ^^^ b = 0 → a = b := fun a b h => by
          have := congrArg (· ^^^ b) h
          simpa [BitVec.xor_assoc] using this
        constructor
        · rw [← loadF_byteAt h8n (elt n (seedFn sd) 0 * P0 _ + _)]
          refine loadF_congr fun t ht => hx _ _ ?_
          have := hsd t (by omega)
          unfold Spec.voleHash at this
          rwa [if_pos ht] at this
        · rw [Finset.mem_filter]
          refine ⟨Finset.mem_univ _, hx _ _ ?_, hx _ _ ?_⟩
          · have := hsd (n / 8) (by omega)
            unfold Spec.voleHash at this
            rwa [if_neg (by omega), Nat.sub_self] at this
          · have := hsd (n / 8 + 1) (by omega)
            unfold Spec.voleHash at this
            rwa [if_neg (by omega), Nat.add_sub_cancel_left] at this
      · intro sd _ sd' _ h
        simp only [Prod.mk.injEq] at h
        obtain ⟨⟨⟨e0, e1⟩, e2, e3⟩, e4, e5⟩ := h
        refine seed_inj h8n (by omega) rfl (fun i hi => ?_) e5
        rcases (by omega : i = 0 ∨ i = 1 ∨ i = 2 ∨ i = 3 ∨ i = 4) with rfl | rfl | rfl | rfl | rfl
        · exact e0
        · exact e1
        · exact e2
        · exact e3
        · exact e4
    refine hinj.trans (hcount.trans ?_)
    simp only [Fintype.card_prod, BF.card_eq]
    have e1 : 2 ^ n * 2 ^ 64 * (2 ^ n * (2 ^ (n - 16) * 2 ^ n)) = 2 ^ (4 * n + 48) := by
      rw [← Nat.pow_add, ← Nat.pow_add, ← Nat.pow_add, ← Nat.pow_add]; congr 1; omega
    have e2 : 2 ^ n * 2 ^ n * (2 ^ n * 2 ^ n) = 2 ^ (4 * n) := by
      rw [← Nat.pow_add, ← Nat.pow_add]; congr 1; omega
    rw [e1, e2]
    exact Nat.add_le_add_left (Nat.mul_le_mul_right _ (vole_bad hl h8 hz')) _
  · rw [Finset.filter_false_of_mem, Finset.card_empty]
    · exact Nat.zero_le _
    · intro sd _ hall
      obtain ⟨j, hj, hzj⟩ := hz
      have hzero : ∀ i, i < (ell + n) / 8 → z i = 0 := fun i hi => by
        by_contra h; exact hz' ⟨i, hi, h⟩
      have hj' : (ell + n) / 8 ≤ j := by
        by_contra h; exact hzj (hzero j (by omega))
      apply hzj
      have hpad : padded z ((ell + n) / 8) = fun _ => 0 := by
        funext t; unfold padded; split
        · exact hzero t (by assumption)
        · rfl
      have := hall (j - (ell + n) / 8) (by omega)
      unfold Spec.voleHash uhH0 uhH1 at this
      have hp0 : ∀ (m k : Nat) (_ : 8 ∣ m) (key : BF m), polyHash key (elt m fun _ => 0) k = 0 := by
        intro m k hm key
        unfold polyHash
        exact Finset.sum_eq_zero fun i _ => by rw [elt_zero hm, zero_mul]
      have hl0 : lift64 n 0 = 0 := by
        ext1; unfold lift64
        apply BitVec.eq_of_getLsbD_eq
        intro i hi
        simp
      have hb0 : ∀ t, byteAt (0 : BF n) t = 0 := by
        intro t
        apply BitVec.eq_of_getLsbD_eq
        intro i hi
        rw [byteAt_getLsbD _ _ _ hi]
        simp
      rw [hpad, hp0 n _ h8n, hp0 64 _ (by decide), hl0] at this
      simpa [hb0, show (ell + n) / 8 + (j - (ell + n) / 8) = j by omega] using this

end Faest
