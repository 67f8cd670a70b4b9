/-
The sponge of sha3/KeccakSponge.inc over the state of sha3/plain32 on a big-endian host.
-/
import Verif.Proofs.Gen.State32be
import Verif.Proofs.Gen.KeccakSponge

namespace Faest.GenPB
open Faest.C Faest.Keccak
open Faest.GenH (St has_from spA spS closeB absorb_part absorb_full absorb_fast up_tab)

section
variable {kd : Kind} {b w : Nat} {m : Mem Byte} {F : Blocks}

theorem spInit_runs {c : SpongeC} {r cap : Nat} (hc : c.state = some ⟨b, w⟩) (hr : r = 136 ∨ r = 168)
    (hcap : 8 * r + cap = 1600) (hl : w + 200 ≤ m.length) :
    Runs (bl kd b m + F) (KeccakWidth1600_SpongeInitialize c (8 * r) cap) (0, spA (some ⟨b, w⟩) r 0)
      (bl kd b (St m w (ilb fun _ => 0)) + F) := by
  unfold KeccakWidth1600_SpongeInitialize Runs
  rw [hcap, if_neg (by decide), if_neg (by omega), hc]
  refine t_run rfl (init_runs hl) ?_
  exact t_pure ⟨rfl, rfl⟩

theorem spAbsorb_runs {r n : Nat} {s : MSt} {data : CPtr} {μ : Mem Byte} {d : Nat → Byte} (hr : r = 136 ∨ r = 168)
    (hl : w + 200 ≤ m.length) (hv : View F data μ) (hd : Has μ 0 n d) (hs : s.2 < r)
    (hn : n + r < 2 ^ 64) (hf : s.2 = 0 ∨ Fits r s.2 n) :
    Runs (bl kd b (St m w (ilb s.1)) + F) (KeccakWidth1600_SpongeAbsorb (spA (some ⟨b, w⟩) r s.2) data n)
      (0, spA (some ⟨b, w⟩) r (absorbM r s (tabP n d)).2) (bl kd b (St m w (ilb (absorbM r s (tabP n d)).1)) + F) := by
  unfold KeccakWidth1600_SpongeAbsorb
  refine t_uget rfl ?_
  refine t_uget rfl ?_
  rw [if_neg (by decide), show 8 * r / 8 = r by omega]
  dsimp only
  refine t_whileI (I := fun x D => x.2.1 ≤ n ∧ x.1 = spA (some ⟨b, w⟩) r (absorbM r s (tabP x.2.1 d)).2 ∧
      x.2.2 = padd data x.2.1 ∧ ((absorbM r s (tabP x.2.1 d)).2 = 0 ∨ Fits r (absorbM r s (tabP x.2.1 d)).2 (n - x.2.1)) ∧
      D = bl kd b (St m w (ilb (absorbM r s (tabP x.2.1 d)).1)) + F) (μ := fun x => n - x.2.1)
    ⟨Nat.zero_le _, rfl, (padd_zero _).symm, hf, rfl⟩ (by dsimp only; omega) ?_ ?_
  · rintro ⟨c, i, cur⟩ D ⟨hi, h1, h2, h3, rfl⟩ hb
    dsimp only at hi h1 h2 h3 hb ⊢
    rw [decide_eq_true_eq] at hb
    subst h1 h2
    have hlt : (absorbM r s (tabP i d)).2 < r := absorbM_lt (by omega) _ _ hs
    generalize hs1 : absorbM r s (tabP i d) = s1 at h3 hlt
    obtain ⟨B, x⟩ := s1
    dsimp only at h3 hlt ⊢
    refine t_uget rfl ?_
    rw [Nat.mod_eq_of_lt (by omega : i + r < 18446744073709551616),
      show (n + 18446744073709551616 - i) % 18446744073709551616 = n - i by omega]
    by_cases e : x = 0 ∧ n ≥ i + r
    · obtain ⟨rfl, e⟩ := e
      refine t_ite_pos ⟨rfl, e⟩ ?_
      refine t_assoc ?_
      refine t_whileI (I := fun z D => ∃ i', i ≤ i' ∧ (z.1 ≥ r → i' = i ∨ i' ≥ i + r) ∧ (z.1 < r → i' ≥ i + r) ∧ i' ≤ n ∧
          z.1 = n - i' ∧ z.2 = padd data i' ∧ (absorbM r s (tabP i' d)).2 = 0 ∧
          D = bl kd b (St m w (ilb (absorbM r s (tabP i' d)).1)) + F) (μ := fun z => z.1)
        ⟨i, le_rfl, by omega, by dsimp only; omega, by omega, rfl, rfl, by rw [hs1], by rw [hs1]⟩ (by dsimp only; omega) ?_ ?_
      · rintro ⟨j, cur⟩ D ⟨i', h1, h2, h3, h4, h5, h6, h7, rfl⟩ hb
        dsimp only at h1 h2 h3 h4 h5 h6 h7 hb ⊢
        rw [decide_eq_true_eq] at hb
        subst h5 h6
        have hf := absorb_full (r := r) s _ d (t := i') (k := r) rfl (by omega) (by omega)
        rw [h7] at hf
        refine t_run rfl (addBytes_runs hl (hv.padd (k := i')) (has_from hd (k := r) (by omega)) (by omega) (by omega)) ?_
        refine t_run rfl (permute_runs hl) ?_
        refine t_pure ⟨⟨i' + r, by omega, by omega, by dsimp only; omega, by omega, by dsimp only; omega,
          by rw [padd_padd], by rw [hf], by rw [hf]⟩, by dsimp only; omega⟩
      · rintro ⟨j, cur⟩ D ⟨i', h1, h2, h3, h4, h5, h6, h7, rfl⟩ hb
        dsimp only at h1 h2 h3 h4 h5 h6 h7 hb ⊢
        rw [decide_eq_false_iff_not] at hb
        subst h5 h6
        refine t_pbind (t_pure ?_)
        dsimp only
        rw [show (n + 18446744073709551616 - (n - i')) % 18446744073709551616 = i' by omega]
        exact ⟨⟨h4, by rw [h7], rfl, Or.inl h7, rfl⟩, by omega⟩
    · refine t_ite_neg e ?_
      have hF : Fits r x (n - i) := by
        unfold Fits at *; omega
      have key : ∀ k, k = min (n - i) (r - x) → T (bl kd b (St m w (ilb B)) + F) (do
              KeccakP1600_AddBytes (spA (some ⟨b, w⟩) r x).state (padd data i) x k
              let e13 ← uget (spA (some ⟨b, w⟩) r x).byteIOIndex
              let e14 ← uget (some ((e13 + k) % 4294967296))
              let e15 : SpongeC ← (
                if e14 = r then (do
                  KeccakP1600_Permute_24rounds (spA (some ⟨b, w⟩) r x).state
                  pure { spA (some ⟨b, w⟩) r x with byteIOIndex := some 0 })
                else (do
                  pure { spA (some ⟨b, w⟩) r x with byteIOIndex := some ((e13 + k) % 4294967296) }))
              pure (e15, (i + k) % 18446744073709551616, padd (padd data i) k))
            fun y D' => (y.2.1 ≤ n ∧ y.1 = spA (some ⟨b, w⟩) r (absorbM r s (tabP y.2.1 d)).2 ∧
              y.2.2 = padd data y.2.1 ∧
              ((absorbM r s (tabP y.2.1 d)).2 = 0 ∨ Fits r (absorbM r s (tabP y.2.1 d)).2 (n - y.2.1)) ∧
              D' = bl kd b (St m w (ilb (absorbM r s (tabP y.2.1 d)).1)) + F) ∧ n - y.2.1 < n - i := by
        intro k hk
        refine t_run rfl (addBytes_runs hl (hv.padd (k := i)) (has_from hd (k := k) (by omega)) (by omega) (by omega)) ?_
        refine t_uget rfl (t_uget rfl ?_)
        rw [Nat.mod_eq_of_lt (by omega : x + k < 4294967296), Nat.mod_eq_of_lt (by omega : i + k < 18446744073709551616)]
        by_cases e2 : x + k = r
        · refine t_ite_pos e2 ?_
          refine t_assoc (t_run rfl (permute_runs hl) ?_)
          refine t_pbind (t_pure ?_)
          dsimp only
          rw [absorb_full s _ d hs1 (by omega) e2, padd_padd]
          exact ⟨⟨by omega, rfl, rfl, Or.inl rfl, rfl⟩, by omega⟩
        · refine t_ite_neg e2 ?_
          refine t_pbind (t_pure ?_)
          dsimp only
          rw [absorb_part s _ d hs1 (by dsimp only; omega), padd_padd]
          refine ⟨⟨by omega, rfl, rfl, Or.inr ?_, rfl⟩, by omega⟩
          unfold Fits; omega
      refine t_assoc (t_uget rfl ?_)
      have hF2 := hF
      unfold Fits at hF2
      by_cases e3 : ((n - i) % 4294967296 + x) % 4294967296 > r
      · refine t_assoc (t_ite_pos e3 ?_)
        refine t_assoc (t_uget rfl ?_)
        refine t_pbind ?_
        refine t_assoc (t_uget rfl ?_)
        exact t_call rfl (key _ (by omega)) fun y D' h => t_pure h
      · refine t_assoc (t_ite_neg e3 ?_)
        refine t_pbind ?_
        refine t_assoc (t_uget rfl ?_)
        exact t_call rfl (key _ (by omega)) fun y D' h => t_pure h
  · rintro ⟨c, i, cur⟩ D ⟨hi, h1, h2, h3, rfl⟩ hb
    dsimp only at hi h1 h2 h3 hb ⊢
    rw [decide_eq_false_iff_not] at hb
    obtain rfl : i = n := by omega
    subst h1
    exact t_pure ⟨rfl, rfl⟩

theorem spLast_runs {r : Nat} {s : MSt} (hr : r = 136 ∨ r = 168) (hl : w + 200 ≤ m.length) (hs : s.2 < r) :
    Runs (bl kd b (St m w (ilb s.1)) + F) (KeccakWidth1600_SpongeAbsorbLastFewBits (spA (some ⟨b, w⟩) r s.2) 0x1F)
      (0, spS (some ⟨b, w⟩) r 0) (bl kd b (St m w (ilb (closeB r s))) + F) := by
  unfold KeccakWidth1600_SpongeAbsorbLastFewBits
  refine t_uget rfl ?_
  rw [if_neg (by decide), show 8 * r / 8 = r by omega]
  refine t_uget rfl ?_
  rw [if_neg (by decide), show (r + 4294967296 - 1) % 4294967296 = r - 1 by omega]
  refine t_uget rfl ?_
  refine t_run rfl (addByte_runs hl (by omega)) ?_
  refine t_uget rfl ?_
  refine t_ite_neg (fun h => absurd h.1 (by decide)) ?_
  refine t_pbind ?_
  refine t_run rfl (addByte_runs hl (by omega)) ?_
  refine t_run rfl (permute_runs hl) ?_
  exact t_pure ⟨rfl, rfl⟩

/-- Nothing is asked for. -/
theorem spSqueeze0_runs {r x : Nat} {p data : CPtr} : Runs F (KeccakWidth1600_SpongeSqueeze (spS p r x) data 0) (0, spS p r x) F := by
  unfold KeccakWidth1600_SpongeSqueeze
  refine t_uget rfl (t_uget rfl ?_)
  refine t_ite_neg (by decide) ?_
  refine t_pbind ?_
  refine t_whileI (I := fun y D => y = (spS p r x, 0, data) ∧ D = F) (μ := fun _ => 0) ⟨rfl, rfl⟩ (by decide) ?_ ?_
  · rintro _ _ ⟨rfl, rfl⟩ h
    simp at h
  · rintro _ _ ⟨rfl, rfl⟩ -
    exact t_pure ⟨rfl, rfl⟩

theorem spSqueeze_t {r n k x p : Nat} {q : Ptr} {B : Nat → Byte} (hr : r = 136 ∨ r = 168) (hl : w + 200 ≤ m.length)
    (hv : Valid F q n) (hp : p = r * k + x) (hx : x ≤ r) (hn : n + r < 2 ^ 64) (hf : x = r ∨ Fits r x n) :
    T (bl kd b (St m w (ilb (iterB k B))) + F) (KeccakWidth1600_SpongeSqueeze (spS (some ⟨b, w⟩) r x) (some q) n)
      fun y D' => ∃ k' x', p + n = r * k' + x' ∧ x' ≤ r ∧ y = (0, spS (some ⟨b, w⟩) r x') ∧
        D' = bl kd b (St m w (ilb (iterB k' B))) + up F q (tabP n fun j => sqByte r B (p + j)) := by
  refine t_nd fun hnd => ?_
  have hF : ND F := hnd.right
  unfold KeccakWidth1600_SpongeSqueeze
  refine t_uget rfl (t_uget rfl ?_)
  refine t_ite_neg (by decide) ?_
  refine t_pbind ?_
  dsimp only
  rw [show 8 * r / 8 = r by omega]
  refine t_whileI (I := fun y D => y.2.1 ≤ n ∧ ∃ k x, y.1 = spS (some ⟨b, w⟩) r x ∧ p + y.2.1 = r * k + x ∧ x ≤ r ∧
      y.2.2 = some ⟨q.blk, q.off + y.2.1⟩ ∧ (x = r ∨ Fits r x (n - y.2.1)) ∧
      D = bl kd b (St m w (ilb (iterB k B))) + up F q (tabP y.2.1 fun j => sqByte r B (p + j))) (μ := fun y => n - y.2.1)
    ⟨Nat.zero_le _, k, x, rfl, by dsimp only; omega, hx, rfl, hf, by
      rw [show (tabP 0 fun j => sqByte r B (p + j)) = [] from rfl, up_nil]⟩ (by dsimp only; omega) ?_ ?_
  · rintro ⟨c, i, cur⟩ D ⟨hi, k, x, h1, hp, hx, h2, h3, rfl⟩ hb
    dsimp only at hi h1 hp h2 h3 hb ⊢
    rw [decide_eq_true_eq] at hb
    subst h1 h2
    refine t_uget rfl ?_
    rw [Nat.mod_eq_of_lt (by omega : i + r < 18446744073709551616),
      show (n + 18446744073709551616 - i) % 18446744073709551616 = n - i by omega]
    have hv2 : ∀ i c, i + c ≤ n → Valid (up F q (tabP i fun j => sqByte r B (p + j))) ⟨q.blk, q.off + i⟩ c := by
      intro i c hc
      exact Valid.up (hv.sub hc) (by rw [tabP_length]; exact hv.mono (by omega)) hF
    by_cases e : x = r ∧ n ≥ i + r
    · obtain ⟨rfl, e⟩ := e
      refine t_ite_pos ⟨rfl, e⟩ ?_
      refine t_assoc ?_
      refine t_whileI (I := fun z D => ∃ i' k, i ≤ i' ∧ (z.1 ≥ x → i' = i ∨ i' ≥ i + x) ∧ (z.1 < x → i' ≥ i + x) ∧ i' ≤ n ∧ z.1 = n - i' ∧ z.2 = some ⟨q.blk, q.off + i'⟩ ∧
          p + i' = x * k + x ∧
          D = bl kd b (St m w (ilb (iterB k B))) + up F q (tabP i' fun j => sqByte x B (p + j))) (μ := fun z => z.1)
        ⟨i, k, le_rfl, by omega, by dsimp only; omega, by omega, rfl, rfl, hp, rfl⟩ (by dsimp only; omega) ?_ ?_
      · rintro ⟨j, cur⟩ D ⟨i', k, h1, h2, h3, h4, h5, h6, h7, rfl⟩ hb
        dsimp only at h1 h2 h3 h4 h5 h6 h7 hb ⊢
        rw [decide_eq_true_eq] at hb
        subst h5 h6
        refine t_run rfl (permute_runs hl) ?_
        refine t_run rfl (extractBytes_runs hl (hv2 i' x (by omega)) (by omega)) ?_
        rw [up_tab hv hF (by omega)]
        · refine t_pure ⟨⟨i' + x, k + 1, by omega, by omega, by dsimp only; omega, by omega, by dsimp only; omega,
            by simp [padd, Nat.add_assoc], by rw [Nat.mul_add]; omega, rfl⟩, by dsimp only; omega⟩
        · intro j hj
          have := sqByte_eq B (k + 1) j hj
          rw [Nat.zero_add, ← Nat.add_assoc, h7, show x * k + x = x * (k + 1) by rw [Nat.mul_add, Nat.mul_one], this]
          rfl
      · rintro ⟨j, cur⟩ D ⟨i', k, h1, h2, h3, h4, h5, h6, h7, rfl⟩ hb
        dsimp only at h1 h2 h3 h4 h5 h6 h7 hb ⊢
        rw [decide_eq_false_iff_not] at hb
        subst h5 h6
        refine t_pbind (t_pure ?_)
        dsimp only
        rw [show (n + 18446744073709551616 - (n - i')) % 18446744073709551616 = i' by omega]
        exact ⟨⟨h4, k, x, rfl, h7, le_rfl, rfl, Or.inl rfl, rfl⟩, by omega⟩
    · refine t_ite_neg e ?_
      refine t_assoc (t_uget rfl ?_)
      -- after the refill
      have key : ∀ k x, p + i = r * k + x → x < r → Fits r x (n - i) →
          T (bl kd b (St m w (ilb (iterB k B))) + up F q (tabP i fun j => sqByte r B (p + j))) (do
            let e11 ← uget (spS (some ⟨b, w⟩) r x).byteIOIndex
            let e12 : Nat ← (
              if (((n - i) % 4294967296 + e11) % 4294967296) > r then (do
                let e13 ← uget (spS (some ⟨b, w⟩) r x).byteIOIndex
                pure ((r + 4294967296 - e13) % 4294967296))
              else (do
                pure ((n - i) % 4294967296)))
            let e14 ← uget (spS (some ⟨b, w⟩) r x).byteIOIndex
            KeccakP1600_ExtractBytes (spS (some ⟨b, w⟩) r x).state (some ⟨q.blk, q.off + i⟩) e14 e12
            let e15 ← uget (spS (some ⟨b, w⟩) r x).byteIOIndex
            pure ({ spS (some ⟨b, w⟩) r x with byteIOIndex := some ((e15 + e12) % 4294967296) },
              (i + e12) % 18446744073709551616, padd (some ⟨q.blk, q.off + i⟩) e12))
          fun y D => (y.2.1 ≤ n ∧ ∃ k x, y.1 = spS (some ⟨b, w⟩) r x ∧ p + y.2.1 = r * k + x ∧ x ≤ r ∧
            y.2.2 = some ⟨q.blk, q.off + y.2.1⟩ ∧ (x = r ∨ Fits r x (n - y.2.1)) ∧
            D = bl kd b (St m w (ilb (iterB k B))) + up F q (tabP y.2.1 fun j => sqByte r B (p + j))) ∧ n - y.2.1 < n - i := by
        intro k x hp hx hF2
        have hF3 := hF2
        unfold Fits at hF3
        refine t_uget rfl ?_
        have fin : ∀ c, c = min (n - i) (r - x) →
            T (bl kd b (St m w (ilb (iterB k B))) + up F q (tabP i fun j => sqByte r B (p + j))) (do
              let e14 ← uget (spS (some ⟨b, w⟩) r x).byteIOIndex
              KeccakP1600_ExtractBytes (spS (some ⟨b, w⟩) r x).state (some ⟨q.blk, q.off + i⟩) e14 c
              let e15 ← uget (spS (some ⟨b, w⟩) r x).byteIOIndex
              pure ({ spS (some ⟨b, w⟩) r x with byteIOIndex := some ((e15 + c) % 4294967296) },
                (i + c) % 18446744073709551616, padd (some ⟨q.blk, q.off + i⟩) c))
            fun y D => (y.2.1 ≤ n ∧ ∃ k x, y.1 = spS (some ⟨b, w⟩) r x ∧ p + y.2.1 = r * k + x ∧ x ≤ r ∧
              y.2.2 = some ⟨q.blk, q.off + y.2.1⟩ ∧ (x = r ∨ Fits r x (n - y.2.1)) ∧
              D = bl kd b (St m w (ilb (iterB k B))) + up F q (tabP y.2.1 fun j => sqByte r B (p + j))) ∧ n - y.2.1 < n - i := by
          intro c hc
          refine t_uget rfl ?_
          refine t_run rfl (extractBytes_runs hl (hv2 i c (by omega)) (by omega)) ?_
          refine t_uget rfl ?_
          rw [up_tab hv hF (by omega)]
          · rw [Nat.mod_eq_of_lt (by omega : x + c < 4294967296), Nat.mod_eq_of_lt (by omega : i + c < 18446744073709551616)]
            refine t_pure ⟨⟨by dsimp only; omega, k, x + c, rfl, by dsimp only; omega, by omega,
              by simp [padd, Nat.add_assoc], ?_, rfl⟩, by dsimp only; omega⟩
            unfold Fits; dsimp only; omega
          · intro j hj
            rw [← sqByte_eq (r := r) B k (x + j) (by omega), ← Nat.add_assoc, ← Nat.add_assoc, hp]
        by_cases e3 : ((n - i) % 4294967296 + x) % 4294967296 > r
        · refine t_ite_pos e3 ?_
          refine t_assoc (t_uget rfl ?_)
          exact t_pbind (fin _ (by omega))
        · refine t_ite_neg e3 ?_
          exact t_pbind (fin _ (by omega))
      by_cases e2 : x = r
      · subst e2
        refine t_assoc (t_ite_pos rfl ?_)
        refine t_assoc (t_run rfl (permute_runs hl) ?_)
        refine t_pbind ?_
        exact t_call rfl (key (k + 1) 0 (by rw [Nat.mul_add]; omega) (by omega) (by unfold Fits at *; omega)) fun y D' h => t_pure h
      · refine t_assoc (t_ite_neg e2 ?_)
        refine t_pbind ?_
        exact t_call rfl (key k x hp (by omega) (h3.resolve_left e2)) fun y D' h => t_pure h
  · rintro ⟨c, i, cur⟩ D ⟨hi, k, x, h1, hp, hx, h2, h3, rfl⟩ hb
    dsimp only at hi h1 hp h2 h3 hb ⊢
    rw [decide_eq_false_iff_not] at hb
    obtain rfl : i = n := by omega
    subst h1
    exact t_pure ⟨k, x, hp, hx, rfl, rfl⟩

end

end Faest.GenPB
