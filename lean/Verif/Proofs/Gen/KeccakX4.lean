/-
The translated sponge of four states (KeccakSpongetimes4.inc): each state behaves as the one of
Verif/Proofs/Gen/KeccakSponge.lean.
-/
import Verif.Model.Gen.KeccakHashX4
import Verif.Proofs.Gen.P4Spec

namespace Faest.GenH
open Faest.C Faest.Keccak

/-- Four pointers. -/
def PA (P : Nat → CPtr) : Mem CPtr := ofList (tabP 4 P)

theorem PA_len (P : Nat → CPtr) : (PA P).length = 4 := rfl

theorem PA_rd (P : Nat → CPtr) {i : Nat} (hi : i < 4) : rd (PA P) i = some (P i) := by
  unfold PA
  rw [rd_ofList, tabP_getElem?, if_pos hi]

theorem PA_congr {P P' : Nat → CPtr} (h : ∀ k, k < 4 → P k = P' k) : PA P = PA P' := by
  unfold PA
  rw [tabP_congr h]

theorem PA_wr (P : Nat → CPtr) {i : Nat} (hi : i < 4) (x : CPtr) :
    wr (PA P) (0 + i) x = some (PA fun k => if k = i then x else P k) := by
  unfold wr
  rw [if_pos (by rw [PA_len]; omega)]
  refine congrArg some (List.ext_getElem? fun j => ?_)
  rw [List.getElem?_set, PA_len]
  unfold PA ofList
  rw [List.getElem?_map, List.getElem?_map, tabP_getElem?, tabP_getElem?]
  by_cases e : i = j
  · subst e
    rw [if_pos (by omega), if_pos (by omega), if_pos hi, if_pos rfl]
    rfl
  · rw [if_neg (by omega)]
    split
    · rw [if_neg (by omega)]
    · rfl

section
variable {K4 : P4Impl} (S : P4Spec K4) {kd : Kind} {b : Nat} {F : Blocks} {B : Nat → Nat → Byte}

theorem spInit4_runs {c : SpongeC} {r cap : Nat} {m : Mem Byte} (hc : c.state = some ⟨b, 0⟩) (hr : r = 136 ∨ r = 168)
    (hcap : 8 * r + cap = 1600) (hl : m.length = 800) :
    Runs (bl kd b m + F) (KeccakWidth1600times4_SpongeInitialize K4 c (8 * r) cap) (0, spA (some ⟨b, 0⟩) r 0)
      (bl kd b (S.lay fun _ _ => 0) + F) := by
  unfold KeccakWidth1600times4_SpongeInitialize Runs
  rw [hcap, if_neg (by decide), if_neg (by omega), hc]
  refine t_run rfl S.static ?_
  refine t_run rfl (S.init hl) ?_
  exact t_pure ⟨rfl, rfl⟩

/-- Copy the four pointers. -/
theorem t_copy {δ : Type} {Q : δ → Blocks → Prop} {g : Nat → CM δ} {cd : Nat} {cur : Mem CPtr} {data : CPtr} {P : Nat → CPtr}
    (hl : cur.length = 4) (hv : View F data (PA P)) (k : T (bl .stack cd (PA P) + F) (g 4) Q) :
    T (bl .stack cd cur + F) (cwhile (fun s => decide (s < 4)) (fun s => do
      let e : CPtr ← ld data s
      st (some ⟨cd, 0⟩) s e
      pure ((s + 1) % 4294967296)) 0 >>= g) Q := by
  refine t_whileI (I := fun i D => i ≤ 4 ∧ ∃ m : Mem CPtr, m.length = 4 ∧ (∀ j, j < i → m[j]? = some (some (P j))) ∧
      D = bl .stack cd m + F) (μ := fun i => 4 - i) ⟨by omega, cur, hl, fun j hj => absurd hj (by omega), rfl⟩ (by decide) ?_ ?_
  · rintro i D ⟨hi, m, hl, hm, rfl⟩ hc
    rw [decide_eq_true_eq] at hc
    refine t_ld hv.there (PA_rd P hc) ?_
    refine t_st rfl (m' := m.set i (some (P i))) (by rw [Nat.zero_add]; unfold wr; rw [if_pos (by omega)]) ?_
    rw [show (i + 1) % 4294967296 = i + 1 by omega]
    refine t_pure ⟨⟨by omega, _, by rw [List.length_set, hl], ?_, rfl⟩, by omega⟩
    intro j hj
    rw [List.getElem?_set]
    by_cases e : i = j
    · rw [if_pos e, if_pos (by omega), e]
    · rw [if_neg e, hm j (by omega)]
  · rintro i D ⟨hi, m, hl, hm, rfl⟩ hc
    rw [decide_eq_false_iff_not] at hc
    obtain rfl : i = 4 := by omega
    rw [show m = PA P from ?_]
    · exact k
    · refine mem_ext (by rw [hl, PA_len]) fun j hj => ?_
      rw [hm j (by omega)]
      unfold PA ofList
      rw [List.getElem?_map, tabP_getElem?, if_pos (by omega)]
      rfl

/-- The four states and the pointers after `i` of the steps. -/
def mix {α : Type} (i : Nat) (f g : Nat → α) : Nat → α := fun k => if k < i then f k else g k

theorem mix_zero {α : Type} (f g : Nat → α) : mix 0 f g = g := by funext k; simp [mix]

theorem mix_succ {α : Type} (i : Nat) (f g : Nat → α) :
    (fun k => if k = i then f i else mix i f g k) = mix (i + 1) f g := by
  funext k
  unfold mix
  by_cases e : k = i
  · rw [if_pos e, if_pos (by omega), e]
  · rw [if_neg e]
    by_cases e2 : k < i
    · rw [if_pos e2, if_pos (by omega)]
    · rw [if_neg e2, if_neg (by omega)]

theorem setS_mix (i : Nat) (f B : Nat → Nat → Byte) : setS (mix i f B) i (f i) = mix (i + 1) f B := mix_succ i f B

theorem mix_at {α : Type} (i : Nat) (f g : Nat → α) : mix i f g i = g i := if_neg (by omega)

theorem P4Spec.lay_mix (f : Nat → Nat → Byte) : S.lay (mix 4 f B) = S.lay f := S.congr fun _ hk => if_pos hk
theorem PA_mix (f g : Nat → CPtr) : PA (mix 4 f g) = PA f := PA_congr fun _ hk => if_pos hk

/-- One step of the loop which takes in bytes. -/
theorem add_step {cd i x k : Nat} {P : Nat → CPtr} {μ : Nat → Mem Byte} {d : Nat → Nat → Byte} (hi : i < 4)
    (hv : View F (P i) (μ i)) (hd : Has (μ i) 0 k (d i)) (h0 : 0 < k) (hx : x + k < 200) :
    T (bl kd b (S.lay (mix i (fun j => xorB (B j) x k (d j)) B)) + (bl .stack cd (PA (mix i (fun j => padd (P j) k) P)) + F))
      (do
        K4.KeccakP1600times4_AddBytes (some ⟨b, 0⟩) i (P i) x k
        let e : CPtr ← ld (some ⟨cd, 0⟩) i
        st (some ⟨cd, 0⟩) i (padd e k)
        pure ((i + 1) % 4294967296))
      fun s D => s = i + 1 ∧ D = bl kd b (S.lay (mix (i + 1) (fun j => xorB (B j) x k (d j)) B)) +
        (bl .stack cd (PA (mix (i + 1) (fun j => padd (P j) k) P)) + F) := by
  refine t_run rfl (S.addBytes hi hv.there hd h0 hx) ?_
  refine t_ld (View.there View.here0) (PA_rd _ hi) ?_
  refine t_st (by hfind1) (PA_wr _ hi _) ?_
  rw [show (i + 1) % 4294967296 = i + 1 by omega]
  refine t_pure ⟨rfl, ?_⟩
  rw [mix_at, mix_at]
  have e1 := setS_mix i (fun j => xorB (B j) x k (d j)) B
  have e2 := mix_succ i (fun j => padd (P j) k) P
  rw [e1, e2, ← add_assoc, ← add_assoc, add_comm (bl .stack cd _)]

/-- The four states after bytes are taken in. -/
def aB (r : Nat) (B : Nat → Nat → Byte) (x t : Nat) (d : Nat → Nat → Byte) : Nat → Nat → Byte :=
  fun j => (absorbM r (B j, x) (tabP t (d j))).1

theorem aB_zero (r x : Nat) (d : Nat → Nat → Byte) : aB r B x 0 d = B := rfl

theorem aM_pair {r x : Nat} (hr : 0 < r) (hx : x < r) (t : Nat) (d : Nat → Nat → Byte) (j : Nat) :
    absorbM r (B j, x) (tabP t (d j)) = (aB r B x t d j, (x + t) % r) := by
  refine Prod.ext rfl ?_
  rw [absorbM_idx hr _ _ hx, tabP_length]

set_option maxHeartbeats 1000000 in
theorem spAbsorb4_runs {r n x : Nat} {data : CPtr} {P : Nat → CPtr} {μ : Nat → Mem Byte} {d : Nat → Nat → Byte}
    (hr : r = 136 ∨ r = 168) (hP : View F data (PA P)) (hv : ∀ j, j < 4 → View F (P j) (μ j))
    (hd : ∀ j, j < 4 → Has (μ j) 0 n (d j)) (hx : x < r) (hn : n + r < 2 ^ 64) (hf : x = 0 ∨ Fits r x n) :
    Runs (bl kd b (S.lay B) + F) (KeccakWidth1600times4_SpongeAbsorb K4 (spA (some ⟨b, 0⟩) r x) data n)
      (0, spA (some ⟨b, 0⟩) r ((x + n) % r)) (bl kd b (S.lay (aB r B x n d)) + F) := by
  have hr0 : 0 < r := by omega
  unfold KeccakWidth1600times4_SpongeAbsorb
  refine t_alloc fun cd => ?_
  refine t_uget rfl ?_
  refine t_uget rfl ?_
  rw [if_neg (by decide), show 8 * r / 8 = r by omega]
  dsimp only
  -- the loop over the blocks
  have main : ∀ cur : Mem CPtr, (0 < n → cur = PA P) → ∀ (g : SpongeC × Nat → CM (Nat × SpongeC)),
      (∀ cur : Mem CPtr, T (bl kd b (S.lay (aB r B x n d)) + (bl .stack cd cur + F)) (g (spA (some ⟨b, 0⟩) r ((x + n) % r), n))
        fun v D => v = (0, spA (some ⟨b, 0⟩) r ((x + n) % r)) ∧ D = bl kd b (S.lay (aB r B x n d)) + F) →
      T (bl kd b (S.lay B) + (bl .stack cd cur + F)) (cwhile (fun s => decide (s.2 < n)) (fun _s1 => do
          let instance_ : SpongeC := _s1.1
          let i : Nat := _s1.2
          let e7 ← uget instance_.byteIOIndex
          let e8 : SpongeC × Nat ← (
            if (e7 = 0) ∧ (n ≥ ((i + r) % 18446744073709551616)) then (do
              let j : Nat := (n + 18446744073709551616 - i) % 18446744073709551616
              let e9 : Nat ← cwhile
                  (fun _s2 =>
                    let j : Nat := _s2
                    decide (j ≥ r))
                  (fun _s2 => do
                    let j : Nat := _s2
                    let instanceIndex : Nat := 0
                    let e10 : Nat ← cwhile
                        (fun _s3 =>
                          let instanceIndex : Nat := _s3
                          decide (instanceIndex < 4))
                        (fun _s3 => do
                          let instanceIndex : Nat := _s3
                          let e11 : CPtr ← ld (some ⟨cd, 0⟩) instanceIndex
                          K4.KeccakP1600times4_AddBytes instance_.state instanceIndex e11 0 r
                          let e12 : CPtr ← ld (some ⟨cd, 0⟩) instanceIndex
                          st (some ⟨cd, 0⟩) instanceIndex (padd e12 r)
                          let instanceIndex : Nat := (instanceIndex + 1) % 4294967296
                          pure instanceIndex)
                        instanceIndex
                    K4.KeccakP1600times4_PermuteAll_24rounds instance_.state
                    let j : Nat := (j + 18446744073709551616 - r) % 18446744073709551616
                    pure j)
                  j
              let j : Nat := e9
              let i : Nat := (n + 18446744073709551616 - j) % 18446744073709551616
              pure (instance_, i))
            else (do
              let partialBlock : Nat := ((n + 18446744073709551616 - i) % 18446744073709551616) % 4294967296
              let e13 ← uget instance_.byteIOIndex
              let e14 : Nat ← (
                if ((partialBlock + e13) % 4294967296) > r then (do
                  let e15 ← uget instance_.byteIOIndex
                  let partialBlock : Nat := (r + 4294967296 - e15) % 4294967296
                  pure partialBlock)
                else (do
                  pure partialBlock))
              let partialBlock : Nat := e14
              let i : Nat := (i + partialBlock) % 18446744073709551616
              let instanceIndex : Nat := 0
              let e16 : Nat ← cwhile
                  (fun _s2 =>
                    let instanceIndex : Nat := _s2
                    decide (instanceIndex < 4))
                  (fun _s2 => do
                    let instanceIndex : Nat := _s2
                    let e17 : CPtr ← ld (some ⟨cd, 0⟩) instanceIndex
                    let e18 ← uget instance_.byteIOIndex
                    K4.KeccakP1600times4_AddBytes instance_.state instanceIndex e17 e18 partialBlock
                    let e19 : CPtr ← ld (some ⟨cd, 0⟩) instanceIndex
                    st (some ⟨cd, 0⟩) instanceIndex (padd e19 partialBlock)
                    let instanceIndex : Nat := (instanceIndex + 1) % 4294967296
                    pure instanceIndex)
                  instanceIndex
              let e20 ← uget instance_.byteIOIndex
              let instance_ := { instance_ with byteIOIndex := some ((e20 + partialBlock) % 4294967296) }
              let e21 ← uget instance_.byteIOIndex
              let e22 : SpongeC ← (
                if e21 = r then (do
                  K4.KeccakP1600times4_PermuteAll_24rounds instance_.state
                  let instance_ := { instance_ with byteIOIndex := some 0 }
                  pure instance_)
                else (do
                  pure instance_))
              let instance_ : SpongeC := e22
              pure (instance_, i)))
          let instance_ : SpongeC := e8.1
          let i : Nat := e8.2
          pure (instance_, i)) (spA (some ⟨b, 0⟩) r x, 0) >>= g)
        fun v D => v = (0, spA (some ⟨b, 0⟩) r ((x + n) % r)) ∧ D = bl kd b (S.lay (aB r B x n d)) + F := by
    intro cur hcur g hg
    refine t_whileI (I := fun y D => y.2 ≤ n ∧ y.1 = spA (some ⟨b, 0⟩) r ((x + y.2) % r) ∧
        ((x + y.2) % r = 0 ∨ Fits r ((x + y.2) % r) (n - y.2)) ∧ ∃ cur : Mem CPtr, (0 < n → cur = PA fun j => padd (P j) y.2) ∧
        D = bl kd b (S.lay (aB r B x y.2 d)) + (bl .stack cd cur + F)) (μ := fun y => n - y.2) ?_ (by dsimp only; omega) ?_ ?_
    · refine ⟨Nat.zero_le _, by rw [Nat.add_zero, Nat.mod_eq_of_lt hx], by rw [Nat.add_zero, Nat.mod_eq_of_lt hx]; exact hf,
        cur, fun h => ?_, rfl⟩
      rw [hcur h]
      exact PA_congr fun k _ => (padd_zero _).symm
    · rintro ⟨c, i⟩ D ⟨hi, h1, h3, cur, hcur, rfl⟩ hb
      dsimp only at hi h1 h3 hb hcur ⊢
      rw [decide_eq_true_eq] at hb
      subst h1
      rw [hcur (by omega)]
      have hlt : (x + i) % r < r := Nat.mod_lt _ hr0
      have hs1 := aM_pair (B := B) hr0 hx i d
      generalize (x + i) % r = y at h3 hlt hs1
      generalize hB1 : aB r B x i d = B1 at hs1
      refine t_uget rfl ?_
      rw [Nat.mod_eq_of_lt (by omega : i + r < 18446744073709551616),
        show (n + 18446744073709551616 - i) % 18446744073709551616 = n - i by omega]
      have views : ∀ i' k, i' + k ≤ n → ∀ j, j < 4 → View F (padd (P j) i') ((μ j).drop i') ∧
          Has ((μ j).drop i') 0 k fun t => d j (i' + t) :=
        fun i' k hk j hj => ⟨(hv j hj).padd, has_from (hd j hj) hk⟩
      have padds : ∀ i' k : Nat, PA (fun j => padd (padd (P j) i') k) = PA fun j => padd (P j) (i' + k) :=
        fun i' k => PA_congr fun j _ => padd_padd _ _ _
      by_cases e : y = 0 ∧ n ≥ i + r
      · obtain ⟨rfl, e⟩ := e
        refine t_ite_pos ⟨rfl, e⟩ ?_
        refine t_assoc ?_
        refine t_whileI (I := fun z D => ∃ i', i ≤ i' ∧ (z ≥ r → i' = i ∨ i' ≥ i + r) ∧ (z < r → i' ≥ i + r) ∧ i' ≤ n ∧
            z = n - i' ∧ (∀ j, absorbM r (B j, x) (tabP i' (d j)) = (aB r B x i' d j, 0)) ∧
            D = bl kd b (S.lay (aB r B x i' d)) + (bl .stack cd (PA fun j => padd (P j) i') + F)) (μ := fun z => z)
          ⟨i, le_rfl, by omega, by omega, by omega, rfl, by rw [hB1]; exact hs1, by rw [hB1]⟩ (by omega) ?_ ?_
        · rintro z D ⟨i', h1, h2, h3, h4, rfl, h6, rfl⟩ hb
          rw [decide_eq_true_eq] at hb
          refine t_for4 (fun k => bl kd b (S.lay (mix k (fun j => xorB (aB r B x i' d j) 0 r fun t => d j (i' + t)) (aB r B x i' d))) +
            (bl .stack cd (PA (mix k (fun j => padd (padd (P j) i') r) fun j => padd (P j) i')) + F))
            (by rw [mix_zero, mix_zero]) ?_ ?_
          · intro k hk
            refine t_ld (View.there View.here0) (PA_rd _ hk) ?_
            rw [mix_at]
            exact add_step S (μ := fun j => (μ j).drop i') (d := fun j t => d j (i' + t)) (P := fun j => padd (P j) i') hk (views i' r (by omega) k hk).1 (views i' r (by omega) k hk).2 (by omega) (by omega)
          rw [S.lay_mix, PA_mix, padds]
          refine t_run rfl S.permute ?_
          rw [show (n - i' + 18446744073709551616 - r) % 18446744073709551616 = n - i' - r by omega]
          have hn : ∀ j, absorbM r (B j, x) (tabP (i' + r) (d j)) = (keccakB (xorB (aB r B x i' d j) 0 r fun t => d j (i' + t)), 0) :=
            fun j => absorb_full (B j, x) (aB r B x i' d j, 0) (d j) (h6 j) hr0 (Nat.zero_add r)
          have ha : aB r B x (i' + r) d = fun j => keccakB (xorB (aB r B x i' d j) 0 r fun t => d j (i' + t)) := by
            funext j
            exact congrArg Prod.fst (hn j)
          refine t_pure ⟨⟨i' + r, by omega, by omega, by omega, by omega, by omega, ?_, by rw [ha]⟩, by omega⟩
          intro j
          rw [hn, ha]
        · rintro z D ⟨i', h1, h2, h3, h4, rfl, h6, rfl⟩ hb
          rw [decide_eq_false_iff_not] at hb
          refine t_pbind (t_pure ?_)
          dsimp only
          rw [show (n + 18446744073709551616 - (n - i')) % 18446744073709551616 = i' by omega]
          have h0 : (x + i') % r = 0 := by
            have := h6 0
            rw [aM_pair hr0 hx] at this
            exact (Prod.mk.inj this).2
          rw [h0]
          exact ⟨⟨h4, rfl, Or.inl rfl, _, fun _ => rfl, rfl⟩, by omega⟩
      · refine t_ite_neg e ?_
        have hF : Fits r y (n - i) := by
          unfold Fits at *; omega
        have hF2 := hF
        unfold Fits at hF2
        have key : ∀ k, k = min (n - i) (r - y) → T (bl kd b (S.lay B1) + (bl .stack cd (PA fun j => padd (P j) i) + F)) (do
              let e16 : Nat ← cwhile
                  (fun _s2 =>
                    let instanceIndex : Nat := _s2
                    decide (instanceIndex < 4))
                  (fun _s2 => do
                    let instanceIndex : Nat := _s2
                    let e17 : CPtr ← ld (some ⟨cd, 0⟩) instanceIndex
                    let e18 ← uget (spA (some ⟨b, 0⟩) r y).byteIOIndex
                    K4.KeccakP1600times4_AddBytes (spA (some ⟨b, 0⟩) r y).state instanceIndex e17 e18 k
                    let e19 : CPtr ← ld (some ⟨cd, 0⟩) instanceIndex
                    st (some ⟨cd, 0⟩) instanceIndex (padd e19 k)
                    let instanceIndex : Nat := (instanceIndex + 1) % 4294967296
                    pure instanceIndex)
                  0
              let e20 ← uget (spA (some ⟨b, 0⟩) r y).byteIOIndex
              let e21 ← uget (some ((e20 + k) % 4294967296))
              let e22 : SpongeC ← (
                if e21 = r then (do
                  K4.KeccakP1600times4_PermuteAll_24rounds (spA (some ⟨b, 0⟩) r y).state
                  pure { spA (some ⟨b, 0⟩) r y with byteIOIndex := some 0 })
                else (do
                  pure { spA (some ⟨b, 0⟩) r y with byteIOIndex := some ((e20 + k) % 4294967296) }))
              pure (e22, (i + k) % 18446744073709551616))
            fun y D => (y.2 ≤ n ∧ y.1 = spA (some ⟨b, 0⟩) r ((x + y.2) % r) ∧
              ((x + y.2) % r = 0 ∨ Fits r ((x + y.2) % r) (n - y.2)) ∧ ∃ cur : Mem CPtr, (0 < n → cur = PA fun j => padd (P j) y.2) ∧
              D = bl kd b (S.lay (aB r B x y.2 d)) + (bl .stack cd cur + F)) ∧ n - y.2 < n - i := by
          intro k hk
          refine t_for4 (fun q => bl kd b (S.lay (mix q (fun j => xorB (B1 j) y k fun t => d j (i + t)) B1)) +
            (bl .stack cd (PA (mix q (fun j => padd (padd (P j) i) k) fun j => padd (P j) i)) + F))
            (by rw [mix_zero, mix_zero]) ?_ ?_
          · intro q hq
            refine t_ld (View.there View.here0) (PA_rd _ hq) ?_
            refine t_uget rfl ?_
            rw [mix_at]
            exact add_step S (μ := fun j => (μ j).drop i) (d := fun j t => d j (i + t)) (P := fun j => padd (P j) i) hq (views i k (by omega) q hq).1
              (views i k (by omega) q hq).2 (by omega) (by omega)
          rw [S.lay_mix, PA_mix, padds]
          refine t_uget rfl (t_uget rfl ?_)
          rw [Nat.mod_eq_of_lt (by omega : y + k < 4294967296), Nat.mod_eq_of_lt (by omega : i + k < 18446744073709551616)]
          have hp := aM_pair (B := B) hr0 hx (i + k) d
          by_cases e2 : y + k = r
          · refine t_ite_pos e2 ?_
            refine t_assoc (t_run rfl S.permute ?_)
            refine t_pbind (t_pure ?_)
            dsimp only
            have hn := fun j => (hp j).symm.trans (absorb_full (B j, x) (B1 j, y) (d j) (hs1 j) (by omega) e2)
            have h0 : (x + (i + k)) % r = 0 := (Prod.mk.inj (hn 0)).2
            have ha : aB r B x (i + k) d = fun j => keccakB (xorB (B1 j) y k fun t => d j (i + t)) :=
              funext fun j => (Prod.mk.inj (hn j)).1
            rw [h0, ha]
            exact ⟨⟨by omega, rfl, Or.inl rfl, _, fun _ => rfl, rfl⟩, by omega⟩
          · refine t_ite_neg e2 ?_
            refine t_pbind (t_pure ?_)
            dsimp only
            have hn := fun j => (hp j).symm.trans (absorb_part (k := k) (B j, x) (B1 j, y) (d j) (hs1 j) (by dsimp only; omega))
            have h0 : (x + (i + k)) % r = y + k := (Prod.mk.inj (hn 0)).2
            have ha : aB r B x (i + k) d = fun j => xorB (B1 j) y k fun t => d j (i + t) :=
              funext fun j => (Prod.mk.inj (hn j)).1
            rw [h0, ha]
            refine ⟨⟨by omega, rfl, Or.inr ?_, _, fun _ => rfl, rfl⟩, by omega⟩
            unfold Fits; omega
        refine t_assoc (t_uget rfl ?_)
        by_cases e3 : ((n - i) % 4294967296 + y) % 4294967296 > r
        · refine t_assoc (t_ite_pos e3 ?_)
          refine t_assoc (t_uget rfl ?_)
          refine t_pbind ?_
          exact t_call rfl (key _ (by omega)) fun y D' h => t_pure h
        · refine t_assoc (t_ite_neg e3 ?_)
          refine t_pbind ?_
          exact t_call rfl (key _ (by omega)) fun y D' h => t_pure h
    · rintro ⟨c, i⟩ D ⟨hi, h1, h3, cur, hcur, rfl⟩ hb
      dsimp only at hi h1 h3 hb hcur ⊢
      rw [decide_eq_false_iff_not] at hb
      obtain rfl : i = n := by omega
      subst h1
      exact hg cur
  have fin : ∀ cur : Mem CPtr, T (bl kd b (S.lay (aB r B x n d)) + (bl .stack cd cur + F)) (do
        cfree .stack (some ⟨cd, 0⟩)
        pure (0, spA (some ⟨b, 0⟩) r ((x + n) % r)))
      fun v D => v = (0, spA (some ⟨b, 0⟩) r ((x + n) % r)) ∧ D = bl kd b (S.lay (aB r B x n d)) + F := by
    intro cur
    refine t_free (m := cur) (F := bl kd b (S.lay (aB r B x n d)) + F) (by hfind1) ?_
    exact t_pure ⟨rfl, rfl⟩
  by_cases e : n > 0
  · refine t_ite_pos e ?_
    refine t_assoc (t_copy rfl hP.there ?_)
    refine t_pbind ?_
    exact t_perm (by hfind1) (main (PA P) (fun _ => rfl) _ fin)
  · refine t_ite_neg e ?_
    refine t_pbind ?_
    exact t_perm (by hfind1) (main (malloc 4) (fun h => absurd h e) _ fin)

theorem spLast4_runs {r x : Nat} (hr : r = 136 ∨ r = 168) (hs : x < r) :
    Runs (bl kd b (S.lay B) + F) (KeccakWidth1600times4_SpongeAbsorbLastFewBits K4 (spA (some ⟨b, 0⟩) r x) 0x1F)
      (0, spS (some ⟨b, 0⟩) r 0) (bl kd b (S.lay fun j => closeB r (B j, x)) + F) := by
  unfold KeccakWidth1600times4_SpongeAbsorbLastFewBits
  refine t_uget rfl ?_
  rw [if_neg (by decide), show 8 * r / 8 = r by omega]
  refine t_uget rfl ?_
  rw [if_neg (by decide), show (r + 4294967296 - 1) % 4294967296 = r - 1 by omega]
  refine t_for4 (fun i => bl kd b (S.lay (mix i (fun j => xorB (B j) x 1 fun _ => 0x1F) B)) + F) (by rw [mix_zero]) ?_ ?_
  · intro i hi
    refine t_uget rfl ?_
    refine t_run rfl (S.addByte hi (by omega)) ?_
    rw [show (i + 1) % 4294967296 = i + 1 by omega, mix_at]
    have e1 := setS_mix i (fun j => xorB (B j) x 1 fun _ => 0x1F) B
    rw [e1]
    exact t_pure ⟨rfl, rfl⟩
  rw [S.lay_mix]
  refine t_uget rfl ?_
  refine t_ite_neg (fun h => absurd h.1 (by decide)) ?_
  refine t_pbind ?_
  generalize hB : (fun j => xorB (B j) x 1 fun _ => (0x1F : Byte)) = B1
  refine t_for4 (fun i => bl kd b (S.lay (mix i (fun j => xorB (B1 j) (r - 1) 1 fun _ => 0x80) B1)) + F) (by rw [mix_zero]) ?_ ?_
  · intro i hi
    refine t_run rfl (S.addByte hi (by omega)) ?_
    rw [show (i + 1) % 4294967296 = i + 1 by omega, mix_at]
    have e1 := setS_mix i (fun j => xorB (B1 j) (r - 1) 1 fun _ => 0x80) B1
    rw [e1]
    exact t_pure ⟨rfl, rfl⟩
  rw [S.lay_mix]
  refine t_run rfl S.permute ?_
  subst hB
  exact t_pure ⟨rfl, rfl⟩

/-- The blocks after several writes. -/
def ups : Nat → Blocks → (Nat → Ptr) → (Nat → List Byte) → Blocks
  | 0, F, _, _ => F
  | n + 1, F, q, l => up (ups n F q l) (q n) (l n)

theorem ND.ups (h : ND F) (n : Nat) (q : Nat → Ptr) (l : Nat → List Byte) : ND (GenH.ups n F q l) := by
  induction n with
  | zero => exact h
  | succ n ih => exact ih.up _ _

theorem Valid.ups {n k : Nat} {q : Nat → Ptr} {l : Nat → List Byte} {p : Ptr} (h : Valid F p k)
    (hl : ∀ j, j < n → Valid F (q j) (l j).length) (hn : ND F) : Valid (GenH.ups n F q l) p k := by
  induction n generalizing p k with
  | zero => exact h
  | succ n ih =>
    refine Valid.up (ih h fun j hj => hl j (by omega)) (ih (hl n (by omega)) fun j hj => hl j (by omega)) ?_
    exact ND.ups hn _ _ _

theorem ups_congr {n : Nat} {q : Nat → Ptr} {l l' : Nat → List Byte} (h : ∀ j, j < n → l j = l' j) :
    ups n F q l = ups n F q l' := by
  induction n with
  | zero => rfl
  | succ n ih => unfold ups; rw [ih fun j hj => h j (by omega), h n (by omega)]

theorem ups_nil (n : Nat) (q : Nat → Ptr) : ups n F q (fun _ => []) = F := by
  induction n with
  | zero => rfl
  | succ n ih => unfold ups; rw [ih, up_nil]

theorem ups_comm {n : Nat} {q : Nat → Ptr} {l : Nat → List Byte} {p : Ptr} {z : List Byte} (hn : ND F)
    (hp : Valid F p z.length) (hl : ∀ j, j < n → Valid F (q j) (l j).length)
    (ha : ∀ j, j < n → Apart p z.length (q j) (l j).length) : ups n (up F p z) q l = up (ups n F q l) p z := by
  induction n with
  | zero => rfl
  | succ n ih =>
    unfold ups
    rw [ih (fun j hj => hl j (by omega)) fun j hj => ha j (by omega)]
    exact up_comm (Valid.ups hp (fun j hj => hl j (by omega)) hn) (Valid.ups (hl n (by omega)) (fun j hj => hl j (by omega)) hn)
      (ND.ups hn _ _ _) (ha n (by omega))

/-- Writes which go on where other writes have ended. -/
theorem ups_append {n : Nat} {q : Nat → Ptr} {l l' : Nat → List Byte} (hn : ND F)
    (hl : ∀ j, j < n → Valid F (q j) ((l j).length + (l' j).length))
    (ha : ∀ i j, i < n → j < n → i ≠ j → Apart (q i) ((l i).length + (l' i).length) (q j) ((l j).length + (l' j).length)) :
    ups n (ups n F q l) (fun j => ⟨(q j).blk, (q j).off + (l j).length⟩) l' = ups n F q fun j => l j ++ l' j := by
  induction n with
  | zero => rfl
  | succ n ih =>
    have h1 : ∀ j, j < n → Valid F (q j) (l j).length := fun j hj => (hl j (by omega)).mono (by omega)
    have h2 : ∀ j, j < n + 1 → Valid F ⟨(q j).blk, (q j).off + (l j).length⟩ (l' j).length :=
      fun j hj => (hl j hj).sub le_rfl
    show up (ups n (up (ups n F q l) (q n) (l n)) (fun j => ⟨(q j).blk, (q j).off + (l j).length⟩) l')
      ⟨(q n).blk, (q n).off + (l n).length⟩ (l' n) = up (ups n F q fun j => l j ++ l' j) (q n) (l n ++ l' n)
    rw [ups_comm (ND.ups hn _ _ _) (Valid.ups ((hl n (by omega)).mono (by omega)) h1 hn)
      (fun j hj => Valid.ups (h2 j (by omega)) h1 hn), ih (fun j hj => hl j (by omega)) fun i j hi hj => ha i j (by omega) (by omega)]
    · refine up_append ?_ (ND.ups hn _ _ _)
      exact Valid.ups (hl n (by omega)) (fun j hj => by rw [List.length_append]; exact hl j (by omega)) hn
    · intro j hj
      have := ha n j (by omega) (by omega) (by omega)
      unfold Apart at *
      intro e
      have := this e
      dsimp only
      omega

/-- One step of the loop which gives out bytes. -/
theorem ext_step {cd i x k : Nat} {q : Nat → Ptr} {l : Nat → List Byte} (hi : i < 4)
    (hv : Valid (ups i F q l) (q i) k) (hl : l i = tabP k fun j => B i (x + j)) (hx : x + k < 200) :
    T (bl kd b (S.lay B) + (bl .stack cd (PA (mix i (fun j => padd (some (q j)) k) fun j => some (q j))) + ups i F q l))
      (do
        K4.KeccakP1600times4_ExtractBytes (some ⟨b, 0⟩) i (some (q i)) x k
        let e : CPtr ← ld (some ⟨cd, 0⟩) i
        st (some ⟨cd, 0⟩) i (padd e k)
        pure ((i + 1) % 4294967296))
      fun s D => s = i + 1 ∧ D = bl kd b (S.lay B) +
        (bl .stack cd (PA (mix (i + 1) (fun j => padd (some (q j)) k) fun j => some (q j))) + ups (i + 1) F q l) := by
  refine t_nd fun hn => ?_
  refine t_run rfl (S.extract hi hv.right hx) ?_
  rw [up_frame hn.right hv, ← hl]
  refine t_ld (View.there View.here0) (PA_rd _ hi) ?_
  refine t_st (by hfind1) (PA_wr _ hi _) ?_
  rw [show (i + 1) % 4294967296 = i + 1 by omega]
  refine t_pure ⟨rfl, ?_⟩
  rw [mix_at]
  have e2 := mix_succ i (fun j => padd (some (q j)) k) fun j => some (q j)
  rw [e2, ← add_assoc, ← add_assoc, add_comm (bl .stack cd _)]
  rfl

theorem ups_tab {q : Nat → Ptr} {n a c : Nat} {g h : Nat → Nat → Byte} (hv : ∀ j, j < 4 → Valid F (q j) n)
    (hq : ∀ i j, i < 4 → j < 4 → i ≠ j → Apart (q i) n (q j) n) (hn : ND F) (hac : a + c ≤ n)
    (hg : ∀ j t, t < c → h j t = g j (a + t)) :
    ups 4 (ups 4 F q fun j => tabP a (g j)) (fun j => ⟨(q j).blk, (q j).off + a⟩) (fun j => tabP c (h j))
      = ups 4 F q fun j => tabP (a + c) (g j) := by
  have e := ups_append (F := F) (n := 4) (q := q) (l := fun j => tabP a (g j)) (l' := fun j => tabP c (h j)) hn
    (fun j hj => by rw [tabP_length, tabP_length]; exact (hv j hj).mono hac)
    (fun i j hi hj hij => by
      have := hq i j hi hj hij
      rw [tabP_length, tabP_length, tabP_length, tabP_length]
      unfold Apart at *
      intro e
      have := this e
      omega)
  have hl : (fun j => (⟨(q j).blk, (q j).off + (tabP a (g j)).length⟩ : Ptr)) = fun j => ⟨(q j).blk, (q j).off + a⟩ := by
    funext j
    rw [tabP_length]
  rw [hl] at e
  rw [e]
  refine ups_congr fun j _ => ?_
  rw [tabP_add, tabP_congr (hg j)]

/-- A pass over the four states which gives out bytes. -/
theorem t_ext {δ : Type} {Q : δ → Blocks → Prop} {g : Nat → CM δ} {body : Nat → CM Nat} {cd i x k n : Nat}
    {q : Nat → Ptr} {G : Nat → Nat → Byte} (hv : ∀ j, j < 4 → Valid F (q j) n)
    (hq : ∀ i j, i < 4 → j < 4 → i ≠ j → Apart (q i) n (q j) n) (hn : ND F) (hi : i + k ≤ n) (hx : x + k < 200)
    (hg : ∀ j t, t < k → B j (x + t) = G j (i + t))
    (hb : ∀ (j : Nat) (D : Blocks) (Q : Nat → Blocks → Prop), T D (do
        let e : CPtr ← ld (some ⟨cd, 0⟩) j
        K4.KeccakP1600times4_ExtractBytes (some ⟨b, 0⟩) j e x k
        let e : CPtr ← ld (some ⟨cd, 0⟩) j
        st (some ⟨cd, 0⟩) j (padd e k)
        pure ((j + 1) % 4294967296)) Q → T D (body j) Q)
    (K : T (bl kd b (S.lay B) + (bl .stack cd (PA fun j => some ⟨(q j).blk, (q j).off + (i + k)⟩) +
      ups 4 F q fun j => tabP (i + k) (G j))) (g 4) Q) :
    T (bl kd b (S.lay B) + (bl .stack cd (PA fun j => some ⟨(q j).blk, (q j).off + i⟩) + ups 4 F q fun j => tabP i (G j)))
      (cwhile (fun s => decide (s < 4)) body 0 >>= g) Q := by
  have hl : ∀ j, j < 4 → Valid F (q j) ((fun j => tabP i (G j)) j).length := by
    intro j hj
    dsimp only
    rw [tabP_length]
    exact (hv j hj).mono (by omega)
  refine t_for4 (fun s => bl kd b (S.lay B) + (bl .stack cd (PA (mix s (fun j => padd (some ⟨(q j).blk, (q j).off + i⟩) k)
      fun j => some ⟨(q j).blk, (q j).off + i⟩)) + ups s (ups 4 F q fun j => tabP i (G j)) (fun j => ⟨(q j).blk, (q j).off + i⟩)
        fun j => tabP k fun t => B j (x + t))) (by rw [mix_zero]; rfl) ?_ ?_
  · intro s hs
    refine hb s _ _ ?_
    refine t_ld (View.there View.here0) (PA_rd _ hs) ?_
    rw [mix_at]
    refine ext_step S (q := fun j => ⟨(q j).blk, (q j).off + i⟩) hs ?_ rfl hx
    refine Valid.ups (Valid.ups ((hv s hs).sub hi) hl hn) (fun j hj => ?_) (ND.ups hn _ _ _)
    rw [tabP_length]
    exact Valid.ups ((hv j (by omega)).sub hi) hl hn
  · have e : (fun j => padd (some ⟨(q j).blk, (q j).off + i⟩) k) = fun j => some ⟨(q j).blk, (q j).off + (i + k)⟩ := by
      funext j
      simp [padd, Nat.add_assoc]
    rw [PA_mix, ups_tab hv hq hn hi hg, e]
    exact K

/-- Nothing is asked for. -/
theorem spSqueeze40_runs {r x : Nat} {p data : CPtr} :
    Runs F (KeccakWidth1600times4_SpongeSqueeze K4 (spS p r x) data 0) (0, spS p r x) F := by
  unfold KeccakWidth1600times4_SpongeSqueeze
  refine t_uget rfl ?_
  refine t_alloc fun cd => ?_
  refine t_st rfl rfl (t_st rfl rfl (t_st rfl rfl (t_st rfl rfl ?_)))
  refine t_uget rfl ?_
  refine t_ite_neg (by decide) ?_
  refine t_pbind ?_
  refine t_ite_neg (by decide) ?_
  refine t_pbind ?_
  refine t_whileI (I := fun y D => y = (spS p r x, 0) ∧ D = _) (μ := fun _ => 0) ⟨rfl, rfl⟩ (by decide) ?_ ?_
  · rintro _ _ ⟨rfl, rfl⟩ h
    simp at h
  · rintro _ _ ⟨rfl, rfl⟩ -
    refine t_free rfl ?_
    exact t_pure ⟨rfl, rfl⟩

set_option maxHeartbeats 1000000 in
theorem spSqueeze4_t {r n k x p : Nat} {data : CPtr} {q : Nat → Ptr} (hr : r = 136 ∨ r = 168) (h0 : 0 < n)
    (hP : View F data (PA fun j => some (q j))) (hv : ∀ j, j < 4 → Valid F (q j) n)
    (hq : ∀ i j, i < 4 → j < 4 → i ≠ j → Apart (q i) n (q j) n)
    (hp : p = r * k + x) (hx : x ≤ r) (hn : n + r < 2 ^ 64) (hf : x = r ∨ Fits r x n) :
    T (bl kd b (S.lay fun j => iterB k (B j)) + F) (KeccakWidth1600times4_SpongeSqueeze K4 (spS (some ⟨b, 0⟩) r x) data n)
      fun y D' => ∃ k' x', p + n = r * k' + x' ∧ x' ≤ r ∧ y = (0, spS (some ⟨b, 0⟩) r x') ∧
        D' = bl kd b (S.lay fun j => iterB k' (B j)) + ups 4 F q fun j => tabP n fun t => sqByte r (B j) (p + t) := by
  refine t_nd fun hnd => ?_
  have hF : ND F := hnd.right
  unfold KeccakWidth1600times4_SpongeSqueeze
  refine t_uget rfl ?_
  refine t_alloc fun cd => ?_
  refine t_st rfl rfl (t_st rfl rfl (t_st rfl rfl (t_st rfl rfl ?_)))
  refine t_uget rfl ?_
  refine t_ite_neg (by decide) ?_
  refine t_pbind ?_
  refine t_ite_pos h0 ?_
  refine t_assoc (t_copy rfl hP.there ?_)
  refine t_pbind ?_
  dsimp only
  rw [show 8 * r / 8 = r by omega]
  refine t_whileI (I := fun y D => y.2 ≤ n ∧ ∃ k x, y.1 = spS (some ⟨b, 0⟩) r x ∧ p + y.2 = r * k + x ∧ x ≤ r ∧
      (x = r ∨ Fits r x (n - y.2)) ∧
      D = bl kd b (S.lay fun j => iterB k (B j)) + (bl .stack cd (PA fun j => some ⟨(q j).blk, (q j).off + y.2⟩) +
        ups 4 F q fun j => tabP y.2 fun t => sqByte r (B j) (p + t))) (μ := fun y => n - y.2)
    ⟨Nat.zero_le _, k, x, rfl, by dsimp only; omega, hx, hf, ?_⟩ (by dsimp only; omega) ?_ ?_
  · dsimp only
    rw [show (fun j => tabP 0 fun t => sqByte r (B j) (p + t)) = fun _ => [] from rfl, ups_nil, ← add_assoc, ← add_assoc,
      add_comm (bl .stack cd _)]
    rfl
  · rintro ⟨c, i⟩ D ⟨hi, k, x, h1, hp, hx, h3, rfl⟩ hb
    dsimp only at hi h1 hp h3 hb ⊢
    rw [decide_eq_true_eq] at hb
    subst h1
    refine t_uget rfl ?_
    rw [Nat.mod_eq_of_lt (by omega : i + r < 18446744073709551616),
      show (n + 18446744073709551616 - i) % 18446744073709551616 = n - i by omega]
    by_cases e : x = r ∧ n ≥ i + r
    · obtain ⟨rfl, e⟩ := e
      refine t_ite_pos ⟨rfl, e⟩ ?_
      refine t_assoc ?_
      refine t_whileI (I := fun z D => ∃ i' k, i ≤ i' ∧ (z ≥ x → i' = i ∨ i' ≥ i + x) ∧ (z < x → i' ≥ i + x) ∧ i' ≤ n ∧
          z = n - i' ∧ p + i' = x * k + x ∧
          D = bl kd b (S.lay fun j => iterB k (B j)) + (bl .stack cd (PA fun j => some ⟨(q j).blk, (q j).off + i'⟩) +
            ups 4 F q fun j => tabP i' fun t => sqByte x (B j) (p + t))) (μ := fun z => z)
        ⟨i, k, le_rfl, by omega, by omega, by omega, rfl, hp, rfl⟩ (by omega) ?_ ?_
      · rintro z D ⟨i', k, h1, h2, h3, h4, rfl, h7, rfl⟩ hb
        rw [decide_eq_true_eq] at hb
        refine t_run rfl S.permute ?_
        refine t_ext S (k := x) (x := 0) hv hq hF (by omega) (by omega) ?_ (fun j D Q h => h) ?_
        · intro j t ht
          have := sqByte_eq (B j) (k + 1) t ht
          rw [Nat.zero_add, ← Nat.add_assoc, h7, show x * k + x = x * (k + 1) by rw [Nat.mul_add, Nat.mul_one], this]
          rfl
        rw [show (n - i' + 18446744073709551616 - x) % 18446744073709551616 = n - i' - x by omega]
        exact t_pure ⟨⟨i' + x, k + 1, by omega, by omega, by omega, by omega, by omega, by rw [Nat.mul_add]; omega, rfl⟩, by omega⟩
      · rintro z D ⟨i', k, h1, h2, h3, h4, rfl, h7, rfl⟩ hb
        rw [decide_eq_false_iff_not] at hb
        refine t_pbind (t_pure ?_)
        dsimp only
        rw [show (n + 18446744073709551616 - (n - i')) % 18446744073709551616 = i' by omega]
        exact ⟨⟨h4, k, x, rfl, h7, le_rfl, Or.inl rfl, rfl⟩, by omega⟩
    · refine t_ite_neg e ?_
      refine t_assoc (t_uget rfl ?_)
      have key : ∀ k x, p + i = r * k + x → x < r → Fits r x (n - i) →
          T (bl kd b (S.lay fun j => iterB k (B j)) + (bl .stack cd (PA fun j => some ⟨(q j).blk, (q j).off + i⟩) +
            ups 4 F q fun j => tabP i fun t => sqByte r (B j) (p + t))) (do
            let e17 ← uget (spS (some ⟨b, 0⟩) r x).byteIOIndex
            let e18 : Nat ← (
              if (((n - i) % 4294967296 + e17) % 4294967296) > r then (do
                let e19 ← uget (spS (some ⟨b, 0⟩) r x).byteIOIndex
                let partialBlock : Nat := (r + 4294967296 - e19) % 4294967296
                pure partialBlock)
              else (do
                pure ((n - i) % 4294967296)))
            let e20 : Nat ← cwhile
                (fun _s2 =>
                  let instanceIndex : Nat := _s2
                  decide (instanceIndex < 4))
                (fun _s2 => do
                  let instanceIndex : Nat := _s2
                  let e21 : CPtr ← ld (some ⟨cd, 0⟩) instanceIndex
                  let e22 ← uget (spS (some ⟨b, 0⟩) r x).byteIOIndex
                  K4.KeccakP1600times4_ExtractBytes (spS (some ⟨b, 0⟩) r x).state instanceIndex e21 e22 e18
                  let e23 : CPtr ← ld (some ⟨cd, 0⟩) instanceIndex
                  st (some ⟨cd, 0⟩) instanceIndex (padd e23 e18)
                  let instanceIndex : Nat := (instanceIndex + 1) % 4294967296
                  pure instanceIndex)
                0
            let e24 ← uget (spS (some ⟨b, 0⟩) r x).byteIOIndex
            pure ({ spS (some ⟨b, 0⟩) r x with byteIOIndex := some ((e24 + e18) % 4294967296) },
              (i + e18) % 18446744073709551616))
          fun y D => (y.2 ≤ n ∧ ∃ k x, y.1 = spS (some ⟨b, 0⟩) r x ∧ p + y.2 = r * k + x ∧ x ≤ r ∧
            (x = r ∨ Fits r x (n - y.2)) ∧
            D = bl kd b (S.lay fun j => iterB k (B j)) + (bl .stack cd (PA fun j => some ⟨(q j).blk, (q j).off + y.2⟩) +
              ups 4 F q fun j => tabP y.2 fun t => sqByte r (B j) (p + t))) ∧ n - y.2 < n - i := by
        intro k x hp hx hF2
        have hF3 := hF2
        unfold Fits at hF3
        refine t_uget rfl ?_
        have fin : ∀ c, c = min (n - i) (r - x) →
            T (bl kd b (S.lay fun j => iterB k (B j)) + (bl .stack cd (PA fun j => some ⟨(q j).blk, (q j).off + i⟩) +
              ups 4 F q fun j => tabP i fun t => sqByte r (B j) (p + t))) (do
              let e20 : Nat ← cwhile
                  (fun _s2 =>
                    let instanceIndex : Nat := _s2
                    decide (instanceIndex < 4))
                  (fun _s2 => do
                    let instanceIndex : Nat := _s2
                    let e21 : CPtr ← ld (some ⟨cd, 0⟩) instanceIndex
                    let e22 ← uget (spS (some ⟨b, 0⟩) r x).byteIOIndex
                    K4.KeccakP1600times4_ExtractBytes (spS (some ⟨b, 0⟩) r x).state instanceIndex e21 e22 c
                    let e23 : CPtr ← ld (some ⟨cd, 0⟩) instanceIndex
                    st (some ⟨cd, 0⟩) instanceIndex (padd e23 c)
                    let instanceIndex : Nat := (instanceIndex + 1) % 4294967296
                    pure instanceIndex)
                  0
              let e24 ← uget (spS (some ⟨b, 0⟩) r x).byteIOIndex
              pure ({ spS (some ⟨b, 0⟩) r x with byteIOIndex := some ((e24 + c) % 4294967296) },
                (i + c) % 18446744073709551616))
            fun y D => (y.2 ≤ n ∧ ∃ k x, y.1 = spS (some ⟨b, 0⟩) r x ∧ p + y.2 = r * k + x ∧ x ≤ r ∧
              (x = r ∨ Fits r x (n - y.2)) ∧
              D = bl kd b (S.lay fun j => iterB k (B j)) + (bl .stack cd (PA fun j => some ⟨(q j).blk, (q j).off + y.2⟩) +
                ups 4 F q fun j => tabP y.2 fun t => sqByte r (B j) (p + t))) ∧ n - y.2 < n - i := by
          intro c hc
          refine t_ext S (k := c) (x := x) hv hq hF (by omega) (by omega) ?_ (fun j D Q h => h) ?_
          · intro j t ht
            rw [← sqByte_eq (r := r) (B j) k (x + t) (by omega), ← Nat.add_assoc, ← Nat.add_assoc, hp]
          refine t_uget rfl ?_
          rw [Nat.mod_eq_of_lt (by omega : x + c < 4294967296), Nat.mod_eq_of_lt (by omega : i + c < 18446744073709551616)]
          refine t_pure ⟨⟨by dsimp only; omega, k, x + c, rfl, by dsimp only; omega, by omega, ?_, rfl⟩, by dsimp only; omega⟩
          unfold Fits; dsimp only; omega
        by_cases e3 : ((n - i) % 4294967296 + x) % 4294967296 > r
        · refine t_ite_pos e3 ?_
          refine t_assoc (t_uget rfl ?_)
          exact t_pbind (fin _ (by omega))
        · refine t_ite_neg e3 ?_
          exact t_pbind (fin _ (by omega))
      by_cases e2 : x = r
      · subst e2
        refine t_assoc (t_ite_pos rfl ?_)
        refine t_assoc (t_run rfl S.permute ?_)
        refine t_pbind ?_
        exact t_call rfl (key (k + 1) 0 (by rw [Nat.mul_add]; omega) (by omega) (by unfold Fits at *; omega)) fun y D' h => t_pure h
      · refine t_assoc (t_ite_neg e2 ?_)
        refine t_pbind ?_
        exact t_call rfl (key k x hp (by omega) (h3.resolve_left e2)) fun y D' h => t_pure h
  · rintro ⟨c, i⟩ D ⟨hi, k, x, h1, hp, hx, h3, rfl⟩ hb
    dsimp only at hi h1 hp h3 hb ⊢
    rw [decide_eq_false_iff_not] at hb
    obtain rfl : i = n := by omega
    subst h1
    refine t_free (by hfind1) ?_
    exact t_pure ⟨k, x, hp, hx, rfl, rfl⟩

end

end Faest.GenH
