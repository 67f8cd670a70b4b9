/-
The four-way sponge: four independent instances of the machine of Proofs/KeccakSponge.lean.
-/
import Verif.Proofs.KeccakSponge

namespace Faest.Keccak

/-- The four states. -/
def HasAll (st : Mem U64) (B : Nat → Nat → Byte) : Prop := ∀ k, k < 4 → Has st (stateWithIndex k) 25 (packL (B k))

theorem all4_ok {op : Nat → Mem U64 → Option (Mem U64)} {B B' : Nat → Nat → Byte}
    (hop : ∀ k, k < 4 → ∀ st, Has st (stateWithIndex k) 25 (packL (B k)) →
      Ok (op k st) (SOk st (stateWithIndex k) (B' k)))
    {st : Mem U64} (h : HasAll st B) : Ok (forN 4 st op) (fun st' => HasAll st' B' ∧ st'.length = st.length) := by
  refine (Ok.forN (n := 4) (s := st) (f := op) (fun i s => s.length = st.length ∧
    (∀ k, k < 4 → k < i → Has s (stateWithIndex k) 25 (packL (B' k))) ∧
    (∀ k, k < 4 → i ≤ k → Has s (stateWithIndex k) 25 (packL (B k)))) ⟨rfl, ?_, ?_⟩ ?_).mono ?_
  · intro k _ hk; omega
  · intro k hk _; exact h k hk
  · rintro i hi s ⟨h1, h2, h3⟩
    refine (hop i hi s (h3 i hi (Nat.le_refl _))).mono ?_
    intro s' hs
    refine ⟨hs.len.trans h1, ?_, ?_⟩
    · intro k hk hki
      by_cases e : k = i
      · subst e; exact hs.has
      · intro j hj
        rw [hs.frame _ (by unfold stateWithIndex; omega)]
        exact h2 k hk (by omega) j hj
    · intro k hk hki j hj
      rw [hs.frame _ (by unfold stateWithIndex; omega)]
      exact h3 k hk (by omega) j hj
  · rintro s ⟨h1, h2, _⟩
    exact ⟨fun k hk => h2 k hk hk, h1⟩

theorem permuteAll_ok {st : Mem U64} {B : Nat → Nat → Byte} (h : HasAll st B) :
    Ok (permuteAll st) (fun st' => HasAll st' (fun k => keccakB (B k)) ∧ st'.length = st.length) := by
  unfold permuteAll
  exact all4_ok (fun _ _ _ hk => permute24_ok hk) h

theorem addAll_ok {st : Mem U64} {B : Nat → Nat → Byte} (h : HasAll st B) {data : Nat → Mem Byte} {i off n : Nat}
    {d : Nat → Nat → Byte} (hd : ∀ k, k < 4 → Has (data k) i n (d k)) (hl : ∀ k, k < 4 → i + n ≤ (data k).length)
    (hn : off + n ≤ 200) :
    Ok (forN 4 st (fun k st => do
        let curData ← ptr (data k) i
        addBytes st (stateWithIndex k) curData off n))
      (fun st' => HasAll st' (fun k => xorB (B k) off n (d k)) ∧ st'.length = st.length) := by
  refine all4_ok ?_ h
  intro k hk st hst
  have := hl k hk
  refine Ok.step (ptr_eq (by omega)) ?_
  refine addBytes_ok hst ?_ (by simp; omega) hn
  rw [has_drop, Nat.add_zero]
  exact hd k hk

/-! ### Absorbing -/

/-- Instances which are taking in bytes, in the machine states `s`. -/
structure AOk4 (r : Nat) (s : Nat → MSt) (inst : SpongeInstance) : Prop where
  has : HasAll inst.state (fun k => (s k).1)
  len : inst.state.length = 100
  rate : inst.rate = 8 * r
  idx : ∀ k, k < 4 → (s k).2 = inst.byteIOIndex
  lt : inst.byteIOIndex < r
  sq : inst.squeezing = false

theorem Data.sub {data : Mem Byte} {l : List Byte} (h : Data data l) {i n : Nat} (hn : i + n ≤ l.length) :
    Has data i n (fun j => ((l.drop i).take n).getD j 0) := by
  have := (h.drop (i := i) (by omega)).take (i := n) (by simp; omega)
  rwa [has_drop, Nat.add_zero] at this

theorem absorbBlocksX4_ok {r : Nat} (hr0 : 0 < r) (hr200 : r ≤ 200) {data : Nat → Mem Byte}
    {l : Nat → List Byte} {n : Nat} (hd : ∀ k, k < 4 → Data (data k) (l k)) (hn : ∀ k, k < 4 → (l k).length = n)
    (s : Nat → MSt) :
    ∀ fuel i (st : Mem U64) (B : Nat → Nat → Byte), n - i < fuel → i ≤ n →
      (∀ k, k < 4 → absorbM r (s k) ((l k).take i) = (B k, 0)) → HasAll st B →
      Ok (absorbBlocksX4 r fuel st data i (n - i)) (fun x =>
        x.2 = (n - i) % r ∧ x.1.length = st.length ∧ ∃ B', HasAll x.1 B' ∧
          ∀ k, k < 4 → absorbM r (s k) ((l k).take (n - (n - i) % r)) = (B' k, 0)) := by
  intro fuel
  induction fuel with
  | zero => intro i _ _ h; omega
  | succ f ih =>
    intro i st B hf hi hB h
    unfold absorbBlocksX4
    by_cases e : n - i ≥ r
    · rw [if_pos e]
      refine Ok.bind (addAll_ok h (off := 0) (n := r) (d := fun k j => (((l k).drop i).take r).getD j 0) ?_ ?_ (by omega)) ?_
      · intro k hk
        exact (hd k hk).sub (by rw [hn k hk]; omega)
      · intro k hk
        have := (hd k hk).len
        rw [hn k hk] at this
        omega
      rintro st1 ⟨h1, hl1⟩
      refine Ok.bind (permuteAll_ok h1) ?_
      rintro st2 ⟨h2, hl2⟩
      rw [show n - i - r = n - (i + r) by omega]
      refine (ih (i + r) st2 _ (by omega) (by omega) ?_ h2).mono ?_
      · intro k hk
        have htl : (((l k).drop i).take r).length = r := by simp [hn k hk]; omega
        have hfull := absorbM_full (r := r) (((l k).drop i).take r) (B k, 0) (by rw [htl]; omega) (by omega)
        rw [htl] at hfull
        rw [List.take_add, absorbM_append, hB k hk, hfull]
      · rintro ⟨st3, j⟩ ⟨h3, h4, B', h5, h6⟩
        have hm : (n - (i + r)) % r = (n - i) % r := by
          conv_rhs => rw [show n - i = n - (i + r) + r by omega, Nat.add_mod_right]
        rw [hm] at h3 h6
        exact ⟨h3, h4.trans (hl2.trans hl1), B', h5, h6⟩
    · rw [if_neg e]
      have hm : (n - i) % r = n - i := Nat.mod_eq_of_lt (by omega)
      refine Ok.some ⟨hm.symm, rfl, B, h, ?_⟩
      rw [hm, show n - (n - i) = i by omega]
      exact hB

theorem absorbLoopX4_ok {w r : Nat} (hr0 : 0 < r) (hr200 : r ≤ 200) {data : Nat → Mem Byte}
    {l : Nat → List Byte} {n : Nat} (hd : ∀ k, k < 4 → Data (data k) (l k)) (hn : ∀ k, k < 4 → (l k).length = n)
    (hw : n + r < 2 ^ w) (s : Nat → MSt) :
    ∀ fuel i inst, n - i < fuel → i ≤ n → AOk4 r (fun k => absorbM r (s k) ((l k).take i)) inst →
      (inst.byteIOIndex = 0 ∨ Fits r inst.byteIOIndex (n - i)) →
      Ok (absorbLoopX4 w data n fuel inst i) (AOk4 r (fun k => absorbM r (s k) (l k))) := by
  intro fuel
  induction fuel with
  | zero => intro i _ h; omega
  | succ f ih =>
    intro i inst hf hi h hc
    unfold absorbLoopX4
    have hrate : inst.rate / 8 = r := by rw [h.rate]; omega
    dsimp only
    rw [hrate]
    have hlt := h.lt
    by_cases e : i < n
    · rw [if_pos e, sizeT_eq (by omega : i + r < 2 ^ w)]
      by_cases e2 : inst.byteIOIndex = 0 ∧ n ≥ i + r
      · rw [if_pos e2]
        have hB : ∀ k, k < 4 → absorbM r (s k) ((l k).take i) = ((absorbM r (s k) ((l k).take i)).1, 0) := by
          intro k hk
          have := h.idx k hk
          rw [e2.1] at this
          exact Prod.ext rfl this
        refine Ok.bind (absorbBlocksX4_ok hr0 hr200 hd hn s _ i inst.state _ (by omega) hi hB h.has) ?_
        rintro ⟨st, j⟩ ⟨h2, h3, B', h4, h5⟩
        dsimp only at h2 h3 h4 ⊢
        subst h2
        have hmod := Nat.mod_lt (n - i) hr0
        have hmle : (n - i) % r ≤ n - i := Nat.mod_le _ _
        have hlt2 : i < n - (n - i) % r := by
          have hdm := Nat.div_add_mod (n - i) r
          have h6 : (n - i) / r ≥ 1 := Nat.div_pos (by omega) hr0
          have : r * 1 ≤ r * ((n - i) / r) := Nat.mul_le_mul_left r h6
          omega
        refine ih (n - (n - i) % r) _ (by omega) (by omega) ?_ (Or.inl e2.1)
        refine ⟨?_, h3.trans h.len, h.rate, ?_, hlt, h.sq⟩
        · intro k hk
          beta_reduce
          rw [h5 k hk]
          exact h4 k hk
        · intro k hk
          rw [h5 k hk]
          exact e2.1.symm
      · rw [if_neg e2]
        have hpb : partialBlock r inst.byteIOIndex (n - i) = min (n - i) (r - inst.byteIOIndex) := by
          apply partialBlock_eq <;> unfold Fits at * <;> omega
        rw [hpb]
        generalize hm : min (n - i) (r - inst.byteIOIndex) = m
        refine Ok.bind (addAll_ok h.has (off := inst.byteIOIndex) (n := m)
          (d := fun k j => (((l k).drop i).take m).getD j 0) ?_ ?_ (by omega)) ?_
        · intro k hk
          exact (hd k hk).sub (by rw [hn k hk]; omega)
        · intro k hk
          have := (hd k hk).len
          rw [hn k hk] at this
          omega
        rintro st1 ⟨h1, hl1⟩
        rw [uint_eq (by omega : inst.byteIOIndex + m < 2 ^ 32), sizeT_eq (by omega : i + m < 2 ^ w)]
        have htl : ∀ k, k < 4 → (((l k).drop i).take m).length = m := by
          intro k hk; simp [hn k hk]; omega
        have hstep : ∀ k, absorbM r (s k) ((l k).take (i + m))
            = absorbM r (absorbM r (s k) ((l k).take i)) (((l k).drop i).take m) := by
          intro k; rw [List.take_add, absorbM_append]
        by_cases e3 : inst.byteIOIndex + m = r
        · rw [if_pos e3]
          have ej : ∀ k, k < 4 → absorbM r (s k) ((l k).take (i + m))
              = (keccakB (xorB (absorbM r (s k) ((l k).take i)).1 inst.byteIOIndex m
                  (fun j => (((l k).drop i).take m).getD j 0)), 0) := by
            intro k hk
            have := h.idx k hk
            rw [hstep, absorbM_full _ _ (by rw [htl k hk]; omega) (by rw [htl k hk]; omega), htl k hk, this]
          refine Ok.bind (permuteAll_ok h1) ?_
          rintro st2 ⟨h2, hl2⟩
          refine ih (i + m) _ (by omega) (by omega) ?_ (Or.inl rfl)
          refine ⟨?_, hl2.trans (hl1.trans h.len), h.rate, ?_, hr0, h.sq⟩
          · intro k hk
            beta_reduce
            rw [ej k hk]
            exact h2 k hk
          · intro k hk
            rw [ej k hk]
        · rw [if_neg e3]
          have ej : ∀ k, k < 4 → absorbM r (s k) ((l k).take (i + m))
              = (xorB (absorbM r (s k) ((l k).take i)).1 inst.byteIOIndex m
                  (fun j => (((l k).drop i).take m).getD j 0), inst.byteIOIndex + m) := by
            intro k hk
            have := h.idx k hk
            rw [hstep, absorbM_part _ _ (by rw [htl k hk]; omega), htl k hk, this]
          refine ih (i + m) _ (by omega) (by omega) ?_ ?_
          · refine ⟨?_, hl1.trans h.len, h.rate, ?_, ?_, h.sq⟩
            · intro k hk
              beta_reduce
              rw [ej k hk]
              exact h1 k hk
            · intro k hk
              rw [ej k hk]
            · simp only []; omega
          · right; unfold Fits at *; simp only []; omega
    · rw [if_neg e]
      refine Ok.some ⟨?_, h.len, h.rate, ?_, hlt, h.sq⟩
      · intro k hk
        have := h.has k hk
        beta_reduce at this ⊢
        rwa [show i = (l k).length by rw [hn k hk]; omega, List.take_length] at this
      · intro k hk
        have := h.idx k hk
        beta_reduce at this ⊢
        rwa [show i = (l k).length by rw [hn k hk]; omega, List.take_length] at this

theorem spongeAbsorbX4_ok {w r : Nat} (hr0 : 0 < r) (hr200 : r ≤ 200) {data : Nat → Mem Byte}
    {l : Nat → List Byte} {n : Nat} (hd : ∀ k, k < 4 → Data (data k) (l k)) (hn : ∀ k, k < 4 → (l k).length = n)
    (hw : n + r < 2 ^ w) {s : Nat → MSt} {inst : SpongeInstance} (h : AOk4 r s inst)
    (hc : inst.byteIOIndex = 0 ∨ Fits r inst.byteIOIndex n) :
    Ok (spongeAbsorbX4 w inst data n) (fun x => AOk4 r (fun k => absorbM r (s k) (l k)) x.1 ∧ x.2 = true) := by
  unfold spongeAbsorbX4
  rw [h.sq]
  simp only [Bool.false_eq_true, if_false]
  refine Ok.bind (absorbLoopX4_ok hr0 hr200 hd hn hw s _ 0 inst (by omega) (by omega) ?_ hc) ?_
  · simp only [List.take_zero]; exact h
  · intro inst' h'
    exact Ok.pure ⟨h', rfl⟩

/-- Instances which have given out `p` bytes each. -/
structure QOk4 (r : Nat) (B : Nat → Nat → Byte) (p : Nat) (inst : SpongeInstance) : Prop where
  has : ∃ q, p = r * q + inst.byteIOIndex ∧ HasAll inst.state (fun k => iterB q (B k))
  len : inst.state.length = 100
  rate : inst.rate = 8 * r
  le : inst.byteIOIndex ≤ r
  sq : inst.squeezing = true

theorem addByteAll_ok {st : Mem U64} {B : Nat → Nat → Byte} (h : HasAll st B) {off : Nat} (ho : off < 200) (b : Byte) :
    Ok (forN 4 st (fun k st => addByte st (stateWithIndex k) b off))
      (fun st' => HasAll st' (fun k => xorB (B k) off 1 (fun _ => b)) ∧ st'.length = st.length) :=
  all4_ok (fun _ _ _ hst => addByte_ok hst ho b) h

theorem spongeLastX4_ok {r : Nat} (hr0 : 0 < r) (hr200 : r ≤ 200) {s : Nat → MSt} {inst : SpongeInstance}
    (h : AOk4 r s inst) {b : Byte} (hb : b ≠ 0) (hb2 : ¬ 0x80#8 ≤ b) :
    Ok (spongeAbsorbLastFewBitsX4 inst b) (fun x => x.2 = true ∧ x.1.byteIOIndex = 0 ∧
      QOk4 r (fun k => keccakB (xorB (xorB (s k).1 (s k).2 1 (fun _ => b)) (r - 1) 1 (fun _ => 0x80))) 0 x.1) := by
  unfold spongeAbsorbLastFewBitsX4
  have hrate : inst.rate / 8 = r := by rw [h.rate]; omega
  dsimp only
  rw [hrate, if_neg hb, h.sq]
  have hu : uint (r + 2 ^ 32 - 1) = r - 1 := by unfold uint; omega
  have hlt := h.lt
  simp only [Bool.false_eq_true, if_false]
  rw [hu]
  refine Ok.bind (addByteAll_ok h.has (by omega) b) ?_
  rintro st1 ⟨h1, hl1⟩
  rw [if_neg (by intro hh; exact hb2 hh.1)]
  refine Ok.bind (Ok.pure (Q := fun x => x = st1) rfl) ?_
  rintro _ rfl
  refine Ok.bind (addByteAll_ok h1 (by omega) 0x80) ?_
  rintro st2 ⟨h2, hl2⟩
  refine Ok.bind (permuteAll_ok h2) ?_
  rintro st3 ⟨h3, hl3⟩
  refine Ok.pure ⟨rfl, rfl, ⟨0, by simp, ?_⟩, hl3.trans (hl2.trans (hl1.trans h.len)), h.rate, Nat.zero_le _, rfl⟩
  intro k hk
  have := h3 k hk
  rw [← h.idx k hk] at this
  exact this

/-! ### Squeezing -/

/-- All four buffers are written. -/
def WroteAll (data : Nat → Mem Byte) (off n : Nat) (g : Nat → Nat → Byte) (data' : Nat → Mem Byte) : Prop :=
  ∀ k, k < 4 → Wrote (data k) off n (g k) (data' k)

theorem extractAll_ok {st : Mem U64} {B : Nat → Nat → Byte} (h : HasAll st B) {data : Nat → Mem Byte}
    {cur off n : Nat} (hn : off + n < 200) (hl : ∀ k, k < 4 → cur + n ≤ (data k).length) :
    Ok (extractAll st data cur off n) (WroteAll data cur n (fun k i => B k (off + i))) := by
  unfold extractAll
  refine (Ok.forN (n := 4) (fun i d => (∀ k, k < 4 → k < i → Wrote (data k) cur n (fun i => B k (off + i)) (d k)) ∧
    ∀ k, i ≤ k → d k = data k) ⟨?_, fun _ _ => rfl⟩ ?_).mono ?_
  · intro k _ h; omega
  · rintro i hi d ⟨h1, h2⟩
    refine Ok.bind (extractBytes_ok (h i hi) hn (by rw [h2 i (Nat.le_refl _)]; exact hl i hi)) ?_
    intro m hm
    rw [h2 i (Nat.le_refl _)] at hm
    refine Ok.pure ⟨?_, ?_⟩
    · intro k hk hki
      unfold setBuf
      by_cases e : k = i
      · subst e; rw [if_pos rfl]; exact hm
      · rw [if_neg e]; exact h1 k hk (by omega)
    · intro k hk
      unfold setBuf
      rw [if_neg (by omega)]
      exact h2 k (by omega)
  · rintro d ⟨h1, _⟩
    exact fun k hk => h1 k hk hk

theorem squeezeBlocksX4_ok {r : Nat} (hr0 : 0 < r) (hr200 : r < 200) (B : Nat → Nat → Byte) :
    ∀ fuel q j (st : Mem U64) (data : Nat → Mem Byte) cur, j < fuel → HasAll st (fun k => iterB q (B k)) →
      (∀ k, k < 4 → cur + j ≤ (data k).length) →
      Ok (squeezeBlocksX4 r fuel st data cur j) (fun x =>
        x.2.2 = j % r ∧ HasAll x.1 (fun k => iterB (q + j / r) (B k)) ∧ x.1.length = st.length ∧
        WroteAll data cur (j - j % r) (fun k i => sqByte r (B k) (r * (q + 1) + i)) x.2.1) := by
  intro fuel
  induction fuel with
  | zero => intro _ _ _ _ _ h; omega
  | succ f ih =>
    intro q j st data cur hf h hl
    unfold squeezeBlocksX4
    by_cases e : j ≥ r
    · rw [if_pos e]
      refine Ok.bind (permuteAll_ok h) ?_
      rintro st1 ⟨h1, hl1⟩
      refine Ok.bind (extractAll_ok h1 (off := 0) (cur := cur) (n := r) (by omega)
        (fun k hk => by have := hl k hk; omega)) ?_
      intro data1 h2
      refine (ih (q + 1) (j - r) st1 data1 (cur + r) (by omega) h1 ?_).mono ?_
      · intro k hk
        have := hl k hk
        have := (h2 k hk).len
        omega
      rintro ⟨st2, data2, j'⟩ ⟨h3, h4, hl4, h5⟩
      dsimp only at h3 h4 hl4 h5 ⊢
      have hm : (j - r) % r = j % r := by
        conv_rhs => rw [show j = j - r + r by omega, Nat.add_mod_right]
      have hdv : j / r = (j - r) / r + 1 := by
        conv_lhs => rw [show j = j - r + r by omega, Nat.add_div_right _ hr0]
      rw [hm] at h3 h5
      refine ⟨h3, ?_, hl4.trans hl1, ?_⟩
      · rw [hdv, show q + ((j - r) / r + 1) = q + 1 + (j - r) / r by omega]
        exact h4
      · intro k hk
        have hmod := Nat.mod_lt j hr0
        have hmod2 : j % r ≤ j - r := by rw [← hm]; exact Nat.mod_le _ _
        have e1 : Wrote (data k) cur r (fun i => sqByte r (B k) (r * (q + 1) + i)) (data1 k) := by
          refine (h2 k hk).congr ?_
          intro i hi
          beta_reduce
          rw [Nat.zero_add, sqByte_eq _ _ _ hi]
          rfl
        have e2 : Wrote (data1 k) (cur + r) (j - r - j % r) (fun i => sqByte r (B k) (r * (q + 1) + (r + i))) (data2 k) := by
          refine (h5 k hk).congr ?_
          intro i hi
          beta_reduce
          congr 1
          ring
        have := e1.append e2
        rwa [show r + (j - r - j % r) = j - j % r by omega] at this
    · rw [if_neg e]
      have hm : j % r = j := Nat.mod_eq_of_lt (by omega)
      refine Ok.some ⟨hm.symm, ?_, rfl, ?_⟩
      · rw [Nat.div_eq_of_lt (by omega)]; exact h
      · intro k _; rw [hm, Nat.sub_self]; exact Wrote.zero _ _ _

theorem squeezeLoopX4_ok {w r n : Nat} (hr0 : 0 < r) (hr200 : r < 200) (B : Nat → Nat → Byte) (p : Nat)
    {data : Nat → Mem Byte} (hn : ∀ k, k < 4 → n ≤ (data k).length) (hw : n + r < 2 ^ w) :
    ∀ fuel i inst data', n - i < fuel → i ≤ n → QOk4 r B (p + i) inst →
      WroteAll data 0 i (fun k j => sqByte r (B k) (p + j)) data' →
      (inst.byteIOIndex = r ∨ Fits r inst.byteIOIndex (n - i)) →
      Ok (squeezeLoopX4 w n fuel inst data' i) (fun x => QOk4 r B (p + n) x.1 ∧
        WroteAll data 0 n (fun k j => sqByte r (B k) (p + j)) x.2) := by
  intro fuel
  induction fuel with
  | zero => intro i _ _ h; omega
  | succ f ih =>
    intro i inst data' hf hi h hW hc
    unfold squeezeLoopX4
    have hrate : inst.rate / 8 = r := by rw [h.rate]; omega
    dsimp only
    rw [hrate]
    by_cases e : i < n
    · rw [if_pos e, sizeT_eq (by omega : i + r < 2 ^ w)]
      obtain ⟨q, hq, hst⟩ := h.has
      have hle := h.le
      have hl' : ∀ k, k < 4 → n ≤ (data' k).length := fun k hk => by rw [(hW k hk).len]; exact hn k hk
      by_cases e2 : inst.byteIOIndex = r ∧ n ≥ i + r
      · rw [if_pos e2]
        obtain ⟨e2, e3⟩ := e2
        refine Ok.bind (squeezeBlocksX4_ok hr0 hr200 B _ q (n - i) inst.state data' i (by omega) hst
          (fun k hk => by have := hl' k hk; omega)) ?_
        rintro ⟨st, data1, j⟩ ⟨h1, h2, hl2, h3⟩
        dsimp only at h1 h2 hl2 h3 ⊢
        subst h1
        have hmod := Nat.mod_lt (n - i) hr0
        have hpos : (n - i) % r ≤ n - i := Nat.mod_le _ _
        have hdm := Nat.div_add_mod (n - i) r
        refine ih (n - (n - i) % r) _ data1 ?_ (by omega) ?_ ?_ (Or.inl e2)
        · have : (n - i) / r ≥ 1 := Nat.div_pos (by omega) hr0
          have : r * 1 ≤ r * ((n - i) / r) := Nat.mul_le_mul_left r this
          omega
        · refine ⟨⟨q + (n - i) / r, ?_, h2⟩, hl2.trans h.len, h.rate, hle, h.sq⟩
          show p + _ = r * _ + inst.byteIOIndex
          rw [Nat.mul_add]
          omega
        · intro k hk
          have e4 : Wrote (data' k) (0 + i) (n - i - (n - i) % r) (fun j => sqByte r (B k) (p + (i + j))) (data1 k) := by
            rw [Nat.zero_add]
            refine (h3 k hk).congr ?_
            intro j hj
            beta_reduce
            congr 1
            rw [Nat.mul_add]
            omega
          have := (hW k hk).append e4
          rwa [show i + (n - i - (n - i) % r) = n - (n - i) % r by omega] at this
      · rw [if_neg e2]
        have hstep : Ok (refillX4 inst r) (fun inst' => QOk4 r B (p + i) inst' ∧ inst'.byteIOIndex < r ∧
              Fits r inst'.byteIOIndex (n - i)) := by
          unfold refillX4
          by_cases e3 : inst.byteIOIndex = r
          · rw [if_pos e3]
            refine Ok.bind (permuteAll_ok hst) ?_
            rintro st ⟨h1, hl1⟩
            refine Ok.pure ⟨⟨⟨q + 1, ?_, h1⟩, hl1.trans h.len, h.rate, Nat.zero_le _, h.sq⟩, hr0, ?_⟩
            · simp only [Nat.mul_add]; omega
            · unfold Fits at *; simp only []; omega
          · rw [if_neg e3]
            exact Ok.pure ⟨h, by omega, hc.resolve_left e3⟩
        refine Ok.bind hstep ?_
        rintro inst' ⟨h1, hlt, hsz⟩
        have hpb : partialBlock r inst'.byteIOIndex (n - i) = min (n - i) (r - inst'.byteIOIndex) := by
          apply partialBlock_eq <;> unfold Fits at * <;> omega
        rw [hpb]
        generalize hm : min (n - i) (r - inst'.byteIOIndex) = m
        obtain ⟨q, hq, hst⟩ := h1.has
        refine Ok.bind (extractAll_ok hst (cur := i) (off := inst'.byteIOIndex) (n := m) (by omega)
          (fun k hk => by have := hl' k hk; omega)) ?_
        intro data1 h2
        rw [uint_eq (by omega : inst'.byteIOIndex + m < 2 ^ 32), sizeT_eq (by omega : i + m < 2 ^ w)]
        refine ih (i + m) _ data1 (by omega) (by omega) ?_ ?_ ?_
        · refine ⟨⟨q, ?_, hst⟩, h1.len, h1.rate, ?_, h1.sq⟩ <;> simp only [] <;> omega
        · intro k hk
          have e4 : Wrote (data' k) (0 + i) m (fun j => sqByte r (B k) (p + (i + j))) (data1 k) := by
            rw [Nat.zero_add]
            refine (h2 k hk).congr ?_
            intro j hj
            beta_reduce
            rw [← sqByte_eq (r := r) (B k) q (inst'.byteIOIndex + j) (by omega)]
            congr 1
            omega
          exact (hW k hk).append e4
        · unfold Fits at *; simp only []; omega
    · rw [if_neg e]
      obtain rfl : i = n := by omega
      exact Ok.some ⟨h, hW⟩

theorem spongeSqueezeX4_ok {w r n : Nat} (hr0 : 0 < r) (hr200 : r < 200) {B : Nat → Nat → Byte} {p : Nat}
    {data : Nat → Mem Byte} (hn : ∀ k, k < 4 → n ≤ (data k).length) (hw : n + r < 2 ^ w) {inst : SpongeInstance}
    (h : QOk4 r B p inst) (hc : inst.byteIOIndex = r ∨ Fits r inst.byteIOIndex n) :
    Ok (spongeSqueezeX4 w inst data n) (fun x => QOk4 r B (p + n) x.1 ∧
        WroteAll data 0 n (fun k j => sqByte r (B k) (p + j)) x.2) := by
  unfold spongeSqueezeX4
  rw [h.sq]
  simp only [if_true]
  refine Ok.bind (Ok.pure (Q := fun x => x = inst) rfl) ?_
  rintro _ rfl
  exact squeezeLoopX4_ok hr0 hr200 B p hn hw _ 0 _ data (by omega) (by omega) h
    (fun k _ => Wrote.zero _ _ _) hc

end Faest.Keccak
