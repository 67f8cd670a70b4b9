/-
The sponge functions as a machine on bytes: `absorbM` takes in one byte at a time, `sqByte` is the output
stream.
-/
import Verif.Model.Shake
import Verif.Proofs.KeccakState
import Mathlib.Tactic.Ring

namespace Faest.Keccak

/-! ### The machine -/

/-- The state of a sponge: 200 bytes and the position in the block. -/
abbrev MSt := (Nat → Byte) × Nat

/-- Take in one byte; after `r` bytes the permutation is applied. -/
def absStep (r : Nat) (s : MSt) (b : Byte) : MSt :=
  if s.2 + 1 = r then (keccakB (xorB s.1 s.2 1 (fun _ => b)), 0) else (xorB s.1 s.2 1 (fun _ => b), s.2 + 1)

/-- Take in a list of bytes. -/
def absorbM (r : Nat) (s : MSt) (l : List Byte) : MSt := l.foldl (absStep r) s

theorem absorbM_append (r : Nat) (s : MSt) (l l' : List Byte) :
    absorbM r s (l ++ l') = absorbM r (absorbM r s l) l' := List.foldl_append

theorem absorbM_lt {r : Nat} (hr : 0 < r) (l : List Byte) : ∀ s : MSt, s.2 < r → (absorbM r s l).2 < r := by
  induction l with
  | nil => intro s h; exact h
  | cons b l ih =>
    intro s h
    refine ih _ ?_
    unfold absStep
    split
    · exact hr
    · simp only []; omega

/-- The position only depends on the number of bytes. -/
theorem absorbM_idx {r : Nat} (hr : 0 < r) (l : List Byte) :
    ∀ s : MSt, s.2 < r → (absorbM r s l).2 = (s.2 + l.length) % r := by
  induction l with
  | nil => intro s h; exact (Nat.mod_eq_of_lt h).symm
  | cons b l ih =>
    intro s h
    show (absorbM r (absStep r s b) l).2 = _
    rw [ih]
    · unfold absStep
      split
      · rename_i h1
        rw [List.length_cons, show s.2 + (l.length + 1) = l.length + r by omega, Nat.add_mod_right, Nat.zero_add]
      · rw [List.length_cons]; congr 1; simp only []; omega
    · unfold absStep
      split
      · exact hr
      · simp only []; omega

theorem absorbM_part {r : Nat} (l : List Byte) : ∀ s : MSt, s.2 + l.length < r →
    absorbM r s l = (xorB s.1 s.2 l.length (fun i => l.getD i 0), s.2 + l.length) := by
  induction l with
  | nil => intro s _; simp [absorbM, xorB_zero]
  | cons b l ih =>
    intro s h
    rw [List.length_cons] at h
    show absorbM r (absStep r s b) l = _
    unfold absStep
    rw [if_neg (by omega), ih _ (by simp only []; omega)]
    simp only [List.length_cons]
    rw [show s.2 + 1 + l.length = s.2 + (l.length + 1) by omega]
    congr 1
    have := xorB_xorB s.1 s.2 1 l.length (fun i => (b :: l).getD i 0)
    rw [show l.length + 1 = 1 + l.length by omega, ← this]
    have e : xorB s.1 s.2 1 (fun _ => b) = xorB s.1 s.2 1 (fun i => (b :: l).getD i 0) := by
      apply xorB_congr
      intro i hi
      rw [show i = 0 by omega]; rfl
    rw [e]
    apply xorB_congr
    intro i _
    rw [show 1 + i = i + 1 by omega, List.getD_cons_succ]

theorem absorbM_full {r : Nat} (l : List Byte) (s : MSt) (h : s.2 + l.length = r) (h0 : 0 < l.length) :
    absorbM r s l = (keccakB (xorB s.1 s.2 l.length (fun i => l.getD i 0)), 0) := by
  obtain ⟨l', b, rfl⟩ : ∃ l' b, l = l' ++ [b] := by
    rcases List.eq_nil_or_concat l with h | ⟨l', b, h⟩
    · subst h; simp at h0
    · exact ⟨l', b, by simpa using h⟩
  rw [List.length_append, List.length_singleton] at h
  rw [absorbM_append, absorbM_part l' s (by omega)]
  show absStep r _ b = _
  unfold absStep
  rw [if_pos (by simp only []; omega)]
  congr 2
  simp only [List.length_append, List.length_singleton]
  rw [← xorB_xorB s.1 s.2 l'.length 1]
  have e : xorB s.1 s.2 l'.length (fun i => l'.getD i 0) = xorB s.1 s.2 l'.length (fun i => (l' ++ [b]).getD i 0) := by
    apply xorB_congr
    intro i hi
    simp [List.getD_eq_getElem?_getD, List.getElem?_append_left hi]
  rw [e]
  apply xorB_congr
  intro i hi
  rw [show i = 0 by omega]
  simp [List.getD_eq_getElem?_getD]

/-- `k` applications of the permutation. -/
def iterB : Nat → (Nat → Byte) → Nat → Byte
  | 0, B => B
  | k + 1, B => keccakB (iterB k B)

/-- Byte `p` of the output stream. -/
def sqByte (r : Nat) (B : Nat → Byte) (p : Nat) : Byte := iterB (p / r) B (p % r)

/-! ### Sizes -/

/-- The sizes for which the first `partialBlock` is right: either nothing wraps, or enough is left over to
fill the block in spite of the truncation to 32 bits. -/
def Fits (r idx left : Nat) : Prop :=
  left + idx < 2 ^ 32 ∨ (r ≤ left % 2 ^ 32 + idx ∧ left % 2 ^ 32 + idx < 2 ^ 32)

theorem partialBlock_eq {r idx left : Nat} (hr : r < 2 ^ 32) (hi : idx ≤ r) (hl : Fits r idx left) :
    partialBlock r idx left = min left (r - idx) := by
  unfold partialBlock uint
  unfold Fits at hl
  have hle := Nat.mod_le left (2 ^ 32)
  have h1 : left % 2 ^ 32 + idx < 2 ^ 32 := by omega
  rw [Nat.mod_eq_of_lt h1]
  split
  · rw [show r + 2 ^ 32 - idx = (r - idx) + 2 ^ 32 by omega, Nat.add_mod_right, Nat.mod_eq_of_lt (by omega)]
    omega
  · omega

/-! ### The loop over whole blocks of lanes -/

theorem lanesOf_fn (A : Lanes) : lanesOf A.fn = A := rfl

theorem lanesOf_congr {g g' : Nat → U64} (h : ∀ k, k < 25 → g k = g' k) : lanesOf g = lanesOf g' := by
  unfold lanesOf
  simp only [h 0 (by omega), h 1 (by omega), h 2 (by omega), h 3 (by omega), h 4 (by omega),
    h 5 (by omega), h 6 (by omega), h 7 (by omega), h 8 (by omega), h 9 (by omega), h 10 (by omega),
    h 11 (by omega), h 12 (by omega), h 13 (by omega), h 14 (by omega), h 15 (by omega), h 16 (by omega),
    h 17 (by omega), h 18 (by omega), h 19 (by omega), h 20 (by omega), h 21 (by omega), h 22 (by omega),
    h 23 (by omega), h 24 (by omega)]

theorem rounds24_eq (B : Nat → Byte) : rounds24 (lanesOf (packL B)) = lanesOf (packL (keccakB B)) := by
  rw [← lanesOf_fn (rounds24 (lanesOf (packL B)))]
  exact lanesOf_congr fun k hk => rounds24_fn B k hk

theorem lanesOf_fn_eq (g : Nat → U64) (k : Nat) (hk : k < 25) : (lanesOf g).fn k = g k := by
  unfold Lanes.fn
  rw [lanesOf_lane]
  congr 1
  show 5 * (k / 5 % 5) + k % 5 = k
  omega

theorem addInput_eq {B : Nat → Byte} {lc : Nat} {data : Mem Byte} {d : Nat → Byte}
    (hd : Has data 0 (8 * lc) d) :
    addInput (lanesOf (packL B)) data lc = some (lanesOf (packL (xorB B 0 (8 * lc) d))) := by
  have key : ∀ k, k < 25 → (if k < lc then do
      let y ← loadLane data k
      pure (packL B k ^^^ y)
    else some (packL B k)) = some (packL (xorB B 0 (8 * lc) d) k) := by
    intro k hk
    by_cases h : k < lc
    · rw [if_pos h]
      have hl : loadLane data k = some (leWord (tabP 8 (fun j => d (8 * k + j)))) := by
        unfold loadLane
        have := hd.sub (8 * k) 8 (by omega)
        rw [Nat.zero_add] at this
        rw [rdN_has this (by omega)]
        rfl
      rw [hl]
      show some _ = some _
      congr 1
      apply u64_ext
      intro j hj
      rw [laneByte_xor, laneByte_packL _ _ _ hj, laneByte_packL _ _ _ hj, laneByte_leWord _ _ hj,
        List.getD_eq_getElem?_getD, tabP_getElem?, if_pos hj]
      unfold xorB
      rw [if_pos (by omega)]
      rfl
    · rw [if_neg h]
      congr 1
      apply packL_congr
      intro j hj
      unfold xorB
      rw [if_neg (by omega)]
  apply Ok.eq
  unfold addInput
  refine Ok.step (key 0 (by omega)) ?_
  refine Ok.step (key 1 (by omega)) ?_
  refine Ok.step (key 2 (by omega)) ?_
  refine Ok.step (key 3 (by omega)) ?_
  refine Ok.step (key 4 (by omega)) ?_
  refine Ok.step (key 5 (by omega)) ?_
  refine Ok.step (key 6 (by omega)) ?_
  refine Ok.step (key 7 (by omega)) ?_
  refine Ok.step (key 8 (by omega)) ?_
  refine Ok.step (key 9 (by omega)) ?_
  refine Ok.step (key 10 (by omega)) ?_
  refine Ok.step (key 11 (by omega)) ?_
  refine Ok.step (key 12 (by omega)) ?_
  refine Ok.step (key 13 (by omega)) ?_
  refine Ok.step (key 14 (by omega)) ?_
  refine Ok.step (key 15 (by omega)) ?_
  refine Ok.step (key 16 (by omega)) ?_
  refine Ok.step (key 17 (by omega)) ?_
  refine Ok.step (key 18 (by omega)) ?_
  refine Ok.step (key 19 (by omega)) ?_
  refine Ok.step (key 20 (by omega)) ?_
  refine Ok.step (key 21 (by omega)) ?_
  refine Ok.step (key 22 (by omega)) ?_
  refine Ok.step (key 23 (by omega)) ?_
  refine Ok.step (key 24 (by omega)) ?_
  exact Ok.pure rfl

/-- Contents of a data buffer. -/
structure Data (data : Mem Byte) (l : List Byte) : Prop where
  has : Has data 0 l.length (fun i => l.getD i 0)
  len : l.length ≤ data.length

theorem Data.drop {data : Mem Byte} {l : List Byte} (h : Data data l) {i : Nat} (hi : i ≤ l.length) :
    Data (data.drop i) (l.drop i) := by
  have hl := h.len
  refine ⟨?_, by simp; omega⟩
  rw [has_drop, Nat.add_zero]
  have := h.has.sub i (l.length - i) (by omega)
  rw [Nat.zero_add] at this
  rw [List.length_drop]
  refine this.congr ?_
  intro j hj
  simp [List.getD_eq_getElem?_getD, List.getElem?_drop]

theorem Data.take {data : Mem Byte} {l : List Byte} (h : Data data l) {i : Nat} (hi : i ≤ l.length) :
    Has data 0 i (fun j => (l.take i).getD j 0) := by
  refine (h.has.mono hi).congr ?_
  intro j hj
  simp [List.getD_eq_getElem?_getD, hj]

theorem fastLoop_ok {lc r : Nat} (hr : r = 8 * lc) (hr0 : 0 < r) :
    ∀ fuel (B : Nat → Byte) (data : Mem Byte) (l : List Byte), l.length < fuel → Data data l →
      Ok (fastLoop lc fuel (lanesOf (packL B)) data l.length) (fun x =>
        x.2 = l.length % r ∧ ∃ B', x.1 = lanesOf (packL B') ∧
          absorbM r (B, 0) (l.take (l.length - l.length % r)) = (B', 0)) := by
  intro fuel
  induction fuel with
  | zero => intro _ _ _ h; omega
  | succ k ih =>
    intro B data l hf hd
    unfold fastLoop
    by_cases e : l.length ≥ lc * 8
    · rw [if_pos e]
      have hrl : r ≤ l.length := by omega
      have h1 := hd.take (i := 8 * lc) (by omega)
      refine Ok.step (addInput_eq h1) ?_
      rw [rounds24_eq]
      have hl := hd.len
      refine Ok.step (ptr_eq (by omega)) ?_
      have hd' := hd.drop (i := lc * 8) e
      have hlen : l.length - lc * 8 = (l.drop (lc * 8)).length := by simp
      rw [hlen]
      refine (ih _ _ _ (by rw [← hlen]; omega) hd').mono ?_
      rintro ⟨A, j⟩ ⟨h2, B', h3, h4⟩
      have hm : (l.drop (lc * 8)).length % r = l.length % r := by
        rw [← hlen, show lc * 8 = r by omega]
        conv_rhs => rw [show l.length = l.length - r + r by omega, Nat.add_mod_right]
      rw [hm] at h2 h4
      refine ⟨h2, B', h3, ?_⟩
      have hmod : l.length % r ≤ l.length - r := by
        have := Nat.mod_lt l.length hr0
        have h5 := Nat.div_add_mod l.length r
        have h6 : 1 ≤ l.length / r := Nat.div_pos hrl hr0
        have : r * 1 ≤ r * (l.length / r) := Nat.mul_le_mul_left r h6
        omega
      have hsplit : l.take (l.length - l.length % r)
          = l.take (8 * lc) ++ (l.drop (lc * 8)).take ((l.drop (lc * 8)).length - l.length % r) := by
        rw [List.length_drop, show lc * 8 = 8 * lc by omega,
          show l.length - l.length % r = 8 * lc + (l.length - 8 * lc - l.length % r) by omega, List.take_add]
      have htl : (l.take (8 * lc)).length = 8 * lc := by rw [List.length_take]; omega
      have hfull := absorbM_full (r := r) (l.take (8 * lc)) (B, 0) (by rw [htl]; omega) (by omega)
      rw [htl] at hfull
      rw [hsplit, absorbM_append, hfull]
      exact h4
    · rw [if_neg e]
      have hm : l.length % r = l.length := Nat.mod_eq_of_lt (by omega)
      refine Ok.some ⟨hm.symm, B, rfl, ?_⟩
      rw [hm, Nat.sub_self]
      rfl

theorem fastLoopAbsorb_ok {lc r : Nat} (hr : r = 8 * lc) (hr0 : 0 < r) {st : Mem U64} {base : Nat}
    {B : Nat → Byte} (h : Has st base 25 (packL B)) {data : Mem Byte} {l : List Byte} (hd : Data data l) :
    Ok (fastLoopAbsorb st base lc data l.length) (fun x =>
      x.2 = l.length - l.length % r ∧ ∃ B', SOk st base B' x.1 ∧
        absorbM r (B, 0) (l.take (l.length - l.length % r)) = (B', 0)) := by
  unfold fastLoopAbsorb
  refine Ok.step (copyFromState_eq h) ?_
  refine Ok.bind (fastLoop_ok hr hr0 _ B data l (by omega) hd) ?_
  rintro ⟨A, j⟩ ⟨h2, B', h3, h4⟩
  dsimp only at h2 h3 ⊢
  subst h3
  refine Ok.bind (copyToState_ok (h.le (by omega)) _) ?_
  intro st' hs
  refine Ok.pure ⟨by rw [h2], B', ⟨?_, hs.2.1, hs.2.2⟩, h4⟩
  exact hs.1.congr fun k hk => lanesOf_fn_eq _ k hk

/-! ### Absorbing -/

/-- An instance which is taking in bytes, in the machine state `s`. -/
structure AOk (r : Nat) (s : MSt) (inst : SpongeInstance) : Prop where
  has : Has inst.state 0 25 (packL s.1)
  len : inst.state.length = 25
  rate : inst.rate = 8 * r
  idx : inst.byteIOIndex = s.2
  lt : s.2 < r
  sq : inst.squeezing = false

theorem sizeT_eq {w x : Nat} (h : x < 2 ^ w) : sizeT w x = x := Nat.mod_eq_of_lt h
theorem uint_eq {x : Nat} (h : x < 2 ^ 32) : uint x = x := Nat.mod_eq_of_lt h

theorem absorbLoop_ok {w r : Nat} (hr8 : r % 8 = 0) (hr0 : 0 < r) (hr200 : r ≤ 200) {data : Mem Byte}
    {l : List Byte} (hd : Data data l) (hw : l.length + r < 2 ^ w) (s : MSt) :
    ∀ fuel i inst, l.length - i < fuel → i ≤ l.length → AOk r (absorbM r s (l.take i)) inst →
      ((absorbM r s (l.take i)).2 = 0 ∨ Fits r (absorbM r s (l.take i)).2 (l.length - i)) →
      Ok (absorbLoop w data l.length fuel inst i) (AOk r (absorbM r s l)) := by
  intro fuel
  induction fuel with
  | zero => intro i _ h; omega
  | succ k ih =>
    intro i inst hf hi h hc
    unfold absorbLoop
    have hrate : inst.rate / 8 = r := by rw [h.rate]; omega
    dsimp only
    rw [hrate]
    have hl := hd.len
    by_cases e : i < l.length
    · rw [if_pos e]
      refine Ok.step (ptr_eq (by omega)) ?_
      have hd' := hd.drop (i := i) (by omega)
      have hlen : (l.drop i).length = l.length - i := by simp
      have hsz : sizeT w (i + r) = i + r := sizeT_eq (by omega)
      rw [hsz]
      generalize hs : absorbM r s (l.take i) = s1 at h hc
      obtain ⟨B, idx⟩ := s1
      have hidx := h.idx
      have hlt := h.lt
      dsimp only at hidx hlt hc
      rw [hidx]
      by_cases e2 : idx = 0 ∧ l.length ≥ i + r
      · rw [if_pos e2, if_pos hr8]
        obtain ⟨rfl, e3⟩ := e2
        have := fastLoopAbsorb_ok (r := r) (lc := r / 8) (by omega) hr0 h.has hd'
        rw [hlen] at this
        refine Ok.bind this ?_
        rintro ⟨st, j⟩ ⟨h2, B', h3, h4⟩
        dsimp only at h2 h3 ⊢
        subst h2
        have hmod : (l.length - i) % r < r := Nat.mod_lt _ hr0
        generalize hj : l.length - i - (l.length - i) % r = j at h4 ⊢
        have ej : absorbM r s (l.take (i + j)) = (B', 0) := by
          rw [List.take_add, absorbM_append, hs, h4]
        rw [sizeT_eq (by omega)]
        refine ih (i + j) _ (by omega) (by omega) ?_ ?_
        · rw [ej]
          exact ⟨h3.has, h3.len.trans h.len, h.rate, rfl, hr0, h.sq⟩
        · rw [ej]; exact Or.inl rfl
      · rw [if_neg e2]
        have hpb : partialBlock r idx (l.length - i) = min (l.length - i) (r - idx) := by
          apply partialBlock_eq <;> unfold Fits at * <;> omega
        rw [hpb]
        generalize hn : min (l.length - i) (r - idx) = n
        have hn1 : 0 < n := by omega
        have hn2 : n ≤ l.length - i := by omega
        have hn3 : idx + n ≤ r := by omega
        have hd2 := hd'.take (i := n) (by omega)
        refine Ok.bind (addBytes_ok h.has hd2 (by simp; omega) (by omega)) ?_
        intro st' hst
        rw [uint_eq (by omega : idx + n < 2 ^ 32), sizeT_eq (by omega : i + n < 2 ^ w)]
        have hstep : absorbM r s (l.take (i + n)) = absorbM r (B, idx) ((l.drop i).take n) := by
          rw [List.take_add, absorbM_append, hs]
        have htl : ((l.drop i).take n).length = n := by simp; omega
        by_cases e3 : idx + n = r
        · rw [if_pos e3]
          have ej := absorbM_full (r := r) ((l.drop i).take n) (B, idx) (by rw [htl]; exact e3) (by omega)
          rw [htl, ← hstep] at ej
          refine Ok.bind (permute24_ok hst.has) ?_
          intro st2 hst2
          refine ih (i + n) _ (by omega) (by omega) ?_ ?_
          · rw [ej]
            exact ⟨hst2.has, hst2.len.trans (hst.len.trans h.len), h.rate, rfl, hr0, h.sq⟩
          · rw [ej]; exact Or.inl rfl
        · rw [if_neg e3]
          have ej := absorbM_part (r := r) ((l.drop i).take n) (B, idx) (by rw [htl]; simp only []; omega)
          rw [htl, ← hstep] at ej
          refine ih (i + n) _ (by omega) (by omega) ?_ ?_
          · rw [ej]
            exact ⟨hst.has, hst.len.trans h.len, h.rate, rfl, by simp only []; omega, h.sq⟩
          · rw [ej]; right; unfold Fits at *; simp only []; omega
    · rw [if_neg e]
      rw [show i = l.length by omega, List.take_length] at h
      exact Ok.some h

theorem spongeAbsorb_ok {w r : Nat} (hr8 : r % 8 = 0) (hr0 : 0 < r) (hr200 : r ≤ 200) {data : Mem Byte}
    {l : List Byte} (hd : Data data l) (hw : l.length + r < 2 ^ w) {s : MSt} {inst : SpongeInstance}
    (h : AOk r s inst) (hc : s.2 = 0 ∨ Fits r s.2 l.length) :
    Ok (spongeAbsorb w inst data l.length) (fun x => AOk r (absorbM r s l) x.1 ∧ x.2 = true) := by
  unfold spongeAbsorb
  rw [h.sq]
  simp only [Bool.false_eq_true, if_false]
  refine Ok.bind (absorbLoop_ok hr8 hr0 hr200 hd hw s _ 0 inst (by omega) (by omega) h ?_) ?_
  · rw [List.take_zero, Nat.sub_zero]; exact hc
  · intro inst' h'
    exact Ok.pure ⟨h', rfl⟩

/-- An instance which has given out `p` bytes, starting from the permuted state `B`. -/
structure QOk (r : Nat) (B : Nat → Byte) (p : Nat) (inst : SpongeInstance) : Prop where
  has : ∃ k, p = r * k + inst.byteIOIndex ∧ Has inst.state 0 25 (packL (iterB k B))
  len : inst.state.length = 25
  rate : inst.rate = 8 * r
  le : inst.byteIOIndex ≤ r
  sq : inst.squeezing = true

theorem spongeLast_ok {r : Nat} (hr0 : 0 < r) (hr200 : r ≤ 200) {s : MSt} {inst : SpongeInstance}
    (h : AOk r s inst) {b : Byte} (hb : b ≠ 0) (hb2 : ¬ 0x80#8 ≤ b) :
    Ok (spongeAbsorbLastFewBits inst b) (fun x => x.2 = true ∧ x.1.byteIOIndex = 0 ∧
      QOk r (keccakB (xorB (xorB s.1 s.2 1 (fun _ => b)) (r - 1) 1 (fun _ => 0x80))) 0 x.1) := by
  unfold spongeAbsorbLastFewBits
  have hrate : inst.rate / 8 = r := by rw [h.rate]; omega
  dsimp only
  rw [hrate, if_neg hb, h.sq]
  have hu : uint (r + 2 ^ 32 - 1) = r - 1 := by unfold uint; omega
  have hlt := h.lt
  simp only [Bool.false_eq_true, if_false]
  rw [h.idx, hu]
  refine Ok.bind (addByte_ok h.has (by omega) b) ?_
  intro st1 h1
  rw [if_neg (by intro hh; exact hb2 hh.1)]
  refine Ok.bind (Ok.pure (Q := fun x => x = st1) rfl) ?_
  rintro _ rfl
  refine Ok.bind (addByte_ok h1.has (by omega) 0x80) ?_
  intro st2 h2
  refine Ok.bind (permute24_ok h2.has) ?_
  intro st3 h3
  exact Ok.pure ⟨rfl, rfl, ⟨0, by simp, h3.has⟩, h3.len.trans (h2.len.trans (h1.len.trans h.len)), h.rate,
    Nat.zero_le _, rfl⟩

/-! ### Squeezing -/

theorem sqByte_eq {r : Nat} (B : Nat → Byte) (k i : Nat) (hi : i < r) : sqByte r B (r * k + i) = iterB k B i := by
  unfold sqByte
  rw [Nat.mul_add_div (by omega), Nat.div_eq_of_lt hi, Nat.mul_add_mod, Nat.mod_eq_of_lt hi, Nat.add_zero]

theorem squeezeBlocks_ok {r : Nat} (hr0 : 0 < r) (hr200 : r < 200) (B : Nat → Byte) :
    ∀ fuel k j (st : Mem U64) (data : Mem Byte) cur, j < fuel → Has st 0 25 (packL (iterB k B)) →
      cur + j ≤ data.length →
      Ok (squeezeBlocks r fuel st data cur j) (fun x =>
        x.2.2 = j % r ∧ SOk st 0 (iterB (k + j / r) B) x.1 ∧
        Wrote data cur (j - j % r) (fun i => sqByte r B (r * (k + 1) + i)) x.2.1) := by
  intro fuel
  induction fuel with
  | zero => intro _ _ _ _ _ h; omega
  | succ f ih =>
    intro k j st data cur hf h hl
    unfold squeezeBlocks
    by_cases e : j ≥ r
    · rw [if_pos e]
      refine Ok.bind (permute24_ok h) ?_
      intro st1 h1
      refine Ok.bind (extractBytes_ok h1.has (off := 0) (by omega) (by omega)) ?_
      intro data1 h2
      have hl2 := h2.len
      refine (ih (k + 1) (j - r) st1 data1 (cur + r) (by omega) h1.has (by omega)).mono ?_
      rintro ⟨st2, data2, j'⟩ ⟨h3, h4, h5⟩
      dsimp only at h3 h4 h5 ⊢
      have hm : (j - r) % r = j % r := by
        conv_rhs => rw [show j = j - r + r by omega, Nat.add_mod_right]
      have hdv : j / r = (j - r) / r + 1 := by
        conv_lhs => rw [show j = j - r + r by omega, Nat.add_div_right _ hr0]
      rw [hm] at h3 h5
      refine ⟨h3, ?_, ?_⟩
      · rw [hdv, show k + ((j - r) / r + 1) = k + 1 + (j - r) / r by omega]
        exact h1.trans h4
      · have hmod := Nat.mod_lt j hr0
        have hmod2 : j % r ≤ j - r := by rw [← hm]; exact Nat.mod_le _ _
        have e1 : Wrote data cur r (fun i => sqByte r B (r * (k + 1) + i)) data1 := by
          refine h2.congr ?_
          intro i hi
          rw [Nat.zero_add, sqByte_eq _ _ _ hi]
          rfl
        have e2 : Wrote data1 (cur + r) (j - r - j % r) (fun i => sqByte r B (r * (k + 1) + (r + i))) data2 := by
          refine h5.congr ?_
          intro i hi
          congr 1
          ring
        have := e1.append e2
        rwa [show r + (j - r - j % r) = j - j % r by omega] at this
    · rw [if_neg e]
      have hm : j % r = j := Nat.mod_eq_of_lt (by omega)
      refine Ok.some ⟨hm.symm, ?_, ?_⟩
      · rw [Nat.div_eq_of_lt (by omega)]; exact SOk.refl h
      · rw [hm, Nat.sub_self]; exact Wrote.zero _ _ _

theorem squeezeLoop_ok {w r n : Nat} (hr0 : 0 < r) (hr200 : r < 200) (B : Nat → Byte) (p : Nat)
    {data : Mem Byte} (hn : n ≤ data.length) (hw : n + r < 2 ^ w) :
    ∀ fuel i inst data', n - i < fuel → i ≤ n → QOk r B (p + i) inst →
      Wrote data 0 i (fun j => sqByte r B (p + j)) data' →
      (inst.byteIOIndex = r ∨ Fits r inst.byteIOIndex (n - i)) →
      Ok (squeezeLoop w n fuel inst data' i) (fun x => QOk r B (p + n) x.1 ∧
        Wrote data 0 n (fun j => sqByte r B (p + j)) x.2) := by
  intro fuel
  induction fuel with
  | zero => intro i _ _ h; omega
  | succ f ih =>
    intro i inst data' hf hi h hW hc
    unfold squeezeLoop
    have hrate : inst.rate / 8 = r := by rw [h.rate]; omega
    dsimp only
    rw [hrate]
    have hl' := hW.len
    by_cases e : i < n
    · rw [if_pos e, sizeT_eq (by omega : i + r < 2 ^ w)]
      obtain ⟨k, hk, hst⟩ := h.has
      have hle := h.le
      by_cases e2 : inst.byteIOIndex = r ∧ n ≥ i + r
      · rw [if_pos e2]
        obtain ⟨e2, e3⟩ := e2
        refine Ok.bind (squeezeBlocks_ok hr0 hr200 B _ k (n - i) inst.state data' i (by omega) hst (by omega)) ?_
        rintro ⟨st, data1, j⟩ ⟨h1, h2, h3⟩
        dsimp only at h1 h2 h3 ⊢
        subst h1
        have hmod := Nat.mod_lt (n - i) hr0
        have hpos : (n - i) % r ≤ n - i := Nat.mod_le _ _
        have hdm := Nat.div_add_mod (n - i) r
        refine ih (n - (n - i) % r) _ data1 ?_ (by omega) ?_ ?_ (Or.inl e2)
        · have : (n - i) / r ≥ 1 := Nat.div_pos (by omega) hr0
          have : r * 1 ≤ r * ((n - i) / r) := Nat.mul_le_mul_left r this
          omega
        · refine ⟨⟨k + (n - i) / r, ?_, h2.has⟩, h2.len.trans h.len, h.rate, hle, h.sq⟩
          show p + _ = r * _ + inst.byteIOIndex
          rw [Nat.mul_add]
          omega
        · have e4 : Wrote data' (0 + i) (n - i - (n - i) % r) (fun j => sqByte r B (p + (i + j))) data1 := by
            rw [Nat.zero_add]
            refine h3.congr ?_
            intro j hj
            congr 1
            rw [Nat.mul_add]
            omega
          have := hW.append e4
          rwa [show i + (n - i - (n - i) % r) = n - (n - i) % r by omega] at this
      · rw [if_neg e2]
        have hstep : Ok (refill inst r) (fun inst' => QOk r B (p + i) inst' ∧ inst'.byteIOIndex < r ∧
              Fits r inst'.byteIOIndex (n - i)) := by
          unfold refill
          by_cases e3 : inst.byteIOIndex = r
          · rw [if_pos e3]
            refine Ok.bind (permute24_ok hst) ?_
            intro st h1
            refine Ok.pure ⟨⟨⟨k + 1, ?_, h1.has⟩, h1.len.trans h.len, h.rate, Nat.zero_le _, h.sq⟩, hr0, ?_⟩
            · simp only [Nat.mul_add]; omega
            · unfold Fits at *; simp only []; omega
          · rw [if_neg e3]
            exact Ok.pure ⟨h, by omega, hc.resolve_left e3⟩
        refine Ok.bind hstep ?_
        rintro inst' ⟨h1, hlt, hsz⟩
        have hpb : partialBlock r inst'.byteIOIndex (n - i) = min (n - i) (r - inst'.byteIOIndex) := by
          apply partialBlock_eq <;> unfold Fits at * <;> omega
        rw [hpb]
        generalize hm : min (n - i) (r - inst'.byteIOIndex) = m
        obtain ⟨k, hk, hst⟩ := h1.has
        refine Ok.bind (extractBytes_ok hst (by omega) (by omega)) ?_
        intro data1 h2
        rw [uint_eq (by omega : inst'.byteIOIndex + m < 2 ^ 32), sizeT_eq (by omega : i + m < 2 ^ w)]
        refine ih (i + m) _ data1 (by omega) (by omega) ?_ ?_ ?_
        · refine ⟨⟨k, ?_, hst⟩, h1.len, h1.rate, ?_, h1.sq⟩ <;> simp only [] <;> omega
        · have e4 : Wrote data' (0 + i) m (fun j => sqByte r B (p + (i + j))) data1 := by
            rw [Nat.zero_add]
            refine h2.congr ?_
            intro j hj
            rw [← sqByte_eq (r := r) B k (inst'.byteIOIndex + j) (by omega)]
            congr 1
            omega
          exact hW.append e4
        · unfold Fits at *; simp only []; omega
    · rw [if_neg e]
      obtain rfl : i = n := by omega
      exact Ok.some ⟨h, hW⟩

theorem spongeSqueeze_ok {w r n : Nat} (hr0 : 0 < r) (hr200 : r < 200) {B : Nat → Byte} {p : Nat}
    {data : Mem Byte} (hn : n ≤ data.length) (hw : n + r < 2 ^ w) {inst : SpongeInstance} (h : QOk r B p inst)
    (hc : inst.byteIOIndex = r ∨ Fits r inst.byteIOIndex n) :
    Ok (spongeSqueeze w inst data n) (fun x => QOk r B (p + n) x.1 ∧
        Wrote data 0 n (fun j => sqByte r B (p + j)) x.2) := by
  unfold spongeSqueeze
  rw [h.sq]
  simp only [if_true]
  refine Ok.bind (Ok.pure (Q := fun x => x = inst) rfl) ?_
  rintro _ rfl
  exact squeezeLoop_ok hr0 hr200 B p hn hw _ 0 _ data (by omega) (by omega) h (Wrote.zero _ _ _) hc

end Faest.Keccak
