/-
The AES code computes the Rijndael specification.
-/
import Verif.Model.Aes
import Verif.Proofs.Hoare
import Verif.Proofs.Sbox

namespace Faest

/-- A state buffer of `bw` columns holding `S`. -/
def StHas (m : Mem Byte) (bw : Nat) (S : Nat → Nat → Byte) : Prop :=
  m.length = stSize ∧ ∀ c, c < bw → ∀ r, r < 4 → rd m (stIdx c r) = some (S c r)

/-- A round key buffer holding the words `W k`, `k < tot`. -/
def RkHas (m : Mem Byte) (bw tot : Nat) (W : Nat → Nat → Byte) : Prop :=
  m.length = rkSize ∧ ∀ k, k < tot → ∀ r, r < 4 → rd m (rkIdx (k / bw) (k % bw) r) = some (W k r)

theorem stIdx_inj {c r c' r' : Nat} (hr : r < 4) (hr' : r' < 4) (h : stIdx c r = stIdx c' r') :
    c = c' ∧ r = r' := by
  unfold stIdx at h; omega

theorem stIdx_lt {c r bw : Nat} (hc : c < bw) (hb : bw ≤ 8) (hr : r < 4) : stIdx c r < stSize := by
  unfold stIdx stSize; omega

/-- A double loop over the cells of the state, each iteration writing its own cell. -/
theorem ok_cells {bw : Nat} {m : Mem Byte} {S T : Nat → Nat → Byte}
    {f : Nat → Nat → Mem Byte → Option (Mem Byte)} (hm : StHas m bw S)
    (hf : ∀ c, c < bw → ∀ r, r < 4 → ∀ m', m'.length = stSize →
      (∀ c', c' < bw → ∀ r', r' < 4 → rd m' (stIdx c' r')
        = some (if c' < c ∨ (c' = c ∧ r' < r) then T c' r' else S c' r')) →
      Ok (f c r m') (fun m'' => m''.length = stSize ∧
        ∀ j, rd m'' j = if j = stIdx c r then some (T c r) else rd m' j)) :
    Ok (forN bw m (fun c m => forN 4 m (f c))) (fun m' => StHas m' bw T) := by
  refine (Ok.forN (fun c m' => m'.length = stSize ∧ ∀ c', c' < bw → ∀ r', r' < 4 →
    rd m' (stIdx c' r') = some (if c' < c then T c' r' else S c' r')) ?_ ?_).mono ?_
  · refine ⟨hm.1, ?_⟩
    intro c' hc' r' hr'
    rw [if_neg (by omega)]
    exact hm.2 c' hc' r' hr'
  · intro c hc m1 hI
    refine (Ok.forN (fun r m' => m'.length = stSize ∧ ∀ c', c' < bw → ∀ r', r' < 4 →
      rd m' (stIdx c' r')
        = some (if c' < c ∨ (c' = c ∧ r' < r) then T c' r' else S c' r')) ?_ ?_).mono ?_
    · refine ⟨hI.1, ?_⟩
      intro c' hc' r' hr'
      rw [hI.2 c' hc' r' hr']
      congr 1
      by_cases h : c' < c
      · rw [if_pos h, if_pos (.inl h)]
      · rw [if_neg h, if_neg (by omega)]
    · intro r hr m2 hI2
      refine (hf c hc r hr m2 hI2.1 hI2.2).mono ?_
      rintro m3 ⟨hl, h3⟩
      refine ⟨hl, ?_⟩
      intro c' hc' r' hr'
      rw [h3]
      by_cases h : stIdx c' r' = stIdx c r
      · rw [if_pos h]
        obtain ⟨rfl, rfl⟩ := stIdx_inj hr' hr h
        rw [if_pos (by omega)]
      · rw [if_neg h, hI2.2 c' hc' r' hr']
        have hne : ¬ (c' = c ∧ r' = r) := by
          rintro ⟨rfl, rfl⟩; exact h rfl
        by_cases h1 : c' < c ∨ (c' = c ∧ r' < r)
        · rw [if_pos h1, if_pos (by omega)]
        · rw [if_neg h1, if_neg (by omega)]
    · rintro m2 ⟨hl, h2⟩
      refine ⟨hl, ?_⟩
      intro c' hc' r' hr'
      rw [h2 c' hc' r' hr']
      by_cases h : c' < c + 1
      · rw [if_pos h, if_pos (by omega)]
      · rw [if_neg h, if_neg (by omega)]
  · rintro m' ⟨hl, h⟩
    refine ⟨hl, ?_⟩
    intro c hc r hr
    rw [h c hc r hr, if_pos hc]

theorem addRoundKey_ok {round bw : Nat} {st rk : Mem Byte} {S : Nat → Nat → Byte}
    {K : Nat → Nat → Byte} (hb : bw ≤ 8) (hst : StHas st bw S)
    (hrk : ∀ c, c < bw → ∀ r, r < 4 → rd rk (rkIdx round c r) = some (K c r)) :
    Ok (addRoundKey round st rk bw) (fun st' => StHas st' bw (fun c r => S c r ^^^ K c r)) := by
  unfold addRoundKey
  refine ok_cells hst ?_
  intro c hc r hr m hl hm
  refine Ok.step (hm c hc r hr) (Ok.step (hrk c hc r hr) ?_)
  rw [if_neg (by omega)]
  refine Ok.wr (by rw [hl]; exact stIdx_lt hc hb hr) ?_
  intro m' hl' hr'
  exact ⟨by rw [hl', hl], hr'⟩

theorem containsZero_ok {m : Mem Byte} {off : Nat} {g : Nat → Byte} (h : Has m off 4 g) :
    Ok (containsZero m off) (fun z => z = true ↔ ∃ r, r < 4 ∧ g r = 0) := by
  unfold containsZero
  refine Ok.step (h.rd (i := 0) (by decide)) (Ok.step (h.rd (i := 1) (by decide))
    (Ok.step (h.rd (i := 2) (by decide)) (Ok.step (h.rd (i := 3) (by decide)) (Ok.pure ?_))))
  simp only [Bool.or_eq_true, beq_iff_eq]
  constructor
  · rintro (((h | h) | h) | h)
    · exact ⟨0, by decide, h⟩
    · exact ⟨1, by decide, h⟩
    · exact ⟨2, by decide, h⟩
    · exact ⟨3, by decide, h⟩
  · rintro ⟨r, hr, h⟩
    have : r = 0 ∨ r = 1 ∨ r = 2 ∨ r = 3 := by omega
    rcases this with rfl | rfl | rfl | rfl <;> simp [h]

theorem subBytes_ok {bw : Nat} {st : Mem Byte} {S : Nat → Nat → Byte} (hb : bw ≤ 8)
    (hst : StHas st bw S) :
    Ok (subBytes st bw) (fun s => StHas s.1 bw (Spec.subBytes S) ∧
      (s.2 = true ↔ ∃ c, c < bw ∧ ∃ r, r < 4 ∧ S c r = 0)) := by
  unfold subBytes
  refine (Ok.forN (fun i (s : Mem Byte × Bool) => (s.1.length = stSize ∧ ∀ c', c' < bw → ∀ r', r' < 4 →
    rd s.1 (stIdx c' r') = Option.some (if c' < i then Spec.sbox (S c' r') else S c' r')) ∧
    (s.2 = true ↔ ∃ c, c < i ∧ ∃ r, r < 4 ∧ S c r = 0)) ?_ ?_).mono ?_
  · refine ⟨⟨hst.1, ?_⟩, ?_⟩
    · intro c' hc' r' hr'
      rw [if_neg (by omega)]; exact hst.2 c' hc' r' hr'
    · simp
  · rintro c hc ⟨m, z⟩ ⟨⟨hl, hm⟩, hz⟩
    refine Ok.bind (containsZero_ok (g := S c) ?_) ?_
    · intro r hr
      have := hm c hc r hr
      rw [if_neg (by omega)] at this
      exact this
    intro z1 hz1
    refine Ok.bind (P := fun m' => m'.length = stSize ∧ ∀ c', c' < bw → ∀ r', r' < 4 →
      rd m' (stIdx c' r') = Option.some (if c' < c + 1 then Spec.sbox (S c' r') else S c' r')) ?_ ?_
    · refine (Ok.forN (fun r m' => m'.length = stSize ∧ ∀ c', c' < bw → ∀ r', r' < 4 →
        rd m' (stIdx c' r') = Option.some
          (if c' < c ∨ (c' = c ∧ r' < r) then Spec.sbox (S c' r') else S c' r')) ?_ ?_).mono ?_
      · refine ⟨hl, ?_⟩
        intro c' hc' r' hr'
        rw [hm c' hc' r' hr']
        by_cases h : c' < c
        · rw [if_pos h, if_pos (.inl h)]
        · rw [if_neg h, if_neg (by omega)]
      · rintro r hr m2 ⟨hl2, h2⟩
        have hrd := h2 c hc r hr
        rw [if_neg (by omega)] at hrd
        refine Ok.step hrd (Ok.wr (by rw [hl2]; exact stIdx_lt hc hb hr) ?_)
        intro m3 hl3 h3
        refine ⟨by rw [hl3, hl2], ?_⟩
        intro c' hc' r' hr'
        rw [h3]
        by_cases h : stIdx c' r' = stIdx c r
        · obtain ⟨rfl, rfl⟩ := stIdx_inj hr' hr h
          rw [if_pos h, if_pos (by omega), sbox_table]
        · have hne : ¬ (c' = c ∧ r' = r) := by
            rintro ⟨rfl, rfl⟩; exact h rfl
          rw [if_neg h, h2 c' hc' r' hr']
          by_cases h1 : c' < c ∨ (c' = c ∧ r' < r)
          · rw [if_pos h1, if_pos (by omega)]
          · rw [if_neg h1, if_neg (by omega)]
      · rintro m2 ⟨hl2, h2⟩
        refine ⟨hl2, ?_⟩
        intro c' hc' r' hr'
        rw [h2 c' hc' r' hr']
        by_cases h : c' < c + 1
        · rw [if_pos h, if_pos (by omega)]
        · rw [if_neg h, if_neg (by omega)]
    · intro m' hm'
      refine Ok.pure ⟨hm', ?_⟩
      simp only [Bool.or_eq_true]
      rw [hz, hz1]
      constructor
      · rintro (⟨c', h1, h2⟩ | h)
        · exact ⟨c', by omega, h2⟩
        · exact ⟨c, by omega, h⟩
      · rintro ⟨c', h1, h2⟩
        by_cases h : c' = c
        · subst h; exact .inr h2
        · exact .inl ⟨c', by omega, h2⟩
  · rintro ⟨m, z⟩ ⟨⟨hl, hm⟩, hz⟩
    refine ⟨⟨hl, ?_⟩, hz⟩
    intro c hc r hr
    rw [hm c hc r hr, if_pos hc]
    rfl

theorem shiftRow_ok {bw : Nat} {st : Mem Byte} {S : Nat → Nat → Byte}
    (hb : bw = 4 ∨ bw = 6 ∨ bw = 8) (hst : StHas st bw S) :
    Ok (shiftRow st bw) (fun st' => StHas st' bw (Spec.shiftRows bw S)) := by
  have hb8 : bw ≤ 8 := by omega
  have hb0 : 0 < bw := by omega
  unfold shiftRow
  have key : ∀ (o1 o2 o3 : Nat), (∀ i, i < bw → ((i + o1) % bw = (i + Spec.shiftOffset bw 1) % bw ∧
      (i + o2) % bw = (i + Spec.shiftOffset bw 2) % bw ∧
      (i + o3) % bw = (i + Spec.shiftOffset bw 3) % bw)) →
      Ok (forN bw (malloc stSize) (fun i new => do
        let new ← wr new (stIdx i 0) (← rd st (stIdx i 0))
        let new ← wr new (stIdx i 1) (← rd st (stIdx ((i + o1) % bw) 1))
        let new ← wr new (stIdx i 2) (← rd st (stIdx ((i + o2) % bw) 2))
        wr new (stIdx i 3) (← rd st (stIdx ((i + o3) % bw) 3))))
        (fun m => StHas m bw (Spec.shiftRows bw S)) := by
    intro o1 o2 o3 ho
    refine (Ok.forN (fun i m => m.length = stSize ∧ ∀ c, c < i → ∀ r, r < 4 →
      rd m (stIdx c r) = some (Spec.shiftRows bw S c r)) ?_ ?_).mono ?_
    · exact ⟨by simp, by intro c hc; omega⟩
    · rintro i hi m ⟨hl, hm⟩
      obtain ⟨e1, e2, e3⟩ := ho i hi
      refine Ok.step (hst.2 i hi 0 (by decide)) ?_
      refine Ok.bind (Ok.wr (Q := fun m' => m'.length = stSize ∧ ∀ j, rd m' j =
        if j = stIdx i 0 then some (S i 0) else rd m j)
        (by rw [hl]; exact stIdx_lt hi hb8 (by decide)) ?_) ?_
      · intro m' h1 h2; exact ⟨by rw [h1, hl], h2⟩
      rintro m1 ⟨hl1, hm1⟩
      refine Ok.step (hst.2 _ (Nat.mod_lt _ hb0) 1 (by decide)) ?_
      refine Ok.bind (Ok.wr (Q := fun m' => m'.length = stSize ∧ ∀ j, rd m' j =
        if j = stIdx i 1 then some (S ((i + o1) % bw) 1) else rd m1 j)
        (by rw [hl1]; exact stIdx_lt hi hb8 (by decide)) ?_) ?_
      · intro m' h1 h2; exact ⟨by rw [h1, hl1], h2⟩
      rintro m2 ⟨hl2, hm2⟩
      refine Ok.step (hst.2 _ (Nat.mod_lt _ hb0) 2 (by decide)) ?_
      refine Ok.bind (Ok.wr (Q := fun m' => m'.length = stSize ∧ ∀ j, rd m' j =
        if j = stIdx i 2 then some (S ((i + o2) % bw) 2) else rd m2 j)
        (by rw [hl2]; exact stIdx_lt hi hb8 (by decide)) ?_) ?_
      · intro m' h1 h2; exact ⟨by rw [h1, hl2], h2⟩
      rintro m3 ⟨hl3, hm3⟩
      refine Ok.step (hst.2 _ (Nat.mod_lt _ hb0) 3 (by decide)) ?_
      refine Ok.wr (by rw [hl3]; exact stIdx_lt hi hb8 (by decide)) ?_
      intro m4 hl4 hm4
      refine ⟨by rw [hl4, hl3], ?_⟩
      intro c hc r hr
      rw [hm4, hm3, hm2, hm1]
      unfold Spec.shiftRows
      by_cases hci : c = i
      · subst hci
        have hs0 : Spec.shiftOffset bw 0 = 0 := by unfold Spec.shiftOffset; simp
        have : r = 0 ∨ r = 1 ∨ r = 2 ∨ r = 3 := by omega
        rcases this with rfl | rfl | rfl | rfl
        · rw [hs0, Nat.add_zero, Nat.mod_eq_of_lt hi]; simp [stIdx]
        · simp [stIdx, e1]
        · simp [stIdx, e2]
        · simp [stIdx, e3]
      · have hlt : c < i := by omega
        rw [if_neg (by unfold stIdx; omega), if_neg (by unfold stIdx; omega),
          if_neg (by unfold stIdx; omega), if_neg (by unfold stIdx; omega)]
        exact hm c hlt r hr
    · rintro m ⟨hl, hm⟩; exact ⟨hl, hm⟩
  have fin : ∀ new, StHas new bw (Spec.shiftRows bw S) →
      Ok (forN bw st (fun i state => do
        let w ← rdN new (stIdx i 0) 4
        wrN state (stIdx i 0) w)) (fun st' => StHas st' bw (Spec.shiftRows bw S)) := by
    intro new hnew
    refine (Ok.forN (fun i m => m.length = stSize ∧ ∀ c, c < bw → ∀ r, r < 4 →
      rd m (stIdx c r) = some (if c < i then Spec.shiftRows bw S c r else S c r)) ?_ ?_).mono ?_
    · refine ⟨hst.1, ?_⟩
      intro c hc r hr
      rw [if_neg (by omega)]; exact hst.2 c hc r hr
    · rintro i hi m ⟨hl, hm⟩
      have hrd : Has new (stIdx i 0) 4 (Spec.shiftRows bw S i) := by
        intro r hr; exact hnew.2 i hi r hr
      refine Ok.step (rdN_has hrd (by decide)) ?_
      refine Ok.wrN (by rw [tabP_length, hl]; unfold stIdx stSize; omega) ?_
      intro m' hl' hm'
      refine ⟨by rw [hl', hl], ?_⟩
      intro c hc r hr
      rw [hm', tabP_length]
      by_cases hci : c = i
      · subst hci
        rw [if_pos (by unfold stIdx; omega), tabP_getElem?, if_pos (by unfold stIdx; omega),
          if_pos (by omega)]
        congr 2
        unfold stIdx; omega
      · rw [if_neg (by unfold stIdx; omega), hm c hc r hr]
        by_cases h : c < i
        · rw [if_pos h, if_pos (by omega)]
        · rw [if_neg h, if_neg (by omega)]
    · rintro m ⟨hl, hm⟩
      refine ⟨hl, ?_⟩
      intro c hc r hr
      rw [hm c hc r hr, if_pos hc]
  by_cases h46 : bw = 4 ∨ bw = 6
  · rw [if_pos h46]
    refine Ok.bind (key 1 2 3 ?_) fin
    intro i _
    unfold Spec.shiftOffset
    have : bw ≠ 8 := by omega
    simp [this]
  · have h8 : bw = 8 := by omega
    subst h8
    rw [if_neg h46, if_pos rfl]
    refine Ok.bind (key 1 3 4 ?_) fin
    intro i _
    unfold Spec.shiftOffset
    simp

theorem mixColumn_ok {bw : Nat} {st : Mem Byte} {S : Nat → Nat → Byte} (hb : bw ≤ 8)
    (hst : StHas st bw S) :
    Ok (mixColumn st bw) (fun st' => StHas st' bw (Spec.mixColumns S)) := by
  unfold mixColumn
  refine (Ok.forN (fun i m => m.length = stSize ∧ ∀ c, c < bw → ∀ r, r < 4 →
      rd m (stIdx c r) = some (if c < i then Spec.mixColumns S c r else S c r)) ?_ ?_).mono ?_
  · refine ⟨hst.1, ?_⟩
    intro c hc r hr
    rw [if_neg (by omega)]; exact hst.2 c hc r hr
  · rintro i hi m ⟨hl, hm⟩
    have hrd : ∀ r, r < 4 → rd m (stIdx i r) = some (S i r) := by
      intro r hr
      have := hm i hi r hr
      rwa [if_neg (by omega)] at this
    refine Ok.step (hrd 0 (by decide)) (Ok.step (hrd 1 (by decide)) (Ok.step (hrd 2 (by decide))
      (Ok.step (hrd 3 (by decide)) ?_)))
    refine Ok.bind (Ok.wr (Q := fun m' => m'.length = stSize ∧ ∀ j, rd m' j =
      if j = stIdx i 0 then some (Spec.mixColumns S i 0) else rd m j)
      (by rw [hl]; exact stIdx_lt hi hb (by decide)) ?_) ?_
    · intro m' h1 h2
      refine ⟨by rw [h1, hl], ?_⟩
      intro j; rw [h2]; congr 2
      rw [mul2_table, mul3_table]
      unfold Spec.mixColumns
      rfl
    rintro m1 ⟨hl1, hm1⟩
    refine Ok.bind (Ok.wr (Q := fun m' => m'.length = stSize ∧ ∀ j, rd m' j =
      if j = stIdx i 1 then some (Spec.mixColumns S i 1) else rd m1 j)
      (by rw [hl1]; exact stIdx_lt hi hb (by decide)) ?_) ?_
    · intro m' h1 h2
      refine ⟨by rw [h1, hl1], ?_⟩
      intro j; rw [h2]; congr 2
      rw [mul2_table, mul3_table]
      unfold Spec.mixColumns
      simp only [show (1 + 1) % 4 = 2 from rfl, show (1 + 2) % 4 = 3 from rfl,
        show (1 + 3) % 4 = 0 from rfl]
      generalize Spec.xtime (S i 1) = a
      generalize Spec.xtime (S i 2) ^^^ S i 2 = b
      rw [BitVec.xor_assoc (S i 0), BitVec.xor_assoc (S i 0), BitVec.xor_comm (S i 0)]
    rintro m2 ⟨hl2, hm2⟩
    refine Ok.bind (Ok.wr (Q := fun m' => m'.length = stSize ∧ ∀ j, rd m' j =
      if j = stIdx i 2 then some (Spec.mixColumns S i 2) else rd m2 j)
      (by rw [hl2]; exact stIdx_lt hi hb (by decide)) ?_) ?_
    · intro m' h1 h2
      refine ⟨by rw [h1, hl2], ?_⟩
      intro j; rw [h2]; congr 2
      rw [mul2_table, mul3_table]
      unfold Spec.mixColumns
      simp only [show (2 + 1) % 4 = 3 from rfl, show (2 + 2) % 4 = 0 from rfl,
        show (2 + 3) % 4 = 1 from rfl]
      generalize Spec.xtime (S i 2) = a
      generalize Spec.xtime (S i 3) ^^^ S i 3 = b
      rw [BitVec.xor_assoc (S i 0 ^^^ S i 1), BitVec.xor_comm (S i 0 ^^^ S i 1), BitVec.xor_assoc (a ^^^ b)]
    rintro m3 ⟨hl3, hm3⟩
    refine Ok.wr (by rw [hl3]; exact stIdx_lt hi hb (by decide)) ?_
    intro m4 hl4 hm4
    have e4 : bf8Mul (S i 0) 3 ^^^ S i 1 ^^^ S i 2 ^^^ bf8Mul (S i 3) 2 = Spec.mixColumns S i 3 := by
      rw [mul2_table, mul3_table]
      unfold Spec.mixColumns
      simp only [show (3 + 1) % 4 = 0 from rfl, show (3 + 2) % 4 = 1 from rfl,
        show (3 + 3) % 4 = 2 from rfl]
      generalize Spec.xtime (S i 3) = a
      generalize Spec.xtime (S i 0) ^^^ S i 0 = b
      rw [BitVec.xor_comm _ a, ← BitVec.xor_assoc, ← BitVec.xor_assoc]
    refine ⟨by rw [hl4, hl3], ?_⟩
    intro c hc r hr
    rw [hm4, hm3, hm2, hm1, e4]
    by_cases hci : c = i
    · subst hci
      have : r = 0 ∨ r = 1 ∨ r = 2 ∨ r = 3 := by omega
      rcases this with rfl | rfl | rfl | rfl <;> simp [stIdx]
    · rw [if_neg (by unfold stIdx; omega), if_neg (by unfold stIdx; omega),
        if_neg (by unfold stIdx; omega), if_neg (by unfold stIdx; omega), hm c hc r hr]
      by_cases h : c < i
      · rw [if_pos h, if_pos (by omega)]
      · rw [if_neg h, if_neg (by omega)]
  · rintro m ⟨hl, hm⟩
    refine ⟨hl, ?_⟩
    intro c hc r hr
    rw [hm c hc r hr, if_pos hc]

/-! ### Key expansion -/

theorem rkIdx_inj {bw k k' r r' : Nat} (hb : bw = 4 ∨ bw = 6 ∨ bw = 8) (hr : r < 4) (hr' : r' < 4)
    (h : rkIdx (k / bw) (k % bw) r = rkIdx (k' / bw) (k' % bw) r') : k = k' ∧ r = r' := by
  unfold rkIdx at h
  rcases hb with rfl | rfl | rfl <;> omega

theorem rkIdx_lt {bw rounds k r : Nat} (hb : bw = 4 ∨ bw = 6 ∨ bw = 8) (hr : rounds ≤ 14)
    (hk : k < bw * (rounds + 1)) (h4 : r < 4) : rkIdx (k / bw) (k % bw) r < rkSize := by
  unfold rkIdx rkSize
  rcases hb with rfl | rfl | rfl <;> omega

/-- A word buffer. -/
theorem subWords_ok {m : Mem Byte} {g : Nat → Byte} (hl : m.length = 4) (h : Has m 0 4 g) :
    Ok (subWords m) (fun m' => m'.length = 4 ∧ Has m' 0 4 (fun r => Spec.sbox (g r))) := by
  unfold subWords
  refine Ok.step (h.rd0 (k := 0) (by decide)) (Ok.bind (P := fun m' => m'.length = 4 ∧
    Has m' 0 4 (fun r => if r < 1 then Spec.sbox (g r) else g r)) (Ok.wr (by omega) ?_) ?_)
  · intro m1 hl1 h1
    refine ⟨by omega, fun i hi => ?_⟩
    rw [Nat.zero_add, h1, h.rd0 hi]
    beta_reduce
    by_cases hc : i = 0
    · subst hc; rw [if_pos rfl, if_pos (by decide), sbox_table]
    · rw [if_neg hc, if_neg (by omega)]
  rintro m1 ⟨hl1, h1⟩
  refine Ok.step (h1.rd0 (k := 1) (by decide)) (Ok.bind (P := fun m' => m'.length = 4 ∧
    Has m' 0 4 (fun r => if r < 2 then Spec.sbox (g r) else g r)) (Ok.wr (by omega) ?_) ?_)
  · intro m2 hl2 h2
    refine ⟨by omega, fun i hi => ?_⟩
    rw [Nat.zero_add, h2, h1.rd0 hi]
    beta_reduce
    by_cases hc : i = 1
    · subst hc; rw [if_pos rfl, if_neg (by decide), if_pos (by decide), sbox_table]
    · rw [if_neg hc]
      by_cases h0 : i < 1
      · rw [if_pos h0, if_pos (by omega)]
      · rw [if_neg h0, if_neg (by omega)]
  rintro m2 ⟨hl2, h2⟩
  refine Ok.step (h2.rd0 (k := 2) (by decide)) (Ok.bind (P := fun m' => m'.length = 4 ∧
    Has m' 0 4 (fun r => if r < 3 then Spec.sbox (g r) else g r)) (Ok.wr (by omega) ?_) ?_)
  · intro m3 hl3 h3
    refine ⟨by omega, fun i hi => ?_⟩
    rw [Nat.zero_add, h3, h2.rd0 hi]
    beta_reduce
    by_cases hc : i = 2
    · subst hc; rw [if_pos rfl, if_neg (by decide), if_pos (by decide), sbox_table]
    · rw [if_neg hc]
      by_cases h0 : i < 2
      · rw [if_pos h0, if_pos (by omega)]
      · rw [if_neg h0, if_neg (by omega)]
  rintro m3 ⟨hl3, h3⟩
  refine Ok.step (h3.rd0 (k := 3) (by decide)) (Ok.wr (by omega) ?_)
  intro m4 hl4 h4
  refine ⟨by omega, fun i hi => ?_⟩
  rw [Nat.zero_add, h4, h3.rd0 hi]
  by_cases hc : i = 3
  · subst hc; rw [if_pos rfl, if_neg (by decide), sbox_table]
  · rw [if_neg hc, if_pos (by omega)]

theorem rotWord_ok {m : Mem Byte} {g : Nat → Byte} (hl : m.length = 4) (h : Has m 0 4 g) :
    Ok (rotWord m) (fun m' => m'.length = 4 ∧ Has m' 0 4 (fun r => g ((r + 1) % 4))) := by
  unfold rotWord
  refine Ok.step (h.rd0 (k := 0) (by decide)) (Ok.step (h.rd0 (k := 1) (by decide)) ?_)
  refine Ok.bind (Ok.wr (Q := fun m' => m'.length = 4 ∧ ∀ j, rd m' j =
      if j = 0 then some (g 1) else rd m j) (by omega) ?_) ?_
  · intro m' h1 h2; exact ⟨by omega, h2⟩
  rintro m1 ⟨hl1, h1⟩
  have e1 : rd m1 2 = some (g 2) := by rw [h1, if_neg (by decide), h.rd0 (by decide)]
  refine Ok.step e1 ?_
  refine Ok.bind (Ok.wr (Q := fun m' => m'.length = 4 ∧ ∀ j, rd m' j =
      if j = 1 then some (g 2) else rd m1 j) (by omega) ?_) ?_
  · intro m' h1 h2; exact ⟨by omega, h2⟩
  rintro m2 ⟨hl2, h2⟩
  have e2 : rd m2 3 = some (g 3) := by
    rw [h2, if_neg (by decide), h1, if_neg (by decide), h.rd0 (by decide)]
  refine Ok.step e2 ?_
  refine Ok.bind (Ok.wr (Q := fun m' => m'.length = 4 ∧ ∀ j, rd m' j =
      if j = 2 then some (g 3) else rd m2 j) (by omega) ?_) ?_
  · intro m' h1 h2; exact ⟨by omega, h2⟩
  rintro m3 ⟨hl3, h3⟩
  refine Ok.wr (by omega) ?_
  intro m4 hl4 h4
  refine ⟨by omega, fun i hi => ?_⟩
  rw [Nat.zero_add, h4, h3, h2, h1]
  have : i = 0 ∨ i = 1 ∨ i = 2 ∨ i = 3 := by omega
  rcases this with rfl | rfl | rfl | rfl <;> simp

/-- Some S-box input of the key expansion at position `k` is zero. -/
def ksZeroAt (Nk : Nat) (key : Nat → Byte) (k : Nat) : Prop :=
  ∃ t, Spec.ksSboxInput Nk k (Spec.keyWord Nk key (k - 1)) = some t ∧ ∃ r, r < 4 ∧ t r = 0

theorem keyWord_lt {Nk k : Nat} {key : Nat → Byte} (h : k < Nk) :
    Spec.keyWord Nk key k = fun r => key (4 * k + r) := by
  rw [Spec.keyWord, dif_pos (.inl h)]

theorem expandKeyStep_ok {kw bw rounds k : Nat} {key : Nat → Byte} {rk : Mem Byte} {z : Bool}
    (hkw : kw = 4 ∨ kw = 6 ∨ kw = 8) (hb : bw = 4 ∨ bw = 6 ∨ bw = 8) (hr : rounds ≤ 14)
    (hk : kw ≤ k) (hk2 : k < bw * (rounds + 1))
    (hrk : RkHas rk bw k (Spec.keyWord kw key))
    (hz : z = true ↔ ∃ k', kw ≤ k' ∧ k' < k ∧ ksZeroAt kw key k') :
    Ok (expandKeyStep kw bw k (rk, z)) (fun s => RkHas s.1 bw (k + 1) (Spec.keyWord kw key) ∧
      (s.2 = true ↔ ∃ k', kw ≤ k' ∧ k' < k + 1 ∧ ksZeroAt kw key k')) := by
  have hkk : k - kw < k := by clear hz; omega
  obtain ⟨hl, hw⟩ := hrk
  have hprev : Has rk (rkIdx ((k - 1) / bw) ((k - 1) % bw) 0) 4 (Spec.keyWord kw key (k - 1)) := by
    intro r h4
    exact hw (k - 1) (by omega) r h4
  unfold expandKeyStep
  refine Ok.step (rdN_has hprev (by decide)) ?_
  set tmp0 : Mem Byte := ofList (tabP 4 (Spec.keyWord kw key (k - 1))) with htmp0
  have ht0l : tmp0.length = 4 := by simp [htmp0]
  have ht0 : Has tmp0 0 4 (Spec.keyWord kw key (k - 1)) := has_full 4 _
  -- the last loop and the flag, given the word added to `W (k - kw)`
  have fin : ∀ (tmp : Mem Byte) (z1 z2 : Bool) (t : Nat → Byte), Has tmp 0 4 t →
      (∀ r, r < 4 → Spec.keyWord kw key k r = Spec.keyWord kw key (k - kw) r ^^^ t r) →
      ((z1 = true ∨ z2 = true) ↔ ksZeroAt kw key k) →
      Ok (do
        let rk ← forN 4 rk (fun r rk => do
          let a ← rd rk (rkIdx ((k - kw) / bw) ((k - kw) % bw) r)
          let b ← rd tmp r
          wr rk (rkIdx (k / bw) (k % bw) r) (a ^^^ b))
        pure (rk, z || z1 || z2) : Option (Mem Byte × Bool))
        (fun s => RkHas s.1 bw (k + 1) (Spec.keyWord kw key) ∧
          (s.2 = true ↔ ∃ k', kw ≤ k' ∧ k' < k + 1 ∧ ksZeroAt kw key k')) := by
    intro tmp z1 z2 t ht hword hz12
    refine Ok.bind (Ok.forN (fun i m => m.length = rkSize ∧
      (∀ k', k' < k → ∀ r, r < 4 →
        rd m (rkIdx (k' / bw) (k' % bw) r) = some (Spec.keyWord kw key k' r)) ∧
      ∀ r, r < i → rd m (rkIdx (k / bw) (k % bw) r) = some (Spec.keyWord kw key k r)) ?_ ?_) ?_
    · exact ⟨hl, hw, fun r h => by omega⟩
    · rintro i hi m ⟨h1, h2, h3⟩
      refine Ok.step (h2 (k - kw) hkk i hi) (Ok.step (ht.rd0 hi) (Ok.wr ?_ ?_))
      · rw [h1]; exact rkIdx_lt hb hr hk2 hi
      · intro m' hl' hm'
        refine ⟨by rw [hl', h1], ?_, ?_⟩
        · intro k' hk' r hr4
          rw [hm', if_neg, h2 k' hk' r hr4]
          intro hc
          have := (rkIdx_inj hb hr4 hi hc).1
          omega
        · intro r hri
          rw [hm']
          by_cases hc : r = i
          · subst hc; rw [if_pos rfl, hword r hi]
          · rw [if_neg, h3 r (by omega)]
            intro hc'
            exact hc (rkIdx_inj hb (by omega) hi hc').2
    · rintro m ⟨h1, h2, h3⟩
      refine Ok.pure ⟨⟨h1, ?_⟩, ?_⟩
      · intro k' hk' r hr4
        by_cases hc : k' = k
        · subst hc; exact h3 r hr4
        · exact h2 k' (by omega) r hr4
      · simp only [Bool.or_eq_true]
        rw [or_assoc, hz12, hz]
        constructor
        · rintro (⟨k', h1, h2, h3⟩ | h)
          · exact ⟨k', h1, by omega, h3⟩
          · exact ⟨k, hk, by omega, h⟩
        · rintro ⟨k', h1', h2', h3'⟩
          by_cases hc : k' = k
          · exact .inr (hc ▸ h3')
          · exact .inl ⟨k', h1', by omega, h3'⟩
  have hW : Spec.keyWord kw key k = (match Spec.ksSboxInput kw k (Spec.keyWord kw key (k - 1)) with
    | some t => fun r => Spec.keyWord kw key (k - kw) r ^^^ (Spec.sbox (t r) ^^^
        (if k % kw = 0 ∧ r = 0 then Spec.rcon (k / kw - 1) else 0))
    | none => fun r => Spec.keyWord kw key (k - kw) r ^^^ Spec.keyWord kw key (k - 1) r) := by
    rw [Spec.keyWord, dif_neg (by omega)]
    rfl
  by_cases h0 : k % kw = 0
  · have h4 : ¬ (kw > 6 ∧ k % kw = 4) := by omega
    simp only [if_pos h0, if_neg h4]
    refine Ok.bind (rotWord_ok ht0l ht0) ?_
    rintro t1 ⟨hl1, h1⟩
    refine Ok.bind (containsZero_ok h1) ?_
    intro z1 hz1
    refine Ok.bind (subWords_ok hl1 h1) ?_
    rintro t2 ⟨hl2, h2⟩
    have hrc : roundConstants[k / kw - 1]? = some (Spec.rcon (k / kw - 1)) := by
      refine rcon_table _ ?_
      rcases hb with rfl | rfl | rfl <;> rcases hkw with rfl | rfl | rfl <;> omega
    refine Ok.step hrc (Ok.step (h2.rd0 (by decide)) ?_)
    refine Ok.bind (Ok.wr (Q := fun m' => Has m' 0 4 (fun r => Spec.sbox
      (Spec.keyWord kw key (k - 1) ((r + 1) % 4)) ^^^
        (if k % kw = 0 ∧ r = 0 then Spec.rcon (k / kw - 1) else 0))) (by omega) ?_) ?_
    · intro m' _ hm' i hi
      rw [Nat.zero_add, hm', h2.rd0 hi]
      by_cases hc : i = 0
      · subst hc; simp [h0]
      · simp [hc]
    intro t3 h3
    refine fin t3 z1 false _ h3 ?_ ?_
    · intro r _
      rw [hW, Spec.ksSboxInput, if_pos h0]
    · rw [hz1]
      unfold ksZeroAt
      rw [Spec.ksSboxInput, if_pos h0]
      simp
  · by_cases h4 : kw > 6 ∧ k % kw = 4
    · simp only [if_neg h0, if_pos h4]
      rw [pure_bind]
      refine Ok.bind (containsZero_ok ht0) ?_
      intro z1 hz1
      refine Ok.bind (subWords_ok ht0l ht0) ?_
      rintro t2 ⟨hl2, h2⟩
      refine fin t2 false z1 _ h2 ?_ ?_
      · intro r _
        rw [hW, Spec.ksSboxInput, if_neg h0, if_pos h4]
        simp [h0]
      · rw [hz1]
        unfold ksZeroAt
        rw [Spec.ksSboxInput, if_neg h0, if_pos h4]
        simp
    · simp only [if_neg h0, if_neg h4]
      refine fin tmp0 false false _ ht0 ?_ ?_
      · intro r _
        rw [hW, Spec.ksSboxInput, if_neg h0, if_neg h4]
      · unfold ksZeroAt
        rw [Spec.ksSboxInput, if_neg h0, if_neg h4]
        simp

theorem expandKey_ok {kw bw rounds : Nat} {key : Mem Byte} {g : Nat → Byte}
    (hkw : kw = 4 ∨ kw = 6 ∨ kw = 8) (hb : bw = 4 ∨ bw = 6 ∨ bw = 8) (hr : rounds ≤ 14)
    (hle : kw ≤ bw * (rounds + 1)) (hkey : Has key 0 (4 * kw) g) :
    Ok (expandKey key kw bw rounds) (fun s =>
      RkHas s.1 bw (bw * (rounds + 1)) (Spec.keyWord kw g) ∧
      (s.2 = true ↔ ∃ k, kw ≤ k ∧ k < bw * (rounds + 1) ∧ ksZeroAt kw g k)) := by
  unfold expandKey
  refine Ok.bind (P := fun m => RkHas m bw kw (Spec.keyWord kw g)) ?_ ?_
  · refine Ok.forN (fun i m => RkHas m bw i (Spec.keyWord kw g)) ?_ ?_
    · exact ⟨by simp [rkSize], fun k hk => by omega⟩
    · rintro k hk m ⟨hl, hm⟩
      refine (Ok.forN (fun i m => m.length = rkSize ∧
        (∀ k', k' < k → ∀ r, r < 4 →
          rd m (rkIdx (k' / bw) (k' % bw) r) = some (Spec.keyWord kw g k' r)) ∧
        ∀ r, r < i → rd m (rkIdx (k / bw) (k % bw) r) = some (Spec.keyWord kw g k r)) ?_ ?_).mono ?_
      · exact ⟨hl, hm, fun r h => by omega⟩
      · rintro i hi m ⟨h1, h2, h3⟩
        refine Ok.step (hkey.rd0 (by omega)) (Ok.wr ?_ ?_)
        · rw [h1]; exact rkIdx_lt hb hr (by omega) hi
        · intro m' hl' hm'
          refine ⟨by rw [hl', h1], ?_, ?_⟩
          · intro k' hk' r hr4
            rw [hm', if_neg, h2 k' hk' r hr4]
            intro hc
            have := (rkIdx_inj hb hr4 hi hc).1
            omega
          · intro r hri
            rw [hm']
            by_cases hc : r = i
            · subst hc; rw [if_pos rfl, keyWord_lt hk]
            · rw [if_neg, h3 r (by omega)]
              intro hc'
              exact hc (rkIdx_inj hb (by omega) hi hc').2
      · rintro m ⟨h1, h2, h3⟩
        refine ⟨h1, ?_⟩
        intro k' hk' r hr4
        by_cases hc : k' = k
        · subst hc; exact h3 r hr4
        · exact h2 k' (by omega) r hr4
  · intro rk hrk
    refine Ok.forR (fun k (s : Mem Byte × Bool) => RkHas s.1 bw k (Spec.keyWord kw g) ∧
      (s.2 = true ↔ ∃ k', kw ≤ k' ∧ k' < k ∧ ksZeroAt kw g k')) hle ?_ ?_
    · refine ⟨hrk, ?_⟩
      simp only [Bool.false_eq_true, false_iff, not_exists]
      intro k' h; omega
    · rintro k h1 h2 ⟨m, z⟩ ⟨h3, h4⟩
      exact expandKeyStep_ok hkw hb hr h1 h2 h3 h4

/-! ### Block encryption -/

theorem loadState_ok {src : Mem Byte} {off bw : Nat} {g : Nat → Byte} (hb : bw ≤ 8)
    (h : Has src off (4 * bw) g) :
    Ok (loadState src off bw) (fun st => StHas st bw (Spec.blockState g)) := by
  unfold loadState
  refine (Ok.forN (fun i m => m.length = stSize ∧ ∀ c r, r < 4 → 4 * c + r < i →
    rd m (stIdx c r) = some (g (4 * c + r))) ?_ ?_).mono ?_
  · exact ⟨by simp [stSize], fun c r _ h => by omega⟩
  · rintro i hi m ⟨hl, hm⟩
    refine Ok.step (h.rd (by omega)) (Ok.wr ?_ ?_)
    · rw [hl]; exact stIdx_lt (bw := bw) (by omega) hb (by omega)
    · intro m' hl' hm'
      refine ⟨by rw [hl', hl], ?_⟩
      intro c r hr4 hcr
      rw [hm']
      by_cases hc : stIdx c r = stIdx (i / 4) (i % 4)
      · rw [if_pos hc]
        congr 2
        unfold stIdx at hc; omega
      · rw [if_neg hc]
        refine hm c r hr4 ?_
        unfold stIdx at hc; omega
  · rintro m ⟨hl, hm⟩
    refine ⟨hl, ?_⟩
    intro c hc r hr4
    exact hm c r hr4 (by omega)

theorem storeState_ok {st : Mem Byte} {bw : Nat} {S : Nat → Nat → Byte} (h : StHas st bw S) :
    storeState st bw = some (tabP (4 * bw) (Spec.stateBytes S)) := by
  unfold storeState
  rw [Nat.mul_comm bw 4]
  refine tabM_eq ?_
  intro i hi
  exact h.2 (i / 4) (by omega) (i % 4) (by omega)

/-- Some S-box input of one of the first `n` rounds is zero. -/
def encZero (bw : Nat) (W S : Nat → Nat → Byte) (n : Nat) : Prop :=
  ∃ i, i < n ∧ ∃ c, c < bw ∧ ∃ r, r < 4 ∧ Spec.roundState bw W S i c r = 0

theorem rk_round {rk : Mem Byte} {bw rounds i : Nat} {W : Nat → Nat → Byte} (hb : 0 < bw)
    (hrk : RkHas rk bw (bw * (rounds + 1)) W) (hi : i ≤ rounds) :
    ∀ c, c < bw → ∀ r, r < 4 → rd rk (rkIdx i c r) = some (W (bw * i + c) r) := by
  intro c hc r hr
  have hlt : bw * i + c < bw * (rounds + 1) := by
    have : bw * (i + 1) ≤ bw * (rounds + 1) := Nat.mul_le_mul_left _ (by omega)
    rw [Nat.mul_add] at this; omega
  have := hrk.2 (bw * i + c) hlt r hr
  rw [Nat.mul_add_div hb, Nat.div_eq_of_lt hc, Nat.mul_add_mod, Nat.mod_eq_of_lt hc] at this
  simpa using this

theorem aesRound_ok {rk : Mem Byte} {bw rounds i : Nat} {W S : Nat → Nat → Byte} {s : Mem Byte × Bool}
    (hb : bw = 4 ∨ bw = 6 ∨ bw = 8) (hrk : RkHas rk bw (bw * (rounds + 1)) W) (hi : i + 1 ≤ rounds)
    (hs : StHas s.1 bw (Spec.roundState bw W S i) ∧ (s.2 = true ↔ encZero bw W S i)) :
    Ok (aesRound rk bw (i + 1) s) (fun s => StHas s.1 bw (Spec.roundState bw W S (i + 1)) ∧
      (s.2 = true ↔ encZero bw W S (i + 1))) := by
  unfold aesRound
  refine Ok.bind (subBytes_ok (by omega) hs.1) ?_
  rintro ⟨st, z⟩ ⟨h1, hz⟩
  refine Ok.bind (shiftRow_ok hb h1) ?_
  intro st2 h2
  refine Ok.bind (mixColumn_ok (by omega) h2) ?_
  intro st3 h3
  refine Ok.bind (addRoundKey_ok (by omega) h3 (rk_round (by omega) hrk hi)) ?_
  intro st4 h4
  refine Ok.pure ⟨h4, ?_⟩
  simp only [Bool.or_eq_true]
  simp only at hz
  rw [hz, hs.2]
  unfold encZero
  constructor
  · rintro (⟨j, hj, h⟩ | h)
    · exact ⟨j, by omega, h⟩
    · exact ⟨i, by omega, h⟩
  · rintro ⟨j, hj, h⟩
    by_cases hc : j = i
    · subst hc; exact .inr h
    · exact .inl ⟨j, by omega, h⟩

theorem aesEncrypt_ok {rk st : Mem Byte} {bw rounds : Nat} {W S : Nat → Nat → Byte}
    (hb : bw = 4 ∨ bw = 6 ∨ bw = 8) (hr : 1 ≤ rounds)
    (hrk : RkHas rk bw (bw * (rounds + 1)) W) (hst : StHas st bw S) :
    Ok (aesEncrypt rk st bw rounds) (fun s => StHas s.1 bw (Spec.cipher bw rounds W S) ∧
      (s.2 = true ↔ encZero bw W S rounds)) := by
  unfold aesEncrypt
  refine Ok.bind (addRoundKey_ok (by omega) hst (rk_round (by omega) hrk (Nat.zero_le _))) ?_
  intro st1 h1
  refine Ok.bind (Ok.forR (fun i (s : Mem Byte × Bool) =>
    StHas s.1 bw (Spec.roundState bw W S (i - 1)) ∧ (s.2 = true ↔ encZero bw W S (i - 1))) hr ?_ ?_) ?_
  · refine ⟨h1, ?_⟩
    unfold encZero
    simp
  · intro i hi1 hi2 s hs
    obtain ⟨j, rfl⟩ : ∃ j, i = j + 1 := ⟨i - 1, by omega⟩
    exact aesRound_ok hb hrk (by omega) hs
  · rintro s ⟨h2, hz2⟩
    refine Ok.bind (subBytes_ok (by omega) h2) ?_
    rintro ⟨st3, z⟩ ⟨h3, hz⟩
    refine Ok.bind (shiftRow_ok hb h3) ?_
    intro st4 h4
    refine Ok.bind (addRoundKey_ok (by omega) h4 (rk_round (by omega) hrk (Nat.le_refl _))) ?_
    intro st5 h5
    refine Ok.pure ⟨h5, ?_⟩
    simp only [Bool.or_eq_true]
    simp only at hz
    rw [hz, hz2]
    unfold encZero
    constructor
    · rintro (⟨j, hj, h⟩ | h)
      · exact ⟨j, by omega, h⟩
      · exact ⟨rounds - 1, by omega, h⟩
    · rintro ⟨j, hj, h⟩
      by_cases hc : j = rounds - 1
      · subst hc; exact .inr h
      · exact .inl ⟨j, by omega, h⟩

theorem encryptBlock_ok {rk src : Mem Byte} {off bw rounds : Nat} {W : Nat → Nat → Byte}
    {p : Nat → Byte} (hb : bw = 4 ∨ bw = 6 ∨ bw = 8) (hr : 1 ≤ rounds)
    (hrk : RkHas rk bw (bw * (rounds + 1)) W) (hsrc : Has src off (4 * bw) p) :
    Ok (encryptBlock rk src off bw rounds) (fun s =>
      s.1 = tabP (4 * bw) (Spec.stateBytes (Spec.cipher bw rounds W (Spec.blockState p))) ∧
      (s.2 = true ↔ encZero bw W (Spec.blockState p) rounds)) := by
  unfold encryptBlock
  refine Ok.bind (loadState_ok (by omega) hsrc) ?_
  intro st hst
  refine Ok.bind (aesEncrypt_ok hb hr hrk hst) ?_
  rintro ⟨st2, z⟩ ⟨h2, hz⟩
  refine Ok.step (storeState_ok h2) (Ok.pure ⟨rfl, hz⟩)

end Faest
