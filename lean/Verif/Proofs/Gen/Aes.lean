/-
aes.c, translated.
-/
import Verif.Model.Gen.Aes
import Verif.Proofs.Gen.Utils

namespace Faest.C

section
variable {D F : Blocks} {kd : Kind}

theorem zero_flag (a : Byte) : (if ¬ (a ≠ 0) then 1 else 0) = (a == 0).toNat := by
  by_cases h : a = 0
  · simp [h]
  · have : (a == 0) = false := by simpa using h
    rw [this, if_neg (by simpa using h)]; rfl

theorem contains_zero_run {p : CPtr} {μ : Mem Byte} {o : Nat} {z : Bool} (hv : View D p μ)
    (h : containsZero μ o = some z) : Runs D (Gen.contains_zero (padd p o)) z.toNat D := by
  unfold containsZero at h
  inv h
  obtain ⟨a, ha, b, hb, c, hc, d, hd, rfl⟩ := h
  unfold Gen.contains_zero
  refine t_ld hv.padd (by rdx ha) (t_ld hv.padd (by rdx hb) (t_ld hv.padd (by rdx hc) (t_ld hv.padd (by rdx hd) ?_)))
  refine t_pure ⟨?_, rfl⟩
  simp only [zero_flag]
  generalize (a == 0) = a
  generalize (b == 0) = b
  generalize (c == 0) = c
  generalize (d == 0) = d
  revert a b c d
  decide

theorem contains_zero_run0 {p : CPtr} {μ : Mem Byte} {z : Bool} (hv : View D p μ)
    (h : containsZero μ 0 = some z) : Runs D (Gen.contains_zero p) z.toNat D := by
  have := contains_zero_run hv h
  obtain ⟨b, o, kd, m, rfl, hm, hle⟩ := hv
  exact this

theorem toNat_or (a b : Bool) : (a || b).toNat = a.toNat ||| b.toNat := by revert a b; decide

theorem compute_sbox_eq (x : Byte) : Gen.compute_sbox x = pure (computeSbox x) := by
  unfold Gen.compute_sbox computeSbox bf8_inv
  bsimp
  rfl

theorem increment_iv_run {s : Nat} {m m' : Mem Byte} (h : aesIncrementIv m = some m') :
    Runs (bl kd s m + F) (Gen.aes_increment_iv (some ⟨s, 0⟩)) () (bl kd s m' + F) := by
  unfold Gen.aes_increment_iv
  refine t_whileI (fun s0 D => ∃ m1, D = bl kd s m1 + F ∧ s0.1 ≤ 16 ∧
      if s0.2 = true then m1 = m' else aesIncrementIvLoop s0.1 m1 = some m')
    (fun s0 => if s0.2 = true then 0 else s0.1 + 1) ⟨m, rfl, by decide, h⟩ (by decide) ?_ ?_
  · rintro ⟨j, k⟩ D ⟨m1, rfl, hj, h⟩ hc
    simp only [decide_eq_true_eq] at hc
    obtain ⟨rfl, hj0⟩ := hc
    simp only at hj
    obtain ⟨j, rfl⟩ : ∃ i, j = i + 1 := ⟨j - 1, by omega⟩
    simp only [Bool.false_eq_true, if_false] at h ⊢
    unfold aesIncrementIvLoop at h
    simp only [Option.bind_eq_bind, Option.bind_eq_some_iff] at h
    obtain ⟨x, hx, h⟩ := h
    nowrap
    refine t_ld View.here0 (by rdx hx) ?_
    by_cases hff : x = 0xff
    · rw [if_pos hff] at h
      simp only [Option.bind_eq_some_iff] at h
      obtain ⟨m2, hw, h⟩ := h
      subst hff
      rw [if_pos (by decide)]
      refine t_st rfl (by wrx hw) (t_pure ⟨⟨m2, rfl, ?_, ?_⟩, ?_⟩)
      · simp only [Nat.add_sub_cancel]; omega
      · simpa using h
      · simp
    · rw [if_neg hff] at h
      rw [if_neg (fun hc : x.toNat = 255 => hff (BitVec.eq_of_toNat_eq (by rw [hc]; rfl)))]
      refine t_ld View.here0 (by rdx hx) (t_st (m' := m') rfl ?_ (t_pure ⟨⟨m', rfl, ?_, ?_⟩, ?_⟩))
      · have e : (BitVec.ofNat 8 (x.toNat + 1)) = x + 0x01 := by rw [ofNat_add, ofNat_toNat]; rfl
        rw [e]
        wrx h
      · exact hj
      · simp
      · simp
  · rintro ⟨j, k⟩ D ⟨m1, rfl, hj, h⟩ hc
    refine t_pure ⟨rfl, ?_⟩
    simp only [decide_eq_false_iff_not, not_and] at hc
    cases k with
    | true => rw [if_pos rfl] at h; rw [h]
    | false =>
      have : j = 0 := by have := hc rfl; omega
      subst this
      rw [if_neg (by simp)] at h
      rw [show m1 = m' from Option.some.inj h]

/-- Four bytes of the state combined with four bytes of a round key. -/
theorem ark_word {p q : Nat} {m m' rk : Mem Byte}
    (h : forN 4 m (fun r m => do
      let a ← rd m (p + r)
      let b ← rd rk (q + r)
      wr m (p + r) (a ^^^ b)) = some m') :
    ∃ l, xorArr (m.drop p) (rk.drop q) 4 = some l ∧ wrN m p l = some m' := by
  obtain ⟨g, h0, h4, hg⟩ := forN_seq h
  have hlen : ∀ i, i ≤ 4 → (g i).length = m.length := by
    intro i
    induction i with
    | zero => intro _; rw [h0]
    | succ i ih =>
      intro hi
      have := hg i (by omega)
      inv this
      obtain ⟨a, -, b, -, hw⟩ := this
      rw [(wr_lt hw).2, ih (by omega)]
  have hlt : p + 4 ≤ m.length := by
    have := hg 3 (by omega)
    inv this
    obtain ⟨a, -, b, -, hw⟩ := this
    have := (wr_lt hw).1
    rw [hlen 3 (by omega)] at this
    omega
  have h' : forN 4 m (fun r m => do
      let x ← (do
        let a ← rd m (p + r)
        let b ← rd rk (q + r)
        pure (a ^^^ b))
      wr m (p + r) x) = some m' := by
    rw [← h]
    refine forN_congr fun i hi => ?_
    funext m
    cases rd m (p + i) <;> cases rd rk (q + i) <;> rfl
  obtain ⟨l, hl, hw, hf⟩ := forN_wr h' hlt
  refine ⟨l, ?_, hw⟩
  unfold xorArr
  rw [tabM_eq (g := fun i => l[i]?.getD 0)]
  · refine congrArg some (List.ext_getElem? fun i => ?_)
    by_cases hi : i < 4
    · simp only [tabP, List.getElem?_map, List.getElem?_range hi, Option.map_some]
      rw [List.getElem?_eq_getElem (by omega)]; rfl
    · rw [List.getElem?_eq_none (by simp [tabP]; omega), List.getElem?_eq_none (by omega)]
  · intro i hi
    have := hf i hi
    rw [List.getElem?_eq_getElem (by omega)] at this ⊢
    rw [rd_W (by simp; omega), if_neg (by simp)] at this
    simp only [rd_drop]
    exact this

theorem add_round_key_run {s round bw : Nat} {m m' rk : Mem Byte} {p : CPtr} (hv : View F p rk)
    (h : addRoundKey round m rk bw = some m') (hbw : bw ≤ 8) :
    Runs (bl kd s m + F) (Gen.add_round_key round (some ⟨s, 0⟩) p bw) () (bl kd s m' + F) := by
  unfold addRoundKey at h
  obtain ⟨g, h0, hn, hg⟩ := forN_seq h
  unfold Gen.add_round_key
  subst h0 hn
  refine t_while bw (fun i => i) (fun i => bl kd s (g i) + F) (by omega) rfl rfl
    (fun i hi => by simpa using hi) (by simp) (fun i hi => ?_) (t_pure ⟨rfl, rfl⟩)
  obtain ⟨l, hl, hw⟩ := ark_word (p := stIdx i 0) (q := rkIdx round i 0) (hg i hi)
  have e1 : stIdx i 0 = 4 * i := by unfold stIdx; omega
  have e2 : rkIdx round i 0 = 32 * round + 4 * i := by unfold rkIdx; omega
  rw [e1] at hw hl
  rw [e2] at hl
  refine t_run rfl (xor_run (o := 0 + 4 * i) (Or.inr ⟨0 + 4 * i, rfl, ?_, Or.inl (Nat.le_refl _)⟩) (Or.inl hv.padd) hl ?_ (by decide))
    (t_pure ⟨?_, rfl⟩)
  · rw [Nat.zero_add]; exact Le.rfl
  · rw [Nat.zero_add]; exact hw
  · nowrap

theorem sub_bytes_run {s bw : Nat} {m m' : Mem Byte} {z : Bool} (h : subBytes m bw = some (m', z)) (hbw : bw ≤ 8) :
    Runs (bl kd s m + F) (Gen.sub_bytes (some ⟨s, 0⟩) bw) z.toNat (bl kd s m' + F) := by
  unfold subBytes at h
  obtain ⟨g, h0, hn, hg⟩ := forN_seq h
  unfold Gen.sub_bytes
  refine t_while bw (fun i => ((g i).2.toNat, i)) (fun i => bl kd s (g i).1 + F) (by omega) (by rw [h0]; rfl)
    (by rw [h0]) (fun i hi => by simpa using hi) (by simp) (fun i hi => ?_) (t_pure ⟨by rw [hn], by rw [hn]⟩)
  have hb := hg i hi
  inv hb
  obtain ⟨z', hz, m1, hm, hb⟩ := hb
  obtain ⟨f, f0, f4, hf⟩ := forN_seq hm
  have e1 : stIdx i 0 = 4 * i := by unfold stIdx; omega
  rw [e1] at hz
  refine t_run rfl (contains_zero_run View.here0 hz) ?_
  refine t_while 4 (fun r => r) (fun r => bl kd s (f r) + F) (by decide) rfl (by rw [f0])
    (fun i hi => by simpa using hi) (by simp) (fun r hr => ?_) (t_pure ⟨?_, ?_⟩)
  · have := hf r hr
    inv this
    obtain ⟨a, ha, hw⟩ := this
    unfold stIdx at ha hw
    refine t_ld View.here0 (by rdx ha) ?_
    rw [compute_sbox_eq]
    refine t_pbind (t_st rfl (by wrx hw) (t_pure ⟨?_, rfl⟩))
    nowrap
  · rw [← hb]
    simp only [Prod.mk.injEq]
    refine ⟨?_, by nowrap⟩
    generalize (g i).2 = a
    clear hb hz
    revert a z'
    decide
  · rw [f4, ← hb]

theorem shift_row_run {s bw : Nat} {m m' : Mem Byte} (h : shiftRow m bw = some m') (hbw : bw = 4 ∨ bw = 6 ∨ bw = 8) :
    Runs (bl kd s m + F) (Gen.shift_row (some ⟨s, 0⟩) bw) () (bl kd s m' + F) := by
  unfold shiftRow at h
  unfold Gen.shift_row
  refine t_alloc fun t => ?_
  refine t_call (R := fun _ D => ∃ new, D = bl .stack t new + (bl kd s m + F) ∧ forN bw m (fun i state => do
    let w ← rdN new (stIdx i 0) 4
    wrN state (stIdx i 0) w) = some m') rfl ?_ ?_
  · by_cases h46 : bw = 4 ∨ bw = 6
    · rw [if_pos h46] at h ⊢
      obtain ⟨new, hnew, h⟩ := Option.bind_eq_some_iff.1 h
      obtain ⟨g, h0, hn, hg⟩ := forN_seq hnew
      refine t_while bw (fun i => i) (fun i => bl .stack t (g i) + (bl kd s m + F)) (by omega) rfl (by rw [h0]; rfl)
        (fun i hi => by simpa using hi) (by simp) (fun i hi => ?_) (t_pure ⟨new, by rw [hn], h⟩)
      have hb := hg i hi
      simp only [Option.bind_eq_bind, Option.bind_eq_some_iff, stIdx] at hb
      obtain ⟨a0, r0, m0, w0, a1, r1, m1, w1, a2, r2, m2, w2, a3, r3, w3⟩ := hb
      nowrap
      refine t_ld (by hview) (by rdx r0) (t_st rfl (by wrx w0) ?_)
      refine t_cmod (by omega) (t_ld (by hview) (by rdx r1) (t_st rfl (by wrx w1) ?_))
      refine t_cmod (by omega) (t_ld (by hview) (by rdx r2) (t_st rfl (by wrx w2) ?_))
      refine t_cmod (by omega) (t_ld (by hview) (by rdx r3) (t_st rfl (by wrx w3) ?_))
      exact t_pure ⟨rfl, rfl⟩
    · have h8 : bw = 8 := by omega
      rw [if_neg h46, if_pos h8] at h ⊢
      obtain ⟨new, hnew, h⟩ := Option.bind_eq_some_iff.1 h
      obtain ⟨g, h0, hn, hg⟩ := forN_seq hnew
      refine t_while bw (fun i => i) (fun i => bl .stack t (g i) + (bl kd s m + F)) (by omega) rfl (by rw [h0]; rfl)
        (fun i hi => by simpa using hi) (by simp) (fun i hi => ?_) (t_pure ⟨new, by rw [hn], h⟩)
      have hb := hg i hi
      simp only [Option.bind_eq_bind, Option.bind_eq_some_iff, stIdx] at hb
      obtain ⟨a0, r0, m0, w0, a1, r1, m1, w1, a2, r2, m2, w2, a3, r3, w3⟩ := hb
      refine t_ld (by hview) (by rdx r0) (t_st rfl (by wrx w0) ?_)
      refine t_ld (by hview) (by rdx r1) (t_st rfl (by wrx w1) ?_)
      refine t_ld (by hview) (by rdx r2) (t_st rfl (by wrx w2) ?_)
      refine t_ld (by hview) (by rdx r3) (t_st rfl (by wrx w3) ?_)
      exact t_pure ⟨by omega, rfl⟩
  · rintro _ D ⟨new, rfl, h⟩
    obtain ⟨g, h0, hn, hg⟩ := forN_seq h
    subst h0 hn
    refine t_while bw (fun i => i) (fun i => bl kd s (g i) + (bl .stack t new + F)) (by omega) rfl (by hfind)
      (fun i hi => by simpa using hi) (by simp) (fun i hi => ?_) ?_
    · have hb := hg i hi
      inv hb
      obtain ⟨w, hr, hw⟩ := hb
      have e1 : stIdx i 0 = 4 * i := by unfold stIdx; omega
      rw [e1] at hr hw
      refine t_memcpy (o := 0 + 4 * i) rfl (by hview) (by decide) (l := w) ?_ ?_ (t_pure ⟨by omega, rfl⟩)
      · exact rdN_at hr
      · rw [Nat.zero_add]; exact hw
    · exact t_free (by hfind) (t_pure ⟨rfl, rfl⟩)

theorem mix_column_run {s bw : Nat} {m m' : Mem Byte} (h : mixColumn m bw = some m') (hbw : bw ≤ 8) :
    Runs (bl kd s m + F) (Gen.mix_column (some ⟨s, 0⟩) bw) () (bl kd s m' + F) := by
  unfold mixColumn at h
  obtain ⟨g, h0, hn, hg⟩ := forN_seq h
  subst h0 hn
  unfold Gen.mix_column
  refine t_while bw (fun i => i) (fun i => bl kd s (g i) + F) (by omega) rfl rfl
    (fun i hi => by simpa using hi) (by simp) (fun i hi => ?_) (t_pure ⟨rfl, rfl⟩)
  have hb := hg i hi
  simp only [Option.bind_eq_bind, Option.bind_eq_some_iff, stIdx] at hb
  obtain ⟨a0, r0, a1, r1, a2, r2, a3, r3, m0, w0, m1, w1, m2, w2, w3⟩ := hb
  refine t_ld View.here0 (by rdx r0) (t_ld View.here0 (by rdx r1) (t_ld View.here0 (by rdx r2) (t_ld View.here0 (by rdx r3) ?_)))
  refine t_ld View.here0 (by rdx r0) (t_ld View.here0 (by rdx r1) (t_ld View.here0 (by rdx r2) (t_ld View.here0 (by rdx r3) ?_)))
  refine t_ld View.here0 (by rdx r0) (t_ld View.here0 (by rdx r1) (t_ld View.here0 (by rdx r2) (t_ld View.here0 (by rdx r3) ?_)))
  refine t_ld View.here0 (by rdx r0) (t_ld View.here0 (by rdx r1) (t_ld View.here0 (by rdx r2) (t_ld View.here0 (by rdx r3) ?_)))
  bsimp
  refine t_st rfl (by wrx w0) (t_st rfl (by wrx w1) (t_st rfl (by wrx w2) (t_st rfl (by wrx w3) (t_pure ⟨?_, rfl⟩))))
  omega

theorem sub_words_run {s : Nat} {m m' : Mem Byte} (h : subWords m = some m') :
    Runs (bl kd s m + F) (Gen.sub_words (some ⟨s, 0⟩)) () (bl kd s m' + F) := by
  unfold subWords at h
  simp only [Option.bind_eq_bind, Option.bind_eq_some_iff] at h
  obtain ⟨a0, r0, m0, w0, a1, r1, m1, w1, a2, r2, m2, w2, a3, r3, w3⟩ := h
  unfold Gen.sub_words
  simp only [compute_sbox_eq]
  refine t_ld View.here0 (by rdx r0) (t_pbind (t_st rfl (by wrx w0) ?_))
  refine t_ld View.here0 (by rdx r1) (t_pbind (t_st rfl (by wrx w1) ?_))
  refine t_ld View.here0 (by rdx r2) (t_pbind (t_st rfl (by wrx w2) ?_))
  refine t_ld View.here0 (by rdx r3) (t_pbind (t_st rfl (by wrx w3) ?_))
  exact t_pure ⟨rfl, rfl⟩

theorem rot_word_run {s : Nat} {m m' : Mem Byte} (h : rotWord m = some m') :
    Runs (bl kd s m + F) (Gen.rot_word (some ⟨s, 0⟩)) () (bl kd s m' + F) := by
  unfold rotWord at h
  simp only [Option.bind_eq_bind, Option.bind_eq_some_iff] at h
  obtain ⟨a0, r0, a1, r1, m0, w0, a2, r2, m1, w1, a3, r3, m2, w2, w3⟩ := h
  unfold Gen.rot_word
  refine t_ld View.here0 (by rdx r0) ?_
  refine t_ld View.here0 (by rdx r1) (t_st rfl (by wrx w0) ?_)
  refine t_ld View.here0 (by rdx r2) (t_st rfl (by wrx w1) ?_)
  refine t_ld View.here0 (by rdx r3) (t_st rfl (by wrx w2) ?_)
  exact t_st rfl (by wrx w3) (t_pure ⟨rfl, rfl⟩)

theorem load_state_run {s bw : Nat} {m' μ : Mem Byte} {p : CPtr} (hv : View F p μ) (h : loadState μ 0 bw = some m')
    (hbw : bw ≤ 8) :
    Runs (bl kd s (malloc 32 : Mem Byte) + F) (Gen.load_state (some ⟨s, 0⟩) p bw) () (bl kd s m' + F) := by
  unfold loadState at h
  obtain ⟨g, h0, hn, hg⟩ := forN_seq h
  subst hn
  unfold Gen.load_state
  nowrap
  refine t_while (bw * 4) (fun i => i) (fun i => bl kd s (g i) + F) (by omega) rfl (by rw [h0]; rfl)
    (fun i hi => by simp; omega) (by simp) (fun i hi => ?_) (t_pure ⟨rfl, rfl⟩)
  have hb := hg i hi
  simp only [Option.bind_eq_bind, Option.bind_eq_some_iff, stIdx] at hb
  obtain ⟨a, r, w⟩ := hb
  exact t_bf8_load (by hview) (by rdx r) (t_st rfl (by wrx w) (t_pure ⟨by omega, rfl⟩))

theorem store_state_run {s o bw : Nat} {m m' st : Mem Byte} {l : List Byte} {p : CPtr} (hv : View F p st)
    (h : storeState st bw = some l) (hw : wrN m o l = some m') (hbw : bw ≤ 8) :
    Runs (bl kd s m + F) (Gen.store_state (some ⟨s, o⟩) p bw) () (bl kd s m' + F) := by
  unfold storeState at h
  obtain ⟨hl, hx⟩ := tabM_some h
  obtain ⟨hm, rfl⟩ := wrN_eq_W hw
  unfold Gen.store_state
  nowrap
  refine t_while (bw * 4) (fun i => i) (fun i => bl kd s (W m o (l.take i)) + F) (by omega) rfl (by rw [W_take_zero])
    (fun i hi => by simp; omega) (by simp) (fun i hi => ?_) ?_
  · have hx := hx i hi
    have hi' : i < l.length := by omega
    rw [List.getElem?_eq_getElem hi'] at hx
    unfold stIdx at hx
    refine t_ld (by hview) (by rdx hx) (t_bf8_store rfl (wr_W hm ?_) (t_pure ⟨by omega, rfl⟩))
    rw [List.getElem?_eq_getElem hi']
  · rw [W_take_full _ _ _ (by omega)]
    exact t_pure ⟨rfl, rfl⟩

/-- The part of `expandKeyStep` at the start of a key block. -/
def ekRot (kw k : Nat) (tmp : Mem Byte) : Option (Mem Byte × Bool) :=
  if k % kw = 0 then
    (rotWord tmp).bind fun tmp => (containsZero tmp 0).bind fun z => (subWords tmp).bind fun tmp =>
      (roundConstants[(k / kw) - 1]?).bind fun rc => (rd tmp 0).bind fun a => (wr tmp 0 (a ^^^ rc)).bind fun tmp =>
        some (tmp, z)
  else some (tmp, false)

/-- The extra S-boxes of the 256-bit key schedule. -/
def ekSub (kw k : Nat) (tmp : Mem Byte) : Option (Mem Byte × Bool) :=
  if kw > 6 ∧ k % kw = 4 then
    (containsZero tmp 0).bind fun z => (subWords tmp).bind fun tmp => some (tmp, z)
  else some (tmp, false)

theorem expandKeyStep_eq (kw bw k : Nat) (s : Mem Byte × Bool) :
    expandKeyStep kw bw k s = (rdN s.1 (rkIdx ((k - 1) / bw) ((k - 1) % bw) 0) 4).bind fun l =>
      (ekRot kw k (ofList l)).bind fun a => (ekSub kw k a.1).bind fun b =>
        (forN 4 s.1 (fun r rk => do
          let x ← rd rk (rkIdx ((k - kw) / bw) ((k - kw) % bw) r)
          let y ← rd b.1 r
          wr rk (rkIdx (k / bw) (k % bw) r) (x ^^^ y))).bind fun rk => some (rk, s.2 || a.2 || b.2) := by
  unfold expandKeyStep ekRot ekSub
  simp only [Option.bind_eq_bind, Option.pure_def]
  refine congrArg _ (funext fun l => ?_)
  by_cases h1 : k % kw = 0
  · have h4 : ¬ (kw > 6 ∧ k % kw = 4) := by omega
    simp only [h1, if_true, h4, if_false, Option.bind_assoc, Option.bind_some]
    simp
  · by_cases h4 : kw > 6 ∧ k % kw = 4
    · simp only [if_neg h1, if_pos h4, Option.bind_assoc, Option.bind_some]
    · simp only [h1, if_false, h4, Option.bind_some]

theorem expand_key_run {s kw bw rounds : Nat} {rk key : Mem Byte} {z : Bool} {p : CPtr} (hv : View F p key)
    (h : expandKey key kw bw rounds = some (rk, z)) (hkw : 1 ≤ kw ∧ kw ≤ 8) (hbw : 1 ≤ bw ∧ bw ≤ 8)
    (hr : rounds ≤ 14) :
    Runs (bl kd s (malloc 480 : Mem Byte) + F) (Gen.expand_key (some ⟨s, 0⟩) p kw bw rounds) z.toNat (bl kd s rk + F) := by
  unfold expandKey at h
  simp only [Option.bind_eq_bind, Option.bind_eq_some_iff] at h
  obtain ⟨rk0, h0, h1⟩ := h
  obtain ⟨g, g0, gn, hg⟩ := forN_seq h0
  subst gn
  unfold Gen.expand_key
  refine t_while kw (fun i => i) (fun i => bl kd s (g i) + F) (by omega) rfl (by rw [g0]; rfl)
    (fun i hi => by simpa using hi) (by simp) (fun i hi => ?_) ?_
  · have hb := hg i hi
    obtain ⟨f, f0, f4, hf⟩ := forN_seq hb
    have b0 := hf 0 (by decide)
    have b1 := hf 1 (by decide)
    have b2 := hf 2 (by decide)
    have b3 := hf 3 (by decide)
    simp only [Option.bind_eq_bind, Option.bind_eq_some_iff, rkIdx, f0, f4, Nat.reduceAdd] at b0 b1 b2 b3
    obtain ⟨a0, r0, w0⟩ := b0
    obtain ⟨a1, r1, w1⟩ := b1
    obtain ⟨a2, r2, w2⟩ := b2
    obtain ⟨a3, r3, w3⟩ := b3
    nowrap
    refine t_cdiv (by omega) (t_cmod (by omega) (t_bf8_load (by hview) (by rdx r0) (t_st rfl (by wrx w0) ?_)))
    refine t_cdiv (by omega) (t_cmod (by omega) (t_bf8_load (by hview) (by rdx r1) (t_st rfl (by wrx w1) ?_)))
    refine t_cdiv (by omega) (t_cmod (by omega) (t_bf8_load (by hview) (by rdx r2) (t_st rfl (by wrx w2) ?_)))
    refine t_cdiv (by omega) (t_cmod (by omega) (t_bf8_load (by hview) (by rdx r3) (t_st rfl (by wrx w3) ?_)))
    exact t_pure ⟨rfl, rfl⟩
  · have hbr : bw * (rounds + 1) ≤ 120 := le_trans (Nat.mul_le_mul hbw.2 (Nat.succ_le_succ hr)) (by decide)
    have hsz : (bw * ((rounds + 1) % 4294967296)) % 4294967296 = bw * (rounds + 1) := by
      rw [Nat.mod_eq_of_lt (a := rounds + 1) (by omega), Nat.mod_eq_of_lt (by omega)]
    rw [hsz]
    obtain ⟨f, f0, fn, hf⟩ := forR_seq h1
    refine t_while (bw * (rounds + 1) - kw) (fun i => ((f i).2.toNat, kw + i)) (fun i => bl kd s (f i).1 + F) (by omega)
      (by rw [f0]; rfl) (by rw [f0]) (fun i hi => by simp; omega) (by simp; omega) (fun i hi => ?_)
      (t_pure ⟨by rw [fn], by rw [fn]⟩)
    have hb := hf i hi
    generalize hk : kw + i = k at hb
    have hk' : kw + (i + 1) = k + 1 := by omega
    have hkl : kw ≤ k ∧ k < 120 := by omega
    rw [hk']
    clear hf hk hk'
    rw [expandKeyStep_eq] at hb
    simp only [Option.bind_eq_some_iff] at hb
    obtain ⟨l, hl, ⟨t1, z1⟩, ha, ⟨t2, z2⟩, hb', rk', hx, hfin⟩ := hb
    simp only [Option.some.injEq] at hfin
    refine t_alloc fun t => ?_
    nowrap
    refine t_cdiv (by omega) (t_cmod (by omega) ?_)
    have e1 : rkIdx ((k - 1) / bw) ((k - 1) % bw) 0 = 0 + (32 * ((k - 1) / bw) + 4 * ((k - 1) % bw)) := by
      unfold rkIdx; omega
    rw [e1] at hl
    have hll : l.length = 4 := rdN_length hl
    refine t_memcpy (o := 0) (m' := ofList l) rfl View.here (by decide) (l := l) (rdN_at hl) ?_ ?_
    · rw [wrN_W (by simp [malloc]; omega)]
      simp [W, malloc, ofList, hll]
    refine t_cmod (by omega) ?_
    refine t_run (b := (f i).2.toNat ||| z1.toNat) (E := bl .stack t t1 + (bl kd s (f i).1 + F)) rfl ?_ ?_
    · unfold ekRot at ha
      by_cases h1 : k % kw = 0
      · rw [if_pos h1] at ha ⊢
        simp only [Option.bind_eq_some_iff, Option.some.injEq] at ha
        obtain ⟨u1, hu1, y, hy, u2, hu2, rc, hrc, x, hx, u3, hu3, he⟩ := ha
        simp only [Prod.mk.injEq] at he
        obtain ⟨rfl, rfl⟩ := he
        refine t_run rfl (rot_word_run hu1) ?_
        refine t_run rfl (contains_zero_run0 View.here0 hy) ?_
        refine t_run rfl (sub_words_run hu2) ?_
        refine t_ld View.here0 (by rdx hx) (t_cdiv (by omega) ?_)
        have hdl : k / kw < 4294967296 := lt_of_le_of_lt (Nat.div_le_self _ _) (by omega)
        have hd1 : 1 ≤ k / kw := (Nat.one_le_div_iff (by omega)).2 hkl.1
        rw [subw32 hd1 hdl]
        refine t_tget (t := Gen.round_constants) hrc ?_
        bsimp
        exact t_st rfl (by wrx hu3) (t_pure ⟨rfl, rfl⟩)
      · rw [if_neg h1] at ha ⊢
        simp only [Option.some.injEq, Prod.mk.injEq] at ha
        obtain ⟨rfl, rfl⟩ := ha
        exact t_pure ⟨by simp, rfl⟩
    refine t_cmod (by omega) ?_
    refine t_run (b := (f i).2.toNat ||| z1.toNat ||| z2.toNat) (E := bl .stack t t2 + (bl kd s (f i).1 + F)) rfl ?_ ?_
    · unfold ekSub at hb'
      by_cases h1 : kw > 6 ∧ k % kw = 4
      · rw [if_pos h1] at hb' ⊢
        simp only [Option.bind_eq_some_iff, Option.some.injEq] at hb'
        obtain ⟨y, hy, u2, hu2, he⟩ := hb'
        simp only [Prod.mk.injEq] at he
        obtain ⟨rfl, rfl⟩ := he
        refine t_run rfl (contains_zero_run0 View.here0 hy) ?_
        refine t_run rfl (sub_words_run hu2) ?_
        exact t_pure ⟨rfl, rfl⟩
      · rw [if_neg h1] at hb' ⊢
        simp only [Option.some.injEq, Prod.mk.injEq] at hb'
        obtain ⟨rfl, rfl⟩ := hb'
        exact t_pure ⟨by simp, rfl⟩
    obtain ⟨q, q0, q4, hq⟩ := forN_seq hx
    have b0 := hq 0 (by decide)
    have b1 := hq 1 (by decide)
    have b2 := hq 2 (by decide)
    have b3 := hq 3 (by decide)
    simp only [Option.bind_eq_bind, Option.bind_eq_some_iff, rkIdx, q0, q4, Nat.reduceAdd] at b0 b1 b2 b3
    obtain ⟨x0, r0, y0, v0, w0⟩ := b0
    obtain ⟨x1, r1, y1, v1, w1⟩ := b1
    obtain ⟨x2, r2, y2, v2, w2⟩ := b2
    obtain ⟨x3, r3, y3, v3, w3⟩ := b3
    bsimp
    refine t_cdiv (by omega) (t_cmod (by omega) (t_cdiv (by omega) (t_cmod (by omega) ?_)))
    refine t_ld (View.there View.here0) (by rdx r0) (t_ld View.here0 (by rdx v0) (t_st (by hfind1) (by wrx w0) ?_))
    refine t_cdiv (by omega) (t_cmod (by omega) (t_cdiv (by omega) (t_cmod (by omega) ?_)))
    refine t_ld View.here0 (by rdx r1) (t_ld (View.there View.here0) (by rdx v1) (t_st rfl (by wrx w1) ?_))
    refine t_cdiv (by omega) (t_cmod (by omega) (t_cdiv (by omega) (t_cmod (by omega) ?_)))
    refine t_ld View.here0 (by rdx r2) (t_ld (View.there View.here0) (by rdx v2) (t_st rfl (by wrx w2) ?_))
    refine t_cdiv (by omega) (t_cmod (by omega) (t_cdiv (by omega) (t_cmod (by omega) ?_)))
    refine t_ld View.here0 (by rdx r3) (t_ld (View.there View.here0) (by rdx v3) (t_st rfl (by wrx w3) ?_))
    refine t_free (by hfind1) (t_pure ⟨?_, ?_⟩)
    · rw [← hfin]
      simp only [toNat_or]
    · rw [← hfin]

theorem aes_encrypt_run {s bw rounds : Nat} {m m' rk : Mem Byte} {z : Bool} {p : CPtr} (hv : View F p rk)
    (h : aesEncrypt rk m bw rounds = some (m', z)) (hbw : bw = 4 ∨ bw = 6 ∨ bw = 8) (hr : 1 ≤ rounds ∧ rounds < 4294967295) :
    Runs (bl kd s m + F) (Gen.aes_encrypt p (some ⟨s, 0⟩) bw rounds) z.toNat (bl kd s m' + F) := by
  unfold aesEncrypt at h
  inv h
  obtain ⟨m0, h0, ⟨m1, z1⟩, h1, ⟨m2, z2⟩, h2, m3, h3, m4, h4, h5⟩ := h
  simp only [Prod.mk.injEq] at h5
  obtain ⟨rfl, rfl⟩ := h5
  obtain ⟨g, g0, gn, hg⟩ := forR_seq h1
  unfold Gen.aes_encrypt
  refine t_run rfl (add_round_key_run hv h0 (by omega)) ?_
  refine t_while (rounds - 1) (fun i => ((g i).2.toNat, 1 + i)) (fun i => bl kd s (g i).1 + F) (by omega) (by rw [g0]; rfl)
    (by rw [g0]) (fun i hi => by simp; omega) (by simp; omega) (fun i hi => ?_) ?_
  · have hb := hg i hi
    unfold aesRound at hb
    inv hb
    obtain ⟨⟨n1, y⟩, h1, n2, h2, n3, h3, n4, h4, hb⟩ := hb
    refine t_run rfl (sub_bytes_run h1 (by omega)) ?_
    refine t_run rfl (shift_row_run h2 hbw) ?_
    refine t_run rfl (mix_column_run h3 (by omega)) ?_
    refine t_run rfl (add_round_key_run hv h4 (by omega)) ?_
    refine t_pure ⟨?_, by rw [← hb]⟩
    rw [← hb]
    simp only [toNat_or, Prod.mk.injEq, true_and]
    omega
  · rw [gn]
    refine t_run rfl (sub_bytes_run h2 (by omega)) ?_
    refine t_run rfl (shift_row_run h3 hbw) ?_
    refine t_run rfl (add_round_key_run hv h4 (by omega)) ?_
    exact t_pure ⟨by simp only [toNat_or], rfl⟩

end

end Faest.C
