/-
faest_aes.c, translated: the functions shared by the copies.
-/
import Verif.Proofs.Gen.FaLib
import Verif.Model.Flat

namespace Faest.C

section
variable {D F : Blocks} {kd : Kind} {P : Params}

/-- The sizes which occur in the key schedule on bytes. -/
structure KsP (P : Params) : Prop where
  nwd : 4 ≤ P.Nwd ∧ P.Nwd ≤ 8
  lam : P.lambda = 32 * P.Nwd
  r : 10 ≤ P.R ∧ P.R ≤ 14
  ske : P.Ske ≤ 64

theorem ksForward1_bound {x : Mem Byte} {N lo : Nat} {g : Nat → Mem Byte × Nat}
    (hg : ∀ i, i < N → ksForward1Step P x (lo + i) (g i) = some (g (i + 1))) :
    ∀ i, i ≤ N → (g i).2 ≤ (g 0).2 + 32 * i := by
  intro i
  induction i with
  | zero => intro _; omega
  | succ i ih =>
    intro hi
    have h1 := ih (by omega)
    have hb := hg i (by omega)
    unfold ksForward1Step at hb
    split at hb <;> inv hb
    · obtain ⟨_, -, _, -, e⟩ := hb; rw [← e]; simp only; omega
    · obtain ⟨_, -, e⟩ := hb; rw [← e]; simp only; omega

theorem ksForward_bound {n : Nat} {x : Mem (BF n)} {N lo : Nat} {g : Nat → Mem (BF n) × Nat}
    (hg : ∀ i, i < N → ksForwardStep P x (lo + i) (g i) = some (g (i + 1))) :
    ∀ i, i ≤ N → (g i).2 ≤ (g 0).2 + 32 * i := by
  intro i
  induction i with
  | zero => intro _; omega
  | succ i ih =>
    intro hi
    have h1 := ih (by omega)
    have hb := hg i (by omega)
    unfold ksForwardStep at hb
    split at hb <;> inv hb
    · obtain ⟨_, -, _, -, e⟩ := hb; rw [← e]; simp only; omega
    · obtain ⟨_, -, e⟩ := hb; rw [← e]; simp only; omega

/-- The sizes of one copy of the AES functions. -/
structure AesP (P : Params) (lam nwd r ske senc lke lenc l beta : Nat) : Prop where
  lam : P.lambda = lam
  nwd : P.Nwd = nwd
  r : P.R = r
  ske : P.Ske = ske
  senc : P.Senc = senc
  lke : P.Lke = lke
  lenc : P.Lenc = lenc
  l : P.l = l
  beta : P.beta = beta

/-- `aes_key_schedule_forward_1`. -/
theorem ks_forward_1_run {s : Nat} {x m m' : Mem Byte} {px : CPtr} (hP : KsP P) (hx : View F px x)
    (h : ksForward1 P x m = some m') :
    Runs (bl kd s m + F) (Gen.aes_key_schedule_forward_1 px (some ⟨s, 0⟩) P) () (bl kd s m' + F) := by
  unfold ksForward1 at h
  inv h
  obtain ⟨k, hk, m1, h1, m2, h2, ⟨m3, iw⟩, h3, rfl⟩ := h
  obtain ⟨g, g0, gN, hg⟩ := forR_seq h3
  obtain ⟨⟨n1, n2⟩, hl, ⟨r1, r2⟩, -⟩ := hP
  have hbd := ksForward1_bound hg
  rw [g0] at hbd
  unfold Gen.aes_key_schedule_forward_1
  refine t_memcpy rfl hx (by omega) hk h1 ?_
  nowrap
  refine t_memset0 rfl (by rw [Nat.zero_add]; exact h2) ?_
  refine t_while (4 * (P.R + 1) - P.Nwd) (fun i => ((g i).2, P.Nwd + i)) (fun i => bl kd s (g i).1 + F) (by omega)
    (by rw [g0]; rfl) (by rw [g0]) (fun i hi => by simp; omega) (by simp; omega) (fun i hi => ?_) ?_
  · have hb := hg i hi
    have hbi := hbd i (by omega)
    have hbj := hbd (i + 1) (by omega)
    simp only at hbi hbj
    refine t_cmod (by omega) (t_cmod (by omega) ?_)
    refine t_run (b := (g (i + 1)).2) (E := bl kd s (g (i + 1)).1 + F) rfl ?_ (t_pure ⟨?_, rfl⟩)
    · unfold ksForward1Step at hb
      by_cases hc : (P.Nwd + i) % P.Nwd = 0 ∨ (P.Nwd > 6 ∧ (P.Nwd + i) % P.Nwd = 4)
      · rw [if_pos hc]
        rw [if_pos hc] at hb
        inv hb
        obtain ⟨wd, hwd, o, ho, e⟩ := hb
        nowrap
        refine t_memcpy rfl hx.padd (by decide) (rdN_at hwd) (by rw [Nat.zero_add]; exact ho) (t_pure ⟨?_, by rw [← e]⟩)
        rw [← e]
      · rw [if_neg hc]
        rw [if_neg hc] at hb
        inv hb
        obtain ⟨o, ho, e⟩ := hb
        obtain ⟨f, f0, f4, hf⟩ := forN_seq ho
        refine t_while 4 (fun r => 8 * r) (fun r => bl kd s (f r) + F) (by decide) rfl (by rw [f0])
          (fun r hr => by simp; omega) rfl (fun r hr => ?_) ?_
        · have hb := hf r hr
          inv hb
          obtain ⟨x1, hx1, x2, hx2, x3, hx3, hw⟩ := hb
          nowrap
          refine t_ld View.here0 hx1 (t_ld View.here0 (by rdx hx2) (t_ld View.here0 (by rdx hx3) ?_))
          refine t_st rfl (by bsimp; rw [Nat.zero_add]; exact hw) (t_pure ⟨by omega, rfl⟩)
        · rw [f4, ← e]; exact t_pure ⟨rfl, rfl⟩
    · nowrap
      first | rfl | trivial
  · rw [gN]; exact t_pure ⟨trivial, rfl⟩

theorem invAff_byte (x : Byte) :
    BitVec.ofNat 8 ((BitVec.ofNat 8 ((((rotr8 x 7).toNat) ^^^ ((rotr8 x 5).toNat)) ^^^ ((rotr8 x 2).toNat)) : Byte).toNat ^^^ 5) = invAffineByte x := by
  unfold invAffineByte
  bsimp
  rfl

theorem invAff_byte' (x : Byte) :
    BitVec.ofNat 8 ((((rotr8 x 7).toNat ^^^ ((rotr8 x 5).toNat)) ^^^ ((rotr8 x 2).toNat)) ^^^ 5) = invAffineByte x := by
  unfold invAffineByte
  bsimp
  rfl

theorem invAff_byte'' (x : Byte) :
    BitVec.ofNat 8 ((BitVec.ofNat 8 ((BitVec.ofNat 8 (((rotr8 x 7).toNat ^^^ ((rotr8 x 5).toNat)) ^^^ ((rotr8 x 2).toNat)) : Byte).toNat ^^^
      (((1 ^^^ (0 : Byte).toNat) &&& (1 ^^^ (0 : Byte).toNat)) <<< 0)) : Byte).toNat ^^^
      (((1 ^^^ (0 : Byte).toNat) &&& (1 ^^^ (0 : Byte).toNat)) <<< 2)) = invAffineByte x := by
  revert x; decide

theorem mask0 (x : Byte) :
    BitVec.ofNat 8 (x.toNat &&& ((4294967296 - ((1 ^^^ (0 : Byte).toNat) &&& (1 ^^^ (0 : Byte).toNat))) % 4294967296)) = x := by
  revert x; decide

theorem ird_eq {c r : Nat} (hc : c < 4) (hr : r < 4) :
    ((((c + 4294967296 - r) % 4294967296) + 4) % 4294967296) % 4 = (c + 4 - r) % 4 := by omega

theorem Rcon_eq : Gen.Rcon = roundConstants := by decide

/-- Bounds on the counters of the inverse key schedule. -/
theorem ksBwd_next {lam unit j : Nat} {s : KsBwd} {u : Bool} (hc : s.c < 4) (hi : s.iwd ≤ 192 * j) (hr : s.ircon ≤ j) :
    (s.next lam unit u).c < 4 ∧ (s.next lam unit u).iwd ≤ 192 * (j + 1) ∧ (s.next lam unit u).ircon ≤ j + 1 := by
  have h1 : 192 / unit ≤ 192 := Nat.div_le_self ..
  have h2 : 128 / unit ≤ 192 := Nat.le_trans (Nat.div_le_self ..) (by decide)
  unfold KsBwd.next
  split_ifs <;> simp only <;> omega

/-- `aes_key_schedule_backward_1`. -/
theorem ks_backward_1_run {s xo : Nat} {x xk m' : Mem Byte} {px pk : CPtr} (hP : KsP P) (hx : View F px x) (hk : View F pk xk)
    (h : ksBackward1 P x xo xk = some m') :
    Runs (bl kd s (malloc P.Ske : Mem Byte) + F) (Gen.aes_key_schedule_backward_1 (padd px xo) pk (some ⟨s, 0⟩) P) () (bl kd s m' + F) := by
  unfold ksBackward1 at h
  inv h
  obtain ⟨⟨m1, st1⟩, h1, rfl⟩ := h
  obtain ⟨g, g0, gN, hg⟩ := forN_seq h1
  obtain ⟨-, hl, -, hs⟩ := hP
  have hbd : ∀ j, j ≤ P.Ske → (g j).2.c < 4 ∧ (g j).2.iwd ≤ 192 * j ∧ (g j).2.ircon ≤ j := by
    intro j
    induction j with
    | zero => intro _; rw [g0]; simp
    | succ j ih =>
      intro hj
      obtain ⟨b1, b2, b3⟩ := ih (by omega)
      have hb := hg j (by omega)
      unfold ksBackward1Step at hb
      inv hb
      obtain ⟨_, -, _, -, _, -, _, -, e⟩ := hb
      rw [← e]
      exact ksBwd_next b1 b2 b3
  unfold Gen.aes_key_schedule_backward_1
  refine t_while P.Ske (fun j => ((g j).2.iwd, (g j).2.c, (g j).2.rmvRcon, (g j).2.ircon, j)) (fun j => bl kd s (g j).1 + F) (by omega)
    (by rw [g0]) (by rw [g0]) (fun i hi => by simpa using hi) (by simp) (fun i hi => ?_) ?_
  · have hb := hg i hi
    obtain ⟨b1, b2, b3⟩ := hbd i (by omega)
    unfold ksBackward1Step at hb
    inv hb
    obtain ⟨a, ha, b, hb', xt, hxt, o, ho, e⟩ := hb
    have e1 : (g (i + 1)).1 = o := by rw [← e]
    have e2 : (g (i + 1)).2 = (g i).2.next P.lambda 8 ((g i).2.rmvRcon && ((g i).2.c == 0)) := by rw [← e]
    rw [e1, e2]
    generalize (g i).2 = c at *
    obtain ⟨iwd, cc, rmv, irc⟩ := c
    simp only at *
    nowrap
    refine t_ld (View.there hx.padd) (by rw [rd_drop]; exact ha) (t_ld (View.there hk) hb' ?_)
    bsimp
    refine t_run (b := (if rmv && (cc == 0) then irc + 1 else irc, xt)) (E := bl kd s (g i).1 + F) rfl ?_ ?_
    · unfold ksRcon1 at hxt
      by_cases hc : rmv = true ∧ cc = 0
      · obtain ⟨rfl, rfl⟩ := hc
        simp only [and_self, if_true, BEq.rfl, Bool.and_self] at hxt ⊢
        inv hxt
        obtain ⟨r, hr, rfl⟩ := hxt
        rw [Rcon_eq]
        exact t_tget hr (t_pure ⟨rfl, rfl⟩)
      · rw [if_neg hc]
        have hcc : (rmv && (cc == 0)) = false := by
          revert hc; cases rmv <;> simp
        rw [hcc] at hxt ⊢
        simp only [Bool.false_eq_true, if_false, Option.pure_def, Option.some.injEq] at hxt
        rw [hxt]
        exact t_pure ⟨rfl, rfl⟩
    simp only
    refine t_st rfl (by rw [Nat.zero_add]; exact ho) ?_
    unfold KsBwd.next
    by_cases h4 : cc + 1 = 4
    · rw [if_pos h4]
      by_cases h192 : P.lambda = 192
      · simp only [if_pos h192, if_pos h4]
        refine t_assoc (t_pbind (t_pbind (t_pure ⟨?_, rfl⟩)))
        rfl
      · simp only [if_neg h192, if_pos h4]
        by_cases h256 : P.lambda = 256
        · simp only [if_pos h256]
          refine t_assoc (t_assoc (t_pbind (t_pbind (t_pbind (t_pure ⟨?_, rfl⟩)))))
          cases rmv <;> rfl
        · simp only [if_neg h256]
          refine t_assoc (t_assoc (t_pbind (t_pbind (t_pbind (t_pure ⟨?_, rfl⟩)))))
          rfl
    · rw [if_neg h4]
      simp only [if_neg h4]
      exact t_pbind (t_pure ⟨rfl, rfl⟩)
  · rw [gN]; exact t_pure ⟨rfl, rfl⟩

/-- The columns `v[0], v[1], …` are `stride` bytes apart. -/
def Cols (D : Blocks) (p base : CPtr) (stride cnt : Nat) : Prop :=
  ∃ μ : Mem CPtr, View D p μ ∧ ∀ i, i < cnt → rd μ i = some (padd base (i * stride))

theorem Cols.there {E : Blocks} {p base : CPtr} {stride cnt : Nat} (h : Cols D p base stride cnt) : Cols (E + D) p base stride cnt := by
  obtain ⟨μ, hv, h⟩ := h
  exact ⟨μ, hv.there, h⟩

theorem getBit_nat (b : Byte) (i : Nat) : BitVec.ofNat 8 ((b.toNat >>> i) &&& 1) = getBit b i := by
  unfold getBit
  bsimp
  rfl

/-- `column_to_row_major_and_shrink_V_128`. -/
theorem col_to_row_128_run {p base : CPtr} {v : Mem Byte} {stride ell : Nat} {w : Mem (BF 128)} (hc : Cols D p base stride 128)
    (hb : View D base v) (he : ell < 65536) (h : Flat.columnToRowMajor 128 v stride ell = some w) :
    T D (Gen.column_to_row_major_and_shrink_V_128 p ell) (fun r D' => ∃ b, r = some ⟨b, 0⟩ ∧ D' = bl .aligned b w + D) := by
  unfold Flat.columnToRowMajor at h
  obtain ⟨l, rfl, hl, hrow⟩ := fill_some h
  obtain ⟨μ, hμ, hcol⟩ := hc
  unfold Gen.column_to_row_major_and_shrink_V_128
  nowrap
  refine t_alloc fun b => ?_
  refine t_fill0 l rfl hl (by omega) (fun i hi => decide_eq_decide.2 (by omega)) (fun row x hr hx hw => ?_) (t_pure ⟨b, rfl, rfl⟩)
  have hb' := hrow row x hr hx
  inv hb'
  obtain ⟨nr, hnr, hld⟩ := hb'
  obtain ⟨g, g0, gN, hg⟩ := forN_seq hnr
  refine t_alloc fun t => ?_
  refine t_while 128 (fun i => i) (fun i => bl .stack t (g i) + (bl .aligned b (W (malloc (ell + 128)) 0 (l.take row)) + D)) (by decide) rfl
    (by rw [g0]; rfl) (fun i hi => by simp; omega) (by simp) (fun i hi => ?_) ?_
  · have hb' := hg i hi
    unfold ptrGetBit ptrSetBit at hb'
    inv hb'
    obtain ⟨col, hcl, _, ⟨y, hy, rfl⟩, z, hz, hw'⟩ := hb'
    refine t_ld View.here0 hz ?_
    refine t_ld (View.there (View.there hμ)) (hcol i hi) ?_
    refine t_ld (View.there (View.there (hb.ptr hcl))) hy ?_
    refine t_st rfl (by bsimp; rw [Nat.zero_add]; exact hw') (t_pure ⟨by omega, rfl⟩)
  rw [gN]
  refine t_bf_load0 (by decide) View.here0 hld ?_
  refine t_st (by hfind1) hw (t_free (by hfind1) (t_pure ⟨by omega, rfl⟩))

/-- `column_to_row_major_and_shrink_V_192`. -/
theorem col_to_row_192_run {p base : CPtr} {v : Mem Byte} {stride ell : Nat} {w : Mem (BF 192)} (hc : Cols D p base stride 192)
    (hb : View D base v) (he : ell < 65536) (h : Flat.columnToRowMajor 192 v stride ell = some w) :
    T D (Gen.column_to_row_major_and_shrink_V_192 p ell) (fun r D' => ∃ b, r = some ⟨b, 0⟩ ∧ D' = bl .aligned b w + D) := by
  unfold Flat.columnToRowMajor at h
  obtain ⟨l, rfl, hl, hrow⟩ := fill_some h
  obtain ⟨μ, hμ, hcol⟩ := hc
  unfold Gen.column_to_row_major_and_shrink_V_192
  nowrap
  refine t_alloc fun b => ?_
  refine t_fill0 l rfl hl (by omega) (fun i hi => decide_eq_decide.2 (by omega)) (fun row x hr hx hw => ?_) (t_pure ⟨b, rfl, rfl⟩)
  have hb' := hrow row x hr hx
  inv hb'
  obtain ⟨nr, hnr, hld⟩ := hb'
  obtain ⟨g, g0, gN, hg⟩ := forN_seq hnr
  refine t_alloc fun t => ?_
  refine t_while 192 (fun i => i) (fun i => bl .stack t (g i) + (bl .aligned b (W (malloc (ell + 192)) 0 (l.take row)) + D)) (by decide) rfl
    (by rw [g0]; rfl) (fun i hi => by simp; omega) (by simp) (fun i hi => ?_) ?_
  · have hb' := hg i hi
    unfold ptrGetBit ptrSetBit at hb'
    inv hb'
    obtain ⟨col, hcl, _, ⟨y, hy, rfl⟩, z, hz, hw'⟩ := hb'
    refine t_ld View.here0 hz ?_
    refine t_ld (View.there (View.there hμ)) (hcol i hi) ?_
    refine t_ld (View.there (View.there (hb.ptr hcl))) hy ?_
    refine t_st rfl (by bsimp; rw [Nat.zero_add]; exact hw') (t_pure ⟨by omega, rfl⟩)
  rw [gN]
  refine t_bf_load0 (by decide) View.here0 hld ?_
  refine t_st (by hfind1) hw (t_free (by hfind1) (t_pure ⟨by omega, rfl⟩))

/-- `column_to_row_major_and_shrink_V_256`. -/
theorem col_to_row_256_run {p base : CPtr} {v : Mem Byte} {stride ell : Nat} {w : Mem (BF 256)} (hc : Cols D p base stride 256)
    (hb : View D base v) (he : ell < 65536) (h : Flat.columnToRowMajor 256 v stride ell = some w) :
    T D (Gen.column_to_row_major_and_shrink_V_256 p ell) (fun r D' => ∃ b, r = some ⟨b, 0⟩ ∧ D' = bl .aligned b w + D) := by
  unfold Flat.columnToRowMajor at h
  obtain ⟨l, rfl, hl, hrow⟩ := fill_some h
  obtain ⟨μ, hμ, hcol⟩ := hc
  unfold Gen.column_to_row_major_and_shrink_V_256
  nowrap
  refine t_alloc fun b => ?_
  refine t_fill0 l rfl hl (by omega) (fun i hi => decide_eq_decide.2 (by omega)) (fun row x hr hx hw => ?_) (t_pure ⟨b, rfl, rfl⟩)
  have hb' := hrow row x hr hx
  inv hb'
  obtain ⟨nr, hnr, hld⟩ := hb'
  obtain ⟨g, g0, gN, hg⟩ := forN_seq hnr
  refine t_alloc fun t => ?_
  refine t_while 256 (fun i => i) (fun i => bl .stack t (g i) + (bl .aligned b (W (malloc (ell + 256)) 0 (l.take row)) + D)) (by decide) rfl
    (by rw [g0]; rfl) (fun i hi => by simp; omega) (by simp) (fun i hi => ?_) ?_
  · have hb' := hg i hi
    unfold ptrGetBit ptrSetBit at hb'
    inv hb'
    obtain ⟨col, hcl, _, ⟨y, hy, rfl⟩, z, hz, hw'⟩ := hb'
    refine t_ld View.here0 hz ?_
    refine t_ld (View.there (View.there hμ)) (hcol i hi) ?_
    refine t_ld (View.there (View.there (hb.ptr hcl))) hy ?_
    refine t_st rfl (by bsimp; rw [Nat.zero_add]; exact hw') (t_pure ⟨by omega, rfl⟩)
  rw [gN]
  refine t_bf_load0 (by decide) View.here0 hld ?_
  refine t_st (by hfind1) hw (t_free (by hfind1) (t_pure ⟨by omega, rfl⟩))

end

end Faest.C
