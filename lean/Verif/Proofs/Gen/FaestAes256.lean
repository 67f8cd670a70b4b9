/-
faest_aes.c, translated: the functions of the copy for 256-bit fields.
-/
import Verif.Proofs.Gen.FaQ

namespace Faest.C

section
variable {D F : Blocks} {kd kd' : Kind} {P : Params}

/-- `aes_key_schedule_forward_256`. -/
theorem ks_forward_256_run {s : Nat} {v m m' : Mem (BF 256)} {pv : CPtr} (hP : AesP P 256 8 14 52 224 672 1664 4000 2) (hv : View F pv v)
    (h : ksForward P v m = some m') :
    Runs (bl kd s m + F) (Gen.aes_key_schedule_forward_256 pv (some ⟨s, 0⟩)) () (bl kd s m' + F) := by
  unfold ksForward at h
  simp only [hP.lam, hP.nwd, hP.r, Nat.reduceAdd, Nat.reduceMul] at h
  inv h
  obtain ⟨k, hk, m1, h1, ⟨m3, iw⟩, h3, rfl⟩ := h
  obtain ⟨g, g0, gN, hg⟩ := forR_seq h3
  have hbd := ksForward_bound hg
  rw [g0] at hbd
  simp only [Nat.reduceSub] at hbd gN hg
  unfold Gen.aes_key_schedule_forward_256
  refine t_memcpy rfl hv (by omega) hk h1 ?_
  refine t_while 52 (fun i => ((g i).2, 8 + i)) (fun i => bl kd s (g i).1 + F) (by decide)
    (by rw [g0]) (by rw [g0]) (fun i hi => by simp; omega) (by simp) (fun i hi => ?_) ?_
  · have hb := hg i hi
    have hbi := hbd i (by omega)
    have hbj := hbd (i + 1) (by omega)
    refine t_run (b := (g (i + 1)).2) (E := bl kd s (g (i + 1)).1 + F) rfl ?_ (t_pure ⟨?_, rfl⟩)
    · unfold ksForwardStep at hb
      simp only [hP.nwd] at hb
      by_cases hc : (8 + i) % 8 = 0 ∨ (8 > 6 ∧ (8 + i) % 8 = 4)
      · rw [if_pos hc]
        rw [if_pos hc] at hb
        inv hb
        obtain ⟨wd, hwd, o, ho, e⟩ := hb
        nowrap
        refine t_memcpy rfl hv.padd (by decide) (rdN_at hwd) (by rw [Nat.zero_add]; exact ho) (t_pure ⟨?_, by rw [← e]⟩)
        rw [← e]
      · rw [if_neg hc]
        rw [if_neg hc] at hb
        inv hb
        obtain ⟨o, ho, e⟩ := hb
        obtain ⟨f, f0, f4, hf⟩ := forN_seq ho
        refine t_while 32 (fun r => r) (fun r => bl kd s (f r) + F) (by decide) rfl (by rw [f0])
          (fun r hr => by simp; omega) rfl (fun r hr => ?_) ?_
        · have hb := hf r hr
          inv hb
          obtain ⟨x1, hx1, x2, hx2, hw⟩ := hb
          nowrap
          refine t_ld View.here0 (by rdx hx1) (t_ld View.here0 (by rdx hx2) ?_)
          refine t_st rfl (by rw [Nat.zero_add]; exact hw) (t_pure ⟨by omega, rfl⟩)
        · rw [f4, ← e]; exact t_pure ⟨rfl, rfl⟩
    · nowrap
      first
        | rfl
        | trivial
  · rw [gN]; exact t_pure ⟨by trivial, rfl⟩

/-- `aes_key_schedule_backward_256`. -/
theorem ks_backward_256_run {s vo : Nat} {v vk m' : Mem (BF 256)} {pv pk dp : CPtr} {mtag mkey : Byte} {d : Option (Mem Byte)}
    (hP : AesP P 256 8 14 52 224 672 1664 4000 2) (hv : View F pv v) (hk : View F pk vk) (hd : DeltaV F dp d)
    (h : ksBackward P v vo vk mtag mkey d = some m') :
    Runs (bl kd s (malloc 416 : Mem (BF 256)) + F) (Gen.aes_key_schedule_backward_256 (padd pv vo) pk mtag mkey dp (some ⟨s, 0⟩)) ()
      (bl kd s m' + F) := by
  unfold ksBackward at h
  by_cases hc : (mtag = 1 ∧ mkey = 1) ∨ (mkey = 1 ∧ d.isNone)
  · rw [if_pos hc] at h; cases h
  rw [if_neg hc] at h
  simp only [hP.ske, Nat.reduceMul] at h
  inv h
  obtain ⟨bd, hbd', ⟨m1, st1⟩, h1, rfl⟩ := h
  obtain ⟨g, g0, gN, hg⟩ := forN_seq h1
  have hbd : ∀ j, j ≤ 52 → (g j).2.c < 4 ∧ (g j).2.iwd ≤ 192 * j ∧ (g j).2.ircon ≤ j := by
    intro j
    induction j with
    | zero => intro _; rw [g0]; simp
    | succ j ih =>
      intro hj
      obtain ⟨b1, b2, b3⟩ := ih (by omega)
      have hb := hg j (by omega)
      unfold ksBackwardStep at hb
      inv hb
      obtain ⟨_, -, _, -, _, -, _, -, e⟩ := hb
      rw [← e]
      obtain ⟨c1, c2, c3⟩ := ksBwd_next (lam := P.lambda) (unit := 1) (u := (mtag == 0) && (g j).2.rmvRcon && ((g j).2.c == 0)) b1 b2 b3
      exact ⟨c1, c2, c3⟩
  unfold Gen.aes_key_schedule_backward_256
  refine t_assert (by
    simp only [byte_one, hd.isSome]
    rw [decide_eq_true_eq]
    intro hx
    apply hc
    cases d <;> simpa using hx) ?_
  refine t_delta (by decide) hd.there hbd' ?_
  have hmk : bfAdd (bfMulBit bd mkey) (bfFromBit (BitVec.ofNat 8 (1 ^^^ mkey.toNat))) = mkeyFactor bd mkey := by
    unfold mkeyFactor; bsimp; rfl
  have hmt : BitVec.ofNat 8 (1 ^^^ mtag.toNat) = 1 ^^^ mtag := by bsimp; rfl
  simp only [hmk, hmt]
  refine t_while 52 (fun j => ((g j).2.iwd, (g j).2.c, (g j).2.rmvRcon, (g j).2.ircon, j)) (fun j => bl kd s (g j).1 + F) (by decide)
    (by rw [g0]) (by rw [g0]) (fun i hi => by simpa using hi) (by simp) (fun i hi => ?_) ?_
  · have hb := hg i hi
    obtain ⟨b1, b2, b3⟩ := hbd i (by omega)
    unfold ksBackwardStep at hb
    inv hb
    obtain ⟨xt, hxt, xt', hxt', y, hy, o, ho, e⟩ := hb
    have e1 : (g (i + 1)).1 = o := by rw [← e]
    have e2 : (g (i + 1)).2 = (g i).2.next P.lambda 1 ((mtag == 0) && (g i).2.rmvRcon && ((g i).2.c == 0)) := by rw [← e]
    rw [e1, e2]
    generalize (g i).2 = c at *
    obtain ⟨iwd, cc, rmv, irc⟩ := c
    simp only at *
    skip
    obtain ⟨l, rfl, hl, hx⟩ := fill_some hxt
    refine t_alloc fun t => ?_
    nowrap
    refine t_fill0 l rfl hl (by decide) (fun i hi => rfl) (fun r x hr hx' hw => ?_) ?_
    · have hb := hx r x hr hx'
      inv hb
      obtain ⟨a, ha, b, hb, rfl⟩ := hb
      nowrap
      refine t_ld (View.there (View.there hv.padd)) (by rw [rd_drop, ← Nat.add_assoc]; exact ha) (t_ld (View.there (View.there hk)) hb ?_)
      refine t_st rfl hw (t_pure ⟨by omega, rfl⟩)
    refine t_run (b := if (mtag == 0) && rmv && (cc == 0) then irc + 1 else irc) (E := bl .stack t xt' + (bl kd s (g i).1 + F)) rfl ?_ ?_
    · by_cases hu : ((mtag.toNat = 0) ∧ (rmv = true)) ∧ (cc = 0)
      · have hcc : ((mtag == 0) && rmv && (cc == 0)) = true := by
          rw [byte_zero] at hu; simp [hu]
        rw [if_pos hu]
        rw [hcc] at hxt' ⊢
        have hxt2 := hxt'
        unfold ksRconF at hxt2
        rw [if_pos rfl] at hxt2
        inv hxt2
        obtain ⟨r, hr, -⟩ := hxt2
        rw [Rcon_eq]
        refine t_tget hr ?_
        refine t_rcon rfl hr hxt' hl (t_pure ⟨?_, rfl⟩)
        rfl
      · have hcc : ((mtag == 0) && rmv && (cc == 0)) = false := by
          rw [byte_zero] at hu; revert hu; cases rmv <;> simp
        rw [if_neg hu]
        rw [hcc] at hxt' ⊢
        unfold ksRconF at hxt'
        simp only [Bool.false_eq_true, if_false, Option.pure_def, Option.some.injEq] at hxt'
        rw [← hxt']
        exact t_pure ⟨rfl, rfl⟩
    refine t_invaff (μ := xt') (o := 8 * i) (by hfind1) hy ho (by omega) (by omega) (fun i hi => rfl) (fun r m m' hr a b c ha hb hc hw => ?_) ?_
    · nowrap
      refine t_ld (View.there View.here0) (by rdx ha) (t_ld (View.there View.here0) (by rdx hb) (t_ld (View.there View.here0) (by rdx hc) ?_))
      refine t_st rfl (by wrx hw) (t_pure ⟨by omega, rfl⟩)
    unfold KsBwd.next
    by_cases h4 : cc + 1 = 4
    · simp only [if_pos h4, hP.lam]
      refine t_pbind (t_free (by hfind1) (t_pure ⟨?_, rfl⟩))
      cases rmv <;> rfl
    · simp only [if_neg h4]
      refine t_pbind (t_free (by hfind1) (t_pure ⟨?_, rfl⟩))
      rfl
  · rw [gN]; exact t_pure ⟨by trivial, rfl⟩

theorem ksP_256 (hP : AesP P 256 8 14 52 224 672 1664 4000 2) : KsP P :=
  ⟨by rw [hP.nwd]; decide, by rw [hP.lam, hP.nwd], by rw [hP.r]; decide, by rw [hP.ske]; decide⟩

/-- `aes_key_schedule_constraints_Mkey_0_256`. -/
theorem ks_constraints0_256_run {sk sv : Nat} {w k : Mem Byte} {v vk : Mem (BF 256)} {pw pv p p' : CPtr} {c0 c1 c0' c1' : ZkCtx 256}
    (hP : AesP P 256 8 14 52 224 672 1664 4000 2) (hw : View F pw w) (hv : View F pv v)
    (h : ksConstraints0 P w v (c0, c1) = some ((c0', c1'), k, vk)) :
    Runs (bl kd sk (malloc 240 : Mem Byte) + (bl kd' sv (malloc 1920 : Mem (BF 256)) + F))
      (Gen.aes_key_schedule_constraints_Mkey_0_256 pw pv (zc c0 p) (zc c1 p') (some ⟨sk, 0⟩) (some ⟨sv, 0⟩) P) (zc c0' p, zc c1' p')
      (bl kd sk k + (bl kd' sv vk + F)) := by
  unfold ksConstraints0 at h
  inv h
  simp only [hP.lam, hP.nwd, hP.r, hP.ske, Nat.reduceAdd, Nat.reduceMul, Nat.reduceDiv, Nat.reduceSub] at h
  obtain ⟨k', h1, vk', h2, wd, h3, vwd, h4, ⟨cc, iw, rt⟩, h5, e⟩ := h
  obtain ⟨rfl, rfl, rfl⟩ : cc = (c0', c1') ∧ k' = k ∧ vk' = vk := by simpa using e
  obtain ⟨g, g0, gN, hg⟩ := forN_seq h5
  have hbd : ∀ j, j ≤ 13 → (g j).2.1 = 224 + 128 * j := by
    intro j
    induction j with
    | zero => intro _; simp [g0]
    | succ j ih =>
      intro hj
      have b := ih (by omega)
      have hb := hg j (by omega)
      unfold ksConstr0Step at hb
      inv hb
      obtain ⟨_, -, _, -, _, -, _, -, _, -, e⟩ := hb
      rw [← e]
      simp only [hP.lam, iwdStep, Nat.reduceEqDiff, if_false, if_true]
      omega
  unfold Gen.aes_key_schedule_constraints_Mkey_0_256
  refine t_assert (by rw [hP.ske]; rfl) ?_
  refine t_run rfl (ks_forward_1_run (ksP_256 hP) (View.there hw) h1) ?_
  refine t_run (by hfind1) (ks_forward_256_run hP (View.there hv) h2) ?_
  refine t_alloc fun bw => ?_
  refine t_run (D' := bl .stack bw (malloc 52 : Mem Byte) + _) rfl (by
    have := ks_backward_1_run (kd := .stack) (s := bw) (ksP_256 hP) (F := bl kd' sv vk' + (bl kd sk k' + F)) (px := pw) (pk := some ⟨sk, 0⟩) (by hview) (by hview) h3
    rw [hP.ske] at this
    exact this) ?_
  refine t_alloc fun bv => ?_
  refine t_run (D' := bl .stack bv (malloc 416 : Mem (BF 256)) + _) rfl (ks_backward_256_run hP (v := v) (vk := vk') (by hview) (by hview) (d := none) rfl h4) ?_
  refine t_while 13 (fun j => (zc (g j).1.1 p, zc (g j).1.2 p', (g j).2.2, (g j).2.1, j)) (fun j => bl .stack bv vwd + (bl .stack bw wd + (bl kd' sv vk' + (bl kd sk k' + F)))) (by decide)
    (by rw [g0]) rfl (fun i hi => by simpa using hi) (by simp) (fun i hi => ?_) ?_
  · have hb := hg i hi
    have b1 := hbd i (by omega)
    unfold ksConstr0Step at hb
    inv hb
    simp only [hP.lam, iwdStep, Nat.reduceEqDiff, if_false, if_true] at hb
    obtain ⟨kh, hkh, vkh, hvkh, wh, hwh, vwh, hvwh, ⟨x0, x1⟩, hx, e⟩ := hb
    rw [← e]
    generalize g i = c at *
    obtain ⟨⟨y0, y1⟩, iwd, rot⟩ := c
    simp only at *
    obtain ⟨f1, f10, f1N, hf1⟩ := forN_seq hkh
    obtain ⟨f2, f20, f2N, hf2⟩ := forN_seq hvkh
    obtain ⟨l3, rfl, hl3, hx3⟩ := fill_some hwh
    obtain ⟨l4, rfl, hl4, hx4⟩ := fill_some hvwh
    obtain ⟨z, z0, zN, hz⟩ := forN_seq hx
    refine t_alloc fun q1 => t_alloc fun q2 => t_alloc fun q3 => t_alloc fun q4 => ?_
    refine t_while 4 (fun r => r) (fun r => bl .stack q4 (W (malloc 4) 0 (l4.take r)) + (bl .stack q3 (W (malloc 4) 0 (l3.take r)) +
      (bl .stack q2 (f2 r) + (bl .stack q1 (f1 r) + (bl .stack bv vwd + (bl .stack bw wd + (bl kd' sv vk' + (bl kd sk k' + F)))))))) (by decide) rfl
      (by rw [f10, f20, W_take_zero, W_take_zero]) (fun r hr => by simp; omega) rfl (fun r hr => ?_) ?_
    · have a1 := hf1 r hr
      have a2 := hf2 r hr
      have e3 : l3[r]? = some l3[r] := List.getElem?_eq_getElem (by omega)
      have e4 : l4[r]? = some l4[r] := List.getElem?_eq_getElem (by omega)
      have a3 := hx3 r _ hr e3
      have a4 := hx4 r _ hr e4
      have w3 := wr_W (m := (malloc 4 : Mem (BF 256))) (o := 0) (by simp [malloc, hl3]) e3
      have w4 := wr_W (m := (malloc 4 : Mem (BF 256))) (o := 0) (by simp [malloc, hl4]) e4
      inv a1
      inv a2
      inv a3
      obtain ⟨kb, a1, kb', a1', u1⟩ := a1
      obtain ⟨ke, a2, u2⟩ := a2
      obtain ⟨wb, a3, a3'⟩ := a3
      have hm : (r + 3) % 4 < 4 := Nat.mod_lt _ (by decide)
      refine t_run (b := ()) (E := bl .stack q4 (W (malloc 4) 0 (l4.take (r + 1))) + (bl .stack q3 (W (malloc 4) 0 (l3.take (r + 1))) +
        (bl .stack q2 (f2 (r + 1)) + (bl .stack q1 (f1 (r + 1)) + (bl .stack bv vwd + (bl .stack bw wd + (bl kd' sv vk' + (bl kd sk k' + F)))))))) rfl ?_ (t_pure ⟨by omega, rfl⟩)
      cases rot
      · rw [if_neg (by decide)]
        nowrap
        refine t_ld (by hview) a1 (t_bcb a1' (t_st (by hfind1) (by rw [Nat.zero_add]; exact u1) ?_))
        refine t_bc (by hview) a2 (t_st (by hfind1) (by rw [Nat.zero_add]; exact u2) ?_)
        refine t_ld (by hview) (by rdx a3) (t_bcb a3' (t_st (by hfind1) (by wrx w3) ?_))
        refine t_bc (by hview) a4 (t_st (by hfind1) (by wrx w4) ?_)
        refine t_pure ⟨rfl, by hfind⟩
      rw [if_pos rfl]
      nowrap
      refine t_ld (by hview) a1 (t_bcb a1' (t_st (by hfind1) (by rw [Nat.zero_add]; exact u1) ?_))
      refine t_bc (by hview) a2 (t_st (by hfind1) (by rw [Nat.zero_add]; exact u2) ?_)
      refine t_ld (by hview) (by rdx a3) (t_bcb a3' (t_st (by hfind1) (by wrx w3) ?_))
      refine t_bc (by hview) a4 (t_st (by hfind1) (by wrx w4) ?_)
      refine t_pure ⟨by trivial, by hfind⟩
    rw [f1N, f2N, W_take_full _ _ _ (by omega), W_take_full _ _ _ (by omega), W_fresh hl3, W_fresh hl4]
    refine t_while 4 (fun r => (zc (z r).1 p, zc (z r).2 p', r)) (fun r => bl .stack q4 (ofList l4) + (bl .stack q3 (ofList l3) +
      (bl .stack q2 vkh + (bl .stack q1 kh + (bl .stack bv vwd + (bl .stack bw wd + (bl kd' sv vk' + (bl kd sk k' + F)))))))) (by decide) (by rw [z0])
      rfl (fun r hr => by simp; omega) rfl (fun r hr => ?_) ?_
    · have a1 := hz r hr
      inv a1
      obtain ⟨t1, u1, t2, u2, t3, u3, t4, u4, e⟩ := a1
      rw [← e]
      refine t_ld (by hview) u2 (t_ld (by hview) u4 ?_)
      refine t_run rfl zk_hash_256_update_run ?_
      refine t_ld (by hview) u1 (t_ld (by hview) u2 (t_ld (by hview) u3 (t_ld (by hview) u4 ?_)))
      refine t_run rfl zk_hash_256_update_run ?_
      nowrap
      refine t_pure ⟨rfl, rfl⟩
    rw [zN]
    nowrap
    refine t_free rfl (t_free rfl (t_free rfl (t_free rfl (t_pure ⟨?_, rfl⟩))))
    cases rot <;> rfl
  · rw [gN]
    refine t_free rfl (t_free rfl (t_pure ⟨rfl, ?_⟩))
    hfind

/-- `aes_key_schedule_constraints_Mkey_1_256`. -/
theorem ks_constraints1_256_run {sv : Nat} {d : Mem Byte} {v vk : Mem (BF 256)} {pv p dp : CPtr} {c0 c0' : ZkCtx 256}
    (hP : AesP P 256 8 14 52 224 672 1664 4000 2) (hv : View F pv v) (hd : View F dp d)
    (h : ksConstraints1 P v d c0 = some (c0', vk)) :
    Runs (bl kd sv (malloc 1920 : Mem (BF 256)) + F)
      (Gen.aes_key_schedule_constraints_Mkey_1_256 pv dp (zc c0 p) (some ⟨sv, 0⟩)) (zc c0' p) (bl kd sv vk + F) := by
  unfold ksConstraints1 at h
  inv h
  simp only [hP.lam, hP.nwd, hP.r, hP.ske, Nat.reduceAdd, Nat.reduceMul, Nat.reduceDiv, Nat.reduceSub] at h
  obtain ⟨vk', h2, vwd, h4, bd, hbd', ⟨cc, iw, rt⟩, h5, e⟩ := h
  obtain ⟨rfl, rfl⟩ : cc = c0' ∧ vk' = vk := by simpa using e
  obtain ⟨g, g0, gN, hg⟩ := forN_seq h5
  have hbd : ∀ j, j ≤ 13 → (g j).2.1 = 224 + 128 * j := by
    intro j
    induction j with
    | zero => intro _; simp [g0]
    | succ j ih =>
      intro hj
      have b := ih (by omega)
      have hb := hg j (by omega)
      unfold ksConstr1Step at hb
      inv hb
      obtain ⟨_, -, _, -, _, -, e⟩ := hb
      rw [← e]
      simp only [hP.lam, iwdStep, Nat.reduceEqDiff, if_false, if_true]
      omega
  unfold Gen.aes_key_schedule_constraints_Mkey_1_256
  refine t_run (by hfind1) (ks_forward_256_run hP hv h2) ?_
  refine t_alloc fun bv => ?_
  refine t_run (D' := bl .stack bv (malloc 416 : Mem (BF 256)) + _) rfl (ks_backward_256_run hP (v := v) (vk := vk') (by hview) (by hview) (d := some d)
    (DeltaV.there (View.delta hd)) h4) ?_
  refine t_bf_load0 (by decide) (by hview) hbd' ?_
  refine t_while 13 (fun j => (zc (g j).1 p, (g j).2.2, (g j).2.1, j)) (fun j => bl .stack bv vwd + (bl kd sv vk' + F)) (by decide)
    (by rw [g0]) rfl (fun i hi => by simpa using hi) (by simp) (fun i hi => ?_) ?_
  · have hb := hg i hi
    have b1 := hbd i (by omega)
    unfold ksConstr1Step at hb
    inv hb
    simp only [hP.lam, iwdStep, Nat.reduceEqDiff, if_false, if_true] at hb
    obtain ⟨vkh, hvkh, vwh, hvwh, x0, hx, e⟩ := hb
    rw [← e]
    generalize g i = c at *
    obtain ⟨y0, iwd, rot⟩ := c
    simp only at *
    obtain ⟨f2, f20, f2N, hf2⟩ := forN_seq hvkh
    obtain ⟨l4, rfl, hl4, hx4⟩ := fill_some hvwh
    obtain ⟨z, z0, zN, hz⟩ := forN_seq hx
    refine t_alloc fun q2 => t_alloc fun q4 => ?_
    refine t_while 4 (fun r => r) (fun r => bl .stack q4 (W (malloc 4) 0 (l4.take r)) +
      (bl .stack q2 (f2 r) + (bl .stack bv vwd + (bl kd sv vk' + F)))) (by decide) rfl
      (by rw [f20, W_take_zero]) (fun r hr => by simp; omega) rfl (fun r hr => ?_) ?_
    · have a2 := hf2 r hr
      have e4 : l4[r]? = some l4[r] := List.getElem?_eq_getElem (by omega)
      have a4 := hx4 r _ hr e4
      have w4 := wr_W (m := (malloc 4 : Mem (BF 256))) (o := 0) (by simp [malloc, hl4]) e4
      inv a2
      obtain ⟨ke, a2, u2⟩ := a2
      have hm : (r + 3) % 4 < 4 := Nat.mod_lt _ (by decide)
      refine t_run (b := ()) (E := bl .stack q4 (W (malloc 4) 0 (l4.take (r + 1))) +
        (bl .stack q2 (f2 (r + 1)) + (bl .stack bv vwd + (bl kd sv vk' + F)))) rfl ?_ (t_pure ⟨by omega, rfl⟩)
      cases rot
      · rw [if_neg (by decide)]
        nowrap
        refine t_bc (by hview) a2 (t_st (by hfind1) (by rw [Nat.zero_add]; exact u2) ?_)
        refine t_bc (by hview) a4 (t_st (by hfind1) (by wrx w4) ?_)
        refine t_pure ⟨rfl, by hfind⟩
      rw [if_pos rfl]
      nowrap
      refine t_bc (by hview) a2 (t_st (by hfind1) (by rw [Nat.zero_add]; exact u2) ?_)
      refine t_bc (by hview) a4 (t_st (by hfind1) (by wrx w4) ?_)
      refine t_pure ⟨by trivial, by hfind⟩
    rw [f2N, W_take_full _ _ _ (by omega), W_fresh hl4]
    refine t_while 4 (fun r => (zc (z r) p, r)) (fun r => bl .stack q4 (ofList l4) +
      (bl .stack q2 vkh + (bl .stack bv vwd + (bl kd sv vk' + F)))) (by decide) (by rw [z0])
      rfl (fun r hr => by simp; omega) rfl (fun r hr => ?_) ?_
    · have a1 := hz r hr
      inv a1
      obtain ⟨t1, u1, t2, u2, e⟩ := a1
      rw [← e]
      refine t_ld (by hview) u1 (t_ld (by hview) u2 ?_)
      refine t_run rfl zk_hash_256_update_run ?_
      nowrap
      refine t_pure ⟨rfl, rfl⟩
    rw [zN]
    nowrap
    refine t_free rfl (t_free rfl (t_pure ⟨?_, rfl⟩))
    cases rot <;> rfl
  · rw [gN]
    exact t_free rfl (t_pure ⟨rfl, rfl⟩)

/-- `aes_enc_forward_256_1`. -/
theorem enc_forward_1_256_run {s xo ino : Nat} {x xk inp : Mem Byte} {m' : Mem (BF 256)} {px pk pin : CPtr} (hP : AesP P 256 8 14 52 224 672 1664 4000 2)
    (hx : View F px x) (hk : View F pk xk) (hi : View F pin inp) (h : encForward1 256 P x xo xk inp ino = some m') :
    Runs (bl kd s (malloc 224 : Mem (BF 256)) + F)
      (Gen.aes_enc_forward_256_1 (padd px xo) pk (padd pin ino) 0 0 (some ⟨s, 0⟩)) () (bl kd s m' + F) := by
  unfold encForward1 at h
  simp only [hP.r, hP.senc] at h
  inv h
  obtain ⟨m1, h1, two, htwo, three, hthree, h2⟩ := h
  obtain ⟨u, u0, uN, hu⟩ := forN_seq h1
  obtain ⟨g, g0, gN, hg⟩ := forR_seq h2
  simp only [Nat.reduceSub] at gN hg
  unfold Gen.aes_enc_forward_256_1
  refine t_while 16 (fun i => i) (fun i => bl kd s (u i) + F) (by decide) rfl (by rw [u0]) (fun i hi => by simpa using hi) rfl (fun i hi' => ?_) ?_
  · have hb := hu i hi'
    inv hb
    obtain ⟨a, ha, b, hb, c, hc, d, hd, hw⟩ := hb
    refine t_ld (by hview) (by rw [rd_drop]; exact ha) ?_
    simp only [mask0]
    refine t_bcb hb (t_ld (by hview) hc (t_bcb hd (t_st rfl (by wrx hw) (t_pure ⟨by omega, rfl⟩))))
  rw [uN]
  refine t_bcb htwo (t_bcb hthree ?_)
  refine t_while 13 (fun i => 1 + i) (fun i => bl kd s (g i) + F) (by decide) rfl (by rw [g0]) (fun i hi => by simp; omega) rfl (fun i hi' => ?_) ?_
  · obtain ⟨f, f0, fN, hf⟩ := forN_seq (hg i hi')
    refine t_while 4 (fun c => c) (fun c => bl kd s (f c) + F) (by decide) rfl (by rw [f0]) (fun c hc => by simp; omega) rfl (fun c hc => ?_) ?_
    · have hb := hf c hc
      inv hb
      obtain ⟨l, hl, hw⟩ := hb
      obtain ⟨x0, x1, x2, x3, k0, k1, k2, k3, hx', hk', rfl⟩ := mixRead_inv hl
      refine t_alloc fun q1 => t_alloc fun q2 => ?_
      refine t_while 4 (fun r => r) (fun r => bl .stack q2 (W (malloc 4) 0 ([k0, k1, k2, k3].take r)) +
        (bl .stack q1 (W (malloc 4) 0 ([x0, x1, x2, x3].take r)) + (bl kd s (f c) + F))) (by decide) rfl
        (by rw [W_take_zero, W_take_zero]) (fun r hr => by simp; omega) rfl (fun r hr => ?_) ?_
      · have e1 : [x0, x1, x2, x3][r]? = some [x0, x1, x2, x3][r] := List.getElem?_eq_getElem (by simpa using hr)
        have e2 : [k0, k1, k2, k3][r]? = some [k0, k1, k2, k3][r] := List.getElem?_eq_getElem (by simpa using hr)
        have a1 := hx' r _ hr e1
        have a2 := hk' r _ hr e2
        have w1 := wr_W (m := (malloc 4 : Mem (BF 256))) (o := 0) (by simp [malloc]) e1
        have w2 := wr_W (m := (malloc 4 : Mem (BF 256))) (o := 0) (by simp [malloc]) e2
        inv a1
        inv a2
        obtain ⟨y1, a1, b1⟩ := a1
        obtain ⟨y2, a2, b2⟩ := a2
        nowrap
        refine t_ld (by hview) (by rw [rd_drop]; exact a1) (t_bcb b1 (t_st (by hfind1) (by wrx w1) ?_))
        refine t_ld (by hview) a2 (t_bcb b2 (t_st (by hfind1) (by wrx w2) ?_))
        exact t_pure ⟨by trivial, by hfind⟩
      rw [W_take_full _ _ _ (by simp), W_take_full _ _ _ (by simp), W_fresh (N := 4) (l := [k0, k1, k2, k3]) rfl, W_fresh (N := 4) (l := [x0, x1, x2, x3]) rfl]
      nowrap
      refine t_mix_aes (x0 := x0) (x1 := x1) (x2 := x2) (x3 := x3) (k0 := k0) (k1 := k1) (k2 := k2) (k3 := k3) (o := 16 * (1 + i) + 4 * c) (by hfind1) (by hview) (by hview) (by omega) (by omega) (by omega) (by omega) hw ?_
      exact t_free (by hfind1) (t_free (by hfind1) (t_pure ⟨by trivial, by hfind⟩))
    rw [fN]
    exact t_pure ⟨by omega, rfl⟩
  · rw [gN]; exact t_pure ⟨by trivial, rfl⟩

/-- `aes_enc_forward_256`. -/
theorem enc_forward_256_run {s xo ino : Nat} {x xk m' : Mem (BF 256)} {inp : Mem Byte} {px pk pin dp : CPtr} {mtag mkey : Byte}
    {d : Option (Mem Byte)} (hP : AesP P 256 8 14 52 224 672 1664 4000 2)
    (hx : View F px x) (hk : View F pk xk) (hi : View F pin inp) (hd : DeltaV F dp d) (h : encForward P x xo xk inp ino mtag mkey d = some m') :
    Runs (bl kd s (malloc 224 : Mem (BF 256)) + F)
      (Gen.aes_enc_forward_256 (padd px xo) pk (padd pin ino) mtag mkey dp (some ⟨s, 0⟩)) () (bl kd s m' + F) := by
  unfold encForward at h
  simp only [hP.r, hP.senc] at h
  inv h
  obtain ⟨bd, hbd, m1, h1, two, htwo, three, hthree, h2⟩ := h
  obtain ⟨u, u0, uN, hu⟩ := forN_seq h1
  obtain ⟨g, g0, gN, hg⟩ := forR_seq h2
  simp only [Nat.reduceSub] at gN hg
  unfold Gen.aes_enc_forward_256
  refine t_delta (by decide) hd.there hbd ?_
  have hmk : bfAdd (bfMulBit bd mkey) (bfFromBit (BitVec.ofNat 8 (1 ^^^ mkey.toNat))) = mkeyFactor bd mkey := by
    unfold mkeyFactor; bsimp; rfl
  simp only [hmk]
  refine t_while 16 (fun i => i) (fun i => bl kd s (u i) + F) (by decide) rfl (by rw [u0]) (fun i hi => by simpa using hi) rfl (fun i hi' => ?_) ?_
  · have hb := hu i hi'
    inv hb
    obtain ⟨xin, hxin, a, ha, b, hb, hw⟩ := hb
    obtain ⟨l, rfl, hl, hlx⟩ := fill_some hxin
    refine t_alloc fun t => ?_
    refine t_fill0 l rfl hl (by decide) (fun i hi => rfl) (fun r y hr hy hw' => ?_) ?_
    · have hb := hlx r y hr hy
      inv hb
      obtain ⟨z, hz, rfl⟩ := hb
      refine t_ld (by hview) (by rw [rd_drop]; exact hz) (t_cshr (by omega) ?_)
      refine t_st rfl (by
        have : BitVec.ofNat 8 ((1 ^^^ mtag.toNat) &&& ((z.toNat >>> r) &&& 1)) = (1 ^^^ mtag) &&& getBit z r := by
          unfold getBit; bsimp; rfl
        rw [this]; exact hw') (t_pure ⟨by omega, rfl⟩)
    nowrap
    refine t_bc0 (by hview) ha (t_bc (by hview) hb ?_)
    refine t_st (by hfind1) (by wrx hw) (t_free (by hfind1) (t_pure ⟨by trivial, rfl⟩))
  rw [uN]
  refine t_bcb htwo (t_bcb hthree ?_)
  refine t_while 13 (fun i => 1 + i) (fun i => bl kd s (g i) + F) (by decide) rfl (by rw [g0]) (fun i hi => by simp; omega) rfl (fun i hi' => ?_) ?_
  · obtain ⟨f, f0, fN, hf⟩ := forN_seq (hg i hi')
    refine t_while 4 (fun c => c) (fun c => bl kd s (f c) + F) (by decide) rfl (by rw [f0]) (fun c hc => by simp; omega) rfl (fun c hc => ?_) ?_
    · have hb := hf c hc
      inv hb
      obtain ⟨l, hl, hw⟩ := hb
      obtain ⟨x0, x1, x2, x3, k0, k1, k2, k3, hx', hk', rfl⟩ := mixRead_inv hl
      refine t_alloc fun q1 => t_alloc fun q2 => ?_
      refine t_while 4 (fun r => r) (fun r => bl .stack q2 (W (malloc 4) 0 ([k0, k1, k2, k3].take r)) +
        (bl .stack q1 (W (malloc 4) 0 ([x0, x1, x2, x3].take r)) + (bl kd s (f c) + F))) (by decide) rfl
        (by rw [W_take_zero, W_take_zero]) (fun r hr => by simp; omega) rfl (fun r hr => ?_) ?_
      · have e1 : [x0, x1, x2, x3][r]? = some [x0, x1, x2, x3][r] := List.getElem?_eq_getElem (by simpa using hr)
        have e2 : [k0, k1, k2, k3][r]? = some [k0, k1, k2, k3][r] := List.getElem?_eq_getElem (by simpa using hr)
        have a1 := hx' r _ hr e1
        have a2 := hk' r _ hr e2
        have w1 := wr_W (m := (malloc 4 : Mem (BF 256))) (o := 0) (by simp [malloc]) e1
        have w2 := wr_W (m := (malloc 4 : Mem (BF 256))) (o := 0) (by simp [malloc]) e2
        nowrap
        rw [padd_padd]
        refine t_bc (by hview) a1 (t_st (by hfind1) (by wrx w1) ?_)
        refine t_bc (by hview) a2 (t_st (by hfind1) (by wrx w2) ?_)
        exact t_pure ⟨by trivial, by hfind⟩
      rw [W_take_full _ _ _ (by simp), W_take_full _ _ _ (by simp), W_fresh (N := 4) (l := [k0, k1, k2, k3]) rfl, W_fresh (N := 4) (l := [x0, x1, x2, x3]) rfl]
      nowrap
      refine t_mix_aes (x0 := x0) (x1 := x1) (x2 := x2) (x3 := x3) (k0 := k0) (k1 := k1) (k2 := k2) (k3 := k3) (o := 16 * (1 + i) + 4 * c) (by hfind1) (by hview) (by hview) (by omega) (by omega) (by omega) (by omega) hw ?_
      exact t_free (by hfind1) (t_free (by hfind1) (t_pure ⟨by trivial, by hfind⟩))
    rw [fN]
    exact t_pure ⟨by omega, rfl⟩
  · rw [gN]; exact t_pure ⟨by trivial, rfl⟩

/-- `aes_enc_backward_256_1`. -/
theorem enc_backward_1_256_run {s xo oo : Nat} {x xk out : Mem Byte} {m' : Mem (BF 256)} {px pk po : CPtr} (hP : AesP P 256 8 14 52 224 672 1664 4000 2)
    (hx : View F px x) (hk : View F pk xk) (hi : View F po out) (h : encBackward1 256 P x xo xk out oo = some m') :
    Runs (bl kd s (malloc 224 : Mem (BF 256)) + F)
      (Gen.aes_enc_backward_256_1 (padd px xo) pk 0 0 (padd po oo) (some ⟨s, 0⟩)) () (bl kd s m' + F) := by
  unfold encBackward1 at h
  simp only [hP.r, hP.senc] at h
  obtain ⟨g, g0, gN, hg⟩ := forN_seq h
  unfold Gen.aes_enc_backward_256_1
  refine t_while 14 (fun i => i) (fun i => bl kd s (g i) + F) (by decide) rfl (by rw [g0]) (fun i hi => by simpa using hi) rfl (fun i hi' => ?_) ?_
  · obtain ⟨f, f0, fN, hf⟩ := forN_seq (hg i hi')
    refine t_while 4 (fun c => c) (fun c => bl kd s (f c) + F) (by decide) rfl (by rw [f0]) (fun c hc => by simp; omega) rfl (fun c hc => ?_) ?_
    · obtain ⟨u, u0, uN, hu⟩ := forN_seq (hf c hc)
      refine t_while 4 (fun r => r) (fun r => bl kd s (u r) + F) (by decide) rfl (by rw [u0]) (fun r hr => by simp; omega) rfl (fun r hr => ?_) ?_
      · have hb := hu r hr
        inv hb
        obtain ⟨xt, hxt, y, hy, hw⟩ := hb
        have hm : (c + 4 - r) % 4 < 4 := Nat.mod_lt _ (by decide)
        simp only [ird_eq hc hr]
        generalize (c + 4 - r) % 4 = cr at *
        nowrap
        refine t_run (b := xt) (E := bl kd s (u r) + F) rfl ?_ ?_
        · unfold encSrc1 at hxt
          simp only [hP.r, Nat.reduceSub] at hxt
          by_cases hj : i < 13
          · rw [if_pos hj] at hxt ⊢
            exact t_ld (by hview) (by rw [rd_drop]; exact hxt) (t_pure ⟨rfl, rfl⟩)
          · rw [if_neg hj] at hxt ⊢
            inv hxt
            obtain ⟨a, ha, b, hb, rfl⟩ := hxt
            try nowrap
            refine t_ld (by hview) (by rw [rd_drop]; exact ha) (t_ld (by hview) hb (t_pure ⟨?_, rfl⟩))
            simp only [mask0]
            first
              | exact ofNat_toNat_xor ..
              | (bsimp)
              | trivial
        simp only [invAff_byte'']
        refine t_bcb hy (t_st rfl (by wrx hw) (t_pure ⟨by trivial, rfl⟩))
      rw [uN]
      exact t_pure ⟨by omega, rfl⟩
    rw [fN]
    exact t_pure ⟨by omega, rfl⟩
  · rw [gN]; exact t_pure ⟨by trivial, rfl⟩

/-- `aes_enc_backward_256`. -/
theorem enc_backward_256_run {s xo oo : Nat} {x xk m' : Mem (BF 256)} {out : Mem Byte} {px pk po dp : CPtr} {mtag mkey : Byte}
    {d : Option (Mem Byte)} (hP : AesP P 256 8 14 52 224 672 1664 4000 2)
    (hx : View F px x) (hk : View F pk xk) (hi : View F po out) (hd : DeltaV F dp d) (h : encBackward P x xo xk mtag mkey d out oo = some m') :
    Runs (bl kd s (malloc 224 : Mem (BF 256)) + F)
      (Gen.aes_enc_backward_256 (padd px xo) pk mtag mkey dp (padd po oo) (some ⟨s, 0⟩)) () (bl kd s m' + F) := by
  unfold encBackward at h
  simp only [hP.r, hP.senc] at h
  inv h
  obtain ⟨bd, hbd, h⟩ := h
  obtain ⟨g, g0, gN, hg⟩ := forN_seq h
  unfold Gen.aes_enc_backward_256
  refine t_delta (by decide) hd.there hbd ?_
  have hmk : bfMulBit (bfAdd (bfMulBit bd mkey) (bfFromBit (BitVec.ofNat 8 (1 ^^^ mkey.toNat)))) (BitVec.ofNat 8 (1 ^^^ mtag.toNat)) = bwdFactor bd mtag mkey := by
    unfold bwdFactor mkeyFactor; bsimp; rfl
  simp only [hmk]
  refine t_while 14 (fun i => i) (fun i => bl kd s (g i) + F) (by decide) rfl (by rw [g0]) (fun i hi => by simpa using hi) rfl (fun i hi' => ?_) ?_
  · obtain ⟨f, f0, fN, hf⟩ := forN_seq (hg i hi')
    refine t_while 4 (fun c => c) (fun c => bl kd s (f c) + F) (by decide) rfl (by rw [f0]) (fun c hc => by simp; omega) rfl (fun c hc => ?_) ?_
    · obtain ⟨u, u0, uN, hu⟩ := forN_seq (hf c hc)
      refine t_while 4 (fun r => r) (fun r => bl kd s (u r) + F) (by decide) rfl (by rw [u0]) (fun r hr => by simp; omega) rfl (fun r hr => ?_) ?_
      · have hb := hu r hr
        inv hb
        obtain ⟨xt, hxt, yt, hyt, y, hy, hw⟩ := hb
        have hm : (c + 4 - r) % 4 < 4 := Nat.mod_lt _ (by decide)
        refine t_alloc fun t => ?_
        simp only [ird_eq hc hr]
        generalize (c + 4 - r) % 4 = cr at *
        nowrap
        refine t_run (b := ()) (E := bl .stack t xt + (bl kd s (u r) + F)) rfl ?_ ?_
        · unfold encSrc at hxt
          simp only [hP.r, Nat.reduceSub] at hxt
          by_cases hj : i < 13
          · rw [if_pos hj] at hxt ⊢
            obtain ⟨l, hl, rfl⟩ := Option.map_eq_some_iff.1 hxt
            rw [padd_padd]
            refine t_memcpy rfl (View.padd (by hview)) (by decide) (rdN_at hl) ?_ (t_pure ⟨rfl, rfl⟩)
            rw [wrN_W (by simp [malloc, rdN_length hl]), W_fresh (rdN_length hl)]
          · rw [if_neg hj] at hxt ⊢
            obtain ⟨l, rfl, hl, hlx⟩ := fill_some hxt
            refine t_fill0 l rfl hl (by decide) (fun i hi => rfl) (fun q y hq hy hw' => ?_) (t_pure ⟨rfl, rfl⟩)
            have hb := hlx q y hq hy
            inv hb
            obtain ⟨a, ha, b, hb, rfl⟩ := hb
            try nowrap
            refine t_ld (by hview) (by rw [rd_drop]; exact ha) (t_cshr (by omega) (t_ld (by hview) hb ?_))
            refine t_st rfl (by rw [getBit_nat]; exact hw') (t_pure ⟨by trivial, rfl⟩)
        refine t_alloc fun t' => ?_
        obtain ⟨hyl, -⟩ := tabM_at hyt
        refine t_invaff (μ := xt) (o := 0) rfl hyt (m' := ofList yt) (by rw [wrN_W (by simp [malloc, hyl]), W_fresh hyl]) (by omega) (by omega) (fun i hi => rfl)
          (fun q m m' hq a b c ha hb hc hw => ?_) ?_
        · nowrap
          refine t_ld (by hview) (by rdx ha) (t_ld (by hview) (by rdx hb) (t_ld (by hview) (by rdx hc) ?_))
          refine t_st rfl (by wrx hw) (t_pure ⟨by trivial, rfl⟩)
        refine t_bc0 (by hview) hy ?_
        refine t_st (by hfind1) (by wrx hw) (t_free (by hfind1) (t_free (by hfind1) (t_pure ⟨by trivial, rfl⟩)))
      rw [uN]
      exact t_pure ⟨by omega, rfl⟩
    rw [fN]
    exact t_pure ⟨by omega, rfl⟩
  · rw [gN]; exact t_pure ⟨by trivial, rfl⟩

/-- `aes_enc_constraints_Mkey_0_256`. -/
theorem enc_constraints0_256_run {inp out w k : Mem Byte} {ino oo wo vo : Nat} {v vk : Mem (BF 256)} {pin po pw pv pk pvk p p' : CPtr}
    {c0 c1 c0' c1' : ZkCtx 256} (hP : AesP P 256 8 14 52 224 672 1664 4000 2) (hi : View D pin inp) (ho : View D po out)
    (hw : View D pw w) (hv : View D pv v) (hk : View D pk k) (hvk : View D pvk vk)
    (h : encConstraints0 P inp ino out oo w wo v vo k vk (c0, c1) = some (c0', c1')) :
    Runs D (Gen.aes_enc_constraints_Mkey_0_256 (padd pin ino) (padd po oo) (padd pw wo) (padd pv vo) pk pvk (zc c0 p) (zc c1 p'))
      (zc c0' p, zc c1' p') D := by
  unfold encConstraints0 at h
  inv h
  obtain ⟨s, hs, vs, hvs, sd, hsd, vsd, hvsd, h⟩ := h
  unfold hashLoop0 at h
  rw [hP.senc] at h
  obtain ⟨z, z0, zN, hz⟩ := forN_seq h
  unfold Gen.aes_enc_constraints_Mkey_0_256
  refine t_alloc fun q1 => t_alloc fun q2 => t_alloc fun q3 => t_alloc fun q4 => ?_
  refine t_run (D' := bl .stack q1 (malloc 224 : Mem (BF 256)) + (bl .stack q4 (malloc 224 : Mem (BF 256)) + (bl .stack q3 (malloc 224 : Mem (BF 256)) + (bl .stack q2 (malloc 224 : Mem (BF 256)) + D)))) (by hfind) (enc_forward_1_256_run hP (by hview) (by hview) (by hview) hs) ?_
  refine t_run (D' := bl .stack q2 (malloc 224 : Mem (BF 256)) + (bl .stack q1 s + (bl .stack q4 (malloc 224 : Mem (BF 256)) + (bl .stack q3 (malloc 224 : Mem (BF 256)) + D)))) (by hfind)
    (enc_forward_256_run hP (x := v) (by hview) (xk := vk) (by hview) (by hview) (d := none) rfl hvs) ?_
  refine t_run (D' := bl .stack q3 (malloc 224 : Mem (BF 256)) + (bl .stack q2 vs + (bl .stack q1 s + (bl .stack q4 (malloc 224 : Mem (BF 256)) + D)))) (by hfind)
    (enc_backward_1_256_run hP (by hview) (by hview) (by hview) hsd) ?_
  refine t_run (D' := bl .stack q4 (malloc 224 : Mem (BF 256)) + (bl .stack q3 sd + (bl .stack q2 vs + (bl .stack q1 s + D)))) (by hfind)
    (enc_backward_256_run hP (x := v) (by hview) (xk := vk) (by hview) (by hview) (d := none) rfl hvsd) ?_
  refine t_while 224 (fun r => (zc (z r).1 p, zc (z r).2 p', r)) (fun _ => bl .stack q4 vsd + (bl .stack q3 sd + (bl .stack q2 vs + (bl .stack q1 s + D)))) (by decide) (by rw [z0])
    rfl (fun r hr => by simpa using hr) (by simp) (fun r hr => ?_) ?_
  · have a1 := hz r hr
    inv a1
    obtain ⟨t1, u1, t2, u2, t3, u3, t4, u4, e⟩ := a1
    rw [← e]
    refine t_ld (by hview) u2 (t_ld (by hview) u4 ?_)
    refine t_run rfl zk_hash_256_update_run ?_
    refine t_ld (by hview) u1 (t_ld (by hview) u2 (t_ld (by hview) u3 (t_ld (by hview) u4 ?_)))
    refine t_run rfl zk_hash_256_update_run ?_
    nowrap
    refine t_pure ⟨rfl, rfl⟩
  rw [zN]
  exact t_free rfl (t_free rfl (t_free rfl (t_free rfl (t_pure ⟨rfl, rfl⟩))))

/-- `aes_enc_constraints_Mkey_1_256`. -/
theorem enc_constraints1_256_run {inp out d : Mem Byte} {ino oo qo : Nat} {q qk : Mem (BF 256)} {pin po pq pqk dp p : CPtr}
    {c0 c0' : ZkCtx 256} (hP : AesP P 256 8 14 52 224 672 1664 4000 2) (hi : View D pin inp) (ho : View D po out)
    (hq : View D pq q) (hqk : View D pqk qk) (hd : View D dp d)
    (h : encConstraints1 P inp ino out oo q qo qk d c0 = some c0') :
    Runs D (Gen.aes_enc_constraints_Mkey_1_256 (padd pin ino) (padd po oo) (padd pq qo) pqk dp (zc c0 p)) (zc c0' p) D := by
  unfold encConstraints1 at h
  inv h
  obtain ⟨vs, hvs, vsd, hvsd, bd, hbd, h⟩ := h
  unfold hashLoop1 at h
  rw [hP.senc] at h
  obtain ⟨z, z0, zN, hz⟩ := forN_seq h
  unfold Gen.aes_enc_constraints_Mkey_1_256
  refine t_alloc fun q2 => t_alloc fun q4 => ?_
  refine t_run (D' := bl .stack q2 (malloc 224 : Mem (BF 256)) + (bl .stack q4 (malloc 224 : Mem (BF 256)) + D)) (by hfind)
    (enc_forward_256_run hP (x := q) (by hview) (xk := qk) (by hview) (by hview) (d := some d) (DeltaV.there (View.delta hd)) hvs) ?_
  refine t_run (D' := bl .stack q4 (malloc 224 : Mem (BF 256)) + (bl .stack q2 vs + D)) (by hfind)
    (enc_backward_256_run hP (x := q) (by hview) (xk := qk) (by hview) (by hview) (d := some d) (DeltaV.there (View.delta hd)) hvsd) ?_
  refine t_bf_load0 (by decide) (by hview) hbd (t_bf_load0 (by decide) (by hview) hbd ?_)
  refine t_while 224 (fun r => (zc (z r) p, r)) (fun _ => bl .stack q4 vsd + (bl .stack q2 vs + D)) (by decide) (by rw [z0])
    rfl (fun r hr => by simpa using hr) (by simp) (fun r hr => ?_) ?_
  · have a1 := hz r hr
    inv a1
    obtain ⟨t1, u1, t2, u2, e⟩ := a1
    rw [← e]
    refine t_ld (by hview) u1 (t_ld (by hview) u2 ?_)
    refine t_run rfl zk_hash_256_update_run ?_
    nowrap
    refine t_pure ⟨rfl, rfl⟩
  rw [zN]
  exact t_free rfl (t_free rfl (t_pure ⟨rfl, rfl⟩))

/-- `aes_prove_256`. -/
theorem aes_prove_256_run {sa oa sb ob stride : Nat} {w u V inp out ch ma ma' mb mb' : Mem Byte} {a b : List Byte}
    {pw pu pV base pin po pc : CPtr} (hP : AesP P 256 8 14 52 224 672 1664 4000 2)
    (hw : View F pw w) (hu : View F pu u) (hc : Cols F pV base stride 256) (hV : View F base V) (hi : View F pin inp)
    (ho : View F po out) (hch : View F pc ch) (h : Flat.aesProveN 256 P w u V stride inp out ch = some (a, b))
    (ha : wrN ma oa a = some ma') (hb : wrN mb ob b = some mb') :
    Runs (bl kd sa ma + (bl kd' sb mb + F)) (Gen.aes_prove_256 pw pu pV pin po pc (some ⟨sa, oa⟩) (some ⟨sb, ob⟩) P) ()
      (bl kd sa ma' + (bl kd' sb mb' + F)) := by
  unfold Flat.aesProveN at h
  inv h
  obtain ⟨v, h1, a0, h2, a1, h3, ⟨⟨c0, c1⟩, k, vk⟩, h4, ⟨d0, d1⟩, h5, ⟨f0, f1⟩, h6, x, hx, a', h7, pl, hpl, y, hy, b', h8, e⟩ := h
  obtain ⟨rfl, rfl⟩ : a' = a ∧ b' = b := by simpa using e
  have s4 := ksConstraints0_sd h4
  have s5 := encConstraints0_sd h5
  have s6 := encConstraints0Snd_sd h6
  rw [s5, s4, zkInit_sd h2, zkInit_sd h3] at s6
  obtain ⟨s60, s61⟩ := Prod.mk.inj s6
  simp only at s60 s61
  simp only [hP.l, hP.lke, Nat.reduceDiv] at h1 hx hpl h5
  unfold encConstraints0Snd at h6
  simp only [hP.lke, hP.lenc, hP.beta, Nat.reduceDiv, Nat.reduceAdd, Nat.reduceEqDiff, if_true, if_false] at h6
  unfold Gen.aes_prove_256
  refine t_call rfl (col_to_row_256_run hc.there.there hV.there.there (by decide) h1) ?_
  rintro _ _ ⟨bv, rfl, rfl⟩
  refine t_alloc fun bk => t_alloc fun bvk => ?_
  refine t_run rfl (zk_hash_256_init_run (by hview) h2) (t_run rfl (zk_hash_256_init_run (by hview) h3) ?_)
  refine t_run (D' := bl .heap bk (malloc 240 : Mem Byte) + (bl .aligned bvk (malloc 1920 : Mem (BF 256)) + (bl .aligned bv v + (bl kd sa ma + (bl kd' sb mb + F))))) (by hfind)
    (ks_constraints0_256_run (c0 := a0) (c1 := a1) (v := v) (p := pc) (p' := pc) hP (by hview) (by hview) h4) ?_
  have r5 := enc_constraints0_256_run (D := bl .heap bk k + (bl .aligned bvk vk + (bl .aligned bv v + (bl kd sa ma + (bl kd' sb mb + F))))) (pin := pin) (po := po) (pw := pw) (pv := some ⟨bv, 0⟩)
    (pk := some ⟨bk, 0⟩) (pvk := some ⟨bvk, 0⟩) (p := pc) (p' := pc) hP (by hview) (by hview) (by hview) (by hview) (by hview) (by hview) h5
  rw [padd_zero, padd_zero] at r5
  refine t_run rfl r5 ?_
  rw [padd_padd]
  refine t_run rfl (enc_constraints0_256_run (c0 := d0) (c1 := d1) (v := v) (vk := vk) (k := k) (w := w) (p := pc) (p' := pc) hP (by hview) (by hview) (by hview) (by hview) (by hview) (by hview) h6) ?_
  refine t_free (by hfind1) (t_free (by hfind1) ?_)
  refine t_bf_load (by decide) (by hview) hx ?_
  refine t_call (D' := bl kd sa ma + (bl .aligned bv v + (bl kd' sb mb + F))) (by hfind)
    (zk_hash_256_finalize_run (z := f1) (p := pc) (by rw [s61]; hview) h7 ha) ?_
  rintro _ _ rfl
  refine t_sumpoly (by decide) (View.ptr (by hview) hpl) hy ?_
  refine t_call (D' := bl kd' sb mb + (bl kd sa ma' + (bl .aligned bv v + F))) (by hfind)
    (zk_hash_256_finalize_run (z := f0) (p := pc) (by rw [s60]; hview) h8 hb) ?_
  rintro _ _ rfl
  exact t_free (by hfind1) (t_pure ⟨rfl, by hfind⟩)

/-- `aes_verify_256`. -/
theorem aes_verify_256_run {sq stride : Nat} {d Qm inp out ch2 ch3 at_ : Mem Byte} {r : List Byte}
    {pd pQ pin po pc2 pc3 pa : CPtr} (hP : AesP P 256 8 14 52 224 672 1664 4000 2) (hC : ChalP P) (hcnt : P.t0 * P.k0 + P.t1 * P.k1 ≤ 256)
    (hd : View F pd d) (hQ : Cols F pQ (some ⟨sq, 0⟩) stride 256) (hc2 : View F pc2 ch2) (hc3 : View F pc3 ch3) (ha : View F pa at_)
    (hi : View F pin inp) (ho : View F po out) (h : Flat.aesVerifyN 256 P d Qm stride ch2 ch3 at_ inp out = some r) :
    T (bl kd sq Qm + F) (Gen.aes_verify_256 pd pQ pc2 pc3 pa pin po P)
      (fun x D' => ∃ (b : Nat) (Qm' : Mem Byte), x = some ⟨b, 0⟩ ∧ D' = bl .heap b (ofList r) + (bl kd sq Qm' + F)) := by
  unfold Flat.aesVerifyN verifyFinish at h
  inv h
  obtain ⟨Qm', h0, q, h1, b0, h2, ⟨c0, qk⟩, h4, d0, h5, f0, h6, pl, hpl, y, hy, qt, h8, bq, hbq, ba, hba, bd, hbd, rfl⟩ := h
  have s4 := ksConstraints1_sd h4
  have s5 := encConstraints1_sd h5
  have s6 := encConstraints1Snd_sd h6
  rw [s5, s4, zkInit_sd h2] at s6
  simp only [hP.l, hP.lke, Nat.reduceDiv, Nat.reduceAdd] at h0 h1 hpl h5
  unfold encConstraints1Snd at h6
  simp only [hP.lke, hP.lenc, hP.beta, Nat.reduceAdd, Nat.reduceEqDiff, if_true, if_false] at h6
  unfold Gen.aes_verify_256
  refine t_correctQ hC hcnt (by decide) (by decide) rfl hd hc3 hQ h0 fun _ => ?_
  refine t_call rfl (col_to_row_256_run hQ.there View.here0 (by decide) h1) ?_
  rintro _ _ ⟨bv, rfl, rfl⟩
  refine t_alloc fun bvk => ?_
  refine t_run rfl (zk_hash_256_init_run (by hview) h2) ?_
  refine t_run rfl (ks_constraints1_256_run (c0 := b0) (v := q) (p := pc2) hP (by hview) (by hview) h4) ?_
  have r5 := enc_constraints1_256_run (D := bl .aligned bvk qk + (bl .aligned bv q + (bl kd sq Qm' + F))) (pin := pin) (po := po) (pq := some ⟨bv, 0⟩)
    (pqk := some ⟨bvk, 0⟩) (dp := pc3) (p := pc2) hP (by hview) (by hview) (by hview) (by hview) (by hview) h5
  rw [padd_zero, padd_zero] at r5
  refine t_run rfl r5 ?_
  rw [padd_padd]
  refine t_run rfl (enc_constraints1_256_run (c0 := d0) (q := q) (qk := qk) (p := pc2) hP (by hview) (by hview) (by hview) (by hview) (by hview) h6) ?_
  refine t_free (by hfind1) (t_alloc fun bt => ?_)
  refine t_sumpoly (by decide) (View.ptr (by hview) hpl) hy ?_
  have hql : qt.length = 32 := by
    unfold zkFinalize at h8
    inv h8
    obtain ⟨_, -, _, -, rfl⟩ := h8
    rw [toBytes_eq, tabP_length]
  refine t_call rfl (zk_hash_256_finalize_run (z := f0) (p := pc2) (by rw [s6]; hview) h8 (wrN_fresh hql)) ?_
  rintro _ _ rfl
  refine t_free (by hfind1) ?_
  refine t_bf_load0 (by decide) (by hview) hbq (t_bf_load0 (by decide) (by hview) hba (t_bf_load0 (by decide) (by hview) hbd ?_))
  refine t_bf_store (m' := ofList (bfAdd bq (bfMul ba bd)).toBytes) (by hfind1) (wrN_ofList (by rw [toBytes_eq, tabP_length, hql])) (t_pure ⟨_, _, rfl, by hfind⟩)

end

end Faest.C
