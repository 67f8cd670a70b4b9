/-
faest_aes.c, translated: the Even-Mansour functions of the copy for 256-bit fields.
-/
import Verif.Proofs.Gen.FaEm

namespace Faest.C

section
variable {D F : Blocks} {kd kd' : Kind} {P : Params}

/-- `em_enc_forward_256_1`. -/
theorem em_forward_1_256_run {s : Nat} {z x : Mem Byte} {m' : Mem (BF 256)} {pz px : CPtr} (hP : EmP P 256 8 14 448 3584)
    (hz : View F pz z) (hx : View F px x) (h : emForward1 256 P z x = some m') :
    Runs (bl kd s (malloc 448 : Mem (BF 256)) + F) (Gen.em_enc_forward_256_1 pz px (some ⟨s, 0⟩)) () (bl kd s m' + F) := by
  unfold emForward1 at h
  simp only [hP.r, hP.senc, hP.nwd, Nat.reduceMul] at h
  inv h
  obtain ⟨m1, h1, two, htwo, three, hthree, h2⟩ := h
  obtain ⟨u, u0, uN, hu⟩ := forN_seq h1
  obtain ⟨g, g0, gN, hg⟩ := forR_seq h2
  simp only [Nat.reduceSub] at gN hg
  unfold Gen.em_enc_forward_256_1
  refine t_while 32 (fun i => i) (fun i => bl kd s (u i) + F) (by decide) rfl (by rw [u0]) (fun i hi => by simpa using hi) rfl (fun i hi' => ?_) ?_
  · have hb := hu i hi'
    inv hb
    obtain ⟨a, ha, b, hb, c, hc, d, hd, hw⟩ := hb
    refine t_ld (by hview) ha ?_
    refine t_bcb hb (t_ld (by hview) hc (t_bcb hd (t_st rfl (by wrx hw) (t_pure ⟨by omega, rfl⟩))))
  rw [uN]
  refine t_bcb htwo (t_bcb hthree ?_)
  refine t_while 13 (fun i => 1 + i) (fun i => bl kd s (g i) + F) (by decide) rfl (by rw [g0]) (fun i hi => by simp; omega) rfl (fun i hi' => ?_) ?_
  · obtain ⟨f, f0, fN, hf⟩ := forN_seq (hg i hi')
    refine t_while 8 (fun c => c) (fun c => bl kd s (f c) + F) (by decide) rfl (by rw [f0]) (fun c hc => by simp; omega) rfl (fun c hc => ?_) ?_
    · have hb := hf c hc
      inv hb
      obtain ⟨l, hl, hw⟩ := hb
      obtain ⟨x0, x1, x2, x3, k0, k1, k2, k3, hx', hk', rfl⟩ := mixRead_inv hl
      refine t_alloc fun q1 => t_alloc fun q2 => ?_
      refine t_while 4 (fun r => r) (fun r => bl .stack q2 (W (malloc 4) 0 ([x0, x1, x2, x3].take r)) +
        (bl .stack q1 (W (malloc 4) 0 ([k0, k1, k2, k3].take r)) + (bl kd s (f c) + F))) (by decide) rfl
        (by rw [W_take_zero, W_take_zero]) (fun r hr => by simp; omega) rfl (fun r hr => ?_) ?_
      · have e1 : [x0, x1, x2, x3][r]? = some [x0, x1, x2, x3][r] := List.getElem?_eq_getElem (by simpa using hr)
        have e2 : [k0, k1, k2, k3][r]? = some [k0, k1, k2, k3][r] := List.getElem?_eq_getElem (by simpa using hr)
        have a1 := hx' r _ hr e1
        have a2 := hk' r _ hr e2
        have w1 := wr_W (m := (malloc 4 : Mem (BF 256))) (o := 0) (by simp [malloc]) e1
        have w2 := wr_W (m := (malloc 4 : Mem (BF 256))) (o := 0) (by simp [malloc]) e2
        inv a1
        inv a2
        obtain ⟨y1, a1, b1⟩ := a1
        obtain ⟨y2, a2, b2⟩ := a2
        nowrap
        refine t_ld (by hview) a1 (t_bcb b1 (t_st (by hfind1) (by wrx w1) ?_))
        refine t_ld (by hview) a2 (t_bcb b2 (t_st (by hfind1) (by wrx w2) ?_))
        exact t_pure ⟨by trivial, by hfind⟩
      rw [W_take_full _ _ _ (by simp), W_take_full _ _ _ (by simp), W_fresh (N := 4) (l := [k0, k1, k2, k3]) rfl, W_fresh (N := 4) (l := [x0, x1, x2, x3]) rfl]
      nowrap
      refine t_mix_em (z0 := x0) (z1 := x1) (z2 := x2) (z3 := x3) (x0 := k0) (x1 := k1) (x2 := k2) (x3 := k3) (o := 32 * (1 + i) + 4 * c) (by hfind1) (by hview) (by hview) (by omega) (by omega) (by omega) (by omega) hw ?_
      exact t_free (by hfind1) (t_free (by hfind1) (t_pure ⟨by trivial, by hfind⟩))
    rw [fN]
    exact t_pure ⟨by omega, rfl⟩
  · rw [gN]; exact t_pure ⟨by trivial, rfl⟩

/-- `em_enc_forward_256`. -/
theorem em_forward_256_run {s : Nat} {z m' : Mem (BF 256)} {x : Option (Mem (BF 256))} {pz px : CPtr} (hP : EmP P 256 8 14 448 3584)
    (hz : View F pz z) (hx : OptV F px x) (h : emForward P z x = some m') :
    Runs (bl kd s (malloc 448 : Mem (BF 256)) + F) (Gen.em_enc_forward_256 pz px (some ⟨s, 0⟩)) () (bl kd s m' + F) := by
  unfold emForward at h
  simp only [hP.r, hP.senc, hP.nwd, Nat.reduceMul] at h
  inv h
  obtain ⟨m1, h1, two, htwo, three, hthree, h2⟩ := h
  obtain ⟨u, u0, uN, hu⟩ := forN_seq h1
  obtain ⟨g, g0, gN, hg⟩ := forR_seq h2
  simp only [Nat.reduceSub] at gN hg
  unfold Gen.em_enc_forward_256
  refine t_while 32 (fun i => i) (fun i => bl kd s (u i) + F) (by decide) rfl (by rw [u0]) (fun i hi => by simpa using hi) rfl (fun i hi' => ?_) ?_
  · have hb := hu i hi'
    inv hb
    obtain ⟨a, ha, hb⟩ := hb
    nowrap
    refine t_bc (by hview) ha ?_
    rcases x with _ | xm
    · have : px = none := hx
      subst this
      exact t_st rfl (by wrx hb) (t_pure ⟨by trivial, rfl⟩)
    · rw [if_pos hx.1]
      have hx2 := hx.2
      inv hb
      obtain ⟨b', hb, _, rfl, hw⟩ := hb
      obtain ⟨y1, w1, r1, w2⟩ := wr_twice (i := i) hw a
      refine t_st rfl (by wrx w1) (t_run (b := ()) (E := bl kd s (u (i + 1)) + F) rfl ?_ (t_pure ⟨by trivial, rfl⟩))
      exact t_ld (by hview) r1 (t_bc (by hview) hb (t_st rfl (by wrx w2) (t_pure ⟨rfl, rfl⟩)))
  rw [uN]
  refine t_bcb htwo (t_bcb hthree ?_)
  refine t_while 13 (fun i => 1 + i) (fun i => bl kd s (g i) + F) (by decide) rfl (by rw [g0]) (fun i hi => by simp; omega) rfl (fun i hi' => ?_) ?_
  · obtain ⟨f, f0, fN, hf⟩ := forN_seq (hg i hi')
    refine t_while 8 (fun c => c) (fun c => bl kd s (f c) + F) (by decide) rfl (by rw [f0]) (fun c hc => by simp; omega) rfl (fun c hc => ?_) ?_
    · have hb := hf c hc
      inv hb
      obtain ⟨l, hl, hw⟩ := hb
      obtain ⟨x0, x1, x2, x3, k0, k1, k2, k3, hx', hk', rfl⟩ := mixRead_inv hl
      refine t_alloc fun q1 => t_alloc fun q2 => ?_
      refine t_while 4 (fun r => r) (fun r => bl .stack q2 (W (malloc 4) 0 ([x0, x1, x2, x3].take r)) +
        (bl .stack q1 (W (malloc 4) 0 ([k0, k1, k2, k3].take r)) + (bl kd s (f c) + F))) (by decide) rfl
        (by rw [W_take_zero, W_take_zero]) (fun r hr => by simp; omega) rfl (fun r hr => ?_) ?_
      · have e1 : [x0, x1, x2, x3][r]? = some [x0, x1, x2, x3][r] := List.getElem?_eq_getElem (by simpa using hr)
        have e2 : [k0, k1, k2, k3][r]? = some [k0, k1, k2, k3][r] := List.getElem?_eq_getElem (by simpa using hr)
        have a1 := hx' r _ hr e1
        have a2 := hk' r _ hr e2
        have w1 := wr_W (m := (malloc 4 : Mem (BF 256))) (o := 0) (by simp [malloc]) e1
        have w2 := wr_W (m := (malloc 4 : Mem (BF 256))) (o := 0) (by simp [malloc]) e2
        nowrap
        refine t_bc (by hview) a1 (t_st (by hfind1) (by wrx w1) ?_)
        refine t_run (b := ()) (E := bl .stack q2 (W (malloc 4) 0 ([x0, x1, x2, x3].take (r + 1))) +
          (bl .stack q1 (W (malloc 4) 0 ([k0, k1, k2, k3].take (r + 1))) + (bl kd s (f c) + F))) rfl ?_ (t_pure ⟨by trivial, rfl⟩)
        rcases x with _ | xm
        · have : px = none := hx
          subst this
          rw [Option.some.inj a2]
          exact t_st (by hfind1) (by wrx w2) (t_pure ⟨rfl, by hfind⟩)
        · rw [if_pos hx.1]
          have hx2 := hx.2
          exact t_bc (by hview) a2 (t_st (by hfind1) (by wrx w2) (t_pure ⟨rfl, by hfind⟩))
      rw [W_take_full _ _ _ (by simp), W_take_full _ _ _ (by simp), W_fresh (N := 4) (l := [k0, k1, k2, k3]) rfl, W_fresh (N := 4) (l := [x0, x1, x2, x3]) rfl]
      nowrap
      refine t_mix_em (z0 := x0) (z1 := x1) (z2 := x2) (z3 := x3) (x0 := k0) (x1 := k1) (x2 := k2) (x3 := k3) (o := 32 * (1 + i) + 4 * c) (by hfind1) (by hview) (by hview) (by omega) (by omega) (by omega) (by omega) hw ?_
      exact t_free (by hfind1) (t_free (by hfind1) (t_pure ⟨by trivial, by hfind⟩))
    rw [fN]
    exact t_pure ⟨by omega, rfl⟩
  · rw [gN]; exact t_pure ⟨by trivial, rfl⟩

/-- `em_enc_backward_256_1`. -/
theorem em_backward_1_256_run {s : Nat} {z x zo : Mem Byte} {m' : Mem (BF 256)} {pz px po : CPtr} (hP : EmP P 256 8 14 448 3584)
    (hz : View F pz z) (hx : View F px x) (ho : View F po zo) (h : emBackward1 256 P z x zo = some m') :
    Runs (bl kd s (malloc 448 : Mem (BF 256)) + F)
      (Gen.em_enc_backward_256_1 pz px po (some ⟨s, 0⟩)) () (bl kd s m' + F) := by
  unfold emBackward1 at h
  simp only [hP.r, hP.senc, hP.nwd, hP.lam, Nat.reduceMul] at h
  obtain ⟨g, g0, gN, hg⟩ := forN_seq h
  unfold Gen.em_enc_backward_256_1
  refine t_while 14 (fun i => i) (fun i => bl kd s (g i) + F) (by decide) rfl (by rw [g0]) (fun i hi => by simpa using hi) rfl (fun i hi' => ?_) ?_
  · obtain ⟨f, f0, fN, hf⟩ := forN_seq (hg i hi')
    refine t_while 8 (fun c => c) (fun c => bl kd s (f c) + F) (by decide) rfl (by rw [f0]) (fun c hc => by simp; omega) rfl (fun c hc => ?_) ?_
    · obtain ⟨u, u0, uN, hu⟩ := forN_seq (hf c hc)
      refine t_while 4 (fun r => r) (fun r => bl kd s (u r) + F) (by decide) rfl (by rw [u0]) (fun r hr => by simp; omega) rfl (fun r hr => ?_) ?_
      · have hb := hu r hr
        inv hb
        obtain ⟨xt, hxt, y, hy, hw⟩ := hb
        have hm : emIcol 8 c r < 8 := emIcol_lt (by decide)
        refine t_run rfl (icol_8 hc hr) ?_
        generalize emIcol 8 c r = cr at *
        nowrap
        refine t_run (b := xt) (E := bl kd s (u r) + F) rfl ?_ ?_
        · unfold emSrc1 at hxt
          simp only [hP.r, hP.nwd, Nat.reduceMul, Nat.reduceSub] at hxt
          by_cases hj : i < 13
          · rw [if_pos hj] at hxt ⊢
            exact t_ld (by hview) hxt (t_pure ⟨rfl, rfl⟩)
          · rw [if_neg hj] at hxt ⊢
            inv hxt
            obtain ⟨a, ha, b, hb, rfl⟩ := hxt
            try nowrap
            refine t_ld (by hview) ha (t_ld (by hview) hb (t_pure ⟨?_, rfl⟩))
            first
              | exact ofNat_toNat_xor ..
              | (bsimp)
              | trivial
        simp only [invAff_byte']
        refine t_bcb hy (t_st rfl (by wrx hw) (t_pure ⟨by trivial, rfl⟩))
      rw [uN]
      exact t_pure ⟨by omega, rfl⟩
    rw [fN]
    exact t_pure ⟨by omega, rfl⟩
  · rw [gN]; exact t_pure ⟨by trivial, rfl⟩

/-- `em_enc_backward_256`. -/
theorem em_backward_256_run {s : Nat} {z zo m' : Mem (BF 256)} {x : Option (Mem (BF 256))} {pz px po dp : CPtr} {mtag mkey : Byte}
    {d : Option (Mem Byte)} (hP : EmP P 256 8 14 448 3584)
    (hz : View F pz z) (hx : OptV F px x) (ho : View F po zo) (hd : DeltaV F dp d) (h : emBackward P z x zo mtag mkey d = some m') :
    Runs (bl kd s (malloc 448 : Mem (BF 256)) + F)
      (Gen.em_enc_backward_256 pz px po mtag mkey dp (some ⟨s, 0⟩)) () (bl kd s m' + F) := by
  unfold emBackward at h
  simp only [hP.r, hP.senc, hP.nwd, hP.lam, Nat.reduceMul] at h
  inv h
  obtain ⟨bd, hbd, h⟩ := h
  obtain ⟨g, g0, gN, hg⟩ := forN_seq h
  unfold Gen.em_enc_backward_256
  refine t_delta (by decide) hd.there hbd ?_
  have hmk : bfMulBit (bfAdd (bfMulBit bd mkey) (bfFromBit (BitVec.ofNat 8 (1 ^^^ mkey.toNat)))) (BitVec.ofNat 8 (1 ^^^ mtag.toNat)) = bwdFactor bd mtag mkey := by
    unfold bwdFactor mkeyFactor; bsimp; rfl
  simp only [hmk]
  refine t_while 14 (fun i => i) (fun i => bl kd s (g i) + F) (by decide) rfl (by rw [g0]) (fun i hi => by simpa using hi) rfl (fun i hi' => ?_) ?_
  · obtain ⟨f, f0, fN, hf⟩ := forN_seq (hg i hi')
    refine t_while 8 (fun c => c) (fun c => bl kd s (f c) + F) (by decide) rfl (by rw [f0]) (fun c hc => by simp; omega) rfl (fun c hc => ?_) ?_
    · obtain ⟨u, u0, uN, hu⟩ := forN_seq (hf c hc)
      refine t_while 4 (fun r => r) (fun r => bl kd s (u r) + F) (by decide) rfl (by rw [u0]) (fun r hr => by simp; omega) rfl (fun r hr => ?_) ?_
      · have hb := hu r hr
        inv hb
        obtain ⟨xt, hxt, yt, hyt, y, hy, hw⟩ := hb
        have hm : emIcol 8 c r < 8 := emIcol_lt (by decide)
        refine t_alloc fun t => ?_
        refine t_run rfl (icol_8' hc hr) ?_
        generalize emIcol 8 c r = cr at *
        nowrap
        refine t_run (b := ()) (E := bl .stack t xt + (bl kd s (u r) + F)) rfl ?_ ?_
        · unfold emSrc at hxt
          simp only [hP.r, hP.nwd, Nat.reduceMul, Nat.reduceSub] at hxt
          by_cases hj : i < 13
          · rw [if_pos hj] at hxt ⊢
            obtain ⟨l, hl, rfl⟩ := Option.map_eq_some_iff.1 hxt
            refine t_memcpy rfl (View.padd (by hview)) (by decide) (rdN_at hl) ?_ (t_pure ⟨rfl, rfl⟩)
            rw [wrN_W (by simp [malloc, rdN_length hl]), W_fresh (rdN_length hl)]
          · rw [if_neg hj] at hxt ⊢
            obtain ⟨l, rfl, hl, hlx⟩ := fill_some hxt
            refine t_fill0 l rfl hl (by decide) (fun i hi => rfl) (fun q y hq hy hw' => ?_) (t_pure ⟨rfl, rfl⟩)
            have hb := hlx q y hq hy
            inv hb
            obtain ⟨a, ha, hb⟩ := hb
            try nowrap
            obtain ⟨y1, w1, r1, w2⟩ := wr_twice hw' a
            rw [Nat.zero_add] at w1 r1 w2
            refine t_ld (by hview) ha (t_st rfl (by wrx w1) ?_)
            refine t_run (b := ()) (E := bl .stack t (W (malloc 8) 0 (l.take (q + 1))) + (bl kd s (u r) + F)) rfl ?_ (t_pure ⟨by trivial, rfl⟩)
            rcases x with _ | xm
            · have : px = none := hx
              subst this
              obtain rfl : a = y := by simpa using hb
              rw [Nat.zero_add, w1] at hw'
              obtain rfl := Option.some.inj hw'
              exact t_pure ⟨rfl, rfl⟩
            · rw [if_pos hx.1]
              have hx2 := hx.2
              inv hb
              obtain ⟨b', hb, rfl⟩ := hb
              exact t_ld (by hview) r1 (t_ld (by hview) hb (t_st rfl (by wrx w2) (t_pure ⟨rfl, rfl⟩)))
        refine t_alloc fun t' => ?_
        obtain ⟨hyl, -⟩ := tabM_at hyt
        refine t_invaff (μ := xt) (o := 0) rfl hyt (m' := ofList yt) (by rw [wrN_W (by simp [malloc, hyl]), W_fresh hyl]) (by omega) (by omega) (fun i hi => rfl)
          (fun q m m' hq a b c ha hb hc hw => ?_) ?_
        · nowrap
          refine t_ld (by hview) (by rdx ha) (t_ld (by hview) (by rdx hb) (t_ld (by hview) (by rdx hc) ?_))
          refine t_st rfl (by wrx hw) (t_pure ⟨by trivial, rfl⟩)
        refine t_bc0 (by hview) hy ?_
        refine t_st (by hfind1) (by wrx hw) (t_free (by hfind1) (t_free (by hfind1) (t_pure ⟨by trivial, rfl⟩)))
      rw [uN]
      exact t_pure ⟨by omega, rfl⟩
    rw [fN]
    exact t_pure ⟨by omega, rfl⟩
  · rw [gN]; exact t_pure ⟨by trivial, rfl⟩

/-- `em_enc_constraints_Mkey_0_256`. -/
theorem em_constraints0_256_run {out x w : Mem Byte} {v : Mem (BF 256)} {po px pw pv p p' : CPtr}
    {c0 c1 c0' c1' : ZkCtx 256} (hP : EmP P 256 8 14 448 3584) (ho : View D po out)
    (hx : View D px x) (hw : View D pw w) (hv : View D pv v)
    (h : emConstraints0 P out x w v (c0, c1) = some (c0', c1')) :
    Runs D (Gen.em_enc_constraints_Mkey_0_256 po px pw pv (zc c0 p) (zc c1 p')) (zc c0' p, zc c1' p') D := by
  unfold emConstraints0 at h
  inv h
  obtain ⟨wo, hwo, s, hs, vs, hvs, sd, hsd, vsd, hvsd, h⟩ := h
  simp only [hP.lam, Nat.reduceDiv] at hwo
  unfold hashLoop0 at h
  rw [hP.senc] at h
  obtain ⟨z, z0, zN, hz⟩ := forN_seq h
  obtain ⟨hwl, -⟩ := tabM_at hwo
  unfold Gen.em_enc_constraints_Mkey_0_256
  refine t_alloc fun q0 => ?_
  refine t_run rfl (xor_run (.inl ho) (.inl hw) hwo (wrN_fresh hwl) (by decide)) ?_
  refine t_alloc fun q1 => t_alloc fun q2 => t_alloc fun q3 => t_alloc fun q4 => ?_
  refine t_run (D' := bl .stack q1 (malloc 448 : Mem (BF 256)) + (bl .stack q4 (malloc 448 : Mem (BF 256)) + (bl .stack q3 (malloc 448 : Mem (BF 256)) + (bl .stack q2 (malloc 448 : Mem (BF 256)) + (bl .stack q0 (ofList wo) + D))))) (by hfind) (em_forward_1_256_run hP (z := w) (x := x) (by hview) (by hview) hs) ?_
  refine t_run (D' := bl .stack q2 (malloc 448 : Mem (BF 256)) + (bl .stack q1 s + (bl .stack q4 (malloc 448 : Mem (BF 256)) + (bl .stack q3 (malloc 448 : Mem (BF 256)) + (bl .stack q0 (ofList wo) + D))))) (by hfind)
    (em_forward_256_run hP (z := v) (by hview) (x := none) rfl hvs) ?_
  refine t_run (D' := bl .stack q3 (malloc 448 : Mem (BF 256)) + (bl .stack q2 vs + (bl .stack q1 s + (bl .stack q4 (malloc 448 : Mem (BF 256)) + (bl .stack q0 (ofList wo) + D))))) (by hfind)
    (em_backward_1_256_run hP (z := w) (x := x) (zo := ofList wo) (by hview) (by hview) (by hview) hsd) ?_
  refine t_run (D' := bl .stack q4 (malloc 448 : Mem (BF 256)) + (bl .stack q3 sd + (bl .stack q2 vs + (bl .stack q1 s + (bl .stack q0 (ofList wo) + D))))) (by hfind)
    (em_backward_256_run hP (z := v) (zo := v) (by hview) (x := none) rfl (by hview) (d := none) rfl hvsd) ?_
  refine t_while 448 (fun r => (zc (z r).1 p, zc (z r).2 p', r)) (fun _ => bl .stack q4 vsd + (bl .stack q3 sd + (bl .stack q2 vs + (bl .stack q1 s + (bl .stack q0 (ofList wo) + D))))) (by decide) (by rw [z0])
    rfl (fun r hr => by simpa using hr) (by simp) (fun r hr => ?_) ?_
  · have a1 := hz r hr
    inv a1
    obtain ⟨t1, u1, t2, u2, t3, u3, t4, u4, e⟩ := a1
    rw [← e]
    refine t_ld (by hview) u2 (t_ld (by hview) u4 ?_)
    refine t_run rfl zk_hash_256_update_run ?_
    refine t_ld (by hview) u1 (t_ld (by hview) u2 (t_ld (by hview) u3 (t_ld (by hview) u4 ?_)))
    refine t_run rfl zk_hash_256_update_run ?_
    nowrap
    refine t_pure ⟨rfl, rfl⟩
  rw [zN]
  exact t_free rfl (t_free rfl (t_free rfl (t_free rfl (t_free rfl (t_pure ⟨rfl, rfl⟩)))))

/-- `em_enc_constraints_Mkey_1_256`. -/
theorem em_constraints1_256_run {out x d : Mem Byte} {q : Mem (BF 256)} {po px pq dp p : CPtr}
    {c0 c0' : ZkCtx 256} (hP : EmP P 256 8 14 448 3584) (ho : View D po out) (hx : View D px x)
    (hq : View D pq q) (hd : View D dp d)
    (h : emConstraints1 P out x q d c0 = some c0') :
    Runs D (Gen.em_enc_constraints_Mkey_1_256 po px pq dp (zc c0 p)) (zc c0' p) D := by
  unfold emConstraints1 at h
  inv h
  obtain ⟨bd, hbd, bx, hbx, qo, hqo, vs, hvs, vsd, hvsd, h⟩ := h
  simp only [hP.lam, hP.r, Nat.reduceAdd, Nat.reduceMul] at hbx hqo
  obtain ⟨lx, rfl, hlx, hxx⟩ := fill_some hbx
  obtain ⟨lq, rfl, hlq, hxq⟩ := fill_some hqo
  unfold hashLoop1 at h
  rw [hP.senc] at h
  obtain ⟨z, z0, zN, hz⟩ := forN_seq h
  unfold Gen.em_enc_constraints_Mkey_1_256
  refine t_bf_load0 (by decide) (by hview) hbd ?_
  refine t_alloc fun b1 => ?_
  refine t_fill0 lx rfl hlx (by decide) (fun i hi => rfl) (fun r y hr hy hw' => ?_) ?_
  · have hb := hxx r y hr hy
    unfold ptrGetBit at hb
    inv hb
    obtain ⟨_, ⟨c, hc, rfl⟩, rfl⟩ := hb
    refine t_ld (by hview) hc (t_st rfl ?_ (t_pure ⟨by omega, rfl⟩))
    rw [getBit_nat]; exact hw'
  refine t_alloc fun b2 => ?_
  refine t_fill0 lq rfl hlq (by decide) (fun i hi => rfl) (fun r y hr hy hw' => ?_) ?_
  · have hb := hxq r y hr hy
    unfold ptrGetBit at hb
    inv hb
    obtain ⟨_, ⟨c, hc, rfl⟩, e, he, rfl⟩ := hb
    refine t_ld (by hview) hc (t_ld (by hview) he (t_st rfl ?_ (t_pure ⟨by omega, rfl⟩)))
    rw [getBit_nat]; exact hw'
  refine t_alloc fun q2 => t_alloc fun q4 => ?_
  refine t_run (D' := bl .stack q2 (malloc 448 : Mem (BF 256)) + (bl .stack q4 (malloc 448 : Mem (BF 256)) + (bl .aligned b2 (ofList lq) + (bl .aligned b1 (ofList lx) + D)))) (by hfind)
    (em_forward_256_run hP (z := q) (x := some (ofList lx)) (by hview) (View.opt (by hview)) hvs) ?_
  refine t_run (D' := bl .stack q4 (malloc 448 : Mem (BF 256)) + (bl .stack q2 vs + (bl .aligned b2 (ofList lq) + (bl .aligned b1 (ofList lx) + D)))) (by hfind)
    (em_backward_256_run hP (z := q) (x := some (ofList lx)) (zo := ofList lq) (by hview) (View.opt (by hview)) (by hview) (d := some d) (View.delta (by hview)) hvsd) ?_
  refine t_free (by hfind1) (t_free (by hfind1) ?_)
  refine t_while 448 (fun r => (zc (z r) p, r)) (fun _ => bl .stack q4 vsd + (bl .stack q2 vs + D)) (by decide) (by rw [z0])
    rfl (fun r hr => by simpa using hr) (by simp) (fun r hr => ?_) ?_
  · have a1 := hz r hr
    inv a1
    obtain ⟨t1, u1, t2, u2, e⟩ := a1
    rw [← e]
    refine t_ld (by hview) u1 (t_ld (by hview) u2 ?_)
    refine t_run rfl zk_hash_256_update_run ?_
    nowrap
    refine t_pure ⟨rfl, rfl⟩
  rw [zN]
  exact t_free rfl (t_free rfl (t_pure ⟨rfl, rfl⟩))

/-- `em_prove_256`. -/
theorem em_prove_256_run {sa oa sb ob stride : Nat} {w u V inp out ch ma ma' mb mb' : Mem Byte} {a b : List Byte}
    {pw pu pV base pin po pc : CPtr} (hP : EmP P 256 8 14 448 3584)
    (hw : View F pw w) (hu : View F pu u) (hc : Cols F pV base stride 256) (hV : View F base V) (hi : View F pin inp)
    (ho : View F po out) (hch : View F pc ch) (h : Flat.emProveN 256 P w u V stride inp out ch = some (a, b))
    (ha : wrN ma oa a = some ma') (hb : wrN mb ob b = some mb') :
    Runs (bl kd sa ma + (bl kd' sb mb + F)) (Gen.em_prove_256 pw pu pV pin po pc (some ⟨sa, oa⟩) (some ⟨sb, ob⟩)) ()
      (bl kd sa ma' + (bl kd' sb mb' + F)) := by
  unfold Flat.emProveN emExpand emSchedule at h
  simp only [hP.lam, hP.nwd, hP.r, hP.lenc, Nat.reduceEqDiff, Nat.reduceDiv, Nat.reduceMul, Nat.reduceAdd, if_true, if_false] at h
  inv h
  obtain ⟨xm, ⟨⟨rk, zz⟩, hrk, ⟨x', e⟩, hx', e'⟩, v, h1, a0, h2, a1, h3, ⟨c0, c1⟩, h4, x, hx, a', h7, pl, hpl, y, hy, b', h8, e''⟩ := h
  simp only at e' hx'
  obtain rfl := e'
  obtain ⟨rfl, rfl⟩ : a' = a ∧ b' = b := by simpa using e''
  have s4 := emConstraints0_sd h4
  rw [zkInit_sd h2, zkInit_sd h3] at s4
  obtain ⟨s60, s61⟩ := Prod.mk.inj s4
  simp only at s60 s61
  unfold Gen.em_prove_256
  refine t_alloc fun bx => t_alloc fun bk => ?_
  refine t_run rfl (rijndael256_init_run (by hview) hrk) ?_
  refine t_expand (D := _) (F := bl .stack bk rk + (bl kd sa ma + (bl kd' sb mb + F))) (by decide) (by decide) (by hfind1) (by hview) hx' fun _ => ?_
  refine t_free (by hfind1) ?_
  refine t_call rfl (col_to_row_256_run hc.there.there.there hV.there.there.there (by decide) h1) ?_
  rintro _ _ ⟨bv, rfl, rfl⟩
  refine t_run rfl (zk_hash_256_init_run (by hview) h2) (t_run rfl (zk_hash_256_init_run (by hview) h3) ?_)
  refine t_run rfl (em_constraints0_256_run (c0 := a0) (c1 := a1) (v := v) (x := x') (w := w) (out := out) (p := pc) (p' := pc) hP (by hview) (by hview) (by hview) (by hview) h4) ?_
  refine t_bf_load (by decide) (by hview) hx ?_
  refine t_call (D' := bl kd sa ma + (bl .aligned bv v + (bl .stack bx x' + (bl kd' sb mb + F)))) (by hfind)
    (zk_hash_256_finalize_run (z := c1) (p := pc) (by rw [s61]; hview) h7 ha) ?_
  rintro _ _ rfl
  refine t_sumpoly (by decide) (View.ptr (by hview) hpl) hy ?_
  refine t_call (D' := bl kd' sb mb + (bl kd sa ma' + (bl .aligned bv v + (bl .stack bx x' + F)))) (by hfind)
    (zk_hash_256_finalize_run (z := c0) (p := pc) (by rw [s60]; hview) h8 hb) ?_
  rintro _ _ rfl
  exact t_free (by hfind1) (t_free (by hfind1) (t_pure ⟨rfl, by hfind⟩))

/-- `em_verify_256`. -/
theorem em_verify_256_run {sq stride : Nat} {d Qm inp out ch2 ch3 at_ : Mem Byte} {r : List Byte}
    {pd pQ pin po pc2 pc3 pa : CPtr} (hP : EmP P 256 8 14 448 3584) (hC : ChalP P) (hcnt : P.t0 * P.k0 + P.t1 * P.k1 ≤ 256)
    (hd : View F pd d) (hQ : Cols F pQ (some ⟨sq, 0⟩) stride 256) (hc2 : View F pc2 ch2) (hc3 : View F pc3 ch3) (ha : View F pa at_)
    (hi : View F pin inp) (ho : View F po out) (h : Flat.emVerifyN 256 P d Qm stride ch2 ch3 at_ inp out = some r) :
    T (bl kd sq Qm + F) (Gen.em_verify_256 pd pQ pc2 pc3 pa pin po P)
      (fun x D' => ∃ (b : Nat) (Qm' : Mem Byte), x = some ⟨b, 0⟩ ∧ D' = bl .heap b (ofList r) + (bl kd sq Qm' + F)) := by
  unfold Flat.emVerifyN verifyFinish emExpand emSchedule at h
  simp only [hP.lam, hP.nwd, hP.r, hP.lenc, Nat.reduceEqDiff, Nat.reduceDiv, Nat.reduceMul, Nat.reduceAdd, if_true, if_false] at h
  inv h
  obtain ⟨Qm', h0, q, h1, xm, ⟨⟨rk, zz⟩, hrk, ⟨x', e⟩, hx', e'⟩, b0, h2, c0, h4, pl, hpl, y, hy, qt, h8, bq, hbq, ba, hba, bd, hbd, rfl⟩ := h
  simp only at e' hx'
  obtain rfl := e'
  have s6 := emConstraints1_sd h4
  rw [zkInit_sd h2] at s6
  unfold Gen.em_verify_256
  refine t_correctQ hC hcnt (by decide) (by decide) rfl hd hc3 hQ h0 fun _ => ?_
  refine t_call rfl (col_to_row_256_run hQ.there View.here0 (by decide) h1) ?_
  rintro _ _ ⟨bv, rfl, rfl⟩
  refine t_alloc fun bx => t_alloc fun bk => ?_
  refine t_run rfl (rijndael256_init_run (by hview) hrk) ?_
  refine t_expand (D := _) (F := bl .stack bk rk + (bl .aligned bv q + (bl kd sq Qm' + F))) (by decide) (by decide) (by hfind1) (by hview) hx' fun _ => ?_
  refine t_free (by hfind1) ?_
  refine t_run rfl (zk_hash_256_init_run (by hview) h2) ?_
  refine t_run rfl (em_constraints1_256_run (c0 := b0) (q := q) (x := x') (out := out) (d := ch3) (p := pc2) hP (by hview) (by hview) (by hview) (by hview) h4) ?_
  refine t_alloc fun bt => ?_
  refine t_sumpoly (by decide) (View.ptr (by hview) hpl) hy ?_
  have hql : qt.length = 32 := by
    unfold zkFinalize at h8
    inv h8
    obtain ⟨_, -, _, -, rfl⟩ := h8
    rw [toBytes_eq, tabP_length]
  refine t_call rfl (zk_hash_256_finalize_run (z := c0) (p := pc2) (by rw [s6]; hview) h8 (wrN_fresh hql)) ?_
  rintro _ _ rfl
  refine t_free (by hfind1) ?_
  refine t_bf_load0 (by decide) (by hview) hbq (t_bf_load0 (by decide) (by hview) hba (t_bf_load0 (by decide) (by hview) hbd ?_))
  refine t_bf_store (m' := ofList (bfAdd bq (bfMul ba bd)).toBytes) (by hfind1) (wrN_ofList (by rw [toBytes_eq, tabP_length, hql])) ?_
  exact t_free (by hfind1) (t_pure ⟨_, _, rfl, by hfind⟩)

end

end Faest.C
