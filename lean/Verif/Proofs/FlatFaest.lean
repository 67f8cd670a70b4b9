/-
Byte-addressed buffers in universal_hashing.c, faest_aes.c and faest.c: simulation of the functions on arrays of
byte strings.
-/
import Verif.Proofs.FlatVole
import Verif.Proofs.SignVerify
import Verif.Model.Api

namespace Faest

/-! ### Universal hashing -/

theorem forStepSame {S : Type} {hi step fuel j : Nat} {s : S} {f g : Nat → S → Option S}
    (h : ∀ i s, Sim (fun a b => b = a) (f i s) (g i s)) :
    Sim (fun a b => b = a) (forStep hi step fuel j s f) (forStep hi step fuel j s g) := by
  refine (Sim.forStep (fun a b => b = a) (f := f) (g := g) ?_ fuel j s s rfl).mono ?_
  · rintro i _ s rfl
    exact h i s
  · rintro ⟨a1, a2⟩ ⟨b1, b2⟩ _ ⟨h1, h2⟩
    exact Prod.ext h1 h2

theorem computeH1_sim {sd sd' x x' : Mem Byte} (hs : Le sd sd') (hx : Le x x') {toff lam ell : Nat} :
    Sim (fun a b => b = a) (computeH1 sd toff x lam ell) (computeH1 sd' toff x' lam ell) := by
  unfold computeH1
  refine (bfLoad_sim hs).bind ?_
  rintro _ bt rfl
  simp only []
  refine hx.rdNSim.bind ?_
  rintro _ last rfl
  refine Sim.same fun tmp _ => ?_
  refine Sim.same fun s _ => ?_
  refine Sim.bind (forStepSame fun i s => ?_) ?_
  · refine (bfLoad_sim hx).bind ?_
    rintro _ y rfl
    exact Sim.rfl
  rintro _ s rfl
  exact Sim.rfl

theorem voleHashN_sim {n : Nat} {sd sd' x x' : Mem Byte} (hs : Le sd sd') (hx : Le x x') {ell : Nat} :
    Sim (fun a b => b = a ∧ a.length = n / 8 + UNIVERSAL_HASH_B) (voleHashN n sd x ell) (voleHashN n sd' x' ell) := by
  unfold voleHashN
  simp only []
  refine hx.rdNSim.bind ?_
  rintro _ last rfl
  refine Sim.same fun tmp _ => ?_
  refine Sim.same fun h0 _ => ?_
  refine (bfLoad_sim hs).bind ?_
  rintro _ bs rfl
  refine Sim.bind (R := fun a b => b = a) ?_ ?_
  · refine Sim.forR _ rfl ?_
    rintro i _ _ s _ rfl
    refine (bfLoad_sim hx).bind ?_
    rintro _ y rfl
    exact Sim.rfl
  rintro _ h rfl
  refine (computeH1_sim hs hx).bind ?_
  rintro _ h1 rfl
  refine (bfLoad_sim hs).bind ?_
  rintro _ r0 rfl
  refine (bfLoad_sim hs).bind ?_
  rintro _ r1 rfl
  refine (bfLoad_sim hs).bind ?_
  rintro _ r2 rfl
  refine (bfLoad_sim hs).bind ?_
  rintro _ r3 rfl
  refine hx.ptrSim.bind ?_
  intro p p' hp
  exact xorArr_simL Le.rfl hp

theorem fieldBits_lam {lam : Nat} (h : LamOk lam) : fieldBits lam = lam := by
  unfold LamOk at h
  unfold fieldBits
  rcases h with rfl | rfl | rfl <;> rfl

theorem voleHash_sim {sd sd' x x' : Mem Byte} {ell lam : Nat} (hlam : LamOk lam) (hs : Le sd sd') (hx : Le x x') :
    Sim (fun a b => b = a ∧ a.length = lam / 8 + UNIVERSAL_HASH_B) (voleHash sd x ell lam) (voleHash sd' x' ell lam) := by
  unfold voleHash
  have := voleHashN_sim (n := fieldBits lam) hs hx (ell := ell)
  rw [fieldBits_lam hlam] at this ⊢
  exact this

/-- Hash contexts with the same state and seeds in a smaller and a larger buffer. -/
def CtxLe {n : Nat} (c c' : ZkCtx n) : Prop := ∃ sd, Le c.sd sd ∧ c' = { c with sd := sd }

/-- The two contexts of the prover. -/
def CtxLe2 {n : Nat} (c c' : ZkCtx n × ZkCtx n) : Prop := CtxLe c.1 c'.1 ∧ CtxLe c.2 c'.2

theorem CtxLe.update {n : Nat} {c c' : ZkCtx n} (h : CtxLe c c') (v : BF n) : CtxLe (zkUpdate c v) (zkUpdate c' v) := by
  obtain ⟨sd, h1, rfl⟩ := h
  exact ⟨sd, h1, rfl⟩

theorem zkInit_sim {n : Nat} {sd sd' : Mem Byte} (h : Le sd sd') : Sim CtxLe (zkInit n sd) (zkInit n sd') := by
  unfold zkInit
  refine (bfLoad_sim h).bind ?_
  rintro _ s rfl
  refine (bfLoad_sim h).bind ?_
  rintro _ t rfl
  exact Sim.pure ⟨sd', h, rfl⟩

theorem zkFinalize_sim {n : Nat} {c c' : ZkCtx n} (h : CtxLe c c') {x : BF n} :
    Sim (fun a b => b = a ∧ a.length = n / 8) (zkFinalize c x) (zkFinalize c' x) := by
  obtain ⟨sd, h1, rfl⟩ := h
  unfold zkFinalize
  refine (bfLoad_sim h1).bind ?_
  rintro _ r0 rfl
  refine (bfLoad_sim h1).bind ?_
  rintro _ r1 rfl
  exact Sim.pure ⟨rfl, toBytes_length _⟩

/-- Pairs with related first and equal second components. -/
def FstRel {α β γ : Type} (R : α → β → Prop) (a : α × γ) (b : β × γ) : Prop := R a.1 b.1 ∧ b.2 = a.2

/-! ### faest_aes.c -/

theorem ksConstraints0_sim {n : Nat} {P : Params} {w : Mem Byte} {v : Mem (BF n)} {c c' : ZkCtx n × ZkCtx n}
    (h : CtxLe2 c c') : Sim (FstRel CtxLe2) (ksConstraints0 P w v c) (ksConstraints0 P w v c') := by
  unfold ksConstraints0
  refine Sim.same fun k _ => ?_
  refine Sim.same fun vk _ => ?_
  refine Sim.same fun wd _ => ?_
  refine Sim.same fun vwd _ => ?_
  refine Sim.bind (R := FstRel CtxLe2) ?_ ?_
  · refine Sim.forN (fun _ => FstRel CtxLe2) ⟨h, rfl⟩ ?_
    rintro j _ ⟨c, iwd, rot⟩ ⟨c', _⟩ ⟨hc, rfl⟩
    simp only at hc
    unfold ksConstr0Step
    simp only []
    refine Sim.same fun kh _ => ?_
    refine Sim.same fun vkh _ => ?_
    refine Sim.same fun wh _ => ?_
    refine Sim.same fun vwh _ => ?_
    refine Sim.bind (R := CtxLe2) ?_ ?_
    · refine Sim.forN (fun _ => CtxLe2) hc ?_
      intro r _ c c' hc
      refine Sim.same fun _ _ => ?_
      refine Sim.same fun _ _ => ?_
      refine Sim.same fun _ _ => ?_
      refine Sim.same fun _ _ => ?_
      exact Sim.pure ⟨hc.1.update _, hc.2.update _⟩
    · intro c c' hc
      exact Sim.pure ⟨hc, rfl⟩
  rintro ⟨c, x⟩ ⟨c', _⟩ ⟨hc, rfl⟩
  exact Sim.pure ⟨hc, rfl⟩

theorem ksConstraints1_sim {n : Nat} {P : Params} {q : Mem (BF n)} {delta : Mem Byte} {c c' : ZkCtx n}
    (h : CtxLe c c') : Sim (FstRel CtxLe) (ksConstraints1 P q delta c)
      (ksConstraints1 P q delta c') := by
  unfold ksConstraints1
  refine Sim.same fun qk _ => ?_
  refine Sim.same fun qwd _ => ?_
  refine Sim.same fun bfd _ => ?_
  simp only []
  refine Sim.bind (R := FstRel CtxLe) ?_ ?_
  · refine Sim.forN (fun _ => FstRel CtxLe) ⟨h, rfl⟩ ?_
    rintro j _ ⟨c, iwd, rot⟩ ⟨c', _⟩ ⟨hc, rfl⟩
    simp only at hc
    unfold ksConstr1Step
    simp only []
    refine Sim.same fun kh _ => ?_
    refine Sim.same fun vkh _ => ?_
    refine Sim.bind (R := CtxLe) ?_ ?_
    · refine Sim.forN (fun _ => CtxLe) hc ?_
      intro r _ c c' hc
      refine Sim.same fun _ _ => ?_
      refine Sim.same fun _ _ => ?_
      exact Sim.pure (hc.update _)
    · intro c c' hc
      exact Sim.pure ⟨hc, rfl⟩
  rintro ⟨c, x⟩ ⟨c', _⟩ ⟨hc, rfl⟩
  exact Sim.pure ⟨hc, rfl⟩

theorem hashLoop0_sim {n N : Nat} {s vs sd vsd : Mem (BF n)} {c c' : ZkCtx n × ZkCtx n} (h : CtxLe2 c c') :
    Sim CtxLe2 (hashLoop0 N s vs sd vsd c) (hashLoop0 N s vs sd vsd c') := by
  unfold hashLoop0
  refine Sim.forN (fun _ => CtxLe2) h ?_
  intro r _ c c' hc
  refine Sim.same fun _ _ => ?_
  refine Sim.same fun _ _ => ?_
  refine Sim.same fun _ _ => ?_
  refine Sim.same fun _ _ => ?_
  exact Sim.pure ⟨hc.1.update _, hc.2.update _⟩

theorem hashLoop1_sim {n N : Nat} {qs qsd : Mem (BF n)} {d2 : BF n} {c c' : ZkCtx n} (h : CtxLe c c') :
    Sim CtxLe (hashLoop1 N qs qsd d2 c) (hashLoop1 N qs qsd d2 c') := by
  unfold hashLoop1
  refine Sim.forN (fun _ => CtxLe) h ?_
  intro r _ c c' hc
  refine Sim.same fun _ _ => ?_
  refine Sim.same fun _ _ => ?_
  exact Sim.pure (hc.update _)

theorem encConstraints0_sim {n : Nat} {P : Params} {inp out w k : Mem Byte} {ino oo wo vo : Nat} {v vk : Mem (BF n)}
    {c c' : ZkCtx n × ZkCtx n} (h : CtxLe2 c c') :
    Sim CtxLe2 (encConstraints0 P inp ino out oo w wo v vo k vk c)
      (encConstraints0 P inp ino out oo w wo v vo k vk c') := by
  unfold encConstraints0
  refine Sim.same fun _ _ => ?_
  refine Sim.same fun _ _ => ?_
  refine Sim.same fun _ _ => ?_
  refine Sim.same fun _ _ => ?_
  exact hashLoop0_sim h

theorem encConstraints1_sim {n : Nat} {P : Params} {inp out delta : Mem Byte} {ino oo qo : Nat} {q qk : Mem (BF n)}
    {c c' : ZkCtx n} (h : CtxLe c c') :
    Sim CtxLe (encConstraints1 P inp ino out oo q qo qk delta c) (encConstraints1 P inp ino out oo q qo qk delta c') := by
  unfold encConstraints1
  refine Sim.same fun _ _ => ?_
  refine Sim.same fun _ _ => ?_
  refine Sim.same fun _ _ => ?_
  exact hashLoop1_sim h

theorem encConstraints0Snd_sim {n : Nat} {P : Params} {inp out w k : Mem Byte} {v vk : Mem (BF n)}
    {c c' : ZkCtx n × ZkCtx n} (h : CtxLe2 c c') :
    Sim CtxLe2 (encConstraints0Snd P inp out w v k vk c) (encConstraints0Snd P inp out w v k vk c') := by
  unfold encConstraints0Snd
  split
  · exact encConstraints0_sim h
  · exact Sim.pure h

theorem encConstraints1Snd_sim {n : Nat} {P : Params} {inp out delta : Mem Byte} {q qk : Mem (BF n)}
    {c c' : ZkCtx n} (h : CtxLe c c') :
    Sim CtxLe (encConstraints1Snd P inp out q qk delta c) (encConstraints1Snd P inp out q qk delta c') := by
  unfold encConstraints1Snd
  split
  · exact encConstraints1_sim h
  · exact Sim.pure h

theorem emConstraints0_sim {n : Nat} {P : Params} {out x w : Mem Byte} {v : Mem (BF n)}
    {c c' : ZkCtx n × ZkCtx n} (h : CtxLe2 c c') :
    Sim CtxLe2 (emConstraints0 P out x w v c) (emConstraints0 P out x w v c') := by
  unfold emConstraints0
  refine Sim.same fun _ _ => ?_
  refine Sim.same fun _ _ => ?_
  refine Sim.same fun _ _ => ?_
  refine Sim.same fun _ _ => ?_
  refine Sim.same fun _ _ => ?_
  exact hashLoop0_sim h

theorem emConstraints1_sim {n : Nat} {P : Params} {out x delta : Mem Byte} {q : Mem (BF n)}
    {c c' : ZkCtx n} (h : CtxLe c c') :
    Sim CtxLe (emConstraints1 P out x q delta c) (emConstraints1 P out x q delta c') := by
  unfold emConstraints1
  refine Sim.same fun _ _ => ?_
  refine Sim.same fun _ _ => ?_
  refine Sim.same fun _ _ => ?_
  refine Sim.same fun _ _ => ?_
  refine Sim.same fun _ _ => ?_
  exact hashLoop1_sim h

theorem verifyFinish_sim {n : Nat} {q : Mem (BF n)} {ell : Nat} {a d : Mem Byte} {c c' : ZkCtx n} (h : CtxLe c c') :
    Sim (fun a b => b = a) (verifyFinish c q ell a d) (verifyFinish c' q ell a d) := by
  unfold verifyFinish
  refine Sim.same fun _ _ => ?_
  refine Sim.same fun _ _ => ?_
  refine (zkFinalize_sim h).bind ?_
  rintro _ qt ⟨rfl, -⟩
  exact Sim.rfl

theorem columnToRowMajor_flat {n L ell : Nat} {v : Mem (List Byte)} {f : Mem Byte} (h : Fl L v f) :
    Sim (fun a b => b = a) (columnToRowMajor n v ell) (Flat.columnToRowMajor n f L ell) := by
  refine Sim.fill fun row _ => ?_
  refine Sim.bind (R := fun a b => b = a) ?_ ?_
  · refine Sim.forN (fun _ a b => b = a) rfl ?_
    rintro col _ nr _ rfl
    refine h.ptr.bind ?_
    rintro xs p ⟨-, hp⟩
    refine (ptrGetBit_sim hp).bind ?_
    rintro _ b rfl
    exact Sim.rfl
  rintro _ nr rfl
  exact Sim.rfl

/-- Overwriting the first bytes of an element. -/
theorem Fl.wrPart {L : Nat} {m m' : Mem (List Byte)} {f : Mem Byte} (h : Fl L m f) {i : Nat} {col x : List Byte}
    (hc : Faest.rd m i = some col) (hx : x.length ≤ L) (hw : Faest.wr m i (x ++ col.drop x.length) = some m') :
    ∃ f', wrN f (i * L) x = some f' ∧ Fl L m' f' := by
  obtain ⟨hi, hlen, hr⟩ := wr_inv hw
  have hle := h.le hi
  obtain ⟨hcl, hcd⟩ := h.dat i col hc
  obtain ⟨f', hf', hfl, hfr⟩ := wrN_some (m := f) (off := i * L) (l := x) (by omega)
  refine ⟨f', hf', by rw [hfl, h.len, hlen], ?_⟩
  intro k ys hk
  rw [hr] at hk
  by_cases hki : k = i
  · rw [if_pos hki] at hk
    obtain rfl := Option.some.inj hk
    refine ⟨by rw [List.length_append, List.length_drop]; omega, fun t ht => ?_⟩
    rw [hfr, hki]
    by_cases htx : t < x.length
    · rw [if_pos (by omega), Nat.add_sub_cancel_left, List.getElem?_append_left htx]
    · rw [if_neg (by omega), List.getElem?_append_right (by omega), List.getElem?_drop, hcd t ht]
      congr 1
      omega
  · rw [if_neg hki] at hk
    obtain ⟨h1, h2⟩ := h.dat k ys hk
    refine ⟨h1, fun t ht => ?_⟩
    rw [hfr, if_neg ?_, h2 t ht]
    rcases Nat.lt_or_gt_of_ne hki with hlt | hgt
    · have := block_le (L := L) hlt
      omega
    · have := block_le (L := L) hgt
      omega

theorem correctQ_flat {P : Params} {d chall3 : Mem Byte} {nb L : Nat} {Q : Mem (List Byte)} {f : Mem Byte}
    (h : Fl L Q f) (hnb : nb ≤ L) :
    Sim (Fl L) (correctQ P d chall3 nb Q) (Flat.correctQ P d chall3 nb f L) := by
  unfold correctQ Flat.correctQ
  refine Sim.bind (R := FstRel (Fl L)) ?_ ?_
  · refine Sim.forN (fun _ => FstRel (Fl L)) ⟨h, rfl⟩ ?_
    intro i _ s t hs
    simp only []
    refine Sim.same fun dec _ => ?_
    refine Sim.forN (fun _ => FstRel (Fl L)) hs ?_
    rintro j _ ⟨Q, idx⟩ ⟨f, _⟩ ⟨h, rfl⟩
    simp only at h ⊢
    refine Sim.same fun b _ => ?_
    split
    · refine Sim.left fun col hcol => ?_
      obtain ⟨p, hp, hl, hle⟩ := h.ptr col hcol
      refine Sim.right hp ?_
      refine (xorArr_simL Le.rfl hle).bind ?_
      rintro _ x ⟨rfl, hx⟩
      refine Sim.left fun Q' hQ' => ?_
      rw [← hx] at hQ'
      obtain ⟨f', k1, k2⟩ := h.wrPart hcol (by omega) hQ'
      exact Sim.right k1 (Sim.pure ⟨k2, rfl⟩)
    · exact Sim.pure ⟨h, rfl⟩
  rintro ⟨Q, a⟩ ⟨f, b⟩ ⟨h, -⟩
  exact Sim.pure h

theorem aesProve_flat {P : Params} {w u u' inp out chall chall' : Mem Byte} {L : Nat} {V : Mem (List Byte)}
    {f : Mem Byte} (hlam : LamOk P.lambda) (hu : Le u u') (hc : Le chall chall') (hV : Fl L V f) :
    Sim (fun a b => b = a ∧ a.1.length = P.lambda / 8 ∧ a.2.length = P.lambda / 8)
      (aesProve P w u V inp out chall) (Flat.aesProve P w u' f L inp out chall') := by
  unfold aesProve Flat.aesProve
  rw [fieldBits_lam hlam]
  split
  · unfold aesProveN Flat.aesProveN
    refine (columnToRowMajor_flat hV).bind ?_
    rintro _ v rfl
    refine (zkInit_sim hc).bind fun a0 a0' h0 => ?_
    refine (zkInit_sim hc).bind fun a1 a1' h1 => ?_
    refine (ksConstraints0_sim ⟨h0, h1⟩).bind ?_
    rintro ⟨c, k, vk⟩ ⟨c', _⟩ ⟨hc, rfl⟩
    simp only at hc ⊢
    refine (encConstraints0_sim hc).bind fun c c' hc => ?_
    refine (encConstraints0Snd_sim hc).bind fun c c' hc => ?_
    refine (bfLoad_sim hu).bind ?_
    rintro _ ub rfl
    refine (zkFinalize_sim hc.2).bind ?_
    rintro _ a ⟨rfl, ha⟩
    refine Sim.same fun _ _ => ?_
    refine Sim.same fun _ _ => ?_
    refine (zkFinalize_sim hc.1).bind ?_
    rintro _ b ⟨rfl, hb⟩
    exact Sim.pure ⟨rfl, ha, hb⟩
  · unfold emProveN Flat.emProveN
    refine Sim.same fun _ _ => ?_
    refine (columnToRowMajor_flat hV).bind ?_
    rintro _ v rfl
    refine (zkInit_sim hc).bind fun a0 a0' h0 => ?_
    refine (zkInit_sim hc).bind fun a1 a1' h1 => ?_
    refine (emConstraints0_sim ⟨h0, h1⟩).bind fun c c' hc => ?_
    refine (bfLoad_sim hu).bind ?_
    rintro _ ub rfl
    refine (zkFinalize_sim hc.2).bind ?_
    rintro _ a ⟨rfl, ha⟩
    refine Sim.same fun _ _ => ?_
    refine Sim.same fun _ _ => ?_
    refine (zkFinalize_sim hc.1).bind ?_
    rintro _ b ⟨rfl, hb⟩
    exact Sim.pure ⟨rfl, ha, hb⟩

theorem aesVerify_flat {P : Params} {d chall2 chall2' chall3 aTilde inp out : Mem Byte} {L : Nat}
    {Q : Mem (List Byte)} {f : Mem Byte} (hc : Le chall2 chall2') (hQ : Fl L Q f) (hl : (P.l + 7) / 8 ≤ L)
    (hl' : (P.Lenc + 7) / 8 ≤ L) :
    Sim (fun a b => b = a)
      (aesVerify P d Q chall2 chall3 aTilde inp out) (Flat.aesVerify P d f L chall2' chall3 aTilde inp out) := by
  unfold aesVerify Flat.aesVerify
  split
  · unfold aesVerifyN Flat.aesVerifyN
    refine (correctQ_flat hQ hl).bind fun Q f hQ => ?_
    refine (columnToRowMajor_flat hQ).bind ?_
    rintro _ q rfl
    refine (zkInit_sim hc).bind fun b0 b0' h0 => ?_
    refine (ksConstraints1_sim h0).bind ?_
    rintro ⟨c, k⟩ ⟨c', _⟩ ⟨hc, rfl⟩
    simp only at hc ⊢
    refine (encConstraints1_sim hc).bind fun c c' hc => ?_
    refine (encConstraints1Snd_sim hc).bind fun c c' hc => ?_
    exact verifyFinish_sim hc
  · unfold emVerifyN Flat.emVerifyN
    refine (correctQ_flat hQ hl').bind fun Q f hQ => ?_
    refine (columnToRowMajor_flat hQ).bind ?_
    rintro _ q rfl
    refine Sim.same fun _ _ => ?_
    refine (zkInit_sim hc).bind fun b0 b0' h0 => ?_
    refine (emConstraints1_sim h0).bind fun c c' hc => ?_
    exact verifyFinish_sim hc

/-! ### faest.c -/

/-- The sizes the buffers of `faest_sign` and `faest_verify` rely on. -/
structure FlatOk (P : Params) : Prop where
  lam : LamOk P.lambda
  k0 : 1 ≤ P.k0
  k1 : 1 ≤ P.k1
  l8 : P.l % 8 = 0
  enc : P.Lenc ≤ P.l

theorem flatOk_params (i : ParamId) : FlatOk (params i) := by
  have h := params_wf i
  refine ⟨h.lam, h.k0pos, h.k1pos, h.l8, ?_⟩
  cases i <;> decide

section
variable {P : Params} (h : FlatOk P)
include h

theorem FlatOk.hat : (P.l + P.lambda * 2 + UNIVERSAL_HASH_B_BITS + 7) / 8
    = (P.l + P.lambda * 2 + UNIVERSAL_HASH_B_BITS) / 8 := by
  have h1 := h.l8
  have h2 := h.lam
  unfold LamOk at h2
  have h3 : UNIVERSAL_HASH_B_BITS = 16 := rfl
  omega

theorem FlatOk.lam32 : P.lambda / 8 ≤ MAX_LAMBDA_BYTES := by
  have h2 := h.lam
  unfold LamOk at h2
  have h3 : MAX_LAMBDA_BYTES = 32 := rfl
  omega

theorem FlatOk.le : (P.l + 7) / 8 ≤ (P.l + P.lambda * 2 + UNIVERSAL_HASH_B_BITS) / 8 ∧
    (P.Lenc + 7) / 8 ≤ (P.l + P.lambda * 2 + UNIVERSAL_HASH_B_BITS) / 8 := by
  have h1 := h.enc
  have h2 := h.lam
  unfold LamOk at h2
  omega

theorem FlatOk.two : 2 * P.lambda / 8 = P.lambda / 8 * 2 := by
  have h2 := h.lam
  unfold LamOk at h2
  omega

end

/-- An array on the stack holding `l`, read back with its length. -/
theorem Sim.stack {γ δ : Type} {Q : γ → δ → Prop} {x : Option γ} {n k : Nat} {l : List Byte} {g : Mem Byte → Option δ}
    (hl : l.length = k) (hk : k ≤ n)
    (hg : ∀ m, Le (ofList l) m → Faest.rdN m 0 k = Option.some l → Sim Q x (g m)) :
    Sim Q x (Flat.stack n l >>= g) := by
  obtain ⟨m, h1, -, h3, h4⟩ := stack_some (n := n) (l := l) (by omega)
  rw [hl] at h4
  exact Sim.right h1 (hg m h3 h4)

theorem hashVStep_flat {P : Params} {ch1 : List Byte} {ch1' f : Mem Byte} {V : Mem (List Byte)} {L i : Nat}
    {ctx : List Byte} (hlam : LamOk P.lambda) (hc : Le (ofList ch1) ch1') (hV : Fl L V f) :
    Sim (fun a b => b = a) (hashVStep P ch1 V i ctx) (Flat.hashVStep P ch1' f L i ctx) := by
  unfold hashVStep Flat.hashVStep
  refine hV.ptr.bind ?_
  rintro col p ⟨-, hp⟩
  refine (voleHash_sim hlam hc hp).bind ?_
  rintro _ t ⟨rfl, -⟩
  exact Sim.rfl

theorem signOpenStep_flat {P : Params} {a : List VecCom} {b : List Flat.VecCom} {i : Nat} {sig : Mem Byte}
    (h : FlComs (P.lambda / 8) a b) :
    Sim (fun a b => b = a) (signOpenStep P a i sig) (Flat.signOpenStep P b i sig) := by
  unfold signOpenStep Flat.signOpenStep
  refine Sim.same fun ch _ => ?_
  refine Sim.same fun s_ _ => ?_
  simp only []
  refine Sim.bind (R := FlCom (P.lambda / 8)) (fun c hc => h.dat i c hc) ?_
  intro c c' hc
  exact vectorOpen_flat hc.k hc.com

theorem faestSign_flat {X : XOF} {P : Params} {sig msg key inp out : Mem Byte} {msglen rholen : Nat}
    {rho : Option (Mem Byte)} (h : FlatOk P) :
    Sim (fun a b => b = a) (faestSign X P sig msg msglen key inp out rho rholen)
      (Flat.faestSign X P sig msg msglen key inp out rho rholen) := by
  unfold faestSign Flat.faestSign
  have hlam := h.lam
  have h32 := h.lam32
  simp only []
  refine Sim.same fun inpL _ => ?_
  refine Sim.same fun outL _ => ?_
  refine Sim.same fun m _ => ?_
  refine Sim.stack (k := P.lambda / 8 * 2) ((squeeze_length ..).trans h.two) (by omega) fun mu _ hmu => ?_
  refine Sim.same fun keyL _ => ?_
  refine Sim.right hmu ?_
  refine Sim.same fun r _ => ?_
  refine Sim.stack (k := P.lambda / 8) (by simp only [H3]; exact squeeze_length ..) (by omega) fun rk hrk _ => ?_
  refine Sim.same fun sig _ => ?_
  refine Sim.same fun iv hiv => ?_
  refine (voleCommit_flat (fu := malloc ((P.l + P.lambda * 2 + UNIVERSAL_HASH_B_BITS) / 8))
    (fv := calloc (P.lambda * ((P.l + P.lambda * 2 + UNIVERSAL_HASH_B_BITS) / 8)) 0) hlam (rdN_length hiv) h.k0 h.k1 ?_ hrk ?_ ?_).bind ?_
  · simp only [H3]; exact squeeze_length ..
  · rw [malloc_length, h.hat]
  · rw [h.hat]; exact fl_calloc _ _
  rintro ⟨vc, sig⟩ ⟨fvc, _⟩ ⟨hvc, rfl⟩
  simp only at hvc ⊢
  rw [h.hat] at hvc
  rw [hvc.hcom]
  refine Sim.stack (k := P.lambda / 8 * 2) hvc.hcomLen (by omega) fun hcom _ hhcom => ?_
  refine Sim.same fun c _ => ?_
  refine Sim.same fun iv _ => ?_
  refine Sim.right hmu ?_
  refine Sim.right hhcom ?_
  refine Sim.stack (k := 5 * (P.lambda / 8) + 8) (squeeze_length ..) (by omega) fun ch1 hch1 hch1r => ?_
  refine (voleHash_sim hlam hch1 hvc.u).bind ?_
  rintro _ ut ⟨rfl, -⟩
  refine Sim.same fun sig _ => ?_
  refine Sim.bind (R := fun a b => b = a) ?_ ?_
  · refine Sim.forN (fun _ a b => b = a) rfl ?_
    rintro i _ ctx _ rfl
    exact hashVStep_flat hlam hch1 hvc.v
  rintro _ ctx rfl
  refine Sim.stack (k := 2 * (P.lambda / 8)) ((squeeze_length ..).trans (Nat.mul_comm _ _)) (by omega) fun hv _ hhv => ?_
  refine Sim.same fun w _ => ?_
  refine (xorArr_simL Le.rfl hvc.u).bind ?_
  rintro _ d ⟨rfl, -⟩
  refine Sim.same fun sig _ => ?_
  refine Sim.right hch1r ?_
  refine Sim.same fun ut _ => ?_
  refine Sim.right hhv ?_
  refine Sim.same fun d _ => ?_
  refine Sim.stack (k := 3 * (P.lambda / 8) + 8) (squeeze_length ..) (by omega) fun ch2 hch2 hch2r => ?_
  refine (aesProve_flat hlam hvc.u hch2 hvc.v).bind ?_
  rintro _ ⟨a, b⟩ ⟨rfl, -, hb⟩
  simp only at hb ⊢
  refine Sim.same fun sig _ => ?_
  refine Sim.stack (k := P.lambda / 8) hb (by omega) fun bt _ hbt => ?_
  refine Sim.right hch2r ?_
  refine Sim.same fun a _ => ?_
  refine Sim.right hbt ?_
  refine Sim.same fun sig _ => ?_
  refine Sim.forN (fun _ a b => b = a) rfl ?_
  rintro i _ sig _ rfl
  exact signOpenStep_flat hvc.vecCom

/-! Verification -/

/-- Several neighbouring elements. -/
theorem Fl.rdNs {L : Nat} {m : Mem (List Byte)} {f : Mem Byte} (h : Fl L m f) {off n : Nat} {xs : List (List Byte)}
    (hx : Faest.rdN m off n = some xs) :
    Faest.rdN f (off * L) (L * n) = some xs.flatten ∧ ∀ x ∈ xs, x.length = L := by
  have hle := rdN_le hx
  have hlen := rdN_length hx
  have hd : Fl L (m.drop off) (f.drop (off * L)) := by
    refine ⟨by rw [List.length_drop, List.length_drop, h.len, Nat.sub_mul], fun i ys hy => ?_⟩
    rw [rd_drop] at hy
    obtain ⟨h1, h2⟩ := h.dat _ ys hy
    refine ⟨h1, fun t ht => ?_⟩
    rw [rd_drop, ← h2 t ht, Nat.add_mul, Nat.add_assoc]
  have h1 := hd.flatten (rdN_drop0 hx)
  have h2 := rdN_le h1
  have h3 := rdN_length h1
  rw [List.length_drop] at h2
  refine ⟨?_, fun x hxm => ?_⟩
  · rw [← h3]
    have hb : off * L + xs.flatten.length ≤ f.length := by
      have := Nat.mul_le_mul_right L (show off ≤ m.length by omega)
      rw [← h.len] at this
      omega
    refine rdN_of_rd hb fun t ht => ?_
    have := rd_of_rdN h1 (t := t) (by omega)
    rwa [rd_drop, Nat.zero_add] at this
  · obtain ⟨i, hi, rfl⟩ := List.getElem_of_mem hxm
    have := rd_of_rdN hx (t := i) (by omega)
    rw [List.getElem?_eq_getElem hi] at this
    exact (h.dat _ _ this).1

theorem flatten_getElem_lens {L : Nat} : ∀ {xs : List (List Byte)}, (∀ x ∈ xs, x.length = L) → ∀ {i : Nat} {y : List Byte},
    xs[i]? = some y → ∀ t, t < L → xs.flatten[i * L + t]? = y[t]? := by
  intro xs
  induction xs with
  | nil => intro _ i y hy; exact absurd hy (by simp)
  | cons x xs ih =>
    intro hx i y hy t ht
    have hxl := hx x (by simp)
    rw [List.flatten_cons]
    cases i with
    | zero =>
      obtain rfl : x = y := by simpa using hy
      rw [Nat.zero_mul, Nat.zero_add, List.getElem?_append_left (by omega)]
    | succ i =>
      rw [List.getElem?_cons_succ] at hy
      rw [Nat.succ_mul, List.getElem?_append_right (by omega), ← ih (fun x h => hx x (by simp [h])) hy t ht, hxl]
      congr 1
      omega

theorem Fl.wrNs {L : Nat} {m m' : Mem (List Byte)} {f : Mem Byte} (h : Fl L m f) {off : Nat} {xs : List (List Byte)}
    (hx : ∀ x ∈ xs, x.length = L) (hw : wrN m off xs = some m') :
    ∃ f', wrN f (off * L) xs.flatten = some f' ∧ Fl L m' f' := by
  obtain ⟨w1, w2, w3⟩ := wrN_inv hw
  have hfl : xs.flatten.length = xs.length * L := by
    clear w1 w2 w3 hw
    induction xs with
    | nil => simp
    | cons x xs ih =>
      rw [List.flatten_cons, List.length_append, ih fun y hy => hx y (by simp [hy]), hx x (by simp), List.length_cons,
        Nat.succ_mul, Nat.add_comm]
  have hb := Nat.mul_le_mul_right L w1
  rw [← h.len, Nat.add_mul] at hb
  obtain ⟨f', g1, g2, g3⟩ := wrN_some (m := f) (off := off * L) (l := xs.flatten) (by omega)
  refine ⟨f', g1, by rw [g2, h.len, w2], fun i ys hy => ?_⟩
  rw [w3] at hy
  by_cases hc : off ≤ i ∧ i < off + xs.length
  · rw [if_pos hc] at hy
    refine ⟨hx ys (List.mem_of_getElem? hy), fun t ht => ?_⟩
    have h1 := Nat.mul_le_mul_right L hc.1
    have h2 := block_le (L := L) hc.2
    rw [Nat.add_mul] at h2
    rw [g3, if_pos (by omega), ← flatten_getElem_lens hx hy t ht, Nat.sub_mul]
    congr 1
    omega
  · rw [if_neg hc] at hy
    obtain ⟨h1, h2⟩ := h.dat i ys hy
    refine ⟨h1, fun t ht => ?_⟩
    rw [g3, if_neg ?_, h2 t ht]
    rcases Nat.lt_or_ge i off with hlt | hge
    · have := block_le (L := L) hlt
      omega
    · have := Nat.mul_le_mul_right L (show off + xs.length ≤ i by omega)
      rw [Nat.add_mul] at this
      omega

structure FlVerSt (L D n : Nat) (a : VerifySt) (b : Flat.VerifySt) : Prop where
  dtilde : Fl D a.dtilde b.dtilde
  dLen : a.dtilde.length = n
  dIdx : b.dIdx = a.dIdx
  q : Fl L a.q b.q
  qIdx : b.qIdx = a.qIdx

/-- The state of the loop over the columns of `Dtilde`. -/
def FlDt (D n : Nat) (a : Mem (List Byte) × Nat) (b : Mem Byte × Nat) : Prop :=
  Fl D a.1 b.1 ∧ a.1.length = n ∧ b.2 = a.2

theorem verifyStep_flat {P : Params} {sig f : Mem Byte} {qp : Mem (List Byte)} {i : Nat} {s : VerifySt}
    {t : Flat.VerifySt} (hq : Fl ((P.l + P.lambda * 2 + UNIVERSAL_HASH_B_BITS) / 8) qp f)
    (hs : FlVerSt ((P.l + P.lambda * 2 + UNIVERSAL_HASH_B_BITS) / 8) (P.lambda / 8 + UNIVERSAL_HASH_B) P.lambda s t) :
    Sim (FlVerSt ((P.l + P.lambda * 2 + UNIVERSAL_HASH_B_BITS) / 8) (P.lambda / 8 + UNIVERSAL_HASH_B) P.lambda)
      (verifyStep P sig qp i s) (Flat.verifyStep P sig f i t) := by
  unfold verifyStep Flat.verifyStep
  simp only []
  refine Sim.same fun ch _ => ?_
  refine Sim.same fun dl _ => ?_
  refine Sim.same fun ut _ => ?_
  refine Sim.bind (R := FlDt (P.lambda / 8 + UNIVERSAL_HASH_B) P.lambda) ?_ ?_
  · refine Sim.forN (fun _ => FlDt (P.lambda / 8 + UNIVERSAL_HASH_B) P.lambda) ⟨hs.dtilde, hs.dLen, hs.dIdx⟩ ?_
    rintro j _ ⟨a, idx⟩ ⟨b, _⟩ ⟨h1, h2, rfl⟩
    simp only at h1 h2
    unfold dtildeStep Flat.dtildeStep
    simp only []
    refine Sim.left fun x hx => ?_
    have hlt := rd_lt hx
    rw [if_pos (by omega)]
    obtain ⟨p, hp, -, hle⟩ := h1.ptr x hx
    refine Sim.right hp ?_
    refine Sim.same fun b _ => ?_
    refine (maskedXorArr_simL hle Le.rfl).bind ?_
    rintro _ y ⟨rfl, hy⟩
    refine Sim.left fun a' ha' => ?_
    obtain ⟨b', k1, k2⟩ := h1.wr hy ha'
    exact Sim.right k1 (Sim.pure ⟨k2, by rw [(wr_inv ha').2.1, h2], rfl⟩)
  rintro ⟨dt, idx⟩ ⟨fdt, _⟩ ⟨h1, h2, rfl⟩
  simp only at h1 h2 ⊢
  by_cases hi : i = 0
  · rw [if_pos hi, if_pos hi]
    refine Sim.left fun cols hcols => ?_
    obtain ⟨k1, k2⟩ := hq.rdNs hcols
    rw [hs.qIdx]
    refine Sim.right k1 ?_
    refine Sim.left fun q' hq' => ?_
    obtain ⟨f', k3, k4⟩ := hs.q.wrNs k2 hq'
    exact Sim.right k3 (Sim.pure ⟨h1, h2, rfl, k4, rfl⟩)
  · rw [if_neg hi, if_neg hi]
    refine Sim.same fun c _ => ?_
    refine Sim.bind (R := FstRel (Fl ((P.l + P.lambda * 2 + UNIVERSAL_HASH_B_BITS) / 8))) ?_ ?_
    · refine Sim.forN (fun _ => FstRel (Fl ((P.l + P.lambda * 2 + UNIVERSAL_HASH_B_BITS) / 8))) ⟨hs.q, hs.qIdx⟩ ?_
      rintro j _ ⟨a, idx⟩ ⟨b, _⟩ ⟨g1, rfl⟩
      simp only at g1
      unfold qCorrStep Flat.qCorrStep
      simp only []
      refine hq.ptr.bind ?_
      rintro x p ⟨-, hp⟩
      refine Sim.same fun b _ => ?_
      refine (maskedXorArr_simL hp Le.rfl).bind ?_
      rintro _ y ⟨rfl, hy⟩
      refine (g1.wrSim hy).bind fun a' b' k => ?_
      exact Sim.pure ⟨k, rfl⟩
    rintro ⟨q, idx'⟩ ⟨fq, _⟩ ⟨g1, rfl⟩
    exact Sim.pure ⟨h1, h2, rfl, g1, rfl⟩

theorem hashQStep_flat {P : Params} {ch1 : List Byte} {ch1' f fd : Mem Byte} {q dt : Mem (List Byte)} {L i : Nat}
    {ctx : List Byte} (h : FlatOk P) (hc : Le (ofList ch1) ch1') (hq : Fl L q f)
    (hd : Fl (P.lambda / 8 + UNIVERSAL_HASH_B) dt fd) :
    Sim (fun a b => b = a) (hashQStep P ch1 q dt i ctx) (Flat.hashQStep P ch1' f fd L i ctx) := by
  unfold hashQStep Flat.hashQStep
  have h32 := h.lam32
  refine hq.ptr.bind ?_
  rintro col p ⟨-, hp⟩
  refine (voleHash_sim h.lam hc hp).bind ?_
  rintro _ t ⟨rfl, ht⟩
  refine Sim.stack ht (by omega) fun qt hqt _ => ?_
  refine hd.ptr.bind ?_
  rintro d p ⟨-, hp⟩
  refine (xorArr_simL hqt hp).bind ?_
  rintro _ x ⟨rfl, -⟩
  exact Sim.rfl

theorem faestVerify_flat {X : XOF} {P : Params} {sig msg inp out : Mem Byte} {msglen : Nat} (h : FlatOk P) :
    Sim (fun a b => b = a) (faestVerify X P msg msglen sig inp out) (Flat.faestVerify X P msg msglen sig inp out) := by
  unfold faestVerify Flat.faestVerify
  have hlam := h.lam
  have h32 := h.lam32
  simp only []
  refine Sim.same fun inpL _ => ?_
  refine Sim.same fun outL _ => ?_
  refine Sim.same fun m _ => ?_
  refine Sim.stack (k := P.lambda / 8 * 2) ((squeeze_length ..).trans h.two) (by omega) fun mu _ hmu => ?_
  refine Sim.same fun iv hiv => ?_
  refine Sim.same fun ch _ => ?_
  refine Sim.same fun _ _ => ?_
  refine (voleReconstruct_flat (fq := calloc (P.lambda * ((P.l + P.lambda * 2 + UNIVERSAL_HASH_B_BITS) / 8)) 0) hlam
    (rdN_length hiv) ?_).bind ?_
  · rw [h.hat]; exact fl_calloc _ _
  rintro ⟨hc, qp⟩ ⟨_, f⟩ ⟨rfl, hcl, hq⟩
  simp only at hcl hq ⊢
  rw [h.hat] at hq
  refine Sim.stack (k := P.lambda / 8 * 2) hcl (by omega) fun hcom _ hhcom => ?_
  refine Sim.right hmu ?_
  refine Sim.right hhcom ?_
  refine Sim.same fun c _ => ?_
  refine Sim.stack (k := 5 * (P.lambda / 8) + 8) (squeeze_length ..) (by omega) fun ch1 hch1 hch1r => ?_
  refine Sim.bind (R := FlVerSt ((P.l + P.lambda * 2 + UNIVERSAL_HASH_B_BITS) / 8)
    (P.lambda / 8 + UNIVERSAL_HASH_B) P.lambda) ?_ ?_
  · refine Sim.forN (fun _ => FlVerSt ((P.l + P.lambda * 2 + UNIVERSAL_HASH_B_BITS) / 8)
      (P.lambda / 8 + UNIVERSAL_HASH_B) P.lambda) ⟨fl_calloc _ _, calloc_length _ _, rfl, fl_calloc _ _, rfl⟩ ?_
    intro i _ s t hs
    exact verifyStep_flat hq hs
  intro s t hs
  refine Sim.bind (R := fun a b => b = a) ?_ ?_
  · refine Sim.forN (fun _ a b => b = a) rfl ?_
    rintro i _ ctx _ rfl
    exact hashQStep_flat h hch1 hs.q hs.dtilde
  rintro _ ctx rfl
  refine Sim.stack (k := 2 * (P.lambda / 8)) ((squeeze_length ..).trans (Nat.mul_comm _ _)) (by omega) fun hv _ hhv => ?_
  refine Sim.right hch1r ?_
  refine Sim.same fun ut _ => ?_
  refine Sim.right hhv ?_
  refine Sim.same fun d _ => ?_
  refine Sim.stack (k := 3 * (P.lambda / 8) + 8) (squeeze_length ..) (by omega) fun ch2 hch2 hch2r => ?_
  refine Sim.same fun dp _ => ?_
  refine Sim.same fun ap _ => ?_
  refine (aesVerify_flat hch2 hs.q h.le.1 h.le.2).bind ?_
  rintro _ b rfl
  refine Sim.right hch2r ?_
  refine Sim.same fun a _ => ?_
  refine Sim.stack (k := P.lambda / 8) (squeeze_length ..) (by omega) fun c3 _ hc3 => ?_
  refine Sim.right hc3 ?_
  exact Sim.rfl

theorem signWithRandomness_flat {X : XOF} {i : ParamId} {sk : Option (Mem Byte)} {msg : Mem Byte} {msglen rholen : Nat}
    {rho sig : Option (Mem Byte)} {len : Option Nat} :
    Sim (fun a b => b = a) (signWithRandomness X i sk msg msglen rho rholen sig len)
      (Flat.signWithRandomness X i sk msg msglen rho rholen sig len) := by
  rcases sk with _ | sk
  · exact Sim.rfl
  rcases sig with _ | sig
  · exact Sim.rfl
  rcases len with _ | n
  · exact Sim.rfl
  unfold signWithRandomness Flat.signWithRandomness
  simp only []
  split
  · exact Sim.rfl
  · refine Sim.same fun key _ => ?_
    refine Sim.same fun o _ => ?_
    refine Sim.same fun out _ => ?_
    split
    · exact Sim.rfl
    · refine (faestSign_flat (flatOk_params i)).bind ?_
      rintro _ sg rfl
      exact Sim.rfl

theorem verify_flat {X : XOF} {i : ParamId} {pk sig : Option (Mem Byte)} {msg : Mem Byte} {msglen len : Nat} :
    Sim (fun a b => b = a) (verify X i pk msg msglen sig len) (Flat.verify X i pk msg msglen sig len) := by
  rcases pk with _ | pk
  · exact Sim.rfl
  rcases sig with _ | sig
  · exact Sim.rfl
  unfold verify Flat.verify
  simp only []
  split
  · exact Sim.rfl
  · refine Sim.same fun out _ => ?_
    exact faestVerify_flat (flatOk_params i)

end Faest
