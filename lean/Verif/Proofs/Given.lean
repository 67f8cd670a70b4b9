/-
Signatures made with given leaves.
-/
import Verif.Spec.Given
import Verif.Proofs.SignVerify
import Verif.Proofs.ConLocal
import Verif.Proofs.ApiRefine

namespace Faest
open Spec

theorem recNode_congr {lam : Nat} {iv : List Byte} {cop cop' : Nat → List Byte} {d leaf : Nat}
    (h : ∀ l, l < d → cop l = cop' l) : ∀ l, l ≤ d → ∀ j,
    recNode lam iv cop d leaf l j = recNode lam iv cop' d leaf l j := by
  intro l
  induction l with
  | zero => intro _ _; rfl
  | succ l ih =>
    intro hl j
    rw [recNode, recNode, h l (by omega), ih (by omega)]

theorem xb_cancel (a b : Byte) : a ^^^ (a ^^^ b) = b := by
  rw [← BitVec.xor_assoc, BitVec.xor_self, BitVec.zero_xor]

section
variable {X : XOF} {P : Params} {key I O : Nat → Byte} {m : List Byte} {R : Nat → Nat → Nat → Byte}
  {C : Nat → Nat → List Byte} {sg : Nat → Byte}

/-- The leaves fit to the openings of `sg`. -/
structure Fit (X : XOF) (P : Params) (R : Nat → Nat → Nat → Byte) (C : Nat → Nat → List Byte) (sg : Nat → Byte) : Prop where
  r : ∀ i, i < P.tau → ∀ j, j < 2 ^ depth P i → j ≠ leafIdx P (sgChall P sg) i → ∀ t,
    R i j t = expand P.lambda (sgIv P sg) (leafSd X P.lambda (sgIv P sg)
      (vNode P (sgIv P sg) (sgChall P sg) (sgNode P sg) i (depth P i) j)) t
  c : ∀ i, i < P.tau → ∀ j, j < 2 ^ depth P i → C i j = vCom X P (sgIv P sg) (sgChall P sg) (sgNode P sg) (sgCom P sg) i j

theorem Fit.vQ_eq (hf : Fit X P R C sg) (h : PWF P) {p t : Nat} (hp : p < P.lambda) :
    vQ X P (sgIv P sg) (sgChall P sg) (sgNode P sg) p t
      = gV P R p t ^^^ sel (strBit (sgChall P sg) p) (gU P R (treeOf P p) t) := by
  obtain ⟨i, j, hi, hj, rfl⟩ := h.col_exists hp
  unfold gV gU
  rw [vQ_col h hj, h.treeOf_col hj, h.posOf_col hj,
    voleV_shift (depth P i) (leafIdx P (sgChall P sg) i) j t (leafIdx_lt P _ i) (R i)]
  · rw [leafIdx_bit hj]
    cases strBit (sgChall P sg) (colStart P i + j) <;> rfl
  · intro k hk hk0
    unfold vR
    rw [if_neg hk0]
    exact (hf.r i hi _ (nat_xor_lt hk (leafIdx_lt P _ i)) (nat_xor_ne hk0) t).symm

/-- The correction strings of the signature belong to the leaves. -/
def CorrOk (P : Params) (R : Nat → Nat → Nat → Byte) (sg : Nat → Byte) : Prop :=
  ∀ i, i + 1 < P.tau → ∀ t, t < colBytes P → sg (posC P i + t) = gU P R 0 t ^^^ gU P R (i + 1) t

theorem corrOk_iff : At sg 0 (gCorrs P R) ↔ CorrOk P R sg := by
  constructor
  · intro h i hi t ht
    have hcb : 0 < colBytes P := by omega
    have hb : posC P i + t < posU P := by
      unfold posU posC
      have : (i + 1) * colBytes P ≤ (P.tau - 1) * colBytes P := Nat.mul_le_mul_right _ (by omega)
      rw [Nat.succ_mul] at this; omega
    unfold gCorrs at h
    have := h.fn hb
    rw [Nat.zero_add] at this
    rw [this]
    unfold posC
    rw [Nat.mul_comm, Nat.mul_add_div hcb, Nat.mul_add_mod, Nat.div_eq_of_lt ht, Nat.mod_eq_of_lt ht, Nat.add_zero]
  · intro h q hq
    unfold gCorrs at hq ⊢
    rw [tabP_length] at hq
    have hcb : 0 < colBytes P := by unfold colBytes; omega
    rw [tabP_getElem?, if_pos hq, Nat.zero_add]
    have hd : q / colBytes P < P.tau - 1 := (Nat.div_lt_iff_lt_mul hcb).2 hq
    have := h (q / colBytes P) (Nat.add_lt_of_lt_sub hd) (q % colBytes P) (Nat.mod_lt _ hcb)
    rw [← this]
    unfold posC
    rw [Nat.mul_comm, Nat.div_add_mod]

section stages
variable (hf : Fit X P R C sg) (h : PWF P) (hc : CorrOk P R sg)
include hf h hc

omit h in
theorem given_chall1 : vChall1 X P sg (muOf X P I O m) = gChall1 X P I O m (sgIv P sg) R C := by
  have e : tabP (posU P) sg = gCorrs P R := by
    have := (corrOk_iff.2 hc).tabP (n := posU P) (by unfold gCorrs; rw [tabP_length])
    simpa only [Nat.zero_add] using this
  unfold vChall1 gChall1 vHcom
  rw [e, hcomOf_congr hf.c]

theorem given_col {p t : Nat} (hp : p < P.lambda) (ht : t < colBytes P) :
    vCol X P sg p t = gV P R p t ^^^ sel (strBit (sgChall P sg) p) (gU P R 0 t) := by
  have hcorr : sgCorr P sg p t = gU P R (treeOf P p) t ^^^ gU P R 0 t := by
    unfold sgCorr
    by_cases hi0 : treeOf P p = 0
    · rw [if_pos hi0, hi0]
      exact BitVec.xor_self.symm
    · obtain ⟨i, j, hi, hj, rfl⟩ := h.col_exists hp
      rw [h.treeOf_col hj] at hi0 ⊢
      rw [if_neg hi0, hc (i - 1) (by omega) t ht, Nat.sub_add_cancel (by omega), BitVec.xor_comm]
  rw [vCol, hf.vQ_eq h hp, hcorr, sel_cancel]

theorem given_tag (hu : At sg (posU P) (tabP (P.lambda / 8 + 2) (gUt X P I O m (sgIv P sg) R C))) {p t : Nat}
    (hp : p < P.lambda) (ht : t < P.lambda / 8 + 2) :
    vTag X P sg (gChall1 X P I O m (sgIv P sg) R C) p t = gTag X P I O m (sgIv P sg) R C p t := by
  have h8 : 8 ∣ P.lambda := ⟨_, h.lam8⟩
  have hl8 := h.lam8
  have hl := h.l8
  unfold vTag gTag
  rw [hu.fn ht]
  rw [voleHash_congr ht (y := fun t => gV P R p t ^^^ sel (strBit (sgChall P sg) p) (gU P R 0 t))
    (fun i hi => given_col hf h hc hp (by unfold colBytes; omega))]
  unfold sel
  cases strBit (sgChall P sg) p with
  | false =>
    have e : (fun t => gV P R p t ^^^ (if false = true then gU P R 0 t else 0)) = gV P R p := by
      funext t; exact BitVec.xor_zero
    rw [e]
    exact BitVec.xor_zero
  | true =>
    simp only [if_true]
    rw [voleHash_xor h8, BitVec.xor_assoc]
    show _ ^^^ (gUt X P I O m (sgIv P sg) R C t ^^^ gUt X P I O m (sgIv P sg) R C t) = _
    rw [BitVec.xor_self]
    exact BitVec.xor_zero

theorem given_chall2 (hu : At sg (posU P) (tabP (P.lambda / 8 + 2) (gUt X P I O m (sgIv P sg) R C)))
    (hd : At sg (posD P) (tabP (P.l / 8) (gD P key I R))) :
    vChall2 X P sg (muOf X P I O m) = gChall2 X P key I O m (sgIv P sg) R C := by
  unfold vChall2 gChall2
  dsimp only
  rw [given_chall1 hf hc, show sgU P sg = _ from hu.tabP (tabP_length ..),
    show sgD P sg = _ from hd.tabP (tabP_length ..)]
  have : vHv X P sg (gChall1 X P I O m (sgIv P sg) R C) = gHv X P I O m (sgIv P sg) R C := by
    unfold vHv gHv
    congr 2
    exact tabP_congr fun p hp => tabP_congr fun t ht => given_tag hf h hc hu hp ht
  rw [this]

end stages

/-- The check values agree. -/
theorem given_b (i : ParamId) {key I O sg u : Nat → Byte} {V : Nat → Nat → Byte} {y ch2 : List Byte}
    (hacc : owf i (full ((params i).lambda / 8) key) (full ((params i).pkSize / 2) I) = some (y, true))
    (hO : ∀ t, t < (params i).pkSize / 2 → y[t]? = some (O t))
    (hl2 : ch2.length = 3 * ((params i).lambda / 8) + 8)
    (hcol : ∀ p, p < (params i).lambda → ∀ t, t < colBytes (params i) →
      vCol X (params i) sg p t = V p t ^^^ sel (strBit (sgChall (params i) sg) p) (u t))
    (hd : ∀ t, t < (params i).l / 8 → sg (posD (params i) + t) = witness (params i) key I t ^^^ u t)
    (ha : sgA (params i) sg = (zkHash (params i).lambda (byteFn ch2)
      (listA1 (params i) I O (witness (params i) key I) (rowF (params i).lambda V))
      (loadF (params i).lambda fun t => u ((params i).l / 8 + t))).toBytes) :
    (vB X (params i) sg I O ch2).toBytes = (zkHash (params i).lambda (byteFn ch2)
      (listA0 (params i) I O (rowF (params i).lambda V))
      (polyAt fun j => rowF (params i).lambda V ((params i).l + j))).toBytes := by
  have h := params_wf i
  have hn := params_fieldBits i
  have hk := has_full ((params i).lambda / 8) key
  have hI := has_full ((params i).pkSize / 2) I
  have hO' := has_full ((params i).pkSize / 2) O
  obtain ⟨w, hw1, _, hw⟩ := aesExtendWitness_ok i hk hI
  have hu : Has (ofList (tabP (colBytes (params i)) u)) 0 ((params i).l / 8 + (params i).lambda / 8) u :=
    (has_tabP _ _).mono (by unfold colBytes; omega)
  have hL : (params i).l + (params i).lambda ≤ 8 * colBytes (params i) := by
    have := h.lam8; have := h.l8; unfold colBytes; omega
  have hh2 : Has (ofList ch2) 0 (3 * ((params i).lambda / 8) + 8) (byteFn ch2) := hl2 ▸ has_byteFn ch2
  have hV : ∀ c, c < (params i).lambda → rd (full (params i).lambda fun p => tabP (colBytes (params i)) (V p)) c
        = some (tabP (colBytes (params i)) (V c)) := fun c hc => rd_full hc
  have hQ : ∀ c, c < (params i).lambda → rd (full (params i).lambda fun p =>
      tabP (colBytes (params i)) (vCol X (params i) sg p)) c
        = some (tabP (colBytes (params i)) (vCol X (params i) sg c)) := fun c hc => rd_full hc
  have hd' : Has (full ((params i).l / 8) fun t => sg (posD (params i) + t)) 0 ((params i).l / 8)
      fun t => sg (posD (params i) + t) := has_full _ _
  have hc3 := has_full ((params i).lambda / 8) (sgChall (params i) sg)
  obtain ⟨a, b, hab, hver⟩ := C22_b_tilde i (chall3 := full ((params i).lambda / 8) (sgChall (params i) sg))
    (out := full ((params i).pkSize / 2) O) (ch := sgChall (params i) sg)
    (d := full ((params i).l / 8) fun t => sg (posD (params i) + t))
    (Q := full (params i).lambda fun p => tabP (colBytes (params i)) (vCol X (params i) sg p))
    hk hI hacc (fun t ht => by rw [rd_full ht, hO t ht]) hw1 hw hu hV hL
    (fun t ht => by rw [rd_full ht]; exact congrArg some (hd t ht))
    (fun c hc' => by
      rw [hQ c hc']
      exact congrArg some (tabP_congr fun t ht => hcol c hc' t ht)) hh2 hc3
  have hab' := aesProve_ok i hn hw hu hV hL hI hO' hh2
  rw [hab] at hab'
  have h1 := congrArg Prod.fst (Option.some.inj hab')
  have h2 := congrArg Prod.snd (Option.some.inj hab')
  dsimp only at h1 h2
  have haf : Has (ofList a) 0 ((params i).lambda / 8) fun t => sg (posA (params i) + t) := by
    rw [h1, ← ha]
    exact has_tabP _ _
  rw [aesVerify_ok i hn hd' hQ hL hI hO' hh2 hc3 haf] at hver
  have hcc : corrCol (sgChall (params i) sg) (fun t => sg (posD (params i) + t)) ((params i).l / 8)
      (vCol X (params i) sg) = vColW X (params i) sg := by
    funext p t
    exact corrCol_sel ..
  rw [hcc] at hver
  exact (Option.some.inj hver).trans h2

/-- If the first parts of a signature belong to the leaves, the verifier computes the same third challenge. -/
theorem given_chall3 (i : ParamId) {key I O sg : Nat → Byte} {y : List Byte}
    (hacc : owf i (full ((params i).lambda / 8) key) (full ((params i).pkSize / 2) I) = some (y, true))
    (hO : ∀ t, t < (params i).pkSize / 2 → y[t]? = some (O t))
    (hf : Fit X (params i) R C sg) (hc : CorrOk (params i) R sg)
    (hu : At sg (posU (params i)) (tabP ((params i).lambda / 8 + 2) (gUt X (params i) I O m (sgIv (params i) sg) R C)))
    (hd : At sg (posD (params i)) (tabP ((params i).l / 8) (gD (params i) key I R)))
    (ha : At sg (posA (params i)) (gA X (params i) key I O m (sgIv (params i) sg) R C).toBytes) :
    vChall3 X (params i) sg I O m = gChall3 X (params i) key I O m (sgIv (params i) sg) R C := by
  have h := params_wf i
  have ea : sgA (params i) sg = _ := ha.tabP (toBytes_length _)
  have e2 := given_chall2 (I := I) (O := O) (m := m) (key := key) hf h hc hu hd
  unfold vChall3 gChall3
  dsimp only
  rw [e2, ea]
  have hb := given_b (X := X) i (V := gV (params i) R) (u := gU (params i) R 0)
    (ch2 := gChall2 X (params i) key I O m (sgIv (params i) sg) R C) hacc hO (ro_length ..)
    (fun p hp t ht => given_col hf h hc hp ht) (fun t ht => hd.fn ht) ea
  rw [hb]
  rfl

end

/-! ### Hidden strings -/

section
variable {X : XOF} {P : Params} {R : Nat → Nat → Nat → Byte} {C : Nat → Nat → List Byte}

/-- The columns of the tags, right on the witness bits, computed from a signature and the witness `w`. -/
def vStar (X : XOF) (P : Params) (w sg : Nat → Byte) (p t : Nat) : Byte :=
  vCol X P sg p t ^^^ sel (strBit (sgChall P sg) p) (w t ^^^ sg (posD P + t))

/-- `a_tilde` without mask. -/
def aStar (X : XOF) (P : Params) (I O w sg : Nat → Byte) (m : List Byte) : BF P.lambda :=
  zkHash P.lambda (byteFn (vChall2 X P sg (muOf X P I O m))) (listA1 P I O w (rowF P.lambda (vStar X P w sg))) 0

/-- `u` of tree 0 without its last part. -/
def xStar (X : XOF) (P : Params) (I O w sg : Nat → Byte) (m : List Byte) (t : Nat) : Byte :=
  if t < P.l / 8 then w t ^^^ sg (posD P + t)
  else byteAt (aStar X P I O w sg m) (t - P.l / 8) ^^^ sg (posA P + (t - P.l / 8))

/-- `u` of tree 0. -/
def uStar (X : XOF) (P : Params) (I O w sg : Nat → Byte) (m : List Byte) (t : Nat) : Byte :=
  if t < P.l / 8 + P.lambda / 8 then xStar X P I O w sg m t
  else Spec.voleHash P.lambda P.l (byteFn (vChall1 X P sg (muOf X P I O m)))
      (padded (xStar X P I O w sg m) (P.l / 8 + P.lambda / 8)) (t - (P.l / 8 + P.lambda / 8))
    ^^^ sg (posU P + (t - (P.l / 8 + P.lambda / 8)))

theorem voleHash_last (n ell : Nat) (sd x : Nat → Byte) (t : Nat) :
    Spec.voleHash n ell sd x t
      = Spec.voleHash n ell sd (padded x ((ell + n) / 8)) t ^^^ x ((ell + n) / 8 + t) := by
  have e : padded (padded x ((ell + n) / 8)) ((ell + n) / 8) = padded x ((ell + n) / 8) := by
    funext t
    unfold padded
    split <;> rfl
  unfold Spec.voleHash Spec.uhH0 Spec.uhH1
  rw [e]
  have : padded x ((ell + n) / 8) ((ell + n) / 8 + t) = 0#8 := if_neg (by omega)
  rw [this, BitVec.xor_zero]

theorem zkHash_last {n : Nat} (sd : Nat → Byte) (ys : List (BF n)) (x : BF n) :
    zkHash n sd ys x = zkHash n sd ys 0 + x := by
  unfold zkHash
  rw [add_zero]

theorem padded_congr {x y : Nat → Byte} {N : Nat} (h : ∀ t, t < N → x t = y t) : padded x N = padded y N := by
  funext t
  unfold padded
  split
  · exact h t ‹_›
  · rfl

section
variable {key I O sg : Nat → Byte} {m : List Byte} (h : PWF P) (hz : Local.ConSz P) (hf : Fit X P R C sg)
  (hc : CorrOk P R sg)
include h hz hf hc

theorem given_a (hu : At sg (posU P) (tabP (P.lambda / 8 + 2) (gUt X P I O m (sgIv P sg) R C)))
    (hd : At sg (posD P) (tabP (P.l / 8) (gD P key I R))) {t : Nat} (ht : t < P.lambda / 8) :
    byteAt (gA X P key I O m (sgIv P sg) R C) t
      = byteAt (aStar X P I O (witness P key I) sg m) t ^^^ gU P R 0 (P.l / 8 + t) := by
  have h8 : 8 ∣ P.lambda := ⟨_, h.lam8⟩
  have hl8 := h.lam8
  have hl := h.l8
  have hcb : colBytes P = P.l / 8 + P.lambda / 8 + (P.lambda / 8 + 2) := rfl
  have hrow : listA1 P I O (witness P key I) (rowF P.lambda (gV P R))
      = listA1 P I O (witness P key I) (rowF P.lambda (vStar X P (witness P key I) sg)) := by
    refine Local.listA1_congr hz fun j hj => Local.rowF_congr (N := P.l / 8) (fun p hp t ht => ?_) (by omega)
    unfold vStar
    rw [given_col hf h hc hp (by omega), hd.fn ht]
    unfold gD
    rw [xb_cancel, BitVec.xor_assoc, BitVec.xor_self, BitVec.xor_zero]
  unfold gA
  rw [← given_chall2 hf h hc hu hd, zkHash_last, byteAt_add, hrow]
  exact congrArg₂ _ rfl (byteAt_ofBytes h8 _ _ ht)

/-- `u`, and only this `u`, belongs to the published values. -/
theorem uStar_iff :
    (At sg (posU P) (tabP (P.lambda / 8 + 2) (gUt X P I O m (sgIv P sg) R C)) ∧
      At sg (posD P) (tabP (P.l / 8) (gD P key I R)) ∧
      At sg (posA P) (gA X P key I O m (sgIv P sg) R C).toBytes) ↔
    ∀ t, t < colBytes P → gU P R 0 t = uStar X P I O (witness P key I) sg m t := by
  have hl8 := h.lam8
  have hl := h.l8
  have hsum : (P.l + P.lambda) / 8 = P.l / 8 + P.lambda / 8 := by omega
  have e1 := given_chall1 (I := I) (O := O) (m := m) hf hc
  have hcb : colBytes P = P.l / 8 + P.lambda / 8 + (P.lambda / 8 + 2) := rfl
  constructor
  · rintro ⟨hu, hd, ha⟩ t ht
    have hx : ∀ t, t < P.l / 8 + P.lambda / 8 → gU P R 0 t = xStar X P I O (witness P key I) sg m t := by
      intro t ht
      unfold xStar
      split
      · rename_i ht'
        rw [hd.fn ht']
        exact (xb_cancel ..).symm
      · rename_i ht'
        obtain ⟨s, rfl⟩ : ∃ s, t = P.l / 8 + s := ⟨t - P.l / 8, by omega⟩
        rw [Nat.add_sub_cancel_left]
        have := given_a h hz hf hc hu hd (t := s) (by omega)
        rw [toBytes_eq] at ha
        rw [show sg (posA P + s) = byteAt (gA X P key I O m (sgIv P sg) R C) s from ha.fn (by omega), this, xb_cancel]
    unfold uStar
    by_cases ht' : t < P.l / 8 + P.lambda / 8
    · rw [if_pos ht', hx t ht']
    · obtain ⟨s, rfl⟩ : ∃ s, t = P.l / 8 + P.lambda / 8 + s := ⟨t - (P.l / 8 + P.lambda / 8), by omega⟩
      have hut := hu.fn (t := s) (by omega)
      unfold gUt at hut
      rw [voleHash_last, hsum, ← e1, padded_congr hx] at hut
      rw [if_neg ht', Nat.add_sub_cancel_left, hut, xb_cancel]
  · intro hU
    have hx : ∀ t, t < P.l / 8 + P.lambda / 8 → gU P R 0 t = xStar X P I O (witness P key I) sg m t := by
      intro t ht
      rw [hU t (by omega)]
      unfold uStar
      rw [if_pos ht]
    have hd : At sg (posD P) (tabP (P.l / 8) (gD P key I R)) := by
      intro t ht
      rw [tabP_length] at ht
      rw [tabP_getElem?, if_pos ht]
      unfold gD
      rw [hx t (by omega)]
      unfold xStar
      rw [if_pos ht, xb_cancel]
    have hu : At sg (posU P) (tabP (P.lambda / 8 + 2) (gUt X P I O m (sgIv P sg) R C)) := by
      intro t ht
      rw [tabP_length] at ht
      rw [tabP_getElem?, if_pos ht]
      unfold gUt
      rw [voleHash_last, hsum, ← e1, hU _ (by omega), padded_congr hx]
      unfold uStar
      rw [if_neg (by omega), Nat.add_sub_cancel_left, xb_cancel]
    refine ⟨hu, hd, ?_⟩
    intro t ht
    rw [toBytes_length] at ht
    rw [toBytes_eq, tabP_getElem?, if_pos ht]
    show some (byteAt (gA X P key I O m (sgIv P sg) R C) t) = _
    rw [given_a h hz hf hc hu hd ht, hx _ (by omega)]
    unfold xStar
    rw [if_neg (by omega), Nat.add_sub_cancel_left, xb_cancel]

end
end

end Faest
