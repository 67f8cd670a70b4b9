/-
`faest_verify` decides validity of signatures as specified in `Spec/Scheme.lean`.
-/
import Verif.Spec.Scheme
import Verif.Proofs.VoleCorr
import Verif.Proofs.UHash
import Verif.Props.C21

namespace Faest
open Spec (byteFn strBit depth colStart treeOf leafIdx hcomOf vCom vQ colBytes posC posU posD posA posTree
  posCom posChall posIv ro muOf sel sgIv sgChall sgNode sgCom sgU sgD sgA sgCorr vHcom vCol vColW vChall1
  vTag vHv vChall2 vB vChall3 Valid zkHash listB rowF polyAt)

/-! ### Positions -/

namespace PWF
variable {P : Params} (h : PWF P)
include h

theorem lam8 : P.lambda = 8 * (P.lambda / 8) := by have := h.lam; omega

theorem colBytes_eq : P.ellHatBytes = colBytes P := by
  have := h.lam; have := h.l8
  unfold Params.ellHatBytes Params.ellHat colBytes UNIVERSAL_HASH_B_BITS; omega

theorem colBytes_eq' : (P.l + P.lambda * 2 + UNIVERSAL_HASH_B_BITS) / 8 = colBytes P := h.colBytes_eq

omit h in
theorem colBytes_sig : P.ellHatBytesSig = colBytes P := by
  unfold Params.ellHatBytesSig colBytes UNIVERSAL_HASH_B; omega

omit h in
theorem colStart_trees (i : Nat) : colStart P i + 2 * i
    = if i < P.t0 then i * (P.k0 + 2) else (i - P.t0) * (P.k1 + 2) + P.t0 * (P.k0 + 2) := by
  unfold colStart
  by_cases hi : i < P.t0
  · rw [if_pos hi, if_pos hi, Nat.mul_add]; omega
  · rw [if_neg hi, if_neg hi, Nat.mul_add, Nat.mul_add]; omega

omit h in
theorem offPdec_eq (i : Nat) : offPdec P i = posTree P i := by
  unfold offPdec posTree posA posD posU posC
  rw [colStart_trees, colBytes_sig]
  dsimp only
  unfold UNIVERSAL_HASH_B
  by_cases hi : i < P.t0
  · rw [if_pos hi, if_pos hi, Nat.mul_comm (P.lambda / 8)]
  · rw [if_neg hi, if_neg hi, Nat.mul_comm (P.lambda / 8)]

omit h in
theorem offCom_eq (i : Nat) : offCom P i = posCom P i := by
  have e := offPdec_eq (P := P) i
  unfold posCom
  rw [← e]
  unfold offPdec offCom depth
  dsimp only
  by_cases hi : i < P.t0
  · rw [if_pos hi, if_pos hi, if_pos hi]; ring
  · rw [if_neg hi, if_neg hi, if_neg hi]; ring

theorem size : posIv P + 16 = P.sigSize := by
  have := h.sig
  rw [offPdec_eq] at this
  unfold posIv posChall
  exact this

omit h in
theorem offC_eq (i : Nat) : offC P i = posC P i := by unfold offC posC; rw [colBytes_sig]
omit h in
theorem offU_eq : offUTilde P = posU P := by unfold offUTilde posU posC; rw [colBytes_sig]
omit h in
theorem offD_eq : offD P = posD P := by
  unfold offD posD posU posC UNIVERSAL_HASH_B; rw [colBytes_sig]
omit h in
theorem offA_eq : offATilde P = posA P := by
  unfold offATilde posA posD posU posC UNIVERSAL_HASH_B; rw [colBytes_sig]
theorem offIv_eq : offIv P = posIv P := by
  have := h.size
  unfold offIv IV_SIZE; omega
theorem offChall3_eq : offChall3 P = posChall P := by
  have := h.size
  unfold posIv at this
  unfold offChall3 IV_SIZE; omega

omit h in
theorem dOffC_eq (i : Nat) : dOffC P i = posC P i := by unfold dOffC posC; rw [colBytes_sig]
omit h in
theorem dOffU_eq : dOffUTilde P = posU P := by unfold dOffUTilde posU posC; rw [colBytes_sig]
omit h in
theorem dOffD_eq : dOffD P = posD P := by
  unfold dOffD posD posU posC UNIVERSAL_HASH_B; rw [colBytes_sig]
omit h in
theorem dOffA_eq : dOffATilde P = posA P := by
  unfold dOffATilde posA posD posU posC UNIVERSAL_HASH_B; rw [colBytes_sig]
theorem dOffIv_eq : dOffIv P = posIv P := by
  have := h.size
  unfold dOffIv IV_SIZE; omega
theorem dOffChall3_eq : dOffChall3 P = posChall P := by
  have := h.size
  unfold posIv at this
  unfold dOffChall3 IV_SIZE; omega
omit h in
theorem dOffPdec_eq (i : Nat) : dOffPdec P i = posTree P i := by
  rw [← offPdec_eq]; unfold dOffPdec offPdec; rfl
omit h in
theorem dOffCom_eq (i : Nat) : dOffCom P i = posCom P i := by
  rw [← offCom_eq]; unfold dOffCom offCom; rfl

omit h in
theorem posTree_succ (i : Nat) : posTree P (i + 1) = posCom P i + P.lambda / 8 * 2 := by
  unfold posCom posTree
  rw [colStart_succ, show colStart P i + depth P i + 2 * (i + 1) = colStart P i + 2 * i + depth P i + 2 by omega,
    Nat.mul_add, Nat.mul_add]
  omega

omit h in
theorem posTree_mono {i j : Nat} (hij : i ≤ j) : posTree P i ≤ posTree P j := by
  have h1 := colStart_mono (P := P) hij
  unfold posTree
  have := Nat.mul_le_mul_left (P.lambda / 8) (show colStart P i + 2 * i ≤ colStart P j + 2 * j by omega)
  omega

omit h in
theorem posTree_zero : posTree P 0 = posA P + P.lambda / 8 := by
  unfold posTree; rw [colStart_zero]; simp

omit h in
theorem posTree_lt {i : Nat} (hi : i < P.tau) : posCom P i + P.lambda / 8 * 2 ≤ posChall P := by
  rw [← posTree_succ]; exact posTree_mono hi

omit h in
theorem posA_le : posA P + P.lambda / 8 ≤ posChall P := by
  rw [← posTree_zero]; exact posTree_mono (Nat.zero_le _)

end PWF

/-- The part of a buffer starting at `off`. -/
theorem ptr_has {m : Mem Byte} {n : Nat} {g : Nat → Byte} (h : Has m 0 n g) {off k : Nat} (hn : 0 < n)
    (hk : off + k ≤ n) : ptr m off = some (m.drop off) ∧ Has (m.drop off) 0 k fun t => g (off + t) := by
  have := h.le hn
  refine ⟨ptr_eq (by omega), ?_⟩
  rw [has_drop]
  have := h.sub off k hk
  rw [Nat.zero_add] at this
  exact this

theorem rdN_sub {m : Mem Byte} {n : Nat} {g : Nat → Byte} (h : Has m 0 n g) {off k : Nat} (hn : 0 < n)
    (hk : off + k ≤ n) : rdN m off k = some (tabP k fun t => g (off + t)) := by
  have h1 := h.le hn
  have := h.sub off k hk
  rw [Nat.zero_add] at this
  exact rdN_eq this (by omega)

/-! ### Masked addition -/

theorem mask_sel (y : Byte) (x : Bool) :
    y &&& (0 - ((BitVec.ofNat 8 (if x then 1 else 0)) &&& 1)) = sel x y := by
  cases x
  · show y &&& 0#8 = 0#8
    exact BitVec.and_zero
  · show y &&& BitVec.allOnes 8 = y
    exact BitVec.and_allOnes

theorem maskedXorArr_ok {a b : Mem Byte} {n : Nat} {f g : Nat → Byte} {x : Bool} (ha : Has a 0 n f)
    (hb : Has b 0 n g) : maskedXorArr a b (BitVec.ofNat 8 (if x then 1 else 0)) n
      = some (tabP n fun i => f i ^^^ sel x (g i)) := by
  unfold maskedXorArr
  refine tabM_eq fun i hi => ?_
  rw [ha.rd0 hi, hb.rd0 hi, ← mask_sel]; rfl

theorem corrCol_sel (ch d : Nat → Byte) (nb : Nat) (qf : Nat → Nat → Byte) (p t : Nat) :
    corrCol ch d nb qf p t = qf p t ^^^ sel (strBit ch p && decide (t < nb)) (d t) := by
  unfold corrCol sel
  by_cases hb : strBit ch p = true
  · by_cases ht : t < nb
    · rw [if_pos ⟨hb, ht⟩, hb, decide_eq_true ht, if_pos (by decide), BitVec.xor_comm]
    · rw [if_neg (fun hh => ht hh.2), decide_eq_false ht, Bool.and_false, if_neg (by decide)]
      exact BitVec.xor_zero.symm
  · rw [if_neg (fun hh => hb hh.1)]
    rw [Bool.not_eq_true] at hb
    rw [hb, Bool.false_and, if_neg (by decide)]
    exact BitVec.xor_zero.symm

theorem bitsOf_leaf {P : Params} {ch : Nat → Byte} {b : Mem Byte} {i j : Nat}
    (h : BitsOf b (depth P i) (leafIdx P ch i)) (hj : j < depth P i) :
    rd b j = some (BitVec.ofNat 8 (if strBit ch (colStart P i + j) then 1 else 0)) := by
  rw [h.2 j hj, leafIdx_bit hj]

/-- A column-wise loop: at step `j` column `cs + j` becomes `f (cs + j)`. -/
theorem colLoop {n cs lam : Nat} {body : Nat → Mem (List Byte) × Nat → Option (Mem (List Byte) × Nat)}
    {m0 : Mem (List Byte)} {f : Nat → List Byte} (hl : m0.length = lam)
    (hb : ∀ j, j < n → ∀ m, m.length = lam → rd m (cs + j) = rd m0 (cs + j) →
      Ok (body j (m, cs + j)) fun s => s.1.length = lam ∧ s.2 = cs + j + 1 ∧
        ∀ p, rd s.1 p = if p = cs + j then some (f p) else rd m p) :
    Ok (forN n (m0, cs) body) fun s => s.1.length = lam ∧ s.2 = cs + n ∧
      ∀ p, rd s.1 p = if cs ≤ p ∧ p < cs + n then some (f p) else rd m0 p := by
  refine Ok.forN (fun j (s : Mem (List Byte) × Nat) => s.1.length = lam ∧ s.2 = cs + j ∧
      ∀ p, rd s.1 p = if cs ≤ p ∧ p < cs + j then some (f p) else rd m0 p) ?_ ?_
  · exact ⟨hl, rfl, fun p => by rw [if_neg (by omega)]⟩
  · rintro j hj ⟨m, k⟩ ⟨h1, h2, h3⟩
    dsimp only at h1 h2 h3
    subst h2
    refine (hb j hj m h1 (by rw [h3, if_neg (by omega)])).mono ?_
    rintro s ⟨h4, h5, h6⟩
    refine ⟨h4, by omega, fun p => ?_⟩
    rw [h6, h3]
    by_cases hp : p = cs + j
    · rw [if_pos hp, if_pos (by omega)]
    · rw [if_neg hp]
      by_cases hc : cs ≤ p ∧ p < cs + j
      · rw [if_pos hc, if_pos (by omega)]
      · rw [if_neg hc, if_neg (by omega)]

section verify
variable {X : XOF} {P : Params} {sig : Mem Byte} {sg : Nat → Byte}

theorem sigSize_pos (h : PWF P) : 0 < P.sigSize := by have := h.size; omega

/-- One tree of the loop correcting the columns. -/
theorem verifyStep_ok (h : PWF P) (hs : Has sig 0 P.sigSize sg) {qf : Nat → Nat → Byte} {i : Nat} (hi : i < P.tau)
    {s : VerifySt} (hdl : s.dtilde.length = P.lambda) (hql : s.q.length = P.lambda)
    (hd : s.dIdx = colStart P i) (hq : s.qIdx = colStart P i)
    (hdz : ∀ j, j < depth P i → rd s.dtilde (colStart P i + j) = some (List.replicate (P.lambda / 8 + 2) 0)) :
    Ok (verifyStep P sig (full P.lambda fun p => tabP (colBytes P) (qf p)) i s) fun s' =>
      s'.dtilde.length = P.lambda ∧ s'.q.length = P.lambda ∧
      s'.dIdx = colStart P (i + 1) ∧ s'.qIdx = colStart P (i + 1) ∧
      (∀ p, rd s'.dtilde p = if colStart P i ≤ p ∧ p < colStart P (i + 1) then
        some (tabP (P.lambda / 8 + 2) fun t => sel (strBit (sgChall P sg) p) (sg (posU P + t)))
        else rd s.dtilde p) ∧
      ∀ p, rd s'.q p = if colStart P i ≤ p ∧ p < colStart P (i + 1) then
        some (tabP (colBytes P) fun t => qf p t ^^^ sel (strBit (sgChall P sg) p) (sgCorr P sg p t))
        else rd s.q p := by
  have hsz := h.size
  have h0 := sigSize_pos h
  have hA := PWF.posA_le (P := P)
  have hU : posU P + (P.lambda / 8 + 2) ≤ P.sigSize := by
    unfold posA posD at hA; unfold posIv at hsz; omega
  obtain ⟨c1, c2⟩ := ptr_has hs (off := posChall P) (k := P.lambda / 8) h0 (by unfold posIv at hsz; omega)
  obtain ⟨u1, u2⟩ := ptr_has hs (off := posU P) (k := P.lambda / 8 + 2) h0 hU
  unfold verifyStep
  rw [h.dOffChall3_eq, PWF.dOffU_eq]
  refine Ok.step c1 ?_
  refine Ok.bind (chalDec_ok h c2 hi (by simp [MAX_DEPTH])) ?_
  rintro ⟨r, b⟩ ⟨_, _, hb⟩
  dsimp only at hb ⊢
  refine Ok.step u1 ?_
  rw [show (if i < P.t0 then P.k0 else P.k1) = depth P i from rfl, h.colBytes_eq', hd, hq]
  have hcol : ∀ j, j < depth P i → colStart P i + j < P.lambda := fun j hj => h.col_lt hi hj
  refine Ok.bind (colLoop (lam := P.lambda) (f := fun p => tabP (P.lambda / 8 + 2) fun t =>
    sel (strBit (sgChall P sg) p) (sg (posU P + t))) hdl ?_) ?_
  · intro j hj m hm hmr
    unfold dtildeStep
    dsimp only
    rw [hmr, hdz j hj]
    refine Ok.step rfl ?_
    refine Ok.step (bitsOf_leaf hb hj) ?_
    rw [show UNIVERSAL_HASH_B = 2 from rfl, replicate_eq_tabP]
    refine Ok.step (maskedXorArr_ok (has_tabP _ _) u2) ?_
    refine Ok.bind (Ok.wr (Q := fun m' => m'.length = P.lambda ∧ ∀ p, rd m' p = if p = colStart P i + j then
      some (tabP (P.lambda / 8 + 2) fun t => sel (strBit (sgChall P sg) p) (sg (posU P + t))) else rd m p)
      (by have := hcol j hj; omega) ?_) ?_
    · intro m' h1 h2
      refine ⟨by omega, fun p => ?_⟩
      rw [h2]
      by_cases hp : p = colStart P i + j
      · rw [if_pos hp, if_pos hp, hp]
        congr 2
        funext t
        exact BitVec.zero_xor
      · rw [if_neg hp, if_neg hp]
    · rintro m' ⟨h1, h2⟩
      exact Ok.pure ⟨h1, rfl, h2⟩
  rintro ⟨dt, dIdx⟩ ⟨e1, e2, e3⟩
  dsimp only at e1 e2 e3 ⊢
  have hcs := PWF.colStart_succ (P := P) i
  have hlt := PWF.colStart_mono (P := P) (i := i + 1) (j := P.tau) hi
  rw [h.colStart_tau] at hlt
  by_cases hi0 : i = 0
  · rw [if_pos hi0]
    have hr : rdN (full P.lambda fun p => tabP (colBytes P) (qf p)) (colStart P i) (depth P i)
        = some (tabP (depth P i) fun j => tabP (colBytes P) (qf (colStart P i + j))) := by
      refine rdN_eq (fun j hj => ?_) (by rw [full_length]; omega)
      rw [rd_full (by omega)]
    refine Ok.step hr ?_
    refine Ok.bind (Ok.wrN (by rw [tabP_length]; omega) (Q := fun m' => m'.length = P.lambda ∧ ∀ p,
      rd m' p = if colStart P i ≤ p ∧ p < colStart P (i + 1) then
        some (tabP (colBytes P) fun t => qf p t ^^^ sel (strBit (sgChall P sg) p) (sgCorr P sg p t))
        else rd s.q p) ?_) ?_
    · intro m' h1 h2
      refine ⟨by omega, fun p => ?_⟩
      rw [h2, tabP_length, ← hcs]
      by_cases hp : colStart P i ≤ p ∧ p < colStart P (i + 1)
      · rw [if_pos hp, if_pos hp, tabP_getElem?, if_pos (by omega), Nat.add_sub_cancel' hp.1]
        congr 2
        funext t
        have : treeOf P p = 0 := by
          have := h.treeOf_col (i := i) (j := p - colStart P i) (by omega)
          rw [Nat.add_sub_cancel' hp.1] at this
          rw [this, hi0]
        unfold sgCorr
        rw [if_pos this]
        cases strBit (sgChall P sg) p <;> exact BitVec.xor_zero.symm
      · rw [if_neg hp, if_neg hp]
    · rintro m' ⟨h1, h2⟩
      refine Ok.pure ⟨e1, h1, by dsimp only; omega, by dsimp only; omega, fun p => ?_, h2⟩
      dsimp only
      rw [e3, hcs]
  · rw [if_neg hi0, PWF.dOffC_eq]
    have hC : posC P (i - 1) + colBytes P ≤ P.sigSize := by
      have : posC P (i - 1) + colBytes P ≤ posU P := by
        unfold posU posC
        have := Nat.mul_le_mul_right (colBytes P) (show i - 1 + 1 ≤ P.tau - 1 by omega)
        rw [Nat.succ_mul] at this
        exact this
      omega
    obtain ⟨d1, d2⟩ := ptr_has hs (off := posC P (i - 1)) (k := colBytes P) h0 hC
    refine Ok.step d1 ?_
    refine Ok.bind (colLoop (lam := P.lambda) (f := fun p => tabP (colBytes P) fun t => qf p t ^^^
      sel (strBit (sgChall P sg) p) (sgCorr P sg p t)) hql ?_) ?_
    · intro j hj m hm _
      unfold qCorrStep
      dsimp only
      refine Ok.step (rd_full (hcol j hj)) ?_
      refine Ok.step (bitsOf_leaf hb hj) ?_
      refine Ok.step (maskedXorArr_ok (has_tabP _ _) d2) ?_
      refine Ok.bind (Ok.wr (Q := fun m' => m'.length = P.lambda ∧ ∀ p, rd m' p = if p = colStart P i + j then
        some (tabP (colBytes P) fun t => qf p t ^^^ sel (strBit (sgChall P sg) p) (sgCorr P sg p t))
          else rd m p)
        (by have := hcol j hj; omega) ?_) ?_
      · intro m' h1 h2
        refine ⟨by omega, fun p => ?_⟩
        rw [h2]
        by_cases hp : p = colStart P i + j
        · rw [if_pos hp, if_pos hp, hp]
          congr 2
          funext t
          unfold sgCorr
          rw [h.treeOf_col hj, if_neg hi0]
          rfl
        · rw [if_neg hp, if_neg hp]
      · rintro m' ⟨h1, h2⟩
        exact Ok.pure ⟨h1, rfl, h2⟩
    rintro ⟨qm, qIdx⟩ ⟨f1, f2, f3⟩
    dsimp only at f1 f2 f3 ⊢
    refine Ok.pure ⟨e1, f1, by dsimp only; omega, by dsimp only; omega, fun p => ?_, fun p => ?_⟩
    · dsimp only; rw [e3, hcs]
    · dsimp only; rw [f3, hcs]

/-- The whole loop. -/
theorem verifyLoop_ok (h : PWF P) (hs : Has sig 0 P.sigSize sg) {qf : Nat → Nat → Byte} :
    Ok (forN P.tau
      { dtilde := calloc P.lambda (List.replicate (P.lambda / 8 + UNIVERSAL_HASH_B) 0), dIdx := 0,
        q := calloc P.lambda (List.replicate (colBytes P) 0), qIdx := 0 }
      (verifyStep P sig (full P.lambda fun p => tabP (colBytes P) (qf p)))) fun s =>
      (∀ p, p < P.lambda → rd s.dtilde p = some (tabP (P.lambda / 8 + 2) fun t =>
        sel (strBit (sgChall P sg) p) (sg (posU P + t)))) ∧
      ∀ p, p < P.lambda → rd s.q p = some (tabP (colBytes P) fun t =>
        qf p t ^^^ sel (strBit (sgChall P sg) p) (sgCorr P sg p t)) := by
  refine (Ok.forN (fun i (s : VerifySt) => s.dtilde.length = P.lambda ∧ s.q.length = P.lambda ∧
      s.dIdx = colStart P i ∧ s.qIdx = colStart P i ∧
      (∀ p, p < P.lambda → rd s.dtilde p = some (if p < colStart P i then
        tabP (P.lambda / 8 + 2) (fun t => sel (strBit (sgChall P sg) p) (sg (posU P + t)))
        else List.replicate (P.lambda / 8 + 2) 0)) ∧
      ∀ p, p < colStart P i → rd s.q p = some (tabP (colBytes P) fun t =>
        qf p t ^^^ sel (strBit (sgChall P sg) p) (sgCorr P sg p t))) ?_ ?_).mono ?_
  · refine ⟨calloc_length .., calloc_length .., PWF.colStart_zero.symm, PWF.colStart_zero.symm, ?_, ?_⟩
    · intro p hp
      rw [if_neg (by rw [PWF.colStart_zero]; omega)]
      exact rd_calloc hp
    · intro p hp
      rw [PWF.colStart_zero] at hp; omega
  · rintro i hi s ⟨h1, h2, h3, h4, h5, h6⟩
    have hcs := PWF.colStart_succ (P := P) i
    refine (verifyStep_ok h hs hi h1 h2 h3 h4 ?_).mono ?_
    · intro j hj
      rw [h5 _ (h.col_lt hi hj), if_neg (by omega)]
    · rintro s' ⟨g1, g2, g3, g4, g5, g6⟩
      refine ⟨g1, g2, g3, g4, fun p hp => ?_, fun p hp => ?_⟩
      · rw [g5]
        by_cases hc : colStart P i ≤ p ∧ p < colStart P (i + 1)
        · rw [if_pos hc, if_pos hc.2]
        · rw [if_neg hc, h5 p hp]
          by_cases hp2 : p < colStart P i
          · rw [if_pos hp2, if_pos (by omega)]
          · rw [if_neg hp2, if_neg (by omega)]
      · rw [g6]
        by_cases hc : colStart P i ≤ p
        · rw [if_pos ⟨hc, hp⟩]
        · rw [if_neg (by omega), h6 p (by omega)]
  · rintro s ⟨h1, h2, h3, h4, h5, h6⟩
    rw [h.colStart_tau] at h5 h6
    exact ⟨fun p hp => by rw [h5 p hp, if_pos hp], h6⟩

end verify

theorem voleHash_model {P : Params} (h : PWF P) {sd x : Mem Byte} {sdf xf : Nat → Byte}
    (hsd : Has sd 0 (5 * (P.lambda / 8) + 8) sdf) (hx : Has x 0 (colBytes P) xf) :
    voleHash sd x P.l P.lambda = some (tabP (P.lambda / 8 + 2) (Spec.voleHash P.lambda P.l sdf xf)) := by
  unfold voleHash
  rw [fieldBits_eq h]
  refine voleHashN_ok h.lam h.l8 hsd (hx.mono ?_)
  unfold colBytes; omega

theorem ro_length (X : XOF) (P : Params) (b : Byte) (len : Nat) (l : List Byte) : (ro X P b len l).length = len := by
  simp [ro, squeeze]

theorem has_ro (X : XOF) (P : Params) (b : Byte) (len : Nat) (l : List Byte) :
    Has (ofList (ro X P b len l)) 0 len (byteFn (ro X P b len l)) := by
  have := has_byteFn (ro X P b len l)
  rwa [ro_length] at this

theorem muOf_eq {X : XOF} {P : Params} (h : PWF P) {I O : Nat → Byte} {m : List Byte} :
    hashMu X (tabP (P.pkSize / 2) I) (tabP (P.pkSize / 2) O) m P.lambda = muOf X P I O m := by
  unfold hashMu H1 muOf ro
  have := h.lam8
  rw [show 2 * P.lambda / 8 = 2 * (P.lambda / 8) by omega]

/-- `faest_verify` is defined on every signature of the right size and returns 0 exactly for the valid
ones, -1 otherwise. -/
theorem faestVerify_ok (X : XOF) (i : ParamId) {sig msg inp out : Mem Byte} {sg I O : Nat → Byte}
    {m : List Byte} {msglen : Nat}
    (hs : Has sig 0 (params i).sigSize sg) (hm : rdN msg 0 msglen = some m)
    (hI : Has inp 0 ((params i).pkSize / 2) I) (hO : Has out 0 ((params i).pkSize / 2) O) :
    ∃ r : Int, faestVerify X (params i) msg msglen sig inp out = some r ∧
      (r = 0 ∨ r = -1) ∧ (r = 0 ↔ Valid X (params i) sg I O m) := by
  have h := params_wf i
  have hn := params_fieldBits i
  have hpk : 0 < (params i).pkSize / 2 := by cases i <;> decide
  have hV := @aesVerify_ok _ i hn
  generalize params i = P at *
  have hsz := h.size
  have h0 := sigSize_pos h
  have hA := PWF.posA_le (P := P)
  have hA' := hA
  have hsz' := hsz
  unfold posIv at hsz'
  unfold posA posD at hA'
  suffices hsuf : Ok (faestVerify X P msg msglen sig inp out) (fun r =>
      r = if vChall3 X P sg I O m = tabP (P.lambda / 8) (sgChall P sg) then 0 else -1) by
    obtain ⟨r, h1, h2⟩ := hsuf
    refine ⟨r, h1, ?_, ?_⟩
    · rw [h2]; by_cases hc : vChall3 X P sg I O m = tabP (P.lambda / 8) (sgChall P sg)
      · exact .inl (if_pos hc)
      · exact .inr (if_neg hc)
    · rw [h2]; unfold Valid
      by_cases hc : vChall3 X P sg I O m = tabP (P.lambda / 8) (sgChall P sg)
      · rw [if_pos hc]; exact ⟨fun _ => hc, fun _ => rfl⟩
      · rw [if_neg hc]; exact ⟨fun hh => absurd hh (by decide), fun hh => absurd hh hc⟩
  unfold faestVerify
  rw [h.dOffChall3_eq, PWF.dOffU_eq, h.dOffIv_eq, PWF.dOffD_eq, PWF.dOffA_eq, PWF.dOffC_eq]
  refine Ok.step (rdN_has hI hpk) ?_
  refine Ok.step (rdN_has hO hpk) ?_
  refine Ok.step hm ?_
  dsimp only
  rw [muOf_eq h]
  refine Ok.step (rdN_sub hs (off := posIv P) (k := IV_SIZE) h0 (by unfold IV_SIZE; omega)) ?_
  rw [show (tabP IV_SIZE fun t => sg (posIv P + t)) = sgIv P sg from rfl]
  obtain ⟨c1, c2⟩ := ptr_has hs (off := posChall P) (k := P.lambda / 8) h0 (by omega)
  change Has _ _ _ (sgChall P sg) at c2
  refine Ok.step c1 ?_
  refine Ok.step (a := ()) (by unfold tauFits MAX_TAU; rw [if_pos h.tau32]) ?_
  rw [show P.l + P.lambda * 2 + UNIVERSAL_HASH_B_BITS = P.ellHat from rfl,
    show P.ellHat / 8 = P.ellHatBytes from rfl, h.colBytes_eq]
  refine Ok.step (voleReconstruct_ok (ch := sgChall P sg)
    (copB := fun i t => sg (posTree P i + t)) (comB := fun i t => sg (posCom P i + t)) h
    (by simp [sgIv]) c2 ?_ ?_ (calloc_length ..)) ?_
  · intro j hj
    rw [PWF.dOffPdec_eq]
    have := PWF.posTree_lt (P := P) hj
    unfold posCom at this
    obtain ⟨e1, e2⟩ := ptr_has hs (off := posTree P j) (k := P.lambda / 8 * depth P j) h0 (by omega)
    exact Ok.of_eq e1 e2
  · intro j hj
    rw [PWF.dOffCom_eq]
    have := PWF.posTree_lt (P := P) hj
    obtain ⟨e1, e2⟩ := ptr_has hs (off := posCom P j) (k := P.lambda / 8 * 2) h0 (by omega)
    exact Ok.of_eq e1 e2
  dsimp only
  have hcop : (fun i => copPart (P.lambda / 8) fun t => sg (posTree P i + t)) = sgNode P sg := rfl
  have hcm : (fun i => tabP (P.lambda / 8 * 2) fun t => sg (posCom P i + t)) = sgCom P sg := rfl
  rw [hcop, hcm, h.colBytes_eq]
  have hClen : (P.l / 8 + P.lambda / 8 * 2 + UNIVERSAL_HASH_B) * (P.tau - 1) = posU P := by
    unfold posU posC colBytes UNIVERSAL_HASH_B
    rw [Nat.mul_comm]
    congr 1
    omega
  rw [hClen]
  have hc0 : posC P 0 = 0 := Nat.zero_mul _
  refine Ok.step (a := tabP (posU P) sg) ?_ ?_
  · rw [rdN_sub hs (off := posC P 0) (k := posU P) h0 (by rw [hc0]; omega), hc0]
    simp only [Nat.zero_add]
  have hch1 : hashChallenge1 X (muOf X P I O m)
      (hcomOf X P (vCom X P (sgIv P sg) (sgChall P sg) (sgNode P sg) (sgCom P sg))) (tabP (posU P) sg)
      (sgIv P sg) P.lambda = vChall1 X P sg (muOf X P I O m) := rfl
  rw [hch1]
  refine Ok.bind (verifyLoop_ok h hs) ?_
  rintro s ⟨sd, sq⟩
  have hcl1 : (vChall1 X P sg (muOf X P I O m)).length = 5 * (P.lambda / 8) + 8 := ro_length ..
  have hh1 : Has (ofList (vChall1 X P sg (muOf X P I O m))) 0 (5 * (P.lambda / 8) + 8)
    (byteFn (vChall1 X P sg (muOf X P I O m))) := has_ro _ _ _ _ _
  generalize hg1 : vChall1 X P sg (muOf X P I O m) = ch1 at hh1 hcl1 ⊢
  refine Ok.bind (Ok.forN (fun p ctx => ctx = (tabP p fun p =>
    tabP (P.lambda / 8 + 2) (vTag X P sg ch1 p)).flatten) ?_ ?_) ?_
  · rfl
  · rintro p hp ctx rfl
    unfold hashQStep
    refine Ok.step (sq p hp) ?_
    refine Ok.step (voleHash_model h hh1 (has_tabP _ _)) ?_
    refine Ok.step (sd p hp) ?_
    rw [show UNIVERSAL_HASH_B = 2 from rfl]
    refine Ok.step (xorArr_ok (has_tabP _ _) (has_tabP _ _)) ?_
    refine Ok.pure ?_
    rw [flatten_tabP_succ]
    rfl
  rintro ctx rfl
  rw [show UNIVERSAL_HASH_B = 2 from rfl]
  refine Ok.step (rdN_sub hs (off := posU P) (k := P.lambda / 8 + 2) h0 (by omega)) ?_
  refine Ok.step (rdN_sub hs (off := posD P) (k := P.l / 8) h0 (by unfold posD; omega)) ?_
  have hch2 : hashChallenge2 X ch1 (tabP (P.lambda / 8 + 2) fun t => sg (posU P + t))
      (H1 X P.lambda (tabP P.lambda fun p => tabP (P.lambda / 8 + 2) (vTag X P sg ch1 p)).flatten
        (P.lambda / 8 * 2)) (tabP (P.l / 8) fun t => sg (posD P + t)) P.lambda
      = vChall2 X P sg (muOf X P I O m) := by
    unfold vChall2
    dsimp only
    rw [hg1, Nat.mul_comm (P.lambda / 8) 2]
    rfl
  rw [hch2]
  have hh2 : Has (ofList (vChall2 X P sg (muOf X P I O m))) 0 (3 * (P.lambda / 8) + 8)
    (byteFn (vChall2 X P sg (muOf X P I O m))) := has_ro _ _ _ _ _
  obtain ⟨d1, d2⟩ := ptr_has hs (off := posD P) (k := P.l / 8) h0 (by unfold posD; omega)
  obtain ⟨a1, a2⟩ := ptr_has hs (off := posA P) (k := P.lambda / 8) h0 (by omega)
  refine Ok.step d1 ?_
  refine Ok.step a1 ?_
  refine Ok.step (hV d2 sq (by have := h.lam8; have := h.l8; unfold colBytes; omega) hI hO hh2 c2 a2) ?_
  refine Ok.step (rdN_sub hs (off := posA P) (k := P.lambda / 8) h0 (by omega)) ?_
  refine Ok.step (rdN_sub hs (off := posChall P) (k := P.lambda / 8) h0 (by omega)) ?_
  refine Ok.pure ?_
  have hcc : corrCol (sgChall P sg) (fun t => sg (posD P + t)) (P.l / 8) (fun p t =>
      vQ X P (sgIv P sg) (sgChall P sg) (sgNode P sg) p t ^^^ sel (strBit (sgChall P sg) p) (sgCorr P sg p t))
      = vColW X P sg := by
    funext p t
    exact corrCol_sel ..
  rw [hcc]
  rfl

end Faest
