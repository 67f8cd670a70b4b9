/-
`faest_sign` writes the signature specified in `Spec/Scheme.lean`.
-/
import Verif.Proofs.VerifyRefine

namespace Faest
open Spec (byteFn strBit depth colStart treeOf leafIdx hcomOf colBytes posC posU posD posA posTree
  posCom posChall posIv ro muOf sel zkHash rowF polyAt sRootIv sRoot sIv sU sV sCorr sCorrs sChall1 sUt
  sTag sHv sD sChall2 sA sB sChall3 sOpen sSig sib anc pNode pCom witness)

/-! ### Strings in buffers -/

/-- The buffer holds the string `l` from `off` on. -/
def HasL (m : Mem Byte) (off : Nat) (l : List Byte) : Prop := ∀ i, i < l.length → rd m (off + i) = l[i]?

theorem HasL.has {m : Mem Byte} {off : Nat} {l : List Byte} (h : HasL m off l) : Has m off l.length (byteFn l) :=
  fun i hi => by rw [h i hi]; exact byteFn_getElem? rfl hi

theorem HasL.append {m : Mem Byte} {off off' : Nat} {l l' : List Byte} (h : HasL m off l) (h' : HasL m off' l')
    (ho : off + l.length = off') : HasL m off (l ++ l') := by
  intro i hi
  by_cases hl : i < l.length
  · rw [List.getElem?_append_left hl, h i hl]
  · rw [List.getElem?_append_right (by omega), ← h' (i - l.length) (by rw [List.length_append] at hi; omega)]
    congr 1
    omega

theorem HasL.rdN {m : Mem Byte} {off n : Nat} {l : List Byte} (h : HasL m off l) (hn : l.length = n) (h0 : 0 < n) :
    rdN m off n = some l := by
  subst hn
  rw [rdN_has h.has h0, tabP_byteFn]

theorem HasL.keep {m m' : Mem Byte} {off a n : Nat} {l : List Byte} (h : HasL m off l)
    (hr : ∀ j, ¬(a ≤ j ∧ j < a + n) → rd m' j = rd m j) (hd : off + l.length ≤ a ∨ a + n ≤ off) :
    HasL m' off l := by
  intro i hi
  rw [hr _ (by omega), h i hi]

theorem wrN_ok {m : Mem Byte} {off : Nat} {l : List Byte} (hl : off + l.length ≤ m.length) :
    Ok (wrN m off l) fun m' => m'.length = m.length ∧ HasL m' off l ∧
      ∀ j, ¬(off ≤ j ∧ j < off + l.length) → rd m' j = rd m j := by
  refine Ok.wrN hl fun m' h1 h2 => ⟨h1, fun i hi => ?_, fun j hj => ?_⟩
  · rw [h2, if_pos (by omega), Nat.add_sub_cancel_left]
  · rw [h2, if_neg hj]

theorem flatten_length {lb : Nat} {f : Nat → List Byte} (hf : ∀ l, (f l).length = lb) (d : Nat) :
    (tabP d f).flatten.length = lb * d := by
  induction d with
  | zero => rfl
  | succ d ih => rw [flatten_tabP_succ, List.length_append, ih, hf, Nat.mul_succ]

theorem flatten_get {lb : Nat} {f : Nat → List Byte} (hf : ∀ l, (f l).length = lb) {d q : Nat} (hq : q < lb * d) :
    (tabP d f).flatten[q]? = (f (q / lb))[q % lb]? := by
  induction d with
  | zero => omega
  | succ d ih =>
    have hlb : 0 < lb := by
      rcases Nat.eq_zero_or_pos lb with h | h
      · subst h; omega
      · exact h
    rw [flatten_tabP_succ]
    by_cases hc : q < lb * d
    · rw [List.getElem?_append_left (by rw [flatten_length hf]; exact hc), ih hc]
    · rw [List.getElem?_append_right (by rw [flatten_length hf]; omega), flatten_length hf]
      rw [Nat.mul_succ] at hq
      obtain ⟨k, rfl⟩ : ∃ k, q = lb * d + k := ⟨q - lb * d, by omega⟩
      rw [Nat.mul_add_div hlb, Nat.mul_add_mod, Nat.div_eq_of_lt (by omega), Nat.mod_eq_of_lt (by omega),
        Nat.add_zero, Nat.add_sub_cancel_left]

/-! ### Lengths -/

section lengths
variable {X : XOF} {P : Params} {key I O : Nat → Byte} {m r : List Byte}

theorem sRoot_length : (sRoot X P key I O m r).length = P.lambda / 8 := by
  simp [sRoot, sRootIv, ro_length]

theorem sIv_length : (sIv X P key I O m r).length = 16 := by
  simp [sIv, sRootIv, ro_length]

theorem sCorrs_length : (sCorrs X P key I O m r).length = posU P := by simp [sCorrs]

theorem toBytes_length {n : Nat} (a : BF n) : a.toBytes.length = n / 8 := by
  rw [toBytes_eq, tabP_length]

theorem sChall3_length : (sChall3 X P key I O m r).length = P.lambda / 8 := ro_length ..

theorem sOpen_length (i : Nat) :
    (sOpen X P key I O m r i).length = P.lambda / 8 * depth P i + P.lambda / 8 * 2 := by
  unfold sOpen
  dsimp only
  rw [List.length_append]
  congr 1
  · exact flatten_length (lb := P.lambda / 8) (fun l => treeNode_length (treeRoot_length ..) _ _) _
  · exact leafCom_length ..

theorem posTree_flatten (i : Nat) :
    posTree P 0 + (tabP i (sOpen X P key I O m r)).flatten.length = posTree P i := by
  induction i with
  | zero => rfl
  | succ i ih =>
    rw [flatten_tabP_succ, List.length_append, sOpen_length, PWF.posTree_succ, ← Nat.add_assoc, ih]
    unfold posCom
    omega

theorem sSig_length (h : PWF P) : (sSig X P key I O m r).length = P.sigSize := by
  unfold sSig
  simp only [List.length_append, sCorrs_length, tabP_length, toBytes_length, sChall3_length, sIv_length]
  have h1 := posTree_flatten (X := X) (P := P) (key := key) (I := I) (O := O) (m := m) (r := r) P.tau
  have h2 := h.size
  rw [PWF.posTree_zero] at h1
  unfold posIv posChall at h2
  unfold posA posD at h1
  omega

end lengths

theorem H3_eq {X : XOF} {P : Params} {key I O : Nat → Byte} {m r : List Byte} :
    H3 X P.lambda (tabP (P.lambda / 8) key ++ muOf X P I O m ++ r) (P.lambda / 8)
      = (sRoot X P key I O m r, sIv X P key I O m r) := by
  unfold H3 sRoot sIv sRootIv ro squeeze
  dsimp only
  rw [tabP_add, List.take_left' (by simp), List.drop_left' (by simp)]
  simp only [Nat.zero_add]

/-! ### Opening -/

section sign
variable {X : XOF} {P : Params} {key I O : Nat → Byte} {m r : List Byte}

theorem signOpenStep_ok (h : PWF P) {sig : Mem Byte} {i : Nat} (hi : i < P.tau)
    (hc : HasL sig (posChall P) (sChall3 X P key I O m r)) (hl : P.sigSize ≤ sig.length) :
    Ok (signOpenStep P (tabP P.tau (pVec X P (sRoot X P key I O m r) (sIv X P key I O m r))) i sig) fun s =>
      s.length = sig.length ∧ HasL s (posTree P i) (sOpen X P key I O m r i) ∧
      ∀ j, ¬(posTree P i ≤ j ∧ j < posTree P (i + 1)) → rd s j = rd sig j := by
  have hsz := h.size
  have hcl := sChall3_length (X := X) (P := P) (key := key) (I := I) (O := O) (m := m) (r := r)
  have hch := hc.has
  rw [hcl] at hch
  unfold posIv at hsz
  have htl := PWF.posTree_lt (P := P) hi
  have hts := PWF.posTree_succ (P := P) i
  unfold signOpenStep
  rw [h.offChall3_eq, PWF.offPdec_eq, PWF.offCom_eq]
  refine Ok.step (ptr_eq (by omega)) ?_
  have hch' : Has (List.drop (posChall P) sig) 0 (P.lambda / 8) (byteFn (sChall3 X P key I O m r)) := by
    rw [has_drop]; exact hch
  refine Ok.bind (chalDec_ok h hch' hi (by simp [MAX_DEPTH])) ?_
  rintro ⟨ret, b⟩ ⟨_, _, hb⟩
  dsimp only at hb ⊢
  refine Ok.step (a := pVec X P (sRoot X P key I O m r) (sIv X P key I O m r) i)
    (by rw [tabP_getElem?, if_pos hi]) ?_
  rw [show (if i < P.t0 then P.k0 else P.k1) = depth P i from rfl]
  refine (vectorOpen_ok (nd := pNode P (sRoot X P key I O m r) (sIv X P key I O m r) i)
    (cm := pCom X P (sRoot X P key I O m r) (sIv X P key I O m r) i
      (leafIdx P (byteFn (sChall3 X P key I O m r)) i)) h.lam hb (h.depth_le i) ?_
    (treeNode_length (treeRoot_length ..)) (rd_full hb.1) (leafCom_length ..) (by unfold posCom; omega)
    (by omega)).mono ?_
  · intro l j hl hj
    have hp : 2 ^ (l + 1) ≤ 2 ^ (depth P i + 1) := Nat.pow_le_pow_right (by decide) (by omega)
    rw [Nat.pow_succ] at hp
    have := Nat.two_pow_pos l
    show rd (full _ _) _ = _
    rw [rd_full (by omega), flatNode_level _ _ _ _ _ hj]
    rfl
  · rintro o ⟨hol, ho⟩
    refine ⟨hol, ?_, fun j hj => ?_⟩
    · unfold sOpen
      dsimp only
      have hfl : ∀ l, (pNode P (sRoot X P key I O m r) (sIv X P key I O m r) i (l + 1)
          (sib (anc (depth P i) (leafIdx P (byteFn (sChall3 X P key I O m r)) i) (l + 1)))).length
            = P.lambda / 8 := fun l => treeNode_length (treeRoot_length ..) _ _
      refine HasL.append (off' := posCom P i) ?_ ?_ (by rw [flatten_length hfl]; rfl)
      · intro q hq
        rw [flatten_length hfl] at hq
        rw [ho, if_pos (by omega), flatten_get hfl hq, Nat.add_sub_cancel_left]
        unfold pathByte
        symm
        exact byteFn_getElem? (hfl _) (Nat.mod_lt _ (by have := h.lam; omega))
      · intro q hq
        have hcl2 : (pCom X P (sRoot X P key I O m r) (sIv X P key I O m r) i
          (leafIdx P (byteFn (sChall3 X P key I O m r)) i)).length = P.lambda / 8 * 2 := leafCom_length ..
        rw [hcl2] at hq
        rw [ho, if_neg (by unfold posCom; omega), if_pos (by omega), Nat.add_sub_cancel_left]
        symm
        exact byteFn_getElem? hcl2 hq
    · unfold posCom at hts ho
      rw [ho, if_neg (by omega), if_neg (by omega)]

end sign

/-- `faest_sign` is defined on valid buffers and writes exactly the specified signature. -/
theorem faestSign_ok (X : XOF) (i : ParamId) {sig msg owfKey inp out : Mem Byte} {key I O : Nat → Byte}
    {m r : List Byte} {msglen rholen : Nat} {rho : Option (Mem Byte)}
    (hsig : (params i).sigSize ≤ sig.length) (hm : rdN msg 0 msglen = some m)
    (hr : rhoBytes rho rholen = some r) (hk : Has owfKey 0 ((params i).lambda / 8) key)
    (hI : Has inp 0 ((params i).pkSize / 2) I) (hO : Has out 0 ((params i).pkSize / 2) O) :
    Ok (faestSign X (params i) sig msg msglen owfKey inp out rho rholen) fun s =>
      s.length = sig.length ∧
      ∀ p, rd s p = if p < (params i).sigSize then (sSig X (params i) key I O m r)[p]? else rd sig p := by
  have h := params_wf i
  have hn := params_fieldBits i
  have hpk : 0 < (params i).pkSize / 2 := by cases i <;> decide
  have hP := @aesProve_ok _ i hn
  have hW := aesExtendWitness_ok i hk hI
  generalize params i = P at *
  have hsz := h.size
  have hA := PWF.posA_le (P := P)
  have hA' := hA
  have hsz' := hsz
  have hlam := h.lam
  unfold posIv at hsz'
  unfold posA posD at hA'
  have hcb := h.colBytes_eq
  have hc0 : posC P 0 = 0 := Nat.zero_mul _
  have hUle : (P.tau - 1) * colBytes P = posU P := rfl
  unfold faestSign
  rw [h.offChall3_eq, PWF.offU_eq, h.offIv_eq, PWF.offD_eq, PWF.offA_eq, PWF.offC_eq, hc0]
  refine Ok.step (rdN_has hI hpk) ?_
  refine Ok.step (rdN_has hO hpk) ?_
  refine Ok.step hm ?_
  dsimp only
  rw [muOf_eq h]
  refine Ok.step (rdN_has hk (by omega)) ?_
  refine Ok.step hr ?_
  rw [H3_eq]
  dsimp only
  have hrl := sRoot_length (X := X) (P := P) (key := key) (I := I) (O := O) (m := m) (r := r)
  have hil := sIv_length (X := X) (P := P) (key := key) (I := I) (O := O) (m := m) (r := r)
  -- iv
  refine Ok.bind (wrN_ok (by rw [hil]; omega)) ?_
  rintro s1 ⟨l1, iv1, f1⟩
  rw [hil] at f1
  refine Ok.step (iv1.rdN hil (by decide)) ?_
  -- vole_commit
  rw [show P.l + P.lambda * 2 + UNIVERSAL_HASH_B_BITS = P.ellHat from rfl,
    show P.ellHat / 8 = P.ellHatBytes from rfl]
  refine Ok.bind (voleCommit_ok h hrl hil (calloc_length ..) (by rw [hcb, hUle]; omega)) ?_
  rintro ⟨vc, s2⟩ ⟨⟨vh, vvc, vu, vv⟩, l2, f2⟩
  dsimp only at vh vvc vu vv l2 f2 ⊢
  rw [hcb] at f2 vu vv
  rw [hUle] at f2
  have c2 : HasL s2 0 (sCorrs X P key I O m r) := by
    intro q hq
    rw [sCorrs_length] at hq
    rw [f2, if_pos (by omega)]
    unfold sCorrs
    rw [tabP_getElem?, if_pos hq]
    unfold corrByte
    rw [hcb]
    simp only [Nat.zero_add, Nat.sub_zero]
    rfl
  have f2' : ∀ j, ¬(0 ≤ j ∧ j < 0 + posU P) → rd s2 j = rd s1 j := fun j hj => by rw [f2, if_neg hj]
  have iv2 := iv1.keep f2' (by omega)
  have hClen : (P.l / 8 + P.lambda / 8 * 2 + UNIVERSAL_HASH_B) * (P.tau - 1) = posU P := by
    unfold posU posC colBytes UNIVERSAL_HASH_B
    rw [Nat.mul_comm]
    congr 1
    omega
  rw [hClen]
  refine Ok.step (a := sCorrs X P key I O m r) ?_ ?_
  · have e := rdN_eq c2.has (by rw [sCorrs_length]; omega)
    rw [tabP_byteFn, sCorrs_length] at e
    exact e
  refine Ok.step (iv2.rdN hil (by decide)) ?_
  rw [vh]
  have hch1 : hashChallenge1 X (muOf X P I O m) (hcomOf X P (pCom X P (sRoot X P key I O m r) (sIv X P key I O m r)))
      (sCorrs X P key I O m r) (sIv X P key I O m r) P.lambda = sChall1 X P key I O m r := rfl
  rw [hch1, vu, vv]
  have hh1 : Has (ofList (sChall1 X P key I O m r)) 0 (5 * (P.lambda / 8) + 8)
    (byteFn (sChall1 X P key I O m r)) := has_ro _ _ _ _ _
  -- u_tilde
  refine Ok.step (voleHash_model h hh1 (has_tabP _ _)) ?_
  rw [show Spec.voleHash P.lambda P.l (byteFn (sChall1 X P key I O m r))
    (Spec.pU X P (sRoot X P key I O m r) (sIv X P key I O m r) 0) = sUt X P key I O m r from rfl]
  refine Ok.bind (wrN_ok (by rw [tabP_length]; omega)) ?_
  rintro s3 ⟨l3, u3, f3⟩
  rw [tabP_length] at f3
  have iv3 := iv2.keep f3 (by unfold posIv; omega)
  have c3 := c2.keep f3 (by rw [sCorrs_length]; omega)
  -- h_v
  refine Ok.bind (Ok.forN (fun p ctx => ctx = (tabP p fun p =>
    tabP (P.lambda / 8 + 2) (sTag X P key I O m r p)).flatten) ?_ ?_) ?_
  · rfl
  · rintro p hp ctx rfl
    unfold hashVStep
    refine Ok.step (rd_full hp) ?_
    refine Ok.step (voleHash_model h hh1 (has_tabP _ _)) ?_
    refine Ok.pure ?_
    rw [flatten_tabP_succ]
    rfl
  rintro ctx rfl
  -- witness
  refine Ok.bind hW ?_
  rintro w ⟨_, hw⟩
  have hu : Has (ofList (tabP (colBytes P) (sU X P key I O m r 0))) 0 (colBytes P) (sU X P key I O m r 0) :=
    has_tabP _ _
  have hu' : Has (ofList (tabP (colBytes P) (sU X P key I O m r 0))) 0 (P.l / 8 + P.lambda / 8)
    (sU X P key I O m r 0) := hu.mono (by unfold colBytes; omega)
  rw [show Spec.pU X P (sRoot X P key I O m r) (sIv X P key I O m r) 0 = sU X P key I O m r 0 from rfl]
  refine Ok.step (xorArr_ok hw (hu.mono (by unfold colBytes; omega))) ?_
  rw [show (fun t => witness P key I t ^^^ sU X P key I O m r 0 t) = sD X P key I O m r from rfl]
  refine Ok.bind (wrN_ok (by rw [tabP_length]; unfold posD; omega)) ?_
  rintro s4 ⟨l4, d4, f4⟩
  rw [tabP_length] at f4
  have iv4 := iv3.keep f4 (by unfold posIv posD; omega)
  have c4 := c3.keep f4 (by rw [sCorrs_length]; unfold posD; omega)
  have u4 := u3.keep f4 (by rw [tabP_length]; unfold posD; omega)
  rw [show UNIVERSAL_HASH_B = 2 from rfl]
  refine Ok.step (u4.rdN (tabP_length ..) (by omega)) ?_
  refine Ok.step (d4.rdN (tabP_length ..) (by have := h.lpos; omega)) ?_
  have hch2 : hashChallenge2 X (sChall1 X P key I O m r) (tabP (P.lambda / 8 + 2) (sUt X P key I O m r))
      (H1 X P.lambda (tabP P.lambda fun p => tabP (P.lambda / 8 + 2) (sTag X P key I O m r p)).flatten
        (P.lambda / 8 * 2)) (tabP (P.l / 8) (sD X P key I O m r)) P.lambda
      = sChall2 X P key I O m r := by
    rw [Nat.mul_comm (P.lambda / 8) 2]
    rfl
  rw [hch2]
  have hh2 : Has (ofList (sChall2 X P key I O m r)) 0 (3 * (P.lambda / 8) + 8)
    (byteFn (sChall2 X P key I O m r)) := has_ro _ _ _ _ _
  -- aes_prove
  refine Ok.step (hP hw hu' (fun c hc => rd_full hc)
    (by have := h.lam8; have := h.l8; unfold colBytes; omega) hI hO hh2) ?_
  have ha : zkHash P.lambda (byteFn (sChall2 X P key I O m r))
      (Spec.listA1 P I O (witness P key I) (rowF P.lambda
        (Spec.pV X P (sRoot X P key I O m r) (sIv X P key I O m r))))
      (loadF P.lambda fun t => sU X P key I O m r 0 (P.l / 8 + t)) = sA X P key I O m r := rfl
  have hb : zkHash P.lambda (byteFn (sChall2 X P key I O m r))
      (Spec.listA0 P I O (rowF P.lambda (Spec.pV X P (sRoot X P key I O m r) (sIv X P key I O m r))))
      (polyAt fun j => rowF P.lambda (Spec.pV X P (sRoot X P key I O m r) (sIv X P key I O m r)) (P.l + j))
        = sB X P key I O m r := rfl
  dsimp only
  rw [ha, hb]
  refine Ok.bind (wrN_ok (by rw [toBytes_length]; unfold posA posD; omega)) ?_
  rintro s5 ⟨l5, a5, f5⟩
  rw [toBytes_length] at f5
  have iv5 := iv4.keep f5 (by unfold posIv; omega)
  have c5 := c4.keep f5 (by rw [sCorrs_length]; unfold posA posD; omega)
  have u5 := u4.keep f5 (by rw [tabP_length]; unfold posA posD; omega)
  have d5 := d4.keep f5 (by rw [tabP_length]; unfold posA; omega)
  refine Ok.step (a5.rdN (toBytes_length _) (by omega)) ?_
  have hch3 : hashChallenge3 X (sChall2 X P key I O m r) (sA X P key I O m r).toBytes
      (sB X P key I O m r).toBytes P.lambda = sChall3 X P key I O m r := rfl
  rw [hch3]
  refine Ok.bind (wrN_ok (by rw [sChall3_length]; omega)) ?_
  rintro s6 ⟨l6, h6, f6⟩
  rw [sChall3_length] at f6
  have iv6 := iv5.keep f6 (by unfold posIv; omega)
  have c6 := c5.keep f6 (by rw [sCorrs_length]; omega)
  have u6 := u5.keep f6 (by rw [tabP_length]; omega)
  have d6 := d5.keep f6 (by rw [tabP_length]; unfold posD; omega)
  have a6 := a5.keep f6 (by rw [toBytes_length]; omega)
  rw [vvc]
  refine (Ok.forN (fun i s => s.length = s6.length ∧
    HasL s (posTree P 0) (tabP i (sOpen X P key I O m r)).flatten ∧
    ∀ j, ¬(posTree P 0 ≤ j ∧ j < posTree P i) → rd s j = rd s6 j) ?_ ?_).mono ?_
  · exact ⟨rfl, fun j hj => absurd hj (by simp [tabP]), fun _ _ => rfl⟩
  · rintro j hj s ⟨g1, g2, g3⟩
    have hm1 := PWF.posTree_mono (P := P) (i := j) (j := P.tau) (by omega)
    have hm2 := PWF.posTree_mono (P := P) (i := j) (j := j + 1) (by omega)
    have hm3 := PWF.posTree_mono (P := P) (i := 0) (j := j) (by omega)
    have hfl := posTree_flatten (X := X) (P := P) (key := key) (I := I) (O := O) (m := m) (r := r) j
    have hchj : HasL s (posChall P) (sChall3 X P key I O m r) := by
      intro q hq
      rw [g3 _ (by unfold posChall; omega), h6 q hq]
    refine (signOpenStep_ok h hj hchj (by omega)).mono ?_
    rintro s' ⟨k1, k2, k3⟩
    refine ⟨by omega, ?_, fun p hp => ?_⟩
    · rw [flatten_tabP_succ]
      refine HasL.append ?_ k2 hfl
      intro q hq
      rw [k3 _ (by omega), g2 q hq]
    · rw [k3 _ (by omega), g3 _ (by omega)]
  · rintro s ⟨g1, g2, g3⟩
    have hm3 := PWF.posTree_mono (P := P) (i := 0) (j := P.tau) (by omega)
    have hfl := posTree_flatten (X := X) (P := P) (key := key) (I := I) (O := O) (m := m) (r := r) P.tau
    have htz := PWF.posTree_zero (P := P)
    have g3' : ∀ j, ¬(posTree P 0 ≤ j ∧ j < posTree P 0 + (posTree P P.tau - posTree P 0)) →
      rd s j = rd s6 j := fun j hj => g3 j (by omega)
    have e1 : posD P = posU P + (P.lambda / 8 + 2) := rfl
    have e2 : posA P = posD P + P.l / 8 := rfl
    have e3 : posIv P = posChall P + P.lambda / 8 := rfl
    have e4 : posChall P = posTree P P.tau := rfl
    have hall : HasL s 0 (sSig X P key I O m r) := by
      unfold sSig
      refine HasL.append (off' := posIv P) (HasL.append (off' := posChall P) (HasL.append (off' := posTree P 0)
        (HasL.append (off' := posA P) (HasL.append (off' := posD P) (HasL.append (off' := posU P)
        (c6.keep g3' ?_) (u6.keep g3' ?_) ?_) (d6.keep g3' ?_) ?_) (a6.keep g3' ?_) ?_) g2 ?_)
        (h6.keep g3' ?_) ?_) (iv6.keep g3' ?_) ?_
      all_goals
        simp only [List.length_append, sCorrs_length, tabP_length, toBytes_length, sChall3_length, sIv_length]
        omega
    refine ⟨by omega, fun p => ?_⟩
    by_cases hp : p < P.sigSize
    · rw [if_pos hp]
      have := hall p (by rw [sSig_length h]; exact hp)
      rwa [Nat.zero_add] at this
    · rw [if_neg hp, g3 p (by omega), f6 p (by omega), f5 p (by omega),
        f4 p (by omega), f3 p (by omega), f2' p (by omega), f1 p (by omega)]

end Faest
