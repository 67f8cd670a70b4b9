/-
The signature specified in `Spec/Scheme.lean` is valid.
-/
import Verif.Proofs.SignRefine

namespace Faest
open Spec (byteFn strBit depth colStart treeOf leafIdx hcomOf colBytes posC posU posD posA posTree
  posCom posChall posIv ro muOf sel zkHash rowF polyAt sRootIv sRoot sIv sU sV sCorr sCorrs sChall1 sUt
  sTag sHv sD sChall2 sA sB sChall3 sOpen sSig sib anc pNode pCom witness sgIv sgChall sgNode sgCom sgU sgD
  sgA sgCorr vHcom vCol vColW vChall1 vTag vHv vChall2 vB vChall3 Valid vQ vCom)

/-- The string `l` is at position `off`. -/
def At (sg : Nat → Byte) (off : Nat) (l : List Byte) : Prop := ∀ i, i < l.length → l[i]? = some (sg (off + i))

theorem At.left {sg : Nat → Byte} {off : Nat} {l l' : List Byte} (h : At sg off (l ++ l')) : At sg off l := by
  intro i hi
  have := h i (by rw [List.length_append]; omega)
  rwa [List.getElem?_append_left hi] at this

theorem At.right {sg : Nat → Byte} {off off' : Nat} {l l' : List Byte} (h : At sg off (l ++ l'))
    (ho : off + l.length = off') : At sg off' l' := by
  subst ho
  intro i hi
  have := h (l.length + i) (by rw [List.length_append]; omega)
  rwa [List.getElem?_append_right (by omega), Nat.add_sub_cancel_left, ← Nat.add_assoc] at this

theorem At.tabP {sg : Nat → Byte} {off n : Nat} {l : List Byte} (h : At sg off l) (hn : l.length = n) :
    tabP n (fun t => sg (off + t)) = l := by
  subst hn
  exact (list_eq_tabP _ _ _ rfl h).symm

theorem At.fn {sg : Nat → Byte} {off n : Nat} {f : Nat → Byte} (h : At sg off (Faest.tabP n f)) {t : Nat} (ht : t < n) :
    sg (off + t) = f t := by
  have := h t (by rw [tabP_length]; exact ht)
  rw [tabP_getElem?, if_pos ht] at this
  exact (Option.some.inj this).symm

theorem At.flatten {sg : Nat → Byte} {off : Nat} {f : Nat → List Byte} {off' : Nat → Nat} (n : Nat)
    (h : At sg off (Faest.tabP n f).flatten) (h0 : off = off' 0)
    (hs : ∀ i, i < n → off' i + (f i).length = off' (i + 1)) : ∀ i, i < n → At sg (off' i) (f i) := by
  have hl : ∀ k, k ≤ n → off + (Faest.tabP k f).flatten.length = off' k := by
    intro k
    induction k with
    | zero => intro _; exact h0
    | succ k ih =>
      intro hk
      rw [flatten_tabP_succ, List.length_append, ← Nat.add_assoc, ih (by omega), hs k (by omega)]
  induction n with
  | zero => intro i hi; omega
  | succ n ih =>
    rw [flatten_tabP_succ] at h
    intro i hi
    by_cases hin : i = n
    · subst hin
      exact h.right (hl i (by omega))
    · exact ih h.left (fun i hi => hs i (by omega)) (fun k hk => hl k (by omega)) i (by omega)

theorem strBit_congr {g g' : Nat → Byte} {n p : Nat} (h : ∀ t, t < n → g t = g' t) (hp : p < 8 * n) :
    strBit g p = strBit g' p := by
  unfold strBit
  rw [h _ (by omega)]

theorem bitsNat_congr {f g : Nat → Bool} {n : Nat} (h : ∀ j, j < n → f j = g j) :
    Spec.bitsNat f n = Spec.bitsNat g n := by
  induction n with
  | zero => rfl
  | succ n ih => rw [Spec.bitsNat, Spec.bitsNat, ih fun j hj => h j (by omega), h n (by omega)]

theorem leafIdx_congr {P : Params} (h : PWF P) {ch ch' : Nat → Byte} (he : ∀ t, t < P.lambda / 8 → ch t = ch' t)
    {i : Nat} (hi : i < P.tau) : leafIdx P ch i = leafIdx P ch' i := by
  unfold leafIdx
  refine bitsNat_congr fun j hj => ?_
  exact strBit_congr he (by have := h.col_lt hi hj; have := h.lam8; omega)

section comps
variable {X : XOF} {P : Params} {key I O : Nat → Byte} {m r : List Byte} {sg : Nat → Byte}

/-- The components of a signature. -/
structure Comps (X : XOF) (P : Params) (key I O : Nat → Byte) (m r : List Byte) (sg : Nat → Byte) : Prop where
  c : At sg 0 (sCorrs X P key I O m r)
  u : At sg (posU P) (tabP (P.lambda / 8 + 2) (sUt X P key I O m r))
  d : At sg (posD P) (tabP (P.l / 8) (sD X P key I O m r))
  a : At sg (posA P) (sA X P key I O m r).toBytes
  t : ∀ i, i < P.tau → At sg (posTree P i) (sOpen X P key I O m r i)
  ch : At sg (posChall P) (sChall3 X P key I O m r)
  iv : At sg (posIv P) (sIv X P key I O m r)

theorem sSig_comps (hs : At sg 0 (sSig X P key I O m r)) : Comps X P key I O m r sg := by
  unfold sSig at hs
  have e1 : posD P = posU P + (P.lambda / 8 + 2) := rfl
  have e2 : posA P = posD P + P.l / 8 := rfl
  have e3 : posIv P = posChall P + P.lambda / 8 := rfl
  have e4 : posChall P = posTree P P.tau := rfl
  have htz := PWF.posTree_zero (P := P)
  have hfl := posTree_flatten (X := X) (P := P) (key := key) (I := I) (O := O) (m := m) (r := r) P.tau
  have h1 := hs.left
  have h2 := h1.left
  have h3 := h2.left
  have h4 := h3.left
  have h5 := h4.left
  have ht : At sg (posTree P 0) (tabP P.tau (sOpen X P key I O m r)).flatten := h2.right (by
    simp only [List.length_append, sCorrs_length, tabP_length, toBytes_length]; omega)
  refine ⟨h5.left, ?_, ?_, ?_, ?_, ?_, ?_⟩
  · exact h5.right (by rw [sCorrs_length]; omega)
  · exact h4.right (by simp only [List.length_append, sCorrs_length, tabP_length]; omega)
  · exact h3.right (by simp only [List.length_append, sCorrs_length, tabP_length]; omega)
  · refine ht.flatten P.tau rfl fun i _ => ?_
    rw [PWF.posTree_succ, sOpen_length]; unfold posCom; omega
  · exact h1.right (by simp only [List.length_append, sCorrs_length, tabP_length, toBytes_length]; omega)
  · exact hs.right (by
      simp only [List.length_append, sCorrs_length, tabP_length, toBytes_length, sChall3_length]; omega)

variable (hc : Comps X P key I O m r sg)
include hc

theorem Comps.sgIv_eq : sgIv P sg = sIv X P key I O m r := hc.iv.tabP sIv_length
theorem Comps.sgU_eq : sgU P sg = tabP (P.lambda / 8 + 2) (sUt X P key I O m r) := hc.u.tabP (tabP_length ..)
theorem Comps.sgD_eq : sgD P sg = tabP (P.l / 8) (sD X P key I O m r) := hc.d.tabP (tabP_length ..)
theorem Comps.sgA_eq : sgA P sg = (sA X P key I O m r).toBytes := hc.a.tabP (toBytes_length _)
theorem Comps.sgC_eq : tabP (posU P) sg = sCorrs X P key I O m r := by
  have := hc.c.tabP sCorrs_length
  simpa only [Nat.zero_add] using this
theorem Comps.sgCh_eq : tabP (P.lambda / 8) (sgChall P sg) = sChall3 X P key I O m r := hc.ch.tabP sChall3_length

theorem Comps.ch_fn {t : Nat} (ht : t < P.lambda / 8) : sgChall P sg t = byteFn (sChall3 X P key I O m r) t := by
  rw [← hc.sgCh_eq, byteFn_tabP ht]

theorem Comps.honest (h : PWF P) : HonestPath P (sRoot X P key I O m r) (sIv X P key I O m r) (sgChall P sg)
    (sgNode P sg) := by
  intro i hi l hl
  rw [leafIdx_congr h (fun t ht => hc.ch_fn ht) hi]
  have ht := hc.t i hi
  unfold sOpen at ht
  dsimp only at ht
  have hlen : ∀ l, (pNode P (sRoot X P key I O m r) (sIv X P key I O m r) i (l + 1)
          (sib (anc (depth P i) (leafIdx P (byteFn (sChall3 X P key I O m r)) i) (l + 1)))).length
            = P.lambda / 8 := fun l => treeNode_length (treeRoot_length ..) _ _
  have := ht.left.flatten (off' := fun l => posTree P i + P.lambda / 8 * l) (depth P i) (by simp)
    (fun l _ => by rw [hlen, Nat.mul_succ]; omega) l hl
  have := this.tabP (hlen l)
  rw [← this]
  unfold sgNode
  simp only [Nat.add_assoc]

theorem Comps.com (h : PWF P) {i : Nat} (hi : i < P.tau) :
    sgCom P sg i = pCom X P (sRoot X P key I O m r) (sIv X P key I O m r) i (leafIdx P (sgChall P sg) i) := by
  rw [leafIdx_congr h (fun t ht => hc.ch_fn ht) hi]
  have ht := hc.t i hi
  unfold sOpen at ht
  dsimp only at ht
  have hlen : ∀ l, (pNode P (sRoot X P key I O m r) (sIv X P key I O m r) i (l + 1)
          (sib (anc (depth P i) (leafIdx P (byteFn (sChall3 X P key I O m r)) i) (l + 1)))).length
            = P.lambda / 8 := fun l => treeNode_length (treeRoot_length ..) _ _
  have := ht.right (off' := posCom P i) (by rw [flatten_length hlen]; rfl)
  exact this.tabP (leafCom_length ..)

theorem Comps.hcom_eq (h : PWF P) : vHcom X P sg
    = hcomOf X P (pCom X P (sRoot X P key I O m r) (sIv X P key I O m r)) := by
  unfold vHcom
  rw [hc.sgIv_eq]
  exact hcom_honest (hc.honest h) fun i hi => hc.com h hi

theorem Comps.chall1_eq (h : PWF P) : vChall1 X P sg (muOf X P I O m) = sChall1 X P key I O m r := by
  unfold vChall1 sChall1
  rw [hc.hcom_eq h, hc.sgC_eq, hc.sgIv_eq]

theorem Comps.corr_eq (h : PWF P) {p t : Nat} (hp : p < P.lambda) (ht : t < colBytes P) :
    sgCorr P sg p t = sU X P key I O m r (treeOf P p) t ^^^ sU X P key I O m r 0 t := by
  unfold sgCorr
  by_cases hi0 : treeOf P p = 0
  · rw [if_pos hi0, hi0]
    exact BitVec.xor_self.symm
  · obtain ⟨i, j, hi, hj, rfl⟩ := h.col_exists hp
    rw [h.treeOf_col hj] at hi0 ⊢
    have hcb : 0 < colBytes P := by omega
    have hb : posC P (i - 1) + t < posU P := by
      unfold posU posC
      have : (i - 1 + 1) * colBytes P ≤ (P.tau - 1) * colBytes P := Nat.mul_le_mul_right _ (by omega)
      rw [Nat.succ_mul] at this; omega
    have hcc := hc.c
    unfold sCorrs at hcc
    have := hcc.fn hb
    rw [Nat.zero_add] at this
    rw [if_neg hi0, this]
    unfold posC sCorr
    rw [Nat.mul_comm, Nat.mul_add_div hcb, Nat.mul_add_mod, Nat.div_eq_of_lt ht,
        Nat.mod_eq_of_lt ht, Nat.add_zero, Nat.sub_add_cancel (by omega), BitVec.xor_comm]

theorem Comps.vQ_eq (h : PWF P) {p t : Nat} (hp : p < P.lambda) :
    vQ X P (sgIv P sg) (sgChall P sg) (sgNode P sg) p t
      = sV X P key I O m r p t ^^^ sel (strBit (sgChall P sg) p) (sU X P key I O m r (treeOf P p) t) := by
  rw [hc.sgIv_eq, vQ_honest h (hc.honest h) hp, sel, sV, sU]

omit hc in
theorem sel_cancel (v x y : Byte) (b : Bool) : v ^^^ sel b x ^^^ sel b (x ^^^ y) = v ^^^ sel b y := by
  rw [BitVec.xor_assoc]
  congr 1
  cases b
  · exact BitVec.xor_zero
  · show x ^^^ (x ^^^ y) = y
    rw [← BitVec.xor_assoc, BitVec.xor_self, BitVec.zero_xor]

/-- The verifier's columns: `q = v + Delta * u`. -/
theorem Comps.col_eq (h : PWF P) {p t : Nat} (hp : p < P.lambda) (ht : t < colBytes P) :
    vCol X P sg p t = sV X P key I O m r p t ^^^ sel (strBit (sgChall P sg) p) (sU X P key I O m r 0 t) := by
  rw [vCol, hc.vQ_eq h hp, hc.corr_eq h hp ht, sel_cancel]

theorem Comps.tag_eq (h : PWF P) {p t : Nat} (hp : p < P.lambda) (ht : t < P.lambda / 8 + 2) :
    vTag X P sg (sChall1 X P key I O m r) p t = sTag X P key I O m r p t := by
  have h8 : 8 ∣ P.lambda := ⟨_, h.lam8⟩
  have hl8 := h.lam8
  have hl := h.l8
  unfold vTag sTag
  rw [hc.u.fn ht]
  rw [voleHash_congr ht (y := fun t => sV X P key I O m r p t ^^^
    sel (strBit (sgChall P sg) p) (sU X P key I O m r 0 t))
    (fun i hi => hc.col_eq h hp (by unfold colBytes; omega))]
  unfold sel
  cases strBit (sgChall P sg) p with
  | false =>
    have e : (fun t => sV X P key I O m r p t ^^^ (if false = true then sU X P key I O m r 0 t else 0))
        = sV X P key I O m r p := by
      funext t; exact BitVec.xor_zero
    rw [e]
    exact BitVec.xor_zero
  | true =>
    simp only [if_true]
    rw [voleHash_xor h8, BitVec.xor_assoc]
    show _ ^^^ (sUt X P key I O m r t ^^^ sUt X P key I O m r t) = _
    rw [BitVec.xor_self]
    exact BitVec.xor_zero

theorem Comps.chall2_eq (h : PWF P) : vChall2 X P sg (muOf X P I O m) = sChall2 X P key I O m r := by
  unfold vChall2 sChall2
  dsimp only
  rw [hc.chall1_eq h, hc.sgU_eq, hc.sgD_eq]
  have : vHv X P sg (sChall1 X P key I O m r) = sHv X P key I O m r := by
    unfold vHv sHv
    congr 2
    exact tabP_congr fun p hp => tabP_congr fun t ht => hc.tag_eq h hp ht
  rw [this]

end comps

/-- Signatures are valid. -/
theorem sSig_valid (X : XOF) (i : ParamId) {key I O sg : Nat → Byte} {m r y : List Byte}
    (hacc : owf i (full ((params i).lambda / 8) key) (full ((params i).pkSize / 2) I) = some (y, true))
    (hO : ∀ t, t < (params i).pkSize / 2 → y[t]? = some (O t))
    (hs : At sg 0 (sSig X (params i) key I O m r)) : Valid X (params i) sg I O m := by
  have h := params_wf i
  have hn := params_fieldBits i
  have hc := sSig_comps hs
  have hk := has_full ((params i).lambda / 8) key
  have hI := has_full ((params i).pkSize / 2) I
  have hO' := has_full ((params i).pkSize / 2) O
  obtain ⟨w, hw1, _, hw⟩ := aesExtendWitness_ok i hk hI
  have hu : Has (ofList (tabP (colBytes (params i)) (sU X (params i) key I O m r 0))) 0
      ((params i).l / 8 + (params i).lambda / 8) (sU X (params i) key I O m r 0) :=
    (has_tabP _ _).mono (by unfold colBytes; omega)
  have hL : (params i).l + (params i).lambda ≤ 8 * colBytes (params i) := by
    have := h.lam8; have := h.l8; unfold colBytes; omega
  have hh2 : Has (ofList (sChall2 X (params i) key I O m r)) 0 (3 * ((params i).lambda / 8) + 8)
    (byteFn (sChall2 X (params i) key I O m r)) := has_ro _ _ _ _ _
  have hV : ∀ c, c < (params i).lambda → rd (full (params i).lambda fun p =>
      tabP (colBytes (params i)) (sV X (params i) key I O m r p)) c
        = some (tabP (colBytes (params i)) (sV X (params i) key I O m r c)) := fun c hc => rd_full hc
  have hQ : ∀ c, c < (params i).lambda → rd (full (params i).lambda fun p =>
      tabP (colBytes (params i)) (vCol X (params i) sg p)) c
        = some (tabP (colBytes (params i)) (vCol X (params i) sg c)) := fun c hc => rd_full hc
  have hd : Has (full ((params i).l / 8) fun t => sg (posD (params i) + t)) 0 ((params i).l / 8)
      fun t => sg (posD (params i) + t) := has_full _ _
  have hc3 := has_full ((params i).lambda / 8) (sgChall (params i) sg)
  obtain ⟨a, b, hab, hver⟩ := C22_b_tilde i (chall3 := full ((params i).lambda / 8) (sgChall (params i) sg))
    (out := full ((params i).pkSize / 2) O) (ch := sgChall (params i) sg)
    (d := full ((params i).l / 8) fun t => sg (posD (params i) + t))
    (Q := full (params i).lambda fun p => tabP (colBytes (params i)) (vCol X (params i) sg p))
    hk hI hacc (fun t ht => by rw [rd_full ht, hO t ht]) hw1 hw hu hV hL
    (fun t ht => by rw [rd_full ht]; exact congrArg some (hc.d.fn ht))
    (fun c hc' => by
      rw [hQ c hc']
      exact congrArg some (tabP_congr fun t ht => hc.col_eq h hc' ht)) hh2 hc3
  have hab' := aesProve_ok i hn hw hu hV hL hI hO' hh2
  rw [hab] at hab'
  have h1 : a = (sA X (params i) key I O m r).toBytes := congrArg Prod.fst (Option.some.inj hab')
  have h2 : b = (sB X (params i) key I O m r).toBytes := congrArg Prod.snd (Option.some.inj hab')
  have haf : Has (ofList a) 0 ((params i).lambda / 8) fun t => sg (posA (params i) + t) := by
    rw [h1, ← hc.sgA_eq]
    exact has_tabP _ _
  rw [aesVerify_ok i hn hd hQ hL hI hO' hh2 hc3 haf] at hver
  have hcc : corrCol (sgChall (params i) sg) (fun t => sg (posD (params i) + t)) ((params i).l / 8)
      (vCol X (params i) sg) = vColW X (params i) sg := by
    funext p t
    exact corrCol_sel ..
  rw [hcc] at hver
  have h3 : (vB X (params i) sg I O (sChall2 X (params i) key I O m r)).toBytes = b := Option.some.inj hver
  unfold Valid vChall3
  dsimp only
  rw [hc.chall2_eq h, hc.sgA_eq, h3, h2, hc.sgCh_eq]
  rfl

end Faest
