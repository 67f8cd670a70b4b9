/-
The public interface: keys, comparison, signing and verification on byte strings.
-/
import Verif.Model.Api
import Verif.Proofs.SignVerify
import Verif.Spec.Api

namespace Faest
open Spec (byteFn sSig Valid)

/-! ### Keys as byte strings -/

theorem params_sk (i : ParamId) : (params i).skSize = (params i).pkSize / 2 + (params i).lambda / 8 := by
  cases i <;> rfl

theorem params_pk2 (i : ParamId) : (params i).pkSize = (params i).pkSize / 2 + (params i).pkSize / 2 := by
  cases i <;> rfl

theorem params_half_pos (i : ParamId) : 0 < (params i).pkSize / 2 := by cases i <;> decide

theorem ofList_drop (l : List Byte) (k : Nat) : (ofList l).drop k = ofList (l.drop k) := by
  unfold ofList; rw [List.map_drop]

theorem has_ofList_le (l : List Byte) {n : Nat} (h : n ≤ l.length) : Has (ofList l) 0 n (byteFn l) :=
  (has_byteFn l).mono h

theorem ptr_ofList (l : List Byte) {k : Nat} (h : k ≤ l.length) : ptr (ofList l) k = some (ofList (l.drop k)) := by
  rw [ptr_eq (by rw [ofList_length]; exact h), ofList_drop]

theorem rdN_ofList_le (l : List Byte) {off n : Nat} (h : off + n ≤ l.length) :
    rdN (ofList l) off n = some ((l.drop off).take n) := by
  have h1 : Has (ofList l) off n (byteFn (l.drop off)) := by
    intro t ht
    rw [rd_ofList, ← List.getElem?_drop]
    exact byteFn_getElem? (n := l.length - off) (by simp) (by omega)
  rw [rdN_eq h1 (by rw [ofList_length]; exact h)]
  congr 1
  symm
  refine list_eq_tabP _ _ _ (by simp; omega) fun t ht => ?_
  rw [List.getElem?_take, if_pos ht]
  exact byteFn_getElem? (n := l.length - off) (by simp) (by omega)

section keys
variable {i : ParamId} {sk pk : List Byte}

theorem sk_half_le (hsk : (params i).skSize ≤ sk.length) : (params i).pkSize / 2 ≤ sk.length := by
  rw [params_sk] at hsk; omega

theorem has_sk_key (hsk : (params i).skSize ≤ sk.length) :
    Has (ofList (sk.drop ((params i).pkSize / 2))) 0 ((params i).lambda / 8)
      (byteFn (sk.drop ((params i).pkSize / 2))) := by
  rw [params_sk] at hsk
  exact has_ofList_le _ (by rw [List.length_drop]; omega)

theorem has_sk_inp (hsk : (params i).skSize ≤ sk.length) :
    Has (ofList sk) 0 ((params i).pkSize / 2) (byteFn sk) := has_ofList_le _ (sk_half_le hsk)

/-- The one-way function on a secret key. -/
theorem owf_sk (hsk : (params i).skSize ≤ sk.length) :
    ∃ ok, owf i (ofList (sk.drop ((params i).pkSize / 2))) (ofList sk)
        = some (tabP ((params i).pkSize / 2)
            (Spec.owf i (byteFn (sk.drop ((params i).pkSize / 2))) (byteFn sk)), ok) ∧
      (ok = true ↔ Spec.skGood i sk) := by
  obtain ⟨e1, e2, e3⟩ := params_owfLen i
  obtain ⟨⟨o, ok⟩, h1, h2, h3⟩ := owf_ok i (key := ofList (sk.drop ((params i).pkSize / 2))) (inp := ofList sk)
    (by rw [e1]; exact has_sk_key hsk) (by rw [e2]; exact has_sk_inp hsk)
  simp only at h2
  subst h2
  rw [e3] at h1
  exact ⟨ok, h1, h3⟩

end keys

/-! ### Comparison -/

theorem zext_or_zero (a : BitVec 32) (b : Byte) : a ||| b.zeroExtend 32 = 0 ↔ a = 0 ∧ b = 0 := by
  constructor
  · intro h
    have h' := fun k => congrArg (fun x : BitVec 32 => x.getLsbD k) h
    simp only [BitVec.getLsbD_or, BitVec.truncate_eq_setWidth, BitVec.getLsbD_setWidth] at h'
    have hz : ∀ k, (0 : BitVec 32).getLsbD k = false := fun k => BitVec.getLsbD_zero
    refine ⟨BitVec.eq_of_getLsbD_eq fun k hk => ?_, BitVec.eq_of_getLsbD_eq fun k hk => ?_⟩
    · have := h' k
      rw [hz, Bool.or_eq_false_iff] at this
      rw [hz, this.1]
    · have := h' k
      rw [hz, Bool.or_eq_false_iff] at this
      have h2 := this.2
      rw [decide_eq_true (by omega), Bool.true_and] at h2
      rw [h2]; exact BitVec.getLsbD_zero.symm
  · rintro ⟨rfl, rfl⟩; rfl

theorem bcmpLoop_ok {a b : Mem Byte} {n : Nat} {f g : Nat → Byte} (ha : Has a 0 n f) (hb : Has b 0 n g) :
    ∀ (len i : Nat) (res : BitVec 32), i + len = n → ∃ r, (bcmpLoop len i res).run a b
        = some (r, (tabP len fun t => [(false, i + t), (true, i + t)]).flatten) ∧
      (r = 0 ↔ res = 0 ∧ ∀ t, i ≤ t → t < n → f t = g t) ∧ (res.toNat < 256 → r.toNat < 256) := by
  intro len
  induction len with
  | zero => intro i res hi; exact ⟨res, rfl, ⟨fun h => ⟨h, fun t _ _ => by omega⟩, fun h => h.1⟩, id⟩
  | succ len ih =>
    intro i res hi
    obtain ⟨r, h1, h2, h3⟩ := ih (i + 1) (res ||| (f i ^^^ g i).zeroExtend 32) (by omega)
    refine ⟨r, ?_, ?_, fun hlt => h3 ?_⟩
    · unfold bcmpLoop RdProg.run
      rw [if_neg (by decide), ha.rd0 (by omega)]
      show ((RdProg.read true i _).run a b >>= _) = _
      unfold RdProg.run
      rw [if_pos rfl, hb.rd0 (by omega)]
      show ((RdProg.run a b (bcmpLoop len (i + 1) _) >>= _) >>= _) = _
      rw [h1]
      show some (r, (false, i) :: (true, i) :: _) = _
      congr 2
      rw [Nat.add_comm len 1, tabP_add]
      show _ = [(false, i), (true, i)] ++ _
      rw [List.cons_append, List.cons_append, List.nil_append]
      congr 2
      congr 1
      exact tabP_congr fun t _ => by rw [Nat.add_assoc]
    · rw [h2, zext_or_zero, show (f i ^^^ g i = 0 ↔ f i = g i) from BitVec.xor_eq_zero_iff]
      constructor
      · rintro ⟨⟨h3, h4⟩, h5⟩
        refine ⟨h3, fun t ht1 ht2 => ?_⟩
        by_cases he : t = i
        · rw [he, h4]
        · exact h5 t (by omega) ht2
      · rintro ⟨h3, h4⟩
        exact ⟨⟨h3, h4 i (Nat.le_refl i) (by omega)⟩, fun t ht1 ht2 => h4 t (by omega) ht2⟩
    · rw [BitVec.toNat_or, show BitVec.zeroExtend 32 (f i ^^^ g i) = BitVec.setWidth 32 (f i ^^^ g i) from rfl,
        BitVec.toNat_setWidth]
      have h8 : (f i ^^^ g i).toNat % 2 ^ 32 < 2 ^ 8 := lt_of_le_of_lt (Nat.mod_le _ _) (BitVec.isLt _)
      exact Nat.or_lt_two_pow (n := 8) hlt h8

/-- `timingsafe_bcmp` returns 0 exactly on equal strings; its accesses alternate between the buffers. -/
theorem bcmpT_ok {a b : Mem Byte} {n : Nat} {f g : Nat → Byte} (ha : Has a 0 n f) (hb : Has b 0 n g) :
    ∃ r, timingsafeBcmpT a b n = some (r, (tabP n fun t => [(false, t), (true, t)]).flatten) ∧ r < 256 ∧
      (r = 0 ↔ ∀ t, t < n → f t = g t) := by
  obtain ⟨r, h1, h2, h3⟩ := bcmpLoop_ok ha hb n 0 0 (by omega)
  refine ⟨r.toNat, ?_, h3 (by decide), ?_⟩
  · unfold timingsafeBcmpT
    rw [h1]
    simp only [Nat.zero_add]
    rfl
  · rw [show (r.toNat = 0 ↔ r = 0) from ⟨fun h => BitVec.eq_of_toNat_eq h, fun h => by rw [h]; rfl⟩, h2]
    exact ⟨fun h t ht => h.2 t (Nat.zero_le t) ht, fun h => ⟨rfl, fun t _ ht => h t ht⟩⟩

theorem bcmp_ok {a b : Mem Byte} {n : Nat} {f g : Nat → Byte} (ha : Has a 0 n f) (hb : Has b 0 n g) :
    Ok (timingsafeBcmp a b n) fun r => r = 0 ↔ ∀ t, t < n → f t = g t := by
  obtain ⟨r, h1, -, h2⟩ := bcmpT_ok ha hb
  refine ⟨r, ?_, h2⟩
  unfold timingsafeBcmp
  rw [h1]
  rfl

/-! ### Validation -/

theorem byteFn_append_left {a b : List Byte} {t : Nat} (h : t < a.length) : byteFn (a ++ b) t = byteFn a t := by
  unfold byteFn; rw [List.getElem?_append_left h]

theorem byteFn_append_right {a b : List Byte} {t : Nat} (h : a.length ≤ t) :
    byteFn (a ++ b) t = byteFn b (t - a.length) := by
  unfold byteFn; rw [List.getElem?_append_right h]

theorem eq_of_byteFn {a b : List Byte} (hl : a.length = b.length) (h : ∀ t, t < a.length → byteFn a t = byteFn b t) :
    a = b := by
  rw [← tabP_byteFn a, ← tabP_byteFn b, ← hl]
  exact tabP_congr h

theorem pkOf_length {i : ParamId} {sk : List Byte} (hsk : (params i).skSize ≤ sk.length) :
    (Spec.pkOf i sk).length = (params i).pkSize := by
  have := sk_half_le hsk
  unfold Spec.pkOf
  rw [List.length_append, List.length_take, tabP_length]
  have := params_pk2 i
  omega

theorem validate_ok {i : ParamId} {pk sk : List Byte} (hpk : pk.length = (params i).pkSize)
    (hsk : sk.length = (params i).skSize) :
    ∃ r : Int, validateKeypair i (some (ofList pk)) (some (ofList sk)) = some r ∧
      (r = 0 ∧ Spec.skGood i sk ∧ pk = Spec.pkOf i sk ∨ r = 1 ∧ ¬Spec.skGood i sk ∨
        r = 2 ∧ Spec.skGood i sk ∧ pk ≠ Spec.pkOf i sk) := by
  have hsk' := hsk.ge
  have hh := sk_half_le hsk'
  have hp2 := params_pk2 i
  obtain ⟨ok, h1, h2⟩ := owf_sk hsk'
  have hpt := ptr_ofList sk hh
  unfold validateKeypair
  dsimp only
  unfold half
  rw [hpt]
  show ∃ r, (owf i (ofList (sk.drop ((params i).pkSize / 2))) (ofList sk) >>= _) = some r ∧ _
  rw [h1]
  cases ok with
  | false => exact ⟨1, rfl, .inr (.inl ⟨rfl, fun hg => by simpa using h2.2 hg⟩)⟩
  | true =>
    have hg := h2.1 rfl
    suffices hsuf : Ok (do
        let chk ← wrN (malloc (params i).pkSize) ((params i).pkSize / 2)
          (tabP ((params i).pkSize / 2) (Spec.owf i (byteFn (sk.drop ((params i).pkSize / 2))) (byteFn sk)))
        let inp ← rdN (ofList sk) 0 ((params i).pkSize / 2)
        let chk ← wrN chk 0 inp
        let r ← timingsafeBcmp chk (ofList pk) (params i).pkSize
        pure (if r = 0 then (0 : Int) else 2)) (fun r =>
          r = 0 ∧ Spec.skGood i sk ∧ pk = Spec.pkOf i sk ∨ r = 1 ∧ ¬Spec.skGood i sk ∨
          r = 2 ∧ Spec.skGood i sk ∧ pk ≠ Spec.pkOf i sk) from hsuf
    refine Ok.bind (wrN_ok (by rw [tabP_length, malloc_length]; omega)) ?_
    rintro c1 ⟨l1, w1, -⟩
    rw [malloc_length] at l1
    refine Ok.step (rdN_ofList_le sk (by omega)) ?_
    rw [List.drop_zero]
    have hlt : (sk.take ((params i).pkSize / 2)).length = (params i).pkSize / 2 := by
      rw [List.length_take]; omega
    refine Ok.bind (wrN_ok (by rw [hlt]; omega)) ?_
    rintro c2 ⟨l2, w2, f2⟩
    have hall : HasL c2 0 (Spec.pkOf i sk) := by
      unfold Spec.pkOf
      exact w2.append (w1.keep f2 (by omega)) (by omega)
    have hb := hall.has
    rw [pkOf_length hsk'] at hb
    refine Ok.bind (bcmp_ok hb (has_ofList_le pk hpk.ge)) ?_
    intro r hr
    refine Ok.pure ?_
    by_cases hr0 : r = 0
    · rw [if_pos hr0]
      refine .inl ⟨rfl, hg, ?_⟩
      symm
      exact eq_of_byteFn (by rw [pkOf_length hsk', hpk]) fun t ht =>
        hr.1 hr0 t (by rwa [pkOf_length hsk'] at ht)
    · rw [if_neg hr0]
      refine .inr (.inr ⟨rfl, hg, ?_⟩)
      rintro he
      exact hr0 (hr.2 fun t _ => by rw [he])

/-! ### Signing -/

/-- The bytes of `rho` which are hashed; NULL and length 0 are the same. -/
def rhoMem (r : Option (List Byte)) : Option (Mem Byte) := r.map ofList

theorem rhoBytes_ofList (r : Option (List Byte)) : rhoBytes (rhoMem r) (r.getD []).length = some (r.getD []) := by
  unfold rhoBytes rhoMem
  cases r with
  | none => rfl
  | some r =>
    show (if r.length ≠ 0 then rdN (ofList r) 0 r.length else some []) = some r
    by_cases h : r.length = 0
    · rw [if_neg (by omega), List.length_eq_zero_iff.1 h]
    · rw [if_pos h, rdN_ofList]

theorem sign_ok (X : XOF) {i : ParamId} {sk m r : List Byte} {rho : Option (Mem Byte)} {rholen msglen : Nat}
    {msg sig : Mem Byte} {n : Nat} (hsk : sk.length = (params i).skSize) (hn : (params i).sigSize ≤ n)
    (hbuf : n ≤ sig.length) (hm : rdN msg 0 msglen = some m) (hr : rhoBytes rho rholen = some r)
    (hnull : rho = none → rholen = 0) (hg : Spec.skGood i sk) :
    ∃ sig', signWithRandomness X i (some (ofList sk)) msg msglen rho rholen (some sig) (some n)
        = some ⟨0, some sig', some (params i).sigSize⟩ ∧ sig'.length = sig.length ∧
      ∀ p, rd sig' p = if p < (params i).sigSize then (Spec.signature X i sk m r)[p]? else rd sig p := by
  obtain ⟨ok, h1, h2⟩ := owf_sk (i := i) hsk.ge
  obtain rfl : ok = true := h2.2 hg
  have hO : Has (ofList (tabP ((params i).pkSize / 2)
      (Spec.owf i (byteFn (sk.drop ((params i).pkSize / 2))) (byteFn sk)))) 0 ((params i).pkSize / 2)
      (Spec.owf i (byteFn (sk.drop ((params i).pkSize / 2))) (byteFn sk)) := has_tabP _ _
  obtain ⟨c, hw, hcl, hc, -⟩ := wrN_ok (m := malloc ((params i).pkSize / 2)) (off := 0)
    (l := tabP ((params i).pkSize / 2) (Spec.owf i (byteFn (sk.drop ((params i).pkSize / 2))) (byteFn sk)))
    (by rw [malloc_length, tabP_length]; omega)
  have hcc : Has c 0 ((params i).pkSize / 2)
      (Spec.owf i (byteFn (sk.drop ((params i).pkSize / 2))) (byteFn sk)) := by
    have := hc.has
    rw [tabP_length] at this
    exact this.congr fun t ht => byteFn_tabP ht
  obtain ⟨s, hs1, hs2, hs3⟩ := faestSign_ok X i (sig := sig) (rho := rho) (by omega) hm hr (has_sk_key hsk.ge)
    (has_sk_inp hsk.ge) hcc
  refine ⟨s, ?_, hs2, hs3⟩
  unfold signWithRandomness
  dsimp only
  rw [if_neg (by
    rintro (h | ⟨h, h'⟩)
    · omega
    · exact h' (hnull (by simpa using h)))]
  unfold half
  rw [ptr_ofList sk (sk_half_le hsk.ge)]
  show (owf i (ofList (sk.drop ((params i).pkSize / 2))) (ofList sk) >>= _) = _
  rw [h1]
  show (wrN (malloc ((params i).pkSize / 2)) 0 _ >>= _) = _
  rw [hw]
  show (faestSign X (params i) sig msg msglen _ (ofList sk) c rho rholen >>= _) = _
  rw [hs1]
  rfl

theorem sign_reject (X : XOF) {i : ParamId} {sk : List Byte} {rho : Option (Mem Byte)} {rholen msglen : Nat}
    {msg sig : Mem Byte} {n : Nat} (hsk : sk.length = (params i).skSize) (hg : ¬Spec.skGood i sk) :
    signWithRandomness X i (some (ofList sk)) msg msglen rho rholen (some sig) (some n)
        = some ⟨-1, some sig, some n⟩ := by
  obtain ⟨ok, h1, h2⟩ := owf_sk (i := i) hsk.ge
  obtain rfl : ok = false := by
    cases ok with
    | false => rfl
    | true => exact absurd (h2.1 rfl) hg
  obtain ⟨c, hw, -⟩ := wrN_ok (m := malloc ((params i).pkSize / 2)) (off := 0)
    (l := tabP ((params i).pkSize / 2) (Spec.owf i (byteFn (sk.drop ((params i).pkSize / 2))) (byteFn sk)))
    (by rw [malloc_length, tabP_length]; omega)
  unfold signWithRandomness
  dsimp only
  split
  · rfl
  · unfold half
    rw [ptr_ofList sk (sk_half_le hsk.ge)]
    show (owf i (ofList (sk.drop ((params i).pkSize / 2))) (ofList sk) >>= _) = _
    rw [h1]
    show (wrN (malloc ((params i).pkSize / 2)) 0 _ >>= _) = _
    rw [hw]
    rfl

/-! ### Verification -/

theorem verify_ok (X : XOF) {i : ParamId} {pk m sg : List Byte} {msg sig : Mem Byte} {msglen : Nat}
    (hpk : pk.length = (params i).pkSize) (hm : rdN msg 0 msglen = some m)
    (hs : Has sig 0 (params i).sigSize (byteFn sg)) :
    ∃ r : Int, verify X i (some (ofList pk)) msg msglen (some sig) (params i).sigSize = some r ∧
      (r = 0 ∨ r = -1) ∧ (r = 0 ↔ Spec.ValidSig X i pk m sg) := by
  have hp2 := params_pk2 i
  obtain ⟨r, h1, h2, h3⟩ := faestVerify_ok X i (out := ofList (pk.drop ((params i).pkSize / 2))) hs hm
    (has_ofList_le pk (n := (params i).pkSize / 2) (by omega))
    (has_ofList_le (pk.drop ((params i).pkSize / 2)) (by rw [List.length_drop]; omega))
  refine ⟨r, ?_, h2, h3⟩
  unfold verify
  dsimp only
  rw [if_neg (by simp)]
  unfold half
  rw [ptr_ofList pk (by omega)]
  exact h1

theorem signature_length (X : XOF) (i : ParamId) (sk m r : List Byte) :
    (Spec.signature X i sk m r).length = (params i).sigSize := sSig_length (params_wf i)

/-- Only the two halves of the public key matter. -/
theorem Valid_congr {X : XOF} {P : Params} {sg I O I' O' : Nat → Byte} {m : List Byte} {i : ParamId}
    (hP : P = params i) (hI : ∀ t, t < P.pkSize / 2 → I t = I' t) (hO : ∀ t, t < P.pkSize / 2 → O t = O' t) :
    Valid X P sg I O m ↔ Valid X P sg I' O' m := by
  subst hP
  have hs := has_full (params i).sigSize sg
  obtain ⟨r, h1, -, h2⟩ := faestVerify_ok X i hs (rdN_ofList m) (has_full _ I) (has_full _ O)
  obtain ⟨r', h1', -, h2'⟩ := faestVerify_ok X i hs (rdN_ofList m) ((has_full _ I).congr hI) ((has_full _ O).congr hO)
  rw [h1] at h1'
  rw [← h2, ← h2', Option.some.inj h1']

/-- Signatures of accepted keys are valid under the matching public key. -/
theorem signature_valid (X : XOF) {i : ParamId} {sk m r : List Byte} (hsk : sk.length = (params i).skSize)
    (hg : Spec.skGood i sk) : Spec.ValidSig X i (Spec.pkOf i sk) m (Spec.signature X i sk m r) := by
  have hh := sk_half_le (i := i) hsk.ge
  obtain ⟨e1, e2, e3⟩ := params_owfLen i
  obtain ⟨⟨o, ok⟩, h1, h2, h3⟩ := owf_ok i
    (by rw [e1]; exact has_full ((params i).lambda / 8) (byteFn (sk.drop ((params i).pkSize / 2))))
    (by rw [e2]; exact has_full ((params i).pkSize / 2) (byteFn sk))
  dsimp only at h2 h3
  obtain rfl : ok = true := h3.2 hg
  have hlt : (sk.take ((params i).pkSize / 2)).length = (params i).pkSize / 2 := by
      rw [List.length_take]; omega
  unfold Spec.ValidSig
  refine (Valid_congr (i := i) rfl (I' := byteFn sk)
    (O' := Spec.owf i (byteFn (sk.drop ((params i).pkSize / 2))) (byteFn sk)) ?_ ?_).2 ?_
  · intro t ht
    unfold Spec.pkOf
    rw [byteFn_append_left (by omega)]
    unfold byteFn
    rw [List.getElem?_take, if_pos ht]
  · intro t ht
    unfold Spec.pkOf
    rw [List.drop_left' hlt, byteFn_tabP ht]
  · refine sSig_valid X i h1 ?_ ?_ (r := r)
    · intro t ht
      rw [h2, e3, tabP_getElem?, if_pos ht]
    · intro t ht
      rw [Nat.zero_add]
      exact byteFn_getElem? rfl ht

end Faest
