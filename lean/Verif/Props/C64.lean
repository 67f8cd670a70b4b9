/-
C64: signatures with the same openings are in bijection with the hidden leaves, whatever the key.
-/
import Verif.Proofs.GivenReal
import Verif.Props.C01

namespace Faest.Props
open Spec (byteFn Hidden Opens skSig skChall sigsWith pkOf skGood ValidSig sgIv sgChall sgNode sgCom leafIdx depth colBytes)

section
variable {X : XOF} {i : ParamId} {sk m : List Byte}

theorem good_owf (hg : skGood i sk) : ∃ y : List Byte,
    owf i (full ((params i).lambda / 8) (byteFn (sk.drop ((params i).pkSize / 2))))
      (full ((params i).pkSize / 2) (byteFn sk)) = some (y, true) ∧
    ∀ t, t < (params i).pkSize / 2 →
      y[t]? = some (Spec.owf i (byteFn (sk.drop ((params i).pkSize / 2))) (byteFn sk) t) := by
  obtain ⟨e1, e2, e3⟩ := params_owfLen i
  obtain ⟨⟨o, ok⟩, h1, h2, h3⟩ := owf_ok i
    (by rw [e1]; exact has_full ((params i).lambda / 8) (byteFn (sk.drop ((params i).pkSize / 2))))
    (by rw [e2]; exact has_full ((params i).pkSize / 2) (byteFn sk))
  dsimp only at h2 h3
  obtain rfl : ok = true := h3.2 hg
  exact ⟨o, h1, fun t ht => by rw [h2, e3, tabP_getElem?, if_pos ht]⟩

theorem validSig_pkOf (hsk : sk.length = (params i).skSize) (sg : List Byte) : ValidSig X i (pkOf i sk) m sg ↔
    Spec.Valid X (params i) (byteFn sg) (byteFn sk)
      (Spec.owf i (byteFn (sk.drop ((params i).pkSize / 2))) (byteFn sk)) m := by
  have hh := sk_half_le (i := i) hsk.ge
  have hlt : (sk.take ((params i).pkSize / 2)).length = (params i).pkSize / 2 := by
    rw [List.length_take]; omega
  refine Valid_congr (i := i) rfl ?_ ?_
  · intro t ht
    unfold Spec.pkOf
    rw [byteFn_append_left (by omega)]
    unfold byteFn
    rw [List.getElem?_take, if_pos ht]
  · intro t ht
    unfold Spec.pkOf
    rw [List.drop_left' hlt, byteFn_tabP ht]

variable (X m) in
/-- **C64.** Let a signer use the opened leaves and, in the leaves selected by the challenge `ch`, arbitrary strings and
commitments.  Those choices for which the signer computes the challenge `ch` are in bijection with all valid
signatures with these openings.  The latter set does not depend on the secret key. -/
theorem C64_bijection (hsk : sk.length = (params i).skSize) (hg : skGood i sk) {iv ch : List Byte}
    {node : Nat → Nat → List Byte} (hiv : iv.length = 16) (hn : ∀ a l, (node a l).length = (params i).lambda / 8) :
    Set.BijOn (skSig X i sk m iv ch node) {h | skChall X i sk m iv ch node h = ch}
      (sigsWith X i (pkOf i sk) m iv ch node) := by
  obtain ⟨y, hacc, hO⟩ := good_owf hg
  have hb := hidden_bijOn (X := X) (m := m) (ch := ch) i hacc hO hiv hn
  have e : sigsWith X i (pkOf i sk) m iv ch node = {sg | sg.length = (params i).sigSize ∧
      Spec.Valid X (params i) (byteFn sg) (byteFn sk)
        (Spec.owf i (byteFn (sk.drop ((params i).pkSize / 2))) (byteFn sk)) m ∧
      Opens (params i) iv ch node (byteFn sg)} := by
    ext sg
    exact and_congr_right fun _ => and_congr_left fun _ => validSig_pkOf hsk sg
  rw [e]
  exact hb

variable (X m) in
/-- Every valid signature could have been made with every accepted key for the public key, in exactly one way. -/
theorem C64_every_key (hsk : sk.length = (params i).skSize) (hg : skGood i sk) {sg : List Byte}
    (hl : sg.length = (params i).sigSize) (hv : ValidSig X i (pkOf i sk) m sg) :
    ∃! h : Hidden (params i),
      skSig X i sk m (sgIv (params i) (byteFn sg)) (tabP ((params i).lambda / 8) (sgChall (params i) (byteFn sg)))
        (sgNode (params i) (byteFn sg)) h = sg ∧
      skChall X i sk m (sgIv (params i) (byteFn sg)) (tabP ((params i).lambda / 8) (sgChall (params i) (byteFn sg)))
        (sgNode (params i) (byteFn sg)) h = tabP ((params i).lambda / 8) (sgChall (params i) (byteFn sg)) := by
  have hb := C64_bijection X m hsk hg (iv := sgIv (params i) (byteFn sg))
    (ch := tabP ((params i).lambda / 8) (sgChall (params i) (byteFn sg))) (node := sgNode (params i) (byteFn sg))
    (tabP_length ..) (fun _ _ => tabP_length ..)
  obtain ⟨h, h1, h2⟩ := hb.2.2 (⟨hl, hv, ⟨rfl, rfl, fun _ _ _ _ => rfl⟩⟩ : sg ∈ sigsWith X i (pkOf i sk) m _ _ _)
  exact ⟨h, ⟨h2, h1⟩, fun h' hh' => hb.2.1 hh'.2 h1 (hh'.1.trans h2.symm)⟩

variable (X m) in
/-- For two accepted keys with the same public key, as many choices of the hidden leaves give signatures, and they give
the same signatures. -/
theorem C64_two_keys {sk' : List Byte} (hsk : sk.length = (params i).skSize) (hg : skGood i sk)
    (hsk' : sk'.length = (params i).skSize) (hg' : skGood i sk') (hpk : pkOf i sk = pkOf i sk') {iv ch : List Byte}
    {node : Nat → Nat → List Byte} (hiv : iv.length = 16) (hn : ∀ a l, (node a l).length = (params i).lambda / 8) :
    ∃ e : {h // skChall X i sk m iv ch node h = ch} ≃ {h // skChall X i sk' m iv ch node h = ch},
      ∀ h, skSig X i sk m iv ch node h.1 = skSig X i sk' m iv ch node (e h).1 := by
  have hb := C64_bijection X m hsk hg (ch := ch) hiv hn
  have hb' := C64_bijection X m hsk' hg' (ch := ch) hiv hn
  rw [← hpk] at hb'
  refine ⟨(hb.equiv _).trans (hb'.equiv _).symm, fun h => ?_⟩
  exact (congrArg Subtype.val ((hb'.equiv _).apply_symm_apply (hb.equiv _ h))).symm

variable (X m) in
/-- So no set `T` of signatures is met by more choices for one key than for the other. -/
theorem C64_count {sk' : List Byte} (hsk : sk.length = (params i).skSize) (hg : skGood i sk)
    (hsk' : sk'.length = (params i).skSize) (hg' : skGood i sk') (hpk : pkOf i sk = pkOf i sk') {iv ch : List Byte}
    {node : Nat → Nat → List Byte} (hiv : iv.length = 16) (hn : ∀ a l, (node a l).length = (params i).lambda / 8)
    (T : Set (List Byte)) :
    Nat.card {h // skChall X i sk m iv ch node h = ch ∧ skSig X i sk m iv ch node h ∈ T}
      = Nat.card {h // skChall X i sk' m iv ch node h = ch ∧ skSig X i sk' m iv ch node h ∈ T} := by
  obtain ⟨e, he⟩ := C64_two_keys X m hsk hg hsk' hg' hpk (ch := ch) hiv hn
  refine Nat.card_congr ⟨fun h => ⟨(e ⟨h.1, h.2.1⟩).1, (e ⟨h.1, h.2.1⟩).2, he ⟨h.1, h.2.1⟩ ▸ h.2.2⟩,
    fun h => ⟨(e.symm ⟨h.1, h.2.1⟩).1, (e.symm ⟨h.1, h.2.1⟩).2, ?_⟩, fun h => ?_, fun h => ?_⟩
  · rw [he, e.apply_symm_apply]
    exact h.2.2
  · exact Subtype.ext (congrArg (fun q => q.1) (e.symm_apply_apply ⟨h.1, h.2.1⟩))
  · exact Subtype.ext (congrArg (fun q => q.1) (e.apply_symm_apply ⟨h.1, h.2.1⟩))

variable (X m) in
/-- The signer of the code is such a signer: what it hides are the string and the commitment of the leaves selected by
its third challenge, and these are among the choices of `C64_bijection`. -/
theorem C64_signer (hg : skGood i sk) (r : List Byte) {key I O : Nat → Byte}
    (hk : key = byteFn (sk.drop ((params i).pkSize / 2))) (hI : I = byteFn sk) (hO : O = Spec.owf i key I) :
    skChall X i sk m (Spec.sIv X (params i) key I O m r) (Spec.sChall3 X (params i) key I O m r)
        (sgNode (params i) (byteFn (Spec.signature X i sk m r))) (Spec.realHidden X (params i) key I O m r)
      = Spec.sChall3 X (params i) key I O m r ∧
    skSig X i sk m (Spec.sIv X (params i) key I O m r) (Spec.sChall3 X (params i) key I O m r)
        (sgNode (params i) (byteFn (Spec.signature X i sk m r))) (Spec.realHidden X (params i) key I O m r)
      = Spec.signature X i sk m r := by
  subst hO hI hk
  obtain ⟨y, hacc, hO⟩ := good_owf hg
  exact (real_hidden (X := X) (m := m) (r := r) i hacc hO).symm

end

/-! The hypotheses are met by the key pair of the known answer test, with every signature made with it. -/

example (X : XOF) (m r : List Byte) :
    ∃! h : Hidden (params .p128F),
      skSig X .p128F Concrete.sk m (sgIv (params .p128F) (byteFn (Spec.signature X .p128F Concrete.sk m r)))
        (tabP 16 (sgChall (params .p128F) (byteFn (Spec.signature X .p128F Concrete.sk m r))))
        (sgNode (params .p128F) (byteFn (Spec.signature X .p128F Concrete.sk m r))) h
          = Spec.signature X .p128F Concrete.sk m r ∧
      skChall X .p128F Concrete.sk m (sgIv (params .p128F) (byteFn (Spec.signature X .p128F Concrete.sk m r)))
        (tabP 16 (sgChall (params .p128F) (byteFn (Spec.signature X .p128F Concrete.sk m r))))
        (sgNode (params .p128F) (byteFn (Spec.signature X .p128F Concrete.sk m r))) h
          = tabP 16 (sgChall (params .p128F) (byteFn (Spec.signature X .p128F Concrete.sk m r))) :=
  C64_every_key X m (i := .p128F) (sk := Concrete.sk) rfl Concrete.kat_good
    (sSig_length (params_wf _)) (signature_valid X rfl Concrete.kat_good)

end Faest.Props
