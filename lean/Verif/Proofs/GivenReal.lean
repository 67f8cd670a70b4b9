/-
The real signer is a signer with given leaves.
-/
import Verif.Proofs.GivenBij

namespace Faest
open Spec

variable {X : XOF}

/-- The signature is made from the strings and commitments of the leaves. -/
theorem sSig_given (P : Params) (key I O : Nat → Byte) (m r : List Byte) :
    sSig X P key I O m r = gSig X P key I O m (sIv X P key I O m r)
      (pR X P (sRoot X P key I O m r) (sIv X P key I O m r)) (pCom X P (sRoot X P key I O m r) (sIv X P key I O m r))
      (fun ch i => (tabP (depth P i) fun l => pNode P (sRoot X P key I O m r) (sIv X P key I O m r) i (l + 1)
        (sib (anc (depth P i) (leafIdx P (byteFn ch) i) (l + 1)))).flatten) := rfl

theorem real_hidden (i : ParamId) {y : List Byte} {key I O : Nat → Byte} {m r : List Byte}
    (hacc : owf i (full ((params i).lambda / 8) key) (full ((params i).pkSize / 2) I) = some (y, true))
    (hO : ∀ t, t < (params i).pkSize / 2 → y[t]? = some (O t)) :
    hSig X (params i) key I O m (sIv X (params i) key I O m r) (sChall3 X (params i) key I O m r)
        (sgNode (params i) (byteFn (sSig X (params i) key I O m r))) (realHidden X (params i) key I O m r)
      = sSig X (params i) key I O m r ∧
    hChall X (params i) key I O m (sIv X (params i) key I O m r) (sChall3 X (params i) key I O m r)
        (sgNode (params i) (byteFn (sSig X (params i) key I O m r))) (realHidden X (params i) key I O m r)
      = sChall3 X (params i) key I O m r := by
  have hP := params_wf i
  have hz := Local.params_conSz i
  obtain ⟨sg, hsg⟩ : ∃ sg, sg = sSig X (params i) key I O m r := ⟨_, rfl⟩
  have hat : At (byteFn sg) 0 (sSig X (params i) key I O m r) := by rw [← hsg]; exact At.of_list
  have hv := sSig_valid X i hacc hO hat
  have hc := sSig_comps hat
  have hl : sg.length = (params i).sigSize := by rw [hsg]; exact sSig_length hP
  rw [← hsg]
  have ho : Opens (params i) (sIv X (params i) key I O m r) (sChall3 X (params i) key I O m r)
      (sgNode (params i) (byteFn sg)) (byteFn sg) := ⟨hc.sgIv_eq, hc.sgCh_eq, fun _ _ _ _ => rfl⟩
  have hleaf : ∀ a, a < (params i).tau → leafIdx (params i) (sgChall (params i) (byteFn sg)) a
      = leafIdx (params i) (byteFn (sChall3 X (params i) key I O m r)) a := fun a ha =>
    leafIdx_congr hP (fun t ht => hc.ch_fn ht) ha
  -- the leaves of the signer fit
  have hf : Fit X (params i) (pR X (params i) (sRoot X (params i) key I O m r) (sIv X (params i) key I O m r))
      (pCom X (params i) (sRoot X (params i) key I O m r) (sIv X (params i) key I O m r)) (byteFn sg) := by
    constructor
    · intro a ha j hj hne t
      rw [hc.sgIv_eq, vNode_honest (hc.honest hP) ha hj hne]
      rfl
    · intro a ha j hj
      unfold vCom
      rw [hc.sgIv_eq]
      split
      · rename_i e
        rw [hc.com hP ha, e]
      · rename_i e
        rw [vNode_honest (hc.honest hP) ha hj e]
        rfl
  have hco : CorrOk (params i) (pR X (params i) (sRoot X (params i) key I O m r) (sIv X (params i) key I O m r))
      (byteFn sg) := corrOk_iff.1 hc.c
  have hu := hc.u
  have ha := hc.a
  have hU := (uStar_iff (key := key) (I := I) (O := O) (m := m) hP hz hf hco).1 (by
    rw [hc.sgIv_eq]
    exact ⟨hu, hc.d, ha⟩)
  refine (hidden_iff i hacc hO sIv_length (fun _ _ => tabP_length ..) hl).2 ⟨hv, ho, ?_, ?_⟩
  · intro a ha
    rw [hc.com hP ha, hleaf a ha]
    unfold Hidden.c
    have hlen : (pCom X (params i) (sRoot X (params i) key I O m r) (sIv X (params i) key I O m r) a
      (leafIdx (params i) (byteFn (sChall3 X (params i) key I O m r)) a)).length = (params i).lambda / 8 * 2 :=
      leafCom_length ..
    refine Eq.trans (tabP_congr fun t ht => ?_) (hlen ▸ tabP_byteFn _)
    rw [dif_pos ha, dif_pos ht]
    rfl
  · intro a ha t ht
    have e : gU (params i) (leafStrs X (params i) (sIv X (params i) key I O m r) (sChall3 X (params i) key I O m r)
        (sgNode (params i) (byteFn sg)) (realHidden X (params i) key I O m r)) a t
        = gU (params i) (pR X (params i) (sRoot X (params i) key I O m r) (sIv X (params i) key I O m r)) a t := by
      unfold gU voleU
      refine xsum_congr fun j hj => ?_
      unfold leafStrs
      split
      · rename_i e
        unfold Hidden.s
        rw [dif_pos ha, dif_pos ht, e]
        rfl
      · rename_i e
        rw [hf.r a ha j hj (by rw [hleaf a ha]; exact e), ho.vnode hP ha, hc.sgIv_eq]
    refine Eq.trans e ?_
    unfold uTree
    by_cases h0 : a = 0
    · rw [if_pos h0, h0, hU t ht]
      exact BitVec.xor_zero.symm
    · rw [if_neg h0, hco (a - 1) (by omega) t ht, Nat.sub_add_cancel (by omega), ← hU t ht, xb_cancel]

end Faest
