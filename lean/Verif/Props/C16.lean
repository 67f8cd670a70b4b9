/-
C15: challenge decoding is a lossless partition.
C16: VOLE correlation.
-/
import Verif.Proofs.VoleCorr
import Verif.Props.C14

namespace Faest
open Spec (byteFn strBit bitsNat depth colStart treeOf leafIdx sib anc hcomOf)

/-! ### C15 -/

/-- C15: chunk `i` has `depth i` bits; its bit `j` is bit `lo i + j` of the challenge, where the chunks
follow each other from bit 0 on and fill exactly `lambda` bits; indices from `tau` on are refused. -/
theorem C15_chalDec (id : ParamId) {chal out : Mem Byte} {ch : Nat → Byte}
    (hc : Has chal 0 ((params id).lambda / 8) ch) (ho : MAX_DEPTH ≤ out.length) :
    ∃ lo : Nat → Nat, lo 0 = 0 ∧ (∀ i, lo (i + 1) = lo i + (params id).depth i) ∧
      lo (params id).tau = (params id).lambda ∧
      (∀ p, p < (params id).lambda → ∃! ij : Nat × Nat, ij.1 < (params id).tau ∧
        ij.2 < (params id).depth ij.1 ∧ p = lo ij.1 + ij.2) ∧
      (∀ i, i < (params id).tau →
        Ok (chalDec chal i (params id).k0 (params id).t0 (params id).k1 (params id).t1 out) (fun r =>
          r.1 = 1 ∧ r.2.length = out.length ∧ ∀ j, j < (params id).depth i →
            rd r.2 j = some (if (ch ((lo i + j) / 8)).getLsbD ((lo i + j) % 8) then 1 else 0))) ∧
      ∀ i, (params id).tau ≤ i →
        chalDec chal i (params id).k0 (params id).t0 (params id).k1 (params id).t1 out = some (0, out) := by
  have h := params_wf id
  refine ⟨colStart (params id), PWF.colStart_zero, PWF.colStart_succ, h.colStart_tau, ?_, ?_, ?_⟩
  · intro p hp
    obtain ⟨i, j, hi, hj, rfl⟩ := h.col_exists hp
    refine ⟨(i, j), ⟨hi, hj, rfl⟩, ?_⟩
    rintro ⟨i', j'⟩ ⟨hi', hj', he⟩
    have e1 : i' = i := by
      have h1 := h.treeOf_col (i := i) hj
      have h2 := h.treeOf_col (i := i') (j := j') hj'
      rw [← h1, ← h2, he]
    have e2 : j' = j := by simp only at he; rw [e1] at he; omega
    rw [e1, e2]
  · intro i hi
    refine (chalDec_ok h hc hi ho).mono ?_
    rintro r ⟨h1, h2, _, h3⟩
    refine ⟨h1, h2, fun j hj => ?_⟩
    rw [h3 j hj, leafIdx_bit hj]
    unfold strBit
    cases (ch ((colStart (params id) i + j) / 8)).getLsbD ((colStart (params id) i + j) % 8) <;> rfl
  · intro i hi
    unfold chalDec
    rw [if_pos (by rw [h.tau]; exact hi)]

/-- C15, NumRec: the index of a chunk of bits is below `2^depth` and its binary digits are the chunk. -/
theorem C15_numRec {d : Nat} {f : Nat → Bool} {b : Mem Byte} (hd : d ≤ MAX_DEPTH)
    (hb : ∀ j, j < d → rd b j = some (if f j then 1 else 0)) :
    Ok (numRec d b) (fun n => n < 2 ^ d ∧ ∀ j, j < d → n.testBit j = f j) := by
  have hmd : MAX_DEPTH = 12 := rfl
  have hB : BitsOf b d (bitsNat f d) := by
    refine ⟨bitsNat_lt f d, fun j hj => ?_⟩
    rw [hb j hj, bitsNat_bit f d j hj]
    cases f j <;> rfl
  refine Ok.of_eq (numRec_ok hB (by omega)) ⟨bitsNat_lt f d, fun j hj => ?_⟩
  rw [Nat.testBit_eq_decide_div_mod_eq, bitsNat_bit f d j hj]
  cases f j <;> rfl

theorem bitDec_ok {leaf d : Nat} {out : Mem Byte} (hd : d ≤ MAX_DEPTH) (hl : leaf < 2 ^ d)
    (ho : d ≤ out.length) : Ok (bitDec leaf d out) (fun r => ∃ m, r = some m ∧ BitsOf m d leaf) := by
  have hmd : MAX_DEPTH = 12 := rfl
  unfold bitDec
  rw [if_neg (by omega), if_neg (by omega)]
  refine Ok.bind (Ok.forN (fun j (s : Mem Byte × Nat) => s.1.length = out.length ∧ s.2 = leaf / 2 ^ j ∧
    ∀ k, k < j → rd s.1 k = some (BitVec.ofNat 8 (leaf / 2 ^ k % 2))) ?_ ?_) ?_
  · exact ⟨rfl, by simp, fun k hk => by omega⟩
  · rintro j hj ⟨m, a⟩ ⟨h1, rfl, h3⟩
    simp only at h1 h3 ⊢
    refine Ok.bind (Ok.wr (Q := fun m' => m'.length = out.length ∧ ∀ k, rd m' k = if k = j then
      some (BitVec.ofNat 8 (leaf / 2 ^ j % 2)) else rd m k) (by omega)
      fun m' hl hm => ⟨by omega, hm⟩) ?_
    rintro m' ⟨hl', hm'⟩
    refine Ok.pure ⟨hl', ?_, fun k hk => ?_⟩
    · show _ / 2 = _
      rw [Nat.div_div_eq_div_mul, Nat.pow_succ]
    · show rd m' k = _
      rw [hm']
      by_cases hkj : k = j
      · rw [if_pos hkj, hkj]
      · rw [if_neg hkj, h3 k (by omega)]
  · rintro ⟨m, a⟩ ⟨_, _, h3⟩
    exact Ok.pure ⟨m, rfl, hl, h3⟩

/-- C15, BitDec inverts NumRec and NumRec inverts BitDec; BitDec refuses indices from `2^depth` on. -/
theorem C15_bitDec_numRec {d : Nat} (hd : d ≤ MAX_DEPTH) :
    (∀ (leaf : Nat) (out : Mem Byte), leaf < 2 ^ d → d ≤ out.length →
      ∃ m, bitDec leaf d out = some (some m) ∧ numRec d m = some leaf) ∧
    (∀ (f : Nat → Bool) (b out : Mem Byte), (∀ j, j < d → rd b j = some (if f j then 1 else 0)) →
      d ≤ out.length → ∃ n m, numRec d b = some n ∧ bitDec n d out = some (some m) ∧
        ∀ j, j < d → rd m j = rd b j) ∧
    ∀ (leaf : Nat) (out : Mem Byte), 2 ^ d ≤ leaf → bitDec leaf d out = some none := by
  have hmd : MAX_DEPTH = 12 := rfl
  refine ⟨?_, ?_, ?_⟩
  · intro leaf out hl ho
    obtain ⟨r, h1, m, rfl, h2⟩ := bitDec_ok hd hl ho
    exact ⟨m, h1, numRec_ok h2 (by omega)⟩
  · intro f b out hb ho
    obtain ⟨n, h1, h2, h3⟩ := C15_numRec hd hb
    obtain ⟨r, h4, m, rfl, h5⟩ := bitDec_ok hd h2 ho
    refine ⟨n, m, h1, h4, fun j hj => ?_⟩
    rw [h5.2 j hj, hb j hj, ← h3 j hj, Nat.testBit_eq_decide_div_mod_eq]
    rcases Nat.mod_two_eq_zero_or_one (n / 2 ^ j) with e | e <;> rw [e] <;> rfl
  · intro leaf out hl
    unfold bitDec
    rw [if_neg (by omega), if_pos hl]

/-- Chunk 3 of the challenge with bytes 0, 1, 2, … of FAEST-128f, computed. -/
example : chalDec (full 16 fun i => BitVec.ofNat 8 (37 * i)) 3 8 0 8 16 (calloc 12 0)
    = some (1, ofList [1, 1, 1, 1, 0, 1, 1, 0, 0, 0, 0, 0]) := by decide

/-! ### C16 -/

/-- Everything the prover publishes about tree `i`, and only that: the output of `vector_open` for the
leaf selected by the challenge, in a fresh buffer. -/
def openTree (P : Params) (vecCom : List VecCom) (chall : Mem Byte) (i : Nat) : Option (Mem Byte) := do
  let vc ← vecCom[i]?
  let (_, b) ← chalDec chall i P.k0 P.t0 P.k1 P.t1 (malloc MAX_DEPTH)
  vectorOpen vc.k vc.com b (malloc ((P.depth i + 2) * (P.lambda / 8))) 0 (P.lambda / 8 * P.depth i)
    (P.depth i) (P.lambda / 8)

theorem openTree_ok {X : XOF} {P : Params} (h : PWF P) {rootKey iv : List Byte} {chall : Mem Byte}
    {ch : Nat → Byte} {i : Nat} (hc : Has chall 0 (P.lambda / 8) ch) (hi : i < P.tau) :
    Ok (openTree P (tabP P.tau (pVec X P rootKey iv)) chall i) (fun o =>
      Has o 0 (P.lambda / 8 * depth P i) (pathByte (Spec.pNode P rootKey iv i) (depth P i)
        (leafIdx P ch i) (P.lambda / 8)) ∧
      Has o (P.lambda / 8 * depth P i) (P.lambda / 8 * 2)
        (byteFn (Spec.pCom X P rootKey iv i (leafIdx P ch i))) ∧
      P.lambda / 8 * depth P i + P.lambda / 8 * 2 ≤ o.length) := by
  unfold openTree
  refine Ok.step (a := pVec X P rootKey iv i) (by rw [tabP_getElem?, if_pos hi]) ?_
  refine Ok.bind (chalDec_ok h hc hi (by simp [MAX_DEPTH])) ?_
  rintro ⟨ret, b⟩ ⟨_, _, hb⟩
  simp only at hb ⊢
  have hidx := hb.1
  have hd : P.depth i = depth P i := rfl
  rw [hd]
  have hsz : P.lambda / 8 * depth P i + P.lambda / 8 * 2 = (depth P i + 2) * (P.lambda / 8) := by ring
  refine (vectorOpen_ok (nd := Spec.pNode P rootKey iv i)
    (cm := Spec.pCom X P rootKey iv i (leafIdx P ch i)) h.lam hb (h.depth_le i) ?_
    (treeNode_length (treeRoot_length ..)) (rd_full hidx) (leafCom_length ..) (by omega)
    (by rw [malloc_length, hsz])).mono ?_
  · intro l j hl hj
    have hp : 2 ^ (l + 1) ≤ 2 ^ (depth P i + 1) := Nat.pow_le_pow_right (by decide) (by omega)
    rw [Nat.pow_succ] at hp
    have := Nat.two_pow_pos l
    show rd (full _ _) _ = _
    rw [rd_full (by omega), flatNode_level _ _ _ _ _ hj]
    rfl
  · rintro o ⟨hol, ho⟩
    refine ⟨?_, ?_, ?_⟩
    · intro q hq
      rw [ho, if_pos (by omega), Nat.zero_add, Nat.sub_zero]
    · intro q hq
      rw [ho, if_neg (by omega), if_pos (by omega), Nat.add_sub_cancel_left]
    · rw [hol, malloc_length, hsz]

theorem copPart_path {P : Params} (h : PWF P) {nd : Nat → Nat → List Byte} {d idx : Nat}
    (hnd : ∀ l j, (nd l j).length = P.lambda / 8) (l : Nat) :
    copPart (P.lambda / 8) (pathByte nd d idx (P.lambda / 8)) l = nd (l + 1) (sib (anc d idx (l + 1))) := by
  have hlb : 0 < P.lambda / 8 := by have := h.lam; omega
  rw [← tabP_byteFn (nd (l + 1) (sib (anc d idx (l + 1)))), hnd]
  unfold copPart
  refine tabP_congr fun i hi => ?_
  unfold pathByte
  rw [Nat.mul_add_div hlb, Nat.mul_add_mod, Nat.div_eq_of_lt hi, Nat.mod_eq_of_lt hi, Nat.add_zero]

/-- Bit `p` of the challenge, as a byte mask. -/
def maskBit (ch : Nat → Byte) (p : Nat) (x : Byte) : Byte :=
  if (ch (p / 8)).getLsbD (p % 8) then x else 0

/-- C16: run `vole_commit`, open every tree at the leaf chosen by the challenge, run `vole_reconstruct`
on the openings.  The digests agree and, for column `p` (belonging to tree `i`), the reconstructed
column corrected by `c_i` (nothing for tree 0) equals the prover's column plus bit `p` of the challenge
times `u`. -/
theorem C16_vole_correlation (X : XOF) (id : ParamId) {rootKey iv : List Byte} {chall dst : Mem Byte}
    {ch : Nat → Byte} (hr : rootKey.length = (params id).lambda / 8) (hiv : iv.length = 16)
    (hc : Has chall 0 ((params id).lambda / 8) ch)
    (hdst : ((params id).tau - 1) * (params id).ellHatBytes ≤ dst.length)
    (v0 q0 : Mem (List Byte)) (hv0 : v0.length = (params id).lambda)
    (hq0 : q0.length = (params id).lambda) :
    Ok (do
      let (com, dst') ← voleCommit X rootKey iv (params id).ellHat (params id) dst 0 v0
      let (hcom, q) ← voleReconstruct X iv chall (fun i => openTree (params id) com.vecCom chall i)
        (fun i => do
          let o ← openTree (params id) com.vecCom chall i
          ptr o ((params id).lambda / 8 * (params id).depth i))
        q0 (params id).ellHat (params id)
      pure (com, dst', hcom, q)) (fun s =>
        s.2.2.1 = s.1.hcom ∧ s.1.u.length = (params id).ellHatBytes ∧
        ∀ p, p < (params id).lambda → ∃ i vp qp, i < (params id).tau ∧ i = treeOf (params id) p ∧
          rd s.1.v p = some vp ∧ rd s.2.2.2 p = some qp ∧
          ∀ t, t < (params id).ellHatBytes → ∃ ut x y c, s.1.u[t]? = some ut ∧ vp[t]? = some x ∧
            qp[t]? = some y ∧
            (if i = 0 then c = 0 else rd s.2.1 ((i - 1) * (params id).ellHatBytes + t) = some c) ∧
            y ^^^ maskBit ch p c = x ^^^ maskBit ch p ut) := by
  have h := params_wf id
  generalize params id = P at *
  refine Ok.bind (voleCommit_ok (off := 0) h hr hiv hv0 (by omega)) ?_
  rintro ⟨com, dst'⟩ ⟨⟨hhc, hvc, hu, hv⟩, hl, hd⟩
  simp only at hhc hvc hu hv hl hd ⊢
  rw [hvc]
  refine Ok.step (voleReconstruct_ok (ch := ch)
    (copB := fun i => pathByte (Spec.pNode P rootKey iv i) (depth P i) (leafIdx P ch i) (P.lambda / 8))
    (comB := fun i => byteFn (Spec.pCom X P rootKey iv i (leafIdx P ch i))) h hiv hc ?_ ?_ hq0) ?_
  · intro i hi
    exact (openTree_ok h hc hi).mono fun o ho => ho.1
  · intro i hi
    refine Ok.bind (openTree_ok h hc hi) ?_
    rintro o ⟨_, h2, h3⟩
    refine Ok.of_eq (ptr_eq (by show P.lambda / 8 * depth P i ≤ _; omega)) ?_
    rw [has_drop]
    exact h2
  have hcop : HonestPath P rootKey iv ch (fun i => copPart (P.lambda / 8)
      (pathByte (Spec.pNode P rootKey iv i) (depth P i) (leafIdx P ch i) (P.lambda / 8))) := by
    intro i hi l hl
    exact copPart_path h (treeNode_length (treeRoot_length ..)) l
  generalize (fun i => copPart (P.lambda / 8)
      (pathByte (Spec.pNode P rootKey iv i) (depth P i) (leafIdx P ch i) (P.lambda / 8))) = cop at hcop ⊢
  refine Ok.pure ⟨?_, ?_, ?_⟩
  · show hcomOf X P _ = com.hcom
    rw [hhc]
    refine hcom_honest hcop fun i hi => ?_
    show tabP (P.lambda / 8 * 2) _ = _
    have hcl : (Spec.pCom X P rootKey iv i (leafIdx P ch i)).length = P.lambda / 8 * 2 := leafCom_length ..
    conv => lhs; rw [← hcl]
    exact tabP_byteFn _
  · show com.u.length = _
    rw [hu, tabP_length]
  · intro p hp
    obtain ⟨i, j, hi, hj, hpe⟩ := h.col_exists hp
    have hti : treeOf P p = i := by rw [hpe]; exact h.treeOf_col hj
    refine ⟨i, tabP P.ellHatBytes (Spec.pV X P rootKey iv p),
      tabP P.ellHatBytes (Spec.vQ X P iv ch cop p), hi, hti.symm, ?_, rd_full hp, fun t ht => ?_⟩
    · show rd com.v p = _
      rw [hv]; exact rd_full hp
    refine ⟨Spec.pU X P rootKey iv 0 t, Spec.pV X P rootKey iv p t,
      Spec.vQ X P iv ch cop p t,
      if i = 0 then 0 else Spec.pU X P rootKey iv 0 t ^^^ Spec.pU X P rootKey iv i t, ?_, ?_,
      by rw [tabP_getElem?, if_pos ht], ?_, ?_⟩
    · show com.u[t]? = _
      rw [hu, tabP_getElem?, if_pos ht]
    · rw [tabP_getElem?, if_pos ht]
    · by_cases hi0 : i = 0
      · rw [if_pos hi0, if_pos hi0]
      · rw [if_neg hi0, if_neg hi0]
        show rd dst' _ = _
        have hb : (i - 1) * P.ellHatBytes + t < (P.tau - 1) * P.ellHatBytes := by
          have : (i - 1 + 1) * P.ellHatBytes ≤ (P.tau - 1) * P.ellHatBytes :=
            Nat.mul_le_mul_right _ (by omega)
          rw [Nat.succ_mul] at this; omega
        rw [hd, if_pos (by omega), Nat.sub_zero]
        unfold corrByte
        rw [Nat.mul_comm, Nat.mul_add_div h.ellHatBytes_pos, Nat.mul_add_mod, Nat.div_eq_of_lt ht,
          Nat.mod_eq_of_lt ht, Nat.add_zero, Nat.sub_add_cancel (by omega)]
    · rw [vQ_honest h hcop hp t, hti]
      unfold maskBit strBit
      cases (ch (p / 8)).getLsbD (p % 8) with
      | false => rw [if_neg (by simp), if_neg (by simp), if_neg (by simp)]; simp
      | true =>
        rw [if_pos rfl, if_pos rfl, if_pos rfl]
        by_cases hi0 : i = 0
        · rw [if_pos hi0, hi0]; simp
        · rw [if_neg hi0, BitVec.xor_assoc]
          congr 1
          rw [BitVec.xor_comm (Spec.pU X P rootKey iv 0 t), ← BitVec.xor_assoc]
          simp

/-- The hypotheses of C16 for FAEST-EM-192s with a concrete key, iv and challenge. -/
example (X : XOF) := C16_vole_correlation X .pEM192S (rootKey := List.replicate 24 3)
  (iv := List.replicate 16 4) (chall := full 24 fun i => BitVec.ofNat 8 (91 * i))
  (ch := fun i => BitVec.ofNat 8 (91 * i)) (dst := malloc 5100) rfl rfl (has_full 24 _)
  (by simp only [malloc_length]; decide) (malloc 192) (malloc 192) (malloc_length _) (malloc_length _)

end Faest
