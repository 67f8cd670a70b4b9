/-
C14: opening and reconstructing a vector commitment agree.
C28: four-way hashing equals one-way hashing.
C33: an opening reveals nothing on the hidden path.
-/
import Verif.Proofs.VcRefine

namespace Faest
open Spec (byteFn treeNode leafSd leafCom comDigest anc sib)

/-- The bits of the index as the code holds them: one byte per bit. -/
def indexBits (d idx : Nat) : Mem Byte := full d fun j => BitVec.ofNat 8 (idx / 2 ^ j % 2)

theorem indexBits_ok {d idx : Nat} (h : idx < 2 ^ d) : BitsOf (indexBits d idx) d idx :=
  ⟨h, fun _ hj => rd_full hj⟩

/-- C14, first half: `vector_commitment` commits to the leaves of the GGM tree; `treeNode` follows
the path from the root taking the left or right half of the key stream. -/
theorem C14_commit (X : XOF) {lam d : Nat} {root iv : List Byte} (hlam : LamOk lam)
    (hr : root.length = lam / 8) (hv : iv.length = 16) (h1 : 1 ≤ d) (h2 : d ≤ MAX_DEPTH) :
    Ok (vectorCommitment X root iv lam d) (fun vc =>
      (∀ l j, l ≤ d → j < 2 ^ l → rd vc.k (2 ^ l - 1 + j) = some (treeNode lam iv root l j)) ∧
      (∀ j, j < 2 ^ d → rd vc.sd j = some (leafSd X lam iv (treeNode lam iv root d j)) ∧
        rd vc.com j = some (leafCom X lam iv (treeNode lam iv root d j))) ∧
      vc.h = comDigest X lam (2 ^ d) (fun j => leafCom X lam iv (treeNode lam iv root d j))) := by
  refine Ok.of_eq (vectorCommitment_ok hlam hr hv h1 h2) ⟨?_, ?_, rfl⟩
  · intro l j hl hj
    have hp : 2 ^ (l + 1) ≤ 2 ^ (d + 1) := Nat.pow_le_pow_right (by decide) (by omega)
    rw [Nat.pow_succ] at hp
    have := Nat.two_pow_pos l
    rw [rd_full (by omega), flatNode_level _ _ _ _ _ hj]
  · intro j hj
    exact ⟨rd_full hj, rd_full hj⟩

/-- C14: commit, open at `idx` into any buffer, reconstruct from the opening into any buffers of
sufficient size: the digest is the same, all commitments are the same, and all seeds but the hidden
one are the same. -/
theorem C14_open_reconstruct (X : XOF) {lam d idx : Nat} {root iv : List Byte} (hlam : LamOk lam)
    (hr : root.length = lam / 8) (hv : iv.length = 16) (h1 : 1 ≤ d) (h2 : d ≤ MAX_DEPTH)
    (hidx : idx < 2 ^ d) (dst : Mem Byte) (off : Nat) (hdst : off + (d + 2) * (lam / 8) ≤ dst.length)
    (vr : VecComRec) (hk : 2 ^ (d + 1) - 1 ≤ vr.k.length) (hc : 2 ^ d ≤ vr.com.length)
    (hs : vr.com.length = vr.s.length) :
    Ok (do
      let vc ← vectorCommitment X root iv lam d
      let o ← vectorOpen vc.k vc.com (indexBits d idx) dst off (off + d * (lam / 8)) d (lam / 8)
      let r ← vectorReconstruction X iv (o.drop off) (o.drop (off + d * (lam / 8))) (indexBits d idx)
        lam d vr
      pure (vc, r)) (fun s => s.2.h = s.1.h ∧
        ∀ j, j < 2 ^ d → rd s.2.com j = rd s.1.com j ∧ (rd s.1.com j).isSome ∧
          (j ≠ idx → rd s.2.s j = rd s.1.sd j ∧ (rd s.1.sd j).isSome)) := by
  have hlb : 0 < lam / 8 := by unfold LamOk at hlam; omega
  have hb := indexBits_ok hidx
  have hmd : MAX_DEPTH = 12 := rfl
  have hmul : (d + 2) * (lam / 8) = lam / 8 * d + lam / 8 * 2 := by ring
  rw [Nat.mul_comm d]
  refine Ok.bind (C14_commit X hlam hr hv h1 h2) ?_
  rintro vc ⟨hvk, hvl, hvh⟩
  refine Ok.bind (vectorOpen_ok (offCop := off) (offCom := off + lam / 8 * d) hlam hb (by omega) hvk
    (treeNode_length hr) (hvl idx hidx).2 (by simp [leafCom, squeeze]) (Nat.le_refl _)
    (by omega)) ?_
  rintro o ⟨hol, ho⟩
  have hcop : Has (o.drop off) 0 (lam / 8 * d) (pathByte (treeNode lam iv root) d idx (lam / 8)) := by
    rw [has_drop]
    intro q hq
    rw [ho, if_pos (by omega), Nat.add_zero, Nat.add_sub_cancel_left]
  have hcom : Has (o.drop (off + lam / 8 * d)) 0 (lam / 8 * 2)
      (byteFn (leafCom X lam iv (treeNode lam iv root d idx))) := by
    rw [has_drop]
    intro q hq
    rw [ho, if_neg (by omega), if_pos (by omega), Nat.add_zero, Nat.add_sub_cancel_left]
  refine Ok.bind (vectorReconstruction_ok hlam hv hb hcop hcom h1 (by omega) hk hc rfl rfl hs.symm) ?_
  rintro r ⟨_, hrs, _, hrc, hrh⟩
  have hpart : ∀ l, l < d → copPart (lam / 8) (pathByte (treeNode lam iv root) d idx (lam / 8)) l
      = treeNode lam iv root (l + 1) (sib (anc d idx (l + 1))) := by
    intro l _
    have hlen := treeNode_length (iv := iv) hr (l + 1) (sib (anc d idx (l + 1)))
    rw [← tabP_byteFn (treeNode lam iv root (l + 1) (sib (anc d idx (l + 1)))), hlen]
    unfold copPart
    refine tabP_congr fun i hi => ?_
    unfold pathByte
    rw [Nat.mul_add_div hlb, Nat.mul_add_mod, Nat.div_eq_of_lt hi, Nat.mod_eq_of_lt hi, Nat.add_zero]
  have hnode : ∀ j, j < 2 ^ d → j ≠ idx → Spec.recNode lam iv (copPart (lam / 8)
      (pathByte (treeNode lam iv root) d idx (lam / 8))) d idx d j = treeNode lam iv root d j :=
    fun j hj hne => recNode_honest hpart d j (Nat.le_refl _) (by rwa [anc_self]) hj hidx
  have hcomj : tabP (lam / 8 * 2) (byteFn (leafCom X lam iv (treeNode lam iv root d idx)))
      = leafCom X lam iv (treeNode lam iv root d idx) := by
    have hl : (leafCom X lam iv (treeNode lam iv root d idx)).length = lam / 8 * 2 := by
      simp [leafCom, squeeze]
    conv => lhs; rw [← hl]
    exact tabP_byteFn _
  have hrecCom : ∀ j, j < 2 ^ d → recCom X lam iv (Spec.recNode lam iv (copPart (lam / 8)
      (pathByte (treeNode lam iv root) d idx (lam / 8))) d idx d) idx (tabP (lam / 8 * 2)
        (byteFn (leafCom X lam iv (treeNode lam iv root d idx)))) j
      = leafCom X lam iv (treeNode lam iv root d j) := by
    intro j hj
    unfold recCom
    by_cases hne : j = idx
    · rw [if_pos hne, hcomj, hne]
    · rw [if_neg hne, hnode j hj hne]
  refine Ok.pure ⟨?_, ?_⟩
  · show r.h = vc.h
    rw [hrh, hvh]
    unfold comDigest
    rw [tabP_congr hrecCom]
  · intro j hj
    refine ⟨?_, ?_, ?_⟩
    · show rd r.com j = rd vc.com j
      rw [hrc j hj, (hvl j hj).2, hrecCom j hj]
    · show (rd vc.com j).isSome
      rw [(hvl j hj).2]; rfl
    · intro hne
      show rd r.s j = rd vc.sd j ∧ (rd vc.sd j).isSome
      rw [hrs j hj hne, hnode j hj hne, (hvl j hj).1]
      exact ⟨rfl, rfl⟩

/-- A concrete instance: depth 8, leaf 77. -/
example (X : XOF) : Ok (do
      let vc ← vectorCommitment X (List.replicate 16 5) (List.replicate 16 9) 128 8
      let o ← vectorOpen vc.k vc.com (indexBits 8 77) (malloc 200) 0 (0 + 8 * (128 / 8)) 8 (128 / 8)
      let r ← vectorReconstruction X (List.replicate 16 9) (o.drop 0) (o.drop (0 + 8 * (128 / 8)))
        (indexBits 8 77) 128 8 { h := [], k := malloc 600, com := malloc 300, s := malloc 300 }
      pure (vc, r)) (fun s => s.2.h = s.1.h ∧
        ∀ j, j < 2 ^ 8 → rd s.2.com j = rd s.1.com j ∧ (rd s.1.com j).isSome ∧
          (j ≠ 77 → rd s.2.s j = rd s.1.sd j ∧ (rd s.1.sd j).isSome)) :=
  C14_open_reconstruct X (.inl rfl) rfl rfl (by decide) (by decide) (by decide) _ _ (by simp) _
    (by simp) (by simp) (by simp)

/-! ### C28 -/

/-- Hashing leaf after leaf, one at a time: the reference for the batched code. -/
def leavesOneByOne (X : XOF) (lam : Nat) (iv : List Byte) (nodes : List (List Byte)) :
    List (List Byte × List Byte) :=
  nodes.map fun nd => H0 X lam (nd ++ iv) (lam / 8) (lam / 8 * 2)

/-- C28, commitment: seeds and commitments are those of hashing each leaf on its own. -/
theorem C28_commit (X : XOF) {lam d : Nat} {root iv : List Byte} (hlam : LamOk lam)
    (hr : root.length = lam / 8) (hv : iv.length = 16) (h1 : 1 ≤ d) (h2 : d ≤ MAX_DEPTH) :
    Ok (vectorCommitment X root iv lam d) (fun vc => ∃ nodes : List (List Byte),
      rdN vc.k (2 ^ d - 1) (2 ^ d) = some nodes ∧
      vc.sd = ofList ((leavesOneByOne X lam iv nodes).map Prod.fst) ∧
      vc.com = ofList ((leavesOneByOne X lam iv nodes).map Prod.snd)) := by
  refine Ok.of_eq (vectorCommitment_ok hlam hr hv h1 h2) ⟨tabP (2 ^ d) (treeNode lam iv root d), ?_, ?_, ?_⟩
  · have hp := Nat.two_pow_pos d
    refine rdN_has (fun j hj => ?_) hp
    have : 2 ^ (d + 1) = 2 * 2 ^ d := by rw [Nat.pow_succ]; omega
    rw [rd_full (by omega), flatNode_level _ _ _ _ _ hj]
  · unfold leavesOneByOne
    rw [tabP_map, tabP_map]; rfl
  · unfold leavesOneByOne
    rw [tabP_map, tabP_map]; rfl

/-- The reference for the reconstruction: leaf after leaf, leaving out `skip`. -/
def leafLoopSkip (X : XOF) (lam : Nat) (iv : List Byte) (nodes : Nat → List Byte) (N skip : Nat)
    (s : Mem (List Byte) × Mem (List Byte)) : Option (Mem (List Byte) × Mem (List Byte)) :=
  forN N s fun j s => if j = skip then some s else leafHash1 X lam iv (nodes j) j s

theorem mem_ext {α : Type} {m m' : Mem α} (hl : m.length = m'.length) (h : ∀ p, rd m p = rd m' p) :
    m = m' := by
  apply List.ext_getElem hl
  intro i h1 h2
  have := h i
  unfold rd at this
  rw [List.getElem?_eq_getElem h1, List.getElem?_eq_getElem h2] at this
  simpa using this

/-- Exactly the cells below `N` other than `skip` have been overwritten with the leaf values. -/
def LeafOnly (X : XOF) (lam : Nat) (iv : List Byte) (nd : Nat → List Byte) (T : Nat → Prop)
    (s0 s : Mem (List Byte) × Mem (List Byte)) : Prop :=
  (s.1.length = s0.1.length ∧ s.2.length = s0.2.length) ∧ LeafDone X lam iv nd T s ∧
  ∀ j, ¬ T j → rd s.1 j = rd s0.1 j ∧ rd s.2 j = rd s0.2 j

theorem leafLoopSkip_ok {X : XOF} {lam N skip M : Nat} {iv : List Byte} {nodes : Nat → List Byte}
    {s : Mem (List Byte) × Mem (List Byte)} (hl : s.1.length = M ∧ s.2.length = M) (hN : N ≤ M) :
    Ok (leafLoopSkip X lam iv nodes N skip s)
      (LeafOnly X lam iv nodes (fun j => j < N ∧ j ≠ skip) s) := by
  unfold leafLoopSkip
  refine (Ok.forN (fun i s' => LeafOnly X lam iv nodes (fun j => j < i ∧ j ≠ skip) s s') ?_ ?_)
  · exact ⟨⟨rfl, rfl⟩, fun j hj => by omega, fun j _ => ⟨rfl, rfl⟩⟩
  · rintro i hi s' ⟨⟨hl1, hl2⟩, hd, hk⟩
    by_cases hc : i = skip
    · rw [if_pos hc]
      refine Ok.some ⟨⟨hl1, hl2⟩, fun j hj => hd j (by omega), fun j hj => hk j (by omega)⟩
    · rw [if_neg hc]
      unfold leafHash1
      refine Ok.bind (Ok.wr (Q := fun m => m.length = M ∧ ∀ k, rd m k = if k = i then
        some (leafSd X lam iv (nodes i)) else rd s'.1 k) (by omega) ?_) ?_
      · intro m hl hm
        exact ⟨by omega, hm⟩
      rintro m1 ⟨hl1', hm1⟩
      refine Ok.bind (Ok.wr (Q := fun m => m.length = M ∧ ∀ k, rd m k = if k = i then
        some (leafCom X lam iv (nodes i)) else rd s'.2 k) (by omega) ?_) ?_
      · intro m hl hm
        exact ⟨by omega, hm⟩
      rintro m2 ⟨hl2', hm2⟩
      refine Ok.pure ⟨⟨by simp only; omega, by simp only; omega⟩, ?_, ?_⟩
      · intro j hj
        simp only [hm1, hm2]
        by_cases hji : j = i
        · subst hji; simp
        · rw [if_neg hji, if_neg hji]; exact hd j (by omega)
      · intro j hj
        simp only [hm1, hm2]
        rw [if_neg (by omega), if_neg (by omega)]
        exact hk j (by omega)

/-! The hidden cell of `s` is left alone by the reconstruction. -/

theorem forStep_inv {S : Type} {hi st : Nat} {f : Nat → S → Option S} (P : Nat → S → Prop)
    (hf : ∀ j s s', j < hi → P j s → f j s = some s' → P (j + st) s') :
    ∀ {fuel j : Nat} {s : S} {r : Nat × S}, P j s → forStep hi st fuel j s f = some r → P r.1 r.2
  | 0, _, _, _, _, h => by simp [forStep] at h
  | fuel + 1, j, s, r, hp, h => by
    unfold forStep at h
    split at h
    · rename_i hj
      obtain ⟨s', hs', h⟩ := Option.bind_eq_some_iff.1 h
      exact forStep_inv P hf (hf j s s' hj hp hs') h
    · obtain rfl := Option.some.inj h
      exact hp

theorem forStep_ge {S : Type} {hi st : Nat} {f : Nat → S → Option S} :
    ∀ {fuel j : Nat} {s : S} {r : Nat × S}, forStep hi st fuel j s f = some r → hi ≤ r.1
  | 0, _, _, _, h => by simp [forStep] at h
  | fuel + 1, j, s, r, h => by
    unfold forStep at h
    split at h
    · obtain ⟨s', hs', h⟩ := Option.bind_eq_some_iff.1 h
      exact forStep_ge h
    · obtain rfl := Option.some.inj h
      omega

theorem forUntil4_inv {S : Type} {N : Nat} {f : Nat → S → Option S} (P : Nat → S → Prop)
    (hf : ∀ j s s', j < N → P j s → f j s = some s' → P (j + 1) s') :
    ∀ {fuel j : Nat} {s : S} {r : Nat × S}, P j s → forUntil4 N fuel j s f = some r → P r.1 r.2
  | 0, _, _, _, _, h => by simp [forUntil4] at h
  | fuel + 1, j, s, r, hp, h => by
    unfold forUntil4 at h
    split at h
    · rename_i hj
      obtain ⟨s', hs', h⟩ := Option.bind_eq_some_iff.1 h
      exact forUntil4_inv P hf (hf j s s' hj.1 hp hs') h
    · obtain rfl := Option.some.inj h
      exact hp

theorem wr_other {α : Type} {m m' : Mem α} {i k : Nat} {x : α} (h : wr m i x = some m') (hk : k ≠ i) :
    rd m' k = rd m k := by
  unfold wr at h
  split at h
  · obtain rfl := Option.some.inj h
    unfold rd
    rw [List.getElem?_set_ne (Ne.symm hk)]
  · simp at h

theorem leafBody1_other {X : XOF} {lam j k : Nat} {iv : List Byte} {tree : Mem (List Byte)}
    {idx : Nat → Option Nat} {s s' : Mem (List Byte) × Mem (List Byte)}
    (h : leafBody1 X lam iv tree idx j s = some s') (hk : k ≠ j) : rd s'.1 k = rd s.1 k := by
  unfold leafBody1 leafHash1 at h
  simp only [bind, Option.bind_eq_some_iff, pure, Option.some.injEq] at h
  obtain ⟨_, -, _, -, sd, h1, com, -, rfl⟩ := h
  exact wr_other h1 hk

theorem leafBody4_other {X : XOF} {lam j k : Nat} {iv : List Byte} {tree : Mem (List Byte)}
    {idx : Nat → Option Nat} {s s' : Mem (List Byte) × Mem (List Byte)}
    (h : leafBody4 X lam iv tree idx j s = some s') (hk : ¬ (j ≤ k ∧ k < j + 4)) :
    rd s'.1 k = rd s.1 k := by
  unfold leafBody4 leafHash4 at h
  simp only [bind, Option.bind_eq_some_iff, pure, Option.some.injEq] at h
  obtain ⟨_, -, _, -, _, -, _, -, _, -, _, -, _, -, _, -, a, ha, b, hb, c, hc, d, hd, _, -, _, -, _, -, _, -,
    rfl⟩ := h
  rw [wr_other hd (by omega), wr_other hc (by omega), wr_other hb (by omega), wr_other ha (by omega)]

theorem reconstruction_skips {X : XOF} {lam d idx : Nat} {iv : List Byte} {cop comj b : Mem Byte}
    {vr r : VecComRec} (hb : numRec d b = some idx)
    (h : vectorReconstruction X iv cop comj b lam d vr = some r) : rd r.s idx = rd vr.s idx := by
  unfold vectorReconstruction at h
  by_cases hd : d ≤ 30
  case neg => rw [if_neg hd] at h; simp at h
  rw [if_pos hd] at h
  simp only [bind, Option.bind_eq_some_iff, pure, Option.some.injEq, hb] at h
  obtain ⟨N, -, _, rfl, k, -, ⟨j1, s1⟩, h1, ⟨j2, s2⟩, h2, ⟨j3, s3⟩, h3, ⟨j4, s4⟩, h4, ⟨j5, s5⟩, h5, _, -, _, -, _,
    -, rfl⟩ := h
  have e1 := forStep_inv (fun j s => (j % 4 = 0 ∧ j ≤ idx) ∧ rd s.1 idx = rd vr.s idx)
    (fun j s s' hj hp hs => ⟨by omega, (leafBody4_other hs (by omega)).trans hp.2⟩)
    ⟨⟨rfl, Nat.zero_le _⟩, rfl⟩ h1
  have e2 := forStep_inv (fun j s => j ≤ idx ∧ rd s.1 idx = rd vr.s idx)
    (fun j s s' hj hp hs => ⟨by omega, (leafBody1_other hs (by omega)).trans hp.2⟩)
    ⟨e1.1.2, e1.2⟩ h2
  have hj2 : j2 = idx := by
    have := forStep_ge h2
    have := e2.1
    simp only at *
    omega
  have e3 := forUntil4_inv (fun j s => idx < j ∧ rd s.1 idx = rd vr.s idx)
    (fun j s s' hj hp hs => ⟨by omega, (leafBody1_other hs (by omega)).trans hp.2⟩)
    ⟨by simp only [hj2]; omega, e2.2⟩ h3
  have e4 := forStep_inv (fun j s => idx < j ∧ rd s.1 idx = rd vr.s idx)
    (fun j s s' hj hp hs => ⟨by omega, (leafBody4_other hs (by omega)).trans hp.2⟩) e3 h4
  have e5 := forStep_inv (fun j s => idx < j ∧ rd s.1 idx = rd vr.s idx)
    (fun j s s' hj hp hs => ⟨by omega, (leafBody1_other hs (by omega)).trans hp.2⟩) e4 h5
  exact e5.2

/-- C28, reconstruction: the seeds and commitments are those of the one-by-one loop, leaving out the
hidden leaf, over the leaf nodes of the reconstructed tree; the cell of the hidden seed is not written
(that of its commitment receives the one from the opening). -/
theorem C28_reconstruct (X : XOF) {lam d idx : Nat} {iv : List Byte} (hlam : LamOk lam)
    (hv : iv.length = 16) (h1 : 1 ≤ d) (h2 : d ≤ MAX_DEPTH) (hidx : idx < 2 ^ d)
    {copB comB : Nat → Byte} {cop comj : Mem Byte} (hcop : Has cop 0 (lam / 8 * d) copB)
    (hcom : Has comj 0 (lam / 8 * 2) comB)
    (vr : VecComRec) (hk : 2 ^ (d + 1) - 1 ≤ vr.k.length) (hc : 2 ^ d ≤ vr.com.length)
    (hs : vr.com.length = vr.s.length) :
    ∃ r nodes s, vectorReconstruction X iv cop comj (indexBits d idx) lam d vr = some r ∧
      (∀ j, j < 2 ^ d → rd r.k (2 ^ d - 1 + j) = some (nodes j)) ∧
      leafLoopSkip X lam iv nodes (2 ^ d) idx (vr.s, vr.com) = some s ∧
      (∀ j, j < 2 ^ d → rd r.s j = rd s.1 j) ∧
      (∀ j, j < 2 ^ d → j ≠ idx → rd r.com j = rd s.2 j) ∧
      rd s.1 idx = rd vr.s idx := by
  have hmd : MAX_DEPTH = 12 := rfl
  have hb := indexBits_ok hidx
  obtain ⟨r, hr, _, hrs, hrk, hrc, _⟩ := vectorReconstruction_ok (X := X) (vr := vr) hlam hv hb hcop hcom h1
    (by omega) hk hc rfl rfl hs.symm
  obtain ⟨s, hls, _, hsd, hso⟩ := leafLoopSkip_ok (X := X) (lam := lam) (iv := iv) (skip := idx)
    (nodes := Spec.recNode lam iv (copPart (lam / 8) copB) d idx d) (s := (vr.s, vr.com))
    (M := vr.com.length) ⟨hs.symm, rfl⟩ hc
  refine ⟨r, Spec.recNode lam iv (copPart (lam / 8) copB) d idx d, s, hr, ?_, hls, ?_, ?_, ?_⟩
  · intro j hj
    exact hrk j hj
  · intro j hj
    by_cases hne : j = idx
    · rw [hne, reconstruction_skips (numRec_ok hb (by omega)) hr, (hso idx (by simp)).1]
    · rw [hrs j hj hne, (hsd j ⟨hj, hne⟩).1]
  · intro j hj hne
    rw [hrc j hj, (hsd j ⟨hj, hne⟩).2]
    unfold recCom
    rw [if_neg hne]
  · exact (hso idx (by simp)).1

/-! ### C33 -/

theorem forN_congr_inv {S : Type} {n : Nat} {s : S} {f f' : Nat → S → Option S} (I : Nat → S → Prop)
    (h0 : I 0 s) (hs : ∀ i, i < n → ∀ s, I i s → f i s = f' i s ∧ ∀ s', f i s = some s' → I (i + 1) s') :
    forN n s f = forN n s f' ∧ ∀ s', forN n s f = some s' → I n s' := by
  induction n with
  | zero => exact ⟨rfl, fun s' h => by cases h; exact h0⟩
  | succ n ih =>
    obtain ⟨h1, h2⟩ := ih fun i hi => hs i (by omega)
    rw [forN_succ, forN_succ, ← h1]
    cases hf : forN n s f with
    | none => exact ⟨rfl, fun s' h => by cases h⟩
    | some s1 =>
      have := hs n (by omega) s1 (h2 s1 hf)
      exact ⟨this.1, this.2⟩

/-- C33: two trees and commitment arrays which agree off the path from the root to leaf `idx`, and on
the commitment of leaf `idx`, are opened to the same bytes, in any output buffer.  (`anc d idx l` is
the ancestor of the leaf on level `l`.) -/
theorem C33_open_hides_path {d idx lb : Nat} (hidx : idx < 2 ^ d) (hd : d ≤ MAX_DEPTH)
    (k k' com com' : Mem (List Byte)) (dst : Mem Byte) (offCop offCom : Nat)
    (hk : ∀ l j, l ≤ d → j < 2 ^ l → j ≠ anc d idx l → rd k (2 ^ l - 1 + j) = rd k' (2 ^ l - 1 + j))
    (hcom : rd com idx = rd com' idx) :
    vectorOpen k com (indexBits d idx) dst offCop offCom d lb
      = vectorOpen k' com' (indexBits d idx) dst offCop offCom d lb := by
  have hb := indexBits_ok hidx
  have hmd : MAX_DEPTH = 12 := rfl
  unfold vectorOpen
  rw [numRec_ok hb (by omega)]
  simp only [Option.bind_eq_bind, Option.bind_some]
  rw [hcom]
  have key := forN_congr_inv (n := d) (s := (dst, 0))
    (f := fun i (s : Mem Byte × Nat) => do
      let bit ← rd (indexBits d idx) (d - 1 - i)
      let node ← rd k (← getNodeIndex (i + 1) (2 * s.2 + cNot bit))
      let dst ← wrN s.1 (offCop + lb * i) node
      pure (dst, 2 * s.2 + bit.toNat))
    (f' := fun i (s : Mem Byte × Nat) => do
      let bit ← rd (indexBits d idx) (d - 1 - i)
      let node ← rd k' (← getNodeIndex (i + 1) (2 * s.2 + cNot bit))
      let dst ← wrN s.1 (offCop + lb * i) node
      pure (dst, 2 * s.2 + bit.toNat))
    (fun i s => s.2 = anc d idx i) (anc_zero hidx).symm (by
      rintro i hi ⟨m, a⟩ rfl
      have hlt := sib_lt (anc_lt (l := i + 1) hidx (by omega))
      have hg := getNodeIndex_ok (l := i + 1) (j := sib (anc d idx (i + 1))) (by omega) hlt
      simp only [hb.2 (d - 1 - i) (by omega), Option.bind_eq_bind, Option.bind_some, cNot_bit,
        sib_anc hi, hg, ofNat8_bit_toNat, ← anc_succ hi]
      refine ⟨by rw [hk (i + 1) _ (by omega) hlt (sib_ne _)], ?_⟩
      intro s' hs'
      rw [Option.bind_eq_some_iff] at hs'
      obtain ⟨nd, _, hs'⟩ := hs'
      rw [Option.bind_eq_some_iff] at hs'
      obtain ⟨m', _, hs'⟩ := hs'
      cases hs'; rfl)
  simp only [Option.bind_eq_bind] at key
  rw [key.1]

/-- Instance: depth 2, leaf 1; the path is nodes 0, 1, 4.  The trees differ there and are opened to
the same bytes, and the opening is defined. -/
example : vectorOpen (ofList [[1], [2], [3], [4], [5], [6], [7]]) (ofList [[9], [8], [7], [6]])
      (indexBits 2 1) (malloc 3) 0 2 2 1
    = vectorOpen (ofList [[91], [92], [3], [4], [95], [6], [7]]) (ofList [[99], [8], [97], [96]])
      (indexBits 2 1) (malloc 3) 0 2 2 1
    ∧ vectorOpen (ofList [[1], [2], [3], [4], [5], [6], [7]]) (ofList [[9], [8], [7], [6]])
      (indexBits 2 1) (malloc 3) 0 2 2 1 = some (ofList [3, 4, 8]) := by decide

example : vectorOpen (ofList [[1], [2], [3], [4], [5], [6], [7]]) (ofList [[9], [8], [7], [6]])
      (indexBits 2 1) (malloc 3) 0 2 2 1
    = vectorOpen (ofList [[91], [92], [3], [4], [95], [6], [7]]) (ofList [[99], [8], [97], [96]])
      (indexBits 2 1) (malloc 3) 0 2 2 1 :=
  C33_open_hides_path (by decide) (by decide) _ _ _ _ _ _ _ (by
    intro l j hl hj hne
    have : l = 0 ∨ l = 1 ∨ l = 2 := by omega
    rcases this with rfl | rfl | rfl
    · have : j = 0 := by simpa using hj
      subst this; exact absurd rfl hne
    · have : j = 0 ∨ j = 1 := by omega
      rcases this with rfl | rfl
      · exact absurd rfl hne
      · rfl
    · have : j = 0 ∨ j = 1 ∨ j = 2 ∨ j = 3 := by omega
      rcases this with rfl | rfl | rfl | rfl
      · rfl
      · exact absurd rfl hne
      · rfl
      · rfl) rfl

end Faest
