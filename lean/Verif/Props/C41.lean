/-
C41: vector commitments are binding: two openings with the same digest agree on every leaf opened by both, or
exhibit a collision of H1 on the strings of commitments or of the commitment part of H0 on two leaves.
-/
import Verif.Props.C14
import Verif.Props.C24

namespace Faest.Props
open Spec (byteFn treeNode leafSd leafCom comDigest recNode)

/-- The commitment computed from a leaf: second part of the output of H0. -/
def leafHash (X : XOF) (lam : Nat) (iv node : List Byte) : List Byte := (H0 X lam (node ++ iv) (lam / 8) (lam / 8 * 2)).2

/-- Leaf `j` as recomputed: node, seed and commitment. -/
def leafOf (r : VecComRec) (d j : Nat) : Option (List Byte × List Byte × List Byte) := do
  pure (← rd r.k (2 ^ d - 1 + j), ← rd r.s j, ← rd r.com j)

theorem flatten_inj_of_length {α : Type} {n : Nat} : ∀ {l l' : List (List α)}, l.length = l'.length →
    (∀ x ∈ l, x.length = n) → (∀ x ∈ l', x.length = n) → l.flatten = l'.flatten → l = l'
  | [], [], _, _, _, _ => rfl
  | x :: l, y :: l', hl, h, h', he => by
    rw [List.flatten_cons, List.flatten_cons] at he
    obtain ⟨h1, h2⟩ := List.append_inj he
      ((h x List.mem_cons_self).trans (h' y List.mem_cons_self).symm)
    rw [h1, flatten_inj_of_length (Nat.succ.inj hl) (fun z hz => h z (List.mem_cons_of_mem _ hz))
      (fun z hz => h' z (List.mem_cons_of_mem _ hz)) h2]

/-- **C41.** Two runs of `vector_reconstruction` for the same iv and depth, with any openings `cop`, `com_j` at any
indices, that give the same digest `h`: all commitments agree and each leaf hidden in neither run has the same
node and the same seed in both, unless the strings of all commitments are a collision of H1, or some leaf's two
nodes are a collision of the commitment part of H0. -/
theorem C41_binding (X : XOF) {lam d idx idx' : Nat} {iv cop comj cop' comj' : List Byte} (hlam : LamOk lam)
    (hv : iv.length = 16) (h1 : 1 ≤ d) (h2 : d ≤ MAX_DEPTH) (hidx : idx < 2 ^ d) (hidx' : idx' < 2 ^ d)
    (hcop : cop.length = lam / 8 * d) (hcom : comj.length = lam / 8 * 2)
    (hcop' : cop'.length = lam / 8 * d) (hcom' : comj'.length = lam / 8 * 2) (vr vr' : VecComRec)
    (hk : 2 ^ (d + 1) - 1 ≤ vr.k.length) (hc : 2 ^ d ≤ vr.com.length) (hs : vr.com.length = vr.s.length)
    (hk' : 2 ^ (d + 1) - 1 ≤ vr'.k.length) (hc' : 2 ^ d ≤ vr'.com.length) (hs' : vr'.com.length = vr'.s.length) :
    ∃ r r', vectorReconstruction X iv (ofList cop) (ofList comj) (indexBits d idx) lam d vr = some r ∧
      vectorReconstruction X iv (ofList cop') (ofList comj') (indexBits d idx') lam d vr' = some r' ∧
      (r.h = r'.h →
        (∃ coms coms', rdN r.com 0 (2 ^ d) = some coms ∧ rdN r'.com 0 (2 ^ d) = some coms' ∧
          Coll (fun s => H1 X lam s (lam / 8 * 2)) coms.flatten coms'.flatten) ∨
        ∀ j, j < 2 ^ d → (rd r.com j = rd r'.com j ∧ (rd r.com j).isSome) ∧ (j ≠ idx → j ≠ idx' →
          ((leafOf r d j).isSome ∧ leafOf r d j = leafOf r' d j) ∨
          ∃ nd nd', rd r.k (2 ^ d - 1 + j) = some nd ∧ rd r'.k (2 ^ d - 1 + j) = some nd' ∧
            Coll (leafHash X lam iv) nd nd')) := by
  have hmd : MAX_DEPTH = 12 := rfl
  have hp := Nat.two_pow_pos d
  have hh := fun (l : List Byte) => has_byteFn l
  obtain ⟨r, e, -, rs, rk, rc, rh⟩ := vectorReconstruction_ok (X := X) hlam hv (indexBits_ok hidx)
    (hcop ▸ hh cop) (hcom ▸ hh comj) h1 (by omega) hk hc rfl rfl hs.symm
  obtain ⟨r', e', -, rs', rk', rc', rh'⟩ := vectorReconstruction_ok (X := X) hlam hv (indexBits_ok hidx')
    (hcop' ▸ hh cop') (hcom' ▸ hh comj') h1 (by omega) hk' hc' rfl rfl hs'.symm
  refine ⟨r, r', e, e', fun hdig => ?_⟩
  rw [← hcom] at rc rh
  rw [← hcom'] at rc' rh'
  rw [tabP_byteFn] at rc rh rc' rh'
  generalize recNode lam iv (copPart (lam / 8) (byteFn cop)) d idx d = nd at *
  generalize recNode lam iv (copPart (lam / 8) (byteFn cop')) d idx' d = nd' at *
  have hlen : ∀ (nd : Nat → List Byte) (idx : Nat) (c : List Byte), c.length = lam / 8 * 2 → ∀ j,
      (recCom X lam iv nd idx c j).length = lam / 8 * 2 := by
    intro nd idx c hc j
    unfold recCom
    split
    · exact hc
    · exact leafCom_length ..
  have hr1 : rdN r.com 0 (2 ^ d) = some (tabP (2 ^ d) (recCom X lam iv nd idx comj)) :=
    rdN_has (fun j hj => by rw [Nat.zero_add]; exact rc j hj) hp
  have hr2 : rdN r'.com 0 (2 ^ d) = some (tabP (2 ^ d) (recCom X lam iv nd' idx' comj')) :=
    rdN_has (fun j hj => by rw [Nat.zero_add]; exact rc' j hj) hp
  rcases coll_or (f := fun s => H1 X lam s (lam / 8 * 2)) (x := (tabP (2 ^ d) (recCom X lam iv nd idx comj)).flatten)
    (x' := (tabP (2 ^ d) (recCom X lam iv nd' idx' comj')).flatten) (by rw [rh, rh'] at hdig; exact hdig) with heq | hcol
  · right
    have hl := flatten_inj_of_length (n := lam / 8 * 2) (by rw [tabP_length, tabP_length])
      (fun x hx => by
        obtain ⟨j, hj⟩ := List.mem_iff_getElem?.1 hx
        rw [tabP_getElem?] at hj
        split at hj
        · rw [← Option.some.inj hj]; exact hlen _ _ _ hcom j
        · cases hj)
      (fun x hx => by
        obtain ⟨j, hj⟩ := List.mem_iff_getElem?.1 hx
        rw [tabP_getElem?] at hj
        split at hj
        · rw [← Option.some.inj hj]; exact hlen _ _ _ hcom' j
        · cases hj) heq
    intro j hj
    have hj' : recCom X lam iv nd idx comj j = recCom X lam iv nd' idx' comj' j := by
      have := congrArg (fun l : List (List Byte) => l[j]?) hl
      simp only [tabP_getElem?, if_pos hj] at this
      exact Option.some.inj this
    refine ⟨⟨by rw [rc j hj, rc' j hj, hj'], by rw [rc j hj]; rfl⟩, fun hn hn' => ?_⟩
    unfold recCom at hj'
    rw [if_neg hn, if_neg hn'] at hj'
    rcases coll_or (f := leafHash X lam iv) (x := nd j) (x' := nd' j) hj' with he | hcol
    · left
      have e1 : leafOf r d j = some (nd j, leafSd X lam iv (nd j), leafCom X lam iv (nd j)) := by
        unfold leafOf
        rw [rk j hj, rs j hj hn, rc j hj]
        unfold recCom
        rw [if_neg hn]
        rfl
      have e2 : leafOf r' d j = some (nd' j, leafSd X lam iv (nd' j), leafCom X lam iv (nd' j)) := by
        unfold leafOf
        rw [rk' j hj, rs' j hj hn', rc' j hj]
        unfold recCom
        rw [if_neg hn']
        rfl
      rw [e1, e2, he]
      exact ⟨rfl, rfl⟩
    · right
      exact ⟨_, _, rk j hj, rk' j hj, hcol⟩
  · left
    exact ⟨_, _, hr1, hr2, hcol⟩

/-- **C41**, an opening of a commitment made with `vector_commitment`: if the digest recomputed from any opening at
`idx` is the one of the commitment, every other leaf is the committed one, unless there is a collision as above. -/
theorem C41_commitment (X : XOF) {lam d idx : Nat} {root iv cop comj : List Byte} (hlam : LamOk lam)
    (hr : root.length = lam / 8) (hv : iv.length = 16) (h1 : 1 ≤ d) (h2 : d ≤ MAX_DEPTH) (hidx : idx < 2 ^ d)
    (hcop : cop.length = lam / 8 * d) (hcom : comj.length = lam / 8 * 2) (vr : VecComRec)
    (hk : 2 ^ (d + 1) - 1 ≤ vr.k.length) (hc : 2 ^ d ≤ vr.com.length) (hs : vr.com.length = vr.s.length) :
    ∃ vc r, vectorCommitment X root iv lam d = some vc ∧
      vectorReconstruction X iv (ofList cop) (ofList comj) (indexBits d idx) lam d vr = some r ∧
      (r.h = vc.h →
        (∃ coms coms', rdN r.com 0 (2 ^ d) = some coms ∧ rdN vc.com 0 (2 ^ d) = some coms' ∧
          Coll (fun s => H1 X lam s (lam / 8 * 2)) coms.flatten coms'.flatten) ∨
        ∀ j, j < 2 ^ d → (rd r.com j = rd vc.com j ∧ (rd vc.com j).isSome) ∧ (j ≠ idx →
          (rd r.s j = rd vc.sd j ∧ (rd vc.sd j).isSome) ∨
          ∃ nd nd', rd r.k (2 ^ d - 1 + j) = some nd ∧ rd vc.k (2 ^ d - 1 + j) = some nd' ∧
            Coll (leafHash X lam iv) nd nd')) := by
  have hmd : MAX_DEPTH = 12 := rfl
  have hp := Nat.two_pow_pos d
  have hh := fun (l : List Byte) => has_byteFn l
  obtain ⟨vc, e', hvk, hvl, hvh⟩ := C14_commit X hlam hr hv h1 h2
  obtain ⟨r, e, -, rs, rk, rc, rh⟩ := vectorReconstruction_ok (X := X) hlam hv (indexBits_ok hidx)
    (hcop ▸ hh cop) (hcom ▸ hh comj) h1 (by omega) hk hc rfl rfl hs.symm
  refine ⟨vc, r, e', e, fun hdig => ?_⟩
  rw [← hcom] at rc rh
  rw [tabP_byteFn] at rc rh
  have hvk := fun j hj => hvk d j (Nat.le_refl _) hj
  generalize recNode lam iv (copPart (lam / 8) (byteFn cop)) d idx d = nd at *
  generalize treeNode lam iv root d = nd' at *
  have hlen : ∀ j, (recCom X lam iv nd idx comj j).length = lam / 8 * 2 := by
    intro j
    unfold recCom
    split
    · exact hcom
    · exact leafCom_length ..
  have hr1 : rdN r.com 0 (2 ^ d) = some (tabP (2 ^ d) (recCom X lam iv nd idx comj)) :=
    rdN_has (fun j hj => by rw [Nat.zero_add]; exact rc j hj) hp
  have hr2 : rdN vc.com 0 (2 ^ d) = some (tabP (2 ^ d) fun j => leafCom X lam iv (nd' j)) :=
    rdN_has (fun j hj => by rw [Nat.zero_add]; exact (hvl j hj).2) hp
  rcases coll_or (f := fun s => H1 X lam s (lam / 8 * 2)) (x := (tabP (2 ^ d) (recCom X lam iv nd idx comj)).flatten)
    (x' := (tabP (2 ^ d) fun j => leafCom X lam iv (nd' j)).flatten) (by rw [rh, hvh] at hdig; exact hdig) with heq | hcol
  · right
    have hl := flatten_inj_of_length (n := lam / 8 * 2) (by rw [tabP_length, tabP_length])
      (fun x hx => by
        obtain ⟨j, hj⟩ := List.mem_iff_getElem?.1 hx
        rw [tabP_getElem?] at hj
        split at hj
        · rw [← Option.some.inj hj]; exact hlen j
        · cases hj)
      (fun x hx => by
        obtain ⟨j, hj⟩ := List.mem_iff_getElem?.1 hx
        rw [tabP_getElem?] at hj
        split at hj
        · rw [← Option.some.inj hj]; exact leafCom_length ..
        · cases hj) heq
    intro j hj
    have hj' : recCom X lam iv nd idx comj j = leafCom X lam iv (nd' j) := by
      have := congrArg (fun l : List (List Byte) => l[j]?) hl
      simp only [tabP_getElem?, if_pos hj] at this
      exact Option.some.inj this
    refine ⟨⟨by rw [rc j hj, (hvl j hj).2, hj'], by rw [(hvl j hj).2]; rfl⟩, fun hn => ?_⟩
    unfold recCom at hj'
    rw [if_neg hn] at hj'
    rcases coll_or (f := leafHash X lam iv) (x := nd j) (x' := nd' j) hj' with he | hcol
    · left
      rw [rs j hj hn, (hvl j hj).1, he]
      exact ⟨rfl, rfl⟩
    · right
      exact ⟨_, _, rk j hj, hvk j hj, hcol⟩
  · left
    exact ⟨_, _, hr1, hr2, hcol⟩

/-- An opening of depth 8 at leaf 77 against a commitment. -/
example (X : XOF) := C41_commitment X (lam := 128) (d := 8) (idx := 77) (root := List.replicate 16 7)
  (iv := List.replicate 16 9) (cop := List.replicate 128 1) (comj := List.replicate 32 2) (.inl rfl) rfl rfl (by decide)
  (by decide) (by decide) rfl rfl ⟨[], calloc 511 [], calloc 256 [], calloc 256 []⟩ (by simp) (by simp) (by simp)

end Faest.Props
