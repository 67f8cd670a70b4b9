/-
Statements about the translated public functions on a memory.
-/
import Verif.Proofs.Gen.Top
import Verif.Proofs.Gen.Api

namespace Faest.Props
open Faest.C
open Spec (byteFn)

/-- `p` points to the bytes `l`, somewhere inside a live block. -/
def BytesAt (H : C.Heap) (p : CPtr) (l : List Byte) : Prop :=
  ∃ b o k m, p = some ⟨b, o⟩ ∧ H.cells b = some ⟨k, .bytes m⟩ ∧ o + l.length ≤ m.length ∧
    ∀ i (h : i < l.length), m[o + i]? = some (some l[i])

/-- The contents of a block after the bytes from `o` on are set to `l`. -/
def setBytes (m : Mem Byte) (o : Nat) (l : List Byte) : Mem Byte :=
  m.mapIdx fun i x => if o ≤ i ∧ i < o + l.length then l[i - o]? else x

theorem setBytes_eq {m : Mem Byte} {o : Nat} {l : List Byte} (h : o + l.length ≤ m.length) : W m o l = setBytes m o l := by
  refine C.mem_ext (by rw [length_W h]; simp [setBytes]) fun i hi => ?_
  rw [length_W h] at hi
  rw [getElem?_W h]
  simp only [setBytes, List.getElem?_mapIdx]
  by_cases hc : o ≤ i ∧ i < o + l.length
  · rw [if_pos hc]
    simp [List.getElem?_eq_getElem hi, hc]
    rw [List.getElem?_eq_getElem (by omega)]
    exact ⟨_, rfl, rfl⟩
  · rw [if_neg hc]
    simp [hc]

/-- The blocks other than some. -/
theorem mem_rest {F : Blocks} {s b : Nat} {c c' : Cell} (h : (b, c) ∈ ({(s, c')} : Blocks) + F) (hne : b ≠ s) : (b, c) ∈ F := by
  rcases Multiset.mem_add.1 h with h1 | h1
  · exact absurd (congrArg Prod.fst (Multiset.mem_singleton.1 h1)) hne
  · exact h1

theorem split1 {H : C.Heap} {D : Blocks} {s : Nat} {c : Cell} (hD : Sat H D) (h : H.cells s = some c) : ∃ F, D = {(s, c)} + F := by
  obtain ⟨F, hF⟩ := Multiset.exists_cons_of_mem ((hD.mem _ _).1 h)
  exact ⟨F, by rw [hF, ← Multiset.singleton_add]⟩

theorem split2 {H : C.Heap} {D : Blocks} {s s2 : Nat} {c c2 : Cell} (hD : Sat H D) (h : H.cells s = some c) (h2 : H.cells s2 = some c2)
    (hne : s ≠ s2) : ∃ F, D = {(s, c)} + ({(s2, c2)} + F) := by
  obtain ⟨F, rfl⟩ := split1 hD h
  obtain ⟨G, rfl⟩ := Multiset.exists_cons_of_mem (mem_rest ((hD.mem _ _).1 h2) hne.symm)
  exact ⟨G, by rw [← Multiset.singleton_add]⟩

theorem split3 {H : C.Heap} {D : Blocks} {s s2 s3 : Nat} {c c2 c3 : Cell} (hD : Sat H D) (h : H.cells s = some c) (h2 : H.cells s2 = some c2)
    (h3 : H.cells s3 = some c3) (hne : s ≠ s2) (hne' : s ≠ s3) (hne'' : s2 ≠ s3) : ∃ F, D = {(s, c)} + ({(s2, c2)} + ({(s3, c3)} + F)) := by
  obtain ⟨F, rfl⟩ := split2 hD h h2 hne
  obtain ⟨G, rfl⟩ := Multiset.exists_cons_of_mem (mem_rest (mem_rest ((hD.mem _ _).1 h3) hne'.symm) hne''.symm)
  exact ⟨G, by rw [← Multiset.singleton_add]⟩

theorem put2 {H H' : C.Heap} {F : Blocks} {s s2 : Nat} {c c2 c' c2' : Cell} (h : Sat H ({(s, c)} + ({(s2, c2)} + F)))
    (h' : Sat H' ({(s, c')} + ({(s2, c2')} + F))) : H'.cells = upd (upd H.cells s (some c')) s2 (some c2') := by
  have h1 := h.put (c' := c')
  rw [add_left_comm] at h1
  have h2 := h1.put (c' := c2')
  rw [add_left_comm] at h2
  exact Sat.cells_eq h2 h'

theorem put3 {H H' : C.Heap} {F : Blocks} {s s2 s3 : Nat} {c c2 c3 c' c2' c3' : Cell} (h : Sat H ({(s, c)} + ({(s2, c2)} + ({(s3, c3)} + F))))
    (h' : Sat H' ({(s, c')} + ({(s2, c2')} + ({(s3, c3')} + F)))) :
    H'.cells = upd (upd (upd H.cells s (some c')) s2 (some c2')) s3 (some c3') := by
  have h1 := h.put (c' := c')
  rw [add_left_comm] at h1
  have h2 := h1.put (c' := c2')
  rw [show ({(s2, c2')} : Blocks) + ({(s, c')} + ({(s3, c3)} + F)) = {(s3, c3)} + (F + ({(s2, c2')} + {(s, c')})) by abel] at h2
  have h3 := h2.put (c' := c3')
  rw [show ({(s3, c3')} : Blocks) + (F + ({(s2, c2')} + {(s, c')})) = {(s, c')} + ({(s2, c2')} + ({(s3, c3')} + F)) by abel] at h3
  exact Sat.cells_eq h3 h'

/-- A pointer whose block is not `s`. -/
def Apart (p : CPtr) (s : Nat) : Prop := ∀ q, p = some q → q.blk ≠ s

theorem BytesAt.rdAt {H : C.Heap} {D : Blocks} {p : CPtr} {l : List Byte} (h : BytesAt H p l) (hD : Sat H D) : RdAt D p l.length l := by
  obtain ⟨b, o, k, m, rfl, hb, hle, hg⟩ := h
  refine ⟨b, o, k, m, rfl, (hD.mem _ _).1 hb, ?_⟩
  rw [rdN_eq (g := byteFn l) (fun t ht => ?_) hle]
  · congr 1
    exact (list_eq_tabP l (byteFn l) l.length rfl fun t ht => byteFn_getElem? rfl ht).symm
  · unfold rd
    rw [hg t ht, ← byteFn_getElem? rfl ht, List.getElem?_eq_getElem ht]
    rfl

theorem BytesAt.notOther {H : C.Heap} {p : CPtr} {l : List Byte} {s : Nat} {k : Kind} {d : Data} (h : BytesAt H p l)
    (hs : H.cells s = some ⟨k, d⟩) (hd : ∀ m, d ≠ .bytes m) : Apart p s := by
  obtain ⟨b, o, k, m, rfl, hb, -⟩ := h
  rintro q hq rfl
  obtain rfl := Option.some.inj hq
  simp only at hs
  rw [hb] at hs
  cases hs
  exact hd _ rfl

theorem RdAt.rest {F : Blocks} {p : CPtr} {n : Nat} {l : List Byte} {s : Nat} {c : Cell} (h : RdAt ({(s, c)} + F) p n l) (hp : Apart p s) :
    RdAt F p n l := by
  obtain ⟨b, o, k, m, rfl, hb, hr⟩ := h
  exact ⟨b, o, k, m, rfl, mem_rest hb (hp _ rfl), hr⟩

/-- Leave out the second of some blocks. -/
theorem RdAt.rest2 {F : Blocks} {p : CPtr} {n : Nat} {l : List Byte} {s s2 : Nat} {c c2 : Cell} (h : RdAt ({(s, c)} + ({(s2, c2)} + F)) p n l)
    (hp : Apart p s2) : RdAt ({(s, c)} + F) p n l := by
  rw [add_left_comm] at h
  exact RdAt.rest h hp

theorem BytesAt.ne_none {H : C.Heap} {p : CPtr} {l : List Byte} (h : BytesAt H p l) : p.isSome = true := by
  obtain ⟨b, o, k, m, rfl, -⟩ := h
  rfl

/-- A computation which leaves all blocks as they were. -/
theorem run_same {β : Type} {p : CM β} {b : β} {H : C.Heap} (hf : ∀ i, H.next ≤ i → H.cells i = none)
    (h : ∀ D : Blocks, Sat H D → Runs D p b D) : ∃ H', p H = some (b, H') ∧ H'.cells = H.cells := by
  obtain ⟨D, hD⟩ := C.sat_exists H hf
  obtain ⟨b', H', D', hp, hs', rfl, rfl⟩ := h D hD H hD
  exact ⟨H', hp, Sat.cells_eq hD hs'⟩

theorem rd_get {α : Type} {m : Mem α} {o : Nat} {x : α} (h : m[o]? = some (some x)) : rd m o = some x := by
  unfold rd
  rw [h]
  rfl

end Faest.Props
