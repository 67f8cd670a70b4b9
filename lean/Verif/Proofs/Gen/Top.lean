/-
Statements about the translated code on a memory.
-/
import Verif.Proofs.Gen.Utils
import Verif.Proofs.Hoare

namespace Faest.Props
open Faest.C

/-- `p` points to `n` bytes with the values `g`, somewhere inside a live block. -/
def HoldsAt (H : C.Heap) (p : CPtr) (n : Nat) (g : Nat → Byte) : Prop :=
  ∃ b o k m, p = some ⟨b, o⟩ ∧ H.cells b = some ⟨k, .bytes m⟩ ∧ ∀ i, i < n → rd m (o + i) = some (g i)

/-- The contents of a block after the bytes `o .. o+n-1` are set to `g`. -/
def setRange (m : Mem Byte) (o n : Nat) (g : Nat → Byte) : Mem Byte :=
  m.mapIdx fun i x => if o ≤ i ∧ i < o + n then some (g (i - o)) else x

theorem setRange_eq {m : Mem Byte} {o n : Nat} {g : Nat → Byte} (h : o + n ≤ m.length) :
    wrN m o (tabP n g) = some (setRange m o n g) := by
  have hl : (tabP n g).length = n := tabP_length n g
  rw [wrN_W (by omega)]
  congr 1
  refine C.mem_ext (by rw [length_W (by omega)]; simp [setRange]) fun i hi => ?_
  rw [length_W (by omega)] at hi
  rw [getElem?_W (by omega), hl]
  simp only [setRange, List.getElem?_mapIdx]
  by_cases hc : o ≤ i ∧ i < o + n
  · rw [if_pos hc]
    rw [tabP_getElem?, if_pos (by omega)]
    simp [List.getElem?_eq_getElem hi, hc]
  · rw [if_neg hc]
    simp [hc]

theorem HoldsAt.view {H : C.Heap} {D : Blocks} {p : CPtr} {n : Nat} {g : Nat → Byte} (h : HoldsAt H p n g) (hn : 0 < n)
    (hD : Sat H D) : View D p (full n g) := by
  obtain ⟨b, o, k, m, rfl, hb, hg⟩ := h
  refine ⟨b, o, k, m, rfl, (hD.mem _ _).1 hb, ?_, fun i x hi => ?_⟩
  · have := rd_lt (hg (n - 1) (by omega))
    rw [List.length_drop]
    simp [full]
    omega
  · have hi' := rd_lt hi
    simp only [full_length] at hi'
    rw [C.rd_drop, hg i hi']
    rw [← hi]
    have := has_full n g i hi'
    rw [Nat.zero_add] at this
    exact this.symm

/-- Running a computation which changes one block, on a heap. -/
theorem run_one {β : Type} {p : CM β} {b : β} {k : Kind} {s : Nat} {m m' : Mem Byte} {H : C.Heap}
    (hf : ∀ i, H.next ≤ i → H.cells i = none) (hs : H.cells s = some ⟨k, .bytes m⟩)
    (h : ∀ F : Blocks, Sat H (bl k s m + F) → Runs (bl k s m + F) p b (bl k s m' + F)) :
    ∃ H', p H = some (b, H') ∧ H'.cells = upd H.cells s (some ⟨k, .bytes m'⟩) := by
  obtain ⟨D, hD⟩ := C.sat_exists H hf
  obtain ⟨F, rfl⟩ : ∃ F, D = bl k s m + F := by
    obtain ⟨F, hF⟩ := Multiset.exists_cons_of_mem ((hD.mem _ _).1 hs)
    exact ⟨F, by rw [hF, ← Multiset.singleton_add]; rfl⟩
  obtain ⟨b', H', D', hp, hs', rfl, rfl⟩ := h F hD H hD
  exact ⟨H', hp, Sat.cells_eq (hD.put (c' := ⟨k, .bytes m'⟩)) hs'⟩

end Faest.Props
