/-
C34: load and store are inverse little-endian encodings.
-/
import Verif.Proofs.LoadStore

namespace Faest.Props

/-- Storing an element anywhere in a buffer and loading it from there returns the element; the
store changes no byte outside its range. -/
theorem C34_load_store {n : Nat} (hn : n = 64 ∨ n = 128 ∨ n = 192 ∨ n = 256) (a : BF n)
    (dst : Mem Byte) (off : Nat) (h : off + n / 8 ≤ dst.length) :
    ∃ m, bfStore dst off a = some m ∧ bfLoad n m off = some a ∧ m.length = dst.length ∧
      ∀ j, (j < off ∨ off + n / 8 ≤ j) → rd m j = rd dst j := by
  have h8 : 8 ∣ n := by rcases hn with rfl | rfl | rfl | rfl <;> decide
  have hge : 8 ≤ n := by rcases hn with rfl | rfl | rfl | rfl <;> decide
  refine bfStore_ok h ?_
  intro m hl hr
  refine ⟨?_, hl, ?_⟩
  · rw [bfLoad_ok (g := byteAt a) hge, loadF_byteAt h8]
    intro i hi
    rw [hr, if_pos (by omega), Nat.add_sub_cancel_left]
  · intro j hj
    rw [hr, if_neg (by omega)]

/-- Loading from initialised bytes is defined, and storing the element again writes the same
bytes. -/
theorem C34_store_load {n : Nat} (hn : n = 64 ∨ n = 128 ∨ n = 192 ∨ n = 256) (l : List Byte)
    (hl : l.length = n / 8) :
    ∃ a, bfLoad n (ofList l) 0 = some a ∧ bfStore (malloc (n / 8)) 0 a = some (ofList l) := by
  have h8 : 8 ∣ n := by rcases hn with rfl | rfl | rfl | rfl <;> decide
  refine ⟨BF.ofBytes n l, ?_, ?_⟩
  · unfold bfLoad
    rw [← hl, rdN_ofList]; rfl
  · unfold bfStore
    rw [toBytes_ofBytes h8 l hl]
    unfold wrN
    rw [if_pos (by simp [hl])]
    simp [hl, malloc, ofList]

/-- Bit `i` of a loaded element is bit `i % 8` of byte `i / 8`. -/
theorem C34_bits {n : Nat} (hn : n = 64 ∨ n = 128 ∨ n = 192 ∨ n = 256) (l : List Byte)
    (hl : l.length = n / 8) (i : Nat) (hi : i < n) :
    ∃ a b, bfLoad n (ofList l) 0 = some a ∧ l[i / 8]? = some b ∧
      a.v.getLsbD i = b.getLsbD (i % 8) := by
  have h8 : 8 ∣ n := by rcases hn with rfl | rfl | rfl | rfl <;> decide
  have hlt : i / 8 < l.length := by omega
  refine ⟨BF.ofBytes n l, l[i / 8], ?_, List.getElem?_eq_getElem hlt, ?_⟩
  · unfold bfLoad
    rw [← hl, rdN_ofList]; rfl
  · unfold BF.ofBytes
    simp only [BitVec.getLsbD_ofNat, hi, leNat_testBit, List.getElem?_eq_getElem hlt]
    simp

/-- A concrete load: the first byte is the least significant one. -/
example : bfLoad 64 (ofList [1, 2, 0, 0, 0, 0, 0, 0x80]) 0 = some ⟨0x8000000000000201⟩ := by
  decide +kernel

end Faest.Props
