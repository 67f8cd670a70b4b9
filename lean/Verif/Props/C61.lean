/-
C61: the functions on four Keccak states with vectors of 256 bits (sha3/avx2/KeccakP-1600-times4-SIMD256.c).
-/
import Verif.Proofs.Gen.HashTop
import Verif.Proofs.Gen.X4Simd

namespace Faest.Props
open Faest.C Faest.GenA
open Spec.Keccak (Str keccakP)

/-- Byte `j` of state `k` among 800 bytes: the four states take turns lane by lane, a lane has 8 bytes. -/
def byte4 (l : List Byte) (k j : Nat) : Byte := l.getD (32 * (j / 8) + 8 * k + j % 8) 0

/-- State `k` as a string of 1600 bits. -/
def bits4 (l : List Byte) (k : Nat) : Str := fun i => (byte4 l k (i.val / 8)).getLsbD (i.val % 8)

/-- Each byte of the 800 is a byte of one of the states. -/
theorem byte4_all {l l' : List Byte} (hl : l.length = 800) (hl' : l'.length = 800)
    (h : ∀ k, k < 4 → ∀ j, j < 200 → byte4 l k j = byte4 l' k j) : l = l' := by
  refine List.ext_getElem (by rw [hl, hl']) fun t h1 h2 => ?_
  have e := h (t / 8 % 4) (by omega) (8 * (t / 32) + t % 8) (by omega)
  unfold byte4 at e
  rw [show 32 * ((8 * (t / 32) + t % 8) / 8) + 8 * (t / 8 % 4) + (8 * (t / 32) + t % 8) % 8 = t by omega] at e
  rwa [List.getD_eq_getElem?_getD, List.getD_eq_getElem?_getD, List.getElem?_eq_getElem h1, List.getElem?_eq_getElem h2] at e

private theorem I4_list {l : List Byte} (hl : l.length = 800) : I4 (byte4 l) = ofList l := by
  unfold I4
  refine congrArg ofList (byte4_all (tabP_length ..) hl fun k hk j hj => ?_)
  unfold byte4
  rw [List.getD_eq_getElem?_getD, tabP_getElem?, if_pos (by omega)]
  unfold g4
  rw [show (32 * (j / 8) + 8 * k + j % 8) / 8 % 4 = k by omega,
    show 8 * ((32 * (j / 8) + 8 * k + j % 8) / 32) + (32 * (j / 8) + 8 * k + j % 8) % 8 = j by omega]
  rfl

private theorem list_I4 (B : Nat → Nat → Byte) : ∃ l : List Byte, l.length = 800 ∧ I4 B = ofList l ∧
    ∀ k, k < 4 → ∀ j, j < 200 → byte4 l k j = B k j := by
  refine ⟨tabP 800 (g4 B), tabP_length .., rfl, fun k hk j hj => ?_⟩
  unfold byte4
  rw [List.getD_eq_getElem?_getD, tabP_getElem?, if_pos (by omega)]
  unfold g4
  rw [show (32 * (j / 8) + 8 * k + j % 8) / 8 % 4 = k by omega,
    show 8 * ((32 * (j / 8) + 8 * k + j % 8) / 32) + (32 * (j / 8) + 8 * k + j % 8) % 8 = j by omega]
  rfl

section
variable (H : C.Heap) (hf : ∀ i, H.next ≤ i → H.cells i = none) {kd : Kind} {b : Nat} {l : List Byte}

include hf in
/-- **C61, permutation.** On 800 bytes the vector code for `KeccakP1600times4_PermuteAll_24rounds` runs without undefined
behaviour, in particular with all vector accesses at multiples of 32 bytes, and takes each of the four states `S` to
`KECCAK-p[1600, 24](S)` of FIPS 202.  Nothing else changes. -/
theorem C61_permute (hb : H.cells b = some ⟨kd, .bytes (ofList l)⟩) (hl : l.length = 800) :
    ∃ H' l', KeccakP1600times4_PermuteAll_24rounds (some ⟨b, 0⟩) H = some ((), H') ∧ l'.length = 800 ∧
      H'.cells = upd H.cells b (some ⟨kd, .bytes (ofList l')⟩) ∧ ∀ k, k < 4 → bits4 l' k = keccakP (bits4 l k) := by
  obtain ⟨D, hD⟩ := C.sat_exists H hf
  obtain ⟨F, rfl⟩ := split1 hD hb
  rw [← I4_list hl] at hD
  obtain ⟨_, H', D', h1, h2, -, rfl⟩ := permute_runs (kd := kd) (b := b) (F := F) (B := byte4 l) H hD
  obtain ⟨l', hl', e, h⟩ := list_I4 fun k => Keccak.keccakB (byte4 l k)
  refine ⟨H', l', h1, hl', ?_, fun k hk => ?_⟩
  · rw [← e]
    exact Sat.cells_eq (hD.put (c' := ⟨kd, .bytes (I4 fun k => Keccak.keccakB (byte4 l k))⟩)) h2
  · funext i
    unfold bits4
    rw [h k hk _ (by omega)]
    unfold Keccak.keccakB
    rw [Keccak.bytesS_bit _ _ _ (by omega) (by omega)]
    rw [show (⟨8 * (i.val / 8) + i.val % 8, by omega⟩ : Fin 1600) = i from Fin.ext (by show 8 * (i.val / 8) + i.val % 8 = i.val; omega)]
    rfl

include hf in
/-- **C61, start.** `KeccakP1600times4_InitializeAll` sets 800 bytes in any condition to zero. -/
theorem C61_init {m : Mem Byte} (hb : H.cells b = some ⟨kd, .bytes m⟩) (hm : m.length = 800) :
    ∃ H', KeccakP1600times4_InitializeAll (some ⟨b, 0⟩) H = some ((), H') ∧
      H'.cells = upd H.cells b (some ⟨kd, .bytes (ofList (List.replicate 800 0))⟩) := by
  obtain ⟨D, hD⟩ := C.sat_exists H hf
  obtain ⟨F, rfl⟩ := split1 hD hb
  obtain ⟨_, H', D', h1, h2, -, rfl⟩ := init_runs (kd := kd) (b := b) (F := F) (m := m) hm H hD
  refine ⟨H', h1, ?_⟩
  rw [← I4_list List.length_replicate, show byte4 (List.replicate 800 0) = fun _ _ => 0 from ?_]
  · exact Sat.cells_eq (hD.put (c' := ⟨kd, .bytes (I4 fun _ _ => 0)⟩)) h2
  · funext k j
    unfold byte4
    rw [List.getD_eq_getElem?_getD, List.getElem?_replicate]
    split <;> rfl

include hf in
/-- **C61, one byte.** `KeccakP1600times4_AddByte` XORs the byte into byte `y` of state `i`. -/
theorem C61_addByte {c : Byte} {i y : Nat} (hb : H.cells b = some ⟨kd, .bytes (ofList l)⟩) (hl : l.length = 800)
    (hi : i < 4) (hy : y < 200) :
    ∃ H' l', KeccakP1600times4_AddByte (some ⟨b, 0⟩) i c y H = some ((), H') ∧ l'.length = 800 ∧
      H'.cells = upd H.cells b (some ⟨kd, .bytes (ofList l')⟩) ∧
      ∀ k, k < 4 → ∀ j, j < 200 → byte4 l' k j = byte4 l k j ^^^ if k = i ∧ j = y then c else 0 := by
  obtain ⟨D, hD⟩ := C.sat_exists H hf
  obtain ⟨F, rfl⟩ := split1 hD hb
  rw [← I4_list hl] at hD
  obtain ⟨_, H', D', h1, h2, -, rfl⟩ := addByte_runs (kd := kd) (b := b) (F := F) (B := byte4 l) (c := c) hi hy H hD
  obtain ⟨l', hl', e, h⟩ := list_I4 (GenH.setS (byte4 l) i (Keccak.xorB (byte4 l i) y 1 fun _ => c))
  refine ⟨H', l', h1, hl', ?_, fun k hk j hj => ?_⟩
  · rw [← e]
    exact Sat.cells_eq (hD.put (c' := ⟨kd, .bytes (I4 (GenH.setS (byte4 l) i (Keccak.xorB (byte4 l i) y 1 fun _ => c)))⟩)) h2
  · rw [h k hk j hj]
    unfold GenH.setS Keccak.xorB
    by_cases c1 : k = i
    · subst c1
      by_cases c2 : j = y
      · rw [if_pos rfl, if_pos (by omega), if_pos ⟨rfl, c2⟩]
      · rw [if_pos rfl, if_neg (by omega), if_neg fun h => c2 h.2]; exact BitVec.xor_zero.symm
    · rw [if_neg c1, if_neg fun h => c1 h.1]; exact BitVec.xor_zero.symm

include hf in
/-- **C61, bytes in.** `KeccakP1600times4_AddBytes` XORs a string from outside of the states into state `i` from byte `x`
on, for any `x` and any length that fit. -/
theorem C61_addBytes {i x : Nat} {p : CPtr} {d : List Byte} (hb : H.cells b = some ⟨kd, .bytes (ofList l)⟩) (hl : l.length = 800)
    (hi : i < 4) (hp : BytesAt H p d) (ha : Apart p b) (hx : x + d.length ≤ 200) :
    ∃ H' l', KeccakP1600times4_AddBytes (some ⟨b, 0⟩) i p x d.length H = some ((), H') ∧ l'.length = 800 ∧
      H'.cells = upd H.cells b (some ⟨kd, .bytes (ofList l')⟩) ∧
      ∀ k, k < 4 → ∀ j, j < 200 → byte4 l' k j = byte4 l k j ^^^ if k = i ∧ x ≤ j then d.getD (j - x) 0 else 0 := by
  obtain ⟨D, hD⟩ := C.sat_exists H hf
  obtain ⟨F, rfl⟩ := split1 hD hb
  have hv := RdAt.view (RdAt.rest (hp.rdAt hD) ha)
  rw [← I4_list hl] at hD
  have hd : Has (ofList d) 0 d.length fun j => d.getD j 0 := by
    intro j hj
    rw [rd_ofList, Nat.zero_add, List.getElem?_eq_getElem hj]
    show some d[j] = some (d.getD j 0)
    rw [List.getD_eq_getElem?_getD, List.getElem?_eq_getElem hj]
    rfl
  obtain ⟨_, H', D', h1, h2, -, rfl⟩ := addBytes_runs (kd := kd) (b := b) (F := F) (B := byte4 l) hi hv hd hx H hD
  obtain ⟨l', hl', e, h⟩ := list_I4 (GenH.setS (byte4 l) i (Keccak.xorB (byte4 l i) x d.length fun j => d.getD j 0))
  refine ⟨H', l', h1, hl', ?_, fun k hk j hj => ?_⟩
  · rw [← e]
    exact Sat.cells_eq (hD.put (c' := ⟨kd, .bytes (I4 (GenH.setS (byte4 l) i (Keccak.xorB (byte4 l i) x d.length fun j => d.getD j 0)))⟩)) h2
  · rw [h k hk j hj]
    unfold GenH.setS Keccak.xorB
    by_cases c1 : k = i
    · subst c1
      by_cases c2 : x ≤ j
      · by_cases c3 : j < x + d.length
        · rw [if_pos rfl, if_pos ⟨c2, c3⟩, if_pos ⟨rfl, c2⟩]
        · rw [if_pos rfl, if_neg fun h => c3 h.2, if_pos ⟨rfl, c2⟩, List.getD_eq_getElem?_getD, List.getElem?_eq_none (by omega)]; exact BitVec.xor_zero.symm
      · rw [if_pos rfl, if_neg fun h => c2 h.1, if_neg fun h => c2 h.2]; exact BitVec.xor_zero.symm
    · rw [if_neg c1, if_neg fun h => c1 h.1]; exact BitVec.xor_zero.symm

include hf in
/-- **C61, bytes out.** `KeccakP1600times4_ExtractBytes` stores bytes `x`, …, `x + n - 1` of state `i` at a place outside of
the states, and nothing else. -/
theorem C61_extract {i x n : Nat} {q : Ptr} (hb : H.cells b = some ⟨kd, .bytes (ofList l)⟩) (hl : l.length = 800)
    (hi : i < 4) (hq : Room H q n) (ha : q.blk ≠ b) (hx : x + n ≤ 200) :
    ∃ H', KeccakP1600times4_ExtractBytes (some ⟨b, 0⟩) i (some q) x n H = some ((), H') ∧
      H'.cells = store H.cells q (tabP n fun j => byte4 l i (x + j)) := by
  obtain ⟨D, hD⟩ := C.sat_exists H hf
  obtain ⟨F, rfl⟩ := split1 hD hb
  have hv := hq.valid hD ha
  rw [← I4_list hl] at hD
  obtain ⟨_, H', D', h1, h2, -, rfl⟩ := extract_runs (kd := kd) (b := b) (F := F) (B := byte4 l) hi hv hx H hD
  refine ⟨H', h1, cells_up hD ?_ ?_⟩
  · rw [up_frame hD.nodup hv]
    exact h2
  · rw [tabP_length]
    exact hv.right

end

/-! ### The hypotheses can be met -/

private def H61 : C.Heap :=
  ⟨2, fun b => if b = 0 then some ⟨.stack, .bytes (ofList (List.replicate 800 5))⟩
    else if b = 1 then some ⟨.caller, .bytes (ofList [7, 8, 9])⟩ else none⟩

private theorem H61_fresh : ∀ i, H61.next ≤ i → H61.cells i = none := by
  intro i hi
  have : 2 ≤ i := hi
  show (if i = 0 then _ else _) = none
  rw [if_neg (by omega), if_neg (by omega)]

example : ∃ H' l', KeccakP1600times4_PermuteAll_24rounds (some ⟨0, 0⟩) H61 = some ((), H') ∧ l'.length = 800 ∧
    H'.cells = upd H61.cells 0 (some ⟨.stack, .bytes (ofList l')⟩) ∧
    ∀ k, k < 4 → bits4 l' k = keccakP (bits4 (List.replicate 800 5) k) :=
  C61_permute H61 H61_fresh rfl List.length_replicate

example : ∃ H' l', KeccakP1600times4_AddBytes (some ⟨0, 0⟩) 2 (some ⟨1, 1⟩) 7 2 H61 = some ((), H') ∧ l'.length = 800 ∧
    H'.cells = upd H61.cells 0 (some ⟨.stack, .bytes (ofList l')⟩) ∧
    ∀ k, k < 4 → ∀ j, j < 200 → byte4 l' k j = byte4 (List.replicate 800 5) k j ^^^ if k = 2 ∧ 7 ≤ j then [(8 : Byte), 9].getD (j - 7) 0 else 0 :=
  C61_addBytes (d := [8, 9]) H61 H61_fresh rfl List.length_replicate (by decide)
    ⟨1, 1, .caller, ofList [7, 8, 9], rfl, rfl, by decide, by
      intro i hi
      have : i < 2 := hi
      have : i = 0 ∨ i = 1 := by omega
      rcases this with rfl | rfl <;> rfl⟩
    (by rintro q hq; obtain rfl := Option.some.inj hq; decide) (by decide)

example : ∃ H', KeccakP1600times4_ExtractBytes (some ⟨0, 0⟩) 3 (some ⟨1, 0⟩) 197 3 H61 = some ((), H') ∧
    H'.cells = store H61.cells ⟨1, 0⟩ (tabP 3 fun j => byte4 (List.replicate 800 5) 3 (197 + j)) :=
  C61_extract H61 H61_fresh rfl List.length_replicate (by decide) ⟨.caller, ofList [7, 8, 9], rfl, by decide⟩ (by decide) (by decide)

end Faest.Props
