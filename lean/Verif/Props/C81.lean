/-
C81: the functions which overwrite bytes of the state of Keccak, and which extract bytes with an addition.
-/
import Verif.Proofs.KeccakOver

namespace Faest.Props
open Faest.Keccak

/-- The 25 lanes of `st` from lane `base` on hold the bytes `B 0 … B 199`, eight in a lane, the least significant first. -/
def C81State (st : Mem U64) (base : Nat) (B : Nat → Byte) : Prop :=
  ∀ k, k < 25 → ∃ x, rd st (base + k) = some x ∧ ∀ j, j < 8 → (x >>> (8 * j)).setWidth 8 = B (8 * k + j)

/-- Nothing but the 25 lanes from lane `base` on differs. -/
def C81Same (st st' : Mem U64) (base : Nat) : Prop :=
  st'.length = st.length ∧ ∀ i, ¬ (base ≤ i ∧ i < base + 25) → rd st' i = rd st i

theorem C81State.has {st : Mem U64} {base : Nat} {B : Nat → Byte} (h : C81State st base B) : Has st base 25 (packL B) := by
  intro k hk
  obtain ⟨x, e, g⟩ := h k hk
  rw [e]
  congr 1
  apply u64_ext
  intro j hj
  rw [laneByte_packL _ _ _ hj]
  exact g j hj

theorem C81_state {st : Mem U64} {base : Nat} {B : Nat → Byte} (h : Has st base 25 (packL B)) : C81State st base B := by
  intro k hk
  exact ⟨_, h k hk, fun j hj => laneByte_packL B k j hj⟩

theorem C81_getD (l : List Byte) {i : Nat} (hi : i < l.length) : l.getD i 0 = l[i] := by
  rw [List.getD_eq_getElem?_getD, List.getElem?_eq_getElem hi]
  rfl

theorem C81_data (l : List Byte) : Has (ofList l) 0 l.length (fun i => l.getD i 0) := by
  intro i hi
  rw [Nat.zero_add, rd_ofList]
  show _ = some (l.getD i 0)
  rw [C81_getD l hi, List.getElem?_eq_getElem hi]

/-- **C81, `KeccakP1600_OverwriteBytes`.** If the bytes lie in the state, they are those of `data` afterwards; no other byte of the state, and
nothing else, changes. -/
theorem C81_overwrite {st : Mem U64} {base : Nat} {B : Nat → Byte} (h : C81State st base B) (l : List Byte) {off : Nat}
    (hn : off + l.length ≤ 200) :
    ∃ st', overwriteBytes st base (ofList l) off l.length = some st' ∧ C81Same st st' base ∧
      C81State st' base (fun t => if h : off ≤ t ∧ t - off < l.length then l[t - off]'h.2 else B t) := by
  have hd := C81_data l
  obtain ⟨st', e, g⟩ := overwriteBytes_ok h.has hd (by simp) hn
  refine ⟨st', e, ⟨g.len, fun i hi => g.frame i (by omega)⟩, ?_⟩
  have hs := C81_state g.has
  have eq : setB B off l.length (fun i => l.getD i 0) =
      fun t => if h : off ≤ t ∧ t - off < l.length then l[t - off]'h.2 else B t := by
    funext t
    unfold setB
    by_cases c : off ≤ t ∧ t < off + l.length
    · rw [if_pos c, dif_pos (by omega)]
      exact C81_getD l (by omega)
    · rw [if_neg c, dif_neg (by omega)]
  rw [← eq]
  exact hs

/-- **C81, `KeccakP1600_OverwriteWithZeroes`.** The first bytes are zero afterwards, the others as before. -/
theorem C81_zeroes {st : Mem U64} {base : Nat} {B : Nat → Byte} (h : C81State st base B) {n : Nat} (hn : n ≤ 200) :
    ∃ st', overwriteWithZeroes st base n = some st' ∧ C81Same st st' base ∧
      C81State st' base (fun t => if t < n then 0 else B t) := by
  obtain ⟨st', e, g⟩ := overwriteWithZeroes_ok h.has hn
  refine ⟨st', e, ⟨g.len, fun i hi => g.frame i (by omega)⟩, ?_⟩
  have eq : setB B 0 n (fun _ => 0) = fun t => if t < n then 0 else B t := by
    funext t
    unfold setB
    by_cases c : t < n
    · rw [if_pos (by omega), if_pos c]
    · rw [if_neg (by omega), if_neg c]
  rw [← eq]
  exact C81_state g.has

/-- **C81, `KeccakP1600_ExtractAndAddBytes`.** For fewer than 200 bytes in the state: the first bytes of `output` are those of the input plus
those of the state, the others are as before. -/
theorem C81_extract_add {st : Mem U64} {base : Nat} {B : Nat → Byte} (h : C81State st base B) (l : List Byte) {off : Nat}
    (hn : off + l.length ≤ 200) (hn2 : l.length < 200) {output : Mem Byte} (hl : l.length ≤ output.length) :
    ∃ output', extractAndAddBytes st base (ofList l) output off l.length = some output' ∧ output'.length = output.length ∧
      ∀ i, rd output' i = if h : i < l.length then some (l[i] ^^^ B (off + i)) else rd output i := by
  have hd := C81_data l
  obtain ⟨o, e, g⟩ := extractAndAddBytes_ok h.has hd hn hn2 hl
  refine ⟨o, e, g.len, ?_⟩
  intro i
  rw [g.rd]
  by_cases c : i < l.length
  · rw [if_pos (by omega), dif_pos c, Nat.sub_zero, C81_getD l c]
  · rw [if_neg (by omega), dif_neg c]

/-- **C81, the whole state.** With offset 0 and all 200 bytes `KeccakP1600_ExtractAndAddBytes` reads the lane behind the state, which is
undefined. -/
theorem C81_extract_add_200 {st : Mem U64} (hl : st.length = 25) (input output : Mem Byte) :
    extractAndAddBytes st 0 input output 0 200 = none := by
  unfold extractAndAddBytes
  rw [if_pos rfl]
  cases extractAndAddLanes st 0 input output (200 / 8) with
  | none => rfl
  | some o =>
    show extractAndAddBytesInLane st 0 25 input o 200 0 0 = none
    unfold extractAndAddBytesInLane
    have : rd st (0 + 25) = none := by
      unfold rd; rw [List.getElem?_eq_none (by omega)]; rfl
    rw [this]
    rfl

/-- A state. -/
theorem C81_ex : C81State (List.replicate 25 (some 0)) 0 (fun _ => 0) := by
  intro k hk
  refine ⟨0, ?_, fun j _ => by simp⟩
  unfold rd
  rw [Nat.zero_add, List.getElem?_replicate, if_pos hk]
  rfl

/-- Three bytes across two lanes. -/
example : ∃ st', overwriteBytes (List.replicate 25 (some 0)) 0 (ofList [1, 2, 3]) 6 3 = some st' ∧
    ∃ x y, rd st' 0 = some x ∧ rd st' 1 = some y ∧ (x >>> 56).setWidth 8 = 2#8 ∧ (y >>> 0).setWidth 8 = 3#8 ∧ (y >>> 8).setWidth 8 = 0#8 := by
  obtain ⟨st', e, _, g⟩ := C81_overwrite C81_ex [1, 2, 3] (off := 6) (by simp)
  obtain ⟨x, hx, gx⟩ := g 0 (by omega)
  obtain ⟨y, hy, gy⟩ := g 1 (by omega)
  exact ⟨st', e, x, y, hx, hy, gx 7 (by omega), gy 0 (by omega), gy 1 (by omega)⟩

/-- Part of a lane and a whole lane with zeros. -/
example : ∃ st', overwriteWithZeroes (List.replicate 25 (some 0)) 0 11 = some st' ∧ st'.length = 25 := by
  obtain ⟨st', e, g, _⟩ := C81_zeroes C81_ex (n := 11) (by omega)
  exact ⟨st', e, g.1⟩

/-- The last two bytes of the state. -/
example : ∃ o, extractAndAddBytes (List.replicate 25 (some 0)) 0 (ofList [5, 6]) (malloc 3) 198 2 = some o ∧
    rd o 1 = some 6 ∧ rd o 2 = none := by
  obtain ⟨o, e, _, g⟩ := C81_extract_add C81_ex [5, 6] (off := 198) (by simp) (by simp) (output := malloc 3) (by simp)
  exact ⟨o, e, g 1, g 2⟩

end Faest.Props
