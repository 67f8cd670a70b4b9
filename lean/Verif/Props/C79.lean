/-
C79: the function `KeccakWidth1600_Sponge`, which does everything in one call, is the sponge of FIPS 202 for inputs and outputs of any
length.
-/
import Verif.Proofs.SpongeOnce

namespace Faest.Props
open Faest.Keccak Spec.Keccak

/-- **C79.** For every rate of whole bytes below 1600, every suffix `s` of at most 7 bits, every input and every length of the output
the function returns 0, the output is that of the sponge for the input followed by `s`, and the bytes of the buffer behind it are as
before.  There is no limit on the lengths: the defect of C46 is not in this function. -/
theorem C79_sponge {r : Nat} (hr0 : 0 < r) (hr200 : r < 200) {cap : Nat} (hc : 8 * r + cap = 1600) {s : List Bool} (hs : s.length ≤ 7)
    (M : List Byte) {output : Mem Byte} {n : Nat} (hn : n ≤ output.length) :
    ∃ out, spongeOnce (8 * r) cap (ofList M) M.length (suffixByte s) output n = some (out, 0) ∧
      rdN out 0 n = some (bytesOf (KECCAK cap (bitsOf M ++ s) (8 * n))) ∧ out.length = output.length ∧
      ∀ i, n ≤ i → rd out i = rd output i := by
  obtain ⟨⟨out, ret⟩, e, h1, h2⟩ := spongeOnce_ok hr0 hr200 hc hs (data_ofList M) hn
  dsimp only at h1 h2
  subst h1
  refine ⟨out, e, ?_, h2.len, fun i hi => (h2.rd i).trans (if_neg (by omega))⟩
  unfold KECCAK
  rw [wrote_rdN h2 hn, show 1600 - cap = 8 * r by omega, sponge_bytes hr0 (by omega) _ _ (absorb_suffix hr0 M hs)]

/-- **C79, arguments.** For arguments of type `unsigned int` and `unsigned char` which are not accepted the function returns 1 and
leaves the output alone; these are the same as for `Keccak_HashInitialize`. -/
theorem C79_arguments {rate cap : Nat} (h1 : rate < 2 ^ 32) (h2 : cap < 2 ^ 32) {D : Byte}
    (h : ¬ (D ≠ 0 ∧ rate + cap = 1600 ∧ 0 < rate ∧ rate % 8 = 0)) (input : Mem Byte) (m : Nat) (output : Mem Byte) (n : Nat) :
    spongeOnce rate cap input m D output n = some (output, 1) := by
  unfold spongeOnce
  dsimp only
  by_cases c1 : uint (rate + cap) ≠ 1600
  · rw [if_pos c1]
  rw [if_neg c1]
  by_cases c2 : rate = 0 ∨ rate > 1600 ∨ rate % 8 ≠ 0
  · rw [if_pos c2]
  rw [if_neg c2]
  by_cases c3 : D = 0
  · rw [if_pos c3]
  exfalso
  apply h
  unfold uint at c1
  exact ⟨c3, by omega⟩

/-- **C79, agreement.** The interface of KeccakHash.h gives the same hash for the same bytes, however they are cut. -/
theorem C79_agrees {w r : Nat} (hw : 32 ≤ w) (hr0 : 0 < r) (hr200 : r < 200) {cap : Nat} (hc : 8 * r + cap = 1600) {s : List Bool}
    (hs : s.length ≤ 7) (chunks : List (List Byte)) (h1 : ∀ c ∈ chunks, c.length < 2 ^ 29) {n : Nat} (hn : n < 2 ^ 29) :
    ∃ out hash, spongeOnce (8 * r) cap (ofList chunks.flatten) chunks.flatten.length (suffixByte s) (malloc n) n = some (out, 0) ∧
      rdN out 0 n = some hash ∧ runKeccak w ⟨8 * r, cap, 8 * n, suffixByte s⟩ chunks [] 0 [] = some (hash, []) := by
  obtain ⟨out, e1, e2, _⟩ := C79_sponge hr0 hr200 hc hs chunks.flatten (output := malloc n) (n := n) (by simp)
  obtain ⟨⟨hash, bufs⟩, e3, _, g2, g3⟩ := runKeccak_ok hw hr0 hr200 hc hs chunks [] (b := 0) (by simp) []
    (fun c hc => small_of_lt hw (h1 c hc)) (small_of_lt hw (by omega)) (small_of_lt hw hn) (by simp)
  have hbufs : bufs = [] := by simpa using g2
  subst hbufs
  refine ⟨out, hash, e1, ?_, e3⟩
  rw [e2]
  simp only [List.flatten_nil, List.append_nil, List.sum_nil, Nat.add_zero, List.take_zero] at g3
  rw [g3]
  unfold KECCAK
  rw [show 1600 - cap = 8 * r by omega]

/-- SHA3-256 of any input in one call; the byte behind the output stays. -/
example (M : List Byte) : ∃ out, spongeOnce 1088 512 (ofList M) M.length 0x06 (ofList (List.replicate 33 5)) 32 = some (out, 0) ∧
    rdN out 0 32 = some (bytesOf (SHA3_256 (bitsOf M))) ∧ rd out 32 = some 5 := by
  obtain ⟨out, e1, e2, _, e4⟩ := C79_sponge (r := 136) (by omega) (by omega) (cap := 512) rfl (s := [false, true]) (by decide) M
    (output := ofList (List.replicate 33 5)) (n := 32) (by simp)
  exact ⟨out, e1, e2, (e4 32 (by omega)).trans rfl⟩

/-- A suffix of 7 bits right at the end of the block, where another block is needed. -/
example : ∃ out, spongeOnce 1344 256 (ofList (List.replicate 167 9)) (List.replicate 167 (9 : Byte)).length
      (suffixByte [true, true, true, false, false, true, true]) (malloc 500) 500 = some (out, 0) ∧
    rdN out 0 500 = some (bytesOf (KECCAK 256 (bitsOf (List.replicate 167 9) ++ [true, true, true, false, false, true, true]) (8 * 500))) := by
  obtain ⟨out, e1, e2, _⟩ := C79_sponge (r := 168) (by omega) (by omega) (cap := 256) rfl
    (s := [true, true, true, false, false, true, true]) (by decide) (List.replicate 167 9) (output := malloc 500) (n := 500) (by simp)
  exact ⟨out, e1, e2⟩

/-- The suffix 0. -/
example : spongeOnce 1088 512 [] 0 0 (malloc 32) 32 = some (malloc 32, 1) :=
  C79_arguments (by omega) (by omega) (by simp) _ _ _ _

end Faest.Props
