/-
C71: sha3/s390_cpacf.h, SHAKE with the instructions KIMD and KLMD.
-/
import Verif.Proofs.S390

namespace Faest.Props
open Faest.S390
open Spec.Keccak (shake shakeX bitsOf pad101)

section
variable {I : Cpacf} (hI : I.Ok) {c : Ctx} (hp : c.param.length = 200) (hd : c.dataBlock.length = 168)
include hI hp hd

/-- **C71, a block of output.** A context with any contents; input in any number of pieces, output in any number of
pieces of no more than a block in total: no access outside of the context and the buffers, and the output is SHAKE of the
concatenated input. -/
theorem C71_block (sel : Nat) (chunks : List (List Byte)) (outs : List Nat)
    (ho : outs.sum ≤ if sel = 128 then 168 else 136) :
    ∃ parts, runHash I c sel chunks outs = some parts ∧ parts.map List.length = outs ∧
      parts.flatten = shake sel chunks.flatten outs.sum :=
  runHash_ok hI hp hd sel chunks outs ho

/-- **C71, oracles.** The outputs of random_oracle.c with the lengths used in FAEST, except for the first challenge with
security parameter 256 (faest.c:220), which has 168 bytes, more than a block. -/
theorem C71_oracles (lambda : Nat) (hl : lambda = 128 ∨ lambda = 192 ∨ lambda = 256) (chunks : List (List Byte)) :
    runHash I c (hashSel lambda) (chunks ++ [[0]]) [lambda / 8, lambda / 8 * 2]
        = some [(H0 shakeX lambda chunks.flatten (lambda / 8) (lambda / 8 * 2)).1,
            (H0 shakeX lambda chunks.flatten (lambda / 8) (lambda / 8 * 2)).2] ∧
      runHash I c (hashSel lambda) (chunks ++ [[1]]) [lambda / 8 * 2] = some [H1 shakeX lambda chunks.flatten (lambda / 8 * 2)] ∧
      (∀ n, n = lambda / 8 ∨ n = 3 * (lambda / 8) + 8 ∨ (n = 5 * (lambda / 8) + 8 ∧ lambda ≠ 256) →
        runHash I c (hashSel lambda) (chunks ++ [[2]]) [n] = some [H2 shakeX lambda chunks.flatten n]) ∧
      runHash I c (hashSel lambda) (chunks ++ [[3]]) [lambda / 8, 16]
        = some [(H3 shakeX lambda chunks.flatten (lambda / 8)).1, (H3 shakeX lambda chunks.flatten (lambda / 8)).2] := by
  have hf : ∀ x : Byte, (chunks ++ [[x]]).flatten = chunks.flatten ++ [x] := by intro x; simp
  have one : ∀ (x : Byte) (n : Nat), n ≤ rate (hashSel lambda) →
      runHash I c (hashSel lambda) (chunks ++ [[x]]) [n] = some [squeeze shakeX (hashSel lambda) (chunks.flatten ++ [x]) 0 n] := by
    intro x n hn
    obtain ⟨parts, h1, h2, h3⟩ := runHash_ok hI hp hd (hashSel lambda) (chunks ++ [[x]]) [n] (by simpa using hn)
    rw [h1]
    rw [hf, Keccak.shake_eq_X] at h3
    match parts, h2, h3 with
    | [a], _, h3 =>
      simp only [List.flatten_cons, List.flatten_nil, List.append_nil, List.sum_cons, List.sum_nil, Nat.add_zero] at h3
      rw [h3]
      simp only [squeeze, Nat.zero_add]
  have two : ∀ (x : Byte) (n m : Nat), n + m ≤ rate (hashSel lambda) →
      runHash I c (hashSel lambda) (chunks ++ [[x]]) [n, m] = some [squeeze shakeX (hashSel lambda) (chunks.flatten ++ [x]) 0 n,
        squeeze shakeX (hashSel lambda) (chunks.flatten ++ [x]) n m] := by
    intro x n m hn
    obtain ⟨parts, h1, h2, h3⟩ := runHash_ok hI hp hd (hashSel lambda) (chunks ++ [[x]]) [n, m] (by simpa using hn)
    rw [h1]
    rw [hf, Keccak.shake_eq_X] at h3
    match parts, h2, h3 with
    | [a, b], h2, h3 =>
      simp only [List.flatten_cons, List.flatten_nil, List.append_nil, List.sum_cons, List.sum_nil, Nat.add_zero] at h3
      simp only [List.map_cons, List.map_nil, List.cons.injEq, and_true] at h2
      rw [tabP_add] at h3
      obtain ⟨rfl, rfl⟩ := List.append_inj h3 (by rw [h2.1, tabP_length])
      simp only [squeeze, Nat.zero_add]
  have e1 : rate (hashSel 128) = 168 := rfl
  have e2 : rate (hashSel 192) = 136 := rfl
  have e3 : rate (hashSel 256) = 136 := rfl
  refine ⟨two 0 _ _ ?_, one 1 _ ?_, fun n hn => one 2 n ?_, two 3 _ _ ?_⟩ <;>
    rcases hl with rfl | rfl | rfl <;> simp only [e1, e2, e3] <;> omega

/-- **C71, beyond a block.** If KLMD leaves the state in the parameter block, then the second block of output is not the
second block of the stream: `hash_squeeze_kmld` (:85-87) uses KLMD with the same function code as `hash_final`, and so the
state is closed a second time.  The bytes are those of SHAKE for the input followed by its own padding. -/
theorem C71_second (hk : I.Keeps) (sel : Nat) (chunks : List (List Byte)) (pad : List Byte)
    (hpad : bitsOf pad = [true, true, true, true] ++ pad101 (8 * rate sel) (8 * chunks.flatten.length + 4)) (n : Nat)
    (h1 : rate sel < n) (h2 : n ≤ 2 * rate sel) :
    runHash I c sel chunks [n]
      = some [shake sel chunks.flatten (rate sel) ++ shake sel (chunks.flatten ++ pad) (n - rate sel)] :=
  runHash_second hI hk hp hd sel chunks hpad h1 h2

/-- **C71, beyond a block, wrong.** For instance for SHAKE256 of the empty string: byte 136 is 0x5A instead of 0x94. -/
theorem C71_second_wrong (hk : I.Keeps) : runHash I c 256 [] [137] ≠ some [shake 256 [] 137] := by
  have hpad : bitsOf (0x1F#8 :: (List.replicate 134 0 ++ [0x80#8])) =
      [true, true, true, true] ++ pad101 (8 * rate 256) (8 * ([] : List (List Byte)).flatten.length + 4) := by
    have := Keccak.pad_eq (r := 136) (m := 0) (by omega)
    rw [show Keccak.padBytes (136 - 0 % 136) = 0x1F#8 :: (List.replicate 134 0 ++ [0x80#8]) by
      unfold Keccak.padBytes; rfl] at this
    exact this.symm
  rw [C71_second hI hp hd hk 256 [] _ hpad 137 (by decide) (by decide)]
  intro h
  have h' : shake 256 [] 136 ++ shake 256 (0x1F#8 :: (List.replicate 134 0 ++ [0x80#8])) 1 = shake 256 [] 137 :=
    (List.cons.inj (Option.some.inj h)).1
  obtain ⟨p1, a1, -, c1⟩ := Keccak.runHash_ok (w := 64) (by omega) 256 [] [137] (by simp) (by unfold Keccak.Small; decide)
  obtain ⟨p2, a2, -, c2⟩ := Keccak.runHash_ok (w := 64) (by omega) 256 [0x1F#8 :: (List.replicate 134 0 ++ [0x80#8])] [1]
    (by
      intro c hc
      rw [List.mem_singleton] at hc
      subst hc
      exact Keccak.small_of_lt (by omega) (by rw [List.length_cons, List.length_append, List.length_replicate]; decide))
    (by unfold Keccak.Small; decide)
  have e1 : (Keccak.runHash 64 256 [] [137]).map (fun p => p.flatten[136]?) = some (some 0x94#8) := by decide +kernel
  have e2 : Keccak.runHash 64 256 [0x1F#8 :: (List.replicate 134 0 ++ [0x80#8])] [1] = some [[0x5A#8]] := by decide +kernel
  rw [a1] at e1
  rw [a2] at e2
  rw [Option.some.inj e2] at c2
  have c2' : shake 256 (0x1F#8 :: (List.replicate 134 0 ++ [0x80#8])) 1 = [0x5A#8] := by
    rw [List.flatten_cons, List.flatten_nil, List.append_nil, List.flatten_cons, List.flatten_nil, List.append_nil] at c2
    exact c2.symm
  have c1' : shake 256 [] 137 = p1.flatten := c1.symm
  rw [c2', c1'] at h'
  have e3 : p1.flatten[136]? = some 0x94#8 := Option.some.inj e1
  rw [← h', List.getElem?_append_right (by rw [shake_length]), shake_length] at e3
  exact absurd e3 (by decide)

end

/-- There are such instructions, and a context on the stack: the hypotheses are met. -/
example (f b p : Nat) : ∃ parts, runHash refCpacf (fresh f b p) 128 [[1, 2], [], [3]] [16, 32] = some parts ∧
    parts.map List.length = [16, 32] ∧ parts.flatten = shake 128 [1, 2, 3] 48 :=
  C71_block ref_ok (malloc_length _) (malloc_length _) 128 _ _ (by decide)

/-- With them, a verifier elsewhere does not accept what is hashed into 137 bytes. -/
example (f b p : Nat) : runHash refCpacf (fresh f b p) 256 [] [137] ≠ some [shake 256 [] 137] :=
  C71_second_wrong ref_ok (malloc_length _) (malloc_length _) ref_keeps

/-- The first challenge with security parameter 256 is longer than a block. -/
example : 5 * (256 / 8) + 8 = 168 ∧ rate (hashSel 256) < 168 := by decide

end Faest.Props
