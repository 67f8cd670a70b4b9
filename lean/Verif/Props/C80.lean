/-
C80: the interface of KeccakHashtimes4.h computes four hashes of FIPS 202 at once.
-/
import Verif.Proofs.KeccakHashX4
import Verif.Props.C78

namespace Faest.Props
open Faest.Keccak Spec.Keccak

/-- A list of updates which the functions accept: each with four inputs of the given length. -/
def C80Chunks (w : Nat) (chunks : List (Nat × (Nat → List Byte))) : Prop :=
  ∀ c ∈ chunks, C78Len w c.1 ∧ ∀ k, k < 4 → (c.2 k).length = c.1

/-- The bits of message `k`. -/
def C80Msg (chunks : List (Nat × (Nat → List Byte))) (k : Nat) : List Bool := bitsOf (chunks.map (fun c => c.2 k)).flatten

/-- **C80.** For every rate of whole bytes below 1600, every suffix `s` of at most 7 bits and every length of the hash: hash `k` and
everything squeezed into buffer `k` after it are the output of the sponge for message `k`, followed by `s`.  No access is outside of
the buffers. -/
theorem C80_sponge {w r : Nat} (hw : 32 ≤ w) (hr : 0 < r) (hr2 : r < 200) {cap n : Nat} (hc : 8 * r + cap = 1600)
    {s : List Bool} (hs : s.length ≤ 7) {chunks : List (Nat × (Nat → List Byte))} (outs : List Nat) (h1 : C80Chunks w chunks)
    (h2 : C78Len w n) (h3 : ∀ m ∈ outs, C78Len w m) :
    ∃ hashes bufs, runKeccakX4 w ⟨8 * r, cap, 8 * n, suffixByte s⟩ chunks outs = some (hashes, bufs) ∧ hashes.length = 4 ∧
      (∀ y ∈ bufs, y.length = 4) ∧ ∀ k, k < 4 → (hashes.getD k []).length = n ∧ bufs.map (fun y => (y.getD k []).length) = outs ∧
        hashes.getD k [] ++ (bufs.map (fun y => y.getD k [])).flatten =
          bytesOf (KECCAK cap (C80Msg chunks k ++ s) (8 * (n + outs.sum))) := by
  obtain ⟨⟨hashes, bufs⟩, e, g1, g2, g3⟩ := runKeccakX4_ok hw hr hr2 hc hs chunks outs h1 h2 h3
  refine ⟨hashes, bufs, e, g1, g2, ?_⟩
  unfold KECCAK C80Msg
  rw [show 1600 - cap = 8 * r by omega]
  exact g3

/-- The hashes alone. -/
theorem C80_hash {w r : Nat} (hw : 32 ≤ w) (hr : 0 < r) (hr2 : r < 200) {cap n : Nat} (hc : 8 * r + cap = 1600)
    {s : List Bool} (hs : s.length ≤ 7) {chunks : List (Nat × (Nat → List Byte))} (h1 : C80Chunks w chunks) (h2 : C78Len w n) :
    ∃ hashes, runKeccakX4 w ⟨8 * r, cap, 8 * n, suffixByte s⟩ chunks [] = some (hashes, []) ∧ hashes.length = 4 ∧
      ∀ k, k < 4 → hashes[k]? = some (bytesOf (KECCAK cap (C80Msg chunks k ++ s) (8 * n))) := by
  obtain ⟨hashes, bufs, e, g1, _, g3⟩ := C80_sponge hw hr hr2 hc hs [] h1 h2 (by simp)
  have hb : bufs = [] := by simpa using (g3 0 (by omega)).2.1
  subst hb
  refine ⟨hashes, e, g1, ?_⟩
  intro k hk
  have h := (g3 k hk).2.2
  simp only [List.map_nil, List.flatten_nil, List.append_nil, List.sum_nil, Nat.add_zero] at h
  rw [← h, List.getD_eq_getElem?_getD, List.getElem?_eq_getElem (by omega)]
  rfl

/-- **C80, SHA3.** With the arguments of the macros of KeccakHashtimes4.h the hashes are SHA3-224, SHA3-256, SHA3-384 and SHA3-512 of the
four messages. -/
theorem C80_sha3 {w : Nat} (hw : 32 ≤ w) {chunks : List (Nat × (Nat → List Byte))} (h1 : C80Chunks w chunks) :
    (∃ hs, runKeccakX4 w paramsSHA3_224 chunks [] = some (hs, []) ∧ hs.length = 4 ∧ ∀ k, k < 4 → hs[k]? = some (bytesOf (SHA3_224 (C80Msg chunks k)))) ∧
    (∃ hs, runKeccakX4 w paramsSHA3_256 chunks [] = some (hs, []) ∧ hs.length = 4 ∧ ∀ k, k < 4 → hs[k]? = some (bytesOf (SHA3_256 (C80Msg chunks k)))) ∧
    (∃ hs, runKeccakX4 w paramsSHA3_384 chunks [] = some (hs, []) ∧ hs.length = 4 ∧ ∀ k, k < 4 → hs[k]? = some (bytesOf (SHA3_384 (C80Msg chunks k)))) ∧
    (∃ hs, runKeccakX4 w paramsSHA3_512 chunks [] = some (hs, []) ∧ hs.length = 4 ∧ ∀ k, k < 4 → hs[k]? = some (bytesOf (SHA3_512 (C80Msg chunks k)))) := by
  have e : (0x06 : Byte) = suffixByte [false, true] := by decide
  refine ⟨?_, ?_, ?_, ?_⟩
  · unfold paramsSHA3_224; rw [e]
    exact C80_hash hw (r := 144) (cap := 448) (n := 28) (by omega) (by omega) rfl (by decide) h1 (C78_len hw (by omega))
  · unfold paramsSHA3_256; rw [e]
    exact C80_hash hw (r := 136) (cap := 512) (n := 32) (by omega) (by omega) rfl (by decide) h1 (C78_len hw (by omega))
  · unfold paramsSHA3_384; rw [e]
    exact C80_hash hw (r := 104) (cap := 768) (n := 48) (by omega) (by omega) rfl (by decide) h1 (C78_len hw (by omega))
  · unfold paramsSHA3_512; rw [e]
    exact C80_hash hw (r := 72) (cap := 1024) (n := 64) (by omega) (by omega) rfl (by decide) h1 (C78_len hw (by omega))

/-- **C80, SHAKE.** With the arguments of the other two macros what is squeezed into buffer `k` is SHAKE128 and SHAKE256 of message `k`. -/
theorem C80_shake {w : Nat} (hw : 32 ≤ w) {chunks : List (Nat × (Nat → List Byte))} (outs : List Nat) (h1 : C80Chunks w chunks)
    (h3 : ∀ m ∈ outs, C78Len w m) :
    (∃ hashes bufs, runKeccakX4 w paramsSHAKE128 chunks outs = some (hashes, bufs) ∧ (∀ y ∈ bufs, y.length = 4) ∧
      ∀ k, k < 4 → bufs.map (fun y => (y.getD k []).length) = outs ∧
        (bufs.map (fun y => y.getD k [])).flatten = bytesOf (SHAKE128 (C80Msg chunks k) (8 * outs.sum))) ∧
    (∃ hashes bufs, runKeccakX4 w paramsSHAKE256 chunks outs = some (hashes, bufs) ∧ (∀ y ∈ bufs, y.length = 4) ∧
      ∀ k, k < 4 → bufs.map (fun y => (y.getD k []).length) = outs ∧
        (bufs.map (fun y => y.getD k [])).flatten = bytesOf (SHAKE256 (C80Msg chunks k) (8 * outs.sum))) := by
  have e : (0x1F : Byte) = suffixByte [true, true, true, true] := by decide
  have h2 : C78Len w 0 := C78_len hw (by omega)
  constructor
  · obtain ⟨hashes, bufs, g0, _, g2, g3⟩ := C80_sponge hw (r := 168) (cap := 256) (n := 0) (by omega) (by omega) rfl
      (s := [true, true, true, true]) (by decide) outs h1 h2 h3
    refine ⟨hashes, bufs, by unfold paramsSHAKE128; rw [e]; exact g0, g2, fun k hk => ⟨(g3 k hk).2.1, ?_⟩⟩
    obtain ⟨a, _, c⟩ := g3 k hk
    rw [List.length_eq_zero_iff.1 a, List.nil_append, Nat.zero_add] at c
    exact c
  · obtain ⟨hashes, bufs, g0, _, g2, g3⟩ := C80_sponge hw (r := 136) (cap := 512) (n := 0) (by omega) (by omega) rfl
      (s := [true, true, true, true]) (by decide) outs h1 h2 h3
    refine ⟨hashes, bufs, by unfold paramsSHAKE256; rw [e]; exact g0, g2, fun k hk => ⟨(g3 k hk).2.1, ?_⟩⟩
    obtain ⟨a, _, c⟩ := g3 k hk
    rw [List.length_eq_zero_iff.1 a, List.nil_append, Nat.zero_add] at c
    exact c

/-- **C80, against the interface for one message.** Hash `k` is what `Keccak_HashInitialize`, updates with the inputs `k` and
`Keccak_HashFinal` give. -/
theorem C80_agrees {w r : Nat} (hw : 32 ≤ w) (hr : 0 < r) (hr2 : r < 200) {cap n : Nat} (hc : 8 * r + cap = 1600)
    {s : List Bool} (hs : s.length ≤ 7) {chunks : List (Nat × (Nat → List Byte))} (h1 : C80Chunks w chunks) (h2 : C78Len w n) :
    ∃ hashes, runKeccakX4 w ⟨8 * r, cap, 8 * n, suffixByte s⟩ chunks [] = some (hashes, []) ∧ hashes.length = 4 ∧
      ∀ k, k < 4 → ∃ h, hashes[k]? = some h ∧
        runKeccak w ⟨8 * r, cap, 8 * n, suffixByte s⟩ (chunks.map (fun c => c.2 k)) [] 0 [] = some (h, []) := by
  obtain ⟨hashes, e, l, g⟩ := C80_hash hw hr hr2 hc hs h1 h2
  refine ⟨hashes, e, l, fun k hk => ⟨_, g k hk, ?_⟩⟩
  rw [C78_hash hw hr hr2 hc hs (chunks.map (fun c => c.2 k)) [] (b := 0) (by simp) ?_ (C78_len hw (by omega)) h2]
  · rw [List.take_zero, List.append_nil]; rfl
  · intro c hc'
    obtain ⟨x, hx, rfl⟩ := List.mem_map.1 hc'
    have := h1 x hx
    rw [this.2 k hk]
    exact this.1

/-- **C80, inputs which are not whole bytes.** Unlike `Keccak_HashUpdate`, the function for four inputs refuses them, and the
context stays as it is. -/
theorem C80_bits (w : Nat) (ctx : HashInstance) (data : Nat → Mem Byte) {b : Nat} (hb : b % 8 ≠ 0) :
    hashUpdateBitsX4 w ctx data b = some (ctx, false) := by
  unfold hashUpdateBitsX4
  rw [if_pos hb]

/-- **C80, initialisation.** `Keccak_HashInitializetimes4` always returns, and it succeeds for the same arguments as
`Keccak_HashInitialize`. -/
theorem C80_initialize {ctx : HashInstance} (hl : ctx.sponge.state.length = 100) {rate cap : Nat} (h1 : rate < 2 ^ 32)
    (h2 : cap < 2 ^ 32) (n : Nat) (D : Byte) :
    ∃ ctx' ok, hashInitializeX4 ctx rate cap n D = some (ctx', ok) ∧
      (ok = true ↔ D ≠ 0 ∧ rate + cap = 1600 ∧ 0 < rate ∧ rate % 8 = 0) := by
  unfold hashInitializeX4
  by_cases hD : D = 0
  · exact ⟨ctx, false, by rw [if_pos hD], by simp [hD]⟩
  rw [if_neg hD]
  unfold spongeInitializeX4
  by_cases hs : uint (rate + cap) = 1600
  · by_cases hr : rate = 0 ∨ rate > 1600 ∨ rate % 8 ≠ 0
    · refine ⟨ctx, false, ?_, ?_⟩
      · rw [if_neg (by simp [hs]), if_pos hr]; rfl
      · simp only [Bool.false_eq_true, false_iff]
        omega
    · have hsum : rate + cap = 1600 := by unfold uint at hs; omega
      obtain ⟨st, e, _⟩ := initializeAll_ok hl
      refine ⟨_, true, by rw [if_neg (by simp [hs]), if_neg hr, e]; rfl, ?_⟩
      simp only [true_iff]
      exact ⟨hD, by omega⟩
  · refine ⟨ctx, false, ?_, ?_⟩
    · rw [if_pos (by simpa using hs)]; rfl
    · simp only [Bool.false_eq_true, false_iff]
      rintro ⟨_, h, _⟩
      rw [h] at hs
      exact hs rfl

/-- Accepted and refused arguments. -/
example : (∃ c, hashInitializeX4 hashFreshX4 1088 512 256 0x06 = some (c, true)) ∧
    (∃ c, hashInitializeX4 hashFreshX4 1089 511 256 0x06 = some (c, false)) := by
  obtain ⟨c, ok, e, g⟩ := C80_initialize (ctx := hashFreshX4) (by simp [hashFreshX4]) (rate := 1088) (cap := 512) (by omega) (by omega) 256 0x06
  obtain ⟨c', ok', e', g'⟩ := C80_initialize (ctx := hashFreshX4) (by simp [hashFreshX4]) (rate := 1089) (cap := 511) (by omega) (by omega) 256 0x06
  refine ⟨⟨c, ?_⟩, ⟨c', ?_⟩⟩
  · rw [e, g.2 ⟨by decide, rfl, by omega, rfl⟩]
  · cases ok' with
    | false => exact e'
    | true => have := (g'.1 rfl).2.2.2; omega

/-- Four different messages in two updates. -/
example : ∃ hs, runKeccakX4 64 paramsSHA3_256 [(2, fun k => [BitVec.ofNat 8 k, 7]), (1, fun k => [BitVec.ofNat 8 (9 * k)])] [] = some (hs, []) ∧
    hs[0]? = some (bytesOf (SHA3_256 (bitsOf [0, 7, 0]))) ∧ hs[3]? = some (bytesOf (SHA3_256 (bitsOf [3, 7, 27]))) := by
  obtain ⟨hs, e, _, g⟩ := (C80_sha3 (w := 64) (by omega)
    (chunks := [(2, fun k => [BitVec.ofNat 8 k, 7]), (1, fun k => [BitVec.ofNat 8 (9 * k)])]) (by simp [C80Chunks, C78Len])).2.1
  exact ⟨hs, e, g 0 (by omega), g 3 (by omega)⟩

/-- Two squeezes of SHAKE128, across a block. -/
example : ∃ hashes bufs, runKeccakX4 64 paramsSHAKE128 [(1, fun k => [BitVec.ofNat 8 k])] [100, 200] = some (hashes, bufs) ∧
    (bufs.map (fun y => y.getD 2 [])).flatten = bytesOf (SHAKE128 (bitsOf [2]) (8 * 300)) := by
  obtain ⟨hashes, bufs, e, _, g⟩ := (C80_shake (w := 64) (by omega) (chunks := [(1, fun k => [BitVec.ofNat 8 k])]) [100, 200]
    (by simp [C80Chunks, C78Len]) (by simp [C78Len])).1
  exact ⟨hashes, bufs, e, (g 2 (by omega)).2⟩

/-- A rate which is not a whole number of lanes, and a suffix of 7 bits which ends the block. -/
example : ∃ hs, runKeccakX4 32 ⟨8 * 20, 1440, 8 * 50, suffixByte [true, false, true, false, true, false, true]⟩
      [(19, fun k => List.replicate 19 (BitVec.ofNat 8 k))] [] = some (hs, []) ∧ hs.length = 4 := by
  obtain ⟨hs, e, l, _⟩ := C80_hash (w := 32) (by omega) (r := 20) (cap := 1440) (n := 50) (by omega) (by omega) rfl
    (s := [true, false, true, false, true, false, true]) (by decide)
    (chunks := [(19, fun k => List.replicate 19 (BitVec.ofNat 8 k))]) (by simp [C80Chunks, C78Len]) (C78_len (by omega) (by omega))
  exact ⟨hs, e, l⟩

end Faest.Props
