/-
C78: the interface of KeccakHash.h computes the functions of FIPS 202 on bit strings of any length.
-/
import Verif.Proofs.KeccakHash

namespace Faest.Props
open Faest.Keccak Spec.Keccak

/-- A length in bytes which the functions accept: nothing wraps in `unsigned int`, and the length in bits is a `size_t`. -/
def C78Len (w n : Nat) : Prop := n + 200 ≤ 2 ^ 32 ∧ 8 * n < 2 ^ w

/-- **C78.** For every rate of whole bytes below 1600, every suffix `s` of at most 7 bits and every length of the hash: after updates with
whole bytes and a last one with any number `b` of bits, the hash and everything squeezed after it are the output of the sponge for
the bits taken in, followed by `s`.  No access is outside of the buffers. -/
theorem C78_sponge {w r : Nat} (hw : 32 ≤ w) (hr : 0 < r) (hr2 : r < 200) {cap n : Nat}
    (hc : 8 * r + cap = 1600) {s : List Bool} (hs : s.length ≤ 7) (chunks : List (List Byte)) (last : List Byte) {b : Nat}
    (hb : b ≤ 8 * last.length) (outs : List Nat) (h1 : ∀ c ∈ chunks, C78Len w c.length) (h2 : C78Len w (b / 8)) (h3 : C78Len w n)
    (h4 : ∀ m ∈ outs, C78Len w m) :
    ∃ hash bufs, runKeccak w ⟨8 * r, cap, 8 * n, suffixByte s⟩ chunks last b outs = some (hash, bufs) ∧
      hash.length = n ∧ bufs.map List.length = outs ∧
      hash ++ bufs.flatten = bytesOf (KECCAK cap (bitsOf chunks.flatten ++ (bitsOf last).take b ++ s) (8 * (n + outs.sum))) := by
  obtain ⟨⟨hash, bufs⟩, e, g1, g2, g3⟩ := runKeccak_ok hw hr hr2 hc hs chunks last hb outs h1 h2 h3 h4
  refine ⟨hash, bufs, e, g1, g2, ?_⟩
  unfold KECCAK
  rw [show 1600 - cap = 8 * r by omega]
  exact g3

/-- The hash alone. -/
theorem C78_hash {w r : Nat} (hw : 32 ≤ w) (hr : 0 < r) (hr2 : r < 200) {cap n : Nat}
    (hc : 8 * r + cap = 1600) {s : List Bool} (hs : s.length ≤ 7) (chunks : List (List Byte)) (last : List Byte) {b : Nat}
    (hb : b ≤ 8 * last.length) (h1 : ∀ c ∈ chunks, C78Len w c.length) (h2 : C78Len w (b / 8)) (h3 : C78Len w n) :
    runKeccak w ⟨8 * r, cap, 8 * n, suffixByte s⟩ chunks last b [] =
      some (bytesOf (KECCAK cap (bitsOf chunks.flatten ++ (bitsOf last).take b ++ s) (8 * n)), []) := by
  obtain ⟨hash, bufs, e, _, g2, g3⟩ := C78_sponge hw hr hr2 hc hs chunks last hb [] h1 h2 h3 (by simp)
  have hbufs : bufs = [] := by simpa using g2
  subst hbufs
  rw [e]
  simp only [List.flatten_nil, List.append_nil, List.sum_nil, Nat.add_zero] at g3
  rw [g3]

theorem C78_len {w n : Nat} (hw : 32 ≤ w) (h : n ≤ 64) : C78Len w n := by
  have : 2 ^ 32 ≤ 2 ^ w := Nat.pow_le_pow_right (by omega) hw
  unfold C78Len
  omega

/-- **C78, SHA3.** With the arguments of the macros of KeccakHash.h the hash is SHA3-224, SHA3-256, SHA3-384 and SHA3-512 of the
bits taken in. -/
theorem C78_sha3 {w : Nat} (hw : 32 ≤ w) (chunks : List (List Byte)) (last : List Byte) {b : Nat} (hb : b ≤ 8 * last.length)
    (h1 : ∀ c ∈ chunks, C78Len w c.length) (h2 : C78Len w (b / 8)) :
    runKeccak w paramsSHA3_224 chunks last b [] = some (bytesOf (SHA3_224 (bitsOf chunks.flatten ++ (bitsOf last).take b)), []) ∧
    runKeccak w paramsSHA3_256 chunks last b [] = some (bytesOf (SHA3_256 (bitsOf chunks.flatten ++ (bitsOf last).take b)), []) ∧
    runKeccak w paramsSHA3_384 chunks last b [] = some (bytesOf (SHA3_384 (bitsOf chunks.flatten ++ (bitsOf last).take b)), []) ∧
    runKeccak w paramsSHA3_512 chunks last b [] = some (bytesOf (SHA3_512 (bitsOf chunks.flatten ++ (bitsOf last).take b)), []) := by
  have e : (0x06 : Byte) = suffixByte [false, true] := by decide
  refine ⟨?_, ?_, ?_, ?_⟩
  · unfold paramsSHA3_224; rw [e]
    exact C78_hash hw (r := 144) (cap := 448) (n := 28) (by omega) (by omega) rfl (by decide) chunks last hb h1 h2 (C78_len hw (by omega))
  · unfold paramsSHA3_256; rw [e]
    exact C78_hash hw (r := 136) (cap := 512) (n := 32) (by omega) (by omega) rfl (by decide) chunks last hb h1 h2 (C78_len hw (by omega))
  · unfold paramsSHA3_384; rw [e]
    exact C78_hash hw (r := 104) (cap := 768) (n := 48) (by omega) (by omega) rfl (by decide) chunks last hb h1 h2 (C78_len hw (by omega))
  · unfold paramsSHA3_512; rw [e]
    exact C78_hash hw (r := 72) (cap := 1024) (n := 64) (by omega) (by omega) rfl (by decide) chunks last hb h1 h2 (C78_len hw (by omega))

/-- **C78, SHAKE.** With the arguments of the other two macros what is squeezed is SHAKE128 and SHAKE256 of the bits taken in. -/
theorem C78_shake {w : Nat} (hw : 32 ≤ w) (chunks : List (List Byte)) (last : List Byte) {b : Nat} (hb : b ≤ 8 * last.length)
    (outs : List Nat) (h1 : ∀ c ∈ chunks, C78Len w c.length) (h2 : C78Len w (b / 8)) (h4 : ∀ m ∈ outs, C78Len w m) :
    (∃ bufs, runKeccak w paramsSHAKE128 chunks last b outs = some ([], bufs) ∧ bufs.map List.length = outs ∧
      bufs.flatten = bytesOf (SHAKE128 (bitsOf chunks.flatten ++ (bitsOf last).take b) (8 * outs.sum))) ∧
    (∃ bufs, runKeccak w paramsSHAKE256 chunks last b outs = some ([], bufs) ∧ bufs.map List.length = outs ∧
      bufs.flatten = bytesOf (SHAKE256 (bitsOf chunks.flatten ++ (bitsOf last).take b) (8 * outs.sum))) := by
  have e : (0x1F : Byte) = suffixByte [true, true, true, true] := by decide
  have h3 : C78Len w 0 := C78_len hw (by omega)
  constructor
  · obtain ⟨hash, bufs, g0, g1, g2, g3⟩ := C78_sponge hw (r := 168) (cap := 256) (n := 0) (by omega) (by omega) rfl
      (s := [true, true, true, true]) (by decide) chunks last hb outs h1 h2 h3 h4
    obtain rfl := List.length_eq_zero_iff.1 g1
    refine ⟨bufs, ?_, g2, ?_⟩
    · unfold paramsSHAKE128; rw [e]; exact g0
    · rw [List.nil_append, Nat.zero_add] at g3; exact g3
  · obtain ⟨hash, bufs, g0, g1, g2, g3⟩ := C78_sponge hw (r := 136) (cap := 512) (n := 0) (by omega) (by omega) rfl
      (s := [true, true, true, true]) (by decide) chunks last hb outs h1 h2 h3 h4
    obtain rfl := List.length_eq_zero_iff.1 g1
    refine ⟨bufs, ?_, g2, ?_⟩
    · unfold paramsSHAKE256; rw [e]; exact g0
    · rw [List.nil_append, Nat.zero_add] at g3; exact g3

/-- **C78, initialisation.** For arguments of type `unsigned int` and `unsigned char`, `Keccak_HashInitialize` always returns, and
it succeeds exactly if the suffix is not zero, rate and capacity together are 1600, and the rate is a positive number of whole
bytes. -/
theorem C78_initialize {ctx : HashInstance} (hl : ctx.sponge.state.length = 25) {rate cap : Nat} (h1 : rate < 2 ^ 32)
    (h2 : cap < 2 ^ 32) (n : Nat) (D : Byte) :
    ∃ ctx' ok, hashInitialize ctx rate cap n D = some (ctx', ok) ∧
      (ok = true ↔ D ≠ 0 ∧ rate + cap = 1600 ∧ 0 < rate ∧ rate % 8 = 0) := by
  by_cases hD : D = 0
  · refine ⟨ctx, false, ?_, by simp [hD]⟩
    unfold hashInitialize
    rw [if_pos hD]
  by_cases hs : uint (rate + cap) = 1600
  · by_cases hr : rate = 0 ∨ rate > 1600 ∨ rate % 8 ≠ 0
    · refine ⟨{ ctx with sponge := ctx.sponge }, false, ?_, ?_⟩
      · unfold hashInitialize spongeInitialize
        rw [if_neg hD, if_neg (by simp [hs]), if_pos hr]
        rfl
      · simp only [Bool.false_eq_true, false_iff]
        omega
    · have hsum : rate + cap = 1600 := by unfold uint at hs; omega
      obtain ⟨⟨sp, ok⟩, e, rfl, _⟩ := spongeInit_ok hl (r := rate / 8) (cap := cap) (by omega) (by omega) (by omega)
      rw [show 8 * (rate / 8) = rate by omega] at e
      refine ⟨⟨sp, n, D⟩, true, ?_, ?_⟩
      · unfold hashInitialize
        rw [if_neg hD, e]
        rfl
      · simp only [true_iff]
        exact ⟨hD, by omega⟩
  · refine ⟨{ ctx with sponge := ctx.sponge }, false, ?_, ?_⟩
    · unfold hashInitialize spongeInitialize
      rw [if_neg hD, if_pos (by simpa using hs)]
      rfl
    · simp only [Bool.false_eq_true, false_iff]
      rintro ⟨_, h, _⟩
      rw [h] at hs
      exact hs rfl

/-- **C78, the rate 1600.** `Keccak_HashInitialize` accepts the rate 1600 and capacity 0, too, but then the first squeeze of a block
or more is undefined: `KeccakP1600_ExtractBytesInLane` reads the lane behind the last one of the state. -/
theorem C78_rate_1600 {w n : Nat} (hn : 200 ≤ n) (h : C78Len w n) (hw : 32 ≤ w) {inst : SpongeInstance} (hl : inst.state.length = 25)
    (hr : inst.rate = 1600) (hi : inst.byteIOIndex = 0) (hq : inst.squeezing = true) (data : Mem Byte) :
    spongeSqueeze w inst data n = none := by
  have h32 : 2 ^ 32 ≤ 2 ^ w := Nat.pow_le_pow_right (by omega) hw
  have hpb : partialBlock 200 0 (n - 0) = 200 := by
    rw [partialBlock_eq (by omega) (by omega) (Or.inl (by have := h.1; omega))]; omega
  have hlane : extractBytesInLane inst.state 0 25 0 0 = none := by
    unfold extractBytesInLane
    have : rd inst.state (0 + 25) = none := by
      unfold rd; rw [List.getElem?_eq_none (by omega)]; rfl
    rw [this]; rfl
  have hex : extractBytes inst.state 0 data 0 0 200 = none := by
    unfold extractBytes
    rw [if_pos rfl]
    cases extractLanes inst.state 0 (200 / 8) with
    | none => rfl
    | some bs =>
      show (wrN data 0 bs >>= _) = none
      cases wrN data 0 bs with
      | none => rfl
      | some d =>
        show (extractBytesInLane inst.state 0 25 0 0 >>= _) = none
        rw [hlane]; rfl
  unfold spongeSqueeze
  rw [hq]
  simp only [if_true]
  show squeezeLoop w n (n + 1) inst data 0 = none
  unfold squeezeLoop
  dsimp only
  rw [hr, hi, if_pos (by omega), if_neg (by omega)]
  have hre : refill inst (1600 / 8) = some inst := by
    unfold refill
    rw [hi, if_neg (by omega)]; rfl
  rw [hre]
  show (extractBytes inst.state 0 data 0 inst.byteIOIndex (partialBlock 200 inst.byteIOIndex (n - 0)) >>= _) = none
  rw [hi, hpb, hex]
  rfl

/-- Such a context: after `Keccak_HashInitialize` and `Keccak_HashFinal` for the rate 1600. -/
example : ∃ ctx out, (hashInitialize hashFresh 1600 0 0 0x1F >>= fun x => hashFinalBits 64 x.1 []) = some (ctx, out) ∧
    spongeSqueeze 64 ctx.sponge (malloc 200) 200 = none := by
  obtain ⟨⟨c, ok⟩, e, _, g⟩ := initialize_ok (ctx := hashFresh) (by simp [hashFresh]) (r := 200) (by omega) (by omega) (cap := 0) rfl 0
    (s := [true, true, true, true]) (by decide)
  rw [show suffixByte [true, true, true, true] = 0x1F by decide] at e
  obtain ⟨⟨sp, ok2⟩, e2, rfl, g2, g3⟩ := spongeLastG_ok (r := 200) (by omega) (by omega) g.sp (b := 0x1F) (by decide)
  have hs : c.delimitedSuffix = 0x1F := g.suffix
  have e3 : spongeSqueeze 64 sp [] 0 = some (sp, []) := by
    unfold spongeSqueeze
    rw [g3.sq]
    rfl
  refine ⟨{ c with sponge := sp }, [], ?_, C78_rate_1600 (by omega) (by simp [C78Len]) (by omega) g3.len g3.rate g2 g3.sq _⟩
  rw [e]
  show hashFinalBits 64 c [] = _
  unfold hashFinalBits
  rw [hs, e2, g.fixed]
  show (spongeSqueeze 64 sp [] 0 >>= _) = _
  rw [e3]
  rfl

/-- A rate which is not a whole number of lanes, and a message of several blocks. -/
example : runKeccak 64 ⟨8 * 20, 1440, 8 * 50, suffixByte [true, false]⟩ [List.replicate 30 1, List.replicate 45 2] [3] 1 [] =
    some (bytesOf (KECCAK 1440 (bitsOf [List.replicate 30 1, List.replicate 45 2].flatten ++ (bitsOf [3]).take 1 ++ [true, false]) (8 * 50)), []) :=
  C78_hash (w := 64) (by omega) (r := 20) (by omega) (by omega) rfl (by decide) _ _ (by simp) (by simp [C78Len])
    (C78_len (by omega) (by omega)) (C78_len (by omega) (by omega))

/-- The message of 5 bits of the examples of NIST, `11001`. -/
example : runKeccak 64 paramsSHA3_256 [] [0x13] 5 [] = some (bytesOf (SHA3_256 [true, true, false, false, true]), []) := by
  have h := (C78_sha3 (w := 64) (by omega) [] [0x13] (b := 5) (by simp) (by simp) (C78_len (by omega) (by omega))).2.1
  rwa [show bitsOf ([] : List (List Byte)).flatten ++ (bitsOf [0x13]).take 5 = [true, true, false, false, true] by decide] at h

/-- The bits of the last byte which are not part of the message do not matter. -/
example : runKeccak 64 paramsSHA3_512 [[1, 2, 3]] [0xF3] 5 [] = runKeccak 64 paramsSHA3_512 [[1], [2, 3]] [0x13] 5 [] := by
  rw [(C78_sha3 (w := 64) (by omega) [[1, 2, 3]] [0xF3] (b := 5) (by simp) (by simp [C78Len]) (C78_len (by omega) (by omega))).2.2.2,
    (C78_sha3 (w := 64) (by omega) [[1], [2, 3]] [0x13] (b := 5) (by simp) (by simp [C78Len]) (C78_len (by omega) (by omega))).2.2.2,
    show (bitsOf [0xF3]).take 5 = (bitsOf [0x13]).take 5 by decide]
  rfl

/-- A message which ends 3 bits before the end of the block of SHAKE256: the suffix, the first bit of the padding and the message
fill the block, and another block is needed. -/
example : ∃ bufs, runKeccak 32 paramsSHAKE256 [List.replicate 135 7] [0x05] 3 [10, 200] = some ([], bufs) ∧
    bufs.map List.length = [10, 200] ∧
    bufs.flatten = bytesOf (SHAKE256 (bitsOf (List.replicate 135 7) ++ [true, false, true]) (8 * 210)) := by
  have hl : (List.replicate 135 (7 : Byte)).length = 135 := List.length_replicate ..
  generalize List.replicate 135 (7 : Byte) = M at hl ⊢
  have h := (C78_shake (w := 32) (by omega) [M] [0x05] (b := 3) (by simp) [10, 200] (by simp [C78Len, hl])
    (C78_len (by omega) (by omega)) (by simp [C78Len])).2
  rwa [show (bitsOf [0x05]).take 3 = [true, false, true] by decide, List.flatten_singleton] at h

/-- The suffix of 7 bits after a message of 6 bits: a byte more is taken in. -/
example : runKeccak 64 ⟨1088, 512, 256, suffixByte [true, false, true, false, true, false, true]⟩ [] [0x2A] 6 [] =
    some (bytesOf (KECCAK 512 [false, true, false, true, false, true, true, false, true, false, true, false, true] 256), []) :=
  C78_hash (w := 64) (by omega) (r := 136) (n := 32) (by omega) (by omega) rfl (by decide) [] [0x2A] (b := 6) (by simp) (by simp)
    (C78_len (by omega) (by omega)) (C78_len (by omega) (by omega))

end Faest.Props
