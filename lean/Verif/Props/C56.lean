/-
C56: the field arithmetic as it stands in fields.h and fields.c, translated by tools/c2words.py
(`Model/Gen/Fields*.lean`), against polynomials over GF(2).  `GenF.S` is the build without vector
extensions, `GenF.VB` and `GenF.VF` the builds with vector extensions with and without
`__builtin_shufflevector`; `code128` … `code256be` (Proofs/Gen/Words2.lean, Words3.lean) list the
translated functions of a field on a little- and a big-endian host.
-/
import Verif.Proofs.Gen.Words4

namespace Faest.Props

open Faest.Words Faest.Spec Polynomial Faest.GenF

/-- The functions `bf128_*` of every build compute in GF(2)[X]/f, without undefined behaviour. -/
theorem C56_bf128 :
    S.code128.Correct f128 ∧ S.code128be.Correct f128 ∧
    VB.code128.Correct f128 ∧ VB.code128be.Correct f128 ∧
    VF.code128.Correct f128 ∧ VF.code128be.Correct f128 := by
  have e : fieldPoly 128 = f128 := by unfold fieldPoly; simp
  rw [← e]
  exact ⟨S.code128_correct, S.code128be_correct, VB.code128_correct, VB.code128be_correct,
    VF.code128_correct, VF.code128be_correct⟩

/-- The functions `bf192_*` of every build compute in GF(2)[X]/f, without undefined behaviour. -/
theorem C56_bf192 :
    S.code192.Correct f192 ∧ S.code192be.Correct f192 ∧
    VB.code192.Correct f192 ∧ VB.code192be.Correct f192 ∧
    VF.code192.Correct f192 ∧ VF.code192be.Correct f192 := by
  have e : fieldPoly 192 = f192 := by unfold fieldPoly; simp
  rw [← e]
  exact ⟨S.code192_correct, S.code192be_correct, VB.code192_correct, VB.code192be_correct,
    VF.code192_correct, VF.code192be_correct⟩

/-- The functions `bf256_*` of every build compute in GF(2)[X]/f, without undefined behaviour. -/
theorem C56_bf256 :
    S.code256.Correct f256 ∧ S.code256be.Correct f256 ∧
    VB.code256.Correct f256 ∧ VB.code256be.Correct f256 ∧
    VF.code256.Correct f256 ∧ VF.code256be.Correct f256 := by
  have e : fieldPoly 256 = f256 := by unfold fieldPoly; simp
  rw [← e]
  exact ⟨S.code256_correct, S.code256be_correct, VB.code256_correct, VB.code256be_correct,
    VF.code256_correct, VF.code256be_correct⟩

/-- The functions `bf8_*`. -/
theorem C56_bf8 : S.code8.Correct f8 ∧ VB.code8.Correct f8 ∧ VF.code8.Correct f8 :=
  ⟨S.code8_correct, VB.code8_correct, VF.code8_correct⟩

/-- The functions `bf64_*`. -/
theorem C56_bf64 :
    S.code64.Correct f64 ∧ S.code64be.Correct f64 ∧
    VB.code64.Correct f64 ∧ VB.code64be.Correct f64 ∧
    VF.code64.Correct f64 ∧ VF.code64be.Correct f64 :=
  ⟨S.code64_correct, S.code64be_correct, VB.code64_correct, VB.code64be_correct, VF.code64_correct,
    VF.code64be_correct⟩

/-- `bf8_square`. -/
theorem C56_bf8_square (a : BitVec 8) :
    ∃ c, S.bf8_square a = some c ∧ VB.bf8_square a = some c ∧ VF.bf8_square a = some c ∧
      polyOf c = polyOf a ^ 2 %ₘ f8 := by
  obtain ⟨c, h1, h2⟩ := S.square8_correct a
  exact ⟨c, h1, h1, h1, by rw [h2, sq]⟩

/-- `bf8_inv`: zero goes to zero and every other element to its inverse. -/
theorem C56_bf8_inv (a : BitVec 8) :
    ∃ c, S.bf8_inv a = some c ∧ VB.bf8_inv a = some c ∧ VF.bf8_inv a = some c ∧
      (a = 0 → c = 0) ∧ (a ≠ 0 → (polyOf a * polyOf c) %ₘ f8 = 1) := by
  obtain ⟨c, h1, h2⟩ := S.inv8_correct a
  exact ⟨c, h1, h1, h1, h2⟩

/-- `rotr8` and `rotl8` of compat.h move bit `i + c` to bit `i` and bit `i` to bit `i + c`. -/
theorem C56_rot8 (x : BitVec 8) (c : Nat) :
    (∃ y, S.rotr8 x c = some y ∧ ∀ i, i < 8 → y.getLsbD i = x.getLsbD ((i + c) % 8)) ∧
    (∃ y, S.rotl8 x c = some y ∧ ∀ i, i < 8 → y.getLsbD ((i + c) % 8) = x.getLsbD i) ∧
    VB.rotr8 = S.rotr8 ∧ VF.rotr8 = S.rotr8 ∧ VB.rotl8 = S.rotl8 ∧ VF.rotl8 = S.rotl8 :=
  ⟨S.rotr8_correct x c, S.rotl8_correct x c, rfl, rfl, rfl, rfl⟩

/-- `parity8` of compat.h (the portable variant): the number of set bits modulo 2. -/
theorem C56_parity8 (x : BitVec 8) :
    S.parity8 x = some (BitVec.ofNat 8 ((∑ i ∈ Finset.range 8, if x.getLsbD i then 1 else 0) % 2)) ∧
    VB.parity8 = S.parity8 ∧ VF.parity8 = S.parity8 :=
  ⟨S.parity8_eq x, rfl, rfl⟩

/-- The operations used in the other translated files are those of fields.c: values of words
represent the values of `Model/Fields.lean`. -/
theorem C56_model (a b : BitVec 8) (c d : BitVec 64) :
    S.bf8_mul a b = some (bfMul (n := 8) ⟨a⟩ ⟨b⟩).v ∧ S.bf8_inv a = some (bf8Inv ⟨a⟩).v ∧
    S.bf64_mul c d = some (bfMul (n := 64) ⟨c⟩ ⟨d⟩).v ∧ S.parity8 a = some (Faest.parity8 a) ∧
    S.rotr8 a 2 = some (Faest.rotr8 a 2) ∧ S.rotr8 a 5 = some (Faest.rotr8 a 5) ∧
    S.rotr8 a 7 = some (Faest.rotr8 a 7) :=
  ⟨S.mul8 a b, S.inv8 a, S.mul64 c d, S.parity8_model a, S.rotr8_model a⟩

/-- The same for the large fields: each translated text is the hand-written word level of C36. -/
theorem C56_model_128 :
    S.code128 = Words.Impl.code struct128 false ∧
    VB.code128 = Words.Impl.code (vec128 shr64_128_builtin) false ∧
    VF.code128 = Words.Impl.code (vec128 shr64_128_fn) false :=
  ⟨S.code128_eq, VB.code128_eq, VF.code128_eq⟩

/-- The same for the large fields: each translated text is the hand-written word level of C36. -/
theorem C56_model_192 :
    S.code192 = Words.Impl.code struct192 false ∧
    VB.code192 = Words.Impl.code (vec192 shr64_192_builtin) false ∧
    VF.code192 = Words.Impl.code (vec192 shr64_192_fn) false :=
  ⟨S.code192_eq, VB.code192_eq, VF.code192_eq⟩

/-- The same for the large fields: each translated text is the hand-written word level of C36. -/
theorem C56_model_256 :
    S.code256 = Words.Impl.code struct256 false ∧
    VB.code256 = Words.Impl.code (vec256 shr64_256_builtin) false ∧
    VF.code256 = Words.Impl.code (vec256 shr64_256_fn) false :=
  ⟨S.code256_eq, VB.code256_eq, VF.code256_eq⟩

/-! Concrete cases: products with reductions in the three builds, the inverse of FIPS 197, a load on a
big-endian host, and the fourth word of the vector build of 192 bits. -/
example : (S.bf192_mul #v[2, 0, 0] #v[0, 0, 0x8000000000000000#64]).map Vector.toList = some [0x87, 0, 0] := by
  decide +kernel
example : (VB.bf256_mul #v[2, 0, 0, 0] #v[0, 0, 0, 0x8000000000000000#64]).map Vector.toList
    = some [0x425, 0, 0, 0] := by decide +kernel
example : (VF.bf128_mul_64 #v[0, 0x8000000000000000#64] 2).map Vector.toList = some [0x87, 0] := by
  decide +kernel
example : S.bf8_inv 0x53 = some 0xca ∧ S.bf8_mul 0x57 0x83 = some 0xc1 ∧ S.bf8_square 0x53 = some 0xb5 := by
  decide +kernel
example : S.bf64_mul 2 0x8000000000000000#64 = some 0x1b := by decide +kernel
example : (VF.BE.bf192_load (ofList ((List.range 24).map (BitVec.ofNat 8))) 0).map Vector.toList
    = some [0x0706050403020100#64, 0x0f0e0d0c0b0a0908#64, 0x1716151413121110#64, 0] := by decide +kernel
example : S.BE.bf64_load (ofList ((List.range 8).map (BitVec.ofNat 8))) 0 = some 0x0706050403020100#64 := by
  decide +kernel
example : S.rotr8 0x81 1 = some 0xc0 ∧ S.rotl8 0x81 1 = some 0x03 ∧ S.parity8 0x07 = some 1 := by
  decide +kernel
/-- The hypotheses on representations are met. -/
example : Repr (#v[0, 0, 0x8000000000000000#64, 0] : Ws 4) (BitVec.twoPow 192 191) := by
  unfold Spec.Repr; decide
/-- Undefined behaviour is an outcome of the translated text: a load over the end of the buffer. -/
example : S.bf128_load (ofList ((List.range 15).map (BitVec.ofNat 8))) 0 = none := by decide +kernel

end Faest.Props
