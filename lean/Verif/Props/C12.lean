/-
C12: byte_combine embeds GF(2^8) in the large fields.
-/
import Verif.Proofs.FieldFacts

namespace Faest.Props

/-- byte_combine_bits is defined on every byte and is a homomorphism of fields: there is a map
`e` from bytes to field elements which is what the code computes, respects sums, products and
one, and is injective. -/
theorem C12_byte_combine_bits {n : Nat} (hn : n = 128 ∨ n = 192 ∨ n = 256) :
    ∃ e : BF 8 → BF n, (∀ x, byteCombineBits n x.v = some (e x)) ∧
      (∀ x y, e (bfAdd x y) = bfAdd (e x) (e y)) ∧
      (∀ x y, e (bfMul x y) = bfMul (e x) (e y)) ∧
      e bfZero = bfZero ∧ e bfOne = bfOne ∧ Function.Injective e :=
  ⟨BF.embHom n, fun x => BF.byteCombineBits_ok hn x.v, fun x y => map_add _ x y,
    fun x y => BF.embHom_mul hn x y, map_zero _, BF.embHom_one hn,
    fun _ _ h => BF.embHom_inj hn h⟩

/-- byte_combine is the linear extension: on any eight elements it is the combination of the
images of the bytes 1, 2, 4, …, 128. -/
theorem C12_byte_combine_linear {n : Nat} (hn : n = 128 ∨ n = 192 ∨ n = 256) (g : Nat → BF n) :
    ∃ e : Nat → BF n, (∀ i, i < 8 → byteCombineBits n (BitVec.twoPow 8 i) = some (e i)) ∧
      byteCombine (full 8 g) 0
        = some ((List.range 8).foldl (fun acc i => bfAdd acc (bfMul (g i) (e i))) bfZero) := by
  refine ⟨fun i => BF.betaElt n ^ i, ?_, ?_⟩
  · intro i hi
    rw [BF.byteCombineBits_ok hn]
    congr 1
    unfold BF.emb BF.bc
    rw [Finset.sum_eq_single i]
    · simp [hi, BF.bitF]
    · intro j hj hne
      have : (BitVec.twoPow 8 i).getLsbD j = false := by
        rw [BitVec.getLsbD_twoPow]; simp [Ne.symm hne]
      simp only [this]; simp [BF.bitF]
    · intro h; simp at h; omega
  · rw [BF.byteCombine_ok hn (has_full 8 g)]
    congr 1
    unfold BF.bc
    simp only [Finset.sum_range_succ, Finset.sum_range_zero, List.range_succ, List.range_zero,
      List.nil_append, List.foldl_append, List.foldl_cons, List.foldl_nil]
    rfl

/-- byte_combine of eight field bits is byte_combine_bits of the byte. -/
theorem C12_byte_combine_of_bits {n : Nat} (hn : n = 128 ∨ n = 192 ∨ n = 256) (x : Byte) :
    byteCombine (full 8 (fun i => bfFromBit (n := n) (x >>> i))) 0 = byteCombineBits n x := by
  rw [BF.byteCombine_ok hn (has_full 8 _), BF.byteCombineBits_ok hn]
  congr 1
  unfold BF.emb
  congr 1
  funext i
  rw [BF.fromBit_eq]
  simp [BF.bitF]

/-- Concrete instance: the images of {02} and {04} in the 128-bit field are the first two table
entries, and the second is the square of the first. -/
example : byteCombineBits 128 2 = bfAlpha 128 0 ∧ byteCombineBits 128 4 = bfAlpha 128 1 := by
  decide +kernel

end Faest.Props
