/-
Facts on the field code: moduli, inverses, byte_combine, sum_poly, load/store.
-/
import Verif.Proofs.FieldIrr
import Verif.Proofs.Hoare
import Mathlib.FieldTheory.Finite.Basic

namespace Faest
namespace BF

open Polynomial Spec

variable {n : Nat}

/-! ### The moduli are the documented polynomials -/

theorem polyOf_twoPow (k : Nat) (hk : k < n) : polyOf (BitVec.twoPow n k) = X ^ k := by
  have := toPoly_dblN_one (n := n) k hk
  rw [toPoly_apply, dblN_one_v k hk] at this
  exact this

theorem polyOf_xor (a b : BitVec n) : polyOf (a ^^^ b) = polyOf a + polyOf b :=
  polyOf_add ⟨a⟩ ⟨b⟩

theorem modPoly_eq_f8 : modPoly 8 = f8 := by
  have : bfModulus 8
      = .twoPow 8 4 ^^^ .twoPow 8 3 ^^^ .twoPow 8 1 ^^^ .twoPow 8 0 := by decide
  unfold modPoly f8
  rw [this, polyOf_xor, polyOf_xor, polyOf_xor, polyOf_twoPow _ (by decide),
    polyOf_twoPow _ (by decide), polyOf_twoPow _ (by decide), polyOf_twoPow _ (by decide)]
  ring

theorem modPoly_eq_f64 : modPoly 64 = f64 := by
  have : bfModulus 64
      = .twoPow 64 4 ^^^ .twoPow 64 3 ^^^ .twoPow 64 1 ^^^ .twoPow 64 0 := by decide
  unfold modPoly f64
  rw [this, polyOf_xor, polyOf_xor, polyOf_xor, polyOf_twoPow _ (by decide),
    polyOf_twoPow _ (by decide), polyOf_twoPow _ (by decide), polyOf_twoPow _ (by decide)]
  ring

theorem modPoly_eq_f128 : modPoly 128 = f128 := by
  have : bfModulus 128
      = .twoPow 128 7 ^^^ .twoPow 128 2 ^^^ .twoPow 128 1 ^^^ .twoPow 128 0 := by decide
  unfold modPoly f128
  rw [this, polyOf_xor, polyOf_xor, polyOf_xor, polyOf_twoPow _ (by decide),
    polyOf_twoPow _ (by decide), polyOf_twoPow _ (by decide), polyOf_twoPow _ (by decide)]
  ring

theorem modPoly_eq_f192 : modPoly 192 = f192 := by
  have : bfModulus 192
      = .twoPow 192 7 ^^^ .twoPow 192 2 ^^^ .twoPow 192 1 ^^^ .twoPow 192 0 := by decide
  unfold modPoly f192
  rw [this, polyOf_xor, polyOf_xor, polyOf_xor, polyOf_twoPow _ (by decide),
    polyOf_twoPow _ (by decide), polyOf_twoPow _ (by decide), polyOf_twoPow _ (by decide)]
  ring

theorem modPoly_eq_f256 : modPoly 256 = f256 := by
  have : bfModulus 256
      = .twoPow 256 10 ^^^ .twoPow 256 5 ^^^ .twoPow 256 2 ^^^ .twoPow 256 0 := by decide
  unfold modPoly f256
  rw [this, polyOf_xor, polyOf_xor, polyOf_xor, polyOf_twoPow _ (by decide),
    polyOf_twoPow _ (by decide), polyOf_twoPow _ (by decide), polyOf_twoPow _ (by decide)]
  ring

theorem polyOf_mul {f : (ZMod 2)[X]} (hf : modPoly n = f) (hn : 0 < n) (a b : BF n) :
    polyOf (bfMul a b).v = (polyOf a.v * polyOf b.v) %ₘ f := by
  rw [← hf]; exact toPoly_mul a b hn

theorem polyOf_mul64 {f : (ZMod 2)[X]} (hf : modPoly n = f) (hn : 0 < n) (a : BF n) (b : BF 64) :
    polyOf (bfMul64 a b).v = (polyOf a.v * polyOf b.v) %ₘ f := by
  rw [← hf]; exact toPoly_mul64 a b hn

/-! ### Fields -/

/-- The sizes of the code. -/
def GoodSize (n : Nat) : Prop := n = 8 ∨ n = 64 ∨ n = 128 ∨ n = 192 ∨ n = 256

theorem GoodSize.irr (h : GoodSize n) : Irreducible (modPoly n) := by
  rcases h with rfl | rfl | rfl | rfl | rfl
  · exact irreducible_mod8
  · exact irreducible_mod64
  · exact irreducible_mod128
  · exact irreducible_mod192
  · exact irreducible_mod256

theorem GoodSize.lt (h : GoodSize n) : 1 < n := by
  rcases h with rfl | rfl | rfl | rfl | rfl <;> decide

theorem one_ne_zero' (hn : 0 < n) : (1 : BF n) ≠ 0 := by
  intro h
  have := congrArg (fun a : BF n => a.v.getLsbD 0) h
  simp at this
  omega

theorem isField (h : GoodSize n) : IsField (BF n) where
  exists_pair_ne := ⟨1, 0, one_ne_zero' (by have := h.lt; omega)⟩
  mul_comm := mul_comm
  mul_inv_cancel {a} ha := exists_inv h.lt h.irr a ha

theorem eq_zero_or_eq_zero (h : GoodSize n) {a b : BF n} (hab : a * b = 0) : a = 0 ∨ b = 0 := by
  by_cases ha : a = 0
  · exact .inl ha
  · obtain ⟨c, hc⟩ := exists_inv h.lt h.irr a ha
    right
    calc b = (a * c) * b := by rw [hc, one_mul]
      _ = c * (a * b) := by ring
      _ = 0 := by rw [hab, mul_zero]

def equivFin : BF n ≃ Fin (2 ^ n) where
  toFun a := a.v.toFin
  invFun i := ⟨⟨i⟩⟩
  left_inv _ := rfl
  right_inv _ := rfl

instance : Fintype (BF n) := Fintype.ofEquiv _ equivFin.symm

theorem card_eq : Fintype.card (BF n) = 2 ^ n := by
  rw [Fintype.card_congr equivFin, Fintype.card_fin]

theorem pow_card_sub_one (h : GoodSize n) (a : BF n) (ha : a ≠ 0) : a ^ (2 ^ n - 1) = 1 := by
  let := (isField h).toField
  have := FiniteField.pow_card_sub_one_eq_one (K := BF n) a ha
  rw [card_eq] at this
  exact this

/-! ### bf8_inv -/

theorem bf8Inv_eq_pow (x : BF 8) : bf8Inv x = x ^ 254 := by
  unfold bf8Inv
  simp only [← mul_def]
  ring

theorem bf8Inv_mul (x : BF 8) (hx : x ≠ 0) : bf8Inv x * x = 1 := by
  rw [bf8Inv_eq_pow, ← pow_succ]
  exact pow_card_sub_one (n := 8) (.inl rfl) x hx

theorem bf8Inv_zero : bf8Inv 0 = 0 := by
  rw [bf8Inv_eq_pow]; exact zero_pow (by decide)

theorem bf8Inv_eq_zero {x : BF 8} : bf8Inv x = 0 ↔ x = 0 := by
  constructor
  · intro h
    by_contra hx
    have := bf8Inv_mul x hx
    rw [h, zero_mul] at this
    exact one_ne_zero' (by decide) this.symm
  · rintro rfl; exact bf8Inv_zero

/-! ### mul_bit, from_bit -/

theorem mulBit_eq (a : BF n) (b : Byte) : bfMulBit a b = if b.getLsbD 0 then a else 0 := by
  rw [bfMulBit, BitVec.and_comm]; exact mask_and _ _

theorem fromBit_eq (b : Byte) : (bfFromBit b : BF n) = if b.getLsbD 0 then 1 else 0 := by
  unfold bfFromBit
  ext1
  apply BitVec.eq_of_getLsbD_eq
  intro i hi
  rw [BitVec.getLsbD_setWidth, BitVec.getLsbD_and]
  have h1 : ∀ k : Nat, (1#k).getLsbD i = (decide (i < k) && decide (i = 0)) := by
    intro k
    rw [BitVec.getLsbD_ofNat]
    by_cases h : i = 0
    · subst h; simp
    · have : Nat.testBit 1 i = false := by
        by_contra hc
        rw [Bool.not_eq_false, Nat.testBit_one_eq_true_iff_self_eq_zero] at hc
        exact h hc
      simp [h, this]
  have h2 : (1 : Byte).getLsbD i = (decide (i < 8) && decide (i = 0)) := h1 8
  rw [h2]
  by_cases h0 : i = 0
  · subst h0
    cases b.getLsbD 0
    · simp
    · simp [hi]
  · have h3 := h1 n
    cases b.getLsbD 0
    · simp [h0]
    · simp only [if_true, one_v, h3, h0]; simp

/-! ### sum_poly -/

theorem dbl_eq_xelt_mul (a : BF n) (hn : 0 < n) : dbl a = a * xelt := by
  have h : xelt * a = ∑ i ∈ Finset.range n, if a.v.getLsbD i then dblN i (xelt : BF n) else 0 :=
    mul_eq_sum xelt a hn
  rw [mul_comm, h]
  conv_lhs => rw [eq_sum a, map_sum]
  refine Finset.sum_congr rfl fun i _ => ?_
  rw [map_ite_zero, ← dblN_succ, xelt, dblN_add]

theorem dblN_eq (k : Nat) (a : BF n) (hn : 0 < n) : dblN k a = a * xelt ^ k := by
  induction k with
  | zero => simp
  | succ k ih => rw [dblN_succ, ih, dbl_eq_xelt_mul _ hn, pow_succ, mul_assoc]

/-- `bfSumPoly` is the value of the polynomial with coefficients `xs` at `X`. -/
theorem sumPoly_ok {xs : Mem (BF n)} {g : Nat → BF n} (hn : 0 < n) (h : Has xs 0 n g) :
    bfSumPoly xs = some (∑ i ∈ Finset.range n, g i * xelt ^ i) := by
  apply Ok.eq
  unfold bfSumPoly
  refine Ok.step (h.rd0 (k := n - 1) (by omega)) ?_
  refine (Ok.forR (fun i r => r = ∑ j ∈ Finset.range i, g (n - i + j) * xelt ^ j)
    (lo := 1) (hi := n) (by omega) ?_ ?_).mono ?_
  · simp
  · intro i h1 h2 s hs
    refine Ok.step (h.rd0 (k := n - 1 - i) (by omega)) (Ok.pure ?_)
    rw [← add_def, ← dbl_def, dbl_eq_xelt_mul _ hn, hs, Finset.sum_range_succ', Finset.sum_mul]
    congr 1
    · refine Finset.sum_congr rfl fun j _ => ?_
      rw [mul_assoc, ← pow_succ]
      congr 2; omega
    · simp; congr 1; omega
  · intro a ha
    rw [ha]
    refine Finset.sum_congr rfl fun j _ => ?_
    simp

/-! ### byte_combine -/

/-- The fields with a byte embedding. -/
def LamSize (n : Nat) : Prop := n = 128 ∨ n = 192 ∨ n = 256

theorem LamSize.good (h : LamSize n) : GoodSize n := by
  rcases h with h | h | h
  · exact .inr (.inr (.inl h))
  · exact .inr (.inr (.inr (.inl h)))
  · exact .inr (.inr (.inr (.inr h)))

theorem LamSize.lt (h : LamSize n) : 1 < n := h.good.lt

/-- First entry of the alpha table. -/
def betaElt (n : Nat) : BF n := ⟨BitVec.ofNat n (leNat ((alphaTable n).headD []))⟩

/-- Test of the alpha table with natural numbers. -/
def alphaCheck (n P F : Nat) : Bool :=
  let t := (alphaTable n).map leNat
  let b := t.headD 0
  t.length == 7 && t.all (· < P) &&
  (List.range 6).all (fun i => natMul n P F (t.getD i 0) b == t.getD (i + 1) 0) &&
  (natMul n P F (t.getD 6 0) b
    == (t.getD 3 0 ^^^ t.getD 2 0 ^^^ t.getD 0 0 ^^^ 1))

theorem alphaCheck128 : alphaCheck 128 (2 ^ 128) (2 ^ 128 + 0x87) = true := by decide +kernel
theorem alphaCheck192 : alphaCheck 192 (2 ^ 192) (2 ^ 192 + 0x87) = true := by decide +kernel
theorem alphaCheck256 : alphaCheck 256 (2 ^ 256) (2 ^ 256 + 0x425) = true := by decide +kernel

theorem alpha_of_check (hn : 0 < n)
    (h : alphaCheck n (2 ^ n) (2 ^ n + (bfModulus n).toNat) = true) :
    (∀ i, i < 7 → bfAlpha n i = some (betaElt n ^ (i + 1))) ∧
    betaElt n ^ 8 = betaElt n ^ 4 + betaElt n ^ 3 + betaElt n + 1 := by
  unfold alphaCheck at h
  simp only [Bool.and_eq_true, beq_iff_eq, List.all_eq_true, List.mem_range, List.length_map,
    decide_eq_true_eq] at h
  obtain ⟨⟨⟨hlen, hlt⟩, hmul⟩, hlast⟩ := h
  generalize ht : (alphaTable n).map leNat = t at *
  have htl : t.length = 7 := by rw [← ht]; simpa using hlen
  have hnth : ∀ i, t.getD i 0 < 2 ^ n := by
    intro i
    rw [List.getD_eq_getElem?_getD]
    cases hh : t[i]? with
    | none => simp
    | some a => exact hlt a (List.mem_of_getElem? hh)
  have hhead : t.headD 0 = t.getD 0 0 := by
    cases t <;> rfl
  have hbeta : (betaElt n).v.toNat = t.getD 0 0 := by
    have : leNat ((alphaTable n).headD []) = t.getD 0 0 := by
      rw [← ht]
      cases alphaTable n <;> rfl
    rw [betaElt, this, BitVec.toNat_ofNat, Nat.mod_eq_of_lt (hnth 0)]
  have key : ∀ i, i < 7 → (betaElt n ^ (i + 1)).v.toNat = t.getD i 0 := by
    intro i
    induction i with
    | zero => intro _; rw [zero_add, pow_one, hbeta]
    | succ i ih =>
      intro hi
      rw [pow_succ, ← natMul_eq _ _ hn, ih (by omega), hbeta, ← hhead]
      exact hmul i (by omega)
  constructor
  · intro i hi
    unfold bfAlpha
    have hi' : i < (alphaTable n).length := by omega
    rw [List.getElem?_eq_getElem hi']
    simp only [Option.map_some]
    congr 1
    apply toNat_inj
    rw [key i hi]
    have : t.getD i 0 = leNat (alphaTable n)[i] := by
      rw [← ht, List.getD_eq_getElem?_getD, List.getElem?_map, List.getElem?_eq_getElem hi']
      rfl
    rw [this]
    show (BitVec.ofNat n _).toNat = _
    rw [BitVec.toNat_ofNat, Nat.mod_eq_of_lt]
    rw [← this]; exact hnth i
  · apply toNat_inj
    rw [show (8 : Nat) = 7 + 1 from rfl, pow_succ, ← natMul_eq _ _ hn, key 6 (by decide), hbeta,
      ← hhead, hlast]
    simp only [add_v, BitVec.toNat_xor]
    rw [key 3 (by decide), key 2 (by decide), hbeta, one_v, BitVec.toNat_ofNat,
      Nat.mod_eq_of_lt]
    exact Nat.one_lt_two_pow (by omega)

theorem alpha_facts (h : LamSize n) :
    (∀ i, i < 7 → bfAlpha n i = some (betaElt n ^ (i + 1))) ∧
    betaElt n ^ 8 = betaElt n ^ 4 + betaElt n ^ 3 + betaElt n + 1 := by
  rcases h with rfl | rfl | rfl
  · exact alpha_of_check (by decide) alphaCheck128
  · exact alpha_of_check (by decide) alphaCheck192
  · exact alpha_of_check (by decide) alphaCheck256

/-- Linear combination with the powers of the first alpha entry. -/
def bc (g : Nat → BF n) : BF n := ∑ i ∈ Finset.range 8, g i * betaElt n ^ i

theorem byteCombine_ok (hl : LamSize n) {x : Mem (BF n)} {off : Nat} {g : Nat → BF n}
    (h : Has x off 8 g) : byteCombine x off = some (bc g) := by
  apply Ok.eq
  unfold byteCombine
  refine Ok.step (h.rd (i := 0) (by decide)) ?_
  refine (Ok.forR (fun i r => r = ∑ j ∈ Finset.range i, g j * betaElt n ^ j)
    (lo := 1) (hi := 8) (by decide) ?_ ?_).mono ?_
  · simp
  · intro i h1 h2 s hs
    refine Ok.step (h.rd h2) (Ok.step ((alpha_facts hl).1 (i - 1) (by omega)) (Ok.pure ?_))
    rw [← add_def, ← mul_def, hs, Finset.sum_range_succ, Nat.sub_add_cancel h1]
  · intro a ha; exact ha

/-- Bit `i` of a byte as a field element. -/
def bitF (n : Nat) (b : Bool) : BF n := if b then 1 else 0

/-- The image of a byte. -/
def emb (n : Nat) (x : Byte) : BF n := bc (fun i => bitF n (x.getLsbD i))

theorem byteCombineBits_ok (hl : LamSize n) (x : Byte) : byteCombineBits n x = some (emb n x) := by
  apply Ok.eq
  unfold byteCombineBits
  refine (Ok.forR (fun i r => r = ∑ j ∈ Finset.range i, bitF n (x.getLsbD j) * betaElt n ^ j)
    (lo := 1) (hi := 8) (by decide) ?_ ?_).mono ?_
  · simp [fromBit_eq, bitF]
  · intro i h1 h2 s hs
    refine Ok.step ((alpha_facts hl).1 (i - 1) (by omega)) (Ok.pure ?_)
    rw [← add_def, mulBit_eq, hs, Finset.sum_range_succ, Nat.sub_add_cancel h1]
    congr 1
    have : (x >>> i &&& 1#8).getLsbD 0 = x.getLsbD i := by
      simp
    unfold bitF
    rw [show ((x >>> i) &&& 1 : Byte) = (x >>> i &&& 1#8) from rfl, this]
    cases x.getLsbD i <;> simp
  · intro a ha; exact ha

theorem bitF_xor (a b : Bool) : bitF n (a ^^ b) = bitF n a + bitF n b := by
  unfold bitF
  cases a <;> cases b <;> simp [add_self]

theorem bc_add (g h : Nat → BF n) : bc (fun i => g i + h i) = bc g + bc h := by
  unfold bc
  rw [← Finset.sum_add_distrib]
  refine Finset.sum_congr rfl fun i _ => ?_
  ring

theorem bc_mul (c : BF n) (g : Nat → BF n) : bc (fun i => c * g i) = c * bc g := by
  unfold bc
  rw [Finset.mul_sum]
  refine Finset.sum_congr rfl fun i _ => ?_
  ring

theorem bc_zero : bc (fun _ => (0 : BF n)) = 0 := by unfold bc; simp

theorem emb_xor (x y : Byte) : emb n (x ^^^ y) = emb n x + emb n y := by
  unfold emb
  rw [← bc_add]
  congr 1
  funext i
  rw [BitVec.getLsbD_xor, bitF_xor]

/-- The embedding as an additive map on `BF 8`. -/
def embHom (n : Nat) : BF 8 →+ BF n where
  toFun a := emb n a.v
  map_zero' := by
    show emb n 0#8 = 0
    unfold emb
    simp [bitF, bc_zero]
  map_add' a b := emb_xor a.v b.v

theorem embHom_apply (a : BF 8) : embHom n a = emb n a.v := rfl

theorem emb_dbl (hl : LamSize n) (a : BF 8) : embHom n (dbl a) = betaElt n * embHom n a := by
  have h8 := (alpha_facts hl).2
  obtain ⟨v⟩ := a
  have hb : ∀ i, i < 8 → (bvDbl v).getLsbD i
      = ((decide (i ≠ 0) && v.getLsbD (i - 1))
        ^^ (v.getLsbD 7 && decide (i = 0 ∨ i = 1 ∨ i = 3 ∨ i = 4))) := by
    intro i hi
    unfold bvDbl maskOf
    rw [BitVec.getLsbD_xor, BitVec.getLsbD_and, BitVec.getLsbD_shiftLeft]
    have : (bfModulus 8).getLsbD i = decide (i = 0 ∨ i = 1 ∨ i = 3 ∨ i = 4) := by
      revert i; decide
    rw [this]
    show _ = _
    simp only [show (8 : Nat) - 1 = 7 from rfl]
    have h1 : (decide (i < 8) && !decide (i < 1) && v.getLsbD (i - 1))
        = (decide (i ≠ 0) && v.getLsbD (i - 1)) := by
      by_cases h0 : i = 0
      · simp [h0]
      · simp [h0, hi]
    rw [h1]
    have h2 : (BitVec.allOnes 8).getLsbD i = true := by
      rw [BitVec.getLsbD_allOnes]; simp [hi]
    cases v.getLsbD 7
    · simp
    · simp only [if_true, h2]
  show bc (fun i => bitF n ((bvDbl v).getLsbD i)) = betaElt n * bc (fun i => bitF n (v.getLsbD i))
  unfold bc
  simp only [Finset.sum_range_succ, Finset.sum_range_zero]
  rw [hb 0 (by decide), hb 1 (by decide), hb 2 (by decide), hb 3 (by decide), hb 4 (by decide),
    hb 5 (by decide), hb 6 (by decide), hb 7 (by decide)]
  simp only [bitF_xor]
  simp [- BitVec.getLsbD_eq_getElem]
  have e0 : bitF n false = 0 := rfl
  rw [e0]
  generalize betaElt n = B at *
  linear_combination (- bitF n (v.getLsbD 7)) * h8

theorem emb_dblN (hl : LamSize n) (k : Nat) (a : BF 8) :
    embHom n (dblN k a) = betaElt n ^ k * embHom n a := by
  induction k with
  | zero => simp
  | succ k ih => rw [dblN_succ, emb_dbl hl, ih, pow_succ]; ring

theorem embHom_mul (hl : LamSize n) (a b : BF 8) : embHom n (a * b) = embHom n a * embHom n b := by
  rw [mul_eq_sum a b (by decide), map_sum, embHom_apply b]
  unfold emb bc
  rw [Finset.mul_sum]
  refine Finset.sum_congr rfl fun i _ => ?_
  rw [map_ite_zero, emb_dblN hl]
  unfold bitF
  cases hb : b.v.getLsbD i
  · simp [hb]
  · simp only [hb, if_true]; ring

theorem embHom_one (hl : LamSize n) : embHom n 1 = 1 := by
  have : LamSize n := hl
  rw [embHom_apply]
  unfold emb bc
  simp only [Finset.sum_range_succ, Finset.sum_range_zero]
  simp [bitF]

theorem embHom_inj (hl : LamSize n) {a b : BF 8} (h : embHom n a = embHom n b) : a = b := by
  by_contra hab
  have h1 : a - b ≠ 0 := sub_ne_zero.2 hab
  have h2 := bf8Inv_mul (a - b) h1
  have h3 : embHom n (a - b) = 0 := by rw [map_sub, h, sub_self]
  have h4 := congrArg (embHom n) h2
  rw [embHom_mul hl, h3, mul_zero, embHom_one hl] at h4
  exact one_ne_zero' (by have := hl.lt; omega) h4.symm

end BF
end Faest
