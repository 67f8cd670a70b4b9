/-
The translation of fields.h and fields.c (`Model/Gen/Fields*.lean`) against the word level of
`Model/FieldWords.lean`, and that against `Spec/FieldCode.lean`.
-/
import Verif.Model.Gen.FieldsS
import Verif.Model.Gen.FieldsVB
import Verif.Model.Gen.FieldsVF
import Verif.Model.Gen.FieldsSbe
import Verif.Model.Gen.FieldsVBbe
import Verif.Model.Gen.FieldsVFbe
import Verif.Spec.FieldCode
import Verif.Proofs.WordsOps
import Verif.Proofs.LoadStore
import Verif.Props.C36

namespace Faest.Words

open Faest.Spec Polynomial

/-- The interface of the hand-written word level. -/
def Impl.code (I : Impl) (be : Bool) : FieldCode I.n I.k where
  zero := some I.zero
  one := some I.one
  from64 x := some (I.from64 x)
  from8 x := some (I.from8 x)
  fromBit x := some (I.fromBit x)
  add x y := some (I.add x y)
  mul := I.mul
  mul64 := I.mul64
  mulBit x b := some (I.mulBit x b)
  sumPoly xs o := I.sumPoly (xs.drop o)
  byteCombine := I.byteCombine
  byteCombineBits := I.byteCombineBits
  load := I.load be
  store := I.store be

theorem rd_drop' {α : Type} (m : Mem α) (o i : Nat) : rd (m.drop o) i = rd m (o + i) := by
  unfold rd; rw [List.getElem?_drop]

theorem dvd_toPoly_pow {n : Nat} (hn : 0 < n) (a : BF n) (i : Nat) :
    BF.modPoly n ∣ BF.toPoly (a ^ i) - BF.toPoly a ^ i := by
  induction i with
  | zero => rw [pow_zero, pow_zero, BF.toPoly_one hn, sub_self]; exact dvd_zero _
  | succ i ih =>
    have h := BF.dvd_toPoly_mul (a ^ i) a hn
    have e : BF.toPoly (a ^ (i + 1)) - BF.toPoly a ^ (i + 1)
        = (BF.toPoly (a ^ i * a) - BF.toPoly (a ^ i) * BF.toPoly a)
          + (BF.toPoly (a ^ i) - BF.toPoly a ^ i) * BF.toPoly a := by
      rw [pow_succ, pow_succ]; ring
    rw [e]
    exact dvd_add h (Dvd.dvd.mul_right ih _)

theorem dvd_bc {n : Nat} (hn : 0 < n) (g : Nat → BF n) :
    BF.modPoly n ∣ BF.toPoly (BF.bc g)
      - ∑ i ∈ Finset.range 8, BF.toPoly (g i) * BF.toPoly (BF.betaElt n) ^ i := by
  unfold BF.bc
  rw [map_sum, ← Finset.sum_sub_distrib]
  refine Finset.dvd_sum fun i _ => ?_
  have h := BF.dvd_toPoly_mul (g i) (BF.betaElt n ^ i) hn
  have h2 := dvd_toPoly_pow hn (BF.betaElt n) i
  have e : BF.toPoly (g i * BF.betaElt n ^ i) - BF.toPoly (g i) * BF.toPoly (BF.betaElt n) ^ i
      = (BF.toPoly (g i * BF.betaElt n ^ i) - BF.toPoly (g i) * BF.toPoly (BF.betaElt n ^ i))
        + BF.toPoly (g i) * (BF.toPoly (BF.betaElt n ^ i) - BF.toPoly (BF.betaElt n) ^ i) := by ring
  rw [e]
  exact dvd_add h (Dvd.dvd.mul_left h2 _)

theorem polyOf_mod {I : Impl} (hI : I ∈ impls) (c : BF I.n) {p : (ZMod 2)[X]}
    (h : BF.modPoly I.n ∣ BF.toPoly c - p) : polyOf c.v = p %ₘ Props.fieldPoly I.n := by
  rw [← Props.modPoly_fieldPoly I hI]
  exact BF.eq_modByMonic_of_dvd (BF.polyOf_degree_lt _) h

theorem rel_some {n k : Nat} {o : Option (Ws k)} {c : BF n}
    (h : Option.Rel (fun z a => Repr z a.v) o (some c)) : Gives o c.v := by
  cases h with
  | some h => exact ⟨_, rfl, h⟩

theorem lamSize {I : Impl} (hI : I ∈ impls) : BF.LamSize I.n := (good_impls I hI).nmem

theorem byte_mod_two (x : Byte) : (x.toNat % 2 = 1) = (x.getLsbD 0 = true) := by
  rw [BitVec.getLsbD, Nat.testBit_zero]; simp

theorem byteOf_loadF {n : Nat} (hn : 8 ∣ n) (g : Nat → Byte) (j : Nat) (hj : j < n / 8) :
    byteOf (loadF n g).v j = g j := byteAt_ofBytes hn g j hj

/-- The hand-written word level is correct. -/
theorem Impl.code_correct (I : Impl) (hI : I ∈ impls) (be : Bool) :
    (I.code be).Correct (Props.fieldPoly I.n) where
  zero := ⟨_, rfl, Impl.zero_repr (good_impls I hI)⟩
  one := ⟨_, rfl, Impl.one_repr (good_impls I hI)⟩
  from64 x := ⟨_, rfl, Impl.from64_repr (good_impls I hI) x⟩
  from8 x := ⟨_, rfl, Impl.from8_repr (good_impls I hI) x⟩
  fromBit x := by
    refine ⟨_, rfl, ?_⟩
    have h := Impl.fromBit_repr (good_impls I hI) x
    have e : (bfFromBit x : BF I.n).v = BitVec.ofNat I.n (x.toNat % 2) := by
      apply BitVec.eq_of_toNat_eq
      show ((x &&& 1#8).zeroExtend I.n).toNat = _
      rw [BitVec.toNat_setWidth, BitVec.toNat_and, BitVec.toNat_ofNat]
      congr 1
      exact Nat.and_one_is_mod _
    rwa [e] at h
  add x y a b hx hy := ⟨_, rfl, Props.C36_add I hI x y a b hx hy⟩
  mul x y a b hx hy := by
    obtain ⟨z, c, h1, h2, h3⟩ := Props.C36_mul_poly I hI x y a b hx hy
    exact ⟨c, ⟨z, h1, h2⟩, h3⟩
  mul64 x a b hx := by
    obtain ⟨z, c, h1, h2, h3⟩ := Props.C36_mul64_poly I hI x a b hx
    exact ⟨c, ⟨z, h1, h2⟩, h3⟩
  mulBit x a b hx := by
    refine ⟨_, rfl, ?_⟩
    have h := Props.C36_mul_bit I hI x a b hx
    simpa only [byte_mod_two] using h
  sumPoly xs o a h := by
    obtain ⟨z, c, h1, h2, h3⟩ := Props.C36_sum_poly_poly I hI (xs.drop o) a
      (fun i hi => by rw [rd_drop']; exact h i hi)
    exact ⟨c, ⟨z, h1, h2⟩, h3⟩
  combine := by
    have hl := lamSize hI
    have hn : 0 < I.n := Nat.lt_of_lt_of_le (by decide) (good_impls I hI).npos
    refine ⟨(BF.betaElt I.n).v, ?_, ?_, ?_⟩
    · rw [← Props.modPoly_fieldPoly I hI, modByMonic_eq_zero_iff_dvd BF.modPoly_monic]
      have h8 := (BF.alpha_facts hl).2
      have e := congrArg BF.toPoly h8
      simp only [map_add, BF.toPoly_one hn] at e
      have d8 := dvd_toPoly_pow hn (BF.betaElt I.n) 8
      have d4 := dvd_toPoly_pow hn (BF.betaElt I.n) 4
      have d3 := dvd_toPoly_pow hn (BF.betaElt I.n) 3
      have e2 := BF.poly_add_self (BF.toPoly (BF.betaElt I.n) + 1)
      have e3 := BF.poly_add_self (BF.toPoly (BF.betaElt I.n ^ 4) + BF.toPoly (BF.betaElt I.n ^ 3))
      have := dvd_neg.2 (dvd_add (dvd_add d8 d4) d3)
      rw [e] at this
      refine this.trans (dvd_of_eq ?_)
      rw [← BF.toPoly_apply]
      linear_combination (-1 : (ZMod 2)[X]) * e3 - e2
    · intro xs o a h
      have hr := (Props.C36_byte_combine I hI).1 xs
        (List.replicate o none ++ full 8 (fun i => (⟨a i⟩ : BF I.n))) o (by
        intro i hi
        obtain ⟨x, hx, hxr⟩ := h i hi
        rw [hx, ← rd_drop', List.drop_left' (by simp), rd_full hi]
        exact Option.Rel.some hxr)
      have hh : Has (List.replicate o none ++ full 8 (fun i => (⟨a i⟩ : BF I.n))) o 8
          (fun i => ⟨a i⟩) := by
        intro i hi
        rw [← rd_drop', List.drop_left' (by simp), rd_full hi]
      rw [BF.byteCombine_ok hl hh] at hr
      exact ⟨_, rel_some hr, polyOf_mod hI _ (dvd_bc hn _)⟩
    · intro x
      have h := (Props.C36_byte_combine I hI).2 x
      rw [BF.byteCombineBits_ok hl] at h
      refine ⟨_, rel_some h, polyOf_mod hI _ ?_⟩
      have hd := dvd_bc hn (fun i => BF.bitF I.n (x.getLsbD i))
      refine hd.trans (dvd_of_eq ?_)
      show BF.toPoly (BF.emb I.n x) - _ = BF.toPoly (BF.emb I.n x) - _
      congr 1
      refine Finset.sum_congr rfl fun i _ => ?_
      unfold BF.bitF
      cases x.getLsbD i
      · simp
      · simp [BF.toPoly_one hn, BF.toPoly_apply]
  load src o g h := by
    have hh : Has src o (I.n / 8) g := h
    have h64 := (good_impls I hI).n64
    have hn := (good_impls I hI).npos
    have hr := Props.C36_load I hI be src o
    rw [bfLoad_ok (by omega) hh] at hr
    exact ⟨_, rel_some hr, byteOf_loadF (by omega) g⟩
  store dst o x a hx hlen := by
    have h := Props.C36_store I hI be dst o x ⟨a⟩ hx
    have hs : Ok (bfStore dst o (⟨a⟩ : BF I.n)) (fun dst' => dst'.length = dst.length ∧
      ∀ i, rd dst' i = if o ≤ i ∧ i < o + I.n / 8 then some (byteOf a (i - o)) else rd dst i) :=
      bfStore_ok hlen fun m' h1 h2 => ⟨h1, h2⟩
    obtain ⟨d, h1, h2, h3⟩ := hs
    exact ⟨d, h.trans h1, h2, h3⟩

end Faest.Words
