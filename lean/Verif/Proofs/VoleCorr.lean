/-
The correlation between the two sides of the VOLE commitment.
-/
import Verif.Proofs.VoleRefine
import Verif.Proofs.FieldRing

namespace Faest
open Spec (byteFn prgL child treeNode leafSd leafCom comDigest anc sib recNode
  xsum voleV voleU strBit bitsNat depth colStart treeOf posOf leafIdx treeRoot pNode pCom pSd expand
  pR pU pV hcomOf vNode vCom vR vQ)

theorem xsum_eq_sum (n : Nat) (f : Nat → Byte) :
    (⟨xsum n f⟩ : BF 8) = ∑ i ∈ Finset.range n, (⟨f i⟩ : BF 8) := by
  induction n with
  | zero => simp [xsum]; rfl
  | succ n ih => rw [Finset.sum_range_succ, ← ih]; rfl

/-- Renumbering by exclusive or with a constant. -/
theorem xsum_reindex (d a : Nat) (ha : a < 2 ^ d) (f : Nat → Byte) :
    xsum (2 ^ d) (fun k => f (k ^^^ a)) = xsum (2 ^ d) f := by
  have : (⟨xsum (2 ^ d) (fun k => f (k ^^^ a))⟩ : BF 8) = ⟨xsum (2 ^ d) f⟩ := by
    rw [xsum_eq_sum, xsum_eq_sum]
    refine Finset.sum_nbij' (fun k => k ^^^ a) (fun k => k ^^^ a) ?_ ?_ ?_ ?_ ?_
    · intro k hk
      exact Finset.mem_range.2 (Nat.xor_lt_two_pow (Finset.mem_range.1 hk) ha)
    · intro k hk
      exact Finset.mem_range.2 (Nat.xor_lt_two_pow (Finset.mem_range.1 hk) ha)
    · intro k _; simp [Nat.xor_assoc]
    · intro k _; simp [Nat.xor_assoc]
    · intro k _; rfl
  exact congrArg BF.v this

theorem xor_bit (a b j : Nat) : (a ^^^ b) / 2 ^ j % 2 = (a / 2 ^ j % 2 + b / 2 ^ j % 2) % 2 := by
  have h : ∀ x : Nat, x / 2 ^ j % 2 = (x.testBit j).toNat := by
    intro x
    rw [Nat.testBit_eq_decide_div_mod_eq]
    rcases Nat.mod_two_eq_zero_or_one (x / 2 ^ j) with e | e <;> rw [e] <;> rfl
  rw [h, h, h, Nat.testBit_xor]
  cases a.testBit j <;> cases b.testBit j <;> rfl

/-- The keys for leaf numbering shifted by `idx` are the tags plus bit `j` of `idx` times the value. -/
theorem voleV_shift (d idx j t : Nat) (hi : idx < 2 ^ d) (r r' : Nat → Nat → Byte)
    (h : ∀ k, k < 2 ^ d → k ≠ 0 → r' k t = r (k ^^^ idx) t) :
    voleV (2 ^ d) r' j t = voleV (2 ^ d) r j t ^^^
      (if idx / 2 ^ j % 2 = 1 then voleU (2 ^ d) r t else 0) := by
  unfold voleV voleU
  have e1 : xsum (2 ^ d) (fun i => if i / 2 ^ j % 2 = 1 then r' i t else 0)
      = xsum (2 ^ d) (fun k => (fun m => if (m ^^^ idx) / 2 ^ j % 2 = 1 then r m t else 0) (k ^^^ idx)) := by
    refine xsum_congr fun k hk => ?_
    simp only [Nat.xor_assoc, Nat.xor_self, Nat.xor_zero]
    by_cases hk0 : k = 0
    · subst hk0
      simp
    · rw [h k hk hk0]
  rw [e1, xsum_reindex d idx hi (fun m => if (m ^^^ idx) / 2 ^ j % 2 = 1 then r m t else 0)]
  rcases Nat.mod_two_eq_zero_or_one (idx / 2 ^ j) with e | e
  · rw [e, if_neg (by decide), show ∀ y : Byte, y ^^^ (0 : Byte) = y from fun y => BitVec.xor_zero]
    refine xsum_congr fun k _ => ?_
    rw [xor_bit, e, Nat.add_zero, Nat.mod_mod]
  · rw [e, if_pos rfl, ← xsum_xor]
    refine xsum_congr fun k _ => ?_
    rw [xor_bit, e]
    rcases Nat.mod_two_eq_zero_or_one (k / 2 ^ j) with e' | e' <;> rw [e']
    · rw [if_pos rfl, if_neg (by decide)]
      exact BitVec.zero_xor.symm
    · rw [if_neg (by decide), if_pos rfl]
      exact BitVec.xor_self.symm

/-- The sibling paths in `cop` are those of the prover's trees. -/
def HonestPath (P : Params) (rootKey iv : List Byte) (ch : Nat → Byte) (cop : Nat → Nat → List Byte) :
    Prop :=
  ∀ i, i < P.tau → ∀ l, l < depth P i →
    cop i l = pNode P rootKey iv i (l + 1) (sib (anc (depth P i) (leafIdx P ch i) (l + 1)))

theorem leafIdx_lt (P : Params) (ch : Nat → Byte) (i : Nat) : leafIdx P ch i < 2 ^ depth P i :=
  bitsNat_lt _ _

theorem leafIdx_bit {P : Params} {ch : Nat → Byte} {i j : Nat} (hj : j < depth P i) :
    leafIdx P ch i / 2 ^ j % 2 = if strBit ch (colStart P i + j) then 1 else 0 :=
  bitsNat_bit _ _ j hj

theorem vNode_honest {P : Params} {rootKey iv : List Byte} {ch : Nat → Byte}
    {cop : Nat → Nat → List Byte} (hcop : HonestPath P rootKey iv ch cop) {i j : Nat} (hi : i < P.tau)
    (hj : j < 2 ^ depth P i) (hne : j ≠ leafIdx P ch i) :
    vNode P iv ch cop i (depth P i) j = pNode P rootKey iv i (depth P i) j :=
  recNode_honest (hcop i hi) _ _ (Nat.le_refl _) (by rwa [anc_self]) hj (leafIdx_lt P ch i)

/-- Uncorrected correlation. -/
theorem vQ_honest {X : XOF} {P : Params} (h : PWF P) {rootKey iv : List Byte} {ch : Nat → Byte}
    {cop : Nat → Nat → List Byte} (hcop : HonestPath P rootKey iv ch cop) {p : Nat} (hp : p < P.lambda)
    (t : Nat) :
    vQ X P iv ch cop p t = pV X P rootKey iv p t ^^^
      (if strBit ch p then pU X P rootKey iv (treeOf P p) t else 0) := by
  obtain ⟨i, j, hi, hj, rfl⟩ := h.col_exists hp
  rw [vQ_col h hj, pV_col h hj, h.treeOf_col hj,
    voleV_shift (depth P i) (leafIdx P ch i) j t (leafIdx_lt P ch i) (pR X P rootKey iv i)]
  · rw [leafIdx_bit hj]
    cases strBit ch (colStart P i + j) <;> rfl
  · intro k hk hk0
    unfold vR pR pSd
    rw [if_neg hk0]
    show expand P.lambda iv (leafSd X P.lambda iv (vNode P iv ch cop i (depth P i)
      (Nat.xor k (leafIdx P ch i)))) t = _
    rw [vNode_honest hcop hi (nat_xor_lt hk (leafIdx_lt P ch i)) (nat_xor_ne hk0)]
    rfl

theorem hcomOf_congr {X : XOF} {P : Params} {c c' : Nat → Nat → List Byte}
    (h : ∀ i, i < P.tau → ∀ j, j < 2 ^ depth P i → c i j = c' i j) : hcomOf X P c = hcomOf X P c' := by
  unfold hcomOf comDigest
  congr 3
  exact tabP_congr fun i hi => by rw [tabP_congr (h i hi)]

theorem hcom_honest {X : XOF} {P : Params} {rootKey iv : List Byte} {ch : Nat → Byte}
    {cop : Nat → Nat → List Byte} {comj : Nat → List Byte} (hcop : HonestPath P rootKey iv ch cop)
    (hcom : ∀ i, i < P.tau → comj i = pCom X P rootKey iv i (leafIdx P ch i)) :
    hcomOf X P (vCom X P iv ch cop comj) = hcomOf X P (pCom X P rootKey iv) := by
  refine hcomOf_congr fun i hi j hj => ?_
  unfold vCom
  by_cases hc : j = leafIdx P ch i
  · rw [if_pos hc, hcom i hi, hc]
  · rw [if_neg hc, vNode_honest hcop hi hj hc]; rfl

end Faest
