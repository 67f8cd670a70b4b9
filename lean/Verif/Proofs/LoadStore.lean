/-
Little-endian load and store.
-/
import Verif.Proofs.FieldFacts

namespace Faest

variable {n : Nat}

/-- Bit `i` of a little-endian byte sequence. -/
def bitOf (g : Nat → Byte) (i : Nat) : Bool := (g (i / 8)).getLsbD (i % 8)

theorem leNat_lt (l : List Byte) : leNat l < 2 ^ (8 * l.length) := by
  induction l with
  | nil => simp [leNat]
  | cons b bs ih =>
    have hb := b.isLt
    rw [leNat, List.length_cons, Nat.mul_add, Nat.mul_one, Nat.pow_add]
    omega

theorem leNat_testBit (l : List Byte) (i : Nat) :
    (leNat l).testBit i = match l[i / 8]? with
      | some b => b.getLsbD (i % 8)
      | none => false := by
  induction l generalizing i with
  | nil => simp [leNat]
  | cons b bs ih =>
    have hb := b.isLt
    rw [leNat]
    by_cases hi : i < 8
    · have h0 : i / 8 = 0 := by omega
      have h1 : i % 8 = i := by omega
      rw [h0, h1]
      simp only [List.getElem?_cons_zero]
      rw [BitVec.getLsbD, Nat.add_comm, show (256 : Nat) = 2 ^ 8 from rfl,
        Nat.testBit_two_pow_mul_add _ hb, if_pos hi]
    · have h0 : i / 8 = (i - 8) / 8 + 1 := by omega
      rw [h0]
      simp only [List.getElem?_cons_succ]
      rw [Nat.add_comm, show (256 : Nat) = 2 ^ 8 from rfl,
        Nat.testBit_two_pow_mul_add _ hb, if_neg hi, ih]
      rw [show (i - 8) % 8 = i % 8 by omega]

/-- Bit `i` of a loaded element is bit `i % 8` of byte `i / 8`. -/
theorem ofBytes_getLsbD (g : Nat → Byte) (hn : 8 ∣ n) (i : Nat) (hi : i < n) :
    (BF.ofBytes n (tabP (n / 8) g)).v.getLsbD i = bitOf g i := by
  unfold BF.ofBytes bitOf
  simp only [BitVec.getLsbD_ofNat, hi, leNat_testBit, tabP_getElem?]
  have : i / 8 < n / 8 := by omega
  simp [this]

theorem toBytes_eq (a : BF n) :
    a.toBytes = tabP (n / 8) (fun i => a.v.extractLsb' (8 * i) 8) := rfl

/-- Byte `j` of a stored element. -/
def byteAt (a : BF n) (j : Nat) : Byte := a.v.extractLsb' (8 * j) 8

theorem byteAt_getLsbD (a : BF n) (j k : Nat) (hk : k < 8) :
    (byteAt a j).getLsbD k = a.v.getLsbD (8 * j + k) := by
  unfold byteAt
  rw [BitVec.getLsbD_extractLsb']
  simp [hk]

theorem bitOf_byteAt (a : BF n) (i : Nat) : bitOf (byteAt a) i = a.v.getLsbD i := by
  unfold bitOf
  rw [byteAt_getLsbD _ _ _ (Nat.mod_lt _ (by decide)), Nat.div_add_mod]

theorem ofBytes_toBytes (hn : 8 ∣ n) (a : BF n) : BF.ofBytes n a.toBytes = a := by
  ext1
  apply BitVec.eq_of_getLsbD_eq
  intro i hi
  rw [toBytes_eq]
  rw [ofBytes_getLsbD _ hn i hi]
  exact bitOf_byteAt a i

theorem byteAt_ofBytes (hn : 8 ∣ n) (g : Nat → Byte) (j : Nat) (hj : j < n / 8) :
    byteAt (BF.ofBytes n (tabP (n / 8) g)) j = g j := by
  apply BitVec.eq_of_getLsbD_eq
  intro k hk
  rw [byteAt_getLsbD _ _ _ hk, ofBytes_getLsbD _ hn _ (by omega)]
  unfold bitOf
  rw [show (8 * j + k) / 8 = j by omega, show (8 * j + k) % 8 = k by omega]

theorem toBytes_ofBytes (hn : 8 ∣ n) (l : List Byte) (hl : l.length = n / 8) :
    (BF.ofBytes n l).toBytes = l := by
  have h : l = tabP (n / 8) (fun i => l.getD i 0) := by
    apply list_eq_tabP _ _ _ hl
    intro i hi
    rw [List.getD_eq_getElem?_getD, List.getElem?_eq_getElem (by omega)]
    rfl
  rw [toBytes_eq, h]
  apply tabP_congr
  intro j hj
  exact byteAt_ofBytes hn _ j hj

/-- The element loaded from bytes `g`. -/
def loadF (n : Nat) (g : Nat → Byte) : BF n := BF.ofBytes n (tabP (n / 8) g)

theorem loadF_getLsbD (hn : 8 ∣ n) (g : Nat → Byte) (i : Nat) (hi : i < n) :
    (loadF n g).v.getLsbD i = bitOf g i := ofBytes_getLsbD g hn i hi

theorem loadF_congr {g h : Nat → Byte} (e : ∀ i, i < n / 8 → g i = h i) : loadF n g = loadF n h := by
  unfold loadF; rw [tabP_congr e]

theorem bfLoad_ok {src : Mem Byte} {off : Nat} {g : Nat → Byte} (hn : 8 ≤ n)
    (h : Has src off (n / 8) g) : bfLoad n src off = some (loadF n g) := by
  unfold bfLoad
  rw [rdN_has h (by omega)]
  rfl

theorem loadF_byteAt (hn : 8 ∣ n) (a : BF n) : loadF n (byteAt a) = a :=
  ofBytes_toBytes hn a

theorem loadF_xor (hn : 8 ∣ n) (g h : Nat → Byte) :
    loadF n (fun i => g i ^^^ h i) = loadF n g + loadF n h := by
  ext1
  apply BitVec.eq_of_getLsbD_eq
  intro i hi
  rw [BF.add_v, BitVec.getLsbD_xor, loadF_getLsbD hn _ i hi, loadF_getLsbD hn _ i hi,
    loadF_getLsbD hn _ i hi]
  unfold bitOf
  rw [BitVec.getLsbD_xor]

theorem loadF_eq_sum (hn : 8 ∣ n) (hp : 0 < n) (g : Nat → Byte) :
    loadF n g = ∑ i ∈ Finset.range n, BF.bitF n (bitOf g i) * BF.xelt ^ i := by
  rw [BF.eq_sum (loadF n g)]
  refine Finset.sum_congr rfl fun i hi => ?_
  rw [loadF_getLsbD hn _ i (Finset.mem_range.1 hi), BF.dblN_eq _ _ hp]
  unfold BF.bitF
  cases bitOf g i <;> simp

theorem bfStore_ok {dst : Mem Byte} {off : Nat} {a : BF n} {Q : Mem Byte → Prop}
    (h : off + n / 8 ≤ dst.length)
    (hq : ∀ m', m'.length = dst.length →
      (∀ j, rd m' j = if off ≤ j ∧ j < off + n / 8 then some (byteAt a (j - off)) else rd dst j)
      → Q m') : Ok (bfStore dst off a) Q := by
  unfold bfStore
  refine Ok.wrN (by rw [toBytes_eq, tabP_length]; exact h) ?_
  intro m' hl hr
  refine hq m' hl ?_
  intro j
  rw [hr j, toBytes_eq, tabP_length]
  by_cases hj : off ≤ j ∧ j < off + n / 8
  · rw [if_pos hj, if_pos hj, tabP_getElem?, if_pos (by omega)]
    rfl
  · rw [if_neg hj, if_neg hj]

end Faest
