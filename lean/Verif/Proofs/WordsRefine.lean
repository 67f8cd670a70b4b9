/-
The word-level routines of fields.c implement the operations on bit vectors.
-/
import Verif.Spec.Words
import Verif.Proofs.LoadStore

namespace Faest.Words

open Faest.Spec (wordsNat Repr)

/-- Word `q`, zero past the end. -/
def wd {k : Nat} (v : Ws k) (q : Nat) : U64 := (v[q]?).getD 0

theorem wordsNat_testBit (l : List U64) (i : Nat) :
    (wordsNat l).testBit i = ((l[i / 64]?).getD 0).getLsbD (i % 64) := by
  induction l generalizing i with
  | nil => simp [wordsNat]
  | cons w ws ih =>
    rw [wordsNat, Nat.add_comm, Nat.testBit_two_pow_mul_add _ w.isLt]
    by_cases h : i < 64
    · rw [if_pos h, Nat.div_eq_of_lt h, Nat.mod_eq_of_lt h]
      simp [BitVec.getLsbD]
    · rw [if_neg h, ih]
      obtain ⟨j, rfl⟩ : ∃ j, i = j + 64 := ⟨i - 64, by omega⟩
      simp

theorem repr_iff {n k : Nat} (v : Ws k) (a : BitVec n) :
    Repr v a ↔ ∀ q, wd v q = a.extractLsb' (64 * q) 64 := by
  constructor
  · intro h q
    apply BitVec.eq_of_getLsbD_eq
    intro r hr
    have := wordsNat_testBit v.toList (64 * q + r)
    rw [show wordsNat v.toList = a.toNat from h] at this
    have e1 : (64 * q + r) / 64 = q := by omega
    have e2 : (64 * q + r) % 64 = r := by omega
    rw [e1, e2] at this
    rw [BitVec.getLsbD_extractLsb']
    simp only [hr, decide_true, Bool.true_and, wd]
    rw [show a.getLsbD (64 * q + r) = a.toNat.testBit (64 * q + r) from rfl, this]
    simp
  · intro h
    apply Nat.eq_of_testBit_eq
    intro i
    rw [wordsNat_testBit]
    have := h (i / 64)
    simp only [wd] at this
    have e : (v.toList[i / 64]?) = v[i / 64]? := by simp
    rw [e, this, BitVec.getLsbD_extractLsb']
    have : i % 64 < 64 := Nat.mod_lt _ (by decide)
    simp only [this, decide_true, Bool.true_and]
    rw [Nat.div_add_mod]
    rfl

theorem Repr.wd {n k : Nat} {v : Ws k} {a : BitVec n} (h : Repr v a) (q : Nat) :
    wd v q = a.extractLsb' (64 * q) 64 := (repr_iff v a).1 h q

theorem Repr.zero_of_le {n k : Nat} {v : Ws k} {a : BitVec n} (h : Repr v a) {q : Nat}
    (hq : n ≤ 64 * q) : Words.wd v q = 0 := by
  rw [Repr.wd h]
  apply BitVec.eq_of_getLsbD_eq
  intro r hr
  rw [BitVec.getLsbD_extractLsb']
  simp [hr, BitVec.getLsbD_of_ge a (64 * q + r) (by omega)]

/-- What the build-dependent primitives do, word by word. -/
structure Good (I : Impl) : Prop where
  n64 : 64 * (I.n / 64) = I.n
  npos : 64 ≤ I.n
  hk : I.n / 64 ≤ I.k
  add : ∀ x y q, wd (I.add x y) q = wd x q ^^^ wd y q
  and64 : ∀ x m q, wd (I.and64 x m) q = wd x q &&& m
  shl1 : ∀ x, (∀ q, I.n / 64 ≤ q → wd x q = 0) → ∀ q, wd (I.shl1 x) q =
    if q < I.n / 64 then (wd x q <<< 1) ||| (if q = 0 then 0#64 else wd x (q - 1) >>> 63) else 0#64
  reduce : ∃ M : U64, bfModulus I.n = M.zeroExtend I.n ∧
    ∀ x m q, wd (I.reduce x m) q = if q = 0 then wd x 0 ^^^ (m &&& M) else wd x q
  bfC : ∀ x q, wd (I.bfC x) q = wd x q
  zero3 : I.loadZero3 = true → I.n / 64 = 3 ∧ I.k = 4
  zero3' : I.loadZero3 = false → I.n / 64 = I.k
  nmem : I.n = 128 ∨ I.n = 192 ∨ I.n = 256
  vec : I.vec = true → I.add = vXor

theorem wd_lt {k : Nat} (v : Ws k) {q : Nat} (h : q < k) : wd v q = v[q] := by
  simp [wd, h]

theorem wd_ge {k : Nat} (v : Ws k) {q : Nat} (h : k ≤ q) : wd v q = 0 := by
  simp [wd, Nat.not_lt.2 h]

theorem wd_vXor {k : Nat} (x y : Ws k) (q : Nat) : wd (vXor x y) q = wd x q ^^^ wd y q := by
  by_cases h : q < k
  · simp [wd_lt _ h, vXor]
  · simp [wd_ge _ (Nat.not_lt.1 h)]

theorem wd_vOr {k : Nat} (x y : Ws k) (q : Nat) : wd (vOr x y) q = wd x q ||| wd y q := by
  by_cases h : q < k
  · simp [wd_lt _ h, vOr]
  · simp [wd_ge _ (Nat.not_lt.1 h)]

theorem wd_vAnd {k : Nat} (x y : Ws k) (q : Nat) : wd (vAnd x y) q = wd x q &&& wd y q := by
  by_cases h : q < k
  · simp [wd_lt _ h, vAnd]
  · simp [wd_ge _ (Nat.not_lt.1 h)]

theorem wd_vAndS {k : Nat} (x : Ws k) (m : U64) (q : Nat) : wd (vAndS x m) q = wd x q &&& m := by
  by_cases h : q < k
  · simp [wd_lt _ h, vAndS, vAnd]
  · simp [wd_ge _ (Nat.not_lt.1 h)]

theorem wd_vShl {k : Nat} (x : Ws k) (s q : Nat) : wd (vShl x s) q = wd x q <<< s := by
  by_cases h : q < k
  · simp [wd_lt _ h, vShl]
  · simp [wd_ge _ (Nat.not_lt.1 h)]

theorem wd_vShr {k : Nat} (x : Ws k) (s q : Nat) : wd (vShr x s) q = wd x q >>> s := by
  by_cases h : q < k
  · simp [wd_lt _ h, vShr]
  · simp [wd_ge _ (Nat.not_lt.1 h)]

theorem wd_set {k : Nat} (x : Ws k) (i : Nat) (h : i < k) (w : U64) (q : Nat) :
    wd (x.set i w) q = if q = i then w else wd x q := by
  by_cases hq : q < k
  · simp only [wd_lt _ hq, Vector.getElem_set]
    by_cases e : i = q <;> simp [e, eq_comm]
  · simp [wd_ge _ (Nat.not_lt.1 hq)]
    omega

/-- A loop which updates word after word. -/
theorem foldl_set {k : Nat} (f : U64 → Fin k → U64) (x : Ws k) (q : Nat) (hq : q < k) :
    (Fin.foldl k (fun l i => l.set i (f l[i] i)) x)[q] = f x[q] ⟨q, hq⟩ := by
  have key : ∀ (m : Nat) (hm : m ≤ k),
      ∀ q (hq : q < k), (Fin.foldl m (fun l (i : Fin m) =>
        l.set i.val (f (l[i.val]'(by omega)) ⟨i.val, by omega⟩) (by omega)) x)[q]
        = if q < m then f x[q] ⟨q, hq⟩ else x[q] := by
    intro m
    induction m with
    | zero => intro hm q hq; simp
    | succ m ih =>
      intro hm q hq
      rw [Fin.foldl_succ_last]
      simp only [Fin.val_last, Fin.val_castSucc, Vector.getElem_set]
      rw [ih (by omega) q hq, ih (by omega) m (by omega)]
      by_cases e : m = q
      · subst e
        simp
      · rw [if_neg e]
        by_cases h : q < m
        · rw [if_pos h, if_pos (by omega)]
        · rw [if_neg h, if_neg (by omega)]
  have := key k (Nat.le_refl k) q hq
  rw [if_pos hq] at this
  exact this

theorem wd_sAdd {k : Nat} (x y : Ws k) (q : Nat) : wd (sAdd x y) q = wd x q ^^^ wd y q := by
  by_cases h : q < k
  · simp only [wd_lt _ h, sAdd]
    rw [foldl_set (fun w i => w ^^^ y[i]) x q h]
    rfl
  · simp [wd_ge _ (Nat.not_lt.1 h)]

theorem wd_sAnd64 {k : Nat} (x : Ws k) (m : U64) (q : Nat) : wd (sAnd64 x m) q = wd x q &&& m := by
  by_cases h : q < k
  · simp only [wd_lt _ h, sAnd64]
    rw [foldl_set (fun w _ => w &&& m) x q h]
  · simp [wd_ge _ (Nat.not_lt.1 h)]

theorem wd_xor0 {k : Nat} (hk : 0 < k) (x : Ws k) (m : U64) (q : Nat) :
    wd (xor0 hk x m) q = if q = 0 then wd x 0 ^^^ m else wd x q := by
  rw [xor0, wd_set, wd_lt _ hk]

theorem q_cases2 (q : Nat) : q = 0 ∨ q = 1 ∨ 2 ≤ q := by omega
theorem q_cases3 (q : Nat) : q = 0 ∨ q = 1 ∨ q = 2 ∨ 3 ≤ q := by omega
theorem q_cases4 (q : Nat) : q = 0 ∨ q = 1 ∨ q = 2 ∨ q = 3 ∨ 4 ≤ q := by omega

theorem wd_sShl1_128 (x : Ws 2) (q : Nat) : wd (sShl1_128 x) q =
    if q < 2 then (wd x q <<< 1) ||| (if q = 0 then 0#64 else wd x (q - 1) >>> 63) else 0#64 := by
  rcases q_cases2 q with rfl | rfl | h
  · simp [sShl1_128, wd_set, wd]
  · simp [sShl1_128, wd_set, wd]
  · rw [wd_ge _ h, if_neg (by omega)]; rfl

theorem wd_sShl1_192 (x : Ws 3) (q : Nat) : wd (sShl1_192 x) q =
    if q < 3 then (wd x q <<< 1) ||| (if q = 0 then 0#64 else wd x (q - 1) >>> 63) else 0#64 := by
  rcases q_cases3 q with rfl | rfl | rfl | h
  · simp [sShl1_192, wd_set, wd]
  · simp [sShl1_192, wd_set, wd]
  · simp [sShl1_192, wd_set, wd]
  · rw [wd_ge _ h, if_neg (by omega)]; rfl

theorem wd_sShl1_256 (x : Ws 4) (q : Nat) : wd (sShl1_256 x) q =
    if q < 4 then (wd x q <<< 1) ||| (if q = 0 then 0#64 else wd x (q - 1) >>> 63) else 0#64 := by
  rcases q_cases4 q with rfl | rfl | rfl | rfl | h
  · simp [sShl1_256, wd_set, wd]
  · simp [sShl1_256, wd_set, wd]
  · simp [sShl1_256, wd_set, wd]
  · simp [sShl1_256, wd_set, wd]
  · rw [wd_ge _ h, if_neg (by omega)]; rfl

theorem shuffle_get {k : Nat} (v1 v2 : Ws k) (idx : Vector (Fin (k + k)) k) (i : Nat) (hi : i < k) :
    (shuffle v1 v2 idx)[i] = if h : idx[i].val < k then v1[idx[i].val] else v2[idx[i].val - k] := by
  simp only [shuffle, Vector.getElem_map, Vector.getElem_append]

theorem shr128_eq : shr64_128_builtin = shr64_128_fn := by
  funext v; apply Vector.ext; intro i hi
  obtain rfl | rfl : i = 0 ∨ i = 1 := by omega
  all_goals simp [shr64_128_builtin, shr64_128_fn, shuffle_get]

theorem shr192_eq : shr64_192_builtin = shr64_192_fn := by
  funext v; apply Vector.ext; intro i hi
  obtain rfl | rfl | rfl | rfl : i = 0 ∨ i = 1 ∨ i = 2 ∨ i = 3 := by omega
  all_goals simp [shr64_192_builtin, shr64_192_fn, shuffle_get]

theorem shr256_eq : shr64_256_builtin = shr64_256_fn := by
  funext v; apply Vector.ext; intro i hi
  obtain rfl | rfl | rfl | rfl : i = 0 ∨ i = 1 ∨ i = 2 ∨ i = 3 := by omega
  all_goals simp [shr64_256_builtin, shr64_256_fn, shuffle_get]

theorem wd_vShl1_128 (x : Ws 2) (q : Nat) : wd (vShl1 shr64_128_fn x) q =
    if q < 2 then (wd x q <<< 1) ||| (if q = 0 then 0#64 else wd x (q - 1) >>> 63) else 0#64 := by
  rcases q_cases2 q with rfl | rfl | h
  · simp [vShl1, wd_vOr, wd_vShl, shr64_128_fn]; simp [wd]
  · simp [vShl1, wd_vOr, wd_vShl, shr64_128_fn]; simp [wd, vShr]
  · rw [wd_ge _ h, if_neg (by omega)]; rfl

theorem wd_vShl1_192 (x : Ws 4) (q : Nat) : wd (vShl1_192 shr64_192_fn x) q =
    if q < 3 then (wd x q <<< 1) ||| (if q = 0 then 0#64 else wd x (q - 1) >>> 63) else 0#64 := by
  have e : ∀ w : U64, w &&& 0xffffffffffffffff#64 = w := fun w => by
    rw [show (0xffffffffffffffff#64) = BitVec.allOnes 64 by decide, BitVec.and_allOnes]
  rcases q_cases4 q with rfl | rfl | rfl | rfl | h
  · simp [vShl1_192, wd_vAnd, vShl1, wd_vOr, wd_vShl, shr64_192_fn]; simp [wd, e]
  · simp [vShl1_192, wd_vAnd, vShl1, wd_vOr, wd_vShl, shr64_192_fn]; simp [wd, vShr, e]
  · simp [vShl1_192, wd_vAnd, vShl1, wd_vOr, wd_vShl, shr64_192_fn]; simp [wd, vShr, e]
  · simp [vShl1_192, wd_vAnd, vShl1, wd_vOr, wd_vShl, shr64_192_fn]; simp [wd]
  · rw [wd_ge _ h, if_neg (by omega)]; rfl

theorem wd_vShl1_256 (x : Ws 4) (q : Nat) : wd (vShl1 shr64_256_fn x) q =
    if q < 4 then (wd x q <<< 1) ||| (if q = 0 then 0#64 else wd x (q - 1) >>> 63) else 0#64 := by
  rcases q_cases4 q with rfl | rfl | rfl | rfl | h
  · simp [vShl1, wd_vOr, wd_vShl, shr64_256_fn]; simp [wd]
  · simp [vShl1, wd_vOr, wd_vShl, shr64_256_fn]; simp [wd, vShr]
  · simp [vShl1, wd_vOr, wd_vShl, shr64_256_fn]; simp [wd, vShr]
  · simp [vShl1, wd_vOr, wd_vShl, shr64_256_fn]; simp [wd, vShr]
  · rw [wd_ge _ h, if_neg (by omega)]; rfl

theorem wd_lit2 (x : Ws 2) (q : Nat) : wd #v[x[0], x[1]] q = wd x q := by
  rcases q_cases2 q with rfl | rfl | h
  · simp [wd]
  · simp [wd]
  · rw [wd_ge _ h, wd_ge _ h]

theorem wd_lit3 (x : Ws 3) (q : Nat) : wd #v[x[0], x[1], x[2]] q = wd x q := by
  rcases q_cases3 q with rfl | rfl | rfl | h
  · simp [wd]
  · simp [wd]
  · simp [wd]
  · rw [wd_ge _ h, wd_ge _ h]

theorem wd_lit30 (x : Ws 3) (q : Nat) : wd #v[x[0], x[1], x[2], 0] q = wd x q := by
  rcases q_cases4 q with rfl | rfl | rfl | rfl | h
  · simp [wd]
  · simp [wd]
  · simp [wd]
  · simp [wd]
  · rw [wd_ge _ h, wd_ge _ (by omega)]

theorem wd_lit4 (x : Ws 4) (q : Nat) : wd #v[x[0], x[1], x[2], x[3]] q = wd x q := by
  rcases q_cases4 q with rfl | rfl | rfl | rfl | h
  · simp [wd]
  · simp [wd]
  · simp [wd]
  · simp [wd]
  · rw [wd_ge _ h, wd_ge _ h]

theorem wd_reduce256 (x : Ws 4) (m : U64) (q : Nat) :
    wd (vXor x (vAndS #v[mod256, 0, 0, 0] m)) q =
      if q = 0 then wd x 0 ^^^ (m &&& mod256) else wd x q := by
  rw [wd_vXor, wd_vAndS]
  rcases q_cases4 q with rfl | rfl | rfl | rfl | h
  · simp [wd, BitVec.and_comm]
  · simp [wd]
  · simp [wd]
  · simp [wd]
  · rw [if_neg (by omega), wd_ge _ h]
    simp [wd_ge _ h]

theorem good_struct128 : Good struct128 where
  n64 := by decide
  npos := by decide
  hk := by decide
  add := wd_sAdd
  and64 := wd_sAnd64
  shl1 := fun x _ q => wd_sShl1_128 x q
  reduce := ⟨mod128, by decide, fun x m q => wd_xor0 _ x _ q⟩
  bfC := wd_lit2
  zero3 := by decide
  zero3' := by decide
  nmem := by decide
  vec := fun h => absurd h (by decide)

theorem good_struct192 : Good struct192 where
  n64 := by decide
  npos := by decide
  hk := by decide
  add := wd_sAdd
  and64 := wd_sAnd64
  shl1 := fun x _ q => wd_sShl1_192 x q
  reduce := ⟨mod192, by decide, fun x m q => wd_xor0 _ x _ q⟩
  bfC := wd_lit3
  zero3 := by decide
  zero3' := by decide
  nmem := by decide
  vec := fun h => absurd h (by decide)

theorem good_struct256 : Good struct256 where
  n64 := by decide
  npos := by decide
  hk := by decide
  add := wd_sAdd
  and64 := wd_sAnd64
  shl1 := fun x _ q => wd_sShl1_256 x q
  reduce := ⟨mod256, by decide, fun x m q => wd_xor0 _ x _ q⟩
  bfC := wd_lit4
  zero3 := by decide
  zero3' := by decide
  nmem := by decide
  vec := fun h => absurd h (by decide)

theorem good_vec128 : Good (vec128 shr64_128_fn) where
  n64 := by decide
  npos := by decide
  hk := by decide
  add := wd_vXor
  and64 := wd_vAndS
  shl1 := fun x _ q => wd_vShl1_128 x q
  reduce := ⟨mod128, by decide, fun x m q => wd_xor0 _ x _ q⟩
  bfC := wd_lit2
  zero3 := by decide
  zero3' := by decide
  nmem := by decide
  vec := fun _ => rfl

theorem good_vec192 : Good (vec192 shr64_192_fn) where
  n64 := by decide
  npos := by decide
  hk := by decide
  add := wd_vXor
  and64 := wd_vAndS
  shl1 := fun x _ q => wd_vShl1_192 x q
  reduce := ⟨mod192, by decide, fun x m q => wd_xor0 _ x _ q⟩
  bfC := wd_lit30
  zero3 := by decide
  zero3' := by decide
  nmem := by decide
  vec := fun _ => rfl

theorem good_vec256 : Good (vec256 shr64_256_fn) where
  n64 := by decide
  npos := by decide
  hk := by decide
  add := wd_vXor
  and64 := wd_vAndS
  shl1 := fun x _ q => wd_vShl1_256 x q
  reduce := ⟨mod256, by decide, wd_reduce256⟩
  bfC := wd_lit4
  zero3 := by decide
  zero3' := by decide
  nmem := by decide
  vec := fun _ => rfl

theorem good_impls : ∀ I ∈ impls, Good I := by
  intro I hI
  simp only [impls, shr128_eq, shr192_eq, shr256_eq, List.mem_cons, List.not_mem_nil, or_false] at hI
  rcases hI with rfl | rfl | rfl | rfl | rfl | rfl | rfl | rfl | rfl
  · exact good_struct128
  · exact good_struct192
  · exact good_struct256
  · exact good_vec128
  · exact good_vec128
  · exact good_vec192
  · exact good_vec192
  · exact good_vec256
  · exact good_vec256

end Faest.Words
