/-
The load and store functions of a big-endian host (`Model/Gen/Fields*be.lean`).
-/
import Verif.Proofs.Gen.Words2
import Verif.Model.Gen.FieldsSbe
import Verif.Model.Gen.FieldsVBbe
import Verif.Model.Gen.FieldsVFbe
import Verif.Proofs.FlatBase

set_option linter.unusedSimpArgs false

namespace Faest.GenF

open Faest.Words Faest.Words.Impl Faest.Spec

theorem forR_state {S : Type} (n : Nat) (st : Nat → S) (f : Nat → S → Option S)
    (h : ∀ i, i < n → f i (st i) = some (st (i + 1))) : forR 0 n (st 0) f = some (st n) := by
  unfold forR
  simp only [Nat.sub_zero, Nat.zero_add]
  induction n with
  | zero => rfl
  | succ n ih =>
    rw [forN_succ, ih fun i hi => h i (by omega)]
    exact h n (by omega)

/-- The words of an uninitialised object of which `i` have been loaded. -/
def beSt (k : Nat) (W : Nat → U64) (i : Nat) : Mem U64 :=
  tabP k (fun j => if j < i then some (W j) else none)

theorem beSt_set {k : Nat} (W : Nat → U64) (i : Nat) (h : i < k) (v : Option U64) (w : U64)
    (hw : W i = w) : ((beSt k W i).set i v).set i (some w) = beSt k W (i + 1) := by
  rw [List.set_set]
  apply List.ext_getElem?
  intro j
  unfold beSt
  rw [List.getElem?_set, tabP_getElem?, tabP_getElem?]
  by_cases hj : j < k
  · by_cases e : i = j
    · subst e; simp [hj, hw]
    · simp only [e, if_false, hj, if_true]
      by_cases h' : j < i
      · rw [if_pos h', if_pos (by omega)]
      · rw [if_neg h', if_neg (by omega)]
  · have : i ≠ j := by omega
    simp [this, hj]

theorem rdN_has {src : Mem Byte} {o n : Nat} {g : Nat → Byte} (h0 : 0 < n)
    (h : ∀ i, i < n → rd src (o + i) = some (g i)) : rdN src o n = some (tabP n g) := by
  apply rdN_eq h
  have := h (n - 1) (by omega)
  have h1 : o + (n - 1) < src.length := by
    by_contra hc
    unfold rd at this
    rw [List.getElem?_eq_none (by omega)] at this
    cases this
  omega

theorem getD_tabP (n : Nat) (g : Nat → Byte) (j : Nat) (h : j < n) : (tabP n g).getD j 0 = g j := by
  rw [List.getD_eq_getElem?_getD, tabP_getElem?, if_pos h]; rfl

theorem wordOf_congr {be : Bool} {g h : Nat → Byte} (e : ∀ j, j < 8 → g j = h j) :
    wordOf be g = wordOf be h := by
  unfold wordOf u64C
  cases be <;> simp only [Bool.false_eq_true, if_false, if_true] <;>
    simp only [e 0 (by decide), e 1 (by decide), e 2 (by decide), e 3 (by decide), e 4 (by decide),
      e 5 (by decide), e 6 (by decide), e 7 (by decide), Nat.sub_zero, Nat.reduceSub]

theorem beLoad_loop {k w : Nat} (hw : w ≤ k) {src : Mem Byte} {o : Nat} {g : Nat → Byte}
    (h : ∀ i, i < 8 * w → rd src (o + i) = some (g i)) :
    forR 0 w ((malloc k : Mem U64), o) (fun i s1 => (memIn true s1.1 i src s1.2 8).bind fun ret =>
      (rd ret i).bind fun x2 => (wr ret i (le64 true x2)).bind fun ret => some (ret, s1.2 + 8))
    = some (beSt k (fun i => le64 true (wordOf true fun j => g (8 * i + j))) w, o + 8 * w) := by
  have h0 : (malloc k : Mem U64) = beSt k (fun i => le64 true (wordOf true fun j => g (8 * i + j))) 0 := by
    unfold malloc beSt tabP
    simp
  rw [h0]
  refine forR_state w (fun i => (beSt k (fun i => le64 true (wordOf true fun j => g (8 * i + j))) i,
    o + 8 * i)) _ fun i hi => ?_
  generalize hW : (fun i => le64 true (wordOf true fun j => g (8 * i + j))) = W
  have hr : rdN src (o + 8 * i) 8 = some (tabP 8 fun j => g (8 * i + j)) :=
    rdN_has (by decide) fun j hj => by rw [Nat.add_assoc]; exact h _ (by omega)
  have hlen : (beSt k W i).length = k := by unfold beSt; simp
  have hm : memIn true (beSt k W i) i src (o + 8 * i) 8
      = some ((beSt k W i).set i (some (wordOf true fun j => g (8 * i + j)))) := by
    unfold memIn
    rw [hr]
    simp only [Option.bind_eq_bind, Option.bind_some]
    rw [if_pos (by decide)]
    unfold wrN
    rw [if_pos (by rw [tabP_length, hlen]; omega)]
    have : tabP (8 / 8) (fun w => wordOf true fun j => (tabP 8 fun j => g (8 * i + j)).getD (8 * w + j) 0)
        = [wordOf true fun j => g (8 * i + j)] := by
      refine congrArg (fun x => [x]) (wordOf_congr fun j hj => ?_)
      rw [Nat.mul_zero, Nat.zero_add, getD_tabP 8 _ j hj]
    rw [this, List.set_eq_take_append_cons_drop, if_pos (by omega)]
    simp
  dsimp only
  rw [hm, Option.bind_some, rd, List.getElem?_set_self (by omega)]
  show (wr _ _ _).bind _ = _
  unfold wr
  rw [if_pos (by rw [List.length_set]; omega), Option.bind_some,
    beSt_set W i (by omega) _ _ (by rw [← hW])]
  rfl

theorem load_true (I : Impl) {src : Mem Byte} {o w : Nat} {g : Nat → Byte} (hw : I.n = 64 * w) (h0 : 0 < w)
    (h : ∀ i, i < 8 * w → rd src (o + i) = some (g i)) :
    I.load true src o = (wrN (malloc I.k) 0 (tabP w fun i => le64 true (wordOf true fun j => g (8 * i + j)))).bind
      fun r => (if I.loadZero3 then wr r 3 0 else some r).bind (whole I.k) := by
  unfold Impl.load whole
  rw [show I.n / 8 = 8 * w by omega, show I.n / 64 = w by omega, rdN_has (by omega) h]
  simp only [Option.bind_eq_bind, Option.pure_def, Option.bind_some]
  have : (tabP w fun i => le64 true (wordOf true fun j => (tabP (8 * w) g).getD (8 * i + j) 0))
      = tabP w fun i => le64 true (wordOf true fun j => g (8 * i + j)) := by
    apply tabP_congr
    intro i hi
    rw [wordOf_congr (h := fun j => g (8 * i + j))]
    intro j hj
    exact getD_tabP _ _ _ (by omega)
  rw [this]
  congr 1; funext r; split <;> rfl

theorem beStore_loop {k w : Nat} (hw : w ≤ k) {dst : Mem Byte} {o : Nat} (hl : o + 8 * w ≤ dst.length) (src : Ws k) :
    ∃ m, forR 0 w (dst, o) (fun i s1 => (bfValue src i).bind fun x2 =>
      (memOut true s1.1 s1.2 #v[le64 true x2] 8).bind fun dst => some (dst, s1.2 + 8)) = some (m, o + 8 * w) ∧
      wrN dst o (tabP (8 * w) fun p => bytesOf true (le64 true (src.toList.getD (p / 8) 0)) (p % 8)) = some m := by
  generalize hB : (fun p => bytesOf true (le64 true (src.toList.getD (p / 8) 0)) (p % 8)) = B
  have hs : ∀ i, i ≤ w → wrN dst o (tabP (8 * i) B) = some ((wrN dst o (tabP (8 * i) B)).getD []) := by
    intro i hi
    obtain ⟨m, hm, -⟩ := wrN_some (m := dst) (off := o) (l := tabP (8 * i) B) (by rw [tabP_length]; omega)
    rw [hm]; rfl
  refine ⟨(wrN dst o (tabP (8 * w) B)).getD [], ?_, hs w (Nat.le_refl _)⟩
  have h0 : dst = (wrN dst o (tabP (8 * 0) B)).getD [] := by
    unfold wrN
    rw [if_pos (by rw [tabP_length]; omega)]
    simp [tabP]
  conv => lhs; rw [h0]
  refine forR_state w (fun i => ((wrN dst o (tabP (8 * i) B)).getD [], o + 8 * i)) _ fun i hi => ?_
  dsimp only
  have hlen : ((wrN dst o (tabP (8 * i) B)).getD []).length = dst.length := (wrN_inv (hs i (by omega))).2.1
  rw [bfValue_lt src i (by omega), Option.bind_some]
  have hm : memOut true ((wrN dst o (tabP (8 * i) B)).getD []) (o + 8 * i) #v[le64 true src[i]] 8
      = wrN ((wrN dst o (tabP (8 * i) B)).getD []) (o + (tabP (8 * i) B).length) (tabP 8 fun j => B (8 * i + j)) := by
    unfold memOut
    rw [if_pos (by decide), tabP_length]
    congr 1
    apply tabP_congr
    intro j hj
    rw [← hB]
    dsimp only
    rw [show (8 * i + j) / 8 = i by omega, show (8 * i + j) % 8 = j by omega, show j / 8 = 0 by omega,
      show j % 8 = j by omega]
    have h1 : src.toList.getD i 0 = src[i] := by
      rw [List.getD_eq_getElem?_getD, List.getElem?_eq_getElem (by simp; omega)]
      simp
    have h2 : ∀ x : U64, (#v[x] : Ws 1).toList.getD 0 0 = x := fun _ => rfl
    rw [h1, h2]
  rw [hm]
  obtain ⟨m2, hm2, -⟩ := wrN_some (m := (wrN dst o (tabP (8 * i) B)).getD []) (off := o + (tabP (8 * i) B).length)
    (l := tabP 8 fun j => B (8 * i + j)) (by rw [tabP_length, tabP_length, hlen]; omega)
  have := wrN_append (hs i (by omega)) hm2
  rw [← tabP_add] at this
  rw [hm2, Option.bind_some, show 8 * (i + 1) = 8 * i + 8 by omega, this]
  rfl

theorem correct_be {n k : Nat} {F G : FieldCode n k} {f : Polynomial (ZMod 2)} (hF : F.Correct f) (hG : G.Correct f)
    {ld : Mem Byte → Nat → Option (Ws k)} {st : Mem Byte → Nat → Ws k → Option (Mem Byte)}
    (hl : ∀ src o (g : Nat → Byte), (∀ i, i < n / 8 → rd src (o + i) = some (g i)) → ld src o = G.load src o)
    (hs : ∀ dst o x, o + n / 8 ≤ dst.length → st dst o x = G.store dst o x) :
    ({ F with load := ld, store := st } : FieldCode n k).Correct f where
  zero := hF.zero
  one := hF.one
  from64 := hF.from64
  from8 := hF.from8
  fromBit := hF.fromBit
  add := hF.add
  mul := hF.mul
  mul64 := hF.mul64
  mulBit := hF.mulBit
  sumPoly := hF.sumPoly
  combine := hF.combine
  load src o g h := by
    show ∃ c, Gives (ld src o) c ∧ _
    rw [hl src o g h]
    exact hG.load src o g h
  store dst o x a ha h := by
    show ∃ d, st dst o x = some d ∧ _
    rw [hs dst o x h]
    exact hG.store dst o x a ha h


namespace S

theorem loadBE128 {src : Mem Byte} {o : Nat} {g : Nat → Byte} (h : ∀ i, i < 16 → rd src (o + i) = some (g i)) :
    BE.bf128_load src o = struct128.load true src o := by
  rw [load_true struct128 (w := 2) rfl (by decide) h]
  unfold BE.bf128_load
  simp only [Option.bind_eq_bind, Option.pure_def]
  rw [beLoad_loop (k := 2) (w := 2) (by decide) h]
  rfl

theorem storeBE128 {dst : Mem Byte} {o : Nat} (x : Ws 2) (h : o + 16 ≤ dst.length) :
    BE.bf128_store dst o x = struct128.store true dst o x := by
  obtain ⟨m, h1, h2⟩ := beStore_loop (k := 2) (w := 2) (by decide) h x
  unfold BE.bf128_store
  simp only [Option.bind_eq_bind, Option.pure_def]
  rw [h1]
  exact h2.symm

/-- The interface on a big-endian host. -/
def code128be : FieldCode 128 2 := { code128 with load := BE.bf128_load, store := BE.bf128_store }

theorem code128_correct : code128.Correct (Props.fieldPoly 128) := by
  rw [code128_eq]
  exact Impl.code_correct struct128 (by simp [impls]) false

theorem code128be_correct : code128be.Correct (Props.fieldPoly 128) :=
  correct_be code128_correct (Impl.code_correct struct128 (by simp [impls]) true)
    (fun _ _ _ h => loadBE128 h) (fun _ _ x h => storeBE128 x h)

theorem loadBE192 {src : Mem Byte} {o : Nat} {g : Nat → Byte} (h : ∀ i, i < 24 → rd src (o + i) = some (g i)) :
    BE.bf192_load src o = struct192.load true src o := by
  rw [load_true struct192 (w := 3) rfl (by decide) h]
  unfold BE.bf192_load
  simp only [Option.bind_eq_bind, Option.pure_def]
  rw [beLoad_loop (k := 3) (w := 3) (by decide) h]
  rfl

theorem storeBE192 {dst : Mem Byte} {o : Nat} (x : Ws 3) (h : o + 24 ≤ dst.length) :
    BE.bf192_store dst o x = struct192.store true dst o x := by
  obtain ⟨m, h1, h2⟩ := beStore_loop (k := 3) (w := 3) (by decide) h x
  unfold BE.bf192_store
  simp only [Option.bind_eq_bind, Option.pure_def]
  rw [h1]
  exact h2.symm

/-- The interface on a big-endian host. -/
def code192be : FieldCode 192 3 := { code192 with load := BE.bf192_load, store := BE.bf192_store }

theorem code192_correct : code192.Correct (Props.fieldPoly 192) := by
  rw [code192_eq]
  exact Impl.code_correct struct192 (by simp [impls]) false

theorem code192be_correct : code192be.Correct (Props.fieldPoly 192) :=
  correct_be code192_correct (Impl.code_correct struct192 (by simp [impls]) true)
    (fun _ _ _ h => loadBE192 h) (fun _ _ x h => storeBE192 x h)

theorem loadBE256 {src : Mem Byte} {o : Nat} {g : Nat → Byte} (h : ∀ i, i < 32 → rd src (o + i) = some (g i)) :
    BE.bf256_load src o = struct256.load true src o := by
  rw [load_true struct256 (w := 4) rfl (by decide) h]
  unfold BE.bf256_load
  simp only [Option.bind_eq_bind, Option.pure_def]
  rw [beLoad_loop (k := 4) (w := 4) (by decide) h]
  rfl

theorem storeBE256 {dst : Mem Byte} {o : Nat} (x : Ws 4) (h : o + 32 ≤ dst.length) :
    BE.bf256_store dst o x = struct256.store true dst o x := by
  obtain ⟨m, h1, h2⟩ := beStore_loop (k := 4) (w := 4) (by decide) h x
  unfold BE.bf256_store
  simp only [Option.bind_eq_bind, Option.pure_def]
  rw [h1]
  exact h2.symm

/-- The interface on a big-endian host. -/
def code256be : FieldCode 256 4 := { code256 with load := BE.bf256_load, store := BE.bf256_store }

theorem code256_correct : code256.Correct (Props.fieldPoly 256) := by
  rw [code256_eq]
  exact Impl.code_correct struct256 (by simp [impls]) false

theorem code256be_correct : code256be.Correct (Props.fieldPoly 256) :=
  correct_be code256_correct (Impl.code_correct struct256 (by simp [impls]) true)
    (fun _ _ _ h => loadBE256 h) (fun _ _ x h => storeBE256 x h)

end S

namespace VB

theorem loadBE128 {src : Mem Byte} {o : Nat} {g : Nat → Byte} (h : ∀ i, i < 16 → rd src (o + i) = some (g i)) :
    BE.bf128_load src o = (vec128 shr64_128_builtin).load true src o := by
  rw [load_true (vec128 shr64_128_builtin) (w := 2) rfl (by decide) h]
  unfold BE.bf128_load
  simp only [Option.bind_eq_bind, Option.pure_def]
  rw [beLoad_loop (k := 2) (w := 2) (by decide) h]
  rfl

theorem storeBE128 {dst : Mem Byte} {o : Nat} (x : Ws 2) (h : o + 16 ≤ dst.length) :
    BE.bf128_store dst o x = (vec128 shr64_128_builtin).store true dst o x := by
  obtain ⟨m, h1, h2⟩ := beStore_loop (k := 2) (w := 2) (by decide) h x
  unfold BE.bf128_store
  simp only [Option.bind_eq_bind, Option.pure_def]
  rw [h1]
  exact h2.symm

/-- The interface on a big-endian host. -/
def code128be : FieldCode 128 2 := { code128 with load := BE.bf128_load, store := BE.bf128_store }

theorem code128_correct : code128.Correct (Props.fieldPoly 128) := by
  rw [code128_eq]
  exact Impl.code_correct (vec128 shr64_128_builtin) (by simp [impls]) false

theorem code128be_correct : code128be.Correct (Props.fieldPoly 128) :=
  correct_be code128_correct (Impl.code_correct (vec128 shr64_128_builtin) (by simp [impls]) true)
    (fun _ _ _ h => loadBE128 h) (fun _ _ x h => storeBE128 x h)

theorem loadBE192 {src : Mem Byte} {o : Nat} {g : Nat → Byte} (h : ∀ i, i < 24 → rd src (o + i) = some (g i)) :
    BE.bf192_load src o = (vec192 shr64_192_builtin).load true src o := by
  rw [load_true (vec192 shr64_192_builtin) (w := 3) rfl (by decide) h]
  unfold BE.bf192_load
  simp only [Option.bind_eq_bind, Option.pure_def]
  rw [beLoad_loop (k := 4) (w := 3) (by decide) h]
  rfl

theorem storeBE192 {dst : Mem Byte} {o : Nat} (x : Ws 4) (h : o + 24 ≤ dst.length) :
    BE.bf192_store dst o x = (vec192 shr64_192_builtin).store true dst o x := by
  obtain ⟨m, h1, h2⟩ := beStore_loop (k := 4) (w := 3) (by decide) h x
  unfold BE.bf192_store
  simp only [Option.bind_eq_bind, Option.pure_def]
  rw [h1]
  exact h2.symm

/-- The interface on a big-endian host. -/
def code192be : FieldCode 192 4 := { code192 with load := BE.bf192_load, store := BE.bf192_store }

theorem code192_correct : code192.Correct (Props.fieldPoly 192) := by
  rw [code192_eq]
  exact Impl.code_correct (vec192 shr64_192_builtin) (by simp [impls]) false

theorem code192be_correct : code192be.Correct (Props.fieldPoly 192) :=
  correct_be code192_correct (Impl.code_correct (vec192 shr64_192_builtin) (by simp [impls]) true)
    (fun _ _ _ h => loadBE192 h) (fun _ _ x h => storeBE192 x h)

theorem loadBE256 {src : Mem Byte} {o : Nat} {g : Nat → Byte} (h : ∀ i, i < 32 → rd src (o + i) = some (g i)) :
    BE.bf256_load src o = (vec256 shr64_256_builtin).load true src o := by
  rw [load_true (vec256 shr64_256_builtin) (w := 4) rfl (by decide) h]
  unfold BE.bf256_load
  simp only [Option.bind_eq_bind, Option.pure_def]
  rw [beLoad_loop (k := 4) (w := 4) (by decide) h]
  rfl

theorem storeBE256 {dst : Mem Byte} {o : Nat} (x : Ws 4) (h : o + 32 ≤ dst.length) :
    BE.bf256_store dst o x = (vec256 shr64_256_builtin).store true dst o x := by
  obtain ⟨m, h1, h2⟩ := beStore_loop (k := 4) (w := 4) (by decide) h x
  unfold BE.bf256_store
  simp only [Option.bind_eq_bind, Option.pure_def]
  rw [h1]
  exact h2.symm

/-- The interface on a big-endian host. -/
def code256be : FieldCode 256 4 := { code256 with load := BE.bf256_load, store := BE.bf256_store }

theorem code256_correct : code256.Correct (Props.fieldPoly 256) := by
  rw [code256_eq]
  exact Impl.code_correct (vec256 shr64_256_builtin) (by simp [impls]) false

theorem code256be_correct : code256be.Correct (Props.fieldPoly 256) :=
  correct_be code256_correct (Impl.code_correct (vec256 shr64_256_builtin) (by simp [impls]) true)
    (fun _ _ _ h => loadBE256 h) (fun _ _ x h => storeBE256 x h)

end VB

namespace VF

theorem loadBE128 {src : Mem Byte} {o : Nat} {g : Nat → Byte} (h : ∀ i, i < 16 → rd src (o + i) = some (g i)) :
    BE.bf128_load src o = (vec128 shr64_128_fn).load true src o := by
  rw [load_true (vec128 shr64_128_fn) (w := 2) rfl (by decide) h]
  unfold BE.bf128_load
  simp only [Option.bind_eq_bind, Option.pure_def]
  rw [beLoad_loop (k := 2) (w := 2) (by decide) h]
  rfl

theorem storeBE128 {dst : Mem Byte} {o : Nat} (x : Ws 2) (h : o + 16 ≤ dst.length) :
    BE.bf128_store dst o x = (vec128 shr64_128_fn).store true dst o x := by
  obtain ⟨m, h1, h2⟩ := beStore_loop (k := 2) (w := 2) (by decide) h x
  unfold BE.bf128_store
  simp only [Option.bind_eq_bind, Option.pure_def]
  rw [h1]
  exact h2.symm

/-- The interface on a big-endian host. -/
def code128be : FieldCode 128 2 := { code128 with load := BE.bf128_load, store := BE.bf128_store }

theorem code128_correct : code128.Correct (Props.fieldPoly 128) := by
  rw [code128_eq]
  exact Impl.code_correct (vec128 shr64_128_fn) (by simp [impls]) false

theorem code128be_correct : code128be.Correct (Props.fieldPoly 128) :=
  correct_be code128_correct (Impl.code_correct (vec128 shr64_128_fn) (by simp [impls]) true)
    (fun _ _ _ h => loadBE128 h) (fun _ _ x h => storeBE128 x h)

theorem loadBE192 {src : Mem Byte} {o : Nat} {g : Nat → Byte} (h : ∀ i, i < 24 → rd src (o + i) = some (g i)) :
    BE.bf192_load src o = (vec192 shr64_192_fn).load true src o := by
  rw [load_true (vec192 shr64_192_fn) (w := 3) rfl (by decide) h]
  unfold BE.bf192_load
  simp only [Option.bind_eq_bind, Option.pure_def]
  rw [beLoad_loop (k := 4) (w := 3) (by decide) h]
  rfl

theorem storeBE192 {dst : Mem Byte} {o : Nat} (x : Ws 4) (h : o + 24 ≤ dst.length) :
    BE.bf192_store dst o x = (vec192 shr64_192_fn).store true dst o x := by
  obtain ⟨m, h1, h2⟩ := beStore_loop (k := 4) (w := 3) (by decide) h x
  unfold BE.bf192_store
  simp only [Option.bind_eq_bind, Option.pure_def]
  rw [h1]
  exact h2.symm

/-- The interface on a big-endian host. -/
def code192be : FieldCode 192 4 := { code192 with load := BE.bf192_load, store := BE.bf192_store }

theorem code192_correct : code192.Correct (Props.fieldPoly 192) := by
  rw [code192_eq]
  exact Impl.code_correct (vec192 shr64_192_fn) (by simp [impls]) false

theorem code192be_correct : code192be.Correct (Props.fieldPoly 192) :=
  correct_be code192_correct (Impl.code_correct (vec192 shr64_192_fn) (by simp [impls]) true)
    (fun _ _ _ h => loadBE192 h) (fun _ _ x h => storeBE192 x h)

theorem loadBE256 {src : Mem Byte} {o : Nat} {g : Nat → Byte} (h : ∀ i, i < 32 → rd src (o + i) = some (g i)) :
    BE.bf256_load src o = (vec256 shr64_256_fn).load true src o := by
  rw [load_true (vec256 shr64_256_fn) (w := 4) rfl (by decide) h]
  unfold BE.bf256_load
  simp only [Option.bind_eq_bind, Option.pure_def]
  rw [beLoad_loop (k := 4) (w := 4) (by decide) h]
  rfl

theorem storeBE256 {dst : Mem Byte} {o : Nat} (x : Ws 4) (h : o + 32 ≤ dst.length) :
    BE.bf256_store dst o x = (vec256 shr64_256_fn).store true dst o x := by
  obtain ⟨m, h1, h2⟩ := beStore_loop (k := 4) (w := 4) (by decide) h x
  unfold BE.bf256_store
  simp only [Option.bind_eq_bind, Option.pure_def]
  rw [h1]
  exact h2.symm

/-- The interface on a big-endian host. -/
def code256be : FieldCode 256 4 := { code256 with load := BE.bf256_load, store := BE.bf256_store }

theorem code256_correct : code256.Correct (Props.fieldPoly 256) := by
  rw [code256_eq]
  exact Impl.code_correct (vec256 shr64_256_fn) (by simp [impls]) false

theorem code256be_correct : code256be.Correct (Props.fieldPoly 256) :=
  correct_be code256_correct (Impl.code_correct (vec256 shr64_256_fn) (by simp [impls]) true)
    (fun _ _ _ h => loadBE256 h) (fun _ _ x h => storeBE256 x h)

end VF

end Faest.GenF
