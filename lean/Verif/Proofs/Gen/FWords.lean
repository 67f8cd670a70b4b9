/-
The translated fields.c and fields.h as implementation of the interface `FImpl` (Model/WordF.lean): every build is equal
to the fields on bit vectors.
-/
import Verif.Model.WordF
import Verif.Proofs.Gen.Words4
import Verif.Proofs.Gen.FaLib

namespace Faest.C

open Faest.Words Faest.Spec

/-! ### Words and elements -/

theorem toW_repr (I : Impl) (hI : I ∈ impls) (a : BF I.n) : Repr (toW I.k a) a.v := by
  have G := good_impls I hI
  have h1 := G.n64
  have hk := G.hk
  refine repr_mk fun q => ?_
  unfold toW
  by_cases hq : q < I.k
  · rw [wd_lt _ hq, Vector.getElem_ofFn]
  · rw [wd_ge _ (by omega), extract_zero _ (by omega)]; rfl

theorem ofW_repr {n k : Nat} {v : Ws k} {a : BF n} (h : Repr v a.v) : ofW n v = some a := by
  unfold Spec.Repr at h
  unfold ofW
  rw [h, if_pos a.v.isLt, BitVec.ofNat_toNat, BitVec.setWidth_eq]

theorem retW_repr {n k : Nat} {v : Ws k} {a : BF n} (h : Repr v a.v) : retW n (some v) = pure a := by
  unfold retW
  rw [Option.bind_some, ofW_repr h]
  rfl

theorem retW_some {n k : Nat} {o : Option (Ws k)} {a : BF n} (h : ∃ z, o = some z ∧ Repr z a.v) : retW n o = pure a := by
  obtain ⟨z, rfl, h⟩ := h
  exact retW_repr h

theorem bind_rel {n k : Nat} {o : Option (Ws k)} {c : Option (BF n)} (h : Option.Rel (fun z a => Repr z a.v) o c) :
    o.bind (ofW n) = c := by
  cases h with
  | none => rfl
  | some h => exact ofW_repr h

theorem memW_rel (I : Impl) (hI : I ∈ impls) (m : Mem (BF I.n)) (i : Nat) :
    Option.Rel (fun x a => Repr x a.v) (rd (memW I.k m) i) (rd m i) := by
  unfold rd memW
  rw [List.getElem?_map]
  cases m[i]? with
  | none => exact Option.Rel.none
  | some o =>
    cases o with
    | none => exact Option.Rel.none
    | some a => exact Option.Rel.some (toW_repr I hI a)

theorem readAt_ext {α β : Type} [Ty α] {f g : Mem α → Nat → Option β} (h : ∀ m o, f m o = g m o) (p : CPtr) :
    readAt f p = readAt g p := by
  have : f = g := funext fun m => funext fun o => h m o
  rw [this]

/-- Reading `n` elements and computing with them. -/
theorem readAt_ldN {α β : Type} [Ty α] (n : Nat) (f : List α → Option β) (p : CPtr) :
    readAt (fun m o => (rdN m o n).bind f) p = ldN p n >>= fun l => lft (f l) := by
  unfold readAt ldN
  simp only [bind_assoc]
  congr 1
  funext q
  congr 1
  funext m
  funext H
  show ((rdN m q.off n).bind f).map _ = ((rdN m q.off n).map fun a => (a, H)).bind _
  cases rdN m q.off n <;> rfl

/-! ### Reading elements -/

theorem byteCombine_ldN {n : Nat} (m : Mem (BF n)) (o : Nat) :
    byteCombine m o = (rdN m o 8).bind fun l => byteCombine (ofList l) 0 := by
  cases h : byteCombine m o with
  | some y =>
    obtain ⟨l, h1, h2⟩ := byteCombine_inv h
    rw [h1]; exact h2.symm
  | none =>
    cases hl : rdN m o 8 with
    | none => rfl
    | some l =>
      rw [← h]
      have e : ∀ i, i < 8 → rd (ofList l) (0 + i) = rd m (o + i) := by
        intro i hi
        rw [rd_ofList, rd_of_rdN hl hi, Nat.zero_add]
      show _ = byteCombine (ofList l) 0
      unfold byteCombine
      have e0 := e 0 (by omega)
      simp only [Nat.add_zero] at e0
      rw [e0]
      congr 1
      funext x
      unfold forR
      refine forN_congr fun i hi => ?_
      funext s
      show _ = (rd _ (0 + (1 + i))).bind _
      rw [e (1 + i) (by omega)]
      rfl

theorem sumPoly_congr {n : Nat} (hn : 0 < n) {x y : Mem (BF n)} (h : ∀ i, i < n → rd x i = rd y i) :
    bfSumPoly x = bfSumPoly y := by
  unfold bfSumPoly
  rw [h (n - 1) (by omega)]
  congr 1
  funext r
  unfold forR
  refine forN_congr fun i hi => ?_
  funext s
  show (rd x (n - 1 - (1 + i))).bind _ = _
  rw [h (n - 1 - (1 + i)) (by omega)]
  rfl

theorem sumPoly_rd {n : Nat} {m : Mem (BF n)} {y : BF n} (h : bfSumPoly m = some y) (i : Nat) (hi : i < n) :
    rd m i = some ((rd m i).getD bfZero) := by
  unfold bfSumPoly at h
  inv h
  obtain ⟨x0, h0, h⟩ := h
  obtain ⟨s, g0, gN, hg⟩ := forR_seq h
  by_cases hi' : i = n - 1
  · subst hi'; rw [h0]; rfl
  · have hb := hg (n - 1 - i - 1) (by omega)
    inv hb
    obtain ⟨x, hx, -⟩ := hb
    rw [show n - 1 - (1 + (n - 1 - i - 1)) = i by omega] at hx
    rw [hx]; rfl

theorem sumPoly_ldN {n : Nat} (hn : 0 < n) (m : Mem (BF n)) (o : Nat) :
    bfSumPoly (m.drop o) = (rdN m o n).bind fun l => bfSumPoly (ofList l) := by
  cases hl : rdN m o n with
  | some l =>
    refine sumPoly_congr hn fun i hi => ?_
    rw [rd_ofList, rd_drop', rd_of_rdN hl hi]
  | none =>
    cases h : bfSumPoly (m.drop o) with
    | none => rfl
    | some y =>
      exfalso
      have hr := fun i hi => sumPoly_rd h i hi
      simp only [rd_drop'] at hr
      have h0 := rd_lt (hr 0 hn)
      rw [rdN_exists hr (by omega)] at hl
      cases hl

/-! ### The large fields -/

theorem wordOps_code (I : Impl) (hI : I ∈ impls) (be : Bool) : wordOps (I.code be) = absOps I.n := by
  have G := good_impls I hI
  have hn : 0 < I.n := Nat.lt_of_lt_of_le (by decide) G.npos
  unfold wordOps absOps
  congr 1
  · funext p
    rw [readAt_ext (g := fun m o => (rdN m o (I.n / 8)).bind fun l => some (BF.ofBytes I.n l)) ?_, readAt_ldN]
    · rfl
    · intro m o
      exact bind_rel (Props.C36_load I hI be m o)
  · funext p a
    unfold writeAt bf_store stN
    congr 1
    funext q
    congr 1
    funext m
    show lft (I.store be m q.off (toW I.k a)) >>= _ = _
    rw [Props.C36_store I hI be m q.off _ a (toW_repr I hI a)]
    rfl
  · exact retW_repr (Impl.zero_repr G)
  · exact retW_repr (Impl.one_repr G)
  · funext x
    exact retW_repr (Impl.fromBit_repr G x)
  · funext a b
    exact retW_repr (a := bfAdd a b) (Props.C36_add I hI _ _ _ _ (toW_repr I hI a) (toW_repr I hI b))
  · funext a b
    exact retW_some (Props.C36_mul I hI _ _ _ _ (toW_repr I hI a) (toW_repr I hI b))
  · funext a b
    exact retW_some (Props.C36_mul64 I hI _ _ _ (toW_repr I hI a))
  · funext a b
    exact retW_repr (a := bfMulBit a b) (Impl.mulBit_repr G (toW_repr I hI a) b)
  · funext p
    rw [readAt_ext (g := fun m o => (rdN m o 8).bind fun l => byteCombine (ofList l) 0) ?_, readAt_ldN]
    · rfl
    · intro m o
      rw [← byteCombine_ldN]
      exact bind_rel ((Props.C36_byte_combine I hI).1 _ _ o fun i _ => memW_rel I hI m (o + i))
  · funext x
    show retW I.n (I.byteCombineBits x) = lft (byteCombineBits I.n x)
    unfold retW
    rw [bind_rel ((Props.C36_byte_combine I hI).2 x)]
  · funext p
    rw [readAt_ext (g := fun m o => (rdN m o I.n).bind fun l => bfSumPoly (ofList l)) ?_, readAt_ldN]
    · rfl
    · intro m o
      rw [← sumPoly_ldN hn]
      refine bind_rel (Props.C36_sum_poly I hI _ _ fun i _ => ?_)
      rw [rd_drop', rd_drop']
      exact memW_rel I hI m (o + i)

/-! ### The small fields -/

open Faest.GenF in
theorem toBytes64 (be : Bool) (a : BF 64) :
    tabP 8 (fun p => Impl.bytesOf be ((#v[Impl.le64 be a.v] : Ws 1).toList.getD (p / 8) 0) (p % 8)) = a.toBytes := by
  refine tabP_congr fun p hp => ?_
  rw [show p / 8 = 0 by omega, show p % 8 = p by omega]
  have h2 : ∀ x : Words.U64, (#v[x] : Ws 1).toList.getD 0 0 = x := fun _ => rfl
  rw [h2, Impl.bytesOf_le64 be a.v p hp]

theorem bytes_unique {a b : BitVec 64} (h : ∀ j, j < 8 → byteOf a j = byteOf b j) : a = b := by
  apply BitVec.eq_of_getLsbD_eq
  intro i hi
  have := congrArg (fun x => x.getLsbD (i % 8)) (h (i / 8) (by omega))
  simp only [byteOf, BitVec.getLsbD_extractLsb', show i % 8 < 8 by omega, decide_true, Bool.true_and] at this
  rwa [show 8 * (i / 8) + i % 8 = i by omega] at this

theorem load64 (be : Bool) (m : Mem Byte) (o : Nat) :
    (objIn be 1 m o 8).map (fun v => (⟨Impl.le64 be v[0]⟩ : BF 64)) = (rdN m o 8).bind fun l => some (BF.ofBytes 64 l) := by
  cases h : rdN m o 8 with
  | none => unfold objIn memIn; rw [h]; rfl
  | some l =>
    have hl : l.length = 8 := Impl.rdN_length h
    have hr : ∀ i, i < 8 → rd m (o + i) = some (l.getD i 0) := fun i hi => by
      rw [rd_of_rdN h hi, List.getD_eq_getElem?_getD, List.getElem?_eq_getElem (by omega)]; rfl
    have e : l = tabP 8 (fun i => l.getD i 0) := by
      rw [GenF.rdN_has (by decide) hr] at h
      exact (Option.some.inj h).symm
    rw [GenF.S.objIn8 be hr]
    show some _ = some _
    congr 1
    show (⟨Impl.le64 be (Impl.wordOf be _)⟩ : BF 64) = _
    rw [Impl.le64_wordOf]
    conv_rhs => rw [e]
    show _ = loadF 64 _
    refine congrArg BF.mk (bytes_unique fun j hj => ?_)
    rw [GenF.S.byteOf_u64C _ j hj]
    exact (byteOf_loadF (n := 64) (by decide) (fun i => l.getD i 0) j hj).symm

theorem wordOps64_code (be : Bool) (c : SmallCode 64) (h0 : c.zero = some 0) (h1 : c.one = some 1)
    (ha : ∀ a b, c.add a b = some (a ^^^ b)) (hm : ∀ a b, c.mul a b = some (bfMul ⟨a⟩ ⟨b⟩).v)
    (hl : ∀ m o, (c.load m o).map BF.mk = (objIn be 1 m o 8).map fun v => (⟨Impl.le64 be v[0]⟩ : BF 64))
    (hs : ∀ m o a, c.store m o a = memOut be m o #v[Impl.le64 be a] 8) : wordOps64 c = absOps64 := by
  unfold wordOps64 absOps64
  congr 1
  · funext p
    rw [readAt_ext (g := fun m o => (rdN m o 8).bind fun l => some (BF.ofBytes 64 l)) ?_, readAt_ldN]
    · rfl
    · intro m o
      rw [hl, load64]
  · funext p a
    unfold writeAt bf_store stN
    congr 1
    funext q
    congr 1
    funext m
    show lft (c.store m q.off a.v) >>= _ = _
    rw [hs]
    unfold memOut
    rw [if_pos (by decide), toBytes64]
  · rw [h0]; rfl
  · rw [h1]; rfl
  · funext a b; rw [ha]; rfl
  · funext a b; rw [hm]; rfl

theorem rotr8_all (x : Byte) (c : Nat) : GenF.S.rotr8 x c = some (Faest.rotr8 x c) := by
  have h : ∀ x : Byte, ∀ c, c < 8 → GenF.S.rotr8 x c = some (Faest.rotr8 x c) := by decide +kernel
  have e : Faest.rotr8 x c = Faest.rotr8 x (c % 8) := by
    unfold Faest.rotr8
    have : c &&& 7 = c % 8 &&& 7 := by
      rw [Nat.and_two_pow_sub_one_eq_mod c 3, Nat.and_two_pow_sub_one_eq_mod (c % 8) 3]; omega
    rw [this]
  rw [GenF.S.rotr8_mod, e]
  exact h x _ (Nat.mod_lt _ (by decide))

theorem wordF_eq {k1 k2 k3 : Nat} {c64 : SmallCode 64} {c128 : FieldCode 128 k1} {c192 : FieldCode 192 k2}
    {c256 : FieldCode 256 k3} (h64 : wordOps64 c64 = absOps64) (h128 : wordOps c128 = absOps 128)
    (h192 : wordOps c192 = absOps 192) (h256 : wordOps c256 = absOps 256) :
    wordF GenF.S.code8 GenF.S.bf8_inv GenF.S.rotr8 GenF.S.parity8 c64 c128 c192 c256 = absF := by
  unfold wordF absF
  rw [h64, h128, h192, h256]
  congr 1
  · funext a b
    show lft (GenF.S.bf8_mul a b) = _
    rw [GenF.S.mul8]; rfl
  · funext a; rw [GenF.S.inv8]; rfl
  · funext x c; rw [rotr8_all]; rfl
  · funext x; rw [GenF.S.parity8_model]; rfl

end Faest.C

namespace Faest.GenF

open Faest.Words Faest.Words.Impl Faest.Spec

/-! ### Loads and stores on big-endian hosts, outside of the buffers too -/

theorem beLoad_inv {src : Mem Byte} {o : Nat} : ∀ (w : Nat) (m : Mem U64) (s : Mem U64 × Nat),
    forR 0 w (m, o) (fun i s1 => (memIn true s1.1 i src s1.2 8).bind fun ret =>
      (rd ret i).bind fun x2 => (wr ret i (le64 true x2)).bind fun ret => some (ret, s1.2 + 8)) = some s →
    s.2 = o + 8 * w ∧ ∀ i, i < 8 * w → ∃ x, rd src (o + i) = some x := by
  intro w m
  unfold forR
  simp only [Nat.sub_zero, Nat.zero_add]
  induction w with
  | zero =>
    intro s h
    cases h
    exact ⟨rfl, fun i hi => absurd hi (by omega)⟩
  | succ w ih =>
    intro s h
    rw [forN_succ] at h
    obtain ⟨s1, h1, h⟩ := Option.bind_eq_some_iff.1 h
    obtain ⟨e, hr⟩ := ih s1 h1
    obtain ⟨r, h2, h⟩ := Option.bind_eq_some_iff.1 h
    obtain ⟨x, h3, h⟩ := Option.bind_eq_some_iff.1 h
    obtain ⟨r', h4, h⟩ := Option.bind_eq_some_iff.1 h
    cases h
    refine ⟨by show s1.2 + 8 = _; omega, fun i hi => ?_⟩
    by_cases h' : i < 8 * w
    · exact hr i h'
    · unfold memIn at h2
      obtain ⟨l, hl, -⟩ := Option.bind_eq_some_iff.1 h2
      have hlen : l.length = 8 := Impl.rdN_length hl
      have := rd_of_rdN hl (t := i - 8 * w) (by omega)
      rw [e, show o + 8 * w + (i - 8 * w) = o + i by omega, List.getElem?_eq_getElem (by omega)] at this
      exact ⟨_, this⟩

theorem load_ext {k n : Nat} {f g : Mem Byte → Nat → Option (Ws k)}
    (h : ∀ {src : Mem Byte} {o : Nat} {b : Nat → Byte}, (∀ i, i < n → rd src (o + i) = some (b i)) → f src o = g src o)
    (hf : ∀ src o z, f src o = some z → ∀ i, i < n → ∃ x, rd src (o + i) = some x)
    (hg : ∀ src o z, g src o = some z → ∃ l, rdN src o n = some l) : f = g := by
  funext src o
  have key : (∀ i, i < n → ∃ x, rd src (o + i) = some x) → f src o = g src o := fun hr =>
    h (b := fun i => (rd src (o + i)).getD 0) fun i hi => by obtain ⟨x, hx⟩ := hr i hi; rw [hx]; rfl
  cases e : f src o with
  | some z => rw [← e]; exact key (hf src o z e)
  | none =>
    cases e' : g src o with
    | none => rfl
    | some z =>
      obtain ⟨l, hl⟩ := hg src o z e'
      have hlen : l.length = n := Impl.rdN_length hl
      rw [← e, ← e']
      exact key fun i hi => ⟨_, by rw [rd_of_rdN hl hi, List.getElem?_eq_getElem (by omega)]⟩

theorem impl_load_inv (I : Impl) (src : Mem Byte) (o : Nat) (z : Ws I.k) (h : I.load true src o = some z) :
    ∃ l, rdN src o (I.n / 8) = some l := by
  unfold Impl.load at h
  obtain ⟨l, hl, -⟩ := Option.bind_eq_some_iff.1 h
  exact ⟨l, hl⟩

theorem impl_be (I : Impl) : { I.code false with load := I.load true, store := I.store true } = I.code true := rfl

theorem beStore_inv {k : Nat} {src : Ws k} {dst : Mem Byte} {o : Nat} : ∀ (w : Nat) (s : Mem Byte × Nat),
    forR 0 w (dst, o) (fun i s1 => (bfValue src i).bind fun x2 =>
      (memOut true s1.1 s1.2 #v[le64 true x2] 8).bind fun dst => some (dst, s1.2 + 8)) = some s →
    s.2 = o + 8 * w ∧ s.1.length = dst.length ∧ (0 < w → o + 8 * w ≤ dst.length) := by
  intro w
  unfold forR
  simp only [Nat.sub_zero, Nat.zero_add]
  induction w with
  | zero =>
    intro s h
    cases h
    exact ⟨rfl, rfl, fun h => absurd h (by omega)⟩
  | succ w ih =>
    intro s h
    rw [forN_succ] at h
    obtain ⟨s1, h1, h⟩ := Option.bind_eq_some_iff.1 h
    obtain ⟨e, hl, -⟩ := ih s1 h1
    obtain ⟨x, h2, h⟩ := Option.bind_eq_some_iff.1 h
    obtain ⟨d, h3, h⟩ := Option.bind_eq_some_iff.1 h
    cases h
    unfold memOut at h3
    rw [if_pos (by decide)] at h3
    have h4 := wrN_inv h3
    rw [tabP_length] at h4
    refine ⟨by show s1.2 + 8 = _; omega, h4.2.1.trans hl, fun _ => ?_⟩
    have := h4.1
    omega

theorem store_ext {k n : Nat} {f g : Mem Byte → Nat → Ws k → Option (Mem Byte)}
    (h : ∀ {dst : Mem Byte} {o : Nat} (x : Ws k), o + n ≤ dst.length → f dst o x = g dst o x)
    (hf : ∀ dst o x z, f dst o x = some z → o + n ≤ dst.length)
    (hg : ∀ dst o x z, g dst o x = some z → o + n ≤ dst.length) : f = g := by
  funext dst o x
  cases e : f dst o x with
  | some z => rw [← e]; exact h x (hf dst o x z e)
  | none =>
    cases e' : g dst o x with
    | none => rfl
    | some z => rw [← e, ← e']; exact h x (hg dst o x z e')

theorem impl_store_inv (I : Impl) (dst : Mem Byte) (o : Nat) (x : Ws I.k) (z : Mem Byte)
    (h : I.store true dst o x = some z) : o + I.n / 8 ≤ dst.length := by
  unfold Impl.store at h
  have := (wrN_inv h).1
  rwa [tabP_length] at this

namespace S

theorem code128be_eq : code128be = struct128.code true := by
  have hl : BE.bf128_load = struct128.load true := by
    refine load_ext (n := 16) loadBE128 (fun src o z h => ?_) (impl_load_inv struct128)
    unfold BE.bf128_load at h
    obtain ⟨s, h, -⟩ := Option.bind_eq_some_iff.1 h
    exact (beLoad_inv 2 _ s h).2
  have hs : BE.bf128_store = struct128.store true := by
    refine store_ext (n := 16) storeBE128 (fun dst o x z h => ?_) (impl_store_inv struct128)
    unfold BE.bf128_store at h
    obtain ⟨s, h, -⟩ := Option.bind_eq_some_iff.1 h
    exact (beStore_inv 2 s h).2.2 (by decide)
  unfold code128be
  rw [code128_eq, hl, hs]
  exact impl_be struct128

theorem code192be_eq : code192be = struct192.code true := by
  have hl : BE.bf192_load = struct192.load true := by
    refine load_ext (n := 24) loadBE192 (fun src o z h => ?_) (impl_load_inv struct192)
    unfold BE.bf192_load at h
    obtain ⟨s, h, -⟩ := Option.bind_eq_some_iff.1 h
    exact (beLoad_inv 3 _ s h).2
  have hs : BE.bf192_store = struct192.store true := by
    refine store_ext (n := 24) storeBE192 (fun dst o x z h => ?_) (impl_store_inv struct192)
    unfold BE.bf192_store at h
    obtain ⟨s, h, -⟩ := Option.bind_eq_some_iff.1 h
    exact (beStore_inv 3 s h).2.2 (by decide)
  unfold code192be
  rw [code192_eq, hl, hs]
  exact impl_be struct192

theorem code256be_eq : code256be = struct256.code true := by
  have hl : BE.bf256_load = struct256.load true := by
    refine load_ext (n := 32) loadBE256 (fun src o z h => ?_) (impl_load_inv struct256)
    unfold BE.bf256_load at h
    obtain ⟨s, h, -⟩ := Option.bind_eq_some_iff.1 h
    exact (beLoad_inv 4 _ s h).2
  have hs : BE.bf256_store = struct256.store true := by
    refine store_ext (n := 32) storeBE256 (fun dst o x z h => ?_) (impl_store_inv struct256)
    unfold BE.bf256_store at h
    obtain ⟨s, h, -⟩ := Option.bind_eq_some_iff.1 h
    exact (beStore_inv 4 s h).2.2 (by decide)
  unfold code256be
  rw [code256_eq, hl, hs]
  exact impl_be struct256

/-- The build as implementation of the interface, on a little- and a big-endian host. -/
def impl (be : Bool) : C.FImpl :=
  if be then C.wordF code8 bf8_inv rotr8 parity8 code64be code128be code192be code256be
  else C.wordF code8 bf8_inv rotr8 parity8 code64 code128 code192 code256

theorem impl_eq (be : Bool) : impl be = C.absF := by
  unfold impl
  cases be
  · rw [if_neg (by decide)]
    refine C.wordF_eq (C.wordOps64_code false code64 rfl rfl (fun _ _ => rfl) S.mul64 (fun m o => ?_) fun m o a => ?_)
      (by rw [code128_eq]; exact C.wordOps_code struct128 (by simp [impls]) false)
      (by rw [code192_eq]; exact C.wordOps_code struct192 (by simp [impls]) false)
      (by rw [code256_eq]; exact C.wordOps_code struct256 (by simp [impls]) false)
    · show (bf64_load m o).map _ = _
      unfold bf64_load
      cases objIn false 1 m o 8 <;> rfl
    · show bf64_store m o a = _
      rfl
  · rw [if_pos (by decide)]
    refine C.wordF_eq (C.wordOps64_code true code64be rfl rfl (fun _ _ => rfl) S.mul64 (fun m o => ?_) fun m o a => ?_)
      (by rw [code128be_eq]; exact C.wordOps_code struct128 (by simp [impls]) true)
      (by rw [code192be_eq]; exact C.wordOps_code struct192 (by simp [impls]) true)
      (by rw [code256be_eq]; exact C.wordOps_code struct256 (by simp [impls]) true)
    · show (BE.bf64_load m o).map _ = _
      unfold BE.bf64_load
      cases objIn true 1 m o 8 <;> rfl
    · show BE.bf64_store m o a = _
      rfl

end S

namespace VB

theorem code128be_eq : code128be = (vec128 shr64_128_builtin).code true := by
  have hl : BE.bf128_load = (vec128 shr64_128_builtin).load true := by
    refine load_ext (n := 16) loadBE128 (fun src o z h => ?_) (impl_load_inv (vec128 shr64_128_builtin))
    unfold BE.bf128_load at h
    obtain ⟨s, h, -⟩ := Option.bind_eq_some_iff.1 h
    exact (beLoad_inv 2 _ s h).2
  have hs : BE.bf128_store = (vec128 shr64_128_builtin).store true := by
    refine store_ext (n := 16) storeBE128 (fun dst o x z h => ?_) (impl_store_inv (vec128 shr64_128_builtin))
    unfold BE.bf128_store at h
    obtain ⟨s, h, -⟩ := Option.bind_eq_some_iff.1 h
    exact (beStore_inv 2 s h).2.2 (by decide)
  unfold code128be
  rw [code128_eq, hl, hs]
  exact impl_be (vec128 shr64_128_builtin)

theorem code192be_eq : code192be = (vec192 shr64_192_builtin).code true := by
  have hl : BE.bf192_load = (vec192 shr64_192_builtin).load true := by
    refine load_ext (n := 24) loadBE192 (fun src o z h => ?_) (impl_load_inv (vec192 shr64_192_builtin))
    unfold BE.bf192_load at h
    obtain ⟨s, h, -⟩ := Option.bind_eq_some_iff.1 h
    exact (beLoad_inv 3 _ s h).2
  have hs : BE.bf192_store = (vec192 shr64_192_builtin).store true := by
    refine store_ext (n := 24) storeBE192 (fun dst o x z h => ?_) (impl_store_inv (vec192 shr64_192_builtin))
    unfold BE.bf192_store at h
    obtain ⟨s, h, -⟩ := Option.bind_eq_some_iff.1 h
    exact (beStore_inv 3 s h).2.2 (by decide)
  unfold code192be
  rw [code192_eq, hl, hs]
  exact impl_be (vec192 shr64_192_builtin)

theorem code256be_eq : code256be = (vec256 shr64_256_builtin).code true := by
  have hl : BE.bf256_load = (vec256 shr64_256_builtin).load true := by
    refine load_ext (n := 32) loadBE256 (fun src o z h => ?_) (impl_load_inv (vec256 shr64_256_builtin))
    unfold BE.bf256_load at h
    obtain ⟨s, h, -⟩ := Option.bind_eq_some_iff.1 h
    exact (beLoad_inv 4 _ s h).2
  have hs : BE.bf256_store = (vec256 shr64_256_builtin).store true := by
    refine store_ext (n := 32) storeBE256 (fun dst o x z h => ?_) (impl_store_inv (vec256 shr64_256_builtin))
    unfold BE.bf256_store at h
    obtain ⟨s, h, -⟩ := Option.bind_eq_some_iff.1 h
    exact (beStore_inv 4 s h).2.2 (by decide)
  unfold code256be
  rw [code256_eq, hl, hs]
  exact impl_be (vec256 shr64_256_builtin)

/-- The build as implementation of the interface, on a little- and a big-endian host. -/
def impl (be : Bool) : C.FImpl :=
  if be then C.wordF code8 bf8_inv rotr8 parity8 code64be code128be code192be code256be
  else C.wordF code8 bf8_inv rotr8 parity8 code64 code128 code192 code256

theorem impl_eq (be : Bool) : impl be = C.absF := by
  unfold impl
  cases be
  · rw [if_neg (by decide)]
    refine C.wordF_eq (C.wordOps64_code false code64 rfl rfl (fun _ _ => rfl) S.mul64 (fun m o => ?_) fun m o a => ?_)
      (by rw [code128_eq]; exact C.wordOps_code (vec128 shr64_128_builtin) (by simp [impls]) false)
      (by rw [code192_eq]; exact C.wordOps_code (vec192 shr64_192_builtin) (by simp [impls]) false)
      (by rw [code256_eq]; exact C.wordOps_code (vec256 shr64_256_builtin) (by simp [impls]) false)
    · show (bf64_load m o).map _ = _
      unfold bf64_load
      cases objIn false 1 m o 8 <;> rfl
    · show bf64_store m o a = _
      rfl
  · rw [if_pos (by decide)]
    refine C.wordF_eq (C.wordOps64_code true code64be rfl rfl (fun _ _ => rfl) S.mul64 (fun m o => ?_) fun m o a => ?_)
      (by rw [code128be_eq]; exact C.wordOps_code (vec128 shr64_128_builtin) (by simp [impls]) true)
      (by rw [code192be_eq]; exact C.wordOps_code (vec192 shr64_192_builtin) (by simp [impls]) true)
      (by rw [code256be_eq]; exact C.wordOps_code (vec256 shr64_256_builtin) (by simp [impls]) true)
    · show (BE.bf64_load m o).map _ = _
      unfold BE.bf64_load
      cases objIn true 1 m o 8 <;> rfl
    · show BE.bf64_store m o a = _
      rfl

end VB

namespace VF

theorem code128be_eq : code128be = (vec128 shr64_128_fn).code true := by
  have hl : BE.bf128_load = (vec128 shr64_128_fn).load true := by
    refine load_ext (n := 16) loadBE128 (fun src o z h => ?_) (impl_load_inv (vec128 shr64_128_fn))
    unfold BE.bf128_load at h
    obtain ⟨s, h, -⟩ := Option.bind_eq_some_iff.1 h
    exact (beLoad_inv 2 _ s h).2
  have hs : BE.bf128_store = (vec128 shr64_128_fn).store true := by
    refine store_ext (n := 16) storeBE128 (fun dst o x z h => ?_) (impl_store_inv (vec128 shr64_128_fn))
    unfold BE.bf128_store at h
    obtain ⟨s, h, -⟩ := Option.bind_eq_some_iff.1 h
    exact (beStore_inv 2 s h).2.2 (by decide)
  unfold code128be
  rw [code128_eq, hl, hs]
  exact impl_be (vec128 shr64_128_fn)

theorem code192be_eq : code192be = (vec192 shr64_192_fn).code true := by
  have hl : BE.bf192_load = (vec192 shr64_192_fn).load true := by
    refine load_ext (n := 24) loadBE192 (fun src o z h => ?_) (impl_load_inv (vec192 shr64_192_fn))
    unfold BE.bf192_load at h
    obtain ⟨s, h, -⟩ := Option.bind_eq_some_iff.1 h
    exact (beLoad_inv 3 _ s h).2
  have hs : BE.bf192_store = (vec192 shr64_192_fn).store true := by
    refine store_ext (n := 24) storeBE192 (fun dst o x z h => ?_) (impl_store_inv (vec192 shr64_192_fn))
    unfold BE.bf192_store at h
    obtain ⟨s, h, -⟩ := Option.bind_eq_some_iff.1 h
    exact (beStore_inv 3 s h).2.2 (by decide)
  unfold code192be
  rw [code192_eq, hl, hs]
  exact impl_be (vec192 shr64_192_fn)

theorem code256be_eq : code256be = (vec256 shr64_256_fn).code true := by
  have hl : BE.bf256_load = (vec256 shr64_256_fn).load true := by
    refine load_ext (n := 32) loadBE256 (fun src o z h => ?_) (impl_load_inv (vec256 shr64_256_fn))
    unfold BE.bf256_load at h
    obtain ⟨s, h, -⟩ := Option.bind_eq_some_iff.1 h
    exact (beLoad_inv 4 _ s h).2
  have hs : BE.bf256_store = (vec256 shr64_256_fn).store true := by
    refine store_ext (n := 32) storeBE256 (fun dst o x z h => ?_) (impl_store_inv (vec256 shr64_256_fn))
    unfold BE.bf256_store at h
    obtain ⟨s, h, -⟩ := Option.bind_eq_some_iff.1 h
    exact (beStore_inv 4 s h).2.2 (by decide)
  unfold code256be
  rw [code256_eq, hl, hs]
  exact impl_be (vec256 shr64_256_fn)

/-- The build as implementation of the interface, on a little- and a big-endian host. -/
def impl (be : Bool) : C.FImpl :=
  if be then C.wordF code8 bf8_inv rotr8 parity8 code64be code128be code192be code256be
  else C.wordF code8 bf8_inv rotr8 parity8 code64 code128 code192 code256

theorem impl_eq (be : Bool) : impl be = C.absF := by
  unfold impl
  cases be
  · rw [if_neg (by decide)]
    refine C.wordF_eq (C.wordOps64_code false code64 rfl rfl (fun _ _ => rfl) S.mul64 (fun m o => ?_) fun m o a => ?_)
      (by rw [code128_eq]; exact C.wordOps_code (vec128 shr64_128_fn) (by simp [impls]) false)
      (by rw [code192_eq]; exact C.wordOps_code (vec192 shr64_192_fn) (by simp [impls]) false)
      (by rw [code256_eq]; exact C.wordOps_code (vec256 shr64_256_fn) (by simp [impls]) false)
    · show (bf64_load m o).map _ = _
      unfold bf64_load
      cases objIn false 1 m o 8 <;> rfl
    · show bf64_store m o a = _
      rfl
  · rw [if_pos (by decide)]
    refine C.wordF_eq (C.wordOps64_code true code64be rfl rfl (fun _ _ => rfl) S.mul64 (fun m o => ?_) fun m o a => ?_)
      (by rw [code128be_eq]; exact C.wordOps_code (vec128 shr64_128_fn) (by simp [impls]) true)
      (by rw [code192be_eq]; exact C.wordOps_code (vec192 shr64_192_fn) (by simp [impls]) true)
      (by rw [code256be_eq]; exact C.wordOps_code (vec256 shr64_256_fn) (by simp [impls]) true)
    · show (BE.bf64_load m o).map _ = _
      unfold BE.bf64_load
      cases objIn true 1 m o 8 <;> rfl
    · show BE.bf64_store m o a = _
      rfl

end VF

end Faest.GenF
