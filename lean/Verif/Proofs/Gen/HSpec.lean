/-
What the translated code needs to know about an implementation of the random oracles (Model/HImpl.lean): it does what
the abstract operations do, its contexts are blocks of memory of their own.
-/
import Verif.Proofs.Gen.Base
import Verif.Model.HImpl

set_option linter.unusedVariables false

namespace Faest.C

section
variable {D E F : Blocks} {kd : Kind} {δ : Type} {Q : δ → Blocks → Prop}

/-! ### Hash functions -/

theorem a_hinit {c : HCtx} {lam : Nat} {g : HCtx → CM δ} (k : T D (g ⟨some (lam, [])⟩) Q) : T D (hinit c lam >>= g) Q :=
  t_pbind k

theorem a_hupd {lam n : Nat} {l l' : List Byte} {p : CPtr} {μ : Mem Byte} {g : HCtx → CM δ} (hv : View D p μ) (hn : 0 < n)
    (hr : rdN μ 0 n = some l') (k : T D (g ⟨some (lam, l ++ l')⟩) Q) : T D (hupdate ⟨some (lam, l)⟩ p n >>= g) Q := by
  unfold hupdate
  exact t_assoc (t_lft rfl (t_assoc (t_ldN hv hn hr (t_pbind k))))

theorem a_H1_final {X : XOF} {lam n b o : Nat} {l : List Byte} {m m' : Mem Byte} {g : HCtx → CM δ}
    (hD : D = bl kd b m + F) (hw : wrN m o (H1 X lam l n) = some m') (k : T (bl kd b m' + F) (g {}) Q) :
    T D (H1_final X ⟨some (lam, l)⟩ (some ⟨b, o⟩) n >>= g) Q := by
  unfold H1_final
  exact t_assoc (t_lft rfl (t_assoc (t_stN hD hw (t_pbind k))))

theorem a_H2_final {X : XOF} {lam n b o : Nat} {l : List Byte} {m m' : Mem Byte} {g : HCtx → CM δ}
    (hD : D = bl kd b m + F) (hw : wrN m o (H2 X lam l n) = some m') (k : T (bl kd b m' + F) (g {}) Q) :
    T D (H2_final X ⟨some (lam, l)⟩ (some ⟨b, o⟩) n >>= g) Q := by
  unfold H2_final
  exact t_assoc (t_lft rfl (t_assoc (t_stN hD hw (t_pbind k))))

theorem a_H0_final {X : XOF} {lam n n' a oa b ob : Nat} {kd' : Kind} {l : List Byte} {ma ma' mb mb' : Mem Byte} {g : HCtx → CM δ}
    (hD : D = bl kd a ma + (bl kd' b mb + F)) (hwa : wrN ma oa (H0 X lam l n n').1 = some ma')
    (hwb : wrN mb ob (H0 X lam l n n').2 = some mb') (k : T (bl kd a ma' + (bl kd' b mb' + F)) (g {}) Q) :
    T D (H0_final X ⟨some (lam, l)⟩ (some ⟨a, oa⟩) n (some ⟨b, ob⟩) n' >>= g) Q := by
  unfold H0_final
  refine t_assoc (t_lft rfl (t_assoc (t_stN hD hwa (t_assoc (t_stN (by hfind1) hwb (t_pbind ?_))))))
  exact t_perm (by hfind) k

theorem a_h4init {c : HCtx4} {lam : Nat} {g : HCtx4 → CM δ} (k : T D (g ⟨some (lam, [], [], [], [])⟩) Q) :
    T D (H0_x4_init c lam >>= g) Q := t_pbind k

theorem a_h4upd {lam n : Nat} {l0 l1 l2 l3 k0 k1 k2 k3 : List Byte} {p0 p1 p2 p3 : CPtr} {μ0 μ1 μ2 μ3 : Mem Byte}
    {g : HCtx4 → CM δ} (hn : 0 < n) (hv0 : View D p0 μ0) (hv1 : View D p1 μ1) (hv2 : View D p2 μ2) (hv3 : View D p3 μ3)
    (hr0 : rdN μ0 0 n = some k0) (hr1 : rdN μ1 0 n = some k1) (hr2 : rdN μ2 0 n = some k2) (hr3 : rdN μ3 0 n = some k3)
    (k : T D (g ⟨some (lam, l0 ++ k0, l1 ++ k1, l2 ++ k2, l3 ++ k3)⟩) Q) :
    T D (H0_x4_update ⟨some (lam, l0, l1, l2, l3)⟩ p0 p1 p2 p3 n >>= g) Q := by
  unfold H0_x4_update
  exact t_assoc (t_lft rfl (t_assoc (t_ldN hv0 hn hr0 (t_assoc (t_ldN hv1 hn hr1 (t_assoc (t_ldN hv2 hn hr2
    (t_assoc (t_ldN hv3 hn hr3 (t_pbind k))))))))))

theorem a_H0_x4_final {X : XOF} {lam n n' a b oa0 oa1 oa2 oa3 ob0 ob1 ob2 ob3 : Nat} {kd' : Kind} {l0 l1 l2 l3 : List Byte}
    {ma ma0 ma1 ma2 ma3 mb mb0 mb1 mb2 mb3 : Mem Byte} {r : Nat → List Byte × List Byte} {g : HCtx4 → CM δ}
    (hD : D = bl kd a ma + (bl kd' b mb + F))
    (hr : r = H0x4 X lam (fun i => if i = 0 then l0 else if i = 1 then l1 else if i = 2 then l2 else l3) n n')
    (hwa0 : wrN ma oa0 (r 0).1 = some ma0) (hwa1 : wrN ma0 oa1 (r 1).1 = some ma1)
    (hwa2 : wrN ma1 oa2 (r 2).1 = some ma2) (hwa3 : wrN ma2 oa3 (r 3).1 = some ma3)
    (hwb0 : wrN mb ob0 (r 0).2 = some mb0) (hwb1 : wrN mb0 ob1 (r 1).2 = some mb1)
    (hwb2 : wrN mb1 ob2 (r 2).2 = some mb2) (hwb3 : wrN mb2 ob3 (r 3).2 = some mb3)
    (k : T (bl kd a ma3 + (bl kd' b mb3 + F)) (g {}) Q) :
    T D (H0_x4_final X ⟨some (lam, l0, l1, l2, l3)⟩ (some ⟨a, oa0⟩) (some ⟨a, oa1⟩) (some ⟨a, oa2⟩) (some ⟨a, oa3⟩) n
      (some ⟨b, ob0⟩) (some ⟨b, ob1⟩) (some ⟨b, ob2⟩) (some ⟨b, ob3⟩) n' >>= g) Q := by
  unfold H0_x4_final
  subst hr
  refine t_assoc (t_lft rfl ?_)
  refine t_assoc (t_stN hD hwa0 ?_)
  refine t_assoc (t_stN rfl hwa1 ?_)
  refine t_assoc (t_stN rfl hwa2 ?_)
  refine t_assoc (t_stN rfl hwa3 ?_)
  refine t_assoc (t_stN (by hfind1) hwb0 ?_)
  refine t_assoc (t_stN rfl hwb1 ?_)
  refine t_assoc (t_stN rfl hwb2 ?_)
  refine t_assoc (t_stN rfl hwb3 (t_pbind ?_))
  exact t_perm (by hfind) k

/-- The bytes at a pointer. -/
def RdAt (D : Blocks) (p : CPtr) (n : Nat) (l : List Byte) : Prop :=
  ∃ b o kd m, p = some ⟨b, o⟩ ∧ (b, (⟨kd, .bytes m⟩ : Cell)) ∈ D ∧ rdN m o n = some l

theorem RdAt.there {p : CPtr} {n : Nat} {l : List Byte} (h : RdAt D p n l) : RdAt (E + D) p n l := by
  obtain ⟨b, o, k, m, hp, hm, hle⟩ := h
  exact ⟨b, o, k, m, hp, Multiset.mem_add.2 (Or.inr hm), hle⟩

theorem View.rdAt {p : CPtr} {μ : Mem Byte} {n : Nat} {l : List Byte} (hv : View D p μ) (hn : 0 < n) (hr : rdN μ 0 n = some l) :
    RdAt D p n l := by
  obtain ⟨b, o, kd, m, rfl, hm, hle⟩ := hv
  exact ⟨b, o, kd, m, rfl, hm, rdN_drop hn (hle.rdN hr)⟩

theorem a_hupdR {lam n : Nat} {l l' : List Byte} {p : CPtr} {g : HCtx → CM δ} (hv : RdAt D p n l')
    (k : T D (g ⟨some (lam, l ++ l')⟩) Q) : T D (hupdate ⟨some (lam, l)⟩ p n >>= g) Q := by
  obtain ⟨b, o, kd, m, rfl, hm, hr⟩ := hv
  unfold hupdate ldN
  refine t_assoc (t_lft rfl (t_assoc (t_assoc (t_lft rfl (t_assoc (t_run rfl (runs_blk (α := Byte) hm) ?_))))))
  exact t_lft hr (t_pbind k)

theorem a_H3_final {X : XOF} {lam n b b' o o' : Nat} {kd' : Kind} {l : List Byte} {m m' w w' : Mem Byte} {g : HCtx → CM δ}
    (hD : D = bl kd b m + (bl kd' b' w + F)) (hw : wrN m o (H3 X lam l n).1 = some m') (hw' : wrN w o' (H3 X lam l n).2 = some w')
    (k : T (bl kd b m' + (bl kd' b' w' + F)) (g {}) Q) :
    T D (H3_final X ⟨some (lam, l)⟩ (some ⟨b, o⟩) n (some ⟨b', o'⟩) >>= g) Q := by
  unfold H3_final
  refine t_assoc (t_lft rfl (t_assoc (t_stN hD hw (t_assoc (t_stN (by hfind1) hw' (t_pbind ?_))))))
  exact t_perm (by hfind) k

/-! ### Implementations -/

section
variable {C : Type} (Raw : C → Blocks → Prop) (val : Nat → Nat → List Byte → C) (blk : Nat → Nat → List Byte → Blocks)

/-- `f` makes a context without input. -/
def IsInit (f : C → Nat → CM C) : Prop :=
  ∀ (c : C) (D0 F : Blocks) (lam : Nat), Raw c D0 →
    T (D0 + F) (f c lam) fun c' D' => ∃ b, c' = val b lam [] ∧ D' = blk b lam [] + F

/-- `f` appends to the input. -/
def IsUpd (fits : Nat → Nat → Nat → Prop) (f : C → CPtr → Nat → CM C) : Prop :=
  ∀ (b lam n : Nat) (l l' : List Byte) (p : CPtr) (F : Blocks),
    Runs F (hupdate ⟨some (lam, l)⟩ p n) ⟨some (lam, l')⟩ F → fits lam l.length n →
    Runs (blk b lam l + F) (f (val b lam l) p n) (val b lam l') (blk b lam l' + F)

/-- `f` closes the input and writes what `a` writes. -/
def IsFin (f : C → CM C) (a : HCtx → CM HCtx) (b lam : Nat) (l : List Byte) : Prop :=
  ∀ F F', Runs F (a ⟨some (lam, l)⟩) {} F' →
    T (blk b lam l + F) (f (val b lam l)) fun c' D' => ∃ D0, Raw c' D0 ∧ D' = D0 + F'

end

/-- `I` does what the oracles over `X` do. -/
structure HSpec (I : HImpl) (X : XOF) where
  /-- a context with any contents, its blocks -/
  Raw : I.Ctx → Blocks → Prop
  /-- the context with this input, at some place in memory -/
  val : Nat → Nat → List Byte → I.Ctx
  /-- its blocks -/
  blk : Nat → Nat → List Byte → Blocks
  Raw4 : I.Ctx4 → Blocks → Prop
  Live4 : Nat → List Byte → List Byte → List Byte → List Byte → I.Ctx4 → Blocks → Prop
  /-- the lengths for which the implementation is right: security parameter, length of the input so far, length added -/
  fits : Nat → Nat → Nat → Prop
  fits_small : ∀ {lam len n : Nat}, n + 200 ≤ 4294967296 → fits lam len n
  new : ∀ D, T D I.new fun c D' => ∃ D0, Raw c D0 ∧ D' = D0 + D
  drop : ∀ c D0 D, Raw c D0 → T (D0 + D) (I.drop c) fun _ D' => D' = D
  new4 : ∀ D, T D I.new4 fun c D' => ∃ D0, Raw4 c D0 ∧ D' = D0 + D
  drop4 : ∀ c D0 D, Raw4 c D0 → T (D0 + D) (I.drop4 c) fun _ D' => D' = D
  init0 : IsInit Raw val blk I.H0_init
  init1 : IsInit Raw val blk I.H1_init
  init2 : IsInit Raw val blk I.H2_init
  init3 : IsInit Raw val blk I.H3_init
  upd0 : IsUpd val blk fits I.H0_update
  upd1 : IsUpd val blk fits I.H1_update
  upd2 : IsUpd val blk fits I.H2_update
  upd3 : IsUpd val blk fits I.H3_update
  fin0 : ∀ (b lam : Nat) (l : List Byte) (p p' : CPtr) (n n' : Nat), n + 200 ≤ 4294967296 → n' + 200 ≤ 4294967296 →
    IsFin Raw val blk (fun c => I.H0_final c p n p' n') (fun a => H0_final X a p n p' n') b lam l
  fin1 : ∀ (b lam : Nat) (l : List Byte) (p : CPtr) (n : Nat), n + 200 ≤ 4294967296 →
    IsFin Raw val blk (fun c => I.H1_final c p n) (fun a => H1_final X a p n) b lam l
  fin2 : ∀ (b lam : Nat) (l : List Byte) (p : CPtr) (n : Nat), n + 200 ≤ 4294967296 →
    IsFin Raw val blk (fun c => I.H2_final c p n) (fun a => H2_final X a p n) b lam l
  fin3 : ∀ (b lam : Nat) (l : List Byte) (p p' : CPtr) (n : Nat), n + 200 ≤ 4294967296 →
    IsFin Raw val blk (fun c => I.H3_final c p n p') (fun a => H3_final X a p n p') b lam l
  init4 : ∀ (c : I.Ctx4) (D0 F : Blocks) (lam : Nat), Raw4 c D0 →
    T (D0 + F) (I.H0_x4_init c lam) fun c' D' => ∃ D1, Live4 lam [] [] [] [] c' D1 ∧ D' = D1 + F
  upd4 : ∀ (c : I.Ctx4) (D0 F : Blocks) (lam n : Nat) (l0 l1 l2 l3 k0 k1 k2 k3 : List Byte) (p0 p1 p2 p3 : CPtr),
    Live4 lam l0 l1 l2 l3 c D0 → n + 200 ≤ 4294967296 →
    Runs F (H0_x4_update ⟨some (lam, l0, l1, l2, l3)⟩ p0 p1 p2 p3 n) ⟨some (lam, k0, k1, k2, k3)⟩ F →
    T (D0 + F) (I.H0_x4_update c p0 p1 p2 p3 n) fun c' D' => ∃ D1, Live4 lam k0 k1 k2 k3 c' D1 ∧ D' = D1 + F
  fin4 : ∀ (c : I.Ctx4) (D0 F F' : Blocks) (lam n n' : Nat) (l0 l1 l2 l3 : List Byte)
    (a b oa0 oa1 oa2 oa3 ob0 ob1 ob2 ob3 : Nat), Live4 lam l0 l1 l2 l3 c D0 → n + 200 ≤ 4294967296 → n' + 200 ≤ 4294967296 →
    oa0 + n ≤ oa1 → oa1 + n ≤ oa2 → oa2 + n ≤ oa3 → ob0 + n' ≤ ob1 → ob1 + n' ≤ ob2 → ob2 + n' ≤ ob3 →
    Runs F (H0_x4_final X ⟨some (lam, l0, l1, l2, l3)⟩ (some ⟨a, oa0⟩) (some ⟨a, oa1⟩) (some ⟨a, oa2⟩) (some ⟨a, oa3⟩) n
      (some ⟨b, ob0⟩) (some ⟨b, ob1⟩) (some ⟨b, ob2⟩) (some ⟨b, ob3⟩) n') {} F' →
    T (D0 + F) (I.H0_x4_final c (some ⟨a, oa0⟩) (some ⟨a, oa1⟩) (some ⟨a, oa2⟩) (some ⟨a, oa3⟩) n
      (some ⟨b, ob0⟩) (some ⟨b, ob1⟩) (some ⟨b, ob2⟩) (some ⟨b, ob3⟩) n') fun c' D' => ∃ D1, Raw4 c' D1 ∧ D' = D1 + F'

/-- The implementation hashes a message of this length: it follows the two halves of the public key. -/
def HSpec.Msg {I : HImpl} {X : XOF} (S : HSpec I X) (i : ParamId) (len : Nat) : Prop :=
  S.fits (params i).lambda ((params i).pkSize / 2 + (params i).pkSize / 2) len

/-- The implementation hashes randomness of this length: it follows the key and the hash of the message. -/
def HSpec.Rho {I : HImpl} {X : XOF} (S : HSpec I X) (i : ParamId) (len : Nat) : Prop :=
  S.fits (params i).lambda ((params i).lambda / 8 + (params i).lambda / 8 * 2) len

/-! ### Rules -/

section
variable {I : HImpl} {X : XOF} (S : HSpec I X)

theorem t_hnew {g : I.Ctx → CM δ} (k : ∀ c D0, S.Raw c D0 → T (D0 + D) (g c) Q) : T D (I.new >>= g) Q :=
  t_call rfl (S.new D) fun c D' ⟨D0, hr, e⟩ => e ▸ k c D0 hr

theorem t_hdrop {c : I.Ctx} {D0 : Blocks} {g : Unit → CM δ} (hr : S.Raw c D0) (k : T D (g ()) Q) :
    T (D0 + D) (I.drop c >>= g) Q :=
  t_call rfl (S.drop c D0 D hr) fun _ D' e => e ▸ k

theorem t_hnew4 {g : I.Ctx4 → CM δ} (k : ∀ c D0, S.Raw4 c D0 → T (D0 + D) (g c) Q) : T D (I.new4 >>= g) Q :=
  t_call rfl (S.new4 D) fun c D' ⟨D0, hr, e⟩ => e ▸ k c D0 hr

theorem t_hdrop4 {c : I.Ctx4} {D0 : Blocks} {g : Unit → CM δ} (hr : S.Raw4 c D0) (k : T D (g ()) Q) :
    T (D0 + D) (I.drop4 c >>= g) Q :=
  t_call rfl (S.drop4 c D0 D hr) fun _ D' e => e ▸ k

theorem IsInit.t {C : Type} {Raw : C → Blocks → Prop} {val : Nat → Nat → List Byte → C} {blk : Nat → Nat → List Byte → Blocks}
    {f : C → Nat → CM C} (h : IsInit Raw val blk f) {c : C} {D0 : Blocks} {lam : Nat} {g : C → CM δ} (hr : Raw c D0)
    (k : ∀ b, T (blk b lam [] + D) (g (val b lam [])) Q) : T (D0 + D) (f c lam >>= g) Q := by
  refine t_call rfl (h c D0 D lam hr) ?_
  rintro c' D' ⟨b, rfl, rfl⟩
  exact k b

theorem IsUpd.t {C : Type} {val : Nat → Nat → List Byte → C} {blk : Nat → Nat → List Byte → Blocks}
    {fits : Nat → Nat → Nat → Prop} {f : C → CPtr → Nat → CM C} (h : IsUpd val blk fits f) {b lam n : Nat} {l l' : List Byte}
    {p : CPtr} {g : C → CM δ} (hv : RdAt D p n l') (hn : fits lam l.length n)
    (k : T (blk b lam (l ++ l') + D) (g (val b lam (l ++ l'))) Q) : T (blk b lam l + D) (f (val b lam l) p n >>= g) Q := by
  refine t_run rfl (h b lam n l (l ++ l') p D ?_ hn) k
  have := a_hupdR (lam := lam) (l := l) (g := fun c => pure c) (Q := fun c D' => c = ⟨some (lam, l ++ l')⟩ ∧ D' = D) hv
    (t_pure ⟨rfl, rfl⟩)
  rwa [bind_pure] at this

theorem IsFin.t {C : Type} {Raw : C → Blocks → Prop} {val : Nat → Nat → List Byte → C} {blk : Nat → Nat → List Byte → Blocks}
    {f : C → CM C} {a : HCtx → CM HCtx} {b lam : Nat} {l : List Byte} (h : IsFin Raw val blk f a b lam l) {g : C → CM δ}
    (hr : Runs D (a ⟨some (lam, l)⟩) {} E) (k : ∀ c D0, Raw c D0 → T (D0 + E) (g c) Q) :
    T (blk b lam l + D) (f (val b lam l) >>= g) Q :=
  t_call rfl (h D E hr) fun c D' ⟨D0, hr, e⟩ => e ▸ k c D0 hr

theorem t_hinit0 {c : I.Ctx} {D0 : Blocks} {lam : Nat} {g : I.Ctx → CM δ} (hr : S.Raw c D0)
    (k : ∀ b, T (S.blk b lam [] + D) (g (S.val b lam [])) Q) : T (D0 + D) (I.H0_init c lam >>= g) Q := S.init0.t hr k
theorem t_hinit1 {c : I.Ctx} {D0 : Blocks} {lam : Nat} {g : I.Ctx → CM δ} (hr : S.Raw c D0)
    (k : ∀ b, T (S.blk b lam [] + D) (g (S.val b lam [])) Q) : T (D0 + D) (I.H1_init c lam >>= g) Q := S.init1.t hr k
theorem t_hinit2 {c : I.Ctx} {D0 : Blocks} {lam : Nat} {g : I.Ctx → CM δ} (hr : S.Raw c D0)
    (k : ∀ b, T (S.blk b lam [] + D) (g (S.val b lam [])) Q) : T (D0 + D) (I.H2_init c lam >>= g) Q := S.init2.t hr k
theorem t_hinit3 {c : I.Ctx} {D0 : Blocks} {lam : Nat} {g : I.Ctx → CM δ} (hr : S.Raw c D0)
    (k : ∀ b, T (S.blk b lam [] + D) (g (S.val b lam [])) Q) : T (D0 + D) (I.H3_init c lam >>= g) Q := S.init3.t hr k

theorem t_hupdF0 {b lam n : Nat} {l l' : List Byte} {p : CPtr} {g : I.Ctx → CM δ} (hv : RdAt D p n l')
    (hn : S.fits lam l.length n) (k : T (S.blk b lam (l ++ l') + D) (g (S.val b lam (l ++ l'))) Q) :
    T (S.blk b lam l + D) (I.H0_update (S.val b lam l) p n >>= g) Q := S.upd0.t hv hn k
theorem t_hupdR0 {b lam n : Nat} {l l' : List Byte} {p : CPtr} {g : I.Ctx → CM δ} (hv : RdAt D p n l')
    (hn : n + 200 ≤ 4294967296) (k : T (S.blk b lam (l ++ l') + D) (g (S.val b lam (l ++ l'))) Q) :
    T (S.blk b lam l + D) (I.H0_update (S.val b lam l) p n >>= g) Q := S.upd0.t hv (S.fits_small hn) k
theorem t_hupd0 {b lam n : Nat} {l l' : List Byte} {p : CPtr} {μ : Mem Byte} {g : I.Ctx → CM δ} (hv : View D p μ) (h0 : 0 < n)
    (hr : rdN μ 0 n = some l') (hn : n + 200 ≤ 4294967296) (k : T (S.blk b lam (l ++ l') + D) (g (S.val b lam (l ++ l'))) Q) :
    T (S.blk b lam l + D) (I.H0_update (S.val b lam l) p n >>= g) Q := S.upd0.t (hv.rdAt h0 hr) (S.fits_small hn) k

theorem t_hupdF1 {b lam n : Nat} {l l' : List Byte} {p : CPtr} {g : I.Ctx → CM δ} (hv : RdAt D p n l')
    (hn : S.fits lam l.length n) (k : T (S.blk b lam (l ++ l') + D) (g (S.val b lam (l ++ l'))) Q) :
    T (S.blk b lam l + D) (I.H1_update (S.val b lam l) p n >>= g) Q := S.upd1.t hv hn k
theorem t_hupdR1 {b lam n : Nat} {l l' : List Byte} {p : CPtr} {g : I.Ctx → CM δ} (hv : RdAt D p n l')
    (hn : n + 200 ≤ 4294967296) (k : T (S.blk b lam (l ++ l') + D) (g (S.val b lam (l ++ l'))) Q) :
    T (S.blk b lam l + D) (I.H1_update (S.val b lam l) p n >>= g) Q := S.upd1.t hv (S.fits_small hn) k
theorem t_hupd1 {b lam n : Nat} {l l' : List Byte} {p : CPtr} {μ : Mem Byte} {g : I.Ctx → CM δ} (hv : View D p μ) (h0 : 0 < n)
    (hr : rdN μ 0 n = some l') (hn : n + 200 ≤ 4294967296) (k : T (S.blk b lam (l ++ l') + D) (g (S.val b lam (l ++ l'))) Q) :
    T (S.blk b lam l + D) (I.H1_update (S.val b lam l) p n >>= g) Q := S.upd1.t (hv.rdAt h0 hr) (S.fits_small hn) k

theorem t_hupdF2 {b lam n : Nat} {l l' : List Byte} {p : CPtr} {g : I.Ctx → CM δ} (hv : RdAt D p n l')
    (hn : S.fits lam l.length n) (k : T (S.blk b lam (l ++ l') + D) (g (S.val b lam (l ++ l'))) Q) :
    T (S.blk b lam l + D) (I.H2_update (S.val b lam l) p n >>= g) Q := S.upd2.t hv hn k
theorem t_hupdR2 {b lam n : Nat} {l l' : List Byte} {p : CPtr} {g : I.Ctx → CM δ} (hv : RdAt D p n l')
    (hn : n + 200 ≤ 4294967296) (k : T (S.blk b lam (l ++ l') + D) (g (S.val b lam (l ++ l'))) Q) :
    T (S.blk b lam l + D) (I.H2_update (S.val b lam l) p n >>= g) Q := S.upd2.t hv (S.fits_small hn) k
theorem t_hupd2 {b lam n : Nat} {l l' : List Byte} {p : CPtr} {μ : Mem Byte} {g : I.Ctx → CM δ} (hv : View D p μ) (h0 : 0 < n)
    (hr : rdN μ 0 n = some l') (hn : n + 200 ≤ 4294967296) (k : T (S.blk b lam (l ++ l') + D) (g (S.val b lam (l ++ l'))) Q) :
    T (S.blk b lam l + D) (I.H2_update (S.val b lam l) p n >>= g) Q := S.upd2.t (hv.rdAt h0 hr) (S.fits_small hn) k

theorem t_hupdF3 {b lam n : Nat} {l l' : List Byte} {p : CPtr} {g : I.Ctx → CM δ} (hv : RdAt D p n l')
    (hn : S.fits lam l.length n) (k : T (S.blk b lam (l ++ l') + D) (g (S.val b lam (l ++ l'))) Q) :
    T (S.blk b lam l + D) (I.H3_update (S.val b lam l) p n >>= g) Q := S.upd3.t hv hn k
theorem t_hupdR3 {b lam n : Nat} {l l' : List Byte} {p : CPtr} {g : I.Ctx → CM δ} (hv : RdAt D p n l')
    (hn : n + 200 ≤ 4294967296) (k : T (S.blk b lam (l ++ l') + D) (g (S.val b lam (l ++ l'))) Q) :
    T (S.blk b lam l + D) (I.H3_update (S.val b lam l) p n >>= g) Q := S.upd3.t hv (S.fits_small hn) k
theorem t_hupd3 {b lam n : Nat} {l l' : List Byte} {p : CPtr} {μ : Mem Byte} {g : I.Ctx → CM δ} (hv : View D p μ) (h0 : 0 < n)
    (hr : rdN μ 0 n = some l') (hn : n + 200 ≤ 4294967296) (k : T (S.blk b lam (l ++ l') + D) (g (S.val b lam (l ++ l'))) Q) :
    T (S.blk b lam l + D) (I.H3_update (S.val b lam l) p n >>= g) Q := S.upd3.t (hv.rdAt h0 hr) (S.fits_small hn) k

theorem t_H1_final {c lam n b o : Nat} {l : List Byte} {m m' : Mem Byte} {g : I.Ctx → CM δ}
    (hD : D = bl kd b m + F) (hw : wrN m o (H1 X lam l n) = some m') (hn : n + 200 ≤ 4294967296)
    (k : ∀ x D0, S.Raw x D0 → T (D0 + (bl kd b m' + F)) (g x) Q) :
    T (S.blk c lam l + D) (I.H1_final (S.val c lam l) (some ⟨b, o⟩) n >>= g) Q := by
  refine (S.fin1 c lam l (some ⟨b, o⟩) n hn).t ?_ k
  have := a_H1_final (X := X) (lam := lam) (l := l) (n := n) (o := o) (m' := m') (g := fun c => pure c)
    (Q := fun c D' => c = {} ∧ D' = bl kd b m' + F) hD hw (t_pure ⟨rfl, rfl⟩)
  rwa [bind_pure] at this

theorem t_H2_final {c lam n b o : Nat} {l : List Byte} {m m' : Mem Byte} {g : I.Ctx → CM δ}
    (hD : D = bl kd b m + F) (hw : wrN m o (H2 X lam l n) = some m') (hn : n + 200 ≤ 4294967296)
    (k : ∀ x D0, S.Raw x D0 → T (D0 + (bl kd b m' + F)) (g x) Q) :
    T (S.blk c lam l + D) (I.H2_final (S.val c lam l) (some ⟨b, o⟩) n >>= g) Q := by
  refine (S.fin2 c lam l (some ⟨b, o⟩) n hn).t ?_ k
  have := a_H2_final (X := X) (lam := lam) (l := l) (n := n) (o := o) (m' := m') (g := fun c => pure c)
    (Q := fun c D' => c = {} ∧ D' = bl kd b m' + F) hD hw (t_pure ⟨rfl, rfl⟩)
  rwa [bind_pure] at this

theorem t_H0_final {c lam n n' a oa b ob : Nat} {kd' : Kind} {l : List Byte} {ma ma' mb mb' : Mem Byte} {g : I.Ctx → CM δ}
    (hD : D = bl kd a ma + (bl kd' b mb + F)) (hwa : wrN ma oa (H0 X lam l n n').1 = some ma')
    (hwb : wrN mb ob (H0 X lam l n n').2 = some mb') (hn : n + 200 ≤ 4294967296) (hn' : n' + 200 ≤ 4294967296)
    (k : ∀ x D0, S.Raw x D0 → T (D0 + (bl kd a ma' + (bl kd' b mb' + F))) (g x) Q) :
    T (S.blk c lam l + D) (I.H0_final (S.val c lam l) (some ⟨a, oa⟩) n (some ⟨b, ob⟩) n' >>= g) Q := by
  refine (S.fin0 c lam l (some ⟨a, oa⟩) (some ⟨b, ob⟩) n n' hn hn').t ?_ k
  have := a_H0_final (X := X) (lam := lam) (l := l) (n := n) (n' := n') (g := fun c => pure c)
    (Q := fun c D' => c = {} ∧ D' = bl kd a ma' + (bl kd' b mb' + F)) hD hwa hwb (t_pure ⟨rfl, rfl⟩)
  rwa [bind_pure] at this

theorem t_H3_final {c lam n b b' o o' : Nat} {kd' : Kind} {l : List Byte} {m m' w w' : Mem Byte} {g : I.Ctx → CM δ}
    (hD : D = bl kd b m + (bl kd' b' w + F)) (hw : wrN m o (H3 X lam l n).1 = some m') (hw' : wrN w o' (H3 X lam l n).2 = some w')
    (hn : n + 200 ≤ 4294967296) (k : ∀ x D0, S.Raw x D0 → T (D0 + (bl kd b m' + (bl kd' b' w' + F))) (g x) Q) :
    T (S.blk c lam l + D) (I.H3_final (S.val c lam l) (some ⟨b, o⟩) n (some ⟨b', o'⟩) >>= g) Q := by
  refine (S.fin3 c lam l (some ⟨b, o⟩) (some ⟨b', o'⟩) n hn).t ?_ k
  have := a_H3_final (X := X) (lam := lam) (l := l) (n := n) (g := fun c => pure c)
    (Q := fun c D' => c = {} ∧ D' = bl kd b m' + (bl kd' b' w' + F)) hD hw hw' (t_pure ⟨rfl, rfl⟩)
  rwa [bind_pure] at this

theorem t_h4init {c : I.Ctx4} {D0 : Blocks} {lam : Nat} {g : I.Ctx4 → CM δ} (hr : S.Raw4 c D0)
    (k : ∀ c D0, S.Live4 lam [] [] [] [] c D0 → T (D0 + D) (g c) Q) : T (D0 + D) (I.H0_x4_init c lam >>= g) Q :=
  t_call rfl (S.init4 c D0 D lam hr) fun c D' ⟨D1, hr, e⟩ => e ▸ k c D1 hr

theorem t_h4upd {c : I.Ctx4} {D0 : Blocks} {lam n : Nat} {l0 l1 l2 l3 k0 k1 k2 k3 : List Byte} {p0 p1 p2 p3 : CPtr}
    {μ0 μ1 μ2 μ3 : Mem Byte} {g : I.Ctx4 → CM δ} (hl : S.Live4 lam l0 l1 l2 l3 c D0) (hs : n + 200 ≤ 4294967296) (hn : 0 < n)
    (hv0 : View D p0 μ0) (hv1 : View D p1 μ1) (hv2 : View D p2 μ2) (hv3 : View D p3 μ3)
    (hr0 : rdN μ0 0 n = some k0) (hr1 : rdN μ1 0 n = some k1) (hr2 : rdN μ2 0 n = some k2) (hr3 : rdN μ3 0 n = some k3)
    (k : ∀ c D0, S.Live4 lam (l0 ++ k0) (l1 ++ k1) (l2 ++ k2) (l3 ++ k3) c D0 → T (D0 + D) (g c) Q) :
    T (D0 + D) (I.H0_x4_update c p0 p1 p2 p3 n >>= g) Q := by
  refine t_call rfl (S.upd4 c D0 D lam n l0 l1 l2 l3 (l0 ++ k0) (l1 ++ k1) (l2 ++ k2) (l3 ++ k3) p0 p1 p2 p3 hl hs ?_)
    fun c D' ⟨D1, hr, e⟩ => e ▸ k c D1 hr
  have := a_h4upd (D := D) (lam := lam) (l0 := l0) (l1 := l1) (l2 := l2) (l3 := l3) (g := fun c => pure c)
    (Q := fun c D' => c = ⟨some (lam, l0 ++ k0, l1 ++ k1, l2 ++ k2, l3 ++ k3)⟩ ∧ D' = D) hn hv0 hv1 hv2 hv3 hr0 hr1 hr2 hr3
    (t_pure ⟨rfl, rfl⟩)
  rwa [bind_pure] at this

theorem t_H0_x4_final {c : I.Ctx4} {D0 : Blocks} {lam n n' a b oa0 oa1 oa2 oa3 ob0 ob1 ob2 ob3 : Nat} {kd' : Kind}
    {l0 l1 l2 l3 : List Byte} {ma ma0 ma1 ma2 ma3 mb mb0 mb1 mb2 mb3 : Mem Byte} {r : Nat → List Byte × List Byte}
    {g : I.Ctx4 → CM δ} (hl : S.Live4 lam l0 l1 l2 l3 c D0) (hD : D = bl kd a ma + (bl kd' b mb + F))
    (hr : r = H0x4 X lam (fun i => if i = 0 then l0 else if i = 1 then l1 else if i = 2 then l2 else l3) n n')
    (hn : n + 200 ≤ 4294967296) (hn' : n' + 200 ≤ 4294967296)
    (ho : oa0 + n ≤ oa1 ∧ oa1 + n ≤ oa2 ∧ oa2 + n ≤ oa3 ∧ ob0 + n' ≤ ob1 ∧ ob1 + n' ≤ ob2 ∧ ob2 + n' ≤ ob3)
    (hwa0 : wrN ma oa0 (r 0).1 = some ma0) (hwa1 : wrN ma0 oa1 (r 1).1 = some ma1)
    (hwa2 : wrN ma1 oa2 (r 2).1 = some ma2) (hwa3 : wrN ma2 oa3 (r 3).1 = some ma3)
    (hwb0 : wrN mb ob0 (r 0).2 = some mb0) (hwb1 : wrN mb0 ob1 (r 1).2 = some mb1)
    (hwb2 : wrN mb1 ob2 (r 2).2 = some mb2) (hwb3 : wrN mb2 ob3 (r 3).2 = some mb3)
    (k : ∀ c D0, S.Raw4 c D0 → T (D0 + (bl kd a ma3 + (bl kd' b mb3 + F))) (g c) Q) :
    T (D0 + D) (I.H0_x4_final c (some ⟨a, oa0⟩) (some ⟨a, oa1⟩) (some ⟨a, oa2⟩) (some ⟨a, oa3⟩) n
      (some ⟨b, ob0⟩) (some ⟨b, ob1⟩) (some ⟨b, ob2⟩) (some ⟨b, ob3⟩) n' >>= g) Q := by
  refine t_call rfl (S.fin4 c D0 D _ lam n n' l0 l1 l2 l3 a b oa0 oa1 oa2 oa3 ob0 ob1 ob2 ob3 hl hn hn' ho.1 ho.2.1 ho.2.2.1
    ho.2.2.2.1 ho.2.2.2.2.1 ho.2.2.2.2.2 ?_) fun c D' ⟨D1, hr, e⟩ => e ▸ k c D1 hr
  have := a_H0_x4_final (X := X) (g := fun c => pure c)
    (Q := fun c D' => c = {} ∧ D' = bl kd a ma3 + (bl kd' b mb3 + F)) hD hr hwa0 hwa1 hwa2 hwa3 hwb0 hwb1 hwb2 hwb3
    (t_pure ⟨rfl, rfl⟩)
  rwa [bind_pure] at this

end

/-! ### The oracles over `X` themselves -/

/-- The abstract oracles have no memory. -/
def absSpec (X : XOF) : HSpec (absImpl X) X where
  Raw := fun _ D0 => D0 = 0
  val := fun _ lam l => (⟨some (lam, l)⟩ : HCtx)
  blk := fun _ _ _ => 0
  Raw4 := fun _ D0 => D0 = 0
  Live4 := fun lam l0 l1 l2 l3 c D0 => (c : HCtx4) = ⟨some (lam, l0, l1, l2, l3)⟩ ∧ D0 = 0
  fits := fun _ _ _ => True
  fits_small := fun _ => trivial
  new := fun D => t_pure ⟨0, rfl, (zero_add D).symm⟩
  drop := by rintro c D0 D rfl; exact t_pure (zero_add D)
  new4 := fun D => t_pure ⟨0, rfl, (zero_add D).symm⟩
  drop4 := by rintro c D0 D rfl; exact t_pure (zero_add D)
  init0 := by rintro c D0 D lam rfl; exact t_pure ⟨0, rfl, rfl⟩
  init1 := by rintro c D0 D lam rfl; exact t_pure ⟨0, rfl, rfl⟩
  init2 := by rintro c D0 D lam rfl; exact t_pure ⟨0, rfl, rfl⟩
  init3 := by rintro c D0 D lam rfl; exact t_pure ⟨0, rfl, rfl⟩
  upd0 := by intro b lam n l l' p F h _; rw [zero_add]; exact h
  upd1 := by intro b lam n l l' p F h _; rw [zero_add]; exact h
  upd2 := by intro b lam n l l' p F h _; rw [zero_add]; exact h
  upd3 := by intro b lam n l l' p F h _; rw [zero_add]; exact h
  fin0 := by intro b lam l p p' n n' _ _ F F' h; rw [zero_add]; exact t_mono h fun _ _ e => ⟨0, rfl, by rw [zero_add, e.2]⟩
  fin1 := by intro b lam l p n _ F F' h; rw [zero_add]; exact t_mono h fun _ _ e => ⟨0, rfl, by rw [zero_add, e.2]⟩
  fin2 := by intro b lam l p n _ F F' h; rw [zero_add]; exact t_mono h fun _ _ e => ⟨0, rfl, by rw [zero_add, e.2]⟩
  fin3 := by intro b lam l p p' n _ F F' h; rw [zero_add]; exact t_mono h fun _ _ e => ⟨0, rfl, by rw [zero_add, e.2]⟩
  init4 := by rintro c D0 D lam rfl; exact t_pure ⟨0, ⟨rfl, rfl⟩, rfl⟩
  upd4 := by
    rintro c D0 F lam n l0 l1 l2 l3 k0 k1 k2 k3 p0 p1 p2 p3 ⟨rfl, rfl⟩ _ h
    rw [zero_add]
    exact t_mono h fun _ _ e => ⟨0, ⟨e.1, rfl⟩, by rw [zero_add, e.2]⟩
  fin4 := by
    rintro c D0 F F' lam n n' l0 l1 l2 l3 a b oa0 oa1 oa2 oa3 ob0 ob1 ob2 ob3 ⟨rfl, rfl⟩ _ _ _ _ _ _ _ _ h
    rw [zero_add]
    exact t_mono h fun _ _ e => ⟨0, rfl, by rw [zero_add, e.2]⟩

end

end Faest.C
