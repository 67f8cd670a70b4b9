/-
The translated hash layer (random_oracle.c, hash_shake.h, sha3) does what the oracles over SHAKE do.
-/
import Verif.Proofs.Gen.HSpec
import Verif.Proofs.Gen.HashApiX4
import Verif.Proofs.Gen.Sha3Spec

namespace Faest.GenH
open Faest.C Faest.Keccak
open Spec.Keccak (shakeX)

variable {K1 : SpImpl} (S1 : SpSpec K1)

/-- The context at block `b` which has taken in `l`. -/
def sVal (b lam : Nat) (l : List Byte) : HashC :=
  ⟨spA (some ⟨b, 0⟩) (rateOf (hashSel lam)) (aM (hashSel lam) l).2, some 0, some 0x1F⟩

def sBlk (b lam : Nat) (l : List Byte) : Blocks := bl .stack b (S1.lay (aM (hashSel lam) l).1)

def sRaw (c : HashC) (D0 : Blocks) : Prop := ∃ (b : Nat) (m : Mem Byte), HRaw b c m ∧ D0 = bl .stack b m

def sRaw4 (c : HashC) (D0 : Blocks) : Prop := ∃ (b : Nat) (m : Mem Byte), HRaw4 b c m ∧ D0 = bl .stack b m

def sLive4 {K4 : P4Impl} (S : P4Spec K4) (lam : Nat) (l0 l1 l2 l3 : List Byte) (c : HashC) (D0 : Blocks) : Prop :=
  ∃ (b : Nat) (m : Mem Byte), Rep4 S b ⟨some (lam, l0, l1, l2, l3)⟩ c m ∧ D0 = bl .stack b m

theorem HRaw.rep {b : Nat} {c : HashC} {m : Mem Byte} (S1 : SpSpec K1) (h : HRaw b c m) : Rep S1 b {} c m := ⟨h, fun s e => by cases e⟩

theorem HRaw4.rep {K4 : P4Impl} {S : P4Spec K4} {b : Nat} {c : HashC} {m : Mem Byte} (h : HRaw4 b c m) : Rep4 S b {} c m := ⟨h, fun s e => by cases e⟩

theorem rep_val (b lam : Nat) (l : List Byte) : Rep S1 b ⟨some (lam, l)⟩ (sVal b lam l) (S1.lay (aM (hashSel lam) l).1) :=
  ⟨⟨rfl, S1.len _⟩, fun s e => by cases e; exact ⟨rfl, rfl⟩⟩

theorem Rep.eqs {b lam : Nat} {l : List Byte} {c : HashC} {m : Mem Byte} {S1 : SpSpec K1} (h : Rep S1 b ⟨some (lam, l)⟩ c m) :
    c = sVal b lam l ∧ m = S1.lay (aM (hashSel lam) l).1 := h.2 _ rfl

theorem small {n : Nat} (h : n + 200 ≤ 4294967296) : Small 64 n := ⟨h, by omega⟩

theorem sInit : IsInit sRaw sVal (sBlk S1) (fun c lam => do
    let e1 ← hash_init K1 c (if lam = 128 then 128 else 256)
    let ctx := e1
    pure ctx) := by
  rintro c D0 F lam ⟨b, m, h, rfl⟩
  refine t_mono (H_init_t (a' := ⟨some (lam, [])⟩) (F' := F) (h.rep S1) (t_pure ⟨rfl, rfl⟩)) ?_
  rintro c' D' ⟨m', h', rfl⟩
  obtain ⟨rfl, rfl⟩ := h'.eqs
  exact ⟨b, rfl, rfl⟩

theorem sUpd : IsUpd sVal (sBlk S1) (fun lam len n => UpdateFits 64 (hashSel lam) len n) (fun c p n => do
    let e1 ← hash_update K1 c p n
    let ctx := e1
    pure ctx) := by
  intro b lam n l l' p F hr hn
  refine t_mono (H_update_t (rep_val S1 b lam l) hr fun s e => by cases e; exact hn) ?_
  rintro c' D' ⟨m', h', rfl⟩
  obtain ⟨rfl, rfl⟩ := h'.eqs
  exact ⟨rfl, rfl⟩

theorem sNew {size : Nat} (D : Blocks) : T D (do
    let s ← alloc .stack (malloc size : Mem Byte)
    pure ⟨⟨s, none, none, none⟩, none, none⟩ : CM HashC) fun c D' =>
      ∃ b, c.sponge.state = some ⟨b, 0⟩ ∧ D' = bl .stack b (malloc size : Mem Byte) + D :=
  t_alloc fun b => t_pure ⟨b, rfl, rfl⟩

theorem sFree {b : Nat} {m : Mem Byte} (D : Blocks) : T (bl .stack b m + D) (cfree .stack (some ⟨b, 0⟩)) fun _ D' => D' = D := by
  have := t_free (D := bl .stack b m + D) (F := D) (g := fun _ => (pure () : CM Unit)) (Q := fun _ D' => D' = D) rfl (t_pure rfl)
  rwa [bind_pure_unit] at this

theorem sFin {f : HashC → CM HashC} {a : HCtx → CM HCtx} {b lam : Nat} {l : List Byte}
    (h : ∀ F F', Runs F (a ⟨some (lam, l)⟩) {} F' →
      T (sBlk S1 b lam l + F) (f (sVal b lam l)) fun c' D' => ∃ m', Rep S1 b {} c' m' ∧ D' = bl .stack b m' + F') :
    IsFin sRaw sVal (sBlk S1) f a b lam l := by
  intro F F' hr
  refine t_mono (h F F' hr) ?_
  rintro c' D' ⟨m', h', rfl⟩
  exact ⟨_, ⟨b, m', h'.1, rfl⟩, rfl⟩

theorem apart4 {a o0 o1 o2 o3 n : Nat} (h0 : o0 + n ≤ o1) (h1 : o1 + n ≤ o2) (h2 : o2 + n ≤ o3) :
    Apart4 (some ⟨a, o0⟩) (some ⟨a, o1⟩) (some ⟨a, o2⟩) (some ⟨a, o3⟩) n := by
  refine ⟨?_, ?_, ?_, ?_, ?_, ?_⟩ <;> rintro q q' ⟨⟩ ⟨⟩ _ <;> simp only <;> omega

/-- The translated hash layer meets the interface, for lengths which `hash_update` takes. -/
def shakeSpec {K1 : SpImpl} {K4 : P4Impl} (S1 : SpSpec K1) (S : P4Spec K4) : HSpec (shakeImpl K1 K4) shakeX where
  Raw := sRaw
  val := sVal
  blk := sBlk S1
  Raw4 := sRaw4
  Live4 := sLive4 S
  fits := fun lam len n => UpdateFits 64 (hashSel lam) len n
  fits_small := fun h => (small h).update
  new := fun D => t_mono (sNew D) fun c D' ⟨b, h, e⟩ => ⟨_, ⟨b, _, ⟨h, malloc_length _⟩, rfl⟩, e⟩
  drop := by
    rintro c D0 D ⟨b, m, h, rfl⟩
    show T _ (cfree .stack c.sponge.state) _
    rw [h.1]
    exact sFree D
  new4 := fun D => t_mono (sNew D) fun c D' ⟨b, h, e⟩ => ⟨_, ⟨b, _, ⟨h, malloc_length _⟩, rfl⟩, e⟩
  drop4 := by
    rintro c D0 D ⟨b, m, h, rfl⟩
    show T _ (cfree .stack c.sponge.state) _
    rw [h.1]
    exact sFree D
  init0 := sInit S1
  init1 := sInit S1
  init2 := sInit S1
  init3 := sInit S1
  upd0 := sUpd S1
  upd1 := sUpd S1
  upd2 := sUpd S1
  upd3 := sUpd S1
  fin0 := fun b lam l p p' n n' h h' => sFin S1 fun F F' hr => H0_final_t (rep_val S1 b lam l) hr (small h) (small h')
  fin1 := fun b lam l p n h => sFin S1 fun F F' hr => H1_final_t (rep_val S1 b lam l) hr (small h)
  fin2 := fun b lam l p n h => sFin S1 fun F F' hr => H2_final_t (rep_val S1 b lam l) hr (small h)
  fin3 := fun b lam l p p' n h => sFin S1 fun F F' hr => H3_final_t (rep_val S1 b lam l) hr (small h)
  init4 := by
    rintro c D0 F lam ⟨b, m, h, rfl⟩
    refine t_mono (H0_x4_init_t (S := S) (a' := ⟨some (lam, [], [], [], [])⟩) (F' := F) h.rep (t_pure ⟨rfl, rfl⟩)) ?_
    rintro c' D' ⟨m', h', rfl⟩
    exact ⟨_, ⟨b, m', h', rfl⟩, rfl⟩
  upd4 := by
    rintro c D0 F lam n l0 l1 l2 l3 k0 k1 k2 k3 p0 p1 p2 p3 ⟨b, m, h, rfl⟩ hn hr
    refine t_mono (H0_x4_update_t h hr fun s e => (small hn).update) ?_
    rintro c' D' ⟨m', h', rfl⟩
    exact ⟨_, ⟨b, m', h', rfl⟩, rfl⟩
  fin4 := by
    rintro c D0 F F' lam n n' l0 l1 l2 l3 a b oa0 oa1 oa2 oa3 ob0 ob1 ob2 ob3 ⟨s, m, h, rfl⟩ hn hn' h1 h2 h3 h4 h5 h6 hr
    refine t_mono (H0_x4_final_t h hr (small hn) (small hn') (apart4 h1 h2 h3) (apart4 h4 h5 h6)) ?_
    rintro c' D' ⟨m', h', rfl⟩
    exact ⟨_, ⟨s, m', h'.1, rfl⟩, rfl⟩

/-- The hash layer with any of the modelled build options. -/
def Sha3.spec (v : Sha3) : HSpec v.impl shakeX := shakeSpec v.spec1 v.spec4

end Faest.GenH
