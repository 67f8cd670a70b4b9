/-
What the sponge of four states needs from the functions on four states (`P4Impl`).
-/
import Verif.Model.P4Impl
import Verif.Proofs.Gen.KeccakSponge

namespace Faest.GenH
open Faest.C Faest.Keccak

/-- Change one state. -/
def setS (B : Nat → Nat → Byte) (i : Nat) (B' : Nat → Byte) : Nat → Nat → Byte := fun k => if k = i then B' else B k

/-- A block of 800 bytes holds four states: `lay B` is its contents when byte `j` of state `i` is `B i j`.  The functions
act on the states; how the bytes are arranged is up to the implementation. -/
structure P4Spec (K4 : P4Impl) where
  lay : (Nat → Nat → Byte) → Mem Byte
  len : ∀ B, (lay B).length = 800
  congr : ∀ {B B' : Nat → Nat → Byte}, (∀ k, k < 4 → B k = B' k) → lay B = lay B'
  static : ∀ {F : Blocks}, Runs F K4.KeccakP1600times4_StaticInitialize () F
  init : ∀ {kd : Kind} {b : Nat} {F : Blocks} {m : Mem Byte}, m.length = 800 →
    Runs (bl kd b m + F) (K4.KeccakP1600times4_InitializeAll (some ⟨b, 0⟩)) () (bl kd b (lay fun _ _ => 0) + F)
  addByte : ∀ {kd : Kind} {b : Nat} {F : Blocks} {B : Nat → Nat → Byte} {c : Byte} {i y : Nat}, i < 4 → y < 200 →
    Runs (bl kd b (lay B) + F) (K4.KeccakP1600times4_AddByte (some ⟨b, 0⟩) i c y) ()
      (bl kd b (lay (setS B i (xorB (B i) y 1 fun _ => c))) + F)
  addBytes : ∀ {kd : Kind} {b : Nat} {F : Blocks} {B : Nat → Nat → Byte} {i x k : Nat} {p : CPtr} {μ : Mem Byte}
    {d : Nat → Byte}, i < 4 → View F p μ → Has μ 0 k d → 0 < k → x + k < 200 →
    Runs (bl kd b (lay B) + F) (K4.KeccakP1600times4_AddBytes (some ⟨b, 0⟩) i p x k) ()
      (bl kd b (lay (setS B i (xorB (B i) x k d))) + F)
  extract : ∀ {kd : Kind} {b : Nat} {F : Blocks} {B : Nat → Nat → Byte} {i x k : Nat} {q : Ptr}, i < 4 → Valid F q k →
    x + k < 200 →
    Runs (bl kd b (lay B) + F) (K4.KeccakP1600times4_ExtractBytes (some ⟨b, 0⟩) i (some q) x k) ()
      (bl kd b (lay B) + up F q (tabP k fun j => B i (x + j)))
  permute : ∀ {kd : Kind} {b : Nat} {F : Blocks} {B : Nat → Nat → Byte},
    Runs (bl kd b (lay B) + F) (K4.KeccakP1600times4_PermuteAll_24rounds (some ⟨b, 0⟩)) ()
      (bl kd b (lay fun k => keccakB (B k)) + F)

section
variable {kd : Kind} {b : Nat} {F : Blocks} {B : Nat → Nat → Byte}

/-- A loop over the four states. -/
theorem t_for4 {δ : Type} {Q : δ → Blocks → Prop} {body : Nat → CM Nat} {g : Nat → CM δ} (Dn : Nat → Blocks)
    {D : Blocks} (hD : D = Dn 0)
    (hb : ∀ i, i < 4 → T (Dn i) (body i) fun s D' => s = i + 1 ∧ D' = Dn (i + 1))
    (k : T (Dn 4) (g 4) Q) :
    T D (cwhile (fun s => decide (s < 4)) body 0 >>= g) Q := by
  refine t_whileI (I := fun i D => i ≤ 4 ∧ D = Dn i) (μ := fun i => 4 - i) ⟨by omega, hD⟩ (by decide) ?_ ?_
  · rintro i D ⟨hi, rfl⟩ hc
    rw [decide_eq_true_eq] at hc
    refine t_mono (hb i hc) ?_
    rintro s D' ⟨rfl, rfl⟩
    exact ⟨⟨by omega, rfl⟩, by omega⟩
  · rintro i D ⟨hi, rfl⟩ hc
    rw [decide_eq_false_iff_not] at hc
    obtain rfl : i = 4 := by omega
    exact k

end

end Faest.GenH
