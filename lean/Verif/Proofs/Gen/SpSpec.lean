/-
What the hash functions need from the sponge of one state (`SpImpl`).
-/
import Verif.Model.P4Impl
import Verif.Proofs.Gen.KeccakSponge

namespace Faest.GenH
open Faest.C Faest.Keccak

/-- A block of 200 bytes holds the state: `lay B` is its contents when byte `j` of the state is `B j`.  How the bytes are
arranged is up to the implementation. -/
structure SpSpec (K1 : SpImpl) where
  lay : (Nat → Byte) → Mem Byte
  len : ∀ B, (lay B).length = 200
  init : ∀ {kd : Kind} {b : Nat} {F : Blocks} {m : Mem Byte} {c : SpongeC} {r cap : Nat}, c.state = some ⟨b, 0⟩ →
    (r = 136 ∨ r = 168) → 8 * r + cap = 1600 → m.length = 200 →
    Runs (bl kd b m + F) (K1.KeccakWidth1600_SpongeInitialize c (8 * r) cap) (0, spA (some ⟨b, 0⟩) r 0)
      (bl kd b (lay fun _ => 0) + F)
  absorb : ∀ {kd : Kind} {b : Nat} {F : Blocks} {r n : Nat} {s : MSt} {data : CPtr} {μ : Mem Byte} {d : Nat → Byte},
    (r = 136 ∨ r = 168) → View F data μ → Has μ 0 n d → s.2 < r → n + r < 2 ^ 64 → (s.2 = 0 ∨ Fits r s.2 n) →
    Runs (bl kd b (lay s.1) + F) (K1.KeccakWidth1600_SpongeAbsorb (spA (some ⟨b, 0⟩) r s.2) data n)
      (0, spA (some ⟨b, 0⟩) r (absorbM r s (tabP n d)).2) (bl kd b (lay (absorbM r s (tabP n d)).1) + F)
  last : ∀ {kd : Kind} {b : Nat} {F : Blocks} {r : Nat} {s : MSt}, (r = 136 ∨ r = 168) → s.2 < r →
    Runs (bl kd b (lay s.1) + F) (K1.KeccakWidth1600_SpongeAbsorbLastFewBits (spA (some ⟨b, 0⟩) r s.2) 0x1F)
      (0, spS (some ⟨b, 0⟩) r 0) (bl kd b (lay (closeB r s)) + F)
  squeeze0 : ∀ {F : Blocks} {r x : Nat} {p data : CPtr},
    Runs F (K1.KeccakWidth1600_SpongeSqueeze (spS p r x) data 0) (0, spS p r x) F
  squeeze : ∀ {kd : Kind} {b : Nat} {F : Blocks} {r n k x p : Nat} {q : Ptr} {B : Nat → Byte}, (r = 136 ∨ r = 168) →
    Valid F q n → p = r * k + x → x ≤ r → n + r < 2 ^ 64 → (x = r ∨ Fits r x n) →
    T (bl kd b (lay (iterB k B)) + F) (K1.KeccakWidth1600_SpongeSqueeze (spS (some ⟨b, 0⟩) r x) (some q) n)
      fun y D' => ∃ k' x', p + n = r * k' + x' ∧ x' ≤ r ∧ y = (0, spS (some ⟨b, 0⟩) r x') ∧
        D' = bl kd b (lay (iterB k' B)) + up F q (tabP n fun j => sqByte r B (p + j))

/-- The bytes of one state. -/
def M1 (B : Nat → Byte) : Mem Byte := ofList (tabP 200 B)

theorem st_M1 {m : Mem Byte} (h : m.length = 200) (B : Nat → Byte) : St m 0 B = M1 B := by
  unfold St M1 W
  rw [tabP_length, List.drop_eq_nil_of_le (by omega)]
  simp [ofList]

theorem M1_len (B : Nat → Byte) : (M1 B).length = 200 := by simp [M1, ofList]

end Faest.GenH
