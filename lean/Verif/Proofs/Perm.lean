/-
Every step of the cipher is injective on the cells of the state.
-/
import Verif.Proofs.Prg
import Mathlib.Tactic.LinearCombination

namespace Faest

/-- Two states agree on their cells. -/
def StEq (bw : Nat) (s t : Nat → Nat → Byte) : Prop := ∀ c, c < bw → ∀ r, r < 4 → s c r = t c r

theorem sbox_inv : ∀ x : BitVec 8, (bf8Inv ⟨invAffineByte (Spec.sbox x)⟩).v = x := by decide +kernel

theorem sbox_inj {x y : Byte} (h : Spec.sbox x = Spec.sbox y) : x = y := by
  rw [← sbox_inv x, h, sbox_inv]

theorem subBytes_inj {bw : Nat} {s t : Nat → Nat → Byte}
    (h : StEq bw (Spec.subBytes s) (Spec.subBytes t)) : StEq bw s t :=
  fun c hc r hr => sbox_inj (h c hc r hr)

theorem addRoundKey_inj {bw i : Nat} {W s t : Nat → Nat → Byte}
    (h : StEq bw (Spec.addRoundKey bw W i s) (Spec.addRoundKey bw W i t)) : StEq bw s t := by
  intro c hc r hr
  have := h c hc r hr
  unfold Spec.addRoundKey at this
  exact (BitVec.xor_left_inj _).1 this

theorem shiftRows_inj {bw : Nat} {s t : Nat → Nat → Byte}
    (h : StEq bw (Spec.shiftRows bw s) (Spec.shiftRows bw t)) : StEq bw s t := by
  intro c hc r hr
  set o := Spec.shiftOffset bw r
  have hlt : (c + (bw - o % bw)) % bw < bw := Nat.mod_lt _ (by omega)
  have := h _ hlt r hr
  unfold Spec.shiftRows at this
  have e : ((c + (bw - o % bw)) % bw + o) % bw = c := by
    have h1 : o % bw < bw := Nat.mod_lt _ (by omega)
    rw [Nat.mod_add_mod, ← Nat.add_mod_mod, show c + (bw - o % bw) + o % bw = c + bw by omega,
      Nat.add_mod_right, Nat.mod_eq_of_lt hc]
  rwa [e] at this

theorem xtime_eq (x : Byte) : (⟨Spec.xtime x⟩ : BF 8) = (⟨2⟩ : BF 8) * ⟨x⟩ := by
  rw [← mul2_table, mul_comm]; rfl

/-- The inverse matrix of MixColumns (FIPS 197, 5.3.3), as a polynomial identity in `X = {02}`. -/
theorem mix_inv {R : Type} [CommRing R] (h2 : (2 : R) = 0) (X a b c d : R) :
    (X ^ 3 + X ^ 2 + X) * (X * a + (X * b + b) + c + d)
      + (X ^ 3 + X + 1) * (X * b + (X * c + c) + d + a)
      + (X ^ 3 + X ^ 2 + 1) * (X * c + (X * d + d) + a + b)
      + (X ^ 3 + 1) * (X * d + (X * a + a) + b + c) = a := by
  linear_combination (a * X ^ 4 + 2 * a * X ^ 3 + a * X ^ 2 + a * X + a + b * X ^ 4 + 2 * b * X ^ 3
    + 2 * b * X ^ 2 + b * X + b + c * X ^ 4 + 2 * c * X ^ 3 + c * X ^ 2 + 2 * c * X + c
    + d * X ^ 4 + 2 * d * X ^ 3 + d * X ^ 2 + 2 * d * X + d) * h2

theorem mixColumns_left_inv (s : Nat → Nat → Byte) (c r : Nat) (hr : r < 4) :
    (⟨s c r⟩ : BF 8) = ((⟨2⟩ : BF 8) ^ 3 + ⟨2⟩ ^ 2 + ⟨2⟩) * ⟨Spec.mixColumns s c r⟩
      + (⟨2⟩ ^ 3 + ⟨2⟩ + 1) * ⟨Spec.mixColumns s c ((r + 1) % 4)⟩
      + (⟨2⟩ ^ 3 + ⟨2⟩ ^ 2 + 1) * ⟨Spec.mixColumns s c ((r + 2) % 4)⟩
      + (⟨2⟩ ^ 3 + 1) * ⟨Spec.mixColumns s c ((r + 3) % 4)⟩ := by
  have h2 : (2 : BF 8) = 0 := by
    rw [← one_add_one_eq_two]; exact BF.add_self _
  have mc : ∀ q, (⟨Spec.mixColumns s c q⟩ : BF 8) = (⟨2⟩ : BF 8) * ⟨s c q⟩
      + ((⟨2⟩ : BF 8) * ⟨s c ((q + 1) % 4)⟩ + ⟨s c ((q + 1) % 4)⟩) + ⟨s c ((q + 2) % 4)⟩
      + ⟨s c ((q + 3) % 4)⟩ := by
    intro q
    rw [← xtime_eq, ← xtime_eq]
    rfl
  have m11 : (r + 1 + 1) % 4 = (r + 2) % 4 := by omega
  have m12 : (r + 1 + 2) % 4 = (r + 3) % 4 := by omega
  have m13 : (r + 1 + 3) % 4 = r := by omega
  have m23 : (r + 2 + 3) % 4 = (r + 1) % 4 := by omega
  have m33 : (r + 3 + 3) % 4 = (r + 2) % 4 := by omega
  simp only [mc, Nat.mod_add_mod, m11, m12, m13, m23, m33]
  exact (mix_inv h2 _ _ _ _ _).symm

theorem mixColumns_inj {bw : Nat} {s t : Nat → Nat → Byte}
    (h : StEq bw (Spec.mixColumns s) (Spec.mixColumns t)) : StEq bw s t := by
  intro c hc r hr
  have e : (⟨s c r⟩ : BF 8) = ⟨t c r⟩ := by
    rw [mixColumns_left_inv s c r hr, mixColumns_left_inv t c r hr, h c hc r hr,
      h c hc ((r + 1) % 4) (Nat.mod_lt _ (by decide)), h c hc ((r + 2) % 4) (Nat.mod_lt _ (by decide)),
      h c hc ((r + 3) % 4) (Nat.mod_lt _ (by decide))]
  exact congrArg BF.v e

theorem roundState_inj {bw : Nat} {W s t : Nat → Nat → Byte} : ∀ i,
    StEq bw (Spec.roundState bw W s i) (Spec.roundState bw W t i) → StEq bw s t
  | 0, h => addRoundKey_inj h
  | i + 1, h => roundState_inj i (subBytes_inj (shiftRows_inj (mixColumns_inj (addRoundKey_inj h))))

theorem cipher_inj {bw nr : Nat} {W s t : Nat → Nat → Byte}
    (h : StEq bw (Spec.cipher bw nr W s) (Spec.cipher bw nr W t)) : StEq bw s t :=
  roundState_inj _ (subBytes_inj (shiftRows_inj (addRoundKey_inj h)))

theorem encryptF_inj {bw nr : Nat} {W : Nat → Nat → Byte} {p q : Nat → Byte}
    (h : tabP (4 * bw) (Spec.stateBytes (Spec.cipher bw nr W (Spec.blockState p)))
       = tabP (4 * bw) (Spec.stateBytes (Spec.cipher bw nr W (Spec.blockState q)))) :
    ∀ j, j < 4 * bw → p j = q j := by
  have h1 : StEq bw (Spec.cipher bw nr W (Spec.blockState p))
      (Spec.cipher bw nr W (Spec.blockState q)) := by
    intro c hc r hr
    have := tabP_inj h (4 * c + r) (by omega)
    unfold Spec.stateBytes at this
    rwa [show (4 * c + r) / 4 = c by omega, show (4 * c + r) % 4 = r by omega] at this
  have h2 := cipher_inj h1
  intro j hj
  have := h2 (j / 4) (by omega) (j % 4) (by omega)
  unfold Spec.blockState at this
  rwa [show 4 * (j / 4) + j % 4 = j by omega] at this

end Faest
