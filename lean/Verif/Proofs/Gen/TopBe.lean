/-
The layout of a state on a big-endian host in terms of Spec/KeccakPlaces.lean.
-/
import Verif.Proofs.Gen.StateBe
import Verif.Proofs.A64.Top

namespace Faest.GenB
open Faest.C Faest.Keccak
open Faest.GenH (St st_len st_has st_self cell_eq)
open Spec.Keccak (Str HoldsBe)

theorem HoldsBe.eq {m : Mem Byte} {w : Nat} {S : Str} (h : HoldsBe m w S) : Has m w 200 (rv (bytesS S)) := by
  intro t ht
  obtain ⟨x, hx, -⟩ := h ⟨t / 8, by omega⟩ ⟨8 * (7 - t % 8), by omega⟩
  dsimp only at hx
  have e : w + 8 * (t / 8) + (7 - 8 * (7 - t % 8) / 8) = w + t := by omega
  rw [e] at hx
  unfold rd
  rw [hx]
  refine congrArg some (BitVec.eq_of_getLsbD_eq fun i hi => ?_)
  obtain ⟨y, hy, hb⟩ := h ⟨t / 8, by omega⟩ ⟨8 * (7 - t % 8) + i, by omega⟩
  dsimp only at hy hb
  rw [show w + 8 * (t / 8) + (7 - (8 * (7 - t % 8) + i) / 8) = w + t by omega, hx] at hy
  obtain rfl := Option.some.inj (Option.some.inj hy)
  unfold rv
  rw [bytesS_bit _ _ _ (by omega) hi]
  rw [show (8 * (7 - t % 8) + i) % 8 = i by omega] at hb
  rw [hb]
  exact congrArg S (Fin.ext (by dsimp only; omega))

theorem HoldsBe.of {m : Mem Byte} {w : Nat} {S : Str} {B : Nat → Byte} (hl : w + 200 ≤ m.length) (h : bitsB B = S) :
    HoldsBe (St m w (rv B)) w S := by
  subst h
  intro k z
  refine ⟨B (8 * k.val + z.val / 8), ?_, ?_⟩
  · have := cell_eq (st_has hl (rv B) (8 * k.val + (7 - z.val / 8)) (by omega))
    rw [rv_lane _ (by omega), show 7 - (7 - z.val / 8) = z.val / 8 by omega, ← Nat.add_assoc] at this
    exact this
  · unfold bitsB
    dsimp only
    rw [show (64 * k.val + z.val) / 8 = 8 * k.val + z.val / 8 by omega, show (64 * k.val + z.val) % 8 = z.val % 8 by omega]

end Faest.GenB
