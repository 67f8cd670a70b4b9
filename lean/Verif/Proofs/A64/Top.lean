/-
The functions of sha3/armv8a-neon on memory which holds a string of 1600 bits.
-/
import Verif.Proofs.A64.Sponge
import Verif.Proofs.Asm.Top

namespace Faest.GenN
open Faest.C Faest.Keccak
open Faest.GenH (St st_len st_has st_self cell_eq)
open Spec.Keccak (Str HoldsAt Around)

theorem HoldsAt.eq {m : Mem Byte} {w : Nat} {S : Str} (h : HoldsAt m w S) : Has m w 200 (bytesS S) := by
  intro t ht
  obtain ⟨x, hx, -⟩ := h ⟨8 * t, by omega⟩
  dsimp only at hx
  rw [show 8 * t / 8 = t by omega] at hx
  unfold rd
  rw [hx]
  refine congrArg some (BitVec.eq_of_getLsbD_eq fun i hi => ?_)
  obtain ⟨y, hy, hb⟩ := h ⟨8 * t + i, by omega⟩
  dsimp only at hy hb
  rw [show (8 * t + i) / 8 = t by omega, hx] at hy
  obtain rfl := Option.some.inj (Option.some.inj hy)
  rw [bytesS_bit _ _ _ (by omega) hi]
  rw [show (8 * t + i) % 8 = i by omega] at hb
  exact hb

theorem HoldsAt.of {m : Mem Byte} {w : Nat} {S : Str} {B : Nat → Byte} (hl : w + 200 ≤ m.length) (h : bitsB B = S) : HoldsAt (St m w B) w S := by
  subst h
  intro j
  exact ⟨_, cell_eq (st_has hl B (j.val / 8) (by omega)), rfl⟩

theorem around_st {m : Mem Byte} {w : Nat} {B : Nat → Byte} (hl : w + 200 ≤ m.length) : Around w m (St m w B) := by
  refine ⟨st_len hl B, fun t ht => ?_⟩
  unfold St
  rw [getElem?_W (by rw [tabP_length]; exact hl), tabP_length, if_neg (by omega)]

end Faest.GenN
