/-
The functions in assembler on memory which holds a string of 1600 bits.
-/
import Verif.Spec.KeccakPlaces
import Verif.Proofs.Asm.Sponge
import Verif.Proofs.Gen.HashTop

namespace Faest.GenX
open Faest.C Faest.Keccak Faest.Asm
open Faest.GenH (M1 M1_len st_M1 St st_len)
open Faest.Props (store cells_up)
open Spec.Keccak (Str Holds places keccakP bitsOf absorbBlock)

theorem places_mp : ∀ k : Fin 25, places.getD k 0 = mp k := by decide

theorem M1_get (B : Nat → Byte) {t : Nat} (h : t < 200) : (M1 B)[t]? = some (some (B t)) := by
  unfold M1 ofList
  rw [List.getElem?_map, tabP_getElem?, if_pos h]
  rfl

theorem holds_M1 (B : Nat → Byte) : Holds (M1 (av B)) (bitsB B) := by
  refine ⟨M1_len _, fun k z => ⟨B (8 * k + z / 8), ?_, ?_⟩⟩
  · rw [places_mp, M1_get _ (by have := mp_lt k.2; omega)]
    unfold av
    rw [show (8 * mp k.val + z.val / 8) / 8 = mp k.val by omega, show (8 * mp k.val + z.val / 8) % 8 = z.val / 8 by omega, im_mp k.2]
  · unfold bitsB
    dsimp only
    rw [show (64 * k.val + z.val) / 8 = 8 * k.val + z.val / 8 by omega, show (64 * k.val + z.val) % 8 = z.val % 8 by omega]

theorem M1_congr {B B' : Nat → Byte} (h : ∀ t, t < 200 → B t = B' t) : M1 B = M1 B' := by
  unfold M1
  rw [tabP_congr h]

/-- The contents are determined. -/
theorem Holds.eq {m : Mem Byte} {S : Str} (h : Holds m S) : m = M1 (av (bytesS S)) := by
  obtain ⟨hl, h⟩ := h
  refine C.mem_ext (by rw [hl, M1_len]) fun t ht => ?_
  rw [hl] at ht
  have hk : im (t / 8) < 25 := im_lt (by omega)
  have hp := places_mp ⟨im (t / 8), hk⟩
  rw [show mp (⟨im (t / 8), hk⟩ : Fin 25).val = t / 8 from mp_im (by omega)] at hp
  obtain ⟨x, hx, -⟩ := h ⟨im (t / 8), hk⟩ ⟨8 * (t % 8), by omega⟩
  rw [hp, show 8 * (t / 8) + 8 * (t % 8) / 8 = t by omega] at hx
  rw [hx, M1_get _ ht]
  refine congrArg (fun x => some (some x)) (BitVec.eq_of_getLsbD_eq fun i hi => ?_)
  obtain ⟨y, hy, hb⟩ := h ⟨im (t / 8), hk⟩ ⟨8 * (t % 8) + i, by omega⟩
  rw [hp, show 8 * (t / 8) + (8 * (t % 8) + i) / 8 = t by omega, hx] at hy
  obtain rfl := Option.some.inj (Option.some.inj hy)
  unfold av
  rw [bytesS_bit _ _ _ (by omega) hi]
  rw [show (8 * (t % 8) + i) % 8 = i by omega] at hb
  rw [hb]
  exact congrArg S (Fin.ext (by show 64 * im (t / 8) + (8 * (t % 8) + i) = 8 * (8 * im (t / 8) + t % 8) + i; omega))

theorem Holds.of {B : Nat → Byte} {S : Str} (h : bitsB B = S) : Holds (M1 (av B)) S := h ▸ holds_M1 B

/-- From blocks to the memory. -/
theorem run_top {α : Type} {H : C.Heap} {F : Blocks} {kd : Kind} {b : Nat} {m m' : Mem Byte} {p : CM α} {r : α}
    (hD : Sat H (bl kd b m + F)) (h : Runs (bl kd b m + F) p r (bl kd b m' + F)) :
    ∃ H', p H = some (r, H') ∧ H'.cells = upd H.cells b (some ⟨kd, .bytes m'⟩) := by
  obtain ⟨r', H', D', h1, h2, rfl, rfl⟩ := h H hD
  exact ⟨H', h1, hD.put.cells_eq h2⟩

end Faest.GenX
