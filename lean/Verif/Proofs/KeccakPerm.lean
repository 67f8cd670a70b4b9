/-
The permutation of sha3/opt64 computes KECCAK-p[1600, 24].
-/
import Verif.Model.Keccak
import Verif.Spec.Keccak
import Mathlib.Tactic.FinCases
import Mathlib.Data.Fintype.Basic

namespace Faest.Keccak

open Spec.Keccak (State thetaC thetaD theta rho pi chi iota RC Rnd rounds)

theorem fin_sub_zero : ∀ z : Fin 64, z - 0 = z := by decide

theorem rol64_getLsbD (a : U64) (k : Nat) (h0 : 0 < k) (hk : k < 64) (z : Fin 64) :
    (rol64 a k).getLsbD z = a.getLsbD (z - Fin.ofNat 64 k : Fin 64) := by
  unfold rol64
  rw [BitVec.getLsbD_xor, BitVec.getLsbD_shiftLeft, BitVec.getLsbD_ushiftRight, Fin.sub_def]
  have hz := z.isLt
  simp only [Fin.ofNat, Nat.mod_eq_of_lt hk]
  by_cases h : z.val < k
  · rw [show (64 - k + z.val) % 64 = 64 - k + z.val from Nat.mod_eq_of_lt (by omega)]
    simp [h]
  · rw [show (64 - k + z.val) % 64 = z.val - k by omega]
    rw [BitVec.getLsbD_of_ge a (64 - k + z.val) (by omega)]
    simp [h, hz]

/-- Lane `(x, y)`. -/
def Lanes.lane (A : Lanes) (x y : Fin 5) : U64 :=
  match x, y with
  | 0, 0 => A.ba | 1, 0 => A.be | 2, 0 => A.bi | 3, 0 => A.bo | 4, 0 => A.bu
  | 0, 1 => A.ga | 1, 1 => A.ge | 2, 1 => A.gi | 3, 1 => A.go | 4, 1 => A.gu
  | 0, 2 => A.ka | 1, 2 => A.ke | 2, 2 => A.ki | 3, 2 => A.ko | 4, 2 => A.ku
  | 0, 3 => A.ma | 1, 3 => A.me | 2, 3 => A.mi | 3, 3 => A.mo | 4, 3 => A.mu
  | 0, 4 => A.sa | 1, 4 => A.se | 2, 4 => A.si | 3, 4 => A.so | 4, 4 => A.su

/-- The state array with the given lanes. -/
def Lanes.arr (A : Lanes) : State := fun x y z => (A.lane x y).getLsbD z

/-- The rotation offsets (FIPS 202, Table 2, modulo 64). -/
def rhoOff (x y : Fin 5) : Nat :=
  match x, y with
  | 0, 0 => 0 | 1, 0 => 1 | 2, 0 => 62 | 3, 0 => 28 | 4, 0 => 27
  | 0, 1 => 36 | 1, 1 => 44 | 2, 1 => 6 | 3, 1 => 55 | 4, 1 => 20
  | 0, 2 => 3 | 1, 2 => 10 | 2, 2 => 43 | 3, 2 => 25 | 4, 2 => 39
  | 0, 3 => 41 | 1, 3 => 45 | 2, 3 => 15 | 3, 3 => 21 | 4, 3 => 8
  | 0, 4 => 18 | 1, 4 => 2 | 2, 4 => 61 | 3, 4 => 56 | 4, 4 => 14

theorem rho_eq (A : State) (x y : Fin 5) (z : Fin 64) :
    rho A x y z = A x y (z - Fin.ofNat 64 (rhoOff x y)) := by
  fin_cases x <;> fin_cases y
  · show A 0 0 z = A 0 0 (z - 0)
    rw [fin_sub_zero]
  all_goals rfl

theorem RC_eq : ∀ (i : Fin 24) (z : Fin 64), RC i z = roundConstants[i].getLsbD z := by
  decide +kernel

/-- The parities of the columns. -/
def Lanes.par (A : Lanes) (x : Fin 5) : U64 :=
  A.lane x 0 ^^^ A.lane x 1 ^^^ A.lane x 2 ^^^ A.lane x 3 ^^^ A.lane x 4

/-- Rotation by `ROL64`, or no operation for offset 0. -/
def rot (a : U64) (k : Nat) : U64 := if k = 0 then a else rol64 a k

theorem rot_getLsbD (a : U64) (k : Nat) (hk : k < 64) (z : Fin 64) :
    (rot a k).getLsbD z = a.getLsbD (z - Fin.ofNat 64 k : Fin 64) := by
  unfold rot
  split
  · subst k
    rw [show Fin.ofNat 64 0 = 0 from rfl, fin_sub_zero]
  · exact rol64_getLsbD a k (by omega) hk z

/-- Lane `(x, y)` after theta, rho and pi. -/
def laneB (A : Lanes) (x y : Fin 5) : U64 :=
  rot (A.lane (x + 3 * y) x ^^^ (A.par (x + 3 * y - 1) ^^^ rol64 (A.par (x + 3 * y + 1)) 1)) (rhoOff (x + 3 * y) x)

/-- Lane `(x, y)` after a round. -/
def laneE (i : Fin 24) (A : Lanes) (x y : Fin 5) : U64 :=
  if x = 0 ∧ y = 0 then laneB A x y ^^^ (~~~laneB A (x + 1) y &&& laneB A (x + 2) y) ^^^ roundConstants[i]
  else laneB A x y ^^^ (~~~laneB A (x + 1) y &&& laneB A (x + 2) y)

theorem rhoOff_lt (x y : Fin 5) : rhoOff x y < 64 := by
  revert x y; decide

theorem laneE_eq (i : Fin 24) (A : Lanes) (x y : Fin 5) (z : Fin 64) :
    (laneE i A x y).getLsbD z = Rnd A.arr i x y z := by
  have hB : ∀ x y : Fin 5, ∀ z : Fin 64, (laneB A x y).getLsbD z = pi (rho (theta A.arr)) x y z := by
    intro x y z
    unfold laneB
    rw [rot_getLsbD _ _ (rhoOff_lt _ _)]
    unfold pi
    rw [rho_eq]
    unfold theta thetaD thetaC Lanes.arr Lanes.par
    rw [BitVec.getLsbD_xor, BitVec.getLsbD_xor, rol64_getLsbD _ 1 (by omega) (by omega)]
    simp only [BitVec.getLsbD_xor]
    rfl
  unfold Rnd iota laneE
  have hz := z.isLt
  split
  · rename_i h
    obtain ⟨rfl, rfl⟩ := h
    rw [BitVec.getLsbD_xor, RC_eq]
    unfold chi
    simp only [BitVec.getLsbD_xor, BitVec.getLsbD_and, BitVec.getLsbD_not, hB, hz, decide_true, Bool.true_and,
      Bool.xor_true]
  · unfold chi
    simp only [BitVec.getLsbD_xor, BitVec.getLsbD_and, BitVec.getLsbD_not, hB, hz, decide_true, Bool.true_and,
      Bool.xor_true]

theorem round_lane (i : Fin 24) (A : Lanes) (x y : Fin 5) :
    (thetaRhoPiChiIotaPrepareTheta i A (prepareTheta A)).1.lane x y = laneE i A x y := by
  fin_cases x <;> fin_cases y <;> rfl

theorem round_par (i : Fin 24) (A : Lanes) (C : Par) :
    (thetaRhoPiChiIotaPrepareTheta i A C).2 = prepareTheta (thetaRhoPiChiIotaPrepareTheta i A C).1 := rfl

theorem last_eq (i : Fin 24) (A : Lanes) (C : Par) :
    thetaRhoPiChiIota i A C = (thetaRhoPiChiIotaPrepareTheta i A C).1 := rfl

/-- One round. -/
def round (i : Fin 24) (A : Lanes) : Lanes := (thetaRhoPiChiIotaPrepareTheta i A (prepareTheta A)).1

theorem round_arr (i : Fin 24) (A : Lanes) : (round i A).arr = Rnd A.arr i := by
  funext x y z
  rw [← laneE_eq, ← round_lane]
  rfl

theorem round_pair (i : Fin 24) (A : Lanes) :
    thetaRhoPiChiIotaPrepareTheta i A (prepareTheta A) = (round i A, prepareTheta (round i A)) := by
  rw [Prod.ext_iff]
  exact ⟨rfl, round_par _ _ _⟩

theorem rounds24_arr (A : Lanes) : (rounds24 A).arr = rounds A.arr := by
  unfold rounds24
  simp only [round_pair, last_eq, round_arr]
  rfl

end Faest.Keccak
