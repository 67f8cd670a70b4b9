/-
The permutations of sha3/opt64/KeccakP-1600-opt64.c with fewer rounds.
-/
import Verif.Model.Shake

namespace Faest.Keccak

/-- KeccakP-1600-unrolling.macros:45-58 `rounds12` (KeccakP1600_fullUnrolling). -/
def rounds12 (A : Lanes) : Lanes :=
  let C := prepareTheta A
  let (E, C) := thetaRhoPiChiIotaPrepareTheta 12 A C
  let (A, C) := thetaRhoPiChiIotaPrepareTheta 13 E C
  let (E, C) := thetaRhoPiChiIotaPrepareTheta 14 A C
  let (A, C) := thetaRhoPiChiIotaPrepareTheta 15 E C
  let (E, C) := thetaRhoPiChiIotaPrepareTheta 16 A C
  let (A, C) := thetaRhoPiChiIotaPrepareTheta 17 E C
  let (E, C) := thetaRhoPiChiIotaPrepareTheta 18 A C
  let (A, C) := thetaRhoPiChiIotaPrepareTheta 19 E C
  let (E, C) := thetaRhoPiChiIotaPrepareTheta 20 A C
  let (A, C) := thetaRhoPiChiIotaPrepareTheta 21 E C
  let (E, C) := thetaRhoPiChiIotaPrepareTheta 22 A C
  thetaRhoPiChiIota 23 E C

/-- `thetaRhoPiChiIotaPrepareTheta(i, A, E)` for a variable `i`; `KeccakF1600RoundConstants[i]` is undefined behind the table. -/
def roundAt (i : Nat) (A : Lanes) (C : Par) : Option (Lanes × Par) :=
  if h : i < 24 then some (thetaRhoPiChiIotaPrepareTheta ⟨i, h⟩ A C) else none

/-- KeccakP-1600-unrolling.macros:302-305, the loop; the first argument is fuel. -/
def roundsNLoop : Nat → Nat → Lanes → Par → Option Lanes
  | 0, _, _, _ => none
  | fuel + 1, i, A, C =>
    if i < 24 then do
      let (E, C) ← roundAt i A C
      let (A, C) ← roundAt (i + 1) E C
      roundsNLoop fuel (uint (i + 2)) A C
    else some A

/-- KeccakP-1600-unrolling.macros:294-305 `roundsN(nr)`; `i` is an `unsigned int`. -/
def roundsN (nr : Nat) (A : Lanes) : Option Lanes :=
  let C := prepareTheta A
  let i := uint (24 + 2 ^ 32 - nr)
  if i % 2 ≠ 0 then do
    let (E, C) ← roundAt i A C
    let A := E
    roundsNLoop 13 (uint (i + 1)) A C
  else roundsNLoop 13 i A C

/-- KeccakP-1600-opt64.c:357-368 `KeccakP1600_Permute_12rounds`. -/
def permute12 (st : Mem U64) (base : Nat) : Option (Mem U64) := do
  let A ← copyFromState st base
  copyToState st base (rounds12 A)

/-- KeccakP-1600-opt64.c:328-338 `KeccakP1600_Permute_Nrounds`. -/
def permuteN (st : Mem U64) (base nr : Nat) : Option (Mem U64) := do
  let A ← copyFromState st base
  let A ← roundsN nr A
  copyToState st base A

end Faest.Keccak
