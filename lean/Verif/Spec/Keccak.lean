/-
SHAKE128 and SHAKE256 as in FIPS 202, on bit strings: the step mappings (3.2), KECCAK-p[1600,24] (3.3), the
sponge construction (4), pad10*1 (5.1), KECCAK[c] (5.2) and the extendable output functions (6.2).  Nothing
here refers to the model of the code.
-/

namespace Faest.Spec.Keccak

/-- 3.1: a state array `A[x, y, z]`. -/
abbrev State := Fin 5 → Fin 5 → Fin 64 → Bool

/-- 3.2.1, Algorithm 1, step 1. -/
def thetaC (A : State) (x : Fin 5) (z : Fin 64) : Bool :=
  A x 0 z ^^ A x 1 z ^^ A x 2 z ^^ A x 3 z ^^ A x 4 z

/-- 3.2.1, Algorithm 1, step 2. -/
def thetaD (A : State) (x : Fin 5) (z : Fin 64) : Bool :=
  thetaC A (x - 1) z ^^ thetaC A (x + 1) (z - 1)

/-- 3.2.1, Algorithm 1. -/
def theta (A : State) : State := fun x y z => A x y z ^^ thetaD A x z

/-- The coordinates `(x, y)` at step `t` of Algorithm 2: `(1, 0)`, then `(y, 2x + 3y)`. -/
def rhoWalk : Nat → Fin 5 × Fin 5
  | 0 => (1, 0)
  | t + 1 => ((rhoWalk t).2, 2 * (rhoWalk t).1 + 3 * (rhoWalk t).2)

/-- 3.2.2, Algorithm 2: lane `(x, y)` reached at step `t` is rotated by `(t+1)(t+2)/2`; lane `(0, 0)` is
left alone. -/
def rho (A : State) : State :=
  (List.range 24).foldl
    (fun A' t x y z =>
      if (x, y) = rhoWalk t then A x y (z - Fin.ofNat 64 ((t + 1) * (t + 2) / 2)) else A' x y z) A

/-- 3.2.3, Algorithm 3. -/
def pi (A : State) : State := fun x y z => A (x + 3 * y) x z

/-- 3.2.4, Algorithm 4. -/
def chi (A : State) : State := fun x y z => A x y z ^^ ((A (x + 1) y z ^^ true) && A (x + 2) y z)

/-- 3.2.5, Algorithm 5: one turn of the shift register `R`; after the shift `R` has the bits
`0, R[0], …, R[7]`, and `R[8]` is the former `R[7]`. -/
def rcStep (R : Fin 8 → Bool) : Fin 8 → Bool
  | 0 => R 7
  | 1 => R 0
  | 2 => R 1
  | 3 => R 2
  | 4 => R 3 ^^ R 7
  | 5 => R 4 ^^ R 7
  | 6 => R 5 ^^ R 7
  | 7 => R 6

/-- 3.2.5, Algorithm 5, steps 2-3: the register after `n` turns. -/
def rcReg : Nat → Fin 8 → Bool
  | 0 => fun i => i = 0
  | n + 1 => rcStep (rcReg n)

/-- 3.2.5, Algorithm 5. -/
def rc (t : Nat) : Bool := if t % 255 = 0 then true else rcReg (t % 255) 0

/-- 3.2.5, Algorithm 6, steps 2-3: `RC[2^j - 1] = rc(j + 7 ir)` for `j = 0 … 6`, zero elsewhere. -/
def RC (ir : Nat) (z : Fin 64) : Bool :=
  (List.range 7).any (fun j => decide (z.val = 2 ^ j - 1) && rc (j + 7 * ir))

/-- 3.2.5, Algorithm 6. -/
def iota (ir : Nat) (A : State) : State := fun x y z => if x = 0 ∧ y = 0 then A 0 0 z ^^ RC ir z else A x y z

/-- 3.3: a round. -/
def Rnd (A : State) (ir : Nat) : State := iota ir (chi (pi (rho (theta A))))

/-- 3.3, Algorithm 7 for `b = 1600` and 24 rounds, on state arrays. -/
def rounds (A : State) : State := (List.range 24).foldl Rnd A

/-- A string of 1600 bits. -/
abbrev Str := Fin 1600 → Bool

/-- 3.1.2: `A[x, y, z] = S[64 (5 y + x) + z]`. -/
def toState (S : Str) : State := fun x y z => S ⟨64 * (5 * y.val + x.val) + z.val, by omega⟩

/-- 3.1.3: the string with the lanes of plane 0, …, plane 4 in turn. -/
def toStr (A : State) : Str := fun i =>
  A ⟨i.val / 64 % 5, by omega⟩ ⟨i.val / 320, by omega⟩ ⟨i.val % 64, by omega⟩

/-- 3.3, Algorithm 7: KECCAK-p[1600, 24]. -/
def keccakP (S : Str) : Str := toStr (rounds (toState S))

/-- 5.1, Algorithm 9: `pad10*1(x, m)` is `1 0^j 1` with `j = (-m-2) mod x`. -/
def pad101 (x m : Nat) : List Bool :=
  true :: (List.replicate ((-(m : Int) - 2) % x).toNat false ++ [true])

/-- 4, Algorithm 8, step 6: `S = f(S ⊕ (Pᵢ ‖ 0^c))` for block `i` of `r` bits of `P`. -/
def absorbBlock (f : Str → Str) (r : Nat) (P : List Bool) (S : Str) (i : Nat) : Str :=
  f (fun j => S j ^^ (decide (j.val < r) && P.getD (r * i + j.val) false))

/-- 4, Algorithm 8, steps 1-6: the state after the whole input `N`. -/
def absorb (f : Str → Str) (r : Nat) (N : List Bool) : Str :=
  let P := N ++ pad101 r N.length
  (List.range (P.length / r)).foldl (absorbBlock f r P) (fun _ => false)

/-- `f` applied `k` times. -/
def iter (f : Str → Str) : Nat → Str → Str
  | 0, S => S
  | k + 1, S => f (iter f k S)

/-- 4, Algorithm 8: `SPONGE[f, pad10*1, r](N, d)`: the first `d` bits of
`Trunc_r(S) ‖ Trunc_r(f(S)) ‖ Trunc_r(f(f(S))) ‖ …`. -/
def sponge (f : Str → Str) (r : Nat) (N : List Bool) (d : Nat) : List Bool :=
  ((List.range (d / r + 1)).flatMap (fun k => (List.ofFn (iter f k (absorb f r N))).take r)).take d

/-- 5.2: `KECCAK[c]`. -/
def KECCAK (c : Nat) (N : List Bool) (d : Nat) : List Bool := sponge keccakP (1600 - c) N d

/-- 6.2: SHAKE128. -/
def SHAKE128 (M : List Bool) (d : Nat) : List Bool := KECCAK 256 (M ++ [true, true, true, true]) d

/-- 6.2: SHAKE256. -/
def SHAKE256 (M : List Bool) (d : Nat) : List Bool := KECCAK 512 (M ++ [true, true, true, true]) d

/-- B.1: bytes as bit strings, the least significant bit of each byte first. -/
def bitsOf (l : List (BitVec 8)) : List Bool :=
  l.flatMap (fun b => (List.range 8).map (fun i => b.getLsbD i))

/-- B.1: bits as bytes; a last incomplete byte is dropped. -/
def bytesOf (l : List Bool) : List (BitVec 8) :=
  (List.range (l.length / 8)).map (fun k =>
    BitVec.ofBoolListLE ((l.drop (8 * k)).take 8) |>.setWidth 8)

/-- `n` bytes of output of SHAKE128 (`sel = 128`) or SHAKE256 (otherwise) on a byte string. -/
def shake (sel : Nat) (M : List (BitVec 8)) (n : Nat) : List (BitVec 8) :=
  bytesOf (if sel = 128 then SHAKE128 (bitsOf M) (8 * n) else SHAKE256 (bitsOf M) (8 * n))

/-- Byte `p` of the output. -/
def shakeX (sel : Nat) (M : List (BitVec 8)) (p : Nat) : BitVec 8 := (shake sel M (p + 1)).getD p 0

end Faest.Spec.Keccak
