/-
The files of known answers which NIST asks for: 100 records; seeds and messages from one generator, keys and signatures of each
record from a generator with the seed of the record.
-/
import Mathlib.Data.Nat.Digits.Defs
import Verif.Spec.Drbg
import Verif.Spec.Api

namespace Faest.Spec.Kat
open Drbg (State generate instantiate)

abbrev Text := List Char

/-- Digits, the letters being capitals. -/
def digit : Nat → Char
  | 0 => '0' | 1 => '1' | 2 => '2' | 3 => '3' | 4 => '4' | 5 => '5' | 6 => '6' | 7 => '7'
  | 8 => '8' | 9 => '9' | 10 => 'A' | 11 => 'B' | 12 => 'C' | 13 => 'D' | 14 => 'E' | _ => 'F'

/-- A number in decimal. -/
def decimal (n : Nat) : Text := if n = 0 then ['0'] else (Nat.digits 10 n).reverse.map digit

/-- Bytes in hexadecimal. -/
def hexadecimal (l : List (BitVec 8)) : Text := l.flatMap fun b => [digit (b.toNat / 16), digit (b.toNat % 16)]

/-- A line with a name and a value. -/
def line (name value : Text) : Text := name ++ [' ', '=', ' '] ++ value ++ ['\n']

def nCount : Text := ['c', 'o', 'u', 'n', 't']
def nSeed : Text := ['s', 'e', 'e', 'd']
def nMlen : Text := ['m', 'l', 'e', 'n']
def nMsg : Text := ['m', 's', 'g']
def nPk : Text := ['p', 'k']
def nSk : Text := ['s', 'k']
def nSmlen : Text := ['s', 'm', 'l', 'e', 'n']
def nSm : Text := ['s', 'm']
/-- A line with a name and no value. -/
def blank (name : Text) : Text := name ++ [' ', '=', '\n']

variable (E : List (BitVec 8) → List (BitVec 8) → List (BitVec 8))

/-- Length of the message of a record. -/
def mlen (j : Nat) : Nat := 33 * (j + 1)

/-- The generator before record `j`. -/
def stateAt : Nat → State
  | 0 => instantiate E ((List.range 48).map (BitVec.ofNat 8)) Drbg.zeros
  | j + 1 => (generate E (generate E (stateAt j) 48).2 (mlen j)).2

/-- Seed and message of record `j`. -/
def seedAt (j : Nat) : List (BitVec 8) := (generate E (stateAt E j) 48).1
def msgAt (j : Nat) : List (BitVec 8) := (generate E (generate E (stateAt E j) 48).2 (mlen j)).1

/-- The first four lines of a record. -/
def common (j : Nat) : Text :=
  line nCount (decimal j) ++ line nSeed (hexadecimal (seedAt E j)) ++ line nMlen (decimal (mlen j)) ++ line nMsg (hexadecimal (msgAt E j))

/-- A record of the request file. -/
def reqRecord (j : Nat) : Text := common E j ++ blank nPk ++ blank nSk ++ blank nSmlen ++ blank nSm ++ ['\n']

/-- The request file. -/
def requests : Text := (List.range 100).flatMap (reqRecord E)

/-- The generator of record `j` after `k` requests for a secret key. -/
def keyState (i : ParamId) (j : Nat) : Nat → State
  | 0 => instantiate E (seedAt E j) Drbg.zeros
  | k + 1 => (generate E (keyState i j k) (params i).skSize).2

/-- The string given out by request `k` for a secret key. -/
def keyDraw (i : ParamId) (j k : Nat) : List (BitVec 8) := (generate E (keyState E i j k) (params i).skSize).1

/-- The signed message of record `j`, the key being given out by request `k`. -/
def signed (X : Nat → List (BitVec 8) → Nat → BitVec 8) (i : ParamId) (j k : Nat) : List (BitVec 8) :=
  msgAt E j ++ signature X i (keyDraw E i j k) (msgAt E j) (generate E (keyState E i j (k + 1)) ((params i).lambda / 8)).1

/-- A record of the response file. -/
def rspRecord (X : Nat → List (BitVec 8) → Nat → BitVec 8) (i : ParamId) (j k : Nat) : Text :=
  common E j ++ line nPk (hexadecimal (pkOf i (keyDraw E i j k))) ++ line nSk (hexadecimal (keyDraw E i j k)) ++
    line nSmlen (decimal (mlen j + (params i).sigSize)) ++ line nSm (hexadecimal (signed E X i j k)) ++ ['\n']

/-- The response file; in record `j` the key is given out by request `K j`. -/
def responses (X : Nat → List (BitVec 8) → Nat → BitVec 8) (i : ParamId) (name : Text) (K : Nat → Nat) : Text :=
  ['#', ' '] ++ name ++ ['\n', '\n'] ++ (List.range 100).flatMap fun j => rspRecord E X i j (K j)

end Faest.Spec.Kat
