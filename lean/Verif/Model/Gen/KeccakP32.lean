/-
Generated by tools/c2hash.py from sha3/plain32/KeccakP-1600-inplace32BI.c and sha3/SnP-Relaned.h. Do not edit.
-/
import Verif.Model.CHalf

set_option linter.unusedVariables false

namespace Faest.GenP
open Faest.C

/-- sha3/plain32/KeccakP-1600-inplace32BI.c:434-461 -/
def KeccakF1600RoundConstants_int2 : List (BitVec 32) := [
  0x00000001, 0x00000000, 0x00000000,
  0x00000089, 0x00000000, 0x8000008b,
  0x00000000, 0x80008080, 0x00000001,
  0x0000008b, 0x00000001, 0x00008000,
  0x00000001, 0x80008088, 0x00000001,
  0x80000082, 0x00000000, 0x0000000b,
  0x00000000, 0x0000000a, 0x00000001,
  0x00008082, 0x00000000, 0x00008003,
  0x00000001, 0x0000808b, 0x00000001,
  0x8000000b, 0x00000001, 0x8000008a,
  0x00000001, 0x80000081, 0x00000000,
  0x80000081, 0x00000000, 0x80000008,
  0x00000000, 0x00000083, 0x00000000,
  0x80008003, 0x00000001, 0x80008088,
  0x00000000, 0x80000088, 0x00000001,
  0x00008000, 0x00000000, 0x80008082,
  0x000000ff]

/-- sha3/plain32/KeccakP-1600-inplace32BI.c `Aba0` .. `Asu1`: the words of the state. -/
def readHalves (stateAsHalfLanes : CPtr) : CM Halves := do
  let Aba0 ← ld32 stateAsHalfLanes 0
  let Aba1 ← ld32 stateAsHalfLanes 4
  let Abe0 ← ld32 stateAsHalfLanes 8
  let Abe1 ← ld32 stateAsHalfLanes 12
  let Abi0 ← ld32 stateAsHalfLanes 16
  let Abi1 ← ld32 stateAsHalfLanes 20
  let Abo0 ← ld32 stateAsHalfLanes 24
  let Abo1 ← ld32 stateAsHalfLanes 28
  let Abu0 ← ld32 stateAsHalfLanes 32
  let Abu1 ← ld32 stateAsHalfLanes 36
  let Aga0 ← ld32 stateAsHalfLanes 40
  let Aga1 ← ld32 stateAsHalfLanes 44
  let Age0 ← ld32 stateAsHalfLanes 48
  let Age1 ← ld32 stateAsHalfLanes 52
  let Agi0 ← ld32 stateAsHalfLanes 56
  let Agi1 ← ld32 stateAsHalfLanes 60
  let Ago0 ← ld32 stateAsHalfLanes 64
  let Ago1 ← ld32 stateAsHalfLanes 68
  let Agu0 ← ld32 stateAsHalfLanes 72
  let Agu1 ← ld32 stateAsHalfLanes 76
  let Aka0 ← ld32 stateAsHalfLanes 80
  let Aka1 ← ld32 stateAsHalfLanes 84
  let Ake0 ← ld32 stateAsHalfLanes 88
  let Ake1 ← ld32 stateAsHalfLanes 92
  let Aki0 ← ld32 stateAsHalfLanes 96
  let Aki1 ← ld32 stateAsHalfLanes 100
  let Ako0 ← ld32 stateAsHalfLanes 104
  let Ako1 ← ld32 stateAsHalfLanes 108
  let Aku0 ← ld32 stateAsHalfLanes 112
  let Aku1 ← ld32 stateAsHalfLanes 116
  let Ama0 ← ld32 stateAsHalfLanes 120
  let Ama1 ← ld32 stateAsHalfLanes 124
  let Ame0 ← ld32 stateAsHalfLanes 128
  let Ame1 ← ld32 stateAsHalfLanes 132
  let Ami0 ← ld32 stateAsHalfLanes 136
  let Ami1 ← ld32 stateAsHalfLanes 140
  let Amo0 ← ld32 stateAsHalfLanes 144
  let Amo1 ← ld32 stateAsHalfLanes 148
  let Amu0 ← ld32 stateAsHalfLanes 152
  let Amu1 ← ld32 stateAsHalfLanes 156
  let Asa0 ← ld32 stateAsHalfLanes 160
  let Asa1 ← ld32 stateAsHalfLanes 164
  let Ase0 ← ld32 stateAsHalfLanes 168
  let Ase1 ← ld32 stateAsHalfLanes 172
  let Asi0 ← ld32 stateAsHalfLanes 176
  let Asi1 ← ld32 stateAsHalfLanes 180
  let Aso0 ← ld32 stateAsHalfLanes 184
  let Aso1 ← ld32 stateAsHalfLanes 188
  let Asu0 ← ld32 stateAsHalfLanes 192
  let Asu1 ← ld32 stateAsHalfLanes 196
  pure ⟨Aba0, Aba1, Abe0, Abe1, Abi0, Abi1, Abo0, Abo1, Abu0, Abu1, Aga0, Aga1, Age0, Age1, Agi0, Agi1, Ago0, Ago1, Agu0, Agu1, Aka0, Aka1, Ake0, Ake1, Aki0, Aki1, Ako0, Ako1, Aku0, Aku1, Ama0, Ama1, Ame0, Ame1, Ami0, Ami1, Amo0, Amo1, Amu0, Amu1, Asa0, Asa1, Ase0, Ase1, Asi0, Asi1, Aso0, Aso1, Asu0, Asu1⟩

/-- sha3/plain32/KeccakP-1600-inplace32BI.c `Aba0` .. `Asu1`: the words of the state. -/
def writeHalves (stateAsHalfLanes : CPtr) (A : Halves) : CM Unit := do
  st32 stateAsHalfLanes 0 A.ba0
  st32 stateAsHalfLanes 4 A.ba1
  st32 stateAsHalfLanes 8 A.be0
  st32 stateAsHalfLanes 12 A.be1
  st32 stateAsHalfLanes 16 A.bi0
  st32 stateAsHalfLanes 20 A.bi1
  st32 stateAsHalfLanes 24 A.bo0
  st32 stateAsHalfLanes 28 A.bo1
  st32 stateAsHalfLanes 32 A.bu0
  st32 stateAsHalfLanes 36 A.bu1
  st32 stateAsHalfLanes 40 A.ga0
  st32 stateAsHalfLanes 44 A.ga1
  st32 stateAsHalfLanes 48 A.ge0
  st32 stateAsHalfLanes 52 A.ge1
  st32 stateAsHalfLanes 56 A.gi0
  st32 stateAsHalfLanes 60 A.gi1
  st32 stateAsHalfLanes 64 A.go0
  st32 stateAsHalfLanes 68 A.go1
  st32 stateAsHalfLanes 72 A.gu0
  st32 stateAsHalfLanes 76 A.gu1
  st32 stateAsHalfLanes 80 A.ka0
  st32 stateAsHalfLanes 84 A.ka1
  st32 stateAsHalfLanes 88 A.ke0
  st32 stateAsHalfLanes 92 A.ke1
  st32 stateAsHalfLanes 96 A.ki0
  st32 stateAsHalfLanes 100 A.ki1
  st32 stateAsHalfLanes 104 A.ko0
  st32 stateAsHalfLanes 108 A.ko1
  st32 stateAsHalfLanes 112 A.ku0
  st32 stateAsHalfLanes 116 A.ku1
  st32 stateAsHalfLanes 120 A.ma0
  st32 stateAsHalfLanes 124 A.ma1
  st32 stateAsHalfLanes 128 A.me0
  st32 stateAsHalfLanes 132 A.me1
  st32 stateAsHalfLanes 136 A.mi0
  st32 stateAsHalfLanes 140 A.mi1
  st32 stateAsHalfLanes 144 A.mo0
  st32 stateAsHalfLanes 148 A.mo1
  st32 stateAsHalfLanes 152 A.mu0
  st32 stateAsHalfLanes 156 A.mu1
  st32 stateAsHalfLanes 160 A.sa0
  st32 stateAsHalfLanes 164 A.sa1
  st32 stateAsHalfLanes 168 A.se0
  st32 stateAsHalfLanes 172 A.se1
  st32 stateAsHalfLanes 176 A.si0
  st32 stateAsHalfLanes 180 A.si1
  st32 stateAsHalfLanes 184 A.so0
  st32 stateAsHalfLanes 188 A.so1
  st32 stateAsHalfLanes 192 A.su0
  st32 stateAsHalfLanes 196 A.su1

/-- sha3/plain32/KeccakP-1600-inplace32BI.c:463-586 `KeccakRound0`. -/
def KeccakRound0_words (A : Halves) (pRoundConstants : Nat) : CM (Halves × Nat) := do
  let Aba0 : BitVec 32 := A.ba0
  let Aba1 : BitVec 32 := A.ba1
  let Abe0 : BitVec 32 := A.be0
  let Abe1 : BitVec 32 := A.be1
  let Abi0 : BitVec 32 := A.bi0
  let Abi1 : BitVec 32 := A.bi1
  let Abo0 : BitVec 32 := A.bo0
  let Abo1 : BitVec 32 := A.bo1
  let Abu0 : BitVec 32 := A.bu0
  let Abu1 : BitVec 32 := A.bu1
  let Aga0 : BitVec 32 := A.ga0
  let Aga1 : BitVec 32 := A.ga1
  let Age0 : BitVec 32 := A.ge0
  let Age1 : BitVec 32 := A.ge1
  let Agi0 : BitVec 32 := A.gi0
  let Agi1 : BitVec 32 := A.gi1
  let Ago0 : BitVec 32 := A.go0
  let Ago1 : BitVec 32 := A.go1
  let Agu0 : BitVec 32 := A.gu0
  let Agu1 : BitVec 32 := A.gu1
  let Aka0 : BitVec 32 := A.ka0
  let Aka1 : BitVec 32 := A.ka1
  let Ake0 : BitVec 32 := A.ke0
  let Ake1 : BitVec 32 := A.ke1
  let Aki0 : BitVec 32 := A.ki0
  let Aki1 : BitVec 32 := A.ki1
  let Ako0 : BitVec 32 := A.ko0
  let Ako1 : BitVec 32 := A.ko1
  let Aku0 : BitVec 32 := A.ku0
  let Aku1 : BitVec 32 := A.ku1
  let Ama0 : BitVec 32 := A.ma0
  let Ama1 : BitVec 32 := A.ma1
  let Ame0 : BitVec 32 := A.me0
  let Ame1 : BitVec 32 := A.me1
  let Ami0 : BitVec 32 := A.mi0
  let Ami1 : BitVec 32 := A.mi1
  let Amo0 : BitVec 32 := A.mo0
  let Amo1 : BitVec 32 := A.mo1
  let Amu0 : BitVec 32 := A.mu0
  let Amu1 : BitVec 32 := A.mu1
  let Asa0 : BitVec 32 := A.sa0
  let Asa1 : BitVec 32 := A.sa1
  let Ase0 : BitVec 32 := A.se0
  let Ase1 : BitVec 32 := A.se1
  let Asi0 : BitVec 32 := A.si0
  let Asi1 : BitVec 32 := A.si1
  let Aso0 : BitVec 32 := A.so0
  let Aso1 : BitVec 32 := A.so1
  let Asu0 : BitVec 32 := A.su0
  let Asu1 : BitVec 32 := A.su1
  let Cx : BitVec 32 := (((Abu0 ^^^ Agu0) ^^^ Aku0) ^^^ Amu0) ^^^ Asu0
  let Du1 : BitVec 32 := (((Abe1 ^^^ Age1) ^^^ Ake1) ^^^ Ame1) ^^^ Ase1
  let Da0 : BitVec 32 := Cx ^^^ ((Du1 <<< 1) ^^^ (Du1 >>> 31))
  let Cz : BitVec 32 := (((Abu1 ^^^ Agu1) ^^^ Aku1) ^^^ Amu1) ^^^ Asu1
  let Du0 : BitVec 32 := (((Abe0 ^^^ Age0) ^^^ Ake0) ^^^ Ame0) ^^^ Ase0
  let Da1 : BitVec 32 := Cz ^^^ Du0
  let Cw : BitVec 32 := (((Abi0 ^^^ Agi0) ^^^ Aki0) ^^^ Ami0) ^^^ Asi0
  let Do0 : BitVec 32 := Cw ^^^ ((Cz <<< 1) ^^^ (Cz >>> 31))
  let Cy : BitVec 32 := (((Abi1 ^^^ Agi1) ^^^ Aki1) ^^^ Ami1) ^^^ Asi1
  let Do1 : BitVec 32 := Cy ^^^ Cx
  let Cx : BitVec 32 := (((Aba0 ^^^ Aga0) ^^^ Aka0) ^^^ Ama0) ^^^ Asa0
  let De0 : BitVec 32 := Cx ^^^ ((Cy <<< 1) ^^^ (Cy >>> 31))
  let Cz : BitVec 32 := (((Aba1 ^^^ Aga1) ^^^ Aka1) ^^^ Ama1) ^^^ Asa1
  let De1 : BitVec 32 := Cz ^^^ Cw
  let Cy : BitVec 32 := (((Abo1 ^^^ Ago1) ^^^ Ako1) ^^^ Amo1) ^^^ Aso1
  let Di0 : BitVec 32 := Du0 ^^^ ((Cy <<< 1) ^^^ (Cy >>> 31))
  let Cw : BitVec 32 := (((Abo0 ^^^ Ago0) ^^^ Ako0) ^^^ Amo0) ^^^ Aso0
  let Di1 : BitVec 32 := Du1 ^^^ Cw
  let Du0 : BitVec 32 := Cw ^^^ ((Cz <<< 1) ^^^ (Cz >>> 31))
  let Du1 : BitVec 32 := Cy ^^^ Cx
  let Ba : BitVec 32 := Aba0 ^^^ Da0
  let Be : BitVec 32 := ((Age0 ^^^ De0) <<< 22) ^^^ ((Age0 ^^^ De0) >>> 10)
  let Bi : BitVec 32 := ((Aki1 ^^^ Di1) <<< 22) ^^^ ((Aki1 ^^^ Di1) >>> 10)
  let Bo : BitVec 32 := ((Amo1 ^^^ Do1) <<< 11) ^^^ ((Amo1 ^^^ Do1) >>> 21)
  let Bu : BitVec 32 := ((Asu0 ^^^ Du0) <<< 7) ^^^ ((Asu0 ^^^ Du0) >>> 25)
  let Aba0 : BitVec 32 := Ba ^^^ ((~~~Be) &&& Bi)
  let e1 ← tget32 KeccakF1600RoundConstants_int2 pRoundConstants
  let Aba0 : BitVec 32 := Aba0 ^^^ e1
  let pRoundConstants : Nat := (pRoundConstants + 1) % U32
  let Age0 : BitVec 32 := Be ^^^ ((~~~Bi) &&& Bo)
  let Aki1 : BitVec 32 := Bi ^^^ ((~~~Bo) &&& Bu)
  let Amo1 : BitVec 32 := Bo ^^^ ((~~~Bu) &&& Ba)
  let Asu0 : BitVec 32 := Bu ^^^ ((~~~Ba) &&& Be)
  let Ba : BitVec 32 := Aba1 ^^^ Da1
  let Be : BitVec 32 := ((Age1 ^^^ De1) <<< 22) ^^^ ((Age1 ^^^ De1) >>> 10)
  let Bi : BitVec 32 := ((Aki0 ^^^ Di0) <<< 21) ^^^ ((Aki0 ^^^ Di0) >>> 11)
  let Bo : BitVec 32 := ((Amo0 ^^^ Do0) <<< 10) ^^^ ((Amo0 ^^^ Do0) >>> 22)
  let Bu : BitVec 32 := ((Asu1 ^^^ Du1) <<< 7) ^^^ ((Asu1 ^^^ Du1) >>> 25)
  let Aba1 : BitVec 32 := Ba ^^^ ((~~~Be) &&& Bi)
  let e2 ← tget32 KeccakF1600RoundConstants_int2 pRoundConstants
  let Aba1 : BitVec 32 := Aba1 ^^^ e2
  let pRoundConstants : Nat := (pRoundConstants + 1) % U32
  let Age1 : BitVec 32 := Be ^^^ ((~~~Bi) &&& Bo)
  let Aki0 : BitVec 32 := Bi ^^^ ((~~~Bo) &&& Bu)
  let Amo0 : BitVec 32 := Bo ^^^ ((~~~Bu) &&& Ba)
  let Asu1 : BitVec 32 := Bu ^^^ ((~~~Ba) &&& Be)
  let Bi : BitVec 32 := ((Aka1 ^^^ Da1) <<< 2) ^^^ ((Aka1 ^^^ Da1) >>> 30)
  let Bo : BitVec 32 := ((Ame1 ^^^ De1) <<< 23) ^^^ ((Ame1 ^^^ De1) >>> 9)
  let Bu : BitVec 32 := ((Asi1 ^^^ Di1) <<< 31) ^^^ ((Asi1 ^^^ Di1) >>> 1)
  let Ba : BitVec 32 := ((Abo0 ^^^ Do0) <<< 14) ^^^ ((Abo0 ^^^ Do0) >>> 18)
  let Be : BitVec 32 := ((Agu0 ^^^ Du0) <<< 10) ^^^ ((Agu0 ^^^ Du0) >>> 22)
  let Aka1 : BitVec 32 := Ba ^^^ ((~~~Be) &&& Bi)
  let Ame1 : BitVec 32 := Be ^^^ ((~~~Bi) &&& Bo)
  let Asi1 : BitVec 32 := Bi ^^^ ((~~~Bo) &&& Bu)
  let Abo0 : BitVec 32 := Bo ^^^ ((~~~Bu) &&& Ba)
  let Agu0 : BitVec 32 := Bu ^^^ ((~~~Ba) &&& Be)
  let Bi : BitVec 32 := ((Aka0 ^^^ Da0) <<< 1) ^^^ ((Aka0 ^^^ Da0) >>> 31)
  let Bo : BitVec 32 := ((Ame0 ^^^ De0) <<< 22) ^^^ ((Ame0 ^^^ De0) >>> 10)
  let Bu : BitVec 32 := ((Asi0 ^^^ Di0) <<< 30) ^^^ ((Asi0 ^^^ Di0) >>> 2)
  let Ba : BitVec 32 := ((Abo1 ^^^ Do1) <<< 14) ^^^ ((Abo1 ^^^ Do1) >>> 18)
  let Be : BitVec 32 := ((Agu1 ^^^ Du1) <<< 10) ^^^ ((Agu1 ^^^ Du1) >>> 22)
  let Aka0 : BitVec 32 := Ba ^^^ ((~~~Be) &&& Bi)
  let Ame0 : BitVec 32 := Be ^^^ ((~~~Bi) &&& Bo)
  let Asi0 : BitVec 32 := Bi ^^^ ((~~~Bo) &&& Bu)
  let Abo1 : BitVec 32 := Bo ^^^ ((~~~Bu) &&& Ba)
  let Agu1 : BitVec 32 := Bu ^^^ ((~~~Ba) &&& Be)
  let Bu : BitVec 32 := ((Asa0 ^^^ Da0) <<< 9) ^^^ ((Asa0 ^^^ Da0) >>> 23)
  let Ba : BitVec 32 := ((Abe1 ^^^ De1) <<< 1) ^^^ ((Abe1 ^^^ De1) >>> 31)
  let Be : BitVec 32 := ((Agi0 ^^^ Di0) <<< 3) ^^^ ((Agi0 ^^^ Di0) >>> 29)
  let Bi : BitVec 32 := ((Ako1 ^^^ Do1) <<< 13) ^^^ ((Ako1 ^^^ Do1) >>> 19)
  let Bo : BitVec 32 := ((Amu0 ^^^ Du0) <<< 4) ^^^ ((Amu0 ^^^ Du0) >>> 28)
  let Asa0 : BitVec 32 := Ba ^^^ ((~~~Be) &&& Bi)
  let Abe1 : BitVec 32 := Be ^^^ ((~~~Bi) &&& Bo)
  let Agi0 : BitVec 32 := Bi ^^^ ((~~~Bo) &&& Bu)
  let Ako1 : BitVec 32 := Bo ^^^ ((~~~Bu) &&& Ba)
  let Amu0 : BitVec 32 := Bu ^^^ ((~~~Ba) &&& Be)
  let Bu : BitVec 32 := ((Asa1 ^^^ Da1) <<< 9) ^^^ ((Asa1 ^^^ Da1) >>> 23)
  let Ba : BitVec 32 := Abe0 ^^^ De0
  let Be : BitVec 32 := ((Agi1 ^^^ Di1) <<< 3) ^^^ ((Agi1 ^^^ Di1) >>> 29)
  let Bi : BitVec 32 := ((Ako0 ^^^ Do0) <<< 12) ^^^ ((Ako0 ^^^ Do0) >>> 20)
  let Bo : BitVec 32 := ((Amu1 ^^^ Du1) <<< 4) ^^^ ((Amu1 ^^^ Du1) >>> 28)
  let Asa1 : BitVec 32 := Ba ^^^ ((~~~Be) &&& Bi)
  let Abe0 : BitVec 32 := Be ^^^ ((~~~Bi) &&& Bo)
  let Agi1 : BitVec 32 := Bi ^^^ ((~~~Bo) &&& Bu)
  let Ako0 : BitVec 32 := Bo ^^^ ((~~~Bu) &&& Ba)
  let Amu1 : BitVec 32 := Bu ^^^ ((~~~Ba) &&& Be)
  let Be : BitVec 32 := ((Aga0 ^^^ Da0) <<< 18) ^^^ ((Aga0 ^^^ Da0) >>> 14)
  let Bi : BitVec 32 := ((Ake0 ^^^ De0) <<< 5) ^^^ ((Ake0 ^^^ De0) >>> 27)
  let Bo : BitVec 32 := ((Ami1 ^^^ Di1) <<< 8) ^^^ ((Ami1 ^^^ Di1) >>> 24)
  let Bu : BitVec 32 := ((Aso0 ^^^ Do0) <<< 28) ^^^ ((Aso0 ^^^ Do0) >>> 4)
  let Ba : BitVec 32 := ((Abu1 ^^^ Du1) <<< 14) ^^^ ((Abu1 ^^^ Du1) >>> 18)
  let Aga0 : BitVec 32 := Ba ^^^ ((~~~Be) &&& Bi)
  let Ake0 : BitVec 32 := Be ^^^ ((~~~Bi) &&& Bo)
  let Ami1 : BitVec 32 := Bi ^^^ ((~~~Bo) &&& Bu)
  let Aso0 : BitVec 32 := Bo ^^^ ((~~~Bu) &&& Ba)
  let Abu1 : BitVec 32 := Bu ^^^ ((~~~Ba) &&& Be)
  let Be : BitVec 32 := ((Aga1 ^^^ Da1) <<< 18) ^^^ ((Aga1 ^^^ Da1) >>> 14)
  let Bi : BitVec 32 := ((Ake1 ^^^ De1) <<< 5) ^^^ ((Ake1 ^^^ De1) >>> 27)
  let Bo : BitVec 32 := ((Ami0 ^^^ Di0) <<< 7) ^^^ ((Ami0 ^^^ Di0) >>> 25)
  let Bu : BitVec 32 := ((Aso1 ^^^ Do1) <<< 28) ^^^ ((Aso1 ^^^ Do1) >>> 4)
  let Ba : BitVec 32 := ((Abu0 ^^^ Du0) <<< 13) ^^^ ((Abu0 ^^^ Du0) >>> 19)
  let Aga1 : BitVec 32 := Ba ^^^ ((~~~Be) &&& Bi)
  let Ake1 : BitVec 32 := Be ^^^ ((~~~Bi) &&& Bo)
  let Ami0 : BitVec 32 := Bi ^^^ ((~~~Bo) &&& Bu)
  let Aso1 : BitVec 32 := Bo ^^^ ((~~~Bu) &&& Ba)
  let Abu0 : BitVec 32 := Bu ^^^ ((~~~Ba) &&& Be)
  let Bo : BitVec 32 := ((Ama1 ^^^ Da1) <<< 21) ^^^ ((Ama1 ^^^ Da1) >>> 11)
  let Bu : BitVec 32 := ((Ase0 ^^^ De0) <<< 1) ^^^ ((Ase0 ^^^ De0) >>> 31)
  let Ba : BitVec 32 := ((Abi0 ^^^ Di0) <<< 31) ^^^ ((Abi0 ^^^ Di0) >>> 1)
  let Be : BitVec 32 := ((Ago1 ^^^ Do1) <<< 28) ^^^ ((Ago1 ^^^ Do1) >>> 4)
  let Bi : BitVec 32 := ((Aku1 ^^^ Du1) <<< 20) ^^^ ((Aku1 ^^^ Du1) >>> 12)
  let Ama1 : BitVec 32 := Ba ^^^ ((~~~Be) &&& Bi)
  let Ase0 : BitVec 32 := Be ^^^ ((~~~Bi) &&& Bo)
  let Abi0 : BitVec 32 := Bi ^^^ ((~~~Bo) &&& Bu)
  let Ago1 : BitVec 32 := Bo ^^^ ((~~~Bu) &&& Ba)
  let Aku1 : BitVec 32 := Bu ^^^ ((~~~Ba) &&& Be)
  let Bo : BitVec 32 := ((Ama0 ^^^ Da0) <<< 20) ^^^ ((Ama0 ^^^ Da0) >>> 12)
  let Bu : BitVec 32 := ((Ase1 ^^^ De1) <<< 1) ^^^ ((Ase1 ^^^ De1) >>> 31)
  let Ba : BitVec 32 := ((Abi1 ^^^ Di1) <<< 31) ^^^ ((Abi1 ^^^ Di1) >>> 1)
  let Be : BitVec 32 := ((Ago0 ^^^ Do0) <<< 27) ^^^ ((Ago0 ^^^ Do0) >>> 5)
  let Bi : BitVec 32 := ((Aku0 ^^^ Du0) <<< 19) ^^^ ((Aku0 ^^^ Du0) >>> 13)
  let Ama0 : BitVec 32 := Ba ^^^ ((~~~Be) &&& Bi)
  let Ase1 : BitVec 32 := Be ^^^ ((~~~Bi) &&& Bo)
  let Abi1 : BitVec 32 := Bi ^^^ ((~~~Bo) &&& Bu)
  let Ago0 : BitVec 32 := Bo ^^^ ((~~~Bu) &&& Ba)
  let Aku0 : BitVec 32 := Bu ^^^ ((~~~Ba) &&& Be)
  pure (⟨Aba0, Aba1, Abe0, Abe1, Abi0, Abi1, Abo0, Abo1, Abu0, Abu1, Aga0, Aga1, Age0, Age1, Agi0, Agi1, Ago0, Ago1, Agu0, Agu1, Aka0, Aka1, Ake0, Ake1, Aki0, Aki1, Ako0, Ako1, Aku0, Aku1, Ama0, Ama1, Ame0, Ame1, Ami0, Ami1, Amo0, Amo1, Amu0, Amu1, Asa0, Asa1, Ase0, Ase1, Asi0, Asi1, Aso0, Aso1, Asu0, Asu1⟩, pRoundConstants)

/-- The macro on the words of the state in memory. -/
def KeccakRound0 (stateAsHalfLanes : CPtr) (pRoundConstants : Nat) : CM Nat := do
  let A ← readHalves stateAsHalfLanes
  let e ← KeccakRound0_words A pRoundConstants
  writeHalves stateAsHalfLanes e.1
  pure e.2

/-- sha3/plain32/KeccakP-1600-inplace32BI.c:588-711 `KeccakRound1`. -/
def KeccakRound1_words (A : Halves) (pRoundConstants : Nat) : CM (Halves × Nat) := do
  let Aba0 : BitVec 32 := A.ba0
  let Aba1 : BitVec 32 := A.ba1
  let Abe0 : BitVec 32 := A.be0
  let Abe1 : BitVec 32 := A.be1
  let Abi0 : BitVec 32 := A.bi0
  let Abi1 : BitVec 32 := A.bi1
  let Abo0 : BitVec 32 := A.bo0
  let Abo1 : BitVec 32 := A.bo1
  let Abu0 : BitVec 32 := A.bu0
  let Abu1 : BitVec 32 := A.bu1
  let Aga0 : BitVec 32 := A.ga0
  let Aga1 : BitVec 32 := A.ga1
  let Age0 : BitVec 32 := A.ge0
  let Age1 : BitVec 32 := A.ge1
  let Agi0 : BitVec 32 := A.gi0
  let Agi1 : BitVec 32 := A.gi1
  let Ago0 : BitVec 32 := A.go0
  let Ago1 : BitVec 32 := A.go1
  let Agu0 : BitVec 32 := A.gu0
  let Agu1 : BitVec 32 := A.gu1
  let Aka0 : BitVec 32 := A.ka0
  let Aka1 : BitVec 32 := A.ka1
  let Ake0 : BitVec 32 := A.ke0
  let Ake1 : BitVec 32 := A.ke1
  let Aki0 : BitVec 32 := A.ki0
  let Aki1 : BitVec 32 := A.ki1
  let Ako0 : BitVec 32 := A.ko0
  let Ako1 : BitVec 32 := A.ko1
  let Aku0 : BitVec 32 := A.ku0
  let Aku1 : BitVec 32 := A.ku1
  let Ama0 : BitVec 32 := A.ma0
  let Ama1 : BitVec 32 := A.ma1
  let Ame0 : BitVec 32 := A.me0
  let Ame1 : BitVec 32 := A.me1
  let Ami0 : BitVec 32 := A.mi0
  let Ami1 : BitVec 32 := A.mi1
  let Amo0 : BitVec 32 := A.mo0
  let Amo1 : BitVec 32 := A.mo1
  let Amu0 : BitVec 32 := A.mu0
  let Amu1 : BitVec 32 := A.mu1
  let Asa0 : BitVec 32 := A.sa0
  let Asa1 : BitVec 32 := A.sa1
  let Ase0 : BitVec 32 := A.se0
  let Ase1 : BitVec 32 := A.se1
  let Asi0 : BitVec 32 := A.si0
  let Asi1 : BitVec 32 := A.si1
  let Aso0 : BitVec 32 := A.so0
  let Aso1 : BitVec 32 := A.so1
  let Asu0 : BitVec 32 := A.su0
  let Asu1 : BitVec 32 := A.su1
  let Cx : BitVec 32 := (((Asu0 ^^^ Agu0) ^^^ Amu0) ^^^ Abu1) ^^^ Aku1
  let Du1 : BitVec 32 := (((Age1 ^^^ Ame0) ^^^ Abe0) ^^^ Ake1) ^^^ Ase1
  let Da0 : BitVec 32 := Cx ^^^ ((Du1 <<< 1) ^^^ (Du1 >>> 31))
  let Cz : BitVec 32 := (((Asu1 ^^^ Agu1) ^^^ Amu1) ^^^ Abu0) ^^^ Aku0
  let Du0 : BitVec 32 := (((Age0 ^^^ Ame1) ^^^ Abe1) ^^^ Ake0) ^^^ Ase0
  let Da1 : BitVec 32 := Cz ^^^ Du0
  let Cw : BitVec 32 := (((Aki1 ^^^ Asi1) ^^^ Agi0) ^^^ Ami1) ^^^ Abi0
  let Do0 : BitVec 32 := Cw ^^^ ((Cz <<< 1) ^^^ (Cz >>> 31))
  let Cy : BitVec 32 := (((Aki0 ^^^ Asi0) ^^^ Agi1) ^^^ Ami0) ^^^ Abi1
  let Do1 : BitVec 32 := Cy ^^^ Cx
  let Cx : BitVec 32 := (((Aba0 ^^^ Aka1) ^^^ Asa0) ^^^ Aga0) ^^^ Ama1
  let De0 : BitVec 32 := Cx ^^^ ((Cy <<< 1) ^^^ (Cy >>> 31))
  let Cz : BitVec 32 := (((Aba1 ^^^ Aka0) ^^^ Asa1) ^^^ Aga1) ^^^ Ama0
  let De1 : BitVec 32 := Cz ^^^ Cw
  let Cy : BitVec 32 := (((Amo0 ^^^ Abo1) ^^^ Ako0) ^^^ Aso1) ^^^ Ago0
  let Di0 : BitVec 32 := Du0 ^^^ ((Cy <<< 1) ^^^ (Cy >>> 31))
  let Cw : BitVec 32 := (((Amo1 ^^^ Abo0) ^^^ Ako1) ^^^ Aso0) ^^^ Ago1
  let Di1 : BitVec 32 := Du1 ^^^ Cw
  let Du0 : BitVec 32 := Cw ^^^ ((Cz <<< 1) ^^^ (Cz >>> 31))
  let Du1 : BitVec 32 := Cy ^^^ Cx
  let Ba : BitVec 32 := Aba0 ^^^ Da0
  let Be : BitVec 32 := ((Ame1 ^^^ De0) <<< 22) ^^^ ((Ame1 ^^^ De0) >>> 10)
  let Bi : BitVec 32 := ((Agi1 ^^^ Di1) <<< 22) ^^^ ((Agi1 ^^^ Di1) >>> 10)
  let Bo : BitVec 32 := ((Aso1 ^^^ Do1) <<< 11) ^^^ ((Aso1 ^^^ Do1) >>> 21)
  let Bu : BitVec 32 := ((Aku1 ^^^ Du0) <<< 7) ^^^ ((Aku1 ^^^ Du0) >>> 25)
  let Aba0 : BitVec 32 := Ba ^^^ ((~~~Be) &&& Bi)
  let e1 ← tget32 KeccakF1600RoundConstants_int2 pRoundConstants
  let Aba0 : BitVec 32 := Aba0 ^^^ e1
  let pRoundConstants : Nat := (pRoundConstants + 1) % U32
  let Ame1 : BitVec 32 := Be ^^^ ((~~~Bi) &&& Bo)
  let Agi1 : BitVec 32 := Bi ^^^ ((~~~Bo) &&& Bu)
  let Aso1 : BitVec 32 := Bo ^^^ ((~~~Bu) &&& Ba)
  let Aku1 : BitVec 32 := Bu ^^^ ((~~~Ba) &&& Be)
  let Ba : BitVec 32 := Aba1 ^^^ Da1
  let Be : BitVec 32 := ((Ame0 ^^^ De1) <<< 22) ^^^ ((Ame0 ^^^ De1) >>> 10)
  let Bi : BitVec 32 := ((Agi0 ^^^ Di0) <<< 21) ^^^ ((Agi0 ^^^ Di0) >>> 11)
  let Bo : BitVec 32 := ((Aso0 ^^^ Do0) <<< 10) ^^^ ((Aso0 ^^^ Do0) >>> 22)
  let Bu : BitVec 32 := ((Aku0 ^^^ Du1) <<< 7) ^^^ ((Aku0 ^^^ Du1) >>> 25)
  let Aba1 : BitVec 32 := Ba ^^^ ((~~~Be) &&& Bi)
  let e2 ← tget32 KeccakF1600RoundConstants_int2 pRoundConstants
  let Aba1 : BitVec 32 := Aba1 ^^^ e2
  let pRoundConstants : Nat := (pRoundConstants + 1) % U32
  let Ame0 : BitVec 32 := Be ^^^ ((~~~Bi) &&& Bo)
  let Agi0 : BitVec 32 := Bi ^^^ ((~~~Bo) &&& Bu)
  let Aso0 : BitVec 32 := Bo ^^^ ((~~~Bu) &&& Ba)
  let Aku0 : BitVec 32 := Bu ^^^ ((~~~Ba) &&& Be)
  let Bi : BitVec 32 := ((Asa1 ^^^ Da1) <<< 2) ^^^ ((Asa1 ^^^ Da1) >>> 30)
  let Bo : BitVec 32 := ((Ake1 ^^^ De1) <<< 23) ^^^ ((Ake1 ^^^ De1) >>> 9)
  let Bu : BitVec 32 := ((Abi1 ^^^ Di1) <<< 31) ^^^ ((Abi1 ^^^ Di1) >>> 1)
  let Ba : BitVec 32 := ((Amo1 ^^^ Do0) <<< 14) ^^^ ((Amo1 ^^^ Do0) >>> 18)
  let Be : BitVec 32 := ((Agu0 ^^^ Du0) <<< 10) ^^^ ((Agu0 ^^^ Du0) >>> 22)
  let Asa1 : BitVec 32 := Ba ^^^ ((~~~Be) &&& Bi)
  let Ake1 : BitVec 32 := Be ^^^ ((~~~Bi) &&& Bo)
  let Abi1 : BitVec 32 := Bi ^^^ ((~~~Bo) &&& Bu)
  let Amo1 : BitVec 32 := Bo ^^^ ((~~~Bu) &&& Ba)
  let Agu0 : BitVec 32 := Bu ^^^ ((~~~Ba) &&& Be)
  let Bi : BitVec 32 := ((Asa0 ^^^ Da0) <<< 1) ^^^ ((Asa0 ^^^ Da0) >>> 31)
  let Bo : BitVec 32 := ((Ake0 ^^^ De0) <<< 22) ^^^ ((Ake0 ^^^ De0) >>> 10)
  let Bu : BitVec 32 := ((Abi0 ^^^ Di0) <<< 30) ^^^ ((Abi0 ^^^ Di0) >>> 2)
  let Ba : BitVec 32 := ((Amo0 ^^^ Do1) <<< 14) ^^^ ((Amo0 ^^^ Do1) >>> 18)
  let Be : BitVec 32 := ((Agu1 ^^^ Du1) <<< 10) ^^^ ((Agu1 ^^^ Du1) >>> 22)
  let Asa0 : BitVec 32 := Ba ^^^ ((~~~Be) &&& Bi)
  let Ake0 : BitVec 32 := Be ^^^ ((~~~Bi) &&& Bo)
  let Abi0 : BitVec 32 := Bi ^^^ ((~~~Bo) &&& Bu)
  let Amo0 : BitVec 32 := Bo ^^^ ((~~~Bu) &&& Ba)
  let Agu1 : BitVec 32 := Bu ^^^ ((~~~Ba) &&& Be)
  let Bu : BitVec 32 := ((Ama1 ^^^ Da0) <<< 9) ^^^ ((Ama1 ^^^ Da0) >>> 23)
  let Ba : BitVec 32 := ((Age1 ^^^ De1) <<< 1) ^^^ ((Age1 ^^^ De1) >>> 31)
  let Be : BitVec 32 := ((Asi1 ^^^ Di0) <<< 3) ^^^ ((Asi1 ^^^ Di0) >>> 29)
  let Bi : BitVec 32 := ((Ako0 ^^^ Do1) <<< 13) ^^^ ((Ako0 ^^^ Do1) >>> 19)
  let Bo : BitVec 32 := ((Abu1 ^^^ Du0) <<< 4) ^^^ ((Abu1 ^^^ Du0) >>> 28)
  let Ama1 : BitVec 32 := Ba ^^^ ((~~~Be) &&& Bi)
  let Age1 : BitVec 32 := Be ^^^ ((~~~Bi) &&& Bo)
  let Asi1 : BitVec 32 := Bi ^^^ ((~~~Bo) &&& Bu)
  let Ako0 : BitVec 32 := Bo ^^^ ((~~~Bu) &&& Ba)
  let Abu1 : BitVec 32 := Bu ^^^ ((~~~Ba) &&& Be)
  let Bu : BitVec 32 := ((Ama0 ^^^ Da1) <<< 9) ^^^ ((Ama0 ^^^ Da1) >>> 23)
  let Ba : BitVec 32 := Age0 ^^^ De0
  let Be : BitVec 32 := ((Asi0 ^^^ Di1) <<< 3) ^^^ ((Asi0 ^^^ Di1) >>> 29)
  let Bi : BitVec 32 := ((Ako1 ^^^ Do0) <<< 12) ^^^ ((Ako1 ^^^ Do0) >>> 20)
  let Bo : BitVec 32 := ((Abu0 ^^^ Du1) <<< 4) ^^^ ((Abu0 ^^^ Du1) >>> 28)
  let Ama0 : BitVec 32 := Ba ^^^ ((~~~Be) &&& Bi)
  let Age0 : BitVec 32 := Be ^^^ ((~~~Bi) &&& Bo)
  let Asi0 : BitVec 32 := Bi ^^^ ((~~~Bo) &&& Bu)
  let Ako1 : BitVec 32 := Bo ^^^ ((~~~Bu) &&& Ba)
  let Abu0 : BitVec 32 := Bu ^^^ ((~~~Ba) &&& Be)
  let Be : BitVec 32 := ((Aka1 ^^^ Da0) <<< 18) ^^^ ((Aka1 ^^^ Da0) >>> 14)
  let Bi : BitVec 32 := ((Abe1 ^^^ De0) <<< 5) ^^^ ((Abe1 ^^^ De0) >>> 27)
  let Bo : BitVec 32 := ((Ami0 ^^^ Di1) <<< 8) ^^^ ((Ami0 ^^^ Di1) >>> 24)
  let Bu : BitVec 32 := ((Ago1 ^^^ Do0) <<< 28) ^^^ ((Ago1 ^^^ Do0) >>> 4)
  let Ba : BitVec 32 := ((Asu1 ^^^ Du1) <<< 14) ^^^ ((Asu1 ^^^ Du1) >>> 18)
  let Aka1 : BitVec 32 := Ba ^^^ ((~~~Be) &&& Bi)
  let Abe1 : BitVec 32 := Be ^^^ ((~~~Bi) &&& Bo)
  let Ami0 : BitVec 32 := Bi ^^^ ((~~~Bo) &&& Bu)
  let Ago1 : BitVec 32 := Bo ^^^ ((~~~Bu) &&& Ba)
  let Asu1 : BitVec 32 := Bu ^^^ ((~~~Ba) &&& Be)
  let Be : BitVec 32 := ((Aka0 ^^^ Da1) <<< 18) ^^^ ((Aka0 ^^^ Da1) >>> 14)
  let Bi : BitVec 32 := ((Abe0 ^^^ De1) <<< 5) ^^^ ((Abe0 ^^^ De1) >>> 27)
  let Bo : BitVec 32 := ((Ami1 ^^^ Di0) <<< 7) ^^^ ((Ami1 ^^^ Di0) >>> 25)
  let Bu : BitVec 32 := ((Ago0 ^^^ Do1) <<< 28) ^^^ ((Ago0 ^^^ Do1) >>> 4)
  let Ba : BitVec 32 := ((Asu0 ^^^ Du0) <<< 13) ^^^ ((Asu0 ^^^ Du0) >>> 19)
  let Aka0 : BitVec 32 := Ba ^^^ ((~~~Be) &&& Bi)
  let Abe0 : BitVec 32 := Be ^^^ ((~~~Bi) &&& Bo)
  let Ami1 : BitVec 32 := Bi ^^^ ((~~~Bo) &&& Bu)
  let Ago0 : BitVec 32 := Bo ^^^ ((~~~Bu) &&& Ba)
  let Asu0 : BitVec 32 := Bu ^^^ ((~~~Ba) &&& Be)
  let Bo : BitVec 32 := ((Aga1 ^^^ Da1) <<< 21) ^^^ ((Aga1 ^^^ Da1) >>> 11)
  let Bu : BitVec 32 := ((Ase0 ^^^ De0) <<< 1) ^^^ ((Ase0 ^^^ De0) >>> 31)
  let Ba : BitVec 32 := ((Aki1 ^^^ Di0) <<< 31) ^^^ ((Aki1 ^^^ Di0) >>> 1)
  let Be : BitVec 32 := ((Abo1 ^^^ Do1) <<< 28) ^^^ ((Abo1 ^^^ Do1) >>> 4)
  let Bi : BitVec 32 := ((Amu1 ^^^ Du1) <<< 20) ^^^ ((Amu1 ^^^ Du1) >>> 12)
  let Aga1 : BitVec 32 := Ba ^^^ ((~~~Be) &&& Bi)
  let Ase0 : BitVec 32 := Be ^^^ ((~~~Bi) &&& Bo)
  let Aki1 : BitVec 32 := Bi ^^^ ((~~~Bo) &&& Bu)
  let Abo1 : BitVec 32 := Bo ^^^ ((~~~Bu) &&& Ba)
  let Amu1 : BitVec 32 := Bu ^^^ ((~~~Ba) &&& Be)
  let Bo : BitVec 32 := ((Aga0 ^^^ Da0) <<< 20) ^^^ ((Aga0 ^^^ Da0) >>> 12)
  let Bu : BitVec 32 := ((Ase1 ^^^ De1) <<< 1) ^^^ ((Ase1 ^^^ De1) >>> 31)
  let Ba : BitVec 32 := ((Aki0 ^^^ Di1) <<< 31) ^^^ ((Aki0 ^^^ Di1) >>> 1)
  let Be : BitVec 32 := ((Abo0 ^^^ Do0) <<< 27) ^^^ ((Abo0 ^^^ Do0) >>> 5)
  let Bi : BitVec 32 := ((Amu0 ^^^ Du0) <<< 19) ^^^ ((Amu0 ^^^ Du0) >>> 13)
  let Aga0 : BitVec 32 := Ba ^^^ ((~~~Be) &&& Bi)
  let Ase1 : BitVec 32 := Be ^^^ ((~~~Bi) &&& Bo)
  let Aki0 : BitVec 32 := Bi ^^^ ((~~~Bo) &&& Bu)
  let Abo0 : BitVec 32 := Bo ^^^ ((~~~Bu) &&& Ba)
  let Amu0 : BitVec 32 := Bu ^^^ ((~~~Ba) &&& Be)
  pure (⟨Aba0, Aba1, Abe0, Abe1, Abi0, Abi1, Abo0, Abo1, Abu0, Abu1, Aga0, Aga1, Age0, Age1, Agi0, Agi1, Ago0, Ago1, Agu0, Agu1, Aka0, Aka1, Ake0, Ake1, Aki0, Aki1, Ako0, Ako1, Aku0, Aku1, Ama0, Ama1, Ame0, Ame1, Ami0, Ami1, Amo0, Amo1, Amu0, Amu1, Asa0, Asa1, Ase0, Ase1, Asi0, Asi1, Aso0, Aso1, Asu0, Asu1⟩, pRoundConstants)

/-- The macro on the words of the state in memory. -/
def KeccakRound1 (stateAsHalfLanes : CPtr) (pRoundConstants : Nat) : CM Nat := do
  let A ← readHalves stateAsHalfLanes
  let e ← KeccakRound1_words A pRoundConstants
  writeHalves stateAsHalfLanes e.1
  pure e.2

/-- sha3/plain32/KeccakP-1600-inplace32BI.c:713-836 `KeccakRound2`. -/
def KeccakRound2_words (A : Halves) (pRoundConstants : Nat) : CM (Halves × Nat) := do
  let Aba0 : BitVec 32 := A.ba0
  let Aba1 : BitVec 32 := A.ba1
  let Abe0 : BitVec 32 := A.be0
  let Abe1 : BitVec 32 := A.be1
  let Abi0 : BitVec 32 := A.bi0
  let Abi1 : BitVec 32 := A.bi1
  let Abo0 : BitVec 32 := A.bo0
  let Abo1 : BitVec 32 := A.bo1
  let Abu0 : BitVec 32 := A.bu0
  let Abu1 : BitVec 32 := A.bu1
  let Aga0 : BitVec 32 := A.ga0
  let Aga1 : BitVec 32 := A.ga1
  let Age0 : BitVec 32 := A.ge0
  let Age1 : BitVec 32 := A.ge1
  let Agi0 : BitVec 32 := A.gi0
  let Agi1 : BitVec 32 := A.gi1
  let Ago0 : BitVec 32 := A.go0
  let Ago1 : BitVec 32 := A.go1
  let Agu0 : BitVec 32 := A.gu0
  let Agu1 : BitVec 32 := A.gu1
  let Aka0 : BitVec 32 := A.ka0
  let Aka1 : BitVec 32 := A.ka1
  let Ake0 : BitVec 32 := A.ke0
  let Ake1 : BitVec 32 := A.ke1
  let Aki0 : BitVec 32 := A.ki0
  let Aki1 : BitVec 32 := A.ki1
  let Ako0 : BitVec 32 := A.ko0
  let Ako1 : BitVec 32 := A.ko1
  let Aku0 : BitVec 32 := A.ku0
  let Aku1 : BitVec 32 := A.ku1
  let Ama0 : BitVec 32 := A.ma0
  let Ama1 : BitVec 32 := A.ma1
  let Ame0 : BitVec 32 := A.me0
  let Ame1 : BitVec 32 := A.me1
  let Ami0 : BitVec 32 := A.mi0
  let Ami1 : BitVec 32 := A.mi1
  let Amo0 : BitVec 32 := A.mo0
  let Amo1 : BitVec 32 := A.mo1
  let Amu0 : BitVec 32 := A.mu0
  let Amu1 : BitVec 32 := A.mu1
  let Asa0 : BitVec 32 := A.sa0
  let Asa1 : BitVec 32 := A.sa1
  let Ase0 : BitVec 32 := A.se0
  let Ase1 : BitVec 32 := A.se1
  let Asi0 : BitVec 32 := A.si0
  let Asi1 : BitVec 32 := A.si1
  let Aso0 : BitVec 32 := A.so0
  let Aso1 : BitVec 32 := A.so1
  let Asu0 : BitVec 32 := A.su0
  let Asu1 : BitVec 32 := A.su1
  let Cx : BitVec 32 := (((Aku1 ^^^ Agu0) ^^^ Abu1) ^^^ Asu1) ^^^ Amu1
  let Du1 : BitVec 32 := (((Ame0 ^^^ Ake0) ^^^ Age0) ^^^ Abe0) ^^^ Ase1
  let Da0 : BitVec 32 := Cx ^^^ ((Du1 <<< 1) ^^^ (Du1 >>> 31))
  let Cz : BitVec 32 := (((Aku0 ^^^ Agu1) ^^^ Abu0) ^^^ Asu0) ^^^ Amu0
  let Du0 : BitVec 32 := (((Ame1 ^^^ Ake1) ^^^ Age1) ^^^ Abe1) ^^^ Ase0
  let Da1 : BitVec 32 := Cz ^^^ Du0
  let Cw : BitVec 32 := (((Agi1 ^^^ Abi1) ^^^ Asi1) ^^^ Ami0) ^^^ Aki1
  let Do0 : BitVec 32 := Cw ^^^ ((Cz <<< 1) ^^^ (Cz >>> 31))
  let Cy : BitVec 32 := (((Agi0 ^^^ Abi0) ^^^ Asi0) ^^^ Ami1) ^^^ Aki0
  let Do1 : BitVec 32 := Cy ^^^ Cx
  let Cx : BitVec 32 := (((Aba0 ^^^ Asa1) ^^^ Ama1) ^^^ Aka1) ^^^ Aga1
  let De0 : BitVec 32 := Cx ^^^ ((Cy <<< 1) ^^^ (Cy >>> 31))
  let Cz : BitVec 32 := (((Aba1 ^^^ Asa0) ^^^ Ama0) ^^^ Aka0) ^^^ Aga0
  let De1 : BitVec 32 := Cz ^^^ Cw
  let Cy : BitVec 32 := (((Aso0 ^^^ Amo0) ^^^ Ako1) ^^^ Ago0) ^^^ Abo0
  let Di0 : BitVec 32 := Du0 ^^^ ((Cy <<< 1) ^^^ (Cy >>> 31))
  let Cw : BitVec 32 := (((Aso1 ^^^ Amo1) ^^^ Ako0) ^^^ Ago1) ^^^ Abo1
  let Di1 : BitVec 32 := Du1 ^^^ Cw
  let Du0 : BitVec 32 := Cw ^^^ ((Cz <<< 1) ^^^ (Cz >>> 31))
  let Du1 : BitVec 32 := Cy ^^^ Cx
  let Ba : BitVec 32 := Aba0 ^^^ Da0
  let Be : BitVec 32 := ((Ake1 ^^^ De0) <<< 22) ^^^ ((Ake1 ^^^ De0) >>> 10)
  let Bi : BitVec 32 := ((Asi0 ^^^ Di1) <<< 22) ^^^ ((Asi0 ^^^ Di1) >>> 10)
  let Bo : BitVec 32 := ((Ago0 ^^^ Do1) <<< 11) ^^^ ((Ago0 ^^^ Do1) >>> 21)
  let Bu : BitVec 32 := ((Amu1 ^^^ Du0) <<< 7) ^^^ ((Amu1 ^^^ Du0) >>> 25)
  let Aba0 : BitVec 32 := Ba ^^^ ((~~~Be) &&& Bi)
  let e1 ← tget32 KeccakF1600RoundConstants_int2 pRoundConstants
  let Aba0 : BitVec 32 := Aba0 ^^^ e1
  let pRoundConstants : Nat := (pRoundConstants + 1) % U32
  let Ake1 : BitVec 32 := Be ^^^ ((~~~Bi) &&& Bo)
  let Asi0 : BitVec 32 := Bi ^^^ ((~~~Bo) &&& Bu)
  let Ago0 : BitVec 32 := Bo ^^^ ((~~~Bu) &&& Ba)
  let Amu1 : BitVec 32 := Bu ^^^ ((~~~Ba) &&& Be)
  let Ba : BitVec 32 := Aba1 ^^^ Da1
  let Be : BitVec 32 := ((Ake0 ^^^ De1) <<< 22) ^^^ ((Ake0 ^^^ De1) >>> 10)
  let Bi : BitVec 32 := ((Asi1 ^^^ Di0) <<< 21) ^^^ ((Asi1 ^^^ Di0) >>> 11)
  let Bo : BitVec 32 := ((Ago1 ^^^ Do0) <<< 10) ^^^ ((Ago1 ^^^ Do0) >>> 22)
  let Bu : BitVec 32 := ((Amu0 ^^^ Du1) <<< 7) ^^^ ((Amu0 ^^^ Du1) >>> 25)
  let Aba1 : BitVec 32 := Ba ^^^ ((~~~Be) &&& Bi)
  let e2 ← tget32 KeccakF1600RoundConstants_int2 pRoundConstants
  let Aba1 : BitVec 32 := Aba1 ^^^ e2
  let pRoundConstants : Nat := (pRoundConstants + 1) % U32
  let Ake0 : BitVec 32 := Be ^^^ ((~~~Bi) &&& Bo)
  let Asi1 : BitVec 32 := Bi ^^^ ((~~~Bo) &&& Bu)
  let Ago1 : BitVec 32 := Bo ^^^ ((~~~Bu) &&& Ba)
  let Amu0 : BitVec 32 := Bu ^^^ ((~~~Ba) &&& Be)
  let Bi : BitVec 32 := ((Ama0 ^^^ Da1) <<< 2) ^^^ ((Ama0 ^^^ Da1) >>> 30)
  let Bo : BitVec 32 := ((Abe0 ^^^ De1) <<< 23) ^^^ ((Abe0 ^^^ De1) >>> 9)
  let Bu : BitVec 32 := ((Aki0 ^^^ Di1) <<< 31) ^^^ ((Aki0 ^^^ Di1) >>> 1)
  let Ba : BitVec 32 := ((Aso1 ^^^ Do0) <<< 14) ^^^ ((Aso1 ^^^ Do0) >>> 18)
  let Be : BitVec 32 := ((Agu0 ^^^ Du0) <<< 10) ^^^ ((Agu0 ^^^ Du0) >>> 22)
  let Ama0 : BitVec 32 := Ba ^^^ ((~~~Be) &&& Bi)
  let Abe0 : BitVec 32 := Be ^^^ ((~~~Bi) &&& Bo)
  let Aki0 : BitVec 32 := Bi ^^^ ((~~~Bo) &&& Bu)
  let Aso1 : BitVec 32 := Bo ^^^ ((~~~Bu) &&& Ba)
  let Agu0 : BitVec 32 := Bu ^^^ ((~~~Ba) &&& Be)
  let Bi : BitVec 32 := ((Ama1 ^^^ Da0) <<< 1) ^^^ ((Ama1 ^^^ Da0) >>> 31)
  let Bo : BitVec 32 := ((Abe1 ^^^ De0) <<< 22) ^^^ ((Abe1 ^^^ De0) >>> 10)
  let Bu : BitVec 32 := ((Aki1 ^^^ Di0) <<< 30) ^^^ ((Aki1 ^^^ Di0) >>> 2)
  let Ba : BitVec 32 := ((Aso0 ^^^ Do1) <<< 14) ^^^ ((Aso0 ^^^ Do1) >>> 18)
  let Be : BitVec 32 := ((Agu1 ^^^ Du1) <<< 10) ^^^ ((Agu1 ^^^ Du1) >>> 22)
  let Ama1 : BitVec 32 := Ba ^^^ ((~~~Be) &&& Bi)
  let Abe1 : BitVec 32 := Be ^^^ ((~~~Bi) &&& Bo)
  let Aki1 : BitVec 32 := Bi ^^^ ((~~~Bo) &&& Bu)
  let Aso0 : BitVec 32 := Bo ^^^ ((~~~Bu) &&& Ba)
  let Agu1 : BitVec 32 := Bu ^^^ ((~~~Ba) &&& Be)
  let Bu : BitVec 32 := ((Aga1 ^^^ Da0) <<< 9) ^^^ ((Aga1 ^^^ Da0) >>> 23)
  let Ba : BitVec 32 := ((Ame0 ^^^ De1) <<< 1) ^^^ ((Ame0 ^^^ De1) >>> 31)
  let Be : BitVec 32 := ((Abi1 ^^^ Di0) <<< 3) ^^^ ((Abi1 ^^^ Di0) >>> 29)
  let Bi : BitVec 32 := ((Ako1 ^^^ Do1) <<< 13) ^^^ ((Ako1 ^^^ Do1) >>> 19)
  let Bo : BitVec 32 := ((Asu1 ^^^ Du0) <<< 4) ^^^ ((Asu1 ^^^ Du0) >>> 28)
  let Aga1 : BitVec 32 := Ba ^^^ ((~~~Be) &&& Bi)
  let Ame0 : BitVec 32 := Be ^^^ ((~~~Bi) &&& Bo)
  let Abi1 : BitVec 32 := Bi ^^^ ((~~~Bo) &&& Bu)
  let Ako1 : BitVec 32 := Bo ^^^ ((~~~Bu) &&& Ba)
  let Asu1 : BitVec 32 := Bu ^^^ ((~~~Ba) &&& Be)
  let Bu : BitVec 32 := ((Aga0 ^^^ Da1) <<< 9) ^^^ ((Aga0 ^^^ Da1) >>> 23)
  let Ba : BitVec 32 := Ame1 ^^^ De0
  let Be : BitVec 32 := ((Abi0 ^^^ Di1) <<< 3) ^^^ ((Abi0 ^^^ Di1) >>> 29)
  let Bi : BitVec 32 := ((Ako0 ^^^ Do0) <<< 12) ^^^ ((Ako0 ^^^ Do0) >>> 20)
  let Bo : BitVec 32 := ((Asu0 ^^^ Du1) <<< 4) ^^^ ((Asu0 ^^^ Du1) >>> 28)
  let Aga0 : BitVec 32 := Ba ^^^ ((~~~Be) &&& Bi)
  let Ame1 : BitVec 32 := Be ^^^ ((~~~Bi) &&& Bo)
  let Abi0 : BitVec 32 := Bi ^^^ ((~~~Bo) &&& Bu)
  let Ako0 : BitVec 32 := Bo ^^^ ((~~~Bu) &&& Ba)
  let Asu0 : BitVec 32 := Bu ^^^ ((~~~Ba) &&& Be)
  let Be : BitVec 32 := ((Asa1 ^^^ Da0) <<< 18) ^^^ ((Asa1 ^^^ Da0) >>> 14)
  let Bi : BitVec 32 := ((Age1 ^^^ De0) <<< 5) ^^^ ((Age1 ^^^ De0) >>> 27)
  let Bo : BitVec 32 := ((Ami1 ^^^ Di1) <<< 8) ^^^ ((Ami1 ^^^ Di1) >>> 24)
  let Bu : BitVec 32 := ((Abo1 ^^^ Do0) <<< 28) ^^^ ((Abo1 ^^^ Do0) >>> 4)
  let Ba : BitVec 32 := ((Aku0 ^^^ Du1) <<< 14) ^^^ ((Aku0 ^^^ Du1) >>> 18)
  let Asa1 : BitVec 32 := Ba ^^^ ((~~~Be) &&& Bi)
  let Age1 : BitVec 32 := Be ^^^ ((~~~Bi) &&& Bo)
  let Ami1 : BitVec 32 := Bi ^^^ ((~~~Bo) &&& Bu)
  let Abo1 : BitVec 32 := Bo ^^^ ((~~~Bu) &&& Ba)
  let Aku0 : BitVec 32 := Bu ^^^ ((~~~Ba) &&& Be)
  let Be : BitVec 32 := ((Asa0 ^^^ Da1) <<< 18) ^^^ ((Asa0 ^^^ Da1) >>> 14)
  let Bi : BitVec 32 := ((Age0 ^^^ De1) <<< 5) ^^^ ((Age0 ^^^ De1) >>> 27)
  let Bo : BitVec 32 := ((Ami0 ^^^ Di0) <<< 7) ^^^ ((Ami0 ^^^ Di0) >>> 25)
  let Bu : BitVec 32 := ((Abo0 ^^^ Do1) <<< 28) ^^^ ((Abo0 ^^^ Do1) >>> 4)
  let Ba : BitVec 32 := ((Aku1 ^^^ Du0) <<< 13) ^^^ ((Aku1 ^^^ Du0) >>> 19)
  let Asa0 : BitVec 32 := Ba ^^^ ((~~~Be) &&& Bi)
  let Age0 : BitVec 32 := Be ^^^ ((~~~Bi) &&& Bo)
  let Ami0 : BitVec 32 := Bi ^^^ ((~~~Bo) &&& Bu)
  let Abo0 : BitVec 32 := Bo ^^^ ((~~~Bu) &&& Ba)
  let Aku1 : BitVec 32 := Bu ^^^ ((~~~Ba) &&& Be)
  let Bo : BitVec 32 := ((Aka0 ^^^ Da1) <<< 21) ^^^ ((Aka0 ^^^ Da1) >>> 11)
  let Bu : BitVec 32 := ((Ase0 ^^^ De0) <<< 1) ^^^ ((Ase0 ^^^ De0) >>> 31)
  let Ba : BitVec 32 := ((Agi1 ^^^ Di0) <<< 31) ^^^ ((Agi1 ^^^ Di0) >>> 1)
  let Be : BitVec 32 := ((Amo0 ^^^ Do1) <<< 28) ^^^ ((Amo0 ^^^ Do1) >>> 4)
  let Bi : BitVec 32 := ((Abu0 ^^^ Du1) <<< 20) ^^^ ((Abu0 ^^^ Du1) >>> 12)
  let Aka0 : BitVec 32 := Ba ^^^ ((~~~Be) &&& Bi)
  let Ase0 : BitVec 32 := Be ^^^ ((~~~Bi) &&& Bo)
  let Agi1 : BitVec 32 := Bi ^^^ ((~~~Bo) &&& Bu)
  let Amo0 : BitVec 32 := Bo ^^^ ((~~~Bu) &&& Ba)
  let Abu0 : BitVec 32 := Bu ^^^ ((~~~Ba) &&& Be)
  let Bo : BitVec 32 := ((Aka1 ^^^ Da0) <<< 20) ^^^ ((Aka1 ^^^ Da0) >>> 12)
  let Bu : BitVec 32 := ((Ase1 ^^^ De1) <<< 1) ^^^ ((Ase1 ^^^ De1) >>> 31)
  let Ba : BitVec 32 := ((Agi0 ^^^ Di1) <<< 31) ^^^ ((Agi0 ^^^ Di1) >>> 1)
  let Be : BitVec 32 := ((Amo1 ^^^ Do0) <<< 27) ^^^ ((Amo1 ^^^ Do0) >>> 5)
  let Bi : BitVec 32 := ((Abu1 ^^^ Du0) <<< 19) ^^^ ((Abu1 ^^^ Du0) >>> 13)
  let Aka1 : BitVec 32 := Ba ^^^ ((~~~Be) &&& Bi)
  let Ase1 : BitVec 32 := Be ^^^ ((~~~Bi) &&& Bo)
  let Agi0 : BitVec 32 := Bi ^^^ ((~~~Bo) &&& Bu)
  let Amo1 : BitVec 32 := Bo ^^^ ((~~~Bu) &&& Ba)
  let Abu1 : BitVec 32 := Bu ^^^ ((~~~Ba) &&& Be)
  pure (⟨Aba0, Aba1, Abe0, Abe1, Abi0, Abi1, Abo0, Abo1, Abu0, Abu1, Aga0, Aga1, Age0, Age1, Agi0, Agi1, Ago0, Ago1, Agu0, Agu1, Aka0, Aka1, Ake0, Ake1, Aki0, Aki1, Ako0, Ako1, Aku0, Aku1, Ama0, Ama1, Ame0, Ame1, Ami0, Ami1, Amo0, Amo1, Amu0, Amu1, Asa0, Asa1, Ase0, Ase1, Asi0, Asi1, Aso0, Aso1, Asu0, Asu1⟩, pRoundConstants)

/-- The macro on the words of the state in memory. -/
def KeccakRound2 (stateAsHalfLanes : CPtr) (pRoundConstants : Nat) : CM Nat := do
  let A ← readHalves stateAsHalfLanes
  let e ← KeccakRound2_words A pRoundConstants
  writeHalves stateAsHalfLanes e.1
  pure e.2

/-- sha3/plain32/KeccakP-1600-inplace32BI.c:838-961 `KeccakRound3`. -/
def KeccakRound3_words (A : Halves) (pRoundConstants : Nat) : CM (Halves × Nat) := do
  let Aba0 : BitVec 32 := A.ba0
  let Aba1 : BitVec 32 := A.ba1
  let Abe0 : BitVec 32 := A.be0
  let Abe1 : BitVec 32 := A.be1
  let Abi0 : BitVec 32 := A.bi0
  let Abi1 : BitVec 32 := A.bi1
  let Abo0 : BitVec 32 := A.bo0
  let Abo1 : BitVec 32 := A.bo1
  let Abu0 : BitVec 32 := A.bu0
  let Abu1 : BitVec 32 := A.bu1
  let Aga0 : BitVec 32 := A.ga0
  let Aga1 : BitVec 32 := A.ga1
  let Age0 : BitVec 32 := A.ge0
  let Age1 : BitVec 32 := A.ge1
  let Agi0 : BitVec 32 := A.gi0
  let Agi1 : BitVec 32 := A.gi1
  let Ago0 : BitVec 32 := A.go0
  let Ago1 : BitVec 32 := A.go1
  let Agu0 : BitVec 32 := A.gu0
  let Agu1 : BitVec 32 := A.gu1
  let Aka0 : BitVec 32 := A.ka0
  let Aka1 : BitVec 32 := A.ka1
  let Ake0 : BitVec 32 := A.ke0
  let Ake1 : BitVec 32 := A.ke1
  let Aki0 : BitVec 32 := A.ki0
  let Aki1 : BitVec 32 := A.ki1
  let Ako0 : BitVec 32 := A.ko0
  let Ako1 : BitVec 32 := A.ko1
  let Aku0 : BitVec 32 := A.ku0
  let Aku1 : BitVec 32 := A.ku1
  let Ama0 : BitVec 32 := A.ma0
  let Ama1 : BitVec 32 := A.ma1
  let Ame0 : BitVec 32 := A.me0
  let Ame1 : BitVec 32 := A.me1
  let Ami0 : BitVec 32 := A.mi0
  let Ami1 : BitVec 32 := A.mi1
  let Amo0 : BitVec 32 := A.mo0
  let Amo1 : BitVec 32 := A.mo1
  let Amu0 : BitVec 32 := A.mu0
  let Amu1 : BitVec 32 := A.mu1
  let Asa0 : BitVec 32 := A.sa0
  let Asa1 : BitVec 32 := A.sa1
  let Ase0 : BitVec 32 := A.se0
  let Ase1 : BitVec 32 := A.se1
  let Asi0 : BitVec 32 := A.si0
  let Asi1 : BitVec 32 := A.si1
  let Aso0 : BitVec 32 := A.so0
  let Aso1 : BitVec 32 := A.so1
  let Asu0 : BitVec 32 := A.su0
  let Asu1 : BitVec 32 := A.su1
  let Cx : BitVec 32 := (((Amu1 ^^^ Agu0) ^^^ Asu1) ^^^ Aku0) ^^^ Abu0
  let Du1 : BitVec 32 := (((Ake0 ^^^ Abe1) ^^^ Ame1) ^^^ Age0) ^^^ Ase1
  let Da0 : BitVec 32 := Cx ^^^ ((Du1 <<< 1) ^^^ (Du1 >>> 31))
  let Cz : BitVec 32 := (((Amu0 ^^^ Agu1) ^^^ Asu0) ^^^ Aku1) ^^^ Abu1
  let Du0 : BitVec 32 := (((Ake1 ^^^ Abe0) ^^^ Ame0) ^^^ Age1) ^^^ Ase0
  let Da1 : BitVec 32 := Cz ^^^ Du0
  let Cw : BitVec 32 := (((Asi0 ^^^ Aki0) ^^^ Abi1) ^^^ Ami1) ^^^ Agi1
  let Do0 : BitVec 32 := Cw ^^^ ((Cz <<< 1) ^^^ (Cz >>> 31))
  let Cy : BitVec 32 := (((Asi1 ^^^ Aki1) ^^^ Abi0) ^^^ Ami0) ^^^ Agi0
  let Do1 : BitVec 32 := Cy ^^^ Cx
  let Cx : BitVec 32 := (((Aba0 ^^^ Ama0) ^^^ Aga1) ^^^ Asa1) ^^^ Aka0
  let De0 : BitVec 32 := Cx ^^^ ((Cy <<< 1) ^^^ (Cy >>> 31))
  let Cz : BitVec 32 := (((Aba1 ^^^ Ama1) ^^^ Aga0) ^^^ Asa0) ^^^ Aka1
  let De1 : BitVec 32 := Cz ^^^ Cw
  let Cy : BitVec 32 := (((Ago1 ^^^ Aso0) ^^^ Ako0) ^^^ Abo0) ^^^ Amo1
  let Di0 : BitVec 32 := Du0 ^^^ ((Cy <<< 1) ^^^ (Cy >>> 31))
  let Cw : BitVec 32 := (((Ago0 ^^^ Aso1) ^^^ Ako1) ^^^ Abo1) ^^^ Amo0
  let Di1 : BitVec 32 := Du1 ^^^ Cw
  let Du0 : BitVec 32 := Cw ^^^ ((Cz <<< 1) ^^^ (Cz >>> 31))
  let Du1 : BitVec 32 := Cy ^^^ Cx
  let Ba : BitVec 32 := Aba0 ^^^ Da0
  let Be : BitVec 32 := ((Abe0 ^^^ De0) <<< 22) ^^^ ((Abe0 ^^^ De0) >>> 10)
  let Bi : BitVec 32 := ((Abi0 ^^^ Di1) <<< 22) ^^^ ((Abi0 ^^^ Di1) >>> 10)
  let Bo : BitVec 32 := ((Abo0 ^^^ Do1) <<< 11) ^^^ ((Abo0 ^^^ Do1) >>> 21)
  let Bu : BitVec 32 := ((Abu0 ^^^ Du0) <<< 7) ^^^ ((Abu0 ^^^ Du0) >>> 25)
  let Aba0 : BitVec 32 := Ba ^^^ ((~~~Be) &&& Bi)
  let e1 ← tget32 KeccakF1600RoundConstants_int2 pRoundConstants
  let Aba0 : BitVec 32 := Aba0 ^^^ e1
  let pRoundConstants : Nat := (pRoundConstants + 1) % U32
  let Abe0 : BitVec 32 := Be ^^^ ((~~~Bi) &&& Bo)
  let Abi0 : BitVec 32 := Bi ^^^ ((~~~Bo) &&& Bu)
  let Abo0 : BitVec 32 := Bo ^^^ ((~~~Bu) &&& Ba)
  let Abu0 : BitVec 32 := Bu ^^^ ((~~~Ba) &&& Be)
  let Ba : BitVec 32 := Aba1 ^^^ Da1
  let Be : BitVec 32 := ((Abe1 ^^^ De1) <<< 22) ^^^ ((Abe1 ^^^ De1) >>> 10)
  let Bi : BitVec 32 := ((Abi1 ^^^ Di0) <<< 21) ^^^ ((Abi1 ^^^ Di0) >>> 11)
  let Bo : BitVec 32 := ((Abo1 ^^^ Do0) <<< 10) ^^^ ((Abo1 ^^^ Do0) >>> 22)
  let Bu : BitVec 32 := ((Abu1 ^^^ Du1) <<< 7) ^^^ ((Abu1 ^^^ Du1) >>> 25)
  let Aba1 : BitVec 32 := Ba ^^^ ((~~~Be) &&& Bi)
  let e2 ← tget32 KeccakF1600RoundConstants_int2 pRoundConstants
  let Aba1 : BitVec 32 := Aba1 ^^^ e2
  let pRoundConstants : Nat := (pRoundConstants + 1) % U32
  let Abe1 : BitVec 32 := Be ^^^ ((~~~Bi) &&& Bo)
  let Abi1 : BitVec 32 := Bi ^^^ ((~~~Bo) &&& Bu)
  let Abo1 : BitVec 32 := Bo ^^^ ((~~~Bu) &&& Ba)
  let Abu1 : BitVec 32 := Bu ^^^ ((~~~Ba) &&& Be)
  let Bi : BitVec 32 := ((Aga0 ^^^ Da1) <<< 2) ^^^ ((Aga0 ^^^ Da1) >>> 30)
  let Bo : BitVec 32 := ((Age0 ^^^ De1) <<< 23) ^^^ ((Age0 ^^^ De1) >>> 9)
  let Bu : BitVec 32 := ((Agi0 ^^^ Di1) <<< 31) ^^^ ((Agi0 ^^^ Di1) >>> 1)
  let Ba : BitVec 32 := ((Ago0 ^^^ Do0) <<< 14) ^^^ ((Ago0 ^^^ Do0) >>> 18)
  let Be : BitVec 32 := ((Agu0 ^^^ Du0) <<< 10) ^^^ ((Agu0 ^^^ Du0) >>> 22)
  let Aga0 : BitVec 32 := Ba ^^^ ((~~~Be) &&& Bi)
  let Age0 : BitVec 32 := Be ^^^ ((~~~Bi) &&& Bo)
  let Agi0 : BitVec 32 := Bi ^^^ ((~~~Bo) &&& Bu)
  let Ago0 : BitVec 32 := Bo ^^^ ((~~~Bu) &&& Ba)
  let Agu0 : BitVec 32 := Bu ^^^ ((~~~Ba) &&& Be)
  let Bi : BitVec 32 := ((Aga1 ^^^ Da0) <<< 1) ^^^ ((Aga1 ^^^ Da0) >>> 31)
  let Bo : BitVec 32 := ((Age1 ^^^ De0) <<< 22) ^^^ ((Age1 ^^^ De0) >>> 10)
  let Bu : BitVec 32 := ((Agi1 ^^^ Di0) <<< 30) ^^^ ((Agi1 ^^^ Di0) >>> 2)
  let Ba : BitVec 32 := ((Ago1 ^^^ Do1) <<< 14) ^^^ ((Ago1 ^^^ Do1) >>> 18)
  let Be : BitVec 32 := ((Agu1 ^^^ Du1) <<< 10) ^^^ ((Agu1 ^^^ Du1) >>> 22)
  let Aga1 : BitVec 32 := Ba ^^^ ((~~~Be) &&& Bi)
  let Age1 : BitVec 32 := Be ^^^ ((~~~Bi) &&& Bo)
  let Agi1 : BitVec 32 := Bi ^^^ ((~~~Bo) &&& Bu)
  let Ago1 : BitVec 32 := Bo ^^^ ((~~~Bu) &&& Ba)
  let Agu1 : BitVec 32 := Bu ^^^ ((~~~Ba) &&& Be)
  let Bu : BitVec 32 := ((Aka0 ^^^ Da0) <<< 9) ^^^ ((Aka0 ^^^ Da0) >>> 23)
  let Ba : BitVec 32 := ((Ake0 ^^^ De1) <<< 1) ^^^ ((Ake0 ^^^ De1) >>> 31)
  let Be : BitVec 32 := ((Aki0 ^^^ Di0) <<< 3) ^^^ ((Aki0 ^^^ Di0) >>> 29)
  let Bi : BitVec 32 := ((Ako0 ^^^ Do1) <<< 13) ^^^ ((Ako0 ^^^ Do1) >>> 19)
  let Bo : BitVec 32 := ((Aku0 ^^^ Du0) <<< 4) ^^^ ((Aku0 ^^^ Du0) >>> 28)
  let Aka0 : BitVec 32 := Ba ^^^ ((~~~Be) &&& Bi)
  let Ake0 : BitVec 32 := Be ^^^ ((~~~Bi) &&& Bo)
  let Aki0 : BitVec 32 := Bi ^^^ ((~~~Bo) &&& Bu)
  let Ako0 : BitVec 32 := Bo ^^^ ((~~~Bu) &&& Ba)
  let Aku0 : BitVec 32 := Bu ^^^ ((~~~Ba) &&& Be)
  let Bu : BitVec 32 := ((Aka1 ^^^ Da1) <<< 9) ^^^ ((Aka1 ^^^ Da1) >>> 23)
  let Ba : BitVec 32 := Ake1 ^^^ De0
  let Be : BitVec 32 := ((Aki1 ^^^ Di1) <<< 3) ^^^ ((Aki1 ^^^ Di1) >>> 29)
  let Bi : BitVec 32 := ((Ako1 ^^^ Do0) <<< 12) ^^^ ((Ako1 ^^^ Do0) >>> 20)
  let Bo : BitVec 32 := ((Aku1 ^^^ Du1) <<< 4) ^^^ ((Aku1 ^^^ Du1) >>> 28)
  let Aka1 : BitVec 32 := Ba ^^^ ((~~~Be) &&& Bi)
  let Ake1 : BitVec 32 := Be ^^^ ((~~~Bi) &&& Bo)
  let Aki1 : BitVec 32 := Bi ^^^ ((~~~Bo) &&& Bu)
  let Ako1 : BitVec 32 := Bo ^^^ ((~~~Bu) &&& Ba)
  let Aku1 : BitVec 32 := Bu ^^^ ((~~~Ba) &&& Be)
  let Be : BitVec 32 := ((Ama0 ^^^ Da0) <<< 18) ^^^ ((Ama0 ^^^ Da0) >>> 14)
  let Bi : BitVec 32 := ((Ame0 ^^^ De0) <<< 5) ^^^ ((Ame0 ^^^ De0) >>> 27)
  let Bo : BitVec 32 := ((Ami0 ^^^ Di1) <<< 8) ^^^ ((Ami0 ^^^ Di1) >>> 24)
  let Bu : BitVec 32 := ((Amo0 ^^^ Do0) <<< 28) ^^^ ((Amo0 ^^^ Do0) >>> 4)
  let Ba : BitVec 32 := ((Amu0 ^^^ Du1) <<< 14) ^^^ ((Amu0 ^^^ Du1) >>> 18)
  let Ama0 : BitVec 32 := Ba ^^^ ((~~~Be) &&& Bi)
  let Ame0 : BitVec 32 := Be ^^^ ((~~~Bi) &&& Bo)
  let Ami0 : BitVec 32 := Bi ^^^ ((~~~Bo) &&& Bu)
  let Amo0 : BitVec 32 := Bo ^^^ ((~~~Bu) &&& Ba)
  let Amu0 : BitVec 32 := Bu ^^^ ((~~~Ba) &&& Be)
  let Be : BitVec 32 := ((Ama1 ^^^ Da1) <<< 18) ^^^ ((Ama1 ^^^ Da1) >>> 14)
  let Bi : BitVec 32 := ((Ame1 ^^^ De1) <<< 5) ^^^ ((Ame1 ^^^ De1) >>> 27)
  let Bo : BitVec 32 := ((Ami1 ^^^ Di0) <<< 7) ^^^ ((Ami1 ^^^ Di0) >>> 25)
  let Bu : BitVec 32 := ((Amo1 ^^^ Do1) <<< 28) ^^^ ((Amo1 ^^^ Do1) >>> 4)
  let Ba : BitVec 32 := ((Amu1 ^^^ Du0) <<< 13) ^^^ ((Amu1 ^^^ Du0) >>> 19)
  let Ama1 : BitVec 32 := Ba ^^^ ((~~~Be) &&& Bi)
  let Ame1 : BitVec 32 := Be ^^^ ((~~~Bi) &&& Bo)
  let Ami1 : BitVec 32 := Bi ^^^ ((~~~Bo) &&& Bu)
  let Amo1 : BitVec 32 := Bo ^^^ ((~~~Bu) &&& Ba)
  let Amu1 : BitVec 32 := Bu ^^^ ((~~~Ba) &&& Be)
  let Bo : BitVec 32 := ((Asa0 ^^^ Da1) <<< 21) ^^^ ((Asa0 ^^^ Da1) >>> 11)
  let Bu : BitVec 32 := ((Ase0 ^^^ De0) <<< 1) ^^^ ((Ase0 ^^^ De0) >>> 31)
  let Ba : BitVec 32 := ((Asi0 ^^^ Di0) <<< 31) ^^^ ((Asi0 ^^^ Di0) >>> 1)
  let Be : BitVec 32 := ((Aso0 ^^^ Do1) <<< 28) ^^^ ((Aso0 ^^^ Do1) >>> 4)
  let Bi : BitVec 32 := ((Asu0 ^^^ Du1) <<< 20) ^^^ ((Asu0 ^^^ Du1) >>> 12)
  let Asa0 : BitVec 32 := Ba ^^^ ((~~~Be) &&& Bi)
  let Ase0 : BitVec 32 := Be ^^^ ((~~~Bi) &&& Bo)
  let Asi0 : BitVec 32 := Bi ^^^ ((~~~Bo) &&& Bu)
  let Aso0 : BitVec 32 := Bo ^^^ ((~~~Bu) &&& Ba)
  let Asu0 : BitVec 32 := Bu ^^^ ((~~~Ba) &&& Be)
  let Bo : BitVec 32 := ((Asa1 ^^^ Da0) <<< 20) ^^^ ((Asa1 ^^^ Da0) >>> 12)
  let Bu : BitVec 32 := ((Ase1 ^^^ De1) <<< 1) ^^^ ((Ase1 ^^^ De1) >>> 31)
  let Ba : BitVec 32 := ((Asi1 ^^^ Di1) <<< 31) ^^^ ((Asi1 ^^^ Di1) >>> 1)
  let Be : BitVec 32 := ((Aso1 ^^^ Do0) <<< 27) ^^^ ((Aso1 ^^^ Do0) >>> 5)
  let Bi : BitVec 32 := ((Asu1 ^^^ Du0) <<< 19) ^^^ ((Asu1 ^^^ Du0) >>> 13)
  let Asa1 : BitVec 32 := Ba ^^^ ((~~~Be) &&& Bi)
  let Ase1 : BitVec 32 := Be ^^^ ((~~~Bi) &&& Bo)
  let Asi1 : BitVec 32 := Bi ^^^ ((~~~Bo) &&& Bu)
  let Aso1 : BitVec 32 := Bo ^^^ ((~~~Bu) &&& Ba)
  let Asu1 : BitVec 32 := Bu ^^^ ((~~~Ba) &&& Be)
  pure (⟨Aba0, Aba1, Abe0, Abe1, Abi0, Abi1, Abo0, Abo1, Abu0, Abu1, Aga0, Aga1, Age0, Age1, Agi0, Agi1, Ago0, Ago1, Agu0, Agu1, Aka0, Aka1, Ake0, Ake1, Aki0, Aki1, Ako0, Ako1, Aku0, Aku1, Ama0, Ama1, Ame0, Ame1, Ami0, Ami1, Amo0, Amo1, Amu0, Amu1, Asa0, Asa1, Ase0, Ase1, Asi0, Asi1, Aso0, Aso1, Asu0, Asu1⟩, pRoundConstants)

/-- The macro on the words of the state in memory. -/
def KeccakRound3 (stateAsHalfLanes : CPtr) (pRoundConstants : Nat) : CM Nat := do
  let A ← readHalves stateAsHalfLanes
  let e ← KeccakRound3_words A pRoundConstants
  writeHalves stateAsHalfLanes e.1
  pure e.2

/-- sha3/plain32/KeccakP-1600-inplace32BI.c:115-118 `KeccakP1600_Initialize`. -/
def KeccakP1600_Initialize (state : CPtr) : CM Unit := do
  memset0 state 200
  pure ()

/-- sha3/plain32/KeccakP-1600-inplace32BI.c:122-139 `KeccakP1600_AddByte`. -/
def KeccakP1600_AddByte (state : CPtr) (byte : Byte) (offset : Nat) : CM Unit := do
  let lanePosition : Nat := offset / 8
  let offsetInLane : Nat := offset % 8
  let stateAsHalfLanes : CPtr := state
  let e1 : BitVec 32 × BitVec 32 ← (
    if offsetInLane < 4 then (do
      let e2 ← w32shl (BitVec.setWidth 32 byte) ((offsetInLane * 8) % U32)
      let low : BitVec 32 := e2
      let high : BitVec 32 := (0 : BitVec 32)
      pure (low, high))
    else (do
      let low : BitVec 32 := (0 : BitVec 32)
      let e3 ← w32shl (BitVec.setWidth 32 byte) ((((offsetInLane + U32 - 4) % U32) * 8) % U32)
      let high : BitVec 32 := e3
      pure (low, high)))
  let low : BitVec 32 := e1.1
  let high : BitVec 32 := e1.2
  let temp0 : BitVec 32 := low
  let temp : BitVec 32 := (temp0 ^^^ (temp0 >>> 1)) &&& (572662306 : BitVec 32)
  let temp0 : BitVec 32 := (temp0 ^^^ temp) ^^^ (temp <<< 1)
  let temp : BitVec 32 := (temp0 ^^^ (temp0 >>> 2)) &&& (202116108 : BitVec 32)
  let temp0 : BitVec 32 := (temp0 ^^^ temp) ^^^ (temp <<< 2)
  let temp : BitVec 32 := (temp0 ^^^ (temp0 >>> 4)) &&& (15728880 : BitVec 32)
  let temp0 : BitVec 32 := (temp0 ^^^ temp) ^^^ (temp <<< 4)
  let temp : BitVec 32 := (temp0 ^^^ (temp0 >>> 8)) &&& (65280 : BitVec 32)
  let temp0 : BitVec 32 := (temp0 ^^^ temp) ^^^ (temp <<< 8)
  let temp1 : BitVec 32 := high
  let temp : BitVec 32 := (temp1 ^^^ (temp1 >>> 1)) &&& (572662306 : BitVec 32)
  let temp1 : BitVec 32 := (temp1 ^^^ temp) ^^^ (temp <<< 1)
  let temp : BitVec 32 := (temp1 ^^^ (temp1 >>> 2)) &&& (202116108 : BitVec 32)
  let temp1 : BitVec 32 := (temp1 ^^^ temp) ^^^ (temp <<< 2)
  let temp : BitVec 32 := (temp1 ^^^ (temp1 >>> 4)) &&& (15728880 : BitVec 32)
  let temp1 : BitVec 32 := (temp1 ^^^ temp) ^^^ (temp <<< 4)
  let temp : BitVec 32 := (temp1 ^^^ (temp1 >>> 8)) &&& (65280 : BitVec 32)
  let temp1 : BitVec 32 := (temp1 ^^^ temp) ^^^ (temp <<< 8)
  let e4 : BitVec 32 ← ld32 stateAsHalfLanes (4 * ((((lanePosition * 2) % U32) + 0) % U32))
  st32 stateAsHalfLanes (4 * ((((lanePosition * 2) % U32) + 0) % U32)) (e4 ^^^ ((temp0 &&& (65535 : BitVec 32)) ||| (temp1 <<< 16)))
  let e5 : BitVec 32 ← ld32 stateAsHalfLanes (4 * ((((lanePosition * 2) % U32) + 1) % U32))
  st32 stateAsHalfLanes (4 * ((((lanePosition * 2) % U32) + 1) % U32)) (e5 ^^^ ((temp0 >>> 16) ||| (temp1 &&& (4294901760 : BitVec 32))))
  pure ()

/-- sha3/plain32/KeccakP-1600-inplace32BI.c:143-166 `KeccakP1600_AddBytesInLane`. -/
def KeccakP1600_AddBytesInLane (state : CPtr) (lanePosition : Nat) (data : CPtr) (offset : Nat) (length : Nat) : CM Unit := do
  let laneAsBytes ← alloc .stack (malloc 8 : Mem Byte)
  let stateAsHalfLanes : CPtr := state
  memset0 laneAsBytes 8
  memcpy (α := Byte) (padd laneAsBytes offset) data length
  let e1 : BitVec 32 ← ld32 (padd laneAsBytes 0) 0
  let low : BitVec 32 := e1
  let e2 : BitVec 32 ← ld32 (padd laneAsBytes 4) 0
  let high : BitVec 32 := e2
  let temp0 : BitVec 32 := low
  let temp : BitVec 32 := (temp0 ^^^ (temp0 >>> 1)) &&& (572662306 : BitVec 32)
  let temp0 : BitVec 32 := (temp0 ^^^ temp) ^^^ (temp <<< 1)
  let temp : BitVec 32 := (temp0 ^^^ (temp0 >>> 2)) &&& (202116108 : BitVec 32)
  let temp0 : BitVec 32 := (temp0 ^^^ temp) ^^^ (temp <<< 2)
  let temp : BitVec 32 := (temp0 ^^^ (temp0 >>> 4)) &&& (15728880 : BitVec 32)
  let temp0 : BitVec 32 := (temp0 ^^^ temp) ^^^ (temp <<< 4)
  let temp : BitVec 32 := (temp0 ^^^ (temp0 >>> 8)) &&& (65280 : BitVec 32)
  let temp0 : BitVec 32 := (temp0 ^^^ temp) ^^^ (temp <<< 8)
  let temp1 : BitVec 32 := high
  let temp : BitVec 32 := (temp1 ^^^ (temp1 >>> 1)) &&& (572662306 : BitVec 32)
  let temp1 : BitVec 32 := (temp1 ^^^ temp) ^^^ (temp <<< 1)
  let temp : BitVec 32 := (temp1 ^^^ (temp1 >>> 2)) &&& (202116108 : BitVec 32)
  let temp1 : BitVec 32 := (temp1 ^^^ temp) ^^^ (temp <<< 2)
  let temp : BitVec 32 := (temp1 ^^^ (temp1 >>> 4)) &&& (15728880 : BitVec 32)
  let temp1 : BitVec 32 := (temp1 ^^^ temp) ^^^ (temp <<< 4)
  let temp : BitVec 32 := (temp1 ^^^ (temp1 >>> 8)) &&& (65280 : BitVec 32)
  let temp1 : BitVec 32 := (temp1 ^^^ temp) ^^^ (temp <<< 8)
  let e3 : BitVec 32 ← ld32 stateAsHalfLanes (4 * ((((lanePosition * 2) % U32) + 0) % U32))
  st32 stateAsHalfLanes (4 * ((((lanePosition * 2) % U32) + 0) % U32)) (e3 ^^^ ((temp0 &&& (65535 : BitVec 32)) ||| (temp1 <<< 16)))
  let e4 : BitVec 32 ← ld32 stateAsHalfLanes (4 * ((((lanePosition * 2) % U32) + 1) % U32))
  st32 stateAsHalfLanes (4 * ((((lanePosition * 2) % U32) + 1) % U32)) (e4 ^^^ ((temp0 >>> 16) ||| (temp1 &&& (4294901760 : BitVec 32))))
  cfree .stack laneAsBytes
  pure ()

/-- sha3/plain32/KeccakP-1600-inplace32BI.c:170-206 `KeccakP1600_AddLanes`. -/
def KeccakP1600_AddLanes (state : CPtr) (data : CPtr) (laneCount : Nat) : CM Unit := do
  let pI : CPtr := data
  let pS : CPtr := state
  let i : Nat := (laneCount + U32 - 1) % U32
  let e1 : CPtr × CPtr × Nat ← cwhile
      (fun _s1 =>
        let i : Nat := _s1.2.2
        decide (i < 2147483648))
      (fun _s1 => do
        let pI : CPtr := _s1.1
        let pS : CPtr := _s1.2.1
        let i : Nat := _s1.2.2
        let e2 : BitVec 32 ← ld32 pI 0
        let x0 : BitVec 32 := e2
        let pI : CPtr := padd pI 4
        let t : BitVec 32 := (x0 ^^^ (x0 >>> 1)) &&& (572662306 : BitVec 32)
        let x0 : BitVec 32 := (x0 ^^^ t) ^^^ (t <<< 1)
        let t : BitVec 32 := (x0 ^^^ (x0 >>> 2)) &&& (202116108 : BitVec 32)
        let x0 : BitVec 32 := (x0 ^^^ t) ^^^ (t <<< 2)
        let t : BitVec 32 := (x0 ^^^ (x0 >>> 4)) &&& (15728880 : BitVec 32)
        let x0 : BitVec 32 := (x0 ^^^ t) ^^^ (t <<< 4)
        let t : BitVec 32 := (x0 ^^^ (x0 >>> 8)) &&& (65280 : BitVec 32)
        let x0 : BitVec 32 := (x0 ^^^ t) ^^^ (t <<< 8)
        let e3 : BitVec 32 ← ld32 pI 0
        let x1 : BitVec 32 := e3
        let pI : CPtr := padd pI 4
        let t : BitVec 32 := (x1 ^^^ (x1 >>> 1)) &&& (572662306 : BitVec 32)
        let x1 : BitVec 32 := (x1 ^^^ t) ^^^ (t <<< 1)
        let t : BitVec 32 := (x1 ^^^ (x1 >>> 2)) &&& (202116108 : BitVec 32)
        let x1 : BitVec 32 := (x1 ^^^ t) ^^^ (t <<< 2)
        let t : BitVec 32 := (x1 ^^^ (x1 >>> 4)) &&& (15728880 : BitVec 32)
        let x1 : BitVec 32 := (x1 ^^^ t) ^^^ (t <<< 4)
        let t : BitVec 32 := (x1 ^^^ (x1 >>> 8)) &&& (65280 : BitVec 32)
        let x1 : BitVec 32 := (x1 ^^^ t) ^^^ (t <<< 8)
        let e4 : BitVec 32 ← ld32 pS 0
        st32 pS 0 (e4 ^^^ ((x0 &&& (65535 : BitVec 32)) ||| (x1 <<< 16)))
        let pS : CPtr := padd pS 4
        let e5 : BitVec 32 ← ld32 pS 0
        st32 pS 0 (e5 ^^^ ((x0 >>> 16) ||| (x1 &&& (4294901760 : BitVec 32))))
        let pS : CPtr := padd pS 4
        let e6 ← idec i
        let i : Nat := e6
        pure (pI, pS, i))
      (pI, pS, i)
  let pI : CPtr := e1.1
  let pS : CPtr := e1.2.1
  let i : Nat := e1.2.2
  pure ()

/-- sha3/plain32/KeccakP-1600-inplace32BI.c:210-213 `KeccakP1600_AddBytes`. -/
def KeccakP1600_AddBytes (state : CPtr) (data : CPtr) (offset : Nat) (length : Nat) : CM Unit := do
  let e1 : Unit ← (
    if offset = 0 then (do
      KeccakP1600_AddLanes state data (length / 8)
      KeccakP1600_AddBytesInLane state (length / 8) (padd data (((length / 8) * 8) % U32)) 0 (length % 8)
      pure ())
    else (do
      let _sizeLeft : Nat := length
      let _lanePosition : Nat := offset / 8
      let _offsetInLane : Nat := offset % 8
      let _curData : CPtr := data
      let e2 : Nat × Nat × Nat × CPtr ← cwhile
          (fun _s1 =>
            let _sizeLeft : Nat := _s1.1
            decide (_sizeLeft > 0))
          (fun _s1 => do
            let _sizeLeft : Nat := _s1.1
            let _lanePosition : Nat := _s1.2.1
            let _offsetInLane : Nat := _s1.2.2.1
            let _curData : CPtr := _s1.2.2.2
            let _bytesInLane : Nat := (8 + U32 - _offsetInLane) % U32
            let e3 : Nat ← (
              if _bytesInLane > _sizeLeft then (do
                let _bytesInLane : Nat := _sizeLeft
                pure _bytesInLane)
              else (do
                pure _bytesInLane))
            let _bytesInLane : Nat := e3
            KeccakP1600_AddBytesInLane state _lanePosition _curData _offsetInLane _bytesInLane
            let _sizeLeft : Nat := (_sizeLeft + U32 - _bytesInLane) % U32
            let _lanePosition : Nat := (_lanePosition + 1) % U32
            let _offsetInLane : Nat := 0
            let _curData : CPtr := padd _curData _bytesInLane
            pure (_sizeLeft, _lanePosition, _offsetInLane, _curData))
          (_sizeLeft, _lanePosition, _offsetInLane, _curData)
      let _sizeLeft : Nat := e2.1
      let _lanePosition : Nat := e2.2.1
      let _offsetInLane : Nat := e2.2.2.1
      let _curData : CPtr := e2.2.2.2
      pure ()))
  pure ()

/-- sha3/plain32/KeccakP-1600-inplace32BI.c:287-308 `KeccakP1600_ExtractBytesInLane`. -/
def KeccakP1600_ExtractBytesInLane (state : CPtr) (lanePosition : Nat) (data : CPtr) (offset : Nat)
    (length : Nat) : CM Unit := do
  let stateAsHalfLanes : CPtr := state
  let laneAsBytes ← alloc .stack (malloc 8 : Mem Byte)
  let e1 : BitVec 32 ← ld32 stateAsHalfLanes (4 * ((lanePosition * 2) % U32))
  let temp0 : BitVec 32 := e1
  let e2 : BitVec 32 ← ld32 stateAsHalfLanes (4 * ((((lanePosition * 2) % U32) + 1) % U32))
  let temp1 : BitVec 32 := e2
  let temp : BitVec 32 := (temp0 &&& (65535 : BitVec 32)) ||| (temp1 <<< 16)
  let temp1 : BitVec 32 := (temp0 >>> 16) ||| (temp1 &&& (4294901760 : BitVec 32))
  let temp0 : BitVec 32 := temp
  let temp : BitVec 32 := (temp0 ^^^ (temp0 >>> 8)) &&& (65280 : BitVec 32)
  let temp0 : BitVec 32 := (temp0 ^^^ temp) ^^^ (temp <<< 8)
  let temp : BitVec 32 := (temp0 ^^^ (temp0 >>> 4)) &&& (15728880 : BitVec 32)
  let temp0 : BitVec 32 := (temp0 ^^^ temp) ^^^ (temp <<< 4)
  let temp : BitVec 32 := (temp0 ^^^ (temp0 >>> 2)) &&& (202116108 : BitVec 32)
  let temp0 : BitVec 32 := (temp0 ^^^ temp) ^^^ (temp <<< 2)
  let temp : BitVec 32 := (temp0 ^^^ (temp0 >>> 1)) &&& (572662306 : BitVec 32)
  let temp0 : BitVec 32 := (temp0 ^^^ temp) ^^^ (temp <<< 1)
  let temp : BitVec 32 := (temp1 ^^^ (temp1 >>> 8)) &&& (65280 : BitVec 32)
  let temp1 : BitVec 32 := (temp1 ^^^ temp) ^^^ (temp <<< 8)
  let temp : BitVec 32 := (temp1 ^^^ (temp1 >>> 4)) &&& (15728880 : BitVec 32)
  let temp1 : BitVec 32 := (temp1 ^^^ temp) ^^^ (temp <<< 4)
  let temp : BitVec 32 := (temp1 ^^^ (temp1 >>> 2)) &&& (202116108 : BitVec 32)
  let temp1 : BitVec 32 := (temp1 ^^^ temp) ^^^ (temp <<< 2)
  let temp : BitVec 32 := (temp1 ^^^ (temp1 >>> 1)) &&& (572662306 : BitVec 32)
  let temp1 : BitVec 32 := (temp1 ^^^ temp) ^^^ (temp <<< 1)
  let low : BitVec 32 := temp0
  let high : BitVec 32 := temp1
  st32 (padd laneAsBytes 0) 0 low
  st32 (padd laneAsBytes 4) 0 high
  memcpy (α := Byte) data (padd laneAsBytes offset) length
  cfree .stack laneAsBytes
  pure ()

/-- sha3/plain32/KeccakP-1600-inplace32BI.c:312-348 `KeccakP1600_ExtractLanes`. -/
def KeccakP1600_ExtractLanes (state : CPtr) (data : CPtr) (laneCount : Nat) : CM Unit := do
  let pI : CPtr := data
  let pS : CPtr := state
  let i : Nat := (laneCount + U32 - 1) % U32
  let e1 : CPtr × CPtr × Nat ← cwhile
      (fun _s1 =>
        let i : Nat := _s1.2.2
        decide (i < 2147483648))
      (fun _s1 => do
        let pI : CPtr := _s1.1
        let pS : CPtr := _s1.2.1
        let i : Nat := _s1.2.2
        let e2 : BitVec 32 ← ld32 pS 0
        let x0 : BitVec 32 := e2
        let pS : CPtr := padd pS 4
        let e3 : BitVec 32 ← ld32 pS 0
        let x1 : BitVec 32 := e3
        let pS : CPtr := padd pS 4
        let t : BitVec 32 := (x0 &&& (65535 : BitVec 32)) ||| (x1 <<< 16)
        let x1 : BitVec 32 := (x0 >>> 16) ||| (x1 &&& (4294901760 : BitVec 32))
        let x0 : BitVec 32 := t
        let t : BitVec 32 := (x0 ^^^ (x0 >>> 8)) &&& (65280 : BitVec 32)
        let x0 : BitVec 32 := (x0 ^^^ t) ^^^ (t <<< 8)
        let t : BitVec 32 := (x0 ^^^ (x0 >>> 4)) &&& (15728880 : BitVec 32)
        let x0 : BitVec 32 := (x0 ^^^ t) ^^^ (t <<< 4)
        let t : BitVec 32 := (x0 ^^^ (x0 >>> 2)) &&& (202116108 : BitVec 32)
        let x0 : BitVec 32 := (x0 ^^^ t) ^^^ (t <<< 2)
        let t : BitVec 32 := (x0 ^^^ (x0 >>> 1)) &&& (572662306 : BitVec 32)
        let x0 : BitVec 32 := (x0 ^^^ t) ^^^ (t <<< 1)
        let t : BitVec 32 := (x1 ^^^ (x1 >>> 8)) &&& (65280 : BitVec 32)
        let x1 : BitVec 32 := (x1 ^^^ t) ^^^ (t <<< 8)
        let t : BitVec 32 := (x1 ^^^ (x1 >>> 4)) &&& (15728880 : BitVec 32)
        let x1 : BitVec 32 := (x1 ^^^ t) ^^^ (t <<< 4)
        let t : BitVec 32 := (x1 ^^^ (x1 >>> 2)) &&& (202116108 : BitVec 32)
        let x1 : BitVec 32 := (x1 ^^^ t) ^^^ (t <<< 2)
        let t : BitVec 32 := (x1 ^^^ (x1 >>> 1)) &&& (572662306 : BitVec 32)
        let x1 : BitVec 32 := (x1 ^^^ t) ^^^ (t <<< 1)
        st32 pI 0 x0
        let pI : CPtr := padd pI 4
        st32 pI 0 x1
        let pI : CPtr := padd pI 4
        let e4 ← idec i
        let i : Nat := e4
        pure (pI, pS, i))
      (pI, pS, i)
  let pI : CPtr := e1.1
  let pS : CPtr := e1.2.1
  let i : Nat := e1.2.2
  pure ()

/-- sha3/plain32/KeccakP-1600-inplace32BI.c:352-355 `KeccakP1600_ExtractBytes`. -/
def KeccakP1600_ExtractBytes (state : CPtr) (data : CPtr) (offset : Nat) (length : Nat) : CM Unit := do
  let e1 : Unit ← (
    if offset = 0 then (do
      KeccakP1600_ExtractLanes state data (length / 8)
      KeccakP1600_ExtractBytesInLane state (length / 8) (padd data (((length / 8) * 8) % U32)) 0 (length % 8)
      pure ())
    else (do
      let _sizeLeft : Nat := length
      let _lanePosition : Nat := offset / 8
      let _offsetInLane : Nat := offset % 8
      let _curData : CPtr := data
      let e2 : Nat × Nat × Nat × CPtr ← cwhile
          (fun _s1 =>
            let _sizeLeft : Nat := _s1.1
            decide (_sizeLeft > 0))
          (fun _s1 => do
            let _sizeLeft : Nat := _s1.1
            let _lanePosition : Nat := _s1.2.1
            let _offsetInLane : Nat := _s1.2.2.1
            let _curData : CPtr := _s1.2.2.2
            let _bytesInLane : Nat := (8 + U32 - _offsetInLane) % U32
            let e3 : Nat ← (
              if _bytesInLane > _sizeLeft then (do
                let _bytesInLane : Nat := _sizeLeft
                pure _bytesInLane)
              else (do
                pure _bytesInLane))
            let _bytesInLane : Nat := e3
            KeccakP1600_ExtractBytesInLane state _lanePosition _curData _offsetInLane _bytesInLane
            let _sizeLeft : Nat := (_sizeLeft + U32 - _bytesInLane) % U32
            let _lanePosition : Nat := (_lanePosition + 1) % U32
            let _offsetInLane : Nat := 0
            let _curData : CPtr := padd _curData _bytesInLane
            pure (_sizeLeft, _lanePosition, _offsetInLane, _curData))
          (_sizeLeft, _lanePosition, _offsetInLane, _curData)
      let _sizeLeft : Nat := e2.1
      let _lanePosition : Nat := e2.2.1
      let _offsetInLane : Nat := e2.2.2.1
      let _curData : CPtr := e2.2.2.2
      pure ()))
  pure ()

/-- sha3/plain32/KeccakP-1600-inplace32BI.c:963-1149 `KeccakP1600_Permute_Nrounds`. -/
def KeccakP1600_Permute_Nrounds (state : CPtr) (nRounds : Nat) : CM Unit := do
  let pRoundConstants : Nat := (((24 + U32 - nRounds) % U32) * 2) % U32
  let stateAsHalfLanes : CPtr := state
  let nRounds : Nat := nRounds &&& 3
  let e1 : Unit ← (
    if nRounds = 1 then (do
      let e2 : BitVec 32 ← ld32 (padd stateAsHalfLanes 40) 0
      let Ba : BitVec 32 := e2
      let e3 : BitVec 32 ← ld32 (padd stateAsHalfLanes 40) 4
      let Be : BitVec 32 := e3
      let e4 : BitVec 32 ← ld32 (padd stateAsHalfLanes 80) 0
      let Bi : BitVec 32 := e4
      let e5 : BitVec 32 ← ld32 (padd stateAsHalfLanes 80) 4
      let Bo : BitVec 32 := e5
      st32 (padd stateAsHalfLanes 40) 4 Bi
      st32 (padd stateAsHalfLanes 40) 0 Bo
      let e6 : BitVec 32 ← ld32 (padd stateAsHalfLanes 160) 0
      let Bi : BitVec 32 := e6
      let e7 : BitVec 32 ← ld32 (padd stateAsHalfLanes 160) 4
      let Bo : BitVec 32 := e7
      st32 (padd stateAsHalfLanes 80) 0 Bi
      st32 (padd stateAsHalfLanes 80) 4 Bo
      let e8 : BitVec 32 ← ld32 (padd stateAsHalfLanes 120) 0
      let Bi : BitVec 32 := e8
      let e9 : BitVec 32 ← ld32 (padd stateAsHalfLanes 120) 4
      let Bo : BitVec 32 := e9
      st32 (padd stateAsHalfLanes 160) 4 Bi
      st32 (padd stateAsHalfLanes 160) 0 Bo
      st32 (padd stateAsHalfLanes 120) 0 Ba
      st32 (padd stateAsHalfLanes 120) 4 Be
      let e10 : BitVec 32 ← ld32 (padd stateAsHalfLanes 8) 0
      let Ba : BitVec 32 := e10
      let e11 : BitVec 32 ← ld32 (padd stateAsHalfLanes 8) 4
      let Be : BitVec 32 := e11
      let e12 : BitVec 32 ← ld32 (padd stateAsHalfLanes 48) 0
      let Bi : BitVec 32 := e12
      let e13 : BitVec 32 ← ld32 (padd stateAsHalfLanes 48) 4
      let Bo : BitVec 32 := e13
      st32 (padd stateAsHalfLanes 8) 0 Bi
      st32 (padd stateAsHalfLanes 8) 4 Bo
      let e14 : BitVec 32 ← ld32 (padd stateAsHalfLanes 128) 0
      let Bi : BitVec 32 := e14
      let e15 : BitVec 32 ← ld32 (padd stateAsHalfLanes 128) 4
      let Bo : BitVec 32 := e15
      st32 (padd stateAsHalfLanes 48) 4 Bi
      st32 (padd stateAsHalfLanes 48) 0 Bo
      let e16 : BitVec 32 ← ld32 (padd stateAsHalfLanes 88) 0
      let Bi : BitVec 32 := e16
      let e17 : BitVec 32 ← ld32 (padd stateAsHalfLanes 88) 4
      let Bo : BitVec 32 := e17
      st32 (padd stateAsHalfLanes 128) 0 Bi
      st32 (padd stateAsHalfLanes 128) 4 Bo
      st32 (padd stateAsHalfLanes 88) 4 Ba
      st32 (padd stateAsHalfLanes 88) 0 Be
      let e18 : BitVec 32 ← ld32 (padd stateAsHalfLanes 16) 0
      let Ba : BitVec 32 := e18
      let e19 : BitVec 32 ← ld32 (padd stateAsHalfLanes 16) 4
      let Be : BitVec 32 := e19
      let e20 : BitVec 32 ← ld32 (padd stateAsHalfLanes 96) 0
      let Bi : BitVec 32 := e20
      let e21 : BitVec 32 ← ld32 (padd stateAsHalfLanes 96) 4
      let Bo : BitVec 32 := e21
      st32 (padd stateAsHalfLanes 16) 4 Bi
      st32 (padd stateAsHalfLanes 16) 0 Bo
      let e22 : BitVec 32 ← ld32 (padd stateAsHalfLanes 56) 0
      let Bi : BitVec 32 := e22
      let e23 : BitVec 32 ← ld32 (padd stateAsHalfLanes 56) 4
      let Bo : BitVec 32 := e23
      st32 (padd stateAsHalfLanes 96) 0 Bi
      st32 (padd stateAsHalfLanes 96) 4 Bo
      let e24 : BitVec 32 ← ld32 (padd stateAsHalfLanes 176) 0
      let Bi : BitVec 32 := e24
      let e25 : BitVec 32 ← ld32 (padd stateAsHalfLanes 176) 4
      let Bo : BitVec 32 := e25
      st32 (padd stateAsHalfLanes 56) 4 Bi
      st32 (padd stateAsHalfLanes 56) 0 Bo
      st32 (padd stateAsHalfLanes 176) 0 Ba
      st32 (padd stateAsHalfLanes 176) 4 Be
      let e26 : BitVec 32 ← ld32 stateAsHalfLanes 136
      let Bi : BitVec 32 := e26
      let e27 : BitVec 32 ← ld32 stateAsHalfLanes 140
      st32 stateAsHalfLanes 136 e27
      st32 stateAsHalfLanes 140 Bi
      let e28 : BitVec 32 ← ld32 (padd stateAsHalfLanes 24) 0
      let Ba : BitVec 32 := e28
      let e29 : BitVec 32 ← ld32 (padd stateAsHalfLanes 24) 4
      let Be : BitVec 32 := e29
      let e30 : BitVec 32 ← ld32 (padd stateAsHalfLanes 144) 0
      let Bi : BitVec 32 := e30
      let e31 : BitVec 32 ← ld32 (padd stateAsHalfLanes 144) 4
      let Bo : BitVec 32 := e31
      st32 (padd stateAsHalfLanes 24) 4 Bi
      st32 (padd stateAsHalfLanes 24) 0 Bo
      let e32 : BitVec 32 ← ld32 (padd stateAsHalfLanes 184) 0
      let Bi : BitVec 32 := e32
      let e33 : BitVec 32 ← ld32 (padd stateAsHalfLanes 184) 4
      let Bo : BitVec 32 := e33
      st32 (padd stateAsHalfLanes 144) 0 Bi
      st32 (padd stateAsHalfLanes 144) 4 Bo
      let e34 : BitVec 32 ← ld32 (padd stateAsHalfLanes 64) 0
      let Bi : BitVec 32 := e34
      let e35 : BitVec 32 ← ld32 (padd stateAsHalfLanes 64) 4
      let Bo : BitVec 32 := e35
      st32 (padd stateAsHalfLanes 184) 4 Bi
      st32 (padd stateAsHalfLanes 184) 0 Bo
      st32 (padd stateAsHalfLanes 64) 0 Ba
      st32 (padd stateAsHalfLanes 64) 4 Be
      let e36 : BitVec 32 ← ld32 stateAsHalfLanes 104
      let Bi : BitVec 32 := e36
      let e37 : BitVec 32 ← ld32 stateAsHalfLanes 108
      st32 stateAsHalfLanes 104 e37
      st32 stateAsHalfLanes 108 Bi
      let e38 : BitVec 32 ← ld32 (padd stateAsHalfLanes 32) 0
      let Ba : BitVec 32 := e38
      let e39 : BitVec 32 ← ld32 (padd stateAsHalfLanes 32) 4
      let Be : BitVec 32 := e39
      let e40 : BitVec 32 ← ld32 (padd stateAsHalfLanes 192) 0
      let Bi : BitVec 32 := e40
      let e41 : BitVec 32 ← ld32 (padd stateAsHalfLanes 192) 4
      let Bo : BitVec 32 := e41
      st32 (padd stateAsHalfLanes 32) 0 Bi
      st32 (padd stateAsHalfLanes 32) 4 Bo
      let e42 : BitVec 32 ← ld32 (padd stateAsHalfLanes 112) 0
      let Bi : BitVec 32 := e42
      let e43 : BitVec 32 ← ld32 (padd stateAsHalfLanes 112) 4
      let Bo : BitVec 32 := e43
      st32 (padd stateAsHalfLanes 192) 4 Bi
      st32 (padd stateAsHalfLanes 192) 0 Bo
      let e44 : BitVec 32 ← ld32 (padd stateAsHalfLanes 152) 0
      let Bi : BitVec 32 := e44
      let e45 : BitVec 32 ← ld32 (padd stateAsHalfLanes 152) 4
      let Bo : BitVec 32 := e45
      st32 (padd stateAsHalfLanes 112) 0 Bi
      st32 (padd stateAsHalfLanes 112) 4 Bo
      st32 (padd stateAsHalfLanes 152) 4 Ba
      st32 (padd stateAsHalfLanes 152) 0 Be
      pure ())
    else (if nRounds = 2 then (do
      let e46 : BitVec 32 ← ld32 (padd stateAsHalfLanes 40) 0
      let Ba : BitVec 32 := e46
      let e47 : BitVec 32 ← ld32 (padd stateAsHalfLanes 40) 4
      let Be : BitVec 32 := e47
      let e48 : BitVec 32 ← ld32 (padd stateAsHalfLanes 160) 0
      let Bi : BitVec 32 := e48
      let e49 : BitVec 32 ← ld32 (padd stateAsHalfLanes 160) 4
      let Bo : BitVec 32 := e49
      st32 (padd stateAsHalfLanes 40) 4 Bi
      st32 (padd stateAsHalfLanes 40) 0 Bo
      st32 (padd stateAsHalfLanes 160) 4 Ba
      st32 (padd stateAsHalfLanes 160) 0 Be
      let e50 : BitVec 32 ← ld32 (padd stateAsHalfLanes 80) 0
      let Ba : BitVec 32 := e50
      let e51 : BitVec 32 ← ld32 (padd stateAsHalfLanes 80) 4
      let Be : BitVec 32 := e51
      let e52 : BitVec 32 ← ld32 (padd stateAsHalfLanes 120) 0
      let Bi : BitVec 32 := e52
      let e53 : BitVec 32 ← ld32 (padd stateAsHalfLanes 120) 4
      let Bo : BitVec 32 := e53
      st32 (padd stateAsHalfLanes 80) 4 Bi
      st32 (padd stateAsHalfLanes 80) 0 Bo
      st32 (padd stateAsHalfLanes 120) 4 Ba
      st32 (padd stateAsHalfLanes 120) 0 Be
      let e54 : BitVec 32 ← ld32 (padd stateAsHalfLanes 8) 0
      let Ba : BitVec 32 := e54
      let e55 : BitVec 32 ← ld32 (padd stateAsHalfLanes 8) 4
      let Be : BitVec 32 := e55
      let e56 : BitVec 32 ← ld32 (padd stateAsHalfLanes 128) 0
      let Bi : BitVec 32 := e56
      let e57 : BitVec 32 ← ld32 (padd stateAsHalfLanes 128) 4
      let Bo : BitVec 32 := e57
      st32 (padd stateAsHalfLanes 8) 4 Bi
      st32 (padd stateAsHalfLanes 8) 0 Bo
      st32 (padd stateAsHalfLanes 128) 4 Ba
      st32 (padd stateAsHalfLanes 128) 0 Be
      let e58 : BitVec 32 ← ld32 (padd stateAsHalfLanes 48) 0
      let Ba : BitVec 32 := e58
      let e59 : BitVec 32 ← ld32 (padd stateAsHalfLanes 48) 4
      let Be : BitVec 32 := e59
      let e60 : BitVec 32 ← ld32 (padd stateAsHalfLanes 88) 0
      let Bi : BitVec 32 := e60
      let e61 : BitVec 32 ← ld32 (padd stateAsHalfLanes 88) 4
      let Bo : BitVec 32 := e61
      st32 (padd stateAsHalfLanes 48) 4 Bi
      st32 (padd stateAsHalfLanes 48) 0 Bo
      st32 (padd stateAsHalfLanes 88) 4 Ba
      st32 (padd stateAsHalfLanes 88) 0 Be
      let e62 : BitVec 32 ← ld32 (padd stateAsHalfLanes 16) 0
      let Ba : BitVec 32 := e62
      let e63 : BitVec 32 ← ld32 (padd stateAsHalfLanes 16) 4
      let Be : BitVec 32 := e63
      let e64 : BitVec 32 ← ld32 (padd stateAsHalfLanes 56) 0
      let Bi : BitVec 32 := e64
      let e65 : BitVec 32 ← ld32 (padd stateAsHalfLanes 56) 4
      let Bo : BitVec 32 := e65
      st32 (padd stateAsHalfLanes 16) 4 Bi
      st32 (padd stateAsHalfLanes 16) 0 Bo
      st32 (padd stateAsHalfLanes 56) 4 Ba
      st32 (padd stateAsHalfLanes 56) 0 Be
      let e66 : BitVec 32 ← ld32 (padd stateAsHalfLanes 96) 0
      let Ba : BitVec 32 := e66
      let e67 : BitVec 32 ← ld32 (padd stateAsHalfLanes 96) 4
      let Be : BitVec 32 := e67
      let e68 : BitVec 32 ← ld32 (padd stateAsHalfLanes 176) 0
      let Bi : BitVec 32 := e68
      let e69 : BitVec 32 ← ld32 (padd stateAsHalfLanes 176) 4
      let Bo : BitVec 32 := e69
      st32 (padd stateAsHalfLanes 96) 4 Bi
      st32 (padd stateAsHalfLanes 96) 0 Bo
      st32 (padd stateAsHalfLanes 176) 4 Ba
      st32 (padd stateAsHalfLanes 176) 0 Be
      let e70 : BitVec 32 ← ld32 (padd stateAsHalfLanes 24) 0
      let Ba : BitVec 32 := e70
      let e71 : BitVec 32 ← ld32 (padd stateAsHalfLanes 24) 4
      let Be : BitVec 32 := e71
      let e72 : BitVec 32 ← ld32 (padd stateAsHalfLanes 184) 0
      let Bi : BitVec 32 := e72
      let e73 : BitVec 32 ← ld32 (padd stateAsHalfLanes 184) 4
      let Bo : BitVec 32 := e73
      st32 (padd stateAsHalfLanes 24) 4 Bi
      st32 (padd stateAsHalfLanes 24) 0 Bo
      st32 (padd stateAsHalfLanes 184) 4 Ba
      st32 (padd stateAsHalfLanes 184) 0 Be
      let e74 : BitVec 32 ← ld32 (padd stateAsHalfLanes 64) 0
      let Ba : BitVec 32 := e74
      let e75 : BitVec 32 ← ld32 (padd stateAsHalfLanes 64) 4
      let Be : BitVec 32 := e75
      let e76 : BitVec 32 ← ld32 (padd stateAsHalfLanes 144) 0
      let Bi : BitVec 32 := e76
      let e77 : BitVec 32 ← ld32 (padd stateAsHalfLanes 144) 4
      let Bo : BitVec 32 := e77
      st32 (padd stateAsHalfLanes 64) 4 Bi
      st32 (padd stateAsHalfLanes 64) 0 Bo
      st32 (padd stateAsHalfLanes 144) 4 Ba
      st32 (padd stateAsHalfLanes 144) 0 Be
      let e78 : BitVec 32 ← ld32 (padd stateAsHalfLanes 32) 0
      let Ba : BitVec 32 := e78
      let e79 : BitVec 32 ← ld32 (padd stateAsHalfLanes 32) 4
      let Be : BitVec 32 := e79
      let e80 : BitVec 32 ← ld32 (padd stateAsHalfLanes 112) 0
      let Bi : BitVec 32 := e80
      let e81 : BitVec 32 ← ld32 (padd stateAsHalfLanes 112) 4
      let Bo : BitVec 32 := e81
      st32 (padd stateAsHalfLanes 32) 4 Bi
      st32 (padd stateAsHalfLanes 32) 0 Bo
      st32 (padd stateAsHalfLanes 112) 4 Ba
      st32 (padd stateAsHalfLanes 112) 0 Be
      let e82 : BitVec 32 ← ld32 (padd stateAsHalfLanes 152) 0
      let Ba : BitVec 32 := e82
      let e83 : BitVec 32 ← ld32 (padd stateAsHalfLanes 152) 4
      let Be : BitVec 32 := e83
      let e84 : BitVec 32 ← ld32 (padd stateAsHalfLanes 192) 0
      let Bi : BitVec 32 := e84
      let e85 : BitVec 32 ← ld32 (padd stateAsHalfLanes 192) 4
      let Bo : BitVec 32 := e85
      st32 (padd stateAsHalfLanes 152) 4 Bi
      st32 (padd stateAsHalfLanes 152) 0 Bo
      st32 (padd stateAsHalfLanes 192) 4 Ba
      st32 (padd stateAsHalfLanes 192) 0 Be
      pure ())
    else (if nRounds = 3 then (do
      let e86 : BitVec 32 ← ld32 (padd stateAsHalfLanes 40) 0
      let Ba : BitVec 32 := e86
      let e87 : BitVec 32 ← ld32 (padd stateAsHalfLanes 40) 4
      let Be : BitVec 32 := e87
      let e88 : BitVec 32 ← ld32 (padd stateAsHalfLanes 120) 0
      let Bi : BitVec 32 := e88
      let e89 : BitVec 32 ← ld32 (padd stateAsHalfLanes 120) 4
      let Bo : BitVec 32 := e89
      st32 (padd stateAsHalfLanes 40) 0 Bi
      st32 (padd stateAsHalfLanes 40) 4 Bo
      let e90 : BitVec 32 ← ld32 (padd stateAsHalfLanes 160) 0
      let Bi : BitVec 32 := e90
      let e91 : BitVec 32 ← ld32 (padd stateAsHalfLanes 160) 4
      let Bo : BitVec 32 := e91
      st32 (padd stateAsHalfLanes 120) 4 Bi
      st32 (padd stateAsHalfLanes 120) 0 Bo
      let e92 : BitVec 32 ← ld32 (padd stateAsHalfLanes 80) 0
      let Bi : BitVec 32 := e92
      let e93 : BitVec 32 ← ld32 (padd stateAsHalfLanes 80) 4
      let Bo : BitVec 32 := e93
      st32 (padd stateAsHalfLanes 160) 0 Bi
      st32 (padd stateAsHalfLanes 160) 4 Bo
      st32 (padd stateAsHalfLanes 80) 4 Ba
      st32 (padd stateAsHalfLanes 80) 0 Be
      let e94 : BitVec 32 ← ld32 (padd stateAsHalfLanes 8) 0
      let Ba : BitVec 32 := e94
      let e95 : BitVec 32 ← ld32 (padd stateAsHalfLanes 8) 4
      let Be : BitVec 32 := e95
      let e96 : BitVec 32 ← ld32 (padd stateAsHalfLanes 88) 0
      let Bi : BitVec 32 := e96
      let e97 : BitVec 32 ← ld32 (padd stateAsHalfLanes 88) 4
      let Bo : BitVec 32 := e97
      st32 (padd stateAsHalfLanes 8) 4 Bi
      st32 (padd stateAsHalfLanes 8) 0 Bo
      let e98 : BitVec 32 ← ld32 (padd stateAsHalfLanes 128) 0
      let Bi : BitVec 32 := e98
      let e99 : BitVec 32 ← ld32 (padd stateAsHalfLanes 128) 4
      let Bo : BitVec 32 := e99
      st32 (padd stateAsHalfLanes 88) 0 Bi
      st32 (padd stateAsHalfLanes 88) 4 Bo
      let e100 : BitVec 32 ← ld32 (padd stateAsHalfLanes 48) 0
      let Bi : BitVec 32 := e100
      let e101 : BitVec 32 ← ld32 (padd stateAsHalfLanes 48) 4
      let Bo : BitVec 32 := e101
      st32 (padd stateAsHalfLanes 128) 4 Bi
      st32 (padd stateAsHalfLanes 128) 0 Bo
      st32 (padd stateAsHalfLanes 48) 0 Ba
      st32 (padd stateAsHalfLanes 48) 4 Be
      let e102 : BitVec 32 ← ld32 (padd stateAsHalfLanes 16) 0
      let Ba : BitVec 32 := e102
      let e103 : BitVec 32 ← ld32 (padd stateAsHalfLanes 16) 4
      let Be : BitVec 32 := e103
      let e104 : BitVec 32 ← ld32 (padd stateAsHalfLanes 176) 0
      let Bi : BitVec 32 := e104
      let e105 : BitVec 32 ← ld32 (padd stateAsHalfLanes 176) 4
      let Bo : BitVec 32 := e105
      st32 (padd stateAsHalfLanes 16) 0 Bi
      st32 (padd stateAsHalfLanes 16) 4 Bo
      let e106 : BitVec 32 ← ld32 (padd stateAsHalfLanes 56) 0
      let Bi : BitVec 32 := e106
      let e107 : BitVec 32 ← ld32 (padd stateAsHalfLanes 56) 4
      let Bo : BitVec 32 := e107
      st32 (padd stateAsHalfLanes 176) 4 Bi
      st32 (padd stateAsHalfLanes 176) 0 Bo
      let e108 : BitVec 32 ← ld32 (padd stateAsHalfLanes 96) 0
      let Bi : BitVec 32 := e108
      let e109 : BitVec 32 ← ld32 (padd stateAsHalfLanes 96) 4
      let Bo : BitVec 32 := e109
      st32 (padd stateAsHalfLanes 56) 0 Bi
      st32 (padd stateAsHalfLanes 56) 4 Bo
      st32 (padd stateAsHalfLanes 96) 4 Ba
      st32 (padd stateAsHalfLanes 96) 0 Be
      let e110 : BitVec 32 ← ld32 stateAsHalfLanes 136
      let Bi : BitVec 32 := e110
      let e111 : BitVec 32 ← ld32 stateAsHalfLanes 140
      st32 stateAsHalfLanes 136 e111
      st32 stateAsHalfLanes 140 Bi
      let e112 : BitVec 32 ← ld32 (padd stateAsHalfLanes 24) 0
      let Ba : BitVec 32 := e112
      let e113 : BitVec 32 ← ld32 (padd stateAsHalfLanes 24) 4
      let Be : BitVec 32 := e113
      let e114 : BitVec 32 ← ld32 (padd stateAsHalfLanes 64) 0
      let Bi : BitVec 32 := e114
      let e115 : BitVec 32 ← ld32 (padd stateAsHalfLanes 64) 4
      let Bo : BitVec 32 := e115
      st32 (padd stateAsHalfLanes 24) 0 Bi
      st32 (padd stateAsHalfLanes 24) 4 Bo
      let e116 : BitVec 32 ← ld32 (padd stateAsHalfLanes 184) 0
      let Bi : BitVec 32 := e116
      let e117 : BitVec 32 ← ld32 (padd stateAsHalfLanes 184) 4
      let Bo : BitVec 32 := e117
      st32 (padd stateAsHalfLanes 64) 4 Bi
      st32 (padd stateAsHalfLanes 64) 0 Bo
      let e118 : BitVec 32 ← ld32 (padd stateAsHalfLanes 144) 0
      let Bi : BitVec 32 := e118
      let e119 : BitVec 32 ← ld32 (padd stateAsHalfLanes 144) 4
      let Bo : BitVec 32 := e119
      st32 (padd stateAsHalfLanes 184) 0 Bi
      st32 (padd stateAsHalfLanes 184) 4 Bo
      st32 (padd stateAsHalfLanes 144) 4 Ba
      st32 (padd stateAsHalfLanes 144) 0 Be
      let e120 : BitVec 32 ← ld32 stateAsHalfLanes 104
      let Bi : BitVec 32 := e120
      let e121 : BitVec 32 ← ld32 stateAsHalfLanes 108
      st32 stateAsHalfLanes 104 e121
      st32 stateAsHalfLanes 108 Bi
      let e122 : BitVec 32 ← ld32 (padd stateAsHalfLanes 32) 0
      let Ba : BitVec 32 := e122
      let e123 : BitVec 32 ← ld32 (padd stateAsHalfLanes 32) 4
      let Be : BitVec 32 := e123
      let e124 : BitVec 32 ← ld32 (padd stateAsHalfLanes 152) 0
      let Bi : BitVec 32 := e124
      let e125 : BitVec 32 ← ld32 (padd stateAsHalfLanes 152) 4
      let Bo : BitVec 32 := e125
      st32 (padd stateAsHalfLanes 32) 4 Bi
      st32 (padd stateAsHalfLanes 32) 0 Bo
      let e126 : BitVec 32 ← ld32 (padd stateAsHalfLanes 112) 0
      let Bi : BitVec 32 := e126
      let e127 : BitVec 32 ← ld32 (padd stateAsHalfLanes 112) 4
      let Bo : BitVec 32 := e127
      st32 (padd stateAsHalfLanes 152) 0 Bi
      st32 (padd stateAsHalfLanes 152) 4 Bo
      let e128 : BitVec 32 ← ld32 (padd stateAsHalfLanes 192) 0
      let Bi : BitVec 32 := e128
      let e129 : BitVec 32 ← ld32 (padd stateAsHalfLanes 192) 4
      let Bo : BitVec 32 := e129
      st32 (padd stateAsHalfLanes 112) 4 Bi
      st32 (padd stateAsHalfLanes 112) 0 Bo
      st32 (padd stateAsHalfLanes 192) 0 Ba
      st32 (padd stateAsHalfLanes 192) 4 Be
      pure ())
    else (do
      pure ()))))
  let again : Nat := 1
  let e130 : Nat × Nat × Nat ← cwhile
      (fun _s1 =>
        let again : Nat := _s1.2.2
        decide (again ≠ 0))
      (fun _s1 => do
        let nRounds : Nat := _s1.1
        let pRoundConstants : Nat := _s1.2.1
        let again : Nat := _s1.2.2
        let e131 : Nat ← (
          if nRounds = 0 then (do
            let e132 ← KeccakRound0 stateAsHalfLanes pRoundConstants
            let pRoundConstants : Nat := e132
            let e133 ← KeccakRound1 stateAsHalfLanes pRoundConstants
            let pRoundConstants : Nat := e133
            let e134 ← KeccakRound2 stateAsHalfLanes pRoundConstants
            let pRoundConstants : Nat := e134
            let e135 ← KeccakRound3 stateAsHalfLanes pRoundConstants
            let pRoundConstants : Nat := e135
            pure pRoundConstants)
          else (if nRounds = 3 then (do
            let e136 ← KeccakRound1 stateAsHalfLanes pRoundConstants
            let pRoundConstants : Nat := e136
            let e137 ← KeccakRound2 stateAsHalfLanes pRoundConstants
            let pRoundConstants : Nat := e137
            let e138 ← KeccakRound3 stateAsHalfLanes pRoundConstants
            let pRoundConstants : Nat := e138
            pure pRoundConstants)
          else (if nRounds = 2 then (do
            let e139 ← KeccakRound2 stateAsHalfLanes pRoundConstants
            let pRoundConstants : Nat := e139
            let e140 ← KeccakRound3 stateAsHalfLanes pRoundConstants
            let pRoundConstants : Nat := e140
            pure pRoundConstants)
          else (if nRounds = 1 then (do
            let e141 ← KeccakRound3 stateAsHalfLanes pRoundConstants
            let pRoundConstants : Nat := e141
            pure pRoundConstants)
          else (do
            pure pRoundConstants)))))
        let pRoundConstants : Nat := e131
        let nRounds : Nat := 0
        let e142 ← tget32 KeccakF1600RoundConstants_int2 pRoundConstants
        let e143 : Nat ← (
          if e142 ≠ (255 : BitVec 32) then (do
            let again : Nat := 1
            pure again)
          else (do
            let again : Nat := 0
            pure again))
        let again : Nat := e143
        pure (nRounds, pRoundConstants, again))
      (nRounds, pRoundConstants, again)
  let nRounds : Nat := e130.1
  let pRoundConstants : Nat := e130.2.1
  let again : Nat := e130.2.2
  pure ()

/-- sha3/plain32/KeccakP-1600-inplace32BI.c:1160-1163 `KeccakP1600_Permute_24rounds`. -/
def KeccakP1600_Permute_24rounds (state : CPtr) : CM Unit := do
  KeccakP1600_Permute_Nrounds state 24
  pure ()

end Faest.GenP
