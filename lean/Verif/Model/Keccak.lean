/-
The permutation and the lane accesses of sha3/opt64 (KeccakP-1600-opt64.c with its macro files and
sha3/SnP-Relaned.h), as configured by KeccakP-1600-opt64-config.h: all rounds unrolled, no lane
complementing, on a little-endian host.

The 200 bytes of a state are 25 lanes of 64 bits; on a little-endian host byte `8 k + j` of the state is
byte `j` (from the least significant) of lane `k`.  The four-way version keeps four states one after the
other, so the functions take the index `base` of the first lane of a state inside a buffer of lanes.
Lanes of the data are read through a cast pointer in the C code; the model reads the eight bytes (the
alignment of the pointer is not modelled).
-/
import Verif.Model.Basic

namespace Faest.Keccak

/-- `uint64_t`. -/
abbrev U64 := BitVec 64

/-- KeccakP-1600-opt64.c:45 `ROL64`. -/
def rol64 (a : U64) (offset : Nat) : U64 := (a <<< offset) ^^^ (a >>> (64 - offset))

/-- KeccakP-1600-opt64.c:57-81 `KeccakF1600RoundConstants`. -/
def roundConstants : Vector U64 24 := #v[
  0x0000000000000001#64, 0x0000000000008082#64, 0x800000000000808a#64,
  0x8000000080008000#64, 0x000000000000808b#64, 0x0000000080000001#64,
  0x8000000080008081#64, 0x8000000000008009#64, 0x000000000000008a#64,
  0x0000000000000088#64, 0x0000000080008009#64, 0x000000008000000a#64,
  0x000000008000808b#64, 0x800000000000008b#64, 0x8000000000008089#64,
  0x8000000000008003#64, 0x8000000000008002#64, 0x8000000000000080#64,
  0x000000000000800a#64, 0x800000008000000a#64, 0x8000000080008081#64,
  0x8000000000008080#64, 0x0000000080000001#64, 0x8000000080008008#64]

/-- KeccakP-1600-64.macros:17-34 `declareABCDE`: the 25 variables `Aba … Asu` (or `Eba … Esu`). -/
structure Lanes where
  (ba be bi bo bu : U64)
  (ga ge gi go gu : U64)
  (ka ke ki ko ku : U64)
  (ma me mi mo mu : U64)
  (sa se si so su : U64)

/-- The five variables `Ca … Cu`. -/
structure Par where
  (a e i o u : U64)

/-- KeccakP-1600-64.macros:36-41 `prepareTheta`. -/
def prepareTheta (A : Lanes) : Par where
  a := A.ba ^^^ A.ga ^^^ A.ka ^^^ A.ma ^^^ A.sa
  e := A.be ^^^ A.ge ^^^ A.ke ^^^ A.me ^^^ A.se
  i := A.bi ^^^ A.gi ^^^ A.ki ^^^ A.mi ^^^ A.si
  o := A.bo ^^^ A.go ^^^ A.ko ^^^ A.mo ^^^ A.so
  u := A.bu ^^^ A.gu ^^^ A.ku ^^^ A.mu ^^^ A.su

/-- KeccakP-1600-64.macros:254-367 `thetaRhoPiChiIotaPrepareTheta(i, A, E)`, statement by statement (the
variables of `A` are overwritten as well, but never read again before they are assigned). -/
def thetaRhoPiChiIotaPrepareTheta (i : Fin 24) (A : Lanes) (C : Par) : Lanes × Par :=
  let ⟨Aba, Abe, Abi, Abo, Abu, Aga, Age, Agi, Ago, Agu, Aka, Ake, Aki, Ako, Aku, Ama, Ame, Ami,
    Amo, Amu, Asa, Ase, Asi, Aso, Asu⟩ := A
  let ⟨Ca, Ce, Ci, Co, Cu⟩ := C
  let Da := Cu ^^^ rol64 Ce 1
  let De := Ca ^^^ rol64 Ci 1
  let Di := Ce ^^^ rol64 Co 1
  let Do := Ci ^^^ rol64 Cu 1
  let Du := Co ^^^ rol64 Ca 1
  let Aba := Aba ^^^ Da
  let Bba := Aba
  let Age := Age ^^^ De
  let Bbe := rol64 Age 44
  let Aki := Aki ^^^ Di
  let Bbi := rol64 Aki 43
  let Amo := Amo ^^^ Do
  let Bbo := rol64 Amo 21
  let Asu := Asu ^^^ Du
  let Bbu := rol64 Asu 14
  let Eba := Bba ^^^ (~~~Bbe &&& Bbi)
  let Eba := Eba ^^^ roundConstants[i]
  let Ca := Eba
  let Ebe := Bbe ^^^ (~~~Bbi &&& Bbo)
  let Ce := Ebe
  let Ebi := Bbi ^^^ (~~~Bbo &&& Bbu)
  let Ci := Ebi
  let Ebo := Bbo ^^^ (~~~Bbu &&& Bba)
  let Co := Ebo
  let Ebu := Bbu ^^^ (~~~Bba &&& Bbe)
  let Cu := Ebu
  let Abo := Abo ^^^ Do
  let Bga := rol64 Abo 28
  let Agu := Agu ^^^ Du
  let Bge := rol64 Agu 20
  let Aka := Aka ^^^ Da
  let Bgi := rol64 Aka 3
  let Ame := Ame ^^^ De
  let Bgo := rol64 Ame 45
  let Asi := Asi ^^^ Di
  let Bgu := rol64 Asi 61
  let Ega := Bga ^^^ (~~~Bge &&& Bgi)
  let Ca := Ca ^^^ Ega
  let Ege := Bge ^^^ (~~~Bgi &&& Bgo)
  let Ce := Ce ^^^ Ege
  let Egi := Bgi ^^^ (~~~Bgo &&& Bgu)
  let Ci := Ci ^^^ Egi
  let Ego := Bgo ^^^ (~~~Bgu &&& Bga)
  let Co := Co ^^^ Ego
  let Egu := Bgu ^^^ (~~~Bga &&& Bge)
  let Cu := Cu ^^^ Egu
  let Abe := Abe ^^^ De
  let Bka := rol64 Abe 1
  let Agi := Agi ^^^ Di
  let Bke := rol64 Agi 6
  let Ako := Ako ^^^ Do
  let Bki := rol64 Ako 25
  let Amu := Amu ^^^ Du
  let Bko := rol64 Amu 8
  let Asa := Asa ^^^ Da
  let Bku := rol64 Asa 18
  let Eka := Bka ^^^ (~~~Bke &&& Bki)
  let Ca := Ca ^^^ Eka
  let Eke := Bke ^^^ (~~~Bki &&& Bko)
  let Ce := Ce ^^^ Eke
  let Eki := Bki ^^^ (~~~Bko &&& Bku)
  let Ci := Ci ^^^ Eki
  let Eko := Bko ^^^ (~~~Bku &&& Bka)
  let Co := Co ^^^ Eko
  let Eku := Bku ^^^ (~~~Bka &&& Bke)
  let Cu := Cu ^^^ Eku
  let Abu := Abu ^^^ Du
  let Bma := rol64 Abu 27
  let Aga := Aga ^^^ Da
  let Bme := rol64 Aga 36
  let Ake := Ake ^^^ De
  let Bmi := rol64 Ake 10
  let Ami := Ami ^^^ Di
  let Bmo := rol64 Ami 15
  let Aso := Aso ^^^ Do
  let Bmu := rol64 Aso 56
  let Ema := Bma ^^^ (~~~Bme &&& Bmi)
  let Ca := Ca ^^^ Ema
  let Eme := Bme ^^^ (~~~Bmi &&& Bmo)
  let Ce := Ce ^^^ Eme
  let Emi := Bmi ^^^ (~~~Bmo &&& Bmu)
  let Ci := Ci ^^^ Emi
  let Emo := Bmo ^^^ (~~~Bmu &&& Bma)
  let Co := Co ^^^ Emo
  let Emu := Bmu ^^^ (~~~Bma &&& Bme)
  let Cu := Cu ^^^ Emu
  let Abi := Abi ^^^ Di
  let Bsa := rol64 Abi 62
  let Ago := Ago ^^^ Do
  let Bse := rol64 Ago 55
  let Aku := Aku ^^^ Du
  let Bsi := rol64 Aku 39
  let Ama := Ama ^^^ Da
  let Bso := rol64 Ama 41
  let Ase := Ase ^^^ De
  let Bsu := rol64 Ase 2
  let Esa := Bsa ^^^ (~~~Bse &&& Bsi)
  let Ca := Ca ^^^ Esa
  let Ese := Bse ^^^ (~~~Bsi &&& Bso)
  let Ce := Ce ^^^ Ese
  let Esi := Bsi ^^^ (~~~Bso &&& Bsu)
  let Ci := Ci ^^^ Esi
  let Eso := Bso ^^^ (~~~Bsu &&& Bsa)
  let Co := Co ^^^ Eso
  let Esu := Bsu ^^^ (~~~Bsa &&& Bse)
  let Cu := Cu ^^^ Esu
  (⟨Eba, Ebe, Ebi, Ebo, Ebu, Ega, Ege, Egi, Ego, Egu, Eka, Eke, Eki, Eko, Eku, Ema, Eme, Emi, Emo,
    Emu, Esa, Ese, Esi, Eso, Esu⟩,
    ⟨Ca, Ce, Ci, Co, Cu⟩)

/-- KeccakP-1600-64.macros:370-457 `thetaRhoPiChiIota(i, A, E)`. -/
def thetaRhoPiChiIota (i : Fin 24) (A : Lanes) (C : Par) : Lanes :=
  let ⟨Aba, Abe, Abi, Abo, Abu, Aga, Age, Agi, Ago, Agu, Aka, Ake, Aki, Ako, Aku, Ama, Ame, Ami,
    Amo, Amu, Asa, Ase, Asi, Aso, Asu⟩ := A
  let ⟨Ca, Ce, Ci, Co, Cu⟩ := C
  let Da := Cu ^^^ rol64 Ce 1
  let De := Ca ^^^ rol64 Ci 1
  let Di := Ce ^^^ rol64 Co 1
  let Do := Ci ^^^ rol64 Cu 1
  let Du := Co ^^^ rol64 Ca 1
  let Aba := Aba ^^^ Da
  let Bba := Aba
  let Age := Age ^^^ De
  let Bbe := rol64 Age 44
  let Aki := Aki ^^^ Di
  let Bbi := rol64 Aki 43
  let Amo := Amo ^^^ Do
  let Bbo := rol64 Amo 21
  let Asu := Asu ^^^ Du
  let Bbu := rol64 Asu 14
  let Eba := Bba ^^^ (~~~Bbe &&& Bbi)
  let Eba := Eba ^^^ roundConstants[i]
  let Ebe := Bbe ^^^ (~~~Bbi &&& Bbo)
  let Ebi := Bbi ^^^ (~~~Bbo &&& Bbu)
  let Ebo := Bbo ^^^ (~~~Bbu &&& Bba)
  let Ebu := Bbu ^^^ (~~~Bba &&& Bbe)
  let Abo := Abo ^^^ Do
  let Bga := rol64 Abo 28
  let Agu := Agu ^^^ Du
  let Bge := rol64 Agu 20
  let Aka := Aka ^^^ Da
  let Bgi := rol64 Aka 3
  let Ame := Ame ^^^ De
  let Bgo := rol64 Ame 45
  let Asi := Asi ^^^ Di
  let Bgu := rol64 Asi 61
  let Ega := Bga ^^^ (~~~Bge &&& Bgi)
  let Ege := Bge ^^^ (~~~Bgi &&& Bgo)
  let Egi := Bgi ^^^ (~~~Bgo &&& Bgu)
  let Ego := Bgo ^^^ (~~~Bgu &&& Bga)
  let Egu := Bgu ^^^ (~~~Bga &&& Bge)
  let Abe := Abe ^^^ De
  let Bka := rol64 Abe 1
  let Agi := Agi ^^^ Di
  let Bke := rol64 Agi 6
  let Ako := Ako ^^^ Do
  let Bki := rol64 Ako 25
  let Amu := Amu ^^^ Du
  let Bko := rol64 Amu 8
  let Asa := Asa ^^^ Da
  let Bku := rol64 Asa 18
  let Eka := Bka ^^^ (~~~Bke &&& Bki)
  let Eke := Bke ^^^ (~~~Bki &&& Bko)
  let Eki := Bki ^^^ (~~~Bko &&& Bku)
  let Eko := Bko ^^^ (~~~Bku &&& Bka)
  let Eku := Bku ^^^ (~~~Bka &&& Bke)
  let Abu := Abu ^^^ Du
  let Bma := rol64 Abu 27
  let Aga := Aga ^^^ Da
  let Bme := rol64 Aga 36
  let Ake := Ake ^^^ De
  let Bmi := rol64 Ake 10
  let Ami := Ami ^^^ Di
  let Bmo := rol64 Ami 15
  let Aso := Aso ^^^ Do
  let Bmu := rol64 Aso 56
  let Ema := Bma ^^^ (~~~Bme &&& Bmi)
  let Eme := Bme ^^^ (~~~Bmi &&& Bmo)
  let Emi := Bmi ^^^ (~~~Bmo &&& Bmu)
  let Emo := Bmo ^^^ (~~~Bmu &&& Bma)
  let Emu := Bmu ^^^ (~~~Bma &&& Bme)
  let Abi := Abi ^^^ Di
  let Bsa := rol64 Abi 62
  let Ago := Ago ^^^ Do
  let Bse := rol64 Ago 55
  let Aku := Aku ^^^ Du
  let Bsi := rol64 Aku 39
  let Ama := Ama ^^^ Da
  let Bso := rol64 Ama 41
  let Ase := Ase ^^^ De
  let Bsu := rol64 Ase 2
  let Esa := Bsa ^^^ (~~~Bse &&& Bsi)
  let Ese := Bse ^^^ (~~~Bsi &&& Bso)
  let Esi := Bsi ^^^ (~~~Bso &&& Bsu)
  let Eso := Bso ^^^ (~~~Bsu &&& Bsa)
  let Esu := Bsu ^^^ (~~~Bsa &&& Bse)
  ⟨Eba, Ebe, Ebi, Ebo, Ebu, Ega, Ege, Egi, Ego, Egu, Eka, Eke, Eki, Eko, Eku, Ema, Eme, Emi, Emo,
    Emu, Esa, Ese, Esi, Eso, Esu⟩

/-- KeccakP-1600-unrolling.macros:18-43 `rounds24`. -/
def rounds24 (A : Lanes) : Lanes :=
  let C := prepareTheta A
  let (E, C) := thetaRhoPiChiIotaPrepareTheta 0 A C
  let (A, C) := thetaRhoPiChiIotaPrepareTheta 1 E C
  let (E, C) := thetaRhoPiChiIotaPrepareTheta 2 A C
  let (A, C) := thetaRhoPiChiIotaPrepareTheta 3 E C
  let (E, C) := thetaRhoPiChiIotaPrepareTheta 4 A C
  let (A, C) := thetaRhoPiChiIotaPrepareTheta 5 E C
  let (E, C) := thetaRhoPiChiIotaPrepareTheta 6 A C
  let (A, C) := thetaRhoPiChiIotaPrepareTheta 7 E C
  let (E, C) := thetaRhoPiChiIotaPrepareTheta 8 A C
  let (A, C) := thetaRhoPiChiIotaPrepareTheta 9 E C
  let (E, C) := thetaRhoPiChiIotaPrepareTheta 10 A C
  let (A, C) := thetaRhoPiChiIotaPrepareTheta 11 E C
  let (E, C) := thetaRhoPiChiIotaPrepareTheta 12 A C
  let (A, C) := thetaRhoPiChiIotaPrepareTheta 13 E C
  let (E, C) := thetaRhoPiChiIotaPrepareTheta 14 A C
  let (A, C) := thetaRhoPiChiIotaPrepareTheta 15 E C
  let (E, C) := thetaRhoPiChiIotaPrepareTheta 16 A C
  let (A, C) := thetaRhoPiChiIotaPrepareTheta 17 E C
  let (E, C) := thetaRhoPiChiIotaPrepareTheta 18 A C
  let (A, C) := thetaRhoPiChiIotaPrepareTheta 19 E C
  let (E, C) := thetaRhoPiChiIotaPrepareTheta 20 A C
  let (A, C) := thetaRhoPiChiIotaPrepareTheta 21 E C
  let (E, C) := thetaRhoPiChiIotaPrepareTheta 22 A C
  thetaRhoPiChiIota 23 E C

/-! ### Lanes in memory -/

/-- KeccakP-1600-64.macros:461-486 `copyFromState(A, stateAsLanes)`. -/
def copyFromState (st : Mem U64) (base : Nat) : Option Lanes := do
  let ba ← rd st (base + 0)
  let be ← rd st (base + 1)
  let bi ← rd st (base + 2)
  let bo ← rd st (base + 3)
  let bu ← rd st (base + 4)
  let ga ← rd st (base + 5)
  let ge ← rd st (base + 6)
  let gi ← rd st (base + 7)
  let go ← rd st (base + 8)
  let gu ← rd st (base + 9)
  let ka ← rd st (base + 10)
  let ke ← rd st (base + 11)
  let ki ← rd st (base + 12)
  let ko ← rd st (base + 13)
  let ku ← rd st (base + 14)
  let ma ← rd st (base + 15)
  let me ← rd st (base + 16)
  let mi ← rd st (base + 17)
  let mo ← rd st (base + 18)
  let mu ← rd st (base + 19)
  let sa ← rd st (base + 20)
  let se ← rd st (base + 21)
  let si ← rd st (base + 22)
  let so ← rd st (base + 23)
  let su ← rd st (base + 24)
  pure ⟨ba, be, bi, bo, bu, ga, ge, gi, go, gu, ka, ke, ki, ko, ku, ma, me, mi, mo, mu, sa, se, si, so,
    su⟩

/-- KeccakP-1600-64.macros:488-513 `copyToState(stateAsLanes, A)`. -/
def copyToState (st : Mem U64) (base : Nat) (A : Lanes) : Option (Mem U64) := do
  let st ← wr st (base + 0) A.ba
  let st ← wr st (base + 1) A.be
  let st ← wr st (base + 2) A.bi
  let st ← wr st (base + 3) A.bo
  let st ← wr st (base + 4) A.bu
  let st ← wr st (base + 5) A.ga
  let st ← wr st (base + 6) A.ge
  let st ← wr st (base + 7) A.gi
  let st ← wr st (base + 8) A.go
  let st ← wr st (base + 9) A.gu
  let st ← wr st (base + 10) A.ka
  let st ← wr st (base + 11) A.ke
  let st ← wr st (base + 12) A.ki
  let st ← wr st (base + 13) A.ko
  let st ← wr st (base + 14) A.ku
  let st ← wr st (base + 15) A.ma
  let st ← wr st (base + 16) A.me
  let st ← wr st (base + 17) A.mi
  let st ← wr st (base + 18) A.mo
  let st ← wr st (base + 19) A.mu
  let st ← wr st (base + 20) A.sa
  let st ← wr st (base + 21) A.se
  let st ← wr st (base + 22) A.si
  let st ← wr st (base + 23) A.so
  let st ← wr st (base + 24) A.su
  pure st

/-- KeccakP-1600-opt64.c:342-353 `KeccakP1600_Permute_24rounds`. -/
def permute24 (st : Mem U64) (base : Nat) : Option (Mem U64) := do
  let A ← copyFromState st base
  copyToState st base (rounds24 A)

/-- KeccakP-1600-opt64.c:85-96 `KeccakP1600_Initialize`: `memset(state, 0, 200)`. -/
def initState (st : Mem U64) (base : Nat) : Option (Mem U64) :=
  wrN st base (List.replicate 25 0)

/-- The value of a word whose bytes in memory are `bs`, least significant first, completed by zeros. -/
def leWord : List Byte → U64
  | [] => 0
  | b :: bs => b.zeroExtend 64 ||| (leWord bs <<< 8)

/-- Byte `j` of a word in memory. -/
def laneByte (x : U64) (j : Nat) : Byte := (x >>> (8 * j)).truncate 8

/-- KeccakP-1600-SnP.h:39-41 `KeccakP1600_AddByte` (little-endian): xor into one byte of the state. -/
def addByte (st : Mem U64) (base : Nat) (byte : Byte) (offset : Nat) : Option (Mem U64) := do
  let x ← rd st (base + offset / 8)
  wr st (base + offset / 8) (x ^^^ (byte.zeroExtend 64 <<< (8 * (offset % 8))))

/-- KeccakP-1600-opt64.c:107-113, the bytes of `data` as a lane.  `memcpy(&lane, data, length)` is undefined
for more than eight bytes. -/
def loadPartial (data : Mem Byte) (length : Nat) : Option U64 :=
  if length = 1 then do
    let b ← rd data 0
    pure (b.zeroExtend 64)
  else if length ≤ 8 then do
    let bs ← rdN data 0 length
    pure (leWord bs)
  else none

/-- KeccakP-1600-opt64.c:100-120 `KeccakP1600_AddBytesInLane`; `lane <<= offset*8` is undefined for `offset`
8 or more. -/
def addBytesInLane (st : Mem U64) (base lanePosition : Nat) (data : Mem Byte) (offset length : Nat) :
    Option (Mem U64) :=
  if length = 0 then some st
  else do
    let lane ← loadPartial data length
    if offset < 8 then do
      let x ← rd st (base + lanePosition)
      wr st (base + lanePosition) (x ^^^ (lane <<< (offset * 8)))
    else none

/-- `((uint64_t*)data)[i]`. -/
def loadLane (data : Mem Byte) (i : Nat) : Option U64 := do
  let bs ← rdN data (8 * i) 8
  pure (leWord bs)

/-- `((uint64_t*)state)[i] ^= ((uint64_t*)data)[i]`. -/
def addLane (st : Mem U64) (base : Nat) (data : Mem Byte) (i : Nat) : Option (Mem U64) := do
  let x ← rd st (base + i)
  let y ← loadLane data i
  wr st (base + i) (x ^^^ y)

/-- The statements for lanes `i+0 … i+n-1`, in this order. -/
def addLanesFrom (st : Mem U64) (base : Nat) (data : Mem Byte) (i n : Nat) : Option (Mem U64) :=
  forN n st (fun j st => addLane st base data (i + j))

/-- `for ( ; (i+step) <= laneCount; i += step) …`; the first argument is fuel. -/
def addLanesLoop (base : Nat) (data : Mem Byte) (laneCount step : Nat) :
    Nat → Nat → Mem U64 → Option (Nat × Mem U64)
  | 0, _, _ => none
  | fuel + 1, i, st =>
    if i + step ≤ laneCount then do
      let st ← addLanesFrom st base data i step
      addLanesLoop base data laneCount step fuel (i + step) st
    else some (i, st)

/-- KeccakP-1600-opt64.c:124-178 `KeccakP1600_AddLanes` (little-endian, misaligned accesses allowed). -/
def addLanes (st : Mem U64) (base : Nat) (data : Mem Byte) (laneCount : Nat) : Option (Mem U64) := do
  let (i, st) ← addLanesLoop base data laneCount 8 (laneCount + 1) 0 st
  let (i, st) ← addLanesLoop base data laneCount 4 (laneCount + 1) i st
  let (i, st) ← addLanesLoop base data laneCount 2 (laneCount + 1) i st
  if i < laneCount then addLane st base data i else pure st

/-- SnP-Relaned.h:36-51, the loop for a non-zero offset; the first argument is fuel. -/
def addBytesLoop (base : Nat) : Nat → Nat → Nat → Nat → Mem Byte → Mem U64 → Option (Mem U64)
  | 0, _, _, _, _, _ => none
  | fuel + 1, sizeLeft, lanePosition, offsetInLane, curData, st =>
    if sizeLeft > 0 then do
      let bytesInLane := if 8 - offsetInLane > sizeLeft then sizeLeft else 8 - offsetInLane
      let st ← addBytesInLane st base lanePosition curData offsetInLane bytesInLane
      let curData ← ptr curData bytesInLane
      addBytesLoop base fuel (sizeLeft - bytesInLane) (lanePosition + 1) 0 curData st
    else some st

/-- KeccakP-1600-opt64.c:193-196 `KeccakP1600_AddBytes`, by SnP-Relaned.h:26-52 `SnP_AddBytes`. -/
def addBytes (st : Mem U64) (base : Nat) (data : Mem Byte) (offset length : Nat) : Option (Mem U64) :=
  if offset = 0 then do
    let st ← addLanes st base data (length / 8)
    let rest ← ptr data (length / 8 * 8)
    addBytesInLane st base (length / 8) rest 0 (length % 8)
  else addBytesLoop base (length + 1) length (offset / 8) (offset % 8) data st

/-- KeccakP-1600-opt64.c:372-393 `KeccakP1600_ExtractBytesInLane`: the bytes written at `data`.
`memcpy(data, (uint8_t*)lane1+offset, length)` is undefined beyond the lane. -/
def extractBytesInLane (st : Mem U64) (base lanePosition offset length : Nat) : Option (List Byte) := do
  let lane ← rd st (base + lanePosition)
  if offset + length ≤ 8 then pure (tabP length (fun j => laneByte lane (offset + j))) else none

/-- KeccakP-1600-opt64.c:407-437 `KeccakP1600_ExtractLanes`: `memcpy(data, state, laneCount*8)`. -/
def extractLanes (st : Mem U64) (base laneCount : Nat) : Option (List Byte) :=
  tabM (laneCount * 8) (fun t => do
    let x ← rd st (base + t / 8)
    pure (laneByte x (t % 8)))

/-- SnP-Relaned.h:92-107, the loop for a non-zero offset; the first argument is fuel. -/
def extractBytesLoop (st : Mem U64) (base : Nat) :
    Nat → Nat → Nat → Nat → Mem Byte → Nat → Option (Mem Byte)
  | 0, _, _, _, _, _ => none
  | fuel + 1, sizeLeft, lanePosition, offsetInLane, data, cur =>
    if sizeLeft > 0 then do
      let bytesInLane := if 8 - offsetInLane > sizeLeft then sizeLeft else 8 - offsetInLane
      let bs ← extractBytesInLane st base lanePosition offsetInLane bytesInLane
      let data ← wrN data cur bs
      extractBytesLoop st base fuel (sizeLeft - bytesInLane) (lanePosition + 1) 0 data (cur + bytesInLane)
    else some data

/-- KeccakP-1600-opt64.c:441-444 `KeccakP1600_ExtractBytes`, by SnP-Relaned.h:82-108; writes `length` bytes
at position `cur` of `data`. -/
def extractBytes (st : Mem U64) (base : Nat) (data : Mem Byte) (cur offset length : Nat) :
    Option (Mem Byte) :=
  if offset = 0 then do
    let bs ← extractLanes st base (length / 8)
    let data ← wrN data cur bs
    let bs ← extractBytesInLane st base (length / 8) 0 (length % 8)
    wrN data (cur + length / 8 * 8) bs
  else extractBytesLoop st base (length + 1) length (offset / 8) (offset % 8) data cur

/-- KeccakP-1600-64.macros:542-734 `addInput(A, inDataAsLanes, laneCount)` for at most 25 lanes: the
decision tree of the macro lists the lanes `0 … laneCount-1`. -/
def addInput (A : Lanes) (data : Mem Byte) (laneCount : Nat) : Option Lanes := do
  let f := fun (k : Nat) (x : U64) => if k < laneCount then do
      let y ← loadLane data k
      pure (x ^^^ y)
    else some x
  let ba ← f 0 A.ba
  let be ← f 1 A.be
  let bi ← f 2 A.bi
  let bo ← f 3 A.bo
  let bu ← f 4 A.bu
  let ga ← f 5 A.ga
  let ge ← f 6 A.ge
  let gi ← f 7 A.gi
  let go ← f 8 A.go
  let gu ← f 9 A.gu
  let ka ← f 10 A.ka
  let ke ← f 11 A.ke
  let ki ← f 12 A.ki
  let ko ← f 13 A.ko
  let ku ← f 14 A.ku
  let ma ← f 15 A.ma
  let me ← f 16 A.me
  let mi ← f 17 A.mi
  let mo ← f 18 A.mo
  let mu ← f 19 A.mu
  let sa ← f 20 A.sa
  let se ← f 21 A.se
  let si ← f 22 A.si
  let so ← f 23 A.so
  let su ← f 24 A.su
  pure ⟨ba, be, bi, bo, bu, ga, ge, gi, go, gu, ka, ke, ki, ko, ku, ma, me, mi, mo, mu, sa, se, si, so,
    su⟩

/-- KeccakP-1600-opt64.c:534-539, the loop of `KeccakF1600_FastLoop_Absorb`; returns the lanes and the
number of bytes left.  The first argument is fuel. -/
def fastLoop (laneCount : Nat) : Nat → Lanes → Mem Byte → Nat → Option (Lanes × Nat)
  | 0, _, _, _ => none
  | fuel + 1, A, data, dataByteLen =>
    if dataByteLen ≥ laneCount * 8 then do
      let A ← addInput A data laneCount
      let A := rounds24 A
      let data ← ptr data (laneCount * 8)
      fastLoop laneCount fuel A data (dataByteLen - laneCount * 8)
    else some (A, dataByteLen)

/-- KeccakP-1600-opt64.c:523-542 `KeccakF1600_FastLoop_Absorb`. -/
def fastLoopAbsorb (st : Mem U64) (base laneCount : Nat) (data : Mem Byte) (dataByteLen : Nat) :
    Option (Mem U64 × Nat) := do
  let A ← copyFromState st base
  let (A, left) ← fastLoop laneCount (dataByteLen + 1) A data dataByteLen
  let st ← copyToState st base A
  pure (st, dataByteLen - left)

end Faest.Keccak
