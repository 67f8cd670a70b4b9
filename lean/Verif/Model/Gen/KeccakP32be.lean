/-
Generated by tools/c2hash.py from sha3/plain32/KeccakP-1600-inplace32BI.c, sha3/SnP-Relaned.h, sha3/KeccakSponge.c, KeccakSponge.inc, sha3/plain32/KeccakP-1600-times4-on1.c and PlSnP-Fallback.inc, for a big-endian host. Do not edit.
-/
import Verif.Model.CHashBe
import Verif.Model.Gen.KeccakP32

set_option linter.unusedVariables false

namespace Faest.GenPB
open Faest.C

/-- sha3/plain32/KeccakP-1600-inplace32BI.c `Aba0` .. `Asu1`: the words of the state. -/
def readHalves (stateAsHalfLanes : CPtr) : CM Halves := do
  let Aba0 ← ld32be stateAsHalfLanes 0
  let Aba1 ← ld32be stateAsHalfLanes 4
  let Abe0 ← ld32be stateAsHalfLanes 8
  let Abe1 ← ld32be stateAsHalfLanes 12
  let Abi0 ← ld32be stateAsHalfLanes 16
  let Abi1 ← ld32be stateAsHalfLanes 20
  let Abo0 ← ld32be stateAsHalfLanes 24
  let Abo1 ← ld32be stateAsHalfLanes 28
  let Abu0 ← ld32be stateAsHalfLanes 32
  let Abu1 ← ld32be stateAsHalfLanes 36
  let Aga0 ← ld32be stateAsHalfLanes 40
  let Aga1 ← ld32be stateAsHalfLanes 44
  let Age0 ← ld32be stateAsHalfLanes 48
  let Age1 ← ld32be stateAsHalfLanes 52
  let Agi0 ← ld32be stateAsHalfLanes 56
  let Agi1 ← ld32be stateAsHalfLanes 60
  let Ago0 ← ld32be stateAsHalfLanes 64
  let Ago1 ← ld32be stateAsHalfLanes 68
  let Agu0 ← ld32be stateAsHalfLanes 72
  let Agu1 ← ld32be stateAsHalfLanes 76
  let Aka0 ← ld32be stateAsHalfLanes 80
  let Aka1 ← ld32be stateAsHalfLanes 84
  let Ake0 ← ld32be stateAsHalfLanes 88
  let Ake1 ← ld32be stateAsHalfLanes 92
  let Aki0 ← ld32be stateAsHalfLanes 96
  let Aki1 ← ld32be stateAsHalfLanes 100
  let Ako0 ← ld32be stateAsHalfLanes 104
  let Ako1 ← ld32be stateAsHalfLanes 108
  let Aku0 ← ld32be stateAsHalfLanes 112
  let Aku1 ← ld32be stateAsHalfLanes 116
  let Ama0 ← ld32be stateAsHalfLanes 120
  let Ama1 ← ld32be stateAsHalfLanes 124
  let Ame0 ← ld32be stateAsHalfLanes 128
  let Ame1 ← ld32be stateAsHalfLanes 132
  let Ami0 ← ld32be stateAsHalfLanes 136
  let Ami1 ← ld32be stateAsHalfLanes 140
  let Amo0 ← ld32be stateAsHalfLanes 144
  let Amo1 ← ld32be stateAsHalfLanes 148
  let Amu0 ← ld32be stateAsHalfLanes 152
  let Amu1 ← ld32be stateAsHalfLanes 156
  let Asa0 ← ld32be stateAsHalfLanes 160
  let Asa1 ← ld32be stateAsHalfLanes 164
  let Ase0 ← ld32be stateAsHalfLanes 168
  let Ase1 ← ld32be stateAsHalfLanes 172
  let Asi0 ← ld32be stateAsHalfLanes 176
  let Asi1 ← ld32be stateAsHalfLanes 180
  let Aso0 ← ld32be stateAsHalfLanes 184
  let Aso1 ← ld32be stateAsHalfLanes 188
  let Asu0 ← ld32be stateAsHalfLanes 192
  let Asu1 ← ld32be stateAsHalfLanes 196
  pure ⟨Aba0, Aba1, Abe0, Abe1, Abi0, Abi1, Abo0, Abo1, Abu0, Abu1, Aga0, Aga1, Age0, Age1, Agi0, Agi1, Ago0, Ago1, Agu0, Agu1, Aka0, Aka1, Ake0, Ake1, Aki0, Aki1, Ako0, Ako1, Aku0, Aku1, Ama0, Ama1, Ame0, Ame1, Ami0, Ami1, Amo0, Amo1, Amu0, Amu1, Asa0, Asa1, Ase0, Ase1, Asi0, Asi1, Aso0, Aso1, Asu0, Asu1⟩

/-- sha3/plain32/KeccakP-1600-inplace32BI.c `Aba0` .. `Asu1`: the words of the state. -/
def writeHalves (stateAsHalfLanes : CPtr) (A : Halves) : CM Unit := do
  st32be stateAsHalfLanes 0 A.ba0
  st32be stateAsHalfLanes 4 A.ba1
  st32be stateAsHalfLanes 8 A.be0
  st32be stateAsHalfLanes 12 A.be1
  st32be stateAsHalfLanes 16 A.bi0
  st32be stateAsHalfLanes 20 A.bi1
  st32be stateAsHalfLanes 24 A.bo0
  st32be stateAsHalfLanes 28 A.bo1
  st32be stateAsHalfLanes 32 A.bu0
  st32be stateAsHalfLanes 36 A.bu1
  st32be stateAsHalfLanes 40 A.ga0
  st32be stateAsHalfLanes 44 A.ga1
  st32be stateAsHalfLanes 48 A.ge0
  st32be stateAsHalfLanes 52 A.ge1
  st32be stateAsHalfLanes 56 A.gi0
  st32be stateAsHalfLanes 60 A.gi1
  st32be stateAsHalfLanes 64 A.go0
  st32be stateAsHalfLanes 68 A.go1
  st32be stateAsHalfLanes 72 A.gu0
  st32be stateAsHalfLanes 76 A.gu1
  st32be stateAsHalfLanes 80 A.ka0
  st32be stateAsHalfLanes 84 A.ka1
  st32be stateAsHalfLanes 88 A.ke0
  st32be stateAsHalfLanes 92 A.ke1
  st32be stateAsHalfLanes 96 A.ki0
  st32be stateAsHalfLanes 100 A.ki1
  st32be stateAsHalfLanes 104 A.ko0
  st32be stateAsHalfLanes 108 A.ko1
  st32be stateAsHalfLanes 112 A.ku0
  st32be stateAsHalfLanes 116 A.ku1
  st32be stateAsHalfLanes 120 A.ma0
  st32be stateAsHalfLanes 124 A.ma1
  st32be stateAsHalfLanes 128 A.me0
  st32be stateAsHalfLanes 132 A.me1
  st32be stateAsHalfLanes 136 A.mi0
  st32be stateAsHalfLanes 140 A.mi1
  st32be stateAsHalfLanes 144 A.mo0
  st32be stateAsHalfLanes 148 A.mo1
  st32be stateAsHalfLanes 152 A.mu0
  st32be stateAsHalfLanes 156 A.mu1
  st32be stateAsHalfLanes 160 A.sa0
  st32be stateAsHalfLanes 164 A.sa1
  st32be stateAsHalfLanes 168 A.se0
  st32be stateAsHalfLanes 172 A.se1
  st32be stateAsHalfLanes 176 A.si0
  st32be stateAsHalfLanes 180 A.si1
  st32be stateAsHalfLanes 184 A.so0
  st32be stateAsHalfLanes 188 A.so1
  st32be stateAsHalfLanes 192 A.su0
  st32be stateAsHalfLanes 196 A.su1

/-- The macro on the words of the state in memory. -/
def KeccakRound0 (stateAsHalfLanes : CPtr) (pRoundConstants : Nat) : CM Nat := do
  let A ← readHalves stateAsHalfLanes
  let e ← GenP.KeccakRound0_words A pRoundConstants
  writeHalves stateAsHalfLanes e.1
  pure e.2

/-- The macro on the words of the state in memory. -/
def KeccakRound1 (stateAsHalfLanes : CPtr) (pRoundConstants : Nat) : CM Nat := do
  let A ← readHalves stateAsHalfLanes
  let e ← GenP.KeccakRound1_words A pRoundConstants
  writeHalves stateAsHalfLanes e.1
  pure e.2

/-- The macro on the words of the state in memory. -/
def KeccakRound2 (stateAsHalfLanes : CPtr) (pRoundConstants : Nat) : CM Nat := do
  let A ← readHalves stateAsHalfLanes
  let e ← GenP.KeccakRound2_words A pRoundConstants
  writeHalves stateAsHalfLanes e.1
  pure e.2

/-- The macro on the words of the state in memory. -/
def KeccakRound3 (stateAsHalfLanes : CPtr) (pRoundConstants : Nat) : CM Nat := do
  let A ← readHalves stateAsHalfLanes
  let e ← GenP.KeccakRound3_words A pRoundConstants
  writeHalves stateAsHalfLanes e.1
  pure e.2

/-- sha3/plain32/KeccakP-1600-inplace32BI.c:115-118 `KeccakP1600_Initialize`. -/
def KeccakP1600_Initialize (state : CPtr) : CM Unit := do
  memset0 state 200
  pure ()

/-- sha3/plain32/KeccakP-1600-inplace32BI.c:122-139 `KeccakP1600_AddByte`. -/
def KeccakP1600_AddByte (state : CPtr) (byte : Byte) (offset : Nat) : CM Unit := do
  let lanePosition : Nat := offset / 8
  let offsetInLane : Nat := offset % 8
  let stateAsHalfLanes : CPtr := state
  let e1 : BitVec 32 × BitVec 32 ← (
    if offsetInLane < 4 then (do
      let e2 ← w32shl (BitVec.setWidth 32 byte) ((offsetInLane * 8) % U32)
      let low : BitVec 32 := e2
      let high : BitVec 32 := (0 : BitVec 32)
      pure (low, high))
    else (do
      let low : BitVec 32 := (0 : BitVec 32)
      let e3 ← w32shl (BitVec.setWidth 32 byte) ((((offsetInLane + U32 - 4) % U32) * 8) % U32)
      let high : BitVec 32 := e3
      pure (low, high)))
  let low : BitVec 32 := e1.1
  let high : BitVec 32 := e1.2
  let temp0 : BitVec 32 := low
  let temp : BitVec 32 := (temp0 ^^^ (temp0 >>> 1)) &&& (572662306 : BitVec 32)
  let temp0 : BitVec 32 := (temp0 ^^^ temp) ^^^ (temp <<< 1)
  let temp : BitVec 32 := (temp0 ^^^ (temp0 >>> 2)) &&& (202116108 : BitVec 32)
  let temp0 : BitVec 32 := (temp0 ^^^ temp) ^^^ (temp <<< 2)
  let temp : BitVec 32 := (temp0 ^^^ (temp0 >>> 4)) &&& (15728880 : BitVec 32)
  let temp0 : BitVec 32 := (temp0 ^^^ temp) ^^^ (temp <<< 4)
  let temp : BitVec 32 := (temp0 ^^^ (temp0 >>> 8)) &&& (65280 : BitVec 32)
  let temp0 : BitVec 32 := (temp0 ^^^ temp) ^^^ (temp <<< 8)
  let temp1 : BitVec 32 := high
  let temp : BitVec 32 := (temp1 ^^^ (temp1 >>> 1)) &&& (572662306 : BitVec 32)
  let temp1 : BitVec 32 := (temp1 ^^^ temp) ^^^ (temp <<< 1)
  let temp : BitVec 32 := (temp1 ^^^ (temp1 >>> 2)) &&& (202116108 : BitVec 32)
  let temp1 : BitVec 32 := (temp1 ^^^ temp) ^^^ (temp <<< 2)
  let temp : BitVec 32 := (temp1 ^^^ (temp1 >>> 4)) &&& (15728880 : BitVec 32)
  let temp1 : BitVec 32 := (temp1 ^^^ temp) ^^^ (temp <<< 4)
  let temp : BitVec 32 := (temp1 ^^^ (temp1 >>> 8)) &&& (65280 : BitVec 32)
  let temp1 : BitVec 32 := (temp1 ^^^ temp) ^^^ (temp <<< 8)
  let e4 : BitVec 32 ← ld32be stateAsHalfLanes (4 * ((((lanePosition * 2) % U32) + 0) % U32))
  st32be stateAsHalfLanes (4 * ((((lanePosition * 2) % U32) + 0) % U32)) (e4 ^^^ ((temp0 &&& (65535 : BitVec 32)) ||| (temp1 <<< 16)))
  let e5 : BitVec 32 ← ld32be stateAsHalfLanes (4 * ((((lanePosition * 2) % U32) + 1) % U32))
  st32be stateAsHalfLanes (4 * ((((lanePosition * 2) % U32) + 1) % U32)) (e5 ^^^ ((temp0 >>> 16) ||| (temp1 &&& (4294901760 : BitVec 32))))
  pure ()

/-- sha3/plain32/KeccakP-1600-inplace32BI.c:143-166 `KeccakP1600_AddBytesInLane`. -/
def KeccakP1600_AddBytesInLane (state : CPtr) (lanePosition : Nat) (data : CPtr) (offset : Nat) (length : Nat) : CM Unit := do
  let laneAsBytes ← alloc .stack (malloc 8 : Mem Byte)
  let stateAsHalfLanes : CPtr := state
  memset0 laneAsBytes 8
  memcpy (α := Byte) (padd laneAsBytes offset) data length
  let e1 : Byte ← ld laneAsBytes 0
  let e2 : Byte ← ld laneAsBytes 1
  let e3 : Byte ← ld laneAsBytes 2
  let e4 : Byte ← ld laneAsBytes 3
  let low : BitVec 32 := (((BitVec.setWidth 32 e1) ||| ((BitVec.setWidth 32 e2) <<< 8)) ||| ((BitVec.setWidth 32 e3) <<< 16)) ||| ((BitVec.setWidth 32 e4) <<< 24)
  let e5 : Byte ← ld laneAsBytes 4
  let e6 : Byte ← ld laneAsBytes 5
  let e7 : Byte ← ld laneAsBytes 6
  let e8 : Byte ← ld laneAsBytes 7
  let high : BitVec 32 := (((BitVec.setWidth 32 e5) ||| ((BitVec.setWidth 32 e6) <<< 8)) ||| ((BitVec.setWidth 32 e7) <<< 16)) ||| ((BitVec.setWidth 32 e8) <<< 24)
  let temp0 : BitVec 32 := low
  let temp : BitVec 32 := (temp0 ^^^ (temp0 >>> 1)) &&& (572662306 : BitVec 32)
  let temp0 : BitVec 32 := (temp0 ^^^ temp) ^^^ (temp <<< 1)
  let temp : BitVec 32 := (temp0 ^^^ (temp0 >>> 2)) &&& (202116108 : BitVec 32)
  let temp0 : BitVec 32 := (temp0 ^^^ temp) ^^^ (temp <<< 2)
  let temp : BitVec 32 := (temp0 ^^^ (temp0 >>> 4)) &&& (15728880 : BitVec 32)
  let temp0 : BitVec 32 := (temp0 ^^^ temp) ^^^ (temp <<< 4)
  let temp : BitVec 32 := (temp0 ^^^ (temp0 >>> 8)) &&& (65280 : BitVec 32)
  let temp0 : BitVec 32 := (temp0 ^^^ temp) ^^^ (temp <<< 8)
  let temp1 : BitVec 32 := high
  let temp : BitVec 32 := (temp1 ^^^ (temp1 >>> 1)) &&& (572662306 : BitVec 32)
  let temp1 : BitVec 32 := (temp1 ^^^ temp) ^^^ (temp <<< 1)
  let temp : BitVec 32 := (temp1 ^^^ (temp1 >>> 2)) &&& (202116108 : BitVec 32)
  let temp1 : BitVec 32 := (temp1 ^^^ temp) ^^^ (temp <<< 2)
  let temp : BitVec 32 := (temp1 ^^^ (temp1 >>> 4)) &&& (15728880 : BitVec 32)
  let temp1 : BitVec 32 := (temp1 ^^^ temp) ^^^ (temp <<< 4)
  let temp : BitVec 32 := (temp1 ^^^ (temp1 >>> 8)) &&& (65280 : BitVec 32)
  let temp1 : BitVec 32 := (temp1 ^^^ temp) ^^^ (temp <<< 8)
  let e9 : BitVec 32 ← ld32be stateAsHalfLanes (4 * ((((lanePosition * 2) % U32) + 0) % U32))
  st32be stateAsHalfLanes (4 * ((((lanePosition * 2) % U32) + 0) % U32)) (e9 ^^^ ((temp0 &&& (65535 : BitVec 32)) ||| (temp1 <<< 16)))
  let e10 : BitVec 32 ← ld32be stateAsHalfLanes (4 * ((((lanePosition * 2) % U32) + 1) % U32))
  st32be stateAsHalfLanes (4 * ((((lanePosition * 2) % U32) + 1) % U32)) (e10 ^^^ ((temp0 >>> 16) ||| (temp1 &&& (4294901760 : BitVec 32))))
  cfree .stack laneAsBytes
  pure ()

/-- sha3/plain32/KeccakP-1600-inplace32BI.c:170-206 `KeccakP1600_AddLanes`. -/
def KeccakP1600_AddLanes (state : CPtr) (data : CPtr) (laneCount : Nat) : CM Unit := do
  let lanePosition : Nat := 0
  let e1 : Nat ← cwhile
      (fun _s1 =>
        let lanePosition : Nat := _s1
        decide (lanePosition < laneCount))
      (fun _s1 => do
        let lanePosition : Nat := _s1
        let laneAsBytes ← alloc .stack (malloc 8 : Mem Byte)
        memcpy (α := Byte) laneAsBytes (padd data ((lanePosition * 8) % U32)) 8
        let e2 : Byte ← ld laneAsBytes 0
        let e3 : Byte ← ld laneAsBytes 1
        let e4 : Byte ← ld laneAsBytes 2
        let e5 : Byte ← ld laneAsBytes 3
        let low : BitVec 32 := (((BitVec.setWidth 32 e2) ||| ((BitVec.setWidth 32 e3) <<< 8)) ||| ((BitVec.setWidth 32 e4) <<< 16)) ||| ((BitVec.setWidth 32 e5) <<< 24)
        let e6 : Byte ← ld laneAsBytes 4
        let e7 : Byte ← ld laneAsBytes 5
        let e8 : Byte ← ld laneAsBytes 6
        let e9 : Byte ← ld laneAsBytes 7
        let high : BitVec 32 := (((BitVec.setWidth 32 e6) ||| ((BitVec.setWidth 32 e7) <<< 8)) ||| ((BitVec.setWidth 32 e8) <<< 16)) ||| ((BitVec.setWidth 32 e9) <<< 24)
        let stateAsHalfLanes : CPtr := state
        let temp0 : BitVec 32 := low
        let temp : BitVec 32 := (temp0 ^^^ (temp0 >>> 1)) &&& (572662306 : BitVec 32)
        let temp0 : BitVec 32 := (temp0 ^^^ temp) ^^^ (temp <<< 1)
        let temp : BitVec 32 := (temp0 ^^^ (temp0 >>> 2)) &&& (202116108 : BitVec 32)
        let temp0 : BitVec 32 := (temp0 ^^^ temp) ^^^ (temp <<< 2)
        let temp : BitVec 32 := (temp0 ^^^ (temp0 >>> 4)) &&& (15728880 : BitVec 32)
        let temp0 : BitVec 32 := (temp0 ^^^ temp) ^^^ (temp <<< 4)
        let temp : BitVec 32 := (temp0 ^^^ (temp0 >>> 8)) &&& (65280 : BitVec 32)
        let temp0 : BitVec 32 := (temp0 ^^^ temp) ^^^ (temp <<< 8)
        let temp1 : BitVec 32 := high
        let temp : BitVec 32 := (temp1 ^^^ (temp1 >>> 1)) &&& (572662306 : BitVec 32)
        let temp1 : BitVec 32 := (temp1 ^^^ temp) ^^^ (temp <<< 1)
        let temp : BitVec 32 := (temp1 ^^^ (temp1 >>> 2)) &&& (202116108 : BitVec 32)
        let temp1 : BitVec 32 := (temp1 ^^^ temp) ^^^ (temp <<< 2)
        let temp : BitVec 32 := (temp1 ^^^ (temp1 >>> 4)) &&& (15728880 : BitVec 32)
        let temp1 : BitVec 32 := (temp1 ^^^ temp) ^^^ (temp <<< 4)
        let temp : BitVec 32 := (temp1 ^^^ (temp1 >>> 8)) &&& (65280 : BitVec 32)
        let temp1 : BitVec 32 := (temp1 ^^^ temp) ^^^ (temp <<< 8)
        let e10 : BitVec 32 ← ld32be stateAsHalfLanes (4 * ((((lanePosition * 2) % U32) + 0) % U32))
        st32be stateAsHalfLanes (4 * ((((lanePosition * 2) % U32) + 0) % U32)) (e10 ^^^ ((temp0 &&& (65535 : BitVec 32)) ||| (temp1 <<< 16)))
        let e11 : BitVec 32 ← ld32be stateAsHalfLanes (4 * ((((lanePosition * 2) % U32) + 1) % U32))
        st32be stateAsHalfLanes (4 * ((((lanePosition * 2) % U32) + 1) % U32)) (e11 ^^^ ((temp0 >>> 16) ||| (temp1 &&& (4294901760 : BitVec 32))))
        cfree .stack laneAsBytes
        let lanePosition : Nat := (lanePosition + 1) % U32
        pure lanePosition)
      lanePosition
  let lanePosition : Nat := e1
  pure ()

/-- sha3/plain32/KeccakP-1600-inplace32BI.c:210-213 `KeccakP1600_AddBytes`. -/
def KeccakP1600_AddBytes (state : CPtr) (data : CPtr) (offset : Nat) (length : Nat) : CM Unit := do
  let e1 : Unit ← (
    if offset = 0 then (do
      KeccakP1600_AddLanes state data (length / 8)
      KeccakP1600_AddBytesInLane state (length / 8) (padd data (((length / 8) * 8) % U32)) 0 (length % 8)
      pure ())
    else (do
      let _sizeLeft : Nat := length
      let _lanePosition : Nat := offset / 8
      let _offsetInLane : Nat := offset % 8
      let _curData : CPtr := data
      let e2 : Nat × Nat × Nat × CPtr ← cwhile
          (fun _s1 =>
            let _sizeLeft : Nat := _s1.1
            decide (_sizeLeft > 0))
          (fun _s1 => do
            let _sizeLeft : Nat := _s1.1
            let _lanePosition : Nat := _s1.2.1
            let _offsetInLane : Nat := _s1.2.2.1
            let _curData : CPtr := _s1.2.2.2
            let _bytesInLane : Nat := (8 + U32 - _offsetInLane) % U32
            let e3 : Nat ← (
              if _bytesInLane > _sizeLeft then (do
                let _bytesInLane : Nat := _sizeLeft
                pure _bytesInLane)
              else (do
                pure _bytesInLane))
            let _bytesInLane : Nat := e3
            KeccakP1600_AddBytesInLane state _lanePosition _curData _offsetInLane _bytesInLane
            let _sizeLeft : Nat := (_sizeLeft + U32 - _bytesInLane) % U32
            let _lanePosition : Nat := (_lanePosition + 1) % U32
            let _offsetInLane : Nat := 0
            let _curData : CPtr := padd _curData _bytesInLane
            pure (_sizeLeft, _lanePosition, _offsetInLane, _curData))
          (_sizeLeft, _lanePosition, _offsetInLane, _curData)
      let _sizeLeft : Nat := e2.1
      let _lanePosition : Nat := e2.2.1
      let _offsetInLane : Nat := e2.2.2.1
      let _curData : CPtr := e2.2.2.2
      pure ()))
  pure ()

/-- sha3/plain32/KeccakP-1600-inplace32BI.c:287-308 `KeccakP1600_ExtractBytesInLane`. -/
def KeccakP1600_ExtractBytesInLane (state : CPtr) (lanePosition : Nat) (data : CPtr) (offset : Nat)
    (length : Nat) : CM Unit := do
  let stateAsHalfLanes : CPtr := state
  let laneAsBytes ← alloc .stack (malloc 8 : Mem Byte)
  let e1 : BitVec 32 ← ld32be stateAsHalfLanes (4 * ((lanePosition * 2) % U32))
  let temp0 : BitVec 32 := e1
  let e2 : BitVec 32 ← ld32be stateAsHalfLanes (4 * ((((lanePosition * 2) % U32) + 1) % U32))
  let temp1 : BitVec 32 := e2
  let temp : BitVec 32 := (temp0 &&& (65535 : BitVec 32)) ||| (temp1 <<< 16)
  let temp1 : BitVec 32 := (temp0 >>> 16) ||| (temp1 &&& (4294901760 : BitVec 32))
  let temp0 : BitVec 32 := temp
  let temp : BitVec 32 := (temp0 ^^^ (temp0 >>> 8)) &&& (65280 : BitVec 32)
  let temp0 : BitVec 32 := (temp0 ^^^ temp) ^^^ (temp <<< 8)
  let temp : BitVec 32 := (temp0 ^^^ (temp0 >>> 4)) &&& (15728880 : BitVec 32)
  let temp0 : BitVec 32 := (temp0 ^^^ temp) ^^^ (temp <<< 4)
  let temp : BitVec 32 := (temp0 ^^^ (temp0 >>> 2)) &&& (202116108 : BitVec 32)
  let temp0 : BitVec 32 := (temp0 ^^^ temp) ^^^ (temp <<< 2)
  let temp : BitVec 32 := (temp0 ^^^ (temp0 >>> 1)) &&& (572662306 : BitVec 32)
  let temp0 : BitVec 32 := (temp0 ^^^ temp) ^^^ (temp <<< 1)
  let temp : BitVec 32 := (temp1 ^^^ (temp1 >>> 8)) &&& (65280 : BitVec 32)
  let temp1 : BitVec 32 := (temp1 ^^^ temp) ^^^ (temp <<< 8)
  let temp : BitVec 32 := (temp1 ^^^ (temp1 >>> 4)) &&& (15728880 : BitVec 32)
  let temp1 : BitVec 32 := (temp1 ^^^ temp) ^^^ (temp <<< 4)
  let temp : BitVec 32 := (temp1 ^^^ (temp1 >>> 2)) &&& (202116108 : BitVec 32)
  let temp1 : BitVec 32 := (temp1 ^^^ temp) ^^^ (temp <<< 2)
  let temp : BitVec 32 := (temp1 ^^^ (temp1 >>> 1)) &&& (572662306 : BitVec 32)
  let temp1 : BitVec 32 := (temp1 ^^^ temp) ^^^ (temp <<< 1)
  let low : BitVec 32 := temp0
  let high : BitVec 32 := temp1
  st laneAsBytes 0 (BitVec.setWidth 8 (low &&& (255 : BitVec 32)))
  st laneAsBytes 1 (BitVec.setWidth 8 ((low >>> 8) &&& (255 : BitVec 32)))
  st laneAsBytes 2 (BitVec.setWidth 8 ((low >>> 16) &&& (255 : BitVec 32)))
  st laneAsBytes 3 (BitVec.setWidth 8 ((low >>> 24) &&& (255 : BitVec 32)))
  st laneAsBytes 4 (BitVec.setWidth 8 (high &&& (255 : BitVec 32)))
  st laneAsBytes 5 (BitVec.setWidth 8 ((high >>> 8) &&& (255 : BitVec 32)))
  st laneAsBytes 6 (BitVec.setWidth 8 ((high >>> 16) &&& (255 : BitVec 32)))
  st laneAsBytes 7 (BitVec.setWidth 8 ((high >>> 24) &&& (255 : BitVec 32)))
  memcpy (α := Byte) data (padd laneAsBytes offset) length
  cfree .stack laneAsBytes
  pure ()

/-- sha3/plain32/KeccakP-1600-inplace32BI.c:312-348 `KeccakP1600_ExtractLanes`. -/
def KeccakP1600_ExtractLanes (state : CPtr) (data : CPtr) (laneCount : Nat) : CM Unit := do
  let lanePosition : Nat := 0
  let e1 : Nat ← cwhile
      (fun _s1 =>
        let lanePosition : Nat := _s1
        decide (lanePosition < laneCount))
      (fun _s1 => do
        let lanePosition : Nat := _s1
        let stateAsHalfLanes : CPtr := state
        let e2 : BitVec 32 ← ld32be stateAsHalfLanes (4 * ((lanePosition * 2) % U32))
        let temp0 : BitVec 32 := e2
        let e3 : BitVec 32 ← ld32be stateAsHalfLanes (4 * ((((lanePosition * 2) % U32) + 1) % U32))
        let temp1 : BitVec 32 := e3
        let temp : BitVec 32 := (temp0 &&& (65535 : BitVec 32)) ||| (temp1 <<< 16)
        let temp1 : BitVec 32 := (temp0 >>> 16) ||| (temp1 &&& (4294901760 : BitVec 32))
        let temp0 : BitVec 32 := temp
        let temp : BitVec 32 := (temp0 ^^^ (temp0 >>> 8)) &&& (65280 : BitVec 32)
        let temp0 : BitVec 32 := (temp0 ^^^ temp) ^^^ (temp <<< 8)
        let temp : BitVec 32 := (temp0 ^^^ (temp0 >>> 4)) &&& (15728880 : BitVec 32)
        let temp0 : BitVec 32 := (temp0 ^^^ temp) ^^^ (temp <<< 4)
        let temp : BitVec 32 := (temp0 ^^^ (temp0 >>> 2)) &&& (202116108 : BitVec 32)
        let temp0 : BitVec 32 := (temp0 ^^^ temp) ^^^ (temp <<< 2)
        let temp : BitVec 32 := (temp0 ^^^ (temp0 >>> 1)) &&& (572662306 : BitVec 32)
        let temp0 : BitVec 32 := (temp0 ^^^ temp) ^^^ (temp <<< 1)
        let temp : BitVec 32 := (temp1 ^^^ (temp1 >>> 8)) &&& (65280 : BitVec 32)
        let temp1 : BitVec 32 := (temp1 ^^^ temp) ^^^ (temp <<< 8)
        let temp : BitVec 32 := (temp1 ^^^ (temp1 >>> 4)) &&& (15728880 : BitVec 32)
        let temp1 : BitVec 32 := (temp1 ^^^ temp) ^^^ (temp <<< 4)
        let temp : BitVec 32 := (temp1 ^^^ (temp1 >>> 2)) &&& (202116108 : BitVec 32)
        let temp1 : BitVec 32 := (temp1 ^^^ temp) ^^^ (temp <<< 2)
        let temp : BitVec 32 := (temp1 ^^^ (temp1 >>> 1)) &&& (572662306 : BitVec 32)
        let temp1 : BitVec 32 := (temp1 ^^^ temp) ^^^ (temp <<< 1)
        let low : BitVec 32 := temp0
        let high : BitVec 32 := temp1
        let laneAsBytes ← alloc .stack (malloc 8 : Mem Byte)
        st laneAsBytes 0 (BitVec.setWidth 8 (low &&& (255 : BitVec 32)))
        st laneAsBytes 1 (BitVec.setWidth 8 ((low >>> 8) &&& (255 : BitVec 32)))
        st laneAsBytes 2 (BitVec.setWidth 8 ((low >>> 16) &&& (255 : BitVec 32)))
        st laneAsBytes 3 (BitVec.setWidth 8 ((low >>> 24) &&& (255 : BitVec 32)))
        st laneAsBytes 4 (BitVec.setWidth 8 (high &&& (255 : BitVec 32)))
        st laneAsBytes 5 (BitVec.setWidth 8 ((high >>> 8) &&& (255 : BitVec 32)))
        st laneAsBytes 6 (BitVec.setWidth 8 ((high >>> 16) &&& (255 : BitVec 32)))
        st laneAsBytes 7 (BitVec.setWidth 8 ((high >>> 24) &&& (255 : BitVec 32)))
        memcpy (α := Byte) (padd data ((lanePosition * 8) % U32)) laneAsBytes 8
        cfree .stack laneAsBytes
        let lanePosition : Nat := (lanePosition + 1) % U32
        pure lanePosition)
      lanePosition
  let lanePosition : Nat := e1
  pure ()

/-- sha3/plain32/KeccakP-1600-inplace32BI.c:352-355 `KeccakP1600_ExtractBytes`. -/
def KeccakP1600_ExtractBytes (state : CPtr) (data : CPtr) (offset : Nat) (length : Nat) : CM Unit := do
  let e1 : Unit ← (
    if offset = 0 then (do
      KeccakP1600_ExtractLanes state data (length / 8)
      KeccakP1600_ExtractBytesInLane state (length / 8) (padd data (((length / 8) * 8) % U32)) 0 (length % 8)
      pure ())
    else (do
      let _sizeLeft : Nat := length
      let _lanePosition : Nat := offset / 8
      let _offsetInLane : Nat := offset % 8
      let _curData : CPtr := data
      let e2 : Nat × Nat × Nat × CPtr ← cwhile
          (fun _s1 =>
            let _sizeLeft : Nat := _s1.1
            decide (_sizeLeft > 0))
          (fun _s1 => do
            let _sizeLeft : Nat := _s1.1
            let _lanePosition : Nat := _s1.2.1
            let _offsetInLane : Nat := _s1.2.2.1
            let _curData : CPtr := _s1.2.2.2
            let _bytesInLane : Nat := (8 + U32 - _offsetInLane) % U32
            let e3 : Nat ← (
              if _bytesInLane > _sizeLeft then (do
                let _bytesInLane : Nat := _sizeLeft
                pure _bytesInLane)
              else (do
                pure _bytesInLane))
            let _bytesInLane : Nat := e3
            KeccakP1600_ExtractBytesInLane state _lanePosition _curData _offsetInLane _bytesInLane
            let _sizeLeft : Nat := (_sizeLeft + U32 - _bytesInLane) % U32
            let _lanePosition : Nat := (_lanePosition + 1) % U32
            let _offsetInLane : Nat := 0
            let _curData : CPtr := padd _curData _bytesInLane
            pure (_sizeLeft, _lanePosition, _offsetInLane, _curData))
          (_sizeLeft, _lanePosition, _offsetInLane, _curData)
      let _sizeLeft : Nat := e2.1
      let _lanePosition : Nat := e2.2.1
      let _offsetInLane : Nat := e2.2.2.1
      let _curData : CPtr := e2.2.2.2
      pure ()))
  pure ()

/-- sha3/plain32/KeccakP-1600-inplace32BI.c:963-1149 `KeccakP1600_Permute_Nrounds`. -/
def KeccakP1600_Permute_Nrounds (state : CPtr) (nRounds : Nat) : CM Unit := do
  let pRoundConstants : Nat := (((24 + U32 - nRounds) % U32) * 2) % U32
  let stateAsHalfLanes : CPtr := state
  let nRounds : Nat := nRounds &&& 3
  let e1 : Unit ← (
    if nRounds = 1 then (do
      let e2 : BitVec 32 ← ld32be (padd stateAsHalfLanes 40) 0
      let Ba : BitVec 32 := e2
      let e3 : BitVec 32 ← ld32be (padd stateAsHalfLanes 40) 4
      let Be : BitVec 32 := e3
      let e4 : BitVec 32 ← ld32be (padd stateAsHalfLanes 80) 0
      let Bi : BitVec 32 := e4
      let e5 : BitVec 32 ← ld32be (padd stateAsHalfLanes 80) 4
      let Bo : BitVec 32 := e5
      st32be (padd stateAsHalfLanes 40) 4 Bi
      st32be (padd stateAsHalfLanes 40) 0 Bo
      let e6 : BitVec 32 ← ld32be (padd stateAsHalfLanes 160) 0
      let Bi : BitVec 32 := e6
      let e7 : BitVec 32 ← ld32be (padd stateAsHalfLanes 160) 4
      let Bo : BitVec 32 := e7
      st32be (padd stateAsHalfLanes 80) 0 Bi
      st32be (padd stateAsHalfLanes 80) 4 Bo
      let e8 : BitVec 32 ← ld32be (padd stateAsHalfLanes 120) 0
      let Bi : BitVec 32 := e8
      let e9 : BitVec 32 ← ld32be (padd stateAsHalfLanes 120) 4
      let Bo : BitVec 32 := e9
      st32be (padd stateAsHalfLanes 160) 4 Bi
      st32be (padd stateAsHalfLanes 160) 0 Bo
      st32be (padd stateAsHalfLanes 120) 0 Ba
      st32be (padd stateAsHalfLanes 120) 4 Be
      let e10 : BitVec 32 ← ld32be (padd stateAsHalfLanes 8) 0
      let Ba : BitVec 32 := e10
      let e11 : BitVec 32 ← ld32be (padd stateAsHalfLanes 8) 4
      let Be : BitVec 32 := e11
      let e12 : BitVec 32 ← ld32be (padd stateAsHalfLanes 48) 0
      let Bi : BitVec 32 := e12
      let e13 : BitVec 32 ← ld32be (padd stateAsHalfLanes 48) 4
      let Bo : BitVec 32 := e13
      st32be (padd stateAsHalfLanes 8) 0 Bi
      st32be (padd stateAsHalfLanes 8) 4 Bo
      let e14 : BitVec 32 ← ld32be (padd stateAsHalfLanes 128) 0
      let Bi : BitVec 32 := e14
      let e15 : BitVec 32 ← ld32be (padd stateAsHalfLanes 128) 4
      let Bo : BitVec 32 := e15
      st32be (padd stateAsHalfLanes 48) 4 Bi
      st32be (padd stateAsHalfLanes 48) 0 Bo
      let e16 : BitVec 32 ← ld32be (padd stateAsHalfLanes 88) 0
      let Bi : BitVec 32 := e16
      let e17 : BitVec 32 ← ld32be (padd stateAsHalfLanes 88) 4
      let Bo : BitVec 32 := e17
      st32be (padd stateAsHalfLanes 128) 0 Bi
      st32be (padd stateAsHalfLanes 128) 4 Bo
      st32be (padd stateAsHalfLanes 88) 4 Ba
      st32be (padd stateAsHalfLanes 88) 0 Be
      let e18 : BitVec 32 ← ld32be (padd stateAsHalfLanes 16) 0
      let Ba : BitVec 32 := e18
      let e19 : BitVec 32 ← ld32be (padd stateAsHalfLanes 16) 4
      let Be : BitVec 32 := e19
      let e20 : BitVec 32 ← ld32be (padd stateAsHalfLanes 96) 0
      let Bi : BitVec 32 := e20
      let e21 : BitVec 32 ← ld32be (padd stateAsHalfLanes 96) 4
      let Bo : BitVec 32 := e21
      st32be (padd stateAsHalfLanes 16) 4 Bi
      st32be (padd stateAsHalfLanes 16) 0 Bo
      let e22 : BitVec 32 ← ld32be (padd stateAsHalfLanes 56) 0
      let Bi : BitVec 32 := e22
      let e23 : BitVec 32 ← ld32be (padd stateAsHalfLanes 56) 4
      let Bo : BitVec 32 := e23
      st32be (padd stateAsHalfLanes 96) 0 Bi
      st32be (padd stateAsHalfLanes 96) 4 Bo
      let e24 : BitVec 32 ← ld32be (padd stateAsHalfLanes 176) 0
      let Bi : BitVec 32 := e24
      let e25 : BitVec 32 ← ld32be (padd stateAsHalfLanes 176) 4
      let Bo : BitVec 32 := e25
      st32be (padd stateAsHalfLanes 56) 4 Bi
      st32be (padd stateAsHalfLanes 56) 0 Bo
      st32be (padd stateAsHalfLanes 176) 0 Ba
      st32be (padd stateAsHalfLanes 176) 4 Be
      let e26 : BitVec 32 ← ld32be stateAsHalfLanes 136
      let Bi : BitVec 32 := e26
      let e27 : BitVec 32 ← ld32be stateAsHalfLanes 140
      st32be stateAsHalfLanes 136 e27
      st32be stateAsHalfLanes 140 Bi
      let e28 : BitVec 32 ← ld32be (padd stateAsHalfLanes 24) 0
      let Ba : BitVec 32 := e28
      let e29 : BitVec 32 ← ld32be (padd stateAsHalfLanes 24) 4
      let Be : BitVec 32 := e29
      let e30 : BitVec 32 ← ld32be (padd stateAsHalfLanes 144) 0
      let Bi : BitVec 32 := e30
      let e31 : BitVec 32 ← ld32be (padd stateAsHalfLanes 144) 4
      let Bo : BitVec 32 := e31
      st32be (padd stateAsHalfLanes 24) 4 Bi
      st32be (padd stateAsHalfLanes 24) 0 Bo
      let e32 : BitVec 32 ← ld32be (padd stateAsHalfLanes 184) 0
      let Bi : BitVec 32 := e32
      let e33 : BitVec 32 ← ld32be (padd stateAsHalfLanes 184) 4
      let Bo : BitVec 32 := e33
      st32be (padd stateAsHalfLanes 144) 0 Bi
      st32be (padd stateAsHalfLanes 144) 4 Bo
      let e34 : BitVec 32 ← ld32be (padd stateAsHalfLanes 64) 0
      let Bi : BitVec 32 := e34
      let e35 : BitVec 32 ← ld32be (padd stateAsHalfLanes 64) 4
      let Bo : BitVec 32 := e35
      st32be (padd stateAsHalfLanes 184) 4 Bi
      st32be (padd stateAsHalfLanes 184) 0 Bo
      st32be (padd stateAsHalfLanes 64) 0 Ba
      st32be (padd stateAsHalfLanes 64) 4 Be
      let e36 : BitVec 32 ← ld32be stateAsHalfLanes 104
      let Bi : BitVec 32 := e36
      let e37 : BitVec 32 ← ld32be stateAsHalfLanes 108
      st32be stateAsHalfLanes 104 e37
      st32be stateAsHalfLanes 108 Bi
      let e38 : BitVec 32 ← ld32be (padd stateAsHalfLanes 32) 0
      let Ba : BitVec 32 := e38
      let e39 : BitVec 32 ← ld32be (padd stateAsHalfLanes 32) 4
      let Be : BitVec 32 := e39
      let e40 : BitVec 32 ← ld32be (padd stateAsHalfLanes 192) 0
      let Bi : BitVec 32 := e40
      let e41 : BitVec 32 ← ld32be (padd stateAsHalfLanes 192) 4
      let Bo : BitVec 32 := e41
      st32be (padd stateAsHalfLanes 32) 0 Bi
      st32be (padd stateAsHalfLanes 32) 4 Bo
      let e42 : BitVec 32 ← ld32be (padd stateAsHalfLanes 112) 0
      let Bi : BitVec 32 := e42
      let e43 : BitVec 32 ← ld32be (padd stateAsHalfLanes 112) 4
      let Bo : BitVec 32 := e43
      st32be (padd stateAsHalfLanes 192) 4 Bi
      st32be (padd stateAsHalfLanes 192) 0 Bo
      let e44 : BitVec 32 ← ld32be (padd stateAsHalfLanes 152) 0
      let Bi : BitVec 32 := e44
      let e45 : BitVec 32 ← ld32be (padd stateAsHalfLanes 152) 4
      let Bo : BitVec 32 := e45
      st32be (padd stateAsHalfLanes 112) 0 Bi
      st32be (padd stateAsHalfLanes 112) 4 Bo
      st32be (padd stateAsHalfLanes 152) 4 Ba
      st32be (padd stateAsHalfLanes 152) 0 Be
      pure ())
    else (if nRounds = 2 then (do
      let e46 : BitVec 32 ← ld32be (padd stateAsHalfLanes 40) 0
      let Ba : BitVec 32 := e46
      let e47 : BitVec 32 ← ld32be (padd stateAsHalfLanes 40) 4
      let Be : BitVec 32 := e47
      let e48 : BitVec 32 ← ld32be (padd stateAsHalfLanes 160) 0
      let Bi : BitVec 32 := e48
      let e49 : BitVec 32 ← ld32be (padd stateAsHalfLanes 160) 4
      let Bo : BitVec 32 := e49
      st32be (padd stateAsHalfLanes 40) 4 Bi
      st32be (padd stateAsHalfLanes 40) 0 Bo
      st32be (padd stateAsHalfLanes 160) 4 Ba
      st32be (padd stateAsHalfLanes 160) 0 Be
      let e50 : BitVec 32 ← ld32be (padd stateAsHalfLanes 80) 0
      let Ba : BitVec 32 := e50
      let e51 : BitVec 32 ← ld32be (padd stateAsHalfLanes 80) 4
      let Be : BitVec 32 := e51
      let e52 : BitVec 32 ← ld32be (padd stateAsHalfLanes 120) 0
      let Bi : BitVec 32 := e52
      let e53 : BitVec 32 ← ld32be (padd stateAsHalfLanes 120) 4
      let Bo : BitVec 32 := e53
      st32be (padd stateAsHalfLanes 80) 4 Bi
      st32be (padd stateAsHalfLanes 80) 0 Bo
      st32be (padd stateAsHalfLanes 120) 4 Ba
      st32be (padd stateAsHalfLanes 120) 0 Be
      let e54 : BitVec 32 ← ld32be (padd stateAsHalfLanes 8) 0
      let Ba : BitVec 32 := e54
      let e55 : BitVec 32 ← ld32be (padd stateAsHalfLanes 8) 4
      let Be : BitVec 32 := e55
      let e56 : BitVec 32 ← ld32be (padd stateAsHalfLanes 128) 0
      let Bi : BitVec 32 := e56
      let e57 : BitVec 32 ← ld32be (padd stateAsHalfLanes 128) 4
      let Bo : BitVec 32 := e57
      st32be (padd stateAsHalfLanes 8) 4 Bi
      st32be (padd stateAsHalfLanes 8) 0 Bo
      st32be (padd stateAsHalfLanes 128) 4 Ba
      st32be (padd stateAsHalfLanes 128) 0 Be
      let e58 : BitVec 32 ← ld32be (padd stateAsHalfLanes 48) 0
      let Ba : BitVec 32 := e58
      let e59 : BitVec 32 ← ld32be (padd stateAsHalfLanes 48) 4
      let Be : BitVec 32 := e59
      let e60 : BitVec 32 ← ld32be (padd stateAsHalfLanes 88) 0
      let Bi : BitVec 32 := e60
      let e61 : BitVec 32 ← ld32be (padd stateAsHalfLanes 88) 4
      let Bo : BitVec 32 := e61
      st32be (padd stateAsHalfLanes 48) 4 Bi
      st32be (padd stateAsHalfLanes 48) 0 Bo
      st32be (padd stateAsHalfLanes 88) 4 Ba
      st32be (padd stateAsHalfLanes 88) 0 Be
      let e62 : BitVec 32 ← ld32be (padd stateAsHalfLanes 16) 0
      let Ba : BitVec 32 := e62
      let e63 : BitVec 32 ← ld32be (padd stateAsHalfLanes 16) 4
      let Be : BitVec 32 := e63
      let e64 : BitVec 32 ← ld32be (padd stateAsHalfLanes 56) 0
      let Bi : BitVec 32 := e64
      let e65 : BitVec 32 ← ld32be (padd stateAsHalfLanes 56) 4
      let Bo : BitVec 32 := e65
      st32be (padd stateAsHalfLanes 16) 4 Bi
      st32be (padd stateAsHalfLanes 16) 0 Bo
      st32be (padd stateAsHalfLanes 56) 4 Ba
      st32be (padd stateAsHalfLanes 56) 0 Be
      let e66 : BitVec 32 ← ld32be (padd stateAsHalfLanes 96) 0
      let Ba : BitVec 32 := e66
      let e67 : BitVec 32 ← ld32be (padd stateAsHalfLanes 96) 4
      let Be : BitVec 32 := e67
      let e68 : BitVec 32 ← ld32be (padd stateAsHalfLanes 176) 0
      let Bi : BitVec 32 := e68
      let e69 : BitVec 32 ← ld32be (padd stateAsHalfLanes 176) 4
      let Bo : BitVec 32 := e69
      st32be (padd stateAsHalfLanes 96) 4 Bi
      st32be (padd stateAsHalfLanes 96) 0 Bo
      st32be (padd stateAsHalfLanes 176) 4 Ba
      st32be (padd stateAsHalfLanes 176) 0 Be
      let e70 : BitVec 32 ← ld32be (padd stateAsHalfLanes 24) 0
      let Ba : BitVec 32 := e70
      let e71 : BitVec 32 ← ld32be (padd stateAsHalfLanes 24) 4
      let Be : BitVec 32 := e71
      let e72 : BitVec 32 ← ld32be (padd stateAsHalfLanes 184) 0
      let Bi : BitVec 32 := e72
      let e73 : BitVec 32 ← ld32be (padd stateAsHalfLanes 184) 4
      let Bo : BitVec 32 := e73
      st32be (padd stateAsHalfLanes 24) 4 Bi
      st32be (padd stateAsHalfLanes 24) 0 Bo
      st32be (padd stateAsHalfLanes 184) 4 Ba
      st32be (padd stateAsHalfLanes 184) 0 Be
      let e74 : BitVec 32 ← ld32be (padd stateAsHalfLanes 64) 0
      let Ba : BitVec 32 := e74
      let e75 : BitVec 32 ← ld32be (padd stateAsHalfLanes 64) 4
      let Be : BitVec 32 := e75
      let e76 : BitVec 32 ← ld32be (padd stateAsHalfLanes 144) 0
      let Bi : BitVec 32 := e76
      let e77 : BitVec 32 ← ld32be (padd stateAsHalfLanes 144) 4
      let Bo : BitVec 32 := e77
      st32be (padd stateAsHalfLanes 64) 4 Bi
      st32be (padd stateAsHalfLanes 64) 0 Bo
      st32be (padd stateAsHalfLanes 144) 4 Ba
      st32be (padd stateAsHalfLanes 144) 0 Be
      let e78 : BitVec 32 ← ld32be (padd stateAsHalfLanes 32) 0
      let Ba : BitVec 32 := e78
      let e79 : BitVec 32 ← ld32be (padd stateAsHalfLanes 32) 4
      let Be : BitVec 32 := e79
      let e80 : BitVec 32 ← ld32be (padd stateAsHalfLanes 112) 0
      let Bi : BitVec 32 := e80
      let e81 : BitVec 32 ← ld32be (padd stateAsHalfLanes 112) 4
      let Bo : BitVec 32 := e81
      st32be (padd stateAsHalfLanes 32) 4 Bi
      st32be (padd stateAsHalfLanes 32) 0 Bo
      st32be (padd stateAsHalfLanes 112) 4 Ba
      st32be (padd stateAsHalfLanes 112) 0 Be
      let e82 : BitVec 32 ← ld32be (padd stateAsHalfLanes 152) 0
      let Ba : BitVec 32 := e82
      let e83 : BitVec 32 ← ld32be (padd stateAsHalfLanes 152) 4
      let Be : BitVec 32 := e83
      let e84 : BitVec 32 ← ld32be (padd stateAsHalfLanes 192) 0
      let Bi : BitVec 32 := e84
      let e85 : BitVec 32 ← ld32be (padd stateAsHalfLanes 192) 4
      let Bo : BitVec 32 := e85
      st32be (padd stateAsHalfLanes 152) 4 Bi
      st32be (padd stateAsHalfLanes 152) 0 Bo
      st32be (padd stateAsHalfLanes 192) 4 Ba
      st32be (padd stateAsHalfLanes 192) 0 Be
      pure ())
    else (if nRounds = 3 then (do
      let e86 : BitVec 32 ← ld32be (padd stateAsHalfLanes 40) 0
      let Ba : BitVec 32 := e86
      let e87 : BitVec 32 ← ld32be (padd stateAsHalfLanes 40) 4
      let Be : BitVec 32 := e87
      let e88 : BitVec 32 ← ld32be (padd stateAsHalfLanes 120) 0
      let Bi : BitVec 32 := e88
      let e89 : BitVec 32 ← ld32be (padd stateAsHalfLanes 120) 4
      let Bo : BitVec 32 := e89
      st32be (padd stateAsHalfLanes 40) 0 Bi
      st32be (padd stateAsHalfLanes 40) 4 Bo
      let e90 : BitVec 32 ← ld32be (padd stateAsHalfLanes 160) 0
      let Bi : BitVec 32 := e90
      let e91 : BitVec 32 ← ld32be (padd stateAsHalfLanes 160) 4
      let Bo : BitVec 32 := e91
      st32be (padd stateAsHalfLanes 120) 4 Bi
      st32be (padd stateAsHalfLanes 120) 0 Bo
      let e92 : BitVec 32 ← ld32be (padd stateAsHalfLanes 80) 0
      let Bi : BitVec 32 := e92
      let e93 : BitVec 32 ← ld32be (padd stateAsHalfLanes 80) 4
      let Bo : BitVec 32 := e93
      st32be (padd stateAsHalfLanes 160) 0 Bi
      st32be (padd stateAsHalfLanes 160) 4 Bo
      st32be (padd stateAsHalfLanes 80) 4 Ba
      st32be (padd stateAsHalfLanes 80) 0 Be
      let e94 : BitVec 32 ← ld32be (padd stateAsHalfLanes 8) 0
      let Ba : BitVec 32 := e94
      let e95 : BitVec 32 ← ld32be (padd stateAsHalfLanes 8) 4
      let Be : BitVec 32 := e95
      let e96 : BitVec 32 ← ld32be (padd stateAsHalfLanes 88) 0
      let Bi : BitVec 32 := e96
      let e97 : BitVec 32 ← ld32be (padd stateAsHalfLanes 88) 4
      let Bo : BitVec 32 := e97
      st32be (padd stateAsHalfLanes 8) 4 Bi
      st32be (padd stateAsHalfLanes 8) 0 Bo
      let e98 : BitVec 32 ← ld32be (padd stateAsHalfLanes 128) 0
      let Bi : BitVec 32 := e98
      let e99 : BitVec 32 ← ld32be (padd stateAsHalfLanes 128) 4
      let Bo : BitVec 32 := e99
      st32be (padd stateAsHalfLanes 88) 0 Bi
      st32be (padd stateAsHalfLanes 88) 4 Bo
      let e100 : BitVec 32 ← ld32be (padd stateAsHalfLanes 48) 0
      let Bi : BitVec 32 := e100
      let e101 : BitVec 32 ← ld32be (padd stateAsHalfLanes 48) 4
      let Bo : BitVec 32 := e101
      st32be (padd stateAsHalfLanes 128) 4 Bi
      st32be (padd stateAsHalfLanes 128) 0 Bo
      st32be (padd stateAsHalfLanes 48) 0 Ba
      st32be (padd stateAsHalfLanes 48) 4 Be
      let e102 : BitVec 32 ← ld32be (padd stateAsHalfLanes 16) 0
      let Ba : BitVec 32 := e102
      let e103 : BitVec 32 ← ld32be (padd stateAsHalfLanes 16) 4
      let Be : BitVec 32 := e103
      let e104 : BitVec 32 ← ld32be (padd stateAsHalfLanes 176) 0
      let Bi : BitVec 32 := e104
      let e105 : BitVec 32 ← ld32be (padd stateAsHalfLanes 176) 4
      let Bo : BitVec 32 := e105
      st32be (padd stateAsHalfLanes 16) 0 Bi
      st32be (padd stateAsHalfLanes 16) 4 Bo
      let e106 : BitVec 32 ← ld32be (padd stateAsHalfLanes 56) 0
      let Bi : BitVec 32 := e106
      let e107 : BitVec 32 ← ld32be (padd stateAsHalfLanes 56) 4
      let Bo : BitVec 32 := e107
      st32be (padd stateAsHalfLanes 176) 4 Bi
      st32be (padd stateAsHalfLanes 176) 0 Bo
      let e108 : BitVec 32 ← ld32be (padd stateAsHalfLanes 96) 0
      let Bi : BitVec 32 := e108
      let e109 : BitVec 32 ← ld32be (padd stateAsHalfLanes 96) 4
      let Bo : BitVec 32 := e109
      st32be (padd stateAsHalfLanes 56) 0 Bi
      st32be (padd stateAsHalfLanes 56) 4 Bo
      st32be (padd stateAsHalfLanes 96) 4 Ba
      st32be (padd stateAsHalfLanes 96) 0 Be
      let e110 : BitVec 32 ← ld32be stateAsHalfLanes 136
      let Bi : BitVec 32 := e110
      let e111 : BitVec 32 ← ld32be stateAsHalfLanes 140
      st32be stateAsHalfLanes 136 e111
      st32be stateAsHalfLanes 140 Bi
      let e112 : BitVec 32 ← ld32be (padd stateAsHalfLanes 24) 0
      let Ba : BitVec 32 := e112
      let e113 : BitVec 32 ← ld32be (padd stateAsHalfLanes 24) 4
      let Be : BitVec 32 := e113
      let e114 : BitVec 32 ← ld32be (padd stateAsHalfLanes 64) 0
      let Bi : BitVec 32 := e114
      let e115 : BitVec 32 ← ld32be (padd stateAsHalfLanes 64) 4
      let Bo : BitVec 32 := e115
      st32be (padd stateAsHalfLanes 24) 0 Bi
      st32be (padd stateAsHalfLanes 24) 4 Bo
      let e116 : BitVec 32 ← ld32be (padd stateAsHalfLanes 184) 0
      let Bi : BitVec 32 := e116
      let e117 : BitVec 32 ← ld32be (padd stateAsHalfLanes 184) 4
      let Bo : BitVec 32 := e117
      st32be (padd stateAsHalfLanes 64) 4 Bi
      st32be (padd stateAsHalfLanes 64) 0 Bo
      let e118 : BitVec 32 ← ld32be (padd stateAsHalfLanes 144) 0
      let Bi : BitVec 32 := e118
      let e119 : BitVec 32 ← ld32be (padd stateAsHalfLanes 144) 4
      let Bo : BitVec 32 := e119
      st32be (padd stateAsHalfLanes 184) 0 Bi
      st32be (padd stateAsHalfLanes 184) 4 Bo
      st32be (padd stateAsHalfLanes 144) 4 Ba
      st32be (padd stateAsHalfLanes 144) 0 Be
      let e120 : BitVec 32 ← ld32be stateAsHalfLanes 104
      let Bi : BitVec 32 := e120
      let e121 : BitVec 32 ← ld32be stateAsHalfLanes 108
      st32be stateAsHalfLanes 104 e121
      st32be stateAsHalfLanes 108 Bi
      let e122 : BitVec 32 ← ld32be (padd stateAsHalfLanes 32) 0
      let Ba : BitVec 32 := e122
      let e123 : BitVec 32 ← ld32be (padd stateAsHalfLanes 32) 4
      let Be : BitVec 32 := e123
      let e124 : BitVec 32 ← ld32be (padd stateAsHalfLanes 152) 0
      let Bi : BitVec 32 := e124
      let e125 : BitVec 32 ← ld32be (padd stateAsHalfLanes 152) 4
      let Bo : BitVec 32 := e125
      st32be (padd stateAsHalfLanes 32) 4 Bi
      st32be (padd stateAsHalfLanes 32) 0 Bo
      let e126 : BitVec 32 ← ld32be (padd stateAsHalfLanes 112) 0
      let Bi : BitVec 32 := e126
      let e127 : BitVec 32 ← ld32be (padd stateAsHalfLanes 112) 4
      let Bo : BitVec 32 := e127
      st32be (padd stateAsHalfLanes 152) 0 Bi
      st32be (padd stateAsHalfLanes 152) 4 Bo
      let e128 : BitVec 32 ← ld32be (padd stateAsHalfLanes 192) 0
      let Bi : BitVec 32 := e128
      let e129 : BitVec 32 ← ld32be (padd stateAsHalfLanes 192) 4
      let Bo : BitVec 32 := e129
      st32be (padd stateAsHalfLanes 112) 4 Bi
      st32be (padd stateAsHalfLanes 112) 0 Bo
      st32be (padd stateAsHalfLanes 192) 0 Ba
      st32be (padd stateAsHalfLanes 192) 4 Be
      pure ())
    else (do
      pure ()))))
  let again : Nat := 1
  let e130 : Nat × Nat × Nat ← cwhile
      (fun _s1 =>
        let again : Nat := _s1.2.2
        decide (again ≠ 0))
      (fun _s1 => do
        let nRounds : Nat := _s1.1
        let pRoundConstants : Nat := _s1.2.1
        let again : Nat := _s1.2.2
        let e131 : Nat ← (
          if nRounds = 0 then (do
            let e132 ← KeccakRound0 stateAsHalfLanes pRoundConstants
            let pRoundConstants : Nat := e132
            let e133 ← KeccakRound1 stateAsHalfLanes pRoundConstants
            let pRoundConstants : Nat := e133
            let e134 ← KeccakRound2 stateAsHalfLanes pRoundConstants
            let pRoundConstants : Nat := e134
            let e135 ← KeccakRound3 stateAsHalfLanes pRoundConstants
            let pRoundConstants : Nat := e135
            pure pRoundConstants)
          else (if nRounds = 3 then (do
            let e136 ← KeccakRound1 stateAsHalfLanes pRoundConstants
            let pRoundConstants : Nat := e136
            let e137 ← KeccakRound2 stateAsHalfLanes pRoundConstants
            let pRoundConstants : Nat := e137
            let e138 ← KeccakRound3 stateAsHalfLanes pRoundConstants
            let pRoundConstants : Nat := e138
            pure pRoundConstants)
          else (if nRounds = 2 then (do
            let e139 ← KeccakRound2 stateAsHalfLanes pRoundConstants
            let pRoundConstants : Nat := e139
            let e140 ← KeccakRound3 stateAsHalfLanes pRoundConstants
            let pRoundConstants : Nat := e140
            pure pRoundConstants)
          else (if nRounds = 1 then (do
            let e141 ← KeccakRound3 stateAsHalfLanes pRoundConstants
            let pRoundConstants : Nat := e141
            pure pRoundConstants)
          else (do
            pure pRoundConstants)))))
        let pRoundConstants : Nat := e131
        let nRounds : Nat := 0
        let e142 ← tget32 GenP.KeccakF1600RoundConstants_int2 pRoundConstants
        let e143 : Nat ← (
          if e142 ≠ (255 : BitVec 32) then (do
            let again : Nat := 1
            pure again)
          else (do
            let again : Nat := 0
            pure again))
        let again : Nat := e143
        pure (nRounds, pRoundConstants, again))
      (nRounds, pRoundConstants, again)
  let nRounds : Nat := e130.1
  let pRoundConstants : Nat := e130.2.1
  let again : Nat := e130.2.2
  pure ()

/-- sha3/plain32/KeccakP-1600-inplace32BI.c:1160-1163 `KeccakP1600_Permute_24rounds`. -/
def KeccakP1600_Permute_24rounds (state : CPtr) : CM Unit := do
  KeccakP1600_Permute_Nrounds state 24
  pure ()

/-- sha3/KeccakSponge.inc:134-147 `KeccakWidth1600_SpongeInitialize`. -/
def KeccakWidth1600_SpongeInitialize (instance_ : SpongeC) (rate : Nat) (capacity : Nat) : CM (Nat × SpongeC) := do
  if ((rate + capacity) % U32) ≠ 1600 then (do
    pure (1, instance_))
  else (do
    if ((rate ≤ 0) ∨ (rate > 1600)) ∨ ((rate % 8) ≠ 0) then (do
      pure (1, instance_))
    else (do
      KeccakP1600_Initialize instance_.state
      let instance_ := { instance_ with rate := some rate }
      let instance_ := { instance_ with byteIOIndex := some 0 }
      let instance_ := { instance_ with squeezing := some 0 }
      pure (0, instance_)))

/-- sha3/KeccakSponge.inc:151-208 `KeccakWidth1600_SpongeAbsorb`. -/
def KeccakWidth1600_SpongeAbsorb (instance_ : SpongeC) (data : CPtr) (dataByteLen : Nat) : CM (Nat × SpongeC) := do
  let e1 ← uget instance_.rate
  let rateInBytes : Nat := e1 / 8
  let e2 ← uget instance_.squeezing
  if e2 ≠ 0 then (do
    pure (1, instance_))
  else (do
    let i : Nat := 0
    let curData : CPtr := data
    let e3 : SpongeC × Nat × CPtr ← cwhile
        (fun _s1 =>
          let i : Nat := _s1.2.1
          decide (i < dataByteLen))
        (fun _s1 => do
          let instance_ : SpongeC := _s1.1
          let i : Nat := _s1.2.1
          let curData : CPtr := _s1.2.2
          let e4 ← uget instance_.byteIOIndex
          let e5 : SpongeC × Nat × CPtr ← (
            if (e4 = 0) ∧ (dataByteLen ≥ ((i + rateInBytes) % U64)) then (do
              let j : Nat := (dataByteLen + U64 - i) % U64
              let e6 : Nat × CPtr ← cwhile
                  (fun _s2 =>
                    let j : Nat := _s2.1
                    decide (j ≥ rateInBytes))
                  (fun _s2 => do
                    let j : Nat := _s2.1
                    let curData : CPtr := _s2.2
                    KeccakP1600_AddBytes instance_.state curData 0 rateInBytes
                    KeccakP1600_Permute_24rounds instance_.state
                    let curData : CPtr := padd curData rateInBytes
                    let j : Nat := (j + U64 - rateInBytes) % U64
                    pure (j, curData))
                  (j, curData)
              let j : Nat := e6.1
              let curData : CPtr := e6.2
              let i : Nat := (dataByteLen + U64 - j) % U64
              pure (instance_, i, curData))
            else (do
              let partialBlock : Nat := ((dataByteLen + U64 - i) % U64) % U32
              let e7 ← uget instance_.byteIOIndex
              let e8 : Nat ← (
                if ((partialBlock + e7) % U32) > rateInBytes then (do
                  let e9 ← uget instance_.byteIOIndex
                  let partialBlock : Nat := (rateInBytes + U32 - e9) % U32
                  pure partialBlock)
                else (do
                  pure partialBlock))
              let partialBlock : Nat := e8
              let i : Nat := (i + partialBlock) % U64
              let e10 ← uget instance_.byteIOIndex
              KeccakP1600_AddBytes instance_.state curData e10 partialBlock
              let curData : CPtr := padd curData partialBlock
              let e11 ← uget instance_.byteIOIndex
              let instance_ := { instance_ with byteIOIndex := some ((e11 + partialBlock) % U32) }
              let e12 ← uget instance_.byteIOIndex
              let e13 : SpongeC ← (
                if e12 = rateInBytes then (do
                  KeccakP1600_Permute_24rounds instance_.state
                  let instance_ := { instance_ with byteIOIndex := some 0 }
                  pure instance_)
                else (do
                  pure instance_))
              let instance_ : SpongeC := e13
              pure (instance_, i, curData)))
          let instance_ : SpongeC := e5.1
          let i : Nat := e5.2.1
          let curData : CPtr := e5.2.2
          pure (instance_, i, curData))
        (instance_, i, curData)
    let instance_ : SpongeC := e3.1
    let i : Nat := e3.2.1
    let curData : CPtr := e3.2.2
    pure (0, instance_))

/-- sha3/KeccakSponge.inc:212-250 `KeccakWidth1600_SpongeAbsorbLastFewBits`. -/
def KeccakWidth1600_SpongeAbsorbLastFewBits (instance_ : SpongeC) (delimitedData : Byte) : CM (Nat × SpongeC) := do
  let e1 ← uget instance_.rate
  let rateInBytes : Nat := e1 / 8
  if delimitedData.toNat = 0 then (do
    pure (1, instance_))
  else (do
    let e2 ← uget instance_.squeezing
    if e2 ≠ 0 then (do
      pure (1, instance_))
    else (do
      let e3 ← uget instance_.byteIOIndex
      KeccakP1600_AddByte instance_.state delimitedData e3
      let e4 ← uget instance_.byteIOIndex
      let e5 : Unit ← (
        if (delimitedData.toNat ≥ 128) ∧ (e4 = ((rateInBytes + U32 - 1) % U32)) then (do
          KeccakP1600_Permute_24rounds instance_.state
          pure ())
        else (do
          pure ()))
      KeccakP1600_AddByte instance_.state (128 : Byte) ((rateInBytes + U32 - 1) % U32)
      KeccakP1600_Permute_24rounds instance_.state
      let instance_ := { instance_ with byteIOIndex := some 0 }
      let instance_ := { instance_ with squeezing := some 1 }
      pure (0, instance_)))

/-- sha3/KeccakSponge.inc:254-298 `KeccakWidth1600_SpongeSqueeze`. -/
def KeccakWidth1600_SpongeSqueeze (instance_ : SpongeC) (data : CPtr) (dataByteLen : Nat) : CM (Nat × SpongeC) := do
  let e1 ← uget instance_.rate
  let rateInBytes : Nat := e1 / 8
  let e2 ← uget instance_.squeezing
  let e3 : SpongeC ← (
    if ¬ (e2 ≠ 0) then (do
      let e4 ← KeccakWidth1600_SpongeAbsorbLastFewBits instance_ (1 : Byte)
      let instance_ := e4.2
      pure instance_)
    else (do
      pure instance_))
  let instance_ : SpongeC := e3
  let i : Nat := 0
  let curData : CPtr := data
  let e5 : SpongeC × Nat × CPtr ← cwhile
      (fun _s1 =>
        let i : Nat := _s1.2.1
        decide (i < dataByteLen))
      (fun _s1 => do
        let instance_ : SpongeC := _s1.1
        let i : Nat := _s1.2.1
        let curData : CPtr := _s1.2.2
        let e6 ← uget instance_.byteIOIndex
        let e7 : SpongeC × Nat × CPtr ← (
          if (e6 = rateInBytes) ∧ (dataByteLen ≥ ((i + rateInBytes) % U64)) then (do
            let j : Nat := (dataByteLen + U64 - i) % U64
            let e8 : Nat × CPtr ← cwhile
                (fun _s2 =>
                  let j : Nat := _s2.1
                  decide (j ≥ rateInBytes))
                (fun _s2 => do
                  let j : Nat := _s2.1
                  let curData : CPtr := _s2.2
                  KeccakP1600_Permute_24rounds instance_.state
                  KeccakP1600_ExtractBytes instance_.state curData 0 rateInBytes
                  let curData : CPtr := padd curData rateInBytes
                  let j : Nat := (j + U64 - rateInBytes) % U64
                  pure (j, curData))
                (j, curData)
            let j : Nat := e8.1
            let curData : CPtr := e8.2
            let i : Nat := (dataByteLen + U64 - j) % U64
            pure (instance_, i, curData))
          else (do
            let e9 ← uget instance_.byteIOIndex
            let e10 : SpongeC ← (
              if e9 = rateInBytes then (do
                KeccakP1600_Permute_24rounds instance_.state
                let instance_ := { instance_ with byteIOIndex := some 0 }
                pure instance_)
              else (do
                pure instance_))
            let instance_ : SpongeC := e10
            let partialBlock : Nat := ((dataByteLen + U64 - i) % U64) % U32
            let e11 ← uget instance_.byteIOIndex
            let e12 : Nat ← (
              if ((partialBlock + e11) % U32) > rateInBytes then (do
                let e13 ← uget instance_.byteIOIndex
                let partialBlock : Nat := (rateInBytes + U32 - e13) % U32
                pure partialBlock)
              else (do
                pure partialBlock))
            let partialBlock : Nat := e12
            let i : Nat := (i + partialBlock) % U64
            let e14 ← uget instance_.byteIOIndex
            KeccakP1600_ExtractBytes instance_.state curData e14 partialBlock
            let curData : CPtr := padd curData partialBlock
            let e15 ← uget instance_.byteIOIndex
            let instance_ := { instance_ with byteIOIndex := some ((e15 + partialBlock) % U32) }
            pure (instance_, i, curData)))
        let instance_ : SpongeC := e7.1
        let i : Nat := e7.2.1
        let curData : CPtr := e7.2.2
        pure (instance_, i, curData))
      (instance_, i, curData)
  let instance_ : SpongeC := e5.1
  let i : Nat := e5.2.1
  let curData : CPtr := e5.2.2
  pure (0, instance_)

/-- sha3/plain32/PlSnP-Fallback.inc:66-69 `KeccakP1600times4_StaticInitialize`. -/
def KeccakP1600times4_StaticInitialize : CM Unit := do
  pure ()

/-- sha3/plain32/PlSnP-Fallback.inc:71-81 `KeccakP1600times4_InitializeAll`. -/
def KeccakP1600times4_InitializeAll (states : CPtr) : CM Unit := do
  let i : Nat := 0
  let e1 : Nat ← cwhile
      (fun _s1 =>
        let i : Nat := _s1
        decide (i < 4))
      (fun _s1 => do
        let i : Nat := _s1
        KeccakP1600_Initialize (padd states ((i * 200) % U32))
        let i : Nat := (i + 1) % U32
        pure i)
      i
  let i : Nat := e1
  pure ()

/-- sha3/plain32/PlSnP-Fallback.inc:83-90 `KeccakP1600times4_AddByte`. -/
def KeccakP1600times4_AddByte (states : CPtr) (instanceIndex : Nat) (byte : Byte) (offset : Nat) : CM Unit := do
  KeccakP1600_AddByte (padd states ((instanceIndex * 200) % U32)) byte offset
  pure ()

/-- sha3/plain32/PlSnP-Fallback.inc:92-99 `KeccakP1600times4_AddBytes`. -/
def KeccakP1600times4_AddBytes (states : CPtr) (instanceIndex : Nat) (data : CPtr) (offset : Nat) (length : Nat) : CM Unit := do
  KeccakP1600_AddBytes (padd states ((instanceIndex * 200) % U32)) data offset length
  pure ()

/-- sha3/plain32/PlSnP-Fallback.inc:147-158 `KeccakP1600times4_PermuteAll_24rounds`. -/
def KeccakP1600times4_PermuteAll_24rounds (states : CPtr) : CM Unit := do
  let i : Nat := 0
  let e1 : Nat ← cwhile
      (fun _s1 =>
        let i : Nat := _s1
        decide (i < 4))
      (fun _s1 => do
        let i : Nat := _s1
        KeccakP1600_Permute_24rounds (padd states ((i * 200) % U32))
        let i : Nat := (i + 1) % U32
        pure i)
      i
  let i : Nat := e1
  pure ()

/-- sha3/plain32/PlSnP-Fallback.inc:205-212 `KeccakP1600times4_ExtractBytes`. -/
def KeccakP1600times4_ExtractBytes (states : CPtr) (instanceIndex : Nat) (data : CPtr) (offset : Nat)
    (length : Nat) : CM Unit := do
  KeccakP1600_ExtractBytes (padd states ((instanceIndex * 200) % U32)) data offset length
  pure ()

end Faest.GenPB
