/-
Generated by tools/c2hash.py from sha3/opt64/KeccakP-1600-opt64.c, its macro files, sha3/SnP-Relaned.h, sha3/KeccakSponge.c, KeccakSponge.inc, sha3/opt64/KeccakP-1600-times4-on1.c and PlSnP-Fallback.inc, for a big-endian host. Do not edit.
-/
import Verif.Model.CHashBe
import Verif.Model.Gen.KeccakP

set_option linter.unusedVariables false

namespace Faest.GenB
open Faest.C

/-- sha3/opt64/KeccakP-1600-64.macros:461-487 `copyFromState`. -/
def copyFromState (state : CPtr) : CM Keccak.Lanes := do
  let e1 : BitVec 64 ← ld64be state 0
  let Xba : BitVec 64 := e1
  let e2 : BitVec 64 ← ld64be state 8
  let Xbe : BitVec 64 := e2
  let e3 : BitVec 64 ← ld64be state 16
  let Xbi : BitVec 64 := e3
  let e4 : BitVec 64 ← ld64be state 24
  let Xbo : BitVec 64 := e4
  let e5 : BitVec 64 ← ld64be state 32
  let Xbu : BitVec 64 := e5
  let e6 : BitVec 64 ← ld64be state 40
  let Xga : BitVec 64 := e6
  let e7 : BitVec 64 ← ld64be state 48
  let Xge : BitVec 64 := e7
  let e8 : BitVec 64 ← ld64be state 56
  let Xgi : BitVec 64 := e8
  let e9 : BitVec 64 ← ld64be state 64
  let Xgo : BitVec 64 := e9
  let e10 : BitVec 64 ← ld64be state 72
  let Xgu : BitVec 64 := e10
  let e11 : BitVec 64 ← ld64be state 80
  let Xka : BitVec 64 := e11
  let e12 : BitVec 64 ← ld64be state 88
  let Xke : BitVec 64 := e12
  let e13 : BitVec 64 ← ld64be state 96
  let Xki : BitVec 64 := e13
  let e14 : BitVec 64 ← ld64be state 104
  let Xko : BitVec 64 := e14
  let e15 : BitVec 64 ← ld64be state 112
  let Xku : BitVec 64 := e15
  let e16 : BitVec 64 ← ld64be state 120
  let Xma : BitVec 64 := e16
  let e17 : BitVec 64 ← ld64be state 128
  let Xme : BitVec 64 := e17
  let e18 : BitVec 64 ← ld64be state 136
  let Xmi : BitVec 64 := e18
  let e19 : BitVec 64 ← ld64be state 144
  let Xmo : BitVec 64 := e19
  let e20 : BitVec 64 ← ld64be state 152
  let Xmu : BitVec 64 := e20
  let e21 : BitVec 64 ← ld64be state 160
  let Xsa : BitVec 64 := e21
  let e22 : BitVec 64 ← ld64be state 168
  let Xse : BitVec 64 := e22
  let e23 : BitVec 64 ← ld64be state 176
  let Xsi : BitVec 64 := e23
  let e24 : BitVec 64 ← ld64be state 184
  let Xso : BitVec 64 := e24
  let e25 : BitVec 64 ← ld64be state 192
  let Xsu : BitVec 64 := e25
  pure ⟨Xba, Xbe, Xbi, Xbo, Xbu, Xga, Xge, Xgi, Xgo, Xgu, Xka, Xke, Xki, Xko, Xku, Xma, Xme, Xmi, Xmo, Xmu, Xsa, Xse, Xsi, Xso, Xsu⟩

/-- sha3/opt64/KeccakP-1600-64.macros:488-514 `copyToState`. -/
def copyToState (state : CPtr) (X : Keccak.Lanes) : CM Unit := do
  let Xba : BitVec 64 := X.ba
  let Xbe : BitVec 64 := X.be
  let Xbi : BitVec 64 := X.bi
  let Xbo : BitVec 64 := X.bo
  let Xbu : BitVec 64 := X.bu
  let Xga : BitVec 64 := X.ga
  let Xge : BitVec 64 := X.ge
  let Xgi : BitVec 64 := X.gi
  let Xgo : BitVec 64 := X.go
  let Xgu : BitVec 64 := X.gu
  let Xka : BitVec 64 := X.ka
  let Xke : BitVec 64 := X.ke
  let Xki : BitVec 64 := X.ki
  let Xko : BitVec 64 := X.ko
  let Xku : BitVec 64 := X.ku
  let Xma : BitVec 64 := X.ma
  let Xme : BitVec 64 := X.me
  let Xmi : BitVec 64 := X.mi
  let Xmo : BitVec 64 := X.mo
  let Xmu : BitVec 64 := X.mu
  let Xsa : BitVec 64 := X.sa
  let Xse : BitVec 64 := X.se
  let Xsi : BitVec 64 := X.si
  let Xso : BitVec 64 := X.so
  let Xsu : BitVec 64 := X.su
  st64be state 0 Xba
  st64be state 8 Xbe
  st64be state 16 Xbi
  st64be state 24 Xbo
  st64be state 32 Xbu
  st64be state 40 Xga
  st64be state 48 Xge
  st64be state 56 Xgi
  st64be state 64 Xgo
  st64be state 72 Xgu
  st64be state 80 Xka
  st64be state 88 Xke
  st64be state 96 Xki
  st64be state 104 Xko
  st64be state 112 Xku
  st64be state 120 Xma
  st64be state 128 Xme
  st64be state 136 Xmi
  st64be state 144 Xmo
  st64be state 152 Xmu
  st64be state 160 Xsa
  st64be state 168 Xse
  st64be state 176 Xsi
  st64be state 184 Xso
  st64be state 192 Xsu
  pure ()

/-- sha3/opt64/KeccakP-1600-64.macros:542-734 `addInput`. -/
def addInput (X : Keccak.Lanes) (input : CPtr) (laneCount : Nat) : CM Keccak.Lanes := do
  let Xba : BitVec 64 := X.ba
  let Xbe : BitVec 64 := X.be
  let Xbi : BitVec 64 := X.bi
  let Xbo : BitVec 64 := X.bo
  let Xbu : BitVec 64 := X.bu
  let Xga : BitVec 64 := X.ga
  let Xge : BitVec 64 := X.ge
  let Xgi : BitVec 64 := X.gi
  let Xgo : BitVec 64 := X.go
  let Xgu : BitVec 64 := X.gu
  let Xka : BitVec 64 := X.ka
  let Xke : BitVec 64 := X.ke
  let Xki : BitVec 64 := X.ki
  let Xko : BitVec 64 := X.ko
  let Xku : BitVec 64 := X.ku
  let Xma : BitVec 64 := X.ma
  let Xme : BitVec 64 := X.me
  let Xmi : BitVec 64 := X.mi
  let Xmo : BitVec 64 := X.mo
  let Xmu : BitVec 64 := X.mu
  let Xsa : BitVec 64 := X.sa
  let Xse : BitVec 64 := X.se
  let Xsi : BitVec 64 := X.si
  let Xso : BitVec 64 := X.so
  let Xsu : BitVec 64 := X.su
  let e1 : BitVec 64 × BitVec 64 × BitVec 64 × BitVec 64 × BitVec 64 × BitVec 64 × BitVec 64 × BitVec 64 × BitVec 64 × BitVec 64 × BitVec 64 × BitVec 64 × BitVec 64 × BitVec 64 × BitVec 64 × BitVec 64 × BitVec 64 × BitVec 64 × BitVec 64 × BitVec 64 × BitVec 64 × BitVec 64 × BitVec 64 × BitVec 64 × BitVec 64 ← (
    if laneCount = 21 then (do
      let e2 : BitVec 64 ← ld64be input 0
      let Xba : BitVec 64 := Xba ^^^ (bswap64 e2)
      let e3 : BitVec 64 ← ld64be input 8
      let Xbe : BitVec 64 := Xbe ^^^ (bswap64 e3)
      let e4 : BitVec 64 ← ld64be input 16
      let Xbi : BitVec 64 := Xbi ^^^ (bswap64 e4)
      let e5 : BitVec 64 ← ld64be input 24
      let Xbo : BitVec 64 := Xbo ^^^ (bswap64 e5)
      let e6 : BitVec 64 ← ld64be input 32
      let Xbu : BitVec 64 := Xbu ^^^ (bswap64 e6)
      let e7 : BitVec 64 ← ld64be input 40
      let Xga : BitVec 64 := Xga ^^^ (bswap64 e7)
      let e8 : BitVec 64 ← ld64be input 48
      let Xge : BitVec 64 := Xge ^^^ (bswap64 e8)
      let e9 : BitVec 64 ← ld64be input 56
      let Xgi : BitVec 64 := Xgi ^^^ (bswap64 e9)
      let e10 : BitVec 64 ← ld64be input 64
      let Xgo : BitVec 64 := Xgo ^^^ (bswap64 e10)
      let e11 : BitVec 64 ← ld64be input 72
      let Xgu : BitVec 64 := Xgu ^^^ (bswap64 e11)
      let e12 : BitVec 64 ← ld64be input 80
      let Xka : BitVec 64 := Xka ^^^ (bswap64 e12)
      let e13 : BitVec 64 ← ld64be input 88
      let Xke : BitVec 64 := Xke ^^^ (bswap64 e13)
      let e14 : BitVec 64 ← ld64be input 96
      let Xki : BitVec 64 := Xki ^^^ (bswap64 e14)
      let e15 : BitVec 64 ← ld64be input 104
      let Xko : BitVec 64 := Xko ^^^ (bswap64 e15)
      let e16 : BitVec 64 ← ld64be input 112
      let Xku : BitVec 64 := Xku ^^^ (bswap64 e16)
      let e17 : BitVec 64 ← ld64be input 120
      let Xma : BitVec 64 := Xma ^^^ (bswap64 e17)
      let e18 : BitVec 64 ← ld64be input 128
      let Xme : BitVec 64 := Xme ^^^ (bswap64 e18)
      let e19 : BitVec 64 ← ld64be input 136
      let Xmi : BitVec 64 := Xmi ^^^ (bswap64 e19)
      let e20 : BitVec 64 ← ld64be input 144
      let Xmo : BitVec 64 := Xmo ^^^ (bswap64 e20)
      let e21 : BitVec 64 ← ld64be input 152
      let Xmu : BitVec 64 := Xmu ^^^ (bswap64 e21)
      let e22 : BitVec 64 ← ld64be input 160
      let Xsa : BitVec 64 := Xsa ^^^ (bswap64 e22)
      pure (Xba, Xbe, Xbi, Xbo, Xbu, Xga, Xge, Xgi, Xgo, Xgu, Xka, Xke, Xki, Xko, Xku, Xma, Xme, Xmi, Xmo, Xmu, Xsa, Xse, Xsi, Xso, Xsu))
    else (do
      let e23 : BitVec 64 × BitVec 64 × BitVec 64 × BitVec 64 × BitVec 64 × BitVec 64 × BitVec 64 × BitVec 64 × BitVec 64 × BitVec 64 × BitVec 64 × BitVec 64 × BitVec 64 × BitVec 64 × BitVec 64 × BitVec 64 × BitVec 64 × BitVec 64 × BitVec 64 × BitVec 64 × BitVec 64 × BitVec 64 × BitVec 64 × BitVec 64 × BitVec 64 ← (
        if laneCount < 16 then (do
          let e24 : BitVec 64 × BitVec 64 × BitVec 64 × BitVec 64 × BitVec 64 × BitVec 64 × BitVec 64 × BitVec 64 × BitVec 64 × BitVec 64 × BitVec 64 × BitVec 64 × BitVec 64 × BitVec 64 × BitVec 64 ← (
            if laneCount < 8 then (do
              let e25 : BitVec 64 × BitVec 64 × BitVec 64 × BitVec 64 × BitVec 64 × BitVec 64 × BitVec 64 ← (
                if laneCount < 4 then (do
                  let e26 : BitVec 64 × BitVec 64 × BitVec 64 ← (
                    if laneCount < 2 then (do
                      let e27 : BitVec 64 ← (
                        if laneCount < 1 then (do
                          pure Xba)
                        else (do
                          let e28 : BitVec 64 ← ld64be input 0
                          let Xba : BitVec 64 := Xba ^^^ (bswap64 e28)
                          pure Xba))
                      let Xba : BitVec 64 := e27
                      pure (Xba, Xbe, Xbi))
                    else (do
                      let e29 : BitVec 64 ← ld64be input 0
                      let Xba : BitVec 64 := Xba ^^^ (bswap64 e29)
                      let e30 : BitVec 64 ← ld64be input 8
                      let Xbe : BitVec 64 := Xbe ^^^ (bswap64 e30)
                      let e31 : BitVec 64 ← (
                        if laneCount < 3 then (do
                          pure Xbi)
                        else (do
                          let e32 : BitVec 64 ← ld64be input 16
                          let Xbi : BitVec 64 := Xbi ^^^ (bswap64 e32)
                          pure Xbi))
                      let Xbi : BitVec 64 := e31
                      pure (Xba, Xbe, Xbi)))
                  let Xba : BitVec 64 := e26.1
                  let Xbe : BitVec 64 := e26.2.1
                  let Xbi : BitVec 64 := e26.2.2
                  pure (Xba, Xbe, Xbi, Xbo, Xbu, Xga, Xge))
                else (do
                  let e33 : BitVec 64 ← ld64be input 0
                  let Xba : BitVec 64 := Xba ^^^ (bswap64 e33)
                  let e34 : BitVec 64 ← ld64be input 8
                  let Xbe : BitVec 64 := Xbe ^^^ (bswap64 e34)
                  let e35 : BitVec 64 ← ld64be input 16
                  let Xbi : BitVec 64 := Xbi ^^^ (bswap64 e35)
                  let e36 : BitVec 64 ← ld64be input 24
                  let Xbo : BitVec 64 := Xbo ^^^ (bswap64 e36)
                  let e37 : BitVec 64 × BitVec 64 × BitVec 64 ← (
                    if laneCount < 6 then (do
                      let e38 : BitVec 64 ← (
                        if laneCount < 5 then (do
                          pure Xbu)
                        else (do
                          let e39 : BitVec 64 ← ld64be input 32
                          let Xbu : BitVec 64 := Xbu ^^^ (bswap64 e39)
                          pure Xbu))
                      let Xbu : BitVec 64 := e38
                      pure (Xbu, Xga, Xge))
                    else (do
                      let e40 : BitVec 64 ← ld64be input 32
                      let Xbu : BitVec 64 := Xbu ^^^ (bswap64 e40)
                      let e41 : BitVec 64 ← ld64be input 40
                      let Xga : BitVec 64 := Xga ^^^ (bswap64 e41)
                      let e42 : BitVec 64 ← (
                        if laneCount < 7 then (do
                          pure Xge)
                        else (do
                          let e43 : BitVec 64 ← ld64be input 48
                          let Xge : BitVec 64 := Xge ^^^ (bswap64 e43)
                          pure Xge))
                      let Xge : BitVec 64 := e42
                      pure (Xbu, Xga, Xge)))
                  let Xbu : BitVec 64 := e37.1
                  let Xga : BitVec 64 := e37.2.1
                  let Xge : BitVec 64 := e37.2.2
                  pure (Xba, Xbe, Xbi, Xbo, Xbu, Xga, Xge)))
              let Xba : BitVec 64 := e25.1
              let Xbe : BitVec 64 := e25.2.1
              let Xbi : BitVec 64 := e25.2.2.1
              let Xbo : BitVec 64 := e25.2.2.2.1
              let Xbu : BitVec 64 := e25.2.2.2.2.1
              let Xga : BitVec 64 := e25.2.2.2.2.2.1
              let Xge : BitVec 64 := e25.2.2.2.2.2.2
              pure (Xba, Xbe, Xbi, Xbo, Xbu, Xga, Xge, Xgi, Xgo, Xgu, Xka, Xke, Xki, Xko, Xku))
            else (do
              let e44 : BitVec 64 ← ld64be input 0
              let Xba : BitVec 64 := Xba ^^^ (bswap64 e44)
              let e45 : BitVec 64 ← ld64be input 8
              let Xbe : BitVec 64 := Xbe ^^^ (bswap64 e45)
              let e46 : BitVec 64 ← ld64be input 16
              let Xbi : BitVec 64 := Xbi ^^^ (bswap64 e46)
              let e47 : BitVec 64 ← ld64be input 24
              let Xbo : BitVec 64 := Xbo ^^^ (bswap64 e47)
              let e48 : BitVec 64 ← ld64be input 32
              let Xbu : BitVec 64 := Xbu ^^^ (bswap64 e48)
              let e49 : BitVec 64 ← ld64be input 40
              let Xga : BitVec 64 := Xga ^^^ (bswap64 e49)
              let e50 : BitVec 64 ← ld64be input 48
              let Xge : BitVec 64 := Xge ^^^ (bswap64 e50)
              let e51 : BitVec 64 ← ld64be input 56
              let Xgi : BitVec 64 := Xgi ^^^ (bswap64 e51)
              let e52 : BitVec 64 × BitVec 64 × BitVec 64 × BitVec 64 × BitVec 64 × BitVec 64 × BitVec 64 ← (
                if laneCount < 12 then (do
                  let e53 : BitVec 64 × BitVec 64 × BitVec 64 ← (
                    if laneCount < 10 then (do
                      let e54 : BitVec 64 ← (
                        if laneCount < 9 then (do
                          pure Xgo)
                        else (do
                          let e55 : BitVec 64 ← ld64be input 64
                          let Xgo : BitVec 64 := Xgo ^^^ (bswap64 e55)
                          pure Xgo))
                      let Xgo : BitVec 64 := e54
                      pure (Xgo, Xgu, Xka))
                    else (do
                      let e56 : BitVec 64 ← ld64be input 64
                      let Xgo : BitVec 64 := Xgo ^^^ (bswap64 e56)
                      let e57 : BitVec 64 ← ld64be input 72
                      let Xgu : BitVec 64 := Xgu ^^^ (bswap64 e57)
                      let e58 : BitVec 64 ← (
                        if laneCount < 11 then (do
                          pure Xka)
                        else (do
                          let e59 : BitVec 64 ← ld64be input 80
                          let Xka : BitVec 64 := Xka ^^^ (bswap64 e59)
                          pure Xka))
                      let Xka : BitVec 64 := e58
                      pure (Xgo, Xgu, Xka)))
                  let Xgo : BitVec 64 := e53.1
                  let Xgu : BitVec 64 := e53.2.1
                  let Xka : BitVec 64 := e53.2.2
                  pure (Xgo, Xgu, Xka, Xke, Xki, Xko, Xku))
                else (do
                  let e60 : BitVec 64 ← ld64be input 64
                  let Xgo : BitVec 64 := Xgo ^^^ (bswap64 e60)
                  let e61 : BitVec 64 ← ld64be input 72
                  let Xgu : BitVec 64 := Xgu ^^^ (bswap64 e61)
                  let e62 : BitVec 64 ← ld64be input 80
                  let Xka : BitVec 64 := Xka ^^^ (bswap64 e62)
                  let e63 : BitVec 64 ← ld64be input 88
                  let Xke : BitVec 64 := Xke ^^^ (bswap64 e63)
                  let e64 : BitVec 64 × BitVec 64 × BitVec 64 ← (
                    if laneCount < 14 then (do
                      let e65 : BitVec 64 ← (
                        if laneCount < 13 then (do
                          pure Xki)
                        else (do
                          let e66 : BitVec 64 ← ld64be input 96
                          let Xki : BitVec 64 := Xki ^^^ (bswap64 e66)
                          pure Xki))
                      let Xki : BitVec 64 := e65
                      pure (Xki, Xko, Xku))
                    else (do
                      let e67 : BitVec 64 ← ld64be input 96
                      let Xki : BitVec 64 := Xki ^^^ (bswap64 e67)
                      let e68 : BitVec 64 ← ld64be input 104
                      let Xko : BitVec 64 := Xko ^^^ (bswap64 e68)
                      let e69 : BitVec 64 ← (
                        if laneCount < 15 then (do
                          pure Xku)
                        else (do
                          let e70 : BitVec 64 ← ld64be input 112
                          let Xku : BitVec 64 := Xku ^^^ (bswap64 e70)
                          pure Xku))
                      let Xku : BitVec 64 := e69
                      pure (Xki, Xko, Xku)))
                  let Xki : BitVec 64 := e64.1
                  let Xko : BitVec 64 := e64.2.1
                  let Xku : BitVec 64 := e64.2.2
                  pure (Xgo, Xgu, Xka, Xke, Xki, Xko, Xku)))
              let Xgo : BitVec 64 := e52.1
              let Xgu : BitVec 64 := e52.2.1
              let Xka : BitVec 64 := e52.2.2.1
              let Xke : BitVec 64 := e52.2.2.2.1
              let Xki : BitVec 64 := e52.2.2.2.2.1
              let Xko : BitVec 64 := e52.2.2.2.2.2.1
              let Xku : BitVec 64 := e52.2.2.2.2.2.2
              pure (Xba, Xbe, Xbi, Xbo, Xbu, Xga, Xge, Xgi, Xgo, Xgu, Xka, Xke, Xki, Xko, Xku)))
          let Xba : BitVec 64 := e24.1
          let Xbe : BitVec 64 := e24.2.1
          let Xbi : BitVec 64 := e24.2.2.1
          let Xbo : BitVec 64 := e24.2.2.2.1
          let Xbu : BitVec 64 := e24.2.2.2.2.1
          let Xga : BitVec 64 := e24.2.2.2.2.2.1
          let Xge : BitVec 64 := e24.2.2.2.2.2.2.1
          let Xgi : BitVec 64 := e24.2.2.2.2.2.2.2.1
          let Xgo : BitVec 64 := e24.2.2.2.2.2.2.2.2.1
          let Xgu : BitVec 64 := e24.2.2.2.2.2.2.2.2.2.1
          let Xka : BitVec 64 := e24.2.2.2.2.2.2.2.2.2.2.1
          let Xke : BitVec 64 := e24.2.2.2.2.2.2.2.2.2.2.2.1
          let Xki : BitVec 64 := e24.2.2.2.2.2.2.2.2.2.2.2.2.1
          let Xko : BitVec 64 := e24.2.2.2.2.2.2.2.2.2.2.2.2.2.1
          let Xku : BitVec 64 := e24.2.2.2.2.2.2.2.2.2.2.2.2.2.2
          pure (Xba, Xbe, Xbi, Xbo, Xbu, Xga, Xge, Xgi, Xgo, Xgu, Xka, Xke, Xki, Xko, Xku, Xma, Xme, Xmi, Xmo, Xmu, Xsa, Xse, Xsi, Xso, Xsu))
        else (do
          let e71 : BitVec 64 ← ld64be input 0
          let Xba : BitVec 64 := Xba ^^^ (bswap64 e71)
          let e72 : BitVec 64 ← ld64be input 8
          let Xbe : BitVec 64 := Xbe ^^^ (bswap64 e72)
          let e73 : BitVec 64 ← ld64be input 16
          let Xbi : BitVec 64 := Xbi ^^^ (bswap64 e73)
          let e74 : BitVec 64 ← ld64be input 24
          let Xbo : BitVec 64 := Xbo ^^^ (bswap64 e74)
          let e75 : BitVec 64 ← ld64be input 32
          let Xbu : BitVec 64 := Xbu ^^^ (bswap64 e75)
          let e76 : BitVec 64 ← ld64be input 40
          let Xga : BitVec 64 := Xga ^^^ (bswap64 e76)
          let e77 : BitVec 64 ← ld64be input 48
          let Xge : BitVec 64 := Xge ^^^ (bswap64 e77)
          let e78 : BitVec 64 ← ld64be input 56
          let Xgi : BitVec 64 := Xgi ^^^ (bswap64 e78)
          let e79 : BitVec 64 ← ld64be input 64
          let Xgo : BitVec 64 := Xgo ^^^ (bswap64 e79)
          let e80 : BitVec 64 ← ld64be input 72
          let Xgu : BitVec 64 := Xgu ^^^ (bswap64 e80)
          let e81 : BitVec 64 ← ld64be input 80
          let Xka : BitVec 64 := Xka ^^^ (bswap64 e81)
          let e82 : BitVec 64 ← ld64be input 88
          let Xke : BitVec 64 := Xke ^^^ (bswap64 e82)
          let e83 : BitVec 64 ← ld64be input 96
          let Xki : BitVec 64 := Xki ^^^ (bswap64 e83)
          let e84 : BitVec 64 ← ld64be input 104
          let Xko : BitVec 64 := Xko ^^^ (bswap64 e84)
          let e85 : BitVec 64 ← ld64be input 112
          let Xku : BitVec 64 := Xku ^^^ (bswap64 e85)
          let e86 : BitVec 64 ← ld64be input 120
          let Xma : BitVec 64 := Xma ^^^ (bswap64 e86)
          let e87 : BitVec 64 × BitVec 64 × BitVec 64 × BitVec 64 × BitVec 64 × BitVec 64 × BitVec 64 × BitVec 64 × BitVec 64 ← (
            if laneCount < 24 then (do
              let e88 : BitVec 64 × BitVec 64 × BitVec 64 × BitVec 64 × BitVec 64 × BitVec 64 × BitVec 64 ← (
                if laneCount < 20 then (do
                  let e89 : BitVec 64 × BitVec 64 × BitVec 64 ← (
                    if laneCount < 18 then (do
                      let e90 : BitVec 64 ← (
                        if laneCount < 17 then (do
                          pure Xme)
                        else (do
                          let e91 : BitVec 64 ← ld64be input 128
                          let Xme : BitVec 64 := Xme ^^^ (bswap64 e91)
                          pure Xme))
                      let Xme : BitVec 64 := e90
                      pure (Xme, Xmi, Xmo))
                    else (do
                      let e92 : BitVec 64 ← ld64be input 128
                      let Xme : BitVec 64 := Xme ^^^ (bswap64 e92)
                      let e93 : BitVec 64 ← ld64be input 136
                      let Xmi : BitVec 64 := Xmi ^^^ (bswap64 e93)
                      let e94 : BitVec 64 ← (
                        if laneCount < 19 then (do
                          pure Xmo)
                        else (do
                          let e95 : BitVec 64 ← ld64be input 144
                          let Xmo : BitVec 64 := Xmo ^^^ (bswap64 e95)
                          pure Xmo))
                      let Xmo : BitVec 64 := e94
                      pure (Xme, Xmi, Xmo)))
                  let Xme : BitVec 64 := e89.1
                  let Xmi : BitVec 64 := e89.2.1
                  let Xmo : BitVec 64 := e89.2.2
                  pure (Xme, Xmi, Xmo, Xmu, Xsa, Xse, Xsi))
                else (do
                  let e96 : BitVec 64 ← ld64be input 128
                  let Xme : BitVec 64 := Xme ^^^ (bswap64 e96)
                  let e97 : BitVec 64 ← ld64be input 136
                  let Xmi : BitVec 64 := Xmi ^^^ (bswap64 e97)
                  let e98 : BitVec 64 ← ld64be input 144
                  let Xmo : BitVec 64 := Xmo ^^^ (bswap64 e98)
                  let e99 : BitVec 64 ← ld64be input 152
                  let Xmu : BitVec 64 := Xmu ^^^ (bswap64 e99)
                  let e100 : BitVec 64 × BitVec 64 × BitVec 64 ← (
                    if laneCount < 22 then (do
                      let e101 : BitVec 64 ← (
                        if laneCount < 21 then (do
                          pure Xsa)
                        else (do
                          let e102 : BitVec 64 ← ld64be input 160
                          let Xsa : BitVec 64 := Xsa ^^^ (bswap64 e102)
                          pure Xsa))
                      let Xsa : BitVec 64 := e101
                      pure (Xsa, Xse, Xsi))
                    else (do
                      let e103 : BitVec 64 ← ld64be input 160
                      let Xsa : BitVec 64 := Xsa ^^^ (bswap64 e103)
                      let e104 : BitVec 64 ← ld64be input 168
                      let Xse : BitVec 64 := Xse ^^^ (bswap64 e104)
                      let e105 : BitVec 64 ← (
                        if laneCount < 23 then (do
                          pure Xsi)
                        else (do
                          let e106 : BitVec 64 ← ld64be input 176
                          let Xsi : BitVec 64 := Xsi ^^^ (bswap64 e106)
                          pure Xsi))
                      let Xsi : BitVec 64 := e105
                      pure (Xsa, Xse, Xsi)))
                  let Xsa : BitVec 64 := e100.1
                  let Xse : BitVec 64 := e100.2.1
                  let Xsi : BitVec 64 := e100.2.2
                  pure (Xme, Xmi, Xmo, Xmu, Xsa, Xse, Xsi)))
              let Xme : BitVec 64 := e88.1
              let Xmi : BitVec 64 := e88.2.1
              let Xmo : BitVec 64 := e88.2.2.1
              let Xmu : BitVec 64 := e88.2.2.2.1
              let Xsa : BitVec 64 := e88.2.2.2.2.1
              let Xse : BitVec 64 := e88.2.2.2.2.2.1
              let Xsi : BitVec 64 := e88.2.2.2.2.2.2
              pure (Xme, Xmi, Xmo, Xmu, Xsa, Xse, Xsi, Xso, Xsu))
            else (do
              let e107 : BitVec 64 ← ld64be input 128
              let Xme : BitVec 64 := Xme ^^^ (bswap64 e107)
              let e108 : BitVec 64 ← ld64be input 136
              let Xmi : BitVec 64 := Xmi ^^^ (bswap64 e108)
              let e109 : BitVec 64 ← ld64be input 144
              let Xmo : BitVec 64 := Xmo ^^^ (bswap64 e109)
              let e110 : BitVec 64 ← ld64be input 152
              let Xmu : BitVec 64 := Xmu ^^^ (bswap64 e110)
              let e111 : BitVec 64 ← ld64be input 160
              let Xsa : BitVec 64 := Xsa ^^^ (bswap64 e111)
              let e112 : BitVec 64 ← ld64be input 168
              let Xse : BitVec 64 := Xse ^^^ (bswap64 e112)
              let e113 : BitVec 64 ← ld64be input 176
              let Xsi : BitVec 64 := Xsi ^^^ (bswap64 e113)
              let e114 : BitVec 64 ← ld64be input 184
              let Xso : BitVec 64 := Xso ^^^ (bswap64 e114)
              let e115 : BitVec 64 ← (
                if laneCount < 25 then (do
                  pure Xsu)
                else (do
                  let e116 : BitVec 64 ← ld64be input 192
                  let Xsu : BitVec 64 := Xsu ^^^ (bswap64 e116)
                  pure Xsu))
              let Xsu : BitVec 64 := e115
              pure (Xme, Xmi, Xmo, Xmu, Xsa, Xse, Xsi, Xso, Xsu)))
          let Xme : BitVec 64 := e87.1
          let Xmi : BitVec 64 := e87.2.1
          let Xmo : BitVec 64 := e87.2.2.1
          let Xmu : BitVec 64 := e87.2.2.2.1
          let Xsa : BitVec 64 := e87.2.2.2.2.1
          let Xse : BitVec 64 := e87.2.2.2.2.2.1
          let Xsi : BitVec 64 := e87.2.2.2.2.2.2.1
          let Xso : BitVec 64 := e87.2.2.2.2.2.2.2.1
          let Xsu : BitVec 64 := e87.2.2.2.2.2.2.2.2
          pure (Xba, Xbe, Xbi, Xbo, Xbu, Xga, Xge, Xgi, Xgo, Xgu, Xka, Xke, Xki, Xko, Xku, Xma, Xme, Xmi, Xmo, Xmu, Xsa, Xse, Xsi, Xso, Xsu)))
      let Xba : BitVec 64 := e23.1
      let Xbe : BitVec 64 := e23.2.1
      let Xbi : BitVec 64 := e23.2.2.1
      let Xbo : BitVec 64 := e23.2.2.2.1
      let Xbu : BitVec 64 := e23.2.2.2.2.1
      let Xga : BitVec 64 := e23.2.2.2.2.2.1
      let Xge : BitVec 64 := e23.2.2.2.2.2.2.1
      let Xgi : BitVec 64 := e23.2.2.2.2.2.2.2.1
      let Xgo : BitVec 64 := e23.2.2.2.2.2.2.2.2.1
      let Xgu : BitVec 64 := e23.2.2.2.2.2.2.2.2.2.1
      let Xka : BitVec 64 := e23.2.2.2.2.2.2.2.2.2.2.1
      let Xke : BitVec 64 := e23.2.2.2.2.2.2.2.2.2.2.2.1
      let Xki : BitVec 64 := e23.2.2.2.2.2.2.2.2.2.2.2.2.1
      let Xko : BitVec 64 := e23.2.2.2.2.2.2.2.2.2.2.2.2.2.1
      let Xku : BitVec 64 := e23.2.2.2.2.2.2.2.2.2.2.2.2.2.2.1
      let Xma : BitVec 64 := e23.2.2.2.2.2.2.2.2.2.2.2.2.2.2.2.1
      let Xme : BitVec 64 := e23.2.2.2.2.2.2.2.2.2.2.2.2.2.2.2.2.1
      let Xmi : BitVec 64 := e23.2.2.2.2.2.2.2.2.2.2.2.2.2.2.2.2.2.1
      let Xmo : BitVec 64 := e23.2.2.2.2.2.2.2.2.2.2.2.2.2.2.2.2.2.2.1
      let Xmu : BitVec 64 := e23.2.2.2.2.2.2.2.2.2.2.2.2.2.2.2.2.2.2.2.1
      let Xsa : BitVec 64 := e23.2.2.2.2.2.2.2.2.2.2.2.2.2.2.2.2.2.2.2.2.1
      let Xse : BitVec 64 := e23.2.2.2.2.2.2.2.2.2.2.2.2.2.2.2.2.2.2.2.2.2.1
      let Xsi : BitVec 64 := e23.2.2.2.2.2.2.2.2.2.2.2.2.2.2.2.2.2.2.2.2.2.2.1
      let Xso : BitVec 64 := e23.2.2.2.2.2.2.2.2.2.2.2.2.2.2.2.2.2.2.2.2.2.2.2.1
      let Xsu : BitVec 64 := e23.2.2.2.2.2.2.2.2.2.2.2.2.2.2.2.2.2.2.2.2.2.2.2.2
      pure (Xba, Xbe, Xbi, Xbo, Xbu, Xga, Xge, Xgi, Xgo, Xgu, Xka, Xke, Xki, Xko, Xku, Xma, Xme, Xmi, Xmo, Xmu, Xsa, Xse, Xsi, Xso, Xsu)))
  let Xba : BitVec 64 := e1.1
  let Xbe : BitVec 64 := e1.2.1
  let Xbi : BitVec 64 := e1.2.2.1
  let Xbo : BitVec 64 := e1.2.2.2.1
  let Xbu : BitVec 64 := e1.2.2.2.2.1
  let Xga : BitVec 64 := e1.2.2.2.2.2.1
  let Xge : BitVec 64 := e1.2.2.2.2.2.2.1
  let Xgi : BitVec 64 := e1.2.2.2.2.2.2.2.1
  let Xgo : BitVec 64 := e1.2.2.2.2.2.2.2.2.1
  let Xgu : BitVec 64 := e1.2.2.2.2.2.2.2.2.2.1
  let Xka : BitVec 64 := e1.2.2.2.2.2.2.2.2.2.2.1
  let Xke : BitVec 64 := e1.2.2.2.2.2.2.2.2.2.2.2.1
  let Xki : BitVec 64 := e1.2.2.2.2.2.2.2.2.2.2.2.2.1
  let Xko : BitVec 64 := e1.2.2.2.2.2.2.2.2.2.2.2.2.2.1
  let Xku : BitVec 64 := e1.2.2.2.2.2.2.2.2.2.2.2.2.2.2.1
  let Xma : BitVec 64 := e1.2.2.2.2.2.2.2.2.2.2.2.2.2.2.2.1
  let Xme : BitVec 64 := e1.2.2.2.2.2.2.2.2.2.2.2.2.2.2.2.2.1
  let Xmi : BitVec 64 := e1.2.2.2.2.2.2.2.2.2.2.2.2.2.2.2.2.2.1
  let Xmo : BitVec 64 := e1.2.2.2.2.2.2.2.2.2.2.2.2.2.2.2.2.2.2.1
  let Xmu : BitVec 64 := e1.2.2.2.2.2.2.2.2.2.2.2.2.2.2.2.2.2.2.2.1
  let Xsa : BitVec 64 := e1.2.2.2.2.2.2.2.2.2.2.2.2.2.2.2.2.2.2.2.2.1
  let Xse : BitVec 64 := e1.2.2.2.2.2.2.2.2.2.2.2.2.2.2.2.2.2.2.2.2.2.1
  let Xsi : BitVec 64 := e1.2.2.2.2.2.2.2.2.2.2.2.2.2.2.2.2.2.2.2.2.2.2.1
  let Xso : BitVec 64 := e1.2.2.2.2.2.2.2.2.2.2.2.2.2.2.2.2.2.2.2.2.2.2.2.1
  let Xsu : BitVec 64 := e1.2.2.2.2.2.2.2.2.2.2.2.2.2.2.2.2.2.2.2.2.2.2.2.2
  pure ⟨Xba, Xbe, Xbi, Xbo, Xbu, Xga, Xge, Xgi, Xgo, Xgu, Xka, Xke, Xki, Xko, Xku, Xma, Xme, Xmi, Xmo, Xmu, Xsa, Xse, Xsi, Xso, Xsu⟩

/-- sha3/opt64/KeccakP-1600-opt64.c:85-96 `KeccakP1600_Initialize`. -/
def KeccakP1600_Initialize (state : CPtr) : CM Unit := do
  memset0 state 200
  pure ()

/-- sha3/opt64/KeccakP-1600-opt64.c:100-120 `KeccakP1600_AddBytesInLane`. -/
def KeccakP1600_AddBytesInLane (state : CPtr) (lanePosition : Nat) (data : CPtr) (offset : Nat) (length : Nat) : CM Unit := do
  let lane : BitVec 64 := (0 : BitVec 64)
  let i : Nat := 0
  let e1 : BitVec 64 × Nat ← cwhile
      (fun _s1 =>
        let i : Nat := _s1.2
        decide (i < length))
      (fun _s1 => do
        let lane : BitVec 64 := _s1.1
        let i : Nat := _s1.2
        let e2 : Byte ← ld data i
        let e3 ← w64shl (BitVec.setWidth 64 e2) ((((i + offset) % U32) * 8) % U32)
        let lane : BitVec 64 := lane ||| e3
        let i : Nat := (i + 1) % U32
        pure (lane, i))
      (lane, i)
  let lane : BitVec 64 := e1.1
  let i : Nat := e1.2
  let e4 : BitVec 64 ← ld64be state (8 * lanePosition)
  st64be state (8 * lanePosition) (e4 ^^^ lane)
  pure ()

/-- sha3/opt64/KeccakP-1600-opt64.c:124-178 `KeccakP1600_AddLanes`. -/
def KeccakP1600_AddLanes (state : CPtr) (data : CPtr) (laneCount : Nat) : CM Unit := do
  let curData : CPtr := data
  let i : Nat := 0
  let e1 : Nat × CPtr ← cwhile
      (fun _s1 =>
        let i : Nat := _s1.1
        decide (i < laneCount))
      (fun _s1 => do
        let i : Nat := _s1.1
        let curData : CPtr := _s1.2
        let e2 : Byte ← ld curData 0
        let e3 : Byte ← ld curData 1
        let e4 : Byte ← ld curData 2
        let e5 : Byte ← ld curData 3
        let e6 : Byte ← ld curData 4
        let e7 : Byte ← ld curData 5
        let e8 : Byte ← ld curData 6
        let e9 : Byte ← ld curData 7
        let lane : BitVec 64 := (((((((BitVec.setWidth 64 e2) ||| ((BitVec.setWidth 64 e3) <<< 8)) ||| ((BitVec.setWidth 64 e4) <<< 16)) ||| ((BitVec.setWidth 64 e5) <<< 24)) ||| ((BitVec.setWidth 64 e6) <<< 32)) ||| ((BitVec.setWidth 64 e7) <<< 40)) ||| ((BitVec.setWidth 64 e8) <<< 48)) ||| ((BitVec.setWidth 64 e9) <<< 56)
        let e10 : BitVec 64 ← ld64be state (8 * i)
        st64be state (8 * i) (e10 ^^^ lane)
        let i : Nat := (i + 1) % U32
        let curData : CPtr := padd curData 8
        pure (i, curData))
      (i, curData)
  let i : Nat := e1.1
  let curData : CPtr := e1.2
  pure ()

/-- sha3/opt64/KeccakP-1600-opt64.c:183-188 `KeccakP1600_AddByte`. -/
def KeccakP1600_AddByte (state : CPtr) (byte : Byte) (offset : Nat) : CM Unit := do
  let lane : BitVec 64 := BitVec.setWidth 64 byte
  let e1 ← w64shl lane (((offset % 8) * 8) % U32)
  let lane : BitVec 64 := e1
  let e2 : BitVec 64 ← ld64be state (8 * (offset / 8))
  st64be state (8 * (offset / 8)) (e2 ^^^ lane)
  pure ()

/-- sha3/opt64/KeccakP-1600-opt64.c:193-196 `KeccakP1600_AddBytes`. -/
def KeccakP1600_AddBytes (state : CPtr) (data : CPtr) (offset : Nat) (length : Nat) : CM Unit := do
  let e1 : Unit ← (
    if offset = 0 then (do
      KeccakP1600_AddLanes state data (length / 8)
      KeccakP1600_AddBytesInLane state (length / 8) (padd data (((length / 8) * 8) % U32)) 0 (length % 8)
      pure ())
    else (do
      let _sizeLeft : Nat := length
      let _lanePosition : Nat := offset / 8
      let _offsetInLane : Nat := offset % 8
      let _curData : CPtr := data
      let e2 : Nat × Nat × Nat × CPtr ← cwhile
          (fun _s1 =>
            let _sizeLeft : Nat := _s1.1
            decide (_sizeLeft > 0))
          (fun _s1 => do
            let _sizeLeft : Nat := _s1.1
            let _lanePosition : Nat := _s1.2.1
            let _offsetInLane : Nat := _s1.2.2.1
            let _curData : CPtr := _s1.2.2.2
            let _bytesInLane : Nat := (8 + U32 - _offsetInLane) % U32
            let e3 : Nat ← (
              if _bytesInLane > _sizeLeft then (do
                let _bytesInLane : Nat := _sizeLeft
                pure _bytesInLane)
              else (do
                pure _bytesInLane))
            let _bytesInLane : Nat := e3
            KeccakP1600_AddBytesInLane state _lanePosition _curData _offsetInLane _bytesInLane
            let _sizeLeft : Nat := (_sizeLeft + U32 - _bytesInLane) % U32
            let _lanePosition : Nat := (_lanePosition + 1) % U32
            let _offsetInLane : Nat := 0
            let _curData : CPtr := padd _curData _bytesInLane
            pure (_sizeLeft, _lanePosition, _offsetInLane, _curData))
          (_sizeLeft, _lanePosition, _offsetInLane, _curData)
      let _sizeLeft : Nat := e2.1
      let _lanePosition : Nat := e2.2.1
      let _offsetInLane : Nat := e2.2.2.1
      let _curData : CPtr := e2.2.2.2
      pure ()))
  pure ()

/-- sha3/opt64/KeccakP-1600-opt64.c:342-353 `KeccakP1600_Permute_24rounds`. -/
def KeccakP1600_Permute_24rounds (state : CPtr) : CM Unit := do
  let stateAsLanes : CPtr := state
  let e1 ← copyFromState stateAsLanes
  let A : Keccak.Lanes := e1
  let e2 ← GenH.rounds24 A
  let A : Keccak.Lanes := e2
  copyToState stateAsLanes A
  pure ()

/-- sha3/opt64/KeccakP-1600-opt64.c:372-393 `KeccakP1600_ExtractBytesInLane`. -/
def KeccakP1600_ExtractBytesInLane (state : CPtr) (lanePosition : Nat) (data : CPtr) (offset : Nat)
    (length : Nat) : CM Unit := do
  let e1 : BitVec 64 ← ld64be state (8 * lanePosition)
  let lane : BitVec 64 := e1
  let e2 ← w64shr lane ((offset * 8) % U32)
  let lane : BitVec 64 := e2
  let i : Nat := 0
  let e3 : BitVec 64 × Nat ← cwhile
      (fun _s1 =>
        let i : Nat := _s1.2
        decide (i < length))
      (fun _s1 => do
        let lane : BitVec 64 := _s1.1
        let i : Nat := _s1.2
        st data i (BitVec.setWidth 8 (lane &&& (255 : BitVec 64)))
        let lane : BitVec 64 := lane >>> 8
        let i : Nat := (i + 1) % U32
        pure (lane, i))
      (lane, i)
  let lane : BitVec 64 := e3.1
  let i : Nat := e3.2
  pure ()

/-- sha3/opt64/KeccakP-1600-opt64.c:398-404 `fromWordToBytes`. -/
def fromWordToBytes (bytes : CPtr) (word : BitVec 64) : CM Unit := do
  let i : Nat := 0
  let e1 : Nat ← cwhile
      (fun _s1 =>
        let i : Nat := _s1
        decide (i < 8))
      (fun _s1 => do
        let i : Nat := _s1
        let e2 ← w64shr word ((8 * i) % U32)
        st bytes i (BitVec.setWidth 8 (e2 &&& (255 : BitVec 64)))
        let i : Nat := (i + 1) % U32
        pure i)
      i
  let i : Nat := e1
  pure ()

/-- sha3/opt64/KeccakP-1600-opt64.c:407-437 `KeccakP1600_ExtractLanes`. -/
def KeccakP1600_ExtractLanes (state : CPtr) (data : CPtr) (laneCount : Nat) : CM Unit := do
  let i : Nat := 0
  let e1 : Nat ← cwhile
      (fun _s1 =>
        let i : Nat := _s1
        decide (i < laneCount))
      (fun _s1 => do
        let i : Nat := _s1
        let e2 : BitVec 64 ← ld64be state (8 * i)
        fromWordToBytes (padd data ((i * 8) % U32)) e2
        let i : Nat := (i + 1) % U32
        pure i)
      i
  let i : Nat := e1
  pure ()

/-- sha3/opt64/KeccakP-1600-opt64.c:441-444 `KeccakP1600_ExtractBytes`. -/
def KeccakP1600_ExtractBytes (state : CPtr) (data : CPtr) (offset : Nat) (length : Nat) : CM Unit := do
  let e1 : Unit ← (
    if offset = 0 then (do
      KeccakP1600_ExtractLanes state data (length / 8)
      KeccakP1600_ExtractBytesInLane state (length / 8) (padd data (((length / 8) * 8) % U32)) 0 (length % 8)
      pure ())
    else (do
      let _sizeLeft : Nat := length
      let _lanePosition : Nat := offset / 8
      let _offsetInLane : Nat := offset % 8
      let _curData : CPtr := data
      let e2 : Nat × Nat × Nat × CPtr ← cwhile
          (fun _s1 =>
            let _sizeLeft : Nat := _s1.1
            decide (_sizeLeft > 0))
          (fun _s1 => do
            let _sizeLeft : Nat := _s1.1
            let _lanePosition : Nat := _s1.2.1
            let _offsetInLane : Nat := _s1.2.2.1
            let _curData : CPtr := _s1.2.2.2
            let _bytesInLane : Nat := (8 + U32 - _offsetInLane) % U32
            let e3 : Nat ← (
              if _bytesInLane > _sizeLeft then (do
                let _bytesInLane : Nat := _sizeLeft
                pure _bytesInLane)
              else (do
                pure _bytesInLane))
            let _bytesInLane : Nat := e3
            KeccakP1600_ExtractBytesInLane state _lanePosition _curData _offsetInLane _bytesInLane
            let _sizeLeft : Nat := (_sizeLeft + U32 - _bytesInLane) % U32
            let _lanePosition : Nat := (_lanePosition + 1) % U32
            let _offsetInLane : Nat := 0
            let _curData : CPtr := padd _curData _bytesInLane
            pure (_sizeLeft, _lanePosition, _offsetInLane, _curData))
          (_sizeLeft, _lanePosition, _offsetInLane, _curData)
      let _sizeLeft : Nat := e2.1
      let _lanePosition : Nat := e2.2.1
      let _offsetInLane : Nat := e2.2.2.1
      let _curData : CPtr := e2.2.2.2
      pure ()))
  pure ()

/-- sha3/opt64/KeccakP-1600-opt64.c:523-542 `KeccakF1600_FastLoop_Absorb`. -/
def KeccakF1600_FastLoop_Absorb (state : CPtr) (laneCount : Nat) (data : CPtr) (dataByteLen : Nat) : CM Nat := do
  let originalDataByteLen : Nat := dataByteLen
  let stateAsLanes : CPtr := state
  let inDataAsLanes : CPtr := data
  let e1 ← copyFromState stateAsLanes
  let A : Keccak.Lanes := e1
  let e2 : Nat × Keccak.Lanes × CPtr ← cwhile
      (fun _s1 =>
        let dataByteLen : Nat := _s1.1
        decide (dataByteLen ≥ ((laneCount * 8) % U32)))
      (fun _s1 => do
        let dataByteLen : Nat := _s1.1
        let A : Keccak.Lanes := _s1.2.1
        let inDataAsLanes : CPtr := _s1.2.2
        let e3 ← addInput A inDataAsLanes laneCount
        let A : Keccak.Lanes := e3
        let e4 ← GenH.rounds24 A
        let A : Keccak.Lanes := e4
        let inDataAsLanes : CPtr := padd inDataAsLanes (8 * laneCount)
        let dataByteLen : Nat := (dataByteLen + U64 - ((laneCount * 8) % U32)) % U64
        pure (dataByteLen, A, inDataAsLanes))
      (dataByteLen, A, inDataAsLanes)
  let dataByteLen : Nat := e2.1
  let A : Keccak.Lanes := e2.2.1
  let inDataAsLanes : CPtr := e2.2.2
  copyToState stateAsLanes A
  pure ((originalDataByteLen + U64 - dataByteLen) % U64)

/-- sha3/KeccakSponge.inc:134-147 `KeccakWidth1600_SpongeInitialize`. -/
def KeccakWidth1600_SpongeInitialize (instance_ : SpongeC) (rate : Nat) (capacity : Nat) : CM (Nat × SpongeC) := do
  if ((rate + capacity) % U32) ≠ 1600 then (do
    pure (1, instance_))
  else (do
    if ((rate ≤ 0) ∨ (rate > 1600)) ∨ ((rate % 8) ≠ 0) then (do
      pure (1, instance_))
    else (do
      KeccakP1600_Initialize instance_.state
      let instance_ := { instance_ with rate := some rate }
      let instance_ := { instance_ with byteIOIndex := some 0 }
      let instance_ := { instance_ with squeezing := some 0 }
      pure (0, instance_)))

/-- sha3/KeccakSponge.inc:151-208 `KeccakWidth1600_SpongeAbsorb`. -/
def KeccakWidth1600_SpongeAbsorb (instance_ : SpongeC) (data : CPtr) (dataByteLen : Nat) : CM (Nat × SpongeC) := do
  let e1 ← uget instance_.rate
  let rateInBytes : Nat := e1 / 8
  let e2 ← uget instance_.squeezing
  if e2 ≠ 0 then (do
    pure (1, instance_))
  else (do
    let i : Nat := 0
    let curData : CPtr := data
    let e3 : SpongeC × Nat × CPtr ← cwhile
        (fun _s1 =>
          let i : Nat := _s1.2.1
          decide (i < dataByteLen))
        (fun _s1 => do
          let instance_ : SpongeC := _s1.1
          let i : Nat := _s1.2.1
          let curData : CPtr := _s1.2.2
          let e4 ← uget instance_.byteIOIndex
          let e5 : SpongeC × Nat × CPtr ← (
            if (e4 = 0) ∧ (dataByteLen ≥ ((i + rateInBytes) % U64)) then (do
              let e6 : Nat × Nat × CPtr ← (
                if (rateInBytes % 8) = 0 then (do
                  let e7 ← KeccakF1600_FastLoop_Absorb instance_.state (rateInBytes / 8) curData ((dataByteLen + U64 - i) % U64)
                  let j : Nat := e7
                  let i : Nat := (i + j) % U64
                  let curData : CPtr := padd curData j
                  pure (i, j, curData))
                else (do
                  let j : Nat := (dataByteLen + U64 - i) % U64
                  let e8 : Nat × CPtr ← cwhile
                      (fun _s2 =>
                        let j : Nat := _s2.1
                        decide (j ≥ rateInBytes))
                      (fun _s2 => do
                        let j : Nat := _s2.1
                        let curData : CPtr := _s2.2
                        KeccakP1600_AddBytes instance_.state curData 0 rateInBytes
                        KeccakP1600_Permute_24rounds instance_.state
                        let curData : CPtr := padd curData rateInBytes
                        let j : Nat := (j + U64 - rateInBytes) % U64
                        pure (j, curData))
                      (j, curData)
                  let j : Nat := e8.1
                  let curData : CPtr := e8.2
                  let i : Nat := (dataByteLen + U64 - j) % U64
                  pure (i, j, curData)))
              let i : Nat := e6.1
              let j : Nat := e6.2.1
              let curData : CPtr := e6.2.2
              pure (instance_, i, curData))
            else (do
              let partialBlock : Nat := ((dataByteLen + U64 - i) % U64) % U32
              let e9 ← uget instance_.byteIOIndex
              let e10 : Nat ← (
                if ((partialBlock + e9) % U32) > rateInBytes then (do
                  let e11 ← uget instance_.byteIOIndex
                  let partialBlock : Nat := (rateInBytes + U32 - e11) % U32
                  pure partialBlock)
                else (do
                  pure partialBlock))
              let partialBlock : Nat := e10
              let i : Nat := (i + partialBlock) % U64
              let e12 ← uget instance_.byteIOIndex
              KeccakP1600_AddBytes instance_.state curData e12 partialBlock
              let curData : CPtr := padd curData partialBlock
              let e13 ← uget instance_.byteIOIndex
              let instance_ := { instance_ with byteIOIndex := some ((e13 + partialBlock) % U32) }
              let e14 ← uget instance_.byteIOIndex
              let e15 : SpongeC ← (
                if e14 = rateInBytes then (do
                  KeccakP1600_Permute_24rounds instance_.state
                  let instance_ := { instance_ with byteIOIndex := some 0 }
                  pure instance_)
                else (do
                  pure instance_))
              let instance_ : SpongeC := e15
              pure (instance_, i, curData)))
          let instance_ : SpongeC := e5.1
          let i : Nat := e5.2.1
          let curData : CPtr := e5.2.2
          pure (instance_, i, curData))
        (instance_, i, curData)
    let instance_ : SpongeC := e3.1
    let i : Nat := e3.2.1
    let curData : CPtr := e3.2.2
    pure (0, instance_))

/-- sha3/KeccakSponge.inc:212-250 `KeccakWidth1600_SpongeAbsorbLastFewBits`. -/
def KeccakWidth1600_SpongeAbsorbLastFewBits (instance_ : SpongeC) (delimitedData : Byte) : CM (Nat × SpongeC) := do
  let e1 ← uget instance_.rate
  let rateInBytes : Nat := e1 / 8
  if delimitedData.toNat = 0 then (do
    pure (1, instance_))
  else (do
    let e2 ← uget instance_.squeezing
    if e2 ≠ 0 then (do
      pure (1, instance_))
    else (do
      let e3 ← uget instance_.byteIOIndex
      KeccakP1600_AddByte instance_.state delimitedData e3
      let e4 ← uget instance_.byteIOIndex
      let e5 : Unit ← (
        if (delimitedData.toNat ≥ 128) ∧ (e4 = ((rateInBytes + U32 - 1) % U32)) then (do
          KeccakP1600_Permute_24rounds instance_.state
          pure ())
        else (do
          pure ()))
      KeccakP1600_AddByte instance_.state (128 : Byte) ((rateInBytes + U32 - 1) % U32)
      KeccakP1600_Permute_24rounds instance_.state
      let instance_ := { instance_ with byteIOIndex := some 0 }
      let instance_ := { instance_ with squeezing := some 1 }
      pure (0, instance_)))

/-- sha3/KeccakSponge.inc:254-298 `KeccakWidth1600_SpongeSqueeze`. -/
def KeccakWidth1600_SpongeSqueeze (instance_ : SpongeC) (data : CPtr) (dataByteLen : Nat) : CM (Nat × SpongeC) := do
  let e1 ← uget instance_.rate
  let rateInBytes : Nat := e1 / 8
  let e2 ← uget instance_.squeezing
  let e3 : SpongeC ← (
    if ¬ (e2 ≠ 0) then (do
      let e4 ← KeccakWidth1600_SpongeAbsorbLastFewBits instance_ (1 : Byte)
      let instance_ := e4.2
      pure instance_)
    else (do
      pure instance_))
  let instance_ : SpongeC := e3
  let i : Nat := 0
  let curData : CPtr := data
  let e5 : SpongeC × Nat × CPtr ← cwhile
      (fun _s1 =>
        let i : Nat := _s1.2.1
        decide (i < dataByteLen))
      (fun _s1 => do
        let instance_ : SpongeC := _s1.1
        let i : Nat := _s1.2.1
        let curData : CPtr := _s1.2.2
        let e6 ← uget instance_.byteIOIndex
        let e7 : SpongeC × Nat × CPtr ← (
          if (e6 = rateInBytes) ∧ (dataByteLen ≥ ((i + rateInBytes) % U64)) then (do
            let j : Nat := (dataByteLen + U64 - i) % U64
            let e8 : Nat × CPtr ← cwhile
                (fun _s2 =>
                  let j : Nat := _s2.1
                  decide (j ≥ rateInBytes))
                (fun _s2 => do
                  let j : Nat := _s2.1
                  let curData : CPtr := _s2.2
                  KeccakP1600_Permute_24rounds instance_.state
                  KeccakP1600_ExtractBytes instance_.state curData 0 rateInBytes
                  let curData : CPtr := padd curData rateInBytes
                  let j : Nat := (j + U64 - rateInBytes) % U64
                  pure (j, curData))
                (j, curData)
            let j : Nat := e8.1
            let curData : CPtr := e8.2
            let i : Nat := (dataByteLen + U64 - j) % U64
            pure (instance_, i, curData))
          else (do
            let e9 ← uget instance_.byteIOIndex
            let e10 : SpongeC ← (
              if e9 = rateInBytes then (do
                KeccakP1600_Permute_24rounds instance_.state
                let instance_ := { instance_ with byteIOIndex := some 0 }
                pure instance_)
              else (do
                pure instance_))
            let instance_ : SpongeC := e10
            let partialBlock : Nat := ((dataByteLen + U64 - i) % U64) % U32
            let e11 ← uget instance_.byteIOIndex
            let e12 : Nat ← (
              if ((partialBlock + e11) % U32) > rateInBytes then (do
                let e13 ← uget instance_.byteIOIndex
                let partialBlock : Nat := (rateInBytes + U32 - e13) % U32
                pure partialBlock)
              else (do
                pure partialBlock))
            let partialBlock : Nat := e12
            let i : Nat := (i + partialBlock) % U64
            let e14 ← uget instance_.byteIOIndex
            KeccakP1600_ExtractBytes instance_.state curData e14 partialBlock
            let curData : CPtr := padd curData partialBlock
            let e15 ← uget instance_.byteIOIndex
            let instance_ := { instance_ with byteIOIndex := some ((e15 + partialBlock) % U32) }
            pure (instance_, i, curData)))
        let instance_ : SpongeC := e7.1
        let i : Nat := e7.2.1
        let curData : CPtr := e7.2.2
        pure (instance_, i, curData))
      (instance_, i, curData)
  let instance_ : SpongeC := e5.1
  let i : Nat := e5.2.1
  let curData : CPtr := e5.2.2
  pure (0, instance_)

/-- sha3/opt64/PlSnP-Fallback.inc:66-69 `KeccakP1600times4_StaticInitialize`. -/
def KeccakP1600times4_StaticInitialize : CM Unit := do
  pure ()

/-- sha3/opt64/PlSnP-Fallback.inc:71-81 `KeccakP1600times4_InitializeAll`. -/
def KeccakP1600times4_InitializeAll (states : CPtr) : CM Unit := do
  let i : Nat := 0
  let e1 : Nat ← cwhile
      (fun _s1 =>
        let i : Nat := _s1
        decide (i < 4))
      (fun _s1 => do
        let i : Nat := _s1
        KeccakP1600_Initialize (padd states ((i * 200) % U32))
        let i : Nat := (i + 1) % U32
        pure i)
      i
  let i : Nat := e1
  pure ()

/-- sha3/opt64/PlSnP-Fallback.inc:83-90 `KeccakP1600times4_AddByte`. -/
def KeccakP1600times4_AddByte (states : CPtr) (instanceIndex : Nat) (byte : Byte) (offset : Nat) : CM Unit := do
  KeccakP1600_AddByte (padd states ((instanceIndex * 200) % U32)) byte offset
  pure ()

/-- sha3/opt64/PlSnP-Fallback.inc:92-99 `KeccakP1600times4_AddBytes`. -/
def KeccakP1600times4_AddBytes (states : CPtr) (instanceIndex : Nat) (data : CPtr) (offset : Nat) (length : Nat) : CM Unit := do
  KeccakP1600_AddBytes (padd states ((instanceIndex * 200) % U32)) data offset length
  pure ()

/-- sha3/opt64/PlSnP-Fallback.inc:147-158 `KeccakP1600times4_PermuteAll_24rounds`. -/
def KeccakP1600times4_PermuteAll_24rounds (states : CPtr) : CM Unit := do
  let i : Nat := 0
  let e1 : Nat ← cwhile
      (fun _s1 =>
        let i : Nat := _s1
        decide (i < 4))
      (fun _s1 => do
        let i : Nat := _s1
        KeccakP1600_Permute_24rounds (padd states ((i * 200) % U32))
        let i : Nat := (i + 1) % U32
        pure i)
      i
  let i : Nat := e1
  pure ()

/-- sha3/opt64/PlSnP-Fallback.inc:205-212 `KeccakP1600times4_ExtractBytes`. -/
def KeccakP1600times4_ExtractBytes (states : CPtr) (instanceIndex : Nat) (data : CPtr) (offset : Nat)
    (length : Nat) : CM Unit := do
  KeccakP1600_ExtractBytes (padd states ((instanceIndex * 200) % U32)) data offset length
  pure ()

end Faest.GenB
