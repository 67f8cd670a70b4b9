/-
Generated by tools/c2hash.py from sha3/KeccakSponge.c, KeccakSponge.inc and KeccakHash.c. Do not edit.
-/
import Verif.Model.P4Impl
import Verif.Model.Gen.KeccakP

set_option linter.unusedVariables false

namespace Faest.GenH
open Faest.C

/-- sha3/KeccakSponge.inc:134-147 `KeccakWidth1600_SpongeInitialize`. -/
def KeccakWidth1600_SpongeInitialize (instance_ : SpongeC) (rate : Nat) (capacity : Nat) : CM (Nat × SpongeC) := do
  if ((rate + capacity) % U32) ≠ 1600 then (do
    pure (1, instance_))
  else (do
    if ((rate ≤ 0) ∨ (rate > 1600)) ∨ ((rate % 8) ≠ 0) then (do
      pure (1, instance_))
    else (do
      KeccakP1600_Initialize instance_.state
      let instance_ := { instance_ with rate := some rate }
      let instance_ := { instance_ with byteIOIndex := some 0 }
      let instance_ := { instance_ with squeezing := some 0 }
      pure (0, instance_)))

/-- sha3/KeccakSponge.inc:151-208 `KeccakWidth1600_SpongeAbsorb`. -/
def KeccakWidth1600_SpongeAbsorb (instance_ : SpongeC) (data : CPtr) (dataByteLen : Nat) : CM (Nat × SpongeC) := do
  let e1 ← uget instance_.rate
  let rateInBytes : Nat := e1 / 8
  let e2 ← uget instance_.squeezing
  if e2 ≠ 0 then (do
    pure (1, instance_))
  else (do
    let i : Nat := 0
    let curData : CPtr := data
    let e3 : SpongeC × Nat × CPtr ← cwhile
        (fun _s1 =>
          let i : Nat := _s1.2.1
          decide (i < dataByteLen))
        (fun _s1 => do
          let instance_ : SpongeC := _s1.1
          let i : Nat := _s1.2.1
          let curData : CPtr := _s1.2.2
          let e4 ← uget instance_.byteIOIndex
          let e5 : SpongeC × Nat × CPtr ← (
            if (e4 = 0) ∧ (dataByteLen ≥ ((i + rateInBytes) % U64)) then (do
              let e6 : Nat × Nat × CPtr ← (
                if (rateInBytes % 8) = 0 then (do
                  let e7 ← KeccakF1600_FastLoop_Absorb instance_.state (rateInBytes / 8) curData ((dataByteLen + U64 - i) % U64)
                  let j : Nat := e7
                  let i : Nat := (i + j) % U64
                  let curData : CPtr := padd curData j
                  pure (i, j, curData))
                else (do
                  let j : Nat := (dataByteLen + U64 - i) % U64
                  let e8 : Nat × CPtr ← cwhile
                      (fun _s2 =>
                        let j : Nat := _s2.1
                        decide (j ≥ rateInBytes))
                      (fun _s2 => do
                        let j : Nat := _s2.1
                        let curData : CPtr := _s2.2
                        KeccakP1600_AddBytes instance_.state curData 0 rateInBytes
                        KeccakP1600_Permute_24rounds instance_.state
                        let curData : CPtr := padd curData rateInBytes
                        let j : Nat := (j + U64 - rateInBytes) % U64
                        pure (j, curData))
                      (j, curData)
                  let j : Nat := e8.1
                  let curData : CPtr := e8.2
                  let i : Nat := (dataByteLen + U64 - j) % U64
                  pure (i, j, curData)))
              let i : Nat := e6.1
              let j : Nat := e6.2.1
              let curData : CPtr := e6.2.2
              pure (instance_, i, curData))
            else (do
              let partialBlock : Nat := ((dataByteLen + U64 - i) % U64) % U32
              let e9 ← uget instance_.byteIOIndex
              let e10 : Nat ← (
                if ((partialBlock + e9) % U32) > rateInBytes then (do
                  let e11 ← uget instance_.byteIOIndex
                  let partialBlock : Nat := (rateInBytes + U32 - e11) % U32
                  pure partialBlock)
                else (do
                  pure partialBlock))
              let partialBlock : Nat := e10
              let i : Nat := (i + partialBlock) % U64
              let e12 ← uget instance_.byteIOIndex
              KeccakP1600_AddBytes instance_.state curData e12 partialBlock
              let curData : CPtr := padd curData partialBlock
              let e13 ← uget instance_.byteIOIndex
              let instance_ := { instance_ with byteIOIndex := some ((e13 + partialBlock) % U32) }
              let e14 ← uget instance_.byteIOIndex
              let e15 : SpongeC ← (
                if e14 = rateInBytes then (do
                  KeccakP1600_Permute_24rounds instance_.state
                  let instance_ := { instance_ with byteIOIndex := some 0 }
                  pure instance_)
                else (do
                  pure instance_))
              let instance_ : SpongeC := e15
              pure (instance_, i, curData)))
          let instance_ : SpongeC := e5.1
          let i : Nat := e5.2.1
          let curData : CPtr := e5.2.2
          pure (instance_, i, curData))
        (instance_, i, curData)
    let instance_ : SpongeC := e3.1
    let i : Nat := e3.2.1
    let curData : CPtr := e3.2.2
    pure (0, instance_))

/-- sha3/KeccakSponge.inc:212-250 `KeccakWidth1600_SpongeAbsorbLastFewBits`. -/
def KeccakWidth1600_SpongeAbsorbLastFewBits (instance_ : SpongeC) (delimitedData : Byte) : CM (Nat × SpongeC) := do
  let e1 ← uget instance_.rate
  let rateInBytes : Nat := e1 / 8
  if delimitedData.toNat = 0 then (do
    pure (1, instance_))
  else (do
    let e2 ← uget instance_.squeezing
    if e2 ≠ 0 then (do
      pure (1, instance_))
    else (do
      let e3 ← uget instance_.byteIOIndex
      let e4 ← uget instance_.byteIOIndex
      let e5 : Byte ← ld instance_.state e4
      st instance_.state e3 (BitVec.ofNat 8 (e5.toNat ^^^ delimitedData.toNat))
      let e6 ← uget instance_.byteIOIndex
      let e7 : Unit ← (
        if (delimitedData.toNat ≥ 128) ∧ (e6 = ((rateInBytes + U32 - 1) % U32)) then (do
          KeccakP1600_Permute_24rounds instance_.state
          pure ())
        else (do
          pure ()))
      let e8 : Byte ← ld instance_.state ((rateInBytes + U32 - 1) % U32)
      st instance_.state ((rateInBytes + U32 - 1) % U32) (BitVec.ofNat 8 (e8.toNat ^^^ 128))
      KeccakP1600_Permute_24rounds instance_.state
      let instance_ := { instance_ with byteIOIndex := some 0 }
      let instance_ := { instance_ with squeezing := some 1 }
      pure (0, instance_)))

/-- sha3/KeccakSponge.inc:254-298 `KeccakWidth1600_SpongeSqueeze`. -/
def KeccakWidth1600_SpongeSqueeze (instance_ : SpongeC) (data : CPtr) (dataByteLen : Nat) : CM (Nat × SpongeC) := do
  let e1 ← uget instance_.rate
  let rateInBytes : Nat := e1 / 8
  let e2 ← uget instance_.squeezing
  let e3 : SpongeC ← (
    if ¬ (e2 ≠ 0) then (do
      let e4 ← KeccakWidth1600_SpongeAbsorbLastFewBits instance_ (1 : Byte)
      let instance_ := e4.2
      pure instance_)
    else (do
      pure instance_))
  let instance_ : SpongeC := e3
  let i : Nat := 0
  let curData : CPtr := data
  let e5 : SpongeC × Nat × CPtr ← cwhile
      (fun _s1 =>
        let i : Nat := _s1.2.1
        decide (i < dataByteLen))
      (fun _s1 => do
        let instance_ : SpongeC := _s1.1
        let i : Nat := _s1.2.1
        let curData : CPtr := _s1.2.2
        let e6 ← uget instance_.byteIOIndex
        let e7 : SpongeC × Nat × CPtr ← (
          if (e6 = rateInBytes) ∧ (dataByteLen ≥ ((i + rateInBytes) % U64)) then (do
            let j : Nat := (dataByteLen + U64 - i) % U64
            let e8 : Nat × CPtr ← cwhile
                (fun _s2 =>
                  let j : Nat := _s2.1
                  decide (j ≥ rateInBytes))
                (fun _s2 => do
                  let j : Nat := _s2.1
                  let curData : CPtr := _s2.2
                  KeccakP1600_Permute_24rounds instance_.state
                  KeccakP1600_ExtractBytes instance_.state curData 0 rateInBytes
                  let curData : CPtr := padd curData rateInBytes
                  let j : Nat := (j + U64 - rateInBytes) % U64
                  pure (j, curData))
                (j, curData)
            let j : Nat := e8.1
            let curData : CPtr := e8.2
            let i : Nat := (dataByteLen + U64 - j) % U64
            pure (instance_, i, curData))
          else (do
            let e9 ← uget instance_.byteIOIndex
            let e10 : SpongeC ← (
              if e9 = rateInBytes then (do
                KeccakP1600_Permute_24rounds instance_.state
                let instance_ := { instance_ with byteIOIndex := some 0 }
                pure instance_)
              else (do
                pure instance_))
            let instance_ : SpongeC := e10
            let partialBlock : Nat := ((dataByteLen + U64 - i) % U64) % U32
            let e11 ← uget instance_.byteIOIndex
            let e12 : Nat ← (
              if ((partialBlock + e11) % U32) > rateInBytes then (do
                let e13 ← uget instance_.byteIOIndex
                let partialBlock : Nat := (rateInBytes + U32 - e13) % U32
                pure partialBlock)
              else (do
                pure partialBlock))
            let partialBlock : Nat := e12
            let i : Nat := (i + partialBlock) % U64
            let e14 ← uget instance_.byteIOIndex
            KeccakP1600_ExtractBytes instance_.state curData e14 partialBlock
            let curData : CPtr := padd curData partialBlock
            let e15 ← uget instance_.byteIOIndex
            let instance_ := { instance_ with byteIOIndex := some ((e15 + partialBlock) % U32) }
            pure (instance_, i, curData)))
        let instance_ : SpongeC := e7.1
        let i : Nat := e7.2.1
        let curData : CPtr := e7.2.2
        pure (instance_, i, curData))
      (instance_, i, curData)
  let instance_ : SpongeC := e5.1
  let i : Nat := e5.2.1
  let curData : CPtr := e5.2.2
  pure (0, instance_)

/-- sha3/KeccakHash.c:22-34 `Keccak_HashInitialize`. -/
def Keccak_HashInitialize (K1 : SpImpl) (instance_ : HashC) (rate : Nat) (capacity : Nat) (hashbitlen : Nat)
    (delimitedSuffix : Byte) : CM (Nat × HashC) := do
  if delimitedSuffix.toNat = 0 then (do
    pure (1, instance_))
  else (do
    let e1 ← K1.KeccakWidth1600_SpongeInitialize instance_.sponge rate capacity
    let instance_ := { instance_ with sponge := e1.2 }
    let result : Nat := e1.1
    if result ≠ 0 then (do
      pure (result, instance_))
    else (do
      let instance_ := { instance_ with fixedOutputLength := some hashbitlen }
      let instance_ := { instance_ with delimitedSuffix := some delimitedSuffix }
      pure (0, instance_)))

/-- sha3/KeccakHash.c:38-61 `Keccak_HashUpdate`. -/
def Keccak_HashUpdate (K1 : SpImpl) (instance_ : HashC) (data : CPtr) (databitlen : Nat) : CM (Nat × HashC) := do
  if (databitlen % 8) = 0 then (do
    let e1 ← K1.KeccakWidth1600_SpongeAbsorb instance_.sponge data (databitlen / 8)
    let instance_ := { instance_ with sponge := e1.2 }
    pure (e1.1, instance_))
  else (do
    let e2 ← K1.KeccakWidth1600_SpongeAbsorb instance_.sponge data (databitlen / 8)
    let instance_ := { instance_ with sponge := e2.2 }
    let ret : Nat := e2.1
    let e3 : HashC × Nat ← (
      if ret = 0 then (do
        let e4 : Byte ← ld data (databitlen / 8)
        let lastByte : Byte := e4
        let e5 ← isub (1 <<< (databitlen % 8)) 1
        let e6 ← uget instance_.delimitedSuffix
        let delimitedLastBytes : Nat := (lastByte.toNat &&& e5) ||| (e6.toNat <<< (databitlen % 8))
        let e7 : HashC × Nat ← (
          if (delimitedLastBytes &&& 65280) = 0 then (do
            let instance_ := { instance_ with delimitedSuffix := some (BitVec.ofNat 8 (delimitedLastBytes &&& 255)) }
            pure (instance_, ret))
          else (do
            let oneByte ← alloc .stack (malloc 1 : Mem Byte)
            st oneByte 0 (BitVec.ofNat 8 (delimitedLastBytes &&& 255))
            let e8 ← K1.KeccakWidth1600_SpongeAbsorb instance_.sponge oneByte 1
            let instance_ := { instance_ with sponge := e8.2 }
            let ret : Nat := e8.1
            let instance_ := { instance_ with delimitedSuffix := some (BitVec.ofNat 8 ((delimitedLastBytes >>> 8) &&& 255)) }
            cfree .stack oneByte
            pure (instance_, ret)))
        let instance_ : HashC := e7.1
        let ret : Nat := e7.2
        pure (instance_, ret))
      else (do
        pure (instance_, ret)))
    let instance_ : HashC := e3.1
    let ret : Nat := e3.2
    pure (ret, instance_))

/-- sha3/KeccakHash.c:65-72 `Keccak_HashFinal`. -/
def Keccak_HashFinal (K1 : SpImpl) (instance_ : HashC) (hashval : CPtr) : CM (Nat × HashC) := do
  let e1 ← uget instance_.delimitedSuffix
  let e2 ← K1.KeccakWidth1600_SpongeAbsorbLastFewBits instance_.sponge e1
  let instance_ := { instance_ with sponge := e2.2 }
  let ret : Nat := e2.1
  if ret = 0 then (do
    let e3 ← uget instance_.fixedOutputLength
    let e4 ← K1.KeccakWidth1600_SpongeSqueeze instance_.sponge hashval (e3 / 8)
    let instance_ := { instance_ with sponge := e4.2 }
    pure (e4.1, instance_))
  else (do
    pure (ret, instance_))

/-- sha3/KeccakHash.c:76-81 `Keccak_HashSqueeze`. -/
def Keccak_HashSqueeze (K1 : SpImpl) (instance_ : HashC) (data : CPtr) (databitlen : Nat) : CM (Nat × HashC) := do
  if (databitlen % 8) ≠ 0 then (do
    pure (1, instance_))
  else (do
    let e1 ← K1.KeccakWidth1600_SpongeSqueeze instance_.sponge data (databitlen / 8)
    let instance_ := { instance_ with sponge := e1.2 }
    pure (e1.1, instance_))

end Faest.GenH
