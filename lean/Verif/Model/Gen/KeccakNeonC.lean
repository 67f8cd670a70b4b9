/-
Generated by tools/c2hash.py from sha3/KeccakSponge.c and KeccakSponge.inc with the headers of sha3/armv8a-neon, and from sha3/opt64/KeccakP-1600-times4-on1.c and PlSnP-Fallback.inc. Do not edit.
-/
import Verif.Model.NeonC

set_option linter.unusedVariables false

namespace Faest.GenN
open Faest.C

/-- sha3/KeccakSponge.inc:134-147 `KeccakWidth1600_SpongeInitialize`. -/
def KeccakWidth1600_SpongeInitialize (c0 : A64.Cpu) (instance_ : SpongeC) (rate : Nat) (capacity : Nat) : CM (Nat × SpongeC) := do
  if ((rate + capacity) % U32) ≠ 1600 then (do
    pure (1, instance_))
  else (do
    if ((rate ≤ 0) ∨ (rate > 1600)) ∨ ((rate % 8) ≠ 0) then (do
      pure (1, instance_))
    else (do
      KeccakP1600_Initialize c0 instance_.state
      let instance_ := { instance_ with rate := some rate }
      let instance_ := { instance_ with byteIOIndex := some 0 }
      let instance_ := { instance_ with squeezing := some 0 }
      pure (0, instance_)))

/-- sha3/KeccakSponge.inc:151-208 `KeccakWidth1600_SpongeAbsorb`. -/
def KeccakWidth1600_SpongeAbsorb (c0 : A64.Cpu) (instance_ : SpongeC) (data : CPtr) (dataByteLen : Nat) : CM (Nat × SpongeC) := do
  let e1 ← uget instance_.rate
  let rateInBytes : Nat := e1 / 8
  let e2 ← uget instance_.squeezing
  if e2 ≠ 0 then (do
    pure (1, instance_))
  else (do
    let i : Nat := 0
    let curData : CPtr := data
    let e3 : SpongeC × Nat × CPtr ← cwhile
        (fun _s1 =>
          let i : Nat := _s1.2.1
          decide (i < dataByteLen))
        (fun _s1 => do
          let instance_ : SpongeC := _s1.1
          let i : Nat := _s1.2.1
          let curData : CPtr := _s1.2.2
          let e4 ← uget instance_.byteIOIndex
          let e5 : SpongeC × Nat × CPtr ← (
            if (e4 = 0) ∧ (dataByteLen ≥ ((i + rateInBytes) % U64)) then (do
              let j : Nat := (dataByteLen + U64 - i) % U64
              let e6 : Nat × CPtr ← cwhile
                  (fun _s2 =>
                    let j : Nat := _s2.1
                    decide (j ≥ rateInBytes))
                  (fun _s2 => do
                    let j : Nat := _s2.1
                    let curData : CPtr := _s2.2
                    KeccakP1600_AddBytes c0 instance_.state curData 0 rateInBytes
                    KeccakP1600_Permute_24rounds c0 instance_.state
                    let curData : CPtr := padd curData rateInBytes
                    let j : Nat := (j + U64 - rateInBytes) % U64
                    pure (j, curData))
                  (j, curData)
              let j : Nat := e6.1
              let curData : CPtr := e6.2
              let i : Nat := (dataByteLen + U64 - j) % U64
              pure (instance_, i, curData))
            else (do
              let partialBlock : Nat := ((dataByteLen + U64 - i) % U64) % U32
              let e7 ← uget instance_.byteIOIndex
              let e8 : Nat ← (
                if ((partialBlock + e7) % U32) > rateInBytes then (do
                  let e9 ← uget instance_.byteIOIndex
                  let partialBlock : Nat := (rateInBytes + U32 - e9) % U32
                  pure partialBlock)
                else (do
                  pure partialBlock))
              let partialBlock : Nat := e8
              let i : Nat := (i + partialBlock) % U64
              let e10 ← uget instance_.byteIOIndex
              KeccakP1600_AddBytes c0 instance_.state curData e10 partialBlock
              let curData : CPtr := padd curData partialBlock
              let e11 ← uget instance_.byteIOIndex
              let instance_ := { instance_ with byteIOIndex := some ((e11 + partialBlock) % U32) }
              let e12 ← uget instance_.byteIOIndex
              let e13 : SpongeC ← (
                if e12 = rateInBytes then (do
                  KeccakP1600_Permute_24rounds c0 instance_.state
                  let instance_ := { instance_ with byteIOIndex := some 0 }
                  pure instance_)
                else (do
                  pure instance_))
              let instance_ : SpongeC := e13
              pure (instance_, i, curData)))
          let instance_ : SpongeC := e5.1
          let i : Nat := e5.2.1
          let curData : CPtr := e5.2.2
          pure (instance_, i, curData))
        (instance_, i, curData)
    let instance_ : SpongeC := e3.1
    let i : Nat := e3.2.1
    let curData : CPtr := e3.2.2
    pure (0, instance_))

/-- sha3/KeccakSponge.inc:212-250 `KeccakWidth1600_SpongeAbsorbLastFewBits`. -/
def KeccakWidth1600_SpongeAbsorbLastFewBits (c0 : A64.Cpu) (instance_ : SpongeC) (delimitedData : Byte) : CM (Nat × SpongeC) := do
  let e1 ← uget instance_.rate
  let rateInBytes : Nat := e1 / 8
  if delimitedData.toNat = 0 then (do
    pure (1, instance_))
  else (do
    let e2 ← uget instance_.squeezing
    if e2 ≠ 0 then (do
      pure (1, instance_))
    else (do
      let e3 ← uget instance_.byteIOIndex
      KeccakP1600_AddByte c0 instance_.state delimitedData e3
      let e4 ← uget instance_.byteIOIndex
      let e5 : Unit ← (
        if (delimitedData.toNat ≥ 128) ∧ (e4 = ((rateInBytes + U32 - 1) % U32)) then (do
          KeccakP1600_Permute_24rounds c0 instance_.state
          pure ())
        else (do
          pure ()))
      KeccakP1600_AddByte c0 instance_.state (128 : Byte) ((rateInBytes + U32 - 1) % U32)
      KeccakP1600_Permute_24rounds c0 instance_.state
      let instance_ := { instance_ with byteIOIndex := some 0 }
      let instance_ := { instance_ with squeezing := some 1 }
      pure (0, instance_)))

/-- sha3/KeccakSponge.inc:254-298 `KeccakWidth1600_SpongeSqueeze`. -/
def KeccakWidth1600_SpongeSqueeze (c0 : A64.Cpu) (instance_ : SpongeC) (data : CPtr) (dataByteLen : Nat) : CM (Nat × SpongeC) := do
  let e1 ← uget instance_.rate
  let rateInBytes : Nat := e1 / 8
  let e2 ← uget instance_.squeezing
  let e3 : SpongeC ← (
    if ¬ (e2 ≠ 0) then (do
      let e4 ← KeccakWidth1600_SpongeAbsorbLastFewBits c0 instance_ (1 : Byte)
      let instance_ := e4.2
      pure instance_)
    else (do
      pure instance_))
  let instance_ : SpongeC := e3
  let i : Nat := 0
  let curData : CPtr := data
  let e5 : SpongeC × Nat × CPtr ← cwhile
      (fun _s1 =>
        let i : Nat := _s1.2.1
        decide (i < dataByteLen))
      (fun _s1 => do
        let instance_ : SpongeC := _s1.1
        let i : Nat := _s1.2.1
        let curData : CPtr := _s1.2.2
        let e6 ← uget instance_.byteIOIndex
        let e7 : SpongeC × Nat × CPtr ← (
          if (e6 = rateInBytes) ∧ (dataByteLen ≥ ((i + rateInBytes) % U64)) then (do
            let j : Nat := (dataByteLen + U64 - i) % U64
            let e8 : Nat × CPtr ← cwhile
                (fun _s2 =>
                  let j : Nat := _s2.1
                  decide (j ≥ rateInBytes))
                (fun _s2 => do
                  let j : Nat := _s2.1
                  let curData : CPtr := _s2.2
                  KeccakP1600_Permute_24rounds c0 instance_.state
                  KeccakP1600_ExtractBytes c0 instance_.state curData 0 rateInBytes
                  let curData : CPtr := padd curData rateInBytes
                  let j : Nat := (j + U64 - rateInBytes) % U64
                  pure (j, curData))
                (j, curData)
            let j : Nat := e8.1
            let curData : CPtr := e8.2
            let i : Nat := (dataByteLen + U64 - j) % U64
            pure (instance_, i, curData))
          else (do
            let e9 ← uget instance_.byteIOIndex
            let e10 : SpongeC ← (
              if e9 = rateInBytes then (do
                KeccakP1600_Permute_24rounds c0 instance_.state
                let instance_ := { instance_ with byteIOIndex := some 0 }
                pure instance_)
              else (do
                pure instance_))
            let instance_ : SpongeC := e10
            let partialBlock : Nat := ((dataByteLen + U64 - i) % U64) % U32
            let e11 ← uget instance_.byteIOIndex
            let e12 : Nat ← (
              if ((partialBlock + e11) % U32) > rateInBytes then (do
                let e13 ← uget instance_.byteIOIndex
                let partialBlock : Nat := (rateInBytes + U32 - e13) % U32
                pure partialBlock)
              else (do
                pure partialBlock))
            let partialBlock : Nat := e12
            let i : Nat := (i + partialBlock) % U64
            let e14 ← uget instance_.byteIOIndex
            KeccakP1600_ExtractBytes c0 instance_.state curData e14 partialBlock
            let curData : CPtr := padd curData partialBlock
            let e15 ← uget instance_.byteIOIndex
            let instance_ := { instance_ with byteIOIndex := some ((e15 + partialBlock) % U32) }
            pure (instance_, i, curData)))
        let instance_ : SpongeC := e7.1
        let i : Nat := e7.2.1
        let curData : CPtr := e7.2.2
        pure (instance_, i, curData))
      (instance_, i, curData)
  let instance_ : SpongeC := e5.1
  let i : Nat := e5.2.1
  let curData : CPtr := e5.2.2
  pure (0, instance_)

/-- sha3/opt64/PlSnP-Fallback.inc:66-69 `KeccakP1600times4_StaticInitialize`. -/
def KeccakP1600times4_StaticInitialize : CM Unit := do
  pure ()

/-- sha3/opt64/PlSnP-Fallback.inc:71-81 `KeccakP1600times4_InitializeAll`. -/
def KeccakP1600times4_InitializeAll (c0 : A64.Cpu) (states : CPtr) : CM Unit := do
  let i : Nat := 0
  let e1 : Nat ← cwhile
      (fun _s1 =>
        let i : Nat := _s1
        decide (i < 4))
      (fun _s1 => do
        let i : Nat := _s1
        KeccakP1600_Initialize c0 (padd states ((i * 200) % U32))
        let i : Nat := (i + 1) % U32
        pure i)
      i
  let i : Nat := e1
  pure ()

/-- sha3/opt64/PlSnP-Fallback.inc:83-90 `KeccakP1600times4_AddByte`. -/
def KeccakP1600times4_AddByte (states : CPtr) (instanceIndex : Nat) (byte : Byte) (offset : Nat) : CM Unit := do
  let e1 : Byte ← ld (padd states ((instanceIndex * 200) % U32)) offset
  st (padd states ((instanceIndex * 200) % U32)) offset (BitVec.ofNat 8 (e1.toNat ^^^ byte.toNat))
  pure ()

/-- sha3/opt64/PlSnP-Fallback.inc:92-99 `KeccakP1600times4_AddBytes`. -/
def KeccakP1600times4_AddBytes (c0 : A64.Cpu) (states : CPtr) (instanceIndex : Nat) (data : CPtr) (offset : Nat)
    (length : Nat) : CM Unit := do
  KeccakP1600_AddBytes c0 (padd states ((instanceIndex * 200) % U32)) data offset length
  pure ()

/-- sha3/opt64/PlSnP-Fallback.inc:147-158 `KeccakP1600times4_PermuteAll_24rounds`. -/
def KeccakP1600times4_PermuteAll_24rounds (c0 : A64.Cpu) (states : CPtr) : CM Unit := do
  let i : Nat := 0
  let e1 : Nat ← cwhile
      (fun _s1 =>
        let i : Nat := _s1
        decide (i < 4))
      (fun _s1 => do
        let i : Nat := _s1
        KeccakP1600_Permute_24rounds c0 (padd states ((i * 200) % U32))
        let i : Nat := (i + 1) % U32
        pure i)
      i
  let i : Nat := e1
  pure ()

/-- sha3/opt64/PlSnP-Fallback.inc:205-212 `KeccakP1600times4_ExtractBytes`. -/
def KeccakP1600times4_ExtractBytes (c0 : A64.Cpu) (states : CPtr) (instanceIndex : Nat) (data : CPtr)
    (offset : Nat) (length : Nat) : CM Unit := do
  KeccakP1600_ExtractBytes c0 (padd states ((instanceIndex * 200) % U32)) data offset length
  pure ()

end Faest.GenN
