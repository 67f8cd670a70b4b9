/-
Generated by tools/c2hash.py from sha3/opt64/KeccakP-1600-times4-on1.c, PlSnP-Fallback.inc, sha3/KeccakSpongetimes4.c, KeccakSpongetimes4.inc and KeccakHashtimes4.c. Do not edit.
-/
import Verif.Model.Gen.KeccakHash

set_option linter.unusedVariables false

namespace Faest.GenH
open Faest.C

/-- sha3/opt64/PlSnP-Fallback.inc:66-69 `KeccakP1600times4_StaticInitialize`. -/
def KeccakP1600times4_StaticInitialize : CM Unit := do
  pure ()

/-- sha3/opt64/PlSnP-Fallback.inc:71-81 `KeccakP1600times4_InitializeAll`. -/
def KeccakP1600times4_InitializeAll (states : CPtr) : CM Unit := do
  let i : Nat := 0
  let e1 : Nat ← cwhile
      (fun _s1 =>
        let i : Nat := _s1
        decide (i < 4))
      (fun _s1 => do
        let i : Nat := _s1
        KeccakP1600_Initialize (padd states ((i * 200) % U32))
        let i : Nat := (i + 1) % U32
        pure i)
      i
  let i : Nat := e1
  pure ()

/-- sha3/opt64/PlSnP-Fallback.inc:83-90 `KeccakP1600times4_AddByte`. -/
def KeccakP1600times4_AddByte (states : CPtr) (instanceIndex : Nat) (byte : Byte) (offset : Nat) : CM Unit := do
  let e1 : Byte ← ld (padd states ((instanceIndex * 200) % U32)) offset
  st (padd states ((instanceIndex * 200) % U32)) offset (BitVec.ofNat 8 (e1.toNat ^^^ byte.toNat))
  pure ()

/-- sha3/opt64/PlSnP-Fallback.inc:92-99 `KeccakP1600times4_AddBytes`. -/
def KeccakP1600times4_AddBytes (states : CPtr) (instanceIndex : Nat) (data : CPtr) (offset : Nat) (length : Nat) : CM Unit := do
  KeccakP1600_AddBytes (padd states ((instanceIndex * 200) % U32)) data offset length
  pure ()

/-- sha3/opt64/PlSnP-Fallback.inc:147-158 `KeccakP1600times4_PermuteAll_24rounds`. -/
def KeccakP1600times4_PermuteAll_24rounds (states : CPtr) : CM Unit := do
  let i : Nat := 0
  let e1 : Nat ← cwhile
      (fun _s1 =>
        let i : Nat := _s1
        decide (i < 4))
      (fun _s1 => do
        let i : Nat := _s1
        KeccakP1600_Permute_24rounds (padd states ((i * 200) % U32))
        let i : Nat := (i + 1) % U32
        pure i)
      i
  let i : Nat := e1
  pure ()

/-- sha3/opt64/PlSnP-Fallback.inc:205-212 `KeccakP1600times4_ExtractBytes`. -/
def KeccakP1600times4_ExtractBytes (states : CPtr) (instanceIndex : Nat) (data : CPtr) (offset : Nat)
    (length : Nat) : CM Unit := do
  KeccakP1600_ExtractBytes (padd states ((instanceIndex * 200) % U32)) data offset length
  pure ()

/-- sha3/KeccakSpongetimes4.inc:38-51 `KeccakWidth1600times4_SpongeInitialize`. -/
def KeccakWidth1600times4_SpongeInitialize (K4 : P4Impl) (instance_ : SpongeC) (rate : Nat) (capacity : Nat) : CM (Nat × SpongeC) := do
  if ((rate + capacity) % U32) ≠ 1600 then (do
    pure (1, instance_))
  else (do
    if ((rate ≤ 0) ∨ (rate > 1600)) ∨ ((rate % 8) ≠ 0) then (do
      pure (1, instance_))
    else (do
      K4.KeccakP1600times4_StaticInitialize
      K4.KeccakP1600times4_InitializeAll instance_.state
      let instance_ := { instance_ with rate := some rate }
      let instance_ := { instance_ with byteIOIndex := some 0 }
      let instance_ := { instance_ with squeezing := some 0 }
      pure (0, instance_)))

/-- sha3/KeccakSpongetimes4.inc:55-116 `KeccakWidth1600times4_SpongeAbsorb`. -/
def KeccakWidth1600times4_SpongeAbsorb (K4 : P4Impl) (instance_ : SpongeC) (data : CPtr) (dataByteLen : Nat) : CM (Nat × SpongeC) := do
  let curData ← alloc .stack (malloc 4 : Mem CPtr)
  let e1 ← uget instance_.rate
  let rateInBytes : Nat := e1 / 8
  let e2 ← uget instance_.squeezing
  if e2 ≠ 0 then (do
    cfree .stack curData
    pure (1, instance_))
  else (do
    let i : Nat := 0
    let e3 : Unit ← (
      if dataByteLen > 0 then (do
        let instanceIndex : Nat := 0
        let e4 : Nat ← cwhile
            (fun _s1 =>
              let instanceIndex : Nat := _s1
              decide (instanceIndex < 4))
            (fun _s1 => do
              let instanceIndex : Nat := _s1
              let e5 : CPtr ← ld data instanceIndex
              st curData instanceIndex e5
              let instanceIndex : Nat := (instanceIndex + 1) % U32
              pure instanceIndex)
            instanceIndex
        pure ())
      else (do
        pure ()))
    let e6 : SpongeC × Nat ← cwhile
        (fun _s1 =>
          let i : Nat := _s1.2
          decide (i < dataByteLen))
        (fun _s1 => do
          let instance_ : SpongeC := _s1.1
          let i : Nat := _s1.2
          let e7 ← uget instance_.byteIOIndex
          let e8 : SpongeC × Nat ← (
            if (e7 = 0) ∧ (dataByteLen ≥ ((i + rateInBytes) % U64)) then (do
              let j : Nat := (dataByteLen + U64 - i) % U64
              let e9 : Nat ← cwhile
                  (fun _s2 =>
                    let j : Nat := _s2
                    decide (j ≥ rateInBytes))
                  (fun _s2 => do
                    let j : Nat := _s2
                    let instanceIndex : Nat := 0
                    let e10 : Nat ← cwhile
                        (fun _s3 =>
                          let instanceIndex : Nat := _s3
                          decide (instanceIndex < 4))
                        (fun _s3 => do
                          let instanceIndex : Nat := _s3
                          let e11 : CPtr ← ld curData instanceIndex
                          K4.KeccakP1600times4_AddBytes instance_.state instanceIndex e11 0 rateInBytes
                          let e12 : CPtr ← ld curData instanceIndex
                          st curData instanceIndex (padd e12 rateInBytes)
                          let instanceIndex : Nat := (instanceIndex + 1) % U32
                          pure instanceIndex)
                        instanceIndex
                    K4.KeccakP1600times4_PermuteAll_24rounds instance_.state
                    let j : Nat := (j + U64 - rateInBytes) % U64
                    pure j)
                  j
              let j : Nat := e9
              let i : Nat := (dataByteLen + U64 - j) % U64
              pure (instance_, i))
            else (do
              let partialBlock : Nat := ((dataByteLen + U64 - i) % U64) % U32
              let e13 ← uget instance_.byteIOIndex
              let e14 : Nat ← (
                if ((partialBlock + e13) % U32) > rateInBytes then (do
                  let e15 ← uget instance_.byteIOIndex
                  let partialBlock : Nat := (rateInBytes + U32 - e15) % U32
                  pure partialBlock)
                else (do
                  pure partialBlock))
              let partialBlock : Nat := e14
              let i : Nat := (i + partialBlock) % U64
              let instanceIndex : Nat := 0
              let e16 : Nat ← cwhile
                  (fun _s2 =>
                    let instanceIndex : Nat := _s2
                    decide (instanceIndex < 4))
                  (fun _s2 => do
                    let instanceIndex : Nat := _s2
                    let e17 : CPtr ← ld curData instanceIndex
                    let e18 ← uget instance_.byteIOIndex
                    K4.KeccakP1600times4_AddBytes instance_.state instanceIndex e17 e18 partialBlock
                    let e19 : CPtr ← ld curData instanceIndex
                    st curData instanceIndex (padd e19 partialBlock)
                    let instanceIndex : Nat := (instanceIndex + 1) % U32
                    pure instanceIndex)
                  instanceIndex
              let e20 ← uget instance_.byteIOIndex
              let instance_ := { instance_ with byteIOIndex := some ((e20 + partialBlock) % U32) }
              let e21 ← uget instance_.byteIOIndex
              let e22 : SpongeC ← (
                if e21 = rateInBytes then (do
                  K4.KeccakP1600times4_PermuteAll_24rounds instance_.state
                  let instance_ := { instance_ with byteIOIndex := some 0 }
                  pure instance_)
                else (do
                  pure instance_))
              let instance_ : SpongeC := e22
              pure (instance_, i)))
          let instance_ : SpongeC := e8.1
          let i : Nat := e8.2
          pure (instance_, i))
        (instance_, i)
    let instance_ : SpongeC := e6.1
    let i : Nat := e6.2
    cfree .stack curData
    pure (0, instance_))

/-- sha3/KeccakSpongetimes4.inc:120-145 `KeccakWidth1600times4_SpongeAbsorbLastFewBits`. -/
def KeccakWidth1600times4_SpongeAbsorbLastFewBits (K4 : P4Impl) (instance_ : SpongeC) (delimitedData : Byte) : CM (Nat × SpongeC) := do
  let e1 ← uget instance_.rate
  let rateInBytes : Nat := e1 / 8
  if delimitedData.toNat = 0 then (do
    pure (1, instance_))
  else (do
    let e2 ← uget instance_.squeezing
    if e2 ≠ 0 then (do
      pure (1, instance_))
    else (do
      let instanceIndex : Nat := 0
      let e3 : Nat ← cwhile
          (fun _s1 =>
            let instanceIndex : Nat := _s1
            decide (instanceIndex < 4))
          (fun _s1 => do
            let instanceIndex : Nat := _s1
            let e4 ← uget instance_.byteIOIndex
            K4.KeccakP1600times4_AddByte instance_.state instanceIndex delimitedData e4
            let instanceIndex : Nat := (instanceIndex + 1) % U32
            pure instanceIndex)
          instanceIndex
      let e5 ← uget instance_.byteIOIndex
      let e6 : Unit ← (
        if (delimitedData.toNat ≥ 128) ∧ (e5 = ((rateInBytes + U32 - 1) % U32)) then (do
          K4.KeccakP1600times4_PermuteAll_24rounds instance_.state
          pure ())
        else (do
          pure ()))
      let instanceIndex : Nat := 0
      let e7 : Nat ← cwhile
          (fun _s1 =>
            let instanceIndex : Nat := _s1
            decide (instanceIndex < 4))
          (fun _s1 => do
            let instanceIndex : Nat := _s1
            K4.KeccakP1600times4_AddByte instance_.state instanceIndex (128 : Byte) ((rateInBytes + U32 - 1) % U32)
            let instanceIndex : Nat := (instanceIndex + 1) % U32
            pure instanceIndex)
          instanceIndex
      K4.KeccakP1600times4_PermuteAll_24rounds instance_.state
      let instance_ := { instance_ with byteIOIndex := some 0 }
      let instance_ := { instance_ with squeezing := some 1 }
      pure (0, instance_)))

/-- sha3/KeccakSpongetimes4.inc:149-195 `KeccakWidth1600times4_SpongeSqueeze`. -/
def KeccakWidth1600times4_SpongeSqueeze (K4 : P4Impl) (instance_ : SpongeC) (data : CPtr) (dataByteLen : Nat) : CM (Nat × SpongeC) := do
  let e1 ← uget instance_.rate
  let rateInBytes : Nat := e1 / 8
  let curData ← alloc .stack (malloc 4 : Mem CPtr)
  st curData 0 (none : CPtr)
  st curData 1 (none : CPtr)
  st curData 2 (none : CPtr)
  st curData 3 (none : CPtr)
  let e2 ← uget instance_.squeezing
  let e3 : SpongeC ← (
    if ¬ (e2 ≠ 0) then (do
      let e4 ← KeccakWidth1600times4_SpongeAbsorbLastFewBits K4 instance_ (1 : Byte)
      let instance_ := e4.2
      pure instance_)
    else (do
      pure instance_))
  let instance_ : SpongeC := e3
  let i : Nat := 0
  let e5 : Unit ← (
    if dataByteLen > 0 then (do
      let instanceIndex : Nat := 0
      let e6 : Nat ← cwhile
          (fun _s1 =>
            let instanceIndex : Nat := _s1
            decide (instanceIndex < 4))
          (fun _s1 => do
            let instanceIndex : Nat := _s1
            let e7 : CPtr ← ld data instanceIndex
            st curData instanceIndex e7
            let instanceIndex : Nat := (instanceIndex + 1) % U32
            pure instanceIndex)
          instanceIndex
      pure ())
    else (do
      pure ()))
  let e8 : SpongeC × Nat ← cwhile
      (fun _s1 =>
        let i : Nat := _s1.2
        decide (i < dataByteLen))
      (fun _s1 => do
        let instance_ : SpongeC := _s1.1
        let i : Nat := _s1.2
        let e9 ← uget instance_.byteIOIndex
        let e10 : SpongeC × Nat ← (
          if (e9 = rateInBytes) ∧ (dataByteLen ≥ ((i + rateInBytes) % U64)) then (do
            let j : Nat := (dataByteLen + U64 - i) % U64
            let e11 : Nat ← cwhile
                (fun _s2 =>
                  let j : Nat := _s2
                  decide (j ≥ rateInBytes))
                (fun _s2 => do
                  let j : Nat := _s2
                  K4.KeccakP1600times4_PermuteAll_24rounds instance_.state
                  let instanceIndex : Nat := 0
                  let e12 : Nat ← cwhile
                      (fun _s3 =>
                        let instanceIndex : Nat := _s3
                        decide (instanceIndex < 4))
                      (fun _s3 => do
                        let instanceIndex : Nat := _s3
                        let e13 : CPtr ← ld curData instanceIndex
                        K4.KeccakP1600times4_ExtractBytes instance_.state instanceIndex e13 0 rateInBytes
                        let e14 : CPtr ← ld curData instanceIndex
                        st curData instanceIndex (padd e14 rateInBytes)
                        let instanceIndex : Nat := (instanceIndex + 1) % U32
                        pure instanceIndex)
                      instanceIndex
                  let j : Nat := (j + U64 - rateInBytes) % U64
                  pure j)
                j
            let j : Nat := e11
            let i : Nat := (dataByteLen + U64 - j) % U64
            pure (instance_, i))
          else (do
            let e15 ← uget instance_.byteIOIndex
            let e16 : SpongeC ← (
              if e15 = rateInBytes then (do
                K4.KeccakP1600times4_PermuteAll_24rounds instance_.state
                let instance_ := { instance_ with byteIOIndex := some 0 }
                pure instance_)
              else (do
                pure instance_))
            let instance_ : SpongeC := e16
            let partialBlock : Nat := ((dataByteLen + U64 - i) % U64) % U32
            let e17 ← uget instance_.byteIOIndex
            let e18 : Nat ← (
              if ((partialBlock + e17) % U32) > rateInBytes then (do
                let e19 ← uget instance_.byteIOIndex
                let partialBlock : Nat := (rateInBytes + U32 - e19) % U32
                pure partialBlock)
              else (do
                pure partialBlock))
            let partialBlock : Nat := e18
            let i : Nat := (i + partialBlock) % U64
            let instanceIndex : Nat := 0
            let e20 : Nat ← cwhile
                (fun _s2 =>
                  let instanceIndex : Nat := _s2
                  decide (instanceIndex < 4))
                (fun _s2 => do
                  let instanceIndex : Nat := _s2
                  let e21 : CPtr ← ld curData instanceIndex
                  let e22 ← uget instance_.byteIOIndex
                  K4.KeccakP1600times4_ExtractBytes instance_.state instanceIndex e21 e22 partialBlock
                  let e23 : CPtr ← ld curData instanceIndex
                  st curData instanceIndex (padd e23 partialBlock)
                  let instanceIndex : Nat := (instanceIndex + 1) % U32
                  pure instanceIndex)
                instanceIndex
            let e24 ← uget instance_.byteIOIndex
            let instance_ := { instance_ with byteIOIndex := some ((e24 + partialBlock) % U32) }
            pure (instance_, i)))
        let instance_ : SpongeC := e10.1
        let i : Nat := e10.2
        pure (instance_, i))
      (instance_, i)
  let instance_ : SpongeC := e8.1
  let i : Nat := e8.2
  cfree .stack curData
  pure (0, instance_)

/-- sha3/KeccakHashtimes4.c:24-36 `Keccak_HashInitializetimes4`. -/
def Keccak_HashInitializetimes4 (K4 : P4Impl) (instance_ : HashC) (rate : Nat) (capacity : Nat)
    (hashbitlen : Nat) (delimitedSuffix : Byte) : CM (Nat × HashC) := do
  if delimitedSuffix.toNat = 0 then (do
    pure (1, instance_))
  else (do
    let e1 ← KeccakWidth1600times4_SpongeInitialize K4 instance_.sponge rate capacity
    let instance_ := { instance_ with sponge := e1.2 }
    let result : Nat := e1.1
    if result ≠ 0 then (do
      pure (result, instance_))
    else (do
      let instance_ := { instance_ with fixedOutputLength := some hashbitlen }
      let instance_ := { instance_ with delimitedSuffix := some delimitedSuffix }
      pure (0, instance_)))

/-- sha3/KeccakHashtimes4.c:40-45 `Keccak_HashUpdatetimes4`. -/
def Keccak_HashUpdatetimes4 (K4 : P4Impl) (instance_ : HashC) (data : CPtr) (databitlen : Nat) : CM (Nat × HashC) := do
  if (databitlen % 8) ≠ 0 then (do
    pure (1, instance_))
  else (do
    let e1 ← KeccakWidth1600times4_SpongeAbsorb K4 instance_.sponge data (databitlen / 8)
    let instance_ := { instance_ with sponge := e1.2 }
    pure (e1.1, instance_))

/-- sha3/KeccakHashtimes4.c:49-56 `Keccak_HashFinaltimes4`. -/
def Keccak_HashFinaltimes4 (K4 : P4Impl) (instance_ : HashC) (hashval : CPtr) : CM (Nat × HashC) := do
  let e1 ← uget instance_.delimitedSuffix
  let e2 ← KeccakWidth1600times4_SpongeAbsorbLastFewBits K4 instance_.sponge e1
  let instance_ := { instance_ with sponge := e2.2 }
  let ret : Nat := e2.1
  if ret = 0 then (do
    let e3 ← uget instance_.fixedOutputLength
    let e4 ← KeccakWidth1600times4_SpongeSqueeze K4 instance_.sponge hashval (e3 / 8)
    let instance_ := { instance_ with sponge := e4.2 }
    pure (e4.1, instance_))
  else (do
    pure (ret, instance_))

/-- sha3/KeccakHashtimes4.c:60-65 `Keccak_HashSqueezetimes4`. -/
def Keccak_HashSqueezetimes4 (K4 : P4Impl) (instance_ : HashC) (data : CPtr) (databitlen : Nat) : CM (Nat × HashC) := do
  if (databitlen % 8) ≠ 0 then (do
    pure (1, instance_))
  else (do
    let e1 ← KeccakWidth1600times4_SpongeSqueeze K4 instance_.sponge data (databitlen / 8)
    let instance_ := { instance_ with sponge := e1.2 }
    pure (e1.1, instance_))

end Faest.GenH
