/-
The sponge construction and the hash interface: sha3/KeccakSponge.inc, sha3/KeccakSpongetimes4.inc,
sha3/KeccakHash.c, sha3/KeccakHashtimes4.c, hash_shake.h (the branch for the bundled implementation with
`WITH_KECCAK_X4`, the default of meson.build:483-502).  random_oracle.c is in Model/RandomOracle.lean.

Sizes follow the C types: `unsigned int` has 32 bits, `size_t` has `w` bits (a parameter, 32 or 64).
A conversion or an unsigned operation that does not fit wraps around.
-/
import Verif.Model.Keccak

namespace Faest.Keccak

/-- Conversion to `unsigned int`. -/
def uint (x : Nat) : Nat := x % 2 ^ 32

/-- Conversion to `size_t`. -/
def sizeT (w x : Nat) : Nat := x % 2 ^ w

/-- KeccakSponge.h:27-33 `KeccakWidth1600_SpongeInstance`, KeccakSpongetimes4.h:25-31 for four states. -/
structure SpongeInstance where
  /-- `state` -/
  state : Mem U64
  /-- `rate` -/
  rate : Nat
  /-- `byteIOIndex` -/
  byteIOIndex : Nat
  /-- `squeezing` -/
  squeezing : Bool

/-- KeccakSponge.inc:134-147 `SpongeInitialize`; the flag is the return value 0. -/
def spongeInitialize (inst : SpongeInstance) (rate capacity : Nat) : Option (SpongeInstance × Bool) :=
  if uint (rate + capacity) ≠ 1600 then some (inst, false)
  else if rate = 0 ∨ rate > 1600 ∨ rate % 8 ≠ 0 then some (inst, false)
  else do
    let st ← initState inst.state 0
    pure ({ state := st, rate := rate, byteIOIndex := 0, squeezing := false }, true)

/-- `partialBlock` as computed in KeccakSponge.inc:190-192 and 284-286:
`partialBlock = (unsigned int)(dataByteLen - i); if (partialBlock+byteIOIndex > rateInBytes)
partialBlock = rateInBytes-byteIOIndex`. -/
def partialBlock (rateInBytes byteIOIndex left : Nat) : Nat :=
  if uint (uint left + byteIOIndex) > rateInBytes then uint (rateInBytes + 2 ^ 32 - byteIOIndex)
  else uint left

/-- KeccakSponge.inc:175-184, the loop over whole blocks for rates which are not whole lanes; `j` bytes are
left at `data`.  The first argument is fuel. -/
def absorbBlocks (rateInBytes : Nat) : Nat → Mem U64 → Mem Byte → Nat → Option (Mem U64 × Nat)
  | 0, _, _, _ => none
  | fuel + 1, st, data, j =>
    if j ≥ rateInBytes then do
      let st ← addBytes st 0 data 0 rateInBytes
      let st ← permute24 st 0
      let data ← ptr data rateInBytes
      absorbBlocks rateInBytes fuel st data (j - rateInBytes)
    else some (st, j)

/-- KeccakSponge.inc:163-206, the loop of `SpongeAbsorb`.  `curData` is always `data + i`.  The first
argument is fuel. -/
def absorbLoop (w : Nat) (data : Mem Byte) (dataByteLen : Nat) : Nat → SpongeInstance → Nat → Option SpongeInstance
  | 0, _, _ => none
  | fuel + 1, inst, i =>
    let rateInBytes := inst.rate / 8
    if i < dataByteLen then do
      let curData ← ptr data i
      if inst.byteIOIndex = 0 ∧ dataByteLen ≥ sizeT w (i + rateInBytes) then
        if rateInBytes % 8 = 0 then do
          let (st, j) ← fastLoopAbsorb inst.state 0 (rateInBytes / 8) curData (dataByteLen - i)
          absorbLoop w data dataByteLen fuel { inst with state := st } (sizeT w (i + j))
        else do
          let (st, j) ← absorbBlocks rateInBytes (dataByteLen + 1) inst.state curData (dataByteLen - i)
          absorbLoop w data dataByteLen fuel { inst with state := st } (dataByteLen - j)
      else do
        let n := partialBlock rateInBytes inst.byteIOIndex (dataByteLen - i)
        let st ← addBytes inst.state 0 curData inst.byteIOIndex n
        if uint (inst.byteIOIndex + n) = rateInBytes then do
          let st ← permute24 st 0
          absorbLoop w data dataByteLen fuel { inst with state := st, byteIOIndex := 0 } (sizeT w (i + n))
        else
          absorbLoop w data dataByteLen fuel
            { inst with state := st, byteIOIndex := uint (inst.byteIOIndex + n) } (sizeT w (i + n))
    else some inst

/-- KeccakSponge.inc:151-208 `SpongeAbsorb`; the flag is the return value 0. -/
def spongeAbsorb (w : Nat) (inst : SpongeInstance) (data : Mem Byte) (dataByteLen : Nat) :
    Option (SpongeInstance × Bool) :=
  if inst.squeezing then some (inst, false)
  else do
    let inst ← absorbLoop w data dataByteLen (dataByteLen + 1) inst 0
    pure (inst, true)

/-- KeccakSponge.inc:212-250 `SpongeAbsorbLastFewBits`. -/
def spongeAbsorbLastFewBits (inst : SpongeInstance) (delimitedData : Byte) : Option (SpongeInstance × Bool) :=
  let rateInBytes := inst.rate / 8
  if delimitedData = 0 then some (inst, false)
  else if inst.squeezing then some (inst, false)
  else do
    let st ← addByte inst.state 0 delimitedData inst.byteIOIndex
    let st ←
      if 0x80#8 ≤ delimitedData ∧ inst.byteIOIndex = uint (rateInBytes + 2 ^ 32 - 1) then permute24 st 0
      else pure st
    let st ← addByte st 0 0x80 (uint (rateInBytes + 2 ^ 32 - 1))
    let st ← permute24 st 0
    pure ({ inst with state := st, byteIOIndex := 0, squeezing := true }, true)

/-- KeccakSponge.inc:268-275, the loop over whole blocks; writes at position `cur` of `data`, `j` bytes are
still to be written.  The first argument is fuel. -/
def squeezeBlocks (rateInBytes : Nat) : Nat → Mem U64 → Mem Byte → Nat → Nat → Option (Mem U64 × Mem Byte × Nat)
  | 0, _, _, _, _ => none
  | fuel + 1, st, data, cur, j =>
    if j ≥ rateInBytes then do
      let st ← permute24 st 0
      let data ← extractBytes st 0 data cur 0 rateInBytes
      squeezeBlocks rateInBytes fuel st data (cur + rateInBytes) (j - rateInBytes)
    else some (st, data, j)

/-- KeccakSponge.inc:280-283: apply the permutation when the block is used up. -/
def refill (inst : SpongeInstance) (rateInBytes : Nat) : Option SpongeInstance :=
  if inst.byteIOIndex = rateInBytes then do
    let st ← permute24 inst.state 0
    pure { inst with state := st, byteIOIndex := 0 }
  else pure inst

/-- KeccakSponge.inc:266-296, the loop of `SpongeSqueeze`.  `curData` is always `data + i`.  The first
argument is fuel. -/
def squeezeLoop (w dataByteLen : Nat) :
    Nat → SpongeInstance → Mem Byte → Nat → Option (SpongeInstance × Mem Byte)
  | 0, _, _, _ => none
  | fuel + 1, inst, data, i =>
    let rateInBytes := inst.rate / 8
    if i < dataByteLen then
      if inst.byteIOIndex = rateInBytes ∧ dataByteLen ≥ sizeT w (i + rateInBytes) then do
        let (st, data, j) ← squeezeBlocks rateInBytes (dataByteLen + 1) inst.state data i (dataByteLen - i)
        squeezeLoop w dataByteLen fuel { inst with state := st } data (dataByteLen - j)
      else do
        let inst ← refill inst rateInBytes
        let n := partialBlock rateInBytes inst.byteIOIndex (dataByteLen - i)
        let data ← extractBytes inst.state 0 data i inst.byteIOIndex n
        squeezeLoop w dataByteLen fuel { inst with byteIOIndex := uint (inst.byteIOIndex + n) } data
          (sizeT w (i + n))
    else some (inst, data)

/-- KeccakSponge.inc:254-298 `SpongeSqueeze`. -/
def spongeSqueeze (w : Nat) (inst : SpongeInstance) (data : Mem Byte) (dataByteLen : Nat) :
    Option (SpongeInstance × Mem Byte) := do
  let inst ←
    if inst.squeezing then pure inst
    else do
      let (inst, _) ← spongeAbsorbLastFewBits inst 0x01
      pure inst
  squeezeLoop w dataByteLen (dataByteLen + 1) inst data 0

/-! ### KeccakHash.c -/

/-- KeccakHash.h:37-41 `Keccak_HashInstance`. -/
structure HashInstance where
  /-- `sponge` -/
  sponge : SpongeInstance
  /-- `fixedOutputLength` -/
  fixedOutputLength : Nat
  /-- `delimitedSuffix` -/
  delimitedSuffix : Byte

/-- KeccakHash.c:22-34 `Keccak_HashInitialize`. -/
def hashInitialize (inst : HashInstance) (rate capacity hashbitlen : Nat) (delimitedSuffix : Byte) :
    Option (HashInstance × Bool) :=
  if delimitedSuffix = 0 then some (inst, false)
  else do
    let (sp, ok) ← spongeInitialize inst.sponge rate capacity
    if ok then pure (⟨sp, hashbitlen, delimitedSuffix⟩, true) else pure ({ inst with sponge := sp }, false)

/-- KeccakHash.c:38-61 `Keccak_HashUpdate` for whole bytes (40-41); the other branch (42-60) is not modelled,
all callers pass a multiple of 8 bits. -/
def hashUpdateBits (w : Nat) (inst : HashInstance) (data : Mem Byte) (databitlen : Nat) :
    Option (HashInstance × Bool) :=
  if databitlen % 8 = 0 then do
    let (sp, ok) ← spongeAbsorb w inst.sponge data (databitlen / 8)
    pure ({ inst with sponge := sp }, ok)
  else none

/-- KeccakHash.c:65-72 `Keccak_HashFinal`. -/
def hashFinalBits (w : Nat) (inst : HashInstance) (hashval : Mem Byte) : Option (HashInstance × Mem Byte) := do
  let (sp, ok) ← spongeAbsorbLastFewBits inst.sponge inst.delimitedSuffix
  if ok then do
    let (sp, out) ← spongeSqueeze w sp hashval (inst.fixedOutputLength / 8)
    pure ({ inst with sponge := sp }, out)
  else pure ({ inst with sponge := sp }, hashval)

/-- KeccakHash.c:76-81 `Keccak_HashSqueeze`. -/
def hashSqueezeBits (w : Nat) (inst : HashInstance) (data : Mem Byte) (databitlen : Nat) :
    Option (HashInstance × Mem Byte) :=
  if databitlen % 8 ≠ 0 then some (inst, data)
  else do
    let (sp, out) ← spongeSqueeze w inst.sponge data (databitlen / 8)
    pure ({ inst with sponge := sp }, out)

/-! ### hash_shake.h -/

/-- An uninitialised `hash_context` on the stack; the scalar members are overwritten by `hash_init` before
any use, so their value here does not matter. -/
def hashFresh : HashInstance := ⟨⟨malloc 25, 0, 0, false⟩, 0, 0⟩

/-- hash_shake.h:212-218 `hash_init`, with KeccakHash.h:61-65. -/
def hashInit (ctx : HashInstance) (securityParam : Nat) : Option HashInstance := do
  let (ctx, _) ←
    if securityParam = 128 then hashInitialize ctx 1344 256 0 0x1F
    else hashInitialize ctx 1088 512 0 0x1F
  pure ctx

/-- hash_shake.h:220-222 `hash_update`: the length is `size << 3` in `size_t`. -/
def hashUpdate (w : Nat) (ctx : HashInstance) (data : Mem Byte) (size : Nat) : Option HashInstance := do
  let (ctx, _) ← hashUpdateBits w ctx data (sizeT w (size <<< 3))
  pure ctx

/-- hash_shake.h:224-226 `hash_final`: `Keccak_HashFinal(ctx, NULL)`. -/
def hashFinal (w : Nat) (ctx : HashInstance) : Option HashInstance := do
  let (ctx, _) ← hashFinalBits w ctx []
  pure ctx

/-- hash_shake.h:228-230 `hash_squeeze`. -/
def hashSqueeze (w : Nat) (ctx : HashInstance) (buffer : Mem Byte) (buflen : Nat) :
    Option (HashInstance × Mem Byte) :=
  hashSqueezeBits w ctx buffer (sizeT w (buflen <<< 3))

/-! ### Four states: KeccakSpongetimes4.inc and PlSnP-Fallback.inc -/

/-- opt64/PlSnP-Fallback.inc:49-50 `stateWithIndex(i)`: state `i` starts 200 bytes, i.e. 25 lanes, after
state `i-1`. -/
def stateWithIndex (i : Nat) : Nat := 25 * i

/-- PlSnP-Fallback.inc:72-82 `PlSnP_InitializeAll`. -/
def initializeAll (st : Mem U64) : Option (Mem U64) := forN 4 st (fun i st => initState st (stateWithIndex i))

/-- PlSnP-Fallback.inc:148-159 `PlSnP_PermuteAll`. -/
def permuteAll (st : Mem U64) : Option (Mem U64) := forN 4 st (fun i st => permute24 st (stateWithIndex i))

/-- KeccakSpongetimes4.inc:38-51 `SpongeInitialize`. -/
def spongeInitializeX4 (inst : SpongeInstance) (rate capacity : Nat) : Option (SpongeInstance × Bool) :=
  if uint (rate + capacity) ≠ 1600 then some (inst, false)
  else if rate = 0 ∨ rate > 1600 ∨ rate % 8 ≠ 0 then some (inst, false)
  else do
    let st ← initializeAll inst.state
    pure ({ state := st, rate := rate, byteIOIndex := 0, squeezing := false }, true)

/-- KeccakSpongetimes4.inc:85-91, the loop over whole blocks (`PlSnP_FastLoop_Absorb` is not defined,
KeccakSpongetimes4.c:28-31). -/
def absorbBlocksX4 (rateInBytes : Nat) :
    Nat → Mem U64 → (Nat → Mem Byte) → Nat → Nat → Option (Mem U64 × Nat)
  | 0, _, _, _, _ => none
  | fuel + 1, st, data, cur, j =>
    if j ≥ rateInBytes then do
      let st ← forN 4 st (fun k st => do
        let curData ← ptr (data k) cur
        addBytes st (stateWithIndex k) curData 0 rateInBytes)
      let st ← permuteAll st
      absorbBlocksX4 rateInBytes fuel st data (cur + rateInBytes) (j - rateInBytes)
    else some (st, j)

/-- KeccakSpongetimes4.inc:71-114, the loop of `SpongeAbsorb`. -/
def absorbLoopX4 (w : Nat) (data : Nat → Mem Byte) (dataByteLen : Nat) :
    Nat → SpongeInstance → Nat → Option SpongeInstance
  | 0, _, _ => none
  | fuel + 1, inst, i =>
    let rateInBytes := inst.rate / 8
    if i < dataByteLen then
      if inst.byteIOIndex = 0 ∧ dataByteLen ≥ sizeT w (i + rateInBytes) then do
        let (st, j) ← absorbBlocksX4 rateInBytes (dataByteLen + 1) inst.state data i (dataByteLen - i)
        absorbLoopX4 w data dataByteLen fuel { inst with state := st } (dataByteLen - j)
      else do
        let n := partialBlock rateInBytes inst.byteIOIndex (dataByteLen - i)
        let st ← forN 4 inst.state (fun k st => do
          let curData ← ptr (data k) i
          addBytes st (stateWithIndex k) curData inst.byteIOIndex n)
        if uint (inst.byteIOIndex + n) = rateInBytes then do
          let st ← permuteAll st
          absorbLoopX4 w data dataByteLen fuel { inst with state := st, byteIOIndex := 0 } (sizeT w (i + n))
        else
          absorbLoopX4 w data dataByteLen fuel
            { inst with state := st, byteIOIndex := uint (inst.byteIOIndex + n) } (sizeT w (i + n))
    else some inst

/-- KeccakSpongetimes4.inc:55-116 `SpongeAbsorb`. -/
def spongeAbsorbX4 (w : Nat) (inst : SpongeInstance) (data : Nat → Mem Byte) (dataByteLen : Nat) :
    Option (SpongeInstance × Bool) :=
  if inst.squeezing then some (inst, false)
  else do
    let inst ← absorbLoopX4 w data dataByteLen (dataByteLen + 1) inst 0
    pure (inst, true)

/-- KeccakSpongetimes4.inc:120-145 `SpongeAbsorbLastFewBits`. -/
def spongeAbsorbLastFewBitsX4 (inst : SpongeInstance) (delimitedData : Byte) :
    Option (SpongeInstance × Bool) :=
  let rateInBytes := inst.rate / 8
  if delimitedData = 0 then some (inst, false)
  else if inst.squeezing then some (inst, false)
  else do
    let st ← forN 4 inst.state (fun k st => addByte st (stateWithIndex k) delimitedData inst.byteIOIndex)
    let st ←
      if 0x80#8 ≤ delimitedData ∧ inst.byteIOIndex = uint (rateInBytes + 2 ^ 32 - 1) then permuteAll st
      else pure st
    let st ← forN 4 st (fun k st => addByte st (stateWithIndex k) 0x80 (uint (rateInBytes + 2 ^ 32 - 1)))
    let st ← permuteAll st
    pure ({ inst with state := st, byteIOIndex := 0, squeezing := true }, true)

/-- Write to one of the four output buffers. -/
def setBuf (data : Nat → Mem Byte) (k : Nat) (m : Mem Byte) : Nat → Mem Byte :=
  fun k' => if k' = k then m else data k'

/-- The loop over the four instances in KeccakSpongetimes4.inc:169-172 and 186-189. -/
def extractAll (st : Mem U64) (data : Nat → Mem Byte) (cur offset n : Nat) : Option (Nat → Mem Byte) :=
  forN 4 data (fun k data => do
    let m ← extractBytes st (stateWithIndex k) (data k) cur offset n
    pure (setBuf data k m))

/-- KeccakSpongetimes4.inc:167-173, the loop over whole blocks. -/
def squeezeBlocksX4 (rateInBytes : Nat) : Nat → Mem U64 → (Nat → Mem Byte) → Nat → Nat →
    Option (Mem U64 × (Nat → Mem Byte) × Nat)
  | 0, _, _, _, _ => none
  | fuel + 1, st, data, cur, j =>
    if j ≥ rateInBytes then do
      let st ← permuteAll st
      let data ← extractAll st data cur 0 rateInBytes
      squeezeBlocksX4 rateInBytes fuel st data (cur + rateInBytes) (j - rateInBytes)
    else some (st, data, j)

/-- KeccakSpongetimes4.inc:178-181: apply the permutation when the block is used up. -/
def refillX4 (inst : SpongeInstance) (rateInBytes : Nat) : Option SpongeInstance :=
  if inst.byteIOIndex = rateInBytes then do
    let st ← permuteAll inst.state
    pure { inst with state := st, byteIOIndex := 0 }
  else pure inst

/-- KeccakSpongetimes4.inc:165-193, the loop of `SpongeSqueeze`. -/
def squeezeLoopX4 (w dataByteLen : Nat) :
    Nat → SpongeInstance → (Nat → Mem Byte) → Nat → Option (SpongeInstance × (Nat → Mem Byte))
  | 0, _, _, _ => none
  | fuel + 1, inst, data, i =>
    let rateInBytes := inst.rate / 8
    if i < dataByteLen then
      if inst.byteIOIndex = rateInBytes ∧ dataByteLen ≥ sizeT w (i + rateInBytes) then do
        let (st, data, j) ← squeezeBlocksX4 rateInBytes (dataByteLen + 1) inst.state data i (dataByteLen - i)
        squeezeLoopX4 w dataByteLen fuel { inst with state := st } data (dataByteLen - j)
      else do
        let inst ← refillX4 inst rateInBytes
        let n := partialBlock rateInBytes inst.byteIOIndex (dataByteLen - i)
        let data ← extractAll inst.state data i inst.byteIOIndex n
        squeezeLoopX4 w dataByteLen fuel { inst with byteIOIndex := uint (inst.byteIOIndex + n) } data
          (sizeT w (i + n))
    else some (inst, data)

/-- KeccakSpongetimes4.inc:149-195 `SpongeSqueeze`. -/
def spongeSqueezeX4 (w : Nat) (inst : SpongeInstance) (data : Nat → Mem Byte) (dataByteLen : Nat) :
    Option (SpongeInstance × (Nat → Mem Byte)) := do
  let inst ←
    if inst.squeezing then pure inst
    else do
      let (inst, _) ← spongeAbsorbLastFewBitsX4 inst 0x01
      pure inst
  squeezeLoopX4 w dataByteLen (dataByteLen + 1) inst data 0

/-- KeccakHashtimes4.c:24-36 `Keccak_HashInitializetimes4`. -/
def hashInitializeX4 (inst : HashInstance) (rate capacity hashbitlen : Nat) (delimitedSuffix : Byte) :
    Option (HashInstance × Bool) :=
  if delimitedSuffix = 0 then some (inst, false)
  else do
    let (sp, ok) ← spongeInitializeX4 inst.sponge rate capacity
    if ok then pure (⟨sp, hashbitlen, delimitedSuffix⟩, true) else pure ({ inst with sponge := sp }, false)

/-- KeccakHashtimes4.c:40-45 `Keccak_HashUpdatetimes4`. -/
def hashUpdateBitsX4 (w : Nat) (inst : HashInstance) (data : Nat → Mem Byte) (databitlen : Nat) :
    Option (HashInstance × Bool) :=
  if databitlen % 8 ≠ 0 then some (inst, false)
  else do
    let (sp, ok) ← spongeAbsorbX4 w inst.sponge data (databitlen / 8)
    pure ({ inst with sponge := sp }, ok)

/-- KeccakHashtimes4.c:49-56 `Keccak_HashFinaltimes4`. -/
def hashFinalBitsX4 (w : Nat) (inst : HashInstance) (hashval : Nat → Mem Byte) :
    Option (HashInstance × (Nat → Mem Byte)) := do
  let (sp, ok) ← spongeAbsorbLastFewBitsX4 inst.sponge inst.delimitedSuffix
  if ok then do
    let (sp, out) ← spongeSqueezeX4 w sp hashval (inst.fixedOutputLength / 8)
    pure ({ inst with sponge := sp }, out)
  else pure ({ inst with sponge := sp }, hashval)

/-- KeccakHashtimes4.c:60-65 `Keccak_HashSqueezetimes4`. -/
def hashSqueezeBitsX4 (w : Nat) (inst : HashInstance) (data : Nat → Mem Byte) (databitlen : Nat) :
    Option (HashInstance × (Nat → Mem Byte)) :=
  if databitlen % 8 ≠ 0 then some (inst, data)
  else do
    let (sp, out) ← spongeSqueezeX4 w inst.sponge data (databitlen / 8)
    pure ({ inst with sponge := sp }, out)

/-- An uninitialised `hash_context_x4`. -/
def hashFreshX4 : HashInstance := ⟨⟨malloc 100, 0, 0, false⟩, 0, 0⟩

/-- hash_shake.h:250-256 `hash_init_x4`. -/
def hashInitX4 (ctx : HashInstance) (securityParam : Nat) : Option HashInstance := do
  let (ctx, _) ←
    if securityParam = 128 then hashInitializeX4 ctx 1344 256 0 0x1F
    else hashInitializeX4 ctx 1088 512 0 0x1F
  pure ctx

/-- hash_shake.h:258-267 `hash_update_x4`, `hash_update_x4_4`. -/
def hashUpdateX4 (w : Nat) (ctx : HashInstance) (data : Nat → Mem Byte) (size : Nat) : Option HashInstance := do
  let (ctx, _) ← hashUpdateBitsX4 w ctx data (sizeT w (size <<< 3))
  pure ctx

/-- hash_shake.h:269-272 `hash_update_x4_1`. -/
def hashUpdateX4_1 (w : Nat) (ctx : HashInstance) (data : Mem Byte) (size : Nat) : Option HashInstance :=
  hashUpdateX4 w ctx (fun _ => data) size

/-- hash_shake.h:280-282 `hash_final_x4`. -/
def hashFinalX4 (w : Nat) (ctx : HashInstance) : Option HashInstance := do
  let (ctx, _) ← hashFinalBitsX4 w ctx (fun _ => [])
  pure ctx

/-- hash_shake.h:284-292 `hash_squeeze_x4`, `hash_squeeze_x4_4`. -/
def hashSqueezeX4 (w : Nat) (ctx : HashInstance) (buffer : Nat → Mem Byte) (buflen : Nat) :
    Option (HashInstance × (Nat → Mem Byte)) :=
  hashSqueezeBitsX4 w ctx buffer (sizeT w (buflen <<< 3))

end Faest.Keccak
