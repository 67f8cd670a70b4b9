/-
The function `KeccakWidth1600_Sponge` of sha3/KeccakSponge.inc, which takes in and gives out everything in one call.  Nothing in FAEST
calls it.
-/
import Verif.Model.Shake

namespace Faest.Keccak

/-- KeccakSponge.inc:110-118, the loop over whole blocks of the output; `left` bytes are to be written from position `cur` of `output`
on.  The first argument is fuel. -/
def spongeOnceBlocks (rateInBytes : Nat) : Nat → Mem U64 → Mem Byte → Nat → Nat → Option (Mem U64 × Mem Byte × Nat × Nat)
  | 0, _, _, _, _ => none
  | fuel + 1, st, output, cur, left =>
    if left > rateInBytes then do
      let output ← extractBytes st 0 output cur 0 rateInBytes
      let st ← permute24 st 0
      spongeOnceBlocks rateInBytes fuel st output (cur + rateInBytes) (left - rateInBytes)
    else some (st, output, cur, left)

/-- KeccakSponge.inc:35-128 `Sponge`: the output and the value returned. -/
def spongeOnce (rate capacity : Nat) (input : Mem Byte) (inputByteLen : Nat) (suffix : Byte) (output : Mem Byte)
    (outputByteLen : Nat) : Option (Mem Byte × Nat) :=
  let rateInBytes := rate / 8
  if uint (rate + capacity) ≠ 1600 then some (output, 1)
  else if rate = 0 ∨ rate > 1600 ∨ rate % 8 ≠ 0 then some (output, 1)
  else if suffix = 0 then some (output, 1)
  else do
    let st ← initState (malloc 25) 0
    let (st, i) ←
      if rateInBytes % 8 = 0 ∧ inputByteLen ≥ rateInBytes then fastLoopAbsorb st 0 (rateInBytes / 8) input inputByteLen
      else pure (st, 0)
    let curInput ← ptr input i
    let (st, j) ← absorbBlocks rateInBytes (inputByteLen + 1) st curInput (inputByteLen - i)
    let curInput ← ptr curInput (inputByteLen - i - j)
    let partialBlock := uint j
    let st ← addBytes st 0 curInput 0 partialBlock
    let st ← addByte st 0 suffix partialBlock
    let st ←
      if 0x80#8 ≤ suffix ∧ partialBlock = uint (rateInBytes + 2 ^ 32 - 1) then permute24 st 0
      else pure st
    let st ← addByte st 0 0x80 (uint (rateInBytes + 2 ^ 32 - 1))
    let st ← permute24 st 0
    let (st, output, cur, left) ← spongeOnceBlocks rateInBytes (outputByteLen + 1) st output 0 outputByteLen
    let output ← extractBytes st 0 output cur 0 (uint left)
    pure (output, 0)

end Faest.Keccak
