/-
The interface of sha3/KeccakHash.h in full: any rate, suffix and length of the hash, and inputs which are not whole bytes.
The functions of FAEST use it for SHAKE with whole bytes only (Model/Shake.lean).
-/
import Verif.Model.Shake

namespace Faest.Keccak

/-- KeccakHash.c:47, 49: `delimitedLastBytes`, an `unsigned short`; `t` is `databitlen % 8`. -/
def delimitedLastBytes (lastByte delimitedSuffix : Byte) (t : Nat) : BitVec 16 :=
  (lastByte.setWidth 16 &&& BitVec.ofNat 16 ((1 <<< t) - 1)) ||| (delimitedSuffix.setWidth 16 <<< t)

/-- KeccakHash.c:38-61 `Keccak_HashUpdate`; the flag is the return value `KECCAK_SUCCESS`. -/
def keccakHashUpdate (w : Nat) (inst : HashInstance) (data : Mem Byte) (databitlen : Nat) :
    Option (HashInstance × Bool) :=
  if databitlen % 8 = 0 then hashUpdateBits w inst data databitlen
  else do
    let (sp, ret) ← spongeAbsorb w inst.sponge data (databitlen / 8)
    if ret then do
      let lastByte ← rd data (databitlen / 8)
      let last := delimitedLastBytes lastByte inst.delimitedSuffix (databitlen % 8)
      if last &&& 0xFF00 = 0x0000 then
        pure ({ inst with sponge := sp, delimitedSuffix := (last &&& 0xFF).setWidth 8 }, true)
      else do
        let oneByte := ofList [(last &&& 0xFF).setWidth 8]
        let (sp, ret) ← spongeAbsorb w sp oneByte 1
        pure ({ inst with sponge := sp, delimitedSuffix := ((last >>> 8) &&& 0xFF).setWidth 8 }, ret)
    else pure ({ inst with sponge := sp }, false)

/-- KeccakHash.h:61-81, the arguments `rate`, `capacity`, `hashbitlen` and `delimitedSuffix` of the macros. -/
structure HashParams where
  rate : Nat
  capacity : Nat
  hashbitlen : Nat
  delimitedSuffix : Byte

/-- KeccakHash.h:61 `Keccak_HashInitialize_SHAKE128`. -/
def paramsSHAKE128 : HashParams := ⟨1344, 256, 0, 0x1F⟩
/-- KeccakHash.h:65 `Keccak_HashInitialize_SHAKE256`. -/
def paramsSHAKE256 : HashParams := ⟨1088, 512, 0, 0x1F⟩
/-- KeccakHash.h:69 `Keccak_HashInitialize_SHA3_224`. -/
def paramsSHA3_224 : HashParams := ⟨1152, 448, 224, 0x06⟩
/-- KeccakHash.h:73 `Keccak_HashInitialize_SHA3_256`. -/
def paramsSHA3_256 : HashParams := ⟨1088, 512, 256, 0x06⟩
/-- KeccakHash.h:77 `Keccak_HashInitialize_SHA3_384`. -/
def paramsSHA3_384 : HashParams := ⟨832, 768, 384, 0x06⟩
/-- KeccakHash.h:81 `Keccak_HashInitialize_SHA3_512`. -/
def paramsSHA3_512 : HashParams := ⟨576, 1024, 512, 0x06⟩

/-! ### Programs which use the interface -/

/-- `Keccak_HashUpdate` with each of the chunks of whole bytes in turn; `none` as well if one of the calls fails. -/
def runKeccakUpdates (w : Nat) : HashInstance → List (List Byte) → Option HashInstance
  | ctx, [] => some ctx
  | ctx, c :: cs => do
    let (ctx, ok) ← keccakHashUpdate w ctx (ofList c) (8 * c.length)
    if ok then runKeccakUpdates w ctx cs else none

/-- `Keccak_HashSqueeze` into a fresh buffer for each of the lengths (in bytes) in turn. -/
def runKeccakSqueezes (w : Nat) : HashInstance → List Nat → Option (List (List Byte))
  | _, [] => some []
  | ctx, n :: ns => do
    let (ctx, buf) ← hashSqueezeBits w ctx (malloc n) (8 * n)
    let out ← rdN buf 0 n
    let outs ← runKeccakSqueezes w ctx ns
    pure (out :: outs)

/-- `Keccak_HashInitialize`, updates with whole bytes, a last update with `b` bits of `last`, `Keccak_HashFinal` into a
buffer of `hashbitlen` bits, squeezes.  The result is the hash and the buffers; `none` as well if a call fails. -/
def runKeccak (w : Nat) (p : HashParams) (chunks : List (List Byte)) (last : List Byte) (b : Nat) (outs : List Nat) :
    Option (List Byte × List (List Byte)) := do
  let (ctx, ok) ← hashInitialize hashFresh p.rate p.capacity p.hashbitlen p.delimitedSuffix
  if ok then do
    let ctx ← runKeccakUpdates w ctx chunks
    let (ctx, ok) ← keccakHashUpdate w ctx (ofList last) b
    if ok then do
      let (ctx, hash) ← hashFinalBits w ctx (malloc (p.hashbitlen / 8))
      let hash ← rdN hash 0 (p.hashbitlen / 8)
      let outs ← runKeccakSqueezes w ctx outs
      pure (hash, outs)
    else none
  else none

end Faest.Keccak
