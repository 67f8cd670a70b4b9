/-
The functions of sha3/opt64/KeccakP-1600-opt64.c on the state which the sponge does not use: overwriting bytes, and extracting bytes with an
addition (little-endian, without lane complementing: KeccakP-1600-opt64-config.h).
-/
import Verif.Model.Shake

namespace Faest.Keccak

/-- The word `x` in memory after its byte `j` was set to `b`. -/
def setLaneByte (x : U64) (j : Nat) (b : Byte) : U64 := leWord (tabP 8 (fun i => if i = j then b else laneByte x i))

/-- `((unsigned char*)state)[p] = b`. -/
def wrStateByte (st : Mem U64) (base p : Nat) (b : Byte) : Option (Mem U64) := do
  let x ← rd st (base + p / 8)
  wr st (base + p / 8) (setLaneByte x (p % 8) b)

/-- `memcpy((unsigned char*)state+p, data, n)`. -/
def memcpyState (st : Mem U64) (base p : Nat) (data : Mem Byte) (n : Nat) : Option (Mem U64) :=
  forN n st (fun i st => do
    let b ← rd data i
    wrStateByte st base (p + i) b)

/-- KeccakP-1600-opt64.c:200-228 `KeccakP1600_OverwriteBytesInLane`. -/
def overwriteBytesInLane (st : Mem U64) (base lanePosition : Nat) (data : Mem Byte) (offset length : Nat) : Option (Mem U64) :=
  memcpyState st base (lanePosition * 8 + offset) data length

/-- KeccakP-1600-opt64.c:232-266 `KeccakP1600_OverwriteLanes`. -/
def overwriteLanes (st : Mem U64) (base : Nat) (data : Mem Byte) (laneCount : Nat) : Option (Mem U64) :=
  memcpyState st base 0 data (laneCount * 8)

/-- SnP-Relaned.h:64-79, the loop for a non-zero offset; the first argument is fuel. -/
def overwriteBytesLoop (base : Nat) : Nat → Nat → Nat → Nat → Mem Byte → Mem U64 → Option (Mem U64)
  | 0, _, _, _, _, _ => none
  | fuel + 1, sizeLeft, lanePosition, offsetInLane, curData, st =>
    if sizeLeft > 0 then do
      let bytesInLane := if 8 - offsetInLane > sizeLeft then sizeLeft else 8 - offsetInLane
      let st ← overwriteBytesInLane st base lanePosition curData offsetInLane bytesInLane
      let curData ← ptr curData bytesInLane
      overwriteBytesLoop base fuel (sizeLeft - bytesInLane) (lanePosition + 1) 0 curData st
    else some st

/-- KeccakP-1600-opt64.c:270-273 `KeccakP1600_OverwriteBytes`, by SnP-Relaned.h:54-80. -/
def overwriteBytes (st : Mem U64) (base : Nat) (data : Mem Byte) (offset length : Nat) : Option (Mem U64) :=
  if offset = 0 then do
    let st ← overwriteLanes st base data (length / 8)
    let rest ← ptr data (length / 8 * 8)
    overwriteBytesInLane st base (length / 8) rest 0 (length % 8)
  else overwriteBytesLoop base (length + 1) length (offset / 8) (offset % 8) data st

/-- KeccakP-1600-opt64.c:277-324 `KeccakP1600_OverwriteWithZeroes`: `memset(state, 0, byteCount)`. -/
def overwriteWithZeroes (st : Mem U64) (base byteCount : Nat) : Option (Mem U64) :=
  forN byteCount st (fun i st => wrStateByte st base i 0)

/-- KeccakP-1600-opt64.c:448-471 `KeccakP1600_ExtractAndAddBytesInLane` with `input` and `output` advanced by `cur`; the array of
one lane is read at `offset+i`. -/
def extractAndAddBytesInLane (st : Mem U64) (base lanePosition : Nat) (input output : Mem Byte) (cur offset length : Nat) :
    Option (Mem Byte) := do
  let lane ← rd st (base + lanePosition)
  forN length output (fun i output => do
    let b ← rd input (cur + i)
    if offset + i < 8 then wr output (cur + i) (b ^^^ laneByte lane (offset + i)) else none)

/-- KeccakP-1600-opt64.c:475-512 `KeccakP1600_ExtractAndAddLanes`. -/
def extractAndAddLanes (st : Mem U64) (base : Nat) (input output : Mem Byte) (laneCount : Nat) : Option (Mem Byte) :=
  forN laneCount output (fun i output => do
    let x ← loadLane input i
    let y ← rd st (base + i)
    wrN output (8 * i) (tabP 8 (laneByte (x ^^^ y))))

/-- SnP-Relaned.h:122-138, the loop for a non-zero offset; the first argument is fuel. -/
def extractAndAddBytesLoop (st : Mem U64) (base : Nat) (input : Mem Byte) : Nat → Nat → Nat → Nat → Mem Byte → Nat → Option (Mem Byte)
  | 0, _, _, _, _, _ => none
  | fuel + 1, sizeLeft, lanePosition, offsetInLane, output, cur =>
    if sizeLeft > 0 then do
      let bytesInLane := if 8 - offsetInLane > sizeLeft then sizeLeft else 8 - offsetInLane
      let output ← extractAndAddBytesInLane st base lanePosition input output cur offsetInLane bytesInLane
      extractAndAddBytesLoop st base input fuel (sizeLeft - bytesInLane) (lanePosition + 1) 0 output (cur + bytesInLane)
    else some output

/-- KeccakP-1600-opt64.c:516-519 `KeccakP1600_ExtractAndAddBytes`, by SnP-Relaned.h:110-139; `input` and `output` are distinct. -/
def extractAndAddBytes (st : Mem U64) (base : Nat) (input output : Mem Byte) (offset length : Nat) : Option (Mem Byte) :=
  if offset = 0 then do
    let output ← extractAndAddLanes st base input output (length / 8)
    extractAndAddBytesInLane st base (length / 8) input output (length / 8 * 8) 0 (length % 8)
  else extractAndAddBytesLoop st base input (length + 1) length (offset / 8) (offset % 8) output 0

end Faest.Keccak
