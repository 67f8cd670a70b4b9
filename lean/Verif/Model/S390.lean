/-
sha3/s390_cpacf.h: SHAKE with the instructions KIMD and KLMD of s390x (build option `SHA3=s390-cpacf`).

The two instructions are parameters.  `size_t` has 64 bits.  The members of type `uint8_t` are numbers, reduced modulo
256 where the code assigns to them.
-/
import Verif.Model.Basic

namespace Faest.S390

/-- The instructions.  `kimd`: function code, parameter block, input; the new parameter block.  `klmd`: function code,
parameter block, input, length of the output; the new parameter block and the output.  `none`: an exception.  An
interruption with partial completion is taken up again by the loops at s390_cpacf.h:50 and :76; what is meant here is
the instruction run to its end, and its input is read before its output is stored. -/
structure Cpacf where
  kimd : Nat → List Byte → List Byte → Option (List Byte)
  klmd : Nat → List Byte → List Byte → Nat → Option (List Byte × List Byte)

/-- s390_cpacf.h:13-19 `hash_context`; `param` is the member `ctx`. -/
structure Ctx where
  param : Mem Byte
  dataBlock : Mem Byte
  func : Nat
  blockSize : Nat
  pos : Nat

/-- A context as a local variable: 200 and 168 bytes which are not initialised; the other members have any value. -/
def fresh (func blockSize pos : Nat) : Ctx := ⟨malloc 200, malloc 168, func, blockSize, pos⟩

/-- s390_cpacf.h:21-34 `hash_init`. -/
def init (c : Ctx) (sec : Nat) : Option Ctx := do
  let p ← wrN c.param 0 (List.replicate 200 0)
  let d ← wrN c.dataBlock 0 (List.replicate 168 0)
  if sec = 128 then pure ⟨p, d, 0x24, 168, 0⟩ else pure ⟨p, d, 0x25, 136, 0⟩

/-- s390_cpacf.h:39-54 `hash_update_kimd` on `size` bytes of `data` from `off`. -/
def kimd (I : Cpacf) (c : Ctx) (data : Mem Byte) (off size : Nat) : Option Ctx := do
  let p ← rdN c.param 0 200
  let d ← rdN data off size
  let p ← I.kimd c.func p d
  let p ← wrN c.param 0 p
  pure { c with param := p }

/-- s390_cpacf.h:60-80 `hash_update_klmd`: the context and the output. -/
def klmd (I : Cpacf) (c : Ctx) (bufferSize : Nat) (data : Mem Byte) (off size : Nat) : Option (Ctx × List Byte) := do
  let p ← rdN c.param 0 200
  let d ← rdN data off size
  let (p, out) ← I.klmd c.func p d bufferSize
  let p ← wrN c.param 0 p
  pure ({ c with param := p }, out)

/-- s390_cpacf.h:85-87 `hash_squeeze_kmld`: no input. -/
def squeezeKlmd (I : Cpacf) (c : Ctx) (size : Nat) : Option (Ctx × List Byte) := klmd I c size [] 0 0

/-- The difference of two members in type `int`, converted to `size_t` (s390_cpacf.h:92, :130). -/
def gap (c : Ctx) : Nat := (2 ^ 64 + c.blockSize - c.pos) % 2 ^ 64

/-- s390_cpacf.h:89-119 `hash_update`. -/
def update (I : Cpacf) (c : Ctx) (data : Mem Byte) (size : Nat) : Option Ctx := do
  let (c, off, size) ← (
    if c.pos ≠ 0 then do
      let copySize := if gap c < size then gap c else size
      let d ← rdN data 0 copySize
      let db ← wrN c.dataBlock c.pos d
      let c := { c with dataBlock := db, pos := (c.pos + copySize) % 256 }
      let c ← (
        if c.pos = c.blockSize then do
          let c ← kimd I c c.dataBlock 0 c.blockSize
          pure { c with pos := 0 }
        else pure c)
      pure (c, copySize, size - copySize)
    else pure (c, 0, size))
  let (c, off, size) ← (
    if size > c.blockSize then do
      let copySize := size - size % c.blockSize
      let c ← kimd I c data off copySize
      pure (c, off + copySize, size - copySize)
    else pure (c, off, size))
  if size ≠ 0 then do
    let d ← rdN data off size
    let db ← wrN c.dataBlock 0 d
    pure { c with dataBlock := db, pos := size % 256 }
  else pure c

/-- s390_cpacf.h:121-125 `hash_final`. -/
def final (I : Cpacf) (c : Ctx) : Option Ctx := do
  let (c, out) ← klmd I c c.blockSize c.dataBlock 0 c.pos
  let db ← wrN c.dataBlock 0 out
  pure { c with dataBlock := db, pos := 0 }

/-- s390_cpacf.h:127-153 `hash_squeeze`. -/
def squeeze (I : Cpacf) (c : Ctx) (buffer : Mem Byte) (buflen : Nat) : Option (Ctx × Mem Byte) := do
  let (c, buffer, off, buflen) ← (
    if c.pos < c.blockSize then do
      let copySize := if gap c < buflen then gap c else buflen
      let d ← rdN c.dataBlock c.pos copySize
      let buffer ← wrN buffer 0 d
      pure ({ c with pos := (c.pos + copySize) % 256 }, buffer, copySize, buflen - copySize)
    else pure (c, buffer, 0, buflen))
  let (c, buffer, off, buflen) ← (
    if buflen > c.blockSize then do
      let copySize := buflen - buflen % c.blockSize
      let (c, out) ← squeezeKlmd I c buflen
      let buffer ← wrN buffer off out
      pure (c, buffer, off + copySize, buflen - copySize)
    else pure (c, buffer, off, buflen))
  if buflen ≠ 0 then do
    let (c, out) ← squeezeKlmd I c c.blockSize
    let db ← wrN c.dataBlock 0 out
    let d ← rdN db 0 buflen
    let buffer ← wrN buffer off d
    pure ({ c with dataBlock := db, pos := buflen % 256 }, buffer)
  else pure (c, buffer)

/-! ### Clients -/

/-- `hash_update` with each of the chunks in turn. -/
def runUpdates (I : Cpacf) : Ctx → List (List Byte) → Option Ctx
  | c, [] => some c
  | c, d :: ds => do
    let c ← update I c (ofList d) d.length
    runUpdates I c ds

/-- `hash_squeeze` into a fresh buffer for each of the lengths in turn; the contents of the buffers. -/
def runSqueezes (I : Cpacf) : Ctx → List Nat → Option (List (List Byte))
  | _, [] => some []
  | c, n :: ns => do
    let (c, buf) ← squeeze I c (malloc n) n
    let out ← rdN buf 0 n
    let outs ← runSqueezes I c ns
    pure (out :: outs)

/-- `hash_init` on the context `c`, updates, `hash_final`, squeezes. -/
def runHash (I : Cpacf) (c : Ctx) (sec : Nat) (chunks : List (List Byte)) (outs : List Nat) :
    Option (List (List Byte)) := do
  let c ← init c sec
  let c ← runUpdates I c chunks
  let c ← final I c
  runSqueezes I c outs

end Faest.S390
