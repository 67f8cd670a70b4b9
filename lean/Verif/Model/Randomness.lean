/-
`rand_bytes`: randomness.c.

Two of the versions selected by the preprocessor are modelled: the one on top of `getrandom` and the one
reading `/dev/urandom`.  The versions calling `randombytes`, `OQS_randombytes` and `arc4random_buf` return 0
unconditionally (these functions report no error); the macOS and Windows versions return -1 exactly if the
system call reports a failure.  What the operating system does is a parameter.
-/
import Verif.Model.Basic

namespace Faest

/-- randomness.c:38-44: `getrandom` returned `ret` after storing `bytes`. -/
def randBytesGetrandom (dst : Mem Byte) (len : Nat) (ret : Int) (bytes : List Byte) : Option (Int × Mem Byte) := do
  let dst ← wrN dst 0 bytes
  pure (if ret < 0 ∨ ret.toNat ≠ len then -1 else 0, dst)

/-- Outcome of one call of `read`. -/
inductive ReadEv where
  /-- a number of bytes was stored -/
  | data (bytes : List Byte)
  /-- -1 with `errno` `EAGAIN` or `EINTR` -/
  | again
  /-- -1 with another `errno` -/
  | error

/-- randomness.c:102-115: the loop, `len` bytes being left to store at `dst + off`; the list holds the outcomes of
the calls of `read`.  `none`: more than `len` bytes were stored, or the loop does not stop on the given outcomes. -/
def urandomLoop : List ReadEv → Mem Byte → Nat → Nat → Option (Int × Mem Byte)
  | _, dst, _, 0 => some (0, dst)
  | [], _, _, _ + 1 => none
  | .error :: _, dst, _, _ + 1 => some (-1, dst)
  | .again :: es, dst, off, len + 1 => urandomLoop es dst off (len + 1)
  | .data bs :: es, dst, off, len + 1 =>
    if bs.length ≤ len + 1 then do
      let dst ← wrN dst off bs
      urandomLoop es dst (off + bs.length) (len + 1 - bs.length)
    else none

/-- randomness.c:81-119: `opened`, `ready` tell whether `open` (possibly after restarts) and `ioctl` succeeded. -/
def randBytesUrandom (opened ready : Bool) (evs : List ReadEv) (dst : Mem Byte) (len : Nat) :
    Option (Int × Mem Byte) :=
  if opened && ready then urandomLoop evs dst 0 len else some (-1, dst)

end Faest
