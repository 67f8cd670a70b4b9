/-
All versions of `rand_bytes`: randomness.c.  What the system does is a parameter: the outcomes of its calls, in order.
File descriptors are numbers; the list of those which are open is part of the state.
-/
import Verif.Model.Randomness

namespace Faest.RandOs

/-- Outcome of one call of `open`. -/
inductive OpenEv where
  | fd (n : Nat)
  /-- -1 with `errno` `EINTR` -/
  | eintr
  /-- -1 with another `errno` -/
  | error

/-- The preprocessor's choice: randomness.c:12-24, :25-31, :34-44, :45-51, :52-60, :61-119 (with or without `__linux__`), :120-131. -/
inductive Version where
  | randombytes | oqs | getrandom | arc4random | apple | urandom (linux : Bool) | windows

/-- What the system does: for the versions with one call, the value returned and the bytes stored (at the start of the buffer); for
`/dev/urandom` the outcomes of `open`, of `ioctl`, and of `read`. -/
structure Answer where
  ret : Int
  bytes : List Byte
  opens : List OpenEv
  ioctl : Int
  reads : List ReadEv

/-- randomness.c:83-88: `none`: the loop does not stop on these outcomes; `some none`: line 86. -/
def openLoop : List OpenEv → Option (Option Nat)
  | [] => none
  | .eintr :: es => openLoop es
  | .error :: _ => some none
  | .fd n :: _ => some (some n)

/-- `close`: `none` for a descriptor which is not open. -/
def close (fds : List Nat) (fd : Nat) : Option (List Nat) := if fd ∈ fds then some (fds.erase fd) else none

/-- randomness.c:102-119: the loop and the end of the function.  `none`: more bytes were stored than asked for, the descriptor is not open, or the loop
does not stop on these outcomes. -/
def readLoop (fd : Nat) : List ReadEv → Mem Byte → Nat → Nat → List Nat → Option (Int × Mem Byte × List Nat)
  | _, dst, _, 0, fds => do
    let fds ← close fds fd
    pure (0, dst, fds)
  | [], _, _, _ + 1, _ => none
  | e :: es, dst, off, len + 1, fds =>
    if fd ∈ fds then
      match e with
      | .error => do
        let fds ← close fds fd
        pure (-1, dst, fds)
      | .again => readLoop fd es dst off (len + 1) fds
      | .data bs =>
        if bs.length ≤ len + 1 then do
          let dst ← wrN dst off bs
          readLoop fd es dst (off + bs.length) (len + 1 - bs.length) fds
        else none
    else none

/-- randomness.c:81-119; the call of `fcntl` for systems without `O_CLOEXEC` (:89-91) is left out. -/
def urandom (linux : Bool) (a : Answer) (dst : Mem Byte) (len : Nat) (fds : List Nat) : Option (Int × Mem Byte × List Nat) := do
  match ← openLoop a.opens with
  | none => pure (-1, dst, fds)
  | some fd =>
    let fds := fd :: fds
    if linux && decide (a.ioctl = -1) then do
      let fds ← close fds fd
      pure (-1, dst, fds)
    else readLoop fd a.reads dst 0 len fds

/-- `rand_bytes`: the value returned, the buffer, and the open descriptors. -/
def randBytes (v : Version) (a : Answer) (dst : Mem Byte) (len : Nat) (fds : List Nat) : Option (Int × Mem Byte × List Nat) :=
  match v with
  | .randombytes | .oqs | .arc4random => do
    let dst ← wrN dst 0 a.bytes
    pure (0, dst, fds)
  | .getrandom => do
    let dst ← wrN dst 0 a.bytes
    if a.ret < 0 ∨ a.ret.toNat ≠ len then pure (-1, dst, fds) else pure (0, dst, fds)
  | .apple => do
    let dst ← wrN dst 0 a.bytes
    if a.ret = 0 then pure (0, dst, fds) else pure (-1, dst, fds)
  | .urandom linux => urandom linux a dst len fds
  | .windows =>
    if len > 4294967295 then pure (-1, dst, fds) else do
    let dst ← wrN dst 0 a.bytes
    if a.ret < 0 then pure (-1, dst, fds) else pure (0, dst, fds)

end Faest.RandOs
