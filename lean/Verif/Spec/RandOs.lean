/-
What the system promises, and what a failure is, for each version of `rand_bytes`.
-/
import Verif.Model.RandOs

namespace Faest.Spec.RandOs
open Faest.RandOs

/-- The bytes given out by `read`. -/
def given : List ReadEv → List (BitVec 8)
  | [] => []
  | .data bs :: es => bs ++ given es
  | _ :: es => given es

/-- The bytes which the system gives out. -/
def source (v : Version) (a : Answer) : List (BitVec 8) :=
  match v with
  | .urandom _ => given a.reads
  | _ => a.bytes

/-- The documented behaviour of the call for `len` bytes: functions without an error code store all of them; the others at most so many, and all of them if they
report success (`getrandom`: as many as they report).  The functions for `/dev/urandom` may do anything except that `open` gives a new descriptor. -/
def Honest (v : Version) (a : Answer) (len : Nat) (fds : List Nat) : Prop :=
  match v with
  | .randombytes | .oqs | .arc4random => a.bytes.length = len
  | .getrandom => (a.ret < 0 ∧ a.bytes = []) ∨ (a.ret = a.bytes.length ∧ a.bytes.length ≤ len)
  | .apple => a.bytes.length ≤ len ∧ (a.ret = 0 → a.bytes.length = len)
  | .windows => a.bytes.length ≤ len ∧ (0 ≤ a.ret → a.bytes.length = len)
  | .urandom _ => ∀ n, OpenEv.fd n ∈ a.opens → n ∉ fds

/-- The system reported a failure, or gave out too little. -/
def Failed (v : Version) (a : Answer) (len : Nat) : Prop :=
  match v with
  | .randombytes | .oqs | .arc4random => False
  | .getrandom => a.ret < 0 ∨ a.bytes.length < len
  | .apple => a.ret ≠ 0
  | .windows => a.ret < 0 ∨ 2 ^ 32 ≤ len
  | .urandom linux => OpenEv.error ∈ a.opens ∨ (linux = true ∧ a.ioctl = -1) ∨ ReadEv.error ∈ a.reads

/-- The outcomes of `read` are those of a run for `len` bytes: no call gives more than is left, and the last one gives the rest or is an error. -/
def Run : List ReadEv → Nat → Prop
  | _, 0 => True
  | [], _ + 1 => False
  | .error :: _, _ + 1 => True
  | .again :: es, n + 1 => Run es (n + 1)
  | .data bs :: es, n + 1 => bs.length ≤ n + 1 ∧ Run es (n + 1 - bs.length)

/-- The same for `open`. -/
def Opened : List OpenEv → Prop
  | [] => False
  | .eintr :: es => Opened es
  | _ :: _ => True

end Faest.Spec.RandOs
