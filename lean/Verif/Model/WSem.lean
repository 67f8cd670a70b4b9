/-
The operations the translation of fields.h and fields.c (`Model/Gen/Fields*.lean`, generated by
tools/c2words.py) is written in, beyond those of `Model/FieldWords.lean`.
-/
import Verif.Model.FieldWords

namespace Faest.Words

/-- `!x` of an `int`. -/
def notInt (x : BitVec 32) : BitVec 32 := if x = 0 then 1 else 0

/-- `BF_VALUE(v, i) = x` at a computed index: undefined outside the words. -/
def setWord {k : Nat} (v : Ws k) (i : Nat) (x : U64) : Option (Ws k) :=
  if h : i < k then some (v.set i x h) else none

/-- The value of a field element which was declared without an initialiser: all its words have to
be written. -/
def whole (k : Nat) (m : Mem U64) : Option (Ws k) := do
  let ws ← rdN m 0 k
  if h : ws.length = k then pure ⟨ws.toArray, by simpa using h⟩ else none

/-- `memcpy(&BF_VALUE(m, i), src + off, n)`: the object representation of whole words is replaced;
`be` is the byte order of the host. -/
def memIn (be : Bool) (m : Mem U64) (i : Nat) (src : Mem Byte) (off n : Nat) : Option (Mem U64) := do
  let l ← rdN src off n
  if n % 8 = 0 then
    wrN m i (tabP (n / 8) (fun w => Impl.wordOf be (fun j => l.getD (8 * w + j) 0)))
  else none

/-- `memcpy(&x, src + off, n)` for an object `x` of `k` words. -/
def objIn (be : Bool) (k : Nat) (src : Mem Byte) (off n : Nat) : Option (Ws k) := do
  let m ← memIn be (malloc k) 0 src off n
  whole k m

/-- `memcpy(dst + off, &v, n)` from an object of `k` words. -/
def memOut (be : Bool) {k : Nat} (dst : Mem Byte) (off : Nat) (v : Ws k) (n : Nat) :
    Option (Mem Byte) :=
  if n ≤ 8 * k then
    wrN dst off (tabP n (fun p => Impl.bytesOf be (v.toList.getD (p / 8) 0) (p % 8)))
  else none

end Faest.Words
