/-
Memory, loops and bytes of the code-level model.

The C code runs on byte arrays with pointers.  In the model every function returns
an `Option`: `none` stands for undefined behaviour (access outside a buffer, read of
a cell which was never written, loop that does not end).
-/

namespace Faest

/-- `uint8_t`. -/
abbrev Byte := BitVec 8

/-- A buffer.  A cell `none` is allocated but not initialised. -/
abbrev Mem (α : Type) := List (Option α)

/-- `malloc(n)` or an uninitialised array on the stack. -/
def malloc {α : Type} (n : Nat) : Mem α := List.replicate n none

/-- `calloc(n)`: `n` cells holding the zero element `z`. -/
def calloc {α : Type} (n : Nat) (z : α) : Mem α := List.replicate n (some z)

/-- A fully initialised buffer holding the elements of `l`. -/
def ofList {α : Type} (l : List α) : Mem α := l.map some

/-- Read one cell: undefined outside the buffer and for uninitialised cells. -/
def rd {α : Type} (m : Mem α) (i : Nat) : Option α := (m[i]?).join

/-- Write one cell: undefined outside the buffer. -/
def wr {α : Type} (m : Mem α) (i : Nat) (a : α) : Option (Mem α) :=
  if i < m.length then some (m.set i (some a)) else none

/-- Read `n` consecutive cells starting at `off` (source of a `memcpy`). -/
def rdN {α : Type} (m : Mem α) (off n : Nat) : Option (List α) :=
  if off + n ≤ m.length then ((m.drop off).take n).mapM id else none

/-- Write the cells of `l` starting at `off` (destination of a `memcpy`). -/
def wrN {α : Type} (m : Mem α) (off : Nat) (l : List α) : Option (Mem α) :=
  if off + l.length ≤ m.length then
    some (m.take off ++ l.map some ++ m.drop (off + l.length))
  else none

/-- Sub-buffer starting at `off` (pointer `p + off`); the pointer has to stay inside
the buffer or one past its end. -/
def ptr {α : Type} (m : Mem α) (off : Nat) : Option (Mem α) :=
  if off ≤ m.length then some (m.drop off) else none

/-- `for (i = 0; i < n; ++i) s = f(i, s)`. -/
def forN {S : Type} (n : Nat) (s : S) (f : Nat → S → Option S) : Option S :=
  match n with
  | 0 => some s
  | k + 1 => (forN k s f).bind (f k)

/-- `for (i = lo; i < hi; ++i) s = f(i, s)`. -/
def forR {S : Type} (lo hi : Nat) (s : S) (f : Nat → S → Option S) : Option S :=
  forN (hi - lo) s (fun i => f (lo + i))

/-- `for (; j < hi; j += step) s = f(j, s)`, returning the final `j`.  The first
argument is fuel; running out of fuel (non-termination) is `none`. -/
def forStep {S : Type} (hi step : Nat) : Nat → Nat → S → (Nat → S → Option S) → Option (Nat × S)
  | 0, _, _, _ => none
  | fuel + 1, j, s, f =>
    if j < hi then (f j s).bind (fun s' => forStep hi step fuel (j + step) s' f)
    else some (j, s)

/-- Pure table `[g 0, …, g (n-1)]`. -/
def tabP {α : Type} (n : Nat) (g : Nat → α) : List α := (List.range n).map g

/-- Fully initialised buffer with contents `g 0, …, g (n-1)`. -/
def full {α : Type} (n : Nat) (g : Nat → α) : Mem α := ofList (tabP n g)

/-- A fresh array of `n` cells written in index order, cell `i` receiving `f i`; `f` may be
undefined. -/
def tabM {α : Type} (n : Nat) (f : Nat → Option α) : Option (List α) := (List.range n).mapM f

/-- `tabM` as a buffer. -/
def fill {α : Type} (n : Nat) (f : Nat → Option α) : Option (Mem α) := (tabM n f).map ofList

/-- utils.h:16-20 `xor_u8_array` on `n` bytes. -/
def xorArr (a b : Mem Byte) (n : Nat) : Option (List Byte) :=
  tabM n (fun i => do
    let x ← rd a i
    let y ← rd b i
    pure (x ^^^ y))

/-- utils.h:22-28 `masked_xor_u8_array`: `mask = -(mask_bit & 1)`. -/
def maskedXorArr (a b : Mem Byte) (maskBit : Byte) (n : Nat) : Option (List Byte) :=
  tabM n (fun i => do
    let x ← rd a i
    let y ← rd b i
    pure (x ^^^ (y &&& (0 - (maskBit &&& 1)))))

/-- utils.h:32 `ptr_get_bit(value, index)`: `(value[index/8] >> (index%8)) & 1`. -/
def ptrGetBit (m : Mem Byte) (i : Nat) : Option Byte := do
  let x ← rd m (i / 8)
  pure ((x >>> (i % 8)) &&& 1)

/-- utils.h:33-36 `ptr_set_bit(dst, value, index)`: `dst[index/8] |= value << (index%8)`. -/
def ptrSetBit (m : Mem Byte) (v : Byte) (i : Nat) : Option (Mem Byte) := do
  let x ← rd m (i / 8)
  wr m (i / 8) (x ||| (v <<< (i % 8)))

/-- compat.h:139-143 `rotr8`. -/
def rotr8 (x : Byte) (n : Nat) : Byte := (x >>> (n &&& 7)) ||| (x <<< ((8 - (n &&& 7)) &&& 7))

/-- `get_bit(value, index)`, utils.h:30. -/
def getBit (x : Byte) (i : Nat) : Byte := (x >>> i) &&& 1

end Faest
