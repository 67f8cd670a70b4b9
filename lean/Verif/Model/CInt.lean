/-
C integer expressions: types, conversions and evaluation.

The other modules of the model compute sizes and indices with natural numbers.  Here the same computations are
written as C expressions, with the types the code gives to them, and evaluated by the rules of C17: integer
promotions (6.3.1.1), usual arithmetic conversions (6.3.1.8), shifts (6.5.7).  A result which does not fit its type
is refused, also where C would reduce it modulo a power of two.
-/
import Verif.Model.Params

namespace Faest.CInt

/-- The integer types used for sizes and indices.  `int` and `unsigned int` have 32 bits. -/
inductive CTy where
  | u8
  | u16
  | i32
  | u32
  | size
  | u64
deriving DecidableEq, Repr

/-- Width in bits; `W` is the width of `size_t`. -/
def CTy.width (W : Nat) : CTy → Nat
  | .u8 => 8
  | .u16 => 16
  | .i32 => 32
  | .u32 => 32
  | .size => W
  | .u64 => 64

/-- The values of a type. -/
def CTy.fits (W : Nat) (t : CTy) (x : Int) : Prop :=
  match t with
  | .i32 => -2 ^ 31 ≤ x ∧ x ≤ 2 ^ 31 - 1
  | t => 0 ≤ x ∧ x ≤ 2 ^ t.width W - 1

instance (W : Nat) (t : CTy) (x : Int) : Decidable (t.fits W x) := by
  cases t <;> unfold CTy.fits <;> infer_instance

/-- Integer promotions, C17 6.3.1.1. -/
def CTy.promote : CTy → CTy
  | .u8 => .i32
  | .u16 => .i32
  | t => t

/-- Usual arithmetic conversions of promoted types, C17 6.3.1.8. -/
def CTy.common (a b : CTy) : CTy :=
  if a = .u64 ∨ b = .u64 then .u64
  else if a = .size ∨ b = .size then .size
  else if a = .u32 ∨ b = .u32 then .u32
  else .i32

inductive Op where
  | add
  | sub
  | mul
  | div
  | mod
  | xor
  | max
deriving DecidableEq, Repr

/-- C integer expressions over the parameter set and local variables. -/
inductive CE where
  /-- an `int` literal -/
  | lit (n : Nat)
  /-- `sizeof`, a `size_t` constant -/
  | sizeof (n : Nat)
  /-- a field of `faest_param_t`, `uint16_t` (instances.h:40-56) -/
  | par (f : Params → Nat)
  /-- a constant of `parameters.h`, an `int` literal -/
  | mac (f : Params → Nat)
  /-- a local variable of the given type -/
  | var (k : Nat) (t : CTy)
  /-- conversion by cast, initialisation, argument passing or return -/
  | cast (t : CTy) (e : CE)
  | bin (o : Op) (a b : CE)
  | shl (a s : CE)
  | shr (a s : CE)

instance (n : Nat) : OfNat CE n := ⟨.lit n⟩
instance : Add CE := ⟨.bin .add⟩
instance : Sub CE := ⟨.bin .sub⟩
instance : Mul CE := ⟨.bin .mul⟩
instance : Div CE := ⟨.bin .div⟩
instance : Mod CE := ⟨.bin .mod⟩
instance : XorOp CE := ⟨.bin .xor⟩
scoped infixl:75 " <<ᶜ " => CE.shl
scoped infixl:75 " >>ᶜ " => CE.shr

/-- The type of an expression. -/
def CE.ty : CE → CTy
  | .lit _ => .i32
  | .sizeof _ => .size
  | .par _ => .u16
  | .mac _ => .i32
  | .var _ t => t
  | .cast t _ => t
  | .bin _ a b => CTy.common a.ty.promote b.ty.promote
  | .shl a _ => a.ty.promote
  | .shr a _ => a.ty.promote

/-- A value of type `t`, if it is one. -/
def chk (W : Nat) (t : CTy) (x : Int) : Option Int := if t.fits W x then some x else none

/-- The operations on mathematical integers; `/` and `%` truncate towards zero. -/
def Op.ideal : Op → Int → Int → Int
  | .add, x, y => x + y
  | .sub, x, y => x - y
  | .mul, x, y => x * y
  | .div, x, y => x.tdiv y
  | .mod, x, y => x.tmod y
  | .xor, x, y => ((x.toNat ^^^ y.toNat : Nat) : Int)
  | .max, x, y => if x > y then x else y

/-- Operands for which the operation is defined (xor: only for nonnegative operands, which is all the code uses). -/
def Op.defined : Op → Int → Int → Bool
  | .div, _, y => y != 0
  | .mod, _, y => y != 0
  | .xor, x, y => decide (0 ≤ x) && decide (0 ≤ y)
  | _, _, _ => true

/-- Evaluation in C: operands and result must fit the type of the operation. -/
def CE.eval (W : Nat) (P : Params) (env : Nat → Int) : CE → Option Int
  | .lit n => chk W .i32 n
  | .sizeof n => chk W .size n
  | .par f => chk W .u16 (f P)
  | .mac f => chk W .i32 (f P)
  | .var k t => chk W t (env k)
  | .cast t e => do chk W t (← e.eval W P env)
  | .bin o a b => do
    let t := CTy.common a.ty.promote b.ty.promote
    let x ← chk W t (← a.eval W P env)
    let y ← chk W t (← b.eval W P env)
    if o.defined x y then chk W t (o.ideal x y) else none
  | .shl a s => do
    let t := a.ty.promote
    let x ← chk W t (← a.eval W P env)
    let y ← s.eval W P env
    if 0 ≤ x ∧ 0 ≤ y ∧ y < t.width W then chk W t (x * 2 ^ y.toNat) else none
  | .shr a s => do
    let t := a.ty.promote
    let x ← chk W t (← a.eval W P env)
    let y ← s.eval W P env
    if 0 ≤ x ∧ 0 ≤ y ∧ y < t.width W then chk W t (x / 2 ^ y.toNat) else none

/-- The value of the expression over the mathematical integers: types and conversions have no effect. -/
def CE.ideal (P : Params) (env : Nat → Int) : CE → Int
  | .lit n => n
  | .sizeof n => n
  | .par f => f P
  | .mac f => f P
  | .var k _ => env k
  | .cast _ e => e.ideal P env
  | .bin o a b => o.ideal (a.ideal P env) (b.ideal P env)
  | .shl a s => a.ideal P env * 2 ^ (s.ideal P env).toNat
  | .shr a s => a.ideal P env / 2 ^ (s.ideal P env).toNat

/-- Ranges of the local variables. -/
abbrev Box := List (Int × Int)

def InBox (b : Box) (env : Nat → Int) : Prop :=
  ∀ k r, b[k]? = some r → r.1 ≤ env k ∧ env k ≤ r.2

/-- An expression of the code and the values its local variables take, as a list of boxes; the boxes are empty for
parameter sets which do not run the code. -/
structure Site where
  cite : String
  e : CE
  dom : Params → List Box

end Faest.CInt
