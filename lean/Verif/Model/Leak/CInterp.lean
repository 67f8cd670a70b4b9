/-
The arithmetic of C for the language of Model/Leak/IR.lean: one of the meanings for which C58 holds, used in its
examples.  tools/runleak.py evaluates the translated program with the same arithmetic.
-/
import Verif.Model.Leak.IR

namespace Faest.Leak

/-- the value represented in an integer type -/
def ITy.wrap : ITy → Int → Int
  | .u8, n => n % 2 ^ 8
  | .u16, n => n % 2 ^ 16
  | .u32, n => n % 2 ^ 32
  | .u64, n => n % 2 ^ 64
  | .i32, n => (n + 2 ^ 31) % 2 ^ 32 - 2 ^ 31
  | .bool, n => if n = 0 then 0 else 1

def Val.num : Val → Int
  | .int n => n
  | .ptr _ _ => 0

def ofBool (b : Bool) : Val := .int (if b then 1 else 0)

/-- on the bits of the numbers modulo 2^64 -/
def onBits (t : ITy) (f : Nat → Nat → Nat) (a b : Int) : Int :=
  t.wrap (f (a % 2 ^ 64).toNat (b % 2 ^ 64).toNat : Nat)

def cInterp : Interp where
  un o v := match o with
    | .neg t => .int (t.wrap (-v.num))
    | .bnot t => .int (t.wrap (-v.num - 1))
    | .lnot => ofBool (!v.truth)
    | .cast t => .int (t.wrap v.num)
  bin o v w := match o with
    | .add t => .int (t.wrap (v.num + w.num))
    | .sub t => .int (t.wrap (v.num - w.num))
    | .mul t => .int (t.wrap (v.num * w.num))
    | .band t => .int (onBits t (· &&& ·) v.num w.num)
    | .bor t => .int (onBits t (· ||| ·) v.num w.num)
    | .bxor t => .int (onBits t (· ^^^ ·) v.num w.num)
    | .shl t => .int (t.wrap (v.num * 2 ^ w.num.toNat))
    | .shr t => .int (t.wrap (v.num / 2 ^ w.num.toNat))
    | .eq => ofBool (v == w)
    | .ne => ofBool (v != w)
    | .lt => ofBool (decide (v.num < w.num))
    | .le => ofBool (decide (v.num ≤ w.num))
    | .gt => ofBool (decide (w.num < v.num))
    | .ge => ofBool (decide (w.num ≤ v.num))
    | .vec _ => .int 0
  div o v w := match o with
    | .div t => .int (t.wrap (v.num / w.num))
    | .mod t => .int (t.wrap (v.num % w.num))
  ld vs := .int (vs.foldr (fun v n => v.num % 256 + 256 * n) 0)
  st _ v i := .int (v.num / 256 ^ i % 256)

end Faest.Leak
