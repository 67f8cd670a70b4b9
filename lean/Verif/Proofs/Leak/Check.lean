/-
A type system for the language of Model/Leak/IR.lean: numbers are public (`lo`) or secret (`hi`), cells of public
blocks are `out`, and a pointer has the type of the records it points to.  Branches, addresses and operands of
divisions must be public.  `Proofs/Leak/Sound.lean` proves that a program with a certificate reveals nothing else.
-/
import Verif.Model.Leak.IR

namespace Faest.Leak

/-- `ptr r`: pointer to (an array of) records with the members `R r` -/
inductive Ty | lo | hi | out | ptr (r : Nat)
deriving DecidableEq, Repr

/-- A typing of a function: types of its variables (parameters first) and of its result. -/
structure Sig where
  f : Nat
  vars : List Ty
  ret : Ty

/-- A certificate: record types, record types of the global objects, typings of functions. -/
structure Cert where
  recs : List (List Ty)
  globs : List Nat
  sigs : List Sig

variable (C : Cert)

def Cert.row (r : Nat) : List Ty := C.recs.getD r []

/-- type of cell `o` of an array of records -/
def cty (bt : List Ty) (o : Int) : Ty := bt.getD (o % (bt.length : Int)).toNat .hi

def pubTy : Option Ty → Bool
  | some .hi => false
  | some _ => true
  | none => false

def join (a b : Option Ty) : Option Ty :=
  match a, b with
  | none, _ => none
  | _, none => none
  | some .hi, _ => some .hi
  | _, some .hi => some .hi
  | _, _ => some .lo

def rdTy : Ty → Option Ty
  | .hi => some .hi
  | .ptr r => some (.ptr r)
  | _ => some .lo

def Sig.var (S : Sig) (x : Nat) : Ty := S.vars.getD x .hi

def infer (S : Sig) : Expr → Option Ty
  | .var x => some (S.var x)
  | .lit _ => some .lo
  | .glob g => match C.globs[g]? with | some r => some (.ptr r) | none => none
  | .un _ a => join (infer S a) (some .lo)
  | .bin _ a b => join (infer S a) (infer S b)
  | .div _ a b => if pubTy (infer S a) && pubTy (infer S b) then some .lo else none
  | .padd a i s =>
    match infer S a with
    | some (.ptr r) => if pubTy (infer S i) && s % (C.row r).length == 0 then some (.ptr r) else none
    | _ => none
  | .ld _ a =>
    match infer S a with
    | some (.ptr r) =>
      match C.row r with
      | [.lo] => some .lo
      | [.out] => some .lo
      | [.hi] => some .hi
      | _ => none
    | _ => none
  | .cell a k =>
    match infer S a with
    | some (.ptr r) => rdTy (cty (C.row r) k)
    | _ => none

def sub : Ty → Ty → Bool
  | _, .hi => true
  | .lo, .lo => true
  | .out, .lo => true
  | .lo, .out => true
  | .out, .out => true
  | .ptr r, .ptr q => r == q
  | _, _ => false

def chk (S : Sig) (e : Expr) (t : Ty) : Bool :=
  match e with
  | .lit _ => true
  | _ => match infer C S e with | some t' => sub t' t | none => false

def chks (S : Sig) : List Expr → List Ty → Bool
  | [], [] => true
  | e :: es, t :: ts => chk C S e t && chks S es ts
  | _, _ => false

/-- a value of this type may be stored in a cell of type `t` -/
def chkSt (S : Sig) (e : Expr) (t : Ty) : Bool :=
  match t with
  | .out => (infer C S e).isSome
  | _ => chk C S e t

def check (P : List Fn) (S : Sig) : Stmt → Bool
  | .skip => true
  | .asg x e => chk C S e (S.var x)
  | .st _ a v =>
    match infer C S a with
    | some (.ptr r) => 
      match C.row r with
      | [t] => (match t with | .ptr _ => false | _ => true) && chkSt C S v t
      | _ => false
    | _ => false
  | .stc a k v =>
    match infer C S a with
    | some (.ptr r) => chkSt C S v (cty (C.row r) k)
    | _ => false
  | .seq p q => check P S p && check P S q
  | .ite c p q => pubTy (infer C S c) && check P S p && check P S q
  | .loop c p i => pubTy (infer C S c) && check P S p && check P S i
  | .brk => true
  | .cont => true
  | .ret e => chk C S e S.ret
  | .call x f as =>
    C.sigs.any fun T =>
      T.f == f &&
      (match P[f]? with
        | some g => chks C S as (T.vars.take g.arity)
        | none => false) &&
      (match x with
        | some x => sub T.ret (S.var x)
        | none => true)
  | .new x n =>
    pubTy (infer C S n) &&
    (match S.var x with
      | .ptr r => !(C.row r).contains .out
      | _ => false)
  | .free e => pubTy (infer C S e)

/-- these typings are right -/
def okAll (P : List Fn) (l : List Sig) : Bool :=
  l.all fun S =>
    match P[S.f]? with
    | some g => decide (g.arity ≤ S.vars.length) && check C P S g.body
    | none => false

/-- every typing of the certificate is right -/
def Cert.ok (P : List Fn) : Bool := okAll C P C.sigs

theorem okAll_append {C : Cert} {P : List Fn} (l k : List Sig) : okAll C P (l ++ k) = (okAll C P l && okAll C P k) := by
  simp [okAll]

end Faest.Leak
