/-
A small imperative language for the question which values a run of the C code reveals through its branches and
addresses.  `tools/c2leak.py` translates the C files into it (Verif/Model/Leak/Prog*.lean).

* A variable of C whose address is not taken is a variable here; every other object is a block of memory.  A block is a
  map from offsets to cells.  Arrays of numbers have one cell per byte, arrays of pointers and records one cell per
  pointer respectively member.  An array or record inside a record is a block of its own, the member holds its address.
* The meaning of the arithmetic operators, of joining bytes to a number and of splitting a number into bytes is a
  parameter (`Interp`): the theorems hold whatever they compute.  Division and remainder are separate since their
  running time depends on their operands.
* Undefined behaviour is not tracked here (that is the subject of C51 to C57): memory is total, a new block is zero.
* A run has a trace: every address read or written, every branch taken, operands of divisions, sizes of
  allocations, addresses freed, and the values stored into blocks declared to be public (`pub`).
-/

namespace Faest.Leak

/-- integer types of C (`bool` is `_Bool`) -/
inductive ITy | u8 | u16 | u32 | u64 | i32 | bool
deriving DecidableEq, Repr

inductive UOp | neg (t : ITy) | bnot (t : ITy) | lnot | cast (t : ITy)
deriving DecidableEq, Repr

inductive BOp
  | add (t : ITy) | sub (t : ITy) | mul (t : ITy) | band (t : ITy) | bor (t : ITy) | bxor (t : ITy)
  | shl (t : ITy) | shr (t : ITy) | eq | ne | lt | le | gt | ge
  /-- vector operation number `n` of the tables VEC and VECOP of tools/c2leak.py; 0 makes a pair of operands -/
  | vec (n : Nat)
deriving DecidableEq, Repr

inductive DOp | div (t : ITy) | mod (t : ITy)
deriving DecidableEq, Repr

inductive Val
  | int (n : Int)
  | ptr (b : Nat) (o : Int)
deriving DecidableEq, Repr

inductive Expr
  /-- local variable or parameter -/
  | var (x : Nat)
  /-- constant; 0 is also the null pointer -/
  | lit (n : Int)
  /-- address of a global object -/
  | glob (g : Nat)
  | un (o : UOp) (a : Expr)
  | bin (o : BOp) (a b : Expr)
  | div (o : DOp) (a b : Expr)
  /-- pointer `a` moved by `i` elements of `s` cells -/
  | padd (a i : Expr) (s : Nat)
  /-- number of `w` bytes at `a` -/
  | ld (w : Nat) (a : Expr)
  /-- cell `k` after `a`: member of a record, element of an array of pointers -/
  | cell (a : Expr) (k : Nat)
deriving Repr

inductive Stmt
  | skip
  | asg (x : Nat) (e : Expr)
  /-- store the number `v` in `w` bytes at `a` -/
  | st (w : Nat) (a v : Expr)
  /-- store in cell `k` after `a` -/
  | stc (a : Expr) (k : Nat) (v : Expr)
  | seq (p q : Stmt)
  | ite (c : Expr) (p q : Stmt)
  /-- `for (; c; i) p` -/
  | loop (c : Expr) (p i : Stmt)
  | brk
  | cont
  | ret (e : Expr)
  | call (x : Option Nat) (f : Nat) (as : List Expr)
  /-- a new block of `n` bytes (array or record on the stack, malloc, calloc) -/
  | new (x : Nat) (n : Expr)
  | free (e : Expr)
deriving Repr

/-- statements one after the other -/
def block : List Stmt → Stmt
  | [] => .skip
  | [p] => p
  | p :: q :: r => .seq p (block (q :: r))

/-- What is observed of a run. -/
inductive Ev
  | rd (a : Val)
  | wr (a : Val)
  | br (c : Bool)
  | dv (a b : Val)
  | al (n : Val)
  | fr (a : Val)
  /-- values stored into a public block -/
  | rel (vs : List Val)
deriving DecidableEq, Repr

/-- The meaning of operators and of bytes; arbitrary functions. -/
structure Interp where
  un : UOp → Val → Val
  bin : BOp → Val → Val → Val
  div : DOp → Val → Val → Val
  /-- the number in these cells -/
  ld : List Val → Val
  /-- byte `i` of the number -/
  st : Nat → Val → Nat → Val

/-- The trace has the newest event first. -/
structure St where
  env : Nat → Val
  mem : Nat → Int → Val
  next : Nat
  tr : List Ev

/-- address `k` cells further -/
def Val.off : Val → Nat → Val
  | .ptr b o, k => .ptr b (o + k)
  | .int n, _ => .int n

def Val.truth : Val → Bool
  | .int n => n != 0
  | .ptr _ _ => true

def cells (m : Nat → Int → Val) (b : Nat) (o : Int) (w : Nat) : List Val :=
  (List.range w).map fun (i : Nat) => m b (o + (i : Int))

/-- value and events of an expression -/
def eval (I : Interp) (s : St) : Expr → Val × List Ev
  | .var x => (s.env x, [])
  | .lit n => (.int n, [])
  | .glob g => (.ptr g 0, [])
  | .un o a => let r := eval I s a; (I.un o r.1, r.2)
  | .bin o a b => let r := eval I s a; let q := eval I s b; (I.bin o r.1 q.1, q.2 ++ r.2)
  | .div o a b =>
    let r := eval I s a; let q := eval I s b; (I.div o r.1 q.1, .dv r.1 q.1 :: (q.2 ++ r.2))
  | .padd a i k =>
    let r := eval I s a; let q := eval I s i
    (match r.1, q.1 with
      | .ptr b o, .int n => .ptr b (o + n * k)
      | _, _ => .int 0, q.2 ++ r.2)
  | .ld w a =>
    let r := eval I s a
    (match r.1 with
      | .ptr b o => I.ld (cells s.mem b o w)
      | _ => .int 0, .rd r.1 :: r.2)
  | .cell a k =>
    let r := eval I s a
    (match r.1 with
      | .ptr b o => s.mem b (o + k)
      | _ => .int 0, .rd (r.1.off k) :: r.2)

def evals (I : Interp) (s : St) : List Expr → List Val × List Ev
  | [] => ([], [])
  | e :: es => let r := eval I s e; let q := evals I s es; (r.1 :: q.1, q.2 ++ r.2)

def St.log (s : St) (t : List Ev) : St := { s with tr := t ++ s.tr }

def St.set (s : St) (x : Nat) (v : Val) : St :=
  { s with env := fun y => if y = x then v else s.env y }

/-- result of a call -/
def St.setO (s : St) (x : Option Nat) (v : Val) : St :=
  match x with
  | some x => s.set x v
  | none => s

/-- replace the cells `o, …, o + vs.length - 1` of block `b`; stores into a public block are observed -/
def St.put (pub : Nat → Bool) (s : St) (a : Val) (k : Nat) (vs : List Val) : St :=
  match a with
  | .ptr b o =>
    { s with
      mem := fun b' o' => if b' = b ∧ o + k ≤ o' ∧ o' < o + k + vs.length then vs.getD (o' - (o + k)).toNat (.int 0)
                          else s.mem b' o'
      tr := if pub b then .rel vs :: .wr (a.off k) :: s.tr else .wr (a.off k) :: s.tr }
  | .int _ => { s with tr := .wr a :: s.tr }

inductive Out
  | norm | brk | cont | ret (v : Val)
  /-- out of fuel -/
  | fuel
deriving DecidableEq, Repr

/-- A function: its number of parameters and its body; the parameters are the variables 0, 1, … -/
structure Fn where
  arity : Nat
  body : Stmt

def bindArgs (vs : List Val) : Nat → Val := fun x => vs.getD x (.int 0)

/-- One statement; `K` runs the next turn of a loop and the body of a called function. -/
def step (P : List Fn) (I : Interp) (pub : Nat → Bool) (K : Stmt → St → Out × St) : Stmt → St → Out × St
  | .skip, s => (.norm, s)
  | .asg x e, s => let r := eval I s e; (.norm, (s.log r.2).set x r.1)
  | .st w a v, s =>
    let r := eval I s a; let q := eval I s v
    (.norm, (s.log (q.2 ++ r.2)).put pub r.1 0 ((List.range w).map (I.st w q.1)))
  | .stc a k v, s =>
    let r := eval I s a; let q := eval I s v
    (.norm, (s.log (q.2 ++ r.2)).put pub r.1 k [q.1])
  | .seq p q, s =>
    match step P I pub K p s with
    | (.norm, s') => step P I pub K q s'
    | r => r
  | .ite c p q, s =>
    let r := eval I s c
    let s' := s.log (.br r.1.truth :: r.2)
    if r.1.truth then step P I pub K p s' else step P I pub K q s'
  | .loop c p i, s =>
    let r := eval I s c
    let s' := s.log (.br r.1.truth :: r.2)
    if r.1.truth then
      match step P I pub K p s' with
      | (.brk, s2) => (.norm, s2)
      | (.ret v, s2) => (.ret v, s2)
      | (.fuel, s2) => (.fuel, s2)
      | (_, s2) =>
        match step P I pub K i s2 with
        | (.norm, s3) => K (.loop c p i) s3
        | r => r
    else (.norm, s')
  | .brk, s => (.brk, s)
  | .cont, s => (.cont, s)
  | .ret e, s => let r := eval I s e; (.ret r.1, s.log r.2)
  | .call x f as, s =>
    let r := evals I s as
    match P[f]? with
    | none => (.fuel, s.log r.2)
    | some g =>
      let q := K g.body { (s.log r.2) with env := bindArgs r.1 }
      let back : St := { q.2 with env := s.env }
      match q.1 with
      | .fuel => (.fuel, back)
      | .ret v => (.norm, back.setO x v)
      | _ => (.norm, back.setO x (.int 0))
  | .new x n, s =>
    let r := eval I s n
    (.norm, { (s.log (.al r.1 :: r.2)).set x (.ptr s.next 0) with
              mem := fun b o => if b = s.next then .int 0 else s.mem b o, next := s.next + 1 })
  | .free e, s => let r := eval I s e; (.norm, s.log (.fr r.1 :: r.2))

/-- A run; the fuel bounds the number of nested calls and turns of loops. -/
def run (P : List Fn) (I : Interp) (pub : Nat → Bool) : Nat → Stmt → St → Out × St
  | 0, _, s => (.fuel, s)
  | n + 1, c, s => step P I pub (run P I pub n) c s

/-- The values stored into public blocks, newest first. -/
def released (t : List Ev) : List (List Val) :=
  t.filterMap fun | .rel vs => some vs | _ => none

end Faest.Leak
