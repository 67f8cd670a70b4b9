/-
What a run of ARM assembler code (Verif/Model/A64.lean) shows to an observer of the memory accesses and of the branches.

The trace has, in the order of the run, the address and the number of bytes of every load and store and the flag behind
every conditional branch.  The time of an instruction is taken not to depend on its operands otherwise.
-/
import Verif.Model.A64
import Verif.Model.AsmLeak

namespace Faest.A64
open Faest.C
open Faest.Asm (Val Ev)

/-- The accesses of an operation (`Op.exec`). -/
def Op.leak (c : Cpu) : Op → List Ev
  | .ld4 _ _ _ _ m => [.ld (c.adr m) 64]
  | .st4 _ _ _ _ m => [.st (c.adr m) 64]
  | .ld1 _ m => [.ld (c.adr m) 8]
  | .st1 _ m => [.st (c.adr m) 8]
  | .ldrb _ m => [.ld (c.adr m) 1]
  | .strb _ m => [.st (c.adr m) 1]
  | _ => []

/-- `Prog.run` with the trace after `t`, for at most `n` instructions (`Prog.trace_iff`). -/
def Prog.trace {L : Type} (P : Prog L) : Nat → List (Ins L) → Cpu → List Ev → CM (Cpu × List Ev)
  | 0, _, _, _ => lft none
  | n + 1, is, c, t =>
    match is with
    | [] => lft none
    | .op o :: is => do
      let c' ← o.exec P.rodata c
      P.trace n is c' (t ++ o.leak c)
    | .b l :: _ => P.trace n (P.code l) c t
    | .bcc l :: is => do
      let k ← lft c.cf
      if k then P.trace n is c (t ++ [.br k]) else P.trace n (P.code l) c (t ++ [.br k])
    | .bne l :: is => do
      let z ← lft c.zf
      if z then P.trace n is c (t ++ [.br z]) else P.trace n (P.code l) c (t ++ [.br z])
    | .ret :: _ => pure (c, t)

/-- The call of a function from C has trace `t` (`Prog.callC`; `H` is the memory). -/
def Prog.Shows {L : Type} (P : Prog L) (f : L) (c : Cpu) (x0 x1 x2 x3 : Val) (H : Heap) (t : List Ev) : Prop :=
  ∃ n r, P.trace n (P.code f) { c with x0 := x0, x1 := x1, x2 := x2, x3 := x3 } [] H = some r ∧ r.1.2 = t

end Faest.A64
