/-
What a run of assembler code (Verif/Model/Asm.lean) shows to an observer of the memory accesses and of the branches.

The trace has, in the order of the run, the address and the number of bytes of every load and store and the direction of
every conditional jump.  These and the code fix the instructions which are executed and what they push and pop; the time
of an instruction is taken not to depend on its operands otherwise.
-/
import Verif.Model.Asm

namespace Faest.Asm
open Faest.C

/-- What an observer sees. -/
inductive Ev where
  /-- a load of `n` bytes -/
  | ld (a : Option Val) (n : Nat)
  /-- a store of `n` bytes -/
  | st (a : Option Val) (n : Nat)
  /-- a conditional jump: the value of the flag -/
  | br (b : Bool)
deriving DecidableEq

/-- The address of a load. -/
def Src.leak (c : Cpu) : Src → List Ev
  | .mem a => [.ld (c.adr a) 8]
  | _ => []

def VSrc.leak (c : Cpu) : VSrc → List Ev
  | .mem a => [.ld (c.adr a) 32]
  | _ => []

/-- A word of vpgatherdq is loaded if the top bit of its mask is set. -/
def gatherLeak (m : BitVec 64) (a : Val) (i : BitVec 32) : List Ev :=
  if m.msb then [.ld (a.off i.toInt) 8] else []

/-- The accesses of an operation (`Op.exec`). -/
def Op.leak (c : Cpu) : Op → List Ev
  | .mov s _ => s.leak c
  | .movSt s d => s.leak c ++ [.st (c.adr d) 8]
  | .movLd1 s _ => [.ld (c.adr s) 1]
  | .movSt1 _ d => [.st (c.adr d) 1]
  | .add s _ => s.leak c
  | .sub s _ => s.leak c
  | .cmp s _ => s.leak c
  | .xorSt _ d => [.ld (c.adr d) 8, .st (c.adr d) 8]
  | .xorSt1 _ d => [.ld (c.adr d) 1, .st (c.adr d) 1]
  | .vmovdqu s _ => [.ld (c.adr s) 32]
  | .vmovdquSt _ d => [.st (c.adr d) 32]
  | .vmovdqa s _ => [.ld (c.adr s) 32]
  | .vmovdqaX s _ => [.ld (c.adr s) 16]
  | .vmovqSt _ d => [.st (c.adr d) 8]
  | .vpbroadcastq s _ => [.ld (c.adr s) 8]
  | .vpxor s _ _ => s.leak c
  | .vpsllvq s _ _ => [.ld (c.adr s) 32]
  | .vpsrlvq s _ _ => [.ld (c.adr s) 32]
  | .vpgatherdq m b i _ =>
    gatherLeak (c.v.get m).w0 (c.get b) (dw (c.v.get i).w0 false) ++
    gatherLeak (c.v.get m).w1 (c.get b) (dw (c.v.get i).w0 true) ++
    gatherLeak (c.v.get m).w2 (c.get b) (dw (c.v.get i).w1 false) ++
    gatherLeak (c.v.get m).w3 (c.get b) (dw (c.v.get i).w1 true)
  | _ => []

/-- `Prog.run` with the trace after `t`, for at most `n` instructions (`Prog.trace_iff`). -/
def Prog.trace {L : Type} (P : Prog L) : Nat → List (Ins L) → List (Slot L) → Cpu → List Ev → CM (Cpu × List Ev)
  | 0, _, _, _, _ => lft none
  | n + 1, is, st, c, t =>
    match is with
    | [] => lft none
    | .op o :: is => do
      let c' ← o.exec P.rodata c
      P.trace n is st c' (t ++ o.leak c)
    | .jmp l :: _ => P.trace n (P.code l) st c t
    | .jz l :: is => do
      let b ← lft c.zf
      if b then P.trace n (P.code l) st c (t ++ [.br b]) else P.trace n is st c (t ++ [.br b])
    | .jnz l :: is => do
      let b ← lft c.zf
      if b then P.trace n is st c (t ++ [.br b]) else P.trace n (P.code l) st c (t ++ [.br b])
    | .jc l :: is => do
      let b ← lft c.cf
      if b then P.trace n (P.code l) st c (t ++ [.br b]) else P.trace n is st c (t ++ [.br b])
    | .jnc l :: is => do
      let b ← lft c.cf
      if b then P.trace n is st c (t ++ [.br b]) else P.trace n (P.code l) st c (t ++ [.br b])
    | .push r :: is => P.trace n is (.val (c.get r) :: st) c t
    | .pop r :: is =>
      match st with
      | .val x :: st => P.trace n is st (c.set x r) t
      | _ => lft none
    | .call l :: is => P.trace n (P.code l) (.ret is :: st) c t
    | .ret :: _ =>
      match st with
      | [] => pure (c, t)
      | .ret k :: st => P.trace n k st c t
      | _ => lft none

/-- The call of a function from C has trace `t` (`Prog.callC`; `H` is the memory). -/
def Prog.Shows {L : Type} (P : Prog L) (f : L) (c : Cpu) (rdi rsi rdx rcx : Val) (H : Heap) (t : List Ev) : Prop :=
  ∃ n r, P.trace n (P.code f) [] { c with rdi := rdi, rsi := rsi, rdx := rdx, rcx := rcx } [] H = some r ∧ r.1.2 = t

end Faest.Asm
