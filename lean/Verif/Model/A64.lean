/-
The part of the AArch64 instruction set which sha3/armv8a-neon/KeccakP-1600-armv8a-neon.s uses
(Verif/Model/Gen/KeccakNeon.lean).

A general register holds a number, an address in a block of the C memory, an address in the table of constants of the
file, or only its low byte is known (`Asm.Val`); an operation which would need the number behind an address, or the unknown
part of a register, is undefined (`none`).  A vector register is two words of 64 bits, `w0` the least significant.  Of the
flags there are Z and C; before the first instruction which sets them they have no value and cannot be tested.  Memory is
that of the C code; accesses outside of a block are undefined.  Loads and stores of vectors need no alignment beyond that
of their elements, which is not modelled either.  The operations are those of the Arm manual (DDI 0487), with the order of
operands of the assembler (the destination is the first one); the host is little-endian.
-/
import Verif.Model.Asm

namespace Faest.A64
open Faest.C
open Faest.Asm (Val)

/-- The general registers in use; of x6 to x9 and x12 on the code takes no notice. -/
inductive Reg where
  | x0 | x1 | x2 | x3 | x4 | x5 | x10 | x11
deriving DecidableEq

/-- The vector registers in use.  A function has to preserve the low halves of v8 to v15; they are not used. -/
inductive Vec where
  | v0 | v1 | v2 | v3 | v4 | v5 | v6 | v7 | v16 | v17 | v18 | v19 | v20 | v21 | v22 | v23 | v24 | v25 | v26 | v27 | v28 | v29
  | v30 | v31
deriving DecidableEq

/-- A vector register. -/
structure V128 where
  (w0 w1 : BitVec 64)

/-- The vector registers. -/
structure VFile where
  (v0 v1 v2 v3 v4 v5 v6 v7 v16 v17 v18 v19 v20 v21 v22 v23 v24 v25 v26 v27 v28 v29 v30 v31 : V128)

/-- The registers. -/
structure Cpu where
  (x0 x1 x2 x3 x4 x5 x10 x11 : Val)
  zf : Option Bool
  cf : Option Bool
  v : VFile

def Cpu.get (c : Cpu) : Reg → Val
  | .x0 => c.x0 | .x1 => c.x1 | .x2 => c.x2 | .x3 => c.x3 | .x4 => c.x4 | .x5 => c.x5 | .x10 => c.x10 | .x11 => c.x11

def Cpu.set (c : Cpu) (x : Val) : Reg → Cpu
  | .x0 => { c with x0 := x } | .x1 => { c with x1 := x } | .x2 => { c with x2 := x } | .x3 => { c with x3 := x }
  | .x4 => { c with x4 := x } | .x5 => { c with x5 := x } | .x10 => { c with x10 := x } | .x11 => { c with x11 := x }

def VFile.get (v : VFile) : Vec → V128
  | .v0 => v.v0 | .v1 => v.v1 | .v2 => v.v2 | .v3 => v.v3 | .v4 => v.v4 | .v5 => v.v5 | .v6 => v.v6 | .v7 => v.v7
  | .v16 => v.v16 | .v17 => v.v17 | .v18 => v.v18 | .v19 => v.v19 | .v20 => v.v20 | .v21 => v.v21 | .v22 => v.v22
  | .v23 => v.v23 | .v24 => v.v24 | .v25 => v.v25 | .v26 => v.v26 | .v27 => v.v27 | .v28 => v.v28 | .v29 => v.v29
  | .v30 => v.v30 | .v31 => v.v31

def VFile.set (v : VFile) (x : V128) : Vec → VFile
  | .v0 => { v with v0 := x } | .v1 => { v with v1 := x } | .v2 => { v with v2 := x } | .v3 => { v with v3 := x }
  | .v4 => { v with v4 := x } | .v5 => { v with v5 := x } | .v6 => { v with v6 := x } | .v7 => { v with v7 := x }
  | .v16 => { v with v16 := x } | .v17 => { v with v17 := x } | .v18 => { v with v18 := x } | .v19 => { v with v19 := x }
  | .v20 => { v with v20 := x } | .v21 => { v with v21 := x } | .v22 => { v with v22 := x } | .v23 => { v with v23 := x }
  | .v24 => { v with v24 := x } | .v25 => { v with v25 := x } | .v26 => { v with v26 := x } | .v27 => { v with v27 := x }
  | .v28 => { v with v28 := x } | .v29 => { v with v29 := x } | .v30 => { v with v30 := x } | .v31 => { v with v31 := x }

def Cpu.setV (c : Cpu) (x : V128) (d : Vec) : Cpu := { c with v := c.v.set x d }

/-- The registers, all zero. -/
def Cpu.zero : Cpu :=
  ⟨.num 0, .num 0, .num 0, .num 0, .num 0, .num 0, .num 0, .num 0, none, none,
    ⟨⟨0, 0⟩, ⟨0, 0⟩, ⟨0, 0⟩, ⟨0, 0⟩, ⟨0, 0⟩, ⟨0, 0⟩, ⟨0, 0⟩, ⟨0, 0⟩, ⟨0, 0⟩, ⟨0, 0⟩, ⟨0, 0⟩, ⟨0, 0⟩,
      ⟨0, 0⟩, ⟨0, 0⟩, ⟨0, 0⟩, ⟨0, 0⟩, ⟨0, 0⟩, ⟨0, 0⟩, ⟨0, 0⟩, ⟨0, 0⟩, ⟨0, 0⟩, ⟨0, 0⟩, ⟨0, 0⟩, ⟨0, 0⟩⟩⟩

/-! ### Vectors -/

namespace V128

def map2 (f : BitVec 64 → BitVec 64 → BitVec 64) (a b : V128) : V128 := ⟨f a.w0 b.w0, f a.w1 b.w1⟩
def map (f : BitVec 64 → BitVec 64) (a : V128) : V128 := ⟨f a.w0, f a.w1⟩

/-- One of the two words. -/
def lane (a : V128) (h : Bool) : BitVec 64 := if h then a.w1 else a.w0
/-- Write one of the two words. -/
def setLane (a : V128) (h : Bool) (x : BitVec 64) : V128 := if h then ⟨a.w0, x⟩ else ⟨x, a.w1⟩

end V128

/-- SRI, one element: `s` shifted to the right, the top `n` bits from `d`. -/
def sriW (d s : BitVec 64) (n : Nat) : BitVec 64 := (d &&& ~~~(BitVec.allOnes 64 >>> n)) ||| s >>> n

/-- ROR -/
def rorW (x : BitVec 64) (n : Nat) : BitVec 64 := x >>> n ||| x <<< (64 - n)

/-! ### Operations -/

/-- `[x]`, `[x, y]` or `[x], #n` (the register is increased after the access). -/
inductive Adr where
  | base (r : Reg)
  | idx (r i : Reg)
  | post (r : Reg) (n : Nat)

inductive Op where
  | ld4 (a b c d : Vec) (m : Adr)
  | st4 (a b c d : Vec) (m : Adr)
  | ld1 (v : Vec) (m : Adr)
  | st1 (v : Vec) (m : Adr)
  | movi0 (d : Vec)
  | addI (d s : Reg) (n : Int)
  | addX (d a b : Reg)
  | subsW (d s : Reg) (n : BitVec 32)
  | addW (d s : Reg) (n : BitVec 32)
  | eorW (d a b : Reg)
  | movI (d : Reg) (x : BitVec 64)
  | adr (d : Reg) (o : Int)
  | ror (d s : Reg) (n : Nat)
  | umov (d : Reg) (v : Vec) (h : Bool)
  | insX (v : Vec) (h : Bool) (s : Reg)
  | insV (v : Vec) (h : Bool) (w : Vec) (k : Bool)
  | eor (d a b : Vec)
  | eor8 (d a b : Vec)
  | bic (d a b : Vec)
  | ext8 (d a b : Vec)
  | trn1 (d a b : Vec)
  | trn2 (d a b : Vec)
  | shl (d s : Vec) (n : Nat)
  | sri (d s : Vec) (n : Nat)
  | ldrb (d : Reg) (m : Adr)
  | strb (s : Reg) (m : Adr)

/-- The address of an access. -/
def Cpu.adr (c : Cpu) : Adr → Option Val
  | .base r => some (c.get r)
  | .idx r i => (c.get r).add (c.get i)
  | .post r _ => some (c.get r)

/-- The registers after an access. -/
def Cpu.bump (c : Cpu) : Adr → Option Cpu
  | .base _ => some c
  | .idx _ _ => some c
  | .post r n => ((c.get r).off n).map fun x => c.set x r

/-- EOR of two registers of 32 bits; if less is known of one of them, less is known of the result. -/
def eorV : Val → Val → Option Val
  | .num x, .num y => some (.num ((x.setWidth 32 ^^^ y.setWidth 32 : BitVec 32).setWidth 64))
  | x, y => do
    let x ← x.byte
    let y ← y.byte
    pure (.low (x ^^^ y))

def Op.exec (T : List (BitVec 64)) (c : Cpu) : Op → CM Cpu
  | .ld4 p q r s m => do
    let a ← lft (c.adr m)
    let m0 ← Asm.ld8o T a 0
    let m1 ← Asm.ld8o T a 8
    let m2 ← Asm.ld8o T a 16
    let m3 ← Asm.ld8o T a 24
    let m4 ← Asm.ld8o T a 32
    let m5 ← Asm.ld8o T a 40
    let m6 ← Asm.ld8o T a 48
    let m7 ← Asm.ld8o T a 56
    lft (((((c.setV ⟨m0, m4⟩ p).setV ⟨m1, m5⟩ q).setV ⟨m2, m6⟩ r).setV ⟨m3, m7⟩ s).bump m)
  | .st4 p q r s m => do
    let a ← lft (c.adr m)
    Asm.st8o (c.v.get p).w0 a 0
    Asm.st8o (c.v.get q).w0 a 8
    Asm.st8o (c.v.get r).w0 a 16
    Asm.st8o (c.v.get s).w0 a 24
    Asm.st8o (c.v.get p).w1 a 32
    Asm.st8o (c.v.get q).w1 a 40
    Asm.st8o (c.v.get r).w1 a 48
    Asm.st8o (c.v.get s).w1 a 56
    lft (c.bump m)
  | .ld1 v m => do
    let a ← lft (c.adr m)
    let x ← Asm.ld8 T a
    lft ((c.setV ⟨x, (c.v.get v).w1⟩ v).bump m)
  | .st1 v m => do
    let a ← lft (c.adr m)
    Asm.st8 (c.v.get v).w0 a
    lft (c.bump m)
  | .movi0 d => pure (c.setV ⟨0, 0⟩ d)
  | .addI d s n => do
    let x ← lft ((c.get s).off n)
    pure (c.set x d)
  | .addX d a b => do
    let x ← lft ((c.get a).add (c.get b))
    pure (c.set x d)
  | .subsW d s n => do
    let x ← lft (c.get s).isNum
    let y : BitVec 32 := x.setWidth 32
    pure { c.set (.num ((y - n).setWidth 64)) d with zf := some (y - n == 0), cf := some (decide (n.toNat ≤ y.toNat)) }
  | .addW d s n => do
    let x ← lft (c.get s).isNum
    pure (c.set (.num ((x.setWidth 32 + n : BitVec 32).setWidth 64)) d)
  | .eorW d a b => do
    let x ← lft (eorV (c.get a) (c.get b))
    pure (c.set x d)
  | .movI d x => pure (c.set (.num x) d)
  | .adr d o => pure (c.set (.rod o) d)
  | .ror d s n => do
    let x ← lft (c.get s).isNum
    pure (c.set (.num (rorW x n)) d)
  | .umov d v h => pure (c.set (.num ((c.v.get v).lane h)) d)
  | .insX v h s => do
    let x ← lft (c.get s).isNum
    pure (c.setV ((c.v.get v).setLane h x) v)
  | .insV v h w k => pure (c.setV ((c.v.get v).setLane h ((c.v.get w).lane k)) v)
  | .eor d a b => pure (c.setV ((c.v.get a).map2 (· ^^^ ·) (c.v.get b)) d)
  | .eor8 d a b => pure (c.setV ⟨(c.v.get a).w0 ^^^ (c.v.get b).w0, 0⟩ d)
  | .bic d a b => pure (c.setV ((c.v.get a).map2 (fun x y => x &&& ~~~y) (c.v.get b)) d)
  | .ext8 d a b => pure (c.setV ⟨(c.v.get a).w1, (c.v.get b).w0⟩ d)
  | .trn1 d a b => pure (c.setV ⟨(c.v.get a).w0, (c.v.get b).w0⟩ d)
  | .trn2 d a b => pure (c.setV ⟨(c.v.get a).w1, (c.v.get b).w1⟩ d)
  | .shl d s n => pure (c.setV ((c.v.get s).map (· <<< n)) d)
  | .sri d s n => pure (c.setV ((c.v.get d).map2 (fun x y => sriW x y n) (c.v.get s)) d)
  | .ldrb d m => do
    let a ← lft (c.adr m)
    let x ← Asm.ld1 a
    lft ((c.set (.num (x.setWidth 64)) d).bump m)
  | .strb s m => do
    let x ← lft (c.get s).byte
    let a ← lft (c.adr m)
    Asm.st1 x a
    lft (c.bump m)

/-! ### Programs -/

/-- An instruction; `L` are the labels. -/
inductive Ins (L : Type) where
  | op (o : Op)
  | b (l : L)
  | bcc (l : L)
  | bne (l : L)
  | ret

/-- A program: the code from a label to the next one, and the constants. -/
structure Prog (L : Type) where
  code : L → List (Ins L)
  rodata : List (BitVec 64)

/-- Run instructions until the function returns; a run without end has no value. -/
def Prog.run {L : Type} (P : Prog L) (is : List (Ins L)) (c : Cpu) : CM Cpu :=
  match is with
  | [] => lft none
  | .op o :: is => do
    let c' ← o.exec P.rodata c
    Prog.run P is c'
  | .b l :: _ => Prog.run P (P.code l) c
  | .bcc l :: is => do
    let k ← lft c.cf
    if k then Prog.run P is c else Prog.run P (P.code l) c
  | .bne l :: is => do
    let z ← lft c.zf
    if z then Prog.run P is c else Prog.run P (P.code l) c
  | .ret :: _ => pure c
partial_fixpoint

/-- Call a function with up to four arguments.  `c` are the registers before the call; the registers which a function has
to preserve are not used by any instruction of the model. -/
def Prog.callC {L : Type} (P : Prog L) (f : L) (c : Cpu) (x0 x1 x2 x3 : Val) : CM Unit := do
  let _ ← P.run (P.code f) { c with x0 := x0, x1 := x1, x2 := x2, x3 := x3 }
  pure ()

end Faest.A64
