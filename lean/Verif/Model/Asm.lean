/-
The part of the x86-64 instruction set which sha3/avx2/KeccakP-1600-AVX2.s uses (Verif/Model/Gen/KeccakAsm.lean).

A general register holds a number, an address in a block of the C memory, an address in the table of constants at the end
of the file, or only its low byte is known.  An operation which would need the number behind an address is undefined
(`none`), as is one on the unknown part of a register.  A vector register is four words of 64 bits (`V256`).  Of the flags
there are ZF and CF; a flag which the manual leaves undefined, or which is not modelled, has no value and cannot be tested.
The stack holds saved registers and return addresses; a return address is the code which follows the call.  Memory is
that of the C code; accesses outside of a block are undefined.  The operations are those of the Intel manual; the order of
the operands is that of the assembler (the destination is the last one).
-/
import Verif.Model.CVec

namespace Faest.Asm
open Faest.C

inductive Reg where
  | rax | rbx | rcx | rdx | rsi | rdi | r8 | r9 | r10
deriving DecidableEq

inductive Vec where
  | y0 | y1 | y2 | y3 | y4 | y5 | y6 | y7 | y8 | y9 | y10 | y11 | y12 | y13 | y14 | y15
deriving DecidableEq

/-- Contents of a general register. -/
inductive Val where
  /-- a number -/
  | num (x : BitVec 64)
  /-- an address: block and offset -/
  | ptr (b : Nat) (o : Int)
  /-- an address in the table of constants -/
  | rod (o : Int)
  /-- the low byte of something unknown -/
  | low (x : Byte)
deriving DecidableEq

/-- The vector registers. -/
structure VFile where
  (y0 y1 y2 y3 y4 y5 y6 y7 y8 y9 y10 y11 y12 y13 y14 y15 : V256)

/-- The registers. -/
structure Cpu where
  (rax rbx rcx rdx rsi rdi r8 r9 r10 : Val)
  zf : Option Bool
  cf : Option Bool
  v : VFile

/-- All registers zero. -/
def Cpu.zero : Cpu :=
  ⟨.num 0, .num 0, .num 0, .num 0, .num 0, .num 0, .num 0, .num 0, .num 0, none, none,
    ⟨⟨0, 0, 0, 0⟩, ⟨0, 0, 0, 0⟩, ⟨0, 0, 0, 0⟩, ⟨0, 0, 0, 0⟩, ⟨0, 0, 0, 0⟩, ⟨0, 0, 0, 0⟩, ⟨0, 0, 0, 0⟩, ⟨0, 0, 0, 0⟩,
      ⟨0, 0, 0, 0⟩, ⟨0, 0, 0, 0⟩, ⟨0, 0, 0, 0⟩, ⟨0, 0, 0, 0⟩, ⟨0, 0, 0, 0⟩, ⟨0, 0, 0, 0⟩, ⟨0, 0, 0, 0⟩, ⟨0, 0, 0, 0⟩⟩⟩

def Cpu.get (c : Cpu) : Reg → Val
  | .rax => c.rax | .rbx => c.rbx | .rcx => c.rcx | .rdx => c.rdx | .rsi => c.rsi | .rdi => c.rdi
  | .r8 => c.r8 | .r9 => c.r9 | .r10 => c.r10

def Cpu.set (c : Cpu) (x : Val) : Reg → Cpu
  | .rax => { c with rax := x } | .rbx => { c with rbx := x } | .rcx => { c with rcx := x }
  | .rdx => { c with rdx := x } | .rsi => { c with rsi := x } | .rdi => { c with rdi := x }
  | .r8 => { c with r8 := x } | .r9 => { c with r9 := x } | .r10 => { c with r10 := x }

def VFile.get (v : VFile) : Vec → V256
  | .y0 => v.y0 | .y1 => v.y1 | .y2 => v.y2 | .y3 => v.y3 | .y4 => v.y4 | .y5 => v.y5 | .y6 => v.y6 | .y7 => v.y7
  | .y8 => v.y8 | .y9 => v.y9 | .y10 => v.y10 | .y11 => v.y11 | .y12 => v.y12 | .y13 => v.y13 | .y14 => v.y14
  | .y15 => v.y15

def VFile.set (v : VFile) (x : V256) : Vec → VFile
  | .y0 => { v with y0 := x } | .y1 => { v with y1 := x } | .y2 => { v with y2 := x } | .y3 => { v with y3 := x }
  | .y4 => { v with y4 := x } | .y5 => { v with y5 := x } | .y6 => { v with y6 := x } | .y7 => { v with y7 := x }
  | .y8 => { v with y8 := x } | .y9 => { v with y9 := x } | .y10 => { v with y10 := x } | .y11 => { v with y11 := x }
  | .y12 => { v with y12 := x } | .y13 => { v with y13 := x } | .y14 => { v with y14 := x } | .y15 => { v with y15 := x }

def Cpu.flags (c : Cpu) (z k : Option Bool) : Cpu := { c with zf := z, cf := k }
def Cpu.setV (c : Cpu) (x : V256) (d : Vec) : Cpu := { c with v := c.v.set x d }

/-! ### Operands -/

/-- `disp(base)`, `disp(base,index)` or `symbol+disp(%rip)`, the symbol as its place in the table of constants. -/
inductive Adr where
  | base (d : Int) (r : Reg)
  | baseIdx (d : Int) (r i : Reg)
  | rip (o : Int)

inductive Src where
  | reg (r : Reg)
  | imm (x : BitVec 64)
  | mem (a : Adr)

inductive VSrc where
  | reg (v : Vec)
  | mem (a : Adr)

/-- The address `x + d`. -/
def Val.off : Val → Int → Option Val
  | .num x, d => some (.num (x + BitVec.ofInt 64 d))
  | .ptr b o, d => some (.ptr b (o + d))
  | .rod o, d => some (.rod (o + d))
  | .low _, _ => none

/-- Sum of two registers: at most one of them is an address. -/
def Val.add : Val → Val → Option Val
  | x, .num y => x.off y.toInt
  | .num x, y => y.off x.toInt
  | _, _ => none

def Cpu.adr (c : Cpu) : Adr → Option Val
  | .base d r => (c.get r).off d
  | .baseIdx d r i => ((c.get r).add (c.get i)).bind (·.off d)
  | .rip o => some (.rod o)

/-- Load 8 bytes; the constants `T` are words of 8 bytes. -/
def ld8 (T : List (BitVec 64)) : Val → CM (BitVec 64)
  | .ptr b o => if 0 ≤ o then ld64 (some ⟨b, o.toNat⟩) 0 else lft none
  | .rod o => if 0 ≤ o ∧ o % 8 = 0 then lft T[o.toNat / 8]? else lft none
  | _ => lft none

/-- Store 8 bytes; the constants cannot be written. -/
def st8 (x : BitVec 64) : Val → CM Unit
  | .ptr b o => if 0 ≤ o then st64 (some ⟨b, o.toNat⟩) 0 x else lft none
  | _ => lft none

/-- Load a byte. -/
def ld1 : Val → CM Byte
  | .ptr b o => if 0 ≤ o then ld (some ⟨b, o.toNat⟩) 0 else lft none
  | _ => lft none

/-- Store a byte. -/
def st1 (x : Byte) : Val → CM Unit
  | .ptr b o => if 0 ≤ o then st (some ⟨b, o.toNat⟩) 0 x else lft none
  | _ => lft none

/-- Load 8 bytes at `a + d`. -/
def ld8o (T : List (BitVec 64)) (a : Val) (d : Int) : CM (BitVec 64) := do
  let a ← lft (a.off d)
  ld8 T a

def st8o (x : BitVec 64) (a : Val) (d : Int) : CM Unit := do
  let a ← lft (a.off d)
  st8 x a

/-- Load 32 bytes. -/
def ld32 (T : List (BitVec 64)) (a : Val) : CM V256 := do
  let w0 ← ld8o T a 0
  let w1 ← ld8o T a 8
  let w2 ← ld8o T a 16
  let w3 ← ld8o T a 24
  pure ⟨w0, w1, w2, w3⟩

/-- Store 32 bytes. -/
def st32 (x : V256) (a : Val) : CM Unit := do
  st8o x.w0 a 0
  st8o x.w1 a 8
  st8o x.w2 a 16
  st8o x.w3 a 24

/-- An aligned address in the table of constants, which begins at a multiple of 64 (KeccakP-1600-AVX2.s:1062).  Where the
blocks of the C memory begin is not known. -/
def aligned (n : Int) : Val → Bool
  | .rod o => decide (o % n = 0)
  | _ => false

def Val.isNum : Val → Option (BitVec 64)
  | .num x => some x
  | _ => none

/-- The low byte of a register. -/
def Val.byte : Val → Option Byte
  | .num x => some (x.setWidth 8)
  | .low x => some x
  | _ => none

/-- A register after its low byte was written. -/
def Val.setByte : Val → Byte → Val
  | .num x, b => .num ((x &&& ~~~(255 : BitVec 64)) ||| b.setWidth 64)
  | _, b => .low b

def Src.val (T : List (BitVec 64)) (c : Cpu) : Src → CM Val
  | .reg r => pure (c.get r)
  | .imm x => pure (.num x)
  | .mem a => do
    let a ← lft (c.adr a)
    let x ← ld8 T a
    pure (.num x)

def VSrc.val (T : List (BitVec 64)) (c : Cpu) : VSrc → CM V256
  | .reg r => pure (c.v.get r)
  | .mem a => do
    let a ← lft (c.adr a)
    ld32 T a

/-! ### Vectors -/

/-- 32 bits of a word. -/
def dw (x : BitVec 64) (h : Bool) : BitVec 32 := if h then (x >>> 32).setWidth 32 else x.setWidth 32
/-- A word of two halves. -/
def mkq (lo hi : BitVec 32) : BitVec 64 := hi ++ lo

/-- Word `i mod 4`. -/
def V256.nth (a : V256) (i : Nat) : BitVec 64 :=
  match i % 4 with
  | 0 => a.w0
  | 1 => a.w1
  | 2 => a.w2
  | _ => a.w3

/-- 32 bits number `i mod 4` of two words. -/
def dnth (x y : BitVec 64) (i : Nat) : BitVec 32 := if i / 2 % 2 = 0 then dw x (i % 2 = 1) else dw y (i % 2 = 1)

/-- vpshufd, half a vector -/
def shufdH (k : Nat) (x y : BitVec 64) : BitVec 64 × BitVec 64 :=
  (mkq (dnth x y k) (dnth x y (k / 4)), mkq (dnth x y (k / 16)) (dnth x y (k / 64)))
/-- vpshufd -/
def vshufd (k : Nat) (a : V256) : V256 :=
  ⟨(shufdH k a.w0 a.w1).1, (shufdH k a.w0 a.w1).2, (shufdH k a.w2 a.w3).1, (shufdH k a.w2 a.w3).2⟩
/-- vpermq -/
def vpermq (k : Nat) (a : V256) : V256 := ⟨V256.nth a k, V256.nth a (k / 4), V256.nth a (k / 16), V256.nth a (k / 64)⟩
/-- vpblendd, one word: bits 0 and 1 of `k` take the halves of `b` -/
def blendW (k : Nat) (a b : BitVec 64) : BitVec 64 :=
  match k % 4 with
  | 0 => a
  | 1 => mkq (dw b false) (dw a true)
  | 2 => mkq (dw a false) (dw b true)
  | _ => b
/-- vpblendd -/
def vblendd (k : Nat) (b a : V256) : V256 :=
  ⟨blendW k a.w0 b.w0, blendW (k / 4) a.w1 b.w1, blendW (k / 16) a.w2 b.w2, blendW (k / 64) a.w3 b.w3⟩
/-- vpsllvq, the counts first -/
def vsllv (n a : V256) : V256 := a.map2 (fun x k => x <<< k.toNat) n
/-- vpsrlvq, the counts first -/
def vsrlv (n a : V256) : V256 := a.map2 (fun x k => x >>> k.toNat) n
/-- vpcmpeqd, one word -/
def cmpW (x y : BitVec 64) : BitVec 64 :=
  mkq (if dw x false = dw y false then BitVec.allOnes 32 else 0) (if dw x true = dw y true then BitVec.allOnes 32 else 0)
/-- vzeroupper -/
def V256.lowHalf (a : V256) : V256 := ⟨a.w0, a.w1, 0, 0⟩
def VFile.zeroUpper (v : VFile) : VFile :=
  ⟨V256.lowHalf v.y0, V256.lowHalf v.y1, V256.lowHalf v.y2, V256.lowHalf v.y3, V256.lowHalf v.y4, V256.lowHalf v.y5,
    V256.lowHalf v.y6, V256.lowHalf v.y7, V256.lowHalf v.y8, V256.lowHalf v.y9, V256.lowHalf v.y10, V256.lowHalf v.y11,
    V256.lowHalf v.y12, V256.lowHalf v.y13, V256.lowHalf v.y14, V256.lowHalf v.y15⟩

/-- vpgatherdq, one word: load if the top bit of the mask is set -/
def gatherW (T : List (BitVec 64)) (m : BitVec 64) (a : Val) (i : BitVec 32) (x : BitVec 64) : CM (BitVec 64) :=
  if m.msb then ld8o T a i.toInt else pure x

/-! ### Operations -/

inductive Op where
  | mov (s : Src) (d : Reg)
  | movSt (s : Src) (d : Adr)
  | movLd1 (s : Adr) (d : Reg)
  | movSt1 (s : Reg) (d : Adr)
  | mov32 (x : BitVec 32) (d : Reg)
  | lea (s : Adr) (d : Reg)
  | add (s : Src) (d : Reg)
  | sub (s : Src) (d : Reg)
  | cmp (s : Src) (d : Reg)
  | and (x : BitVec 64) (d : Reg)
  | and32 (x : BitVec 32) (d : Reg)
  | xorSt (s : Reg) (d : Adr)
  | xorSt1 (s : Reg) (d : Adr)
  | cmovae (s d : Reg)
  | inc (d : Reg)
  | dec (d : Reg)
  | dec32 (d : Reg)
  | shr (n : Nat) (d : Reg)
  | vmovdqu (s : Adr) (d : Vec)
  | vmovdquSt (s : Vec) (d : Adr)
  | vmovdqa (s : Adr) (d : Vec)
  | vmovdqaX (s : Adr) (d : Vec)
  | vmovqSt (s : Vec) (d : Adr)
  | vpbroadcastq (s : Adr) (d : Vec)
  | vpxor (s : VSrc) (a d : Vec)
  | vpor (s a d : Vec)
  | vpandn (s a d : Vec)
  | vpaddq (s a d : Vec)
  | vpcmpeqd (s a d : Vec)
  | vpsrlq (n : Nat) (a d : Vec)
  | vpsllvq (s : Adr) (a d : Vec)
  | vpsrlvq (s : Adr) (a d : Vec)
  | vpsrldq8 (a d : Vec)
  | vpshufd (k : Nat) (a d : Vec)
  | vpermq (k : Nat) (a d : Vec)
  | vpblendd (k : Nat) (s a d : Vec)
  | vpgatherdq (m : Vec) (b : Reg) (i : Vec) (d : Vec)
  | vzeroupper

/-- `add`, with ZF and CF. -/
def addV : Val → Val → Option (Val × Option Bool × Option Bool)
  | .num x, .num y => some (.num (x + y), some (x + y == 0), some (decide (2 ^ 64 ≤ x.toNat + y.toNat)))
  | x, y => (x.add y).map fun z => (z, none, none)

/-- `x - y`, with ZF and CF; the difference of two addresses in the same block is a number. -/
def subV : Val → Val → Option (Val × Option Bool × Option Bool)
  | .num x, .num y => some (.num (x - y), some (x == y), some (decide (x.toNat < y.toNat)))
  | .ptr b o, .ptr b' o' => if b = b' then some (.num (BitVec.ofInt 64 (o - o')), none, none) else none
  | x, .num y => (x.off (-y.toInt)).map fun z => (z, none, none)
  | _, _ => none

/-- `inc` and `dec`: the sum and ZF; CF keeps its value. -/
def incV : Val → Int → Option (Val × Option Bool)
  | .num x, d => some (.num (x + BitVec.ofInt 64 d), some (x + BitVec.ofInt 64 d == 0))
  | x, d => (x.off d).map fun z => (z, none)

def Op.exec (T : List (BitVec 64)) (c : Cpu) : Op → CM Cpu
  | .mov s d => do
    let x ← s.val T c
    pure (c.set x d)
  | .movSt s d => do
    let x ← s.val T c
    let x ← lft x.isNum
    let a ← lft (c.adr d)
    st8 x a
    pure c
  | .movLd1 s d => do
    let a ← lft (c.adr s)
    let x ← ld1 a
    pure (c.set ((c.get d).setByte x) d)
  | .movSt1 s d => do
    let x ← lft (c.get s).byte
    let a ← lft (c.adr d)
    st1 x a
    pure c
  | .mov32 x d => pure (c.set (.num (x.setWidth 64)) d)
  | .lea s d => do
    let a ← lft (c.adr s)
    pure (c.set a d)
  | .add s d => do
    let x ← s.val T c
    let r ← lft (addV (c.get d) x)
    pure ((c.set r.1 d).flags r.2.1 r.2.2)
  | .sub s d => do
    let x ← s.val T c
    let r ← lft (subV (c.get d) x)
    pure ((c.set r.1 d).flags r.2.1 r.2.2)
  | .cmp s d => do
    let x ← s.val T c
    let r ← lft (subV (c.get d) x)
    pure (c.flags r.2.1 r.2.2)
  | .and x d => do
    let y ← lft (c.get d).isNum
    pure ((c.set (.num (y &&& x)) d).flags (some (y &&& x == 0)) (some false))
  | .and32 x d => do
    let y ← lft (c.get d).isNum
    let z : BitVec 32 := y.setWidth 32 &&& x
    pure ((c.set (.num (z.setWidth 64)) d).flags (some (z == 0)) (some false))
  | .xorSt s d => do
    let x ← lft (c.get s).isNum
    let a ← lft (c.adr d)
    let y ← ld8 T a
    st8 (y ^^^ x) a
    pure (c.flags (some (y ^^^ x == 0)) (some false))
  | .xorSt1 s d => do
    let x ← lft (c.get s).byte
    let a ← lft (c.adr d)
    let y ← ld1 a
    st1 (y ^^^ x) a
    pure (c.flags (some (y ^^^ x == 0)) (some false))
  | .cmovae s d => do
    let k ← lft c.cf
    pure (if k then c else c.set (c.get s) d)
  | .inc d => do
    let r ← lft (incV (c.get d) 1)
    pure ((c.set r.1 d).flags r.2 c.cf)
  | .dec d => do
    let r ← lft (incV (c.get d) (-1))
    pure ((c.set r.1 d).flags r.2 c.cf)
  | .dec32 d => do
    let y ← lft (c.get d).isNum
    let z : BitVec 32 := y.setWidth 32 - 1
    pure ((c.set (.num (z.setWidth 64)) d).flags (some (z == 0)) c.cf)
  | .shr n d => do
    let y ← lft (c.get d).isNum
    pure ((c.set (.num (y >>> n)) d).flags none none)
  | .vmovdqu s d => do
    let a ← lft (c.adr s)
    let x ← ld32 T a
    pure (c.setV x d)
  | .vmovdquSt s d => do
    let a ← lft (c.adr d)
    st32 (c.v.get s) a
    pure c
  | .vmovdqa s d => do
    let a ← lft (c.adr s)
    cassert (aligned 32 a)
    let x ← ld32 T a
    pure (c.setV x d)
  | .vmovdqaX s d => do
    let a ← lft (c.adr s)
    cassert (aligned 16 a)
    let x ← ld8o T a 0
    let y ← ld8o T a 8
    pure (c.setV ⟨x, y, 0, 0⟩ d)
  | .vmovqSt s d => do
    let a ← lft (c.adr d)
    st8 (c.v.get s).w0 a
    pure c
  | .vpbroadcastq s d => do
    let a ← lft (c.adr s)
    let x ← ld8 T a
    pure (c.setV ⟨x, x, x, x⟩ d)
  | .vpxor s a d => do
    let x ← s.val T c
    pure (c.setV ((c.v.get a).map2 (· ^^^ ·) x) d)
  | .vpor s a d => pure (c.setV ((c.v.get a).map2 (· ||| ·) (c.v.get s)) d)
  | .vpandn s a d => pure (c.setV ((c.v.get a).map2 (fun x y => ~~~x &&& y) (c.v.get s)) d)
  | .vpaddq s a d => pure (c.setV ((c.v.get a).map2 (· + ·) (c.v.get s)) d)
  | .vpcmpeqd s a d => pure (c.setV ((c.v.get a).map2 cmpW (c.v.get s)) d)
  | .vpsrlq n a d => pure (c.setV ((c.v.get a).map (· >>> n)) d)
  | .vpsllvq s a d => do
    let b ← lft (c.adr s)
    let n ← ld32 T b
    pure (c.setV (vsllv n (c.v.get a)) d)
  | .vpsrlvq s a d => do
    let b ← lft (c.adr s)
    let n ← ld32 T b
    pure (c.setV (vsrlv n (c.v.get a)) d)
  | .vpsrldq8 a d => pure (c.setV ⟨(c.v.get a).w1, 0, (c.v.get a).w3, 0⟩ d)
  | .vpshufd k a d => pure (c.setV (vshufd k (c.v.get a)) d)
  | .vpermq k a d => pure (c.setV (Asm.vpermq k (c.v.get a)) d)
  | .vpblendd k s a d => pure (c.setV (vblendd k (c.v.get s) (c.v.get a)) d)
  | .vpgatherdq m b i d => do
    let k := c.v.get m
    let j := c.v.get i
    let x := c.v.get d
    let w0 ← gatherW T k.w0 (c.get b) (dw j.w0 false) x.w0
    let w1 ← gatherW T k.w1 (c.get b) (dw j.w0 true) x.w1
    let w2 ← gatherW T k.w2 (c.get b) (dw j.w1 false) x.w2
    let w3 ← gatherW T k.w3 (c.get b) (dw j.w1 true) x.w3
    pure ((c.setV ⟨w0, w1, w2, w3⟩ d).setV ⟨0, 0, 0, 0⟩ m)
  | .vzeroupper => pure { c with v := c.v.zeroUpper }

/-! ### Programs -/

/-- An instruction; `L` are the labels. -/
inductive Ins (L : Type) where
  | op (o : Op)
  | jmp (l : L)
  | jz (l : L)
  | jnz (l : L)
  | jc (l : L)
  | jnc (l : L)
  | push (r : Reg)
  | pop (r : Reg)
  | call (l : L)
  | ret

/-- A cell of the stack. -/
inductive Slot (L : Type) where
  | val (x : Val)
  | ret (k : List (Ins L))

/-- A program: the code from a label to the next one, and the constants. -/
structure Prog (L : Type) where
  code : L → List (Ins L)
  rodata : List (BitVec 64)

/-- Run instructions until the function which was called from C returns; a run without end has no value. -/
def Prog.run {L : Type} (P : Prog L) (is : List (Ins L)) (st : List (Slot L)) (c : Cpu) : CM Cpu :=
  match is with
  | [] => lft none
  | .op o :: is => do
    let c' ← o.exec P.rodata c
    Prog.run P is st c'
  | .jmp l :: _ => Prog.run P (P.code l) st c
  | .jz l :: is => do
    let b ← lft c.zf
    if b then Prog.run P (P.code l) st c else Prog.run P is st c
  | .jnz l :: is => do
    let b ← lft c.zf
    if b then Prog.run P is st c else Prog.run P (P.code l) st c
  | .jc l :: is => do
    let b ← lft c.cf
    if b then Prog.run P (P.code l) st c else Prog.run P is st c
  | .jnc l :: is => do
    let b ← lft c.cf
    if b then Prog.run P is st c else Prog.run P (P.code l) st c
  | .push r :: is => Prog.run P is (.val (c.get r) :: st) c
  | .pop r :: is =>
    match st with
    | .val x :: st => Prog.run P is st (c.set x r)
    | _ => lft none
  | .call l :: is => Prog.run P (P.code l) (.ret is :: st) c
  | .ret :: _ =>
    match st with
    | [] => pure c
    | .ret k :: st => Prog.run P k st c
    | _ => lft none
partial_fixpoint

/-! ### Calls from C -/

/-- A pointer as an argument. -/
def argP : CPtr → Val
  | some p => .ptr p.blk p.off
  | none => .num 0

/-- An integer as an argument.  The registers are taken to be zero above the bits of the type; the calling convention does
not promise this for `unsigned int`. -/
def argN (n : Nat) : Val := .num (BitVec.ofNat 64 n)

/-- Call a function with up to four arguments.  `c` are the registers before the call; the function has to leave `rbx` as
it was (System V AMD64 ABI; the other registers which a function has to preserve are not used). -/
def Prog.callC {L : Type} (P : Prog L) (f : L) (c : Cpu) (rdi rsi rdx rcx : Val) : CM Cpu := do
  let c' ← P.run (P.code f) [] { c with rdi := rdi, rsi := rsi, rdx := rdx, rcx := rcx }
  cassert (decide (c'.rbx = c.rbx))
  pure c'

end Faest.Asm
