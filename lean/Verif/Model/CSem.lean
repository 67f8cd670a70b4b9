/-
The part of C used by the translated code (Model/Gen): memory, pointers, integers, loops and the functions which are
not translated.

A state of the memory is a set of blocks.  A block is made by an allocation function, by the declaration of an array on
the stack or by the caller, and it goes away with `free`, `faest_aligned_free` or at the end of the scope of the array.
Block numbers are never used twice.  The contents of a block are typed.  `none` is undefined behaviour: access through
the null pointer, outside of a block or to a block which is gone, a read of a cell which was not written, freeing
something which was not allocated by the matching function, overlapping `memcpy`, shifts by too much, overflow of `int`,
division by zero, a failing `assert`, a use of a variable without value.

Integers are natural numbers: `uint8_t` is `Byte`, `uint16_t`, `uint32_t` and `uint64_t`/`size_t` are numbers below 2^16,
2^32 and 2^64, an `int` is its 32 bit pattern.  `size_t` has 64 bits and `unsigned int` has 32 bits.
-/
import Verif.Model.Aes
import Verif.Model.UHash
import Verif.Model.Oracle

namespace Faest.C

scoped notation "U32" => 4294967296
scoped notation "U64" => 18446744073709551616

/-- A pointer: block and index of an element. -/
structure Ptr where
  blk : Nat
  off : Nat
deriving DecidableEq

/-- A pointer or `NULL`. -/
abbrev CPtr := Option Ptr

/-- vc.h `tree_t`; a field without value was not assigned. -/
structure TreeC where
  nodes : Option CPtr := none
  numNodes : Option Nat := none
  numLeaves : Option Nat := none

/-- vc.h `vec_com_t`. -/
structure VecComC where
  h : Option CPtr := none
  k : Option CPtr := none
  com : Option CPtr := none
  sd : Option CPtr := none

/-- vc.h `vec_com_rec_t`. -/
structure VecComRecC where
  h : Option CPtr := none
  k : Option CPtr := none
  com : Option CPtr := none
  s : Option CPtr := none

/-- universal_hashing.h `zk_hash_128_ctx` and its variants. -/
structure ZkC (n : Nat) where
  h0 : Option (BF n) := none
  h1 : Option (BF n) := none
  s : Option (BF n) := none
  t : Option (BF 64) := none
  sd : Option CPtr := none

/-- `H0_context_t` etc.: security parameter and absorbed bytes. -/
structure HCtx where
  st : Option (Nat × List Byte) := none

/-- `H0_context_x4_t`. -/
structure HCtx4 where
  st : Option (Nat × List Byte × List Byte × List Byte × List Byte) := none

/-- How a block was made. -/
inductive Kind where
  | stack | heap | aligned | caller
deriving DecidableEq

/-- Contents of a block. -/
inductive Data where
  | bytes (m : Mem Byte)
  | elems (n : Nat) (m : Mem (BF n))
  | ptrs (m : Mem CPtr)
  | coms (m : Mem VecComC)
  | nums (m : Mem Nat)
  | tape (m : Mem (List (Nat × List Byte)))

/-- Element types of blocks. -/
class Ty (α : Type) where
  toData : Mem α → Data
  get : Data → Option (Mem α)
  get_toData : ∀ m, get (toData m) = some m

instance : Ty Byte where
  toData := .bytes
  get | .bytes m => some m
      | _ => none
  get_toData _ := rfl

instance (n : Nat) : Ty (BF n) where
  toData := .elems n
  get | .elems k m => if h : k = n then some (h ▸ m) else none
      | _ => none
  get_toData _ := by simp

instance : Ty CPtr where
  toData := .ptrs
  get | .ptrs m => some m
      | _ => none
  get_toData _ := rfl

instance : Ty VecComC where
  toData := .coms
  get | .coms m => some m
      | _ => none
  get_toData _ := rfl

/-- Objects of type `size_t`. -/
instance : Ty Nat where
  toData := .nums
  get | .nums m => some m
      | _ => none
  get_toData _ := rfl

instance : Ty (List (Nat × List Byte)) where
  toData := .tape
  get | .tape m => some m
      | _ => none
  get_toData _ := rfl

/-- The value whose bytes are all zero. -/
class Zeroed (α : Type) where
  zeroed : α
export Zeroed (zeroed)

instance : Zeroed Byte := ⟨0⟩
instance (n : Nat) : Zeroed (BF n) := ⟨bfZero⟩
instance : Zeroed CPtr := ⟨none⟩
instance : Zeroed VecComC := ⟨⟨some none, some none, some none, some none⟩⟩

/-- A live block. -/
structure Cell where
  kind : Kind
  data : Data

/-- The memory.  `cells i = none` if block `i` is gone or not yet made; `next` is the number of the next block. -/
structure Heap where
  next : Nat
  cells : Nat → Option Cell

/-- Computations. -/
abbrev CM := StateT Heap Option

/-- Change block `i`. -/
def upd (c : Nat → Option Cell) (i : Nat) (x : Option Cell) : Nat → Option Cell := fun j => if j = i then x else c j

/-- A computation which does not touch the memory. -/
def lft {α : Type} (x : Option α) : CM α := fun H => x.map fun a => (a, H)

/-! ### Memory -/

/-- A new block with the given contents. -/
def alloc {α : Type} [Ty α] (k : Kind) (m : Mem α) : CM CPtr := fun H =>
  some (some ⟨H.next, 0⟩, ⟨H.next + 1, upd H.cells H.next (some ⟨k, Ty.toData m⟩)⟩)

/-- `free`, `faest_aligned_free` or the end of the scope of an array, depending on `k`. -/
def cfree (k : Kind) (p : CPtr) : CM Unit := fun H =>
  match p with
  | none => if k = .stack then none else some ((), H)
  | some q =>
    match H.cells q.blk with
    | some c => if c.kind = k ∧ q.off = 0 then some ((), ⟨H.next, upd H.cells q.blk none⟩) else none
    | none => none

/-- The contents of the block of a pointer. -/
def blk {α : Type} [Ty α] (p : Ptr) : CM (Mem α) := fun H =>
  match H.cells p.blk with
  | some c => (Ty.get c.data).map fun m => (m, H)
  | none => none

/-- New contents of the block of a pointer. -/
def put {α : Type} [Ty α] (p : Ptr) (m : Mem α) : CM Unit := fun H =>
  match H.cells p.blk with
  | some c => some ((), ⟨H.next, upd H.cells p.blk (some ⟨c.kind, Ty.toData m⟩)⟩)
  | none => none

/-- `p[i]`. -/
def ld {α : Type} [Ty α] (p : CPtr) (i : Nat) : CM α := do
  let q ← lft p
  let m ← blk q
  lft (rd m (q.off + i))

/-- `p[i] = x`. -/
def st {α : Type} [Ty α] (p : CPtr) (i : Nat) (x : α) : CM Unit := do
  let q ← lft p
  let m ← blk q
  let m' ← lft (wr m (q.off + i) x)
  put q m'

/-- `p[0 .. n-1]`. -/
def ldN {α : Type} [Ty α] (p : CPtr) (n : Nat) : CM (List α) := do
  let q ← lft p
  let m ← blk q
  lft (rdN m q.off n)

/-- Write `p[0 ..]`. -/
def stN {α : Type} [Ty α] (p : CPtr) (l : List α) : CM Unit := do
  let q ← lft p
  let m ← blk q
  let m' ← lft (wrN m q.off l)
  put q m'

/-- `p + k`. -/
def padd (p : CPtr) (k : Nat) : CPtr := p.map fun q => ⟨q.blk, q.off + k⟩

/-- `p - k`. -/
def psub (p : CPtr) (k : Nat) : CPtr := p.bind fun q => if k ≤ q.off then some ⟨q.blk, q.off - k⟩ else none

/-- Two ranges of `n` elements overlap. -/
def overlap (p q : CPtr) (n : Nat) : Bool :=
  match p, q with
  | some a, some b => decide (a.blk = b.blk ∧ a.off < b.off + n ∧ b.off < a.off + n)
  | _, _ => false

/-- `memcpy`, `n` elements. -/
def memcpy {α : Type} [Ty α] (dst src : CPtr) (n : Nat) : CM Unit := do
  let l ← ldN (α := α) src n
  if overlap dst src n = true then lft none else stN dst l

/-- `memmove`, bytes. -/
def memmove (dst src : CPtr) (n : Nat) : CM Unit := do
  let l ← ldN (α := Byte) src n
  stN dst l

/-- `memset(p, 0, n)`. -/
def memset0 (p : CPtr) (n : Nat) : CM Unit := stN p (List.replicate n (0 : Byte))

/-- `memcmp`; only the comparison of the result with zero has a meaning. -/
def memcmp (p q : CPtr) (n : Nat) : CM Nat := do
  let a ← ldN (α := Byte) p n
  let b ← ldN (α := Byte) q n
  pure (if a = b then 0 else 1)

/-! ### Control -/

/-- `assert`. -/
def cassert (b : Bool) : CM Unit := lft (if b = true then some () else none)

/-- A loop which ends within `fuel` iterations. -/
def cwhileF {S : Type} : Nat → (S → Bool) → (S → CM S) → S → CM S
  | 0, _, _, _ => lft none
  | k + 1, c, b, s => if c s = true then b s >>= cwhileF k c b else pure s

/-- `while (c) b`; a loop of more than 2^64 iterations is undefined. -/
def cwhile {S : Type} (c : S → Bool) (b : S → CM S) (s : S) : CM S := cwhileF 18446744073709551616 c b s

/-- Value of a variable or field. -/
def uget {α : Type} (x : Option α) : CM α := lft x

/-- Element of a constant table. -/
def tget (t : List Byte) (i : Nat) : CM Byte := lft (t[i]?)

/-! ### Integers -/

/-- `int` to `uint64_t`. -/
def sext (x : Nat) : Nat := if x < 2147483648 then x else x + (18446744073709551616 - 4294967296)

/-- `a << b` for `int`. -/
def ishl (a b : Nat) : CM Nat := lft (if b < 32 ∧ a <<< b < 2147483648 then some (a <<< b) else none)
/-- `a + b` for `int`. -/
def iadd (a b : Nat) : CM Nat := lft (if a + b < 2147483648 then some (a + b) else none)
/-- `a * b` for `int`. -/
def imul (a b : Nat) : CM Nat := lft (if a * b < 2147483648 then some (a * b) else none)
/-- `a - b` for `int`; a negative result is not supported and taken as undefined. -/
def isub (a b : Nat) : CM Nat := lft (if b ≤ a then some (a - b) else none)
/-- `a << b` for unsigned integers of `w` bits. -/
def cshl (w a b : Nat) : CM Nat := lft (if b < w then some ((a <<< b) % 2 ^ w) else none)
/-- `a >> b` for integers of `w` bits. -/
def cshr (w a b : Nat) : CM Nat := lft (if b < w then some (a >>> b) else none)
/-- `a / b`. -/
def cdiv (a b : Nat) : CM Nat := lft (if b = 0 then none else some (a / b))
/-- `a % b`. -/
def cmod (a b : Nat) : CM Nat := lft (if b = 0 then none else some (a % b))

/-! ### Functions of fields.c (Model/Fields.lean, Model/FieldWords.lean) -/

/-- fields.h:35-37 `bf8_load`. -/
def bf8_load (p : CPtr) : CM Byte := ld p 0
/-- fields.h:39-41 `bf8_store`. -/
def bf8_store (p : CPtr) (x : Byte) : CM Unit := st p 0 x
/-- fields.c:56-68 `bf8_inv`. -/
def bf8_inv (x : Byte) : Byte := (bf8Inv ⟨x⟩).v
/-- fields.h `bf64_load` etc. -/
def bf_load (n : Nat) (p : CPtr) : CM (BF n) := do
  let l ← ldN p (n / 8)
  pure (BF.ofBytes n l)
/-- fields.h `bf64_store` etc. -/
def bf_store {n : Nat} (p : CPtr) (a : BF n) : CM Unit := stN p a.toBytes
/-- fields.c:117-125 `bf128_byte_combine` etc. -/
def bf_byte_combine (n : Nat) (p : CPtr) : CM (BF n) := do
  let l ← ldN (α := BF n) p 8
  lft (byteCombine (ofList l) 0)
/-- fields.c:127-135 `bf128_byte_combine_bits` etc. -/
def bf_byte_combine_bits (n : Nat) (x : Byte) : CM (BF n) := lft (byteCombineBits n x)
/-- fields.c `bf128_sum_poly` etc. -/
def bf_sum_poly (n : Nat) (p : CPtr) : CM (BF n) := do
  let l ← ldN (α := BF n) p n
  lft (bfSumPoly (ofList l))

/-! ### Functions of random_oracle.c (Model/Oracle.lean, Model/RandomOracle.lean) -/

/-- `Hi_init`. -/
def hinit (_ : HCtx) (lambda : Nat) : CM HCtx := pure ⟨some (lambda, [])⟩
/-- `Hi_update`. -/
def hupdate (c : HCtx) (p : CPtr) (n : Nat) : CM HCtx := do
  let s ← lft c.st
  let l ← ldN p n
  pure ⟨some (s.1, s.2 ++ l)⟩

@[inherit_doc hinit] def H0_init := hinit
@[inherit_doc hinit] def H1_init := hinit
@[inherit_doc hinit] def H2_init := hinit
@[inherit_doc hinit] def H3_init := hinit
@[inherit_doc hupdate] def H0_update := hupdate
@[inherit_doc hupdate] def H1_update := hupdate
@[inherit_doc hupdate] def H2_update := hupdate
@[inherit_doc hupdate] def H3_update := hupdate

/-- random_oracle.c:25-32 `H0_final`; the context has no value afterwards. -/
def H0_final (X : XOF) (c : HCtx) (seed : CPtr) (seedLen : Nat) (com : CPtr) (comLen : Nat) : CM HCtx := do
  let s ← lft c.st
  let r := H0 X s.1 s.2 seedLen comLen
  stN seed r.1
  stN com r.2
  pure {}
/-- random_oracle.c:62-67 `H1_final`. -/
def H1_final (X : XOF) (c : HCtx) (p : CPtr) (n : Nat) : CM HCtx := do
  let s ← lft c.st
  stN p (H1 X s.1 s.2 n)
  pure {}
/-- random_oracle.c:78-83 `H2_final`. -/
def H2_final (X : XOF) (c : HCtx) (p : CPtr) (n : Nat) : CM HCtx := do
  let s ← lft c.st
  stN p (H2 X s.1 s.2 n)
  pure {}
/-- random_oracle.c:94-100 `H3_final`. -/
def H3_final (X : XOF) (c : HCtx) (p : CPtr) (n : Nat) (iv : CPtr) : CM HCtx := do
  let s ← lft c.st
  let r := H3 X s.1 s.2 n
  stN p r.1
  stN iv r.2
  pure {}

/-- random_oracle.c:34-37 `H0_x4_init`. -/
def H0_x4_init (_ : HCtx4) (lambda : Nat) : CM HCtx4 := pure ⟨some (lambda, [], [], [], [])⟩
/-- random_oracle.c:39-42 `H0_x4_update`. -/
def H0_x4_update (c : HCtx4) (p0 p1 p2 p3 : CPtr) (n : Nat) : CM HCtx4 := do
  let s ← lft c.st
  let l0 ← ldN p0 n
  let l1 ← ldN p1 n
  let l2 ← ldN p2 n
  let l3 ← ldN p3 n
  pure ⟨some (s.1, s.2.1 ++ l0, s.2.2.1 ++ l1, s.2.2.2.1 ++ l2, s.2.2.2.2 ++ l3)⟩
/-- random_oracle.c:44-51 `H0_x4_final`. -/
def H0_x4_final (X : XOF) (c : HCtx4) (sd0 sd1 sd2 sd3 : CPtr) (seedLen : Nat) (com0 com1 com2 com3 : CPtr)
    (comLen : Nat) : CM HCtx4 := do
  let s ← lft c.st
  let r := H0x4 X s.1 (fun i => if i = 0 then s.2.1 else if i = 1 then s.2.2.1 else if i = 2 then s.2.2.2.1
    else s.2.2.2.2) seedLen comLen
  stN sd0 (r 0).1
  stN sd1 (r 1).1
  stN sd2 (r 2).1
  stN sd3 (r 3).1
  stN com0 (r 0).2
  stN com1 (r 1).2
  stN com2 (r 2).2
  stN com3 (r 3).2
  pure {}

/-! ### randomness.c (Model/Randomness.lean) -/

/-- randomness.h `rand_bytes`.  The object at `R` holds what the calls are going to do: the returned value and the bytes
which are stored, in order from the start of the destination. -/
def rand_bytes (R : CPtr) (dst : CPtr) (n : Nat) : CM Nat := do
  let t : List (Nat × List Byte) ← ld R 0
  let e ← lft t.head?
  st R 0 t.tail
  stN dst (e.2.take n)
  pure e.1

end Faest.C
