/-
What is assumed of liboqs (oqs/sha3.h, oqs/sha3x4.h) in C73.
-/
import Verif.Model.Oqs
import Verif.Proofs.Gen.HashTop

namespace Faest.Spec.Oqs
open Faest.C Faest.Props
open Spec.Keccak (shakeX)

/-- No block from `next` on is in use. -/
def Fresh (H : C.Heap) : Prop := ∀ i, H.next ≤ i → H.cells i = none

/-- From the memory `H` the call `p` returns `a` and leaves the blocks `M`. -/
def Does {α : Type} (H : C.Heap) (p : CM α) (a : α) (M : Nat → Option Cell) : Prop :=
  ∃ H', p H = some (a, H') ∧ H'.cells = M ∧ Fresh H'

/-- A block which the library has allocated. -/
def own (m : Mem Byte) : Option Cell := some ⟨.heap, .bytes m⟩

/-- The argument of SHAKE128 and SHAKE256 in Spec/Keccak.lean. -/
def sel (w : Bool) : Nat := if w then 256 else 128

/-- Bytes `p`, …, `p + n - 1` of the output for the input `l`. -/
def bytes (w : Bool) (l : List Byte) (p n : Nat) : List Byte := tabP n fun j => shakeX (sel w) l (p + j)

/-- `n` bytes at `q` and `n` bytes at `q'` have none in common. -/
def Sep (n : Nat) (q q' : Ptr) : Prop := q.blk = q'.blk → q.off + n ≤ q'.off ∨ q'.off + n ≤ q.off

/-- The incremental functions of liboqs compute SHAKE of FIPS 202.  A context is in one block of its own, from `init` to
`ctx_release`.  `absorb` may be called before `finalize` only, `squeeze` after it only, `ctx_release` after `finalize`.  Nothing is
said about any other use. -/
structure Works (L : Faest.Oqs.Lib) where
  /-- the block of a context which has taken in a string -/
  mem : Bool → List Byte → Mem Byte
  /-- the block of a context which was closed after taking in a string and has given out so many bytes -/
  out : Bool → List Byte → Nat → Mem Byte
  mem4 : Bool → List Byte → List Byte → List Byte → List Byte → Mem Byte
  out4 : Bool → List Byte → List Byte → List Byte → List Byte → Nat → Mem Byte
  init : ∀ w H, Fresh H → ∃ b, H.cells b = none ∧ Does H (L.init w) (some ⟨b, 0⟩) (upd H.cells b (own (mem w [])))
  absorb : ∀ w H b l p k, Fresh H → H.cells b = own (mem w l) → BytesAt H p k → Apart p b →
    Does H (L.absorb w (some ⟨b, 0⟩) p k.length) () (upd H.cells b (own (mem w (l ++ k))))
  finalize : ∀ w H b l, Fresh H → H.cells b = own (mem w l) → Does H (L.finalize w (some ⟨b, 0⟩)) () (upd H.cells b (own (out w l 0)))
  squeeze : ∀ w H b l p q n, Fresh H → H.cells b = own (out w l p) → Room H q n → q.blk ≠ b →
    Does H (L.squeeze w (some q) n (some ⟨b, 0⟩)) () (upd (store H.cells q (bytes w l p n)) b (own (out w l (p + n))))
  release : ∀ w H b l p, Fresh H → H.cells b = own (out w l p) → Does H (L.release w (some ⟨b, 0⟩)) () (upd H.cells b none)
  init4 : ∀ w H, Fresh H → ∃ b, H.cells b = none ∧ Does H (L.init4 w) (some ⟨b, 0⟩) (upd H.cells b (own (mem4 w [] [] [] [])))
  absorb4 : ∀ w H b l0 l1 l2 l3 p0 p1 p2 p3 k0 k1 k2 k3 n, Fresh H → H.cells b = own (mem4 w l0 l1 l2 l3) →
    k0.length = n → k1.length = n → k2.length = n → k3.length = n →
    BytesAt H p0 k0 → BytesAt H p1 k1 → BytesAt H p2 k2 → BytesAt H p3 k3 → Apart p0 b → Apart p1 b → Apart p2 b → Apart p3 b →
    Does H (L.absorb4 w (some ⟨b, 0⟩) p0 p1 p2 p3 n) () (upd H.cells b (own (mem4 w (l0 ++ k0) (l1 ++ k1) (l2 ++ k2) (l3 ++ k3))))
  finalize4 : ∀ w H b l0 l1 l2 l3, Fresh H → H.cells b = own (mem4 w l0 l1 l2 l3) →
    Does H (L.finalize4 w (some ⟨b, 0⟩)) () (upd H.cells b (own (out4 w l0 l1 l2 l3 0)))
  squeeze4 : ∀ w H b l0 l1 l2 l3 p q0 q1 q2 q3 n, Fresh H → H.cells b = own (out4 w l0 l1 l2 l3 p) →
    Room H q0 n → Room H q1 n → Room H q2 n → Room H q3 n → q0.blk ≠ b → q1.blk ≠ b → q2.blk ≠ b → q3.blk ≠ b →
    Sep n q0 q1 → Sep n q0 q2 → Sep n q0 q3 → Sep n q1 q2 → Sep n q1 q3 → Sep n q2 q3 →
    Does H (L.squeeze4 w (some q0) (some q1) (some q2) (some q3) n (some ⟨b, 0⟩)) ()
      (upd (store (store (store (store H.cells q0 (bytes w l0 p n)) q1 (bytes w l1 p n)) q2 (bytes w l2 p n)) q3 (bytes w l3 p n)) b
        (own (out4 w l0 l1 l2 l3 (p + n))))
  release4 : ∀ w H b l0 l1 l2 l3 p, Fresh H → H.cells b = own (out4 w l0 l1 l2 l3 p) →
    Does H (L.release4 w (some ⟨b, 0⟩)) () (upd H.cells b none)

end Faest.Spec.Oqs
