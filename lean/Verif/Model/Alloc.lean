/-
Aligned allocation: compat.c:45-109, the branches for `posix_memalign` and for plain `malloc`.

Addresses and sizes are `BitVec w`, `w` the width of `size_t` and `uintptr_t`.  What the system's allocator does is a
parameter.
-/
import Verif.Model.Basic
import Verif.Model.Params

namespace Faest.Alloc

/-- compat.c:47: `alignment & (alignment - 1) || size & (alignment - 1)`. -/
def badArgs {w : Nat} (alignment size : BitVec w) : Bool :=
  (alignment &&& (alignment - 1)) != 0 || (size &&& (alignment - 1)) != 0

/-- compat.c:52-66, branch `HAVE_POSIX_MEMALIGN`, `vp` is `sizeof(void*)`: the arguments of `posix_memalign`, or
`none` if NULL is returned before the call. -/
def memalignArgs {w : Nat} (vp alignment size : BitVec w) : Option (BitVec w × BitVec w) :=
  if badArgs alignment size then none
  else if alignment < vp then some (vp, (size + vp - 1) &&& ~~~(vp - 1))
  else some (alignment, size)

/-- What `faest_aligned_alloc` does: NULL without an allocation, NULL after `malloc(n)` (which failed, or whose block
was freed again), or the block of `malloc(n)` at an address, its contents, and the returned pointer. -/
inductive Res (w : Nat) where
  | null
  | nullAfter (n : BitVec w)
  | block (n base : BitVec w) (mem : Mem Byte) (ptr : BitVec w)

/-- compat.c:78: the argument of `malloc`. -/
def mallocSize {w : Nat} (alignment size : BitVec w) : BitVec w := size + (alignment - 1 + 1)

/-- compat.c:45-94, last branch; `sys n` is the result of `malloc(n)`.  The outer `Option` is the usual one: writing
`ptr[-1]` outside the block is undefined. -/
def alignedAlloc {w : Nat} (sys : BitVec w → Option (BitVec w)) (alignment size : BitVec w) : Option (Res w) :=
  if badArgs alignment size then some .null
  else if size = 0 then some .null
  else
    let offset := alignment - 1 + 1
    match sys (size + offset) with
    | none => some (.nullAfter (size + offset))
    | some buffer =>
      let ptr := (buffer + offset) &&& ~~~(alignment - 1)
      -- the difference of two pointers into the block
      let diff : Int := (ptr.toNat : Int) - buffer.toNat
      if diff > 255 then some (.nullAfter (size + offset))
      else if diff < 1 then none
      else do
        let m ← wr (malloc (size + offset).toNat) (diff.toNat - 1) (BitVec.ofNat 8 diff.toNat)
        pure (.block (size + offset) buffer m ptr)

/-- compat.c:104-107: the pointer passed to `free`, for a pointer `ptr` into the block `mem` at `base`. -/
def alignedFree {w : Nat} (base : BitVec w) (mem : Mem Byte) (ptr : BitVec w) : Option (BitVec w) := do
  let d ← rd mem (ptr.toNat - base.toNat - 1)
  pure (ptr - d.zeroExtend w)

/-- The calls of `faest_aligned_alloc` (faest_aes.c:83, 99, 115, 610, 664, 1084, 1140, 1575, 1631, 1856, 1862, 2165,
2171, 2480, 2486) made when signing and verifying with `P`: the numbers of elements. -/
def elementCounts (P : Params) : List Nat :=
  [P.l + P.lambda] ++ (if P.Lke ≠ 0 then [(P.R + 1) * 128] else [P.lambda * (P.R + 1), P.lambda])

/-- fields.h:22-28 with vector extensions, 38-66 without: size and alignment of `bf128_t`, `bf192_t`, `bf256_t`. -/
def elemSize (vec : Bool) (lambda : Nat) : Nat :=
  if lambda = 128 then 16 else if lambda = 192 then (if vec then 32 else 24) else 32
/-- `BF128_ALIGN`, `BF192_ALIGN`, `BF256_ALIGN`. -/
def elemAlign (vec : Bool) (lambda : Nat) : Nat :=
  if lambda = 128 then 16 else if lambda = 192 then (if vec then 32 else 16) else 32

end Faest.Alloc
