/-
Programs which use the interface of sha3/KeccakHashtimes4.h; the functions are in Model/Shake.lean, and the
arguments of the macros KeccakHashtimes4.h:52-72 are those of KeccakHash.h:61-81 in Model/KeccakHash.lean.
-/
import Verif.Model.KeccakHash

namespace Faest.Keccak

/-- `Keccak_HashUpdatetimes4` with each of the chunks in turn, a length and four inputs of that length; `none` as well if a call fails. -/
def runKeccakUpdatesX4 (w : Nat) : HashInstance → List (Nat × (Nat → List Byte)) → Option HashInstance
  | ctx, [] => some ctx
  | ctx, (n, c) :: cs => do
    let (ctx, ok) ← hashUpdateBitsX4 w ctx (fun k => ofList (c k)) (8 * n)
    if ok then runKeccakUpdatesX4 w ctx cs else none

/-- `Keccak_HashSqueezetimes4` into four fresh buffers for each of the lengths (in bytes). -/
def runKeccakSqueezesX4 (w : Nat) : HashInstance → List Nat → Option (List (List (List Byte)))
  | _, [] => some []
  | ctx, n :: ns => do
    let (ctx, buf) ← hashSqueezeBitsX4 w ctx (fun _ => malloc n) (8 * n)
    let out ← tabM 4 (fun k => rdN (buf k) 0 n)
    let outs ← runKeccakSqueezesX4 w ctx ns
    pure (out :: outs)

/-- `Keccak_HashInitializetimes4`, updates, `Keccak_HashFinaltimes4` into four buffers, squeezes: the four hashes, and four buffers for
each squeeze. -/
def runKeccakX4 (w : Nat) (p : HashParams) (chunks : List (Nat × (Nat → List Byte))) (outs : List Nat) :
    Option (List (List Byte) × List (List (List Byte))) := do
  let (ctx, ok) ← hashInitializeX4 hashFreshX4 p.rate p.capacity p.hashbitlen p.delimitedSuffix
  if ok then do
    let ctx ← runKeccakUpdatesX4 w ctx chunks
    let (ctx, hash) ← hashFinalBitsX4 w ctx (fun _ => malloc (p.hashbitlen / 8))
    let hash ← tabM 4 (fun k => rdN (hash k) 0 (p.hashbitlen / 8))
    let bufs ← runKeccakSqueezesX4 w ctx outs
    pure (hash, bufs)
  else none

end Faest.Keccak
