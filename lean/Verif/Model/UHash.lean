/-
Universal hashing: universal_hashing.c.  One definition, parametrised by the field size `n`,
models the three copies for 128, 192 and 256 bits.
-/
import Verif.Model.Fields
import Verif.Model.Params

namespace Faest

/-- universal_hashing.c:16-38 `compute_h1`; the seed part `t` starts at `sd + toff`. -/
def computeH1 (sd : Mem Byte) (toff : Nat) (x : Mem Byte) (lambda ell : Nat) : Option (BF 64) := do
  let bt ← bfLoad 64 sd toff
  let lambdaBytes := lambda / 8
  let lengthLambda := (ell + lambda + lambda - 1) / lambda
  let last ← rdN x ((lengthLambda - 1) * lambdaBytes)
    (if (ell + lambda) % lambda = 0 then lambdaBytes else ((ell + lambda) % lambda) / 8)
  let tmp ← wrN (calloc MAX_LAMBDA_BYTES 0) 0 last
  let (i, s) ← forStep lambdaBytes 8 (lengthLambda * lambdaBytes + 1) 0 ((bfZero : BF 64), (bfOne : BF 64))
    (fun i s => do
      let y ← bfLoad 64 tmp (lambdaBytes - i - 8)
      pure (bfAdd s.1 (bfMul s.2 y), bfMul s.2 bt))
  let (_, s) ← forStep (lengthLambda * lambdaBytes) 8 (lengthLambda * lambdaBytes + 1) i s
    (fun i s => do
      let y ← bfLoad 64 x (lengthLambda * lambdaBytes - i - 8)
      pure (bfAdd s.1 (bfMul s.2 y), bfMul s.2 bt))
  pure s.1

/-- universal_hashing.c:40-73 `vole_hash_128` (75-108 for 192, 110-143 for 256): the
`n/8 + UNIVERSAL_HASH_B` bytes written to `h`. The loop `i = 1; i != length_lambda` is taken as
`i < length_lambda` (`length_lambda ≥ 1`). -/
def voleHashN (n : Nat) (sd x : Mem Byte) (ell : Nat) : Option (List Byte) := do
  let nb := n / 8
  let lengthLambda := (ell + 2 * nb * 8 - 1) / (nb * 8)
  let last ← rdN x ((lengthLambda - 1) * nb)
    (if (ell + nb * 8) % (nb * 8) = 0 then nb else ((ell + nb * 8) % (nb * 8)) / 8)
  let tmp ← wrN (calloc nb 0) 0 last
  let h0 ← bfLoad n tmp 0
  let bs ← bfLoad n sd (4 * nb)
  let (h0, _) ← forR 1 lengthLambda (h0, bs) (fun i s => do
    let y ← bfLoad n x ((lengthLambda - 1 - i) * nb)
    pure (bfAdd s.1 (bfMul s.2 y), bfMul s.2 bs))
  let h1 ← computeH1 sd (5 * nb) x (nb * 8) ell
  let r0 ← bfLoad n sd 0
  let r1 ← bfLoad n sd (1 * nb)
  let r2 ← bfLoad n sd (2 * nb)
  let r3 ← bfLoad n sd (3 * nb)
  let h2 := bfAdd (bfMul r0 h0) (bfMul64 r1 h1)
  let h3 := bfAdd (bfMul r2 h0) (bfMul64 r3 h1)
  let x1 ← ptr x ((ell + nb * 8) / 8)
  xorArr (ofList (h2.toBytes ++ h3.toBytes.take UNIVERSAL_HASH_B)) x1 (nb + UNIVERSAL_HASH_B)

/-- The field used for a security parameter: `switch (lambda)` of universal_hashing.c:145-157
and of the dispatchers faest_aes.c:2590-2640 (default 128). -/
def fieldBits (lambda : Nat) : Nat := if lambda = 256 then 256 else if lambda = 192 then 192 else 128

/-- universal_hashing.c:145-157 `vole_hash`. -/
def voleHash (sd x : Mem Byte) (ell lambda : Nat) : Option (List Byte) :=
  voleHashN (fieldBits lambda) sd x ell

/-- universal_hashing.h:27-33 `zk_hash_128_ctx` (and 192/256). -/
structure ZkCtx (n : Nat) where
  h0 : BF n
  h1 : BF n
  s : BF n
  t : BF 64
  sd : Mem Byte

/-- universal_hashing.c:159-168 `zk_hash_128_init`. -/
def zkInit (n : Nat) (sd : Mem Byte) : Option (ZkCtx n) := do
  let s ← bfLoad n sd (2 * (n / 8))
  let t ← bfLoad 64 sd (3 * (n / 8))
  pure { h0 := bfZero, h1 := bfZero, s := s, t := t, sd := sd }

/-- universal_hashing.c:170-173 `zk_hash_128_update`. -/
def zkUpdate {n : Nat} (ctx : ZkCtx n) (v : BF n) : ZkCtx n :=
  { ctx with h0 := bfAdd (bfMul ctx.h0 ctx.s) v, h1 := bfAdd (bfMul64 ctx.h1 ctx.t) v }

/-- universal_hashing.c:175-182 `zk_hash_128_finalize`: the bytes stored to `h`. -/
def zkFinalize {n : Nat} (ctx : ZkCtx n) (x1 : BF n) : Option (List Byte) := do
  let r0 ← bfLoad n ctx.sd 0
  let r1 ← bfLoad n ctx.sd (n / 8)
  pure (bfAdd (bfAdd (bfMul r0 ctx.h0) (bfMul r1 ctx.h1)) x1).toBytes

end Faest
