/-
Key-schedule and encryption constraints: faest_aes.c.

The code has one copy per security level (128: 208-684, 192: 688-1163, 256: 1167-1653) and one
copy per level for the Even-Mansour variants (EM-128: 1655-1962, EM-192: 1966-2271,
EM-256: 2275-2586).  The copies agree up to the field type and the constants; one definition,
parametrised by the field size `n` and the parameter set `P`, models the three copies.  The
line numbers below are those of the 128-bit copies.  The remaining differences (step of `iwd`,
`rmvRcon`, `rotate_word`, column shift for `Nwd == 8`, `beta`) are explicit.
-/
import Verif.Model.Vole
import Verif.Model.UHash

namespace Faest

/-- faest_aes.c:79-93 `column_to_row_major_and_shrink_V_128` (95-109, 111-125). -/
def columnToRowMajor (n : Nat) (v : Mem (List Byte)) (ell : Nat) : Option (Mem (BF n)) :=
  fill (ell + n) (fun row => do
    let nr ← forN n (calloc (n / 8) 0) (fun column nr => do
      let col ← rd v column
      let b ← ptrGetBit (ofList col) row
      ptrSetBit nr b column)
    bfLoad n nr 0)

/-! ### `m == 1` implementations -/

/-- faest_aes.c:143-156: one iteration of the loop of `aes_key_schedule_forward_1`. -/
def ksForward1Step (P : Params) (x : Mem Byte) (j : Nat) (s : Mem Byte × Nat) :
    Option (Mem Byte × Nat) :=
  if j % P.Nwd = 0 ∨ (P.Nwd > 6 ∧ j % P.Nwd = 4) then do
    let wd ← rdN x (s.2 / 8) 4
    let out ← wrN s.1 (32 * j / 8) wd
    pure (out, s.2 + 32)
  else do
    let out ← forN 4 s.1 (fun i out => do
      let o ← rd out ((32 * j + 8 * i) / 8)
      let a ← rd out ((32 * (j - P.Nwd) + 8 * i) / 8)
      let b ← rd out ((32 * (j - 1) + 8 * i) / 8)
      wr out ((32 * j + 8 * i) / 8) (o ||| (a ^^^ b)))
    pure (out, s.2)

/-- faest_aes.c:129-157 `aes_key_schedule_forward_1`; `out` is the caller's buffer. -/
def ksForward1 (P : Params) (x : Mem Byte) (out : Mem Byte) : Option (Mem Byte) := do
  let lambdaBytes := P.lambda / 8
  let outLen := (P.R + 1) * 128 / 8
  let k ← rdN x 0 lambdaBytes
  let out ← wrN out 0 k
  let out ← wrN out lambdaBytes (List.replicate (outLen - lambdaBytes) 0)
  let (out, _) ← forR P.Nwd (4 * (P.R + 1)) (out, P.lambda) (ksForward1Step P x)
  pure out

/-- The counters of `aes_key_schedule_backward*`. -/
structure KsBwd where
  iwd : Nat
  c : Nat
  rmvRcon : Bool
  ircon : Nat

/-- faest_aes.c:189-202 (bytes; `unit = 8`) and 275-280, 753-758, 1233-1239 (bits; `unit = 1`):
update of the counters. -/
def KsBwd.next (lambda unit : Nat) (s : KsBwd) (used : Bool) : KsBwd :=
  let ircon := if used then s.ircon + 1 else s.ircon
  if s.c + 1 = 4 then
    if lambda = 192 then { iwd := s.iwd + 192 / unit, c := 0, rmvRcon := s.rmvRcon, ircon := ircon }
    else { iwd := s.iwd + 128 / unit, c := 0,
           rmvRcon := if lambda = 256 then !s.rmvRcon else s.rmvRcon, ircon := ircon }
  else { s with c := s.c + 1, ircon := ircon }

/-- The inverse affine map of the S-box, `rotr8(x,7) ^ rotr8(x,5) ^ rotr8(x,2) ^ 0x5`
(faest_aes.c:184-187, 503). -/
def invAffineByte (x : Byte) : Byte := (rotr8 x 7 ^^^ rotr8 x 5 ^^^ rotr8 x 2) ^^^ 0x5

/-- faest_aes.c:178-182: the round constant is removed (bytes). -/
def ksRcon1 (used : Bool) (ircon : Nat) (xt : Byte) : Option Byte :=
  if used then do
    let r ← roundConstants[ircon]?
    pure (xt ^^^ r)
  else pure xt

/-- faest_aes.c:171-203: one iteration of `aes_key_schedule_backward_1`; `x` starts at `x + xo`. -/
def ksBackward1Step (P : Params) (x : Mem Byte) (xo : Nat) (xk : Mem Byte) (j : Nat)
    (s : Mem Byte × KsBwd) : Option (Mem Byte × KsBwd) := do
  let a ← rd x (xo + j)
  let b ← rd xk (s.2.iwd + s.2.c)
  let used := s.2.rmvRcon && (s.2.c == 0)
  let xt ← ksRcon1 used s.2.ircon (a ^^^ b)
  let out ← wr s.1 j (invAffineByte xt)
  pure (out, s.2.next P.lambda 8 used)

/-- faest_aes.c:159-204 `aes_key_schedule_backward_1` into a local array of `Ske` bytes. -/
def ksBackward1 (P : Params) (x : Mem Byte) (xo : Nat) (xk : Mem Byte) : Option (Mem Byte) := do
  let (out, _) ← forN P.Ske ((malloc P.Ske : Mem Byte), KsBwd.mk 0 0 true 0) (ksBackward1Step P x xo xk)
  pure out

/-! ### field implementations -/

/-- faest_aes.c:216-227: one iteration of `aes_key_schedule_forward_128`. -/
def ksForwardStep {n : Nat} (P : Params) (v : Mem (BF n)) (j : Nat) (s : Mem (BF n) × Nat) :
    Option (Mem (BF n) × Nat) :=
  if j % P.Nwd = 0 ∨ (P.Nwd > 6 ∧ j % P.Nwd = 4) then do
    let wd ← rdN v s.2 32
    let out ← wrN s.1 (j * 32) wd
    pure (out, s.2 + 32)
  else do
    let out ← forN 32 s.1 (fun i out => do
      let a ← rd out (32 * (j - P.Nwd) + i)
      let b ← rd out (32 * (j - 1) + i)
      wr out (32 * j + i) (bfAdd a b))
    pure (out, s.2)

/-- faest_aes.c:208-228 `aes_key_schedule_forward_128`. -/
def ksForward {n : Nat} (P : Params) (v : Mem (BF n)) (out : Mem (BF n)) : Option (Mem (BF n)) := do
  let k ← rdN v 0 P.lambda
  let out ← wrN out 0 k
  let (out, _) ← forR P.Nwd (4 * (P.R + 1)) (out, P.lambda) (ksForwardStep P v)
  pure out

/-- faest_aes.c:267-274 and 541-548: the eight values
`x[(i+7)%8] + x[(i+5)%8] + x[(i+2)%8]`, with `add` added at positions 0 and 2. -/
def invAffineBF {n : Nat} (xt : Mem (BF n)) (add : BF n) : Option (List (BF n)) :=
  tabM 8 (fun i => do
    let a ← rd xt ((i + 7) % 8)
    let b ← rd xt ((i + 5) % 8)
    let c ← rd xt ((i + 2) % 8)
    let y := bfAdd (bfAdd a b) c
    pure (if i = 0 ∨ i = 2 then bfAdd y add else y))

/-- `delta ? bf_load(delta) : bf_zero()`. -/
def loadDelta (n : Nat) (delta : Option (Mem Byte)) : Option (BF n) :=
  match delta with
  | some d => bfLoad n d 0
  | none => some bfZero

/-- faest_aes.c:241-244: `mul_bit(bf_delta, Mkey) + from_bit(1 ^ Mkey)`. -/
def mkeyFactor {n : Nat} (bfDelta : BF n) (mkey : Byte) : BF n :=
  bfAdd (bfMulBit bfDelta mkey) (bfFromBit (1 ^^^ mkey))

/-- faest_aes.c:253-265: the round constant is removed (lifted bits). -/
def ksRconF {n : Nat} (used : Bool) (ircon : Nat) (mkd : BF n) (xt : Mem (BF n)) : Option (Mem (BF n)) :=
  if used then do
    let r ← roundConstants[ircon]?
    fill 8 (fun i => do
      let x ← rd xt i
      pure (bfAdd x (bfMulBit mkd (getBit r i))))
  else pure xt

/-- faest_aes.c:246-281: one iteration of `aes_key_schedule_backward_128`; `v` starts at `v + vo`. -/
def ksBackwardStep {n : Nat} (P : Params) (v : Mem (BF n)) (vo : Nat) (vk : Mem (BF n)) (mtag : Byte)
    (mkd : BF n) (j : Nat) (s : Mem (BF n) × KsBwd) : Option (Mem (BF n) × KsBwd) := do
  let xt ← fill 8 (fun i => do
    let a ← rd v (vo + 8 * j + i)
    let b ← rd vk (s.2.iwd + 8 * s.2.c + i)
    pure (bfAdd a b))
  let used := (mtag == 0) && s.2.rmvRcon && (s.2.c == 0)
  let xt ← ksRconF used s.2.ircon mkd xt
  let y ← invAffineBF xt (bfMulBit mkd (1 ^^^ mtag))
  let out ← wrN s.1 (8 * j) y
  pure (out, s.2.next P.lambda 1 used)

/-- faest_aes.c:230-282 `aes_key_schedule_backward_128` into a local array of `8 * Ske` elements,
with the assertion of line 233. -/
def ksBackward {n : Nat} (P : Params) (v : Mem (BF n)) (vo : Nat) (vk : Mem (BF n)) (mtag mkey : Byte)
    (delta : Option (Mem Byte)) : Option (Mem (BF n)) :=
  if (mtag = 1 ∧ mkey = 1) ∨ (mkey = 1 ∧ delta.isNone) then none
  else do
    let bfDelta ← loadDelta n delta
    let (out, _) ← forN P.Ske ((malloc (P.Ske * 8) : Mem (BF n)), KsBwd.mk 0 0 true 0)
      (ksBackwardStep P v vo vk mtag (mkeyFactor bfDelta mkey))
    pure out

/-- Destination index of `bf_k_hat`: `(r + 3) % 4`, or `r` when `rotate_word` is false (only in
the 256-bit copy, 1272-1290). -/
def hatIdx (rot : Bool) (r : Nat) : Nat := if rot then (r + 3) % 4 else r

/-- Step of `iwd` in the constraint loops (128, 192, 128 in the three copies). -/
def iwdStep (lambda : Nat) : Nat := if lambda = 192 then 192 else 128

/-- The hash update of faest_aes.c:322-328 on one row: `A0 = vk * vw'`,
`A1 = (k + vk) * (w' + vw') + 1 + A0`. -/
def ksHash0 {n : Nat} (kh vkh wh vwh : BF n) (s : ZkCtx n × ZkCtx n) : ZkCtx n × ZkCtx n :=
  let tmp := bfMul vkh vwh
  (zkUpdate s.1 tmp,
   zkUpdate s.2 (bfAdd (bfAdd (bfMul (bfAdd kh vkh) (bfAdd wh vwh)) bfOne) tmp))

/-- faest_aes.c:307-331: one iteration `j` of the key-schedule constraints (prover). State:
`(a0_ctx, a1_ctx)`, `iwd`, `rotate_word`. -/
def ksConstr0Step {n : Nat} (P : Params) (k : Mem Byte) (vk : Mem (BF n)) (wd : Mem Byte)
    (vwd : Mem (BF n)) (j : Nat) (s : (ZkCtx n × ZkCtx n) × Nat × Bool) :
    Option ((ZkCtx n × ZkCtx n) × Nat × Bool) := do
  let iwd := s.2.1
  let rot := s.2.2
  let kh ← forN 4 (malloc 4) (fun r m => do
    let kb ← rd k ((iwd + 8 * r) / 8)
    wr m (hatIdx rot r) (← byteCombineBits n kb))
  let vkh ← forN 4 (malloc 4) (fun r m => do
    wr m (hatIdx rot r) (← byteCombine vk (iwd + 8 * r)))
  let wh ← fill 4 (fun r => do
    let b ← rd wd ((32 * j + 8 * r) / 8)
    byteCombineBits n b)
  let vwh ← fill 4 (fun r => byteCombine vwd (32 * j + 8 * r))
  let ctx ← forN 4 s.1 (fun r c => do
    pure (ksHash0 (← rd kh r) (← rd vkh r) (← rd wh r) (← rd vwh r) c))
  pure (ctx, iwd + iwdStep P.lambda, if P.lambda = 256 then !rot else rot)

/-- faest_aes.c:284-332 `aes_key_schedule_constraints_Mkey_0_128`; returns the hash contexts and
the buffers `k`, `vk`. -/
def ksConstraints0 {n : Nat} (P : Params) (w : Mem Byte) (v : Mem (BF n)) (ctx : ZkCtx n × ZkCtx n) :
    Option ((ZkCtx n × ZkCtx n) × Mem Byte × Mem (BF n)) := do
  let k ← ksForward1 P w (malloc ((P.R + 1) * 128 / 8))
  let vk ← ksForward P v (malloc ((P.R + 1) * 128))
  let wd ← ksBackward1 P w (P.lambda / 8) k
  let vwd ← ksBackward P v P.lambda vk 1 0 none
  let (ctx, _) ← forN (P.Ske / 4) (ctx, 32 * (P.Nwd - 1), true) (ksConstr0Step P k vk wd vwd)
  pure (ctx, k, vk)

/-- faest_aes.c:346-361: one iteration `j` of the key-schedule constraints (verifier). -/
def ksConstr1Step {n : Nat} (P : Params) (qk : Mem (BF n)) (qwd : Mem (BF n)) (d2 : BF n)
    (j : Nat) (s : ZkCtx n × Nat × Bool) : Option (ZkCtx n × Nat × Bool) := do
  let iwd := s.2.1
  let rot := s.2.2
  let qkh ← forN 4 (malloc 4) (fun r m => do
    wr m (hatIdx rot r) (← byteCombine qk (iwd + 8 * r)))
  let qwh ← fill 4 (fun r => byteCombine qwd (32 * j + 8 * r))
  let ctx ← forN 4 s.1 (fun r c => do
    pure (zkUpdate c (bfAdd (bfMul (← rd qkh r) (← rd qwh r)) d2)))
  pure (ctx, iwd + iwdStep P.lambda, if P.lambda = 256 then !rot else rot)

/-- faest_aes.c:334-362 `aes_key_schedule_constraints_Mkey_1_128`. -/
def ksConstraints1 {n : Nat} (P : Params) (q : Mem (BF n)) (delta : Mem Byte) (ctx : ZkCtx n) :
    Option (ZkCtx n × Mem (BF n)) := do
  let qk ← ksForward P q (malloc ((P.R + 1) * 128))
  let qwd ← ksBackward P q P.lambda qk 0 1 (some delta)
  let bfDelta ← bfLoad n delta 0
  let d2 := bfMul bfDelta bfDelta
  let (ctx, _) ← forN (P.Ske / 4) (ctx, 32 * (P.Nwd - 1), true) (ksConstr1Step P qk qwd d2)
  pure (ctx, qk)

/-- faest_aes.c:394-416, 453-475: MixColumns and AddRoundKey on the lifted values. -/
def aesMix {n : Nat} (two three : BF n) (x xk : Nat → BF n) : List (BF n) :=
  [bfAdd (bfAdd (bfAdd (bfAdd (xk 0) (bfMul (x 0) two)) (bfMul (x 1) three)) (x 2)) (x 3),
   bfAdd (bfAdd (bfAdd (bfAdd (xk 1) (x 0)) (bfMul (x 1) two)) (bfMul (x 2) three)) (x 3),
   bfAdd (bfAdd (bfAdd (bfAdd (xk 2) (x 0)) (x 1)) (bfMul (x 2) two)) (bfMul (x 3) three),
   bfAdd (bfAdd (bfAdd (bfAdd (xk 3) (bfMul (x 0) three)) (x 1)) (x 2)) (bfMul (x 3) two)]

/-- faest_aes.c:1678-1696, 1730-1748: the same for Even-Mansour. -/
def emMix {n : Nat} (two three : BF n) (z x : Nat → BF n) : List (BF n) :=
  [bfAdd (bfAdd (bfAdd (bfAdd (bfMul (z 0) two) (bfMul (z 1) three)) (z 2)) (z 3)) (x 0),
   bfAdd (bfAdd (bfAdd (bfAdd (z 0) (bfMul (z 1) two)) (bfMul (z 2) three)) (z 3)) (x 1),
   bfAdd (bfAdd (bfAdd (bfAdd (z 0) (z 1)) (bfMul (z 2) two)) (bfMul (z 3) three)) (x 2),
   bfAdd (bfAdd (bfAdd (bfAdd (bfMul (z 0) three) (z 1)) (z 2)) (bfMul (z 3) two)) (x 3)]

/-- One column of the forward computation: read `x[0..3]` and `xk[0..3]`, mix. -/
def mixRead {n : Nat} (mix : BF n → BF n → (Nat → BF n) → (Nat → BF n) → List (BF n))
    (two three : BF n) (fx fk : Nat → Option (BF n)) : Option (List (BF n)) := do
  let x0 ← fx 0
  let k0 ← fk 0
  let x1 ← fx 1
  let k1 ← fk 1
  let x2 ← fx 2
  let k2 ← fk 2
  let x3 ← fx 3
  let k3 ← fk 3
  pure (mix two three (fun r => if r = 0 then x0 else if r = 1 then x1 else if r = 2 then x2 else x3)
    (fun r => if r = 0 then k0 else if r = 1 then k1 else if r = 2 then k2 else k3))

/-- faest_aes.c:364-419 `aes_enc_forward_128_1` with `Mtag = Mkey = 0`; `x` starts at `x + xo`,
`in` at `in + ino`. -/
def encForward1 (n : Nat) (P : Params) (x : Mem Byte) (xo : Nat) (xk : Mem Byte) (inp : Mem Byte)
    (ino : Nat) : Option (Mem (BF n)) := do
  let y : Mem (BF n) := malloc P.Senc
  let y ← forN 16 y (fun i y => do
    let a ← byteCombineBits n (← rd inp (ino + i))
    let b ← byteCombineBits n (← rd xk i)
    wr y i (bfAdd a b))
  let two ← byteCombineBits n 2
  let three ← byteCombineBits n 3
  forR 1 P.R y (fun j y => forN 4 y (fun c y => do
    let ix := 128 * (j - 1) + 32 * c
    let ik := 128 * j + 32 * c
    let iy := 16 * j + 4 * c
    let m ← mixRead aesMix two three
      (fun r => do byteCombineBits n (← rd x (xo + (ix + 8 * r) / 8)))
      (fun r => do byteCombineBits n (← rd xk ((ik + 8 * r) / 8)))
    wrN y iy m))

/-- faest_aes.c:421-478 `aes_enc_forward_128`; `bf_x` starts at `x + xo`. -/
def encForward {n : Nat} (P : Params) (x : Mem (BF n)) (xo : Nat) (xk : Mem (BF n)) (inp : Mem Byte)
    (ino : Nat) (mtag mkey : Byte) (delta : Option (Mem Byte)) : Option (Mem (BF n)) := do
  let bfDelta ← loadDelta n delta
  let factor := mkeyFactor bfDelta mkey
  let y : Mem (BF n) := malloc P.Senc
  let y ← forN 16 y (fun i y => do
    let xin ← fill 8 (fun j => do
      let b ← rd inp (ino + i)
      pure (bfMulBit factor ((1 ^^^ mtag) &&& getBit b j)))
    let a ← byteCombine xin 0
    let b ← byteCombine xk (8 * i)
    wr y i (bfAdd a b))
  let two ← byteCombineBits n 2
  let three ← byteCombineBits n 3
  forR 1 P.R y (fun j y => forN 4 y (fun c y => do
    let ix := 128 * (j - 1) + 32 * c
    let ik := 128 * j + 32 * c
    let iy := 16 * j + 4 * c
    let m ← mixRead aesMix two three
      (fun r => byteCombine x (xo + (ix + 8 * r)))
      (fun r => byteCombine xk (ik + 8 * r))
    wrN y iy m))

/-- faest_aes.c:490-499: the source byte of `aes_enc_backward_128_1`. -/
def encSrc1 (P : Params) (x : Mem Byte) (xo : Nat) (xk : Mem Byte) (out : Mem Byte) (oo : Nat)
    (j ird : Nat) : Option Byte :=
  if j < P.R - 1 then rd x (xo + ird / 8)
  else do
    let o ← rd out (oo + (ird - 128 * (P.R - 1)) / 8)
    let k ← rd xk ((128 + ird) / 8)
    pure (o ^^^ k)

/-- faest_aes.c:480-510 `aes_enc_backward_128_1`; `x` starts at `x + xo`, `out` at `out + oo`. -/
def encBackward1 (n : Nat) (P : Params) (x : Mem Byte) (xo : Nat) (xk : Mem Byte) (out : Mem Byte)
    (oo : Nat) : Option (Mem (BF n)) :=
  forN P.R (malloc P.Senc) (fun j y => forN 4 y (fun c y => forN 4 y (fun r y => do
    let ird := 128 * j + 32 * ((c + 4 - r) % 4) + 8 * r
    let xt ← encSrc1 P x xo xk out oo j ird
    wr y (16 * j + 4 * c + r) (← byteCombineBits n (invAffineByte xt)))))

/-- faest_aes.c:517-518: `mul_bit(mul_bit(delta, Mkey) + from_bit(1 ^ Mkey), 1 ^ Mtag)`. -/
def bwdFactor {n : Nat} (bfDelta : BF n) (mtag mkey : Byte) : BF n :=
  bfMulBit (mkeyFactor bfDelta mkey) (1 ^^^ mtag)

/-- faest_aes.c:526-540: the source bits of `aes_enc_backward_128`. -/
def encSrc {n : Nat} (P : Params) (x : Mem (BF n)) (xo : Nat) (xk : Mem (BF n)) (factor : BF n)
    (out : Mem Byte) (oo : Nat) (j ird : Nat) : Option (Mem (BF n)) :=
  if j < P.R - 1 then (rdN x (xo + ird) 8).map ofList
  else fill 8 (fun i => do
    let o ← rd out (oo + (ird - 128 * (P.R - 1)) / 8)
    let k ← rd xk (128 + ird + i)
    pure (bfAdd (bfMulBit factor (getBit o i)) k))

/-- faest_aes.c:512-555 `aes_enc_backward_128`; `bf_x` starts at `x + xo`, `out` at `out + oo`. -/
def encBackward {n : Nat} (P : Params) (x : Mem (BF n)) (xo : Nat) (xk : Mem (BF n))
    (mtag mkey : Byte) (delta : Option (Mem Byte)) (out : Mem Byte) (oo : Nat) :
    Option (Mem (BF n)) := do
  let bfDelta ← loadDelta n delta
  let factor := bwdFactor bfDelta mtag mkey
  forN P.R (malloc P.Senc) (fun j y => forN 4 y (fun c y => forN 4 y (fun r y => do
    let ird := 128 * j + 32 * ((c + 4 - r) % 4) + 8 * r
    let xt ← encSrc P x xo xk factor out oo j ird
    let yt ← invAffineBF xt factor
    wr y (16 * j + 4 * c + r) (← byteCombine (ofList yt) 0))))

/-- The hash update of faest_aes.c:571-576, 1841-1847: `A0 = vs * vs'`,
`A1 = (s + vs) * (s' + vs') + A0 + 1`. -/
def encHash0 {n : Nat} (s vs sd vsd : BF n) (c : ZkCtx n × ZkCtx n) : ZkCtx n × ZkCtx n :=
  let tmp := bfMul vs vsd
  (zkUpdate c.1 tmp,
   zkUpdate c.2 (bfAdd (bfAdd (bfMul (bfAdd s vs) (bfAdd sd vsd)) tmp) bfOne))

/-- faest_aes.c:569-577: the loop hashing the prover's constraint values. -/
def hashLoop0 {n : Nat} (Senc : Nat) (s vs sd vsd : Mem (BF n)) (ctx : ZkCtx n × ZkCtx n) :
    Option (ZkCtx n × ZkCtx n) :=
  forN Senc ctx (fun j c => do
    pure (encHash0 (← rd s j) (← rd vs j) (← rd sd j) (← rd vsd j) c))

/-- faest_aes.c:592-595: the loop hashing the verifier's constraint values. -/
def hashLoop1 {n : Nat} (Senc : Nat) (qs qsd : Mem (BF n)) (d2 : BF n) (ctx : ZkCtx n) :
    Option (ZkCtx n) :=
  forN Senc ctx (fun j c => do
    pure (zkUpdate c (bfAdd (bfMul (← rd qs j) (← rd qsd j)) d2)))

/-- faest_aes.c:557-578 `aes_enc_constraints_Mkey_0_128`. -/
def encConstraints0 {n : Nat} (P : Params) (inp : Mem Byte) (ino : Nat) (out : Mem Byte) (oo : Nat)
    (w : Mem Byte) (wo : Nat) (v : Mem (BF n)) (vo : Nat) (k : Mem Byte) (vk : Mem (BF n))
    (ctx : ZkCtx n × ZkCtx n) : Option (ZkCtx n × ZkCtx n) := do
  let s ← encForward1 n P w wo k inp ino
  let vs ← encForward P v vo vk inp ino 1 0 none
  let sd ← encBackward1 n P w wo k out oo
  let vsd ← encBackward P v vo vk 1 0 none out oo
  hashLoop0 P.Senc s vs sd vsd ctx

/-- faest_aes.c:580-596 `aes_enc_constraints_Mkey_1_128`. -/
def encConstraints1 {n : Nat} (P : Params) (inp : Mem Byte) (ino : Nat) (out : Mem Byte) (oo : Nat)
    (q : Mem (BF n)) (qo : Nat) (qk : Mem (BF n)) (delta : Mem Byte) (ctx : ZkCtx n) :
    Option (ZkCtx n) := do
  let qs ← encForward P q qo qk inp ino 0 1 (some delta)
  let qsd ← encBackward P q qo qk 0 1 (some delta) out oo
  let bfDelta ← bfLoad n delta 0
  hashLoop1 P.Senc qs qsd (bfMul bfDelta bfDelta) ctx

/-- faest_aes.c:1098-1100, 1589-1591: the constraints of the second block, for `beta = 2`. -/
def encConstraints0Snd {n : Nat} (P : Params) (inp out w : Mem Byte) (v : Mem (BF n)) (k : Mem Byte)
    (vk : Mem (BF n)) (ctx : ZkCtx n × ZkCtx n) : Option (ZkCtx n × ZkCtx n) :=
  if P.beta = 2 then
    encConstraints0 P inp 16 out 16 w ((P.Lke + P.Lenc) / 8) v (P.Lke + P.Lenc) k vk ctx
  else pure ctx

/-- The same for the verifier (1155-1158, 1643-1646). -/
def encConstraints1Snd {n : Nat} (P : Params) (inp out : Mem Byte) (q qk : Mem (BF n)) (delta : Mem Byte)
    (ctx : ZkCtx n) : Option (ZkCtx n) :=
  if P.beta = 2 then
    encConstraints1 P inp 16 out 16 q (P.Lke + P.Lenc) qk delta ctx
  else pure ctx

/-- faest_aes.c:598-632 `aes_prove_128`, 1072-1108 (192), 1563-1599 (256): returns
`(a_tilde, b_tilde)`. The second call of the encryption constraints is made for `beta = 2`. -/
def aesProveN (n : Nat) (P : Params) (w u : Mem Byte) (V : Mem (List Byte)) (inp out chall : Mem Byte) :
    Option (List Byte × List Byte) := do
  let v ← columnToRowMajor n V P.l
  let a0 ← zkInit n chall
  let a1 ← zkInit n chall
  let (ctx, k, vk) ← ksConstraints0 P w v (a0, a1)
  let ctx ← encConstraints0 P inp 0 out 0 w (P.Lke / 8) v P.Lke k vk ctx
  let ctx ← encConstraints0Snd P inp out w v k vk ctx
  let a ← zkFinalize ctx.2 (← bfLoad n u (P.l / 8))
  let b ← zkFinalize ctx.1 (← bfSumPoly (← ptr v P.l))
  pure (a, b)

/-- faest_aes.c:649-658: the columns of `Q` are corrected by `d` where the challenge bit is 1. -/
def correctQ (P : Params) (d : Mem Byte) (chall3 : Mem Byte) (nbytes : Nat) (Q : Mem (List Byte)) :
    Option (Mem (List Byte)) := do
  let (Q, _) ← forN P.tau (Q, 0) (fun i (s : Mem (List Byte) × Nat) => do
    let depth := if i < P.t0 then P.k0 else P.k1
    let (_, dec) ← chalDec chall3 i P.k0 P.t0 P.k1 P.t1 (malloc MAX_DEPTH)
    forN depth s (fun j s => do
      let b ← rd dec j
      if b = 1 then do
        let col ← rd s.1 s.2
        let x ← xorArr d (ofList col) nbytes
        let Q ← wr s.1 s.2 (x ++ col.drop nbytes)
        pure (Q, s.2 + 1)
      else pure (s.1, s.2 + 1)))
  pure Q

/-- faest_aes.c:676-683: hash finalisation of the verifier. -/
def verifyFinish {n : Nat} (ctx : ZkCtx n) (q : Mem (BF n)) (ell : Nat) (aTilde delta : Mem Byte) :
    Option (List Byte) := do
  let qt ← zkFinalize ctx (← bfSumPoly (← ptr q ell))
  let bfQ ← bfLoad n (ofList qt) 0
  let a ← bfLoad n aTilde 0
  let d ← bfLoad n delta 0
  pure (bfAdd bfQ (bfMul a d)).toBytes

/-- faest_aes.c:634-684 `aes_verify_128`, 1110-1163 (192), 1601-1653 (256). -/
def aesVerifyN (n : Nat) (P : Params) (d : Mem Byte) (Q : Mem (List Byte))
    (chall2 chall3 aTilde inp out : Mem Byte) : Option (List Byte) := do
  let Q ← correctQ P d chall3 ((P.l + 7) / 8) Q
  let q ← columnToRowMajor n Q P.l
  let b0 ← zkInit n chall2
  let (ctx, qk) ← ksConstraints1 P q chall3 b0
  let ctx ← encConstraints1 P inp 0 out 0 q P.Lke qk chall3 ctx
  let ctx ← encConstraints1Snd P inp out q qk chall3 ctx
  verifyFinish ctx q P.l aTilde chall3

/-! ### Even-Mansour -/

/-- faest_aes.c:1657-1699 `em_enc_forward_128_1`. -/
def emForward1 (n : Nat) (P : Params) (z x : Mem Byte) : Option (Mem (BF n)) := do
  let y : Mem (BF n) := malloc P.Senc
  let y ← forN (4 * P.Nwd) y (fun j y => do
    let a ← byteCombineBits n (← rd z j)
    let b ← byteCombineBits n (← rd x j)
    wr y j (bfAdd a b))
  let two ← byteCombineBits n 2
  let three ← byteCombineBits n 3
  forR 1 P.R y (fun j y => forN P.Nwd y (fun c y => do
    let i := 32 * P.Nwd * j + 32 * c
    let iy := 4 * P.Nwd * j + 4 * c
    let m ← mixRead emMix two three
      (fun r => do byteCombineBits n (← rd z ((i + 8 * r) / 8)))
      (fun r => do byteCombineBits n (← rd x ((i + 8 * r) / 8)))
    wrN y iy m))

/-- faest_aes.c:1701-1751 `em_enc_forward_128`; `x = none` is `bf_x == NULL`. -/
def emForward {n : Nat} (P : Params) (z : Mem (BF n)) (x : Option (Mem (BF n))) :
    Option (Mem (BF n)) := do
  let y : Mem (BF n) := malloc P.Senc
  let y ← forN (4 * P.Nwd) y (fun j y => do
    let a ← byteCombine z (8 * j)
    let a ← match x with
      | some x => do pure (bfAdd a (← byteCombine x (8 * j)))
      | none => pure a
    wr y j a)
  let two ← byteCombineBits n 2
  let three ← byteCombineBits n 3
  forR 1 P.R y (fun j y => forN P.Nwd y (fun c y => do
    let i := 32 * P.Nwd * j + 32 * c
    let iy := 4 * P.Nwd * j + 4 * c
    let m ← mixRead emMix two three
      (fun r => byteCombine z (i + 8 * r))
      (fun r => match x with
        | some x => byteCombine x (i + 8 * r)
        | none => some bfZero)
    wrN y iy m))

/-- faest_aes.c:1760 and 2379-2382: source column of ShiftRows. -/
def emIcol (Nwd c r : Nat) : Nat :=
  let icol := (c + Nwd - r) % Nwd
  if Nwd = 8 ∧ r ≥ 2 then (icol + Nwd - 1) % Nwd else icol

/-- faest_aes.c:1764-1768: the source byte of `em_enc_backward_128_1`. -/
def emSrc1 (P : Params) (z x zOut : Mem Byte) (j ird : Nat) : Option Byte :=
  if j < P.R - 1 then rd z (ird / 8)
  else do
    let o ← rd zOut ((ird - 32 * P.Nwd * (j + 1)) / 8)
    let k ← rd x (ird / 8)
    pure (o ^^^ k)

/-- faest_aes.c:1753-1780 `em_enc_backward_128_1`. -/
def emBackward1 (n : Nat) (P : Params) (z x zOut : Mem Byte) : Option (Mem (BF n)) :=
  forN P.R (malloc P.Senc) (fun j y => forN P.Nwd y (fun c y => forN 4 y (fun r y => do
    let ird := P.lambda + 32 * P.Nwd * j + 32 * emIcol P.Nwd c r + 8 * r
    let zt ← emSrc1 P z x zOut j ird
    wr y (4 * P.Nwd * j + 4 * c + r) (← byteCombineBits n (invAffineByte zt)))))

/-- faest_aes.c:1797-1807: the source bits of `em_enc_backward_128`. -/
def emSrc {n : Nat} (P : Params) (z : Mem (BF n)) (x : Option (Mem (BF n))) (zOut : Mem (BF n))
    (j ird : Nat) : Option (Mem (BF n)) :=
  if j < P.R - 1 then (rdN z ird 8).map ofList
  else fill 8 (fun i => do
    let o ← rd zOut (ird - 32 * P.Nwd * (j + 1) + i)
    match x with
    | some x => pure (bfAdd o (← rd x (ird + i)))
    | none => pure o)

/-- faest_aes.c:1782-1822 `em_enc_backward_128`. -/
def emBackward {n : Nat} (P : Params) (z : Mem (BF n)) (x : Option (Mem (BF n))) (zOut : Mem (BF n))
    (mtag mkey : Byte) (delta : Option (Mem Byte)) : Option (Mem (BF n)) := do
  let bfDelta ← loadDelta n delta
  let factor := bwdFactor bfDelta mtag mkey
  forN P.R (malloc P.Senc) (fun j y => forN P.Nwd y (fun c y => forN 4 y (fun r y => do
    let ird := P.lambda + 32 * P.Nwd * j + 32 * emIcol P.Nwd c r + 8 * r
    let zt ← emSrc P z x zOut j ird
    let yt ← invAffineBF zt factor
    wr y (4 * P.Nwd * j + 4 * c + r) (← byteCombine (ofList yt) 0))))

/-- faest_aes.c:1824-1849 `em_enc_constraints_Mkey_0_128`. -/
def emConstraints0 {n : Nat} (P : Params) (out x w : Mem Byte) (v : Mem (BF n))
    (ctx : ZkCtx n × ZkCtx n) : Option (ZkCtx n × ZkCtx n) := do
  let wOut ← xorArr out w (P.lambda / 8)
  let s ← emForward1 n P w x
  let vs ← emForward P v none
  let sd ← emBackward1 n P w x (ofList wOut)
  let vsd ← emBackward P v none v 1 0 none
  hashLoop0 P.Senc s vs sd vsd ctx

/-- faest_aes.c:1851-1879 `em_enc_constraints_Mkey_1_128`. -/
def emConstraints1 {n : Nat} (P : Params) (out x : Mem Byte) (q : Mem (BF n)) (delta : Mem Byte)
    (ctx : ZkCtx n) : Option (ZkCtx n) := do
  let bfDelta ← bfLoad n delta 0
  let bx ← fill (P.lambda * (P.R + 1)) (fun i => do
    let b ← ptrGetBit x i
    pure (bfMulBit bfDelta b))
  let qOut ← fill P.lambda (fun i => do
    let b ← ptrGetBit out i
    pure (bfAdd (bfMulBit bfDelta b) (← rd q i)))
  let qs ← emForward P q (some bx)
  let qsd ← emBackward P q (some bx) qOut 0 1 (some delta)
  hashLoop1 P.Senc qs qsd (bfMul bfDelta bfDelta) ctx

/-- faest_aes.c:1887-1888, 2197, 2512: the key schedule of the public key. -/
def emSchedule (P : Params) (inp : Mem Byte) : Option (Mem Byte × Bool) :=
  if P.lambda = 256 then expandKey inp 8 8 14
  else if P.lambda = 192 then expandKey inp 6 6 12
  else expandKey inp 4 4 10

/-- faest_aes.c:1889-1895, 1941-1947: the round keys of the public key schedule, laid out one
after the other in a buffer of `size` bytes. -/
def emExpand (P : Params) (inp : Mem Byte) (size : Nat) : Option (Mem Byte) := do
  let (rk, _) ← emSchedule P inp
  let (x, _) ← forN (P.R + 1) ((malloc size : Mem Byte), 0) (fun r s =>
    forN P.Nwd s (fun i (s : Mem Byte × Nat) => do
      let wd ← rdN rk (rkIdx r i 0) 4
      let x ← wrN s.1 s.2 wd
      pure (x, s.2 + 4)))
  pure x

/-- faest_aes.c:1881-1910 `em_prove_128`, 2190-2219 (192), 2505-2534 (256). In the 128-bit copy the
array `x` has `lambda * (R + 1)` bytes, in the others `lambda * (R + 1) / 8`. -/
def emProveN (n : Nat) (P : Params) (w u : Mem Byte) (V : Mem (List Byte)) (inp out chall : Mem Byte) :
    Option (List Byte × List Byte) := do
  let x ← emExpand P inp
    (if P.lambda = 128 then P.lambda * (P.R + 1) else P.lambda * (P.R + 1) / 8)
  let v ← columnToRowMajor n V P.Lenc
  let a0 ← zkInit n chall
  let a1 ← zkInit n chall
  let ctx ← emConstraints0 P out x w v (a0, a1)
  let a ← zkFinalize ctx.2 (← bfLoad n u (P.Lenc / 8))
  let b ← zkFinalize ctx.1 (← bfSumPoly (← ptr v P.Lenc))
  pure (a, b)

/-- faest_aes.c:1912-1962 `em_verify_128`, 2221-2271 (192), 2536-2586 (256). -/
def emVerifyN (n : Nat) (P : Params) (d : Mem Byte) (Q : Mem (List Byte))
    (chall2 chall3 aTilde inp out : Mem Byte) : Option (List Byte) := do
  let Q ← correctQ P d chall3 ((P.Lenc + 7) / 8) Q
  let q ← columnToRowMajor n Q P.Lenc
  let x ← emExpand P inp (P.lambda * (P.R + 1) / 8)
  let b0 ← zkInit n chall2
  let ctx ← emConstraints1 P out x q chall3 b0
  verifyFinish ctx q P.Lenc aTilde chall3

/-- faest_aes.c:2590-2615 `aes_prove`. -/
def aesProve (P : Params) (w u : Mem Byte) (V : Mem (List Byte)) (inp out chall : Mem Byte) :
    Option (List Byte × List Byte) :=
  if P.Lke ≠ 0 then aesProveN (fieldBits P.lambda) P w u V inp out chall
  else emProveN (fieldBits P.lambda) P w u V inp out chall

/-- faest_aes.c:2617-2640 `aes_verify`. -/
def aesVerify (P : Params) (d : Mem Byte) (Q : Mem (List Byte))
    (chall2 chall3 aTilde inp out : Mem Byte) : Option (List Byte) :=
  if P.Lke ≠ 0 then aesVerifyN (fieldBits P.lambda) P d Q chall2 chall3 aTilde inp out
  else emVerifyN (fieldBits P.lambda) P d Q chall2 chall3 aTilde inp out

end Faest
