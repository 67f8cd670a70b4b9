/-
Signing and verification: faest.c.

The signature is one byte buffer, written and read back at the positions computed by the
helper functions of faest.c:22-196: the `off…` functions are the helpers used by signing, the
`dOff…` functions those used by verification.
-/
import Verif.Model.FaestAes

namespace Faest

/-- `ell_hat_bytes` as computed in the position helpers (faest.c:24-26 and the corresponding lines of
the other helpers). -/
def Params.ellHatBytesSig (P : Params) : Nat := P.l / 8 + 2 * (P.lambda / 8) + UNIVERSAL_HASH_B

/-- faest.c:22-29 `signature_c`. -/
def offC (P : Params) (index : Nat) : Nat := index * P.ellHatBytesSig
/-- faest.c:31-38 `signature_u_tilde`. -/
def offUTilde (P : Params) : Nat := (P.tau - 1) * P.ellHatBytesSig
/-- faest.c:40-47 `signature_d`. -/
def offD (P : Params) : Nat := (P.tau - 1) * P.ellHatBytesSig + (P.lambda / 8 + UNIVERSAL_HASH_B)
/-- faest.c:49-57 `signature_a_tilde`. -/
def offATilde (P : Params) : Nat :=
  (P.tau - 1) * P.ellHatBytesSig + (P.lambda / 8 + UNIVERSAL_HASH_B) + P.l / 8
/-- faest.c:59-76 `signature_pdec`. -/
def offPdec (P : Params) (index : Nat) : Nat :=
  let base := (P.tau - 1) * P.ellHatBytesSig + (P.lambda / 8 + UNIVERSAL_HASH_B) + P.l / 8 + P.lambda / 8
  if index < P.t0 then base + index * (P.k0 + 2) * (P.lambda / 8)
  else base + ((index - P.t0) * (P.k1 + 2) + P.t0 * (P.k0 + 2)) * (P.lambda / 8)
/-- faest.c:78-96 `signature_com`. -/
def offCom (P : Params) (index : Nat) : Nat :=
  let base := (P.tau - 1) * P.ellHatBytesSig + (P.lambda / 8 + UNIVERSAL_HASH_B) + P.l / 8 + P.lambda / 8
  if index < P.t0 then base + (index * (P.k0 + 2) + P.k0) * (P.lambda / 8)
  else base + ((index - P.t0) * (P.k1 + 2) + P.k1 + P.t0 * (P.k0 + 2)) * (P.lambda / 8)
/-- faest.c:98-102 `signature_chall_3`. -/
def offChall3 (P : Params) : Nat := P.sigSize - IV_SIZE - P.lambda / 8
/-- faest.c:104-106 `signature_iv`. -/
def offIv (P : Params) : Nat := P.sigSize - IV_SIZE

/-- faest.c:110-117 `dsignature_c`. -/
def dOffC (P : Params) (index : Nat) : Nat := index * P.ellHatBytesSig
/-- faest.c:119-126 `dsignature_u_tilde`. -/
def dOffUTilde (P : Params) : Nat := (P.tau - 1) * P.ellHatBytesSig
/-- faest.c:128-136 `dsignature_d`. -/
def dOffD (P : Params) : Nat := (P.tau - 1) * P.ellHatBytesSig + (P.lambda / 8 + UNIVERSAL_HASH_B)
/-- faest.c:138-146 `dsignature_a_tilde`. -/
def dOffATilde (P : Params) : Nat :=
  (P.tau - 1) * P.ellHatBytesSig + (P.lambda / 8 + UNIVERSAL_HASH_B) + P.l / 8
/-- faest.c:148-165 `dsignature_pdec`. -/
def dOffPdec (P : Params) (index : Nat) : Nat :=
  let base := (P.tau - 1) * P.ellHatBytesSig + (P.lambda / 8 + UNIVERSAL_HASH_B) + P.l / 8 + P.lambda / 8
  if index < P.t0 then base + index * (P.k0 + 2) * (P.lambda / 8)
  else base + ((index - P.t0) * (P.k1 + 2) + P.t0 * (P.k0 + 2)) * (P.lambda / 8)
/-- faest.c:167-185 `dsignature_com`. -/
def dOffCom (P : Params) (index : Nat) : Nat :=
  let base := (P.tau - 1) * P.ellHatBytesSig + (P.lambda / 8 + UNIVERSAL_HASH_B) + P.l / 8 + P.lambda / 8
  if index < P.t0 then base + (index * (P.k0 + 2) + P.k0) * (P.lambda / 8)
  else base + ((index - P.t0) * (P.k1 + 2) + P.k1 + P.t0 * (P.k0 + 2)) * (P.lambda / 8)
/-- faest.c:187-191 `dsignature_chall_3`. -/
def dOffChall3 (P : Params) : Nat := P.sigSize - IV_SIZE - P.lambda / 8
/-- faest.c:193-196 `dsignature_iv`. -/
def dOffIv (P : Params) : Nat := P.sigSize - IV_SIZE

/-- faest.c:198-206 `hash_mu`. -/
def hashMu (X : XOF) (inp out : List Byte) (msg : List Byte) (lambda : Nat) : List Byte :=
  H1 X lambda (inp ++ out ++ msg) (2 * lambda / 8)

/-- faest.c:208-221 `hash_challenge_1`. -/
def hashChallenge1 (X : XOF) (mu hcom c iv : List Byte) (lambda : Nat) : List Byte :=
  H2 X lambda (mu ++ hcom ++ c ++ iv) (5 * (lambda / 8) + 8)

/-- faest.c:223-237 `hash_challenge_2`. -/
def hashChallenge2 (X : XOF) (chall1 uTilde hv d : List Byte) (lambda : Nat) : List Byte :=
  H2 X lambda (chall1 ++ uTilde ++ hv ++ d) (3 * (lambda / 8) + 8)

/-- faest.c:239-249 `hash_challenge_3`. -/
def hashChallenge3 (X : XOF) (chall2 aTilde bTilde : List Byte) (lambda : Nat) : List Byte :=
  H2 X lambda (chall2 ++ aTilde ++ bTilde) (lambda / 8)

/-- faest.c:308-313: one iteration of the loop hashing the columns of `V`. -/
def hashVStep (P : Params) (chall1 : List Byte) (V : Mem (List Byte)) (i : Nat) (ctx : List Byte) :
    Option (List Byte) := do
  let col ← rd V i
  let t ← voleHash (ofList chall1) (ofList col) P.l P.lambda
  pure (ctx ++ t)

/-- faest.c:347-356: opening of vector commitment `i`. -/
def signOpenStep (P : Params) (vecCom : List VecCom) (i : Nat) (sig : Mem Byte) :
    Option (Mem Byte) := do
  let ch ← ptr sig (offChall3 P)
  let (_, s_) ← chalDec ch i P.k0 P.t0 P.k1 P.t1 (malloc MAX_DEPTH)
  let depth := if i < P.t0 then P.k0 else P.k1
  let vc ← vecCom[i]?
  vectorOpen vc.k vc.com s_ sig (offPdec P i) (offCom P i) depth (P.lambda / 8)

/-- faest.c:274-276: the bytes of `rho` hashed; nothing is hashed if `rho` is NULL or `rholen` is 0. -/
def rhoBytes (rho : Option (Mem Byte)) (rholen : Nat) : Option (List Byte) :=
  match rho with
  | some r => if rholen ≠ 0 then rdN r 0 rholen else some []
  | none => some []

/-- faest.c:251-360 `faest_sign`: the signature buffer after the call.  `rho = none` is a NULL
pointer. -/
def faestSign (X : XOF) (P : Params) (sig : Mem Byte) (msg : Mem Byte) (msglen : Nat)
    (owfKey owfInput owfOutput : Mem Byte) (rho : Option (Mem Byte)) (rholen : Nat) :
    Option (Mem Byte) := do
  let lambdaBytes := P.lambda / 8
  let ellHat := P.l + P.lambda * 2 + UNIVERSAL_HASH_B_BITS
  let ellHatBytes := ellHat / 8
  let ellBytes := P.l / 8
  -- Step 2
  let inp ← rdN owfInput 0 (P.pkSize / 2)
  let out ← rdN owfOutput 0 (P.pkSize / 2)
  let m ← rdN msg 0 msglen
  let mu := hashMu X inp out m P.lambda
  -- Step 3
  let key ← rdN owfKey 0 lambdaBytes
  let r ← rhoBytes rho rholen
  let (rootkey, iv) := H3 X P.lambda (key ++ mu ++ r) lambdaBytes
  let sig ← wrN sig (offIv P) iv
  let iv ← rdN sig (offIv P) IV_SIZE
  let (vcom, sig) ← voleCommit X rootkey iv ellHat P sig (offC P 0)
    (calloc P.lambda (List.replicate ellHatBytes 0))
  -- Step 4
  let c ← rdN sig (offC P 0) ((P.l / 8 + lambdaBytes * 2 + UNIVERSAL_HASH_B) * (P.tau - 1))
  let iv ← rdN sig (offIv P) IV_SIZE
  let chall1 := hashChallenge1 X mu vcom.hcom c iv P.lambda
  -- Step 6
  let ut ← voleHash (ofList chall1) (ofList vcom.u) P.l P.lambda
  let sig ← wrN sig (offUTilde P) ut
  -- Step 7, 8
  let ctx ← forN P.lambda [] (hashVStep P chall1 vcom.v)
  let hv := H1 X P.lambda ctx (lambdaBytes * 2)
  -- Step 9, 10
  let w ← aesExtendWitness owfKey owfInput P
  -- Step 11
  let d ← xorArr w (ofList vcom.u) ellBytes
  let sig ← wrN sig (offD P) d
  -- Step 12
  let ut ← rdN sig (offUTilde P) (lambdaBytes + UNIVERSAL_HASH_B)
  let d ← rdN sig (offD P) ellBytes
  let chall2 := hashChallenge2 X chall1 ut hv d P.lambda
  -- Step 16
  let (a, b) ← aesProve P w (ofList vcom.u) vcom.v owfInput owfOutput (ofList chall2)
  let sig ← wrN sig (offATilde P) a
  -- Step 17
  let a ← rdN sig (offATilde P) lambdaBytes
  let sig ← wrN sig (offChall3 P) (hashChallenge3 X chall2 a b P.lambda)
  -- Step 19..21
  forN P.tau sig (signOpenStep P vcom.vecCom)

/-- State of the loop faest.c:417-446. -/
structure VerifySt where
  dtilde : Mem (List Byte)
  dIdx : Nat
  q : Mem (List Byte)
  qIdx : Nat

/-- faest.c:427-432: `Dtilde` column `dIdx` for bit `j` of `delta`. -/
def dtildeStep (P : Params) (delta ut : Mem Byte) (j : Nat) (s : Mem (List Byte) × Nat) :
    Option (Mem (List Byte) × Nat) := do
  let x ← rd s.1 s.2
  let b ← rd delta j
  let y ← maskedXorArr (ofList x) ut b (P.lambda / 8 + UNIVERSAL_HASH_B)
  let dt ← wr s.1 s.2 y
  pure (dt, s.2 + 1)

/-- faest.c:440-443: column `qIdx` of `q` for bit `d` of `delta`. -/
def qCorrStep (qprime : Mem (List Byte)) (ellHatBytes : Nat) (delta c : Mem Byte) (d : Nat)
    (s : Mem (List Byte) × Nat) : Option (Mem (List Byte) × Nat) := do
  let x ← rd qprime s.2
  let b ← rd delta d
  let y ← maskedXorArr (ofList x) c b ellHatBytes
  let q ← wr s.1 s.2 y
  pure (q, s.2 + 1)

/-- faest.c:419-446: one iteration. -/
def verifyStep (P : Params) (sig : Mem Byte) (qprime : Mem (List Byte)) (i : Nat) (s : VerifySt) :
    Option VerifySt := do
  let ellHatBytes := (P.l + P.lambda * 2 + UNIVERSAL_HASH_B_BITS) / 8
  let depth := if i < P.t0 then P.k0 else P.k1
  let ch ← ptr sig (dOffChall3 P)
  let (_, delta) ← chalDec ch i P.k0 P.t0 P.k1 P.t1 (malloc MAX_DEPTH)
  let ut ← ptr sig (dOffUTilde P)
  let (dt, dIdx) ← forN depth (s.dtilde, s.dIdx) (dtildeStep P delta ut)
  if i = 0 then do
    let cols ← rdN qprime s.qIdx depth
    let q ← wrN s.q s.qIdx cols
    pure { dtilde := dt, dIdx := dIdx, q := q, qIdx := s.qIdx + depth }
  else do
    let c ← ptr sig (dOffC P (i - 1))
    let (q, qIdx) ← forN depth (s.q, s.qIdx) (qCorrStep qprime ellHatBytes delta c)
    pure { dtilde := dt, dIdx := dIdx, q := q, qIdx := qIdx }

/-- faest.c:457-463: one iteration of the loop hashing the columns of `Q`. -/
def hashQStep (P : Params) (chall1 : List Byte) (q dtilde : Mem (List Byte)) (i : Nat)
    (ctx : List Byte) : Option (List Byte) := do
  let col ← rd q i
  let t ← voleHash (ofList chall1) (ofList col) P.l P.lambda
  let dt ← rd dtilde i
  let x ← xorArr (ofList t) (ofList dt) (P.lambda / 8 + UNIVERSAL_HASH_B)
  pure (ctx ++ x)

/-- faest.c:389-390: the arrays `pdec`, `com_j` have `MAX_TAU` entries. -/
def tauFits (P : Params) : Option Unit := if P.tau ≤ MAX_TAU then some () else none

/-- faest.c:362-492 `faest_verify`: the returned value. -/
def faestVerify (X : XOF) (P : Params) (msg : Mem Byte) (msglen : Nat) (sig : Mem Byte)
    (owfInput owfOutput : Mem Byte) : Option Int := do
  let lambdaBytes := P.lambda / 8
  let ellHat := P.l + P.lambda * 2 + UNIVERSAL_HASH_B_BITS
  let ellHatBytes := ellHat / 8
  -- Step 3
  let inp ← rdN owfInput 0 (P.pkSize / 2)
  let out ← rdN owfOutput 0 (P.pkSize / 2)
  let m ← rdN msg 0 msglen
  let mu := hashMu X inp out m P.lambda
  -- Step 5
  let iv ← rdN sig (dOffIv P) IV_SIZE
  let ch ← ptr sig (dOffChall3 P)
  let _ ← tauFits P
  let (hcom, qprime) ← voleReconstruct X iv ch (fun i => ptr sig (dOffPdec P i))
    (fun i => ptr sig (dOffCom P i)) (calloc P.lambda (List.replicate ellHatBytes 0)) ellHat P
  let c ← rdN sig (dOffC P 0) ((P.l / 8 + lambdaBytes * 2 + UNIVERSAL_HASH_B) * (P.tau - 1))
  let chall1 := hashChallenge1 X mu hcom c iv P.lambda
  -- Step 8..14
  let s ← forN P.tau
    { dtilde := calloc P.lambda (List.replicate (lambdaBytes + UNIVERSAL_HASH_B) 0), dIdx := 0,
      q := calloc P.lambda (List.replicate ellHatBytes 0), qIdx := 0 }
    (verifyStep P sig qprime)
  -- Step 15, 16
  let ctx ← forN P.lambda [] (hashQStep P chall1 s.q s.dtilde)
  let hv := H1 X P.lambda ctx (lambdaBytes * 2)
  -- Step 17
  let ut ← rdN sig (dOffUTilde P) (lambdaBytes + UNIVERSAL_HASH_B)
  let d ← rdN sig (dOffD P) (P.l / 8)
  let chall2 := hashChallenge2 X chall1 ut hv d P.lambda
  -- Step 18
  let dp ← ptr sig (dOffD P)
  let ap ← ptr sig (dOffATilde P)
  let b ← aesVerify P dp s.q (ofList chall2) ch ap owfInput owfOutput
  -- Step 20
  let a ← rdN sig (dOffATilde P) lambdaBytes
  let chall3 := hashChallenge3 X chall2 a b P.lambda
  -- Step 21
  let sc ← rdN sig (dOffChall3 P) lambdaBytes
  pure (if chall3 = sc then 0 else -1)

end Faest
