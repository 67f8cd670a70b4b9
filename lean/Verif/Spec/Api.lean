/-
Keys, signatures and validity on byte strings.
-/
import Verif.Spec.Scheme

namespace Faest.Spec

/-- The public key determined by a secret key: input of the one-way function, then its output. -/
def pkOf (i : ParamId) (sk : List Byte) : List Byte :=
  sk.take ((params i).pkSize / 2)
    ++ tabP ((params i).pkSize / 2) (owf i (byteFn (sk.drop ((params i).pkSize / 2))) (byteFn sk))

/-- The one-way function accepts the secret key. -/
def skGood (i : ParamId) (sk : List Byte) : Prop :=
  owfGood i (byteFn (sk.drop ((params i).pkSize / 2))) (byteFn sk)

/-- The signature of `m` under the secret key `sk` with additional randomness `rho`. -/
def signature (X : XOF) (i : ParamId) (sk m rho : List Byte) : List Byte :=
  sSig X (params i) (byteFn (sk.drop ((params i).pkSize / 2))) (byteFn sk)
    (owf i (byteFn (sk.drop ((params i).pkSize / 2))) (byteFn sk)) m rho

/-- `sg` is a valid signature of `m` under the public key `pk`. -/
def ValidSig (X : XOF) (i : ParamId) (pk m sg : List Byte) : Prop :=
  Valid X (params i) (byteFn sg) (byteFn pk) (byteFn (pk.drop ((params i).pkSize / 2))) m

end Faest.Spec
