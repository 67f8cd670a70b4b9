/-
The translated public functions of each parameter set.
-/
import Verif.Model.Gen.CryptoSign

namespace Faest.GenApi
open Faest.C

/-- faest_param.c.in:28-46 `faest_*_keygen` of the given parameter set. -/
def keygen (i : ParamId) (R pk sk : CPtr) : CM Nat :=
  match i with
  | .p128S => Gen.faest_128s_keygen R pk sk
  | .p128F => Gen.faest_128f_keygen R pk sk
  | .p192S => Gen.faest_192s_keygen R pk sk
  | .p192F => Gen.faest_192f_keygen R pk sk
  | .p256S => Gen.faest_256s_keygen R pk sk
  | .p256F => Gen.faest_256f_keygen R pk sk
  | .pEM128S => Gen.faest_em_128s_keygen R pk sk
  | .pEM128F => Gen.faest_em_128f_keygen R pk sk
  | .pEM192S => Gen.faest_em_192s_keygen R pk sk
  | .pEM192F => Gen.faest_em_192f_keygen R pk sk
  | .pEM256S => Gen.faest_em_256s_keygen R pk sk
  | .pEM256F => Gen.faest_em_256f_keygen R pk sk

/-- faest_param.c.in:48-61 `faest_*_validate_keypair` of the given parameter set. -/
def validateKeypair (i : ParamId) (pk sk : CPtr) : CM Nat :=
  match i with
  | .p128S => Gen.faest_128s_validate_keypair pk sk
  | .p128F => Gen.faest_128f_validate_keypair pk sk
  | .p192S => Gen.faest_192s_validate_keypair pk sk
  | .p192F => Gen.faest_192f_validate_keypair pk sk
  | .p256S => Gen.faest_256s_validate_keypair pk sk
  | .p256F => Gen.faest_256f_validate_keypair pk sk
  | .pEM128S => Gen.faest_em_128s_validate_keypair pk sk
  | .pEM128F => Gen.faest_em_128f_validate_keypair pk sk
  | .pEM192S => Gen.faest_em_192s_validate_keypair pk sk
  | .pEM192F => Gen.faest_em_192f_validate_keypair pk sk
  | .pEM256S => Gen.faest_em_256s_validate_keypair pk sk
  | .pEM256F => Gen.faest_em_256f_validate_keypair pk sk

/-- faest_param.c.in:63-81 `faest_*_sign_with_randomness` of the given parameter set. -/
def signWithRandomness (i : ParamId) (I : HImpl) (sk msg : CPtr) (len : Nat) (rho : CPtr) (rholen : Nat) (sig siglen : CPtr) : CM Nat :=
  match i with
  | .p128S => Gen.faest_128s_sign_with_randomness I sk msg len rho rholen sig siglen
  | .p128F => Gen.faest_128f_sign_with_randomness I sk msg len rho rholen sig siglen
  | .p192S => Gen.faest_192s_sign_with_randomness I sk msg len rho rholen sig siglen
  | .p192F => Gen.faest_192f_sign_with_randomness I sk msg len rho rholen sig siglen
  | .p256S => Gen.faest_256s_sign_with_randomness I sk msg len rho rholen sig siglen
  | .p256F => Gen.faest_256f_sign_with_randomness I sk msg len rho rholen sig siglen
  | .pEM128S => Gen.faest_em_128s_sign_with_randomness I sk msg len rho rholen sig siglen
  | .pEM128F => Gen.faest_em_128f_sign_with_randomness I sk msg len rho rholen sig siglen
  | .pEM192S => Gen.faest_em_192s_sign_with_randomness I sk msg len rho rholen sig siglen
  | .pEM192F => Gen.faest_em_192f_sign_with_randomness I sk msg len rho rholen sig siglen
  | .pEM256S => Gen.faest_em_256s_sign_with_randomness I sk msg len rho rholen sig siglen
  | .pEM256F => Gen.faest_em_256f_sign_with_randomness I sk msg len rho rholen sig siglen

/-- faest_param.c.in:83-92 `faest_*_sign` of the given parameter set. -/
def sign (i : ParamId) (I : HImpl) (R sk msg : CPtr) (len : Nat) (sig siglen : CPtr) : CM Nat :=
  match i with
  | .p128S => Gen.faest_128s_sign I R sk msg len sig siglen
  | .p128F => Gen.faest_128f_sign I R sk msg len sig siglen
  | .p192S => Gen.faest_192s_sign I R sk msg len sig siglen
  | .p192F => Gen.faest_192f_sign I R sk msg len sig siglen
  | .p256S => Gen.faest_256s_sign I R sk msg len sig siglen
  | .p256F => Gen.faest_256f_sign I R sk msg len sig siglen
  | .pEM128S => Gen.faest_em_128s_sign I R sk msg len sig siglen
  | .pEM128F => Gen.faest_em_128f_sign I R sk msg len sig siglen
  | .pEM192S => Gen.faest_em_192s_sign I R sk msg len sig siglen
  | .pEM192F => Gen.faest_em_192f_sign I R sk msg len sig siglen
  | .pEM256S => Gen.faest_em_256s_sign I R sk msg len sig siglen
  | .pEM256F => Gen.faest_em_256f_sign I R sk msg len sig siglen

/-- faest_param.c.in:94-101 `faest_*_verify` of the given parameter set. -/
def verify (i : ParamId) (I : HImpl) (pk msg : CPtr) (len : Nat) (sig : CPtr) (siglen : Nat) : CM Nat :=
  match i with
  | .p128S => Gen.faest_128s_verify I pk msg len sig siglen
  | .p128F => Gen.faest_128f_verify I pk msg len sig siglen
  | .p192S => Gen.faest_192s_verify I pk msg len sig siglen
  | .p192F => Gen.faest_192f_verify I pk msg len sig siglen
  | .p256S => Gen.faest_256s_verify I pk msg len sig siglen
  | .p256F => Gen.faest_256f_verify I pk msg len sig siglen
  | .pEM128S => Gen.faest_em_128s_verify I pk msg len sig siglen
  | .pEM128F => Gen.faest_em_128f_verify I pk msg len sig siglen
  | .pEM192S => Gen.faest_em_192s_verify I pk msg len sig siglen
  | .pEM192F => Gen.faest_em_192f_verify I pk msg len sig siglen
  | .pEM256S => Gen.faest_em_256s_verify I pk msg len sig siglen
  | .pEM256F => Gen.faest_em_256f_verify I pk msg len sig siglen

/-- faest_param.c.in:103-105 `faest_*_clear_private_key` of the given parameter set. -/
def clearPrivateKey (i : ParamId) (key : CPtr) : CM Unit :=
  match i with
  | .p128S => Gen.faest_128s_clear_private_key key
  | .p128F => Gen.faest_128f_clear_private_key key
  | .p192S => Gen.faest_192s_clear_private_key key
  | .p192F => Gen.faest_192f_clear_private_key key
  | .p256S => Gen.faest_256s_clear_private_key key
  | .p256F => Gen.faest_256f_clear_private_key key
  | .pEM128S => Gen.faest_em_128s_clear_private_key key
  | .pEM128F => Gen.faest_em_128f_clear_private_key key
  | .pEM192S => Gen.faest_em_192s_clear_private_key key
  | .pEM192F => Gen.faest_em_192f_clear_private_key key
  | .pEM256S => Gen.faest_em_256s_clear_private_key key
  | .pEM256F => Gen.faest_em_256f_clear_private_key key

/-- crypto_sign.c.in:19-21 `crypto_sign_keypair` of the given parameter set. -/
def cryptoSignKeypair (i : ParamId) (R pk sk : CPtr) : CM Nat :=
  match i with
  | .p128S => Gen.crypto_sign_keypair_128s R pk sk
  | .p128F => Gen.crypto_sign_keypair_128f R pk sk
  | .p192S => Gen.crypto_sign_keypair_192s R pk sk
  | .p192F => Gen.crypto_sign_keypair_192f R pk sk
  | .p256S => Gen.crypto_sign_keypair_256s R pk sk
  | .p256F => Gen.crypto_sign_keypair_256f R pk sk
  | .pEM128S => Gen.crypto_sign_keypair_em_128s R pk sk
  | .pEM128F => Gen.crypto_sign_keypair_em_128f R pk sk
  | .pEM192S => Gen.crypto_sign_keypair_em_192s R pk sk
  | .pEM192F => Gen.crypto_sign_keypair_em_192f R pk sk
  | .pEM256S => Gen.crypto_sign_keypair_em_256s R pk sk
  | .pEM256F => Gen.crypto_sign_keypair_em_256f R pk sk

/-- crypto_sign.c.in:23-30 `crypto_sign` of the given parameter set. -/
def cryptoSign (i : ParamId) (I : HImpl) (R sm smlen m : CPtr) (mlen : Nat) (sk : CPtr) : CM Nat :=
  match i with
  | .p128S => Gen.crypto_sign_128s I R sm smlen m mlen sk
  | .p128F => Gen.crypto_sign_128f I R sm smlen m mlen sk
  | .p192S => Gen.crypto_sign_192s I R sm smlen m mlen sk
  | .p192F => Gen.crypto_sign_192f I R sm smlen m mlen sk
  | .p256S => Gen.crypto_sign_256s I R sm smlen m mlen sk
  | .p256F => Gen.crypto_sign_256f I R sm smlen m mlen sk
  | .pEM128S => Gen.crypto_sign_em_128s I R sm smlen m mlen sk
  | .pEM128F => Gen.crypto_sign_em_128f I R sm smlen m mlen sk
  | .pEM192S => Gen.crypto_sign_em_192s I R sm smlen m mlen sk
  | .pEM192F => Gen.crypto_sign_em_192f I R sm smlen m mlen sk
  | .pEM256S => Gen.crypto_sign_em_256s I R sm smlen m mlen sk
  | .pEM256F => Gen.crypto_sign_em_256f I R sm smlen m mlen sk

/-- crypto_sign.c.in:32-46 `crypto_sign_open` of the given parameter set. -/
def cryptoSignOpen (i : ParamId) (I : HImpl) (m mlen sm : CPtr) (smlen : Nat) (pk : CPtr) : CM Nat :=
  match i with
  | .p128S => Gen.crypto_sign_open_128s I m mlen sm smlen pk
  | .p128F => Gen.crypto_sign_open_128f I m mlen sm smlen pk
  | .p192S => Gen.crypto_sign_open_192s I m mlen sm smlen pk
  | .p192F => Gen.crypto_sign_open_192f I m mlen sm smlen pk
  | .p256S => Gen.crypto_sign_open_256s I m mlen sm smlen pk
  | .p256F => Gen.crypto_sign_open_256f I m mlen sm smlen pk
  | .pEM128S => Gen.crypto_sign_open_em_128s I m mlen sm smlen pk
  | .pEM128F => Gen.crypto_sign_open_em_128f I m mlen sm smlen pk
  | .pEM192S => Gen.crypto_sign_open_em_192s I m mlen sm smlen pk
  | .pEM192F => Gen.crypto_sign_open_em_192f I m mlen sm smlen pk
  | .pEM256S => Gen.crypto_sign_open_em_256s I m mlen sm smlen pk
  | .pEM256F => Gen.crypto_sign_open_em_256f I m mlen sm smlen pk

end Faest.GenApi
