/-
The translated public functions of each parameter set, with the functions of fields.c as parameter.
-/
import Verif.Model.GenW.CryptoSign

namespace Faest.GenWApi
open Faest.C

/-- faest_param.c.in:28-46 `faest_*_keygen` of the given parameter set. -/
def keygen (F : FImpl) (i : ParamId) (R pk sk : CPtr) : CM Nat :=
  match i with
  | .p128S => GenW.faest_128s_keygen F R pk sk
  | .p128F => GenW.faest_128f_keygen F R pk sk
  | .p192S => GenW.faest_192s_keygen F R pk sk
  | .p192F => GenW.faest_192f_keygen F R pk sk
  | .p256S => GenW.faest_256s_keygen F R pk sk
  | .p256F => GenW.faest_256f_keygen F R pk sk
  | .pEM128S => GenW.faest_em_128s_keygen F R pk sk
  | .pEM128F => GenW.faest_em_128f_keygen F R pk sk
  | .pEM192S => GenW.faest_em_192s_keygen F R pk sk
  | .pEM192F => GenW.faest_em_192f_keygen F R pk sk
  | .pEM256S => GenW.faest_em_256s_keygen F R pk sk
  | .pEM256F => GenW.faest_em_256f_keygen F R pk sk

/-- faest_param.c.in:48-61 `faest_*_validate_keypair` of the given parameter set. -/
def validateKeypair (F : FImpl) (i : ParamId) (pk sk : CPtr) : CM Nat :=
  match i with
  | .p128S => GenW.faest_128s_validate_keypair F pk sk
  | .p128F => GenW.faest_128f_validate_keypair F pk sk
  | .p192S => GenW.faest_192s_validate_keypair F pk sk
  | .p192F => GenW.faest_192f_validate_keypair F pk sk
  | .p256S => GenW.faest_256s_validate_keypair F pk sk
  | .p256F => GenW.faest_256f_validate_keypair F pk sk
  | .pEM128S => GenW.faest_em_128s_validate_keypair F pk sk
  | .pEM128F => GenW.faest_em_128f_validate_keypair F pk sk
  | .pEM192S => GenW.faest_em_192s_validate_keypair F pk sk
  | .pEM192F => GenW.faest_em_192f_validate_keypair F pk sk
  | .pEM256S => GenW.faest_em_256s_validate_keypair F pk sk
  | .pEM256F => GenW.faest_em_256f_validate_keypair F pk sk

/-- faest_param.c.in:63-81 `faest_*_sign_with_randomness` of the given parameter set. -/
def signWithRandomness (F : FImpl) (i : ParamId) (I : HImpl) (sk msg : CPtr) (len : Nat) (rho : CPtr) (rholen : Nat) (sig siglen : CPtr) : CM Nat :=
  match i with
  | .p128S => GenW.faest_128s_sign_with_randomness F I sk msg len rho rholen sig siglen
  | .p128F => GenW.faest_128f_sign_with_randomness F I sk msg len rho rholen sig siglen
  | .p192S => GenW.faest_192s_sign_with_randomness F I sk msg len rho rholen sig siglen
  | .p192F => GenW.faest_192f_sign_with_randomness F I sk msg len rho rholen sig siglen
  | .p256S => GenW.faest_256s_sign_with_randomness F I sk msg len rho rholen sig siglen
  | .p256F => GenW.faest_256f_sign_with_randomness F I sk msg len rho rholen sig siglen
  | .pEM128S => GenW.faest_em_128s_sign_with_randomness F I sk msg len rho rholen sig siglen
  | .pEM128F => GenW.faest_em_128f_sign_with_randomness F I sk msg len rho rholen sig siglen
  | .pEM192S => GenW.faest_em_192s_sign_with_randomness F I sk msg len rho rholen sig siglen
  | .pEM192F => GenW.faest_em_192f_sign_with_randomness F I sk msg len rho rholen sig siglen
  | .pEM256S => GenW.faest_em_256s_sign_with_randomness F I sk msg len rho rholen sig siglen
  | .pEM256F => GenW.faest_em_256f_sign_with_randomness F I sk msg len rho rholen sig siglen

/-- faest_param.c.in:83-92 `faest_*_sign` of the given parameter set. -/
def sign (F : FImpl) (i : ParamId) (I : HImpl) (R sk msg : CPtr) (len : Nat) (sig siglen : CPtr) : CM Nat :=
  match i with
  | .p128S => GenW.faest_128s_sign F I R sk msg len sig siglen
  | .p128F => GenW.faest_128f_sign F I R sk msg len sig siglen
  | .p192S => GenW.faest_192s_sign F I R sk msg len sig siglen
  | .p192F => GenW.faest_192f_sign F I R sk msg len sig siglen
  | .p256S => GenW.faest_256s_sign F I R sk msg len sig siglen
  | .p256F => GenW.faest_256f_sign F I R sk msg len sig siglen
  | .pEM128S => GenW.faest_em_128s_sign F I R sk msg len sig siglen
  | .pEM128F => GenW.faest_em_128f_sign F I R sk msg len sig siglen
  | .pEM192S => GenW.faest_em_192s_sign F I R sk msg len sig siglen
  | .pEM192F => GenW.faest_em_192f_sign F I R sk msg len sig siglen
  | .pEM256S => GenW.faest_em_256s_sign F I R sk msg len sig siglen
  | .pEM256F => GenW.faest_em_256f_sign F I R sk msg len sig siglen

/-- faest_param.c.in:94-101 `faest_*_verify` of the given parameter set. -/
def verify (F : FImpl) (i : ParamId) (I : HImpl) (pk msg : CPtr) (len : Nat) (sig : CPtr) (siglen : Nat) : CM Nat :=
  match i with
  | .p128S => GenW.faest_128s_verify F I pk msg len sig siglen
  | .p128F => GenW.faest_128f_verify F I pk msg len sig siglen
  | .p192S => GenW.faest_192s_verify F I pk msg len sig siglen
  | .p192F => GenW.faest_192f_verify F I pk msg len sig siglen
  | .p256S => GenW.faest_256s_verify F I pk msg len sig siglen
  | .p256F => GenW.faest_256f_verify F I pk msg len sig siglen
  | .pEM128S => GenW.faest_em_128s_verify F I pk msg len sig siglen
  | .pEM128F => GenW.faest_em_128f_verify F I pk msg len sig siglen
  | .pEM192S => GenW.faest_em_192s_verify F I pk msg len sig siglen
  | .pEM192F => GenW.faest_em_192f_verify F I pk msg len sig siglen
  | .pEM256S => GenW.faest_em_256s_verify F I pk msg len sig siglen
  | .pEM256F => GenW.faest_em_256f_verify F I pk msg len sig siglen

/-- faest_param.c.in:103-105 `faest_*_clear_private_key` of the given parameter set. -/
def clearPrivateKey (i : ParamId) (key : CPtr) : CM Unit :=
  match i with
  | .p128S => GenW.faest_128s_clear_private_key key
  | .p128F => GenW.faest_128f_clear_private_key key
  | .p192S => GenW.faest_192s_clear_private_key key
  | .p192F => GenW.faest_192f_clear_private_key key
  | .p256S => GenW.faest_256s_clear_private_key key
  | .p256F => GenW.faest_256f_clear_private_key key
  | .pEM128S => GenW.faest_em_128s_clear_private_key key
  | .pEM128F => GenW.faest_em_128f_clear_private_key key
  | .pEM192S => GenW.faest_em_192s_clear_private_key key
  | .pEM192F => GenW.faest_em_192f_clear_private_key key
  | .pEM256S => GenW.faest_em_256s_clear_private_key key
  | .pEM256F => GenW.faest_em_256f_clear_private_key key

/-- crypto_sign.c.in:19-21 `crypto_sign_keypair` of the given parameter set. -/
def cryptoSignKeypair (F : FImpl) (i : ParamId) (R pk sk : CPtr) : CM Nat :=
  match i with
  | .p128S => GenW.crypto_sign_keypair_128s F R pk sk
  | .p128F => GenW.crypto_sign_keypair_128f F R pk sk
  | .p192S => GenW.crypto_sign_keypair_192s F R pk sk
  | .p192F => GenW.crypto_sign_keypair_192f F R pk sk
  | .p256S => GenW.crypto_sign_keypair_256s F R pk sk
  | .p256F => GenW.crypto_sign_keypair_256f F R pk sk
  | .pEM128S => GenW.crypto_sign_keypair_em_128s F R pk sk
  | .pEM128F => GenW.crypto_sign_keypair_em_128f F R pk sk
  | .pEM192S => GenW.crypto_sign_keypair_em_192s F R pk sk
  | .pEM192F => GenW.crypto_sign_keypair_em_192f F R pk sk
  | .pEM256S => GenW.crypto_sign_keypair_em_256s F R pk sk
  | .pEM256F => GenW.crypto_sign_keypair_em_256f F R pk sk

/-- crypto_sign.c.in:23-30 `crypto_sign` of the given parameter set. -/
def cryptoSign (F : FImpl) (i : ParamId) (I : HImpl) (R sm smlen m : CPtr) (mlen : Nat) (sk : CPtr) : CM Nat :=
  match i with
  | .p128S => GenW.crypto_sign_128s F I R sm smlen m mlen sk
  | .p128F => GenW.crypto_sign_128f F I R sm smlen m mlen sk
  | .p192S => GenW.crypto_sign_192s F I R sm smlen m mlen sk
  | .p192F => GenW.crypto_sign_192f F I R sm smlen m mlen sk
  | .p256S => GenW.crypto_sign_256s F I R sm smlen m mlen sk
  | .p256F => GenW.crypto_sign_256f F I R sm smlen m mlen sk
  | .pEM128S => GenW.crypto_sign_em_128s F I R sm smlen m mlen sk
  | .pEM128F => GenW.crypto_sign_em_128f F I R sm smlen m mlen sk
  | .pEM192S => GenW.crypto_sign_em_192s F I R sm smlen m mlen sk
  | .pEM192F => GenW.crypto_sign_em_192f F I R sm smlen m mlen sk
  | .pEM256S => GenW.crypto_sign_em_256s F I R sm smlen m mlen sk
  | .pEM256F => GenW.crypto_sign_em_256f F I R sm smlen m mlen sk

/-- crypto_sign.c.in:32-46 `crypto_sign_open` of the given parameter set. -/
def cryptoSignOpen (F : FImpl) (i : ParamId) (I : HImpl) (m mlen sm : CPtr) (smlen : Nat) (pk : CPtr) : CM Nat :=
  match i with
  | .p128S => GenW.crypto_sign_open_128s F I m mlen sm smlen pk
  | .p128F => GenW.crypto_sign_open_128f F I m mlen sm smlen pk
  | .p192S => GenW.crypto_sign_open_192s F I m mlen sm smlen pk
  | .p192F => GenW.crypto_sign_open_192f F I m mlen sm smlen pk
  | .p256S => GenW.crypto_sign_open_256s F I m mlen sm smlen pk
  | .p256F => GenW.crypto_sign_open_256f F I m mlen sm smlen pk
  | .pEM128S => GenW.crypto_sign_open_em_128s F I m mlen sm smlen pk
  | .pEM128F => GenW.crypto_sign_open_em_128f F I m mlen sm smlen pk
  | .pEM192S => GenW.crypto_sign_open_em_192s F I m mlen sm smlen pk
  | .pEM192F => GenW.crypto_sign_open_em_192f F I m mlen sm smlen pk
  | .pEM256S => GenW.crypto_sign_open_em_256s F I m mlen sm smlen pk
  | .pEM256F => GenW.crypto_sign_open_em_256f F I m mlen sm smlen pk

end Faest.GenWApi
