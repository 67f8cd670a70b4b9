/-
The translation with the functions of fields.c as parameter, for the model of the fields: the public functions.
-/
import Verif.Model.GenApi
import Verif.Model.GenWApi
import Verif.Proofs.Gen.WEq

namespace Faest.GenWApi
open Faest.C

theorem keygen_eq : keygen absF = GenApi.keygen := by
  funext i
  cases i
  · exact GenW.faest_128s_keygen_eq
  · exact GenW.faest_128f_keygen_eq
  · exact GenW.faest_192s_keygen_eq
  · exact GenW.faest_192f_keygen_eq
  · exact GenW.faest_256s_keygen_eq
  · exact GenW.faest_256f_keygen_eq
  · exact GenW.faest_em_128s_keygen_eq
  · exact GenW.faest_em_128f_keygen_eq
  · exact GenW.faest_em_192s_keygen_eq
  · exact GenW.faest_em_192f_keygen_eq
  · exact GenW.faest_em_256s_keygen_eq
  · exact GenW.faest_em_256f_keygen_eq

theorem validateKeypair_eq : validateKeypair absF = GenApi.validateKeypair := by
  funext i
  cases i
  · exact GenW.faest_128s_validate_keypair_eq
  · exact GenW.faest_128f_validate_keypair_eq
  · exact GenW.faest_192s_validate_keypair_eq
  · exact GenW.faest_192f_validate_keypair_eq
  · exact GenW.faest_256s_validate_keypair_eq
  · exact GenW.faest_256f_validate_keypair_eq
  · exact GenW.faest_em_128s_validate_keypair_eq
  · exact GenW.faest_em_128f_validate_keypair_eq
  · exact GenW.faest_em_192s_validate_keypair_eq
  · exact GenW.faest_em_192f_validate_keypair_eq
  · exact GenW.faest_em_256s_validate_keypair_eq
  · exact GenW.faest_em_256f_validate_keypair_eq

theorem signWithRandomness_eq : signWithRandomness absF = GenApi.signWithRandomness := by
  funext i
  cases i
  · exact GenW.faest_128s_sign_with_randomness_eq
  · exact GenW.faest_128f_sign_with_randomness_eq
  · exact GenW.faest_192s_sign_with_randomness_eq
  · exact GenW.faest_192f_sign_with_randomness_eq
  · exact GenW.faest_256s_sign_with_randomness_eq
  · exact GenW.faest_256f_sign_with_randomness_eq
  · exact GenW.faest_em_128s_sign_with_randomness_eq
  · exact GenW.faest_em_128f_sign_with_randomness_eq
  · exact GenW.faest_em_192s_sign_with_randomness_eq
  · exact GenW.faest_em_192f_sign_with_randomness_eq
  · exact GenW.faest_em_256s_sign_with_randomness_eq
  · exact GenW.faest_em_256f_sign_with_randomness_eq

theorem sign_eq : sign absF = GenApi.sign := by
  funext i
  cases i
  · exact GenW.faest_128s_sign_eq
  · exact GenW.faest_128f_sign_eq
  · exact GenW.faest_192s_sign_eq
  · exact GenW.faest_192f_sign_eq
  · exact GenW.faest_256s_sign_eq
  · exact GenW.faest_256f_sign_eq
  · exact GenW.faest_em_128s_sign_eq
  · exact GenW.faest_em_128f_sign_eq
  · exact GenW.faest_em_192s_sign_eq
  · exact GenW.faest_em_192f_sign_eq
  · exact GenW.faest_em_256s_sign_eq
  · exact GenW.faest_em_256f_sign_eq

theorem verify_eq : verify absF = GenApi.verify := by
  funext i
  cases i
  · exact GenW.faest_128s_verify_eq
  · exact GenW.faest_128f_verify_eq
  · exact GenW.faest_192s_verify_eq
  · exact GenW.faest_192f_verify_eq
  · exact GenW.faest_256s_verify_eq
  · exact GenW.faest_256f_verify_eq
  · exact GenW.faest_em_128s_verify_eq
  · exact GenW.faest_em_128f_verify_eq
  · exact GenW.faest_em_192s_verify_eq
  · exact GenW.faest_em_192f_verify_eq
  · exact GenW.faest_em_256s_verify_eq
  · exact GenW.faest_em_256f_verify_eq

theorem cryptoSignKeypair_eq : cryptoSignKeypair absF = GenApi.cryptoSignKeypair := by
  funext i
  cases i
  · exact GenW.crypto_sign_keypair_128s_eq
  · exact GenW.crypto_sign_keypair_128f_eq
  · exact GenW.crypto_sign_keypair_192s_eq
  · exact GenW.crypto_sign_keypair_192f_eq
  · exact GenW.crypto_sign_keypair_256s_eq
  · exact GenW.crypto_sign_keypair_256f_eq
  · exact GenW.crypto_sign_keypair_em_128s_eq
  · exact GenW.crypto_sign_keypair_em_128f_eq
  · exact GenW.crypto_sign_keypair_em_192s_eq
  · exact GenW.crypto_sign_keypair_em_192f_eq
  · exact GenW.crypto_sign_keypair_em_256s_eq
  · exact GenW.crypto_sign_keypair_em_256f_eq

theorem cryptoSign_eq : cryptoSign absF = GenApi.cryptoSign := by
  funext i
  cases i
  · exact GenW.crypto_sign_128s_eq
  · exact GenW.crypto_sign_128f_eq
  · exact GenW.crypto_sign_192s_eq
  · exact GenW.crypto_sign_192f_eq
  · exact GenW.crypto_sign_256s_eq
  · exact GenW.crypto_sign_256f_eq
  · exact GenW.crypto_sign_em_128s_eq
  · exact GenW.crypto_sign_em_128f_eq
  · exact GenW.crypto_sign_em_192s_eq
  · exact GenW.crypto_sign_em_192f_eq
  · exact GenW.crypto_sign_em_256s_eq
  · exact GenW.crypto_sign_em_256f_eq

theorem cryptoSignOpen_eq : cryptoSignOpen absF = GenApi.cryptoSignOpen := by
  funext i
  cases i
  · exact GenW.crypto_sign_open_128s_eq
  · exact GenW.crypto_sign_open_128f_eq
  · exact GenW.crypto_sign_open_192s_eq
  · exact GenW.crypto_sign_open_192f_eq
  · exact GenW.crypto_sign_open_256s_eq
  · exact GenW.crypto_sign_open_256f_eq
  · exact GenW.crypto_sign_open_em_128s_eq
  · exact GenW.crypto_sign_open_em_128f_eq
  · exact GenW.crypto_sign_open_em_192s_eq
  · exact GenW.crypto_sign_open_em_192f_eq
  · exact GenW.crypto_sign_open_em_256s_eq
  · exact GenW.crypto_sign_open_em_256f_eq

end Faest.GenWApi
