/-
Generated by tools/c2leak.py; do not edit.
The program.
-/
import Verif.Model.Leak.Prog
import Verif.Model.Leak.Prog32.KeccakP1600Inplace32BI
import Verif.Model.Leak.Prog32.KeccakSponge
import Verif.Model.Leak.Prog32.PlSnPFallback

namespace Faest.Leak

/-- All functions reached from the entries, in the order of their numbers.
Those which are the same as in `prog`, or which are not reached in this build, are from there. -/
def prog32 : List Fn := [
  Prog.memset,
  Prog.KeccakP1600_Initialize,
  Prog.KeccakWidth1600_SpongeInitialize,
  Prog.Keccak_HashInitialize,
  Prog.hash_init,
  Prog.H1_init,
  Prog.KeccakF1600_FastLoop_Absorb,
  Prog32.KeccakP1600_AddLanes,
  Prog.memcpy,
  Prog32.KeccakP1600_AddBytesInLane,
  Prog.KeccakP1600_AddBytes,
  Prog32.KeccakP1600_Permute_24rounds,
  Prog32.KeccakWidth1600_SpongeAbsorb,
  Prog.Keccak_HashUpdate,
  Prog.hash_update,
  Prog.H1_update,
  Prog32.KeccakWidth1600_SpongeAbsorbLastFewBits,
  Prog32.KeccakP1600_ExtractLanes,
  Prog32.KeccakP1600_ExtractBytesInLane,
  Prog.KeccakP1600_ExtractBytes,
  Prog.KeccakWidth1600_SpongeSqueeze,
  Prog.Keccak_HashFinal,
  Prog.hash_final,
  Prog.Keccak_HashSqueeze,
  Prog.hash_squeeze,
  Prog.H1_final,
  Prog.hash_mu,
  Prog.H3_init,
  Prog.H3_update,
  Prog.signature_iv,
  Prog.H3_final,
  Prog.signature_c,
  Prog.bf8_load,
  Prog.rot_word,
  Prog.contains_zero,
  Prog.bf8_square,
  Prog.bf8_mul,
  Prog.bf8_inv,
  Prog.parity8,
  Prog.compute_sbox,
  Prog.sub_words,
  Prog.expand_key,
  Prog.aes256_init_round_keys,
  Prog.load_state,
  Prog.xor_u8_array,
  Prog.add_round_key,
  Prog.sub_bytes,
  Prog.shift_row,
  Prog.mix_column,
  Prog.aes_encrypt,
  Prog.bf8_store,
  Prog.store_state,
  Prog.aes_increment_iv,
  Prog.aes192_init_round_keys,
  Prog.aes128_init_round_keys,
  Prog.prg,
  Prog.getBinaryTreeNodeCount,
  Prog.create_tree,
  Prog.is_left_child,
  Prog.get_parent,
  Prog.expand_seeds,
  Prog.generate_seeds,
  Prog.KeccakP1600times4_StaticInitialize,
  Prog.KeccakP1600times4_InitializeAll,
  Prog.KeccakWidth1600times4_SpongeInitialize,
  Prog.Keccak_HashInitializetimes4,
  Prog.hash_init_x4,
  Prog.H0_x4_init,
  Prog.KeccakP1600times4_AddBytes,
  Prog.KeccakP1600times4_PermuteAll_24rounds,
  Prog.KeccakWidth1600times4_SpongeAbsorb,
  Prog.Keccak_HashUpdatetimes4,
  Prog.hash_update_x4,
  Prog.hash_update_x4_4,
  Prog.H0_x4_update,
  Prog.hash_update_x4_1,
  Prog32.KeccakP1600times4_AddByte,
  Prog.KeccakWidth1600times4_SpongeAbsorbLastFewBits,
  Prog.KeccakP1600times4_ExtractBytes,
  Prog.KeccakWidth1600times4_SpongeSqueeze,
  Prog.Keccak_HashFinaltimes4,
  Prog.hash_final_x4,
  Prog.Keccak_HashSqueezetimes4,
  Prog.hash_squeeze_x4,
  Prog.hash_squeeze_x4_4,
  Prog.H0_x4_final,
  Prog.H0_init,
  Prog.H0_update,
  Prog.H0_final,
  Prog.vector_commitment,
  Prog.ConvertToVole,
  Prog.vole_commit,
  Prog.H2_init,
  Prog.H2_update,
  Prog.H2_final,
  Prog.hash_challenge_1,
  Prog.signature_u_tilde,
  Prog.bf256_load,
  Prog.bf256_bit_to_uint64_mask,
  Prog.bf256_and_64,
  Prog.bf256_shift_left_1,
  Prog.bf256_add,
  Prog.bf256_mul,
  Prog.bf64_load,
  Prog.bf64_zero,
  Prog.bf64_one,
  Prog.bf64_mul,
  Prog.bf64_add,
  Prog.compute_h1,
  Prog.bf256_mul_64,
  Prog.bf256_store,
  Prog.vole_hash_256,
  Prog.bf192_load,
  Prog.bf192_bit_to_uint64_mask,
  Prog.bf192_and_64,
  Prog.bf192_shift_left_1,
  Prog.bf192_add,
  Prog.bf192_mul,
  Prog.bf192_mul_64,
  Prog.bf192_store,
  Prog.vole_hash_192,
  Prog.bf128_load,
  Prog.bf128_bit_to_uint64_mask,
  Prog.bf128_and_64,
  Prog.bf128_shift_left_1,
  Prog.bf128_add,
  Prog.bf128_mul,
  Prog.bf128_mul_64,
  Prog.bf128_store,
  Prog.vole_hash_128,
  Prog.vole_hash,
  Prog.rijndael256_init_round_keys,
  Prog.rijndael192_init_round_keys,
  Prog.aes_extend_witness,
  Prog.signature_d,
  Prog.hash_challenge_2,
  Prog.signature_a_tilde,
  Prog.column_to_row_major_and_shrink_V_256,
  Prog.bf256_zero,
  Prog.zk_hash_256_init,
  Prog.aes_key_schedule_forward_1,
  Prog.aes_key_schedule_forward_256,
  Prog.rotr8,
  Prog.aes_key_schedule_backward_1,
  Prog.bf256_from_bf8,
  Prog.bf256_from_bit,
  Prog.bf256_mul_bit,
  Prog.aes_key_schedule_backward_256,
  Prog.bf256_byte_combine_bits,
  Prog.bf256_byte_combine,
  Prog.zk_hash_256_update,
  Prog.bf256_one,
  Prog.aes_key_schedule_constraints_Mkey_0_256,
  Prog.aes_enc_forward_256_1,
  Prog.aes_enc_forward_256,
  Prog.aes_enc_backward_256_1,
  Prog.aes_enc_backward_256,
  Prog.aes_enc_constraints_Mkey_0_256,
  Prog.zk_hash_256_finalize,
  Prog.bf256_dbl,
  Prog.bf256_sum_poly,
  Prog.aes_prove_256,
  Prog.em_enc_forward_256_1,
  Prog.em_enc_forward_256,
  Prog.em_enc_backward_256_1,
  Prog.em_enc_backward_256,
  Prog.em_enc_constraints_Mkey_0_256,
  Prog.em_prove_256,
  Prog.column_to_row_major_and_shrink_V_192,
  Prog.bf192_zero,
  Prog.zk_hash_192_init,
  Prog.aes_key_schedule_forward_192,
  Prog.bf192_from_bf8,
  Prog.bf192_from_bit,
  Prog.bf192_mul_bit,
  Prog.aes_key_schedule_backward_192,
  Prog.bf192_byte_combine_bits,
  Prog.bf192_byte_combine,
  Prog.zk_hash_192_update,
  Prog.bf192_one,
  Prog.aes_key_schedule_constraints_Mkey_0_192,
  Prog.aes_enc_forward_192_1,
  Prog.aes_enc_forward_192,
  Prog.aes_enc_backward_192_1,
  Prog.aes_enc_backward_192,
  Prog.aes_enc_constraints_Mkey_0_192,
  Prog.zk_hash_192_finalize,
  Prog.bf192_dbl,
  Prog.bf192_sum_poly,
  Prog.aes_prove_192,
  Prog.em_enc_forward_192_1,
  Prog.em_enc_forward_192,
  Prog.em_enc_backward_192_1,
  Prog.em_enc_backward_192,
  Prog.em_enc_constraints_Mkey_0_192,
  Prog.em_prove_192,
  Prog.column_to_row_major_and_shrink_V_128,
  Prog.bf128_zero,
  Prog.zk_hash_128_init,
  Prog.aes_key_schedule_forward_128,
  Prog.bf128_from_bf8,
  Prog.bf128_from_bit,
  Prog.bf128_mul_bit,
  Prog.aes_key_schedule_backward_128,
  Prog.bf128_byte_combine_bits,
  Prog.bf128_byte_combine,
  Prog.zk_hash_128_update,
  Prog.bf128_one,
  Prog.aes_key_schedule_constraints_Mkey_0_128,
  Prog.aes_enc_forward_128_1,
  Prog.aes_enc_forward_128,
  Prog.aes_enc_backward_128_1,
  Prog.aes_enc_backward_128,
  Prog.aes_enc_constraints_Mkey_0_128,
  Prog.zk_hash_128_finalize,
  Prog.bf128_dbl,
  Prog.bf128_sum_poly,
  Prog.aes_prove_128,
  Prog.em_enc_forward_128_1,
  Prog.em_enc_forward_128,
  Prog.em_enc_backward_128_1,
  Prog.em_enc_backward_128,
  Prog.em_enc_constraints_Mkey_0_128,
  Prog.em_prove_128,
  Prog.aes_prove,
  Prog.signature_chall_3,
  Prog.hash_challenge_3,
  Prog.ChalDec,
  Prog.signature_pdec,
  Prog.signature_com,
  Prog.NumRec,
  Prog.getNodeIndex,
  Prog.vector_open,
  Prog.vec_com_clear,
  Prog.faest_sign,
  Prog.rand_bytes,
  Prog.aes128_encrypt_block,
  Prog.owf_128,
  Prog.faest_128s_keygen,
  Prog.faest_get_paramset,
  Prog.faest_128s_sign_with_randomness,
  Prog.faest_128s_sign,
  Prog.faest_timingsafe_bcmp,
  Prog.faest_128s_validate_keypair,
  Prog.faest_128f_keygen,
  Prog.faest_128f_sign_with_randomness,
  Prog.faest_128f_sign,
  Prog.faest_128f_validate_keypair,
  Prog.owf_em_128,
  Prog.faest_em_128s_keygen,
  Prog.faest_em_128s_sign_with_randomness,
  Prog.faest_em_128s_sign,
  Prog.faest_em_128s_validate_keypair,
  Prog.faest_em_128f_keygen,
  Prog.faest_em_128f_sign_with_randomness,
  Prog.faest_em_128f_sign,
  Prog.faest_em_128f_validate_keypair,
  Prog.aes192_encrypt_block,
  Prog.owf_192,
  Prog.faest_192s_keygen,
  Prog.faest_192s_sign_with_randomness,
  Prog.faest_192s_sign,
  Prog.faest_192s_validate_keypair,
  Prog.faest_192f_keygen,
  Prog.faest_192f_sign_with_randomness,
  Prog.faest_192f_sign,
  Prog.faest_192f_validate_keypair,
  Prog.rijndael192_encrypt_block,
  Prog.owf_em_192,
  Prog.faest_em_192s_keygen,
  Prog.faest_em_192s_sign_with_randomness,
  Prog.faest_em_192s_sign,
  Prog.faest_em_192s_validate_keypair,
  Prog.faest_em_192f_keygen,
  Prog.faest_em_192f_sign_with_randomness,
  Prog.faest_em_192f_sign,
  Prog.faest_em_192f_validate_keypair,
  Prog.aes256_encrypt_block,
  Prog.owf_256,
  Prog.faest_256s_keygen,
  Prog.faest_256s_sign_with_randomness,
  Prog.faest_256s_sign,
  Prog.faest_256s_validate_keypair,
  Prog.faest_256f_keygen,
  Prog.faest_256f_sign_with_randomness,
  Prog.faest_256f_sign,
  Prog.faest_256f_validate_keypair,
  Prog.rijndael256_encrypt_block,
  Prog.owf_em_256,
  Prog.faest_em_256s_keygen,
  Prog.faest_em_256s_sign_with_randomness,
  Prog.faest_em_256s_sign,
  Prog.faest_em_256s_validate_keypair,
  Prog.faest_em_256f_keygen,
  Prog.faest_em_256f_sign_with_randomness,
  Prog.faest_em_256f_sign,
  Prog.faest_em_256f_validate_keypair,
  Prog32.KeccakP1600_Permute_Nrounds,
  Prog32.KeccakP1600_AddByte]

end Faest.Leak
