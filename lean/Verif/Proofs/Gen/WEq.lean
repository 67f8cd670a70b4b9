/-
The translated code over the interface of the fields (`Model/GenW`), taken at the fields on bit vectors, is the
translated code in `Model/Gen`.
-/
import Verif.Model.GenW.CryptoSign
import Verif.Model.Gen.CryptoSign

set_option linter.unusedSimpArgs false

namespace Faest.GenW
open Faest.C

/-! ### Utils -/

theorem xor_u8_array_eq : xor_u8_array = Gen.xor_u8_array := rfl

theorem masked_xor_u8_array_eq : masked_xor_u8_array = Gen.masked_xor_u8_array := rfl

/-! ### Aes -/

theorem round_constants_eq : round_constants = Gen.round_constants := rfl

theorem contains_zero_eq : contains_zero = Gen.contains_zero := rfl

theorem compute_sbox_eq : compute_sbox absF = Gen.compute_sbox := by
  funext in_
  unfold compute_sbox Gen.compute_sbox
  simp only [absF, absOps, absOps64, pure_bind]

theorem aes_increment_iv_eq : aes_increment_iv = Gen.aes_increment_iv := rfl

theorem add_round_key_eq : add_round_key = Gen.add_round_key := by
  funext round state round_key block_words
  unfold add_round_key Gen.add_round_key
  simp only [xor_u8_array_eq]

theorem sub_bytes_eq : sub_bytes absF = Gen.sub_bytes := by
  funext state block_words
  unfold sub_bytes Gen.sub_bytes
  simp only [compute_sbox_eq, contains_zero_eq]

theorem shift_row_eq : shift_row = Gen.shift_row := rfl

theorem mix_column_eq : mix_column absF = Gen.mix_column := by
  funext state block_words
  unfold mix_column Gen.mix_column
  simp only [absF, absOps, absOps64, pure_bind]

theorem sub_words_eq : sub_words absF = Gen.sub_words := by
  funext words
  unfold sub_words Gen.sub_words
  simp only [compute_sbox_eq]

theorem rot_word_eq : rot_word = Gen.rot_word := rfl

theorem expand_key_eq : expand_key absF = Gen.expand_key := by
  funext round_keys key key_words block_words num_rounds
  unfold expand_key Gen.expand_key
  simp only [contains_zero_eq, rot_word_eq, round_constants_eq, sub_words_eq]
  simp only [absF, absOps, absOps64, pure_bind]

theorem aes128_init_round_keys_eq : aes128_init_round_keys absF = Gen.aes128_init_round_keys := by
  funext round_key key
  unfold aes128_init_round_keys Gen.aes128_init_round_keys
  simp only [expand_key_eq]

theorem aes192_init_round_keys_eq : aes192_init_round_keys absF = Gen.aes192_init_round_keys := by
  funext round_key key
  unfold aes192_init_round_keys Gen.aes192_init_round_keys
  simp only [expand_key_eq]

theorem aes256_init_round_keys_eq : aes256_init_round_keys absF = Gen.aes256_init_round_keys := by
  funext round_key key
  unfold aes256_init_round_keys Gen.aes256_init_round_keys
  simp only [expand_key_eq]

theorem rijndael192_init_round_keys_eq : rijndael192_init_round_keys absF = Gen.rijndael192_init_round_keys := by
  funext round_key key
  unfold rijndael192_init_round_keys Gen.rijndael192_init_round_keys
  simp only [expand_key_eq]

theorem rijndael256_init_round_keys_eq : rijndael256_init_round_keys absF = Gen.rijndael256_init_round_keys := by
  funext round_key key
  unfold rijndael256_init_round_keys Gen.rijndael256_init_round_keys
  simp only [expand_key_eq]

theorem load_state_eq : load_state absF = Gen.load_state := by
  funext state src block_words
  unfold load_state Gen.load_state
  simp only [absF, absOps, absOps64, pure_bind]

theorem store_state_eq : store_state absF = Gen.store_state := by
  funext dst state block_words
  unfold store_state Gen.store_state
  simp only [absF, absOps, absOps64, pure_bind]

theorem aes_encrypt_eq : aes_encrypt absF = Gen.aes_encrypt := by
  funext keys state block_words num_rounds
  unfold aes_encrypt Gen.aes_encrypt
  simp only [add_round_key_eq, mix_column_eq, shift_row_eq, sub_bytes_eq]

theorem aes128_encrypt_block_eq : aes128_encrypt_block absF = Gen.aes128_encrypt_block := by
  funext key plaintext ciphertext
  unfold aes128_encrypt_block Gen.aes128_encrypt_block
  simp only [aes_encrypt_eq, load_state_eq, store_state_eq]

theorem aes192_encrypt_block_eq : aes192_encrypt_block absF = Gen.aes192_encrypt_block := by
  funext key plaintext ciphertext
  unfold aes192_encrypt_block Gen.aes192_encrypt_block
  simp only [aes_encrypt_eq, load_state_eq, store_state_eq]

theorem aes256_encrypt_block_eq : aes256_encrypt_block absF = Gen.aes256_encrypt_block := by
  funext key plaintext ciphertext
  unfold aes256_encrypt_block Gen.aes256_encrypt_block
  simp only [aes_encrypt_eq, load_state_eq, store_state_eq]

theorem rijndael192_encrypt_block_eq : rijndael192_encrypt_block absF = Gen.rijndael192_encrypt_block := by
  funext key plaintext ciphertext
  unfold rijndael192_encrypt_block Gen.rijndael192_encrypt_block
  simp only [aes_encrypt_eq, load_state_eq, store_state_eq]

theorem rijndael256_encrypt_block_eq : rijndael256_encrypt_block absF = Gen.rijndael256_encrypt_block := by
  funext key plaintext ciphertext
  unfold rijndael256_encrypt_block Gen.rijndael256_encrypt_block
  simp only [aes_encrypt_eq, load_state_eq, store_state_eq]

theorem prg_eq : prg absF = Gen.prg := by
  funext key iv out seclvl outlen
  unfold prg Gen.prg
  simp only [aes128_init_round_keys_eq, aes192_init_round_keys_eq, aes256_init_round_keys_eq, aes_encrypt_eq, aes_increment_iv_eq, load_state_eq, store_state_eq]

theorem aes_extend_witness_eq : aes_extend_witness absF = Gen.aes_extend_witness := by
  funext key in_ params
  unfold aes_extend_witness Gen.aes_extend_witness
  simp only [add_round_key_eq, aes128_init_round_keys_eq, aes192_init_round_keys_eq, aes256_init_round_keys_eq, load_state_eq, mix_column_eq, rijndael192_init_round_keys_eq, rijndael256_init_round_keys_eq, shift_row_eq, store_state_eq, sub_bytes_eq]

/-! ### UHash -/

theorem compute_h1_eq : compute_h1 absF = Gen.compute_h1 := by
  funext t x lambda ell
  unfold compute_h1 Gen.compute_h1
  simp only [absF, absOps, absOps64, pure_bind]

theorem vole_hash_128_eq : vole_hash_128 absF = Gen.vole_hash_128 := by
  funext h sd x ell
  unfold vole_hash_128 Gen.vole_hash_128
  simp only [compute_h1_eq, xor_u8_array_eq]
  simp only [absF, absOps, absOps64, pure_bind]

theorem vole_hash_192_eq : vole_hash_192 absF = Gen.vole_hash_192 := by
  funext h sd x ell
  unfold vole_hash_192 Gen.vole_hash_192
  simp only [compute_h1_eq, xor_u8_array_eq]
  simp only [absF, absOps, absOps64, pure_bind]

theorem vole_hash_256_eq : vole_hash_256 absF = Gen.vole_hash_256 := by
  funext h sd x ell
  unfold vole_hash_256 Gen.vole_hash_256
  simp only [compute_h1_eq, xor_u8_array_eq]
  simp only [absF, absOps, absOps64, pure_bind]

theorem vole_hash_eq : vole_hash absF = Gen.vole_hash := by
  funext h sd x ell lambda
  unfold vole_hash Gen.vole_hash
  simp only [vole_hash_128_eq, vole_hash_192_eq, vole_hash_256_eq]

theorem zk_hash_128_init_eq : zk_hash_128_init absF = Gen.zk_hash_128_init := by
  funext ctx sd
  unfold zk_hash_128_init Gen.zk_hash_128_init
  simp only [absF, absOps, absOps64, pure_bind]

theorem zk_hash_128_update_eq : zk_hash_128_update absF = Gen.zk_hash_128_update := by
  funext ctx v
  unfold zk_hash_128_update Gen.zk_hash_128_update
  simp only [absF, absOps, absOps64, pure_bind]

theorem zk_hash_128_finalize_eq : zk_hash_128_finalize absF = Gen.zk_hash_128_finalize := by
  funext h ctx x1
  unfold zk_hash_128_finalize Gen.zk_hash_128_finalize
  simp only [absF, absOps, absOps64, pure_bind]

theorem zk_hash_192_init_eq : zk_hash_192_init absF = Gen.zk_hash_192_init := by
  funext ctx sd
  unfold zk_hash_192_init Gen.zk_hash_192_init
  simp only [absF, absOps, absOps64, pure_bind]

theorem zk_hash_192_update_eq : zk_hash_192_update absF = Gen.zk_hash_192_update := by
  funext ctx v
  unfold zk_hash_192_update Gen.zk_hash_192_update
  simp only [absF, absOps, absOps64, pure_bind]

theorem zk_hash_192_finalize_eq : zk_hash_192_finalize absF = Gen.zk_hash_192_finalize := by
  funext h ctx x1
  unfold zk_hash_192_finalize Gen.zk_hash_192_finalize
  simp only [absF, absOps, absOps64, pure_bind]

theorem zk_hash_256_init_eq : zk_hash_256_init absF = Gen.zk_hash_256_init := by
  funext ctx sd
  unfold zk_hash_256_init Gen.zk_hash_256_init
  simp only [absF, absOps, absOps64, pure_bind]

theorem zk_hash_256_update_eq : zk_hash_256_update absF = Gen.zk_hash_256_update := by
  funext ctx v
  unfold zk_hash_256_update Gen.zk_hash_256_update
  simp only [absF, absOps, absOps64, pure_bind]

theorem zk_hash_256_finalize_eq : zk_hash_256_finalize absF = Gen.zk_hash_256_finalize := by
  funext h ctx x1
  unfold zk_hash_256_finalize Gen.zk_hash_256_finalize
  simp only [absF, absOps, absOps64, pure_bind]

/-! ### Vc -/

theorem is_left_child_eq : is_left_child = Gen.is_left_child := rfl

theorem getBinaryTreeNodeCount_eq : getBinaryTreeNodeCount = Gen.getBinaryTreeNodeCount := rfl

theorem create_tree_eq : create_tree = Gen.create_tree := by
  funext params depth
  unfold create_tree Gen.create_tree
  simp only [getBinaryTreeNodeCount_eq]

theorem get_parent_eq : get_parent = Gen.get_parent := by
  funext node
  unfold get_parent Gen.get_parent
  simp only [is_left_child_eq]

theorem expand_seeds_eq : expand_seeds absF = Gen.expand_seeds := by
  funext tree iv params
  unfold expand_seeds Gen.expand_seeds
  simp only [get_parent_eq, prg_eq]

theorem generate_seeds_eq : generate_seeds absF = Gen.generate_seeds := by
  funext rootSeed iv params depth
  unfold generate_seeds Gen.generate_seeds
  simp only [create_tree_eq, expand_seeds_eq]

theorem getNodeIndex_eq : getNodeIndex = Gen.getNodeIndex := rfl

theorem BitDec_eq : BitDec = Gen.BitDec := rfl

theorem NumRec_eq : NumRec = Gen.NumRec := rfl

theorem vector_commitment_eq : vector_commitment absF = Gen.vector_commitment := by
  funext I rootKey iv params lambda vecCom depth
  unfold vector_commitment Gen.vector_commitment
  simp only [generate_seeds_eq]

theorem vector_open_eq : vector_open = Gen.vector_open := by
  funext k com b cop com_j depth lambdaBytes
  unfold vector_open Gen.vector_open
  simp only [NumRec_eq, getNodeIndex_eq]

theorem vector_reconstruction_eq : vector_reconstruction absF = Gen.vector_reconstruction := by
  funext I iv cop com_j b lambda depth vecComRec
  unfold vector_reconstruction Gen.vector_reconstruction
  simp only [NumRec_eq, getNodeIndex_eq, prg_eq]

theorem vec_com_clear_eq : vec_com_clear = Gen.vec_com_clear := rfl

theorem vec_com_rec_clear_eq : vec_com_rec_clear = Gen.vec_com_rec_clear := rfl

/-! ### Vole -/

theorem ConvertToVole_eq : ConvertToVole absF = Gen.ConvertToVole := by
  funext iv sd sd0_bot lambda depth outLenBytes u v
  unfold ConvertToVole Gen.ConvertToVole
  simp only [prg_eq, xor_u8_array_eq]

theorem ChalDec_eq : ChalDec = Gen.ChalDec := rfl

theorem vole_commit_eq : vole_commit absF = Gen.vole_commit := by
  funext I rootKey iv ellhat params hcom vecCom c u v
  unfold vole_commit Gen.vole_commit
  simp only [ConvertToVole_eq, prg_eq, vector_commitment_eq, xor_u8_array_eq]

theorem vole_reconstruct_eq : vole_reconstruct absF = Gen.vole_reconstruct := by
  funext I iv chall pdec com_j hcom q ellhat params
  unfold vole_reconstruct Gen.vole_reconstruct
  simp only [ChalDec_eq, ConvertToVole_eq, NumRec_eq, getBinaryTreeNodeCount_eq, vec_com_rec_clear_eq, vector_reconstruction_eq]

/-! ### FaestAes -/

theorem Rcon_eq : Rcon = Gen.Rcon := rfl

theorem column_to_row_major_and_shrink_V_128_eq : column_to_row_major_and_shrink_V_128 absF = Gen.column_to_row_major_and_shrink_V_128 := by
  funext v ell
  unfold column_to_row_major_and_shrink_V_128 Gen.column_to_row_major_and_shrink_V_128
  simp only [absF, absOps, absOps64, pure_bind]

theorem column_to_row_major_and_shrink_V_192_eq : column_to_row_major_and_shrink_V_192 absF = Gen.column_to_row_major_and_shrink_V_192 := by
  funext v ell
  unfold column_to_row_major_and_shrink_V_192 Gen.column_to_row_major_and_shrink_V_192
  simp only [absF, absOps, absOps64, pure_bind]

theorem column_to_row_major_and_shrink_V_256_eq : column_to_row_major_and_shrink_V_256 absF = Gen.column_to_row_major_and_shrink_V_256 := by
  funext v ell
  unfold column_to_row_major_and_shrink_V_256 Gen.column_to_row_major_and_shrink_V_256
  simp only [absF, absOps, absOps64, pure_bind]

theorem aes_key_schedule_forward_1_eq : aes_key_schedule_forward_1 = Gen.aes_key_schedule_forward_1 := rfl

theorem aes_key_schedule_backward_1_eq : aes_key_schedule_backward_1 absF = Gen.aes_key_schedule_backward_1 := by
  funext x xk out params
  unfold aes_key_schedule_backward_1 Gen.aes_key_schedule_backward_1
  simp only [Rcon_eq]
  simp only [absF, absOps, absOps64, pure_bind]

theorem aes_key_schedule_forward_128_eq : aes_key_schedule_forward_128 absF = Gen.aes_key_schedule_forward_128 := by
  funext v bf_out
  unfold aes_key_schedule_forward_128 Gen.aes_key_schedule_forward_128
  simp only [absF, absOps, absOps64, pure_bind]

theorem aes_key_schedule_backward_128_eq : aes_key_schedule_backward_128 absF = Gen.aes_key_schedule_backward_128 := by
  funext v Vk Mtag Mkey delta bf_out
  unfold aes_key_schedule_backward_128 Gen.aes_key_schedule_backward_128
  simp only [Rcon_eq]
  simp only [absF, absOps, absOps64, pure_bind]

theorem aes_key_schedule_constraints_Mkey_0_128_eq : aes_key_schedule_constraints_Mkey_0_128 absF = Gen.aes_key_schedule_constraints_Mkey_0_128 := by
  funext w v a0_ctx a1_ctx k vk params
  unfold aes_key_schedule_constraints_Mkey_0_128 Gen.aes_key_schedule_constraints_Mkey_0_128
  simp only [aes_key_schedule_backward_1_eq, aes_key_schedule_backward_128_eq, aes_key_schedule_forward_1_eq, aes_key_schedule_forward_128_eq, zk_hash_128_update_eq]
  simp only [absF, absOps, absOps64, pure_bind]

theorem aes_key_schedule_constraints_Mkey_1_128_eq : aes_key_schedule_constraints_Mkey_1_128 absF = Gen.aes_key_schedule_constraints_Mkey_1_128 := by
  funext q delta b0_ctx qk
  unfold aes_key_schedule_constraints_Mkey_1_128 Gen.aes_key_schedule_constraints_Mkey_1_128
  simp only [aes_key_schedule_backward_128_eq, aes_key_schedule_forward_128_eq, zk_hash_128_update_eq]
  simp only [absF, absOps, absOps64, pure_bind]

theorem aes_enc_forward_128_1_eq : aes_enc_forward_128_1 absF = Gen.aes_enc_forward_128_1 := by
  funext x xk in_ bf_y
  unfold aes_enc_forward_128_1 Gen.aes_enc_forward_128_1
  simp only [absF, absOps, absOps64, pure_bind]

theorem aes_enc_forward_128_eq : aes_enc_forward_128 absF = Gen.aes_enc_forward_128 := by
  funext bf_x bf_xk in_ Mtag Mkey delta bf_y
  unfold aes_enc_forward_128 Gen.aes_enc_forward_128
  simp only [absF, absOps, absOps64, pure_bind]

theorem aes_enc_backward_128_1_eq : aes_enc_backward_128_1 absF = Gen.aes_enc_backward_128_1 := by
  funext x xk out y_out
  unfold aes_enc_backward_128_1 Gen.aes_enc_backward_128_1
  simp only [absF, absOps, absOps64, pure_bind]

theorem aes_enc_backward_128_eq : aes_enc_backward_128 absF = Gen.aes_enc_backward_128 := by
  funext bf_x bf_xk Mtag Mkey delta out y_out
  unfold aes_enc_backward_128 Gen.aes_enc_backward_128
  simp only [absF, absOps, absOps64, pure_bind]

theorem aes_enc_constraints_Mkey_0_128_eq : aes_enc_constraints_Mkey_0_128 absF = Gen.aes_enc_constraints_Mkey_0_128 := by
  funext in_ out w v k vk a0_ctx a1_ctx
  unfold aes_enc_constraints_Mkey_0_128 Gen.aes_enc_constraints_Mkey_0_128
  simp only [aes_enc_backward_128_eq, aes_enc_backward_128_1_eq, aes_enc_forward_128_eq, aes_enc_forward_128_1_eq, zk_hash_128_update_eq]
  simp only [absF, absOps, absOps64, pure_bind]

theorem aes_enc_constraints_Mkey_1_128_eq : aes_enc_constraints_Mkey_1_128 absF = Gen.aes_enc_constraints_Mkey_1_128 := by
  funext in_ out q qk delta b0_ctx
  unfold aes_enc_constraints_Mkey_1_128 Gen.aes_enc_constraints_Mkey_1_128
  simp only [aes_enc_backward_128_eq, aes_enc_forward_128_eq, zk_hash_128_update_eq]
  simp only [absF, absOps, absOps64, pure_bind]

theorem aes_prove_128_eq : aes_prove_128 absF = Gen.aes_prove_128 := by
  funext w u V in_ out chall a_tilde b_tilde params
  unfold aes_prove_128 Gen.aes_prove_128
  simp only [aes_enc_constraints_Mkey_0_128_eq, aes_key_schedule_constraints_Mkey_0_128_eq, column_to_row_major_and_shrink_V_128_eq, zk_hash_128_finalize_eq, zk_hash_128_init_eq]
  simp only [absF, absOps, absOps64, pure_bind]

theorem aes_verify_128_eq : aes_verify_128 absF = Gen.aes_verify_128 := by
  funext d Q chall_2 chall_3 a_tilde in_ out params
  unfold aes_verify_128 Gen.aes_verify_128
  simp only [ChalDec_eq, aes_enc_constraints_Mkey_1_128_eq, aes_key_schedule_constraints_Mkey_1_128_eq, column_to_row_major_and_shrink_V_128_eq, xor_u8_array_eq, zk_hash_128_finalize_eq, zk_hash_128_init_eq]
  simp only [absF, absOps, absOps64, pure_bind]

theorem aes_key_schedule_forward_192_eq : aes_key_schedule_forward_192 absF = Gen.aes_key_schedule_forward_192 := by
  funext v bf_out
  unfold aes_key_schedule_forward_192 Gen.aes_key_schedule_forward_192
  simp only [absF, absOps, absOps64, pure_bind]

theorem aes_key_schedule_backward_192_eq : aes_key_schedule_backward_192 absF = Gen.aes_key_schedule_backward_192 := by
  funext v Vk Mtag Mkey delta bf_out
  unfold aes_key_schedule_backward_192 Gen.aes_key_schedule_backward_192
  simp only [Rcon_eq]
  simp only [absF, absOps, absOps64, pure_bind]

theorem aes_key_schedule_constraints_Mkey_0_192_eq : aes_key_schedule_constraints_Mkey_0_192 absF = Gen.aes_key_schedule_constraints_Mkey_0_192 := by
  funext w v a0_ctx a1_ctx k vk params
  unfold aes_key_schedule_constraints_Mkey_0_192 Gen.aes_key_schedule_constraints_Mkey_0_192
  simp only [aes_key_schedule_backward_1_eq, aes_key_schedule_backward_192_eq, aes_key_schedule_forward_1_eq, aes_key_schedule_forward_192_eq, zk_hash_192_update_eq]
  simp only [absF, absOps, absOps64, pure_bind]

theorem aes_key_schedule_constraints_Mkey_1_192_eq : aes_key_schedule_constraints_Mkey_1_192 absF = Gen.aes_key_schedule_constraints_Mkey_1_192 := by
  funext q delta b0_ctx qk
  unfold aes_key_schedule_constraints_Mkey_1_192 Gen.aes_key_schedule_constraints_Mkey_1_192
  simp only [aes_key_schedule_backward_192_eq, aes_key_schedule_forward_192_eq, zk_hash_192_update_eq]
  simp only [absF, absOps, absOps64, pure_bind]

theorem aes_enc_forward_192_1_eq : aes_enc_forward_192_1 absF = Gen.aes_enc_forward_192_1 := by
  funext x xk in_ Mtag Mkey bf_y
  unfold aes_enc_forward_192_1 Gen.aes_enc_forward_192_1
  simp only [absF, absOps, absOps64, pure_bind]

theorem aes_enc_forward_192_eq : aes_enc_forward_192 absF = Gen.aes_enc_forward_192 := by
  funext bf_x bf_xk in_ Mtag Mkey delta bf_y
  unfold aes_enc_forward_192 Gen.aes_enc_forward_192
  simp only [absF, absOps, absOps64, pure_bind]

theorem aes_enc_backward_192_1_eq : aes_enc_backward_192_1 absF = Gen.aes_enc_backward_192_1 := by
  funext x xk Mtag Mkey out y_out
  unfold aes_enc_backward_192_1 Gen.aes_enc_backward_192_1
  simp only [absF, absOps, absOps64, pure_bind]

theorem aes_enc_backward_192_eq : aes_enc_backward_192 absF = Gen.aes_enc_backward_192 := by
  funext bf_x bf_xk Mtag Mkey delta out y_out
  unfold aes_enc_backward_192 Gen.aes_enc_backward_192
  simp only [absF, absOps, absOps64, pure_bind]

theorem aes_enc_constraints_Mkey_0_192_eq : aes_enc_constraints_Mkey_0_192 absF = Gen.aes_enc_constraints_Mkey_0_192 := by
  funext in_ out w v k vk a0_ctx a1_ctx
  unfold aes_enc_constraints_Mkey_0_192 Gen.aes_enc_constraints_Mkey_0_192
  simp only [aes_enc_backward_192_eq, aes_enc_backward_192_1_eq, aes_enc_forward_192_eq, aes_enc_forward_192_1_eq, zk_hash_192_update_eq]
  simp only [absF, absOps, absOps64, pure_bind]

theorem aes_enc_constraints_Mkey_1_192_eq : aes_enc_constraints_Mkey_1_192 absF = Gen.aes_enc_constraints_Mkey_1_192 := by
  funext in_ out q qk delta b0_ctx
  unfold aes_enc_constraints_Mkey_1_192 Gen.aes_enc_constraints_Mkey_1_192
  simp only [aes_enc_backward_192_eq, aes_enc_forward_192_eq, zk_hash_192_update_eq]
  simp only [absF, absOps, absOps64, pure_bind]

theorem aes_prove_192_eq : aes_prove_192 absF = Gen.aes_prove_192 := by
  funext w u V in_ out chall a_tilde b_tilde params
  unfold aes_prove_192 Gen.aes_prove_192
  simp only [aes_enc_constraints_Mkey_0_192_eq, aes_key_schedule_constraints_Mkey_0_192_eq, column_to_row_major_and_shrink_V_192_eq, zk_hash_192_finalize_eq, zk_hash_192_init_eq]
  simp only [absF, absOps, absOps64, pure_bind]

theorem aes_verify_192_eq : aes_verify_192 absF = Gen.aes_verify_192 := by
  funext d Q chall_2 chall_3 a_tilde in_ out params
  unfold aes_verify_192 Gen.aes_verify_192
  simp only [ChalDec_eq, aes_enc_constraints_Mkey_1_192_eq, aes_key_schedule_constraints_Mkey_1_192_eq, column_to_row_major_and_shrink_V_192_eq, xor_u8_array_eq, zk_hash_192_finalize_eq, zk_hash_192_init_eq]
  simp only [absF, absOps, absOps64, pure_bind]

theorem aes_key_schedule_forward_256_eq : aes_key_schedule_forward_256 absF = Gen.aes_key_schedule_forward_256 := by
  funext v bf_out
  unfold aes_key_schedule_forward_256 Gen.aes_key_schedule_forward_256
  simp only [absF, absOps, absOps64, pure_bind]

theorem aes_key_schedule_backward_256_eq : aes_key_schedule_backward_256 absF = Gen.aes_key_schedule_backward_256 := by
  funext v Vk Mtag Mkey delta bf_out
  unfold aes_key_schedule_backward_256 Gen.aes_key_schedule_backward_256
  simp only [Rcon_eq]
  simp only [absF, absOps, absOps64, pure_bind]

theorem aes_key_schedule_constraints_Mkey_0_256_eq : aes_key_schedule_constraints_Mkey_0_256 absF = Gen.aes_key_schedule_constraints_Mkey_0_256 := by
  funext w v a0_ctx a1_ctx k vk params
  unfold aes_key_schedule_constraints_Mkey_0_256 Gen.aes_key_schedule_constraints_Mkey_0_256
  simp only [aes_key_schedule_backward_1_eq, aes_key_schedule_backward_256_eq, aes_key_schedule_forward_1_eq, aes_key_schedule_forward_256_eq, zk_hash_256_update_eq]
  simp only [absF, absOps, absOps64, pure_bind]

theorem aes_key_schedule_constraints_Mkey_1_256_eq : aes_key_schedule_constraints_Mkey_1_256 absF = Gen.aes_key_schedule_constraints_Mkey_1_256 := by
  funext q delta b0_ctx qk
  unfold aes_key_schedule_constraints_Mkey_1_256 Gen.aes_key_schedule_constraints_Mkey_1_256
  simp only [aes_key_schedule_backward_256_eq, aes_key_schedule_forward_256_eq, zk_hash_256_update_eq]
  simp only [absF, absOps, absOps64, pure_bind]

theorem aes_enc_forward_256_1_eq : aes_enc_forward_256_1 absF = Gen.aes_enc_forward_256_1 := by
  funext x xk in_ Mtag Mkey bf_y
  unfold aes_enc_forward_256_1 Gen.aes_enc_forward_256_1
  simp only [absF, absOps, absOps64, pure_bind]

theorem aes_enc_forward_256_eq : aes_enc_forward_256 absF = Gen.aes_enc_forward_256 := by
  funext bf_x bf_xk in_ Mtag Mkey delta bf_y
  unfold aes_enc_forward_256 Gen.aes_enc_forward_256
  simp only [absF, absOps, absOps64, pure_bind]

theorem aes_enc_backward_256_1_eq : aes_enc_backward_256_1 absF = Gen.aes_enc_backward_256_1 := by
  funext x xk Mtag Mkey out y_out
  unfold aes_enc_backward_256_1 Gen.aes_enc_backward_256_1
  simp only [absF, absOps, absOps64, pure_bind]

theorem aes_enc_backward_256_eq : aes_enc_backward_256 absF = Gen.aes_enc_backward_256 := by
  funext bf_x bf_xk Mtag Mkey delta out y_out
  unfold aes_enc_backward_256 Gen.aes_enc_backward_256
  simp only [absF, absOps, absOps64, pure_bind]

theorem aes_enc_constraints_Mkey_0_256_eq : aes_enc_constraints_Mkey_0_256 absF = Gen.aes_enc_constraints_Mkey_0_256 := by
  funext in_ out w v k vk a0_ctx a1_ctx
  unfold aes_enc_constraints_Mkey_0_256 Gen.aes_enc_constraints_Mkey_0_256
  simp only [aes_enc_backward_256_eq, aes_enc_backward_256_1_eq, aes_enc_forward_256_eq, aes_enc_forward_256_1_eq, zk_hash_256_update_eq]
  simp only [absF, absOps, absOps64, pure_bind]

theorem aes_enc_constraints_Mkey_1_256_eq : aes_enc_constraints_Mkey_1_256 absF = Gen.aes_enc_constraints_Mkey_1_256 := by
  funext in_ out q qk delta b0_ctx
  unfold aes_enc_constraints_Mkey_1_256 Gen.aes_enc_constraints_Mkey_1_256
  simp only [aes_enc_backward_256_eq, aes_enc_forward_256_eq, zk_hash_256_update_eq]
  simp only [absF, absOps, absOps64, pure_bind]

theorem aes_prove_256_eq : aes_prove_256 absF = Gen.aes_prove_256 := by
  funext w u V in_ out chall a_tilde b_tilde params
  unfold aes_prove_256 Gen.aes_prove_256
  simp only [aes_enc_constraints_Mkey_0_256_eq, aes_key_schedule_constraints_Mkey_0_256_eq, column_to_row_major_and_shrink_V_256_eq, zk_hash_256_finalize_eq, zk_hash_256_init_eq]
  simp only [absF, absOps, absOps64, pure_bind]

theorem aes_verify_256_eq : aes_verify_256 absF = Gen.aes_verify_256 := by
  funext d Q chall_2 chall_3 a_tilde in_ out params
  unfold aes_verify_256 Gen.aes_verify_256
  simp only [ChalDec_eq, aes_enc_constraints_Mkey_1_256_eq, aes_key_schedule_constraints_Mkey_1_256_eq, column_to_row_major_and_shrink_V_256_eq, xor_u8_array_eq, zk_hash_256_finalize_eq, zk_hash_256_init_eq]
  simp only [absF, absOps, absOps64, pure_bind]

theorem em_enc_forward_128_1_eq : em_enc_forward_128_1 absF = Gen.em_enc_forward_128_1 := by
  funext z x bf_y
  unfold em_enc_forward_128_1 Gen.em_enc_forward_128_1
  simp only [absF, absOps, absOps64, pure_bind]

theorem em_enc_forward_128_eq : em_enc_forward_128 absF = Gen.em_enc_forward_128 := by
  funext bf_z bf_x bf_y
  unfold em_enc_forward_128 Gen.em_enc_forward_128
  simp only [absF, absOps, absOps64, pure_bind]

theorem em_enc_backward_128_1_eq : em_enc_backward_128_1 absF = Gen.em_enc_backward_128_1 := by
  funext z x z_out y_out
  unfold em_enc_backward_128_1 Gen.em_enc_backward_128_1
  simp only [absF, absOps, absOps64, pure_bind]

theorem em_enc_backward_128_eq : em_enc_backward_128 absF = Gen.em_enc_backward_128 := by
  funext bf_z bf_x bf_z_out Mtag Mkey delta y_out
  unfold em_enc_backward_128 Gen.em_enc_backward_128
  simp only [absF, absOps, absOps64, pure_bind]

theorem em_enc_constraints_Mkey_0_128_eq : em_enc_constraints_Mkey_0_128 absF = Gen.em_enc_constraints_Mkey_0_128 := by
  funext out x w bf_v a0_ctx a1_ctx
  unfold em_enc_constraints_Mkey_0_128 Gen.em_enc_constraints_Mkey_0_128
  simp only [em_enc_backward_128_eq, em_enc_backward_128_1_eq, em_enc_forward_128_eq, em_enc_forward_128_1_eq, xor_u8_array_eq, zk_hash_128_update_eq]
  simp only [absF, absOps, absOps64, pure_bind]

theorem em_enc_constraints_Mkey_1_128_eq : em_enc_constraints_Mkey_1_128 absF = Gen.em_enc_constraints_Mkey_1_128 := by
  funext out x bf_q delta b0_ctx
  unfold em_enc_constraints_Mkey_1_128 Gen.em_enc_constraints_Mkey_1_128
  simp only [em_enc_backward_128_eq, em_enc_forward_128_eq, zk_hash_128_update_eq]
  simp only [absF, absOps, absOps64, pure_bind]

theorem em_prove_128_eq : em_prove_128 absF = Gen.em_prove_128 := by
  funext w u V in_ out chall a_tilde b_tilde
  unfold em_prove_128 Gen.em_prove_128
  simp only [aes128_init_round_keys_eq, column_to_row_major_and_shrink_V_128_eq, em_enc_constraints_Mkey_0_128_eq, zk_hash_128_finalize_eq, zk_hash_128_init_eq]
  simp only [absF, absOps, absOps64, pure_bind]

theorem em_verify_128_eq : em_verify_128 absF = Gen.em_verify_128 := by
  funext d Q chall_2 chall_3 a_tilde in_ out params
  unfold em_verify_128 Gen.em_verify_128
  simp only [ChalDec_eq, aes128_init_round_keys_eq, column_to_row_major_and_shrink_V_128_eq, em_enc_constraints_Mkey_1_128_eq, xor_u8_array_eq, zk_hash_128_finalize_eq, zk_hash_128_init_eq]
  simp only [absF, absOps, absOps64, pure_bind]

theorem em_enc_forward_192_1_eq : em_enc_forward_192_1 absF = Gen.em_enc_forward_192_1 := by
  funext z x bf_y
  unfold em_enc_forward_192_1 Gen.em_enc_forward_192_1
  simp only [absF, absOps, absOps64, pure_bind]

theorem em_enc_forward_192_eq : em_enc_forward_192 absF = Gen.em_enc_forward_192 := by
  funext bf_z bf_x bf_y
  unfold em_enc_forward_192 Gen.em_enc_forward_192
  simp only [absF, absOps, absOps64, pure_bind]

theorem em_enc_backward_192_1_eq : em_enc_backward_192_1 absF = Gen.em_enc_backward_192_1 := by
  funext z x z_out y_out
  unfold em_enc_backward_192_1 Gen.em_enc_backward_192_1
  simp only [absF, absOps, absOps64, pure_bind]

theorem em_enc_backward_192_eq : em_enc_backward_192 absF = Gen.em_enc_backward_192 := by
  funext bf_z bf_x bf_z_out Mtag Mkey delta y_out
  unfold em_enc_backward_192 Gen.em_enc_backward_192
  simp only [absF, absOps, absOps64, pure_bind]

theorem em_enc_constraints_Mkey_0_192_eq : em_enc_constraints_Mkey_0_192 absF = Gen.em_enc_constraints_Mkey_0_192 := by
  funext out x w bf_v a0_ctx a1_ctx
  unfold em_enc_constraints_Mkey_0_192 Gen.em_enc_constraints_Mkey_0_192
  simp only [em_enc_backward_192_eq, em_enc_backward_192_1_eq, em_enc_forward_192_eq, em_enc_forward_192_1_eq, xor_u8_array_eq, zk_hash_192_update_eq]
  simp only [absF, absOps, absOps64, pure_bind]

theorem em_enc_constraints_Mkey_1_192_eq : em_enc_constraints_Mkey_1_192 absF = Gen.em_enc_constraints_Mkey_1_192 := by
  funext out x bf_q delta b0_ctx
  unfold em_enc_constraints_Mkey_1_192 Gen.em_enc_constraints_Mkey_1_192
  simp only [em_enc_backward_192_eq, em_enc_forward_192_eq, zk_hash_192_update_eq]
  simp only [absF, absOps, absOps64, pure_bind]

theorem em_prove_192_eq : em_prove_192 absF = Gen.em_prove_192 := by
  funext w u V in_ out chall a_tilde b_tilde
  unfold em_prove_192 Gen.em_prove_192
  simp only [column_to_row_major_and_shrink_V_192_eq, em_enc_constraints_Mkey_0_192_eq, rijndael192_init_round_keys_eq, zk_hash_192_finalize_eq, zk_hash_192_init_eq]
  simp only [absF, absOps, absOps64, pure_bind]

theorem em_verify_192_eq : em_verify_192 absF = Gen.em_verify_192 := by
  funext d Q chall_2 chall_3 a_tilde in_ out params
  unfold em_verify_192 Gen.em_verify_192
  simp only [ChalDec_eq, column_to_row_major_and_shrink_V_192_eq, em_enc_constraints_Mkey_1_192_eq, rijndael192_init_round_keys_eq, xor_u8_array_eq, zk_hash_192_finalize_eq, zk_hash_192_init_eq]
  simp only [absF, absOps, absOps64, pure_bind]

theorem em_enc_forward_256_1_eq : em_enc_forward_256_1 absF = Gen.em_enc_forward_256_1 := by
  funext z x bf_y
  unfold em_enc_forward_256_1 Gen.em_enc_forward_256_1
  simp only [absF, absOps, absOps64, pure_bind]

theorem em_enc_forward_256_eq : em_enc_forward_256 absF = Gen.em_enc_forward_256 := by
  funext bf_z bf_x bf_y
  unfold em_enc_forward_256 Gen.em_enc_forward_256
  simp only [absF, absOps, absOps64, pure_bind]

theorem em_enc_backward_256_1_eq : em_enc_backward_256_1 absF = Gen.em_enc_backward_256_1 := by
  funext z x z_out y_out
  unfold em_enc_backward_256_1 Gen.em_enc_backward_256_1
  simp only [absF, absOps, absOps64, pure_bind]

theorem em_enc_backward_256_eq : em_enc_backward_256 absF = Gen.em_enc_backward_256 := by
  funext bf_z bf_x bf_z_out Mtag Mkey delta y_out
  unfold em_enc_backward_256 Gen.em_enc_backward_256
  simp only [absF, absOps, absOps64, pure_bind]

theorem em_enc_constraints_Mkey_0_256_eq : em_enc_constraints_Mkey_0_256 absF = Gen.em_enc_constraints_Mkey_0_256 := by
  funext out x w bf_v a0_ctx a1_ctx
  unfold em_enc_constraints_Mkey_0_256 Gen.em_enc_constraints_Mkey_0_256
  simp only [em_enc_backward_256_eq, em_enc_backward_256_1_eq, em_enc_forward_256_eq, em_enc_forward_256_1_eq, xor_u8_array_eq, zk_hash_256_update_eq]
  simp only [absF, absOps, absOps64, pure_bind]

theorem em_enc_constraints_Mkey_1_256_eq : em_enc_constraints_Mkey_1_256 absF = Gen.em_enc_constraints_Mkey_1_256 := by
  funext out x bf_q delta b0_ctx
  unfold em_enc_constraints_Mkey_1_256 Gen.em_enc_constraints_Mkey_1_256
  simp only [em_enc_backward_256_eq, em_enc_forward_256_eq, zk_hash_256_update_eq]
  simp only [absF, absOps, absOps64, pure_bind]

theorem em_prove_256_eq : em_prove_256 absF = Gen.em_prove_256 := by
  funext w u V in_ out chall a_tilde b_tilde
  unfold em_prove_256 Gen.em_prove_256
  simp only [column_to_row_major_and_shrink_V_256_eq, em_enc_constraints_Mkey_0_256_eq, rijndael256_init_round_keys_eq, zk_hash_256_finalize_eq, zk_hash_256_init_eq]
  simp only [absF, absOps, absOps64, pure_bind]

theorem em_verify_256_eq : em_verify_256 absF = Gen.em_verify_256 := by
  funext d Q chall_2 chall_3 a_tilde in_ out params
  unfold em_verify_256 Gen.em_verify_256
  simp only [ChalDec_eq, column_to_row_major_and_shrink_V_256_eq, em_enc_constraints_Mkey_1_256_eq, rijndael256_init_round_keys_eq, xor_u8_array_eq, zk_hash_256_finalize_eq, zk_hash_256_init_eq]
  simp only [absF, absOps, absOps64, pure_bind]

theorem aes_prove_eq : aes_prove absF = Gen.aes_prove := by
  funext w u V in_ out chall a_tilde b_tilde params
  unfold aes_prove Gen.aes_prove
  simp only [aes_prove_128_eq, aes_prove_192_eq, aes_prove_256_eq, em_prove_128_eq, em_prove_192_eq, em_prove_256_eq]

theorem aes_verify_eq : aes_verify absF = Gen.aes_verify := by
  funext d Q chall_2 chall_3 a_tilde in_ out params
  unfold aes_verify Gen.aes_verify
  simp only [aes_verify_128_eq, aes_verify_192_eq, aes_verify_256_eq, em_verify_128_eq, em_verify_192_eq, em_verify_256_eq]

/-! ### Faest -/

theorem signature_c_eq : signature_c = Gen.signature_c := rfl

theorem signature_u_tilde_eq : signature_u_tilde = Gen.signature_u_tilde := rfl

theorem signature_d_eq : signature_d = Gen.signature_d := rfl

theorem signature_a_tilde_eq : signature_a_tilde = Gen.signature_a_tilde := rfl

theorem signature_pdec_eq : signature_pdec = Gen.signature_pdec := rfl

theorem signature_com_eq : signature_com = Gen.signature_com := rfl

theorem signature_chall_3_eq : signature_chall_3 = Gen.signature_chall_3 := rfl

theorem signature_iv_eq : signature_iv = Gen.signature_iv := rfl

theorem dsignature_c_eq : dsignature_c = Gen.dsignature_c := rfl

theorem dsignature_u_tilde_eq : dsignature_u_tilde = Gen.dsignature_u_tilde := rfl

theorem dsignature_d_eq : dsignature_d = Gen.dsignature_d := rfl

theorem dsignature_a_tilde_eq : dsignature_a_tilde = Gen.dsignature_a_tilde := rfl

theorem dsignature_pdec_eq : dsignature_pdec = Gen.dsignature_pdec := rfl

theorem dsignature_com_eq : dsignature_com = Gen.dsignature_com := rfl

theorem dsignature_chall_3_eq : dsignature_chall_3 = Gen.dsignature_chall_3 := rfl

theorem dsignature_iv_eq : dsignature_iv = Gen.dsignature_iv := rfl

theorem hash_mu_eq : hash_mu = Gen.hash_mu := rfl

theorem hash_challenge_1_eq : hash_challenge_1 = Gen.hash_challenge_1 := rfl

theorem hash_challenge_2_eq : hash_challenge_2 = Gen.hash_challenge_2 := rfl

theorem hash_challenge_3_eq : hash_challenge_3 = Gen.hash_challenge_3 := rfl

theorem faest_sign_eq : faest_sign absF = Gen.faest_sign := by
  funext I sig msg msglen owf_key owf_input owf_output rho rholen params
  unfold faest_sign Gen.faest_sign
  simp only [ChalDec_eq, aes_extend_witness_eq, aes_prove_eq, hash_challenge_1_eq, hash_challenge_2_eq, hash_challenge_3_eq, hash_mu_eq, signature_a_tilde_eq, signature_c_eq, signature_chall_3_eq, signature_com_eq, signature_d_eq, signature_iv_eq, signature_pdec_eq, signature_u_tilde_eq, vec_com_clear_eq, vector_open_eq, vole_commit_eq, vole_hash_eq, xor_u8_array_eq]

theorem faest_verify_eq : faest_verify absF = Gen.faest_verify := by
  funext I msg msglen sig owf_input owf_output params
  unfold faest_verify Gen.faest_verify
  simp only [ChalDec_eq, aes_verify_eq, dsignature_a_tilde_eq, dsignature_c_eq, dsignature_chall_3_eq, dsignature_com_eq, dsignature_d_eq, dsignature_iv_eq, dsignature_pdec_eq, dsignature_u_tilde_eq, hash_challenge_1_eq, hash_challenge_2_eq, hash_challenge_3_eq, hash_mu_eq, masked_xor_u8_array_eq, vole_hash_eq, vole_reconstruct_eq, xor_u8_array_eq]

/-! ### Owf -/

theorem owf_128_eq : owf_128 absF = Gen.owf_128 := by
  funext key input output
  unfold owf_128 Gen.owf_128
  simp only [aes128_encrypt_block_eq, aes128_init_round_keys_eq]

theorem owf_192_eq : owf_192 absF = Gen.owf_192 := by
  funext key input output
  unfold owf_192 Gen.owf_192
  simp only [aes192_encrypt_block_eq, aes192_init_round_keys_eq]

theorem owf_256_eq : owf_256 absF = Gen.owf_256 := by
  funext key input output
  unfold owf_256 Gen.owf_256
  simp only [aes256_encrypt_block_eq, aes256_init_round_keys_eq]

theorem owf_em_128_eq : owf_em_128 absF = Gen.owf_em_128 := by
  funext key input output
  unfold owf_em_128 Gen.owf_em_128
  simp only [aes128_encrypt_block_eq, aes128_init_round_keys_eq]

theorem owf_em_192_eq : owf_em_192 absF = Gen.owf_em_192 := by
  funext key input output
  unfold owf_em_192 Gen.owf_em_192
  simp only [rijndael192_encrypt_block_eq, rijndael192_init_round_keys_eq]

theorem owf_em_256_eq : owf_em_256 absF = Gen.owf_em_256 := by
  funext key input output
  unfold owf_em_256 Gen.owf_em_256
  simp only [rijndael256_encrypt_block_eq, rijndael256_init_round_keys_eq]

/-! ### Compat -/

theorem faest_timingsafe_bcmp_eq : faest_timingsafe_bcmp = Gen.faest_timingsafe_bcmp := rfl

theorem faest_explicit_bzero_eq : faest_explicit_bzero = Gen.faest_explicit_bzero := rfl

/-! ### Api -/

theorem faest_128s_keygen_eq : faest_128s_keygen absF = Gen.faest_128s_keygen := by
  funext R pk sk
  unfold faest_128s_keygen Gen.faest_128s_keygen
  simp only [owf_128_eq]

theorem faest_128s_validate_keypair_eq : faest_128s_validate_keypair absF = Gen.faest_128s_validate_keypair := by
  funext pk sk
  unfold faest_128s_validate_keypair Gen.faest_128s_validate_keypair
  simp only [faest_timingsafe_bcmp_eq, owf_128_eq]

theorem faest_128s_sign_with_randomness_eq : faest_128s_sign_with_randomness absF = Gen.faest_128s_sign_with_randomness := by
  funext I sk message message_len rho rho_len signature signature_len
  unfold faest_128s_sign_with_randomness Gen.faest_128s_sign_with_randomness
  simp only [faest_sign_eq, owf_128_eq]

theorem faest_128s_sign_eq : faest_128s_sign absF = Gen.faest_128s_sign := by
  funext I R sk message message_len signature signature_len
  unfold faest_128s_sign Gen.faest_128s_sign
  simp only [faest_128s_sign_with_randomness_eq]

theorem faest_128s_verify_eq : faest_128s_verify absF = Gen.faest_128s_verify := by
  funext I pk message message_len signature signature_len
  unfold faest_128s_verify Gen.faest_128s_verify
  simp only [faest_verify_eq]

theorem faest_128s_clear_private_key_eq : faest_128s_clear_private_key = Gen.faest_128s_clear_private_key := by
  funext key
  unfold faest_128s_clear_private_key Gen.faest_128s_clear_private_key
  simp only [faest_explicit_bzero_eq]

theorem faest_128f_keygen_eq : faest_128f_keygen absF = Gen.faest_128f_keygen := by
  funext R pk sk
  unfold faest_128f_keygen Gen.faest_128f_keygen
  simp only [owf_128_eq]

theorem faest_128f_validate_keypair_eq : faest_128f_validate_keypair absF = Gen.faest_128f_validate_keypair := by
  funext pk sk
  unfold faest_128f_validate_keypair Gen.faest_128f_validate_keypair
  simp only [faest_timingsafe_bcmp_eq, owf_128_eq]

theorem faest_128f_sign_with_randomness_eq : faest_128f_sign_with_randomness absF = Gen.faest_128f_sign_with_randomness := by
  funext I sk message message_len rho rho_len signature signature_len
  unfold faest_128f_sign_with_randomness Gen.faest_128f_sign_with_randomness
  simp only [faest_sign_eq, owf_128_eq]

theorem faest_128f_sign_eq : faest_128f_sign absF = Gen.faest_128f_sign := by
  funext I R sk message message_len signature signature_len
  unfold faest_128f_sign Gen.faest_128f_sign
  simp only [faest_128f_sign_with_randomness_eq]

theorem faest_128f_verify_eq : faest_128f_verify absF = Gen.faest_128f_verify := by
  funext I pk message message_len signature signature_len
  unfold faest_128f_verify Gen.faest_128f_verify
  simp only [faest_verify_eq]

theorem faest_128f_clear_private_key_eq : faest_128f_clear_private_key = Gen.faest_128f_clear_private_key := by
  funext key
  unfold faest_128f_clear_private_key Gen.faest_128f_clear_private_key
  simp only [faest_explicit_bzero_eq]

theorem faest_em_128s_keygen_eq : faest_em_128s_keygen absF = Gen.faest_em_128s_keygen := by
  funext R pk sk
  unfold faest_em_128s_keygen Gen.faest_em_128s_keygen
  simp only [owf_em_128_eq]

theorem faest_em_128s_validate_keypair_eq : faest_em_128s_validate_keypair absF = Gen.faest_em_128s_validate_keypair := by
  funext pk sk
  unfold faest_em_128s_validate_keypair Gen.faest_em_128s_validate_keypair
  simp only [faest_timingsafe_bcmp_eq, owf_em_128_eq]

theorem faest_em_128s_sign_with_randomness_eq : faest_em_128s_sign_with_randomness absF = Gen.faest_em_128s_sign_with_randomness := by
  funext I sk message message_len rho rho_len signature signature_len
  unfold faest_em_128s_sign_with_randomness Gen.faest_em_128s_sign_with_randomness
  simp only [faest_sign_eq, owf_em_128_eq]

theorem faest_em_128s_sign_eq : faest_em_128s_sign absF = Gen.faest_em_128s_sign := by
  funext I R sk message message_len signature signature_len
  unfold faest_em_128s_sign Gen.faest_em_128s_sign
  simp only [faest_em_128s_sign_with_randomness_eq]

theorem faest_em_128s_verify_eq : faest_em_128s_verify absF = Gen.faest_em_128s_verify := by
  funext I pk message message_len signature signature_len
  unfold faest_em_128s_verify Gen.faest_em_128s_verify
  simp only [faest_verify_eq]

theorem faest_em_128s_clear_private_key_eq : faest_em_128s_clear_private_key = Gen.faest_em_128s_clear_private_key := by
  funext key
  unfold faest_em_128s_clear_private_key Gen.faest_em_128s_clear_private_key
  simp only [faest_explicit_bzero_eq]

theorem faest_em_128f_keygen_eq : faest_em_128f_keygen absF = Gen.faest_em_128f_keygen := by
  funext R pk sk
  unfold faest_em_128f_keygen Gen.faest_em_128f_keygen
  simp only [owf_em_128_eq]

theorem faest_em_128f_validate_keypair_eq : faest_em_128f_validate_keypair absF = Gen.faest_em_128f_validate_keypair := by
  funext pk sk
  unfold faest_em_128f_validate_keypair Gen.faest_em_128f_validate_keypair
  simp only [faest_timingsafe_bcmp_eq, owf_em_128_eq]

theorem faest_em_128f_sign_with_randomness_eq : faest_em_128f_sign_with_randomness absF = Gen.faest_em_128f_sign_with_randomness := by
  funext I sk message message_len rho rho_len signature signature_len
  unfold faest_em_128f_sign_with_randomness Gen.faest_em_128f_sign_with_randomness
  simp only [faest_sign_eq, owf_em_128_eq]

theorem faest_em_128f_sign_eq : faest_em_128f_sign absF = Gen.faest_em_128f_sign := by
  funext I R sk message message_len signature signature_len
  unfold faest_em_128f_sign Gen.faest_em_128f_sign
  simp only [faest_em_128f_sign_with_randomness_eq]

theorem faest_em_128f_verify_eq : faest_em_128f_verify absF = Gen.faest_em_128f_verify := by
  funext I pk message message_len signature signature_len
  unfold faest_em_128f_verify Gen.faest_em_128f_verify
  simp only [faest_verify_eq]

theorem faest_em_128f_clear_private_key_eq : faest_em_128f_clear_private_key = Gen.faest_em_128f_clear_private_key := by
  funext key
  unfold faest_em_128f_clear_private_key Gen.faest_em_128f_clear_private_key
  simp only [faest_explicit_bzero_eq]

theorem faest_192s_keygen_eq : faest_192s_keygen absF = Gen.faest_192s_keygen := by
  funext R pk sk
  unfold faest_192s_keygen Gen.faest_192s_keygen
  simp only [owf_192_eq]

theorem faest_192s_validate_keypair_eq : faest_192s_validate_keypair absF = Gen.faest_192s_validate_keypair := by
  funext pk sk
  unfold faest_192s_validate_keypair Gen.faest_192s_validate_keypair
  simp only [faest_timingsafe_bcmp_eq, owf_192_eq]

theorem faest_192s_sign_with_randomness_eq : faest_192s_sign_with_randomness absF = Gen.faest_192s_sign_with_randomness := by
  funext I sk message message_len rho rho_len signature signature_len
  unfold faest_192s_sign_with_randomness Gen.faest_192s_sign_with_randomness
  simp only [faest_sign_eq, owf_192_eq]

theorem faest_192s_sign_eq : faest_192s_sign absF = Gen.faest_192s_sign := by
  funext I R sk message message_len signature signature_len
  unfold faest_192s_sign Gen.faest_192s_sign
  simp only [faest_192s_sign_with_randomness_eq]

theorem faest_192s_verify_eq : faest_192s_verify absF = Gen.faest_192s_verify := by
  funext I pk message message_len signature signature_len
  unfold faest_192s_verify Gen.faest_192s_verify
  simp only [faest_verify_eq]

theorem faest_192s_clear_private_key_eq : faest_192s_clear_private_key = Gen.faest_192s_clear_private_key := by
  funext key
  unfold faest_192s_clear_private_key Gen.faest_192s_clear_private_key
  simp only [faest_explicit_bzero_eq]

theorem faest_192f_keygen_eq : faest_192f_keygen absF = Gen.faest_192f_keygen := by
  funext R pk sk
  unfold faest_192f_keygen Gen.faest_192f_keygen
  simp only [owf_192_eq]

theorem faest_192f_validate_keypair_eq : faest_192f_validate_keypair absF = Gen.faest_192f_validate_keypair := by
  funext pk sk
  unfold faest_192f_validate_keypair Gen.faest_192f_validate_keypair
  simp only [faest_timingsafe_bcmp_eq, owf_192_eq]

theorem faest_192f_sign_with_randomness_eq : faest_192f_sign_with_randomness absF = Gen.faest_192f_sign_with_randomness := by
  funext I sk message message_len rho rho_len signature signature_len
  unfold faest_192f_sign_with_randomness Gen.faest_192f_sign_with_randomness
  simp only [faest_sign_eq, owf_192_eq]

theorem faest_192f_sign_eq : faest_192f_sign absF = Gen.faest_192f_sign := by
  funext I R sk message message_len signature signature_len
  unfold faest_192f_sign Gen.faest_192f_sign
  simp only [faest_192f_sign_with_randomness_eq]

theorem faest_192f_verify_eq : faest_192f_verify absF = Gen.faest_192f_verify := by
  funext I pk message message_len signature signature_len
  unfold faest_192f_verify Gen.faest_192f_verify
  simp only [faest_verify_eq]

theorem faest_192f_clear_private_key_eq : faest_192f_clear_private_key = Gen.faest_192f_clear_private_key := by
  funext key
  unfold faest_192f_clear_private_key Gen.faest_192f_clear_private_key
  simp only [faest_explicit_bzero_eq]

theorem faest_em_192s_keygen_eq : faest_em_192s_keygen absF = Gen.faest_em_192s_keygen := by
  funext R pk sk
  unfold faest_em_192s_keygen Gen.faest_em_192s_keygen
  simp only [owf_em_192_eq]

theorem faest_em_192s_validate_keypair_eq : faest_em_192s_validate_keypair absF = Gen.faest_em_192s_validate_keypair := by
  funext pk sk
  unfold faest_em_192s_validate_keypair Gen.faest_em_192s_validate_keypair
  simp only [faest_timingsafe_bcmp_eq, owf_em_192_eq]

theorem faest_em_192s_sign_with_randomness_eq : faest_em_192s_sign_with_randomness absF = Gen.faest_em_192s_sign_with_randomness := by
  funext I sk message message_len rho rho_len signature signature_len
  unfold faest_em_192s_sign_with_randomness Gen.faest_em_192s_sign_with_randomness
  simp only [faest_sign_eq, owf_em_192_eq]

theorem faest_em_192s_sign_eq : faest_em_192s_sign absF = Gen.faest_em_192s_sign := by
  funext I R sk message message_len signature signature_len
  unfold faest_em_192s_sign Gen.faest_em_192s_sign
  simp only [faest_em_192s_sign_with_randomness_eq]

theorem faest_em_192s_verify_eq : faest_em_192s_verify absF = Gen.faest_em_192s_verify := by
  funext I pk message message_len signature signature_len
  unfold faest_em_192s_verify Gen.faest_em_192s_verify
  simp only [faest_verify_eq]

theorem faest_em_192s_clear_private_key_eq : faest_em_192s_clear_private_key = Gen.faest_em_192s_clear_private_key := by
  funext key
  unfold faest_em_192s_clear_private_key Gen.faest_em_192s_clear_private_key
  simp only [faest_explicit_bzero_eq]

theorem faest_em_192f_keygen_eq : faest_em_192f_keygen absF = Gen.faest_em_192f_keygen := by
  funext R pk sk
  unfold faest_em_192f_keygen Gen.faest_em_192f_keygen
  simp only [owf_em_192_eq]

theorem faest_em_192f_validate_keypair_eq : faest_em_192f_validate_keypair absF = Gen.faest_em_192f_validate_keypair := by
  funext pk sk
  unfold faest_em_192f_validate_keypair Gen.faest_em_192f_validate_keypair
  simp only [faest_timingsafe_bcmp_eq, owf_em_192_eq]

theorem faest_em_192f_sign_with_randomness_eq : faest_em_192f_sign_with_randomness absF = Gen.faest_em_192f_sign_with_randomness := by
  funext I sk message message_len rho rho_len signature signature_len
  unfold faest_em_192f_sign_with_randomness Gen.faest_em_192f_sign_with_randomness
  simp only [faest_sign_eq, owf_em_192_eq]

theorem faest_em_192f_sign_eq : faest_em_192f_sign absF = Gen.faest_em_192f_sign := by
  funext I R sk message message_len signature signature_len
  unfold faest_em_192f_sign Gen.faest_em_192f_sign
  simp only [faest_em_192f_sign_with_randomness_eq]

theorem faest_em_192f_verify_eq : faest_em_192f_verify absF = Gen.faest_em_192f_verify := by
  funext I pk message message_len signature signature_len
  unfold faest_em_192f_verify Gen.faest_em_192f_verify
  simp only [faest_verify_eq]

theorem faest_em_192f_clear_private_key_eq : faest_em_192f_clear_private_key = Gen.faest_em_192f_clear_private_key := by
  funext key
  unfold faest_em_192f_clear_private_key Gen.faest_em_192f_clear_private_key
  simp only [faest_explicit_bzero_eq]

theorem faest_256s_keygen_eq : faest_256s_keygen absF = Gen.faest_256s_keygen := by
  funext R pk sk
  unfold faest_256s_keygen Gen.faest_256s_keygen
  simp only [owf_256_eq]

theorem faest_256s_validate_keypair_eq : faest_256s_validate_keypair absF = Gen.faest_256s_validate_keypair := by
  funext pk sk
  unfold faest_256s_validate_keypair Gen.faest_256s_validate_keypair
  simp only [faest_timingsafe_bcmp_eq, owf_256_eq]

theorem faest_256s_sign_with_randomness_eq : faest_256s_sign_with_randomness absF = Gen.faest_256s_sign_with_randomness := by
  funext I sk message message_len rho rho_len signature signature_len
  unfold faest_256s_sign_with_randomness Gen.faest_256s_sign_with_randomness
  simp only [faest_sign_eq, owf_256_eq]

theorem faest_256s_sign_eq : faest_256s_sign absF = Gen.faest_256s_sign := by
  funext I R sk message message_len signature signature_len
  unfold faest_256s_sign Gen.faest_256s_sign
  simp only [faest_256s_sign_with_randomness_eq]

theorem faest_256s_verify_eq : faest_256s_verify absF = Gen.faest_256s_verify := by
  funext I pk message message_len signature signature_len
  unfold faest_256s_verify Gen.faest_256s_verify
  simp only [faest_verify_eq]

theorem faest_256s_clear_private_key_eq : faest_256s_clear_private_key = Gen.faest_256s_clear_private_key := by
  funext key
  unfold faest_256s_clear_private_key Gen.faest_256s_clear_private_key
  simp only [faest_explicit_bzero_eq]

theorem faest_256f_keygen_eq : faest_256f_keygen absF = Gen.faest_256f_keygen := by
  funext R pk sk
  unfold faest_256f_keygen Gen.faest_256f_keygen
  simp only [owf_256_eq]

theorem faest_256f_validate_keypair_eq : faest_256f_validate_keypair absF = Gen.faest_256f_validate_keypair := by
  funext pk sk
  unfold faest_256f_validate_keypair Gen.faest_256f_validate_keypair
  simp only [faest_timingsafe_bcmp_eq, owf_256_eq]

theorem faest_256f_sign_with_randomness_eq : faest_256f_sign_with_randomness absF = Gen.faest_256f_sign_with_randomness := by
  funext I sk message message_len rho rho_len signature signature_len
  unfold faest_256f_sign_with_randomness Gen.faest_256f_sign_with_randomness
  simp only [faest_sign_eq, owf_256_eq]

theorem faest_256f_sign_eq : faest_256f_sign absF = Gen.faest_256f_sign := by
  funext I R sk message message_len signature signature_len
  unfold faest_256f_sign Gen.faest_256f_sign
  simp only [faest_256f_sign_with_randomness_eq]

theorem faest_256f_verify_eq : faest_256f_verify absF = Gen.faest_256f_verify := by
  funext I pk message message_len signature signature_len
  unfold faest_256f_verify Gen.faest_256f_verify
  simp only [faest_verify_eq]

theorem faest_256f_clear_private_key_eq : faest_256f_clear_private_key = Gen.faest_256f_clear_private_key := by
  funext key
  unfold faest_256f_clear_private_key Gen.faest_256f_clear_private_key
  simp only [faest_explicit_bzero_eq]

theorem faest_em_256s_keygen_eq : faest_em_256s_keygen absF = Gen.faest_em_256s_keygen := by
  funext R pk sk
  unfold faest_em_256s_keygen Gen.faest_em_256s_keygen
  simp only [owf_em_256_eq]

theorem faest_em_256s_validate_keypair_eq : faest_em_256s_validate_keypair absF = Gen.faest_em_256s_validate_keypair := by
  funext pk sk
  unfold faest_em_256s_validate_keypair Gen.faest_em_256s_validate_keypair
  simp only [faest_timingsafe_bcmp_eq, owf_em_256_eq]

theorem faest_em_256s_sign_with_randomness_eq : faest_em_256s_sign_with_randomness absF = Gen.faest_em_256s_sign_with_randomness := by
  funext I sk message message_len rho rho_len signature signature_len
  unfold faest_em_256s_sign_with_randomness Gen.faest_em_256s_sign_with_randomness
  simp only [faest_sign_eq, owf_em_256_eq]

theorem faest_em_256s_sign_eq : faest_em_256s_sign absF = Gen.faest_em_256s_sign := by
  funext I R sk message message_len signature signature_len
  unfold faest_em_256s_sign Gen.faest_em_256s_sign
  simp only [faest_em_256s_sign_with_randomness_eq]

theorem faest_em_256s_verify_eq : faest_em_256s_verify absF = Gen.faest_em_256s_verify := by
  funext I pk message message_len signature signature_len
  unfold faest_em_256s_verify Gen.faest_em_256s_verify
  simp only [faest_verify_eq]

theorem faest_em_256s_clear_private_key_eq : faest_em_256s_clear_private_key = Gen.faest_em_256s_clear_private_key := by
  funext key
  unfold faest_em_256s_clear_private_key Gen.faest_em_256s_clear_private_key
  simp only [faest_explicit_bzero_eq]

theorem faest_em_256f_keygen_eq : faest_em_256f_keygen absF = Gen.faest_em_256f_keygen := by
  funext R pk sk
  unfold faest_em_256f_keygen Gen.faest_em_256f_keygen
  simp only [owf_em_256_eq]

theorem faest_em_256f_validate_keypair_eq : faest_em_256f_validate_keypair absF = Gen.faest_em_256f_validate_keypair := by
  funext pk sk
  unfold faest_em_256f_validate_keypair Gen.faest_em_256f_validate_keypair
  simp only [faest_timingsafe_bcmp_eq, owf_em_256_eq]

theorem faest_em_256f_sign_with_randomness_eq : faest_em_256f_sign_with_randomness absF = Gen.faest_em_256f_sign_with_randomness := by
  funext I sk message message_len rho rho_len signature signature_len
  unfold faest_em_256f_sign_with_randomness Gen.faest_em_256f_sign_with_randomness
  simp only [faest_sign_eq, owf_em_256_eq]

theorem faest_em_256f_sign_eq : faest_em_256f_sign absF = Gen.faest_em_256f_sign := by
  funext I R sk message message_len signature signature_len
  unfold faest_em_256f_sign Gen.faest_em_256f_sign
  simp only [faest_em_256f_sign_with_randomness_eq]

theorem faest_em_256f_verify_eq : faest_em_256f_verify absF = Gen.faest_em_256f_verify := by
  funext I pk message message_len signature signature_len
  unfold faest_em_256f_verify Gen.faest_em_256f_verify
  simp only [faest_verify_eq]

theorem faest_em_256f_clear_private_key_eq : faest_em_256f_clear_private_key = Gen.faest_em_256f_clear_private_key := by
  funext key
  unfold faest_em_256f_clear_private_key Gen.faest_em_256f_clear_private_key
  simp only [faest_explicit_bzero_eq]

/-! ### CryptoSign -/

theorem crypto_sign_keypair_128s_eq : crypto_sign_keypair_128s absF = Gen.crypto_sign_keypair_128s := by
  funext R pk sk
  unfold crypto_sign_keypair_128s Gen.crypto_sign_keypair_128s
  simp only [faest_128s_keygen_eq]

theorem crypto_sign_128s_eq : crypto_sign_128s absF = Gen.crypto_sign_128s := by
  funext I R sm smlen m mlen sk
  unfold crypto_sign_128s Gen.crypto_sign_128s
  simp only [faest_128s_sign_eq]

theorem crypto_sign_open_128s_eq : crypto_sign_open_128s absF = Gen.crypto_sign_open_128s := by
  funext I m mlen sm smlen pk
  unfold crypto_sign_open_128s Gen.crypto_sign_open_128s
  simp only [faest_128s_verify_eq]

theorem crypto_sign_keypair_128f_eq : crypto_sign_keypair_128f absF = Gen.crypto_sign_keypair_128f := by
  funext R pk sk
  unfold crypto_sign_keypair_128f Gen.crypto_sign_keypair_128f
  simp only [faest_128f_keygen_eq]

theorem crypto_sign_128f_eq : crypto_sign_128f absF = Gen.crypto_sign_128f := by
  funext I R sm smlen m mlen sk
  unfold crypto_sign_128f Gen.crypto_sign_128f
  simp only [faest_128f_sign_eq]

theorem crypto_sign_open_128f_eq : crypto_sign_open_128f absF = Gen.crypto_sign_open_128f := by
  funext I m mlen sm smlen pk
  unfold crypto_sign_open_128f Gen.crypto_sign_open_128f
  simp only [faest_128f_verify_eq]

theorem crypto_sign_keypair_em_128s_eq : crypto_sign_keypair_em_128s absF = Gen.crypto_sign_keypair_em_128s := by
  funext R pk sk
  unfold crypto_sign_keypair_em_128s Gen.crypto_sign_keypair_em_128s
  simp only [faest_em_128s_keygen_eq]

theorem crypto_sign_em_128s_eq : crypto_sign_em_128s absF = Gen.crypto_sign_em_128s := by
  funext I R sm smlen m mlen sk
  unfold crypto_sign_em_128s Gen.crypto_sign_em_128s
  simp only [faest_em_128s_sign_eq]

theorem crypto_sign_open_em_128s_eq : crypto_sign_open_em_128s absF = Gen.crypto_sign_open_em_128s := by
  funext I m mlen sm smlen pk
  unfold crypto_sign_open_em_128s Gen.crypto_sign_open_em_128s
  simp only [faest_em_128s_verify_eq]

theorem crypto_sign_keypair_em_128f_eq : crypto_sign_keypair_em_128f absF = Gen.crypto_sign_keypair_em_128f := by
  funext R pk sk
  unfold crypto_sign_keypair_em_128f Gen.crypto_sign_keypair_em_128f
  simp only [faest_em_128f_keygen_eq]

theorem crypto_sign_em_128f_eq : crypto_sign_em_128f absF = Gen.crypto_sign_em_128f := by
  funext I R sm smlen m mlen sk
  unfold crypto_sign_em_128f Gen.crypto_sign_em_128f
  simp only [faest_em_128f_sign_eq]

theorem crypto_sign_open_em_128f_eq : crypto_sign_open_em_128f absF = Gen.crypto_sign_open_em_128f := by
  funext I m mlen sm smlen pk
  unfold crypto_sign_open_em_128f Gen.crypto_sign_open_em_128f
  simp only [faest_em_128f_verify_eq]

theorem crypto_sign_keypair_192s_eq : crypto_sign_keypair_192s absF = Gen.crypto_sign_keypair_192s := by
  funext R pk sk
  unfold crypto_sign_keypair_192s Gen.crypto_sign_keypair_192s
  simp only [faest_192s_keygen_eq]

theorem crypto_sign_192s_eq : crypto_sign_192s absF = Gen.crypto_sign_192s := by
  funext I R sm smlen m mlen sk
  unfold crypto_sign_192s Gen.crypto_sign_192s
  simp only [faest_192s_sign_eq]

theorem crypto_sign_open_192s_eq : crypto_sign_open_192s absF = Gen.crypto_sign_open_192s := by
  funext I m mlen sm smlen pk
  unfold crypto_sign_open_192s Gen.crypto_sign_open_192s
  simp only [faest_192s_verify_eq]

theorem crypto_sign_keypair_192f_eq : crypto_sign_keypair_192f absF = Gen.crypto_sign_keypair_192f := by
  funext R pk sk
  unfold crypto_sign_keypair_192f Gen.crypto_sign_keypair_192f
  simp only [faest_192f_keygen_eq]

theorem crypto_sign_192f_eq : crypto_sign_192f absF = Gen.crypto_sign_192f := by
  funext I R sm smlen m mlen sk
  unfold crypto_sign_192f Gen.crypto_sign_192f
  simp only [faest_192f_sign_eq]

theorem crypto_sign_open_192f_eq : crypto_sign_open_192f absF = Gen.crypto_sign_open_192f := by
  funext I m mlen sm smlen pk
  unfold crypto_sign_open_192f Gen.crypto_sign_open_192f
  simp only [faest_192f_verify_eq]

theorem crypto_sign_keypair_em_192s_eq : crypto_sign_keypair_em_192s absF = Gen.crypto_sign_keypair_em_192s := by
  funext R pk sk
  unfold crypto_sign_keypair_em_192s Gen.crypto_sign_keypair_em_192s
  simp only [faest_em_192s_keygen_eq]

theorem crypto_sign_em_192s_eq : crypto_sign_em_192s absF = Gen.crypto_sign_em_192s := by
  funext I R sm smlen m mlen sk
  unfold crypto_sign_em_192s Gen.crypto_sign_em_192s
  simp only [faest_em_192s_sign_eq]

theorem crypto_sign_open_em_192s_eq : crypto_sign_open_em_192s absF = Gen.crypto_sign_open_em_192s := by
  funext I m mlen sm smlen pk
  unfold crypto_sign_open_em_192s Gen.crypto_sign_open_em_192s
  simp only [faest_em_192s_verify_eq]

theorem crypto_sign_keypair_em_192f_eq : crypto_sign_keypair_em_192f absF = Gen.crypto_sign_keypair_em_192f := by
  funext R pk sk
  unfold crypto_sign_keypair_em_192f Gen.crypto_sign_keypair_em_192f
  simp only [faest_em_192f_keygen_eq]

theorem crypto_sign_em_192f_eq : crypto_sign_em_192f absF = Gen.crypto_sign_em_192f := by
  funext I R sm smlen m mlen sk
  unfold crypto_sign_em_192f Gen.crypto_sign_em_192f
  simp only [faest_em_192f_sign_eq]

theorem crypto_sign_open_em_192f_eq : crypto_sign_open_em_192f absF = Gen.crypto_sign_open_em_192f := by
  funext I m mlen sm smlen pk
  unfold crypto_sign_open_em_192f Gen.crypto_sign_open_em_192f
  simp only [faest_em_192f_verify_eq]

theorem crypto_sign_keypair_256s_eq : crypto_sign_keypair_256s absF = Gen.crypto_sign_keypair_256s := by
  funext R pk sk
  unfold crypto_sign_keypair_256s Gen.crypto_sign_keypair_256s
  simp only [faest_256s_keygen_eq]

theorem crypto_sign_256s_eq : crypto_sign_256s absF = Gen.crypto_sign_256s := by
  funext I R sm smlen m mlen sk
  unfold crypto_sign_256s Gen.crypto_sign_256s
  simp only [faest_256s_sign_eq]

theorem crypto_sign_open_256s_eq : crypto_sign_open_256s absF = Gen.crypto_sign_open_256s := by
  funext I m mlen sm smlen pk
  unfold crypto_sign_open_256s Gen.crypto_sign_open_256s
  simp only [faest_256s_verify_eq]

theorem crypto_sign_keypair_256f_eq : crypto_sign_keypair_256f absF = Gen.crypto_sign_keypair_256f := by
  funext R pk sk
  unfold crypto_sign_keypair_256f Gen.crypto_sign_keypair_256f
  simp only [faest_256f_keygen_eq]

theorem crypto_sign_256f_eq : crypto_sign_256f absF = Gen.crypto_sign_256f := by
  funext I R sm smlen m mlen sk
  unfold crypto_sign_256f Gen.crypto_sign_256f
  simp only [faest_256f_sign_eq]

theorem crypto_sign_open_256f_eq : crypto_sign_open_256f absF = Gen.crypto_sign_open_256f := by
  funext I m mlen sm smlen pk
  unfold crypto_sign_open_256f Gen.crypto_sign_open_256f
  simp only [faest_256f_verify_eq]

theorem crypto_sign_keypair_em_256s_eq : crypto_sign_keypair_em_256s absF = Gen.crypto_sign_keypair_em_256s := by
  funext R pk sk
  unfold crypto_sign_keypair_em_256s Gen.crypto_sign_keypair_em_256s
  simp only [faest_em_256s_keygen_eq]

theorem crypto_sign_em_256s_eq : crypto_sign_em_256s absF = Gen.crypto_sign_em_256s := by
  funext I R sm smlen m mlen sk
  unfold crypto_sign_em_256s Gen.crypto_sign_em_256s
  simp only [faest_em_256s_sign_eq]

theorem crypto_sign_open_em_256s_eq : crypto_sign_open_em_256s absF = Gen.crypto_sign_open_em_256s := by
  funext I m mlen sm smlen pk
  unfold crypto_sign_open_em_256s Gen.crypto_sign_open_em_256s
  simp only [faest_em_256s_verify_eq]

theorem crypto_sign_keypair_em_256f_eq : crypto_sign_keypair_em_256f absF = Gen.crypto_sign_keypair_em_256f := by
  funext R pk sk
  unfold crypto_sign_keypair_em_256f Gen.crypto_sign_keypair_em_256f
  simp only [faest_em_256f_keygen_eq]

theorem crypto_sign_em_256f_eq : crypto_sign_em_256f absF = Gen.crypto_sign_em_256f := by
  funext I R sm smlen m mlen sk
  unfold crypto_sign_em_256f Gen.crypto_sign_em_256f
  simp only [faest_em_256f_sign_eq]

theorem crypto_sign_open_em_256f_eq : crypto_sign_open_em_256f absF = Gen.crypto_sign_open_em_256f := by
  funext I m mlen sm smlen pk
  unfold crypto_sign_open_em_256f Gen.crypto_sign_open_em_256f
  simp only [faest_em_256f_verify_eq]

end Faest.GenW
