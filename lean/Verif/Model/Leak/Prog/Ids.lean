/-
Generated by tools/c2leak.py; do not edit.
Numbers of the functions and of the global objects.
-/

namespace Faest.Leak.Prog.Id

@[reducible] def memset : Nat := 0
@[reducible] def KeccakP1600_Initialize : Nat := 1
@[reducible] def KeccakWidth1600_SpongeInitialize : Nat := 2
@[reducible] def Keccak_HashInitialize : Nat := 3
@[reducible] def hash_init : Nat := 4
@[reducible] def H1_init : Nat := 5
@[reducible] def KeccakF1600_FastLoop_Absorb : Nat := 6
@[reducible] def KeccakP1600_AddLanes : Nat := 7
@[reducible] def memcpy : Nat := 8
@[reducible] def KeccakP1600_AddBytesInLane : Nat := 9
@[reducible] def KeccakP1600_AddBytes : Nat := 10
@[reducible] def KeccakP1600_Permute_24rounds : Nat := 11
@[reducible] def KeccakWidth1600_SpongeAbsorb : Nat := 12
@[reducible] def Keccak_HashUpdate : Nat := 13
@[reducible] def hash_update : Nat := 14
@[reducible] def H1_update : Nat := 15
@[reducible] def KeccakWidth1600_SpongeAbsorbLastFewBits : Nat := 16
@[reducible] def KeccakP1600_ExtractLanes : Nat := 17
@[reducible] def KeccakP1600_ExtractBytesInLane : Nat := 18
@[reducible] def KeccakP1600_ExtractBytes : Nat := 19
@[reducible] def KeccakWidth1600_SpongeSqueeze : Nat := 20
@[reducible] def Keccak_HashFinal : Nat := 21
@[reducible] def hash_final : Nat := 22
@[reducible] def Keccak_HashSqueeze : Nat := 23
@[reducible] def hash_squeeze : Nat := 24
@[reducible] def H1_final : Nat := 25
@[reducible] def hash_mu : Nat := 26
@[reducible] def H3_init : Nat := 27
@[reducible] def H3_update : Nat := 28
@[reducible] def signature_iv : Nat := 29
@[reducible] def H3_final : Nat := 30
@[reducible] def signature_c : Nat := 31
@[reducible] def bf8_load : Nat := 32
@[reducible] def rot_word : Nat := 33
@[reducible] def contains_zero : Nat := 34
@[reducible] def bf8_square : Nat := 35
@[reducible] def bf8_mul : Nat := 36
@[reducible] def bf8_inv : Nat := 37
@[reducible] def parity8 : Nat := 38
@[reducible] def compute_sbox : Nat := 39
@[reducible] def sub_words : Nat := 40
@[reducible] def expand_key : Nat := 41
@[reducible] def aes256_init_round_keys : Nat := 42
@[reducible] def load_state : Nat := 43
@[reducible] def xor_u8_array : Nat := 44
@[reducible] def add_round_key : Nat := 45
@[reducible] def sub_bytes : Nat := 46
@[reducible] def shift_row : Nat := 47
@[reducible] def mix_column : Nat := 48
@[reducible] def aes_encrypt : Nat := 49
@[reducible] def bf8_store : Nat := 50
@[reducible] def store_state : Nat := 51
@[reducible] def aes_increment_iv : Nat := 52
@[reducible] def aes192_init_round_keys : Nat := 53
@[reducible] def aes128_init_round_keys : Nat := 54
@[reducible] def prg : Nat := 55
@[reducible] def getBinaryTreeNodeCount : Nat := 56
@[reducible] def create_tree : Nat := 57
@[reducible] def is_left_child : Nat := 58
@[reducible] def get_parent : Nat := 59
@[reducible] def expand_seeds : Nat := 60
@[reducible] def generate_seeds : Nat := 61
@[reducible] def KeccakP1600times4_StaticInitialize : Nat := 62
@[reducible] def KeccakP1600times4_InitializeAll : Nat := 63
@[reducible] def KeccakWidth1600times4_SpongeInitialize : Nat := 64
@[reducible] def Keccak_HashInitializetimes4 : Nat := 65
@[reducible] def hash_init_x4 : Nat := 66
@[reducible] def H0_x4_init : Nat := 67
@[reducible] def KeccakP1600times4_AddBytes : Nat := 68
@[reducible] def KeccakP1600times4_PermuteAll_24rounds : Nat := 69
@[reducible] def KeccakWidth1600times4_SpongeAbsorb : Nat := 70
@[reducible] def Keccak_HashUpdatetimes4 : Nat := 71
@[reducible] def hash_update_x4 : Nat := 72
@[reducible] def hash_update_x4_4 : Nat := 73
@[reducible] def H0_x4_update : Nat := 74
@[reducible] def hash_update_x4_1 : Nat := 75
@[reducible] def KeccakP1600times4_AddByte : Nat := 76
@[reducible] def KeccakWidth1600times4_SpongeAbsorbLastFewBits : Nat := 77
@[reducible] def KeccakP1600times4_ExtractBytes : Nat := 78
@[reducible] def KeccakWidth1600times4_SpongeSqueeze : Nat := 79
@[reducible] def Keccak_HashFinaltimes4 : Nat := 80
@[reducible] def hash_final_x4 : Nat := 81
@[reducible] def Keccak_HashSqueezetimes4 : Nat := 82
@[reducible] def hash_squeeze_x4 : Nat := 83
@[reducible] def hash_squeeze_x4_4 : Nat := 84
@[reducible] def H0_x4_final : Nat := 85
@[reducible] def H0_init : Nat := 86
@[reducible] def H0_update : Nat := 87
@[reducible] def H0_final : Nat := 88
@[reducible] def vector_commitment : Nat := 89
@[reducible] def ConvertToVole : Nat := 90
@[reducible] def vole_commit : Nat := 91
@[reducible] def H2_init : Nat := 92
@[reducible] def H2_update : Nat := 93
@[reducible] def H2_final : Nat := 94
@[reducible] def hash_challenge_1 : Nat := 95
@[reducible] def signature_u_tilde : Nat := 96
@[reducible] def bf256_load : Nat := 97
@[reducible] def bf256_bit_to_uint64_mask : Nat := 98
@[reducible] def bf256_and_64 : Nat := 99
@[reducible] def bf256_shift_left_1 : Nat := 100
@[reducible] def bf256_add : Nat := 101
@[reducible] def bf256_mul : Nat := 102
@[reducible] def bf64_load : Nat := 103
@[reducible] def bf64_zero : Nat := 104
@[reducible] def bf64_one : Nat := 105
@[reducible] def bf64_mul : Nat := 106
@[reducible] def bf64_add : Nat := 107
@[reducible] def compute_h1 : Nat := 108
@[reducible] def bf256_mul_64 : Nat := 109
@[reducible] def bf256_store : Nat := 110
@[reducible] def vole_hash_256 : Nat := 111
@[reducible] def bf192_load : Nat := 112
@[reducible] def bf192_bit_to_uint64_mask : Nat := 113
@[reducible] def bf192_and_64 : Nat := 114
@[reducible] def bf192_shift_left_1 : Nat := 115
@[reducible] def bf192_add : Nat := 116
@[reducible] def bf192_mul : Nat := 117
@[reducible] def bf192_mul_64 : Nat := 118
@[reducible] def bf192_store : Nat := 119
@[reducible] def vole_hash_192 : Nat := 120
@[reducible] def bf128_load : Nat := 121
@[reducible] def bf128_bit_to_uint64_mask : Nat := 122
@[reducible] def bf128_and_64 : Nat := 123
@[reducible] def bf128_shift_left_1 : Nat := 124
@[reducible] def bf128_add : Nat := 125
@[reducible] def bf128_mul : Nat := 126
@[reducible] def bf128_mul_64 : Nat := 127
@[reducible] def bf128_store : Nat := 128
@[reducible] def vole_hash_128 : Nat := 129
@[reducible] def vole_hash : Nat := 130
@[reducible] def rijndael256_init_round_keys : Nat := 131
@[reducible] def rijndael192_init_round_keys : Nat := 132
@[reducible] def aes_extend_witness : Nat := 133
@[reducible] def signature_d : Nat := 134
@[reducible] def hash_challenge_2 : Nat := 135
@[reducible] def signature_a_tilde : Nat := 136
@[reducible] def column_to_row_major_and_shrink_V_256 : Nat := 137
@[reducible] def bf256_zero : Nat := 138
@[reducible] def zk_hash_256_init : Nat := 139
@[reducible] def aes_key_schedule_forward_1 : Nat := 140
@[reducible] def aes_key_schedule_forward_256 : Nat := 141
@[reducible] def rotr8 : Nat := 142
@[reducible] def aes_key_schedule_backward_1 : Nat := 143
@[reducible] def bf256_from_bf8 : Nat := 144
@[reducible] def bf256_from_bit : Nat := 145
@[reducible] def bf256_mul_bit : Nat := 146
@[reducible] def aes_key_schedule_backward_256 : Nat := 147
@[reducible] def bf256_byte_combine_bits : Nat := 148
@[reducible] def bf256_byte_combine : Nat := 149
@[reducible] def zk_hash_256_update : Nat := 150
@[reducible] def bf256_one : Nat := 151
@[reducible] def aes_key_schedule_constraints_Mkey_0_256 : Nat := 152
@[reducible] def aes_enc_forward_256_1 : Nat := 153
@[reducible] def aes_enc_forward_256 : Nat := 154
@[reducible] def aes_enc_backward_256_1 : Nat := 155
@[reducible] def aes_enc_backward_256 : Nat := 156
@[reducible] def aes_enc_constraints_Mkey_0_256 : Nat := 157
@[reducible] def zk_hash_256_finalize : Nat := 158
@[reducible] def bf256_dbl : Nat := 159
@[reducible] def bf256_sum_poly : Nat := 160
@[reducible] def aes_prove_256 : Nat := 161
@[reducible] def em_enc_forward_256_1 : Nat := 162
@[reducible] def em_enc_forward_256 : Nat := 163
@[reducible] def em_enc_backward_256_1 : Nat := 164
@[reducible] def em_enc_backward_256 : Nat := 165
@[reducible] def em_enc_constraints_Mkey_0_256 : Nat := 166
@[reducible] def em_prove_256 : Nat := 167
@[reducible] def column_to_row_major_and_shrink_V_192 : Nat := 168
@[reducible] def bf192_zero : Nat := 169
@[reducible] def zk_hash_192_init : Nat := 170
@[reducible] def aes_key_schedule_forward_192 : Nat := 171
@[reducible] def bf192_from_bf8 : Nat := 172
@[reducible] def bf192_from_bit : Nat := 173
@[reducible] def bf192_mul_bit : Nat := 174
@[reducible] def aes_key_schedule_backward_192 : Nat := 175
@[reducible] def bf192_byte_combine_bits : Nat := 176
@[reducible] def bf192_byte_combine : Nat := 177
@[reducible] def zk_hash_192_update : Nat := 178
@[reducible] def bf192_one : Nat := 179
@[reducible] def aes_key_schedule_constraints_Mkey_0_192 : Nat := 180
@[reducible] def aes_enc_forward_192_1 : Nat := 181
@[reducible] def aes_enc_forward_192 : Nat := 182
@[reducible] def aes_enc_backward_192_1 : Nat := 183
@[reducible] def aes_enc_backward_192 : Nat := 184
@[reducible] def aes_enc_constraints_Mkey_0_192 : Nat := 185
@[reducible] def zk_hash_192_finalize : Nat := 186
@[reducible] def bf192_dbl : Nat := 187
@[reducible] def bf192_sum_poly : Nat := 188
@[reducible] def aes_prove_192 : Nat := 189
@[reducible] def em_enc_forward_192_1 : Nat := 190
@[reducible] def em_enc_forward_192 : Nat := 191
@[reducible] def em_enc_backward_192_1 : Nat := 192
@[reducible] def em_enc_backward_192 : Nat := 193
@[reducible] def em_enc_constraints_Mkey_0_192 : Nat := 194
@[reducible] def em_prove_192 : Nat := 195
@[reducible] def column_to_row_major_and_shrink_V_128 : Nat := 196
@[reducible] def bf128_zero : Nat := 197
@[reducible] def zk_hash_128_init : Nat := 198
@[reducible] def aes_key_schedule_forward_128 : Nat := 199
@[reducible] def bf128_from_bf8 : Nat := 200
@[reducible] def bf128_from_bit : Nat := 201
@[reducible] def bf128_mul_bit : Nat := 202
@[reducible] def aes_key_schedule_backward_128 : Nat := 203
@[reducible] def bf128_byte_combine_bits : Nat := 204
@[reducible] def bf128_byte_combine : Nat := 205
@[reducible] def zk_hash_128_update : Nat := 206
@[reducible] def bf128_one : Nat := 207
@[reducible] def aes_key_schedule_constraints_Mkey_0_128 : Nat := 208
@[reducible] def aes_enc_forward_128_1 : Nat := 209
@[reducible] def aes_enc_forward_128 : Nat := 210
@[reducible] def aes_enc_backward_128_1 : Nat := 211
@[reducible] def aes_enc_backward_128 : Nat := 212
@[reducible] def aes_enc_constraints_Mkey_0_128 : Nat := 213
@[reducible] def zk_hash_128_finalize : Nat := 214
@[reducible] def bf128_dbl : Nat := 215
@[reducible] def bf128_sum_poly : Nat := 216
@[reducible] def aes_prove_128 : Nat := 217
@[reducible] def em_enc_forward_128_1 : Nat := 218
@[reducible] def em_enc_forward_128 : Nat := 219
@[reducible] def em_enc_backward_128_1 : Nat := 220
@[reducible] def em_enc_backward_128 : Nat := 221
@[reducible] def em_enc_constraints_Mkey_0_128 : Nat := 222
@[reducible] def em_prove_128 : Nat := 223
@[reducible] def aes_prove : Nat := 224
@[reducible] def signature_chall_3 : Nat := 225
@[reducible] def hash_challenge_3 : Nat := 226
@[reducible] def ChalDec : Nat := 227
@[reducible] def signature_pdec : Nat := 228
@[reducible] def signature_com : Nat := 229
@[reducible] def NumRec : Nat := 230
@[reducible] def getNodeIndex : Nat := 231
@[reducible] def vector_open : Nat := 232
@[reducible] def vec_com_clear : Nat := 233
@[reducible] def faest_sign : Nat := 234
@[reducible] def rand_bytes : Nat := 235
@[reducible] def aes128_encrypt_block : Nat := 236
@[reducible] def owf_128 : Nat := 237
@[reducible] def faest_128s_keygen : Nat := 238
@[reducible] def faest_get_paramset : Nat := 239
@[reducible] def faest_128s_sign_with_randomness : Nat := 240
@[reducible] def faest_128s_sign : Nat := 241
@[reducible] def faest_timingsafe_bcmp : Nat := 242
@[reducible] def faest_128s_validate_keypair : Nat := 243
@[reducible] def faest_128f_keygen : Nat := 244
@[reducible] def faest_128f_sign_with_randomness : Nat := 245
@[reducible] def faest_128f_sign : Nat := 246
@[reducible] def faest_128f_validate_keypair : Nat := 247
@[reducible] def owf_em_128 : Nat := 248
@[reducible] def faest_em_128s_keygen : Nat := 249
@[reducible] def faest_em_128s_sign_with_randomness : Nat := 250
@[reducible] def faest_em_128s_sign : Nat := 251
@[reducible] def faest_em_128s_validate_keypair : Nat := 252
@[reducible] def faest_em_128f_keygen : Nat := 253
@[reducible] def faest_em_128f_sign_with_randomness : Nat := 254
@[reducible] def faest_em_128f_sign : Nat := 255
@[reducible] def faest_em_128f_validate_keypair : Nat := 256
@[reducible] def aes192_encrypt_block : Nat := 257
@[reducible] def owf_192 : Nat := 258
@[reducible] def faest_192s_keygen : Nat := 259
@[reducible] def faest_192s_sign_with_randomness : Nat := 260
@[reducible] def faest_192s_sign : Nat := 261
@[reducible] def faest_192s_validate_keypair : Nat := 262
@[reducible] def faest_192f_keygen : Nat := 263
@[reducible] def faest_192f_sign_with_randomness : Nat := 264
@[reducible] def faest_192f_sign : Nat := 265
@[reducible] def faest_192f_validate_keypair : Nat := 266
@[reducible] def rijndael192_encrypt_block : Nat := 267
@[reducible] def owf_em_192 : Nat := 268
@[reducible] def faest_em_192s_keygen : Nat := 269
@[reducible] def faest_em_192s_sign_with_randomness : Nat := 270
@[reducible] def faest_em_192s_sign : Nat := 271
@[reducible] def faest_em_192s_validate_keypair : Nat := 272
@[reducible] def faest_em_192f_keygen : Nat := 273
@[reducible] def faest_em_192f_sign_with_randomness : Nat := 274
@[reducible] def faest_em_192f_sign : Nat := 275
@[reducible] def faest_em_192f_validate_keypair : Nat := 276
@[reducible] def aes256_encrypt_block : Nat := 277
@[reducible] def owf_256 : Nat := 278
@[reducible] def faest_256s_keygen : Nat := 279
@[reducible] def faest_256s_sign_with_randomness : Nat := 280
@[reducible] def faest_256s_sign : Nat := 281
@[reducible] def faest_256s_validate_keypair : Nat := 282
@[reducible] def faest_256f_keygen : Nat := 283
@[reducible] def faest_256f_sign_with_randomness : Nat := 284
@[reducible] def faest_256f_sign : Nat := 285
@[reducible] def faest_256f_validate_keypair : Nat := 286
@[reducible] def rijndael256_encrypt_block : Nat := 287
@[reducible] def owf_em_256 : Nat := 288
@[reducible] def faest_em_256s_keygen : Nat := 289
@[reducible] def faest_em_256s_sign_with_randomness : Nat := 290
@[reducible] def faest_em_256s_sign : Nat := 291
@[reducible] def faest_em_256s_validate_keypair : Nat := 292
@[reducible] def faest_em_256f_keygen : Nat := 293
@[reducible] def faest_em_256f_sign_with_randomness : Nat := 294
@[reducible] def faest_em_256f_sign : Nat := 295
@[reducible] def faest_em_256f_validate_keypair : Nat := 296

end Faest.Leak.Prog.Id

namespace Faest.Leak.Prog.Glob

/-- sha3/opt64/KeccakP-1600-opt64.c:57 -/
@[reducible] def KeccakF1600RoundConstants : Nat := 0
/-- random_oracle.c:12 -/
@[reducible] def domain_sep_H1 : Nat := 1
/-- random_oracle.c:14 -/
@[reducible] def domain_sep_H3 : Nat := 2
/-- aes.c:32 -/
@[reducible] def round_constants : Nat := 3
/-- random_oracle.c:11 -/
@[reducible] def domain_sep_H0 : Nat := 4
/-- random_oracle.c:13 -/
@[reducible] def domain_sep_H2 : Nat := 5
/-- faest_aes.c:74 -/
@[reducible] def Rcon : Nat := 6
/-- fields.c:383 -/
@[reducible] def bf256_alpha : Nat := 7
/-- fields.c:231 -/
@[reducible] def bf192_alpha : Nat := 8
/-- fields.c:92 -/
@[reducible] def bf128_alpha : Nat := 9
/-- PRELUDE of tools/c2leak.py:25 -/
@[reducible] def released : Nat := 10
/-- PRELUDE of tools/c2leak.py:22 -/
@[reducible] def rand_tape : Nat := 11
/-- PRELUDE of tools/c2leak.py:23 -/
@[reducible] def rand_pos : Nat := 12
/-- PRELUDE of tools/c2leak.py:24 -/
@[reducible] def rand_result : Nat := 13

end Faest.Leak.Prog.Glob
