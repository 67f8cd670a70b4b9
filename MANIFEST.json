{
 "claims": [
  {
   "property": "C01",
   "status": "proved",
   "theorems": [
    "Faest.Props.C01_sign_then_verify"
   ],
   "note": "for every XOF, parameter set, key pair with validate = 0, message, rho (or NULL), buffer"
  },
  {
   "property": "C02",
   "status": "proved",
   "theorems": [
    "Faest.Props.C02_valid",
    "Faest.Props.C02_first_accepted",
    "Faest.Props.C02_null"
   ],
   "note": "every source whose first call delivers, or any source with an initialised buffer; loop bounded by a fuel argument, statement about returning runs"
  },
  {
   "property": "C03",
   "status": "proved",
   "theorems": [
    "Faest.Props.C03_null",
    "Faest.Props.C03_codes"
   ],
   "note": "keys of the right sizes; code 2 means accepted and mismatching"
  },
  {
   "property": "C04",
   "status": "proved",
   "theorems": [
    "Faest.Props.C04_error",
    "Faest.Props.C04_success",
    "Faest.Props.C04_iff"
   ],
   "note": ""
  },
  {
   "property": "C05",
   "status": "proved",
   "theorems": [
    "Faest.Props.C05_function"
   ],
   "note": ""
  },
  {
   "property": "C06",
   "status": "proved",
   "theorems": [
    "Faest.Props.C06_consecutive",
    "Faest.Props.C06_partition",
    "Faest.Props.C06_inside",
    "Faest.Props.C06_same_offsets"
   ],
   "note": ""
  },
  {
   "property": "C07",
   "status": "proved",
   "theorems": [
    "Faest.Props.C07_malformed",
    "Faest.Props.C07_total"
   ],
   "note": "definedness in the model: no out-of-bounds access, no read of uninitialised memory"
  },
  {
   "property": "C08",
   "status": "proved",
   "theorems": [
    "Faest.Props.C08_round_trip"
   ],
   "note": "sm and m distinct buffers; the random source delivers the requested bytes"
  },
  {
   "property": "C09",
   "status": "proved",
   "theorems": [
    "Faest.Props.C09_short",
    "Faest.Props.C09_fails_closed"
   ],
   "note": "sm and m distinct buffers"
  },
  {
   "property": "C10",
   "status": "proved",
   "theorems": [
    "Faest.Props.C10_bf8_mul",
    "Faest.Props.C10_bf64_mul",
    "Faest.Props.C10_bf128_mul",
    "Faest.Props.C10_bf192_mul",
    "Faest.Props.C10_bf256_mul",
    "Faest.Props.C10_bf128_mul_64",
    "Faest.Props.C10_bf192_mul_64",
    "Faest.Props.C10_bf256_mul_64",
    "Faest.Props.C10_add",
    "Faest.Props.C10_polyOf_injective"
   ],
   "note": "on the bit-vector model of the field code"
  },
  {
   "property": "C11",
   "status": "proved",
   "theorems": [
    "Faest.Props.C11_inverse",
    "Faest.Props.C11_field_laws",
    "Faest.Props.C11_irreducible",
    "Faest.Props.C11_bf8_inv"
   ],
   "note": "irreducibility by a Rabin test evaluated in the kernel"
  },
  {
   "property": "C12",
   "status": "proved",
   "theorems": [
    "Faest.Props.C12_byte_combine_bits",
    "Faest.Props.C12_byte_combine_linear",
    "Faest.Props.C12_byte_combine_of_bits"
   ],
   "note": ""
  },
  {
   "property": "C13",
   "status": "proved",
   "theorems": [
    "Faest.C13_vole_hash",
    "Faest.C13_zk_hash"
   ],
   "note": "VOLE hash and ZK hash of the code equal polynomial hashes, which are linear in the data"
  },
  {
   "property": "C14",
   "status": "proved",
   "theorems": [
    "Faest.C14_commit",
    "Faest.C14_open_reconstruct"
   ],
   "note": "vector commitment refined to the GGM tree specification in Spec/Ggm.lean; hash is a parameter"
  },
  {
   "property": "C15",
   "status": "proved",
   "theorems": [
    "Faest.C15_chalDec",
    "Faest.C15_numRec",
    "Faest.C15_bitDec_numRec"
   ],
   "note": ""
  },
  {
   "property": "C16",
   "status": "proved",
   "theorems": [
    "Faest.C16_vole_correlation"
   ],
   "note": "runs vole_commit, chal_dec + vector_open per tree, vole_reconstruct; the hash is a parameter"
  },
  {
   "property": "C17",
   "status": "proved",
   "theorems": [
    "Faest.Props.C17_expand_key",
    "Faest.Props.C17_encrypt"
   ],
   "note": "against Spec/Rijndael.lean"
  },
  {
   "property": "C18",
   "status": "proved",
   "theorems": [
    "Faest.Props.C18_encrypt_injective",
    "Faest.Props.C18_stream_blocks_distinct"
   ],
   "note": ""
  },
  {
   "property": "C19",
   "status": "proved",
   "theorems": [
    "Faest.Props.C19_increment",
    "Faest.Props.C19_prg"
   ],
   "note": "portable (non-OpenSSL) variant of prg"
  },
  {
   "property": "C20",
   "status": "proved",
   "theorems": [
    "Faest.Props.C20_owf"
   ],
   "note": ""
  },
  {
   "property": "C21",
   "status": "proved",
   "theorems": [
    "Faest.C21_witness_satisfies"
   ],
   "note": "aes_extend_witness of an accepted key returns exactly l/8 bytes that satisfy every constraint of the relation hashed by aes_prove/aes_verify (the refinement of the code to that relation is aesProve_ok/aesVerify_ok)."
  },
  {
   "property": "C22",
   "status": "proved",
   "theorems": [
    "Faest.C22_b_tilde"
   ],
   "note": "aes_prove and aes_verify on correlated inputs return the same b_tilde, all 12 parameter sets."
  },
  {
   "property": "C23",
   "status": "proved",
   "theorems": [
    "Faest.C23_two_challenges"
   ],
   "note": "Of three different challenges at least one gives a value different from b, when the hashed violation of the committed witness is not zero."
  },
  {
   "property": "C24",
   "status": "proved",
   "theorems": [
    "Faest.Props.C24_binding"
   ],
   "note": "Explicit inputs of hash_mu (H1) and of the three challenge hashes (H2) at the output lengths used; XOF is an arbitrary function."
  },
  {
   "property": "C25",
   "status": "proved",
   "theorems": [
    "Faest.Props.C25_no_slack"
   ],
   "note": "Explicit colliding pairs under H2, H1, the commitment part of H0, or the PRG (same iv) for two accepted signatures with the same final challenge. A single byte change outside the final challenge is an instance."
  },
  {
   "property": "C26",
   "status": "proved",
   "theorems": [
    "Faest.Props.C26_final_bytes",
    "Faest.Props.C26_final_bytes_x4",
    "Faest.Props.C26_domains_disjoint",
    "Faest.Props.C26_mu",
    "Faest.Props.C26_challenge_1",
    "Faest.Props.C26_challenge_2",
    "Faest.Props.C26_challenge_3",
    "Faest.Props.C26_challenge_inputs_differ"
   ],
   "note": "H0/H1/H2/H3 modelled as an arbitrary XOF applied to the input followed by the domain byte."
  },
  {
   "property": "C27",
   "status": "proved",
   "theorems": [
    "Faest.Props.C27_bcmp"
   ],
   "note": "portable version of compat.c, result and trace of accesses"
  },
  {
   "property": "C28",
   "status": "proved",
   "theorems": [
    "Faest.C28_commit",
    "Faest.C28_reconstruct"
   ],
   "note": "x4 hash modelled as four hash instances"
  },
  {
   "property": "C29",
   "status": "proved",
   "theorems": [
    "Faest.Props.C29_clear"
   ],
   "note": "portable version of compat.c"
  },
  {
   "property": "C30",
   "status": "proved",
   "theorems": [
    "Faest.Props.C30_no_overflow",
    "Faest.Props.C30_params_fit",
    "Faest.Props.C30_node_count",
    "Faest.Props.C30_node_count_model",
    "Faest.Props.C30_node_index",
    "Faest.Props.C30_node_index_model",
    "Faest.Props.C30_offsets",
    "Faest.Props.C30_columns",
    "Faest.Props.C30_ranges",
    "Faest.Props.C30_lengths"
   ],
   "note": "224 index and size expressions of vc.c, vole.c, faest.c, universal_hashing.c, faest_aes.c, aes.c and the wrappers as typed C expressions, evaluated by the C conversion rules; every intermediate result must fit its type (size_t of 32 or 64 bits). That the list is complete is by reading; C30_ranges shows for the shared ranges that they contain all values of the loops, C30_lengths and C30_offsets compare values with the model. The unsigned differences c - r which wrap on purpose are treated separately (C30_columns). The translated code of C52 to C60 wraps as C does and makes signed overflow undefined."
  },
  {
   "property": "C31",
   "status": "partial",
   "theorems": [
    "Faest.Props.C31_keygen_ignores_failure",
    "Faest.Props.C31_sign_reads_unset_memory",
    "Faest.Props.C31_rand_bytes_partial",
    "Faest.Props.C31_urandom_partial"
   ],
   "note": "The claim is false of the code: keygen and sign ignore the result of rand_bytes. The first two theorems prove the negation (keygen returns 0 although every call of the source fails; sign reads uninitialised memory instead of returning an error); the partial theorems show that rand_bytes itself reports failures in the getrandom and /dev/urandom versions."
  },
  {
   "property": "C32",
   "status": "proved",
   "theorems": [
    "Faest.Props.C32_d",
    "Faest.Props.C32_a_tilde",
    "Faest.Props.C32_u_tilde",
    "Faest.Props.C32_bijection",
    "Faest.Props.C32_independent"
   ],
   "note": "Each published value as a bijective function of its mask part, and the joint map as a bijection; uniformity is the counting consequence."
  },
  {
   "property": "C33",
   "status": "proved",
   "theorems": [
    "Faest.C33_open_hides_path"
   ],
   "note": ""
  },
  {
   "property": "C34",
   "status": "proved",
   "theorems": [
    "Faest.Props.C34_load_store",
    "Faest.Props.C34_store_load",
    "Faest.Props.C34_bits"
   ],
   "note": ""
  },
  {
   "property": "C35",
   "status": "proved",
   "theorems": [
    "Faest.Props.C35_table",
    "Faest.Props.C35_circuit",
    "Faest.Props.C35_bounds",
    "Faest.Props.C35_known",
    "Faest.Props.C35_unknown"
   ],
   "note": "C35_circuit derives Ske, Senc, Lke, Lenc, beta and pkSize from FIPS 197 counts. (The template constant C of the EM sets is that of the AES sets in meson.build; no code uses it.)"
  },
  {
   "property": "C36",
   "status": "proved",
   "theorems": [
    "Faest.Props.C36_repr_unique",
    "Faest.Props.C36_add",
    "Faest.Props.C36_shift",
    "Faest.Props.C36_bit_mask",
    "Faest.Props.C36_mul",
    "Faest.Props.C36_mul64",
    "Faest.Props.C36_mul_bit",
    "Faest.Props.C36_sum_poly",
    "Faest.Props.C36_mul_poly",
    "Faest.Props.C36_mul64_poly",
    "Faest.Props.C36_sum_poly_poly",
    "Faest.Props.C36_load",
    "Faest.Props.C36_store",
    "Faest.Props.C36_constants",
    "Faest.Props.C36_byte_combine",
    "Faest.Props.C36_fourth_word",
    "Faest.Props.C36_fourth_word_stays_zero"
   ],
   "note": "Word-level model of both builds (struct; vector extensions with and without __builtin_shufflevector) for 128/192/256 bits; also loads and stores on little- and big-endian hosts and byte_combine. The semantics of the compiler's vector operators is part of the model (word-wise operators, scalar replication, shuffle)."
  },
  {
   "property": "C37",
   "status": "proved",
   "theorems": [
    "Faest.C37_satisfies_iff",
    "Faest.C37_satisfying_is_preimage"
   ],
   "note": "The constraint system is satisfied exactly by extended witnesses of accepted preimages."
  },
  {
   "property": "C38",
   "status": "proved",
   "theorems": [
    "Faest.Props.C38_sign",
    "Faest.Props.C38_verify",
    "Faest.Props.C38_public_key"
   ],
   "note": "The scheme's description is Spec/Scheme.lean with its parts Spec/{Ggm,Vole,UHash,Constraints,Witness,Owf,Rijndael}.lean, written with functions on indices and finite-field polynomials, no memory and no loops of the code. SHAKE is a parameter (any XOF); C43/C47 show the bundled code realises it."
  },
  {
   "property": "C39",
   "status": "proved",
   "theorems": [
    "Faest.Props.C39_vole_hash_value",
    "Faest.Props.C39_zk_hash_value",
    "Faest.Props.C39_vole_hash_collisions",
    "Faest.Props.C39_zk_hash_collisions",
    "Faest.Props.C39_parameters"
   ],
   "note": "Counts of hash keys, exact bounds and their consequence for each parameter set."
  },
  {
   "property": "C40",
   "status": "proved",
   "theorems": [
    "Faest.Props.C40_constraint_check",
    "Faest.Props.C40_consistency_check",
    "Faest.Props.C40_knowledge_soundness",
    "Faest.Props.C40_parameters",
    "Faest.Props.C40_accepted_signature"
   ],
   "note": "Interactive form: commitments are the columns v and tree values u fixed before chall_1, and challenges are counted. That the openings of a signature determine such v, u is C41 and C15-C17 up to collisions; the Fiat-Shamir step is C63."
  },
  {
   "property": "C41",
   "status": "proved",
   "theorems": [
    "Faest.Props.C41_binding",
    "Faest.Props.C41_commitment"
   ],
   "note": "Reduction to explicit collisions; nothing is assumed about the hash."
  },
  {
   "property": "C42",
   "status": "proved",
   "theorems": [
    "Faest.Props.C42_sign",
    "Faest.Props.C42_open",
    "Faest.Props.C42_open_short",
    "Faest.Props.C42_round_trip"
   ],
   "note": "Model/ApiOverlap.lean: one memory object with two offsets, memmove reads all bytes before writing."
  },
  {
   "property": "C43",
   "status": "proved",
   "theorems": [
    "Faest.Props.C43_streaming"
   ],
   "note": "All chunk lists and output splits; sizes of single calls below 2^32-200 bytes and 2^(w-3) (C46 has the exact condition). The specification is FIPS 202 on bit strings, Spec/Keccak.lean. The model is written by hand after opt64 on little-endian hosts; C57 is the same for the translated text of six builds."
  },
  {
   "property": "C44",
   "status": "proved",
   "theorems": [
    "Faest.Props.C44_permutation"
   ],
   "note": "Full FIPS 202 step mappings, rho offsets and round constants derived by the algorithms of the standard, not by tables."
  },
  {
   "property": "C45",
   "status": "proved",
   "theorems": [
    "Faest.Props.C45_streaming_x4",
    "Faest.Props.C45_x4_eq_single"
   ],
   "note": "WITH_KECCAK_X4 with the fallback PlSnP (opt64)."
  },
  {
   "property": "C46",
   "status": "partial",
   "theorems": [
    "Faest.Props.C46_mu_partial",
    "Faest.Props.C46_mu_defined_iff",
    "Faest.Props.C46_mu_not_total",
    "Faest.Props.C46_loop_turn_changes_nothing",
    "Faest.Props.C46_wrap",
    "Faest.Props.C46_collision32"
   ],
   "note": "The claim is false of the code (the sponge has the code of CVE-2022-37454). Proved: the digest is right for exactly the lengths of GoodLength; for the other lengths hash_mu is undefined (write beyond the state, or a loop that makes no progress); on 32-bit size_t lengths wrap at 2^29 and messages collide."
  },
  {
   "property": "C47",
   "status": "proved",
   "theorems": [
    "Faest.Props.C47_H0",
    "Faest.Props.C47_H1",
    "Faest.Props.C47_H2",
    "Faest.Props.C47_H3",
    "Faest.Props.C47_H0_x4",
    "Faest.Props.C47_hash_mu",
    "Faest.Props.C47_hash_challenge_1",
    "Faest.Props.C47_hash_challenge_2",
    "Faest.Props.C47_hash_challenge_3"
   ],
   "note": "Links the models that treat SHAKE as a parameter X to the bundled code: with X := SHAKE of FIPS 202 the call sequences compute the same values."
  },
  {
   "property": "C48",
   "status": "proved",
   "theorems": [
    "Faest.Props.C48_refuse",
    "Faest.Props.C48_alloc_any",
    "Faest.Props.C48_alloc",
    "Faest.Props.C48_wrap",
    "Faest.Props.C48_posix_memalign",
    "Faest.Props.C48_calls"
   ],
   "note": "Sizes up to 2^w - 2^a (C48_wrap shows that the addition wraps beyond). What malloc returns is a parameter; the block must lie in the address space."
  },
  {
   "property": "C49",
   "status": "proved",
   "theorems": [
    "Faest.Props.C49_openssl"
   ],
   "note": "OpenSSL is a parameter: hypothesis that its key stream is AES-CTR with a 128-bit big-endian counter (Spec.prgStream)."
  },
  {
   "property": "C50",
   "status": "proved",
   "theorems": [
    "C50_sign",
    "C50_verify"
   ],
   "note": "Model/Flat.lean has vc.c, vole.c, the column functions of faest_aes.c and faest.c with byte buffers; it simulates the element-wise model, which is proved to compute the specification (C38). Freeing of memory is not part of it."
  },
  {
   "property": "C51",
   "status": "proved",
   "theorems": [
    "Faest.Props.C51_sign",
    "Faest.Props.C51_verify",
    "Faest.Props.C51_reject"
   ],
   "note": "Heap with explicit blocks, kinds of blocks and arrays of pointers; simulation of the byte-buffer model of C50. Allocation never fails in the model: the code never tests the result of an allocation."
  },
  {
   "property": "C52",
   "status": "proved",
   "theorems": [
    "Faest.Props.C52_prg",
    "Faest.Props.C52_encrypt",
    "Faest.Props.C52_vole_hash",
    "Faest.Props.C52_witness"
   ],
   "note": "About the definitions in Model/Gen, which are generated from the C text; their meaning is Model/CSem.lean."
  },
  {
   "property": "C53",
   "status": "proved",
   "theorems": [
    "Faest.Props.C53_sign_with_randomness",
    "Faest.Props.C53_sign",
    "Faest.Props.C53_verify",
    "Faest.Props.C53_reject"
   ],
   "note": "Texts generated from /repo by tools/c2lean.py for the twelve sets. The secret key is in another block than the signature. rand_bytes stores the next string of a tape; the hash is a parameter (related to the bundled one by C47)."
  },
  {
   "property": "C54",
   "status": "proved",
   "theorems": [
    "Faest.Props.C54_keygen",
    "Faest.Props.C54_null",
    "Faest.Props.C54_validate",
    "Faest.Props.C54_clear",
    "Faest.Props.C54_bcmp"
   ],
   "note": "Texts generated from /repo by tools/c2lean.py. In keygen the two keys are in different blocks and fewer than 2^63 keys are refused in a row (the bound on loop iterations of the semantics)."
  },
  {
   "property": "C55",
   "status": "proved",
   "theorems": [
    "Faest.Props.C55_crypto_sign",
    "Faest.Props.C55_crypto_open",
    "Faest.Props.C55_crypto_short",
    "Faest.Props.C55_crypto_keypair",
    "Faest.Props.C55_roundtrip"
   ],
   "note": "Texts generated from /repo by tools/c2lean.py. m.length + signature size < 2^64. crypto_sign_keypair is keygen, by C54."
  },
  {
   "property": "C56",
   "status": "proved",
   "theorems": [
    "Faest.Props.C56_bf128",
    "Faest.Props.C56_bf192",
    "Faest.Props.C56_bf256",
    "Faest.Props.C56_bf8",
    "Faest.Props.C56_bf64",
    "Faest.Props.C56_bf8_square",
    "Faest.Props.C56_bf8_inv",
    "Faest.Props.C56_rot8",
    "Faest.Props.C56_parity8",
    "Faest.Props.C56_model",
    "Faest.Props.C56_model_128",
    "Faest.Props.C56_model_192",
    "Faest.Props.C56_model_256"
   ],
   "note": "Texts generated from /repo by tools/c2words.py. The semantics of the compiler's vector operators is part of the model, as in C36. bf*_rand and the intrinsics are not covered."
  },
  {
   "property": "C57",
   "status": "proved",
   "theorems": [
    "Faest.Props.C57_shake",
    "Faest.Props.C57_shake_x4",
    "Faest.Props.C57_init",
    "Faest.Props.C57_update",
    "Faest.Props.C57_final",
    "Faest.Props.C57_x4"
   ],
   "note": "About the text translated by tools/c2hash.py: KeccakP-1600-opt64.c, KeccakP-1600-inplace32BI.c, KeccakP-1600-times4-SIMD256.c, PlSnP-Fallback.inc, KeccakSponge(times4).inc, KeccakHash(times4).c, hash_shake.h, random_oracle.c. The state array is a block of its own; 64-bit size_t; alignment is not modelled. All six builds `Sha3`: 64-bit (big-endian: C69) and 32-bit (C62, big-endian: C70), each on little- and big-endian hosts, AVX2 (C61 and the assembler of C65), and ARM (the assembler of C67)."
  },
  {
   "property": "C58",
   "status": "proved",
   "theorems": [
    "Faest.Props.C58_faest_sign",
    "Faest.Props.C58_keygen",
    "Faest.Props.C58_validate",
    "Faest.Props.C58_sign_with_randomness",
    "Faest.Props.C58_sign"
   ],
   "note": "On the program which tools/c2leak.py translates from the C text (297 functions); sound type system, typing checked by the kernel. For six builds: 64-bit and 32-bit Keccak on little- and big-endian hosts, the AVX2 code for four states (with the C code of opt64 in place of the assembler, for which see C66), and field elements as vectors of the compiler. Published values: iv and third challenge of the signature, results of the one-way function and of the comparison in the API functions."
  },
  {
   "property": "C59",
   "status": "proved",
   "theorems": [
    "Faest.Props.C59_sign_with_randomness",
    "Faest.Props.C59_sign",
    "Faest.Props.C59_verify",
    "Faest.Props.C59_crypto_sign",
    "Faest.Props.C59_crypto_open",
    "Faest.Props.C59_roundtrip"
   ],
   "note": "Hypothesis Hashable: the exact lengths for which the 64-bit sponge is right (C46); every length up to 2^32-200 is. Field operations are those of Model/Fields (related to the translated fields.c by C56); rand_bytes is a tape; allocation succeeds. Holds for six builds of the Keccak code: 64-bit (big-endian: C69) and 32-bit (C62, big-endian: C70), each on little- and big-endian hosts, AVX2 (C61 and the assembler of C65), and ARM (the assembler of C67)."
  },
  {
   "property": "C60",
   "status": "proved",
   "theorems": [
    "Faest.Props.C60_fields",
    "Faest.Props.C60_keygen",
    "Faest.Props.C60_validate",
    "Faest.Props.C60_sign_with_randomness",
    "Faest.Props.C60_sign",
    "Faest.Props.C60_verify",
    "Faest.Props.C60_crypto_sign",
    "Faest.Props.C60_crypto_open",
    "Faest.Props.C60_roundtrip"
   ],
   "note": "Same hypotheses as C59. A call of a field function converts its arguments to words and its result back; a result which is not the words of an element is undefined behaviour. The byte order of the fields is a parameter; for a big-endian host it goes together with the builds opt64be and plain32be of the hash. Holds for six builds of the Keccak code: 64-bit (big-endian: C69) and 32-bit (C62, big-endian: C70), each on little- and big-endian hosts, AVX2 (C61 and the assembler of C65), and ARM (the assembler of C67)."
  },
  {
   "property": "C61",
   "status": "proved",
   "theorems": [
    "Faest.Props.C61_permute",
    "Faest.Props.C61_init",
    "Faest.Props.C61_addByte",
    "Faest.Props.C61_addBytes",
    "Faest.Props.C61_extract"
   ],
   "note": "About the text translated by tools/c2hash.py; the meaning of nine AVX2 intrinsics is trusted (Model/CVec.lean). States begin at a multiple of 32 bytes; the alignment of the tables rho8, rho56, which the source does not ask for, is not checked."
  },
  {
   "property": "C62",
   "status": "proved",
   "theorems": [
    "Faest.Props.C62_permute",
    "Faest.Props.C62_init",
    "Faest.Props.C62_addByte",
    "Faest.Props.C62_addBytes",
    "Faest.Props.C62_extract",
    "Faest.Props.C62_whole_state"
   ],
   "note": "About the text translated by tools/c2hash.py with the little-endian branch; accesses of 32-bit words at any address are allowed. size_t has 64 bits. For the whole state of 200 bytes in one call ExtractBytes is proved to read behind the state."
  },
  {
   "property": "C63",
   "status": "proved",
   "theorems": [
    "Faest.Props.C63_verifier_questions",
    "Faest.Props.C63_knowledge_soundness",
    "Faest.Props.C63_forgery",
    "Faest.Props.C63_parameters",
    "Faest.Props.C63_vcount",
    "Faest.Props.C63_keys",
    "Faest.Props.C63_signer"
   ],
   "note": "Adversaries without signing queries (key only), deterministic (coins can be fixed). Hash functions are a table of answers for all strings of at most L bytes; AES is the concrete cipher, nothing is assumed about it. The extractor is Spec/Rom.lean. C63_signer: adversaries whose output is always accepted exist."
  },
  {
   "property": "C64",
   "status": "proved",
   "theorems": [
    "Faest.Props.C64_bijection",
    "Faest.Props.C64_every_key",
    "Faest.Props.C64_two_keys",
    "Faest.Props.C64_count",
    "Faest.Props.C64_signer"
   ],
   "note": "Sets of valid signatures are sigsWith (Spec/Given.lean), defined by Spec.ValidSig without a secret key; that faest_sign computes Spec.signature and faest_verify accepts exactly Spec.ValidSig is C38 (the model) and C50 (the translated code). That the strings and commitments of closed leaves look uniform is a property of AES-CTR and SHAKE and is not proved."
  },
  {
   "property": "C65",
   "status": "proved",
   "theorems": [
    "Faest.Props.C65_initialize",
    "Faest.Props.C65_permute",
    "Faest.Props.C65_addByte",
    "Faest.Props.C65_addBytes",
    "Faest.Props.C65_extractBytes",
    "Faest.Props.C65_absorb",
    "Faest.Props.C65_upper_bits"
   ],
   "note": "The code is translated instruction by instruction (Model/Gen/KeccakAsm.lean) for the machine of Model/Asm.lean. C57, C59 and C60 hold for the build with this code (Sha3.avx2). C65_upper_bits is the negative result about upper bits of registers."
  },
  {
   "property": "C66",
   "status": "proved",
   "theorems": [
    "Faest.Props.C66_shows",
    "Faest.Props.C66_initialize",
    "Faest.Props.C66_addByte",
    "Faest.Props.C66_addBytes",
    "Faest.Props.C66_extractBytes",
    "Faest.Props.C66_permute",
    "Faest.Props.C66_absorb",
    "Faest.Props.C66_absorb_result"
   ],
   "note": "Model/AsmLeak.lean adds to the runs of Model/Asm.lean the addresses of loads and stores and the directions of conditional jumps; Prog.trace_iff shows that these are the same runs. A type system (Proofs/Asm/Leak.lean) is proved sound, and the types of all labels (Proofs/Asm/LeakTypes.lean) are checked by the kernel. The time of a single instruction is taken not to depend on its operands beyond this."
  },
  {
   "property": "C67",
   "status": "proved",
   "theorems": [
    "Faest.Props.C67_initialize",
    "Faest.Props.C67_permute",
    "Faest.Props.C67_addByte",
    "Faest.Props.C67_addBytes",
    "Faest.Props.C67_extractBytes",
    "Faest.Props.C67_upper_bits"
   ],
   "note": "The code is translated instruction by instruction (Model/Gen/KeccakNeon.lean) for the machine of Model/A64.lean. C57, C59 and C60 hold for the build with this code (Sha3.neon), four states included. C67_upper_bits is the negative result about upper bits of a register."
  },
  {
   "property": "C68",
   "status": "proved",
   "theorems": [
    "Faest.Props.C68_shows",
    "Faest.Props.C68_initialize",
    "Faest.Props.C68_addByte",
    "Faest.Props.C68_addBytes",
    "Faest.Props.C68_extractBytes",
    "Faest.Props.C68_permute"
   ],
   "note": "Model/A64Leak.lean adds to the runs of Model/A64.lean the addresses of loads and stores and the directions of conditional branches; A64.Prog.trace_iff shows that these are the same runs. A type system (Proofs/A64/Leak.lean) is proved sound, and the types of all labels are checked by the kernel. The time of a single instruction is taken not to depend on its operands beyond this."
  },
  {
   "property": "C69",
   "status": "proved",
   "theorems": [
    "Faest.Props.C69_initialize",
    "Faest.Props.C69_permute",
    "Faest.Props.C69_addByte",
    "Faest.Props.C69_addBytes",
    "Faest.Props.C69_extractBytes",
    "Faest.Props.C69_absorb",
    "Faest.Props.C69_whole_state"
   ],
   "note": "About the text of KeccakP-1600-opt64.c as translated by tools/c2hash.py for a big-endian host (Model/Gen/KeccakBe.lean). C57, C59 and C60 hold for the build with this code (Sha3.opt64be), four states included. C69_whole_state is the negative result about a whole state."
  },
  {
   "property": "C70",
   "status": "proved",
   "theorems": [
    "Faest.Props.C70_permute",
    "Faest.Props.C70_init",
    "Faest.Props.C70_addByte",
    "Faest.Props.C70_addBytes",
    "Faest.Props.C70_extract",
    "Faest.Props.C70_whole_state"
   ],
   "note": "About the text of KeccakP-1600-inplace32BI.c as translated by tools/c2hash.py for a big-endian host (Model/Gen/KeccakP32be.lean). C57, C59 and C60 hold for the build with this code (Sha3.plain32be), four states included. size_t has 64 bits. For the whole state of 200 bytes in one call ExtractBytes is proved to read behind the state."
  },
  {
   "property": "C71",
   "status": "proved",
   "theorems": [
    "Faest.Props.C71_block",
    "Faest.Props.C71_oracles",
    "Faest.Props.C71_second",
    "Faest.Props.C71_second_wrong"
   ],
   "note": "Hand model of sha3/s390_cpacf.h; the instructions are parameters (Spec/Cpacf.lean states what is assumed of them, refCpacf shows that the assumptions can be met). C71_second and C71_second_wrong show that output beyond a block is wrong under the further assumption Cpacf.Keeps."
  },
  {
   "property": "C72",
   "status": "proved",
   "theorems": [
    "Faest.Props.C72_init",
    "Faest.Props.C72_randombytes",
    "Faest.Props.C72_rand_bytes",
    "Faest.Props.C72_sequence",
    "Faest.Props.C72_too_long",
    "Faest.Props.C72_counter",
    "Faest.Props.C72_prg"
   ],
   "note": "Hand model of tools/rng.c. AES-256 of OpenSSL is a parameter, a function returning 16 bytes; failures of OpenSSL, which end the program, are not modelled. Spec/Drbg.lean is the generator after SP 800-90A, with V as a number."
  },
  {
   "property": "C73",
   "status": "proved",
   "theorems": [
    "Faest.Props.C73_sign_with_randomness",
    "Faest.Props.C73_sign",
    "Faest.Props.C73_verify",
    "Faest.Props.C73_crypto_sign",
    "Faest.Props.C73_crypto_open",
    "Faest.Props.C73_roundtrip"
   ],
   "note": "hash_shake.h for the macro OQS and random_oracle.c over it are modelled by hand (Model/Oqs.lean), the rest of the program is the translated text of C60. The functions of liboqs are parameters; Spec/Oqs.lean states what is assumed of each, and Proofs/OqsIdeal.lean has a library that meets it. The unused hash_init_prefix_x4, which does not compile, is left out."
  },
  {
   "property": "C74",
   "status": "proved",
   "theorems": [
    "Faest.Props.C74_find",
    "Faest.Props.C74_find_not",
    "Faest.Props.C74_hex",
    "Faest.Props.C74_main",
    "Faest.Props.C74_valid"
   ],
   "note": "The cipher and the hash are parameters; files are lists of characters and opening one succeeds. That a good key comes up is a hypothesis (key generation loops for as long as it does not)."
  },
  {
   "property": "C75",
   "status": "proved",
   "theorems": [
    "Faest.Props.C75_sub_overflow",
    "Faest.Props.C75_rotl8",
    "Faest.Props.C75_rotr8",
    "Faest.Props.C75_parity8",
    "Faest.Props.C75_parity8_popcount",
    "Faest.Props.C75_clz",
    "Faest.Props.C75_clz_builtin",
    "Faest.Props.C75_clz_scan",
    "Faest.Props.C75_ceil_log2",
    "Faest.Props.C75_bswap16",
    "Faest.Props.C75_bswap32",
    "Faest.Props.C75_bswap64",
    "Faest.Props.C75_store16",
    "Faest.Props.C75_store32",
    "Faest.Props.C75_store64",
    "Faest.Props.C75_load16",
    "Faest.Props.C75_load32",
    "Faest.Props.C75_load64"
   ],
   "note": "The detection of the byte order by the preprocessor is not modelled."
  },
  {
   "property": "C76",
   "status": "proved",
   "theorems": [
    "Faest.Props.C76_rand_bytes",
    "Faest.Props.C76_returns",
    "Faest.Props.C76_end_of_file"
   ],
   "note": "The calls of the system are parameters (Spec/RandOs.lean: Honest). fcntl for systems without O_CLOEXEC is left out. That the callers ignore the result is C31."
  },
  {
   "property": "C77",
   "status": "proved",
   "theorems": [
    "Faest.Props.C77_main"
   ],
   "note": "Over the models of C38 and C42; what is printed is left out."
  },
  {
   "property": "C78",
   "status": "proved",
   "theorems": [
    "Faest.Props.C78_sponge",
    "Faest.Props.C78_hash",
    "Faest.Props.C78_sha3",
    "Faest.Props.C78_shake",
    "Faest.Props.C78_initialize",
    "Faest.Props.C78_rate_1600"
   ],
   "note": "Each input and output is shorter than 2^32 - 200 bytes (C46 shows why) and its length in bits is a size_t. As documented in KeccakHash.h, only the last update has a number of bits which is not a multiple of 8. C78_rate_1600 shows why the rate 1600 is left out."
  },
  {
   "property": "C79",
   "status": "proved",
   "theorems": [
    "Faest.Props.C79_sponge",
    "Faest.Props.C79_arguments",
    "Faest.Props.C79_agrees"
   ],
   "note": "opt64 build. The rate 1600 is left out (C78_rate_1600)."
  },
  {
   "property": "C80",
   "status": "proved",
   "theorems": [
    "Faest.Props.C80_sponge",
    "Faest.Props.C80_hash",
    "Faest.Props.C80_sha3",
    "Faest.Props.C80_shake",
    "Faest.Props.C80_agrees",
    "Faest.Props.C80_bits",
    "Faest.Props.C80_initialize"
   ],
   "note": "opt64 build, little-endian. The rate 1600 is left out (C78_rate_1600)."
  },
  {
   "property": "C81",
   "status": "proved",
   "theorems": [
    "Faest.Props.C81_overwrite",
    "Faest.Props.C81_zeroes",
    "Faest.Props.C81_extract_add",
    "Faest.Props.C81_extract_add_200"
   ],
   "note": "opt64 build, little-endian; input and output of KeccakP1600_ExtractAndAddBytes do not overlap."
  },
  {
   "property": "C82",
   "status": "proved",
   "theorems": [
    "Faest.Props.C82_rounds",
    "Faest.Props.C82_12rounds",
    "Faest.Props.C82_24",
    "Faest.Props.C82_too_many"
   ],
   "note": "All states and all numbers of rounds. C82_too_many is a finding: above 24 the unsigned difference wraps. No caller in the repository passes such a number."
  }
 ]
}