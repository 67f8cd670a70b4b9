{"id": "C01", "title": "Sign-then-verify always succeeds", "statement": "If validate_keypair(pk, sk) returns 0, then sign_with_randomness(sk, msg, rho) with a large enough buffer returns 0 and writes exactly SIGNATURE_SIZE bytes that verify(pk, msg) accepts with return value 0.", "quantifier": "for each of the 12 parameter sets, every valid key pair, every message of every length, every rho of every length (including none), every hash function behind H0..H3", "why_tests_cant": "Tests sign a few random messages under a few random keys; a carry, an index or a constraint that fails for one key or challenge in 2^60 is invisible to them.", "anchors": ["faest.c:faest_sign", "faest.c:faest_verify", "faest_param.c.in:faest_sign_with_randomness", "faest_param.c.in:faest_verify", "faest_aes.c:aes_prove", "faest_aes.c:aes_verify", "vole.c:vole_commit", "vole.c:vole_reconstruct"]}
{"id": "C02", "title": "Generated key pairs are valid", "statement": "If keygen(pk, sk) returns 0 then validate_keypair(pk, sk) returns 0, the input halves of pk and sk agree, and the pair signs and verifies.", "quantifier": "for every parameter set and every sequence of bytes delivered by the random source on which the rejection loop stops", "why_tests_cant": "Rejection (an S-box input of zero) happens for a small fraction of random keys, and tests cannot enumerate random sources.", "anchors": ["faest_param.c.in:faest_keygen", "faest_param.c.in:faest_validate_keypair", "owf.c:owf_128", "owf.c:owf_em_128"]}
{"id": "C03", "title": "validate_keypair reports exactly what it should", "statement": "validate_keypair returns -1 exactly when a pointer is NULL, 1 exactly when the one-way function rejects the secret key, 2 exactly when the public key is not the one determined by the secret key, and 0 exactly when the public key equals OWF input || OWF output of the secret key.", "quantifier": "for every parameter set and every pair of byte strings of the right sizes", "why_tests_cant": "There are 2^512 key pairs; tests try a handful of matching and mismatching ones.", "anchors": ["faest_param.c.in:faest_validate_keypair", "compat.c:faest_timingsafe_bcmp", "owf.c"]}
{"id": "C04", "title": "Signing error codes and outputs", "statement": "sign_with_randomness returns -1 exactly when sk, signature or signature_len is NULL, the buffer length is below SIGNATURE_SIZE, rho is NULL with a non-zero length, or the one-way function rejects the key; in all these cases neither the signature buffer nor *signature_len changes. Otherwise it returns 0, sets *signature_len to SIGNATURE_SIZE and changes no byte of the buffer beyond SIGNATURE_SIZE.", "quantifier": "for every parameter set, every combination of pointers, buffers and lengths", "why_tests_cant": "The product of NULL-ness, lengths and keys is infinite; unit tests cover the happy path.", "anchors": ["faest_param.c.in:faest_sign_with_randomness", "faest.c:faest_sign"]}
{"id": "C05", "title": "The signature does not depend on the buffer it is written to", "statement": "The SIGNATURE_SIZE bytes produced by a successful sign_with_randomness are a function of (sk, msg, rho) alone: every byte of the signature is written, whatever the output buffer contained before; rho = NULL with length 0 and a non-NULL rho with length 0 give the same signature.", "quantifier": "for every parameter set, every key, message, rho and every initial buffer content", "why_tests_cant": "A byte that is never written shows up only when the caller's buffer happens to hold different garbage.", "anchors": ["faest.c:faest_sign", "faest.c:signature_* helpers (22-106)", "faest_param.c.in:faest_sign_with_randomness"]}
{"id": "C06", "title": "Signature layout is a partition", "statement": "The fields c[0..tau-2], u_tilde, d, a_tilde, (pdec,com)[0..tau-1], chall_3, iv of a signature occupy consecutive, pairwise disjoint byte ranges whose union is exactly [0, SIGNATURE_SIZE); the offsets used by signing and by verification are the same.", "quantifier": "for each of the 12 parameter sets and every field index", "why_tests_cant": "An overlap of a single byte between two fields gives signatures that still look random and mostly fail or pass together with other bugs.", "anchors": ["faest.c:22-106", "faest.c:110-196", "meson.build:107-398"]}
{"id": "C07", "title": "Verification rejects malformed calls and never misbehaves on arbitrary bytes", "statement": "verify returns -1 when pk or signature is NULL or signature_len != SIGNATURE_SIZE; for every byte string of length SIGNATURE_SIZE it returns 0 or -1, and every read of the signature, of the trees and of the VOLE matrices stays inside its buffer.", "quantifier": "for every parameter set, public key, message and every (adversarial) signature byte string", "why_tests_cant": "The space of adversarial signatures is 2^40000 or more; fuzzing samples it.", "anchors": ["faest_param.c.in:faest_verify", "faest.c:faest_verify", "vc.c:vector_reconstruction", "vole.c:vole_reconstruct", "faest_aes.c:aes_verify"]}
{"id": "C08", "title": "crypto_sign / crypto_sign_open round trip", "statement": "If crypto_sign(m, sk) returns 0 then its output has length mlen + SIGNATURE_SIZE, begins with m, and crypto_sign_open on it with the matching pk returns 0 and yields exactly m and mlen.", "quantifier": "for every parameter set, valid key pair, message and internal randomness", "why_tests_cant": "Same as completeness, plus buffer bookkeeping for every message length.", "anchors": ["crypto_sign.c.in:crypto_sign", "crypto_sign.c.in:crypto_sign_open"]}
{"id": "C09", "title": "crypto_sign_open fails closed", "statement": "If smlen < SIGNATURE_SIZE, or the trailing SIGNATURE_SIZE bytes are not a signature that verify accepts for the leading bytes, crypto_sign_open returns -1 and changes neither the message buffer nor *mlen; when it returns 0, the message it releases is the prefix that verified.", "quantifier": "for every parameter set, public key and every byte string sm of every length", "why_tests_cant": "Negative behaviour over all byte strings and lengths cannot be sampled.", "anchors": ["crypto_sign.c.in:crypto_sign_open"]}
{"id": "C10", "title": "Field multiplications are the documented fields", "statement": "bf8/bf64/bf128/bf192/bf256 multiplication returns the product of the two polynomials over GF(2) reduced modulo X^8+X^4+X^3+X+1, X^64+X^4+X^3+X+1, X^128+X^7+X^2+X+1, X^192+X^7+X^2+X+1, X^256+X^10+X^5+X^2+1 respectively; the mul_64 variants multiply by the embedded 64-bit element.", "quantifier": "for all pairs of field elements", "why_tests_cant": "The tests compare random products with NTL; an error confined to a few operand pairs is not found.", "anchors": ["fields.c:bf8_mul", "fields.c:bf64_mul", "fields.c:bf128_mul", "fields.c:bf192_mul", "fields.c:bf256_mul", "fields.c:bf128_mul_64", "fields.c:bf192_mul_64", "fields.c:bf256_mul_64"]}
{"id": "C11", "title": "The rings are fields; bf8_inv inverts", "statement": "Every non-zero element of the 8-, 64-, 128-, 192- and 256-bit domains has a multiplicative inverse, and bf8_inv(x)*x = 1 for x != 0, bf8_inv(0) = 0.", "quantifier": "for all elements", "why_tests_cant": "Irreducibility of the moduli is a statement about all 2^n elements.", "anchors": ["fields.c:bf8_inv", "fields.c moduli (13-21)"]}
{"id": "C12", "title": "byte_combine embeds GF(2^8) in the large fields", "statement": "The map from a byte to a 128/192/256-bit field element by byte_combine_bits is a ring homomorphism from GF(2^8) (sums, products, 1) and injective; byte_combine on eight field elements extends it linearly.", "quantifier": "for all bytes / all 8-tuples of field elements and each of the three fields", "why_tests_cant": "One wrong digit in a table of 21 large constants changes the image of only some products; the tests check a few.", "anchors": ["fields.c:bf128_byte_combine", "fields.c:bf128_byte_combine_bits", "fields.c:bf128_alpha", "fields.c:bf192_alpha", "fields.c:bf256_alpha"]}
{"id": "C13", "title": "Universal hashes are linear", "statement": "The VOLE hash of (a xor b) is the xor of the VOLE hashes of a and b for the same seed, and the ZK hash is linear over the field in its inputs and its final mask.", "quantifier": "for every seed, every length-compatible pair of inputs, each security level", "why_tests_cant": "Linearity is an identity over all inputs; tests use stored vectors.", "anchors": ["universal_hashing.c:vole_hash", "universal_hashing.c:zk_hash_128", "universal_hashing.c:zk_hash_128_update", "universal_hashing.c:zk_hash_128_finalize"]}
{"id": "C14", "title": "Opening and reconstructing a vector commitment agree", "statement": "From the opening at index j (sibling path and com_j), reconstruction yields the same seed and the same commitment as the committer for every leaf except seed j, and the same digest h.", "quantifier": "for every root seed, iv, tree depth 1..MAX_DEPTH used by any parameter set, and every index j < 2^depth", "why_tests_cant": "There are thousands of indices per depth and arbitrary seeds; the x4-batched loops split around j at 4 different alignments.", "anchors": ["vc.c:vector_commitment", "vc.c:vector_open", "vc.c:vector_reconstruction"]}
{"id": "C15", "title": "Challenge decoding is a lossless partition", "statement": "The tau decoded chunks of a lambda-bit challenge are consecutive, non-overlapping bit ranges covering all lambda bits in order, and the leaf index computed from a chunk is below 2^depth and determines the chunk (BitDec inverts NumRec).", "quantifier": "for every parameter set and every challenge", "why_tests_cant": "Off-by-one in a bit range for one of tau positions changes behaviour only for some challenges.", "anchors": ["vole.c:ChalDec", "vc.c:NumRec", "vc.c:BitDec"]}
{"id": "C16", "title": "VOLE correlation", "statement": "Commit and reconstruct produce correlated matrices: after the correction by c, column j on the verifier's side equals column j on the prover's side xor (bit j of the challenge times u); and the commitment digests agree.", "quantifier": "for every parameter set, root key, iv and challenge", "why_tests_cant": "Requires all 2^depth seeds, all columns and all challenges to line up.", "anchors": ["vole.c:ConvertToVole", "vole.c:vole_commit", "vole.c:vole_reconstruct", "faest.c:faest_verify (388-428)"]}
{"id": "C17", "title": "AES and Rijndael follow the standard", "statement": "expand_key and the block encryption functions compute the Rijndael key schedule and cipher (FIPS-197 for 128-bit blocks; offsets 1,3,4 for 256-bit blocks) for key sizes 128/192/256 and block sizes 128/192/256.", "quantifier": "for every key and every block", "why_tests_cant": "Known-answer tests check a few blocks; equality with an independent definition has to hold for all.", "anchors": ["aes.c:expand_key", "aes.c:aes_encrypt", "aes.c:compute_sbox", "aes.c:shift_row", "aes.c:mix_column"]}
{"id": "C18", "title": "Block encryption is a permutation", "statement": "For every expanded key the block encryption function is injective on blocks (hence two public keys with the same output half and the same AES key have the same input half; counter-mode blocks of one stream are pairwise different).", "quantifier": "for every round-key array and all pairs of blocks", "why_tests_cant": "Injectivity is a statement about all pairs of 128- to 256-bit blocks.", "anchors": ["aes.c:aes_encrypt", "aes.c:sub_bytes", "aes.c:shift_row", "aes.c:mix_column"]}
{"id": "C19", "title": "Counter increments and the PRG stream", "statement": "The PRG output of length n is the prefix of one infinite stream determined by key and iv, block i of which is AES(key, iv + i mod 2^128, big endian); the increment never stalls.", "quantifier": "for every key, iv, security level and every output length", "why_tests_cant": "Carries across 16 bytes occur once in 2^8k increments; tests use short streams and few ivs.", "anchors": ["aes.c:aes_increment_iv", "aes.c:prg"]}
{"id": "C20", "title": "OWF acceptance means no zero S-box input", "statement": "The one-way function reports success exactly when no S-box input used by the proof (key-schedule S-boxes and all encryption S-boxes for the AES variants; all encryption S-boxes for the EM variants) is zero.", "quantifier": "for every parameter set, key and input", "why_tests_cant": "Zero S-box inputs are rare events at 200 to 500 positions.", "anchors": ["owf.c", "aes.c:contains_zero", "aes.c:sub_bytes", "aes.c:expand_key"]}
{"id": "C21", "title": "The extended witness satisfies the proof system", "statement": "For every key accepted by the OWF, the extended witness has exactly l bits and every quadratic constraint checked by the prover/verifier holds for it: the product of the two sides of each S-box constraint is 1.", "quantifier": "for every parameter set and accepted key and its OWF input", "why_tests_cant": "Hundreds of constraints with hand-computed indices in six copies of the code; a wrong index affects only some keys or is masked by symmetric mistakes.", "anchors": ["aes.c:aes_extend_witness", "faest_aes.c:aes_key_schedule_constraints_Mkey_0_*", "faest_aes.c:aes_enc_constraints_Mkey_0_*", "faest_aes.c:em_enc_constraints_Mkey_0_*"]}
{"id": "C22", "title": "Prover and verifier agree on the check value", "statement": "If the verifier's matrix is correlated with the prover's matrix and witness (q = v + w*Delta), then the verifier's recomputed b_tilde equals the prover's b_tilde.", "quantifier": "for every parameter set, every Delta, every mask, every hash key, every key accepted by the OWF", "why_tests_cant": "An identity of degree 2 over a 128- to 256-bit field in thousands of variables.", "anchors": ["faest_aes.c:aes_prove", "faest_aes.c:aes_verify", "universal_hashing.c:zk_hash_*"]}
{"id": "C23", "title": "A proof of a false statement survives at most two challenges", "statement": "For fixed commitments, if the committed witness violates the hashed constraint combination, then at most two values of Delta make the verifier's check succeed.", "quantifier": "for every parameter set's field, every committed witness and prover message and every hash key", "why_tests_cant": "A soundness statement quantifies over all provers and all challenges.", "anchors": ["faest_aes.c:aes_verify", "fields.c"]}
{"id": "C24", "title": "Accepted signatures bind message and public key", "statement": "If the same signature verifies for (pk, msg) and for (pk', msg') that differ, then two explicit different inputs collide under one of the hash functions H1/H2 at the output length the scheme uses.", "quantifier": "for every parameter set and all pairs of (public key, message) and every signature", "why_tests_cant": "Universally quantified over adversarial signatures and messages.", "anchors": ["faest.c:hash_mu", "faest.c:hash_challenge_1", "faest.c:hash_challenge_2", "faest.c:hash_challenge_3", "faest.c:faest_verify"]}
{"id": "C25", "title": "No slack bytes in a signature", "statement": "If two different signatures with the same final challenge verify for the same public key and message, then two explicit different inputs collide under H0, H1, H2 or the PRG. In particular no byte of a signature is ignored by verification.", "quantifier": "for every parameter set, public key, message and all pairs of signatures", "why_tests_cant": "Malleability is about all modifications of all valid signatures.", "anchors": ["faest.c:faest_verify", "vole.c:vole_reconstruct", "vc.c:vector_reconstruction"]}
{"id": "C26", "title": "Hash inputs are unambiguous", "statement": "The byte strings hashed for H0, H1, H2, H3 carry different final bytes, so no input of one is an input of another; for a fixed parameter set each of the inputs of hash_mu and hash_challenge_1/2/3 determines all of its components.", "quantifier": "for every parameter set and all components of the prescribed lengths, messages of any length", "why_tests_cant": "Injectivity over all pairs of inputs.", "anchors": ["random_oracle.c", "faest.c:198-249"]}
{"id": "C27", "title": "Constant-time comparison is comparison", "statement": "faest_timingsafe_bcmp returns 0 exactly when the two buffers are equal, for every length, and its sequence of memory accesses depends on the length only.", "quantifier": "for all pairs of buffers of every length", "why_tests_cant": "Accumulating differences into a narrow type can lose some of them; tests try few pairs.", "anchors": ["compat.c:faest_timingsafe_bcmp"]}
{"id": "C28", "title": "Four-way hashing equals one-way hashing", "statement": "The batched (x4) leaf hashing in commitment and reconstruction gives the same seeds and commitments as hashing each leaf on its own, for every number of leaves and every skipped leaf.", "quantifier": "for every tree size and index", "why_tests_cant": "The batch boundaries interact with the skipped leaf at every alignment.", "anchors": ["vc.c:vector_commitment (123-151)", "vc.c:vector_reconstruction (215-271)", "random_oracle.c"]}
{"id": "C29", "title": "Clearing a private key", "statement": "clear_private_key overwrites exactly the PRIVATE_KEY_SIZE bytes of the key with zeros and touches nothing else.", "quantifier": "for every parameter set and memory content", "why_tests_cant": "All contents and neighbours.", "anchors": ["faest_param.c.in:faest_clear_private_key", "compat.c:faest_explicit_bzero"]}
{"id": "C30", "title": "Integer arithmetic never overflows", "statement": "All sizes, offsets, node counts and indices computed during signing and verification fit the C types used for them (uint16_t, int, unsigned int, size_t), including 1 << (depth + 1) node counts and signature offsets.", "quantifier": "for each parameter set and every reachable index", "why_tests_cant": "Overflows would show only at the extreme parameter values and indices.", "anchors": ["instances.h", "vc.c:getBinaryTreeNodeCount", "vc.c:getNodeIndex", "faest.c:22-196"]}
{"id": "C31", "title": "Random-source failures are reported", "statement": "If the random source fails, keygen and sign return a non-zero value instead of producing keys or signatures from unset memory.", "quantifier": "for every failure pattern of the random source", "why_tests_cant": "Tests run with a working random source.", "anchors": ["faest_param.c.in:faest_keygen", "faest_param.c.in:faest_sign", "randomness.c:rand_bytes"]}
{"id": "C32", "title": "Masks hide perfectly", "statement": "For fixed remaining data, the published u_tilde is a bijective function of the last lambda+16 bits of u, a_tilde is a bijective function of the lambda mask bits of u following the witness bits, and d is a bijective function of the first l bits of u; so with uniformly random u these values are uniform and independent of the witness.", "quantifier": "for every parameter set, seed, challenge and witness", "why_tests_cant": "Secrecy is a property of the whole distribution, not of samples.", "anchors": ["universal_hashing.c:vole_hash", "faest_aes.c:aes_prove", "faest.c:faest_sign"]}
{"id": "C33", "title": "An opening reveals nothing on the hidden path", "statement": "The opening at index j (sibling path and com_j) is the same for every two trees that agree on all nodes off the path from the root to leaf j and on com_j: the hidden seed and its ancestors are never copied into the signature.", "quantifier": "for every depth, index and node contents", "why_tests_cant": "Leakage of one path node for one index would not affect functional tests.", "anchors": ["vc.c:vector_open"]}
{"id": "C34", "title": "load/store are inverse little-endian encodings", "statement": "bfN_load of the N/8 bytes written by bfN_store returns the stored element, bfN_store of a loaded element returns the bytes, and bit i of the element is bit i%8 of byte i/8.", "quantifier": "for every element / byte string, N in {64,128,192,256}", "why_tests_cant": "2^256 values.", "anchors": ["fields.h:bf64_load", "fields.h:bf128_load", "fields.h:bf192_load", "fields.h:bf256_load", "fields.h:*_store"]}
{"id": "C35", "title": "Parameter table is consistent", "statement": "For each parameter set: k0*t0 + k1*t1 = lambda, t0 + t1 = tau, l = Lke + beta*Lenc, the sizes equal those implied by the layout, and every buffer bound (MAX_LAMBDA_BYTES, MAX_DEPTH, MAX_TAU) suffices; an unknown id yields the invalid parameter set.", "quantifier": "for each of the 12 ids and every other id value", "why_tests_cant": "Finite but spread over build files and headers; the tests do not check the table against the algorithms that use it.", "anchors": ["meson.build:107-398", "instances.c:faest_get_paramset", "instances.h"]}
{"id": "C36", "title": "Word-level field code implements wide bit vectors", "statement": "The multi-word (2/3/4 x 64-bit) add, shift, multiply, multiply-by-64-bit, multiply-by-bit and polynomial-sum routines behave as the corresponding operations on 128/192/256-bit vectors, in both the struct and the vector-extension builds (the fourth word of the vector-extension bf192 stays zero).", "quantifier": "for all operands", "why_tests_cant": "Carries between words occur for specific bit patterns.", "anchors": ["fields.c:bf128_shift_left_1", "fields.c:bf192_shift_left_1", "fields.c:bf256_shift_left_1", "fields.c:bf*_bit_to_uint64_mask", "fields.c:bf*_sum_poly"]}
{"id": "C37", "title": "Only witnesses of accepted keys satisfy the constraints", "statement": "A string of l bits satisfies all S-box constraints for the public key (x, y) exactly if it is the extended witness of the key in its first lambda bits, that key is accepted by the OWF on x (no S-box input zero), and the OWF maps it to y.", "quantifier": "for every parameter set, every public key and every l-bit string", "why_tests_cant": "The tests only prove true statements; a missing or misindexed constraint which admits extra witnesses is invisible to them.", "anchors": ["faest_aes.c:aes_key_schedule_constraints", "faest_aes.c:aes_enc_constraints", "faest_aes.c:em_enc_constraints", "aes.c:aes_extend_witness"]}
{"id": "C38", "title": "Signing and verification compute the specified scheme", "statement": "sign_with_randomness writes exactly the signature that the independent description of the scheme (Spec/Scheme.lean) assigns to key, message and randomness; verify returns 0 exactly on the strings that description calls valid; key generation writes the public key of the description.", "quantifier": "for every parameter set, key, message, randomness, signature string and buffer contents", "why_tests_cant": "The known-answer tests compare a few fixed vectors; agreement on every input is a statement about the program.", "anchors": ["faest.c:faest_sign", "faest.c:faest_verify", "faest_param.c.in", "owf.c"]}
{"id": "C39", "title": "The universal hashes collide for few keys", "statement": "VOLEHash and ZKHash compute the polynomial hashes of the specification, and two different inputs have equal hashes for at most a 2^-(lambda+15) respectively 2^-(lambda-1) part of the hash keys.", "quantifier": "for every parameter set and every pair of different inputs", "why_tests_cant": "The bound counts over all keys; a wrong constant or truncated multiplication weakens it without changing any functional test.", "anchors": ["universal_hashing.c:vole_hash", "universal_hashing.c:zk_hash_128_finalize"]}
{"id": "C40", "title": "Knowledge soundness of the verifier's checks", "statement": "For a prover whose commitments are fixed before the challenges, the two checks of the verifier (hashed columns, constraint values) pass for at most a 2^-(lambda-2) part of the challenges unless the corrected witness of some tree begins with a key for the public key; and an accepted signature passes these checks with challenges that are the hashes of the preceding messages.", "quantifier": "for every parameter set, public key, commitment and prover strategy", "why_tests_cant": "It quantifies over all malicious provers.", "anchors": ["faest.c:faest_verify", "faest_aes.c:aes_verify", "universal_hashing.c"]}
{"id": "C41", "title": "Vector commitments are binding", "statement": "Two openings that recompute the same digest agree on all commitments and on every leaf hidden in neither, unless they exhibit a collision of H1 or of the commitment part of H0; likewise for an opening against a commitment.", "quantifier": "for every lambda, depth, iv, index and opening strings", "why_tests_cant": "It quantifies over all adversarial openings.", "anchors": ["vc.c:vector_commitment", "vc.c:vector_reconstruction"]}
{"id": "C42", "title": "crypto_sign and crypto_sign_open work in place", "statement": "With message and signed message in the same object at any distance, crypto_sign and crypto_sign_open give the same bytes as for separate objects, and change nothing outside the destination; on rejection crypto_sign_open changes nothing.", "quantifier": "for every object, pair of offsets, message, key and randomness", "why_tests_cant": "Unboundedly many overlaps; a memcpy would often still pass.", "anchors": ["crypto_sign.c.in:crypto_sign", "crypto_sign.c.in:crypto_sign_open"]}
{"id": "C43", "title": "The hash interface is SHAKE of FIPS 202 for every division of input and output", "statement": "hash_init, any number of hash_update calls, hash_final and any number of hash_squeeze calls give the bytes of SHAKE128 (or SHAKE256) of the concatenation of the inputs, whatever the sizes of the single calls.", "quantifier": "for every size_t of at least 32 bits, both functions, every list of chunks and every list of output lengths below 2^32-200 (and 2^(w-3)), including empty ones", "why_tests_cant": "Known-answer tests fix a few input lengths; the code has separate paths for full blocks, partial blocks and block ends, and the number of ways of splitting the data is unbounded.", "anchors": ["sha3/KeccakSponge.inc:SpongeAbsorb", "sha3/KeccakSponge.inc:SpongeSqueeze", "sha3/KeccakHash.c:Keccak_HashUpdate", "hash_shake.h:hash_update"]}
{"id": "C44", "title": "The unrolled 64-bit permutation is KECCAK-p[1600,24]", "statement": "KeccakP1600_Permute_24rounds of opt64 maps every state to the result of the 24 rounds iota(chi(pi(rho(theta)))) of FIPS 202.", "quantifier": "for all 2^1600 states", "why_tests_cant": "The code is a hand-unrolled lane-complemented schedule; a wrong rotation or constant could only show on inputs that tests do not reach if it were conditional, and tests cover a vanishing part of the states.", "anchors": ["sha3/opt64/KeccakP-1600-64.macros:rounds24", "sha3/opt64/KeccakP-1600-opt64.c:KeccakP1600_Permute_24rounds"]}
{"id": "C45", "title": "The four-fold hash equals four single hashes", "statement": "hash_init_x4, hash_update_x4, hash_final_x4 and hash_squeeze_x4 write to buffer k exactly what the single interface computes on input k.", "quantifier": "for all four inputs of equal lengths, all divisions into calls, all output lengths (single calls up to 2^32-200 bytes)", "why_tests_cant": "A mix-up of instances for one partial-block position shows only for particular lengths.", "anchors": ["sha3/KeccakSpongetimes4.inc:SpongeAbsorb", "sha3/KeccakHashtimes4.c:Keccak_HashUpdatetimes4", "hash_shake.h:hash_update_x4_4"]}
{"id": "C46", "title": "hash_mu works for every message length", "statement": "For every message that fits into memory, hash_mu (hence signing and verifying) computes SHAKE of public key and message. (False of this code: see the exact set of lengths and the witnesses.)", "quantifier": "for every msglen representable in size_t, on 32-bit and 64-bit hosts", "why_tests_cant": "Tests do not hash messages of 4 GiB; the 32-bit sum in SpongeAbsorb wraps around only there.", "anchors": ["sha3/KeccakSponge.inc:SpongeAbsorb", "hash_shake.h:hash_update", "faest.c:hash_mu"]}
{"id": "C47", "title": "Random oracles and transcript hashes hash the right bytes", "statement": "H0..H3 return consecutive parts of SHAKE of the concatenated updates followed by the domain byte 0..3; hash_mu and hash_challenge_1..3 hash the listed fields in the listed order and write exactly the digest length; these are the values used by the models of signing and verification.", "quantifier": "for all inputs (message up to 2^32-200 bytes, other single pieces below 2^29), all divisions into updates, all lambda (SHAKE128 exactly for 128)", "why_tests_cant": "Signing and verifying share the code, so a dropped or truncated field passes every sign-verify test.", "anchors": ["random_oracle.c:H0_final", "random_oracle.c:H1_final", "random_oracle.c:H2_final", "random_oracle.c:H3_final", "faest.c:hash_mu", "faest.c:hash_challenge_1"]}
{"id": "C48", "title": "Portable aligned allocation", "statement": "The malloc-based replacement of aligned_alloc returns a pointer with the requested alignment whose requested bytes and one bookkeeping byte before them lie in the block; the matching free passes exactly the block's address to free; bad arguments are refused without an allocation; the arguments passed to posix_memalign meet its requirements; every call in the code asks for a positive multiple of a small power-of-two alignment.", "quantifier": "for every address returned by malloc, word size, power-of-two alignment up to 128 and multiple of it as size", "why_tests_cant": "The system's malloc returns well-aligned blocks, so most residues of the address are never exercised; most platforms do not compile this branch.", "anchors": ["compat.c:faest_aligned_alloc", "compat.c:faest_aligned_free", "faest_aes.c:83"]}
{"id": "C49", "title": "OpenSSL and portable PRG agree", "statement": "If OpenSSL's AES-CTR ciphers are counter mode as standardised, prg compiled with HAVE_OPENSSL fills the output with the same bytes as the portable prg.", "quantifier": "for every security level, key, iv and output length", "why_tests_cant": "A build has only one of the variants; carries of the counter and partial blocks are rarely reached.", "anchors": ["aes.c:prg"]}
{"id": "C50", "title": "Signing and verification are right on byte-addressed buffers", "statement": "With all tree nodes, seeds, leaf commitments, VOLE columns, the arrays r, ui, expanded_keys, Dtilde, Q and the arrays on the stack as byte buffers of the sizes in the code, accessed at the byte offsets computed in the code, sign_with_randomness and verify make no access outside a buffer, read no byte that was not written before, fail no assertion, and compute the signature respectively the decision of the specified scheme.", "quantifier": "for every parameter set, accepted key, message, randomness, signature buffer, and every string of the length of a signature", "why_tests_cant": "An offset that is wrong only for some challenge (e.g. of the tree node or seed selected by a challenge) or overlaps a neighbour with equal content shows only for particular inputs; an uninitialised byte often happens to be zero.", "anchors": ["vc.c:vector_commitment", "vc.c:vector_reconstruction", "vole.c:ConvertToVole", "vole.c:vole_commit", "vole.c:vole_reconstruct", "faest_aes.c:column_to_row_major_and_shrink_V_128", "faest.c:faest_sign", "faest.c:faest_verify"]}
{"id": "C51", "title": "No leak, double free, use after free or mismatched free; the result is right", "statement": "With every malloc, calloc, faest_aligned_alloc, free and faest_aligned_free of vc.c, vole.c, faest_aes.c, aes.c and faest.c explicit and buffers reached through the arrays of pointers of the code (V, qprime, q, Dtilde, vecCom), sign_with_randomness and verify touch no freed block, write nothing outside the size a block was allocated with, free no block twice, free no pointer that is not the start of a block, free aligned blocks only with faest_aligned_free and others only with free, and compute the signature respectively the decision of the specified scheme. When they return, every block they allocated has been freed and every block live before is live with the same contents. Calls refused for their arguments neither allocate nor free.", "quantifier": "for every heap before the call, parameter set, accepted key, message, randomness, signature buffer, and every string of the length of a signature, valid or not", "why_tests_cant": "A block freed on one path and not on another, or read after it was freed, need not change any output; a sanitizer sees only the executions it is given and the parameter sets and challenges that occur in them.", "anchors": ["vc.c:vec_com_clear", "vc.c:vec_com_rec_clear", "vole.c:vole_commit", "vole.c:vole_reconstruct", "faest_aes.c:aes_prove_128", "faest_aes.c:aes_verify_128", "faest_aes.c:em_enc_constraints_Mkey_1_128", "faest.c:faest_sign", "faest.c:faest_verify", "compat.c:faest_aligned_free"]}
{"id": "C52", "title": "The mechanically translated text of aes.c, utils.h and universal_hashing.c is right", "statement": "The functions produced from the C text by tools/c2lean.py (fixed-width integers that wrap, typed memory blocks, pointers, loops and stack arrays as written) run without undefined behaviour and leave no block behind: prg writes the counter-mode stream of the specified cipher and nothing else, also when key, iv and output overlap; each of the five key expansions with its block cipher computes the cipher of the standard; vole_hash writes the specified hash; aes_extend_witness returns a new block holding the specified extended witness and changes no other block.", "quantifier": "for every memory before the call, every position of the arguments in it (for vole_hash the output in another block than seed and input, as in all calls), every key, iv, plaintext, seed, every output length of the generator, every length below 2^20 bits of whole bytes for the hash, every parameter set", "why_tests_cant": "A wrap-around, a read of an unwritten cell or a write next to the output depends on lengths and on the surrounding memory, of which tests see a few.", "anchors": ["aes.c:prg", "aes.c:expand_key", "aes.c:aes_encrypt", "aes.c:aes_extend_witness", "universal_hashing.c:vole_hash_128", "universal_hashing.c:vole_hash_192", "universal_hashing.c:vole_hash_256", "utils.h:xor_u8_array"]}
{"id": "C53", "title": "The mechanically translated signing and verification functions of all parameter sets are right", "statement": "The translated text of faest_param.c.in for each of the twelve parameter sets, calling the translated faest.c, vole.c, vc.c, faest_aes.c, universal_hashing.c, aes.c, owf.c and utils.h: sign_with_randomness and sign return 0 and write exactly the specified signature and its length for an accepted key, return -1 and change nothing for a refused one; verify returns 0 exactly for the valid signatures and -1 otherwise and changes nothing. No undefined behaviour, and no block is left behind. Missing pointers and wrong lengths are refused with -1 without touching anything.", "quantifier": "for every memory before the call, every position of the arguments in it (message and randomness also inside the signature block, the secret key in a block of its own), every parameter set, key, message, randomness and candidate signature", "why_tests_cant": "The twelve instances are separate texts; a wrong constant, a wrap-around, a leak on one path or a read next to a buffer shows only for some set, input and memory layout.", "anchors": ["faest_param.c.in:faest_@param@_sign_with_randomness", "faest_param.c.in:faest_@param@_sign", "faest_param.c.in:faest_@param@_verify", "faest.c:faest_sign", "faest.c:faest_verify"]}
{"id": "C54", "title": "The mechanically translated key functions of all parameter sets are right", "statement": "The translated keygen consumes the outputs of rand_bytes up to the first key which the one-way function does not refuse, stores this key and its public key, and returns 0; validate_keypair returns 0 for a key pair, 1 for a refused secret key, 2 for a public key that does not belong to it; clear_private_key stores zeros over the whole key; each changes nothing else and leaves no block behind. keygen and validate_keypair refuse null pointers. faest_timingsafe_bcmp returns 0 exactly for equal strings.", "quantifier": "for every memory before the call, every parameter set, every sequence of outputs of rand_bytes with fewer than 2^63 refused keys before the first accepted one, every key pair; keygen with public and secret key in different blocks", "why_tests_cant": "Which random strings are refused, and how many in a row, cannot be arranged with the real generator; changes to neighbouring memory need not be visible.", "anchors": ["faest_param.c.in:faest_@param@_keygen", "faest_param.c.in:faest_@param@_validate_keypair", "faest_param.c.in:faest_@param@_clear_private_key", "compat.c:faest_timingsafe_bcmp", "owf.c:owf_128"]}
{"id": "C55", "title": "The mechanically translated crypto_sign interface is right, and key generation, signing and verification fit together", "statement": "The translated crypto_sign stores the message followed by its specified signature and the total length, also when the message lies inside the output (for a refused key it returns -1, and only message and total length are stored); crypto_sign_open returns 0 and stores message and length exactly if the last bytes are a valid signature of the others, and returns -1 and changes nothing otherwise, also for strings shorter than a signature. keygen, sign and verify run after each other from any memory with room for keys and signature all return 0.", "quantifier": "for every memory before the calls, every parameter set, every key, message, signed message and every output of rand_bytes", "why_tests_cant": "Overlap of message and signed message, lengths near the limits and the memory around the buffers are not varied by tests.", "anchors": ["crypto_sign.c.in:crypto_sign", "crypto_sign.c.in:crypto_sign_open", "faest_param.c.in:faest_@param@_keygen"]}
{"id": "C56", "title": "The mechanically translated field arithmetic computes in the documented fields", "statement": "The functions of fields.h and fields.c as translated from the text (zero, one, conversions, add, mul, mul_64, mul_bit, sum_poly, byte_combine, byte_combine_bits, load, store for 128, 192 and 256 bits; the 8- and 64-bit fields with square and inverse) never have undefined behaviour on represented inputs and return the words of the polynomial result modulo the field polynomial; both combine routines use powers of one root of the AES polynomial; loads and stores use little-endian bytes and touch only their range. rotr8, rotl8 and parity8 are the rotations and the parity.", "quantifier": "for all operands, buffers and offsets; for the builds without vector extensions, with them, with and without __builtin_shufflevector, on little- and big-endian hosts", "why_tests_cant": "The operand space is 2^512 and the vector and endian variants are only compiled on some hosts.", "anchors": ["fields.c:bf128_mul", "fields.c:bf192_mul", "fields.c:bf256_mul", "fields.c:bf8_inv", "fields.c:bf64_mul", "fields.c:bf128_byte_combine_bits", "fields.h:bf192_load", "fields.h:bf256_store", "compat.h:parity8"]}
{"id": "C57", "title": "The mechanically translated hash layer computes SHAKE and the four oracles", "statement": "The translated text of the Keccak permutation (64-bit words and 32-bit words with interleaved bits, both on little-endian and big-endian hosts, four states in AVX2 vectors, the assembler code for AVX2 and for ARM), of the sponge and hash functions for one and for four states, of hash_shake.h and of random_oracle.c: from a context in any condition, initialisation, any sequence of inputs, finalisation and any sequence of outputs have no undefined behaviour and store consecutive pieces of the SHAKE128/SHAKE256 stream (FIPS 202) of the concatenated inputs, changing nothing but the state and these pieces. With four states each stream is that of its own inputs, if the four destinations of a call do not overlap. Each function of random_oracle.c does in memory what the hash operation assumed for the other translated files does on strings.", "quantifier": "for every one of the six builds, every memory, every sequence of pieces of input and output of at most 2^32-200 bytes each, both rates, and every block in which the state lies", "why_tests_cant": "Splits of input and output at block boundaries, uninitialised contexts, overlapping inputs and memory around the buffers cannot be enumerated.", "anchors": ["sha3/opt64/KeccakP-1600-opt64.c:KeccakP1600_Permute_24rounds", "sha3/plain32/KeccakP-1600-inplace32BI.c:KeccakP1600_Permute_24rounds", "sha3/KeccakSponge.inc:SpongeAbsorb", "sha3/KeccakSpongetimes4.inc:SpongeSqueeze", "sha3/KeccakHashtimes4.c:Keccak_HashUpdatetimes4", "hash_shake.h:hash_squeeze_x4_4", "random_oracle.c:H0_x4_final"]}
{"id": "C58", "title": "Branches, addresses and divisions of key generation and signing do not depend on secrets", "statement": "For faest_sign and, in all twelve parameter sets, for keygen, sign, sign_with_randomness and validate_keypair (with everything they call, down to the field arithmetic and the Keccak rounds), two calls with the same lengths, the same null pointers and the same public tables, but arbitrary different keys, messages, random bytes and other memory contents, read and write the same addresses in the same order, take the same branches, divide the same numbers, allocate the same sizes and return the same value, as long as the two calls publish the same iv, the same third challenge (both are parts of the signature) and the same outcome of the key checks.", "quantifier": "for six builds (Keccak with 64-bit and 32-bit words, on little- and big-endian hosts; the AVX2 code for four states, its assembler part replaced by the C code of the first build; field elements as vectors of the compiler), every pair of secret memory contents, every length of message and randomness, every meaning of the arithmetic operators, and runs of every length", "why_tests_cant": "A timing test or memcheck run covers one execution path with one secret; a secret-dependent branch or index may only show for rare values (for example a zero S-box input).", "anchors": ["faest.c:faest_sign", "faest_param.c.in:faest_@PARAM_L@_sign_with_randomness", "faest_param.c.in:faest_@PARAM_L@_keygen", "aes.c:aes_extend_witness", "vc.c:vector_open", "fields.c:bf128_mul", "compat.c:faest_timingsafe_bcmp", "universal_hashing.c:vole_hash_128", "sha3/avx2/KeccakP-1600-times4-SIMD256.c:KeccakP1600times4_PermuteAll_24rounds"]}
{"id": "C59", "title": "The complete translated program, hash layer included, signs and verifies as specified", "statement": "The translated API functions (sign, sign_with_randomness, verify, crypto_sign, crypto_sign_open) of all twelve parameter sets, calling the translated vc.c, vole.c, faest_aes.c, faest.c and these calling the translated random_oracle.c, hash_shake.h and Keccak code with sponge states on the stack: from any memory with the arguments they run to their end without undefined behaviour, sign stores the signature of the specification with SHAKE of FIPS 202 as the hash, verify returns 0 exactly for valid signatures, nothing else in memory changes and no block is left over. Key generation, signing and verification in sequence return 0.", "quantifier": "for every build of the Keccak code (64-bit and 32-bit words on little- and big-endian hosts, AVX2, ARM assembler), parameter set, memory, key, message and randomness of any length the sponge can take (all lengths up to 2^32-200 and beyond, the exact condition is stated), and every tape of random bytes", "why_tests_cant": "The whole call tree from the API to the Keccak rounds is covered for all inputs and all memory layouts at once; a test fixes one key, one message and one layout.", "anchors": ["faest_param.c.in:faest_@PARAM_L@_sign", "faest_param.c.in:faest_@PARAM_L@_verify", "crypto_sign.c.in:crypto_sign_open", "faest.c:faest_sign", "faest.c:faest_verify", "vc.c:vector_commitment", "random_oracle.c:H0_x4_final", "sha3/KeccakSponge.inc:SpongeAbsorb"]}
{"id": "C60", "title": "The complete translated program with the fields on machine words signs and verifies as specified", "statement": "The translated API functions (keygen, validate_keypair, sign, sign_with_randomness, verify, crypto_sign, crypto_sign_open) of all twelve parameter sets, where every call of a function of fields.h, fields.c and of rotr8, parity8 runs the translated text of that function on 64-bit words (and on the bytes of memory for loads and stores), and every hash call the translated hash layer, behave as specified: no undefined behaviour, keys and signatures of the specification, verify accepts exactly valid signatures, nothing else in memory changes. The six translations of the fields (no vector extensions; vector extensions with and without __builtin_shufflevector; both byte orders) are equal as implementations of the interface, also where an access is out of bounds, and no call returns words which are not those of an element.", "quantifier": "for every build and byte order of the fields, every build of the Keccak code (64-bit and 32-bit words on little- and big-endian hosts, AVX2, ARM assembler), every parameter set, memory, key, message and randomness of any length the sponge can take, and every tape of random bytes", "why_tests_cant": "Carry-less multiplication and word order bugs show only for rare operands and in builds which the tests do not run; here no build and no operand is left out, and the call sites are those of the real protocol code.", "anchors": ["fields.c:bf128_mul", "fields.c:bf192_mul", "fields.c:bf256_byte_combine", "fields.h:bf192_load", "fields.h:bf64_load", "universal_hashing.c:vole_hash_128", "faest_aes.c:aes_prove", "faest_param.c.in:faest_@PARAM_L@_sign", "faest_param.c.in:faest_@PARAM_L@_verify"]}
{"id": "C61", "title": "The translated AVX2 code for four Keccak states applies Keccak-p to each of them", "statement": "The translated text of sha3/avx2/KeccakP-1600-times4-SIMD256.c: PermuteAll_24rounds takes each of the four states in 800 bytes, whose lanes take turns, to KECCAK-p[1600,24] of FIPS 202; InitializeAll zeroes them; AddByte and AddBytes XOR a byte or a string into the bytes of exactly one state at exactly the given place; ExtractBytes stores exactly the bytes asked for of one state. All run without undefined behaviour, every aligned vector access is at a multiple of 32 bytes of the state, and nothing else in memory changes.", "quantifier": "for every memory, every contents of the states, every state index, offset and length that fit into a state, and every input outside of the states", "why_tests_cant": "A known-answer test runs a few inputs; a wrong rotation or shuffle constant in one of 24 unrolled vector rounds is covered, but offsets, lengths and positions of AddBytes and ExtractBytes at lane boundaries and all contents of memory are not.", "anchors": ["sha3/avx2/KeccakP-1600-times4-SIMD256.c:KeccakP1600times4_PermuteAll_24rounds", "sha3/avx2/KeccakP-1600-times4-SIMD256.c:KeccakP1600times4_AddBytes", "sha3/avx2/KeccakP-1600-times4-SIMD256.c:KeccakP1600times4_ExtractBytes", "sha3/avx2/KeccakP-1600-times4-SIMD256.c:KeccakP1600times4_InitializeAll"]}
{"id": "C62", "title": "The translated 32-bit Keccak code applies Keccak-p to a state with interleaved bits", "statement": "The translated text of sha3/plain32/KeccakP-1600-inplace32BI.c: on 200 bytes, which hold for each lane first the 32 bits at even and then the 32 bits at odd places, Permute_24rounds takes the state to KECCAK-p[1600,24] of FIPS 202; Initialize zeroes it; AddByte and AddBytes XOR a byte or a string into the bytes of the state at exactly the given place; ExtractBytes stores exactly the bytes asked for. All run without undefined behaviour and nothing else in memory changes.", "quantifier": "for every memory, every contents of the state, every offset and length that end with the state at most (not the whole state in one call, for which ExtractBytes is shown to read behind the state), and every input outside of the state", "why_tests_cant": "The conversion between bytes and interleaved bits is a chain of masks and shifts done for parts of lanes; offsets and lengths at lane boundaries with all contents cannot be enumerated, and this build is not the one which is tested on 64-bit hosts.", "anchors": ["sha3/plain32/KeccakP-1600-inplace32BI.c:KeccakP1600_Permute_24rounds", "sha3/plain32/KeccakP-1600-inplace32BI.c:KeccakP1600_AddBytesInLane", "sha3/plain32/KeccakP-1600-inplace32BI.c:KeccakP1600_AddLanes", "sha3/plain32/KeccakP-1600-inplace32BI.c:KeccakP1600_ExtractLanes", "sha3/plain32/KeccakP-1600-inplace32BI.c:KeccakP1600_ExtractBytesInLane"]}
{"id": "C63", "title": "Knowledge soundness of signatures in the random oracle model", "statement": "Let the two hash functions be a table of answers, and let an adversary who has a public key ask T questions, each depending on the answers before, and then give out a message and a signature. For all but a part Q(2^-(lambda-2) + 2Q(L+2)2^-(2 lambda)) of all tables, Q being T plus the number of questions of the verifier and L the bound on the length of questions, either faest_verify rejects, or one of the tau keys per question which an extractor computes from the list of questions and answers is a key that the one-way function accepts and maps to the public key. With at most 2^64 questions of at most 2^60 bytes this part is at most 2^-(lambda-67). faest_verify depends on the hash functions only through their outputs for the listed strings.", "quantifier": "for every parameter set, every byte string of the size of a public key, every adaptive adversary without signing queries, every number of questions and every bound on their length", "why_tests_cant": "It quantifies over all adversaries and counts over all tables of answers of a random oracle.", "anchors": ["faest.c:faest_verify", "faest.c:hash_challenge_1", "faest.c:hash_challenge_2", "faest.c:hash_challenge_3", "vc.c:vector_reconstruct", "vole.c:vole_reconstruct", "faest_aes.c:aes_verify", "universal_hashing.c"]}
{"id": "C64", "title": "Signatures do not depend on the key, given their openings", "statement": "Fix a message, an iv, a third challenge and the opened nodes of the trees, and let a signer with an accepted secret key use the leaves which these nodes give and arbitrary strings and commitments for the tau leaves selected by the challenge. The map from the choices of these hidden strings and commitments for which the signer computes that challenge to the signatures is a bijection onto the set of all byte strings of signature length which faest_verify accepts for the public key and which contain that iv, challenge and nodes. This set does not depend on the secret key; so each valid signature comes from exactly one choice for every accepted key of the public key, and for two such keys every set of signatures is hit by equally many choices. The signature of faest_sign is the one for the strings and commitments of its own closed leaves.", "quantifier": "for every parameter set, accepted secret key (or pair of accepted secret keys with the same public key), message, iv, challenge, opened nodes, and both hash functions", "why_tests_cant": "It compares the whole set of possible signatures with the whole set of hidden values.", "anchors": ["faest.c:faest_sign", "faest.c:faest_verify", "vole.c:vole_commit", "vc.c:vector_open", "universal_hashing.c:vole_hash", "faest_aes.c:aes_prove"]}
{"id": "C65", "title": "The assembler code for one Keccak state computes FIPS 202", "statement": "Let 200 bytes of memory hold a string of 1600 bits in the order of lanes of the assembler code. KeccakP1600_Initialize makes it zero, KeccakP1600_Permute_24rounds applies KECCAK-p[1600,24], KeccakP1600_AddByte and KeccakP1600_AddBytes add bytes from any position on, KeccakP1600_ExtractBytes stores the bytes from any position on, and KeccakF1600_FastLoop_Absorb absorbs all whole blocks of its data and returns the number of bytes in them. All of them end, access nothing else, restore rbx and leave the stack as it was. The results assume that an unsigned int argument is zero-extended in its register: with other upper bits KeccakP1600_AddBytes with length 0 reads data.", "quantifier": "for every state, data of every length, position, lane count in use (17, 21) and contents of the other registers", "why_tests_cant": "States and data range over all byte strings and the loops over any number of blocks; what a function finds in unused registers is not under the control of a test.", "anchors": ["sha3/avx2/KeccakP-1600-AVX2.s:KeccakP1600_Initialize", "sha3/avx2/KeccakP-1600-AVX2.s:KeccakP1600_AddByte", "sha3/avx2/KeccakP-1600-AVX2.s:KeccakP1600_AddBytes", "sha3/avx2/KeccakP-1600-AVX2.s:KeccakP1600_ExtractBytes", "sha3/avx2/KeccakP-1600-AVX2.s:__KeccakF1600", "sha3/avx2/KeccakP-1600-AVX2.s:KeccakP1600_Permute_24rounds", "sha3/avx2/KeccakP-1600-AVX2.s:KeccakF1600_FastLoop_Absorb"]}
{"id": "C66", "title": "Branches and addresses of the assembler code for one Keccak state do not depend on secrets", "statement": "Two calls of a function of sha3/avx2/KeccakP-1600-AVX2.s which the library uses, with the same addresses, positions and lengths as arguments, but with arbitrary different states, data, bytes to be added, contents of the other registers and other memory, load and store at the same addresses in the same order, take the same conditional jumps, and KeccakF1600_FastLoop_Absorb returns the same number.", "quantifier": "for every pair of memories and of register contents, all arguments, and runs of every length which return", "why_tests_cant": "A timing test or a tool like memcheck follows single runs with single secrets; the claim is about all pairs of secrets and about hand-written code which no compiler checks.", "anchors": ["sha3/avx2/KeccakP-1600-AVX2.s:KeccakP1600_AddBytes", "sha3/avx2/KeccakP-1600-AVX2.s:KeccakP1600_ExtractBytes", "sha3/avx2/KeccakP-1600-AVX2.s:__KeccakF1600", "sha3/avx2/KeccakP-1600-AVX2.s:KeccakP1600_Permute_24rounds", "sha3/avx2/KeccakP-1600-AVX2.s:KeccakF1600_FastLoop_Absorb"]}
{"id": "C67", "title": "The ARM assembler code for one Keccak state computes FIPS 202", "statement": "Let 200 bytes anywhere in a block of memory hold a string of 1600 bits in the order of FIPS 202. KeccakP1600_Initialize of sha3/armv8a-neon makes it zero, KeccakP1600_Permute_24rounds applies KECCAK-p[1600,24], KeccakP1600_AddByte and KeccakP1600_AddBytes add bytes from any position on, and KeccakP1600_ExtractBytes stores the bytes from any position on. All of them end, change nothing else in the block or in memory, and read nothing beyond the state and the given data. The results assume that the unsigned int argument offset is zero-extended in its register: with other upper bits KeccakP1600_AddByte with offset 0 reads outside of the state.", "quantifier": "for every state at every place in a block, data of every length up to the end of the state, every position, and all contents of the other registers", "why_tests_cant": "States and data range over all byte strings; the code runs on one kind of processor only, and what a function finds in unused registers is not under the control of a test.", "anchors": ["sha3/armv8a-neon/KeccakP-1600-armv8a-neon.s:KeccakP1600_Initialize", "sha3/armv8a-neon/KeccakP-1600-armv8a-neon.s:KeccakP1600_AddByte", "sha3/armv8a-neon/KeccakP-1600-armv8a-neon.s:KeccakP1600_AddBytes", "sha3/armv8a-neon/KeccakP-1600-armv8a-neon.s:KeccakP1600_ExtractBytes", "sha3/armv8a-neon/KeccakP-1600-armv8a-neon.s:KeccakP1600_Permute_24rounds"]}
{"id": "C68", "title": "The ARM assembler code for one Keccak state shows no secrets by addresses or branches", "statement": "Take any two runs of KeccakP1600_Initialize, KeccakP1600_AddByte, KeccakP1600_AddBytes, KeccakP1600_ExtractBytes or KeccakP1600_Permute_24rounds of sha3/armv8a-neon with the same pointers, positions and lengths, but with any contents of memory, any byte to add and any contents of the other registers. The sequences of addresses and sizes of loads and stores and of the directions of conditional branches are equal.", "quantifier": "for all pairs of memories, all pointers, positions and lengths, all contents of other registers, and runs of any length", "why_tests_cant": "A timing test or a tool like memcheck follows single runs with single secrets; the claim is about all pairs of secrets and about hand-written code which no compiler checks.", "anchors": ["sha3/armv8a-neon/KeccakP-1600-armv8a-neon.s:KeccakP1600_Initialize", "sha3/armv8a-neon/KeccakP-1600-armv8a-neon.s:KeccakP1600_AddByte", "sha3/armv8a-neon/KeccakP-1600-armv8a-neon.s:KeccakP1600_AddBytes", "sha3/armv8a-neon/KeccakP-1600-armv8a-neon.s:KeccakP1600_ExtractBytes", "sha3/armv8a-neon/KeccakP-1600-armv8a-neon.s:KeccakP1600_Permute_24rounds"]}
{"id": "C69", "title": "The 64-bit Keccak code computes FIPS 202 on big-endian hosts", "statement": "On a big-endian host let 200 bytes anywhere in a block of memory be 25 words which hold the lanes of a string of 1600 bits. KeccakP1600_Initialize of sha3/opt64 makes it zero, KeccakP1600_Permute_24rounds applies KECCAK-p[1600,24], KeccakP1600_AddByte and KeccakP1600_AddBytes add bytes from any position on, KeccakP1600_ExtractBytes stores the bytes from any position on in the order of FIPS 202, and KeccakF1600_FastLoop_Absorb absorbs all whole blocks of its data and returns the number of bytes in them. All of them end, change nothing else in the block or in memory, and read nothing beyond the state and the given data. AddBytes and ExtractBytes of a whole state of 200 bytes from position 0 are excluded: AddBytes then reads and writes behind the state.", "quantifier": "for every state at every place in a block, data of every length (up to the end of the state for AddBytes), every position, and both lane counts in use (17, 21)", "why_tests_cant": "Tests run on the byte order of the machine at hand, and states and data range over all byte strings with loops over any number of blocks.", "anchors": ["sha3/opt64/KeccakP-1600-opt64.c:KeccakP1600_Initialize", "sha3/opt64/KeccakP-1600-opt64.c:KeccakP1600_AddByte", "sha3/opt64/KeccakP-1600-opt64.c:KeccakP1600_AddBytesInLane", "sha3/opt64/KeccakP-1600-opt64.c:KeccakP1600_AddLanes", "sha3/opt64/KeccakP-1600-opt64.c:KeccakP1600_AddBytes", "sha3/opt64/KeccakP-1600-opt64.c:KeccakP1600_ExtractBytesInLane", "sha3/opt64/KeccakP-1600-opt64.c:KeccakP1600_ExtractLanes", "sha3/opt64/KeccakP-1600-opt64.c:KeccakP1600_ExtractBytes", "sha3/opt64/KeccakP-1600-opt64.c:KeccakP1600_Permute_24rounds", "sha3/opt64/KeccakP-1600-opt64.c:KeccakF1600_FastLoop_Absorb", "endian_compat.h:bswap64"]}
{"id": "C70", "title": "The 32-bit Keccak code computes FIPS 202 on big-endian hosts", "statement": "The translated text of sha3/plain32/KeccakP-1600-inplace32BI.c for a big-endian host: on 200 bytes, which hold for each lane first a word with the 32 bits at even and then a word with the 32 bits at odd places, Permute_24rounds takes the state to KECCAK-p[1600,24] of FIPS 202; Initialize zeroes it; AddByte and AddBytes XOR a byte or a string into the bytes of the state at exactly the given place; ExtractBytes stores exactly the bytes asked for, in the order of FIPS 202. All run without undefined behaviour and nothing else in memory changes.", "quantifier": "for every memory, every contents of the state, every offset and length that end with the state at most (not the whole state in one call, for which ExtractBytes is shown to read behind the state), and every input outside of the state", "why_tests_cant": "Tests run on the byte order of the machine at hand. The conversion between bytes and interleaved bits is a chain of masks and shifts done for parts of lanes; offsets and lengths at lane boundaries with all contents cannot be enumerated.", "anchors": ["sha3/plain32/KeccakP-1600-inplace32BI.c:KeccakP1600_Permute_24rounds", "sha3/plain32/KeccakP-1600-inplace32BI.c:KeccakP1600_AddBytesInLane", "sha3/plain32/KeccakP-1600-inplace32BI.c:KeccakP1600_AddLanes", "sha3/plain32/KeccakP-1600-inplace32BI.c:KeccakP1600_ExtractLanes", "sha3/plain32/KeccakP-1600-inplace32BI.c:KeccakP1600_ExtractBytesInLane"]}
{"id": "C71", "title": "SHAKE with the instructions KIMD and KLMD of s390x", "statement": "If KIMD takes whole blocks into the Keccak state in the parameter block, and KLMD takes in the end of the input with SHAKE's suffix and padding and produces a block of output, then hash_init, hash_update, hash_final and hash_squeeze of sha3/s390_cpacf.h make no access outside of the context and the buffers and compute SHAKE for every division of input and output, as long as no more than a block of output is taken; this covers all outputs of FAEST but the first challenge with security parameter 256.  If KLMD leaves the state in the parameter block, a second block is not the one of SHAKE but the first block for the input followed by its padding.", "quantifier": "for all inputs in any number of pieces, all outputs in any number of pieces, all previous contents of the context, both rates", "why_tests_cant": "Needs the hardware; pieces that end exactly at a block boundary take paths of their own, and the second block is used only for one challenge of one security level.", "anchors": ["sha3/s390_cpacf.h:hash_init", "sha3/s390_cpacf.h:hash_update", "sha3/s390_cpacf.h:hash_final", "sha3/s390_cpacf.h:hash_squeeze"]}
{"id": "C72", "title": "The generator of the test-vector programs is CTR_DRBG", "statement": "randombytes_init and randombytes of tools/rng.c are the instantiate and generate functions of CTR_DRBG of NIST SP 800-90A with a block cipher of 256 bits of key (AES-256), without derivation function and additional input: every request returns 0, fills the buffer with exactly the bytes asked for and leaves the next state of the generator, for any sequence of requests; rand_bytes of randomness.c on top of it reports success with the same bytes; with AES-256 the bytes of a request are those of FAEST's own prg for the key Key and the initial value V + 1. A request for 2^31 bytes or more and the request at which the counter of requests is 2^31 - 1 have undefined behaviour.", "quantifier": "for every block cipher, every entropy input and personalization string (or none), every earlier contents of the state, every buffer and length below 2^31, every sequence of requests that keeps the counter below 2^31", "why_tests_cant": "The programs ask for a few fixed lengths. The carry of the counter over all bytes, lengths that are not multiples of 16, sequences of requests and the two overflows are not met.", "anchors": ["tools/rng.c:randombytes_init", "tools/rng.c:randombytes", "tools/rng.c:AES256_CTR_DRBG_Update", "tools/rng.c:AES256_ECB", "randomness.c:rand_bytes"]}
{"id": "C73", "title": "With the SHAKE of liboqs the complete program signs and verifies as specified and gives back every context", "statement": "With the hash layer of hash_shake.h for the macro OQS (the incremental SHAKE functions of liboqs, one context and four at a time) under random_oracle.c, the complete translated program does what it does with the bundled SHAKE: sign_with_randomness, sign, verify, crypto_sign and crypto_sign_open run without undefined behaviour, store the signature of the specification or decide validity, and leave no other block changed. In particular every context is initialised before use, takes in nothing after it was closed, gives out nothing before, is used with the functions of its own width only and is released exactly once. Messages and randomness may have any length: the limits of the bundled sponge do not apply.", "quantifier": "for every library whose functions have the stated effect, every parameter set, every build and byte order of the fields, every memory, key, message and randomness of any length, signature of the right size", "why_tests_cant": "The branch does not compile as it is, so no test runs it. A leaked context or the use of the wrong member of the union need not change any output.", "anchors": ["hash_shake.h:hash_init", "hash_shake.h:hash_update", "hash_shake.h:hash_final", "hash_shake.h:hash_squeeze", "hash_shake.h:hash_clear", "hash_shake.h:hash_init_x4", "hash_shake.h:hash_update_x4", "hash_shake.h:hash_squeeze_x4", "hash_shake.h:hash_clear_x4", "random_oracle.c:H0_x4_final", "random_oracle.c:H1_final", "random_oracle.c:H2_final", "random_oracle.c:H3_final"]}
{"id": "C74", "title": "The program for known answers writes the two files NIST asks for, with valid signatures", "statement": "tools/PQCgenKAT_sign.c, over tools/rng.c and crypto_sign.c.in, returns 0 and writes exactly the specified files: in the request file 100 records whose seeds (48 bytes) and messages (33, 66, ..., 3300 bytes) come from CTR_DRBG with the entropy input 0, 1, ..., 47; in the response file, which is made by reading the request file again, for each record the same lines and the key pair, the length and the signed message which key generation and signing give with CTR_DRBG instantiated with the seed of the record. Every signature in the file is valid for the public key beside it. FindMarker returns 1 exactly if the marker occurs, at the end of its first occurrence, and ReadHex reads back the bytes which fprintBstr wrote.", "quantifier": "for every block cipher with blocks of 16 bytes in place of AES-256, every hash, parameter set and name of the algorithm such that in each record some request for a key gives a good one (of the first 2^31 - 10); for every marker of at most 49 characters, every text and every string of bytes", "why_tests_cant": "The answers in the repository come from this program itself; running it again compares it with itself. The scan for markers is correct only because no marker occurs inside the lines in front of it, for any seeds and messages.", "anchors": ["tools/PQCgenKAT_sign.c:main", "tools/PQCgenKAT_sign.c:FindMarker", "tools/PQCgenKAT_sign.c:ReadHex", "tools/PQCgenKAT_sign.c:fprintBstr", "tools/rng.c:randombytes", "crypto_sign.c.in:crypto_sign_keypair", "crypto_sign.c.in:crypto_sign", "crypto_sign.c.in:crypto_sign_open"]}
{"id": "C75", "title": "The helper functions of compat.h and endian_compat.h are right without compiler builtins", "statement": "clz (all three versions) counts the zero bits above the highest bit set, 32 for 0; ceil_log2 is the logarithm to the base 2 rounded up, for every number of 32 bits; sub_overflow_size_t reports exactly a negative difference and otherwise stores it; rotl8 and rotr8 rotate by every number of places; parity8 (both versions) is the parity of the number of bits set; bswap16, bswap32 and bswap64 reverse the bytes, and htole*, htobe*, le*toh, be*toh store and load numbers in the stated byte order on a host of either byte order.", "quantifier": "for all values of the arguments, every size of size_t, both byte orders; the builtins of the compilers by their documented results", "why_tests_cant": "The versions without builtins are compiled only by other compilers and on other hosts than those the tests run on; a byte order of the host is fixed in a test run.", "anchors": ["compat.h:clz", "compat.h:ceil_log2", "compat.h:sub_overflow_size_t", "compat.h:rotl8", "compat.h:rotr8", "compat.h:parity8", "endian_compat.h:bswap16", "endian_compat.h:bswap32", "endian_compat.h:bswap64", "endian_compat.h:htole64", "endian_compat.h:le64toh"]}
{"id": "C76", "title": "Every version of rand_bytes reports failures, stays in the buffer and closes its descriptor", "statement": "In each of the versions of rand_bytes (randombytes, liboqs, getrandom, arc4random, macOS, /dev/urandom with and without Linux, Windows): if it returns, it returns 0 or -1; it returns 0 only if the first len bytes of the buffer are the first len bytes the source gave out, in order; it returns -1 only if the system reported a failure or gave out too little; it changes nothing behind these bytes; the file descriptors open afterwards are those open before, no descriptor being used or closed when it is not open. It returns whenever the system answers; but if /dev/urandom is at its end of file, the loop never stops.", "quantifier": "for every behaviour of the system within its documentation (any sequence of restarts, short and failing reads), every buffer, every length up to the size of the buffer", "why_tests_cant": "Short reads, interrupted calls and failing devices do not occur in a test run, and only one version is compiled.", "anchors": ["randomness.c:rand_bytes"]}
{"id": "C77", "title": "The test program of the interface always passes", "statement": "tests/api_test.c returns 0: the key pair is made, a message is signed into a buffer of exactly the needed size, opened into another one with the right length and contents, then signed and opened in place; no access is outside of the arrays of the program.", "quantifier": "for every hash, parameter set, and every random source which delivers the bytes asked for and gives out a good key at some time", "why_tests_cant": "A run of the program shows this for one key and two signatures.", "anchors": ["tests/api_test.c:main", "crypto_sign.c.in:crypto_sign_keypair", "crypto_sign.c.in:crypto_sign", "crypto_sign.c.in:crypto_sign_open"]}
{"id": "C78", "title": "The interface of KeccakHash.h computes the functions of FIPS 202 on bit strings of any length", "statement": "With any rate of whole bytes below 1600, a suffix of at most 7 bits coded as a byte and any length of the hash: after updates with whole bytes and a last one with any number of bits, the hash and everything squeezed after it are the output of the sponge for the bits taken in followed by the suffix. With the arguments of the macros these are SHA3-224, SHA3-256, SHA3-384, SHA3-512, SHAKE128 and SHAKE256 of FIPS 202. Keccak_HashInitialize succeeds exactly if the suffix is not zero, rate and capacity together are 1600 and the rate is a positive number of whole bytes. For the rate 1600, which it accepts, a squeeze of a block or more is undefined.", "quantifier": "for every rate, suffix and length of the hash, every sequence of inputs and of output lengths, and every number of bits of the last input", "why_tests_cant": "Where the last bits, the suffix and the padding fill a byte or a block exactly depends on the length of the input in bits and on the suffix; FAEST itself only uses whole bytes and two rates.", "anchors": ["sha3/KeccakHash.c:Keccak_HashInitialize", "sha3/KeccakHash.c:Keccak_HashUpdate", "sha3/KeccakHash.c:Keccak_HashFinal", "sha3/KeccakHash.c:Keccak_HashSqueeze", "sha3/KeccakSponge.inc:SpongeAbsorbLastFewBits", "sha3/KeccakHash.h:Keccak_HashInitialize_SHA3_256"]}
{"id": "C79", "title": "KeccakWidth1600_Sponge is the sponge of FIPS 202 for all lengths", "statement": "For every rate of whole bytes below 1600, every suffix of at most 7 bits, every input and every output length the function returns 0 and writes the output of SPONGE[Keccak-p, pad10*1, rate] for the input followed by the suffix, and nothing else; for other arguments it returns 1 and writes nothing. The interface of KeccakHash.h gives the same for the same bytes, however they are cut.", "quantifier": "for every rate, capacity, suffix, input and output length, without a limit on the lengths", "why_tests_cant": "The padding at the end of a block, rates which are not whole lanes and lengths beyond 2^32 bytes are not reached by tests; nothing in the repository calls the function.", "anchors": ["sha3/KeccakSponge.inc:Sponge", "sha3/KeccakHash.c:Keccak_HashFinal"]}
{"id": "C80", "title": "The four-fold interface of KeccakHashtimes4.h computes four hashes of FIPS 202", "statement": "For every rate of whole bytes below 1600, every suffix of at most 7 bits, every length of the hash and every sequence of updates with four inputs of equal length, what Keccak_HashFinaltimes4 and the calls of Keccak_HashSqueezetimes4 after it write to the buffers k is the output of the sponge for message k followed by the suffix; with the macros these are SHA3-224, SHA3-256, SHA3-384, SHA3-512, SHAKE128 and SHAKE256. Each hash is the one the interface for a single message gives. Updates which are not whole bytes are refused, and Keccak_HashInitializetimes4 accepts the same arguments as Keccak_HashInitialize.", "quantifier": "for every rate, suffix, hash length, number and length of updates (nothing wraps in unsigned int) and contents of the four messages", "why_tests_cant": "Only SHAKE is used by the signature scheme and its tests; mixing the four states at one particular cut of the input, or the padding at the end of a block with a long suffix, is not reached.", "anchors": ["sha3/KeccakHashtimes4.c:Keccak_HashFinaltimes4", "sha3/KeccakHashtimes4.c:Keccak_HashUpdatetimes4", "sha3/KeccakHashtimes4.h:Keccak_HashInitializetimes4_SHA3_256"]}
{"id": "C81", "title": "Overwriting bytes of the state of Keccak and extracting bytes with an addition", "statement": "KeccakP1600_OverwriteBytes sets exactly the bytes offset, ..., offset+length-1 of the state to those of data, KeccakP1600_OverwriteWithZeroes exactly the first byteCount bytes to zero, and KeccakP1600_ExtractAndAddBytes writes exactly length bytes, each the sum of the byte of the input and that of the state, whenever the bytes lie in the state (for the last function: and are not all 200 from offset 0, for which it reads behind the state). No access is outside of the buffers.", "quantifier": "for every state, every position of it in memory, every offset and length with offset+length at most 200, and every data", "why_tests_cant": "The sponge calls none of these functions, so that no test of the repository reaches them; their cases depend on the position in the lanes.", "anchors": ["sha3/opt64/KeccakP-1600-opt64.c:KeccakP1600_OverwriteBytes", "sha3/opt64/KeccakP-1600-opt64.c:KeccakP1600_OverwriteWithZeroes", "sha3/opt64/KeccakP-1600-opt64.c:KeccakP1600_ExtractAndAddBytes", "sha3/SnP-Relaned.h:SnP_OverwriteBytes"]}
{"id": "C82", "title": "The Keccak permutations with fewer rounds", "statement": "KeccakP1600_Permute_Nrounds with nr at most 24 replaces the state by KECCAK-p[1600, nr] of FIPS 202 of it and changes nothing else, and KeccakP1600_Permute_12rounds does so for nr = 12. For nr above 24 the first function has no guard: an odd nr reads behind the table of round constants, an even nr does no round at all.", "quantifier": "for every state, every position of it in memory and every number of rounds below 2^32", "why_tests_cant": "No hash function of the repository uses fewer than 24 rounds, so that no test reaches these functions; 2^1600 states cannot be tried.", "anchors": ["sha3/opt64/KeccakP-1600-opt64.c:KeccakP1600_Permute_Nrounds", "sha3/opt64/KeccakP-1600-opt64.c:KeccakP1600_Permute_12rounds", "sha3/opt64/KeccakP-1600-unrolling.macros:roundsN", "sha3/opt64/KeccakP-1600-unrolling.macros:rounds12"]}
