# Formal model of faest-ref in Lean 4: design

Source: `/repo` (faest-ref, C), read as text.  Nothing in `/repo` is built or run.
The Lean project is `/verif/lean`; `lake build` there checks everything.

## 1. Shape of the development

* `Verif/Model/*`  - executable code-level model, function by function; each definition cites file and lines.
* `Verif/Spec/*`   - independent specifications: polynomials over GF(2), FIPS-197 and Rijndael in matrix form,
  the GGM tree as a recursive function, VOLE, the constraint system, the scheme as functions on indices,
  FIPS 202 on bit strings.
* `Verif/Proofs/*` - helper lemmas: refinement of the code-level model to the specifications, algebra, counting.
* `Verif/Props/*`  - the property theorems listed in `MANIFEST.json`, in groups, with `example`s that show that the
  hypotheses can be met (mostly with the known-answer key of FAEST-128f, `Proofs/Kat.lean`).
* `seeded/LOG.jsonl` - tests of the theorems against wrong programs.

### The code-level model
* A C function is a Lean function into `Option`.  `none` is undefined behaviour: an access outside the buffer, a
  read of a cell that was never written, a failed `assert`, or a loop that does not terminate.
* A buffer is `Mem a := List (Option a)`; a cell `none` is uninitialised (`malloc`, arrays on the stack), `calloc`
  gives zero cells.  `rd`, `wr`, `rdN`, `wrN`, `ptr` are checked.  So a theorem `f args = some r` includes memory
  safety and absence of uninitialised reads for the modelled accesses.
* Loops are `forN` (counted), `forR`, `forStep` (explicit index and step) with bodies in `Option`.
* Bytes are `BitVec 8`, field elements `BF n` (a wrapped `BitVec n`); `Model/FieldWords.lean` has the 64-bit words.
* SHAKE is a parameter `X : Nat -> List Byte -> Nat -> Byte` (128/256, absorbed bytes, position in the output).
  Nothing is assumed about it; theorems about security conclude with an explicit collision.  `Model/Keccak.lean`,
  `Model/Shake.lean` and `Model/RandomOracle.lean` model the bundled implementation, and C43-C47 prove that it
  computes SHAKE of FIPS 202, for calls of permitted sizes (see C46 for the others).
* The operating system's random source is a parameter (what each call stores and returns).

## 2. What is modelled

| Source | Model | Remarks |
|--------|-------|---------|
| meson.build:107-398, instances.h/.c | Params | the parameter table, lookup by id |
| fields.c/.h | Fields (bit vectors), FieldWords (64-bit words; struct build, both vector builds, both byte orders) | `bf*_rand` is only used by tests |
| aes.c | Aes, PrgEvp, Heap | portable `prg` and the OpenSSL `prg` (the cipher of OpenSSL is a parameter, C49) |
| owf.c/.h | Owf | |
| random_oracle.c, hash_shake.h | Oracle (ideal), RandomOracle + Shake (bundled) | x4 contexts as four contexts resp. four interleaved states |
| sha3/KeccakSponge*.inc, KeccakHash*.c, opt64/* | Keccak, Shake | the `opt64` permutation, little-endian; `size_t` of 32 or 64 bits, wrapping |
| sha3/KeccakHash.c:38-61 (inputs which are not whole bytes), KeccakHash.h:61-81 | KeccakHash | all rates and suffixes; FAEST itself uses whole bytes and SHAKE only (C78) |
| sha3/KeccakSponge.inc:35-128 (`Sponge`) | SpongeOnce | called by nothing (C79) |
| sha3/KeccakHashtimes4.c, KeccakHashtimes4.h:52-72 | Shake, KeccakHashX4 | all rates, suffixes and hash lengths (C80) |
| opt64/KeccakP-1600-opt64.c:200-324, 448-519, SnP-Relaned.h:54-80, 110-139 | KeccakOver | overwriting, and extracting with an addition; the sponge uses neither (C81) |
| opt64/KeccakP-1600-opt64.c:328-338, 357-368, KeccakP-1600-unrolling.macros:45-58, 294-305 | KeccakRounds | 12 and any number of rounds; the hashes use neither (C82) |
| sha3/s390_cpacf.h | S390 | the instructions KIMD and KLMD are parameters |
| vc.c/.h | Vc, Flat, Heap | element-wise, byte-addressed, with explicit heap |
| vole.c/.h | Vole, Flat, Heap | element-wise, byte-addressed, with explicit heap |
| universal_hashing.c/.h | UHash | |
| faest_aes.c/.h | FaestAes, Flat, Heap | |
| faest.c/.h | Faest, Flat, Heap | all position helpers of both sides |
| faest_param.c.in, crypto_sign.c.in | Api, ApiOverlap | NULL pointers; in-place use of crypto_sign |
| compat.c/.h (`faest_timingsafe_bcmp`, `faest_explicit_bzero`, `rotr8`, `parity8`), utils.h | Api, Basic, Aes | portable versions |
| compat.c:45-109 (`faest_aligned_alloc`, `faest_aligned_free`) | Alloc | the malloc-based fallback, the check for posix_memalign |
| randomness.c | Randomness, RandOs | getrandom and /dev/urandom (C31); all versions, with file descriptors (C76) |
| compat.h:110-213, endian_compat.h:22-36, :151-183 | Compat | the helper functions without compiler builtins (C75) |
| hash_shake.h with `OQS` (:17-199), random_oracle.c over it | Oqs | the functions of liboqs are parameters, assumptions in Spec/Oqs.lean (C73); without `hash_init_prefix_x4`, which does not compile and which nothing calls |
| tools/rng.c, `rand_bytes` with `HAVE_RANDOMBYTES` | Rng | the cipher of OpenSSL is a parameter (C72) |
| tools/PQCgenKAT_sign.c | KatGen | files are lists of characters (C74) |
| tests/api_test.c | ApiTest | without what is printed (C77) |
| index and size expressions of all of the above | CInt, CIntSites | C17 conversion rules |

Not modelled: the functions of the assembler files of sha3/avx2 and sha3/armv8a-neon which nothing calls;
the operating-system specific branches of compat.c other than those listed; the detection of the byte order in endian_compat.h;
`tests/` other than api_test.c, `tools/` other than rng.c and PQCgenKAT_sign.c, the benchmark programs, meson's template substitution itself (the templates are read with the
values of the table).

### Simplifications
* One generic definition models the copies for the three field sizes (universal_hashing.c, fields.c, faest_aes.c) and
  for AES-128/192/256 respectively EM-128/192/256.  The copies were compared textually after normalising names of
  constants; the remaining differences are explicit parameters (word step of the key schedule constraints, toggling
  of Rcon and rotation for 256, second block, ShiftRows for eight words).
* In Model/Vc, Vole, FaestAes and Faest the buffers which the code addresses in whole elements (tree nodes, seeds, leaf
  commitments, VOLE columns) are arrays of byte strings.  Model/Flat.lean has the same functions on byte buffers with
  the offsets of the code and with the arrays on the stack; C50 proves that it computes the same.
* Distinct pointer arguments are distinct objects, except for the in-place model of `crypto_sign` (C42) and where
  the code itself passes overlapping pointers (`xor_u8_array(Q_tilde, .., Q_tilde)`, written as such).
* Allocation does not fail (the code never tests the result of one).  In all models but Model/Heap.lean memory is
  freed implicitly.  Model/Heap.lean repeats vc.c, vole.c, faest_aes.c, aes.c and faest.c over a heap with explicit
  blocks, `free`, and arrays of pointers; C51 proves that it computes the same and leaves the heap as it was.  Between
  two operations on the heap it uses the code of Model/Flat.lean on the contents of live blocks.
* Alignment is not modelled except in the fallback allocator (C48).  Natural numbers stand for `unsigned int` and `size_t`; C30 proves separately that no
  listed expression leaves its type.
* Message lengths are unbounded in the theorems with an ideal hash; C46 has the limits of the bundled hash.
* In Model/Shake.lean `Keccak_HashUpdate` is modelled for whole bytes (all that hash_shake.h uses); Model/KeccakHash.lean has the whole function.
* The choice tree of `KeccakP1600_AddBytes` in a lane is modelled by its effect on bytes.
* Key generation is a loop with a fuel argument; theorems are about runs that return.

### Check of the translation against known answers
A scratch copy of the model was executed on the known-answer tests shipped in `/repo` (read as text) for all
six `f` parameter sets: public key, signature and verification results agree.  In the project itself the AES and
one-way function answers for FAEST-128f (`Proofs/Kat.lean`) and SHAKE answers (examples in `Props/C43.lean`) are
evaluated by the kernel.

### Translated code
`tools/c2lean.py` reads the C files of the repository and writes one Lean definition per C function into
`Verif/Model/Gen` (utils.h, aes.c, universal_hashing.c, vc.c, vole.c, faest_aes.c, faest.c, owf.c, instances.c, compat.c,
and the twelve instances of faest_param.c.in and crypto_sign.c.in with the values of meson.build).  The generated files
are committed; running `python3 tools/c2lean.py /repo lean/Verif/Model/Gen` again gives the same files.  The meaning of
the constructs is `Verif/Model/CSem.lean`: a memory of typed blocks (bytes, field elements, pointers, vector commitment
records) with kinds (stack, heap, aligned, caller), pointers as block and index, `none` for undefined behaviour.

* The translator resolves the preprocessor with no symbol defined (portable build), expands the macros of macros.h,
  instances.h, utils.h, aes.h and fields.h, applies the integer promotions and conversions, and makes every
  reduction modulo 2^8, 2^32 or 2^64 explicit where it cannot see from the types that there is nothing to reduce.
  Signed overflow, shifts by too much and division by zero are undefined.
* Arrays on the stack are blocks which are freed at the end of their scope, before every `return` out of it.
* Variables assigned in a loop or branch become its result.  A variable without initial value has an undefined value
  until assigned.  Operands are evaluated from left to right; both sides of `&&` and `||` are evaluated (their
  side conditions must hold even when C would not look at them; this is stricter than C).
* In these files calls of fields.c are not translated; CSem defines them by Model/Fields, and C56 relates them to the
  translated fields.c.  A second output of the tool, `Verif/Model/GenW` (`python3 tools/c2lean.py /repo
  lean/Verif/Model/GenW words`), has the same functions with the functions of fields.h, fields.c, `rotr8` and `parity8` as
  parameter `F : FImpl` (Model/FImpl.lean).  For the bit vectors (`absF`) it is equal to the first output
  (Proofs/Gen/WEq.lean, 266 functions).  Model/WordF.lean makes an `FImpl` of the translated functions on words: a
  call converts its arguments to words, runs the translated text and converts the result back (undefined if it is
  not the words of an element); loads and stores work on the bytes of the block.  C60 is about this program.  A block
  of field elements stays a block of elements, it is not a block of words.
* The functions of random_oracle.h are a parameter `I : HImpl` (Model/HImpl.lean) of the translated functions.  The
  definition of a local hash context calls `I.new`, the end of its scope `I.drop`.  C52 to C55 take `absImpl X`, where a
  context is the string taken in so far; C59 takes `GenH.shakeImpl` (Model/ShakeImpl.lean), the translated hash layer:
  a context is a block of 200 (800) bytes on the stack.  The proofs (Proofs/Gen/Vc to Api) are about every
  implementation with the properties `HSpec` (Proofs/Gen/HSpec.lean).
* The hash is translated by `tools/c2hash.py` (`python3 tools/c2hash.py /repo lean/Verif/Model/Gen`) over
  Model/CHash.lean: opt64/KeccakP-1600-opt64.c with its macro headers, KeccakP-1600-times4 by way of
  PlSnP-Fallback.inc, KeccakSponge.inc, KeccakSpongetimes4.inc, KeccakHash.c, KeccakHashtimes4.c, hash_shake.h and
  random_oracle.c.  Macros with bodies become functions.  The array `state` of a sponge instance is a block of its own, its other
  members are values of a record; constants and parameters whose address is taken are arrays of one element.  Little-endian host (but see below);
  alignment is not modelled for the 64-bit code.  C57 shows for every hash operation which the other translated files use that
  its translation simulates the operation of CSem with X := SHAKE; C59 is about the joined program.
* The functions on one state as a sponge (`K1 : SpImpl`) and on four states (`K4 : P4Impl`, both Model/P4Impl.lean) are parameters
  of what is above them.  `Sha3` (Model/ShakeImpl.lean) has six builds: `opt64` (the 64-bit code, four states by the fallback), `opt64be` and `plain32be` (`opt64`
  and `plain32` on a big-endian host, see below),
  `neon` (one state by the assembler of armv8a-neon, four by opt64/KeccakP-1600-times4-on1.c over it, see below), `avx2` (four states by avx2/KeccakP-1600-times4-SIMD256.c, Model/Gen/KeccakAvx2.lean over Model/CVec.lean) and `plain32`
  (plain32/KeccakP-1600-inplace32BI.c, Model/Gen/KeccakP32.lean and KeccakHash32.lean over Model/CHalf.lean, four states by the
  fallback).  Proofs/Gen/SpSpec.lean and P4Spec.lean state what the layers above need; C57, C59 and C60 hold for all six.  The
  tool checks that KeccakHash.c, KeccakSpongetimes4.inc and KeccakHashtimes4.c translate to the same text with the headers of each
  build.
* Big-endian hosts.  opt64 is translated a second time with `FAEST_IS_BIG_ENDIAN` (Model/Gen/KeccakBe.lean over Model/CHashBe.lean):
  `PLATFORM_BYTE_ORDER` is `IS_BIG_ENDIAN`, `HTOLE64` is `bswap64` (endian_compat.h), and a `uint64_t` in memory has its most significant
  byte first.  The same for plain32 (Model/Gen/KeccakP32be.lean) with `uint32_t`.  The tool checks that the macros of the rounds, KeccakHash.c, KeccakSpongetimes4.c, KeccakHashtimes4.c, hash_shake.h and
  random_oracle.c give the same functions with either byte order.  With the loads and stores of fields.h for big-endian hosts
  (the second argument of `fieldsImpl` in C60) nothing else in the translated program depends on the byte order: no other code accesses an object with
  another type.  A combination of `opt64be` or `plain32be` with little-endian fields (or the reverse) is covered by C60 but does not exist.
* AVX2.  Trusted in CVec: the meaning of nine intrinsics (vpxor, vpor, vpandn, vpsllq, vpsrlq, vpshufb, vpbroadcastq and the
  aligned load and store).  An aligned access is undefined unless its offset in the block is a multiple of 32; the block of a
  state is taken to begin at a multiple of 32 (the type is declared with this alignment).  The 25 variables which the macros declare
  are a record.
* Assembler.  A build with AVX2 has the functions on one state in sha3/avx2/KeccakP-1600-AVX2.s.  `tools/asm2lean.py` (`python3
  tools/asm2lean.py /repo lean/Verif/Model/Gen/KeccakAsm.lean`) writes the functions which the library calls, instruction by
  instruction, as lists for the machine of Model/Asm.lean, and the tables of constants as 64-bit words.  Trusted: the meaning of the 48
  instructions there; that memory is the memory of the C model (a register holds a number or an address in a block; the
  stack is apart from the blocks); little-endian.  Flags which the manual leaves undefined cannot be tested; an aligned
  load is undefined unless it is from the table of constants at such a place; code which does not restore `rbx` or leaves
  something on the stack is undefined.  Model/AsmC.lean are the calls from C: registers other than the arguments have any
  contents `c0` (`Sha3.avx2 c0`, the same for all calls), numbers of type `unsigned int` are zero-extended to 64 bits, which the
  calling convention does not promise (see Findings).  Model/Gen/KeccakSpongeAsm.lean is KeccakSponge.inc with the headers of
  this build (written by c2hash.py).
  Model/AsmLeak.lean (C66) adds the trace of a run: addresses and sizes of loads and stores and the directions of conditional jumps.
  Pushes, pops and calls are not in it, as they follow from the code and the jumps.  Model/A64Leak.lean (C68) is the same for the ARM code.
* Assembler for ARM.  `tools/neon2lean.py` (`python3 tools/neon2lean.py /repo lean/Verif/Model/Gen/KeccakNeon.lean`) does the same for
  sha3/armv8a-neon/KeccakP-1600-armv8a-neon.s and the machine of Model/A64.lean (26 kinds of instructions and the branches b, b.cc, b.ne).  Trusted: the
  meaning of these instructions; registers and memory as above; little-endian.  `v5.2d[0]` in the file, which the manual does not know, is
  read as `v5.d[0]`.  Alignment is not modelled: ld4 and st4 need that of their elements only.  Registers which a function has to preserve (x19 on,
  the low halves of v8 to v15, the stack pointer) are not in the machine, as the code does not name them; the tool stops at any other register or
  instruction.  Model/NeonC.lean are the calls from C (`c0` and zero extension as above), Model/Gen/KeccakNeonC.lean (written by
  c2hash.py) is KeccakSponge.inc with the headers of armv8a-neon, and opt64/KeccakP-1600-times4-on1.c, which meson.build:519-523
  builds with the assembler.  Its quoted includes find the headers of opt64, so the four states are 200 bytes apart and `AddByte` is
  the macro of opt64.  KeccakSpongetimes4 is compiled with the header of armv8a-neon and has room for 4 * 256 bytes; the 224 bytes which nothing
  uses are left out.
* plain32.  `toBitInterleaving`, `fromBitInterleaving` and the round macros are functions; a macro which takes lvalues reads its 50
  (or two) words first and writes them at its end, which is the same because its operands are distinct.  The pointer into
  the table of round constants is an index.  Accesses of 32-bit words at any address are allowed (the code casts `state` and
  `data` to `uint32_t *`).  `size_t` has 64 bits here, too.
* Model/GenApi.lean and Model/GenWApi.lean select the instance of a parameter set; they are written by hand.
* In the API files `&&` and `||` are short-circuit, and a local variable whose address is taken is an array of one
  element.  `rand_bytes` takes the next entry (result, bytes) of a tape, a block of its own, and stores the bytes; it is
  undefined if the tape is at its end or the entry has not the requested number of bytes.  `size_t` objects are blocks of
  numbers.  `memmove` reads before it writes.  `faest_declassify` is dropped.
* fields.h, fields.c and rotl8, rotr8, parity8 of compat.h are translated by `tools/c2words.py` (`python3
  tools/c2words.py /repo lean/Verif/Model/Gen`) in three builds (no vector extensions, vector extensions with and without
  `__builtin_shufflevector`), loads and stores also for big-endian hosts.  Field elements are vectors of 64-bit words
  (Model/FieldWords, Model/WSem); arithmetic has the width of the promoted C type; the tool refuses a signed operation
  or a shift amount whose range it cannot bound.  `bf*_rand` (used by tests only) is not translated.
* A pointer to a message of length 0 must still be valid (C allows more).
* The parameter table is a Lean structure (Model/Params); macros such as `FAEST_128S_LAMBDA` are taken from instances.h.

The theorems about translated code are Hoare triples over the set of live blocks (`Proofs/Gen`), showing that whenever
the hand-written model has a value the translated code runs to its end with that value.  They remove the hand
translation from the trusted base for the functions covered; the translator and CSem.lean take its place.

### Branches and addresses
For C58 the code is translated a second time, by `tools/c2leak.py`, into a small imperative language with an explicit
syntax (`Model/Leak/IR.lean`); `python3 tools/c2leak.py /repo lean/Verif` writes `Model/Leak/Prog*` (297 functions) and the
certificate `Proofs/Leak/Cert.lean`, and the same for five more builds.  A run in this language has a trace: every address read or written, every branch,
operands of divisions, sizes of allocations, addresses freed, and values stored into published blocks.

* All files are translated together: compat, fields, aes, owf, instances, universal_hashing, vc, vole, the hash layer
  (opt64 or plain32, rounds unrolled by the macros as in the source), random_oracle, faest_aes, faest, and faest_param for the twelve
  sets; every function reached from key generation, signing and validation of key pairs.  Configuration: no OpenSSL, the versions of compat.c that need no library.
* There are six programs: `prog` and `progBe` with words of 64 bits on little- and big-endian hosts, `prog32` and
  `prog32Be` with words of 32 bits; `progAvx` with the AVX2 code for four states (sha3/avx2/KeccakP-1600-times4-SIMD256.c), in which
  the functions for one state are those of `prog` since those of AVX2 are in assembler (C66); `progVec`, which is `prog` with
  field elements as vectors of the compiler and `__builtin_shufflevector` (the others have no vectors of the compiler).  Operations on vectors are
  operators like the others; loads and stores of a vector are loads and stores of 16 or 32 bytes.  A vector one of whose words is accessed with
  `[ ]` is a block of memory.  The functions have the same numbers in all programs.  The directories Prog32, ProgBe,
  Prog32Be, ProgAvx, ProgVec hold the functions that differ from those of `prog`.  In the big-endian programs `bswap16` and `bswap64` are
  functions with the text of endian_compat.h:22-36.  A switch whose cases run into each other (plain32, `Permute_Nrounds`) is a
  chain of conditions in which each case contains the text of the ones it runs into.
* The meaning of operators and of the bytes of a number is a parameter: the theorems hold for every meaning.
  tools/runleak.py evaluates the translated program with the arithmetic of C on test vectors of
  `/repo/tests/test_faest_tvs.cpp` (read as text): the signatures agree for all bytes (tried for FAEST-128f, FAEST-192f and FAEST-EM-128f with the first program, for FAEST-128f with the programs of the 32-bit Keccak code on both kinds of hosts, of AVX2 and of the vectors of the compiler).
* Objects whose address is taken, arrays and records are blocks with numbers in order of allocation; no bounds are checked
  (C51 to C55 do this).  A local array is a new block each time its declaration is reached.
* `assert` is a branch.  `&&`, `||` and `?:` are branches.  memcpy, memmove, memset are loops over bytes
  (PRELUDE of the tool), `rand_bytes` copies from a secret tape, allocation always succeeds.
* In `Keccak_HashUpdate` the expression `databitlen % 8` is 0: the tool checks that every call passes `x << 3`.
* The signature buffer is three objects, each used with the offsets of the whole buffer: what `signature_iv` and
  `signature_chall_3` return, and everything else (C06 shows that the parts do not overlap).  The first two are
  published; the others are treated as secret.
* The results of the one-way function and of `faest_timingsafe_bcmp` in the API functions are published: they are stored
  in and loaded from a block of their own (`released`).
* A type system with levels (`Proofs/Leak/Check.lean`) is proved sound once (`Proofs/Leak/Sound.lean`); that the program has
  the types of the certificate is evaluated by the kernel.  How the tool finds the types does not matter.

## 3. Trusted base
* Lean 4.33.0's kernel.
* Axioms: `propext`, `Classical.choice`, `Quot.sound` only, as printed by `#print axioms` for every theorem of
  `MANIFEST.json`.  No theorem uses more; `C06_consecutive`, `C06_same_offsets`, `C30_params_fit`, `C35_table`,
  `C35_bounds`, `C35_known` use none, `C26_domains_disjoint`, `C26_mu`, `C26_challenge_1..3`, `C30_columns` only
  `propext`.  No `sorry`, `native_decide`, `bv_decide`, `implemented_by` or own axioms.
* The translation of C into the model (hand-made; comments give the lines) and the simplifications above.
* The specifications in `Verif/Spec` (to be read; they are independent of the model's definitions except for the
  parameter table and the byte type).

## 4. Properties: method and remarks

| Id | Method |
|----|--------|
| C01 | chain: GGM agreement, VOLE correlation, linearity of hashes, constraint identity, equality of every hash input |
| C02, C03, C04, C08, C09, C29 | case analysis on the wrappers over the refinement of sign/verify |
| C05, C07, C38 | refinement `sign = some ..`, `verify = some ..` to Spec/Scheme.lean for all inputs of the stated sizes |
| C06, C35 | finite table of 12 rows, arithmetic for every index |
| C30 | typed C expressions with ranges; interval evaluation proved sound, evaluated on the list |
| C10 - C12, C34, C36 | ring laws by linearity, quotient of polynomials, Rabin's irreducibility test evaluated in the kernel, word-level refinement |
| C13, C32, C39 | linearity, bijectivity of the affine map in the mask, root counting |
| C14, C28, C33, C41 | loop invariants against the recursive tree; collision extraction |
| C15, C16 | closed form of ConvertToVole by induction on the depth, xor of indices |
| C17 - C20 | refinement to an independent cipher definition; injectivity of each round step |
| C21, C22, C37 | constraint outputs as affine functions of the witness; S-box identity for all bytes |
| C23, C40 | polynomial of degree 2 in Delta over a field; counting over the challenges |
| C24, C25, C26 | extraction of an explicit collision from two accepting runs |
| C27 | induction over the buffer, trace of accesses |
| C31 | false of the code: negation with witness, partial positive results |
| C42 | one object, two offsets |
| C43 - C45, C47 | sponge invariants; the permutation symbolically round by round |
| C48 | modular arithmetic on addresses |
| C49 | block-wise induction |
| C50 | forward simulation between arrays of byte strings and byte buffers |
| C51 | forward simulation with an exact description of the live blocks (multiset) and an arbitrary frame |
| C52 | Hoare triples for the translated text, against the model, then the specification |
| C53, C54, C55 | the same for the API; the twelve texts are instances of one generic text by unfolding |
| C56 | equality of the translated text with the word level of C36, loops unrolled or by induction; tables over all bytes |
| C57 | triples over the translated text, simulating KeccakSponge/KeccakX4 of C43 and C55 byte by byte; blocks absorbed and squeezed by induction |
| C58 | noninterference: soundness of a type system for all programs, meanings of operators and lengths of runs; the typing of the translated program checked by kernel evaluation |
| C59 | the proofs of C52 to C55 for an abstract interface of the hash layer, and the proof that the translated hash layer meets it |
| C60 | equality of the six field builds with the bit vectors as implementations of the interface (from C56, and for accesses out of bounds), rewriting of C54, C59 |
| C61 | each vector round is the 64-bit round on four words (`zip4`), the rotations by vpshufb checked for each byte; then C43 |
| C62 | the 32-bit rounds on even and odd bits are the 64-bit steps on interleaved lanes (`half`, `cat`), four rounds with lanes in place; then C43 |
| C63 | the list of questions is read backwards from a question for `chall_3`; a step is bad if its answer collides, answers an older question in advance, or is one of the few challenges of C40; counting step by step |
| C64 | from an accepted signature the column `u` of the signer is computed back (`u_tilde` for its last bits, `d` and `a_tilde` for the others, corrections for the other trees); the string of the closed leaf is `u` plus the strings of the opened leaves |
| C65 | symbolic execution of the code of a round gives one round of Keccak-f on the lanes in the order of the registers; loops by induction on the number of bytes, lanes or blocks left; `Holds` (Spec/KeccakPlaces.lean) is the string of 1600 bits in memory |
| C66 | noninterference of the assembler code: a type system for programs of Model/Asm.lean (public, secret, address of a constant) is sound for all runs; the types of the labels checked by kernel evaluation |
| C67 | as C65 for the ARM code, with the state anywhere in a block: symbolic execution of a round (plane by plane, with the lanes in two halves of vectors); the loops by induction |
| C68 | as C66 for the ARM code (no calls, no stack; vectors are secret) |
| C69 | as C65 for the text of opt64 on a big-endian host; the bytes of a lane are in reverse order (`HoldsBe`), so the functions read and write lanes byte by byte |
| C70 | as C62 for the text of plain32 on a big-endian host; the bytes of each half of a lane are in reverse order |
| C71 | SHAKE of FIPS 202; the instructions by the parts of the sponge of FIPS 202 (Spec/KeccakParts.lean, Spec/Cpacf.lean) |
| C72 | CTR_DRBG after SP 800-90A (Spec/Drbg.lean); block-wise induction for a request, induction on the requests.  Evaluating the specification with the cipher of the model and the entropy input 0, 1, ..., 47 gives as first 48 bytes the well-known `061550234D15...` of the NIST test vectors (not part of the build) |
| C73 | as C60; liboqs by Spec/Oqs.lean: each incremental function by its effect on the memory (SHAKE of FIPS 202), nothing assumed for calls out of order or for the functions of the other width; a library which meets this is in Proofs/OqsIdeal.lean |
| C74 | as C72; stdio as described in Model/KatGen.lean: a file is the list of its characters, `fopen` succeeds, `%d`, `%llu`, `%02X` as in the standard, numbers are read without sign; the names of the files (at most 28 characters and the 0, in arrays of 32) and messages printed on the terminal are left out; `crypto_sign` is the function of C13 with its one call of `rand_bytes` done in front |
| C75 | the builtins of compilers by their documented results (hypotheses of the theorems); finite tables (256 bytes times 8 rotations) by evaluation in the kernel, the rest by arithmetic |
| C76 | the system by `Honest` of Spec/RandOs.lean; `ULONG` has 32 bits |
| C77 | as C38 and C42; the call of `crypto_sign` in place is the model of C42, the other calls those of C38 |
| C78 | `opt64` as in Model/Keccak.lean; only the last update may have a number of bits which is not a multiple of 8 (the documented precondition) |
| C79 | as C78 |
| C80 | as C78; the generic four-fold interface of `opt64` (four states one after the other) |
| C81 | as C78; `input` and `output` do not overlap |
| C82 | as C78; `KeccakP1600_fullUnrolling` as in the configuration file |
| C46 | false of the code: exact set of message lengths for which the hash is right, negation outside |

Findings about the code:
* **C31**: `keygen` and `sign` ignore the return value of `rand_bytes`.  With a source that always fails, keygen
  returns 0 if the buffer happens to hold an accepted key, and `sign` reads uninitialised memory.
* **C46**: `sha3/KeccakSponge.inc` has the defect known as CVE-2022-37454; `hash_mu` is undefined for message
  lengths around 2^32 bytes, and with a 32-bit `size_t` lengths wrap at 2^29 in `hash_update`, so that different
  messages collide.
* `meson.build` gives the EM parameter sets a constant `C` that is not the number of their constraints; no code reads
  it (C35).  The size addition of the fallback of `aligned_alloc` wraps for sizes near `SIZE_MAX` (C48_wrap); no call
  in the code is near it.
* `Keccak_HashInitialize` accepts the rate 1600; then `KeccakP1600_ExtractBytes` of a whole block reads the lane behind the state
  (SnP-Relaned.h:86-90 with 0 bytes left, C78_rate_1600).  FAEST uses the rates 1344 and 1088 only.
* `KeccakP1600_ExtractAndAddBytes` of 200 bytes from offset 0 reads the lane behind the state in the same way (C81_extract_add_200); nothing in
  the repository calls it so.
* `KeccakP1600_Permute_Nrounds` has no guard for more than 24 rounds: `24 - nr` wraps, an odd number reads behind the table of constants and
  an even number does no round (C82_too_many).  Nothing in the repository passes such a number.
* No result of `malloc`, `calloc` or `faest_aligned_alloc` is tested for NULL; secret blocks (`w`, `u`, `V`, trees) are
  freed without being wiped.
* `meson.build:528` defines `DISABLE_MISALIGNED_ACCESS` for 32-bit ARM, but the sha3 code tests `NO_MISALIGNED_ACCESSES`
  (plain32/KeccakP-1600-inplace32BI.c:178,233,320,395, opt64/KeccakP-1600-opt64.c:128): the definition has no effect, and
  byte pointers are dereferenced as pointers to words at any alignment.  Alignment is not modelled.
* avx2/KeccakP-1600-times4-SIMD256.c:56-57 declares `rho8` and `rho56` without an alignment but loads them with
  `_mm256_load_si256`, which requires 32 bytes.  Compilers usually align such arrays or fold the constants, C does not promise
  it.  The model does not check this access.
* **C65**: `KeccakP1600_AddBytes` and `KeccakP1600_ExtractBytes` of sha3/avx2/KeccakP-1600-AVX2.s read all 64 bits of the register of
  `unsigned int length`, `KeccakF1600_FastLoop_Absorb` those of `laneCount`, although the System V calling convention leaves the upper 32
  bits open (`C65_upper_bits` is a call with a bit set there).  Compilers usually zero-extend on writing a 32-bit register.  The
  model makes this an assumption (`Asm.argN`).
* **C67**: in sha3/armv8a-neon/KeccakP-1600-armv8a-neon.s all 64 bits of the register of `unsigned int offset` are used, which AAPCS64 does not
  define either (`C67_upper_bits`); `length` is used with 32 bits.  The comment there demands that a state is aligned to 64 bytes, which the states 1 to
  3 of the code for four states are not; the instructions do not need it.  The two translation units disagree on the size of four states
  (800 bytes in opt64's header, 1024 in that of armv8a-neon); the one which defines the object has the larger.
* Dead code with defects in sha3: the byte-wise branch of the macro `ROTL64` (KeccakP-1600-armv8a-neon.s:64-66, never expanded) rotates a
  whole vector and not its two words; the call at KeccakSpongetimes4.inc:78 (its macro is commented out in
  KeccakSpongetimes4.c:29) would pass 0 as distance of blocks to a loop which advances by it; `_mm256_extract_epi64` for
  i386 in the AVX2 file has `||` for `|`; `KeccakP1600_ExtractAndAddLanes` of plain32 for big-endian hosts
  (KeccakP-1600-inplace32BI.c:418-419) XORs the first word of the input into both words of a lane.
* **C71**, sha3/s390_cpacf.h: the description of the instructions KIMD and KLMD is not available here; what is assumed of them is in
  Spec/Cpacf.lean.  Output beyond a block is asked for by a KLMD with empty input and the same function code as the one which closed the
  input.  An instruction which looks at nothing but function code, parameter block and input then closes the input a second time
  (`C71_second`), and the second block is wrong (`C71_second_wrong`).  In FAEST this concerns the first challenge for lambda = 256 (168 bytes, blocks
  of 136): signatures would not be accepted elsewhere.  Whether the function code has a flag for this should be checked with the manual.
  Moreover (by reading, not reached by FAEST), `hash_squeeze` with more than a block beyond what is buffered (:141-146) computes `copy_size`, the
  part of `buflen` in whole blocks, but passes `buflen` on, and produces the remainder a second time from a further block.
* **C76**, randomness.c:102-115: a result 0 of `read` (end of file) is not an error for the loop over /dev/urandom; it then never stops (`C76_end_of_file`).
* **C72**, tools/rng.c: the limit of 2^16 bytes for a request and the interval of reseeding of SP 800-90A are not checked (`RNG_BAD_REQ_LEN` is never
  returned); from 2^31 bytes on the index `int i` overflows (`C72_too_long`), and so does `reseed_counter` after as many requests (`C72_counter`).
  randomness.c:17 declares `randombytes` as returning nothing, tools/rng.c defines it as returning `int`; strictly, the call is undefined.
* The OQS branch of hash_shake.h does not compile: `hash_init_prefix_x4` (:141-154) names its parameter `security_parameter` and uses
  `security_param`.  C73 is about the rest of the branch.
* `KeccakP1600_AddBytes` of opt64 on a big-endian host with offset 0 and 200 bytes reads and writes behind the state
  (`C69_whole_state`): `KeccakP1600_AddBytesInLane` tests for the length 0 on little-endian hosts only.  The sponge never adds that many.
* `KeccakP1600_ExtractBytes` of plain32 with offset 0 and a whole state of 200 bytes reads a 26th lane behind the state
  (`C62_whole_state`, `C70_whole_state`); by reading, `KeccakP1600_AddBytes` also does.  The sponge never asks for that many; C62 and C70 cover
  every other offset and length within the state.
* **C58**: the code declassifies (`faest_declassify`) the result of the one-way function in key generation only.  It also branches
  on this result in `sign_with_randomness` and `validate_keypair`, on the iv (`aes_increment_iv`) and uses bits of the third challenge as
  indices (`vector_open`), without declassifying them.  All of these are public (the first two are always true for
  valid keys, the others are parts of the signature).
* The properties with an ideal hash (C01, C05, C07, C08, C24, ...) hold for the bundled hash for message lengths in
  `GoodLength` (C46) by C47.

C40 is the statement about the interactive protocol: commitments are fixed before the challenges, and challenges are
counted.  Two facts connect it with signatures: C41/C16 (openings determine the commitments up to collisions) and
`C40_accepted_signature` (the checks of an accepted signature with challenges that are hashes).  C63 is the
statement in the random oracle model.

C63: SHAKE128 and SHAKE256 are one table of answers (which function, string of at most `L` bytes; answers of `M` bytes with
`M` at least what the verifier reads), and probabilities are parts of the finite set of tables.  An adversary is a function from
the answers so far to the next question, and a function from all answers to its output; there are no signing queries, and the public key is fixed
before the table.  Coins of the adversary can be fixed, as the bound holds for each choice.  The extractor (`keys` in
Spec/Rom.lean) sees the questions of the adversary and of the verifier.  AES (in `prg`, the one-way function) is the concrete cipher; nothing is
assumed about it.  What is missing for unforgeability: that the one-way function is hard to invert, and the simulation of signatures.

C64 is the part of the simulation which is about the code: if the strings and commitments of the closed leaves were
uniform, then for given openings and given third challenge the signature would be uniform in a set that can be described without the key.  It is C32
for whole signatures, with everything recomputed from the hidden leaves (challenges, masks, the matrix `V`).  Not proved: that these strings
and commitments look uniform (AES-CTR from a node that is not opened, SHAKE on it), and how the challenge is
programmed.

C30: the list of expressions (`CIntSites`) is meant to contain every size and index expression of signing and
verification; completeness of the list and of the ranges of loop variables was checked by reading.

C36: the meaning of the compiler's vector operators (word-wise operation, replication of scalars, shuffles) is part
of the model.
