# Formal model of PQCrypto-LWEKE (FrodoKEM) in Lean 4

## Layers

* `Verif/C/*` - a small semantics of the C subset that the code uses.  A C computation is `C α`: it
  diverges, or ends in an undefined behaviour (`UB`), or returns a value together with its *leakage
  trace* (index of each array access, each pointer offset formed, each branch outcome, extent of each
  block operation).  Array accesses are bounds checked, `int` arithmetic and shifts are range checked,
  vector loads and `uint16_t` accesses through cast pointers are alignment checked where the code
  relies on it.
* `Verif/Model/*` - the functions of /repo transcribed one by one in that monad, each with the file and
  lines it transcribes.
* `Verif/Spec/*` - independent specifications: bit strings, FIPS 202 (bit level), FIPS 197, SP 800-90A
  CTR_DRBG, FrodoKEM over Mathlib matrices `Matrix (Fin r) (Fin c) (ZMod q)`, schedules of threads.
* `Verif/Proof/*` - lemmas relating both.
* `Verif/Props/*` - the property theorems `C01...`, with examples that their hypotheses can be met.

## Judgements

* `Ret m P`: `m` terminates without undefined behaviour with a result satisfying `P` (total
  correctness).
* `Rel m₁ m₂ R`: both return normally, with *equal traces* and results related by `R`;
  `SameTrace` is the part about traces only (used for constant-time claims, which are 2-safety).

## How each property is modelled and proved

| property | model | proof |
|---|---|---|
| C01 | KEM model + Frodo spec | matrix algebra over ZMod q + C05-C07 + C22 |
| C02 | spec noise distribution | tail of one entry from its distribution under exponential weights modulo 512 or 1024, computed as the digits of one number in the kernel; union over entries; counting over bit strings; C02_rom by injections between sets of oracles |
| C03, C04 | `crypto_kem_dec` | symbolic execution to the spec, C25/C26, C20 |
| C05-C07 | KEM functions | composition of the per-function refinements |
| C08, C09 | both matrix implementations, endianness parameter | all refine one spec; counterexample on big endian |
| C10, C11, C15 | KEM functions with arbitrary initial buffers | consequence of `Ret`: the result is a function of the inputs |
| C12, C47 | KEM functions return their final stack frame | `Ret` with frame postcondition |
| C13, C14 | trace of the monad | relational logic, loop invariants |
| C16 | RNG as an arbitrary function with return code | negation with witness |
| C17-C20 | `frodo_pack`, `frodo_unpack` | loop invariant on bit positions |
| C21-C22 | `frodo_key_encode/decode` | arithmetic on each group of 8 |
| C23-C24 | `frodo_sample_n` | loop invariant; kernel evaluation of the full table of 2^16 words |
| C25-C27 | `ct_verify`, `ct_select`, `clear_bytes` | loop invariant, case analysis |
| C28-C31 | matrix functions | loop invariants, sums in `BitVec 16` |
| C32-C36 | fips202.c, fips202x4.c, keccak4x | bit-level spec, round by round; induction over blocks |
| C37-C39, C46 | aes_c.c, aes_ni.c, aes.c | induction over rounds and blocks; S-box by full table |
| C40 | small-step interleaving model of the static `state` pointer | invariant over serial schedules; explicit bad schedule |
| C49 | the EVP calls, with arbitrary failures | relation "aborted or equal", closed under sequencing and loops |
| C41-C43 | random.c over an OS oracle | loop invariant / divergence |
| C44, C48 | tests/rng.c, tests/PQCtestKAT_kem*.c | invariant over histories |
| C50 | tests/test_kem.c | composition of C05-C07, loop invariant |
| C51-C53 | the KAT program on an arbitrary file | loop invariants on the unread rest of the file; a relation that gives each file its verdict |
| C54 | python3/nist_kat.py | kernel evaluation of AES-256 in CTR_DRBG, then C45 and C48 |
| C55 | all casts to more strictly aligned pointer types | if: C11; only if: conditions that hold whenever a computation returns |
| C56 | the functions of keccak4x that the library does not call | loop invariants on the bytes of the four states; only if: partial correctness of the loops |
| C57 | overlapping arguments of the KEM functions | exact effect on one memory, then algebra of stores and loads |
| C58 | tests/ds_benchmark.h, `kem_bench`, `main` | Welford recurrence by algebra over the reals, loop invariants, divergence |
| C59 | random.c in several threads | invariant of an interleaving machine; a measure for progress; explicit schedules |
| C60 | Makefile, config.h, VisualStudio | case analysis of the option strings; finite check of the symbols for each of the finitely many configurations |
| C61 | traces with the portable AES | converse of C13 and C14: compatible traces reveal the indices of the S-box, the key schedule is inverted |
| C62 | `crypto_kem_dec`, twice | C03; explicit collisions; counting of accepted ciphertexts |
| C63 | the encryption in kem.c | averages over finite sets; hybrid games; a uniform mask hides the message |
| C64 | the transform in kem.c | one bijection for decapsulation, a simulation that is right until something bad happens, union bound by induction on the attacker |
| C65 | KeccakP-1600-unrolling.macros, all variants | invariant of the rounds over two sets of variables; case analysis of the configurations |
| C66 | brg_endian.h | case analysis of the macros |
| C67 | recipes of the Makefile, c.yml | invariant of an interleaving machine, explicit schedules; finite check of the jobs |
| C68 | scopes and calls of every function with arrays | bound by induction over runs; kernel evaluation of the bounds for all builds |
| C69 | AES128/256 ECB, both back ends; genA with AES | the inverse cipher of FIPS 197, step by step; linearity of MixColumns; finiteness |
| C70 | KeccakF1600_StatePermute, PermuteAll_24rounds/_12rounds | injectivity of each step of the round, finiteness |
| C71 | every access of the library to an array, with the type of the lvalue | C11 6.5p6-7: effective types byte by byte; the set of violations of a list of accesses |
| C93 | text of both implementations with A from AES128 and of SHAKE | refinement of the model, and the labels of C92 |
| C92 | text of the whole KEM and of SHAKE | labels for secret and public data on the syntax trees, checked in the kernel; soundness by induction on expressions, statements, loops and depth of calls |
| C91 | text of the KEM with A from AES128 and of randombytes on Windows | C90 in the simulation of C84 |
| C90 | text of random.c, kem.c and aes.c with the definitions of the projects for Windows | parsing in the kernel, evaluation |
| C89 | text of the KEM, SHAKE, the generator of the known answer tests and AES together | C79 and C88 |
| C88 | text of tests/rng.c and tests/rng.h with the text of AES | evaluation, invariants of the loops, C80; histories by induction |
| C87 | text of the reference products with A and of AES, linked | evaluation up to the call of `memcpy`, with the results of C85 for the part before it |
| C86 | text of the KEM with the reference products with A from AES128; SHAKE, AES128 and `randombytes` outside | C85 and the proofs of C75 with other products |
| C85 | text of frodo_macrify_reference.c with AES128 | refinement of the model; C28, C29 |
| C84 | text of the KEM, the products with A, AES, SHAKE (and `randombytes`), linked | C83 and the proofs of C75, C77, C79, C82 with other products |
| C83 | text of the products with A from AES128 in frodo_macrify.c, linked with the text of aes.c and aes_c.c | refinement of the model with loop rules on memory; C28, C29, C80 |
| C82 | text of the KEM, SHAKE and `randombytes`, linked; the operating system outside | C77, C79 with the `randombytes` of C81 |
| C81 | text of random.c | refinement of the model with a relation between its loops and those of the text; C41-C43 |
| C80 | text of aes_c.c and aes.c, linked | refinement of the model function by function, the pointer `state` as a variable in memory; C39, C46 |
| C79 | three runs of the text of the KEM, of either implementation | C77 for each run; for the specification that decapsulation inverts encapsulation within the noise bound, and what it gives for a rejected ciphertext |
| C78 | text of frodo_mul_add_as_plus_e and frodo_mul_add_sa_plus_e in frodo_macrify_reference.c and frodo_macrify.c, with fips202.c | refinement of the model loop by loop, the arrays of local words as invariants; C28, C29, C76 |
| C77 | text of kem.c with noise.c, util.c, frodo_macrify_reference.c or frodo_macrify.c, and fips202.c, linked | C75 with its hypothesis on SHAKE replaced by C76, for a sponge that needs its table of constants in memory |
| C76 | text of fips202.c | symbolic execution of the permutation over 25 lanes; loop invariants for absorbing and squeezing; C32, C33 |
| C75 | text of kem.c with noise.c, util.c, frodo_macrify_reference.c or frodo_macrify.c, linked | frame rules for a memory of which only the blocks below a bound are known; refinement of the model of kem.c call by call; C05-C07 |
| C74 | text of util.c, noise.c, frodo_macrify.c, frodo_macrify_reference.c, frodo*.c and their headers | preprocessor, parser and interpreter of C; parsing by evaluation in the kernel; refinement of the model statement by statement, then C17-C30 |
| C73 | CDF_TABLE of frodo640.c, frodo976.c, frodo1344.c and frodo_sample_n | Gaussian measure of Mathlib, rounding, Rényi divergence, rows of Table 3 of the specification |
| C72 | shake128, shake256, keccak_absorb and kem.c with the local arrays of one call to `shake` among the results | the message, the output of SHAKE (FIPS 202), Algorithms 12-14 |
| C45 | python3/frodokem.py transcribed | equality with the spec; exact characterisation of the difference |

## Status of every claim

"Refutation" in the notes means that the property in properties.jsonl is false of the code, and the
theorem proves that it is.

| property | title | status | theorems (in `Frodo.Props`) | note |
|---|---|---|---|---|
| C01 | Honest round trip | proved | `C01_round_trip`, `C01_decrypts_iff` | keypair, enc and dec may even come from three different builds; the noise bound is a hypothesis on the samples (its probability is C02) |
| C02 | Decapsulation failure is negligible | proved | `C02_640`, `C02_976`, `C02_1344`, `C02_all`, `C02_noise`, `C02_transmit`, `C02_kem`, `C02_rom`, `C02_failures_exist` | k = 138, 199, 252; counts noise strings; that SHAKE behaves like a random function is outside the model (C02_rom: SHAKE replaced by a uniformly chosen function, with all queries as in the scheme) |
| C03 | Implicit rejection is exact | proved | `C03_implicit_rejection` |  |
| C04 | At most one accepted ciphertext per message | proved | `C04_non_malleable` |  |
| C05 | Key generation conforms to the specification | proved | `C05_keypair` | all impls, generators, AES back ends, byte orders; three parameter sets |
| C06 | Encapsulation conforms to the specification | proved | `C06_enc` | little endian, and big endian for the reference code; see C09 |
| C07 | Decapsulation conforms to the specification | proved | `C07_dec` | little endian, and big endian for the reference code; see C09; sk at an even address, see C11_dec_odd_address |
| C08 | All build variants agree | proved | `C08_keypair`, `C08_enc`, `C08_dec` |  |
| C09 | Endianness independence | proved | `C08_keypair`, `C08_enc`, `C08_dec`, `C09_enc_big_endian`, `C09_dec_big_endian`, `C09_round_trip_big_endian`, `C09_as_plus_e`, `C09_sa_plus_e_reference`, `C09_sa_plus_e_big_endian`, `C09_counterexample` | true for the reference code and for key generation, refuted for optimised enc and dec on big endian: they use A with swapped bytes |
| C10 | Results do not depend on uninitialised memory | proved | `C10_keypair`, `C10_enc`, `C10_dec` |  |
| C11 | No undefined behaviour in the KEM | proved | `C11_keypair`, `C11_enc`, `C11_dec`, `C11_dec_odd_address` | dec casts sk to uint16_t*, so it needs an even address: for an odd one undefined behaviour is proved |
| C12 | Secret buffers are wiped | proved | `C12_keypair`, `C12_enc`, `C12_dec` | that the compiler keeps the stores is outside the model; buffers not marked secret are the subject of C47 |
| C13 | Decapsulation is constant time | proved | `C13_dec_trace`, `C13_no_rejection_oracle` |  |
| C14 | Key generation and encapsulation are constant time | proved | `C14_keypair_trace`, `C14_enc_trace` | randombytes itself is required not to leak |
| C15 | Sizes and layout of keys and ciphertexts | proved | `C15_sizes`, `C15_keypair`, `C15_enc`, `C15_dec` |  |
| C16 | Randomness failures are reported | proved | `C16_keypair_ignores_failure`, `C16_enc_ignores_failure` | the statement is false of the code; the refutation is proved for every build |
| C17 | Packing writes the documented bit string | proved | `C17_pack`, `C17_pack_high_bits` | every length and 1..16 bits |
| C18 | Unpacking reads the documented bit string | proved | `C18_unpack` | every length and 1..16 bits |
| C19 | Unpack inverts pack | proved | `C19_unpack_pack` |  |
| C20 | Pack inverts unpack | proved | `C20_pack_unpack` |  |
| C21 | Message encoding and decoding are inverse | proved | `C21_decode_encode`, `C21_encode`, `C21_decode` |  |
| C22 | Exact error tolerance of decoding | proved | `C22_tolerance` |  |
| C23 | Sampling implements the inverse CDF | proved | `C23_sample`, `C23_wraps` | n below 2^32, the range of the counter; from there on the function is proved not to return (C23_wraps). |
| C24 | Exact noise distribution | proved | `C24_noise640`, `C24_noise976`, `C24_noise1344`, `C24_symmetric`, `C24_bound` |  |
| C25 | Constant-time comparison is exact | proved | `C25_ct_verify` |  |
| C26 | Constant-time selection is exact | proved | `C26_ct_select` |  |
| C27 | Clearing clears exactly | proved | `C27_clear_bytes` |  |
| C28 | A*s+e is computed correctly | proved | `C28_as_plus_e`, `C28_as_plus_e_mod_q` | all impls, both generators, both AES back ends, both byte orders |
| C29 | s*A+e is computed correctly | proved | `C29_sa_plus_e`, `C29_sa_plus_e_mod_q` | little endian, and big endian for the reference code; see C09 for optimised code on big endian |
| C30 | Small matrix operations are correct | proved | `C30_mul_bs`, `C30_mul_add_sb_plus_e`, `C30_add`, `C30_sub` |  |
| C31 | No signed overflow in accumulations | proved | `C31_no_overflow` |  |
| C32 | SHAKE conforms to FIPS 202 | proved | `C32_shake128`, `C32_shake256` |  |
| C33 | The permutation is Keccak-f[1600] | proved | `C33_keccakf`, `C33_keccakf_4x` |  |
| C34 | Extendable output is prefix consistent | proved | `C34_prefix128`, `C34_prefix256` |  |
| C35 | Incremental and one-shot SHAKE agree | proved | `C35_incremental128`, `C35_incremental256`, `C35_agrees128`, `C35_agrees256`, `C35_truncates` | Messages below 2^32 bytes; C35_truncates shows that longer ones are cut. |
| C36 | Four-way SHAKE is four SHAKEs | proved | `C36_shake128_4x`, `C36_same_as_shake128`, `C36_incremental`, `C36_squeezeblocks`, `C36_misaligned`, `C14_shake128_4x_trace` | vector intrinsics are specified after the Intel manual; alignment of the two shuffle tables is a hypothesis |
| C37 | Standalone AES conforms to FIPS 197 | proved | `C37_aes128`, `C37_aes256`, `C37_inverse` |  |
| C38 | AES-NI code equals the portable code | proved | `C38_schedule128`, `C38_schedule256`, `C38_enc128`, `C38_enc256`, `C38_misaligned` | intrinsics are specified after the Intel manual |
| C39 | ECB over many blocks, also in place | proved | `C39_ecb128`, `C39_ecb128_inplace`, `C39_ecb256`, `C39_assert` |  |
| C40 | Concurrent calls do not interfere | proved | `C40_serial`, `C40_sequential`, `C40_ecb`, `C40_private`, `C40_race`, `C40_interference`, `C40_false` | the statement is false of the portable AES; the refutation, the race and the true part are proved; sequentially consistent interleaving of single accesses |
| C41 | randombytes fills the buffer | proved | `C41_fills`, `C41_no_ub`, `C41_consecutive`, `C41_keypair`, `C41_enc` | POSIX read and open are a parameter of the model; conversion to int as on two's complement compilers |
| C42 | randombytes honours every length | proved | `C42_every_length`, `C42_two_gib`, `C42_windows` | the statement is false of the code from 2 GiB on; the refutation and the exact behaviour for every length are proved |
| C43 | randombytes returns iff the OS keeps delivering | proved | `C43_returns_iff`, `C43_delivers`, `C43_no_device`, `C43_end_of_file` |  |
| C44 | The KAT generator is CTR_DRBG | proved | `C44_counter`, `C44_update`, `C44_init`, `C44_generate`, `C44_ratchet`, `C44_history`, `C44_schedule_erased`, `C44_overflow` | requests below 2^31 bytes; C44_overflow proves undefined behaviour for larger ones |
| C45 | C and Python agree | proved | `C45_python_keygen`, `C45_python_encaps`, `C45_python_decaps`, `C45_keygen`, `C45_encaps`, `C45_decoders`, `C45_decaps`, `C45_decoders_differ`, `C45_python_decrypts_iff`, `C45_interop` | Python libraries (hashes, AES, bitstring) by the standards they implement; C in every good build |
| C46 | Key schedules are erased | proved | `C46_free128`, `C46_free256`, `C46_as_plus_e`, `C46_sa_plus_e` | that the compiler keeps the memset is outside the model |
| C47 | What stays on the stack | proved | `C47_enc_leftovers`, `C47_dec_leftovers` |  |
| C48 | Known answers are a function of the seed | proved | `C48_kat` | every good build; the comparison with the expected files is C53 |
| C49 | Failures of OpenSSL abort and never give a wrong result | proved | `C49_keypair`, `C49_enc`, `C49_dec`, `C49_correct`, `C49_aborts` | OpenSSL is modelled by its documented behaviour with arbitrary failures |
| C50 | The self test tests what it claims | proved | `C50_tampered`, `C50_kem_test`, `C50_passes`, `C50_corrected`, `C50_misaligned` | the printing is not modelled; the benchmark is C58 |
| C51 | FindMarker finds the first occurrence | proved | `C51_FindMarker`, `C51_long` |  |
| C52 | ReadHex and fprintBstr | proved | `C52_ReadHex`, `C52_zero`, `C52_fprintBstr`, `C52_roundtrip` |  |
| C53 | The known answer program decides whether the file is right | proved | `C53_unique`, `C53_name`, `C53_main`, `C53_open`, `C53_no_record`, `C53_records`, `C53_accepts` | fopen is an arbitrary function from names to contents; messages are not modelled |
| C54 | The Python known answers are those of C | proved | `C54_randombytes`, `C54_other_length`, `C54_second_length`, `C54_run`, `C54_agree` | the CTR_DRBG outputs are evaluated in the kernel from the AES-256 specification |
| C55 | The alignment that the library needs, exactly | proved | `C55_keypair`, `C55_enc`, `C55_dec`, `C55_declared_insufficient`, `C55_keypair_uint32` | alignment only; for the types see C71 |
| C56 | The interface of four parallel Keccak states | proved | `C56_initializeAll`, `C56_addByte`, `C56_addBytes`, `C56_overwriteBytes`, `C56_overwriteWithZeroes`, `C56_extractBytes`, `C56_extractAndAddBytes`, `C56_bytes_safe_iff`, `C56_extractAndAddBytes_safe_iff`, `C56_addLanesAll`, `C56_overwriteLanesAll`, `C56_extractLanesAll`, `C56_extractAndAddLanesAll`, `C56_lanes_safe_iff`, `C56_extractAndAddLanesAll_safe_iff`, `C56_permute12`, `C56_keccakPbits_24`, `C56_fastLoop24`, `C56_fastLoop12`, `C56_fastLoop24_safe_iff`, `C56_fastLoop12_safe_iff`, `C56_interleaved`, `C56_fastLoop_step0`, `C56_shake128`, `C56_shake256`, `C56_overlap`, `C56_overlap_safe_iff`, `C56_overlap_right_iff`, `C56_extractAndAddLanesAll_inPlace` | input and output of ExtractAndAddLanesAll are disjoint or equal; offsets and counts without wrap-around of unsigned int |
| C57 | Overlapping arguments of the KEM functions | proved | `C57_dec`, `C57_dec_bytes`, `C57_enc`, `C57_enc_apart`, `C57_enc_apart_bytes`, `C57_enc_iff`, `C57_enc_in_place`, `C57_keypair`, `C57_keypair_overlap`, `C57_keypair_safe_iff`, `C57_keypair_bytes`, `C57_keypair_apart`, `C57_keypair_apart_bytes`, `C57_keypair_leak`, `C57_round_trip` | all buffers of the caller in one array; the local arrays are separate objects |
| C58 | The benchmark measures what it reports | proved | `C58_iterations`, `C58_two`, `C58_low`, `C58_low_mod`, `C58_high`, `C58_full_wrap`, `C58_long32`, `C58_long64`, `C58_windows`, `C58_windows_elapsed`, `C58_windows_overflow`, `C58_arm`, `C58_arm_elapsed`, `C58_arm_same`, `C58_seconds`, `C58_seconds_zero`, `C58_ends`, `C58_endless`, `C58_set_back`, `C58_kem_bench`, `C58_kem_bench_success`, `C58_main_nobench`, `C58_main_bench` | numbers of type double are real numbers without rounding; the readings of the clock and of the counter are parameters; what the Windows API and clock_gettime answer is taken from their documentation |
| C59 | Concurrent calls of randombytes | proved | `C59_filled`, `C59_no_race`, `C59_race`, `C59_descriptors`, `C59_leak`, `C59_leak_unbounded`, `C59_blocked`, `C59_wait_free`, `C59_alone` | sequentially consistent interleaving of single accesses to lock and of system calls; the descriptors and the answers of the operating system are arbitrary |
| C60 | Every build option gives the implementation it names | proved | `C60_accepts`, `C60_selects`, `C60_instructions`, `C60_byte_order`, `C60_computes`, `C60_kat`, `C60_links`, `C60_symbols`, `C60_config_accepts`, `C60_config_selects`, `C60_one_level`, `C60_visual_studio`, `C60_stale`, `C60_clean`, `C60_stale_wrong` | the options are arbitrary strings, the compiler is given by the macros that it defines; objects are modelled by the external symbols that they define and use |
| C61 | The trace with the portable AES reveals exactly the seed of A | proved | `C61_schedule`, `C61_dec`, `C61_enc`, `C61_keypair`, `C61_valgrind_dec` | leakage model of C13 and C14; nothing is said about builds with OpenSSL, whose leakage is unknown |
| C62 | What the shared secret binds | proved | `C62_ct`, `C62_same_ct`, `C62_accepted`, `C62_pk`, `C62_rejected`, `C62_accepted_count`, `C62_pk_unbound`, `C62_honest` | collisions are given explicitly by the runs; that SHAKE has no known collision is outside the model |
| C63 | Breaking the encryption breaks LWE | proved | `C63_cpa`, `C63_seed`, `C63_keygen`, `C63_encrypt`, `C63_decrypt` | that LWE is hard and that SHAKE expands seeds well is outside the model; attackers have no running time, the distinguishers are explicit |
| C64 | Chosen ciphertext security in the random oracle model | proved | `C64_cca`, `C64_lwe`, `C64_strings`, `C64_encaps`, `C64_decaps`, `C64_code` | classical random oracle model for the two functions, one key; that SHAKE behaves like this is outside the model |
| C65 | All variants of unrolling compute Keccak; only one compiles | proved | `C65_rounds24`, `C65_rounds12`, `C65_roundsN`, `C65_text`, `C65_conf` | the lanes that a macro of a round leaves in its source are not kept, nothing reads them; a configuration is judged only by the counter of the loops |
| C66 | The byte order found by brg_endian.h | proved | `C66_found`, `C66_conflict`, `C66_silent`, `C66_arm`, `C66_check` | macros that are compared have values; a macro with an empty body is outside the model |
| C67 | Calls of make, with one job or several | proved | `C67_all`, `C67_tests`, `C67_lib`, `C67_kats`, `C67_parallel_tests`, `C67_parallel_kats`, `C67_parallel_fails`, `C67_parallel_clean`, `C67_parallel_loses`, `C67_parallel_fixed`, `C67_ci` | commands are atomic; compilation of the objects succeeds and is left out |
| C68 | How much stack the arrays take | proved | `C68_data_independent`, `C68_fast`, `C68_fast_reached`, `C68_reference`, `C68_programs` | arrays only: no scalars, no padding for alignment, no registers saved by the compiler; functions of other libraries are left out |
| C69 | AES is a permutation; the blocks of A do not repeat | proved | `C69_decrypt128`, `C69_decrypt256`, `C69_injective`, `C69_permutation`, `C69_words`, `C69_blocks` |  |
| C70 | Keccak is a permutation of the states | proved | `C70_keccakf`, `C70_times4`, `C70_squeeze` | of the four states at once, alignment of the two shuffle tables is a hypothesis |
| C71 | Accesses through types that C does not allow | proved | `C71_keypair`, `C71_enc`, `C71_dec`, `C71_clean`, `C71_dec_declared`, `C71_dec_copy`, `C71_session`, `C71_dec_read`, `C71_kem_test` | arrays only; buffers of the caller do not overlap; vector types as gcc and clang treat them |
| C72 | What SHAKE leaves on the stack | proved | `C72_same`, `C72_message`, `C72_output`, `C72_state`, `C72_same_keypair`, `C72_same_enc`, `C72_same_dec`, `C72_keypair`, `C72_enc`, `C72_dec` | contents of the arrays when the function that owns them returns; what later calls happen to overwrite is not modelled |
| C73 | The noise is close to a rounded Gaussian | proved | `C73_renyi`, `C73_total`, `C73_events`, `C73_moments` | the Gaussian is Mathlib's gaussianReal; words are counted, not drawn |
| C74 | The source text of the small functions computes what the specification says | proved | `C74_parse`, `C74_units`, `C74_pack`, `C74_unpack`, `C74_ct_verify`, `C74_ct_select`, `C74_clear_bytes`, `C74_sample`, `C74_mul_bs`, `C74_mul_add_sb_plus_e`, `C74_add`, `C74_sub`, `C74_key_encode`, `C74_key_decode`, `C74_roundtrip`, `C74_ct_verify_trace`, `C74_ct_select_trace`, `C74_sample_trace`, `C74_mul_bs_trace`, `C74_key_decode_trace` | for the functions listed, with the semantics of Verif/C/Sem.lean; values for all, traces for five |
| C75 | The source text of the KEM computes the specified algorithms | proved | `C75_keypair`, `C75_enc`, `C75_dec`, `C74_parse`, `C74_units`, `C78_parse` | reference implementation and optimised implementation without intrinsics, with SHAKE128, on a little-endian machine; shake128, shake256 and randombytes are outside of the text and enter as hypotheses |
| C76 | The source text of fips202.c computes SHAKE128 and SHAKE256 | proved | `C76_parse`, `C76_permute`, `C76_shake128`, `C76_shake256` | little-endian machine, lengths below 2^31 |
| C77 | The source text of the KEM together with that of SHAKE computes the specified algorithms | proved | `C77_keypair`, `C77_enc`, `C77_dec`, `C76_parse`, `C74_parse`, `C78_parse` | reference implementation and optimised implementation without intrinsics, with SHAKE128, on a little-endian machine; only randombytes is outside of the text and enters as a hypothesis |
| C78 | The source text of the products with A computes them modulo 2^16 | proved | `C78_parse`, `C78_as`, `C78_sa` | reference implementation and optimised implementation without intrinsics, with SHAKE128, on a little-endian machine |
| C79 | Programs given by their source text agree on the shared secret | proved | `C79_round_trip`, `C79_reject`, `C79_agree` | reference implementation and optimised implementation without intrinsics, with SHAKE128, on little-endian machines; randombytes as given |
| C80 | The source text of AES computes AES in ECB mode | proved | `C80_parse`, `C80_ecb128`, `C80_ecb256`, `C80_free128`, `C80_free256`, `C80_assert128`, `C80_assert256` | standalone implementation without AES-NI; plaintext and ciphertext in different blocks |
| C81 | The source text of randombytes delivers the bytes of the device | proved | `C81_parse`, `C81_start`, `C81_fills`, `C81_two_gib` | Unix branch; the system calls open and read as POSIX describes them |
| C82 | The program text down to the system calls implements the KEM | proved | `C82_keypair`, `C82_enc`, `C82_round_trip` | reference implementation and optimised implementation without intrinsics, with SHAKE128, on little-endian Unix machines; only the system calls open and read are outside the text |
| C83 | The source text of the products with A from AES128 computes them | proved | `C83_parse`, `C83_as`, `C83_sa` | optimised implementation without intrinsics, AES128 in C, little-endian machines |
| C84 | The source text of the KEM with AES128 implements the specified algorithms | proved | `C84_keypair`, `C84_enc`, `C84_dec`, `C84_round_trip`, `C84_reject`, `C84_os_keypair`, `C84_os_enc` | optimised implementation without intrinsics with AES128 in C, on little-endian machines |
| C85 | The source text of the reference products with A from AES128 computes them | proved | `C85_parse`, `C85_as`, `C85_sa` | reference implementation on little-endian machines, for any AES128 that also works in place |
| C86 | The text of the KEM with the reference products with A from AES128 implements the KEM | proved | `C86_keypair`, `C86_enc`, `C86_dec` | reference implementation with AES128 on little-endian machines; SHAKE, AES128 (which must work in place) and randombytes are hypotheses |
| C87 | The reference implementation with the AES in C calls memcpy with overlapping objects | proved | `C87_overlap`, `C87_as`, `C87_sa` | a finding: the reference implementation with AES128 in C is undefined in C11 because of memcpy onto the same block |
| C88 | The source text of the generator of the known answer tests is CTR_DRBG | proved | `C88_parse`, `C88_update`, `C88_init`, `C88_generate`, `C88_history` | with the AES in C, also given by its text; requests below 2^31 bytes |
| C89 | The source text of the KEM with that of the generator computes the known answers | proved | `C89_kat`, `C89_kat_aes` | both implementations with SHAKE128, and the optimised one with AES128, little-endian; the state of the generator between the two calls is that of C88 |
| C90 | The source text of randombytes on Windows reports what the system generator reports | proved | `C90_parse`, `C90_bytes`, `C90_four_gib` | Windows branch; BCryptGenRandom may succeed or fail in any way |
| C91 | On Windows the source text of the KEM reports success when the system generator fails | proved | `C91_keypair`, `C91_enc`, `C91_keypair_stack` | a finding: kem.c does not look at the result of randombytes; optimised implementation without intrinsics with AES128 in C, as in the Generic projects of /repo/VisualStudio |
| C92 | What the source text of the KEM does in memory does not depend on secrets | proved | `C92_functions`, `C92_verify`, `C92_select`, `C92_shake`, `C92_keypair`, `C92_enc`, `C92_dec`, `C92_aes`, `C92_aes_ref` | on the text, both implementations with SHAKE128; with AES128 given that the AES functions have no secret indices; random generator outside |
| C93 | The text of the KEM with A from AES128 and the text of SHAKE together compute the KEM, with traces free of secrets | proved | `C93_keypair`, `C93_enc`, `C93_dec`, `C93_trace_keypair`, `C93_trace_enc`, `C93_trace_dec`, `C93_opt_keypair`, `C93_opt_enc`, `C93_opt_dec`, `C93_opt_trace_keypair`, `C93_opt_trace_enc`, `C93_opt_trace_dec`, `C93_round_trip`, `C93_agree`, `C93_reject` | on the text of the KEM and of SHAKE; the functions for AES128 are given: they work in place for the reference implementation and, for the traces, have no secret indices |

## The source text itself

For the functions of C74 the model is not trusted to be a faithful transcription.  Their text is in `Verif/Text/Util.lean` and
`Verif/Text/Sources.lean`, copied character by character from /repo (without carriage returns), `Verif/C/Lex.lean` and
`Verif/C/Parse.lean` preprocess and parse it inside the logic, and `Verif/C/Sem.lean` gives the syntax trees a meaning.  What
is trusted for C74 is this semantics of C, not the hand-written model.

* `Refines tr m n R`: if the model `m` returns, then the text `n` returns a result related by `R` (and, if `tr`, with the same
  trace).  Nothing is claimed where the model has undefined behaviour; that it has none is proved by the `Ret` theorems of the
  other properties, and C74 states the combination.
* The preprocessor is run with the macros that the compiler and the Makefile define: `NIX`, `__GNUC__`, `_AMD64_`,
  `_REFERENCE_` or `_FAST_GENERIC_`, `_SHAKE128_FOR_A_` or `_AES128_FOR_A_`.  Headers of the system and of `../common` are not
  read: what they declare is not needed to parse, except for the type names of `stdint.h`.
* Attributes of alignment are dropped.  Operands are evaluated from left to right (none of the functions depends on it).
  `?:` does not convert to the common type (none of the functions uses it).  Types are those of LP64.
* Linking (`Verif/C/Link.lean`): a call finds the function in the files of the program, up to a given depth of nesting; `memset`
  and `memcpy` are built in; the rest is outside.  For C77 what is outside is `randombytes` only; for C75 it is `shake128`, `shake256` (assumed to do what the
  model of /repo/src/sha3/fips202.c does, `Sponge`) and `randombytes` (`Rand`).
* In C75 the arguments are blocks of exactly the documented sizes, distinct from each other and from the table of the
  distribution.  A local array becomes a new block that stays in memory when the function returns: this is how C75 can say what
  is left in it.  Alignment is not part of this semantics.
* The text of /repo/src/sha3/fips202.c is in `Verif/Text/Fips.lean`, that of the files of AES in `Verif/Text/Aes.lean`.
  A `static` variable of a function (the S-box, the round constants, the state of `aes_c.c`) lives in a block of memory that the
  linker places; which contents it has at the start is a hypothesis (`File.Loaded`, `AesPlaced`).  `Verif/C/Matrix.lean` reads
  `typedef T t[h][w]; static t* x;` and an access `(*x)[a][b]` as `x[w*a+b]`.  `memcpy` between overlapping ranges is undefined
  for the interpreter, so C80 is about calls of AES with different blocks; C87 says that a call with `plaintext == ciphertext` has no
  defined behaviour.  The model takes the copy of a block onto itself for the identity, and C39 covers it; C85 and C86 are about any AES that
  works in place (`AesInPlace`).
* The text of /repo/src/random/random.c is in `Verif/Text/Random.lean`.  `Verif/C/DoLoop.lean` reads `do {b} while (c);` as
  `{b} while (c) {b}` (the bodies contain no `break` and no `continue`) and a string literal as a name for its block of memory.
  The static variable `lock` and the string are in blocks that the linker places (`RandomPlaced`); one more block, which no text
  can name, holds what the operating system has delivered so far.  `Kernel` says what `open` and `read` do: any sequence of results
  and of short or failing reads.  In C82 (`withRandom`) these three blocks are made anew for each call of `randombytes`, starting
  from a given state; each function of the KEM calls it at most once.  C81 says which state a call leaves.
* In C83 and C84 (`withAes` in `Verif/Proof/TextWithAes.lean`) a call of a function of aes.c sees the blocks that its arguments point to as
  arrays of bytes, and they get their element type back when it returns; the tables and the static pointer of aes_c.c are in three
  blocks made anew for each call.  The pointer is written before it is read in each call, so that what is left in it from an
  earlier one does not matter.  `assert` stops the program if its argument is 0.
* The text of /repo/tests/rng.c and rng.h is in `Verif/Text/Rng.lean`, in the build without OpenSSL.  `Verif/C/Struct.lean` reads it: the members of
  the variable `DRBG_ctx` are variables of their own, with the name `DRBG_ctx.Key` and so on, that the linker places in three
  blocks (so nothing is said about their layout as one structure; the text never uses it); `(void)x;` is dropped; `if (p)` and
  `p != NULL` for a pointer `p` call a test that the context provides, and `NULL` is a pointer to a block set apart for it
  (`RngCtx`).  In C89 (`withDrbg`) the blocks of the generator are made anew for each call of `randombytes`, from a given state;
  C88_init and C88_generate say which state a call leaves.
* `Verif/Text/Windows.lean` reads the same texts with the definitions of /repo/VisualStudio/frodoKEM-640.vcxproj:187.  `unsigned long`
  without a second `long` has 32 bits there (`llp64`), `__declspec(align(N))` is left out (`dropDecl`), and the macros of bcrypt.h that
  random.c uses are stated in `windowsFlags`.  `CNG` says what `BCryptGenRandom` may do: deliver a status of either sign and leave any
  bytes in the buffer, which may depend on what was in it, and change nothing else.
* For C92 `Verif/C/Taint.lean` labels expressions as public or secret and refuses secret conditions, indices, lengths and offsets.
  `Verif/Text/Claims.lean` lists the secret variables of each function, and the kernel checks the parsed text against the list.  Neither is
  trusted: `Verif/Proof/TaintExec.lean` proves that two runs of a text that passes, in memories of the same shape, have the same trace.
  This does not use the model.  The contents of memory always count as secret, so the AES in C, which looks up bytes of the key
  schedule in a table, does not pass; C92 assumes AES functions without such look-ups.
* A block of memory has one element type; it may be read through a pointer to another type, byte by byte in the byte order
  given.  Pointers are compared with nothing and never cast to integers.

## Trusted base

* Lean 4.33.0's kernel.  No `sorry`, no `native_decide`, no `bv_decide`, no axiom of our own.
* Axioms: of the 470 theorems `Frodo.Props.C*`, all depend on exactly `propext`,
  `Classical.choice`, `Quot.sound`, except: only `propext` and `Quot.sound`:
  `C13_code_trace`, `C13_matrix_trace`, `C14_aes_leaks_key`, `C24_bound`, `C36_misaligned`, `C37_inverse`, `C38_misaligned`, `C42_windows`, `C46_free128`, `C46_free256`, `C52_fprintBstr`, `C56_initializeAll`, `C56_keccakPbits_24`, `C58_high`, `C58_long64`, `C58_low`, `C58_low_mod`, `C58_windows`, `C58_windows_elapsed`, `C59_blocked`, `C59_leak`, `C59_leak_unbounded`, `C59_no_race`, `C59_race`, `C60_config_accepts`, `C60_config_selects`, `C65_conf`, `C65_text`, `C66_arm`, `C66_check`, `C66_conflict`, `C66_found`, `C66_silent`, `C67_lib`, `C67_parallel_fails`, `C67_tests`, `C68_data_independent`, `C68_fast`, `C68_fast_reached`, `C68_programs`, `C81_start`; no axiom at all: `C15_sizes`, `C67_all`, `C74_units`.  (Checked with `Lean.collectAxioms` on every one.)
* The definitions in `Verif/Spec` and the statements in `Verif/Props`.
* The reading of the source into `Verif/Model`, which was done by hand (except where C74 compares it with the text), and the
  C semantics in `Verif/C/Monad.lean` and `Verif/C/Sem.lean`.
* The specification of the compiler intrinsics (SSE2, AES-NI, AVX2) after the Intel manual, in
  `Verif/Model/Aes.lean`, `Verif/Model/Keccak4x.lean`, `Verif/Model/MatrixA.lean`.
* In builds with OpenSSL, that its three EVP functions do what they document when they return 1, and
  that what they leak is a function of key and data (`Verif/Model/Ossl.lean`).

## What is modelled

| file in /repo | modelled in | not modelled |
|---|---|---|
| src/util.c, src/noise.c, src/kem.c, src/frodo_macrify*.c, src/sha3/fips202.c, src/frodo*.c, src/api_*.h, src/config.h, src/aes/aes_c.c, src/aes/aes.c, src/random/random.c, tests/rng.c, tests/rng.h | text in Text/Util, Text/Sources, Text/Fips, Text/Aes, Text/Random, Text/Rng, parsed and interpreted (C74-C93) | builds with intrinsics as text; the KEM with AES as text; big-endian machines |
| src/kem.c | Model/Kem; a second time with overlapping arguments in Model/KemAlias | - |
| src/frodo640.c, frodo976.c, frodo1344.c, api_*.h | Model/Params | - |
| src/frodo_macrify_reference.c | Model/Matrix, Model/MatrixA; the arrays of all functions once more in Model/Stack | - |
| src/frodo_macrify.c | Model/Matrix, Model/MatrixA (generic C, AVX2, AES and SHAKE) | - |
| src/noise.c, src/util.c | Model/Util, Model/Mem | - |
| src/config.h | byte order macros (Model/Mem); the selection of system, compiler, processor, implementation, generator and AES, and the variants of the byte order macros (Model/Make) | - |
| src/aes/aes_c.c, aes_ni.c, aes.c | Model/Aes; aes_c.c a second time with shared memory in Model/Conc; the calls of OpenSSL in Model/Ossl | OpenSSL itself |
| src/sha3/fips202.c | Model/Keccak; the text in Text/Fips | - |
| src/sha3/fips202x4.c, keccak4x/* | Model/Keccak4x; the functions that the library does not call in Model/SnP4, `ExtractAndAdd*` in one buffer in Model/SnP4Overlap; the variants of unrolling in Model/Unroll, the byte order in Model/Endian | `ExtractAndAddLanesAll` with input and output that overlap but are not equal |
| src/random/random.c | Model/Random (POSIX and Windows), Model/ConcRandom (several threads) | - |
| tests/rng.c | Model/Drbg | - |
| tests/PQCtestKAT_kem*.c | `katRound` in Model/Drbg, the rest in Model/Kat (an `fopen` that fails or gives a list of bytes) | the printed messages |
| python3/frodokem.py | Model/Python | - |
| python3/nist_kat.py | Model/NistKat | - |
| tests/test_kem.c | Model/SelfTest (`kem_test`), Model/Bench (`kem_bench`, `main`) | printing |
| tests/ds_benchmark.h | Model/Bench; `gettimeofday` of Windows and `rdtsc` of ARM in Model/Clock | rounding of `double` in mean and deviation; printing |
| Makefile | Model/Make: the options, the macros they define, the symbols that the objects define and use, which objects a call of `make` compiles anew; Model/MakeRun: the recipes on the directories, one or several jobs | prettyprint, `clean` |
| .github/workflows/c.yml | Model/MakeRun: options and programs of the jobs | the sanitizers, the versions of the tools; python.yml |
| VisualStudio | Model/Make: macros and files of the four configurations of the library | optimisation and warning options |

### Conventions of the C model and simplifications

* A pointer to a buffer is the list of the elements from there to the end of the object.  Distinct
  pointer arguments are distinct objects, except where the code calls a function with two equal pointers
  (`frodo_add`, `frodo_sub`, ECB in place), which has its own model.  The three KEM functions are
  modelled a second time on one memory that holds all their arguments (Model/KemAlias).
* Uninitialised memory is arbitrary (`Junk`, `Env`): every use takes fresh arbitrary values, and the
  theorems quantify over them.  Addresses that matter for alignment are parameters as well.
* Indices and sizes (`int`, `size_t`, `unsigned int` loop counters) are natural numbers where they are
  bounded by buffer lengths; arithmetic on data is `BitVec` for unsigned types and range-checked `Int`
  for `int`.  Where a counter or length really can wrap (random.c, tests/rng.c, noise.c, `shake*_absorb`) it is
  modelled with its type.  `Params.WF` bounds the dimensions by 2^15, so that every index and size
  computed from the macros fits in an `int`.
* `int` has 32 bits, `>>` on negative `int` is arithmetic, conversion to `int` wraps (as on the
  supported compilers).
* Evaluation order that C leaves open (the two `ct_verify` calls in kem.c:233) is fixed from left to
  right; both are pure.
* Stores to locals before return (`clear_bytes`, `memset`) are kept: that a compiler keeps them is outside the
  model (`clear_bytes` writes through a `volatile` pointer, `AES*_free_schedule` uses plain `memset`).
* Casts between `uint8_t *`, `uint16_t *`, `uint32_t *` are modelled as views of the same bytes with the
  byte order of the build; strict aliasing (C11 6.5p7) is the subject of C71, in a model of its own that leaves out the values.
* Threads (C40): sequentially consistent interleaving at the granularity of single accesses to shared
  memory; computations on private data are one step.  A program with a data race has no behaviour at
  all in C11; the model takes the most favourable reading, and still refutes C40.
* The operating system (C41-C43) is an arbitrary function from the call history to results of `open`,
  `read`.
* OpenSSL: the context is its cipher and key; any call may fail (`OsslRun`, a part of `Env`), and a failed
  call ends in `handleErrors`, which is the outcome `aborted`.  Leakage is an arbitrary function of
  key and data (`OsslCode`, a part of `Build`).  `EVP_CIPHER_CTX_free` leaves nothing.
* Python (C45): an exception is `ub`; `bitstring`, `hashlib` and `Crypto.Cipher.AES` are taken by the
  standards they implement; `/` followed by `round` is exact rational division with ties to even.
* C02 counts noise bit strings (the outputs of SHAKE) uniformly: that SHAKE outputs behave like uniform
  strings is a cryptographic assumption outside the model.
* C63 and C64 are about games; attackers are arbitrary functions with finitely many random coins.  An attacker has no
  running time in the model: the attackers built from a given one are explicit (`onKey`, `onEnc`, `onZ`, `onSeedKey`,
  `onSeedEnc`, `cpaOfCca`), and that they are fast is to be seen from their definitions (the random functions among
  the coins of `cpaOfCca` can be sampled lazily).  In C64 the functions `mu -> (seedSE', k)` (for one public key) and `(ct, k) -> ss`
  are random functions; the other calls of SHAKE stay as they are.

## Discrepancies found in the code

1. `src/aes/aes_c.c:22`: static `state` pointer; two threads corrupt each other's ciphertext, and one can
   get its *plaintext* back as ciphertext (C40_interference).  The `static int lock` of
   `src/random/random.c` is a race too.
2. `src/kem.c:35,104`: the return code of `randombytes` is ignored; keys are made from uninitialised
   memory if it fails (C16; on the text, with Windows, C91).
3. `src/random/random.c`: the length is truncated to `int`; from 2 GiB on the buffer is not filled
   and success is returned, or the call does not return (C42).  `read` returning 0 loops for ever (C43).
   On Windows the length is taken modulo 2^32 (C90_four_gib).
4. `src/frodo_macrify.c`, `frodo_mul_add_sa_plus_e` lacks the `LE_TO_UINT16` conversion that
   `frodo_mul_add_as_plus_e` has: on big endian the optimised code disagrees with the reference code and with its own
   key generation (C09).
5. `crypto_kem_dec` casts `sk` to `uint16_t *`: undefined for odd addresses (C11_dec_odd_address).
6. The tables `rho8`, `rho56` of keccak4x are read with aligned loads; without the alignment hypothesis the
   model is undefined (C36_misaligned).  AES-NI key schedules likewise (C38_misaligned).
7. Left on the stack: B', C, the re-encryption CC and BBp after a rejected decapsulation (C47), the
   SHAKE states.
8. `python3/frodokem.py` uses `round`, which rounds ties to even; the C code rounds ties up: decapsulation
   of malformed ciphertexts differs (C45_decoders_differ), honest ones agree (C45_interop).
9. `tests/rng.c`: `int` index overflows for requests from 2^31 bytes on (C44_overflow).
10. `aes128_enc` with S-box tables leaks its key through the cache (C14_aes_leaks_key); the library only
    uses it with public keys (`seed_A`), which is what C13 and C14 prove.
11. `src/noise.c:14`: the counter is an `unsigned int`, the bound a `size_t`; from 2^32 samples on the loop
    does not end (C23_wraps).  No caller comes near.
12. `src/sha3/fips202.c:389, 428`: `shake*_absorb` take the length as `unsigned int`: a message of 2^32
    bytes or more is cut (C35_truncates).  The one-shot functions take `unsigned long long`.
13. `tests/test_kem.c:29,64`: an array of `unsigned char` is read as `uint32_t`, and `ct` as `uint16_t`, without any
    alignment (C50_misaligned).
14. tests/PQCtestKAT_kem*.c: a file without any `count = ` passes (C53_no_record); `ReadHex` drops leading digits that
    do not fit, takes missing digits for zeros and succeeds without any digit (C52); with length 0 it
    writes a byte (C52_zero); a count that is no `int` is undefined behaviour (C53_main).
15. `src/frodo_macrify.c:29` copies arrays of `uint16_t` as `uint32_t`; `src/kem.c:128, 197, 220` access the byte array
    `G2in`, and `src/frodo_macrify.c:67, 83-86, 177, 203-206` and `src/frodo_macrify_reference.c:43, 101` the byte arrays
    `seed_A_separated*`, as `uint16_t`.  None of these objects is declared with the alignment needed
    (C55_declared_insufficient, C55_keypair_uint32).
16. keccak4x, functions that the library does not call: the functions on bytes access whole lanes of the data as
    `UINT64` after the first, partial lane, so that aligned data is undefined for offsets that are no multiple
    of 8 (C56_bytes_safe_iff); the special case of 21 lanes of the fast loops advances four pointers and
    leaves the data where the general case does not (C56_interleaved); a step of 0 lanes does not end
    (C56_fastLoop_step0).
17. `src/kem.c`: nothing says which arguments may overlap.  With `ct == pk` the public key is overwritten before its
    second part is read (C57_enc_in_place, C57_enc_iff); with overlapping `pk` and `sk` a call of `memcpy` is undefined
    or secret bytes are left in the public key (C57_keypair_safe_iff, C57_keypair_leak).
18. `tests/ds_benchmark.h`: two executions are reported with the standard deviation 0 (C58_two; the test of line 135
    should be for one); the correction by 2^32 of line 120 is wrong where the whole counter is read (C58_full_wrap);
    the constraint `"=A"` does not give the whole counter on 64-bit x86 (C58_low, C58_high); `tv_sec * 1000000`
    overflows where `long` has 32 bits (C58_long32), hence always on Windows (C58_windows_overflow); a clock that is set back makes a conversion undefined
    (C58_set_back).
19. `src/random/random.c:15`: first calls in several threads race on `lock`, leak descriptors and can block each
    other (C59_race, C59_leak, C59_leak_unbounded, C59_blocked).
20. `Makefile`, `src/config.h`: the libraries of two levels cannot be used in one program, because internal functions have external
    linkage and the same names (C60_one_level); the options are no prerequisites of the objects, so that a second
    `make` with other options keeps the objects of the first (C60_stale) and can give wrong or unlinkable libraries
    (C60_stale_wrong); misspelt options are taken for the defaults (C60_selects); on big-endian machines only
    `OPT_LEVEL=REFERENCE` is right (C60_computes).
21. keccak4x: only full unrolling compiles, because the fast loops use a counter whose declaration is a comment
    (`KeccakP-1600-times4-SIMD256.c:870, 972`; C65_conf); `roundsN` with more than 24 rounds computes nothing or reads beyond
    the constants (C65_roundsN; nothing uses it).
22. `brg_endian.h` takes a machine that it does not know for little-endian (C66_silent), so that the check in
    `KeccakP-1600-times4-SIMD256.c:28` passes there (C66_check).
23. `Makefile`: the archive for the known answers is written to a directory that another target removes and makes, without a
    prerequisite: `make KATS` fails on a fresh checkout (C67_kats), `make -j` can fail (C67_parallel_fails) or end without
    error and without the programs (C67_parallel_loses); one prerequisite more is enough (C67_parallel_fixed).  The
    continuous integration never builds the AES of the library (C67_ci).  `make check` builds the tests and runs none.
24. `src/frodo_macrify_reference.c:19, 77`: the reference code keeps the whole matrix `A` on the stack, more than 1 MiB for
    FrodoKEM-976 and FrodoKEM-1344 (C68_reference).
25. Strict aliasing (the Makefile gives `-O3` and not `-fno-strict-aliasing`): `src/frodo_macrify.c:29` accesses arrays of `uint16_t`
    as `uint32_t` (C71_keypair); with SHAKE every build writes bytes as `uint16_t` (`seed_A_origin`), and the vector code reads
    the constants of Keccak as `double` (C71_enc); `src/kem.c:189` reads the secret key as `uint16_t`, which is undefined for
    a key in an array of bytes, as in every program of `tests` (C71_dec_declared, C71_dec_copy), and defined for an
    allocated one that the library filled or that was read (C71_session, C71_dec_read); `tests/test_kem.c:29, 64` (C71_kem_test).
26. `src/sha3/fips202.c` clears none of its arrays: while kem.c clears its copies, the seed of the secret key (C72_keypair) and the bytes
    that give the shared secret (C72_enc, C72_dec) remain in clear in `t` of `keccak_absorb`, and the state that `shake` leaves
    determines them as well (C72_state).
27. `src/aes/aes_c.c:317`: the reference implementation encrypts A in place (`src/frodo_macrify_reference.c:33, 91`), and with the AES in
    C this calls `memcpy` with equal pointers, which C11 7.24.2.1p2 does not define: both products, hence all three functions of
    the KEM, are undefined in this build (C87_as, C87_sa).  The AES with intrinsics and the optimised products are not concerned.
