{"id": "C01", "title": "Honest round trip", "statement": "If crypto_kem_keypair produces (pk, sk) and crypto_kem_enc(pk) produces (ct, ss), and every entry of the accumulated noise S'E + E'' - E'S lies in the half-open interval [-q/2^(B+1), q/2^(B+1)), then crypto_kem_dec(ct, sk) returns exactly ss.", "quantifier": "all key-generation randomness, all encapsulation randomness mu, all three parameter sets, both generators of A and every build variant that is functionally correct", "why_tests_cant": "The set of (key, mu) pairs is astronomically large; tests sample a handful and never exercise noise near the bound.", "anchors": ["src/kem.c:crypto_kem_keypair", "src/kem.c:crypto_kem_enc", "src/kem.c:crypto_kem_dec"]}
{"id": "C02", "title": "Decapsulation failure is negligible", "statement": "Over uniformly random noise bits, the fraction of noise vectors for which the bound of C01 fails is at most 2^-k with k = 138, 199, 252 for the parameter sets 640, 976, 1344: the exponents the designers publish, rounded down.", "quantifier": "all noise bit strings (counting argument over the whole space)", "why_tests_cant": "The failing fraction is about 2^-138: no test could ever observe it.", "anchors": ["src/kem.c:crypto_kem_dec", "src/noise.c:frodo_sample_n", "src/frodo640.c:CDF_TABLE"]}
{"id": "C03", "title": "Implicit rejection is exact", "statement": "For every ciphertext byte string and secret key, crypto_kem_dec outputs SHAKE(ct || k') when the ciphertext equals the re-encryption of the decoded message and SHAKE(ct || s) otherwise; there is no third outcome and no error code.", "quantifier": "every ct of CRYPTO_CIPHERTEXTBYTES bytes, every sk of CRYPTO_SECRETKEYBYTES bytes", "why_tests_cant": "2^(8*9720) ciphertexts; tests flip a few random bits only.", "anchors": ["src/kem.c:crypto_kem_dec", "src/util.c:ct_verify", "src/util.c:ct_select"]}
{"id": "C04", "title": "At most one accepted ciphertext per message", "statement": "For a fixed secret key, two different ciphertexts that decode to the same message cannot both be accepted (ciphertexts are non-malleable: any change to an accepted ciphertext that keeps the decoded message is implicitly rejected).", "quantifier": "all pairs of ciphertexts and all secret keys", "why_tests_cant": "Universal statement over pairs of ciphertexts.", "anchors": ["src/kem.c:crypto_kem_dec", "src/util.c:frodo_unpack"]}
{"id": "C05", "title": "Key generation conforms to the specification", "statement": "crypto_kem_keypair writes exactly the bytes prescribed by FrodoKEM Algorithm 12 (pk = seedA || Pack(AS+E), sk = s || pk || S^T || SHAKE(pk)) for the bytes obtained from randombytes.", "quantifier": "all outputs of randombytes, three parameter sets, AES and SHAKE", "why_tests_cant": "KATs cover 100 seeds.", "anchors": ["src/kem.c:crypto_kem_keypair", "python3/frodokem.py:kem_keygen"]}
{"id": "C06", "title": "Encapsulation conforms to the specification", "statement": "crypto_kem_enc writes exactly the ct and ss prescribed by Algorithm 13, for every byte string offered as public key (also one that keypair never produces).", "quantifier": "all pk byte strings, all mu", "why_tests_cant": "KATs only use honestly generated keys.", "anchors": ["src/kem.c:crypto_kem_enc", "python3/frodokem.py:kem_encaps"]}
{"id": "C07", "title": "Decapsulation conforms to the specification", "statement": "crypto_kem_dec writes exactly the ss prescribed by Algorithm 14 for every ct and every sk byte string.", "quantifier": "all ct and sk byte strings", "why_tests_cant": "KATs only use honest ciphertexts.", "anchors": ["src/kem.c:crypto_kem_dec", "python3/frodokem.py:kem_decaps"]}
{"id": "C08", "title": "All build variants agree", "statement": "For the same inputs and randomness, the REFERENCE, FAST_GENERIC and FAST (AVX2) builds with either AES backend produce identical pk, sk, ct and ss on a little-endian target.", "quantifier": "all inputs, all pairs of build variants", "why_tests_cant": "Builds are tested separately on few vectors; interoperability must hold on all inputs.", "anchors": ["src/frodo_macrify.c", "src/frodo_macrify_reference.c", "src/aes/aes.c"]}
{"id": "C09", "title": "Endianness independence", "statement": "The produced keys, ciphertexts and secrets do not depend on the byte order of the target. (True for the reference code; FALSE for the optimised portable code, whose frodo_mul_add_sa_plus_e omits the little-endian conversion of A.)", "quantifier": "all inputs, both byte orders", "why_tests_cant": "CI runs on little-endian machines.", "anchors": ["src/config.h:LE_TO_UINT16", "src/frodo_macrify.c:frodo_mul_add_sa_plus_e", "src/frodo_macrify_reference.c:frodo_mul_add_sa_plus_e"]}
{"id": "C10", "title": "Results do not depend on uninitialised memory", "statement": "The outputs of keypair, enc and dec depend only on their inputs and the bytes delivered by randombytes, never on the prior contents of stack buffers or output buffers.", "quantifier": "all prior memory contents", "why_tests_cant": "Tests see only the memory contents that happen to occur.", "anchors": ["src/kem.c"]}
{"id": "C11", "title": "No undefined behaviour in the KEM", "statement": "With buffers of the documented sizes, keypair, enc and dec terminate without any out-of-bounds access, signed integer overflow, out-of-range shift or misaligned vector access, whatever the contents of the buffers.", "quantifier": "all buffer contents, all parameter sets and builds", "why_tests_cant": "Sanitizers only check executed inputs.", "anchors": ["src/kem.c", "src/frodo_macrify.c", "src/util.c"]}
{"id": "C12", "title": "Secret buffers are wiped", "statement": "When keypair, enc or dec return, every stack buffer that the source marks as containing secret data is all zero.", "quantifier": "all inputs", "why_tests_cant": "Requires inspecting dead stack memory on every path.", "anchors": ["src/kem.c", "src/util.c:clear_bytes"]}
{"id": "C13", "title": "Decapsulation is constant time", "statement": "The sequence of branch outcomes and memory indices of crypto_kem_dec is the same for any two secret keys and ciphertexts that agree on the public seedA; with SHAKE128 or AES-NI generation it does not depend on the inputs at all.", "quantifier": "all pairs of inputs", "why_tests_cant": "2-safety property over all pairs of executions.", "anchors": ["src/kem.c:crypto_kem_dec", "src/util.c:ct_verify", "src/util.c:ct_select"]}
{"id": "C14", "title": "Key generation and encapsulation are constant time", "statement": "The sequence of branch outcomes and memory indices of keypair and enc depends at most on the public seedA.", "quantifier": "all pairs of inputs and randomness", "why_tests_cant": "2-safety property.", "anchors": ["src/kem.c:crypto_kem_keypair", "src/kem.c:crypto_kem_enc", "src/noise.c:frodo_sample_n"]}
{"id": "C15", "title": "Sizes and layout of keys and ciphertexts", "statement": "The outputs have exactly the lengths of the API constants, the secret key contains the public key and its hash at the documented offsets, and nothing beyond these lengths is written.", "quantifier": "all inputs, all three parameter sets, output buffers of any larger size", "why_tests_cant": "Overruns past a buffer need not be visible in a test.", "anchors": ["src/api_frodo640.h", "src/api_frodo976.h", "src/api_frodo1344.h", "src/kem.c"]}
{"id": "C16", "title": "Randomness failures are reported", "statement": "If the system generator fails, keypair and enc report an error. (FALSE: the return value of randombytes is ignored and 0 is returned with keys derived from whatever was in the buffer.)", "quantifier": "all behaviours of the random generator", "why_tests_cant": "Failure of the OS generator cannot be provoked in a unit test.", "anchors": ["src/kem.c:crypto_kem_keypair", "src/kem.c:crypto_kem_enc", "src/random/random.c:randombytes"]}
{"id": "C17", "title": "Packing writes the documented bit string", "statement": "frodo_pack writes the concatenation of the lsb low bits (most significant first) of the inputs, zero padded or truncated to outlen bytes, ignoring higher bits.", "quantifier": "all input vectors, all lengths, all lsb from 1 to 16", "why_tests_cant": "Unbounded lengths and contents.", "anchors": ["src/util.c:frodo_pack"]}
{"id": "C18", "title": "Unpacking reads the documented bit string", "statement": "frodo_unpack writes, for each i, the lsb-bit big-endian value at bit offset i*lsb of the input, treating missing input bits as zero.", "quantifier": "all byte strings, all lengths, all lsb from 1 to 16", "why_tests_cant": "Unbounded lengths and contents.", "anchors": ["src/util.c:frodo_unpack"]}
{"id": "C19", "title": "Unpack inverts pack", "statement": "Unpacking what pack wrote returns each element reduced modulo 2^lsb, whenever the output was large enough to hold all the bits.", "quantifier": "all vectors, lengths and lsb", "why_tests_cant": "Round trip over an infinite domain.", "anchors": ["src/util.c:frodo_pack", "src/util.c:frodo_unpack"]}
{"id": "C20", "title": "Pack inverts unpack", "statement": "Packing what unpack wrote returns the original bytes when 8*bytes = lsb*elements, so every byte string is the encoding of exactly one matrix (unique ciphertext encodings).", "quantifier": "all byte strings", "why_tests_cant": "Round trip over an infinite domain.", "anchors": ["src/util.c:frodo_pack", "src/util.c:frodo_unpack"]}
{"id": "C21", "title": "Message encoding and decoding are inverse", "statement": "frodo_key_decode(frodo_key_encode(mu)) = mu for every message.", "quantifier": "all messages of BYTES_MU bytes", "why_tests_cant": "2^256 messages.", "anchors": ["src/frodo_macrify.c:frodo_key_encode", "src/frodo_macrify.c:frodo_key_decode"]}
{"id": "C22", "title": "Exact error tolerance of decoding", "statement": "frodo_key_decode(frodo_key_encode(mu) + e mod q) = mu if and only if every entry of e lies, modulo q, in [-q/2^(B+1), q/2^(B+1)).", "quantifier": "all messages and all error matrices", "why_tests_cant": "Both directions need all error values.", "anchors": ["src/frodo_macrify.c:frodo_key_decode"]}
{"id": "C23", "title": "Sampling implements the inverse CDF", "statement": "frodo_sample_n replaces every 16-bit word r by (-1)^(r mod 2) * #{z : r/2 > T(z)}, in place, and touches nothing else. The loop counter is an unsigned int while n is a size_t: from n = 2^32 on the function does not return.", "quantifier": "all vectors and all tables with entries below 2^15; all n below 2^32 for the result, all n from 2^32 on for the failure to return", "why_tests_cant": "Unbounded vectors.", "anchors": ["src/noise.c:frodo_sample_n"]}
{"id": "C24", "title": "Exact noise distribution", "statement": "Over all 2^16 values of a random word, each noise value occurs exactly as often as the published error distribution says, is symmetric around 0 and bounded by 12, 10 and 6.", "quantifier": "all 2^16 words, three tables", "why_tests_cant": "A statement on the whole distribution.", "anchors": ["src/noise.c:frodo_sample_n", "src/frodo640.c:CDF_TABLE", "src/frodo976.c:CDF_TABLE", "src/frodo1344.c:CDF_TABLE"]}
{"id": "C25", "title": "Constant-time comparison is exact", "statement": "ct_verify returns 0 if the two vectors are equal and -1 otherwise.", "quantifier": "all vectors of any length", "why_tests_cant": "A masking trick can fail for a single value (as an earlier version did).", "anchors": ["src/util.c:ct_verify"]}
{"id": "C26", "title": "Constant-time selection is exact", "statement": "ct_select copies a for selector 0 and b for selector -1, len bytes and nothing else.", "quantifier": "all byte strings and lengths", "why_tests_cant": "Unbounded.", "anchors": ["src/util.c:ct_select"]}
{"id": "C27", "title": "Clearing clears exactly", "statement": "clear_bytes zeroes exactly the first n bytes.", "quantifier": "all buffers and n", "why_tests_cant": "Unbounded.", "anchors": ["src/util.c:clear_bytes"]}
{"id": "C28", "title": "A*s+e is computed correctly", "statement": "frodo_mul_add_as_plus_e computes A*s+e modulo 2^16 (hence modulo q) in the reference and optimised code.", "quantifier": "all seeds and matrices", "why_tests_cant": "Infinite family of matrices.", "anchors": ["src/frodo_macrify.c:frodo_mul_add_as_plus_e", "src/frodo_macrify_reference.c:frodo_mul_add_as_plus_e"]}
{"id": "C29", "title": "s*A+e is computed correctly", "statement": "frodo_mul_add_sa_plus_e computes s*A+e modulo 2^16 in the reference, generic and AVX2 code.", "quantifier": "all seeds and matrices", "why_tests_cant": "The blocked code accumulates in place in a different order from the reference.", "anchors": ["src/frodo_macrify.c:frodo_mul_add_sa_plus_e", "src/frodo_macrify_reference.c:frodo_mul_add_sa_plus_e"]}
{"id": "C30", "title": "Small matrix operations are correct", "statement": "frodo_mul_bs, frodo_mul_add_sb_plus_e, frodo_add and frodo_sub compute b*s, s*b+e, a+b and a-b modulo q, including when the output aliases an operand as kem.c does.", "quantifier": "all matrices", "why_tests_cant": "Infinite family.", "anchors": ["src/frodo_macrify.c:frodo_mul_bs", "src/frodo_macrify.c:frodo_mul_add_sb_plus_e", "src/frodo_macrify.c:frodo_add", "src/frodo_macrify.c:frodo_sub"]}
{"id": "C31", "title": "No signed overflow in accumulations", "statement": "Every product of a 16-bit signed by a 16-bit unsigned value and its accumulation fits in int, for every operand value.", "quantifier": "all 2^32 operand pairs and all accumulators", "why_tests_cant": "The extreme operands are never met in tests.", "anchors": ["src/frodo_macrify.c", "src/frodo_macrify_reference.c"]}
{"id": "C32", "title": "SHAKE conforms to FIPS 202", "statement": "shake128 and shake256 output the SHAKE function of FIPS 202 for every message and every output length.", "quantifier": "all messages, all output lengths", "why_tests_cant": "Test vectors cover few lengths; padding boundaries (mlen = r-1, r) matter.", "anchors": ["src/sha3/fips202.c:shake128", "src/sha3/fips202.c:shake256", "src/sha3/fips202.c:keccak_absorb", "src/sha3/fips202.c:keccak_squeezeblocks"]}
{"id": "C33", "title": "The permutation is Keccak-f[1600]", "statement": "KeccakF1600_StatePermute, unrolled by two rounds, equals the 24-round Keccak-f[1600] permutation defined bit by bit in FIPS 202.", "quantifier": "all 2^1600 states", "why_tests_cant": "Unbounded in practice.", "anchors": ["src/sha3/fips202.c:KeccakF1600_StatePermute"]}
{"id": "C34", "title": "Extendable output is prefix consistent", "statement": "The first n bytes of a longer SHAKE output equal the n-byte output.", "quantifier": "all messages, all n <= m", "why_tests_cant": "Infinite family.", "anchors": ["src/sha3/fips202.c:shake128"]}
{"id": "C35", "title": "Incremental and one-shot SHAKE agree", "statement": "shakeXXX_absorb into a zero state followed by shakeXXX_squeezeblocks(n) yields the first n blocks of the one-shot output, also when the blocks are squeezed in several calls, for messages below 2^32 bytes. shakeXXX_absorb takes the length as an unsigned int: of a longer message it absorbs the first (length mod 2^32) bytes only, so that every message of 2^32 bytes gets the output of the empty string.", "quantifier": "all messages, all splittings", "why_tests_cant": "All histories of calls.", "anchors": ["src/sha3/fips202.c:shake128_absorb", "src/sha3/fips202.c:shake128_squeezeblocks"]}
{"id": "C36", "title": "Four-way SHAKE is four SHAKEs", "statement": "shake128_4x gives on each lane the same output as shake128 on that lane's input. The exported incremental functions shake128_absorb4x and shake128_squeezeblocks4x, called with any sequence of lengths, deliver on each lane the successive whole blocks of the same output and nothing else.", "quantifier": "all four-tuples of messages of equal length, all output lengths, all sequences of squeezing calls", "why_tests_cant": "Cross-lane interference only shows for special data.", "anchors": ["src/sha3/fips202x4.c:shake128_4x", "src/sha3/keccak4x/KeccakP-1600-times4-SIMD256.c:KeccakP1600times4_PermuteAll_24rounds", "src/sha3/fips202x4.c:shake128_squeezeblocks4x"]}
{"id": "C37", "title": "Standalone AES conforms to FIPS 197", "statement": "aes128 and aes256 in C (key schedule and block encryption) equal the cipher of FIPS 197.", "quantifier": "all keys and blocks", "why_tests_cant": "2^256 inputs.", "anchors": ["src/aes/aes_c.c"]}
{"id": "C38", "title": "AES-NI code equals the portable code", "statement": "The AES-NI key schedules and encryption produce the same bytes as the portable code.", "quantifier": "all keys and blocks", "why_tests_cant": "2^256 inputs.", "anchors": ["src/aes/aes_ni.c", "src/aes/aes_c.c"]}
{"id": "C39", "title": "ECB over many blocks, also in place", "statement": "AES128_ECB_enc_sch encrypts each 16-byte block independently, also when input and output are the same buffer, and fails its assertion exactly if the length is not a multiple of 16.", "quantifier": "all lengths, keys and data", "why_tests_cant": "Unbounded.", "anchors": ["src/aes/aes.c:AES128_ECB_enc_sch"]}
{"id": "C40", "title": "Concurrent calls do not interfere", "statement": "Two threads that use the library at the same time get the results they would get alone. (FALSE for the portable AES, which keeps the block pointer in a static variable; true for every schedule that does not interleave inside a block.)", "quantifier": "all interleavings of two threads", "why_tests_cant": "A data race window that tests hardly hit.", "anchors": ["src/aes/aes_c.c:state", "src/aes/aes_c.c:aes128_enc_c"]}
{"id": "C41", "title": "randombytes fills the buffer", "statement": "For every schedule of short reads and interrupted reads, when randombytes returns, the buffer holds exactly the first nbytes bytes delivered by the OS, in order.", "quantifier": "all read schedules, all nbytes < 2^31", "why_tests_cant": "Short reads of /dev/urandom do not occur in tests.", "anchors": ["src/random/random.c:randombytes"]}
{"id": "C42", "title": "randombytes honours every length", "statement": "For every nbytes, success means that nbytes bytes were written. (FALSE: nbytes is converted to int, so 2^31..2^32-1 returns success having written nothing.)", "quantifier": "all nbytes", "why_tests_cant": "Sizes above 2 GiB are not tested.", "anchors": ["src/random/random.c:randombytes"]}
{"id": "C43", "title": "randombytes returns iff the OS keeps delivering", "statement": "randombytes terminates whenever the device opens eventually and reads deliver bytes eventually; it never returns if reads return 0 (end of file) forever.", "quantifier": "all OS behaviours", "why_tests_cant": "Liveness over infinite schedules.", "anchors": ["src/random/random.c:randombytes"]}
{"id": "C44", "title": "The KAT generator is CTR_DRBG", "statement": "randombytes_init and randombytes of the test generator implement AES-256 CTR_DRBG: the counter is incremented as a 128-bit big-endian number modulo 2^128 and every call ratchets the key.", "quantifier": "all seeds, all request histories", "why_tests_cant": "All histories of requests.", "anchors": ["tests/rng.c:randombytes", "tests/rng.c:AES256_CTR_DRBG_Update"]}
{"id": "C45", "title": "C and Python agree", "statement": "The C implementation and the Python reference produce the same pk, sk, ct and ss from the same randomness. (Python's round() breaks ties to even, so the decoders differ exactly on half-way values with even quotient.)", "quantifier": "all inputs", "why_tests_cant": "KATs never produce half-way values.", "anchors": ["python3/frodokem.py:decode", "python3/frodokem.py:kem_decaps", "src/frodo_macrify.c:frodo_key_decode"]}
{"id": "C46", "title": "Key schedules are erased", "statement": "AES128_free_schedule and AES256_free_schedule zero the whole key schedule and nothing else, and when frodo_mul_add_as_plus_e or frodo_mul_add_sa_plus_e returns in a build with AES its key schedule holds only zeros, or its OpenSSL context has been freed.", "quantifier": "all schedules", "why_tests_cant": "Requires inspecting dead memory.", "anchors": ["src/aes/aes.c:AES128_free_schedule", "src/frodo_macrify.c:frodo_mul_add_as_plus_e", "src/frodo_macrify_reference.c:frodo_mul_add_as_plus_e"]}
{"id": "C47", "title": "What stays on the stack", "statement": "After enc the unwiped arrays Bp and C hold only the public ciphertext. After dec the unwiped arrays BBp and CC hold the re-encryption of the decoded message: the ciphertext itself if it was accepted, otherwise a value that depends on the secret key and is left in memory.", "quantifier": "all parameter sets, builds, public keys, secret keys and ciphertexts", "why_tests_cant": "Tests see outputs, not dead stack memory, and the space of rejected ciphertexts cannot be sampled exhaustively.", "anchors": ["src/kem.c:118-150", "src/kem.c:204-252"]}
{"id": "C48", "title": "Known answers are a function of the seed", "statement": "One round of the known answer test, in every good build, produces the pk, sk, ct and ss of the specification with the randomness of CTR_DRBG instantiated with the seed.", "quantifier": "all seeds, parameter sets, good builds, previous generator states", "why_tests_cant": "The KAT files hold 100 seeds per parameter set.", "anchors": ["tests/PQCtestKAT_kem640.c:main", "tests/rng.c", "src/kem.c"]}
{"id": "C49", "title": "Failures of OpenSSL abort and never give a wrong result", "statement": "In builds with OpenSSL, whatever calls of the library fail, key generation, encapsulation and decapsulation either end in abort() or behave exactly as with a library that never fails; in particular every returned key, ciphertext and shared secret is the specified one. If EVP_CIPHER_CTX_new, EVP_EncryptInit_ex or EVP_EncryptUpdate fails whenever it is called, all three functions abort.", "quantifier": "all inputs, parameters, builds and all behaviours of the library's return values", "why_tests_cant": "Library failures do not happen in tests, and the failure can be at any of the hundreds of calls.", "anchors": ["src/frodo_macrify.c:34-63", "src/frodo_macrify_reference.c:34-40", "src/aes/aes.c:handleErrors"]}
{"id": "C50", "title": "The self test tests what it claims", "statement": "kem_test of tests/test_kem.c returns true if and only if in every iteration decapsulation returns the encapsulated secret and, after a change of one ciphertext word at a random position, returns the implicit rejection value; the changed ciphertext always differs from the original in exactly one place; if the noise is within bounds and the changed ciphertext is not by accident the encryption of what it decrypts to, the test passes; a change that decoding corrects is always detected. If the byte array cast to uint32_t * is misaligned the behaviour is undefined.", "quantifier": "all parameter sets, good builds, numbers of iterations and random bytes", "why_tests_cant": "Running the test shows its result for one sequence of random bytes; it does not show which programs it would accept.", "anchors": ["tests/test_kem.c:kem_test"]}
{"id": "C51", "title": "FindMarker finds the first occurrence", "statement": "FindMarker returns 1 and leaves the file just behind the first occurrence of the marker if there is one, else 0 at the end of the file; a marker of more than 49 characters is cut to its first 49.", "quantifier": "all files and all markers without zero bytes", "why_tests_cant": "The KAT files hold every marker in a regular place; overlapping partial matches do not occur in them.", "anchors": ["tests/PQCtestKAT_kem640.c:137-172"]}
{"id": "C52", "title": "ReadHex and fprintBstr", "statement": "ReadHex gives the value of the hexadecimal digits behind the marker modulo 256^Length in big endian order (leading digits are dropped, missing ones are zero) and stops at the first other character; Length 0 writes one byte; fprintBstr writes upper case digits; what fprintBstr wrote, ReadHex reads back.", "quantifier": "all files, markers, lengths and byte strings", "why_tests_cant": "Files with too many, too few or odd numbers of digits are not among the KAT files.", "anchors": ["tests/PQCtestKAT_kem640.c:174-235"]}
{"id": "C53", "title": "The known answer program decides whether the file is right", "statement": "For every file, main of the KAT program returns exactly the specified verdict: 0 if every record with a count holds the known answers of its seed, -2 if a value differs, -3 if a field is missing, -4 if decapsulation does not give the secret, -1 if the file cannot be opened; a file of well-formed records is accepted if and only if all of them are right. A file without any count passes; a count that is not an int is undefined behaviour.", "quantifier": "all files, parameter sets, good builds", "why_tests_cant": "The program runs on the one file delivered with it, which is right; that it rejects every wrong file is never tried.", "anchors": ["tests/PQCtestKAT_kem640.c:29-130", "tests/PQCtestKAT_kem640_shake.c", "tests/PQCtestKAT_kem976.c", "tests/PQCtestKAT_kem1344.c"]}
{"id": "C54", "title": "The Python known answers are those of C", "statement": "The byte strings hard-coded in python3/nist_kat.py are the output of CTR_DRBG for the first seed of NIST, so that the program prints the pk, sk, ct and ss that a round of the C test computes for that seed (if Python's decapsulation gives the secret; else its assertion fails); a request of any other length is an error.", "quantifier": "all parameter sets and good builds", "why_tests_cant": "Python and C are run by different people on different files; nothing compares the two.", "anchors": ["python3/nist_kat.py", "tests/rng.c", "tests/PQCtestKAT_kem640.c:main"]}
{"id": "C55", "title": "The alignment that the library needs, exactly", "statement": "With buffers of the documented sizes and the library's own AES or SHAKE, key generation, encapsulation and decapsulation are free of undefined behaviour if and only if the listed objects are at the listed addresses: the AES-NI key schedule at a multiple of 16, the Keccak tables, A and Sp (AVX2) at multiples of 32, the byte arrays seed_A_separated and G2in and the secret key at even addresses, and, in the optimised builds, the uint16_t arrays B and S of key generation at multiples of 4. The alignment that the declarations guarantee is not sufficient in any build.", "quantifier": "all builds with the library's own AES, parameter sets, environments, inputs and random generators", "why_tests_cant": "On the machines where the tests run compilers align stack arrays generously, so that none of the misaligned placements ever occurs.", "anchors": ["src/kem.c:25-26", "src/kem.c:91", "src/kem.c:128", "src/kem.c:168", "src/kem.c:173", "src/kem.c:197", "src/kem.c:220", "src/frodo_macrify.c:28-30", "src/frodo_macrify.c:66-67", "src/frodo_macrify.c:79-86", "src/frodo_macrify_reference.c:42-43", "src/aes/aes_ni.c:33", "src/sha3/keccak4x/KeccakP-1600-times4-SIMD256.c:43-50"]}
{"id": "C56", "title": "The interface of four parallel Keccak states", "statement": "Each function of KeccakP-1600-times4-SnP.h changes or reads exactly the bytes it should: bytes or lanes are added to, written to or extracted from the named state(s) and nothing else changes; PermuteAll_12rounds is Keccak-p[1600,12] on each state; the fast loops absorb all whole blocks and return the bytes consumed, so that initialise, absorb, extract gives SHAKE128 or SHAKE256 of four padded messages. The functions are free of undefined behaviour exactly for the stated alignments, and the fast loops exactly if their pointers stay inside the data; with a step of 0 they do not end. ExtractAndAddBytes with input and output in one buffer is right for every content exactly if the output does not begin inside the input after its first byte; so both ExtractAndAdd functions work in place.", "quantifier": "all states, data, offsets, lengths, lane counts and lane offsets in range, all addresses", "why_tests_cant": "The library never calls these functions, so no test of the library reaches them; misalignment and pointers beyond the end are silent on x86.", "anchors": ["src/sha3/keccak4x/KeccakP-1600-times4-SnP.h:33-48", "src/sha3/keccak4x/KeccakP-1600-times4-SIMD256.c:83-442", "src/sha3/keccak4x/KeccakP-1600-times4-SIMD256.c:815-1030"]}
{"id": "C57", "title": "Overlapping arguments of the KEM functions", "statement": "The arguments of the three functions may overlap as follows. crypto_kem_dec gives the right shared secret wherever ss, ct and sk lie and changes nothing else. crypto_kem_enc gives the right ciphertext and secret if the first part of ct does not overlap the second part of pk; otherwise the matrix B is read after it was overwritten, and the ciphertext is right if and only if its product with S' is unchanged. crypto_kem_keypair is undefined exactly if pk overlaps its copy in sk (memcpy), right if pk and sk do not overlap, and in the remaining layouts every byte is what was written last, so that the secret s or the matrix S can end up in the public key.", "quantifier": "all memories, all offsets of the arguments, all keys, ciphertexts and random bytes, all builds with the specified matrix", "why_tests_cant": "The tests always pass separate buffers; the number of layouts is quadratic in the size of the keys and the wrong results are silent.", "anchors": ["src/kem.c:15-75", "src/kem.c:78-150", "src/kem.c:153-252"]}
{"id": "C58", "title": "The benchmark measures what it reports", "statement": "A measurement reports the number, total time, average and population standard deviation of the executions it made (in exact arithmetic), and a measurement of s seconds makes the least number of executions whose times add up to s seconds. Exceptions, proved as such: for exactly two executions the reported standard deviation is always 0; a full 64-bit counter that wraps is off by 2^32; with a 32-bit long every measurement overflows; a clock that is set back is undefined behaviour and one that stands still loops for ever. kem_bench measures honest encapsulations and successful decapsulations; main returns EXIT_SUCCESS iff the self test passes, with or without the benchmark. On Windows gettimeofday gives the time since 1970 exact to the millisecond, and with the 32-bit long of Windows every measurement overflows; on ARM the counter is the time in nanoseconds with an error of at most 256.", "quantifier": "all operations, clocks, counters, numbers of executions; all builds and random bytes for kem_bench and main", "why_tests_cant": "The benchmark reports a number whose right value is unknown to whoever runs it; the special case of two executions and the wrap-around are rare.", "anchors": ["tests/ds_benchmark.h:STOP_TIMER", "tests/ds_benchmark.h:FINALIZE_TIMER", "tests/ds_benchmark.h:TIME_OPERATION_SECONDS", "tests/test_kem.c:kem_bench", "tests/test_kem.c:main", "tests/ds_benchmark.h:gettimeofday", "tests/ds_benchmark.h:rdtsc"]}
{"id": "C59", "title": "Concurrent calls of randombytes", "statement": "However concurrent calls of randombytes are interleaved, every call that ends has filled its buffer with bytes of /dev/urandom in the order of delivery that no other call got, and every byte delivered went to exactly one call. After one call has opened the device, later calls have no data race and open nothing; a call for N bytes then ends within 3 N + 2 of its own steps whatever the others do, if each read delivers a byte. A call that runs alone leaves what the sequential model of randombytes leaves. First calls do race on the variable lock; they can leak a descriptor each (and without bound if open can fail), and a failing open in one thread can block another thread that had the device open.", "quantifier": "all interleavings of any number of threads, all answers of the operating system, all lengths below 2^31", "why_tests_cant": "The interleavings that go wrong need a failing open at the right moment.", "anchors": ["src/random/random.c:randombytes"]}
{"id": "C60", "title": "Every build option gives the implementation it names", "statement": "For any values of ARCH, OPT_LEVEL, GENERATION_A and USE_OPENSSL the Makefile and config.h select one consistent configuration: the implementation, the generator and the AES the options name (any unknown value silently means the default), vector instructions exactly where they are needed, and byte order conversions for the machine. The resulting library computes FrodoKEM on little-endian machines, and on big-endian ones with OPT_LEVEL=REFERENCE, while with any other level encapsulation and decapsulation there use the byte-swapped matrix; the self test and known answer programs link with nothing missing or defined twice; so do the configurations of Visual Studio. No program can link two levels. After any sequence of calls of make without make clean, the shared objects are those of the first call. The objects of each level define and use the names of its level. With any macros that another build system passes, config.h accepts exactly those that name an operating system, an architecture, an implementation and a generator, and the first macro of a kind wins.", "quantifier": "all option strings, all sets of macros, all predefined macros of the compiler, both byte orders, all levels, all sequences of calls of make", "why_tests_cant": "A test run builds one or a few combinations; misspelt options, mixed histories of calls of make and big-endian machines are not covered.", "anchors": ["Makefile", "src/config.h", "VisualStudio/frodoKEM-640.vcxproj"]}
{"id": "C61", "title": "The trace with the portable AES reveals exactly the seed of A", "statement": "With the table-based AES of aes_c.c, two runs of crypto_kem_keypair, crypto_kem_enc or crypto_kem_dec have the same sequence of branches and memory accesses if and only if their seeds of the matrix A are equal, whatever the secrets, ciphertexts, messages and addresses. The key schedule alone reveals the whole AES key (128 and 256 bits). Hence decapsulation has a trace independent of the secret key, as the valgrind check of the repository demands, if and only if the table-based AES is not used.", "quantifier": "all seeds, keys, messages, ciphertexts, contents of memory, aligned addresses, parameter sets and builds with the portable AES", "why_tests_cant": "Timing tests and valgrind runs on some keys neither show that nothing but the seed leaks nor that all of it does.", "anchors": ["src/aes/aes_c.c:aes128_load_schedule_c", "src/aes/aes_c.c:aes256_load_schedule_c", "src/kem.c:crypto_kem_keypair", "src/kem.c:crypto_kem_enc", "src/kem.c:crypto_kem_dec"]}
{"id": "C62", "title": "What the shared secret binds", "statement": "For any two decapsulations, in any builds, with any keys and ciphertexts, and whether they accept or reject: with different ciphertexts the shared secrets are equal exactly if the two strings hashed (ct||k' or ct||s) are a collision of SHAKE. If both accept and the secrets are equal, then the messages, the hashes of the public keys and (for keys that contain the hash of their public key) the public keys are equal, or one of the named pairs is a collision. A rejected ciphertext does not bind the public key: for any two secret keys with the same s there is a ciphertext with the same shared secret under both. A key accepts at most 2^(8*len) of all ciphertexts.", "quantifier": "all secret keys (also malformed ones), all ciphertexts, all good builds, three parameter sets", "why_tests_cant": "Binding is about all pairs of keys and ciphertexts, including malicious ones; a test finds no collisions of SHAKE and cannot show that equal secrets require one.", "anchors": ["src/kem.c:crypto_kem_dec"]}
{"id": "C63", "title": "Breaking the encryption breaks LWE", "statement": "For every parameter set, every generator of A and every attacker (any function of its coins, the public key and the ciphertext): the advantage in telling the encryptions of its two messages apart is at most the sum of four advantages in telling the LWE samples of the public key (A S + E) and of the ciphertext (S' A + E', S' B + E'') from uniform matrices, for explicitly given distinguishers that only run encryption and the attacker; if the noise comes from seeds by SHAKE as in the code, plus explicit advantages in telling the three expansions of seeds from random strings. Key generation, encryption and decryption of these games are those of the specification and of the code.", "quantifier": "all parameter sets, all attackers with finitely many coins, all messages they choose", "why_tests_cant": "Indistinguishability is a statement about all attackers; a program with a biased or reused mask passes every test of correctness.", "anchors": ["src/kem.c:crypto_kem_keypair", "src/kem.c:crypto_kem_enc", "src/noise.c:frodo_sample_n"]}
{"id": "C64", "title": "Chosen ciphertext security in the random oracle model", "statement": "If the functions mu -> (seedSE', k) and (ct, k) -> ss of FrodoKEM are random functions, then for every attacker that asks them at most a and b times, asks for any decapsulations except that of the challenge, and tells the shared secret from a random string: its advantage is at most 2 (advantage of an explicit attacker on encryption + (a + 3b) / 2^(8 len) + (a + 1) (1/2^k + advantages of two explicit tests of the expansion of seeds)), where 2^-k bounds decryption failures (k = 138, 199, 252); together with C63 a bound in terms of LWE. The functions crypto_kem_keypair, crypto_kem_enc and crypto_kem_dec compute what the game computes, with SHAKE in place of the random functions.", "quantifier": "all attackers (adaptive questions, any number of decapsulations), three parameter sets, all good builds, all seeds and ciphertexts", "why_tests_cant": "The statement is about all adaptive attackers and about probabilities near 2^-128.", "anchors": ["src/kem.c:crypto_kem_dec", "src/kem.c:crypto_kem_enc", "src/kem.c:crypto_kem_keypair"]}
{"id": "C65", "title": "All variants of unrolling compute Keccak; only one compiles", "statement": "In each of the seven variants of KeccakP-1600-unrolling.macros the macros rounds24 and rounds12, with the two sets of variables that the rounds use in turn, compute Keccak-f[1600] and Keccak-p[1600,12] of all four states without undefined behaviour, whatever the uninitialised variables hold. roundsN(n) computes Keccak-p[1600,n] for n <= 24; for larger n it computes nothing (n even) or reads beyond the round constants (n odd). A configuration is accepted by the compiler exactly if it selects full unrolling: otherwise the fast loops use an undeclared counter.", "quantifier": "all states, all values of uninitialised variables, all variants, all n < 2^32, all configurations", "why_tests_cant": "Only one variant can be compiled, so tests never run the others.", "anchors": ["src/sha3/keccak4x/KeccakP-1600-unrolling.macros", "src/sha3/keccak4x/KeccakP-1600-times4-SIMD256.c:KeccakP1600times4_PermuteAll_24rounds"]}
{"id": "C66", "title": "The byte order found by brg_endian.h", "statement": "If a family of macros of the platform tells the byte order and the others tell the same or nothing, the header finds it, whatever names of machines are defined; if two families disagree, it defines its result twice. If no family tells anything, the result is big exactly for the listed big-endian machines that are not in the other list, and every unknown machine counts as little. The vectorised Keccak file is therefore refused on every platform that tells big, accepted on every one that tells little, and accepted on an unknown silent machine.", "quantifier": "all combinations of the twelve macros with any values and all sets of machine names", "why_tests_cant": "A test runs on one platform with one set of macros.", "anchors": ["src/sha3/keccak4x/brg_endian.h", "src/sha3/keccak4x/KeccakP-1600-times4-SIMD256.c"]}
{"id": "C67", "title": "Calls of make, with one job or several", "statement": "make succeeds and makes all libraries and programs whatever is on the disk before; make tests leaves exactly the libraries and self tests; make lib640 removes every other file of its directory and nothing else; make KATS succeeds exactly if the three directories exist. With any number of jobs and in any order of the commands, make tests never fails, make KATS never fails if the directories exist; but make can fail from every state of the disk, and where the directories exist it can end without error and without the known answer programs; on a fresh checkout a run that ends without error has made everything; with one more prerequisite for the archive of the known answers every run succeeds. The jobs of the continuous integration cover every implementation with every generator and never the AES of the library itself.", "quantifier": "all states of the disk, all interleavings of the commands, all jobs of c.yml", "why_tests_cant": "The order of parallel commands is not reproducible, and a run that works says nothing about the others.", "anchors": ["Makefile", ".github/workflows/c.yml"]}
{"id": "C68", "title": "How much stack the arrays take", "statement": "For every build and parameter set the arrays with automatic storage of crypto_kem_keypair, crypto_kem_enc and crypto_kem_dec reach a number of bytes that does not depend on the data. The optimised code needs at most 194801 bytes in a KEM function and 367457 bytes in the test programs. The reference code keeps the whole matrix A on the stack: every call needs more than 512 KiB, and more than 1 MiB for FrodoKEM-976 and FrodoKEM-1344. No program needs 4 MiB.", "quantifier": "all runs of the control flow, all builds, the three parameter sets (data independence: every parameter set)", "why_tests_cant": "A test runs with the stack that the system happens to give it; an overflow in a thread or on another system does not show.", "anchors": ["src/frodo_macrify_reference.c:frodo_mul_add_as_plus_e", "src/frodo_macrify.c:frodo_mul_add_sa_plus_e", "src/kem.c:crypto_kem_dec", "tests/test_kem.c:kem_test", "tests/PQCtestKAT_kem640.c:main"]}
{"id": "C69", "title": "AES is a permutation; the blocks of A do not repeat", "statement": "What the library encrypts with AES-128 or AES-256, by the portable code or with AES-NI, the inverse cipher of FIPS 197 decrypts. With every contents of the schedule the encryption of a block is a permutation of the blocks. Therefore the matrix A made with AES never has the same eight entries in two places beginning at multiples of eight before the reduction modulo q; for q = 2^16 the same holds for A itself and its rows are pairwise different.", "quantifier": "all keys, schedules, numbers of blocks and contents; all seeds and places, n up to 65536", "why_tests_cant": "2^128 blocks for each of 2^128 keys; two inputs with equal outputs would not be found by chance.", "anchors": ["src/aes/aes_c.c:aes128_enc_c", "src/aes/aes_ni.c:aes128_enc_ni", "src/frodo_macrify.c:frodo_mul_add_as_plus_e"]}
{"id": "C70", "title": "Keccak is a permutation of the states", "statement": "Every state is the result of KeccakF1600_StatePermute for exactly one state; every array of 100 words is the result of KeccakP1600times4_PermuteAll_24rounds for exactly one, and of KeccakP1600times4_PermuteAll_12rounds for exactly one. Squeezing any number of blocks loses nothing of the state.", "quantifier": "all states, all numbers of blocks and rates", "why_tests_cant": "2^1600 states; two states with the same result would not be found by chance.", "anchors": ["src/sha3/fips202.c:KeccakF1600_StatePermute", "src/sha3/fips202.c:keccak_squeezeblocks", "src/sha3/keccak4x/KeccakP-1600-times4-SIMD256.c:KeccakP1600times4_PermuteAll_24rounds", "src/sha3/keccak4x/KeccakP-1600-times4-SIMD256.c:KeccakP1600times4_PermuteAll_12rounds"]}
{"id": "C71", "title": "Accesses through types that C does not allow", "statement": "In every build and for all buffers of the caller, the accesses of crypto_kem_keypair, crypto_kem_enc and crypto_kem_dec to arrays through a type that C11 6.5p7 does not allow are exactly these: with SHAKE the writing of seed_A_separated as uint16_t, and in the vector code the reading of the constants of Keccak as double; in crypto_kem_keypair outside the reference code the copying of E to B as uint32_t; in crypto_kem_dec the reading of S in the secret key as uint16_t, unless the byte order is unknown or the bytes have no other type. With AES, encapsulation has none, and key generation has none in the reference code. A secret key in an array of bytes, or copied from one, breaks the rule at each element of S; an allocated one filled by crypto_kem_keypair or byte by byte never does. The self test breaks it at each access to pos and to the changed digit.", "quantifier": "all parameter sets with n at least 8, code paths, AES back ends, generators, byte orders, states of the buffers", "why_tests_cant": "What breaks the rule usually computes the expected values, until a compiler uses the rule; the set of all offending accesses cannot be observed.", "anchors": ["src/frodo_macrify.c:frodo_mul_add_as_plus_e", "src/frodo_macrify.c:frodo_mul_add_sa_plus_e", "src/kem.c:crypto_kem_dec", "src/kem.c:crypto_kem_keypair", "src/kem.c:crypto_kem_enc", "src/sha3/keccak4x/KeccakP-1600-times4-SIMD256.c:KeccakP1600times4_PermuteAll_24rounds", "tests/test_kem.c:kem_test"]}
{"id": "C72", "title": "What SHAKE leaves on the stack", "statement": "When shake128 or shake256 returns, the array t of keccak_absorb holds the last inlen mod rate bytes of the message in clear, the array t of shake holds the whole last block of output if it was not asked for whole, and the state s determines the message among all of the same length and the same whole blocks, for every output length. Hence, for the three parameter sets and in every build, the seed from which crypto_kem_keypair computes S and E remains in clear after its expansion, and when crypto_kem_enc and crypto_kem_dec return, the bytes that give the shared secret together with the ciphertext remain in clear at a fixed position, although the functions have cleared all their own copies.", "quantifier": "all messages, lengths, buffers, contents of uninitialised memory, parameter sets, builds, keys, ciphertexts", "why_tests_cant": "The contents of dead stack frames are not visible to a test of the results, and that a state determines the message is a statement about all states.", "anchors": ["src/sha3/fips202.c:keccak_absorb", "src/sha3/fips202.c:shake128", "src/sha3/fips202.c:shake256", "src/kem.c:crypto_kem_keypair", "src/kem.c:crypto_kem_enc", "src/kem.c:crypto_kem_dec", "src/util.c:clear_bytes"]}
{"id": "C73", "title": "The noise is close to a rounded Gaussian", "statement": "For the tables of the three parameter sets, the distribution of one sample of frodo_sample_n over all 16-bit words has a R\u00e9nyi divergence of order 200, 500 and 1000 from the Gaussian of standard deviation 2.8, 2.3 and 1.4, rounded to the nearest integer, of at most 0.324e-4, 0.140e-4 and 0.264e-4, the values of the specification. Hence, for every N and every set E of vectors of N integers, the fraction of all strings of N words from which frodo_sample_n makes a vector in E is at most (p exp(N D))^(1 - 1/a), where p is the probability that N independent rounded Gaussians lie in E. The samples have mean 0, and variance that of the Gaussian plus 1/12 up to 1/500.", "quantifier": "all numbers of samples below 2^32, all events, all strings of words, the three tables", "why_tests_cant": "The claim compares a table with integrals of the Gaussian density, and its consequence is about all events on strings far too many to enumerate.", "anchors": ["src/frodo640.c:CDF_TABLE", "src/frodo976.c:CDF_TABLE", "src/frodo1344.c:CDF_TABLE", "src/noise.c:frodo_sample_n"]}
{"id": "C74", "title": "The source text of the small functions computes what the specification says", "statement": "The text of util.c, and of the three parameter files with all that they include, for the reference and the optimised implementation, is accepted by a preprocessor and a parser of C; the syntax trees of frodo_pack, frodo_unpack, ct_verify, ct_select, clear_bytes, frodo_sample_n, frodo_mul_bs, frodo_mul_add_sb_plus_e, frodo_add, frodo_sub, frodo_key_encode and frodo_key_decode, run with a semantics of C that knows nothing of them, return without undefined behaviour, leave in the output buffer what the specification says, and change nothing else in memory, for buffers anywhere in their blocks. Packing followed by unpacking gives back the low bits. The branches and addresses of ct_verify, ct_select, frodo_sample_n, frodo_mul_bs and frodo_key_decode do not depend on the data.", "quantifier": "all contents of memory, all positions of the buffers, all lengths below 2^64, both implementations, the three parameter sets", "why_tests_cant": "The claim is about the meaning of the program text for every input and every layout of memory, including the absence of undefined behaviour and of data dependent traces, which a test run cannot show.", "anchors": ["src/util.c:frodo_pack", "src/util.c:frodo_unpack", "src/util.c:ct_verify", "src/util.c:ct_select", "src/util.c:clear_bytes", "src/noise.c:frodo_sample_n", "src/frodo_macrify.c:frodo_mul_bs", "src/frodo_macrify_reference.c:frodo_key_encode", "src/frodo640.c", "src/frodo976.c", "src/frodo1344.c"]}
{"id": "C75", "title": "The source text of the KEM computes the specified algorithms", "statement": "The syntax trees of crypto_kem_keypair, crypto_kem_enc and crypto_kem_dec, parsed from kem.c as included in the three parameter files (reference implementation and optimised implementation without intrinsics, A from SHAKE128) and linked with those of noise.c, util.c and frodo_macrify_reference.c or frodo_macrify.c, run by an interpreter of C that knows none of these functions, return 0 without undefined behaviour on every input; the buffers then hold the keys, the ciphertext and the shared secret of the specification, all other blocks of memory are as before, and the local arrays that held secrets hold zeros. shake128, shake256 and randombytes are calls to functions outside that do what their models do.", "quantifier": "all random bytes, public keys, ciphertexts and secret keys, all contents of memory and of uninitialised arrays, all behaviours of the random generator that deliver the bytes, both implementations, the three parameter sets", "why_tests_cant": "The claim is about the meaning of the program text on every input, every ciphertext including malformed ones, and every initial content of memory, including the absence of undefined behaviour.", "anchors": ["src/kem.c:crypto_kem_keypair", "src/kem.c:crypto_kem_enc", "src/kem.c:crypto_kem_dec", "src/frodo_macrify_reference.c:frodo_mul_add_as_plus_e", "src/frodo_macrify_reference.c:frodo_mul_add_sa_plus_e", "src/frodo640.c", "src/frodo976.c", "src/frodo1344.c", "src/frodo_macrify.c:frodo_mul_add_as_plus_e", "src/frodo_macrify.c:frodo_mul_add_sa_plus_e"]}
{"id": "C76", "title": "The source text of fips202.c computes SHAKE128 and SHAKE256", "statement": "The syntax trees of KeccakF1600_StatePermute, shake128 and shake256, parsed from sha3/fips202.c with the headers it includes, run by an interpreter of C that knows none of these functions, return without undefined behaviour; the permutation leaves Keccak-f[1600] of FIPS 202 of the state in its place, and the output buffer holds SHAKE128 or SHAKE256 of the message, with the rest of the buffer and all other blocks of memory as before, even when the message is in the block of the output.", "quantifier": "all states, all messages and output lengths below 2^31, all offsets, all contents of memory and of uninitialised arrays", "why_tests_cant": "The claim is about the meaning of the program text for every message, every length and every initial content of memory, including the absence of undefined behaviour such as shifts by the width of a word or reads past a block.", "anchors": ["src/sha3/fips202.c:KeccakF1600_StatePermute", "src/sha3/fips202.c:keccak_absorb", "src/sha3/fips202.c:keccak_squeezeblocks", "src/sha3/fips202.c:shake128", "src/sha3/fips202.c:shake256"]}
{"id": "C77", "title": "The source text of the KEM together with that of SHAKE computes the specified algorithms", "statement": "The program text of kem.c, noise.c, util.c, frodo_macrify_reference.c or, without intrinsics, frodo_macrify.c, and sha3/fips202.c, parsed, linked and run by an interpreter of C, computes key generation, encapsulation and decapsulation as specified on every input: it returns 0 without undefined behaviour, writes the specified keys, ciphertext and shared secret, changes no other block of memory, and leaves zeros in the local arrays that held secrets. The only function outside of the text is randombytes.", "quantifier": "all random bytes, public keys, ciphertexts and secret keys, all contents of memory and of uninitialised arrays, all random generators that deliver the bytes, both implementations, the three parameter sets", "why_tests_cant": "The claim is about the meaning of the whole program text on every input, every malformed ciphertext or key and every initial content of memory.", "anchors": ["src/kem.c:crypto_kem_keypair", "src/kem.c:crypto_kem_enc", "src/kem.c:crypto_kem_dec", "src/sha3/fips202.c:shake128", "src/sha3/fips202.c:shake256", "src/frodo_macrify_reference.c:frodo_mul_add_as_plus_e", "src/frodo640.c", "src/frodo976.c", "src/frodo1344.c", "src/frodo_macrify.c:frodo_mul_add_as_plus_e", "src/frodo_macrify.c:frodo_mul_add_sa_plus_e"]}
{"id": "C78", "title": "The source text of the products with A computes them modulo 2^16", "statement": "The text of frodo_mul_add_as_plus_e and frodo_mul_add_sa_plus_e, in frodo_macrify_reference.c and in frodo_macrify.c without intrinsics, parsed with the parameter files, linked with the text of sha3/fips202.c and run by an interpreter of C, returns 1 without undefined behaviour and leaves A*s + e or s*A + e modulo 2^16 in the output, where A is the matrix that Frodo.Gen with SHAKE128 makes of the seed; nothing else in memory is changed, except that the optimised text may leave s*A + e in the array of e as well.", "quantifier": "all matrices s and e, all seeds, all positions of the arrays (e at a multiple of four bytes), all contents of memory and of uninitialised arrays, both implementations, the three parameter sets", "why_tests_cant": "The claim is about the meaning of the program text for every matrix, every seed and every content of memory, including the absence of undefined behaviour and of stray writes.", "anchors": ["src/frodo_macrify_reference.c:frodo_mul_add_as_plus_e", "src/frodo_macrify_reference.c:frodo_mul_add_sa_plus_e", "src/frodo_macrify.c:frodo_mul_add_as_plus_e", "src/frodo_macrify.c:frodo_mul_add_sa_plus_e", "src/sha3/fips202.c:shake128"]}
{"id": "C79", "title": "Programs given by their source text agree on the shared secret", "statement": "Let three machines run the source text of the KEM, each the reference implementation or the optimised one without intrinsics, linked with util.c, noise.c and fips202.c: the first generates a key pair, the second encapsulates for the public key, the third decapsulates the ciphertext with the secret key. If the noise of the exchange is within the bound for correct decoding, all calls return 0 and the third ends with the shared secret of the second. A ciphertext that differs from the re-encryption of its plaintext gives the secret derived from the ciphertext and the secret random string of the key. Both implementations decapsulate any ciphertext with any secret key to the same secret.", "quantifier": "all random bytes, all contents and layouts of the three memories, both implementations on each machine, the three parameter sets", "why_tests_cant": "The claim is about the meaning of the program texts for all random bytes, all ciphertexts and keys and all contents of memory on three independent machines.", "anchors": ["src/kem.c:crypto_kem_keypair", "src/kem.c:crypto_kem_enc", "src/kem.c:crypto_kem_dec", "src/frodo_macrify.c:frodo_mul_add_as_plus_e", "src/frodo_macrify_reference.c:frodo_mul_add_as_plus_e", "src/sha3/fips202.c:shake128"]}
{"id": "C80", "title": "The source text of AES computes AES in ECB mode", "statement": "The texts of aes/aes_c.c and aes/aes.c parse. Linked with each other and run by an interpreter of C, AES128_load_schedule followed by AES128_ECB_enc_sch, and the same for 256, return without undefined behaviour and leave the AES encryption of FIPS 197 of each block of the plaintext in the buffer for the ciphertext; nothing else in memory is changed except the schedule and the pointer state. AES128_free_schedule and AES256_free_schedule set the schedule to zero. If the length is not a multiple of 16, assert is called with zero before anything is encrypted.", "quantifier": "all keys, all plaintexts of any number of blocks, all positions of the buffers in different blocks of memory, all contents of memory and of the uninitialised array", "why_tests_cant": "The claim is about the meaning of the program text, including a pointer kept in a variable outside the functions, for every key, every length and every content of memory; tests check some vectors.", "anchors": ["src/aes/aes_c.c:Cipher", "src/aes/aes_c.c:aes128_load_schedule_c", "src/aes/aes_c.c:aes256_load_schedule_c", "src/aes/aes_c.c:aes128_enc_c", "src/aes/aes_c.c:MixColumns", "src/aes/aes.c:AES128_ECB_enc_sch", "src/aes/aes.c:AES256_ECB_enc_sch", "src/aes/aes.c:AES128_free_schedule"]}
{"id": "C81", "title": "The source text of randombytes delivers the bytes of the device", "statement": "The text of random/random.c parses with the macros of a Unix build. Run by an interpreter of C on an operating system where open succeeds sometime and the calls of read deliver together at least as many bytes as asked for, in pieces of any size and with any number of failures between them, randombytes returns 0 without undefined behaviour, has put the next bytes of /dev/urandom, in order, into the buffer, and has changed nothing else in memory except the static variable lock, which then holds the descriptor. A request of at least 2 GiB and less than 4 GiB returns 0 and writes nothing. The variable lock starts as -1.", "quantifier": "all behaviours of the operating system that deliver enough, all lengths below 2 GiB, all buffers, all positions in memory, all states in which the call can start", "why_tests_cant": "Failures of open and read and short reads are rare and cannot be provoked in all their sequences; the claim is about the meaning of the program text for all of them.", "anchors": ["src/random/random.c:randombytes", "src/random/random.c:delay", "src/random/random.c:lock"]}
{"id": "C82", "title": "The program text down to the system calls implements the KEM", "statement": "Link the source text of the KEM, of the reference implementation or the optimised one without intrinsics, with the texts of util.c, noise.c, fips202.c and random.c, and run it on an operating system that delivers enough random bytes. crypto_kem_keypair returns 0 and leaves the key pair that the specification generates from the next bytes of /dev/urandom; crypto_kem_enc returns 0 and leaves the ciphertext and shared secret that the specification computes from the public key and the next bytes of /dev/urandom. If the noise drawn from the bytes of the two devices is within the bound for correct decoding, decapsulation on a third machine returns 0 and leaves the same shared secret.", "quantifier": "all behaviours of three operating systems that deliver enough bytes, all contents and layouts of the memories, both implementations on each machine, the three parameter sets", "why_tests_cant": "The claim is about the meaning of the whole program text for all random bytes, all sequences of short and failing reads, and all contents of memory.", "anchors": ["src/kem.c:crypto_kem_keypair", "src/kem.c:crypto_kem_enc", "src/kem.c:crypto_kem_dec", "src/random/random.c:randombytes", "src/sha3/fips202.c:shake128", "src/frodo_macrify.c:frodo_mul_add_as_plus_e"]}
{"id": "C83", "title": "The source text of the products with A from AES128 computes them", "statement": "The files of the parameter sets parse with the options for the optimised implementation and AES128. Run by an interpreter of C, with the text of aes.c and aes_c.c behind the calls, frodo_mul_add_as_plus_e returns 1 without undefined behaviour and leaves A*s + e modulo 2^16 in its output, where A is the specified expansion of the seed with AES128, and frodo_mul_add_sa_plus_e returns 1 and leaves s*A + e modulo 2^16 in its output and in the place of e; nothing else in memory is changed.", "quantifier": "all seeds, all matrices s and e, all previous contents of the output, all positions of the arrays in memory, all contents of uninitialised arrays, the three parameter sets", "why_tests_cant": "The claim is about the meaning of the program text for all seeds and matrices: the indices of the rows, the conversions and the transposition could be wrong for values that tests do not hit, and an access outside of an array can go unnoticed.", "anchors": ["src/frodo_macrify.c:frodo_mul_add_as_plus_e", "src/frodo_macrify.c:frodo_mul_add_sa_plus_e", "src/aes/aes.c:AES128_load_schedule", "src/aes/aes.c:AES128_ECB_enc_sch", "src/aes/aes_c.c:aes128_enc_c"]}
{"id": "C84", "title": "The source text of the KEM with AES128 implements the specified algorithms", "statement": "Link the source text of the KEM, of the optimised implementation without intrinsics and with A from AES128, with the texts of util.c, noise.c, aes.c, aes_c.c and fips202.c. crypto_kem_keypair, crypto_kem_enc and crypto_kem_dec return 0 without undefined behaviour and leave what Algorithms 12, 13 and 14 of the specification compute with AES128, with nothing else in memory changed and zeros in the arrays that held secrets. If the noise is within the bound for correct decoding, three programs on three machines that exchange keys and ciphertext end with the same shared secret; a ciphertext that is not the encryption of what it decrypts to gives the hash of the ciphertext and the secret string. With the text of random.c linked too, keys and ciphertexts are those of the next bytes of /dev/urandom.", "quantifier": "all random bytes, all public keys, ciphertexts and secret keys, all contents and layouts of memory, all contents of uninitialised arrays, the three parameter sets", "why_tests_cant": "The claim is about the meaning of the whole program text for all inputs and all contents of memory.", "anchors": ["src/kem.c:crypto_kem_keypair", "src/kem.c:crypto_kem_enc", "src/kem.c:crypto_kem_dec", "src/frodo_macrify.c:frodo_mul_add_as_plus_e", "src/aes/aes_c.c:aes128_enc_c", "src/random/random.c:randombytes"]}
{"id": "C85", "title": "The source text of the reference products with A from AES128 computes them", "statement": "The texts of frodo640.c, frodo976.c and frodo1344.c parse with the options for the reference implementation and AES128. Run by an interpreter of C, with any AES128 that computes ECB mode also in place, frodo_mul_add_as_plus_e returns 1 without undefined behaviour, leaves A*s + e modulo 2^16 in the output, where A is the matrix that the specification generates from the seed with AES128, and changes nothing else in memory; frodo_mul_add_sa_plus_e does the same for s*A + e.", "quantifier": "all matrices s and e, all seeds, all contents and layouts of the memory that have room, all three parameter sets, all implementations of AES128 that work in place", "why_tests_cant": "The claim is about the meaning of the program text for all inputs and all contents of memory, not about compiled runs on some.", "anchors": ["src/frodo_macrify_reference.c:frodo_mul_add_as_plus_e", "src/frodo_macrify_reference.c:frodo_mul_add_sa_plus_e"]}
{"id": "C86", "title": "The text of the KEM with the reference products with A from AES128 implements the KEM", "statement": "Link the texts of kem.c, noise.c, util.c and frodo_macrify_reference.c, compiled for AES128, with a SHAKE, an AES128 that works also in place and a randombytes that do what they should. crypto_kem_keypair, crypto_kem_enc and crypto_kem_dec return 0 without undefined behaviour and leave in their outputs what the algorithms of the specification for FrodoKEM-640-AES, FrodoKEM-976-AES and FrodoKEM-1344-AES give; nothing else in memory that existed before changes, and the arrays with secrets are zero.", "quantifier": "all random bytes, public keys, ciphertexts and secret keys, all contents and layouts of the memory, all three parameter sets", "why_tests_cant": "The claim is about the meaning of the program text for all inputs, including invalid ciphertexts and keys, and all contents of memory.", "anchors": ["src/kem.c:crypto_kem_keypair", "src/kem.c:crypto_kem_enc", "src/kem.c:crypto_kem_dec", "src/frodo_macrify_reference.c:frodo_mul_add_as_plus_e", "src/frodo_macrify_reference.c:frodo_mul_add_sa_plus_e"]}
{"id": "C87", "title": "The reference implementation with the AES in C calls memcpy with overlapping objects", "statement": "The text of AES128_ECB_enc_sch in aes.c and aes_c.c, called with plaintext and ciphertext in one object less than 16 bytes apart and at least one block, has undefined behaviour (memcpy between overlapping objects). The reference implementation of frodo_mul_add_as_plus_e and frodo_mul_add_sa_plus_e with AES128 calls it with ciphertext == plaintext: with that AES both functions have undefined behaviour for every seed.", "quantifier": "all seeds, all arguments, all contents of memory, all lengths, all three parameter sets", "why_tests_cant": "Compilers turn the copy into code that happens to work, so runs show nothing; the claim is about every execution.", "anchors": ["src/aes/aes_c.c:aes128_enc_c", "src/frodo_macrify_reference.c:frodo_mul_add_as_plus_e", "src/frodo_macrify_reference.c:frodo_mul_add_sa_plus_e"]}
{"id": "C88", "title": "The source text of the generator of the known answer tests is CTR_DRBG", "statement": "The text of tests/rng.c with tests/rng.h, linked with the text of aes.c and aes_c.c and run by an interpreter of C: AES256_CTR_DRBG_Update is CTR_DRBG_Update of SP 800-90A with AES-256, where a null pointer stands for 48 zeros; randombytes_init instantiates the generator, with and without personalization string, from whatever DRBG_ctx held; randombytes returns 0 and writes CTR_DRBG_Generate to the requested part of the buffer, leaves the next state of the standard in DRBG_ctx and increments reseed_counter. No undefined behaviour occurs, and no other object changes. Hence every sequence of requests gets the outputs of the standard.", "quantifier": "all seeds, personalization strings, states, lengths below 2^31, sequences of requests, contents and layouts of memory", "why_tests_cant": "The claim is about the meaning of the program text for all states and lengths, including every carry of the counter and every partial last block.", "anchors": ["tests/rng.c:randombytes", "tests/rng.c:randombytes_init", "tests/rng.c:AES256_CTR_DRBG_Update", "tests/rng.h:AES256_ECB"]}
{"id": "C89", "title": "The source text of the KEM with that of the generator computes the known answers", "statement": "Link the texts of kem.c, noise.c, util.c, the products with A and fips202.c with the texts of tests/rng.c, aes.c and aes_c.c. For every seed: from the state that the text of randombytes_init leaves, crypto_kem_keypair leaves the public and the secret key of the known answer of this seed; from the state that this leaves, crypto_kem_enc leaves its ciphertext and its shared secret. The known answer is a function of the seed given by the specifications of CTR_DRBG and of FrodoKEM alone.", "quantifier": "all seeds of 48 bytes, all contents and layouts of the memory, all three parameter sets, both implementations of the products with A from SHAKE128 and the optimised one with A from AES128", "why_tests_cant": "The files of known answers cover 100 seeds; the claim is about all of them, and about the text rather than a compiled run.", "anchors": ["tests/rng.c:randombytes", "src/kem.c:crypto_kem_keypair", "src/kem.c:crypto_kem_enc", "tests/PQCtestKAT_kem.c:main"]}
{"id": "C90", "title": "The source text of randombytes on Windows reports what the system generator reports", "statement": "With the definitions of the projects for Windows, the text of random.c parses to a function that asks BCryptGenRandom for nbytes mod 2^32 bytes, returns 0 if it succeeds and 1 if it fails, leaves in the buffer what the generator left there, and changes nothing else; a request of 2^32 bytes writes nothing and still returns 0. The texts of frodo640.c, frodo976.c, frodo1344.c and aes.c parse to the same functions as on Unix.", "quantifier": "all lengths, offsets, contents of memory and all behaviours of the system generator, including failures", "why_tests_cant": "The generator fails only when the system does, and the repository has no build in which it can be made to; requests of 4 GiB are not tested.", "anchors": ["src/random/random.c:randombytes", "VisualStudio/frodoKEM-640.vcxproj"]}
{"id": "C91", "title": "On Windows the source text of the KEM reports success when the system generator fails", "statement": "Link the texts of kem.c, noise.c, util.c, frodo_macrify.c, aes.c, aes_c.c and fips202.c with that of randombytes on Windows. Whether BCryptGenRandom succeeds or fails, crypto_kem_keypair and crypto_kem_enc return 0, and leave the keys, or the ciphertext and the shared secret, of FrodoKEM for the bytes that are in the buffer after the call. If it fails and leaves the buffer alone, these are the bytes that were on the stack.", "quantifier": "all behaviours of the system generator, all contents of uninitialised arrays, all contents and layouts of memory, all three parameter sets with A from AES128", "why_tests_cant": "No test of the repository makes the generator fail; that the failure is never reported is a statement about all contents of the stack.", "anchors": ["src/kem.c:crypto_kem_keypair", "src/kem.c:crypto_kem_enc", "src/random/random.c:randombytes"]}
{"id": "C92", "title": "What the source text of the KEM does in memory does not depend on secrets", "statement": "Take the parsed texts of kem.c, noise.c, util.c, frodo_macrify.c or frodo_macrify_reference.c, and fips202.c. Run a function of them twice, with the same pointers and lengths, in memories whose blocks have the same types and lengths but any contents, with any random bytes, any status of randombytes and any contents of uninitialised variables. If both runs return, they have read and written the same elements, computed the same addresses and taken the same branches in the same order. crypto_kem_keypair, crypto_kem_enc and crypto_kem_dec do return, so their traces are the same for all keys, messages and ciphertexts, accepted or rejected.", "quantifier": "all contents of memory (keys, seeds, messages, ciphertexts), all random bytes, all three parameter sets, both implementations", "why_tests_cant": "Timing tests and valgrind runs follow the secrets that were sampled; a branch taken for one key in 2^64 is not seen.", "anchors": ["src/kem.c:crypto_kem_dec", "src/kem.c:crypto_kem_enc", "src/kem.c:crypto_kem_keypair", "src/util.c:ct_verify", "src/util.c:ct_select", "src/noise.c:frodo_sample_n", "src/sha3/fips202.c:KeccakF1600_StatePermute"]}
{"id": "C93", "title": "The text of the KEM with A from AES128 and the text of SHAKE together compute the KEM, with traces free of secrets", "statement": "Take the parsed texts of kem.c, noise.c, util.c, frodo_macrify_reference.c or frodo_macrify.c (compiled for A from AES128) and fips202.c, linked together, and functions AES128_load_schedule, AES128_ECB_enc_sch and AES128_free_schedule that compute AES128, for the reference implementation also in place. Then crypto_kem_keypair, crypto_kem_enc and crypto_kem_dec return 0 with the keys, ciphertexts and secrets of Algorithms 12 to 14, and change no other memory of the caller. If in addition the trace of each of these AES functions does not depend on the contents of memory, as with the AES instructions, then two runs with the same pointers have the same trace, whatever the random bytes, keys, messages and ciphertexts, accepted or rejected. A ciphertext that is not the encryption of what it decrypts to gives the hash of the ciphertext and of the string s of the secret key. On any ciphertext and secret key the two implementations compute the same secret. If the noise is within the bound for correct decoding, key generation, encapsulation and decapsulation by three such programs, each of either implementation, end with the same secret for both parties.", "quantifier": "all random bytes, public keys, secret keys, ciphertexts, placements of the buffers, contents of uninitialised variables; all three parameter sets, both implementations", "why_tests_cant": "Timing tests follow sampled secrets, and the known answers cover honest keys and ciphertexts of this build only for a few seeds.", "anchors": ["src/kem.c:crypto_kem_dec", "src/kem.c:crypto_kem_enc", "src/kem.c:crypto_kem_keypair", "src/frodo_macrify.c:frodo_mul_add_as_plus_e", "src/frodo_macrify_reference.c:frodo_mul_add_as_plus_e", "src/frodo_macrify_reference.c:frodo_mul_add_sa_plus_e", "src/sha3/fips202.c:shake256"]}
