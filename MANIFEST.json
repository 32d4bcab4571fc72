{
 "claims": [
  {
   "property": "C01",
   "status": "proved",
   "theorems": [
    "Frodo.Props.C01_round_trip",
    "Frodo.Props.C01_decrypts_iff"
   ],
   "note": "keypair, enc and dec may even come from three different builds; the noise bound is a hypothesis on the samples (its probability is C02)"
  },
  {
   "property": "C02",
   "status": "proved",
   "theorems": [
    "Frodo.Props.C02_640",
    "Frodo.Props.C02_976",
    "Frodo.Props.C02_1344",
    "Frodo.Props.C02_all",
    "Frodo.Props.C02_noise",
    "Frodo.Props.C02_transmit",
    "Frodo.Props.C02_kem",
    "Frodo.Props.C02_rom",
    "Frodo.Props.C02_failures_exist"
   ],
   "note": "k = 138, 199, 252; counts noise strings; that SHAKE behaves like a random function is outside the model (C02_rom: SHAKE replaced by a uniformly chosen function, with all queries as in the scheme)"
  },
  {
   "property": "C03",
   "status": "proved",
   "theorems": [
    "Frodo.Props.C03_implicit_rejection"
   ],
   "note": ""
  },
  {
   "property": "C04",
   "status": "proved",
   "theorems": [
    "Frodo.Props.C04_non_malleable"
   ],
   "note": ""
  },
  {
   "property": "C05",
   "status": "proved",
   "theorems": [
    "Frodo.Props.C05_keypair"
   ],
   "note": "all impls, generators, AES back ends, byte orders; three parameter sets"
  },
  {
   "property": "C06",
   "status": "proved",
   "theorems": [
    "Frodo.Props.C06_enc"
   ],
   "note": "little endian, and big endian for the reference code; see C09"
  },
  {
   "property": "C07",
   "status": "proved",
   "theorems": [
    "Frodo.Props.C07_dec"
   ],
   "note": "little endian, and big endian for the reference code; see C09; sk at an even address, see C11_dec_odd_address"
  },
  {
   "property": "C08",
   "status": "proved",
   "theorems": [
    "Frodo.Props.C08_keypair",
    "Frodo.Props.C08_enc",
    "Frodo.Props.C08_dec"
   ],
   "note": ""
  },
  {
   "property": "C09",
   "status": "proved",
   "theorems": [
    "Frodo.Props.C08_keypair",
    "Frodo.Props.C08_enc",
    "Frodo.Props.C08_dec",
    "Frodo.Props.C09_enc_big_endian",
    "Frodo.Props.C09_dec_big_endian",
    "Frodo.Props.C09_round_trip_big_endian",
    "Frodo.Props.C09_as_plus_e",
    "Frodo.Props.C09_sa_plus_e_reference",
    "Frodo.Props.C09_sa_plus_e_big_endian",
    "Frodo.Props.C09_counterexample"
   ],
   "note": "true for the reference code and for key generation, refuted for optimised enc and dec on big endian: they use A with swapped bytes"
  },
  {
   "property": "C10",
   "status": "proved",
   "theorems": [
    "Frodo.Props.C10_keypair",
    "Frodo.Props.C10_enc",
    "Frodo.Props.C10_dec"
   ],
   "note": ""
  },
  {
   "property": "C11",
   "status": "proved",
   "theorems": [
    "Frodo.Props.C11_keypair",
    "Frodo.Props.C11_enc",
    "Frodo.Props.C11_dec",
    "Frodo.Props.C11_dec_odd_address"
   ],
   "note": "dec casts sk to uint16_t*, so it needs an even address: for an odd one undefined behaviour is proved"
  },
  {
   "property": "C12",
   "status": "proved",
   "theorems": [
    "Frodo.Props.C12_keypair",
    "Frodo.Props.C12_enc",
    "Frodo.Props.C12_dec"
   ],
   "note": "that the compiler keeps the stores is outside the model; buffers not marked secret are the subject of C47"
  },
  {
   "property": "C13",
   "status": "proved",
   "theorems": [
    "Frodo.Props.C13_dec_trace",
    "Frodo.Props.C13_no_rejection_oracle"
   ],
   "note": ""
  },
  {
   "property": "C14",
   "status": "proved",
   "theorems": [
    "Frodo.Props.C14_keypair_trace",
    "Frodo.Props.C14_enc_trace"
   ],
   "note": "randombytes itself is required not to leak"
  },
  {
   "property": "C15",
   "status": "proved",
   "theorems": [
    "Frodo.Props.C15_sizes",
    "Frodo.Props.C15_keypair",
    "Frodo.Props.C15_enc",
    "Frodo.Props.C15_dec"
   ],
   "note": ""
  },
  {
   "property": "C16",
   "status": "proved",
   "theorems": [
    "Frodo.Props.C16_keypair_ignores_failure",
    "Frodo.Props.C16_enc_ignores_failure"
   ],
   "note": "the statement is false of the code; the refutation is proved for every build"
  },
  {
   "property": "C47",
   "status": "proved",
   "theorems": [
    "Frodo.Props.C47_enc_leftovers",
    "Frodo.Props.C47_dec_leftovers"
   ],
   "note": ""
  },
  {
   "property": "C17",
   "status": "proved",
   "theorems": [
    "Frodo.Props.C17_pack",
    "Frodo.Props.C17_pack_high_bits"
   ],
   "note": "every length and 1..16 bits"
  },
  {
   "property": "C18",
   "status": "proved",
   "theorems": [
    "Frodo.Props.C18_unpack"
   ],
   "note": "every length and 1..16 bits"
  },
  {
   "property": "C19",
   "status": "proved",
   "theorems": [
    "Frodo.Props.C19_unpack_pack"
   ],
   "note": ""
  },
  {
   "property": "C20",
   "status": "proved",
   "theorems": [
    "Frodo.Props.C20_pack_unpack"
   ],
   "note": ""
  },
  {
   "property": "C21",
   "status": "proved",
   "theorems": [
    "Frodo.Props.C21_decode_encode",
    "Frodo.Props.C21_encode",
    "Frodo.Props.C21_decode"
   ],
   "note": ""
  },
  {
   "property": "C22",
   "status": "proved",
   "theorems": [
    "Frodo.Props.C22_tolerance"
   ],
   "note": ""
  },
  {
   "property": "C24",
   "status": "proved",
   "theorems": [
    "Frodo.Props.C24_noise640",
    "Frodo.Props.C24_noise976",
    "Frodo.Props.C24_noise1344",
    "Frodo.Props.C24_symmetric",
    "Frodo.Props.C24_bound"
   ],
   "note": ""
  },
  {
   "property": "C30",
   "status": "proved",
   "theorems": [
    "Frodo.Props.C30_mul_bs",
    "Frodo.Props.C30_mul_add_sb_plus_e",
    "Frodo.Props.C30_add",
    "Frodo.Props.C30_sub"
   ],
   "note": ""
  },
  {
   "property": "C31",
   "status": "proved",
   "theorems": [
    "Frodo.Props.C31_no_overflow"
   ],
   "note": ""
  },
  {
   "property": "C37",
   "status": "proved",
   "theorems": [
    "Frodo.Props.C37_aes128",
    "Frodo.Props.C37_aes256",
    "Frodo.Props.C37_inverse"
   ],
   "note": ""
  },
  {
   "property": "C38",
   "status": "proved",
   "theorems": [
    "Frodo.Props.C38_schedule128",
    "Frodo.Props.C38_schedule256",
    "Frodo.Props.C38_enc128",
    "Frodo.Props.C38_enc256",
    "Frodo.Props.C38_misaligned"
   ],
   "note": "intrinsics are specified after the Intel manual"
  },
  {
   "property": "C39",
   "status": "proved",
   "theorems": [
    "Frodo.Props.C39_ecb128",
    "Frodo.Props.C39_ecb128_inplace",
    "Frodo.Props.C39_ecb256",
    "Frodo.Props.C39_assert"
   ],
   "note": ""
  },
  {
   "property": "C40",
   "status": "proved",
   "theorems": [
    "Frodo.Props.C40_serial",
    "Frodo.Props.C40_sequential",
    "Frodo.Props.C40_ecb",
    "Frodo.Props.C40_private",
    "Frodo.Props.C40_race",
    "Frodo.Props.C40_interference",
    "Frodo.Props.C40_false"
   ],
   "note": "the statement is false of the portable AES; the refutation, the race and the true part are proved; sequentially consistent interleaving of single accesses"
  },
  {
   "property": "C45",
   "status": "proved",
   "theorems": [
    "Frodo.Props.C45_python_keygen",
    "Frodo.Props.C45_python_encaps",
    "Frodo.Props.C45_python_decaps",
    "Frodo.Props.C45_keygen",
    "Frodo.Props.C45_encaps",
    "Frodo.Props.C45_decoders",
    "Frodo.Props.C45_decaps",
    "Frodo.Props.C45_decoders_differ",
    "Frodo.Props.C45_python_decrypts_iff",
    "Frodo.Props.C45_interop"
   ],
   "note": "Python libraries (hashes, AES, bitstring) by the standards they implement; C in every good build"
  },
  {
   "property": "C46",
   "status": "proved",
   "theorems": [
    "Frodo.Props.C46_free128",
    "Frodo.Props.C46_free256",
    "Frodo.Props.C46_as_plus_e",
    "Frodo.Props.C46_sa_plus_e"
   ],
   "note": "that the compiler keeps the memset is outside the model"
  },
  {
   "property": "C23",
   "status": "proved",
   "theorems": [
    "Frodo.Props.C23_sample",
    "Frodo.Props.C23_wraps"
   ],
   "note": "n below 2^32, the range of the counter; from there on the function is proved not to return (C23_wraps)."
  },
  {
   "property": "C41",
   "status": "proved",
   "theorems": [
    "Frodo.Props.C41_fills",
    "Frodo.Props.C41_no_ub",
    "Frodo.Props.C41_consecutive",
    "Frodo.Props.C41_keypair",
    "Frodo.Props.C41_enc"
   ],
   "note": "POSIX read and open are a parameter of the model; conversion to int as on two's complement compilers"
  },
  {
   "property": "C42",
   "status": "proved",
   "theorems": [
    "Frodo.Props.C42_every_length",
    "Frodo.Props.C42_two_gib",
    "Frodo.Props.C42_windows"
   ],
   "note": "the statement is false of the code from 2 GiB on; the refutation and the exact behaviour for every length are proved"
  },
  {
   "property": "C43",
   "status": "proved",
   "theorems": [
    "Frodo.Props.C43_returns_iff",
    "Frodo.Props.C43_delivers",
    "Frodo.Props.C43_no_device",
    "Frodo.Props.C43_end_of_file"
   ],
   "note": ""
  },
  {
   "property": "C44",
   "status": "proved",
   "theorems": [
    "Frodo.Props.C44_counter",
    "Frodo.Props.C44_update",
    "Frodo.Props.C44_init",
    "Frodo.Props.C44_generate",
    "Frodo.Props.C44_ratchet",
    "Frodo.Props.C44_history",
    "Frodo.Props.C44_schedule_erased",
    "Frodo.Props.C44_overflow"
   ],
   "note": "requests below 2^31 bytes; C44_overflow proves undefined behaviour for larger ones"
  },
  {
   "property": "C49",
   "status": "proved",
   "theorems": [
    "Frodo.Props.C49_keypair",
    "Frodo.Props.C49_enc",
    "Frodo.Props.C49_dec",
    "Frodo.Props.C49_correct",
    "Frodo.Props.C49_aborts"
   ],
   "note": "OpenSSL is modelled by its documented behaviour with arbitrary failures"
  },
  {
   "property": "C48",
   "status": "proved",
   "theorems": [
    "Frodo.Props.C48_kat"
   ],
   "note": "every good build; the comparison with the expected files is C53"
  },
  {
   "property": "C50",
   "status": "proved",
   "theorems": [
    "Frodo.Props.C50_tampered",
    "Frodo.Props.C50_kem_test",
    "Frodo.Props.C50_passes",
    "Frodo.Props.C50_corrected",
    "Frodo.Props.C50_misaligned"
   ],
   "note": "the printing is not modelled; the benchmark is C58"
  },
  {
   "property": "C51",
   "status": "proved",
   "theorems": [
    "Frodo.Props.C51_FindMarker",
    "Frodo.Props.C51_long"
   ],
   "note": ""
  },
  {
   "property": "C52",
   "status": "proved",
   "theorems": [
    "Frodo.Props.C52_ReadHex",
    "Frodo.Props.C52_zero",
    "Frodo.Props.C52_fprintBstr",
    "Frodo.Props.C52_roundtrip"
   ],
   "note": ""
  },
  {
   "property": "C53",
   "status": "proved",
   "theorems": [
    "Frodo.Props.C53_unique",
    "Frodo.Props.C53_name",
    "Frodo.Props.C53_main",
    "Frodo.Props.C53_open",
    "Frodo.Props.C53_no_record",
    "Frodo.Props.C53_records",
    "Frodo.Props.C53_accepts"
   ],
   "note": "fopen is an arbitrary function from names to contents; messages are not modelled"
  },
  {
   "property": "C54",
   "status": "proved",
   "theorems": [
    "Frodo.Props.C54_randombytes",
    "Frodo.Props.C54_other_length",
    "Frodo.Props.C54_second_length",
    "Frodo.Props.C54_run",
    "Frodo.Props.C54_agree"
   ],
   "note": "the CTR_DRBG outputs are evaluated in the kernel from the AES-256 specification"
  },
  {
   "property": "C55",
   "status": "proved",
   "theorems": [
    "Frodo.Props.C55_keypair",
    "Frodo.Props.C55_enc",
    "Frodo.Props.C55_dec",
    "Frodo.Props.C55_declared_insufficient",
    "Frodo.Props.C55_keypair_uint32"
   ],
   "note": "alignment only; for the types see C71"
  },
  {
   "property": "C56",
   "status": "proved",
   "theorems": [
    "Frodo.Props.C56_initializeAll",
    "Frodo.Props.C56_addByte",
    "Frodo.Props.C56_addBytes",
    "Frodo.Props.C56_overwriteBytes",
    "Frodo.Props.C56_overwriteWithZeroes",
    "Frodo.Props.C56_extractBytes",
    "Frodo.Props.C56_extractAndAddBytes",
    "Frodo.Props.C56_bytes_safe_iff",
    "Frodo.Props.C56_extractAndAddBytes_safe_iff",
    "Frodo.Props.C56_addLanesAll",
    "Frodo.Props.C56_overwriteLanesAll",
    "Frodo.Props.C56_extractLanesAll",
    "Frodo.Props.C56_extractAndAddLanesAll",
    "Frodo.Props.C56_lanes_safe_iff",
    "Frodo.Props.C56_extractAndAddLanesAll_safe_iff",
    "Frodo.Props.C56_permute12",
    "Frodo.Props.C56_keccakPbits_24",
    "Frodo.Props.C56_fastLoop24",
    "Frodo.Props.C56_fastLoop12",
    "Frodo.Props.C56_fastLoop24_safe_iff",
    "Frodo.Props.C56_fastLoop12_safe_iff",
    "Frodo.Props.C56_interleaved",
    "Frodo.Props.C56_fastLoop_step0",
    "Frodo.Props.C56_shake128",
    "Frodo.Props.C56_shake256",
    "Frodo.Props.C56_overlap",
    "Frodo.Props.C56_overlap_safe_iff",
    "Frodo.Props.C56_overlap_right_iff",
    "Frodo.Props.C56_extractAndAddLanesAll_inPlace"
   ],
   "note": "input and output of ExtractAndAddLanesAll are disjoint or equal; offsets and counts without wrap-around of unsigned int"
  },
  {
   "property": "C57",
   "status": "proved",
   "theorems": [
    "Frodo.Props.C57_dec",
    "Frodo.Props.C57_dec_bytes",
    "Frodo.Props.C57_enc",
    "Frodo.Props.C57_enc_apart",
    "Frodo.Props.C57_enc_apart_bytes",
    "Frodo.Props.C57_enc_iff",
    "Frodo.Props.C57_enc_in_place",
    "Frodo.Props.C57_keypair",
    "Frodo.Props.C57_keypair_overlap",
    "Frodo.Props.C57_keypair_safe_iff",
    "Frodo.Props.C57_keypair_bytes",
    "Frodo.Props.C57_keypair_apart",
    "Frodo.Props.C57_keypair_apart_bytes",
    "Frodo.Props.C57_keypair_leak",
    "Frodo.Props.C57_round_trip"
   ],
   "note": "all buffers of the caller in one array; the local arrays are separate objects"
  },
  {
   "property": "C58",
   "status": "proved",
   "theorems": [
    "Frodo.Props.C58_iterations",
    "Frodo.Props.C58_two",
    "Frodo.Props.C58_low",
    "Frodo.Props.C58_low_mod",
    "Frodo.Props.C58_high",
    "Frodo.Props.C58_full_wrap",
    "Frodo.Props.C58_long32",
    "Frodo.Props.C58_long64",
    "Frodo.Props.C58_windows",
    "Frodo.Props.C58_windows_elapsed",
    "Frodo.Props.C58_windows_overflow",
    "Frodo.Props.C58_arm",
    "Frodo.Props.C58_arm_elapsed",
    "Frodo.Props.C58_arm_same",
    "Frodo.Props.C58_seconds",
    "Frodo.Props.C58_seconds_zero",
    "Frodo.Props.C58_ends",
    "Frodo.Props.C58_endless",
    "Frodo.Props.C58_set_back",
    "Frodo.Props.C58_kem_bench",
    "Frodo.Props.C58_kem_bench_success",
    "Frodo.Props.C58_main_nobench",
    "Frodo.Props.C58_main_bench"
   ],
   "note": "numbers of type double are real numbers without rounding; the readings of the clock and of the counter are parameters; what the Windows API and clock_gettime answer is taken from their documentation"
  },
  {
   "property": "C59",
   "status": "proved",
   "theorems": [
    "Frodo.Props.C59_filled",
    "Frodo.Props.C59_no_race",
    "Frodo.Props.C59_race",
    "Frodo.Props.C59_descriptors",
    "Frodo.Props.C59_leak",
    "Frodo.Props.C59_leak_unbounded",
    "Frodo.Props.C59_blocked",
    "Frodo.Props.C59_wait_free",
    "Frodo.Props.C59_alone"
   ],
   "note": "sequentially consistent interleaving of single accesses to lock and of system calls; the descriptors and the answers of the operating system are arbitrary"
  },
  {
   "property": "C60",
   "status": "proved",
   "theorems": [
    "Frodo.Props.C60_accepts",
    "Frodo.Props.C60_selects",
    "Frodo.Props.C60_instructions",
    "Frodo.Props.C60_byte_order",
    "Frodo.Props.C60_computes",
    "Frodo.Props.C60_kat",
    "Frodo.Props.C60_links",
    "Frodo.Props.C60_symbols",
    "Frodo.Props.C60_config_accepts",
    "Frodo.Props.C60_config_selects",
    "Frodo.Props.C60_one_level",
    "Frodo.Props.C60_visual_studio",
    "Frodo.Props.C60_stale",
    "Frodo.Props.C60_clean",
    "Frodo.Props.C60_stale_wrong"
   ],
   "note": "the options are arbitrary strings, the compiler is given by the macros that it defines; objects are modelled by the external symbols that they define and use"
  },
  {
   "property": "C61",
   "status": "proved",
   "theorems": [
    "Frodo.Props.C61_schedule",
    "Frodo.Props.C61_dec",
    "Frodo.Props.C61_enc",
    "Frodo.Props.C61_keypair",
    "Frodo.Props.C61_valgrind_dec"
   ],
   "note": "leakage model of C13 and C14; nothing is said about builds with OpenSSL, whose leakage is unknown"
  },
  {
   "property": "C62",
   "status": "proved",
   "theorems": [
    "Frodo.Props.C62_ct",
    "Frodo.Props.C62_same_ct",
    "Frodo.Props.C62_accepted",
    "Frodo.Props.C62_pk",
    "Frodo.Props.C62_rejected",
    "Frodo.Props.C62_accepted_count",
    "Frodo.Props.C62_pk_unbound",
    "Frodo.Props.C62_honest"
   ],
   "note": "collisions are given explicitly by the runs; that SHAKE has no known collision is outside the model"
  },
  {
   "property": "C63",
   "status": "proved",
   "theorems": [
    "Frodo.Props.C63_cpa",
    "Frodo.Props.C63_seed",
    "Frodo.Props.C63_keygen",
    "Frodo.Props.C63_encrypt",
    "Frodo.Props.C63_decrypt"
   ],
   "note": "that LWE is hard and that SHAKE expands seeds well is outside the model; attackers have no running time, the distinguishers are explicit"
  },
  {
   "property": "C64",
   "status": "proved",
   "theorems": [
    "Frodo.Props.C64_cca",
    "Frodo.Props.C64_lwe",
    "Frodo.Props.C64_strings",
    "Frodo.Props.C64_encaps",
    "Frodo.Props.C64_decaps",
    "Frodo.Props.C64_code"
   ],
   "note": "classical random oracle model for the two functions, one key; that SHAKE behaves like this is outside the model"
  },
  {
   "property": "C65",
   "status": "proved",
   "theorems": [
    "Frodo.Props.C65_rounds24",
    "Frodo.Props.C65_rounds12",
    "Frodo.Props.C65_roundsN",
    "Frodo.Props.C65_text",
    "Frodo.Props.C65_conf"
   ],
   "note": "the lanes that a macro of a round leaves in its source are not kept, nothing reads them; a configuration is judged only by the counter of the loops"
  },
  {
   "property": "C66",
   "status": "proved",
   "theorems": [
    "Frodo.Props.C66_found",
    "Frodo.Props.C66_conflict",
    "Frodo.Props.C66_silent",
    "Frodo.Props.C66_arm",
    "Frodo.Props.C66_check"
   ],
   "note": "macros that are compared have values; a macro with an empty body is outside the model"
  },
  {
   "property": "C67",
   "status": "proved",
   "theorems": [
    "Frodo.Props.C67_all",
    "Frodo.Props.C67_tests",
    "Frodo.Props.C67_lib",
    "Frodo.Props.C67_kats",
    "Frodo.Props.C67_parallel_tests",
    "Frodo.Props.C67_parallel_kats",
    "Frodo.Props.C67_parallel_fails",
    "Frodo.Props.C67_parallel_clean",
    "Frodo.Props.C67_parallel_loses",
    "Frodo.Props.C67_parallel_fixed",
    "Frodo.Props.C67_ci"
   ],
   "note": "commands are atomic; compilation of the objects succeeds and is left out"
  },
  {
   "property": "C68",
   "status": "proved",
   "theorems": [
    "Frodo.Props.C68_data_independent",
    "Frodo.Props.C68_fast",
    "Frodo.Props.C68_fast_reached",
    "Frodo.Props.C68_reference",
    "Frodo.Props.C68_programs"
   ],
   "note": "arrays only: no scalars, no padding for alignment, no registers saved by the compiler; functions of other libraries are left out"
  },
  {
   "property": "C69",
   "status": "proved",
   "theorems": [
    "Frodo.Props.C69_decrypt128",
    "Frodo.Props.C69_decrypt256",
    "Frodo.Props.C69_injective",
    "Frodo.Props.C69_permutation",
    "Frodo.Props.C69_words",
    "Frodo.Props.C69_blocks"
   ],
   "note": ""
  },
  {
   "property": "C70",
   "status": "proved",
   "theorems": [
    "Frodo.Props.C70_keccakf",
    "Frodo.Props.C70_times4",
    "Frodo.Props.C70_squeeze"
   ],
   "note": "of the four states at once, alignment of the two shuffle tables is a hypothesis"
  },
  {
   "property": "C71",
   "status": "proved",
   "theorems": [
    "Frodo.Props.C71_keypair",
    "Frodo.Props.C71_enc",
    "Frodo.Props.C71_dec",
    "Frodo.Props.C71_clean",
    "Frodo.Props.C71_dec_declared",
    "Frodo.Props.C71_dec_copy",
    "Frodo.Props.C71_session",
    "Frodo.Props.C71_dec_read",
    "Frodo.Props.C71_kem_test"
   ],
   "note": "arrays only; buffers of the caller do not overlap; vector types as gcc and clang treat them"
  },
  {
   "property": "C93",
   "status": "proved",
   "theorems": [
    "Frodo.Props.C93_keypair",
    "Frodo.Props.C93_enc",
    "Frodo.Props.C93_dec",
    "Frodo.Props.C93_trace_keypair",
    "Frodo.Props.C93_trace_enc",
    "Frodo.Props.C93_trace_dec",
    "Frodo.Props.C93_opt_keypair",
    "Frodo.Props.C93_opt_enc",
    "Frodo.Props.C93_opt_dec",
    "Frodo.Props.C93_opt_trace_keypair",
    "Frodo.Props.C93_opt_trace_enc",
    "Frodo.Props.C93_opt_trace_dec",
    "Frodo.Props.C93_round_trip",
    "Frodo.Props.C93_agree",
    "Frodo.Props.C93_reject"
   ],
   "note": "on the text of the KEM and of SHAKE; the functions for AES128 are given: they work in place for the reference implementation and, for the traces, have no secret indices"
  },
  {
   "property": "C92",
   "status": "proved",
   "theorems": [
    "Frodo.Props.C92_functions",
    "Frodo.Props.C92_verify",
    "Frodo.Props.C92_select",
    "Frodo.Props.C92_shake",
    "Frodo.Props.C92_keypair",
    "Frodo.Props.C92_enc",
    "Frodo.Props.C92_dec",
    "Frodo.Props.C92_aes",
    "Frodo.Props.C92_aes_ref"
   ],
   "note": "on the text, both implementations with SHAKE128; with AES128 given that the AES functions have no secret indices; random generator outside"
  },
  {
   "property": "C91",
   "status": "proved",
   "theorems": [
    "Frodo.Props.C91_keypair",
    "Frodo.Props.C91_enc",
    "Frodo.Props.C91_keypair_stack"
   ],
   "note": "a finding: kem.c does not look at the result of randombytes; optimised implementation without intrinsics with AES128 in C, as in the Generic projects of /repo/VisualStudio"
  },
  {
   "property": "C90",
   "status": "proved",
   "theorems": [
    "Frodo.Props.C90_parse",
    "Frodo.Props.C90_bytes",
    "Frodo.Props.C90_four_gib"
   ],
   "note": "Windows branch; BCryptGenRandom may succeed or fail in any way"
  },
  {
   "property": "C89",
   "status": "proved",
   "theorems": [
    "Frodo.Props.C89_kat",
    "Frodo.Props.C89_kat_aes"
   ],
   "note": "both implementations with SHAKE128, and the optimised one with AES128, little-endian; the state of the generator between the two calls is that of C88"
  },
  {
   "property": "C88",
   "status": "proved",
   "theorems": [
    "Frodo.Props.C88_parse",
    "Frodo.Props.C88_update",
    "Frodo.Props.C88_init",
    "Frodo.Props.C88_generate",
    "Frodo.Props.C88_history"
   ],
   "note": "with the AES in C, also given by its text; requests below 2^31 bytes"
  },
  {
   "property": "C87",
   "status": "proved",
   "theorems": [
    "Frodo.Props.C87_overlap",
    "Frodo.Props.C87_as",
    "Frodo.Props.C87_sa"
   ],
   "note": "a finding: the reference implementation with AES128 in C is undefined in C11 because of memcpy onto the same block"
  },
  {
   "property": "C86",
   "status": "proved",
   "theorems": [
    "Frodo.Props.C86_keypair",
    "Frodo.Props.C86_enc",
    "Frodo.Props.C86_dec"
   ],
   "note": "reference implementation with AES128 on little-endian machines; SHAKE, AES128 (which must work in place) and randombytes are hypotheses"
  },
  {
   "property": "C85",
   "status": "proved",
   "theorems": [
    "Frodo.Props.C85_parse",
    "Frodo.Props.C85_as",
    "Frodo.Props.C85_sa"
   ],
   "note": "reference implementation on little-endian machines, for any AES128 that also works in place"
  },
  {
   "property": "C84",
   "status": "proved",
   "theorems": [
    "Frodo.Props.C84_keypair",
    "Frodo.Props.C84_enc",
    "Frodo.Props.C84_dec",
    "Frodo.Props.C84_round_trip",
    "Frodo.Props.C84_reject",
    "Frodo.Props.C84_os_keypair",
    "Frodo.Props.C84_os_enc"
   ],
   "note": "optimised implementation without intrinsics with AES128 in C, on little-endian machines"
  },
  {
   "property": "C83",
   "status": "proved",
   "theorems": [
    "Frodo.Props.C83_parse",
    "Frodo.Props.C83_as",
    "Frodo.Props.C83_sa"
   ],
   "note": "optimised implementation without intrinsics, AES128 in C, little-endian machines"
  },
  {
   "property": "C82",
   "status": "proved",
   "theorems": [
    "Frodo.Props.C82_keypair",
    "Frodo.Props.C82_enc",
    "Frodo.Props.C82_round_trip"
   ],
   "note": "reference implementation and optimised implementation without intrinsics, with SHAKE128, on little-endian Unix machines; only the system calls open and read are outside the text"
  },
  {
   "property": "C81",
   "status": "proved",
   "theorems": [
    "Frodo.Props.C81_parse",
    "Frodo.Props.C81_start",
    "Frodo.Props.C81_fills",
    "Frodo.Props.C81_two_gib"
   ],
   "note": "Unix branch; the system calls open and read as POSIX describes them"
  },
  {
   "property": "C80",
   "status": "proved",
   "theorems": [
    "Frodo.Props.C80_parse",
    "Frodo.Props.C80_ecb128",
    "Frodo.Props.C80_ecb256",
    "Frodo.Props.C80_free128",
    "Frodo.Props.C80_free256",
    "Frodo.Props.C80_assert128",
    "Frodo.Props.C80_assert256"
   ],
   "note": "standalone implementation without AES-NI; plaintext and ciphertext in different blocks"
  },
  {
   "property": "C79",
   "status": "proved",
   "theorems": [
    "Frodo.Props.C79_round_trip",
    "Frodo.Props.C79_reject",
    "Frodo.Props.C79_agree"
   ],
   "note": "reference implementation and optimised implementation without intrinsics, with SHAKE128, on little-endian machines; randombytes as given"
  },
  {
   "property": "C78",
   "status": "proved",
   "theorems": [
    "Frodo.Props.C78_parse",
    "Frodo.Props.C78_as",
    "Frodo.Props.C78_sa"
   ],
   "note": "reference implementation and optimised implementation without intrinsics, with SHAKE128, on a little-endian machine"
  },
  {
   "property": "C77",
   "status": "proved",
   "theorems": [
    "Frodo.Props.C77_keypair",
    "Frodo.Props.C77_enc",
    "Frodo.Props.C77_dec",
    "Frodo.Props.C76_parse",
    "Frodo.Props.C74_parse",
    "Frodo.Props.C78_parse"
   ],
   "note": "reference implementation and optimised implementation without intrinsics, with SHAKE128, on a little-endian machine; only randombytes is outside of the text and enters as a hypothesis"
  },
  {
   "property": "C76",
   "status": "proved",
   "theorems": [
    "Frodo.Props.C76_parse",
    "Frodo.Props.C76_permute",
    "Frodo.Props.C76_shake128",
    "Frodo.Props.C76_shake256"
   ],
   "note": "little-endian machine, lengths below 2^31"
  },
  {
   "property": "C75",
   "status": "proved",
   "theorems": [
    "Frodo.Props.C75_keypair",
    "Frodo.Props.C75_enc",
    "Frodo.Props.C75_dec",
    "Frodo.Props.C74_parse",
    "Frodo.Props.C74_units",
    "Frodo.Props.C78_parse"
   ],
   "note": "reference implementation and optimised implementation without intrinsics, with SHAKE128, on a little-endian machine; shake128, shake256 and randombytes are outside of the text and enter as hypotheses"
  },
  {
   "property": "C74",
   "status": "proved",
   "theorems": [
    "Frodo.Props.C74_parse",
    "Frodo.Props.C74_units",
    "Frodo.Props.C74_pack",
    "Frodo.Props.C74_unpack",
    "Frodo.Props.C74_ct_verify",
    "Frodo.Props.C74_ct_select",
    "Frodo.Props.C74_clear_bytes",
    "Frodo.Props.C74_sample",
    "Frodo.Props.C74_mul_bs",
    "Frodo.Props.C74_mul_add_sb_plus_e",
    "Frodo.Props.C74_add",
    "Frodo.Props.C74_sub",
    "Frodo.Props.C74_key_encode",
    "Frodo.Props.C74_key_decode",
    "Frodo.Props.C74_roundtrip",
    "Frodo.Props.C74_ct_verify_trace",
    "Frodo.Props.C74_ct_select_trace",
    "Frodo.Props.C74_sample_trace",
    "Frodo.Props.C74_mul_bs_trace",
    "Frodo.Props.C74_key_decode_trace"
   ],
   "note": "for the functions listed, with the semantics of Verif/C/Sem.lean; values for all, traces for five"
  },
  {
   "property": "C73",
   "status": "proved",
   "theorems": [
    "Frodo.Props.C73_renyi",
    "Frodo.Props.C73_total",
    "Frodo.Props.C73_events",
    "Frodo.Props.C73_moments"
   ],
   "note": "the Gaussian is Mathlib's gaussianReal; words are counted, not drawn"
  },
  {
   "property": "C72",
   "status": "proved",
   "theorems": [
    "Frodo.Props.C72_same",
    "Frodo.Props.C72_message",
    "Frodo.Props.C72_output",
    "Frodo.Props.C72_state",
    "Frodo.Props.C72_same_keypair",
    "Frodo.Props.C72_same_enc",
    "Frodo.Props.C72_same_dec",
    "Frodo.Props.C72_keypair",
    "Frodo.Props.C72_enc",
    "Frodo.Props.C72_dec"
   ],
   "note": "contents of the arrays when the function that owns them returns; what later calls happen to overwrite is not modelled"
  },
  {
   "property": "C25",
   "status": "proved",
   "theorems": [
    "Frodo.Props.C25_ct_verify"
   ],
   "note": ""
  },
  {
   "property": "C26",
   "status": "proved",
   "theorems": [
    "Frodo.Props.C26_ct_select"
   ],
   "note": ""
  },
  {
   "property": "C27",
   "status": "proved",
   "theorems": [
    "Frodo.Props.C27_clear_bytes"
   ],
   "note": ""
  },
  {
   "property": "C32",
   "status": "proved",
   "theorems": [
    "Frodo.Props.C32_shake128",
    "Frodo.Props.C32_shake256"
   ],
   "note": ""
  },
  {
   "property": "C33",
   "status": "proved",
   "theorems": [
    "Frodo.Props.C33_keccakf",
    "Frodo.Props.C33_keccakf_4x"
   ],
   "note": ""
  },
  {
   "property": "C36",
   "status": "proved",
   "theorems": [
    "Frodo.Props.C36_shake128_4x",
    "Frodo.Props.C36_same_as_shake128",
    "Frodo.Props.C36_incremental",
    "Frodo.Props.C36_squeezeblocks",
    "Frodo.Props.C36_misaligned",
    "Frodo.Props.C14_shake128_4x_trace"
   ],
   "note": "vector intrinsics are specified after the Intel manual; alignment of the two shuffle tables is a hypothesis"
  },
  {
   "property": "C34",
   "status": "proved",
   "theorems": [
    "Frodo.Props.C34_prefix128",
    "Frodo.Props.C34_prefix256"
   ],
   "note": ""
  },
  {
   "property": "C35",
   "status": "proved",
   "theorems": [
    "Frodo.Props.C35_incremental128",
    "Frodo.Props.C35_incremental256",
    "Frodo.Props.C35_agrees128",
    "Frodo.Props.C35_agrees256",
    "Frodo.Props.C35_truncates"
   ],
   "note": "Messages below 2^32 bytes; C35_truncates shows that longer ones are cut."
  },
  {
   "property": "C28",
   "status": "proved",
   "theorems": [
    "Frodo.Props.C28_as_plus_e",
    "Frodo.Props.C28_as_plus_e_mod_q"
   ],
   "note": "all impls, both generators, both AES back ends, both byte orders"
  },
  {
   "property": "C29",
   "status": "proved",
   "theorems": [
    "Frodo.Props.C29_sa_plus_e",
    "Frodo.Props.C29_sa_plus_e_mod_q"
   ],
   "note": "little endian, and big endian for the reference code; see C09 for optimised code on big endian"
  }
 ]
}