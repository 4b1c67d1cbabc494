{
 "claims": [
  {
   "property": "C01",
   "status": "proved",
   "theorems": [
    "Verif.Props.C01_keygen"
   ],
   "note": ""
  },
  {
   "property": "C02",
   "status": "proved",
   "theorems": [
    "Verif.Props.C02_encaps"
   ],
   "note": ""
  },
  {
   "property": "C03",
   "status": "proved",
   "theorems": [
    "Verif.Props.C03_decaps"
   ],
   "note": ""
  },
  {
   "property": "C04",
   "status": "proved",
   "theorems": [
    "Verif.Props.C04_modulus_check",
    "Verif.Props.C04_reencode"
   ],
   "note": ""
  },
  {
   "property": "C05",
   "status": "proved",
   "theorems": [
    "Verif.Props.C05_hash_check"
   ],
   "note": ""
  },
  {
   "property": "C06",
   "status": "proved",
   "theorems": [
    "Verif.Props.C06_enc",
    "Verif.Props.C06_dec"
   ],
   "note": ""
  },
  {
   "property": "C07",
   "status": "proved",
   "theorems": [
    "Verif.Props.C07_generated_keys_accepted"
   ],
   "note": ""
  },
  {
   "property": "C08",
   "status": "proved",
   "theorems": [
    "Verif.Props.C08_round_trip_exact",
    "Verif.Props.C08_round_trip",
    "Verif.Props.C08_decrypt_iff"
   ],
   "note": "The failure event is stated exactly per run; C73 bounds how many noise bytes lead to it."
  },
  {
   "property": "C09",
   "status": "proved",
   "theorems": [
    "Verif.Props.C09_implicit_rejection"
   ],
   "note": ""
  },
  {
   "property": "C10",
   "status": "proved",
   "theorems": [
    "Verif.Props.C10_memory_safe"
   ],
   "note": "Portable C build; C47 is the analogue for x86_64."
  },
  {
   "property": "C11",
   "status": "proved",
   "theorems": [
    "Verif.Props.C11_no_uninit",
    "Verif.Props.C11_keygen_independent",
    "Verif.Props.C11_enc_independent",
    "Verif.Props.C11_dec_independent"
   ],
   "note": "Portable C build; C47 is the analogue for x86_64."
  },
  {
   "property": "C12",
   "status": "proved",
   "theorems": [
    "Verif.Props.C12_arithmetic"
   ],
   "note": "Portable C build; C47 is the analogue for x86_64."
  },
  {
   "property": "C13",
   "status": "proved",
   "theorems": [
    "Verif.Props.C13_enc_derand",
    "Verif.Props.C13_enc",
    "Verif.Props.C13_trace_of_pk"
   ],
   "note": "Leakage model: element addresses, branch outcomes and operands of divisions and remainders (not by a literal power of two). C48 is the analogue for x86_64."
  },
  {
   "property": "C14",
   "status": "proved",
   "theorems": [
    "Verif.Props.C14_dec",
    "Verif.Props.C14_trace_of_pk"
   ],
   "note": "Leakage model: element addresses, branch outcomes and operands of divisions and remainders (not by a literal power of two). C48 is the analogue for x86_64."
  },
  {
   "property": "C15",
   "status": "proved",
   "theorems": [
    "Verif.Props.C15_keypair_derand",
    "Verif.Props.C15_keypair",
    "Verif.Props.C15_trace_of_rho"
   ],
   "note": "Leakage model: element addresses, branch outcomes and operands of divisions and remainders (not by a literal power of two). C48 is the analogue for x86_64."
  },
  {
   "property": "C16",
   "status": "proved",
   "theorems": [
    "Verif.Props.C16_keypair",
    "Verif.Props.C16_enc"
   ],
   "note": ""
  },
  {
   "property": "C17",
   "status": "proved",
   "theorems": [
    "Verif.Props.C17_tobytes",
    "Verif.Props.C17_frombytes",
    "Verif.Props.C17_roundtrip",
    "Verif.Props.C17_bijection"
   ],
   "note": ""
  },
  {
   "property": "C18",
   "status": "proved",
   "theorems": [
    "Verif.Props.C18_compress",
    "Verif.Props.C18_decompress",
    "Verif.Props.C18_roundtrip",
    "Verif.Props.C18_error"
   ],
   "note": ""
  },
  {
   "property": "C19",
   "status": "proved",
   "theorems": [
    "Verif.Props.C19_du",
    "Verif.Props.C19_dv",
    "Verif.Props.C19_ciphertext",
    "Verif.Props.C19_injective"
   ],
   "note": ""
  },
  {
   "property": "C20",
   "status": "proved",
   "theorems": [
    "Verif.Props.C20_ntt"
   ],
   "note": ""
  },
  {
   "property": "C21",
   "status": "proved",
   "theorems": [
    "Verif.Props.C21_invntt",
    "Verif.Props.C21_inverse"
   ],
   "note": ""
  },
  {
   "property": "C22",
   "status": "proved",
   "theorems": [
    "Verif.Props.C22_product",
    "Verif.Props.C22_inner_product"
   ],
   "note": ""
  },
  {
   "property": "C23",
   "status": "proved",
   "theorems": [
    "Verif.Props.C23_barrett",
    "Verif.Props.C23_barrett_unique",
    "Verif.Props.C23_montgomery",
    "Verif.Props.C23_fqmul",
    "Verif.Props.C23_poly_reduce"
   ],
   "note": ""
  },
  {
   "property": "C24",
   "status": "proved",
   "theorems": [
    "Verif.Props.C24_eta1",
    "Verif.Props.C24_eta2",
    "Verif.Props.C24_range",
    "Verif.Props.C24_getnoise",
    "Verif.Props.C24_distribution_eta1",
    "Verif.Props.C24_distribution_eta2"
   ],
   "note": ""
  },
  {
   "property": "C25",
   "status": "proved",
   "theorems": [
    "Verif.Props.C25_rej_uniform",
    "Verif.Props.C25_entry",
    "Verif.Props.C25_entry_x4",
    "Verif.Props.C25_matrix",
    "Verif.Props.C25_cut",
    "Verif.Props.C25_SampleNTT",
    "Verif.Props.C25_uniform",
    "Verif.Props.C25_equally_likely",
    "Verif.Props.C25_every_result"
   ],
   "note": "Rejection sampling has a budget of refills, universally quantified."
  },
  {
   "property": "C26",
   "status": "proved",
   "theorems": [
    "Verif.Props.C26_sha3_256",
    "Verif.Props.C26_sha3_512",
    "Verif.Props.C26_shake256"
   ],
   "note": "Message length + 200 < 2^64."
  },
  {
   "property": "C27",
   "status": "proved",
   "theorems": [
    "Verif.Props.C27_incremental"
   ],
   "note": "Any sequence of absorb and squeeze calls, by induction over the history."
  },
  {
   "property": "C28",
   "status": "proved",
   "theorems": [
    "Verif.Props.C28_shake256x4",
    "Verif.Props.C28_shake128x4"
   ],
   "note": ""
  },
  {
   "property": "C29",
   "status": "proved",
   "theorems": [
    "Verif.Props.C29_permutation",
    "Verif.Props.C29_determined"
   ],
   "note": ""
  },
  {
   "property": "C30",
   "status": "proved",
   "theorems": [
    "Verif.Props.C30_xor",
    "Verif.Props.C30_extract"
   ],
   "note": ""
  },
  {
   "property": "C31",
   "status": "proved",
   "theorems": [
    "Verif.Props.C31_memcmp",
    "Verif.Props.C31_cmov",
    "Verif.Props.C31_masks"
   ],
   "note": ""
  },
  {
   "property": "C32",
   "status": "proved",
   "theorems": [
    "Verif.Props.C32_message_survives",
    "Verif.Props.C32_tight"
   ],
   "note": ""
  },
  {
   "property": "C33",
   "status": "proved",
   "theorems": [
    "Verif.Props.C33_keygen_layout",
    "Verif.Props.C33_enc_layout",
    "Verif.Props.C33_dec_layout",
    "Verif.Props.C33_sizes"
   ],
   "note": ""
  },
  {
   "property": "C34",
   "status": "proved",
   "theorems": [
    "Verif.Props.C34_accepted_is_honest",
    "Verif.Props.C34_exactly",
    "Verif.Props.C34_modified"
   ],
   "note": ""
  },
  {
   "property": "C35",
   "status": "proved",
   "theorems": [
    "Verif.Props.C35_more_budget_keypair_derand",
    "Verif.Props.C35_more_budget_keypair",
    "Verif.Props.C35_more_budget_enc_derand",
    "Verif.Props.C35_more_budget_enc",
    "Verif.Props.C35_more_budget_dec",
    "Verif.Props.C35_keygen",
    "Verif.Props.C35_encaps",
    "Verif.Props.C35_decaps",
    "Verif.Props.C35_accepted_distribution",
    "Verif.Props.C35_first_blocks",
    "Verif.Props.C35_refills"
   ],
   "note": "Unconditional termination is a statement about SHAKE128 and not provable; the exact condition is proved, and how many byte strings of each length meet it."
  },
  {
   "property": "C36",
   "status": "proved",
   "theorems": [
    "Verif.Props.C36_sha3_256",
    "Verif.Props.C36_sha3_512",
    "Verif.Props.C36_shake256",
    "Verif.Props.C36_shake256x4",
    "Verif.Props.C36_shake128_absorb",
    "Verif.Props.C36_shake128_squeezeblocks",
    "Verif.Props.C36_sha3_256_trace",
    "Verif.Props.C36_sha3_512_trace",
    "Verif.Props.C36_shake256_trace",
    "Verif.Props.C36_shake256x4_trace",
    "Verif.Props.C36_incremental_trace",
    "Verif.Props.C36_shake128_trace",
    "Verif.Props.C36_shake128x4_trace"
   ],
   "note": "Leakage model: element addresses, branch outcomes and operands of divisions and remainders (not by a literal power of two). The C36_*_trace theorems speak of complete calls and sessions and their traces; the others are about the internal relation."
  },
  {
   "property": "C37",
   "status": "proved",
   "theorems": [
    "Verif.Props.C37_keccak_x4_avx2"
   ],
   "note": "Intrinsics modelled by their documented meaning."
  },
  {
   "property": "C38",
   "status": "proved",
   "theorems": [
    "Verif.Props.C38_native",
    "Verif.Props.C38_native_declines",
    "Verif.Props.C38_rej_uniform",
    "Verif.Props.C38_same_as_portable",
    "Verif.Props.C38_rej_uniform_bmi"
   ],
   "note": "Intrinsics modelled by their documented meaning. C38_rej_uniform_bmi covers the BMI branches."
  },
  {
   "property": "C39",
   "status": "proved",
   "theorems": [
    "Verif.Props.C39_ntt",
    "Verif.Props.C39_same_as_portable"
   ],
   "note": "Instruction semantics from Intel's manual; program generated from ntt.S."
  },
  {
   "property": "C40",
   "status": "proved",
   "theorems": [
    "Verif.Props.C40_invntt",
    "Verif.Props.C40_inverse"
   ],
   "note": "Instruction semantics from Intel's manual; program generated from intt.S."
  },
  {
   "property": "C41",
   "status": "proved",
   "theorems": [
    "Verif.Props.C41_basemul",
    "Verif.Props.C41_inner_product"
   ],
   "note": "Instruction semantics from Intel's manual; program generated from basemul.S."
  },
  {
   "property": "C42",
   "status": "proved",
   "theorems": [
    "Verif.Props.C42_reduce",
    "Verif.Props.C42_tomont",
    "Verif.Props.C42_tobytes",
    "Verif.Props.C42_frombytes",
    "Verif.Props.C42_tobytes_frame",
    "Verif.Props.C42_permute",
    "Verif.Props.C42_nttpack"
   ],
   "note": "Instruction semantics from Intel's manual; programs generated from fq.S and shuffle.S."
  },
  {
   "property": "C43",
   "status": "proved",
   "theorems": [
    "Verif.Props.C43_keygen"
   ],
   "note": "For arbitrary contents of the vector registers at each call."
  },
  {
   "property": "C44",
   "status": "proved",
   "theorems": [
    "Verif.Props.C44_encaps",
    "Verif.Props.C44_rejects"
   ],
   "note": "For arbitrary contents of the vector registers at each call."
  },
  {
   "property": "C45",
   "status": "proved",
   "theorems": [
    "Verif.Props.C45_decaps",
    "Verif.Props.C45_rejects"
   ],
   "note": "For arbitrary contents of the vector registers at each call."
  },
  {
   "property": "C46",
   "status": "proved",
   "theorems": [
    "Verif.Props.C46_keypair",
    "Verif.Props.C46_enc",
    "Verif.Props.C46_dec",
    "Verif.Props.C46_interoperate"
   ],
   "note": "Equality of outcomes call by call, errors and budget included."
  },
  {
   "property": "C47",
   "status": "proved",
   "theorems": [
    "Verif.Props.C47_safe"
   ],
   "note": "For arbitrary contents of the vector registers at each call."
  },
  {
   "property": "C48",
   "status": "proved",
   "theorems": [
    "Verif.Props.C48_enc_derand",
    "Verif.Props.C48_dec",
    "Verif.Props.C48_keypair_derand"
   ],
   "note": "The two compared runs may find different contents in the vector registers at each call."
  },
  {
   "property": "C49",
   "status": "proved",
   "theorems": [
    "Verif.Props.C49_ntt",
    "Verif.Props.C49_invntt",
    "Verif.Props.C49_inverse"
   ],
   "note": "For arbitrary register contents and both profiles."
  },
  {
   "property": "C50",
   "status": "proved",
   "theorems": [
    "Verif.Props.C50_basemul",
    "Verif.Props.C50_inner_product"
   ],
   "note": "For arbitrary register contents and both profiles."
  },
  {
   "property": "C51",
   "status": "proved",
   "theorems": [
    "Verif.Props.C51_reduce",
    "Verif.Props.C51_tomont",
    "Verif.Props.C51_tobytes",
    "Verif.Props.C51_tobytes_frame"
   ],
   "note": "For arbitrary register contents and both profiles; poly_frombytes has no AArch64 version at this commit."
  },
  {
   "property": "C52",
   "status": "proved",
   "theorems": [
    "Verif.Props.C52_native",
    "Verif.Props.C52_native_declines",
    "Verif.Props.C52_rej_uniform",
    "Verif.Props.C52_transcription",
    "Verif.Props.C52_instructions"
   ],
   "note": "For arbitrary contents of the stack buffer. C52_instructions is about the program of instructions generated from the assembly file, C52_transcription relates it to the loop-level model that the theorems on whole AArch64 builds use; both for inputs below 2^32 bytes."
  },
  {
   "property": "C53",
   "status": "proved",
   "theorems": [
    "Verif.Props.C53_ntt",
    "Verif.Props.C53_reduce",
    "Verif.Props.C53_mulcache",
    "Verif.Props.C53_tobytes",
    "Verif.Props.C53_basemul",
    "Verif.Props.C53_rej_uniform"
   ],
   "note": "The models have 64 bytes (the rejection sampler: 576 bytes) of stack below the stack pointer at the call; using more is an error outcome."
  },
  {
   "property": "C54",
   "status": "proved",
   "theorems": [
    "Verif.Props.C54_keygen",
    "Verif.Props.C54_encaps",
    "Verif.Props.C54_encaps_rejects",
    "Verif.Props.C54_decaps",
    "Verif.Props.C54_decaps_rejects"
   ],
   "note": "For arbitrary register and stack contents at each call, both arithmetic profiles, every Keccak configuration (C59)."
  },
  {
   "property": "C55",
   "status": "proved",
   "theorems": [
    "Verif.Props.C55_keypair",
    "Verif.Props.C55_enc",
    "Verif.Props.C55_dec",
    "Verif.Props.C55_interoperate"
   ],
   "note": "Equality of outcomes call by call, errors and budget included."
  },
  {
   "property": "C56",
   "status": "proved",
   "theorems": [
    "Verif.Props.C56_safe"
   ],
   "note": "For arbitrary register and stack contents at each call."
  },
  {
   "property": "C57",
   "status": "proved",
   "theorems": [
    "Verif.Props.C57_enc_derand",
    "Verif.Props.C57_dec",
    "Verif.Props.C57_keypair_derand"
   ],
   "note": "The two compared runs may find different contents in the registers and on the stack at each call."
  },
  {
   "property": "C58",
   "status": "proved",
   "theorems": [
    "Verif.Props.C58_assembly"
   ],
   "note": "All seven functions, those no profile refers to included."
  },
  {
   "property": "C59",
   "status": "proved",
   "theorems": [
    "Verif.Props.C59_permutation",
    "Verif.Props.C59_permutation_x4"
   ],
   "note": "The eight settings of default.h, cortex_a55.h, and no backend."
  },
  {
   "property": "C60",
   "status": "proved",
   "theorems": [
    "Verif.Props.C60_keeps_caller"
   ],
   "note": "Accesses outside the states, the constants and the frame, and reads of uninitialised cells of the frame, are error outcomes of the model; the theorem says the function returns."
  },
  {
   "property": "C61",
   "status": "proved",
   "theorems": [
    "Verif.Props.C61_assembly",
    "Verif.Props.C61_permutations"
   ],
   "note": "Accesses to the round constants and the stack are part of the trace."
  },
  {
   "property": "C62",
   "status": "proved",
   "theorems": [
    "Verif.Props.C62_keypair",
    "Verif.Props.C62_enc",
    "Verif.Props.C62_dec",
    "Verif.Props.C62_keygen",
    "Verif.Props.C62_encaps",
    "Verif.Props.C62_encaps_rejects",
    "Verif.Props.C62_decaps",
    "Verif.Props.C62_decaps_rejects",
    "Verif.Props.C62_safe",
    "Verif.Props.C62_portable",
    "Verif.Props.C62_x86_64",
    "Verif.Props.C62_x86_64_bmi",
    "Verif.Props.C62_aarch64",
    "Verif.Props.C62_combine",
    "Verif.Props.C62_choose"
   ],
   "note": "The contract is the structure Contract in Props/Backend.lean; C62_portable, C62_x86_64 and C62_aarch64 show that it is met."
  },
  {
   "property": "C63",
   "status": "proved",
   "theorems": [
    "Verif.Props.C63_sha3_256",
    "Verif.Props.C63_sha3_512",
    "Verif.Props.C63_shake256",
    "Verif.Props.C63_incremental",
    "Verif.Props.C63_shake256x4",
    "Verif.Props.C63_shake128x4"
   ],
   "note": "C62 gives the instances for the builds of the library."
  },
  {
   "property": "C64",
   "status": "proved",
   "theorems": [
    "Verif.Props.C64_enc_derand",
    "Verif.Props.C64_dec",
    "Verif.Props.C64_keypair_derand",
    "Verif.Props.C64_backends",
    "Verif.Props.C64_choose",
    "Verif.Props.C64_sha3_256",
    "Verif.Props.C64_sha3_512",
    "Verif.Props.C64_shake256",
    "Verif.Props.C64_shake256x4",
    "Verif.Props.C64_incremental",
    "Verif.Props.C64_shake128",
    "Verif.Props.C64_shake128x4"
   ],
   "note": "DataIndependent in Props/Backend.lean is the hypothesis; C64_backends shows that it is met. The hash functions are in Props/BackendHashTrace.lean."
  },
  {
   "property": "C65",
   "status": "proved",
   "theorems": [
    "Verif.Props.C65_keypair",
    "Verif.Props.C65_enc",
    "Verif.Props.C65_same_keypair",
    "Verif.Props.C65_same_enc"
   ],
   "note": "randombytes is a parameter, as in C16."
  },
  {
   "property": "C66",
   "status": "proved",
   "theorems": [
    "Verif.Props.C66_backends",
    "Verif.Props.C66_round_trip",
    "Verif.Props.C66_generated_keys_accepted",
    "Verif.Props.C66_accepted_is_honest",
    "Verif.Props.C66_decaps_agree",
    "Verif.Props.C66_encaps_agree",
    "Verif.Props.C66_keygen_agree"
   ],
   "note": "Builds on arbitrary backends that keep the contract of C62 (all backends of the library do: C66_backends). The noise condition is that of C08."
  },
  {
   "property": "C67",
   "status": "proved",
   "theorems": [
    "Verif.Props.C67_reduce",
    "Verif.Props.C67_scalar_compress",
    "Verif.Props.C67_scalar_decompress",
    "Verif.Props.C67_signed_to_unsigned",
    "Verif.Props.C67_ntt_butterfly_block",
    "Verif.Props.C67_ntt_layer",
    "Verif.Props.C67_invntt_layer",
    "Verif.Props.C67_poly_ntt",
    "Verif.Props.C67_poly_invntt_tomont",
    "Verif.Props.C67_basemul_cached",
    "Verif.Props.C67_poly_basemul",
    "Verif.Props.C67_cache_check",
    "Verif.Props.C67_polyvec_basemul",
    "Verif.Props.C67_poly_unary",
    "Verif.Props.C67_poly_add_sub",
    "Verif.Props.C67_pack",
    "Verif.Props.C67_unpack",
    "Verif.Props.C67_polyvec_unary",
    "Verif.Props.C67_polyvec_bytes",
    "Verif.Props.C67_cbd",
    "Verif.Props.C67_getnoise",
    "Verif.Props.C67_rej_uniform",
    "Verif.Props.C67_gen_matrix",
    "Verif.Props.C67_gen_matrix_entry",
    "Verif.Props.C67_matvec_mul",
    "Verif.Props.C67_polyvec_add",
    "Verif.Props.C67_prf"
   ],
   "note": "The contracts of kem.h are C06, C10 and C33, those of verify.h C31, those of fips202.h and fips202x4.h C26 to C28. C67_poly_basemul, C67_polyvec_basemul and C67_matvec_mul assume the ranges of the debug checks, which are narrower than the contracts; C67_cache_check shows that the difference is real."
  },
  {
   "property": "C68",
   "status": "proved",
   "theorems": [
    "Verif.Props.C68_aes128_ecb",
    "Verif.Props.C68_aes192_ecb",
    "Verif.Props.C68_aes256_ecb",
    "Verif.Props.C68_aes128_ctr",
    "Verif.Props.C68_aes192_ctr",
    "Verif.Props.C68_aes256_ctr",
    "Verif.Props.C68_spec_inverse",
    "Verif.Props.C68_init",
    "Verif.Props.C68_randombytes",
    "Verif.Props.C68_history"
   ],
   "note": "The contents of the uninitialised part of the stack are a parameter (stk); the theorems hold for all of them. malloc is assumed to succeed."
  },
  {
   "property": "C69",
   "status": "proved",
   "theorems": [
    "Verif.Props.C69_nistkat",
    "Verif.Props.C69_exit",
    "Verif.Props.C69_kat"
   ],
   "note": "The number of cases (100 and 1000 in the code) is a parameter. Messages on stderr are not modelled."
  },
  {
   "property": "C70",
   "status": "proved",
   "theorems": [
    "Verif.Props.C70_answer",
    "Verif.Props.C70_usage",
    "Verif.Props.C70_ignored_code"
   ],
   "note": "C70_ignored_code states the exception: the program does not look at the return codes of the library. Messages on stderr are not modelled."
  },
  {
   "property": "C71",
   "status": "proved",
   "theorems": [
    "Verif.Props.C71_stream",
    "Verif.Props.C71_pieces"
   ],
   "note": ""
  },
  {
   "property": "C72",
   "status": "proved",
   "theorems": [
    "Verif.Props.C72_test_program",
    "Verif.Props.C72_as_built"
   ],
   "note": "NTESTS is a parameter; C72_as_built has 1000 and the generator of C71. Both loops without a bound (sampling, drawing a nonzero byte) have a budget."
  },
  {
   "property": "C73",
   "status": "proved",
   "theorems": [
    "Verif.Props.C73_failures_rare",
    "Verif.Props.C73_failures_exist",
    "Verif.Props.C73_decrypt_iff",
    "Verif.Props.C73_round_trip"
   ],
   "note": "The count is over uniformly distributed noise bytes, for every fixed matrix; that PRF outputs behave like such bytes is a cryptographic assumption outside the model. FIPS 203 quotes smaller figures (2^-138.8, 2^-164.8, 2^-174.8) from a computation that treats the compression errors as independent uniform, which is a heuristic for a fixed matrix."
  },
  {
   "property": "C74",
   "status": "proved",
   "theorems": [
    "Verif.Props.C74_encapsulation",
    "Verif.Props.C74_decapsulation",
    "Verif.Props.C74_ciphertext"
   ],
   "note": "Collisions are named explicitly, since collisions exist by counting. Two rejections with the same z and ciphertext have the same secret, whatever the public keys."
  },
  {
   "property": "C75",
   "status": "proved",
   "theorems": [
    "Verif.Props.C75_benchmark",
    "Verif.Props.C75_any_times",
    "Verif.Props.C75_comparator"
   ],
   "note": "NTESTS, NWARMUP and NITERATIONS are parameters (at least one round and one measured call). C75_benchmark is the text for measurements that differ by less than 2^31; C75_any_times is exit code and absence of undefined behaviour for all measurements, with a qsort that permutes its input; C75_comparator is what goes wrong beyond 2^31."
  },
  {
   "property": "C76",
   "status": "proved",
   "theorems": [
    "Verif.Props.C76_tables",
    "Verif.Props.C76_barrett_constant",
    "Verif.Props.C76_montgomery_constant",
    "Verif.Props.C76_zetas"
   ],
   "note": "Python's `/` is modelled exactly (see the header of Model/Scripts.lean); the lists of numbers are modelled, not the formatting of the files."
  },
  {
   "property": "C77",
   "status": "proved",
   "theorems": [
    "Verif.Props.C77_barrett_is_montgomery",
    "Verif.Props.C77_products",
    "Verif.Props.C77_barrett_bound",
    "Verif.Props.C77_ntt_progression",
    "Verif.Props.C77_montgomery_factor",
    "Verif.Props.C77_montgomery_progression"
   ],
   "note": "C77_ntt_progression and C77_montgomery_progression are for any family of butterfly layers (IsLayer). C77_montgomery_factor shows that 0.0204, the factor in the script, is not a bound: fqmul(-295, -1602) = 1671."
  },
  {
   "property": "C78",
   "status": "proved",
   "theorems": [
    "Verif.Props.C78_assert",
    "Verif.Props.C78_check_bounds",
    "Verif.Props.C78_check_vector",
    "Verif.Props.C78_library"
   ],
   "note": "The text printed is specified in Spec/Debug.lean. C78_library connects the checks in the model of the library (Model/Params.lean) with these functions."
  },
  {
   "property": "C79",
   "status": "proved",
   "theorems": [
    "Verif.Props.C79_conversions",
    "Verif.Props.C79_sampling",
    "Verif.Props.C79_transforms",
    "Verif.Props.C79_algorithms",
    "Verif.Props.C79_keygen",
    "Verif.Props.C79_encaps",
    "Verif.Props.C79_decaps",
    "Verif.Props.C79_poly_ntt",
    "Verif.Props.C79_poly_invntt"
   ],
   "note": "Spec/Printed.lean is the printed text; loops are Lean for-loops over lists with mutable variables. The loop of SampleNTT, which has no bound in the standard, has a number of turns as a parameter; xofTurns relates it to the budget of the code. Concrete cases: the ACVP vectors in Props/Vectors2, 3, 4."
  },
  {
   "property": "C80",
   "status": "proved",
   "theorems": [
    "Verif.Props.C80_single",
    "Verif.Props.C80_all",
    "Verif.Props.C80_acvp",
    "Verif.Props.C80_func",
    "Verif.Props.C80_nistkat",
    "Verif.Props.C80_kat"
   ],
   "note": "A World gives the outcome of every command, given all that happened before. C80_single and C80_all are for every world with POSIX return codes; C80_acvp, C80_func, C80_nistkat and C80_kat put the programs of C70, C72 and C69 into it. Concrete cases with published vectors in Props/DriverVectors.lean and Props/VectorsKat.lean. Not modelled: the log, the GitHub summaries, the options that only change the make command, bench and cbmc, the parsing of JSON and YAML."
  },
  {
   "property": "C81",
   "status": "proved",
   "theorems": [
    "Verif.Props.C81_transcription",
    "Verif.Props.C81_ntt",
    "Verif.Props.C81_invntt",
    "Verif.Props.C81_reduce",
    "Verif.Props.C81_tomont",
    "Verif.Props.C81_order",
    "Verif.Props.C81_tobytes",
    "Verif.Props.C81_frombytes",
    "Verif.Props.C81_basemul",
    "Verif.Props.C81_constant_time"
   ],
   "note": "Model/X86Gp.lean has the functions with the operands as written (base register and displacement); C81_transcription proves that they compute what the vector programs of Model/X86Asm.lean, whose addresses the generator works out, compute. Called functions are part of the call instruction; a return address stands for the line after the call. System V calling convention. The stack pointer at a call may have any even alignment."
  },
  {
   "property": "C82",
   "status": "proved",
   "theorems": [
    "Verif.Props.C82_contract",
    "Verif.Props.C82_data_independent",
    "Verif.Props.C82_keygen",
    "Verif.Props.C82_encaps",
    "Verif.Props.C82_encaps_rejects",
    "Verif.Props.C82_decaps",
    "Verif.Props.C82_decaps_rejects",
    "Verif.Props.C82_dec_constant_time",
    "Verif.Props.C82_enc_constant_time",
    "Verif.Props.C82_keypair_constant_time"
   ],
   "note": "The build is Native.x86_64 with the assembly of Model/X86Gp.lean (Model/NativeGp.lean). The state of the machine at a call may depend on the function and on the polynomial it is called with; for the constant-time theorems the stack pointer may depend on the function only. The Keccak permutation and the rejection sampler of this build are C code with intrinsics and are as in C43 to C48. Fuel bounds the number of matrix-sampling blocks as in C01."
  },
  {
   "property": "C83",
   "status": "proved",
   "theorems": [
    "Verif.Props.C83_contract",
    "Verif.Props.C83_data_independent",
    "Verif.Props.C83_keygen",
    "Verif.Props.C83_encaps",
    "Verif.Props.C83_encaps_rejects",
    "Verif.Props.C83_decaps",
    "Verif.Props.C83_decaps_rejects",
    "Verif.Props.C83_dec_constant_time",
    "Verif.Props.C83_enc_constant_time",
    "Verif.Props.C83_keypair_constant_time"
   ],
   "note": "The build is Native.aarch64 with the sampler of Model/A64RejAsm.lean (Model/NativeA64Gp.lean); the other assembly functions of Native.aarch64 are run as instructions already. The sampler works on the public matrix seed only, so that the constant-time theorems do not constrain its addresses. Fuel as in C01."
  }
 ]
}