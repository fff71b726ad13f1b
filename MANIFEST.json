{
 "claims": [
  {
   "property": "C01",
   "status": "proved",
   "theorems": [
    "Falcon.C01_construct",
    "Falcon.C01_field_ops"
   ],
   "note": ""
  },
  {
   "property": "C02",
   "status": "proved",
   "theorems": [
    "Falcon.C02_noncanonical",
    "Falcon.C02_neg_noncanonical"
   ],
   "note": ""
  },
  {
   "property": "C03",
   "status": "proved",
   "theorems": [
    "Falcon.C03_inv",
    "Falcon.C03_div",
    "Falcon.C03_xgcd_no_wrap"
   ],
   "note": ""
  },
  {
   "property": "C04",
   "status": "proved",
   "theorems": [
    "Falcon.C04_pow"
   ],
   "note": ""
  },
  {
   "property": "C05",
   "status": "proved",
   "theorems": [
    "Falcon.C05_ntt_eval",
    "Falcon.C05_points",
    "Falcon.C05_ntt_eval_14bit"
   ],
   "note": ""
  },
  {
   "property": "C06",
   "status": "proved",
   "theorems": [
    "Falcon.C06_ntt_inverse"
   ],
   "note": ""
  },
  {
   "property": "C07",
   "status": "proved",
   "theorems": [
    "Falcon.C07_ntt_product"
   ],
   "note": ""
  },
  {
   "property": "C08",
   "status": "proved",
   "theorems": [
    "Falcon.C08_ntt_in_bounds",
    "Falcon.C08_fft_in_bounds"
   ],
   "note": "Fourier part for every arithmetic (structure Arith), so also for IEEE doubles"
  },
  {
   "property": "C09",
   "status": "proved",
   "theorems": [
    "Falcon.C09_pkey_roundtrip"
   ],
   "note": ""
  },
  {
   "property": "C10",
   "status": "proved",
   "theorems": [
    "Falcon.C10_pkey_decode"
   ],
   "note": ""
  },
  {
   "property": "C11",
   "status": "proved",
   "theorems": [
    "Falcon.C11_aliases_verify_alike",
    "Falcon.C11_alias_exists"
   ],
   "note": "Uniqueness is false; proved: every key with a coefficient below 4095 has an equivalent second encoding."
  },
  {
   "property": "C12",
   "status": "proved",
   "theorems": [
    "Falcon.C12_skey_roundtrip"
   ],
   "note": ""
  },
  {
   "property": "C13",
   "status": "proved",
   "theorems": [
    "Falcon.C13_skey_decode"
   ],
   "note": ""
  },
  {
   "property": "C14",
   "status": "proved",
   "theorems": [
    "Falcon.C14_skey_survives_iff",
    "Falcon.C14_skey_corrupted"
   ],
   "note": ""
  },
  {
   "property": "C15",
   "status": "proved",
   "theorems": [
    "Falcon.C15_compress_spec"
   ],
   "note": ""
  },
  {
   "property": "C16",
   "status": "proved",
   "theorems": [
    "Falcon.C16_compress_defined",
    "Falcon.C16_compress_ub_iff"
   ],
   "note": ""
  },
  {
   "property": "C17",
   "status": "proved",
   "theorems": [
    "Falcon.C17_roundtrip"
   ],
   "note": ""
  },
  {
   "property": "C18",
   "status": "proved",
   "theorems": [
    "Falcon.C18_roundtrip_fails",
    "Falcon.C18_witness",
    "Falcon.C18_roundtrip_partial"
   ],
   "note": "The expectation is false; proved: it fails for every vector with a coefficient of 1024 or more, and exactly when it holds."
  },
  {
   "property": "C19",
   "status": "proved",
   "theorems": [
    "Falcon.C19_unique_encoding_partial",
    "Falcon.C19_malleable",
    "Falcon.C19_malleable_verify"
   ],
   "note": "Uniqueness is false; proved: it holds without long unary runs, and the malleability construction for decoding and for verification."
  },
  {
   "property": "C20",
   "status": "proved",
   "theorems": [
    "Falcon.C20_accepts_iff",
    "Falcon.C20_no_minus_zero"
   ],
   "note": ""
  },
  {
   "property": "C21",
   "status": "proved",
   "theorems": [
    "Falcon.C21_depends_only_on_body"
   ],
   "note": ""
  },
  {
   "property": "C22",
   "status": "proved",
   "theorems": [
    "Falcon.C22_reads_at_most_two_past",
    "Falcon.C22_reads_past_end"
   ],
   "note": "The expectation is false; proved: the exact extent of the overread and an infinite family of honest inputs that trigger it."
  },
  {
   "property": "C23",
   "status": "proved",
   "theorems": [
    "Falcon.C23_bounded"
   ],
   "note": ""
  },
  {
   "property": "C24",
   "status": "proved",
   "theorems": [
    "Falcon.C24_hash_point",
    "Falcon.C24_hash_finishes_iff",
    "Falcon.C24_hash_deterministic"
   ],
   "note": "SHAKE256 is an arbitrary stream function."
  },
  {
   "property": "C25",
   "status": "proved",
   "theorems": [
    "Falcon.C25_no_bias",
    "Falcon.C25_no_bias_code"
   ],
   "note": ""
  },
  {
   "property": "C26",
   "status": "proved",
   "theorems": [
    "Falcon.C26_sound_partial",
    "Falcon.C26_exact",
    "Falcon.C26_exact_covers",
    "Falcon.C27_forgery_exists"
   ],
   "note": "The expectation is false; proved: soundness of every defined run, and the exact verdict under both overflow rules."
  },
  {
   "property": "C27",
   "status": "proved",
   "theorems": [
    "Falcon.C27_zero_signature",
    "Falcon.C27_forgery_exists"
   ],
   "note": ""
  },
  {
   "property": "C28",
   "status": "proved",
   "theorems": [
    "Falcon.C28_complete",
    "Falcon.C28_6144_rejected"
   ],
   "note": ""
  },
  {
   "property": "C29",
   "status": "proved",
   "theorems": [
    "Falcon.C29_centred"
   ],
   "note": ""
  },
  {
   "property": "C30",
   "status": "proved",
   "theorems": [
    "Falcon.C30_rejects",
    "Falcon.C30_function_of_bytes"
   ],
   "note": ""
  },
  {
   "property": "C31",
   "status": "proved",
   "theorems": [
    "Falcon.C31_karatsuba_exact"
   ],
   "note": ""
  },
  {
   "property": "C32",
   "status": "proved",
   "theorems": [
    "Falcon.C32_norm_lift"
   ],
   "note": ""
  },
  {
   "property": "C33",
   "status": "proved",
   "theorems": [
    "Falcon.C33_xgcd"
   ],
   "note": ""
  },
  {
   "property": "C34",
   "status": "proved",
   "theorems": [
    "Falcon.C34_ntru_equation",
    "Falcon.C34_base_refuses"
   ],
   "note": ""
  },
  {
   "property": "C35",
   "status": "proved",
   "theorems": [
    "Falcon.C35_bit_length",
    "Falcon.C35_scaling_exact",
    "Falcon.C35_scaling_keeps_bits"
   ],
   "note": ""
  },
  {
   "property": "C36",
   "status": "proved",
   "theorems": [
    "Falcon.C36_invertible_iff"
   ],
   "note": ""
  },
  {
   "property": "C37",
   "status": "proved",
   "theorems": [
    "Falcon.C37_public_key"
   ],
   "note": ""
  },
  {
   "property": "C38",
   "status": "proved",
   "theorems": [
    "Falcon.C38_ntru_gen",
    "Falcon.C38_defined",
    "Falcon.C38_narrowing_corrupts"
   ],
   "note": "Absence of undefined behaviour is for the sampler with and without contraction and assumes that the rounded quotients are representable. C66 shows when the narrowing is harmless."
  },
  {
   "property": "C39",
   "status": "proved",
   "theorems": [
    "Falcon.C39_determined",
    "Falcon.C39_key_pairs",
    "Falcon.C39_salts",
    "Falcon.C39_salt_bytes"
   ],
   "note": "The expectation is violated; the bound of 2^32 is proved, for every arithmetic, twister and hash."
  },
  {
   "property": "C40",
   "status": "proved",
   "theorems": [
    "Falcon.C40_fft_eval",
    "Falcon.C40_points",
    "Falcon.C40_fft_inverse",
    "Falcon.C40_fft_product"
   ],
   "note": "exact real and complex arithmetic"
  },
  {
   "property": "C41",
   "status": "proved",
   "theorems": [
    "Falcon.C41_split_merge",
    "Falcon.C41_split_fft",
    "Falcon.C41_frames"
   ],
   "note": "exact real and complex arithmetic; frames for every arithmetic"
  },
  {
   "property": "C42",
   "status": "proved",
   "theorems": [
    "Falcon.C42_norm",
    "Falcon.C42_gram_schmidt"
   ],
   "note": "exact real and complex arithmetic"
  },
  {
   "property": "C43",
   "status": "proved",
   "theorems": [
    "Falcon.C43_root_table",
    "Falcon.C43_not_nearest"
   ],
   "note": "literals and the doubles nearest to them; entries are within 2^-51 but not all correctly rounded"
  },
  {
   "property": "C44",
   "status": "proved",
   "theorems": [
    "Falcon.C44_recompute_G"
   ],
   "note": "exact real and complex arithmetic; f nonzero suffices, the points are primitive roots"
  },
  {
   "property": "C45",
   "status": "proved",
   "theorems": [
    "Falcon.C45_ldl_tree",
    "Falcon.C45_gram_matrix"
   ],
   "note": "exact real and complex arithmetic"
  },
  {
   "property": "C46",
   "status": "proved",
   "theorems": [
    "Falcon.C46_layout",
    "Falcon.C46_construction",
    "Falcon.C46_normalization",
    "Falcon.C46_sampling",
    "Falcon.C46_reads"
   ],
   "note": "for every arithmetic"
  },
  {
   "property": "C47",
   "status": "proved",
   "theorems": [
    "Falcon.C47_leaves",
    "Falcon.C47_sampler_interval",
    "Falcon.C47_example",
    "Falcon.C47_sigma_min_512"
   ],
   "note": "exact real and complex arithmetic; for N = 512 the tabulated lower end exceeds the guaranteed bound by less than 1e-10, stated and proved"
  },
  {
   "property": "C48",
   "status": "proved",
   "theorems": [
    "Falcon.C48_integer",
    "Falcon.C48_draws",
    "Falcon.C48_all_used"
   ],
   "note": "exact real and complex arithmetic"
  },
  {
   "property": "C49",
   "status": "proved",
   "theorems": [
    "Falcon.C49_sign_verifies",
    "Falcon.C49_violated",
    "Falcon.C49_defined"
   ],
   "note": "exact real and complex arithmetic. The side conditions are needed: C49_violated (for a sampler that returns -1024 once) and C28_6144_rejected."
  },
  {
   "property": "C50",
   "status": "proved",
   "theorems": [
    "Falcon.C50_layout"
   ],
   "note": "for every arithmetic"
  },
  {
   "property": "C51",
   "status": "proved",
   "theorems": [
    "Falcon.C51_add",
    "Falcon.C51_sub",
    "Falcon.C51_neg",
    "Falcon.C51_order",
    "Falcon.C51_from_bytes",
    "Falcon.C51_bytes_roundtrip"
   ],
   "note": ""
  },
  {
   "property": "C52",
   "status": "proved",
   "theorems": [
    "Falcon.C52_base_sampler_distribution",
    "Falcon.C52_base_sampler_range",
    "Falcon.C52_table_sum"
   ],
   "note": ""
  },
  {
   "property": "C53",
   "status": "proved",
   "theorems": [
    "Falcon.C53_full_mul"
   ],
   "note": "the portable branch; the compiler's 128-bit type is not modelled separately"
  },
  {
   "property": "C54",
   "status": "proved",
   "theorems": [
    "Falcon.C54_no_wrap",
    "Falcon.C54_accurate",
    "Falcon.C54_corner"
   ],
   "note": ""
  },
  {
   "property": "C55",
   "status": "proved",
   "theorems": [
    "Falcon.C55_bernoulli",
    "Falcon.C55_reads",
    "Falcon.C55_probability"
   ],
   "note": ""
  },
  {
   "property": "C56",
   "status": "proved",
   "theorems": [
    "Falcon.C56_exponent_nonneg",
    "Falcon.C56_samplerz_sound",
    "Falcon.C56_parameters"
   ],
   "note": "binary64 without contraction; see C60 for contraction"
  },
  {
   "property": "C57",
   "status": "proved",
   "theorems": [
    "Falcon.C57_hex_digits",
    "Falcon.C57_hex_roundtrip",
    "Falcon.C57_garbage_accepted"
   ],
   "note": "Also proved: strings that are not hexadecimal are accepted silently."
  },
  {
   "property": "C58",
   "status": "proved",
   "theorems": [
    "Falcon.C58_one_shot",
    "Falcon.C58_key_material",
    "Falcon.C58_key_generation"
   ],
   "note": "first theorem for every arithmetic, the others in exact arithmetic"
  },
  {
   "property": "C59",
   "status": "proved",
   "theorems": [
    "Falcon.C59_pkey_layout",
    "Falcon.C59_skey_layout"
   ],
   "note": ""
  },
  {
   "property": "C60",
   "status": "proved",
   "theorems": [
    "Falcon.C60_reduction_plain",
    "Falcon.C60_reduction_fma_ub"
   ],
   "note": "The expectation is false with contraction; both the safe and the unsafe mode are proved."
  },
  {
   "property": "C61",
   "status": "proved",
   "theorems": [
    "Falcon.C61_iteration_count",
    "Falcon.C61_threshold_accurate",
    "Falcon.C61_iteration_distribution"
   ],
   "note": ""
  },
  {
   "property": "C62",
   "status": "proved",
   "theorems": [
    "Falcon.C62_short_array_oob",
    "Falcon.C62_array_is_stream",
    "Falcon.C62_empty"
   ],
   "note": ""
  },
  {
   "property": "C63",
   "status": "proved",
   "theorems": [
    "Falcon.C63_end_to_end",
    "Falcon.C63_witness"
   ],
   "note": "exact real and complex arithmetic for signing, any arithmetic for key generation; the witness is a complete run for both parameter sets. C66_end_to_end removes the hypothesis on the narrowing."
  },
  {
   "property": "C64",
   "status": "proved",
   "theorems": [
    "Falcon.C64_spherical",
    "Falcon.C64_signature"
   ],
   "note": "exact real and complex arithmetic"
  },
  {
   "property": "C65",
   "status": "proved",
   "theorems": [
    "Falcon.C65_round",
    "Falcon.C65_float_sign",
    "Falcon.C65_binary64",
    "Falcon.C65_defined"
   ],
   "note": "every arithmetic on real numbers within the error bounds of Accurate; binary64 with unbounded exponent, with and without fused operations, is proved to be one"
  },
  {
   "property": "C66",
   "status": "proved",
   "theorems": [
    "Falcon.C66_quotient",
    "Falcon.C66_reduced",
    "Falcon.C66_solution_fits",
    "Falcon.C66_narrowing",
    "Falcon.C66_binary64",
    "Falcon.C66_end_to_end"
   ],
   "note": "exact arithmetic, and binary64 with unbounded exponent with and without fused operations; there the bound 2^-10 is a hypothesis; C76 removes it on IEEE 754 data"
  },
  {
   "property": "C67",
   "status": "proved",
   "theorems": [
    "Falcon.C67_recompute",
    "Falcon.C67_one_shot",
    "Falcon.C67_end_to_end"
   ],
   "note": "every arithmetic within the error bounds of Accurate, binary64 with unbounded exponent in particular; the bounds 2^-10 on |f^| and |f^|^2+|g^|^2 and |G| <= 127 are hypotheses on the key"
  },
  {
   "property": "C68",
   "status": "proved",
   "theorems": [
    "Falcon.C68_norms",
    "Falcon.C68_leaves",
    "Falcon.C68_sampling",
    "Falcon.C68_code_sampler",
    "Falcon.C68_sign",
    "Falcon.C68_one_shot",
    "Falcon.C68_end_to_end"
   ],
   "note": "binary64 with unbounded exponent; sampler compiled without contraction (with contraction C60_reduction_fma_ub applies); the example is a key of the format with flat spectrum"
  },
  {
   "property": "C69",
   "status": "proved",
   "theorems": [
    "Falcon.C69_failure",
    "Falcon.C69_norm_exists"
   ],
   "note": "for every quotient procedure"
  },
  {
   "property": "C70",
   "status": "proved",
   "theorems": [
    "Falcon.C70_drawn",
    "Falcon.C70_sample",
    "Falcon.C70_pairs"
   ],
   "note": "binary64 sampler, with and without contraction"
  },
  {
   "property": "C71",
   "status": "proved",
   "theorems": [
    "Falcon.C71_half_integer",
    "Falcon.C71_key_valid",
    "Falcon.C71_solver",
    "Falcon.C71_keygen",
    "Falcon.C71_keygen_exact",
    "Falcon.C71_public"
   ],
   "note": "The expectation is violated; proved: no run with any amount of fuel returns a result, with and without contraction in the sampler. Binary64 with unbounded exponent."
  },
  {
   "property": "C72",
   "status": "proved",
   "theorems": [
    "Falcon.C72_norm_test"
   ],
   "note": "binary64 with unbounded exponent; the conditions on |f^|^2+|g^|^2 are hypotheses"
  },
  {
   "property": "C73",
   "status": "proved",
   "theorems": [
    "Falcon.C73_order",
    "Falcon.C73_shift",
    "Falcon.C73_shift_mul",
    "Falcon.C73_shift_loses"
   ],
   "note": ""
  },
  {
   "property": "C74",
   "status": "proved",
   "theorems": [
    "Falcon.C74_canonical",
    "Falcon.C74_uniform"
   ],
   "note": "std::uniform_int_distribution is a parameter"
  },
  {
   "property": "C75",
   "status": "proved",
   "theorems": [
    "Falcon.C75_key_material",
    "Falcon.C75_sampler",
    "Falcon.C75_sign",
    "Falcon.C75_one_shot",
    "Falcon.C75_defined",
    "Falcon.C75_signature",
    "Falcon.C75_data"
   ],
   "note": "IEEE 754 binary64 with infinities, NaN and signed zeros, with and without fused complex operations; sampler compiled without contraction; the norm test is the hypothesis GsSmall, one-shot also needs |f^| >= 2^-10"
  },
  {
   "property": "C76",
   "status": "proved",
   "theorems": [
    "Falcon.C76_key_sampler",
    "Falcon.C76_keys",
    "Falcon.C76_end_to_end",
    "Falcon.C76_nan",
    "Falcon.C76_recovery"
   ],
   "note": "IEEE 754 binary64 with infinities, NaN and signed zeros; assumes of the runtime library only that a complex quotient of finite numbers whose parts are both NaN is not replaced by one with a finite real part; the sampler calls of key generation are transferred call by call"
  },
  {
   "property": "C77",
   "status": "proved",
   "theorems": [
    "Falcon.C77_undefined_iff",
    "Falcon.C77_without_contraction",
    "Falcon.C77_key_sampler",
    "Falcon.C77_gen_poly",
    "Falcon.C77_sign_sampler_ub",
    "Falcon.C77_sign_sampler",
    "Falcon.C77_sign_sampler_contracted"
   ],
   "note": "The expectation that signing is defined with contraction is violated by the witness for the sampler; whether a key and a message reach it is not decided. C38_defined is the statement for ntru_gen."
  },
  {
   "property": "C78",
   "status": "proved",
   "theorems": [
    "Falcon.C78_table",
    "Falcon.C78_distribution",
    "Falcon.C78_key_sampler",
    "Falcon.C78_sign_sampler",
    "Falcon.C78_gauss_total"
   ],
   "note": "bytes are assumed independent and uniform: all byte strings of length 18 m counted; with contraction under the hypothesis that the reduction is defined (C77)"
  },
  {
   "property": "C79",
   "status": "proved",
   "theorems": [
    "Falcon.C79_independent",
    "Falcon.C79_geometric",
    "Falcon.C79_iterations",
    "Falcon.C79_same_for_all",
    "Falcon.C79_termination"
   ],
   "note": "number of iterations; instructions inside an iteration and memory accesses are not modelled"
  },
  {
   "property": "C80",
   "status": "proved",
   "theorems": [
    "Falcon.C80_sampling",
    "Falcon.C80_leaves",
    "Falcon.C80_leaves_exact"
   ],
   "note": "uniform bytes; integer sampler compiled without contraction; in binary64 keys with Gram-Schmidt norms between 16810 and 16822.41 need the hypothesis on the leaves"
  },
  {
   "property": "C81",
   "status": "proved",
   "theorems": [
    "Falcon.C81_ideal",
    "Falcon.C81_probability",
    "Falcon.C81_code",
    "Falcon.C81_error",
    "Falcon.C81_basis"
   ],
   "note": "exact arithmetic outside the integer sampler; sampler without contraction; uniform bytes"
  },
  {
   "property": "C82",
   "status": "proved",
   "theorems": [
    "Falcon.C82_tail",
    "Falcon.C82_code"
   ],
   "note": "as C81"
  },
  {
   "property": "C83",
   "status": "proved",
   "theorems": [
    "Falcon.C83_law",
    "Falcon.C83_conditioned",
    "Falcon.C83_basis"
   ],
   "note": "as C81, for a fixed salt whose hashing finishes; the probability that the second half does not fit the signature is not bounded, it enters through Accept"
  },
  {
   "property": "C84",
   "status": "proved",
   "theorems": [
    "Falcon.C84_uniform",
    "Falcon.C84_finishes",
    "Falcon.C84_blocks"
   ],
   "note": "the XOF output is assumed uniform: all byte strings of the given length counted"
  },
  {
   "property": "C85",
   "status": "proved",
   "theorems": [
    "Falcon.C85_pair",
    "Falcon.C85_sigma",
    "Falcon.C85_total"
   ],
   "note": "uniform bytes"
  },
  {
   "property": "C86",
   "status": "proved",
   "theorems": [
    "Falcon.C86_law",
    "Falcon.C86_public_key",
    "Falcon.C86_conditioned",
    "Falcon.C86_disjoint",
    "Falcon.C86_accepted",
    "Falcon.C86_sent_back"
   ],
   "note": "uniform bytes; the tests are those of the model in any arithmetic; the probability of being sent back is not bounded, it enters through KeyAgain"
  },
  {
   "property": "C87",
   "status": "proved",
   "theorems": [
    "Falcon.C87_law",
    "Falcon.C87_basis"
   ],
   "note": "as C83, averaged over the salt; salts for which hashing does not end within hfuel blocks count as no signature on both sides"
  },
  {
   "property": "C88",
   "status": "proved",
   "theorems": [
    "Falcon.C88_round",
    "Falcon.C88_sign"
   ],
   "note": "exact arithmetic outside the integer sampler, uniform bytes"
  },
  {
   "property": "C89",
   "status": "proved",
   "theorems": [
    "Falcon.C89_adversary",
    "Falcon.C89_error",
    "Falcon.C89_basis"
   ],
   "note": "exact arithmetic outside the integer sampler, uniform bytes; the hash function is a fixed XOF known to the adversary"
  },
  {
   "property": "C90",
   "status": "proved",
   "theorems": [
    "Falcon.C90_forger"
   ],
   "note": "corollary of C89"
  },
  {
   "property": "C91",
   "status": "proved",
   "theorems": [
    "Falcon.C91_uniform",
    "Falcon.C91_round"
   ],
   "note": "exact arithmetic outside the integer sampler, uniform bytes; one round, before the rejection step"
  },
  {
   "property": "C92",
   "status": "proved",
   "theorems": [
    "Falcon.C92_collision"
   ],
   "note": "without overflow: `Ovf.strict`; C27 shows what happens otherwise"
  },
  {
   "property": "C93",
   "status": "proved",
   "theorems": [
    "Falcon.C93_success"
   ],
   "note": "exact arithmetic outside the integer sampler; uniform bytes; the XOF answers the one query of signing with uniform bytes; hashing within 10 or 18 blocks"
  },
  {
   "property": "C94",
   "status": "proved",
   "theorems": [
    "Falcon.C94_one_vector",
    "Falcon.C94_lossy",
    "Falcon.C94_refused",
    "Falcon.C94_verifies"
   ],
   "note": "as C93; quantifies the violation of C18 and C49"
  },
  {
   "property": "C95",
   "status": "proved",
   "theorems": [
    "Falcon.C95_transfer",
    "Falcon.C95_undefined"
   ],
   "note": "the XOF answers the one query of verification with uniform bytes, its other answers are arbitrary; the second theorem is a violation: verification should be defined"
  },
  {
   "property": "C96",
   "status": "proved",
   "theorems": [
    "Falcon.C96_wrap",
    "Falcon.C96_forger"
   ],
   "note": "as C95, with `Ovf.wrap`; quantifies the violation of C27"
  },
  {
   "property": "C97",
   "status": "proved",
   "theorems": [
    "Falcon.C97_malleable",
    "Falcon.C97_rate",
    "Falcon.C97_second"
   ],
   "note": "violation; as C93; quantifies C19"
  },
  {
   "property": "C98",
   "status": "proved",
   "theorems": [
    "Falcon.C98_keys",
    "Falcon.C98_salts"
   ],
   "note": "violation; the words of std::random_device are assumed uniform and independent; quantifies C39"
  },
  {
   "property": "C99",
   "status": "proved",
   "theorems": [
    "Falcon.C99_known_answers",
    "Falcon.C99_tables"
   ],
   "note": "a finite table; serves to check the model of the sampler against published vectors"
  },
  {
   "property": "C100",
   "status": "proved",
   "theorems": [
    "Falcon.C100_keys",
    "Falcon.C100_unique",
    "Falcon.C100_same"
   ],
   "note": "C100_keys and C100_same on IEEE 754 data, C100_unique in exact arithmetic"
  },
  {
   "property": "C101",
   "status": "proved",
   "theorems": [
    "Falcon.C101_decides",
    "Falcon.C101_decides64",
    "Falcon.C101_test_ntru_gen",
    "Falcon.C101_test_format",
    "Falcon.C101_test_keygen"
   ],
   "note": "IEEE 754 data; keys that do not fit the format exist (C14), for them test_keygen is not claimed to pass"
  },
  {
   "property": "C102",
   "status": "proved",
   "theorems": [
    "Falcon.C102_search",
    "Falcon.C102_forge",
    "Falcon.C102_word"
   ],
   "note": "violation; strengthens C39 to an attack"
  },
  {
   "property": "C103",
   "status": "proved",
   "theorems": [
    "Falcon.C103_ff",
    "Falcon.C103_ntt",
    "Falcon.C103_pkey",
    "Falcon.C103_skey",
    "Falcon.C103_skey_fails",
    "Falcon.C103_compression",
    "Falcon.C103_compression_ub",
    "Falcon.C103_decompression",
    "Falcon.C103_decompression_fails",
    "Falcon.C103_decompression_ub"
   ],
   "note": "violation for three of the tests, and the exact conditions under which they pass; the part of SignatureCompression before compress_sig is the loop of sign_msg and is not repeated"
  },
  {
   "property": "C104",
   "status": "proved",
   "theorems": [
    "Falcon.C104_split_merge",
    "Falcon.C104_mul_div",
    "Falcon.C104_zero_divisor"
   ],
   "note": "violation only for a divisor that is zero; divisors below 2^-19 at a point are not decided"
  },
  {
   "property": "C105",
   "status": "proved",
   "theorems": [
    "Falcon.C105_check",
    "Falcon.C105_conversion",
    "Falcon.C105_ff_sampling",
    "Falcon.C105_program"
   ],
   "note": ""
  },
  {
   "property": "C106",
   "status": "proved",
   "theorems": [
    "Falcon.C106_signing",
    "Falcon.C106_sign_one",
    "Falcon.C106_sign_many"
   ],
   "note": "the exceptions are those of C65 and C76; without the two readable bytes verification can read out of bounds (C22)"
  },
  {
   "property": "C107",
   "status": "proved",
   "theorems": [
    "Falcon.C107_recompute",
    "Falcon.C107_one_shot",
    "Falcon.C107_key",
    "Falcon.C107_keygen",
    "Falcon.C107_reached"
   ],
   "note": "violation: a concrete valid key with which one-shot signing is undefined; C67, C68, C75 and C76 prove it defined when f is at least 2^-10 at every point. C107_reached gives the random bytes from which key generation draws this f and g, and shows that they are not rejected; that the solver terminates on them, and that some 32-byte seed yields those bytes, is not decided"
  },
  {
   "property": "C108",
   "status": "proved",
   "theorems": [
    "Falcon.C108_quotient",
    "Falcon.C108_solver",
    "Falcon.C108_reached"
   ],
   "note": "violation with a concrete pair; the part that holds is C38_defined (no other step of ntru_gen is undefined) and C76 (a returned key is good). Whether a 32-bit seed gives these bytes is not decided"
  },
  {
   "property": "C109",
   "status": "proved",
   "theorems": [
    "Falcon.C109_keygen",
    "Falcon.C109_sign_single",
    "Falcon.C109_sign_many",
    "Falcon.C109_verify"
   ],
   "note": "the measurement itself (google benchmark) is not modelled; the exceptions are those of C106. Without the two readable bytes see C22"
  },
  {
   "property": "C110",
   "status": "proved",
   "theorems": [
    "Falcon.C110_verify",
    "Falcon.C110_signing",
    "Falcon.C110_sign_one"
   ],
   "note": "sharpens C22 to an equivalence for signatures that decode, and C106 to the arrays the programs really have"
  },
  {
   "property": "C111",
   "status": "proved",
   "theorems": [
    "Falcon.C111_substitute",
    "Falcon.C111_other_key"
   ],
   "note": "negation of the expected binding, with the keys given explicitly; the hash of the message does not include the public key, as in the specification of Falcon"
  },
  {
   "property": "C112",
   "status": "proved",
   "theorems": [
    "Falcon.C112_parity",
    "Falcon.C112_reject"
   ],
   "note": "consequence of the NTRU equation at x = 1"
  },
  {
   "property": "C113",
   "status": "proved",
   "theorems": [
    "Falcon.C113_same_key",
    "Falcon.C113_exact"
   ],
   "note": ""
  },
  {
   "property": "C114",
   "status": "proved",
   "theorems": [
    "Falcon.C114_round",
    "Falcon.C114_leak",
    "Falcon.C114_negative"
   ],
   "note": "the property is violated; the theorems state what is disclosed. Not stated: how many such inequalities determine the key."
  },
  {
   "property": "C115",
   "status": "proved",
   "theorems": [
    "Falcon.C115_erased",
    "Falcon.C115_generated"
   ],
   "note": "violation, and the part that holds; C107 is the violation with a valid key"
  },
  {
   "property": "C116",
   "status": "proved",
   "theorems": [
    "Falcon.C116_second",
    "Falcon.C116_erased",
    "Falcon.C116_poly",
    "Falcon.C116_binary64",
    "Falcon.C116_recover"
   ],
   "note": "violation; in exact arithmetic for every f, in binary64 arithmetic without overflow for f whose transform is nowhere below 1/10 and no coefficient -32 (-16)"
  },
  {
   "property": "C117",
   "status": "proved",
   "theorems": [
    "Falcon.C117_program",
    "Falcon.C117_calls"
   ],
   "note": "operations of Arith count as one step each; the time of a single division or square root is not modelled; decoding, hashing, the sampler and compression are the model functions themselves"
  },
  {
   "property": "C118",
   "status": "proved",
   "theorems": [
    "Falcon.C118_joint",
    "Falcon.C118_counts",
    "Falcon.C118_param",
    "Falcon.C118_two",
    "Falcon.C118_bytes"
   ],
   "note": "time is counted in iterations of the sampler loop; the comparison length is treated per iteration, not jointly with acceptance; sampling without contraction to fused operations in the sampler; calls that exceed m attempts are counted on neither side and have probability at most 2N 2^-m in total"
  },
  {
   "property": "C119",
   "status": "proved",
   "theorems": [
    "Falcon.C119_round",
    "Falcon.C119_basis"
   ],
   "note": "exact arithmetic outside the sampler; one round; time is counted in iterations of the sampler loop"
  },
  {
   "property": "C120",
   "status": "proved",
   "theorems": [
    "Falcon.C120_sign",
    "Falcon.C120_basis",
    "Falcon.C120_signature"
   ],
   "note": "exact arithmetic outside the sampler; time is counted in iterations of the sampler loop and rounds"
  },
  {
   "property": "C121",
   "status": "proved",
   "theorems": [
    "Falcon.C121_round",
    "Falcon.C121_sign",
    "Falcon.C121_loop"
   ],
   "note": "exact arithmetic outside the sampler; time is counted in iterations of the sampler loop; for the whole loop the error includes the probability that a second round is needed"
  },
  {
   "property": "C122",
   "status": "proved",
   "theorems": [
    "Falcon.C122_adversary",
    "Falcon.C122_signer"
   ],
   "note": "exact arithmetic outside the sampler; time is counted in iterations of the sampler loop and rounds; random bytes independent and uniform"
  },
  {
   "property": "C123",
   "status": "proved",
   "theorems": [
    "Falcon.C123_adversary",
    "Falcon.C123_forger"
   ],
   "note": "exact arithmetic outside the sampler; random bytes independent and uniform; time is counted in iterations of the sampler loop and rounds; the simulation is not claimed to be efficient, and the hardness of forging against it is not proved"
  }
 ]
}