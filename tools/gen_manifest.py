"""Writes MANIFEST.json from the table below."""
import json, os
C = []
def claim(p, status, theorems, note=""):
    C.append({"property": p, "status": status, "theorems": theorems, "note": note})

claim("C01", "proved", ["Falcon.C01_construct", "Falcon.C01_field_ops"])
claim("C02", "proved", ["Falcon.C02_noncanonical", "Falcon.C02_neg_noncanonical"])
claim("C03", "proved", ["Falcon.C03_inv", "Falcon.C03_div", "Falcon.C03_xgcd_no_wrap"])
claim("C04", "proved", ["Falcon.C04_pow"])
claim("C05", "proved", ["Falcon.C05_ntt_eval", "Falcon.C05_points", "Falcon.C05_ntt_eval_14bit"])
claim("C06", "proved", ["Falcon.C06_ntt_inverse"])
claim("C07", "proved", ["Falcon.C07_ntt_product"])
claim("C08", "proved", ["Falcon.C08_ntt_in_bounds", "Falcon.C08_fft_in_bounds"], "Fourier part for every arithmetic (structure Arith), so also for IEEE doubles")
claim("C09", "proved", ["Falcon.C09_pkey_roundtrip"])
claim("C10", "proved", ["Falcon.C10_pkey_decode"])
claim("C12", "proved", ["Falcon.C12_skey_roundtrip"])
claim("C13", "proved", ["Falcon.C13_skey_decode"])
claim("C14", "proved", ["Falcon.C14_skey_survives_iff", "Falcon.C14_skey_corrupted"])
claim("C15", "proved", ["Falcon.C15_compress_spec"])
claim("C16", "proved", ["Falcon.C16_compress_defined", "Falcon.C16_compress_ub_iff"])
claim("C17", "proved", ["Falcon.C17_roundtrip"])
claim("C18", "proved", ["Falcon.C18_roundtrip_fails", "Falcon.C18_witness", "Falcon.C18_roundtrip_partial"],
      "The expectation is false; proved: it fails for every vector with a coefficient of 1024 or more, and exactly when it holds.")
claim("C19", "proved", ["Falcon.C19_unique_encoding_partial", "Falcon.C19_malleable", "Falcon.C19_malleable_verify"],
      "Uniqueness is false; proved: it holds without long unary runs, and the malleability construction for decoding and for verification.")
claim("C20", "proved", ["Falcon.C20_accepts_iff", "Falcon.C20_no_minus_zero"])
claim("C21", "proved", ["Falcon.C21_depends_only_on_body"])
claim("C22", "proved", ["Falcon.C22_reads_at_most_two_past", "Falcon.C22_reads_past_end"],
      "The expectation is false; proved: the exact extent of the overread and an infinite family of honest inputs that trigger it.")
claim("C23", "proved", ["Falcon.C23_bounded"])
claim("C24", "proved", ["Falcon.C24_hash_point", "Falcon.C24_hash_finishes_iff", "Falcon.C24_hash_deterministic"],
      "SHAKE256 is an arbitrary stream function.")
claim("C25", "proved", ["Falcon.C25_no_bias", "Falcon.C25_no_bias_code"])
claim("C26", "proved", ["Falcon.C26_sound_partial", "Falcon.C26_exact", "Falcon.C26_exact_covers", "Falcon.C27_forgery_exists"],
      "The expectation is false; proved: soundness of every defined run, and the exact verdict under both overflow rules.")
claim("C27", "proved", ["Falcon.C27_zero_signature", "Falcon.C27_forgery_exists"])
claim("C28", "proved", ["Falcon.C28_complete", "Falcon.C28_6144_rejected"])
claim("C29", "proved", ["Falcon.C29_centred"])
claim("C30", "proved", ["Falcon.C30_rejects", "Falcon.C30_function_of_bytes"])
claim("C11", "proved", ["Falcon.C11_aliases_verify_alike", "Falcon.C11_alias_exists"],
      "Uniqueness is false; proved: every key with a coefficient below 4095 has an equivalent second encoding.")
claim("C59", "proved", ["Falcon.C59_pkey_layout", "Falcon.C59_skey_layout"])
claim("C51", "proved", ["Falcon.C51_add", "Falcon.C51_sub", "Falcon.C51_neg", "Falcon.C51_order", "Falcon.C51_from_bytes", "Falcon.C51_bytes_roundtrip"])
claim("C52", "proved", ["Falcon.C52_base_sampler_distribution", "Falcon.C52_base_sampler_range", "Falcon.C52_table_sum"])
claim("C53", "proved", ["Falcon.C53_full_mul"], "the portable branch; the compiler's 128-bit type is not modelled separately")
claim("C54", "proved", ["Falcon.C54_no_wrap", "Falcon.C54_accurate", "Falcon.C54_corner"])
claim("C55", "proved", ["Falcon.C55_bernoulli", "Falcon.C55_reads", "Falcon.C55_probability"])
claim("C56", "proved", ["Falcon.C56_exponent_nonneg", "Falcon.C56_samplerz_sound", "Falcon.C56_parameters"],
      "binary64 without contraction; see C60 for contraction")
claim("C60", "proved", ["Falcon.C60_reduction_plain", "Falcon.C60_reduction_fma_ub"],
      "The expectation is false with contraction; both the safe and the unsafe mode are proved.")
claim("C61", "proved", ["Falcon.C61_iteration_count", "Falcon.C61_threshold_accurate", "Falcon.C61_iteration_distribution"])
claim("C62", "proved", ["Falcon.C62_short_array_oob", "Falcon.C62_array_is_stream", "Falcon.C62_empty"])
claim("C31", "proved", ["Falcon.C31_karatsuba_exact"])
claim("C32", "proved", ["Falcon.C32_norm_lift"])
claim("C33", "proved", ["Falcon.C33_xgcd"])
claim("C34", "proved", ["Falcon.C34_ntru_equation", "Falcon.C34_base_refuses"])
claim("C35", "proved", ["Falcon.C35_bit_length", "Falcon.C35_scaling_exact", "Falcon.C35_scaling_keeps_bits"])
claim("C36", "proved", ["Falcon.C36_invertible_iff"])
claim("C37", "proved", ["Falcon.C37_public_key"])
claim("C38", "proved", ["Falcon.C38_ntru_gen", "Falcon.C38_defined", "Falcon.C38_narrowing_corrupts"],
      "Absence of undefined behaviour is for the sampler with and without contraction and assumes that the rounded quotients are representable. C66 shows when the narrowing is harmless.")

EX = "exact real and complex arithmetic"
claim("C40", "proved", ["Falcon.C40_fft_eval", "Falcon.C40_points", "Falcon.C40_fft_inverse", "Falcon.C40_fft_product"], EX)
claim("C41", "proved", ["Falcon.C41_split_merge", "Falcon.C41_split_fft", "Falcon.C41_frames"], EX + "; frames for every arithmetic")
claim("C42", "proved", ["Falcon.C42_norm", "Falcon.C42_gram_schmidt"], EX)
claim("C43", "proved", ["Falcon.C43_root_table", "Falcon.C43_not_nearest"], "literals and the doubles nearest to them; entries are within 2^-51 but not all correctly rounded")
claim("C44", "proved", ["Falcon.C44_recompute_G"], EX + "; f nonzero suffices, the points are primitive roots")
claim("C46", "proved", ["Falcon.C46_layout", "Falcon.C46_construction", "Falcon.C46_normalization", "Falcon.C46_sampling", "Falcon.C46_reads"], "for every arithmetic")
claim("C57", "proved", ["Falcon.C57_hex_digits", "Falcon.C57_hex_roundtrip", "Falcon.C57_garbage_accepted"], "Also proved: strings that are not hexadecimal are accepted silently.")
claim("C45", "proved", ["Falcon.C45_ldl_tree", "Falcon.C45_gram_matrix"], EX)
claim("C47", "proved", ["Falcon.C47_leaves", "Falcon.C47_sampler_interval", "Falcon.C47_example", "Falcon.C47_sigma_min_512"],
      EX + "; for N = 512 the tabulated lower end exceeds the guaranteed bound by less than 1e-10, stated and proved")
claim("C48", "proved", ["Falcon.C48_integer", "Falcon.C48_draws", "Falcon.C48_all_used"], EX)
claim("C49", "proved", ["Falcon.C49_sign_verifies", "Falcon.C49_violated", "Falcon.C49_defined"],
      EX + ". The side conditions are needed: C49_violated (for a sampler that returns -1024 once) and C28_6144_rejected.")
claim("C50", "proved", ["Falcon.C50_layout"], "for every arithmetic")
claim("C58", "proved", ["Falcon.C58_one_shot", "Falcon.C58_key_material", "Falcon.C58_key_generation"],
      "first theorem for every arithmetic, the others in exact arithmetic")
claim("C63", "proved", ["Falcon.C63_end_to_end", "Falcon.C63_witness"],
      EX + " for signing, any arithmetic for key generation; the witness is a complete run for both parameter sets. C66_end_to_end removes the hypothesis on the narrowing.")
claim("C39", "proved", ["Falcon.C39_determined", "Falcon.C39_key_pairs", "Falcon.C39_salts", "Falcon.C39_salt_bytes"],
      "The expectation is violated; the bound of 2^32 is proved, for every arithmetic, twister and hash.")
claim("C64","proved",["Falcon.C64_spherical","Falcon.C64_signature"],EX)
claim("C65","proved",["Falcon.C65_round","Falcon.C65_float_sign","Falcon.C65_binary64","Falcon.C65_defined"],
      "every arithmetic on real numbers within the error bounds of Accurate; binary64 with unbounded exponent, with and without fused operations, is proved to be one")
claim("C66","proved",["Falcon.C66_quotient","Falcon.C66_reduced","Falcon.C66_solution_fits","Falcon.C66_narrowing","Falcon.C66_binary64","Falcon.C66_end_to_end"],
      "exact arithmetic, and binary64 with unbounded exponent with and without fused operations; there the bound 2^-10 is a hypothesis; C76 removes it on IEEE 754 data")
claim("C67","proved",["Falcon.C67_recompute","Falcon.C67_one_shot","Falcon.C67_end_to_end"],
      "every arithmetic within the error bounds of Accurate, binary64 with unbounded exponent in particular; the bounds 2^-10 on |f^| and |f^|^2+|g^|^2 and |G| <= 127 are hypotheses on the key")
claim("C68","proved",["Falcon.C68_norms","Falcon.C68_leaves","Falcon.C68_sampling","Falcon.C68_code_sampler","Falcon.C68_sign","Falcon.C68_one_shot","Falcon.C68_end_to_end"],
      "binary64 with unbounded exponent; sampler compiled without contraction (with contraction C60_reduction_fma_ub applies); the example is a key of the format with flat spectrum")
claim("C69","proved",["Falcon.C69_failure","Falcon.C69_norm_exists"],"for every quotient procedure")
claim("C70","proved",["Falcon.C70_drawn","Falcon.C70_sample","Falcon.C70_pairs"],"binary64 sampler, with and without contraction")
claim("C71","proved",["Falcon.C71_half_integer","Falcon.C71_key_valid","Falcon.C71_solver","Falcon.C71_keygen","Falcon.C71_keygen_exact","Falcon.C71_public"],
      "The expectation is violated; proved: no run with any amount of fuel returns a result, with and without contraction in the sampler. Binary64 with unbounded exponent.")
claim("C72","proved",["Falcon.C72_norm_test"],"binary64 with unbounded exponent; the conditions on |f^|^2+|g^|^2 are hypotheses")
claim("C73","proved",["Falcon.C73_order","Falcon.C73_shift","Falcon.C73_shift_mul","Falcon.C73_shift_loses"],"")
claim("C74","proved",["Falcon.C74_canonical","Falcon.C74_uniform"],"std::uniform_int_distribution is a parameter")
claim("C75","proved",["Falcon.C75_key_material","Falcon.C75_sampler","Falcon.C75_sign","Falcon.C75_one_shot","Falcon.C75_defined","Falcon.C75_signature","Falcon.C75_data"],
      "IEEE 754 binary64 with infinities, NaN and signed zeros, with and without fused complex operations; sampler compiled without contraction; the norm test is the hypothesis GsSmall, one-shot also needs |f^| >= 2^-10")
claim("C76","proved",["Falcon.C76_key_sampler","Falcon.C76_keys","Falcon.C76_end_to_end","Falcon.C76_nan","Falcon.C76_recovery"],
      "IEEE 754 binary64 with infinities, NaN and signed zeros; assumes of the runtime library only that a complex quotient of finite numbers whose parts are both NaN is not replaced by one with a finite real part; the sampler calls of key generation are transferred call by call")
claim("C77","proved",["Falcon.C77_undefined_iff","Falcon.C77_without_contraction","Falcon.C77_key_sampler","Falcon.C77_gen_poly","Falcon.C77_sign_sampler_ub","Falcon.C77_sign_sampler","Falcon.C77_sign_sampler_contracted"],
      "The expectation that signing is defined with contraction is violated by the witness for the sampler; whether a key and a message reach it is not decided. C38_defined is the statement for ntru_gen.")
claim("C78","proved",["Falcon.C78_table","Falcon.C78_distribution","Falcon.C78_key_sampler","Falcon.C78_sign_sampler","Falcon.C78_gauss_total"],
      "bytes are assumed independent and uniform: all byte strings of length 18 m counted; with contraction under the hypothesis that the reduction is defined (C77)")
claim("C79","proved",["Falcon.C79_independent","Falcon.C79_geometric","Falcon.C79_iterations","Falcon.C79_same_for_all","Falcon.C79_termination"],
      "number of iterations; instructions inside an iteration and memory accesses are not modelled")
claim("C80","proved",["Falcon.C80_sampling","Falcon.C80_leaves","Falcon.C80_leaves_exact"],
      "uniform bytes; integer sampler compiled without contraction; in binary64 keys with Gram-Schmidt norms between 16810 and 16822.41 need the hypothesis on the leaves")
claim("C81","proved",["Falcon.C81_ideal","Falcon.C81_probability","Falcon.C81_code","Falcon.C81_error","Falcon.C81_basis"],
      "exact arithmetic outside the integer sampler; sampler without contraction; uniform bytes")
claim("C82","proved",["Falcon.C82_tail","Falcon.C82_code"],"as C81")
claim("C83","proved",["Falcon.C83_law","Falcon.C83_conditioned","Falcon.C83_basis"],
      "as C81, for a fixed salt whose hashing finishes; the probability that the second half does not fit the signature is not bounded, it enters through Accept")
claim("C84","proved",["Falcon.C84_uniform","Falcon.C84_finishes","Falcon.C84_blocks"],"the XOF output is assumed uniform: all byte strings of the given length counted")
claim("C85","proved",["Falcon.C85_pair","Falcon.C85_sigma","Falcon.C85_total"],"uniform bytes")
claim("C86","proved",["Falcon.C86_law","Falcon.C86_public_key","Falcon.C86_conditioned","Falcon.C86_disjoint","Falcon.C86_accepted","Falcon.C86_sent_back"],
      "uniform bytes; the tests are those of the model in any arithmetic; the probability of being sent back is not bounded, it enters through KeyAgain")
claim("C87","proved",["Falcon.C87_law","Falcon.C87_basis"],"as C83, averaged over the salt; salts for which hashing does not end within hfuel blocks count as no signature on both sides")
claim("C88","proved",["Falcon.C88_round","Falcon.C88_sign"],"exact arithmetic outside the integer sampler, uniform bytes")
claim("C89","proved",["Falcon.C89_adversary","Falcon.C89_error","Falcon.C89_basis"],"exact arithmetic outside the integer sampler, uniform bytes; the hash function is a fixed XOF known to the adversary")
claim("C90","proved",["Falcon.C90_forger"],"corollary of C89")

claim("C91","proved",["Falcon.C91_uniform","Falcon.C91_round"],"exact arithmetic outside the integer sampler, uniform bytes; one round, before the rejection step")
claim("C92","proved",["Falcon.C92_collision"],"without overflow: `Ovf.strict`; C27 shows what happens otherwise")

claim("C93","proved",["Falcon.C93_success"],"exact arithmetic outside the integer sampler; uniform bytes; the XOF answers the one query of signing with uniform bytes; hashing within 10 or 18 blocks")
claim("C94","proved",["Falcon.C94_one_vector","Falcon.C94_lossy","Falcon.C94_refused","Falcon.C94_verifies"],"as C93; quantifies the violation of C18 and C49")

claim("C95","proved",["Falcon.C95_transfer","Falcon.C95_undefined"],"the XOF answers the one query of verification with uniform bytes, its other answers are arbitrary; the second theorem is a violation: verification should be defined")
claim("C96","proved",["Falcon.C96_wrap","Falcon.C96_forger"],"as C95, with `Ovf.wrap`; quantifies the violation of C27")

claim("C97","proved",["Falcon.C97_malleable","Falcon.C97_rate","Falcon.C97_second"],"violation; as C93; quantifies C19")
claim("C98","proved",["Falcon.C98_keys","Falcon.C98_salts"],"violation; the words of std::random_device are assumed uniform and independent; quantifies C39")

claim("C99","proved",["Falcon.C99_known_answers","Falcon.C99_tables"],"a finite table; serves to check the model of the sampler against published vectors")

claim("C100","proved",["Falcon.C100_keys","Falcon.C100_unique","Falcon.C100_same"],"C100_keys and C100_same on IEEE 754 data, C100_unique in exact arithmetic")
claim("C101","proved",["Falcon.C101_decides","Falcon.C101_decides64","Falcon.C101_test_ntru_gen","Falcon.C101_test_format","Falcon.C101_test_keygen"],"IEEE 754 data; keys that do not fit the format exist (C14), for them test_keygen is not claimed to pass")

claim("C102","proved",["Falcon.C102_search","Falcon.C102_forge","Falcon.C102_word"],"violation; strengthens C39 to an attack")
claim("C103","proved",["Falcon.C103_ff","Falcon.C103_ntt","Falcon.C103_pkey","Falcon.C103_skey","Falcon.C103_skey_fails","Falcon.C103_compression","Falcon.C103_compression_ub","Falcon.C103_decompression","Falcon.C103_decompression_fails","Falcon.C103_decompression_ub"],"violation for three of the tests, and the exact conditions under which they pass; the part of SignatureCompression before compress_sig is the loop of sign_msg and is not repeated")
claim("C104","proved",["Falcon.C104_split_merge","Falcon.C104_mul_div","Falcon.C104_zero_divisor"],"violation only for a divisor that is zero; divisors below 2^-19 at a point are not decided")
claim("C105","proved",["Falcon.C105_check","Falcon.C105_conversion","Falcon.C105_ff_sampling","Falcon.C105_program"])
claim("C106","proved",["Falcon.C106_signing","Falcon.C106_sign_one","Falcon.C106_sign_many"],"the exceptions are those of C65 and C76; without the two readable bytes verification can read out of bounds (C22)")
claim("C107","proved",["Falcon.C107_recompute","Falcon.C107_one_shot","Falcon.C107_key","Falcon.C107_keygen","Falcon.C107_reached"],"violation: a concrete valid key with which one-shot signing is undefined; C67, C68, C75 and C76 prove it defined when f is at least 2^-10 at every point. C107_reached gives the random bytes from which key generation draws this f and g, and shows that they are not rejected; that the solver terminates on them, and that some 32-byte seed yields those bytes, is not decided")
claim("C108","proved",["Falcon.C108_quotient","Falcon.C108_solver","Falcon.C108_reached"],"violation with a concrete pair; the part that holds is C38_defined (no other step of ntru_gen is undefined) and C76 (a returned key is good). Whether a 32-bit seed gives these bytes is not decided")
claim("C109","proved",["Falcon.C109_keygen","Falcon.C109_sign_single","Falcon.C109_sign_many","Falcon.C109_verify"],"the measurement itself (google benchmark) is not modelled; the exceptions are those of C106. Without the two readable bytes see C22")
claim("C110","proved",["Falcon.C110_verify","Falcon.C110_signing","Falcon.C110_sign_one"],"sharpens C22 to an equivalence for signatures that decode, and C106 to the arrays the programs really have")
claim("C111","proved",["Falcon.C111_substitute","Falcon.C111_other_key"],"negation of the expected binding, with the keys given explicitly; the hash of the message does not include the public key, as in the specification of Falcon")
claim("C112","proved",["Falcon.C112_parity","Falcon.C112_reject"],"consequence of the NTRU equation at x = 1")
claim("C113","proved",["Falcon.C113_same_key","Falcon.C113_exact"],"")
claim("C114","proved",["Falcon.C114_round","Falcon.C114_leak","Falcon.C114_negative"],"the property is violated; the theorems state what is disclosed. Not stated: how many such inequalities determine the key.")
claim("C115","proved",["Falcon.C115_erased","Falcon.C115_generated"],"violation, and the part that holds; C107 is the violation with a valid key")
claim("C116","proved",["Falcon.C116_second","Falcon.C116_erased","Falcon.C116_poly","Falcon.C116_binary64","Falcon.C116_recover"],"violation; in exact arithmetic for every f, in binary64 arithmetic without overflow for f whose transform is nowhere below 1/10 and no coefficient -32 (-16)")
claim("C117","proved",["Falcon.C117_program","Falcon.C117_calls"],"operations of Arith count as one step each; the time of a single division or square root is not modelled; decoding, hashing, the sampler and compression are the model functions themselves")
claim("C118","proved",["Falcon.C118_joint","Falcon.C118_counts","Falcon.C118_param","Falcon.C118_two","Falcon.C118_bytes"],"time is counted in iterations of the sampler loop; the comparison length is treated per iteration, not jointly with acceptance; sampling without contraction to fused operations in the sampler; calls that exceed m attempts are counted on neither side and have probability at most 2N 2^-m in total")
claim("C119","proved",["Falcon.C119_round","Falcon.C119_basis"],"exact arithmetic outside the sampler; one round; time is counted in iterations of the sampler loop")
claim("C120","proved",["Falcon.C120_sign","Falcon.C120_basis","Falcon.C120_signature"],"exact arithmetic outside the sampler; time is counted in iterations of the sampler loop and rounds")
claim("C121","proved",["Falcon.C121_round","Falcon.C121_sign","Falcon.C121_loop"],"exact arithmetic outside the sampler; time is counted in iterations of the sampler loop; for the whole loop the error includes the probability that a second round is needed")
claim("C122","proved",["Falcon.C122_adversary","Falcon.C122_signer"],"exact arithmetic outside the sampler; time is counted in iterations of the sampler loop and rounds; random bytes independent and uniform")
claim("C123","proved",["Falcon.C123_adversary","Falcon.C123_forger"],"exact arithmetic outside the sampler; random bytes independent and uniform; time is counted in iterations of the sampler loop and rounds; the simulation is not claimed to be efficient, and the hardness of forging against it is not proved")
here = os.path.dirname(os.path.abspath(__file__))
C.sort(key=lambda c: int(c["property"][1:]))
json.dump({"claims": C}, open(os.path.join(here, "..", "MANIFEST.json"), "w"), indent=1)
