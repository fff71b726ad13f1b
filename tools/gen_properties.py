import json
P=[]
def p(title, statement, quantifier, why, anchors):
    P.append(dict(id=f"C{len(P)+1:02d}", title=title, statement=statement, quantifier=quantifier, why_tests_cant=why, anchors=anchors))

p("Field addition, subtraction, negation and multiplication are exact arithmetic mod 12289",
  "For field elements holding canonical values in [0, 12289), +, +=, binary -, unary -, * and *= each return a canonical value in [0, 12289) congruent to the integer result modulo 12289; construction from any 16-bit value yields the value mod 12289.",
  "all pairs of canonical field elements; all 16-bit constructor arguments",
  "1.5e8 operand pairs per operation, and the fixed-width Barrett step is only right because of an inequality that must hold for all of them",
  ["include/ff.hpp: ff::ff_t::ff_t, operator+, operator+=, operator-, operator*, operator*="])
p("Field arithmetic tolerates the unreduced 14-bit values that key decoding lets in",
  "If operands hold any values below 2^14 (not necessarily below q), multiplication still returns the canonical product mod q, and x += y with y canonical keeps x below 2^14 and congruent to the sum mod q. Negating an unreduced value, by contrast, gives a wrong residue.",
  "all operand values below 2^14",
  "2^28 operand pairs; unreduced values never appear in tests that build keys with keygen",
  ["include/ff.hpp: operator*, operator+=, unary operator-", "include/decoding.hpp: decode_pkey"])
p("Field inversion and division",
  "inv() of a non-zero element is its multiplicative inverse mod q, inv() of zero is zero, a/b is the unique canonical c with b*c = a for b != 0 and zero for b = 0, and the 16-bit signed extended-gcd it uses never wraps.",
  "all canonical field elements",
  "requires termination and absence of int16 wrap-around in a data dependent loop",
  ["include/ff.hpp: xgcd, ff_t::inv, operator/"])
p("Field exponentiation",
  "For every canonical a and every 64-bit exponent n, a ^ n is the canonical representative of a to the n-th power mod q, including n = 0.",
  "all canonical a and all n < 2^64",
  "2^64 exponents",
  ["include/ff.hpp: operator^"])
p("The number theoretic transform evaluates the polynomial at the odd powers of the root, in bit-reversed order",
  "For every polynomial with canonical coefficients, entry i of its transform is canonical and equals the value of the polynomial at zeta^(2*bitreverse(i)+1) mod q, zeta = 49 (N = 512) or 7 (N = 1024), whose N-th power is -1.",
  "all polynomials with N in {512,1024} canonical coefficients, all output indices",
  "q^512 inputs", ["include/ntt.hpp: ntt, bit_rev, compute_powers_of_ζ"])
p("Forward and inverse number theoretic transform are mutually inverse",
  "Inverse transform after forward transform, and forward after inverse, return exactly the input array.",
  "all arrays of N in {512,1024} canonical elements",
  "q^512 inputs", ["include/ntt.hpp: ntt, intt"])
p("Transform, multiply pointwise, inverse transform is multiplication modulo x^N+1 and q",
  "The result of transforming two polynomials, multiplying entrywise and transforming back is the canonical product in Z_q[x]/(x^N+1).",
  "all pairs of polynomials with N in {512,1024} canonical coefficients",
  "q^1024 input pairs", ["include/ntt.hpp: ntt, intt", "include/polynomial.hpp: mul"])
p("Transforms touch only their N entries and N table slots",
  "Every array index and every root-table index used while transforming in either direction (number theoretic or Fourier) is below N, and entries at or beyond N are left as they were.",
  "all loop iterations of all layers, N = 2^k",
  "an index slip past the end is silent undefined behaviour", ["include/ntt.hpp: ntt, intt", "include/fft.hpp: fft, ifft"])
p("Public key bytes decode to the polynomial that was encoded",
  "Decoding an encoded public key succeeds and returns exactly the encoded polynomial; encoding writes exactly the first 897 (N=512) or 1793 (N=1024) bytes.",
  "all polynomials with N coefficients below 2^14 (in particular canonical ones), all prior buffer contents",
  "q^512 keys", ["include/encoding.hpp: encode_pkey", "include/decoding.hpp: decode_pkey", "include/utils.hpp: compute_pkey_len"])
p("Public key decoding accepts exactly the strings with the right header, and loses nothing",
  "Decoding returns false and an all-zero polynomial iff the first byte is not log2(N); otherwise re-encoding the decoded polynomial reproduces the input bytes.",
  "all byte strings of public key length",
  "2^7176 inputs", ["include/decoding.hpp: decode_pkey", "include/encoding.hpp: encode_pkey"])
p("Public keys have a unique accepted encoding (violated)",
  "A user expects decoding to reject coefficients >= q so that a verification key has one encoding. The code does not: every 14-bit coefficient is accepted, and two different public key byte strings whose coefficients agree mod q verify exactly the same (message, signature) pairs.",
  "all public key byte strings, all messages, all signatures",
  "keygen never emits such keys, so tests do not see them", ["include/decoding.hpp: decode_pkey", "include/falcon.hpp: verify"])
p("Secret key bytes decode to the polynomials that were encoded, within the encodable range",
  "If f, g have coefficients in [-32,31] (N=512) or [-16,15] (N=1024) and F in [-128,127], then decoding the encoded secret key succeeds and returns f, g and F; encoding writes exactly the first 1281 or 2305 bytes.",
  "all in-range f, g, F, all prior buffer contents",
  "64^1024 * 256^512 keys", ["include/encoding.hpp: encode_skey", "include/decoding.hpp: decode_skey"])
p("Secret key decoding rejects exactly on the header and loses nothing",
  "Decoding returns false with all-zero polynomials iff the first byte is not 0x50 + log2(N); otherwise the outputs are in range and re-encoding them reproduces the input bytes.",
  "all byte strings of secret key length",
  "2^10248 inputs", ["include/decoding.hpp: decode_skey", "include/encoding.hpp: encode_skey"])
p("A generated secret key survives serialization (violated: no range check)",
  "Serialized key material decodes to what was generated iff every coefficient is in the encodable range; neither key generation nor encoding checks that range, so any out-of-range coefficient is silently corrupted while encoding still reports nothing.",
  "all polynomials f, g, F with 32-bit coefficients",
  "out-of-range coefficients are a rare event of key generation", ["include/falcon.hpp: keygen", "include/encoding.hpp: encode_skey", "include/ntru_gen.hpp: ntru_gen"])
p("Signature compression writes the specified bit string or reports failure",
  "If the total code length (9 + floor(|s_i|/128) bits per coefficient) is below the available bits, compression returns true and the body holds, most significant bit first, for each coefficient its sign bit, seven low bits, floor(|s_i|/128) zeros and a one, followed by zeros; otherwise it returns false and the body is all zero. The first 41 bytes are not touched.",
  "all coefficient vectors that fit the internal buffer, all prior buffer contents",
  "input space 2^16384", ["include/encoding.hpp: compress_sig"])
p("Signature compression never writes outside its buffers for any vector the signer can pass",
  "For every vector whose squared norm is at most the signature bound, no write leaves the internal 14N-bit buffer and no signed overflow happens. Without that bound a single large coefficient writes out of bounds.",
  "all integer vectors of N coefficients with squared norm <= beta^2",
  "worst case vectors are not produced by the Gaussian sampler", ["include/encoding.hpp: compress_sig"])
p("Decompression inverts compression for coefficients below 1024 in absolute value",
  "If compression succeeds on a vector whose coefficients all lie in [-1023,1023], decompression of the result succeeds and returns that vector.",
  "all vectors with N coefficients in [-1023,1023] for which compression returns true",
  "2047^512 vectors", ["include/encoding.hpp: compress_sig", "include/decoding.hpp: decompress_sig"])
p("Decompression inverts compression for everything compression accepts (violated)",
  "A user expects decompress(compress(s)) = s whenever compression succeeds. For every vector with some |s_i| >= 1024 this fails, although compression can succeed and the signature norm bound can be met: the decoder drops unary runs of eight or more.",
  "all vectors with at least one coefficient of absolute value >= 1024",
  "such coefficients are 6 sigma events in honest signing", ["include/decoding.hpp: decompress_sig", "include/encoding.hpp: compress_sig"])
p("An accepted signature body is the unique encoding of its vector (violated)",
  "A user expects that if decompression succeeds with s then the body is exactly compress(s) (no malleability). This holds when no unary run has eight or more zeros, and is false in general: from accepted signatures with 16 spare bits a different signature with the same decoding and the same verification result can be made for every key and message.",
  "all signature byte strings; for the violation all keys and messages",
  "random signatures almost never decompress, so the repository's test for this never reaches its assertion", ["include/decoding.hpp: decompress_sig", "tests/test_encoding.cpp: test_sig_decompression"])
p("Decompression rejects minus zero, non-zero padding, and truncated bodies, with a zeroed output",
  "On success the body starts with N complete codes none of which is a minus zero, ends strictly inside the buffer and is followed only by zero bits; on failure the output vector is all zero.",
  "all signature byte strings",
  "2^5000 bodies", ["include/decoding.hpp: decompress_sig"])
p("The verdict of decompression depends only on the signature bytes",
  "Although the decoder reads past the end of the signature buffer, its return value and output never depend on those bytes, nor on the 41 header and salt bytes.",
  "all signature byte strings and all contents of the memory behind them",
  "requires comparing all pairs of memories", ["include/decoding.hpp: decompress_sig, extract_8_contiguous_bits"])
p("Decompression stays inside the signature buffer (violated: reads up to two bytes past the end)",
  "A user expects no read outside the 666/1280 signature bytes. The code reads at most 2 bytes past the end for every input, and does read past the end for inputs including honestly compressed ones whose code length is a multiple of 8.",
  "all signature byte strings",
  "out-of-bounds reads are silent on most runs", ["include/decoding.hpp: decompress_sig, extract_8_contiguous_bits"])
p("Decompressed coefficients are bounded",
  "Every coefficient returned by successful decompression lies in [-1023, 1023]; hence the conversion to a field element is canonical and its square cannot overflow.",
  "all signature byte strings",
  "2^5000 bodies", ["include/decoding.hpp: decompress_sig", "include/verification.hpp: verify"])
p("Message hashing yields the first N accepted big-endian 16-bit words of the XOF, reduced mod q",
  "The hashed point is canonical, its i-th coefficient is the i-th big-endian 16-bit word of SHAKE256(salt || message) that is below 61445, reduced mod 12289, independently of how the output is squeezed in 136-byte blocks; bytes of the stream after the N-th accepted word are irrelevant.",
  "all salts, messages and XOF output streams containing N accepted words",
  "infinite streams; rejection positions depend on the hash", ["include/hashing.hpp: hash_to_point"])
p("Message hashing introduces no modular bias",
  "Among the 16-bit words accepted by rejection sampling, every residue mod 12289 has exactly five preimages.",
  "all residues", "statistical tests cannot show exact uniformity", ["include/hashing.hpp: hash_to_point"])
p("Verification accepts only short preimages (violated: the norm accumulator overflows)",
  "A user expects verify = true to imply a vector (s1,s2) with s1 + s2*h = hash(salt||msg) mod (q, x^N+1) and squared norm <= beta^2. This holds whenever the true squared norm is below 2^31, but the 32-bit signed accumulator overflows on larger ones: undefined behaviour, and with two's complement wrap-around an accepted forgery.",
  "all public keys, messages and signatures",
  "tests only verify honest signatures, which are short", ["include/verification.hpp: verify"])
p("Trivial signatures are accepted when the norm accumulator wraps (attack)",
  "For every public key and message the signature with s2 = 0 and any salt has the true squared norm of the centred hash; if that norm lies in [2^31, 2^32) the accumulator is negative under wrap-around and verification returns true without knowledge of any key; under the C++ standard that run is undefined.",
  "all public keys, all messages, all salts",
  "needs universally quantified keys and hash outputs", ["include/verification.hpp: verify"])
p("Verification accepts every short preimage",
  "If the signature decodes to s2 and some s1 satisfies s1 + s2*h = hash mod (q, x^N+1) with |(s1,s2)|^2 <= beta^2 then verify returns true (for N = 1024 provided no centred coefficient equals 6144, whose square the code over-counts); no overflow happens on such inputs.",
  "all public keys, messages, signatures and all witnesses s1",
  "needs all witnesses", ["include/verification.hpp: verify"])
p("Centred reduction picks the shortest representative except at 6144",
  "For every residue v the verifier squares the representative of least absolute value, except v = 6144 for which it uses -6145; so the computed norm is never below the true minimum and exceeds it by 12289 per coefficient equal to 6144.",
  "all residues and all vectors of residues", "the exceptional residue is improbable", ["include/verification.hpp: verify"])
p("Verification is a function of key, message and signature bytes, and rejects wrong headers",
  "verify returns false if the key header is not log2(N) or the signature header is not 0x30+log2(N) or decompression fails; otherwise the verdict depends only on the key bytes, message bytes and the signature bytes.",
  "all keys, messages, signatures, and contents of neighbouring memory", "all pairs of memories", ["include/falcon.hpp: verify", "include/decoding.hpp: decode_sig"])
p("Big-integer polynomial multiplication is exact",
  "Karatsuba multiplication of two integer polynomials of length N = 2^k returns the exact product, and its reduction returns the product in Z[x]/(x^N+1).",
  "all k and all integer polynomials", "unbounded integers and sizes", ["include/karatsuba.hpp: karatsuba, karamul"])
p("Field norm, lift and conjugate satisfy N(f)(x^2) = f(x) f(-x)",
  "The field norm of f in Z[x]/(x^N+1), lifted back by x -> x^2, equals f(x)*f(-x) in Z[x]/(x^N+1).",
  "all N = 2^k >= 2 and all integer polynomials", "unbounded integers", ["include/ntru_gen.hpp: field_norm, lift, galois_conjugate"])
p("Big-integer extended gcd terminates and satisfies Bezout",
  "For all integers x, y it terminates with a*x + b*y = g and |g| = gcd(x,y).",
  "all integers", "unbounded integers", ["include/ntru_gen.hpp: xgcd"])
p("A reported NTRU solution satisfies fG - gF = q exactly, whatever the floating point reduction does",
  "If the NTRU solver reports a solution for f, g then the returned F, G satisfy f*G - g*F = q in Z[x]/(x^N+1), for any values of the rounded floating point quotients chosen during reduction.",
  "all N = 2^k, all integer f, g, all reduction quotients and iteration counts", "key generation is random; the float quotients are unpredictable", ["include/ntru_gen.hpp: ntru_solve, reduce"])
p("Scaling for reduction is exact in double precision",
  "The bit length estimate of v is a multiple of 8 with 2^(len-8) <= |v| < 2^len (0 for v = 0), shifts are by non-negative amounts, and every coefficient after scaling has absolute value at most 2^53, so its conversion to double is exact.",
  "all integer polynomials", "unbounded integers", ["include/ntru_gen.hpp: approx_bit_len, min_max, reduce"])
p("The invertibility test is exact",
  "is_poly_invertible returns true iff the polynomial is a unit of Z_q[x]/(x^N+1).",
  "all polynomials with coefficients in (-q, q)", "non-invertible f have probability about N/q", ["include/ntru_gen.hpp: is_poly_invertible"])
p("The public key is g/f",
  "If f is invertible mod q the computed public key h is canonical and satisfies h*f = g in Z_q[x]/(x^N+1), and it is the only such polynomial.",
  "all f, g with coefficients in (-q,q), f invertible", "q^1024 pairs", ["include/keygen.hpp: compute_public_key"])
p("Key generation returns a consistent NTRU key pair unless an integer narrowing loses bits",
  "Whenever key generation returns, f is invertible mod q, the coefficients of f and g are at most 19*4096/N in absolute value, and fG - gF = q provided the solver's F and G fit in 32 bits; without the range hypothesis the narrowing is unchecked.",
  "all random byte streams, all floating point quotients, all numbers of rejected candidates", "random process", ["include/ntru_gen.hpp: ntru_gen, gen_poly"])
p("Key pairs have 256 bits of seed entropy (violated: at most 2^32 key pairs)",
  "A user expects the generated key pair to be determined by at least 128 bits of entropy. The generator is seeded through a Mersenne Twister seeded with a single 32-bit word, so at most 2^32 distinct key pairs (and at most 2^32 distinct salts of one-shot signing, over all keys and messages) can ever be produced.",
  "all runs of key generation, whatever the twister, SHAKE256 and the algorithm compute", "cannot enumerate runs", ["include/prng.hpp: prng_t", "include/falcon.hpp: keygen, sign"])
p("The Fourier transform evaluates at the complex 2N-th roots and its inverse inverts it (exact arithmetic)",
  "In exact complex arithmetic, entry i of the transform is the value at exp(i*pi*(2*bitreverse(i)+1)/N); the inverse transform undoes it in both orders and pointwise multiplication is multiplication mod x^N+1.",
  "all complex arrays of length N = 2^k, 1 <= k <= 10", "real-valued inputs", ["include/fft.hpp: fft, ifft, computeζ"])
p("Splitting and merging in the Fourier domain are inverse and commute with the transform (exact arithmetic)",
  "merge(split(f)) = f, split(merge(f0,f1)) = (f0,f1), and splitting the transform of f gives the transforms of its even and odd parts.",
  "all complex arrays of length N = 2^k", "real-valued inputs", ["include/fft.hpp: split_fft, merge_fft"])
p("Squared norms agree in both domains (exact arithmetic)",
  "The norm computed in the Fourier domain equals the sum of squares of the coefficients, and the Gram-Schmidt norm equals max(|(g,-f)|^2, |(q f*/(ff*+gg*), q g*/(ff*+gg*))|^2).",
  "all real polynomials of length 2^k", "real-valued inputs", ["include/ntru_gen.hpp: sqrd_norm, gram_schmidt_norm"])
p("The literal table of roots is accurate",
  "Each of the 1024 tabulated complex literals and the double nearest to it is within 2^-51 in each component of exp(i*pi*bitreverse10(k)/1024). (Not all entries are correctly rounded: entry 509 is off by more than 2^-52.)",
  "all 1024 table entries against the exact real numbers", "tests can only compare with another floating point computation", ["include/fft.hpp: POWERS_OF_ζ"])
p("Recomputing G from f, g, F recovers the G of key generation (exact arithmetic)",
  "If fG - gF = q in Z[x]/(x^N+1) and f vanishes at no 2N-th root of -1, recompute_G returns G.",
  "all integer f, g, F, G satisfying the NTRU equation", "q^2048 keys", ["include/falcon.hpp: recompute_G"])
p("The tree construction performs an LDL* decomposition at every node, and the extra conjugation is harmless (exact arithmetic)",
  "For self-adjoint input, each node satisfies G = L D L* with real diagonal; the tree built equals the one of the specification although the code also conjugates the lower right block.",
  "all self-adjoint positive definite Gram matrices, all sizes 2^k up to 1024", "real-valued inputs", ["include/falcon_tree.hpp: ldl, ffldl"])
p("The flat tree layout is collision free",
  "The tree of height k occupies exactly (k+1)*2^k slots, distinct nodes use disjoint slots, and signing reads exactly the slots written for the corresponding node.",
  "all heights k and all nodes", "aliasing errors show as bad distributions only", ["include/falcon_tree.hpp: ffldl, normalize_tree", "include/ffsampling.hpp: ff_sampling"])
p("Every leaf standard deviation is within the sampler's admissible interval (exact arithmetic)",
  "If the Gram-Schmidt norm passes key generation's threshold then every normalized leaf lies in [sigma/(1.17 sqrt q), 1.17 sigma/sqrt q], hence below sigma_max, and at least sigma_min for N=1024; for N = 512 the tabulated sigma_min exceeds the guaranteed lower bound by less than 1e-10.",
  "all keys accepted by key generation", "needs all keys and all leaves", ["include/falcon_tree.hpp: normalize_tree", "include/ntru_gen.hpp: GS_NORM_THRESHOLD", "include/falcon.hpp: compute_falcon_tree"])
p("Fast Fourier sampling returns transforms of integer polynomials (exact arithmetic)",
  "Whatever integers the leaf sampler returns, z0 and z1 are the Fourier transforms of polynomials with integer coefficients.",
  "all targets, trees, and leaf sampler behaviours", "random process", ["include/ffsampling.hpp: ff_sampling"])
p("A signature produced by sign verifies (exact arithmetic; violated for large coefficients)",
  "For every key pair satisfying the NTRU equation, message, salt and every behaviour of the sampler, the signature returned by sign is accepted by verify under the matching public key provided all coefficients of s2 are below 1024 in absolute value (and for N = 1024 no coefficient hits 6144).",
  "all keys, messages, salts, sampler outputs and rejection rounds", "random process; failures are rare events", ["include/signing.hpp: sign", "include/falcon.hpp: sign, verify"])
p("Signature layout and refusal of malformed secret keys",
  "sign returns false and leaves the signature buffer alone iff the secret key header is wrong; otherwise it writes exactly 666/1280 bytes: header 0x30+log2(N), 40 salt bytes, compressed body.",
  "all secret keys, messages, random streams", "all byte strings", ["include/falcon.hpp: sign", "include/signing.hpp: sign"])
p("72-bit arithmetic is arithmetic modulo 2^72",
  "+, - and negation on values below 2^72 are exact modulo 2^72 and stay below 2^72; < and > are the integer order; byte conversions in both byte orders are inverse bijections.",
  "all pairs of 72-bit values, all 9-byte arrays", "2^144 pairs", ["include/u72.hpp: u72_t"])
p("The base sampler has exactly the tabulated distribution",
  "Over all 2^72 equally likely 9-byte inputs the number of inputs mapped to z is exactly the z-th entry of the scaled probability table, for z in 0..18, and no other value is returned.",
  "all 2^72 byte arrays", "2^72 inputs", ["include/samplerz.hpp: base_sampler, PDT, RCDT"])
p("64x64 to 128 bit multiplication is exact",
  "high*2^64 + low = lhs*rhs.", "all pairs of 64-bit values", "2^128 pairs", ["include/samplerz.hpp: full_mul_u64"])
p("The fixed point exponential never wraps and is accurate",
  "For z = floor(2^63 x), x in [0, ln 2], and c = floor(2^63 ccs), ccs in [0,1), every intermediate value is non-negative and the result is within 2^-50 (relative to 2^63) of 2^63 * ccs * exp(-x). At ccs = 1, x = 0 the result is 0 instead of 2^63.",
  "all fixed point arguments in range", "2^126 argument pairs", ["include/samplerz.hpp: approx_exp, top_63_bits, C"])
p("Bernoulli sampling returns one with exactly the threshold probability",
  "The routine returns 1 iff the big-endian 64-bit number formed by the next eight stream bytes is below the threshold, reads at most eight bytes and only as many as needed; so exactly z of 2^64 byte strings give 1.",
  "all thresholds and byte streams", "2^128 combinations", ["include/samplerz.hpp: ber_exp"])
p("Integer sampling: the exponent is never negative and results stay near the mean",
  "In binary64 arithmetic, with 2^-500 <= sigma' <= sigma_max the exponent passed to the Bernoulli step is >= 0; with 6/5 <= sigma' <= sigma_max and a mean whose floor is not within 20 of the int32 limits no conversion is undefined and any returned integer lies in [floor(mu)-18, floor(mu)+19].",
  "all real mu, sigma' in range, all byte streams", "real-valued inputs and infinite streams", ["include/samplerz.hpp: samplerz"])
p("Hex printing and parsing are inverse",
  "Parsing the hex string of any byte array returns the byte array; the string has two lower case digits per byte.",
  "all byte arrays of all lengths", "unbounded lengths", ["include/common.hpp: to_hex, to_byte_array"])
p("Signing with precomputed key material equals one-shot signing",
  "Loading a secret key, computing matrix and tree once and signing many messages yields, for each message and random stream, the same signature as one-shot signing (in every arithmetic); and so does signing with the matrix and tree that key generation computed (exact arithmetic, for keys that survive serialization).",
  "all keys, messages, random streams", "all inputs", ["include/falcon.hpp: sign, compute_matrix_B, compute_falcon_tree", "include/keygen.hpp: keygen"])
p("Key byte strings have the documented positional layout",
  "After the one byte header, the public key is the little-endian number sum h_i 2^(14 i); the secret key is the little-endian numbers sum (f_i mod 2^w) 2^(w i) and the same for g (w = 6 or 5), followed by one two's complement byte per coefficient of F. So the encoder and decoder cannot be wrong in the same way.",
  "all polynomials in range", "q^512 keys; a round trip test cannot see a common permutation of bits", ["include/encoding.hpp: encode_pkey, encode_skey"])
p("Argument reduction of ber_exp is safe without contraction and undefined with it",
  "For every double x in [0,137) the reduced argument x - s*LN2 computed in binary64 without contraction lies in [0, 0.6932), so the conversions to uint64_t are defined. If the compiler contracts the expression into a fused multiply-add (clang's default with -march=native) there is a double x for which the reduced argument is negative and its conversion to uint64_t is undefined behaviour.",
  "all doubles in range", "the bad arguments are isolated doubles; tests pass either way", ["include/samplerz.hpp: ber_exp, LN2, INV_LN2"])
p("One sampler iteration has the ideal distribution up to 2^-41",
  "For every mean and every sigma_min <= sigma' <= sigma_max, the exact fraction of the 2^144 random byte strings on which an iteration outputs floor(mu)+k equals the proposal probability times ccs*exp(-((k-r)^2/(2 sigma'^2) - z0^2/(2 sigma_max^2))) up to a relative 2^-41 of the proposal probability; all rounding of binary64 and of the fixed point exponential is included.",
  "all means, deviations in range, all k; all random byte strings", "2^144 byte strings times all doubles", ["include/samplerz.hpp: samplerz, ber_exp, approx_exp, base_sampler"])
p("The array variant of the sampler (known answer tests) reads past short arrays",
  "With 18 unread bytes an iteration of the array variant behaves like the stream variant with the nine base bytes reversed; on every array of 1 to 10 bytes it reads past the end, and on an empty array it returns 0 as if sampled.",
  "all arrays, means and deviations", "tests use arrays of sufficient length", ["include/samplerz.hpp: samplerz(mu, sigma, sigma_min, rbytes, rblen), ber_exp(x, ccs, rbytes, rblen)"])
p("Key generation, signing and verification fit together, with serialized keys (exact arithmetic)",
  "For every key pair that keygen returns, if f, g, F fit the secret key format and the NTRU solution survived the narrowing to 32 bits, every signature returned by sign from the secret key bytes encodes a short preimage of the hashed point and is accepted by verify with the public key bytes, provided that no coefficient of s2 exceeds 1023 in absolute value and, for N = 1024, no coefficient of s1 equals 6144.",
  "all seeds, messages, random streams, sampler behaviours, prior buffer contents", "all keys, messages and seeds; the bad coefficients occur about once in a million signatures", ["include/falcon.hpp: keygen, sign, verify"])
p("A signature's probability depends only on its length (exact arithmetic)",
  "A run of the fast Fourier sampler makes exactly 2N calls to the integer sampler; the sum of (z-mu)^2/sigma_i^2 over those calls equals (|s1|^2+|s2|^2)/sigma^2 of the resulting signature vector, every sigma_i used is positive and is one of the leaves of the tree, and the product of all sigma_i is sigma^(2N)/q^N whatever the key. Hence the product of the Gaussian weights exp(-(z-mu)^2/(2 sigma_i^2)) is exp(-(|s1|^2+|s2|^2)/(2 sigma^2)): it reveals nothing about the basis.",
  "all NTRU bases, all hashed points, all sampler behaviours, every N = 2^n", "an identity over all keys and executions; a statistical test could not see a key dependent skew", ["include/ffsampling.hpp: ff_sampling", "include/falcon_tree.hpp: ffldl, normalize_tree", "include/signing.hpp: sign"])
p("Rounding errors of signing do not change the signature vector",
  "In binary64 arithmetic (with or without contraction), for every key in the range of the key format that satisfies the NTRU equation: whenever the norm test of sign accepts, the rounded coefficients written into the signature are exactly those of s2 = a0 f + a1 F, where a0 and a1 collect the integers drawn in that round; (s1, s2) with s1 = c - a0 g - a1 G is an exact preimage of the hashed point; and signing never converts an out of range value. The norm test, done on rounded values, accepts every vector of squared norm at most beta^2 - 168 and none above beta^2 + 166. Hence verification accepts under the conditions of C49 unless the squared norm is above beta^2.",
  "all keys in range, hashed points, trees, random streams and sampler behaviours; every arithmetic within the stated error bounds", "rounding errors depend on all inputs; no test can bound the worst case", ["include/signing.hpp: sign", "include/fft.hpp: fft, ifft, split_fft, merge_fft", "include/ffsampling.hpp: ff_sampling", "include/falcon.hpp: compute_matrix_B"])
p("The reduction of the NTRU solution is Babai's, and the result always fits 32 bits",
  "In exact arithmetic the integers by which the solver reduces (F, G) are the coefficients of (F f* + G g*) / (f f* + g g*), rounded half away from zero. In every arithmetic within the stated error bounds, exact or binary64, a solution for f, g of the size that key generation samples has coefficients of at most 2^23 in absolute value whenever |f^|^2 + |g^|^2 >= 1 at every point. The Gram-Schmidt test of key generation guarantees that: in exact arithmetic always, in binary64 provided that |f^|^2 + |g^|^2 >= 2^-10 at every point. So the narrowing of F and G to int32_t loses nothing, the returned f, g, F, G satisfy f G - g F = q, and the whole chain from key generation to verification holds without a hypothesis on the narrowing.",
  "all f, g, all random streams; every arithmetic within the error bounds", "the intermediate integers have thousands of bits and the rounded quotients depend on all of them; the claim is about every key that can be generated", ["include/ntru_gen.hpp: reduce, ntru_solve, gram_schmidt_norm, ntru_gen"])
p("One-shot signing from the secret key bytes is exact in binary64",
  "sign recomputes G = (q + g F) / f in floating point. In binary64 (with or without contraction), for every key in the range of the key format with |f^| >= 2^-10 at every point, the recomputed coefficients are exactly those of the G with f G - g F = q; so signing from the secret key bytes is signing with the matrix and tree of (f, g, F, G). Together with C65 and C66 this gives the chain from key generation to verification in binary64 throughout: every signature that sign returns from the secret key bytes of a generated key of that range is the exact lattice vector of the sampled integers, and verify accepts it with the public key bytes unless its squared norm is above beta^2 (by at most 166) or a condition of C49 fails.",
  "all keys in range, messages, seeds, random streams, sampler behaviours, prior buffer contents; every arithmetic within the stated error bounds", "an error of 1/2 in one of N quotients changes the key silently; a worst case over all keys", ["include/falcon.hpp: recompute_G, sign, keygen, verify", "include/fft.hpp: fft, ifft"])
p("Signing in binary64 executes no undefined behaviour",
  "For every key in the range of the key format whose two Gram-Schmidt norms are at most 16900 (the test of key generation, 1.17^2 q = 16822.4): every leaf of the Falcon tree computed in binary64 lies between 1.2 and 1.82, the interval for which the integer sampler is made; for every message, salt and random stream, fast Fourier sampling calls the integer sampler only with centres of absolute value at most 2^31 - 100; so neither the conversion of the centre to int32_t, nor the additions in the sampler, nor the conversion of the resulting vector, nor compression is undefined. This holds for sign with precomputed key material, for one-shot sign with the secret key bytes (if f is not nearly zero at one of the points), and from keygen on. The key generation test, computed in binary64, implies the bound on the norms if |f|^2 + |g|^2 is not nearly zero at one of the points.",
  "All keys of the format with bounded Gram-Schmidt norms, both parameter sets, all messages, seeds, XOFs, all arithmetics within the error bounds of Accurate (binary64 with and without fused complex products), all amounts of fuel",
  "Rounding errors accumulate over 9 or 10 levels of the tree and through more than 1000 dependent samples; the centres depend on all previous samples. No test can bound them over all keys and all streams. The decimal root table is not exactly symmetric under conjugation, so intermediate polynomials are not exactly real, which tests do not show.",
  ["include/ffsampling.hpp: ff_sampling", "include/falcon_tree.hpp: ffldl, normalize_tree, compute_falcon_tree", "include/samplerz.hpp: samplerz", "include/signing.hpp: sign", "include/falcon.hpp: sign", "include/ntru_gen.hpp: gram_schmidt_norm"])

p("The NTRU solver fails exactly when the norms of f and g are not coprime",
  "Whenever ntru_solve returns, it reports failure if and only if the norms of f and g, that is the products of their values at the N roots of x^N + 1, have a common divisor greater than 1. Nothing else makes it fail: neither the quotients used for reduction nor the size of the numbers matter.",
  "all integer polynomials f, g of degree below N, N = 2, ..., 1024; every procedure for the rounded quotients", "the norms have thousands of bits; a test cannot tell a spurious failure from a rightful one, since key generation silently draws again",
  ["include/ntru_gen.hpp: ntru_solve, xgcd, field_norm"])
p("Key generation can draw every polynomial of the range and no other",
  "One sample of the integer sampler with the deviation of key generation takes each of the values -18, ..., 19 and no other. gen_poly returns exactly the polynomials with coefficients between -18 (4096/N) and 19 (4096/N); every pair of such polynomials is drawn from some finite string of bytes, whatever follows.",
  "both parameter sets, all polynomials, all random streams", "the extreme values have probabilities below 2^-100; the claim is about all streams", ["include/ntru_gen.hpp: gen_poly", "include/samplerz.hpp: samplerz, base_sampler, ber_exp"])
p("The reduction of ntru_solve ends for every key (violated: it can loop forever)",
  "Expected: ntru_gen ends with probability one. Violated: reduce leaves its loop only when all rounded quotients are zero, and std::round rounds halves away from zero. If a coefficient of the exact quotient (F f* + G g*)/(f f* + g g*) is a half integer, then in exact arithmetic no amount of iterations suffices. For f = 18 + 39y + 35y^2 - 9y^3, g = 24 - 23y + 33y^2 - 67y^3, y = x^(N/4), which pass all tests of key generation and for which a solution with coefficients of at most 94 exists, the solver does not return, in exact arithmetic and in binary64 with and without contraction, N = 512 and 1024. There is a finite string of bytes such that keygen returns on no random stream that begins with it.",
  "all amounts of fuel, all continuations of the stream, both parameter sets, all prior buffer contents, with and without contraction in the sampler", "non-termination on keys of tiny probability; no test draws such a key", ["include/ntru_gen.hpp: reduce, ntru_solve, ntru_gen", "include/falcon.hpp: keygen"])
p("The Gram-Schmidt test of key generation is right up to half a percent in binary64",
  "Computed in binary64, with or without contraction, the test accepts every key in range whose two exact squared Gram-Schmidt norms are at most 16800 and |f^|^2+|g^|^2 >= 1 at every point, and every key it accepts has both at most 16900 if |f^|^2+|g^|^2 >= 2^-10 at every point; the exact threshold is 1.17^2 q = 16822.4.",
  "all f, g of the range that key generation draws, both parameter sets", "rounding errors of three transforms and of N divisions; worst case over all keys", ["include/ntru_gen.hpp: gram_schmidt_norm, ntru_gen", "include/fft.hpp: fft"])

p("Comparison and shift operators of field elements",
  "The comparison operators of ff_t compare the canonical representatives as integers. Shifts by 32 or more are undefined; below that both shifts return canonical elements. The right shift divides the representative by 2^l. The left shift is multiplication by 2^l in the field only while the product fits 16 bits; otherwise the upper bits are lost before the reduction (8192 << 3 is 0).",
  "all field elements and shift amounts", "all pairs of representatives and all amounts, including the undefined ones", ["include/ff.hpp: operator<, operator>, operator<=, operator>=, operator<<, operator>>"])
p("Random field elements are uniform up to a negligible excess of zero",
  "ff_t::random always returns a canonical element. Over uniform 16-bit draws every non-zero element has exactly the same probability; zero has (65536 - q)^1024 / 65536^1024 more, the probability that all 1024 draws are rejected.",
  "all sequences of draws", "an exact count over 65536^1024 sequences", ["include/ff.hpp: random"])

p("Signing never overflows a double and never meets an infinity or a NaN",
  "On IEEE 754 data with infinities, NaN and signed zeros, for every key in the range of the key format that satisfies the NTRU equation and the norm test: all entries of the matrix and of the Falcon tree are finite, and signing, both with stored key material and one-shot from the secret key bytes, gives the same bytes as in the model without an upper bound on the exponent. Whatever the runtime library does to repair NaN in complex products and quotients is never observed. So C65, C67 and C68 hold for the data the processor works on.",
  "all keys in range, messages, random streams, seeds, prior buffer contents, NaN recovery procedures", "an overflow or NaN would need one bad combination of key, hashed point and sampled integers", ["include/signing.hpp: sign", "include/falcon.hpp: sign", "include/falcon_tree.hpp: compute_falcon_tree", "include/ffsampling.hpp: ff_sampling", "include/samplerz.hpp: samplerz"])
p("Keys generated on IEEE 754 data are valid whatever infinities and NaN occur on the way",
  "On IEEE 754 data with infinities, NaN and signed zeros, whenever ntru_gen returns: f G - g F = q over the integers, the coefficients of F and G are below 2^23 in absolute value, |f^|^2+|g^|^2 >= 1 at every point, and both exact squared Gram-Schmidt norms are at most 16900. No condition on f and g is left: the Gram-Schmidt test rejects a pair with a tiny non-zero divisor, and if the computed divisor is zero, the result NaN passes the test (std::max drops it: f = g = 0 passes) but the conversion of the quotient is undefined, so nothing is returned. With C75: if the key fits the format and |f^| >= 2^-10 at every point, signing with its bytes never executes undefined behaviour and returns signatures of short vectors for the public key. The library decides about a complex product or quotient only if both of its parts are NaN.",
  "all random streams, both parameter sets, with and without fused operations, every NaN recovery that does not turn a NaN quotient of finite numbers into a finite one", "needs a pair whose transform nearly vanishes at one of the points; probability far below what tests reach", ["include/ntru_gen.hpp: gram_schmidt_norm, reduce, ntru_solve, ntru_gen", "include/falcon.hpp: keygen, sign"])
p("Contraction of the argument reduction: harmless in key generation, undefined behaviour in the sampler of signing",
  "The compiler may turn x - s * LN2 in ber_exp into a fused multiply-add (clang does, with the flags of the Makefile). With contraction, the conversion that follows is undefined exactly when the double x is below the multiple of LN2 that is subtracted. The sampler of key generation never meets such an x: with and without contraction it executes no undefined behaviour, returns values between -18 and 19 only, and so do gen_poly and ntru_gen. The sampler of signing can: there are a centre in [0, 1), a standard deviation between sigma_min of both parameter sets and sigma_max, and ten random bytes on which the contracted code converts a negative double to uint64_t; without contraction every such call is defined.",
  "all random streams, exponents, parameters of the sampler in range", "needs x within 2^-50 of a multiple of ln 2; only a proof over all 38 exponents of key generation, or a constructed witness, decides", ["include/samplerz.hpp: ber_exp, approx_exp, samplerz", "include/ntru_gen.hpp: gen_poly, ntru_gen", "Makefile"])
p("The integer sampler outputs the discrete Gaussian up to 2^-38",
  "On independent uniform bytes, samplerz(mu, sigma, sigma_min) stops within m iterations with a value in E with the probability of E under the discrete Gaussian over the integers with centre mu and parameter sigma, up to 2^-38 + 2^-m, for every set E of integers. All errors are counted: the table of the base sampler (each of its 19 entries is the probability under the half Gaussian of parameter sigma_max up to 2^-58, what lies beyond has probability at most 2^-74), the fixed point exponential, the rounding of every double operation, the cut to 38 values. It holds for the calls of key generation with and without contraction and for every call of signing with sigma between sigma_min and sigma_max.",
  "all sets E of integers, all m, all centres with integral part in the int32_t range, 1.2 <= sigma_min <= sigma <= sigma_max", "a statistical test resolves deviations of about 2^-20, and for a few parameters; the claim is about all real parameters and all events", ["include/samplerz.hpp: samplerz, base_sampler, ber_exp, approx_exp"])
p("The running time of the integer sampler does not depend on the secret centre and deviation",
  "The number of iterations of samplerz is geometric and independent of the output, exactly. Its success probability is sigma_min sqrt(2 pi) / (2 sum_{z >= 0} exp(-z^2/(2 sigma_max^2))), up to 2^-38, which is between 0.53 and 0.83 and involves neither mu nor sigma. For any two centres and deviations the distributions of the number of iterations differ by at most 2^-37. More than m iterations have probability at most 2^-m.",
  "all pairs of centres and deviations in range, all m", "timing differences of 2^-37 cannot be measured; independence for all parameters needs Poisson summation", ["include/samplerz.hpp: samplerz"])
p("Fast Fourier sampling has the distribution of the idealised algorithm",
  "On independent uniform bytes, ff_sampling for a secret key and a hashed point is distributed as ff_sampling whose integer sampler is replaced by exact discrete Gaussians, up to 2N (2^-38 + 2^-m) for every event of its output, where m bounds the attempts per integer. This holds in exact arithmetic and with every operation of the tree and of the recursion rounded to binary64, as long as the leaves are at least sigma_min. They are in binary64 for every key with squared Gram-Schmidt norms at most 16810, and in exact arithmetic for norms at most 16822.412.",
  "all keys of the format, hashed points, events and m, both parameter sets", "total variation distance of a distribution on pairs of polynomials", ["include/ffsampling.hpp: ff_sampling", "include/samplerz.hpp: samplerz", "include/falcon_tree.hpp: compute_falcon_tree"])
p("One signing round samples the spherical Gaussian on the preimages, whatever the secret basis",
  "In exact arithmetic the pair (s1, s2) of one signing round is distributed as the discrete Gaussian exp(-|s|^2/(2 sigma^2)) on the solutions of s1 + s2 h = c, with sigma = 165.736617183 or 168.388571447: with relative error 2^-25 for every event if integer sampling is ideal, and with absolute error 2^-32 + 2N 2^-m with the sampler of the code. The Gaussian is defined by the public key, so the rounds of two secret keys of one public key differ by at most twice that: one round leaks nothing about the secret basis beyond 2^-30 (m = 64).",
  "all public keys, secret keys of them with Gram-Schmidt norms up to 16822.412, hashed points, events", "the security argument of the scheme; no test compares distributions in dimension 1024 or 2048", ["include/signing.hpp: sign", "include/ffsampling.hpp: ff_sampling"])
p("The norm test of signing fails with probability at most 2^-14 or 2^-28",
  "For every public key that has a secret key within the norm bound and for every hashed point, the Gaussian on the preimages exceeds the bound beta^2 of verification with probability at most 2^-14 (N = 512) or 2^-28 (N = 1024). One round of signing, with the sampler of the code, passes the norm test with probability at least 1 - 2^-14 (or 2^-28) minus the error of one round.",
  "all keys and all hashed points", "holds for the worst hashed point, not on average", ["include/signing.hpp: sign", "include/verification.hpp: verify"])
p("Signatures are rejection samples from a distribution that does not involve the secret basis",
  "For every salt, message, secret key in range and event of the signature bytes: in exact arithmetic signing with at most R rounds returns a signature in the event with the probability that, in R independent draws from the spherical Gaussian on the preimages of the hashed point, the first draw that is short enough and compresses into the signature length encodes to such a signature, up to R (2^-32 + 2N 2^-m). If a draw is accepted with positive probability, this is the Gaussian conditioned on acceptance times the probability that R rounds suffice. Two secret keys of one public key give signatures whose distributions differ by at most 2 R (2^-32 + 2N 2^-m).",
  "all salts, messages, XOFs, keys, events on the signature bytes, numbers of rounds", "zero-knowledge statement about the distribution of byte strings", ["include/signing.hpp: sign", "include/encoding.hpp: compress_sig"])
p("Hashed points are exactly uniform and hashing ends quickly",
  "If the bytes squeezed from SHAKE256 are uniform, hash_to_point returns every point of Z_q^N with exactly the same probability. It needs more than 10 blocks of 136 bytes (N = 512) with probability at most 2^-108, more than 18 blocks (N = 1024) with probability at most 2^-92; in general more than b blocks with probability at most 2^N (69627/131072)^(68 b).",
  "all points, all numbers of blocks", "exact counts over 256^(136 b) byte strings", ["include/hashing.hpp: hash_to_point"])
p("The polynomials f and g of key generation are sums of discrete Gaussians",
  "On independent uniform bytes, the pair (f, g) drawn in a round of ntru_gen has the distribution in which every coefficient is the sum of 4096/N independent discrete Gaussians with centre 0 and parameter 1.43300980528773, up to 8192 (2^-38 + 2^-m) for every event, where m bounds the iterations per integer; with and without contraction in the sampler.",
  "all events of pairs of polynomials, all m, both parameter sets, prior buffer contents", "total variation distance in dimension 1024 or 2048", ["include/ntru_gen.hpp: gen_poly, ntru_gen", "include/samplerz.hpp: samplerz"])
p("Keys are rejection samples from the ideal distribution of (f, g)",
  "On independent uniform bytes, ntru_gen with at most R rounds returns polynomials f and g (and a public key) with a property with the probability that the first of R independent ideal pairs (f, g) that is not sent back passes all tests and has the property, up to 2 R 8192 (2^-38 + 2^-m). If the probability of being sent back is below 1 this is the ideal distribution conditioned on acceptance, times the probability that R rounds suffice. Accepted pairs have f invertible modulo q and coprime norms; a pair is sent back only if f is not invertible, the Gram-Schmidt test fails or the norms have a common factor.",
  "all events, numbers of rounds, arithmetics, outcomes of the Gram-Schmidt test", "distribution of the output of an unbounded rejection loop", ["include/ntru_gen.hpp: ntru_gen", "include/keygen.hpp: keygen"])
p("Signing of a message with random salt leaks the secret basis only up to the stated error",
  "With all random bytes of sign uniform, the salt included: every event of the signature bytes has the probability it has under the signing algorithm of the specification (uniform salt, hashed point, rejection sampling from the spherical Gaussian on its preimages), which uses the public key only, up to R (2^-32 + 2N 2^-m) for at most R rounds. Signatures made with two secret keys of one public key differ by at most twice that. Exact arithmetic outside the integer sampler.",
  "all messages, XOFs, keys within the norm bound, events on the signature bytes, R, m", "statement about probability distributions over 2^320 salts and all byte strings", ["include/signing.hpp: sign", "include/falcon.hpp: sign"])
p("Events that are rare under the ideal distribution of signatures are rare for the code",
  "Relative bound: if an event of the pair (s1, s2) of one signing round has probability q under the spherical Gaussian on the preimages of the hashed point, then its probability p for the code, in exact arithmetic outside the integer sampler and on uniform bytes, satisfies p^2 <= (1 + 2^-64) q and |p - q| <= 2^-32 sqrt(q) + 2N 2^-m, where m bounds the attempts per integer. For the signature bytes of sign with random salt and at most R rounds, p^2 <= (1 + 2^-64)^R q, with q the probability under the specification.",
  "all keys within the norm bound, hashed points, messages, XOFs, events, R, m, both parameter sets", "bound on the divergence of order 2 of distributions in dimension 1024 or 2048", ["include/signing.hpp: sign", "include/ffsampling.hpp: ff_sampling", "include/samplerz.hpp: samplerz"])
p("An adversary that asks adaptively for signatures gains at most 2^-32 sqrt(R Q) over the specification",
  "An adversary asks for signatures of Q messages of its choice, each chosen from the previous answers (a signature, or no answer when no round succeeds). In exact arithmetic outside the integer sampler and on uniform bytes, its probability p of winning and the probability q of winning when the answers come from the signing algorithm of the specification, which uses the public key only, satisfy |p - q| <= (sqrt((1 + 2^-64)^(RQ) - 1 + 2d) + d)/2 and p <= sqrt((1 + 2^-64)^(RQ) q) + d with d = Q R 2N 2^-m. For RQ <= 2^62 and m = 128 the difference is at most 2^-32 sqrt(R Q). Hence two secret keys of one public key are not told apart beyond twice this bound.",
  "all adversaries (deterministic decision trees, hence all randomised ones), numbers of questions, keys within the norm bound, XOFs, R, m", "quantifies over all adaptive adversaries and sums over all byte strings", ["include/signing.hpp: sign", "include/falcon.hpp: sign"])
p("Forging against the code is as hard as forging against the specification",
  "A forger asks adaptively for Q signatures and then outputs a message that it has not asked for and a signature of it; it wins if verify accepts. In exact arithmetic outside the integer sampler and on uniform bytes, its probability p of success against signatures made by sign and its probability q against signatures made by the specification, which uses the public key only, satisfy the bounds of the previous property; in particular p <= sqrt((1 + 2^-64)^(RQ) q) + d.",
  "all forgers, numbers of questions, public key bytes, XOFs, R, m", "game-based statement for all adversaries", ["include/signing.hpp: sign", "include/verification.hpp: verify"])
p("Signing rounds can be simulated without a secret key when the hashed point is uniform",
  "The point s1 + s2 h of a pair (s1, s2) drawn from the spherical Gaussian on all pairs of integer polynomials, with the sigma of signing, is uniform on Z_q^N up to a relative error of 2^-33. Consequently, in exact arithmetic outside the integer sampler and on uniform bytes, drawing a uniform point c and running one round of signing on it gives every event of (c, s1, s2) the same probability, up to 2^-31 + 2N 2^-m, as drawing the pair from that Gaussian first and computing c from it, which uses the public key only. Hashed points are uniform by C84.",
  "all public keys that have a secret key within the norm bound, all points, events, m", "statement about q^N points and a distribution in dimension 2N", ["include/signing.hpp: sign", "include/ffsampling.hpp: ff_sampling"])
p("Two accepted signatures of one salted message give a short vector of the lattice of the public key",
  "If verify accepts, without overflow of the squared norm, two signatures with the same salt for the same message (or any two whose salt and message bytes concatenate to the same string) under one public key h, then there is a pair (d1, d2) with d1 + d2 h = 0 modulo q and X^N + 1, where d2 is the difference of the two encoded polynomials and |d1|^2 + |d2|^2 <= 4 beta^2. The pair is zero only if both signatures encode the same s2. So different signatures of a salted message, apart from re-encodings of the same s2, solve a short vector problem.",
  "all public keys, messages, signatures, XOFs, both parameter sets", "for all pairs of accepted signatures; tests cannot produce two", ["include/verification.hpp: verify", "include/encoding.hpp: decompress_sig"])
p("Signing almost always succeeds in the first round",
  "For a secret key as key generation accepts it, a uniform random stream and a random oracle for the XOF, one round of signing returns a signature with probability at least 1 - 2^-14 - 2^-17 - e (N = 512) or 1 - 2^-28 - 2^-6 - e (N = 1024), where e = 2^-31 + roundErr; the first term bounds the squared norm above beta^2, the second the compressed s2 not fitting the fixed signature size. More rounds do at least as well, up to the error of a round each.",
  "all secret keys (Trapdoor), messages, attempts per integer, numbers of rounds, both parameter sets", "a probability over all random streams and hashed points", ["include/signing.hpp: sign", "include/encoding.hpp: compress_sig"])
p("How often signing returns a signature that cannot be decoded or is rejected",
  "For a secret key as key generation accepts it, a uniform random stream and a random oracle for the XOF: (1) the bytes of a signature encode exactly one vector s2; (2) signing returns a signature from which decompress_sig does not recover the signed s2 (because a coefficient is 1024 or more in absolute value) with probability at least 2^-22 (N = 512) or 2^-20 (N = 1024), and at most twice that per round; (3) it returns a signature that verify rejects under every key with probability at least 2^-28 or 2^-26; (4) it returns a signature that verify does not accept under the public key with probability at most 2^-21 or 2^-19 per round. All up to 2^-32 and the error of a round. So honest signatures fail to verify with a probability that is small but far above the 2^-64 level of other failures of the scheme.",
  "all secret keys (Trapdoor), messages, attempts per integer, numbers of rounds, both parameter sets", "events of probability 2^-28 to 2^-19 do not show up in tests", ["include/encoding.hpp: compress_sig, decompress_sig", "include/signing.hpp: sign", "include/verification.hpp: verify"])
p("A signature does not transfer to other messages, but verifying it is undefined behaviour",
  "Fix any public key bytes, message and signature bytes, and let the answer of the XOF to the query of verify be uniform. Verify returns true in a run without overflow for a share of at most 2^-1800 (N = 512) or 2^-3580 (N = 1024) of the answers. If the header of the key and the form of the signature are right, the 32-bit signed sum of squares overflows for a share of at least 1 - 2^-89 of the answers: rejecting a signature of another message is, in C++, undefined behaviour almost always.",
  "all public keys, messages, signature bytes, other answers of the XOF, contents of uninitialised arrays, both parameter sets", "a probability over q^N hashed points", ["include/verification.hpp: verify", "include/hashing.hpp: hash_to_point"])
p("If the sum of squares wraps around, anyone can forge a signature of any message for any key",
  "Under two's complement wrap-around of the 32-bit sum in verify: every signature of the right form with |s2|^2 <= 2^26, for example s2 = 0 or an honest signature of another message, is accepted for at least 3/20 of the uniform answers of the XOF, whatever the key and the message. For k distinct salts there are k byte strings, which depend on the salts only, such that for every key with the right header and every message one of them is accepted except for a share of at most (17/20)^k of the independent answers of the XOF.",
  "all public keys, messages, salts, k, both parameter sets", "universal forgery; a constant lower bound on a probability over q^N hashed points", ["include/verification.hpp: verify"])
p("An accepted signature of a message cannot be changed into another one (violated: almost every signature can)",
  "Expected (strong unforgeability): without the secret key nobody turns a signature into a different accepted signature of the same message. Violated: every signature of a vector with coefficients below 1024 that leaves more than 16 bits of padding has a different byte string with the same header and salt on which verify behaves identically for every key, message and XOF. For a secret key as key generation accepts it, a uniform random stream and a random oracle, one round of signing returns a signature that verifies and has a different sibling that verifies with probability at least 1 - 2^-14 - 2^-12 - 2^-20 (N = 512) or 1 - 2^-28 - 2^-4 - 2^-18 (N = 1024), up to 2^-30 and twice the error of a round.",
  "all secret keys (Trapdoor), messages, attempts per integer, both parameter sets; the first part for all signatures", "a probability over all random streams and hashed points", ["include/decoding.hpp: decompress_sig", "include/verification.hpp: verify", "include/signing.hpp: sign"])
p("Independently generated key pairs and salts are distinct (violated: they repeat after about 2^16 of them)",
  "Expected: with 256 bits of seed, key pairs and 320-bit salts of independent calls are different. Violated: if the words of the random device are uniform and independent, Q calls of keygen all return and give pairwise different key pairs with probability at most exp(-Q (Q-1) / 2^33), below 1/6 for Q = 2^17; the same holds for the salts of Q one-shot signatures, whatever the keys and messages.",
  "all Q, XOFs, seed expansions, arithmetics, prior contents of buffers, keys, messages, both parameter sets", "a birthday bound over all tuples of random words", ["include/prng.hpp: prng_t", "include/falcon.hpp: keygen, sign"])
p("The integer sampler reproduces the published known answers",
  "For each of the 1024 + 2048 vectors of tests/test_samplerz.cpp, taken from the submission of Falcon, the array variant of samplerz with the center, sigma' and sigma_min of the vector, rounded to doubles, returns the expected integer and has then consumed exactly the bytes of the vector; no read is out of bounds and no undefined operation occurs. This holds with and without contraction of floating point expressions into fused operations.",
  "all vectors of the two tables, both contraction modes, all fuels from 16", "the tests run one compilation; the theorem covers both contraction modes and ties the model of the sampler, on which C61 and C78-C98 rest, to the published vectors", ["tests/test_samplerz.cpp", "include/samplerz.hpp: samplerz"])
p("The second row of a generated secret basis is reduced, and is the reduced solution",
  "For every f, g, F, G that ntru_gen returns in double arithmetic, no coefficient of the quotient (F f* + G g*) / (f f* + g g*) exceeds 0.51 in absolute value (exact rounding would give 0.5). Therefore |F|^2 + |G|^2 <= 4400 N^2 and no coefficient of F or G exceeds 67 N. If the arithmetic were exact, the quotient would lie strictly inside (-1/2, 1/2) and (F, G) would be the only solution of the NTRU equation for (f, g) with that property; in double arithmetic, any solution whose quotient stays below 0.49 is the returned one.",
  "all random streams, bounds on the loops, both contraction modes, both parameter sets", "a bound for every key and on the effect of rounding errors; F and G are not determined by the tests", ["include/ntru_gen.hpp: reduce, ntru_solve, ntru_gen"])
p("The tests of key generation detect every wrong solution and never fail on a right one",
  "check_ntru_eq of the tests, in double arithmetic, returns without undefined conversion, and returns true exactly if f G - g F = q modulo X^N + 1, for all f, g of norm at most a and F, G of norm at most b with a <= 2^10, b <= 2^17, a b <= 2^24. Every output of ntru_gen lies in this range: test_ntru_gen passes on every random stream on which ntru_gen returns. test_keygen (encode, decode, recompute G, check, compare G) passes whenever the key fits the format and f is not nearly zero at one of the points of the transform.",
  "all integer polynomials in the stated range, random streams, prior contents of buffers, both contraction modes, both parameter sets", "a statement about what a test accepts, for all inputs of the test", ["tests/check_ntru_eq.hpp: check_ntru_eq", "tests/test_ntru_gen.cpp: test_ntru_gen", "tests/test_keygen.cpp: test_keygen", "include/ntru_gen.hpp: ntru_gen"])
p("Without the secret key nobody signs for a public key (violated: trying 2^32 words finds a secret key of any public key)",
  "Expected: a secret key cannot be computed from the public key. Violated: the program that calls falcon::keygen once for each of the 2^32 words of the random device and stops at the given public key always ends with secret key bytes of that public key, whatever word its owner got; on IEEE 754 data, falcon::sign with these bytes signs every message such that falcon::verify accepts under the attacked key, under the same conditions as for the owner (C76). Likewise the salt of one one-shot signature is matched by one of 2^32 words; if no two words give the same salt, this is the word that was used and all random bytes of signing are known.",
  "all words, XOFs, seed expansions, prior contents of buffers, bounds on loops, messages, both parameter sets", "an attack with 2^32 steps, for all keys", ["include/prng.hpp: prng_t", "include/falcon.hpp: keygen, sign"])
p("The unit tests of the integer part decide what they are written for (violated for three of them)",
  "For the tests of field arithmetic, of the number theoretic transform and of the encodings, as programs of their random inputs: every round of ArithmeticOverZq passes, for all field elements and exponents; NumberTheoreticTransform draws again exactly when b vanishes at a root of X^N + 1 and passes otherwise; EncodeDecodePublicKey passes; EncodeDecodeSecretKey passes exactly for keys whose coefficients are in the range of the format, and its flag for the result of decoding is always true; SignatureCompression passes, for a polynomial that compresses, exactly when all coefficients are below 1024; SignatureDecompression passes on all bytes except those that code a coefficient below 128 with at least 25 bits. Violated: EncodeDecodeSecretKey fails on a run of key generation on IEEE 754 data, SignatureDecompression fails on some bytes, and both signature tests read outside of the array they allocate.",
  "all inputs of the tests, prior contents of buffers, both parameter sets", "the tests draw a few random inputs; whether they can fail is not observed", ["tests/test_ff.cpp", "tests/test_ntt.cpp", "tests/test_encoding.cpp"])
p("The unit tests of the complex transform pass on IEEE 754 data (violated for the divisor zero)",
  "On IEEE 754 data PolynomialSplitAndMergeInFFTDomain passes for every length from 2 to 1024 and all coefficients up to 31 in absolute value (the test draws from -3 to 4): the rounded results of FFT, split, merge and inverse FFT are exact. PolynomialArithmeticInFFTDomain passes for all such a and b for which b is at least 2^-19 in modulus at every root of X^N + 1: dividing a computed product by one factor and rounding gives the other factor. Violated: if all coefficients drawn for b are zero it fails, whatever a is.",
  "all coefficients up to 31, all lengths up to 1024, fused or separate multiplication and addition", "the tests draw one polynomial per length", ["tests/test_fft.cpp", "include/fft.hpp: fft, ifft, split_fft, merge_fft", "include/polynomial.hpp: mul, div"])
p("The test of fast Fourier sampling passes for every short vector, and checks exactly the preimage relation",
  "The comparison of tests/test_ffsampling.cpp is true exactly if s0 + s1 h = c modulo X^N + 1 and q, for all coefficients up to 12288 in absolute value; a coefficient v of 32 bits is moved to the right residue exactly if the number of times that 2^16 is dropped from it (after adding q if it is negative) is a multiple of q. On IEEE 754 data, after keygen::keygen, for every point c and random stream: whenever sampling returns it has drawn 2N integers, and if the vector they stand for has a squared norm of at most beta^2 - 168 then the test executes no undefined conversion and passes, provided that the key fits the format.",
  "all keys, points, random streams, bounds on loops, prior contents of buffers, both parameter sets", "the test draws one point; it is not observed for which vectors it can fail", ["tests/test_ffsampling.cpp: test_ff_sampling", "include/keygen.hpp: keygen", "include/ffsampling.hpp: ff_sampling"])
p("The test of signing and both example programs end with accepted signatures, except for three kinds of vectors",
  "On IEEE 754 data, for every run of falcon::keygen whose key fits the format and has f not nearly zero at a point of the transform, for any number of rounds and every content of uninitialised memory, with two readable bytes behind the array of the signature: test_keygen_sign_verify, examples/sign_one.cpp and examples/sign_many.cpp execute no undefined behaviour and all their checks hold, unless one of the signatures that were made encodes a vector above the norm bound (by at most 166), or with a coefficient of s2 above 1023 in absolute value, or, for N = 1024, with 6144 as a coefficient of s1.",
  "all random words, XOFs, seed expansions, numbers of rounds, prior contents of buffers, bounds on loops, both parameter sets", "the programs run a few random keys and messages", ["tests/test_signing.cpp: test_keygen_sign_verify", "examples/sign_one.cpp", "examples/sign_many.cpp", "include/falcon.hpp: keygen, sign, verify"])
p("One-shot signing is defined for every valid secret key (violated)",
  "Violated: falcon::sign recomputes G by dividing by the transform of f. If f and g fit the key format and the transform of f is computed as zero at a point, the quotient is not finite, it reaches the first coefficient and its conversion to int32_t is undefined, for every message and every seed. There is a key for N = 512 that satisfies the NTRU equation, fits the format, meets both Gram-Schmidt bounds, has f invertible modulo q and f nonzero at every root of X^N + 1, whose transform of f is computed as exactly zero at the first point, with contraction and without. Signing with the matrix and the tree computed from its G is defined for every message and every stream. Key generation has no test for this: if it returns a key whose f and g fit the format and whose f has computed transform zero at a point, every later call of sign is undefined, whatever F. There are bytes from which it draws the f and g above; they pass its tests and are not rejected by the solver, so if it returns at all, it returns a key with which every signing call is undefined.",
  "all messages, seeds, samplers and buffer contents; both contraction modes; every handling of NaN that invents no finite value", "the value at the point is about 1e-14; random keys do not come near it", ["include/falcon.hpp: recompute_G, sign", "include/fft.hpp: fft, ifft", "include/polynomial.hpp: div", "include/keygen.hpp: ntru_gen"])
p("Key generation is defined (violated)",
  "Violated: reduce divides by f f* + g g*, computed from coefficients scaled down to 53 bits, without a test. If the transforms of the scaled f and g are both computed as zero at some point, zero is divided by zero, the NaN reaches the first coefficient of the quotient and its conversion to long is undefined. There are f and g for N = 512 with coefficients of absolute value at most 60, for which f is invertible modulo q, both norm bounds hold and the NTRU equation has a solution; the code finds f invertible and the norms small; and ntru_solve is undefined, in the reduction at N = 8, with contraction and without. falcon::keygen draws these f and g from certain finite strings of random bytes, and is then undefined.",
  "all seeds whose stream begins with the bytes, extendable output functions, buffer contents; both contraction modes; every handling of NaN that invents no finite value", "random keys do not come near such a pair", ["include/ntru_gen.hpp: reduce, ntru_solve, ntru_gen", "include/fft.hpp: fft, ifft", "include/polynomial.hpp: div", "include/falcon.hpp: keygen"])
p("The benchmarks compute what they assert",
  "Taken as programs on IEEE 754 data, for any number of iterations that is not zero, any message length, with two readable bytes behind the array of the signature: the benchmark of key generation leaves the key pair that the last random word determines; in the benchmark that signs with the secret key all calls return true and the last signature, the only one that is verified, is accepted; in the benchmark that signs with the matrix and the tree of keygen::keygen, with one random stream for key, message and signatures, the last signature is accepted with the public polynomial; in the benchmark of verification all calls return true. Signing requires that the key is in the format and, with the secret key, that f^ is not nearly zero; acceptance fails only if the signature is that of a vector above the bound, with a coefficient of s2 above 1023 or, for N = 1024, with 6144 as a coefficient of s1.",
  "all numbers of iterations, message lengths, seeds, buffer contents, extendable output functions; N = 512 and 1024; both contraction modes", "a benchmark is one run", ["benchmarks/bench_keygen.cpp: falcon_keygen", "benchmarks/bench_signing.cpp: falcon_sign_single, falcon_sign_many", "benchmarks/bench_verify.cpp: falcon_verify"])
p("Which honest signatures make verification read outside of the signature, exactly (violated for the tests and examples)",
  "Expected: verification of a signature in an array of the documented length reads only the array. Exactly: for a signature of a vector s2 with coefficients below 1024, verify stays inside of the array, and decides as with more readable bytes, if the codes of s2 do not end at a byte boundary and the last of them starts more than 16 bits before the end; in all other cases it reads outside, for every public key with the right header. So the test of signing and the example that signs one message, as they are, with no byte behind the array: they pass, or the signature of some round is of the second kind and the outcome is undefined behaviour, or the signature of some round is one of the exceptions of C106.",
  "all signatures, messages, public keys, buffer contents, extendable output functions, numbers of rounds; N = 512 and 1024", "the out of bounds read returns without a visible effect in most runs", ["include/decoding.hpp: decompress_sig, extract_8_contiguous_bits", "include/verification.hpp: verify", "tests/test_signing.cpp: test_keygen_sign_verify", "examples/sign_one.cpp: main"])
p("A signature is bound to the public key under which it verifies (violated)",
  "Expected: a signature identifies the key pair that made it. Instead: for every byte string with the header of a signature that decodes to a vector s2 which is invertible modulo q, every message, and every vector s1 with coefficients from 0 to 6143 such that s1 and s2 together are not longer than the bound, verify accepts the byte string as a signature of the message for the public key (c - s1) / s2, which compute_public_key and encode_pkey produce from the signature without any secret; different s1 give different public keys. So for every such signature shorter than the bound, every message, of the signer or of somebody else, and every public key, there is another public key for which it is accepted.",
  "all signatures, messages, public keys, buffer contents, overflow behaviours, extendable output functions; N = 512 and 1024", "the tests never make a public key from a signature", ["include/verification.hpp: verify", "include/hashing.hpp: hash_to_point", "include/keygen.hpp: compute_public_key", "include/falcon.hpp: verify"])
p("The coefficient sums of a key have odd determinant",
  "For every key that key generation returns on IEEE 754 data, with sums a, b, c, d of the coefficients of f, g, F, G, the number a d - b c is odd; so of f and g at least one has an odd coefficient sum, and likewise F and G, f and F, g and G. The solver never returns a solution for two polynomials of even coefficient sums, in any arithmetic.",
  "all random bytes, fuels, settings of the arithmetic; N = 512 and 1024 (the solver: every power of two)", "tests look at a few random keys", ["include/ntru_gen.hpp: ntru_gen, ntru_solve", "include/karatsuba.hpp: karamul"])
p("f and the public key determine the secret key",
  "Two runs of key generation on IEEE 754 data, with whatever compiler options and random bytes, that return the same f and the same public key return the same g, and the same F and G unless a coefficient of the quotient by which they are reduced is at least 0.49 in absolute value. In exact arithmetic they always return the same F and G.",
  "all pairs of runs; N = 512 and 1024", "two runs with the same f do not occur in tests", ["include/ntru_gen.hpp: ntru_gen, reduce", "include/keygen.hpp: compute_public_key"])
p("The random bytes of signing stay secret (violated: a signature discloses inequalities of the secret key)",
  "The generator is seeded with one 32-bit word and its first 40 bytes are published as salt, so the bytes that follow can be computed from a signature (C102). They determine the integers that the sampler proposes, and with them a signature discloses a linear inequality of f and g: in each round of sampling the coefficients N/2 - 1 and N - 1 of s1 f + s2 g mod x^N + 1 lie in an interval of length q that is given by the accepted proposals. If one-shot signing on IEEE 754 data returns after one round, no other word gives the same salt, and the bytes 40 to 50 are quiet (which anybody can see: the first proposal is then accepted whatever the key), the coefficient N/2 - 1 lies between 0 and q or between -q and 0, depending on the lowest bit of byte 49. This tells a key from its negative, which has the same public key, unless the coefficient is zero.",
  "all keys in the range of the format (for the statement on one-shot signing: squared Gram-Schmidt norms at most 16810), messages, words, generators; every arithmetic with the error bounds of binary64 for the statement on a round", "tests verify signatures and do not try to attack the key", ["include/prng.hpp: prng_t", "include/falcon.hpp: sign", "include/signing.hpp: sign", "include/samplerz.hpp: samplerz", "include/ff_sampling.hpp: ff_sampling"])
p("Signing refuses a damaged secret key (violated: an erased key passes and makes signing undefined)",
  "falcon::sign reports failure for no other reason than a wrong header byte (C50). A secret key with the right header and an f block of zero bytes, whatever the bytes of g and F, is not refused: on IEEE 754 data recompute_G divides by zero at every point and converts a value that is not finite to int32_t, which is undefined behaviour, for every message, seed and sampler. Key generation returns no such key: f is invertible, so if f, g, F fit the format at least one byte of the f block of a generated secret key is not zero.",
  "all secret key byte strings of that form for both parameter sets, messages, words, samplers; IEEE 754 data, fused or not", "tests sign with generated keys only", ["include/falcon.hpp: sign, recompute_G", "include/decoding.hpp: decode_skey", "include/polynomial.hpp: div"])
p("Signatures disclose nothing of the secret key when the key is damaged (violated: an erased F discloses f)",
  "falcon::sign does not check that f, g, F, G form a key. In exact arithmetic, whatever the four polynomials, tree, sampler, message and random bytes, a returned signature is one of s2 = a0 f + a1 F in Z[x]/(x^N + 1) with integer polynomials a0 and a1, and its squared norm is at most the bound. So a secret key with the right header whose F block is zero is not refused, and every signature returned for it is one of a multiple of f. The same holds in binary64 arithmetic if the transform of f is nowhere below 1/10 and f has no coefficient -32 (-16); recompute_G then does not fail. Two such signatures with coprime multipliers give f by an integer combination, and f with the public key gives the whole key (C113).",
  "all secret key byte strings of that form for both parameter sets, messages, words, samplers; exact arithmetic, and binary64 for f with the stated bounds", "tests sign with generated keys only", ["include/falcon.hpp: sign, recompute_G", "include/signing.hpp: sign", "include/decoding.hpp: decode_skey"])
p("Signing computes with its secret key without branching on it",
  "For each degree N there is one fixed list of expressions, made of integer inputs, constants, the table of roots and the operations negation, addition, multiplication, division, square root, conjugation and real part, without comparison, rounding or table access that depends on data, such that one-shot signing is the following for every secret key, message, random word and arithmetic: decode the key, round the values of N expressions in f, g, F to G, draw the salt and hash, then in each round ask the integer sampler exactly 2N questions, whose centres and deviations are values of expressions in the key, the hashed point and the answers so far, compare the value of one expression with the norm bound, round N expressions and compress. So between decoding and compression the secret key acts on control flow and addresses only through the sampler, the norm test, and the range check of the rounding.",
  "all degrees 2^n with n at least 1, secret key byte strings, messages, words, XOFs, samplers, arithmetics (with infinities and NaN), prior contents of arrays", "tests compare results and do not see which operations were executed; the statement is about all keys at once", ["include/falcon.hpp: sign, recompute_G, compute_matrix_B, compute_falcon_tree", "include/signing.hpp: sign", "include/ffsampling.hpp: ff_sampling", "include/falcon_tree.hpp: ffldl, normalize_tree"])
p("The numbers of iterations of the integer sampler do not reveal the secret key",
  "In one round of signing the integer sampler is called 2N times, and each call repeats its loop until a candidate is accepted. Over uniform random bytes, the list of the 2N iteration numbers together with the sampled vectors is distributed, up to 2N 2^-34 for every joint event, as 2N independent geometric numbers of one fixed parameter that depends only on the degree, independent of the vectors, which are those of ideal sampling. In particular no event of the iteration numbers tells two secret keys, or two hashed points, apart with advantage above 4N 2^-34. Inside an iteration the only loop of variable length compares random bytes with a threshold, and its length has exactly the same distribution for every threshold.",
  "all degrees 512 and 1024, secret keys in range, hashed points, events of the numbers and the output, caps on the number of attempts, accurate arithmetics", "a timing test sees a few keys and averages; a small dependence on the standard deviations of the key would not be measured", ["include/samplerz.hpp: samplerz, ber_exp", "include/ffsampling.hpp: ff_sampling", "include/signing.hpp: sign"])
p("A round of signing and its iteration counts can be simulated without the secret key",
  "An observer of one signing round who sees the pair (s1, s2), even when it is rejected, and the 2N iteration counts of the integer sampler sees, up to 2^-22 for every event, independent geometric counts and a pair from the spherical Gaussian on the preimages of the hashed point under the public key. Both are defined without the secret key, so two secret keys of one public key are not told apart by pair and counts together.",
  "all degrees 512 and 1024, public keys, secret keys of the public key that pass the key generation norm test, hashed points, joint events, caps on attempts", "the joint distribution of output and timing has far too many outcomes to estimate", ["include/samplerz.hpp: samplerz", "include/ffsampling.hpp: ff_sampling", "include/signing.hpp: sign"])
p("Signature and iteration counts of the whole signing loop can be simulated without the secret key",
  "Consider the loop of signing after hashing, for any hashed point. An observer who sees the compressed signature, the number of rounds and all iteration counts of all calls of the integer sampler in all rounds sees, up to R 2^-22 for R rounds and every event, the following simulation that uses only the public key and the hashed point: in each round draw 2N independent geometric counts and a pair from the spherical Gaussian on the preimages, and stop at the first pair that passes the norm test and can be compressed. So two secret keys of one public key are not told apart by signature and counts together.",
  "all degrees 512 and 1024, public keys, secret keys of the public key that pass the key generation norm test, hashed points, joint events, caps on rounds and attempts, prior signature contents", "joint distributions of this size cannot be estimated by running the code", ["include/signing.hpp: sign", "include/ffsampling.hpp: ff_sampling", "include/samplerz.hpp: samplerz"])
p("Signatures of uniform points, with their iteration counts, can be produced without any secret key",
  "Draw a uniform point of Z_q^N, the distribution of hashed points, and run one round of signing on it. The joint distribution of point, pair and all iteration counts of the integer sampler agrees, up to 2^-21 for every event, with this experiment that only uses the public key: draw 2N independent geometric counts and a pair from the spherical Gaussian on all pairs of integer polynomials, and compute the point s1 + s2 h of the pair. The same holds for the compressed signature bytes of a signature that is produced in the first round, and for the whole loop up to the probability that a second round is needed.",
  "all degrees 512 and 1024, public keys, secret keys of the public key that pass the key generation norm test, joint events of point, counts and pair or signature bytes, caps on attempts, prior buffer contents", "joint distributions of this size cannot be estimated by running the code", ["include/signing.hpp: sign", "include/ffsampling.hpp: ff_sampling", "include/samplerz.hpp: samplerz"])
p("An adversary that sees signatures and iteration counts does not tell secret keys apart",
  "An adversary asks for signatures of messages of its choice, each chosen in terms of all earlier answers. With every answer it sees the signature bytes and, for every call of the integer sampler in every round, the number of iterations, or that there was no signature after R rounds. For two secret keys of the same public key its probabilities of winning, for any condition on what it has seen, differ by at most Q R 2^-21 after Q questions. The observed signer returns the signature bytes of the signer of the model.",
  "all degrees 512 and 1024, public keys, pairs of secret keys of the public key that pass the key generation norm test, adaptive adversaries without bounds on computation, extendable-output functions, caps on rounds and attempts, prior buffer contents", "quantifies over all adaptive adversaries and over distributions of whole transcripts", ["include/signing.hpp: sign", "include/ffsampling.hpp: ff_sampling", "include/samplerz.hpp: samplerz"])
p("Forging with observed iteration counts is as hard against the code as against a simulation without the secret key",
  "An adversary asks adaptively for signatures of messages of its choice and sees, with each signature, the iteration counts of all calls of the integer sampler in all rounds. Replace each answer by a simulation that uses only the public key: a uniform salt, 2N geometric counts and a pair from the spherical Gaussian on the preimages of the hashed point in each round, until a pair is accepted, and the encoding of the salt and the second half of the pair. For every adversary with at most Q questions the probability of winning changes by at most Q R 2^-22, where R caps the rounds of one call. In particular this holds for forgers, who win if verification accepts their output for a message that they have not asked for.",
  "all degrees 512 and 1024, public keys, secret keys of the public key that pass the key generation norm test, adaptive adversaries and forgers, extendable-output functions, caps on rounds and attempts, prior signature contents", "no test can range over all adaptive strategies, and the simulation cannot be run", ["include/signing.hpp: sign", "include/samplerz.hpp: samplerz", "include/verification.hpp: verify"])
with open('/verif/properties.jsonl','w') as f:
    for x in P: f.write(json.dumps(x,ensure_ascii=False)+"\n")
print(len(P))
for x in P: print(x['id'],x['title'])
