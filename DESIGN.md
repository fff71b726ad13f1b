# Formal model of itzmeanjan/falcon in Lean 4

The model and proofs are in `lean/Verif/`. `properties.jsonl` lists the properties (C01...),
`MANIFEST.json` maps each to the theorems that settle it, `seeded/LOG.jsonl` records the
mutation experiments, `tools/` holds the scripts that write the first two and run the third.

## Layout

* `Verif/Basic.lean` - memory model (`Mem α = ℕ → α`, `upd`), C loops (`loop`), undefined behaviour (`UB`).
* `Verif/Model/*.lean` - the code, function by function, each definition citing file and lines of /repo.
* `Verif/Spec.lean`, `Verif/*Spec.lean` - the specification vocabulary used in theorem statements. It does not
  mention model helpers: rings, polynomials, complex exponentials, bit strings, trees, counting.
* `Verif/Proofs/*.lean` - helper lemmas.
* `Verif/Props/*.lean` - the property theorems `Cnn_*`, with non-vacuity `example`s beside them.

## What is modelled

| file of /repo/include | model | remarks |
|---|---|---|
| ff.hpp | `Model/Ff`, `Model/FfMore` | all operators; int16 wraps in `xgcd` explicit. Only the printing operator is not modelled; the random device and distribution of `ff_t::random` are a parameter |
| ntt.hpp | `Model/Ntt` | in place, layer by layer; versions with checked accesses |
| encoding.hpp, decoding.hpp (keys), utils.hpp | `Model/Codec` | byte level |
| encoding.hpp, decoding.hpp (signatures) | `Model/SigCodec` | bit level buffer, checked reads and writes |
| hashing.hpp, verification.hpp | `Model/Verify` | XOF an arbitrary stream; overflow of the norm by policy |
| u72.hpp, samplerz.hpp | `Model/U72`, `Model/Sampler`, `Model/Float` | integers on UInt64; doubles with rounding; both sampler variants |
| karatsuba.hpp, ntru_gen.hpp | `Model/Ntru`, `Model/Fft` | GMP integers are ℤ; template recursion is recursion on log N |
| fft.hpp, polynomial.hpp | `Model/Fft`, `Model/RootLits` | abstract arithmetic; the 1024 decimal literals of the table are copied and checked |
| falcon_tree.hpp, ffsampling.hpp, keygen.hpp | `Model/Tree`, `Model/Sign` | abstract arithmetic |
| prng.hpp, signing.hpp, falcon.hpp, common.hpp | `Model/Sign` | |
| tests/test_samplerz.cpp | `Model/Kat`, `Model/Kat512`, `Model/Kat1024` | the 3072 vectors, copied by tools/gen_kats.py |
| tests/check_ntru_eq.hpp, test_ntru_gen.cpp, test_keygen.cpp | `Model/Tests` | |
| tests/test_ff.cpp, test_ntt.cpp, test_encoding.cpp, test_fft.cpp | `Model/UnitTests` | random inputs are arguments |
| tests/test_ffsampling.cpp, test_signing.cpp, examples/sign_one.cpp, sign_many.cpp | `Model/Programs` | words of the random device, the random point, contents of uninitialised memory and numbers of rounds are arguments; timing and output are left out |
| `double`, `std::complex<double>` | `FloatSpec`, `Model/F64` | rounding only; full data with infinities and NaN. Payloads of NaN are not distinguished; recovery of the library from NaN in complex operations is an arbitrary function |

## Modelling conventions

* `uint8_t/16/32/64` are Lean `UInt8/16/32/64` (wrap-around), C++ integer promotion is made explicit where it matters.
* `int32_t`, `int16_t` are `Int`. Where an overflow is reachable (the norm accumulator of `verify`, the
  narrowing in `ntru_gen`) the operation is parametrised by an overflow policy: `strict` (overflow = `UB`) and
  `wrap` (two's complement). int16 conversions in `ff::xgcd` are explicit (`wrap16`, modular as in C++20).
* Arrays passed by pointer are memories `ℕ → α`; a write is `upd`. A function that mutates a buffer takes its prior
  content and returns the new one. Where out-of-bounds access is reachable (`compress_sig` internal buffer,
  `decompress_sig` reads, array variant of `samplerz`) accesses go through a checked primitive returning
  `Except UB`; for the transforms a checked twin of the function is proved equal to the unchecked one.
* `for` loops are `loop n body s` (body receives the iteration number); `while` loops are structural on a
  decreasing quantity, or take fuel. A fuel function returns `Option (Except UB _)`: `none` = not finished,
  `error` = undefined behaviour reached, `ok` = result. Theorems about results hold for every amount of fuel.
* SHAKE256 (git submodule, not in the repository), `std::random_device`, `std::mt19937` and the byte distribution
  are parameters: the XOF is an arbitrary function from absorbed bytes to an infinite byte stream, the twister an
  arbitrary function from a 32-bit seed to bytes. No theorem assumes anything about them.
* GMP integers are `ℤ`; `mpz /` truncates (`Int.tdiv`), `mpz >>` floors.
* `strtol` on the characters `to_byte_array` passes to it is modelled, `std::stringstream` formatting of a byte too.

### Floating point

Three treatments, the last in two versions. Each property says in `MANIFEST.json` which one it uses.

1. *Any arithmetic.* `double` and `std::complex<double>` code is written against a structure `Arith R C` of
   operations. Theorems for every `Arith` (bounds, frames, layout of tree and signature, control flow, the NTRU
   equation, key generation) hold in particular for IEEE doubles with NaN, infinities, contraction and any
   compiler flags.
2. *Exact arithmetic.* The instance `exactA : Arith ℝ ℂ` has no rounding and the exact roots. The algebra of the
   FFT, of the tree and of signing is proved there.
3. *Binary64.* `Model/Float.lean` defines rounding to nearest even with gradual underflow (`rnd`). A finite double
   is the real number it stands for; the exponent is unbounded above, infinities, NaN and the sign of zero are not
   represented. The integer sampler (`samplerz`, `ber_exp`, `approx_exp`) is modelled with it operation by
   operation, with (`fma = true`) and without contraction of `x - s * LN2`. Signing is treated under error
   bounds that binary64 arithmetic is proved to satisfy (`FloatSpec.lean`): `Accurate A` lists them, `accurate_ieee`
   is the proof, and C65 carries the statement of C49 over to every such arithmetic. C66 treats the reduction of
   the NTRU solution and the Gram-Schmidt test in the same way, C67 the recomputation of G, C68 the Falcon tree and
   the sizes of the values that reach the integer sampler.
   `Model/F64.lean` has the full data type: finite numbers with sign bit, infinities, NaN, overflow; `f64A` is the
   arithmetic on it. C75 proves that signing on these data equals signing without upper bound on the exponent, C76 that key generation on these data returns valid keys only.

The Makefile compiles with `clang++ -O3 -march=native`, where contraction is on by default; so the case
`fma = true` is the one that is built (see finding 13).

## Trusted base

* Lean 4.33.0 kernel, with at most the axioms `propext`, `Classical.choice`, `Quot.sound` (checked by
  `#print axioms` / vcheck). No own axioms, no `sorry`, no `native_decide`, no `bv_decide`.
* Mathlib definitions occurring in statements: `ZMod`, `Polynomial`, `Complex`, `Real`, `Real.exp`, `Finset` sums
  and cardinalities, `Matrix`-free linear algebra on functions.
* The reading of the C++ source (cited at every definition); the code is not executed here.
* Not modelled: timing at the level of instructions (the numbers of iterations of the sampler and of the signing loop are covered by C118-C123), stack usage, the SHA-3 implementation, `std::random_device`, `std::mt19937`,
  `std::uniform_int_distribution<uint8_t>` (itself not allowed by the C++ standard), printing operators, the benchmark library.
  (All tests, examples and benchmarks are modelled as programs: C99, C101, C103-C106, C109.) The distributions of the integer sampler (C61, C78, C79), of signatures (C80-C83, C87-C91, C93, C94, C97), of the verdict on a random hashed point (C95, C96), of hashed points (C84) and of keys (C85, C86) are treated under the assumption of uniform bytes.

## How to read the mutation log

`seeded/LOG.jsonl` has one line per wrong program. Of the 224 lines so far, 27 name a property theorem (`Cnn_...`) among the failed
theorems. In 194 only a lemma below the properties failed; the modules that depend on it were not rebuilt, and the line lists the
properties concerned (`property_theorems_not_rebuilt`, `properties_not_rebuilt`). Such a line shows that the proof does not go through
for the wrong program. It does not show that the statement of the property is false for it: the lemma could be stronger than what
the property needs. `tools/mutate.py` builds only the modules of the theorems that are expected to fail.

In 3 lines no theorem failed, and theorems were added (`theorems_tightened`). The same wrong programs were run again later: for
`F64.recover` and `prngNew` the added theorem fails, for `redQuot` the lemma `redQuot_at` below the added theorems fails.

## Findings

Defects of the code at the pinned commit, each proved as a theorem with a concrete witness or family (21 is a property of the scheme):

1. `decompress_sig` drops 128*k for unary runs of 8 and more (C18, C19, C49): valid signatures with a coefficient
   of 1024 or more are rejected, and signatures are malleable. An honest signature of Falcon-512 is affected with probability
   2^-22 to 2^-21, of Falcon-1024 with 2^-20 to 2^-19 (C94). More than 99.9 percent (N = 512) or 93 percent (N = 1024) of the
   honest signatures can be changed into a different accepted signature of the same message (C97).
2. `decompress_sig` reads up to two bytes past the end of the signature (C22), exactly when the codes end at a byte boundary or the last one
   starts within the last 16 bits (C110).
3. `verify` accumulates the norm in `int32_t`; the overflow is undefined behaviour, and under wrap-around a
   forgery exists (C26, C27). On a random hashed point the overflow happens with probability at least 1 - 2^-89 (C95), and
   under wrap-around any well-formed short s2, zero included, is accepted with probability at least 3/20 (C96).
4. `verify` maps the residue 6144 to -6145 (C29, C28).
5. `decode_pkey` accepts coefficients >= q, so keys have several encodings (C11, C02).
6. `encode_skey` and `ntru_gen` do not check ranges (C14, C38).
7. The generator is seeded with one 32-bit word: at most 2^32 key pairs and salts (C39); among 2^17 independent
   key pairs two coincide with probability above 5/6 (C98).
8. `compress_sig` overruns its buffer for huge coefficients, `abs(INT_MIN)` (C16).
9. `ffldl` conjugates the lower right block too; harmless in exact arithmetic, since it is real (C45).
10. `approx_exp(0, 1)` wraps to 0 (C54); the array variant of `samplerz` reads past short arrays (C62).
11. `compress_sig` rejects a body that exactly fills the space (C15).
12. Keys are packed little-endian, not in the order of the specification (C59).
13. With contraction `ber_exp` converts a negative double to `uint64_t` (C60); the sampler of signing reaches this for some
    centre and deviation in range, the sampler of key generation never (C77).
14. `to_byte_array` accepts strings that are not hexadecimal (C57).
15. Not all literals of the root table are correctly rounded (C43).
16. The tabulated sigma_min for N = 512 exceeds the guaranteed lower bound of the leaves by less than 1e-10 (C47).
17. `reduce` can loop forever (C71): `std::round` rounds halves away from zero, so a quotient with a coefficient of exactly
    one half never rounds to zero. A key of small integers, which passes every other test, makes key generation hang in
    exact arithmetic and in binary64.
18. `ff_t::operator<<` cuts the shifted value to 16 bits before the reduction, so it is not multiplication by a power of two
    in the field (C73). The scheme does not use it.
19. `falcon::sign` divides by the transform of f without a test. For a valid key of N = 512 the transform is computed as zero
    at a point, and signing with the key bytes is undefined for every message and seed (C107). Key generation draws this f and g
    from certain random bytes, and then returns no other key.
20. `reduce` divides by f f* + g g* of the scaled coefficients without a test. For a pair f, g of N = 512 that passes every
    test and has a solution, the divisor is computed as zero at a point, and key generation converts a NaN to `long` (C108).
21. The hash of the message does not include the public key, so a signature is also valid for other public keys that anyone can compute
    from it (C111). The specification of Falcon has the same property.
22. The random bytes of one-shot signing are known to whoever sees the salt (C102), and with them every signature discloses linear
    inequalities of f and g (C114).
23. `falcon::sign` checks only the header of the secret key. A key whose f was erased divides by zero and converts a value that is not
    finite to an integer (C115).
24. A key whose F was erased is not noticed either, and then every signature is one of a multiple of f (C116).

A property whose expectation is false has status "proved" when both the violation and the part that does hold are
proved; its note says so.

## Approach per property

| id | model | proof |
|----|-------|-------|
| C01,C02 | `Model/Ff` on UInt16/32/64 | unfold to Nat, Barrett inequality; valid for operands < 2^14 |
| C03 | `xgcd` loop with int16 wraps | loop invariant: Bezout + bounds on cofactors |
| C04 | square-and-multiply loop | invariant on processed bits |
| C05-C07 | in-place layered loops of `ntt`/`intt` | loops = layer maps; block invariant; table laws from bit reversal |
| C08 | checked twins | arithmetic on indices, frame lemma |
| C09-C14, C59 | byte-level writes/reads at explicit offsets | block lemma per group of coefficients, loop frame lemma; violations by witnesses |
| C15-C23 | bit-level buffer writes with bounds check; checked reads | refinement to lists of bits; induction over coefficients |
| C24,C25 | block-wise rejection loop over an arbitrary stream | invariant: output = accepted prefix; counting |
| C26-C30 | `verify` with overflow policy | NTT theorem + centred representatives; wrap witness |
| C31-C35 | `ℤ` arrays, float quotients = any function | polynomial identities modulo x^N+1; induction on k and on the reduction steps |
| C36-C38 | `is_poly_invertible`, `compute_public_key`, `ntru_gen` | CRT through the NTT theorem |
| C39 | composition through a 32-bit seed | cardinality of the range |
| C40-C42, C44 | exact arithmetic | generic transform theorem instantiated at exp(iπ/N) |
| C43 | the 1024 decimal literals as rationals | doubling relation checked by the kernel for every entry, lifted to a bound against `Complex.exp` |
| C45-C48 | tree as an inductive type, memory layout by refinement | positivity of the Gram tree, arithmetic/harmonic mean induction for leaves |
| C49, C50, C58, C63 | `sign` with an arbitrary sampler | combine the NTRU identity, the FFT theorem and C17/C28 |
| C51-C56, C60-C62 | UInt64 limbs, tables, byte streams, `rnd` | Nat arithmetic; counting of intervals; Taylor bounds for exp; rounding lemmas |
| C57 | strings as lists of characters, `strtol` | case analysis |
| C64 | `ff_sampling` with the calls recorded | Gram-Schmidt identity by induction on the tree |
| C65 | signing with any `Accurate` arithmetic | error bounds in the l2 norm through the transforms; the vector accepted by the norm test is short, which bounds the size of the intermediate values |
| C66 | `reduce` with `redQuot`, `gram_schmidt_norm`, in any `Accurate` arithmetic | the rounded quotient is zero at exit, so F f* + G g* is small against f f* + g g*; with f G - g F = q this bounds F and G; the norm test bounds f f* + g g* from below |
| C67 | `recompute_G` in any `Accurate` arithmetic; one-shot `sign` | pointwise error of the quotient below 1/5 when |f^| >= 2^-10, so rounding after the inverse transform gives G; then C58, C65 and C66 |
| C68 | tree construction, `ff_sampling`, `samplerz` and `sign` in any `Accurate` arithmetic | the diagonal entries of the exact tree are means of the entries at the root, so they stay in a fixed interval and rounding errors grow slowly (`DiagTree`); in sampling, the part of each target that is symmetric under conjugation stays close to integer polynomials, the antisymmetric part, which is only due to rounding (the decimal root table is not exactly symmetric), is bounded separately (`Mirror`, `SampleBound`) |
| C69 | `ntru_solve` with any quotient procedure | the field norms along the tower multiply to the norm over all roots (`NormTower`); the base case fails iff the gcd is not 1 and the upper levels pass the outcome on |
| C70 | `gen_poly`, `samplerz` | every threshold of the rejection step is at least 1 for the deviation of key generation, so zero bytes are accepted; words of bytes for samples, coefficients and polynomials are concatenated (`KeyWords`) |
| C71 | `reduce`, `ntru_solve`, `ntru_gen` | two solutions of the NTRU equation differ by an integer multiple of (f, g), so their quotients differ by integers (`Coset`); with a half integer no quotient rounds to zero; in binary64 the reachable solutions with small quotient are exactly two and the computed quotient of both is evaluated by the kernel on the sparse transform (`Sparse`, `SparseEval`, `RatFloat`) |
| C72 | `gram_schmidt_norm` in binary64 | pointwise error of the computed inverse against the exact one, then the sums |
| C73 | every operand, shift amount | direct |
| C74 | every sequence of draws | the count satisfies a recursion over the number of draws |
| C75 | `Model/F64`: `f64A`, `samplerz64` | a simulation (`Sim`, `FinC e`): both runs hold the same number and it is at most 2^e; every operation keeps this with a slightly larger e, divisors are bounded below by C68's bounds |
| C76 | key generation with `f64A` | three cases for the computed divisors \|f^\|^2 + \|g^\|^2: all at least 2^-80: the runs on F64 and without exponent bound agree, then C66; one below but with non-zero square: the computed norm is at least 2^30, rejected; one with square zero: the quotient is not finite, spreads through the inverse transform to coefficient 0 and cannot be converted. Assumption: `F64.NoInvention` |
| C77 | `ber_exp`, `samplerz`, `gen_poly` with `fma = true` | the 38 exponents of key generation are at least ln 2 / 200 away from the multiples of ln 2 (`FmaKey`: a table of integers, then rounding errors of 1e-12); the witness is evaluated operation by operation |
| C78 | `samplerz` over uniform byte strings (`GaussSpec`: `freq`, `gaussPr`) | decision trees over bytes (`ByteTree`, `SamplerTree`); the table against the half Gaussian by rational interval bounds checked in the kernel (`PdtGauss`); C61 per iteration, tails, then the quotient by the acceptance probability (`SamplerGauss`, `SamplerFinal`) |
| C79 | as C78 | exact geometric sum; Poisson summation for the sum of the weights (`GaussSum`) |
| C80 | `ffSampling` over uniform byte strings (`SamplingSpec`: `idealPr` sums the product of the Gaussian probabilities of the calls over all tapes of answers) | the run of `ffSampling` is an oracle tree (`OracleTree`); hybrid argument over its 2N calls with C78 (`SampleDist`); lower bound of the leaves (`TreeLow`) |
| C81 | one signing round; `cosetPr` is defined by the public key alone | C48 (the sum of the squared deviations is the norm of (s1, s2)), Poisson summation per call, product over the calls (`CosetGauss`, `SignGauss`, `CodeGauss`) |
| C82 | `cosetPr` of pairs longer than beta | exponential moment: the masses of the Gaussians of parameter sigma and 1.1 sigma on the same coset (`NormTail`) |
| C83 | `signPoly` with the salt fixed, all other bytes uniform | the loop as a byte tree with rejection, geometric sum, C81 for each round (`SignLaw`) |
| C84 | `hashToPoint` on uniform XOF output | 16-bit words as a byte tree (`HashLaw`), exact count of accepted words, moment bound for the number of blocks |
| C85 | `genPoly` twice, as in `ntruGen` | `gen_poly` as a program over an oracle (`KeyLaw`), C78 for the calls of key generation |
| C86 | `ntruGen` on uniform bytes, `KeyLawSpec` | `ntru_gen` as a byte tree with retries, geometric sum; C36 and C69 for the meaning of the tests |
| C87 | `signPoly` with all bytes uniform (`specSignPr`) | averaging C83 over the first 40 bytes |
| C88 | `ff_sampling`, `signPoly` against `cosetPr`, `specSignPr`: order-2 bounds | per integer the sum of q (p/q - 1)^2 is bounded (`Proofs/ChiTable.lean`, `ChiLeaf.lean`), the bounds multiply along the tape (`ChiTape.lean`, `ChiCoset.lean`); Cauchy-Schwarz gives C81, C83 and C87 as well |
| C89 | `Adversary` (`AdversarySpec.lean`): decision trees asking for signatures | tensorised order-2 bound over the Q answers, `Proofs/AdvLaw.lean` |
| C90 | `Forger`, won if `verify` accepts | C89 |
| C91 | `sphericalPr` (`SyndromeSpec.lean`): Gaussian pairs and their points | all cosets have the same mass up to 2^-33 (`mass_sharp`), every pair lies in exactly one coset |
| C92 | `verify`, two signatures of one salted message | difference of the two preimages |
| C93 | `oracleSignPr` (`OracleSpec.lean`): signing with a uniform stream and a random oracle | C87 averaged over the hashed point (C84), which turns the coset Gaussians into independent coordinates (C91); Chernoff bound with tables of exp checked by the kernel |
| C94 | the same, decoding and verification of the result | prefix codes; a single large coefficient beside typical ones; union bound |
| C95 | `verify` with one uniform XOF answer (`answering`, `OracleSpec.lean`), share of the answers | c -> c - s2 h is a bijection of the points; points in a ball counted with a Gaussian generating function |
| C96 | the same with wrap-around; k answers (`answeringAll`) | moments up to order 4 of the norm of a uniform point (sums over residues checked by the kernel), quartic lower bound of the indicator of the accepted window |
| C97 | `Malleable` on the output of `oracleSignPr` | a longer unary run of a small coefficient (C19); Chernoff bound for the padding; union bound |
| C98 | tuples of random words | determinism of key generation and of the salt in the word (C39); count of injective tuples |
| C99 | `samplerzArr` on the 3072 vectors of tests/test_samplerz.cpp | a finite table, meant as a check of the model against the published vectors: an evaluator on integer fractions, proved sound for every fuel and both contraction modes (`katOk_sound`), run in the kernel |
| C100 | `ntruGen` on IEEE 754 data | the reduction loop ends with quotient coefficients that round to zero; error of the rounded quotient against the exact one at the solution (`reduced_system`, `reduced_sharp`); norm of (F, G) from the Lagrange identity and the Gram-Schmidt test; uniqueness: two solutions differ by a multiple of (f, g), whose quotient is an integer polynomial |
| C101 | `checkNtruEq`, `testNtruGen`, `testKeygen` (Model/Tests) | error of fG - gF below 1/2 in every accurate arithmetic (`checkNtruEq_decides`); transfer to IEEE data (`checkNtruEq64`); sizes from C100, or from the key format |
| C102 | `falconKeygen`, `falconSign`, `verify` | the search over all words ends by determinism (C39); whatever it finds is a key pair of key generation, so C76 applies; verification depends on key bytes only (C30) |
| C103 | `testFf`, `testNtt`, `testEncodingPkey`, `testEncodingSkey`, `testSigCompression`, `testSigDecompression` | from C01–C06, C09, C14, C15, C18–C20, C22; the key for which the test fails is the run of `ConstRun` |
| C104 | `testFft`, `testSplitMerge` | error bounds of the transforms (C42) and of single operations in `Proofs/TestFft`; transfer to IEEE 754 data by `Sim`; for b = 0 NaN reaches the first coefficient (as in C76) |
| C105 | `testPreimage`, `testFfSampling` | transform identities for the check; `signVec_float_of` and `near_round` for the vector; transfer to IEEE 754 data as in C75 |
| C106 | `testSigning`, `signOne`, `signMany` | induction over the rounds; each round is C76, for `signMany` C65 and C68 with the matrix recomputed from the encoded key |
| C107 | `recompute_G`, `falcon::sign`, a key in x^16 | the first value of the transform evaluated in rational binary64 (`Proofs/FirstPoint`); NTRU equation, inverse and Gram-Schmidt norm by products of coefficient lists (`Proofs/PolyList`, `Proofs/ZeroKey`); division by zero as in C104; key generation reaches it by C70, coprimality of the norms by the norm of coefficient lists (`Proofs/ZeroRun`) |
| C108 | `reduce`, `ntru_solve`, `ntru_gen`, a pair in x^4 and x^64 | field norms in the quotient ring down to N = 8 (`Proofs/NanKey`), the levels 1, 2, 4, 8 of the solver run on coefficient lists and the first value of the transform in rational binary64 (`Proofs/NanSolve`), acceptance as for C107 (`Proofs/NanAccept`) |
| C109 | `benchmarks/` as programs | induction over the iterations with the round of C106; `verifyPoly` is `verify` on the encoded key |
| C110 | `decompress_sig` on an array without bytes behind it | the reads of every loop compared with those on a longer array (`Proofs/SigReads`); positions of the chunks increase, so the last one decides |
| C111 | `verify` with a public key computed from the signature | C37 gives s1 + s2 h = c for h = (c - s1) / s2, C28 gives acceptance; the product with s2 tells the keys apart |
| C112 | coefficient sums of `ntru_gen` | the equation of C34 and C76 evaluated at 1, where x^N + 1 is 2 |
| C113 | two runs of `ntru_gen` | g = h f modulo q and both are small (C37, C38); F and G by C100 |
| C114 | bytes of `prng_t` seen through a signature | s1 f + s2 g = c f - q a1, and the centres of the first two calls of `samplerz` are coefficients of c f / q up to 2^-20; quiet bytes make `samplerz` accept at once for all centres and standard deviations |
| C115 | `sign` with an erased f | decoding and layout (C13, C59) give f = 0, the transform of zero is zero, then C107_recompute; a generated f is invertible mod q (C38) |
| C116 | `sign` with an erased F | the target cancels in the second half of the vector without the NTRU equation; decoding and layout (C13, C59) give F = 0; in binary64 the products with F vanish, and the error analysis of C65 (`core`) applies with q / f for the missing G |
| C117 | `SignProg` (`ProgramSpec.lean`): `sign` as a straight-line program with sampler calls | the floating point code commutes with every map of arithmetics that respects the operations (`ArithHom`); applied to the evaluation of expressions; sampling by induction on the tree with the answers as inputs |
| C118 | `timedLeaf`, `geoPr`, `timedPr` (`TimingSpec.lean`): `samplerz` loop counts in one signing round | one call: sum over the attempt that accepts, compared with a geometric number times the Gaussian (C79 bounds); hybrid over the calls as in C80; comparison length by induction on the bytes |
| C119 | `simPr`, `roundPr` (`TimingSpec.lean`): one round with iteration counts | C118 and the relative bound of C81, summed over the counts |
| C120 | `simSignPr` (`TimingSpec.lean`): the signing loop with iteration counts | the loop as a program reading bytes (`trej`); per round C118 and C81 for the value of the remaining loop; induction on the rounds |
| C121 | `keylessPr` (`KeylessSpec.lean`): point, counts and pair drawn without a key | C119 and C120 averaged over the point, `pair_joint` of C91 under the weights of the counts |
| C122 | `TimedAdversary`, `timedSigner` (`TimedAdversarySpec.lean`) | events of one answer by C120 averaged over the salt; from events to test functions on finitely many outcomes; hybrid argument over the questions |
| C123 | `simSignMean`, `simWinsPr`, `TimedForger` (`TimedSimSpec.lean`): answers with iteration counts from the public key alone | C120 for every event of one answer; from events to means (`mean_close`); hybrid over the questions |
