import Verif.Model.Tests

/-!
# Programs of tests/: test_ff.cpp, test_ntt.cpp, test_encoding.cpp, test_fft.cpp

The random inputs of the tests are arguments here. A test that checks several conditions returns all of them.
-/

namespace Falcon

/-- tests/test_ff.cpp:17-55, one round: the five values of which `EXPECT_EQ` demands equality, joined by `&&`. -/
def testFf (a b : Ff) (exp : Nat) : Bool :=
  let c := Ff.sub a b
  let d := Ff.neg b
  let e := Ff.add a d
  let f := Ff.mul a b
  let g := Ff.div f b
  let h := Ff.inv a
  let k := Ff.mul h a
  let l := Ff.pow a exp
  let res := loop exp (fun _ res => Ff.mul res a) Ff.one
  Ff.beq c e &&
  (if Ff.beq b Ff.zero then Ff.beq g Ff.zero else Ff.beq g a) &&
  (if Ff.beq a Ff.zero then Ff.beq k Ff.zero else Ff.beq k Ff.one) &&
  Ff.beq res l

/-- tests/test_ntt.cpp:27-62 `test_ntt<lgn>`, one round of `while (1)`: `none` when other polynomials are drawn, else the flag that
is expected to be false. -/
def testNtt (logn : Nat) (poly_a poly_b junk_c junk_d : Mem Ff) : Option Bool :=
  let n := 1 <<< logn
  let ntt_a := ntt logn poly_a
  let ntt_b := ntt logn poly_b
  let can_invert := loop n (fun i ok => ok && (ntt_b i).v != 0) true
  if !can_invert then none
  else
    let ntt_c := polyMul logn ntt_a ntt_b junk_c
    let ntt_d := polyDiv logn ntt_c ntt_b junk_d
    let poly_d := intt logn ntt_d
    some (loop n (fun i flg => flg || ((poly_d i).v ^^^ (poly_a i).v) != 0) false)

/-- tests/test_encoding.cpp:16-43 `test_encoding_pkey<N>`: `flg` and `success`. -/
def testEncodingPkey (logn : Nat) (h h_ : Mem Ff) (pkey : Mem UInt8) : Bool × Bool :=
  let r := decodePkey logn (encodePkey logn h pkey) h_
  (r.1, loop (1 <<< logn) (fun i ok => ok && Ff.beq (h i) (r.2 i)) true)

/-- tests/test_encoding.cpp:70-78 `test_encoding_skey<N>` after `ntru_gen`: `flg` and `success`. -/
def testEncodingSkey (logn : Nat) (s : Ntru) (k_ : FgF) (skey : Mem UInt8) : Bool × Bool :=
  let r := decodeSkey logn (encodeSkey logn s.f s.g s.F skey) k_
  (r.1, loop (1 <<< logn) (fun i ok => ok && s.f i == r.2.f i && s.g i == r.2.g i && s.F i == r.2.F i) true)

/-- tests/test_encoding.cpp:191-207 `test_sig_compression<N>` from `compress_sig` on, for a polynomial `s2` that passed the norm
test: `none` when the loop goes on, else `decompressed` and `matches`. `slack` counts the bytes behind the array `sig` that can be
read; it is 0 in the test. -/
def testSigCompression (logn slack : Nat) (s2 dec_s2 : Mem Int) (sig : Mem UInt8) : Except UB (Option (Bool × Bool)) :=
  (compressSigE logn s2 sig).bind fun r =>
  if !r.1 then .ok none
  else
    (decompressSig logn (rdArr (sigLen logn + slack) r.2) dec_s2).bind fun d =>
    .ok (some (d.1, loop (1 <<< logn) (fun i ok => ok && s2 i == d.2 i) true))

/-- tests/test_encoding.cpp:243-282 `test_sig_decompression<N>` for the random bytes `sig0`: `none` when decompression fails, else
`compressed` and `matches`. -/
def testSigDecompression (logn slack : Nat) (sig0 sig1 : Mem UInt8) (s2 : Mem Int) : Except UB (Option (Bool × Bool)) :=
  (decompressSig logn (rdArr (sigLen logn + slack) sig0) s2).bind fun d =>
  if !d.1 then .ok none
  else
    (compressSigE logn d.2 sig1).bind fun r =>
    .ok (some (r.1, loop (sigLen logn - 41) (fun i ok => ok && sig0 (41 + i) == r.2 (41 + i)) true))

section
variable {R C : Type} (A : Arith R C)

/-- `cmplx{ std::round(x.real()) } != cmplx{ v }` for an integer `v` that is a double: true also when `x` is not finite. The rounded
double is compared as an integer; both sides are outside of ±2^62 or not finite only together with a difference. -/
def roundedDiffers (x : C) (v : Int) : Bool :=
  match A.roundTo (-2 ^ 62) (2 ^ 62) (A.re x) with
  | .ok w => w != v
  | .error _ => true

/-- tests/test_fft.cpp:28-62 `test_fft<lgn>`: the flag that is expected to be false. -/
def testFft (logn : Nat) (a b : Mem Int) : Bool :=
  let n := 1 <<< logn
  let poly_a := loop n (fun i m => upd m i (A.ofInt (a i))) (junkC A)
  let poly_b := loop n (fun i m => upd m i (A.ofInt (b i))) (junkC A)
  let fft_a := fft A logn poly_a
  let fft_b := fft A logn poly_b
  let fft_c := polyMulC A logn fft_a fft_b (junkC A)
  let fft_d := polyDivC A logn fft_c fft_b (junkC A)
  let poly_d := ifft A logn fft_d
  loop n (fun i flg => flg || roundedDiffers A (poly_d i) (a i)) false

/-- tests/test_fft.cpp:120-194 `test_fft_split_merge<lgn>`: the three flags that are expected to be false. -/
def testSplitMerge (logn : Nat) (f : Mem Int) : Bool × Bool × Bool :=
  let n := 1 <<< logn
  let hn := n >>> 1
  let poly_f := loop n (fun i m => upd m i (A.ofInt (f i))) (junkC A)
  let fft_f := fft A logn poly_f
  let s := splitFft A logn fft_f (junkC A) (junkC A)
  let ifft_f0 := ifft A (logn - 1) s.1
  let ifft_f1 := ifft A (logn - 1) s.2
  let ifft_f := ifft A logn (mergeFft A logn s.1 s.2 (junkC A))
  (loop hn (fun i flg => flg || roundedDiffers A (ifft_f0 i) (f (2 * i))) false,
   loop hn (fun i flg => flg || roundedDiffers A (ifft_f1 i) (f (2 * i + 1))) false,
   loop n (fun i flg => flg || roundedDiffers A (ifft_f i) (f i)) false)

end

end Falcon
