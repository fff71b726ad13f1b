import Verif.Model.Verify
import Verif.Model.Sampler

/-!
# Model of include/karatsuba.hpp and of the integer part of include/ntru_gen.hpp

`mpz_class` is `ℤ`: `/` truncates (`mpz_tdiv_q`), `>>` rounds down, `<<` multiplies by a power of two.
A default constructed `std::array<mpz_class, n>` holds zeros. `N = 2^k`.

The floating point computations that steer the control flow, namely the rounded quotient of `reduce`
and the Gram-Schmidt norm test of `ntru_gen`, are parameters here (`RedQuot`, `gsTooBig`); `Verif.Model.Fft`
and `Verif.Model.Keygen` give their definitions.
-/

namespace Falcon

/-- A freshly constructed array of `mpz_class`. -/
def zerosZ : Mem Int := fun _ => 0

/-- karatsuba.hpp:18-65 `karatsuba<N>`, N = 2^k. The loop of lines 37-46 fills six arrays at once; here
each array has its own loop. -/
def karatsuba : (k : Nat) → (polya polyb : Mem Int) → Mem Int
  | 0, polya, polyb => upd (upd zerosZ 0 (polya 0 * polyb 0)) 1 0
  | k + 1, polya, polyb =>
    let N := 2 ^ (k + 1)
    let Nby2 := N / 2
    let polya0 := loop Nby2 (fun i m => upd m i (polya i)) zerosZ
    let polya1 := loop Nby2 (fun i m => upd m i (polya (Nby2 + i))) zerosZ
    let polyb0 := loop Nby2 (fun i m => upd m i (polyb i)) zerosZ
    let polyb1 := loop Nby2 (fun i m => upd m i (polyb (Nby2 + i))) zerosZ
    let polyax := loop Nby2 (fun i m => upd m i (polya i + polya (Nby2 + i))) zerosZ
    let polybx := loop Nby2 (fun i m => upd m i (polyb i + polyb (Nby2 + i))) zerosZ
    let polya0b0 := karatsuba k polya0 polyb0
    let polya1b1 := karatsuba k polya1 polyb1
    let polyaxbx := karatsuba k polyax polybx
    let polyaxbx := loop N (fun i m => upd m i (m i - (polya0b0 i + polya1b1 i))) polyaxbx
    loop N (fun i polyab =>
      let polyab := upd polyab i (polyab i + polya0b0 i)
      let polyab := upd polyab (N + i) (polyab (N + i) + polya1b1 i)
      upd polyab (Nby2 + i) (polyab (Nby2 + i) + polyaxbx i)) zerosZ

/-- karatsuba.hpp:71-84 `karamul<N>`, N = 2^k. -/
def karamul (k : Nat) (polya polyb : Mem Int) : Mem Int :=
  let N := 2 ^ k
  let polyab := karatsuba k polya polyb
  loop N (fun i res => upd res i (polyab i - polyab (N + i))) zerosZ

/-- ntru_gen.hpp:175-201 `field_norm<N>`, N = 2^(k+1); the result has N/2 = 2^k coefficients. -/
def fieldNorm (k : Nat) (poly : Mem Int) : Mem Int :=
  let Nby2 := 2 ^ k
  let polye := loop Nby2 (fun i m => upd m i (poly (2 * i))) zerosZ
  let polyo := loop Nby2 (fun i m => upd m i (poly (2 * i + 1))) zerosZ
  let polye_sq := karamul k polye polye
  let polyo_sq := karamul k polyo polyo
  let res := loop (Nby2 - 1) (fun i res => upd res (i + 1) (res (i + 1) - polyo_sq i)) polye_sq
  upd res 0 (res 0 + polyo_sq (Nby2 - 1))

/-- ntru_gen.hpp:209-237, the `while` loop of `xgcd`, at most `fuel` iterations (the code has no limit). -/
def xgcdZLoop : (fuel : Nat) → (old_r r old_s s old_t t : Int) → Option (Int × Int × Int)
  | 0, _, _, _, _, _, _ => none
  | fuel + 1, old_r, r, old_s, s, old_t, t =>
    if r ≠ 0 then
      let quotient := Int.tdiv old_r r
      xgcdZLoop fuel r (old_r - quotient * r) s (old_s - quotient * s) t (old_t - quotient * t)
    else some (old_s, old_t, old_r)

/-- ntru_gen.hpp:209-237 `xgcd(x, y)`: (a, b, g). -/
def xgcdZ (fuel : Nat) (x y : Int) : Option (Int × Int × Int) := xgcdZLoop fuel x y 1 0 0 1

/-- ntru_gen.hpp:246-257 `lift<N>`, N = 2^k; the result has 2N coefficients. -/
def lift (k : Nat) (poly : Mem Int) : Mem Int :=
  loop (2 ^ k) (fun i res => upd res (2 * i) (poly i)) zerosZ

/-- ntru_gen.hpp:265-280 `galois_conjugate<N>`, N = 2^k. -/
def galoisConjugate (k : Nat) (poly : Mem Int) : Mem Int :=
  loop (2 ^ k) (fun i res => if i &&& 1 ≠ 0 then upd res i (-poly i) else upd res i (poly i)) zerosZ

/-- ntru_gen.hpp:296-300, the `while` loop of `approx_bit_len`; `v_` is an absolute value. -/
def approxBitLenLoop (v len : Nat) : Nat :=
  if h : 0 < v then approxBitLenLoop (v / 2 ^ 8) (len + 8) else len
termination_by v
decreasing_by exact Nat.div_lt_self h (by decide)

/-- ntru_gen.hpp:288-303 `approx_bit_len`. -/
def approxBitLen (v : Int) : Nat := approxBitLenLoop v.natAbs 0

/-- ntru_gen.hpp:307-325 `min_max<N>`. -/
def minMax (N : Nat) (arr : Mem Int) : Int × Int :=
  loop (N - 1) (fun i mm =>
    let x := arr (i + 1)
    (if mm.1 > x then x else mm.1, if mm.2 < x then x else mm.2)) (arr 0, arr 0)

/-- ntru_gen.hpp:343-346 and 371-375: `max(53, bit lengths of the extrema of both arrays)`. -/
def bitLenPair (N : Nat) (a b : Mem Int) : Nat :=
  let amm := minMax N a
  let bmm := minMax N b
  max 53 (max (max (approxBitLen amm.1) (approxBitLen amm.2))
              (max (approxBitLen bmm.1) (approxBitLen bmm.2)))

/-- ntru_gen.hpp:353-356 and 386-389: the scaled coefficient `x >> (blen - 53)` before `get_d()`. -/
def scaled (blen : Nat) (a : Mem Int) : Mem Int := fun i => a i / 2 ^ (blen - 53)

/-- The rounded quotient computed by ntru_gen.hpp:353-366 and 386-423 from the scaled coefficients of
f, g, F, G (`k_rounded`); converting an unrepresentable double to `long` is undefined. -/
abbrev RedQuot := (k : Nat) → (f g F G : Mem Int) → Except UB (Mem Int)

/-- Sequencing of computations that may need more fuel or be undefined. -/
def bindO {α β : Type} (x : Option (Except UB α)) (f : α → Option (Except UB β)) : Option (Except UB β) :=
  match x with
  | none => none
  | some (.error e) => some (.error e)
  | some (.ok a) => f a

/-- ntru_gen.hpp:367-447, the `while (1)` loop of `reduce<N>`, N = 2^k, at most `fuel` iterations. -/
def reduceLoop (quot : RedQuot) (k : Nat) (f g : Mem Int) (blen0 : Nat) :
    (fuel : Nat) → (F G : Mem Int) → Option (Except UB (Mem Int × Mem Int))
  | 0, _, _ => none
  | fuel + 1, F, G =>
    let N := 2 ^ k
    let blen1 := bitLenPair N F G
    if blen1 < blen0 then some (.ok (F, G)) else
    match quot k (scaled blen0 f) (scaled blen0 g) (scaled blen1 F) (scaled blen1 G) with
    | .error e => some (.error e)
    | .ok k_rounded =>
      let atleast_one_nonzero := loop N (fun i b => b || decide (k_rounded i ≠ 0)) false
      if !atleast_one_nonzero then some (.ok (F, G)) else
      let fk := karamul k f k_rounded
      let gk := karamul k g k_rounded
      let F := loop N (fun i F => upd F i (F i - fk i * 2 ^ (blen1 - blen0))) F
      let G := loop N (fun i G => upd G i (G i - gk i * 2 ^ (blen1 - blen0))) G
      reduceLoop quot k f g blen0 fuel F G

/-- ntru_gen.hpp:332-448 `reduce<N>`. -/
def reduce (quot : RedQuot) (fuel k : Nat) (f g F G : Mem Int) : Option (Except UB (Mem Int × Mem Int)) :=
  reduceLoop quot k f g (bitLenPair (2 ^ k) f g) fuel F G

/-- ntru_gen.hpp:473-505 `ntru_solve<N>`, N = 2^k. The inner `none` is a status that is no solution. -/
def ntruSolve (quot : RedQuot) (fuel : Nat) : (k : Nat) → (f g : Mem Int) →
    Option (Except UB (Option (Mem Int × Mem Int)))
  | 0, f, g =>
    match xgcdZ fuel (f 0) (g 0) with
    | none => none
    | some (a, b, d) =>
      if d ≠ 1 then some (.ok none)
      else some (.ok (some (upd zerosZ 0 (-(Q.toNat : Int) * b), upd zerosZ 0 ((Q.toNat : Int) * a))))
  | k + 1, f, g =>
    let fprime := fieldNorm k f
    let gprime := fieldNorm k g
    bindO (ntruSolve quot fuel k fprime gprime) fun ret =>
      match ret with
      | none => some (.ok none)
      | some (F', G') =>
        let F := karamul (k + 1) (lift k F') (galoisConjugate (k + 1) g)
        let G := karamul (k + 1) (lift k G') (galoisConjugate (k + 1) f)
        bindO (reduce quot fuel (k + 1) f g F G) fun FG => some (.ok (some FG))

/-- `mpz_get_si` on a 64-bit machine: the low 63 bits of the absolute value, with the sign. -/
def getSi (v : Int) : Int :=
  if v > 0 then v % 2 ^ 63 else if v < 0 then -1 - ((-v - 1) % 2 ^ 63) else 0

/-- `static_cast<int32_t>` of a `long`. -/
def narrow32 (v : Int) : Int := Int.bmod v (2 ^ 32)

/-- ntru_gen.hpp:25: standard deviation of one summand of a key coefficient. -/
noncomputable def keySigma : ℝ := rnd 1.43300980528773

/-- ntru_gen.hpp:32-35: `k` samples are added up; state (res, stream position). -/
noncomputable def genCoeff (fma : Bool) (logn : Nat) (stream : Nat → UInt8) (fuel : Nat) :
    (k : Nat) → (res : Int) → (pos : Nat) → Option (Except UB (Int × Nat))
  | 0, res, pos => some (.ok (res, pos))
  | k + 1, res, pos =>
    bindO (samplerz fma 0 keySigma (sigmaMin logn) stream fuel pos) fun z =>
    match i32 .strict (res + z.1) with
    | .error e => some (.error e)
    | .ok res => genCoeff fma logn stream fuel k res z.2

/-- ntru_gen.hpp:30-38: the loop over the coefficients, `m` of them left to do, next index `i`. -/
noncomputable def genPolyLoop (fma : Bool) (logn : Nat) (stream : Nat → UInt8) (fuel : Nat) :
    (m i : Nat) → (poly : Mem Int) → (pos : Nat) → Option (Except UB (Mem Int × Nat))
  | 0, _, poly, pos => some (.ok (poly, pos))
  | m + 1, i, poly, pos =>
    bindO (genCoeff fma logn stream fuel (4096 / (1 <<< logn)) 0 pos) fun z =>
    genPolyLoop fma logn stream fuel m (i + 1) (upd poly i z.1) z.2

/-- ntru_gen.hpp:18-39 `gen_poly<LOG2N>`. -/
noncomputable def genPoly (fma : Bool) (logn : Nat) (stream : Nat → UInt8) (fuel : Nat) (poly : Mem Int)
    (pos : Nat) : Option (Except UB (Mem Int × Nat)) :=
  genPolyLoop fma logn stream fuel (1 <<< logn) 0 poly pos

/-- ntru_gen.hpp:54-55, keygen.hpp:82-83: conversion of an `int32_t` coefficient to `ff_t::v`. -/
def coeffToFf (x : Int) : Ff := ⟨Ff.toU16 ((if x < 0 then (Q.toNat : Int) else 0) + x)⟩

/-- ntru_gen.hpp:44-66 `is_poly_invertible<LOG2N>`. -/
def isPolyInvertible (logn : Nat) (poly : Mem Int) : Bool :=
  let N := 1 <<< logn
  let tmp : Mem Ff := loop N (fun i a => upd a i (coeffToFf (poly i))) (fun _ => Ff.zero)
  let tmp := ntt logn tmp
  loop N (fun i flg => flg && decide ((tmp i).v ≠ 0)) true

/-- keygen.hpp:67-90 `compute_public_key<N>`; `h` is the prior content of the output buffer. -/
def computePublicKey (logn : Nat) (f g : Mem Int) (h : Mem Ff) : Mem Ff :=
  let N := 1 <<< logn
  let f_ : Mem Ff := loop N (fun i a => upd a i (coeffToFf (f i))) (fun _ => Ff.zero)
  let g_ : Mem Ff := loop N (fun i a => upd a i (coeffToFf (g i))) (fun _ => Ff.zero)
  let f_ := ntt logn f_
  let g_ := ntt logn g_
  let h := polyDiv logn g_ f_ h
  intt logn h

/-- The four polynomials of a key pair. -/
structure Ntru where
  f : Mem Int
  g : Mem Int
  F : Mem Int
  G : Mem Int

/-- ntru_gen.hpp:511-552 `ntru_gen<N>`: at most `iters` rounds of the `while (1)` loop, each with `fuel`
for the loops inside. `gsTooBig` is the outcome of the test of lines 528-529. -/
noncomputable def ntruGen (quot : RedQuot) (gsTooBig : Mem Int → Mem Int → Bool) (fma : Bool) (logn : Nat)
    (stream : Nat → UInt8) (fuel : Nat) :
    (iters : Nat) → (s : Ntru) → (pos : Nat) → Option (Except UB (Ntru × Nat))
  | 0, _, _ => none
  | iters + 1, s, pos =>
    bindO (genPoly fma logn stream fuel s.f pos) fun fp =>
    bindO (genPoly fma logn stream fuel s.g fp.2) fun gp =>
    let s : Ntru := { s with f := fp.1, g := gp.1 }
    let again := ntruGen quot gsTooBig fma logn stream fuel iters s gp.2
    if !isPolyInvertible logn s.f then again else
    if gsTooBig s.f s.g then again else
    let N := 1 <<< logn
    let f_ := loop N (fun i m => upd m i (s.f i)) zerosZ
    let g_ := loop N (fun i m => upd m i (s.g i)) zerosZ
    bindO (ntruSolve quot fuel logn f_ g_) fun ret =>
    match ret with
    | none => again
    | some (F, G) =>
      let F := loop N (fun i m => upd m i (narrow32 (getSi (F i)))) s.F
      let G := loop N (fun i m => upd m i (narrow32 (getSi (G i)))) s.G
      some (.ok ({ s with F := F, G := G }, gp.2))

end Falcon
