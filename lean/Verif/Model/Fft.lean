import Verif.Model.Ntru
import Mathlib.Data.Rat.Init

/-!
# Model of include/fft.hpp, of the complex part of include/polynomial.hpp and of the floating point part
of include/ntru_gen.hpp

The code is written against an abstract arithmetic `Arith R C` (`R` for `double`, `C` for
`std::complex<double>`). Theorems about layout, bounds and control flow hold for every `Arith`, so in
particular for IEEE doubles with infinities and NaNs. `Verif.FftSpec` gives the exact real and complex
arithmetic and the accuracy conditions used by the error analysis.
-/

namespace Falcon

/-- The operations on `double` and `std::complex<double>` used by the code, and the table of roots. -/
structure Arith (R C : Type) where
  /-- the double nearest to a number (literals, `static_cast<double>` of an integer) -/
  lit : ℚ → R
  neg : R → R
  add : R → R → R
  mul : R → R → R
  div : R → R → R
  sqrt : R → R
  max : R → R → R
  /-- `a <= b` -/
  le : R → R → Bool
  /-- `a > b` -/
  gt : R → R → Bool
  /-- `static_cast<T>(std::round(x))` for an integer type `T` with values in [lo, hi] -/
  roundTo : (lo hi : ℤ) → R → Except UB ℤ
  /-- `std::complex<double>{re, im}` -/
  cx : R → R → C
  re : C → R
  cadd : C → C → C
  csub : C → C → C
  cmul : C → C → C
  cdiv : C → C → C
  cneg : C → C
  conj : C → C
  /-- product of a `double` and a complex number -/
  scale : R → C → C
  /-- fft.hpp:55-1080 `POWERS_OF_ζ` -/
  tab : ℕ → C

/-- `fft::cmplx{ x }` for a real `x`. -/
def Arith.ofReal {R C : Type} (A : Arith R C) (x : R) : C := A.cx x (A.lit 0)

/-- `fft::cmplx{ static_cast<double>(z) }`. -/
def Arith.ofInt {R C : Type} (A : Arith R C) (z : ℤ) : C := A.ofReal (A.lit z)

/-- `f(buf + p)`: `f` works on the array that starts `p` elements after the start of `buf`. -/
def atPtr {α : Type} (p : ℕ) (f : Mem α → Mem α) (buf : Mem α) : Mem α :=
  fun i => if i < p then buf i else f (fun j => buf (p + j)) (i - p)

/-- `buf + p` as a source. -/
def ptr {α : Type} (buf : Mem α) (p : ℕ) : Mem α := fun j => buf (p + j)

/-- The buffer `buf` after the array starting at `buf + p` got the content `new`. -/
def putPtr {α : Type} (buf : Mem α) (p : ℕ) (new : Mem α) : Mem α :=
  fun i => if i < p then buf i else new (i - p)

/-- `memcpy(dst, src, n * sizeof(element))`. -/
def memcpy {α : Type} (n : ℕ) (src dst : Mem α) : Mem α := loop n (fun i d => upd d i (src i)) dst

section
variable {R C : Type} (A : Arith R C)

/-- fft.hpp:1106-1111, innermost block of `fft`. -/
def fftStep (k len i : Nat) (vec : Mem C) : Mem C :=
  let z := A.tab k
  let tmp := A.cmul z (vec (i + len))
  let vec := upd vec (i + len) (A.csub (vec i) tmp)
  upd vec i (A.cadd (vec i) tmp)

/-- fft.hpp:1090-1115 `fft<LOG2N>`. -/
def fft (logn : Nat) (vec : Mem C) : Mem C := downLayers logn (fftStep A) vec

/-- fft.hpp:1143-1149, innermost block of `ifft`. -/
def ifftStep (k len i : Nat) (vec : Mem C) : Mem C :=
  let z := A.cneg (A.tab k)
  let tmp := vec i
  let vec := upd vec i (A.cadd (vec i) (vec (i + len)))
  let vec := upd vec (i + len) (A.csub tmp (vec (i + len)))
  upd vec (i + len) (A.cmul (vec (i + len)) z)

/-- fft.hpp:1126-1157 `ifft<LOG2N>`. -/
def ifft (logn : Nat) (vec : Mem C) : Mem C :=
  let vec := upLayers logn (ifftStep A) vec
  loop (1 <<< logn) (fun i vec => upd vec i (A.scale (A.lit (1 / 2 ^ logn)) (vec i))) vec

/-- fft.hpp:1104-1111 with checked accesses; the table has 1024 entries (fft.hpp:55). -/
def fftStepE (logn : Nat) (k len i : Nat) (vec : Mem C) : Except UB (Mem C) := do
  let N := 1 <<< logn
  let z ← rdE 1024 A.tab k
  let y ← rdE N vec (i + len)
  let tmp := A.cmul z y
  let x ← rdE N vec i
  let vec ← wrE N vec (i + len) (A.csub x tmp)
  let x ← rdE N vec i
  wrE N vec i (A.cadd x tmp)

/-- `fft<LOG2N>` with checked accesses. -/
def fftE (logn : Nat) (vec : Mem C) : Except UB (Mem C) := downLayersE logn (fftStepE A logn) vec

/-- fft.hpp:1141-1149 with checked accesses. -/
def ifftStepE (logn : Nat) (k len i : Nat) (vec : Mem C) : Except UB (Mem C) := do
  let N := 1 <<< logn
  let t ← rdE 1024 A.tab k
  let z := A.cneg t
  let tmp ← rdE N vec i
  let y ← rdE N vec (i + len)
  let vec ← wrE N vec i (A.cadd tmp y)
  let y ← rdE N vec (i + len)
  let vec ← wrE N vec (i + len) (A.csub tmp y)
  let y ← rdE N vec (i + len)
  wrE N vec (i + len) (A.cmul y z)

/-- `ifft<LOG2N>` with checked accesses. -/
def ifftE (logn : Nat) (vec : Mem C) : Except UB (Mem C) := do
  let N := 1 <<< logn
  let vec ← upLayersE logn (ifftStepE A logn) vec
  loopE N (fun i vec => do
    let x ← rdE N vec i
    wrE N vec i (A.scale (A.lit (1 / 2 ^ logn)) x)) vec

/-- fft.hpp:1164-1181 `split_fft<LOG2N>`; `f0`, `f1` are the prior contents of the output buffers. The loop
writes both; here each has its own loop. -/
def splitFft (logn : Nat) (f f0 f1 : Mem C) : Mem C × Mem C :=
  let hN := (1 <<< logn) >>> 1
  (loop hN (fun i f0 => upd f0 i (A.scale (A.lit (1 / 2)) (A.cadd (f (2 * i)) (f (2 * i + 1))))) f0,
   loop hN (fun i f1 => upd f1 i (A.cmul (A.scale (A.lit (1 / 2)) (A.csub (f (2 * i)) (f (2 * i + 1))))
     (A.conj (A.tab (hN + i))))) f1)

/-- fft.hpp:1188-1205 `merge_fft<LOG2N>`. -/
def mergeFft (logn : Nat) (f0 f1 f : Mem C) : Mem C :=
  let hN := (1 <<< logn) >>> 1
  loop hN (fun i f =>
    let z := A.tab (hN + i)
    let f := upd f (2 * i + 0) (A.cadd (f0 i) (A.cmul (f1 i) z))
    upd f (2 * i + 1) (A.csub (f0 i) (A.cmul (f1 i) z))) f

/-- fft.hpp:1210-1220 `adj_poly<LOG2N>`. -/
def adjPoly (logn : Nat) (poly : Mem C) : Mem C :=
  loop (1 <<< logn) (fun i poly => upd poly i (A.conj (poly i))) poly

/-- polynomial.hpp:12-23 `add` over C; `polyc` is the prior content of the output buffer. -/
def polyAddC (lg2n : Nat) (polya polyb polyc : Mem C) : Mem C :=
  loop (1 <<< lg2n) (fun i polyc => upd polyc i (A.cadd (polya i) (polyb i))) polyc

/-- polynomial.hpp:28-38 `add_to` over C. -/
def polyAddToC (lg2n : Nat) (polya polyb : Mem C) : Mem C :=
  loop (1 <<< lg2n) (fun i polya => upd polya i (A.cadd (polya i) (polyb i))) polya

/-- polynomial.hpp:69-80 `sub` over C. -/
def polySubC (lg2n : Nat) (polya polyb polyc : Mem C) : Mem C :=
  loop (1 <<< lg2n) (fun i polyc => upd polyc i (A.csub (polya i) (polyb i))) polyc

/-- polynomial.hpp:84-95 `mul` over C. -/
def polyMulC (lg2n : Nat) (polya polyb polyc : Mem C) : Mem C :=
  loop (1 <<< lg2n) (fun i polyc => upd polyc i (A.cmul (polya i) (polyb i))) polyc

/-- polynomial.hpp:134-145 `div` over C. -/
def polyDivC (lg2n : Nat) (polya polyb polyc : Mem C) : Mem C :=
  loop (1 <<< lg2n) (fun i polyc => upd polyc i (A.cdiv (polya i) (polyb i))) polyc

/-- Content of an uninitialised local array; never read before it is written. -/
def junkC : Mem C := fun _ => A.ofReal (A.lit 0)

/-- ntru_gen.hpp:72-84 `sqrd_norm<LOG2N>` of a polynomial in coefficient form. -/
def sqrdNormR (logn : Nat) (poly : Mem R) : R :=
  loop (1 <<< logn) (fun i res => A.add res (A.mul (poly i) (poly i))) (A.lit 0)

/-- ntru_gen.hpp:90-103 `sqrd_norm<LOG2N>` of a polynomial in Fourier form. -/
def sqrdNormC (logn : Nat) (poly : Mem C) : R :=
  let res := loop (1 <<< logn) (fun i res => A.cadd res (A.cmul (poly i) (A.conj (poly i))))
    (A.cx (A.lit 0) (A.lit 0))
  A.div (A.re res) (A.lit (2 ^ logn))

/-- ntru_gen.hpp:110-166 `gram_schmidt_norm<LOG2N>`. -/
def gramSchmidtNorm (logn : Nat) (f g : Mem Int) : R :=
  let N := 1 <<< logn
  let tmp0 : Mem R := loop N (fun i m => upd m i (A.lit (f i))) (fun _ => A.lit 0)
  let tmp1 : Mem R := loop N (fun i m => upd m i (A.lit (g i))) (fun _ => A.lit 0)
  let sq_norm_fg := A.add (sqrdNormR A logn tmp0) (sqrdNormR A logn tmp1)
  let f_ := loop N (fun i m => upd m i (A.ofReal (tmp0 i))) (junkC A)
  let g_ := loop N (fun i m => upd m i (A.ofReal (tmp1 i))) (junkC A)
  let f_ := fft A logn f_
  let g_ := fft A logn g_
  let f_adj := adjPoly A logn (memcpy N f_ (junkC A))
  let g_adj := adjPoly A logn (memcpy N g_ (junkC A))
  let fxf_adj := polyMulC A logn f_ f_adj (junkC A)
  let gxg_adj := polyMulC A logn g_ g_adj (junkC A)
  let sum := polyAddC A logn fxf_adj gxg_adj (junkC A)
  let ft := polyDivC A logn f_adj sum (junkC A)
  let gt := polyDivC A logn g_adj sum (junkC A)
  let sq_norm_FG := A.mul (A.lit (12289 * 12289)) (A.add (sqrdNormC A logn ft) (sqrdNormC A logn gt))
  A.max sq_norm_fg sq_norm_FG

/-- ntru_gen.hpp:12 `GS_NORM_THRESHOLD`. -/
def gsThreshold : R := A.mul (A.mul (A.lit 1.17) (A.lit 1.17)) (A.lit 12289)

/-- ntru_gen.hpp:528-529: the norm test of `ntru_gen`. -/
def gsTooBig (logn : Nat) (f g : Mem Int) : Bool := A.gt (gramSchmidtNorm A logn f g) (gsThreshold A)

/-- ntru_gen.hpp:353-366 and 386-423: the rounded quotient of `reduce<N>`, N = 2^k, from the scaled
coefficients of f, g, F, G. The transforms of f and g are computed once before the loop of the code; here
they are computed in each round from the same values. -/
def redQuot : RedQuot := fun k f g F G =>
  let N := 1 <<< k
  let toC (a : Mem Int) : Mem C := loop N (fun i m => upd m i (A.ofInt (a i))) (junkC A)
  let f_adjust := fft A k (toC f)
  let g_adjust := fft A k (toC g)
  let f_adjoint := adjPoly A k (memcpy N f_adjust (junkC A))
  let g_adjoint := adjPoly A k (memcpy N g_adjust (junkC A))
  let F_adjust := fft A k (toC F)
  let G_adjust := fft A k (toC G)
  let ff_mul := polyMulC A k f_adjust f_adjoint (junkC A)
  let gg_mul := polyMulC A k g_adjust g_adjoint (junkC A)
  let Ff_mul := polyMulC A k F_adjust f_adjoint (junkC A)
  let Gg_mul := polyMulC A k G_adjust g_adjoint (junkC A)
  let ffgg_add := polyAddC A k ff_mul gg_mul (junkC A)
  let FfGg_add := polyAddC A k Ff_mul Gg_mul (junkC A)
  let quo := polyDivC A k FfGg_add ffgg_add (junkC A)
  let quo := ifft A k quo
  loopE N (fun i m => (A.roundTo (-2 ^ 63) (2 ^ 63 - 1) (A.re (quo i))).bind fun v => .ok (upd m i v))
    (fun _ => 0)

end

end Falcon
