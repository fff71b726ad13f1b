import Verif.Model.Sign
import Verif.Spec
import Mathlib.Analysis.SpecialFunctions.Complex.Circle
import Mathlib.Algebra.BigOperators.Group.Finset.Basic

/-!
# Specification vocabulary for the complex part: exact arithmetic and the Fourier transform

`exactA` computes with real and complex numbers without rounding; the table of roots holds the exact roots.
-/

namespace Falcon

open Finset

/-- `std::round`: the nearest integer, ties away from zero. -/
noncomputable def stdRound (x : ℝ) : ℤ := if 0 ≤ x then ⌊x + 1 / 2⌋ else -⌊-x + 1 / 2⌋

/-- The conversion of a rounded number to an integer type with values in [lo, hi]; anything else is undefined
behaviour. -/
noncomputable def exactRoundTo (lo hi : ℤ) (x : ℝ) : Except UB ℤ :=
  if lo ≤ stdRound x ∧ stdRound x ≤ hi then .ok (stdRound x) else .error .floatConv

/-- Exact arithmetic. The table entry is the root whose double approximation the code tabulates. -/
noncomputable def exactA : Arith ℝ ℂ where
  lit q := (q : ℝ)
  neg x := -x
  add x y := x + y
  mul x y := x * y
  div x y := x / y
  sqrt x := Real.sqrt x
  max x y := max x y
  le x y := @decide (x ≤ y) (Classical.propDecidable _)
  gt x y := @decide (x > y) (Classical.propDecidable _)
  roundTo := exactRoundTo
  cx a b := ⟨a, b⟩
  re z := z.re
  cadd x y := x + y
  csub x y := x - y
  cmul x y := x * y
  cdiv x y := x / y
  cneg x := -x
  conj x := (starRingEnd ℂ) x
  scale r z := (r : ℂ) * z
  tab k := Complex.exp (Complex.I * Real.pi * (revBits 10 k : ℂ) / 1024)

/-- The evaluation point of index `i`: exp(iπ(2 rev(i) + 1)/N). -/
noncomputable def fftPoint (n i : ℕ) : ℂ :=
  Complex.exp (Complex.I * Real.pi * (2 * (revBits n i : ℂ) + 1) / 2 ^ n)

/-- The value of the polynomial with coefficients `a 0, ..., a (N-1)` at the point of index `i`. -/
noncomputable def dft (n : ℕ) (a : Mem ℂ) (i : ℕ) : ℂ := ∑ j ∈ range (2 ^ n), a j * fftPoint n i ^ j

/-- The coefficients of an integer polynomial as complex numbers. -/
def zC (a : Mem Int) : Mem ℂ := fun i => (a i : ℂ)

/-- The adjoint polynomial: `a(1/x)` modulo `x^N + 1` (with conjugate coefficients). -/
noncomputable def adjC (n : ℕ) (a : Mem ℂ) : Mem ℂ :=
  fun i => if i = 0 then (starRingEnd ℂ) (a 0) else -(starRingEnd ℂ) (a (2 ^ n - i))

/-- `e` holds the transform of the integer polynomial `a`. -/
def IsDftOf (n : ℕ) (e : Mem ℂ) (a : Mem Int) : Prop := ∀ i, i < 2 ^ n → e i = dft n (zC a) i

/-- The integer polynomial stored in an array. -/
noncomputable def polyZ (n : ℕ) (a : Mem Int) : Polynomial ℤ := toPoly n a

end Falcon
