import Mathlib.Data.Int.Log
import Mathlib.Data.Real.Archimedean
import Mathlib.Data.Real.Basic

/-!
# IEEE 754 binary64 arithmetic, rounding to nearest, ties to even

A finite double is modelled by the real number it stands for. Every arithmetic operation of the C++ code
is the exact operation followed by `rnd`. Not modelled: infinities, NaN and the sign of zero; the
exponent range is unbounded above, so statements are meaningful where no result exceeds the binary64
range (always the case in the ranges the theorems assume). Gradual underflow is modelled.
-/

namespace Falcon

/-- Nearest integer, ties to even. -/
noncomputable def rndZ (y : ℝ) : ℤ :=
  if Int.fract y < 1 / 2 then ⌊y⌋
  else if 1 / 2 < Int.fract y then ⌊y⌋ + 1
  else if Even ⌊y⌋ then ⌊y⌋ else ⌊y⌋ + 1

/-- Exponent of the unit in the last place of the binade of `x` (53 bits of precision). -/
noncomputable def fexp (x : ℝ) : ℤ := max (Int.log 2 |x| - 52) (-1074)

/-- Rounding of a real number to binary64. -/
noncomputable def rnd (x : ℝ) : ℝ := (rndZ (x / 2 ^ fexp x) : ℝ) * 2 ^ fexp x

/-- `x` is (the value of) a finite double. -/
def Rep (x : ℝ) : Prop := ∃ m e : ℤ, |m| < 2 ^ 53 ∧ -1074 ≤ e ∧ x = m * 2 ^ e

noncomputable def fadd (x y : ℝ) : ℝ := rnd (x + y)
noncomputable def fsub (x y : ℝ) : ℝ := rnd (x - y)
noncomputable def fmul (x y : ℝ) : ℝ := rnd (x * y)
noncomputable def fdiv (x y : ℝ) : ℝ := rnd (x / y)

end Falcon
