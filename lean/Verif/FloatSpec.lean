import Verif.FftSpec
import Verif.Model.Float
import Verif.Model.RootLits

/-!
# Specification vocabulary for floating point signing

`Accurate A` collects error bounds on the operations of an arithmetic on real and complex numbers. They are
weaker than what IEEE 754 binary64 with rounding to nearest provides, with and without contraction of products
and sums into fused multiply-adds, and for the usual ways to evaluate complex products and quotients; `ieeeA` is
one such evaluation and is proved to satisfy them.
-/

namespace Falcon

/-- Unit roundoff of binary64. -/
noncomputable def uD : ℝ := 1 / 2 ^ 53

/-- Absolute error allowed for underflow. -/
noncomputable def tinyD : ℝ := 1 / 2 ^ 100

/-- Error bounds of an arithmetic. Multiplication by the unit, conversions between real and complex numbers,
conjugation, negation and comparison are exact. -/
structure Accurate (A : Arith ℝ ℂ) : Prop where
  lit_int : ∀ z : ℤ, |A.lit z - z| ≤ uD * |(z : ℝ)|
  lit_small : ∀ z : ℤ, |z| ≤ 2 ^ 53 → A.lit z = z
  lit : ∀ q : ℚ, |A.lit q - q| ≤ uD * |(q : ℝ)| + tinyD
  lit_pow : ∀ n, n ≤ 10 → A.lit (1 / 2 ^ n) = 1 / 2 ^ n
  neg : ∀ x, A.neg x = -x
  add : ∀ x y, |A.add x y - (x + y)| ≤ uD * |x + y| + tinyD
  div : ∀ x y, 1 ≤ |y| → |A.div x y - x / y| ≤ uD * |x / y| + tinyD
  sqrt : ∀ x, |A.sqrt x - Real.sqrt x| ≤ uD * Real.sqrt x + tinyD
  le : ∀ x y, A.le x y = true ↔ x ≤ y
  roundTo : A.roundTo = exactRoundTo
  cx : ∀ a b, A.cx a b = ⟨a, b⟩
  re : ∀ z, A.re z = z.re
  cadd : ∀ x y, ‖A.cadd x y - (x + y)‖ ≤ uD * ‖x + y‖ + tinyD
  csub : ∀ x y, ‖A.csub x y - (x - y)‖ ≤ uD * ‖x - y‖ + tinyD
  cmul : ∀ x y, ‖A.cmul x y - x * y‖ ≤ 4 * uD * (‖x‖ * ‖y‖) + tinyD
  cdiv : ∀ x y, 1 / 2 ^ 20 ≤ ‖y‖ → ‖A.cdiv x y - x / y‖ ≤ 16 * uD * ‖x / y‖ + tinyD
  cneg : ∀ z, A.cneg z = -z
  conj : ∀ z, A.conj z = (starRingEnd ℂ) z
  scale : ∀ r z, ‖A.scale r z - r * z‖ ≤ 2 * uD * ‖(r : ℂ) * z‖ + tinyD
  tab : ∀ k, k < 1024 → ‖A.tab k - exactA.tab k‖ ≤ 6 * uD

/-- Complex product from four products and two sums; with `fma` the first product of each sum is not rounded. -/
noncomputable def ieeeMul (fma : Bool) (x y : ℂ) : ℂ :=
  if fma then ⟨rnd (x.re * y.re - rnd (x.im * y.im)), rnd (x.re * y.im + rnd (x.im * y.re))⟩
  else ⟨rnd (rnd (x.re * y.re) - rnd (x.im * y.im)), rnd (rnd (x.re * y.im) + rnd (x.im * y.re))⟩

/-- Complex quotient from the product with the conjugate and the squared modulus of the divisor. -/
noncomputable def ieeeDiv (fma : Bool) (x y : ℂ) : ℂ :=
  let d := if fma then rnd (y.re * y.re + rnd (y.im * y.im)) else rnd (rnd (y.re * y.re) + rnd (y.im * y.im))
  let p := ieeeMul fma x ((starRingEnd ℂ) y)
  ⟨rnd (p.re / d), rnd (p.im / d)⟩

/-- Binary64 arithmetic with the tabulated literals. The exponent is unbounded above (`Model/Float.lean`). -/
noncomputable def ieeeA (fma : Bool) : Arith ℝ ℂ where
  lit x := rnd x
  neg x := -x
  add x y := rnd (x + y)
  mul x y := rnd (x * y)
  div x y := rnd (x / y)
  sqrt x := rnd (Real.sqrt x)
  max x y := max x y
  le x y := @decide (x ≤ y) (Classical.propDecidable _)
  gt x y := @decide (x > y) (Classical.propDecidable _)
  roundTo := exactRoundTo
  cx a b := ⟨a, b⟩
  re z := z.re
  cadd x y := ⟨rnd (x.re + y.re), rnd (x.im + y.im)⟩
  csub x y := ⟨rnd (x.re - y.re), rnd (x.im - y.im)⟩
  cmul := ieeeMul fma
  cdiv := ieeeDiv fma
  cneg x := -x
  conj x := (starRingEnd ℂ) x
  scale r z := ⟨rnd (r * z.re), rnd (r * z.im)⟩
  tab k := ⟨rnd ((rootLit k).1 : ℝ), rnd ((rootLit k).2 : ℝ)⟩

/-- The coefficients fit the secret key format: |f|, |g| ≤ 31 or 15 and |F|, |G| ≤ 127. -/
def FitsFormat (n : ℕ) (f g F G : Mem Int) : Prop :=
  ∀ i, i < 2 ^ n → |f i| ≤ (if n = 9 then 31 else 15) ∧ |g i| ≤ (if n = 9 then 31 else 15) ∧
    |F i| ≤ 127 ∧ |G i| ≤ 127

end Falcon
