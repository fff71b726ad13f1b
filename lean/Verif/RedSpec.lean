import Verif.FftSpec

/-!
# Specification vocabulary for the reduction of the NTRU solver
-/

namespace Falcon

open Polynomial

/-- The adjoint `a(1/x)` modulo `x^N + 1` of an integer polynomial. -/
def adjZ (n : ℕ) (a : Mem Int) : Mem Int := fun i => if i = 0 then a 0 else -a (2 ^ n - i)

/-- The real polynomial with the given coefficients. -/
noncomputable def polyR (n : ℕ) (a : Mem Int) : ℝ[X] := toPoly (2 ^ n) fun i => (a i : ℝ)

/-- `κ = (F f* + G g*) / (f f* + g g*)` modulo `x^N + 1`. -/
def IsQuo (n : ℕ) (f g F G : Mem Int) (κ : Mem ℝ) : Prop :=
  ModEqXN (2 ^ n) (toPoly (2 ^ n) κ * (polyR n f * polyR n (adjZ n f) + polyR n g * polyR n (adjZ n g)))
    (polyR n F * polyR n (adjZ n f) + polyR n G * polyR n (adjZ n g))

/-- `|f^|^2 + |g^|^2` at one of the points. -/
noncomputable def gramAt (n : ℕ) (f g : Mem Int) (j : ℕ) : ℝ :=
  Complex.normSq (dft n (zC f) j) + Complex.normSq (dft n (zC g) j)

/-- `v` is the norm of the polynomial `a`: the product of its values at the N roots of x^N + 1. -/
def IsNorm (n : ℕ) (a : Mem Int) (v : ℤ) : Prop := (v : ℂ) = ∏ j ∈ Finset.range (2 ^ n), dft n (zC a) j

end Falcon
