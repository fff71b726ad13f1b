import Verif.SamplingSpec
import Verif.Model.Ntru

/-! # Specification vocabulary: the ideal distribution of the polynomials f and g -/

namespace Falcon

/-- The polynomial whose i-th coefficient is the sum of the i-th block of 4096/N numbers on a tape. -/
def sumPoly (n : ℕ) (v : ℕ → ℤ) : Fin (2 ^ n) → ℤ :=
  fun i => ∑ j ∈ Finset.range (4096 / 2 ^ n), v (4096 / 2 ^ n * i + j)

open Classical in
/-- The probability that (f, g) has property `E` when every coefficient is the sum of 4096/N independent discrete Gaussians over the integers
with centre 0 and parameter `sigma` (Falcon specification, algorithm 5, lines 2-5). -/
noncomputable def pairPr (n : ℕ) (sigma : ℝ) (E : PairZ n → Prop) : ℝ :=
  ∑' v : Fin 8192 → ℤ, if E (sumPoly n (tapeOf v), sumPoly n (fun i => tapeOf v (4096 + i))) then
    ∏ i, gaussW 0 sigma (v i) / ∑' j : ℤ, gaussW 0 sigma j else 0

/-- The parameter of the Gaussians whose sums are the coefficients of f and g, as a double. -/
noncomputable def fgSigma : ℝ := rnd 1.43300980528773

/-- Rejection sampling with at most `R` rounds, each round being repeated with probability `again` and ending in the event with probability `hit`. -/
noncomputable def retryPr (R : ℕ) (again hit : ℝ) : ℝ := ∑ i ∈ Finset.range R, again ^ i * hit

/-- The tests of `ntru_gen` (lines 521-543) send it back to drawing (f, g) again: f is not invertible, the Gram-Schmidt norm is too big, or the
solver reports failure. -/
def KeyAgain (quot : RedQuot) (gs : Mem Int → Mem Int → Bool) (fuel n : ℕ) (s : PairZ n) : Prop :=
  isPolyInvertible n (tapeOf s.1) = false ∨ gs (tapeOf s.1) (tapeOf s.2) = true ∨
    ntruSolve quot fuel n (tapeOf s.1) (tapeOf s.2) = some (.ok none)

/-- (f, g) passes the tests of `ntru_gen` and the solver reports a solution. -/
def KeyDone (quot : RedQuot) (gs : Mem Int → Mem Int → Bool) (fuel n : ℕ) (s : PairZ n) : Prop :=
  isPolyInvertible n (tapeOf s.1) = true ∧ gs (tapeOf s.1) (tapeOf s.2) = false ∧
    ∃ FG, ntruSolve quot fuel n (tapeOf s.1) (tapeOf s.2) = some (.ok (some FG))

end Falcon
