import Verif.SamplerSpec
import Mathlib.Analysis.SpecialFunctions.Exp
import Mathlib.Topology.Algebra.InfiniteSum.Basic

/-! # Specification vocabulary of distributions: discrete Gaussians and frequencies over byte strings -/

namespace Falcon

/-- The weight exp(-(z - mu)^2 / (2 sigma^2)) of an integer z. -/
noncomputable def gaussW (mu sigma : ℝ) (z : ℤ) : ℝ := Real.exp (-((z - mu) ^ 2 / (2 * sigma ^ 2)))

/-- Mean of `g` under the discrete Gaussian over the integers with centre `mu` and parameter `sigma`. -/
noncomputable def gaussMean (mu sigma : ℝ) (g : ℤ → ℝ) : ℝ :=
  (∑' z : ℤ, gaussW mu sigma z * g z) / ∑' z : ℤ, gaussW mu sigma z

open Classical in
/-- Probability of a set of integers under the discrete Gaussian. -/
noncomputable def gaussPr (mu sigma : ℝ) (E : Set ℤ) : ℝ :=
  gaussMean mu sigma fun z => if z ∈ E then 1 else 0

open Classical in
/-- Fraction of the byte strings of length `n` having a property. -/
noncomputable def freq (n : ℕ) (P : Mem UInt8 → Prop) : ℝ :=
  ((Finset.univ.filter fun v : Fin n → UInt8 => P (memOf v)).card : ℝ) / 256 ^ n

end Falcon
