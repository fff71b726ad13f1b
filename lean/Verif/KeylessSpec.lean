import Verif.TimingSpec
import Verif.SyndromeSpec

/-! # Specification vocabulary: what an observer of signing sees, produced without any secret key -/

namespace Falcon

/-- Draw 2N independent geometric iteration counts, at most `m` each, and a pair from the spherical Gaussian on all pairs of integer polynomials, and
compute the point s1 + s2 h of the pair: the probability that point, counts and pair have property `E`. -/
noncomputable def keylessPr (n : ℕ) (sigma : ℝ) (m : ℕ) (h : Mem Ff) (E : Point n → List ℕ → PairZ n → Prop) : ℝ :=
  ∑ k : Fin (2 ^ (n + 1)) → Fin m, geoPr n k * sphericalPr n sigma (fun s => ∃ v, InCoset n h (pointOf v) s ∧ E v (countsOf k) s)

end Falcon
