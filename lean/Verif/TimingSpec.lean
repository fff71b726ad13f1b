import Verif.SamplingSpec

/-! # Specification vocabulary: the number of iterations of the integer sampler in the calls of one signing round -/

namespace Falcon

/-- The number of iterations that `samplerz` makes from a position of the random stream: the smallest number after which it is
finished. -/
noncomputable def szIterations (mu sigma sigmin : ℝ) (stream : ℕ → UInt8) (pos : ℕ) : ℕ :=
  sInf {m | samplerz false mu sigma sigmin stream m pos ≠ none}

/-- The integer sampler of the code, with the numbers of iterations of all calls written to a list. -/
noncomputable def timedLeaf (n fuel : ℕ) (stream : ℕ → UInt8) : LeafSampler ℝ (ℕ × List ℕ) := fun mu sigma st =>
  bindO (codeLeaf false n fuel stream mu sigma st.1) fun r =>
    some (.ok (r.1, r.2, st.2 ++ [szIterations mu sigma (sigmaMin n) stream st.1]))

/-- The probability that an iteration of an ideal sampler ends the call. It depends on the parameter set only. -/
noncomputable def iterAcc (n : ℕ) : ℝ :=
  sigmaMin n * √(2 * Real.pi) / (2 * ∑' z : ℕ, Real.exp (-((z : ℝ) ^ 2 / (2 * sigmaMax ^ 2))))

/-- The probability that `d` calls need the numbers of iterations c 0 + 1, ..., c (d-1) + 1, when the numbers are independent and geometric. -/
noncomputable def geoPr (n : ℕ) {d m : ℕ} (c : Fin d → Fin m) : ℝ := ∏ i, iterAcc n * (1 - iterAcc n) ^ (c i : ℕ)

/-- The list of these numbers. -/
def countsOf {d m : ℕ} (c : Fin d → Fin m) : List ℕ := List.ofFn fun i => (c i : ℕ) + 1

/-- Ideal sampling together with numbers of iterations, at most `m` each, that are independent of each other and of the result. -/
noncomputable def timedPr {C : Type} (A : Arith ℝ C) (n m : ℕ) (t0 t1 T z0 z1 : Mem C) (E : List ℕ → Mem C → Mem C → Prop) : ℝ :=
  ∑ c : Fin (2 ^ (n + 1)) → Fin m, geoPr n c * idealPr A n t0 t1 T z0 z1 (E (countsOf c))

/-- What an observer of one round sees in the simulation: independent geometric iteration counts, at most `m` each, and a pair from the
spherical Gaussian on the preimages of `c`. No secret key enters. -/
noncomputable def simPr (n : ℕ) (sigma : ℝ) (m : ℕ) (h c : Mem Ff) (E : List ℕ → PairZ n → Prop) : ℝ :=
  ∑ k : Fin (2 ^ (n + 1)) → Fin m, geoPr n k * cosetPr n sigma h c (E (countsOf k))

/-- The probability that one round of signing in exact arithmetic, with at most `m` attempts per integer, has iteration counts and a pair with property `E`. -/
noncomputable def roundPr (n m : ℕ) (f g F G : Mem Int) (B0 T0 z0 z1 : Mem ℂ) (c : Mem Ff) (E : List ℕ → PairZ n → Prop) : ℝ :=
  let B := computeMatrixB exactA n f g F G B0
  let t := signTarget exactA n B c
  freq (18 * m * 2 ^ (n + 1)) (fun st => ∃ r, ffSampling exactA (timedLeaf n m st) n 0 t.1 t.2 (computeFalconTree exactA n B T0) z0 z1 (0, []) =
    some (.ok r) ∧ ∃ s : PairZ n, IsDftOf n (signVec exactA n B t.1 t.2 r.1 r.2.1).1 (tapeOf s.1) ∧
      IsDftOf n (signVec exactA n B t.1 t.2 r.1 r.2.1).2 (tapeOf s.2) ∧ E r.2.2.2 s)

/-- What an observer of the whole signing loop sees in the simulation. In each round there are 2N independent geometric iteration counts and a pair
from the spherical Gaussian on the preimages of `c`; the loop ends with the first accepted pair. The probability that this happens within `R` rounds
and that the list of all counts and the accepted pair have property `E`; `l` are the counts of earlier rounds. -/
noncomputable def simSignPr (n : ℕ) (sigma : ℝ) (m : ℕ) (h c : Mem Ff) (E : List ℕ → PairZ n → Prop) : ℕ → List ℕ → ℝ
  | 0, _ => 0
  | R + 1, l => ∑ k : Fin (2 ^ (n + 1)) → Fin m, geoPr n k *
      (cosetPr n sigma h c (fun s => Accept n s ∧ E (l ++ countsOf k) s)
        + cosetPr n sigma h c (fun s => ¬ Accept n s) * simSignPr n sigma m h c E R (l ++ countsOf k))

end Falcon
