import Verif.LdlSpec

/-!
# The calls of the integer sampler

The record of what fast Fourier sampling asks of the integer sampler and what it gets, for a sampler with an
arbitrary state.
-/

namespace Falcon

/-- A call of the integer sampler: centre, standard deviation, result. -/
structure Call where
  mu : ℝ
  sigma : ℝ
  z : ℤ

/-- `l` are successive calls of the sampler `leaf` that start in state `s` and end in state `s'`. -/
inductive Calls {S : Type} (leaf : LeafSampler ℝ S) : S → List Call → S → Prop
  | nil (s : S) : Calls leaf s [] s
  | cons {s s' s'' : S} {c : Call} {l : List Call} (h : leaf c.mu c.sigma s = some (.ok (c.z, s')))
      (ht : Calls leaf s' l s'') : Calls leaf s (c :: l) s''

/-- The sum of ((z - μ) / σ)^2 over the calls. -/
noncomputable def spread (l : List Call) : ℝ := (l.map fun c => (((c.z : ℝ) - c.mu) / c.sigma) ^ 2).sum

/-- The product of the standard deviations. -/
noncomputable def widths (l : List Call) : ℝ := (l.map Call.sigma).prod

/-- The transform of a polynomial with real coefficients: conjugate points have conjugate values. -/
def ConjSym (k : ℕ) (a : Mem ℂ) : Prop := ∀ i, i < 2 ^ k → a (2 ^ k - 1 - i) = (starRingEnd ℂ) (a i)

/-- A sampler that keeps a record of the calls. -/
def logged {S : Type} (leaf : LeafSampler ℝ S) : LeafSampler ℝ (S × List Call) := fun mu sigma s =>
  bindO (leaf mu sigma s.1) fun r => some (.ok (r.1, (r.2, s.2 ++ [⟨mu, sigma, r.1⟩])))

mutual
/-- Which call of the sampler determines coefficient `i` of the first output. -/
def callIdx0 : ℕ → ℕ → ℕ
  | 0, _ => 0
  | k + 1, i => 2 ^ (k + 1) + if i % 2 = 0 then callIdx0 k (i / 2) else callIdx1 k (i / 2)
/-- The same for the second output. -/
def callIdx1 : ℕ → ℕ → ℕ
  | 0, _ => 1
  | k + 1, i => if i % 2 = 0 then callIdx0 k (i / 2) else callIdx1 k (i / 2)
end

/-- The integers drawn, arranged as coefficients of the first output for size 2^k. -/
def drawn0 (k : ℕ) (l : List Call) : Mem Int := fun i => (l.map Call.z).getD (callIdx0 k i) 0

/-- The same for the second output. -/
def drawn1 (k : ℕ) (l : List Call) : Mem Int := fun i => (l.map Call.z).getD (callIdx1 k i) 0

end Falcon
