import Verif.TreeSpec
import Verif.FftSpec

/-!
# Specification of the LDL* tree over the complex numbers

All polynomials are given by their values at the points of the Fourier transform. The predicates do not refer
to the code nor to a way of computing the decomposition.
-/

namespace Falcon

open Finset

/-- The complex conjugates of the values. -/
noncomputable def starM (a : Mem ℂ) : Mem ℂ := fun i => (starRingEnd ℂ) (a i)

/-- [g00, g01; g10, g11] = L D L* with L = [1, 0; l, 1] and D = diag(d0, d1), d0 and d1 real. -/
def IsLdl (N : ℕ) (g00 g01 g10 g11 l d0 d1 : Mem ℂ) : Prop := ∀ i, i < N →
  (d0 i).im = 0 ∧ (d1 i).im = 0 ∧
  g00 i = d0 i ∧ g01 i = d0 i * (starRingEnd ℂ) (l i) ∧ g10 i = l i * d0 i ∧
  g11 i = l i * d0 i * (starRingEnd ℂ) (l i) + d1 i

/-- d(x) = e0(x^2) + x e1(x^2) at the 2^(k+1) points. -/
def IsSplit (k : ℕ) (d e0 e1 : Mem ℂ) : Prop := ∀ i, i < 2 ^ k →
  d (2 * i) = e0 i + fftPoint (k + 1) (2 * i) * e1 i ∧
  d (2 * i + 1) = e0 i + fftPoint (k + 1) (2 * i + 1) * e1 i

/-- The tree below a diagonal entry `d` of size 2^k: for k = 1 the leaf `d`; else the LDL* decomposition of the
matrix [d0, d1; d1*, d0] of the halves of `d`, and the trees of its diagonal entries. -/
inductive DiagTree : ℕ → Mem ℂ → FTree ℂ → Prop
  | leaf (d : Mem ℂ) : DiagTree 1 d (.leaf (d 0))
  | node {k : ℕ} {d e0 e1 l d0 d1 : Mem ℂ} {L R : FTree ℂ} (hk : 1 ≤ k) (hs : IsSplit k d e0 e1)
      (hl : IsLdl (2 ^ k) e0 e1 (starM e1) e0 l d0 d1) (hL : DiagTree k d0 L) (hR : DiagTree k d1 R) :
      DiagTree (k + 1) d (.node l L R)

/-- The LDL* tree (Algorithm 9) of a 2×2 matrix with entries of size 2^k. -/
def FfLdl (k : ℕ) (g00 g01 g10 g11 : Mem ℂ) (t : FTree ℂ) : Prop :=
  ∃ l d0 d1 L R, t = .node l L R ∧ IsLdl (2 ^ k) g00 g01 g10 g11 l d0 d1 ∧ DiagTree k d0 L ∧ DiagTree k d1 R

/-- The matrix [g00, g10*; g10, g11] is positive definite at every point. -/
def GramPD (k : ℕ) (g00 g10 g11 : Mem ℂ) : Prop := ∀ i, i < 2 ^ k → ∃ a b : ℝ,
  g00 i = a ∧ g11 i = b ∧ 0 < a ∧ Complex.normSq (g10 i) < a * b

open Polynomial in
/-- The NTRU equation f G - g F = q modulo x^N + 1. -/
def NtruEq (n : ℕ) (f g F G : Mem Int) : Prop :=
  ModEqXN (2 ^ n) (polyZ (2 ^ n) f * polyZ (2 ^ n) G - polyZ (2 ^ n) g * polyZ (2 ^ n) F) (12289 : ℤ[X])

end Falcon
