import Verif.Proofs.SignExact
import Verif.Proofs.NtruAlg
import Verif.RedSpec

/-!
# The tower of norms of the NTRU solver
-/

namespace Falcon

open Finset Polynomial

/-- The integer at the bottom of the recursion of `ntru_solve`. -/
def normZ : ℕ → Mem ℤ → ℤ
  | 0, a => a 0
  | k + 1, a => normZ k (fieldNorm k a)

theorem prod_pair_index {M : Type*} [CommMonoid M] (F : ℕ → M) (m : ℕ) :
    ∏ i ∈ range (2 * m), F i = ∏ j ∈ range m, F (2 * j) * F (2 * j + 1) := by
  induction m with
  | zero => simp
  | succ m ih =>
    rw [show 2 * (m + 1) = 2 * m + 1 + 1 by ring, prod_range_succ, prod_range_succ, ih, prod_range_succ (fun j => F (2 * j) * F (2 * j + 1)) m,
      mul_assoc]

theorem dft_fieldNorm {k : ℕ} (hk : k + 1 ≤ 10) (a : Mem ℤ) (j : ℕ) (hj : j < 2 ^ k) :
    dft k (zC (fieldNorm k a)) j = dft (k + 1) (zC a) (2 * j) * dft (k + 1) (zC a) (2 * j + 1) := by
  have hj2 : 2 * j < 2 ^ (k + 1) := by rw [pow_succ]; omega
  have h := evC_modEq hk hj2 (norm_lift k a)
  rw [evC_mul] at h
  have h1 : evC (k + 1) (2 * j) ((toPoly (2 ^ k) (fieldNorm k a)).comp (X ^ 2)) = dft k (zC (fieldNorm k a)) j := by
    rw [← evC_poly]
    unfold evC polyZ
    rw [Polynomial.map_comp, eval_comp]
    simp only [Polynomial.map_pow, map_X, eval_pow, eval_X]
    rw [fftPoint_even hk j hj, cT_sq hk j hj]
  have h2 : evC (k + 1) (2 * j) ((toPoly (2 ^ (k + 1)) a).comp (-X)) = dft (k + 1) (zC a) (2 * j + 1) := by
    rw [← evC_poly]
    unfold evC polyZ
    rw [Polynomial.map_comp, eval_comp]
    simp only [Polynomial.map_neg, map_X, eval_neg, eval_X]
    rw [fftPoint_even hk j hj, fftPoint_odd hk j hj]
  rw [h1, h2, show toPoly (2 ^ (k + 1)) a = polyZ (2 ^ (k + 1)) a from rfl, evC_poly] at h
  exact h

theorem isNorm_normZ : ∀ {k : ℕ}, k ≤ 10 → ∀ a : Mem ℤ, IsNorm k a (normZ k a) := by
  intro k
  induction k with
  | zero =>
    intro _ a
    unfold IsNorm normZ dft zC
    simp
  | succ k ih =>
    intro hk a
    have h := ih (by omega) (fieldNorm k a)
    unfold IsNorm at *
    rw [normZ, h, pow_succ, mul_comm, prod_pair_index]
    exact prod_congr rfl fun j hj => dft_fieldNorm hk a j (mem_range.mp hj)

theorem IsNorm.unique {n : ℕ} {a : Mem ℤ} {u v : ℤ} (hu : IsNorm n a u) (hv : IsNorm n a v) : u = v := by
  have : (u : ℂ) = v := hu.trans hv.symm
  exact_mod_cast this

theorem normZ_nonneg : ∀ (k : ℕ) (a : Mem ℤ), 0 ≤ normZ (k + 1) a := by
  intro k
  induction k with
  | zero =>
    intro a
    have : normZ 1 a = a 0 * a 0 + a 1 * a 1 := by
      simp [normZ, fieldNorm, karamul, karatsuba, loop, upd, zerosZ]
    rw [this]
    nlinarith [sq_nonneg (a 0), sq_nonneg (a 1)]
  | succ k ih => intro a; rw [normZ]; exact ih _

/-- The norm of a polynomial in x^2. -/
theorem isNorm_even {k : ℕ} (hk : k + 1 ≤ 10) {a b : Mem ℤ} {v : ℤ} (h0 : ∀ i, i < 2 ^ k → a (2 * i) = b i)
    (h1 : ∀ i, i < 2 ^ k → a (2 * i + 1) = 0) (hb : IsNorm k b v) : IsNorm (k + 1) a (v ^ 2) := by
  have e0 : ∀ j, dft k (fun i => zC a (2 * i)) j = dft k (zC b) j := fun j =>
    sum_congr rfl fun i hi => by simp only [zC]; rw [h0 i (mem_range.mp hi)]
  have e1 : ∀ j, dft k (fun i => zC a (2 * i + 1)) j = 0 := fun j =>
    sum_eq_zero fun i hi => by simp only [zC]; rw [h1 i (mem_range.mp hi)]; simp
  unfold IsNorm at *
  rw [show 2 ^ (k + 1) = 2 * 2 ^ k by rw [pow_succ, mul_comm], prod_pair_index]
  push_cast
  rw [hb, ← prod_pow]
  refine prod_congr rfl fun j hj => ?_
  have hj := mem_range.mp hj
  rw [dft_even hk _ j hj, dft_odd hk _ j hj, e0, e1]
  ring

/-- On natural numbers `xgcd` returns the greatest common divisor itself. -/
theorem xgcdZLoop_nat : ∀ (fuel : ℕ) (x y s s' t t' a b d : ℤ), 0 ≤ x → 0 ≤ y →
    xgcdZLoop fuel x y s s' t t' = some (a, b, d) → d = Int.gcd x y := by
  intro fuel
  induction fuel with
  | zero => intro x y s s' t t' a b d _ _ h; cases h
  | succ fuel ih =>
    intro x y s s' t t' a b d hx hy h
    rw [xgcdZLoop] at h
    by_cases h0 : y = 0
    · subst h0
      rw [if_neg (by simp)] at h
      cases h
      rw [Int.gcd_zero_right]
      omega
    · rw [if_pos h0] at h
      simp only at h
      have e : x - x.tdiv y * y = x % y := by
        rw [Int.tdiv_eq_ediv_of_nonneg hx, Int.emod_def]; ring
      rw [e] at h
      rw [ih _ _ _ _ _ _ _ _ _ hy (Int.emod_nonneg _ h0) h]
      congr 1
      rw [Int.gcd_comm, Int.gcd_emod]

theorem ntruSolve_base (quot : RedQuot) (fuel : ℕ) : ∀ (k : ℕ) (f g : Mem ℤ) (r : Option (Mem ℤ × Mem ℤ)),
    ntruSolve quot fuel k f g = some (.ok r) →
    ∃ a b d, xgcdZ fuel (normZ k f) (normZ k g) = some (a, b, d) ∧ (r = none ↔ d ≠ 1) := by
  intro k
  induction k with
  | zero =>
    intro f g r h
    rw [ntruSolve] at h
    cases hx : xgcdZ fuel (f 0) (g 0) with
    | none => rw [hx] at h; cases h
    | some o =>
      obtain ⟨a, b, d⟩ := o
      rw [hx] at h
      simp only at h
      refine ⟨a, b, d, hx, ?_⟩
      by_cases hd : d = 1
      · rw [if_neg (by simpa using hd)] at h
        cases h
        simp [hd]
      · rw [if_pos hd] at h
        cases h
        simp [hd]
  | succ k ih =>
    intro f g r h
    rw [ntruSolve] at h
    simp only at h
    obtain ⟨ret, hret, h⟩ := bindO_ok h
    obtain ⟨a, b, d, h1, h2⟩ := ih _ _ _ hret
    refine ⟨a, b, d, h1, ?_⟩
    cases ret with
    | none => cases h; simpa using h2
    | some FG =>
      simp only at h
      obtain ⟨FG', _, h⟩ := bindO_ok h
      cases h
      simpa using h2

/-- Solver failure and the norms. -/
theorem ntruSolve_none_iff {quot : RedQuot} {fuel k : ℕ} (hk : k + 1 ≤ 10) {f g : Mem ℤ} {r : Option (Mem ℤ × Mem ℤ)}
    (h : ntruSolve quot fuel (k + 1) f g = some (.ok r)) {u v : ℤ} (hu : IsNorm (k + 1) f u) (hv : IsNorm (k + 1) g v) :
    r = none ↔ Int.gcd u v ≠ 1 := by
  obtain ⟨a, b, d, h1, h2⟩ := ntruSolve_base quot fuel (k + 1) f g r h
  have := xgcdZLoop_nat fuel _ _ _ _ _ _ _ _ _ (normZ_nonneg k f) (normZ_nonneg k g) h1
  rw [h2, this, hu.unique (isNorm_normZ hk f), hv.unique (isNorm_normZ hk g)]
  norm_cast

end Falcon
