import Verif.Proofs.ReduceBound

/-!
# When the computed quotient rounds to zero, so does the exact quotient up to 1/100
-/

namespace Falcon

open Finset Polynomial

/-- The inequalities of `reduced_near`, solved. -/
theorem near_num {s N K E Z hF hG eF eG δ : ℝ} (hs : 22 ≤ s) (hs2 : s ≤ 32) (hN : s * s = N)
    (hδ : δ = 1 / 2 ^ 29)
    (eFl : eF ≤ kapD * (hF + s)) (eGl : eG ≤ kapD * (hG + s))
    (El : E ≤ 2 * eF + 2 * eG + 8 * δ * hF + 8 * δ * hG + s * (1 / 2 ^ 90))
    (Zl : Z ≤ (1 + 2 * kapD) * E + 2 * kapD * (K + 1)) (Kl : K ≤ Z + N * (1 / 2))
    (Fl : hF ≤ 128 * K + s * 12289) (Gl : hG ≤ 128 * K + s * 12289) (hF0 : 0 ≤ hF) (hG0 : 0 ≤ hG)
    (hK0 : 0 ≤ K) : Z ≤ 22 * (1 / 100) := by
  have hN2 : N ≤ 1024 := by nlinarith
  obtain ⟨T, hT⟩ : ∃ T, T = hF + hG := ⟨_, rfl⟩
  have hE : E ≤ 1 / 2 ^ 25 * T + 1 / 2 ^ 20 := by
    unfold kapD at *
    subst hδ hT
    clear Zl Kl Fl Gl hN
    norm_num at *
    linarith
  have hT0 : 0 ≤ T := by linarith
  have hK : K ≤ 101 / 100 * (1 / 2 ^ 25 * T) + 514 := by
    unfold kapD at *
    clear Fl Gl hN eFl eGl El hT hδ hF0 hG0
    norm_num at *
    linarith
  have hT1 : T ≤ 2 ^ 20 := by
    clear Zl Kl hN eFl eGl El hE hδ hF0 hG0
    norm_num at *
    linarith
  unfold kapD at *
  clear Kl Fl Gl hN eFl eGl El hT hδ hF0 hG0
  norm_num at *
  linarith

section
variable {A : Arith ℝ ℂ} (hA : Accurate A)
include hA

set_option maxHeartbeats 1000000 in
/-- If the computed quotient of a solution (F, G) by (f, g) rounds to zero, the exact quotient is at most 1/2 + 1/100;
for (f, g) of moderate size at every point. -/
theorem reduced_near {n : ℕ} (hn : ValidLog n) {f g F G kr : Mem Int}
    (hf : ∀ i, i < 2 ^ n → |f i| ≤ 19 * (4096 / 2 ^ n)) (hg : ∀ i, i < 2 ^ n → |g i| ≤ 19 * (4096 / 2 ^ n))
    (hF : ∀ i, i < 2 ^ n → |F i| ≤ 2 ^ 53) (hG : ∀ i, i < 2 ^ n → |G i| ≤ 2 ^ 53)
    (hD : ∀ j, j < 2 ^ n → 1 ≤ gramAt n f g j) (hDu : ∀ j, j < 2 ^ n → gramAt n f g j ≤ 2 ^ 14)
    (hq : redQuot A n f g F G = .ok kr) (hkr : ∀ i, i < 2 ^ n → kr i = 0)
    (hdet : ∀ j, j < 2 ^ n → dft n (zC f) j * dft n (zC G) j - dft n (zC g) j * dft n (zC F) j = 12289)
    {κ : Mem ℝ} (hκ : IsQuo n f g F G κ) :
    ∀ i, i < 2 ^ n → |κ i| ≤ 1 / 2 + 1 / 100 := by
  have hn10 : n ≤ 10 := by rcases hn with rfl | rfl <;> norm_num
  obtain ⟨hs1, hs2⟩ := sqrt2_bounds hn
  have hsN := sqrt2_sq n
  have hsq := sqrt_pow2 n
  -- the transforms of f and g
  have hm : ((19 * (4096 / 2 ^ n) : ℤ) : ℝ) * 2 ^ n + 200 ≤ bK := by
    unfold bK
    rcases hn with rfl | rfl <;> norm_num
  have hk0 : (0 : ℤ) ≤ 19 * (4096 / 2 ^ n) := by positivity
  have small : ∀ a : Mem Int, (∀ i, i < 2 ^ n → |a i| ≤ 19 * (4096 / 2 ^ n)) → ∀ i, i < 2 ^ n → |a i| ≤ 2 ^ 53 := by
    intro a ha i hi
    refine (ha i hi).trans ?_
    rcases hn with rfl | rfl <;> norm_num
  have bas : ∀ a : Mem Int, (∀ i, i < 2 ^ n → |a i| ≤ 19 * (4096 / 2 ^ n)) →
      ∀ j, j < 2 ^ n → ‖fft A n (toCx A n a) j - dft n (zC a) j‖ ≤ delD ∧ ‖dft n (zC a) j‖ ≤ bK := by
    intro a ha j hj
    have h := basis_near hA hn a (toCx A n a) 1 (Or.inl rfl) ha
      (fun i hi => by rw [one_mul]; exact toCx_at hA (small a ha) i hi) hm (le_of_eq rfl) hk0 j hj
    simp only [one_mul] at h
    refine ⟨h.2.2.trans (le_of_eq ?_), h.2.1⟩
    unfold kapD bK delD; norm_num
  obtain ⟨Q, hQ, hr⟩ := redQuot_at A hq
  set k : Mem ℂ := fun i => (κ i : ℂ) with hk
  -- pointwise error of the quotient
  have hroot : ∀ j, j < 2 ^ n → ∃ r : ℝ, 1 ≤ r ∧ r ^ 2 = gramAt n f g j ∧ ‖dft n (zC f) j‖ ≤ r ∧ ‖dft n (zC g) j‖ ≤ r ∧ r ≤ 128 := by
    intro j hj
    have h1 := hD j hj
    have e : gramAt n f g j = ‖dft n (zC f) j‖ ^ 2 + ‖dft n (zC g) j‖ ^ 2 := by
      unfold gramAt; rw [Complex.normSq_eq_norm_sq, Complex.normSq_eq_norm_sq]
    refine ⟨Real.sqrt (gramAt n f g j), Real.one_le_sqrt.mpr h1, Real.sq_sqrt (by linarith), ?_, ?_, ?_⟩
    · apply Real.le_sqrt_of_sq_le; rw [e]; nlinarith [sq_nonneg ‖dft n (zC g) j‖]
    · apply Real.le_sqrt_of_sq_le; rw [e]; nlinarith [sq_nonneg ‖dft n (zC f) j‖]
    · rw [Real.sqrt_le_left (by norm_num)]; exact (hDu j hj).trans (by norm_num)
  have hquo : ∀ j, j < 2 ^ n → dft n k j = (dft n (zC F) j * (starRingEnd ℂ) (dft n (zC f) j)
      + dft n (zC G) j * (starRingEnd ℂ) (dft n (zC g) j)) / ((gramAt n f g j : ℝ) : ℂ) := by
    intro j hj
    rw [← isQuo_dft hn10 hκ j hj, mul_div_cancel_right₀]
    intro h
    have : gramAt n f g j = 0 := by exact_mod_cast h
    linarith [hD j hj]
  have hdr : ∀ {r : ℝ}, 1 ≤ r → delD ≤ delD * r := fun h => le_mul_of_one_le_right (by unfold delD; norm_num) h
  have hpt : ∀ j, j < 2 ^ n → ‖Q j - dft n k j‖ ≤ 2 * ‖fft A n (toCx A n F) j - dft n (zC F) j‖
      + 2 * ‖fft A n (toCx A n G) j - dft n (zC G) j‖ + 8 * delD * ‖dft n (zC F) j‖ + 8 * delD * ‖dft n (zC G) j‖
      + 1 / 2 ^ 90 := by
    intro j hj
    obtain ⟨r, r1, r2, r3, r4, -⟩ := hroot j hj
    rw [hQ j hj, hquo j hj, ← r2]
    refine quo_near hA r1 ?_ r3 r4 ((bas f hf j hj).1.trans (hdr r1)) ((bas g hg j hj).1.trans (hdr r1))
    rw [r2]
    exact gram_mul f g j
  have hd0 : 0 ≤ 8 * delD := by unfold delD; norm_num
  have El := nC_maj4 (by norm_num) (by norm_num) hd0 hd0 (by norm_num) hpt
  have eFl := fft_near hA hn10 (zC F) (toCx A n F) (toCx_at hA hF)
  have eGl := fft_near hA hn10 (zC G) (toCx A n G) (toCx_at hA hG)
  have Zl := ifft_near hA hn10 Q k le_rfl
  -- the rounded coefficients vanish
  have hround : ∀ i, i < 2 ^ n → ‖k i‖ ≤ 1 * ‖ifft A n Q i - k i‖ + 1 / 2 := by
    intro i hi
    have h := hr i hi
    rw [hA.roundTo, hkr i hi, hA.re] at h
    have h0 : stdRound (ifft A n Q i).re = 0 := by
      unfold exactRoundTo at h
      split at h
      · exact Except.ok.inj h
      · cases h
    have h1 := stdRound_zero h0
    have h2 := Complex.abs_re_le_norm (ifft A n Q i - k i)
    rw [Complex.sub_re] at h2
    have h3 : ‖k i‖ = |(k i).re| := by
      rw [hk]; simp
    rw [h3, one_mul]
    have h4 := abs_sub_abs_le_abs_sub (k i).re (ifft A n Q i).re
    rw [abs_sub_comm] at h4
    linarith
  have Kl := nC_maj1 (by norm_num) (by norm_num) hround
  have hFpt : ∀ j, j < 2 ^ n → ‖dft n (zC F) j‖ ≤ 128 * ‖dft n k j‖ + 12289 ∧ ‖dft n (zC G) j‖ ≤ 128 * ‖dft n k j‖ + 12289 := by
    intro j hj
    obtain ⟨r, r1, r2, r3, r4, r5⟩ := hroot j hj
    have hD0 : ((gramAt n f g j : ℝ) : ℂ) ≠ 0 := by
      intro h
      have : gramAt n f g j = 0 := by exact_mod_cast h
      linarith [hD j hj]
    have hDn : ‖((gramAt n f g j : ℝ) : ℂ)‖ = r ^ 2 := by
      rw [Complex.norm_real, ← r2, Real.norm_of_nonneg (by positivity)]
    have key : dft n (zC F) j = dft n k j * dft n (zC f) j - 12289
        * (starRingEnd ℂ) (dft n (zC g) j) / ((gramAt n f g j : ℝ) : ℂ) := by
      rw [← hdet j hj, hquo j hj, div_mul_eq_mul_div, ← sub_div, eq_div_iff hD0, ← gram_mul f g j]
      ring
    have key' : dft n (zC G) j = dft n k j * dft n (zC g) j + 12289
        * (starRingEnd ℂ) (dft n (zC f) j) / ((gramAt n f g j : ℝ) : ℂ) := by
      rw [← hdet j hj, hquo j hj, div_mul_eq_mul_div, ← add_div, eq_div_iff hD0, ← gram_mul f g j]
      ring
    have hr2 : 0 < r ^ 2 := by positivity
    have second : ∀ x : ℂ, ‖x‖ ≤ r → ‖12289 * (starRingEnd ℂ) x / ((gramAt n f g j : ℝ) : ℂ)‖ ≤ 12289 := by
      intro x hx
      rw [norm_div, norm_mul, RCLike.norm_conj, hDn, div_le_iff₀ hr2]
      have : ‖(12289 : ℂ)‖ = 12289 := by simp
      rw [this]
      nlinarith
    have first : ∀ x : ℂ, ‖x‖ ≤ r → ‖dft n k j * x‖ ≤ 128 * ‖dft n k j‖ := by
      intro x hx
      rw [norm_mul, mul_comm]
      exact mul_le_mul_of_nonneg_right (hx.trans r5) (norm_nonneg _)
    constructor
    · calc ‖dft n (zC F) j‖ = _ := congrArg norm key
        _ ≤ _ := norm_sub_le _ _
        _ ≤ _ := add_le_add (first _ r3) (second _ r4)
    · calc ‖dft n (zC G) j‖ = _ := congrArg norm key'
        _ ≤ _ := norm_add_le _ _
        _ ≤ _ := add_le_add (first _ r4) (second _ r3)
  have Fl := nC_maj1 (by norm_num) (by norm_num) fun j hj => (hFpt j hj).1
  have Gl := nC_maj1 (by norm_num) (by norm_num) fun j hj => (hFpt j hj).2
  have dF := nC_dft hn10 (zC F)
  have dG := nC_dft hn10 (zC G)
  have dk := nC_dft hn10 k
  have final : nC (2 ^ n) (fun i => ifft A n Q i - k i) * Real.sqrt 2 ^ n ≤ 22 * (1 / 100) := by
    rw [hsq] at El Kl Fl Gl
    rw [← dk] at Zl
    have eFl' : nC (2 ^ n) (fun i => fft A n (toCx A n F) i - dft n (zC F) i)
        ≤ kapD * (nC (2 ^ n) (dft n (zC F)) + Real.sqrt 2 ^ n) := by
      refine eFl.trans (le_of_eq ?_); rw [dF]; ring
    have eGl' : nC (2 ^ n) (fun i => fft A n (toCx A n G) i - dft n (zC G) i)
        ≤ kapD * (nC (2 ^ n) (dft n (zC G)) + Real.sqrt 2 ^ n) := by
      refine eGl.trans (le_of_eq ?_); rw [dG]; ring
    have Kl' : nC (2 ^ n) (dft n k) ≤ nC (2 ^ n) (fun i => ifft A n Q i - k i) * Real.sqrt 2 ^ n + 2 ^ n * (1 / 2) := by
      rw [dk]
      have := mul_le_mul_of_nonneg_left Kl (show 0 ≤ Real.sqrt 2 ^ n by linarith)
      rw [← hsN]
      linarith
    exact near_num hs1 hs2 hsN rfl eFl' eGl' El Zl Kl' Fl Gl (nC_nonneg _ _) (nC_nonneg _ _) (nC_nonneg _ _)
  intro i hi
  have h1 := hround i hi
  have h2 := nC_ge (a := fun i => ifft A n Q i - k i) hi
  have h3 : ‖k i‖ = |κ i| := by rw [hk]; simp
  have h4 := nC_nonneg (2 ^ n) (fun i => ifft A n Q i - k i)
  rw [← h3]
  nlinarith

end

end Falcon
