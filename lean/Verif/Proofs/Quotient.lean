import Verif.Proofs.Reduce
import Verif.RedSpec

/-!
# The quotient of the reduction in exact arithmetic
-/

namespace Falcon

open Finset Polynomial

theorem modEq_of_evals {n : ℕ} (hn : n ≤ 10) {p r : ℂ[X]}
    (h : ∀ j, j < 2 ^ n → p.eval (fftPoint n j) = r.eval (fftPoint n j)) : ModEqXN (2 ^ n) p r := by
  have := modEq_of_dft hn (p := p - r) (c := fun _ => 0) (fun j hj => by
    rw [eval_sub, h j hj, sub_self]; unfold dft; simp)
  unfold ModEqXN at *
  have e : toPoly (2 ^ n) (fun _ => (0 : ℂ)) = 0 := by unfold toPoly; simp
  rwa [e, sub_zero] at this

/-- The quotient as a complex congruence. -/
theorem isQuo_iff {n : ℕ} (f g F G : Mem Int) (κ : Mem ℝ) :
    IsQuo n f g F G κ ↔ ModEqXN (2 ^ n)
      (toPoly (2 ^ n) (fun i => (κ i : ℂ)) * (toPoly (2 ^ n) (zC f) * toPoly (2 ^ n) (adjC n (zC f))
        + toPoly (2 ^ n) (zC g) * toPoly (2 ^ n) (adjC n (zC g))))
      (toPoly (2 ^ n) (zC F) * toPoly (2 ^ n) (adjC n (zC f)) + toPoly (2 ^ n) (zC G) * toPoly (2 ^ n) (adjC n (zC g))) := by
  have hm : ∀ a : Mem ℝ, (toPoly (2 ^ n) a).map Complex.ofRealHom = toPoly (2 ^ n) fun i => (a i : ℂ) := by
    intro a
    unfold toPoly
    rw [Polynomial.map_sum]
    exact sum_congr rfl fun i _ => by simp
  have h1 : ∀ a : Mem Int, (polyR n a).map Complex.ofRealHom = toPoly (2 ^ n) (zC a) := by
    intro a
    unfold polyR
    rw [hm]
    congr 1
  have h2 : ∀ a : Mem Int, toPoly (2 ^ n) (zC (adjZ n a)) = toPoly (2 ^ n) (adjC n (zC a)) := by
    intro a
    congr 1
    funext i
    unfold zC adjZ adjC
    split <;> simp
  have h3 : (X ^ (2 ^ n) + 1 : ℝ[X]).map Complex.ofRealHom = X ^ (2 ^ n) + 1 := by simp
  have hmon : (X ^ (2 ^ n) + 1 : ℝ[X]).Monic := monic_X_pow_add_C 1 (by positivity)
  unfold IsQuo ModEqXN
  rw [← Polynomial.map_dvd_map Complex.ofRealHom Complex.ofReal_injective hmon, h3]
  simp only [Polynomial.map_sub, Polynomial.map_mul, Polynomial.map_add, h1, h2, hm]

theorem gram_mul {n : ℕ} (f g : Mem Int) (j : ℕ) :
    dft n (zC f) j * (starRingEnd ℂ) (dft n (zC f) j) + dft n (zC g) j * (starRingEnd ℂ) (dft n (zC g) j)
      = ((gramAt n f g j : ℝ) : ℂ) := by
  unfold gramAt
  rw [Complex.mul_conj, Complex.mul_conj]
  push_cast; rfl

theorem gram_pos {n : ℕ} (hn : n ≤ 10) {f g : Mem Int} (hne : ∃ i, i < 2 ^ n ∧ (f i ≠ 0 ∨ g i ≠ 0)) (j : ℕ)
    (hj : j < 2 ^ n) : 0 < gramAt n f g j := by
  have h1 := Complex.normSq_nonneg (dft n (zC f) j)
  have h2 := Complex.normSq_nonneg (dft n (zC g) j)
  unfold gramAt
  by_contra h
  have e1 := Complex.normSq_eq_zero.mp (by linarith : Complex.normSq (dft n (zC f) j) = 0)
  have e2 := Complex.normSq_eq_zero.mp (by linarith : Complex.normSq (dft n (zC g) j) = 0)
  obtain ⟨i, hi, hfg⟩ := hne
  rcases hfg with h3 | h3
  · exact h3 (dft_ne_zero hn f j hj e1 i hi)
  · exact h3 (dft_ne_zero hn g j hj e2 i hi)

/-- The quotient at the points. -/
theorem isQuo_dft {n : ℕ} (hn : n ≤ 10) {f g F G : Mem Int} {κ : Mem ℝ} (h : IsQuo n f g F G κ) (j : ℕ)
    (hj : j < 2 ^ n) : dft n (fun i => (κ i : ℂ)) j * ((gramAt n f g j : ℝ) : ℂ)
      = dft n (zC F) j * (starRingEnd ℂ) (dft n (zC f) j) + dft n (zC G) j * (starRingEnd ℂ) (dft n (zC g) j) := by
  have h := eval_eq_of_dvd ((isQuo_iff f g F G κ).mp h) (fftPoint_pow hn j hj)
  simp only [eval_mul, eval_add, ← dft_poly, dft_adj hn _ j hj] at h
  rw [gram_mul] at h
  exact h

/-- The quotient exists and has real coefficients. -/
theorem isQuo_exists {n : ℕ} (hn : n ≤ 10) {f g : Mem Int} (hD : ∀ j, j < 2 ^ n → 0 < gramAt n f g j) (F G : Mem Int) :
    ∃ κ : Mem ℝ, IsQuo n f g F G κ := by
  set S := toPoly (2 ^ n) (zC f) * toPoly (2 ^ n) (adjC n (zC f))
        + toPoly (2 ^ n) (zC g) * toPoly (2 ^ n) (adjC n (zC g)) with hS
  set W := toPoly (2 ^ n) (zC F) * toPoly (2 ^ n) (adjC n (zC f))
    + toPoly (2 ^ n) (zC G) * toPoly (2 ^ n) (adjC n (zC g)) with hW
  have hSe : ∀ j, j < 2 ^ n → S.eval (fftPoint n j) = ((gramAt n f g j : ℝ) : ℂ) := by
    intro j hj
    rw [hS]
    simp only [eval_mul, eval_add, ← dft_poly, dft_adj hn _ j hj]
    exact gram_mul f g j
  have hS0 : ∀ j, j < 2 ^ n → ((gramAt n f g j : ℝ) : ℂ) ≠ 0 := by
    intro j hj h
    have : gramAt n f g j = 0 := by exact_mod_cast h
    linarith [hD j hj]
  set z : Mem ℂ := ifft exactA n (fun j => W.eval (fftPoint n j) / ((gramAt n f g j : ℝ) : ℂ)) with hz
  have hzd : ∀ j, j < 2 ^ n → dft n z j = W.eval (fftPoint n j) / ((gramAt n f g j : ℝ) : ℂ) := by
    intro j hj
    rw [hz, ← fft_val hn _ j hj, fft_ifft hn _ j hj]
  have hzS : ModEqXN (2 ^ n) (toPoly (2 ^ n) z * S) W := by
    apply modEq_of_evals hn
    intro j hj
    rw [eval_mul, ← dft_poly, hzd j hj, hSe j hj, div_mul_cancel₀ _ (hS0 j hj)]
  -- the conjugate coefficients solve the same congruence
  have hm : ∀ a : Mem ℂ, (toPoly (2 ^ n) a).map (starRingEnd ℂ) = toPoly (2 ^ n) fun i => (starRingEnd ℂ) (a i) := by
    intro a
    unfold toPoly
    rw [Polynomial.map_sum]
    exact sum_congr rfl fun i _ => by simp
  have h1 : ∀ a : Mem Int, (toPoly (2 ^ n) (zC a)).map (starRingEnd ℂ) = toPoly (2 ^ n) (zC a) := by
    intro a
    rw [hm]
    congr 1
    funext i
    simp [zC]
  have h2 : ∀ a : Mem Int, (toPoly (2 ^ n) (adjC n (zC a))).map (starRingEnd ℂ) = toPoly (2 ^ n) (adjC n (zC a)) := by
    intro a
    rw [hm]
    congr 1
    funext i
    unfold adjC
    split <;> simp [zC]
  have hzc : ModEqXN (2 ^ n) (toPoly (2 ^ n) (fun i => (starRingEnd ℂ) (z i)) * S) W := by
    obtain ⟨c, hc⟩ := hzS
    refine ⟨c.map (starRingEnd ℂ), ?_⟩
    have := congrArg (Polynomial.map (starRingEnd ℂ)) hc
    simpa only [hS, hW, Polynomial.map_sub, Polynomial.map_mul, Polynomial.map_add, Polynomial.map_pow,
      Polynomial.map_X, Polynomial.map_one, h1, h2, hm] using this
  have hreal : ∀ i, i < 2 ^ n → z i = ((z i).re : ℂ) := by
    intro i hi
    have h := dft_inj hn (a := fun i => (starRingEnd ℂ) (z i)) (b := z) (fun j hj => by
      have e := eval_eq_of_dvd hzc (fftPoint_pow hn j hj)
      rw [eval_mul, ← dft_poly, hSe j hj] at e
      rw [hzd j hj, ← e, mul_div_cancel_right₀ _ (hS0 j hj)]) i hi
    exact (Complex.conj_eq_iff_re.mp h).symm
  refine ⟨fun i => (z i).re, (isQuo_iff f g F G _).mpr ?_⟩
  have e : toPoly (2 ^ n) (fun i => (((z i).re : ℝ) : ℂ)) = toPoly (2 ^ n) z :=
    toPoly_congr fun i hi => (hreal i hi).symm
  rw [e]
  exact hzS

/-- In exact arithmetic the reduction rounds the quotient. -/
theorem redQuot_exact {n : ℕ} (hn : n ≤ 10) {f g F G kr : Mem Int} (hD : ∀ j, j < 2 ^ n → 0 < gramAt n f g j)
    (h : redQuot exactA n f g F G = .ok kr) {κ : Mem ℝ} (hκ : IsQuo n f g F G κ) (i : ℕ) (hi : i < 2 ^ n) :
    kr i = stdRound (κ i) ∧ -2 ^ 63 ≤ kr i ∧ kr i < 2 ^ 63 := by
  obtain ⟨Q, hQ, hr⟩ := redQuot_at exactA h
  have hQd : ∀ j, j < 2 ^ n → Q j = dft n (fun i => (κ i : ℂ)) j := by
    intro j hj
    rw [hQ j hj]
    unfold toCx
    rw [fft_ofInt hn _ _ j hj, fft_ofInt hn _ _ j hj, fft_ofInt hn _ _ j hj, fft_ofInt hn _ _ j hj]
    have e := isQuo_dft hn hκ j hj
    have h0 : ((gramAt n f g j : ℝ) : ℂ) ≠ 0 := by
      intro h
      have : gramAt n f g j = 0 := by exact_mod_cast h
      linarith [hD j hj]
    show (dft n (zC F) j * (starRingEnd ℂ) (dft n (zC f) j) + dft n (zC G) j * (starRingEnd ℂ) (dft n (zC g) j))
      / (dft n (zC f) j * (starRingEnd ℂ) (dft n (zC f) j) + dft n (zC g) j * (starRingEnd ℂ) (dft n (zC g) j)) = _
    rw [gram_mul, ← e, mul_div_cancel_right₀ _ h0]
  have hv := hr i hi
  rw [ifft_dft hn hQd i hi] at hv
  have hv : exactRoundTo (-2 ^ 63) (2 ^ 63 - 1) (((κ i : ℂ)).re) = .ok (kr i) := hv
  rw [Complex.ofReal_re] at hv
  unfold exactRoundTo at hv
  split at hv
  · rename_i hb
    have := Except.ok.inj hv
    refine ⟨this.symm, ?_, ?_⟩ <;> omega
  · cases hv

end Falcon
