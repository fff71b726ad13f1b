import Verif.Proofs.TreeExact
import Mathlib.Algebra.BigOperators.Field

/-!
# The NTRU basis in exact arithmetic: Gram matrix, tree, leaves
-/

namespace Falcon

open Finset Polynomial

theorem ntru_pt {n : ℕ} (hn : n ≤ 10) {f g F G : Mem Int} (heq : NtruEq n f g F G) (j : ℕ) (hj : j < 2 ^ n) :
    dft n (zC f) j * dft n (zC G) j - dft n (zC g) j * dft n (zC F) j = 12289 := by
  obtain ⟨c, hc⟩ := heq
  have h := congrArg (fun p => (p.map (Int.castRingHom ℂ)).eval (fftPoint n j)) hc
  simp only [Polynomial.map_sub, Polynomial.map_mul, Polynomial.map_add, Polynomial.map_pow,
    Polynomial.map_X, Polynomial.map_one, eval_sub, eval_mul, eval_add, eval_pow, eval_X, eval_one,
    fftPoint_pow hn j hj] at h
  have hm : ∀ a : Mem Int, ((polyZ (2 ^ n) a).map (Int.castRingHom ℂ)).eval (fftPoint n j)
      = dft n (zC a) j := by
    intro a
    rw [dft_poly]
    unfold polyZ toPoly zC
    simp [Polynomial.map_sum, eval_finsetSum]
  rw [hm, hm, hm, hm] at h
  simp at h
  linear_combination h

theorem dft_neg (n : ℕ) (a : Mem ℂ) (i : ℕ) : dft n (fun i => -a i) i = -dft n a i := by
  unfold dft
  rw [← sum_neg_distrib]
  exact sum_congr rfl fun j _ => by ring

theorem exact_lit_int (z : ℤ) : exactA.lit (z : ℚ) = (z : ℝ) := by
  show (((z : ℚ)) : ℝ) = _
  push_cast; rfl

/-- The four blocks of the matrix. -/
theorem basis_exact {n : ℕ} (hn : n ≤ 10) (f g F G : Mem Int) (B0 : Mem ℂ) (i : ℕ) (hi : i < 2 ^ n) :
    let B := computeMatrixB exactA n f g F G B0
    B i = dft n (zC g) i ∧ B (2 ^ n + i) = -dft n (zC f) i ∧ B (2 * 2 ^ n + i) = dft n (zC G) i ∧
    B (3 * 2 ^ n + i) = -dft n (zC F) i := by
  have h := (computeMatrixB_at exactA n f g F G B0).1
  have h0 := h 0 i (by omega) hi
  have h1 := h 1 i (by omega) hi
  have h2 := h 2 i (by omega) hi
  have h3 := h 3 i (by omega) hi
  rw [zero_mul, zero_add] at h0
  rw [one_mul] at h1
  simp only
  rw [h0, h1, h2, h3, fft_val hn _ i hi, fft_val hn _ i hi, fft_val hn _ i hi, fft_val hn _ i hi]
  have pos : ∀ a : Mem Int, (fun i => exactA.ofReal (exactA.lit (a i))) = zC a := by
    intro a; funext i
    rw [exact_ofReal, exact_lit_int]; unfold zC; push_cast; rfl
  have neg : ∀ a : Mem Int, (fun i => exactA.ofReal (exactA.neg (exactA.lit (a i)))) = fun i => -zC a i := by
    intro a; funext i
    rw [exact_ofReal, exact_lit_int]; unfold zC
    show (((-(a i : ℝ)) : ℝ) : ℂ) = _
    push_cast; rfl
  refine ⟨?_, ?_, ?_, ?_⟩
  · show dft n (fun i => exactA.ofReal (exactA.lit (g i))) i = _
    rw [pos]
  · show dft n (fun i => exactA.ofReal (exactA.neg (exactA.lit (f i)))) i = _
    rw [neg, dft_neg]
  · show dft n (fun i => exactA.ofReal (exactA.lit (G i))) i = _
    rw [pos]
  · show dft n (fun i => exactA.ofReal (exactA.neg (exactA.lit (F i)))) i = _
    rw [neg, dft_neg]

/-- |f|^2 + |g|^2 at a point. -/
noncomputable def fgNorm (n : ℕ) (f g : Mem Int) (i : ℕ) : ℝ :=
  Complex.normSq (dft n (zC f) i) + Complex.normSq (dft n (zC g) i)

/-- The Gram matrix of the basis. -/
theorem gram_exact {n : ℕ} (hn : n ≤ 10) (f g F G : Mem Int) (B0 G0 : Mem ℂ) (i : ℕ) (hi : i < 2 ^ n) :
    let M := gramMatrix exactA n (computeMatrixB exactA n f g F G B0) G0
    M i = (fgNorm n f g i : ℝ) ∧
    M (2 ^ n + i) = dft n (zC g) i * (starRingEnd ℂ) (dft n (zC G) i)
      + dft n (zC f) i * (starRingEnd ℂ) (dft n (zC F) i) ∧
    M (2 * 2 ^ n + i) = dft n (zC G) i * (starRingEnd ℂ) (dft n (zC g) i)
      + dft n (zC F) i * (starRingEnd ℂ) (dft n (zC f) i) ∧
    M (3 * 2 ^ n + i) = (fgNorm n F G i : ℝ) := by
  obtain ⟨b0, b1, b2, b3⟩ := basis_exact hn f g F G B0 i hi
  obtain ⟨h0, h1, h2, h3⟩ := gramMatrix_at exactA n (computeMatrixB exactA n f g F G B0) G0 i hi
  simp only
  rw [h0, h1, h2, h3, b0, b1, b2, b3]
  have ge : ∀ x y u v : ℂ, gramEntry exactA x y u v = x * (starRingEnd ℂ) u + y * (starRingEnd ℂ) v :=
    fun _ _ _ _ => rfl
  simp only [ge, map_neg]
  unfold fgNorm
  refine ⟨?_, by ring, by ring, ?_⟩
  · rw [Complex.mul_conj, neg_mul_neg, Complex.mul_conj]; push_cast; ring
  · rw [Complex.mul_conj, neg_mul_neg, Complex.mul_conj]; push_cast; ring

theorem normSq_det (f g F G : ℂ) :
    (Complex.normSq f + Complex.normSq g) * (Complex.normSq F + Complex.normSq G)
      - Complex.normSq (G * (starRingEnd ℂ) g + F * (starRingEnd ℂ) f) = Complex.normSq (f * G - g * F) := by
  simp only [Complex.normSq_apply, Complex.mul_re, Complex.mul_im, Complex.add_re, Complex.add_im, Complex.sub_re,
    Complex.sub_im, Complex.conj_re, Complex.conj_im]
  ring

theorem normSq_q : Complex.normSq (12289 : ℂ) = 12289 ^ 2 := by
  rw [show (12289 : ℂ) = ((12289 : ℝ) : ℂ) by push_cast; rfl, Complex.normSq_ofReal]; ring

theorem fgNorm_pos {n : ℕ} (hn : n ≤ 10) {f g F G : Mem Int} (heq : NtruEq n f g F G) (i : ℕ) (hi : i < 2 ^ n) :
    0 < fgNorm n f g i := by
  have h := ntru_pt hn heq i hi
  unfold fgNorm
  have h1 := Complex.normSq_nonneg (dft n (zC f) i)
  have h2 := Complex.normSq_nonneg (dft n (zC g) i)
  by_contra hc
  have e1 := Complex.normSq_eq_zero.mp (by linarith : Complex.normSq (dft n (zC f) i) = 0)
  have e2 := Complex.normSq_eq_zero.mp (by linarith : Complex.normSq (dft n (zC g) i) = 0)
  rw [e1, e2] at h
  norm_num at h

/-- The determinant of the Gram matrix is q^2. -/
theorem gram_det {n : ℕ} (hn : n ≤ 10) {f g F G : Mem Int} (heq : NtruEq n f g F G) (i : ℕ) (hi : i < 2 ^ n) :
    fgNorm n f g i * fgNorm n F G i - Complex.normSq (dft n (zC G) i * (starRingEnd ℂ) (dft n (zC g) i)
      + dft n (zC F) i * (starRingEnd ℂ) (dft n (zC f) i)) = 12289 ^ 2 := by
  unfold fgNorm
  rw [normSq_det, ntru_pt hn heq i hi, normSq_q]

theorem gram_pd {n : ℕ} (hn : n ≤ 10) {f g F G : Mem Int} (heq : NtruEq n f g F G) (B0 G0 : Mem ℂ) :
    let M := gramMatrix exactA n (computeMatrixB exactA n f g F G B0) G0
    GramPD n M (fun i => M (2 * 2 ^ n + i)) (fun i => M (3 * 2 ^ n + i)) := by
  intro M i hi
  obtain ⟨h0, _, h2, h3⟩ := gram_exact hn f g F G B0 G0 i hi
  refine ⟨_, _, h0, h3, fgNorm_pos hn heq i hi, ?_⟩
  have := gram_det hn heq i hi
  show Complex.normSq (gramMatrix exactA n (computeMatrixB exactA n f g F G B0) G0 (2 * 2 ^ n + i)) < _
  rw [h2]
  linarith

theorem fgNorm_compl (n : ℕ) (f g : Mem Int) (i : ℕ) (hi : i < 2 ^ n) :
    fgNorm n f g (2 ^ n - 1 - i) = fgNorm n f g i := by
  unfold fgNorm
  rw [dft_compl n f i hi, dft_compl n g i hi, Complex.normSq_conj, Complex.normSq_conj]

theorem sum_fgNorm {n : ℕ} (hn : n ≤ 10) (f g : Mem Int) :
    ∑ i ∈ range (2 ^ n), fgNorm n f g i = 2 ^ n * ∑ i ∈ range (2 ^ n), ((f i : ℝ) ^ 2 + (g i : ℝ) ^ 2) := by
  unfold fgNorm
  rw [sum_add_distrib, parseval hn, parseval hn, sum_add_distrib, mul_add]
  have : ∀ a : Mem Int, ∑ j ∈ range (2 ^ n), Complex.normSq (zC a j) = ∑ j ∈ range (2 ^ n), (a j : ℝ) ^ 2 := by
    intro a
    apply sum_congr rfl
    intro j _
    unfold zC
    rw [show ((a j : ℤ) : ℂ) = ((a j : ℝ) : ℂ) by push_cast; rfl, Complex.normSq_ofReal]; ring
  rw [this, this]

/-- The Gram-Schmidt norm as the code computes it, in terms of |f|^2 + |g|^2 at the points. -/
theorem gsNorm_fg {n : ℕ} (hn : n ≤ 10) {f g : Mem Int} (hpos : ∀ i, i < 2 ^ n → 0 < fgNorm n f g i) :
    gramSchmidtNorm exactA n f g = max ((∑ i ∈ range (2 ^ n), fgNorm n f g i) / 2 ^ n)
      (12289 ^ 2 * ((∑ i ∈ range (2 ^ n), 1 / fgNorm n f g i) / 2 ^ n)) := by
  rw [gsNorm_val hn, sum_fgNorm hn]
  congr 1
  · field_simp
  · congr 2
    apply sum_congr rfl
    intro i hi
    have hp := hpos i (mem_range.mp hi)
    unfold fgNorm at hp ⊢
    rw [Complex.normSq_div, Complex.normSq_div, Complex.normSq_conj, Complex.normSq_conj, Complex.normSq_ofReal,
      ← add_div]
    field_simp

/-- Bounds on the leaves of the tree of the basis. -/
theorem basis_leaves {n : ℕ} (h1 : 1 ≤ n) (hn : n ≤ 10) {f g F G : Mem Int} (heq : NtruEq n f g F G)
    (B0 G0 : Mem ℂ) (M : ℝ) (hM : gramSchmidtNorm exactA n f g ≤ M) (t : FTree ℂ)
    (ht : let X := gramMatrix exactA n (computeMatrixB exactA n f g F G B0) G0
      FfLdl n X (starM fun i => X (2 * 2 ^ n + i)) (fun i => X (2 * 2 ^ n + i)) (fun i => X (3 * 2 ^ n + i)) t) :
    ∀ v ∈ t.leaves, ∃ x : ℝ, v = x ∧ 12289 ^ 2 / M ≤ x ∧ x ≤ M := by
  simp only at ht
  have hex := gram_exact hn f g F G B0 G0
  simp only at hex
  generalize gramMatrix exactA n (computeMatrixB exactA n f g F G B0) G0 = X at ht hex
  obtain ⟨l, d0, d1, L, R, rfl, hl, hL, hR⟩ := ht
  have hpos := fgNorm_pos hn heq
  rw [gsNorm_fg hn hpos, max_le_iff] at hM
  obtain ⟨m1, m2⟩ := hM
  have h2n : (0 : ℝ) < 2 ^ n := by positivity
  have hMpos : 0 < M := by
    refine lt_of_lt_of_le ?_ m1
    refine div_pos (sum_pos (fun i hi => hpos i (mem_range.mp hi)) ⟨0, by simp⟩) h2n
  have hd0 : ∀ i, i < 2 ^ n → d0 i = (fgNorm n f g i : ℝ) := by
    intro i hi
    rw [← (hl i hi).2.2.1, (hex i hi).1]
  have hd1 : ∀ i, i < 2 ^ n → d1 i = ((12289 ^ 2 / fgNorm n f g i : ℝ) : ℂ) := by
    intro i hi
    obtain ⟨_, _, l1, l2, l3, l4⟩ := hl i hi
    obtain ⟨e0, _, e2, e3⟩ := hex i hi
    have hp := hpos i hi
    have hpc : (fgNorm n f g i : ℂ) ≠ 0 := by exact_mod_cast hp.ne'
    have hdet := gram_det hn heq i hi
    have hdet : (fgNorm n f g i : ℂ) * (fgNorm n F G i : ℂ) - X (2 * 2 ^ n + i)
        * (starRingEnd ℂ) (X (2 * 2 ^ n + i)) = 12289 ^ 2 := by
      rw [Complex.mul_conj, e2]; exact_mod_cast hdet
    have l3' : X (2 * 2 ^ n + i) = l i * d0 i := l3
    have l2' : (starRingEnd ℂ) (X (2 * 2 ^ n + i)) = d0 i * (starRingEnd ℂ) (l i) := l2
    have l4' : X (3 * 2 ^ n + i) = l i * d0 i * (starRingEnd ℂ) (l i) + d1 i := l4
    rw [l2', l3', ← e3, l4', hd0 i hi] at hdet
    push_cast
    rw [eq_div_iff hpc]
    linear_combination hdet
  have hinv : ∀ x : ℝ, 0 < x → 2 ^ n / x ≤ M / 12289 ^ 2 * 2 ^ n → 12289 ^ 2 / M ≤ x := by
    intro x hx h
    rw [div_le_iff₀ hMpos]
    rw [div_le_iff₀ hx] at h
    have h3 : (1 : ℝ) * 2 ^ n ≤ (M / 12289 ^ 2 * x) * 2 ^ n := by linarith
    have h4 := le_of_mul_le_mul_right h3 h2n
    have h5 : (M / 12289 ^ 2 * x) * 12289 ^ 2 = x * M := by ring
    nlinarith
  intro v hv
  simp only [FTree.leaves, List.mem_append] at hv
  rw [div_le_iff₀ h2n] at m1
  rcases hv with hv | hv
  · obtain ⟨x, hx, x0, b1, b2⟩ := diag_bounds n d0 L hL (fgNorm n f g) hn hd0 hpos (fgNorm_compl n f g) v hv
    refine ⟨x, hx, hinv x x0 ?_, ?_⟩
    · refine b2.trans ?_
      rw [← mul_div_assoc, div_le_iff₀ h2n] at m2
      have : (12289 : ℝ) ^ 2 * (M / 12289 ^ 2 * 2 ^ n) = M * 2 ^ n := by ring
      nlinarith
    · nlinarith
  · obtain ⟨x, hx, x0, b1, b2⟩ := diag_bounds n d1 R hR (fun i => 12289 ^ 2 / fgNorm n f g i) hn hd1
      (fun i hi => div_pos (by norm_num) (hpos i hi)) (fun i hi => by rw [fgNorm_compl n f g i hi]) v hv
    have e1 : ∑ i ∈ range (2 ^ n), (12289 : ℝ) ^ 2 / fgNorm n f g i
        = 12289 ^ 2 * ∑ i ∈ range (2 ^ n), 1 / fgNorm n f g i := by
      rw [mul_sum]; exact sum_congr rfl fun i _ => by ring
    have e2 : ∑ i ∈ range (2 ^ n), 1 / ((12289 : ℝ) ^ 2 / fgNorm n f g i)
        = (∑ i ∈ range (2 ^ n), fgNorm n f g i) / 12289 ^ 2 := by
      rw [sum_div]; exact sum_congr rfl fun i _ => by rw [one_div_div]
    rw [e1] at b1
    rw [e2] at b2
    refine ⟨x, hx, hinv x x0 ?_, ?_⟩
    · refine b2.trans ?_
      rw [div_le_iff₀ (by norm_num)]
      have : M / 12289 ^ 2 * 2 ^ n * 12289 ^ 2 = M * 2 ^ n := by ring
      linarith
    · rw [← mul_div_assoc, div_le_iff₀ h2n] at m2
      have h3 : x * 2 ^ n ≤ M * 2 ^ n := by linarith
      exact le_of_mul_le_mul_right h3 h2n

end Falcon
