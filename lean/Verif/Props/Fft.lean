import Verif.Proofs.FftExact
import Verif.Proofs.RootTable

/-!
# C08 (Fourier part), C40-C44 : Fourier transform (include/fft.hpp), norms, recomputation of G

C08 holds for every arithmetic, in particular for IEEE doubles. The others are about exact arithmetic, for
all sizes 2^n, n ≤ 10, except C43 which is about the literals and the doubles nearest to them.
-/

namespace Falcon

open Finset Polynomial

/-- C08 (Fourier part). With every access checked against the array length N and the table length 1024, no
access is out of bounds for N ≤ 1024, and entries from N on are untouched. -/
theorem C08_fft_in_bounds {R C : Type} (A : Arith R C) (n : ℕ) (hn : n ≤ 10) (a : Mem C) :
    fftE A n a = .ok (fft A n a) ∧ ifftE A n a = .ok (ifft A n a) ∧
    (∀ j, 2 ^ n ≤ j → fft A n a j = a j) ∧ (∀ j, 2 ^ n ≤ j → ifft A n a j = a j) :=
  ⟨fftE_ok A hn a, ifftE_ok A hn a, fft_frame A n a, ifft_frame A n a⟩

/-- The table is too short for N = 2048: the bound on n is needed. -/
example : rdE 1024 exactA.tab 1024 = .error (.oobRead 1024) := rfl

/-- C40. Entry `i` of the transform is the value at exp(iπ(2 rev(i) + 1)/N). -/
theorem C40_fft_eval (n : ℕ) (hn : n ≤ 10) (a : Mem ℂ) (i : ℕ) (hi : i < 2 ^ n) :
    fft exactA n a i = ∑ j ∈ range (2 ^ n),
      a j * Complex.exp (Complex.I * Real.pi * (2 * (revBits n i : ℂ) + 1) / 2 ^ n) ^ j :=
  fft_val hn a i hi

/-- C40. The points are N distinct roots of x^N + 1. -/
theorem C40_points (n : ℕ) (hn : n ≤ 10) :
    (∀ i, i < 2 ^ n → fftPoint n i ^ 2 ^ n = -1) ∧
    ∀ i j, i < 2 ^ n → j < 2 ^ n → fftPoint n i = fftPoint n j → i = j := by
  refine ⟨fun i hi => fftPoint_pow hn i hi, ?_⟩
  intro i j hi hj h
  by_contra hne
  let e : Mem ℂ := fun k => if k = i then 1 else 0
  have h1 : fft exactA n (ifft exactA n e) i = 1 := by rw [fft_ifft hn e i hi]; simp [e]
  have h2 : fft exactA n (ifft exactA n e) j = 0 := by
    rw [fft_ifft hn e j hj]; simp [e, Ne.symm hne]
  rw [fft_val hn _ i hi] at h1
  rw [fft_val hn _ j hj] at h2
  unfold dft at h1 h2
  rw [h, h2] at h1
  exact zero_ne_one h1

/-- C40. The two transforms are mutually inverse. -/
theorem C40_fft_inverse (n : ℕ) (hn : n ≤ 10) (a : Mem ℂ) (i : ℕ) (hi : i < 2 ^ n) :
    ifft exactA n (fft exactA n a) i = a i ∧ fft exactA n (ifft exactA n a) i = a i :=
  ⟨ifft_fft hn a i hi, fft_ifft hn a i hi⟩

/-- C40. Transform, multiply pointwise, transform back: the product modulo `x^N + 1`. -/
theorem C40_fft_product (n : ℕ) (hn : n ≤ 10) (a b c0 : Mem ℂ) :
    ModEqXN (2 ^ n) (toPoly (2 ^ n) a * toPoly (2 ^ n) b)
      (toPoly (2 ^ n) (ifft exactA n (polyMulC exactA n (fft exactA n a) (fft exactA n b) c0))) := by
  apply modEq_of_dft hn
  intro j hj
  rw [← fft_val hn _ j hj, fft_ifft hn _ j hj, polyMulC_at, if_pos hj, fft_val hn _ j hj, fft_val hn _ j hj,
    eval_mul, dft_poly, dft_poly]
  rfl

example : fftPoint 1 0 ≠ fftPoint 1 1 :=
  fun h => by simpa using (C40_points 1 (by norm_num)).2 0 1 (by norm_num) (by norm_num) h

/-- C41. Merging undoes splitting and splitting undoes merging. -/
theorem C41_split_merge (k : ℕ) (f f0 f1 g g0 g1 : Mem ℂ) :
    (∀ j, j < 2 ^ (k + 1) → mergeFft exactA (k + 1) (splitFft exactA (k + 1) f g0 g1).1
      (splitFft exactA (k + 1) f g0 g1).2 g j = f j) ∧
    (∀ j, j < 2 ^ k →
      (splitFft exactA (k + 1) (mergeFft exactA (k + 1) f0 f1 g) g0 g1).1 j = f0 j ∧
      (splitFft exactA (k + 1) (mergeFft exactA (k + 1) f0 f1 g) g0 g1).2 j = f1 j) :=
  ⟨fun j hj => merge_split f g0 g1 g j hj, fun j hj => split_merge f0 f1 g g0 g1 j hj⟩

/-- C41. Splitting the transform of `a` gives the transforms of its even and odd parts, and merging these
gives the transform of `a`. -/
theorem C41_split_fft (k : ℕ) (hk : k + 1 ≤ 10) (a g g0 g1 : Mem ℂ) :
    (∀ j, j < 2 ^ k →
      (splitFft exactA (k + 1) (fft exactA (k + 1) a) g0 g1).1 j = fft exactA k (fun i => a (2 * i)) j ∧
      (splitFft exactA (k + 1) (fft exactA (k + 1) a) g0 g1).2 j = fft exactA k (fun i => a (2 * i + 1)) j) ∧
    (∀ j, j < 2 ^ (k + 1) → mergeFft exactA (k + 1) (fft exactA k (fun i => a (2 * i)))
      (fft exactA k (fun i => a (2 * i + 1))) g j = fft exactA (k + 1) a j) := by
  constructor
  · intro j hj
    rw [fft_val (by omega) _ j hj, fft_val (by omega) _ j hj]
    exact split_dft hk (fun j hj => fft_val hk a j hj) g0 g1 j hj
  · intro j hj
    rw [fft_val hk _ j hj]
    exact merge_dft hk (fun j hj => fft_val (by omega) _ j hj) (fun j hj => fft_val (by omega) _ j hj) g j hj

/-- C41. Only the halves of the output buffers that belong to the result are written. -/
theorem C41_frames {R C : Type} (A : Arith R C) (k : ℕ) (f f0 f1 g : Mem C) (j : ℕ) :
    (2 ^ k ≤ j → (splitFft A (k + 1) f f0 f1).1 j = f0 j ∧ (splitFft A (k + 1) f f0 f1).2 j = f1 j) ∧
    (2 ^ (k + 1) ≤ j → mergeFft A (k + 1) f0 f1 g j = g j) := by
  constructor
  · intro hj
    rw [splitFft_fst, splitFft_snd, if_neg (by omega), if_neg (by omega)]
    exact ⟨rfl, rfl⟩
  · intro hj
    rw [mergeFft_at, if_neg (by omega)]

/-- C42. The squared norm computed from the transform is the one of the coefficients. -/
theorem C42_norm (n : ℕ) (hn : n ≤ 10) (a : Mem ℂ) (b : Mem ℝ) :
    sqrdNormC exactA n (fft exactA n a) = ∑ i ∈ range (2 ^ n), Complex.normSq (a i) ∧
    sqrdNormR exactA n b = ∑ i ∈ range (2 ^ n), b i ^ 2 ∧
    sqrdNormC exactA n (fft exactA n (fun i => (b i : ℂ))) = sqrdNormR exactA n b := by
  have h : ∀ a : Mem ℂ, sqrdNormC exactA n (fft exactA n a) = ∑ i ∈ range (2 ^ n), Complex.normSq (a i) := by
    intro a
    rw [sqrdNormC_val, sum_congr rfl (fun i hi => by rw [fft_val hn a i (mem_range.mp hi)]), parseval hn a]
    field_simp
  refine ⟨h a, sqrdNormR_val n b, ?_⟩
  rw [h, sqrdNormR_val]
  exact sum_congr rfl (fun i _ => by rw [Complex.normSq_ofReal, sq])

/-- C42. The Gram-Schmidt norm: for (f, g) not both zero there are `u`, `v` with u (ff* + gg*) = f* and
v (ff* + gg*) = g* modulo x^N + 1, and for any such `u`, `v` the code computes
max(|(f, g)|^2, q^2 |(u, v)|^2). -/
theorem C42_gram_schmidt (n : ℕ) (hn : n ≤ 10) (f g : Mem Int) (hne : ∃ i, i < 2 ^ n ∧ (f i ≠ 0 ∨ g i ≠ 0)) :
    let P (a : Mem ℂ) := toPoly (2 ^ n) a
    let S := P (zC f) * P (adjC n (zC f)) + P (zC g) * P (adjC n (zC g))
    (∃ u v : Mem ℂ, ModEqXN (2 ^ n) (P u * S) (P (adjC n (zC f))) ∧ ModEqXN (2 ^ n) (P v * S) (P (adjC n (zC g)))) ∧
    ∀ u v : Mem ℂ, ModEqXN (2 ^ n) (P u * S) (P (adjC n (zC f))) →
      ModEqXN (2 ^ n) (P v * S) (P (adjC n (zC g))) →
      gramSchmidtNorm exactA n f g = max (∑ i ∈ range (2 ^ n), ((f i : ℝ) ^ 2 + (g i : ℝ) ^ 2))
        (12289 ^ 2 * ∑ i ∈ range (2 ^ n), (Complex.normSq (u i) + Complex.normSq (v i))) := by
  intro P S
  have hS : ∀ j, j < 2 ^ n → S.eval (fftPoint n j)
      = ((Complex.normSq (dft n (zC f) j) + Complex.normSq (dft n (zC g) j) : ℝ) : ℂ) := by
    intro j hj
    show (P (zC f) * P (adjC n (zC f)) + P (zC g) * P (adjC n (zC g))).eval _ = _
    rw [eval_add, eval_mul, eval_mul, ← dft_poly, ← dft_poly, ← dft_poly, ← dft_poly, dft_adj hn _ j hj,
      dft_adj hn _ j hj, Complex.mul_conj, Complex.mul_conj]
    push_cast; rfl
  have hS0 : ∀ j, j < 2 ^ n → ((Complex.normSq (dft n (zC f) j) + Complex.normSq (dft n (zC g) j) : ℝ) : ℂ) ≠ 0 := by
    intro j hj h
    have h : Complex.normSq (dft n (zC f) j) + Complex.normSq (dft n (zC g) j) = 0 := by exact_mod_cast h
    have h1 := Complex.normSq_nonneg (dft n (zC f) j)
    have h2 := Complex.normSq_nonneg (dft n (zC g) j)
    have e1 := Complex.normSq_eq_zero.mp (by linarith : Complex.normSq (dft n (zC f) j) = 0)
    have e2 := Complex.normSq_eq_zero.mp (by linarith : Complex.normSq (dft n (zC g) j) = 0)
    obtain ⟨i, hi, hfg⟩ := hne
    rcases hfg with h3 | h3
    · exact h3 (dft_ne_zero hn f j hj e1 i hi)
    · exact h3 (dft_ne_zero hn g j hj e2 i hi)
  constructor
  · have hex : ∀ a : Mem ℂ, ∃ u : Mem ℂ, ModEqXN (2 ^ n) (P u * S) (P (adjC n a)) := by
      intro a
      refine ⟨ifft exactA n (fun j => (starRingEnd ℂ) (dft n a j) /
        ((Complex.normSq (dft n (zC f) j) + Complex.normSq (dft n (zC g) j) : ℝ) : ℂ)), ?_⟩
      apply modEq_of_dft hn
      intro j hj
      rw [eval_mul, hS j hj, ← dft_poly, ← fft_val hn _ j hj, fft_ifft hn _ j hj, dft_adj hn _ j hj]
      exact div_mul_cancel₀ _ (hS0 j hj)
    obtain ⟨u, hu⟩ := hex (zC f)
    obtain ⟨v, hv⟩ := hex (zC g)
    exact ⟨u, v, hu, hv⟩
  · intro u v hu hv
    have hval : ∀ (u a : Mem ℂ), ModEqXN (2 ^ n) (P u * S) (P (adjC n a)) → ∀ j, j < 2 ^ n →
        (starRingEnd ℂ) (dft n a j) /
          ((Complex.normSq (dft n (zC f) j) + Complex.normSq (dft n (zC g) j) : ℝ) : ℂ) = dft n u j := by
      intro u a hu j hj
      have := eval_eq_of_dvd hu (fftPoint_pow hn j hj)
      rw [eval_mul, hS j hj, ← dft_poly, ← dft_poly, dft_adj hn _ j hj] at this
      rw [← this, mul_div_cancel_right₀ _ (hS0 j hj)]
    rw [gsNorm_val hn]
    congr 2
    rw [sum_congr rfl (fun j hj => by
      rw [hval u _ hu j (mem_range.mp hj), hval v _ hv j (mem_range.mp hj)]), sum_add_distrib,
      parseval hn u, parseval hn v, sum_add_distrib (f := fun i => Complex.normSq (u i))]
    field_simp

example : ∃ i, i < 2 ^ 9 ∧ ((fun i => if i = 3 then (2 : ℤ) else 0) i ≠ 0 ∨ (0 : ℤ) ≠ 0) :=
  ⟨3, by norm_num, Or.inl (by norm_num)⟩

/-- C43. Each of the 1024 literals, and the double nearest to it, is within 2^-51 of the exact root in each
component. -/
theorem C43_root_table (k : ℕ) (hk : k < 1024) :
    let θ := Real.pi * revBits 10 k / 1024
    (|((rootLit k).1 : ℝ) - Real.cos θ| ≤ 1 / 2 ^ 51 ∧ |((rootLit k).2 : ℝ) - Real.sin θ| ≤ 1 / 2 ^ 51) ∧
    (|rnd ((rootLit k).1 : ℝ) - Real.cos θ| ≤ 1 / 2 ^ 51 ∧ |rnd ((rootLit k).2 : ℝ) - Real.sin θ| ≤ 1 / 2 ^ 51) := by
  intro θ
  have h1 := litCheck_of hk
  have h2 := hp_comp hk
  rw [brv_eq_revBits] at h2
  have e1 : ((rootLit k).1 : ℝ) = ((rlit k).1 : ℝ) / 10 ^ (rlit k).2.1 := by
    show ((mkRat (rlit k).1 (10 ^ (rlit k).2.1) : ℚ) : ℝ) = _
    rw [Rat.mkRat_eq_div]; push_cast; rfl
  have e2 : ((rootLit k).2 : ℝ) = ((rlit k).2.2.1 : ℝ) / 10 ^ (rlit k).2.2.2 := by
    show ((mkRat (rlit k).2.2.1 (10 ^ (rlit k).2.2.2) : ℚ) : ℝ) = _
    rw [Rat.mkRat_eq_div]; push_cast; rfl
  have h3 := lit_close h1.1 h2.1
  have h4 := lit_close h1.2 h2.2
  rw [e1, e2]
  exact ⟨⟨h3.1, h4.1⟩, ⟨h3.2, h4.2⟩⟩

/-- C43. The entries are not all correctly rounded: the double of the imaginary part of entry 509 is off by more
than 2^-52, more than four times the distance of the nearest double. -/
theorem C43_not_nearest :
    |rnd ((rootLit 509).2 : ℝ) - Real.sin (Real.pi * revBits 10 509 / 1024)| > 1 / 2 ^ 52 := by
  have h2 := (hp_comp (k := 509) (by norm_num)).2
  rw [brv_eq_revBits, show hp 509 = (-890847473624437623716059572463, 901847449958110813465809524209) by decide +kernel] at h2
  have e2 : ((rootLit 509).2 : ℝ) = 7114321957452168 / 10 ^ 16 := by
    rw [show (rootLit 509).2 = mkRat 7114321957452168 (10 ^ 16) by decide +kernel, Rat.mkRat_eq_div]
    norm_num
  rw [e2]
  have h3 := rnd_err ((7114321957452168 : ℝ) / 10 ^ 16)
  have e3 : (2 : ℝ) ^ (-1075 : ℤ) ≤ 1 / 2 ^ 100 := by
    rw [show (1 : ℝ) / 2 ^ 100 = 2 ^ (-100 : ℤ) by norm_num]
    exact zpow_le_zpow_right₀ (by norm_num) (by norm_num)
  rw [show (2 : ℝ) ^ (-53 : ℤ) = 1 / 2 ^ 53 by norm_num, abs_of_pos (a := (7114321957452168 : ℝ) / 10 ^ 16)
    (by norm_num)] at h3
  generalize (2 : ℝ) ^ (-1075 : ℤ) = tiny at *
  generalize Real.sin _ = sn at *
  generalize rnd _ = y at *
  push_cast at h2
  rw [abs_le] at h2 h3
  rw [gt_iff_lt, lt_abs]
  left
  norm_num at *
  linarith

/-- C44. Recomputing G: if fG - gF = q modulo x^N + 1, f is not zero and G fits int32, `recompute_G` returns
G and leaves the rest of its buffer alone. -/
theorem C44_recompute_G (n : ℕ) (hn : n ≤ 10) (f g F G G0 : Mem Int) (hne : ∃ i, i < 2 ^ n ∧ f i ≠ 0)
    (hG : ∀ i, i < 2 ^ n → -2 ^ 31 ≤ G i ∧ G i < 2 ^ 31)
    (heq : ModEqXN (2 ^ n) (polyZ (2 ^ n) f * polyZ (2 ^ n) G - polyZ (2 ^ n) g * polyZ (2 ^ n) F)
      (12289 : ℤ[X])) :
    ∃ G', recomputeG exactA n f g F G0 = .ok G' ∧ (∀ i, i < 2 ^ n → G' i = G i) ∧
      ∀ i, 2 ^ n ≤ i → G' i = G0 i := by
  refine ⟨_, recomputeG_exact hn f g F G hne hG heq G0, ?_, ?_⟩
  · intro i hi; rw [if_pos hi]
  · intro i hi; rw [if_neg (by omega)]

/-- f = 1, g = 0, F = 5x, G = q is a solution of the NTRU equation. -/
example : let f : Mem Int := fun i => if i = 0 then 1 else 0
    let G : Mem Int := fun i => if i = 0 then 12289 else 0
    (∃ i, i < 2 ^ 9 ∧ f i ≠ 0) ∧ (∀ i, i < 2 ^ 9 → -2 ^ 31 ≤ G i ∧ G i < 2 ^ 31) ∧
    ModEqXN (2 ^ 9) (polyZ (2 ^ 9) f * polyZ (2 ^ 9) G
      - polyZ (2 ^ 9) (fun _ => 0) * polyZ (2 ^ 9) (fun i => if i = 1 then 5 else 0)) (12289 : ℤ[X]) := by
  refine ⟨⟨0, by norm_num, by norm_num⟩, ?_, ?_⟩
  · intro i _; dsimp only; split <;> norm_num
  · have h : ∀ c : ℤ, polyZ (2 ^ 9) (fun i => if i = 0 then c else 0) = C c := by
      intro c
      unfold polyZ toPoly
      rw [sum_eq_single 0 (by intro b _ hb; simp [hb]) (by simp)]
      simp
    have h0 : polyZ (2 ^ 9) (fun _ => 0) = 0 := by unfold polyZ toPoly; simp
    rw [h, h, h0]
    simp [ModEqXN]

end Falcon
