import Verif.Proofs.FloatCore

/-!
# Rounding errors of the norm test, and the vectors of the code
-/

namespace Falcon

open Finset

section
variable {A : Arith ℝ ℂ} (hA : Accurate A)
include hA

theorem acc_err (x : Mem ℂ) : ∀ m, m ≤ 1024 →
    ‖loop m (fun i res => A.cadd res (A.cmul (x i) (A.conj (x i)))) (A.cx (A.lit 0) (A.lit 0))
      - ((∑ i ∈ range m, ‖x i‖ ^ 2 : ℝ) : ℂ)‖ ≤ 8 * uD * m * (∑ i ∈ range m, ‖x i‖ ^ 2 + 1) := by
  intro m
  induction m with
  | zero =>
    intro _
    rw [hA.cx, lit_zero hA]
    show ‖(⟨0, 0⟩ : ℂ) - _‖ ≤ _
    have : (⟨0, 0⟩ : ℂ) = 0 := rfl
    rw [this]
    simp
  | succ m ih =>
    intro hm
    have ih := ih (by omega)
    rw [loop_succ, sum_range_succ]
    set r := loop m (fun i res => A.cadd res (A.cmul (x i) (A.conj (x i)))) (A.cx (A.lit 0) (A.lit 0))
    have hP : 0 ≤ ∑ i ∈ range m, ‖x i‖ ^ 2 := sum_nonneg fun _ _ => by positivity
    set P := ∑ i ∈ range m, ‖x i‖ ^ 2
    have h1 := hA.cmul (x m) (A.conj (x m))
    rw [hA.conj, Complex.mul_conj, Complex.normSq_eq_norm_sq, RCLike.norm_conj, ← sq] at h1
    have hd : 0 ≤ ‖x m‖ ^ 2 := by positivity
    rw [hA.conj]
    set w := A.cmul (x m) ((starRingEnd ℂ) (x m))
    set d := ‖x m‖ ^ 2
    have h2 := hA.cadd r w
    have e : A.cadd r w - ((P + d : ℝ) : ℂ) = (A.cadd r w - (r + w)) + ((r - (P : ℂ)) + (w - (d : ℂ))) := by
      push_cast; ring
    have h3 : ‖r + w‖ ≤ (P + d) + ‖r - (P : ℂ)‖ + ‖w - (d : ℂ)‖ := by
      have e2 : r + w = ((P + d : ℝ) : ℂ) + ((r - (P : ℂ)) + (w - (d : ℂ))) := by push_cast; ring
      rw [e2]
      have a1 := norm_add_le ((P + d : ℝ) : ℂ) ((r - (P : ℂ)) + (w - (d : ℂ)))
      have a2 := norm_add_le (r - (P : ℂ)) (w - (d : ℂ))
      rw [Complex.norm_real, Real.norm_of_nonneg (by positivity)] at a1
      linarith
    rw [e]
    refine (norm_add_le _ _).trans ((add_le_add h2 (norm_add_le _ _)).trans ?_)
    have hmr : (m : ℝ) ≤ 1024 := by exact_mod_cast (by omega : m ≤ 1024)
    have hm0 : (0 : ℝ) ≤ m := by positivity
    have hu := uD_pos
    have hu2 : 8 * uD * 1024 ≤ 1 := by unfold uD; norm_num
    have ht : tinyD ≤ uD / 10 ^ 6 := tinyD_le
    have htp := tinyD_pos
    generalize ‖r - (P : ℂ)‖ = E at *
    generalize ‖w - (d : ℂ)‖ = F at *
    generalize ‖r + w‖ = G at *
    push_cast
    have k1 : E ≤ 8 * uD * m * (P + d + 1) := by
      refine ih.trans ?_
      have : 0 ≤ 8 * uD * m * d := by positivity
      linarith
    have k2 : E ≤ P + d + 1 := by
      have : 8 * uD * m * (P + d + 1) ≤ 1 * (P + d + 1) := by
        apply mul_le_mul_of_nonneg_right _ (by linarith)
        nlinarith
      linarith
    have k3 : F ≤ d + 1 := by
      have : 4 * uD * d ≤ 1 / 2 * d := mul_le_mul_of_nonneg_right (by nlinarith) hd
      have : tinyD ≤ 1 := by unfold tinyD; norm_num
      linarith
    have k4 : uD * G ≤ uD * ((P + d) + (P + d + 1) + (d + 1)) :=
      mul_le_mul_of_nonneg_left (by linarith) hu.le
    have k5 : 0 ≤ uD * P := by positivity
    have k6 : 0 ≤ uD * d := by positivity
    have k7 : 8 * uD * (m + 1) * (P + d + 1) = 8 * uD * m * (P + d + 1) + (8 * (uD * P) + 8 * (uD * d) + 8 * uD) := by ring
    have k8 : uD * ((P + d) + (P + d + 1) + (d + 1)) = 2 * (uD * P) + 3 * (uD * d) + 2 * uD := by ring
    rw [k7]
    rw [k8] at k4
    have k9 : 4 * uD * d = 4 * (uD * d) := by ring
    rw [k9] at h1
    linarith

theorem normC_err {n : ℕ} (hn : n ≤ 10) (x : Mem ℂ) :
    nC (2 ^ n) x ^ 2 / 2 ^ n ≤ (1 + 1 / 2 ^ 37) * sqrdNormC A n x + 1 / 2 ^ 37 := by
  have h2n : (2 : ℕ) ^ n ≤ 1024 := (Nat.pow_le_pow_right (by norm_num) hn).trans (by norm_num)
  have h := acc_err hA x (2 ^ n) h2n
  rw [nC_sq]
  unfold sqrdNormC
  simp only
  rw [one_shiftLeft']
  set r := loop (2 ^ n) (fun i res => A.cadd res (A.cmul (x i) (A.conj (x i)))) (A.cx (A.lit 0) (A.lit 0))
  have hP : 0 ≤ ∑ i ∈ range (2 ^ n), ‖x i‖ ^ 2 := sum_nonneg fun _ _ => by positivity
  set P := ∑ i ∈ range (2 ^ n), ‖x i‖ ^ 2
  have hl : A.lit (2 ^ n) = 2 ^ n := by
    have := hA.lit_small (2 ^ n) (by
      rw [abs_of_nonneg (by positivity)]
      exact pow_le_pow_right₀ (by norm_num) (by omega))
    push_cast at this
    exact this
  have hNp : (1 : ℝ) ≤ 2 ^ n := one_le_pow₀ (by norm_num)
  have hN2 : (2 : ℝ) ^ n ≤ 1024 := by exact_mod_cast h2n
  rw [hl, hA.re]
  have hd := hA.div r.re (2 ^ n) (by rw [abs_of_nonneg (by positivity)]; exact hNp)
  have hre : |r.re - P| ≤ 8 * uD * (2 ^ n : ℕ) * (P + 1) := by
    have := Complex.abs_re_le_norm (r - (P : ℂ))
    rw [Complex.sub_re, Complex.ofReal_re] at this
    exact this.trans h
  have hre2 : 8 * uD * (2 ^ n : ℕ) * (P + 1) ≤ 1 / 2 ^ 40 * (P + 1) := by
    apply mul_le_mul_of_nonneg_right _ (by linarith)
    push_cast
    have : 8 * uD * 2 ^ n ≤ 8 * uD * 1024 := mul_le_mul_of_nonneg_left hN2 (by have := uD_pos; linarith)
    refine this.trans ?_
    unfold uD; norm_num
  have hre3 := hre.trans hre2
  rw [abs_le] at hre3
  set D := A.div r.re (2 ^ n)
  set N : ℝ := 2 ^ n
  have hNpos : 0 < N := by linarith
  rw [abs_div, abs_of_pos hNpos] at hd
  have e1 : |r.re| ≤ P + 1 / 2 ^ 40 * (P + 1) := by rw [abs_le]; constructor <;> linarith
  have e2 : r.re / N - uD * (|r.re| / N) - tinyD ≤ D := by
    have := (abs_le.mp hd).1
    linarith
  have e3 : (P - 1 / 2 ^ 40 * (P + 1) - uD * (P + 1 / 2 ^ 40 * (P + 1))) / N - tinyD ≤ D := by
    refine le_trans ?_ e2
    have : (P - 1 / 2 ^ 40 * (P + 1) - uD * (P + 1 / 2 ^ 40 * (P + 1))) / N ≤ (r.re - uD * |r.re|) / N := by
      apply div_le_div_of_nonneg_right _ hNpos.le
      have := mul_le_mul_of_nonneg_left e1 uD_pos.le
      linarith
    have e : (r.re - uD * |r.re|) / N = r.re / N - uD * (|r.re| / N) := by ring
    rw [e] at this
    linarith
  have e4 : (1 - 1 / 2 ^ 38) * (P / N) - 1 / 2 ^ 39 / N ≤ (P - 1 / 2 ^ 40 * (P + 1) - uD * (P + 1 / 2 ^ 40 * (P + 1))) / N := by
    rw [← mul_div_assoc, ← sub_div]
    apply div_le_div_of_nonneg_right _ hNpos.le
    unfold uD; norm_num; linarith
  have e5 : 1 / 2 ^ 39 / N ≤ 1 / 2 ^ 39 := div_le_self (by norm_num) hNp
  have e6 : tinyD ≤ 1 / 2 ^ 60 := by unfold tinyD; norm_num
  have e7 : 0 ≤ P / N := by positivity
  generalize P / N = v at *
  have e8 : (1 - 1 / 2 ^ 38) * v - 1 / 2 ^ 39 - 1 / 2 ^ 60 ≤ D := by linarith
  clear e1 e2 e3 e4 hd hre hre2 hre3
  norm_num at *
  linarith

/-- The norm test. -/
theorem test_norm {n : ℕ} (hn : ValidLog n) {S0 S1 : Mem ℂ}
    (h : A.le (signNorm A n S0 S1) (A.lit (beta2 n)) = true) :
    nC (2 ^ n) S0 ^ 2 + nC (2 ^ n) S1 ^ 2 ≤ 2 ^ n * (betaSq n + 1 / 100) := by
  have hn10 : n ≤ 10 := by rcases hn with rfl | rfl <;> norm_num
  have hb : betaSq n ≤ 70265242 ∧ 34034726 ≤ betaSq n := by unfold betaSq; split <;> norm_num
  rw [hA.le] at h
  have hl := hA.lit_small (beta2 n) (by
    rw [beta2_eq hn, abs_of_nonneg (by omega)]
    exact hb.1.trans (by norm_num))
  rw [hl, beta2_eq hn] at h
  unfold signNorm at h
  have h1 := normC_err hA hn10 S0
  have h2 := normC_err hA hn10 S1
  have h3 := hA.add (sqrdNormC A n S0) (sqrdNormC A n S1)
  have hN : (0 : ℝ) < 2 ^ n := by positivity
  have hb1 : (betaSq n : ℝ) ≤ 70265242 := by exact_mod_cast hb.1
  have hb2 : (34034726 : ℝ) ≤ betaSq n := by exact_mod_cast hb.2
  have q1 : 0 ≤ nC (2 ^ n) S0 ^ 2 / 2 ^ n := by positivity
  have q2 : 0 ≤ nC (2 ^ n) S1 ^ 2 / 2 ^ n := by positivity
  have key : nC (2 ^ n) S0 ^ 2 / 2 ^ n + nC (2 ^ n) S1 ^ 2 / 2 ^ n ≤ betaSq n + 1 / 100 := by
    generalize nC (2 ^ n) S0 ^ 2 / 2 ^ n = x at *
    generalize nC (2 ^ n) S1 ^ 2 / 2 ^ n = y at *
    generalize sqrdNormC A n S0 = c at *
    generalize sqrdNormC A n S1 = d at *
    generalize A.add c d = w at *
    generalize (betaSq n : ℝ) = b at *
    have h4 := (abs_le.mp h3).1
    have h5 : c + d ≤ b + 1 / 1000 := by
      have ht : tinyD ≤ 1 / 10000 := by unfold tinyD; norm_num
      rcases le_or_gt 0 (c + d) with h0 | h0
      · rw [abs_of_nonneg h0] at h4
        have hu : uD = 1 / 2 ^ 53 := rfl
        rw [hu] at h4
        norm_num at h4
        linarith
      · linarith
    norm_num at h1 h2
    linarith
  rw [← add_div, div_le_iff₀ hN] at key
  linarith

/-! ### The code -/

theorem ofReal_eq (x : ℝ) : A.ofReal x = (x : ℂ) := by
  show A.cx x (A.lit 0) = _
  rw [hA.cx, lit_zero hA]
  rfl

theorem basis_near {n : ℕ} (hn : ValidLog n) (a : Mem Int) (x : Mem ℂ) (d : ℂ) (hd : d = 1 ∨ d = -1) {k : ℤ} {m : ℝ}
    (hk : ∀ i, i < 2 ^ n → |a i| ≤ k) (hx : ∀ i, i < 2 ^ n → x i = d * zC a i)
    (hm1 : (k : ℝ) * 2 ^ n + 200 ≤ m) (hm2 : m ≤ 2 ^ 17) (h0 : 0 ≤ k) :
    NearBas n m (fft A n x) (fun i => d * dft n (zC a) i) := by
  have hn10 : n ≤ 10 := by rcases hn with rfl | rfl <;> norm_num
  obtain ⟨hs1, hs2⟩ := sqrt2_bounds hn
  have hsN := sqrt2_sq n
  have hk0 : (0 : ℝ) ≤ k := by exact_mod_cast h0
  have hnd : ‖d‖ = 1 := by rcases hd with rfl | rfl <;> simp
  have hnorm : nC (2 ^ n) (fun i => d * zC a i) ≤ Real.sqrt 2 ^ n * k := by
    rw [← sqrt_pow2, ← l2_const _ hk0]
    unfold nC
    refine l2_mono fun i hi => ?_
    rw [abs_of_nonneg (norm_nonneg _), norm_mul, hnd, one_mul]
    show ‖((a i : ℤ) : ℂ)‖ ≤ _
    rw [Complex.norm_intCast]
    exact_mod_cast hk i hi
  have hdft : ∀ i, dft n (fun i => d * zC a i) i = d * dft n (zC a) i := by
    intro i
    unfold dft
    rw [mul_sum]
    exact sum_congr rfl fun j _ => by ring
  have herr := fft_near hA hn10 (fun i => d * zC a i) x hx
  have hsize : nC (2 ^ n) (dft n (fun i => d * zC a i)) ≤ 0 + Real.sqrt 2 ^ n * (Real.sqrt 2 ^ n * k) := by
    rw [nC_dft hn10, zero_add]
    exact mul_le_mul_of_nonneg_left hnorm (by linarith)
  have hb : ∀ i, i < 2 ^ n → ‖d * dft n (zC a) i‖ ≤ k * 2 ^ n := by
    intro i hi
    rw [norm_mul, hnd, one_mul]
    unfold dft
    refine (norm_sum_le _ _).trans ?_
    refine (sum_le_sum (g := fun _ => (k : ℝ)) fun j hj => ?_).trans ?_
    · rw [norm_mul, norm_pow, fftPoint_norm, one_pow, mul_one]
      show ‖((a j : ℤ) : ℂ)‖ ≤ _
      rw [Complex.norm_intCast]
      exact_mod_cast hk j (mem_range.mp hj)
    · simp; linarith
  have hkap := kapD_pos
  have he : ∀ i, i < 2 ^ n → ‖fft A n x i - d * dft n (zC a) i‖ ≤ kapD * m := by
    intro i hi
    have h1 := nC_ge (a := fun i => fft A n x i - dft n (fun i => d * zC a i) i) hi
    rw [hdft] at h1
    refine h1.trans (herr.trans ?_)
    apply mul_le_mul_of_nonneg_left _ hkap.le
    have : Real.sqrt 2 ^ n * (nC (2 ^ n) (fun i => d * zC a i) + 1) ≤ Real.sqrt 2 ^ n * (Real.sqrt 2 ^ n * k + 1) :=
      mul_le_mul_of_nonneg_left (by linarith) (by linarith)
    refine this.trans ?_
    rw [mul_add, ← mul_assoc, hsN]
    linarith
  have hm0 : 0 ≤ (k : ℝ) * 2 ^ n := by positivity
  intro i hi
  refine ⟨?_, (hb i hi).trans (by linarith), he i hi⟩
  have h2 : ‖fft A n x i‖ ≤ ‖d * dft n (zC a) i‖ + ‖fft A n x i - d * dft n (zC a) i‖ := by
    have := norm_add_le (d * dft n (zC a) i) (fft A n x i - d * dft n (zC a) i)
    rwa [add_sub_cancel] at this
  have h3 : kapD * m ≤ kapD * 2 ^ 17 := mul_le_mul_of_nonneg_left hm2 hkap.le
  have h4 : kapD * 2 ^ 17 ≤ 1 := by unfold kapD; norm_num
  linarith [hb i hi, he i hi]

end

end Falcon
