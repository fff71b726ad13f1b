import Verif.Proofs.SigTail

/-! # Gaussian pairs with a large coefficient, or too long for compression -/

namespace Falcon

open Real

theorem total_le {n : ℕ} (hn : ValidLog n) : ∑' z : ℤ, gaussW 0 (sigmaSig n) z ≤ (if n = 10 then 422.088 else 415.441 : ℝ) := by
  have h1 := gauss_sum 0 (sigma := sigmaSig n) (by unfold sigmaSig; rcases hn with rfl | rfl <;> norm_num)
  have h2 : √(2 * π) ≤ (2.50663 : ℝ) := by
    refine Real.sqrt_le_iff.mpr ⟨by norm_num, ?_⟩
    have := Real.pi_lt_d6
    norm_num
    linarith
  have h3 := (abs_le.mp h1).2
  have h4 := mul_le_mul_of_nonneg_left h2 (sigmaSig_pos n).le
  have h5 : ∑' z : ℤ, gaussW 0 (sigmaSig n) z ≤ sigmaSig n * √(2 * π) * (1 + 1 / 2 ^ 38) := by linarith
  refine h5.trans ((mul_le_mul_of_nonneg_right h4 (by norm_num)).trans ?_)
  unfold sigmaSig
  rcases hn with rfl | rfl <;> norm_num

section
variable {sigma : ℝ}

theorem gaussMean_one (hs : 0 < sigma) : gaussMean 0 sigma (fun _ => 1) = 1 := by
  unfold gaussMean
  simp only [mul_one]
  exact div_self (gauss_total_pos 0 hs).ne'

theorem gaussMean_nonneg {f : ℤ → ℝ} (hf : ∀ z, 0 ≤ f z) : 0 ≤ gaussMean 0 sigma f :=
  div_nonneg (tsum_nonneg fun z => mul_nonneg (gaussW_pos _ _ _).le (hf z)) (tsum_nonneg fun z => (gaussW_pos _ _ _).le)

theorem gaussPr_nonneg0 (A : Set ℤ) : 0 ≤ gaussPr 0 sigma A := gaussMean_nonneg fun z => by split <;> norm_num

theorem gaussPr_univ0 (hs : 0 < sigma) : gaussPr 0 sigma Set.univ = 1 := by
  unfold gaussPr
  simp only [Set.mem_univ, if_true]
  exact gaussMean_one hs

theorem gaussPr_of {A : Set ℤ} {f : ℤ → ℝ} (h1 : ∀ z ∈ A, f z = gaussW 0 sigma z) (h2 : ∀ z ∉ A, f z = 0) :
    gaussPr 0 sigma A = (∑' z, f z) / ∑' z, gaussW 0 sigma z := by
  unfold gaussPr gaussMean
  congr 1
  refine tsum_congr fun z => ?_
  beta_reduce
  split
  · rename_i h
    rw [h1 z h, mul_one]
  · rename_i h
    rw [h2 z h, mul_zero]

open Classical in
theorem summable_indW (hs : 0 < sigma) (A : Set ℤ) : Summable fun z => gaussW 0 sigma z * if z ∈ A then 1 else 0 :=
  Summable.of_nonneg_of_le (fun z => mul_nonneg (gaussW_pos _ _ _).le (by split <;> norm_num))
    (fun z => mul_le_of_le_one_right (gaussW_pos _ _ _).le (by split <;> norm_num)) (summable_gaussW 0 hs)

end

/-- The tail beyond 1024. -/
theorem tail_1024 {n : ℕ} (hn : ValidLog n) : gaussPr 0 (sigmaSig n) {z | 1024 ≤ |z|} ≤ 1 / 2 ^ (39 - 2 * n) / 2 ^ n := by
  obtain ⟨f, hf⟩ : ∃ f : ℕ → ℝ, f = fun j => if 1024 ≤ j then rhoN (sigmaSig n) j else 0 := ⟨_, rfl⟩
  have hs : Summable f := Summable.of_nonneg_of_le (fun j => by rw [hf]; simp only; split <;> first | exact (rhoN_pos _ _).le | exact le_rfl)
    (fun j => by rw [hf]; simp only; split <;> first | exact le_rfl | exact (rhoN_pos _ _).le) (summable_rhoN hn)
  have e : gaussPr 0 (sigmaSig n) {z | 1024 ≤ |z|} = (∑' z : ℤ, f z.natAbs) / ∑' z, gaussW 0 (sigmaSig n) z := by
    refine gaussPr_of (fun z hz => ?_) (fun z hz => ?_)
    · have h : 1024 ≤ z.natAbs := by have : 1024 ≤ |z| := hz; rw [Int.abs_eq_natAbs] at this; omega
      rw [gaussW_rhoN, hf]
      exact if_pos h
    · have h : ¬ 1024 ≤ z.natAbs := by have : ¬ 1024 ≤ |z| := hz; rw [Int.abs_eq_natAbs] at this; omega
      rw [hf]
      exact if_neg h
  have hr := rat_1024 hn
  have hp : 0 ≤ ptUp n := (rhoN_pos _ _).le.trans (rho_1024 hn).2
  have ht : ∑' j, f (j + 1024) ≤ ptUp n * 28.2486 := by
    have hg := (hasSum_geometric_of_lt_one (r := (0.9646 : ℝ)) (by norm_num) (by norm_num)).mul_left (ptUp n)
    refine le_trans (((summable_nat_add_iff 1024).mpr hs).tsum_le_tsum (fun j => ?_) hg.summable) (hg.tsum_eq.le.trans ?_)
    · rw [hf]
      simp only [Nat.le_add_left, if_true]
      have h1 := rhoN_tail (sigmaSig n) 1024 j
      rw [Nat.add_comm 1024 j] at h1
      exact h1.trans (mul_le_mul (rho_1024 hn).2 (pow_le_pow_left₀ (Real.exp_pos _).le hr j) (by positivity) hp)
    · exact mul_le_mul_of_nonneg_left (by norm_num) hp
  rw [e, div_le_iff₀ (gauss_total_pos 0 (sigmaSig_pos n)), (hasSum_even hs).tsum_eq]
  have h1 := hs.sum_add_tsum_nat_add 1024
  have h2 := hs.sum_add_tsum_nat_add 1
  have h3 : ∑ j ∈ Finset.range 1024, f j = 0 := Finset.sum_eq_zero fun j hj => by
    rw [hf]
    exact if_neg (by have := Finset.mem_range.mp hj; omega)
  have h4 : f 0 = 0 := by rw [hf]; exact if_neg (by norm_num)
  rw [Finset.sum_range_one, h4] at h2
  rw [h3] at h1
  rw [h4]
  have hT := total_ge hn
  have hc : 0 + 2 * (ptUp n * 28.2486) ≤ 1 / 2 ^ (39 - 2 * n) / 2 ^ n * (if n = 10 then 422.082 else 415.435 : ℝ) := by
    unfold ptUp
    rcases hn with rfl | rfl <;> norm_num
  refine le_trans ?_ (hc.trans (mul_le_mul_of_nonneg_left hT (by positivity)))
  linarith

/-- The probability of 1024 <= |z| <= 1151. -/
theorem band_ge {n : ℕ} (hn : ValidLog n) : 1.25 * (1 / 2 ^ (40 - 2 * n) / 2 ^ n) ≤ gaussPr 0 (sigmaSig n) {z | 1024 ≤ |z| ∧ |z| ≤ 1151} := by
  obtain ⟨f, hf⟩ : ∃ f : ℕ → ℝ, f = fun j => if 1024 ≤ j ∧ j ≤ 1151 then rhoN (sigmaSig n) j else 0 := ⟨_, rfl⟩
  have hs : Summable f := Summable.of_nonneg_of_le (fun j => by rw [hf]; simp only; split <;> first | exact (rhoN_pos _ _).le | exact le_rfl)
    (fun j => by rw [hf]; simp only; split <;> first | exact le_rfl | exact (rhoN_pos _ _).le) (summable_rhoN hn)
  have e : gaussPr 0 (sigmaSig n) {z | 1024 ≤ |z| ∧ |z| ≤ 1151} = (∑' z : ℤ, f z.natAbs) / ∑' z, gaussW 0 (sigmaSig n) z := by
    refine gaussPr_of (fun z hz => ?_) (fun z hz => ?_)
    · have h : 1024 ≤ z.natAbs ∧ z.natAbs ≤ 1151 := by have : 1024 ≤ |z| ∧ |z| ≤ 1151 := hz; rw [Int.abs_eq_natAbs] at this; omega
      rw [gaussW_rhoN, hf]
      exact if_pos h
    · have h : ¬ (1024 ≤ z.natAbs ∧ z.natAbs ≤ 1151) := by have : ¬ (1024 ≤ |z| ∧ |z| ≤ 1151) := hz; rw [Int.abs_eq_natAbs] at this; omega
      rw [hf]
      exact if_neg h
  rw [e, le_div_iff₀ (gauss_total_pos 0 (sigmaSig_pos n)), (hasSum_even hs).tsum_eq]
  have h2 := hs.sum_add_tsum_nat_add 1
  have h1 := hs.sum_add_tsum_nat_add 1152
  have h4 : f 0 = 0 := by rw [hf]; exact if_neg (by norm_num)
  have h5 : 0 ≤ ∑' j, f (j + 1152) := tsum_nonneg fun j => by rw [hf]; simp only; split <;> first | exact (rhoN_pos _ _).le | exact le_rfl
  have h3 : ∑ j ∈ Finset.range 1152, f j = ∑ j ∈ Finset.range 1152, (bandWt j : ℝ) * rhoN (sigmaSig n) j := Finset.sum_congr rfl fun j hj => by
    have := Finset.mem_range.mp hj
    rw [hf]
    unfold bandWt
    by_cases h : j < 1024
    · simp [h, not_le.mpr h]
    · simp only [not_lt.mp h, show j ≤ 1151 by omega, and_self, if_true, h, if_false, Nat.cast_one, one_mul]
  have h6 := rho_band hn
  rw [Finset.sum_range_one, h4] at h2
  rw [h3] at h1
  rw [h4]
  have hT := total_le hn
  have hc : 1.25 * (1 / 2 ^ (40 - 2 * n) / 2 ^ n) * (if n = 10 then 422.088 else 415.441 : ℝ) ≤ 2 * (if n = 10 then 2547 / 10 ^ 10 else 1362 / 10 ^ 10 : ℝ) := by
    rcases hn with rfl | rfl <;> norm_num
  have hm := mul_le_mul_of_nonneg_left hT (show (0 : ℝ) ≤ 1.25 * (1 / 2 ^ (40 - 2 * n) / 2 ^ n) by positivity)
  generalize (if n = 10 then 2547 / 10 ^ 10 else 1362 / 10 ^ 10 : ℝ) = b at *
  refine hm.trans (hc.trans ?_)
  linarith

/-- The probability of -1024. -/
theorem point_ge {n : ℕ} (hn : ValidLog n) : 1.25 * (1 / 2 ^ (46 - 2 * n) / 2 ^ n) ≤ gaussPr 0 (sigmaSig n) {-1024} := by
  have e : gaussPr 0 (sigmaSig n) {-1024} = rhoN (sigmaSig n) 1024 / ∑' z, gaussW 0 (sigmaSig n) z := by
    rw [gaussPr_of (A := {-1024}) (f := fun z => if z = -1024 then rhoN (sigmaSig n) 1024 else 0) (fun z hz => ?_) (fun z hz => if_neg fun h => hz (Set.mem_singleton_iff.mpr h)), tsum_ite_eq]
    rw [Set.mem_singleton_iff.mp hz, if_pos rfl, gaussW_rhoN]
    rfl
  rw [e, le_div_iff₀ (gauss_total_pos 0 (sigmaSig_pos n))]
  have hT := total_le hn
  have hm := mul_le_mul_of_nonneg_left hT (show (0 : ℝ) ≤ 1.25 * (1 / 2 ^ (46 - 2 * n) / 2 ^ n) by positivity)
  refine hm.trans (le_trans ?_ (rho_1024 hn).1)
  unfold ptLo
  rcases hn with rfl | rfl <;> norm_num

/-! ## The norm -/

/-- The exponential moment of the square. -/
theorem sq_moment {n : ℕ} (hn : ValidLog n) :
    (Summable fun z : ℤ => gaussW 0 (sigmaSig n) z * Real.exp ((z : ℝ) ^ 2 / (2 * sigmaSig n ^ 2) * (21 / 121))) ∧
    gaussMean 0 (sigmaSig n) (fun z => Real.exp ((z : ℝ) ^ 2 / (2 * sigmaSig n ^ 2) * (21 / 121))) ≤ 1.1001 := by
  have hp := sigmaSig_pos n
  have e : (fun z : ℤ => gaussW 0 (sigmaSig n) z * Real.exp ((z : ℝ) ^ 2 / (2 * sigmaSig n ^ 2) * (21 / 121))) = fun z => gaussW 0 (1.1 * sigmaSig n) z := by
    funext z
    unfold gaussW
    rw [← Real.exp_add]
    congr 1
    have e2 : ((z : ℝ) - 0) ^ 2 / (2 * (1.1 * sigmaSig n) ^ 2) = ((z : ℝ) - 0) ^ 2 / (2 * sigmaSig n ^ 2) * (100 / 121) := by
      field_simp
      norm_num
      ring
    rw [e2, sub_zero]
    ring
  rw [e]
  refine ⟨summable_gaussW 0 (by positivity), ?_⟩
  unfold gaussMean
  rw [e, div_le_iff₀ (gauss_total_pos 0 hp)]
  have hlo : 6 / 5 ≤ sigmaSig n := by unfold sigmaSig; rcases hn with rfl | rfl <;> norm_num
  have h1 := (abs_le.mp (gauss_sum 0 (sigma := 1.1 * sigmaSig n) (by linarith))).2
  have h2 := (abs_le.mp (gauss_sum 0 hlo)).1
  have h3 : 0 < sigmaSig n * √(2 * π) := by positivity
  rw [mul_assoc] at h1
  generalize sigmaSig n * √(2 * π) = c at *
  generalize ∑' z : ℤ, gaussW 0 (sigmaSig n) z = x at *
  have h4 : c * (1 - 1 / 2 ^ 38) ≤ x := by linarith
  have : ∑' z : ℤ, gaussW 0 (1.1 * sigmaSig n) z ≤ 1.1 * c * (1 + 1 / 2 ^ 38) := by linarith
  refine this.trans (le_trans ?_ (mul_le_mul_of_nonneg_left h4 (by norm_num)))
  have : (1.1 * (1 + 1 / 2 ^ 38) : ℝ) ≤ 1.1001 * (1 - 1 / 2 ^ 38) := by norm_num
  nlinarith

end Falcon
