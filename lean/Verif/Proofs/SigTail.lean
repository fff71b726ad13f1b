import Verif.Proofs.GaussTab

/-! # Coefficients of Gaussian pairs: tails and exponential moments -/

namespace Falcon

open Real

theorem hasSum_even {f : ℕ → ℝ} (hf : Summable f) : HasSum (fun z : ℤ => f z.natAbs) (f 0 + 2 * ∑' j, f (j + 1)) := by
  have hs : Summable fun j => f (j + 1) := (summable_nat_add_iff 1).mpr hf
  have h := HasSum.of_add_one_of_neg_add_one (f := fun z : ℤ => f z.natAbs) (m := ∑' j, f (j + 1)) (m' := ∑' j, f (j + 1))
    (hs.hasSum.congr_fun fun j => by
      show f ((j : ℤ) + 1).natAbs = _
      congr 1) (hs.hasSum.congr_fun fun j => by
      show f (-((j : ℤ) + 1)).natAbs = _
      congr 1)
  have e : f 0 + 2 * ∑' j, f (j + 1) = ∑' j, f (j + 1) + f (0 : ℤ).natAbs + ∑' j, f (j + 1) := by
    rw [Int.natAbs_zero]
    ring
  rw [e]
  exact h

theorem rhoN_tail (sigma : ℝ) (K j : ℕ) : rhoN sigma (K + j) ≤ rhoN sigma K * Real.exp (-(K / sigma ^ 2)) ^ j := by
  unfold rhoN
  rw [← Real.exp_nat_mul, ← Real.exp_add]
  refine Real.exp_le_exp.mpr ?_
  have e : -(((K + j : ℕ) : ℝ) ^ 2 / (2 * sigma ^ 2)) = -((K : ℝ) ^ 2 / (2 * sigma ^ 2)) + j * -(K / sigma ^ 2) - (j : ℝ) ^ 2 / (2 * sigma ^ 2) := by
    by_cases h : sigma = 0
    · subst h; simp
    push_cast
    field_simp
    ring
  rw [e]
  have : 0 ≤ (j : ℝ) ^ 2 / (2 * sigma ^ 2) := by positivity
  linarith

/-- Bounds of rho(1024). -/
noncomputable def ptUp (n : ℕ) : ℝ := if n = 10 then 9328 / 10 ^ 12 else 5138 / 10 ^ 12
noncomputable def ptLo (n : ℕ) : ℝ := if n = 10 then 9324 / 10 ^ 12 else 5135 / 10 ^ 12

theorem nat_le_real {a b c d : ℕ} (h : a * b ≤ c * 2 ^ 64) (hd : d = b) (hb : 0 < b) : (a : ℝ) / 2 ^ 64 ≤ c / d := by
  subst hd
  rw [div_le_div_iff₀ (by norm_num) (by exact_mod_cast hb)]
  exact_mod_cast h

theorem nat_ge_real {a b c d : ℕ} (h : c * 2 ^ 64 ≤ a * b) (hd : d = b) (hb : 0 < b) : (c : ℝ) / d ≤ a / 2 ^ 64 := by
  subst hd
  rw [div_le_div_iff₀ (by exact_mod_cast hb) (by norm_num)]
  exact_mod_cast h

theorem sum_pointWt (sigma : ℝ) : ∑ j ∈ Finset.range 1025, (pointWt j : ℝ) * rhoN sigma j = rhoN sigma 1024 := by
  rw [Finset.sum_eq_single 1024]
  · simp [pointWt]
  · intro j _ hj
    simp [pointWt, hj]
  · intro h
    simp at h

theorem rho_1024 {n : ℕ} (hn : ValidLog n) : ptLo n ≤ rhoN (sigmaSig n) 1024 ∧ rhoN (sigmaSig n) 1024 ≤ ptUp n := by
  obtain ⟨c1, c2, c3, c4⟩ := point_cert
  have h1 := tab_up hn pointWt 1025
  have h2 := tab_lo hn pointWt 1025
  rw [sum_pointWt] at h1 h2
  unfold ptLo ptUp
  rcases hn with rfl | rfl
  · rw [if_neg (by norm_num), if_neg (by norm_num)]
    refine ⟨le_trans (le_of_eq ?_) ((nat_ge_real c3 rfl (by norm_num)).trans h2), h1.trans ((nat_le_real c1 rfl (by norm_num)).trans (le_of_eq ?_))⟩ <;> norm_num
  · rw [if_pos rfl, if_pos rfl]
    refine ⟨le_trans (le_of_eq ?_) ((nat_ge_real c4 rfl (by norm_num)).trans h2), h1.trans ((nat_le_real c2 rfl (by norm_num)).trans (le_of_eq ?_))⟩ <;> norm_num

theorem rho_band {n : ℕ} (hn : ValidLog n) :
    (if n = 10 then 2547 / 10 ^ 10 else 1362 / 10 ^ 10 : ℝ) ≤ ∑ j ∈ Finset.range 1152, (bandWt j : ℝ) * rhoN (sigmaSig n) j := by
  obtain ⟨c1, c2⟩ := band_cert
  have h2 := tab_lo hn bandWt 1152
  rcases hn with rfl | rfl
  · rw [if_neg (by norm_num)]
    refine le_trans (le_of_eq ?_) ((nat_ge_real c1 rfl (by norm_num)).trans h2)
    norm_num
  · rw [if_pos rfl]
    refine le_trans (le_of_eq ?_) ((nat_ge_real c2 rfl (by norm_num)).trans h2)
    norm_num

/-- The ratio of the tail. -/
theorem rat_1024 {n : ℕ} (hn : ValidLog n) : Real.exp (-((1024 : ℕ) / sigmaSig n ^ 2)) ≤ 0.9646 := by
  refine exp_neg_up (by positivity) ?_
  unfold sigmaSig
  rcases hn with rfl | rfl <;> norm_num

/-- The base of the Chernoff bound. -/
noncomputable def cBase (n : ℕ) : ℝ := if n = 10 then 9 / 8 else 5 / 4

theorem cBase_mem (n : ℕ) : 1 ≤ cBase n ∧ cBase n ≤ 5 / 4 := by
  unfold cBase
  split <;> norm_num

theorem cBase_pow (n j : ℕ) : cBase n ^ (j / 128) ≤ 1.01 ^ j := by
  have h1 : cBase n ≤ 1.01 ^ 128 := (cBase_mem n).2.trans (by norm_num)
  have h0 : 0 ≤ cBase n := by linarith [(cBase_mem n).1]
  refine (pow_le_pow_left₀ h0 h1 _).trans ?_
  rw [← pow_mul]
  exact pow_le_pow_right₀ (by norm_num) (Nat.mul_div_le j 128)

/-- Terms of the tail of the exponential moment. -/
theorem moment_tail {n : ℕ} (hn : ValidLog n) (j : ℕ) :
    rhoN (sigmaSig n) (j + 1024) * cBase n ^ ((j + 1024) / 128) ≤ ptUp n * 6 * 0.975 ^ j := by
  have h0 : 0 ≤ cBase n := by linarith [(cBase_mem n).1]
  have h1 := rhoN_tail (sigmaSig n) 1024 j
  rw [Nat.add_comm 1024 j] at h1
  have hp : 0 ≤ ptUp n := (rhoN_pos _ _).le.trans (rho_1024 hn).2
  have h2 : rhoN (sigmaSig n) (j + 1024) ≤ ptUp n * 0.9646 ^ j :=
    h1.trans (mul_le_mul (rho_1024 hn).2 (pow_le_pow_left₀ (Real.exp_pos _).le (rat_1024 hn) j) (by positivity) hp)
  have e : (j + 1024) / 128 = j / 128 + 8 := by omega
  rw [e, pow_add]
  have h3 : cBase n ^ 8 ≤ 6 := (pow_le_pow_left₀ h0 (cBase_mem n).2 8).trans (by norm_num)
  have h4 : cBase n ^ (j / 128) * cBase n ^ 8 ≤ 1.01 ^ j * 6 := mul_le_mul (cBase_pow n j) h3 (by positivity) (by positivity)
  calc _ ≤ ptUp n * 0.9646 ^ j * (1.01 ^ j * 6) := mul_le_mul h2 h4 (by positivity) (by positivity)
    _ = ptUp n * 6 * (0.9646 * 1.01) ^ j := by rw [mul_pow]; ring
    _ ≤ _ := mul_le_mul_of_nonneg_left (pow_le_pow_left₀ (by norm_num) (by norm_num) j) (by positivity)

theorem geo_975 : HasSum (fun j : ℕ => (0.975 : ℝ) ^ j) 40 := by
  have := hasSum_geometric_of_lt_one (r := (0.975 : ℝ)) (by norm_num) (by norm_num)
  norm_num at this ⊢
  exact this

theorem summable_moment {n : ℕ} (hn : ValidLog n) : Summable fun j : ℕ => rhoN (sigmaSig n) j * cBase n ^ (j / 128) := by
  have h0 : 0 ≤ cBase n := by linarith [(cBase_mem n).1]
  refine (summable_nat_add_iff 1024).mp ?_
  exact Summable.of_nonneg_of_le (fun j => mul_nonneg (rhoN_pos _ _).le (by positivity)) (moment_tail hn) (geo_975.summable.mul_left _)

theorem summable_rhoN {n : ℕ} (hn : ValidLog n) : Summable fun j : ℕ => rhoN (sigmaSig n) j :=
  Summable.of_nonneg_of_le (fun _ => (rhoN_pos _ _).le) (fun _ => le_mul_of_one_le_right (rhoN_pos _ _).le (one_le_pow₀ (cBase_mem n).1)) (summable_moment hn)

/-- The bound of the exponential moment. -/
noncomputable def cMom (n : ℕ) : ℝ := if n = 10 then 1.0784 else 1.1582

theorem total_ge {n : ℕ} (hn : ValidLog n) : (if n = 10 then 422.082 else 415.435 : ℝ) ≤ ∑' z : ℤ, gaussW 0 (sigmaSig n) z := by
  have h1 := gauss_sum 0 (sigma := sigmaSig n) (by unfold sigmaSig; rcases hn with rfl | rfl <;> norm_num)
  have h2 : (2.5066 : ℝ) ≤ √(2 * π) := by
    refine Real.le_sqrt_of_sq_le ?_
    have := Real.pi_gt_d6
    norm_num
    linarith
  have h3 := (abs_le.mp h1).1
  have h4 := mul_le_mul_of_nonneg_left h2 (sigmaSig_pos n).le
  have h5 : sigmaSig n * √(2 * π) * (1 - 1 / 2 ^ 38) ≤ ∑' z : ℤ, gaussW 0 (sigmaSig n) z := by linarith
  refine le_trans ?_ ((mul_le_mul_of_nonneg_right h4 (by norm_num)).trans h5)
  unfold sigmaSig
  rcases hn with rfl | rfl <;> norm_num

theorem moment_sum {n : ℕ} (hn : ValidLog n) : ∑' z : ℤ, gaussW 0 (sigmaSig n) z * cBase n ^ (z.natAbs / 128) ≤
    2 * (if n = 10 then 228.08 else 241.06) - 1 + 2 * (ptUp n * 6 * 40) := by
  have h := hasSum_even (summable_moment hn)
  have e : (fun z : ℤ => gaussW 0 (sigmaSig n) z * cBase n ^ (z.natAbs / 128)) = fun z : ℤ => rhoN (sigmaSig n) z.natAbs * cBase n ^ (z.natAbs / 128) := by
    funext z
    rw [gaussW_rhoN]
  rw [e, h.tsum_eq]
  have hs := (summable_moment hn).sum_add_tsum_nat_add 1024
  have hs1 := (summable_moment hn).sum_add_tsum_nat_add 1
  have htail : ∑' j, rhoN (sigmaSig n) (j + 1024) * cBase n ^ ((j + 1024) / 128) ≤ ptUp n * 6 * 40 := by
    have := geo_975.mul_left (ptUp n * 6)
    rw [← this.tsum_eq]
    exact ((summable_nat_add_iff 1024).mpr (summable_moment hn)).tsum_le_tsum (moment_tail hn) this.summable
  have h00 : rhoN (sigmaSig n) 0 * cBase n ^ (0 / 128) = 1 := by simp [rhoN]
  rw [Finset.sum_range_one, h00] at hs1
  rw [h00]
  have hfin : ∑ j ∈ Finset.range 1024, rhoN (sigmaSig n) j * cBase n ^ (j / 128) ≤ if n = 10 then 228.08 else 241.06 := by
    have hc : ∀ j ∈ Finset.range 1024, rhoN (sigmaSig n) j * cBase n ^ (j / 128) = (cWt n j : ℝ) * rhoN (sigmaSig n) j / (cDen n : ℝ) ^ 8 := by
      intro j hj
      have hj' := Finset.mem_range.mp hj
      have hd : (cDen n : ℝ) ≠ 0 := by unfold cDen; split <;> norm_num
      have hb : cBase n = cNum n / cDen n := by unfold cBase cNum cDen; split <;> norm_num
      have e8 : (cDen n : ℝ) ^ 8 = (cDen n : ℝ) ^ (j / 128) * (cDen n : ℝ) ^ (8 - j / 128) := by
        rw [← pow_add]
        congr 1
        omega
      rw [hb, div_pow (cNum n : ℝ), e8]
      unfold cWt
      push_cast
      field_simp
    rw [Finset.sum_congr rfl hc, ← Finset.sum_div]
    have ht := tab_up hn (cWt n) 1024
    obtain ⟨c1, c2⟩ := sum_cert
    rcases hn with rfl | rfl
    · have := ht.trans (nat_le_real c1 rfl (by norm_num))
      rw [if_neg (by norm_num), div_le_iff₀ (by unfold cDen; norm_num)]
      refine this.trans (le_of_eq ?_)
      unfold cDen
      norm_num
    · have := ht.trans (nat_le_real c2 rfl (by norm_num))
      rw [if_pos rfl, div_le_iff₀ (by unfold cDen; norm_num)]
      refine this.trans (le_of_eq ?_)
      unfold cDen
      norm_num
  generalize (if n = 10 then 228.08 else 241.06 : ℝ) = b at *
  linarith

/-- The exponential moment of the length of a code. -/
theorem moment_le {n : ℕ} (hn : ValidLog n) : gaussMean 0 (sigmaSig n) (fun z => cBase n ^ (z.natAbs / 128)) ≤ cMom n := by
  unfold gaussMean
  rw [div_le_iff₀ (gauss_total_pos 0 (sigmaSig_pos n))]
  refine (moment_sum hn).trans ?_
  have ht := total_ge hn
  have h0 : 0 ≤ cMom n := by unfold cMom; split <;> norm_num
  refine le_trans ?_ (mul_le_mul_of_nonneg_left ht h0)
  unfold ptUp cMom
  rcases hn with rfl | rfl <;> norm_num

end Falcon
