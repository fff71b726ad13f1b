import Verif.Props.Contract
import Verif.Proofs.SamplerFinal

/-!
# C78, C79: the distribution of the integer sampler

`samplerz` on independent uniform bytes: its output is distributed as the discrete Gaussian up to 2^-38, and the number of its
iterations does not depend on centre and standard deviation, up to 2^-37.
-/

namespace Falcon

open BTree Real

/-! ## C78: the output is Gaussian -/

/-- The table of the base sampler is the half Gaussian of parameter sigma_max: every entry is off by at most 2^-58, and the
values beyond the table have total probability at most 2^-74. -/
theorem C78_table :
    (∀ z, z ≤ 18 → |(pdtSpec.getD z 0 : ℝ) / 2 ^ 72 - Real.exp (-((z : ℝ) ^ 2 / (2 * sigmaMax ^ 2)))
        / ∑' j : ℕ, Real.exp (-((j : ℝ) ^ 2 / (2 * sigmaMax ^ 2)))| ≤ 1 / 2 ^ 58) ∧
    (∑' j : ℕ, Real.exp (-(((j + 19 : ℕ) : ℝ) ^ 2 / (2 * sigmaMax ^ 2))))
        / ∑' j : ℕ, Real.exp (-((j : ℝ) ^ 2 / (2 * sigmaMax ^ 2))) ≤ 1 / 2 ^ 74 := by
  have hC := gC_num.1
  have hp : 0 < gC := by linarith
  have e : ∀ z : ℕ, Real.exp (-((z : ℝ) ^ 2 / (2 * sigmaMax ^ 2))) = gA ^ (z ^ 2) := fun z => by
    rw [gA, ← Real.exp_nat_mul]
    congr 1
    push_cast
    ring
  rw [gC_exp]
  constructor
  · intro z hz
    have h := table_accurate hz
    rw [e]
    have e2 : (pdtSpec.getD z 0 : ℝ) / 2 ^ 72 - gA ^ (z ^ 2) / gC
        = ((pdtSpec.getD z 0 : ℝ) / 2 ^ 72 * gC - gA ^ (z ^ 2)) / gC := by field_simp
    rw [e2, abs_div, abs_of_pos hp, div_le_iff₀ hp]
    refine h.trans ?_
    norm_num
    linarith
  · rw [div_le_iff₀ hp]
    simp only [e]
    refine gA_tail_le.trans ?_
    norm_num
    linarith

/-- The probability that the sampler stops within m iterations with a value in E, over uniform strings of 18 m bytes (an iteration
reads at most 18), is that of E under the discrete Gaussian over the integers, up to 2^-38 + 2^-m. For every set E, centre with
integral part in range and 1.2 ≤ sigma_min ≤ sigma ≤ sigma_max; with contraction when the reduction is defined. -/
theorem C78_distribution {fma : Bool} {mu sigma sigmin : ℝ} (hm0 : -2147483630 ≤ ⌊mu⌋) (hm1 : ⌊mu⌋ < 2147483629)
    (h0 : 6 / 5 ≤ sigmin) (h1 : sigmin ≤ sigma) (h2 : sigma ≤ sigmaMax)
    (hf : fma = true → ∀ b z0, z0 ≤ 18 → ⌊fmul (szX mu sigma b z0) INV_LN2⌋ * LN2 ≤ szX mu sigma b z0)
    (m : ℕ) (E : Set ℤ) :
    |freq (18 * m) (fun s => ∃ z ∈ E, ∃ p, samplerz fma mu sigma sigmin s m 0 = some (.ok (z, p)))
      - gaussPr mu sigma E| ≤ 1 / 2 ^ 38 + 1 / 2 ^ m := by
  classical
  have hok : SzOk fma mu sigma sigmin := ⟨hm0, hm1, h0, h1, h2, szSafe_of (h0.trans h1) h2 hf⟩
  have e := freq_eq (depth_smpTree fma mu sigma sigmin m) fun a => ∃ z ∈ E, a = some (.ok z)
  have e2 : (fun s => ∃ z ∈ E, ∃ p, samplerz fma mu sigma sigmin s m 0 = some (.ok (z, p)))
      = fun s => ∃ z ∈ E, (run (smpTree fma mu sigma sigmin m) s 0).1 = some (.ok z) := by
    funext s
    exact propext (exists_congr fun z => and_congr_right fun _ => samplerz_some_iff z)
  rw [e2, e]
  refine smp_mean hok m _ (fun z => ?_) (fun z => ?_) _ (fun z => ?_) ?_ ?_
  · exact (by split <;> norm_num : (0 : ℝ) ≤ if z ∈ E then 1 else 0)
  · exact (by split <;> norm_num : (if z ∈ E then (1 : ℝ) else 0) ≤ 1)
  · have : (∃ w ∈ E, (some (Except.ok z) : Option (Except UB ℤ)) = some (.ok w)) ↔ z ∈ E := by
      constructor
      · rintro ⟨w, hw, h⟩
        rwa [Except.ok.inj (Option.some.inj h)]
      · exact fun h => ⟨z, h, rfl⟩
    simp only [this]
  · split <;> norm_num
  · split <;> norm_num

/-- The sampler of key generation, with and without contraction: its output is the discrete Gaussian of centre 0 and parameter
1.17 sqrt(q / 8192) (as the code computes it), up to 2^-38 + 2^-m. -/
theorem C78_key_sampler (fma : Bool) {n : ℕ} (hn : ValidLog n) (m : ℕ) (E : Set ℤ) :
    |freq (18 * m) (fun s => ∃ z ∈ E, ∃ p, samplerz fma 0 keySigma (sigmaMin n) s m 0 = some (.ok (z, p)))
      - gaussPr 0 keySigma E| ≤ 1 / 2 ^ 38 + 1 / 2 ^ m := by
  obtain ⟨a, b, c⟩ := keyOk_bounds hn
  refine C78_distribution (by simp) (by simp) a b c (fun _ s z0 hz => key_multiple s hz) m E

/-- The sampler of signing: every leaf standard deviation between sigma_min and sigma_max. -/
theorem C78_sign_sampler {n : ℕ} (hn : ValidLog n) {mu sigma : ℝ} (hm0 : -2147483630 ≤ ⌊mu⌋) (hm1 : ⌊mu⌋ < 2147483629)
    (h1 : sigmaMin n ≤ sigma) (h2 : sigma ≤ sigmaMax) (m : ℕ) (E : Set ℤ) :
    |freq (18 * m) (fun s => ∃ z ∈ E, ∃ p, samplerz false mu sigma (sigmaMin n) s m 0 = some (.ok (z, p)))
      - gaussPr mu sigma E| ≤ 1 / 2 ^ 38 + 1 / 2 ^ m :=
  C78_distribution hm0 hm1 (keyOk_bounds hn).1 h1 h2 (fun h => by cases h) m E

example : ValidLog 9 ∧ (-2147483630 : ℤ) ≤ ⌊(1 / 3 : ℝ)⌋ ∧ ⌊(1 / 3 : ℝ)⌋ < 2147483629 ∧ sigmaMin 9 ≤ 3 / 2 ∧ (3 / 2 : ℝ) ≤ sigmaMax := by
  have hf : ⌊(1 / 3 : ℝ)⌋ = 0 := by rw [Int.floor_eq_iff]; norm_num
  refine ⟨.inl rfl, by rw [hf]; norm_num, by rw [hf]; norm_num, ?_, by rw [sigmaMax_eq]; norm_num⟩
  unfold sigmaMin
  rw [if_pos rfl]
  exact rnd_le_of_rep ⟨3, -1, by norm_num, by norm_num, by norm_num⟩ (by norm_num)

/-- The Gaussian the output is compared with is a probability distribution: all integers together have probability 1. -/
theorem C78_gauss_total (mu : ℝ) {sigma : ℝ} (hs : 0 < sigma) : gaussPr mu sigma Set.univ = 1 := by
  unfold gaussPr gaussMean
  simp only [Set.mem_univ, if_true, mul_one]
  exact div_self (gauss_total_pos mu hs).ne'

/-! ## C79: the number of iterations -/

/-- Output and number of iterations are independent, exactly: the probability of output z within m iterations is the probability
that one iteration outputs z, times the sum of the first m powers of the probability that an iteration rejects. -/
theorem C79_independent {fma : Bool} {mu sigma sigmin : ℝ} (hm0 : -2147483630 ≤ ⌊mu⌋) (hm1 : ⌊mu⌋ < 2147483629)
    (h0 : 6 / 5 ≤ sigmin) (h1 : sigmin ≤ sigma) (h2 : sigma ≤ sigmaMax)
    (hf : fma = true → ∀ b z0, z0 ≤ 18 → ⌊fmul (szX mu sigma b z0) INV_LN2⌋ * LN2 ≤ szX mu sigma b z0)
    (m : ℕ) (z : ℤ) :
    freq (18 * m) (fun s => ∃ p, samplerz fma mu sigma sigmin s m 0 = some (.ok (z, p)))
      = freq 18 (fun s => ∃ p, szIter fma mu sigma sigmin s 0 = .ok (some z, p))
        * ∑ i ∈ Finset.range m, freq 18 (fun s => ∃ p, szIter fma mu sigma sigmin s 0 = .ok (none, p)) ^ i := by
  classical
  have hok : SzOk fma mu sigma sigmin := ⟨hm0, hm1, h0, h1, h2, szSafe_of (h0.trans h1) h2 hf⟩
  have e := freq_eq (depth_smpTree fma mu sigma sigmin m) fun a => a = some (.ok z)
  have e1 := freq_eq (depth_szTree fma mu sigma sigmin) fun a => a = .ok (some z)
  have e0 := freq_eq (depth_szTree fma mu sigma sigmin) fun a => a = .ok none
  simp only [samplerz_some_iff, szIter_ok_iff]
  rw [e, e1, e0, mean_smpTree hok, mean_szTree hok, mean_szTree hok]
  rw [if_neg (by simp : ¬(none : Option (Except UB ℤ)) = some (.ok z)),
    if_neg (by simp : ¬(Except.ok none : Except UB (Option ℤ)) = .ok (some z)), if_pos rfl,
    Finset.sum_eq_zero (s := Win) (f := fun k => szP fma mu sigma sigmin k *
      if (Except.ok (some (⌊mu⌋ + k)) : Except UB (Option ℤ)) = .ok none then 1 else 0) fun k _ => by
        rw [if_neg (by simp), mul_zero]]
  simp only [mul_zero, add_zero, zero_add, mul_one]
  rw [mul_comm]
  congr 1
  refine Finset.sum_congr rfl fun k _ => ?_
  congr 1
  simp

/-- Probability that m iterations are not enough, exactly: the m-th power of the probability that one iteration rejects. -/
theorem C79_geometric {fma : Bool} {mu sigma sigmin : ℝ} (hm0 : -2147483630 ≤ ⌊mu⌋) (hm1 : ⌊mu⌋ < 2147483629)
    (h0 : 6 / 5 ≤ sigmin) (h1 : sigmin ≤ sigma) (h2 : sigma ≤ sigmaMax)
    (hf : fma = true → ∀ b z0, z0 ≤ 18 → ⌊fmul (szX mu sigma b z0) INV_LN2⌋ * LN2 ≤ szX mu sigma b z0) (m : ℕ) :
    freq (18 * m) (fun s => samplerz fma mu sigma sigmin s m 0 = none)
      = freq 18 (fun s => ∃ p, szIter fma mu sigma sigmin s 0 = .ok (none, p)) ^ m := by
  have hok : SzOk fma mu sigma sigmin := ⟨hm0, hm1, h0, h1, h2, szSafe_of (h0.trans h1) h2 hf⟩
  rw [freq_none hok, freq_reject hok]

/-- The number of iterations is, up to 2^-38, geometric with a success probability that depends on sigma_min only:
sigma_min sqrt(2 pi) / (2 sum over z ≥ 0 of exp(-z^2 / (2 sigma_max^2))), which is between 0.53 and 0.83. -/
theorem C79_iterations {fma : Bool} {mu sigma sigmin : ℝ} (hm0 : -2147483630 ≤ ⌊mu⌋) (hm1 : ⌊mu⌋ < 2147483629)
    (h0 : 6 / 5 ≤ sigmin) (h1 : sigmin ≤ sigma) (h2 : sigma ≤ sigmaMax)
    (hf : fma = true → ∀ b z0, z0 ≤ 18 → ⌊fmul (szX mu sigma b z0) INV_LN2⌋ * LN2 ≤ szX mu sigma b z0) (m : ℕ) :
    let acc := sigmin * √(2 * π) / (2 * ∑' z : ℕ, Real.exp (-((z : ℝ) ^ 2 / (2 * sigmaMax ^ 2))))
    |freq (18 * m) (fun s => samplerz fma mu sigma sigmin s m 0 = none) - (1 - acc) ^ m| ≤ 1 / 2 ^ 38 ∧
      0.53 ≤ acc ∧ acc ≤ 0.83 := by
  have hok : SzOk fma mu sigma sigmin := ⟨hm0, hm1, h0, h1, h2, szSafe_of (h0.trans h1) h2 hf⟩
  have hb := accIdeal_bounds h0 (h1.trans h2)
  refine ⟨?_, hb.1, hb.2⟩
  rw [freq_none hok]
  have hA1 := szAcc_le_one hok
  have hA2 := szAcc_ge hok
  have hd := szAcc_ideal hok
  show |(1 - szAcc fma mu sigma sigmin) ^ m - (1 - accIdeal sigmin) ^ m| ≤ _
  refine (pow_diff_half (by linarith) (by linarith) (by norm_num at hb ⊢; linarith) (by norm_num at hb ⊢; linarith) m).trans ?_
  rw [show 1 - szAcc fma mu sigma sigmin - (1 - accIdeal sigmin) = -(szAcc fma mu sigma sigmin - accIdeal sigmin) by ring, abs_neg]
  exact hd

/-- Timing: for two centres and two standard deviations and the same sigma_min, the numbers of iterations have the same
distribution up to 2^-37. -/
theorem C79_same_for_all {fma : Bool} {mu sigma mu' sigma' sigmin : ℝ} (hm0 : -2147483630 ≤ ⌊mu⌋) (hm1 : ⌊mu⌋ < 2147483629)
    (hm0' : -2147483630 ≤ ⌊mu'⌋) (hm1' : ⌊mu'⌋ < 2147483629)
    (h0 : 6 / 5 ≤ sigmin) (h1 : sigmin ≤ sigma) (h2 : sigma ≤ sigmaMax) (h1' : sigmin ≤ sigma') (h2' : sigma' ≤ sigmaMax)
    (hf : fma = true → ∀ b z0, z0 ≤ 18 → ⌊fmul (szX mu sigma b z0) INV_LN2⌋ * LN2 ≤ szX mu sigma b z0)
    (hf' : fma = true → ∀ b z0, z0 ≤ 18 → ⌊fmul (szX mu' sigma' b z0) INV_LN2⌋ * LN2 ≤ szX mu' sigma' b z0) (m : ℕ) :
    |freq (18 * m) (fun s => samplerz fma mu sigma sigmin s m 0 = none)
      - freq (18 * m) (fun s => samplerz fma mu' sigma' sigmin s m 0 = none)| ≤ 1 / 2 ^ 37 := by
  have a := (C79_iterations hm0 hm1 h0 h1 h2 hf m).1
  have b := (C79_iterations hm0' hm1' h0 h1' h2' hf' m).1
  rw [abs_sub_comm] at b
  exact (tri a b).trans (by norm_num)

/-- More than m iterations are needed with probability at most 2^-m. -/
theorem C79_termination {fma : Bool} {mu sigma sigmin : ℝ} (hm0 : -2147483630 ≤ ⌊mu⌋) (hm1 : ⌊mu⌋ < 2147483629)
    (h0 : 6 / 5 ≤ sigmin) (h1 : sigmin ≤ sigma) (h2 : sigma ≤ sigmaMax)
    (hf : fma = true → ∀ b z0, z0 ≤ 18 → ⌊fmul (szX mu sigma b z0) INV_LN2⌋ * LN2 ≤ szX mu sigma b z0) (m : ℕ) :
    freq (18 * m) (fun s => samplerz fma mu sigma sigmin s m 0 = none) ≤ 1 / 2 ^ m := by
  have hok : SzOk fma mu sigma sigmin := ⟨hm0, hm1, h0, h1, h2, szSafe_of (h0.trans h1) h2 hf⟩
  rw [freq_none hok, ← one_div_pow]
  exact pow_le_pow_left₀ (by linarith [szAcc_le_one hok]) (by linarith [szAcc_ge hok]) m

/-- Key generation's parameters meet the hypotheses, with contraction. -/
example : (6 / 5 : ℝ) ≤ sigmaMin 10 ∧ sigmaMin 10 ≤ keySigma ∧ keySigma ≤ sigmaMax ∧
    ∀ b z0, z0 ≤ 18 → ⌊fmul (szX 0 keySigma b z0) INV_LN2⌋ * LN2 ≤ szX 0 keySigma b z0 := by
  obtain ⟨a, b, c⟩ := keyOk_bounds (n := 10) (.inr rfl)
  exact ⟨a, b, c, fun b z0 hz => key_multiple b hz⟩

end Falcon
