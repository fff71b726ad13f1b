import Verif.Proofs.PdtGauss
import Mathlib.Analysis.SpecialFunctions.Gaussian.PoissonSummation
import Mathlib.Analysis.SpecialFunctions.Pow.Real
import Mathlib.Analysis.Real.Pi.Bounds
import Mathlib.Analysis.Complex.ExponentialBounds

/-! # Sums of Gaussian weights over the integers -/

namespace Falcon

open Real

theorem gaussW_pos (mu sigma : ℝ) (z : ℤ) : 0 < gaussW mu sigma z := Real.exp_pos _

theorem summable_gaussW (mu : ℝ) {sigma : ℝ} (hs : 0 < sigma) : Summable (gaussW mu sigma) := by
  have hc : 0 < 1 / (2 * sigma ^ 2) := by positivity
  have hr : Real.exp (-(1 / (2 * sigma ^ 2))) < 1 := by rw [Real.exp_lt_one_iff]; linarith
  have hg := (summable_geometric_of_lt_one (Real.exp_pos (-(1 / (2 * sigma ^ 2)))).le hr).mul_left
    (Real.exp (1 / (2 * sigma ^ 2) * (|mu| + 1 / 4)))
  have hG : Summable fun z : ℤ => Real.exp (1 / (2 * sigma ^ 2) * (|mu| + 1 / 4))
      * Real.exp (-(1 / (2 * sigma ^ 2))) ^ z.natAbs := by
    refine Summable.of_nat_of_neg ?_ ?_
    · simpa using hg
    · simpa using hg
  refine Summable.of_nonneg_of_le (fun z => (gaussW_pos mu sigma z).le) (fun z => ?_) hG
  unfold gaussW
  rw [← Real.exp_nat_mul, ← Real.exp_add]
  refine Real.exp_le_exp.mpr ?_
  have e : (z - mu) ^ 2 / (2 * sigma ^ 2) = 1 / (2 * sigma ^ 2) * (z - mu) ^ 2 := by ring
  rw [e]
  generalize 1 / (2 * sigma ^ 2) = c at *
  have h1 : |(z : ℝ)| - |mu| ≤ |z - mu| := abs_sub_abs_le_abs_sub _ _
  have h2 : (z - mu) ^ 2 = |z - mu| ^ 2 := (sq_abs _).symm
  have h3 : |(z : ℝ)| - |mu| - 1 / 4 ≤ (z - mu) ^ 2 := by
    rw [h2]; nlinarith [sq_nonneg (|(z : ℝ) - mu| - 1 / 2)]
  have h4 : ((z.natAbs : ℕ) : ℝ) = |(z : ℝ)| := by rw [Nat.cast_natAbs, Int.cast_abs]
  rw [h4]
  nlinarith

theorem hasSum_geo_ne {q : ℝ} (h0 : 0 ≤ q) (h1 : q < 1) :
    HasSum (fun n : ℤ => if n = 0 then 0 else q ^ n.natAbs) (2 * (q / (1 - q))) := by
  have hg : HasSum (fun n : ℕ => q ^ (n + 1)) (q / (1 - q)) := by
    have := (hasSum_geometric_of_lt_one h0 h1).mul_left q
    simpa [pow_succ', div_eq_mul_inv] using this
  have h := HasSum.of_add_one_of_neg_add_one (f := fun n : ℤ => if n = 0 then (0 : ℝ) else q ^ n.natAbs)
    (m := q / (1 - q)) (m' := q / (1 - q)) ?_ ?_
  · simp only [if_true] at h
    rw [two_mul]
    simpa using h
  · convert hg using 2 with n
    rw [if_neg (by omega)]
    congr 1
  · convert hg using 2 with n
    rw [if_neg (by omega)]
    congr 1

/-- Poisson summation: the sum of the weights. -/
theorem gauss_poisson (mu : ℝ) {sigma : ℝ} (hs : 0 < sigma) :
    ((∑' z : ℤ, gaussW mu sigma z : ℝ) : ℂ) = ((sigma * √(2 * π) : ℝ) : ℂ) *
      ∑' n : ℤ, Complex.exp (((-(2 * π ^ 2 * sigma ^ 2) * (n : ℝ) ^ 2 : ℝ) : ℂ) + ((-(2 * π * n * mu) : ℝ) : ℂ) * Complex.I) := by
  have hpi := Real.pi_pos
  obtain ⟨al, hal⟩ : ∃ al : ℝ, al = 1 / (2 * π * sigma ^ 2) := ⟨_, rfl⟩
  have ha : 0 < al := by rw [hal]; positivity
  have hP := Complex.tsum_exp_neg_quadratic (a := (al : ℂ)) (by rw [Complex.ofReal_re]; exact ha) ((al * mu : ℝ) : ℂ)
  have hl : ∀ n : ℤ, Complex.exp (-(π : ℂ) * al * n ^ 2 + 2 * π * ((al * mu : ℝ) : ℂ) * n)
      = ((Real.exp (π * al * mu ^ 2) : ℝ) : ℂ) * ((gaussW mu sigma n : ℝ) : ℂ) := by
    intro n
    rw [← Complex.ofReal_mul, gaussW, ← Real.exp_add, Complex.ofReal_exp]
    congr 1
    have : π * al * mu ^ 2 + -(((n : ℝ) - mu) ^ 2 / (2 * sigma ^ 2)) = -π * al * (n : ℝ) ^ 2 + 2 * π * (al * mu) * n := by
      rw [hal]; field_simp; ring
    rw [this]
    push_cast
    ring
  have hr : ∀ n : ℤ, Complex.exp (-(π : ℂ) / al * (n + Complex.I * ((al * mu : ℝ) : ℂ)) ^ 2)
      = ((Real.exp (π * al * mu ^ 2) : ℝ) : ℂ) *
        Complex.exp (((-(2 * π ^ 2 * sigma ^ 2) * (n : ℝ) ^ 2 : ℝ) : ℂ) + ((-(2 * π * n * mu) : ℝ) : ℂ) * Complex.I) := by
    intro n
    rw [Complex.ofReal_exp, ← Complex.exp_add]
    congr 1
    have h1 : (al : ℂ) ≠ 0 := by exact_mod_cast ha.ne'
    have h2 : (π : ℂ) / al = ((2 * π ^ 2 * sigma ^ 2 : ℝ) : ℂ) := by
      rw [← Complex.ofReal_div]
      congr 1
      rw [hal]; field_simp
    have h3 : -(π : ℂ) / al * (n + Complex.I * ((al * mu : ℝ) : ℂ)) ^ 2
        = -((π : ℂ) / al) * n ^ 2 + -(2 * π * n * mu) * Complex.I - π * al * mu ^ 2 * Complex.I ^ 2 := by
      push_cast
      field_simp
      ring
    rw [h3, h2, Complex.I_sq]
    push_cast
    ring
  simp only [hl, hr] at hP
  rw [tsum_mul_left, tsum_mul_left, mul_left_comm] at hP
  have hK : ((Real.exp (π * al * mu ^ 2) : ℝ) : ℂ) ≠ 0 := by
    exact_mod_cast (Real.exp_pos _).ne'
  have hP := mul_left_cancel₀ hK hP
  rw [Complex.ofReal_tsum, hP]
  congr 1
  have h1 : (al : ℂ) ^ (1 / 2 : ℂ) = ((√al : ℝ) : ℂ) := by
    rw [Real.sqrt_eq_rpow, Complex.ofReal_cpow ha.le]
    push_cast
    ring
  rw [h1, ← Complex.ofReal_one, ← Complex.ofReal_div]
  congr 1
  rw [hal, Real.sqrt_div zero_le_one, Real.sqrt_one, one_div_one_div, Real.sqrt_mul (by positivity),
    Real.sqrt_sq hs.le, mul_comm]

theorem exp_28 : Real.exp (-28) ≤ 1 / 2 ^ 40 := by
  have h1 := Real.exp_one_gt_d9
  have h2 : Real.exp (-28) = (Real.exp 1)⁻¹ ^ 28 := by
    rw [← Real.exp_neg, ← Real.exp_nat_mul]; norm_num
  have h3 : (Real.exp 1)⁻¹ ≤ 1 / 2.7182 := by
    rw [inv_eq_one_div]; exact one_div_le_one_div_of_le (by norm_num) (by linarith)
  rw [h2]
  calc _ ≤ ((1 / 2.7182 : ℝ)) ^ 28 := pow_le_pow_left₀ (inv_nonneg.mpr (Real.exp_pos 1).le) h3 28
    _ ≤ _ := by norm_num

/-- The sum of the weights is sigma sqrt(2 pi) up to a relative 2 b (1 + 2^-39), for b at least exp(-2 pi^2 sigma^2). -/
theorem gauss_sum_q (mu : ℝ) {sigma b : ℝ} (hs0 : 0 < sigma) (hb40 : b ≤ 1 / 2 ^ 40) (hqb : Real.exp (-(2 * π ^ 2 * sigma ^ 2)) ≤ b) :
    |∑' z : ℤ, gaussW mu sigma z - sigma * √(2 * π)| ≤ sigma * √(2 * π) * (2 * b * (1 + 1 / 2 ^ 39)) := by
  have hpi := Real.pi_gt_d2
  have hP := gauss_poisson mu hs0
  obtain ⟨q, hq⟩ : ∃ q : ℝ, q = Real.exp (-(2 * π ^ 2 * sigma ^ 2)) := ⟨_, rfl⟩
  have hq0 : 0 < q := by rw [hq]; exact Real.exp_pos _
  rw [← hq] at hqb
  have hq1 : q ≤ 1 / 2 ^ 40 := hqb.trans hb40
  obtain ⟨t, ht⟩ : ∃ t : ℤ → ℂ, t = fun n : ℤ => Complex.exp (((-(2 * π ^ 2 * sigma ^ 2) * (n : ℝ) ^ 2 : ℝ) : ℂ)
    + ((-(2 * π * n * mu) : ℝ) : ℂ) * Complex.I) := ⟨_, rfl⟩
  have hnorm : ∀ n, ‖t n‖ ≤ q ^ n.natAbs := by
    intro n
    rw [ht]
    simp only
    rw [Complex.exp_add, norm_mul, Complex.norm_exp_ofReal_mul_I, mul_one, ← Complex.ofReal_exp,
      Complex.norm_real, Real.norm_eq_abs, abs_of_pos (Real.exp_pos _), hq, ← Real.exp_nat_mul]
    refine Real.exp_le_exp.mpr ?_
    have h4 : ((n.natAbs : ℕ) : ℝ) = |(n : ℝ)| := by rw [Nat.cast_natAbs, Int.cast_abs]
    have h5 : |(n : ℝ)| ≤ (n : ℝ) ^ 2 := by
      rw [← sq_abs, ← h4]
      exact_mod_cast Nat.le_self_pow (by norm_num) _
    rw [h4]
    have : 0 ≤ 2 * π ^ 2 * sigma ^ 2 := by positivity
    nlinarith
  have hgeo := hasSum_geo_ne hq0.le (by linarith [hq1, (by norm_num : (1 : ℝ) / 2 ^ 40 < 1)] : q < 1)
  have ht0 : t 0 = 1 := by rw [ht]; simp
  have hsum : Summable t := by
    refine Summable.of_norm_bounded (g := fun n : ℤ => (if n = 0 then 0 else q ^ n.natAbs) + if n = 0 then 1 else 0) ?_ ?_
    · exact hgeo.summable.add (summable_of_ne_finset_zero (s := {0}) fun b hb => by
        rw [if_neg (by simpa using hb)])
    · intro n
      refine (hnorm n).trans ?_
      by_cases h : n = 0
      · subst h; simp
      · simp [h]
  have hdec := hsum.tsum_eq_add_tsum_ite 0
  have hb : ‖∑' n : ℤ, (if n = 0 then 0 else t n)‖ ≤ 2 * (q / (1 - q)) := by
    refine tsum_of_norm_bounded hgeo fun n => ?_
    split
    · simp
    · exact hnorm n
  have hsmall : 2 * (q / (1 - q)) ≤ 2 * b * (1 + 1 / 2 ^ 39) := by
    have : q / (1 - q) ≤ q * (1 + 1 / 2 ^ 39) := by
      rw [div_le_iff₀ (by norm_num at hq1; linarith), mul_assoc]
      refine le_mul_of_one_le_right hq0.le ?_
      norm_num at hq1 ⊢
      linarith
    nlinarith
  have hw : 0 < sigma * √(2 * π) := by positivity
  rw [← ht, hdec, ht0] at hP
  generalize sigma * √(2 * π) = w at *
  have e : ((∑' z : ℤ, gaussW mu sigma z - w : ℝ) : ℂ) = (w : ℂ) * ∑' n : ℤ, (if n = 0 then 0 else t n) := by
    rw [Complex.ofReal_sub, hP]; ring
  have e2 := congrArg norm e
  rw [norm_mul, Complex.norm_real, Complex.norm_real, Real.norm_eq_abs, Real.norm_eq_abs, abs_of_pos hw] at e2
  rw [e2]
  exact mul_le_mul_of_nonneg_left (hb.trans hsmall) hw.le

/-- The sum of the weights is sigma sqrt(2 pi) up to a relative 2^-38. -/
theorem gauss_sum (mu : ℝ) {sigma : ℝ} (hs : 6 / 5 ≤ sigma) :
    |∑' z : ℤ, gaussW mu sigma z - sigma * √(2 * π)| ≤ sigma * √(2 * π) * (1 / 2 ^ 38) := by
  have hs0 : 0 < sigma := by linarith
  have hpi := Real.pi_gt_d2
  refine (gauss_sum_q mu hs0 le_rfl ((Real.exp_le_exp.mpr ?_).trans exp_28)).trans
    (mul_le_mul_of_nonneg_left (by norm_num) (by positivity))
  have h1 : (3.14 : ℝ) ^ 2 ≤ π ^ 2 := pow_le_pow_left₀ (by norm_num) hpi.le 2
  have h2 : (6 / 5 : ℝ) ^ 2 ≤ sigma ^ 2 := pow_le_pow_left₀ (by norm_num) hs 2
  nlinarith

/-! ## The part outside the window of the code -/

theorem gaussW_le {r sigma : ℝ} (hs : 0 < sigma) (h2 : sigma ≤ sigmaMax) (k : ℤ) (m : ℕ) (h : (m : ℝ) ≤ |k - r|) :
    gaussW r sigma k ≤ gA ^ (m ^ 2) := by
  unfold gaussW gA
  rw [← Real.exp_nat_mul]
  refine Real.exp_le_exp.mpr ?_
  have h1 : (m : ℝ) ^ 2 ≤ (k - r) ^ 2 := by
    rw [← sq_abs ((k : ℝ) - r)]
    exact pow_le_pow_left₀ (by positivity) h 2
  have h3 : sigma ^ 2 ≤ sigmaMax ^ 2 := pow_le_pow_left₀ hs.le h2 2
  have : (m : ℝ) ^ 2 / (2 * sigmaMax ^ 2) ≤ (k - r) ^ 2 / (2 * sigma ^ 2) :=
    div_le_div₀ (sq_nonneg _) h1 (by positivity) (by linarith)
  push_cast
  have e : (m : ℝ) ^ 2 * -(1 / (2 * sigmaMax ^ 2)) = -((m : ℝ) ^ 2 / (2 * sigmaMax ^ 2)) := by ring
  rw [e]
  linarith

/-- The window of offsets the code can produce. -/
def Win : Finset ℤ := (Finset.range 38).image fun i : ℕ => (i : ℤ) - 18

theorem mem_Win {k : ℤ} : k ∈ Win ↔ -18 ≤ k ∧ k ≤ 19 := by
  unfold Win
  rw [Finset.mem_image]
  constructor
  · rintro ⟨i, hi, rfl⟩
    have := Finset.mem_range.mp hi
    omega
  · rintro ⟨h1, h2⟩
    exact ⟨(k + 18).toNat, Finset.mem_range.mpr (by omega), by omega⟩

theorem gauss_tail_of {r sigma B : ℝ} (hB : ∑' j : ℕ, gA ^ ((j + 19) ^ 2) ≤ B) (r0 : 0 ≤ r) (r1 : r < 1) (hs : 0 < sigma) (h2 : sigma ≤ sigmaMax) :
    ∑' k : ℤ, (if k ∈ Win then 0 else gaussW r sigma k) ≤ B + B := by
  obtain ⟨W, hW⟩ : ∃ W : ℤ → ℝ, W = fun k => if k ∈ Win then 0 else gaussW r sigma k := ⟨_, rfl⟩
  have w0 : ∀ k, 0 ≤ W k := fun k => by
    rw [hW]; simp only; split
    · exact le_rfl
    · exact (gaussW_pos _ _ _).le
  have hsW : Summable W := by
    refine Summable.of_nonneg_of_le w0 (fun k => ?_) (summable_gaussW r hs)
    rw [hW]; simp only; split
    · exact (gaussW_pos _ _ _).le
    · exact le_rfl
  rw [← hW]
  have s1 : Summable fun n : ℕ => W n := hsW.comp_injective Nat.cast_injective
  have s2 : Summable fun n : ℕ => W (-(n + 1)) := hsW.comp_injective fun a b (h : -((a : ℤ) + 1) = -((b : ℤ) + 1)) => by
    omega
  have hin : ∀ k : ℤ, -18 ≤ k → k ≤ 19 → W k = 0 := fun k a b => by
    rw [hW]; simp only; rw [if_pos (mem_Win.mpr ⟨a, b⟩)]
  have hout : ∀ k : ℤ, ∀ m : ℕ, (m : ℝ) ≤ |k - r| → W k ≤ gA ^ (m ^ 2) := fun k m h => by
    rw [hW]; simp only; split
    · exact (pow_pos gA_pos _).le
    · exact gaussW_le hs h2 k m h
  rw [tsum_of_nat_of_neg_add_one s1 s2]
  have t1 : ∑' n : ℕ, W n ≤ B := by
    rw [← s1.sum_add_tsum_nat_add 20, Finset.sum_eq_zero (s := Finset.range 20) (f := fun n : ℕ => W n) fun n hn => hin n (by omega) (by
      have := Finset.mem_range.mp hn; omega), zero_add]
    refine (Summable.tsum_le_tsum (fun j => ?_) ((summable_nat_add_iff 20).mpr s1) gA_summable_tail).trans hB
    refine hout _ _ ?_
    refine le_trans ?_ (le_abs_self _)
    push_cast
    linarith
  have t2 : ∑' n : ℕ, W (-(n + 1)) ≤ B := by
    rw [← s2.sum_add_tsum_nat_add 18, Finset.sum_eq_zero (s := Finset.range 18) (f := fun n : ℕ => W (-(n + 1))) fun n hn => hin _ (by
      have := Finset.mem_range.mp hn; omega) (by omega), zero_add]
    refine (Summable.tsum_le_tsum (fun j => ?_) ((summable_nat_add_iff 18).mpr s2) gA_summable_tail).trans hB
    refine hout _ _ ?_
    refine le_trans ?_ (neg_le_abs _)
    push_cast
    linarith
  exact add_le_add t1 t2

theorem gauss_tail {r sigma : ℝ} (r0 : 0 ≤ r) (r1 : r < 1) (hs : 0 < sigma) (h2 : sigma ≤ sigmaMax) :
    ∑' k : ℤ, (if k ∈ Win then 0 else gaussW r sigma k) ≤ 1 / 2 ^ 73 :=
  (gauss_tail_of gA_tail_le r0 r1 hs h2).trans (by norm_num)

end Falcon
