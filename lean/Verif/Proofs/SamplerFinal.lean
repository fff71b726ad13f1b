import Verif.Proofs.SamplerGauss
import Verif.Proofs.FmaKey
import Verif.Spec

/-! # The integer sampler compared with the discrete Gaussian -/

namespace Falcon

open BTree Real

/-- The acceptance probability of an iteration of the ideal sampler. -/
noncomputable def accIdeal (sigmin : ℝ) : ℝ :=
  sigmin * √(2 * π) / (2 * ∑' z : ℕ, Real.exp (-((z : ℝ) ^ 2 / (2 * sigmaMax ^ 2))))

theorem gC_exp : ∑' z : ℕ, Real.exp (-((z : ℝ) ^ 2 / (2 * sigmaMax ^ 2))) = gC := by
  refine tsum_congr fun z => ?_
  rw [gA, ← Real.exp_nat_mul]
  congr 1
  push_cast
  ring

theorem sqrt_2pi : 2.5 ≤ √(2 * π) ∧ √(2 * π) ≤ 2.51 := by
  have h1 := Real.pi_gt_d2
  have h2 := Real.pi_lt_d2
  constructor
  · refine Real.le_sqrt_of_sq_le ?_
    norm_num; linarith
  · rw [Real.sqrt_le_left (by norm_num)]
    norm_num; linarith

variable {fma : Bool} {mu sigma sigmin : ℝ}

theorem gaussW_floor (mu sigma : ℝ) (k : ℤ) : gaussW mu sigma (⌊mu⌋ + k) = gaussW (mu - ⌊mu⌋) sigma k := by
  unfold gaussW
  push_cast
  ring_nf

theorem tsum_floor (mu sigma : ℝ) (g : ℤ → ℝ) :
    ∑' z : ℤ, gaussW mu sigma z * g z = ∑' k : ℤ, gaussW (mu - ⌊mu⌋) sigma k * g (⌊mu⌋ + k) := by
  rw [← (Equiv.addLeft ⌊mu⌋).tsum_eq]
  refine tsum_congr fun k => ?_
  rw [Equiv.coe_addLeft, gaussW_floor]

theorem accIdeal_bounds (h0 : 6 / 5 ≤ sigmin) (h1 : sigmin ≤ sigmaMax) :
    0.53 ≤ accIdeal sigmin ∧ accIdeal sigmin ≤ 0.83 := by
  have hM : sigmaMax ≤ 1.8206 := by rw [sigmaMax_eq]; norm_num
  obtain ⟨p1, p2⟩ := sqrt_2pi
  obtain ⟨c1, c2⟩ := gC_num
  unfold accIdeal
  rw [gC_exp]
  have e1 : 1.2 * 2.5 ≤ sigmin * √(2 * π) := mul_le_mul (by linarith) p1 (by norm_num) (by linarith)
  have e2 : sigmin * √(2 * π) ≤ 1.8206 * 2.51 := mul_le_mul (by linarith) p2 (by linarith) (by norm_num)
  constructor
  · rw [le_div_iff₀ (by linarith)]; norm_num at e1 ⊢; linarith
  · rw [div_le_iff₀ (by linarith)]; norm_num at e2 ⊢; linarith

/-- The acceptance probability does not depend on centre and deviation, up to 2^-38. -/
theorem szAcc_ideal (h : SzOk fma mu sigma sigmin) : |szAcc fma mu sigma sigmin - accIdeal sigmin| ≤ 1 / 2 ^ 38 := by
  have hs0 : 0 < sigma := by linarith [h.s0, h.s1]
  have hm0 : 0 < sigmin := by linarith [h.s0]
  have h1 := szP_mean h (fun _ => 1) (fun _ => zero_le_one) (fun _ => le_rfl)
  simp only [mul_one] at h1
  have h2 := gauss_sum (mu - ⌊mu⌋) (h.s0.trans h.s1)
  have hacc := accIdeal_bounds h.s0 (h.s1.trans h.s2)
  have hrnd : |fdiv sigmin sigma - sigmin / sigma| ≤ |sigmin / sigma| * 2 ^ (-53 : ℤ) + 2 ^ (-1075 : ℤ) := rnd_err _
  have tiny : (2 : ℝ) ^ (-1075 : ℤ) ≤ 2 ^ (-60 : ℤ) := zpow_le_zpow_right₀ (by norm_num) (by norm_num)
  obtain ⟨p1, p2⟩ := sqrt_2pi
  have hg := gC_num.1
  have hq0 : 0 < sigmin / sigma := by positivity
  rw [abs_of_pos hq0] at hrnd
  have hq1 : sigmin / sigma ≤ 1 := by rw [div_le_one hs0]; exact h.s1
  have hM : sigmaMax ≤ 1.8206 := by rw [sigmaMax_eq]; norm_num
  have hsig : sigma ≤ 1.8206 := h.s2.trans hM
  obtain ⟨R, hR⟩ : ∃ R, R = ∑' z : ℤ, gaussW (mu - ⌊mu⌋) sigma z := ⟨_, rfl⟩
  rw [← hR] at h1 h2
  have ew : szScale sigma sigmin * R - accIdeal sigmin
      = (fdiv sigmin sigma - sigmin / sigma) * R / (2 * gC)
        + (sigmin / sigma) * (R - sigma * √(2 * π)) / (2 * gC) := by
    unfold szScale accIdeal
    rw [gC_exp]
    have : gC ≠ 0 := by linarith
    field_simp
    ring
  have hw : sigma * √(2 * π) ≤ 4.6 := by
    calc _ ≤ 1.8206 * 2.51 := mul_le_mul hsig p2 (by linarith) (by norm_num)
      _ ≤ _ := by norm_num
  have hRb : |R| ≤ 5 := by
    have t1 : |R| ≤ |R - sigma * √(2 * π)| + |sigma * √(2 * π)| := by
      have := abs_add_le (R - sigma * √(2 * π)) (sigma * √(2 * π))
      rwa [sub_add_cancel] at this
    rw [abs_of_nonneg (by positivity : 0 ≤ sigma * √(2 * π))] at t1
    have t2 : sigma * √(2 * π) * (1 / 2 ^ 38) ≤ 4.6 * (1 / 2 ^ 38) := mul_le_mul_of_nonneg_right hw (by norm_num)
    have t3 : (4.6 : ℝ) * (1 / 2 ^ 38) ≤ 0.1 := by norm_num
    have t4 := h2.trans (t2.trans t3)
    generalize sigma * √(2 * π) = ww at *
    norm_num at t4 hw ⊢
    linarith
  have b1 : |(fdiv sigmin sigma - sigmin / sigma) * R / (2 * gC)| ≤ 1 / 2 ^ 52 := by
    rw [abs_div, abs_mul, abs_of_nonneg (by linarith : 0 ≤ 2 * gC), div_le_iff₀ (by linarith)]
    have t1 : |fdiv sigmin sigma - sigmin / sigma| ≤ 1 / 2 ^ 53 + 1 / 2 ^ 60 := by
      refine hrnd.trans ?_
      have : sigmin / sigma * (2 : ℝ) ^ (-53 : ℤ) ≤ 1 * 2 ^ (-53 : ℤ) := mul_le_mul_of_nonneg_right hq1 (by positivity)
      refine (add_le_add this tiny).trans ?_
      norm_num
    calc _ ≤ (1 / 2 ^ 53 + 1 / 2 ^ 60 : ℝ) * 5 := mul_le_mul t1 hRb (abs_nonneg _) (by norm_num)
      _ ≤ 1 / 2 ^ 52 * (2 * 2.78) := by norm_num
      _ ≤ _ := by gcongr
  have b2 : |(sigmin / sigma) * (R - sigma * √(2 * π)) / (2 * gC)| ≤ 0.83 * (1 / 2 ^ 38) := by
    rw [abs_div, abs_mul, abs_of_nonneg (by linarith : 0 ≤ 2 * gC), abs_of_pos hq0]
    have e : 0.83 * (1 / 2 ^ 38 : ℝ) ≥ accIdeal sigmin * (1 / 2 ^ 38) :=
      mul_le_mul_of_nonneg_right hacc.2 (by norm_num)
    refine le_trans ?_ e
    have e2 : accIdeal sigmin * (1 / 2 ^ 38) = sigmin / sigma * (sigma * √(2 * π) * (1 / 2 ^ 38)) / (2 * gC) := by
      unfold accIdeal
      rw [gC_exp]
      have : gC ≠ 0 := by linarith
      field_simp
    rw [e2]
    gcongr
  have b3 : |szScale sigma sigmin * R - accIdeal sigmin| ≤ 1 / 2 ^ 52 + 0.83 * (1 / 2 ^ 38) := by
    rw [ew]
    exact (abs_add_le _ _).trans (add_le_add b1 b2)
  have := tri h1 b3
  refine this.trans ?_
  norm_num

theorem szAcc_ge (h : SzOk fma mu sigma sigmin) : 1 / 2 ≤ szAcc fma mu sigma sigmin := by
  have h1 := szAcc_ideal h
  have h2 := accIdeal_bounds h.s0 (h.s1.trans h.s2)
  rw [abs_le] at h1
  norm_num at h1 h2
  linarith

theorem gauss_total_pos (mu : ℝ) (hs : 0 < sigma) : 0 < ∑' z : ℤ, gaussW mu sigma z :=
  (summable_gaussW mu hs).tsum_pos (fun z => (gaussW_pos _ _ z).le) 0 (gaussW_pos _ _ _)

/-- The mean of a bounded function of the output, compared with the mean under the Gaussian. -/
theorem smp_mean (h : SzOk fma mu sigma sigmin) (m : ℕ) (g : ℤ → ℝ) (g0 : ∀ k, 0 ≤ g k) (g1 : ∀ k, g k ≤ 1)
    (G : Option (Except UB ℤ) → ℝ) (hG : ∀ z, G (some (.ok z)) = g z) (hn0 : 0 ≤ G none) (hn1 : G none ≤ 1) :
    |mean (smpTree fma mu sigma sigmin m) G - gaussMean mu sigma g| ≤ 1 / 2 ^ 38 + 1 / 2 ^ m := by
  have hs0 : 0 < sigma := by linarith [h.s0, h.s1]
  have e1 := szP_mean h (fun k => g (⌊mu⌋ + k)) (fun _ => g0 _) (fun _ => g1 _)
  have e2 := szP_mean h (fun _ => 1) (fun _ => zero_le_one) (fun _ => le_rfl)
  rw [← tsum_floor] at e1
  rw [← tsum_floor mu sigma (fun _ => 1)] at e2
  simp only [mul_one] at e2
  have hA1 := szAcc_le_one h
  have hA2 := szAcc_ge h
  rw [mean_smpTree h]
  simp only [hG]
  unfold gaussMean
  have hR := gauss_total_pos mu hs0
  have hRg0 : 0 ≤ ∑' z : ℤ, gaussW mu sigma z * g z := tsum_nonneg fun z => mul_nonneg (gaussW_pos _ _ z).le (g0 z)
  have hRg1 : ∑' z : ℤ, gaussW mu sigma z * g z ≤ ∑' z : ℤ, gaussW mu sigma z :=
    (Summable.of_nonneg_of_le (fun z => mul_nonneg (gaussW_pos mu sigma z).le (g0 z))
      (fun z => mul_le_of_le_one_right (gaussW_pos mu sigma z).le (g1 z)) (summable_gaussW mu hs0)).tsum_le_tsum
      (fun z => mul_le_of_le_one_right (gaussW_pos mu sigma z).le (g1 z)) (summable_gaussW mu hs0)
  have hS0 : 0 ≤ ∑ k ∈ Win, szP fma mu sigma sigmin k * g (⌊mu⌋ + k) :=
    Finset.sum_nonneg fun k _ => mul_nonneg (szP_nonneg k) (g0 _)
  have hS1 : ∑ k ∈ Win, szP fma mu sigma sigmin k * g (⌊mu⌋ + k) ≤ szAcc fma mu sigma sigmin :=
    Finset.sum_le_sum fun k _ => mul_le_of_le_one_right (szP_nonneg k) (g1 _)
  have hacc : ∑ k ∈ Win, szP fma mu sigma sigmin k = szAcc fma mu sigma sigmin := rfl
  rw [hacc] at e2
  have hgeo : (∑ i ∈ Finset.range m, (1 - szAcc fma mu sigma sigmin) ^ i) * szAcc fma mu sigma sigmin
      = 1 - (1 - szAcc fma mu sigma sigmin) ^ m := by
    have := geom_sum_mul_neg (1 - szAcc fma mu sigma sigmin) m
    rwa [sub_sub_cancel] at this
  have hpw0 : 0 ≤ (1 - szAcc fma mu sigma sigmin) ^ m := pow_nonneg (by linarith) m
  have hpw : (1 - szAcc fma mu sigma sigmin) ^ m ≤ 1 / 2 ^ m := by
    rw [← one_div_pow]
    exact pow_le_pow_left₀ (by linarith) (by linarith) m
  generalize ∑ k ∈ Win, szP fma mu sigma sigmin k * g (⌊mu⌋ + k) = S at *
  generalize ∑' z : ℤ, gaussW mu sigma z * g z = Rg at *
  generalize ∑' z : ℤ, gaussW mu sigma z = R at *
  generalize szScale sigma sigmin = w at *
  generalize ∑ i ∈ Finset.range m, (1 - szAcc fma mu sigma sigmin) ^ i = Q at *
  generalize (1 - szAcc fma mu sigma sigmin) ^ m = P at *
  generalize szAcc fma mu sigma sigmin = A at *
  generalize G none = N at *
  have hA0 : 0 < A := by linarith
  have hQ : Q * S = (1 - P) * (S / A) := by
    rw [← hgeo]; field_simp
  have hq : |S / A - Rg / R| ≤ 4 * (1 / 2 ^ 41 + 1 / 2 ^ 52) := by
    have e : S / A - Rg / R = ((S - w * Rg) * R - (A - w * R) * Rg) / (A * R) := by
      field_simp; ring
    rw [e, abs_div, abs_of_pos (mul_pos hA0 hR), div_le_iff₀ (mul_pos hA0 hR)]
    refine (abs_sub _ _).trans ?_
    rw [abs_mul, abs_mul, abs_of_pos hR, abs_of_nonneg hRg0]
    have t1 := mul_le_mul_of_nonneg_right e1 hR.le
    have t2 : |A - w * R| * Rg ≤ (1 / 2 ^ 41 + 1 / 2 ^ 52) * R := mul_le_mul e2 hRg1 hRg0 (by norm_num)
    have t3 : (1 / 2 ^ 41 + 1 / 2 ^ 52 : ℝ) * R * 2 ≤ 4 * (1 / 2 ^ 41 + 1 / 2 ^ 52) * (A * R) := by
      have : R ≤ 2 * (A * R) := by nlinarith
      nlinarith [(by norm_num : (0 : ℝ) < 1 / 2 ^ 41 + 1 / 2 ^ 52)]
    linarith
  have hx0 : 0 ≤ S / A := div_nonneg hS0 hA0.le
  have hx1 : S / A ≤ 1 := by rw [div_le_one hA0]; exact hS1
  rw [hQ]
  have hp : |P * (N - S / A)| ≤ P := by
    rw [abs_mul, abs_of_nonneg hpw0]
    refine mul_le_of_le_one_right hpw0 ?_
    rw [abs_le]; constructor <;> linarith
  have e : (1 - P) * (S / A) + P * N - Rg / R = (S / A - Rg / R) + P * (N - S / A) := by ring
  rw [e]
  refine (abs_add_le _ _).trans (add_le_add (hq.trans (by norm_num)) (hp.trans hpw))

theorem samplerz_some_iff {s : ℕ → UInt8} {m : ℕ} (z : ℤ) :
    (∃ p, samplerz fma mu sigma sigmin s m 0 = some (.ok (z, p))) ↔
      (run (smpTree fma mu sigma sigmin m) s 0).1 = some (.ok z) := by
  rw [samplerz_tree]
  generalize run (smpTree fma mu sigma sigmin m) s 0 = a
  obtain ⟨a, q⟩ := a
  constructor
  · rintro ⟨p, hp⟩
    match a with
    | none => cases hp
    | some (.error e) => cases hp
    | some (.ok r) =>
      have := (Prod.ext_iff.mp (Except.ok.inj (Option.some.inj hp))).1
      exact congrArg (fun z => some (Except.ok z)) this
  · intro h
    simp only at h
    rw [h]
    exact ⟨q, rfl⟩

theorem szIter_ok_iff {s : ℕ → UInt8} (z : Option ℤ) :
    (∃ p, szIter fma mu sigma sigmin s 0 = .ok (z, p)) ↔ (run (szTree fma mu sigma sigmin) s 0).1 = .ok z := by
  rw [szIter_tree]
  generalize run (szTree fma mu sigma sigmin) s 0 = a
  obtain ⟨a, q⟩ := a
  constructor
  · rintro ⟨p, hp⟩
    cases a with
    | error e => cases hp
    | ok a => exact congrArg Except.ok (Prod.ext_iff.mp (Except.ok.inj hp)).1
  · intro h
    simp only at h
    rw [h]
    exact ⟨q, rfl⟩

theorem freq_none (h : SzOk fma mu sigma sigmin) (m : ℕ) :
    freq (18 * m) (fun s => samplerz fma mu sigma sigmin s m 0 = none) = (1 - szAcc fma mu sigma sigmin) ^ m := by
  classical
  have e := freq_eq (depth_smpTree fma mu sigma sigmin m) fun a => a = none
  have e2 : (fun s => samplerz fma mu sigma sigmin s m 0 = none)
      = fun s => (run (smpTree fma mu sigma sigmin m) s 0).1 = none := by
    funext s
    rw [samplerz_tree, Option.map_eq_none_iff]
  rw [e2, e, mean_smpTree h, if_pos rfl, Finset.sum_eq_zero (s := Win) fun k _ => by rw [if_neg (by simp), mul_zero]]
  ring

theorem freq_reject (h : SzOk fma mu sigma sigmin) :
    freq 18 (fun s => ∃ p, szIter fma mu sigma sigmin s 0 = .ok (none, p)) = 1 - szAcc fma mu sigma sigmin := by
  classical
  have e0 := freq_eq (depth_szTree fma mu sigma sigmin) fun a => a = .ok none
  simp only [szIter_ok_iff]
  rw [e0, mean_szTree h, if_pos rfl, Finset.sum_eq_zero fun k _ => by rw [if_neg (by simp), mul_zero]]
  ring

theorem pow_diff_half {a b : ℝ} (a0 : 0 ≤ a) (a1 : a ≤ 1 / 2) (b0 : 0 ≤ b) (b1 : b ≤ 1 / 2) (m : ℕ) :
    |a ^ m - b ^ m| ≤ |a - b| := by
  have h : ∀ m : ℕ, |a ^ (m + 1) - b ^ (m + 1)| ≤ (m + 1) * (1 / 2) ^ m * |a - b| := by
    intro m
    induction m with
    | zero => simp
    | succ m ih =>
      have e : a ^ (m + 1 + 1) - b ^ (m + 1 + 1) = a * (a ^ (m + 1) - b ^ (m + 1)) + (a - b) * b ^ (m + 1) := by ring
      rw [e]
      refine (abs_add_le _ _).trans ?_
      rw [abs_mul, abs_mul, abs_of_nonneg a0, abs_of_nonneg (pow_nonneg b0 _)]
      have t1 : a * |a ^ (m + 1) - b ^ (m + 1)| ≤ 1 / 2 * ((m + 1) * (1 / 2) ^ m * |a - b|) :=
        mul_le_mul a1 ih (abs_nonneg _) (by norm_num)
      have t2 : |a - b| * b ^ (m + 1) ≤ |a - b| * (1 / 2) ^ (m + 1) :=
        mul_le_mul_of_nonneg_left (pow_le_pow_left₀ b0 b1 _) (abs_nonneg _)
      refine (add_le_add t1 t2).trans (le_of_eq ?_)
      push_cast
      ring
  cases m with
  | zero => simp
  | succ m =>
    refine (h m).trans (mul_le_of_le_one_left (abs_nonneg _) ?_)
    rw [one_div_pow, mul_one_div, div_le_one (by positivity)]
    exact_mod_cast Nat.lt_two_pow_self

theorem keyOk_bounds {n : ℕ} (hn : ValidLog n) : 6 / 5 ≤ sigmaMin n ∧ sigmaMin n ≤ keySigma ∧ keySigma ≤ sigmaMax := by
  have e1 : keySigma ≤ sigmaMax := by rw [keySigma_eq, sigmaMax_eq]; norm_num
  have r : Rep keySigma := rep_rnd _
  rcases hn with rfl | rfl
  · refine ⟨?_, ?_, e1⟩
    · have : (5 / 4 : ℝ) ≤ sigmaMin 9 := by
        unfold sigmaMin
        rw [if_pos rfl]
        exact le_rnd_of_rep ⟨5, -2, by norm_num, by norm_num, by norm_num⟩ (by norm_num)
      linarith
    · unfold sigmaMin
      rw [if_pos rfl]
      exact rnd_le_of_rep r (by rw [keySigma_eq]; norm_num)
  · refine ⟨?_, ?_, e1⟩
    · have : (5 / 4 : ℝ) ≤ sigmaMin 10 := by
        unfold sigmaMin
        rw [if_neg (by norm_num)]
        exact le_rnd_of_rep ⟨5, -2, by norm_num, by norm_num, by norm_num⟩ (by norm_num)
      linarith
    · unfold sigmaMin
      rw [if_neg (by norm_num)]
      exact rnd_le_of_rep r (by rw [keySigma_eq]; norm_num)

end Falcon
