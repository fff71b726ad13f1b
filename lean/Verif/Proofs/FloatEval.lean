import Verif.Proofs.Float

/-! # Evaluating `rnd` on concrete dyadic rationals and near concrete values -/

namespace Falcon

/-- `rnd x` from a candidate mantissa. -/
theorem rnd_eq_of {x : ℝ} (m : ℤ) (e : ℤ) (he : -1074 ≤ e) (h1 : (2 : ℝ) ^ (e + 52) ≤ |x|)
    (h2 : |x| < 2 ^ (e + 53)) (h3 : |x / 2 ^ e - m| < 1 / 2) : rnd x = m * 2 ^ e := by
  have hx : x ≠ 0 := by
    intro h0; rw [h0, abs_zero] at h1; exact absurd h1 (not_le.mpr (two_zpow_pos _))
  have l1 := le_log_of h1
  have l2 := log_lt_of hx h2
  have hf : fexp x = e := by unfold fexp; omega
  unfold rnd
  rw [hf]
  congr 2
  have hm := rndZ_err (x / 2 ^ e)
  have : |(rndZ (x / 2 ^ e) : ℝ) - m| < 1 := by
    rw [abs_lt] at h3 ⊢
    rw [abs_le] at hm
    constructor <;> linarith [hm.1, hm.2, h3.1, h3.2]
  have h : |rndZ (x / 2 ^ e) - m| < 1 := by exact_mod_cast this
  rw [Int.abs_lt_one_iff] at h
  omega

/-- The largest double below a double with mantissa above 2^52. -/
theorem rep_lt {x : ℝ} (hx : Rep x) (m e : ℤ) (hm : 2 ^ 52 < m) (h : x < m * 2 ^ e) :
    x ≤ (m - 1 : ℤ) * 2 ^ e := by
  obtain ⟨m', e', hm', he', rfl⟩ := hx
  rcases le_or_gt e e' with hle | hlt
  · obtain ⟨k, rfl⟩ : ∃ k : ℕ, e' = e + k := ⟨(e' - e).toNat, by omega⟩
    have hp := two_zpow_pos e
    have e1 : (m' : ℝ) * 2 ^ (e + (k : ℤ)) = ((m' * 2 ^ k : ℤ) : ℝ) * 2 ^ e := by
      rw [zpow_add₀ (by norm_num)]; push_cast; simp; ring
    rw [e1] at h ⊢
    have h2 : ((m' * 2 ^ k : ℤ) : ℝ) < (m : ℝ) := lt_of_mul_lt_mul_right h hp.le
    have h3 : m' * 2 ^ k < m := by exact_mod_cast h2
    refine mul_le_mul_of_nonneg_right ?_ hp.le
    have : m' * 2 ^ k ≤ m - 1 := by omega
    exact_mod_cast this
  · have h1 : (m' : ℝ) ≤ 2 ^ 53 := by
      have : m' ≤ 2 ^ 53 := by
        rw [abs_lt] at hm'; omega
      exact_mod_cast this
    have h2 : (2 : ℝ) ^ e' ≤ 2 ^ (e - 1) := zpow_le_zpow_right₀ (by norm_num) (by omega)
    have h3 : ((2 ^ 52 : ℤ) : ℝ) ≤ ((m - 1 : ℤ) : ℝ) := by
      have : (2 ^ 52 : ℤ) ≤ m - 1 := by omega
      exact_mod_cast this
    calc (m' : ℝ) * 2 ^ e' ≤ 2 ^ 53 * 2 ^ e' := mul_le_mul_of_nonneg_right h1 (two_zpow_pos _).le
      _ ≤ 2 ^ 53 * 2 ^ (e - 1) := mul_le_mul_of_nonneg_left h2 (by positivity)
      _ = ((2 ^ 52 : ℤ) : ℝ) * 2 ^ e := by
          rw [zpow_sub_one₀ (by norm_num)]; push_cast; ring
      _ ≤ _ := mul_le_mul_of_nonneg_right h3 (two_zpow_pos _).le

end Falcon
