import Verif.Proofs.Samplerz

/-! # Accuracy of the exponent computed by `samplerz` -/

namespace Falcon

theorem mul_err {a A b B ea eb MA Mb : ℝ} (h1 : |a - A| ≤ ea) (h2 : |b - B| ≤ eb) (hA : |A| ≤ MA)
    (hb : |b| ≤ Mb) : |a * b - A * B| ≤ ea * Mb + MA * eb := by
  have e : a * b - A * B = (a - A) * b + A * (b - B) := by ring
  rw [e]
  refine (abs_add_le _ _).trans (add_le_add ?_ ?_)
  · rw [abs_mul]; exact mul_le_mul h1 hb (abs_nonneg _) ((abs_nonneg _).trans h1)
  · rw [abs_mul]; exact mul_le_mul hA h2 (abs_nonneg _) ((abs_nonneg _).trans hA)

/-- Rounding error with the unit `u = 2^-53`, for values up to `M`. -/
theorem rnd_err' {x M : ℝ} (h : |x| ≤ M) : |rnd x - x| ≤ (M + 1 / 1000) * 2 ^ (-53 : ℤ) := by
  have h1 := rnd_err x
  have tiny : (2 : ℝ) ^ (-1075 : ℤ) ≤ 1 / 1000 * 2 ^ (-53 : ℤ) := by
    calc (2 : ℝ) ^ (-1075 : ℤ) ≤ 2 ^ (-63 : ℤ) := zpow_le_zpow_right₀ (by norm_num) (by norm_num)
      _ ≤ _ := by norm_num
  have h2 : |x| * 2 ^ (-53 : ℤ) ≤ M * 2 ^ (-53 : ℤ) := mul_le_mul_of_nonneg_right h (two_zpow_pos _).le
  rw [add_mul]
  generalize (2 : ℝ) ^ (-1075 : ℤ) = v at *
  generalize (2 : ℝ) ^ (-53 : ℤ) = u at *
  linarith

theorem tri {a b c x y : ℝ} (h1 : |a - b| ≤ x) (h2 : |b - c| ≤ y) : |a - c| ≤ x + y := by
  have : a - c = (a - b) + (b - c) := by ring
  rw [this]; exact (abs_add_le _ _).trans (add_le_add h1 h2)

theorem near_two_mul {a s u : ℝ} (h0 : 6 / 5 ≤ s) (h1 : s ≤ 2) (hu : 0 < u) (hu2 : u ≤ 1 / 1000000)
    (a1 : |a - 2 * s| ≤ 2 * s * u) : 2 ≤ a ∧ a ≤ 5 := by
  have : 2 * s * u ≤ 2 * s * (1 / 1000000) := mul_le_mul_of_nonneg_left hu2 (by linarith)
  rw [abs_le] at a1
  constructor <;> linarith [a1.1, a1.2]

theorem near_le {d e u : ℝ} (h0 : 0 ≤ e) (h1 : e ≤ 10) (hu2 : u ≤ 1 / 1000000)
    (a1 : |d - e| ≤ e * u) : d ≤ 100 := by
  have : e * u ≤ e * (1 / 1000000) := mul_le_mul_of_nonneg_left hu2 h0
  rw [abs_le] at a1
  linarith [a1.1, a1.2]

theorem szInv_err {s : ℝ} (h0 : 6 / 5 ≤ s) (h1 : s ≤ 2) :
    |szInv s - 1 / (2 * s * s)| ≤ 6 / 5 * 2 ^ (-53 : ℤ) := by
  have hu : (0 : ℝ) < 2 ^ (-53 : ℤ) := two_zpow_pos _
  have hu2 : (2 : ℝ) ^ (-53 : ℤ) ≤ 1 / 1000000 := by norm_num
  have a1 : |fmul 2 s - 2 * s| ≤ |2 * s| * 2 ^ (-53 : ℤ) := rnd_rel_err (by
    rw [abs_of_nonneg (by linarith)]
    calc (2 : ℝ) ^ (-1022 : ℤ) ≤ 2 ^ (0 : ℤ) := zpow_le_zpow_right₀ (by norm_num) (by norm_num)
      _ ≤ 2 * s := by norm_num; linarith)
  rw [abs_of_nonneg (by linarith : (0 : ℝ) ≤ 2 * s)] at a1
  obtain ⟨b1, b1'⟩ := near_two_mul h0 h1 hu hu2 a1
  have a2 : |fmul (fmul 2 s) s - fmul 2 s * s| ≤ |fmul 2 s * s| * 2 ^ (-53 : ℤ) := rnd_rel_err (by
    rw [abs_of_nonneg (by nlinarith)]
    calc (2 : ℝ) ^ (-1022 : ℤ) ≤ 2 ^ (0 : ℤ) := zpow_le_zpow_right₀ (by norm_num) (by norm_num)
      _ ≤ fmul 2 s * s := by norm_num; nlinarith)
  rw [abs_of_nonneg (by nlinarith : (0 : ℝ) ≤ fmul 2 s * s)] at a2
  have b2 : (91 / 32 : ℝ) ≤ fmul (fmul 2 s) s := by
    have r1 : Rep (19 / 8 : ℝ) := ⟨19, -3, by norm_num, by norm_num, by norm_num⟩
    have r2 : Rep (91 / 32 : ℝ) := ⟨91, -5, by norm_num, by norm_num, by norm_num⟩
    have h1 : (19 / 8 : ℝ) ≤ fmul 2 s := le_rnd_of_rep r1 (by linarith)
    refine le_rnd_of_rep r2 ?_
    calc (91 / 32 : ℝ) ≤ 19 / 8 * (6 / 5) := by norm_num
      _ ≤ _ := mul_le_mul h1 h0 (by norm_num) (by linarith)
  have a3 : |szInv s - 1 / fmul (fmul 2 s) s| ≤ |1 / fmul (fmul 2 s) s| * 2 ^ (-53 : ℤ) := by
    refine rnd_rel_err ?_
    have hle : fmul (fmul 2 s) s ≤ 100 := by
      have : fmul 2 s * s ≤ 10 := by nlinarith
      exact near_le (by nlinarith) this hu2 a2
    rw [abs_of_nonneg (by positivity)]
    calc (2 : ℝ) ^ (-1022 : ℤ) ≤ 2 ^ (-10 : ℤ) := zpow_le_zpow_right₀ (by norm_num) (by norm_num)
      _ ≤ 1 / 100 := by norm_num
      _ ≤ _ := one_div_le_one_div_of_le (by linarith) hle
  generalize fmul (fmul 2 s) s = d at *
  generalize fmul 2 s = a at *
  generalize (2 : ℝ) ^ (-53 : ℤ) = u at *
  have hd0 : 0 < d := by linarith
  rw [abs_of_nonneg (by positivity : (0 : ℝ) ≤ 1 / d)] at a3
  -- |d - 2 s s| ≤ 2.01 u * 2 s s
  have hd : |d - 2 * s * s| ≤ 2.01 * u * (2 * s * s) := by
    have e : |a * s - 2 * s * s| ≤ 2 * s * u * s := by
      rw [← sub_mul, abs_mul, abs_of_nonneg (by linarith : 0 ≤ s)]
      exact mul_le_mul_of_nonneg_right a1 (by linarith)
    have e2 : a * s ≤ 2 * s * s + 2 * s * u * s := by rw [abs_le] at e; linarith
    have e3 : a * s * u ≤ (2 * s * s + 2 * s * u * s) * u := mul_le_mul_of_nonneg_right e2 hu.le
    have e4 : 2 * s * u * s * u ≤ 2 * s * s * u * (1 / 1000000) := by
      have : 0 ≤ 2 * s * s * u := by positivity
      calc 2 * s * u * s * u = 2 * s * s * u * u := by ring
        _ ≤ _ := mul_le_mul_of_nonneg_left hu2 this
    have e5 : 0 ≤ 2 * s * s * u := by positivity
    refine (tri a2 e).trans ?_
    nlinarith
  have hinv : |1 / d - 1 / (2 * s * s)| ≤ 2.01 * u * (1 / d) := by
    have hs2 : 0 < 2 * s * s := by nlinarith
    have : 1 / d - 1 / (2 * s * s) = -(d - 2 * s * s) / (d * (2 * s * s)) := by field_simp; ring
    rw [this, abs_div, abs_neg, abs_of_pos (by positivity : 0 < d * (2 * s * s)),
      div_le_iff₀ (by positivity)]
    calc _ ≤ _ := hd
      _ = _ := by field_simp
  have hid : 1 / d ≤ 32 / 91 := by
    rw [div_le_iff₀ hd0]; linarith
  refine (tri a3 hinv).trans ?_
  have : 1 / d * u ≤ 32 / 91 * u := mul_le_mul_of_nonneg_right hid hu.le
  have e : 1 / d * u + 2.01 * u * (1 / d) = 3.01 * (1 / d * u) := by ring
  rw [e]
  linarith

theorem szX_err (mu sigma : ℝ) (b : Bool) (z0 : ℕ) (hz : z0 ≤ 18) (h0 : 6 / 5 ≤ sigma)
    (h1 : sigma ≤ sigmaMax) :
    |szX mu sigma b z0 - (((szZ b z0 : ℝ) - (mu - ⌊mu⌋)) ^ 2 / (2 * sigma ^ 2)
      - (z0 : ℝ) ^ 2 / (2 * sigmaMax ^ 2))| ≤ 1 / 2 ^ 42 := by
  have hM : sigmaMax ≤ 2 ∧ 6 / 5 ≤ sigmaMax := by rw [sigmaMax_eq]; norm_num
  have i1 := szInv_err h0 (h1.trans hM.1)
  have i2 := szInv_err hM.2 hM.1
  have j1 := szInv_le h0
  have j1' := szInv_nonneg (zpow_500_le.trans h0)
  have j2 := szInv_le hM.2
  have j2' := szInv_nonneg zpow_500_le_max
  have t2b := t2_abs_le mu b z0 hz
  obtain ⟨r0, r1⟩ := szR_bounds mu
  have f0 : 0 ≤ mu - ⌊mu⌋ := by have := Int.floor_le mu; linarith
  have f1 : mu - ⌊mu⌋ ≤ 1 := by have := Int.lt_floor_add_one mu; linarith
  have hr : |szR mu - (mu - ⌊mu⌋)| ≤ (1 + 1 / 1000) * 2 ^ (-53 : ℤ) :=
    rnd_err' (by rw [abs_of_nonneg f0]; exact f1)
  have hzb : -18 ≤ (szZ b z0 : ℝ) ∧ (szZ b z0 : ℝ) ≤ 19 := by
    obtain ⟨z1, z2⟩ := szZ_bounds b z0 hz
    exact ⟨by exact_mod_cast z1, by exact_mod_cast z2⟩
  have hz18 : (z0 : ℝ) ≤ 18 := by exact_mod_cast hz
  have hz00 : (0 : ℝ) ≤ z0 := by positivity
  have a2 : |fsub (szZ b z0) (szR mu) - (szZ b z0 - szR mu)| ≤ (19 + 1 / 1000) * 2 ^ (-53 : ℤ) :=
    rnd_err' (by rw [abs_le]; constructor <;> linarith)
  unfold szX
  simp only
  generalize fsub (szZ b z0) (szR mu) = t2 at *
  have hE : |((szZ b z0 : ℤ) : ℝ) - (mu - ⌊mu⌋)| ≤ 19 := by rw [abs_le]; constructor <;> linarith
  generalize ((szZ b z0 : ℤ) : ℝ) = z at *
  generalize hf : mu - ⌊mu⌋ = f at *
  generalize szR mu = r at *
  have hu : (0 : ℝ) < 2 ^ (-53 : ℤ) := two_zpow_pos _
  have b2 : |t2 - (z - f)| ≤ (20 + 1 / 100) * 2 ^ (-53 : ℤ) := by
    have : |(z - r) - (z - f)| ≤ (1 + 1 / 1000) * 2 ^ (-53 : ℤ) := by
      rw [show (z - r) - (z - f) = -(r - f) by ring, abs_neg]; exact hr
    exact (tri a2 this).trans (by linarith)
  have b3 := mul_err b2 b2 hE t2b
  have t2sq : |t2 * t2| ≤ 361 := by
    rw [abs_mul]
    have := abs_nonneg t2
    nlinarith
  have a3 : |fmul t2 t2 - t2 * t2| ≤ (361 + 1 / 1000) * 2 ^ (-53 : ℤ) := rnd_err' t2sq
  have c3 := tri a3 b3
  have t3b : |fmul t2 t2| ≤ 361 := by
    have hrep : Rep (361 : ℝ) := by
      have := rep_int (n := 361) (by norm_num)
      exact_mod_cast this
    rw [abs_le] at t2sq ⊢
    exact ⟨le_rnd_of_rep (rep_neg hrep) t2sq.1, rnd_le_of_rep hrep t2sq.2⟩
  generalize fmul t2 t2 = t3 at *
  have hEE : |(z - f) * (z - f)| ≤ 361 := by
    rw [abs_mul]
    have := abs_nonneg (z - f)
    nlinarith
  have k1 : |szInv sigma| ≤ 361 / 1024 := by rw [abs_of_nonneg j1']; exact j1
  have k2 : |szInv sigmaMax| ≤ 361 / 1024 := by rw [abs_of_nonneg j2']; exact j2
  have b4 := mul_err c3 i1 hEE k1
  have a4 : |fmul t3 (szInv sigma) - t3 * szInv sigma| ≤ (128 + 1 / 1000) * 2 ^ (-53 : ℤ) := rnd_err' (by
    rw [abs_mul]
    calc _ ≤ (361 : ℝ) * (361 / 1024) := mul_le_mul t3b k1 (abs_nonneg _) (by norm_num)
      _ ≤ 128 := by norm_num)
  have c4 := tri a4 b4
  have t4b : |fmul t3 (szInv sigma)| ≤ 128 := by
    have hrep : Rep (128 : ℝ) := by
      have := rep_int (n := 128) (by norm_num)
      exact_mod_cast this
    have : |t3 * szInv sigma| ≤ 128 := by
      rw [abs_mul]
      calc _ ≤ (361 : ℝ) * (361 / 1024) := mul_le_mul t3b k1 (abs_nonneg _) (by norm_num)
        _ ≤ 128 := by norm_num
    rw [abs_le] at this ⊢
    exact ⟨le_rnd_of_rep (rep_neg hrep) this.1, rnd_le_of_rep hrep this.2⟩
  generalize fmul t3 (szInv sigma) = t4 at *
  have hz2 : |((z0 * z0 : ℕ) : ℝ)| ≤ 324 := by
    rw [abs_of_nonneg (by positivity)]; push_cast; nlinarith
  have q6 : |((z0 * z0 : ℕ) : ℝ) * szInv sigmaMax| ≤ 128 := by
    rw [abs_mul]
    calc _ ≤ (324 : ℝ) * (361 / 1024) := mul_le_mul hz2 k2 (abs_nonneg _) (by norm_num)
      _ ≤ 128 := by norm_num
  have a6 : |fmul ((z0 * z0 : ℕ) : ℝ) (szInv sigmaMax) - ((z0 * z0 : ℕ) : ℝ) * szInv sigmaMax|
      ≤ (128 + 1 / 1000) * 2 ^ (-53 : ℤ) := rnd_err' q6
  have b6 : |((z0 * z0 : ℕ) : ℝ) * szInv sigmaMax - ((z0 * z0 : ℕ) : ℝ) * (1 / (2 * sigmaMax * sigmaMax))|
      ≤ 324 * (6 / 5 * 2 ^ (-53 : ℤ)) := by
    rw [← mul_sub, abs_mul]
    exact mul_le_mul hz2 i2 (abs_nonneg _) (by norm_num)
  have c6 := tri a6 b6
  have t6b : |fmul ((z0 * z0 : ℕ) : ℝ) (szInv sigmaMax)| ≤ 128 := by
    have hrep : Rep (128 : ℝ) := by
      have := rep_int (n := 128) (by norm_num)
      exact_mod_cast this
    rw [abs_le] at q6 ⊢
    exact ⟨le_rnd_of_rep (rep_neg hrep) q6.1, rnd_le_of_rep hrep q6.2⟩
  generalize fmul ((z0 * z0 : ℕ) : ℝ) (szInv sigmaMax) = t6 at *
  have a7 : |fsub t4 t6 - (t4 - t6)| ≤ (256 + 1 / 1000) * 2 ^ (-53 : ℤ) := rnd_err' (by
    rw [abs_le] at *; constructor <;> linarith [t4b.1, t4b.2, t6b.1, t6b.2])
  have e1 : (z - f) ^ 2 / (2 * sigma ^ 2) = (z - f) * (z - f) * (1 / (2 * sigma * sigma)) := by
    field_simp
  have e2 : (z0 : ℝ) ^ 2 / (2 * sigmaMax ^ 2) = ((z0 * z0 : ℕ) : ℝ) * (1 / (2 * sigmaMax * sigmaMax)) := by
    push_cast
    have : sigmaMax ≠ 0 := by linarith [hM.2]
    field_simp
  rw [e1, e2]
  have e3 : (1 : ℝ) / 2 ^ 42 = 2048 * 2 ^ (-53 : ℤ) := by norm_num
  rw [e3]
  generalize (z - f) * (z - f) * (1 / (2 * sigma * sigma)) = X4 at *
  generalize ((z0 * z0 : ℕ) : ℝ) * (1 / (2 * sigmaMax * sigmaMax)) = X6 at *
  have e8 : (t4 - t6) - (X4 - X6) = (t4 - X4) - (t6 - X6) := by ring
  have a8 := (abs_sub (t4 - X4) (t6 - X6)).trans (add_le_add c4 c6)
  rw [← e8] at a8
  refine (tri a7 a8).trans ?_
  linarith

end Falcon
