import Verif.Proofs.BerAccuracy
import Verif.GaussSpec
import Mathlib.Analysis.SpecificLimits.Basic
import Mathlib.Topology.Algebra.InfiniteSum.NatInt

/-! # The probability table compared with the half Gaussian of parameter sigma_max -/

namespace Falcon

/-- `exp(-1 / (2 sigma_max^2))`. -/
noncomputable def gA : ℝ := Real.exp (-(1 / (2 * sigmaMax ^ 2)))

/-- Sum of the weights of the half Gaussian. -/
noncomputable def gC : ℝ := ∑' z : ℕ, gA ^ (z ^ 2)

def gTQ : ℚ := 2 ^ 103 / 8198803121627988 ^ 2
def gLoQ : ℚ := (1039632373937028673124397 - 2 ^ 12) / 2 ^ 80
def gHiQ : ℚ := (1039632373937028673124397 + 2 ^ 12) / 2 ^ 80

theorem gA_cert : gLoQ * (hornerQ expTaylor gTQ + 1 / 2 ^ 70) ≤ 1 ∧
    1 ≤ gHiQ * (hornerQ expTaylor gTQ - 1 / 2 ^ 70) := by decide +kernel

theorem gT_eq : 1 / (2 * sigmaMax ^ 2) = ((gTQ : ℚ) : ℝ) := by
  rw [sigmaMax_eq, gTQ]; push_cast; norm_num

theorem gA_pos : 0 < gA := Real.exp_pos _

theorem gA_bounds : ((gLoQ : ℚ) : ℝ) ≤ gA ∧ gA ≤ ((gHiQ : ℚ) : ℝ) := by
  have b := expTaylor_bound ((gTQ : ℚ) : ℝ) (by norm_num [gTQ]) (by norm_num [gTQ])
  rw [horner_cast, abs_le] at b
  obtain ⟨c1, c2⟩ := gA_cert
  have d1 : ((gLoQ * (hornerQ expTaylor gTQ + 1 / 2 ^ 70) : ℚ) : ℝ) ≤ ((1 : ℚ) : ℝ) := Rat.cast_le.mpr c1
  have d2 : ((1 : ℚ) : ℝ) ≤ ((gHiQ * (hornerQ expTaylor gTQ - 1 / 2 ^ 70) : ℚ) : ℝ) := Rat.cast_le.mpr c2
  have q : ((1 / 2 ^ 70 : ℚ) : ℝ) = 1 / 2 ^ 70 := by push_cast; ring
  rw [Rat.cast_mul, Rat.cast_add, q, Rat.cast_one] at d1
  rw [Rat.cast_mul, Rat.cast_sub, q, Rat.cast_one] at d2
  have hl : (0 : ℝ) ≤ ((gLoQ : ℚ) : ℝ) := by norm_num [gLoQ]
  have hh : (0 : ℝ) ≤ ((gHiQ : ℚ) : ℝ) := by norm_num [gHiQ]
  have e : gA * Real.exp ((gTQ : ℚ) : ℝ) = 1 := by
    rw [gA, gT_eq, ← Real.exp_add]; norm_num
  have hp := Real.exp_pos ((gTQ : ℚ) : ℝ)
  generalize Real.exp ((gTQ : ℚ) : ℝ) = E at *
  generalize ((hornerQ expTaylor gTQ : ℚ) : ℝ) = H at *
  constructor
  · refine le_of_mul_le_mul_right ?_ hp
    rw [e]
    exact (mul_le_mul_of_nonneg_left (by linarith [b.2]) hl).trans d1
  · refine le_of_mul_le_mul_right ?_ hp
    rw [e]
    exact d2.trans (mul_le_mul_of_nonneg_left (by linarith [b.1]) hh)

def gSumQ (x : ℚ) : ℚ := ((List.range 19).map fun z => x ^ (z ^ 2)).sum

theorem gA_table_cert : ∀ z ∈ List.range 19,
    (pdtSpec.getD z 0 : ℚ) / 2 ^ 72 * (gSumQ gHiQ + 1 / 2 ^ 74) ≤ gLoQ ^ (z ^ 2) + 1 / 2 ^ 57 ∧
    gHiQ ^ (z ^ 2) ≤ (pdtSpec.getD z 0 : ℚ) / 2 ^ 72 * gSumQ gLoQ + 1 / 2 ^ 57 := by decide +kernel

theorem gA_tail_cert : gHiQ ^ 361 * 2 ≤ 1 / 2 ^ 74 ∧ gHiQ ^ 38 ≤ 1 / 2 ∧ 2.78 ≤ gSumQ gLoQ ∧ gSumQ gHiQ + 1 / 2 ^ 74 ≤ 2.79 := by decide +kernel

theorem gA_pow_lo (n : ℕ) : ((gLoQ ^ n : ℚ) : ℝ) ≤ gA ^ n := by
  rw [Rat.cast_pow]
  exact pow_le_pow_left₀ (by norm_num [gLoQ]) gA_bounds.1 n

theorem gA_pow_hi (n : ℕ) : gA ^ n ≤ ((gHiQ ^ n : ℚ) : ℝ) := by
  rw [Rat.cast_pow]
  exact pow_le_pow_left₀ gA_pos.le gA_bounds.2 n

theorem gA_lt_one : gA < 1 := by
  refine lt_of_le_of_lt gA_bounds.2 ?_
  norm_num [gHiQ]

theorem gA_38 : gA ^ 38 ≤ 1 / 2 := by
  refine (gA_pow_hi 38).trans ?_
  have := Rat.cast_le (K := ℝ).mpr gA_tail_cert.2.1
  exact this.trans (by norm_num)

theorem gA_361 : gA ^ 361 * 2 ≤ 1 / 2 ^ 74 := by
  have := Rat.cast_le (K := ℝ).mpr gA_tail_cert.1
  rw [Rat.cast_mul] at this
  have h := gA_pow_hi 361
  have q : ((1 / 2 ^ 74 : ℚ) : ℝ) = 1 / 2 ^ 74 := by push_cast; ring
  have q2 : ((2 : ℚ) : ℝ) = 2 := by norm_num
  rw [q, q2] at this
  linarith

/-- The tail of the half Gaussian, term by term. -/
theorem gA_tail_term (j : ℕ) : gA ^ ((j + 19) ^ 2) ≤ gA ^ 361 * (1 / 2) ^ j := by
  have : (j + 19) ^ 2 = 361 + 38 * j + j ^ 2 := by ring
  rw [this, pow_add, pow_add, pow_mul]
  calc gA ^ 361 * (gA ^ 38) ^ j * gA ^ j ^ 2 ≤ gA ^ 361 * (1 / 2) ^ j * 1 := by
        refine mul_le_mul (mul_le_mul_of_nonneg_left (pow_le_pow_left₀ (pow_pos gA_pos _).le gA_38 j)
          (pow_pos gA_pos _).le) (pow_le_one₀ gA_pos.le gA_lt_one.le) (pow_pos gA_pos _).le ?_
        have := gA_pos
        positivity
    _ = _ := mul_one _

theorem gA_summable_tail : Summable fun j : ℕ => gA ^ ((j + 19) ^ 2) :=
  Summable.of_nonneg_of_le (fun _ => (pow_pos gA_pos _).le) gA_tail_term
    ((summable_geometric_of_lt_one (by norm_num) (by norm_num)).mul_left _)

theorem gA_tail_le : ∑' j : ℕ, gA ^ ((j + 19) ^ 2) ≤ 1 / 2 ^ 74 := by
  have h := gA_summable_tail.tsum_le_tsum gA_tail_term
    ((summable_geometric_of_lt_one (by norm_num) (by norm_num)).mul_left _)
  refine h.trans ?_
  rw [tsum_mul_left, tsum_geometric_two]
  exact gA_361

theorem summable_gA : Summable fun z : ℕ => gA ^ (z ^ 2) :=
  (summable_nat_add_iff 19).mp gA_summable_tail

theorem gC_eq : gC = ∑ z ∈ Finset.range 19, gA ^ (z ^ 2) + ∑' j : ℕ, gA ^ ((j + 19) ^ 2) :=
  (summable_gA.sum_add_tsum_nat_add 19).symm

theorem gSumQ_cast (x : ℚ) : ((gSumQ x : ℚ) : ℝ) = ∑ z ∈ Finset.range 19, ((x ^ (z ^ 2) : ℚ) : ℝ) := by
  have : gSumQ x = ∑ z ∈ Finset.range 19, x ^ (z ^ 2) := rfl
  rw [this, Rat.cast_sum]

theorem gC_bounds : ((gSumQ gLoQ : ℚ) : ℝ) ≤ gC ∧ gC ≤ ((gSumQ gHiQ + 1 / 2 ^ 74 : ℚ) : ℝ) := by
  have q : ((1 / 2 ^ 74 : ℚ) : ℝ) = 1 / 2 ^ 74 := by push_cast; ring
  rw [Rat.cast_add, q, gSumQ_cast, gSumQ_cast, gC_eq]
  constructor
  · have h1 : 0 ≤ ∑' j : ℕ, gA ^ ((j + 19) ^ 2) := tsum_nonneg fun _ => (pow_pos gA_pos _).le
    have h2 := Finset.sum_le_sum (s := Finset.range 19) fun z _ => gA_pow_lo (z ^ 2)
    linarith
  · have h2 := Finset.sum_le_sum (s := Finset.range 19) fun z _ => gA_pow_hi (z ^ 2)
    linarith [gA_tail_le]

theorem gC_num : 2.78 ≤ gC ∧ gC ≤ 2.79 := by
  obtain ⟨h1, h2⟩ := gC_bounds
  constructor
  · refine le_trans ?_ h1
    have := Rat.cast_le (K := ℝ).mpr gA_tail_cert.2.2.1
    exact le_trans (by norm_num) this
  · refine h2.trans ?_
    have := Rat.cast_le (K := ℝ).mpr gA_tail_cert.2.2.2
    exact this.trans (by norm_num)

/-- Every entry of the table is the probability under the half Gaussian up to 2^-57 of the weight. -/
theorem table_accurate {z : ℕ} (hz : z ≤ 18) :
    |(pdtSpec.getD z 0 : ℝ) / 2 ^ 72 * gC - gA ^ (z ^ 2)| ≤ 1 / 2 ^ 57 := by
  obtain ⟨c1, c2⟩ := gA_table_cert z (List.mem_range.mpr (by omega))
  have c1 := Rat.cast_le (K := ℝ).mpr c1
  have c2 := Rat.cast_le (K := ℝ).mpr c2
  have q : ((1 / 2 ^ 57 : ℚ) : ℝ) = 1 / 2 ^ 57 := by push_cast; ring
  have q2 : (((pdtSpec.getD z 0 : ℚ) / 2 ^ 72 : ℚ) : ℝ) = (pdtSpec.getD z 0 : ℝ) / 2 ^ 72 := by push_cast; ring
  rw [Rat.cast_mul, Rat.cast_add (gLoQ ^ z ^ 2), q, q2] at c1
  rw [Rat.cast_add, Rat.cast_mul, q, q2] at c2
  obtain ⟨h1, h2⟩ := gC_bounds
  have l := gA_pow_lo (z ^ 2)
  have u := gA_pow_hi (z ^ 2)
  have hp : (0 : ℝ) ≤ (pdtSpec.getD z 0 : ℝ) / 2 ^ 72 := by positivity
  have m1 := mul_le_mul_of_nonneg_left h1 hp
  have m2 := mul_le_mul_of_nonneg_left h2 hp
  generalize (pdtSpec.getD z 0 : ℝ) / 2 ^ 72 = P at *
  rw [abs_le]
  constructor
  · linarith
  · linarith

end Falcon
