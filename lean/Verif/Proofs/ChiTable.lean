import Verif.Proofs.SamplerFinal

/-! # The integer sampler compared with the Gaussian in relative terms: table and threshold -/

namespace Falcon

open Real

/-! ## The table -/

def tabLoQ (z : ℕ) : ℚ := (pdtSpec.getD z 0 : ℚ) / 2 ^ 72 * gSumQ gLoQ - gHiQ ^ (z ^ 2)
def tabHiQ (z : ℕ) : ℚ := (pdtSpec.getD z 0 : ℚ) / 2 ^ 72 * (gSumQ gHiQ + 1 / 2 ^ 74) - gLoQ ^ (z ^ 2)

theorem tab_cert : ((List.range 19).map fun z => (tabLoQ z ^ 2 + tabHiQ z ^ 2) / gLoQ ^ (z ^ 2)).sum ≤ 1 / 2 ^ 83 := by decide +kernel

theorem tab_ratio_cert : ∀ z ∈ List.range 19,
    (pdtSpec.getD z 0 : ℚ) / 2 ^ 72 * (gSumQ gHiQ + 1 / 2 ^ 74) ≤ 101 / 100 * gLoQ ^ (z ^ 2) := by decide +kernel

theorem tail_cert : gHiQ ^ 361 * 256 / 255 ≤ 3 / 4 / 2 ^ 78 ∧ gHiQ ^ 38 ≤ 1 / 256 ∧ gHiQ ^ 169 ≤ 1 / 2 ^ 36 := by decide +kernel

theorem gLoQ_pos : (0 : ℚ) < gLoQ := by norm_num [gLoQ]

/-- Sum of the squared errors of the table, relative to the weights. -/
theorem tab_sq : ∑ z ∈ Finset.range 19, ((pdtSpec.getD z 0 : ℝ) / 2 ^ 72 * gC - gA ^ (z ^ 2)) ^ 2 / gA ^ (z ^ 2) ≤ 1 / 2 ^ 83 := by
  have hc : ∑ z ∈ Finset.range 19, (tabLoQ z ^ 2 + tabHiQ z ^ 2) / gLoQ ^ (z ^ 2) ≤ 1 / 2 ^ 83 := tab_cert
  have hc := Rat.cast_le (K := ℝ).mpr hc
  rw [Rat.cast_sum] at hc
  refine le_trans (Finset.sum_le_sum fun z _ => ?_) (hc.trans (le_of_eq (by push_cast; norm_num)))
  obtain ⟨h1, h2⟩ := gC_bounds
  have l := gA_pow_lo (z ^ 2)
  have u := gA_pow_hi (z ^ 2)
  have l0 : (0 : ℝ) < ((gLoQ ^ z ^ 2 : ℚ) : ℝ) := by exact_mod_cast pow_pos gLoQ_pos _
  have hp : (0 : ℝ) ≤ (pdtSpec.getD z 0 : ℝ) / 2 ^ 72 := by positivity
  have q2 : (((pdtSpec.getD z 0 : ℚ) / 2 ^ 72 : ℚ) : ℝ) = (pdtSpec.getD z 0 : ℝ) / 2 ^ 72 := by push_cast; ring
  have e1 : ((tabLoQ z : ℚ) : ℝ) = (pdtSpec.getD z 0 : ℝ) / 2 ^ 72 * ((gSumQ gLoQ : ℚ) : ℝ) - ((gHiQ ^ z ^ 2 : ℚ) : ℝ) := by
    rw [tabLoQ, Rat.cast_sub, Rat.cast_mul, q2]
  have e2 : ((tabHiQ z : ℚ) : ℝ) = (pdtSpec.getD z 0 : ℝ) / 2 ^ 72 * ((gSumQ gHiQ + 1 / 2 ^ 74 : ℚ) : ℝ) - ((gLoQ ^ z ^ 2 : ℚ) : ℝ) := by
    rw [tabHiQ, Rat.cast_sub, Rat.cast_mul, q2]
  rw [Rat.cast_div, Rat.cast_add, Rat.cast_pow (tabLoQ z), Rat.cast_pow (tabHiQ z)]
  have m1 := mul_le_mul_of_nonneg_left h1 hp
  have m2 := mul_le_mul_of_nonneg_left h2 hp
  generalize (pdtSpec.getD z 0 : ℝ) / 2 ^ 72 = P at *
  generalize ((gLoQ ^ z ^ 2 : ℚ) : ℝ) = L at *
  generalize ((gHiQ ^ z ^ 2 : ℚ) : ℝ) = H at *
  generalize ((tabLoQ z : ℚ) : ℝ) = x at *
  generalize ((tabHiQ z : ℚ) : ℝ) = y at *
  have hx : x ≤ P * gC - gA ^ z ^ 2 := by linarith
  have hy : P * gC - gA ^ z ^ 2 ≤ y := by linarith
  generalize P * gC - gA ^ z ^ 2 = w at *
  refine div_le_div₀ (by positivity) ?_ l0 l
  rcases le_total 0 w with h | h
  · nlinarith [sq_nonneg x]
  · nlinarith [sq_nonneg y]

theorem tab_ratio {z : ℕ} (hz : z ≤ 18) : (pdtSpec.getD z 0 : ℝ) / 2 ^ 72 * gC ≤ 1.01 * gA ^ (z ^ 2) := by
  have c := Rat.cast_le (K := ℝ).mpr (tab_ratio_cert z (List.mem_range.mpr (by omega)))
  have q2 : (((pdtSpec.getD z 0 : ℚ) / 2 ^ 72 : ℚ) : ℝ) = (pdtSpec.getD z 0 : ℝ) / 2 ^ 72 := by push_cast; ring
  rw [Rat.cast_mul, q2, Rat.cast_mul] at c
  have q3 : ((101 / 100 : ℚ) : ℝ) = 1.01 := by norm_num
  rw [q3] at c
  have hp : (0 : ℝ) ≤ (pdtSpec.getD z 0 : ℝ) / 2 ^ 72 := by positivity
  have m2 := mul_le_mul_of_nonneg_left gC_bounds.2 hp
  have l := gA_pow_lo (z ^ 2)
  linarith

theorem gA_169 : gA ^ 169 ≤ 1 / 2 ^ 36 := by
  have := Rat.cast_le (K := ℝ).mpr tail_cert.2.2
  have q : ((1 / 2 ^ 36 : ℚ) : ℝ) = 1 / 2 ^ 36 := by push_cast; ring
  rw [q] at this
  exact (gA_pow_hi 169).trans this

theorem gA_tail_fine : ∑' j : ℕ, gA ^ ((j + 19) ^ 2) ≤ 3 / 4 / 2 ^ 78 := by
  have h38 : gA ^ 38 ≤ 1 / 256 := by
    have := Rat.cast_le (K := ℝ).mpr tail_cert.2.1
    have q : ((1 / 256 : ℚ) : ℝ) = 1 / 256 := by push_cast; ring
    rw [q] at this
    exact (gA_pow_hi 38).trans this
  have hterm : ∀ j : ℕ, gA ^ ((j + 19) ^ 2) ≤ gA ^ 361 * (1 / 256) ^ j := by
    intro j
    have : (j + 19) ^ 2 = 361 + 38 * j + j ^ 2 := by ring
    rw [this, pow_add, pow_add, pow_mul]
    calc gA ^ 361 * (gA ^ 38) ^ j * gA ^ j ^ 2 ≤ gA ^ 361 * (1 / 256) ^ j * 1 := by
          refine mul_le_mul (mul_le_mul_of_nonneg_left (pow_le_pow_left₀ (pow_pos gA_pos _).le h38 j)
            (pow_pos gA_pos _).le) (pow_le_one₀ gA_pos.le gA_lt_one.le) (pow_pos gA_pos _).le ?_
          have := gA_pos
          positivity
      _ = _ := mul_one _
  have h := gA_summable_tail.tsum_le_tsum hterm ((summable_geometric_of_lt_one (by norm_num) (by norm_num)).mul_left _)
  refine h.trans ?_
  rw [tsum_mul_left, tsum_geometric_of_lt_one (by norm_num) (by norm_num)]
  have c := Rat.cast_le (K := ℝ).mpr tail_cert.1
  have q : ((3 / 4 / 2 ^ 78 : ℚ) : ℝ) = 3 / 4 / 2 ^ 78 := by push_cast; ring
  rw [q, Rat.cast_div, Rat.cast_mul] at c
  have q2 : ((256 : ℚ) : ℝ) = 256 := by norm_num
  have q3 : ((255 : ℚ) : ℝ) = 255 := by norm_num
  rw [q2, q3] at c
  refine le_trans ?_ c
  have := gA_pow_hi 361
  have e : gA ^ 361 * (1 - 1 / 256 : ℝ)⁻¹ = gA ^ 361 * 256 / 255 := by
    rw [show (1 - 1 / 256 : ℝ)⁻¹ = 256 / 255 by norm_num]; ring
  rw [e]
  gcongr

/-! ## The threshold -/

theorem thrF_rel {fma : Bool} {x ccs : ℝ} (hx : Rep x) (h0 : 0 ≤ x) (h1 : x < 137) (hsafe : SafeRed fma x) (c0 : 1 / 2 ≤ ccs)
    (c1 : ccs ≤ 1) (s : ℕ) (hs : berS x = s) (hs63 : s ≤ 63) :
    |((thrF fma x ccs).toNat : ℝ) / 2 ^ 64 - ccs * Real.exp (-x)| ≤ 1 / 2 ^ 45 * Real.exp (-x) + 1 / 2 ^ 64 := by
  refine (thrF_accurate hx h0 h1 hsafe c0 c1 s hs hs63).trans (add_le_add ?_ le_rfl)
  have herr := berR_errF hx h0 h1 hsafe
  rw [hs, Int.cast_natCast] at herr
  have hsR : (s : ℝ) ≤ 63 := by exact_mod_cast hs63
  have hs0 : (0 : ℝ) ≤ s := by positivity
  have hex : Real.exp (-x) = Real.exp (-(x - s * Real.log 2)) * (1 / 2 ^ s) := by
    rw [← two_pow_neg_log, ← Real.exp_add]; ring_nf
  have hr := hsafe.2
  have hlow : 0.3 ≤ Real.exp (-(x - s * Real.log 2)) := by
    refine le_trans ?_ (Real.add_one_le_exp _)
    have p53 : (2 : ℝ) ^ (-53 : ℤ) = 1 / 2 ^ 53 := by norm_num
    rw [p53] at herr
    have : (0.96 * (s : ℝ) + 0.72) * (1 / 2 ^ 53 : ℝ) ≤ 0.001 := by
      calc _ ≤ (0.96 * 63 + 0.72) * (1 / 2 ^ 53 : ℝ) := mul_le_mul_of_nonneg_right (by linarith) (by positivity)
        _ ≤ _ := by norm_num
    have h2 := (abs_le.mp (herr.trans this)).1
    norm_num at h2 hr ⊢
    linarith
  rw [hex]
  have hq : (1 : ℝ) / 2 ^ 50 + ((s : ℝ) + 1) / 2 ^ 53 ≤ 9 / 2 ^ 50 := by
    have : ((s : ℝ) + 1) / 2 ^ 53 ≤ 64 / 2 ^ 53 := div_le_div_of_nonneg_right (by linarith) (by positivity)
    refine (add_le_add le_rfl this).trans ?_
    norm_num
  have hp : (0 : ℝ) < 1 / 2 ^ s := by positivity
  generalize Real.exp (-(x - s * Real.log 2)) = e at *
  generalize (1 : ℝ) / 2 ^ s = p at *
  calc p * (1 / 2 ^ 50 + ((s : ℝ) + 1) / 2 ^ 53) ≤ p * (9 / 2 ^ 50) := mul_le_mul_of_nonneg_left hq hp.le
    _ ≤ p * (1 / 2 ^ 45 * 0.3) := mul_le_mul_of_nonneg_left (by norm_num) hp.le
    _ ≤ p * (1 / 2 ^ 45 * e) := by gcongr
    _ = _ := by ring

/-- Beyond 63 halvings. -/
theorem thrF_far {fma : Bool} {x ccs : ℝ} (h1 : x < 137) (hsafe : SafeRed fma x) (c0 : 1 / 2 ≤ ccs)
    (c1 : ccs ≤ 1) (s : ℕ) (hs : berS x = s) (hs64 : 64 ≤ s) :
    |((thrF fma x ccs).toNat : ℝ) / 2 ^ 64 - ccs * Real.exp (-x)| ≤ Real.exp (-x) + 1 / 2 ^ 64 := by
  have he0 := Real.exp_pos (-x)
  have ht := thrF_toNat h1 hsafe c0 c1
  rw [hs, Int.toNat_natCast, min_eq_right (by omega)] at ht
  obtain ⟨b1, b2⟩ := thrYr_bounds hsafe.1 hsafe.2 c0 c1
  have ht2 : (thrF fma x ccs).toNat ≤ 1 := by
    rw [ht]
    omega
  have ht3 : ((thrF fma x ccs).toNat : ℝ) ≤ 1 := by exact_mod_cast ht2
  have ht4 : (0 : ℝ) ≤ (thrF fma x ccs).toNat := by positivity
  have q1 : ((thrF fma x ccs).toNat : ℝ) / 2 ^ 64 ≤ 1 / 2 ^ 64 := div_le_div_of_nonneg_right ht3 (by positivity)
  have q2 : 0 ≤ ((thrF fma x ccs).toNat : ℝ) / 2 ^ 64 := by positivity
  have q3 : ccs * Real.exp (-x) ≤ 1 * Real.exp (-x) := mul_le_mul_of_nonneg_right c1 he0.le
  have q4 : 0 ≤ ccs * Real.exp (-x) := by positivity
  have q5 : (0 : ℝ) ≤ 1 / 2 ^ 64 := by positivity
  rw [abs_le]
  constructor <;> linarith

end Falcon
