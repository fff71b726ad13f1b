import Verif.Proofs.SamplerExponent
import Verif.Proofs.SamplerCount
import Mathlib.Analysis.Complex.ExponentialBounds

/-! # The distribution of one iteration compared with the ideal one -/

namespace Falcon

theorem exp_44 : Real.exp (-44) ≤ 1 / 2 ^ 60 := by
  have h1 := Real.exp_one_gt_d9
  have h2 : Real.exp (-44) = (Real.exp 1)⁻¹ ^ 44 := by
    rw [← Real.exp_neg, ← Real.exp_nat_mul]; norm_num
  have h3 : (Real.exp 1)⁻¹ ≤ 1 / 2.7 := by
    rw [inv_eq_one_div]; exact one_div_le_one_div_of_le (by norm_num) (by linarith)
  rw [h2]
  calc _ ≤ ((1 / 2.7 : ℝ)) ^ 44 := pow_le_pow_left₀ (inv_nonneg.mpr (Real.exp_pos 1).le) h3 44
    _ ≤ _ := by norm_num

theorem x_ge_of_berS {x : ℝ} (hx : Rep x) (h0 : 0 ≤ x) (h1 : x < 137) (hs : 64 ≤ berS x) : 44 ≤ x := by
  have h := sLN2_le hx h0 h1
  refine le_trans ?_ h
  have r : Rep (44 : ℝ) := by
    have := rep_int (n := 44) (by norm_num)
    exact_mod_cast this
  refine le_rnd_of_rep r ?_
  have : (64 : ℝ) ≤ berS x := by exact_mod_cast hs
  have hl : (0.69 : ℝ) ≤ LN2 := by rw [LN2_eq]; norm_num
  nlinarith

theorem thrF_accurate_abs {fma : Bool} {x ccs : ℝ} (hx : Rep x) (h0 : 0 ≤ x) (h1 : x < 137) (hsafe : SafeRed fma x) (c0 : 1 / 2 ≤ ccs)
    (c1 : ccs ≤ 1) : |((thrF fma x ccs).toNat : ℝ) / 2 ^ 64 - ccs * Real.exp (-x)| ≤ 1 / 2 ^ 46 := by
  have hs0 := berS_nonneg h0
  obtain ⟨s, hs⟩ : ∃ s : ℕ, berS x = s := ⟨(berS x).toNat, by omega⟩
  rcases Nat.lt_or_ge s 64 with hlt | hge
  · refine (thrF_accurate hx h0 h1 hsafe c0 c1 s hs (by omega)).trans ?_
    have hsR : (s : ℝ) ≤ 63 := by
      have : s ≤ 63 := by omega
      exact_mod_cast this
    have hp : (1 : ℝ) / 2 ^ s ≤ 1 := by
      rw [div_le_one (by positivity)]; exact one_le_pow₀ (by norm_num)
    have hq : (1 : ℝ) / 2 ^ 50 + ((s : ℝ) + 1) / 2 ^ 53 ≤ 9 / 2 ^ 50 := by
      have : ((s : ℝ) + 1) / 2 ^ 53 ≤ 64 / 2 ^ 53 := div_le_div_of_nonneg_right (by linarith) (by positivity)
      refine (add_le_add le_rfl this).trans ?_
      norm_num
    have : 1 / 2 ^ s * (1 / 2 ^ 50 + ((s : ℝ) + 1) / 2 ^ 53) ≤ 1 * (9 / 2 ^ 50) :=
      mul_le_mul hp hq (by positivity) (by norm_num)
    refine (add_le_add this le_rfl).trans ?_
    norm_num
  · have hx44 := x_ge_of_berS hx h0 h1 (by omega)
    have he : Real.exp (-x) ≤ 1 / 2 ^ 60 := (Real.exp_le_exp.mpr (by linarith)).trans exp_44
    have he0 := Real.exp_pos (-x)
    have ht := thrF_toNat h1 hsafe c0 c1
    rw [hs, Int.toNat_natCast, min_eq_right (by omega)] at ht
    obtain ⟨b1, b2⟩ := thrYr_bounds hsafe.1 hsafe.2 c0 c1
    have ht2 : (thrF fma x ccs).toNat ≤ 1 := by
      rw [ht]
      omega
    have ht3 : ((thrF fma x ccs).toNat : ℝ) ≤ 1 := by exact_mod_cast ht2
    have ht4 : (0 : ℝ) ≤ (thrF fma x ccs).toNat := by positivity
    have q1 : ((thrF fma x ccs).toNat : ℝ) / 2 ^ 64 ≤ 1 / 2 ^ 64 := div_le_div_of_nonneg_right ht3 (by positivity)
    have q2 : 0 ≤ ((thrF fma x ccs).toNat : ℝ) / 2 ^ 64 := by positivity
    have q3 : ccs * Real.exp (-x) ≤ 1 * (1 / 2 ^ 60) := mul_le_mul c1 he he0.le (by norm_num)
    have q4 : 0 ≤ ccs * Real.exp (-x) := by positivity
    rw [abs_le]
    norm_num at *
    constructor <;> linarith

theorem thr_accurate_abs {x ccs : ℝ} (hx : Rep x) (h0 : 0 ≤ x) (h1 : x < 137) (c0 : 1 / 2 ≤ ccs)
    (c1 : ccs ≤ 1) : |((thr x ccs).toNat : ℝ) / 2 ^ 64 - ccs * Real.exp (-x)| ≤ 1 / 2 ^ 46 :=
  thrF_accurate_abs hx h0 h1 (safe_false hx h0 h1) c0 c1

open Classical in
theorem szIter_dist {fma : Bool} {mu sigma sigmin : ℝ} (hm0 : -2147483630 ≤ ⌊mu⌋) (hm1 : ⌊mu⌋ < 2147483629)
    (h0 : 6 / 5 ≤ sigmin) (h1 : sigmin ≤ sigma) (h2 : sigma ≤ sigmaMax)
    (hsafe : ∀ b z0, z0 ≤ 18 → SafeRed fma (szX mu sigma b z0)) (k : ℤ)
    (hk0 : -18 ≤ k) (hk1 : k ≤ 19) :
    |((Finset.univ.filter fun v : Fin 18 → UInt8 =>
        ∃ p, szIter fma mu sigma sigmin (memOf v) 0 = .ok (some (⌊mu⌋ + k), p)).card : ℝ) / 2 ^ 144
      - (pdtSpec.getD (offBase k) 0 : ℝ) / 2 ^ 73 * (fdiv sigmin sigma * Real.exp
        (-((k - (mu - ⌊mu⌋)) ^ 2 / (2 * sigma ^ 2) - (offBase k : ℝ) ^ 2 / (2 * sigmaMax ^ 2))))|
      ≤ (pdtSpec.getD (offBase k) 0 : ℝ) / 2 ^ 73 * (1 / 2 ^ 41) := by
  have hM : sigmaMax ≤ 2 ∧ 6 / 5 ≤ sigmaMax := by rw [sigmaMax_eq]; norm_num
  have hs : 6 / 5 ≤ sigma := h0.trans h1
  have hb : offBase k ≤ 18 := by unfold offBase; split <;> omega
  rw [szIter_count hm0 hm1 hs h2 (by linarith) (by linarith) hsafe k hk0 hk1]
  have hX := szX_err mu sigma (offSign k) (offBase k) hb hs h2
  have hZ : szZ (offSign k) (offBase k) = k := (szZ_iff _ _ _).mpr ⟨rfl, rfl⟩
  rw [hZ] at hX
  have x0 := szX_nonneg mu sigma (offSign k) (offBase k) hb (zpow_500_le.trans hs) h2
  have x1 := szX_lt mu sigma (offSign k) (offBase k) hb hs
  have c0 : 1 / 2 ≤ fdiv sigmin sigma := by
    have r : Rep (1 / 2 : ℝ) := ⟨1, -1, by norm_num, by norm_num, by norm_num⟩
    refine le_rnd_of_rep r ?_
    rw [le_div_iff₀ (by linarith)]
    linarith
  have c1 : fdiv sigmin sigma ≤ 1 := by
    have r : Rep (1 : ℝ) := ⟨1, 0, by norm_num, by norm_num, by norm_num⟩
    refine rnd_le_of_rep r ?_
    rw [div_le_one (by linarith)]
    exact h1
  have hT := thrF_accurate_abs (rep_szX mu sigma (offSign k) (offBase k)) x0 x1 (hsafe _ _ hb) c0 c1
  generalize szX mu sigma (offSign k) (offBase k) = x at *
  generalize (k - (mu - ⌊mu⌋)) ^ 2 / (2 * sigma ^ 2) - (offBase k : ℝ) ^ 2 / (2 * sigmaMax ^ 2) = X at *
  generalize fdiv sigmin sigma = ccs at *
  generalize (thrF fma x ccs).toNat = T at *
  have hd := exp_diff (a := x) (b := X)
  have hmin : Real.exp (-min x X) ≤ 1.01 := by
    have : -0.001 ≤ min x X := by
      rw [le_min_iff]
      rw [abs_le] at hX
      constructor
      · linarith
      · norm_num at hX ⊢; linarith [hX.2]
    have h := Real.add_one_le_exp (-0.001 : ℝ)
    have h2 : Real.exp (-0.001 : ℝ) * Real.exp 0.001 = 1 := by rw [← Real.exp_add]; norm_num
    have h3 := Real.exp_pos (0.001 : ℝ)
    calc Real.exp (-min x X) ≤ Real.exp 0.001 := Real.exp_le_exp.mpr (by linarith)
      _ ≤ 1.01 := by
        have : (0.999 : ℝ) * Real.exp 0.001 ≤ 1 := by
          rw [← h2]; exact mul_le_mul_of_nonneg_right (by norm_num at h ⊢; linarith) h3.le
        norm_num at this ⊢
        linarith
  have hd2 : |Real.exp (-x) - Real.exp (-X)| ≤ 1 / 2 ^ 42 * 1.01 :=
    hd.trans (mul_le_mul hX hmin (Real.exp_pos _).le (by positivity))
  have hd3 : |ccs * Real.exp (-x) - ccs * Real.exp (-X)| ≤ 1 / 2 ^ 42 * 1.01 := by
    rw [← mul_sub, abs_mul, abs_of_nonneg (by linarith : 0 ≤ ccs)]
    calc _ ≤ 1 * |Real.exp (-x) - Real.exp (-X)| := mul_le_mul_of_nonneg_right c1 (abs_nonneg _)
      _ ≤ _ := by rw [one_mul]; exact hd2
  have hfin := (tri hT hd3).trans (by norm_num : (1 : ℝ) / 2 ^ 46 + 1 / 2 ^ 42 * 1.01 ≤ 1 / 2 ^ 41)
  generalize pdtSpec.getD (offBase k) 0 = P at *
  have e : ((P * (128 * T) : ℕ) : ℝ) / 2 ^ 144 = (P : ℝ) / 2 ^ 73 * ((T : ℝ) / 2 ^ 64) := by
    push_cast
    rw [div_mul_div_comm, div_eq_div_iff (by positivity) (by positivity)]
    ring
  rw [e, ← mul_sub, abs_mul, abs_of_nonneg (by positivity : (0 : ℝ) ≤ (P : ℝ) / 2 ^ 73)]
  exact mul_le_mul_of_nonneg_left hfin (by positivity)

end Falcon
