import Verif.Proofs.SignGauss
import Mathlib.Analysis.Complex.ExponentialBounds

/-! # The norm of a Gaussian preimage -/

namespace Falcon

open Real

theorem eps_ratio {n : ℕ} (hn : ValidLog n) :
    (1 + 1 / 2 ^ 38 : ℝ) ^ 2 ^ (n + 1) ≤ (1 - 1 / 2 ^ 38) ^ 2 ^ (n + 1) * (1 + 1 / 2 ^ 25) := by
  have hB := one_add_mul_le_pow (a := (-(1 / 2 ^ 37) : ℝ)) (by norm_num) (2 ^ (n + 1))
  have hr : (1 + 1 / 2 ^ 38 : ℝ) ^ 2 ^ (n + 1) * (1 + -(1 / 2 ^ 37)) ^ 2 ^ (n + 1) ≤ (1 - 1 / 2 ^ 38) ^ 2 ^ (n + 1) := by
    rw [← mul_pow]
    exact pow_le_pow_left₀ (by norm_num) (by norm_num) _
  have hd2 : ((2 ^ (n + 1) : ℕ) : ℝ) ≤ 2048 := by
    push_cast
    rcases hn with rfl | rfl <;> norm_num
  have h1 : (1 - 1 / 2 ^ 26 : ℝ) ≤ (1 + -(1 / 2 ^ 37)) ^ 2 ^ (n + 1) := by
    refine le_trans ?_ hB
    have : ((2 ^ (n + 1) : ℕ) : ℝ) * (1 / 2 ^ 37) ≤ 1 / 2 ^ 26 := by
      calc _ ≤ 2048 * (1 / 2 ^ 37 : ℝ) := mul_le_mul_of_nonneg_right hd2 (by norm_num)
        _ ≤ _ := by norm_num
    linarith
  have h0 : (0 : ℝ) ≤ (1 + 1 / 2 ^ 38) ^ 2 ^ (n + 1) := by positivity
  generalize (1 + 1 / 2 ^ 38 : ℝ) ^ 2 ^ (n + 1) = b at *
  generalize (1 - 1 / 2 ^ 38 : ℝ) ^ 2 ^ (n + 1) = a at *
  generalize (1 + -(1 / 2 ^ 37) : ℝ) ^ 2 ^ (n + 1) = c at *
  have h2 : b * (1 - 1 / 2 ^ 26) ≤ a := (mul_le_mul_of_nonneg_left h1 h0).trans hr
  calc b ≤ b * (1 - 1 / 2 ^ 26) * (1 + 1 / 2 ^ 25) := by
        rw [mul_assoc]
        exact le_mul_of_one_le_right h0 (by norm_num)
    _ ≤ _ := mul_le_mul_of_nonneg_right h2 (by norm_num)

theorem sigmaSig_pos (n : ℕ) : 0 < sigmaSig n := by unfold sigmaSig; split <;> norm_num

theorem sigmaSig_low {n : ℕ} (hn : ValidLog n) : 6 / 5 ≤ sigmaSig n / (1.17 * √12289) := by
  refine le_lower (sigmaSig_pos n).le ?_
  unfold sigmaSig
  rcases hn with rfl | rfl
  · rw [if_neg (by norm_num)]; norm_num
  · rw [if_pos rfl]; norm_num

theorem tail_const {n : ℕ} (hn : ValidLog n) :
    Real.exp (-((betaSq n : ℝ) / (2 * sigmaSig n ^ 2) * (21 / 121))) * 1.1 ^ 2 ^ (n + 1) * (1 + 1 / 2 ^ 25) ≤ 1 / 2 ^ (14 * (n - 8)) := by
  have h11 : (1.1 : ℝ) ≤ Real.exp 0.09545 := by
    refine le_trans ?_ (Real.quadratic_le_exp_of_nonneg (by norm_num))
    norm_num
  have hp : (1.1 : ℝ) ^ 2 ^ (n + 1) ≤ Real.exp (0.09545 * 2 ^ (n + 1)) := by
    refine (pow_le_pow_left₀ (by norm_num) h11 _).trans (le_of_eq ?_)
    rw [← Real.exp_nat_mul]
    congr 1
    push_cast
    ring
  have h25 : (1 + 1 / 2 ^ 25 : ℝ) ≤ Real.exp (1 / 2 ^ 25) := by
    have := Real.add_one_le_exp (1 / 2 ^ 25 : ℝ)
    linarith
  have h2 : Real.exp (-(0.6931471808 * (14 * (n - 8) : ℕ))) ≤ 1 / 2 ^ (14 * (n - 8)) := by
    rw [Real.exp_neg, one_div]
    refine inv_anti₀ (by positivity) ?_
    have : (2 : ℝ) ≤ Real.exp 0.6931471808 := by
      rw [← Real.exp_log (show (0 : ℝ) < 2 by norm_num)]
      exact Real.exp_le_exp.mpr (by linarith [Real.log_two_lt_d9])
    refine (pow_le_pow_left₀ (by norm_num) this _).trans (le_of_eq ?_)
    rw [← Real.exp_nat_mul]
    congr 1
    ring
  refine le_trans ?_ h2
  calc _ ≤ Real.exp (-((betaSq n : ℝ) / (2 * sigmaSig n ^ 2) * (21 / 121))) * Real.exp (0.09545 * 2 ^ (n + 1)) * Real.exp (1 / 2 ^ 25) :=
        mul_le_mul (mul_le_mul_of_nonneg_left hp (Real.exp_pos _).le) h25 (by norm_num) (by positivity)
    _ ≤ _ := by
      rw [← Real.exp_add, ← Real.exp_add]
      refine Real.exp_le_exp.mpr ?_
      unfold betaSq sigmaSig
      rcases hn with rfl | rfl <;> norm_num

open Classical in
theorem norm_tail_of {n : ℕ} (hn : ValidLog n) {f g F G : Mem Int} {h : Mem Ff} (heq : NtruEq n f g F G)
    (hh : ModEqXN (2 ^ n) (polyZq (2 ^ n) h * polyInt (2 ^ n) f) (polyInt (2 ^ n) g))
    (hinv : ∃ r, ModEqXN (2 ^ n) (polyInt (2 ^ n) f * r) 1) (hgs : gsTooBig exactA n f g = false) (c : Mem Ff) {E : PairZ n → Prop}
    (hE0 : ∀ s, E s → betaSq n < pairSq s) :
    cosetPr n (sigmaSig n) h c E ≤ 1 / 2 ^ (14 * (n - 8)) := by
  have hsp := sigmaSig_pos n
  have hl := sigmaSig_low hn
  have hl' : 6 / 5 ≤ 1.1 * sigmaSig n / (1.17 * √12289) := by
    rw [mul_div_assoc]
    linarith
  obtain ⟨-, m1, -, -⟩ := ideal_coset hn heq hh hinv hgs hl (fun _ => 0) (fun _ => 0) (fun _ => 0) (fun _ => 0) c fun _ => True
  obtain ⟨s0, -, m2, -⟩ := ideal_coset hn heq hh hinv hgs hl' (fun _ => 0) (fun _ => 0) (fun _ => 0) (fun _ => 0) c fun _ => True
  have hE : ∀ s : PairZ n, (if InCoset n h c s ∧ E s then pairW (sigmaSig n) s else 0) ≤
      Real.exp (-((betaSq n : ℝ) / (2 * sigmaSig n ^ 2) * (21 / 121))) *
        (if InCoset n h c s then pairW (1.1 * sigmaSig n) s else 0) := by
    intro s
    by_cases hc : InCoset n h c s
    swap
    · simp [hc]
    by_cases hb : E s
    swap
    · simp only [hc, hb, and_false, if_false, if_true]
      exact mul_nonneg (Real.exp_pos _).le (Real.exp_pos _).le
    simp only [hc, hb, and_self, if_true]
    unfold pairW
    rw [← Real.exp_add]
    refine Real.exp_le_exp.mpr ?_
    have e : (∑ i, (s.1 i : ℝ) ^ 2 + ∑ i, (s.2 i : ℝ) ^ 2) = (pairSq s : ℝ) := by unfold pairSq; push_cast; rfl
    have hb' : (betaSq n : ℝ) ≤ (pairSq s : ℝ) := by exact_mod_cast (hE0 s hb).le
    rw [e]
    have e2 : (pairSq s : ℝ) / (2 * (1.1 * sigmaSig n) ^ 2) = (pairSq s : ℝ) / (2 * sigmaSig n ^ 2) * (100 / 121) := by
      field_simp
      norm_num
      ring
    rw [e2]
    have := div_le_div_of_nonneg_right hb' (show 0 ≤ 2 * sigmaSig n ^ 2 by positivity)
    linarith
  have hW : (∑' s : PairZ n, if InCoset n h c s ∧ E s then pairW (sigmaSig n) s else 0) ≤
      Real.exp (-((betaSq n : ℝ) / (2 * sigmaSig n ^ 2) * (21 / 121))) *
        ∑' s : PairZ n, if InCoset n h c s then pairW (1.1 * sigmaSig n) s else 0 := by
    rw [← tsum_mul_left]
    have s1 := s0.mul_left (Real.exp (-((betaSq n : ℝ) / (2 * sigmaSig n ^ 2) * (21 / 121))))
    exact (Summable.of_nonneg_of_le (fun s => by split <;> first | exact (Real.exp_pos _).le | exact le_rfl) hE s1).tsum_le_tsum hE s1
  have hc := tail_const hn
  have he := eps_ratio hn
  have hK' : (1.1 * sigmaSig n) ^ 2 ^ (n + 1) / 12289 ^ 2 ^ n * √(2 * π) ^ 2 ^ (n + 1) =
      1.1 ^ 2 ^ (n + 1) * (sigmaSig n ^ 2 ^ (n + 1) / 12289 ^ 2 ^ n * √(2 * π) ^ 2 ^ (n + 1)) := by
    rw [mul_pow]
    ring
  rw [hK'] at m2
  have hK : 0 < sigmaSig n ^ 2 ^ (n + 1) / 12289 ^ 2 ^ n * √(2 * π) ^ 2 ^ (n + 1) := by positivity
  have ha : (0 : ℝ) < (1 - 1 / 2 ^ 38) ^ 2 ^ (n + 1) := pow_pos (by norm_num) _
  have hp : (0 : ℝ) < 1.1 ^ 2 ^ (n + 1) := by positivity
  have hd := Real.exp_pos (-((betaSq n : ℝ) / (2 * sigmaSig n ^ 2) * (21 / 121)))
  unfold cosetPr
  beta_reduce
  generalize (∑' s : PairZ n, if InCoset n h c s ∧ E s then pairW (sigmaSig n) s else 0) = X at *
  generalize (∑' s : PairZ n, if InCoset n h c s then pairW (1.1 * sigmaSig n) s else 0) = W' at *
  generalize (∑' s : PairZ n, if InCoset n h c s then pairW (sigmaSig n) s else 0) = W at *
  generalize sigmaSig n ^ 2 ^ (n + 1) / 12289 ^ 2 ^ n * √(2 * π) ^ 2 ^ (n + 1) = K at *
  generalize (1 - 1 / 2 ^ 38 : ℝ) ^ 2 ^ (n + 1) = a at *
  generalize (1 + 1 / 2 ^ 38 : ℝ) ^ 2 ^ (n + 1) = b at *
  generalize (1.1 : ℝ) ^ 2 ^ (n + 1) = p at *
  generalize Real.exp (-((betaSq n : ℝ) / (2 * sigmaSig n ^ 2) * (21 / 121))) = D at *
  generalize (1 / 2 ^ (14 * (n - 8)) : ℝ) = B at *
  rw [div_le_iff₀ (lt_of_lt_of_le (mul_pos hK ha) m1)]
  have hB : 0 < B := lt_of_lt_of_le (by positivity) hc
  calc X ≤ D * (p * K * b) := hW.trans (mul_le_mul_of_nonneg_left m2 hd.le)
    _ ≤ D * (p * K * (a * (1 + 1 / 2 ^ 25))) := by gcongr
    _ = D * p * (1 + 1 / 2 ^ 25) * (K * a) := by ring
    _ ≤ B * (K * a) := mul_le_mul_of_nonneg_right hc (by positivity)
    _ ≤ B * W := mul_le_mul_of_nonneg_left m1 hB.le

theorem norm_tail {n : ℕ} (hn : ValidLog n) {f g F G : Mem Int} {h : Mem Ff} (heq : NtruEq n f g F G)
    (hh : ModEqXN (2 ^ n) (polyZq (2 ^ n) h * polyInt (2 ^ n) f) (polyInt (2 ^ n) g))
    (hinv : ∃ r, ModEqXN (2 ^ n) (polyInt (2 ^ n) f * r) 1) (hgs : gsTooBig exactA n f g = false) (c : Mem Ff) :
    cosetPr n (sigmaSig n) h c (fun s => betaSq n < pairSq s) ≤ 1 / 2 ^ (14 * (n - 8)) :=
  norm_tail_of hn heq hh hinv hgs c fun _ h => h

end Falcon
