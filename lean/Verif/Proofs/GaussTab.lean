import Verif.Proofs.GaussProd
import Verif.Proofs.NormTail

/-! # Numerical bounds for the Gaussian of signing -/

namespace Falcon

open Real

/-- The weight of a natural number. -/
noncomputable def rhoN (sigma : ℝ) (z : ℕ) : ℝ := Real.exp (-((z : ℝ) ^ 2 / (2 * sigma ^ 2)))

theorem rhoN_pos (sigma : ℝ) (z : ℕ) : 0 < rhoN sigma z := Real.exp_pos _

theorem gaussW_rhoN (sigma : ℝ) (z : ℤ) : gaussW 0 sigma z = rhoN sigma z.natAbs := by
  unfold gaussW rhoN
  rw [sub_zero, Nat.cast_natAbs, Int.cast_abs, sq_abs]

/-! ## Fixed point tables -/

def stepUp (g : ℕ → ℕ) (e : ℕ) : ℕ → ℕ → ℕ → ℕ → ℕ → ℕ
  | 0, _, _, _, acc => acc
  | k + 1, z, w, d, acc => stepUp g e k (z + 1) (w * d / 2 ^ 64 + 1) (d * e / 2 ^ 64 + 1) (acc + g z * w)

def stepLo (g : ℕ → ℕ) (e : ℕ) : ℕ → ℕ → ℕ → ℕ → ℕ → ℕ
  | 0, _, _, _, acc => acc
  | k + 1, z, w, d, acc => stepLo g e k (z + 1) (w * d / 2 ^ 64) (d * e / 2 ^ 64) (acc + g z * w)

/-- rho(z+1) / rho(z). -/
noncomputable def ratN (sigma : ℝ) (z : ℕ) : ℝ := Real.exp (-((2 * z + 1) / (2 * sigma ^ 2)))

theorem rhoN_succ (sigma : ℝ) (z : ℕ) : rhoN sigma (z + 1) = rhoN sigma z * ratN sigma z := by
  unfold rhoN ratN
  rw [← Real.exp_add]
  congr 1
  push_cast
  ring

theorem ratN_succ (sigma : ℝ) (z : ℕ) : ratN sigma (z + 1) = ratN sigma z * Real.exp (-(1 / sigma ^ 2)) := by
  unfold ratN
  rw [← Real.exp_add]
  congr 1
  by_cases h : sigma = 0
  · subst h; simp
  push_cast
  field_simp
  ring

theorem mul_up {a b : ℝ} {x y : ℕ} (hb : 0 ≤ b) (h1 : a ≤ x / 2 ^ 64) (h2 : b ≤ y / 2 ^ 64) :
    a * b ≤ ((x * y / 2 ^ 64 + 1 : ℕ) : ℝ) / 2 ^ 64 := by
  have h3 : a * b ≤ (x / 2 ^ 64) * (y / 2 ^ 64) := mul_le_mul h1 h2 hb (by positivity)
  have h4 : ((x * y : ℕ) : ℝ) ≤ ((x * y / 2 ^ 64 + 1 : ℕ) : ℝ) * 2 ^ 64 := by
    have := Nat.div_add_mod (x * y) (2 ^ 64)
    have h5 := Nat.mod_lt (x * y) (show 0 < 2 ^ 64 by norm_num)
    have : x * y ≤ (x * y / 2 ^ 64 + 1) * 2 ^ 64 := by omega
    exact_mod_cast this
  rw [Nat.cast_mul] at h4
  refine h3.trans ?_
  rw [div_mul_div_comm, div_le_div_iff₀ (by norm_num) (by norm_num)]
  calc (x : ℝ) * y * 2 ^ 64 ≤ ((x * y / 2 ^ 64 + 1 : ℕ) : ℝ) * 2 ^ 64 * 2 ^ 64 := mul_le_mul_of_nonneg_right h4 (by norm_num)
    _ = _ := by ring

theorem mul_lo {a b : ℝ} {x y : ℕ} (h1 : (x : ℝ) / 2 ^ 64 ≤ a) (h2 : (y : ℝ) / 2 ^ 64 ≤ b) :
    ((x * y / 2 ^ 64 : ℕ) : ℝ) / 2 ^ 64 ≤ a * b := by
  have hx : (0 : ℝ) ≤ x / 2 ^ 64 := by positivity
  have h3 : ((x : ℝ) / 2 ^ 64) * (y / 2 ^ 64) ≤ a * b := mul_le_mul h1 h2 (by positivity) (hx.trans h1)
  have h4 : ((x * y / 2 ^ 64 : ℕ) : ℝ) * 2 ^ 64 ≤ ((x * y : ℕ) : ℝ) := by
    have : (x * y / 2 ^ 64) * 2 ^ 64 ≤ x * y := Nat.div_mul_le_self _ _
    exact_mod_cast this
  rw [Nat.cast_mul] at h4
  refine le_trans ?_ h3
  rw [div_mul_div_comm, div_le_div_iff₀ (by norm_num) (by norm_num)]
  calc ((x * y / 2 ^ 64 : ℕ) : ℝ) * (2 ^ 64 * 2 ^ 64) = ((x * y / 2 ^ 64 : ℕ) : ℝ) * 2 ^ 64 * 2 ^ 64 := by ring
    _ ≤ (x : ℝ) * y * 2 ^ 64 := mul_le_mul_of_nonneg_right h4 (by norm_num)

theorem stepUp_ge {sigma : ℝ} (g : ℕ → ℕ) {e : ℕ} (he : Real.exp (-(1 / sigma ^ 2)) ≤ e / 2 ^ 64) : ∀ k z w d acc : ℕ,
    rhoN sigma z ≤ w / 2 ^ 64 → ratN sigma z ≤ d / 2 ^ 64 → ∑ j ∈ Finset.range z, (g j : ℝ) * rhoN sigma j ≤ acc / 2 ^ 64 →
    ∑ j ∈ Finset.range (z + k), (g j : ℝ) * rhoN sigma j ≤ (stepUp g e k z w d acc : ℝ) / 2 ^ 64 := by
  intro k
  induction k with
  | zero => intro z w d acc _ _ h; exact h
  | succ k ih =>
    intro z w d acc h1 h2 h3
    rw [stepUp, show z + (k + 1) = z + 1 + k by ring]
    refine ih (z + 1) _ _ _ ?_ ?_ ?_
    · rw [rhoN_succ]
      exact mul_up (Real.exp_pos _).le h1 h2
    · rw [ratN_succ]
      exact mul_up (Real.exp_pos _).le h2 he
    · rw [Finset.sum_range_succ]
      have := mul_le_mul_of_nonneg_left h1 (Nat.cast_nonneg (α := ℝ) (g z))
      push_cast
      rw [add_div]
      refine add_le_add h3 (this.trans (le_of_eq ?_))
      ring

theorem stepLo_le {sigma : ℝ} (g : ℕ → ℕ) {e : ℕ} (he : (e : ℝ) / 2 ^ 64 ≤ Real.exp (-(1 / sigma ^ 2))) : ∀ k z w d acc : ℕ,
    (w : ℝ) / 2 ^ 64 ≤ rhoN sigma z → (d : ℝ) / 2 ^ 64 ≤ ratN sigma z → (acc : ℝ) / 2 ^ 64 ≤ ∑ j ∈ Finset.range z, (g j : ℝ) * rhoN sigma j →
    (stepLo g e k z w d acc : ℝ) / 2 ^ 64 ≤ ∑ j ∈ Finset.range (z + k), (g j : ℝ) * rhoN sigma j := by
  intro k
  induction k with
  | zero => intro z w d acc _ _ h; exact h
  | succ k ih =>
    intro z w d acc h1 h2 h3
    rw [stepLo, show z + (k + 1) = z + 1 + k by ring]
    refine ih (z + 1) _ _ _ ?_ ?_ ?_
    · rw [rhoN_succ]
      exact mul_lo h1 h2
    · rw [ratN_succ]
      exact mul_lo h2 he
    · rw [Finset.sum_range_succ]
      have := mul_le_mul_of_nonneg_left h1 (Nat.cast_nonneg (α := ℝ) (g z))
      push_cast
      rw [add_div]
      refine add_le_add h3 (le_trans (le_of_eq ?_) this)
      ring

theorem exp_neg_up {t : ℝ} (ht : 0 ≤ t) {b : ℝ} (hb : 1 ≤ b * (1 + t + t ^ 2 / 2)) : Real.exp (-t) ≤ b := by
  have h1 := Real.quadratic_le_exp_of_nonneg ht
  have h2 : 0 < 1 + t + t ^ 2 / 2 := by positivity
  have h3 : 0 < b := by
    by_contra h
    have := mul_nonpos_of_nonpos_of_nonneg (not_lt.mp h) h2.le
    linarith
  rw [Real.exp_neg, inv_le_comm₀ (Real.exp_pos _) h3]
  refine le_trans ?_ h1
  rw [inv_le_iff_one_le_mul₀ h3, mul_comm]
  exact hb

theorem exp_neg_lo {t b : ℝ} (hb : b ≤ 1 - t) : b ≤ Real.exp (-t) := by
  have := Real.add_one_le_exp (-t)
  linarith

/-- Upper and lower values of exp(-1/(2 sigma^2)) and exp(-1/sigma^2). -/
def dUp (n : ℕ) : ℕ := if n = 10 then 18446418791229420467 else 18446408298341689320
def eUp (n : ℕ) : ℕ := if n = 10 then 18446093514485291137 else 18446072529085862261
def dLo (n : ℕ) : ℕ := if n = 10 then 18446418788361419552 else 18446408295285671696
def eLo (n : ℕ) : ℕ := if n = 10 then 18446093503013287489 else 18446072516861791777

theorem dUp_ge {n : ℕ} (hn : ValidLog n) : ratN (sigmaSig n) 0 ≤ dUp n / 2 ^ 64 := by
  unfold ratN
  refine exp_neg_up (by positivity) ?_
  unfold dUp sigmaSig
  rcases hn with rfl | rfl <;> norm_num

theorem eUp_ge {n : ℕ} (hn : ValidLog n) : Real.exp (-(1 / sigmaSig n ^ 2)) ≤ eUp n / 2 ^ 64 := by
  refine exp_neg_up (by positivity) ?_
  unfold eUp sigmaSig
  rcases hn with rfl | rfl <;> norm_num

theorem dLo_le {n : ℕ} (hn : ValidLog n) : (dLo n : ℝ) / 2 ^ 64 ≤ ratN (sigmaSig n) 0 := by
  unfold ratN
  refine exp_neg_lo ?_
  unfold dLo sigmaSig
  rcases hn with rfl | rfl <;> norm_num

theorem eLo_le {n : ℕ} (hn : ValidLog n) : (eLo n : ℝ) / 2 ^ 64 ≤ Real.exp (-(1 / sigmaSig n ^ 2)) := by
  refine exp_neg_lo ?_
  unfold eLo sigmaSig
  rcases hn with rfl | rfl <;> norm_num

theorem tab_up {n : ℕ} (hn : ValidLog n) (g : ℕ → ℕ) (k : ℕ) :
    ∑ j ∈ Finset.range k, (g j : ℝ) * rhoN (sigmaSig n) j ≤ (stepUp g (eUp n) k 0 (2 ^ 64) (dUp n) 0 : ℝ) / 2 ^ 64 := by
  have := stepUp_ge g (eUp_ge hn) k 0 (2 ^ 64) (dUp n) 0 (by unfold rhoN; norm_num) (dUp_ge hn) (by simp)
  rwa [Nat.zero_add] at this

theorem tab_lo {n : ℕ} (hn : ValidLog n) (g : ℕ → ℕ) (k : ℕ) :
    (stepLo g (eLo n) k 0 (2 ^ 64) (dLo n) 0 : ℝ) / 2 ^ 64 ≤ ∑ j ∈ Finset.range k, (g j : ℝ) * rhoN (sigmaSig n) j := by
  have := stepLo_le g (eLo_le hn) k 0 (2 ^ 64) (dLo n) 0 (by unfold rhoN; norm_num) (dLo_le hn) (by simp)
  rwa [Nat.zero_add] at this

/-! ## Values -/

/-- Numerator and denominator of the base of the Chernoff bound for the length of the compressed signature. -/
def cNum (n : ℕ) : ℕ := if n = 10 then 9 else 5
def cDen (n : ℕ) : ℕ := if n = 10 then 8 else 4
def cWt (n z : ℕ) : ℕ := cNum n ^ (z / 128) * cDen n ^ (8 - z / 128)

set_option maxRecDepth 100000 in
theorem sum_cert : stepUp (cWt 9) (eUp 9) 1024 0 (2 ^ 64) (dUp 9) 0 * 100 ≤ 24106 * 4 ^ 8 * 2 ^ 64 ∧
    stepUp (cWt 10) (eUp 10) 1024 0 (2 ^ 64) (dUp 10) 0 * 100 ≤ 22808 * 8 ^ 8 * 2 ^ 64 := by decide +kernel

def pointWt (z : ℕ) : ℕ := if z = 1024 then 1 else 0
def bandWt (z : ℕ) : ℕ := if z < 1024 then 0 else 1

set_option maxRecDepth 100000 in
theorem point_cert : stepUp pointWt (eUp 9) 1025 0 (2 ^ 64) (dUp 9) 0 * 10 ^ 12 ≤ 5138 * 2 ^ 64 ∧
    stepUp pointWt (eUp 10) 1025 0 (2 ^ 64) (dUp 10) 0 * 10 ^ 12 ≤ 9328 * 2 ^ 64 ∧
    5135 * 2 ^ 64 ≤ stepLo pointWt (eLo 9) 1025 0 (2 ^ 64) (dLo 9) 0 * 10 ^ 12 ∧
    9324 * 2 ^ 64 ≤ stepLo pointWt (eLo 10) 1025 0 (2 ^ 64) (dLo 10) 0 * 10 ^ 12 := by decide +kernel

set_option maxRecDepth 100000 in
theorem band_cert : 1362 * 2 ^ 64 ≤ stepLo bandWt (eLo 9) 1152 0 (2 ^ 64) (dLo 9) 0 * 10 ^ 10 ∧
    2547 * 2 ^ 64 ≤ stepLo bandWt (eLo 10) 1152 0 (2 ^ 64) (dLo 10) 0 * 10 ^ 10 := by decide +kernel

end Falcon
