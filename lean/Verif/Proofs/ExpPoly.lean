import Mathlib.Data.Rat.Cast.Order
import Mathlib.Algebra.Order.Ring.Abs
import Mathlib.Analysis.Complex.Exponential
import Mathlib.Data.Real.Basic
import Mathlib.Tactic.Linarith
import Mathlib.Tactic.Ring
import Mathlib.Tactic.Positivity

/-!
# Certified bounds of rational polynomials on intervals

`horner l x = l₀ + l₁ x + l₂ x² + ...`; `comp a h l` are the coefficients of `horner l (a + h t)` in `t`.
On `|t| ≤ 1` a polynomial is bounded by the sum of the absolute values of its coefficients.
-/

namespace Falcon

def horner : List ℚ → ℝ → ℝ
  | [], _ => 0
  | c :: l, x => c + x * horner l x

def addL : List ℚ → List ℚ → List ℚ
  | [], m => m
  | l, [] => l
  | a :: l, b :: m => (a + b) :: addL l m

def smulL (c : ℚ) (l : List ℚ) : List ℚ := l.map (c * ·)

def compL (a h : ℚ) : List ℚ → List ℚ
  | [] => []
  | c :: l => addL [c] (addL (smulL a (compL a h l)) (0 :: smulL h (compL a h l)))

def sumAbs : List ℚ → ℚ
  | [] => 0
  | c :: l => |c| + sumAbs l

theorem horner_add (l m : List ℚ) (x : ℝ) : horner (addL l m) x = horner l x + horner m x := by
  induction l generalizing m with
  | nil => simp [addL, horner]
  | cons a l ih =>
    cases m with
    | nil => simp [addL, horner]
    | cons b m => simp only [addL, horner, ih]; push_cast; ring

theorem horner_smul (c : ℚ) (l : List ℚ) (x : ℝ) : horner (smulL c l) x = c * horner l x := by
  induction l with
  | nil => simp [smulL, horner]
  | cons a l ih =>
    simp only [smulL, List.map_cons, horner] at *
    rw [ih]; push_cast; ring

theorem horner_comp (a h : ℚ) (l : List ℚ) (t : ℝ) : horner (compL a h l) t = horner l (a + h * t) := by
  induction l with
  | nil => simp [compL, horner]
  | cons c l ih =>
    simp only [compL, horner_add, horner, horner_smul, ih]
    push_cast; ring

theorem sumAbs_nonneg (l : List ℚ) : 0 ≤ sumAbs l := by
  induction l with
  | nil => simp [sumAbs]
  | cons c l ih => simp only [sumAbs]; positivity

theorem horner_le (l : List ℚ) (t : ℝ) (ht : |t| ≤ 1) : |horner l t| ≤ (sumAbs l : ℝ) := by
  induction l with
  | nil => simp [horner, sumAbs]
  | cons c l ih =>
    simp only [horner, sumAbs]
    push_cast
    have h1 : |t * horner l t| ≤ sumAbs l := by
      rw [abs_mul]
      calc |t| * |horner l t| ≤ 1 * |horner l t| := mul_le_mul_of_nonneg_right ht (abs_nonneg _)
        _ ≤ sumAbs l := by rw [one_mul]; exact ih
    exact (abs_add_le _ _).trans (by linarith)

/-- Bound on `[0, 2 h m]` from the `m` pieces of half width `h`. -/
theorem horner_bound (l : List ℚ) (h B : ℚ) (m : ℕ) (hh : 0 < h)
    (hb : ∀ j, j < m → sumAbs (compL ((2 * j + 1) * h) h l) ≤ B) (x : ℝ) (hx0 : 0 ≤ x)
    (hx1 : x < 2 * h * m) : |horner l x| ≤ (B : ℝ) := by
  have hhR : (0 : ℝ) < h := by exact_mod_cast hh
  have h2 : (0 : ℝ) < 2 * h := by linarith
  obtain ⟨j, hj⟩ : ∃ j, j = ⌊x / (2 * h)⌋₊ := ⟨_, rfl⟩
  have f1 : (j : ℝ) ≤ x / (2 * h) := by rw [hj]; exact Nat.floor_le (by positivity)
  have f2 : x / (2 * h) < j + 1 := by rw [hj]; exact Nat.lt_floor_add_one _
  rw [le_div_iff₀ h2] at f1
  rw [div_lt_iff₀ h2] at f2
  have hjm : j < m := by
    have : (j : ℝ) * (2 * h) < m * (2 * h) := by nlinarith
    have := lt_of_mul_lt_mul_right this h2.le
    exact_mod_cast this
  have key := hb j hjm
  obtain ⟨t, ht⟩ : ∃ t, t = (x - (2 * j + 1) * h) / h := ⟨_, rfl⟩
  have hxt : x = (2 * j + 1) * h + h * t := by rw [ht]; field_simp; ring
  have habs : |t| ≤ 1 := by
    rw [ht, abs_div, abs_of_pos hhR, div_le_one hhR, abs_le]
    constructor <;> nlinarith
  have e : horner (compL ((2 * j + 1) * h) h l) t = horner l x := by
    rw [horner_comp, hxt]
    push_cast
    ring_nf
  rw [← e]
  refine (horner_le _ t habs).trans ?_
  exact_mod_cast key

end Falcon
