import Verif.Model.Float
import Mathlib.Algebra.Order.Floor.Ring
import Mathlib.Tactic.Linarith
import Mathlib.Tactic.Ring
import Mathlib.Tactic.Positivity
import Mathlib.Tactic.FieldSimp

/-! # Properties of binary64 rounding -/

namespace Falcon

theorem rndZ_cases (y : ℝ) : rndZ y = ⌊y⌋ ∧ Int.fract y ≤ 1 / 2 ∨ rndZ y = ⌊y⌋ + 1 ∧ 1 / 2 ≤ Int.fract y := by
  unfold rndZ
  split
  · rename_i h; exact Or.inl ⟨rfl, h.le⟩
  · rename_i h
    split
    · rename_i h2; exact Or.inr ⟨rfl, h2.le⟩
    · rename_i h2
      split
      · exact Or.inl ⟨rfl, not_lt.mp h2⟩
      · exact Or.inr ⟨rfl, not_lt.mp h⟩

theorem rndZ_err (y : ℝ) : |(rndZ y : ℝ) - y| ≤ 1 / 2 := by
  have h := Int.floor_add_fract y
  have h0 := Int.fract_nonneg y
  have h1 := Int.fract_lt_one y
  rw [abs_le]
  rcases rndZ_cases y with ⟨e, hf⟩ | ⟨e, hf⟩ <;> rw [e] <;> push_cast <;> constructor <;> linarith

theorem rndZ_int (n : ℤ) : rndZ n = n := by
  unfold rndZ
  rw [if_pos (by rw [Int.fract_intCast]; norm_num), Int.floor_intCast]

theorem rndZ_mono {x y : ℝ} (h : x ≤ y) : rndZ x ≤ rndZ y := by
  have hf : ⌊x⌋ ≤ ⌊y⌋ := Int.floor_mono h
  rcases lt_or_eq_of_le hf with hlt | heq
  · rcases rndZ_cases x with ⟨e, _⟩ | ⟨e, _⟩ <;> rcases rndZ_cases y with ⟨e', _⟩ | ⟨e', _⟩ <;>
      rw [e, e'] <;> omega
  · have hfr : Int.fract x ≤ Int.fract y := by
      unfold Int.fract; rw [heq]; linarith
    unfold rndZ
    rw [heq]
    split_ifs <;> first | omega | linarith

theorem rndZ_neg (y : ℝ) : rndZ (-y) = -rndZ y := by
  by_cases hi : Int.fract y = 0
  · obtain ⟨n, hn⟩ : ∃ n : ℤ, y = n := ⟨⌊y⌋, by have := Int.floor_add_fract y; linarith⟩
    rw [hn, rndZ_int, ← Int.cast_neg, rndZ_int]
  · have hfr : Int.fract (-y) = 1 - Int.fract y := Int.fract_neg hi
    have hfl : ⌊-y⌋ = -⌊y⌋ - 1 := by
      have h1 := Int.floor_add_fract y
      have h2 := Int.floor_add_fract (-y)
      have : ((⌊-y⌋ : ℤ) : ℝ) = ((-⌊y⌋ - 1 : ℤ) : ℝ) := by push_cast; linarith
      exact_mod_cast this
    have hev : Even (-⌊y⌋ - 1) ↔ ¬ Even ⌊y⌋ := by
      rw [Int.even_sub, even_neg]; simp
    unfold rndZ
    rw [hfr, hfl]
    by_cases c1 : Int.fract y < 1 / 2
    · rw [if_neg (by linarith), if_pos (by linarith), if_pos c1]; ring
    · by_cases c2 : 1 / 2 < Int.fract y
      · rw [if_pos (by linarith), if_neg c1, if_pos c2]; ring
      · rw [if_neg (by linarith), if_neg (by linarith), if_neg c1, if_neg c2]
        by_cases hv : Even ⌊y⌋
        · rw [if_neg (by rw [hev]; exact not_not.mpr hv), if_pos hv]; ring
        · rw [if_pos (by rw [hev]; exact hv), if_neg hv]; ring

theorem two_zpow_pos (e : ℤ) : (0 : ℝ) < 2 ^ e := zpow_pos (by norm_num) e

theorem fexp_neg (x : ℝ) : fexp (-x) = fexp x := by unfold fexp; rw [abs_neg]

theorem rnd_neg (x : ℝ) : rnd (-x) = -rnd x := by
  unfold rnd
  rw [fexp_neg, neg_div, rndZ_neg]
  push_cast; ring

theorem rnd_zero : rnd 0 = 0 := by
  unfold rnd
  rw [zero_div]
  have := rndZ_int 0
  rw [Int.cast_zero] at this
  rw [this]; simp

theorem rnd_abs_err (x : ℝ) : |rnd x - x| ≤ 2 ^ fexp x / 2 := by
  unfold rnd
  have hp := two_zpow_pos (fexp x)
  have h := rndZ_err (x / 2 ^ fexp x)
  have e : (rndZ (x / 2 ^ fexp x) : ℝ) * 2 ^ fexp x - x
      = ((rndZ (x / 2 ^ fexp x) : ℝ) - x / 2 ^ fexp x) * 2 ^ fexp x := by
    rw [sub_mul, div_mul_cancel₀ _ hp.ne']
  rw [e, abs_mul, abs_of_pos hp]
  calc _ ≤ 1 / 2 * (2 : ℝ) ^ fexp x := mul_le_mul_of_nonneg_right h hp.le
    _ = _ := by ring

theorem log_le {x : ℝ} (hx : x ≠ 0) : (2 : ℝ) ^ Int.log 2 |x| ≤ |x| := by
  have := Int.zpow_log_le_self (b := 2) (r := |x|) (by norm_num) (abs_pos.mpr hx)
  exact_mod_cast this

theorem lt_log (x : ℝ) : |x| < (2 : ℝ) ^ (Int.log 2 |x| + 1) := by
  have := Int.lt_zpow_succ_log_self (b := 2) (by norm_num) (|x| : ℝ)
  exact_mod_cast this

theorem log_lt_of {x : ℝ} (hx : x ≠ 0) {e : ℤ} (h : |x| < 2 ^ e) : Int.log 2 |x| < e := by
  have := (log_le hx).trans_lt h
  exact (zpow_lt_zpow_iff_right₀ (by norm_num : (1 : ℝ) < 2)).mp this

theorem le_log_of {x : ℝ} {e : ℤ} (h : (2 : ℝ) ^ e ≤ |x|) : e ≤ Int.log 2 |x| := by
  have := h.trans_lt (lt_log x)
  have := (zpow_lt_zpow_iff_right₀ (by norm_num : (1 : ℝ) < 2)).mp this
  omega

/-- Rounding leaves doubles unchanged. -/
theorem rnd_of_rep {x : ℝ} (h : Rep x) : rnd x = x := by
  obtain ⟨m, e, hm, he, rfl⟩ := h
  by_cases hm0 : m = 0
  · rw [hm0]; simp [rnd_zero]
  have hx : (m : ℝ) * 2 ^ e ≠ 0 := mul_ne_zero (by exact_mod_cast hm0) (two_zpow_pos e).ne'
  have habs : |(m : ℝ) * 2 ^ e| < 2 ^ (53 + e) := by
    rw [abs_mul, abs_of_pos (two_zpow_pos e), zpow_add₀ (by norm_num)]
    refine mul_lt_mul_of_pos_right ?_ (two_zpow_pos e)
    exact_mod_cast hm
  have hl := log_lt_of hx habs
  have hf : fexp ((m : ℝ) * 2 ^ e) ≤ e := by
    unfold fexp
    exact max_le (by omega) he
  unfold rnd
  generalize fexp ((m : ℝ) * 2 ^ e) = f at *
  obtain ⟨k, rfl⟩ : ∃ k : ℕ, e = f + k := ⟨(e - f).toNat, by omega⟩
  have e1 : (m : ℝ) * 2 ^ (f + (k : ℤ)) / 2 ^ f = ((m * 2 ^ k : ℤ) : ℝ) := by
    rw [zpow_add₀ (by norm_num)]
    have := (two_zpow_pos f).ne'
    push_cast
    field_simp
    simp
  rw [e1, rndZ_int, ← e1, div_mul_cancel₀ _ (two_zpow_pos f).ne']

theorem fexp_ge (x : ℝ) : -1074 ≤ fexp x := le_max_right _ _

/-- Scaled argument is at most 2^53. -/
theorem scaled_lt (x : ℝ) : |x / 2 ^ fexp x| < 2 ^ 53 := by
  rw [abs_div, abs_of_pos (two_zpow_pos _), div_lt_iff₀ (two_zpow_pos _)]
  have h := lt_log x
  have h2 : Int.log 2 |x| + 1 ≤ 53 + fexp x := by
    have : Int.log 2 |x| - 52 ≤ fexp x := le_max_left _ _
    omega
  calc |x| < 2 ^ (Int.log 2 |x| + 1) := h
    _ ≤ (2 : ℝ) ^ (53 + fexp x) := zpow_le_zpow_right₀ (by norm_num) h2
    _ = 2 ^ 53 * 2 ^ fexp x := by rw [zpow_add₀ (by norm_num)]; norm_cast

theorem rep_rnd (x : ℝ) : Rep (rnd x) := by
  have h := scaled_lt x
  have hk : |rndZ (x / 2 ^ fexp x)| ≤ 2 ^ 53 := by
    rw [abs_lt] at h
    rw [abs_le]
    constructor
    · have := rndZ_mono (x := ((-(2 ^ 53) : ℤ) : ℝ)) (y := x / 2 ^ fexp x) (by push_cast; linarith [h.1])
      rwa [rndZ_int] at this
    · have := rndZ_mono (x := x / 2 ^ fexp x) (y := ((2 ^ 53 : ℤ) : ℝ)) (by push_cast; linarith [h.2])
      rwa [rndZ_int] at this
  unfold rnd
  generalize rndZ (x / 2 ^ fexp x) = k at *
  have hf := fexp_ge x
  generalize fexp x = f at *
  rcases lt_or_eq_of_le hk with h | h
  · exact ⟨k, f, h, hf, rfl⟩
  · rcases abs_eq (by norm_num : (0 : ℤ) ≤ 2 ^ 53) |>.mp h with rfl | rfl
    · refine ⟨2 ^ 52, f + 1, by norm_num, by omega, ?_⟩
      rw [zpow_add₀ (by norm_num)]; push_cast; ring
    · refine ⟨-2 ^ 52, f + 1, by norm_num, by omega, ?_⟩
      rw [zpow_add₀ (by norm_num)]; push_cast; ring

theorem rep_neg {x : ℝ} (h : Rep x) : Rep (-x) := by
  obtain ⟨m, e, hm, he, rfl⟩ := h
  exact ⟨-m, e, by rwa [abs_neg], he, by push_cast; ring⟩

theorem rep_int {n : ℤ} (h : |n| ≤ 2 ^ 53) : Rep n := by
  rcases lt_or_eq_of_le h with h | h
  · exact ⟨n, 0, h, by norm_num, by simp⟩
  · rcases abs_eq (by norm_num : (0 : ℤ) ≤ 2 ^ 53) |>.mp h with rfl | rfl
    · exact ⟨2 ^ 52, 1, by norm_num, by norm_num, by norm_num⟩
    · exact ⟨-2 ^ 52, 1, by norm_num, by norm_num, by norm_num⟩

theorem rep_zpow {e : ℤ} (h : -1074 ≤ e) : Rep ((2 : ℝ) ^ e) :=
  ⟨1, e, by norm_num, h, by simp⟩

theorem rnd_mono_nonneg {x y : ℝ} (hx : 0 ≤ x) (h : x ≤ y) : rnd x ≤ rnd y := by
  rcases eq_or_lt_of_le hx with rfl | hx
  · rw [rnd_zero]
    unfold rnd
    have h0 : 0 ≤ rndZ (y / 2 ^ fexp y) := by
      have := rndZ_mono (x := ((0 : ℤ) : ℝ)) (y := y / 2 ^ fexp y) (by
        push_cast; exact div_nonneg h (two_zpow_pos _).le)
      rwa [rndZ_int] at this
    have : (0 : ℝ) ≤ (rndZ (y / 2 ^ fexp y) : ℝ) := by exact_mod_cast h0
    exact mul_nonneg this (two_zpow_pos _).le
  have hy : 0 < y := hx.trans_le h
  have hl : Int.log 2 |x| ≤ Int.log 2 |y| := by
    rw [abs_of_pos hx, abs_of_pos hy]
    exact Int.log_mono_right hx h
  have hf : fexp x ≤ fexp y := by unfold fexp; omega
  rcases eq_or_lt_of_le hf with he | hlt
  · unfold rnd
    rw [he]
    have hp := two_zpow_pos (fexp y)
    refine mul_le_mul_of_nonneg_right ?_ hp.le
    exact_mod_cast rndZ_mono (div_le_div_of_nonneg_right h hp.le)
  · have hfy : fexp y = Int.log 2 |y| - 52 := by
      have := fexp_ge x
      unfold fexp at *; omega
    have hlx : Int.log 2 |x| + 1 ≤ Int.log 2 |y| := by
      have : Int.log 2 |x| - 52 ≤ fexp x := le_max_left _ _
      omega
    obtain ⟨P, hP⟩ : ∃ P : ℝ, P = 2 ^ Int.log 2 |y| := ⟨_, rfl⟩
    have hxP : x ≤ P := by
      rw [hP]
      have := lt_log x
      rw [abs_of_pos hx] at this
      rw [abs_of_pos hx] at hlx
      exact this.le.trans (zpow_le_zpow_right₀ (by norm_num) hlx)
    have hPy : P ≤ y := by
      rw [hP]
      have := log_le hy.ne'
      rwa [abs_of_pos hy] at this ⊢
    have upper : ∀ f : ℤ, f ≤ Int.log 2 |y| → ∀ w, w ≤ P → (rndZ (w / 2 ^ f) : ℝ) * 2 ^ f ≤ P := by
      intro f hf w hw
      obtain ⟨k, hk⟩ : ∃ k : ℕ, Int.log 2 |y| = f + k := ⟨(Int.log 2 |y| - f).toNat, by omega⟩
      have hp := two_zpow_pos f
      have e : P / 2 ^ f = ((2 ^ k : ℤ) : ℝ) := by
        rw [hP, hk, zpow_add₀ (by norm_num)]; push_cast; field_simp; simp
      have := rndZ_mono (div_le_div_of_nonneg_right hw hp.le)
      rw [e, rndZ_int] at this
      have h2 : (rndZ (w / 2 ^ f) : ℝ) ≤ ((2 ^ k : ℤ) : ℝ) := by exact_mod_cast this
      rw [← e, le_div_iff₀ hp] at h2
      exact h2
    have lower : ∀ f : ℤ, f ≤ Int.log 2 |y| → ∀ w, P ≤ w → P ≤ (rndZ (w / 2 ^ f) : ℝ) * 2 ^ f := by
      intro f hf w hw
      obtain ⟨k, hk⟩ : ∃ k : ℕ, Int.log 2 |y| = f + k := ⟨(Int.log 2 |y| - f).toNat, by omega⟩
      have hp := two_zpow_pos f
      have e : P / 2 ^ f = ((2 ^ k : ℤ) : ℝ) := by
        rw [hP, hk, zpow_add₀ (by norm_num)]; push_cast; field_simp; simp
      have := rndZ_mono (div_le_div_of_nonneg_right hw hp.le)
      rw [e, rndZ_int] at this
      have h2 : ((2 ^ k : ℤ) : ℝ) ≤ (rndZ (w / 2 ^ f) : ℝ) := by exact_mod_cast this
      rw [← e, div_le_iff₀ hp] at h2
      exact h2
    exact (upper (fexp x) (by omega) x hxP).trans (lower (fexp y) (by omega) y hPy)

theorem rnd_mono {x y : ℝ} (h : x ≤ y) : rnd x ≤ rnd y := by
  rcases le_total 0 x with hx | hx
  · exact rnd_mono_nonneg hx h
  · rcases le_total 0 y with hy | hy
    · have h1 := rnd_mono_nonneg (x := 0) (y := -x) le_rfl (by linarith)
      have h2 := rnd_mono_nonneg (x := 0) (y := y) le_rfl hy
      rw [rnd_zero] at h1 h2
      rw [rnd_neg] at h1
      linarith
    · have := rnd_mono_nonneg (x := -y) (y := -x) (by linarith) (by linarith)
      rw [rnd_neg, rnd_neg] at this
      linarith

theorem rnd_le_of_rep {x y : ℝ} (hy : Rep y) (h : x ≤ y) : rnd x ≤ y := by
  rw [← rnd_of_rep hy]; exact rnd_mono h

theorem le_rnd_of_rep {x y : ℝ} (hy : Rep y) (h : y ≤ x) : y ≤ rnd x := by
  rw [← rnd_of_rep hy]; exact rnd_mono h

/-- Relative error in the normal range. -/
theorem rnd_rel_err {x : ℝ} (h : (2 : ℝ) ^ (-1022 : ℤ) ≤ |x|) : |rnd x - x| ≤ |x| * 2 ^ (-53 : ℤ) := by
  have hx : x ≠ 0 := by
    intro h0
    rw [h0, abs_zero] at h
    exact absurd h (not_le.mpr (two_zpow_pos _))
  have hl := le_log_of h
  have hf : fexp x = Int.log 2 |x| - 52 := by unfold fexp; omega
  refine (rnd_abs_err x).trans ?_
  rw [hf]
  have := log_le hx
  have e : (2 : ℝ) ^ (Int.log 2 |x| - 52) / 2 = 2 ^ Int.log 2 |x| * 2 ^ (-53 : ℤ) := by
    rw [← zpow_add₀ (by norm_num), show Int.log 2 |x| + -53 = (Int.log 2 |x| - 52) - 1 by ring,
      zpow_sub_one₀ (by norm_num)]
    ring
  rw [e]
  exact mul_le_mul_of_nonneg_right this (two_zpow_pos _).le

/-- Error in general. -/
theorem rnd_err (x : ℝ) : |rnd x - x| ≤ |x| * 2 ^ (-53 : ℤ) + 2 ^ (-1075 : ℤ) := by
  rcases le_or_gt ((2 : ℝ) ^ (-1022 : ℤ)) |x| with h | h
  · have := rnd_rel_err h
    have := two_zpow_pos (-1075)
    linarith
  · by_cases hx : x = 0
    · rw [hx, rnd_zero]; simp
    have hl := log_lt_of hx h
    have hf : fexp x = -1074 := by unfold fexp; omega
    have h1 := rnd_abs_err x
    rw [hf] at h1
    have e : (2 : ℝ) ^ (-1074 : ℤ) / 2 = 2 ^ (-1075 : ℤ) := by
      rw [show (-1075 : ℤ) = -1074 - 1 by norm_num, zpow_sub_one₀ (by norm_num)]; ring
    rw [e] at h1
    have : 0 ≤ |x| * (2 : ℝ) ^ (-53 : ℤ) := by positivity
    linarith

/-- Scaling a double by a non-negative power of two is exact. -/
theorem rep_mul_two_pow {x : ℝ} (h : Rep x) (k : ℕ) : Rep (2 ^ k * x) := by
  obtain ⟨m, e, hm, he, rfl⟩ := h
  refine ⟨m, e + k, hm, by omega, ?_⟩
  rw [zpow_add₀ (by norm_num)]
  simp
  ring

end Falcon
