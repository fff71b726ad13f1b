import Verif.Model.RootLits
import Verif.Proofs.RootHP
import Verif.Proofs.Fft
import Verif.Proofs.Float

/-!
# Accuracy of the table of roots

The 100-bit approximations are checked against each other by squaring; the literals against the
approximations.
-/

namespace Falcon

def hp (k : ℕ) : ℤ × ℤ := rootHP.getD k (0, 0)

def rlit (k : ℕ) : ℤ × ℕ × ℤ × ℕ := rootLits.getD k (0, 0, 0, 0)

def hpCheck1 (w w' v : ℤ × ℤ) : Bool :=
  decide ((w.1 * w.1 - w.2 * w.2 - v.1 * 2 ^ 100).natAbs ≤ 2 ^ 101)
    && decide ((2 * w.1 * w.2 - v.2 * 2 ^ 100).natAbs ≤ 2 ^ 101)
    && decide (0 ≤ w.1) && decide (0 ≤ w.2) && decide (w' = (-w.2, w.1))

/-- Two entries of the first list for each of the second. -/
def hpCheck : List (ℤ × ℤ) → List (ℤ × ℤ) → Bool
  | w :: w' :: ws, v :: vs => hpCheck1 w w' v && hpCheck ws vs
  | _, _ => true

theorem hpCheck_get {ws vs : List (ℤ × ℤ)} (h : hpCheck ws vs = true) (j : ℕ) (h1 : 2 * j + 1 < ws.length)
    (h2 : j < vs.length) :
    hpCheck1 (ws.getD (2 * j) (0, 0)) (ws.getD (2 * j + 1) (0, 0)) (vs.getD j (0, 0)) = true := by
  induction vs generalizing ws j with
  | nil => simp at h2
  | cons v vs ih =>
    match ws, h1 with
    | w :: w' :: ws, h1 =>
      unfold hpCheck at h
      rw [Bool.and_eq_true_iff] at h
      cases j with
      | zero => simpa using h.1
      | succ j =>
        have := ih h.2 j (by simp at h1; omega) (by simpa using h2)
        simpa [show 2 * (j + 1) = 2 * j + 1 + 1 by ring] using this
    | [_], h1 => simp at h1
    | [], h1 => simp at h1

def litCheck1 (m : ℤ) (e : ℕ) (c : ℤ) : Bool :=
  decide (100 * ((m * 2 ^ 100 - c * 10 ^ e).natAbs * 2 ^ 53 + m.natAbs * 2 ^ 100) ≤ 399 * (10 ^ e * 2 ^ 100))

def litCheck (p : (ℤ × ℕ × ℤ × ℕ) × (ℤ × ℤ)) : Bool :=
  litCheck1 p.1.1 p.1.2.1 p.2.1 && litCheck1 p.1.2.2.1 p.1.2.2.2 p.2.2

theorem hp_checked : hpCheck (rootHP.drop 2) (rootHP.drop 1) = true := by decide +kernel

theorem lit_checked : (rootLits.zip rootHP).all litCheck = true := by decide +kernel

theorem rootLits_length : rootLits.length = 1024 := by decide +kernel

theorem rootHP_length : rootHP.length = 1024 := by decide +kernel

theorem hp_zero : hp 0 = (2 ^ 100, 0) := by decide +kernel
theorem hp_one : hp 1 = (0, 2 ^ 100) := by decide +kernel

/-- The approximation as a complex number. -/
noncomputable def hpC (k : ℕ) : ℂ := ⟨(hp k).1 / 2 ^ 100, (hp k).2 / 2 ^ 100⟩

theorem cT_one : cT 1 = Complex.I := by
  unfold cT zetaC
  rw [exp_pow, show brv 10 1 = 512 by decide +kernel,
    show Complex.I * (Real.pi : ℂ) * ((512 : ℕ) : ℂ) / 1024 = (Real.pi : ℂ) / 2 * Complex.I by
      push_cast; ring]
  rw [Complex.exp_mul_I, ← Complex.ofReal_ofNat, ← Complex.ofReal_div, ← Complex.ofReal_cos,
    ← Complex.ofReal_sin, Real.cos_pi_div_two, Real.sin_pi_div_two]
  simp

theorem cT_odd (j : ℕ) : cT (2 * j + 1) = Complex.I * cT (2 * j) := by
  rw [← cT_one]
  unfold cT
  rw [brv_odd, brv_even, pow_add, mul_comm, show brv 10 1 = 2 ^ 9 by decide +kernel]

theorem cT_even_sq {j : ℕ} (h0 : 0 < j) (hj : j < 512) : cT (2 * j) ^ 2 = cT j :=
  (cT_table (n := 10) le_rfl).sq_even j h0 hj

theorem cT_cos_sin (k : ℕ) : cT k = ⟨Real.cos (Real.pi * brv 10 k / 1024), Real.sin (Real.pi * brv 10 k / 1024)⟩ := by
  unfold cT zetaC
  rw [exp_pow, show Complex.I * (Real.pi : ℂ) * (brv 10 k : ℂ) / 1024
    = ((Real.pi * brv 10 k / 1024 : ℝ) : ℂ) * Complex.I by push_cast; ring, Complex.exp_mul_I,
    ← Complex.ofReal_cos, ← Complex.ofReal_sin]
  apply Complex.ext <;> simp [-Complex.ofReal_cos, -Complex.ofReal_sin, Complex.ofReal_re]

theorem cT_even_quadrant (j : ℕ) : 0 ≤ (cT (2 * j)).re ∧ 0 ≤ (cT (2 * j)).im := by
  rw [cT_cos_sin, brv_even]
  have hb : ((brv 9 j : ℕ) : ℝ) ≤ 512 := by
    have := brv_lt 9 j
    have : brv 9 j ≤ 512 := by omega
    exact_mod_cast this
  have hb0 : (0 : ℝ) ≤ (brv 9 j : ℝ) := by positivity
  have hpi := Real.pi_pos
  constructor
  · apply Real.cos_nonneg_of_mem_Icc
    constructor
    · have : 0 ≤ Real.pi * (brv 9 j : ℝ) / 1024 := by positivity
      linarith
    · rw [div_le_div_iff₀ (by norm_num) (by norm_num)]; nlinarith
  · apply Real.sin_nonneg_of_nonneg_of_le_pi
    · positivity
    · rw [div_le_iff₀ (by norm_num)]; nlinarith

/-- Distance of two numbers of the first quadrant from that of their squares. -/
theorem dist_of_sq {w z : ℂ} (hz : ‖z‖ = 1) (hz0 : 0 ≤ z.re ∧ 0 ≤ z.im) (hw0 : 0 ≤ w.re ∧ 0 ≤ w.im) :
    ‖w - z‖ ≤ ‖w ^ 2 - z ^ 2‖ := by
  have h1 : 1 ≤ ‖w + z‖ := by
    rw [← hz]
    apply Real.sqrt_le_sqrt
    simp only [Complex.normSq_apply, Complex.add_re, Complex.add_im]
    nlinarith [mul_nonneg hz0.1 hw0.1, mul_nonneg hz0.2 hw0.2, mul_nonneg hw0.1 hw0.1,
      mul_nonneg hw0.2 hw0.2]
  have h2 : w ^ 2 - z ^ 2 = (w - z) * (w + z) := by ring
  rw [h2, norm_mul]
  nlinarith [norm_nonneg (w - z)]

theorem hpCheck_of {j : ℕ} (h0 : 0 < j) (hj : j < 512) :
    |(hp (2 * j)).1 * (hp (2 * j)).1 - (hp (2 * j)).2 * (hp (2 * j)).2 - (hp j).1 * 2 ^ 100| ≤ 2 ^ 101 ∧
    |2 * (hp (2 * j)).1 * (hp (2 * j)).2 - (hp j).2 * 2 ^ 100| ≤ 2 ^ 101 ∧
    0 ≤ (hp (2 * j)).1 ∧ 0 ≤ (hp (2 * j)).2 ∧ hp (2 * j + 1) = (-(hp (2 * j)).2, (hp (2 * j)).1) := by
  have h := hpCheck_get hp_checked (j - 1) (by rw [List.length_drop, rootHP_length]; omega)
    (by rw [List.length_drop, rootHP_length]; omega)
  simp only [List.getD_eq_getElem?_getD, List.getElem?_drop] at h
  rw [show 2 + 2 * (j - 1) = 2 * j by omega, show 2 + (2 * (j - 1) + 1) = 2 * j + 1 by omega,
    show 1 + (j - 1) = j by omega] at h
  simp only [← List.getD_eq_getElem?_getD] at h
  unfold hpCheck1 at h
  simp only [Bool.and_eq_true, decide_eq_true_eq] at h
  obtain ⟨⟨⟨⟨a, b⟩, c⟩, d⟩, e⟩ := h
  refine ⟨?_, ?_, c, d, e⟩
  · rw [Int.abs_eq_natAbs]; exact_mod_cast a
  · rw [Int.abs_eq_natAbs]; exact_mod_cast b

theorem hp_sq {j : ℕ} (h0 : 0 < j) (hj : j < 512) : ‖hpC (2 * j) ^ 2 - hpC j‖ ≤ 1 / 2 ^ 98 := by
  obtain ⟨ha, hb, -, -, -⟩ := hpCheck_of h0 hj
  refine (Complex.norm_le_abs_re_add_abs_im _).trans ?_
  have hre : (hpC (2 * j) ^ 2 - hpC j).re = (((hp (2 * j)).1 * (hp (2 * j)).1
      - (hp (2 * j)).2 * (hp (2 * j)).2 - (hp j).1 * 2 ^ 100 : ℤ) : ℝ) / 2 ^ 200 := by
    unfold hpC
    rw [sq]
    simp only [Complex.sub_re, Complex.mul_re]
    push_cast
    ring
  have him : (hpC (2 * j) ^ 2 - hpC j).im = ((2 * (hp (2 * j)).1 * (hp (2 * j)).2
      - (hp j).2 * 2 ^ 100 : ℤ) : ℝ) / 2 ^ 200 := by
    unfold hpC
    rw [sq]
    simp only [Complex.sub_im, Complex.mul_im]
    push_cast
    ring
  rw [hre, him, abs_div, abs_div, ← Int.cast_abs, ← Int.cast_abs]
  have h1 : ((|(hp (2 * j)).1 * (hp (2 * j)).1 - (hp (2 * j)).2 * (hp (2 * j)).2 - (hp j).1 * 2 ^ 100| : ℤ) : ℝ)
      ≤ 2 ^ 101 := by exact_mod_cast ha
  have h2 : ((|2 * (hp (2 * j)).1 * (hp (2 * j)).2 - (hp j).2 * 2 ^ 100| : ℤ) : ℝ) ≤ 2 ^ 101 := by
    exact_mod_cast hb
  rw [abs_of_pos (by positivity : (0 : ℝ) < 2 ^ 200), ← add_div, div_le_div_iff₀ (by positivity) (by positivity)]
  calc _ ≤ ((2 : ℝ) ^ 101 + 2 ^ 101) * 2 ^ 98 := by
        apply mul_le_mul_of_nonneg_right _ (by positivity)
        exact add_le_add h1 h2
    _ = 1 * 2 ^ 200 := by norm_num

theorem hp_close (t : ℕ) (ht : t ≤ 9) : ∀ k, k < 2 ^ (t + 1) → ‖hpC k - cT k‖ ≤ t / 2 ^ 98 := by
  induction t with
  | zero =>
    intro k hk
    have : k = 0 ∨ k = 1 := by omega
    rcases this with rfl | rfl
    · have h1 : hpC 0 = 1 := by unfold hpC; rw [hp_zero]; apply Complex.ext <;> norm_num
      have h2 : cT 0 = 1 := by unfold cT; rw [show brv 10 0 = 0 by decide +kernel, pow_zero]
      rw [h1, h2]; simp
    · have h1 : hpC 1 = Complex.I := by unfold hpC; rw [hp_one]; apply Complex.ext <;> norm_num
      rw [h1, cT_one]; simp
  | succ t ih =>
    intro k hk
    have hp2 : 2 ^ (t + 1) ≤ 2 ^ 9 := Nat.pow_le_pow_right (by norm_num) ht
    rw [pow_succ] at hk
    by_cases hk1 : k < 2
    · refine (ih (by omega) k ?_).trans ?_
      · have : 0 < 2 ^ t := by positivity
        rw [pow_succ]; omega
      · push_cast; gcongr; linarith
    have hj0 : 0 < k / 2 := by omega
    have hj : k / 2 < 512 := by omega
    have hev : ‖hpC (2 * (k / 2)) - cT (2 * (k / 2))‖ ≤ (t + 1 : ℕ) / 2 ^ 98 := by
      obtain ⟨-, -, hc, hd, -⟩ := hpCheck_of hj0 hj
      refine (dist_of_sq (cT_norm _) (cT_even_quadrant _) ?_).trans ?_
      · constructor
        · show (0 : ℝ) ≤ (hp (2 * (k / 2))).1 / 2 ^ 100
          have : (0 : ℝ) ≤ ((hp (2 * (k / 2))).1 : ℝ) := by exact_mod_cast hc
          positivity
        · show (0 : ℝ) ≤ (hp (2 * (k / 2))).2 / 2 ^ 100
          have : (0 : ℝ) ≤ ((hp (2 * (k / 2))).2 : ℝ) := by exact_mod_cast hd
          positivity
      · rw [cT_even_sq hj0 hj, show hpC (2 * (k / 2)) ^ 2 - cT (k / 2)
          = (hpC (2 * (k / 2)) ^ 2 - hpC (k / 2)) + (hpC (k / 2) - cT (k / 2)) by ring]
        refine (norm_add_le _ _).trans ?_
        have h1 := hp_sq hj0 hj
        have h2 := ih (by omega) (k / 2) (by omega)
        push_cast
        rw [add_div]
        linarith
    rcases Nat.mod_two_eq_zero_or_one k with h | h
    · rwa [show 2 * (k / 2) = k by omega] at hev
    · have hk' : k = 2 * (k / 2) + 1 := by omega
      rw [hk', cT_odd]
      have : hpC (2 * (k / 2) + 1) = Complex.I * hpC (2 * (k / 2)) := by
        obtain ⟨-, -, -, -, he⟩ := hpCheck_of hj0 hj
        unfold hpC
        rw [he]
        apply Complex.ext
        · simp; ring
        · simp
      rw [this, ← mul_sub, norm_mul, Complex.norm_I, one_mul]
      exact hev

theorem litCheck1_of {m c : ℤ} {e : ℕ} (h : litCheck1 m e c = true) :
    |(m : ℝ) / 10 ^ e - c / 2 ^ 100| + |(m : ℝ) / 10 ^ e| / 2 ^ 53 ≤ 399 / 100 / 2 ^ 53 := by
  unfold litCheck1 at h
  rw [decide_eq_true_eq] at h
  have h' : 100 * (|(m : ℝ) * 2 ^ 100 - c * 10 ^ e| * 2 ^ 53 + |(m : ℝ)| * 2 ^ 100) ≤ 399 * (10 ^ e * 2 ^ 100) := by
    have h2 : 100 * (|m * 2 ^ 100 - c * 10 ^ e| * 2 ^ 53 + |m| * 2 ^ 100) ≤ 399 * (10 ^ e * 2 ^ 100) := by
      rw [Int.abs_eq_natAbs, Int.abs_eq_natAbs]; exact_mod_cast h
    exact_mod_cast h2
  have he : (0 : ℝ) < 10 ^ e := by positivity
  have e1 : (m : ℝ) / 10 ^ e - c / 2 ^ 100 = (m * 2 ^ 100 - c * 10 ^ e) / (10 ^ e * 2 ^ 100) := by
    field_simp
  rw [e1, abs_div, abs_of_pos (by positivity : (0 : ℝ) < 10 ^ e * 2 ^ 100), abs_div, abs_of_pos he]
  generalize |(m : ℝ) * 2 ^ 100 - c * 10 ^ e| = X at *
  generalize |(m : ℝ)| = Y at *
  generalize (10 : ℝ) ^ e = Z at *
  have : X / (Z * 2 ^ 100) + Y / Z / 2 ^ 53 = (X * 2 ^ 53 + Y * 2 ^ 100) / (Z * 2 ^ 100 * 2 ^ 53) := by
    field_simp
  rw [this, div_le_div_iff₀ (by positivity) (by positivity)]
  nlinarith

/-- Literal and double are close to the component `x` of the root approximated by `c`. -/
theorem lit_close {m c : ℤ} {e : ℕ} {x : ℝ} (h : litCheck1 m e c = true)
    (hx : |(c : ℝ) / 2 ^ 100 - x| ≤ 9 / 2 ^ 98) :
    |(m : ℝ) / 10 ^ e - x| ≤ 1 / 2 ^ 51 ∧ |rnd ((m : ℝ) / 10 ^ e) - x| ≤ 1 / 2 ^ 51 := by
  have h1 := litCheck1_of h
  have h2 := rnd_err ((m : ℝ) / 10 ^ e)
  generalize (m : ℝ) / 10 ^ e = y at *
  generalize (c : ℝ) / 2 ^ 100 = w at *
  have h3 : |y - x| ≤ |y - w| + |w - x| := abs_sub_le _ _ _
  have h4 : |rnd y - x| ≤ |rnd y - y| + |y - x| := abs_sub_le _ _ _
  have e1 : (2 : ℝ) ^ (-53 : ℤ) = 1 / 2 ^ 53 := by norm_num
  have e2 : (2 : ℝ) ^ (-1075 : ℤ) ≤ 1 / 2 ^ 100 := by
    rw [show (1 : ℝ) / 2 ^ 100 = 2 ^ (-100 : ℤ) by norm_num]
    exact zpow_le_zpow_right₀ (by norm_num) (by norm_num)
  rw [e1] at h2
  have h5 : 0 ≤ |y| / 2 ^ 53 := by positivity
  have h6 : |y| * (1 / 2 ^ 53) = |y| / 2 ^ 53 := by ring
  rw [h6] at h2
  generalize (2 : ℝ) ^ (-1075 : ℤ) = tiny at *
  generalize |y| / 2 ^ 53 = Y at *
  constructor
  · norm_num at *; linarith
  · norm_num at *; linarith

theorem litCheck_of {k : ℕ} (hk : k < 1024) :
    litCheck1 (rlit k).1 (rlit k).2.1 (hp k).1 = true ∧ litCheck1 (rlit k).2.2.1 (rlit k).2.2.2 (hp k).2 = true := by
  have hl : k < (rootLits.zip rootHP).length := by
    rw [List.length_zip, rootLits_length, rootHP_length]; simpa using hk
  have h := List.all_eq_true.mp lit_checked _ (List.getElem_mem hl)
  rw [List.getElem_zip] at h
  unfold rlit hp
  rw [List.getD_eq_getElem?_getD, List.getD_eq_getElem?_getD,
    List.getElem?_eq_getElem (by rw [rootLits_length]; exact hk),
    List.getElem?_eq_getElem (by rw [rootHP_length]; exact hk), Option.getD_some, Option.getD_some]
  unfold litCheck at h
  exact Bool.and_eq_true_iff.mp h

theorem hp_comp {k : ℕ} (hk : k < 1024) :
    |((hp k).1 : ℝ) / 2 ^ 100 - Real.cos (Real.pi * brv 10 k / 1024)| ≤ 9 / 2 ^ 98 ∧
    |((hp k).2 : ℝ) / 2 ^ 100 - Real.sin (Real.pi * brv 10 k / 1024)| ≤ 9 / 2 ^ 98 := by
  have h := hp_close 9 le_rfl k (by simpa using hk)
  rw [cT_cos_sin] at h
  have h1 := (Complex.abs_re_le_norm _).trans h
  have h2 := (Complex.abs_im_le_norm _).trans h
  exact ⟨h1, h2⟩

end Falcon
