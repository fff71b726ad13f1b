import Verif.FloatSpec
import Verif.Props.Fft
import Verif.Proofs.FloatFft

/-!
# Binary64 arithmetic satisfies the error bounds
-/

namespace Falcon

/-- The smallest error constant that occurs. -/
noncomputable def etaD : ℝ := 1 / 2 ^ 1000

theorem etaD_pos : 0 < etaD := by unfold etaD; positivity

theorem etaD_le : etaD ≤ 1 / 2 ^ 800 * tinyD := by
  unfold etaD tinyD
  rw [div_mul_div_comm, one_mul, ← pow_add]
  exact one_div_le_one_div_of_le (by positivity) (pow_le_pow_right₀ (by norm_num) (by norm_num))

theorem etaD_le' : etaD ≤ 1 / 2 ^ 100 * tinyD := by
  refine etaD_le.trans (mul_le_mul_of_nonneg_right ?_ tinyD_pos.le)
  exact one_div_le_one_div_of_le (by positivity) (pow_le_pow_right₀ (by norm_num) (by norm_num))

theorem rnd_errD (x : ℝ) : |rnd x - x| ≤ uD * |x| + etaD := by
  have h := rnd_err x
  have e1 : (2 : ℝ) ^ (-53 : ℤ) = uD := by unfold uD; rw [zpow_neg, one_div]; norm_cast
  have e2 : (2 : ℝ) ^ (-1075 : ℤ) ≤ etaD := by
    unfold etaD
    rw [zpow_neg, one_div]
    rw [show (1075 : ℤ) = ((1075 : ℕ) : ℤ) by norm_num, zpow_natCast]
    exact inv_anti₀ (pow_pos (by norm_num) _) (pow_le_pow_right₀ (by norm_num) (by norm_num))
  rw [e1, mul_comm] at h
  linarith

theorem norm_le_comp {e x : ℂ} {a d : ℝ} (ha : 0 ≤ a) (hd : 0 ≤ d) (h1 : |e.re| ≤ a * |x.re| + d)
    (h2 : |e.im| ≤ a * |x.im| + d) : ‖e‖ ≤ a * ‖x‖ + 2 * d := by
  have n0 := norm_nonneg x
  refine (abs_le_of_sq_le_sq' ?_ (by positivity)).2
  have s1 : ‖e‖ ^ 2 = e.re ^ 2 + e.im ^ 2 := by rw [Complex.sq_norm, Complex.normSq_apply]; ring
  have s2 : ‖x‖ ^ 2 = x.re ^ 2 + x.im ^ 2 := by rw [Complex.sq_norm, Complex.normSq_apply]; ring
  have r1 := Complex.abs_re_le_norm x
  have r2 := Complex.abs_im_le_norm x
  have q1 : e.re ^ 2 ≤ (a * |x.re| + d) ^ 2 := by
    rw [← sq_abs e.re]; exact pow_le_pow_left₀ (abs_nonneg _) h1 2
  have q2 : e.im ^ 2 ≤ (a * |x.im| + d) ^ 2 := by
    rw [← sq_abs e.im]; exact pow_le_pow_left₀ (abs_nonneg _) h2 2
  rw [← sq_abs x.re, ← sq_abs x.im] at s2
  have m1 : a * d * |x.re| ≤ a * d * ‖x‖ := mul_le_mul_of_nonneg_left r1 (by positivity)
  have m2 : a * d * |x.im| ≤ a * d * ‖x‖ := mul_le_mul_of_nonneg_left r2 (by positivity)
  calc ‖e‖ ^ 2 ≤ a ^ 2 * (|x.re| ^ 2 + |x.im| ^ 2) + 2 * (a * d * |x.re|) + 2 * (a * d * |x.im|) + 2 * d ^ 2 := by
        rw [s1]; nlinarith
    _ ≤ a ^ 2 * ‖x‖ ^ 2 + 4 * (a * d * ‖x‖) + 2 * d ^ 2 := by rw [s2]; linarith
    _ ≤ _ := by nlinarith [sq_nonneg d]

theorem norm_le_max {e : ℂ} {M : ℝ} (h1 : |e.re| ≤ M) (h2 : |e.im| ≤ M) : ‖e‖ ≤ 3 / 2 * M := by
  have hM : 0 ≤ M := (abs_nonneg _).trans h1
  refine (abs_le_of_sq_le_sq' ?_ (by positivity)).2
  have s1 : ‖e‖ ^ 2 = e.re ^ 2 + e.im ^ 2 := by rw [Complex.sq_norm, Complex.normSq_apply]; ring
  have q1 : e.re ^ 2 ≤ M ^ 2 := by rw [← sq_abs e.re]; exact pow_le_pow_left₀ (abs_nonneg _) h1 2
  have q2 : e.im ^ 2 ≤ M ^ 2 := by rw [← sq_abs e.im]; exact pow_le_pow_left₀ (abs_nonneg _) h2 2
  rw [s1]; nlinarith

/-- A rounded sum of two products, the first rounded or not. -/
theorem rnd_dot (b : Bool) (p q : ℝ) :
    |rnd ((if b then p else rnd p) + rnd q) - (p + q)| ≤ (2 * uD + uD ^ 2) * (|p| + |q|) + 4 * etaD := by
  have u0 := uD_pos
  have u1 := uD_le
  have e0 := etaD_pos
  have hq := rnd_errD q
  have hp : |(if b then p else rnd p) - p| ≤ uD * |p| + etaD := by
    cases b
    · simpa using rnd_errD p
    · simp only [if_true, sub_self, abs_zero]
      have := mul_nonneg u0.le (abs_nonneg p)
      linarith
  generalize (if b then p else rnd p) = p' at *
  generalize rnd q = q' at *
  have h := rnd_errD (p' + q')
  have hs : |(p' + q') - (p + q)| ≤ uD * (|p| + |q|) + 2 * etaD := by
    have : (p' + q') - (p + q) = (p' - p) + (q' - q) := by ring
    rw [this]
    have := abs_add_le (p' - p) (q' - q)
    linarith
  have hs2 : |p' + q'| ≤ |p| + |q| + (uD * (|p| + |q|) + 2 * etaD) := by
    have h1 := abs_add_le p q
    have h2 := abs_add_le ((p' + q') - (p + q)) (p + q)
    rw [sub_add_cancel] at h2
    linarith
  have h3 := abs_sub_le (rnd (p' + q')) (p' + q') (p + q)
  have h4 := mul_le_mul_of_nonneg_left hs2 u0.le
  have h5 : uD * etaD ≤ 1 / 4 * etaD := mul_le_mul_of_nonneg_right (by linarith) e0.le
  generalize |p| + |q| = s at *
  nlinarith

theorem dot_le (x y : ℂ) : |x.re * y.re| + |x.im * y.im| ≤ ‖x‖ * ‖y‖ ∧ |x.re * y.im| + |x.im * y.re| ≤ ‖x‖ * ‖y‖ := by
  have s1 : ‖x‖ ^ 2 = |x.re| ^ 2 + |x.im| ^ 2 := by
    rw [Complex.sq_norm, Complex.normSq_apply, sq_abs, sq_abs]; ring
  have s2 : ‖y‖ ^ 2 = |y.re| ^ 2 + |y.im| ^ 2 := by
    rw [Complex.sq_norm, Complex.normSq_apply, sq_abs, sq_abs]; ring
  rw [abs_mul, abs_mul, abs_mul, abs_mul]
  constructor
  · refine (abs_le_of_sq_le_sq' ?_ (by positivity)).2
    rw [mul_pow, s1, s2]
    nlinarith [sq_nonneg (|x.re| * |y.im| - |x.im| * |y.re|)]
  · refine (abs_le_of_sq_le_sq' ?_ (by positivity)).2
    rw [mul_pow, s1, s2]
    nlinarith [sq_nonneg (|x.re| * |y.re| - |x.im| * |y.im|)]

theorem ieeeMul_err (b : Bool) (x y : ℂ) : ‖ieeeMul b x y - x * y‖ ≤ 4 * uD * (‖x‖ * ‖y‖) + 6 * etaD := by
  have u0 := uD_pos
  have u1 := uD_le
  have e0 := etaD_pos
  have hre : (ieeeMul b x y).re = rnd ((if b then x.re * y.re else rnd (x.re * y.re)) + rnd (-(x.im * y.im))) := by
    unfold ieeeMul
    rw [rnd_neg]
    cases b <;> simp [sub_eq_add_neg]
  have him : (ieeeMul b x y).im = rnd ((if b then x.re * y.im else rnd (x.re * y.im)) + rnd (x.im * y.re)) := by
    unfold ieeeMul
    cases b <;> simp
  obtain ⟨c1, c2⟩ := dot_le x y
  have k1 := rnd_dot b (x.re * y.re) (-(x.im * y.im))
  have k2 := rnd_dot b (x.re * y.im) (x.im * y.re)
  rw [← hre, abs_neg] at k1
  rw [← him] at k2
  have hu2 : 2 * uD + uD ^ 2 ≤ 9 / 4 * uD := by nlinarith
  have hM : ∀ s, 0 ≤ s → s ≤ ‖x‖ * ‖y‖ → (2 * uD + uD ^ 2) * s ≤ 9 / 4 * uD * (‖x‖ * ‖y‖) := by
    intro s hs h
    calc (2 * uD + uD ^ 2) * s ≤ 9 / 4 * uD * s := mul_le_mul_of_nonneg_right hu2 hs
      _ ≤ _ := mul_le_mul_of_nonneg_left h (by linarith)
  have m1 := hM _ (by positivity) c1
  have m2 := hM _ (by positivity) c2
  have := norm_le_max (e := ieeeMul b x y - x * y) (M := 9 / 4 * uD * (‖x‖ * ‖y‖) + 4 * etaD)
    (by rw [Complex.sub_re, Complex.mul_re, sub_eq_add_neg (x.re * y.re)]; linarith)
    (by rw [Complex.sub_im, Complex.mul_im]; linarith)
  have p : 0 ≤ uD * (‖x‖ * ‖y‖) := by positivity
  linarith

theorem ieeeDiv_err (b : Bool) (x y : ℂ) (hy : 1 / 2 ^ 20 ≤ ‖y‖) :
    ‖ieeeDiv b x y - x / y‖ ≤ 16 * uD * ‖x / y‖ + tinyD := by
  have u0 := uD_pos
  have u1 : uD ≤ 1 / 2 ^ 50 := by unfold uD; norm_num
  have e0 := etaD_pos
  have t0 := tinyD_pos
  have ysq : ‖y‖ ^ 2 = y.re * y.re + y.im * y.im := by rw [Complex.sq_norm, Complex.normSq_apply]
  have hy0 : 0 < ‖y‖ := lt_of_lt_of_le (by positivity) hy
  have hD : 1 / 2 ^ 40 ≤ ‖y‖ ^ 2 := by
    calc (1 / 2 ^ 40 : ℝ) = (1 / 2 ^ 20) ^ 2 := by norm_num
      _ ≤ _ := pow_le_pow_left₀ (by positivity) hy 2
  set d : ℝ := if b then rnd (y.re * y.re + rnd (y.im * y.im)) else rnd (rnd (y.re * y.re) + rnd (y.im * y.im)) with hd
  have hdd : |d - ‖y‖ ^ 2| ≤ 3 * uD * ‖y‖ ^ 2 := by
    have h := rnd_dot b (y.re * y.re) (y.im * y.im)
    have hd' : d = rnd ((if b then y.re * y.re else rnd (y.re * y.re)) + rnd (y.im * y.im)) := by
      rw [hd]; cases b <;> simp
    rw [← hd', abs_mul_self, abs_mul_self, ← ysq] at h
    have hu2 : 2 * uD + uD ^ 2 ≤ 9 / 4 * uD := by nlinarith
    have h2 : (2 * uD + uD ^ 2) * ‖y‖ ^ 2 ≤ 9 / 4 * uD * ‖y‖ ^ 2 := mul_le_mul_of_nonneg_right hu2 (by positivity)
    have h3 : uD * (1 / 2 ^ 40) ≤ uD * ‖y‖ ^ 2 := mul_le_mul_of_nonneg_left hD u0.le
    have h4 : 4 * etaD ≤ 1 / 4 * (uD * (1 / 2 ^ 40)) := by
      have := etaD_le'
      unfold tinyD at this
      unfold uD
      generalize etaD = η at *
      norm_num at this ⊢
      linarith
    linarith
  have hd0 : 7 / 8 * ‖y‖ ^ 2 ≤ d := by
    have := (abs_le.mp hdd).1
    have : 3 * uD * ‖y‖ ^ 2 ≤ 1 / 8 * ‖y‖ ^ 2 := mul_le_mul_of_nonneg_right (by
      norm_num at u1; linarith) (by positivity)
    linarith
  have hdpos : 0 < d := lt_of_lt_of_le (by positivity) hd0
  set P := ieeeMul b x ((starRingEnd ℂ) y) with hP
  have hp : ‖P - x * (starRingEnd ℂ) y‖ ≤ 4 * uD * (‖x‖ * ‖y‖) + 6 * etaD := by
    have := ieeeMul_err b x ((starRingEnd ℂ) y)
    rwa [Complex.norm_conj] at this
  have hdC : (d : ℂ) ≠ 0 := by exact_mod_cast hdpos.ne'
  have hyC : y ≠ 0 := norm_pos_iff.mp hy0
  have hxy : x / y = x * (starRingEnd ℂ) y / ((‖y‖ ^ 2 : ℝ) : ℂ) := by
    rw [div_eq_div_iff hyC (by exact_mod_cast (pow_pos hy0 2).ne')]
    have : y * (starRingEnd ℂ) y = ((‖y‖ ^ 2 : ℝ) : ℂ) := by
      rw [Complex.mul_conj, Complex.normSq_eq_norm_sq]
    rw [← this]; ring
  have hQ : ‖P / d - x / y‖ ≤ 9 * uD * ‖x / y‖ + 8 * 2 ^ 40 * etaD := by
    have e1 : P / d - x / y = ((P - x * (starRingEnd ℂ) y) + (x / y) * (((‖y‖ ^ 2 - d : ℝ)) : ℂ)) / d := by
      rw [eq_div_iff hdC, sub_mul, div_mul_cancel₀ _ hdC]
      have : x / y * ((‖y‖ ^ 2 : ℝ) : ℂ) = x * (starRingEnd ℂ) y := by
        rw [hxy, div_mul_cancel₀ _ (by exact_mod_cast (pow_pos hy0 2).ne')]
      rw [Complex.ofReal_sub, mul_sub, this]; ring
    rw [e1, norm_div, Complex.norm_real, Real.norm_eq_abs, abs_of_pos hdpos, div_le_iff₀ hdpos]
    have n1 := norm_add_le (P - x * (starRingEnd ℂ) y) ((x / y) * (((‖y‖ ^ 2 - d : ℝ)) : ℂ))
    rw [norm_mul (x / y), Complex.norm_real, Real.norm_eq_abs, abs_sub_comm] at n1
    have n2 : ‖x‖ * ‖y‖ = ‖x / y‖ * ‖y‖ ^ 2 := by
      rw [norm_div]; field_simp
    rw [n2] at hp
    have n3 : ‖x / y‖ * |d - ‖y‖ ^ 2| ≤ ‖x / y‖ * (3 * uD * ‖y‖ ^ 2) :=
      mul_le_mul_of_nonneg_left hdd (norm_nonneg _)
    have n4 : (9 * uD * ‖x / y‖ + 8 * 2 ^ 40 * etaD) * (7 / 8 * ‖y‖ ^ 2) ≤
        (9 * uD * ‖x / y‖ + 8 * 2 ^ 40 * etaD) * d := mul_le_mul_of_nonneg_left hd0
          (add_nonneg (mul_nonneg (by linarith) (norm_nonneg _)) (mul_nonneg (by norm_num) e0.le))
    have n5 : etaD * (1 / 2 ^ 40) ≤ etaD * ‖y‖ ^ 2 := mul_le_mul_of_nonneg_left hD e0.le
    have n6 : 0 ≤ uD * (‖x / y‖ * ‖y‖ ^ 2) := mul_nonneg u0.le (mul_nonneg (norm_nonneg _) (sq_nonneg _))
    have n7 : etaD ≤ 2 ^ 40 * (etaD * ‖y‖ ^ 2) := by
      calc etaD = 2 ^ 40 * (etaD * (1 / 2 ^ 40)) := by ring
        _ ≤ _ := mul_le_mul_of_nonneg_left n5 (by norm_num)
    refine le_trans ?_ n4
    generalize ‖x / y‖ = w at *
    generalize ‖y‖ ^ 2 = D at *
    have : (9 * uD * w + 8 * 2 ^ 40 * etaD) * (7 / 8 * D) = 63 / 8 * (uD * (w * D)) + 7 * 2 ^ 40 * (etaD * D) := by ring
    rw [this]
    have : w * (3 * uD * D) = 3 * (uD * (w * D)) := by ring
    rw [this] at n3
    have e4 : 4 * uD * (w * D) = 4 * (uD * (w * D)) := by ring
    rw [e4] at hp
    generalize uD * (w * D) = V at *
    generalize etaD * D = V2 at *
    clear n5
    linarith
  have hR : ieeeDiv b x y = ⟨rnd ((P / d).re), rnd ((P / d).im)⟩ := by
    unfold ieeeDiv
    simp only [← hd, ← hP]
    rw [Complex.div_ofReal_re, Complex.div_ofReal_im]
  have h1 := norm_le_comp (e := ieeeDiv b x y - P / d) (x := P / d) u0.le e0.le
    (by rw [Complex.sub_re, hR]; exact rnd_errD _) (by rw [Complex.sub_im, hR]; exact rnd_errD _)
  have h2 : ‖P / d‖ ≤ ‖x / y‖ + ‖P / d - x / y‖ := by
    have := norm_add_le (x / y) (P / d - x / y)
    rwa [add_sub_cancel] at this
  have h3 := norm_sub_le_norm_sub_add_norm_sub (ieeeDiv b x y) (P / d) (x / y)
  have h4 : uD * ‖P / d‖ ≤ uD * ‖x / y‖ + 1 * ‖P / d - x / y‖ / 8 := by
    have a1 := mul_le_mul_of_nonneg_left h2 u0.le
    have a2 : uD * ‖P / d - x / y‖ ≤ 1 / 8 * ‖P / d - x / y‖ :=
      mul_le_mul_of_nonneg_right (by norm_num at u1; linarith) (norm_nonneg _)
    linarith
  have h5 : 12 * 2 ^ 40 * etaD ≤ tinyD := by
    have := etaD_le'
    have h6 : (12 : ℝ) * 2 ^ 40 * (1 / 2 ^ 100) ≤ 1 := by norm_num
    calc 12 * 2 ^ 40 * etaD ≤ 12 * 2 ^ 40 * (1 / 2 ^ 100 * tinyD) := mul_le_mul_of_nonneg_left this (by positivity)
      _ = (12 * 2 ^ 40 * (1 / 2 ^ 100)) * tinyD := by ring
      _ ≤ 1 * tinyD := mul_le_mul_of_nonneg_right h6 t0.le
      _ = _ := one_mul _
  have h7 : 0 ≤ uD * ‖x / y‖ := by positivity
  rw [mul_assoc] at hQ ⊢
  generalize uD * ‖x / y‖ = V at *
  generalize ‖P / d - x / y‖ = E at *
  norm_num at h5 hQ
  linarith

theorem bound_nonneg (a : ℝ) {x : ℝ} (ha : 0 ≤ a) (hx : 0 ≤ x) : 0 ≤ a * uD * x + tinyD :=
  add_nonneg (mul_nonneg (mul_nonneg ha uD_pos.le) hx) tinyD_pos.le

theorem bound_nonneg' {x : ℝ} (hx : 0 ≤ x) : 0 ≤ uD * x + tinyD :=
  add_nonneg (mul_nonneg uD_pos.le hx) tinyD_pos.le

/-- Exact arithmetic satisfies the bounds. -/
theorem accurate_exact : Accurate exactA where
  lit_int z := by
    show |((z : ℚ) : ℝ) - z| ≤ _
    rw [Rat.cast_intCast, sub_self, abs_zero]
    exact mul_nonneg uD_pos.le (abs_nonneg _)
  lit_small z _ := by show ((z : ℚ) : ℝ) = z; push_cast; rfl
  lit q := by
    show |(q : ℝ) - q| ≤ _
    rw [sub_self, abs_zero]; exact bound_nonneg' (by positivity)
  lit_pow n _ := by show ((1 / 2 ^ n : ℚ) : ℝ) = _; push_cast; rfl
  neg _ := rfl
  add x y := by
    show |x + y - (x + y)| ≤ _
    rw [sub_self, abs_zero]; exact bound_nonneg' (by positivity)
  div x y _ := by
    show |x / y - x / y| ≤ _
    rw [sub_self, abs_zero]; exact bound_nonneg' (by positivity)
  sqrt x := by
    show |Real.sqrt x - Real.sqrt x| ≤ _
    rw [sub_self, abs_zero]; exact bound_nonneg' (Real.sqrt_nonneg x)
  le x y := by show decide _ = true ↔ _; rw [decide_eq_true_iff]
  roundTo := rfl
  cx _ _ := rfl
  re _ := rfl
  cadd x y := by
    show ‖x + y - (x + y)‖ ≤ _
    rw [sub_self, norm_zero]; exact bound_nonneg' (by positivity)
  csub x y := by
    show ‖x - y - (x - y)‖ ≤ _
    rw [sub_self, norm_zero]; exact bound_nonneg' (by positivity)
  cmul x y := by
    show ‖x * y - x * y‖ ≤ _
    rw [sub_self, norm_zero]; exact bound_nonneg _ (by norm_num) (by positivity)
  cdiv x y _ := by
    show ‖x / y - x / y‖ ≤ _
    rw [sub_self, norm_zero]; exact bound_nonneg _ (by norm_num) (by positivity)
  cneg _ := rfl
  conj _ := rfl
  scale r z := by
    show ‖(r : ℂ) * z - r * z‖ ≤ _
    rw [sub_self, norm_zero]; exact bound_nonneg _ (by norm_num) (by positivity)
  tab k _ := by rw [sub_self, norm_zero]; exact mul_nonneg (by norm_num) uD_pos.le

/-- Binary64 arithmetic satisfies the bounds, with and without fused multiply-add. -/
theorem accurate_ieee (b : Bool) : Accurate (ieeeA b) := by
  have u0 := uD_pos
  have e0 := etaD_pos
  have t0 := tinyD_pos
  have e1 : 6 * etaD ≤ tinyD := by
    have := etaD_le'
    have : (1 / 2 ^ 100 : ℝ) * tinyD ≤ 1 / 6 * tinyD := mul_le_mul_of_nonneg_right (by norm_num) t0.le
    linarith
  refine
    { lit_int := ?_, lit_small := ?_, lit := ?_, lit_pow := ?_, neg := fun _ => rfl, add := ?_, div := ?_,
      sqrt := ?_, le := ?_,
      roundTo := rfl, cx := fun _ _ => rfl, re := fun _ => rfl, cadd := ?_, csub := ?_, cmul := ?_, cdiv := ?_,
      cneg := fun _ => rfl, conj := fun _ => rfl, scale := ?_, tab := ?_ }
  · intro z
    show |rnd (((z : ℚ) : ℝ)) - z| ≤ _
    rw [Rat.cast_intCast]
    by_cases hz : z = 0
    · subst hz; simp [rnd_zero]
    · have h1 : (1 : ℝ) ≤ |(z : ℝ)| := by exact_mod_cast Int.one_le_abs hz
      have := rnd_rel_err (x := (z : ℝ)) (le_trans (zpow_le_one_of_nonpos₀ (by norm_num) (by norm_num)) h1)
      have e : (2 : ℝ) ^ (-53 : ℤ) = uD := by unfold uD; rw [zpow_neg, one_div]; norm_cast
      rwa [e, mul_comm] at this
  · intro z hz
    show rnd (((z : ℚ) : ℝ)) = z
    rw [Rat.cast_intCast]
    exact rnd_of_rep (rep_int hz)
  · intro q
    have := rnd_errD (q : ℝ)
    show |rnd (q : ℝ) - q| ≤ _
    linarith
  · intro n hn
    show rnd ((((1 / 2 ^ n : ℚ)) : ℝ)) = _
    have : (((1 / 2 ^ n : ℚ)) : ℝ) = (2 : ℝ) ^ (-(n : ℤ)) := by
      push_cast
      rw [zpow_neg, one_div, zpow_natCast]
    rw [this, rnd_of_rep (rep_zpow (by omega)), zpow_neg, one_div, zpow_natCast]
  · intro x y
    have := rnd_errD (x + y)
    show |rnd (x + y) - (x + y)| ≤ _
    linarith
  · intro x y _
    have := rnd_errD (x / y)
    show |rnd (x / y) - (x / y)| ≤ _
    linarith
  · intro x
    have := rnd_errD (Real.sqrt x)
    rw [abs_of_nonneg (Real.sqrt_nonneg x)] at this
    show |rnd (Real.sqrt x) - Real.sqrt x| ≤ _
    linarith
  · intro x y
    show decide _ = true ↔ _
    rw [decide_eq_true_iff]
  · intro x y
    have := norm_le_comp (e := (ieeeA b).cadd x y - (x + y)) (x := x + y) u0.le e0.le
      (rnd_errD (x.re + y.re)) (rnd_errD (x.im + y.im))
    linarith
  · intro x y
    have := norm_le_comp (e := (ieeeA b).csub x y - (x - y)) (x := x - y) u0.le e0.le
      (rnd_errD (x.re - y.re)) (rnd_errD (x.im - y.im))
    linarith
  · intro x y
    have := ieeeMul_err b x y
    show ‖ieeeMul b x y - x * y‖ ≤ _
    linarith
  · intro x y hy
    exact ieeeDiv_err b x y hy
  · intro r z
    have := norm_le_comp (e := (ieeeA b).scale r z - r * z) (x := r * z) u0.le e0.le
      (by rw [Complex.sub_re, Complex.re_ofReal_mul]; exact rnd_errD (r * z.re))
      (by rw [Complex.sub_im, Complex.im_ofReal_mul]; exact rnd_errD (r * z.im))
    have p : 0 ≤ uD * ‖(r : ℂ) * z‖ := by positivity
    linarith
  · intro k hk
    have h := (C43_root_table k hk).2
    set θ := Real.pi * revBits 10 k / 1024 with hθ
    have ht : exactA.tab k = Complex.exp (θ * Complex.I) := by
      show Complex.exp _ = _
      congr 1
      rw [hθ]; push_cast; ring
    have hu : (1 / 2 ^ 51 : ℝ) = 4 * uD := by unfold uD; norm_num
    rw [hu] at h
    have h1 := norm_le_max (e := (ieeeA b).tab k - exactA.tab k) (M := 4 * uD)
      (by rw [ht, Complex.sub_re, Complex.exp_ofReal_mul_I_re]; exact h.1)
      (by rw [ht, Complex.sub_im, Complex.exp_ofReal_mul_I_im]; exact h.2)
    linarith

end Falcon
