import Verif.Proofs.FloatVec

/-!
# One step of the LDL* tree in floating point

In exact arithmetic the step replaces the values a, b at two opposite points by their arithmetic and their harmonic mean.
-/

namespace Falcon

/-- The harmonic mean is monotone and homogeneous. -/
theorem hm_near {a b A B e : ℝ} (ha : 0 < a) (hb : 0 < b) (he : e < 1) (hA : |A - a| ≤ e * a) (hB : |B - b| ≤ e * b) :
    |2 * A * B / (A + B) - 2 * a * b / (a + b)| ≤ e * (2 * a * b / (a + b)) := by
  rw [abs_le] at hA hB
  have hA0 : 0 < A := by nlinarith
  have hB0 : 0 < B := by nlinarith
  have hs : 0 < a + b := by linarith
  have hS : 0 < A + B := by linarith
  have up : 2 * A * B / (A + B) ≤ (1 + e) * (2 * a * b / (a + b)) := by
    rw [← mul_div_assoc, div_le_div_iff₀ hS hs]
    have h1 : A * (B * b) ≤ ((1 + e) * a) * (B * b) := mul_le_mul_of_nonneg_right (by linarith) (by positivity)
    have h2 : B * (A * a) ≤ ((1 + e) * b) * (A * a) := mul_le_mul_of_nonneg_right (by linarith) (by positivity)
    nlinarith
  have lo : (1 - e) * (2 * a * b / (a + b)) ≤ 2 * A * B / (A + B) := by
    rw [← mul_div_assoc, div_le_div_iff₀ hs hS]
    have h1 : ((1 - e) * a) * (B * b) ≤ A * (B * b) := mul_le_mul_of_nonneg_right (by linarith) (by positivity)
    have h2 : ((1 - e) * b) * (A * a) ≤ B * (A * a) := mul_le_mul_of_nonneg_right (by linarith) (by positivity)
    nlinarith
  rw [abs_le]
  constructor <;> linarith

/-- `x` is the positive number `a`, up to a relative error of the real part and an error of the imaginary part. -/
def NearPos (e i : ℝ) (x : ℂ) (a : ℝ) : Prop := |x.re - a| ≤ e * a ∧ |x.im| ≤ i

theorem NearPos.mono {e e' i i' a : ℝ} {x : ℂ} (h : NearPos e i x a) (he : e ≤ e') (hi : i ≤ i') (ha : 0 ≤ a) : NearPos e' i' x a :=
  ⟨h.1.trans (mul_le_mul_of_nonneg_right he ha), h.2.trans hi⟩

/-- The real and the imaginary part of the second diagonal entry, from those of the first half and from the square
of the second. -/
theorem schur_real {R I E mr mi pr i d0 d1 : ℝ} (hR : |R - pr| ≤ d0) (hI : |I| ≤ i + d0) (hmr : |mr| ≤ pr) (hmi : |mi| ≤ i)
    (hpr : 38 / 5 ≤ pr) (hE : |E - (mr ^ 2 + mi ^ 2)| ≤ d1 * (3 * pr)) (hd0 : d0 ≤ 1 / 2 ^ 25) (hd1 : d1 ≤ 1 / 2 ^ 23)
    (hd1' : 0 ≤ d1) (hi : i ≤ 1 / 4) (hi0 : 0 ≤ i) :
    |(R - E / (R ^ 2 + I ^ 2) * R) - (pr - mr ^ 2 / pr)| ≤ 1 / 2 ^ 20 + 21 / 10 * i ^ 2 / pr := by
  have hd00 : 0 ≤ d0 := (abs_nonneg _).trans hR
  rw [abs_le] at hR
  have hR0 : 0 < R := by norm_num at hd0; linarith
  have hRp : 999 / 1000 * pr ≤ R := by norm_num at hd0; linarith
  have hp0 : 0 < pr := by linarith
  have hS : 0 < R ^ 2 + I ^ 2 := by positivity
  have hi2 : mi ^ 2 ≤ i ^ 2 := by
    have := pow_le_pow_left₀ (abs_nonneg _) hmi 2
    rwa [sq_abs] at this
  have hI2 : I ^ 2 ≤ i ^ 2 + 1 / 2 ^ 24 := by
    have := pow_le_pow_left₀ (abs_nonneg _) hI 2
    rw [sq_abs] at this
    have h2 : i * d0 ≤ 1 / 4 * (1 / 2 ^ 25) := mul_le_mul hi hd0 hd00 (by norm_num)
    have h3 : d0 * d0 ≤ 1 / 2 ^ 25 * (1 / 2 ^ 25) := mul_le_mul hd0 hd0 hd00 (by norm_num)
    refine this.trans ?_
    norm_num at h2 h3 ⊢
    nlinarith
  have hmr2 : mr ^ 2 ≤ pr ^ 2 := by
    have := pow_le_pow_left₀ (abs_nonneg _) hmr 2
    rwa [sq_abs] at this
  have hinv : 1 / (R ^ 2 + I ^ 2) ≤ 1 / R ^ 2 := one_div_le_one_div_of_le (by positivity) (by nlinarith [sq_nonneg I])
  have hq : R / (R ^ 2 + I ^ 2) ≤ 1001 / 999 / pr := by
    have h1 : R / (R ^ 2 + I ^ 2) ≤ 1 / R := by
      rw [div_le_div_iff₀ hS hR0]; nlinarith [sq_nonneg I]
    refine h1.trans ?_
    rw [div_div, div_le_div_iff₀ hR0 (by positivity)]
    linarith
  have hq0 : 0 ≤ R / (R ^ 2 + I ^ 2) := by positivity
  have e : (R - E / (R ^ 2 + I ^ 2) * R) - (pr - mr ^ 2 / pr)
      = (R - pr) - (E - (mr ^ 2 + mi ^ 2)) * (R / (R ^ 2 + I ^ 2)) - mi ^ 2 * (R / (R ^ 2 + I ^ 2))
        + mr ^ 2 * (I ^ 2 / (R * (R ^ 2 + I ^ 2))) + mr ^ 2 * ((R - pr) / (R * pr)) := by
    field_simp
    ring
  have b1 : |(E - (mr ^ 2 + mi ^ 2)) * (R / (R ^ 2 + I ^ 2))| ≤ 1 / 2 ^ 21 := by
    rw [abs_mul, abs_of_nonneg hq0]
    have : |E - (mr ^ 2 + mi ^ 2)| * (R / (R ^ 2 + I ^ 2)) ≤ d1 * (3 * pr) * (1001 / 999 / pr) :=
      mul_le_mul hE hq hq0 (by positivity)
    refine this.trans ?_
    rw [show d1 * (3 * pr) * (1001 / 999 / pr) = d1 * (3 * (1001 / 999)) by field_simp]
    norm_num at hd1 ⊢
    linarith
  have b2 : mi ^ 2 * (R / (R ^ 2 + I ^ 2)) ≤ i ^ 2 * (1001 / 999 / pr) := mul_le_mul hi2 hq hq0 (by positivity)
  have b3 : mr ^ 2 * (I ^ 2 / (R * (R ^ 2 + I ^ 2))) ≤ (i ^ 2 + 1 / 2 ^ 24) * (101 / 100 / pr) := by
    have : mr ^ 2 * (I ^ 2 / (R * (R ^ 2 + I ^ 2))) = I ^ 2 * (mr ^ 2 / (R * (R ^ 2 + I ^ 2))) := by ring
    rw [this]
    refine mul_le_mul hI2 ?_ (by positivity) (by positivity)
    rw [div_div, div_le_div_iff₀ (by positivity) (by positivity)]
    have h1 : mr ^ 2 * (100 * pr) ≤ pr ^ 2 * (100 * pr) := by gcongr
    have h2 : R * R ^ 2 ≤ R * (R ^ 2 + I ^ 2) := by gcongr; nlinarith [sq_nonneg I]
    have h3 : (999 / 1000 * pr) ^ 3 ≤ R ^ 3 := pow_le_pow_left₀ (by positivity) hRp 3
    have h4 : 0 ≤ pr ^ 3 := by positivity
    nlinarith
  have b4 : |mr ^ 2 * ((R - pr) / (R * pr))| ≤ 1001 / 999 * d0 := by
    rw [abs_mul, abs_div, abs_of_nonneg (sq_nonneg mr), abs_of_pos (by positivity : 0 < R * pr)]
    have h1 : |R - pr| ≤ d0 := abs_le.mpr hR
    rw [← mul_div_assoc, div_le_iff₀ (by positivity)]
    have h2 : mr ^ 2 * |R - pr| ≤ pr ^ 2 * d0 := mul_le_mul hmr2 h1 (abs_nonneg _) (by positivity)
    have h3 : pr ^ 2 * d0 ≤ 1001 / 999 * d0 * (R * pr) := by
      have : 0 ≤ pr * d0 := by positivity
      nlinarith
    linarith
  have n2 : 0 ≤ mi ^ 2 * (R / (R ^ 2 + I ^ 2)) := by positivity
  have n3 : 0 ≤ mr ^ 2 * (I ^ 2 / (R * (R ^ 2 + I ^ 2))) := by positivity
  rw [e]
  rw [abs_le] at b1 b4
  have c3 : (i ^ 2 + 1 / 2 ^ 24) * (101 / 100 / pr) = 101 / 100 * (i ^ 2 * (1 / pr)) + 1 / 2 ^ 24 * (101 / 100) * (1 / pr) := by ring
  have c2 : i ^ 2 * (1001 / 999 / pr) = 1001 / 999 * (i ^ 2 * (1 / pr)) := by ring
  have c4 : 21 / 10 * i ^ 2 / pr = 21 / 10 * (i ^ 2 * (1 / pr)) := by ring
  rw [c3] at b3
  rw [c2] at b2
  rw [c4]
  have hpi : 0 ≤ i ^ 2 * (1 / pr) := by positivity
  have hp1 : 1 / pr ≤ 1 := by rw [div_le_one hp0]; linarith
  generalize i ^ 2 * (1 / pr) = Q at *
  generalize 1 / pr = P at *
  generalize (E - (mr ^ 2 + mi ^ 2)) * (R / (R ^ 2 + I ^ 2)) = t1 at *
  generalize mi ^ 2 * (R / (R ^ 2 + I ^ 2)) = t2 at *
  generalize mr ^ 2 * (I ^ 2 / (R * (R ^ 2 + I ^ 2))) = t3 at *
  generalize mr ^ 2 * ((R - pr) / (R * pr)) = t4 at *
  clear * - hR b1 b2 b3 b4 hpi hp1 n2 n3 hd0
  rw [abs_le]
  norm_num at *
  constructor <;> linarith

theorem NearPos.bounds {e i a : ℝ} {x : ℂ} (h : NearPos e i x a) (he : e ≤ 1 / 25) (hi : i ≤ 1 / 4) (ha : 8 ≤ a)
    (ha' : a ≤ 2 ^ 25) : 192 / 25 ≤ x.re ∧ x.re ≤ 26 / 25 * 2 ^ 25 ∧ |x.im| ≤ 1 / 4 ∧ ‖x‖ ≤ 35000000 := by
  have h1 := abs_le.mp h.1
  have h2 : e * a ≤ 1 / 25 * a := mul_le_mul_of_nonneg_right he (by linarith)
  have h3 := h.2.trans hi
  have h4 := Complex.norm_le_abs_re_add_abs_im x
  have h5 : 192 / 25 ≤ x.re := by linarith
  have h6 : x.re ≤ 26 / 25 * 2 ^ 25 := by linarith
  refine ⟨h5, h6, h3, ?_⟩
  rw [abs_of_pos (by linarith)] at h4
  norm_num at *
  linarith

variable {A : Arith ℝ ℂ} (hA : Accurate A)
include hA

theorem lit_half : A.lit (1 / 2) = 1 / 2 := by
  have := hA.lit_pow 1 (by norm_num)
  simpa using this

/-- First half. -/
theorem half_add {x y : ℂ} (hx : ‖x‖ ≤ 35000000) (hy : ‖y‖ ≤ 35000000) :
    ‖A.scale (A.lit (1 / 2)) (A.cadd x y) - (x + y) / 2‖ ≤ 1 / 2 ^ 25 := by
  have h1 := hA.cadd x y
  have h2 := hA.scale (A.lit (1 / 2)) (A.cadd x y)
  rw [lit_half hA] at h2 ⊢
  generalize A.cadd x y = s at *
  generalize A.scale (1 / 2) s = e at *
  have h3 := norm_add_le x y
  have h4 : ((1 / 2 : ℝ) : ℂ) * s = s / 2 := by push_cast; ring
  rw [h4] at h2
  have h5 : e - (x + y) / 2 = (e - s / 2) + (s - (x + y)) / 2 := by ring
  have h6 : ‖s‖ ≤ ‖x + y‖ + ‖s - (x + y)‖ := by
    calc ‖s‖ = ‖(x + y) + (s - (x + y))‖ := by rw [add_sub_cancel]
      _ ≤ _ := norm_add_le _ _
  rw [h5]
  refine (norm_add_le _ _).trans ?_
  rw [norm_div, Complex.norm_ofNat] at h2 ⊢
  generalize ‖s - (x + y)‖ = a1 at *
  generalize ‖e - s / 2‖ = a2 at *
  generalize ‖x + y‖ = a3 at *
  generalize ‖s‖ = a4 at *
  generalize ‖x‖ = a5 at *
  generalize ‖y‖ = a6 at *
  clear * - h1 h2 h3 h6 hx hy
  rw [show uD = 1 / 2 ^ 53 from rfl, show tinyD = 1 / 2 ^ 100 from rfl] at *
  norm_num at *
  linarith

/-- Half of the difference. -/
theorem half_sub {x y : ℂ} (hx : ‖x‖ ≤ 35000000) (hy : ‖y‖ ≤ 35000000) :
    ‖A.scale (A.lit (1 / 2)) (A.csub x y) - (x - y) / 2‖ ≤ 1 / 2 ^ 25 := by
  have h1 := hA.csub x y
  have h2 := hA.scale (A.lit (1 / 2)) (A.csub x y)
  rw [lit_half hA] at h2 ⊢
  generalize A.csub x y = s at *
  generalize A.scale (1 / 2) s = e at *
  have h3 := norm_sub_le x y
  have h4 : ((1 / 2 : ℝ) : ℂ) * s = s / 2 := by push_cast; ring
  rw [h4] at h2
  have h5 : e - (x - y) / 2 = (e - s / 2) + (s - (x - y)) / 2 := by ring
  have h6 : ‖s‖ ≤ ‖x - y‖ + ‖s - (x - y)‖ := by
    calc ‖s‖ = ‖(x - y) + (s - (x - y))‖ := by rw [add_sub_cancel]
      _ ≤ _ := norm_add_le _ _
  rw [h5]
  refine (norm_add_le _ _).trans ?_
  rw [norm_div, Complex.norm_ofNat] at h2 ⊢
  generalize ‖s - (x - y)‖ = a1 at *
  generalize ‖e - s / 2‖ = a2 at *
  generalize ‖x - y‖ = a3 at *
  generalize ‖s‖ = a4 at *
  generalize ‖x‖ = a5 at *
  generalize ‖y‖ = a6 at *
  clear * - h1 h2 h3 h6 hx hy
  rw [show uD = 1 / 2 ^ 53 from rfl, show tinyD = 1 / 2 ^ 100 from rfl] at *
  norm_num at *
  linarith

/-- Product with a conjugated table entry. -/
theorem conjtab_err {k : ℕ} (hk : k < 1024) (y : ℂ) :
    ‖A.cmul y (A.conj (A.tab k)) - (starRingEnd ℂ) (cT k) * y‖ ≤ 21 / 2 * uD * ‖y‖ + tinyD := by
  have h0 := hA.cmul y (A.conj (A.tab k))
  rw [hA.conj] at h0 ⊢
  rw [RCLike.norm_conj] at h0
  have h1 := tab_err hA hk
  have h2 := tab_norm hA hk
  generalize A.cmul y ((starRingEnd ℂ) (A.tab k)) = w at *
  have h3 : w - (starRingEnd ℂ) (cT k) * y = (w - y * (starRingEnd ℂ) (A.tab k)) + (starRingEnd ℂ) (A.tab k - cT k) * y := by
    rw [map_sub]; ring
  rw [h3]
  refine (norm_add_le _ _).trans ?_
  rw [norm_mul, RCLike.norm_conj]
  have hy := norm_nonneg y
  have e1 : ‖A.tab k - cT k‖ * ‖y‖ ≤ 6 * uD * ‖y‖ := mul_le_mul_of_nonneg_right h1 hy
  have e2 : ‖y‖ * ‖A.tab k‖ ≤ ‖y‖ * (1 + 6 * uD) := mul_le_mul_of_nonneg_left h2 hy
  have hu : uD = 1 / 2 ^ 53 := rfl
  have e3 : 4 * uD * (‖y‖ * ‖A.tab k‖) ≤ 4 * uD * (‖y‖ * (1 + 6 * uD)) :=
    mul_le_mul_of_nonneg_left e2 (by rw [hu]; positivity)
  generalize ‖y‖ * ‖A.tab k‖ = P at *
  generalize ‖A.tab k - cT k‖ * ‖y‖ = Q at *
  generalize ‖w - y * (starRingEnd ℂ) (A.tab k)‖ = W at *
  generalize ‖y‖ = Y at *
  clear * - h0 e1 e3 hu hy
  rw [hu] at *
  norm_num at *
  linarith

/-- The second half, in modulus. -/
theorem half_snd {x y : ℂ} (hx : ‖x‖ ≤ 35000000) (hy : ‖y‖ ≤ 35000000) {k : ℕ} (hk : k < 1024) :
    |‖A.cmul (A.scale (A.lit (1 / 2)) (A.csub x y)) (A.conj (A.tab k))‖ - ‖(x - y) / 2‖| ≤ 1 / 2 ^ 23 := by
  have h1 := half_sub hA hx hy
  generalize A.scale (A.lit (1 / 2)) (A.csub x y) = h at *
  have h2 := conjtab_err hA hk h
  generalize A.cmul h (A.conj (A.tab k)) = e at *
  have h3 : ‖(starRingEnd ℂ) (cT k) * h‖ = ‖h‖ := by rw [norm_mul, RCLike.norm_conj, cT_norm, one_mul]
  have h4 := abs_norm_sub_norm_le e ((starRingEnd ℂ) (cT k) * h)
  have h5 := abs_norm_sub_norm_le h ((x - y) / 2)
  have h6 : ‖(x - y) / 2‖ ≤ 35000000 := by
    rw [norm_div, Complex.norm_ofNat]
    have := norm_sub_le x y
    linarith
  rw [h3] at h4
  replace h4 := h4.trans h2
  replace h5 := h5.trans h1
  rw [abs_le] at h4 h5 ⊢
  generalize ‖e‖ = a1 at *
  generalize ‖h‖ = a2 at *
  generalize ‖(x - y) / 2‖ = a3 at *
  clear * - h4 h5 h6
  rw [show uD = 1 / 2 ^ 53 from rfl, show tinyD = 1 / 2 ^ 100 from rfl] at *
  norm_num at *
  constructor <;> linarith

/-- The modulus of the computed quotient, and the error of the second diagonal entry against the
exact one of the computed halves. -/
theorem schur_err {e0 e1 c : ℂ} (hc : ‖c‖ = ‖e1‖) {E : ℝ} (hE : ‖e0‖ ≤ E) (hE1 : 1 ≤ E) (h0 : 1 / 2 ^ 20 ≤ ‖e0‖)
    (hle : ‖e1‖ ≤ (1 + 1 / 2 ^ 21) * ‖e0‖) :
    ‖A.cdiv c e0‖ ≤ 101 / 100 ∧
    ‖A.csub (A.conj e0) (A.cmul (A.cmul (A.cdiv c e0) (A.conj (A.cdiv c e0))) e0)
      - ((starRingEnd ℂ) e0 - ((‖e1‖ ^ 2 / ‖e0‖ ^ 2 : ℝ) : ℂ) * e0)‖ ≤ 60 * uD * E := by
  have hp : 0 < ‖e0‖ := lt_of_lt_of_le (by norm_num) h0
  have h1 := hA.cdiv c e0 h0
  have h2 := hA.cmul (A.cdiv c e0) (A.conj (A.cdiv c e0))
  have h3 := hA.cmul (A.cmul (A.cdiv c e0) (A.conj (A.cdiv c e0))) e0
  have h4 := hA.csub (A.conj e0) (A.cmul (A.cmul (A.cdiv c e0) (A.conj (A.cdiv c e0))) e0)
  rw [hA.conj, hA.conj] at h4 ⊢
  rw [hA.conj] at h2 h3
  generalize A.cdiv c e0 = l at *
  generalize A.cmul l ((starRingEnd ℂ) l) = q1 at *
  generalize A.cmul q1 e0 = q2 at *
  generalize A.csub ((starRingEnd ℂ) e0) q2 = w at *
  rw [RCLike.norm_conj] at h2
  have hll : l * (starRingEnd ℂ) l = ((‖l‖ ^ 2 : ℝ) : ℂ) := by
    rw [Complex.mul_conj, Complex.normSq_eq_norm_sq]
  rw [hll] at h2
  have hρ : ‖c / e0‖ ≤ 1 + 1 / 2 ^ 21 := by
    rw [norm_div, hc, div_le_iff₀ hp]; exact hle
  have hρ2 : ‖e1‖ ^ 2 / ‖e0‖ ^ 2 = ‖c / e0‖ ^ 2 := by rw [norm_div, hc, div_pow]
  rw [hρ2]
  have hr0 := norm_nonneg (c / e0)
  have h5 := (abs_norm_sub_norm_le l (c / e0)).trans h1
  generalize ‖c / e0‖ = r at *
  have hu : uD = 1 / 2 ^ 53 := rfl
  have ht : tinyD = 1 / 2 ^ 100 := rfl
  have h6 : |‖l‖ - r| ≤ 17 * uD := by
    refine h5.trans ?_
    rw [hu, ht]
    norm_num at *
    linarith
  have hl0 := norm_nonneg l
  generalize ‖l‖ = L at *
  have hL : L ≤ 1 + 1 / 2 ^ 20 := by
    have := (abs_le.mp h6).2
    rw [hu] at this
    norm_num at *
    linarith
  refine ⟨by norm_num at hL ⊢; linarith, ?_⟩
  have h7 : |L ^ 2 - r ^ 2| ≤ 35 * uD := by
    have : L ^ 2 - r ^ 2 = (L - r) * (L + r) := by ring
    rw [this, abs_mul, abs_of_nonneg (by linarith : 0 ≤ L + r)]
    have h8 : |L - r| * (L + r) ≤ 17 * uD * (2 + 1 / 2 ^ 18) := by
      refine mul_le_mul h6 ?_ (by linarith) (by rw [hu]; positivity)
      norm_num at *; linarith
    refine h8.trans ?_
    rw [hu]; norm_num
  have h9 : ‖q1 - ((r ^ 2 : ℝ) : ℂ)‖ ≤ 40 * uD := by
    have e : q1 - ((r ^ 2 : ℝ) : ℂ) = (q1 - ((L ^ 2 : ℝ) : ℂ)) + ((L ^ 2 - r ^ 2 : ℝ) : ℂ) := by push_cast; ring
    rw [e]
    refine (norm_add_le _ _).trans ?_
    rw [Complex.norm_real, Real.norm_eq_abs]
    have hLL : L * L ≤ 1 + 1 / 2 ^ 18 := by
      have : L * L ≤ (1 + 1 / 2 ^ 20) * (1 + 1 / 2 ^ 20) := mul_le_mul hL hL hl0 (by norm_num)
      refine this.trans ?_
      norm_num
    have : 4 * uD * (L * L) + tinyD ≤ 9 / 2 * uD := by
      rw [hu, ht]; norm_num at *; linarith
    linarith
  have hr2 : r ^ 2 ≤ 1 + 1 / 2 ^ 19 := by
    have : r ^ 2 ≤ (1 + 1 / 2 ^ 21) ^ 2 := pow_le_pow_left₀ hr0 hρ 2
    refine this.trans ?_
    norm_num
  have hr20 : 0 ≤ r ^ 2 := sq_nonneg r
  have hq1 : ‖q1‖ ≤ 11 / 10 := by
    have e : q1 = ((r ^ 2 : ℝ) : ℂ) + (q1 - ((r ^ 2 : ℝ) : ℂ)) := by ring
    have := norm_add_le ((r ^ 2 : ℝ) : ℂ) (q1 - ((r ^ 2 : ℝ) : ℂ))
    rw [← e, Complex.norm_real, Real.norm_eq_abs, abs_of_nonneg hr20] at this
    rw [hu] at h9
    norm_num at *
    linarith
  have hq2 : ‖q2 - ((r ^ 2 : ℝ) : ℂ) * e0‖ ≤ 45 * uD * E := by
    have e : q2 - ((r ^ 2 : ℝ) : ℂ) * e0 = (q2 - q1 * e0) + (q1 - ((r ^ 2 : ℝ) : ℂ)) * e0 := by ring
    rw [e]
    refine (norm_add_le _ _).trans ?_
    rw [norm_mul]
    have a1 : ‖q1 - ((r ^ 2 : ℝ) : ℂ)‖ * ‖e0‖ ≤ 40 * uD * E := mul_le_mul h9 hE hp.le (by rw [hu]; positivity)
    have a2 : ‖q1‖ * ‖e0‖ ≤ 11 / 10 * E := mul_le_mul hq1 hE hp.le (by norm_num)
    generalize ‖q1 - ((r ^ 2 : ℝ) : ℂ)‖ * ‖e0‖ = b1 at *
    generalize ‖q1‖ * ‖e0‖ = b2 at *
    generalize ‖q2 - q1 * e0‖ = b3 at *
    clear * - h3 a1 a2 hE1 hu ht
    rw [hu, ht] at *
    norm_num at *
    linarith
  have hd : ‖(starRingEnd ℂ) e0 - q2‖ ≤ 23 / 10 * E := by
    have e : (starRingEnd ℂ) e0 - q2 = (starRingEnd ℂ) e0 - ((r ^ 2 : ℝ) : ℂ) * e0 - (q2 - ((r ^ 2 : ℝ) : ℂ) * e0) := by ring
    have := norm_sub_le ((starRingEnd ℂ) e0 - ((r ^ 2 : ℝ) : ℂ) * e0) (q2 - ((r ^ 2 : ℝ) : ℂ) * e0)
    rw [← e] at this
    have h2 := norm_sub_le ((starRingEnd ℂ) e0) (((r ^ 2 : ℝ) : ℂ) * e0)
    rw [RCLike.norm_conj, norm_mul, Complex.norm_real, Real.norm_eq_abs, abs_of_nonneg hr20] at h2
    have h3 : r ^ 2 * ‖e0‖ ≤ (1 + 1 / 2 ^ 19) * E := mul_le_mul hr2 hE hp.le (by norm_num)
    rw [hu] at hq2
    norm_num at *
    linarith
  have e : w - ((starRingEnd ℂ) e0 - ((r ^ 2 : ℝ) : ℂ) * e0)
      = (w - ((starRingEnd ℂ) e0 - q2)) - (q2 - ((r ^ 2 : ℝ) : ℂ) * e0) := by ring
  rw [e]
  refine (norm_sub_le _ _).trans ?_
  generalize ‖w - ((starRingEnd ℂ) e0 - q2)‖ = b1 at *
  generalize ‖q2 - ((r ^ 2 : ℝ) : ℂ) * e0‖ = b2 at *
  generalize ‖(starRingEnd ℂ) e0 - q2‖ = b3 at *
  clear * - h4 hq2 hd hE1 hu ht
  rw [hu, ht] at *
  norm_num at *
  linarith

set_option maxHeartbeats 1000000 in
/-- One step with the growth of the error: the arithmetic mean, the harmonic mean and the quotient. -/
theorem step_sharp {a b e i : ℝ} {x y : ℂ} (ha : 8 ≤ a) (ha' : a ≤ 2 ^ 25) (hb : 8 ≤ b) (hb' : b ≤ 2 ^ 25)
    (hx : NearPos e i x a) (hy : NearPos e i y b) (he : e + 1 / 300 ≤ 1 / 25) (hi : 2 * i + 1 / 2 ^ 16 ≤ 1 / 4)
    {e0 e1 c : ℂ} {k : ℕ} (hk : k < 1024)
    (h0 : e0 = A.scale (A.lit (1 / 2)) (A.cadd x y))
    (h1 : e1 = A.cmul (A.scale (A.lit (1 / 2)) (A.csub x y)) (A.conj (A.tab k)))
    (hc : ‖c‖ = ‖e1‖) :
    NearPos (e + (1 / 2 ^ 22 + i ^ 2 / 26)) (2 * i + 1 / 2 ^ 16) e0 ((a + b) / 2) ∧
    NearPos (e + (1 / 2 ^ 22 + i ^ 2 / 26)) (2 * i + 1 / 2 ^ 16)
      (A.csub (A.conj e0) (A.cmul (A.cmul (A.cdiv c e0) (A.conj (A.cdiv c e0))) e0)) (2 * a * b / (a + b)) ∧
    ‖A.cdiv c e0‖ ≤ 101 / 100 := by
  have hi0 : 0 ≤ i := (abs_nonneg _).trans hx.2
  have hi4 : i ≤ 1 / 4 := by norm_num at hi; linarith
  obtain ⟨bx1, bx2, bx3, bx4⟩ := hx.bounds (by linarith) hi4 ha ha'
  obtain ⟨by1, by2, by3, by4⟩ := hy.bounds (by linarith) hi4 hb hb'
  have n0 := half_add hA bx4 by4
  have n1 := half_snd hA bx4 by4 hk
  rw [← h0] at n0
  rw [← h1] at n1
  clear h0 h1
  have pre : ((x + y) / 2).re = (x.re + y.re) / 2 := by
    rw [show ((2 : ℂ)) = ((2 : ℝ) : ℂ) by norm_num, Complex.div_ofReal_re, Complex.add_re]
  have pim : ((x + y) / 2).im = (x.im + y.im) / 2 := by
    rw [show ((2 : ℂ)) = ((2 : ℝ) : ℂ) by norm_num, Complex.div_ofReal_im, Complex.add_im]
  have mre : ((x - y) / 2).re = (x.re - y.re) / 2 := by
    rw [show ((2 : ℂ)) = ((2 : ℝ) : ℂ) by norm_num, Complex.div_ofReal_re, Complex.sub_re]
  have mim : ((x - y) / 2).im = (x.im - y.im) / 2 := by
    rw [show ((2 : ℂ)) = ((2 : ℝ) : ℂ) by norm_num, Complex.div_ofReal_im, Complex.sub_im]
  have hxr := abs_le.mp hx.1
  have hyr := abs_le.mp hy.1
  have hxi := abs_le.mp hx.2
  have hyi := abs_le.mp hy.2
  -- the first half
  have R0 : |e0.re - (x.re + y.re) / 2| ≤ 1 / 2 ^ 25 := by
    have := Complex.abs_re_le_norm (e0 - (x + y) / 2)
    rw [Complex.sub_re, pre] at this
    exact this.trans n0
  have I0 : |e0.im| ≤ i + 1 / 2 ^ 25 := by
    have := (Complex.abs_im_le_norm (e0 - (x + y) / 2)).trans n0
    rw [Complex.sub_im, pim, abs_le] at this
    rw [abs_le]
    constructor <;> linarith
  have sumre : |(x.re + y.re) / 2 - (a + b) / 2| ≤ e * ((a + b) / 2) := by
    rw [abs_le]; constructor <;> linarith
  have first : NearPos (e + (1 / 2 ^ 22 + i ^ 2 / 26)) (2 * i + 1 / 2 ^ 16) e0 ((a + b) / 2) := by
    constructor
    · have hq : 0 ≤ i ^ 2 / 26 * ((a + b) / 2) := by positivity
      rw [abs_le] at R0 sumre ⊢
      rw [add_mul, add_mul]
      norm_num at R0 ⊢
      constructor <;> linarith
    · refine I0.trans ?_
      norm_num
      linarith
  refine ⟨first, ?_⟩
  -- norms
  have hP : 192 / 25 ≤ ‖(x + y) / 2‖ := by
    have := Complex.re_le_norm ((x + y) / 2)
    rw [pre] at this
    linarith
  have hP' : ‖(x + y) / 2‖ ≤ 35000000 := by
    rw [norm_div, Complex.norm_ofNat]
    have := norm_add_le x y
    linarith
  have hMP : ‖(x - y) / 2‖ ≤ ‖(x + y) / 2‖ := by
    rw [Complex.norm_def, Complex.norm_def]
    apply Real.sqrt_le_sqrt
    rw [Complex.normSq_apply, Complex.normSq_apply, pre, pim, mre, mim]
    have : 0 ≤ x.re * y.re + x.im * y.im := by
      have h1 : (192 / 25) * (192 / 25) ≤ x.re * y.re := mul_le_mul bx1 by1 (by norm_num) (by linarith)
      have h2 : |x.im * y.im| ≤ 1 / 4 * (1 / 4) := by
        rw [abs_mul]; exact mul_le_mul bx3 by3 (abs_nonneg _) (by norm_num)
      have := (abs_le.mp h2).1
      linarith
    nlinarith
  have N0 := abs_le.mp ((abs_norm_sub_norm_le e0 ((x + y) / 2)).trans n0)
  have N1 := abs_le.mp n1
  have hE : ‖e0‖ ≤ 36000000 := by
    generalize ‖(x + y) / 2‖ = P at *
    norm_num at N0; linarith
  have hE0 : 7 ≤ ‖e0‖ := by
    generalize ‖(x + y) / 2‖ = P at *
    norm_num at N0; linarith
  have hle : ‖e1‖ ≤ (1 + 1 / 2 ^ 21) * ‖e0‖ := by
    generalize ‖(x + y) / 2‖ = P at *
    generalize ‖(x - y) / 2‖ = M at *
    norm_num at N0 N1 ⊢
    linarith
  obtain ⟨hl, hs⟩ := schur_err hA hc hE (by norm_num) (le_trans (by norm_num) hE0) hle
  refine ⟨?_, hl⟩
  generalize A.csub (A.conj e0) (A.cmul (A.cmul (A.cdiv c e0) (A.conj (A.cdiv c e0))) e0) = w at *
  have hs' : 60 * uD * 36000000 ≤ 1 / 2 ^ 21 := by
    rw [show uD = 1 / 2 ^ 53 from rfl]; norm_num
  replace hs := hs.trans hs'
  have hρ : ‖e1‖ ^ 2 / ‖e0‖ ^ 2 ≤ 1 + 1 / 2 ^ 19 := by
    rw [← div_pow]
    have h1 : ‖e1‖ / ‖e0‖ ≤ 1 + 1 / 2 ^ 21 := by rw [div_le_iff₀ (by linarith)]; exact hle
    refine (pow_le_pow_left₀ (by positivity) h1 2).trans ?_
    norm_num
  have hρ0 : 0 ≤ ‖e1‖ ^ 2 / ‖e0‖ ^ 2 := by positivity
  have hre := (Complex.abs_re_le_norm _).trans hs
  have him := (Complex.abs_im_le_norm _).trans hs
  simp only [Complex.sub_re, Complex.conj_re, Complex.re_ofReal_mul] at hre
  simp only [Complex.sub_im, Complex.conj_im, Complex.im_ofReal_mul] at him
  constructor
  · -- real part
    have hsq : ‖e0‖ ^ 2 = e0.re ^ 2 + e0.im ^ 2 := by
      rw [← Complex.normSq_eq_norm_sq, Complex.normSq_apply]; ring
    rw [hsq] at hre
    have hEE : |‖e1‖ ^ 2 - (((x.re - y.re) / 2) ^ 2 + ((x.im - y.im) / 2) ^ 2)| ≤ 1 / 2 ^ 23 * (3 * ((x.re + y.re) / 2)) := by
      have h1 : ((x.re - y.re) / 2) ^ 2 + ((x.im - y.im) / 2) ^ 2 = ‖(x - y) / 2‖ ^ 2 := by
        rw [← Complex.normSq_eq_norm_sq, Complex.normSq_apply, mre, mim]; ring
      rw [h1, show ‖e1‖ ^ 2 - ‖(x - y) / 2‖ ^ 2 = (‖e1‖ - ‖(x - y) / 2‖) * (‖e1‖ + ‖(x - y) / 2‖) by ring, abs_mul,
        abs_of_nonneg (by positivity : 0 ≤ ‖e1‖ + ‖(x - y) / 2‖)]
      refine mul_le_mul n1 ?_ (by positivity) (by norm_num)
      have h2 : ‖(x + y) / 2‖ ≤ (x.re + y.re) / 2 + 1 / 4 := by
        have := Complex.norm_le_abs_re_add_abs_im ((x + y) / 2)
        rw [pre, pim, abs_of_pos (by linarith : 0 < (x.re + y.re) / 2)] at this
        have h3 : |(x.im + y.im) / 2| ≤ 1 / 4 := by rw [abs_le]; constructor <;> linarith
        linarith
      generalize ‖(x + y) / 2‖ = P at *
      generalize ‖(x - y) / 2‖ = M at *
      norm_num at N1
      linarith
    have hmr : |(x.re - y.re) / 2| ≤ (x.re + y.re) / 2 := by rw [abs_le]; constructor <;> linarith
    have hmi : |(x.im - y.im) / 2| ≤ i := by rw [abs_le]; constructor <;> linarith
    have := schur_real (mi := (x.im - y.im) / 2) (i := i) R0 I0 hmr hmi (by linarith) hEE le_rfl le_rfl (by norm_num) hi4 hi0
    have hAB : (x.re + y.re) / 2 - ((x.re - y.re) / 2) ^ 2 / ((x.re + y.re) / 2) = 2 * x.re * y.re / (x.re + y.re) := by
      have : x.re + y.re ≠ 0 := by linarith
      field_simp
      ring
    rw [hAB] at this
    have hh := hm_near (by linarith : 0 < a) (by linarith : 0 < b) (by linarith) hx.1 hy.1
    -- lower bounds of the harmonic mean
    have hm8 : 8 ≤ 2 * a * b / (a + b) := by
      rw [le_div_iff₀ (by linarith)]
      nlinarith
    have hp1 : 21 / 10 * i ^ 2 / ((x.re + y.re) / 2) ≤ i ^ 2 / 28 * (2 * x.re * y.re / (x.re + y.re)) := by
      have hs0 : 0 < x.re + y.re := by linarith
      rw [show 21 / 10 * i ^ 2 / ((x.re + y.re) / 2) = (i ^ 2 * (21 / 5)) / (x.re + y.re) by field_simp; ring,
        show i ^ 2 / 28 * (2 * x.re * y.re / (x.re + y.re)) = (i ^ 2 * (1 / 14 * (x.re * y.re))) / (x.re + y.re) by ring]
      apply div_le_div_of_nonneg_right _ hs0.le
      have : (192 / 25) * (192 / 25) ≤ x.re * y.re := mul_le_mul bx1 by1 (by norm_num) (by linarith)
      exact mul_le_mul_of_nonneg_left (by linarith) (sq_nonneg _)
    generalize 2 * x.re * y.re / (x.re + y.re) = H at *
    generalize 2 * a * b / (a + b) = h at *
    generalize 21 / 10 * i ^ 2 / ((x.re + y.re) / 2) = t at *
    generalize e0.re - ‖e1‖ ^ 2 / (e0.re ^ 2 + e0.im ^ 2) * e0.re = W at *
    have heh : e * h ≤ 1 / 25 * h := mul_le_mul_of_nonneg_right (by linarith) (by linarith)
    have hp2 : i ^ 2 / 28 * H ≤ i ^ 2 / 28 * (26 / 25 * h) := mul_le_mul_of_nonneg_left (by
      rw [abs_le] at hh; linarith) (by positivity)
    rw [show i ^ 2 / 28 * (26 / 25 * h) = 26 / 700 * (i ^ 2 * h) by ring] at hp2
    replace hp1 := hp1.trans hp2
    have hih : 0 ≤ i ^ 2 * h := mul_nonneg (sq_nonneg _) (by linarith)
    rw [show (e + (1 / 2 ^ 22 + i ^ 2 / 26)) * h = e * h + 1 / 2 ^ 22 * h + 1 / 26 * (i ^ 2 * h) by ring]
    clear hp2
    generalize i ^ 2 * h = ih at *
    generalize e * h = eh at *
    rw [abs_le] at *
    clear * - this hh hm8 hp1 hre heh hih
    norm_num at *
    constructor <;> linarith
  · generalize ‖e1‖ ^ 2 / ‖e0‖ ^ 2 = ρ at *
    have hI : |e0.im * (1 + ρ)| ≤ (i + 1 / 2 ^ 25) * (2 + 1 / 2 ^ 19) := by
      rw [abs_mul, abs_of_nonneg (by linarith : 0 ≤ 1 + ρ)]
      exact mul_le_mul I0 (by linarith) (by linarith) (by positivity)
    rw [show -e0.im - ρ * e0.im = -(e0.im * (1 + ρ)) by ring] at him
    generalize e0.im * (1 + ρ) = J at *
    rw [abs_le] at *
    clear * - him hI hi4
    norm_num at *
    constructor <;> linarith

/-- One step: the arithmetic mean, the harmonic mean and the quotient. -/
theorem step_near {a b e i : ℝ} {x y : ℂ} (ha : 8 ≤ a) (ha' : a ≤ 2 ^ 25) (hb : 8 ≤ b) (hb' : b ≤ 2 ^ 25)
    (hx : NearPos e i x a) (hy : NearPos e i y b) (he : e + 1 / 300 ≤ 1 / 25) (hi : 2 * i + 1 / 2 ^ 16 ≤ 1 / 4)
    {e0 e1 c : ℂ} {k : ℕ} (hk : k < 1024)
    (h0 : e0 = A.scale (A.lit (1 / 2)) (A.cadd x y))
    (h1 : e1 = A.cmul (A.scale (A.lit (1 / 2)) (A.csub x y)) (A.conj (A.tab k)))
    (hc : ‖c‖ = ‖e1‖) :
    NearPos (e + 1 / 300) (2 * i + 1 / 2 ^ 16) e0 ((a + b) / 2) ∧
    NearPos (e + 1 / 300) (2 * i + 1 / 2 ^ 16)
      (A.csub (A.conj e0) (A.cmul (A.cmul (A.cdiv c e0) (A.conj (A.cdiv c e0))) e0)) (2 * a * b / (a + b)) ∧
    ‖A.cdiv c e0‖ ≤ 101 / 100 := by
  have hi0 : 0 ≤ i := (abs_nonneg _).trans hx.2
  have hi8 : i ≤ 1 / 8 := by norm_num at hi; linarith
  have hg : e + (1 / 2 ^ 22 + i ^ 2 / 26) ≤ e + 1 / 300 := by
    have := pow_le_pow_left₀ hi0 hi8 2
    norm_num at this ⊢
    linarith
  obtain ⟨r1, r2, r3⟩ := step_sharp hA ha ha' hb hb' hx hy he hi hk h0 h1 hc
  exact ⟨r1.mono hg le_rfl (by linarith), r2.mono hg le_rfl (by
    have : 0 < a * b := mul_pos (by linarith) (by linarith)
    exact div_nonneg (by linarith) (by linarith)), r3⟩

set_option maxHeartbeats 1000000 in
/-- The quotient against the exact one. -/
theorem quot_near {a b e i : ℝ} {x y : ℂ} (ha : 8 ≤ a) (ha' : a ≤ 2 ^ 25) (hb : 8 ≤ b) (hb' : b ≤ 2 ^ 25)
    (hx : NearPos e i x a) (hy : NearPos e i y b) (he0 : 1 / 1000 ≤ e) (he : e ≤ 1 / 25) (hi : i ≤ 1 / 4)
    {e0 e1 : ℂ} {k : ℕ} (hk : k < 1024)
    (h0 : e0 = A.scale (A.lit (1 / 2)) (A.cadd x y))
    (h1 : e1 = A.cmul (A.scale (A.lit (1 / 2)) (A.csub x y)) (A.conj (A.tab k))) :
    ‖A.cdiv (A.conj e1) e0 - (((a - b) / (a + b) : ℝ) : ℂ) * cT k‖ ≤ 11 / 10 * (e + i / 8) := by
  have hi0 : 0 ≤ i := (abs_nonneg _).trans hx.2
  obtain ⟨bx1, bx2, bx3, bx4⟩ := hx.bounds he hi ha ha'
  obtain ⟨by1, by2, by3, by4⟩ := hy.bounds he hi hb hb'
  have n0 := half_add hA bx4 by4
  have n1 := half_sub hA bx4 by4
  rw [← h0] at n0
  have n2 := conjtab_err hA hk (A.scale (A.lit (1 / 2)) (A.csub x y))
  rw [← h1] at n2
  generalize A.scale (A.lit (1 / 2)) (A.csub x y) = h at *
  clear h0 h1
  have hu : uD = 1 / 2 ^ 53 := rfl
  have ht : tinyD = 1 / 2 ^ 100 := rfl
  have hab : 0 < a + b := by linarith
  -- exact quotient of the given numbers
  set p := (x - y) / 2 with hp
  set q := (x + y) / 2 with hq
  have qre : q.re = (x.re + y.re) / 2 := by
    rw [hq, show ((2 : ℂ)) = ((2 : ℝ) : ℂ) by norm_num, Complex.div_ofReal_re, Complex.add_re]
  have qim : q.im = (x.im + y.im) / 2 := by
    rw [hq, show ((2 : ℂ)) = ((2 : ℝ) : ℂ) by norm_num, Complex.div_ofReal_im, Complex.add_im]
  have pre : p.re = (x.re - y.re) / 2 := by
    rw [hp, show ((2 : ℂ)) = ((2 : ℝ) : ℂ) by norm_num, Complex.div_ofReal_re, Complex.sub_re]
  have pim : p.im = (x.im - y.im) / 2 := by
    rw [hp, show ((2 : ℂ)) = ((2 : ℝ) : ℂ) by norm_num, Complex.div_ofReal_im, Complex.sub_im]
  have hxr := abs_le.mp hx.1
  have hyr := abs_le.mp hy.1
  have hqn : 24 / 25 * ((a + b) / 2) ≤ ‖q‖ := by
    have := Complex.re_le_norm q
    rw [qre] at this
    have h1 : e * a ≤ 1 / 25 * a := mul_le_mul_of_nonneg_right he (by linarith)
    have h2 : e * b ≤ 1 / 25 * b := mul_le_mul_of_nonneg_right he (by linarith)
    linarith
  have hq0 : 0 < ‖q‖ := by linarith
  have hqc : q ≠ 0 := norm_pos_iff.mp hq0
  have habc : ((a + b : ℝ) : ℂ) ≠ 0 := by exact_mod_cast hab.ne'
  have hpn : ‖p‖ ≤ ‖q‖ := by
    rw [Complex.norm_def, Complex.norm_def]
    apply Real.sqrt_le_sqrt
    rw [Complex.normSq_apply, Complex.normSq_apply, pre, pim, qre, qim]
    have : 0 ≤ x.re * y.re + x.im * y.im := by
      have h1 : (192 / 25) * (192 / 25) ≤ x.re * y.re := mul_le_mul bx1 by1 (by norm_num) (by linarith)
      have h2 : |x.im * y.im| ≤ 1 / 4 * (1 / 4) := by
        rw [abs_mul]; exact mul_le_mul bx3 by3 (abs_nonneg _) (by norm_num)
      have := (abs_le.mp h2).1
      linarith
    nlinarith
  have main : ‖(starRingEnd ℂ) p / q - (((a - b) / (a + b) : ℝ) : ℂ)‖ ≤ 25 / 24 * (e + i / 8) := by
    have e1' : (starRingEnd ℂ) p / q - (((a - b) / (a + b) : ℝ) : ℂ)
        = ((starRingEnd ℂ) p * ((a + b : ℝ) : ℂ) - q * ((a - b : ℝ) : ℂ)) / (q * ((a + b : ℝ) : ℂ)) := by
      rw [Complex.ofReal_div, div_sub_div _ _ hqc habc]
    rw [e1', norm_div, norm_mul, Complex.norm_real, Real.norm_eq_abs, abs_of_pos hab, div_le_iff₀ (by positivity)]
    have hN : ‖(starRingEnd ℂ) p * ((a + b : ℝ) : ℂ) - q * ((a - b : ℝ) : ℂ)‖ ≤ 2 * e * (a * b) + i * (a + b) := by
      refine (Complex.norm_le_abs_re_add_abs_im _).trans ?_
      simp only [Complex.sub_re, Complex.sub_im, Complex.re_mul_ofReal, Complex.im_mul_ofReal, Complex.conj_re,
        Complex.conj_im]
      rw [pre, pim, qre, qim]
      have r1 : (x.re - y.re) / 2 * (a + b) - (x.re + y.re) / 2 * (a - b) = (x.re - a) * b - (y.re - b) * a := by ring
      have r2 : -((x.im - y.im) / 2) * (a + b) - (x.im + y.im) / 2 * (a - b) = y.im * b - x.im * a := by ring
      rw [r1, r2]
      have s1 : |(x.re - a) * b - (y.re - b) * a| ≤ e * a * b + e * b * a := by
        refine (abs_sub _ _).trans ?_
        rw [abs_mul, abs_mul, abs_of_pos (by linarith : 0 < a), abs_of_pos (by linarith : 0 < b)]
        exact add_le_add (mul_le_mul_of_nonneg_right hx.1 (by linarith)) (mul_le_mul_of_nonneg_right hy.1 (by linarith))
      have s2 : |y.im * b - x.im * a| ≤ i * b + i * a := by
        refine (abs_sub _ _).trans ?_
        rw [abs_mul, abs_mul, abs_of_pos (by linarith : 0 < a), abs_of_pos (by linarith : 0 < b)]
        exact add_le_add (mul_le_mul_of_nonneg_right hy.2 (by linarith)) (mul_le_mul_of_nonneg_right hx.2 (by linarith))
      linarith
    refine hN.trans ?_
    have h2 : 24 / 25 * ((a + b) / 2) * (a + b) ≤ ‖q‖ * (a + b) := mul_le_mul_of_nonneg_right hqn hab.le
    have h3 : 25 / 24 * (e + i / 8) * (24 / 25 * ((a + b) / 2) * (a + b)) ≤ 25 / 24 * (e + i / 8) * (‖q‖ * (a + b)) :=
      mul_le_mul_of_nonneg_left h2 (by positivity)
    refine le_trans ?_ h3
    have h4 : 4 * (a * b) ≤ (a + b) * (a + b) := by nlinarith [sq_nonneg (a - b)]
    have h5 : e * (4 * (a * b)) ≤ e * ((a + b) * (a + b)) := mul_le_mul_of_nonneg_left h4 (by linarith)
    have h6 : i * (a + b) * 16 ≤ i * (a + b) * (a + b) := mul_le_mul_of_nonneg_left (by linarith) (by positivity)
    have h7 : 25 / 24 * (e + i / 8) * (24 / 25 * ((a + b) / 2) * (a + b))
        = (e * ((a + b) * (a + b)) + i * (a + b) * (a + b) / 8) / 2 := by ring
    rw [h7]
    clear * - h5 h6
    linarith
  -- rounding
  have hN0 := abs_le.mp ((abs_norm_sub_norm_le e0 q).trans n0)
  have hE0 : 7 ≤ ‖e0‖ := by norm_num at hN0; linarith
  have hdiv := hA.cdiv (A.conj e1) e0 (le_trans (by norm_num) hE0)
  rw [hA.conj] at hdiv ⊢
  have he0c : e0 ≠ 0 := norm_pos_iff.mp (by linarith)
  have hq35 : ‖q‖ ≤ 35000000 := by
    rw [hq, norm_div, Complex.norm_ofNat]
    have := norm_add_le x y
    linarith
  have hc1 : ‖(starRingEnd ℂ) e1 - cT k * (starRingEnd ℂ) p‖ ≤ 1 / 2 ^ 23 := by
    have e2 : (starRingEnd ℂ) e1 - cT k * (starRingEnd ℂ) p
        = (starRingEnd ℂ) ((e1 - (starRingEnd ℂ) (cT k) * h) + (starRingEnd ℂ) (cT k) * (h - p)) := by
      rw [map_add, map_sub, map_mul, map_mul, map_sub, Complex.conj_conj]; ring
    rw [e2, RCLike.norm_conj]
    refine (norm_add_le _ _).trans ?_
    rw [norm_mul, RCLike.norm_conj, cT_norm, one_mul]
    have h6 : ‖h‖ ≤ ‖p‖ + ‖h - p‖ := by
      calc ‖h‖ = ‖p + (h - p)‖ := by rw [add_sub_cancel]
        _ ≤ _ := norm_add_le _ _
    generalize ‖h - p‖ = z1 at *
    generalize ‖h‖ = z2 at *
    generalize ‖e1 - (starRingEnd ℂ) (cT k) * h‖ = z3 at *
    rw [hu, ht] at n2
    norm_num at *
    linarith
  have hsplit : (starRingEnd ℂ) e1 / e0 - cT k * ((starRingEnd ℂ) p / q)
      = ((starRingEnd ℂ) e1 - cT k * (starRingEnd ℂ) p) / e0 + cT k * ((starRingEnd ℂ) p / q) * ((q - e0) / e0) := by
    field_simp
    ring
  have hr : ‖cT k * ((starRingEnd ℂ) p / q)‖ ≤ 1 := by
    rw [norm_mul, cT_norm, one_mul, norm_div, RCLike.norm_conj, div_le_one hq0]; exact hpn
  have hquo : ‖(starRingEnd ℂ) e1 / e0 - cT k * ((starRingEnd ℂ) p / q)‖ ≤ 1 / 2 ^ 24 := by
    rw [hsplit]
    refine (norm_add_le _ _).trans ?_
    rw [norm_mul, norm_div, norm_div, norm_sub_rev q e0]
    have t1 : ‖(starRingEnd ℂ) e1 - cT k * (starRingEnd ℂ) p‖ / ‖e0‖ ≤ 1 / 2 ^ 23 / 7 :=
      div_le_div₀ (by norm_num) hc1 (by norm_num) hE0
    have t2 : ‖e0 - q‖ / ‖e0‖ ≤ 1 / 2 ^ 25 / 7 := div_le_div₀ (by norm_num) n0 (by norm_num) hE0
    have t3 : ‖cT k * ((starRingEnd ℂ) p / q)‖ * (‖e0 - q‖ / ‖e0‖) ≤ 1 * (1 / 2 ^ 25 / 7) :=
      mul_le_mul hr t2 (by positivity) (by norm_num)
    refine (add_le_add t1 t3).trans ?_
    norm_num
  have hqn2 : ‖(starRingEnd ℂ) e1 / e0‖ ≤ 2 := by
    have e3 : (starRingEnd ℂ) e1 / e0 = cT k * ((starRingEnd ℂ) p / q)
      + ((starRingEnd ℂ) e1 / e0 - cT k * ((starRingEnd ℂ) p / q)) := by ring
    rw [e3]
    refine (norm_add_le _ _).trans ?_
    norm_num at hquo
    linarith
  have hdiv2 : ‖A.cdiv ((starRingEnd ℂ) e1) e0 - (starRingEnd ℂ) e1 / e0‖ ≤ 1 / 2 ^ 40 := by
    refine hdiv.trans ?_
    rw [hu, ht]
    generalize ‖(starRingEnd ℂ) e1 / e0‖ = z at *
    norm_num
    linarith
  have e4 : A.cdiv ((starRingEnd ℂ) e1) e0 - (((a - b) / (a + b) : ℝ) : ℂ) * cT k
      = (A.cdiv ((starRingEnd ℂ) e1) e0 - (starRingEnd ℂ) e1 / e0)
        + ((starRingEnd ℂ) e1 / e0 - cT k * ((starRingEnd ℂ) p / q))
        + cT k * ((starRingEnd ℂ) p / q - (((a - b) / (a + b) : ℝ) : ℂ)) := by ring
  rw [e4]
  refine (norm_add₃_le ..).trans ?_
  rw [norm_mul, cT_norm, one_mul]
  have hie : 0 ≤ i / 8 := by positivity
  norm_num at *
  linarith

end Falcon
