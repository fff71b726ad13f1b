import Verif.Proofs.DiagTree

/-!
# The LDL* decomposition of the Gram matrix of the basis in floating point
-/

namespace Falcon

section
variable {A : Arith ℝ ℂ} (hA : Accurate A)
include hA

/-- An entry of the Gram matrix; `p`, `q` bound the two rows. -/
theorem gramEntry_err {x y u v : ℂ} {p q : ℝ} (hp : ‖x‖ ^ 2 + ‖y‖ ^ 2 = p ^ 2) (hq : ‖u‖ ^ 2 + ‖v‖ ^ 2 = q ^ 2) (hp1 : 1 ≤ p)
    (hq1 : 1 ≤ q) :
    ‖gramEntry A x y u v - (x * (starRingEnd ℂ) u + y * (starRingEnd ℂ) v)‖ ≤ 6 * uD * (p * q) ∧
    ‖x * (starRingEnd ℂ) u + y * (starRingEnd ℂ) v‖ ≤ p * q := by
  have h1 := hA.cmul x (A.conj u)
  have h2 := hA.cmul y (A.conj v)
  have h3 := hA.cadd (A.cmul x (A.conj u)) (A.cmul y (A.conj v))
  unfold gramEntry
  rw [hA.conj, hA.conj] at *
  generalize A.cmul x ((starRingEnd ℂ) u) = a at *
  generalize A.cmul y ((starRingEnd ℂ) v) = b at *
  generalize A.cadd a b = s at *
  rw [RCLike.norm_conj] at h1 h2
  have hcs : ‖x‖ * ‖u‖ + ‖y‖ * ‖v‖ ≤ p * q := by
    refine (abs_le_of_sq_le_sq' ?_ (by positivity)).2
    rw [mul_pow, ← hp, ← hq]
    nlinarith [sq_nonneg (‖x‖ * ‖v‖ - ‖y‖ * ‖u‖)]
  have hn : ‖x * (starRingEnd ℂ) u + y * (starRingEnd ℂ) v‖ ≤ p * q := by
    refine (norm_add_le _ _).trans ?_
    rw [norm_mul, norm_mul, RCLike.norm_conj, RCLike.norm_conj]
    exact hcs
  refine ⟨?_, hn⟩
  have hpq : 1 ≤ p * q := by nlinarith
  generalize x * (starRingEnd ℂ) u = X at *
  generalize y * (starRingEnd ℂ) v = Y at *
  have e : s - (X + Y) = (s - (a + b)) + (a - X) + (b - Y) := by ring
  have e2 : a + b = (X + Y) + (a - X) + (b - Y) := by ring
  have n2 : ‖a + b‖ ≤ ‖X + Y‖ + ‖a - X‖ + ‖b - Y‖ := by
    rw [e2]; exact (norm_add_le _ _).trans (add_le_add_left (norm_add_le _ _) _)
  rw [e]
  refine (norm_add_le _ _).trans ((add_le_add_left (norm_add_le _ _) _).trans ?_)
  generalize ‖s - (a + b)‖ = c1 at *
  generalize ‖a - X‖ = c2 at *
  generalize ‖b - Y‖ = c3 at *
  generalize ‖a + b‖ = c4 at *
  generalize ‖X + Y‖ = c5 at *
  generalize ‖x‖ * ‖u‖ = c6 at *
  generalize ‖y‖ * ‖v‖ = c7 at *
  generalize p * q = c8 at *
  clear * - h1 h2 h3 hcs hn hpq n2
  rw [show uD = 1 / 2 ^ 53 from rfl, show tinyD = 1 / 2 ^ 100 from rfl] at *
  norm_num at *
  linarith

/-- The decomposition of a matrix known with relative errors; `r`, `m` are the lengths of the rows of the basis. -/
theorem schur_top {r m : ℝ} {b g00 g10 g11 : ℂ} (hr : 2 ≤ r) (hr' : r ≤ 2 ^ 13) (hm : 1 ≤ m)
    (hb : ‖b‖ ≤ r * m) (h00 : ‖g00 - ((r ^ 2 : ℝ) : ℂ)‖ ≤ 6 * uD * r ^ 2) (h10 : ‖g10 - b‖ ≤ 6 * uD * (r * m))
    (h11 : ‖g11 - ((m ^ 2 : ℝ) : ℂ)‖ ≤ 6 * uD * m ^ 2) :
    ‖A.cdiv g10 g00‖ ≤ 1001 / 1000 * (m / r) ∧
    ‖A.csub g11 (A.cmul (A.cmul (A.cdiv g10 g00) (A.conj (A.cdiv g10 g00))) g00)
      - ((m ^ 2 - ‖b‖ ^ 2 / r ^ 2 : ℝ) : ℂ)‖ ≤ 90 * uD * m ^ 2 := by
  have hu : uD = 1 / 2 ^ 53 := rfl
  have ht : tinyD = 1 / 2 ^ 100 := rfl
  have hr2 : 4 ≤ r ^ 2 := by nlinarith
  have hr20 : 0 < r ^ 2 := by linarith
  have hm2 : 1 ≤ m ^ 2 := by nlinarith
  have hs0 : 0 < m / r := by positivity
  set s := m / r with hs
  have hsr : s * r = m := by rw [hs]; field_simp
  have hs13 : 1 / 2 ^ 13 ≤ s := by
    rw [hs]; exact div_le_div₀ (by linarith) hm (by linarith) hr'
  have hrm : r * m = s * r ^ 2 := by rw [← hsr]; ring
  have hmm : m ^ 2 = s ^ 2 * r ^ 2 := by rw [← hsr]; ring
  -- the divisor
  have n00 := abs_le.mp ((abs_norm_sub_norm_le g00 ((r ^ 2 : ℝ) : ℂ)).trans h00)
  rw [Complex.norm_real, Real.norm_eq_abs, abs_of_pos hr20] at n00
  have n00a : (1 - 6 * uD) * r ^ 2 ≤ ‖g00‖ := by linarith
  have n00b : ‖g00‖ ≤ (1 + 6 * uD) * r ^ 2 := by linarith
  have hg0 : 1 / 2 ^ 20 ≤ ‖g00‖ := by
    rw [hu] at n00a
    norm_num at n00a ⊢
    linarith
  have hgp : 0 < ‖g00‖ := lt_of_lt_of_le (by norm_num) hg0
  have hgne : g00 ≠ 0 := norm_pos_iff.mp hgp
  have hrne : (((r ^ 2 : ℝ)) : ℂ) ≠ 0 := by exact_mod_cast hr20.ne'
  -- the exact quotients
  have hβ : ‖b‖ / r ^ 2 ≤ s := by rw [div_le_iff₀ hr20, ← hrm]; exact hb
  have hβ0 : 0 ≤ ‖b‖ / r ^ 2 := by positivity
  have hL : |‖g10 / g00‖ - ‖b‖ / r ^ 2| ≤ 25 / 2 * uD * s := by
    have e1 : ‖b‖ / r ^ 2 = ‖b / ((r ^ 2 : ℝ) : ℂ)‖ := by
      rw [norm_div, Complex.norm_real, Real.norm_eq_abs, abs_of_pos hr20]
    rw [e1]
    refine (abs_norm_sub_norm_le _ _).trans ?_
    have e2 : g10 / g00 - b / ((r ^ 2 : ℝ) : ℂ) = ((g10 - b) - b / ((r ^ 2 : ℝ) : ℂ) * (g00 - ((r ^ 2 : ℝ) : ℂ))) / g00 := by
      field_simp
      ring
    rw [e2, norm_div, div_le_iff₀ hgp]
    refine (norm_sub_le _ _).trans ?_
    rw [norm_mul, ← e1]
    have a1 : ‖b‖ / r ^ 2 * ‖g00 - ((r ^ 2 : ℝ) : ℂ)‖ ≤ s * (6 * uD * r ^ 2) :=
      mul_le_mul hβ h00 (norm_nonneg _) hs0.le
    have a2 : 25 / 2 * uD * s * ((1 - 6 * uD) * r ^ 2) ≤ 25 / 2 * uD * s * ‖g00‖ :=
      mul_le_mul_of_nonneg_left n00a (by rw [hu]; positivity)
    rw [hrm] at h10
    have a3 : 12 * uD * (s * r ^ 2) ≤ 25 / 2 * uD * (1 - 6 * uD) * (s * r ^ 2) := by
      apply mul_le_mul_of_nonneg_right _ (by positivity)
      rw [hu]; norm_num
    linarith
  have hL' := abs_le.mp hL
  have hLs : ‖g10 / g00‖ ≤ (1 + 25 / 2 * uD) * s := by linarith
  have hL0 := norm_nonneg (g10 / g00)
  -- the computed values
  have h1 := hA.cdiv g10 g00 hg0
  have h2 := hA.cmul (A.cdiv g10 g00) (A.conj (A.cdiv g10 g00))
  have h3 := hA.cmul (A.cmul (A.cdiv g10 g00) (A.conj (A.cdiv g10 g00))) g00
  have h4 := hA.csub g11 (A.cmul (A.cmul (A.cdiv g10 g00) (A.conj (A.cdiv g10 g00))) g00)
  rw [hA.conj] at h4 h3 h2 ⊢
  generalize A.cdiv g10 g00 = l at *
  generalize A.cmul l ((starRingEnd ℂ) l) = q1 at *
  generalize A.cmul q1 g00 = q2 at *
  generalize A.csub g11 q2 = w at *
  rw [RCLike.norm_conj] at h2
  have hll : l * (starRingEnd ℂ) l = ((‖l‖ ^ 2 : ℝ) : ℂ) := by
    rw [Complex.mul_conj, Complex.normSq_eq_norm_sq]
  rw [hll] at h2
  have h5 := (abs_norm_sub_norm_le l (g10 / g00)).trans h1
  have htu : tinyD ≤ 1 / 2 ^ 30 * uD * s := by
    have : 1 / 2 ^ 30 * uD * (1 / 2 ^ 13) ≤ 1 / 2 ^ 30 * uD * s :=
      mul_le_mul_of_nonneg_left hs13 (by rw [hu]; positivity)
    refine le_trans ?_ this
    rw [hu, ht]; norm_num
  generalize ‖g10 / g00‖ = Lh at *
  have h6 : |‖l‖ - Lh| ≤ 17 * uD * s := by
    refine h5.trans ?_
    have a1 : 16 * uD * Lh ≤ 16 * uD * ((1 + 25 / 2 * uD) * s) := mul_le_mul_of_nonneg_left hLs (by rw [hu]; positivity)
    refine (add_le_add a1 htu).trans ?_
    rw [hu]
    have := hs0.le
    norm_num
    linarith
  have h7 : |‖l‖ - ‖b‖ / r ^ 2| ≤ 30 * uD * s := by
    have : ‖l‖ - ‖b‖ / r ^ 2 = (‖l‖ - Lh) + (Lh - ‖b‖ / r ^ 2) := by ring
    rw [this]
    refine (abs_add_le _ _).trans ?_
    have : 0 ≤ uD * s := by rw [hu]; positivity
    linarith
  have hl0 := norm_nonneg l
  have hls : ‖l‖ ≤ (1 + 1 / 2 ^ 40) * s := by
    have := (abs_le.mp h7).2
    rw [hu] at this
    norm_num at this ⊢
    linarith
  refine ⟨by norm_num at hls ⊢; linarith, ?_⟩
  generalize ‖l‖ = L at *
  set β := ‖b‖ / r ^ 2 with hβd
  have h8 : |L ^ 2 - β ^ 2| ≤ 61 * uD * s ^ 2 := by
    rw [show L ^ 2 - β ^ 2 = (L - β) * (L + β) by ring, abs_mul, abs_of_nonneg (by linarith : 0 ≤ L + β)]
    have : |L - β| * (L + β) ≤ 30 * uD * s * ((2 + 1 / 2 ^ 40) * s) :=
      mul_le_mul h7 (by linarith) (by linarith) (by rw [hu]; positivity)
    refine this.trans ?_
    have e : 30 * uD * s * ((2 + 1 / 2 ^ 40) * s) = (30 * (2 + 1 / 2 ^ 40)) * (uD * s ^ 2) := by ring
    have e' : 61 * uD * s ^ 2 = 61 * (uD * s ^ 2) := by ring
    rw [e, e']
    exact mul_le_mul_of_nonneg_right (by norm_num) (by rw [hu]; positivity)
  have htu2 : tinyD ≤ 1 / 2 ^ 10 * uD * s ^ 2 := by
    have a1 : (1 / 2 ^ 13) ^ 2 ≤ s ^ 2 := pow_le_pow_left₀ (by norm_num) hs13 2
    have : 1 / 2 ^ 10 * uD * (1 / 2 ^ 13) ^ 2 ≤ 1 / 2 ^ 10 * uD * s ^ 2 :=
      mul_le_mul_of_nonneg_left a1 (by rw [hu]; positivity)
    refine le_trans ?_ this
    rw [hu, ht]; norm_num
  have hLL : L * L ≤ 11 / 10 * s ^ 2 := by
    have : L * L ≤ ((1 + 1 / 2 ^ 40) * s) * ((1 + 1 / 2 ^ 40) * s) := mul_le_mul hls hls hl0 (by positivity)
    refine this.trans ?_
    rw [show ((1 + 1 / 2 ^ 40) * s) * ((1 + 1 / 2 ^ 40) * s) = (1 + 1 / 2 ^ 40) ^ 2 * s ^ 2 by ring]
    exact mul_le_mul_of_nonneg_right (by norm_num) (by positivity)
  have hq1 : ‖q1 - ((β ^ 2 : ℝ) : ℂ)‖ ≤ 66 * uD * s ^ 2 := by
    have e : q1 - ((β ^ 2 : ℝ) : ℂ) = (q1 - ((L ^ 2 : ℝ) : ℂ)) + ((L ^ 2 - β ^ 2 : ℝ) : ℂ) := by push_cast; ring
    rw [e]
    refine (norm_add_le _ _).trans ?_
    rw [Complex.norm_real, Real.norm_eq_abs]
    have : 4 * uD * (L * L) ≤ 4 * uD * (11 / 10 * s ^ 2) := mul_le_mul_of_nonneg_left hLL (by rw [hu]; positivity)
    have h0 : 0 ≤ uD * s ^ 2 := by rw [hu]; positivity
    linarith
  have hβ2 : β ^ 2 ≤ s ^ 2 := pow_le_pow_left₀ hβ0 hβ 2
  have hβ20 : 0 ≤ β ^ 2 := sq_nonneg _
  have hq1n : ‖q1‖ ≤ 11 / 10 * s ^ 2 := by
    have e : q1 = ((β ^ 2 : ℝ) : ℂ) + (q1 - ((β ^ 2 : ℝ) : ℂ)) := by ring
    have := norm_add_le ((β ^ 2 : ℝ) : ℂ) (q1 - ((β ^ 2 : ℝ) : ℂ))
    rw [← e, Complex.norm_real, Real.norm_eq_abs, abs_of_nonneg hβ20] at this
    have h0 : 0 ≤ s ^ 2 := by positivity
    rw [hu] at hq1
    generalize ‖q1 - ((β ^ 2 : ℝ) : ℂ)‖ = c1 at *
    norm_num at hq1
    linarith
  have hq2 : ‖q2 - ((‖b‖ ^ 2 / r ^ 2 : ℝ) : ℂ)‖ ≤ 78 * uD * m ^ 2 := by
    have e : q2 - ((‖b‖ ^ 2 / r ^ 2 : ℝ) : ℂ) = (q2 - q1 * g00) + (q1 - ((β ^ 2 : ℝ) : ℂ)) * g00
        + ((β ^ 2 : ℝ) : ℂ) * (g00 - ((r ^ 2 : ℝ) : ℂ)) := by
      have : ((‖b‖ ^ 2 / r ^ 2 : ℝ) : ℂ) = ((β ^ 2 : ℝ) : ℂ) * ((r ^ 2 : ℝ) : ℂ) := by
        rw [← Complex.ofReal_mul, hβd]
        congr 1
        field_simp
      rw [this]; ring
    rw [e]
    refine (norm_add_le _ _).trans ((add_le_add_left (norm_add_le _ _) _).trans ?_)
    rw [norm_mul, norm_mul, Complex.norm_real, Real.norm_eq_abs, abs_of_nonneg hβ20]
    have hgb : ‖g00‖ ≤ 1001 / 1000 * r ^ 2 := by
      refine n00b.trans (mul_le_mul_of_nonneg_right ?_ hr20.le)
      rw [hu]; norm_num
    have a1 : ‖q1 - ((β ^ 2 : ℝ) : ℂ)‖ * ‖g00‖ ≤ 66 * uD * s ^ 2 * (1001 / 1000 * r ^ 2) :=
      mul_le_mul hq1 hgb hgp.le (by rw [hu]; positivity)
    have a2 : ‖q1‖ * ‖g00‖ ≤ 11 / 10 * s ^ 2 * (1001 / 1000 * r ^ 2) := mul_le_mul hq1n hgb hgp.le (by positivity)
    have a3 : β ^ 2 * ‖g00 - ((r ^ 2 : ℝ) : ℂ)‖ ≤ s ^ 2 * (6 * uD * r ^ 2) :=
      mul_le_mul hβ2 h00 (norm_nonneg _) (by positivity)
    have a4 : 4 * uD * (‖q1‖ * ‖g00‖) ≤ 4 * uD * (11 / 10 * s ^ 2 * (1001 / 1000 * r ^ 2)) :=
      mul_le_mul_of_nonneg_left a2 (by rw [hu]; positivity)
    have a5 : tinyD ≤ 1 / 2 ^ 10 * (uD * (s ^ 2 * r ^ 2)) := by
      rw [← hmm]
      have : 1 / 2 ^ 10 * uD * 1 ≤ 1 / 2 ^ 10 * uD * m ^ 2 := mul_le_mul_of_nonneg_left hm2 (by rw [hu]; positivity)
      refine le_trans ?_ (this.trans (le_of_eq (by ring)))
      rw [hu, ht]; norm_num
    have h0 : 0 ≤ uD * (s ^ 2 * r ^ 2) := by rw [hu]; positivity
    rw [hmm]
    generalize ‖q2 - q1 * g00‖ = c1 at *
    generalize ‖q1 - ((β ^ 2 : ℝ) : ℂ)‖ * ‖g00‖ = c2 at *
    generalize β ^ 2 * ‖g00 - ((r ^ 2 : ℝ) : ℂ)‖ = c3 at *
    generalize 4 * uD * (‖q1‖ * ‖g00‖) = c4 at *
    have e1 : 66 * uD * s ^ 2 * (1001 / 1000 * r ^ 2) = 66 * (1001 / 1000) * (uD * (s ^ 2 * r ^ 2)) := by ring
    have e2 : s ^ 2 * (6 * uD * r ^ 2) = 6 * (uD * (s ^ 2 * r ^ 2)) := by ring
    have e3 : 4 * uD * (11 / 10 * s ^ 2 * (1001 / 1000 * r ^ 2)) = 4 * (11 / 10 * (1001 / 1000)) * (uD * (s ^ 2 * r ^ 2)) := by ring
    have e4 : 78 * uD * (s ^ 2 * r ^ 2) = 78 * (uD * (s ^ 2 * r ^ 2)) := by ring
    rw [e1] at a1
    rw [e2] at a3
    rw [e3] at a4
    rw [e4]
    generalize uD * (s ^ 2 * r ^ 2) = Z at *
    clear * - h3 a1 a3 a4 a5 h0
    norm_num at *
    linarith
  have hbm : ‖b‖ ^ 2 / r ^ 2 ≤ m ^ 2 := by
    rw [div_le_iff₀ hr20, ← mul_pow, mul_comm m]
    exact pow_le_pow_left₀ (norm_nonneg _) hb 2
  have hbm0 : 0 ≤ ‖b‖ ^ 2 / r ^ 2 := by positivity
  have e : w - ((m ^ 2 - ‖b‖ ^ 2 / r ^ 2 : ℝ) : ℂ) = (w - (g11 - q2)) + (g11 - ((m ^ 2 : ℝ) : ℂ))
      - (q2 - ((‖b‖ ^ 2 / r ^ 2 : ℝ) : ℂ)) := by push_cast; ring
  have e2 : g11 - q2 = ((m ^ 2 - ‖b‖ ^ 2 / r ^ 2 : ℝ) : ℂ) + (g11 - ((m ^ 2 : ℝ) : ℂ))
      - (q2 - ((‖b‖ ^ 2 / r ^ 2 : ℝ) : ℂ)) := by push_cast; ring
  have hd : ‖g11 - q2‖ ≤ 2 * m ^ 2 := by
    rw [e2]
    refine (norm_sub_le _ _).trans ((add_le_add_left (norm_add_le _ _) _).trans ?_)
    rw [Complex.norm_real, Real.norm_eq_abs, abs_of_nonneg (by linarith)]
    rw [hu] at h11 hq2
    generalize ‖g11 - ((m ^ 2 : ℝ) : ℂ)‖ = c1 at *
    generalize ‖q2 - ((‖b‖ ^ 2 / r ^ 2 : ℝ) : ℂ)‖ = c2 at *
    norm_num at h11 hq2
    linarith
  rw [e]
  refine (norm_sub_le _ _).trans ((add_le_add_left (norm_add_le _ _) _).trans ?_)
  have hud : uD * ‖g11 - q2‖ ≤ uD * (2 * m ^ 2) := mul_le_mul_of_nonneg_left hd (by rw [hu]; positivity)
  have htm : tinyD ≤ uD * m ^ 2 := by
    have : uD * 1 ≤ uD * m ^ 2 := mul_le_mul_of_nonneg_left hm2 (by rw [hu]; positivity)
    refine le_trans ?_ this
    rw [hu, ht]; norm_num
  have h0 : 0 ≤ uD * m ^ 2 := by rw [hu]; positivity
  linarith


/-- The polynomial at the root against the exact one. -/
theorem top_l {g00 g10 b0 : ℂ} {d : ℝ} (hd8 : 8 ≤ d) (h00 : ‖g00 - (d : ℂ)‖ ≤ 1 / 2 ^ 15) (h10 : ‖g10 - b0‖ ≤ 1 / 2 ^ 10)
    (hb : ‖b0‖ ^ 2 ≤ 2 ^ 35 * d) : ‖A.cdiv g10 g00 - b0 / (d : ℂ)‖ ≤ 1 := by
  have hd0 : 0 < d := by linarith
  have hq : ‖b0 / (d : ℂ)‖ ≤ 2 ^ 16 := by
    refine (abs_le_of_sq_le_sq' ?_ (by positivity)).2
    rw [norm_div, Complex.norm_real, Real.norm_eq_abs, abs_of_pos hd0, div_pow, div_le_iff₀ (by positivity)]
    refine hb.trans ?_
    rw [pow_two d]
    have : 2 ^ 35 * d ≤ 2 ^ 32 * (8 * d) := by norm_num; linarith
    refine this.trans ?_
    have h8 : 8 * d ≤ d * d := mul_le_mul_of_nonneg_right hd8 hd0.le
    norm_num
    linarith
  have hn := abs_le.mp ((abs_norm_sub_norm_le g00 (d : ℂ)).trans h00)
  rw [Complex.norm_real, Real.norm_eq_abs, abs_of_pos hd0] at hn
  have hg : 7 ≤ ‖g00‖ := by norm_num at hn; linarith
  have hgne : g00 ≠ 0 := norm_pos_iff.mp (by linarith)
  have hdne : (d : ℂ) ≠ 0 := by exact_mod_cast hd0.ne'
  have h1 := hA.cdiv g10 g00 (le_trans (by norm_num) hg)
  have h2 : ‖g10 / g00 - b0 / (d : ℂ)‖ ≤ 1 / 3 := by
    have e2 : g10 / g00 - b0 / (d : ℂ) = ((g10 - b0) - b0 / (d : ℂ) * (g00 - (d : ℂ))) / g00 := by
      field_simp
      ring
    rw [e2, norm_div, div_le_iff₀ (by linarith)]
    refine (norm_sub_le _ _).trans ?_
    rw [norm_mul]
    have := mul_le_mul hq h00 (norm_nonneg _) (by positivity)
    norm_num at this h10 ⊢
    linarith
  have h3 : ‖g10 / g00‖ ≤ 2 ^ 17 := by
    have e : g10 / g00 = b0 / (d : ℂ) + (g10 / g00 - b0 / (d : ℂ)) := by ring
    rw [e]
    refine (norm_add_le _ _).trans ?_
    norm_num at hq ⊢
    linarith
  have h4 : ‖A.cdiv g10 g00 - g10 / g00‖ ≤ 1 / 3 := by
    refine h1.trans ?_
    rw [show uD = 1 / 2 ^ 53 from rfl, show tinyD = 1 / 2 ^ 100 from rfl]
    generalize ‖g10 / g00‖ = z at *
    norm_num at h3 ⊢
    linarith
  have e : A.cdiv g10 g00 - b0 / (d : ℂ) = (A.cdiv g10 g00 - g10 / g00) + (g10 / g00 - b0 / (d : ℂ)) := by ring
  rw [e]
  refine (norm_add_le _ _).trans ?_
  linarith

set_option maxHeartbeats 1000000 in
/-- The decomposition at one point, from an approximation of the basis. -/
theorem top_point {x y u v x0 y0 u0 v0 : ℂ} {d : ℝ} (hd : d = ‖x0‖ ^ 2 + ‖y0‖ ^ 2) (hd8 : 8 ≤ d) (hd25 : d ≤ 2 ^ 25)
    (hdet : x0 * v0 - y0 * u0 = 12289) (hx : ‖x‖ ≤ 2 ^ 14 ∧ ‖x0‖ ≤ 2 ^ 14 ∧ ‖x - x0‖ ≤ 1 / 2 ^ 32)
    (hy : ‖y‖ ≤ 2 ^ 14 ∧ ‖y0‖ ≤ 2 ^ 14 ∧ ‖y - y0‖ ≤ 1 / 2 ^ 32) (hu : ‖u‖ ≤ 2 ^ 17 ∧ ‖u0‖ ≤ 2 ^ 17 ∧ ‖u - u0‖ ≤ 1 / 2 ^ 29)
    (hv : ‖v‖ ≤ 2 ^ 17 ∧ ‖v0‖ ≤ 2 ^ 17 ∧ ‖v - v0‖ ≤ 1 / 2 ^ 29) {g00 g10 g11 : ℂ} (e00 : g00 = gramEntry A x y x y)
    (e10 : g10 = gramEntry A u v x y) (e11 : g11 = gramEntry A u v u v) :
    NearPos (1 / 10000) (1 / 2500) g00 d ∧
    NearPos (1 / 10000) (1 / 2500) (A.csub g11 (A.cmul (A.cmul (A.cdiv g10 g00) (A.conj (A.cdiv g10 g00))) g00)) (12289 ^ 2 / d) ∧
    ‖A.cdiv g10 g00‖ ^ 2 * d ≤ 101 / 100 * 2 ^ 35 ∧
    ‖A.cdiv g10 g00 - (u0 * (starRingEnd ℂ) x0 + v0 * (starRingEnd ℂ) y0) / (d : ℂ)‖ ≤ 1 := by
  -- lengths of the rows
  set r := Real.sqrt (‖x‖ ^ 2 + ‖y‖ ^ 2) with hr
  set m := Real.sqrt (‖u‖ ^ 2 + ‖v‖ ^ 2) with hm
  have r2 : ‖x‖ ^ 2 + ‖y‖ ^ 2 = r ^ 2 := (Real.sq_sqrt (by positivity)).symm
  have m2 : ‖u‖ ^ 2 + ‖v‖ ^ 2 = m ^ 2 := (Real.sq_sqrt (by positivity)).symm
  have r0 : 0 ≤ r := Real.sqrt_nonneg _
  have m0 : 0 ≤ m := Real.sqrt_nonneg _
  have sqd : ∀ {a b : ℂ}, ‖a‖ ≤ 2 ^ 14 ∧ ‖b‖ ≤ 2 ^ 14 ∧ ‖a - b‖ ≤ 1 / 2 ^ 32 → |‖a‖ ^ 2 - ‖b‖ ^ 2| ≤ 1 / 2 ^ 17 := by
    intro a b h
    rw [show ‖a‖ ^ 2 - ‖b‖ ^ 2 = (‖a‖ - ‖b‖) * (‖a‖ + ‖b‖) by ring, abs_mul,
      abs_of_nonneg (by positivity : 0 ≤ ‖a‖ + ‖b‖)]
    have : |‖a‖ - ‖b‖| * (‖a‖ + ‖b‖) ≤ 1 / 2 ^ 32 * (2 ^ 14 + 2 ^ 14) :=
      mul_le_mul ((abs_norm_sub_norm_le _ _).trans h.2.2) (add_le_add h.1 h.2.1) (by positivity) (by norm_num)
    refine this.trans ?_
    norm_num
  have hrd : |r ^ 2 - d| ≤ 1 / 2 ^ 16 := by
    have a1 := abs_le.mp (sqd hx)
    have a2 := abs_le.mp (sqd hy)
    rw [abs_le, ← r2, hd]
    norm_num at a1 a2 ⊢
    constructor <;> linarith
  have hrd' := abs_le.mp hrd
  have hr8 : 79 / 10 ≤ r ^ 2 := by norm_num at hrd'; linarith
  have hr26 : r ^ 2 ≤ 2 ^ 26 := by norm_num at hrd' hd25 ⊢; linarith
  have hr2 : 2 ≤ r := by
    by_contra h
    push Not at h
    nlinarith
  have hr13 : r ≤ 2 ^ 13 := by
    refine (abs_le_of_sq_le_sq' ?_ (by positivity)).2
    refine hr26.trans ?_
    norm_num
  have hm35 : m ^ 2 ≤ 2 ^ 35 := by
    have h1 : ‖u‖ ^ 2 ≤ (2 ^ 17) ^ 2 := pow_le_pow_left₀ (norm_nonneg _) hu.1 2
    have h2 : ‖v‖ ^ 2 ≤ (2 ^ 17) ^ 2 := pow_le_pow_left₀ (norm_nonneg _) hv.1 2
    rw [← m2]
    norm_num at h1 h2 ⊢
    linarith
  -- the determinant
  have hdn : |‖x * v - y * u‖ - 12289| ≤ 1 / 2 ^ 13 := by
    have e : x * v - y * u - 12289 = (x - x0) * v + x0 * (v - v0) - ((y - y0) * u + y0 * (u - u0)) := by
      rw [← hdet]; ring
    have h1 := abs_norm_sub_norm_le (x * v - y * u) 12289
    rw [show ‖(12289 : ℂ)‖ = 12289 by
      rw [show (12289 : ℂ) = ((12289 : ℝ) : ℂ) by push_cast; rfl, Complex.norm_real]; norm_num, e] at h1
    refine h1.trans ((norm_sub_le _ _).trans ((add_le_add (norm_add_le _ _) (norm_add_le _ _)).trans ?_))
    rw [norm_mul, norm_mul, norm_mul, norm_mul]
    have b1 : ‖x - x0‖ * ‖v‖ ≤ 1 / 2 ^ 32 * 2 ^ 17 := mul_le_mul hx.2.2 hv.1 (norm_nonneg _) (by norm_num)
    have b2 : ‖x0‖ * ‖v - v0‖ ≤ 2 ^ 14 * (1 / 2 ^ 29) := mul_le_mul hx.2.1 hv.2.2 (norm_nonneg _) (by norm_num)
    have b3 : ‖y - y0‖ * ‖u‖ ≤ 1 / 2 ^ 32 * 2 ^ 17 := mul_le_mul hy.2.2 hu.1 (norm_nonneg _) (by norm_num)
    have b4 : ‖y0‖ * ‖u - u0‖ ≤ 2 ^ 14 * (1 / 2 ^ 29) := mul_le_mul hy.2.1 hu.2.2 (norm_nonneg _) (by norm_num)
    norm_num at b1 b2 b3 b4 ⊢
    linarith
  have hlag : ‖u * (starRingEnd ℂ) x + v * (starRingEnd ℂ) y‖ ^ 2 = m ^ 2 * r ^ 2 - ‖x * v - y * u‖ ^ 2 := by
    rw [← r2, ← m2]
    simp only [← Complex.normSq_eq_norm_sq, Complex.normSq_apply, Complex.add_re, Complex.add_im, Complex.mul_re,
      Complex.mul_im, Complex.conj_re, Complex.conj_im, Complex.sub_re, Complex.sub_im]
    ring
  have hm1 : 1 ≤ m := by
    by_contra h
    push Not at h
    have h1 : 0 ≤ m ^ 2 * r ^ 2 - ‖x * v - y * u‖ ^ 2 := by rw [← hlag]; positivity
    have h2 : m ^ 2 ≤ 1 := by nlinarith
    have h3 : 12288 ^ 2 ≤ ‖x * v - y * u‖ ^ 2 := pow_le_pow_left₀ (by norm_num) (by
      have := (abs_le.mp hdn).1
      norm_num at this
      linarith) 2
    have h4 : m ^ 2 * r ^ 2 ≤ 1 * 2 ^ 26 := mul_le_mul h2 hr26 (by positivity) (by norm_num)
    norm_num at h3 h4
    linarith
  obtain ⟨E00, -⟩ := gramEntry_err hA r2 r2 (by linarith : 1 ≤ r) (by linarith)
  obtain ⟨E10, B10⟩ := gramEntry_err hA m2 r2 hm1 (by linarith)
  obtain ⟨E11, -⟩ := gramEntry_err hA m2 m2 hm1 hm1
  rw [← e00] at E00
  rw [← e10] at E10
  rw [← e11] at E11
  clear e00 e10 e11
  have xx : ∀ a b : ℂ, a * (starRingEnd ℂ) a + b * (starRingEnd ℂ) b = ((‖a‖ ^ 2 + ‖b‖ ^ 2 : ℝ) : ℂ) := by
    intro a b
    rw [Complex.mul_conj, Complex.mul_conj, Complex.normSq_eq_norm_sq, Complex.normSq_eq_norm_sq]
    push_cast; ring
  rw [xx, r2, ← pow_two] at E00
  rw [xx, m2, ← pow_two] at E11
  rw [mul_comm m r] at E10 B10
  obtain ⟨hl, hs⟩ := schur_top hA hr2 hr13 hm1 B10 E00 E10 E11
  have huu : uD = 1 / 2 ^ 53 := rfl
  refine ⟨?_, ?_, ?_, ?_⟩
  rotate_right
  · refine top_l hA hd8 ?_ ?_ ?_
    · have e : g00 - (d : ℂ) = (g00 - ((r ^ 2 : ℝ) : ℂ)) + ((r ^ 2 - d : ℝ) : ℂ) := by push_cast; ring
      rw [e]
      refine (norm_add_le _ _).trans ?_
      rw [Complex.norm_real, Real.norm_eq_abs]
      have : 6 * uD * r ^ 2 ≤ 6 * uD * 2 ^ 26 := mul_le_mul_of_nonneg_left hr26 (by rw [huu]; positivity)
      have h2 := E00.trans this
      clear * - h2 hrd
      rw [show uD = 1 / 2 ^ 53 from rfl] at h2
      norm_num at *
      linarith
    · have e : g10 - (u0 * (starRingEnd ℂ) x0 + v0 * (starRingEnd ℂ) y0)
          = (g10 - (u * (starRingEnd ℂ) x + v * (starRingEnd ℂ) y)) + ((u - u0) * (starRingEnd ℂ) x
            + u0 * (starRingEnd ℂ) (x - x0) + ((v - v0) * (starRingEnd ℂ) y + v0 * (starRingEnd ℂ) (y - y0))) := by
        rw [map_sub, map_sub]; ring
      rw [e]
      refine (norm_add_le _ _).trans ((add_le_add_right ((norm_add_le _ _).trans
        (add_le_add (norm_add_le _ _) (norm_add_le _ _))) _).trans ?_)
      rw [norm_mul, norm_mul, norm_mul, norm_mul, RCLike.norm_conj, RCLike.norm_conj, RCLike.norm_conj, RCLike.norm_conj]
      have b1 : ‖u - u0‖ * ‖x‖ ≤ 1 / 2 ^ 29 * 2 ^ 14 := mul_le_mul hu.2.2 hx.1 (norm_nonneg _) (by norm_num)
      have b2 : ‖u0‖ * ‖x - x0‖ ≤ 2 ^ 17 * (1 / 2 ^ 32) := mul_le_mul hu.2.1 hx.2.2 (norm_nonneg _) (by norm_num)
      have b3 : ‖v - v0‖ * ‖y‖ ≤ 1 / 2 ^ 29 * 2 ^ 14 := mul_le_mul hv.2.2 hy.1 (norm_nonneg _) (by norm_num)
      have b4 : ‖v0‖ * ‖y - y0‖ ≤ 2 ^ 17 * (1 / 2 ^ 32) := mul_le_mul hv.2.1 hy.2.2 (norm_nonneg _) (by norm_num)
      have hm18 : m ≤ 2 ^ 18 := by
        refine (abs_le_of_sq_le_sq' ?_ (by positivity)).2
        refine hm35.trans ?_
        norm_num
      have b5 : r * m ≤ 2 ^ 13 * 2 ^ 18 := mul_le_mul hr13 hm18 m0 (by norm_num)
      have b6 : 6 * uD * (r * m) ≤ 6 * uD * (2 ^ 13 * 2 ^ 18) := mul_le_mul_of_nonneg_left b5 (by rw [huu]; positivity)
      have b7 := E10.trans b6
      clear * - b1 b2 b3 b4 b7
      rw [show uD = 1 / 2 ^ 53 from rfl] at b7
      norm_num at *
      linarith
    · have h1 : ‖u0‖ ^ 2 ≤ (2 ^ 17) ^ 2 := pow_le_pow_left₀ (norm_nonneg _) hu.2.1 2
      have h2 : ‖v0‖ ^ 2 ≤ (2 ^ 17) ^ 2 := pow_le_pow_left₀ (norm_nonneg _) hv.2.1 2
      have h3 : ‖u0 * (starRingEnd ℂ) x0 + v0 * (starRingEnd ℂ) y0‖ ^ 2 ≤ (‖u0‖ ^ 2 + ‖v0‖ ^ 2) * (‖x0‖ ^ 2 + ‖y0‖ ^ 2) := by
        have hlag0 : ‖u0 * (starRingEnd ℂ) x0 + v0 * (starRingEnd ℂ) y0‖ ^ 2
            = (‖u0‖ ^ 2 + ‖v0‖ ^ 2) * (‖x0‖ ^ 2 + ‖y0‖ ^ 2) - ‖x0 * v0 - y0 * u0‖ ^ 2 := by
          simp only [← Complex.normSq_eq_norm_sq, Complex.normSq_apply, Complex.add_re, Complex.add_im, Complex.mul_re,
            Complex.mul_im, Complex.conj_re, Complex.conj_im, Complex.sub_re, Complex.sub_im]
          ring
        rw [hlag0]
        linarith [sq_nonneg ‖x0 * v0 - y0 * u0‖]
      rw [← hd] at h3
      refine h3.trans (mul_le_mul_of_nonneg_right ?_ (by linarith))
      norm_num at h1 h2 ⊢
      linarith
  · have hE : 6 * uD * r ^ 2 ≤ 1 / 2 ^ 20 := by
      have : 6 * uD * r ^ 2 ≤ 6 * uD * 2 ^ 26 := mul_le_mul_of_nonneg_left hr26 (by rw [huu]; positivity)
      refine this.trans ?_
      rw [huu]; norm_num
    have h1 := (Complex.abs_re_le_norm _).trans (E00.trans hE)
    have h2 := (Complex.abs_im_le_norm _).trans (E00.trans hE)
    rw [Complex.sub_re, Complex.ofReal_re] at h1
    rw [Complex.sub_im, Complex.ofReal_im, sub_zero] at h2
    refine ⟨?_, h2.trans (by norm_num)⟩
    rw [abs_le] at h1 ⊢
    norm_num at h1 hrd' ⊢
    constructor <;> linarith
  · have hE : 90 * uD * m ^ 2 ≤ 7 / 20000 := by
      have : 90 * uD * m ^ 2 ≤ 90 * uD * 2 ^ 35 := mul_le_mul_of_nonneg_left hm35 (by rw [huu]; positivity)
      refine this.trans ?_
      rw [huu]; norm_num
    have h1 := (Complex.abs_re_le_norm _).trans (hs.trans hE)
    have h2 := (Complex.abs_im_le_norm _).trans (hs.trans hE)
    rw [Complex.sub_re, Complex.ofReal_re] at h1
    rw [Complex.sub_im, Complex.ofReal_im, sub_zero] at h2
    refine ⟨?_, h2.trans (by norm_num)⟩
    have hq : m ^ 2 - ‖u * (starRingEnd ℂ) x + v * (starRingEnd ℂ) y‖ ^ 2 / r ^ 2 = ‖x * v - y * u‖ ^ 2 / r ^ 2 := by
      rw [hlag]
      have : r ^ 2 ≠ 0 := by positivity
      field_simp
      ring
    rw [hq] at h1
    have hD2 : |‖x * v - y * u‖ ^ 2 - 12289 ^ 2| ≤ 4 := by
      generalize ‖x * v - y * u‖ = D at *
      rw [show D ^ 2 - 12289 ^ 2 = (D - 12289) * (D + 12289) by ring, abs_mul]
      have hb := abs_le.mp hdn
      have : |D + 12289| ≤ 24579 := by
        rw [abs_le]
        norm_num at hb ⊢
        constructor <;> linarith
      have := mul_le_mul hdn this (abs_nonneg _) (by norm_num)
      refine this.trans ?_
      norm_num
    have hqd : 4 ≤ 12289 ^ 2 / d := by
      rw [le_div_iff₀ (by linarith)]
      norm_num at hd25 ⊢
      linarith
    have hrel : |‖x * v - y * u‖ ^ 2 / r ^ 2 - 12289 ^ 2 / d| ≤ 1 / 100000 * (12289 ^ 2 / d) := by
      generalize ‖x * v - y * u‖ ^ 2 = D at *
      have hr20 : 0 < r ^ 2 := by linarith
      have hd0 : 0 < d := by linarith
      rw [abs_le] at hD2 ⊢
      generalize r ^ 2 = R at *
      have hDb : 0 ≤ D := by norm_num at hD2; linarith
      constructor
      · have : (1 - 1 / 100000) * (12289 ^ 2 / d) ≤ D / R := by
          rw [← mul_div_assoc, div_le_div_iff₀ hd0 hr20]
          norm_num at hD2 hrd' ⊢
          nlinarith
        linarith
      · have : D / R ≤ (1 + 1 / 100000) * (12289 ^ 2 / d) := by
          rw [← mul_div_assoc, div_le_div_iff₀ hr20 hd0]
          norm_num at hD2 hrd' ⊢
          nlinarith
        linarith
    generalize ‖x * v - y * u‖ ^ 2 / r ^ 2 = Z at *
    generalize (12289 : ℝ) ^ 2 / d = Q at *
    rw [abs_le] at h1 hrel ⊢
    constructor <;> linarith
  · have h1 : ‖A.cdiv g10 g00‖ ^ 2 ≤ (1001 / 1000 * (m / r)) ^ 2 := pow_le_pow_left₀ (norm_nonneg _) hl 2
    have hr20 : 0 < r ^ 2 := by linarith
    have h2 : d ≤ 1001 / 1000 * r ^ 2 := by norm_num at hrd'; linarith
    have h3 : ‖A.cdiv g10 g00‖ ^ 2 * d ≤ (1001 / 1000 * (m / r)) ^ 2 * (1001 / 1000 * r ^ 2) :=
      mul_le_mul h1 h2 (by linarith) (by positivity)
    refine h3.trans ?_
    have e : (1001 / 1000 * (m / r)) ^ 2 * (1001 / 1000 * r ^ 2) = (1001 / 1000) ^ 3 * m ^ 2 := by
      have : r ≠ 0 := by linarith
      field_simp
    rw [e]
    norm_num at hm35 ⊢
    linarith

end

end Falcon
