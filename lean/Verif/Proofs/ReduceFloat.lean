import Verif.Proofs.Reduce

/-!
# The quotient of the reduction in floating point
-/

namespace Falcon

open Finset Polynomial

/-- Error of a computed value of f^ or g^, relative to r = (|f^|^2 + |g^|^2)^(1/2). -/
noncomputable def delD : ℝ := 1 / 2 ^ 29

section
variable {A : Arith ℝ ℂ} (hA : Accurate A)
include hA

theorem norm_near {x y : ℂ} {e : ℝ} (h : ‖x - y‖ ≤ e) : ‖x‖ ≤ ‖y‖ + e := by
  have := norm_add_le y (x - y)
  rw [add_sub_cancel] at this
  linarith

/-- The computed |x|^2. -/
theorem sq_near {X x : ℂ} {r : ℝ} (hr : 1 ≤ r) (hx : ‖x‖ ≤ r) (h : ‖X - x‖ ≤ delD * r) :
    ‖A.cmul X (A.conj X) - x * (starRingEnd ℂ) x‖ ≤ 9 / 4 * delD * r ^ 2 := by
  have h1 := hA.cmul X (A.conj X)
  rw [hA.conj, RCLike.norm_conj] at h1
  have hX := norm_near hA h
  have e : A.cmul X (A.conj X) - x * (starRingEnd ℂ) x = (A.cmul X (A.conj X) - X * (starRingEnd ℂ) X)
      + ((X - x) * (starRingEnd ℂ) X + x * (starRingEnd ℂ) (X - x)) := by rw [map_sub]; ring
  rw [e]
  rw [hA.conj]
  refine (norm_add_le _ _).trans ((add_le_add h1 (norm_add_le _ _)).trans ?_)
  rw [norm_mul, norm_mul, RCLike.norm_conj, RCLike.norm_conj]
  have d0 : 0 ≤ ‖X - x‖ := norm_nonneg _
  have X0 : 0 ≤ ‖X‖ := norm_nonneg _
  have hd : (0 : ℝ) < delD := by unfold delD; norm_num
  have hd1 : delD ≤ 1 / 100 := by unfold delD; norm_num
  have hX2 : ‖X‖ ≤ 101 / 100 * r := by nlinarith
  have m1 : ‖X - x‖ * ‖X‖ ≤ delD * (101 / 100 * r ^ 2) := by
    calc ‖X - x‖ * ‖X‖ ≤ delD * r * (101 / 100 * r) := by gcongr
      _ = _ := by ring
  have m2 : ‖x‖ * ‖X - x‖ ≤ r ^ 2 * delD := by
    calc ‖x‖ * ‖X - x‖ ≤ r * (delD * r) := by gcongr
      _ = _ := by ring
  have m3 : ‖X‖ * ‖X‖ ≤ 2 * r ^ 2 := by nlinarith
  have hr2 : r ≤ r ^ 2 := by nlinarith
  have hr1 : 1 ≤ r ^ 2 := by nlinarith
  generalize ‖X‖ * ‖X‖ = a at *
  generalize ‖X - x‖ * ‖X‖ = b at *
  generalize ‖x‖ * ‖X - x‖ = c at *
  generalize r ^ 2 = r2 at *
  clear h h1 e hx hX d0 X0 hX2 hd hd1
  unfold delD uD tinyD at *
  norm_num at *
  linarith

/-- The computed |x|^2 + |y|^2. -/
theorem den_near {X x Y y : ℂ} {r : ℝ} (hr : 1 ≤ r) (hx : ‖x‖ ≤ r) (hy : ‖y‖ ≤ r)
    (h : ‖X - x‖ ≤ delD * r) (h' : ‖Y - y‖ ≤ delD * r) :
    ‖A.cadd (A.cmul X (A.conj X)) (A.cmul Y (A.conj Y)) - (x * (starRingEnd ℂ) x + y * (starRingEnd ℂ) y)‖
      ≤ 5 * delD * r ^ 2 := by
  have h1 := sq_near hA hr hx h
  have h2 := sq_near hA hr hy h'
  set p := A.cmul X (A.conj X)
  set q := A.cmul Y (A.conj Y)
  have h3 := hA.cadd p q
  have e : A.cadd p q - (x * (starRingEnd ℂ) x + y * (starRingEnd ℂ) y) = (A.cadd p q - (p + q))
    + ((p - x * (starRingEnd ℂ) x) + (q - y * (starRingEnd ℂ) y)) := by ring
  have n1 : ‖x * (starRingEnd ℂ) x‖ ≤ r ^ 2 := by
    rw [norm_mul, RCLike.norm_conj, sq]; gcongr
  have n2 : ‖y * (starRingEnd ℂ) y‖ ≤ r ^ 2 := by
    rw [norm_mul, RCLike.norm_conj, sq]; gcongr
  have n3 := norm_near hA h1
  have n4 := norm_near hA h2
  have n5 := norm_add_le p q
  rw [e]
  refine (norm_add_le _ _).trans ((add_le_add h3 (norm_add_le _ _)).trans ?_)
  have hr2 : 1 ≤ r ^ 2 := by nlinarith
  generalize ‖p - x * (starRingEnd ℂ) x‖ = a at *
  generalize ‖q - y * (starRingEnd ℂ) y‖ = b at *
  generalize ‖p + q‖ = c at *
  generalize ‖p‖ = d at *
  generalize ‖q‖ = w at *
  generalize r ^ 2 = r2 at *
  clear e h3 h h'
  unfold delD uD tinyD at *
  norm_num at *
  linarith

/-- A computed product u conj(x). -/
theorem prod_near {X x U u : ℂ} {r : ℝ} (hr : 1 ≤ r) (hx : ‖x‖ ≤ r) (h : ‖X - x‖ ≤ delD * r) :
    ‖A.cmul U (A.conj X) - u * (starRingEnd ℂ) x‖
      ≤ 11 / 10 * (r * ‖U - u‖) + 11 / 10 * delD * (r * ‖u‖) + tinyD := by
  have h1 := hA.cmul U (A.conj X)
  rw [hA.conj, RCLike.norm_conj] at h1
  have hX := norm_near hA h
  have hU := norm_near hA (le_refl ‖U - u‖)
  have e : A.cmul U (A.conj X) - u * (starRingEnd ℂ) x = (A.cmul U (A.conj X) - U * (starRingEnd ℂ) X)
      + ((U - u) * (starRingEnd ℂ) X + u * (starRingEnd ℂ) (X - x)) := by rw [map_sub]; ring
  rw [e]
  rw [hA.conj]
  refine (norm_add_le _ _).trans ((add_le_add h1 (norm_add_le _ _)).trans ?_)
  rw [norm_mul, norm_mul, RCLike.norm_conj, RCLike.norm_conj]
  have hd : (0 : ℝ) < delD := by unfold delD; norm_num
  have hd1 : delD ≤ 1 / 100 := by unfold delD; norm_num
  have hX2 : ‖X‖ ≤ 101 / 100 * r := by nlinarith
  have m1 : ‖U - u‖ * ‖X‖ ≤ 101 / 100 * (r * ‖U - u‖) := by
    calc ‖U - u‖ * ‖X‖ ≤ ‖U - u‖ * (101 / 100 * r) := by gcongr
      _ = _ := by ring
  have m2 : ‖u‖ * ‖X - x‖ ≤ delD * (r * ‖u‖) := by
    calc ‖u‖ * ‖X - x‖ ≤ ‖u‖ * (delD * r) := by gcongr
      _ = _ := by ring
  have m3 : ‖U‖ * ‖X‖ ≤ 101 / 100 * (r * ‖u‖) + 101 / 100 * (r * ‖U - u‖) := by
    calc ‖U‖ * ‖X‖ ≤ (‖u‖ + ‖U - u‖) * (101 / 100 * r) := by gcongr
      _ = _ := by ring
  have z1 : 0 ≤ r * ‖U - u‖ := by positivity
  have z2 : 0 ≤ r * ‖u‖ := by positivity
  generalize ‖U‖ * ‖X‖ = a at *
  generalize ‖U - u‖ * ‖X‖ = b at *
  generalize ‖u‖ * ‖X - x‖ = c at *
  generalize r * ‖U - u‖ = d at *
  generalize r * ‖u‖ = w at *
  clear h h1 e hx hX hX2 hd hd1
  unfold delD uD tinyD at *
  norm_num at *
  linarith

/-- The computed quotient at one point, for |x|^2 + |y|^2 = r^2 with r ≥ 1. -/
theorem quo_near {X x Y y U u V v : ℂ} {r : ℝ} (hr : 1 ≤ r)
    (hR : x * (starRingEnd ℂ) x + y * (starRingEnd ℂ) y = ((r ^ 2 : ℝ) : ℂ)) (hx : ‖x‖ ≤ r) (hy : ‖y‖ ≤ r)
    (h : ‖X - x‖ ≤ delD * r) (h' : ‖Y - y‖ ≤ delD * r) :
    ‖quoAt A X Y U V - (u * (starRingEnd ℂ) x + v * (starRingEnd ℂ) y) / ((r ^ 2 : ℝ) : ℂ)‖
      ≤ 2 * ‖U - u‖ + 2 * ‖V - v‖ + 8 * delD * ‖u‖ + 8 * delD * ‖v‖ + 1 / 2 ^ 90 := by
  have hd := den_near hA hr hx hy h h'
  rw [hR] at hd
  have h1 := prod_near hA (U := U) (u := u) hr hx h
  have h2 := prod_near hA (U := V) (u := v) hr hy h'
  unfold quoAt
  set p := A.cmul U (A.conj X)
  set q := A.cmul V (A.conj Y)
  set D := A.cadd (A.cmul X (A.conj X)) (A.cmul Y (A.conj Y))
  have h3 := hA.cadd p q
  set P := A.cadd p q
  set w := u * (starRingEnd ℂ) x + v * (starRingEnd ℂ) y with hw
  have hr2 : 1 ≤ r ^ 2 := by nlinarith
  have hrr : r ≤ r ^ 2 := by nlinarith
  have hr0 : 0 < r := by linarith
  have hrn : ‖((r ^ 2 : ℝ) : ℂ)‖ = r ^ 2 := by rw [Complex.norm_real, Real.norm_of_nonneg (by positivity)]
  have hdd : delD = 1 / 2 ^ 29 := rfl
  have hDlow : 9 / 10 * r ^ 2 ≤ ‖D‖ := by
    have := norm_near hA (x := ((r ^ 2 : ℝ) : ℂ)) (y := D) (e := 5 * delD * r ^ 2) (by rw [norm_sub_rev]; exact hd)
    rw [hrn, hdd] at this
    norm_num at this
    linarith
  have hD0 : 0 < ‖D‖ := by linarith
  have hwn : ‖w‖ ≤ r * ‖u‖ + r * ‖v‖ := by
    rw [hw]
    refine (norm_add_le _ _).trans ?_
    rw [norm_mul, norm_mul, RCLike.norm_conj, RCLike.norm_conj, mul_comm r, mul_comm r]
    gcongr
  -- numerator
  have hP : ‖P - w‖ ≤ 12 / 10 * (r * ‖U - u‖) + 12 / 10 * (r * ‖V - v‖) + 12 / 10 * delD * (r * ‖u‖)
      + 12 / 10 * delD * (r * ‖v‖) + 4 * tinyD := by
    have e : P - w = (P - (p + q)) + ((p - u * (starRingEnd ℂ) x) + (q - v * (starRingEnd ℂ) y)) := by
      rw [hw]; ring
    rw [e]
    have n5 : ‖p + q‖ ≤ ‖w‖ + (‖p - u * (starRingEnd ℂ) x‖ + ‖q - v * (starRingEnd ℂ) y‖) := by
      have e2 : p + q = w + ((p - u * (starRingEnd ℂ) x) + (q - v * (starRingEnd ℂ) y)) := by rw [hw]; ring
      rw [e2]
      exact (norm_add_le _ _).trans (add_le_add le_rfl (norm_add_le _ _))
    refine (norm_add_le _ _).trans ((add_le_add h3 (norm_add_le _ _)).trans ?_)
    have z1 : 0 ≤ r * ‖U - u‖ := by positivity
    have z2 : 0 ≤ r * ‖V - v‖ := by positivity
    have z3 : 0 ≤ r * ‖u‖ := by positivity
    have z4 : 0 ≤ r * ‖v‖ := by positivity
    generalize ‖p - u * (starRingEnd ℂ) x‖ = a at *
    generalize ‖q - v * (starRingEnd ℂ) y‖ = b at *
    generalize ‖p + q‖ = c at *
    generalize ‖w‖ = d at *
    generalize r * ‖U - u‖ = y1 at *
    generalize r * ‖V - v‖ = y2 at *
    generalize r * ‖u‖ = y3 at *
    generalize r * ‖v‖ = y4 at *
    clear e h3 h h' hR hd hx hy hDlow hD0 hr2 hrr hr0 hrn hdd hr
    unfold delD uD tinyD at *
    norm_num at *
    linarith
  -- quotient
  have hq := hA.cdiv P D (by
    have : (1 : ℝ) / 2 ^ 20 ≤ 9 / 10 := by norm_num
    linarith)
  have hDne : D ≠ 0 := norm_pos_iff.mp hD0
  have hRne : ((r ^ 2 : ℝ) : ℂ) ≠ 0 := by
    rw [← norm_pos_iff, hrn]; linarith
  have e : A.cdiv P D - w / ((r ^ 2 : ℝ) : ℂ) = (A.cdiv P D - P / D)
      + ((P - w) / D + w * (((r ^ 2 : ℝ) : ℂ) - D) / (((r ^ 2 : ℝ) : ℂ) * D)) := by
    field_simp
    ring
  rw [e]
  have eP : P / D = (P - w) / D + w / D := by ring
  have b1 : ‖(P - w) / D‖ ≤ 10 / 9 * (‖P - w‖ / r ^ 2) := by
    rw [norm_div, div_le_iff₀ hD0]
    have : 10 / 9 * (‖P - w‖ / r ^ 2) * (9 / 10 * r ^ 2) = ‖P - w‖ := by field_simp
    calc ‖P - w‖ = 10 / 9 * (‖P - w‖ / r ^ 2) * (9 / 10 * r ^ 2) := this.symm
      _ ≤ _ := by gcongr
  have b2 : ‖w / D‖ ≤ 10 / 9 * (‖w‖ / r ^ 2) := by
    rw [norm_div, div_le_iff₀ hD0]
    have : 10 / 9 * (‖w‖ / r ^ 2) * (9 / 10 * r ^ 2) = ‖w‖ := by field_simp
    calc ‖w‖ = 10 / 9 * (‖w‖ / r ^ 2) * (9 / 10 * r ^ 2) := this.symm
      _ ≤ _ := by gcongr
  have b3 : ‖w * (((r ^ 2 : ℝ) : ℂ) - D) / (((r ^ 2 : ℝ) : ℂ) * D)‖ ≤ 50 / 9 * delD * (‖w‖ / r ^ 2) := by
    have e3 : w * (((r ^ 2 : ℝ) : ℂ) - D) / (((r ^ 2 : ℝ) : ℂ) * D)
        = w / D * ((((r ^ 2 : ℝ) : ℂ) - D) / ((r ^ 2 : ℝ) : ℂ)) := by field_simp
    rw [e3, norm_mul]
    have : ‖(((r ^ 2 : ℝ) : ℂ) - D) / ((r ^ 2 : ℝ) : ℂ)‖ ≤ 5 * delD := by
      rw [norm_div, hrn, div_le_iff₀ (by linarith), norm_sub_rev]; exact hd
    calc ‖w / D‖ * ‖(((r ^ 2 : ℝ) : ℂ) - D) / ((r ^ 2 : ℝ) : ℂ)‖
        ≤ (10 / 9 * (‖w‖ / r ^ 2)) * (5 * delD) := by gcongr
      _ = _ := by ring
  have c1 : ‖w‖ / r ^ 2 ≤ ‖u‖ + ‖v‖ := by
    rw [div_le_iff₀ (by positivity)]
    have : r * ‖u‖ + r * ‖v‖ ≤ (‖u‖ + ‖v‖) * r ^ 2 := by
      calc r * ‖u‖ + r * ‖v‖ = (‖u‖ + ‖v‖) * r := by ring
        _ ≤ _ := by gcongr
    linarith
  have c2 : ‖P - w‖ / r ^ 2 ≤ 12 / 10 * ‖U - u‖ + 12 / 10 * ‖V - v‖ + 12 / 10 * delD * ‖u‖
      + 12 / 10 * delD * ‖v‖ + 4 * tinyD := by
    rw [div_le_iff₀ (by positivity)]
    have hd0 : 0 ≤ delD := by rw [hdd]; positivity
    have ht := tinyD_pos
    calc ‖P - w‖ ≤ _ := hP
      _ = (12 / 10 * ‖U - u‖ + 12 / 10 * ‖V - v‖ + 12 / 10 * delD * ‖u‖ + 12 / 10 * delD * ‖v‖) * r
          + 4 * tinyD * 1 := by ring
      _ ≤ (12 / 10 * ‖U - u‖ + 12 / 10 * ‖V - v‖ + 12 / 10 * delD * ‖u‖ + 12 / 10 * delD * ‖v‖) * r ^ 2
          + 4 * tinyD * r ^ 2 := by gcongr
      _ = _ := by ring
  have b4 : ‖P / D‖ ≤ ‖(P - w) / D‖ + ‖w / D‖ := by rw [eP]; exact norm_add_le _ _
  refine (norm_add_le _ _).trans ((add_le_add hq (norm_add_le _ _)).trans ?_)
  have z1 := norm_nonneg (U - u)
  have z2 := norm_nonneg (V - v)
  have z3 := norm_nonneg u
  have z4 := norm_nonneg v
  generalize ‖P / D‖ = a1 at *
  generalize ‖(P - w) / D‖ = a2 at *
  generalize ‖w / D‖ = a3 at *
  generalize ‖w * (((r ^ 2 : ℝ) : ℂ) - D) / (((r ^ 2 : ℝ) : ℂ) * D)‖ = a4 at *
  generalize ‖P - w‖ / r ^ 2 = a5 at *
  generalize ‖w‖ / r ^ 2 = a6 at *
  generalize ‖U - u‖ = a7 at *
  generalize ‖V - v‖ = a8 at *
  generalize ‖u‖ = a9 at *
  generalize ‖v‖ = a10 at *
  clear e eP hq hDne hRne hP h3 h h' hR hd hx hy hDlow hD0 hr2 hrr hr0 hrn hdd hr hwn h1 h2
  unfold delD uD tinyD at *
  norm_num at *
  linarith

end

end Falcon
