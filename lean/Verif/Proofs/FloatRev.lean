import Verif.Proofs.FloatVec

/-!
# Rounding errors of the signature vector, from a bound on the exact vector
-/

namespace Falcon

open Finset Polynomial

/-- The inequalities of `core_rev`, solved. -/
theorem core_num_rev {s N r0 r1 p0 p1 c0 c1 x0 x1 y0 y1 l0 l1 j0 j1 h0 h1 o0 o1 v0 v1 g0 g1 : ℝ}
    (hs : 22 ≤ s) (hN : 22 * s ≤ N) (hsum : p0 + p1 ≤ 11856 * s)
    (E0 : r0 ≤ 21 / 20 * kapD * aK * x0 + 21 / 20 * kapD * bK * x1 + 1 / 2 ^ 90 * s)
    (E1 : r1 ≤ 21 / 20 * kapD * aK * x0 + 21 / 20 * kapD * bK * x1 + 1 / 2 ^ 90 * s)
    (X0 : c0 ≤ bK / 12289 * p0 + bK / 12289 * p1) (X1 : c1 ≤ aK / 12289 * p0 + aK / 12289 * p1)
    (hT0 : y0 ≤ 12 / 5 * kapD * (bK * N)) (ht0 : l0 ≤ bK * N)
    (hT1 : y1 ≤ 12 / 5 * kapD * (aK * N)) (ht1 : l1 ≤ aK * N)
    (z0 : j0 ≤ kapD * (h0 + N)) (z1 : j1 ≤ kapD * (h1 + N))
    (Ew0 : o0 ≤ 2 * uD * x0 + 1 / 2 ^ 90 * s) (Ew1 : o1 ≤ 2 * uD * x1 + 1 / 2 ^ 90 * s)
    (D0 : h0 ≤ l0 + c0) (D1 : h1 ≤ l1 + c1) (G0 : x0 ≤ c0 + v0) (G1 : x1 ≤ c1 + v1)
    (d0 : v0 ≤ o0 + y0 + j0) (d1 : v1 ≤ o1 + y1 + j1)
    (F0 : g0 ≤ r0 + aK * v0 + bK * v1) (F1 : g1 ≤ r1 + aK * v0 + bK * v1) :
    g0 ≤ 36 / 5 / 2 ^ 15 * N ∧ g1 ≤ 36 / 5 / 2 ^ 15 * N := by
  unfold aK bK kapD uD at *
  have hx0 : c0 ≤ 2 ^ 17 * s := by
    clear E0 E1 hT0 hT1 ht0 ht1 z0 z1 Ew0 Ew1 D0 D1 d0 d1 F0 F1 G0 G1 X1; linarith
  have hx1 : c1 ≤ 2 ^ 14 * s := by
    clear E0 E1 hT0 hT1 ht0 ht1 z0 z1 Ew0 Ew1 D0 D1 d0 d1 F0 F1 G0 G1 X0 hx0; linarith
  clear X0 X1 hsum
  have hj0 : j0 ≤ 11 / 10 / 2 ^ 46 * (2 ^ 17 * N) := by
    clear E0 E1 d0 d1 F0 F1 D1 Ew0 Ew1 z1 ht1 hT1 hx1 hT0 G0 G1; linarith
  have hj1 : j1 ≤ 11 / 10 / 2 ^ 46 * (2 ^ 14 * N) := by
    clear E0 E1 d0 d1 F0 F1 D0 Ew0 Ew1 z0 ht0 hT0 hx0 hT1 G0 G1 hj0; linarith
  clear z0 z1 D0 D1 ht0 ht1
  have hv0 : v0 ≤ 176 / 50 / 2 ^ 46 * (2 ^ 17 * N) := by
    clear E0 E1 d1 F0 F1 Ew1 hT1 hx1 G1 hj1; linarith
  have hv1 : v1 ≤ 176 / 50 / 2 ^ 46 * (2 ^ 14 * N) := by
    clear E0 E1 d0 F0 F1 Ew0 hT0 hx0 G0 hj0 hv0; linarith
  clear d0 d1 hj0 hj1 Ew0 Ew1 hT0 hT1
  have hr0 : r0 ≤ 22 / 10 / 2 ^ 15 * s + 1 / 2 ^ 40 * N := by clear F0 F1 E1; linarith
  have hr1 : r1 ≤ 22 / 10 / 2 ^ 15 * s + 1 / 2 ^ 40 * N := by clear F0 F1 E0 hr0; linarith
  clear E0 E1 hx0 hx1 G0 G1
  constructor
  · linarith
  · linarith

section
variable {A : Arith ℝ ℂ} (hA : Accurate A)
include hA

/-- The vector of signing, in floating point and exactly; the bound is known for the exact vector. -/
theorem core_rev {n : ℕ} (hn : ValidLog n) {B0 B1 B2 B3 b0 b1 b2 b3 T0 T1 t0 t1 Z0 Z1 W0 W1 w0 w1 S0 S1 : Mem ℂ}
    {a0 a1 : Mem Int} (hB0 : NearBas n aK B0 b0) (hB1 : NearBas n aK B1 b1) (hB2 : NearBas n bK B2 b2)
    (hB3 : NearBas n bK B3 b3) (det : ∀ i, i < 2 ^ n → b0 i * b3 i - b1 i * b2 i = 12289)
    (hT0 : nC (2 ^ n) (fun i => T0 i - t0 i) ≤ 12 / 5 * kapD * (bK * 2 ^ n)) (ht0 : nC (2 ^ n) t0 ≤ bK * 2 ^ n)
    (hT1 : nC (2 ^ n) (fun i => T1 i - t1 i) ≤ 12 / 5 * kapD * (aK * 2 ^ n)) (ht1 : nC (2 ^ n) t1 ≤ aK * 2 ^ n)
    (hZ0 : NearInt n Z0 a0) (hZ1 : NearInt n Z1 a1)
    (hW0 : ∀ i, i < 2 ^ n → W0 i = A.csub (T0 i) (Z0 i)) (hW1 : ∀ i, i < 2 ^ n → W1 i = A.csub (T1 i) (Z1 i))
    (hw0 : ∀ i, w0 i = t0 i - dft n (zC a0) i) (hw1 : ∀ i, w1 i = t1 i - dft n (zC a1) i)
    (hS0 : ∀ i, i < 2 ^ n → S0 i = A.cadd (A.cmul (W0 i) (B0 i)) (A.cmul (W1 i) (B2 i)))
    (hS1 : ∀ i, i < 2 ^ n → S1 i = A.cadd (A.cmul (W0 i) (B1 i)) (A.cmul (W1 i) (B3 i)))
    (hnorm : nC (2 ^ n) (fun i => w0 i * b0 i + w1 i * b2 i) ^ 2
      + nC (2 ^ n) (fun i => w0 i * b1 i + w1 i * b3 i) ^ 2 ≤ 2 ^ n * 70270000) :
    nC (2 ^ n) (fun i => S0 i - (w0 i * b0 i + w1 i * b2 i))
      ≤ 36 / 5 / 2 ^ 15 * 2 ^ n ∧
    nC (2 ^ n) (fun i => S1 i - (w0 i * b1 i + w1 i * b3 i))
      ≤ 36 / 5 / 2 ^ 15 * 2 ^ n := by
  have hn10 : n ≤ 10 := by rcases hn with rfl | rfl <;> norm_num
  have hu := uD_pos
  have htp := tinyD_pos
  have hk := kapD_pos
  have ha := aK_pos
  have hb := bK_pos
  obtain ⟨hs1, hs2⟩ := sqrt2_bounds hn
  have hsN := sqrt2_sq n
  have hsq := sqrt_pow2 n
  -- rounding of the last products
  have e0 : ∀ i, i < 2 ^ n → ‖S0 i - (W0 i * b0 i + W1 i * b2 i)‖
      ≤ 21 / 20 * kapD * aK * ‖W0 i‖ + 21 / 20 * kapD * bK * ‖W1 i‖ + 4 * tinyD := fun i hi => by
    rw [hS0 i hi]
    exact comb_near hA (hB0 i hi).1 (hB0 i hi).2.2 (hB2 i hi).1 (hB2 i hi).2.2
  have e1 : ∀ i, i < 2 ^ n → ‖S1 i - (W0 i * b1 i + W1 i * b3 i)‖
      ≤ 21 / 20 * kapD * aK * ‖W0 i‖ + 21 / 20 * kapD * bK * ‖W1 i‖ + 4 * tinyD := fun i hi => by
    rw [hS1 i hi]
    exact comb_near hA (hB1 i hi).1 (hB1 i hi).2.2 (hB3 i hi).1 (hB3 i hi).2.2
  have ca : 0 ≤ 21 / 20 * kapD * aK := by positivity
  have cb : 0 ≤ 21 / 20 * kapD * bK := by positivity
  have c4 : 0 ≤ 4 * tinyD := by linarith
  have E0 := nC_maj2 ca cb c4 e0
  have E1 := nC_maj2 ca cb c4 e1
  -- the exact differences are bounded by the norm
  have q0 : ∀ i, i < 2 ^ n → ‖w0 i‖ ≤ bK / 12289 * ‖w0 i * b0 i + w1 i * b2 i‖
      + bK / 12289 * ‖w0 i * b1 i + w1 i * b3 i‖ + 0 := by
    intro i hi
    have h := det i hi
    have e : w0 i = ((w0 i * b0 i + w1 i * b2 i) * b3 i - (w0 i * b1 i + w1 i * b3 i) * b2 i) / 12289 := by
      rw [eq_div_iff (by norm_num), ← h]; ring
    have hq : ‖(12289 : ℂ)‖ = 12289 := by
      rw [show (12289 : ℂ) = ((12289 : ℝ) : ℂ) by push_cast; rfl, Complex.norm_real]; norm_num
    have h2 : ‖w0 i‖ = ‖(w0 i * b0 i + w1 i * b2 i) * b3 i - (w0 i * b1 i + w1 i * b3 i) * b2 i‖ / 12289 := by
      conv_lhs => rw [e]
      rw [norm_div, hq]
    rw [h2]
    have h3 := norm_sub_le ((w0 i * b0 i + w1 i * b2 i) * b3 i) ((w0 i * b1 i + w1 i * b3 i) * b2 i)
    rw [norm_mul, norm_mul] at h3
    have h4 : ‖w0 i * b0 i + w1 i * b2 i‖ * ‖b3 i‖ ≤ ‖w0 i * b0 i + w1 i * b2 i‖ * bK :=
      mul_le_mul_of_nonneg_left (hB3 i hi).2.1 (norm_nonneg _)
    have h5 : ‖w0 i * b1 i + w1 i * b3 i‖ * ‖b2 i‖ ≤ ‖w0 i * b1 i + w1 i * b3 i‖ * bK :=
      mul_le_mul_of_nonneg_left (hB2 i hi).2.1 (norm_nonneg _)
    rw [div_le_iff₀ (by norm_num)]
    calc _ ≤ ‖w0 i * b0 i + w1 i * b2 i‖ * bK + ‖w0 i * b1 i + w1 i * b3 i‖ * bK := by linarith
      _ = _ := by ring
  have q1 : ∀ i, i < 2 ^ n → ‖w1 i‖ ≤ aK / 12289 * ‖w0 i * b0 i + w1 i * b2 i‖
      + aK / 12289 * ‖w0 i * b1 i + w1 i * b3 i‖ + 0 := by
    intro i hi
    have h := det i hi
    have e : w1 i = ((w0 i * b1 i + w1 i * b3 i) * b0 i - (w0 i * b0 i + w1 i * b2 i) * b1 i) / 12289 := by
      rw [eq_div_iff (by norm_num), ← h]; ring
    have hq : ‖(12289 : ℂ)‖ = 12289 := by
      rw [show (12289 : ℂ) = ((12289 : ℝ) : ℂ) by push_cast; rfl, Complex.norm_real]; norm_num
    have h2 : ‖w1 i‖ = ‖(w0 i * b1 i + w1 i * b3 i) * b0 i - (w0 i * b0 i + w1 i * b2 i) * b1 i‖ / 12289 := by
      conv_lhs => rw [e]
      rw [norm_div, hq]
    rw [h2]
    have h3 := norm_sub_le ((w0 i * b1 i + w1 i * b3 i) * b0 i) ((w0 i * b0 i + w1 i * b2 i) * b1 i)
    rw [norm_mul, norm_mul] at h3
    have h4 : ‖w0 i * b0 i + w1 i * b2 i‖ * ‖b1 i‖ ≤ ‖w0 i * b0 i + w1 i * b2 i‖ * aK :=
      mul_le_mul_of_nonneg_left (hB1 i hi).2.1 (norm_nonneg _)
    have h5 : ‖w0 i * b1 i + w1 i * b3 i‖ * ‖b0 i‖ ≤ ‖w0 i * b1 i + w1 i * b3 i‖ * aK :=
      mul_le_mul_of_nonneg_left (hB0 i hi).2.1 (norm_nonneg _)
    rw [div_le_iff₀ (by norm_num)]
    calc _ ≤ ‖w0 i * b0 i + w1 i * b2 i‖ * aK + ‖w0 i * b1 i + w1 i * b3 i‖ * aK := by linarith
      _ = _ := by ring
  have X0 := nC_maj2 (by positivity) (by positivity) le_rfl q0
  have X1 := nC_maj2 (by positivity) (by positivity) le_rfl q1
  rw [mul_zero, add_zero] at X0 X1
  rw [hsq] at E0 E1
  -- errors of the sampled vectors
  have z0 : nC (2 ^ n) (fun i => Z0 i - dft n (zC a0) i)
      ≤ kapD * (nC (2 ^ n) (dft n (zC a0)) + 2 ^ n) := by
    have h1 := Mz_le n a0
    have h2 := gam_le hn10
    have h3 := Mz_nonneg n a0
    have h4 := gam_nonneg n
    have hs0 : 0 ≤ Real.sqrt 2 ^ n := by positivity
    rw [nC_dft hn10]
    refine le_trans hZ0 ?_
    calc Real.sqrt 2 ^ n * gam n * Mz n a0 ≤ Real.sqrt 2 ^ n * kapD * (nC (2 ^ n) (zC a0) + Real.sqrt 2 ^ n) := by
          gcongr
      _ = _ := by rw [← hsN]; ring
  have z1 : nC (2 ^ n) (fun i => Z1 i - dft n (zC a1) i)
      ≤ kapD * (nC (2 ^ n) (dft n (zC a1)) + 2 ^ n) := by
    have h1 := Mz_le n a1
    have h2 := gam_le hn10
    have h3 := Mz_nonneg n a1
    have h4 := gam_nonneg n
    have hs0 : 0 ≤ Real.sqrt 2 ^ n := by positivity
    rw [nC_dft hn10]
    refine le_trans hZ1 ?_
    calc Real.sqrt 2 ^ n * gam n * Mz n a1 ≤ Real.sqrt 2 ^ n * kapD * (nC (2 ^ n) (zC a1) + Real.sqrt 2 ^ n) := by
          gcongr
      _ = _ := by rw [← hsN]; ring
  -- differences
  have v0 : ∀ i, i < 2 ^ n → ‖W0 i - (T0 i - Z0 i)‖ ≤ 2 * uD * ‖W0 i‖ + 2 * tinyD := by
    intro i hi
    have h := hA.csub (T0 i) (Z0 i)
    rw [← hW0 i hi] at h
    have h2 : ‖T0 i - Z0 i‖ ≤ ‖W0 i‖ + ‖W0 i - (T0 i - Z0 i)‖ := by
      have := norm_sub_le (W0 i) (W0 i - (T0 i - Z0 i))
      rwa [sub_sub_cancel] at this
    have h3 := norm_nonneg (W0 i)
    generalize ‖W0 i - (T0 i - Z0 i)‖ = x at *
    generalize ‖T0 i - Z0 i‖ = y at *
    generalize ‖W0 i‖ = z at *
    clear E0 E1 X0 X1 hT0 hT1 z0 z1 e0 e1 q0 q1 hB0 hB1 hB2 hB3 hu htp hk ca cb c4
    unfold uD tinyD at *
    norm_num at *
    linarith
  have v1 : ∀ i, i < 2 ^ n → ‖W1 i - (T1 i - Z1 i)‖ ≤ 2 * uD * ‖W1 i‖ + 2 * tinyD := by
    intro i hi
    have h := hA.csub (T1 i) (Z1 i)
    rw [← hW1 i hi] at h
    have h2 : ‖T1 i - Z1 i‖ ≤ ‖W1 i‖ + ‖W1 i - (T1 i - Z1 i)‖ := by
      have := norm_sub_le (W1 i) (W1 i - (T1 i - Z1 i))
      rwa [sub_sub_cancel] at this
    have h3 := norm_nonneg (W1 i)
    generalize ‖W1 i - (T1 i - Z1 i)‖ = x at *
    generalize ‖T1 i - Z1 i‖ = y at *
    generalize ‖W1 i‖ = z at *
    clear E0 E1 X0 X1 hT0 hT1 z0 z1 e0 e1 q0 q1 hB0 hB1 hB2 hB3 hu htp hk ca cb c4 v0
    unfold uD tinyD at *
    norm_num at *
    linarith
  have Ew0 := nC_maj1 (by linarith) (by linarith) v0
  have Ew1 := nC_maj1 (by linarith) (by linarith) v1
  rw [hsq] at Ew0 Ew1
  -- size of the sampled vectors
  have D0 : nC (2 ^ n) (dft n (zC a0)) ≤ nC (2 ^ n) t0 + nC (2 ^ n) w0 := by
    have e : dft n (zC a0) = fun i => t0 i - w0 i := by funext i; rw [hw0]; ring
    rw [e]; exact nC_sub_le _ _ _
  have D1 : nC (2 ^ n) (dft n (zC a1)) ≤ nC (2 ^ n) t1 + nC (2 ^ n) w1 := by
    have e : dft n (zC a1) = fun i => t1 i - w1 i := by funext i; rw [hw1]; ring
    rw [e]; exact nC_sub_le _ _ _
  have G0 : nC (2 ^ n) W0 ≤ nC (2 ^ n) w0 + nC (2 ^ n) (fun i => W0 i - w0 i) := nC_le_of
  have G1 : nC (2 ^ n) W1 ≤ nC (2 ^ n) w1 + nC (2 ^ n) (fun i => W1 i - w1 i) := nC_le_of
  have d0 : nC (2 ^ n) (fun i => W0 i - w0 i) ≤ nC (2 ^ n) (fun i => W0 i - (T0 i - Z0 i))
      + nC (2 ^ n) (fun i => T0 i - t0 i) + nC (2 ^ n) (fun i => Z0 i - dft n (zC a0) i) :=
    nC_comb3 (2 ^ n) _ _ _ (fun i _ => by rw [hw0]; ring)
  have d1 : nC (2 ^ n) (fun i => W1 i - w1 i) ≤ nC (2 ^ n) (fun i => W1 i - (T1 i - Z1 i))
      + nC (2 ^ n) (fun i => T1 i - t1 i) + nC (2 ^ n) (fun i => Z1 i - dft n (zC a1) i) :=
    nC_comb3 (2 ^ n) _ _ _ (fun i _ => by rw [hw1]; ring)
  have fin : ∀ {S c c' : Mem ℂ}, (∀ i, i < 2 ^ n → ‖c i‖ ≤ aK) → (∀ i, i < 2 ^ n → ‖c' i‖ ≤ bK) →
      nC (2 ^ n) (fun i => S i - (w0 i * c i + w1 i * c' i))
      ≤ 1 * nC (2 ^ n) (fun i => S i - (W0 i * c i + W1 i * c' i))
        + aK * nC (2 ^ n) (fun i => W0 i - w0 i)
        + bK * nC (2 ^ n) (fun i => W1 i - w1 i) + Real.sqrt ((2 ^ n : ℕ) : ℝ) * 0 := by
    intro S c c' hc hc'
    refine nC_maj3 (by norm_num) ha.le hb.le le_rfl ?_
    intro i hi
    have e : S i - (w0 i * c i + w1 i * c' i)
        = (S i - (W0 i * c i + W1 i * c' i)) + ((W0 i - w0 i) * c i
          + (W1 i - w1 i) * c' i) := by ring
    rw [e]
    refine (norm_add_le _ _).trans ((add_le_add le_rfl (norm_add_le _ _)).trans ?_)
    rw [norm_mul, norm_mul]
    have h1 := mul_le_mul_of_nonneg_left (hc i hi) (norm_nonneg (W0 i - w0 i))
    have h2 := mul_le_mul_of_nonneg_left (hc' i hi) (norm_nonneg (W1 i - w1 i))
    linarith
  have F0 := fin (S := S0) (fun i hi => (hB0 i hi).2.1) (fun i hi => (hB2 i hi).2.1)
  have F1 := fin (S := S1) (fun i hi => (hB1 i hi).2.1) (fun i hi => (hB3 i hi).2.1)
  rw [mul_zero, add_zero, one_mul] at F0 F1
  have hN : 22 * Real.sqrt 2 ^ n ≤ 2 ^ n := by rw [← hsN]; nlinarith
  have hsum : nC (2 ^ n) (fun i => w0 i * b0 i + w1 i * b2 i) + nC (2 ^ n) (fun i => w0 i * b1 i + w1 i * b3 i)
      ≤ 11856 * Real.sqrt 2 ^ n := by
    rw [← hsN] at hnorm
    generalize nC (2 ^ n) (fun i => w0 i * b0 i + w1 i * b2 i) = m0 at *
    generalize nC (2 ^ n) (fun i => w0 i * b1 i + w1 i * b3 i) = m1 at *
    refine (abs_le_of_sq_le_sq' ?_ (by positivity)).2
    have hxy := sq_nonneg (m0 - m1)
    have hss := sq_nonneg (Real.sqrt 2 ^ n)
    calc (m0 + m1) ^ 2
        = 2 * (m0 ^ 2 + m1 ^ 2) - (m0 - m1) ^ 2 := by ring
      _ ≤ 2 * (Real.sqrt 2 ^ n * Real.sqrt 2 ^ n * 70270000) := by linarith
      _ = 140540000 * (Real.sqrt 2 ^ n) ^ 2 := by ring
      _ ≤ 11856 ^ 2 * (Real.sqrt 2 ^ n) ^ 2 := mul_le_mul_of_nonneg_right (by norm_num) hss
      _ = _ := by ring
  clear fin v0 v1 q0 q1 e0 e1 hnorm hZ0 hZ1 hS0 hS1 hW0 hW1 hw0 hw1 hB0 hB1 hB2 hB3 det hsq hu hk ca cb c4
  generalize nC (2 ^ n) (fun i => S0 i - (w0 i * b0 i + w1 i * b2 i)) = g0 at *
  generalize nC (2 ^ n) (fun i => S1 i - (w0 i * b1 i + w1 i * b3 i)) = g1 at *
  generalize nC (2 ^ n) (fun i => W0 i - w0 i) = v0 at *
  generalize nC (2 ^ n) (fun i => W1 i - w1 i) = v1 at *
  generalize nC (2 ^ n) (fun i => S0 i - (W0 i * b0 i + W1 i * b2 i)) = r0 at *
  generalize nC (2 ^ n) (fun i => S1 i - (W0 i * b1 i + W1 i * b3 i)) = r1 at *
  generalize nC (2 ^ n) (fun i => w0 i * b0 i + w1 i * b2 i) = p0 at *
  generalize nC (2 ^ n) (fun i => w0 i * b1 i + w1 i * b3 i) = p1 at *
  generalize nC (2 ^ n) (fun i => W0 i - (T0 i - Z0 i)) = o0 at *
  generalize nC (2 ^ n) (fun i => W1 i - (T1 i - Z1 i)) = o1 at *
  generalize nC (2 ^ n) (fun i => T0 i - t0 i) = y0 at *
  generalize nC (2 ^ n) (fun i => T1 i - t1 i) = y1 at *
  generalize nC (2 ^ n) (fun i => Z0 i - dft n (zC a0) i) = j0 at *
  generalize nC (2 ^ n) (fun i => Z1 i - dft n (zC a1) i) = j1 at *
  generalize nC (2 ^ n) (dft n (zC a0)) = h0 at *
  generalize nC (2 ^ n) (dft n (zC a1)) = h1 at *
  generalize nC (2 ^ n) t0 = l0 at *
  generalize nC (2 ^ n) t1 = l1 at *
  generalize nC (2 ^ n) W0 = x0 at *
  generalize nC (2 ^ n) W1 = x1 at *
  generalize nC (2 ^ n) w0 = c0 at *
  generalize nC (2 ^ n) w1 = c1 at *
  have htiny : Real.sqrt 2 ^ n * (4 * tinyD) ≤ 1 / 2 ^ 90 * Real.sqrt 2 ^ n := by
    rw [mul_comm]
    exact mul_le_mul_of_nonneg_right (by unfold tinyD; norm_num) (by linarith)
  have htiny2 : Real.sqrt 2 ^ n * (2 * tinyD) ≤ 1 / 2 ^ 90 * Real.sqrt 2 ^ n := by
    rw [mul_comm]
    exact mul_le_mul_of_nonneg_right (by unfold tinyD; norm_num) (by linarith)
  replace E0 := E0.trans (add_le_add le_rfl htiny)
  replace E1 := E1.trans (add_le_add le_rfl htiny)
  replace Ew0 := Ew0.trans (add_le_add le_rfl htiny2)
  replace Ew1 := Ew1.trans (add_le_add le_rfl htiny2)
  clear htiny htiny2 htp hsN
  generalize Real.sqrt 2 ^ n = s at *
  generalize (2 : ℝ) ^ n = N at *
  exact core_num_rev hs1 hN hsum E0 E1 X0 X1 hT0 ht0 hT1 ht1 z0 z1 Ew0 Ew1 D0 D1 G0 G1 d0 d1 F0 F1


theorem normC_le {n : ℕ} (hn : n ≤ 10) (x : Mem ℂ) :
    sqrdNormC A n x ≤ (1 + 1 / 2 ^ 37) * (nC (2 ^ n) x ^ 2 / 2 ^ n) + 1 / 2 ^ 37 := by
  have h2n : (2 : ℕ) ^ n ≤ 1024 := (Nat.pow_le_pow_right (by norm_num) hn).trans (by norm_num)
  have h := acc_err hA x (2 ^ n) h2n
  rw [nC_sq]
  unfold sqrdNormC
  simp only
  rw [one_shiftLeft']
  set r := loop (2 ^ n) (fun i res => A.cadd res (A.cmul (x i) (A.conj (x i)))) (A.cx (A.lit 0) (A.lit 0))
  have hP : 0 ≤ ∑ i ∈ range (2 ^ n), ‖x i‖ ^ 2 := sum_nonneg fun _ _ => by positivity
  set P := ∑ i ∈ range (2 ^ n), ‖x i‖ ^ 2
  have hl : A.lit (2 ^ n) = 2 ^ n := by
    have := hA.lit_small (2 ^ n) (by
      rw [abs_of_nonneg (by positivity)]
      exact pow_le_pow_right₀ (by norm_num) (by omega))
    push_cast at this
    exact this
  have hNp : (1 : ℝ) ≤ 2 ^ n := one_le_pow₀ (by norm_num)
  have hN2 : (2 : ℝ) ^ n ≤ 1024 := by exact_mod_cast h2n
  rw [hl, hA.re]
  have hd := hA.div r.re (2 ^ n) (by rw [abs_of_nonneg (by positivity)]; exact hNp)
  have hre : |r.re - P| ≤ 8 * uD * (2 ^ n : ℕ) * (P + 1) := by
    have := Complex.abs_re_le_norm (r - (P : ℂ))
    rw [Complex.sub_re, Complex.ofReal_re] at this
    exact this.trans h
  have hre2 : 8 * uD * (2 ^ n : ℕ) * (P + 1) ≤ 1 / 2 ^ 40 * (P + 1) := by
    apply mul_le_mul_of_nonneg_right _ (by linarith)
    push_cast
    have : 8 * uD * 2 ^ n ≤ 8 * uD * 1024 := mul_le_mul_of_nonneg_left hN2 (by have := uD_pos; linarith)
    refine this.trans ?_
    unfold uD; norm_num
  have hre3 := hre.trans hre2
  rw [abs_le] at hre3
  set D := A.div r.re (2 ^ n)
  set N : ℝ := 2 ^ n
  have hNpos : 0 < N := by linarith
  rw [abs_div, abs_of_pos hNpos] at hd
  have e1 : |r.re| ≤ P + 1 / 2 ^ 40 * (P + 1) := by rw [abs_le]; constructor <;> linarith
  have e1' : r.re ≤ P + 1 / 2 ^ 40 * (P + 1) := (le_abs_self _).trans e1
  have e2 : D ≤ r.re / N + uD * (|r.re| / N) + tinyD := by
    have := (abs_le.mp hd).2
    linarith
  have e3 : D ≤ (P + 1 / 2 ^ 40 * (P + 1) + uD * (P + 1 / 2 ^ 40 * (P + 1))) / N + tinyD := by
    refine le_trans e2 ?_
    have : (r.re + uD * |r.re|) / N ≤ (P + 1 / 2 ^ 40 * (P + 1) + uD * (P + 1 / 2 ^ 40 * (P + 1))) / N := by
      apply div_le_div_of_nonneg_right _ hNpos.le
      have := mul_le_mul_of_nonneg_left e1 uD_pos.le
      linarith
    have e : (r.re + uD * |r.re|) / N = r.re / N + uD * (|r.re| / N) := by ring
    rw [e] at this
    linarith
  have e4 : (P + 1 / 2 ^ 40 * (P + 1) + uD * (P + 1 / 2 ^ 40 * (P + 1))) / N ≤ (1 + 1 / 2 ^ 38) * (P / N) + 1 / 2 ^ 39 / N := by
    rw [← mul_div_assoc, ← add_div]
    apply div_le_div_of_nonneg_right _ hNpos.le
    unfold uD; norm_num; linarith
  have e5 : 1 / 2 ^ 39 / N ≤ 1 / 2 ^ 39 := div_le_self (by norm_num) hNp
  have e6 : tinyD ≤ 1 / 2 ^ 60 := by unfold tinyD; norm_num
  have e7 : 0 ≤ P / N := by positivity
  generalize P / N = v at *
  have e8 : D ≤ (1 + 1 / 2 ^ 38) * v + 1 / 2 ^ 39 + 1 / 2 ^ 60 := by linarith
  clear e1 e1' e2 e3 e4 hd hre hre2 hre3
  norm_num at *
  linarith

/-- The norm test accepts vectors that are short enough. -/
theorem norm_test {n : ℕ} (hn : ValidLog n) {S0 S1 : Mem ℂ}
    (h : nC (2 ^ n) S0 ^ 2 + nC (2 ^ n) S1 ^ 2 ≤ 2 ^ n * (betaSq n - 1)) :
    A.le (signNorm A n S0 S1) (A.lit (beta2 n)) = true := by
  have hn10 : n ≤ 10 := by rcases hn with rfl | rfl <;> norm_num
  have hb : betaSq n ≤ 70265242 ∧ 34034726 ≤ betaSq n := by unfold betaSq; split <;> norm_num
  rw [hA.le]
  have hl := hA.lit_small (beta2 n) (by
    rw [beta2_eq hn, abs_of_nonneg (by omega)]
    exact hb.1.trans (by norm_num))
  rw [hl, beta2_eq hn]
  unfold signNorm
  have h1 := normC_le hA hn10 S0
  have h2 := normC_le hA hn10 S1
  have h3 := hA.add (sqrdNormC A n S0) (sqrdNormC A n S1)
  have hN : (0 : ℝ) < 2 ^ n := by positivity
  have hb1 : (betaSq n : ℝ) ≤ 70265242 := by exact_mod_cast hb.1
  have q1 : 0 ≤ nC (2 ^ n) S0 ^ 2 / 2 ^ n := by positivity
  have q2 : 0 ≤ nC (2 ^ n) S1 ^ 2 / 2 ^ n := by positivity
  have key : nC (2 ^ n) S0 ^ 2 / 2 ^ n + nC (2 ^ n) S1 ^ 2 / 2 ^ n ≤ betaSq n - 1 := by
    rw [← add_div, div_le_iff₀ hN]; linarith
  generalize nC (2 ^ n) S0 ^ 2 / 2 ^ n = x at *
  generalize nC (2 ^ n) S1 ^ 2 / 2 ^ n = y at *
  generalize sqrdNormC A n S0 = c at *
  generalize sqrdNormC A n S1 = d at *
  generalize A.add c d = w at *
  generalize (betaSq n : ℝ) = b at *
  have h4 := (abs_le.mp h3).2
  have ht : tinyD ≤ 1 / 10000 := by unfold tinyD; norm_num
  have h5 : c + d ≤ b - 9 / 10 := by
    norm_num at h1 h2
    linarith
  have hu : uD = 1 / 2 ^ 53 := rfl
  rw [hu] at h4
  rcases le_or_gt 0 (c + d) with h0 | h0
  · rw [abs_of_nonneg h0] at h4
    norm_num at h4
    linarith
  · rw [abs_of_neg h0] at h4
    norm_num at h4
    linarith

/-- The norm test accepts if the exact vector is short enough. -/
theorem signVec_rev {n : ℕ} (hn : ValidLog n) {f g F G : Mem Int} (heq : NtruEq n f g F G)
    (hfit : FitsFormat n f g F G) (Bp : Mem ℂ) {c : Mem Ff} (hc : CanonBelow (2 ^ n) c) {z0 z1 : Mem ℂ}
    {a0 a1 u0 u1 : Mem Int} (h0 : NearInt n z0 a0) (h1 : NearInt n z1 a1)
    (m0 : ModEqXN (2 ^ n) (polyZ (2 ^ n) u0) (polyZ (2 ^ n) (hashInt c) - polyZ (2 ^ n) a0 * polyZ (2 ^ n) g
        - polyZ (2 ^ n) a1 * polyZ (2 ^ n) G))
    (m1 : ModEqXN (2 ^ n) (polyZ (2 ^ n) u1) (polyZ (2 ^ n) a0 * polyZ (2 ^ n) f + polyZ (2 ^ n) a1 * polyZ (2 ^ n) F))
    (hu : sqNorm (2 ^ n) u0 + sqNorm (2 ^ n) u1 ≤ betaSq n - 168) :
    let B := computeMatrixB A n f g F G Bp
    let t := signTarget A n B c
    let s := signVec A n B t.1 t.2 z0 z1
    A.le (signNorm A n s.1 s.2) (A.lit (beta2 n)) = true ∧
      nC (2 ^ n) (fun i => s.2 i - dft n (zC u1) i) ≤ 36 / 5 / 2 ^ 15 * 2 ^ n := by
  intro B t s
  have hn10 : n ≤ 10 := by rcases hn with rfl | rfl <;> norm_num
  have hN : (0 : ℝ) < 2 ^ n := by positivity
  have hb : (betaSq n : ℝ) ≤ 70265242 := by
    have : betaSq n ≤ 70265242 := by unfold betaSq; split <;> norm_num
    exact_mod_cast this
  obtain ⟨B0, B1, B2, B3⟩ := basis_float hA hn hfit Bp
  obtain ⟨T0, T0', T1, T1'⟩ := signTarget_float hA hn hc B1 B3
  obtain ⟨d0, d1⟩ := signVec_dft hn10 heq Bp c (z0 := dft n (zC a0)) (z1 := dft n (zC a1))
    (fun _ _ => rfl) (fun _ _ => rfl) m0 m1
  have x0 : ∀ i, i < 2 ^ n → (dft n (zC (hashInt c)) i * -dft n (zC F) i / 12289 - dft n (zC a0) i) * dft n (zC g) i
      + (-(dft n (zC (hashInt c)) i * -dft n (zC f) i / 12289) - dft n (zC a1) i) * dft n (zC G) i = dft n (zC u0) i := by
    intro i hi
    have e := d0 i hi
    rw [(signVec_at n _ _ _ _ _ i hi).1] at e
    obtain ⟨b0, b1, b2, b3⟩ := basis_exact hn10 f g F G Bp i hi
    obtain ⟨e0, e1⟩ := signTarget_at hn10 (computeMatrixB exactA n f g F G Bp) c i hi
    rw [e0, e1, b0, b1, b2, b3] at e
    rw [← e]
  have x1 : ∀ i, i < 2 ^ n → (dft n (zC (hashInt c)) i * -dft n (zC F) i / 12289 - dft n (zC a0) i) * -dft n (zC f) i
      + (-(dft n (zC (hashInt c)) i * -dft n (zC f) i / 12289) - dft n (zC a1) i) * -dft n (zC F) i = dft n (zC u1) i := by
    intro i hi
    have e := d1 i hi
    rw [(signVec_at n _ _ _ _ _ i hi).2] at e
    obtain ⟨b0, b1, b2, b3⟩ := basis_exact hn10 f g F G Bp i hi
    obtain ⟨e0, e1⟩ := signTarget_at hn10 (computeMatrixB exactA n f g F G Bp) c i hi
    rw [e0, e1, b1, b3] at e
    rw [← e]
  have esq : ∀ u : Mem Int, ((sqNorm (2 ^ n) u : ℤ) : ℝ) = nC (2 ^ n) (zC u) ^ 2 := by
    intro u
    rw [nC_zC_sq]; unfold sqNorm; push_cast; rfl
  have hsN := sqrt2_sq n
  have hu' : nC (2 ^ n) (zC u0) ^ 2 + nC (2 ^ n) (zC u1) ^ 2 ≤ betaSq n - 168 := by
    rw [← esq, ← esq]; exact_mod_cast hu
  have hex : nC (2 ^ n) (dft n (zC u0)) ^ 2 + nC (2 ^ n) (dft n (zC u1)) ^ 2 ≤ 2 ^ n * 70270000 := by
    rw [nC_dft hn10, nC_dft hn10, mul_pow, mul_pow, ← mul_add, sq (Real.sqrt 2 ^ n), hsN]
    exact mul_le_mul_of_nonneg_left (by linarith) hN.le
  have hcore := core_rev hA hn (W0 := fun i => A.csub (t.1 i) (z0 i)) (W1 := fun i => A.csub (t.2 i) (z1 i))
    B0 B1 B2 B3 (fun i hi => by
      have := ntru_pt hn10 heq i hi
      linear_combination this) T0 T0' T1 T1' h0 h1 (fun _ _ => rfl) (fun _ _ => rfl) (fun _ => rfl) (fun _ => rfl)
    (fun i hi => (signVec_float_at n B t.1 t.2 z0 z1 i hi).1)
    (fun i hi => (signVec_float_at n B t.1 t.2 z0 z1 i hi).2)
    (by rw [nC_congr x0, nC_congr x1]; exact hex)
  have y0 : nC (2 ^ n) (fun i => s.1 i - dft n (zC u0) i) ≤ 36 / 5 / 2 ^ 15 * 2 ^ n :=
    le_trans (le_of_eq (nC_congr fun i hi => by rw [← x0 i hi])) hcore.1
  have y1 : nC (2 ^ n) (fun i => s.2 i - dft n (zC u1) i) ≤ 36 / 5 / 2 ^ 15 * 2 ^ n :=
    le_trans (le_of_eq (nC_congr fun i hi => by rw [← x1 i hi])) hcore.2
  refine ⟨norm_test hA hn ?_, y1⟩
  have l0 : nC (2 ^ n) s.1 ≤ nC (2 ^ n) (dft n (zC u0)) + nC (2 ^ n) (fun i => s.1 i - dft n (zC u0) i) := nC_le_of
  have l1 : nC (2 ^ n) s.2 ≤ nC (2 ^ n) (dft n (zC u1)) + nC (2 ^ n) (fun i => s.2 i - dft n (zC u1) i) := nC_le_of
  rw [nC_dft hn10] at l0 l1
  obtain ⟨hs1, hs2⟩ := sqrt2_bounds hn
  have p0 := nC_nonneg (2 ^ n) (zC u0)
  have p1 := nC_nonneg (2 ^ n) (zC u1)
  have r0 := nC_nonneg (2 ^ n) s.1
  have r1 := nC_nonneg (2 ^ n) s.2
  clear hcore hex esq x0 x1 d0 d1 T0 T0' T1 T1' B0 B1 B2 B3
  rw [← hsN] at y0 y1 ⊢
  generalize nC (2 ^ n) (zC u0) = x at *
  generalize nC (2 ^ n) (zC u1) = y at *
  generalize nC (2 ^ n) (fun i => s.1 i - dft n (zC u0) i) = v at *
  generalize nC (2 ^ n) (fun i => s.2 i - dft n (zC u1) i) = w at *
  generalize nC (2 ^ n) s.1 = a at *
  generalize nC (2 ^ n) s.2 = b at *
  generalize (betaSq n : ℝ) = β at *
  generalize Real.sqrt 2 ^ n = q at *
  clear hsN hN
  have hq : 0 < q := by linarith
  have h3 : 36 / 5 / 2 ^ 15 * (q * q) ≤ 36 / 5 / 2 ^ 15 * (q * 32) := by gcongr
  have ha : a ≤ q * (x + 9 / 1280) := by norm_num at *; linarith
  have hb' : b ≤ q * (y + 9 / 1280) := by norm_num at *; linarith
  have ha2 : a ^ 2 ≤ (q * (x + 9 / 1280)) ^ 2 := pow_le_pow_left₀ r0 ha 2
  have hb2 : b ^ 2 ≤ (q * (y + 9 / 1280)) ^ 2 := pow_le_pow_left₀ r1 hb' 2
  have hsum : x + y ≤ 11855 := by
    refine (abs_le_of_sq_le_sq' ?_ (by norm_num)).2
    nlinarith [sq_nonneg (x - y)]
  have hfin : (x + 9 / 1280) ^ 2 + (y + 9 / 1280) ^ 2 ≤ β - 1 := by nlinarith
  calc a ^ 2 + b ^ 2 ≤ q * q * ((x + 9 / 1280) ^ 2 + (y + 9 / 1280) ^ 2) := by linarith
    _ ≤ _ := mul_le_mul_of_nonneg_left hfin (by positivity)

end

end Falcon
