import Verif.Proofs.FloatSign

/-!
# Rounding errors of the signature vector
-/

namespace Falcon

open Finset

/-- Bound of |f^|, |g^|. -/
noncomputable def aK : ℝ := 2 ^ 14

/-- Bound of |F^|, |G^|. -/
noncomputable def bK : ℝ := 2 ^ 17

theorem aK_pos : 0 < aK := by unfold aK; norm_num
theorem bK_pos : 0 < bK := by unfold bK; norm_num
theorem kapD_pos : 0 < kapD := by unfold kapD; norm_num

/-- An approximation of an array with entries of modulus at most `m`. -/
def NearBas (n : ℕ) (m : ℝ) (B b : Mem ℂ) : Prop :=
  ∀ i, i < 2 ^ n → ‖B i‖ ≤ m ∧ ‖b i‖ ≤ m ∧ ‖B i - b i‖ ≤ kapD * m

/-- The inequalities of `core`, solved. -/
theorem core_num {s N m0 m1 r0 r1 p0 p1 x0 x1 y0 y1 l0 l1 j0 j1 h0 h1 o0 o1 v0 v1 g0 g1 : ℝ}
    (hs : 22 ≤ s) (hN : 22 * s ≤ N) (hsum : m0 + m1 ≤ 11856 * s)
    (E0 : r0 ≤ 21 / 20 * kapD * aK * x0 + 21 / 20 * kapD * bK * x1 + 1 / 2 ^ 90 * s)
    (E1 : r1 ≤ 21 / 20 * kapD * aK * x0 + 21 / 20 * kapD * bK * x1 + 1 / 2 ^ 90 * s)
    (P0 : p0 ≤ m0 + r0) (P1 : p1 ≤ m1 + r1)
    (X0 : x0 ≤ bK / 12289 * p0 + bK / 12289 * p1) (X1 : x1 ≤ aK / 12289 * p0 + aK / 12289 * p1)
    (hT0 : y0 ≤ 12 / 5 * kapD * (bK * N)) (ht0 : l0 ≤ bK * N)
    (hT1 : y1 ≤ 12 / 5 * kapD * (aK * N)) (ht1 : l1 ≤ aK * N)
    (z0 : j0 ≤ kapD * (h0 + N)) (z1 : j1 ≤ kapD * (h1 + N))
    (Ew0 : o0 ≤ 2 * uD * x0 + 1 / 2 ^ 90 * s) (Ew1 : o1 ≤ 2 * uD * x1 + 1 / 2 ^ 90 * s)
    (D0 : h0 ≤ l0 + y0 + x0 + o0 + j0) (D1 : h1 ≤ l1 + y1 + x1 + o1 + j1)
    (d0 : v0 ≤ o0 + y0 + j0) (d1 : v1 ≤ o1 + y1 + j1)
    (F0 : g0 ≤ r0 + aK * v0 + bK * v1) (F1 : g1 ≤ r1 + aK * v0 + bK * v1) :
    g0 ≤ 36 / 5 / 2 ^ 15 * N ∧ g1 ≤ 36 / 5 / 2 ^ 15 * N := by
  unfold aK bK kapD uD at *
  have hP : p0 + p1 ≤ 11857 * s := by
    clear hT0 hT1 ht0 ht1 z0 z1 Ew0 Ew1 D0 D1 d0 d1 F0 F1
    linarith
  have hx0 : x0 ≤ 2 ^ 17 * s := by clear E0 E1 hT0 hT1 ht0 ht1 z0 z1 Ew0 Ew1 D0 D1 d0 d1 F0 F1; linarith
  have hx1 : x1 ≤ 2 ^ 14 * s := by clear E0 E1 hT0 hT1 ht0 ht1 z0 z1 Ew0 Ew1 D0 D1 d0 d1 F0 F1; linarith
  have hr0 : r0 ≤ 21 / 10 / 2 ^ 15 * s + 1 / 2 ^ 90 * s := by
    clear hT0 hT1 ht0 ht1 z0 z1 Ew0 Ew1 D0 D1 d0 d1 F0 F1 hP P0 P1 X0 X1 E1; linarith
  have hr1 : r1 ≤ 21 / 10 / 2 ^ 15 * s + 1 / 2 ^ 90 * s := by
    clear hT0 hT1 ht0 ht1 z0 z1 Ew0 Ew1 D0 D1 d0 d1 F0 F1 hP P0 P1 X0 X1 E0; linarith
  clear E0 E1 P0 P1 X0 X1 hP hsum
  have hj0 : j0 ≤ 11 / 10 / 2 ^ 46 * (2 ^ 17 * N) := by clear d0 d1 F0 F1 D1 Ew1 z1 ht1 hT1 hr0 hr1 hx1; linarith
  have hj1 : j1 ≤ 11 / 10 / 2 ^ 46 * (2 ^ 14 * N) := by clear d0 d1 F0 F1 D0 Ew0 z0 ht0 hT0 hr0 hr1 hx0; linarith
  have hv0 : v0 ≤ 176 / 50 / 2 ^ 46 * (2 ^ 17 * N) := by
    clear d1 F0 F1 D1 Ew1 z1 ht1 hT1 hr0 hr1 hx1 D0 z0 ht0; linarith
  have hv1 : v1 ≤ 176 / 50 / 2 ^ 46 * (2 ^ 14 * N) := by
    clear d0 F0 F1 D0 Ew0 z0 ht0 hT0 hr0 hr1 hx0 D1 z1 ht1; linarith
  clear hx0 hx1 hj0 hj1 d0 d1 D0 D1 Ew0 Ew1 z0 z1 ht0 ht1 hT0 hT1
  constructor
  · linarith
  · linarith

section
variable {A : Arith ℝ ℂ} (hA : Accurate A)
include hA

/-- x B + y D with rounding. -/
theorem comb_near {x y B D b d : ℂ} {m m' : ℝ} (hB : ‖B‖ ≤ m) (hb : ‖B - b‖ ≤ kapD * m)
    (hD : ‖D‖ ≤ m') (hd : ‖D - d‖ ≤ kapD * m') :
    ‖A.cadd (A.cmul x B) (A.cmul y D) - (x * b + y * d)‖
      ≤ 21 / 20 * kapD * m * ‖x‖ + 21 / 20 * kapD * m' * ‖y‖ + 4 * tinyD := by
  have h1 := mul_near hA (X := x) (x := x) hB hb
  have h2 := mul_near hA (X := y) (x := y) hD hd
  rw [sub_self, norm_zero, mul_zero, zero_add] at h1 h2
  have h3 := hA.cadd (A.cmul x B) (A.cmul y D)
  set p := A.cmul x B
  set r := A.cmul y D
  have e : A.cadd p r - (x * b + y * d) = (A.cadd p r - (p + r)) + ((p - x * b) + (r - y * d)) := by ring
  rw [e]
  refine (norm_add_le _ _).trans ((add_le_add h3 (norm_add_le _ _)).trans ?_)
  have h4 : ‖p + r‖ ≤ ‖x * b‖ + ‖y * d‖ + ‖p - x * b‖ + ‖r - y * d‖ := by
    have e2 : p + r = (x * b + y * d) + ((p - x * b) + (r - y * d)) := by ring
    rw [e2]
    have a1 := norm_add_le (x * b + y * d) ((p - x * b) + (r - y * d))
    have a2 := norm_add_le (x * b) (y * d)
    have a3 := norm_add_le (p - x * b) (r - y * d)
    linarith
  have hm : 0 ≤ m := (norm_nonneg _).trans hB
  have hm' : 0 ≤ m' := (norm_nonneg _).trans hD
  have hk := kapD_pos
  have big : ∀ {v V w : ℂ} {m : ℝ}, 0 ≤ m → ‖V‖ ≤ m → ‖V - v‖ ≤ kapD * m → ‖w * v‖ ≤ 21 / 20 * (m * ‖w‖) := by
    intro v V w m hm a1 a2
    rw [norm_mul]
    have : ‖v‖ ≤ 21 / 20 * m := by
      have e : ‖v‖ ≤ ‖V‖ + ‖V - v‖ := by
        have := norm_sub_le V (V - v)
        rwa [sub_sub_cancel] at this
      have e2 : kapD * m ≤ 1 / 20 * m := mul_le_mul_of_nonneg_right (by unfold kapD; norm_num) hm
      linarith
    calc ‖w‖ * ‖v‖ ≤ ‖w‖ * (21 / 20 * m) := mul_le_mul_of_nonneg_left this (norm_nonneg _)
      _ = _ := by ring
  have b1 := big (w := x) hm hB hb
  have b2 := big (w := y) hm' hD hd
  have p1 : 0 ≤ m * ‖x‖ := by positivity
  have p2 : 0 ≤ m' * ‖y‖ := by positivity
  have q1 : 33 / 32 * kapD * m * ‖x‖ = 33 / 32 * kapD * (m * ‖x‖) := by ring
  have q2 : 33 / 32 * kapD * m' * ‖y‖ = 33 / 32 * kapD * (m' * ‖y‖) := by ring
  have q3 : 21 / 20 * kapD * m * ‖x‖ = 21 / 20 * kapD * (m * ‖x‖) := by ring
  have q4 : 21 / 20 * kapD * m' * ‖y‖ = 21 / 20 * kapD * (m' * ‖y‖) := by ring
  rw [q1] at h1
  rw [q2] at h2
  rw [q3, q4]
  generalize m * ‖x‖ = v1 at *
  generalize m' * ‖y‖ = v2 at *
  generalize ‖p + r‖ = x1 at *
  generalize ‖p - x * b‖ = x2 at *
  generalize ‖r - y * d‖ = x3 at *
  generalize ‖x * b‖ = x4 at *
  generalize ‖y * d‖ = x5 at *
  clear e big h3 hB hb hD hd hk
  unfold uD kapD tinyD at *
  norm_num at *
  linarith

/-- The vector of signing, in floating point and exactly. -/
theorem core {n : ℕ} (hn : ValidLog n) {B0 B1 B2 B3 b0 b1 b2 b3 T0 T1 t0 t1 Z0 Z1 W0 W1 S0 S1 : Mem ℂ}
    {a0 a1 : Mem Int} (hB0 : NearBas n aK B0 b0) (hB1 : NearBas n aK B1 b1) (hB2 : NearBas n bK B2 b2)
    (hB3 : NearBas n bK B3 b3) (det : ∀ i, i < 2 ^ n → b0 i * b3 i - b1 i * b2 i = 12289)
    (hT0 : nC (2 ^ n) (fun i => T0 i - t0 i) ≤ 12 / 5 * kapD * (bK * 2 ^ n)) (ht0 : nC (2 ^ n) t0 ≤ bK * 2 ^ n)
    (hT1 : nC (2 ^ n) (fun i => T1 i - t1 i) ≤ 12 / 5 * kapD * (aK * 2 ^ n)) (ht1 : nC (2 ^ n) t1 ≤ aK * 2 ^ n)
    (hZ0 : NearInt n Z0 a0) (hZ1 : NearInt n Z1 a1)
    (hW0 : ∀ i, i < 2 ^ n → W0 i = A.csub (T0 i) (Z0 i)) (hW1 : ∀ i, i < 2 ^ n → W1 i = A.csub (T1 i) (Z1 i))
    (hS0 : ∀ i, i < 2 ^ n → S0 i = A.cadd (A.cmul (W0 i) (B0 i)) (A.cmul (W1 i) (B2 i)))
    (hS1 : ∀ i, i < 2 ^ n → S1 i = A.cadd (A.cmul (W0 i) (B1 i)) (A.cmul (W1 i) (B3 i)))
    (hnorm : nC (2 ^ n) S0 ^ 2 + nC (2 ^ n) S1 ^ 2 ≤ 2 ^ n * 70270000) :
    nC (2 ^ n) (fun i => S0 i - ((t0 i - dft n (zC a0) i) * b0 i + (t1 i - dft n (zC a1) i) * b2 i))
      ≤ 36 / 5 / 2 ^ 15 * 2 ^ n ∧
    nC (2 ^ n) (fun i => S1 i - ((t0 i - dft n (zC a0) i) * b1 i + (t1 i - dft n (zC a1) i) * b3 i))
      ≤ 36 / 5 / 2 ^ 15 * 2 ^ n := by
  have hn10 : n ≤ 10 := by rcases hn with rfl | rfl <;> norm_num
  have hu := uD_pos
  have htp := tinyD_pos
  have hk := kapD_pos
  have ha := aK_pos
  have hb := bK_pos
  obtain ⟨hs1, hs2⟩ := sqrt2_bounds hn
  have hsN := sqrt2_sq n
  have hsq := sqrt_pow2 n
  -- rounding of the last products
  have e0 : ∀ i, i < 2 ^ n → ‖S0 i - (W0 i * b0 i + W1 i * b2 i)‖
      ≤ 21 / 20 * kapD * aK * ‖W0 i‖ + 21 / 20 * kapD * bK * ‖W1 i‖ + 4 * tinyD := fun i hi => by
    rw [hS0 i hi]
    exact comb_near hA (hB0 i hi).1 (hB0 i hi).2.2 (hB2 i hi).1 (hB2 i hi).2.2
  have e1 : ∀ i, i < 2 ^ n → ‖S1 i - (W0 i * b1 i + W1 i * b3 i)‖
      ≤ 21 / 20 * kapD * aK * ‖W0 i‖ + 21 / 20 * kapD * bK * ‖W1 i‖ + 4 * tinyD := fun i hi => by
    rw [hS1 i hi]
    exact comb_near hA (hB1 i hi).1 (hB1 i hi).2.2 (hB3 i hi).1 (hB3 i hi).2.2
  have ca : 0 ≤ 21 / 20 * kapD * aK := by positivity
  have cb : 0 ≤ 21 / 20 * kapD * bK := by positivity
  have c4 : 0 ≤ 4 * tinyD := by linarith
  have E0 := nC_maj2 ca cb c4 e0
  have E1 := nC_maj2 ca cb c4 e1
  -- the exact combination of the rounded differences is bounded by the norm test
  have P0 : nC (2 ^ n) (fun i => W0 i * b0 i + W1 i * b2 i) ≤ nC (2 ^ n) S0
      + nC (2 ^ n) (fun i => S0 i - (W0 i * b0 i + W1 i * b2 i)) := by
    rw [nC_sub_comm]; exact nC_le_of
  have P1 : nC (2 ^ n) (fun i => W0 i * b1 i + W1 i * b3 i) ≤ nC (2 ^ n) S1
      + nC (2 ^ n) (fun i => S1 i - (W0 i * b1 i + W1 i * b3 i)) := by
    rw [nC_sub_comm]; exact nC_le_of
  have q0 : ∀ i, i < 2 ^ n → ‖W0 i‖ ≤ bK / 12289 * ‖W0 i * b0 i + W1 i * b2 i‖
      + bK / 12289 * ‖W0 i * b1 i + W1 i * b3 i‖ + 0 := by
    intro i hi
    have h := det i hi
    have e : W0 i = ((W0 i * b0 i + W1 i * b2 i) * b3 i - (W0 i * b1 i + W1 i * b3 i) * b2 i) / 12289 := by
      rw [eq_div_iff (by norm_num), ← h]; ring
    have hq : ‖(12289 : ℂ)‖ = 12289 := by
      rw [show (12289 : ℂ) = ((12289 : ℝ) : ℂ) by push_cast; rfl, Complex.norm_real]; norm_num
    have h2 : ‖W0 i‖ = ‖(W0 i * b0 i + W1 i * b2 i) * b3 i - (W0 i * b1 i + W1 i * b3 i) * b2 i‖ / 12289 := by
      conv_lhs => rw [e]
      rw [norm_div, hq]
    rw [h2]
    have h3 := norm_sub_le ((W0 i * b0 i + W1 i * b2 i) * b3 i) ((W0 i * b1 i + W1 i * b3 i) * b2 i)
    rw [norm_mul, norm_mul] at h3
    have h4 : ‖W0 i * b0 i + W1 i * b2 i‖ * ‖b3 i‖ ≤ ‖W0 i * b0 i + W1 i * b2 i‖ * bK :=
      mul_le_mul_of_nonneg_left (hB3 i hi).2.1 (norm_nonneg _)
    have h5 : ‖W0 i * b1 i + W1 i * b3 i‖ * ‖b2 i‖ ≤ ‖W0 i * b1 i + W1 i * b3 i‖ * bK :=
      mul_le_mul_of_nonneg_left (hB2 i hi).2.1 (norm_nonneg _)
    rw [div_le_iff₀ (by norm_num)]
    calc _ ≤ ‖W0 i * b0 i + W1 i * b2 i‖ * bK + ‖W0 i * b1 i + W1 i * b3 i‖ * bK := by linarith
      _ = _ := by ring
  have q1 : ∀ i, i < 2 ^ n → ‖W1 i‖ ≤ aK / 12289 * ‖W0 i * b0 i + W1 i * b2 i‖
      + aK / 12289 * ‖W0 i * b1 i + W1 i * b3 i‖ + 0 := by
    intro i hi
    have h := det i hi
    have e : W1 i = ((W0 i * b1 i + W1 i * b3 i) * b0 i - (W0 i * b0 i + W1 i * b2 i) * b1 i) / 12289 := by
      rw [eq_div_iff (by norm_num), ← h]; ring
    have hq : ‖(12289 : ℂ)‖ = 12289 := by
      rw [show (12289 : ℂ) = ((12289 : ℝ) : ℂ) by push_cast; rfl, Complex.norm_real]; norm_num
    have h2 : ‖W1 i‖ = ‖(W0 i * b1 i + W1 i * b3 i) * b0 i - (W0 i * b0 i + W1 i * b2 i) * b1 i‖ / 12289 := by
      conv_lhs => rw [e]
      rw [norm_div, hq]
    rw [h2]
    have h3 := norm_sub_le ((W0 i * b1 i + W1 i * b3 i) * b0 i) ((W0 i * b0 i + W1 i * b2 i) * b1 i)
    rw [norm_mul, norm_mul] at h3
    have h4 : ‖W0 i * b0 i + W1 i * b2 i‖ * ‖b1 i‖ ≤ ‖W0 i * b0 i + W1 i * b2 i‖ * aK :=
      mul_le_mul_of_nonneg_left (hB1 i hi).2.1 (norm_nonneg _)
    have h5 : ‖W0 i * b1 i + W1 i * b3 i‖ * ‖b0 i‖ ≤ ‖W0 i * b1 i + W1 i * b3 i‖ * aK :=
      mul_le_mul_of_nonneg_left (hB0 i hi).2.1 (norm_nonneg _)
    rw [div_le_iff₀ (by norm_num)]
    calc _ ≤ ‖W0 i * b0 i + W1 i * b2 i‖ * aK + ‖W0 i * b1 i + W1 i * b3 i‖ * aK := by linarith
      _ = _ := by ring
  have X0 := nC_maj2 (by positivity) (by positivity) le_rfl q0
  have X1 := nC_maj2 (by positivity) (by positivity) le_rfl q1
  rw [mul_zero, add_zero] at X0 X1
  rw [hsq] at E0 E1
  -- errors of the sampled vectors
  have z0 : nC (2 ^ n) (fun i => Z0 i - dft n (zC a0) i)
      ≤ kapD * (nC (2 ^ n) (dft n (zC a0)) + 2 ^ n) := by
    have h1 := Mz_le n a0
    have h2 := gam_le hn10
    have h3 := Mz_nonneg n a0
    have h4 := gam_nonneg n
    have hs0 : 0 ≤ Real.sqrt 2 ^ n := by positivity
    rw [nC_dft hn10]
    refine le_trans hZ0 ?_
    calc Real.sqrt 2 ^ n * gam n * Mz n a0 ≤ Real.sqrt 2 ^ n * kapD * (nC (2 ^ n) (zC a0) + Real.sqrt 2 ^ n) := by
          gcongr
      _ = _ := by rw [← hsN]; ring
  have z1 : nC (2 ^ n) (fun i => Z1 i - dft n (zC a1) i)
      ≤ kapD * (nC (2 ^ n) (dft n (zC a1)) + 2 ^ n) := by
    have h1 := Mz_le n a1
    have h2 := gam_le hn10
    have h3 := Mz_nonneg n a1
    have h4 := gam_nonneg n
    have hs0 : 0 ≤ Real.sqrt 2 ^ n := by positivity
    rw [nC_dft hn10]
    refine le_trans hZ1 ?_
    calc Real.sqrt 2 ^ n * gam n * Mz n a1 ≤ Real.sqrt 2 ^ n * kapD * (nC (2 ^ n) (zC a1) + Real.sqrt 2 ^ n) := by
          gcongr
      _ = _ := by rw [← hsN]; ring
  -- differences
  have w0 : ∀ i, i < 2 ^ n → ‖W0 i - (T0 i - Z0 i)‖ ≤ 2 * uD * ‖W0 i‖ + 2 * tinyD := by
    intro i hi
    have h := hA.csub (T0 i) (Z0 i)
    rw [← hW0 i hi] at h
    have h2 : ‖T0 i - Z0 i‖ ≤ ‖W0 i‖ + ‖W0 i - (T0 i - Z0 i)‖ := by
      have := norm_sub_le (W0 i) (W0 i - (T0 i - Z0 i))
      rwa [sub_sub_cancel] at this
    have h3 := norm_nonneg (W0 i)
    generalize ‖W0 i - (T0 i - Z0 i)‖ = x at *
    generalize ‖T0 i - Z0 i‖ = y at *
    generalize ‖W0 i‖ = z at *
    clear E0 E1 X0 X1 hT0 hT1 z0 z1 P0 P1 e0 e1 q0 q1 hB0 hB1 hB2 hB3 hu htp hk ca cb c4
    unfold uD tinyD at *
    norm_num at *
    linarith
  have w1 : ∀ i, i < 2 ^ n → ‖W1 i - (T1 i - Z1 i)‖ ≤ 2 * uD * ‖W1 i‖ + 2 * tinyD := by
    intro i hi
    have h := hA.csub (T1 i) (Z1 i)
    rw [← hW1 i hi] at h
    have h2 : ‖T1 i - Z1 i‖ ≤ ‖W1 i‖ + ‖W1 i - (T1 i - Z1 i)‖ := by
      have := norm_sub_le (W1 i) (W1 i - (T1 i - Z1 i))
      rwa [sub_sub_cancel] at this
    have h3 := norm_nonneg (W1 i)
    generalize ‖W1 i - (T1 i - Z1 i)‖ = x at *
    generalize ‖T1 i - Z1 i‖ = y at *
    generalize ‖W1 i‖ = z at *
    clear E0 E1 X0 X1 hT0 hT1 z0 z1 P0 P1 e0 e1 q0 q1 hB0 hB1 hB2 hB3 hu htp hk ca cb c4 w0
    unfold uD tinyD at *
    norm_num at *
    linarith
  have Ew0 := nC_maj1 (by linarith) (by linarith) w0
  have Ew1 := nC_maj1 (by linarith) (by linarith) w1
  rw [hsq] at Ew0 Ew1
  -- size of the sampled vectors
  have D0 : nC (2 ^ n) (dft n (zC a0)) ≤ nC (2 ^ n) t0 + nC (2 ^ n) (fun i => T0 i - t0 i) + nC (2 ^ n) W0
      + nC (2 ^ n) (fun i => W0 i - (T0 i - Z0 i)) + nC (2 ^ n) (fun i => Z0 i - dft n (zC a0) i) := by
    exact nC_comb5 (2 ^ n) t0 (fun i => T0 i - t0 i) W0 (fun i => W0 i - (T0 i - Z0 i))
      (fun i => Z0 i - dft n (zC a0) i) (fun i _ => by ring)
  have D1 : nC (2 ^ n) (dft n (zC a1)) ≤ nC (2 ^ n) t1 + nC (2 ^ n) (fun i => T1 i - t1 i) + nC (2 ^ n) W1
      + nC (2 ^ n) (fun i => W1 i - (T1 i - Z1 i)) + nC (2 ^ n) (fun i => Z1 i - dft n (zC a1) i) := by
    exact nC_comb5 (2 ^ n) t1 (fun i => T1 i - t1 i) W1 (fun i => W1 i - (T1 i - Z1 i))
      (fun i => Z1 i - dft n (zC a1) i) (fun i _ => by ring)
  have d0 : nC (2 ^ n) (fun i => W0 i - (t0 i - dft n (zC a0) i)) ≤ nC (2 ^ n) (fun i => W0 i - (T0 i - Z0 i))
      + nC (2 ^ n) (fun i => T0 i - t0 i) + nC (2 ^ n) (fun i => Z0 i - dft n (zC a0) i) :=
    nC_comb3 (2 ^ n) _ _ _ (fun i _ => by ring)
  have d1 : nC (2 ^ n) (fun i => W1 i - (t1 i - dft n (zC a1) i)) ≤ nC (2 ^ n) (fun i => W1 i - (T1 i - Z1 i))
      + nC (2 ^ n) (fun i => T1 i - t1 i) + nC (2 ^ n) (fun i => Z1 i - dft n (zC a1) i) :=
    nC_comb3 (2 ^ n) _ _ _ (fun i _ => by ring)
  have fin : ∀ {S c c' : Mem ℂ}, (∀ i, i < 2 ^ n → ‖c i‖ ≤ aK) → (∀ i, i < 2 ^ n → ‖c' i‖ ≤ bK) →
      nC (2 ^ n) (fun i => S i - ((t0 i - dft n (zC a0) i) * c i + (t1 i - dft n (zC a1) i) * c' i))
      ≤ 1 * nC (2 ^ n) (fun i => S i - (W0 i * c i + W1 i * c' i))
        + aK * nC (2 ^ n) (fun i => W0 i - (t0 i - dft n (zC a0) i))
        + bK * nC (2 ^ n) (fun i => W1 i - (t1 i - dft n (zC a1) i)) + Real.sqrt ((2 ^ n : ℕ) : ℝ) * 0 := by
    intro S c c' hc hc'
    refine nC_maj3 (by norm_num) ha.le hb.le le_rfl ?_
    intro i hi
    have e : S i - ((t0 i - dft n (zC a0) i) * c i + (t1 i - dft n (zC a1) i) * c' i)
        = (S i - (W0 i * c i + W1 i * c' i)) + ((W0 i - (t0 i - dft n (zC a0) i)) * c i
          + (W1 i - (t1 i - dft n (zC a1) i)) * c' i) := by ring
    rw [e]
    refine (norm_add_le _ _).trans ((add_le_add le_rfl (norm_add_le _ _)).trans ?_)
    rw [norm_mul, norm_mul]
    have h1 := mul_le_mul_of_nonneg_left (hc i hi) (norm_nonneg (W0 i - (t0 i - dft n (zC a0) i)))
    have h2 := mul_le_mul_of_nonneg_left (hc' i hi) (norm_nonneg (W1 i - (t1 i - dft n (zC a1) i)))
    linarith
  have F0 := fin (S := S0) (fun i hi => (hB0 i hi).2.1) (fun i hi => (hB2 i hi).2.1)
  have F1 := fin (S := S1) (fun i hi => (hB1 i hi).2.1) (fun i hi => (hB3 i hi).2.1)
  rw [mul_zero, add_zero, one_mul] at F0 F1
  have n0 := nC_nonneg (2 ^ n) S0
  have n1 := nC_nonneg (2 ^ n) S1
  have hN : 22 * Real.sqrt 2 ^ n ≤ 2 ^ n := by rw [← hsN]; nlinarith
  have hsum : nC (2 ^ n) S0 + nC (2 ^ n) S1 ≤ 11856 * Real.sqrt 2 ^ n := by
    rw [← hsN] at hnorm
    refine (abs_le_of_sq_le_sq' ?_ (by positivity)).2
    have hxy := sq_nonneg (nC (2 ^ n) S0 - nC (2 ^ n) S1)
    have hss := sq_nonneg (Real.sqrt 2 ^ n)
    calc (nC (2 ^ n) S0 + nC (2 ^ n) S1) ^ 2
        = 2 * (nC (2 ^ n) S0 ^ 2 + nC (2 ^ n) S1 ^ 2) - (nC (2 ^ n) S0 - nC (2 ^ n) S1) ^ 2 := by ring
      _ ≤ 2 * (Real.sqrt 2 ^ n * Real.sqrt 2 ^ n * 70270000) := by linarith
      _ = 140540000 * (Real.sqrt 2 ^ n) ^ 2 := by ring
      _ ≤ 11856 ^ 2 * (Real.sqrt 2 ^ n) ^ 2 := mul_le_mul_of_nonneg_right (by norm_num) hss
      _ = _ := by ring
  clear fin w0 w1 q0 q1 e0 e1 hnorm hZ0 hZ1 hS0 hS1 hW0 hW1 hB0 hB1 hB2 hB3 det hsq hu hk ca cb c4
  generalize nC (2 ^ n) (fun i => S0 i - ((t0 i - dft n (zC a0) i) * b0 i + (t1 i - dft n (zC a1) i) * b2 i)) = g0 at *
  generalize nC (2 ^ n) (fun i => S1 i - ((t0 i - dft n (zC a0) i) * b1 i + (t1 i - dft n (zC a1) i) * b3 i)) = g1 at *
  generalize nC (2 ^ n) (fun i => W0 i - (t0 i - dft n (zC a0) i)) = v0 at *
  generalize nC (2 ^ n) (fun i => W1 i - (t1 i - dft n (zC a1) i)) = v1 at *
  generalize nC (2 ^ n) (fun i => S0 i - (W0 i * b0 i + W1 i * b2 i)) = r0 at *
  generalize nC (2 ^ n) (fun i => S1 i - (W0 i * b1 i + W1 i * b3 i)) = r1 at *
  generalize nC (2 ^ n) (fun i => W0 i * b0 i + W1 i * b2 i) = p0 at *
  generalize nC (2 ^ n) (fun i => W0 i * b1 i + W1 i * b3 i) = p1 at *
  generalize nC (2 ^ n) (fun i => W0 i - (T0 i - Z0 i)) = o0 at *
  generalize nC (2 ^ n) (fun i => W1 i - (T1 i - Z1 i)) = o1 at *
  generalize nC (2 ^ n) (fun i => T0 i - t0 i) = y0 at *
  generalize nC (2 ^ n) (fun i => T1 i - t1 i) = y1 at *
  generalize nC (2 ^ n) (fun i => Z0 i - dft n (zC a0) i) = j0 at *
  generalize nC (2 ^ n) (fun i => Z1 i - dft n (zC a1) i) = j1 at *
  generalize nC (2 ^ n) (dft n (zC a0)) = h0 at *
  generalize nC (2 ^ n) (dft n (zC a1)) = h1 at *
  generalize nC (2 ^ n) t0 = l0 at *
  generalize nC (2 ^ n) t1 = l1 at *
  generalize nC (2 ^ n) W0 = x0 at *
  generalize nC (2 ^ n) W1 = x1 at *
  generalize nC (2 ^ n) S0 = m0 at *
  generalize nC (2 ^ n) S1 = m1 at *
  have htiny : Real.sqrt 2 ^ n * (4 * tinyD) ≤ 1 / 2 ^ 90 * Real.sqrt 2 ^ n := by
    rw [mul_comm]
    exact mul_le_mul_of_nonneg_right (by unfold tinyD; norm_num) (by linarith)
  have htiny2 : Real.sqrt 2 ^ n * (2 * tinyD) ≤ 1 / 2 ^ 90 * Real.sqrt 2 ^ n := by
    rw [mul_comm]
    exact mul_le_mul_of_nonneg_right (by unfold tinyD; norm_num) (by linarith)
  replace E0 := E0.trans (add_le_add le_rfl htiny)
  replace E1 := E1.trans (add_le_add le_rfl htiny)
  replace Ew0 := Ew0.trans (add_le_add le_rfl htiny2)
  replace Ew1 := Ew1.trans (add_le_add le_rfl htiny2)
  clear htiny htiny2 htp hsN
  generalize Real.sqrt 2 ^ n = s at *
  generalize (2 : ℝ) ^ n = N at *
  exact core_num hs1 hN hsum E0 E1 P0 P1 X0 X1 hT0 ht0 hT1 ht1 z0 z1 Ew0 Ew1 D0 D1 d0 d1 F0 F1

end

end Falcon
