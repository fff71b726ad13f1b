import Verif.Proofs.FloatSample
import Verif.Proofs.Gram

/-!
# Rounding errors of signing
-/

namespace Falcon

open Finset

/-- Relative error of a transform of size at most 1024. -/
noncomputable def kapD : ℝ := 1 / 2 ^ 46

theorem kapD_eq : kapD = 128 * uD := by unfold kapD uD; norm_num

theorem pow_kap {n : ℕ} (hn : n ≤ 10) : (1 + 12 * uD) ^ n * (1 + uD) ≤ 1 + kapD := by
  have h1 : (1 + 12 * uD) ^ n ≤ (1 + 12 * uD) ^ 10 := pow_le_pow_right₀ (by have := uD_pos; linarith) hn
  have h2 : (1 + 12 * uD) ^ 10 * (1 + uD) ≤ 1 + kapD := by unfold uD kapD; norm_num
  have h3 := uD_pos
  nlinarith

theorem pow_kap' {n : ℕ} (hn : n ≤ 10) : (1 + 12 * uD) ^ n ≤ 1 + kapD := by
  have h := pow_kap hn
  have h3 := uD_pos
  have : 0 ≤ (1 + 12 * uD) ^ n * uD := by positivity
  nlinarith

theorem gam_le {n : ℕ} (hn : n ≤ 10) : gam n ≤ kapD := by
  have := pow_kap hn
  unfold gam; linarith

theorem lay_kap {n : ℕ} (hn : n ≤ 10) {e p : ℝ} (he : 0 ≤ e) (hp : 0 ≤ p) :
    layBnd n e p ≤ Real.sqrt 2 ^ n * ((1 + kapD) * e + kapD * (p + 1)) := by
  unfold layBnd
  apply mul_le_mul_of_nonneg_left _ (by positivity)
  have h := pow_kap' hn
  have : (1 + 12 * uD) ^ n * (e + (p + 1)) ≤ (1 + kapD) * (e + (p + 1)) :=
    mul_le_mul_of_nonneg_right h (by linarith)
  linarith

theorem sqrt2_sq (n : ℕ) : Real.sqrt 2 ^ n * Real.sqrt 2 ^ n = 2 ^ n := by
  rw [← mul_pow, Real.mul_self_sqrt (by norm_num)]

theorem sqrt2_bounds {n : ℕ} (hn : ValidLog n) : 22 ≤ Real.sqrt 2 ^ n ∧ Real.sqrt 2 ^ n ≤ 32 := by
  have h := sqrt2_sq n
  have h0 : 0 ≤ Real.sqrt 2 ^ n := by positivity
  rcases hn with rfl | rfl
  · constructor <;> nlinarith
  · constructor <;> nlinarith

section
variable {A : Arith ℝ ℂ} (hA : Accurate A)
include hA

/-- The forward transform of exact integers. -/
theorem fft_near {n : ℕ} (hn : n ≤ 10) (a x : Mem ℂ) (hx : ∀ i, i < 2 ^ n → x i = a i) :
    nC (2 ^ n) (fun i => fft A n x i - dft n a i) ≤ kapD * (Real.sqrt 2 ^ n * (nC (2 ^ n) a + 1)) := by
  have h := fft_err hA hn x a
  have h0 : nC (2 ^ n) (fun i => x i - a i) = 0 := by
    rw [nC_congr (b := fun _ => 0) (fun i hi => by rw [hx i hi, sub_self])]
    unfold nC l2; simp
  rw [h0] at h
  refine h.trans ((lay_kap hn le_rfl (nC_nonneg _ _)).trans (le_of_eq ?_))
  ring

/-- The inverse transform. -/
theorem ifft_near {n : ℕ} (hn : n ≤ 10) (x a : Mem ℂ) {e : ℝ}
    (he : nC (2 ^ n) (fun i => x i - dft n a i) ≤ e) :
    nC (2 ^ n) (fun i => ifft A n x i - a i) * Real.sqrt 2 ^ n
      ≤ (1 + 2 * kapD) * e + 2 * kapD * (Real.sqrt 2 ^ n * nC (2 ^ n) a + 1) := by
  have h := (up_err hA hn x (dft n a) n le_rfl).1
  have hiso := (up_err hA hn x (dft n a) n le_rfl).2
  set y := loop n (fun j a => upLayer n j (bfStep (ifftBf A)) a) x with hy
  set w := loop n (fun j a => upLayer n j (bfStep (gsBf cT)) a) (dft n a) with hw
  have hu := uD_pos
  have ht := tinyD_pos
  have hs0 : 0 ≤ Real.sqrt 2 ^ n := by positivity
  have hs1 : 1 ≤ Real.sqrt 2 ^ n := one_le_pow₀ sqrt2_ge
  have hs32 := sqrt2_pow_le hn
  have hN := sqrt2_sq n
  have hNpos : (0 : ℝ) < 2 ^ n := by positivity
  have hwa : ∀ i, i < 2 ^ n → a i = ((1 / 2 ^ n : ℝ) : ℂ) * w i := by
    intro i hi
    have h1 := ifft_dft hn (e := dft n a) (a := a) (fun _ _ => rfl) i hi
    rw [ifft_val n _ i hi] at h1
    rw [← h1]
    show upLayers n (bfStep (gsBf cT)) (dft n a) i / 2 ^ n = _
    push_cast
    rw [hw]; unfold upLayers; ring
  have hpt : ∀ i, i < 2 ^ n → ‖ifft A n x i - a i‖
      ≤ (1 + 2 * uD) / 2 ^ n * ‖y i - w i‖ + 2 * uD / 2 ^ n * ‖w i‖ + tinyD := by
    intro i hi
    rw [ifft_eq, if_pos hi, hwa i hi]
    have hl : A.lit (1 / 2 ^ n) = 1 / 2 ^ n := hA.lit_pow n hn
    rw [hl]
    have h1 := hA.scale (1 / 2 ^ n) (y i)
    have h2 : A.scale (1 / 2 ^ n) (upLayers n (bfStep (ifftBf A)) x i) - ((1 / 2 ^ n : ℝ) : ℂ) * w i
        = (A.scale (1 / 2 ^ n) (y i) - ((1 / 2 ^ n : ℝ) : ℂ) * y i) + ((1 / 2 ^ n : ℝ) : ℂ) * (y i - w i) := by
      rw [hy]; unfold upLayers; ring
    rw [h2]
    refine (norm_add_le _ _).trans ?_
    rw [norm_mul, Complex.norm_real, Real.norm_of_nonneg (by positivity)] at h1
    rw [norm_mul, Complex.norm_real, Real.norm_of_nonneg (by positivity)]
    have h3 : ‖y i‖ ≤ ‖w i‖ + ‖y i - w i‖ := by
      have := norm_add_le (w i) (y i - w i)
      rwa [add_sub_cancel] at this
    have h4 : 2 * uD * (1 / 2 ^ n * ‖y i‖) ≤ 2 * uD * (1 / 2 ^ n * (‖w i‖ + ‖y i - w i‖)) := by gcongr
    calc _ ≤ 2 * uD * (1 / 2 ^ n * (‖w i‖ + ‖y i - w i‖)) + tinyD + 1 / 2 ^ n * ‖y i - w i‖ := by linarith
      _ = _ := by ring
  have hm := nC_maj2 (N := 2 ^ n) (e := fun i => ifft A n x i - a i) (x := fun i => y i - w i) (y := w)
    (a := (1 + 2 * uD) / 2 ^ n) (b := 2 * uD / 2 ^ n) (d := tinyD) (by positivity) (by positivity) ht.le hpt
  rw [sqrt_pow2, hiso, nC_dft hn] at hm
  have hlay := lay_kap hn (nC_nonneg (2 ^ n) fun i => x i - dft n a i) (nC_nonneg (2 ^ n) (dft n a))
  rw [nC_dft hn] at hlay
  rw [nC_dft hn] at h
  set s := Real.sqrt 2 ^ n with hs
  have hp := nC_nonneg (2 ^ n) a
  set p := nC (2 ^ n) a
  set E := nC (2 ^ n) fun i => ifft A n x i - a i
  set D := nC (2 ^ n) fun i => y i - w i
  set e0 := nC (2 ^ n) fun i => x i - dft n a i
  have he0 : 0 ≤ e0 := nC_nonneg _ _
  have hD : D ≤ s * ((1 + kapD) * e + kapD * (s * p + 1)) := by
    refine h.trans (hlay.trans ?_)
    have hk : 0 ≤ kapD := by unfold kapD; positivity
    gcongr
  have hspos : 0 < s := by linarith
  have hEs : E * s ≤ (1 + 2 * uD) / s * D + 2 * uD / s * (s * (s * p)) + s * s * tinyD := by
    have e1 : (1 + 2 * uD) / 2 ^ n * D * s = (1 + 2 * uD) / s * D := by
      rw [← hN]; field_simp
    have e2 : 2 * uD / 2 ^ n * (s * (s * p)) * s = 2 * uD / s * (s * (s * p)) := by
      rw [← hN]; field_simp
    calc E * s ≤ ((1 + 2 * uD) / 2 ^ n * D + 2 * uD / 2 ^ n * (s * (s * p)) + s * tinyD) * s :=
          mul_le_mul_of_nonneg_right hm hs0
      _ = _ := by rw [add_mul, add_mul, e1, e2]; ring
  have hD' : (1 + 2 * uD) / s * D ≤ (1 + 2 * uD) * ((1 + kapD) * e + kapD * (s * p + 1)) := by
    calc (1 + 2 * uD) / s * D ≤ (1 + 2 * uD) / s * (s * ((1 + kapD) * e + kapD * (s * p + 1))) :=
          mul_le_mul_of_nonneg_left hD (by positivity)
      _ = _ := by field_simp
  have h5 : 2 * uD / s * (s * (s * p)) = 2 * uD * (s * p) := by field_simp
  rw [h5] at hEs
  have he' : 0 ≤ e := he0.trans he
  have hsp : 0 ≤ s * p := by positivity
  have hss : s * s * tinyD ≤ 1024 * tinyD :=
    mul_le_mul_of_nonneg_right (by nlinarith) ht.le
  refine hEs.trans ((add_le_add (add_le_add hD' le_rfl) hss).trans ?_)
  generalize s * p = v at *
  unfold uD kapD tinyD
  have := uD_pos
  nlinarith

/-- A product with a basis element. -/
theorem mul_near {X x D d : ℂ} {m : ℝ} (hD : ‖D‖ ≤ m) (hd : ‖D - d‖ ≤ kapD * m) :
    ‖A.cmul X D - x * d‖ ≤ (1 + 4 * uD) * m * ‖X - x‖ + 33 / 32 * kapD * m * ‖x‖ + tinyD := by
  have h1 := hA.cmul X D
  have hm : 0 ≤ m := (norm_nonneg _).trans hD
  have e : A.cmul X D - x * d = (A.cmul X D - X * D) + ((X - x) * D + x * (D - d)) := by ring
  rw [e]
  refine (norm_add_le _ _).trans ((add_le_add h1 (norm_add_le _ _)).trans ?_)
  rw [norm_mul, norm_mul]
  have h2 : ‖X‖ ≤ ‖x‖ + ‖X - x‖ := by
    have := norm_add_le x (X - x)
    rwa [add_sub_cancel] at this
  have hu := uD_pos
  have n1 := norm_nonneg (X - x)
  have n2 := norm_nonneg x
  have n3 := norm_nonneg X
  have h3 : 4 * uD * (‖X‖ * ‖D‖) ≤ 4 * uD * ((‖x‖ + ‖X - x‖) * m) := by gcongr
  have h4 : ‖X - x‖ * ‖D‖ ≤ ‖X - x‖ * m := by gcongr
  have h5 : ‖x‖ * ‖D - d‖ ≤ ‖x‖ * (kapD * m) := by gcongr
  have h6 : 4 * uD = 1 / 32 * kapD := by rw [kapD_eq]; ring
  have h7 : 4 * uD * ((‖x‖ + ‖X - x‖) * m) = 1 / 32 * kapD * m * ‖x‖ + 4 * uD * m * ‖X - x‖ := by
    rw [mul_comm (_ + _) m, mul_add, mul_add, ← h6]; ring
  rw [h7] at h3
  calc _ ≤ (1 / 32 * kapD * m * ‖x‖ + 4 * uD * m * ‖X - x‖) + tinyD + (‖X - x‖ * m + ‖x‖ * (kapD * m)) := by linarith
    _ = _ := by ring

/-- A component of the target vector: a product divided by q. -/
theorem target_near {n : ℕ} (hn : ValidLog n) {C c D d t : Mem ℂ} {m : ℝ} (hm : 1 ≤ m)
    (hC : nC (2 ^ n) (fun i => C i - c i) ≤ kapD * (12289 * 2 ^ n)) (hc : nC (2 ^ n) c ≤ 12289 * 2 ^ n)
    (hD : ∀ i, i < 2 ^ n → ‖D i‖ ≤ m) (hd : ∀ i, i < 2 ^ n → ‖D i - d i‖ ≤ kapD * m)
    (ht : ∀ i, i < 2 ^ n → t i = A.cdiv (A.cmul (C i) (D i)) 12289) :
    nC (2 ^ n) (fun i => t i - c i * d i / 12289) ≤ 12 / 5 * kapD * (m * 2 ^ n) := by
  have hu := uD_pos
  have htp := tinyD_pos
  obtain ⟨hs1, hs2⟩ := sqrt2_bounds hn
  have hk : 0 < kapD := by unfold kapD; positivity
  have h1 : ∀ i, i < 2 ^ n → ‖A.cmul (C i) (D i) - c i * d i‖
      ≤ (1 + 4 * uD) * m * ‖C i - c i‖ + 33 / 32 * kapD * m * ‖c i‖ + tinyD :=
    fun i hi => mul_near hA (hD i hi) (hd i hi)
  have h2 : ∀ i, i < 2 ^ n → ‖c i * d i‖ ≤ 2 * m * ‖c i‖ := by
    intro i hi
    rw [norm_mul, mul_comm]
    have : ‖d i‖ ≤ 2 * m := by
      have e : ‖d i‖ ≤ ‖D i‖ + ‖D i - d i‖ := by
        have := norm_sub_le (D i) (D i - d i)
        rwa [sub_sub_cancel] at this
      have e2 : kapD * m ≤ 1 * m := mul_le_mul_of_nonneg_right (by unfold kapD; norm_num) (by linarith)
      linarith [hD i hi, hd i hi]
    exact mul_le_mul_of_nonneg_right this (norm_nonneg _)
  have h3 : ∀ i, i < 2 ^ n → ‖t i - c i * d i / 12289‖
      ≤ (1 + 21 * uD) * m / 12289 * ‖C i - c i‖ + 11 / 8 * kapD * m / 12289 * ‖c i‖ + 2 * tinyD := by
    intro i hi
    have a1 := h1 i hi
    have a2 := h2 i hi
    rw [ht i hi]
    set P := A.cmul (C i) (D i)
    have hq : ‖(12289 : ℂ)‖ = 12289 := by
      rw [show (12289 : ℂ) = ((12289 : ℝ) : ℂ) by push_cast; rfl, Complex.norm_real]; norm_num
    have a3 := hA.cdiv P 12289 (by rw [hq]; norm_num)
    have e : A.cdiv P 12289 - c i * d i / 12289 = (A.cdiv P 12289 - P / 12289) + (P - c i * d i) / 12289 := by ring
    rw [e]
    refine (norm_add_le _ _).trans ?_
    rw [norm_div, hq] at a3
    rw [norm_div, hq]
    have a4 : ‖P‖ ≤ ‖c i * d i‖ + ‖P - c i * d i‖ := by
      have := norm_add_le (c i * d i) (P - c i * d i)
      rwa [add_sub_cancel] at this
    have n1 := norm_nonneg (C i - c i)
    have n2 := norm_nonneg (c i)
    generalize ‖A.cdiv P 12289 - P / 12289‖ = x1 at *
    generalize ‖P - c i * d i‖ = x2 at *
    generalize ‖c i * d i‖ = x3 at *
    generalize ‖P‖ = x4 at *
    have p1 : 0 ≤ m * ‖C i - c i‖ := by positivity
    have p2 : 0 ≤ m * ‖c i‖ := by positivity
    have q1 : (1 + 4 * uD) * m * ‖C i - c i‖ = (1 + 4 * uD) * (m * ‖C i - c i‖) := by ring
    have q2 : 33 / 32 * kapD * m * ‖c i‖ = 33 / 32 * kapD * (m * ‖c i‖) := by ring
    have q3 : 2 * m * ‖c i‖ = 2 * (m * ‖c i‖) := by ring
    have q4 : (1 + 21 * uD) * m / 12289 * ‖C i - c i‖ = (1 + 21 * uD) / 12289 * (m * ‖C i - c i‖) := by ring
    have q5 : 11 / 8 * kapD * m / 12289 * ‖c i‖ = 11 / 8 * kapD / 12289 * (m * ‖c i‖) := by ring
    rw [q1, q2] at a1
    rw [q3] at a2
    rw [q4, q5]
    generalize m * ‖C i - c i‖ = v1 at *
    generalize m * ‖c i‖ = v2 at *
    unfold uD kapD tinyD at *
    norm_num at *
    linarith
  have h4 := nC_maj2 (N := 2 ^ n) (e := fun i => t i - c i * d i / 12289) (x := fun i => C i - c i) (y := c)
    (a := (1 + 21 * uD) * m / 12289) (b := 11 / 8 * kapD * m / 12289) (d := 2 * tinyD)
    (div_nonneg (mul_nonneg (by linarith) (by linarith)) (by norm_num))
    (div_nonneg (mul_nonneg (by linarith) (by linarith)) (by norm_num)) (by linarith) h3
  refine h4.trans ?_
  rw [sqrt_pow2]
  have hN : (512 : ℝ) ≤ 2 ^ n := by rcases hn with rfl | rfl <;> norm_num
  have r1 : (1 + 21 * uD) * m / 12289 * nC (2 ^ n) (fun i => C i - c i)
      ≤ (1 + 21 * uD) * m / 12289 * (kapD * (12289 * 2 ^ n)) := mul_le_mul_of_nonneg_left hC (by positivity)
  have r2 : 11 / 8 * kapD * m / 12289 * nC (2 ^ n) c ≤ 11 / 8 * kapD * m / 12289 * (12289 * 2 ^ n) :=
    mul_le_mul_of_nonneg_left hc (by positivity)
  have r3 : Real.sqrt 2 ^ n * (2 * tinyD) ≤ 32 * (2 * tinyD) := mul_le_mul_of_nonneg_right hs2 (by linarith)
  have r4 : 32 * (2 * tinyD) ≤ kapD / 100 * (m * 2 ^ n) := by
    have : 1 ≤ m * 2 ^ n := by nlinarith
    have h6 : 32 * (2 * tinyD) ≤ kapD / 100 := by unfold tinyD kapD; norm_num
    nlinarith
  have r5 : (1 + 21 * uD) * m / 12289 * (kapD * (12289 * 2 ^ n)) = (1 + 21 * uD) * kapD * (m * 2 ^ n) := by ring
  have r6 : 11 / 8 * kapD * m / 12289 * (12289 * 2 ^ n) = 11 / 8 * kapD * (m * 2 ^ n) := by ring
  rw [r5] at r1
  rw [r6] at r2
  have r7 : 0 ≤ m * 2 ^ n := by positivity
  generalize m * 2 ^ n = v at *
  have r8 : (1 + 21 * uD) * kapD + 11 / 8 * kapD + kapD / 100 ≤ 12 / 5 * kapD := by
    unfold uD kapD; norm_num
  nlinarith

end

end Falcon
