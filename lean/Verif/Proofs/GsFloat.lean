import Verif.Proofs.ReduceBound
import Verif.Proofs.Ieee

/-!
# The Gram-Schmidt test and the size of |f^|^2 + |g^|^2
-/

namespace Falcon

open Finset Polynomial

/-- In exact arithmetic the test rejects every pair with |f^|^2 + |g^|^2 < 8 at some point. -/
theorem gs_exact {n : ℕ} (hn : ValidLog n) {f g : Mem Int} (hne : ∃ i, i < 2 ^ n ∧ (f i ≠ 0 ∨ g i ≠ 0))
    (h : gsTooBig exactA n f g = false) (j : ℕ) (hj : j < 2 ^ n) : 8 ≤ gramAt n f g j := by
  have hn10 : n ≤ 10 := by rcases hn with rfl | rfl <;> norm_num
  have h1 : gramSchmidtNorm exactA n f g ≤ 117 / 100 * (117 / 100) * 12289 := by
    have h : @decide (gramSchmidtNorm exactA n f g > gsThreshold exactA) (Classical.propDecidable _) = false := h
    have h := of_decide_eq_false h
    have e : gsThreshold exactA = 117 / 100 * (117 / 100) * 12289 := by
      show (((1.17 : ℚ) : ℝ) * ((1.17 : ℚ) : ℝ)) * ((12289 : ℚ) : ℝ) = _
      norm_num
    rw [e] at h
    exact not_lt.mp h
  rw [gsNorm_val hn10] at h1
  have h2 := (le_max_right _ _).trans h1
  have hpos := gram_pos hn10 hne
  have hterm : ∀ i, i < 2 ^ n → Complex.normSq ((starRingEnd ℂ) (dft n (zC f) i) /
          (Complex.normSq (dft n (zC f) i) + Complex.normSq (dft n (zC g) i) : ℝ)) +
         Complex.normSq ((starRingEnd ℂ) (dft n (zC g) i) /
          (Complex.normSq (dft n (zC f) i) + Complex.normSq (dft n (zC g) i) : ℝ)) = 1 / gramAt n f g i := by
    intro i hi
    have hp := hpos i hi
    rw [Complex.normSq_div, Complex.normSq_div, Complex.normSq_conj, Complex.normSq_conj, Complex.normSq_ofReal, ← add_div]
    show gramAt n f g i / (gramAt n f g i * gramAt n f g i) = _
    rw [div_eq_div_iff (by positivity) (by positivity)]
    ring
  rw [sum_congr rfl (fun i hi => hterm i (mem_range.mp hi))] at h2
  have h3 := single_le_sum (f := fun i => 1 / gramAt n f g i) (s := range (2 ^ n))
    (fun i hi => by have := hpos i (mem_range.mp hi); positivity) (mem_range.mpr hj)
  have hN : (0 : ℝ) < 2 ^ n := by positivity
  have hN2 : (2 : ℝ) ^ n ≤ 1024 := by rcases hn with rfl | rfl <;> norm_num
  generalize ∑ i ∈ range (2 ^ n), 1 / gramAt n f g i = S at *
  have h4 : 12289 ^ 2 * S ≤ 117 / 100 * (117 / 100) * 12289 * 2 ^ n := by
    rw [← mul_div_assoc, div_le_iff₀ hN] at h2; exact h2
  have h5 : 1 / gramAt n f g j ≤ 1 / 8 := by
    have : (117 / 100 * (117 / 100) * 12289 * 2 ^ n : ℝ) ≤ 117 / 100 * (117 / 100) * 12289 * 1024 := by gcongr
    nlinarith
  exact (one_div_le_one_div (hpos j hj) (by norm_num)).mp h5

/-- The second norm of the test, for any arithmetic. -/
theorem gsNorm_at {R C : Type} (A : Arith R C) (n : ℕ) (f g : Mem Int) :
    ∃ (F G : Mem C), gramSchmidtNorm A n f g
        = A.max (A.add (sqrdNormR A n (loop (1 <<< n) (fun i m => upd m i (A.lit (f i))) fun _ => A.lit 0))
            (sqrdNormR A n (loop (1 <<< n) (fun i m => upd m i (A.lit (g i))) fun _ => A.lit 0))) (A.mul (A.lit (12289 * 12289)) (A.add (sqrdNormC A n F) (sqrdNormC A n G))) ∧
      ∀ j, j < 2 ^ n → F j = A.cdiv (A.conj (fft A n (toCx A n f) j))
          (A.cadd (A.cmul (fft A n (toCx A n f) j) (A.conj (fft A n (toCx A n f) j)))
            (A.cmul (fft A n (toCx A n g) j) (A.conj (fft A n (toCx A n g) j)))) ∧
        G j = A.cdiv (A.conj (fft A n (toCx A n g) j))
          (A.cadd (A.cmul (fft A n (toCx A n f) j) (A.conj (fft A n (toCx A n f) j)))
            (A.cmul (fft A n (toCx A n g) j) (A.conj (fft A n (toCx A n g) j)))) := by
  have e : ∀ a : Mem Int, loop (1 <<< n) (fun i m => upd m i (A.ofReal (loop (1 <<< n) (fun i m =>
      upd m i (A.lit (a i))) (fun _ => A.lit 0) i))) (junkC A) = toCx A n a := by
    intro a
    unfold toCx
    funext i
    rw [one_shiftLeft', loop_fill, loop_fill, loop_fill]
    split
    · rfl
    · rfl
  refine ⟨_, _, rfl, ?_⟩
  intro j hj
  rw [e f, e g]
  simp only [polyDivC_at, polyAddC_at, polyMulC_at, adjPoly_at, memcpy_at, if_pos hj, one_shiftLeft', and_self]

section
variable {A : Arith ℝ ℂ} (hA : Accurate A)
include hA

/-- The computed |x|^2, for r not smaller than 1/32. -/
theorem sq_near' {X x : ℂ} {r : ℝ} (hr : 1 / 32 ≤ r) (hx : ‖x‖ ≤ r) (h : ‖X - x‖ ≤ delD) :
    ‖A.cmul X (A.conj X) - x * (starRingEnd ℂ) x‖ ≤ 1 / 2 ^ 22 * r ^ 2 := by
  have h1 := hA.cmul X (A.conj X)
  rw [hA.conj, RCLike.norm_conj] at h1
  have hX := norm_near hA h
  have e : A.cmul X (A.conj X) - x * (starRingEnd ℂ) x = (A.cmul X (A.conj X) - X * (starRingEnd ℂ) X)
      + ((X - x) * (starRingEnd ℂ) X + x * (starRingEnd ℂ) (X - x)) := by rw [map_sub]; ring
  rw [e]
  rw [hA.conj]
  refine (norm_add_le _ _).trans ((add_le_add h1 (norm_add_le _ _)).trans ?_)
  rw [norm_mul, norm_mul, RCLike.norm_conj, RCLike.norm_conj]
  have d0 : 0 ≤ ‖X - x‖ := norm_nonneg _
  have X0 : 0 ≤ ‖X‖ := norm_nonneg _
  have hd : (0 : ℝ) < delD := by unfold delD; norm_num
  have hd1 : delD ≤ 1 / 3200 := by unfold delD; norm_num
  have hX2 : ‖X‖ ≤ 101 / 100 * r := by linarith
  have m1 : ‖X - x‖ * ‖X‖ ≤ delD * (101 / 100 * r) := by gcongr
  have m2 : ‖x‖ * ‖X - x‖ ≤ r * delD := by gcongr
  have m3 : ‖X‖ * ‖X‖ ≤ 2 * r ^ 2 := by nlinarith
  have hr2 : r ≤ 32 * r ^ 2 := by nlinarith
  have hr1 : 1 ≤ 1024 * r ^ 2 := by nlinarith
  generalize ‖X‖ * ‖X‖ = a at *
  generalize ‖X - x‖ * ‖X‖ = b at *
  generalize ‖x‖ * ‖X - x‖ = c at *
  generalize r ^ 2 = r2 at *
  clear h h1 e hx hX d0 X0 hX2 hd hd1
  unfold delD uD tinyD at *
  norm_num at *
  linarith

theorem den_near' {X x Y y : ℂ} {r : ℝ} (hr : 1 / 32 ≤ r) (hx : ‖x‖ ≤ r) (hy : ‖y‖ ≤ r)
    (h : ‖X - x‖ ≤ delD) (h' : ‖Y - y‖ ≤ delD) :
    ‖A.cadd (A.cmul X (A.conj X)) (A.cmul Y (A.conj Y)) - (x * (starRingEnd ℂ) x + y * (starRingEnd ℂ) y)‖
      ≤ 1 / 2 ^ 20 * r ^ 2 := by
  have h1 := sq_near' hA hr hx h
  have h2 := sq_near' hA hr hy h'
  set p := A.cmul X (A.conj X)
  set q := A.cmul Y (A.conj Y)
  have h3 := hA.cadd p q
  have e : A.cadd p q - (x * (starRingEnd ℂ) x + y * (starRingEnd ℂ) y) = (A.cadd p q - (p + q))
    + ((p - x * (starRingEnd ℂ) x) + (q - y * (starRingEnd ℂ) y)) := by ring
  have n1 : ‖x * (starRingEnd ℂ) x‖ ≤ r ^ 2 := by
    rw [norm_mul, RCLike.norm_conj, sq]; gcongr
  have n2 : ‖y * (starRingEnd ℂ) y‖ ≤ r ^ 2 := by
    rw [norm_mul, RCLike.norm_conj, sq]; gcongr
  have n3 := norm_near hA h1
  have n4 := norm_near hA h2
  have n5 := norm_add_le p q
  rw [e]
  refine (norm_add_le _ _).trans ((add_le_add h3 (norm_add_le _ _)).trans ?_)
  have hr2 : 1 ≤ 1024 * r ^ 2 := by nlinarith
  generalize ‖p - x * (starRingEnd ℂ) x‖ = a at *
  generalize ‖q - y * (starRingEnd ℂ) y‖ = b at *
  generalize ‖p + q‖ = c at *
  generalize ‖p‖ = d at *
  generalize ‖q‖ = w at *
  generalize r ^ 2 = r2 at *
  clear e h3 h h'
  unfold uD tinyD at *
  norm_num at *
  linarith

/-- The computed f* / (ff* + gg*) is not much smaller than the exact one. -/
theorem inv_low {X x D : ℂ} {r : ℝ} (hr : 1 / 32 ≤ r) (hr1 : r ≤ 1) (hx : 7 / 10 * r ≤ ‖x‖) (h : ‖X - x‖ ≤ delD)
    (hD : ‖D - ((r ^ 2 : ℝ) : ℂ)‖ ≤ 1 / 2 ^ 20 * r ^ 2) : 2 / 3 / r ≤ ‖A.cdiv (A.conj X) D‖ := by
  have hr0 : 0 < r := by linarith
  have hr2 : 1 / 1024 ≤ r ^ 2 := by nlinarith
  have hrn : ‖((r ^ 2 : ℝ) : ℂ)‖ = r ^ 2 := by rw [Complex.norm_real, Real.norm_of_nonneg (by positivity)]
  have hup := norm_near hA hD
  have hlo := norm_near hA (x := ((r ^ 2 : ℝ) : ℂ)) (y := D) (e := 1 / 2 ^ 20 * r ^ 2) (by rw [norm_sub_rev]; exact hD)
  rw [hrn] at hup hlo
  have hD1 : 9 / 10 * r ^ 2 ≤ ‖D‖ := by norm_num at hlo; linarith
  have hD2 : ‖D‖ ≤ 101 / 100 * r ^ 2 := by norm_num at hup; linarith
  have hD0 : 0 < ‖D‖ := by linarith
  have hq := hA.cdiv (A.conj X) D (by
    have : (1 : ℝ) / 2 ^ 20 ≤ 9 / 10 * (1 / 1024) := by norm_num
    linarith)
  have hxX := norm_near hA (x := x) (y := X) (e := delD) (by rw [norm_sub_rev]; exact h)
  have hXl : 69 / 100 * r ≤ ‖X‖ := by
    have : delD ≤ 1 / 100 * (1 / 32) := by unfold delD; norm_num
    linarith
  have hn : ‖A.conj X / D‖ = ‖X‖ / ‖D‖ := by rw [hA.conj, norm_div, RCLike.norm_conj]
  have hlow : 683 / 1000 / r ≤ ‖X‖ / ‖D‖ := by
    rw [div_le_div_iff₀ hr0 hD0]
    calc 683 / 1000 * ‖D‖ ≤ 683 / 1000 * (101 / 100 * r ^ 2) := by gcongr
      _ ≤ (69 / 100 * r) * r := by nlinarith
      _ ≤ _ := by gcongr
  have hb := norm_near hA (x := A.conj X / D) (y := A.cdiv (A.conj X) D)
    (e := 16 * uD * ‖A.conj X / D‖ + tinyD) (by rw [norm_sub_rev]; exact hq)
  rw [hn] at hb
  have hir : 2 / 3 / r = 2 / 3 * (1 / r) := by ring
  have hir2 : 683 / 1000 / r = 683 / 1000 * (1 / r) := by ring
  have hi1 : 1 ≤ 1 / r := by rw [le_div_iff₀ hr0]; linarith
  rw [hir2] at hlow
  rw [hir]
  generalize ‖X‖ / ‖D‖ = a at *
  generalize ‖A.cdiv (A.conj X) D‖ = b at *
  generalize 1 / r = t at *
  clear hq hn hrn hup hlo h hD hx hxX hir hir2
  unfold uD tinyD at hb
  norm_num at *
  linarith

theorem ftAt {X Y x y : ℂ} {D : ℝ} (hD : 1 / 2 ^ 10 ≤ D) (hD1 : D < 1) (e : D = Complex.normSq x + Complex.normSq y)
    (hX : ‖X - x‖ ≤ delD) (hY : ‖Y - y‖ ≤ delD) :
    4 / 9 / D ≤ ‖A.cdiv (A.conj X) (A.cadd (A.cmul X (A.conj X)) (A.cmul Y (A.conj Y)))‖ ^ 2 +
      ‖A.cdiv (A.conj Y) (A.cadd (A.cmul X (A.conj X)) (A.cmul Y (A.conj Y)))‖ ^ 2 := by
  have hr2 : Real.sqrt D ^ 2 = D := Real.sq_sqrt (by linarith [show (0 : ℝ) < 1 / 2 ^ 10 by norm_num])
  have hr : 1 / 32 ≤ Real.sqrt D := by
    apply Real.le_sqrt_of_sq_le; norm_num at hD ⊢; linarith
  have hr1 : Real.sqrt D ≤ 1 := Real.sqrt_le_one.mpr hD1.le
  generalize Real.sqrt D = r at *
  subst hr2
  rw [Complex.normSq_eq_norm_sq, Complex.normSq_eq_norm_sq] at e
  have hx : ‖x‖ ≤ r := abs_le_of_sq_le_sq' (by nlinarith [sq_nonneg ‖y‖]) (by linarith) |>.2
  have hy : ‖y‖ ≤ r := abs_le_of_sq_le_sq' (by nlinarith [sq_nonneg ‖x‖]) (by linarith) |>.2
  have hden := den_near' hA hr hx hy hX hY
  have e2 : x * (starRingEnd ℂ) x + y * (starRingEnd ℂ) y = ((r ^ 2 : ℝ) : ℂ) := by
    rw [Complex.mul_conj, Complex.mul_conj, e, Complex.normSq_eq_norm_sq, Complex.normSq_eq_norm_sq]; push_cast; ring
  rw [e2] at hden
  have hr0 : 0 < r := by linarith
  have e3 : 4 / 9 / r ^ 2 = (2 / 3 / r) ^ 2 := by rw [div_pow]; norm_num
  have hp : 0 ≤ 2 / 3 / r := by positivity
  rw [e3]
  by_cases hc : 7 / 10 * r ≤ ‖x‖
  · have := inv_low hA hr hr1 hc hX hden
    have := pow_le_pow_left₀ hp this 2
    nlinarith [sq_nonneg ‖A.cdiv (A.conj Y) (A.cadd (A.cmul X (A.conj X)) (A.cmul Y (A.conj Y)))‖]
  · have hc2 : 7 / 10 * r ≤ ‖y‖ := by
      by_contra hh
      push Not at hc hh
      nlinarith [norm_nonneg x, norm_nonneg y]
    have := inv_low hA hr hr1 hc2 hY hden
    have := pow_le_pow_left₀ hp this 2
    nlinarith [sq_nonneg ‖A.cdiv (A.conj X) (A.cadd (A.cmul X (A.conj X)) (A.cmul Y (A.conj Y)))‖]

/-- The two norms added by the test bound |f^|^2 + |g^|^2 from below. -/
theorem norms_low {n : ℕ} (hn : ValidLog n) {f g : Mem Int}
    (hf : ∀ i, i < 2 ^ n → |f i| ≤ 19 * (4096 / 2 ^ n)) (hg : ∀ i, i < 2 ^ n → |g i| ≤ 19 * (4096 / 2 ^ n))
    {F G : Mem ℂ} {X Y : Mem ℂ}
    (hX : ∀ j, j < 2 ^ n → X j = fft A n (toCx A n f) j) (hY : ∀ j, j < 2 ^ n → Y j = fft A n (toCx A n g) j)
    (hF : ∀ j, j < 2 ^ n → F j = A.cdiv (A.conj (X j)) (A.cadd (A.cmul (X j) (A.conj (X j))) (A.cmul (Y j) (A.conj (Y j)))))
    (hG : ∀ j, j < 2 ^ n → G j = A.cdiv (A.conj (Y j)) (A.cadd (A.cmul (X j) (A.conj (X j))) (A.cmul (Y j) (A.conj (Y j)))))
    (hs : sqrdNormC A n F + sqrdNormC A n G ≤ 1 / 8900) (j : ℕ) (hj : j < 2 ^ n) (hD : 1 / 2 ^ 10 ≤ gramAt n f g j) :
    1 ≤ gramAt n f g j := by
  by_contra hc
  push Not at hc
  have hn10 : n ≤ 10 := by rcases hn with rfl | rfl <;> norm_num
  have hm : ((19 * (4096 / 2 ^ n) : ℤ) : ℝ) * 2 ^ n + 200 ≤ bK := by
    unfold bK
    rcases hn with rfl | rfl <;> norm_num
  have hk0 : (0 : ℤ) ≤ 19 * (4096 / 2 ^ n) := by positivity
  have small : ∀ a : Mem Int, (∀ i, i < 2 ^ n → |a i| ≤ 19 * (4096 / 2 ^ n)) → ∀ i, i < 2 ^ n → |a i| ≤ 2 ^ 53 := by
    intro a ha i hi
    refine (ha i hi).trans ?_
    rcases hn with rfl | rfl <;> norm_num
  have bas : ∀ a : Mem Int, (∀ i, i < 2 ^ n → |a i| ≤ 19 * (4096 / 2 ^ n)) →
      ‖fft A n (toCx A n a) j - dft n (zC a) j‖ ≤ delD := by
    intro a ha
    have h := basis_near hA hn a (toCx A n a) 1 (Or.inl rfl) ha
      (fun i hi => by rw [one_mul]; exact toCx_at hA (small a ha) i hi) hm (le_of_eq rfl) hk0 j hj
    simp only [one_mul] at h
    refine h.2.2.trans (le_of_eq ?_)
    unfold kapD bK delD; norm_num
  have h1 := ftAt hA hD hc rfl (X := X j) (Y := Y j) (by rw [hX j hj]; exact bas f hf) (by rw [hY j hj]; exact bas g hg)
  rw [← hF j hj, ← hG j hj] at h1
  have a1 := normC_err hA hn10 F
  have a2 := normC_err hA hn10 G
  have b1 := pow_le_pow_left₀ (norm_nonneg _) (nC_ge (a := F) hj) 2
  have b2 := pow_le_pow_left₀ (norm_nonneg _) (nC_ge (a := G) hj) 2
  have hN : (0 : ℝ) < 2 ^ n := by positivity
  have hN2 : (2 : ℝ) ^ n ≤ 1024 := by rcases hn with rfl | rfl <;> norm_num
  rw [div_le_iff₀ hN] at a1 a2
  have h0 : 0 < gramAt n f g j := lt_of_lt_of_le (by norm_num) hD
  have h2 : 4 / 9 ≤ 4 / 9 / gramAt n f g j := by
    rw [le_div_iff₀ h0]; linarith
  generalize sqrdNormC A n F = u at *
  generalize sqrdNormC A n G = v at *
  have h3 : (1 + 1 / 2 ^ 37) * u + 1 / 2 ^ 37 + ((1 + 1 / 2 ^ 37) * v + 1 / 2 ^ 37) ≤ 1 / 8800 := by
    norm_num; linarith
  have h4 : ((1 + 1 / 2 ^ 37) * u + 1 / 2 ^ 37) * 2 ^ n + ((1 + 1 / 2 ^ 37) * v + 1 / 2 ^ 37) * (2 : ℝ) ^ n ≤ 1 / 8800 * 1024 := by
    rw [← add_mul]
    refine (mul_le_mul_of_nonneg_right h3 hN.le).trans ?_
    gcongr
  norm_num at h4
  linarith

end

theorem eta50 : etaD ≤ 1 / 2 ^ 60 := by
  unfold etaD
  exact one_div_le_one_div_of_le (by positivity) (pow_le_pow_right₀ (by norm_num) (by norm_num))

theorem rnd_up50 {x : ℝ} (hx : 0 ≤ x) : rnd x ≤ (1 + 1 / 2 ^ 50) * x + 1 / 2 ^ 50 := by
  have h := (abs_le.mp (rnd_errD x)).2
  rw [abs_of_nonneg hx] at h
  have := eta50
  unfold uD at h
  norm_num at *
  linarith

theorem rnd_lo50 {x : ℝ} (hx : 0 ≤ x) : (1 - 1 / 2 ^ 50) * x - 1 / 2 ^ 50 ≤ rnd x := by
  have h := (abs_le.mp (rnd_errD x)).1
  rw [abs_of_nonneg hx] at h
  have := eta50
  unfold uD at h
  norm_num at *
  linarith

/-- The threshold of the test, computed in binary64. -/
theorem gsThreshold_float (b : Bool) : gsThreshold (ieeeA b) ≤ 16823 := by
  show rnd (rnd (rnd ((1.17 : ℚ) : ℝ) * rnd ((1.17 : ℚ) : ℝ)) * rnd ((12289 : ℚ) : ℝ)) ≤ 16823
  have a1 := rnd_up50 (x := ((1.17 : ℚ) : ℝ)) (by norm_num)
  have a2 := rnd_lo50 (x := ((1.17 : ℚ) : ℝ)) (by norm_num)
  have a3 := rnd_up50 (x := ((12289 : ℚ) : ℝ)) (by norm_num)
  have a4 := rnd_lo50 (x := ((12289 : ℚ) : ℝ)) (by norm_num)
  generalize rnd ((1.17 : ℚ) : ℝ) = x at *
  generalize rnd ((12289 : ℚ) : ℝ) = y at *
  have x1 : x ≤ 1.1700001 := a1.trans (by norm_num)
  have x0 : 0 ≤ x := le_trans (by norm_num) a2
  have y1 : y ≤ 12289.01 := a3.trans (by norm_num)
  have y0 : 0 ≤ y := le_trans (by norm_num) a4
  have xx : x * x ≤ 1.1700001 * 1.1700001 := by gcongr
  have z1 := rnd_up50 (x := x * x) (by positivity)
  have z0 : 0 ≤ rnd (x * x) := by
    have := rnd_mono (show (0 : ℝ) ≤ x * x by positivity)
    rwa [rnd_zero] at this
  generalize rnd (x * x) = z at *
  have z3 : z ≤ 1.36891 := by norm_num at *; linarith
  have zy : z * y ≤ 1.36891 * 12289.01 := by gcongr
  refine (rnd_up50 (by positivity)).trans ?_
  norm_num at *
  linarith

/-- What the test bounds, in binary64. -/
theorem gs_parts (b : Bool) {n : ℕ} {f g : Mem Int} (h : gsTooBig (ieeeA b) n f g = false) :
    ∃ F G : Mem ℂ, sqrdNormC (ieeeA b) n F + sqrdNormC (ieeeA b) n G ≤ 1 / 8970 ∧
      (∀ j, j < 2 ^ n → F j = (ieeeA b).cdiv ((ieeeA b).conj (fft (ieeeA b) n (toCx (ieeeA b) n f) j))
          ((ieeeA b).cadd ((ieeeA b).cmul (fft (ieeeA b) n (toCx (ieeeA b) n f) j) ((ieeeA b).conj (fft (ieeeA b) n (toCx (ieeeA b) n f) j)))
            ((ieeeA b).cmul (fft (ieeeA b) n (toCx (ieeeA b) n g) j) ((ieeeA b).conj (fft (ieeeA b) n (toCx (ieeeA b) n g) j)))) ∧
        G j = (ieeeA b).cdiv ((ieeeA b).conj (fft (ieeeA b) n (toCx (ieeeA b) n g) j))
          ((ieeeA b).cadd ((ieeeA b).cmul (fft (ieeeA b) n (toCx (ieeeA b) n f) j) ((ieeeA b).conj (fft (ieeeA b) n (toCx (ieeeA b) n f) j)))
            ((ieeeA b).cmul (fft (ieeeA b) n (toCx (ieeeA b) n g) j) ((ieeeA b).conj (fft (ieeeA b) n (toCx (ieeeA b) n g) j))))) ∧
      rnd (sqrdNormR (ieeeA b) n (loop (1 <<< n) (fun i m => upd m i ((ieeeA b).lit (f i))) fun _ => (ieeeA b).lit 0)
        + sqrdNormR (ieeeA b) n (loop (1 <<< n) (fun i m => upd m i ((ieeeA b).lit (g i))) fun _ => (ieeeA b).lit 0)) ≤ 16823 := by
  have h : gramSchmidtNorm (ieeeA b) n f g ≤ gsThreshold (ieeeA b) := by
    have h : @decide (gramSchmidtNorm (ieeeA b) n f g > gsThreshold (ieeeA b)) (Classical.propDecidable _) = false := h
    exact not_lt.mp (of_decide_eq_false h)
  have h := h.trans (gsThreshold_float b)
  obtain ⟨F, G, hgs, hFG⟩ := gsNorm_at (ieeeA b) n f g
  rw [hgs] at h
  refine ⟨F, G, ?_, hFG, (le_max_left _ _).trans h⟩
  have h := (le_max_right _ _).trans h
  change rnd (rnd ((12289 * 12289 : ℚ) : ℝ) * rnd (sqrdNormC (ieeeA b) n F + sqrdNormC (ieeeA b) n G)) ≤ 16823 at h
  generalize sqrdNormC (ieeeA b) n F + sqrdNormC (ieeeA b) n G = s at *
  by_contra hs
  push Not at hs
  have s1 := rnd_lo50 (x := s) (le_trans (by norm_num) hs.le)
  have q1 := rnd_lo50 (x := ((12289 * 12289 : ℚ) : ℝ)) (by norm_num)
  generalize rnd s = t at *
  generalize rnd ((12289 * 12289 : ℚ) : ℝ) = q at *
  have t1 : 1 / 8971 ≤ t := by norm_num at *; linarith
  have q2 : 151019520 ≤ q := by norm_num at *; linarith
  have qt : 151019520 * (1 / 8971) ≤ q * t := by gcongr
  have := rnd_lo50 (x := q * t) (le_trans (by norm_num) qt)
  generalize rnd (q * t) = v at *
  generalize q * t = p at *
  norm_num at *
  linarith

/-- In binary64, the test excludes the values of |f^|^2 + |g^|^2 between 2^-10 and 1. -/
theorem gs_float (b : Bool) {n : ℕ} (hn : ValidLog n) {f g : Mem Int}
    (hf : ∀ i, i < 2 ^ n → |f i| ≤ 19 * (4096 / 2 ^ n)) (hg : ∀ i, i < 2 ^ n → |g i| ≤ 19 * (4096 / 2 ^ n))
    (h : gsTooBig (ieeeA b) n f g = false) (j : ℕ) (hj : j < 2 ^ n) (hD : 1 / 2 ^ 10 ≤ gramAt n f g j) :
    1 ≤ gramAt n f g j := by
  obtain ⟨F, G, hs, hFG, -⟩ := gs_parts b h
  exact norms_low (accurate_ieee b) hn hf hg (X := fft (ieeeA b) n (toCx (ieeeA b) n f)) (Y := fft (ieeeA b) n (toCx (ieeeA b) n g))
    (fun _ _ => rfl) (fun _ _ => rfl) (fun j hj => (hFG j hj).1) (fun j hj => (hFG j hj).2) (hs.trans (by norm_num)) j hj hD

end Falcon
