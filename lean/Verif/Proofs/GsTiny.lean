import Verif.Proofs.GsFloat

/-!
# The Gram-Schmidt test when |f^|^2 + |g^|^2 is nearly zero
-/

namespace Falcon

open Finset

theorem etaD_le200 : etaD ≤ 1 / 2 ^ 200 * tinyD := by
  refine etaD_le.trans (mul_le_mul_of_nonneg_right ?_ tinyD_pos.le)
  exact one_div_le_one_div_of_le (by positivity) (pow_le_pow_right₀ (by norm_num) (by norm_num))

/-- The error bound of the quotient, for smaller divisors. -/
theorem ieeeDiv_err80 (b : Bool) (x y : ℂ) (hy : 1 / 2 ^ 80 ≤ ‖y‖) :
    ‖ieeeDiv b x y - x / y‖ ≤ 16 * uD * ‖x / y‖ + tinyD := by
  have u0 := uD_pos
  have u1 : uD ≤ 1 / 2 ^ 50 := by unfold uD; norm_num
  have e0 := etaD_pos
  have t0 := tinyD_pos
  have ysq : ‖y‖ ^ 2 = y.re * y.re + y.im * y.im := by rw [Complex.sq_norm, Complex.normSq_apply]
  have hy0 : 0 < ‖y‖ := lt_of_lt_of_le (by positivity) hy
  have hD : 1 / 2 ^ 160 ≤ ‖y‖ ^ 2 := by
    calc (1 / 2 ^ 160 : ℝ) = (1 / 2 ^ 80) ^ 2 := by norm_num
      _ ≤ _ := pow_le_pow_left₀ (by positivity) hy 2
  set d : ℝ := if b then rnd (y.re * y.re + rnd (y.im * y.im)) else rnd (rnd (y.re * y.re) + rnd (y.im * y.im)) with hd
  have hdd : |d - ‖y‖ ^ 2| ≤ 3 * uD * ‖y‖ ^ 2 := by
    have h := rnd_dot b (y.re * y.re) (y.im * y.im)
    have hd' : d = rnd ((if b then y.re * y.re else rnd (y.re * y.re)) + rnd (y.im * y.im)) := by
      rw [hd]; cases b <;> simp
    rw [← hd', abs_mul_self, abs_mul_self, ← ysq] at h
    have hu2 : 2 * uD + uD ^ 2 ≤ 9 / 4 * uD := by nlinarith
    have h2 : (2 * uD + uD ^ 2) * ‖y‖ ^ 2 ≤ 9 / 4 * uD * ‖y‖ ^ 2 := mul_le_mul_of_nonneg_right hu2 (by positivity)
    have h3 : uD * (1 / 2 ^ 160) ≤ uD * ‖y‖ ^ 2 := mul_le_mul_of_nonneg_left hD u0.le
    have h4 : 4 * etaD ≤ 1 / 4 * (uD * (1 / 2 ^ 160)) := by
      have := etaD_le200
      unfold tinyD at this
      unfold uD
      generalize etaD = η at *
      norm_num at this ⊢
      linarith
    linarith
  have hd0 : 7 / 8 * ‖y‖ ^ 2 ≤ d := by
    have := (abs_le.mp hdd).1
    have : 3 * uD * ‖y‖ ^ 2 ≤ 1 / 8 * ‖y‖ ^ 2 := mul_le_mul_of_nonneg_right (by
      norm_num at u1; linarith) (by positivity)
    linarith
  have hdpos : 0 < d := lt_of_lt_of_le (by positivity) hd0
  set P := ieeeMul b x ((starRingEnd ℂ) y) with hP
  have hp : ‖P - x * (starRingEnd ℂ) y‖ ≤ 4 * uD * (‖x‖ * ‖y‖) + 6 * etaD := by
    have := ieeeMul_err b x ((starRingEnd ℂ) y)
    rwa [Complex.norm_conj] at this
  have hdC : (d : ℂ) ≠ 0 := by exact_mod_cast hdpos.ne'
  have hyC : y ≠ 0 := norm_pos_iff.mp hy0
  have hxy : x / y = x * (starRingEnd ℂ) y / ((‖y‖ ^ 2 : ℝ) : ℂ) := by
    rw [div_eq_div_iff hyC (by exact_mod_cast (pow_pos hy0 2).ne')]
    have : y * (starRingEnd ℂ) y = ((‖y‖ ^ 2 : ℝ) : ℂ) := by
      rw [Complex.mul_conj, Complex.normSq_eq_norm_sq]
    rw [← this]; ring
  have hQ : ‖P / d - x / y‖ ≤ 9 * uD * ‖x / y‖ + 8 * 2 ^ 160 * etaD := by
    have e1 : P / d - x / y = ((P - x * (starRingEnd ℂ) y) + (x / y) * (((‖y‖ ^ 2 - d : ℝ)) : ℂ)) / d := by
      rw [eq_div_iff hdC, sub_mul, div_mul_cancel₀ _ hdC]
      have : x / y * ((‖y‖ ^ 2 : ℝ) : ℂ) = x * (starRingEnd ℂ) y := by
        rw [hxy, div_mul_cancel₀ _ (by exact_mod_cast (pow_pos hy0 2).ne')]
      rw [Complex.ofReal_sub, mul_sub, this]; ring
    rw [e1, norm_div, Complex.norm_real, Real.norm_eq_abs, abs_of_pos hdpos, div_le_iff₀ hdpos]
    have n1 := norm_add_le (P - x * (starRingEnd ℂ) y) ((x / y) * (((‖y‖ ^ 2 - d : ℝ)) : ℂ))
    rw [norm_mul (x / y), Complex.norm_real, Real.norm_eq_abs, abs_sub_comm] at n1
    have n2 : ‖x‖ * ‖y‖ = ‖x / y‖ * ‖y‖ ^ 2 := by
      rw [norm_div]; field_simp
    rw [n2] at hp
    have n3 : ‖x / y‖ * |d - ‖y‖ ^ 2| ≤ ‖x / y‖ * (3 * uD * ‖y‖ ^ 2) :=
      mul_le_mul_of_nonneg_left hdd (norm_nonneg _)
    have n4 : (9 * uD * ‖x / y‖ + 8 * 2 ^ 160 * etaD) * (7 / 8 * ‖y‖ ^ 2) ≤
        (9 * uD * ‖x / y‖ + 8 * 2 ^ 160 * etaD) * d := mul_le_mul_of_nonneg_left hd0
          (add_nonneg (mul_nonneg (by linarith) (norm_nonneg _)) (mul_nonneg (by norm_num) e0.le))
    have n5 : etaD * (1 / 2 ^ 160) ≤ etaD * ‖y‖ ^ 2 := mul_le_mul_of_nonneg_left hD e0.le
    have n6 : 0 ≤ uD * (‖x / y‖ * ‖y‖ ^ 2) := mul_nonneg u0.le (mul_nonneg (norm_nonneg _) (sq_nonneg _))
    have n7 : etaD ≤ 2 ^ 160 * (etaD * ‖y‖ ^ 2) := by
      calc etaD = 2 ^ 160 * (etaD * (1 / 2 ^ 160)) := by ring
        _ ≤ _ := mul_le_mul_of_nonneg_left n5 (by norm_num)
    refine le_trans ?_ n4
    generalize ‖x / y‖ = w at *
    generalize ‖y‖ ^ 2 = D at *
    have : (9 * uD * w + 8 * 2 ^ 160 * etaD) * (7 / 8 * D) = 63 / 8 * (uD * (w * D)) + 7 * 2 ^ 160 * (etaD * D) := by ring
    rw [this]
    have : w * (3 * uD * D) = 3 * (uD * (w * D)) := by ring
    rw [this] at n3
    have e4 : 4 * uD * (w * D) = 4 * (uD * (w * D)) := by ring
    rw [e4] at hp
    generalize uD * (w * D) = V at *
    generalize etaD * D = V2 at *
    clear n5
    linarith
  have hR : ieeeDiv b x y = ⟨rnd ((P / d).re), rnd ((P / d).im)⟩ := by
    unfold ieeeDiv
    simp only [← hd, ← hP]
    rw [Complex.div_ofReal_re, Complex.div_ofReal_im]
  have h1 := norm_le_comp (e := ieeeDiv b x y - P / d) (x := P / d) u0.le e0.le
    (by rw [Complex.sub_re, hR]; exact rnd_errD _) (by rw [Complex.sub_im, hR]; exact rnd_errD _)
  have h2 : ‖P / d‖ ≤ ‖x / y‖ + ‖P / d - x / y‖ := by
    have := norm_add_le (x / y) (P / d - x / y)
    rwa [add_sub_cancel] at this
  have h3 := norm_sub_le_norm_sub_add_norm_sub (ieeeDiv b x y) (P / d) (x / y)
  have h4 : uD * ‖P / d‖ ≤ uD * ‖x / y‖ + 1 * ‖P / d - x / y‖ / 8 := by
    have a1 := mul_le_mul_of_nonneg_left h2 u0.le
    have a2 : uD * ‖P / d - x / y‖ ≤ 1 / 8 * ‖P / d - x / y‖ :=
      mul_le_mul_of_nonneg_right (by norm_num at u1; linarith) (norm_nonneg _)
    linarith
  have h5 : 12 * 2 ^ 160 * etaD ≤ tinyD := by
    have := etaD_le200
    have h6 : (12 : ℝ) * 2 ^ 160 * (1 / 2 ^ 200) ≤ 1 := by norm_num
    calc 12 * 2 ^ 160 * etaD ≤ 12 * 2 ^ 160 * (1 / 2 ^ 200 * tinyD) := mul_le_mul_of_nonneg_left this (by positivity)
      _ = (12 * 2 ^ 160 * (1 / 2 ^ 200)) * tinyD := by ring
      _ ≤ 1 * tinyD := mul_le_mul_of_nonneg_right h6 t0.le
      _ = _ := one_mul _
  have h7 : 0 ≤ uD * ‖x / y‖ := by positivity
  rw [mul_assoc] at hQ ⊢
  generalize uD * ‖x / y‖ = V at *
  generalize ‖P / d - x / y‖ = E at *
  norm_num at h5 hQ
  linarith

/-- ntru_gen.hpp:144-152: the computed value of ff* + gg* at one point. -/
def gsSum {R C : Type} (A : Arith R C) (n : ℕ) (f g : Mem Int) (j : ℕ) : C :=
  A.cadd (A.cmul (fft A n (toCx A n f) j) (A.conj (fft A n (toCx A n f) j)))
    (A.cmul (fft A n (toCx A n g) j) (A.conj (fft A n (toCx A n g) j)))

section
variable {A : Arith ℝ ℂ} (hA : Accurate A)
include hA

/-- The computed |X|^2 + |Y|^2 against the exact one. -/
theorem sum_near (X Y : ℂ) :
    ‖A.cadd (A.cmul X (A.conj X)) (A.cmul Y (A.conj Y)) - ((‖X‖ ^ 2 + ‖Y‖ ^ 2 : ℝ) : ℂ)‖
      ≤ 1 / 2 ^ 40 * (‖X‖ ^ 2 + ‖Y‖ ^ 2) + 1 / 2 ^ 90 := by
  have h1 := hA.cmul X (A.conj X)
  have h2 := hA.cmul Y (A.conj Y)
  rw [hA.conj, RCLike.norm_conj, Complex.mul_conj, Complex.normSq_eq_norm_sq, ← sq] at h1 h2
  rw [hA.conj, hA.conj]
  set p := A.cmul X ((starRingEnd ℂ) X)
  set q := A.cmul Y ((starRingEnd ℂ) Y)
  have h3 := hA.cadd p q
  have n3 := norm_near hA h1
  have n4 := norm_near hA h2
  rw [Complex.norm_real, Real.norm_of_nonneg (by positivity)] at n3 n4
  have n5 := norm_add_le p q
  have e : A.cadd p q - ((‖X‖ ^ 2 + ‖Y‖ ^ 2 : ℝ) : ℂ) = (A.cadd p q - (p + q))
    + ((p - ((‖X‖ ^ 2 : ℝ) : ℂ)) + (q - ((‖Y‖ ^ 2 : ℝ) : ℂ))) := by push_cast; ring
  rw [e]
  refine (norm_add_le _ _).trans ((add_le_add h3 (norm_add_le _ _)).trans ?_)
  have x0 : 0 ≤ ‖X‖ ^ 2 := by positivity
  have y0 : 0 ≤ ‖Y‖ ^ 2 := by positivity
  generalize ‖p - ((‖X‖ ^ 2 : ℝ) : ℂ)‖ = a at *
  generalize ‖q - ((‖Y‖ ^ 2 : ℝ) : ℂ)‖ = b at *
  generalize ‖p + q‖ = c at *
  generalize ‖p‖ = d at *
  generalize ‖q‖ = w at *
  generalize ‖X‖ ^ 2 = x at *
  generalize ‖Y‖ ^ 2 = y at *
  clear e h3
  unfold uD tinyD at *
  norm_num at *
  linarith

end

/-- If the computed |X|^2 + |Y|^2 is small but not below 2^-80 then the computed inverse is not small. -/
theorem inv_big (b : Bool) {X Y D : ℂ}
    (hD : D = (ieeeA b).cadd ((ieeeA b).cmul X ((ieeeA b).conj X)) ((ieeeA b).cmul Y ((ieeeA b).conj Y)))
    (h1 : 1 / 2 ^ 80 ≤ ‖D‖) (h2 : ‖D‖ ≤ 2) :
    1 / 5 ≤ ‖(ieeeA b).cdiv ((ieeeA b).conj X) D‖ ^ 2 + ‖(ieeeA b).cdiv ((ieeeA b).conj Y) D‖ ^ 2 := by
  have hA := accurate_ieee b
  have hs := norm_near hA (sum_near hA X Y)
  rw [← hD, Complex.norm_real, Real.norm_of_nonneg (by positivity)] at hs
  have hD0 : 0 < ‖D‖ := lt_of_lt_of_le (by positivity) h1
  have hS : 9 / 10 * ‖D‖ ≤ ‖X‖ ^ 2 + ‖Y‖ ^ 2 := by
    generalize ‖X‖ ^ 2 + ‖Y‖ ^ 2 = S at *
    norm_num at *
    linarith
  have big : ∀ Z : ℂ, 9 / 20 * ‖D‖ ≤ ‖Z‖ ^ 2 → 1 / 5 ≤ ‖(ieeeA b).cdiv ((ieeeA b).conj Z) D‖ ^ 2 := by
    intro Z hZ
    have hq : ‖ieeeDiv b ((ieeeA b).conj Z) D - (ieeeA b).conj Z / D‖ ≤ _ := ieeeDiv_err80 b ((ieeeA b).conj Z) D h1
    have hn : ‖(ieeeA b).conj Z / D‖ = ‖Z‖ / ‖D‖ := by rw [hA.conj, norm_div, RCLike.norm_conj]
    have hw : 47 / 100 ≤ ‖Z‖ / ‖D‖ := by
      rw [le_div_iff₀ hD0]
      refine (abs_le_of_sq_le_sq' ?_ (norm_nonneg _)).2
      nlinarith
    have hb := norm_near hA (x := (ieeeA b).conj Z / D) (y := ieeeDiv b ((ieeeA b).conj Z) D)
      (e := 16 * uD * ‖(ieeeA b).conj Z / D‖ + tinyD) (by rw [norm_sub_rev]; exact hq)
    rw [hn] at hb
    have h46 : 46 / 100 ≤ ‖ieeeDiv b ((ieeeA b).conj Z) D‖ := by
      generalize ‖Z‖ / ‖D‖ = a at *
      generalize ‖ieeeDiv b ((ieeeA b).conj Z) D‖ = c at *
      clear hq hn hZ hs
      unfold uD tinyD at hb
      norm_num at *
      linarith
    have := pow_le_pow_left₀ (by norm_num) h46 2
    show _ ≤ ‖ieeeDiv b ((ieeeA b).conj Z) D‖ ^ 2
    norm_num at this
    linarith
  by_cases hc : 9 / 20 * ‖D‖ ≤ ‖X‖ ^ 2
  · have := big X hc
    nlinarith [sq_nonneg ‖(ieeeA b).cdiv ((ieeeA b).conj Y) D‖]
  · have := big Y (by linarith)
    nlinarith [sq_nonneg ‖(ieeeA b).cdiv ((ieeeA b).conj X) D‖]

/-- The computed transform of a polynomial of key size. -/
theorem key_near {A : Arith ℝ ℂ} (hA : Accurate A) {n : ℕ} (hn : ValidLog n) {a : Mem Int}
    (ha : ∀ i, i < 2 ^ n → |a i| ≤ 19 * (4096 / 2 ^ n)) (j : ℕ) (hj : j < 2 ^ n) :
    ‖fft A n (toCx A n a) j - dft n (zC a) j‖ ≤ delD := by
  have hm : ((19 * (4096 / 2 ^ n) : ℤ) : ℝ) * 2 ^ n + 200 ≤ bK := by
    unfold bK
    rcases hn with rfl | rfl <;> norm_num
  have hk0 : (0 : ℤ) ≤ 19 * (4096 / 2 ^ n) := by positivity
  have small : ∀ i, i < 2 ^ n → |a i| ≤ 2 ^ 53 := by
    intro i hi
    refine (ha i hi).trans ?_
    rcases hn with rfl | rfl <;> norm_num
  have h := basis_near hA hn a (toCx A n a) 1 (Or.inl rfl) ha
    (fun i hi => by rw [one_mul]; exact toCx_at hA small i hi) hm (le_of_eq rfl) hk0 j hj
  simp only [one_mul] at h
  refine h.2.2.trans (le_of_eq ?_)
  unfold kapD bK delD; norm_num

/-- The computed sum is not nearly zero if the exact one is not. -/
theorem gsSum_low {A : Arith ℝ ℂ} (hA : Accurate A) {n : ℕ} (hn : ValidLog n) {f g : Mem Int}
    (hf : ∀ i, i < 2 ^ n → |f i| ≤ 19 * (4096 / 2 ^ n)) (hg : ∀ i, i < 2 ^ n → |g i| ≤ 19 * (4096 / 2 ^ n))
    (j : ℕ) (hj : j < 2 ^ n) (hD : 1 / 2 ^ 10 ≤ gramAt n f g j) : (1 : ℝ) / 2 ^ 20 ≤ ‖gsSum A n f g j‖ := by
  have hX := key_near hA hn hf j hj
  have hY := key_near hA hn hg j hj
  have e : gramAt n f g j = Complex.normSq (dft n (zC f) j) + Complex.normSq (dft n (zC g) j) := rfl
  unfold gsSum
  generalize fft A n (toCx A n f) j = X at *
  generalize fft A n (toCx A n g) j = Y at *
  generalize dft n (zC f) j = x at *
  generalize dft n (zC g) j = y at *
  have hr2 : Real.sqrt (gramAt n f g j) ^ 2 = gramAt n f g j :=
    Real.sq_sqrt (by linarith [show (0 : ℝ) < 1 / 2 ^ 10 by norm_num])
  have hr : 1 / 32 ≤ Real.sqrt (gramAt n f g j) := by
    apply Real.le_sqrt_of_sq_le; norm_num at hD ⊢; linarith
  generalize Real.sqrt (gramAt n f g j) = r at *
  rw [← hr2] at e hD
  rw [Complex.normSq_eq_norm_sq, Complex.normSq_eq_norm_sq] at e
  have hx : ‖x‖ ≤ r := abs_le_of_sq_le_sq' (by nlinarith [sq_nonneg ‖y‖]) (by linarith) |>.2
  have hy : ‖y‖ ≤ r := abs_le_of_sq_le_sq' (by nlinarith [sq_nonneg ‖x‖]) (by linarith) |>.2
  have hden := den_near' hA hr hx hy hX hY
  have e2 : x * (starRingEnd ℂ) x + y * (starRingEnd ℂ) y = ((r ^ 2 : ℝ) : ℂ) := by
    rw [Complex.mul_conj, Complex.mul_conj, e, Complex.normSq_eq_norm_sq, Complex.normSq_eq_norm_sq]; push_cast; ring
  rw [e2] at hden
  have hrn : ‖((r ^ 2 : ℝ) : ℂ)‖ = r ^ 2 := by rw [Complex.norm_real, Real.norm_of_nonneg (by positivity)]
  have hlo := norm_near hA (x := ((r ^ 2 : ℝ) : ℂ)) (e := 1 / 2 ^ 20 * r ^ 2) (by rw [norm_sub_rev]; exact hden)
  rw [hrn] at hlo
  generalize ‖A.cadd (A.cmul X (A.conj X)) (A.cmul Y (A.conj Y))‖ = d at *
  generalize r ^ 2 = s at *
  clear hden e e2 hrn
  norm_num at *
  linarith

/-- In binary64, the test excludes all values of |f^|^2 + |g^|^2 below 1, unless a computed one is below 2^-80. -/
theorem gs_tiny (b : Bool) {n : ℕ} (hn : ValidLog n) {f g : Mem Int}
    (hf : ∀ i, i < 2 ^ n → |f i| ≤ 19 * (4096 / 2 ^ n)) (hg : ∀ i, i < 2 ^ n → |g i| ≤ 19 * (4096 / 2 ^ n))
    (h : gsTooBig (ieeeA b) n f g = false) (j : ℕ) (hj : j < 2 ^ n) (hD : 1 / 2 ^ 80 ≤ ‖gsSum (ieeeA b) n f g j‖) :
    1 ≤ gramAt n f g j := by
  have hn10 : n ≤ 10 := by rcases hn with rfl | rfl <;> norm_num
  have hA := accurate_ieee b
  obtain ⟨F, G, hs, hFG, -⟩ := gs_parts b h
  by_cases hc : ‖gsSum (ieeeA b) n f g j‖ ≤ 2
  · exfalso
    have h1 := inv_big b rfl hD hc
    unfold gsSum at h1
    rw [← (hFG j hj).1, ← (hFG j hj).2] at h1
    have a1 := normC_err hA hn10 F
    have a2 := normC_err hA hn10 G
    have b1 := pow_le_pow_left₀ (norm_nonneg _) (nC_ge (a := F) hj) 2
    have b2 := pow_le_pow_left₀ (norm_nonneg _) (nC_ge (a := G) hj) 2
    have hN : (0 : ℝ) < 2 ^ n := by positivity
    have hN2 : (2 : ℝ) ^ n ≤ 1024 := by rcases hn with rfl | rfl <;> norm_num
    rw [div_le_iff₀ hN] at a1 a2
    clear hFG hD hc
    generalize sqrdNormC (ieeeA b) n F = u at *
    generalize sqrdNormC (ieeeA b) n G = v at *
    have h3 : (1 + 1 / 2 ^ 37) * u + 1 / 2 ^ 37 + ((1 + 1 / 2 ^ 37) * v + 1 / 2 ^ 37) ≤ 1 / 8800 := by
      norm_num at *; linarith
    have h4 : ((1 + 1 / 2 ^ 37) * u + 1 / 2 ^ 37) * 2 ^ n + ((1 + 1 / 2 ^ 37) * v + 1 / 2 ^ 37) * (2 : ℝ) ^ n ≤ 1 / 8800 * 1024 := by
      rw [← add_mul]
      refine (mul_le_mul_of_nonneg_right h3 hN.le).trans ?_
      gcongr
    norm_num at h4
    linarith
  · push Not at hc
    have hX := key_near hA hn hf j hj
    have hY := key_near hA hn hg j hj
    by_contra hlt
    push Not at hlt
    have e : gramAt n f g j = Complex.normSq (dft n (zC f) j) + Complex.normSq (dft n (zC g) j) := rfl
    have hS := norm_near hA (sum_near hA (fft (ieeeA b) n (toCx (ieeeA b) n f) j) (fft (ieeeA b) n (toCx (ieeeA b) n g) j))
    rw [Complex.norm_real, Real.norm_of_nonneg (by positivity)] at hS
    have hS : ‖gsSum (ieeeA b) n f g j‖ ≤ _ := hS
    have nX := norm_near hA hX
    have nY := norm_near hA hY
    rw [Complex.normSq_eq_norm_sq, Complex.normSq_eq_norm_sq] at e
    have x0 := norm_nonneg (dft n (zC f) j)
    have y0 := norm_nonneg (dft n (zC g) j)
    have X0 := norm_nonneg (fft (ieeeA b) n (toCx (ieeeA b) n f) j)
    have Y0 := norm_nonneg (fft (ieeeA b) n (toCx (ieeeA b) n g) j)
    generalize ‖gsSum (ieeeA b) n f g j‖ = d at *
    generalize ‖fft (ieeeA b) n (toCx (ieeeA b) n f) j‖ = X at *
    generalize ‖fft (ieeeA b) n (toCx (ieeeA b) n g) j‖ = Y at *
    generalize ‖dft n (zC f) j‖ = x at *
    generalize ‖dft n (zC g) j‖ = y at *
    have hdel : delD ≤ 1 / 100 := by unfold delD; norm_num
    have hx1 : x ≤ 1 := by nlinarith
    have hy1 : y ≤ 1 := by nlinarith
    have q1 : X ^ 2 ≤ x ^ 2 + 3 / 100 := by nlinarith
    have q2 : Y ^ 2 ≤ y ^ 2 + 3 / 100 := by nlinarith
    clear hX hY hFG hs hD nX nY
    generalize X ^ 2 = X2 at *
    generalize Y ^ 2 = Y2 at *
    norm_num at *
    linarith

end Falcon
