import Verif.F64Spec
import Verif.Proofs.F64Gen

/-!
# The Gram-Schmidt test and the quotient of the reduction when a divisor is nearly zero
-/

namespace Falcon

open Finset

/-! ## Divisors below 2^-80: the computed quotient is huge -/

theorem rnd_tiny {x : ℝ} (h : |x| ≤ 2 ^ (-1080 : ℤ)) : rnd x = 0 := by
  obtain ⟨m, e, -, he, hr⟩ := rep_rnd x
  by_contra hne
  have hm : m ≠ 0 := by rintro rfl; apply hne; rw [hr]; simp
  have h1 := rnd_err x
  have e1 : (2 : ℝ) ^ (-1075 : ℤ) = 32 * 2 ^ (-1080 : ℤ) := by
    rw [show (-1075 : ℤ) = 5 + -1080 by norm_num, zpow_add₀ (by norm_num)]; norm_num
  have e2 : (2 : ℝ) ^ (-1074 : ℤ) = 64 * 2 ^ (-1080 : ℤ) := by
    rw [show (-1074 : ℤ) = 6 + -1080 by norm_num, zpow_add₀ (by norm_num)]; norm_num
  have h2 : (2 : ℝ) ^ (-1074 : ℤ) ≤ |rnd x| := by
    rw [hr, abs_mul, abs_of_pos (zpow_pos (by norm_num : (0 : ℝ) < 2) e)]
    have : (1 : ℝ) ≤ |(m : ℝ)| := by
      rw [← Int.cast_abs]; exact_mod_cast Int.one_le_abs hm
    calc (2 : ℝ) ^ (-1074 : ℤ) ≤ 2 ^ e := zpow_le_zpow_right₀ (by norm_num) he
      _ = 1 * 2 ^ e := (one_mul _).symm
      _ ≤ _ := mul_le_mul_of_nonneg_right this (by positivity)
  have h3 : |x| * 2 ^ (-53 : ℤ) ≤ |x| * 1 := mul_le_mul_of_nonneg_left (by norm_num) (abs_nonneg _)
  have h4 := abs_sub_abs_le_abs_sub (rnd x) x
  have hp : (0 : ℝ) < 2 ^ (-1080 : ℤ) := by positivity
  rw [e1] at h1
  rw [e2] at h2
  generalize (2 : ℝ) ^ (-1080 : ℤ) = t at *
  generalize |x| * 2 ^ (-53 : ℤ) = w at *
  linarith

/-- The divisor of `ieeeDiv`. -/
noncomputable def denD (b : Bool) (y : ℂ) : ℝ :=
  if b then rnd (y.re * y.re + rnd (y.im * y.im)) else rnd (rnd (y.re * y.re) + rnd (y.im * y.im))

/-- 2^-270. -/
noncomputable def hD270 : ℝ := 2 ^ (-270 : ℤ)

theorem hD_pos : 0 < hD270 := by unfold hD270; positivity

theorem hD_le : hD270 ≤ 1 := by
  unfold hD270
  exact zpow_le_one_of_nonpos₀ (by norm_num) (by norm_num)

theorem etaD_hD : etaD ≤ 1 / 2 ^ 180 * hD270 ^ 3 := by
  have h : hD270 ^ 3 = 2 ^ (-810 : ℤ) := by
    unfold hD270
    rw [← zpow_natCast, ← zpow_mul]; norm_num
  have h2 : etaD = 2 ^ (-1000 : ℤ) := by
    unfold etaD
    rw [one_div, zpow_neg]; norm_cast
  rw [h, h2, one_div, ← zpow_natCast, ← zpow_neg, ← zpow_add₀ (by norm_num)]
  exact zpow_le_zpow_right₀ (by norm_num) (by norm_num)

theorem den_ne_zero {b : Bool} {y : ℂ} (h : denD b y ≠ 0) : hD270 ^ 2 ≤ ‖y‖ := by
  by_contra hlt
  push Not at hlt
  have e : (hD270 ^ 2) ^ 2 = 2 ^ (-1080 : ℤ) := by
    unfold hD270
    rw [← pow_mul, ← zpow_natCast, ← zpow_mul]; norm_num
  have ysq : ‖y‖ ^ 2 = y.re * y.re + y.im * y.im := by rw [Complex.sq_norm, Complex.normSq_apply]
  have hs : ‖y‖ ^ 2 ≤ 2 ^ (-1080 : ℤ) := by rw [← e]; exact pow_le_pow_left₀ (norm_nonneg _) hlt.le 2
  have n1 := mul_self_nonneg y.re
  have n2 := mul_self_nonneg y.im
  have z1 : rnd (y.re * y.re) = 0 := rnd_tiny (by rw [abs_of_nonneg n1]; linarith)
  have z2 : rnd (y.im * y.im) = 0 := rnd_tiny (by rw [abs_of_nonneg n2]; linarith)
  apply h
  unfold denD
  rw [z1, z2, add_zero, add_zero, z1, rnd_zero, ite_self]

theorem sum_near_eta (b : Bool) (X Y : ℂ) :
    ‖(ieeeA b).cadd ((ieeeA b).cmul X ((ieeeA b).conj X)) ((ieeeA b).cmul Y ((ieeeA b).conj Y)) - ((‖X‖ ^ 2 + ‖Y‖ ^ 2 : ℝ) : ℂ)‖
      ≤ 1 / 2 ^ 40 * (‖X‖ ^ 2 + ‖Y‖ ^ 2) + 2 ^ 10 * etaD := by
  have h1 := ieeeMul_err b X ((starRingEnd ℂ) X)
  have h2 := ieeeMul_err b Y ((starRingEnd ℂ) Y)
  rw [RCLike.norm_conj, Complex.mul_conj, Complex.normSq_eq_norm_sq, ← sq] at h1 h2
  show ‖(⟨rnd ((ieeeMul b X ((starRingEnd ℂ) X)).re + (ieeeMul b Y ((starRingEnd ℂ) Y)).re),
    rnd ((ieeeMul b X ((starRingEnd ℂ) X)).im + (ieeeMul b Y ((starRingEnd ℂ) Y)).im)⟩ : ℂ) - _‖ ≤ _
  set p := ieeeMul b X ((starRingEnd ℂ) X)
  set q := ieeeMul b Y ((starRingEnd ℂ) Y)
  have h3 := norm_le_comp (e := (⟨rnd (p.re + q.re), rnd (p.im + q.im)⟩ : ℂ) - (p + q)) (x := p + q) uD_pos.le etaD_pos.le
    (by rw [Complex.sub_re, Complex.add_re]; exact rnd_errD _) (by rw [Complex.sub_im, Complex.add_im]; exact rnd_errD _)
  have n3 := norm_near (accurate_ieee b) h1
  have n4 := norm_near (accurate_ieee b) h2
  rw [Complex.norm_real, Real.norm_of_nonneg (by positivity)] at n3 n4
  have n5 := norm_add_le p q
  have e : (⟨rnd (p.re + q.re), rnd (p.im + q.im)⟩ : ℂ) - ((‖X‖ ^ 2 + ‖Y‖ ^ 2 : ℝ) : ℂ)
    = ((⟨rnd (p.re + q.re), rnd (p.im + q.im)⟩ : ℂ) - (p + q))
    + ((p - ((‖X‖ ^ 2 : ℝ) : ℂ)) + (q - ((‖Y‖ ^ 2 : ℝ) : ℂ))) := by push_cast; ring
  rw [e]
  refine (norm_add_le _ _).trans ((add_le_add h3 (norm_add_le _ _)).trans ?_)
  have x0 : 0 ≤ ‖X‖ ^ 2 := by positivity
  have y0 : 0 ≤ ‖Y‖ ^ 2 := by positivity
  have e0 := etaD_pos
  generalize ‖p - ((‖X‖ ^ 2 : ℝ) : ℂ)‖ = a at *
  generalize ‖q - ((‖Y‖ ^ 2 : ℝ) : ℂ)‖ = b at *
  generalize ‖p + q‖ = c at *
  generalize ‖p‖ = d at *
  generalize ‖q‖ = w at *
  generalize ‖X‖ ^ 2 = x at *
  generalize ‖Y‖ ^ 2 = y at *
  generalize etaD = η at *
  clear e h3
  unfold uD at *
  norm_num at *
  linarith

/-- If the computed |X|^2 + |Y|^2 is below 2^-80 and its computed square is not zero then a part of one of the two quotients is huge. -/
theorem inv_huge (b : Bool) {X Y D : ℂ}
    (hD : D = (ieeeA b).cadd ((ieeeA b).cmul X ((ieeeA b).conj X)) ((ieeeA b).cmul Y ((ieeeA b).conj Y)))
    (h0 : denD b D ≠ 0) (h2 : ‖D‖ < 1 / 2 ^ 80) :
    ∃ Z, (Z = X ∨ Z = Y) ∧
      (2 ^ 20 ≤ |(ieeeMul b ((starRingEnd ℂ) Z) ((starRingEnd ℂ) D)).re / denD b D| ∨
       2 ^ 20 ≤ |(ieeeMul b ((starRingEnd ℂ) Z) ((starRingEnd ℂ) D)).im / denD b D|) := by
  have hs := norm_near (accurate_ieee b) (sum_near_eta b X Y)
  rw [← hD, Complex.norm_real, Real.norm_of_nonneg (by positivity)] at hs
  have ht := den_ne_zero h0
  have hp := hD_pos
  have h1 := hD_le
  have he := etaD_hD
  have e0 := etaD_pos
  have t0 : 0 < ‖D‖ := lt_of_lt_of_le (by positivity) ht
  have he2 : etaD ≤ 1 / 2 ^ 180 * ‖D‖ := by
    refine he.trans (mul_le_mul_of_nonneg_left (le_trans ?_ ht) (by positivity))
    exact pow_le_pow_of_le_one hp.le h1 (by norm_num)
  have hS : 9 / 10 * ‖D‖ ≤ ‖X‖ ^ 2 + ‖Y‖ ^ 2 := by
    generalize ‖X‖ ^ 2 + ‖Y‖ ^ 2 = S at *
    clear he ht
    norm_num at *
    linarith
  have big : ∀ Z : ℂ, 9 / 20 * ‖D‖ ≤ ‖Z‖ ^ 2 →
      (2 ^ 20 ≤ |(ieeeMul b ((starRingEnd ℂ) Z) ((starRingEnd ℂ) D)).re / denD b D| ∨
       2 ^ 20 ≤ |(ieeeMul b ((starRingEnd ℂ) Z) ((starRingEnd ℂ) D)).im / denD b D|) := by
    intro Z hZ
    have hP := ieeeMul_err b ((starRingEnd ℂ) Z) ((starRingEnd ℂ) D)
    have hP2 := norm_near (accurate_ieee b) (x := (starRingEnd ℂ) Z * (starRingEnd ℂ) D)
      (y := ieeeMul b ((starRingEnd ℂ) Z) ((starRingEnd ℂ) D)) (e := 4 * uD * (‖(starRingEnd ℂ) Z‖ * ‖(starRingEnd ℂ) D‖) + 6 * etaD)
      (by rw [norm_sub_rev]; exact hP)
    rw [norm_mul, RCLike.norm_conj, RCLike.norm_conj] at hP2
    clear hP
    have hdd : |denD b D - ‖D‖ ^ 2| ≤ (2 * uD + uD ^ 2) * ‖D‖ ^ 2 + 4 * etaD := by
      have ysq : ‖D‖ ^ 2 = D.re * D.re + D.im * D.im := by rw [Complex.sq_norm, Complex.normSq_apply]
      have h := rnd_dot b (D.re * D.re) (D.im * D.im)
      have hd' : denD b D = rnd ((if b then D.re * D.re else rnd (D.re * D.re)) + rnd (D.im * D.im)) := by
        unfold denD; cases b <;> simp
      rw [← hd', abs_mul_self, abs_mul_self, ← ysq] at h
      exact h
    have z0 : 0 ≤ ‖Z‖ := norm_nonneg _
    have hz1 : hD270 / 2 ≤ ‖Z‖ := by
      refine (abs_le_of_sq_le_sq' ?_ z0).2
      nlinarith
    have hz2 : 2 ^ 38 * ‖D‖ ≤ ‖Z‖ := by
      refine (abs_le_of_sq_le_sq' ?_ z0).2
      refine le_trans ?_ hZ
      rw [mul_pow, sq ‖D‖, ← mul_assoc]
      refine mul_le_mul_of_nonneg_right ?_ t0.le
      norm_num at h2 ⊢
      linarith
    have hzt : hD270 ^ 3 ≤ 2 * (‖Z‖ * ‖D‖) := by
      have := mul_le_mul hz1 ht (by positivity) z0
      nlinarith
    have he3 : etaD ≤ 1 / 2 ^ 179 * (‖Z‖ * ‖D‖) := by
      generalize hD270 ^ 3 = w at *
      generalize ‖Z‖ * ‖D‖ = v at *
      clear hdd hP2
      norm_num at *
      linarith
    have htt : 2 ^ 38 * ‖D‖ ^ 2 ≤ ‖Z‖ * ‖D‖ := by
      have := mul_le_mul_of_nonneg_right hz2 t0.le
      nlinarith
    have hδ : |denD b D| ≤ 1 / 2 ^ 36 * (‖Z‖ * ‖D‖) := by
      have a1 := abs_sub_abs_le_abs_sub (denD b D) (‖D‖ ^ 2)
      rw [abs_of_nonneg (sq_nonneg ‖D‖)] at a1
      have t1 : 0 ≤ ‖D‖ ^ 2 := sq_nonneg _
      clear hP2 hz1 hz2 hzt he he2 hs hS h0
      generalize ‖D‖ ^ 2 = T at *
      generalize ‖Z‖ * ‖D‖ = v at *
      generalize |denD b D| = δ at *
      generalize |denD b D - T| = δ' at *
      generalize etaD = η at *
      have u2 : (2 * uD + uD ^ 2) * T ≤ 1 / 2 * T := mul_le_mul_of_nonneg_right (by unfold uD; norm_num) t1
      norm_num at *
      linarith
    have hPl : 9 / 10 * (‖Z‖ * ‖D‖) ≤ ‖ieeeMul b ((starRingEnd ℂ) Z) ((starRingEnd ℂ) D)‖ := by
      have v0 : 0 ≤ ‖Z‖ * ‖D‖ := by positivity
      clear hz1 hz2 hzt he he2 hs hS h0 hδ htt hdd
      generalize ‖Z‖ * ‖D‖ = v at *
      generalize ‖ieeeMul b ((starRingEnd ℂ) Z) ((starRingEnd ℂ) D)‖ = P at *
      generalize etaD = η at *
      unfold uD at *
      norm_num at *
      linarith
    have δ0 : 0 < |denD b D| := abs_pos.mpr h0
    rw [abs_div, abs_div, le_div_iff₀ δ0, le_div_iff₀ δ0]
    by_contra hno
    push Not at hno
    have := norm_le_max hno.1.le hno.2.le
    have v0 : 0 < ‖Z‖ * ‖D‖ := by
      have : 0 < ‖Z‖ := lt_of_lt_of_le (by positivity) hz1
      positivity
    clear hz1 hz2 hzt he he2 hs hS h0 htt hdd hP2
    generalize ‖Z‖ * ‖D‖ = v at *
    generalize ‖ieeeMul b ((starRingEnd ℂ) Z) ((starRingEnd ℂ) D)‖ = P at *
    generalize |denD b D| = δ at *
    norm_num at *
    linarith
  by_cases hc : 9 / 20 * ‖D‖ ≤ ‖X‖ ^ 2
  · exact ⟨X, Or.inl rfl, big X hc⟩
  · exact ⟨Y, Or.inr rfl, big Y (by linarith)⟩

/-! ## Order of doubles, infinity included -/

/-- The datum is at least `K`, possibly infinite. -/
def GeF (K : ℝ) (d : F64) : Prop := d = .inf false ∨ ∃ s x, d = .fin s x ∧ K ≤ x

/-- The datum is at least `K` in absolute value, possibly infinite; for `K = 0`: it is no NaN. -/
def LgF (K : ℝ) (d : F64) : Prop := (∃ s, d = .inf s) ∨ ∃ s x, d = .fin s x ∧ K ≤ |x|

theorem GeF.mono {K K' : ℝ} {d : F64} (h : GeF K d) (hk : K' ≤ K) : GeF K' d := by
  rcases h with h | ⟨s, x, h, hx⟩
  · exact Or.inl h
  · exact Or.inr ⟨s, x, h, hk.trans hx⟩

theorem LgF.zero {K : ℝ} {d : F64} (h : LgF K d) : LgF 0 d := by
  rcases h with h | ⟨s, x, h, -⟩
  · exact Or.inl h
  · exact Or.inr ⟨s, x, h, abs_nonneg _⟩

theorem rep_pow (e : ℕ) : Rep ((2 : ℝ) ^ e) := by
  have := rep_zpow (e := (e : ℤ)) (by omega)
  rwa [zpow_natCast] at this

theorem rep_zero' : Rep 0 := ⟨0, 0, by norm_num, by norm_num, by simp⟩

theorem geF_round {K x : ℝ} (hK : Rep K) (h0 : 0 ≤ x) (h : K ≤ x) (z : Bool) : GeF K (F64.round z x) := by
  unfold F64.round
  split
  · left
    simp [h0]
  · exact Or.inr ⟨_, _, rfl, le_rnd_of_rep hK h⟩

theorem lgF_round {K x : ℝ} (hK : Rep K) (h : K ≤ |x|) (z : Bool) : LgF K (F64.round z x) := by
  unfold F64.round
  split
  · exact Or.inl ⟨_, rfl⟩
  · refine Or.inr ⟨_, _, rfl, ?_⟩
    rcases le_total 0 x with hx | hx
    · rw [abs_of_nonneg hx] at h
      exact (le_rnd_of_rep hK h).trans (le_abs_self _)
    · rw [abs_of_nonpos hx] at h
      have := le_rnd_of_rep hK h
      rw [rnd_neg] at this
      exact this.trans (neg_le_abs _)

theorem geF_add {K : ℝ} (hK : Rep K) (hK0 : 0 ≤ K) {a c : F64} (h : GeF K a) (h' : GeF 0 c) : GeF K (F64.add a c) := by
  rcases h with rfl | ⟨s, x, rfl, hx⟩ <;> rcases h' with rfl | ⟨t, y, rfl, hy⟩
  · left; rfl
  · left; rfl
  · left; rfl
  · exact geF_round hK (by linarith) (by linarith) _

theorem geF_add' {K : ℝ} (hK : Rep K) (hK0 : 0 ≤ K) {a c : F64} (h : GeF 0 a) (h' : GeF K c) : GeF K (F64.add a c) := by
  rcases h with rfl | ⟨s, x, rfl, hx⟩ <;> rcases h' with rfl | ⟨t, y, rfl, hy⟩
  · left; rfl
  · left; rfl
  · left; rfl
  · exact geF_round hK (by linarith) (by linarith) _

theorem geF_sq {K : ℝ} (hK : Rep (K * K)) (hK0 : 0 ≤ K) {d : F64} (h : LgF K d) : GeF (K * K) (F64.mul d d) := by
  rcases h with ⟨s, rfl⟩ | ⟨s, x, rfl, hx⟩
  · left
    show F64.inf (xor s s) = _
    rw [Bool.xor_self]
  · refine geF_round hK (mul_self_nonneg _) ?_ _
    rw [← abs_mul_abs_self x]
    exact mul_le_mul hx hx hK0 (abs_nonneg _)

theorem geF_sq_neg {K : ℝ} (hK : Rep (K * K)) (hK0 : 0 ≤ K) {d : F64} (h : LgF K d) :
    GeF (K * K) (F64.neg (F64.mul d (F64.neg d))) := by
  rcases h with ⟨s, rfl⟩ | ⟨s, x, rfl, hx⟩
  · left
    show F64.inf (!(xor s (!s))) = _
    cases s <;> rfl
  · have hm : K * K ≤ x * x := by
      rw [← abs_mul_abs_self x]
      exact mul_le_mul hx hx hK0 (abs_nonneg _)
    show GeF _ (F64.neg (F64.round _ (x * -x)))
    unfold F64.round
    split
    · left
      rename_i hb
      have : x * -x < 0 := by
        rw [mul_neg, neg_lt_zero]
        refine lt_of_le_of_ne (mul_self_nonneg _) fun h0 => ?_
        rw [mul_neg, ← h0, neg_zero, rnd_zero, abs_zero] at hb
        exact absurd hb (not_le.mpr (by positivity))
      rw [decide_eq_true this]
      rfl
    · refine Or.inr ⟨_, _, rfl, ?_⟩
      rw [mul_neg, rnd_neg, neg_neg]
      exact le_rnd_of_rep hK hm

theorem geF_fma {K : ℝ} (hK : Rep K) (hK0 : 0 ≤ K) {d c : F64} (h : LgF 0 d) (hc : GeF 0 c)
    (hk : (∃ K', 0 ≤ K' ∧ K' * K' = K ∧ LgF K' d) ∨ GeF K c) : GeF K (F64.fma d d c) := by
  rcases h with ⟨s, rfl⟩ | ⟨s, x, rfl, -⟩
  · have h1 : GeF K (F64.mul (.inf s) (.inf s)) := by
      left
      show F64.inf (xor s s) = _
      rw [Bool.xor_self]
    show GeF K (F64.add (F64.mul (.inf s) (.inf s)) c)
    exact geF_add hK hK0 h1 hc
  · rcases hc with rfl | ⟨t, z, rfl, hz⟩
    · left; rfl
    · refine geF_round hK (add_nonneg (mul_self_nonneg _) hz) ?_ _
      rcases hk with ⟨K', h0, hk, hl⟩ | hk
      · rcases hl with ⟨_, hl⟩ | ⟨_, _, hl, hx⟩
        · cases hl
        · cases hl
          have : K' * K' ≤ x * x := by
            rw [← abs_mul_abs_self x]
            exact mul_le_mul hx hx h0 (abs_nonneg _)
          linarith
      · rcases hk with hk | ⟨_, _, hk, hx⟩
        · cases hk
        · cases hk
          have := mul_self_nonneg x
          linarith

theorem recover_fst {rc : F64.Recover} {x y r : F64 × F64} (h : r.1 ≠ .nan) : F64.recover rc x y r = r := by
  obtain ⟨r1, r2⟩ := r
  cases r1
  · exact absurd rfl h
  · rfl
  · rfl

theorem GeF.ne_nan {K : ℝ} {d : F64} (h : GeF K d) : d ≠ .nan := by
  rcases h with rfl | ⟨s, x, rfl, -⟩ <;> simp

theorem LgF.ne_nan {K : ℝ} {d : F64} (h : LgF K d) : d ≠ .nan := by
  rcases h with ⟨s, rfl⟩ | ⟨s, x, rfl, -⟩ <;> simp

section
variable {b : Bool} {rm rd : F64.Recover}

/-- The real part of z z*. -/
theorem geF_norm {K : ℝ} (hK : Rep (K * K)) (hK0 : 0 ≤ K) {z : F64 × F64} (h1 : LgF 0 z.1) (h2 : LgF 0 z.2)
    (h : LgF K z.1 ∨ LgF K z.2) : GeF (K * K) ((f64A b rm rd).cmul z ((f64A b rm rd).conj z)).1 := by
  have r0 : Rep ((0 : ℝ) * 0) := by rw [mul_zero]; exact rep_zero'
  have n1 := geF_sq r0 le_rfl h1
  have n2 := geF_sq_neg r0 le_rfl h2
  rw [mul_zero] at n1 n2
  have key : GeF (K * K) (F64.cmul0 b z (z.1, F64.neg z.2)).1 := by
    unfold F64.cmul0
    cases b
    · show GeF _ (F64.add (F64.mul z.1 z.1) (F64.neg (F64.mul z.2 (F64.neg z.2))))
      rcases h with h | h
      · exact geF_add hK (mul_self_nonneg _) (geF_sq hK hK0 h) n2
      · exact geF_add' hK (mul_self_nonneg _) n1 (geF_sq_neg hK hK0 h)
    · show GeF _ (F64.fma z.1 z.1 (F64.neg (F64.mul z.2 (F64.neg z.2))))
      refine geF_fma hK (mul_self_nonneg _) h1 n2 ?_
      rcases h with h | h
      · exact Or.inl ⟨K, hK0, rfl, h⟩
      · exact Or.inr (geF_sq_neg hK hK0 h)
  show GeF _ (F64.recover rm z (z.1, F64.neg z.2) (F64.cmul0 b z (z.1, F64.neg z.2))).1
  rw [recover_fst key.ne_nan]
  exact key

/-- The squared norm of a transform without NaN, one part of which is at least 2^20. -/
theorem geF_sqrdNorm {n : ℕ} (hn : n ≤ 10) {a : Mem (F64 × F64)} (h : ∀ i, i < 2 ^ n → LgF 0 (a i).1 ∧ LgF 0 (a i).2) :
    GeF 0 (sqrdNormC (f64A b rm rd) n a) ∧
    ((∃ j, j < 2 ^ n ∧ (LgF (2 ^ 20) (a j).1 ∨ LgF (2 ^ 20) (a j).2)) → GeF (2 ^ 30) (sqrdNormC (f64A b rm rd) n a)) := by
  have hp : 2 ^ n ≤ 1024 := (Nat.pow_le_pow_right (by norm_num) hn).trans (by norm_num)
  have hz : F64.lit 0 = .fin false 0 := by
    unfold F64.lit F64.round
    have : ¬ ((2 : ℝ) ^ 1024 ≤ 0) := not_le.mpr (by positivity)
    simp [rnd_zero, this]
  have hl : F64.lit (2 ^ n) = .fin false (2 ^ n) := by
    unfold F64.lit F64.round
    have e : (((2 : ℚ) ^ n : ℚ) : ℝ) = 2 ^ n := by push_cast; rfl
    have h1 : rnd ((2 : ℝ) ^ n) = 2 ^ n := rnd_of_rep (rep_pow n)
    have h2 : ¬ ((2 : ℝ) ^ 1024 ≤ |(2 : ℝ) ^ n|) := by
      rw [abs_of_pos (by positivity), not_le]
      exact pow_lt_pow_right₀ (by norm_num) (by omega)
    have h3 : ¬ ((2 : ℝ) ^ n < 0) := not_lt.mpr (by positivity)
    have h4 : ¬ ((2 : ℝ) ^ n = 0) := by positivity
    rw [e, h1, if_neg h2, if_neg h4, decide_eq_false h3]
  have r0 : Rep ((0 : ℝ) * 0) := by rw [mul_zero]; exact rep_zero'
  have acc : ∀ m, m ≤ 2 ^ n →
      let s := loop m (fun i res => (f64A b rm rd).cadd res ((f64A b rm rd).cmul (a i) ((f64A b rm rd).conj (a i))))
        ((f64A b rm rd).cx ((f64A b rm rd).lit 0) ((f64A b rm rd).lit 0))
      GeF 0 s.1 ∧ ((∃ j, j < m ∧ (LgF (2 ^ 20) (a j).1 ∨ LgF (2 ^ 20) (a j).2)) → GeF (2 ^ 40) s.1) := by
    intro m
    induction m with
    | zero =>
      intro _
      refine ⟨Or.inr ⟨_, _, hz, le_rfl⟩, ?_⟩
      rintro ⟨j, hj, -⟩
      omega
    | succ m ih =>
      intro hm
      obtain ⟨i1, i2⟩ := ih (by omega)
      rw [loop_succ]
      simp only at i1 i2 ⊢
      generalize loop m (fun i res => (f64A b rm rd).cadd res ((f64A b rm rd).cmul (a i) ((f64A b rm rd).conj (a i))))
        ((f64A b rm rd).cx ((f64A b rm rd).lit 0) ((f64A b rm rd).lit 0)) = s at *
      obtain ⟨a1, a2⟩ := h m (by omega)
      have t0 := geF_norm (b := b) (rm := rm) (rd := rd) r0 le_rfl a1 a2 (Or.inl a1)
      rw [mul_zero] at t0
      refine ⟨geF_add rep_zero' le_rfl i1 t0, ?_⟩
      rintro ⟨j, hj, hL⟩
      by_cases hjm : j < m
      · exact geF_add (rep_pow 40) (by positivity) (i2 ⟨j, hjm, hL⟩) t0
      · have : j = m := by omega
        subst this
        have e : (2 : ℝ) ^ 20 * 2 ^ 20 = 2 ^ 40 := by norm_num
        have t1 := geF_norm (b := b) (rm := rm) (rd := rd) (K := 2 ^ 20) (by rw [e]; exact rep_pow 40) (by positivity) a1 a2 hL
        rw [e] at t1
        exact geF_add' (rep_pow 40) (by positivity) i1 t1
  have dv : ∀ {K : ℝ} {d : F64}, Rep K → 0 ≤ K → GeF (K * 2 ^ 10) d → GeF K (F64.div d (.fin false (2 ^ n))) := by
    intro K d hK hK0 hd
    have hN : (0 : ℝ) < 2 ^ n := by positivity
    rcases hd with rfl | ⟨s, x, rfl, hx⟩
    · left; rfl
    · show GeF K (if (2 : ℝ) ^ n = 0 then _ else _)
      rw [if_neg hN.ne']
      have hle : (2 : ℝ) ^ n ≤ 2 ^ 10 := pow_le_pow_right₀ (by norm_num) hn
      have hx' : K * 2 ^ n ≤ x := (mul_le_mul_of_nonneg_left hle hK0).trans hx
      exact geF_round hK (div_nonneg ((mul_nonneg hK0 (by positivity)).trans hx) hN.le) ((le_div_iff₀ hN).mpr hx') _
  obtain ⟨s1, s2⟩ := acc (2 ^ n) le_rfl
  unfold sqrdNormC
  simp only [one_shiftLeft']
  constructor
  · show GeF 0 (F64.div _ (F64.lit (2 ^ n)))
    rw [hl]
    exact dv rep_zero' le_rfl (by rw [zero_mul]; exact s1)
  · intro hj
    show GeF _ (F64.div _ (F64.lit (2 ^ n)))
    rw [hl]
    refine dv (rep_pow 30) (by positivity) ?_
    rw [← pow_add]
    exact s2 hj

/-- The quotient by a finite number whose computed squared absolute value is not zero. -/
theorem cdiv_parts {e e' : ℕ} {d d' : F64 × F64} {x y : ℂ} (h : FinC e d x) (h' : FinC e' d' y) (hy : denD b y ≠ 0)
    (he : e + e' ≤ 800) (he' : e' ≤ 450) :
    LgF 0 ((f64A b rm rd).cdiv d d').1 ∧ LgF 0 ((f64A b rm rd).cdiv d d').2 ∧
    ∀ K, Rep K → (K ≤ |(ieeeMul b x ((starRingEnd ℂ) y)).re / denD b y| → LgF K ((f64A b rm rd).cdiv d d').1) ∧
      (K ≤ |(ieeeMul b x ((starRingEnd ℂ) y)).im / denD b y| → LgF K ((f64A b rm rd).cdiv d d').2) := by
  have hp : FinC (e + e' + 1) (F64.cmul0 b d (d'.1, F64.neg d'.2)) (ieeeMul b x ((starRingEnd ℂ) y)) :=
    finC_mul0 h ⟨h'.1, finB_neg h'.2⟩ (by omega)
  have hd : ∃ s, (if b then F64.fma d'.1 d'.1 (F64.mul d'.2 d'.2) else F64.add (F64.mul d'.1 d'.1) (F64.mul d'.2 d'.2)) =
      .fin s (denD b y) := by
    unfold denD
    cases b
    · exact (finB_add (finB_mul h'.1 h'.1 (by omega)) (finB_mul h'.2 h'.2 (by omega)) (by omega)).1
    · exact (finB_fma h'.1 h'.1 (finB_mul h'.2 h'.2 (by omega)) (by omega)).1
  obtain ⟨s, hs⟩ := hd
  obtain ⟨⟨t1, ht1⟩, -⟩ := hp.1
  obtain ⟨⟨t2, ht2⟩, -⟩ := hp.2
  have dv : ∀ t u, F64.div (.fin t u) (.fin s (denD b y)) = F64.round (xor t s) (u / denD b y) := by
    intro t u
    show (if denD b y = 0 then _ else _) = _
    rw [if_neg hy]
  have e1 : F64.cdiv0 b d d' = (F64.round (xor t1 s) ((ieeeMul b x ((starRingEnd ℂ) y)).re / denD b y),
      F64.round (xor t2 s) ((ieeeMul b x ((starRingEnd ℂ) y)).im / denD b y)) := by
    unfold F64.cdiv0
    simp only
    rw [hs, ht1, ht2, dv, dv]
  have e2 : (f64A b rm rd).cdiv d d' = F64.cdiv0 b d d' := by
    show F64.recover rd d d' _ = _
    refine recover_fst ?_
    rw [e1]
    exact (lgF_round rep_zero' (abs_nonneg _) _).ne_nan
  rw [e2, e1]
  exact ⟨lgF_round rep_zero' (abs_nonneg _) _, lgF_round rep_zero' (abs_nonneg _) _,
    fun K hK => ⟨fun h => lgF_round hK h _, fun h => lgF_round hK h _⟩⟩

/-- The test rejects a key when a computed |f^|^2 + |g^|^2 is below 2^-80, unless its computed square is zero at some point. -/
theorem gsTooBig_tiny {n : ℕ} (hn : n ≤ 10) {f g : Mem Int} (hf : ∀ i, i < 2 ^ n → |f i| ≤ 2 ^ 8) (hg : ∀ i, i < 2 ^ n → |g i| ≤ 2 ^ 8)
    (h0 : ∀ j, j < 2 ^ n → denD b (gsSum (ieeeA b) n f g j) ≠ 0)
    (hj : ∃ j, j < 2 ^ n ∧ ‖gsSum (ieeeA b) n f g j‖ < 1 / 2 ^ 80) :
    gsTooBig (f64A b rm rd) n f g = true := by
  have hS := sim_f64 b rm rd
  have cast : ∀ {a : Mem Int}, (∀ i, i < 2 ^ n → |a i| ≤ 2 ^ 8) → ∀ i, i < 2 ^ n → |(a i : ℝ)| ≤ 2 ^ 8 := by
    intro a h i hi
    rw [← Int.cast_abs]
    exact_mod_cast h i hi
  have up : ∀ {a : Mem Int}, (∀ i, i < 2 ^ n → |(a i : ℝ)| ≤ 2 ^ 8) → ∀ i, i < 2 ^ n → |(a i : ℝ)| ≤ 2 ^ 53 := by
    intro a h i hi
    exact (h i hi).trans (pow_le_pow_right₀ (by norm_num) (by norm_num))
  have kf := finC_toCx (b := b) (rm := rm) (rd := rd) hn (by norm_num) (cast hf)
  have kg := finC_toCx (b := b) (rm := rm) (rd := rd) hn (by norm_num) (cast hg)
  have ks := finC_gsSum (b := b) (rm := rm) (rd := rd) hn (by norm_num) (cast hf) (cast hg)
  obtain ⟨F, G, h1, h2⟩ := gsNorm_at (f64A b rm rd) n f g
  have pF := fun j (hj : j < 2 ^ n) => cdiv_parts (b := b) (rm := rm) (rd := rd) (hS.conj (kf j hj)) (ks j hj) (h0 j hj) (by norm_num) (by norm_num)
  have pG := fun j (hj : j < 2 ^ n) => cdiv_parts (b := b) (rm := rm) (rd := rd) (hS.conj (kg j hj)) (ks j hj) (h0 j hj) (by norm_num) (by norm_num)
  have eF : ∀ j, j < 2 ^ n → F j = (f64A b rm rd).cdiv ((f64A b rm rd).conj (fft (f64A b rm rd) n (toCx (f64A b rm rd) n f) j))
      (gsSum (f64A b rm rd) n f g j) := fun j hj => (h2 j hj).1
  have eG : ∀ j, j < 2 ^ n → G j = (f64A b rm rd).cdiv ((f64A b rm rd).conj (fft (f64A b rm rd) n (toCx (f64A b rm rd) n g) j))
      (gsSum (f64A b rm rd) n f g j) := fun j hj => (h2 j hj).2
  have nF := geF_sqrdNorm (b := b) (rm := rm) (rd := rd) hn (a := F)
    (fun j hj => by rw [eF j hj]; exact ⟨(pF j hj).1, (pF j hj).2.1⟩)
  have nG := geF_sqrdNorm (b := b) (rm := rm) (rd := rd) hn (a := G)
    (fun j hj => by rw [eG j hj]; exact ⟨(pG j hj).1, (pG j hj).2.1⟩)
  have hsum : GeF (2 ^ 30) (F64.add (sqrdNormC (f64A b rm rd) n F) (sqrdNormC (f64A b rm rd) n G)) := by
    obtain ⟨j, hj, hs⟩ := hj
    obtain ⟨Z, hZ, hbig⟩ := inv_huge b rfl (h0 j hj) hs
    rcases hZ with rfl | rfl
    · refine geF_add (rep_pow 30) (by positivity) (nF.2 ⟨j, hj, ?_⟩) nG.1
      rw [eF j hj]
      exact hbig.imp ((pF j hj).2.2 _ (rep_pow 20)).1 ((pF j hj).2.2 _ (rep_pow 20)).2
    · refine geF_add' (rep_pow 30) (by positivity) nF.1 (nG.2 ⟨j, hj, ?_⟩)
      rw [eG j hj]
      exact hbig.imp ((pG j hj).2.2 _ (rep_pow 20)).1 ((pG j hj).2.2 _ (rep_pow 20)).2
  have q : ∃ y : ℝ, F64.lit (12289 * 12289) = .fin false y ∧ 1 ≤ y := by
    refine ⟨rnd ((12289 * 12289 : ℚ) : ℝ), ?_, le_rnd_of_rep (by simpa using rep_pow 0) (by norm_num)⟩
    obtain ⟨-, h3⟩ : FinB 30 (F64.lit (12289 * 12289)) (rnd ((12289 * 12289 : ℚ) : ℝ)) := finB_lit (by norm_num) (by norm_num)
    unfold F64.lit F64.round
    rw [if_neg (not_le.mpr (h3.trans_lt (pow_lt_pow_right₀ (by norm_num) (by norm_num))))]
    norm_num
  have hmul : GeF (2 ^ 30) (F64.mul (F64.lit (12289 * 12289)) (F64.add (sqrdNormC (f64A b rm rd) n F) (sqrdNormC (f64A b rm rd) n G))) := by
    obtain ⟨y, hy, hy1⟩ := q
    rw [hy]
    rcases hsum with hs | ⟨s, x, hs, hx⟩
    · rw [hs]
      left
      show (if y = 0 then _ else _) = _
      rw [if_neg (by linarith)]
      rfl
    · rw [hs]
      have hx0 : (0 : ℝ) ≤ x := le_trans (by positivity) hx
      refine geF_round (rep_pow 30) (mul_nonneg (by linarith) hx0) ?_ _
      nlinarith
  have s3 : FinB 121 _ _ := finB_add (finB_sqrdNormR (b := b) (rm := rm) (rd := rd) hn (up (cast hf)))
    (finB_sqrdNormR (b := b) (rm := rm) (rd := rd) hn (up (cast hg))) (by norm_num)
  have hmax : GeF (2 ^ 30) (gramSchmidtNorm (f64A b rm rd) n f g) := by
    rw [h1]
    obtain ⟨⟨s, hs⟩, -⟩ := s3
    show GeF _ (F64.max (F64.add _ _) _)
    rw [hs]
    rcases hmul with hm | ⟨t, y, hm, hy⟩
    · left
      show F64.max _ (F64.mul (F64.lit (12289 * 12289)) (F64.add (sqrdNormC (f64A b rm rd) n F) (sqrdNormC (f64A b rm rd) n G))) = _
      rw [hm]
      rfl
    · show GeF _ (F64.max _ (F64.mul (F64.lit (12289 * 12289)) (F64.add (sqrdNormC (f64A b rm rd) n F) (sqrdNormC (f64A b rm rd) n G))))
      rw [hm]
      unfold F64.max
      split
      · exact Or.inr ⟨_, _, rfl, hy⟩
      · rename_i hlt
        refine Or.inr ⟨_, _, rfl, hy.trans ?_⟩
        exact not_lt.mp fun hlt' => hlt (decide_eq_true hlt')
  have l1 : FinB 1 (F64.lit 1.17) (rnd ((1.17 : ℚ) : ℝ)) := finB_lit (by norm_num [abs_of_pos]) (by norm_num)
  have l2 : FinB 14 (F64.lit 12289) (rnd ((12289 : ℚ) : ℝ)) := finB_lit (by norm_num) (by norm_num)
  have t : FinB (1 + 1 + 14) (gsThreshold (f64A b rm rd)) _ := finB_mul (finB_mul l1 l1 (by norm_num)) l2 (by norm_num)
  unfold gsTooBig
  show F64.lt (gsThreshold (f64A b rm rd)) (gramSchmidtNorm (f64A b rm rd) n f g) = true
  obtain ⟨⟨s, hs⟩, ht⟩ := t
  rw [hs]
  rcases hmax with hm | ⟨u, y, hm, hy⟩
  · rw [hm]; rfl
  · rw [hm]
    refine decide_eq_true ?_
    have := (le_abs_self _).trans ht
    norm_num at this hy ⊢
    linarith

/-! ## Zero divisors: the conversion of the quotient fails -/

theorem upLayers_poison {α : Type} {P : α → Prop} {bf : ℕ → α → α → α × α} (hbf : ∀ k x y, P x ∨ P y → P (bf k x y).1) (n : ℕ)
    (a : Mem α) (j : ℕ) (hj : j < 2 ^ n) (h : P (a j)) : P (upLayers n (bfStep bf) a 0) := by
  unfold upLayers
  have key : ∀ m, m ≤ n → ∃ c, c < 2 ^ (n - m) ∧ P (loop m (fun j a => upLayer n j (bfStep bf) a) a (c * 2 ^ m)) := by
    intro m
    induction m with
    | zero => intro _; exact ⟨j, hj, by rw [pow_zero, mul_one]; exact h⟩
    | succ m ih =>
      intro hm
      obtain ⟨c, hc, hP⟩ := ih (by omega)
      rw [loop_succ]
      have hl := (upLayer_spec (show m < n by omega) bf (loop m (fun j a => upLayer n j (bfStep bf) a) a)).lo
      have e2 : n - m = (n - m - 1) + 1 := by omega
      rw [e2, pow_succ] at hc
      have hc2 : c / 2 < 2 ^ (n - m - 1) := by omega
      have := hl (c / 2) hc2 0 (by positivity)
      refine ⟨c / 2, by rw [show n - (m + 1) = n - m - 1 by omega]; exact hc2, ?_⟩
      have e3 : c / 2 * 2 ^ (m + 1) = c / 2 * (2 * 2 ^ m) + 0 := by rw [pow_succ]; ring
      rw [e3, this]
      apply hbf
      rcases Nat.even_or_odd c with ⟨d, hd⟩ | ⟨d, hd⟩
      · left
        have : c / 2 * (2 * 2 ^ m) + 0 = c * 2 ^ m := by
          rw [show c / 2 = d by omega, hd]; ring
        rwa [this]
      · right
        have : c / 2 * (2 * 2 ^ m) + 2 ^ m + 0 = c * 2 ^ m := by
          rw [show c / 2 = d by omega, hd]; ring
        rwa [this]
  obtain ⟨c, hc, hP⟩ := key n le_rfl
  rw [Nat.sub_self, pow_zero] at hc
  rw [show c = 0 by omega, zero_mul] at hP
  exact hP

theorem add_not_finite {a c : F64} (h : ¬ a.Finite ∨ ¬ c.Finite) : ¬ (F64.add a c).Finite := by
  rintro ⟨s, x, hx⟩
  rcases h with h | h <;> cases a <;> cases c <;> simp [F64.add, F64.Finite] at h hx
  all_goals (split at hx <;> cases hx)

/-- One part that is not finite makes the first coefficient of the inverse transform not finite. -/
theorem ifft_not_finite {n : ℕ} (hn : n ≤ 10) {a : Mem (F64 × F64)} {j : ℕ} (hj : j < 2 ^ n) (h : ¬ (a j).1.Finite) :
    ¬ (ifft (f64A b rm rd) n a 0).1.Finite := by
  rw [ifft_eq, if_pos (by positivity)]
  have h1 := upLayers_poison (P := fun z : F64 × F64 => ¬ z.1.Finite) (bf := ifftBf (f64A b rm rd))
    (fun k x y h => add_not_finite h) n a j hj h
  generalize upLayers n (bfStep (ifftBf (f64A b rm rd))) a 0 = z at h1
  have hl : ∃ s y, F64.lit (1 / 2 ^ n) = .fin s y ∧ y ≠ 0 := by
    obtain ⟨⟨s, h2⟩, -⟩ : FinB 0 (F64.lit (1 / 2 ^ n)) (rnd ((1 / 2 ^ n : ℚ) : ℝ)) := by
      refine finB_lit ?_ (by norm_num)
      push_cast
      rw [abs_of_pos (by positivity), pow_zero, div_le_one (by positivity)]
      exact one_le_pow₀ (by norm_num)
    refine ⟨s, _, h2, ?_⟩
    have hr : Rep (((1 / 2 ^ n : ℚ) : ℝ)) := by
      have := rep_zpow (e := -(n : ℤ)) (by omega)
      rw [zpow_neg, zpow_natCast] at this
      push_cast
      rwa [one_div]
    rw [rnd_of_rep hr]
    push_cast
    positivity
  obtain ⟨s, y, hy, hy0⟩ := hl
  show ¬ (F64.mul (F64.lit (1 / 2 ^ n)) z.1).Finite
  rw [hy]
  rintro ⟨t, x, hx⟩
  apply h1
  cases hz : z.1 with
  | nan => rw [hz] at hx; cases hx
  | inf u =>
    rw [hz] at hx
    change (if y = 0 then F64.nan else F64.inf (xor s u)) = _ at hx
    rw [if_neg hy0] at hx
    cases hx
  | fin u v => exact ⟨u, v, rfl⟩

theorem cdiv_zero (hrd : F64.NoInvention rd) {e e' : ℕ} {d d' : F64 × F64} {x y : ℂ} (h : FinC e d x) (h' : FinC e' d' y)
    (hy : denD b y = 0) (he : e + e' ≤ 800) (he' : e' ≤ 450) : ¬ ((f64A b rm rd).cdiv d d').1.Finite := by
  have hp : FinC (e + e' + 1) (F64.cmul0 b d (d'.1, F64.neg d'.2)) (ieeeMul b x ((starRingEnd ℂ) y)) :=
    finC_mul0 h ⟨h'.1, finB_neg h'.2⟩ (by omega)
  have hd : ∃ s, (if b then F64.fma d'.1 d'.1 (F64.mul d'.2 d'.2) else F64.add (F64.mul d'.1 d'.1) (F64.mul d'.2 d'.2)) =
      .fin s (denD b y) := by
    unfold denD
    cases b
    · exact (finB_add (finB_mul h'.1 h'.1 (by omega)) (finB_mul h'.2 h'.2 (by omega)) (by omega)).1
    · exact (finB_fma h'.1 h'.1 (finB_mul h'.2 h'.2 (by omega)) (by omega)).1
  obtain ⟨s, hs⟩ := hd
  rw [hy] at hs
  obtain ⟨⟨t1, ht1⟩, -⟩ := hp.1
  obtain ⟨⟨t2, ht2⟩, -⟩ := hp.2
  have dv : ∀ t u, ¬ (F64.div (.fin t u) (.fin s 0)).Finite := by
    rintro t u ⟨r, v, hv⟩
    change (if (0 : ℝ) = 0 then (if u = 0 then F64.nan else F64.inf (xor t s)) else _) = _ at hv
    rw [if_pos rfl] at hv
    split at hv <;> cases hv
  have e1 : ∃ r2, F64.cdiv0 b d d' = (F64.div (.fin t1 (ieeeMul b x ((starRingEnd ℂ) y)).re) (.fin s 0), r2) := by
    unfold F64.cdiv0
    simp only
    rw [hs, ht1]
    exact ⟨_, rfl⟩
  obtain ⟨r2, e1⟩ := e1
  show ¬ (F64.recover rd d d' (F64.cdiv0 b d d')).1.Finite
  rw [e1]
  have n1 := dv t1 (ieeeMul b x ((starRingEnd ℂ) y)).re
  generalize F64.div (.fin t1 (ieeeMul b x ((starRingEnd ℂ) y)).re) (.fin s 0) = r1 at n1
  obtain ⟨⟨⟨s1, q1⟩, -⟩, ⟨s2, q2⟩, -⟩ := h
  obtain ⟨⟨⟨s3, q3⟩, -⟩, ⟨s4, q4⟩, -⟩ := h'
  have hR := hrd d d' ⟨⟨_, _, q1⟩, _, _, q2⟩ ⟨⟨_, _, q3⟩, _, _, q4⟩
  unfold F64.recover
  split
  · exact hR
  · exact n1

/-- When the reduction computes a quotient, no divisor is zero. -/
theorem redQuot_den (hrd : F64.NoInvention rd) {k : ℕ} (hk : k ≤ 10) {f g F G : Mem Int}
    (hf : ∀ i, i < 2 ^ k → |f i| ≤ 2 ^ 53) (hg : ∀ i, i < 2 ^ k → |g i| ≤ 2 ^ 53)
    (hF : ∀ i, i < 2 ^ k → |F i| ≤ 2 ^ 53) (hG : ∀ i, i < 2 ^ k → |G i| ≤ 2 ^ 53) {kr : Mem ℤ}
    (h : redQuot (f64A b rm rd) k f g F G = .ok kr) (j : ℕ) (hj : j < 2 ^ k) : denD b (gsSum (ieeeA b) k f g j) ≠ 0 := by
  intro h0
  have hS := sim_f64 b rm rd
  have cast : ∀ {a : Mem Int}, (∀ i, i < 2 ^ k → |a i| ≤ 2 ^ 53) → ∀ i, i < 2 ^ k → |(a i : ℝ)| ≤ 2 ^ 53 := by
    intro a h i hi
    rw [← Int.cast_abs]
    exact_mod_cast h i hi
  have kf := finC_toCx (b := b) (rm := rm) (rd := rd) hk (by norm_num) (cast hf)
  have kg := finC_toCx (b := b) (rm := rm) (rd := rd) hk (by norm_num) (cast hg)
  have kF := finC_toCx (b := b) (rm := rm) (rd := rd) hk (by norm_num) (cast hF)
  have kG := finC_toCx (b := b) (rm := rm) (rd := rd) hk (by norm_num) (cast hG)
  have ks := finC_gsSum (b := b) (rm := rm) (rd := rd) hk (by norm_num) (cast hf) (cast hg)
  have num : FinC 168 ((f64A b rm rd).cadd ((f64A b rm rd).cmul (fft (f64A b rm rd) k (toCx (f64A b rm rd) k F) j)
        ((f64A b rm rd).conj (fft (f64A b rm rd) k (toCx (f64A b rm rd) k f) j)))
      ((f64A b rm rd).cmul (fft (f64A b rm rd) k (toCx (f64A b rm rd) k G) j)
        ((f64A b rm rd).conj (fft (f64A b rm rd) k (toCx (f64A b rm rd) k g) j))))
      ((ieeeA b).cadd ((ieeeA b).cmul (fft (ieeeA b) k (toCx (ieeeA b) k F) j) ((ieeeA b).conj (fft (ieeeA b) k (toCx (ieeeA b) k f) j)))
      ((ieeeA b).cmul (fft (ieeeA b) k (toCx (ieeeA b) k G) j) ((ieeeA b).conj (fft (ieeeA b) k (toCx (ieeeA b) k g) j)))) :=
    hS.cadd (hS.cmul (kF j hj) (hS.conj (kf j hj)) (by norm_num)) (hS.cmul (kG j hj) (hS.conj (kg j hj)) (by norm_num)) (by norm_num)
  have r := cdiv_zero (b := b) (rm := rm) (rd := rd) hrd num (ks j hj) h0 (by norm_num) (by norm_num)
  unfold gsSum toCx at r
  simp only [one_shiftLeft'] at r
  unfold redQuot at h
  simp only at h
  rw [one_shiftLeft'] at h
  have hbad : ∀ Q : Mem (F64 × F64), ¬ (Q j).1.Finite → ∀ e : ℤ,
      F64.roundTo (-2 ^ 63) (2 ^ 63 - 1) (ifft (f64A b rm rd) k Q 0).1 ≠ .ok e := by
    intro Q hQ e he
    have := ifft_not_finite (b := b) (rm := rm) (rd := rd) hk hj hQ
    cases hz : (ifft (f64A b rm rd) k Q 0).1 with
    | nan => rw [hz] at he; cases he
    | inf s => rw [hz] at he; cases he
    | fin s x => exact this ⟨s, x, hz⟩
  have hok : ∀ (q : ℕ → Except UB ℤ) (m : ℕ) (w : Mem ℤ), 0 < m →
      loopE m (fun i m => (q i).bind fun v => .ok (upd m i v)) (fun _ => 0) = .ok w → ∃ v, q 0 = .ok v := by
    intro q m
    induction m with
    | zero => intro w h; omega
    | succ m ih =>
      intro w _ hw
      rw [loopE] at hw
      cases hl : loopE m (fun i m => (q i).bind fun v => .ok (upd m i v)) (fun _ => 0) with
      | error e => rw [hl] at hw; cases hw
      | ok w' =>
        rcases Nat.eq_zero_or_pos m with h0 | h0
        · subst h0
          rw [hl] at hw
          cases hq : q 0 with
          | error e =>
            change (q 0).bind _ = _ at hw
            rw [hq] at hw; cases hw
          | ok v => exact ⟨v, rfl⟩
        · exact ih w' h0 hl
  obtain ⟨v, hv⟩ := hok _ _ _ (by positivity) h
  refine hbad _ ?_ v hv
  simp only [polyDivC_at, polyAddC_at, polyMulC_at, adjPoly_at, memcpy_at, if_pos hj]
  exact r

end

end Falcon
