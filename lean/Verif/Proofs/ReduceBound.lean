import Verif.Proofs.ReduceFloat
import Verif.Proofs.Quotient
import Verif.Proofs.Basis

/-!
# A reduced solution of the NTRU equation is small
-/

namespace Falcon

open Finset Polynomial

theorem nC_maj4 {N : ℕ} {e x y z w : Mem ℂ} {a b c d t : ℝ} (ha : 0 ≤ a) (hb : 0 ≤ b) (hc : 0 ≤ c) (hd : 0 ≤ d)
    (ht : 0 ≤ t) (h : ∀ i, i < N → ‖e i‖ ≤ a * ‖x i‖ + b * ‖y i‖ + c * ‖z i‖ + d * ‖w i‖ + t) :
    nC N e ≤ a * nC N x + b * nC N y + c * nC N z + d * nC N w + Real.sqrt N * t := by
  refine le_trans (l2_mono (s := fun i => (a * ‖x i‖ + b * ‖y i‖) + (c * ‖z i‖ + d * ‖w i‖ + t)) fun i hi => ?_) ?_
  · rw [abs_of_nonneg (norm_nonneg _)]; exact (h i hi).trans (le_of_eq (by ring))
  · refine le_trans (l2_add N (fun i => a * ‖x i‖ + b * ‖y i‖) fun i => c * ‖z i‖ + d * ‖w i‖ + t) ?_
    have h1 := l2_add N (fun i => a * ‖x i‖) fun i => b * ‖y i‖
    have h2 := l2_add N (fun i => c * ‖z i‖ + d * ‖w i‖) fun _ => t
    have h3 := l2_add N (fun i => c * ‖z i‖) fun i => d * ‖w i‖
    rw [l2_smul N ha, l2_smul N hb] at h1
    rw [l2_smul N hc, l2_smul N hd] at h3
    rw [l2_const N ht] at h2
    unfold nC
    linarith

theorem stdRound_zero {x : ℝ} (h : stdRound x = 0) : |x| ≤ 1 / 2 := by
  unfold stdRound at h
  rw [abs_le]
  split at h
  · have := Int.floor_eq_iff.mp h
    push_cast at this
    constructor <;> linarith
  · have : ⌊-x + 1 / 2⌋ = 0 := by omega
    have := Int.floor_eq_iff.mp this
    push_cast at this
    constructor <;> linarith

/-- The inequalities of `reduced_small`, solved. -/
theorem reduced_num {s N K E Z T hF hG eF eG δ : ℝ} (hs : 22 ≤ s) (hs2 : s ≤ 32) (hN : s * s = N)
    (hδ : δ = 1 / 2 ^ 29)
    (eFl : eF ≤ kapD * (hF + s)) (eGl : eG ≤ kapD * (hG + s))
    (El : E ≤ 2 * eF + 2 * eG + 8 * δ * hF + 8 * δ * hG + s * (1 / 2 ^ 90))
    (Zl : Z ≤ (1 + 2 * kapD) * E + 2 * kapD * (K + 1)) (Kl : K ≤ Z + N * (1 / 2)) (hT : T = hF + hG)
    (Fl : hF ≤ bK * K + (N + N + s * 12289)) (Gl : hG ≤ bK * K + (N + N + s * 12289)) (hF0 : 0 ≤ hF) (hG0 : 0 ≤ hG)
    (hK0 : 0 ≤ K) : T ≤ 22 * 2 ^ 23 := by
  have hN2 : N ≤ 1024 := by nlinarith
  have hE : E ≤ 1 / 2 ^ 25 * T + 1 := by
    unfold kapD at *
    subst hδ hT
    clear Zl Kl Fl Gl hN
    norm_num at *
    linarith
  have hK : K ≤ 101 / 100 * (1 / 2 ^ 25 * T) + 514 := by
    unfold kapD at *
    have hT0 : 0 ≤ T := by linarith
    clear Fl Gl hN eFl eGl El hT hδ hF0 hG0
    norm_num at *
    linarith
  unfold bK at *
  clear Zl Kl hN eFl eGl El hE hδ hF0 hG0
  norm_num at *
  linarith

section
variable {A : Arith ℝ ℂ} (hA : Accurate A)
include hA

theorem toCx_at {n : ℕ} {a : Mem Int} (ha : ∀ i, i < 2 ^ n → |a i| ≤ 2 ^ 53) (i : ℕ) (hi : i < 2 ^ n) :
    toCx A n a i = zC a i := by
  unfold toCx
  rw [one_shiftLeft', loop_fill, if_pos hi]
  show A.ofReal (A.lit ((a i : ℤ) : ℚ)) = _
  rw [ofReal_eq hA, hA.lit_small _ (ha i hi)]
  unfold zC; push_cast; rfl

/-- If the computed quotient of (F, G) by (f, g) rounds to zero and the determinant is that of the NTRU equation
up to the truncation of F and G: the inequalities between the norms of F, G and of the exact quotient κ. -/
theorem reduced_system {n : ℕ} (hn : ValidLog n) {f g F G kr : Mem Int}
    (hf : ∀ i, i < 2 ^ n → |f i| ≤ 19 * (4096 / 2 ^ n)) (hg : ∀ i, i < 2 ^ n → |g i| ≤ 19 * (4096 / 2 ^ n))
    (hF : ∀ i, i < 2 ^ n → |F i| ≤ 2 ^ 53) (hG : ∀ i, i < 2 ^ n → |G i| ≤ 2 ^ 53)
    (hD : ∀ j, j < 2 ^ n → 1 ≤ gramAt n f g j)
    (hq : redQuot A n f g F G = .ok kr) (hkr : ∀ i, i < 2 ^ n → kr i = 0)
    {c : ℝ} (hc : |c| ≤ 12289) {ef eg : Mem ℂ} (hef : ∀ i, i < 2 ^ n → ‖ef i‖ ≤ 1) (heg : ∀ i, i < 2 ^ n → ‖eg i‖ ≤ 1)
    (hdet : ∀ j, j < 2 ^ n → dft n (zC f) j * dft n (zC G) j - dft n (zC g) j * dft n (zC F) j
      = c - dft n (zC f) j * dft n eg j + dft n (zC g) j * dft n ef j)
    {B : ℝ} (hB0 : 0 ≤ B) (hB : ∀ j, j < 2 ^ n → ‖dft n (zC f) j‖ ≤ B ∧ ‖dft n (zC g) j‖ ≤ B) :
    ∃ κ : Mem ℝ, IsQuo n f g F G κ ∧ ∃ E Z K : ℝ, (∀ i, i < 2 ^ n → |κ i| ≤ Z + 1 / 2) ∧ 0 ≤ K ∧
      E ≤ 2 * (kapD * (nC (2 ^ n) (dft n (zC F)) + Real.sqrt 2 ^ n)) + 2 * (kapD * (nC (2 ^ n) (dft n (zC G)) + Real.sqrt 2 ^ n))
        + 8 * delD * nC (2 ^ n) (dft n (zC F)) + 8 * delD * nC (2 ^ n) (dft n (zC G)) + Real.sqrt 2 ^ n * (1 / 2 ^ 90) ∧
      Z * Real.sqrt 2 ^ n ≤ (1 + 2 * kapD) * E + 2 * kapD * (K + 1) ∧
      K ≤ Z * Real.sqrt 2 ^ n + 2 ^ n * (1 / 2) ∧
      nC (2 ^ n) (dft n (zC F)) ≤ B * K + (2 ^ n + 2 ^ n + Real.sqrt 2 ^ n * 12289) ∧
      nC (2 ^ n) (dft n (zC G)) ≤ B * K + (2 ^ n + 2 ^ n + Real.sqrt 2 ^ n * 12289) := by
  have hn10 : n ≤ 10 := by rcases hn with rfl | rfl <;> norm_num
  obtain ⟨hs1, hs2⟩ := sqrt2_bounds hn
  have hsN := sqrt2_sq n
  have hsq := sqrt_pow2 n
  -- the transforms of f and g
  have hm : ((19 * (4096 / 2 ^ n) : ℤ) : ℝ) * 2 ^ n + 200 ≤ bK := by
    unfold bK
    rcases hn with rfl | rfl <;> norm_num
  have hk0 : (0 : ℤ) ≤ 19 * (4096 / 2 ^ n) := by positivity
  have small : ∀ a : Mem Int, (∀ i, i < 2 ^ n → |a i| ≤ 19 * (4096 / 2 ^ n)) → ∀ i, i < 2 ^ n → |a i| ≤ 2 ^ 53 := by
    intro a ha i hi
    refine (ha i hi).trans ?_
    rcases hn with rfl | rfl <;> norm_num
  have bas : ∀ a : Mem Int, (∀ i, i < 2 ^ n → |a i| ≤ 19 * (4096 / 2 ^ n)) →
      ∀ j, j < 2 ^ n → ‖fft A n (toCx A n a) j - dft n (zC a) j‖ ≤ delD ∧ ‖dft n (zC a) j‖ ≤ bK := by
    intro a ha j hj
    have h := basis_near hA hn a (toCx A n a) 1 (Or.inl rfl) ha
      (fun i hi => by rw [one_mul]; exact toCx_at hA (small a ha) i hi) hm (le_of_eq rfl) hk0 j hj
    simp only [one_mul] at h
    refine ⟨h.2.2.trans (le_of_eq ?_), h.2.1⟩
    unfold kapD bK delD; norm_num
  obtain ⟨κ, hκ⟩ := isQuo_exists hn10 (fun j hj => lt_of_lt_of_le one_pos (hD j hj)) F G
  obtain ⟨Q, hQ, hr⟩ := redQuot_at A hq
  set k : Mem ℂ := fun i => (κ i : ℂ) with hk
  -- pointwise error of the quotient
  have hroot : ∀ j, j < 2 ^ n → ∃ r : ℝ, 1 ≤ r ∧ r ^ 2 = gramAt n f g j ∧ ‖dft n (zC f) j‖ ≤ r ∧ ‖dft n (zC g) j‖ ≤ r := by
    intro j hj
    have h1 := hD j hj
    have e : gramAt n f g j = ‖dft n (zC f) j‖ ^ 2 + ‖dft n (zC g) j‖ ^ 2 := by
      unfold gramAt; rw [Complex.normSq_eq_norm_sq, Complex.normSq_eq_norm_sq]
    refine ⟨Real.sqrt (gramAt n f g j), Real.one_le_sqrt.mpr h1, Real.sq_sqrt (by linarith), ?_, ?_⟩
    · apply Real.le_sqrt_of_sq_le; rw [e]; nlinarith [sq_nonneg ‖dft n (zC g) j‖]
    · apply Real.le_sqrt_of_sq_le; rw [e]; nlinarith [sq_nonneg ‖dft n (zC f) j‖]
  have hquo : ∀ j, j < 2 ^ n → dft n k j = (dft n (zC F) j * (starRingEnd ℂ) (dft n (zC f) j)
      + dft n (zC G) j * (starRingEnd ℂ) (dft n (zC g) j)) / ((gramAt n f g j : ℝ) : ℂ) := by
    intro j hj
    rw [← isQuo_dft hn10 hκ j hj, mul_div_cancel_right₀]
    intro h
    have : gramAt n f g j = 0 := by exact_mod_cast h
    linarith [hD j hj]
  have hdr : ∀ {r : ℝ}, 1 ≤ r → delD ≤ delD * r := fun h => le_mul_of_one_le_right (by unfold delD; norm_num) h
  have hpt : ∀ j, j < 2 ^ n → ‖Q j - dft n k j‖ ≤ 2 * ‖fft A n (toCx A n F) j - dft n (zC F) j‖
      + 2 * ‖fft A n (toCx A n G) j - dft n (zC G) j‖ + 8 * delD * ‖dft n (zC F) j‖ + 8 * delD * ‖dft n (zC G) j‖
      + 1 / 2 ^ 90 := by
    intro j hj
    obtain ⟨r, r1, r2, r3, r4⟩ := hroot j hj
    rw [hQ j hj, hquo j hj, ← r2]
    refine quo_near hA r1 ?_ r3 r4 ((bas f hf j hj).1.trans (hdr r1)) ((bas g hg j hj).1.trans (hdr r1))
    rw [r2]
    exact gram_mul f g j
  have hd0 : 0 ≤ 8 * delD := by unfold delD; norm_num
  have El := nC_maj4 (by norm_num) (by norm_num) hd0 hd0 (by norm_num) hpt
  have eFl := fft_near hA hn10 (zC F) (toCx A n F) (toCx_at hA hF)
  have eGl := fft_near hA hn10 (zC G) (toCx A n G) (toCx_at hA hG)
  have Zl := ifft_near hA hn10 Q k le_rfl
  -- the rounded coefficients vanish
  have hround : ∀ i, i < 2 ^ n → ‖k i‖ ≤ 1 * ‖ifft A n Q i - k i‖ + 1 / 2 := by
    intro i hi
    have h := hr i hi
    rw [hA.roundTo, hkr i hi, hA.re] at h
    have h0 : stdRound (ifft A n Q i).re = 0 := by
      unfold exactRoundTo at h
      split at h
      · exact Except.ok.inj h
      · cases h
    have h1 := stdRound_zero h0
    have h2 := Complex.abs_re_le_norm (ifft A n Q i - k i)
    rw [Complex.sub_re] at h2
    have h3 : ‖k i‖ = |(k i).re| := by
      rw [hk]; simp
    rw [h3, one_mul]
    have h4 := abs_sub_abs_le_abs_sub (k i).re (ifft A n Q i).re
    rw [abs_sub_comm] at h4
    linarith
  have Kl := nC_maj1 (by norm_num) (by norm_num) hround
  -- F and G from the quotient and the determinant
  have hc' : ‖((c : ℝ) : ℂ)‖ ≤ 12289 := by rw [Complex.norm_real]; exact hc
  have ratio : ∀ {x D r : ℝ}, 1 ≤ r → r ^ 2 = D → 0 ≤ x → x ≤ r → x / D ≤ 1 := by
    intro x D r h1 h2 h3 h4
    rw [div_le_one (by rw [← h2]; positivity), ← h2]
    nlinarith
  have hFpt : ∀ j, j < 2 ^ n → ‖dft n (zC F) j‖ ≤ B * ‖dft n k j‖ + 1 * ‖dft n ef j‖ + 1 * ‖dft n eg j‖ + 12289 := by
    intro j hj
    obtain ⟨r, r1, r2, r3, r4⟩ := hroot j hj
    have hD0 : ((gramAt n f g j : ℝ) : ℂ) ≠ 0 := by
      intro h
      have : gramAt n f g j = 0 := by exact_mod_cast h
      linarith [hD j hj]
    have hDn : ‖((gramAt n f g j : ℝ) : ℂ)‖ = r ^ 2 := by
      rw [Complex.norm_real, ← r2, Real.norm_of_nonneg (by positivity)]
    have key : dft n (zC F) j = dft n k j * dft n (zC f) j - ((c : ℂ) - dft n (zC f) j * dft n eg j + dft n (zC g) j * dft n ef j)
        * (starRingEnd ℂ) (dft n (zC g) j) / ((gramAt n f g j : ℝ) : ℂ) := by
      rw [← hdet j hj, hquo j hj, div_mul_eq_mul_div, ← sub_div, eq_div_iff hD0, ← gram_mul f g j]
      ring
    have hfr : ‖dft n (zC g) j‖ * ‖dft n (zC f) j‖ ≤ r ^ 2 := by rw [sq]; gcongr
    have hgr : ‖dft n (zC g) j‖ * ‖dft n (zC g) j‖ ≤ r ^ 2 := by rw [sq]; gcongr
    have hg1 : ‖dft n (zC g) j‖ ≤ r ^ 2 := by nlinarith
    have hr2 : 0 < r ^ 2 := by positivity
    have second : ‖((c : ℂ) - dft n (zC f) j * dft n eg j + dft n (zC g) j * dft n ef j)
        * (starRingEnd ℂ) (dft n (zC g) j) / ((gramAt n f g j : ℝ) : ℂ)‖ ≤ 12289 + ‖dft n eg j‖ + ‖dft n ef j‖ := by
      rw [norm_div, norm_mul, RCLike.norm_conj, hDn, div_le_iff₀ hr2]
      have t := norm_add_le ((c : ℂ) - dft n (zC f) j * dft n eg j) (dft n (zC g) j * dft n ef j)
      have t2 := norm_sub_le (c : ℂ) (dft n (zC f) j * dft n eg j)
      rw [norm_mul] at t t2
      calc _ ≤ (12289 + ‖dft n (zC f) j‖ * ‖dft n eg j‖ + ‖dft n (zC g) j‖ * ‖dft n ef j‖) * ‖dft n (zC g) j‖ := by
            gcongr; linarith
        _ = 12289 * ‖dft n (zC g) j‖ + ‖dft n eg j‖ * (‖dft n (zC g) j‖ * ‖dft n (zC f) j‖)
            + ‖dft n ef j‖ * (‖dft n (zC g) j‖ * ‖dft n (zC g) j‖) := by ring
        _ ≤ 12289 * r ^ 2 + ‖dft n eg j‖ * r ^ 2 + ‖dft n ef j‖ * r ^ 2 := by gcongr
        _ = _ := by ring
    have first : ‖dft n k j * dft n (zC f) j‖ ≤ B * ‖dft n k j‖ := by
      rw [norm_mul, mul_comm]
      exact mul_le_mul_of_nonneg_right (hB j hj).1 (norm_nonneg _)
    calc ‖dft n (zC F) j‖ = _ := congrArg norm key
      _ ≤ _ := norm_sub_le _ _
      _ ≤ _ := by linarith
  have hGpt : ∀ j, j < 2 ^ n → ‖dft n (zC G) j‖ ≤ B * ‖dft n k j‖ + 1 * ‖dft n ef j‖ + 1 * ‖dft n eg j‖ + 12289 := by
    intro j hj
    obtain ⟨r, r1, r2, r3, r4⟩ := hroot j hj
    have hD0 : ((gramAt n f g j : ℝ) : ℂ) ≠ 0 := by
      intro h
      have : gramAt n f g j = 0 := by exact_mod_cast h
      linarith [hD j hj]
    have hDn : ‖((gramAt n f g j : ℝ) : ℂ)‖ = r ^ 2 := by
      rw [Complex.norm_real, ← r2, Real.norm_of_nonneg (by positivity)]
    have key : dft n (zC G) j = dft n k j * dft n (zC g) j + ((c : ℂ) - dft n (zC f) j * dft n eg j + dft n (zC g) j * dft n ef j)
        * (starRingEnd ℂ) (dft n (zC f) j) / ((gramAt n f g j : ℝ) : ℂ) := by
      rw [← hdet j hj, hquo j hj, div_mul_eq_mul_div, ← add_div, eq_div_iff hD0, ← gram_mul f g j]
      ring
    have hfr : ‖dft n (zC f) j‖ * ‖dft n (zC f) j‖ ≤ r ^ 2 := by rw [sq]; gcongr
    have hgr : ‖dft n (zC f) j‖ * ‖dft n (zC g) j‖ ≤ r ^ 2 := by rw [sq]; gcongr
    have hg1 : ‖dft n (zC f) j‖ ≤ r ^ 2 := by nlinarith
    have hr2 : 0 < r ^ 2 := by positivity
    have second : ‖((c : ℂ) - dft n (zC f) j * dft n eg j + dft n (zC g) j * dft n ef j)
        * (starRingEnd ℂ) (dft n (zC f) j) / ((gramAt n f g j : ℝ) : ℂ)‖ ≤ 12289 + ‖dft n eg j‖ + ‖dft n ef j‖ := by
      rw [norm_div, norm_mul, RCLike.norm_conj, hDn, div_le_iff₀ hr2]
      have t := norm_add_le ((c : ℂ) - dft n (zC f) j * dft n eg j) (dft n (zC g) j * dft n ef j)
      have t2 := norm_sub_le (c : ℂ) (dft n (zC f) j * dft n eg j)
      rw [norm_mul] at t t2
      calc _ ≤ (12289 + ‖dft n (zC f) j‖ * ‖dft n eg j‖ + ‖dft n (zC g) j‖ * ‖dft n ef j‖) * ‖dft n (zC f) j‖ := by
            gcongr; linarith
        _ = 12289 * ‖dft n (zC f) j‖ + ‖dft n eg j‖ * (‖dft n (zC f) j‖ * ‖dft n (zC f) j‖)
            + ‖dft n ef j‖ * (‖dft n (zC f) j‖ * ‖dft n (zC g) j‖) := by ring
        _ ≤ 12289 * r ^ 2 + ‖dft n eg j‖ * r ^ 2 + ‖dft n ef j‖ * r ^ 2 := by gcongr
        _ = _ := by ring
    have first : ‖dft n k j * dft n (zC g) j‖ ≤ B * ‖dft n k j‖ := by
      rw [norm_mul, mul_comm]
      exact mul_le_mul_of_nonneg_right (hB j hj).2 (norm_nonneg _)
    calc ‖dft n (zC G) j‖ = _ := congrArg norm key
      _ ≤ _ := norm_add_le _ _
      _ ≤ _ := by linarith
  have Fl := nC_maj3 hB0 (by norm_num) (by norm_num) (by norm_num) hFpt
  have Gl := nC_maj3 hB0 (by norm_num) (by norm_num) (by norm_num) hGpt
  have unit : ∀ e : Mem ℂ, (∀ i, i < 2 ^ n → ‖e i‖ ≤ 1) → nC (2 ^ n) (dft n e) ≤ 2 ^ n := by
    intro e he
    rw [nC_dft hn10, ← hsN]
    refine mul_le_mul_of_nonneg_left ?_ (by linarith)
    have := l2_mono (N := 2 ^ n) (r := fun i => ‖e i‖) (s := fun _ => 1)
      (fun i hi => by rw [abs_of_nonneg (norm_nonneg _)]; exact he i hi)
    rw [l2_const _ (by norm_num), hsq, mul_one] at this
    exact this
  have uf := unit ef hef
  have ug := unit eg heg
  have dF := nC_dft hn10 (zC F)
  have dG := nC_dft hn10 (zC G)
  have dk := nC_dft hn10 k
  rw [hsq] at El Kl Fl Gl
  rw [← dk] at Zl
  have eFl' : nC (2 ^ n) (fun i => fft A n (toCx A n F) i - dft n (zC F) i)
      ≤ kapD * (nC (2 ^ n) (dft n (zC F)) + Real.sqrt 2 ^ n) := by
    refine eFl.trans (le_of_eq ?_); rw [dF]; ring
  have eGl' : nC (2 ^ n) (fun i => fft A n (toCx A n G) i - dft n (zC G) i)
      ≤ kapD * (nC (2 ^ n) (dft n (zC G)) + Real.sqrt 2 ^ n) := by
    refine eGl.trans (le_of_eq ?_); rw [dG]; ring
  have Kl' : nC (2 ^ n) (dft n k) ≤ nC (2 ^ n) (fun i => ifft A n Q i - k i) * Real.sqrt 2 ^ n + 2 ^ n * (1 / 2) := by
    rw [dk]
    have := mul_le_mul_of_nonneg_left Kl (show 0 ≤ Real.sqrt 2 ^ n by linarith)
    rw [← hsN]
    linarith
  refine ⟨κ, hκ, _, nC (2 ^ n) (fun i => ifft A n Q i - k i), nC (2 ^ n) (dft n k), fun i hi => ?_, nC_nonneg _ _, ?_, Zl, Kl', ?_, ?_⟩
  · have h1 := hround i hi
    have h2 := nC_ge (a := fun i => ifft A n Q i - k i) hi
    have h3 : ‖k i‖ = |κ i| := by rw [hk]; simp
    rw [h3] at h1
    linarith
  · linarith
  · linarith
  · linarith

/-- If the computed quotient of (F, G) by (f, g) rounds to zero and the determinant is that of the NTRU equation
up to the truncation of F and G, the coefficients of F and G are below 2^23. -/
theorem reduced_small {n : ℕ} (hn : ValidLog n) {f g F G kr : Mem Int}
    (hf : ∀ i, i < 2 ^ n → |f i| ≤ 19 * (4096 / 2 ^ n)) (hg : ∀ i, i < 2 ^ n → |g i| ≤ 19 * (4096 / 2 ^ n))
    (hF : ∀ i, i < 2 ^ n → |F i| ≤ 2 ^ 53) (hG : ∀ i, i < 2 ^ n → |G i| ≤ 2 ^ 53)
    (hD : ∀ j, j < 2 ^ n → 1 ≤ gramAt n f g j)
    (hq : redQuot A n f g F G = .ok kr) (hkr : ∀ i, i < 2 ^ n → kr i = 0)
    {c : ℝ} (hc : |c| ≤ 12289) {ef eg : Mem ℂ} (hef : ∀ i, i < 2 ^ n → ‖ef i‖ ≤ 1) (heg : ∀ i, i < 2 ^ n → ‖eg i‖ ≤ 1)
    (hdet : ∀ j, j < 2 ^ n → dft n (zC f) j * dft n (zC G) j - dft n (zC g) j * dft n (zC F) j
      = c - dft n (zC f) j * dft n eg j + dft n (zC g) j * dft n ef j) :
    ∀ i, i < 2 ^ n → |F i| ≤ 2 ^ 23 ∧ |G i| ≤ 2 ^ 23 := by
  have hn10 : n ≤ 10 := by rcases hn with rfl | rfl <;> norm_num
  obtain ⟨hs1, hs2⟩ := sqrt2_bounds hn
  have hsN := sqrt2_sq n
  -- the transforms of f and g
  have hm : ((19 * (4096 / 2 ^ n) : ℤ) : ℝ) * 2 ^ n + 200 ≤ bK := by
    unfold bK
    rcases hn with rfl | rfl <;> norm_num
  have hk0 : (0 : ℤ) ≤ 19 * (4096 / 2 ^ n) := by positivity
  have small : ∀ a : Mem Int, (∀ i, i < 2 ^ n → |a i| ≤ 19 * (4096 / 2 ^ n)) → ∀ i, i < 2 ^ n → |a i| ≤ 2 ^ 53 := by
    intro a ha i hi
    refine (ha i hi).trans ?_
    rcases hn with rfl | rfl <;> norm_num
  have bas : ∀ a : Mem Int, (∀ i, i < 2 ^ n → |a i| ≤ 19 * (4096 / 2 ^ n)) →
      ∀ j, j < 2 ^ n → ‖fft A n (toCx A n a) j - dft n (zC a) j‖ ≤ delD ∧ ‖dft n (zC a) j‖ ≤ bK := by
    intro a ha j hj
    have h := basis_near hA hn a (toCx A n a) 1 (Or.inl rfl) ha
      (fun i hi => by rw [one_mul]; exact toCx_at hA (small a ha) i hi) hm (le_of_eq rfl) hk0 j hj
    simp only [one_mul] at h
    refine ⟨h.2.2.trans (le_of_eq ?_), h.2.1⟩
    unfold kapD bK delD; norm_num
  obtain ⟨κ, -, E, Z, K, -, K0, El, Zl, Kl, Fl, Gl⟩ := reduced_system hA hn hf hg hF hG hD hq hkr hc hef heg hdet bK_pos.le
    fun j hj => ⟨(bas f hf j hj).2, (bas g hg j hj).2⟩
  have dF := nC_dft hn10 (zC F)
  have dG := nC_dft hn10 (zC G)
  have final : nC (2 ^ n) (dft n (zC F)) + nC (2 ^ n) (dft n (zC G)) ≤ 22 * 2 ^ 23 :=
    reduced_num hs1 hs2 hsN rfl le_rfl le_rfl El Zl Kl rfl Fl Gl (nC_nonneg _ _) (nC_nonneg _ _) K0
  intro i hi
  have n1 := nC_ge (a := zC F) hi
  have n2 := nC_ge (a := zC G) hi
  rw [dF, dG] at final
  have p1 := nC_nonneg (2 ^ n) (zC F)
  have p2 := nC_nonneg (2 ^ n) (zC G)
  have b1 : nC (2 ^ n) (zC F) ≤ 2 ^ 23 := by nlinarith
  have b2 : nC (2 ^ n) (zC G) ≤ 2 ^ 23 := by nlinarith
  have cv : ∀ z : ℤ, ‖((z : ℤ) : ℂ)‖ ≤ 2 ^ 23 → |z| ≤ 2 ^ 23 := by
    intro z hz
    rw [Complex.norm_intCast] at hz
    exact_mod_cast hz
  exact ⟨cv _ (n1.trans b1), cv _ (n2.trans b2)⟩

omit hA in
theorem bitLenPair_small {N : ℕ} (hN : 0 < N) {f g : Mem Int} (hf : ∀ i, i < N → (f i).natAbs < 2 ^ 40)
    (hg : ∀ i, i < N → (g i).natAbs < 2 ^ 40) : bitLenPair N f g = 53 := by
  have key : ∀ a : Mem Int, (∀ i, i < N → (a i).natAbs < 2 ^ 40) → ∀ i, i < N → approxBitLen (a i) ≤ 53 := by
    intro a ha i hi
    obtain ⟨h1, -, h3, h4⟩ := approxBitLen_nat (a i).natAbs
    unfold approxBitLen
    have := ha i hi
    rcases Nat.eq_zero_or_pos (a i).natAbs with h | h
    · rw [h3 h]; omega
    · obtain ⟨h5, h6⟩ := h4 h
      have : 2 ^ (approxBitLenLoop (a i).natAbs 0 - 8) < 2 ^ 40 := lt_of_le_of_lt h6 this
      have := (Nat.pow_lt_pow_iff_right (by norm_num : 1 < 2)).mp this
      omega
  obtain ⟨-, ⟨i1, h1, e1⟩, ⟨i2, h2, e2⟩⟩ := minMax_spec hN f
  obtain ⟨-, ⟨i3, h3, e3⟩, ⟨i4, h4, e4⟩⟩ := minMax_spec hN g
  unfold bitLenPair
  simp only
  rw [e1, e2, e3, e4]
  have k1 := key f hf i1 h1
  have k2 := key f hf i2 h2
  have k3 := key g hg i3 h3
  have k4 := key g hg i4 h4
  omega

omit hA in
theorem scaled_53 (a : Mem Int) : scaled 53 a = a := by
  funext i; simp [scaled]

omit hA in
/-- Beyond 53 bits, one scaled coefficient is at least 2^45. -/
theorem scaled_large {N : ℕ} (hN : 0 < N) {F G : Mem Int} (h : 53 < bitLenPair N F G) :
    ∃ i, i < N ∧ (2 ^ 45 ≤ |scaled (bitLenPair N F G) F i| ∨ 2 ^ 45 ≤ |scaled (bitLenPair N F G) G i|) := by
  obtain ⟨-, ⟨i1, h1, e1⟩, ⟨i2, h2, e2⟩⟩ := minMax_spec hN F
  obtain ⟨-, ⟨i3, h3, e3⟩, ⟨i4, h4, e4⟩⟩ := minMax_spec hN G
  have key : ∀ (v : ℤ) (L : ℕ), 53 < L → approxBitLen v = L → 2 ^ 45 ≤ |v / 2 ^ (L - 53)| := by
    intro v L hL hv
    obtain ⟨-, -, hz, hp⟩ := approxBitLen_nat v.natAbs
    unfold approxBitLen at hv
    rw [hv] at hz hp
    have h0 : 0 < v.natAbs := by
      rcases Nat.eq_zero_or_pos v.natAbs with h | h
      · have := hz h; omega
      · exact h
    have h5 := (hp h0).2
    have e : (2 : ℕ) ^ (L - 8) = 2 ^ 45 * 2 ^ (L - 53) := by rw [← pow_add]; congr 1; omega
    rw [e] at h5
    have h6 : (2 : ℤ) ^ 45 * 2 ^ (L - 53) ≤ |v| := by
      rw [Int.abs_eq_natAbs]; exact_mod_cast h5
    have hd : (0 : ℤ) < 2 ^ (L - 53) := by positivity
    generalize (2 : ℤ) ^ (L - 53) = d at *
    rcases le_total 0 v with hv0 | hv0
    · rw [abs_of_nonneg hv0] at h6
      exact ((Int.le_ediv_iff_mul_le hd).mpr h6).trans (le_abs_self _)
    · rw [abs_of_nonpos hv0] at h6
      have : v / d ≤ -2 ^ 45 := by
        have h7 : v ≤ -2 ^ 45 * d := by linarith
        calc v / d ≤ (-2 ^ 45 * d) / d := Int.ediv_le_ediv hd h7
          _ = _ := Int.mul_ediv_cancel _ hd.ne'
      exact le_trans (by linarith) (neg_le_abs _)
  have hmax : bitLenPair N F G = approxBitLen (F i1) ∨ bitLenPair N F G = approxBitLen (F i2) ∨
      bitLenPair N F G = approxBitLen (G i3) ∨ bitLenPair N F G = approxBitLen (G i4) := by
    unfold bitLenPair at h ⊢
    simp only at h ⊢
    rw [e1, e2, e3, e4] at h ⊢
    omega
  rcases hmax with e | e | e | e
  · exact ⟨i1, h1, Or.inl (key _ _ h e.symm)⟩
  · exact ⟨i2, h2, Or.inl (key _ _ h e.symm)⟩
  · exact ⟨i3, h3, Or.inr (key _ _ h e.symm)⟩
  · exact ⟨i4, h4, Or.inr (key _ _ h e.symm)⟩

omit hA in
/-- The transform of an array is that of the scaled array and of the bits lost. -/
theorem dft_scaled (n s : ℕ) (a : Mem Int) (j : ℕ) :
    dft n (zC a) j = 2 ^ s * (dft n (zC fun i => a i / 2 ^ s) j
      + dft n (fun i => ((a i % 2 ^ s : ℤ) : ℂ) / 2 ^ s) j) := by
  unfold dft
  rw [← sum_add_distrib, mul_sum]
  refine sum_congr rfl fun i _ => ?_
  have h : (a i : ℂ) = 2 ^ s * ((a i / 2 ^ s : ℤ) : ℂ) + ((a i % 2 ^ s : ℤ) : ℂ) := by
    have := Int.mul_ediv_add_emod (a i) (2 ^ s)
    exact_mod_cast this.symm
  unfold zC
  rw [h]
  have h2 : (2 : ℂ) ^ s ≠ 0 := pow_ne_zero _ two_ne_zero
  beta_reduce
  generalize ((a i / 2 ^ s : ℤ) : ℂ) = x
  generalize ((a i % 2 ^ s : ℤ) : ℂ) = y
  field_simp

omit hA in
theorem lost_le (s : ℕ) (v : ℤ) : ‖((v % 2 ^ s : ℤ) : ℂ) / 2 ^ s‖ ≤ 1 := by
  have hp : (0 : ℤ) < 2 ^ s := by positivity
  have h1 := Int.emod_nonneg v hp.ne'
  have h2 := Int.emod_lt_of_pos v hp
  rw [norm_div, Complex.norm_intCast, norm_pow, Complex.norm_ofNat, div_le_one (by positivity),
    abs_of_nonneg (by exact_mod_cast h1)]
  have : ((v % 2 ^ s : ℤ) : ℝ) ≤ ((2 ^ s : ℤ) : ℝ) := by exact_mod_cast h2.le
  simpa using this

/-- Every solution that the solver returns for coefficients of the size of a key, with |f^|^2 + |g^|^2 at least 1
at every point, has coefficients of absolute value at most 2^23. The quotients need to be those of the arithmetic only for (f, g). -/
theorem solution_small_of {n : ℕ} (hn : ValidLog n) {f g F G : Mem Int}
    (hf : ∀ i, i < 2 ^ n → |f i| ≤ 19 * (4096 / 2 ^ n)) (hg : ∀ i, i < 2 ^ n → |g i| ≤ 19 * (4096 / 2 ^ n))
    (hD : ∀ j, j < 2 ^ n → 1 ≤ gramAt n f g j) {fuel : ℕ} {quot : RedQuot}
    (hquot : ∀ F G kr, (∀ i, i < 2 ^ n → |F i| ≤ 2 ^ 53) → (∀ i, i < 2 ^ n → |G i| ≤ 2 ^ 53) →
      quot n f g F G = .ok kr → redQuot A n f g F G = .ok kr)
    (h : ntruSolve quot fuel n f g = some (.ok (some (F, G)))) :
    ∀ i, i < 2 ^ n → |F i| ≤ 2 ^ 23 ∧ |G i| ≤ 2 ^ 23 := by
  have hn10 : n ≤ 10 := by rcases hn with rfl | rfl <;> norm_num
  have hN : 0 < 2 ^ n := by positivity
  have hdet := ntruSolve_det _ _ _ _ _ _ _ h
  have heq : NtruEq n f g F G := hdet
  have hlen : bitLenPair (2 ^ n) f g = 53 := by
    have cv : ∀ x : ℤ, |x| ≤ 19 * (4096 / 2 ^ n) → x.natAbs < 2 ^ 40 := by
      intro x hx
      have : |x| ≤ 152 := hx.trans (by rcases hn with rfl | rfl <;> norm_num)
      rw [Int.abs_eq_natAbs] at this
      omega
    exact bitLenPair_small hN (fun i hi => cv _ (hf i hi)) (fun i hi => cv _ (hg i hi))
  have hex : bitLenPair (2 ^ n) F G < bitLenPair (2 ^ n) f g ∨
      ∃ kr, quot n (scaled (bitLenPair (2 ^ n) f g) f) (scaled (bitLenPair (2 ^ n) f g) g)
        (scaled (bitLenPair (2 ^ n) F G) F) (scaled (bitLenPair (2 ^ n) F G) G) = .ok kr ∧
        ∀ i, i < 2 ^ n → kr i = 0 := by
    obtain ⟨k, rfl⟩ : ∃ k, n = k + 1 := ⟨n - 1, by rcases hn with rfl | rfl <;> rfl⟩
    exact ntruSolve_exit _ _ _ _ _ _ _ h
  rw [hlen, scaled_53, scaled_53] at hex
  have hge := bitLenPair_ge (2 ^ n) F G
  rcases hex with hlt | ⟨kr, hq, hkr⟩
  · omega
  have hbound := bitLenPair_bound hN F G
  generalize hL : bitLenPair (2 ^ n) F G = L at *
  have sc : ∀ x : ℤ, x.natAbs < 2 ^ L → |x / 2 ^ (L - 53)| ≤ 2 ^ 53 := by
    intro x hx
    have := ediv_bound hge hx
    rw [abs_le]
    omega
  have hs0 : (2 : ℂ) ^ (L - 53) ≠ 0 := pow_ne_zero _ two_ne_zero
  have hq := hquot _ _ _ (fun i hi => sc _ (hbound i hi).1) (fun i hi => sc _ (hbound i hi).2) hq
  have hsmall := reduced_small hA hn hf hg (fun i hi => sc _ (hbound i hi).1) (fun i hi => sc _ (hbound i hi).2) hD hq hkr
    (c := 12289 / 2 ^ (L - 53)) (by
      rw [abs_of_nonneg (by positivity)]
      apply div_le_self (by norm_num)
      exact one_le_pow₀ (by norm_num))
    (ef := fun i => ((F i % 2 ^ (L - 53) : ℤ) : ℂ) / 2 ^ (L - 53)) (eg := fun i => ((G i % 2 ^ (L - 53) : ℤ) : ℂ) / 2 ^ (L - 53))
    (fun i _ => lost_le _ _) (fun i _ => lost_le _ _) (by
      intro j hj
      have e := ntru_pt hn10 heq j hj
      rw [dft_scaled n (L - 53) F j, dft_scaled n (L - 53) G j] at e
      have e2 : ((12289 / 2 ^ (L - 53) : ℝ) : ℂ) = 12289 / 2 ^ (L - 53) := by push_cast; rfl
      rw [e2, ← e]
      field_simp
      ring)
  have hsmall : ∀ i, i < 2 ^ n → |scaled L F i| ≤ 2 ^ 23 ∧ |scaled L G i| ≤ 2 ^ 23 := hsmall
  rcases Nat.lt_or_ge 53 L with hlt | hle
  · rw [← hL] at hlt
    obtain ⟨i, hi, hb⟩ := scaled_large hN hlt
    rw [hL] at hb
    have := hsmall i hi
    rcases hb with hb | hb
    · exact absurd (hb.trans this.1) (by norm_num)
    · exact absurd (hb.trans this.2) (by norm_num)
  · have : L = 53 := by omega
    subst this
    intro i hi
    have := hsmall i hi
    rwa [scaled_53, scaled_53] at this

theorem solution_small {n : ℕ} (hn : ValidLog n) {f g F G : Mem Int}
    (hf : ∀ i, i < 2 ^ n → |f i| ≤ 19 * (4096 / 2 ^ n)) (hg : ∀ i, i < 2 ^ n → |g i| ≤ 19 * (4096 / 2 ^ n))
    (hD : ∀ j, j < 2 ^ n → 1 ≤ gramAt n f g j) {fuel : ℕ}
    (h : ntruSolve (redQuot A) fuel n f g = some (.ok (some (F, G)))) :
    ∀ i, i < 2 ^ n → |F i| ≤ 2 ^ 23 ∧ |G i| ≤ 2 ^ 23 :=
  solution_small_of hA hn hf hg hD (fun _ _ _ _ _ h => h) h

end

end Falcon
