import Verif.Proofs.Spherical
import Verif.Proofs.FloatVec

/-!
# Arrays that are nearly transforms of real polynomials

An array splits into the part with the symmetry of the transform of a real polynomial and the part with the opposite
symmetry. `rms` is the root of the mean square.
-/

namespace Falcon

open Finset

noncomputable def mir (k : ℕ) (x : Mem ℂ) : Mem ℂ := fun i => (starRingEnd ℂ) (x (2 ^ k - 1 - i))

/-- The symmetric part. -/
noncomputable def symP (k : ℕ) (x : Mem ℂ) : Mem ℂ := fun i => (x i + mir k x i) / 2

/-- The antisymmetric part. -/
noncomputable def asyP (k : ℕ) (x : Mem ℂ) : Mem ℂ := fun i => (x i - mir k x i) / 2

/-- Root mean square. -/
noncomputable def rms (k : ℕ) (x : Mem ℂ) : ℝ := nC (2 ^ k) x / Real.sqrt 2 ^ k

theorem s2_pos (k : ℕ) : 0 < Real.sqrt 2 ^ k := by positivity

theorem rms_nonneg (k : ℕ) (x : Mem ℂ) : 0 ≤ rms k x := div_nonneg (nC_nonneg _ _) (s2_pos k).le

theorem rms_congr {k : ℕ} {x y : Mem ℂ} (h : ∀ i, i < 2 ^ k → x i = y i) : rms k x = rms k y := by
  unfold rms; rw [nC_congr h]

theorem rms_maj2 {k : ℕ} {e x y : Mem ℂ} {a b d : ℝ} (ha : 0 ≤ a) (hb : 0 ≤ b) (hd : 0 ≤ d)
    (h : ∀ i, i < 2 ^ k → ‖e i‖ ≤ a * ‖x i‖ + b * ‖y i‖ + d) : rms k e ≤ a * rms k x + b * rms k y + d := by
  have h1 := nC_maj2 ha hb hd h
  rw [sqrt_pow2] at h1
  unfold rms
  have hs := s2_pos k
  rw [div_le_iff₀ hs]
  refine h1.trans (le_of_eq ?_)
  field_simp

theorem rms_maj1 {k : ℕ} {e x : Mem ℂ} {a d : ℝ} (ha : 0 ≤ a) (hd : 0 ≤ d)
    (h : ∀ i, i < 2 ^ k → ‖e i‖ ≤ a * ‖x i‖ + d) : rms k e ≤ a * rms k x + d := by
  have := rms_maj2 (e := e) (x := x) (y := x) (b := 0) ha le_rfl hd (fun i hi => by simpa using h i hi)
  simpa using this

theorem rms_add (k : ℕ) (x y : Mem ℂ) : rms k (fun i => x i + y i) ≤ rms k x + rms k y := by
  unfold rms
  rw [← add_div]
  exact div_le_div_of_nonneg_right (nC_add _ _ _) (s2_pos k).le

theorem rms_sub (k : ℕ) (x y : Mem ℂ) : rms k (fun i => x i - y i) ≤ rms k x + rms k y := by
  unfold rms
  rw [← add_div]
  exact div_le_div_of_nonneg_right (nC_sub_le _ _ _) (s2_pos k).le

theorem rms_mul {k : ℕ} (x l : Mem ℂ) {c : ℝ} (hc : 0 ≤ c) (h : ∀ i, i < 2 ^ k → ‖l i‖ ≤ c) :
    rms k (fun i => x i * l i) ≤ c * rms k x := by
  have := rms_maj1 (e := fun i => x i * l i) (x := x) (a := c) (d := 0) (k := k) hc le_rfl (fun i hi => by
    rw [norm_mul, add_zero, mul_comm]
    exact mul_le_mul_of_nonneg_right (h i hi) (norm_nonneg _))
  simpa using this

theorem rms_zero (x : Mem ℂ) : rms 0 x = ‖x 0‖ := by
  unfold rms nC l2
  simp

theorem nC_mir (k : ℕ) (x : Mem ℂ) : nC (2 ^ k) (mir k x) = nC (2 ^ k) x := by
  unfold nC l2 mir
  congr 1
  simp only [RCLike.norm_conj]
  exact sum_range_reflect (fun i => ‖x i‖ ^ 2) (2 ^ k)

theorem rms_half (k : ℕ) (x y : Mem ℂ) : rms k (fun i => (x i + y i) / 2) ≤ (rms k x + rms k y) / 2 := by
  have := rms_maj2 (k := k) (e := fun i => (x i + y i) / 2) (x := x) (y := y) (a := 1 / 2) (b := 1 / 2) (d := 0)
    (by norm_num) (by norm_num) le_rfl (fun i _ => by
      rw [norm_div, Complex.norm_ofNat]
      have := norm_add_le (x i) (y i)
      linarith)
  linarith

theorem rms_mir (k : ℕ) (x : Mem ℂ) : rms k (mir k x) = rms k x := by unfold rms; rw [nC_mir]

theorem rms_symP (k : ℕ) (x : Mem ℂ) : rms k (symP k x) ≤ rms k x := by
  have := rms_half k x (mir k x)
  rw [rms_mir] at this
  unfold symP
  linarith

theorem rms_neg (k : ℕ) (x : Mem ℂ) : rms k (fun i => -x i) = rms k x := by unfold rms; rw [nC_neg]

theorem rms_asyP (k : ℕ) (x : Mem ℂ) : rms k (asyP k x) ≤ rms k x := by
  have := rms_half k x (fun i => -mir k x i)
  rw [rms_neg, rms_mir] at this
  unfold asyP
  simp only [← sub_eq_add_neg] at this
  linarith

theorem symP_add_asyP (k : ℕ) (x : Mem ℂ) (i : ℕ) : symP k x i + asyP k x i = x i := by
  unfold symP asyP; ring

theorem rms_le_parts (k : ℕ) (x : Mem ℂ) : rms k x ≤ rms k (symP k x) + rms k (asyP k x) := by
  have := rms_add k (symP k x) (asyP k x)
  simp only [symP_add_asyP] at this
  exact this

theorem symP_sup {k : ℕ} {x : Mem ℂ} {c : ℝ} (h : ∀ i, i < 2 ^ k → ‖x i‖ ≤ c) (i : ℕ) (hi : i < 2 ^ k) :
    ‖symP k x i‖ ≤ c := by
  unfold symP mir
  rw [norm_div, Complex.norm_ofNat]
  have h1 := norm_add_le (x i) ((starRingEnd ℂ) (x (2 ^ k - 1 - i)))
  rw [RCLike.norm_conj] at h1
  have h2 := h i hi
  have h3 := h (2 ^ k - 1 - i) (by omega)
  linarith

theorem asyP_sup {k : ℕ} {x y : Mem ℂ} {c : ℝ} (hy : ConjSym k y) (h : ∀ i, i < 2 ^ k → ‖x i - y i‖ ≤ c) (i : ℕ)
    (hi : i < 2 ^ k) : ‖asyP k x i‖ ≤ c := by
  have e : asyP k x i = ((x i - y i) - (starRingEnd ℂ) (x (2 ^ k - 1 - i) - y (2 ^ k - 1 - i))) / 2 := by
    unfold asyP mir
    rw [map_sub, hy i hi, Complex.conj_conj]
    ring
  rw [e, norm_div, Complex.norm_ofNat]
  have h1 := norm_sub_le (x i - y i) ((starRingEnd ℂ) (x (2 ^ k - 1 - i) - y (2 ^ k - 1 - i)))
  rw [RCLike.norm_conj] at h1
  have h2 := h i hi
  have h3 := h (2 ^ k - 1 - i) (by omega)
  linarith

theorem symP_sym {k : ℕ} {x : Mem ℂ} (h : ConjSym k x) (i : ℕ) (hi : i < 2 ^ k) : symP k x i = x i := by
  unfold symP mir
  rw [h i hi, Complex.conj_conj]; ring

theorem asyP_sym {k : ℕ} {x : Mem ℂ} (h : ConjSym k x) (i : ℕ) (hi : i < 2 ^ k) : asyP k x i = 0 := by
  unfold asyP mir
  rw [h i hi, Complex.conj_conj]; ring

theorem symP_add (k : ℕ) (x y : Mem ℂ) (i : ℕ) : symP k (fun i => x i + y i) i = symP k x i + symP k y i := by
  unfold symP mir; rw [map_add]; ring

theorem asyP_add (k : ℕ) (x y : Mem ℂ) (i : ℕ) : asyP k (fun i => x i + y i) i = asyP k x i + asyP k y i := by
  unfold asyP mir; rw [map_add]; ring

theorem symP_sub (k : ℕ) (x y : Mem ℂ) (i : ℕ) : symP k (fun i => x i - y i) i = symP k x i - symP k y i := by
  unfold symP mir; rw [map_sub]; ring

theorem asyP_sub (k : ℕ) (x y : Mem ℂ) (i : ℕ) : asyP k (fun i => x i - y i) i = asyP k x i - asyP k y i := by
  unfold asyP mir; rw [map_sub]; ring

theorem symP_mul (k : ℕ) (x y : Mem ℂ) (i : ℕ) :
    symP k (fun i => x i * y i) i = symP k x i * symP k y i + asyP k x i * asyP k y i := by
  unfold symP asyP mir; rw [map_mul]; ring

theorem asyP_mul (k : ℕ) (x y : Mem ℂ) (i : ℕ) :
    asyP k (fun i => x i * y i) i = symP k x i * asyP k y i + asyP k x i * symP k y i := by
  unfold symP asyP mir; rw [map_mul]; ring

/-- The parts of a sum are close when the summand is small. -/
theorem symP_close (k : ℕ) (x y : Mem ℂ) : rms k (fun i => symP k x i - symP k y i) ≤ rms k (fun i => x i - y i) := by
  have := rms_symP k (fun i => x i - y i)
  rwa [show symP k (fun i => x i - y i) = fun i => symP k x i - symP k y i from funext (symP_sub k x y)] at this

theorem asyP_close (k : ℕ) (x y : Mem ℂ) : rms k (fun i => asyP k x i - asyP k y i) ≤ rms k (fun i => x i - y i) := by
  have := rms_asyP k (fun i => x i - y i)
  rwa [show asyP k (fun i => x i - y i) = fun i => asyP k x i - asyP k y i from funext (asyP_sub k x y)] at this

/-! ### Splitting -/

/-- Exact halves. -/
noncomputable def spE (x : Mem ℂ) : Mem ℂ := fun i => (x (2 * i) + x (2 * i + 1)) / 2

noncomputable def spO (k : ℕ) (x : Mem ℂ) : Mem ℂ := fun i => (starRingEnd ℂ) (cT (2 ^ k + i)) * ((x (2 * i) - x (2 * i + 1)) / 2)

theorem mir_pairs (k : ℕ) (x : Mem ℂ) (i : ℕ) (hi : i < 2 ^ k) :
    mir (k + 1) x (2 * i) = (starRingEnd ℂ) (x (2 * (2 ^ k - 1 - i) + 1)) ∧
    mir (k + 1) x (2 * i + 1) = (starRingEnd ℂ) (x (2 * (2 ^ k - 1 - i))) := by
  have hp : 2 ^ (k + 1) = 2 * 2 ^ k := by rw [pow_succ]; ring
  unfold mir
  constructor
  · congr 2; omega
  · congr 2; omega

theorem mir_spE (k : ℕ) (x : Mem ℂ) (i : ℕ) (hi : i < 2 ^ k) : mir k (spE x) i = spE (mir (k + 1) x) i := by
  obtain ⟨h1, h2⟩ := mir_pairs k x i hi
  unfold spE
  rw [h1, h2]
  unfold mir
  rw [map_div₀, map_add, map_ofNat]; ring

theorem mir_spO {k : ℕ} (hk : k + 1 ≤ 10) (x : Mem ℂ) (i : ℕ) (hi : i < 2 ^ k) :
    mir k (spO k x) i = spO k (mir (k + 1) x) i := by
  obtain ⟨h1, h2⟩ := mir_pairs k x i hi
  unfold spO
  rw [h1, h2]
  unfold mir
  beta_reduce
  rw [cT_compl hk i hi, map_mul, map_div₀, map_sub, map_ofNat, map_neg, map_neg, Complex.conj_conj]; ring

theorem symP_spE (k : ℕ) (x : Mem ℂ) (i : ℕ) (hi : i < 2 ^ k) : symP k (spE x) i = spE (symP (k + 1) x) i := by
  have h := mir_spE k x i hi
  unfold symP
  rw [h]
  unfold spE
  ring

theorem symP_spO {k : ℕ} (hk : k + 1 ≤ 10) (x : Mem ℂ) (i : ℕ) (hi : i < 2 ^ k) :
    symP k (spO k x) i = spO k (symP (k + 1) x) i := by
  have h := mir_spO hk x i hi
  unfold symP
  rw [h]
  unfold spO
  ring

theorem asyP_spE (k : ℕ) (x : Mem ℂ) (i : ℕ) (hi : i < 2 ^ k) : asyP k (spE x) i = spE (asyP (k + 1) x) i := by
  have h := mir_spE k x i hi
  unfold asyP
  rw [h]
  unfold spE
  ring

theorem asyP_spO {k : ℕ} (hk : k + 1 ≤ 10) (x : Mem ℂ) (i : ℕ) (hi : i < 2 ^ k) :
    asyP k (spO k x) i = spO k (asyP (k + 1) x) i := by
  have h := mir_spO hk x i hi
  unfold asyP
  rw [h]
  unfold spO
  ring

/-- Splitting preserves the mean square. -/
theorem rms_split (k : ℕ) (x : Mem ℂ) : rms k (spE x) ^ 2 + rms k (spO k x) ^ 2 = rms (k + 1) x ^ 2 := by
  unfold rms
  have hs : (Real.sqrt 2 ^ k) ^ 2 = 2 ^ k := by rw [pow_two]; exact sqrt2_sq k
  have hs1 : (Real.sqrt 2 ^ (k + 1)) ^ 2 = 2 ^ (k + 1) := by rw [pow_two]; exact sqrt2_sq (k + 1)
  rw [div_pow, div_pow, div_pow, hs, hs1, ← add_div, nC_sq, nC_sq, nC_sq, sum_ilv, ← sum_add_distrib, ← sum_add_distrib,
    pow_succ, div_eq_div_iff (by positivity) (by positivity), sum_mul, sum_mul]
  apply sum_congr rfl
  intro i _
  unfold spE spO
  rw [norm_mul, RCLike.norm_conj, cT_norm, one_mul]
  simp only [← Complex.normSq_eq_norm_sq]
  rw [Complex.normSq_div, Complex.normSq_div, Complex.normSq_ofNat]
  simp only [Complex.normSq_apply, Complex.add_re, Complex.add_im, Complex.sub_re, Complex.sub_im]
  ring

/-- The halves of the transform of two interleaved arrays. -/
theorem spE_dft {k : ℕ} (hk : k + 1 ≤ 10) (c0 c1 : Mem Int) (i : ℕ) (hi : i < 2 ^ k) :
    spE (dft (k + 1) (zC (ilv c0 c1))) i = dft k (zC c0) i := by
  have hz0 : (fun i => zC (ilv c0 c1) (2 * i)) = zC c0 := by
    funext i; show ((ilv c0 c1 (2 * i) : ℤ) : ℂ) = _; rw [ilv_even]; rfl
  unfold spE
  rw [dft_even hk _ i hi, dft_odd hk _ i hi, hz0]
  ring

theorem spO_dft {k : ℕ} (hk : k + 1 ≤ 10) (c0 c1 : Mem Int) (i : ℕ) (hi : i < 2 ^ k) :
    spO k (dft (k + 1) (zC (ilv c0 c1))) i = dft k (zC c1) i := by
  have hz1 : (fun i => zC (ilv c0 c1) (2 * i + 1)) = zC c1 := by
    funext i; show ((ilv c0 c1 (2 * i + 1) : ℤ) : ℂ) = _; rw [ilv_odd]; rfl
  unfold spO
  rw [dft_even hk _ i hi, dft_odd hk _ i hi, hz1]
  have := cT_conj (2 ^ k + i)
  linear_combination dft k (zC c1) i * this

theorem dft_sym (k : ℕ) (a : Mem Int) : ConjSym k (dft k (zC a)) := fun i hi => dft_compl k a i hi

theorem rms_dft {k : ℕ} (hk : k ≤ 10) (a : Mem ℂ) : rms k (dft k a) = nC (2 ^ k) a := by
  unfold rms
  rw [nC_dft hk, mul_div_cancel_left₀ _ (s2_pos k).ne']

end Falcon
