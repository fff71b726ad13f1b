import Verif.Proofs.Basis
import Verif.Proofs.TreeUnique
import Verif.Props.Sampler
import Mathlib.Analysis.SpecialFunctions.Sqrt

/-!
# C45, C47 : the tree in exact arithmetic
-/

namespace Falcon

open Finset Polynomial

/-! ### C45 -/

/-- C45. For every self-adjoint positive definite matrix the array written by `ffldl` holds the LDL* tree of the
specification: such a tree exists, and every tree that satisfies the specification is stored in the array. (The
code conjugates the lower right block of the matrices it hands to the recursive calls; this changes nothing.) -/
theorem C45_ldl_tree (k : ℕ) (h1 : 1 ≤ k) (hk : k ≤ 10) (G T : Mem ℂ)
    (hself : ∀ i, i < 2 ^ k → G (2 ^ k + i) = (starRingEnd ℂ) (G (2 * 2 ^ k + i)))
    (hpd : GramPD k G (fun i => G (2 * 2 ^ k + i)) (fun i => G (3 * 2 ^ k + i))) :
    (∃ t, FfLdl k G (fun i => G (2 ^ k + i)) (fun i => G (2 * 2 ^ k + i)) (fun i => G (3 * 2 ^ k + i)) t) ∧
    ∀ t, FfLdl k G (fun i => G (2 ^ k + i)) (fun i => G (2 * 2 ^ k + i)) (fun i => G (3 * 2 ^ k + i)) t →
      TreeAt k (ffldl exactA k 0 G T) 0 0 t := by
  obtain ⟨m, rfl⟩ : ∃ m, k = m + 1 := ⟨k - 1, by omega⟩
  have h := ldlTree_ok m G _ _ hk hpd
  have h' : FfLdl (m + 1) G (fun i => G (2 ^ (m + 1) + i)) (fun i => G (2 * 2 ^ (m + 1) + i))
      (fun i => G (3 * 2 ^ (m + 1) + i)) (ldlTree exactA exactA.conj (m + 1) G
        (fun i => G (2 * 2 ^ (m + 1) + i)) (fun i => G (3 * 2 ^ (m + 1) + i))) := by
    obtain ⟨l, d0, d1, L, R, ht, hl, hL, hR⟩ := h
    exact ⟨l, d0, d1, L, R, ht, isLdl_congr (fun _ _ => rfl) (fun i hi => hself i hi) (fun _ _ => rfl)
      (fun _ _ => rfl) hl, hL, hR⟩
  refine ⟨⟨_, h'⟩, fun t ht => ?_⟩
  rw [treeAt_root]
  exact ffLdl_unique h1 hk h' ht hpd 0 _
    (ffldl_rep exactA (m + 1) 0 G T _ _ _ h1 (fun _ _ => rfl) (fun _ _ => rfl) (fun _ _ => rfl))

/-- The identity matrix meets the hypotheses. -/
example : ∃ G : Mem ℂ, (∀ i, i < 2 ^ 9 → G (2 ^ 9 + i) = (starRingEnd ℂ) (G (2 * 2 ^ 9 + i))) ∧
    GramPD 9 G (fun i => G (2 * 2 ^ 9 + i)) (fun i => G (3 * 2 ^ 9 + i)) := by
  refine ⟨fun x => if x < 2 ^ 9 ∨ 3 * 2 ^ 9 ≤ x then 1 else 0, fun i hi => ?_, fun i hi => ⟨1, 1, ?_, ?_, ?_, ?_⟩⟩
  · beta_reduce
    rw [if_neg (by omega), if_neg (by omega), map_zero]
  · beta_reduce; rw [if_pos (by omega)]; norm_num
  · beta_reduce; rw [if_pos (by omega)]; norm_num
  · norm_num
  · beta_reduce; rw [if_neg (by omega)]; norm_num

/-- C45, the matrix of signing. For every solution of the NTRU equation the Gram matrix of the basis
[g, -f; G, -F] is self-adjoint and positive definite with determinant q^2. -/
theorem C45_gram_matrix (n : ℕ) (hn : n ≤ 10) (f g F G : Mem Int) (heq : NtruEq n f g F G) (B0 M0 : Mem ℂ) :
    let M := gramMatrix exactA n (computeMatrixB exactA n f g F G B0) M0
    (∀ i, i < 2 ^ n → M (2 ^ n + i) = (starRingEnd ℂ) (M (2 * 2 ^ n + i))) ∧
    GramPD n M (fun i => M (2 * 2 ^ n + i)) (fun i => M (3 * 2 ^ n + i)) ∧
    ∀ i, i < 2 ^ n → M i * M (3 * 2 ^ n + i) - M (2 ^ n + i) * M (2 * 2 ^ n + i) = 12289 ^ 2 := by
  have hself : ∀ i, i < 2 ^ n → gramMatrix exactA n (computeMatrixB exactA n f g F G B0) M0 (2 ^ n + i)
      = (starRingEnd ℂ) (gramMatrix exactA n (computeMatrixB exactA n f g F G B0) M0 (2 * 2 ^ n + i)) := by
    intro i hi
    obtain ⟨_, h1, h2, _⟩ := gram_exact hn f g F G B0 M0 i hi
    rw [h1, h2, map_add, map_mul, map_mul, Complex.conj_conj, Complex.conj_conj]
    ring
  refine ⟨hself, gram_pd hn heq B0 M0, fun i hi => ?_⟩
  obtain ⟨h0, h1, h2, h3⟩ := gram_exact hn f g F G B0 M0 i hi
  have hdet := gram_det hn heq i hi
  rw [hself i hi, mul_comm ((starRingEnd ℂ) _), Complex.mul_conj, h0, h2, h3]
  exact_mod_cast hdet

/-- A solution of the NTRU equation: f = 1, g = 0, G = q, F arbitrary. -/
theorem ntruEq_example (n : ℕ) (F : Mem Int) :
    NtruEq n (fun i => if i = 0 then 1 else 0) (fun _ => 0) F (fun i => if i = 0 then 12289 else 0) := by
  unfold NtruEq polyZ
  have h : ∀ c : ℤ, toPoly (2 ^ n) (fun i => if i = 0 then c else 0) = C c := by
    intro c
    unfold toPoly
    rw [sum_eq_single 0]
    · simp
    · intro b _ hb; beta_reduce; rw [if_neg hb]; simp
    · intro h; simp at h
  rw [h, h]
  have h0 : toPoly (2 ^ n) (fun _ => (0 : ℤ)) = 0 := by unfold toPoly; simp
  rw [h0]
  refine ⟨0, ?_⟩
  rw [show (12289 : ℤ[X]) = C 12289 from rfl]
  simp

example : ∃ f g F G : Mem Int, NtruEq 9 f g F G ∧ ∃ i, i < 2 ^ 9 ∧ F i ≠ 0 :=
  ⟨_, _, fun _ => 1, _, ntruEq_example 9 _, 0, by norm_num, by norm_num⟩

/-! ### C47 -/

theorem exact_threshold : gsThreshold exactA = (1.17 * 1.17 * 12289 : ℝ) := by
  unfold gsThreshold
  show (((1.17 : ℚ) : ℝ) * ((1.17 : ℚ) : ℝ)) * ((12289 : ℚ) : ℝ) = _
  norm_num

theorem mem_mapLeaves {C : Type} (g : C → C) (t : FTree C) (v : C) (h : v ∈ (t.mapLeaves g).leaves) :
    ∃ w ∈ t.leaves, v = g w := by
  induction t with
  | leaf w => exact ⟨w, by simp [FTree.leaves], by simpa [FTree.leaves, FTree.mapLeaves] using h⟩
  | node l L R ihL ihR =>
    simp only [FTree.leaves, FTree.mapLeaves, List.mem_append] at h ⊢
    rcases h with h | h
    · obtain ⟨w, hw, e⟩ := ihL h; exact ⟨w, Or.inl hw, e⟩
    · obtain ⟨w, hw, e⟩ := ihR h; exact ⟨w, Or.inr hw, e⟩

/-- The tree of the basis and its leaves before normalization. -/
theorem basis_tree (n : ℕ) (h1 : 1 ≤ n) (hn : n ≤ 10) (f g F G : Mem Int) (heq : NtruEq n f g F G)
    (M0 T B0 : Mem ℂ) (M : ℝ) (hM : gramSchmidtNorm exactA n f g ≤ M) :
    ∃ t, TreeAt n (ffldl exactA n 0 (gramMatrix exactA n (computeMatrixB exactA n f g F G B0) M0) T) 0 0 t ∧
      ∀ v ∈ t.leaves, ∃ x : ℝ, v = x ∧ 12289 ^ 2 / M ≤ x ∧ x ≤ M := by
  obtain ⟨m, rfl⟩ : ∃ m, n = m + 1 := ⟨n - 1, by omega⟩
  have ht := ldlTree_ok m _ _ _ hn (gram_pd hn heq B0 M0)
  refine ⟨_, (treeAt_root _ _ _).mpr (ffldl_rep exactA (m + 1) 0 _ T _ _ _ h1 (fun _ _ => rfl) (fun _ _ => rfl)
    (fun _ _ => rfl)), basis_leaves h1 hn heq B0 M0 M hM _ ht⟩

/-- C47. For every size and every σ > 0: if the Gram-Schmidt norm passes the test of key generation, every leaf
of the normalized tree is real and lies in [σ / (1.17 √q), 1.17 σ / √q]. -/
theorem C47_leaves (n : ℕ) (h1 : 1 ≤ n) (hn : n ≤ 10) (f g F G : Mem Int) (heq : NtruEq n f g F G)
    (hgs : gsTooBig exactA n f g = false) (sigma : ℝ) (hs : 0 < sigma) (M0 B0 T0 : Mem ℂ) :
    let M := gramMatrix exactA n (computeMatrixB exactA n f g F G B0) M0
    ∃ t, TreeAt n (normalizeTree exactA sigma n 0 (ffldl exactA n 0 M T0)) 0 0 t ∧
      ∀ v ∈ t.leaves, ∃ s : ℝ, v = s ∧
        sigma / (1.17 * Real.sqrt 12289) ≤ s ∧ s ≤ 1.17 * sigma / Real.sqrt 12289 := by
  intro M
  have hM : gramSchmidtNorm exactA n f g ≤ 1.17 * 1.17 * 12289 := by
    unfold gsTooBig at hgs
    rw [exact_threshold] at hgs
    by_contra hc
    have : exactA.gt (gramSchmidtNorm exactA n f g) (1.17 * 1.17 * 12289) = true := by
      show @decide _ (Classical.propDecidable _) = true
      exact decide_eq_true (not_le.mp hc)
    rw [this] at hgs
    exact absurd hgs (by decide)
  obtain ⟨t, ht, hl⟩ := basis_tree n h1 hn f g F G heq M0 T0 B0 _ hM
  refine ⟨t.mapLeaves (normLeaf exactA sigma), ?_, ?_⟩
  · rw [treeAt_root] at ht ⊢
    exact normalizeTree_rep exactA sigma n 0 _ t h1 ht
  · intro v hv
    obtain ⟨w, hw, rfl⟩ := mem_mapLeaves _ _ _ hv
    obtain ⟨x, rfl, x1, x2⟩ := hl w hw
    have hq : (0 : ℝ) < Real.sqrt 12289 := Real.sqrt_pos.mpr (by norm_num)
    have hqq : Real.sqrt 12289 ^ 2 = 12289 := Real.sq_sqrt (by norm_num)
    have x0 : 0 < x := lt_of_lt_of_le (by norm_num) x1
    have s1 : Real.sqrt x ≤ 1.17 * Real.sqrt 12289 := by
      rw [Real.sqrt_le_left (by positivity)]
      rw [mul_pow, hqq]; linarith
    have s2 : Real.sqrt 12289 / 1.17 ≤ Real.sqrt x := by
      apply Real.le_sqrt_of_sq_le
      rw [div_pow, hqq]
      refine le_trans (le_of_eq ?_) x1
      norm_num
    refine ⟨sigma / Real.sqrt x, ?_, ?_, ?_⟩
    · unfold normLeaf
      rw [exact_ofReal]
      show ((sigma / Real.sqrt ((x : ℂ).re) : ℝ) : ℂ) = _
      rw [Complex.ofReal_re]
    · exact div_le_div_of_nonneg_left hs.le (Real.sqrt_pos.mpr x0) s1
    · rw [div_le_div_iff₀ (Real.sqrt_pos.mpr x0) hq]
      have : Real.sqrt 12289 ≤ 1.17 * Real.sqrt x := by
        rw [div_le_iff₀ (by norm_num)] at s2; linarith
      nlinarith

theorem sigmaMin9_eq : sigmaMin 9 = (5754851361650663 : ℤ) * (2 : ℝ) ^ (-52 : ℤ) := by
  unfold sigmaMin
  rw [if_pos rfl]
  refine rnd_eq_of _ _ (by norm_num) ?_ ?_ ?_ <;> norm_num [abs_lt, abs_of_pos]

theorem sigmaMin10_eq : sigmaMin 10 = (5846934828424843 : ℤ) * (2 : ℝ) ^ (-52 : ℤ) := by
  unfold sigmaMin
  rw [if_neg (by norm_num)]
  refine rnd_eq_of _ _ (by norm_num) ?_ ?_ ?_ <;> norm_num [abs_lt, abs_of_pos]

/-- c ≤ σ / (1.17 √q) from a comparison of squares. -/
theorem le_lower {c s : ℝ} (hs : 0 ≤ s) (h : (c * 1.17) ^ 2 * 12289 ≤ s ^ 2) :
    c ≤ s / (1.17 * Real.sqrt 12289) := by
  have hq : (0 : ℝ) < Real.sqrt 12289 := Real.sqrt_pos.mpr (by norm_num)
  have hqq : Real.sqrt 12289 ^ 2 = 12289 := Real.sq_sqrt (by norm_num)
  rw [le_div_iff₀ (by positivity)]
  refine (abs_le_of_sq_le_sq' ?_ hs).2
  rw [← mul_assoc, mul_pow, hqq]
  exact h

/-- C47 for the parameters of the code: every standard deviation that signing passes to the integer sampler is at
most σ_max, and at least σ_min for N = 1024; for N = 512 it is at least σ_min - 10^-10. -/
theorem C47_sampler_interval (n : ℕ) (hn : ValidLog n) (f g F G : Mem Int) (heq : NtruEq n f g F G)
    (hgs : gsTooBig exactA n f g = false) (B0 T0 : Mem ℂ) :
    ∃ t, TreeAt n (computeFalconTree exactA n (computeMatrixB exactA n f g F G B0) T0) 0 0 t ∧
      ∀ v ∈ t.leaves, ∃ s : ℝ, v = s ∧ s ≤ sigmaMax ∧
        sigmaMin n - (if n = 9 then 1 / 10 ^ 10 else 0) ≤ s ∧ 6 / 5 ≤ s := by
  have hq : (0 : ℝ) < Real.sqrt 12289 := Real.sqrt_pos.mpr (by norm_num)
  have hql : (110.8 : ℝ) ≤ Real.sqrt 12289 := Real.le_sqrt_of_sq_le (by norm_num)
  have hsig : sigSigma exactA 9 = (165.736617183 : ℝ) ∧ sigSigma exactA 10 = (168.388571447 : ℝ) := by
    unfold sigSigma
    constructor
    · rw [if_neg (by norm_num)]
      show ((165.736617183 : ℚ) : ℝ) = _
      norm_num
    · rw [if_pos rfl]
      show ((168.388571447 : ℚ) : ℝ) = _
      norm_num
  rcases hn with rfl | rfl
  · obtain ⟨t, ht, hl⟩ := C47_leaves 9 (by norm_num) (by norm_num) f g F G heq hgs (sigSigma exactA 9)
      (by rw [hsig.1]; norm_num) (junkC exactA) B0 T0
    refine ⟨t, ht, fun v hv => ?_⟩
    obtain ⟨s, rfl, s1, s2⟩ := hl v hv
    rw [hsig.1] at s1 s2
    have hlow : (1.2778336969 : ℝ) ≤ s := (le_lower (by norm_num) (by norm_num)).trans s1
    refine ⟨s, rfl, ?_, ?_, by linarith⟩
    · rw [sigmaMax_eq]
      refine s2.trans ?_
      rw [div_le_iff₀ hq]
      refine le_trans ?_ (mul_le_mul_of_nonneg_left hql (by norm_num))
      norm_num
    · rw [if_pos rfl, sigmaMin9_eq]
      refine le_trans ?_ hlow
      norm_num
  · obtain ⟨t, ht, hl⟩ := C47_leaves 10 (by norm_num) (by norm_num) f g F G heq hgs (sigSigma exactA 10)
      (by rw [hsig.2]; norm_num) (junkC exactA) B0 T0
    refine ⟨t, ht, fun v hv => ?_⟩
    obtain ⟨s, rfl, s1, s2⟩ := hl v hv
    rw [hsig.2] at s1 s2
    have hlow : (1.2982803341 : ℝ) ≤ s := (le_lower (by norm_num) (by norm_num)).trans s1
    refine ⟨s, rfl, ?_, ?_, by linarith⟩
    · rw [sigmaMax_eq]
      refine s2.trans ?_
      rw [div_le_iff₀ hq]
      refine le_trans ?_ (mul_le_mul_of_nonneg_left hql (by norm_num))
      norm_num
    · rw [if_neg (by norm_num), sigmaMin10_eq]
      refine le_trans ?_ hlow
      norm_num

theorem dft_const (n : ℕ) (c : ℤ) (i : ℕ) : dft n (zC (fun i => if i = 0 then c else 0)) i = c := by
  unfold dft zC
  rw [sum_eq_single 0]
  · simp
  · intro b _ hb; beta_reduce; rw [if_neg hb]; simp
  · intro h; simp at h

/-- The hypotheses of C47 are met by f = 100, g = 47, F = -187, G = 35. -/
theorem C47_example (n : ℕ) (hn : n ≤ 10) :
    let c (z : ℤ) : Mem Int := fun i => if i = 0 then z else 0
    NtruEq n (c 100) (c 47) (c (-187)) (c 35) ∧ gsTooBig exactA n (c 100) (c 47) = false := by
  intro c
  constructor
  · unfold NtruEq polyZ
    have h : ∀ z : ℤ, toPoly (2 ^ n) (c z) = C z := by
      intro z
      unfold toPoly
      rw [sum_eq_single 0]
      · simp [c]
      · intro b _ hb
        show Polynomial.C (if b = 0 then z else 0) * X ^ b = 0
        rw [if_neg hb]; simp
      · intro h; simp at h
    rw [h, h, h, h]
    refine ⟨0, ?_⟩
    rw [show (12289 : ℤ[X]) = C 12289 from rfl, ← C_mul, ← C_mul, ← C_sub, ← C_sub]
    norm_num
  · have hfg : ∀ i, fgNorm n (c 100) (c 47) i = 12209 := by
      intro i
      unfold fgNorm
      rw [dft_const, dft_const]
      rw [show ((100 : ℤ) : ℂ) = ((100 : ℝ) : ℂ) by push_cast; rfl,
        show ((47 : ℤ) : ℂ) = ((47 : ℝ) : ℂ) by push_cast; rfl, Complex.normSq_ofReal, Complex.normSq_ofReal]
      norm_num
    unfold gsTooBig
    rw [exact_threshold, gsNorm_fg hn (fun i _ => by rw [hfg]; norm_num)]
    show @decide _ (Classical.propDecidable _) = false
    refine decide_eq_false (not_lt.mpr ?_)
    simp only [hfg, sum_const, card_range, nsmul_eq_mul]
    push_cast
    rw [mul_div_cancel_left₀ _ (by positivity), mul_div_cancel_left₀ _ (by positivity)]
    norm_num

/-- For N = 512 the guaranteed lower bound is below the tabulated σ_min. -/
theorem C47_sigma_min_512 : (165.736617183 : ℝ) / (1.17 * Real.sqrt 12289) < sigmaMin 9 := by
  have hq : (0 : ℝ) < Real.sqrt 12289 := Real.sqrt_pos.mpr (by norm_num)
  have hqq : Real.sqrt 12289 ^ 2 = 12289 := Real.sq_sqrt (by norm_num)
  have hql : (110.85576 : ℝ) ≤ Real.sqrt 12289 := Real.le_sqrt_of_sq_le (by norm_num)
  rw [sigmaMin9_eq, div_lt_iff₀ (by positivity)]
  refine lt_of_pow_lt_pow_left₀ 2 (by positivity) ?_
  rw [mul_pow, mul_pow, mul_pow, hqq]
  norm_num

end Falcon
