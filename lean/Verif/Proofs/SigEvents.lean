import Verif.Proofs.SigBig

/-! # Probabilities of signing events for Gaussian pairs -/

namespace Falcon

open Real

/-- Bits left for the unary parts. -/
def unaryBits (n : ℕ) : ℕ := 8 * (sigBytes n - 41) - 9 * 2 ^ n

theorem unary_of_long {n : ℕ} (hn : ValidLog n) {k : Fin (2 ^ n) → ℕ} (h : 8 * (sigBytes n - 41) ≤ ∑ i, (9 + k i)) : unaryBits n ≤ ∑ i, k i := by
  rw [Finset.sum_add_distrib, Finset.sum_const, Finset.card_univ, Fintype.card_fin, smul_eq_mul] at h
  unfold unaryBits
  omega

theorem bits_cert : 11582 ^ 512 * 2 ^ 17 * 4 ^ 392 ≤ 5 ^ 392 * 10000 ^ 512 ∧ 10784 ^ 1024 * 2 ^ 6 * 8 ^ 696 ≤ 9 ^ 696 * 10000 ^ 1024 ∧
    11582 ^ 511 * 2 ^ 4 * 4 ^ 384 ≤ 5 ^ 384 * 10000 ^ 511 ∧ 10784 ^ 1023 * 2 ^ 4 * 8 ^ 688 ≤ 9 ^ 688 * 10000 ^ 1023 := by decide +kernel

theorem pow_cert {a b c d e k M N : ℕ} (h : a ^ N * 2 ^ k * c ^ M ≤ d ^ M * b ^ N) (hb : 0 < b) (hc : 0 < c) (hd : 0 < d) {x y : ℝ}
    (hx : x = d / c) (hy : y = a / b) (he : e = k) : (x ^ M)⁻¹ * y ^ N ≤ 1 / 2 ^ e := by
  subst he
  have hb' : (0 : ℝ) < b := by exact_mod_cast hb
  have hc' : (0 : ℝ) < c := by exact_mod_cast hc
  have hd' : (0 : ℝ) < d := by exact_mod_cast hd
  have h' : (a : ℝ) ^ N * 2 ^ e * c ^ M ≤ d ^ M * b ^ N := by exact_mod_cast h
  rw [hx, hy, div_pow (d : ℝ), div_pow (a : ℝ), inv_div, div_mul_div_comm, div_le_div_iff₀ (by positivity) (by positivity)]
  calc (c : ℝ) ^ M * a ^ N * 2 ^ e = a ^ N * 2 ^ e * c ^ M := by ring
    _ ≤ _ := h'.trans (le_of_eq (by ring))

/-- How often a Gaussian pair is too long for compression. -/
noncomputable def longPr (n : ℕ) : ℝ := if n = 9 then 1 / 2 ^ 17 else 1 / 2 ^ 6

theorem mom_summable {n : ℕ} (hn : ValidLog n) : Summable fun z : ℤ => gaussW 0 (sigmaSig n) z * cBase n ^ (z.natAbs / 128) := by
  have e : (fun z : ℤ => gaussW 0 (sigmaSig n) z * cBase n ^ (z.natAbs / 128)) = fun z : ℤ => rhoN (sigmaSig n) z.natAbs * cBase n ^ (z.natAbs / 128) := by
    funext z
    rw [gaussW_rhoN]
  rw [e]
  exact (hasSum_even (summable_moment hn)).summable

theorem long_tail {n : ℕ} (hn : ValidLog n) :
    sphericalPr n (sigmaSig n) (fun s => ¬ ∑ i, (9 + (s.2 i).natAbs / 128) < 8 * (sigBytes n - 41)) ≤ longPr n := by
  have hs := sigmaSig_pos n
  have hb := cBase_mem n
  have hx : 0 < cBase n := by linarith
  have h := spher_le (n := n) hs (E := fun s => ¬ ∑ i, (9 + (s.2 i).natAbs / 128) < 8 * (sigBytes n - 41)) (cBase n ^ unaryBits n)⁻¹ (fun _ _ => 1)
    (fun _ z => cBase n ^ (z.natAbs / 128)) (by positivity) (fun _ _ => zero_le_one) (fun _ _ => by positivity)
    (fun _ => by simpa using summable_gaussW 0 hs) (fun _ => mom_summable hn) (fun s h => by
      have := unary_of_long hn (not_lt.mp h)
      rw [Finset.prod_const_one, one_mul, Finset.prod_pow_eq_pow_sum, ← div_eq_inv_mul, one_le_div (by positivity)]
      exact pow_le_pow_right₀ hb.1 this)
  refine h.trans ?_
  simp only [gaussMean_one hs, Finset.prod_const_one, one_mul, Finset.prod_const, Finset.card_univ, Fintype.card_fin]
  have hm := pow_le_pow_left₀ (gaussMean_nonneg (sigma := sigmaSig n) fun z => by positivity) (moment_le hn) (2 ^ n)
  refine (mul_le_mul_of_nonneg_left hm (by positivity)).trans ?_
  obtain ⟨c1, c2, -, -⟩ := bits_cert
  unfold longPr cMom cBase
  rcases hn with rfl | rfl
  · rw [if_neg (by norm_num), if_neg (by norm_num), if_pos rfl]
    exact pow_cert (M := 392) (N := 512) c1 (by norm_num) (by norm_num) (by norm_num) (by norm_num) (by norm_num) rfl
  · rw [if_pos rfl, if_pos rfl, if_neg (by norm_num)]
    exact pow_cert (M := 696) (N := 1024) c2 (by norm_num) (by norm_num) (by norm_num) (by norm_num) (by norm_num) rfl

/-- A Gaussian pair has a coefficient of s2 beyond 1023. -/
theorem big_tail {n : ℕ} (hn : ValidLog n) : sphericalPr n (sigmaSig n) (fun s => ∃ i, 1024 ≤ |s.2 i|) ≤ 1 / 2 ^ (39 - 2 * n) := by
  have hs := sigmaSig_pos n
  refine (spher_exists hs fun i s => 1024 ≤ |s.2 i|).trans ?_
  have h1 : ∀ i ∈ (Finset.univ : Finset (Fin (2 ^ n))), sphericalPr n (sigmaSig n) (fun s => 1024 ≤ |s.2 i|) ≤ 1 / 2 ^ (39 - 2 * n) / 2 ^ n := by
    intro i _
    rw [spher_eq hs (fun _ => Set.univ) (fun j => if j = i then {z : ℤ | 1024 ≤ |z|} else Set.univ)]
    · rw [Finset.prod_congr rfl fun _ _ => gaussPr_univ0 hs, Finset.prod_const_one, one_mul, Finset.prod_eq_single i]
      · rw [if_pos rfl]
        exact tail_1024 hn
      · intro j _ hj
        rw [if_neg hj, gaussPr_univ0 hs]
      · intro h
        exact absurd (Finset.mem_univ i) h
    · intro s
      constructor
      · intro h
        refine ⟨fun _ => Set.mem_univ _, fun j => ?_⟩
        by_cases hj : j = i
        · rw [if_pos hj, hj]
          exact h
        · rw [if_neg hj]
          exact Set.mem_univ _
      · rintro ⟨-, h⟩
        have := h i
        rw [if_pos rfl] at this
        exact this
  refine (Finset.sum_le_card_nsmul _ _ _ h1).trans (le_of_eq ?_)
  rw [nsmul_eq_mul, Finset.card_univ, Fintype.card_fin]
  push_cast
  field_simp

/-! ## Exactly one large coefficient -/

section
variable {n : ℕ} {sigma : ℝ}

/-- One coefficient in A and a Chernoff bound for the others. -/
theorem spher_one (hs : 0 < sigma) {E : PairZ n → Prop} (i : Fin (2 ^ n)) (A : Set ℤ) (K : ℝ) (hK : 0 ≤ K) (a b : ℤ → ℝ) (ha : ∀ z, 0 ≤ a z) (hb : ∀ z, 0 ≤ b z)
    (sa : Summable fun z => gaussW 0 sigma z * a z) (sb : Summable fun z => gaussW 0 sigma z * b z)
    (hE : ∀ s, E s → s.2 i ∈ A ∧ 1 ≤ K * ((∏ j, a (s.1 j)) * ∏ j ∈ Finset.univ.erase i, b (s.2 j))) :
    sphericalPr n sigma E ≤ gaussPr 0 sigma A * (K * (gaussMean 0 sigma a ^ 2 ^ n * gaussMean 0 sigma b ^ (2 ^ n - 1))) := by
  classical
  have h := spher_le (n := n) hs (E := E) K (fun _ => a) (fun j z => if j = i then (if z ∈ A then 1 else 0) else b z) hK (fun _ => ha)
    (fun j z => by
      split
      · split <;> norm_num
      · exact hb z) (fun _ => sa) (fun j => by
      by_cases hj : j = i
      · simp only [hj, if_true]
        exact summable_indW hs A
      · simp only [hj, if_false]
        exact sb) (fun s h => by
      obtain ⟨h1, h2⟩ := hE s h
      have e : ∏ j, (if j = i then (if s.2 j ∈ A then 1 else 0) else b (s.2 j)) = ∏ j ∈ Finset.univ.erase i, b (s.2 j) := by
        rw [← Finset.mul_prod_erase Finset.univ _ (Finset.mem_univ i), if_pos rfl, if_pos h1, one_mul]
        exact Finset.prod_congr rfl fun j hj => if_neg (Finset.ne_of_mem_erase hj)
      rw [e]
      exact h2)
  refine h.trans (le_of_eq ?_)
  have e : ∏ j, gaussMean 0 sigma (fun z => if j = i then (if z ∈ A then 1 else 0) else b z) = gaussPr 0 sigma A * gaussMean 0 sigma b ^ (2 ^ n - 1) := by
    rw [← Finset.mul_prod_erase Finset.univ _ (Finset.mem_univ i)]
    have e1 : ∏ j ∈ Finset.univ.erase i, gaussMean 0 sigma (fun z => if j = i then (if z ∈ A then 1 else 0) else b z) = gaussMean 0 sigma b ^ (2 ^ n - 1) := by
      rw [Finset.prod_congr rfl (g := fun _ => gaussMean 0 sigma b) fun j hj => by simp only [Finset.ne_of_mem_erase hj, if_false],
        Finset.prod_const, Finset.card_erase_of_mem (Finset.mem_univ i), Finset.card_univ, Fintype.card_fin]
    rw [e1]
    simp only [if_true]
    rfl
  rw [e, Finset.prod_const, Finset.card_univ, Fintype.card_fin]
  ring

theorem spher_coord (hs : 0 < sigma) (i : Fin (2 ^ n)) (A : Set ℤ) : sphericalPr n sigma (fun s => s.2 i ∈ A) = gaussPr 0 sigma A := by
  rw [spher_eq hs (fun _ => Set.univ) (fun j => if j = i then A else Set.univ)]
  · rw [Finset.prod_congr rfl fun _ _ => gaussPr_univ0 hs, Finset.prod_const_one, one_mul, Finset.prod_eq_single i]
    · rw [if_pos rfl]
    · intro j _ hj
      rw [if_neg hj, gaussPr_univ0 hs]
    · intro h
      exact absurd (Finset.mem_univ i) h
  · intro s
    constructor
    · intro h
      refine ⟨fun _ => Set.mem_univ _, fun j => ?_⟩
      by_cases hj : j = i
      · rw [if_pos hj, hj]
        exact h
      · rw [if_neg hj]
        exact Set.mem_univ _
    · rintro ⟨-, h⟩
      have := h i
      rw [if_pos rfl] at this
      exact this

end

/-- The norm test after one coefficient has been fixed. -/
theorem norm_cert {n : ℕ} (hn : ValidLog n) :
    Real.exp (-(((betaSq n : ℝ) - 1151 ^ 2) / (2 * sigmaSig n ^ 2) * (21 / 121))) * (1.1001 ^ 2 ^ n * 1.1001 ^ (2 ^ n - 1)) ≤ 1 / 2 ^ 4 := by
  have h11 : (1.1001 : ℝ) ≤ Real.exp 0.09555 := by
    refine le_trans ?_ (Real.quadratic_le_exp_of_nonneg (by norm_num))
    norm_num
  have h2 : (1.1001 : ℝ) ^ 2 ^ n * 1.1001 ^ (2 ^ n - 1) ≤ Real.exp (0.09555 * 2 ^ (n + 1)) := by
    rw [← pow_add]
    refine (pow_le_pow_left₀ (by norm_num) h11 _).trans ?_
    rw [← Real.exp_nat_mul]
    refine Real.exp_le_exp.mpr ?_
    have : ((2 ^ n + (2 ^ n - 1) : ℕ) : ℝ) ≤ 2 ^ (n + 1) := by
      have : 2 ^ n + (2 ^ n - 1) ≤ 2 ^ (n + 1) := by rw [pow_succ]; omega
      exact_mod_cast this
    linarith
  have h4 : Real.exp (-4) ≤ 1 / 2 ^ 4 := by
    have : Real.exp (-2) ≤ 1 / 5 := exp_neg_up (by norm_num) (by norm_num)
    rw [show (-4 : ℝ) = -2 + -2 by norm_num, Real.exp_add]
    exact (mul_le_mul this this (Real.exp_pos _).le (by norm_num)).trans (by norm_num)
  refine (mul_le_mul_of_nonneg_left h2 (Real.exp_pos _).le).trans (le_trans ?_ h4)
  rw [← Real.exp_add]
  refine Real.exp_le_exp.mpr ?_
  unfold betaSq sigmaSig
  rcases hn with rfl | rfl <;> norm_num

theorem spher_two {n : ℕ} {sigma : ℝ} (hs : 0 < sigma) {i j : Fin (2 ^ n)} (hij : j ≠ i) (A B : Set ℤ) :
    sphericalPr n sigma (fun s => s.2 i ∈ A ∧ s.2 j ∈ B) = gaussPr 0 sigma A * gaussPr 0 sigma B := by
  rw [spher_eq hs (fun _ => Set.univ) (fun t => if t = i then A else if t = j then B else Set.univ)]
  · rw [Finset.prod_congr rfl fun _ _ => gaussPr_univ0 hs, Finset.prod_const_one, one_mul, ← Finset.mul_prod_erase Finset.univ _ (Finset.mem_univ i), if_pos rfl,
      Finset.prod_eq_single j]
    · rw [if_neg hij, if_pos rfl]
    · intro t ht htj
      rw [if_neg (Finset.ne_of_mem_erase ht), if_neg htj, gaussPr_univ0 hs]
    · intro h
      exact absurd (Finset.mem_erase.mpr ⟨hij, Finset.mem_univ j⟩) h
  · intro s
    constructor
    · rintro ⟨h1, h2⟩
      refine ⟨fun _ => Set.mem_univ _, fun t => ?_⟩
      by_cases ht : t = i
      · rw [if_pos ht, ht]
        exact h1
      · rw [if_neg ht]
        by_cases ht' : t = j
        · rw [if_pos ht', ht']
          exact h2
        · rw [if_neg ht']
          exact Set.mem_univ _
    · rintro ⟨-, h⟩
      have h1 := h i
      have h2 := h j
      rw [if_pos rfl] at h1
      rw [if_neg hij, if_pos rfl] at h2
      exact ⟨h1, h2⟩

theorem spher_false {n : ℕ} {sigma : ℝ} {E : PairZ n → Prop} (h : ∀ s, ¬ E s) : sphericalPr n sigma E = 0 := by
  unfold sphericalPr
  rw [tsum_congr (g := fun _ => (0 : ℝ)) fun s => if_neg (h s), tsum_zero, zero_div]

/-- The coefficient i is large, the others are not, and the pair passes the tests of signing. -/
def OneBig (n : ℕ) (A : Set ℤ) (i : Fin (2 ^ n)) (s : PairZ n) : Prop := s.2 i ∈ A ∧ Accept n s ∧ ∀ j, j ≠ i → |s.2 j| ≤ 1023

theorem one_big {n : ℕ} (hn : ValidLog n) {A : Set ℤ} (hA : ∀ z ∈ A, 1024 ≤ |z| ∧ |z| ≤ 1151) (i : Fin (2 ^ n)) :
    gaussPr 0 (sigmaSig n) A * 0.8 ≤ sphericalPr n (sigmaSig n) (OneBig n A i) := by
  have hs := sigmaSig_pos n
  have hb := cBase_mem n
  have hx : 0 < cBase n := by linarith
  have hP := gaussPr_nonneg0 (sigma := sigmaSig n) A
  -- too long for compression
  have h1 : sphericalPr n (sigmaSig n) (fun s => s.2 i ∈ A ∧ ¬ ∑ i, (9 + (s.2 i).natAbs / 128) < 8 * (sigBytes n - 41)) ≤ gaussPr 0 (sigmaSig n) A * (1 / 2 ^ 4) := by
    refine (spher_one hs i A (cBase n ^ (unaryBits n - 8))⁻¹ (by positivity) (fun _ => 1) (fun z => cBase n ^ (z.natAbs / 128)) (fun _ => zero_le_one)
      (fun _ => by positivity) (by simpa using summable_gaussW 0 hs) (mom_summable hn) (fun s h => ⟨h.1, ?_⟩)).trans (mul_le_mul_of_nonneg_left ?_ hP)
    · have h8 : (s.2 i).natAbs / 128 = 8 := by
        have := hA _ h.1
        rw [Int.abs_eq_natAbs] at this
        omega
      have hl := unary_of_long hn (not_lt.mp h.2)
      rw [← Finset.add_sum_erase Finset.univ _ (Finset.mem_univ i), h8] at hl
      rw [Finset.prod_const_one, one_mul, Finset.prod_pow_eq_pow_sum, ← div_eq_inv_mul, one_le_div (by positivity)]
      exact pow_le_pow_right₀ hb.1 (by omega)
    · rw [gaussMean_one hs, one_pow, one_mul]
      have hm := pow_le_pow_left₀ (gaussMean_nonneg (sigma := sigmaSig n) fun z => by positivity) (moment_le hn) (2 ^ n - 1)
      refine (mul_le_mul_of_nonneg_left hm (by positivity)).trans ?_
      obtain ⟨-, -, c1, c2⟩ := bits_cert
      unfold cMom cBase
      rcases hn with rfl | rfl
      · rw [if_neg (by norm_num), if_neg (by norm_num)]
        exact pow_cert (M := 384) (N := 511) c1 (by norm_num) (by norm_num) (by norm_num) (by norm_num) (by norm_num) rfl
      · rw [if_pos rfl, if_pos rfl]
        exact pow_cert (M := 688) (N := 1023) c2 (by norm_num) (by norm_num) (by norm_num) (by norm_num) (by norm_num) rfl
  -- too long for the norm test
  have h2 : sphericalPr n (sigmaSig n) (fun s => s.2 i ∈ A ∧ ¬ pairSq s ≤ betaSq n) ≤ gaussPr 0 (sigmaSig n) A * (1 / 2 ^ 4) := by
    obtain ⟨m1, m2⟩ := sq_moment hn
    refine (spher_one hs i A (Real.exp (-(((betaSq n : ℝ) - 1151 ^ 2) / (2 * sigmaSig n ^ 2) * (21 / 121)))) (Real.exp_pos _).le
      (fun z => Real.exp ((z : ℝ) ^ 2 / (2 * sigmaSig n ^ 2) * (21 / 121))) (fun z => Real.exp ((z : ℝ) ^ 2 / (2 * sigmaSig n ^ 2) * (21 / 121)))
      (fun _ => (Real.exp_pos _).le) (fun _ => (Real.exp_pos _).le) m1 m1 (fun s h => ⟨h.1, ?_⟩)).trans (mul_le_mul_of_nonneg_left ?_ hP)
    · rw [← Real.exp_sum, ← Real.exp_sum, ← Real.exp_add, ← Real.exp_add, Real.one_le_exp_iff, ← Finset.sum_mul, ← Finset.sum_mul, ← Finset.sum_div, ← Finset.sum_div]
      have hz := (hA _ h.1).2
      have hz2 : s.2 i ^ 2 ≤ 1151 ^ 2 := by
        rw [← sq_abs]
        exact pow_le_pow_left₀ (abs_nonneg _) hz 2
      have hl := (not_le.mp h.2).le
      unfold pairSq at hl
      rw [← Finset.add_sum_erase Finset.univ (fun j => s.2 j ^ 2) (Finset.mem_univ i)] at hl
      have hl' : betaSq n - 1151 ^ 2 ≤ ∑ j, s.1 j ^ 2 + ∑ j ∈ Finset.univ.erase i, s.2 j ^ 2 := by linarith
      have hl2 : (betaSq n : ℝ) - 1151 ^ 2 ≤ ∑ j, (s.1 j : ℝ) ^ 2 + ∑ j ∈ Finset.univ.erase i, (s.2 j : ℝ) ^ 2 := by exact_mod_cast hl'
      have := div_le_div_of_nonneg_right hl2 (show 0 ≤ 2 * sigmaSig n ^ 2 by positivity)
      rw [add_div] at this
      linarith
    · refine le_trans (mul_le_mul_of_nonneg_left ?_ (Real.exp_pos _).le) (norm_cert hn)
      have h0 : 0 ≤ gaussMean 0 (sigmaSig n) (fun z => Real.exp ((z : ℝ) ^ 2 / (2 * sigmaSig n ^ 2) * (21 / 121))) := gaussMean_nonneg fun _ => (Real.exp_pos _).le
      exact mul_le_mul (pow_le_pow_left₀ h0 m2 _) (pow_le_pow_left₀ h0 m2 _) (by positivity) (by positivity)
  -- another large coefficient
  have h3 : sphericalPr n (sigmaSig n) (fun s => ∃ j, j ≠ i ∧ s.2 i ∈ A ∧ s.2 j ∈ {z : ℤ | 1024 ≤ |z|}) ≤ gaussPr 0 (sigmaSig n) A * (1 / 2 ^ 4) := by
    refine (spher_exists hs fun j s => j ≠ i ∧ s.2 i ∈ A ∧ s.2 j ∈ {z : ℤ | 1024 ≤ |z|}).trans ?_
    have hj : ∀ j ∈ (Finset.univ : Finset (Fin (2 ^ n))), sphericalPr n (sigmaSig n) (fun s => j ≠ i ∧ s.2 i ∈ A ∧ s.2 j ∈ {z : ℤ | 1024 ≤ |z|}) ≤
        gaussPr 0 (sigmaSig n) A * (1 / 2 ^ (39 - 2 * n) / 2 ^ n) := by
      intro j _
      by_cases hij : j = i
      · rw [spher_false fun s h => h.1 hij]
        positivity
      · refine (spher_mono hs fun s h => h.2).trans ?_
        rw [spher_two hs hij]
        exact mul_le_mul_of_nonneg_left (tail_1024 hn) hP
    refine (Finset.sum_le_card_nsmul _ _ _ hj).trans ?_
    rw [nsmul_eq_mul, Finset.card_univ, Fintype.card_fin, mul_left_comm]
    refine mul_le_mul_of_nonneg_left ?_ hP
    rcases hn with rfl | rfl <;> norm_num
  have h4 : sphericalPr n (sigmaSig n) (fun s => s.2 i ∈ A) ≤ sphericalPr n (sigmaSig n) (fun s => OneBig n A i s ∨
      ((s.2 i ∈ A ∧ ¬ ∑ i, (9 + (s.2 i).natAbs / 128) < 8 * (sigBytes n - 41)) ∨ ((s.2 i ∈ A ∧ ¬ pairSq s ≤ betaSq n) ∨
        ∃ j, j ≠ i ∧ s.2 i ∈ A ∧ s.2 j ∈ {z : ℤ | 1024 ≤ |z|}))) := by
    refine spher_mono hs fun s h => ?_
    by_cases q1 : ∑ i, (9 + (s.2 i).natAbs / 128) < 8 * (sigBytes n - 41)
    · by_cases q2 : pairSq s ≤ betaSq n
      · by_cases q3 : ∀ j, j ≠ i → |s.2 j| ≤ 1023
        · exact .inl ⟨h, ⟨q2, q1⟩, q3⟩
        · push Not at q3
          obtain ⟨j, hj, hq⟩ := q3
          exact .inr (.inr (.inr ⟨j, hj, h, by show 1024 ≤ |s.2 j|; omega⟩))
      · exact .inr (.inr (.inl ⟨h, q2⟩))
    · exact .inr (.inl ⟨h, q1⟩)
  rw [spher_coord hs] at h4
  have h5 := spher_or hs (OneBig n A i) (fun s => (s.2 i ∈ A ∧ ¬ ∑ i, (9 + (s.2 i).natAbs / 128) < 8 * (sigBytes n - 41)) ∨ ((s.2 i ∈ A ∧ ¬ pairSq s ≤ betaSq n) ∨
        ∃ j, j ≠ i ∧ s.2 i ∈ A ∧ s.2 j ∈ {z : ℤ | 1024 ≤ |z|}))
  have h6 := spher_or hs (fun s => s.2 i ∈ A ∧ ¬ ∑ i, (9 + (s.2 i).natAbs / 128) < 8 * (sigBytes n - 41)) (fun s => (s.2 i ∈ A ∧ ¬ pairSq s ≤ betaSq n) ∨
        ∃ j, j ≠ i ∧ s.2 i ∈ A ∧ s.2 j ∈ {z : ℤ | 1024 ≤ |z|})
  have h7 := spher_or hs (fun s => s.2 i ∈ A ∧ ¬ pairSq s ≤ betaSq n) (fun s => ∃ j, j ≠ i ∧ s.2 i ∈ A ∧ s.2 j ∈ {z : ℤ | 1024 ≤ |z|})
  rw [show (1 / 2 ^ 4 : ℝ) = 0.0625 by norm_num] at h1 h2 h3
  linarith

/-- Some coefficient is large. -/
theorem some_big {n : ℕ} (hn : ValidLog n) {A : Set ℤ} (hA : ∀ z ∈ A, 1024 ≤ |z| ∧ |z| ≤ 1151) {p : ℝ} (hp : 1.25 * (p / 2 ^ n) ≤ gaussPr 0 (sigmaSig n) A) :
    p ≤ sphericalPr n (sigmaSig n) (fun s => ∃ i, OneBig n A i s) := by
  have hs := sigmaSig_pos n
  refine le_trans ?_ (spher_disjoint hs (OneBig n A) fun s i j hi hj => ?_)
  · have : ∀ i ∈ (Finset.univ : Finset (Fin (2 ^ n))), p / 2 ^ n ≤ sphericalPr n (sigmaSig n) (OneBig n A i) := fun i _ => by
      refine le_trans ?_ (one_big hn hA i)
      have := mul_le_mul_of_nonneg_right hp (show (0 : ℝ) ≤ 0.8 by norm_num)
      refine le_trans (le_of_eq ?_) this
      ring
    have := Finset.card_nsmul_le_sum _ _ _ this
    rw [nsmul_eq_mul, Finset.card_univ, Fintype.card_fin] at this
    refine le_trans (le_of_eq ?_) this
    push_cast
    field_simp
  · by_contra h
    have h1 := (hA _ hi.1).1
    have h2 := hj.2.2 i h
    omega

end Falcon
