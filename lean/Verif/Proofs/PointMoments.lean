import Verif.Proofs.PointNorm

/-! # Moments of the squared norm of a uniform point -/

namespace Falcon

/-! ### Moments of sums of independent terms -/

section
variable {A : Type} [Fintype A] (d : A → ℝ)

theorem sum_cons (N : ℕ) (F : ℝ → ℝ) :
    ∑ u : Fin (N + 1) → A, F (∑ i, d (u i)) = ∑ u : Fin N → A, ∑ a, F (d a + ∑ i, d (u i)) := by
  rw [← Fintype.sum_equiv (Fin.consEquiv fun _ => A) (fun p : A × (Fin N → A) => F (d p.1 + ∑ i, d (p.2 i))) _ fun p => by
    rw [Fin.sum_univ_succ]
    rfl]
  rw [Fintype.sum_prod_type_right]

variable {Q s2 s3 s4 : ℝ} (h0 : (Fintype.card A : ℝ) = Q) (h1 : ∑ a, d a = 0) (h2 : ∑ a, d a ^ 2 = s2) (h3 : ∑ a, d a ^ 3 = s3) (h4 : ∑ a, d a ^ 4 = s4)

include h0 in
theorem moment_0 (N : ℕ) : ∑ _u : Fin N → A, (1 : ℝ) = Q ^ N := by
  rw [Finset.sum_const, Finset.card_univ, Fintype.card_pi, Finset.prod_const, Finset.card_univ, Fintype.card_fin, nsmul_eq_mul, mul_one, Nat.cast_pow, h0]

include h0 h1 in
theorem moment_1 (N : ℕ) : ∑ u : Fin N → A, ∑ i, d (u i) = 0 := by
  induction N with
  | zero => simp
  | succ N ih =>
    rw [sum_cons d N fun x => x, Finset.sum_congr rfl fun u _ => by rw [Finset.sum_add_distrib, h1, zero_add, Finset.sum_const, Finset.card_univ, nsmul_eq_mul, h0]]
    rw [← Finset.mul_sum, ih, mul_zero]

include h0 h1 h2 in
theorem moment_2 (N : ℕ) : (∑ u : Fin N → A, (∑ i, d (u i)) ^ 2) * Q = N * s2 * Q ^ N := by
  induction N with
  | zero => simp
  | succ N ih =>
    have e : ∀ u : Fin N → A, ∑ a, (d a + ∑ i, d (u i)) ^ 2 = s2 * 1 + Q * (∑ i, d (u i)) ^ 2 := by
      intro u
      obtain ⟨y, hy⟩ : ∃ y, y = ∑ i, d (u i) := ⟨_, rfl⟩
      rw [← hy, Finset.sum_congr rfl fun a _ => show (d a + y) ^ 2 = d a ^ 2 + (2 * y * d a + y ^ 2) by ring, Finset.sum_add_distrib,
        Finset.sum_add_distrib, h2, ← Finset.mul_sum, h1, Finset.sum_const, Finset.card_univ, nsmul_eq_mul, h0]
      ring
    rw [sum_cons d N fun x => x ^ 2, Finset.sum_congr rfl fun u _ => e u, Finset.sum_add_distrib, ← Finset.mul_sum, ← Finset.mul_sum, moment_0 h0]
    push_cast
    linear_combination Q * ih

include h0 h1 h2 h3 h4 in
theorem moment_4 (N : ℕ) : (∑ u : Fin N → A, (∑ i, d (u i)) ^ 4) * Q ^ 2 = (N * s4 * Q + 3 * N * (N - 1) * s2 ^ 2) * Q ^ N := by
  induction N with
  | zero => simp
  | succ N ih =>
    have e : ∀ u : Fin N → A, ∑ a, (d a + ∑ i, d (u i)) ^ 4 =
        s4 * 1 + (4 * s3 * (∑ i, d (u i)) + (6 * s2 * (∑ i, d (u i)) ^ 2 + Q * (∑ i, d (u i)) ^ 4)) := by
      intro u
      obtain ⟨y, hy⟩ : ∃ y, y = ∑ i, d (u i) := ⟨_, rfl⟩
      rw [← hy, Finset.sum_congr rfl fun a _ => show (d a + y) ^ 4 = d a ^ 4 + (4 * y * d a ^ 3 + (6 * y ^ 2 * d a ^ 2 + (4 * y ^ 3 * d a + y ^ 4))) by ring,
        Finset.sum_add_distrib, Finset.sum_add_distrib, Finset.sum_add_distrib, Finset.sum_add_distrib, h4, ← Finset.mul_sum, h3, ← Finset.mul_sum, h2,
        ← Finset.mul_sum, h1, Finset.sum_const, Finset.card_univ, nsmul_eq_mul, h0]
      ring
    rw [sum_cons d N fun x => x ^ 4, Finset.sum_congr rfl fun u _ => e u, Finset.sum_add_distrib, Finset.sum_add_distrib, Finset.sum_add_distrib,
      ← Finset.mul_sum, ← Finset.mul_sum, ← Finset.mul_sum, ← Finset.mul_sum, moment_0 h0, moment_1 d h0 h1]
    have := moment_2 d h0 h1 h2 N
    push_cast
    linear_combination Q * ih + 6 * s2 * Q * this

end

/-! ### The values for the residues mod q -/

/-- Sum over a block of 2^k indices. -/
def blockSum (f : ℕ → ℕ) : ℕ → ℕ → ℕ
  | 0, lo => f lo
  | k + 1, lo => blockSum f k lo + blockSum f k (lo + 2 ^ k)

theorem blockSum_eq (f : ℕ → ℕ) (k lo : ℕ) : blockSum f k lo = ∑ j ∈ Finset.range (2 ^ k), f (lo + j) := by
  induction k generalizing lo with
  | zero => simp [blockSum]
  | succ k ih =>
    unfold blockSum
    rw [ih, ih, pow_succ, mul_two, Finset.sum_range_add]
    simp only [add_assoc]

def cenSq (j : ℕ) : ℕ := if j < 6144 then j ^ 2 else (12289 - j) ^ 2

def devSq (j : ℕ) : ℕ := cenSq j ^ 2 + 12584961 ^ 2 - 2 * cenSq j * 12584961

theorem sum_cert1 : blockSum (fun j => bif Nat.blt j 12289 then cenSq j else 0) 14 0 = 12289 * 12584961 := by decide +kernel
theorem sum_cert2 : blockSum (fun j => bif Nat.blt j 12289 then devSq j else 0) 14 0 = 1557078020078548992 := by decide +kernel
theorem sum_cert4 : blockSum (fun j => bif Nat.blt j 12289 then devSq j ^ 2 else 0) 14 0 = 422763809636848949173106591422464 := by decide +kernel

theorem sum_fin (f : ℕ → ℕ) {S : ℕ} (h : blockSum (fun j => bif Nat.blt j 12289 then f j else 0) 14 0 = S) :
    ∑ j : Fin 12289, (f j.val : ℝ) = S := by
  rw [blockSum_eq] at h
  rw [← h, ← Nat.cast_sum]
  refine congrArg _ ?_
  have h1 : ∀ j : ℕ, (bif Nat.blt (0 + j) 12289 then f (0 + j) else 0) = if j ∈ Finset.range 12289 then f j else 0 := by
    intro j
    by_cases hj : j < 12289 <;> simp [hj, Nat.blt_eq, Bool.cond_eq_ite]
  rw [Finset.sum_congr rfl fun j _ => h1 j, ← Finset.sum_filter, Fin.sum_univ_eq_sum_range f 12289]
  refine Finset.sum_congr (Finset.ext fun j => ?_) fun _ _ => rfl
  rw [Finset.mem_filter, Finset.mem_range, Finset.mem_range]
  exact ⟨fun h => ⟨h.trans (by norm_num), h⟩, fun h => h.2⟩

/-- Deviation of a squared coordinate from its mean. -/
def dev (j : Fin 12289) : ℝ := (cen j : ℝ) ^ 2 - 12584961

theorem cenSq_cast (j : Fin 12289) : ((cenSq j.val : ℕ) : ℝ) = (cen j : ℝ) ^ 2 := by
  have := j.isLt
  unfold cenSq cen
  split
  · push_cast
    rfl
  · rw [Nat.cast_pow, Nat.cast_sub (by omega)]
    push_cast
    ring

theorem devSq_cast (j : Fin 12289) : ((devSq j.val : ℕ) : ℝ) = dev j ^ 2 := by
  unfold devSq dev
  have h : 2 * cenSq j.val * 12584961 ≤ cenSq j.val ^ 2 + 12584961 ^ 2 := by
    rw [mul_assoc]
    zify
    nlinarith [sq_nonneg ((cenSq j.val : ℤ) - 12584961)]
  rw [Nat.cast_sub h]
  push_cast
  rw [cenSq_cast]
  ring

theorem dev_1 : ∑ j, dev j = 0 := by
  unfold dev
  rw [Finset.sum_sub_distrib, Finset.sum_congr rfl fun j _ => (cenSq_cast j).symm, sum_fin cenSq sum_cert1, Finset.sum_const, Finset.card_univ, Fintype.card_fin]
  norm_num

theorem dev_2 : ∑ j, dev j ^ 2 = 1557078020078548992 := by
  rw [Finset.sum_congr rfl fun j _ => (devSq_cast j).symm, sum_fin devSq sum_cert2]
  norm_num

theorem dev_4 : ∑ j, dev j ^ 4 = 422763809636848949173106591422464 := by
  rw [Finset.sum_congr rfl fun j _ => show dev j ^ 4 = ((devSq j.val ^ 2 : ℕ) : ℝ) by rw [Nat.cast_pow, devSq_cast]; ring,
    sum_fin (fun j => devSq j ^ 2) sum_cert4]
  norm_num

theorem pointSq_dev {n : ℕ} (v : Point n) : ((pointSq v : ℤ) : ℝ) = 12584961 * 2 ^ n + ∑ i, dev (v i) := by
  unfold pointSq dev
  rw [Finset.sum_sub_distrib, Finset.sum_const, Finset.card_univ, Fintype.card_fin]
  push_cast
  rw [nsmul_eq_mul]
  push_cast
  ring

/-! ### A window above or below the mean -/

theorem quartic_le (x : ℝ) : 2 / 3 * x + x ^ 2 - x ^ 4 / 3 ≤ 13 / 8 := by
  nlinarith [sq_nonneg (x ^ 2 - 1.866), sq_nonneg (x - 1.366)]

theorem quartic_nonpos {x : ℝ} (h : x ≤ 0 ∨ 2 ≤ x) : 2 / 3 * x + x ^ 2 - x ^ 4 / 3 ≤ 0 := by
  have e : 2 / 3 * x + x ^ 2 - x ^ 4 / 3 = -(x * (x - 2)) * (x + 1) ^ 2 / 3 := by ring
  rw [e]
  have : 0 ≤ x * (x - 2) := by
    rcases h with h | h
    · nlinarith
    · nlinarith
  have h2 := sq_nonneg (x + 1)
  nlinarith [mul_nonneg this h2]

/-- The sum of deviations has sign `ε` and size at most 2r with probability more than 3/20, where r is √2 standard deviations. -/
theorem dev_window {n : ℕ} (hn : ValidLog n) {ε r : ℝ} (hε : ε = 1 ∨ ε = -1) (hr : r = if n = 9 then 360000000 else 509000000) (E : Point n → Prop) [DecidablePred E]
    (hE : ∀ v : Point n, 0 < ε * ∑ i, dev (v i) → ε * ∑ i, dev (v i) < 2 * r → E v) :
    (0.1505 : ℝ) ≤ (∑ v : Point n, if E v then (1 : ℝ) else 0) / 12289 ^ 2 ^ n := by
  have hr0 : 0 < r := by rw [hr]; split <;> norm_num
  have hε2 : ε ^ 2 = 1 := by rcases hε with rfl | rfl <;> norm_num
  have hε4 : ε ^ 4 = 1 := by rcases hε with rfl | rfl <;> norm_num
  have hQ : (0 : ℝ) < 12289 ^ 2 ^ n := pow_pos (by norm_num) _
  have h0 : (Fintype.card (Fin 12289) : ℝ) = 12289 := by rw [Fintype.card_fin]; norm_num
  have m1 := moment_1 dev h0 dev_1 (2 ^ n)
  have m2 := moment_2 dev h0 dev_1 dev_2 (2 ^ n)
  have m4 := moment_4 dev h0 dev_1 dev_2 rfl dev_4 (2 ^ n)
  obtain ⟨M2, hM2⟩ : ∃ M2, M2 = ∑ u : Fin (2 ^ n) → Fin 12289, (∑ i, dev (u i)) ^ 2 := ⟨_, rfl⟩
  obtain ⟨M4, hM4⟩ : ∃ M4, M4 = ∑ u : Fin (2 ^ n) → Fin 12289, (∑ i, dev (u i)) ^ 4 := ⟨_, rfl⟩
  rw [← hM2] at m2
  rw [← hM4] at m4
  have key : ∀ v : Point n, 8 / 13 * (2 / 3 * ε / r * ∑ i, dev (v i)) + (8 / 13 * (1 / r ^ 2 * (∑ i, dev (v i)) ^ 2) - 8 / 13 * (1 / (3 * r ^ 4) * (∑ i, dev (v i)) ^ 4)) ≤
      if E v then (1 : ℝ) else 0 := by
    intro v
    obtain ⟨y, hy⟩ : ∃ y, y = ∑ i, dev (v i) := ⟨_, rfl⟩
    have hEv := hE v
    rw [← hy] at hEv ⊢
    have e : 8 / 13 * (2 / 3 * ε / r * y) + (8 / 13 * (1 / r ^ 2 * y ^ 2) - 8 / 13 * (1 / (3 * r ^ 4) * y ^ 4)) =
        8 / 13 * (2 / 3 * (ε * y / r) + (ε * y / r) ^ 2 - (ε * y / r) ^ 4 / 3) := by
      rw [div_pow, div_pow, mul_pow, mul_pow, hε2, hε4]
      field_simp
      ring
    rw [e]
    split
    · linarith [quartic_le (ε * y / r)]
    · rename_i hne
      have : ε * y / r ≤ 0 ∨ 2 ≤ ε * y / r := by
        by_contra hx
        push Not at hx
        refine hne (hEv ?_ ?_)
        · by_contra h'
          exact absurd hx.1 (not_lt.mpr (div_nonpos_of_nonpos_of_nonneg (not_lt.mp h') hr0.le))
        · exact (div_lt_iff₀ hr0).mp hx.2
      linarith [quartic_nonpos this]
  rw [le_div_iff₀ hQ]
  refine le_trans ?_ (Finset.sum_le_sum fun v _ => key v)
  rw [Finset.sum_add_distrib, Finset.sum_sub_distrib, ← Finset.mul_sum, ← Finset.mul_sum, m1, ← Finset.mul_sum, ← Finset.mul_sum, ← Finset.mul_sum, ← Finset.mul_sum,
    ← hM2, ← hM4]
  have e2 : M2 = (2 ^ n : ℕ) * 1557078020078548992 / 12289 * 12289 ^ 2 ^ n := by
    rw [div_mul_eq_mul_div, eq_div_iff (by norm_num)]
    exact m2
  have e4 : M4 = ((2 ^ n : ℕ) * 422763809636848949173106591422464 * 12289 + 3 * (2 ^ n : ℕ) * ((2 ^ n : ℕ) - 1) * 1557078020078548992 ^ 2) / 12289 ^ 2 * 12289 ^ 2 ^ n := by
    rw [div_mul_eq_mul_div, eq_div_iff (by norm_num)]
    exact m4
  rw [e2, e4, hr]
  obtain ⟨Z, hZ⟩ : ∃ Z : ℝ, Z = 12289 ^ 2 ^ n := ⟨_, rfl⟩
  rw [← hZ] at hQ ⊢
  rcases hn with rfl | rfl
  · rw [if_pos rfl]
    norm_num
    nlinarith
  · rw [if_neg (by norm_num)]
    norm_num
    nlinarith

end Falcon
