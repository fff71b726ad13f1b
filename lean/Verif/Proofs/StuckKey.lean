import Verif.Proofs.Coset
import Verif.Proofs.ReduceNear
import Verif.Proofs.SparseEval

/-!
# A key for which the reduction never stops
-/

namespace Falcon

open Finset Polynomial

theorem sum_sparse {M : Type*} [AddCommMonoid M] {S : ℕ} (hS : 0 < S) (F : ℕ → M)
    (h : ∀ q, q < 4 → ∀ i, i < S → i ≠ 0 → F (q * S + i) = 0) :
    ∑ i ∈ range (4 * S), F i = F 0 + F S + F (2 * S) + F (3 * S) := by
  rw [show 4 * S = 0 * S + S + S + S + S by ring, sum_range_add, sum_range_add, sum_range_add, sum_range_add]
  have key : ∀ q, q < 4 → ∑ i ∈ range S, F (q * S + i) = F (q * S) := by
    intro q hq
    rw [sum_eq_single 0]
    · rw [Nat.add_zero]
    · intro i hi h0
      exact h q hq i (mem_range.mp hi) h0
    · intro h0
      exact absurd (mem_range.mpr hS) h0
  have e0 := key 0 (by norm_num)
  have e1 := key 1 (by norm_num)
  have e2 := key 2 (by norm_num)
  have e3 := key 3 (by norm_num)
  rw [show 0 * S + S = 1 * S by ring, show 1 * S + S = 2 * S by ring, show 2 * S + S = 3 * S by ring, e0, e1, e2, e3]
  simp

theorem Sparse.toPoly {K : Type} [CommRing K] {S : ℕ} (hS : 0 < S) {c : ℕ → K} {a : Mem K} (h : Sparse S c 0 a) :
    Falcon.toPoly (4 * S) a = C (c 0) + C (c 1) * X ^ S + C (c 2) * (X ^ S) ^ 2 + C (c 3) * (X ^ S) ^ 3 := by
  have e : ∀ q, q < 4 → a (q * S) = c q := fun q hq => by simpa using h q hq 0 hS
  unfold Falcon.toPoly
  rw [sum_sparse hS]
  · have e0 := e 0 (by norm_num)
    have e1 := e 1 (by norm_num)
    rw [zero_mul] at e0
    rw [one_mul] at e1
    rw [e0, e1, e 2 (by norm_num), e 3 (by norm_num)]
    rw [← pow_mul, ← pow_mul, pow_zero, mul_one, mul_comm S 2, mul_comm S 3]
  · intro q hq i hi h0
    rw [h q hq i hi, if_neg h0, C_0, zero_mul]

theorem Sparse.map {α β : Type} {S : ℕ} {c : ℕ → α} {z : α} {a : Mem α} (φ : α → β) (h : Sparse S c z a) :
    Sparse S (fun q => φ (c q)) (φ z) (fun i => φ (a i)) := by
  intro q hq i hi
  simp only [h q hq i hi, apply_ite φ]

theorem four_mul_pow (m : ℕ) : 2 ^ (m + 2) = 4 * 2 ^ m := by rw [pow_add]; ring

theorem Sparse.dft {m : ℕ} {c : ℕ → ℂ} {a : Mem ℂ} (h : Sparse (2 ^ m) c 0 a) (j : ℕ) :
    Falcon.dft (m + 2) a j = c 0 + c 1 * fftPoint (m + 2) j ^ 2 ^ m + c 2 * (fftPoint (m + 2) j ^ 2 ^ m) ^ 2
      + c 3 * (fftPoint (m + 2) j ^ 2 ^ m) ^ 3 := by
  rw [dft_poly, four_mul_pow, h.toPoly (by positivity)]
  simp

theorem Sparse.dftZ {m : ℕ} {c : ℕ → ℤ} {a : Mem ℤ} (h : Sparse (2 ^ m) c 0 a) (j : ℕ) :
    Falcon.dft (m + 2) (zC a) j = (c 0 : ℂ) + c 1 * fftPoint (m + 2) j ^ 2 ^ m + c 2 * (fftPoint (m + 2) j ^ 2 ^ m) ^ 2
      + c 3 * (fftPoint (m + 2) j ^ 2 ^ m) ^ 3 := by
  have := h.map (fun z : ℤ => (z : ℂ))
  rw [Int.cast_zero] at this
  exact this.dft j

/-- The point of order 8 and its conjugate. -/
theorem point8 {m : ℕ} (hm : m + 2 ≤ 10) (j : ℕ) (hj : j < 2 ^ (m + 2)) :
    (fftPoint (m + 2) j ^ 2 ^ m) ^ 4 = -1 ∧
      (starRingEnd ℂ) (fftPoint (m + 2) j ^ 2 ^ m) = -(fftPoint (m + 2) j ^ 2 ^ m) ^ 3 := by
  have h := fftPoint_pow hm j hj
  have hc := fftPoint_conj (m + 2) j
  have h4 : (fftPoint (m + 2) j ^ 2 ^ m) ^ 4 = -1 := by
    rw [← pow_mul, mul_comm (2 ^ m), ← four_mul_pow]; exact h
  refine ⟨h4, ?_⟩
  have h1 : fftPoint (m + 2) j ^ 2 ^ m * (starRingEnd ℂ) (fftPoint (m + 2) j ^ 2 ^ m) = 1 := by
    rw [map_pow, ← mul_pow, hc, one_pow]
  generalize fftPoint (m + 2) j ^ 2 ^ m = w at *
  linear_combination (-w ^ 3) * h1 + (starRingEnd ℂ w) * h4

/-- A polynomial in x^(N/4). -/
def sparseMem (m : ℕ) (c : ℕ → ℤ) : Mem ℤ := fun i => if i % 2 ^ m = 0 then c (i / 2 ^ m) else 0

theorem sparseMem_sparse (m : ℕ) (c : ℕ → ℤ) : Sparse (2 ^ m) c 0 (sparseMem m c) := Sparse.of_at fun _ _ => rfl

theorem sparse_ext {m : ℕ} {c : ℕ → ℤ} {a b : Mem ℤ} (ha : Sparse (2 ^ m) c 0 a) (hb : Sparse (2 ^ m) c 0 b) (i : ℕ)
    (hi : i < 2 ^ (m + 2)) : a i = b i := by
  rw [four_mul_pow] at hi
  rw [ha.at i hi, hb.at i hi]

theorem isNorm_sparse {c : ℕ → ℤ} {v : ℤ} (h : normZ 2 c = v) : ∀ {m : ℕ}, m + 2 ≤ 10 → ∀ {a : Mem ℤ},
    Sparse (2 ^ m) c 0 a → IsNorm (m + 2) a (v ^ 2 ^ m) := by
  have base : ∀ m, m + 2 ≤ 10 → IsNorm (m + 2) (sparseMem m c) (v ^ 2 ^ m) := by
    intro m
    induction m with
    | zero =>
      intro hm
      have e : sparseMem 0 c = c := by
        funext i
        simp [sparseMem, Nat.mod_one]
      rw [e, ← h, pow_zero, pow_one]
      exact isNorm_normZ hm c
    | succ m ih =>
      intro hm
      have := isNorm_even (k := m + 2) (by omega) (a := sparseMem (m + 1) c) (b := sparseMem m c) ?_ ?_ (ih (by omega))
      · rw [← pow_mul, ← pow_succ] at this
        exact this
      · intro i _
        unfold sparseMem
        rw [pow_succ', Nat.mul_mod_mul_left, Nat.mul_div_mul_left _ _ (by norm_num)]
        simp
      · intro i _
        unfold sparseMem
        rw [if_neg]
        intro h
        have h2 : 2 ∣ 2 * i + 1 := (pow_succ' 2 m ▸ Dvd.intro (2 ^ m) rfl : 2 ∣ 2 ^ (m + 1)).trans (Nat.dvd_of_mod_eq_zero h)
        omega
  intro m hm a ha
  have := base m hm
  unfold IsNorm at *
  rw [this]
  refine prod_congr rfl fun j _ => sum_congr rfl fun i hi => ?_
  simp only [zC]
  rw [sparse_ext (sparseMem_sparse m c) ha i (mem_range.mp hi)]

theorem sf4_norm : normZ 2 sf4 = 2602009 := by decide +kernel
theorem sg4_norm : normZ 2 sg4 = 37335697 := by decide +kernel

section
variable {m : ℕ} {f g F G : Mem ℤ} (hf : Sparse (2 ^ m) sf4 0 f) (hg : Sparse (2 ^ m) sg4 0 g)
  (hF : Sparse (2 ^ m) sF4 0 F) (hG : Sparse (2 ^ m) sG4 0 G)

include hf hg in
theorem stuck_gcd (hm : m + 2 ≤ 10) : ∃ u v : ℤ, IsNorm (m + 2) f u ∧ IsNorm (m + 2) g v ∧ Int.gcd u v = 1 := by
  refine ⟨_, _, isNorm_sparse sf4_norm hm hf, isNorm_sparse sg4_norm hm hg, ?_⟩
  rw [← Int.isCoprime_iff_gcd_eq_one]
  apply IsCoprime.pow
  rw [Int.isCoprime_iff_gcd_eq_one]
  decide +kernel

include hf hg hF hG in
theorem stuck_ntru : NtruEq (m + 2) f g F G := by
  have hS : 0 < 2 ^ m := by positivity
  unfold NtruEq polyZ
  rw [four_mul_pow, hf.toPoly hS, hg.toPoly hS, hF.toPoly hS, hG.toPoly hS, ModEqXN, mul_comm 4, pow_mul]
  generalize (X : ℤ[X]) ^ 2 ^ m = Y
  simp only [sf4, sg4, sF4, sG4, map_ofNat, map_neg]
  exact ⟨-12049 + 1270 * Y - 2405 * Y ^ 2, by ring⟩

include hf in
theorem stuck_inv : ∃ r : Zq[X], ModEqXN (2 ^ (m + 2)) (polyInt (2 ^ (m + 2)) f * r) 1 := by
  have hS : 0 < 2 ^ m := by positivity
  have hf' := hf.map (fun z : ℤ => (z : Zq))
  rw [Int.cast_zero] at hf'
  unfold polyInt ModEqXN
  rw [four_mul_pow, hf'.toPoly hS, mul_comm 4, pow_mul]
  generalize (X : Zq[X]) ^ 2 ^ m = Y
  have hq : (12289 : Zq[X]) = 0 := by
    have : (12289 : Zq) = 0 := by decide
    rw [← map_ofNat C, this, C_0]
  simp only [sf4, Int.cast_ofNat, Int.cast_neg, map_ofNat, map_neg]
  refine ⟨11885 + 8903 * Y + 6370 * Y ^ 2 + 10331 * Y ^ 3, 545732 + 304255 * Y - 92979 * Y ^ 2, ?_⟩
  linear_combination (-27 + 26 * Y + 79 * Y ^ 2 + 52 * Y ^ 3) * hq

include hf hg in
theorem stuck_prod (hm : m + 2 ≤ 10) (j : ℕ) (hj : j < 2 ^ (m + 2)) :
    dft (m + 2) (zC f) j * (starRingEnd ℂ) (dft (m + 2) (zC f) j)
      + dft (m + 2) (zC g) j * (starRingEnd ℂ) (dft (m + 2) (zC g) j) = 9834 := by
  obtain ⟨h4, hc⟩ := point8 hm j hj
  rw [hf.dftZ, hg.dftZ]
  generalize fftPoint (m + 2) j ^ 2 ^ m = w at *
  simp only [map_add, map_mul, map_pow, hc, map_intCast]
  simp only [sf4, sg4]
  push_cast
  linear_combination ((-8934) * w ^ 0 + (150) * w ^ 1 + (1422) * w ^ 2 + (-1920) * w ^ 3 + (6884) * w ^ 4 + (-756) * w ^ 5 + (-1190) * w ^ 6 + (2526) * w ^ 7 + (-4570) * w ^ 8) * h4

include hf hg in
theorem stuck_gram (hm : m + 2 ≤ 10) (j : ℕ) (hj : j < 2 ^ (m + 2)) : gramAt (m + 2) f g j = 9834 := by
  have := stuck_prod hf hg hm j hj
  rw [gram_mul] at this
  exact_mod_cast this

/-- The exact quotient. -/
noncomputable def sκ (m : ℕ) : Mem ℝ := fun i =>
  ((sparseMem m (fun q => match q with | 0 => -4917 | 1 => -3320 | 2 => 660 | 3 => -4130 | _ => 0) i : ℤ) : ℝ) / 9834

include hf hg hF hG in
theorem stuck_quo (hm : m + 2 ≤ 10) : IsQuo (m + 2) f g F G (sκ m) := by
  rw [isQuo_iff]
  refine modEq_of_evals hm fun j hj => ?_
  simp only [eval_mul, eval_add, ← dft_poly, dft_adj hm _ j hj]
  rw [stuck_prod hf hg hm j hj]
  obtain ⟨h4, hc⟩ := point8 hm j hj
  have hk := ((sparseMem_sparse m (fun q => match q with | 0 => -4917 | 1 => -3320 | 2 => 660 | 3 => -4130 | _ => 0)).map
    (fun z : ℤ => (((z : ℝ) / 9834 : ℝ) : ℂ)))
  rw [show ((((0 : ℤ) : ℝ) / 9834 : ℝ) : ℂ) = 0 by simp] at hk
  have hk' := hk.dft j
  rw [show Falcon.dft (m + 2) (fun i => ((sκ m i : ℝ) : ℂ)) j = _ from hk']
  rw [hf.dftZ, hg.dftZ, hF.dftZ, hG.dftZ]
  generalize fftPoint (m + 2) j ^ 2 ^ m = w at *
  simp only [map_add, map_mul, map_pow, hc, map_intCast]
  simp only [sf4, sg4, sF4, sG4]
  push_cast
  linear_combination -((3837) * w ^ 0 + (2420) * w ^ 1 + (-2412) * w ^ 2 + (3020) * w ^ 3 + (588) * w ^ 4 + (-4549) * w ^ 5 + (1365) * w ^ 6 + (-5221) * w ^ 7 + (-2915) * w ^ 8) * h4

include hf hg in
theorem stuck_range (hm : m = 7 ∨ m = 8) : (∀ i, i < 2 ^ (m + 2) → |f i| ≤ 19 * (4096 / 2 ^ (m + 2))) ∧
    ∀ i, i < 2 ^ (m + 2) → |g i| ≤ 19 * (4096 / 2 ^ (m + 2)) := by
  have key : ∀ {a : Mem ℤ} {c : ℕ → ℤ}, Sparse (2 ^ m) c 0 a → (∀ q, q < 4 → |c q| ≤ 76) →
      ∀ i, i < 2 ^ (m + 2) → |a i| ≤ 76 := by
    intro a c ha hc i hi
    rw [four_mul_pow] at hi
    rw [ha.at i hi]
    split
    · exact hc _ (Nat.div_lt_of_lt_mul (by rw [mul_comm]; exact hi))
    · norm_num
  have h1 := key hf (by intro q hq; interval_cases q <;> decide)
  have h2 := key hg (by intro q hq; interval_cases q <;> decide)
  constructor
  · intro i hi
    refine (h1 i hi).trans ?_
    rcases hm with rfl | rfl <;> norm_num
  · intro i hi
    refine (h2 i hi).trans ?_
    rcases hm with rfl | rfl <;> norm_num

end

theorem sκ_zero (m : ℕ) : sκ m 0 = -1 / 2 := by
  norm_num [sκ, sparseMem]

theorem sκ_small (m : ℕ) (i : ℕ) (h0 : i ≠ 0) : |sκ m i| ≤ 42 / 100 := by
  unfold sκ sparseMem
  split
  · rename_i h
    have hq : i / 2 ^ m ≠ 0 := by
      intro h'
      have := Nat.div_add_mod i (2 ^ m)
      rw [h, h'] at this
      omega
    generalize i / 2 ^ m = q at *
    match q with
    | 0 => exact absurd rfl hq
    | 1 => norm_num [abs_le]
    | 2 => norm_num [abs_le]
    | 3 => norm_num [abs_le]
    | q + 4 =>
      show |((0 : ℤ) : ℝ) / 9834| ≤ _
      norm_num
  · norm_num

/-- In binary64 the solver never returns a solution for this key. -/
theorem stuck_ieee (b : Bool) {m : ℕ} (hm : m = 7 ∨ m = 8) {f g : Mem ℤ} (hf : Sparse (2 ^ m) sf4 0 f)
    (hg : Sparse (2 ^ m) sg4 0 g) (fuel : ℕ) (r : Mem ℤ × Mem ℤ) :
    ntruSolve (redQuot (ieeeA b)) fuel (m + 2) f g ≠ some (.ok (some r)) := by
  intro h
  have hn : ValidLog (m + 2) := by rcases hm with rfl | rfl <;> [left; right] <;> rfl
  have hm10 : m + 2 ≤ 10 := by rcases hm with rfl | rfl <;> norm_num
  have hS : 0 < 2 ^ m := by positivity
  obtain ⟨F', G'⟩ := r
  obtain ⟨rf, rg⟩ := stuck_range hf hg hm
  have hgr := stuck_gram hf hg hm10
  have hD : ∀ j, j < 2 ^ (m + 2) → 1 ≤ gramAt (m + 2) f g j := fun j hj => by rw [hgr j hj]; norm_num
  have hDu : ∀ j, j < 2 ^ (m + 2) → gramAt (m + 2) f g j ≤ 2 ^ 14 := fun j hj => by rw [hgr j hj]; norm_num
  obtain ⟨heq', hsm, kr, hq, hkr⟩ := solver_exit (accurate_ieee b) hn rf rg hD h
  have hF := sparseMem_sparse m sF4
  have hG := sparseMem_sparse m sG4
  obtain ⟨c, hc⟩ := solutions_coset hm10 (stuck_inv hf) (stuck_ntru hf hg hF hG) heq'
  have hκ := quo_coset hm10 (stuck_quo hf hg hF hG hm10) hc
  have hdet : ∀ j, j < 2 ^ (m + 2) → dft (m + 2) (zC f) j * dft (m + 2) (zC G') j
      - dft (m + 2) (zC g) j * dft (m + 2) (zC F') j = 12289 := by
    intro j hj
    have e := evC_modEq hm10 hj heq'
    have q : evC (m + 2) j 12289 = 12289 := by simp [evC]
    rw [evC_sub, evC_mul, evC_mul, evC_poly, evC_poly, evC_poly, evC_poly, q] at e
    exact e
  have hnear := reduced_near (accurate_ieee b) hn rf rg
    (fun i hi => (hsm i hi).1.trans (by norm_num)) (fun i hi => (hsm i hi).2.trans (by norm_num)) hD hDu hq hkr hdet hκ
  have hc0 : ∀ i, i < 2 ^ (m + 2) → i ≠ 0 → c i = 0 := by
    intro i hi h0
    have h1 := abs_le.mp (hnear i hi)
    have h2 := abs_le.mp (sκ_small m i h0)
    have h3 : (-1 : ℝ) < (c i : ℝ) := by linarith [h1.1, h2.2]
    have h4 : (c i : ℝ) < 1 := by linarith [h1.2, h2.1]
    have h3 : -1 < c i := by exact_mod_cast h3
    have h4 : c i < 1 := by exact_mod_cast h4
    omega
  have hz : c 0 = 0 ∨ c 0 = 1 := by
    have h1 := abs_le.mp (hnear 0 (by positivity))
    rw [sκ_zero] at h1
    have h3 : (-1 : ℝ) < (c 0 : ℝ) := by linarith [h1.1]
    have h4 : (c 0 : ℝ) < 2 := by linarith [h1.2]
    have h3 : -1 < c 0 := by exact_mod_cast h3
    have h4 : c 0 < 2 := by exact_mod_cast h4
    omega
  have hcd : ∀ j, dft (m + 2) (zC c) j = (c 0 : ℂ) := by
    intro j
    unfold dft
    rw [sum_eq_single 0]
    · simp [zC]
    · intro i hi h0
      simp only [zC]
      rw [hc0 i (mem_range.mp hi) h0, Int.cast_zero, zero_mul]
    · intro h0
      exact absurd (mem_range.mpr (by positivity)) h0
  have shift : ∀ {a A A' : Mem ℤ}, (∀ j, j < 2 ^ (m + 2) → dft (m + 2) (zC A') j
      = dft (m + 2) (zC A) j + dft (m + 2) (zC c) j * dft (m + 2) (zC a) j) → ∀ i, i < 2 ^ (m + 2) → A' i = A i + c 0 * a i := by
    intro a A A' hA i hi
    have e := dft_inj hm10 (a := zC A') (b := zC (fun i => A i + c 0 * a i)) (fun j hj => by
      rw [hA j hj, hcd]
      unfold dft
      rw [mul_sum, ← sum_add_distrib]
      refine sum_congr rfl fun i _ => ?_
      simp only [zC]
      push_cast
      ring) i hi
    simp only [zC] at e
    exact_mod_cast e
  have shiftS : ∀ {a A A' : Mem ℤ} {a4 A4 : ℕ → ℤ}, Sparse (2 ^ m) a4 0 a → Sparse (2 ^ m) A4 0 A →
      (∀ i, i < 2 ^ (m + 2) → A' i = A i + c 0 * a i) → Sparse (2 ^ m) (fun i => A4 i + c 0 * a4 i) 0 A' := by
    intro a A A' a4 A4 h1 h2 h3 q hq i hi
    have hle : q * 2 ^ m ≤ 3 * 2 ^ m := Nat.mul_le_mul_right _ (by omega)
    have := four_mul_pow m
    rw [h3 _ (by omega), h1 q hq i hi, h2 q hq i hi]
    split <;> simp
  have sF := shiftS hf hF (shift fun j hj => (hc j hj).1)
  have sG := shiftS hg hG (shift fun j hj => (hc j hj).2)
  have e := ieee_quo b hf hg sF sG hq 0 (by norm_num)
  rw [hkr _ (by rw [zero_mul]; positivity)] at e
  have h0 : stdRound (quo4 (ieeeA b) m sf4 sg4 (fun i => sF4 i + c 0 * sf4 i) (fun i => sG4 i + c 0 * sg4 i) 0).re = 0 := by
    unfold exactRoundTo at e
    split at e
    · exact Except.ok.inj e
    · cases e
  obtain ⟨l, u⟩ := stdRound_zero_strict h0
  rw [qC_quo4] at l u
  obtain ⟨e1, e2⟩ := stuck_eval b hm
  rcases hz with hz | hz
  · simp only [hz, zero_mul, add_zero] at l u
    have : ((quo4 (qA b) m sf4 sg4 sF4 sG4 0).1 : ℝ) ≤ ((-(1 / 2) : ℚ) : ℝ) := by exact_mod_cast e1
    push_cast at this
    exact absurd l (not_lt.mpr this)
  · simp only [hz, one_mul] at l u
    have : ((1 / 2 : ℚ) : ℝ) ≤ ((quo4 (qA b) m sf4 sg4 (fun i => sF4 i + sf4 i) (fun i => sG4 i + sg4 i) 0).1 : ℝ) := by
      exact_mod_cast e2
    push_cast at this
    exact absurd u (not_lt.mpr this)

end Falcon
