import Verif.Props.OneShotFloat
import Verif.SmallSpec

/-!
# A key that meets every requirement of signing

With y = x^64 the polynomials f, g below are (30 + y^4) s and (29 + 2 y^4) s*, where s = y + y^2 + y^3 - y^4 - y^5 + y^6 - y^7
has s s* = 7. So |f^|^2 = 6307 and |g^|^2 = 5915 at every point.
-/

namespace Falcon

open Finset Polynomial

/-- The polynomial with coefficients `l` in x^64. -/
def octMem (l : List ℤ) : Mem Int := fun i => if i % 64 = 0 then l.getD (i / 64) 0 else 0

def flatf : Mem Int := octMem [1, 31, 29, 31, -30, -29, 31, -29]
def flatg : Mem Int := octMem [-2, 31, -27, 31, 29, -27, -31, -27]
def flatF : Mem Int := octMem [26, -30, 9, -30, 27, 22, -59, 22]
def flatG : Mem Int := octMem [44, 19, -18, 19, 36, -49, -46, -49]

theorem sum_oct {M : Type*} [AddCommMonoid M] (h : ℕ → M) (m : ℕ) :
    ∑ i ∈ range (m * 64), (if i % 64 = 0 then h (i / 64) else 0) = ∑ t ∈ range m, h t := by
  induction m with
  | zero => simp
  | succ m ih =>
    rw [add_mul, one_mul, sum_range_add, ih, sum_range_succ h m]
    congr 1
    rw [sum_eq_single 0]
    · rw [if_pos (by omega)]; congr 1; omega
    · intro b hb hb0
      rw [if_neg (by have := mem_range.mp hb; omega)]
    · intro h; simp at h

theorem polyZ_oct (l : List ℤ) : polyZ (2 ^ 9) (octMem l) = ∑ t ∈ range 8, C (l.getD t 0) * (X ^ 64) ^ t := by
  rw [← sum_oct, show 8 * 64 = 2 ^ 9 by norm_num]
  unfold polyZ toPoly
  refine sum_congr rfl fun i _ => ?_
  unfold octMem
  split
  · rw [← pow_mul, show 64 * (i / 64) = i by omega]
  · simp

theorem dft_oct (l : List ℤ) (j : ℕ) : dft 9 (zC (octMem l)) j = ∑ t ∈ range 8, ((l.getD t 0 : ℤ) : ℂ) * (fftPoint 9 j ^ 64) ^ t := by
  have h : ((polyZ (2 ^ 9) (octMem l)).map (Int.castRingHom ℂ)).eval (fftPoint 9 j) = dft 9 (zC (octMem l)) j := by
    rw [dft_poly]
    unfold polyZ toPoly zC
    simp [Polynomial.map_sum, eval_finsetSum]
  rw [← h, polyZ_oct]
  simp [Polynomial.map_sum, eval_finsetSum]

theorem flatKey_eq : NtruEq 9 flatf flatg flatF flatG := by
  unfold NtruEq ModEqXN flatf flatg flatF flatG
  simp only [polyZ_oct]
  refine ⟨C (-12193) * (X ^ 64) ^ 0 + C (517) * (X ^ 64) ^ 1 + C (3497) * (X ^ 64) ^ 2 + C (-579) * (X ^ 64) ^ 3 + C (775) * (X ^ 64) ^ 4 + C (-1096) * (X ^ 64) ^ 5 + C (2015) * (X ^ 64) ^ 6, ?_⟩
  rw [show (2 : ℕ) ^ 9 = 64 * 8 by norm_num, pow_mul]
  generalize (X : ℤ[X]) ^ 64 = y
  simp only [sum_range_succ, sum_range_zero, List.getD_cons_zero, List.getD_cons_succ, map_neg, map_ofNat, map_one]
  ring

theorem flatKey_fits : FitsFormat 9 flatf flatg flatF flatG := by
  intro i _
  rw [if_pos rfl]
  have h : ∀ (l : List ℤ) (b : ℤ), 0 ≤ b → (∀ x ∈ l, |x| ≤ b) → |octMem l i| ≤ b := by
    intro l b hb hl
    unfold octMem
    split
    · rw [List.getD_eq_getElem?_getD]
      cases h : l[i / 64]? with
      | none => simpa using hb
      | some x => exact hl x (List.mem_of_getElem? h)
    · simpa using hb
  refine ⟨h _ _ (by norm_num) ?_, h _ _ (by norm_num) ?_, h _ _ (by norm_num) ?_, h _ _ (by norm_num) ?_⟩ <;> decide

theorem oct_point (j : ℕ) (hj : j < 2 ^ 9) : ∃ z : ℂ, fftPoint 9 j ^ 64 = z ∧ z ^ 8 = -1 ∧ (starRingEnd ℂ) z = -z ^ 7 := by
  refine ⟨_, rfl, ?_, ?_⟩
  · rw [← pow_mul]; exact fftPoint_pow (n := 9) (by norm_num) j hj
  · have h1 : (fftPoint 9 j ^ 64) ^ 8 = -1 := by rw [← pow_mul]; exact fftPoint_pow (n := 9) (by norm_num) j hj
    have h2 : ‖fftPoint 9 j ^ 64‖ = 1 := by rw [norm_pow, fftPoint_norm, one_pow]
    generalize fftPoint 9 j ^ 64 = z at *
    have h3 : z * (starRingEnd ℂ) z = 1 := by
      rw [Complex.mul_conj, Complex.normSq_eq_norm_sq, h2]; norm_num
    linear_combination (-z ^ 7) * h3 + (starRingEnd ℂ) z * h1

set_option maxHeartbeats 1000000 in
theorem flatf_norm (j : ℕ) (hj : j < 2 ^ 9) : Complex.normSq (dft 9 (zC flatf) j) = 6307 := by
  have h : ((Complex.normSq (dft 9 (zC flatf) j) : ℝ) : ℂ) = 6307 := by
    rw [← Complex.mul_conj]
    unfold flatf
    rw [dft_oct]
    obtain ⟨z, e, h8, hc⟩ := oct_point j hj
    rw [e]
    simp only [sum_range_succ, sum_range_zero, List.getD_cons_zero, List.getD_cons_succ, map_add, map_mul, map_pow, hc, map_zero]
    simp only [Int.cast_neg, Int.cast_ofNat, Int.cast_one, map_neg, map_ofNat, map_one]
    linear_combination ((-6306) + (31) * z ^ 1 + (29) * z ^ 2 + (31) * z ^ 3 + (-30) * z ^ 4 + (-29) * z ^ 5 + (31) * z ^ 6 + (-60) * z ^ 7 + (5345) * z ^ 8 + (-930) * z ^ 9 + (-990) * z ^ 10 + (899) * z ^ 11 + (929) * z ^ 12 + (-932) * z ^ 13 + (897) * z ^ 14 + (959) * z ^ 15 + (-4504) * z ^ 16 + (1829) * z ^ 17 + (120) * z ^ 18 + (-1740) * z ^ 19 + (-30) * z ^ 20 + (60) * z ^ 21 + (-1858) * z ^ 22 + (-1858) * z ^ 23 + (3543) * z ^ 24 + (-899) * z ^ 25 + (779) * z ^ 26 + (779) * z ^ 27 + (899) * z ^ 28 + (-990) * z ^ 29 + (988) * z ^ 30 + (928) * z ^ 31 + (-2643) * z ^ 32 + (1769) * z ^ 33 + (-1709) * z ^ 34 + (120) * z ^ 35 + (1831) * z ^ 37 + (-89) * z ^ 38 + (-1798) * z ^ 39 + (1802) * z ^ 40 + (-870) * z ^ 41 + (899) * z ^ 42 + (841) * z ^ 43 + (899) * z ^ 44 + (-870) * z ^ 45 + (-841) * z ^ 46 + (899) * z ^ 47 + (-841) * z ^ 48) * h8
  exact_mod_cast h

set_option maxHeartbeats 1000000 in
theorem flatg_norm (j : ℕ) (hj : j < 2 ^ 9) : Complex.normSq (dft 9 (zC flatg) j) = 5915 := by
  have h : ((Complex.normSq (dft 9 (zC flatg) j) : ℝ) : ℂ) = 5915 := by
    rw [← Complex.mul_conj]
    unfold flatg
    rw [dft_oct]
    obtain ⟨z, e, h8, hc⟩ := oct_point j hj
    rw [e]
    simp only [sum_range_succ, sum_range_zero, List.getD_cons_zero, List.getD_cons_succ, map_add, map_mul, map_pow, hc, map_zero]
    simp only [Int.cast_neg, Int.cast_ofNat, map_neg, map_ofNat]
    linear_combination ((-5911) + (-62) * z ^ 1 + (54) * z ^ 2 + (-62) * z ^ 3 + (-58) * z ^ 4 + (54) * z ^ 5 + (62) * z ^ 6 + (116) * z ^ 7 + (4950) * z ^ 8 + (899) * z ^ 9 + (-1015) * z ^ 10 + (-837) * z ^ 11 + (895) * z ^ 12 + (907) * z ^ 13 + (829) * z ^ 14 + (-953) * z ^ 15 + (-4221) * z ^ 16 + (-1736) * z ^ 17 + (232) * z ^ 18 + (1566) * z ^ 19 + (-58) * z ^ 20 + (-116) * z ^ 21 + (-1790) * z ^ 22 + (1790) * z ^ 23 + (3260) * z ^ 24 + (837) * z ^ 25 + (605) * z ^ 26 + (-605) * z ^ 27 + (837) * z ^ 28 + (1015) * z ^ 29 + (1007) * z ^ 30 + (-891) * z ^ 31 + (-2419) * z ^ 32 + (-1620) * z ^ 33 + (-1504) * z ^ 34 + (-232) * z ^ 35 + (-1744) * z ^ 37 + (-170) * z ^ 38 + (1674) * z ^ 39 + (1690) * z ^ 40 + (783) * z ^ 41 + (837) * z ^ 42 + (-729) * z ^ 43 + (837) * z ^ 44 + (783) * z ^ 45 + (-729) * z ^ 46 + (-837) * z ^ 47 + (-729) * z ^ 48) * h8
  exact_mod_cast h

theorem flatKey_gram (j : ℕ) (hj : j < 2 ^ 9) : gramAt 9 flatf flatg j = 12222 := by
  show Complex.normSq _ + Complex.normSq _ = _
  rw [flatf_norm j hj, flatg_norm j hj]
  norm_num

theorem flatKey_point (j : ℕ) (hj : j < 2 ^ 9) : 1 / 2 ^ 10 ≤ ‖dft 9 (zC flatf) j‖ := by
  have h := flatf_norm j hj
  rw [Complex.normSq_eq_norm_sq] at h
  have h0 := norm_nonneg (dft 9 (zC flatf) j)
  norm_num
  nlinarith

theorem flatKey_gs : GsSmall 9 flatf flatg := by
  constructor
  · have h : ∀ i, (flatf i : ℝ) ^ 2 + (flatg i : ℝ) ^ 2 = if i % 64 = 0 then
        ((([1, 31, 29, 31, -30, -29, 31, -29] : List ℤ).getD (i / 64) 0 : ℤ) : ℝ) ^ 2 + ((([-2, 31, -27, 31, 29, -27, -31, -27] : List ℤ).getD (i / 64) 0 : ℤ) : ℝ) ^ 2 else 0 := by
      intro i
      unfold flatf flatg octMem
      split <;> simp
    rw [sum_congr rfl fun i _ => h i, show 2 ^ 9 = 8 * 64 by norm_num,
      sum_oct (fun t => ((([1, 31, 29, 31, -30, -29, 31, -29] : List ℤ).getD t 0 : ℤ) : ℝ) ^ 2 + ((([-2, 31, -27, 31, 29, -27, -31, -27] : List ℤ).getD t 0 : ℤ) : ℝ) ^ 2)]
    simp only [sum_range_succ, sum_range_zero, List.getD_cons_zero, List.getD_cons_succ]
    norm_num
  · rw [sum_congr rfl fun j hj => by rw [flatKey_gram j (mem_range.mp hj)], sum_const, card_range]
    norm_num

end Falcon
