import Verif.Model.Tests
import Verif.Proofs.RecomputeFloat
import Verif.Proofs.ReduceBound

/-!
# The check of the NTRU equation in the tests
-/

namespace Falcon

open Finset Polynomial

/-- One product of the check. -/
theorem check_prod {A : Arith ℝ ℂ} (hA : Accurate A) {Y y Z z : ℂ} {a b : ℝ} (ha : 0 ≤ a) (hb : 0 ≤ b) (hab : a * b ≤ 2 ^ 24)
    (ha2 : a ≤ 2 ^ 10) (hb2 : b ≤ 2 ^ 17) (hy : ‖y‖ ≤ 32 * a) (hz : ‖z‖ ≤ 32 * b) (hY : ‖Y - y‖ ≤ 1 / 2 ^ 46 * (32 * (a + 1)))
    (hZ : ‖Z - z‖ ≤ 1 / 2 ^ 46 * (32 * (b + 1))) : ‖A.cmul Y Z - y * z‖ ≤ 1 / 1000 := by
  have e : Y * Z - y * z = (Y - y) * (Z - z) + ((Y - y) * z + y * (Z - z)) := by ring
  have h1 : ‖(Y - y) * (Z - z)‖ ≤ (1 / 2 ^ 46 * (32 * (a + 1))) * (1 / 2 ^ 46 * (32 * (b + 1))) := by
    rw [norm_mul]; gcongr
  have h2 : ‖(Y - y) * z‖ ≤ (1 / 2 ^ 46 * (32 * (a + 1))) * (32 * b) := by
    rw [norm_mul]; gcongr
  have h3 : ‖y * (Z - z)‖ ≤ (32 * a) * (1 / 2 ^ 46 * (32 * (b + 1))) := by
    rw [norm_mul]; gcongr
  have h4 : ‖Y * Z - y * z‖ ≤ 1 / 1500 := by
    rw [e]
    refine (norm_add_le _ _).trans ((add_le_add h1 ((norm_add_le _ _).trans (add_le_add h2 h3))).trans ?_)
    have e2 : 1 / 2 ^ 46 * (32 * (a + 1)) * (1 / 2 ^ 46 * (32 * (b + 1))) + (1 / 2 ^ 46 * (32 * (a + 1)) * (32 * b)
        + 32 * a * (1 / 2 ^ 46 * (32 * (b + 1)))) = (1024 / 2 ^ 92) * (a * b + a + b + 1) + (1024 / 2 ^ 46) * (2 * (a * b) + a + b) := by
      ring
    rw [e2]
    generalize a * b = ab at *
    norm_num at *
    linarith
  have h5 : ‖Y * Z‖ ≤ 2 ^ 35 := by
    have e3 : Y * Z = (Y * Z - y * z) + y * z := by ring
    rw [e3]
    refine (norm_add_le _ _).trans ?_
    have : ‖y * z‖ ≤ 32 * a * (32 * b) := by rw [norm_mul]; gcongr
    have e4 : 32 * a * (32 * b) = 1024 * (a * b) := by ring
    rw [e4] at this
    generalize a * b = ab at *
    norm_num at *
    linarith
  have h6 := hA.cmul Y Z
  rw [← norm_mul, show uD = 1 / 2 ^ 53 from rfl, show tinyD = 1 / 2 ^ 100 from rfl] at h6
  have e5 : A.cmul Y Z - y * z = (A.cmul Y Z - Y * Z) + (Y * Z - y * z) := by ring
  rw [e5]
  refine (norm_add_le _ _).trans ?_
  norm_num at *
  linarith

/-- A flag that is combined with a condition in each round. -/
theorem loopE_flag {N : ℕ} {e : ℕ → Except UB ℤ} {x : ℕ → ℤ} (p : ℕ → ℤ → Bool) (h : ∀ i, i < N → e i = .ok (x i)) :
    ∃ b, loopE N (fun i flg => (e i).bind fun v => .ok (flg && p i v)) true = .ok b ∧ (b = true ↔ ∀ i, i < N → p i (x i) = true) := by
  induction N with
  | zero => exact ⟨true, rfl, by simp⟩
  | succ N ih =>
    obtain ⟨b, h1, h2⟩ := ih fun i hi => h i (by omega)
    refine ⟨b && p N (x N), ?_, ?_⟩
    · unfold loopE
      rw [h1]
      show (e N).bind _ = _
      rw [h N (by omega)]
      rfl
    · rw [Bool.and_eq_true, h2]
      constructor
      · rintro ⟨h3, h4⟩ i hi
        rcases Nat.lt_succ_iff_lt_or_eq.mp hi with hi | rfl
        · exact h3 i hi
        · exact h4
      · exact fun h3 => ⟨fun i hi => h3 i (by omega), h3 N (by omega)⟩

/-- The coefficients of f G - g F. -/
theorem det_coeffs {n : ℕ} (hn : n ≤ 10) (f g F G : Mem ℤ) : ∃ x : Mem ℤ,
    (∀ j, j < 2 ^ n → dft n (zC x) j = dft n (zC f) j * dft n (zC G) j - dft n (zC g) j * dft n (zC F) j) ∧
    (NtruEq n f g F G ↔ ∀ i, i < 2 ^ n → x i = if i = 0 then 12289 else 0) := by
  obtain ⟨x, hx⟩ := exists_arr n (polyZ (2 ^ n) f * polyZ (2 ^ n) G - polyZ (2 ^ n) g * polyZ (2 ^ n) F)
  have hd : ∀ j, j < 2 ^ n → dft n (zC x) j = dft n (zC f) j * dft n (zC G) j - dft n (zC g) j * dft n (zC F) j := by
    intro j hj
    have := evC_modEq hn hj hx
    simpa only [evC_sub, evC_mul, evC_poly] using this
  refine ⟨x, hd, fun h => ?_, fun h => ?_⟩
  · intro i hi
    have := dft_inj hn (a := zC x) (b := zC fun i => if i = 0 then 12289 else 0) (fun j hj => ?_) i hi
    · unfold zC at this
      exact_mod_cast this
    · rw [hd j hj, ntru_pt hn h j hj]
      unfold dft
      rw [sum_eq_single_of_mem 0 (mem_range.mpr (by positivity)) fun i hi h0 => by simp [zC, h0]]
      simp [zC]
  · have e : polyZ (2 ^ n) x = 12289 := by
      unfold polyZ toPoly
      rw [sum_congr rfl fun i hi => by rw [h i (mem_range.mp hi)],
        sum_eq_single_of_mem 0 (mem_range.mpr (by positivity)) fun i hi h0 => by simp [h0]]
      simp
    obtain ⟨c, hc⟩ := hx
    rw [e] at hc
    exact ⟨-c, by linear_combination -hc⟩

section
variable {A : Arith ℝ ℂ} (hA : Accurate A)
include hA

/-- The check computes the coefficients of f G - g F exactly. -/
theorem checkNtruEq_decides {n : ℕ} (hn : ValidLog n) {f g F G : Mem Int} {a b : ℝ} (ha : 0 ≤ a) (hb : 0 ≤ b)
    (hab : a * b ≤ 2 ^ 24) (ha2 : a ≤ 2 ^ 10) (hb2 : b ≤ 2 ^ 17)
    (hf : nC (2 ^ n) (zC f) ≤ a) (hg : nC (2 ^ n) (zC g) ≤ a) (hF : nC (2 ^ n) (zC F) ≤ b) (hG : nC (2 ^ n) (zC G) ≤ b) :
    ∃ r, checkNtruEq A n f g F G = .ok r ∧ (r = true ↔ NtruEq n f g F G) := by
  have hn10 : n ≤ 10 := by rcases hn with rfl | rfl <;> norm_num
  obtain ⟨hs1, hs2⟩ := sqrt2_bounds hn
  have hs0 : 0 ≤ Real.sqrt 2 ^ n := by linarith
  have hsN := sqrt2_sq n
  have hsq := sqrt_pow2 n
  have small : ∀ {p : Mem ℤ} {c : ℝ}, nC (2 ^ n) (zC p) ≤ c → c ≤ 2 ^ 17 → ∀ i, i < 2 ^ n → |p i| ≤ 2 ^ 53 := by
    intro p c hp hc i hi
    have h1 := (nC_ge (a := zC p) hi).trans (hp.trans hc)
    unfold zC at h1
    rw [Complex.norm_intCast] at h1
    have : |p i| ≤ 2 ^ 17 := by exact_mod_cast h1
    exact this.trans (by norm_num)
  have near : ∀ {p : Mem ℤ} {c : ℝ}, 0 ≤ c → nC (2 ^ n) (zC p) ≤ c → c ≤ 2 ^ 17 → ∀ j, j < 2 ^ n →
      ‖dft n (zC p) j‖ ≤ 32 * c ∧
      ‖fft A n (loop (1 <<< n) (fun i m => upd m i (A.ofInt (p i))) (junkC A)) j - dft n (zC p) j‖ ≤ 1 / 2 ^ 46 * (32 * (c + 1)) := by
    intro p c hc0 hp hc j hj
    constructor
    · have h1 := nC_ge (a := dft n (zC p)) hj
      rw [nC_dft hn10] at h1
      refine h1.trans ?_
      have := nC_nonneg (2 ^ n) (zC p)
      gcongr
    · have h1 := nC_ge (a := fun i => fft A n (toCx A n p) i - dft n (zC p) i) hj
      have h2 := fft_near hA hn10 (zC p) (toCx A n p) (toCx_at hA (small hp hc))
      refine (h1.trans h2).trans ?_
      rw [show kapD = 1 / 2 ^ 46 from rfl]
      have := nC_nonneg (2 ^ n) (zC p)
      gcongr
  have ha3 : a ≤ 2 ^ 17 := ha2.trans (by norm_num)
  obtain ⟨x, hx, hiff⟩ := det_coeffs hn10 f g F G
  -- the size of the coefficients
  have hxn : nC (2 ^ n) (zC x) ≤ 2 ^ 30 := by
    have key : nC (2 ^ n) (dft n (zC x)) ≤ (32 * a) * nC (2 ^ n) (dft n (zC G)) + (32 * a) * nC (2 ^ n) (dft n (zC F))
        + Real.sqrt (2 ^ n : ℕ) * 0 := by
      refine nC_maj2 (by positivity) (by positivity) le_rfl fun j hj => ?_
      rw [hx j hj, add_zero]
      refine (norm_sub_le _ _).trans ?_
      rw [norm_mul, norm_mul]
      have h1 := (near ha hf ha3 j hj).1
      have h2 := (near ha hg ha3 j hj).1
      gcongr
    rw [nC_dft hn10, nC_dft hn10, nC_dft hn10, mul_zero, add_zero] at key
    have k2 : Real.sqrt 2 ^ n * nC (2 ^ n) (zC x) ≤ Real.sqrt 2 ^ n * (64 * (a * b)) := by
      refine key.trans ?_
      have : 32 * a * (Real.sqrt 2 ^ n * nC (2 ^ n) (zC G)) + 32 * a * (Real.sqrt 2 ^ n * nC (2 ^ n) (zC F))
          ≤ 32 * a * (Real.sqrt 2 ^ n * b) + 32 * a * (Real.sqrt 2 ^ n * b) := by gcongr
      refine this.trans (le_of_eq ?_)
      ring
    have k3 := le_of_mul_le_mul_left k2 (by linarith)
    refine k3.trans ?_
    norm_num at hab ⊢
    linarith
  have hxi : ∀ i, i < 2 ^ n → |x i| ≤ 2 ^ 30 := by
    intro i hi
    have h1 := (nC_ge (a := zC x) hi).trans hxn
    unfold zC at h1
    rw [Complex.norm_intCast] at h1
    exact_mod_cast h1
  -- the transform of the difference
  set D := polySubC A n (polyMulC A n
      (fft A n (loop (1 <<< n) (fun i m => upd m i (A.ofInt (f i))) (junkC A)))
      (fft A n (loop (1 <<< n) (fun i m => upd m i (A.ofInt (G i))) (junkC A))) (junkC A))
    (polyMulC A n (fft A n (loop (1 <<< n) (fun i m => upd m i (A.ofInt (g i))) (junkC A)))
      (fft A n (loop (1 <<< n) (fun i m => upd m i (A.ofInt (F i))) (junkC A))) (junkC A)) (junkC A) with hD
  have hpoint : ∀ j, j < 2 ^ n → ‖D j - dft n (zC x) j‖ ≤ 1 / 100 := by
    intro j hj
    rw [hD, polySubC_at, if_pos hj, polyMulC_at, if_pos hj, polyMulC_at, if_pos hj, hx j hj]
    obtain ⟨f1, f2⟩ := near ha hf ha3 j hj
    obtain ⟨g1, g2⟩ := near ha hg ha3 j hj
    obtain ⟨F1, F2⟩ := near hb hF hb2 j hj
    obtain ⟨G1, G2⟩ := near hb hG hb2 j hj
    have p1 := check_prod hA ha hb hab ha2 hb2 f1 G1 f2 G2
    have p2 := check_prod hA ha hb hab ha2 hb2 g1 F1 g2 F2
    have n1 : ‖dft n (zC f) j * dft n (zC G) j‖ ≤ 2 ^ 34 := by
      rw [norm_mul]
      have : ‖dft n (zC f) j‖ * ‖dft n (zC G) j‖ ≤ 32 * a * (32 * b) := by gcongr
      norm_num at *
      linarith
    have n2 : ‖dft n (zC g) j * dft n (zC F) j‖ ≤ 2 ^ 34 := by
      rw [norm_mul]
      have : ‖dft n (zC g) j‖ * ‖dft n (zC F) j‖ ≤ 32 * a * (32 * b) := by gcongr
      norm_num at *
      linarith
    generalize dft n (zC f) j * dft n (zC G) j = u at *
    generalize dft n (zC g) j * dft n (zC F) j = v at *
    generalize A.cmul _ _ = U at *
    generalize A.cmul _ _ = V at *
    have h := hA.csub U V
    rw [show uD = 1 / 2 ^ 53 from rfl, show tinyD = 1 / 2 ^ 100 from rfl] at h
    have e1 : U - V = (U - u) - (V - v) + (u - v) := by ring
    have t1 := norm_add_le ((U - u) - (V - v)) (u - v)
    have t2 := norm_sub_le (U - u) (V - v)
    have t3 := norm_sub_le u v
    rw [← e1] at t1
    have e2 : A.csub U V - (u - v) = (A.csub U V - (U - V)) + ((U - u) - (V - v)) := by ring
    have t4 := norm_add_le (A.csub U V - (U - V)) ((U - u) - (V - v))
    rw [← e2] at t4
    clear e1 e2
    norm_num at *
    linarith
  have hsum : nC (2 ^ n) (fun i => D i - dft n (zC x) i) ≤ 1 / 100 * Real.sqrt 2 ^ n := by
    have := nC_maj1 (e := fun i => D i - dft n (zC x) i) (x := fun _ => 0) (a := 0) (d := 1 / 100) (N := 2 ^ n) le_rfl
      (by norm_num) (fun i hi => by simpa using hpoint i hi)
    rw [hsq] at this
    linarith
  have hi := ifft_near hA hn10 D (zC x) hsum
  have hE : nC (2 ^ n) (fun i => ifft A n D i - zC x i) ≤ 1 / 4 := by
    generalize nC (2 ^ n) (fun i => ifft A n D i - zC x i) = E at *
    generalize nC (2 ^ n) (zC x) = y at *
    generalize Real.sqrt 2 ^ n = s at *
    have hs : 0 < s := by linarith
    have h2 : s * y ≤ s * 2 ^ 30 := by gcongr
    rw [show kapD = 1 / 2 ^ 46 from rfl] at hi
    have : E * s ≤ 1 / 4 * s := by
      generalize s * y = sy at *
      norm_num at hi h2 ⊢
      linarith
    exact le_of_mul_le_mul_right this hs
  obtain ⟨r, h1, h2⟩ := loopE_flag (N := 2 ^ n) (e := fun i => A.roundTo (-2 ^ 31) (2 ^ 31 - 1) (A.re (ifft A n D i))) (x := x)
    (fun i v => if i = 0 then v == 12289 else v == 0) (by
      intro i hi
      beta_reduce
      have h1 := nC_ge (a := fun i => ifft A n D i - zC x i) hi
      have h2 := Complex.abs_re_le_norm (ifft A n D i - zC x i)
      rw [Complex.sub_re] at h2
      have h3 : (zC x i).re = (x i : ℝ) := by simp [zC]
      rw [h3] at h2
      rw [hA.roundTo, hA.re]
      unfold exactRoundTo
      rw [stdRound_near (lt_of_le_of_lt (h2.trans (h1.trans hE)) (by norm_num)), if_pos]
      have := abs_le.mp (hxi i hi)
      constructor <;> omega)
  refine ⟨r, ?_, h2.trans ?_⟩
  · unfold checkNtruEq
    simp only [← hD]
    rw [one_shiftLeft']
    exact h1
  · rw [hiff]
    refine forall_congr' fun i => forall_congr' fun hi => ?_
    split <;> simp

end

end Falcon
