import Verif.Proofs.ReduceBound
import Verif.Props.Sign
import Verif.Proofs.NormTower
import Verif.Proofs.Ieee

/-!
# The solutions of the NTRU equation for one (f, g), and where the reduction can stop
-/

namespace Falcon

open Finset Polynomial

/-- An inverse modulo q as an identity of integer polynomials. -/
theorem lift_inv {n : ℕ} {f : Mem ℤ} (h : ∃ r : Zq[X], ModEqXN (2 ^ n) (polyInt (2 ^ n) f * r) 1) :
    ∃ r s : ℤ[X], ModEqXN (2 ^ n) (polyZ (2 ^ n) f * r) (1 + 12289 * s) := by
  obtain ⟨r, c, hc⟩ := h
  have hsurj : Function.Surjective (Int.castRingHom Zq) := ZMod.intCast_surjective
  obtain ⟨r', rfl⟩ := Polynomial.map_surjective _ hsurj r
  obtain ⟨c', rfl⟩ := Polynomial.map_surjective _ hsurj c
  have e : (polyZ (2 ^ n) f * r' - 1 - (X ^ 2 ^ n + 1) * c').map (Int.castRingHom Zq) = 0 := by
    rw [polyInt_map] at hc
    simp only [Polynomial.map_sub, Polynomial.map_mul, Polynomial.map_add, Polynomial.map_pow, map_X, Polynomial.map_one]
    linear_combination hc
  have hd : (12289 : ℤ[X]) ∣ polyZ (2 ^ n) f * r' - 1 - (X ^ 2 ^ n + 1) * c' := by
    rw [show (12289 : ℤ[X]) = C 12289 from rfl, Polynomial.C_dvd_iff_dvd_coeff]
    intro i
    have := congrArg (fun p => p.coeff i) e
    simp only [coeff_map, coeff_zero] at this
    exact (ZMod.intCast_zmod_eq_zero_iff_dvd _ 12289).mp this
  obtain ⟨s, hs⟩ := hd
  exact ⟨r', s, c', by linear_combination hs⟩

/-- Two solutions differ by a multiple of (f, g). -/
theorem solutions_coset {n : ℕ} (hn : n ≤ 10) {f g F G F' G' : Mem ℤ}
    (hinv : ∃ r : Zq[X], ModEqXN (2 ^ n) (polyInt (2 ^ n) f * r) 1) (h : NtruEq n f g F G) (h' : NtruEq n f g F' G') :
    ∃ c : Mem ℤ, ∀ j, j < 2 ^ n → dft n (zC F') j = dft n (zC F) j + dft n (zC c) j * dft n (zC f) j ∧
      dft n (zC G') j = dft n (zC G) j + dft n (zC c) j * dft n (zC g) j := by
  obtain ⟨r, s, hrs⟩ := lift_inv hinv
  set u := polyZ (2 ^ n) F' - polyZ (2 ^ n) F with hu
  set v := polyZ (2 ^ n) G' - polyZ (2 ^ n) G with hv
  set w := polyZ (2 ^ n) G * u - polyZ (2 ^ n) F * v with hw
  obtain ⟨c, hc⟩ := exists_arr n (r * u - s * w)
  refine ⟨c, fun j hj => ?_⟩
  have e1 := evC_modEq hn hj h
  have e2 := evC_modEq hn hj h'
  have e3 := evC_modEq hn hj hrs
  have e4 := evC_modEq hn hj hc
  have one : evC n j 1 = 1 := by simp [evC]
  have q : evC n j 12289 = 12289 := by simp [evC]
  simp only [hw, hu, hv, evC_sub, evC_mul, evC_add, evC_poly, one, q] at e1 e2 e3 e4
  generalize dft n (zC f) j = f at *
  generalize dft n (zC g) j = g at *
  generalize dft n (zC F) j = F at *
  generalize dft n (zC G) j = G at *
  generalize dft n (zC F') j = F' at *
  generalize dft n (zC G') j = G' at *
  generalize dft n (zC c) j = c at *
  generalize evC n j r = r at *
  generalize evC n j s = s at *
  have hq : (12289 : ℂ) ≠ 0 := by norm_num
  have ew : 12289 * c = G * (F' - F) - F * (G' - G) := by
    apply mul_left_cancel₀ hq
    rw [e4]
    linear_combination (12289 * (G * (F' - F) - F * (G' - G))) * e3
      - (12289 * r * (F' - F)) * e1 + (12289 * r * F) * (e2 - e1)
  constructor
  · apply mul_left_cancel₀ hq
    linear_combination -f * ew - (F' - F) * e1 + F * (e2 - e1)
  · apply mul_left_cancel₀ hq
    linear_combination -g * ew - (G' - G) * e1 + G * (e2 - e1)

theorem dft_add_mem (n : ℕ) (a b : Mem ℂ) (j : ℕ) : dft n (fun i => a i + b i) j = dft n a j + dft n b j := by
  unfold dft
  rw [← sum_add_distrib]
  exact sum_congr rfl fun i _ => by ring

/-- The quotients of two solutions differ by an integer polynomial. -/
theorem quo_coset {n : ℕ} (hn : n ≤ 10) {f g F G F' G' c : Mem ℤ} {κ : Mem ℝ} (hκ : IsQuo n f g F G κ)
    (hc : ∀ j, j < 2 ^ n → dft n (zC F') j = dft n (zC F) j + dft n (zC c) j * dft n (zC f) j ∧
      dft n (zC G') j = dft n (zC G) j + dft n (zC c) j * dft n (zC g) j) :
    IsQuo n f g F' G' (fun i => κ i + c i) := by
  rw [isQuo_iff]
  refine modEq_of_evals hn fun j hj => ?_
  have h := isQuo_dft hn hκ j hj
  simp only [eval_mul, eval_add, ← dft_poly, dft_adj hn _ j hj]
  rw [gram_mul, (hc j hj).1, (hc j hj).2]
  have e : dft n (fun i => ((κ i + c i : ℝ) : ℂ)) j = dft n (fun i => (κ i : ℂ)) j + dft n (zC c) j := by
    rw [← dft_add_mem]
    congr 1
    funext i
    unfold zC
    push_cast
    rfl
  rw [e, add_mul, h, ← gram_mul f g j]
  ring

/-- The quotient is unique. -/
theorem isQuo_unique {n : ℕ} (hn : n ≤ 10) {f g F G : Mem ℤ} (hD : ∀ j, j < 2 ^ n → 0 < gramAt n f g j) {κ κ' : Mem ℝ}
    (h : IsQuo n f g F G κ) (h' : IsQuo n f g F G κ') (i : ℕ) (hi : i < 2 ^ n) : κ' i = κ i := by
  have e : ∀ j, j < 2 ^ n → dft n (fun i => (κ' i : ℂ)) j = dft n (fun i => (κ i : ℂ)) j := by
    intro j hj
    have h1 := isQuo_dft hn h j hj
    have h2 := isQuo_dft hn h' j hj
    have h0 : ((gramAt n f g j : ℝ) : ℂ) ≠ 0 := by
      intro h
      have : gramAt n f g j = 0 := by exact_mod_cast h
      linarith [hD j hj]
    exact mul_right_cancel₀ h0 (h2.trans h1.symm)
  have := dft_inj hn e i hi
  exact_mod_cast this

section
variable {A : Arith ℝ ℂ} (hA : Accurate A)
include hA

/-- A solution is returned only when the computed quotient of F and G themselves rounds to zero. -/
theorem solver_exit {n : ℕ} (hn : ValidLog n) {f g F G : Mem Int}
    (hf : ∀ i, i < 2 ^ n → |f i| ≤ 19 * (4096 / 2 ^ n)) (hg : ∀ i, i < 2 ^ n → |g i| ≤ 19 * (4096 / 2 ^ n))
    (hD : ∀ j, j < 2 ^ n → 1 ≤ gramAt n f g j) {fuel : ℕ}
    (h : ntruSolve (redQuot A) fuel n f g = some (.ok (some (F, G)))) :
    NtruEq n f g F G ∧ (∀ i, i < 2 ^ n → |F i| ≤ 2 ^ 23 ∧ |G i| ≤ 2 ^ 23) ∧
      ∃ kr, redQuot A n f g F G = .ok kr ∧ ∀ i, i < 2 ^ n → kr i = 0 := by
  have hs := solution_small hA hn hf hg hD h
  have hN : 0 < 2 ^ n := by positivity
  have cv : ∀ {x b : ℤ}, |x| ≤ b → b < 2 ^ 40 → x.natAbs < 2 ^ 40 := by
    intro x b hx hb
    rw [Int.abs_eq_natAbs] at hx
    omega
  have hk : (19 * (4096 / 2 ^ n) : ℤ) < 2 ^ 40 := by rcases hn with rfl | rfl <;> norm_num
  have l0 := bitLenPair_small hN (fun i hi => cv (hf i hi) hk) (fun i hi => cv (hg i hi) hk)
  have l1 := bitLenPair_small hN (fun i hi => cv (hs i hi).1 (by norm_num)) (fun i hi => cv (hs i hi).2 (by norm_num))
  refine ⟨ntruSolve_det _ _ _ _ _ _ _ h, hs, ?_⟩
  obtain ⟨k, rfl⟩ : ∃ k, n = k + 1 := ⟨n - 1, by rcases hn with rfl | rfl <;> rfl⟩
  have hex := ntruSolve_exit _ _ _ _ _ _ _ h
  rw [l0, l1, scaled_53, scaled_53, scaled_53, scaled_53] at hex
  rcases hex with hlt | hex
  · omega
  · exact hex

end

theorem stdRound_zero_strict {x : ℝ} (h : stdRound x = 0) : -(1 / 2) < x ∧ x < 1 / 2 := by
  unfold stdRound at h
  split at h
  · have := Int.floor_eq_iff.mp h
    push_cast at this
    constructor <;> linarith
  · have : ⌊-x + 1 / 2⌋ = 0 := by omega
    have := Int.floor_eq_iff.mp this
    push_cast at this
    constructor <;> linarith

/-- If one solution has a quotient with a coefficient halfway between two integers, the solver returns no solution in
exact arithmetic. -/
theorem stuck_exact {n : ℕ} (hn : ValidLog n) {f g F G : Mem Int}
    (hf : ∀ i, i < 2 ^ n → |f i| ≤ 19 * (4096 / 2 ^ n)) (hg : ∀ i, i < 2 ^ n → |g i| ≤ 19 * (4096 / 2 ^ n))
    (hD : ∀ j, j < 2 ^ n → 1 ≤ gramAt n f g j) (hinv : ∃ r : Zq[X], ModEqXN (2 ^ n) (polyInt (2 ^ n) f * r) 1)
    (heq : NtruEq n f g F G) {κ : Mem ℝ} (hκ : IsQuo n f g F G κ) {i : ℕ} (hi : i < 2 ^ n) {m : ℤ} (hm : κ i = m + 1 / 2)
    (fuel : ℕ) (r : Mem ℤ × Mem ℤ) : ntruSolve (redQuot exactA) fuel n f g ≠ some (.ok (some r)) := by
  intro h
  have hn10 : n ≤ 10 := by rcases hn with rfl | rfl <;> norm_num
  obtain ⟨F', G'⟩ := r
  obtain ⟨heq', -, kr, hq, hkr⟩ := solver_exit accurate_exact hn hf hg hD h
  obtain ⟨c, hc⟩ := solutions_coset hn10 hinv heq heq'
  have hκ' := quo_coset hn10 hκ hc
  have hr := (redQuot_exact hn10 (fun j hj => lt_of_lt_of_le one_pos (hD j hj)) hq hκ' i hi).1
  rw [hkr i hi] at hr
  obtain ⟨h1, h2⟩ := stdRound_zero_strict hr.symm
  rw [hm] at h1 h2
  have h3 : (-1 : ℝ) < ((m + c i : ℤ) : ℝ) := by push_cast; linarith
  have h4 : ((m + c i : ℤ) : ℝ) < 0 := by push_cast; linarith
  have h3 : -1 < m + c i := by exact_mod_cast h3
  have h4 : m + c i < 0 := by exact_mod_cast h4
  omega

end Falcon
