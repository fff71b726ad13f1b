import Verif.Proofs.Coset
import Verif.Proofs.F64Key
import Verif.Proofs.GsSmall
import Verif.SmallSpec

/-!
# How well the solution of the NTRU equation is reduced
-/

namespace Falcon

open Finset Polynomial

/-- The inequalities of `reduced_system` for a key of small Gram-Schmidt norm, solved. -/
theorem reduced_sharp_num {s N K E Z Y hF hG : ℝ} (hs : 22 ≤ s) (hs2 : s ≤ 32) (hN : s * s = N) (hY : Y = Z * s)
    (El : E ≤ 2 * (kapD * (hF + s)) + 2 * (kapD * (hG + s)) + 8 * delD * hF + 8 * delD * hG + s * (1 / 2 ^ 90))
    (Zl : Y ≤ (1 + 2 * kapD) * E + 2 * kapD * (K + 1)) (Kl : K ≤ Y + N * (1 / 2))
    (Fl : hF ≤ 4160 * K + (N + N + s * 12289)) (Gl : hG ≤ 4160 * K + (N + N + s * 12289)) (hF0 : 0 ≤ hF) (hG0 : 0 ≤ hG)
    (hK0 : 0 ≤ K) : Z ≤ 1 / 100 := by
  have hN2 : N ≤ 1024 := by nlinarith
  obtain ⟨T, hT⟩ : ∃ T, T = hF + hG := ⟨_, rfl⟩
  have hE : E ≤ 1 / 2 ^ 25 * T + 1 / 1000 := by
    unfold kapD delD at *
    subst hT
    clear Zl Kl Fl Gl hN
    norm_num at *
    linarith
  have hK : K ≤ 101 / 100 * (1 / 2 ^ 25 * T) + 513 := by
    unfold kapD at *
    have hT0 : 0 ≤ T := by linarith
    clear Fl Gl hN El hT hF0 hG0 hY
    norm_num at *
    linarith
  have hT2 : T ≤ 5100000 := by
    clear Zl Kl hN El hE hF0 hG0 hY
    norm_num at *
    linarith
  have hE2 : E ≤ 16 / 100 := by
    norm_num at hE ⊢
    linarith
  have hK2 : K ≤ 1000 := by
    norm_num at hK ⊢
    linarith
  have hY2 : Y ≤ 17 / 100 := by
    unfold kapD at *
    norm_num at Zl ⊢
    linarith
  by_contra hc
  push Not at hc
  have : 1 / 100 * 22 ≤ Z * s := by gcongr
  linarith

/-- Lagrange's identity. -/
theorem lagrange_id (F G f g : ℂ) :
    (Complex.normSq F + Complex.normSq G) * (Complex.normSq f + Complex.normSq g)
      = Complex.normSq (F * (starRingEnd ℂ) f + G * (starRingEnd ℂ) g) + Complex.normSq (f * G - g * F) := by
  simp only [Complex.normSq_apply, Complex.mul_re, Complex.mul_im, Complex.add_re, Complex.add_im, Complex.sub_re, Complex.sub_im,
    Complex.conj_re, Complex.conj_im]
  ring

theorem sum_zC_sq (n : ℕ) (a : Mem ℤ) : ∑ i ∈ range (2 ^ n), Complex.normSq (zC a i) = ∑ i ∈ range (2 ^ n), (a i : ℝ) ^ 2 :=
  sum_congr rfl fun i _ => by
    unfold zC
    rw [Complex.normSq_eq_norm_sq, Complex.norm_intCast, sq_abs]

/-- |f^|^2 + |g^|^2 is at most N times the squared norm. -/
theorem gram_le {n : ℕ} (hn : n ≤ 10) (f g : Mem ℤ) (j : ℕ) (hj : j < 2 ^ n) :
    gramAt n f g j ≤ 2 ^ n * ∑ i ∈ range (2 ^ n), ((f i : ℝ) ^ 2 + (g i : ℝ) ^ 2) := by
  have h1 := parseval hn (zC f)
  have h2 := parseval hn (zC g)
  rw [sum_zC_sq] at h1 h2
  rw [sum_add_distrib, mul_add, ← h1, ← h2]
  unfold gramAt
  exact add_le_add
    (single_le_sum (f := fun j => Complex.normSq (dft n (zC f) j)) (fun i _ => Complex.normSq_nonneg _) (mem_range.mpr hj))
    (single_le_sum (f := fun j => Complex.normSq (dft n (zC g) j)) (fun i _ => Complex.normSq_nonneg _) (mem_range.mpr hj))

/-- The squared norm of a solution from its quotient and the Gram-Schmidt norms. -/
theorem solution_norm {n : ℕ} (hn : ValidLog n) {f g F G : Mem ℤ} (heq : NtruEq n f g F G) (hgs : GsSmall n f g)
    (hD : ∀ j, j < 2 ^ n → 0 < gramAt n f g j) {κ : Mem ℝ} (hκ : IsQuo n f g F G κ)
    (hb : ∀ i, i < 2 ^ n → |κ i| ≤ 51 / 100) :
    ∑ i ∈ range (2 ^ n), ((F i : ℝ) ^ 2 + (G i : ℝ) ^ 2) ≤ 4400 * (2 ^ n) ^ 2 := by
  have hn10 : n ≤ 10 := by rcases hn with rfl | rfl <;> norm_num
  have hpt : ∀ j, j < 2 ^ n → Complex.normSq (dft n (zC F) j) + Complex.normSq (dft n (zC G) j)
      = Complex.normSq (dft n (fun i => (κ i : ℂ)) j) * gramAt n f g j + (12289 : ℝ) ^ 2 / gramAt n f g j := by
    intro j hj
    have h0 := hD j hj
    have l := lagrange_id (dft n (zC F) j) (dft n (zC G) j) (dft n (zC f) j) (dft n (zC g) j)
    rw [← isQuo_dft hn10 hκ j hj, ntru_pt hn10 heq j hj, Complex.normSq_mul, Complex.normSq_ofReal] at l
    have e : Complex.normSq (12289 : ℂ) = 12289 ^ 2 := by
      rw [Complex.normSq_eq_norm_sq, Complex.norm_ofNat]
    rw [e] at l
    change _ * gramAt n f g j = _ at l
    field_simp
    linear_combination l
  have hD2 : ∀ j, j < 2 ^ n → gramAt n f g j ≤ 2 ^ n * 16900 := fun j hj =>
    (gram_le hn10 f g j hj).trans (mul_le_mul_of_nonneg_left hgs.1 (by positivity))
  have h1 := parseval hn10 (zC F)
  have h2 := parseval hn10 (zC G)
  have h3 := parseval hn10 (fun i => (κ i : ℂ))
  rw [sum_zC_sq] at h1 h2
  have hk : ∑ i ∈ range (2 ^ n), Complex.normSq ((κ i : ℂ)) ≤ 2 ^ n * (2601 / 10000) := by
    refine (sum_le_card_nsmul _ _ (2601 / 10000) fun i hi => ?_).trans (le_of_eq ?_)
    · rw [Complex.normSq_ofReal, ← sq, ← sq_abs]
      have := hb i (mem_range.mp hi)
      nlinarith [abs_nonneg (κ i)]
    · rw [card_range, nsmul_eq_mul]; push_cast; ring
  have hsum : ∑ j ∈ range (2 ^ n), (Complex.normSq (dft n (zC F) j) + Complex.normSq (dft n (zC G) j))
      ≤ 2 ^ n * 16900 * (2 ^ n * (2 ^ n * (2601 / 10000))) + 16900 * 2 ^ n := by
    rw [sum_congr rfl fun j hj => hpt j (mem_range.mp hj), sum_add_distrib]
    refine add_le_add ?_ hgs.2
    calc _ ≤ ∑ j ∈ range (2 ^ n), 2 ^ n * 16900 * Complex.normSq (dft n (fun i => (κ i : ℂ)) j) := by
          refine sum_le_sum fun j hj => ?_
          rw [mul_comm]
          exact mul_le_mul_of_nonneg_right (hD2 j (mem_range.mp hj)) (Complex.normSq_nonneg _)
      _ = 2 ^ n * 16900 * (2 ^ n * ∑ i ∈ range (2 ^ n), Complex.normSq ((κ i : ℂ))) := by rw [← mul_sum, h3]
      _ ≤ _ := by gcongr
  rw [sum_add_distrib, h1, h2, ← mul_add, ← sum_add_distrib] at hsum
  have hN : (512 : ℝ) ≤ 2 ^ n := by rcases hn with rfl | rfl <;> norm_num
  generalize ∑ i ∈ range (2 ^ n), ((F i : ℝ) ^ 2 + (G i : ℝ) ^ 2) = S at *
  generalize (2 : ℝ) ^ n = N at *
  have hN0 : 0 < N := by linarith
  have : N * S ≤ N * (4400 * N ^ 2) := by
    refine hsum.trans ?_
    have e : N * 16900 * (N * (N * (2601 / 10000))) + 16900 * N = N * (43956900 / 10000 * N ^ 2 + 16900) := by ring
    rw [e]
    refine mul_le_mul_of_nonneg_left ?_ hN0.le
    nlinarith
  exact le_of_mul_le_mul_left this hN0

section
variable {A : Arith ℝ ℂ} (hA : Accurate A)
include hA

/-- A solution whose computed quotient rounds to zero is reduced: no coefficient of the exact quotient is above 0.51. -/
theorem reduced_sharp {n : ℕ} (hn : ValidLog n) {f g F G kr : Mem Int}
    (hf : ∀ i, i < 2 ^ n → |f i| ≤ 19 * (4096 / 2 ^ n)) (hg : ∀ i, i < 2 ^ n → |g i| ≤ 19 * (4096 / 2 ^ n))
    (hF : ∀ i, i < 2 ^ n → |F i| ≤ 2 ^ 53) (hG : ∀ i, i < 2 ^ n → |G i| ≤ 2 ^ 53)
    (hD : ∀ j, j < 2 ^ n → 1 ≤ gramAt n f g j) (heq : NtruEq n f g F G) (hgs : GsSmall n f g)
    (hq : redQuot A n f g F G = .ok kr) (hkr : ∀ i, i < 2 ^ n → kr i = 0) :
    ∃ κ : Mem ℝ, IsQuo n f g F G κ ∧ ∀ i, i < 2 ^ n → |κ i| ≤ 51 / 100 := by
  have hn10 : n ≤ 10 := by rcases hn with rfl | rfl <;> norm_num
  obtain ⟨hs1, hs2⟩ := sqrt2_bounds hn
  have hsN := sqrt2_sq n
  have hB : ∀ j, j < 2 ^ n → ‖dft n (zC f) j‖ ≤ 4160 ∧ ‖dft n (zC g) j‖ ≤ 4160 := by
    intro j hj
    have h := (gram_le hn10 f g j hj).trans (mul_le_mul_of_nonneg_left hgs.1 (by positivity))
    have hN : (2 : ℝ) ^ n ≤ 1024 := by rcases hn with rfl | rfl <;> norm_num
    have e : gramAt n f g j = ‖dft n (zC f) j‖ ^ 2 + ‖dft n (zC g) j‖ ^ 2 := by
      unfold gramAt; rw [Complex.normSq_eq_norm_sq, Complex.normSq_eq_norm_sq]
    rw [e] at h
    have h2 : ‖dft n (zC f) j‖ ^ 2 + ‖dft n (zC g) j‖ ^ 2 ≤ 4160 ^ 2 := h.trans (by linarith)
    constructor <;> refine abs_le_of_sq_le_sq' ?_ (by norm_num) |>.2
    · nlinarith [sq_nonneg ‖dft n (zC g) j‖]
    · nlinarith [sq_nonneg ‖dft n (zC f) j‖]
  have z0 : ∀ j, dft n (fun _ => (0 : ℂ)) j = 0 := fun j => by unfold dft; simp
  obtain ⟨κ, hκ, E, Z, K, hκZ, K0, El, Zl, Kl, Fl, Gl⟩ := reduced_system hA hn hf hg hF hG hD hq hkr
    (c := 12289) (by norm_num) (ef := fun _ => 0) (eg := fun _ => 0) (fun _ _ => by simp) (fun _ _ => by simp)
    (fun j hj => by rw [ntru_pt hn10 heq j hj, z0]; push_cast; ring) (B := 4160) (by norm_num) hB
  have := reduced_sharp_num hs1 hs2 hsN rfl El Zl Kl Fl Gl (nC_nonneg _ _) (nC_nonneg _ _) K0
  exact ⟨κ, hκ, fun i hi => (hκZ i hi).trans (by linarith)⟩

end

theorem redQuot_low {R C : Type} (A : Arith R C) {n : ℕ} {f g F G f' g' F' G' : Mem Int}
    (h : ∀ i, i < 2 ^ n → f i = f' i ∧ g i = g' i ∧ F i = F' i ∧ G i = G' i) :
    redQuot A n f g F G = redQuot A n f' g' F' G' := by
  have e1 := fft_low A (n := n) fun i hi => (h i hi).1
  have e2 := fft_low A (n := n) fun i hi => (h i hi).2.1
  have e3 := fft_low A (n := n) fun i hi => (h i hi).2.2.1
  have e4 := fft_low A (n := n) fun i hi => (h i hi).2.2.2
  unfold toCx at e1 e2 e3 e4
  unfold redQuot
  simp only [e1, e2, e3, e4]

/-- The last quotient of a finished run. -/
theorem genOk_exit {n : ℕ} (hn : ValidLog n) {quot : RedQuot} {gs : Mem ℤ → Mem ℤ → Bool} {fuel : ℕ} {s : Ntru}
    (H : GenOk quot gs n fuel s)
    (hsol : ∀ f g F G, (∀ i, i < 2 ^ n → f i = s.f i ∧ g i = s.g i) → (∀ j, gramAt n f g j = gramAt n s.f s.g j) →
      ntruSolve quot fuel n f g = some (.ok (some (F, G))) → ∀ i, i < 2 ^ n → |F i| ≤ 2 ^ 23 ∧ |G i| ≤ 2 ^ 23) :
    ∃ f g F G kr, (∀ i, i < 2 ^ n → f i = s.f i ∧ g i = s.g i ∧ F i = s.F i ∧ G i = s.G i) ∧
      quot n f g F G = .ok kr ∧ ∀ i, i < 2 ^ n → kr i = 0 := by
  obtain ⟨F, G, -, hsol', hFG⟩ := H.sol
  have cp : ∀ a : Mem ℤ, ∀ i, i < 2 ^ n → loop (1 <<< n) (fun i m => upd m i (a i)) zerosZ i = a i := by
    intro a i hi
    rw [one_shiftLeft', loop_fill, if_pos hi]
  have cd : ∀ a : Mem ℤ, ∀ j, dft n (zC (loop (1 <<< n) (fun i m => upd m i (a i)) zerosZ)) j = dft n (zC a) j := by
    intro a j
    unfold dft
    refine sum_congr rfl fun i hi => ?_
    unfold zC
    rw [cp a i (mem_range.mp hi)]
  have hs := hsol _ _ F G (fun i hi => ⟨cp _ i hi, cp _ i hi⟩) (fun j => by unfold gramAt; rw [cd, cd]) hsol'
  have hN : 0 < 2 ^ n := by positivity
  have cv : ∀ {x b : ℤ}, |x| ≤ b → b < 2 ^ 40 → x.natAbs < 2 ^ 40 := by
    intro x b hx hb
    rw [Int.abs_eq_natAbs] at hx
    omega
  have hk : (19 * (4096 / 2 ^ n) : ℤ) < 2 ^ 40 := by rcases hn with rfl | rfl <;> norm_num
  have l0 := bitLenPair_small hN
    (f := loop (1 <<< n) (fun i m => upd m i (s.f i)) zerosZ) (g := loop (1 <<< n) (fun i m => upd m i (s.g i)) zerosZ)
    (fun i hi => by rw [cp _ i hi]; exact cv (abs_of_keyRange H.fRange i hi) hk)
    (fun i hi => by rw [cp _ i hi]; exact cv (abs_of_keyRange H.gRange i hi) hk)
  have l1 := bitLenPair_small hN (fun i hi => cv (hs i hi).1 (by norm_num)) (fun i hi => cv (hs i hi).2 (by norm_num))
  have nar : ∀ {x : ℤ}, |x| ≤ 2 ^ 23 → narrow32 (getSi x) = x := fun h => by
    rw [abs_le] at h
    exact narrow_id (by omega)
  obtain ⟨k, rfl⟩ : ∃ k, n = k + 1 := ⟨n - 1, by rcases hn with rfl | rfl <;> rfl⟩
  have hex := ntruSolve_exit _ _ _ _ _ _ _ hsol'
  rw [l0, l1, scaled_53, scaled_53, scaled_53, scaled_53] at hex
  rcases hex with hlt | ⟨kr, hq, hkr⟩
  · omega
  · exact ⟨_, _, F, G, kr, fun i hi => ⟨cp _ i hi, cp _ i hi, ((hFG i hi).1.trans (nar (hs i hi).1)).symm,
      ((hFG i hi).2.trans (nar (hs i hi).2)).symm⟩, hq, hkr⟩

/-- Two solutions whose quotients have all coefficients strictly below 1/2 are equal. -/
theorem reduced_unique {n : ℕ} (hn : n ≤ 10) {f g F G F' G' : Mem ℤ}
    (hinv : ∃ r : Zq[X], ModEqXN (2 ^ n) (polyInt (2 ^ n) f * r) 1) (hD : ∀ j, j < 2 ^ n → 0 < gramAt n f g j)
    (h : NtruEq n f g F G) (h' : NtruEq n f g F' G') {κ κ' : Mem ℝ} (hκ : IsQuo n f g F G κ) (hκ' : IsQuo n f g F' G' κ')
    (hd : ∀ i, i < 2 ^ n → |κ' i - κ i| < 1) : ∀ i, i < 2 ^ n → F' i = F i ∧ G' i = G i := by
  obtain ⟨c, hc⟩ := solutions_coset hn hinv h h'
  have e := isQuo_unique hn hD (quo_coset hn hκ hc) hκ'
  have c0 : ∀ i, i < 2 ^ n → c i = 0 := by
    intro i hi
    have h1 := hd i hi
    rw [e i hi, add_sub_cancel_left, ← Int.cast_abs] at h1
    have : |c i| < 1 := by exact_mod_cast h1
    exact Int.abs_lt_one_iff.mp this
  have z0 : ∀ j, dft n (zC c) j = 0 := fun j => by
    unfold dft
    refine sum_eq_zero fun i hi => ?_
    unfold zC
    rw [c0 i (mem_range.mp hi)]
    simp
  have low : ∀ {a b : Mem ℤ}, (∀ j, j < 2 ^ n → dft n (zC a) j = dft n (zC b) j) → ∀ i, i < 2 ^ n → a i = b i := by
    intro a b hab i hi
    have := dft_inj hn hab i hi
    unfold zC at this
    exact_mod_cast this
  exact fun i hi => ⟨low (fun j hj => by rw [(hc j hj).1, z0]; ring) i hi, low (fun j hj => by rw [(hc j hj).2, z0]; ring) i hi⟩

end Falcon
