import Verif.FftSpec
import Verif.Proofs.RingTransform
import Verif.Proofs.Ntt

/-!
# The Fourier transform of the code
-/

namespace Falcon

open Finset Polynomial

section Generic
variable {R C : Type} (A : Arith R C)

def fftBf (k : ℕ) (x y : C) : C × C := (A.cadd x (A.cmul (A.tab k) y), A.csub x (A.cmul (A.tab k) y))

def ifftBf (k : ℕ) (x y : C) : C × C := (A.cadd x y, A.cmul (A.csub x y) (A.cneg (A.tab k)))

theorem fftStep_eq (k len i : ℕ) (a : Mem C) (h : 0 < len) :
    fftStep A k len i a = bfStep (fftBf A) k len i a := by
  unfold fftStep bfStep fftBf
  simp only
  rw [upd_ne a (i + len) i _ (by omega)]

theorem ifftStep_eq (k len i : ℕ) (a : Mem C) (h : 0 < len) :
    ifftStep A k len i a = bfStep (ifftBf A) k len i a := by
  unfold ifftStep bfStep ifftBf
  simp only [upd_same]
  rw [upd_ne a i (i + len) _ (by omega)]
  funext j
  unfold upd
  by_cases h1 : j = i + len
  · subst h1; simp [show ¬ len = 0 by omega]
  · simp [h1]

theorem fft_eq (n : ℕ) (a : Mem C) : fft A n a = downLayers n (bfStep (fftBf A)) a :=
  downLayers_congr (fftStep_eq A) a

theorem fft_frame (n : ℕ) (a : Mem C) (j : ℕ) (hj : 2 ^ n ≤ j) : fft A n a j = a j := by
  rw [fft_eq]; exact downLayers_frame n _ a j hj

theorem ifft_eq (n : ℕ) (a : Mem C) (j : ℕ) :
    ifft A n a j = if j < 2 ^ n then
      A.scale (A.lit (1 / 2 ^ n)) (upLayers n (bfStep (ifftBf A)) a j)
      else upLayers n (bfStep (ifftBf A)) a j := by
  unfold ifft
  rw [upLayers_congr (ifftStep_eq A) a, one_shiftLeft']
  exact loop_map _ (fun i x => A.scale (A.lit (1 / 2 ^ n)) x) _ j

theorem ifft_frame (n : ℕ) (a : Mem C) (j : ℕ) (hj : 2 ^ n ≤ j) : ifft A n a j = a j := by
  rw [ifft_eq, if_neg (by omega)]; exact upLayers_frame n _ a j hj

theorem fft_congr (n : ℕ) {a b : Mem C} (h : ∀ j, j < 2 ^ n → a j = b j) (j : ℕ) (hj : j < 2 ^ n) :
    fft A n a j = fft A n b j := by
  rw [fft_eq, fft_eq]
  exact downLayers_rel (R := Eq) n (bf := fftBf A) (bg := fftBf A)
    (by rintro k _ x _ y _ rfl rfl; exact ⟨rfl, rfl⟩) h j hj

theorem ifft_congr (n : ℕ) {a b : Mem C} (h : ∀ j, j < 2 ^ n → a j = b j) (j : ℕ) (hj : j < 2 ^ n) :
    ifft A n a j = ifft A n b j := by
  rw [ifft_eq, ifft_eq, if_pos hj, if_pos hj]
  congr 1
  exact upLayers_rel (R := Eq) n (bf := ifftBf A) (bg := ifftBf A)
    (by rintro k _ x _ y _ rfl rfl; exact ⟨rfl, rfl⟩) h j hj

theorem fftE_ok {n : ℕ} (hn : n ≤ 10) (a : Mem C) : fftE A n a = .ok (fft A n a) := by
  unfold fftE fft
  have hp : 2 ^ n ≤ 2 ^ 10 := Nat.pow_le_pow_right (by norm_num) hn
  apply downLayersE_ok
  intro k len i a hk hlen hi
  unfold fftStepE fftStep
  simp only [one_shiftLeft']
  rw [rdE_ok (by omega : k < 1024), rdE_ok hi, rdE_ok (by omega : i < 2 ^ n)]
  simp only [bind, Except.bind]
  rw [wrE_ok hi]
  simp only
  rw [rdE_ok (by omega : i < 2 ^ n)]
  simp only
  rw [wrE_ok (by omega)]

theorem ifftE_ok {n : ℕ} (hn : n ≤ 10) (a : Mem C) : ifftE A n a = .ok (ifft A n a) := by
  unfold ifftE ifft
  have hp : 2 ^ n ≤ 2 ^ 10 := Nat.pow_le_pow_right (by norm_num) hn
  have h := upLayersE_ok (n := n) (sE := ifftStepE A n) (s := ifftStep A) (by
    intro k len i a hk hlen hi
    unfold ifftStepE ifftStep
    simp only [one_shiftLeft']
    rw [rdE_ok (by omega : k < 1024), rdE_ok hi, rdE_ok (by omega : i < 2 ^ n)]
    simp only [bind, Except.bind]
    rw [wrE_ok (by omega)]
    simp only
    rw [rdE_ok hi]
    simp only
    rw [wrE_ok hi]
    simp only
    rw [rdE_ok hi]
    simp only
    rw [wrE_ok hi]) a
  rw [h]
  simp only [bind, Except.bind]
  apply loopE_ok
  intro i hi t
  rw [rdE_ok hi]
  simp only
  rw [wrE_ok hi]

/-! ### Pointwise operations -/

theorem polyMulC_at (n : ℕ) (a b c : Mem C) (j : ℕ) :
    polyMulC A n a b c j = if j < 2 ^ n then A.cmul (a j) (b j) else c j := by
  unfold polyMulC; rw [one_shiftLeft']; exact loop_fill _ (fun i => A.cmul (a i) (b i)) _ _

theorem polyAddC_at (n : ℕ) (a b c : Mem C) (j : ℕ) :
    polyAddC A n a b c j = if j < 2 ^ n then A.cadd (a j) (b j) else c j := by
  unfold polyAddC; rw [one_shiftLeft']; exact loop_fill _ (fun i => A.cadd (a i) (b i)) _ _

theorem polySubC_at (n : ℕ) (a b c : Mem C) (j : ℕ) :
    polySubC A n a b c j = if j < 2 ^ n then A.csub (a j) (b j) else c j := by
  unfold polySubC; rw [one_shiftLeft']; exact loop_fill _ (fun i => A.csub (a i) (b i)) _ _

theorem polyDivC_at (n : ℕ) (a b c : Mem C) (j : ℕ) :
    polyDivC A n a b c j = if j < 2 ^ n then A.cdiv (a j) (b j) else c j := by
  unfold polyDivC; rw [one_shiftLeft']; exact loop_fill _ (fun i => A.cdiv (a i) (b i)) _ _

theorem polyAddToC_at (n : ℕ) (a b : Mem C) (j : ℕ) :
    polyAddToC A n a b j = if j < 2 ^ n then A.cadd (a j) (b j) else a j := by
  unfold polyAddToC; rw [one_shiftLeft']; exact loop_map _ (fun i x => A.cadd x (b i)) _ _

theorem adjPoly_at (n : ℕ) (a : Mem C) (j : ℕ) :
    adjPoly A n a j = if j < 2 ^ n then A.conj (a j) else a j := by
  unfold adjPoly; rw [one_shiftLeft']; exact loop_map _ (fun _ x => A.conj x) _ _

theorem memcpy_at {α : Type} (n : ℕ) (s d : Mem α) (j : ℕ) :
    memcpy n s d j = if j < n then s j else d j := loop_fill _ s _ _

theorem half_shift (k : ℕ) : (1 <<< (k + 1)) >>> 1 = 2 ^ k := by
  rw [one_shiftLeft', Nat.shiftRight_eq_div_pow, pow_succ, pow_one]
  exact Nat.mul_div_cancel _ (by norm_num)

theorem splitFft_fst (k : ℕ) (f f0 f1 : Mem C) (j : ℕ) :
    (splitFft A (k + 1) f f0 f1).1 j = if j < 2 ^ k then
      A.scale (A.lit (1 / 2)) (A.cadd (f (2 * j)) (f (2 * j + 1))) else f0 j := by
  unfold splitFft; simp only; rw [half_shift]
  exact loop_fill _ (fun i => A.scale (A.lit (1 / 2)) (A.cadd (f (2 * i)) (f (2 * i + 1)))) _ _

theorem splitFft_snd (k : ℕ) (f f0 f1 : Mem C) (j : ℕ) :
    (splitFft A (k + 1) f f0 f1).2 j = if j < 2 ^ k then
      A.cmul (A.scale (A.lit (1 / 2)) (A.csub (f (2 * j)) (f (2 * j + 1)))) (A.conj (A.tab (2 ^ k + j)))
      else f1 j := by
  unfold splitFft; simp only; rw [half_shift]
  exact loop_fill _ (fun i => A.cmul (A.scale (A.lit (1 / 2)) (A.csub (f (2 * i)) (f (2 * i + 1))))
    (A.conj (A.tab (2 ^ k + i)))) _ _

/-- A loop writing two neighbouring entries per round. -/
theorem loop_pairs {α : Type} (n : ℕ) (u v : ℕ → α) (a : Mem α) (j : ℕ) :
    loop n (fun i f => upd (upd f (2 * i + 0) (u i)) (2 * i + 1) (v i)) a j =
      if j < 2 * n then (if j % 2 = 0 then u (j / 2) else v (j / 2)) else a j := by
  induction n with
  | zero => simp
  | succ n ih =>
    rw [loop_succ]
    by_cases h1 : j = 2 * n + 1
    · subst h1
      rw [upd_same, if_pos (by omega), if_neg (by omega)]
      congr 1; omega
    · rw [upd_ne _ _ _ _ h1]
      by_cases h2 : j = 2 * n
      · subst h2
        rw [Nat.add_zero, upd_same, if_pos (by omega), if_pos (by omega)]
        congr 1; omega
      · rw [upd_ne _ _ _ _ (by omega), ih]
        by_cases h3 : j < 2 * n
        · rw [if_pos h3, if_pos (show j < 2 * (n + 1) by omega)]
        · rw [if_neg h3, if_neg (by omega)]

theorem mergeFft_at (k : ℕ) (f0 f1 f : Mem C) (j : ℕ) :
    mergeFft A (k + 1) f0 f1 f j = if j < 2 ^ (k + 1) then
      (if j % 2 = 0 then A.cadd (f0 (j / 2)) (A.cmul (f1 (j / 2)) (A.tab (2 ^ k + j / 2)))
        else A.csub (f0 (j / 2)) (A.cmul (f1 (j / 2)) (A.tab (2 ^ k + j / 2)))) else f j := by
  unfold mergeFft
  simp only
  rw [half_shift, loop_pairs (2 ^ k)
    (fun i => A.cadd (f0 i) (A.cmul (f1 i) (A.tab (2 ^ k + i))))
    (fun i => A.csub (f0 i) (A.cmul (f1 i) (A.tab (2 ^ k + i)))), pow_succ, mul_comm]

end Generic

/-! ### Exact arithmetic -/

/-- exp(iπ/1024). -/
noncomputable def zetaC : ℂ := Complex.exp (Complex.I * Real.pi / 1024)

/-- The exact table. -/
noncomputable def cT (k : ℕ) : ℂ := zetaC ^ brv 10 k

theorem exp_pow (m : ℕ) (d : ℂ) : Complex.exp (Complex.I * Real.pi / d) ^ m
    = Complex.exp (Complex.I * Real.pi * (m : ℂ) / d) := by
  rw [← Complex.exp_nat_mul]; congr 1; ring

theorem exact_tab (k : ℕ) : exactA.tab k = cT k := by
  show Complex.exp (Complex.I * Real.pi * (revBits 10 k : ℂ) / 1024) = _
  unfold cT zetaC
  rw [exp_pow, brv_eq_revBits]

theorem exp_pi_I' : Complex.exp (Complex.I * Real.pi) = -1 := by
  rw [mul_comm]; exact Complex.exp_pi_mul_I

theorem zetaC_pow : zetaC ^ (2 ^ 10) = -1 := by
  unfold zetaC
  rw [exp_pow, ← exp_pi_I']
  congr 1
  push_cast
  ring

theorem cT_table {n : ℕ} (hn : n ≤ 10) : RootTable n cT :=
  (rootTable_of_pow (n := 10) (by norm_num) zetaC zetaC_pow).mono hn

theorem brv_up (n d k : ℕ) (h : k < 2 ^ n) : brv (n + d) k = 2 ^ d * brv n k := by
  induction d with
  | zero => simp
  | succ d ih =>
    rw [← add_assoc, brv_small (lt_of_lt_of_le h (Nat.pow_le_pow_right (by norm_num) (by omega))), ih]
    ring

/-- The leaf roots are the evaluation points. -/
theorem root_cT {n : ℕ} (hn : n ≤ 10) (j : ℕ) (hj : j < 2 ^ n) : root cT n j = fftPoint n j := by
  cases n with
  | zero =>
    have : j = 0 := by simpa using hj
    subst this
    unfold root fftPoint
    simp [revBits, exp_pi_I']
  | succ m =>
    have hpow : zetaC ^ 2 ^ (9 - m) = Complex.exp (Complex.I * Real.pi / 2 ^ (m + 1)) := by
      unfold zetaC
      rw [exp_pow]
      congr 1
      have : (1024 : ℂ) = 2 ^ (m + 1) * 2 ^ (9 - m) := by
        rw [← pow_add, show m + 1 + (9 - m) = 10 by omega]; norm_num
      rw [this]
      push_cast
      field_simp
    have hz : Complex.exp (Complex.I * Real.pi / 2 ^ (m + 1)) ^ (2 ^ (m + 1)) = -1 := by
      rw [exp_pow, ← exp_pi_I']
      congr 1
      push_cast
      field_simp
    rw [pow_succ] at hj
    have hT : cT (2 ^ m + j / 2)
        = Complex.exp (Complex.I * Real.pi / 2 ^ (m + 1)) ^ (2 * brv m (j / 2) + 1) := by
      unfold cT
      rw [show (10 : ℕ) = (m + 1) + (9 - m) by omega,
        brv_up (m + 1) (9 - m) (2 ^ m + j / 2) (by rw [pow_succ]; omega), pow_mul, hpow]
      congr 1
      rw [brv_succ', show 2 ^ m + j / 2 = j / 2 + 2 ^ m * 1 by ring, brv_add_mul,
        Nat.add_mul_div_left _ _ (by positivity), Nat.div_eq_of_lt (by omega : j / 2 < 2 ^ m)]
    have hP : fftPoint (m + 1) j
        = Complex.exp (Complex.I * Real.pi / 2 ^ (m + 1)) ^ (2 * brv (m + 1) j + 1) := by
      unfold fftPoint
      rw [exp_pow, brv_eq_revBits]
      push_cast
      rfl
    rw [hP, root_succ, hT, brv]
    rcases Nat.mod_two_eq_zero_or_one j with h | h
    · rw [if_pos h, h, mul_zero, add_zero]
    · rw [if_neg (by omega), h, mul_one, mul_add, ← pow_succ', add_right_comm,
        pow_add _ _ (2 ^ (m + 1)), hz, mul_neg_one]

theorem fftPoint_even {k : ℕ} (hk : k + 1 ≤ 10) (j : ℕ) (hj : j < 2 ^ k) :
    fftPoint (k + 1) (2 * j) = cT (2 ^ k + j) := by
  rw [← root_cT hk _ (by rw [pow_succ]; omega), root_even]

theorem fftPoint_odd {k : ℕ} (hk : k + 1 ≤ 10) (j : ℕ) (hj : j < 2 ^ k) :
    fftPoint (k + 1) (2 * j + 1) = -cT (2 ^ k + j) := by
  rw [← root_cT hk _ (by rw [pow_succ]; omega), root_odd]

theorem cT_sq {k : ℕ} (hk : k + 1 ≤ 10) (j : ℕ) (hj : j < 2 ^ k) :
    cT (2 ^ k + j) ^ 2 = fftPoint k j := by
  rw [← root_cT (by omega) j hj]
  exact (cT_table (n := 10) le_rfl).sq_root k (by omega) j hj

theorem zetaC_norm : ‖zetaC‖ = 1 := by
  unfold zetaC
  rw [show Complex.I * (Real.pi : ℂ) / 1024 = ((Real.pi / 1024 : ℝ) : ℂ) * Complex.I by push_cast; ring]
  exact Complex.norm_exp_ofReal_mul_I _

theorem cT_norm (k : ℕ) : ‖cT k‖ = 1 := by
  unfold cT; rw [norm_pow, zetaC_norm, one_pow]

theorem cT_conj (k : ℕ) : cT k * (starRingEnd ℂ) (cT k) = 1 := by
  rw [Complex.mul_conj, Complex.normSq_eq_norm_sq, cT_norm]; norm_num

theorem cT_ne (k : ℕ) : cT k ≠ 0 := by
  intro h; have := cT_norm k; rw [h] at this; simp at this

theorem fftPoint_pow {n : ℕ} (hn : n ≤ 10) (i : ℕ) (hi : i < 2 ^ n) : fftPoint n i ^ (2 ^ n) = -1 := by
  rw [← root_cT hn i hi]; exact (cT_table (n := 10) le_rfl).root_pow n hn i hi

theorem fftPoint_norm (n i : ℕ) : ‖fftPoint n i‖ = 1 := by
  unfold fftPoint
  rw [show Complex.I * (Real.pi : ℂ) * (2 * (revBits n i : ℂ) + 1) / 2 ^ n
    = ((Real.pi * (2 * revBits n i + 1) / 2 ^ n : ℝ) : ℂ) * Complex.I by push_cast; ring]
  exact Complex.norm_exp_ofReal_mul_I _

theorem fftPoint_conj (n i : ℕ) : fftPoint n i * (starRingEnd ℂ) (fftPoint n i) = 1 := by
  rw [Complex.mul_conj, Complex.normSq_eq_norm_sq, fftPoint_norm]; norm_num

theorem exact_fftBf : fftBf exactA = ctBf cT := by
  funext k x y
  show (x + exactA.tab k * y, x - exactA.tab k * y) = _
  rw [exact_tab]; rfl

theorem exact_ifftBf : ifftBf exactA = gsBf cT := by
  funext k x y
  show (x + y, (x - y) * (-exactA.tab k)) = _
  rw [exact_tab]; rfl

theorem fft_val {n : ℕ} (hn : n ≤ 10) (a : Mem ℂ) (j : ℕ) (hj : j < 2 ^ n) :
    fft exactA n a j = dft n a j := by
  rw [fft_eq, exact_fftBf, downLayers_eval (cT_table hn) a j hj]
  unfold dft
  rw [root_cT hn j hj]

theorem ifft_val (n : ℕ) (a : Mem ℂ) (j : ℕ) (hj : j < 2 ^ n) :
    ifft exactA n a j = upLayers n (bfStep (gsBf cT)) a j / 2 ^ n := by
  rw [ifft_eq, if_pos hj, exact_ifftBf]
  show (((1 / 2 ^ n : ℚ) : ℝ) : ℂ) * _ = _
  push_cast
  ring

theorem ifft_fft {n : ℕ} (hn : n ≤ 10) (a : Mem ℂ) (j : ℕ) (hj : j < 2 ^ n) :
    ifft exactA n (fft exactA n a) j = a j := by
  rw [ifft_val n _ j hj, fft_eq, exact_fftBf, up_down (cT_table hn) a j hj]
  field_simp

theorem fft_ifft {n : ℕ} (hn : n ≤ 10) (a : Mem ℂ) (j : ℕ) (hj : j < 2 ^ n) :
    fft exactA n (ifft exactA n a) j = a j := by
  rw [fft_val hn _ j hj]
  unfold dft
  rw [sum_congr rfl (g := fun i => (1 / 2 ^ n) *
    (upLayers n (bfStep (gsBf cT)) a i * root cT n j ^ i))
    (fun i hi => by rw [ifft_val n a i (mem_range.mp hi), root_cT hn j hj]; ring), ← mul_sum,
    ← downLayers_eval (cT_table hn) _ j hj, down_up (cT_table hn) _ j hj]
  field_simp

theorem dft_poly (n : ℕ) (a : Mem ℂ) (j : ℕ) : dft n a j = (toPoly (2 ^ n) a).eval (fftPoint n j) := by
  rw [toPoly_eval]; rfl

theorem two_unit_C : IsUnit (2 : ℂ) := IsUnit.mk0 _ (by norm_num)

/-- Two polynomials with the same values at the points are congruent modulo `X^N + 1`. -/
theorem modEq_of_dft {n : ℕ} (hn : n ≤ 10) {p : ℂ[X]} {c : Mem ℂ}
    (h : ∀ j, j < 2 ^ n → p.eval (fftPoint n j) = dft n c j) :
    ModEqXN (2 ^ n) p (toPoly (2 ^ n) c) := by
  apply dvd_of_evals (cT_table hn) two_unit_C
  intro j hj
  rw [root_cT hn j hj, h j hj, dft_poly]

/-- The transform determines the coefficients. -/
theorem dft_inj {n : ℕ} (hn : n ≤ 10) {a b : Mem ℂ} (h : ∀ j, j < 2 ^ n → dft n a j = dft n b j)
    (j : ℕ) (hj : j < 2 ^ n) : a j = b j := by
  have h2 := ifft_congr exactA n (a := fft exactA n a) (b := fft exactA n b)
    (fun j hj => by rw [fft_val hn _ j hj, fft_val hn _ j hj, h j hj]) j hj
  rwa [ifft_fft hn a j hj, ifft_fft hn b j hj] at h2

theorem ifft_dft {n : ℕ} (hn : n ≤ 10) {e a : Mem ℂ} (h : ∀ j, j < 2 ^ n → e j = dft n a j) (j : ℕ)
    (hj : j < 2 ^ n) : ifft exactA n e j = a j := by
  rw [ifft_congr exactA n (b := fft exactA n a) (fun j hj => by rw [h j hj, fft_val hn a j hj]) j hj,
    ifft_fft hn a j hj]

end Falcon
