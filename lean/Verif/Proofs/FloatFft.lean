import Verif.Proofs.L2
import Verif.Proofs.FftExact
import Verif.Proofs.Sampling
import Verif.Proofs.SignExact
import Verif.FloatSpec

/-!
# Rounding errors of the transforms
-/

namespace Falcon

open Finset

theorem uD_pos : 0 < uD := by unfold uD; positivity
theorem tinyD_pos : 0 < tinyD := by unfold tinyD; positivity
theorem uD_le : uD ≤ 1 / 1000 := by unfold uD; norm_num
theorem tinyD_le : tinyD ≤ uD / 10 ^ 6 := by unfold tinyD uD; norm_num

section
variable {A : Arith ℝ ℂ} (hA : Accurate A)
include hA

theorem tab_err {k : ℕ} (hk : k < 1024) : ‖A.tab k - cT k‖ ≤ 6 * uD := by
  have := hA.tab k hk
  rwa [exact_tab] at this

theorem tab_norm {k : ℕ} (hk : k < 1024) : ‖A.tab k‖ ≤ 1 + 6 * uD := by
  have h1 := tab_err hA hk
  have h2 := norm_add_le (cT k) (A.tab k - cT k)
  rw [add_sub_cancel, cT_norm] at h2
  linarith

/-- Product of a table entry and a number. -/
theorem tabmul_err {k : ℕ} (hk : k < 1024) {w y : ℂ} (hw : ‖w - A.tab k * y‖ ≤ 4 * uD * (‖A.tab k‖ * ‖y‖) + tinyD) :
    ‖w - cT k * y‖ ≤ 21 / 2 * uD * ‖y‖ + tinyD := by
  have h1 := tab_err hA hk
  have h2 := tab_norm hA hk
  have h3 : w - cT k * y = (w - A.tab k * y) + (A.tab k - cT k) * y := by ring
  rw [h3]
  refine (norm_add_le _ _).trans ?_
  rw [norm_mul]
  have hy := norm_nonneg y
  have hu := uD_pos
  have hu' := uD_le
  have h4 : ‖A.tab k - cT k‖ * ‖y‖ ≤ 6 * uD * ‖y‖ := mul_le_mul_of_nonneg_right h1 hy
  have h5 : ‖A.tab k‖ * ‖y‖ ≤ (1 + 6 * uD) * ‖y‖ := mul_le_mul_of_nonneg_right h2 hy
  have h6 : 4 * uD * (‖A.tab k‖ * ‖y‖) ≤ 4 * uD * ((1 + 6 * uD) * ‖y‖) := mul_le_mul_of_nonneg_left h5 (by positivity)
  have h7 : 0 ≤ uD * ‖y‖ := by positivity
  have h8 : uD * (uD * ‖y‖) ≤ 1 / 1000 * (uD * ‖y‖) := mul_le_mul_of_nonneg_right hu' h7
  nlinarith

/-- Sum of a number and an approximate product. -/
theorem bf_err {x w v s : ℂ} {m : ℝ} (hm : 0 ≤ m) (hw : ‖w - v‖ ≤ 21 / 2 * uD * m + tinyD)
    (hs : ‖s - (x + w)‖ ≤ uD * ‖x + w‖ + tinyD) : ‖s - (x + v)‖ ≤ 53 / 5 * uD * m + uD * ‖x + v‖ + 3 * tinyD := by
  have h1 : s - (x + v) = (s - (x + w)) + (w - v) := by ring
  have h2 : ‖x + w‖ ≤ ‖x + v‖ + ‖w - v‖ := by
    have := norm_add_le (x + v) (w - v)
    rwa [show x + v + (w - v) = x + w by ring] at this
  rw [h1]
  refine (norm_add_le _ _).trans ?_
  have hu := uD_pos
  have hu' := uD_le
  have ht := tinyD_pos
  have h3 : uD * ‖x + w‖ ≤ uD * (‖x + v‖ + (21 / 2 * uD * m + tinyD)) :=
    mul_le_mul_of_nonneg_left (h2.trans (add_le_add le_rfl hw)) hu.le
  have h4 : uD * (uD * m) ≤ 1 / 1000 * (uD * m) := mul_le_mul_of_nonneg_right hu' (by positivity)
  have h5 : uD * tinyD ≤ 1 / 1000 * tinyD := mul_le_mul_of_nonneg_right hu' ht.le
  nlinarith

theorem fftBf_err {k : ℕ} (hk : k < 1024) (x y : ℂ) :
    ‖(fftBf A k x y).1 - (ctBf cT k x y).1‖ ≤ 53 / 5 * uD * ‖y‖ + uD * ‖(ctBf cT k x y).1‖ + 3 * tinyD ∧
    ‖(fftBf A k x y).2 - (ctBf cT k x y).2‖ ≤ 53 / 5 * uD * ‖y‖ + uD * ‖(ctBf cT k x y).2‖ + 3 * tinyD := by
  have h1 := tabmul_err hA hk (hA.cmul (A.tab k) y)
  constructor
  · exact bf_err hA (norm_nonneg _) h1 (hA.cadd x _)
  · show ‖A.csub x (A.cmul (A.tab k) y) - (x - cT k * y)‖ ≤ _ + uD * ‖x - cT k * y‖ + _
    rw [sub_eq_add_neg x (cT k * y)]
    refine bf_err hA (w := -A.cmul (A.tab k) y) (norm_nonneg _) ?_ ?_
    · rw [show -A.cmul (A.tab k) y - -(cT k * y) = -(A.cmul (A.tab k) y - cT k * y) by ring, norm_neg]
      exact h1
    · rw [← sub_eq_add_neg]; exact hA.csub x _

theorem ifftBf_err {k : ℕ} (hk : k < 1024) (x y : ℂ) :
    ‖(ifftBf A k x y).1 - (gsBf cT k x y).1‖ ≤ 0 * ‖y‖ + 58 / 5 * uD * ‖(gsBf cT k x y).1‖ + 3 * tinyD ∧
    ‖(ifftBf A k x y).2 - (gsBf cT k x y).2‖ ≤ 0 * ‖y‖ + 58 / 5 * uD * ‖(gsBf cT k x y).2‖ + 3 * tinyD := by
  have hu := uD_pos
  have hu' := uD_le
  have ht := tinyD_pos
  constructor
  · have h := hA.cadd x y
    show ‖A.cadd x y - (x + y)‖ ≤ _ + 58 / 5 * uD * ‖x + y‖ + _
    have : 0 ≤ uD * ‖x + y‖ := by positivity
    linarith
  · have h1 := hA.csub x y
    set w := A.csub x y with hw
    have h2 := tabmul_err hA hk (y := -w) (w := A.cmul w (A.cneg (A.tab k))) (by
      have := hA.cmul w (A.cneg (A.tab k))
      rw [hA.cneg] at this ⊢
      rw [norm_neg, show w * -A.tab k = A.tab k * -w by ring, mul_comm ‖w‖] at this
      rw [norm_neg]; exact this)
    show ‖A.cmul w (A.cneg (A.tab k)) - (x - y) * -cT k‖ ≤ _ + 58 / 5 * uD * ‖(x - y) * -cT k‖ + _
    rw [norm_mul, norm_neg, cT_norm, mul_one]
    have h3 : A.cmul w (A.cneg (A.tab k)) - (x - y) * -cT k
        = (A.cmul w (A.cneg (A.tab k)) - cT k * -w) - cT k * (w - (x - y)) := by ring
    rw [h3]
    refine (norm_sub_le _ _).trans ?_
    rw [norm_mul, cT_norm, one_mul]
    rw [norm_neg] at h2
    have h4 : ‖w‖ ≤ ‖x - y‖ + ‖w - (x - y)‖ := by
      have := norm_add_le (x - y) (w - (x - y))
      rwa [add_sub_cancel] at this
    have h5 : 0 ≤ uD * ‖x - y‖ := by positivity
    have h6 : uD * ‖w‖ ≤ uD * (‖x - y‖ + (uD * ‖x - y‖ + tinyD)) :=
      mul_le_mul_of_nonneg_left (h4.trans (add_le_add le_rfl h1)) hu.le
    have h7 : uD * (uD * ‖x - y‖) ≤ 1 / 1000 * (uD * ‖x - y‖) := mul_le_mul_of_nonneg_right hu' h5
    have h8 : uD * tinyD ≤ 1 / 1000 * tinyD := mul_le_mul_of_nonneg_right hu' ht.le
    nlinarith

end

theorem ct_iso (k : ℕ) (x y : ℂ) :
    ‖(ctBf cT k x y).1‖ ^ 2 + ‖(ctBf cT k x y).2‖ ^ 2 = 2 * (‖x‖ ^ 2 + ‖y‖ ^ 2) := by
  have := parallelogram x y (cT k) (cT_normSq k)
  rw [Complex.normSq_eq_norm_sq, Complex.normSq_eq_norm_sq, Complex.normSq_eq_norm_sq, Complex.normSq_eq_norm_sq] at this
  exact this

theorem gs_iso (k : ℕ) (x y : ℂ) :
    ‖(gsBf cT k x y).1‖ ^ 2 + ‖(gsBf cT k x y).2‖ ^ 2 = 2 * (‖x‖ ^ 2 + ‖y‖ ^ 2) := by
  have h := parallelogram x y 1 (by simp)
  rw [Complex.normSq_eq_norm_sq, Complex.normSq_eq_norm_sq, Complex.normSq_eq_norm_sq, Complex.normSq_eq_norm_sq,
    one_mul] at h
  show ‖x + y‖ ^ 2 + ‖(x - y) * -cT k‖ ^ 2 = _
  rw [norm_mul, norm_neg, cT_norm, mul_one]
  exact h

theorem ct_lin (k : ℕ) (x y u v : ℂ) : ctBf cT k (x - u) (y - v) = ctBf cT k x y - ctBf cT k u v := by
  unfold ctBf
  simp only [Prod.mk_sub_mk]
  congr 1 <;> ring

theorem gs_lin (k : ℕ) (x y u v : ℂ) : gsBf cT k (x - u) (y - v) = gsBf cT k x y - gsBf cT k u v := by
  unfold gsBf
  simp only [Prod.mk_sub_mk]
  congr 1 <;> ring

/-- Relative error bound of `m` layers, for an input with error `e` and exact norm `p`. -/
noncomputable def layBnd (m : ℕ) (e p : ℝ) : ℝ :=
  Real.sqrt 2 ^ m * ((1 + 12 * uD) ^ m * (e + (p + 1)) - (p + 1))

theorem layBnd_nonneg (m : ℕ) {e p : ℝ} (he : 0 ≤ e) (hp : 0 ≤ p) : 0 ≤ layBnd m e p := by
  unfold layBnd
  apply mul_nonneg (by positivity)
  have h1 : (1 : ℝ) ≤ (1 + 12 * uD) ^ m := one_le_pow₀ (by have := uD_pos; linarith)
  nlinarith

theorem sqrt2_ge : 1 ≤ Real.sqrt 2 := by
  rw [Real.one_le_sqrt]; norm_num

theorem layBnd_step (m : ℕ) {e p E P c d : ℝ} (he : 0 ≤ e) (hp : 0 ≤ p) (hc : 0 ≤ c) (hcu : c ≤ 12 * uD)
    (hd : d ≤ 12 * uD) (hE : E ≤ layBnd m e p) (hP : P ≤ Real.sqrt 2 ^ m * p + E) :
    Real.sqrt 2 * E + Real.sqrt 2 * c * P + Real.sqrt 2 * d ≤ layBnd (m + 1) e p := by
  have h2 := sqrt2_ge
  have hm : 1 ≤ Real.sqrt 2 ^ m := one_le_pow₀ h2
  have hb := layBnd_nonneg m he hp
  have hu := uD_pos
  have key : layBnd (m + 1) e p = Real.sqrt 2 * ((1 + 12 * uD) * layBnd m e p + 12 * uD * (Real.sqrt 2 ^ m * (p + 1))) := by
    unfold layBnd; ring
  rw [key]
  have : E + c * P + d ≤ (1 + 12 * uD) * layBnd m e p + 12 * uD * (Real.sqrt 2 ^ m * (p + 1)) := by
    have e1 : c * P ≤ 12 * uD * (Real.sqrt 2 ^ m * p + layBnd m e p) := by
      have h3 : c * P ≤ c * (Real.sqrt 2 ^ m * p + layBnd m e p) := mul_le_mul_of_nonneg_left (by linarith) hc
      have h4 : 0 ≤ Real.sqrt 2 ^ m * p + layBnd m e p := by positivity
      nlinarith
    have e2 : 12 * uD ≤ 12 * uD * Real.sqrt 2 ^ m := by nlinarith
    nlinarith
  calc Real.sqrt 2 * E + Real.sqrt 2 * c * P + Real.sqrt 2 * d = Real.sqrt 2 * (E + c * P + d) := by ring
    _ ≤ _ := mul_le_mul_of_nonneg_left this (by linarith)

theorem sqrt_pow2 (n : ℕ) : Real.sqrt ((2 ^ n : ℕ) : ℝ) = Real.sqrt 2 ^ n := by
  rw [Nat.cast_pow, Real.sqrt_eq_iff_mul_self_eq (by positivity) (by positivity), ← mul_pow,
    Real.mul_self_sqrt (by norm_num), Nat.cast_ofNat]

theorem sqrt2_pow_le {n : ℕ} (hn : n ≤ 10) : Real.sqrt 2 ^ n ≤ 32 := by
  have h1 : Real.sqrt 2 ^ n ≤ Real.sqrt 2 ^ 10 := pow_le_pow_right₀ sqrt2_ge hn
  have h2 : Real.sqrt 2 ^ 10 = 32 := by
    rw [show 10 = 2 * 5 by norm_num, pow_mul, Real.sq_sqrt (by norm_num)]; norm_num
  linarith

theorem tail_le {n : ℕ} (hn : n ≤ 10) : Real.sqrt ((2 ^ n : ℕ) : ℝ) * (3 * tinyD) ≤ Real.sqrt 2 * (12 * uD) := by
  rw [sqrt_pow2]
  have h1 := sqrt2_pow_le hn
  have h2 := sqrt2_ge
  have h3 := tinyD_le
  have h4 := tinyD_pos
  have h5 := uD_pos
  nlinarith

section
variable {A : Arith ℝ ℂ} (hA : Accurate A)
include hA

theorem down_err {n : ℕ} (hn : n ≤ 10) (a p : Mem ℂ) : ∀ m, m ≤ n →
    nC (2 ^ n) (fun i => loop m (fun j a => downLayer n (n - 1 - j) (bfStep (fftBf A)) a) a i
      - loop m (fun j a => downLayer n (n - 1 - j) (bfStep (ctBf cT)) a) p i)
      ≤ layBnd m (nC (2 ^ n) fun i => a i - p i) (nC (2 ^ n) p) ∧
    nC (2 ^ n) (loop m (fun j a => downLayer n (n - 1 - j) (bfStep (ctBf cT)) a) p)
      = Real.sqrt 2 ^ m * nC (2 ^ n) p := by
  intro m
  induction m with
  | zero => intro _; constructor
            · show nC (2 ^ n) (fun i => a i - p i) ≤ _
              unfold layBnd; linarith
            · show nC (2 ^ n) p = _
              simp
  | succ m ih =>
    intro hm
    obtain ⟨i1, i2⟩ := ih (by omega)
    rw [loop_succ, loop_succ]
    have hl : n - 1 - m < n := by omega
    have hN := (layer_idx hl).2
    have hu := uD_pos
    have ht := tinyD_pos
    have h2n : (2 : ℕ) ^ n ≤ 1024 := (Nat.pow_le_pow_right (by norm_num) hn).trans (by norm_num)
    have h0 : 0 < 2 ^ (n - 1 - m) := by positivity
    generalize loop m (fun j a => downLayer n (n - 1 - j) (bfStep (fftBf A)) a) a = x at *
    generalize loop m (fun j a => downLayer n (n - 1 - j) (bfStep (ctBf cT)) a) p = y at *
    have hx := downLayer_spec hl (fftBf A) x
    have hy := downLayer_spec hl (ctBf cT) y
    have e1 := layer_err (c1 := 53 / 5 * uD) (c2 := uD) (d := 3 * tinyD) (by linarith) hu.le (by linarith)
      hx hy ct_iso ct_lin (fun b hb x y => fftBf_err hA (by nlinarith) x y)
    have e2 := layer_iso hy ct_iso
    rw [hN] at e1 e2
    constructor
    · refine e1.trans ?_
      refine le_trans (add_le_add le_rfl (tail_le hn)) ?_
      refine layBnd_step m (nC_nonneg _ _) (nC_nonneg _ _) (by linarith) (by linarith) le_rfl i1 ?_
      rw [← i2]
      exact nC_le_of
    · rw [e2, i2, pow_succ]; ring

/-- Error of the forward transform. -/
theorem fft_err {n : ℕ} (hn : n ≤ 10) (a p : Mem ℂ) :
    nC (2 ^ n) (fun i => fft A n a i - dft n p i) ≤ layBnd n (nC (2 ^ n) fun i => a i - p i) (nC (2 ^ n) p) := by
  have h := (down_err hA hn a p n le_rfl).1
  rw [nC_congr (b := fun i => loop n (fun j a => downLayer n (n - 1 - j) (bfStep (fftBf A)) a) a i
      - loop n (fun j a => downLayer n (n - 1 - j) (bfStep (ctBf cT)) a) p i)]
  · exact h
  · intro i hi
    rw [← fft_val hn p i hi, fft_eq, fft_eq, exact_fftBf]
    rfl

theorem up_err {n : ℕ} (hn : n ≤ 10) (a p : Mem ℂ) : ∀ m, m ≤ n →
    nC (2 ^ n) (fun i => loop m (fun j a => upLayer n j (bfStep (ifftBf A)) a) a i
      - loop m (fun j a => upLayer n j (bfStep (gsBf cT)) a) p i)
      ≤ layBnd m (nC (2 ^ n) fun i => a i - p i) (nC (2 ^ n) p) ∧
    nC (2 ^ n) (loop m (fun j a => upLayer n j (bfStep (gsBf cT)) a) p)
      = Real.sqrt 2 ^ m * nC (2 ^ n) p := by
  intro m
  induction m with
  | zero => intro _; constructor
            · show nC (2 ^ n) (fun i => a i - p i) ≤ _
              unfold layBnd; linarith
            · show nC (2 ^ n) p = _
              simp
  | succ m ih =>
    intro hm
    obtain ⟨i1, i2⟩ := ih (by omega)
    rw [loop_succ, loop_succ]
    have hl : m < n := by omega
    have hN := (layer_idx hl).2
    have hu := uD_pos
    have ht := tinyD_pos
    have h2n : (2 : ℕ) ^ n ≤ 1024 := (Nat.pow_le_pow_right (by norm_num) hn).trans (by norm_num)
    have h0 : 0 < 2 ^ m := by positivity
    have h1 : 0 < 2 ^ (n - m - 1) := by positivity
    have h3 : 2 * 2 ^ (n - m - 1) ≤ 2 ^ n := by nlinarith
    generalize loop m (fun j a => upLayer n j (bfStep (ifftBf A)) a) a = x at *
    generalize loop m (fun j a => upLayer n j (bfStep (gsBf cT)) a) p = y at *
    have hx := upLayer_spec hl (ifftBf A) x
    have hy := upLayer_spec hl (gsBf cT) y
    have e1 := layer_err (c1 := 0) (c2 := 58 / 5 * uD) (d := 3 * tinyD) le_rfl (by linarith) (by linarith)
      hx hy gs_iso gs_lin (fun b hb x y => ifftBf_err hA (by omega) x y)
    have e2 := layer_iso hy gs_iso
    rw [hN] at e1 e2
    constructor
    · refine e1.trans ?_
      refine le_trans (add_le_add le_rfl (tail_le hn)) ?_
      refine layBnd_step m (nC_nonneg _ _) (nC_nonneg _ _) (by linarith) (by linarith) le_rfl i1 ?_
      rw [← i2]
      exact nC_le_of
    · rw [e2, i2, pow_succ]; ring

end

end Falcon
