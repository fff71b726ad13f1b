import Verif.Model.UnitTests
import Verif.Proofs.CheckNtru64
import Verif.Proofs.DiagFloat

/-!
# The tests of the complex transform
-/

namespace Falcon

open Finset

section
variable {A : Arith ℝ ℂ} (hA : Accurate A)
include hA

theorem rounded_same {x : ℂ} {v : ℤ} (h : ‖x - (v : ℂ)‖ ≤ 1 / 4) (hv : |v| ≤ 2 ^ 60) : roundedDiffers A x v = false := by
  have h2 := Complex.abs_re_le_norm (x - (v : ℂ))
  rw [Complex.sub_re, Complex.intCast_re] at h2
  have h3 := abs_le.mp hv
  unfold roundedDiffers
  rw [hA.roundTo, hA.re]
  unfold exactRoundTo
  rw [stdRound_near (lt_of_le_of_lt (h2.trans h) (by norm_num)), if_pos (by constructor <;> omega)]
  simp

/-- The transform of a polynomial with small coefficients, pointwise. -/
theorem small_fft {n : ℕ} (hn : n ≤ 10) {p : Mem ℤ} (hp : ∀ i, i < 2 ^ n → |p i| ≤ 31) :
    nC (2 ^ n) (zC p) ≤ 2 ^ 10 ∧ ∀ j, j < 2 ^ n → ‖dft n (zC p) j‖ ≤ 2 ^ 15 ∧
      ‖fft A n (loop (1 <<< n) (fun i m => upd m i (A.ofInt (p i))) (junkC A)) j - dft n (zC p) j‖ ≤ 1 / 2 ^ 30 := by
  have hs32 := sqrt2_pow_le hn
  have hs0 : 0 ≤ Real.sqrt 2 ^ n := by positivity
  have hN : nC (2 ^ n) (zC p) ≤ 2 ^ 10 := by
    refine (abs_le_of_sq_le_sq' ?_ (by norm_num)).2
    rw [nC_zC_sq]
    have h1 : ∑ i ∈ range (2 ^ n), (p i : ℝ) ^ 2 ≤ ∑ _i ∈ range (2 ^ n), (1024 : ℝ) := by
      refine sum_le_sum fun i hi => ?_
      have h2 := abs_le.mp (hp i (mem_range.mp hi))
      have h3 : p i ^ 2 ≤ 1024 := by nlinarith
      exact_mod_cast h3
    rw [sum_const, card_range, nsmul_eq_mul] at h1
    have h2 : ((2 ^ n : ℕ) : ℝ) ≤ 2 ^ 10 := by exact_mod_cast Nat.pow_le_pow_right (by norm_num) hn
    norm_num at h1 h2 ⊢
    linarith
  have hN0 := nC_nonneg (2 ^ n) (zC p)
  refine ⟨hN, fun j hj => ⟨?_, ?_⟩⟩
  · have h1 := nC_ge (a := dft n (zC p)) hj
    rw [nC_dft hn] at h1
    refine h1.trans ?_
    have : Real.sqrt 2 ^ n * nC (2 ^ n) (zC p) ≤ 32 * 2 ^ 10 := by gcongr
    norm_num at this ⊢
    exact this
  · have h1 := nC_ge (a := fun i => fft A n (toCx A n p) i - dft n (zC p) i) hj
    have h2 := fft_near hA hn (zC p) (toCx A n p) (toCx_at hA fun i hi => (hp i hi).trans (by norm_num))
    refine (h1.trans h2).trans ?_
    rw [show kapD = 1 / 2 ^ 46 from rfl]
    have : Real.sqrt 2 ^ n * (nC (2 ^ n) (zC p) + 1) ≤ 32 * (2 ^ 10 + 1) := by gcongr
    norm_num at this ⊢
    linarith

/-- A transform that is right up to 2^-20 at each point gives rounded coefficients that are right. -/
theorem ifft_round {n : ℕ} (hn : n ≤ 10) {p : Mem ℤ} (hp : ∀ i, i < 2 ^ n → |p i| ≤ 31) {x : Mem ℂ}
    (hx : ∀ j, j < 2 ^ n → ‖x j - dft n (zC p) j‖ ≤ 1 / 2 ^ 20) (i : ℕ) (hi : i < 2 ^ n) :
    roundedDiffers A (ifft A n x i) (p i) = false := by
  have hN := (small_fft hA hn hp).1
  have hsum : nC (2 ^ n) (fun i => x i - dft n (zC p) i) ≤ 1 / 2 ^ 20 * Real.sqrt 2 ^ n := by
    have := nC_maj1 (e := fun i => x i - dft n (zC p) i) (x := fun _ => 0) (a := 0) (d := 1 / 2 ^ 20) (N := 2 ^ n) le_rfl
      (by norm_num) (fun i hi => by simpa using hx i hi)
    rw [sqrt_pow2 n] at this
    linarith
  have h := ifft_near hA hn x (zC p) hsum
  have hs1 : 1 ≤ Real.sqrt 2 ^ n := one_le_pow₀ sqrt2_ge
  have hE : nC (2 ^ n) (fun i => ifft A n x i - zC p i) ≤ 1 / 4 := by
    generalize nC (2 ^ n) (fun i => ifft A n x i - zC p i) = E at *
    have hy0 := nC_nonneg (2 ^ n) (zC p)
    generalize nC (2 ^ n) (zC p) = y at *
    generalize Real.sqrt 2 ^ n = s at *
    have h2 : s * y ≤ s * 2 ^ 10 := by gcongr
    rw [show kapD = 1 / 2 ^ 46 from rfl] at h
    have : E * s ≤ 1 / 4 * s := by
      generalize s * y = sy at *
      norm_num at h h2 ⊢
      linarith
    exact le_of_mul_le_mul_right this (by linarith)
  refine rounded_same hA ?_ ((hp i hi).trans (by norm_num))
  exact (nC_ge (a := fun i => ifft A n x i - zC p i) hi).trans hE

/-- Product and quotient by the same number. -/
theorem mul_div_err {a b : ℂ} (ha : ‖a‖ ≤ 2 ^ 16) (hb : 1 / 2 ^ 20 ≤ ‖b‖) : ‖A.cdiv (A.cmul a b) b - a‖ ≤ 1 / 2 ^ 30 := by
  have h1 := hA.cmul a b
  have h2 := hA.cdiv (A.cmul a b) b hb
  generalize A.cmul a b = c at *
  generalize A.cdiv c b = d at *
  have hb0 : 0 < ‖b‖ := lt_of_lt_of_le (by norm_num) hb
  have hbn : b ≠ 0 := norm_pos_iff.mp hb0
  have h3 : ‖c / b - a‖ ≤ 4 * uD * ‖a‖ + tinyD * 2 ^ 20 := by
    have e : c / b - a = (c - a * b) / b := by field_simp
    rw [e, norm_div, div_le_iff₀ hb0]
    refine h1.trans ?_
    have : tinyD ≤ tinyD * 2 ^ 20 * ‖b‖ := by
      have h0 := tinyD_pos
      have : tinyD * 1 ≤ tinyD * (2 ^ 20 * ‖b‖) := by
        gcongr
        norm_num at hb ⊢
        linarith
      linarith
    have e2 : (4 * uD * ‖a‖ + tinyD * 2 ^ 20) * ‖b‖ = 4 * uD * (‖a‖ * ‖b‖) + tinyD * 2 ^ 20 * ‖b‖ := by ring
    rw [e2]
    linarith
  have h4 : ‖c / b‖ ≤ ‖a‖ + ‖c / b - a‖ := by
    have := norm_add_le a (c / b - a)
    rwa [add_sub_cancel] at this
  have e : d - a = (d - c / b) + (c / b - a) := by ring
  rw [e]
  refine (norm_add_le _ _).trans ?_
  generalize ‖d - c / b‖ = t1 at *
  generalize ‖c / b - a‖ = t2 at *
  generalize ‖c / b‖ = t3 at *
  generalize ‖a‖ = t4 at *
  clear * - ha h2 h3 h4
  rw [show uD = 1 / 2 ^ 53 from rfl, show tinyD = 1 / 2 ^ 100 from rfl] at *
  norm_num at *
  linarith

/-- The test of product and quotient. -/
theorem testFft_ok {n : ℕ} (hn : n ≤ 10) {a b : Mem ℤ} (ha : ∀ i, i < 2 ^ n → |a i| ≤ 31) (hb : ∀ i, i < 2 ^ n → |b i| ≤ 31)
    (hb0 : ∀ j, j < 2 ^ n → 1 / 2 ^ 19 ≤ ‖dft n (zC b) j‖) : testFft A n a b = false := by
  unfold testFft
  simp only
  have key : ∀ (N : ℕ) (P : ℕ → Bool), (∀ i, i < N → P i = false) → loop N (fun i flg => flg || P i) false = false := by
    intro N P h
    induction N with
    | zero => rfl
    | succ N ih => rw [loop_succ, ih (fun i hi => h i (by omega)), h N (by omega)]; rfl
  refine key _ _ fun i hi => ?_
  rw [one_shiftLeft'] at hi
  refine ifft_round hA hn ha (fun j hj => ?_) i hi
  rw [polyDivC_at, if_pos hj, polyMulC_at, if_pos hj]
  obtain ⟨a1, a2⟩ := (small_fft hA hn ha).2 j hj
  obtain ⟨-, b2⟩ := (small_fft hA hn hb).2 j hj
  have b1 := hb0 j hj
  generalize fft A n (loop (1 <<< n) (fun i m => upd m i (A.ofInt (a i))) (junkC A)) j = x at *
  generalize fft A n (loop (1 <<< n) (fun i m => upd m i (A.ofInt (b i))) (junkC A)) j = y at *
  generalize dft n (zC a) j = x' at *
  generalize dft n (zC b) j = y' at *
  have n1 : ‖x‖ ≤ ‖x'‖ + ‖x - x'‖ := by
    have := norm_add_le x' (x - x'); rwa [add_sub_cancel] at this
  have n2 : ‖y'‖ ≤ ‖y‖ + ‖y - y'‖ := by
    have := norm_sub_le y (y - y'); rwa [sub_sub_cancel] at this
  have h := mul_div_err hA (a := x) (b := y) (by norm_num at *; linarith) (by norm_num at *; linarith)
  have e : A.cdiv (A.cmul x y) y - x' = (A.cdiv (A.cmul x y) y - x) + (x - x') := by ring
  rw [e]
  refine (norm_add_le _ _).trans ?_
  norm_num at *
  linarith

/-- The halves of the split, pointwise. -/
theorem testSplit_err {k : ℕ} (hk : k + 1 ≤ 10) {f : Mem ℤ} (hf : ∀ i, i < 2 ^ (k + 1) → |f i| ≤ 31) {x u v : Mem ℂ}
    (hx : ∀ j, j < 2 ^ (k + 1) → ‖x j - dft (k + 1) (zC f) j‖ ≤ 1 / 2 ^ 30) (j : ℕ) (hj : j < 2 ^ k) :
    ‖(splitFft A (k + 1) x u v).1 j - dft k (zC fun i => f (2 * i)) j‖ ≤ 1 / 2 ^ 24 ∧
    ‖(splitFft A (k + 1) x u v).2 j - dft k (zC fun i => f (2 * i + 1)) j‖ ≤ 1 / 2 ^ 24 := by
  have hb := (small_fft hA hk hf).2
  have j1 : 2 * j < 2 ^ (k + 1) := by rw [pow_succ]; omega
  have j2 : 2 * j + 1 < 2 ^ (k + 1) := by rw [pow_succ]; omega
  have hk2 : 2 ^ k + j < 1024 := by
    have : 2 ^ (k + 1) ≤ 2 ^ 10 := Nat.pow_le_pow_right (by norm_num) hk
    rw [pow_succ] at this
    omega
  rw [splitFft_fst, if_pos hj, splitFft_snd, if_pos hj]
  have x1 := hx _ j1
  have x2 := hx _ j2
  have y1 := (hb _ j1).1
  have y2 := (hb _ j2).1
  have e1 := dft_even hk (zC f) j hj
  have e2 := dft_odd hk (zC f) j hj
  have d1 : (fun i => zC f (2 * i)) = zC fun i => f (2 * i) := rfl
  have d2 : (fun i => zC f (2 * i + 1)) = zC fun i => f (2 * i + 1) := rfl
  rw [d1, d2] at e1 e2
  generalize dft k (zC fun i => f (2 * i)) j = p at *
  generalize dft k (zC fun i => f (2 * i + 1)) j = r at *
  generalize dft (k + 1) (zC f) (2 * j) = X at *
  generalize dft (k + 1) (zC f) (2 * j + 1) = Y at *
  generalize x (2 * j) = a at *
  generalize x (2 * j + 1) = b at *
  have n1 : ‖a‖ ≤ ‖X‖ + ‖a - X‖ := by have := norm_add_le X (a - X); rwa [add_sub_cancel] at this
  have n2 : ‖b‖ ≤ ‖Y‖ + ‖b - Y‖ := by have := norm_add_le Y (b - Y); rwa [add_sub_cancel] at this
  have ha : ‖a‖ ≤ 35000000 := by norm_num at *; linarith
  have hb' : ‖b‖ ≤ 35000000 := by norm_num at *; linarith
  constructor
  · have h1 := half_add hA ha hb'
    generalize A.scale (A.lit (1 / 2)) (A.cadd a b) = w at *
    have e : w - p = (w - (a + b) / 2) + ((a - X) / 2 + (b - Y) / 2) := by rw [e1, e2]; ring
    rw [e]
    refine (norm_add_le _ _).trans ((add_le_add_right (norm_add_le _ _) _).trans ?_)
    rw [norm_div, norm_div, Complex.norm_ofNat]
    norm_num at *
    linarith
  · have h1 := half_sub hA ha hb'
    generalize A.scale (A.lit (1 / 2)) (A.csub a b) = w at *
    have h2 := conjtab_err hA hk2 w
    generalize A.cmul w (A.conj (A.tab (2 ^ k + j))) = t at *
    have hc : (starRingEnd ℂ) (cT (2 ^ k + j)) * cT (2 ^ k + j) = 1 := by
      rw [mul_comm, Complex.mul_conj, Complex.normSq_eq_norm_sq, cT_norm]; simp
    have hcn : ‖(starRingEnd ℂ) (cT (2 ^ k + j))‖ = 1 := by rw [RCLike.norm_conj, cT_norm]
    generalize (starRingEnd ℂ) (cT (2 ^ k + j)) = s at *
    generalize cT (2 ^ k + j) = s' at *
    have e : t - r = (t - s * w) + s * ((w - (a - b) / 2) + ((a - X) / 2 - (b - Y) / 2)) := by
      rw [e1, e2]; linear_combination r * hc
    have hw : ‖w‖ ≤ ‖(w - (a - b) / 2)‖ + (‖a‖ / 2 + ‖b‖ / 2) := by
      have e3 : w = (w - (a - b) / 2) + (a / 2 - b / 2) := by ring
      have t1 := norm_add_le (w - (a - b) / 2) (a / 2 - b / 2)
      have t2 := norm_sub_le (a / 2) (b / 2)
      rw [← e3] at t1
      rw [norm_div, norm_div, Complex.norm_ofNat] at t2
      linarith
    rw [e]
    refine (norm_add_le _ _).trans ?_
    rw [norm_mul, hcn, one_mul]
    refine (add_le_add_right ((norm_add_le _ _).trans (add_le_add_right (norm_sub_le _ _) _)) _).trans ?_
    rw [norm_div, norm_div, Complex.norm_ofNat]
    rw [show uD = 1 / 2 ^ 53 from rfl, show tinyD = 1 / 2 ^ 100 from rfl] at h2
    generalize ‖w - (a - b) / 2‖ = t1 at *
    generalize ‖t - s * w‖ = t2 at *
    generalize ‖w‖ = t3 at *
    generalize ‖a‖ = t4 at *
    generalize ‖b‖ = t5 at *
    generalize ‖a - X‖ = t6 at *
    generalize ‖b - Y‖ = t7 at *
    generalize ‖X‖ = t8 at *
    generalize ‖Y‖ = t9 at *
    clear * - h1 h2 hw n1 n2 x1 x2 y1 y2
    norm_num at *
    linarith

/-- The merge, pointwise. -/
theorem testMerge_err {k : ℕ} (hk : k + 1 ≤ 10) {f : Mem ℤ} (hf : ∀ i, i < 2 ^ (k + 1) → |f i| ≤ 31) {x u v : Mem ℂ}
    (h0 : ∀ j, j < 2 ^ k → ‖u j - dft k (zC fun i => f (2 * i)) j‖ ≤ 1 / 2 ^ 24)
    (h1 : ∀ j, j < 2 ^ k → ‖v j - dft k (zC fun i => f (2 * i + 1)) j‖ ≤ 1 / 2 ^ 24) (j : ℕ) (hj : j < 2 ^ (k + 1)) :
    ‖mergeFft A (k + 1) u v x j - dft (k + 1) (zC f) j‖ ≤ 1 / 2 ^ 20 := by
  have hj2 : j / 2 < 2 ^ k := by rw [pow_succ] at hj; omega
  have hk2 : 2 ^ k + j / 2 < 1024 := by
    have : 2 ^ (k + 1) ≤ 2 ^ 10 := Nat.pow_le_pow_right (by norm_num) hk
    rw [pow_succ] at this
    omega
  have b0 := ((small_fft hA (by omega : k ≤ 10) (p := fun i => f (2 * i)) fun i hi => hf _ (by rw [pow_succ]; omega)).2 _ hj2).1
  have b1 := ((small_fft hA (by omega : k ≤ 10) (p := fun i => f (2 * i + 1)) fun i hi => hf _ (by rw [pow_succ]; omega)).2 _ hj2).1
  have u1 := h0 _ hj2
  have v1 := h1 _ hj2
  rw [mergeFft_at, if_pos hj]
  have d1 : (fun i => zC f (2 * i)) = zC fun i => f (2 * i) := rfl
  have d2 : (fun i => zC f (2 * i + 1)) = zC fun i => f (2 * i + 1) := rfl
  have e1 := dft_even hk (zC f) (j / 2) hj2
  have e2 := dft_odd hk (zC f) (j / 2) hj2
  rw [d1, d2] at e1 e2
  have hm := tabmul_err hA hk2 (w := A.cmul (v (j / 2)) (A.tab (2 ^ k + j / 2))) (y := v (j / 2)) (by
    have := hA.cmul (v (j / 2)) (A.tab (2 ^ k + j / 2))
    rwa [mul_comm (v (j / 2)), mul_comm ‖v (j / 2)‖] at this)
  have hcn := cT_norm (2 ^ k + j / 2)
  generalize dft k (zC fun i => f (2 * i)) (j / 2) = p at *
  generalize dft k (zC fun i => f (2 * i + 1)) (j / 2) = r at *
  generalize A.cmul (v (j / 2)) (A.tab (2 ^ k + j / 2)) = w at *
  generalize u (j / 2) = a at *
  generalize v (j / 2) = b at *
  generalize cT (2 ^ k + j / 2) = s at *
  have n1 : ‖a‖ ≤ ‖p‖ + ‖a - p‖ := by have := norm_add_le p (a - p); rwa [add_sub_cancel] at this
  have n2 : ‖b‖ ≤ ‖r‖ + ‖b - r‖ := by have := norm_add_le r (b - r); rwa [add_sub_cancel] at this
  have n3 : ‖w‖ ≤ ‖b‖ + ‖w - s * b‖ := by
    have := norm_add_le (s * b) (w - s * b)
    rwa [add_sub_cancel, norm_mul, hcn, one_mul] at this
  have n4 : ‖s * (b - r)‖ = ‖b - r‖ := by rw [norm_mul, hcn, one_mul]
  have key : ∀ (t : ℂ) {z : ℂ}, ‖t - z‖ ≤ uD * ‖z‖ + tinyD → ‖z‖ ≤ ‖a‖ + ‖w‖ → ∀ y, ‖z - y‖ ≤ ‖a - p‖ + (‖w - s * b‖ + ‖b - r‖) →
      ‖t - y‖ ≤ 1 / 2 ^ 20 := by
    intro t z h1 h2 y h3
    have e : t - y = (t - z) + (z - y) := by ring
    rw [e]
    refine (norm_add_le _ _).trans ?_
    rw [show uD = 1 / 2 ^ 53 from rfl, show tinyD = 1 / 2 ^ 100 from rfl] at *
    generalize ‖t - z‖ = t1 at *
    generalize ‖z - y‖ = t2 at *
    generalize ‖z‖ = t3 at *
    generalize ‖w‖ = t4 at *
    generalize ‖w - s * b‖ = t5 at *
    generalize ‖a‖ = t6 at *
    generalize ‖b‖ = t7 at *
    generalize ‖a - p‖ = t8 at *
    generalize ‖b - r‖ = t9 at *
    generalize ‖p‖ = t10 at *
    generalize ‖r‖ = t11 at *
    clear * - h1 h2 h3 n1 n2 n3 hm u1 v1 b0 b1
    norm_num at *
    linarith
  rcases Nat.mod_two_eq_zero_or_one j with h | h
  · rw [if_pos h, show j = 2 * (j / 2) by omega, e1]
    refine key _ (hA.cadd a w) (norm_add_le _ _) _ ?_
    have e : a + w - (p + s * r) = (a - p) + ((w - s * b) + s * (b - r)) := by ring
    rw [e]
    refine (norm_add_le _ _).trans ?_
    have := norm_add_le (w - s * b) (s * (b - r))
    rw [n4] at this
    linarith
  · rw [if_neg (by omega), show j = 2 * (j / 2) + 1 by omega, e2]
    refine key _ (hA.csub a w) (norm_sub_le _ _) _ ?_
    have e : a - w - (p - s * r) = (a - p) - ((w - s * b) + s * (b - r)) := by ring
    rw [e]
    refine (norm_sub_le _ _).trans ?_
    have := norm_add_le (w - s * b) (s * (b - r))
    rw [n4] at this
    linarith

/-- The test of splitting and merging. -/
theorem testSplitMerge_ok {k : ℕ} (hk : k + 1 ≤ 10) {f : Mem ℤ} (hf : ∀ i, i < 2 ^ (k + 1) → |f i| ≤ 31) :
    testSplitMerge A (k + 1) f = (false, false, false) := by
  unfold testSplitMerge
  simp only [Nat.add_sub_cancel]
  have key : ∀ (N : ℕ) (P : ℕ → Bool), (∀ i, i < N → P i = false) → loop N (fun i flg => flg || P i) false = false := by
    intro N P h
    induction N with
    | zero => rfl
    | succ N ih => rw [loop_succ, ih (fun i hi => h i (by omega)), h N (by omega)]; rfl
  have hsp := fun j hj => testSplit_err hA hk hf (x := fft A (k + 1) (loop (1 <<< (k + 1)) (fun i m => upd m i (A.ofInt (f i))) (junkC A)))
    (u := junkC A) (v := junkC A) (fun j hj => ((small_fft hA hk hf).2 j hj).2) j hj
  rw [Prod.mk.injEq, Prod.mk.injEq]
  refine ⟨key _ _ fun i hi => ?_, key _ _ fun i hi => ?_, key _ _ fun i hi => ?_⟩
  · rw [half_shift] at hi
    refine ifft_round hA (by omega) (p := fun i => f (2 * i)) (fun i hi => hf _ (by rw [pow_succ]; omega)) (fun j hj => ?_) i hi
    exact (hsp j hj).1.trans (by norm_num)
  · rw [half_shift] at hi
    refine ifft_round hA (by omega) (p := fun i => f (2 * i + 1)) (fun i hi => hf _ (by rw [pow_succ]; omega)) (fun j hj => ?_) i hi
    exact (hsp j hj).2.trans (by norm_num)
  · rw [one_shiftLeft'] at hi
    exact ifft_round hA hk hf (fun j hj => testMerge_err hA hk hf (fun j hj => (hsp j hj).1) (fun j hj => (hsp j hj).2) j hj) i hi

end

end Falcon
