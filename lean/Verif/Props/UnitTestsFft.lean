import Verif.Proofs.TestFft
import Verif.Proofs.F64Poison

/-!
# C104. The outcome of the unit tests of the complex transform
-/

namespace Falcon

open Finset

section
variable {A : Arith F64 (F64 × F64)} {A' : Arith ℝ ℂ} (hS : Sim A A')
include hS

theorem rounded64 {e : ℕ} {d : F64 × F64} {x : ℂ} (h : FinC e d x) (v : ℤ) : roundedDiffers A d v = roundedDiffers A' x v := by
  unfold roundedDiffers
  rw [hS.roundTo (hS.re h)]

theorem input64 {n : ℕ} {a : Mem ℤ} (ha : ∀ i, i < 2 ^ n → |a i| ≤ 31) : RelBelow (2 ^ n) (FinC 5)
    (loop (1 <<< n) (fun i m => upd m i (A.ofInt (a i))) (junkC A)) (loop (1 <<< n) (fun i m => upd m i (A'.ofInt (a i))) (junkC A')) := by
  intro i hi
  rw [one_shiftLeft', loop_fill, loop_fill, if_pos hi, if_pos hi]
  refine hS.ofInt ?_ (by norm_num)
  have h1 : |a i| ≤ 2 ^ 5 := (ha i hi).trans (by norm_num)
  have : ((|a i| : ℤ) : ℝ) ≤ 2 ^ 5 := by exact_mod_cast h1
  rwa [Int.cast_abs] at this

theorem testFft64 {n : ℕ} (hn : n ≤ 10) {a b : Mem ℤ} (ha : ∀ i, i < 2 ^ n → |a i| ≤ 31) (hb : ∀ i, i < 2 ^ n → |b i| ≤ 31)
    (hb0 : ∀ j, j < 2 ^ n → (1 : ℝ) / 2 ^ 20 ≤ ‖fft A' n (loop (1 <<< n) (fun i m => upd m i (A'.ofInt (b i))) (junkC A')) j‖) :
    testFft A n a b = testFft A' n a b := by
  have ka := finC_fft hS hn (by norm_num) (input64 hS ha)
  have kb := finC_fft hS hn (by norm_num) (input64 hS hb)
  unfold testFft
  simp only
  refine loop_congr fun i hi m => ?_
  rw [one_shiftLeft'] at hi
  refine congrArg _ ?_
  refine rounded64 hS (finC_ifft hS (e := 149) hn (by norm_num) (fun j hj => ?_) i hi) _
  rw [polyDivC_at, if_pos hj, polyMulC_at, if_pos hj, polyDivC_at, if_pos hj, polyMulC_at, if_pos hj]
  have kaj := ka j hj
  have kbj := kb j hj
  have kb0 := hb0 j hj
  generalize fft A n _ j = x at *
  generalize fft A n _ j = y at *
  generalize fft A' n _ j = x' at *
  generalize fft A' n _ j = y' at *
  exact (hS.cdiv (hS.cmul kaj kbj (by norm_num)) kbj kb0 (by norm_num) (by norm_num)).mono (by norm_num)

theorem testSplitMerge64 {k : ℕ} (hk : k + 1 ≤ 10) {f : Mem ℤ} (hf : ∀ i, i < 2 ^ (k + 1) → |f i| ≤ 31) :
    testSplitMerge A (k + 1) f = testSplitMerge A' (k + 1) f := by
  have kf := finC_fft hS hk (by norm_num) (input64 hS hf)
  have hk2 : ∀ j, j < 2 ^ k → 2 ^ k + j < 1024 := by
    intro j hj
    have : 2 ^ (k + 1) ≤ 2 ^ 10 := Nat.pow_le_pow_right (by norm_num) hk
    rw [pow_succ] at this
    omega
  have s1 : ∀ u v u' v', RelBelow (2 ^ k) (FinC 40)
      (splitFft A (k + 1) (fft A (k + 1) (loop (1 <<< (k + 1)) (fun i m => upd m i (A.ofInt (f i))) (junkC A))) u v).1
      (splitFft A' (k + 1) (fft A' (k + 1) (loop (1 <<< (k + 1)) (fun i m => upd m i (A'.ofInt (f i))) (junkC A'))) u' v').1 := by
    intro u v u' v' j hj
    have p : 2 ^ (k + 1) = 2 * 2 ^ k := by rw [pow_succ, mul_comm]
    rw [splitFft_fst, splitFft_fst, if_pos hj, if_pos hj]
    exact (hS.scale hS.half (hS.cadd (kf _ (by omega)) (kf _ (by omega)) (by norm_num)) (by norm_num)).mono (by norm_num)
  have s2 : ∀ u v u' v', RelBelow (2 ^ k) (FinC 40)
      (splitFft A (k + 1) (fft A (k + 1) (loop (1 <<< (k + 1)) (fun i m => upd m i (A.ofInt (f i))) (junkC A))) u v).2
      (splitFft A' (k + 1) (fft A' (k + 1) (loop (1 <<< (k + 1)) (fun i m => upd m i (A'.ofInt (f i))) (junkC A'))) u' v').2 := by
    intro u v u' v' j hj
    have p : 2 ^ (k + 1) = 2 * 2 ^ k := by rw [pow_succ, mul_comm]
    rw [splitFft_snd, splitFft_snd, if_pos hj, if_pos hj]
    exact (hS.cmul (hS.scale hS.half (hS.csub (kf _ (by omega)) (kf _ (by omega)) (by norm_num)) (by norm_num))
      (hS.conj (hS.tab (hk2 j hj))) (by norm_num)).mono (by norm_num)
  unfold testSplitMerge
  simp only [Nat.add_sub_cancel]
  rw [Prod.mk.injEq, Prod.mk.injEq]
  refine ⟨loop_congr fun i hi m => ?_, loop_congr fun i hi m => ?_, loop_congr fun i hi m => ?_⟩
  · rw [half_shift] at hi
    rw [rounded64 hS (finC_ifft hS (by omega) (by norm_num) (s1 (junkC A) (junkC A) (junkC A') (junkC A')) i hi)]
  · rw [half_shift] at hi
    rw [rounded64 hS (finC_ifft hS (by omega) (by norm_num) (s2 (junkC A) (junkC A) (junkC A') (junkC A')) i hi)]
  · rw [one_shiftLeft'] at hi
    refine congrArg _ (rounded64 hS (finC_ifft hS (e := 43) hk (by norm_num) (fun j hj => ?_) i hi) _)
    have hj2 : j / 2 < 2 ^ k := by rw [pow_succ] at hj; omega
    rw [mergeFft_at, mergeFft_at, if_pos hj, if_pos hj]
    have t1 : FinC 42 _ _ := (s1 (junkC A) (junkC A) (junkC A') (junkC A') _ hj2).mono (by norm_num)
    have t2 : FinC 42 _ _ := hS.cmul (s2 (junkC A) (junkC A) (junkC A') (junkC A') _ hj2) (hS.tab (hk2 _ hj2)) (by norm_num)
    split
    · exact hS.cadd t1 t2 (by norm_num)
    · exact hS.csub t1 t2 (by norm_num)

end

/-- C104. On IEEE 754 data the test of splitting and merging passes for all polynomials of length 2 to 1024 with coefficients up to 31. -/
theorem C104_split_merge (b : Bool) (rm rd : F64.Recover) {n : ℕ} (h1 : 1 ≤ n) (hn : n ≤ 10) (f : Mem ℤ)
    (hf : ∀ i, i < 2 ^ n → |f i| ≤ 31) : testSplitMerge (f64A b rm rd) n f = (false, false, false) := by
  obtain ⟨k, rfl⟩ : ∃ k, n = k + 1 := ⟨n - 1, by omega⟩
  rw [testSplitMerge64 (sim_f64 b rm rd) hn hf]
  exact testSplitMerge_ok (accurate_ieee b) hn hf

/-- C104. On IEEE 754 data the test of products and quotients passes for all polynomials with coefficients up to 31 for which the divisor
is not nearly zero at a point. -/
theorem C104_mul_div (c : Bool) (rm rd : F64.Recover) {n : ℕ} (hn : n ≤ 10) (a b : Mem ℤ) (ha : ∀ i, i < 2 ^ n → |a i| ≤ 31)
    (hb : ∀ i, i < 2 ^ n → |b i| ≤ 31) (hb0 : ∀ j, j < 2 ^ n → 1 / 2 ^ 19 ≤ ‖dft n (zC b) j‖) :
    testFft (f64A c rm rd) n a b = false := by
  have hA := accurate_ieee c
  rw [testFft64 (sim_f64 c rm rd) hn ha hb fun j hj => ?_]
  · exact testFft_ok hA hn ha hb hb0
  · obtain ⟨-, b2⟩ := (small_fft hA hn hb).2 j hj
    have b1 := hb0 j hj
    generalize fft (ieeeA c) n (loop (1 <<< n) (fun i m => upd m i ((ieeeA c).ofInt (b i))) (junkC (ieeeA c))) j = y at *
    generalize dft n (zC b) j = y' at *
    have n2 : ‖y'‖ ≤ ‖y‖ + ‖y - y'‖ := by
      have := norm_sub_le y (y - y'); rwa [sub_sub_cancel] at this
    norm_num at *
    linarith

/-- The transform of zeros. -/
theorem fft_zeros (c : Bool) (n : ℕ) {z : Mem ℂ} (hz : ∀ i, i < 2 ^ n → z i = 0) : ∀ j, j < 2 ^ n → fft (ieeeA c) n z j = 0 := by
  have hm : ∀ x : ℂ, ieeeMul c x 0 = 0 := by
    intro x
    unfold ieeeMul
    split <;> apply Complex.ext <;> simp [rnd_zero]
  rw [fft_eq]
  have h := downLayers_rel (R := fun (x y : ℂ) => x = 0 ∧ y = 0) n (bf := fftBf (ieeeA c)) (bg := fftBf (ieeeA c))
    (fun k _ x x' y y' hx hy => by
      obtain ⟨rfl, rfl⟩ := hx
      obtain ⟨rfl, rfl⟩ := hy
      have h1 : fftBf (ieeeA c) k 0 0 = (0, 0) := by
        unfold fftBf
        rw [show (ieeeA c).cmul ((ieeeA c).tab k) 0 = 0 from hm _]
        refine Prod.ext ?_ ?_
        · show (⟨rnd _, rnd _⟩ : ℂ) = 0
          apply Complex.ext <;> simp [rnd_zero]
        · show (⟨rnd _, rnd _⟩ : ℂ) = 0
          apply Complex.ext <;> simp [rnd_zero]
      rw [h1]
      exact ⟨⟨rfl, rfl⟩, rfl, rfl⟩) (a := z) (b := z) fun j hj => ⟨hz j hj, hz j hj⟩
  exact fun j hj => (h j hj).1

/-- C104, violation: if all coefficients drawn for the divisor are zero the test fails, for every dividend and every n. -/
theorem C104_zero_divisor (c : Bool) (rm rd : F64.Recover) (hrd : F64.NoInvention rd) {n : ℕ} (hn : n ≤ 10) (a : Mem ℤ)
    (ha : ∀ i, i < 2 ^ n → |a i| ≤ 31) (b : Mem ℤ) (hb : ∀ i, i < 2 ^ n → b i = 0) : testFft (f64A c rm rd) n a b = true := by
  have hS := sim_f64 c rm rd
  have ka := finC_fft hS hn (by norm_num) (input64 hS ha)
  have kb := finC_fft hS hn (by norm_num) (input64 hS (a := b) fun i hi => by rw [hb i hi]; norm_num)
  have h0 : 0 < 2 ^ n := by positivity
  have hz : fft (ieeeA c) n (loop (1 <<< n) (fun i m => upd m i ((ieeeA c).ofInt (b i))) (junkC (ieeeA c))) 0 = 0 := by
    refine fft_zeros c n (fun i hi => ?_) 0 h0
    rw [one_shiftLeft', loop_fill, if_pos hi, hb i hi]
    show (⟨rnd _, rnd _⟩ : ℂ) = 0
    apply Complex.ext <;> simp [rnd_zero]
  have kb0 := kb 0 h0
  rw [hz] at kb0
  have hq := cdiv_zero (b := c) (rm := rm) (rd := rd) hrd (hS.cmul (ka 0 h0) kb0 (by norm_num)) kb0
    (by unfold denD; split <;> simp [rnd_zero]) (by norm_num) (by norm_num)
  unfold testFft
  simp only
  generalize fft (f64A c rm rd) n (loop (1 <<< n) (fun i m => upd m i ((f64A c rm rd).ofInt (a i))) (junkC (f64A c rm rd))) = x at *
  generalize fft (f64A c rm rd) n (loop (1 <<< n) (fun i m => upd m i ((f64A c rm rd).ofInt (b i))) (junkC (f64A c rm rd))) = y at *
  have hf := ifft_not_finite (b := c) (rm := rm) (rd := rd) hn (a := polyDivC (f64A c rm rd) n
    (polyMulC (f64A c rm rd) n x y (junkC (f64A c rm rd))) y (junkC (f64A c rm rd))) h0
    (by rw [polyDivC_at, if_pos h0, polyMulC_at, if_pos h0]; exact hq)
  generalize ifft (f64A c rm rd) n _ = w at *
  have hw : ∀ v, roundedDiffers (f64A c rm rd) (w 0) v = true := by
    intro v
    unfold roundedDiffers
    have : ∃ e, (f64A c rm rd).roundTo (-2 ^ 62) (2 ^ 62) ((f64A c rm rd).re (w 0)) = .error e := by
      show ∃ e, F64.roundTo _ _ (w 0).1 = _
      cases hz : (w 0).1 with
      | nan => exact ⟨_, rfl⟩
      | inf s => exact ⟨_, rfl⟩
      | fin s x => exact absurd ⟨s, x, hz⟩ hf
    obtain ⟨e, he⟩ := this
    rw [he]
  have key : ∀ m, 0 < m → loop m (fun i flg => flg || roundedDiffers (f64A c rm rd) (w i) (a i)) false = true := by
    intro m hm
    induction m with
    | zero => omega
    | succ m ih =>
      rw [loop_succ]
      rcases Nat.eq_zero_or_pos m with rfl | h
      · rw [hw, Bool.or_true]
      · rw [ih h, Bool.true_or]
  exact key _ (by rw [one_shiftLeft']; exact h0)

/-- A divisor that is not near zero: 4. -/
example (c : Bool) (rm rd : F64.Recover) : testFft (f64A c rm rd) 9 (fun i => (i : ℤ) % 8 - 3) (fun i => if i = 0 then 4 else 0) = false := by
  refine C104_mul_div c rm rd (by norm_num) _ _ (fun i _ => by rw [abs_le]; omega) (fun i _ => by split <;> norm_num) fun j _ => ?_
  have : dft 9 (zC fun i => if i = 0 then 4 else 0) j = 4 := by
    unfold dft
    rw [sum_eq_single_of_mem 0 (mem_range.mpr (by positivity)) fun i hi h0 => by simp [zC, h0]]
    simp [zC]
  rw [this]
  norm_num

example (b : Bool) (rm rd : F64.Recover) : testSplitMerge (f64A b rm rd) 10 (fun i => (i : ℤ) % 8 - 3) = (false, false, false) :=
  C104_split_merge b rm rd (by norm_num) le_rfl _ fun i _ => by rw [abs_le]; omega

example (b : Bool) (rm : F64.Recover) : testFft (f64A b rm F64.keepNan) 9 (fun i => (i : ℤ) % 8 - 3) (fun _ => 0) = true :=
  C104_zero_divisor b rm _ (by rintro x y - - ⟨s, z, h⟩; cases h) (by norm_num) _ (fun i _ => by rw [abs_le]; omega) _ fun _ _ => rfl

end Falcon
