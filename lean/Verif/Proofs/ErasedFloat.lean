import Verif.Props.ErasedF
import Verif.Proofs.LeakRun

/-!
# Signing in binary64 with F = 0
-/

namespace Falcon

open Finset Polynomial

/-- Both halves of the vector in terms of f and g alone, when F = 0 and the second halves of the products vanish. `W1` is arbitrary. -/
theorem erased_cols (b : Bool) {n : ℕ} (f g F G : Mem Int) (hF : ∀ i, i < 2 ^ n → F i = 0) (Bp : Mem ℂ) (c : Mem Ff) (z0 z1 : Mem ℂ) (i : ℕ)
    (hi : i < 2 ^ n) :
    let B := computeMatrixB (ieeeA b) n f g F G Bp
    let t := signTarget (ieeeA b) n B c
    t.1 i = 0 ∧ (signVec (ieeeA b) n B t.1 t.2 z0 z1).2 i =
      (ieeeA b).cadd ((ieeeA b).cmul ((ieeeA b).csub 0 (z0 i)) (B (2 ^ n + i))) 0 := by
  intro B t
  have hB3 : B (3 * 2 ^ n + i) = 0 := by
    show computeMatrixB (ieeeA b) n f g F G Bp (3 * 2 ^ n + i) = 0
    rw [(computeMatrixB_at (ieeeA b) n f g F G Bp).1 3 i (by norm_num) hi]
    refine fft_zeros b n (fun j hj => ?_) i hi
    show (ieeeA b).ofReal ((ieeeA b).neg ((ieeeA b).lit (F j))) = 0
    rw [hF j hj]
    show (⟨-rnd _, rnd _⟩ : ℂ) = 0
    apply Complex.ext <;> simp [rnd_zero]
  have hmap : ∀ (g : ℂ → ℂ) (t : Mem ℂ) (i : ℕ), i < 2 ^ n → loop (2 ^ n) (fun i t => upd t i (g (t i))) t i = g (t i) := by
    intro g t i hi
    rw [loop_map, if_pos hi]
  have ht : t.1 i = 0 := by
    show (signTarget (ieeeA b) n B c).1 i = 0
    unfold signTarget
    simp only
    rw [one_shiftLeft', hmap (fun x => (ieeeA b).cdiv x _) _ i hi, polyMulC_at, if_pos hi, show ptr B (3 * 2 ^ n) i = 0 from hB3, (ieee_mul_zero b _).1, ieee_div_zero]
  refine ⟨ht, ?_⟩
  rw [(signVec_float_at n B t.1 t.2 z0 z1 i hi).2, hB3, (ieee_mul_zero b _).1, ht]

/-- The column of f. -/
theorem erased_col {A : Arith ℝ ℂ} (hA : Accurate A) {n : ℕ} (hn : ValidLog n) {f : Mem Int}
    (hf : ∀ i, i < 2 ^ n → |f i| ≤ (if n = 9 then 31 else 15)) (g F G : Mem Int) (Bp : Mem ℂ) :
    NearBas n aK (fun i => computeMatrixB A n f g F G Bp (2 ^ n + i)) (fun i => -dft n (zC f) i) := by
  have h := (basis_float hA hn (f := f) (g := fun _ => 0) (F := fun _ => 0) (G := fun _ => 0) (fun i hi => ⟨hf i hi, by
    rw [abs_zero]; split <;> norm_num, by norm_num, by norm_num⟩) Bp).2.1
  intro i hi
  have h1 := h i hi
  have e : ∀ g F G : Mem Int, computeMatrixB A n f g F G Bp (2 ^ n + i) = fft A n (basisCol A f g F G 1) i := by
    intro g F G
    have := (computeMatrixB_at A n f g F G Bp).1 1 i (by norm_num) hi
    rwa [one_mul] at this
  simp only at h1 ⊢
  rw [e] at h1 ⊢
  exact h1

theorem zero_near (n : ℕ) (m : ℝ) (hm : 0 ≤ m) : NearBas n m (fun _ => 0) (fun _ => 0) := by
  intro i _
  simp only [norm_zero, sub_zero]
  exact ⟨hm, hm, mul_nonneg kapD_pos.le hm⟩

theorem dft_zero (n j : ℕ) : dft n (zC fun _ => 0) j = 0 := by
  rw [← evC_poly, polyZ_zero (fun _ _ => rfl)]
  simp [evC]

theorem nC_zero (N : ℕ) : nC N (fun _ => 0) = 0 := by
  unfold nC l2
  simp

theorem zero_nearInt (n : ℕ) : NearInt n (fun _ => 0) (fun _ => 0) := by
  unfold NearInt
  rw [nC_congr (b := fun _ => 0) fun i _ => by rw [dft_zero, sub_zero], nC_zero]
  unfold Mz
  have := gam_nonneg n
  positivity

/-- The other column of a matrix of determinant q. -/
theorem other_col {n : ℕ} {f : Mem Int} (hδ : ∀ j, j < 2 ^ n → 1 / 10 ≤ ‖dft n (zC f) j‖) :
    NearBas n bK (fun i => 12289 / dft n (zC f) i) (fun i => 12289 / dft n (zC f) i) := by
  intro i hi
  have h := hδ i hi
  have hq : ‖(12289 : ℂ)‖ = 12289 := by
    rw [show (12289 : ℂ) = ((12289 : ℝ) : ℂ) by push_cast; rfl, Complex.norm_real]; norm_num
  have hb : ‖12289 / dft n (zC f) i‖ ≤ bK := by
    rw [norm_div, hq, div_le_iff₀ (by linarith)]
    unfold bK
    norm_num
    linarith
  refine ⟨hb, hb, ?_⟩
  simp only [sub_self, norm_zero]
  exact mul_nonneg kapD_pos.le bK_pos.le

/-- A vector that passed the norm test has a second half close to the transform of a0 f. -/
theorem erased_near (b : Bool) {n : ℕ} (hn : ValidLog n) {f g F G : Mem Int} (hf : ∀ i, i < 2 ^ n → |f i| ≤ (if n = 9 then 31 else 15))
    (hF : ∀ i, i < 2 ^ n → F i = 0) (hδ : ∀ j, j < 2 ^ n → 1 / 10 ≤ ‖dft n (zC f) j‖) (Bp : Mem ℂ) (c : Mem Ff) {z0 z1 : Mem ℂ}
    {a0 u1 : Mem Int} (h0 : NearInt n z0 a0) (m1 : ModEqXN (2 ^ n) (polyZ (2 ^ n) u1) (polyZ (2 ^ n) a0 * polyZ (2 ^ n) f)) :
    let B := computeMatrixB (ieeeA b) n f g F G Bp
    let t := signTarget (ieeeA b) n B c
    let s := signVec (ieeeA b) n B t.1 t.2 z0 z1
    (ieeeA b).le (signNorm (ieeeA b) n s.1 s.2) ((ieeeA b).lit (beta2 n)) = true →
      nC (2 ^ n) (fun i => s.2 i - dft n (zC u1) i) ≤ 36 / 5 / 2 ^ 15 * 2 ^ n ∧
      nC (2 ^ n) s.2 ^ 2 ≤ 2 ^ n * (betaSq n + 1 / 100) := by
  intro B t s htest
  have hA := accurate_ieee b
  have hn10 : n ≤ 10 := by rcases hn with rfl | rfl <;> norm_num
  have hnorm := test_norm hA hn htest
  have hN : (0 : ℝ) < 2 ^ n := by positivity
  have hb : (betaSq n : ℝ) ≤ 70265242 := by
    have : betaSq n ≤ 70265242 := by unfold betaSq; split <;> norm_num
    exact_mod_cast this
  have hnorm1 : nC (2 ^ n) s.2 ^ 2 ≤ 2 ^ n * (betaSq n + 1 / 100) := by
    have := sq_nonneg (nC (2 ^ n) s.1)
    linarith
  have hnorm' : nC (2 ^ n) (fun _ => (0 : ℂ)) ^ 2 + nC (2 ^ n) s.2 ^ 2 ≤ 2 ^ n * 70270000 := by
    rw [nC_zero]
    have : (2 : ℝ) ^ n * (betaSq n + 1 / 100) ≤ 2 ^ n * 70270000 := mul_le_mul_of_nonneg_left (by linarith) hN.le
    linarith
  have hz : nC (2 ^ n) (fun _ => (0 : ℂ) - 0) = 0 := by rw [sub_zero]; exact nC_zero _
  have k0 := kapD_pos
  have ka := aK_pos
  have kb := bK_pos
  have hcore := core hA hn (W0 := fun i => (ieeeA b).csub 0 (z0 i)) (W1 := fun _ => 0) (T0 := fun _ => 0) (T1 := fun _ => 0) (t0 := fun _ => 0)
    (t1 := fun _ => 0) (Z1 := fun _ => 0) (S0 := fun _ => 0) (S1 := s.2)
    (zero_near n aK ka.le) (erased_col hA hn hf g F G Bp) (other_col hδ) (zero_near n bK kb.le) (fun i hi => by
      have h := hδ i hi
      have hne : dft n (zC f) i ≠ 0 := fun h0 => by rw [h0, norm_zero] at h; norm_num at h
      field_simp
      ring) (by rw [hz]; positivity) (by rw [nC_zero]; positivity) (by rw [hz]; positivity) (by rw [nC_zero]; positivity) h0 (zero_nearInt n)
    (fun _ _ => rfl) (fun _ _ => ((ieee_add_zero b).2).symm)
    (fun i _ => by rw [(ieee_mul_zero b _).1, (ieee_mul_zero b _).2, (ieee_add_zero b).1])
    (fun i hi => by
      rw [show s.2 i = _ from (erased_cols b f g F G hF Bp c z0 z1 i hi).2, (ieee_mul_zero b 0).1]) hnorm'
  refine ⟨le_trans (le_of_eq (nC_congr fun i hi => ?_)) hcore.2, hnorm1⟩
  have hu := evC_modEq hn10 hi m1
  rw [evC_mul, evC_poly, evC_poly, evC_poly] at hu
  rw [hu]
  ring

/-- The column of g. -/
theorem erased_col0 {A : Arith ℝ ℂ} (hA : Accurate A) {n : ℕ} (hn : ValidLog n) {g : Mem Int}
    (hg : ∀ i, i < 2 ^ n → |g i| ≤ (if n = 9 then 31 else 15)) (f F G : Mem Int) (Bp : Mem ℂ) :
    NearBas n aK (computeMatrixB A n f g F G Bp) (fun i => dft n (zC g) i) := by
  have h := (basis_float hA hn (f := fun _ => 0) (g := g) (F := fun _ => 0) (G := fun _ => 0) (fun i hi => ⟨by
    rw [abs_zero]; split <;> norm_num, hg i hi, by norm_num, by norm_num⟩) Bp).1
  intro i hi
  have h1 := h i hi
  have e : ∀ f F G : Mem Int, computeMatrixB A n f g F G Bp i = fft A n (basisCol A f g F G 0) i := by
    intro f F G
    have := (computeMatrixB_at A n f g F G Bp).1 0 i (by norm_num) hi
    rwa [zero_mul, zero_add] at this
  rw [e] at h1 ⊢
  exact h1

/-- `recompute_G` returns for F = 0 and every f whose transform is nowhere near zero. -/
theorem erased_recompute (b : Bool) {n : ℕ} (hn : ValidLog n) {f g F : Mem Int} (hf : ∀ i, i < 2 ^ n → |f i| ≤ (if n = 9 then 31 else 15))
    (hF : ∀ i, i < 2 ^ n → F i = 0) (hδ : ∀ j, j < 2 ^ n → 1 / 10 ≤ ‖dft n (zC f) j‖) (G0 : Mem Int) :
    ∃ G, recomputeG (ieeeA b) n f g F G0 = .ok G := by
  have hA := accurate_ieee b
  have hn10 : n ≤ 10 := by rcases hn with rfl | rfl <;> norm_num
  have hq : (ieeeA b).ofReal ((ieeeA b).lit 12289) = (12289 : ℂ) := by
    have := hA.lit_small 12289 (by norm_num)
    rw [ofReal_eq hA]
    push_cast at this
    rw [this]; push_cast; rfl
  have hqn : ‖(12289 : ℂ)‖ = 12289 := by
    rw [show (12289 : ℂ) = ((12289 : ℝ) : ℂ) by push_cast; rfl, Complex.norm_real]; norm_num
  set K : ℤ := if n = 9 then 31 else 15 with hK
  have hnear := fft_int_near hA hn f (junkC (ieeeA b)) (k := K) (m := aK) (by rw [hK]; split <;> norm_num) (by rw [hK]; split <;> norm_num) hf
    (by rw [hK]; unfold aK; rcases hn with rfl | rfl <;> norm_num) (by unfold aK; norm_num)
  set X := fft (ieeeA b) n (loop (1 <<< n) (fun i m => upd m i ((ieeeA b).ofInt (f i))) (junkC (ieeeA b))) with hX
  have hXge : ∀ j, j < 2 ^ n → 1 / 20 ≤ ‖X j‖ := by
    intro j hj
    have h1 := (hnear j hj).2.2
    have h2 := hδ j hj
    have h3 := norm_sub_norm_le (dft n (zC f) j) (X j)
    rw [norm_sub_rev] at h3
    have : kapD * aK ≤ 1 / 20 := by unfold kapD aK; norm_num
    linarith
  unfold recomputeG
  simp only
  rw [← hX]
  set D := polyDivC (ieeeA b) n (polyAddToC (ieeeA b) n (polyMulC (ieeeA b) n
      (fft (ieeeA b) n (loop (1 <<< n) (fun i m => upd m i ((ieeeA b).ofInt (g i))) (junkC (ieeeA b))))
      (fft (ieeeA b) n (loop (1 <<< n) (fun i m => upd m i ((ieeeA b).ofInt (F i))) (junkC (ieeeA b))))
      (junkC (ieeeA b))) (loop (1 <<< n) (fun i m => upd m i ((ieeeA b).ofReal ((ieeeA b).lit 12289))) (junkC (ieeeA b)))) X
      (junkC (ieeeA b)) with hD
  have hF0 : ∀ j, j < 2 ^ n → fft (ieeeA b) n (loop (1 <<< n) (fun i m => upd m i ((ieeeA b).ofInt (F i))) (junkC (ieeeA b))) j = 0 := by
    refine fft_zeros b n fun j hj => ?_
    rw [one_shiftLeft', loop_fill, if_pos hj, hF j hj]
    exact ieee_ofInt_zero b
  have hDj : ∀ j, j < 2 ^ n → ‖D j‖ ≤ 300000 := by
    intro j hj
    have e : D j = (ieeeA b).cdiv ((ieeeA b).cadd 0 12289) (X j) := by
      rw [hD, polyDivC_at, if_pos hj, polyAddToC_at, if_pos hj, polyMulC_at, if_pos hj, hF0 j hj, (ieee_mul_zero b _).1,
        toC_at n (fun _ => (ieeeA b).ofReal ((ieeeA b).lit 12289)) _ j hj, hq]
    have h1 := hA.cadd 0 12289
    rw [zero_add, hqn] at h1
    have hu : uD = 1 / 2 ^ 53 := rfl
    have ht : tinyD ≤ 1 / 2 ^ 60 := by unfold tinyD; norm_num
    have h2 : ‖(ieeeA b).cadd 0 12289‖ ≤ 12290 := by
      have := norm_sub_norm_le ((ieeeA b).cadd 0 12289) 12289
      rw [hqn] at this
      rw [hu] at h1
      norm_num at h1 ht
      linarith
    have hx := hXge j hj
    have h3 : ‖(ieeeA b).cadd 0 12289 / X j‖ ≤ 245800 := by
      rw [norm_div, div_le_iff₀ (by linarith)]
      linarith
    have h4 := hA.cdiv ((ieeeA b).cadd 0 12289) (X j) (le_trans (by norm_num) hx)
    have h5 := norm_sub_norm_le ((ieeeA b).cdiv ((ieeeA b).cadd 0 12289) (X j)) ((ieeeA b).cadd 0 12289 / X j)
    rw [e]
    rw [hu] at h4
    generalize ‖(ieeeA b).cadd 0 12289 / X j‖ = v at *
    norm_num at h4 ht
    linarith
  have hDn : nC (2 ^ n) (fun i => D i - dft n (fun _ => 0) i) ≤ Real.sqrt 2 ^ n * 300000 := by
    rw [← sqrt_pow2, ← l2_const _ (by norm_num)]
    unfold nC
    refine l2_mono fun i hi => ?_
    have : dft n (fun _ => 0) i = 0 := by
      rw [dft_poly]
      unfold toPoly
      simp
    rw [abs_of_nonneg (norm_nonneg _)]
    show ‖D i - dft n (fun _ => 0) i‖ ≤ 300000
    rw [this, sub_zero]
    exact hDj i hi
  have hi := ifft_near hA hn10 D (fun _ => 0) hDn
  rw [nC_zero, mul_zero, zero_add, mul_one] at hi
  obtain ⟨hs1, hs2⟩ := sqrt2_bounds hn
  have hE : nC (2 ^ n) (fun i => ifft (ieeeA b) n D i - 0) ≤ 400000 := by
    have hs : 0 < Real.sqrt 2 ^ n := by linarith
    have hk : kapD = 1 / 2 ^ 46 := rfl
    rw [hk] at hi
    refine le_of_mul_le_mul_right (hi.trans ?_) hs
    generalize Real.sqrt 2 ^ n = s at *
    norm_num
    linarith
  have hr : ∀ i, i < 2 ^ n → ∃ v, (ieeeA b).roundTo (-2 ^ 31) (2 ^ 31 - 1) ((ieeeA b).re (ifft (ieeeA b) n D i)) = .ok v := by
    intro i hi
    rw [hA.roundTo, hA.re]
    have h1 := nC_ge (a := fun i => ifft (ieeeA b) n D i - 0) hi
    have h2 := Complex.abs_re_le_norm (ifft (ieeeA b) n D i)
    simp only [sub_zero] at h1 hE
    have h3 : |(ifft (ieeeA b) n D i).re| ≤ 400000 := h2.trans (h1.trans hE)
    rw [abs_le] at h3
    unfold exactRoundTo
    have h4 : -2 ^ 31 ≤ stdRound (ifft (ieeeA b) n D i).re ∧ stdRound (ifft (ieeeA b) n D i).re ≤ 2 ^ 31 - 1 := by
      unfold stdRound
      generalize (ifft (ieeeA b) n D i).re = x at *
      have f1 := Int.floor_le (x + 1 / 2)
      have f2 := Int.lt_floor_add_one (x + 1 / 2)
      have f3 := Int.floor_le (-x + 1 / 2)
      have f4 := Int.lt_floor_add_one (-x + 1 / 2)
      have r : ∀ (z : ℤ), (-400002 : ℝ) ≤ z → (z : ℝ) ≤ 400002 → -2 ^ 31 ≤ z ∧ z ≤ 2 ^ 31 - 1 := by
        intro z ha hb
        have ha : (-400002 : ℤ) ≤ z := by exact_mod_cast ha
        have hb : z ≤ (400002 : ℤ) := by exact_mod_cast hb
        omega
      split
      · exact r _ (by linarith) (by linarith)
      · exact r _ (by push_cast; linarith) (by push_cast; linarith)
    rw [if_pos h4]
    exact ⟨_, rfl⟩
  choose! v hv using hr
  rw [loopE_fill _ _ v (fun i hi => hv i (by rwa [one_shiftLeft'] at hi))]
  exact ⟨_, rfl⟩

end Falcon
