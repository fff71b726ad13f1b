import Verif.Proofs.F64Sign
import Verif.Proofs.GsTiny

/-!
# Finite binary64 runs: the quotient of the reduction and the Gram-Schmidt test
-/

namespace Falcon

section
variable {b : Bool} {rm rd : F64.Recover}

theorem one_comp_large80 {y : ℂ} (hy : 1 / 2 ^ 80 ≤ ‖y‖) : 1 / 2 ^ 81 ≤ |y.re| ∨ 1 / 2 ^ 81 ≤ |y.im| := by
  by_contra h
  push Not at h
  have := norm_le_max h.1.le h.2.le
  norm_num at hy this
  linarith

theorem den_lower80 {y : ℂ} (hy : 1 / 2 ^ 80 ≤ ‖y‖) :
    1 / 2 ^ 162 ≤ (if b then rnd (y.re * y.re + rnd (y.im * y.im)) else rnd (rnd (y.re * y.re) + rnd (y.im * y.im))) := by
  have hr : Rep ((1 : ℝ) / 2 ^ 162) := by
    have := rep_zpow (e := (-162 : ℤ)) (by omega)
    rw [zpow_neg] at this
    rw [one_div]
    exact_mod_cast this
  have n1 : 0 ≤ rnd (y.re * y.re) := by rw [← rnd_zero]; exact rnd_mono (mul_self_nonneg _)
  have n2 : 0 ≤ rnd (y.im * y.im) := by rw [← rnd_zero]; exact rnd_mono (mul_self_nonneg _)
  have n3 : 0 ≤ y.re * y.re := mul_self_nonneg _
  have key : ∀ x : ℝ, 1 / 2 ^ 81 ≤ |x| → 1 / 2 ^ 162 ≤ x * x := by
    intro x h
    rw [← abs_mul_abs_self]
    have := mul_le_mul h h (by positivity) (abs_nonneg _)
    norm_num at this ⊢
    linarith
  have key2 : ∀ x : ℝ, 1 / 2 ^ 81 ≤ |x| → 1 / 2 ^ 162 ≤ rnd (x * x) := fun x h => le_rnd_of_rep hr (key x h)
  rcases one_comp_large80 hy with h | h <;> split <;> apply le_rnd_of_rep hr
  · have := key _ h; linarith
  · have := key2 _ h; linarith
  · have := key2 _ h; linarith
  · have := key2 _ h; linarith

theorem finC_cdiv80 {e e' : ℕ} {d d' : F64 × F64} {x y : ℂ} (h : FinC e d x) (h' : FinC e' d' y) (hy : 1 / 2 ^ 80 ≤ ‖y‖)
    (he : e + e' ≤ 800) (he' : e' ≤ 450) : FinC (e + e' + 163) ((f64A b rm rd).cdiv d d') ((ieeeA b).cdiv x y) := by
  refine recover_fin ?_
  have hp : FinC (e + e' + 1) (F64.cmul0 b d (d'.1, F64.neg d'.2)) (ieeeMul b x ((starRingEnd ℂ) y)) :=
    finC_mul0 h ⟨h'.1, finB_neg h'.2⟩ (by omega)
  have hl := den_lower80 (b := b) hy
  have hd : ∃ s, (if b then F64.fma d'.1 d'.1 (F64.mul d'.2 d'.2) else F64.add (F64.mul d'.1 d'.1) (F64.mul d'.2 d'.2)) =
      .fin s (if b then rnd (y.re * y.re + rnd (y.im * y.im)) else rnd (rnd (y.re * y.re) + rnd (y.im * y.im))) := by
    cases b
    · exact (finB_add (finB_mul h'.1 h'.1 (by omega)) (finB_mul h'.2 h'.2 (by omega)) (by omega)).1
    · exact (finB_fma h'.1 h'.1 (finB_mul h'.2 h'.2 (by omega)) (by omega)).1
  show FinC _ (F64.cdiv0 b d d') (ieeeDiv b x y)
  unfold F64.cdiv0 ieeeDiv
  simp only
  have hl' := hl.trans (le_abs_self _)
  exact ⟨(finB_div hp.1 hd hl' (by omega)).mono (by omega), (finB_div hp.2 hd hl' (by omega)).mono (by omega)⟩

/-- The computed transform of an integer polynomial. -/
theorem finC_toCx {k e : ℕ} (hk : k ≤ 10) (he : e ≤ 900) {a : Mem Int} (ha : ∀ i, i < 2 ^ k → |(a i : ℝ)| ≤ 2 ^ e) :
    RelBelow (2 ^ k) (FinC (e + 30)) (fft (f64A b rm rd) k (toCx (f64A b rm rd) k a)) (fft (ieeeA b) k (toCx (ieeeA b) k a)) := by
  refine finC_fft (sim_f64 b rm rd) hk he fun i hi => ?_
  unfold toCx
  rw [one_shiftLeft', loop_fill, loop_fill, if_pos hi, if_pos hi]
  exact (sim_f64 b rm rd).ofInt (ha i hi) (by omega)

theorem finC_gsSum {k e : ℕ} (hk : k ≤ 10) (he : e ≤ 100) {f g : Mem Int} (hf : ∀ i, i < 2 ^ k → |(f i : ℝ)| ≤ 2 ^ e)
    (hg : ∀ i, i < 2 ^ k → |(g i : ℝ)| ≤ 2 ^ e) (j : ℕ) (hj : j < 2 ^ k) :
    FinC (2 * e + 62) (gsSum (f64A b rm rd) k f g j) (gsSum (ieeeA b) k f g j) := by
  have hS := sim_f64 b rm rd
  have x := finC_toCx (b := b) (rm := rm) (rd := rd) hk (by omega) hf j hj
  have y := finC_toCx (b := b) (rm := rm) (rd := rd) hk (by omega) hg j hj
  exact (hS.cadd (hS.cmul x (hS.conj x) (by omega)) (hS.cmul y (hS.conj y) (by omega)) (by omega)).mono (by omega)

/-- The rounded quotient of the reduction. -/
theorem redQuot64 {k : ℕ} (hk : k ≤ 10) {f g F G : Mem Int}
    (hf : ∀ i, i < 2 ^ k → |f i| ≤ 2 ^ 53) (hg : ∀ i, i < 2 ^ k → |g i| ≤ 2 ^ 53)
    (hF : ∀ i, i < 2 ^ k → |F i| ≤ 2 ^ 53) (hG : ∀ i, i < 2 ^ k → |G i| ≤ 2 ^ 53)
    (hden : ∀ j, j < 2 ^ k → 1 / 2 ^ 80 ≤ ‖gsSum (ieeeA b) k f g j‖) :
    redQuot (f64A b rm rd) k f g F G = redQuot (ieeeA b) k f g F G := by
  have hS := sim_f64 b rm rd
  have cast : ∀ {a : Mem Int}, (∀ i, i < 2 ^ k → |a i| ≤ 2 ^ 53) → ∀ i, i < 2 ^ k → |(a i : ℝ)| ≤ 2 ^ 53 := by
    intro a h i hi
    rw [← Int.cast_abs]
    exact_mod_cast h i hi
  have kf := finC_toCx (b := b) (rm := rm) (rd := rd) hk (by norm_num) (cast hf)
  have kg := finC_toCx (b := b) (rm := rm) (rd := rd) hk (by norm_num) (cast hg)
  have kF := finC_toCx (b := b) (rm := rm) (rd := rd) hk (by norm_num) (cast hF)
  have kG := finC_toCx (b := b) (rm := rm) (rd := rd) hk (by norm_num) (cast hG)
  have ks := finC_gsSum (b := b) (rm := rm) (rd := rd) hk (by norm_num) (cast hf) (cast hg)
  unfold redQuot
  simp only
  refine loopE_congr' fun i hi m => ?_
  rw [one_shiftLeft'] at hi
  have hq : ∀ (P : Mem (F64 × F64)) (Q : Mem ℂ), (∀ j, j < 2 ^ k → FinC 500 (P j) (Q j)) →
      (f64A b rm rd).roundTo (-2 ^ 63) (2 ^ 63 - 1) ((f64A b rm rd).re (ifft (f64A b rm rd) k P i)) =
      (ieeeA b).roundTo (-2 ^ 63) (2 ^ 63 - 1) ((ieeeA b).re (ifft (ieeeA b) k Q i)) := by
    intro P Q h
    exact hS.roundTo (hS.re (finC_ifft hS (e := 500) hk (by norm_num) h i hi)) _ _
  rw [hq]
  intro j hj
  simp only [polyDivC_at, polyAddC_at, polyMulC_at, adjPoly_at, memcpy_at, if_pos hj, one_shiftLeft']
  have num : FinC 168 ((f64A b rm rd).cadd ((f64A b rm rd).cmul (fft (f64A b rm rd) k (toCx (f64A b rm rd) k F) j)
        ((f64A b rm rd).conj (fft (f64A b rm rd) k (toCx (f64A b rm rd) k f) j)))
      ((f64A b rm rd).cmul (fft (f64A b rm rd) k (toCx (f64A b rm rd) k G) j)
        ((f64A b rm rd).conj (fft (f64A b rm rd) k (toCx (f64A b rm rd) k g) j))))
      ((ieeeA b).cadd ((ieeeA b).cmul (fft (ieeeA b) k (toCx (ieeeA b) k F) j) ((ieeeA b).conj (fft (ieeeA b) k (toCx (ieeeA b) k f) j)))
      ((ieeeA b).cmul (fft (ieeeA b) k (toCx (ieeeA b) k G) j) ((ieeeA b).conj (fft (ieeeA b) k (toCx (ieeeA b) k g) j)))) :=
    hS.cadd (hS.cmul (kF j hj) (hS.conj (kf j hj)) (by norm_num)) (hS.cmul (kG j hj) (hS.conj (kg j hj)) (by norm_num)) (by norm_num)
  have r := (finC_cdiv80 (b := b) (rm := rm) (rd := rd) num (ks j hj) (hden j hj) (by norm_num) (by norm_num)).mono (by norm_num : _ ≤ 500)
  unfold gsSum toCx at r
  simp only [one_shiftLeft'] at r
  exact r

/-- The squared norm of an integer polynomial. -/
theorem finB_sqrdNormR {n : ℕ} (hn : n ≤ 10) {a : Mem Int} (ha : ∀ i, i < 2 ^ n → |(a i : ℝ)| ≤ 2 ^ 53) :
    FinB 120 (sqrdNormR (f64A b rm rd) n (loop (1 <<< n) (fun i m => upd m i ((f64A b rm rd).lit (a i))) fun _ => (f64A b rm rd).lit 0))
      (sqrdNormR (ieeeA b) n (loop (1 <<< n) (fun i m => upd m i ((ieeeA b).lit (a i))) fun _ => (ieeeA b).lit 0)) := by
  have hS := sim_f64 b rm rd
  have hp : 2 ^ n ≤ 1024 := (Nat.pow_le_pow_right (by norm_num) hn).trans (by norm_num)
  have z0 := (hS.lit (q := 0) (e := 0) (by norm_num) (by norm_num)).mono (by norm_num : 0 ≤ 106)
  unfold sqrdNormR
  simp only [one_shiftLeft']
  generalize hu : loop (2 ^ n) (fun i m => upd m i ((f64A b rm rd).lit (a i))) (fun _ => (f64A b rm rd).lit 0) = u
  generalize hv : loop (2 ^ n) (fun i m => upd m i ((ieeeA b).lit (a i))) (fun _ => (ieeeA b).lit 0) = v
  have huv : ∀ i, i < 2 ^ n → FinB 53 (u i) (v i) := by
    intro i hi
    rw [← hu, ← hv, loop_fill, loop_fill, if_pos hi, if_pos hi]
    exact hS.int (ha i hi) (by norm_num)
  have key : ∀ m, m ≤ 2 ^ n → FinM (m + 1) 106
      (loop m (fun i res => (f64A b rm rd).add res ((f64A b rm rd).mul (u i) (u i))) ((f64A b rm rd).lit 0))
      (loop m (fun i res => (ieeeA b).add res ((ieeeA b).mul (v i) (v i))) ((ieeeA b).lit 0)) := by
    intro m
    induction m with
    | zero =>
      intro _
      refine ⟨z0.1, ?_⟩
      rw [zero_add, Nat.cast_one, one_mul]; exact z0.2
    | succ m ih =>
      intro hm
      rw [loop_succ, loop_succ]
      exact finM_add (ih (by omega)) (finB_mul (huv m (by omega)) (huv m (by omega)) (by norm_num)) (by omega) (by norm_num)
  have h := key (2 ^ n) le_rfl
  refine ⟨h.1, h.2.trans ?_⟩
  have : ((2 ^ n + 1 : ℕ) : ℝ) ≤ 2 ^ 11 := by
    have : 2 ^ n + 1 ≤ 2 ^ 11 := by omega
    exact_mod_cast this
  calc ((2 ^ n + 1 : ℕ) : ℝ) * 2 ^ 106 ≤ 2 ^ 11 * 2 ^ 106 := mul_le_mul_of_nonneg_right this (by positivity)
    _ = 2 ^ 117 := by rw [← pow_add]
    _ ≤ 2 ^ 120 := pow_le_pow_right₀ (by norm_num) (by norm_num)

/-- The squared norm of a transform, for larger entries than in signing. -/
theorem finB_sqrdNorm400 {n : ℕ} (hn : n ≤ 10) {a : Mem (F64 × F64)} {z : Mem ℂ}
    (h : RelBelow (2 ^ n) (FinC 400) a z) : FinB 820 (sqrdNormC (f64A b rm rd) n a) (sqrdNormC (ieeeA b) n z) := by
  have hS := sim_f64 b rm rd
  have hp : 2 ^ n ≤ 1024 := (Nat.pow_le_pow_right (by norm_num) hn).trans (by norm_num)
  have z0 := hS.lit (q := 0) (e := 0) (by norm_num) (by norm_num)
  unfold sqrdNormC
  simp only [one_shiftLeft']
  have key : ∀ m, m ≤ 2 ^ n → FinCM (m + 1) 801
      (loop m (fun i res => (f64A b rm rd).cadd res ((f64A b rm rd).cmul (a i) ((f64A b rm rd).conj (a i))))
        ((f64A b rm rd).cx ((f64A b rm rd).lit 0) ((f64A b rm rd).lit 0)))
      (loop m (fun i res => (ieeeA b).cadd res ((ieeeA b).cmul (z i) ((ieeeA b).conj (z i))))
        ((ieeeA b).cx ((ieeeA b).lit 0) ((ieeeA b).lit 0))) := by
    intro m
    induction m with
    | zero =>
      intro _
      have := (hS.cx z0 z0).mono (by norm_num : 0 ≤ 801)
      refine ⟨⟨this.1.1, ?_⟩, this.2.1, ?_⟩
      · rw [zero_add, Nat.cast_one, one_mul]; exact this.1.2
      · rw [zero_add, Nat.cast_one, one_mul]; exact this.2.2
    | succ m ih =>
      intro hm
      rw [loop_succ, loop_succ]
      exact hS.acc (ih (by omega)) (hS.cmul (h m (by omega)) (hS.conj (h m (by omega))) (by norm_num)) (by omega) (by norm_num)
  have k := key (2 ^ n) le_rfl
  generalize loop (2 ^ n) (fun i res => (f64A b rm rd).cadd res ((f64A b rm rd).cmul (a i) ((f64A b rm rd).conj (a i))))
        ((f64A b rm rd).cx ((f64A b rm rd).lit 0) ((f64A b rm rd).lit 0)) = u at *
  generalize loop (2 ^ n) (fun i res => (ieeeA b).cadd res ((ieeeA b).cmul (z i) ((ieeeA b).conj (z i))))
        ((ieeeA b).cx ((ieeeA b).lit 0) ((ieeeA b).lit 0)) = w at *
  have e1 : ∀ {d : F64} {x : ℝ}, FinM (2 ^ n + 1) 801 d x → FinB 812 d x := by
    intro d x h
    refine ⟨h.1, h.2.trans ?_⟩
    have : ((2 ^ n + 1 : ℕ) : ℝ) ≤ 2 ^ 11 := by
      have : 2 ^ n + 1 ≤ 2 ^ 11 := by omega
      exact_mod_cast this
    calc ((2 ^ n + 1 : ℕ) : ℝ) * 2 ^ 801 ≤ 2 ^ 11 * 2 ^ 801 := mul_le_mul_of_nonneg_right this (by positivity)
      _ = 2 ^ 812 := by rw [← pow_add]
  have k' : FinC 812 u w := ⟨e1 k.1, e1 k.2⟩
  have l1 := hS.lit (q := 2 ^ n) (e := 10) (by
    have : ((2 ^ n : ℕ) : ℝ) ≤ ((1024 : ℕ) : ℝ) := by exact_mod_cast hp
    push_cast at this ⊢
    rw [abs_of_nonneg (by positivity)]
    norm_num at this ⊢
    exact this) (by norm_num)
  refine (hS.div (m := 0) (hS.re k') l1.1 ?_ (by norm_num)).mono (by norm_num)
  have e : (ieeeA b).lit (2 ^ n) = 2 ^ n := by
    have := (accurate_ieee b).lit_small (2 ^ n) (by
      have h : ((2 ^ n : ℕ) : ℤ) ≤ 1024 := by exact_mod_cast hp
      push_cast at h
      rw [abs_of_nonneg (by positivity)]
      omega)
    push_cast at this
    exact this
  rw [e, abs_of_nonneg (by positivity), pow_zero, div_one]
  exact one_le_pow₀ (by norm_num)

theorem finB_max {e : ℕ} {d d' : F64} {x y : ℝ} (h : FinB e d x) (h' : FinB e d' y) : FinB e (F64.max d d') (max x y) := by
  obtain ⟨⟨s, rfl⟩, h1⟩ := h
  obtain ⟨⟨t, rfl⟩, h2⟩ := h'
  have hm : max x y = if x < y then y else x := by
    split
    · exact max_eq_right (by linarith)
    · exact max_eq_left (by linarith)
  rw [hm]
  show FinB e (if (decide (x < y)) = true then _ else _) _
  by_cases hlt : x < y
  · rw [if_pos (decide_eq_true hlt), if_pos hlt]; exact ⟨⟨t, rfl⟩, h2⟩
  · rw [if_neg (by simp [hlt]), if_neg hlt]; exact ⟨⟨s, rfl⟩, h1⟩

/-- The Gram-Schmidt test. -/
theorem gsTooBig64 {n : ℕ} (hn : n ≤ 10) {f g : Mem Int} (hf : ∀ i, i < 2 ^ n → |f i| ≤ 2 ^ 8) (hg : ∀ i, i < 2 ^ n → |g i| ≤ 2 ^ 8)
    (hden : ∀ j, j < 2 ^ n → 1 / 2 ^ 80 ≤ ‖gsSum (ieeeA b) n f g j‖) :
    gsTooBig (f64A b rm rd) n f g = gsTooBig (ieeeA b) n f g := by
  have hS := sim_f64 b rm rd
  have cast : ∀ {a : Mem Int}, (∀ i, i < 2 ^ n → |a i| ≤ 2 ^ 8) → ∀ i, i < 2 ^ n → |(a i : ℝ)| ≤ 2 ^ 8 := by
    intro a h i hi
    rw [← Int.cast_abs]
    exact_mod_cast h i hi
  have kf := finC_toCx (b := b) (rm := rm) (rd := rd) hn (by norm_num) (cast hf)
  have kg := finC_toCx (b := b) (rm := rm) (rd := rd) hn (by norm_num) (cast hg)
  have ks := finC_gsSum (b := b) (rm := rm) (rd := rd) hn (by norm_num) (cast hf) (cast hg)
  have up : ∀ {a : Mem Int}, (∀ i, i < 2 ^ n → |(a i : ℝ)| ≤ 2 ^ 8) → ∀ i, i < 2 ^ n → |(a i : ℝ)| ≤ 2 ^ 53 := by
    intro a h i hi
    exact (h i hi).trans (pow_le_pow_right₀ (by norm_num) (by norm_num))
  obtain ⟨F, G, h1, h2⟩ := gsNorm_at (f64A b rm rd) n f g
  obtain ⟨F', G', h1', h2'⟩ := gsNorm_at (ieeeA b) n f g
  have kF : RelBelow (2 ^ n) (FinC 400) F F' := by
    intro j hj
    rw [(h2 j hj).1, (h2' j hj).1]
    exact (finC_cdiv80 (hS.conj (kf j hj)) (ks j hj) (hden j hj) (by norm_num) (by norm_num)).mono (by norm_num)
  have kG : RelBelow (2 ^ n) (FinC 400) G G' := by
    intro j hj
    rw [(h2 j hj).2, (h2' j hj).2]
    exact (finC_cdiv80 (hS.conj (kg j hj)) (ks j hj) (hden j hj) (by norm_num) (by norm_num)).mono (by norm_num)
  have s1 : FinB 821 _ _ := finB_add (finB_sqrdNorm400 (b := b) (rm := rm) (rd := rd) hn kF) (finB_sqrdNorm400 (b := b) (rm := rm) (rd := rd) hn kG) (by norm_num)
  have q : FinB 30 (F64.lit (12289 * 12289)) (rnd ((12289 * 12289 : ℚ) : ℝ)) := finB_lit (by norm_num) (by norm_num)
  have s2 : FinB 851 _ _ := finB_mul q s1 (by norm_num)
  have s3 : FinB 121 _ _ := finB_add (finB_sqrdNormR (b := b) (rm := rm) (rd := rd) hn (up (cast hf))) (finB_sqrdNormR (b := b) (rm := rm) (rd := rd) hn (up (cast hg)))
    (by norm_num)
  have s4 := finB_max (s3.mono (by norm_num : 121 ≤ 851)) s2
  have l1 : FinB 1 (F64.lit 1.17) (rnd ((1.17 : ℚ) : ℝ)) := finB_lit (by norm_num [abs_of_pos]) (by norm_num)
  have l2 : FinB 14 (F64.lit 12289) (rnd ((12289 : ℚ) : ℝ)) := finB_lit (by norm_num) (by norm_num)
  have t : FinB 851 _ _ := (finB_mul (finB_mul l1 l1 (by norm_num)) l2 (by norm_num)).mono (by norm_num)
  unfold gsTooBig
  rw [h1, h1']
  exact finB_gt s4 t

end

end Falcon
