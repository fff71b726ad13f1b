import Verif.Proofs.GsFloat
import Verif.Proofs.KeygenRun

/-!
# The solver on constant polynomials, in any accurate arithmetic
-/

namespace Falcon

open Finset Polynomial

/-- The array is a constant polynomial. -/
def IsConst (n : ℕ) (a : Mem Int) (x : ℤ) : Prop := ∀ i, i < 2 ^ n → a i = constMem x i

theorem dft_cst {n : ℕ} (x : ℂ) (j : ℕ) {a : Mem ℂ} (h : ∀ i, i < 2 ^ n → a i = if i = 0 then x else 0) :
    dft n a j = x := by
  unfold dft
  rw [sum_eq_single 0]
  · rw [h 0 (by positivity)]; simp
  · intro i hi h0
    rw [h i (mem_range.mp hi), if_neg h0, zero_mul]
  · intro h; exact absurd (mem_range.mpr (by positivity)) h

theorem nC_const {n : ℕ} (x : ℂ) {a : Mem ℂ} (h : ∀ i, i < 2 ^ n → a i = if i = 0 then x else 0) :
    nC (2 ^ n) a = ‖x‖ := by
  unfold nC l2
  rw [sum_eq_single 0]
  · beta_reduce; rw [h 0 (by positivity)]; simp
  · intro i hi h0
    beta_reduce
    rw [h i (mem_range.mp hi), if_neg h0]; simp
  · intro h; exact absurd (mem_range.mpr (by positivity)) h

theorem IsConst.zC {n : ℕ} {a : Mem Int} {x : ℤ} (h : IsConst n a x) (i : ℕ) (hi : i < 2 ^ n) :
    zC a i = if i = 0 then (x : ℂ) else 0 := by
  unfold Falcon.zC
  rw [h i hi]
  unfold constMem
  split <;> simp

theorem sqrt2_le {n : ℕ} (hn : n ≤ 10) : Real.sqrt 2 ^ n ≤ 32 ∧ 1 ≤ Real.sqrt 2 ^ n := by
  have h1 : 1 ≤ Real.sqrt 2 := Real.one_le_sqrt.mpr (by norm_num)
  refine ⟨?_, one_le_pow₀ h1⟩
  calc Real.sqrt 2 ^ n ≤ Real.sqrt 2 ^ 10 := pow_le_pow_right₀ h1 hn
    _ = (Real.sqrt 2 ^ 2) ^ 5 := by ring
    _ = 32 := by rw [Real.sq_sqrt (by norm_num)]; norm_num

theorem redQuot_ok {R C : Type} (A : Arith R C) {k : ℕ} {f g F G : Mem ℤ} (z : ℕ → ℤ)
    (h : ∀ Q : Mem C, (∀ j, j < 2 ^ k → Q j = quoAt A (fft A k (toCx A k f) j) (fft A k (toCx A k g) j)
      (fft A k (toCx A k F) j) (fft A k (toCx A k G) j)) →
      ∀ i, i < 2 ^ k → A.roundTo (-2 ^ 63) (2 ^ 63 - 1) (A.re (ifft A k Q i)) = .ok (z i)) :
    ∃ kr, redQuot A k f g F G = .ok kr ∧ ∀ i, i < 2 ^ k → kr i = z i := by
  unfold redQuot
  simp only
  refine ⟨_, loopE_fill _ _ z (fun i hi => h _ ?_ i (by rw [one_shiftLeft'] at hi; exact hi)) _, fun i hi => ?_⟩
  · intro j hj
    simp only [polyDivC_at, polyAddC_at, polyMulC_at, adjPoly_at, memcpy_at, if_pos hj, one_shiftLeft']
    unfold quoAt toCx
    simp only [one_shiftLeft']
  · rw [loop_fill_lt _ z _ _ (by rw [one_shiftLeft']; exact hi)]

theorem IsConst.poly {n : ℕ} {a : Mem Int} {x : ℤ} (h : IsConst n a x) : toPoly (2 ^ n) a = C x :=
  toPoly_const (by positivity) h

theorem IsConst.norm {k : ℕ} {f : Mem Int} {x : ℤ} (h : IsConst (k + 1) f x) : IsConst k (fieldNorm k f) (x * x) := by
  have hk : 0 < 2 ^ k := by positivity
  refine const_of_modEq hk ?_
  have e2 : 2 ^ (k + 1) = 2 * 2 ^ k := by ring
  have h1 := fieldNorm_poly k f
  rw [toPoly_const hk (a := fun i => f (2 * i)) (x := x) (fun i hi => by
      rw [h _ (by omega)]; unfold constMem; simp),
    toPoly_const hk (a := fun i => f (2 * i + 1)) (x := 0) (fun i hi => by
      rw [h _ (by omega)]; unfold constMem; simp)] at h1
  rw [← sq]
  simpa using h1

theorem IsConst.lifted {k : ℕ} {F' g : Mem Int} {c b : ℤ} (hF : IsConst k F' c) (hg : IsConst (k + 1) g b) :
    IsConst (k + 1) (karamul (k + 1) (lift k F') (galoisConjugate (k + 1) g)) (c * b) := by
  have e2 : 2 ^ (k + 1) = 2 * 2 ^ k := by ring
  refine const_of_modEq (by positivity) ?_
  have h := karamul_poly (k + 1) (lift k F') (galoisConjugate (k + 1) g)
  have h1 : toPoly (2 ^ (k + 1)) (lift k F') = C c := by rw [e2, lift_poly, hF.poly, C_comp]
  have h2 : toPoly (2 ^ (k + 1)) (galoisConjugate (k + 1) g) = C b := by rw [galois_poly, hg.poly, C_comp]
  rw [h1, h2, ← C_mul] at h
  exact h

theorem IsConst.lifted_eq {k : ℕ} {F' g : Mem Int} {c b z : ℤ} (hF : IsConst k F' c) (hg : IsConst (k + 1) g b) (h : c * b = z) :
    IsConst (k + 1) (karamul (k + 1) (lift k F') (galoisConjugate (k + 1) g)) z := h ▸ hF.lifted hg

theorem IsConst.mul {k : ℕ} {a b : Mem Int} {x y : ℤ} (ha : IsConst k a x) (hb : IsConst k b y) :
    IsConst k (karamul k a b) (x * y) := by
  refine const_of_modEq (by positivity) ?_
  have h := karamul_poly k a b
  rw [ha.poly, hb.poly, ← C_mul] at h
  exact h

theorem IsConst.small {k : ℕ} {a b : Mem Int} {x y : ℤ} (ha : IsConst k a x) (hb : IsConst k b y) (hx : x.natAbs < 2 ^ 40)
    (hy : y.natAbs < 2 ^ 40) : bitLenPair (2 ^ k) a b = 53 := by
  refine bitLenPair_small (by positivity) (fun i hi => ?_) (fun i hi => ?_)
  · rw [ha i hi]; unfold constMem; split
    · exact hx
    · norm_num
  · rw [hb i hi]; unfold constMem; split
    · exact hy
    · norm_num

/-- A round that changes nothing. -/
theorem reduce_stop {quot : RedQuot} {k : ℕ} {f g F G kr : Mem Int} 
    (h2 : bitLenPair (2 ^ k) F G = 53) (hq : quot k f g F G = .ok kr) (h0 : IsConst k kr 0) (fuel : ℕ) :
    reduceLoop quot k f g 53 (fuel + 1) F G = some (.ok (F, G)) := by
  rw [reduceLoop]
  simp only
  rw [h2, if_neg (by omega), scaled_53, scaled_53, scaled_53, scaled_53, hq]
  simp only
  have hz : ∀ N, N ≤ 2 ^ k → loop N (fun i b => b || decide (kr i ≠ 0)) false = false := by
    intro N
    induction N with
    | zero => intro _; rfl
    | succ N ihN =>
      intro hN
      rw [loop_succ, ihN (by omega), h0 N (by omega)]
      unfold constMem
      simp
  rw [hz _ le_rfl]
  rfl

/-- A round that changes something. -/
theorem reduce_step {quot : RedQuot} {k : ℕ} {f g F G kr : Mem Int} {a b c d m : ℤ} (hf : IsConst k f a) (hg : IsConst k g b)
    (hF : IsConst k F c) (hG : IsConst k G d)
    (h2 : bitLenPair (2 ^ k) F G = 53) (hq : quot k f g F G = .ok kr) (hk : IsConst k kr m) (hm : m ≠ 0) (fuel : ℕ) :
    ∃ F' G', reduceLoop quot k f g 53 (fuel + 1) F G = reduceLoop quot k f g 53 fuel F' G' ∧
      IsConst k F' (c - a * m) ∧ IsConst k G' (d - b * m) := by
  rw [reduceLoop]
  simp only
  rw [h2, if_neg (by omega), scaled_53, scaled_53, scaled_53, scaled_53, hq]
  simp only
  have hnz : loop (2 ^ k) (fun i b => b || decide (kr i ≠ 0)) false = true := by
    by_contra h
    rw [Bool.not_eq_true] at h
    have := loop_or_false (2 ^ k) (fun i => decide (kr i ≠ 0)) h 0 (by positivity)
    rw [decide_eq_false_iff_not, not_not, hk 0 (by positivity)] at this
    exact hm this
  rw [hnz]
  have upd1 : ∀ {p F : Mem Int} {x y : ℤ}, IsConst k p x → IsConst k F y →
      IsConst k (loop (2 ^ k) (fun i F => upd F i (F i - karamul k p kr i * 2 ^ (53 - 53))) F) (y - x * m) := by
    intro p F x y hp hF i hi
    have h := loop_map (2 ^ k) (fun i v => v - karamul k p kr i * 2 ^ (53 - 53)) F i
    rw [h, if_pos hi, (hp.mul hk) i hi, hF i hi]
    unfold constMem
    split <;> simp
  exact ⟨_, _, rfl, upd1 hf hF, upd1 hg hG⟩

/-- The lower levels, where g is longer than 53 bits: nothing is reduced. -/
theorem const_solve_low {quot : RedQuot} (fuel : ℕ) : ∀ (k : ℕ) (f g : Mem ℤ) (b : ℤ), IsConst k f 1 → IsConst k g b → 2 ^ 53 ≤ b →
    ∃ F G, ntruSolve quot (fuel + 3) k f g = some (.ok (some (F, G))) ∧ IsConst k F 0 ∧ IsConst k G 12289 := by
  intro k
  induction k with
  | zero =>
    intro f g b hf hg hb
    have h1 : f 0 = 1 := hf 0 (by norm_num)
    have h2 : g 0 = b := hg 0 (by norm_num)
    have hx : xgcdZ (fuel + 3) (f 0) (g 0) = some (1, 0, 1) := by
      have q0 : Int.tdiv 1 b = 0 := Int.tdiv_eq_zero_of_lt (by norm_num) (by omega)
      rw [h1, h2, xgcdZ, xgcdZLoop, if_pos (by omega), xgcdZLoop]
      simp only [q0, zero_mul, sub_zero]
      rw [if_pos one_ne_zero, Int.tdiv_one, xgcdZLoop, if_neg (by simp)]
    refine ⟨upd zerosZ 0 (-(Q.toNat : Int) * 0), upd zerosZ 0 ((Q.toNat : Int) * 1), ?_, ?_, ?_⟩
    · rw [ntruSolve, hx]
      simp only
      rw [if_neg (by simp)]
    · intro i hi
      obtain rfl : i = 0 := by simpa using hi
      rw [upd_same, mul_zero]; rfl
    · intro i hi
      obtain rfl : i = 0 := by simpa using hi
      rw [upd_same]
      rfl
  | succ k ih =>
    intro f g b hf hg hb
    obtain ⟨F', G', h1, h2, h3⟩ := ih _ _ (b * b) (by simpa using hf.norm) hg.norm (by nlinarith)
    have hF := h2.lifted hg
    have hG := h3.lifted hf
    rw [zero_mul] at hF
    rw [mul_one] at hG
    refine ⟨_, _, ?_, hF, hG⟩
    rw [ntruSolve]
    simp only
    rw [h1, bindO_pure]
    simp only
    have hlen : 53 < bitLenPair (2 ^ (k + 1)) f g := by
      have h := (bitLenPair_bound (N := 2 ^ (k + 1)) (by positivity) f g 0 (by positivity)).2
      rw [hg 0 (by positivity)] at h
      have h : b.natAbs < 2 ^ bitLenPair (2 ^ (k + 1)) f g := h
      by_contra hc
      have : 2 ^ bitLenPair (2 ^ (k + 1)) f g ≤ 2 ^ 53 := Nat.pow_le_pow_right (by norm_num) (by omega)
      omega
    unfold reduce
    rw [show fuel + 3 = (fuel + 2) + 1 from rfl, reduceLoop]
    simp only
    rw [hF.small hG (by norm_num) (by norm_num), if_pos (by omega), bindO_pure]

section
variable {A : Arith ℝ ℂ} (hA : Accurate A)
include hA

theorem const_near {n : ℕ} (hn : n ≤ 10) {a : Mem Int} {x : ℤ} (h : IsConst n a x) (hx : |x| ≤ 2 ^ 53) (j : ℕ) (hj : j < 2 ^ n) :
    ‖fft A n (toCx A n a) j - (x : ℂ)‖ ≤ 1 / 2 ^ 41 * (|(x : ℝ)| + 1) := by
  have h1 := fft_near hA hn (zC a) (toCx A n a) (toCx_at hA fun i hi => by
    rw [h i hi]; unfold constMem; split
    · exact hx
    · norm_num)
  have h2 := nC_ge (a := fun i => fft A n (toCx A n a) i - dft n (zC a) i) hj
  simp only [dft_cst (x : ℂ) j h.zC] at h2
  rw [nC_const (x : ℂ) h.zC, Complex.norm_intCast] at h1
  refine h2.trans (h1.trans ?_)
  obtain ⟨s1, s2⟩ := sqrt2_le hn
  unfold kapD
  calc 1 / 2 ^ 46 * (Real.sqrt 2 ^ n * (|(x : ℝ)| + 1)) ≤ 1 / 2 ^ 46 * (32 * (|(x : ℝ)| + 1)) := by gcongr
    _ = _ := by ring

/-- The rounded quotient of constants. -/
theorem const_quot {n : ℕ} (hn : n ≤ 10) {f g F G : Mem Int} {a b c d m : ℤ} (hf : IsConst n f a) (hg : IsConst n g b)
    (hF : IsConst n F c) (hG : IsConst n G d) (ha : |a| ≤ 2 ^ 27) (hb : |b| ≤ 2 ^ 27) (hc : |c| ≤ 2 ^ 14) (hd : |d| ≤ 2 ^ 14)
    (h1 : 1 ≤ a ^ 2 + b ^ 2) (hm : |m| ≤ 2 ^ 14) (hr : 5 * |c * a + d * b - m * (a ^ 2 + b ^ 2)| ≤ 2 * (a ^ 2 + b ^ 2)) :
    ∃ kr, redQuot A n f g F G = .ok kr ∧ IsConst n kr m := by
  -- the exact quotient
  set R : ℝ := ((a ^ 2 + b ^ 2 : ℤ) : ℝ) with hR
  have hR1 : 1 ≤ R := by rw [hR]; exact_mod_cast h1
  set κ : ℝ := ((c * a + d * b : ℤ) : ℝ) / R with hκ
  have hκm : |κ - m| ≤ 2 / 5 := by
    have e : κ - m = ((c * a + d * b - m * (a ^ 2 + b ^ 2) : ℤ) : ℝ) / R := by
      rw [hκ, eq_div_iff (by linarith), sub_mul, div_mul_cancel₀ _ (by linarith : R ≠ 0), hR]; push_cast; ring
    rw [e, abs_div, abs_of_pos (by linarith : 0 < R), div_le_iff₀ (by linarith)]
    have : ((5 * |c * a + d * b - m * (a ^ 2 + b ^ 2)| : ℤ) : ℝ) ≤ ((2 * (a ^ 2 + b ^ 2) : ℤ) : ℝ) := by exact_mod_cast hr
    rw [Int.cast_mul, Int.cast_abs, Int.cast_mul 2, ← hR] at this
    push_cast at this ⊢
    linarith
  have hmR : |(m : ℝ)| ≤ 2 ^ 14 := by exact_mod_cast hm
  have hκ2 : |κ| ≤ 2 ^ 15 := by
    have := abs_sub_abs_le_abs_sub κ m
    norm_num at *
    linarith
  set k : Mem ℂ := fun i => if i = 0 then (κ : ℂ) else 0 with hk
  have hkd : ∀ j, dft n k j = κ := fun j => dft_cst _ j fun i _ => rfl
  -- pointwise
  have aR : |(a : ℝ)| ≤ 2 ^ 27 := by exact_mod_cast ha
  have cR : |(c : ℝ)| ≤ 2 ^ 14 := by exact_mod_cast hc
  have dR : |(d : ℝ)| ≤ 2 ^ 14 := by exact_mod_cast hd
  have r2 : Real.sqrt R ^ 2 = R := Real.sq_sqrt (by linarith)
  have r1 : 1 ≤ Real.sqrt R := Real.one_le_sqrt.mpr hR1
  have hRab : R = (a : ℝ) ^ 2 + (b : ℝ) ^ 2 := by rw [hR]; push_cast; ring
  generalize Real.sqrt R = r at *
  have ar : |(a : ℝ)| ≤ r := abs_le_of_sq_le_sq (by rw [r2, hRab]; nlinarith [sq_nonneg (b : ℝ)]) (by linarith)
  have br : |(b : ℝ)| ≤ r := abs_le_of_sq_le_sq (by rw [r2, hRab]; nlinarith [sq_nonneg (a : ℝ)]) (by linarith)
  have near : ∀ {p : Mem Int} {x : ℤ}, IsConst n p x → |x| ≤ 2 ^ 27 → |(x : ℝ)| ≤ r → ∀ j, j < 2 ^ n →
      ‖fft A n (toCx A n p) j - (x : ℂ)‖ ≤ delD * r := by
    intro p x hp hx hxr j hj
    refine (const_near hA hn hp (hx.trans (by norm_num)) j hj).trans ?_
    have : |(x : ℝ)| + 1 ≤ 2 * r := by linarith
    unfold delD
    calc 1 / 2 ^ 41 * (|(x : ℝ)| + 1) ≤ 1 / 2 ^ 41 * (2 * r) := by gcongr
      _ ≤ _ := by norm_num; linarith
  have near2 : ∀ {p : Mem Int} {x : ℤ}, IsConst n p x → |x| ≤ 2 ^ 14 → ∀ j, j < 2 ^ n →
      ‖fft A n (toCx A n p) j - (x : ℂ)‖ ≤ 1 / 2 ^ 20 := by
    intro p x hp hx j hj
    refine (const_near hA hn hp (hx.trans (by norm_num)) j hj).trans ?_
    have : |(x : ℝ)| ≤ 2 ^ 14 := by exact_mod_cast hx
    norm_num at *
    linarith
  have hpt : ∀ j, j < 2 ^ n → ‖quoAt A (fft A n (toCx A n f) j) (fft A n (toCx A n g) j)
      (fft A n (toCx A n F) j) (fft A n (toCx A n G) j) - κ‖ ≤ 1 / 2 ^ 10 := by
    intro j hj
    have h := quo_near hA (X := fft A n (toCx A n f) j) (Y := fft A n (toCx A n g) j) (U := fft A n (toCx A n F) j)
      (V := fft A n (toCx A n G) j) (x := (a : ℂ)) (y := (b : ℂ)) (u := (c : ℂ)) (v := (d : ℂ)) r1 (by
        rw [r2, hRab, map_intCast, map_intCast]; push_cast; ring)
      (by rw [Complex.norm_intCast]; exact ar) (by rw [Complex.norm_intCast]; exact br)
      (near hf ha ar j hj) (near hg hb br j hj)
    have e : ((c : ℂ) * (starRingEnd ℂ) (a : ℂ) + (d : ℂ) * (starRingEnd ℂ) (b : ℂ)) / ((r ^ 2 : ℝ) : ℂ) = (κ : ℂ) := by
      rw [hκ, r2, map_intCast, map_intCast]; push_cast; ring
    rw [e, Complex.norm_intCast, Complex.norm_intCast] at h
    refine h.trans ?_
    have n1 := near2 hF hc j hj
    have n2 := near2 hG hd j hj
    generalize ‖fft A n (toCx A n F) j - (c : ℂ)‖ = p1 at *
    generalize ‖fft A n (toCx A n G) j - (d : ℂ)‖ = p2 at *
    clear h e near near2 ar br
    unfold delD
    norm_num at *
    linarith
  -- the inverse transform
  refine redQuot_ok A (constMem m) fun Q hQ i hi => ?_
  have El : nC (2 ^ n) (fun j => Q j - dft n k j) ≤ Real.sqrt 2 ^ n * (1 / 2 ^ 10) := by
    have := l2_mono (N := 2 ^ n) (r := fun j => ‖Q j - dft n k j‖) (s := fun _ => 1 / 2 ^ 10) (fun j hj => by
      rw [abs_of_nonneg (norm_nonneg _), hQ j hj, hkd]; exact hpt j hj)
    rw [l2_const _ (by norm_num), sqrt_pow2] at this
    exact this
  have Zl := ifft_near hA hn Q k El
  rw [nC_const (κ : ℂ) (a := k) (fun i _ => rfl), Complex.norm_real, Real.norm_eq_abs] at Zl
  obtain ⟨-, s1⟩ := sqrt2_le hn
  have Zl2 : nC (2 ^ n) (fun i => ifft A n Q i - k i) ≤ 1 / 2 ^ 8 := by
    refine le_of_mul_le_mul_right (Zl.trans ?_) (by linarith : 0 < Real.sqrt 2 ^ n)
    generalize Real.sqrt 2 ^ n = s at *
    have : s * |κ| ≤ s * 2 ^ 15 := by gcongr
    unfold kapD
    norm_num at *
    linarith
  have hz := (nC_ge (a := fun i => ifft A n Q i - k i) hi).trans Zl2
  have hre := (Complex.abs_re_le_norm _).trans hz
  rw [Complex.sub_re] at hre
  have hst : stdRound (ifft A n Q i).re = constMem m i := by
    apply stdRound_near
    unfold constMem
    by_cases h0 : i = 0
    · rw [if_pos h0]
      rw [hk] at hre
      simp only [h0, if_true, Complex.ofReal_re] at hre
      rw [h0]
      have := abs_add_le ((ifft A n Q 0).re - κ) (κ - m)
      rw [sub_add_sub_cancel] at this
      norm_num at *
      linarith
    · rw [if_neg h0]
      rw [hk] at hre
      simp only [h0, if_false, Complex.zero_re] at hre
      push_cast
      norm_num at *
      linarith
  rw [hA.roundTo, hA.re]
  unfold exactRoundTo
  rw [hst, if_pos]
  unfold constMem
  rw [abs_le] at hm
  split <;> omega

omit hA

/-- What is used of the quotient by constant polynomials. -/
def ConstQuot (quot : RedQuot) : Prop :=
  ∀ {n : ℕ}, n ≤ 10 → ∀ {f g F G : Mem Int} {a b c d m : ℤ}, IsConst n f a → IsConst n g b → IsConst n F c → IsConst n G d →
    |a| ≤ 2 ^ 27 → |b| ≤ 2 ^ 27 → |c| ≤ 2 ^ 14 → |d| ≤ 2 ^ 14 → 1 ≤ a ^ 2 + b ^ 2 → |m| ≤ 2 ^ 14 →
    5 * |c * a + d * b - m * (a ^ 2 + b ^ 2)| ≤ 2 * (a ^ 2 + b ^ 2) → ∃ kr, quot n f g F G = .ok kr ∧ IsConst n kr m

variable {quot : RedQuot} (hQ : ConstQuot quot)
include hQ

/-- One round on constants. -/
theorem const_stop {k : ℕ} (hk : k ≤ 10) {f g F G : Mem Int} {a b c d : ℤ} (hf : IsConst k f a) (hg : IsConst k g b)
    (hF : IsConst k F c) (hG : IsConst k G d) (ha : |a| ≤ 2 ^ 27) (hb : |b| ≤ 2 ^ 27) (hc : |c| ≤ 2 ^ 14) (hd : |d| ≤ 2 ^ 14)
    (h1 : 1 ≤ a ^ 2 + b ^ 2) (hr : 5 * |c * a + d * b| ≤ 2 * (a ^ 2 + b ^ 2)) (fuel : ℕ) :
    reduceLoop (quot) k f g 53 (fuel + 1) F G = some (.ok (F, G)) := by
  obtain ⟨kr, q1, q2⟩ := hQ hk hf hg hF hG ha hb hc hd h1 (m := 0) (by norm_num) (by simpa using hr)
  rw [Int.abs_eq_natAbs] at hc hd
  exact reduce_stop (hF.small hG (by omega) (by omega)) q1 q2 fuel

theorem const_step {k : ℕ} (hk : k ≤ 10) {f g F G : Mem Int} {a b c d : ℤ} (m : ℤ) (hf : IsConst k f a) (hg : IsConst k g b)
    (hF : IsConst k F c) (hG : IsConst k G d) (ha : |a| ≤ 2 ^ 27) (hb : |b| ≤ 2 ^ 27) (hc : |c| ≤ 2 ^ 14) (hd : |d| ≤ 2 ^ 14)
    (h1 : 1 ≤ a ^ 2 + b ^ 2) (hm : |m| ≤ 2 ^ 14) (hm0 : m ≠ 0)
    (hr : 5 * |c * a + d * b - m * (a ^ 2 + b ^ 2)| ≤ 2 * (a ^ 2 + b ^ 2)) (fuel : ℕ) :
    ∃ F' G', reduceLoop (quot) k f g 53 (fuel + 1) F G = reduceLoop (quot) k f g 53 fuel F' G' ∧
      IsConst k F' (c - a * m) ∧ IsConst k G' (d - b * m) := by
  obtain ⟨kr, q1, q2⟩ := hQ hk hf hg hF hG ha hb hc hd h1 hm hr
  rw [Int.abs_eq_natAbs] at hc hd
  exact reduce_step hf hg hF hG (hF.small hG (by omega) (by omega)) q1 q2 hm0 fuel

/-- The solution for f = 1, g = -104 and N = 512, in any accurate arithmetic. -/
theorem const_solve_of {f g : Mem ℤ} (hf : IsConst 9 f 1) (hg : IsConst 9 g (-104)) :
    ∃ F G, ntruSolve (quot) 3 9 f g = some (.ok (some (F, G))) ∧ IsConst 9 F 118 ∧ IsConst 9 G 17 := by
  have f8 : IsConst 8 (fieldNorm 8 f) 1 := by simpa using hf.norm
  have f7 : IsConst 7 (fieldNorm 7 (fieldNorm 8 f)) 1 := by simpa using f8.norm
  have f6 : IsConst 6 (fieldNorm 6 (fieldNorm 7 (fieldNorm 8 f))) 1 := by simpa using f7.norm
  have g8 : IsConst 8 (fieldNorm 8 g) 10816 := hg.norm
  have g7 : IsConst 7 (fieldNorm 7 (fieldNorm 8 g)) 116985856 := g8.norm
  have g6 : IsConst 6 (fieldNorm 6 (fieldNorm 7 (fieldNorm 8 g))) 13685690504052736 := g7.norm
  have len : ∀ {k : ℕ} {f g : Mem Int} {a b : ℤ}, IsConst k f a → IsConst k g b → a.natAbs < 2 ^ 40 → b.natAbs < 2 ^ 40 →
    bitLenPair (2 ^ k) f g = 53 := fun h1 h2 h3 h4 => h1.small h2 h3 h4
  -- up to N = 64
  obtain ⟨F6, G6, s6, hF6, hG6⟩ := const_solve_low (quot := quot) 0 6 _ _ _ f6 g6 (by norm_num)
  -- N = 128
  have s7 : ∃ F G, ntruSolve (quot) 3 7 (fieldNorm 7 (fieldNorm 8 f)) (fieldNorm 7 (fieldNorm 8 g))
      = some (.ok (some (F, G))) ∧ IsConst 7 F 0 ∧ IsConst 7 G 12289 := by
    have hF := hF6.lifted_eq g7 (z := 0) (by norm_num)
    have hG := hG6.lifted_eq f7 (z := 12289) (by norm_num)
    refine ⟨_, _, ?_, hF, hG⟩
    rw [ntruSolve]
    simp only
    rw [s6, bindO_pure]
    simp only
    unfold reduce
    rw [len f7 g7 (by norm_num) (by norm_num), const_stop hQ (by norm_num) f7 g7 hF hG (by norm_num) (by norm_num) (by norm_num)
      (by norm_num) (by norm_num) (by norm_num) 2, bindO_pure]
  obtain ⟨F7, G7, s7, hF7, hG7⟩ := s7
  -- N = 256
  have s8 : ∃ F G, ntruSolve (quot) 3 8 (fieldNorm 8 f) (fieldNorm 8 g)
      = some (.ok (some (F, G))) ∧ IsConst 8 F (-1) ∧ IsConst 8 G 1473 := by
    have hF := hF7.lifted_eq g8 (z := 0) (by norm_num)
    have hG := hG7.lifted_eq f8 (z := 12289) (by norm_num)
    obtain ⟨F, G, st, hF', hG'⟩ := const_step hQ (by norm_num) 1 f8 g8 hF hG (by norm_num) (by norm_num) (by norm_num)
      (by norm_num) (by norm_num) (by norm_num) (by norm_num) (by norm_num) 2
    norm_num at hF' hG'
    refine ⟨F, G, ?_, hF', hG'⟩
    rw [ntruSolve]
    simp only
    rw [s7, bindO_pure]
    simp only
    unfold reduce
    rw [len f8 g8 (by norm_num) (by norm_num), st, const_stop hQ (by norm_num) f8 g8 hF' hG' (by norm_num) (by norm_num)
      (by norm_num) (by norm_num) (by norm_num) (by norm_num) 1, bindO_pure]
  obtain ⟨F8, G8, s8, hF8, hG8⟩ := s8
  -- N = 512
  have hF := hF8.lifted_eq hg (z := 104) (by norm_num)
  have hG := hG8.lifted_eq hf (z := 1473) (by norm_num)
  obtain ⟨F, G, st, hF', hG'⟩ := const_step hQ (by norm_num) (-14) hf hg hF hG (by norm_num) (by norm_num) (by norm_num)
    (by norm_num) (by norm_num) (by norm_num) (by norm_num) (by norm_num) 2
  norm_num at hF' hG'
  refine ⟨F, G, ?_, hF', hG'⟩
  rw [ntruSolve]
  simp only
  rw [s8, bindO_pure]
  simp only
  unfold reduce
  rw [len hf hg (by norm_num) (by norm_num), st, const_stop hQ (by norm_num) hf hg hF' hG' (by norm_num) (by norm_num)
    (by norm_num) (by norm_num) (by norm_num) (by norm_num) 1, bindO_pure]

end

theorem const_solve {A : Arith ℝ ℂ} (hA : Accurate A) {f g : Mem ℤ} (hf : IsConst 9 f 1) (hg : IsConst 9 g (-104)) :
    ∃ F G, ntruSolve (redQuot A) 3 9 f g = some (.ok (some (F, G))) ∧ IsConst 9 F 118 ∧ IsConst 9 G 17 :=
  const_solve_of (fun hn => const_quot hA hn) hf hg

end Falcon
