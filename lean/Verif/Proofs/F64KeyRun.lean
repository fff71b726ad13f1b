import Verif.Proofs.F64Key
import Verif.Proofs.ConstRun
import Verif.Proofs.ConstGs
import Verif.Proofs.GsAccept

/-!
# Runs on IEEE 754 data: constant polynomials, and the zero pair in the Gram-Schmidt test
-/

namespace Falcon

open Finset

theorem const_sum {A : Arith ℝ ℂ} (hA : Accurate A) {n : ℕ} (hn : n ≤ 10) {f g : Mem Int} {a b : ℤ} (hf : IsConst n f a) (hg : IsConst n g b)
    (ha : |a| ≤ 2 ^ 27) (hb : |b| ≤ 2 ^ 27) (h1 : 1 ≤ a ^ 2 + b ^ 2) (j : ℕ) (hj : j < 2 ^ n) : 1 / 2 ^ 80 ≤ ‖gsSum A n f g j‖ := by
  have key : ∀ {p : Mem Int} {x : ℤ}, IsConst n p x → |x| ≤ 2 ^ 27 → x ≠ 0 → 1 / 2 ≤ ‖fft A n (toCx A n p) j‖ := by
    intro p x hp hx hne
    have h := const_near hA hn hp (hx.trans (by norm_num)) j hj
    have h2 := norm_sub_norm_le (x : ℂ) (fft A n (toCx A n p) j)
    rw [norm_sub_rev] at h2
    have h3 : ‖(x : ℂ)‖ = |(x : ℝ)| := by
      rw [show (x : ℂ) = ((x : ℝ) : ℂ) by push_cast; rfl, Complex.norm_real, Real.norm_eq_abs]
    have h4 : (1 : ℝ) ≤ |(x : ℝ)| := by rw [← Int.cast_abs]; exact_mod_cast Int.one_le_abs hne
    rw [h3] at h2
    generalize ‖fft A n (toCx A n p) j‖ = w at *
    norm_num at h
    linarith
  have hor : a ≠ 0 ∨ b ≠ 0 := by
    by_contra hc
    push Not at hc
    rw [hc.1, hc.2] at h1
    norm_num at h1
  have hs := sum_near hA (fft A n (toCx A n f) j) (fft A n (toCx A n g) j)
  change ‖gsSum A n f g j - _‖ ≤ _ at hs
  have hS : 1 / 4 ≤ ‖fft A n (toCx A n f) j‖ ^ 2 + ‖fft A n (toCx A n g) j‖ ^ 2 := by
    rcases hor with h | h
    · have := key hf ha h
      nlinarith [sq_nonneg ‖fft A n (toCx A n g) j‖]
    · have := key hg hb h
      nlinarith [sq_nonneg ‖fft A n (toCx A n f) j‖]
  generalize ‖fft A n (toCx A n f) j‖ ^ 2 + ‖fft A n (toCx A n g) j‖ ^ 2 = S at *
  have h2 := norm_sub_norm_le (S : ℂ) (gsSum A n f g j)
  rw [norm_sub_rev, Complex.norm_real, Real.norm_of_nonneg (by linarith)] at h2
  generalize ‖gsSum A n f g j‖ = w at *
  generalize ‖gsSum A n f g j - S‖ = v at *
  norm_num at hs ⊢
  linarith

theorem const_quot64 (b : Bool) (rm rd : F64.Recover) : ConstQuot (redQuot (f64A b rm rd)) := by
  intro n hn f g F G x y c d m hf hg hF hG hx hy hc hd h1 hm hr
  have up : ∀ {p : Mem Int} {x : ℤ}, IsConst n p x → |x| ≤ 2 ^ 27 → ∀ i, i < 2 ^ n → |p i| ≤ 2 ^ 53 := by
    intro p x hp hx i hi
    rw [hp i hi]
    unfold constMem
    split
    · exact hx.trans (by norm_num)
    · norm_num
  rw [redQuot64 hn (up hf hx) (up hg hy) (up hF (hc.trans (by norm_num))) (up hG (hd.trans (by norm_num)))
    (const_sum (accurate_ieee b) hn hf hg hx hy h1)]
  exact const_quot (accurate_ieee b) hn hf hg hF hG hx hy hc hd h1 hm hr

theorem const_gs64 (b : Bool) (rm rd : F64.Recover) : gsTooBig (f64A b rm rd) 9 (constMem 1) (constMem (-104)) = false := by
  have up : ∀ x : ℤ, |x| ≤ 2 ^ 8 → ∀ i, i < 2 ^ 9 → |constMem x i| ≤ 2 ^ 8 := by
    intro x hx i _
    unfold constMem
    split
    · exact hx
    · norm_num
  rw [gsTooBig64 (by norm_num) (up 1 (by norm_num)) (up (-104) (by norm_num))
    (const_sum (accurate_ieee b) (by norm_num) (fun _ _ => rfl) (fun _ _ => rfl) (by norm_num) (by norm_num) (by norm_num))]
  exact const_gs_float b

/-! ## The zero pair -/

/-- A zero of either sign. -/
def IsZ (d : F64) : Prop := ∃ s, d = .fin s 0

theorem rnd_zero' : rnd 0 = 0 := rnd_of_rep rep_zero'

theorem isZ_round (z : Bool) : IsZ (F64.round z 0) := by
  unfold F64.round
  rw [rnd_zero', abs_zero, if_neg (not_le.mpr (by positivity)), if_pos rfl]
  exact ⟨z, rfl⟩

theorem isZ_add {x y : F64} (hx : IsZ x) (hy : IsZ y) : IsZ (F64.add x y) := by
  obtain ⟨s, rfl⟩ := hx
  obtain ⟨t, rfl⟩ := hy
  show IsZ (F64.round _ (0 + 0))
  rw [add_zero]
  exact isZ_round _

theorem isZ_neg {x : F64} (hx : IsZ x) : IsZ (F64.neg x) := by
  obtain ⟨s, rfl⟩ := hx
  exact ⟨!s, by simp [F64.neg]⟩

theorem isZ_mul {x y : F64} (hx : x.Finite) (hy : IsZ y) : IsZ (F64.mul x y) := by
  obtain ⟨s, x, rfl⟩ := hx
  obtain ⟨t, rfl⟩ := hy
  show IsZ (F64.round _ (x * 0))
  rw [mul_zero]
  exact isZ_round _

theorem isZ_fma {x y z : F64} (hx : x.Finite) (hy : IsZ y) (hz : IsZ z) : IsZ (F64.fma x y z) := by
  obtain ⟨s, x, rfl⟩ := hx
  obtain ⟨t, rfl⟩ := hy
  obtain ⟨u, rfl⟩ := hz
  show IsZ (F64.round _ (x * 0 + 0))
  rw [mul_zero, add_zero]
  exact isZ_round _

theorem IsZ.finite {x : F64} (h : IsZ x) : x.Finite := by
  obtain ⟨s, rfl⟩ := h
  exact ⟨s, 0, rfl⟩

/-- Both parts are zeros. -/
def IsZC (d : F64 × F64) : Prop := IsZ d.1 ∧ IsZ d.2

theorem recover_finite {rec : F64.Recover} {x y r : F64 × F64} (h : r.1.Finite) : F64.recover rec x y r = r := by
  obtain ⟨u, v⟩ := r
  obtain ⟨s, z, hz⟩ := h
  simp only at hz
  subst hz
  rfl

theorem isZC_cmul {b : Bool} {rm rd : F64.Recover} {x y : F64 × F64} (hx : F64.CFinite x) (hy : IsZC y) :
    IsZC ((f64A b rm rd).cmul x y) := by
  have h : IsZC (F64.cmul0 b x y) := by
    unfold F64.cmul0
    cases b
    · exact ⟨isZ_add (isZ_mul hx.1 hy.1) (isZ_neg (isZ_mul hx.2 hy.2)), isZ_add (isZ_mul hx.1 hy.2) (isZ_mul hx.2 hy.1)⟩
    · exact ⟨isZ_fma hx.1 hy.1 (isZ_neg (isZ_mul hx.2 hy.2)), isZ_fma hx.1 hy.2 (isZ_mul hx.2 hy.1)⟩
  show IsZC (F64.recover rm x y _)
  rw [recover_finite h.1.finite]
  exact h

theorem isZC_cadd {b : Bool} {rm rd : F64.Recover} {x y : F64 × F64} (hx : IsZC x) (hy : IsZC y) : IsZC ((f64A b rm rd).cadd x y) :=
  ⟨isZ_add hx.1 hy.1, isZ_add hx.2 hy.2⟩

theorem isZC_csub {b : Bool} {rm rd : F64.Recover} {x y : F64 × F64} (hx : IsZC x) (hy : IsZC y) : IsZC ((f64A b rm rd).csub x y) :=
  ⟨isZ_add hx.1 (isZ_neg hy.1), isZ_add hx.2 (isZ_neg hy.2)⟩

theorem isZC_conj {b : Bool} {rm rd : F64.Recover} {x : F64 × F64} (hx : IsZC x) : IsZC ((f64A b rm rd).conj x) :=
  ⟨hx.1, isZ_neg hx.2⟩

theorem isZC_fft {b : Bool} {rm rd : F64.Recover} {n : ℕ} (hn : n ≤ 10) {a : Mem (F64 × F64)} (h : ∀ i, i < 2 ^ n → IsZC (a i)) :
    ∀ i, i < 2 ^ n → IsZC (fft (f64A b rm rd) n a i) := by
  have hp : 2 ^ n ≤ 1024 := (Nat.pow_le_pow_right (by norm_num) hn).trans (by norm_num)
  rw [fft_eq]
  have := downLayers_rel (R := fun x _ : F64 × F64 => IsZC x) n (bf := fftBf (f64A b rm rd)) (bg := fftBf (f64A b rm rd)) (by
    intro k hk x x' y y' hx hy
    have ht : F64.CFinite ((f64A b rm rd).tab k) := by
      obtain ⟨⟨⟨s, h1⟩, -⟩, ⟨t, h2⟩, -⟩ := (sim_f64 b rm rd).tab (by omega : k < 1024)
      exact ⟨⟨s, _, h1⟩, ⟨t, _, h2⟩⟩
    have hm := isZC_cmul (b := b) (rm := rm) (rd := rd) ht hy
    exact ⟨isZC_cadd (b := b) (rm := rm) (rd := rd) hx hm, isZC_csub (b := b) (rm := rm) (rd := rd) hx hm⟩) (a := a) (b := a) h
  exact this

theorem isZ_lit0 : IsZ (F64.lit 0) := by
  unfold F64.lit
  rw [Rat.cast_zero]
  exact isZ_round _

/-- 0 / 0. -/
theorem isZC_cdiv {b : Bool} {rm : F64.Recover} {x y : F64 × F64} (hx : IsZC x) (hy : IsZC y) :
    (f64A b rm F64.keepNan).cdiv x y = (.nan, .nan) := by
  have h1 : IsZC (F64.cmul0 b x (y.1, F64.neg y.2)) := by
    have hx' : F64.CFinite x := ⟨hx.1.finite, hx.2.finite⟩
    have hy' : IsZC (y.1, F64.neg y.2) := ⟨hy.1, isZ_neg hy.2⟩
    unfold F64.cmul0
    cases b
    · exact ⟨isZ_add (isZ_mul hx'.1 hy'.1) (isZ_neg (isZ_mul hx'.2 hy'.2)), isZ_add (isZ_mul hx'.1 hy'.2) (isZ_mul hx'.2 hy'.1)⟩
    · exact ⟨isZ_fma hx'.1 hy'.1 (isZ_neg (isZ_mul hx'.2 hy'.2)), isZ_fma hx'.1 hy'.2 (isZ_mul hx'.2 hy'.1)⟩
  have h2 : IsZ (if b then F64.fma y.1 y.1 (F64.mul y.2 y.2) else F64.add (F64.mul y.1 y.1) (F64.mul y.2 y.2)) := by
    cases b
    · exact isZ_add (isZ_mul hy.1.finite hy.1) (isZ_mul hy.2.finite hy.2)
    · exact isZ_fma hy.1.finite hy.1 (isZ_mul hy.2.finite hy.2)
  have dv : ∀ {p d : F64}, IsZ p → IsZ d → F64.div p d = .nan := by
    rintro p d ⟨s, rfl⟩ ⟨t, rfl⟩
    show (if (0 : ℝ) = 0 then (if (0 : ℝ) = 0 then F64.nan else _) else _) = _
    rw [if_pos rfl, if_pos rfl]
  have h3 : F64.cdiv0 b x y = (.nan, .nan) := by
    unfold F64.cdiv0
    simp only
    rw [dv h1.1 h2, dv h1.2 h2]
  show F64.recover F64.keepNan x y (F64.cdiv0 b x y) = _
  rw [h3]
  rfl

/-- The Gram-Schmidt norm of the zero pair: the second norm is NaN, `std::max` drops it. -/
theorem gs_zero_pair (b : Bool) {n : ℕ} (hn : ValidLog n) : gsTooBig (f64A b F64.keepNan F64.keepNan) n (fun _ => 0) (fun _ => 0) = false := by
  have hn10 : n ≤ 10 := by rcases hn with rfl | rfl <;> norm_num
  have hN : 2 ^ n ≠ 0 := by positivity
  obtain ⟨F, G, h1, h2⟩ := gsNorm_at (f64A b F64.keepNan F64.keepNan) n (fun _ => 0) (fun _ => 0)
  have l0 : IsZ ((f64A b F64.keepNan F64.keepNan).lit (((0 : ℤ) : ℚ))) := by
    show IsZ (F64.lit _)
    rw [Int.cast_zero]
    exact isZ_lit0
  have hnorm : IsZ (sqrdNormR (f64A b F64.keepNan F64.keepNan) n (loop (1 <<< n)
      (fun i m => upd m i ((f64A b F64.keepNan F64.keepNan).lit (((0 : ℤ) : ℚ)))) fun _ => (f64A b F64.keepNan F64.keepNan).lit 0)) := by
    unfold sqrdNormR
    rw [one_shiftLeft']
    generalize hw : loop (2 ^ n) (fun i m => upd m i ((f64A b F64.keepNan F64.keepNan).lit (((0 : ℤ) : ℚ))))
      (fun _ => (f64A b F64.keepNan F64.keepNan).lit 0) = w
    have hz : ∀ i, i < 2 ^ n → IsZ (w i) := by
      intro i hi
      rw [← hw, loop_fill_lt _ _ _ _ hi]
      exact l0
    have : ∀ m, m ≤ 2 ^ n → IsZ (loop m (fun i res => (f64A b F64.keepNan F64.keepNan).add res ((f64A b F64.keepNan F64.keepNan).mul (w i) (w i)))
        ((f64A b F64.keepNan F64.keepNan).lit 0)) := by
      intro m
      induction m with
      | zero => intro _; exact isZ_lit0
      | succ m ih =>
        intro hm
        rw [loop_succ]
        exact isZ_add (ih (by omega)) (isZ_mul (hz m (by omega)).finite (hz m (by omega)))
    exact this _ le_rfl
  have hx : ∀ j, j < 2 ^ n → IsZC (fft (f64A b F64.keepNan F64.keepNan) n (toCx (f64A b F64.keepNan F64.keepNan) n fun _ => 0) j) := by
    refine isZC_fft hn10 fun i hi => ?_
    unfold toCx
    rw [one_shiftLeft', loop_fill_lt _ _ _ _ hi]
    exact ⟨l0, isZ_lit0⟩
  have hsum := fun j (hj : j < 2 ^ n) => isZC_cadd (b := b) (rm := F64.keepNan) (rd := F64.keepNan)
    (isZC_cmul (b := b) (rm := F64.keepNan) (rd := F64.keepNan) ⟨(hx j hj).1.finite, (hx j hj).2.finite⟩
      (isZC_conj (b := b) (rm := F64.keepNan) (rd := F64.keepNan) (hx j hj)))
    (isZC_cmul (b := b) (rm := F64.keepNan) (rd := F64.keepNan) ⟨(hx j hj).1.finite, (hx j hj).2.finite⟩
      (isZC_conj (b := b) (rm := F64.keepNan) (rd := F64.keepNan) (hx j hj)))
  have hF : ∀ j, j < 2 ^ n → F j = (.nan, .nan) := fun j hj => by
    rw [(h2 j hj).1]
    exact isZC_cdiv (isZC_conj (b := b) (rm := F64.keepNan) (rd := F64.keepNan) (hx j hj)) (hsum j hj)
  have hnan : sqrdNormC (f64A b F64.keepNan F64.keepNan) n F = .nan := by
    unfold sqrdNormC
    simp only
    rw [one_shiftLeft']
    have : (loop (2 ^ n) (fun i res => (f64A b F64.keepNan F64.keepNan).cadd res ((f64A b F64.keepNan F64.keepNan).cmul (F i)
        ((f64A b F64.keepNan F64.keepNan).conj (F i)))) ((f64A b F64.keepNan F64.keepNan).cx ((f64A b F64.keepNan F64.keepNan).lit 0)
          ((f64A b F64.keepNan F64.keepNan).lit 0))).1 = .nan := by
      obtain ⟨m, hm⟩ := Nat.exists_eq_succ_of_ne_zero hN
      rw [hm, loop_succ, hF m (by omega)]
      generalize loop m _ _ = r
      have e : (f64A b F64.keepNan F64.keepNan).cmul (.nan, .nan) ((f64A b F64.keepNan F64.keepNan).conj (.nan, .nan)) = (.nan, .nan) := by
        show F64.recover _ _ _ (F64.cmul0 b (.nan, .nan) (.nan, .nan)) = _
        cases b <;> rfl
      rw [e]
      show F64.add r.1 .nan = .nan
      cases r.1 <;> rfl
    generalize loop (2 ^ n) _ _ = r at this ⊢
    show F64.div r.1 _ = _
    rw [this]
    rfl
  unfold gsTooBig
  rw [h1, hnan]
  have e : F64.mul ((f64A b F64.keepNan F64.keepNan).lit (12289 * 12289)) (F64.add .nan (sqrdNormC (f64A b F64.keepNan F64.keepNan) n G)) = .nan := by
    show F64.mul _ .nan = .nan
    cases (f64A b F64.keepNan F64.keepNan).lit (12289 * 12289) <;> rfl
  generalize hw : sqrdNormR _ n _ = w at hnorm
  obtain ⟨s, hs⟩ := isZ_add hnorm hnorm
  show F64.lt (gsThreshold (f64A b F64.keepNan F64.keepNan)) (F64.max (F64.add w w) (F64.mul ((f64A b F64.keepNan F64.keepNan).lit (12289 * 12289))
    (F64.add .nan (sqrdNormC (f64A b F64.keepNan F64.keepNan) n G)))) = false
  rw [e, hs]
  have l1 : FinB 1 (F64.lit 1.17) (rnd ((1.17 : ℚ) : ℝ)) := finB_lit (by norm_num [abs_of_pos]) (by norm_num)
  have l2 : FinB 14 (F64.lit 12289) (rnd ((12289 : ℚ) : ℝ)) := finB_lit (by norm_num) (by norm_num)
  have t : FinB (1 + 1 + 14) (gsThreshold (f64A b F64.keepNan F64.keepNan)) (gsThreshold (ieeeA b)) :=
    finB_mul (finB_mul l1 l1 (by norm_num)) l2 (by norm_num)
  obtain ⟨⟨t, ht⟩, -⟩ := t
  rw [ht]
  have := gsThreshold_low b
  refine decide_eq_false ?_
  linarith

end Falcon
