import Verif.Proofs.Fma
import Mathlib.Analysis.SpecialFunctions.Exp

/-! # Accuracy of the rejection threshold -/

namespace Falcon

/-! ## LN2 is the logarithm of 2 up to 2^-55 -/

def hornerQ : List ℚ → ℚ → ℚ
  | [], _ => 0
  | c :: l, x => c + x * hornerQ l x

theorem horner_cast (l : List ℚ) (x : ℚ) : horner l (x : ℝ) = ((hornerQ l x : ℚ) : ℝ) := by
  induction l with
  | nil => simp [horner, hornerQ]
  | cons c l ih => simp only [horner, hornerQ, ih]; push_cast; ring

/-- 23 terms of the series of exp. -/
def expTaylor : List ℚ := (List.range 23).map fun i => 1 / (i.factorial : ℚ)

theorem expTaylor_bound (x : ℝ) (h0 : 0 ≤ x) (h1 : x ≤ 1) :
    |Real.exp x - horner expTaylor x| ≤ 1 / 2 ^ 70 := by
  have hb := Real.exp_bound (x := x) (by rw [abs_of_nonneg h0]; linarith) (n := 23) (by norm_num)
  have e : horner expTaylor x = ∑ m ∈ Finset.range 23, x ^ m / (m.factorial : ℝ) := by
    unfold expTaylor
    rw [horner_range]
    refine Finset.sum_congr rfl fun i _ => ?_
    push_cast
    ring
  rw [e]
  refine hb.trans ?_
  rw [abs_of_nonneg h0]
  have hp : x ^ 23 ≤ 1 := pow_le_one₀ h0 h1
  calc x ^ 23 * _ ≤ 1 * (((Nat.succ 23 : ℕ) : ℝ) / ((Nat.factorial 23 : ℕ) * (23 : ℕ))) :=
        mul_le_mul_of_nonneg_right hp (by positivity)
    _ ≤ 1 / 2 ^ 70 := by norm_num [Nat.factorial]

def ln2Q : ℚ := 6243314768165359 / 2 ^ 53

theorem ln2_cert : hornerQ expTaylor ln2Q + 1 / 2 ^ 70 ≤ 2 ∧
    2 ≤ hornerQ expTaylor (ln2Q + 1 / 2 ^ 55) - 1 / 2 ^ 70 := by decide +kernel

theorem LN2_log : LN2 ≤ Real.log 2 ∧ Real.log 2 ≤ LN2 + 1 / 2 ^ 55 := by
  have e : LN2 = ((ln2Q : ℚ) : ℝ) := by rw [LN2_eq]; norm_num [ln2Q]
  have e2 : LN2 + 1 / 2 ^ 55 = ((ln2Q + 1 / 2 ^ 55 : ℚ) : ℝ) := by rw [e]; push_cast; ring
  have b1 := expTaylor_bound ((ln2Q : ℚ) : ℝ) (by norm_num [ln2Q]) (by norm_num [ln2Q])
  have b2 := expTaylor_bound ((ln2Q + 1 / 2 ^ 55 : ℚ) : ℝ) (by norm_num [ln2Q]) (by norm_num [ln2Q])
  rw [horner_cast] at b1 b2
  obtain ⟨c1, c2⟩ := ln2_cert
  have d1 : ((hornerQ expTaylor ln2Q + 1 / 2 ^ 70 : ℚ) : ℝ) ≤ ((2 : ℚ) : ℝ) := Rat.cast_le.mpr c1
  have d2 : ((2 : ℚ) : ℝ) ≤ ((hornerQ expTaylor (ln2Q + 1 / 2 ^ 55) - 1 / 2 ^ 70 : ℚ) : ℝ) :=
    Rat.cast_le.mpr c2
  rw [Rat.cast_add] at d1
  rw [Rat.cast_sub] at d2
  have q : ((1 / 2 ^ 70 : ℚ) : ℝ) = 1 / 2 ^ 70 := by push_cast; ring
  have q2 : ((2 : ℚ) : ℝ) = 2 := by norm_num
  rw [q, q2] at d1 d2
  rw [abs_le] at b1 b2
  rw [e2, e]
  constructor
  · rw [Real.le_log_iff_exp_le (by norm_num)]; linarith [b1.2]
  · rw [Real.log_le_iff_le_exp (by norm_num)]; linarith [b2.1]

/-! ## The reduced argument -/

theorem berR_err {x : ℝ} (hx : Rep x) (h0 : 0 ≤ x) (h1 : x < 137) :
    |berR false x - (x - berS x * Real.log 2)| ≤ (0.96 * berS x + 0.72) * 2 ^ (-53 : ℤ) := by
  have hs0 := berS_nonneg h0
  have hs0' : (0 : ℝ) ≤ berS x := by exact_mod_cast hs0
  have hle := sLN2_le hx h0 h1
  have hlt := berR_arg_lt h0 h1
  obtain ⟨l1, l2⟩ := LN2_log
  have LNb : (0 : ℝ) ≤ LN2 ∧ LN2 ≤ 0.6932 := by rw [LN2_eq]; norm_num
  have e1 := rnd_err (x - fmul (berS x) LN2)
  have e2 : |fmul (berS x) LN2 - berS x * LN2| ≤ |(berS x : ℝ) * LN2| * 2 ^ (-53 : ℤ) + 2 ^ (-1075 : ℤ) :=
    rnd_err _
  have tiny : (2 : ℝ) ^ (-1075 : ℤ) ≤ 0.001 * 2 ^ (-53 : ℤ) := by
    calc (2 : ℝ) ^ (-1075 : ℤ) ≤ 2 ^ (-63 : ℤ) := zpow_le_zpow_right₀ (by norm_num) (by norm_num)
      _ ≤ _ := by norm_num
  have e3 : |(berS x : ℝ) * LN2 - berS x * Real.log 2| ≤ berS x * (1 / 2 ^ 55) := by
    rw [← mul_sub, abs_mul, abs_of_nonneg hs0']
    refine mul_le_mul_of_nonneg_left ?_ hs0'
    rw [abs_le]; constructor <;> linarith
  rw [abs_of_nonneg (mul_nonneg hs0' LNb.1)] at e2
  rw [abs_of_nonneg (by linarith : (0 : ℝ) ≤ x - fmul (berS x) LN2)] at e1
  have p53 : (0 : ℝ) < 2 ^ (-53 : ℤ) := two_zpow_pos _
  have p55 : (1 / 2 ^ 55 : ℝ) = 0.25 * 2 ^ (-53 : ℤ) := by norm_num
  rw [p55] at e3
  show |rnd (x - fmul (berS x) LN2) - _| ≤ _
  generalize rnd (x - fmul (berS x) LN2) = r at *
  generalize fmul (berS x) LN2 = b at *
  generalize (2 : ℝ) ^ (-53 : ℤ) = u at *
  generalize (2 : ℝ) ^ (-1075 : ℤ) = v at *
  generalize ((berS x : ℤ) : ℝ) = s at *
  have f1 : (x - b) * u ≤ 0.69315 * u := mul_le_mul_of_nonneg_right hlt p53.le
  have f2 : s * LN2 * u ≤ s * 0.6932 * u :=
    mul_le_mul_of_nonneg_right (mul_le_mul_of_nonneg_left LNb.2 hs0') p53.le
  have su : 0 ≤ s * u := by positivity
  rw [abs_le] at *
  constructor <;> nlinarith [e1.1, e1.2, e2.1, e2.2, e3.1, e3.2]

theorem berR_errF {fma : Bool} {x : ℝ} (hx : Rep x) (h0 : 0 ≤ x) (h1 : x < 137) (hsafe : SafeRed fma x) :
    |berR fma x - (x - berS x * Real.log 2)| ≤ (0.96 * berS x + 0.72) * 2 ^ (-53 : ℤ) := by
  cases fma with
  | false => exact berR_err hx h0 h1
  | true =>
    have hs0' : (0 : ℝ) ≤ berS x := by exact_mod_cast berS_nonneg h0
    obtain ⟨l1, l2⟩ := LN2_log
    obtain ⟨r0, r1⟩ := hsafe
    have r0 : 0 ≤ rnd (x - berS x * LN2) := r0
    have r1 : rnd (x - berS x * LN2) < 0.6932 := r1
    have e1 := rnd_err (x - berS x * LN2)
    have tiny : (2 : ℝ) ^ (-1075 : ℤ) ≤ 0.001 * 2 ^ (-53 : ℤ) := by
      calc (2 : ℝ) ^ (-1075 : ℤ) ≤ 2 ^ (-63 : ℤ) := zpow_le_zpow_right₀ (by norm_num) (by norm_num)
        _ ≤ _ := by norm_num
    have e3 : |(berS x : ℝ) * LN2 - berS x * Real.log 2| ≤ berS x * (1 / 2 ^ 55) := by
      rw [← mul_sub, abs_mul, abs_of_nonneg hs0']
      refine mul_le_mul_of_nonneg_left ?_ hs0'
      rw [abs_le]; constructor <;> linarith
    have p53 : (0 : ℝ) < 2 ^ (-53 : ℤ) := two_zpow_pos _
    have q53 : (2 : ℝ) ^ (-53 : ℤ) ≤ 1 / 100000 := by norm_num
    have p55 : (1 / 2 ^ 55 : ℝ) = 0.25 * 2 ^ (-53 : ℤ) := by norm_num
    rw [p55] at e3
    show |rnd (x - berS x * LN2) - _| ≤ _
    have ey : x - berS x * Real.log 2 = (x - berS x * LN2) + ((berS x : ℝ) * LN2 - berS x * Real.log 2) := by ring
    rw [ey]
    generalize (berS x : ℝ) * LN2 - berS x * Real.log 2 = d at *
    generalize x - berS x * LN2 = y at *
    generalize rnd y = r at *
    generalize (2 : ℝ) ^ (-53 : ℤ) = u at *
    generalize (2 : ℝ) ^ (-1075 : ℤ) = v at *
    generalize ((berS x : ℤ) : ℝ) = s at *
    have hy : |y| ≤ 0.7 := by
      have t1 : |y| ≤ |r - y| + r := by
        have := abs_sub_abs_le_abs_sub y r
        rw [abs_of_nonneg r0, abs_sub_comm] at this
        linarith
      have t2 := abs_nonneg y
      nlinarith
    have f1 : |y| * u ≤ 0.7 * u := mul_le_mul_of_nonneg_right hy p53.le
    have su : 0 ≤ s * u := by positivity
    rw [abs_le] at e1 e3 ⊢
    constructor <;> nlinarith [e1.1, e1.2, e3.1, e3.2]

theorem exp_diff {a b : ℝ} : |Real.exp (-a) - Real.exp (-b)| ≤ |a - b| * Real.exp (-min a b) := by
  wlog h : a ≤ b generalizing a b
  · have := this (a := b) (b := a) (le_of_not_ge h)
    rwa [abs_sub_comm, abs_sub_comm b a, min_comm] at this
  rw [min_eq_left h, abs_of_nonneg (by
    have := Real.exp_le_exp.mpr (neg_le_neg h); linarith), abs_of_nonpos (by linarith)]
  have h1 := Real.add_one_le_exp (a - b)
  have h2 : Real.exp (-b) = Real.exp (-a) * Real.exp (a - b) := by rw [← Real.exp_add]; ring_nf
  rw [h2]
  nlinarith [Real.exp_pos (-a)]

theorem two_pow_neg_log (s : ℕ) : Real.exp (-(s * Real.log 2)) = 1 / 2 ^ s := by
  rw [Real.exp_neg, Real.exp_nat_mul, Real.exp_log (by norm_num), one_div]

theorem fix63_lt_zMax {r : ℝ} (h0 : 0 ≤ r) (h1 : r < 0.6932) : (fix63 r).toNat ≤ zMax := by
  have h := (fix63_bounds h0 (by norm_num at h1 ⊢; linarith)).1
  by_contra hc
  have h2 : zMax + 1 ≤ (fix63 r).toNat := by omega
  have h3 : ((zMax + 1 : ℕ) : ℝ) ≤ (fix63 r).toNat := by exact_mod_cast h2
  have h4 : (0.6932 * 2 ^ 63 : ℝ) ≤ ((zMax + 1 : ℕ) : ℝ) := by
    have : 6932 * 2 ^ 63 ≤ (zMax + 1) * 10000 := by decide +kernel
    have : ((6932 * 2 ^ 63 : ℕ) : ℝ) ≤ (((zMax + 1) * 10000 : ℕ) : ℝ) := by exact_mod_cast this
    push_cast at this ⊢
    linarith
  nlinarith

/-! ## The threshold -/

/-- The product before the shift, as a natural number in [1, 2^63], for the reduced argument r. -/
noncomputable def thrYr (r ccs : ℝ) : ℕ := (fix63 ccs).toNat * expY (fix63 r).toNat 12 / 2 ^ 63

/-- The same for the exponent x. -/
noncomputable def thrY (x ccs : ℝ) : ℕ := thrYr (berR false x) ccs

theorem expY_exp' {r : ℝ} (h0 : 0 ≤ r) (h1 : r < 0.6932) :
    |(expY (fix63 r).toNat 12 : ℝ) - 2 ^ 63 * Real.exp (-r)| ≤ 7001 := by
  have hz := fix63_lt_zMax h0 h1
  have hb := fix63_bounds h0 (by norm_num at h1 ⊢; linarith)
  have h2 := expY_exp _ hz
  have hn : (0 : ℝ) ≤ (fix63 r).toNat := Nat.cast_nonneg _
  have h3 := exp_diff (a := (fix63 r).toNat / 2 ^ 63) (b := r)
  generalize (expY (fix63 r).toNat 12 : ℝ) = y at *
  generalize ((fix63 r).toNat : ℝ) = n at *
  have hr : n / 2 ^ 63 ≤ r := by rw [div_le_iff₀ (by positivity)]; linarith
  have hr2 : r ≤ n / 2 ^ 63 + 1 / 2 ^ 63 := by
    rw [← add_div, le_div_iff₀ (by positivity)]; linarith
  rw [min_eq_left hr, abs_of_nonpos (by linarith : n / 2 ^ 63 - r ≤ 0)] at h3
  have hn0 : 0 ≤ n / 2 ^ 63 := by positivity
  have he : Real.exp (-(n / 2 ^ 63)) ≤ 1 := Real.exp_le_one_iff.mpr (by linarith)
  generalize Real.exp (-(n / 2 ^ 63)) = e1 at *
  generalize Real.exp (-r) = e2 at *
  have h4 : |e1 - e2| ≤ 1 / 2 ^ 63 := by
    refine h3.trans ?_
    calc -(n / 2 ^ 63 - r) * e1 ≤ -(n / 2 ^ 63 - r) * 1 := mul_le_mul_of_nonneg_left he (by linarith)
      _ ≤ 1 / 2 ^ 63 := by linarith
  rw [abs_le] at *
  norm_num at *
  constructor <;> linarith [h4.1, h4.2, h2.1, h2.2]

theorem thrYr_exp {r ccs : ℝ} (h0 : 0 ≤ r) (h1 : r < 0.6932) (c0 : 0 ≤ ccs)
    (c1 : ccs ≤ 1) : |(thrYr r ccs : ℝ) - 2 ^ 63 * ccs * Real.exp (-r)| ≤ 7003 := by
  have h2 := expY_exp' h0 h1
  have hb := fix63_bounds c0 (by linarith)
  have he0 := Real.exp_pos (-r)
  have he1 : Real.exp (-r) ≤ 1 := Real.exp_le_one_iff.mpr (by linarith)
  unfold thrYr
  generalize (fix63 ccs).toNat = c at *
  generalize expY (fix63 (r)).toNat 12 = y at *
  generalize Real.exp (-r) = e at *
  have d1 : ((c * y / 2 ^ 63 : ℕ) : ℝ) ≤ (c : ℝ) * y / 2 ^ 63 := by
    have := @Nat.cast_div_le ℝ _ _ _ (c * y) (2 ^ 63)
    rw [Nat.cast_mul, Nat.cast_pow, Nat.cast_ofNat] at this
    exact this
  have d2 : (c : ℝ) * y / 2 ^ 63 < ((c * y / 2 ^ 63 : ℕ) : ℝ) + 1 := by
    have := Nat.lt_div_mul_add (a := c * y) (b := 2 ^ 63) (by positivity)
    have h : ((c * y : ℕ) : ℝ) < ((c * y / 2 ^ 63 * 2 ^ 63 + 2 ^ 63 : ℕ) : ℝ) := by
      exact_mod_cast this
    rw [div_lt_iff₀ (by positivity)]
    push_cast at h ⊢
    linarith
  generalize ((c * y / 2 ^ 63 : ℕ) : ℝ) = t at *
  have hcn : (0 : ℝ) ≤ c := Nat.cast_nonneg _
  generalize (c : ℝ) = c at *
  generalize (y : ℝ) = y at *
  have hu0 : 0 ≤ c / 2 ^ 63 := by positivity
  have hu : c / 2 ^ 63 ≤ 1 := by
    rw [div_le_one (by positivity)]
    calc c ≤ 2 ^ 63 * ccs := hb.1
      _ ≤ 2 ^ 63 := by nlinarith
  have e1 : c * y / 2 ^ 63 - c * e = c / 2 ^ 63 * (y - 2 ^ 63 * e) := by field_simp
  have e2 : |c / 2 ^ 63 * (y - 2 ^ 63 * e)| ≤ 7001 := by
    rw [abs_mul, abs_of_nonneg hu0]
    calc _ ≤ 1 * |y - 2 ^ 63 * e| := mul_le_mul_of_nonneg_right hu (abs_nonneg _)
      _ ≤ 7001 := by rw [one_mul]; exact h2
  have e3 : c * e ≤ 2 ^ 63 * ccs * e := mul_le_mul_of_nonneg_right hb.1 he0.le
  have e4 : 2 ^ 63 * ccs * e ≤ c * e + 1 := by
    calc 2 ^ 63 * ccs * e ≤ (c + 1) * e := mul_le_mul_of_nonneg_right hb.2.le he0.le
      _ ≤ c * e + 1 := by linarith
  rw [← e1, abs_le] at e2
  rw [abs_le]
  constructor <;> linarith [e2.1, e2.2]

theorem thrYr_bounds {r ccs : ℝ} (h0 : 0 ≤ r) (h1 : r < 0.6932)
    (c0 : 1 / 2 ≤ ccs) (c1 : ccs ≤ 1) : 1 ≤ thrYr r ccs ∧ thrYr r ccs ≤ 2 ^ 63 := by
  constructor
  · have h := thrYr_exp h0 h1 (by linarith) c1
    have he : (0.3 : ℝ) ≤ Real.exp (-r) := by
      have := Real.add_one_le_exp (-r)
      norm_num at h1 ⊢
      linarith
    have h2 : (2 : ℝ) ^ 63 * (1 / 2) * 0.3 ≤ 2 ^ 63 * ccs * Real.exp (-r) := by
      refine mul_le_mul ?_ he (by norm_num) (by positivity)
      exact mul_le_mul_of_nonneg_left c0 (by positivity)
    rw [abs_le] at h
    have h3 : (1 : ℝ) ≤ thrYr r ccs := by
      have : (7004 : ℝ) ≤ 2 ^ 63 * (1 / 2) * 0.3 := by norm_num
      linarith [h.1]
    exact_mod_cast h3
  · unfold thrYr
    have hc : (fix63 ccs).toNat ≤ 2 ^ 63 := by
      have := (fix63_bounds (by linarith : 0 ≤ ccs) (by linarith)).1
      have h2 : ((fix63 ccs).toNat : ℝ) ≤ ((2 ^ 63 : ℕ) : ℝ) := by
        push_cast
        calc _ ≤ _ := this
          _ ≤ _ := by nlinarith
      exact_mod_cast h2
    have hz := fix63_lt_zMax h0 h1
    have hle : expY (fix63 (r)).toNat 12 ≤ 2 ^ 63 := (expY_le _ hz 12).trans (by decide +kernel)
    calc _ ≤ 2 ^ 63 * 2 ^ 63 / 2 ^ 63 := Nat.div_le_div_right (Nat.mul_le_mul hc hle)
      _ = 2 ^ 63 := Nat.mul_div_cancel _ (by positivity)

theorem thrY_exp {x ccs : ℝ} (h0 : 0 ≤ berR false x) (h1 : berR false x < 0.6932) (c0 : 0 ≤ ccs)
    (c1 : ccs ≤ 1) : |(thrY x ccs : ℝ) - 2 ^ 63 * ccs * Real.exp (-berR false x)| ≤ 7003 := thrYr_exp h0 h1 c0 c1

theorem thrY_bounds {x ccs : ℝ} (h0 : 0 ≤ berR false x) (h1 : berR false x < 0.6932)
    (c0 : 1 / 2 ≤ ccs) (c1 : ccs ≤ 1) : 1 ≤ thrY x ccs ∧ thrY x ccs ≤ 2 ^ 63 := thrYr_bounds h0 h1 c0 c1

theorem two_mul_sub_one (y : UInt64) (Y : ℕ) (h1 : 1 ≤ Y) (h2 : Y ≤ 2 ^ 63) (h : y.toNat = Y % 2 ^ 63) :
    (2 * y - 1).toNat = 2 * Y - 1 := by
  rw [UInt64.toNat_sub, UInt64.toNat_mul, h]
  rw [show (2 : UInt64).toNat = 2 from rfl, show (1 : UInt64).toNat = 1 from rfl]
  omega

theorem shift_toNat (v : UInt64) (s : ℕ) (hs : s < 2 ^ 64) :
    (v >>> (if UInt64.ofNat s < 63 then UInt64.ofNat s else 63)).toNat = v.toNat / 2 ^ min s 63 := by
  have h1 : (UInt64.ofNat s).toNat = s := by rw [UInt64.toNat_ofNat']; exact Nat.mod_eq_of_lt hs
  rw [UInt64.toNat_shiftRight]
  split
  · rename_i h
    rw [UInt64.lt_iff_toNat_lt, h1] at h
    have h : s < 63 := h
    rw [h1, Nat.shiftRight_eq_div_pow]
    congr 2; omega
  · rename_i h
    rw [UInt64.lt_iff_toNat_lt, h1] at h
    have h : ¬ s < 63 := h
    rw [Nat.shiftRight_eq_div_pow]
    rw [show (63 : UInt64).toNat % 64 = 63 from rfl, min_eq_right (by omega)]

theorem thrF_toNat {fma : Bool} {x ccs : ℝ} (h1 : x < 137) (hsafe : SafeRed fma x) (c0 : 1 / 2 ≤ ccs)
    (c1 : ccs ≤ 1) : (thrF fma x ccs).toNat = (2 * thrYr (berR fma x) ccs - 1) / 2 ^ min (berS x).toNat 63 := by
  obtain ⟨r0, r1⟩ := hsafe
  have hs := berS_lt h1
  obtain ⟨b1, b2⟩ := thrYr_bounds r0 r1 c0 c1
  have hc : (fix63 ccs).toNat ≤ 2 ^ 63 := by
    have := (fix63_bounds (by linarith : 0 ≤ ccs) (by linarith)).1
    have h2 : ((fix63 ccs).toNat : ℝ) ≤ ((2 ^ 63 : ℕ) : ℝ) := by
      push_cast
      calc _ ≤ _ := this
        _ ≤ _ := by nlinarith
    exact_mod_cast h2
  have hm := approxExpFix_mod _ _ (fix63_lt_zMax r0 r1) hc
  unfold thrF
  rw [shift_toNat _ _ (by omega), two_mul_sub_one _ (thrYr (berR fma x) ccs) b1 b2 hm]

/-- The acceptance probability `thr / 2^64` is `ccs exp(-x)` up to a relative error of about 2^-50. -/
theorem thrF_accurate {fma : Bool} {x ccs : ℝ} (hx : Rep x) (h0 : 0 ≤ x) (h1 : x < 137) (hsafe : SafeRed fma x) (c0 : 1 / 2 ≤ ccs)
    (c1 : ccs ≤ 1) (s : ℕ) (hs : berS x = s) (hs63 : s ≤ 63) :
    |((thrF fma x ccs).toNat : ℝ) / 2 ^ 64 - ccs * Real.exp (-x)|
      ≤ 1 / 2 ^ s * (1 / 2 ^ 50 + ((s : ℝ) + 1) / 2 ^ 53) + 1 / 2 ^ 64 := by
  obtain ⟨r0, r1⟩ := hsafe
  have ht := thrF_toNat h1 ⟨r0, r1⟩ c0 c1
  rw [hs, Int.toNat_natCast, min_eq_left hs63] at ht
  obtain ⟨b1, b2⟩ := thrYr_bounds r0 r1 c0 c1
  have hY := thrYr_exp r0 r1 (by linarith) c1
  have herr := berR_errF hx h0 h1 ⟨r0, r1⟩
  rw [hs, Int.cast_natCast] at herr
  have hdiff := exp_diff (a := berR fma x) (b := x - s * Real.log 2)
  have hex : Real.exp (-x) = Real.exp (-(x - s * Real.log 2)) * (1 / 2 ^ s) := by
    rw [← two_pow_neg_log, ← Real.exp_add]; ring_nf
  rw [ht, hex]
  have hsR : (s : ℝ) ≤ 63 := by exact_mod_cast hs63
  have hs0 : (0 : ℝ) ≤ s := by positivity
  generalize x - s * Real.log 2 = rho at *
  generalize berR fma x = r at *
  generalize thrYr r ccs = Y at *
  have p53 : (2 : ℝ) ^ (-53 : ℤ) = 1 / 2 ^ 53 := by norm_num
  rw [p53] at herr
  -- the exponentials
  have hmin : Real.exp (-min r rho) ≤ 1.01 := by
    have : -0.001 ≤ min r rho := by
      rw [le_min_iff]
      rw [abs_le] at herr
      constructor
      · linarith
      · have : (0.96 * s + 0.72) * (1 / 2 ^ 53 : ℝ) ≤ (0.96 * 63 + 0.72) * (1 / 2 ^ 53) :=
          mul_le_mul_of_nonneg_right (by linarith) (by positivity)
        norm_num at this ⊢
        norm_num at herr
        linarith [herr.2]
    have h := Real.add_one_le_exp (-0.001 : ℝ)
    have h2 : Real.exp (-0.001 : ℝ) * Real.exp 0.001 = 1 := by rw [← Real.exp_add]; norm_num
    have h3 := Real.exp_pos (0.001 : ℝ)
    calc Real.exp (-min r rho) ≤ Real.exp 0.001 := Real.exp_le_exp.mpr (by linarith)
      _ ≤ 1.01 := by
        have : (0.999 : ℝ) * Real.exp 0.001 ≤ 1 := by
          rw [← h2]; exact mul_le_mul_of_nonneg_right (by norm_num at h ⊢; linarith) h3.le
        norm_num at this ⊢
        linarith
  have hd : |Real.exp (-r) - Real.exp (-rho)| ≤ ((s : ℝ) + 1) / 2 ^ 53 := by
    refine hdiff.trans ?_
    calc _ ≤ (0.96 * s + 0.72) * (1 / 2 ^ 53) * (1.01 : ℝ) :=
          mul_le_mul herr hmin (Real.exp_pos _).le (by positivity)
      _ ≤ _ := by
          have : (0.96 * s + 0.72) * 1.01 ≤ (s + 1 : ℝ) := by linarith
          calc _ = ((0.96 * s + 0.72) * 1.01) * (1 / 2 ^ 53 : ℝ) := by ring
            _ ≤ (s + 1) * (1 / 2 ^ 53 : ℝ) := mul_le_mul_of_nonneg_right this (by positivity)
            _ = _ := by ring
  generalize Real.exp (-r) = e1 at *
  generalize Real.exp (-rho) = e2 at *
  -- the value before the shift
  have hV : |((2 * Y - 1 : ℕ) : ℝ) / 2 ^ 64 - ccs * e1| ≤ 1 / 2 ^ 50 := by
    rw [Nat.cast_sub (by omega)]
    rw [abs_le] at hY ⊢
    push_cast
    norm_num at hY ⊢
    constructor <;> linarith [hY.1, hY.2]
  have hV2 : |((2 * Y - 1 : ℕ) : ℝ) / 2 ^ 64 - ccs * e2| ≤ 1 / 2 ^ 50 + ((s : ℝ) + 1) / 2 ^ 53 := by
    have : |ccs * e1 - ccs * e2| ≤ ((s : ℝ) + 1) / 2 ^ 53 := by
      rw [← mul_sub, abs_mul, abs_of_nonneg (by linarith : (0 : ℝ) ≤ ccs)]
      calc _ ≤ 1 * |e1 - e2| := mul_le_mul_of_nonneg_right c1 (abs_nonneg _)
        _ ≤ _ := by rw [one_mul]; exact hd
    calc _ = |(((2 * Y - 1 : ℕ) : ℝ) / 2 ^ 64 - ccs * e1) + (ccs * e1 - ccs * e2)| := by ring_nf
      _ ≤ _ := (abs_add_le _ _).trans (add_le_add hV this)
  generalize 2 * Y - 1 = V at *
  have d1 : ((V / 2 ^ s : ℕ) : ℝ) ≤ (V : ℝ) / 2 ^ s := by
    have := @Nat.cast_div_le ℝ _ _ _ V (2 ^ s)
    rwa [Nat.cast_pow, Nat.cast_ofNat] at this
  have d2 : (V : ℝ) / 2 ^ s < ((V / 2 ^ s : ℕ) : ℝ) + 1 := by
    have := Nat.lt_div_mul_add (a := V) (b := 2 ^ s) (by positivity)
    have h : (V : ℝ) < ((V / 2 ^ s * 2 ^ s + 2 ^ s : ℕ) : ℝ) := by exact_mod_cast this
    rw [div_lt_iff₀ (by positivity)]
    rw [Nat.cast_add, Nat.cast_mul, Nat.cast_pow, Nat.cast_ofNat] at h
    linarith
  generalize ((V / 2 ^ s : ℕ) : ℝ) = t at *
  have ps : (0 : ℝ) < 2 ^ s := by positivity
  have e3 : |(V : ℝ) / 2 ^ s / 2 ^ 64 - ccs * (e2 * (1 / 2 ^ s))|
      ≤ 1 / 2 ^ s * (1 / 2 ^ 50 + ((s : ℝ) + 1) / 2 ^ 53) := by
    have : (V : ℝ) / 2 ^ s / 2 ^ 64 - ccs * (e2 * (1 / 2 ^ s))
        = 1 / 2 ^ s * ((V : ℝ) / 2 ^ 64 - ccs * e2) := by
      field_simp
    rw [this, abs_mul, abs_of_pos (by positivity)]
    exact mul_le_mul_of_nonneg_left hV2 (by positivity)
  have e4 : |t / 2 ^ 64 - (V : ℝ) / 2 ^ s / 2 ^ 64| ≤ 1 / 2 ^ 64 := by
    rw [← sub_div, abs_div, abs_of_pos (by positivity : (0 : ℝ) < 2 ^ 64)]
    refine div_le_div_of_nonneg_right ?_ (by positivity)
    rw [abs_le]; constructor <;> linarith
  calc _ = |(t / 2 ^ 64 - (V : ℝ) / 2 ^ s / 2 ^ 64)
        + ((V : ℝ) / 2 ^ s / 2 ^ 64 - ccs * (e2 * (1 / 2 ^ s)))| := by ring_nf
    _ ≤ _ := (abs_add_le _ _).trans (by linarith)

theorem thr_toNat {x ccs : ℝ} (hx : Rep x) (h0 : 0 ≤ x) (h1 : x < 137) (c0 : 1 / 2 ≤ ccs)
    (c1 : ccs ≤ 1) : (thr x ccs).toNat = (2 * thrY x ccs - 1) / 2 ^ min (berS x).toNat 63 :=
  thrF_toNat h1 (safe_false hx h0 h1) c0 c1

theorem thr_accurate {x ccs : ℝ} (hx : Rep x) (h0 : 0 ≤ x) (h1 : x < 137) (c0 : 1 / 2 ≤ ccs)
    (c1 : ccs ≤ 1) (s : ℕ) (hs : berS x = s) (hs63 : s ≤ 63) :
    |((thr x ccs).toNat : ℝ) / 2 ^ 64 - ccs * Real.exp (-x)|
      ≤ 1 / 2 ^ s * (1 / 2 ^ 50 + ((s : ℝ) + 1) / 2 ^ 53) + 1 / 2 ^ 64 :=
  thrF_accurate hx h0 h1 (safe_false hx h0 h1) c0 c1 s hs hs63

end Falcon
