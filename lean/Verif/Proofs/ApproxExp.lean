import Verif.Proofs.U72
import Verif.Proofs.ExpPoly
import Mathlib.Data.Nat.Cast.Order.Field

/-! # The fixed point exponential -/

namespace Falcon

theorem horner_append (l m : List ℚ) (x : ℝ) :
    horner (l ++ m) x = horner l x + x ^ l.length * horner m x := by
  induction l with
  | nil => simp [horner]
  | cons a l ih =>
    simp only [List.cons_append, horner, ih, List.length_cons, pow_succ]
    ring

theorem horner_range (n : ℕ) (f : ℕ → ℚ) (x : ℝ) :
    horner ((List.range n).map f) x = ∑ i ∈ Finset.range n, (f i : ℝ) * x ^ i := by
  induction n with
  | zero => simp [horner]
  | succ n ih =>
    rw [List.range_succ, List.map_append, horner_append, ih, Finset.sum_range_succ]
    simp [horner]
    ring

/-- Coefficients of the polynomial after `u` steps of the loop. -/
def expPl : ℕ → List ℚ
  | 0 => [((expC.getD 0 0).toNat : ℚ)]
  | u + 1 => ((expC.getD (u + 1) 0).toNat : ℚ) :: smulL (-1) (expPl u)

/-- Coefficients of the 19 term Taylor polynomial of exp(-x). -/
def taylorL : List ℚ := (List.range 19).map fun i => (-1) ^ i / (i.factorial : ℚ)

def diffL : List ℚ := addL (smulL (1 / 2 ^ 63) (expPl 12)) (smulL (-1) taylorL)

theorem diffL_cert : ∀ j : ℕ, j < 16 →
    sumAbs (compL ((2 * j + 1) * (6932 / 320000)) (6932 / 320000) diffL) ≤ 4 / 5 / 2 ^ 50 := by
  decide +kernel

theorem taylor_bound (x : ℝ) (h0 : 0 ≤ x) (h1 : x ≤ 6932 / 10000) :
    |Real.exp (-x) - horner taylorL x| ≤ 1 / 2 ^ 64 := by
  have hb := Real.exp_bound (x := -x) (by rw [abs_neg, abs_of_nonneg h0]; linarith) (n := 19) (by norm_num)
  have e : horner taylorL x = ∑ m ∈ Finset.range 19, (-x) ^ m / (m.factorial : ℝ) := by
    unfold taylorL
    rw [horner_range]
    refine Finset.sum_congr rfl fun i _ => ?_
    push_cast
    rw [neg_pow x i]
    ring
  rw [e]
  refine hb.trans ?_
  rw [abs_neg, abs_of_nonneg h0]
  have hp : x ^ 19 ≤ (6932 / 10000 : ℝ) ^ 19 := pow_le_pow_left₀ h0 h1 19
  calc x ^ 19 * _ ≤ (6932 / 10000 : ℝ) ^ 19 * (((Nat.succ 19 : ℕ) : ℝ) / ((Nat.factorial 19 : ℕ) * (19 : ℕ))) :=
        mul_le_mul_of_nonneg_right hp (by positivity)
    _ ≤ 1 / 2 ^ 64 := by
        norm_num [Nat.factorial]

theorem poly_exp (x : ℝ) (h0 : 0 ≤ x) (h1 : x < 6932 / 10000) :
    |horner (expPl 12) x / 2 ^ 63 - Real.exp (-x)| ≤ (4 / 5 + 1 / 2 ^ 14) / 2 ^ 50 := by
  have hd := horner_bound diffL (6932 / 320000) (4 / 5 / 2 ^ 50) 16 (by norm_num) diffL_cert x h0
    (by push_cast; linarith)
  have ht := taylor_bound x h0 h1.le
  have e : horner diffL x = horner (expPl 12) x / 2 ^ 63 - horner taylorL x := by
    unfold diffL
    rw [horner_add, horner_smul, horner_smul]
    push_cast
    ring
  rw [e] at hd
  push_cast at hd
  rw [abs_le] at *
  constructor <;> nlinarith

/-! ## The integer recursion -/

/-- The values of `y` as natural numbers. -/
def expY (z : ℕ) : ℕ → ℕ
  | 0 => (expC.getD 0 0).toNat
  | u + 1 => (expC.getD (u + 1) 0).toNat - z * expY z u / 2 ^ 63

/-- The largest argument considered: just above 2^63 ln 2. -/
def zMax : ℕ := 6932 * 2 ^ 63 / 10000

theorem expC_step : ∀ u, u < 12 →
    zMax * (expC.getD u 0).toNat / 2 ^ 63 ≤ (expC.getD (u + 1) 0).toNat := by
  decide +kernel

theorem expC_lt : ∀ u, u < 12 → (expC.getD u 0).toNat < 2 ^ 63 := by decide +kernel

theorem expY_le (z : ℕ) (_hz : z ≤ zMax) (u : ℕ) : expY z u ≤ (expC.getD u 0).toNat := by
  cases u with
  | zero => exact le_rfl
  | succ u => exact Nat.sub_le _ _

theorem expY_no_wrap (z : ℕ) (hz : z ≤ zMax) (u : ℕ) (hu : u < 12) :
    z * expY z u / 2 ^ 63 ≤ (expC.getD (u + 1) 0).toNat :=
  (Nat.div_le_div_right (Nat.mul_le_mul hz (expY_le z hz u))).trans (expC_step u hu)

theorem approxExpPoly_eq (z : UInt64) (hz : z.toNat ≤ zMax) (n : ℕ) (hn : n ≤ 12) :
    (loop n (fun u y => expC.getD (u + 1) 0 - top63Bits (fullMulU64 z y)) (expC.getD 0 0)).toNat
      = expY z.toNat n := by
  induction n with
  | zero => rfl
  | succ n ih =>
    have ih := ih (by omega)
    rw [loop_succ]
    generalize hy : loop n (fun u y => expC.getD (u + 1) 0 - top63Bits (fullMulU64 z y))
      (expC.getD 0 0) = y at *
    have hm := fullMul_spec z y
    have h1 : expY z.toNat n < 2 ^ 63 := lt_of_le_of_lt (expY_le _ hz n) (expC_lt n (by omega))
    have h2 : z.toNat < 2 ^ 63 := lt_of_le_of_lt hz (by decide +kernel)
    have h3 : z.toNat * y.toNat < 2 ^ 126 := by
      rw [ih]
      calc z.toNat * expY z.toNat n ≤ (2 ^ 63 - 1) * (2 ^ 63 - 1) :=
            Nat.mul_le_mul (by omega) (by omega)
        _ < 2 ^ 126 := by norm_num
    have ht := top63_spec (fullMulU64 z y) (by rw [hm]; exact h3)
    rw [hm, ih] at ht
    have hw := expY_no_wrap z.toNat hz n (by omega)
    rw [UInt64.toNat_sub_of_le]
    · rw [ht, expY]
    · rw [UInt64.le_iff_toNat_le, ht]; exact hw

theorem approxExpPoly_toNat (z : UInt64) (hz : z.toNat ≤ zMax) :
    (approxExpPoly z).toNat = expY z.toNat 12 := approxExpPoly_eq z hz 12 le_rfl

theorem horner_expPl_succ (u : ℕ) (x : ℝ) :
    horner (expPl (u + 1)) x = ((expC.getD (u + 1) 0).toNat : ℝ) - x * horner (expPl u) x := by
  rw [expPl, horner, horner_smul]
  push_cast
  ring

theorem expY_err (z : ℕ) (hz : z ≤ zMax) (u : ℕ) (hu : u ≤ 12) :
    |(expY z u : ℝ) - horner (expPl u) (z / 2 ^ 63)| ≤ 4 := by
  have hzr : (z : ℝ) / 2 ^ 63 ≤ 7 / 10 := by
    rw [div_le_iff₀ (by positivity)]
    have : z * 10 ≤ 7 * 2 ^ 63 := by
      have : zMax * 10 ≤ 7 * 2 ^ 63 := by decide +kernel
      omega
    have : (z : ℝ) * 10 ≤ 7 * 2 ^ 63 := by exact_mod_cast this
    linarith
  have hz0 : (0 : ℝ) ≤ (z : ℝ) / 2 ^ 63 := by positivity
  induction u with
  | zero => simp [expY, expPl, horner]
  | succ u ih =>
    have ih := ih (by omega)
    have hw := expY_no_wrap z hz u (by omega)
    rw [expY, horner_expPl_succ, Nat.cast_sub hw]
    have d1 : ((z * expY z u / 2 ^ 63 : ℕ) : ℝ) ≤ (z : ℝ) / 2 ^ 63 * expY z u := by
      have := @Nat.cast_div_le ℝ _ _ _ (z * expY z u) (2 ^ 63)
      push_cast at this
      calc _ ≤ _ := this
        _ = _ := by ring
    have d2 : (z : ℝ) / 2 ^ 63 * expY z u < ((z * expY z u / 2 ^ 63 : ℕ) : ℝ) + 1 := by
      have := Nat.lt_div_mul_add (a := z * expY z u) (b := 2 ^ 63) (by positivity)
      have h : ((z * expY z u : ℕ) : ℝ) < ((z * expY z u / 2 ^ 63 * 2 ^ 63 + 2 ^ 63 : ℕ) : ℝ) := by
        exact_mod_cast this
      push_cast at h
      rw [div_mul_eq_mul_div, div_lt_iff₀ (by positivity)]
      calc _ < _ := h
        _ = _ := by push_cast; ring
    rw [abs_le] at ih ⊢
    generalize ((z * expY z u / 2 ^ 63 : ℕ) : ℝ) = t at *
    generalize (z : ℝ) / 2 ^ 63 = x at *
    generalize (expY z u : ℝ) = y at *
    generalize horner (expPl u) x = p at *
    have e1 : x * (y - p) ≤ 7 / 10 * 4 := by
      calc x * (y - p) ≤ x * 4 := mul_le_mul_of_nonneg_left ih.2 hz0
        _ ≤ _ := by linarith
    have e2 : -(7 / 10 * 4) ≤ x * (y - p) := by
      calc -(7 / 10 * 4) ≤ x * (-4) := by linarith
        _ ≤ _ := mul_le_mul_of_nonneg_left ih.1 hz0
    constructor <;> nlinarith

/-- `y` after the loop is 2^63 exp(-z/2^63) up to 2^12.8. -/
theorem expY_exp (z : ℕ) (hz : z ≤ zMax) :
    |(expY z 12 : ℝ) - 2 ^ 63 * Real.exp (-(z / 2 ^ 63))| ≤ 7000 := by
  have h1 := expY_err z hz 12 le_rfl
  have hlt : (z : ℝ) / 2 ^ 63 < 6932 / 10000 := by
    rw [div_lt_iff₀ (by positivity)]
    have : z * 10000 < 6932 * 2 ^ 63 := by
      have : (zMax) * 10000 < 6932 * 2 ^ 63 := by decide +kernel
      exact lt_of_le_of_lt (Nat.mul_le_mul_right _ hz) this
    have : (z : ℝ) * 10000 < 6932 * 2 ^ 63 := by exact_mod_cast this
    linarith
  have h2 := poly_exp ((z : ℝ) / 2 ^ 63) (by positivity) hlt
  rw [abs_le] at h1 h2 ⊢
  generalize horner (expPl 12) ((z : ℝ) / 2 ^ 63) = p at *
  generalize Real.exp (-((z : ℝ) / 2 ^ 63)) = e at *
  generalize (expY z 12 : ℝ) = y at *
  obtain ⟨h2a, h2b⟩ := h2
  have g1 : p - 2 ^ 63 * e ≤ 2 ^ 63 * ((4 / 5 + 1 / 2 ^ 14) / 2 ^ 50) := by
    have : p = 2 ^ 63 * (p / 2 ^ 63) := by field_simp
    rw [this, ← mul_sub]
    exact mul_le_mul_of_nonneg_left h2b (by positivity)
  have g2 : -(2 ^ 63 * ((4 / 5 + 1 / 2 ^ 14) / 2 ^ 50)) ≤ p - 2 ^ 63 * e := by
    have : p = 2 ^ 63 * (p / 2 ^ 63) := by field_simp
    rw [this, ← mul_sub, ← mul_neg]
    exact mul_le_mul_of_nonneg_left h2a (by positivity)
  norm_num at g1 g2 ⊢
  constructor <;> linarith [h1.1, h1.2]

/-- The final multiplication. -/
theorem approxExpFix_toNat (z c : UInt64) (hz : z.toNat ≤ zMax) (hc : c.toNat < 2 ^ 63) :
    (approxExpFix z c).toNat = c.toNat * expY z.toNat 12 / 2 ^ 63 := by
  have hy := approxExpPoly_toNat z hz
  have hle : expY z.toNat 12 ≤ 2 ^ 63 := (expY_le _ hz 12).trans (by decide +kernel)
  unfold approxExpFix
  have hm := fullMul_spec c (approxExpPoly z)
  rw [hy] at hm
  have hlt : c.toNat * expY z.toNat 12 < 2 ^ 126 := by
    calc c.toNat * expY z.toNat 12 ≤ (2 ^ 63 - 1) * 2 ^ 63 := Nat.mul_le_mul (by omega) hle
      _ < 2 ^ 126 := by norm_num
  show (top63Bits (fullMulU64 c (approxExpPoly z))).toNat = _
  rw [top63_spec _ (by rw [hm]; exact hlt), hm]

/-- Also for `c = 2^63`, where the result is lost when the product is 2^126. -/
theorem approxExpFix_mod (z c : UInt64) (hz : z.toNat ≤ zMax) (hc : c.toNat ≤ 2 ^ 63) :
    (approxExpFix z c).toNat = c.toNat * expY z.toNat 12 / 2 ^ 63 % 2 ^ 63 := by
  rcases Nat.lt_or_ge (c.toNat * expY z.toNat 12) (2 ^ 126) with hlt | hge
  · have hy := approxExpPoly_toNat z hz
    have hm := fullMul_spec c (approxExpPoly z)
    rw [hy] at hm
    show (top63Bits (fullMulU64 c (approxExpPoly z))).toNat = _
    rw [top63_spec _ (by rw [hm]; exact hlt), hm]
    exact (Nat.mod_eq_of_lt (Nat.div_lt_of_lt_mul (by rw [← pow_add]; exact hlt))).symm
  · have hle : expY z.toNat 12 ≤ 2 ^ 63 := (expY_le _ hz 12).trans (by decide +kernel)
    have hc1 : c.toNat = 2 ^ 63 := by
      by_contra hne
      have : c.toNat * expY z.toNat 12 ≤ (2 ^ 63 - 1) * 2 ^ 63 := Nat.mul_le_mul (by omega) hle
      omega
    have hy1 : expY z.toNat 12 = 2 ^ 63 := by
      rw [hc1] at hge
      omega
    have hy := approxExpPoly_toNat z hz
    rw [hy1] at hy
    have e1 : approxExpPoly z = 9223372036854775808 := UInt64.toNat_inj.mp (by rw [hy]; rfl)
    have e2 : c = 9223372036854775808 := UInt64.toNat_inj.mp (by rw [hc1]; rfl)
    rw [hc1, hy1]
    unfold approxExpFix
    rw [e1, e2]
    decide +kernel

theorem approxExpFix_exp (z c : UInt64) (hz : z.toNat ≤ zMax) (hc : c.toNat < 2 ^ 63) :
    |((approxExpFix z c).toNat : ℝ) - c.toNat * Real.exp (-(z.toNat / 2 ^ 63))| ≤ 7001 := by
  rw [approxExpFix_toNat z c hz hc]
  have h1 := expY_exp z.toNat hz
  generalize Real.exp (-((z.toNat : ℝ) / 2 ^ 63)) = e at *
  generalize expY z.toNat 12 = y at *
  have hcr : (c.toNat : ℝ) ≤ 2 ^ 63 := by exact_mod_cast hc.le
  have hc0 : (0 : ℝ) ≤ c.toNat := by positivity
  generalize c.toNat = c at *
  have d1 : ((c * y / 2 ^ 63 : ℕ) : ℝ) ≤ (c : ℝ) * y / 2 ^ 63 := by
    have := @Nat.cast_div_le ℝ _ _ _ (c * y) (2 ^ 63)
    rw [Nat.cast_mul, Nat.cast_pow, Nat.cast_ofNat] at this
    exact this
  have d2 : (c : ℝ) * y / 2 ^ 63 < ((c * y / 2 ^ 63 : ℕ) : ℝ) + 1 := by
    have := Nat.lt_div_mul_add (a := c * y) (b := 2 ^ 63) (by positivity)
    have h : ((c * y : ℕ) : ℝ) < ((c * y / 2 ^ 63 * 2 ^ 63 + 2 ^ 63 : ℕ) : ℝ) := by
      exact_mod_cast this
    rw [div_lt_iff₀ (by positivity)]
    push_cast at h ⊢
    linarith
  generalize ((c * y / 2 ^ 63 : ℕ) : ℝ) = t at *
  have e1 : (c : ℝ) * y / 2 ^ 63 - c * e = (c : ℝ) / 2 ^ 63 * (y - 2 ^ 63 * e) := by field_simp
  have hu : (c : ℝ) / 2 ^ 63 ≤ 1 := by rw [div_le_one (by positivity)]; exact hcr
  have hu0 : (0 : ℝ) ≤ (c : ℝ) / 2 ^ 63 := by positivity
  have e2 : |(c : ℝ) / 2 ^ 63 * (y - 2 ^ 63 * e)| ≤ 7000 := by
    rw [abs_mul, abs_of_nonneg hu0]
    calc _ ≤ 1 * |(y : ℝ) - 2 ^ 63 * e| := mul_le_mul_of_nonneg_right hu (abs_nonneg _)
      _ ≤ 7000 := by rw [one_mul]; exact h1
  rw [← e1, abs_le] at e2
  rw [abs_le]
  constructor <;> linarith [e2.1, e2.2]

end Falcon
