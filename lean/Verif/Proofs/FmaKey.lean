import Verif.Model.Ntru
import Verif.Proofs.Fma

/-!
# The sampler of key generation when the compiler contracts x - s ln 2

For the parameters of key generation the contracted reduced argument is never negative. For those of signing it can be.
-/

namespace Falcon

/-! ## The parameters of key generation -/

theorem keySigma_eq : keySigma = (6453702425112088 : ℤ) * (2 : ℝ) ^ (-52 : ℤ) := by
  unfold keySigma
  refine rnd_eq_of _ _ (by norm_num) ?_ ?_ ?_ <;> norm_num [abs_lt, abs_of_pos]

theorem szInv_keySigma : szInv keySigma = (8772460911813987 : ℤ) * (2 : ℝ) ^ (-55 : ℤ) := by
  have e1 : fmul 2 keySigma = (6453702425112088 : ℤ) * (2 : ℝ) ^ (-51 : ℤ) := by
    unfold fmul
    rw [keySigma_eq]
    refine rnd_eq_of _ _ (by norm_num) ?_ ?_ ?_ <;> norm_num [abs_lt, abs_of_pos]
  have e2 : fmul (fmul 2 keySigma) keySigma = (4624109427797412 : ℤ) * (2 : ℝ) ^ (-50 : ℤ) := by
    rw [e1]
    unfold fmul
    rw [keySigma_eq]
    refine rnd_eq_of _ _ (by norm_num) ?_ ?_ ?_ <;> norm_num [abs_lt, abs_of_pos]
  unfold szInv
  rw [e2]
  unfold fdiv
  refine rnd_eq_of _ _ (by norm_num) ?_ ?_ ?_ <;> norm_num [abs_lt, abs_of_pos]

theorem szInv_sigmaMax : szInv sigmaMax = (5435486223186882 : ℤ) * (2 : ℝ) ^ (-55 : ℤ) := by
  have e1 : fmul 2 sigmaMax = (8198803121627988 : ℤ) * (2 : ℝ) ^ (-51 : ℤ) := by
    unfold fmul
    rw [sigmaMax_eq]
    refine rnd_eq_of _ _ (by norm_num) ?_ ?_ ?_ <;> norm_num [abs_lt, abs_of_pos]
  have e2 : fmul (fmul 2 sigmaMax) sigmaMax = (7462960541461876 : ℤ) * (2 : ℝ) ^ (-50 : ℤ) := by
    rw [e1]
    unfold fmul
    rw [sigmaMax_eq]
    refine rnd_eq_of _ _ (by norm_num) ?_ ?_ ?_ <;> norm_num [abs_lt, abs_of_pos]
  unfold szInv
  rw [e2]
  unfold fdiv
  refine rnd_eq_of _ _ (by norm_num) ?_ ?_ ?_ <;> norm_num [abs_lt, abs_of_pos]

/-- The exponent without the last three roundings. -/
noncomputable def keyExp (z : ℤ) (z0 : ℕ) : ℝ :=
  (z ^ 2 : ℤ) * ((8772460911813987 : ℤ) * (2 : ℝ) ^ (-55 : ℤ)) - (z0 * z0 : ℕ) * ((5435486223186882 : ℤ) * (2 : ℝ) ^ (-55 : ℤ))

theorem szX_keyExp (b : Bool) {z0 : ℕ} (hz : z0 ≤ 18) : |szX 0 keySigma b z0 - keyExp (szZ b z0) z0| ≤ 1 / 10 ^ 12 := by
  have hR : szR 0 = 0 := by unfold szR fsub; simp [rnd_zero]
  obtain ⟨b1, b2⟩ := szZ_bounds b z0 hz
  have hsq : szZ b z0 ^ 2 ≤ 361 := (sq_le_sq' (b := 19) (by omega) (by omega)).trans (by norm_num)
  have ht2 : fsub (szZ b z0) (szR 0) = szZ b z0 := by
    rw [hR]
    unfold fsub
    rw [sub_zero]
    exact rnd_of_rep (rep_int (by rw [abs_le]; constructor <;> norm_num <;> omega))
  have ht3 : fmul (szZ b z0) (szZ b z0) = ((szZ b z0 ^ 2 : ℤ) : ℝ) := by
    unfold fmul
    have := rnd_of_rep (rep_int (n := szZ b z0 ^ 2) (by rw [abs_of_nonneg (sq_nonneg _)]; norm_num; linarith))
    rw [← this]
    congr 1
    push_cast; ring
  unfold szX keyExp
  simp only
  rw [ht2, ht3, szInv_keySigma, szInv_sigmaMax]
  have hs0 : (0 : ℤ) ≤ szZ b z0 ^ 2 := sq_nonneg _
  generalize szZ b z0 ^ 2 = t at *
  have hzz : z0 * z0 ≤ 324 := by nlinarith
  generalize z0 * z0 = w at *
  have t0 : (0 : ℝ) ≤ t := by exact_mod_cast hs0
  have t1 : (t : ℝ) ≤ 361 := by exact_mod_cast hsq
  have w0 : (0 : ℝ) ≤ w := by positivity
  have w1 : (w : ℝ) ≤ 324 := by exact_mod_cast hzz
  unfold fsub fmul
  have k1 : ((8772460911813987 : ℤ) : ℝ) * (2 : ℝ) ^ (-55 : ℤ) ≤ 1 / 4 := by norm_num
  have k2 : ((5435486223186882 : ℤ) : ℝ) * (2 : ℝ) ^ (-55 : ℤ) ≤ 1 / 4 := by norm_num
  have k10 : (0 : ℝ) ≤ ((8772460911813987 : ℤ) : ℝ) * (2 : ℝ) ^ (-55 : ℤ) := by norm_num
  have k20 : (0 : ℝ) ≤ ((5435486223186882 : ℤ) : ℝ) * (2 : ℝ) ^ (-55 : ℤ) := by norm_num
  generalize ((8772460911813987 : ℤ) : ℝ) * (2 : ℝ) ^ (-55 : ℤ) = u at *
  generalize ((5435486223186882 : ℤ) : ℝ) * (2 : ℝ) ^ (-55 : ℤ) = v at *
  have hu0 : 0 ≤ (t : ℝ) * u := by positivity
  have hv0 : 0 ≤ (w : ℝ) * v := by positivity
  have hu : (t : ℝ) * u ≤ 100 := by nlinarith
  have hv : (w : ℝ) * v ≤ 100 := by nlinarith
  have e1 := rnd_err' (x := (t : ℝ) * u) (M := 100) (by rw [abs_of_nonneg hu0]; exact hu)
  have e2 := rnd_err' (x := (w : ℝ) * v) (M := 100) (by rw [abs_of_nonneg hv0]; exact hv)
  generalize rnd ((t : ℝ) * u) = p at *
  generalize rnd ((w : ℝ) * v) = q at *
  have hc : (100 + 1 / 1000 : ℝ) * 2 ^ (-53 : ℤ) ≤ 1 / 10 ^ 13 := by norm_num
  have e1' := abs_le.mp (e1.trans hc)
  have e2' := abs_le.mp (e2.trans hc)
  have h13 : (1 : ℝ) / 10 ^ 13 ≤ 1 := by norm_num
  have e3 := rnd_err' (x := p - q) (M := 102) (by rw [abs_le]; constructor <;> linarith [e1'.1, e1'.2, e2'.1, e2'.2])
  have hc3 : (102 + 1 / 1000 : ℝ) * 2 ^ (-53 : ℤ) ≤ 1 / 10 ^ 13 := by norm_num
  have e3' := abs_le.mp (e3.trans hc3)
  have h12 : (1 : ℝ) / 10 ^ 12 = 10 * (1 / 10 ^ 13) := by norm_num
  rw [h12, abs_le]
  generalize (1 : ℝ) / 10 ^ 13 = d at *
  constructor <;> linarith [e1'.1, e1'.2, e2'.1, e2'.2, e3'.1, e3'.2]

/-- Quotients of the exponents by ln 2. -/
def keyQuo (b : Bool) (z0 : ℕ) : ℕ :=
  (if b then [0, 1, 2, 3, 5, 7, 9, 11, 14, 17, 20, 24, 28, 32, 36, 40, 45, 50, 56]
    else [0, 0, 0, 1, 2, 3, 4, 6, 8, 10, 13, 16, 19, 22, 26, 30, 34, 38, 43]).getD z0 0

/-- The exponents in units of 2^-55. -/
def keyNum (b : Bool) (z0 : ℕ) : ℤ := szZ b z0 ^ 2 * 8772460911813987 - (z0 * z0 : ℕ) * 5435486223186882

theorem keyNum_table : ∀ z0, z0 < 19 → ∀ b : Bool, (b = true ∨ z0 ≠ 0) →
    (keyQuo b z0 * 100 + 1) * (6243314768165359 * 4) ≤ keyNum b z0 * 100 ∧
    keyNum b z0 * 100 ≤ (keyQuo b z0 * 100 + 97) * (6243314768165359 * 4) := by
  decide +kernel

theorem keyExp_bounds {b : Bool} {z0 : ℕ} (hz : z0 ≤ 18) (h : b = true ∨ z0 ≠ 0) :
    (keyQuo b z0 + 1 / 100) * LN2 ≤ keyExp (szZ b z0) z0 ∧ keyExp (szZ b z0) z0 ≤ (keyQuo b z0 + 97 / 100) * LN2 := by
  obtain ⟨h1, h2⟩ := keyNum_table z0 (by omega) b h
  have e : keyExp (szZ b z0) z0 = (keyNum b z0 : ℝ) * 2 ^ (-55 : ℤ) := by
    unfold keyExp keyNum
    push_cast; ring
  have h1' : ((keyQuo b z0 : ℝ) * 100 + 1) * (6243314768165359 * 4) ≤ keyNum b z0 * 100 := by exact_mod_cast h1
  have h2' : (keyNum b z0 : ℝ) * 100 ≤ (keyQuo b z0 * 100 + 97) * (6243314768165359 * 4) := by exact_mod_cast h2
  rw [e, LN2_eq]
  have hp := two_zpow_pos (-55)
  have e2 : (2 : ℝ) ^ (-53 : ℤ) = 4 * 2 ^ (-55 : ℤ) := by norm_num
  rw [e2]
  generalize (2 : ℝ) ^ (-55 : ℤ) = u at *
  generalize (keyNum b z0 : ℝ) = N at *
  generalize (keyQuo b z0 : ℝ) = Q at *
  constructor
  · have := mul_le_mul_of_nonneg_right h1' hp.le
    push_cast
    linarith
  · have := mul_le_mul_of_nonneg_right h2' hp.le
    push_cast
    linarith

theorem keyQuo_le : ∀ z0, z0 < 19 → ∀ b : Bool, keyQuo b z0 ≤ 56 := by decide

/-- Bounds on the exponent of the sampler of key generation. -/
theorem szX_key_bounds {b : Bool} {z0 : ℕ} (hz : z0 ≤ 18) (h : b = true ∨ z0 ≠ 0) :
    (keyQuo b z0 + 1 / 200) * LN2 ≤ szX 0 keySigma b z0 ∧ szX 0 keySigma b z0 ≤ (keyQuo b z0 + 98 / 100) * LN2 := by
  obtain ⟨h1, h2⟩ := keyExp_bounds hz h
  obtain ⟨h3, h4⟩ := abs_le.mp (szX_keyExp b hz)
  have hl : (0.6 : ℝ) ≤ LN2 := by rw [LN2_eq]; norm_num
  have h12 : (1 : ℝ) / 10 ^ 12 ≤ 1 / 1000 := by norm_num
  constructor <;> nlinarith

theorem INV_LN2_bounds : 1 - 1 / 2 ^ 50 ≤ LN2 * INV_LN2 ∧ LN2 * INV_LN2 ≤ 1 + 1 / 2 ^ 50 := by
  rw [LN2_eq, INV_eq]
  constructor <;> norm_num

theorem berS_key {b : Bool} {z0 : ℕ} (hz : z0 ≤ 18) (h : b = true ∨ z0 ≠ 0) : berS (szX 0 keySigma b z0) = keyQuo b z0 := by
  obtain ⟨h1, h2⟩ := szX_key_bounds hz h
  obtain ⟨i1, i2⟩ := INV_LN2_bounds
  have hq := keyQuo_le z0 (by omega) b
  have hqR : (keyQuo b z0 : ℝ) ≤ 56 := by exact_mod_cast hq
  have hq0 : (0 : ℝ) ≤ keyQuo b z0 := by positivity
  have i0 : 0 ≤ INV_LN2 := by rw [INV_eq]; norm_num
  have hb : (1 : ℝ) / 2 ^ 50 ≤ 1 / 100000 := by norm_num
  have l1 : (keyQuo b z0 : ℝ) ≤ szX 0 keySigma b z0 * INV_LN2 := by
    have := mul_le_mul_of_nonneg_right h1 i0
    rw [mul_assoc] at this
    refine le_trans ?_ this
    generalize LN2 * INV_LN2 = u at *
    have := mul_le_mul_of_nonneg_left (show 1 - 1 / 100000 ≤ u by linarith) (show 0 ≤ (keyQuo b z0 : ℝ) + 1 / 200 by linarith)
    linarith
  have l2 : szX 0 keySigma b z0 * INV_LN2 ≤ keyQuo b z0 + 127 / 128 := by
    have := mul_le_mul_of_nonneg_right h2 i0
    rw [mul_assoc] at this
    refine this.trans ?_
    generalize LN2 * INV_LN2 = u at *
    have := mul_le_mul_of_nonneg_left (show u ≤ 1 + 1 / 100000 by linarith) (show 0 ≤ (keyQuo b z0 : ℝ) + 98 / 100 by linarith)
    linarith
  unfold berS fmul
  rw [Int.floor_eq_iff]
  have r1 : (keyQuo b z0 : ℝ) ≤ rnd (szX 0 keySigma b z0 * INV_LN2) :=
    le_rnd_of_rep ⟨keyQuo b z0, 0, by rw [abs_of_nonneg (by omega)]; norm_num; omega, by norm_num, by norm_num⟩ l1
  have r2 : rnd (szX 0 keySigma b z0 * INV_LN2) ≤ keyQuo b z0 + 127 / 128 :=
    rnd_le_of_rep ⟨keyQuo b z0 * 128 + 127, -7, by rw [abs_of_nonneg (by omega)]; norm_num; omega, by norm_num,
      by push_cast; norm_num; ring⟩ l2
  rw [Int.cast_natCast]
  exact ⟨r1, by linarith⟩

theorem szX_key_zero : szX 0 keySigma false 0 = 0 := by
  have hR : szR 0 = 0 := by unfold szR fsub; simp [rnd_zero]
  unfold szX
  simp only
  rw [hR]
  simp [szZ, fsub, fmul, rnd_zero]

theorem key_multiple (b : Bool) {z0 : ℕ} (hz : z0 ≤ 18) : berS (szX 0 keySigma b z0) * LN2 ≤ szX 0 keySigma b z0 := by
  by_cases h : b = true ∨ z0 ≠ 0
  · rw [berS_key hz h, Int.cast_natCast]
    have h2 := (szX_key_bounds hz h).1
    have hl : (0.6 : ℝ) ≤ LN2 := by rw [LN2_eq]; norm_num
    linarith
  · push Not at h
    obtain ⟨hb, rfl⟩ := h
    have hb : b = false := by simpa using hb
    subst hb
    rw [szX_key_zero]
    unfold berS fmul
    simp [rnd_zero]

/-- At the parameters of key generation the reduced argument is safe with and without contraction. -/
theorem key_safe (fma : Bool) (b : Bool) {z0 : ℕ} (hz : z0 ≤ 18) (h0 : 0 ≤ szX 0 keySigma b z0)
    (h1 : szX 0 keySigma b z0 < 137) : SafeRed fma (szX 0 keySigma b z0) := by
  cases fma with
  | false => exact safe_false (rep_szX _ _ _ _) h0 h1
  | true => exact safe_true h0 h1 (key_multiple b hz)

/-! ## When the contracted reduction is negative -/

/-- A double of absolute value at least 1/2 is a multiple of 2^-53. -/
theorem rep_multiple {x : ℝ} (hx : Rep x) (h : 1 / 2 ≤ |x|) : ∃ k : ℤ, x = k * (2 : ℝ) ^ (-53 : ℤ) := by
  obtain ⟨m, e, hm, he, rfl⟩ := hx
  have hle : -53 ≤ e := by
    by_contra hc
    push Not at hc
    have hp := two_zpow_pos e
    rw [abs_mul, abs_of_pos hp] at h
    have hm' : |(m : ℝ)| ≤ 2 ^ 53 - 1 := by
      rw [← Int.cast_abs]
      have : |m| ≤ 2 ^ 53 - 1 := by omega
      exact_mod_cast this
    have h54 : (2 : ℝ) ^ e ≤ 2 ^ (-54 : ℤ) := zpow_le_zpow_right₀ (by norm_num) (by omega)
    have : |(m : ℝ)| * 2 ^ e ≤ (2 ^ 53 - 1) * 2 ^ (-54 : ℤ) := mul_le_mul hm' h54 hp.le (by norm_num)
    have h3 : ((2 : ℝ) ^ 53 - 1) * 2 ^ (-54 : ℤ) < 1 / 2 := by norm_num
    exact absurd (h.trans this) (not_le.mpr h3)
  refine ⟨m * 2 ^ (e + 53).toNat, ?_⟩
  have : (2 : ℝ) ^ e = 2 ^ (e + 53).toNat * 2 ^ (-53 : ℤ) := by
    rw [← zpow_natCast, ← zpow_add₀ (by norm_num)]
    congr 1
    omega
  rw [this]
  push_cast
  ring

/-- A double below a positive multiple of LN2 is below it by 2^-53 at least. -/
theorem berR_true_neg {x : ℝ} (hx : Rep x) (h0 : 0 ≤ x) (h : x < berS x * LN2) : berR true x < 0 := by
  have hs0 := berS_nonneg h0
  have hs : 1 ≤ berS x := by
    by_contra hc
    have : berS x = 0 := by omega
    rw [this] at h
    simp at h
    linarith
  -- the product with the inverse is at least one, so x is at least 1/2 and a multiple of 2^-53
  have hx2 : 1 / 2 ≤ x := by
    by_contra hc
    push Not at hc
    have hi : INV_LN2 ≤ 3 / 2 := by rw [INV_eq]; norm_num
    have hi0 : 0 ≤ INV_LN2 := by rw [INV_eq]; norm_num
    have : rnd (x * INV_LN2) ≤ 3 / 4 := rnd_le_of_rep ⟨3, -2, by norm_num, by norm_num, by norm_num⟩ (by nlinarith)
    have h2 : ((berS x : ℤ) : ℝ) ≤ rnd (x * INV_LN2) := Int.floor_le _
    have h3 : (1 : ℝ) ≤ berS x := by exact_mod_cast hs
    linarith
  obtain ⟨k, hk⟩ := rep_multiple hx (by rw [abs_of_nonneg h0]; exact hx2)
  have hu := two_zpow_pos (-53)
  have hd : x - berS x * LN2 ≤ -(2 : ℝ) ^ (-53 : ℤ) := by
    rw [LN2_eq] at h ⊢
    generalize berS x = s at *
    have e : (s : ℝ) * (((6243314768165359 : ℤ) : ℝ) * 2 ^ (-53 : ℤ)) = ((s * 6243314768165359 : ℤ) : ℝ) * 2 ^ (-53 : ℤ) := by
      push_cast; ring
    rw [hk, e] at h ⊢
    have h4 : k < s * 6243314768165359 := by
      have := lt_of_mul_lt_mul_right h hu.le
      exact_mod_cast this
    have h5 : (k : ℝ) + 1 ≤ ((s * 6243314768165359 : ℤ) : ℝ) := by exact_mod_cast h4
    generalize ((s * 6243314768165359 : ℤ) : ℝ) = w at *
    have := mul_le_mul_of_nonneg_right h5 hu.le
    linarith
  show rnd (x - berS x * LN2) < 0
  have := rnd_le_of_rep (rep_neg (rep_zpow (e := -53) (by norm_num))) hd
  linarith

/-! ## A witness within the parameters of signing -/

theorem szX_witness {mu : ℝ} (hmu : mu = (6393071891627889 : ℤ) * (2 : ℝ) ^ (-54 : ℤ)) :
    szX mu (3 / 2) false 11 = (5853107595155024 : ℤ) * (2 : ℝ) ^ (-49 : ℤ) := by
  have hfl : ⌊mu⌋ = 0 := by
    rw [hmu, Int.floor_eq_iff]
    norm_num
  have hR : szR mu = (6393071891627889 : ℤ) * (2 : ℝ) ^ (-54 : ℤ) := by
    unfold szR fsub
    rw [hfl, Int.cast_zero, sub_zero, hmu]
    exact rnd_of_rep ⟨6393071891627889, -54, by norm_num, by norm_num, rfl⟩
  have hz : ((szZ false 11 : ℤ) : ℝ) = -11 := by simp [szZ]
  have t2 : fsub (-11) ((6393071891627889 : ℤ) * (2 : ℝ) ^ (-54 : ℤ)) = (-6392232984247804 : ℤ) * (2 : ℝ) ^ (-49 : ℤ) := by
    unfold fsub
    refine rnd_eq_of _ _ (by norm_num) ?_ ?_ ?_ <;> norm_num [abs_lt, abs_of_neg]
  have t3 : fmul ((-6392232984247804 : ℤ) * (2 : ℝ) ^ (-49 : ℤ)) ((-6392232984247804 : ℤ) * (2 : ℝ) ^ (-49 : ℤ))
      = (4536442613212797 : ℤ) * (2 : ℝ) ^ (-45 : ℤ) := by
    unfold fmul
    refine rnd_eq_of _ _ (by norm_num) ?_ ?_ ?_ <;> norm_num [abs_lt, abs_of_pos]
  have hi : szInv (3 / 2) = (8006399337547548 : ℤ) * (2 : ℝ) ^ (-55 : ℤ) := by
    have e1 : fmul 2 (3 / 2) = 3 := by
      unfold fmul
      rw [show (2 : ℝ) * (3 / 2) = 3 by norm_num]
      exact rnd_of_rep ⟨3, 0, by norm_num, by norm_num, by norm_num⟩
    have e2 : fmul 3 (3 / 2) = 9 / 2 := by
      unfold fmul
      rw [show (3 : ℝ) * (3 / 2) = 9 / 2 by norm_num]
      exact rnd_of_rep ⟨9, -1, by norm_num, by norm_num, by norm_num⟩
    unfold szInv
    rw [e1, e2]
    unfold fdiv
    refine rnd_eq_of _ _ (by norm_num) ?_ ?_ ?_ <;> norm_num [abs_lt, abs_of_pos]
  have t4 : fmul ((4536442613212797 : ℤ) * (2 : ℝ) ^ (-45 : ℤ)) ((8006399337547548 : ℤ) * (2 : ℝ) ^ (-55 : ℤ))
      = (8064786867933861 : ℤ) * (2 : ℝ) ^ (-48 : ℤ) := by
    unfold fmul
    refine rnd_eq_of _ _ (by norm_num) ?_ ?_ ?_ <;> norm_num [abs_lt, abs_of_pos]
  have t6 : fmul ((11 * 11 : ℕ) : ℝ) ((5435486223186882 : ℤ) * (2 : ℝ) ^ (-55 : ℤ)) = (5138233070356349 : ℤ) * (2 : ℝ) ^ (-48 : ℤ) := by
    unfold fmul
    refine rnd_eq_of _ _ (by norm_num) ?_ ?_ ?_ <;> norm_num [abs_lt, abs_of_pos]
  unfold szX
  simp only
  rw [hz, hR, t2, t3, hi, t4, szInv_sigmaMax, t6]
  unfold fsub
  refine rnd_eq_of _ _ (by norm_num) ?_ ?_ ?_ <;> norm_num [abs_lt, abs_of_pos]

theorem witness_ub (ccs : ℝ) : berThreshold true ((5853107595155024 : ℤ) * (2 : ℝ) ^ (-49 : ℤ)) ccs = .error .floatConv := by
  obtain ⟨x, hx⟩ : ∃ x : ℝ, x = (5853107595155024 : ℤ) * (2 : ℝ) ^ (-49 : ℤ) := ⟨_, rfl⟩
  have hs : berS x = 15 := by
    have : fmul x INV_LN2 = (8444249301319680 : ℤ) * (2 : ℝ) ^ (-49 : ℤ) := by
      unfold fmul
      rw [hx, INV_eq]
      refine rnd_eq_of _ _ (by norm_num) ?_ ?_ ?_ <;> norm_num [abs_lt, abs_of_pos]
    unfold berS
    rw [this, Int.floor_eq_iff]
    norm_num
  have hr : berR true x = -(2 : ℝ) ^ (-53 : ℤ) := by
    unfold berR
    rw [if_pos rfl, hs, LN2_eq, hx]
    have : ((5853107595155024 : ℤ) : ℝ) * 2 ^ (-49 : ℤ) - ((15 : ℤ) : ℝ) * (((6243314768165359 : ℤ) : ℝ)
        * 2 ^ (-53 : ℤ)) = -(2 : ℝ) ^ (-53 : ℤ) := by norm_num
    rw [this]
    exact rnd_of_rep (rep_neg (rep_zpow (by norm_num)))
  have hm : ⌊fmul 9223372036854775808 (-(2 : ℝ) ^ (-53 : ℤ))⌋ = -1024 := by
    rw [mul63_exact (rep_neg (rep_zpow (by norm_num))), Int.floor_eq_iff]
    norm_num
  rw [← hx]
  unfold berThreshold approxExp
  rw [hs, hr, hm, toU64_ok (by norm_num) (by norm_num), ok_bind']
  rfl

end Falcon
