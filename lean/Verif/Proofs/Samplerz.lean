import Verif.Proofs.SamplerFloat
import Mathlib.Analysis.SpecialFunctions.Log.Basic

/-! # `ber_exp` and `samplerz` -/

namespace Falcon

/-! ## Definedness -/

theorem toU64_ok {n : ℤ} (h0 : 0 ≤ n) (h1 : n < 2 ^ 64) : toU64 n = .ok (UInt64.ofNat n.toNat) := by
  rw [toU64, if_pos ⟨h0, h1⟩]

theorem rep_berR (fma : Bool) (x : ℝ) : Rep (berR fma x) := by
  cases fma <;> exact rep_rnd _

theorem mul63_exact {x : ℝ} (h : Rep x) : fmul 9223372036854775808 x = 2 ^ 63 * x := by
  unfold fmul
  have := rnd_of_rep (rep_mul_two_pow h 63)
  rw [show (9223372036854775808 : ℝ) = 2 ^ 63 by norm_num]
  exact this

/-- The fixed point argument. -/
noncomputable def fix63 (x : ℝ) : UInt64 := UInt64.ofNat ⌊(2 : ℝ) ^ 63 * x⌋.toNat

theorem fix63_toNat {x : ℝ} (h0 : 0 ≤ x) (h1 : x < 2) : ((fix63 x).toNat : ℤ) = ⌊(2 : ℝ) ^ 63 * x⌋ := by
  have a0 : 0 ≤ ⌊(2 : ℝ) ^ 63 * x⌋ := Int.floor_nonneg.mpr (by positivity)
  have a1 : ⌊(2 : ℝ) ^ 63 * x⌋ < 2 ^ 64 := by
    rw [Int.floor_lt]; push_cast
    calc (2 : ℝ) ^ 63 * x < 2 ^ 63 * 2 := mul_lt_mul_of_pos_left h1 (by positivity)
      _ = _ := by norm_num
  unfold fix63
  rw [UInt64.toNat_ofNat']
  generalize ⌊(2 : ℝ) ^ 63 * x⌋ = n at *
  have : n.toNat % 2 ^ 64 = n.toNat := Nat.mod_eq_of_lt (by omega)
  rw [this]
  omega

theorem fix63_bounds {x : ℝ} (h0 : 0 ≤ x) (h1 : x < 2) :
    ((fix63 x).toNat : ℝ) ≤ 2 ^ 63 * x ∧ 2 ^ 63 * x < (fix63 x).toNat + 1 := by
  have h := fix63_toNat h0 h1
  have e : ((fix63 x).toNat : ℝ) = ((⌊(2 : ℝ) ^ 63 * x⌋ : ℤ) : ℝ) := by
    rw [← h]; simp
  rw [e]
  exact ⟨Int.floor_le _, Int.lt_floor_add_one _⟩

theorem approxExp_ok {x ccs : ℝ} (hx : Rep x) (hc : Rep ccs) (h0 : 0 ≤ x) (h1 : x < 2) (c0 : 0 ≤ ccs)
    (c1 : ccs < 2) : approxExp x ccs = .ok (approxExpFix (fix63 x) (fix63 ccs)) := by
  have key : ∀ {y : ℝ}, Rep y → 0 ≤ y → y < 2 → toU64 ⌊fmul 9223372036854775808 y⌋ = .ok (fix63 y) := by
    intro y hy y0 y1
    rw [mul63_exact hy]
    refine toU64_ok (Int.floor_nonneg.mpr (by positivity)) ?_
    rw [Int.floor_lt]; push_cast
    calc (2 : ℝ) ^ 63 * y < 2 ^ 63 * 2 := mul_lt_mul_of_pos_left y1 (by positivity)
      _ = _ := by norm_num
  unfold approxExp
  rw [key hx h0 h1, key hc c0 c1]
  rfl

/-- The threshold when everything is in range. -/
noncomputable def thr (x ccs : ℝ) : UInt64 :=
  (2 * approxExpFix (fix63 (berR false x)) (fix63 ccs) - 1)
    >>> (if UInt64.ofNat (berS x).toNat < 63 then UInt64.ofNat (berS x).toNat else 63)

theorem berThreshold_ok {x ccs : ℝ} (hx : Rep x) (hc : Rep ccs) (h0 : 0 ≤ x) (h1 : x < 137)
    (c0 : 0 ≤ ccs) (c1 : ccs < 2) : berThreshold false x ccs = .ok (thr x ccs) := by
  have hs0 := berS_nonneg h0
  have hs1 := berS_lt h1
  have hr0 := berR_nonneg hx h0 h1
  have hr1 := berR_lt h0 h1
  unfold berThreshold
  rw [toU64_ok hs0 (by omega), approxExp_ok (rep_berR _ _) hc hr0 (by norm_num at hr1 ⊢; linarith) c0 c1]
  rfl

/-! ## The exponent -/

theorem szR_bounds (mu : ℝ) : 0 ≤ szR mu ∧ szR mu ≤ 1 := by
  unfold szR fsub
  have h0 : (0 : ℝ) ≤ mu - ⌊mu⌋ := by have := Int.floor_le mu; linarith
  have h1 : mu - ⌊mu⌋ ≤ 1 := by have := Int.lt_floor_add_one mu; linarith
  constructor
  · rw [← rnd_zero]; exact rnd_mono h0
  · have := rep_int (n := 1) (by norm_num)
    rw [Int.cast_one] at this
    exact rnd_le_of_rep this h1

theorem sigmaMax_eq : sigmaMax = (8198803121627988 : ℤ) * (2 : ℝ) ^ (-52 : ℤ) := by
  unfold sigmaMax
  refine rnd_eq_of _ _ (by norm_num) ?_ ?_ ?_ <;> norm_num [abs_lt, abs_of_pos]

theorem szInv_den_pos {s : ℝ} (h : (2 : ℝ) ^ (-500 : ℤ) ≤ s) : (0 : ℝ) < fmul (fmul 2 s) s := by
  have hp := two_zpow_pos (-500)
  have hs : 0 < s := hp.trans_le h
  have h1 : (2 : ℝ) ^ (-499 : ℤ) ≤ fmul 2 s := by
    refine le_rnd_of_rep (rep_zpow (by norm_num)) ?_
    calc (2 : ℝ) ^ (-499 : ℤ) = 2 * 2 ^ (-500 : ℤ) := by
          rw [show (-499 : ℤ) = 1 + (-500) by norm_num, zpow_add₀ (by norm_num)]; norm_num
      _ ≤ 2 * s := by linarith
  have h2 : (2 : ℝ) ^ (-999 : ℤ) ≤ fmul (fmul 2 s) s := by
    refine le_rnd_of_rep (rep_zpow (by norm_num)) ?_
    calc (2 : ℝ) ^ (-999 : ℤ) = 2 ^ (-499 : ℤ) * 2 ^ (-500 : ℤ) := by
          rw [← zpow_add₀ (by norm_num)]; norm_num
      _ ≤ fmul 2 s * s := mul_le_mul h1 h hp.le ((two_zpow_pos _).le.trans h1)
  exact (two_zpow_pos _).trans_le h2

theorem szInv_anti {s t : ℝ} (h : (2 : ℝ) ^ (-500 : ℤ) ≤ s) (hst : s ≤ t) : szInv t ≤ szInv s := by
  have hp := two_zpow_pos (-500)
  have hs : 0 < s := hp.trans_le h
  have hden := szInv_den_pos h
  have h1 : fmul 2 s ≤ fmul 2 t := rnd_mono (by linarith)
  have h10 : 0 ≤ fmul 2 s := by
    unfold fmul; rw [← rnd_zero]; exact rnd_mono (by linarith)
  have h2 : fmul (fmul 2 s) s ≤ fmul (fmul 2 t) t :=
    rnd_mono (mul_le_mul h1 hst hs.le (h10.trans h1))
  exact rnd_mono (one_div_le_one_div_of_le hden h2)

theorem szInv_nonneg {s : ℝ} (h : (2 : ℝ) ^ (-500 : ℤ) ≤ s) : 0 ≤ szInv s := by
  unfold szInv fdiv
  rw [← rnd_zero]
  exact rnd_mono (by have := szInv_den_pos h; positivity)

theorem zpow_500_le : (2 : ℝ) ^ (-500 : ℤ) ≤ 6 / 5 := by
  calc (2 : ℝ) ^ (-500 : ℤ) ≤ 2 ^ (0 : ℤ) := zpow_le_zpow_right₀ (by norm_num) (by norm_num)
    _ ≤ 6 / 5 := by norm_num

theorem zpow_500_le_max : (2 : ℝ) ^ (-500 : ℤ) ≤ sigmaMax := by
  refine zpow_500_le.trans ?_
  rw [sigmaMax_eq]; norm_num

/-- `|z - r|`, rounded, is at least `z0`. -/
theorem t2_abs_ge (mu : ℝ) (b : Bool) (z0 : ℕ) (hz : z0 ≤ 18) : (z0 : ℝ) ≤ |fsub (szZ b z0) (szR mu)| := by
  obtain ⟨r0, r1⟩ := szR_bounds mu
  have hrep : Rep ((z0 : ℝ)) := by
    have := rep_int (n := (z0 : ℤ)) (by rw [abs_of_nonneg (by omega)]; omega)
    rwa [Int.cast_natCast] at this
  cases b with
  | true =>
    have e : ((szZ true z0 : ℤ) : ℝ) = 1 + z0 := by simp [szZ]
    rw [e]
    refine le_trans ?_ (le_abs_self _)
    exact le_rnd_of_rep hrep (by linarith)
  | false =>
    have e : ((szZ false z0 : ℤ) : ℝ) = -z0 := by simp [szZ]
    rw [e]
    have : fsub (-(z0 : ℝ)) (szR mu) ≤ -z0 := rnd_le_of_rep (rep_neg hrep) (by linarith)
    refine le_trans ?_ (neg_le_abs _)
    linarith

theorem t2_abs_le (mu : ℝ) (b : Bool) (z0 : ℕ) (hz : z0 ≤ 18) : |fsub (szZ b z0) (szR mu)| ≤ 19 := by
  obtain ⟨r0, r1⟩ := szR_bounds mu
  have hrep : Rep (19 : ℝ) := by
    have := rep_int (n := 19) (by norm_num)
    exact_mod_cast this
  have hz' : (z0 : ℝ) ≤ 18 := by exact_mod_cast hz
  have hz0 : (0 : ℝ) ≤ z0 := by positivity
  rw [abs_le]
  cases b with
  | true =>
    have e : ((szZ true z0 : ℤ) : ℝ) = 1 + z0 := by simp [szZ]
    rw [e]
    exact ⟨le_rnd_of_rep (rep_neg hrep) (by linarith), rnd_le_of_rep hrep (by linarith)⟩
  | false =>
    have e : ((szZ false z0 : ℤ) : ℝ) = -z0 := by simp [szZ]
    rw [e]
    exact ⟨le_rnd_of_rep (rep_neg hrep) (by linarith), rnd_le_of_rep hrep (by linarith)⟩

theorem szX_nonneg (mu sigma : ℝ) (b : Bool) (z0 : ℕ) (hz : z0 ≤ 18)
    (h0 : (2 : ℝ) ^ (-500 : ℤ) ≤ sigma) (h1 : sigma ≤ sigmaMax) : 0 ≤ szX mu sigma b z0 := by
  have h2 := t2_abs_ge mu b z0 hz
  have hinv := szInv_anti h0 h1
  have hinv0 := szInv_nonneg zpow_500_le_max
  unfold szX
  simp only
  generalize fsub (szZ b z0) (szR mu) = t2 at *
  have h3 : ((z0 * z0 : ℕ) : ℝ) ≤ fmul t2 t2 := by
    have hrep : Rep (((z0 * z0 : ℕ) : ℝ)) := by
      have hb : z0 * z0 ≤ 18 * 18 := Nat.mul_le_mul hz hz
      have := rep_int (n := ((z0 * z0 : ℕ) : ℤ)) (by rw [abs_of_nonneg (by omega)]; omega)
      rwa [Int.cast_natCast] at this
    refine le_rnd_of_rep hrep ?_
    rw [← abs_mul_abs_self t2]
    push_cast
    exact mul_le_mul h2 h2 (by positivity) (abs_nonneg _)
  have h4 : fmul ((z0 * z0 : ℕ) : ℝ) (szInv sigmaMax) ≤ fmul (fmul t2 t2) (szInv sigma) :=
    rnd_mono (mul_le_mul h3 hinv hinv0 (le_trans (by positivity) h3))
  unfold fsub
  rw [← rnd_zero]
  exact rnd_mono (by linarith)

theorem szInv_le {sigma : ℝ} (h : 6 / 5 ≤ sigma) : szInv sigma ≤ 361 / 1024 := by
  have r1 : Rep (19 / 8 : ℝ) := ⟨19, -3, by norm_num, by norm_num, by norm_num⟩
  have r2 : Rep (91 / 32 : ℝ) := ⟨91, -5, by norm_num, by norm_num, by norm_num⟩
  have r3 : Rep (361 / 1024 : ℝ) := ⟨361, -10, by norm_num, by norm_num, by norm_num⟩
  have h1 : (19 / 8 : ℝ) ≤ fmul 2 sigma := le_rnd_of_rep r1 (by linarith)
  have h2 : (91 / 32 : ℝ) ≤ fmul (fmul 2 sigma) sigma := by
    refine le_rnd_of_rep r2 ?_
    calc (91 / 32 : ℝ) ≤ 19 / 8 * (6 / 5) := by norm_num
      _ ≤ _ := mul_le_mul h1 h (by norm_num) (by linarith)
  refine rnd_le_of_rep r3 ?_
  calc 1 / fmul (fmul 2 sigma) sigma ≤ 1 / (91 / 32) := one_div_le_one_div_of_le (by norm_num) h2
    _ ≤ 361 / 1024 := by norm_num

theorem szX_lt (mu sigma : ℝ) (b : Bool) (z0 : ℕ) (hz : z0 ≤ 18) (h0 : 6 / 5 ≤ sigma) :
    szX mu sigma b z0 < 137 := by
  have h2 := t2_abs_le mu b z0 hz
  have hinv := szInv_le h0
  have hinv0 := szInv_nonneg (zpow_500_le.trans h0)
  have hinvM := szInv_nonneg zpow_500_le_max
  unfold szX
  simp only
  generalize fsub (szZ b z0) (szR mu) = t2 at *
  have h3 : fmul t2 t2 ≤ 361 := by
    have hrep : Rep (361 : ℝ) := by
      have := rep_int (n := 361) (by norm_num)
      exact_mod_cast this
    refine rnd_le_of_rep hrep ?_
    rw [← abs_mul_abs_self t2]
    nlinarith [abs_nonneg t2]
  have r128 : Rep (128 : ℝ) := by
    have := rep_int (n := 128) (by norm_num)
    exact_mod_cast this
  have h4 : fmul (fmul t2 t2) (szInv sigma) ≤ 128 := by
    refine rnd_le_of_rep r128 ?_
    have h30 : 0 ≤ fmul t2 t2 := by
      unfold fmul; rw [← rnd_zero]; exact rnd_mono (mul_self_nonneg _)
    calc _ ≤ (361 : ℝ) * (361 / 1024) := mul_le_mul h3 hinv hinv0 (by norm_num)
      _ ≤ 128 := by norm_num
  have h5 : 0 ≤ fmul ((z0 * z0 : ℕ) : ℝ) (szInv sigmaMax) := by
    unfold fmul; rw [← rnd_zero]; exact rnd_mono (by positivity)
  have : fsub (fmul (fmul t2 t2) (szInv sigma)) (fmul ((z0 * z0 : ℕ) : ℝ) (szInv sigmaMax)) ≤ 128 :=
    rnd_le_of_rep r128 (by linarith)
  linarith

theorem rep_szX (mu sigma : ℝ) (b : Bool) (z0 : ℕ) : Rep (szX mu sigma b z0) := rep_rnd _

theorem fadd_int {a c : ℤ} (h : |a + c| ≤ 2 ^ 53) : ⌊fadd (a : ℝ) (c : ℝ)⌋ = a + c := by
  unfold fadd
  have : rnd (((a + c : ℤ)) : ℝ) = ((a + c : ℤ) : ℝ) := rnd_of_rep (rep_int h)
  push_cast at this
  rw [this, ← Int.cast_add, Int.floor_intCast]

theorem szZ_bounds (b : Bool) (z0 : ℕ) (hz : z0 ≤ 18) : -18 ≤ szZ b z0 ∧ szZ b z0 ≤ 19 := by
  cases b <;> simp [szZ] <;> omega

theorem ccs_bounds {sigma sigmin : ℝ} (h0 : 6 / 5 ≤ sigma) (c0 : 0 ≤ sigmin) (c1 : sigmin ≤ 2) :
    0 ≤ fdiv sigmin sigma ∧ fdiv sigmin sigma < 2 := by
  constructor
  · unfold fdiv; rw [← rnd_zero]; exact rnd_mono (by positivity)
  · have r : Rep (15 / 8 : ℝ) := ⟨15, -3, by norm_num, by norm_num, by norm_num⟩
    have : fdiv sigmin sigma ≤ 15 / 8 := by
      refine rnd_le_of_rep r ?_
      rw [div_le_iff₀ (by linarith)]
      linarith
    linarith

theorem toI32_sum {z m : ℤ} (h0 : -18 ≤ z) (h1 : z ≤ 19) (hm0 : -2147483630 ≤ m)
    (hm1 : m < 2147483629) : toI32 ⌊fadd (z : ℝ) (m : ℝ)⌋ = .ok (z + m) := by
  have hb : |z + m| ≤ 2 ^ 53 := by
    rw [abs_le]
    constructor
    · have : (-2 ^ 53 : ℤ) ≤ -9000000000 := by norm_num
      linarith
    · have : (9000000000 : ℤ) ≤ 2 ^ 53 := by norm_num
      linarith
  rw [fadd_int hb, toI32, if_pos]
  constructor
  · norm_num; linarith
  · norm_num; linarith

theorem ok_bind' {ε α β : Type} (a : α) (f : α → Except ε β) : (Except.ok a).bind f = f a := rfl

theorem szStep_ok {mu sigma sigmin : ℝ} (stream : ℕ → UInt8) (pos : ℕ) (b : Bool) (z0 : ℕ)
    (hz : z0 ≤ 18) (hm0 : -2147483630 ≤ ⌊mu⌋) (hm1 : ⌊mu⌋ < 2147483629) (h0 : 6 / 5 ≤ sigma)
    (h1 : sigma ≤ sigmaMax) (c0 : 0 ≤ sigmin) (c1 : sigmin ≤ 2) (t : Bool × ℕ)
    (ht : t = berLoop (thr (szX mu sigma b z0) (fdiv sigmin sigma)) stream 64 pos) :
    (berExp false (szX mu sigma b z0) (fdiv sigmin sigma) stream pos).bind (fun t7 =>
      if t7.1 then (toI32 ⌊fadd (szZ b z0) ⌊mu⌋⌋).bind fun r => .ok (some r, t7.2)
      else .ok (none, t7.2)) = .ok (if t.1 then some (szZ b z0 + ⌊mu⌋) else none, t.2) := by
  obtain ⟨cc0, cc1⟩ := ccs_bounds h0 c0 c1
  obtain ⟨z1, z2⟩ := szZ_bounds b z0 hz
  have hrc : Rep (fdiv sigmin sigma) := rep_rnd _
  unfold berExp
  rw [berThreshold_ok (rep_szX _ _ _ _) hrc (szX_nonneg mu sigma b z0 hz (zpow_500_le.trans h0) h1)
    (szX_lt mu sigma b z0 hz h0) cc0 cc1, toI32_sum z1 z2 hm0 hm1]
  rw [ok_bind', ok_bind', ok_bind', ← ht]
  obtain ⟨t1, t2⟩ := t
  clear ht
  cases t1
  · rw [if_neg (by simp), if_neg (by simp)]
  · rw [if_pos rfl, if_pos rfl]

theorem szIter_eq {mu sigma sigmin : ℝ} (stream : ℕ → UInt8) (pos : ℕ)
    (hm0 : -2147483630 ≤ ⌊mu⌋) (hm1 : ⌊mu⌋ < 2147483629) (h0 : 6 / 5 ≤ sigma)
    (h1 : sigma ≤ sigmaMax) (c0 : 0 ≤ sigmin) (c1 : sigmin ≤ 2) (z0 : ℕ) (b : Bool) (t : Bool × ℕ)
    (hz0 : (baseSampler (fun i => stream (pos + i))).toNat = z0)
    (hb : (stream (pos + 9) &&& 1 == 1) = b)
    (ht : t = berLoop (thr (szX mu sigma b z0) (fdiv sigmin sigma)) stream 64 (pos + 10)) :
    szIter false mu sigma sigmin stream pos
      = .ok (if t.1 then some (szZ b z0 + ⌊mu⌋) else none, t.2) := by
  have hz := baseSampler_le (fun i => stream (pos + i))
  unfold szIter
  simp only
  rw [hz0] at hz ⊢
  rw [hb]
  exact szStep_ok stream (pos + 10) b z0 hz hm0 hm1 h0 h1 c0 c1 t ht

end Falcon
