import Verif.Proofs.SamplerExponent

/-!
# The sampler when the compiler contracts x - s ln 2

With contraction the reduced argument of `ber_exp` is `rnd (x - s LN2)`, which is negative for some x. Here: one iteration of the
sampler is defined whenever the reduced argument is not negative.
-/

namespace Falcon

/-- The threshold when everything is in range, contracted or not. -/
noncomputable def thrF (fma : Bool) (x ccs : ℝ) : UInt64 :=
  (2 * approxExpFix (fix63 (berR fma x)) (fix63 ccs) - 1)
    >>> (if UInt64.ofNat (berS x).toNat < 63 then UInt64.ofNat (berS x).toNat else 63)

theorem thrF_false (x ccs : ℝ) : thrF false x ccs = thr x ccs := rfl

/-- The reduced argument is in the range of the polynomial. -/
def SafeRed (fma : Bool) (x : ℝ) : Prop := 0 ≤ berR fma x ∧ berR fma x < 0.6932

theorem safe_false {x : ℝ} (hx : Rep x) (h0 : 0 ≤ x) (h1 : x < 137) : SafeRed false x :=
  ⟨berR_nonneg hx h0 h1, berR_lt h0 h1⟩

theorem sLN2_err {x : ℝ} (h0 : 0 ≤ x) (h1 : x < 137) : |fmul (berS x) LN2 - berS x * LN2| ≤ 1 / 2 ^ 45 := by
  have hs0 := berS_nonneg h0
  have hs1 := berS_lt h1
  have a0 : (0 : ℝ) ≤ berS x := by exact_mod_cast hs0
  have a1 : ((berS x : ℤ) : ℝ) ≤ 199 := by exact_mod_cast hs1.le
  have l0 : (0 : ℝ) ≤ LN2 := by rw [LN2_eq]; norm_num
  have l1 : LN2 ≤ 0.7 := by rw [LN2_eq]; norm_num
  have h := rnd_err' (x := berS x * LN2) (M := 140) (by
    rw [abs_of_nonneg (by positivity)]
    calc _ ≤ (199 : ℝ) * 0.7 := mul_le_mul a1 l1 l0 (by norm_num)
      _ ≤ 140 := by norm_num)
  refine h.trans ?_
  norm_num

theorem berR_true_lt {x : ℝ} (h0 : 0 ≤ x) (h1 : x < 137) : berR true x < 0.6932 := by
  have a := berR_arg_lt h0 h1
  have b := (abs_le.mp (sLN2_err h0 h1))
  show rnd (x - berS x * LN2) < 0.6932
  have hr : rnd (x - berS x * LN2) ≤ 726850 / 2 ^ 20 := by
    refine rnd_le_of_rep ⟨726850, -20, by norm_num, by norm_num, by norm_num⟩ ?_
    have : (1 : ℝ) / 2 ^ 45 ≤ 1 / 10 ^ 13 := by norm_num
    norm_num at a this ⊢
    norm_num at b
    linarith [b.1, b.2]
  refine hr.trans_lt ?_
  norm_num

/-- With contraction the reduced argument is safe unless x is just below a multiple of ln 2. -/
theorem safe_true {x : ℝ} (h0 : 0 ≤ x) (h1 : x < 137) (h : berS x * LN2 ≤ x) : SafeRed true x := by
  refine ⟨?_, berR_true_lt h0 h1⟩
  show 0 ≤ rnd (x - berS x * LN2)
  rw [← rnd_zero]
  exact rnd_mono (by linarith)

theorem berThresholdF_ok {fma : Bool} {x ccs : ℝ} (hc : Rep ccs) (h0 : 0 ≤ x) (h1 : x < 137) (hs : SafeRed fma x)
    (c0 : 0 ≤ ccs) (c1 : ccs < 2) : berThreshold fma x ccs = .ok (thrF fma x ccs) := by
  have hs0 := berS_nonneg h0
  have hs1 := berS_lt h1
  obtain ⟨hr0, hr1⟩ := hs
  unfold berThreshold
  rw [toU64_ok hs0 (by omega), approxExp_ok (rep_berR _ _) hc hr0 (by norm_num at hr1 ⊢; linarith) c0 c1]
  rfl

theorem szIterF_eq {fma : Bool} {mu sigma sigmin : ℝ} (stream : ℕ → UInt8) (pos : ℕ)
    (hm0 : -2147483630 ≤ ⌊mu⌋) (hm1 : ⌊mu⌋ < 2147483629) (h0 : 6 / 5 ≤ sigma)
    (h1 : sigma ≤ sigmaMax) (c0 : 0 ≤ sigmin) (c1 : sigmin ≤ 2) (z0 : ℕ) (b : Bool) (t : Bool × ℕ)
    (hz0 : (baseSampler (fun i => stream (pos + i))).toNat = z0)
    (hb : (stream (pos + 9) &&& 1 == 1) = b) (hs : SafeRed fma (szX mu sigma b z0))
    (ht : t = berLoop (thrF fma (szX mu sigma b z0) (fdiv sigmin sigma)) stream 64 (pos + 10)) :
    szIter fma mu sigma sigmin stream pos
      = .ok (if t.1 then some (szZ b z0 + ⌊mu⌋) else none, t.2) := by
  have hz := baseSampler_le (fun i => stream (pos + i))
  unfold szIter
  simp only
  rw [hz0] at hz ⊢
  rw [hb]
  obtain ⟨cc0, cc1⟩ := ccs_bounds h0 c0 c1
  obtain ⟨z1, z2⟩ := szZ_bounds b z0 hz
  have hrc : Rep (fdiv sigmin sigma) := rep_rnd _
  unfold berExp
  rw [berThresholdF_ok hrc (szX_nonneg mu sigma b z0 hz (zpow_500_le.trans h0) h1)
    (szX_lt mu sigma b z0 hz h0) hs cc0 cc1, toI32_sum z1 z2 hm0 hm1]
  rw [ok_bind', ok_bind', ok_bind', ← ht]
  obtain ⟨t1, t2⟩ := t
  clear ht
  cases t1
  · rw [if_neg (by simp), if_neg (by simp)]
  · rw [if_pos rfl, if_pos rfl]

/-- The reduction is safe without contraction, and with contraction when no argument is below the multiple of ln 2 subtracted. -/
theorem szSafe_of {fma : Bool} {mu sigma : ℝ} (h0 : 6 / 5 ≤ sigma) (h1 : sigma ≤ sigmaMax)
    (h : fma = true → ∀ b z0, z0 ≤ 18 → ⌊fmul (szX mu sigma b z0) INV_LN2⌋ * LN2 ≤ szX mu sigma b z0) :
    ∀ b z0, z0 ≤ 18 → SafeRed fma (szX mu sigma b z0) := by
  intro b z0 hz
  have x0 := szX_nonneg mu sigma b z0 hz (zpow_500_le.trans h0) h1
  have x1 := szX_lt mu sigma b z0 hz h0
  cases fma with
  | false => exact safe_false (rep_szX _ _ _ _) x0 x1
  | true => exact safe_true x0 x1 (h rfl b z0 hz)

end Falcon
