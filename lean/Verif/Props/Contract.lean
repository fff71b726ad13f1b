import Verif.Props.Stuck

/-!
# C77: contraction

A compiler may contract `x - s * LN2` in `ber_exp` (samplerz.hpp:253) to a fused multiply-add; clang does with the flags of the
Makefile. Key generation stays free of undefined behaviour; the sampler of the signing function does not.
-/

namespace Falcon

/-- When the contracted reduction is undefined: exactly when x is below the multiple of ln 2 that the code subtracts. -/
theorem C77_undefined_iff {x ccs : ℝ} (hx : Rep x) (h0 : 0 ≤ x) (h1 : x < 137) (hc : Rep ccs) (c0 : 0 ≤ ccs) (c1 : ccs < 2) :
    berThreshold true x ccs = .error .floatConv ↔ x < ⌊fmul x INV_LN2⌋ * LN2 := by
  constructor
  · intro h
    by_contra hn
    push Not at hn
    rw [berThresholdF_ok hc h0 h1 (safe_true h0 h1 hn) c0 c1] at h
    cases h
  · intro h
    have hr := berR_true_neg hx h0 h
    have hm : ⌊fmul 9223372036854775808 (berR true x)⌋ < 0 := by
      rw [mul63_exact (rep_berR _ _), Int.floor_lt]
      push_cast
      have : (0 : ℝ) < 2 ^ 63 := by positivity
      nlinarith
    have hu : toU64 ⌊fmul 9223372036854775808 (berR true x)⌋ = .error .floatConv := by rw [toU64, if_neg (by omega)]
    unfold berThreshold approxExp
    rw [toU64_ok (berS_nonneg h0) (by have := berS_lt h1; omega), ok_bind', hu]
    rfl

/-- Without contraction the same reduction is defined for every such x. -/
theorem C77_without_contraction {x ccs : ℝ} (hx : Rep x) (h0 : 0 ≤ x) (h1 : x < 137) (hc : Rep ccs) (c0 : 0 ≤ ccs) (c1 : ccs < 2) :
    ∃ t, berThreshold false x ccs = .ok t := ⟨_, berThreshold_ok hx hc h0 h1 c0 c1⟩

/-- The sampler as called by key generation executes no undefined behaviour, with and without contraction, and returns values
between -18 and 19 only. -/
theorem C77_key_sampler (fma : Bool) {n : ℕ} (hn : ValidLog n) (stream : ℕ → UInt8) (fuel pos : ℕ) :
    samplerz fma 0 keySigma (sigmaMin n) stream fuel pos = none ∨
      ∃ z p, samplerz fma 0 keySigma (sigmaMin n) stream fuel pos = some (.ok (z, p)) ∧ -18 ≤ z ∧ z ≤ 19 := by
  cases h : samplerz fma 0 keySigma (sigmaMin n) stream fuel pos with
  | none => exact Or.inl rfl
  | some out =>
    obtain ⟨z, p, e, h1, h2⟩ := keySample hn stream fuel pos out h
    exact Or.inr ⟨z, p, by rw [e], h1, h2⟩

/-- `gen_poly` executes no undefined behaviour, with and without contraction. -/
theorem C77_gen_poly (fma : Bool) {n : ℕ} (hn : ValidLog n) (stream : ℕ → UInt8) (fuel : ℕ) (poly : Mem ℤ) (pos : ℕ) (u : UB) :
    genPoly fma n stream fuel poly pos ≠ some (.error u) := by
  intro h
  obtain ⟨_, _, e, -⟩ := genPoly_spec hn h
  cases e

/-- The sampler as called by signing: there are a centre, a standard deviation between the two bounds of both parameter sets
and ten random bytes on which the contracted code converts a negative number to an unsigned integer. -/
theorem C77_sign_sampler_ub : ∃ (mu sigma : ℝ) (w : List UInt8), Rep mu ∧ Rep sigma ∧ 0 ≤ mu ∧ mu < 1 ∧
    (∀ n, ValidLog n → sigmaMin n ≤ sigma) ∧ sigma ≤ sigmaMax ∧ w.length = 10 ∧
    ∀ (n : ℕ) (stream : ℕ → UInt8) (fuel pos : ℕ), (∀ i, i < 10 → stream (pos + i) = w.getD i 0) →
      samplerz true mu sigma (sigmaMin n) stream (fuel + 1) pos = some (.error .floatConv) := by
  obtain ⟨mu, hmu⟩ : ∃ x : ℝ, x = (6393071891627889 : ℤ) * (2 : ℝ) ^ (-54 : ℤ) := ⟨_, rfl⟩
  have hx := szX_witness hmu
  have hfl : ⌊mu⌋ = 0 := by
    rw [hmu, Int.floor_eq_iff]
    norm_num
  refine ⟨mu, 3 / 2, baseWord 11 ++ [0], ⟨6393071891627889, -54, by norm_num, by norm_num, hmu⟩,
    ⟨3, -1, by norm_num, by norm_num, by norm_num⟩, by rw [hmu]; norm_num, by rw [hmu]; norm_num, ?_,
    by rw [sigmaMax_eq]; norm_num, by simp [baseWord], fun n stream fuel pos h => ?_⟩
  · have e1 : sigmaMin 9 = (5754851361650663 : ℤ) * (2 : ℝ) ^ (-52 : ℤ) := by
      unfold sigmaMin
      rw [if_pos rfl]
      refine rnd_eq_of _ _ (by norm_num) ?_ ?_ ?_ <;> norm_num [abs_lt, abs_of_pos]
    have e2 : sigmaMin 10 = (5846934828424843 : ℤ) * (2 : ℝ) ^ (-52 : ℤ) := by
      unfold sigmaMin
      rw [if_neg (by norm_num)]
      refine rnd_eq_of _ _ (by norm_num) ?_ ?_ ?_ <;> norm_num [abs_lt, abs_of_pos]
    rintro n (rfl | rfl)
    · rw [e1]; norm_num
    · rw [e2]; norm_num
  · have hlen : (baseWord 11).length = 9 := by simp [baseWord]
    have hr : Reads stream pos (baseWord 11 ++ [0]) := fun i hi => h i (by simpa [hlen] using hi)
    have r1 := hr.left
    have r2 := hr.right
    rw [hlen] at r2
    have e0 : (baseSampler (fun i => stream (pos + i))).toNat = 11 := by
      rw [baseSampler_congr _ (fun i => (baseWord 11).getD i 0) (fun i hi => r1 i (by omega))]
      exact baseWord_val 11 (by omega)
    have e1 : (stream (pos + 9) &&& 1 == 1) = false := by
      have := r2 0 (by simp)
      rw [Nat.add_zero] at this
      rw [this]
      decide
    rw [samplerz]
    have : szIter true mu (3 / 2) (sigmaMin n) stream pos = .error .floatConv := by
      unfold szIter
      simp only
      rw [e0, e1, hx]
      unfold berExp
      rw [witness_ub]
      rfl
    rw [this]

/-- Without contraction the same call returns. -/
theorem C77_sign_sampler (mu sigma : ℝ) (hm0 : -2147483630 ≤ ⌊mu⌋) (hm1 : ⌊mu⌋ < 2147483629) {n : ℕ} (hn : ValidLog n)
    (h0 : sigmaMin n ≤ sigma) (h1 : sigma ≤ sigmaMax) (stream : ℕ → UInt8) (fuel pos : ℕ) (u : UB) :
    samplerz false mu sigma (sigmaMin n) stream fuel pos ≠ some (.error u) := by
  intro h
  have hs : 6 / 5 ≤ sigma := by
    obtain ⟨a, -, b, -⟩ := C56_parameters
    rcases hn with rfl | rfl <;> linarith
  obtain ⟨r, p, e, -⟩ := C56_samplerz_sound mu sigma (sigmaMin n) hm0 hm1 hs h1 (sigmaMin_bounds hn).1 (sigmaMin_bounds hn).2
    stream fuel pos _ h
  cases e

/-- With contraction, undefined behaviour of the sampler is always this one: some iteration met an exponent below the multiple
of ln 2 that the code subtracts from it. -/
theorem C77_sign_sampler_contracted (mu sigma : ℝ) (hm0 : -2147483630 ≤ ⌊mu⌋) (hm1 : ⌊mu⌋ < 2147483629) {n : ℕ} (hn : ValidLog n)
    (h0 : sigmaMin n ≤ sigma) (h1 : sigma ≤ sigmaMax)
    (hx : ∀ (b : Bool) (z0 : ℕ), z0 ≤ 18 → ⌊fmul (szX mu sigma b z0) INV_LN2⌋ * LN2 ≤ szX mu sigma b z0)
    (stream : ℕ → UInt8) (fuel pos : ℕ) (u : UB) : samplerz true mu sigma (sigmaMin n) stream fuel pos ≠ some (.error u) := by
  have hs : 6 / 5 ≤ sigma := by
    obtain ⟨a, -, b, -⟩ := C56_parameters
    rcases hn with rfl | rfl <;> linarith
  induction fuel generalizing pos with
  | zero => simp [samplerz]
  | succ fuel ih =>
    have hz := baseSampler_le (fun i => stream (pos + i))
    rw [samplerz, szIterF_eq stream pos hm0 hm1 hs h1 (sigmaMin_bounds hn).1 (sigmaMin_bounds hn).2 _ _ _ rfl rfl
      (safe_true (szX_nonneg mu sigma _ _ hz (zpow_500_le.trans hs) h1) (szX_lt mu sigma _ _ hz hs) (hx _ _ hz)) rfl]
    generalize berLoop _ _ _ _ = t
    split
    · rename_i e; cases e
    · simp
    · exact ih _

/-- The hypothesis of `C77_sign_sampler_contracted` is met at the parameters of key generation. -/
example (b : Bool) (z0 : ℕ) (hz : z0 ≤ 18) : ⌊fmul (szX 0 keySigma b z0) INV_LN2⌋ * LN2 ≤ szX 0 keySigma b z0 :=
  key_multiple b hz

/-- The hypotheses of `C77_undefined_iff` are met, with the left side true and with the left side false. -/
example : ∃ x ccs : ℝ, Rep x ∧ 0 ≤ x ∧ x < 137 ∧ Rep ccs ∧ 0 ≤ ccs ∧ ccs < 2 ∧ berThreshold true x ccs = .error .floatConv :=
  ⟨_, 1, ⟨5853107595155024, -49, by norm_num, by norm_num, rfl⟩, by norm_num, by norm_num, ⟨1, 0, by norm_num, by norm_num, by norm_num⟩,
    by norm_num, by norm_num, witness_ub 1⟩

example : ∃ t, berThreshold true 0 1 = .ok t := by
  have r0 : Rep (0 : ℝ) := ⟨0, 0, by norm_num, by norm_num, by norm_num⟩
  refine ⟨_, berThresholdF_ok ⟨1, 0, by norm_num, by norm_num, by norm_num⟩ le_rfl (by norm_num) (safe_true le_rfl (by norm_num) ?_)
    (by norm_num) (by norm_num)⟩
  unfold berS fmul
  simp [rnd_zero]

end Falcon
