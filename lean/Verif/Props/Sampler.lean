import Verif.Proofs.SamplerArr
import Verif.Proofs.SamplerDist

/-!
# Properties C51 - C56, C60 - C62: 72-bit arithmetic and the integer sampler
-/

namespace Falcon

/-! ## C51: 72-bit arithmetic -/

theorem C51_add (a b : U72) (ha : a.val < 2 ^ 72) (hb : b.val < 2 ^ 72) :
    (U72.add a b).val < 2 ^ 72 ∧ (U72.add a b).val = (a.val + b.val) % 2 ^ 72 := by
  have va : a.Valid := by unfold U72.val at ha; unfold U72.Valid; omega
  have vb : b.Valid := by unfold U72.val at hb; unfold U72.Valid; omega
  have h := U72.add_spec a b va vb
  exact ⟨by rw [h.2]; exact Nat.mod_lt _ (by norm_num), h.2⟩

theorem C51_sub (a b : U72) (ha : a.val < 2 ^ 72) (hb : b.val < 2 ^ 72) :
    (U72.sub a b).val < 2 ^ 72 ∧ ((U72.sub a b).val : ℤ) = ((a.val : ℤ) - b.val) % 2 ^ 72 := by
  have va : a.Valid := by unfold U72.val at ha; unfold U72.Valid; omega
  have vb : b.Valid := by unfold U72.val at hb; unfold U72.Valid; omega
  have h := U72.sub_spec a b va vb
  rw [h.2]
  exact ⟨Nat.mod_lt _ (by norm_num), by omega⟩

theorem C51_neg (a : U72) (ha : a.val < 2 ^ 72) :
    (U72.neg a).val < 2 ^ 72 ∧ ((U72.neg a).val : ℤ) = (-(a.val : ℤ)) % 2 ^ 72 := by
  have := C51_sub U72.zero a (by decide) ha
  have z : U72.zero.val = 0 := rfl
  rw [z] at this
  unfold U72.neg
  refine ⟨this.1, this.2.trans ?_⟩
  rw [Nat.cast_zero, zero_sub]

theorem C51_order (a b : U72) :
    U72.gt a b = decide (a.val > b.val) ∧ U72.lt a b = decide (a.val < b.val) :=
  ⟨U72.gt_spec a b, U72.gt_spec b a⟩

/-- Reading bytes gives the number they denote, in both byte orders. -/
theorem C51_from_bytes (b : Mem UInt8) :
    (U72.fromLe b).val = leVal 9 b ∧ (U72.fromBe b).val = beVal 9 b ∧
    (U72.fromLe b).val < 2 ^ 72 ∧ (U72.fromBe b).val < 2 ^ 72 := by
  have h1 := (U72.fromLe_spec b).2
  have h2 := (U72.fromBe_spec b).2
  have e : (256 : ℕ) ^ 9 = 2 ^ 72 := by norm_num
  refine ⟨h1, h2, ?_, ?_⟩
  · rw [h1, ← e]; exact leVal_lt 9 _
  · rw [h2, ← e]; exact leVal_lt 9 _

/-- Writing and reading bytes are inverse to each other, in both byte orders. -/
theorem C51_bytes_roundtrip (a : U72) (ha : a.val < 2 ^ 72) (b : Mem UInt8) :
    U72.fromLe (U72.toLe a) = a ∧ U72.fromBe (U72.toBe a) = a ∧
    (∀ i, i < 9 → U72.toLe (U72.fromLe b) i = b i) ∧ (∀ i, i < 9 → U72.toBe (U72.fromBe b) i = b i) := by
  have va : a.Valid := by unfold U72.val at ha; unfold U72.Valid; omega
  have inj : ∀ x : U72, x.val = a.val → x = a := by
    intro x hx
    unfold U72.val at hx
    have := x.lo.toNat_lt
    have := a.lo.toNat_lt
    have h1 : x.hi = a.hi := UInt64.toNat_inj.mp (by omega)
    have h2 : x.lo = a.lo := UInt64.toNat_inj.mp (by omega)
    cases x; cases a; simp_all
  have ha' : a.val < 256 ^ 9 := by rw [show (256 : ℕ) ^ 9 = 2 ^ 72 by norm_num]; exact ha
  refine ⟨inj _ ?_, inj _ ?_, ?_, ?_⟩
  · rw [(U72.fromLe_spec _).2]
    exact leVal_of_digits 9 _ _ ha' fun i hi => U72.toLe_get a va i hi
  · rw [(U72.fromBe_spec _).2]
    refine leVal_of_digits 9 _ _ ha' fun i hi => ?_
    rw [U72.toBe_get a va _ (by omega), show 8 - (8 - i) = i by omega]
  · intro i hi
    have h := U72.fromLe_spec b
    refine UInt8.toNat_inj.mp ?_
    rw [U72.toLe_get _ h.1 i hi, h.2, leVal_digit _ _ _ hi]
  · intro i hi
    have h := U72.fromBe_spec b
    refine UInt8.toNat_inj.mp ?_
    rw [U72.toBe_get _ h.1 i hi, h.2, leVal_digit _ _ _ (by omega), show 8 - (8 - i) = i by omega]

example : (⟨255, 0xffffffffffffffff⟩ : U72).val < 2 ^ 72 ∧
    U72.add ⟨255, 0xffffffffffffffff⟩ ⟨0, 2⟩ = ⟨0, 1⟩ := by decide +kernel

/-! ## C52: the base sampler -/

theorem C52_base_sampler_distribution (z : ℕ) (hz : z ≤ 18) :
    (Finset.univ.filter fun v : Fin 9 → UInt8 => (baseSampler (memOf v)).toNat = z).card
      = pdtSpec.getD z 0 := by
  have e : pdtTail z - pdtTail (z + 1) = pdtSpec.getD z 0 := by
    have := pdtTail_sub z (by omega)
    omega
  rw [← e, ← card_leVal 9 (pdtTail (z + 1)) (pdtTail z) (by
    have := pdtTail_anti 0 z (by omega) (by omega)
    rw [pdtTail_zero] at this
    rw [show (256 : ℕ) ^ 9 = 2 ^ 72 by norm_num]
    exact this)]
  refine congrArg Finset.card (Finset.filter_congr fun v _ => ?_)
  exact baseSampler_iff (memOf v) z hz

theorem C52_base_sampler_range (bytes : Mem UInt8) : (baseSampler bytes).toNat ≤ 18 := baseSampler_le bytes

/-- The table adds up to 2^72, so the counts above exhaust all byte strings. -/
theorem C52_table_sum : pdtSpec.sum = 2 ^ 72 ∧ pdtSpec.length = 19 := by decide +kernel

/-! ## C53: multiplication -/

theorem C53_full_mul (a b : UInt64) :
    (fullMulU64 a b).1.toNat * 2 ^ 64 + (fullMulU64 a b).2.toNat = a.toNat * b.toNat := fullMul_spec a b

/-! ## C54: the fixed point exponential -/

/-- No subtraction wraps: every intermediate value is the exact floor recursion. -/
theorem C54_no_wrap (z : UInt64) (hz : z.toNat ≤ 6932 * 2 ^ 63 / 10000) (u : ℕ) (hu : u < 12) :
    z.toNat * expY z.toNat u / 2 ^ 63 ≤ (expC.getD (u + 1) 0).toNat ∧
    (approxExpPoly z).toNat = expY z.toNat 12 :=
  ⟨expY_no_wrap _ hz u hu, approxExpPoly_toNat z hz⟩

/-- The result is 2^63 ccs exp(-x) up to 7001, less than 2^-50 of the scale 2^63. -/
theorem C54_accurate (z c : UInt64) (hz : z.toNat ≤ 6932 * 2 ^ 63 / 10000) (hc : c.toNat < 2 ^ 63) :
    |((approxExpFix z c).toNat : ℝ) - 2 ^ 63 * (c.toNat / 2 ^ 63) * Real.exp (-(z.toNat / 2 ^ 63))|
      ≤ 2 ^ 63 * (1 / 2 ^ 50) := by
  have h := approxExpFix_exp z c hz hc
  rw [mul_div_cancel₀ _ (by positivity : (2 : ℝ) ^ 63 ≠ 0)]
  refine h.trans ?_
  norm_num

/-- The corner case: ccs = 1, x = 0 gives 0 instead of 2^63. -/
theorem C54_corner : approxExpFix 0 9223372036854775808 = 0 := by decide +kernel

example : (6393154322601327829 : UInt64).toNat ≤ 6932 * 2 ^ 63 / 10000 ∧
    (approxExpFix 6393154322601327829 9223372036854775807).toNat / 2 ^ 62 = 1 := by decide +kernel

/-! ## C55: the Bernoulli loop -/

theorem C55_bernoulli (z : UInt64) (stream : ℕ → UInt8) (pos : ℕ) :
    (berLoop z stream 64 pos).1 = decide (beVal 8 (fun i => stream (pos + i)) < z.toNat) := by
  have h := berLoop_spec z stream 7 pos (by norm_num)
  rw [Nat.mod_eq_of_lt (by
    rw [show (256 : ℕ) ^ (7 + 1) = 2 ^ 64 by norm_num]; exact z.toNat_lt)] at h
  exact h

/-- It reads at most eight bytes, stopping at the first byte that differs from the threshold's. -/
theorem C55_reads (z : UInt64) (stream : ℕ → UInt8) (pos : ℕ) :
    ∃ n, 1 ≤ n ∧ n ≤ 8 ∧ (berLoop z stream 64 pos).2 = pos + n ∧
      (∀ j, j + 1 < n → (stream (pos + j)).toNat = z.toNat / 256 ^ (7 - j) % 256) ∧
      (n < 8 → (stream (pos + (n - 1))).toNat ≠ z.toNat / 256 ^ (7 - (n - 1)) % 256) :=
  berLoop_reads z stream 7 pos (by norm_num)

theorem C55_probability (z : UInt64) :
    (Finset.univ.filter fun v : Fin 8 → UInt8 => (berLoop z (memOf v) 64 0).1 = true).card = z.toNat := by
  rw [← card_beVal 8 z.toNat (by
    rw [show (256 : ℕ) ^ 8 = 2 ^ 64 by norm_num]; exact z.toNat_lt.le)]
  refine congrArg Finset.card (Finset.filter_congr fun v _ => ?_)
  rw [C55_bernoulli, decide_eq_true_eq]
  have : (fun i => memOf v (0 + i)) = memOf v := by funext i; rw [Nat.zero_add]
  rw [this]

/-! ## C56: the integer sampler, in binary64 arithmetic -/

/-- The exponent is never negative: for every double mu, sign, base value and 2^-500 ≤ sigma' ≤ sigma_max. -/
theorem C56_exponent_nonneg (mu sigma : ℝ) (b : Bool) (z0 : ℕ) (hz : z0 ≤ 18)
    (h0 : (2 : ℝ) ^ (-500 : ℤ) ≤ sigma) (h1 : sigma ≤ sigmaMax) : 0 ≤ szX mu sigma b z0 :=
  szX_nonneg mu sigma b z0 hz h0 h1

/-- No undefined behaviour, and every result lies in [floor mu - 18, floor mu + 19]: for all `fuel`. -/
theorem C56_samplerz_sound (mu sigma sigmin : ℝ) (hm0 : -2147483630 ≤ ⌊mu⌋) (hm1 : ⌊mu⌋ < 2147483629)
    (h0 : 6 / 5 ≤ sigma) (h1 : sigma ≤ sigmaMax) (c0 : 0 ≤ sigmin) (c1 : sigmin ≤ 2)
    (stream : ℕ → UInt8) (fuel pos : ℕ) (out : Except UB (ℤ × ℕ))
    (h : samplerz false mu sigma sigmin stream fuel pos = some out) :
    ∃ r p, out = .ok (r, p) ∧ ⌊mu⌋ - 18 ≤ r ∧ r ≤ ⌊mu⌋ + 19 ∧ pos + 11 ≤ p := by
  induction fuel generalizing pos with
  | zero => cases h
  | succ fuel ih =>
    have heq := szIter_eq (mu := mu) (sigma := sigma) (sigmin := sigmin) stream pos hm0 hm1 h0 h1 c0 c1
      _ _ _ rfl rfl rfl
    rw [samplerz] at h
    rw [heq] at h
    have hz := baseSampler_le (fun i => stream (pos + i))
    generalize (baseSampler (fun i => stream (pos + i))).toNat = z0 at *
    generalize (stream (pos + 9) &&& 1 == 1) = b at *
    obtain ⟨n, n1, n2, n3, -⟩ := C55_reads (thr (szX mu sigma b z0) (fdiv sigmin sigma)) stream (pos + 10)
    obtain ⟨z1, z2⟩ := szZ_bounds b z0 hz
    by_cases ht : (berLoop (thr (szX mu sigma b z0) (fdiv sigmin sigma)) stream 64 (pos + 10)).1 = true
    · rw [if_pos ht] at h
      refine ⟨_, _, (Option.some.inj h).symm, by omega, by omega, by omega⟩
    · rw [if_neg ht] at h
      obtain ⟨r, p, e, a1, a2, a3⟩ := ih _ h
      exact ⟨r, p, e, a1, a2, by omega⟩

/-- The parameter ranges are met by both standard parameter sets and by key generation's sampler. -/
theorem C56_parameters : 6 / 5 ≤ sigmaMin 9 ∧ sigmaMin 9 ≤ 2 ∧ 6 / 5 ≤ sigmaMin 10 ∧ sigmaMin 10 ≤ 2 ∧
    sigmaMin 9 ≤ sigmaMax ∧ sigmaMin 10 ≤ sigmaMax := by
  have e1 : sigmaMin 9 = (5754851361650663 : ℤ) * (2 : ℝ) ^ (-52 : ℤ) := by
    unfold sigmaMin
    rw [if_pos rfl]
    refine rnd_eq_of _ _ (by norm_num) ?_ ?_ ?_ <;> norm_num [abs_lt, abs_of_pos]
  have e2 : sigmaMin 10 = (5846934828424843 : ℤ) * (2 : ℝ) ^ (-52 : ℤ) := by
    unfold sigmaMin
    rw [if_neg (by norm_num)]
    refine rnd_eq_of _ _ (by norm_num) ?_ ?_ ?_ <;> norm_num [abs_lt, abs_of_pos]
  rw [e1, e2, sigmaMax_eq]
  norm_num

/-- The sampler does finish, e.g. on the zero byte stream the first iteration decides when the threshold
has a non-zero leading byte. -/
example (mu : ℝ) (hm0 : -2147483630 ≤ ⌊mu⌋) (hm1 : ⌊mu⌋ < 2147483629) (fuel : ℕ)
    (hthr : 0 < (thr (szX mu (3 / 2) false 18) (fdiv (sigmaMin 9) (3 / 2))).toNat) :
    ∃ p, samplerz false mu (3 / 2) (sigmaMin 9) (fun _ => 0) (fuel + 1) 0 = some (.ok (⌊mu⌋ - 18, p)) := by
  have hb : (baseSampler (fun i => (fun _ => (0 : UInt8)) (0 + i))).toNat = 18 := by decide +kernel
  have hle : (3 / 2 : ℝ) ≤ sigmaMax := by rw [sigmaMax_eq]; norm_num
  obtain ⟨p1, p2, -⟩ := C56_parameters
  have heq := szIter_eq (mu := mu) (sigma := 3 / 2) (sigmin := sigmaMin 9) (fun _ => 0) 0 hm0 hm1
    (by norm_num) hle (by linarith) p2 18 false _ hb rfl rfl
  rw [samplerz, heq]
  have : (berLoop (thr (szX mu (3 / 2) false 18) (fdiv (sigmaMin 9) (3 / 2))) (fun _ => 0) 64 (0 + 10)).1
      = true := by
    rw [C55_bernoulli, decide_eq_true_eq]
    refine lt_of_eq_of_lt ?_ hthr
    decide +kernel
  rw [if_pos this]
  refine ⟨(berLoop (thr (szX mu (3 / 2) false 18) (fdiv (sigmaMin 9) (3 / 2))) (fun _ => 0) 64 (0 + 10)).2, ?_⟩
  have e : szZ false 18 + ⌊mu⌋ = ⌊mu⌋ - 18 := by simp [szZ]; omega
  rw [e]

/-! ## C60: argument reduction of `ber_exp` -/

/-- Without contraction: the reduced argument of every double in [0, 137) is in [0, 0.6932), the threshold
is defined. -/
theorem C60_reduction_plain (x ccs : ℝ) (hx : Rep x) (hc : Rep ccs) (h0 : 0 ≤ x) (h1 : x < 137)
    (c0 : 0 ≤ ccs) (c1 : ccs < 2) :
    0 ≤ berR false x ∧ berR false x < 0.6932 ∧ ∃ z, berThreshold false x ccs = .ok z :=
  ⟨berR_nonneg hx h0 h1, berR_lt h0 h1, _, berThreshold_ok hx hc h0 h1 c0 c1⟩

/-- With contraction of `x - s * LN2` to a fused multiply-add there is a double x = 10.397... whose reduced
argument is -2^-53; its conversion to `uint64_t` is undefined. -/
theorem C60_reduction_fma_ub : ∃ x : ℝ, Rep x ∧ 0 ≤ x ∧ x < 137 ∧
    ∀ ccs, berThreshold true x ccs = .error .floatConv := by
  obtain ⟨x, hx⟩ : ∃ x : ℝ, x = (5853107595155024 : ℤ) * (2 : ℝ) ^ (-49 : ℤ) := ⟨_, rfl⟩
  have hs : berS x = 15 := by
    have : fmul x INV_LN2 = (8444249301319680 : ℤ) * (2 : ℝ) ^ (-49 : ℤ) := by
      unfold fmul
      rw [hx, INV_eq]
      refine rnd_eq_of _ _ (by norm_num) ?_ ?_ ?_ <;> norm_num [abs_lt, abs_of_pos]
    unfold berS
    rw [this, Int.floor_eq_iff]
    norm_num
  have hr : berR true x = -(2 : ℝ) ^ (-53 : ℤ) := by
    unfold berR
    rw [if_pos rfl, hs, LN2_eq, hx]
    have : ((5853107595155024 : ℤ) : ℝ) * 2 ^ (-49 : ℤ) - ((15 : ℤ) : ℝ) * (((6243314768165359 : ℤ) : ℝ)
        * 2 ^ (-53 : ℤ)) = -(2 : ℝ) ^ (-53 : ℤ) := by norm_num
    rw [this]
    exact rnd_of_rep (rep_neg (rep_zpow (by norm_num)))
  refine ⟨x, ⟨5853107595155024, -49, by norm_num, by norm_num, hx⟩, by rw [hx]; norm_num,
    by rw [hx]; norm_num, fun ccs => ?_⟩
  have hm : ⌊fmul 9223372036854775808 (-(2 : ℝ) ^ (-53 : ℤ))⌋ = -1024 := by
    rw [mul63_exact (rep_neg (rep_zpow (by norm_num))), Int.floor_eq_iff]
    norm_num
  unfold berThreshold approxExp
  rw [hs, hr, hm, toU64_ok (by norm_num) (by norm_num), ok_bind']
  rfl

/-! ## C61: the distribution of one iteration -/

open Classical in
/-- Exact probability: of the 2^144 18-byte strings exactly pdt(z0) * 128 * threshold make one iteration
output floor mu + k; k ≥ 1 comes from sign 1 and z0 = k - 1, k ≤ 0 from sign 0 and z0 = -k. Without contraction this holds for all
parameters in range, with contraction when the reduction is defined (see C77). -/
theorem C61_iteration_count {fma : Bool} {mu sigma sigmin : ℝ} (hm0 : -2147483630 ≤ ⌊mu⌋) (hm1 : ⌊mu⌋ < 2147483629)
    (h0 : 6 / 5 ≤ sigma) (h1 : sigma ≤ sigmaMax) (c0 : 0 ≤ sigmin) (c1 : sigmin ≤ 2)
    (hf : fma = true → ∀ b z0, z0 ≤ 18 → ⌊fmul (szX mu sigma b z0) INV_LN2⌋ * LN2 ≤ szX mu sigma b z0) (k : ℤ)
    (hk0 : -18 ≤ k) (hk1 : k ≤ 19) :
    let z0 := if 1 ≤ k then (k - 1).toNat else (-k).toNat
    ∃ z, berThreshold fma (szX mu sigma (decide (1 ≤ k)) z0) (fdiv sigmin sigma) = .ok z ∧
      (Finset.univ.filter fun v : Fin 18 → UInt8 =>
        ∃ p, szIter fma mu sigma sigmin (memOf v) 0 = .ok (some (⌊mu⌋ + k), p)).card
      = pdtSpec.getD z0 0 * (128 * z.toNat) := by
  have hb : offBase k ≤ 18 := by unfold offBase; split <;> omega
  obtain ⟨cc0, cc1⟩ := ccs_bounds h0 c0 c1
  refine ⟨_, berThresholdF_ok (show Rep (fdiv sigmin sigma) from rep_rnd _)
    (szX_nonneg mu sigma _ _ hb (zpow_500_le.trans h0) h1) (szX_lt mu sigma _ _ hb h0)
    (szSafe_of h0 h1 hf _ _ hb) cc0 cc1, szIter_count hm0 hm1 h0 h1 c0 c1 (szSafe_of h0 h1 hf) k hk0 hk1⟩

/-- The acceptance probability of the Bernoulli step is ccs exp(-x) up to 2^-s (2^-50 + (s+1) 2^-53) + 2^-64
with s = floor(x / ln 2) (as computed), for every double x in [0, 137) with s ≤ 63. -/
theorem C61_threshold_accurate (fma : Bool) (x ccs : ℝ) (hx : Rep x) (hc : Rep ccs) (h0 : 0 ≤ x) (h1 : x < 137)
    (c0 : 1 / 2 ≤ ccs) (c1 : ccs ≤ 1)
    (hf : fma = true → ⌊fmul x INV_LN2⌋ * LN2 ≤ x) (s : ℕ) (hs : berS x = s) (hs63 : s ≤ 63) :
    ∃ z, berThreshold fma x ccs = .ok z ∧
      |(z.toNat : ℝ) / 2 ^ 64 - ccs * Real.exp (-x)|
        ≤ 1 / 2 ^ s * (1 / 2 ^ 50 + ((s : ℝ) + 1) / 2 ^ 53) + 1 / 2 ^ 64 := by
  have hsafe : SafeRed fma x := by
    cases fma with
    | false => exact safe_false hx h0 h1
    | true => exact safe_true h0 h1 (hf rfl)
  exact ⟨_, berThresholdF_ok hc h0 h1 hsafe (by linarith) (by linarith), thrF_accurate hx h0 h1 hsafe c0 c1 s hs hs63⟩

example : Rep 1 ∧ Rep (3 / 4) ∧ berS 1 = (1 : ℕ) := by
  refine ⟨⟨1, 0, by norm_num, by norm_num, by norm_num⟩, ⟨3, -2, by norm_num, by norm_num, by norm_num⟩, ?_⟩
  unfold berS fmul
  rw [one_mul]
  have : Rep INV_LN2 := rep_rnd _
  rw [rnd_of_rep this, INV_eq, Int.floor_eq_iff]
  norm_num

open Classical in
/-- The probability that one iteration outputs floor mu + k is, up to a relative 2^-41 of the proposal
probability pdt(z0) / 2^73, the ideal value: proposal probability times
ccs exp(-((k - (mu - floor mu))^2 / (2 sigma'^2) - z0^2 / (2 sigma_max^2))). Everything is computed in
binary64 and fixed point as in the code; only `ccs` is the rounded quotient. -/
theorem C61_iteration_distribution {fma : Bool} {mu sigma sigmin : ℝ} (hm0 : -2147483630 ≤ ⌊mu⌋)
    (hm1 : ⌊mu⌋ < 2147483629) (h0 : 6 / 5 ≤ sigmin) (h1 : sigmin ≤ sigma) (h2 : sigma ≤ sigmaMax)
    (hf : fma = true → ∀ b z0, z0 ≤ 18 → ⌊fmul (szX mu sigma b z0) INV_LN2⌋ * LN2 ≤ szX mu sigma b z0) (k : ℤ)
    (hk0 : -18 ≤ k) (hk1 : k ≤ 19) :
    let z0 := if 1 ≤ k then (k - 1).toNat else (-k).toNat
    |((Finset.univ.filter fun v : Fin 18 → UInt8 =>
        ∃ p, szIter fma mu sigma sigmin (memOf v) 0 = .ok (some (⌊mu⌋ + k), p)).card : ℝ) / 2 ^ 144
      - (pdtSpec.getD z0 0 : ℝ) / 2 ^ 73 * (fdiv sigmin sigma * Real.exp
        (-((k - (mu - ⌊mu⌋)) ^ 2 / (2 * sigma ^ 2) - (z0 : ℝ) ^ 2 / (2 * sigmaMax ^ 2))))|
      ≤ (pdtSpec.getD z0 0 : ℝ) / 2 ^ 73 * (1 / 2 ^ 41) :=
  szIter_dist hm0 hm1 h0 h1 h2 (szSafe_of (h0.trans h1) h2 hf) k hk0 hk1

example : (6 / 5 : ℝ) ≤ sigmaMin 9 ∧ sigmaMin 9 ≤ 3 / 2 ∧ (3 / 2 : ℝ) ≤ sigmaMax := by
  have h := C56_parameters
  refine ⟨h.1, ?_, by rw [sigmaMax_eq]; norm_num⟩
  unfold sigmaMin
  rw [if_pos rfl]
  exact rnd_le_of_rep ⟨3, -1, by norm_num, by norm_num, by norm_num⟩ (by norm_num)

/-! ## C62: the array variants -/

/-- For every array of 1 to 10 bytes the array variant reads outside the array. -/
theorem C62_short_array_oob (mu sigma sigmin : ℝ) (h0 : 6 / 5 ≤ sigma) (h1 : sigma ≤ sigmaMax)
    (c0 : 0 ≤ sigmin) (c1 : sigmin ≤ 2) (rb : Mem UInt8) (len fuel : ℕ) (hl : 1 ≤ len) (hl' : len ≤ 10) :
    samplerzArr false mu sigma sigmin rb len (fuel + 1) 0 = some (.error (.oobRead len)) :=
  samplerzArr_oob mu sigma sigmin h0 h1 c0 c1 rb len fuel hl hl'

/-- With 18 bytes left, one iteration of the array variant is one iteration of the stream variant in which
the nine bytes of the base sampler come in reverse order. -/
theorem C62_array_is_stream (fma : Bool) (mu sigma sigmin : ℝ) (rb : Mem UInt8) (rblen ridx : ℕ)
    (hlen : ridx + 18 ≤ rblen) (hsz : rblen < 2 ^ 64) :
    szIterArr fma mu sigma sigmin rb rblen ridx = szIter fma mu sigma sigmin
      (fun i => if ridx ≤ i ∧ i < ridx + 9 then rb (ridx + (8 - (i - ridx))) else rb i) ridx :=
  szIterArr_eq fma mu sigma sigmin rb rblen ridx hlen hsz

/-- On an empty array it returns 0 although nothing was sampled. -/
theorem C62_empty (fma : Bool) (mu sigma sigmin : ℝ) (rb : Mem UInt8) (fuel : ℕ) :
    samplerzArr fma mu sigma sigmin rb 0 (fuel + 1) 0 = some (.ok (0, 0)) := by
  rw [samplerzArr, if_neg (by omega)]

end Falcon
