import Verif.Proofs.ConstGs
import Verif.Props.KeygenRun

/-!
# A run of key generation that finds f = 1, g = -104, F = 118, G = 17

The random stream makes the sampler return 1 once, then 0 for the other 4095 samples of f, then -13 eight times, and
then 0 for ever.
-/

namespace Falcon

open Finset Polynomial

theorem key_thr13 {n : ℕ} (hn : ValidLog n) :
    1 ≤ (thr (szX 0 keySigma false 13) (fdiv (sigmaMin n) keySigma)).toNat := by
  obtain ⟨c0, c1⟩ := key_ccs hn
  have hx0 := szX_nonneg 0 keySigma false 13 (by norm_num) (zpow_500_le.trans keySigma_bounds.1) keySigma_bounds.2
  have e : keySigma = (6453702425112088 : ℤ) * (2 : ℝ) ^ (-52 : ℤ) := by
    unfold keySigma
    refine rnd_eq_of _ _ (by norm_num) ?_ ?_ ?_ <;> norm_num [abs_lt, abs_of_pos]
  have hk : (1.43 : ℝ) ≤ keySigma := by rw [e]; norm_num
  have hm : sigmaMax ≤ 1.83 := by rw [sigmaMax_eq]; norm_num
  have hm0 : 0 ≤ sigmaMax := by rw [sigmaMax_eq]; norm_num
  have hinv : szInv keySigma ≤ 1 / 4 := by
    have h1 : (11 / 4 : ℝ) ≤ fmul 2 keySigma := le_rnd_of_rep ⟨11, -2, by norm_num, by norm_num, by norm_num⟩ (by linarith)
    have h2 : (15 / 4 : ℝ) ≤ fmul (fmul 2 keySigma) keySigma := by
      refine le_rnd_of_rep ⟨15, -2, by norm_num, by norm_num, by norm_num⟩ ?_
      nlinarith
    have h2' : (4 : ℝ) ≤ fmul (fmul 2 keySigma) keySigma := by
      have h1 : (45 / 16 : ℝ) ≤ fmul 2 keySigma := le_rnd_of_rep ⟨45, -4, by norm_num, by norm_num, by norm_num⟩ (by linarith)
      refine le_rnd_of_rep ⟨4, 0, by norm_num, by norm_num, by norm_num⟩ ?_
      nlinarith
    refine rnd_le_of_rep ⟨1, -2, by norm_num, by norm_num, by norm_num⟩ ?_
    exact one_div_le_one_div_of_le (by norm_num) h2'
  have hinvM : 1 / 8 ≤ szInv sigmaMax := by
    have h1 : fmul 2 sigmaMax ≤ 15 / 4 := rnd_le_of_rep ⟨15, -2, by norm_num, by norm_num, by norm_num⟩ (by linarith)
    have h2 : fmul (fmul 2 sigmaMax) sigmaMax ≤ 8 := by
      refine rnd_le_of_rep ⟨8, 0, by norm_num, by norm_num, by norm_num⟩ ?_
      nlinarith
    have h0 : (1 : ℝ) ≤ fmul (fmul 2 sigmaMax) sigmaMax := by
      have h : (1 : ℝ) ≤ sigmaMax := by rw [sigmaMax_eq]; norm_num
      have h3 : (1 : ℝ) ≤ fmul 2 sigmaMax := le_rnd_of_rep ⟨1, 0, by norm_num, by norm_num, by norm_num⟩ (by linarith)
      refine le_rnd_of_rep ⟨1, 0, by norm_num, by norm_num, by norm_num⟩ ?_
      nlinarith
    refine le_rnd_of_rep ⟨1, -3, by norm_num, by norm_num, by norm_num⟩ ?_
    exact one_div_le_one_div_of_le (by linarith) h2
  have hx1 : szX 0 keySigma false 13 ≤ 22 := by
    have hR : szR 0 = 0 := by unfold szR fsub; simp [rnd_zero]
    have ht2 : fsub (szZ false 13) (szR 0) = -13 := by
      rw [hR]
      unfold fsub
      rw [sub_zero]
      have := rnd_of_rep (rep_int (n := szZ false 13) (by norm_num [szZ]))
      rw [this]
      norm_num [szZ]
    have ht3 : fmul (-13) (-13) = 169 := by
      unfold fmul
      have := rnd_of_rep (rep_int (n := 169) (by norm_num))
      norm_num at this ⊢
      exact this
    unfold szX
    simp only
    rw [ht2, ht3]
    have h4 : fmul 169 (szInv keySigma) ≤ 43 :=
      rnd_le_of_rep ⟨43, 0, by norm_num, by norm_num, by norm_num⟩ (by linarith)
    have h6 : 21 ≤ fmul ((13 * 13 : ℕ) : ℝ) (szInv sigmaMax) :=
      le_rnd_of_rep ⟨21, 0, by norm_num, by norm_num, by norm_num⟩ (by norm_num; linarith)
    exact rnd_le_of_rep ⟨22, 0, by norm_num, by norm_num, by norm_num⟩ (by linarith)
  have h := thr_accurate_abs (rep_szX 0 keySigma false 13) hx0 (by linarith) c0 c1
  have he : 1 / 2 ^ 44 ≤ Real.exp (-(szX 0 keySigma false 13)) := by
    have h1 : Real.exp (-22) ≤ Real.exp (-(szX 0 keySigma false 13)) := Real.exp_le_exp.mpr (by linarith)
    refine le_trans ?_ h1
    rw [Real.exp_neg, show (22 : ℝ) = ((22 : ℕ) : ℝ) * 1 by norm_num, Real.exp_nat_mul, ← one_div]
    refine one_div_le_one_div_of_le (by positivity) ?_
    calc Real.exp 1 ^ 22 ≤ 4 ^ 22 := pow_le_pow_left₀ (Real.exp_pos 1).le (by linarith [Real.exp_one_lt_d9]) 22
      _ ≤ 2 ^ 44 := by norm_num
  generalize szX 0 keySigma false 13 = x at *
  generalize fdiv (sigmaMin n) keySigma = c at *
  generalize (thr x c).toNat = t at *
  have hce : 1 / 2 * (1 / 2 ^ 44) ≤ c * Real.exp (-x) := mul_le_mul c0 he (by positivity) (by linarith)
  have h2 := (abs_le.mp h).1
  have h3 : 0 < (t : ℝ) / 2 ^ 64 := by
    have : (0 : ℝ) < 1 / 2 * (1 / 2 ^ 44) - 1 / 2 ^ 46 := by norm_num
    linarith
  rcases Nat.eq_zero_or_pos t with h0 | h0
  · rw [h0] at h3; norm_num at h3
  · exact h0

/-- A positive threshold accepts a string of zeros. -/
theorem berLoop_zeros {z : UInt64} : ∀ k, k ≤ 7 → 1 ≤ z.toNat % 256 ^ (k + 1) →
    ∃ L, 1 ≤ L ∧ L ≤ k + 1 ∧ ∀ (stream : ℕ → UInt8) (pos : ℕ), (∀ i, i < L → stream (pos + i) = 0) →
      berLoop z stream (8 * (k + 1)) pos = (true, pos + L) := by
  intro k
  induction k with
  | zero =>
    intro _ hz
    refine ⟨1, le_rfl, le_rfl, fun stream pos h => ?_⟩
    have hb := zbyte z 0 (by norm_num)
    unfold berLoop
    rw [dif_pos (by norm_num)]
    have h0 := h 0 (by norm_num)
    rw [Nat.add_zero] at h0
    simp only [h0]
    have e : ((z >>> UInt64.ofNat 0) &&& 0xff).toNat = z.toNat / 256 ^ 0 % 256 := hb
    rw [show (8 * (0 + 1) - 8 : ℕ) = 0 from rfl, e]
    rw [if_neg (by simp)]
    simp
    simp at hz
    omega
  | succ k ih =>
    intro hk hz
    have hb := zbyte z (k + 1) (by omega)
    by_cases hd : z.toNat / 256 ^ (k + 1) % 256 = 0
    · have hz' : 1 ≤ z.toNat % 256 ^ (k + 1) := by
        have h1 : z.toNat % 256 ^ (k + 1 + 1) = z.toNat % 256 ^ (k + 1) + 256 ^ (k + 1) * (z.toNat / 256 ^ (k + 1) % 256) := by
          rw [pow_succ, Nat.mod_mul]
        rw [hd, mul_zero, add_zero] at h1
        omega
      obtain ⟨L, h1, h2, h3⟩ := ih (by omega) hz'
      refine ⟨L + 1, by omega, by omega, fun stream pos h => ?_⟩
      unfold berLoop
      rw [dif_pos (by omega)]
      have h0 := h 0 (by omega)
      rw [Nat.add_zero] at h0
      simp only [h0]
      rw [show (8 * (k + 1 + 1) - 8 : ℕ) = 8 * (k + 1) by omega, hb, hd]
      rw [if_pos (by simp), h3 stream (pos + 1) (fun i hi => by rw [show pos + 1 + i = pos + (i + 1) by omega]; exact h _ (by omega))]
      rw [show pos + 1 + L = pos + (L + 1) by omega]
    · refine ⟨1, le_rfl, by omega, fun stream pos h => ?_⟩
      unfold berLoop
      rw [dif_pos (by omega)]
      have h0 := h 0 (by omega)
      rw [Nat.add_zero] at h0
      simp only [h0]
      rw [show (8 * (k + 1 + 1) - 8 : ℕ) = 8 * (k + 1) by omega, hb]
      generalize z.toNat / 256 ^ (k + 1) % 256 = d at *
      rw [if_neg (by simp; omega)]
      simp
      omega

/-- A sample 0 or 1, of eleven bytes. -/
theorem sample_unit {n : ℕ} (hn : ValidLog n) (stream : ℕ → UInt8) (fuel pos : ℕ) (b : Bool)
    (h1 : ∀ i, i < 9 → stream (pos + i) = 255) (h2 : (stream (pos + 9) &&& 1 == 1) = b) (h3 : stream (pos + 10) = 0) :
    samplerz false 0 keySigma (sigmaMin n) stream (fuel + 1) pos = some (.ok (if b then 1 else 0, pos + 11)) := by
  have hz0 : (baseSampler (fun i => stream (pos + i))).toNat = 0 := by
    rw [baseSampler_congr _ (fun _ => 255) (fun i hi => h1 i hi)]
    decide +kernel
  have hl := berLoop_zero (key_thr hn b) stream (pos + 10) h3
  rw [samplerz, szIter_eq stream pos (by simp) (by simp) keySigma_bounds.1 keySigma_bounds.2
    (sigmaMin_bounds hn).1 (sigmaMin_bounds hn).2 0 _ _ hz0 h2 hl.symm]
  cases b <;> simp [szZ]

/-- A sample -13. -/
theorem sample_neg13 {n : ℕ} (hn : ValidLog n) : ∃ L, 1 ≤ L ∧ ∀ (stream : ℕ → UInt8) (fuel pos : ℕ),
    (∀ i, i < 10 + L → stream (pos + i) = if i = 4 then 1 else 0) →
    samplerz false 0 keySigma (sigmaMin n) stream (fuel + 1) pos = some (.ok (-13, pos + (10 + L))) := by
  obtain ⟨L, hL, -, hl⟩ := berLoop_zeros (z := thr (szX 0 keySigma false 13) (fdiv (sigmaMin n) keySigma)) 7 le_rfl (by
    rw [Nat.mod_eq_of_lt (by have := (thr (szX 0 keySigma false 13) (fdiv (sigmaMin n) keySigma)).toNat_lt; norm_num at this ⊢; exact this)]
    exact key_thr13 hn)
  refine ⟨L, hL, fun stream fuel pos h => ?_⟩
  have hz0 : (baseSampler (fun i => stream (pos + i))).toNat = 13 := by
    rw [baseSampler_congr _ (fun i => if i = 4 then 1 else 0) (fun i hi => h i (by omega))]
    decide +kernel
  have h2 : (stream (pos + 9) &&& 1 == 1) = false := by
    rw [h 9 (by omega)]; decide
  have hl' := hl stream (pos + 10) (fun i hi => by
    rw [show pos + 10 + i = pos + (10 + i) by omega, h _ (by omega), if_neg (by omega)])
  rw [samplerz, szIter_eq stream pos (by simp) (by simp) keySigma_bounds.1 keySigma_bounds.2
    (sigmaMin_bounds hn).1 (sigmaMin_bounds hn).2 13 _ _ hz0 h2 hl'.symm]
  simp [szZ]
  omega

theorem coeff_run {n : ℕ} (stream : ℕ → UInt8) (fuel w : ℕ) (z : ℤ) (hz : -13 ≤ z ∧ z ≤ 1) : ∀ (k pos : ℕ) (res : ℤ),
    -(1000 : ℤ) ≤ res → res ≤ 1000 → k ≤ 100 →
    (∀ i, i < k → samplerz false 0 keySigma (sigmaMin n) stream fuel (pos + w * i) = some (.ok (z, pos + w * i + w))) →
    genCoeff false n stream fuel k res pos = some (.ok (res + k * z, pos + w * k)) := by
  intro k
  suffices H : ∀ (k pos : ℕ) (res : ℤ), -(1000000 : ℤ) + 13 * k ≤ res → res ≤ 1000000 - k → 
    (∀ i, i < k → samplerz false 0 keySigma (sigmaMin n) stream fuel (pos + w * i) = some (.ok (z, pos + w * i + w))) →
    genCoeff false n stream fuel k res pos = some (.ok (res + k * z, pos + w * k)) from
    fun pos res h1 h2 h3 h => H k pos res (by omega) (by omega) h
  intro k
  induction k with
  | zero => intro pos res _ _ _; rw [genCoeff]; simp
  | succ k ih =>
    intro pos res h1 h2 h
    have h0 := h 0 (by omega)
    rw [Nat.mul_zero, Nat.add_zero] at h0
    rw [genCoeff, h0, bindO_pure]
    push_cast at h1 h2
    have : i32 .strict (res + z) = .ok (res + z) := by
      unfold i32
      rw [if_pos (by constructor <;> norm_num <;> omega)]
    simp only [this]
    rw [ih (pos + w) (res + z) (by omega) (by omega) (fun i hi => by
      have := h (i + 1) (by omega)
      rw [show pos + w * (i + 1) = pos + w + w * i by ring] at this
      exact this)]
    rw [show pos + w + w * k = pos + w * (k + 1) by ring]
    push_cast
    rw [show res + z + k * z = res + (k + 1) * z by ring]

theorem poly_zeros {n : ℕ} (stream : ℕ → UInt8) (fuel k : ℕ) (hk : 4096 / (1 <<< n) = k) (hk' : k ≤ 100) : ∀ (m i pos : ℕ) (poly : Mem ℤ),
    (∀ i, i < k * m → samplerz false 0 keySigma (sigmaMin n) stream fuel (pos + 11 * i) = some (.ok (0, pos + 11 * i + 11))) →
    ∃ r, genPolyLoop false n stream fuel m i poly pos = some (.ok (r, pos + 11 * (k * m))) ∧
      (∀ j, i ≤ j → j < i + m → r j = 0) ∧ ∀ j, j < i → r j = poly j := by
  intro m
  induction m with
  | zero => intro i pos poly _; exact ⟨poly, rfl, fun j h1 h2 => by omega, fun _ _ => rfl⟩
  | succ m ih =>
    intro i pos poly h
    obtain ⟨r, h2, h3, h4⟩ := ih (i + 1) (pos + 11 * k) (upd poly i 0) (fun a ha => by
      have := h (k + a) (by rw [Nat.mul_succ]; omega)
      rw [show pos + 11 * (k + a) = pos + 11 * k + 11 * a by ring] at this
      exact this)
    refine ⟨r, ?_, fun j hj hj' => ?_, fun j hj => ?_⟩
    · rw [genPolyLoop, hk, coeff_run stream fuel 11 0 (by norm_num) k pos 0 (by norm_num) (by norm_num) hk'
        (fun a ha => h a (by rw [Nat.mul_succ]; omega)), bindO_pure]
      simp only
      rw [mul_zero, add_zero, h2, show pos + 11 * k + 11 * (k * m) = pos + 11 * (k * (m + 1)) by ring]
    · by_cases e : j = i
      · rw [e, h4 i (by omega), upd_same]
      · exact h3 j (by omega) (by omega)
    · rw [h4 j (by omega), upd_ne _ i j _ (by omega)]

/-- The stream; `L` is the number of bytes that the last step of the sampler takes to accept -13. -/
def constStream (L : ℕ) : ℕ → UInt8 := fun p =>
  if p < 45056 then keyStream p
  else if p < 45056 + (10 + L) * 8 then (if (p - 45056) % (10 + L) = 4 then 1 else 0)
  else if (p - (45056 + (10 + L) * 8)) % 11 < 9 then 255 else 0

theorem const_run_of {R C : Type} {A : Arith R C} {quot : RedQuot} (hQ : ConstQuot quot)
    (hgs : gsTooBig A 9 (constMem 1) (constMem (-104)) = false) :
    ∃ stream s pos, ntruGen quot (gsTooBig A 9) false 9 stream 3 1 zeroNtru 0 = some (.ok (s, pos)) ∧
      ∀ i, i < 2 ^ 9 → s.f i = constMem 1 i ∧ s.g i = constMem (-104) i ∧ s.F i = constMem 118 i ∧ s.G i = constMem 17 i := by
  have hn : ValidLog 9 := Or.inl rfl
  obtain ⟨L, hL, hs⟩ := sample_neg13 hn
  have hf0 : ∀ t, t < 4096 → samplerz false 0 keySigma (sigmaMin 9) (constStream L) 3 (0 + 11 * t) =
      some (.ok (if t = 0 then 1 else 0, 0 + 11 * t + 11)) := by
    intro t ht
    have := sample_unit hn (constStream L) 2 (0 + 11 * t) (decide (t = 0)) (fun i hi => by
        unfold constStream keyStream
        rw [if_pos (by omega), if_pos (by omega)]) (by
        unfold constStream keyStream
        rw [if_pos (by omega), if_neg (by omega)]
        by_cases ht : t = 0
        · subst ht; decide
        · rw [if_neg (by omega), decide_eq_false ht]; decide) (by
        unfold constStream keyStream
        rw [if_pos (by omega), if_neg (by omega), if_neg (by omega)])
    rw [this]
    simp
  have hg0 : ∀ i, i < 8 → samplerz false 0 keySigma (sigmaMin 9) (constStream L) 3 (45056 + (10 + L) * i) =
      some (.ok (-13, 45056 + (10 + L) * i + (10 + L))) := by
    intro i hi
    refine hs _ 2 _ fun j hj => ?_
    have : (10 + L) * i + (10 + L) ≤ (10 + L) * 8 := by
      calc _ = (10 + L) * (i + 1) := by ring
        _ ≤ _ := Nat.mul_le_mul le_rfl (by omega)
    unfold constStream
    rw [if_neg (by omega), if_pos (by omega), show 45056 + (10 + L) * i + j - 45056 = j + (10 + L) * i by omega,
      Nat.add_mul_mod_self_left, Nat.mod_eq_of_lt hj]
  have hg1 : ∀ i, samplerz false 0 keySigma (sigmaMin 9) (constStream L) 3 (45056 + (10 + L) * 8 + 11 * i) =
      some (.ok (0, 45056 + (10 + L) * 8 + 11 * i + 11)) := by
    intro i
    have h : ∀ j, constStream L (45056 + (10 + L) * 8 + 11 * i + j) = if j % 11 < 9 then 255 else 0 := by
      intro j
      unfold constStream
      rw [if_neg (by omega), if_neg (by omega),
        show 45056 + (10 + L) * 8 + 11 * i + j - (45056 + (10 + L) * 8) = j + 11 * i by omega, Nat.add_mul_mod_self_left]
    have := sample_unit hn (constStream L) 2 (45056 + (10 + L) * 8 + 11 * i) false (fun j hj => by
        rw [h, if_pos (by omega)]) (by rw [h]; decide) (by rw [h]; decide)
    rw [this]
    simp
  have e8 : 4096 / (1 <<< 9) = 8 := by decide
  have e512 : (1 <<< 9 : ℕ) = 511 + 1 := by decide
  obtain ⟨f, hf, hfz, hfo⟩ := poly_zeros (n := 9) (constStream L) 3 8 e8 (by norm_num) 511 1 88 (upd zeroNtru.f 0 1) (fun i hi => by
    have := hf0 (8 + i) (by omega)
    rw [if_neg (by omega), show 0 + 11 * (8 + i) = 88 + 11 * i by ring] at this
    exact this)
  have hf' : genPoly false 9 (constStream L) 3 zeroNtru.f 0 = some (.ok (f, 45056)) := by
    unfold genPoly
    have h1 : genCoeff false 9 (constStream L) 3 (4096 / (1 <<< 9)) 0 0 = some (.ok (1, 88)) := by
      rw [show 4096 / (1 <<< 9) = 7 + 1 from e8]
      rw [genCoeff, show samplerz false 0 keySigma (sigmaMin 9) (constStream L) 3 0 = _ from hf0 0 (by norm_num), bindO_pure]
      have : i32 .strict (0 + 1) = .ok 1 := by decide
      simp only [if_true, this]
      have := coeff_run (n := 9) (constStream L) 3 11 0 (by norm_num) 7 11 1 (by norm_num) (by norm_num) (by norm_num) (fun i hi => by
        have := hf0 (1 + i) (by omega)
        rw [if_neg (by omega), show 0 + 11 * (1 + i) = 11 + 11 * i by ring] at this
        exact this)
      simpa using this
    rw [e512, genPolyLoop, h1, bindO_pure]
    exact hf
  obtain ⟨g, hg, hgz, hgo⟩ := poly_zeros (n := 9) (constStream L) 3 8 e8 (by norm_num) 511 1 (45056 + (10 + L) * 8) (upd zeroNtru.g 0 (-104)) (fun i hi => hg1 i)
  have hg' : ∃ p, genPoly false 9 (constStream L) 3 zeroNtru.g 45056 = some (.ok (g, p)) := by
    refine ⟨45056 + (10 + L) * 8 + 11 * (8 * 511), ?_⟩
    unfold genPoly
    have h1 : genCoeff false 9 (constStream L) 3 (4096 / (1 <<< 9)) 0 45056 = some (.ok (-104, 45056 + (10 + L) * 8)) := by
      rw [e8]
      have := coeff_run (n := 9) (constStream L) 3 (10 + L) (-13) (by norm_num) 8 45056 0 (by norm_num) (by norm_num) (by norm_num) hg0
      simpa using this
    rw [e512, genPolyLoop, h1, bindO_pure]
    exact hg
  obtain ⟨p, hg'⟩ := hg'
  have hfc : IsConst 9 f 1 := by
    intro i hi
    by_cases e : i = 0
    · subst e; rw [hfo 0 (by norm_num), upd_same]; rfl
    · rw [hfz i (by omega) (by norm_num at hi; omega)]; simp [constMem, e]
  have hgc : IsConst 9 g (-104) := by
    intro i hi
    by_cases e : i = 0
    · subst e; rw [hgo 0 (by norm_num), upd_same]; rfl
    · rw [hgz i (by omega) (by norm_num at hi; omega)]; simp [constMem, e]
  have hinv : isPolyInvertible 9 f = true := by
    rw [C36_invertible_iff hn (by
      intro i hi
      rw [hfc i hi]
      unfold constMem
      split <;> norm_num)]
    refine ⟨1, ?_⟩
    rw [show polyInt (2 ^ 9) f = polyInt (2 ^ 9) (constMem 1) from toPoly_congr fun i hi => by rw [hfc i hi],
      polyInt_map, polyZ_const (by positivity)]
    exact ⟨0, by simp⟩
  have hgs' : gsTooBig A 9 f g = false := by rw [gsTooBig_congr A 9 hfc hgc]; exact hgs
  obtain ⟨F, G, h1, h2, h3⟩ := const_solve_of hQ (f := loop (1 <<< 9) (fun i m => upd m i (f i)) zerosZ)
    (g := loop (1 <<< 9) (fun i m => upd m i (g i)) zerosZ)
    (fun i hi => by rw [loop_fill_lt _ _ _ _ (by rw [one_shiftLeft']; exact hi), hfc i hi])
    (fun i hi => by rw [loop_fill_lt _ _ _ _ (by rw [one_shiftLeft']; exact hi), hgc i hi])
  refine ⟨constStream L, ⟨f, g, loop (1 <<< 9) (fun i m => upd m i (narrow32 (getSi (F i)))) zeroNtru.F,
    loop (1 <<< 9) (fun i m => upd m i (narrow32 (getSi (G i)))) zeroNtru.G⟩, p, ?_, fun i hi => ⟨hfc i hi,
      hgc i hi, ?_, ?_⟩⟩
  · rw [ntruGen, hf', bindO_pure]
    rw [hg', bindO_pure]
    simp only [hinv, hgs']
    rw [if_neg (by simp), if_neg (by simp), h1, bindO_pure]
  · show loop (1 <<< 9) (fun i m => upd m i (narrow32 (getSi (F i)))) zeroNtru.F i = _
    rw [loop_fill_lt _ (fun i => narrow32 (getSi (F i))) _ _ (by rw [one_shiftLeft']; exact hi), h2 i hi]
    refine narrow_id ?_
    unfold constMem
    split <;> norm_num
  · show loop (1 <<< 9) (fun i m => upd m i (narrow32 (getSi (G i)))) zeroNtru.G i = _
    rw [loop_fill_lt _ (fun i => narrow32 (getSi (G i))) _ _ (by rw [one_shiftLeft']; exact hi), h3 i hi]
    refine narrow_id ?_
    unfold constMem
    split <;> norm_num

theorem const_run {A : Arith ℝ ℂ} (hA : Accurate A) (hgs : gsTooBig A 9 (constMem 1) (constMem (-104)) = false) :
    ∃ stream s pos, ntruGen (redQuot A) (gsTooBig A 9) false 9 stream 3 1 zeroNtru 0 = some (.ok (s, pos)) ∧
      ∀ i, i < 2 ^ 9 → s.f i = constMem 1 i ∧ s.g i = constMem (-104) i ∧ s.F i = constMem 118 i ∧ s.G i = constMem 17 i :=
  const_run_of (fun hn => const_quot hA hn) hgs

end Falcon
