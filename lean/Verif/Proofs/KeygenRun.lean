import Verif.Props.Ntru
import Verif.Proofs.SamplerArr
import Verif.Proofs.SamplerDist
import Verif.Props.SignRun

/-!
# A concrete run of key generation

The random stream makes the sampler return 1 once and then 0 for ever, so f = 1 and g = 0.
-/

namespace Falcon

open Finset Polynomial

/-- Samples of eleven bytes: nine bytes for the base sampler, a sign byte which is 1 in the first sample only, and a
zero for the Bernoulli step. -/
def keyStream : ℕ → UInt8 := fun p =>
  if p % 11 < 9 then 255 else if p = 9 then 1 else 0

theorem key_ccs {n : ℕ} (hn : ValidLog n) : 1 / 2 ≤ fdiv (sigmaMin n) keySigma ∧ fdiv (sigmaMin n) keySigma ≤ 1 := by
  obtain ⟨a, -, c, -⟩ := C56_parameters
  have ha : 6 / 5 ≤ sigmaMin n := by rcases hn with rfl | rfl <;> assumption
  have hb : sigmaMin n ≤ 1.43 := by
    have r : Rep (11 / 8 : ℝ) := ⟨11, -3, by norm_num, by norm_num, by norm_num⟩
    have : sigmaMin n ≤ 11 / 8 := by
      unfold sigmaMin
      split <;> exact rnd_le_of_rep r (by norm_num)
    linarith
  have e : keySigma = (6453702425112088 : ℤ) * (2 : ℝ) ^ (-52 : ℤ) := by
    unfold keySigma
    refine rnd_eq_of _ _ (by norm_num) ?_ ?_ ?_ <;> norm_num [abs_lt, abs_of_pos]
  have hk : (1.43 : ℝ) ≤ keySigma ∧ keySigma ≤ 1.44 := by rw [e]; norm_num
  constructor
  · refine le_rnd_of_rep ⟨1, -1, by norm_num, by norm_num, by norm_num⟩ ?_
    rw [le_div_iff₀ (by linarith)]
    linarith
  · refine rnd_le_of_rep ⟨1, 0, by norm_num, by norm_num, by norm_num⟩ ?_
    rw [div_le_one (by linarith)]
    linarith

theorem key_szX (b : Bool) : szX 0 keySigma b 0 ≤ 361 / 1024 := by
  have h1 : Rep (1 : ℝ) := ⟨1, 0, by norm_num, by norm_num, by norm_num⟩
  have hr : Rep (361 / 1024 : ℝ) := ⟨361, -10, by norm_num, by norm_num, by norm_num⟩
  have hinv := szInv_le keySigma_bounds.1
  have hinv0 := szInv_nonneg (zpow_500_le.trans keySigma_bounds.1)
  have hR : szR 0 = 0 := by unfold szR fsub; simp [rnd_zero]
  have ht2 : fsub (szZ b 0) (szR 0) = szZ b 0 := by
    rw [hR]
    unfold fsub
    rw [sub_zero]
    refine rnd_of_rep (rep_int ?_)
    cases b <;> norm_num [szZ]
  unfold szX
  simp only
  rw [ht2]
  have ht3 : fmul (szZ b 0) (szZ b 0) ≤ 1 := by
    refine rnd_le_of_rep h1 ?_
    cases b <;> norm_num [szZ]
  have ht3' : 0 ≤ fmul (szZ b 0) (szZ b 0) := by
    rw [← rnd_zero]
    exact rnd_mono (mul_self_nonneg _)
  refine rnd_le_of_rep hr ?_
  have ht6 : fmul ((0 * 0 : ℕ) : ℝ) (szInv sigmaMax) = 0 := by unfold fmul; simp [rnd_zero]
  rw [ht6, sub_zero]
  refine rnd_le_of_rep hr ?_
  calc fmul (szZ b 0) (szZ b 0) * szInv keySigma ≤ 1 * (361 / 1024) := mul_le_mul ht3 hinv hinv0 (by norm_num)
    _ = 361 / 1024 := by norm_num

theorem key_thr {n : ℕ} (hn : ValidLog n) (b : Bool) :
    2 ^ 56 ≤ (thr (szX 0 keySigma b 0) (fdiv (sigmaMin n) keySigma)).toNat := by
  obtain ⟨c0, c1⟩ := key_ccs hn
  have hx0 := szX_nonneg 0 keySigma b 0 (by norm_num) (zpow_500_le.trans keySigma_bounds.1) keySigma_bounds.2
  have hx1 := key_szX b
  have h := thr_accurate_abs (rep_szX 0 keySigma b 0) hx0 (by linarith) c0 c1
  have he := Real.add_one_le_exp (-(szX 0 keySigma b 0))
  generalize szX 0 keySigma b 0 = x at *
  generalize fdiv (sigmaMin n) keySigma = c at *
  generalize (thr x c).toNat = t at *
  have hce : 1 / 2 * (1 / 2) ≤ c * Real.exp (-x) := mul_le_mul c0 (by linarith) (by norm_num) (by linarith)
  have h2 := (abs_le.mp h).1
  have h3 : (1 / 2 ^ 8 : ℝ) ≤ (t : ℝ) / 2 ^ 64 := by
    have : (1 / 2 ^ 8 : ℝ) ≤ 1 / 2 * (1 / 2) - 1 / 2 ^ 46 := by norm_num
    linarith
  rw [le_div_iff₀ (by positivity)] at h3
  have h4 : ((2 ^ 56 : ℕ) : ℝ) ≤ t := by push_cast; linarith
  exact_mod_cast h4

theorem berLoop_zero {z : UInt64} (hz : 2 ^ 56 ≤ z.toNat) (stream : ℕ → UInt8) (pos : ℕ) (h : stream pos = 0) :
    berLoop z stream 64 pos = (true, pos + 1) := by
  have hb := zbyte z 7 (by norm_num)
  have hlt := z.toNat_lt
  unfold berLoop
  rw [dif_pos (by norm_num)]
  simp only [h]
  have e : ((z >>> UInt64.ofNat 56) &&& 0xff).toNat = z.toNat / 256 ^ 7 % 256 := hb
  rw [show (64 - 8 : ℕ) = 56 from rfl, e]
  have : 1 ≤ z.toNat / 256 ^ 7 % 256 := by
    rw [Nat.mod_eq_of_lt (by omega)]
    omega
  rw [if_neg (by simp; omega)]
  simp
  omega

theorem key_sample {n : ℕ} (hn : ValidLog n) (t fuel : ℕ) :
    samplerz false 0 keySigma (sigmaMin n) keyStream (fuel + 1) (11 * t) =
      some (.ok (if t = 0 then 1 else 0, 11 * (t + 1))) := by
  have hz0 : (baseSampler (fun i => keyStream (11 * t + i))).toNat = 0 := by
    rw [baseSampler_congr _ (fun _ => 255) (fun i hi => by
      unfold keyStream
      rw [if_pos (by omega)])]
    decide +kernel
  have hb : (keyStream (11 * t + 9) &&& 1 == 1) = decide (t = 0) := by
    unfold keyStream
    rw [if_neg (by omega)]
    by_cases ht : t = 0
    · subst ht; decide
    · rw [if_neg (by omega), decide_eq_false ht]; decide
  have h10 : keyStream (11 * t + 10) = 0 := by
    unfold keyStream
    rw [if_neg (by omega), if_neg (by omega)]
  have hl := berLoop_zero (key_thr hn (decide (t = 0))) keyStream (11 * t + 10) h10
  rw [samplerz, szIter_eq keyStream (11 * t) (by simp) (by simp) keySigma_bounds.1 keySigma_bounds.2
    (sigmaMin_bounds hn).1 (sigmaMin_bounds hn).2 0 _ _ hz0 hb hl.symm]
  simp only [if_true]
  by_cases ht : t = 0
  · subst ht; simp [szZ]
  · simp [szZ, ht]; omega

theorem key_coeff {n : ℕ} (hn : ValidLog n) (fuel : ℕ) : ∀ (k t : ℕ) (res : ℤ), 0 ≤ res → res ≤ 1 → t ≠ 0 →
    genCoeff false n keyStream (fuel + 1) k res (11 * t) = some (.ok (res, 11 * (t + k))) := by
  intro k
  induction k with
  | zero => intro t res _ _ _; rw [genCoeff, Nat.add_zero]
  | succ k ih =>
    intro t res h0 h1 ht
    rw [genCoeff, key_sample hn, bindO_pure, if_neg ht]
    have : i32 .strict (res + 0) = .ok res := by
      unfold i32
      rw [if_pos (by constructor <;> norm_num <;> omega), add_zero]
    simp only [this]
    rw [ih (t + 1) res h0 h1 (by omega), show t + 1 + k = t + (k + 1) by omega]

theorem key_coeff_first {n : ℕ} (hn : ValidLog n) (fuel k : ℕ) (hk : k ≠ 0) :
    genCoeff false n keyStream (fuel + 1) k 0 0 = some (.ok (1, 11 * k)) := by
  obtain ⟨k, rfl⟩ : ∃ l, k = l + 1 := ⟨k - 1, by omega⟩
  have h := key_sample hn 0 fuel
  rw [Nat.mul_zero, if_pos rfl] at h
  rw [genCoeff, h, bindO_pure]
  have : i32 .strict (0 + 1) = .ok 1 := by decide
  simp only [this]
  rw [key_coeff hn fuel k (0 + 1) 1 (by norm_num) (by norm_num) (by norm_num), show 0 + 1 + k = k + 1 by omega]

theorem key_poly {n : ℕ} (hn : ValidLog n) (fuel : ℕ) : ∀ (m i t : ℕ) (poly : Mem ℤ), t ≠ 0 →
    ∃ r t', t' ≠ 0 ∧ genPolyLoop false n keyStream (fuel + 1) m i poly (11 * t) = some (.ok (r, 11 * t')) ∧
      (∀ j, i ≤ j → j < i + m → r j = 0) ∧ ∀ j, j < i → r j = poly j := by
  intro m
  induction m with
  | zero => intro i t poly ht; exact ⟨poly, t, ht, rfl, fun j h1 h2 => by omega, fun _ _ => rfl⟩
  | succ m ih =>
    intro i t poly ht
    obtain ⟨r, t', h1, h2, h3, h4⟩ := ih (i + 1) (t + 4096 / (1 <<< n)) (upd poly i 0)
      (by generalize 4096 / (1 <<< n) = x; omega)
    refine ⟨r, t', h1, ?_, fun j hj hj' => ?_, fun j hj => ?_⟩
    · rw [genPolyLoop, key_coeff hn fuel _ t 0 le_rfl (by norm_num) ht, bindO_pure]
      exact h2
    · by_cases e : j = i
      · rw [e, h4 i (by omega), upd_same]
      · exact h3 j (by omega) (by omega)
    · rw [h4 j (by omega), upd_ne _ i j _ (by omega)]

theorem key_poly_first {n : ℕ} (hn : ValidLog n) (fuel : ℕ) (poly : Mem ℤ) :
    ∃ r t', t' ≠ 0 ∧ genPoly false n keyStream (fuel + 1) poly 0 = some (.ok (r, 11 * t')) ∧
      ∀ j, j < 2 ^ n → r j = constMem 1 j := by
  obtain ⟨m, hm⟩ : ∃ m, 1 <<< n = m + 1 := ⟨2 ^ n - 1, by
    have : 0 < 2 ^ n := by positivity
    rw [one_shiftLeft']; omega⟩
  have hk : 4096 / (1 <<< n) ≠ 0 := by rcases hn with rfl | rfl <;> decide
  obtain ⟨r, t', h1, h2, h3, h4⟩ := key_poly hn fuel m (0 + 1) (4096 / (1 <<< n)) (upd poly 0 1) hk
  refine ⟨r, t', h1, ?_, fun j hj => ?_⟩
  · unfold genPoly
    rw [show genPolyLoop false n keyStream (fuel + 1) (1 <<< n) 0 poly 0 =
      genPolyLoop false n keyStream (fuel + 1) (m + 1) 0 poly 0 by rw [← hm], genPolyLoop,
      key_coeff_first hn fuel _ hk, bindO_pure]
    exact h2
  · unfold constMem
    by_cases e : j = 0
    · rw [if_pos e, e, h4 0 (by omega), upd_same]
    · rw [if_neg e, h3 j (by omega) (by rw [← one_shiftLeft', hm] at hj; omega)]

/-! ### The solver -/

theorem toPoly_const {N : ℕ} (hN : 0 < N) {a : Mem ℤ} {x : ℤ} (h : ∀ i, i < N → a i = constMem x i) :
    toPoly N a = C x := by
  rw [toPoly_congr h]
  unfold toPoly constMem
  rw [Finset.sum_eq_single 0]
  · simp
  · intro i _ hi; rw [if_neg hi]; simp
  · intro h; exact absurd (Finset.mem_range.mpr hN) h

theorem const_of_modEq {N : ℕ} (hN : 0 < N) {a : Mem ℤ} {x : ℤ} (h : ModEqXN N (C x) (toPoly N a)) :
    ∀ i, i < N → a i = constMem x i := by
  refine modEq_coeff hN ?_
  rw [toPoly_const hN (a := constMem x) fun _ _ => rfl]
  rw [modEq_iff] at h ⊢
  exact h.symm

theorem key_solve {quot : RedQuot} (hq : ∀ k f g F G, ∃ r, quot k f g F G = .ok r ∧ ∀ i, i < 2 ^ k → r i = 0)
    (fuel : ℕ) : ∀ (k : ℕ) (f g : Mem ℤ), (∀ i, i < 2 ^ k → f i = constMem 1 i) → (∀ i, i < 2 ^ k → g i = 0) →
    ∃ F G, ntruSolve quot (fuel + 1) k f g = some (.ok (some (F, G))) ∧
      (∀ i, i < 2 ^ k → F i = 0) ∧ ∀ i, i < 2 ^ k → G i = constMem 12289 i := by
  intro k
  induction k with
  | zero =>
    intro f g hf hg
    have h1 : f 0 = 1 := hf 0 (by norm_num)
    have h2 : g 0 = 0 := hg 0 (by norm_num)
    have hx : xgcdZ (fuel + 1) (f 0) (g 0) = some (1, 0, 1) := by
      rw [h1, h2, xgcdZ, xgcdZLoop, if_neg (by simp)]
    refine ⟨upd zerosZ 0 (-(Q.toNat : Int) * 0), upd zerosZ 0 ((Q.toNat : Int) * 1), ?_, ?_, ?_⟩
    · rw [ntruSolve, hx]
      simp only
      rw [if_neg (by simp)]
    · intro i hi
      obtain rfl : i = 0 := by simpa using hi
      rw [upd_same, mul_zero]
    · intro i hi
      obtain rfl : i = 0 := by simpa using hi
      rw [upd_same]
      rfl
  | succ k ih =>
    intro f g hf hg
    have hk : 0 < 2 ^ k := by positivity
    have hk1 : 0 < 2 ^ (k + 1) := by positivity
    have e2 : 2 ^ (k + 1) = 2 * 2 ^ k := by ring
    have hf' : ∀ i, i < 2 ^ k → fieldNorm k f i = constMem 1 i := by
      refine const_of_modEq hk ?_
      have h := fieldNorm_poly k f
      rw [toPoly_const hk (a := fun i => f (2 * i)) (x := 1) (fun i hi => by
          rw [hf _ (by omega)]; unfold constMem; simp),
        toPoly_const hk (a := fun i => f (2 * i + 1)) (x := 0) (fun i hi => by
          rw [hf _ (by omega)]; unfold constMem; simp)] at h
      simpa using h
    have hg' : ∀ i, i < 2 ^ k → fieldNorm k g i = 0 := by
      have : ∀ i, i < 2 ^ k → fieldNorm k g i = constMem 0 i := by
        refine const_of_modEq hk ?_
        have h := fieldNorm_poly k g
        rw [toPoly_const hk (a := fun i => g (2 * i)) (x := 0) (fun i hi => by
            rw [hg _ (by omega)]; unfold constMem; simp),
          toPoly_const hk (a := fun i => g (2 * i + 1)) (x := 0) (fun i hi => by
            rw [hg _ (by omega)]; unfold constMem; simp)] at h
        simpa using h
      intro i hi
      rw [this i hi]
      unfold constMem
      simp
    obtain ⟨F', G', h1, -, h3⟩ := ih _ _ hf' hg'
    have hlift : toPoly (2 ^ (k + 1)) (lift k G') = C 12289 := by
      rw [e2, lift_poly, toPoly_const hk h3, C_comp]
    have hgf : toPoly (2 ^ (k + 1)) (galoisConjugate (k + 1) f) = C 1 := by
      rw [galois_poly, toPoly_const hk1 hf, C_comp]
    have hgg : toPoly (2 ^ (k + 1)) (galoisConjugate (k + 1) g) = C 0 := by
      rw [galois_poly, toPoly_const hk1 (x := 0) (fun i hi => by rw [hg i hi]; unfold constMem; simp), C_comp]
    have hF : ∀ i, i < 2 ^ (k + 1) → karamul (k + 1) (lift k F') (galoisConjugate (k + 1) g) i = constMem 0 i := by
      refine const_of_modEq hk1 ?_
      have h := karamul_poly (k + 1) (lift k F') (galoisConjugate (k + 1) g)
      rw [hgg, C_0, mul_zero] at h
      rw [C_0]
      exact h
    have hG : ∀ i, i < 2 ^ (k + 1) →
        karamul (k + 1) (lift k G') (galoisConjugate (k + 1) f) i = constMem 12289 i := by
      refine const_of_modEq hk1 ?_
      have h := karamul_poly (k + 1) (lift k G') (galoisConjugate (k + 1) f)
      rw [hgf, hlift, C_1, mul_one] at h
      exact h
    refine ⟨_, _, ?_, fun i hi => (hF i hi).trans (by unfold constMem; simp), hG⟩
    rw [ntruSolve]
    simp only
    rw [h1, bindO_pure]
    simp only
    generalize karamul (k + 1) (lift k F') (galoisConjugate (k + 1) g) = F
    generalize karamul (k + 1) (lift k G') (galoisConjugate (k + 1) f) = G
    have hred : reduce quot (fuel + 1) (k + 1) f g F G = some (.ok (F, G)) := by
      unfold reduce reduceLoop
      simp only
      split
      · rfl
      · obtain ⟨r, hr, hr0⟩ := hq (k + 1) (scaled (bitLenPair (2 ^ (k + 1)) f g) f)
          (scaled (bitLenPair (2 ^ (k + 1)) f g) g) (scaled (bitLenPair (2 ^ (k + 1)) F G) F)
          (scaled (bitLenPair (2 ^ (k + 1)) F G) G)
        rw [hr]
        simp only
        have hz : ∀ N, N ≤ 2 ^ (k + 1) → loop N (fun i b => b || decide (r i ≠ 0)) false = false := by
          intro N
          induction N with
          | zero => intro _; rfl
          | succ N ihN => intro hN; rw [loop_succ, ihN (by omega), hr0 N (by omega)]; simp
        rw [hz _ le_rfl]
        rfl
    rw [hred, bindO_pure]

/-- The run: whatever rounded quotients, as long as they are zero, and whatever norm test, as long as it passes. -/
theorem key_run {quot : RedQuot} (hq : ∀ k f g F G, ∃ r, quot k f g F G = .ok r ∧ ∀ i, i < 2 ^ k → r i = 0)
    {gs : Mem ℤ → Mem ℤ → Bool} (hgs : ∀ f g, gs f g = false) {n : ℕ} (hn : ValidLog n) (junk : Ntru) :
    ∃ s pos, ntruGen quot gs false n keyStream 1 1 junk 0 = some (.ok (s, pos)) ∧ ∀ i, i < 2 ^ n →
      s.f i = constMem 1 i ∧ s.g i = 0 ∧ s.F i = 0 ∧ s.G i = constMem 12289 i := by
  obtain ⟨f, t, ht, hf, hf1⟩ := key_poly_first hn 0 junk.f
  obtain ⟨g, t', -, hg, hg1, -⟩ := key_poly hn 0 (1 <<< n) 0 t junk.g ht
  rw [one_shiftLeft', Nat.zero_add] at hg1
  have hinv : isPolyInvertible n f = true := by
    rw [C36_invertible_iff hn (by
      intro i hi
      rw [hf1 i hi]
      unfold constMem
      split <;> norm_num)]
    refine ⟨1, ?_⟩
    rw [show polyInt (2 ^ n) f = polyInt (2 ^ n) (constMem 1) from toPoly_congr fun i hi => by rw [hf1 i hi],
      polyInt_map, polyZ_const (by positivity)]
    exact ⟨0, by simp⟩
  obtain ⟨F, G, h1, h2, h3⟩ := key_solve hq 0 n (loop (1 <<< n) (fun i m => upd m i (f i)) zerosZ)
    (loop (1 <<< n) (fun i m => upd m i (g i)) zerosZ)
    (fun i hi => by rw [loop_fill_lt _ _ _ _ (by rw [one_shiftLeft']; exact hi), hf1 i hi])
    (fun i hi => by rw [loop_fill_lt _ _ _ _ (by rw [one_shiftLeft']; exact hi), hg1 i (by omega) hi])
  refine ⟨⟨f, g, loop (1 <<< n) (fun i m => upd m i (narrow32 (getSi (F i)))) junk.F,
    loop (1 <<< n) (fun i m => upd m i (narrow32 (getSi (G i)))) junk.G⟩, 11 * t', ?_, fun i hi => ⟨hf1 i hi,
      hg1 i (by omega) hi, ?_, ?_⟩⟩
  · rw [ntruGen, show genPoly false n keyStream 1 junk.f 0 = _ from hf, bindO_pure]
    rw [show genPoly false n keyStream 1 junk.g (11 * t) = _ from hg, bindO_pure]
    simp only [hinv, hgs]
    rw [if_neg (by simp), if_neg (by simp), h1, bindO_pure]
  · show loop (1 <<< n) (fun i m => upd m i (narrow32 (getSi (F i)))) junk.F i = 0
    rw [loop_fill_lt _ (fun i => narrow32 (getSi (F i))) _ _ (by rw [one_shiftLeft']; exact hi), h2 i hi]
    rfl
  · show loop (1 <<< n) (fun i m => upd m i (narrow32 (getSi (G i)))) junk.G i = _
    rw [loop_fill_lt _ (fun i => narrow32 (getSi (G i))) _ _ (by rw [one_shiftLeft']; exact hi), h3 i hi]
    refine narrow_id ?_
    unfold constMem
    split <;> norm_num

end Falcon
