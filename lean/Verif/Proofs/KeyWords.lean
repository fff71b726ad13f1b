import Verif.Proofs.ConstRun

/-!
# Every polynomial in range is drawn from some bytes

The sampler of key generation returns each of -18, ..., 19 on some string of bytes. Sums of 4096/N samples reach every
integer between -18 (4096/N) and 19 (4096/N). So each polynomial with coefficients in this range is drawn by `gen_poly`
from some string of bytes.
-/

namespace Falcon

open Finset

/-- The bytes `w` are at position `pos` of the stream. -/
def Reads (stream : ℕ → UInt8) (pos : ℕ) (w : List UInt8) : Prop := ∀ i, i < w.length → stream (pos + i) = w.getD i 0

theorem Reads.left {stream : ℕ → UInt8} {pos : ℕ} {u v : List UInt8} (h : Reads stream pos (u ++ v)) :
    Reads stream pos u := by
  intro i hi
  rw [h i (by rw [List.length_append]; omega), List.getD_append _ _ _ _ hi]

theorem Reads.right {stream : ℕ → UInt8} {pos : ℕ} {u v : List UInt8} (h : Reads stream pos (u ++ v)) :
    Reads stream (pos + u.length) v := by
  intro i hi
  rw [add_assoc, h _ (by rw [List.length_append]; omega), List.getD_append_right _ _ _ _ (by omega),
    Nat.add_sub_cancel_left]

theorem reads_self (w : List UInt8) : Reads (fun i => w.getD i 0) 0 w := fun i _ => by simp

theorem szInv_key : szInv keySigma ≤ 250 / 1024 := by
  have e : keySigma = (6453702425112088 : ℤ) * (2 : ℝ) ^ (-52 : ℤ) := by
    unfold keySigma
    refine rnd_eq_of _ _ (by norm_num) ?_ ?_ ?_ <;> norm_num [abs_lt, abs_of_pos]
  have hk : (1.433 : ℝ) ≤ keySigma := by rw [e]; norm_num
  have h1 : (2934 / 1024 : ℝ) ≤ fmul 2 keySigma :=
    le_rnd_of_rep ⟨2934, -10, by norm_num, by norm_num, by norm_num⟩ (by linarith)
  have h2 : (4198 / 1024 : ℝ) ≤ fmul (fmul 2 keySigma) keySigma := by
    refine le_rnd_of_rep ⟨4198, -10, by norm_num, by norm_num, by norm_num⟩ ?_
    nlinarith
  refine rnd_le_of_rep ⟨250, -10, by norm_num, by norm_num, by norm_num⟩ ?_
  refine (one_div_le_one_div_of_le (by norm_num) h2).trans (by norm_num)

theorem szInv_max : 610 / 4096 ≤ szInv sigmaMax := by
  have hm : sigmaMax ≤ 1.8206 := by rw [sigmaMax_eq]; norm_num
  have hm0 : 0 ≤ sigmaMax := by rw [sigmaMax_eq]; norm_num
  have hm1 : 1 ≤ sigmaMax := by rw [sigmaMax_eq]; norm_num
  have h0 : 0 < fmul 2 sigmaMax := by
    have : (1 : ℝ) ≤ fmul 2 sigmaMax := le_rnd_of_rep ⟨1, 0, by norm_num, by norm_num, by norm_num⟩ (by linarith)
    linarith
  have h1 : fmul 2 sigmaMax ≤ 3730 / 1024 := rnd_le_of_rep ⟨3730, -10, by norm_num, by norm_num, by norm_num⟩ (by linarith)
  have h2 : fmul (fmul 2 sigmaMax) sigmaMax ≤ 6810 / 1024 := by
    refine rnd_le_of_rep ⟨6810, -10, by norm_num, by norm_num, by norm_num⟩ ?_
    nlinarith
  have h3 : 0 < fmul (fmul 2 sigmaMax) sigmaMax := szInv_den_pos (zpow_500_le.trans (by rw [sigmaMax_eq]; norm_num))
  refine le_rnd_of_rep ⟨610, -12, by norm_num, by norm_num, by norm_num⟩ ?_
  exact le_trans (by norm_num) (one_div_le_one_div_of_le h3 h2)

theorem szX_key (b : Bool) {z0 : ℕ} (hz : z0 ≤ 18) : szX 0 keySigma b z0 ≤ 40 := by
  have hR : szR 0 = 0 := by unfold szR fsub; simp [rnd_zero]
  have hz' : (z0 : ℤ) ≤ 18 := by exact_mod_cast hz
  have hb : -18 ≤ szZ b z0 ∧ szZ b z0 ≤ z0 + 1 ∧ -(z0 : ℤ) ≤ szZ b z0 := by
    cases b <;> (simp only [szZ, Bool.false_eq_true, if_false, if_true]; omega)
  have hsq : szZ b z0 ^ 2 ≤ (z0 + 1) ^ 2 := sq_le_sq' (by omega) hb.2.1
  have hsq' : szZ b z0 ^ 2 ≤ 361 := hsq.trans ((sq_le_sq' (b := 19) (by omega) (by omega)).trans (by norm_num))
  have ht2 : fsub (szZ b z0) (szR 0) = szZ b z0 := by
    rw [hR]
    unfold fsub
    rw [sub_zero]
    exact rnd_of_rep (rep_int (by rw [abs_le]; constructor <;> norm_num <;> omega))
  have ht3 : fmul (szZ b z0) (szZ b z0) = ((szZ b z0 ^ 2 : ℤ) : ℝ) := by
    unfold fmul
    have := rnd_of_rep (rep_int (n := szZ b z0 ^ 2) (by rw [abs_of_nonneg (sq_nonneg _)]; norm_num; linarith))
    rw [← this]
    congr 1
    push_cast; ring
  unfold szX
  simp only
  rw [ht2, ht3]
  have hs0 : (0 : ℤ) ≤ szZ b z0 ^ 2 := sq_nonneg _
  generalize szZ b z0 ^ 2 = t at *
  have h4 : fmul (t : ℝ) (szInv keySigma) ≤ t * (250 / 1024) := by
    refine rnd_le_of_rep ⟨t * 250, -10, ?_, by norm_num, by push_cast; norm_num; ring⟩
      (mul_le_mul_of_nonneg_left szInv_key (by exact_mod_cast hs0))
    rw [abs_of_nonneg (by omega)]; norm_num; omega
  have h6 : (z0 * z0 : ℕ) * (610 / 4096 : ℝ) ≤ fmul ((z0 * z0 : ℕ) : ℝ) (szInv sigmaMax) := by
    have hzz : z0 * z0 ≤ 324 := by nlinarith
    refine le_rnd_of_rep ⟨(z0 * z0 : ℕ) * 610, -12, ?_, by norm_num, by push_cast; norm_num; ring⟩
      (mul_le_mul_of_nonneg_left szInv_max (by positivity))
    rw [abs_of_nonneg (by positivity)]; norm_num; push_cast; 
    have : (z0 : ℤ) * z0 ≤ 324 := by exact_mod_cast hzz
    omega
  refine rnd_le_of_rep ⟨40, 0, by norm_num, by norm_num, by norm_num⟩ ?_
  have hzR : (z0 : ℝ) ≤ 18 := by exact_mod_cast hz
  have hz0R : (0 : ℝ) ≤ z0 := by positivity
  have hsR : (t : ℝ) ≤ (z0 + 1) ^ 2 := by exact_mod_cast hsq
  push_cast at h6 ⊢
  nlinarith

theorem thrF_pos {fma : Bool} {x c : ℝ} (h0 : 0 ≤ x) (h1 : x ≤ 40) (hsafe : SafeRed fma x) (c0 : 1 / 2 ≤ c) (c1 : c ≤ 1) :
    1 ≤ (thrF fma x c).toNat := by
  obtain ⟨r0, r1⟩ := hsafe
  rw [thrF_toNat (by linarith) ⟨r0, r1⟩ c0 c1]
  have hs : berS x ≤ 60 := by
    unfold berS fmul
    have : rnd (x * INV_LN2) ≤ 60 := by
      refine rnd_le_of_rep ⟨60, 0, by norm_num, by norm_num, by norm_num⟩ ?_
      have : INV_LN2 ≤ 3 / 2 := by
        rw [INV_eq]; norm_num
      have h2 : 0 ≤ INV_LN2 := by
        rw [INV_eq]; norm_num
      nlinarith
    have h2 := (Int.floor_le (rnd (x * INV_LN2))).trans this
    exact_mod_cast h2
  have hY : 2 ^ 60 ≤ thrYr (berR fma x) c := by
    have h := thrYr_exp r0 r1 (by linarith) c1
    have he : (0.3 : ℝ) ≤ Real.exp (-berR fma x) := by
      have := Real.add_one_le_exp (-berR fma x)
      norm_num at r1 ⊢
      linarith
    have h2 : (2 : ℝ) ^ 63 * (1 / 2) * 0.3 ≤ 2 ^ 63 * c * Real.exp (-berR fma x) := by
      have := mul_le_mul c0 he (by norm_num) (by linarith)
      nlinarith
    have h3 := (abs_le.mp h).1
    have : ((2 ^ 60 : ℕ) : ℝ) ≤ thrYr (berR fma x) c := by
      push_cast
      generalize (thrYr (berR fma x) c : ℝ) = Y at *
      norm_num at h2 h3 ⊢
      linarith
    exact_mod_cast this
  have h60 : min (berS x).toNat 63 ≤ 60 := by omega
  rw [Nat.le_div_iff_mul_le (by positivity), one_mul]
  have : (2 : ℕ) ^ min (berS x).toNat 63 ≤ 2 ^ 60 := Nat.pow_le_pow_right (by norm_num) h60
  omega

/-- Nine bytes on which the base sampler returns `z0`. -/
def baseWord (z0 : ℕ) : List UInt8 := (List.range 9).map fun i => UInt8.ofNat (pdtTail (z0 + 1) / 256 ^ i % 256)

theorem baseWord_val : ∀ z0, z0 < 19 → (baseSampler (fun i => (baseWord z0).getD i 0)).toNat = z0 := by
  decide +kernel

/-- Bytes from which the sampler draws `z` at once. -/
theorem sample_word {fma : Bool} {n : ℕ} (hn : ValidLog n) (z : ℤ) (h1 : -18 ≤ z) (h2 : z ≤ 19) : ∃ w : List UInt8,
    ∀ (stream : ℕ → UInt8) (fuel pos : ℕ), Reads stream pos w →
      samplerz fma 0 keySigma (sigmaMin n) stream (fuel + 1) pos = some (.ok (z, pos + w.length)) := by
  obtain ⟨b, z0, hz0, hz⟩ : ∃ (b : Bool) (z0 : ℕ), z0 ≤ 18 ∧ szZ b z0 = z := by
    rcases le_or_gt z 0 with h | h
    · exact ⟨false, z.natAbs, by omega, by simp only [szZ, Bool.false_eq_true, if_false]; omega⟩
    · exact ⟨true, (z - 1).natAbs, by omega, by simp only [szZ, if_true]; omega⟩
  have hx0 := szX_nonneg 0 keySigma b z0 hz0 (zpow_500_le.trans keySigma_bounds.1) keySigma_bounds.2
  obtain ⟨c0, c1⟩ := key_ccs hn
  have hthr := thrF_pos (fma := fma) hx0 (szX_key b hz0) (key_safe fma b hz0 hx0 (by have := szX_key b hz0; linarith)) c0 c1
  obtain ⟨L, -, -, hl⟩ := berLoop_zeros (z := thrF fma (szX 0 keySigma b z0) (fdiv (sigmaMin n) keySigma)) 7 le_rfl (by
    rw [Nat.mod_eq_of_lt (by
      have := (thrF fma (szX 0 keySigma b z0) (fdiv (sigmaMin n) keySigma)).toNat_lt; norm_num at this ⊢; exact this)]
    exact hthr)
  refine ⟨baseWord z0 ++ ([if b then 1 else 0] ++ List.replicate L 0), fun stream fuel pos h => ?_⟩
  have hlen : (baseWord z0).length = 9 := by simp [baseWord]
  have r1 := h.left
  have r2 := h.right.left
  have r3 := h.right.right
  rw [hlen] at r2 r3
  have e0 : (baseSampler (fun i => stream (pos + i))).toNat = z0 := by
    rw [baseSampler_congr _ (fun i => (baseWord z0).getD i 0) (fun i hi => r1 i (by omega))]
    exact baseWord_val z0 (by omega)
  have e1 : (stream (pos + 9) &&& 1 == 1) = b := by
    have := r2 0 (by simp)
    rw [Nat.add_zero] at this
    rw [this]
    cases b <;> decide
  have e2 := hl stream (pos + 10) (fun i hi => by
    have := r3 i (by simpa using hi)
    rw [List.length_singleton, show pos + 9 + 1 + i = pos + 10 + i by ring] at this
    rw [this]
    simp [hi])
  rw [samplerz, szIter_key fma hn stream pos z0 _ _ e0 e1 e2.symm]
  simp [hlen, hz]
  omega

theorem coeff_word {fma : Bool} {n : ℕ} (hn : ValidLog n) : ∀ (k : ℕ) (v : ℤ), -18 * (k : ℤ) ≤ v → v ≤ 19 * k → k ≤ 100 →
    ∃ w : List UInt8, ∀ (stream : ℕ → UInt8) (fuel pos : ℕ) (res : ℤ), |res| ≤ 10000 - 19 * k → Reads stream pos w →
      genCoeff fma n stream (fuel + 1) k res pos = some (.ok (res + v, pos + w.length)) := by
  intro k
  induction k with
  | zero =>
    intro v h1 h2 _
    refine ⟨[], fun stream fuel pos res _ _ => ?_⟩
    have : v = 0 := by push_cast at h1 h2; omega
    rw [genCoeff, this]; simp
  | succ k ih =>
    intro v h1 h2 hk
    push_cast at h1 h2
    obtain ⟨z, hz1, hz2, hz3, hz4⟩ : ∃ z : ℤ, -18 ≤ z ∧ z ≤ 19 ∧ -18 * (k : ℤ) ≤ v - z ∧ v - z ≤ 19 * k := by
      rcases le_or_gt v (19 * k - 18) with h | h
      · exact ⟨-18, by omega, by omega, by omega, by omega⟩
      · exact ⟨v - 19 * k, by omega, by omega, by omega, by omega⟩
    obtain ⟨w1, hw1⟩ := sample_word (fma := fma) hn z hz1 hz2
    obtain ⟨w2, hw2⟩ := ih (v - z) hz3 hz4 (by omega)
    refine ⟨w1 ++ w2, fun stream fuel pos res hr h => ?_⟩
    push_cast at hr
    obtain ⟨hr1, hr2⟩ := abs_le.mp hr
    rw [genCoeff, hw1 stream fuel pos h.left, bindO_pure]
    have : i32 .strict (res + z) = .ok (res + z) := by
      unfold i32
      rw [if_pos (by constructor <;> norm_num <;> omega)]
    simp only [this]
    rw [hw2 stream fuel _ (res + z) (abs_le.mpr ⟨by omega, by omega⟩) h.right, List.length_append]
    rw [show res + z + (v - z) = res + v by ring, add_assoc]

theorem poly_word {fma : Bool} {n : ℕ} (hn : ValidLog n) (a : Mem ℤ) : ∀ (m i : ℕ),
    (∀ j, i ≤ j → j < i + m → -18 * ((4096 / 2 ^ n : ℕ) : ℤ) ≤ a j ∧ a j ≤ 19 * (4096 / 2 ^ n : ℕ)) →
    ∃ w : List UInt8, ∀ (stream : ℕ → UInt8) (fuel pos : ℕ) (poly : Mem ℤ), Reads stream pos w →
      ∃ r, genPolyLoop fma n stream (fuel + 1) m i poly pos = some (.ok (r, pos + w.length)) ∧
        (∀ j, i ≤ j → j < i + m → r j = a j) ∧ ∀ j, j < i → r j = poly j := by
  intro m
  induction m with
  | zero =>
    intro i _
    exact ⟨[], fun stream fuel pos poly _ => ⟨poly, rfl, fun j h1 h2 => by omega, fun _ _ => rfl⟩⟩
  | succ m ih =>
    intro i ha
    obtain ⟨h1, h2⟩ := ha i le_rfl (by omega)
    obtain ⟨w1, hw1⟩ := coeff_word (fma := fma) hn (4096 / 2 ^ n) (a i) h1 h2 (by rcases hn with rfl | rfl <;> norm_num)
    obtain ⟨w2, hw2⟩ := ih (i + 1) (fun j h1 h2 => ha j (by omega) (by omega))
    refine ⟨w1 ++ w2, fun stream fuel pos poly h => ?_⟩
    obtain ⟨r, hr1, hr2, hr3⟩ := hw2 stream fuel (pos + w1.length) (upd poly i (a i)) h.right
    refine ⟨r, ?_, fun j hj hj' => ?_, fun j hj => ?_⟩
    · rw [genPolyLoop, one_shiftLeft', hw1 stream fuel pos 0 (by rcases hn with rfl | rfl <;> norm_num) h.left, bindO_pure]
      simp only [zero_add]
      rw [hr1, List.length_append, add_assoc]
    · by_cases e : j = i
      · rw [e, hr3 i (by omega), upd_same]
      · exact hr2 j (by omega) (by omega)
    · rw [hr3 j (by omega), upd_ne _ i j _ (by omega)]

/-- Bytes from which `gen_poly` draws a given polynomial. -/
theorem genPoly_word {fma : Bool} {n : ℕ} (hn : ValidLog n) (a : Mem ℤ)
    (ha : ∀ j, j < 2 ^ n → -18 * ((4096 / 2 ^ n : ℕ) : ℤ) ≤ a j ∧ a j ≤ 19 * (4096 / 2 ^ n : ℕ)) :
    ∃ w : List UInt8, ∀ (stream : ℕ → UInt8) (fuel pos : ℕ) (poly : Mem ℤ), Reads stream pos w →
      ∃ r, genPoly fma n stream (fuel + 1) poly pos = some (.ok (r, pos + w.length)) ∧ ∀ j, j < 2 ^ n → r j = a j := by
  obtain ⟨w, hw⟩ := poly_word (fma := fma) hn a (1 <<< n) 0 (fun j _ h => ha j (by rw [one_shiftLeft'] at h; omega))
  refine ⟨w, fun stream fuel pos poly h => ?_⟩
  obtain ⟨r, h1, h2, -⟩ := hw stream fuel pos poly h
  exact ⟨r, h1, fun j hj => h2 j (by omega) (by rw [one_shiftLeft']; omega)⟩

/-- The other direction: the range of what is drawn. -/
theorem coeff_exact {n : ℕ} {fma : Bool} {stream : ℕ → UInt8} {fuel : ℕ} : ∀ {k : ℕ} {res : ℤ} {pos : ℕ} {r : ℤ × ℕ},
    genCoeff fma n stream fuel k res pos = some (.ok r) → res - 18 * k ≤ r.1 ∧ r.1 ≤ res + 19 * k := by
  intro k
  induction k with
  | zero => intro res pos r h; rw [genCoeff] at h; cases h; simp
  | succ k ih =>
    intro res pos r h
    rw [genCoeff] at h
    obtain ⟨z, hz, h⟩ := bindO_ok h
    have hr := samplerz_range (by simp) (by simp) hz
    simp only [Int.floor_zero] at hr
    cases hi : i32 .strict (res + z.1) with
    | error e => rw [hi] at h; cases h
    | ok v =>
      rw [hi] at h
      have hv : v = res + z.1 := by
        unfold i32 at hi
        split at hi
        · cases hi; rfl
        · cases hi
      have := ih h
      push_cast
      omega

theorem poly_exact {n : ℕ} {fma : Bool} {stream : ℕ → UInt8} {fuel : ℕ} : ∀ {m i : ℕ} {poly : Mem ℤ} {pos : ℕ}
    {r : Mem ℤ × ℕ}, genPolyLoop fma n stream fuel m i poly pos = some (.ok r) →
      (∀ j, i ≤ j → j < i + m → -18 * ((4096 / 2 ^ n : ℕ) : ℤ) ≤ r.1 j ∧ r.1 j ≤ 19 * (4096 / 2 ^ n : ℕ)) ∧
      ∀ j, j < i → r.1 j = poly j := by
  intro m
  induction m with
  | zero => intro i poly pos r h; rw [genPolyLoop] at h; cases h; exact ⟨fun j h1 h2 => by omega, fun _ _ => rfl⟩
  | succ m ih =>
    intro i poly pos r h
    rw [genPolyLoop] at h
    obtain ⟨z, hz, h⟩ := bindO_ok h
    rw [one_shiftLeft'] at hz
    have h0 := coeff_exact hz
    obtain ⟨h1, h2⟩ := ih h
    refine ⟨fun j hj hj' => ?_, fun j hj => by rw [h2 j (by omega), upd_ne _ i j _ (by omega)]⟩
    by_cases e : j = i
    · rw [e, h2 i (by omega), upd_same]
      constructor <;> omega
    · exact h1 j (by omega) (by omega)

end Falcon
