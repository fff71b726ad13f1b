import Verif.Proofs.SamplerTree
import Verif.Proofs.GaussSum
import Verif.Proofs.SamplerDist

/-! # The distribution of the integer sampler -/

namespace Falcon

open BTree

/-- The parameters for which the sampler is analysed. -/
structure SzOk (fma : Bool) (mu sigma sigmin : ℝ) : Prop where
  m0 : -2147483630 ≤ ⌊mu⌋
  m1 : ⌊mu⌋ < 2147483629
  s0 : 6 / 5 ≤ sigmin
  s1 : sigmin ≤ sigma
  s2 : sigma ≤ sigmaMax
  safe : ∀ b z0, z0 ≤ 18 → SafeRed fma (szX mu sigma b z0)

namespace BTree

theorem mean_congr {α : Type} {t : BTree α} {n : ℕ} (hd : Depth t n) {g h : α → ℝ}
    (H : ∀ s, g (run t s 0).1 = h (run t s 0).1) : mean t g = mean t h := by
  rw [← mean_eq hd, ← mean_eq hd]
  exact congrArg (· / 256 ^ n) (Finset.sum_congr rfl fun v _ => H _)

theorem mean_sum {α ι : Type} (t : BTree α) (S : Finset ι) (g : ι → α → ℝ) :
    mean t (fun a => ∑ i ∈ S, g i a) = ∑ i ∈ S, mean t (g i) := by
  classical
  induction S using Finset.induction_on with
  | empty => simp only [Finset.sum_empty]; exact mean_const t 0
  | insert i S hi ih => simp only [Finset.sum_insert hi, mean_add, ih]

end BTree

section
variable {fma : Bool} {mu sigma sigmin : ℝ}

/-- Probability that one iteration returns floor mu + k. -/
noncomputable def szP (fma : Bool) (mu sigma sigmin : ℝ) (k : ℤ) : ℝ :=
  open Classical in mean (szTree fma mu sigma sigmin) fun a => if a = .ok (some (⌊mu⌋ + k)) then 1 else 0

/-- Probability that one iteration returns something. -/
noncomputable def szAcc (fma : Bool) (mu sigma sigmin : ℝ) : ℝ := ∑ k ∈ Win, szP fma mu sigma sigmin k

theorem szTree_support (h : SzOk fma mu sigma sigmin) (s : ℕ → UInt8) :
    (run (szTree fma mu sigma sigmin) s 0).1 = .ok none ∨
      ∃ k ∈ Win, (run (szTree fma mu sigma sigmin) s 0).1 = .ok (some (⌊mu⌋ + k)) := by
  have hM : sigmaMax ≤ 2 := by rw [sigmaMax_eq]; norm_num
  have heq := szIterF_eq (fma := fma) (mu := mu) (sigma := sigma) (sigmin := sigmin) s 0 h.m0 h.m1
    (h.s0.trans h.s1) h.s2 (by linarith [h.s0]) (by linarith [h.s1, h.s2])
    _ _ _ rfl rfl (h.safe _ _ (baseSampler_le _)) rfl
  rw [szIter_tree] at heq
  obtain ⟨z1, z2⟩ := szZ_bounds (s (0 + 9) &&& 1 == 1) _ (baseSampler_le fun i => s (0 + i))
  generalize szZ (s (0 + 9) &&& 1 == 1) (baseSampler fun i => s (0 + i)).toNat = k at *
  generalize run (szTree fma mu sigma sigmin) s 0 = a at *
  obtain ⟨a, q⟩ := a
  simp only at heq ⊢
  cases a with
  | error e => cases heq
  | ok a =>
    have := (Prod.ext_iff.mp (Except.ok.inj heq)).1
    simp only at this
    rw [this]
    split
    · exact .inr ⟨k, mem_Win.mpr ⟨z1, z2⟩, by rw [Int.add_comm]⟩
    · exact .inl rfl

theorem mean_szTree (h : SzOk fma mu sigma sigmin) (g : Except UB (Option ℤ) → ℝ) :
    mean (szTree fma mu sigma sigmin) g = ∑ k ∈ Win, szP fma mu sigma sigmin k * g (.ok (some (⌊mu⌋ + k)))
      + (1 - szAcc fma mu sigma sigmin) * g (.ok none) := by
  classical
  have key : ∀ g : Except UB (Option ℤ) → ℝ, mean (szTree fma mu sigma sigmin) g =
      ∑ k ∈ Win, szP fma mu sigma sigmin k * g (.ok (some (⌊mu⌋ + k)))
      + mean (szTree fma mu sigma sigmin) (fun a => if a = .ok none then 1 else 0) * g (.ok none) := by
    intro g
    have e1 : mean (szTree fma mu sigma sigmin) g = mean (szTree fma mu sigma sigmin) fun a =>
        ∑ k ∈ Win, g (.ok (some (⌊mu⌋ + k))) * (if a = .ok (some (⌊mu⌋ + k)) then 1 else 0)
          + g (.ok none) * (if a = .ok none then 1 else 0) := by
      refine mean_congr (depth_szTree _ _ _ _) fun s => ?_
      rcases szTree_support h s with h1 | ⟨k, hk, h1⟩
      · rw [h1, if_pos rfl, Finset.sum_eq_zero fun k _ => by rw [if_neg (by simp), mul_zero]]
        ring
      · rw [h1, if_neg (by simp), Finset.sum_eq_single k]
        · rw [if_pos rfl]; ring
        · intro j _ hj
          rw [if_neg, mul_zero]
          intro hc
          have := Option.some.inj (Except.ok.inj hc)
          exact hj (by omega)
        · intro hc; exact absurd hk hc
    rw [e1, mean_add, mean_sum, mean_smul, mul_comm (g _)]
    refine congrArg (· + _) (Finset.sum_congr rfl fun k _ => ?_)
    rw [mean_smul, mul_comm]
    rfl
  have h1 := key fun _ => 1
  rw [mean_const] at h1
  rw [key g]
  have : mean (szTree fma mu sigma sigmin) (fun a => if a = .ok none then 1 else 0) = 1 - szAcc fma mu sigma sigmin := by
    unfold szAcc
    simp only [mul_one] at h1
    linarith
  rw [this]

theorem szP_nonneg (k : ℤ) : 0 ≤ szP fma mu sigma sigmin k := by
  classical
  have := mean_mono (szTree fma mu sigma sigmin) (g := fun _ => 0)
    (h := fun a => if a = .ok (some (⌊mu⌋ + k)) then 1 else 0) fun a => by split <;> norm_num
  rw [mean_const] at this
  exact this

theorem szAcc_le_one (h : SzOk fma mu sigma sigmin) : szAcc fma mu sigma sigmin ≤ 1 := by
  classical
  have h1 := mean_szTree h fun a => if a = .ok none then 1 else 0
  have := mean_mono (szTree fma mu sigma sigmin) (g := fun _ => 0)
    (h := fun a => if a = .ok none then 1 else 0) fun a => by split <;> norm_num
  rw [mean_const, h1] at this
  rw [if_pos rfl, Finset.sum_eq_zero fun k _ => by rw [if_neg (by simp), mul_zero]] at this
  linarith

theorem szGeo_step (A : ℝ) (m : ℕ) :
    1 + (1 - A) * ∑ i ∈ Finset.range m, (1 - A) ^ i = ∑ i ∈ Finset.range (m + 1), (1 - A) ^ i := by
  rw [Finset.sum_range_succ', Finset.mul_sum, pow_zero, add_comm]
  refine congrArg (· + 1) (Finset.sum_congr rfl fun i _ => ?_)
  rw [pow_succ']

/-- The output and the number of iterations are independent: exact distribution after m iterations. -/
theorem mean_smpTree (h : SzOk fma mu sigma sigmin) (m : ℕ) (g : Option (Except UB ℤ) → ℝ) :
    mean (smpTree fma mu sigma sigmin m) g =
      (∑ i ∈ Finset.range m, (1 - szAcc fma mu sigma sigmin) ^ i) *
        ∑ k ∈ Win, szP fma mu sigma sigmin k * g (some (.ok (⌊mu⌋ + k)))
      + (1 - szAcc fma mu sigma sigmin) ^ m * g none := by
  induction m with
  | zero => simp [smpTree, mean]
  | succ m ih =>
    rw [smpTree, mean_bind, mean_szTree h]
    simp only [mean]
    rw [ih, ← szGeo_step, pow_succ']
    ring

/-! ## One iteration compared with the Gaussian -/

theorem szP_eq_count (k : ℤ) : open Classical in
    szP fma mu sigma sigmin k = ((Finset.univ.filter fun v : Fin 18 → UInt8 =>
        ∃ p, szIter fma mu sigma sigmin (memOf v) 0 = .ok (some (⌊mu⌋ + k), p)).card : ℝ) / 2 ^ 144 := by
  classical
  have h := freq_eq (depth_szTree fma mu sigma sigmin) fun a => a = .ok (some (⌊mu⌋ + k))
  unfold szP
  rw [← h, freq, show (256 : ℝ) ^ 18 = 2 ^ 144 by norm_num]
  refine congrArg (fun n : ℕ => (n : ℝ) / 2 ^ 144) (congrArg Finset.card ?_)
  ext v
  simp only [Finset.mem_filter, Finset.mem_univ, true_and]
  rw [szIter_tree]
  generalize run (szTree fma mu sigma sigmin) (memOf v) 0 = a
  obtain ⟨a, q⟩ := a
  constructor
  · intro h
    simp only at h
    rw [h]
    exact ⟨q, rfl⟩
  · rintro ⟨p, hp⟩
    cases a with
    | error e => cases hp
    | ok a => exact congrArg Except.ok (Prod.ext_iff.mp (Except.ok.inj hp)).1

theorem pdt_win : ∑ k ∈ Win, (pdtSpec.getD (offBase k) 0 : ℝ) / 2 ^ 73 = 1 := by
  unfold Win
  rw [Finset.sum_image fun (a : ℕ) _ (b : ℕ) _ (h : (a : ℤ) - 18 = b - 18) => by omega]
  have h : ∑ i ∈ Finset.range 38, pdtSpec.getD (offBase ((i : ℤ) - 18)) 0 = 2 ^ 73 := by decide +kernel
  rw [← Finset.sum_div, ← Nat.cast_sum, h]
  norm_num

/-- The factor between weight and probability. -/
noncomputable def szScale (sigma sigmin : ℝ) : ℝ := fdiv sigmin sigma / (2 * gC)

theorem ccs_le (h : SzOk fma mu sigma sigmin) : 0 ≤ fdiv sigmin sigma ∧ fdiv sigmin sigma ≤ 1 := by
  have hs := h.s0; have hs1 := h.s1
  constructor
  · have r : Rep (0 : ℝ) := ⟨0, 0, by norm_num, by norm_num, by norm_num⟩
    exact le_rnd_of_rep r (div_nonneg (by linarith) (by linarith))
  · have r : Rep (1 : ℝ) := ⟨1, 0, by norm_num, by norm_num, by norm_num⟩
    refine rnd_le_of_rep r ?_
    rw [div_le_one (by linarith)]
    exact hs1

theorem szScale_bounds (h : SzOk fma mu sigma sigmin) : 0 ≤ szScale sigma sigmin ∧ szScale sigma sigmin ≤ 1 / 5 := by
  obtain ⟨c0, c1⟩ := ccs_le h
  have hg := gC_num.1
  unfold szScale
  constructor
  · exact div_nonneg c0 (by linarith)
  · rw [div_le_div_iff₀ (by linarith) (by norm_num)]; linarith

theorem szP_ideal (h : SzOk fma mu sigma sigmin) (k : ℤ) (hk : k ∈ Win) :
    |szP fma mu sigma sigmin k - szScale sigma sigmin * gaussW (mu - ⌊mu⌋) sigma k|
      ≤ (pdtSpec.getD (offBase k) 0 : ℝ) / 2 ^ 73 * (1 / 2 ^ 41) + 1 / 2 ^ 59 := by
  classical
  obtain ⟨k0, k1⟩ := mem_Win.mp hk
  have hd := szIter_dist h.m0 h.m1 h.s0 h.s1 h.s2 h.safe k k0 k1
  rw [← szP_eq_count] at hd
  have hb : offBase k ≤ 18 := by unfold offBase; split <;> omega
  have ht := table_accurate hb
  obtain ⟨c0, c1⟩ := ccs_le h
  have hgC := gC_num.1
  have hr0 : 0 ≤ mu - ⌊mu⌋ := by linarith [Int.floor_le mu]
  have hr1 : mu - ⌊mu⌋ < 1 := by linarith [Int.lt_floor_add_one mu]
  have hs0 : 0 < sigma := by linarith [h.s0, h.s1]
  have hW : gaussW (mu - ⌊mu⌋) sigma k ≤ gA ^ (offBase k ^ 2) := by
    refine gaussW_le hs0 h.s2 k _ ?_
    unfold offBase
    split
    · rename_i hk1
      refine le_trans ?_ (le_abs_self _)
      have : (((k - 1).toNat : ℕ) : ℝ) = k - 1 := by
        rw [← Int.cast_natCast, Int.toNat_of_nonneg (by omega)]; push_cast; ring
      rw [this]; linarith
    · rename_i hk1
      refine le_trans ?_ (neg_le_abs _)
      have : (((-k).toNat : ℕ) : ℝ) = -k := by
        rw [← Int.cast_natCast, Int.toNat_of_nonneg (by omega)]; push_cast; ring
      rw [this]; linarith
  have hW0 := gaussW_pos (mu - ⌊mu⌋) sigma k
  have he : Real.exp (-(((k : ℝ) - (mu - ⌊mu⌋)) ^ 2 / (2 * sigma ^ 2) - (offBase k : ℝ) ^ 2 / (2 * sigmaMax ^ 2)))
      = gaussW (mu - ⌊mu⌋) sigma k / gA ^ (offBase k ^ 2) := by
    unfold gaussW gA
    rw [← Real.exp_nat_mul, ← Real.exp_sub]
    congr 1
    push_cast
    ring
  rw [he] at hd
  have hg0 : 0 < gA ^ (offBase k ^ 2) := pow_pos gA_pos _
  unfold szScale
  generalize gaussW (mu - ⌊mu⌋) sigma k = W at *
  generalize gA ^ (offBase k ^ 2) = a at *
  generalize fdiv sigmin sigma = ccs at *
  have hq0 : 0 ≤ W / a := by positivity
  have hq1 : W / a ≤ 1 := by rw [div_le_one hg0]; exact hW
  have h2 : |(pdtSpec.getD (offBase k) 0 : ℝ) / 2 ^ 73 * (ccs * (W / a)) - ccs / (2 * gC) * W| ≤ 1 / 2 ^ 59 := by
    have e : (pdtSpec.getD (offBase k) 0 : ℝ) / 2 ^ 73 * (ccs * (W / a)) - ccs / (2 * gC) * W
        = ccs * (W / a) * (1 / (2 * gC)) * ((pdtSpec.getD (offBase k) 0 : ℝ) / 2 ^ 72 * gC - a) := by
      have : gC ≠ 0 := by linarith
      field_simp
    rw [e, abs_mul]
    have hf0 : 0 ≤ ccs * (W / a) * (1 / (2 * gC)) := by positivity
    have hf1 : ccs * (W / a) * (1 / (2 * gC)) ≤ 1 / 4 := by
      have : 1 / (2 * gC) ≤ 1 / 4 := one_div_le_one_div_of_le (by norm_num) (by linarith)
      have h3 : ccs * (W / a) ≤ 1 := by nlinarith
      calc _ ≤ 1 * (1 / (4 : ℝ)) := mul_le_mul h3 this (by positivity) (by norm_num)
        _ = _ := by norm_num
    rw [abs_of_nonneg hf0]
    calc _ ≤ 1 / 4 * (1 / 2 ^ 57 : ℝ) := mul_le_mul hf1 ht (abs_nonneg _) (by norm_num)
      _ = _ := by norm_num
  exact tri hd h2

/-- One iteration compared with the Gaussian, for every bounded test function of the offset. -/
theorem szP_mean (h : SzOk fma mu sigma sigmin) (g : ℤ → ℝ) (g0 : ∀ k, 0 ≤ g k) (g1 : ∀ k, g k ≤ 1) :
    |∑ k ∈ Win, szP fma mu sigma sigmin k * g k
      - szScale sigma sigmin * ∑' k : ℤ, gaussW (mu - ⌊mu⌋) sigma k * g k| ≤ 1 / 2 ^ 41 + 1 / 2 ^ 52 := by
  have hs0 : 0 < sigma := by linarith [h.s0, h.s1]
  have hr0 : 0 ≤ mu - ⌊mu⌋ := by linarith [Int.floor_le mu]
  have hr1 : mu - ⌊mu⌋ < 1 := by linarith [Int.lt_floor_add_one mu]
  obtain ⟨w0, w1⟩ := szScale_bounds h
  have hsum := summable_gaussW (mu - ⌊mu⌋) hs0
  have htail := gauss_tail hr0 hr1 hs0 h.s2
  have hnn := fun k => (gaussW_pos (mu - ⌊mu⌋) sigma k).le
  have hid := szP_ideal h
  generalize mu - ⌊mu⌋ = r at *
  generalize szScale sigma sigmin = w at *
  have hle : ∀ k, gaussW r sigma k * g k ≤ gaussW r sigma k := fun k =>
    mul_le_of_le_one_right (hnn k) (g1 k)
  have sg : Summable fun k => gaussW r sigma k * g k :=
    Summable.of_nonneg_of_le (fun k => mul_nonneg (hnn k) (g0 k)) hle hsum
  have s1 : Summable fun k => if k ∈ Win then gaussW r sigma k * g k else 0 :=
    summable_of_ne_finset_zero (s := Win) fun b hb => by rw [if_neg hb]
  have s3 : Summable fun k => if k ∈ Win then 0 else gaussW r sigma k := by
    refine Summable.of_nonneg_of_le (fun k => ?_) (fun k => ?_) hsum
    · split
      · exact le_rfl
      · exact hnn k
    · split
      · exact hnn k
      · exact le_rfl
  have s2 : Summable fun k => if k ∈ Win then 0 else gaussW r sigma k * g k := by
    refine Summable.of_nonneg_of_le (fun k => ?_) (fun k => ?_) s3
    · split
      · exact le_rfl
      · exact mul_nonneg (hnn k) (g0 k)
    · split
      · exact le_rfl
      · exact hle k
  have e1 : ∑' k : ℤ, gaussW r sigma k * g k = ∑ k ∈ Win, gaussW r sigma k * g k
      + ∑' k : ℤ, (if k ∈ Win then 0 else gaussW r sigma k * g k) := by
    have : ∑' k : ℤ, (if k ∈ Win then gaussW r sigma k * g k else 0) = ∑ k ∈ Win, gaussW r sigma k * g k := by
      rw [tsum_eq_sum (s := Win) fun b hb => by rw [if_neg hb]]
      exact Finset.sum_congr rfl fun k hk => by rw [if_pos hk]
    rw [← this, ← s1.tsum_add s2]
    refine tsum_congr fun k => ?_
    split <;> ring
  have t0 : 0 ≤ ∑' k : ℤ, (if k ∈ Win then 0 else gaussW r sigma k * g k) := tsum_nonneg fun k => by
    split
    · exact le_rfl
    · exact mul_nonneg (hnn k) (g0 k)
  have t1 : ∑' k : ℤ, (if k ∈ Win then 0 else gaussW r sigma k * g k) ≤ 1 / 2 ^ 73 := by
    refine (s2.tsum_le_tsum (fun k => ?_) s3).trans htail
    split
    · exact le_rfl
    · exact hle k
  rw [e1]
  generalize ∑' k : ℤ, (if k ∈ Win then 0 else gaussW r sigma k * g k) = T at *
  have e2 : |∑ k ∈ Win, szP fma mu sigma sigmin k * g k - w * ∑ k ∈ Win, gaussW r sigma k * g k|
      ≤ 1 / 2 ^ 41 + 38 * (1 / 2 ^ 59) := by
    rw [Finset.mul_sum, ← Finset.sum_sub_distrib]
    refine (Finset.abs_sum_le_sum_abs _ _).trans ?_
    have : ∀ k ∈ Win, |szP fma mu sigma sigmin k * g k - w * (gaussW r sigma k * g k)|
        ≤ (pdtSpec.getD (offBase k) 0 : ℝ) / 2 ^ 73 * (1 / 2 ^ 41) + 1 / 2 ^ 59 := fun k hk => by
      rw [← mul_assoc, ← sub_mul, abs_mul, abs_of_nonneg (g0 k)]
      exact (mul_le_of_le_one_right (abs_nonneg _) (g1 k)).trans (hid k hk)
    refine (Finset.sum_le_sum this).trans (le_of_eq ?_)
    have hc : Win.card = 38 := by decide +kernel
    rw [Finset.sum_add_distrib, ← Finset.sum_mul, pdt_win, one_mul, Finset.sum_const, nsmul_eq_mul, hc]
    norm_num
  have e3 : |w * T| ≤ 1 / 5 * (1 / 2 ^ 73) := by
    rw [abs_of_nonneg (mul_nonneg w0 t0)]
    exact mul_le_mul w1 t1 t0 (by norm_num)
  rw [mul_add, ← sub_sub]
  generalize ∑ k ∈ Win, szP fma mu sigma sigmin k * g k - w * ∑ k ∈ Win, gaussW r sigma k * g k = X at *
  refine (abs_sub _ _).trans ((add_le_add e2 e3).trans ?_)
  norm_num

end
end Falcon
