import Verif.Proofs.ChiTable

/-! # The integer sampler compared with the Gaussian in relative terms: one call -/

namespace Falcon

open BTree Real

variable {fma : Bool} {mu sigma sigmin : ℝ}

theorem exp_15 : Real.exp 15 ≤ 2 ^ 22 := by
  have h1 := Real.exp_one_lt_d9
  have h2 : Real.exp 15 = Real.exp 1 ^ 15 := by rw [← Real.exp_nat_mul]; norm_num
  rw [h2]
  calc _ ≤ (2.7182818286 : ℝ) ^ 15 := pow_le_pow_left₀ (Real.exp_pos 1).le h1.le 15
    _ ≤ _ := by norm_num

theorem offBase_near {r : ℝ} (r0 : 0 ≤ r) (r1 : r < 1) (k : ℤ) :
    (offBase k : ℝ) ≤ |k - r| ∧ |k - r| ≤ (offBase k : ℝ) + 1 := by
  unfold offBase
  split
  · rename_i hk
    have : (((k - 1).toNat : ℕ) : ℝ) = k - 1 := by
      rw [← Int.cast_natCast, Int.toNat_of_nonneg (by omega)]; push_cast; ring
    have h1 : (1 : ℝ) ≤ k := by exact_mod_cast hk
    rw [this, abs_of_nonneg (by linarith)]
    constructor <;> linarith
  · rename_i hk
    have : (((-k).toNat : ℕ) : ℝ) = -k := by
      rw [← Int.cast_natCast, Int.toNat_of_nonneg (by omega)]; push_cast; ring
    have h1 : (k : ℝ) ≤ 0 := by
      have : k ≤ 0 := by omega
      exact_mod_cast this
    rw [this, abs_of_nonpos (by linarith)]
    constructor <;> linarith

/-- The exact probability of an offset in one iteration. -/
theorem szP_exact (h : SzOk fma mu sigma sigmin) (k : ℤ) (hk : k ∈ Win) :
    szP fma mu sigma sigmin k = (pdtSpec.getD (offBase k) 0 : ℝ) / 2 ^ 73 *
      (((thrF fma (szX mu sigma (offSign k) (offBase k)) (fdiv sigmin sigma)).toNat : ℝ) / 2 ^ 64) := by
  have hM : sigmaMax ≤ 2 := by rw [sigmaMax_eq]; norm_num
  obtain ⟨k0, k1⟩ := mem_Win.mp hk
  rw [szP_eq_count, szIter_count h.m0 h.m1 (h.s0.trans h.s1) h.s2 (by linarith [h.s0]) (by linarith [h.s1, h.s2]) h.safe k k0 k1]
  push_cast
  rw [div_mul_div_comm, div_eq_div_iff (by positivity) (by positivity)]
  ring

/-- The error of the threshold at offset k, squared and divided by the probability of acceptance. -/
theorem thr_chi (h : SzOk fma mu sigma sigmin) (hlo : 1.27 ≤ sigmin) (k : ℤ) (hk : k ∈ Win) :
    (((thrF fma (szX mu sigma (offSign k) (offBase k)) (fdiv sigmin sigma)).toNat : ℝ) / 2 ^ 64
        - fdiv sigmin sigma * (gaussW (mu - ⌊mu⌋) sigma k / gA ^ (offBase k ^ 2))) ^ 2
      * (gA ^ (offBase k ^ 2)) ^ 2 / gaussW (mu - ⌊mu⌋) sigma k ≤ 3 / 2 ^ 84 * gA ^ (offBase k ^ 2) + 1 / 2 ^ 90 := by
  have hM : sigmaMax ≤ 1.8206 := by rw [sigmaMax_eq]; norm_num
  have hM0 : 0 < sigmaMax := by rw [sigmaMax_eq]; norm_num
  have hs : 6 / 5 ≤ sigma := h.s0.trans h.s1
  have hs0 : 0 < sigma := by linarith
  obtain ⟨k0, k1⟩ := mem_Win.mp hk
  have hb : offBase k ≤ 18 := by unfold offBase; split <;> omega
  have r0 : 0 ≤ mu - ⌊mu⌋ := by linarith [Int.floor_le mu]
  have r1 : mu - ⌊mu⌋ < 1 := by linarith [Int.lt_floor_add_one mu]
  obtain ⟨n1, n2⟩ := offBase_near r0 r1 k
  have hX := szX_err mu sigma (offSign k) (offBase k) hb hs h.s2
  have hZ : szZ (offSign k) (offBase k) = k := (szZ_iff _ _ _).mpr ⟨rfl, rfl⟩
  rw [hZ] at hX
  have x0 := szX_nonneg mu sigma (offSign k) (offBase k) hb (zpow_500_le.trans hs) h.s2
  have x1 := szX_lt mu sigma (offSign k) (offBase k) hb hs
  have c0 : 1 / 2 ≤ fdiv sigmin sigma := by
    have r : Rep (1 / 2 : ℝ) := ⟨1, -1, by norm_num, by norm_num, by norm_num⟩
    refine le_rnd_of_rep r ?_
    rw [le_div_iff₀ hs0]
    linarith [h.s2]
  have c1 := (ccs_le h).2
  have hW : gaussW (mu - ⌊mu⌋) sigma k ≤ gA ^ (offBase k ^ 2) := gaussW_le hs0 h.s2 k _ n1
  have hW0 := gaussW_pos (mu - ⌊mu⌋) sigma k
  have ha0 : 0 < gA ^ (offBase k ^ 2) := pow_pos gA_pos _
  have he : gaussW (mu - ⌊mu⌋) sigma k / gA ^ (offBase k ^ 2) =
      Real.exp (-(((k : ℝ) - (mu - ⌊mu⌋)) ^ 2 / (2 * sigma ^ 2) - (offBase k : ℝ) ^ 2 / (2 * sigmaMax ^ 2))) := by
    unfold gaussW gA
    rw [← Real.exp_nat_mul, ← Real.exp_sub]
    congr 1
    push_cast
    ring
  have hq : ((k : ℝ) - (mu - ⌊mu⌋)) ^ 2 / (2 * sigma ^ 2) ≤ ((offBase k : ℝ) + 1) ^ 2 / 3.2258 := by
    refine div_le_div₀ (by positivity) ?_ (by norm_num) ?_
    · rw [← sq_abs]; exact pow_le_pow_left₀ (abs_nonneg _) n2 2
    · have : (1.27 : ℝ) ^ 2 ≤ sigma ^ 2 := pow_le_pow_left₀ (by norm_num) (by linarith [h.s1]) 2
      norm_num at this ⊢
      linarith
  have hm2 : sigmaMax ^ 2 ≤ 3.3146 := by
    calc sigmaMax ^ 2 ≤ 1.8206 ^ 2 := pow_le_pow_left₀ hM0.le hM 2
      _ ≤ _ := by norm_num
  have hz2 : (offBase k : ℝ) ^ 2 / 6.6292 ≤ (offBase k : ℝ) ^ 2 / (2 * sigmaMax ^ 2) :=
    div_le_div_of_nonneg_left (by positivity) (by positivity) (by linarith)
  have haW : (gA ^ (offBase k ^ 2)) ^ 2 / gaussW (mu - ⌊mu⌋) sigma k ≤ 2 ^ 22 := by
    refine le_trans (le_trans (le_of_eq ?_) (Real.exp_le_exp.mpr (?_ : ((k : ℝ) - (mu - ⌊mu⌋)) ^ 2 / (2 * sigma ^ 2)
      - 2 * ((offBase k : ℝ) ^ 2 / (2 * sigmaMax ^ 2)) ≤ 15))) exp_15
    · unfold gaussW gA
      rw [← pow_mul, ← Real.exp_nat_mul, ← Real.exp_sub]
      congr 1
      push_cast
      ring
    · refine le_trans (sub_le_sub hq (mul_le_mul_of_nonneg_left hz2 (by norm_num))) ?_
      generalize offBase k = z at hb
      interval_cases z <;> norm_num
  have hz12 : offBase k ≤ 12 → ((k : ℝ) - (mu - ⌊mu⌋)) ^ 2 / (2 * sigma ^ 2) - (offBase k : ℝ) ^ 2 / (2 * sigmaMax ^ 2) ≤ 43 := by
    intro h12
    refine (sub_le_sub hq hz2).trans ?_
    generalize offBase k = z at h12
    interval_cases z <;> norm_num
  have ha169 : 13 ≤ offBase k → gA ^ (offBase k ^ 2) ≤ 1 / 2 ^ 36 := fun h13 =>
    (pow_le_pow_of_le_one gA_pos.le gA_lt_one.le (by nlinarith : 169 ≤ offBase k ^ 2)).trans gA_169
  have hrep := rep_szX mu sigma (offSign k) (offBase k)
  have hsafe := h.safe (offSign k) (offBase k) hb
  generalize szX mu sigma (offSign k) (offBase k) = x at *
  generalize gaussW (mu - ⌊mu⌋) sigma k = W at *
  generalize (k - (mu - ⌊mu⌋)) ^ 2 / (2 * sigma ^ 2) - (offBase k : ℝ) ^ 2 / (2 * sigmaMax ^ 2) = X at *
  generalize gA ^ (offBase k ^ 2) = a at *
  generalize fdiv sigmin sigma = ccs at *
  have he0 := Real.exp_pos (-X)
  rw [← he] at he0
  have e1 : Real.exp (1 / 2 ^ 42) ≤ 1.01 := by
    have h := Real.add_one_le_exp (-0.001 : ℝ)
    have h2 : Real.exp (-0.001 : ℝ) * Real.exp 0.001 = 1 := by rw [← Real.exp_add]; norm_num
    have h3 := Real.exp_pos (0.001 : ℝ)
    calc Real.exp (1 / 2 ^ 42) ≤ Real.exp 0.001 := Real.exp_le_exp.mpr (by norm_num)
      _ ≤ 1.01 := by
        have : (0.999 : ℝ) * Real.exp 0.001 ≤ 1 := by
          rw [← h2]; exact mul_le_mul_of_nonneg_right (by norm_num at h ⊢; linarith) h3.le
        norm_num at this ⊢
        linarith
  have hmin : Real.exp (-min x X) ≤ 1.01 * (W / a) := by
    rw [he]
    have : X - 1 / 2 ^ 42 ≤ min x X := by
      rw [le_min_iff]
      rw [abs_le] at hX
      constructor
      · linarith [hX.1]
      · linarith [(by positivity : (0 : ℝ) ≤ 1 / 2 ^ 42)]
    calc _ ≤ Real.exp (1 / 2 ^ 42 + -X) := Real.exp_le_exp.mpr (by linarith)
      _ = Real.exp (1 / 2 ^ 42) * Real.exp (-X) := Real.exp_add _ _
      _ ≤ _ := mul_le_mul_of_nonneg_right e1 (Real.exp_pos _).le
  have hxe : Real.exp (-x) ≤ 1.01 * (W / a) := (Real.exp_le_exp.mpr (neg_le_neg (min_le_left x X))).trans hmin
  have hd : |ccs * Real.exp (-x) - ccs * (W / a)| ≤ 1.01 / 2 ^ 42 * (W / a) := by
    rw [← mul_sub, abs_mul, abs_of_nonneg (by linarith : 0 ≤ ccs), he]
    have := (exp_diff (a := x) (b := X)).trans (mul_le_mul hX hmin (Real.exp_pos _).le (by positivity))
    rw [he] at this
    calc _ ≤ 1 * |Real.exp (-x) - Real.exp (-X)| := mul_le_mul_of_nonneg_right c1 (abs_nonneg _)
      _ ≤ _ := by rw [one_mul]; exact this.trans (le_of_eq (by ring))
  have hs0 := berS_nonneg x0
  obtain ⟨s, hs'⟩ : ∃ s : ℕ, berS x = s := ⟨(berS x).toNat, by omega⟩
  have hfin : ∀ η : ℝ, 0 ≤ η → |((thrF fma x ccs).toNat : ℝ) / 2 ^ 64 - ccs * (W / a)| ≤ η * (W / a) + 1 / 2 ^ 64 →
      (((thrF fma x ccs).toNat : ℝ) / 2 ^ 64 - ccs * (W / a)) ^ 2 * a ^ 2 / W ≤ 2 * η ^ 2 * W + 1 / 2 ^ 105 := by
    intro η hη hT
    generalize ((thrF fma x ccs).toNat : ℝ) / 2 ^ 64 - ccs * (W / a) = E at *
    have h1 : E ^ 2 ≤ 2 * η ^ 2 * (W / a) ^ 2 + 2 / 2 ^ 128 := by
      rw [← sq_abs]
      calc |E| ^ 2 ≤ (η * (W / a) + 1 / 2 ^ 64) ^ 2 := pow_le_pow_left₀ (abs_nonneg _) hT 2
        _ ≤ 2 * (η * (W / a)) ^ 2 + 2 * (1 / 2 ^ 64) ^ 2 := by nlinarith [sq_nonneg (η * (W / a) - 1 / 2 ^ 64)]
        _ = _ := by ring
    calc E ^ 2 * a ^ 2 / W = E ^ 2 * (a ^ 2 / W) := by ring
      _ ≤ (2 * η ^ 2 * (W / a) ^ 2 + 2 / 2 ^ 128) * (a ^ 2 / W) := mul_le_mul_of_nonneg_right h1 (by positivity)
      _ = 2 * η ^ 2 * W + 2 / 2 ^ 128 * (a ^ 2 / W) := by field_simp
      _ ≤ 2 * η ^ 2 * W + 2 / 2 ^ 128 * 2 ^ 22 := by gcongr
      _ = _ := by norm_num
  rcases Nat.lt_or_ge s 64 with hlt | hge
  · have hT := thrF_rel hrep x0 x1 hsafe c0 c1 s hs' (by omega)
    have hT2 := tri hT hd
    refine (hfin (1.14 / 2 ^ 42) (by norm_num) (hT2.trans ?_)).trans ?_
    · have : (1 : ℝ) / 2 ^ 45 * Real.exp (-x) ≤ 1 / 2 ^ 45 * (1.01 * (W / a)) := by gcongr
      have e : (1 : ℝ) / 2 ^ 45 * (1.01 * (W / a)) + 1.01 / 2 ^ 42 * (W / a) ≤ 1.14 / 2 ^ 42 * (W / a) := by
        have : (1.01 / 2 ^ 45 + 1.01 / 2 ^ 42 : ℝ) * (W / a) ≤ 1.14 / 2 ^ 42 * (W / a) :=
          mul_le_mul_of_nonneg_right (by norm_num) he0.le
        refine le_trans (le_of_eq ?_) this
        ring
      linarith
    · have : 2 * (1.14 / 2 ^ 42 : ℝ) ^ 2 * W ≤ 3 / 2 ^ 84 * a :=
        mul_le_mul (by norm_num) hW hW0.le (by norm_num)
      refine add_le_add this (by norm_num)
  · have hT := thrF_far x1 hsafe c0 c1 s hs' hge
    have hx44 := x_ge_of_berS hrep x0 x1 (by omega)
    have hX43 : 43 < X := by
      rw [abs_le] at hX
      norm_num at hX
      linarith [hX.2]
    have h13 : 13 ≤ offBase k := by
      by_contra hc
      linarith [hz12 (by omega)]
    have hT2 := tri hT hd
    refine (hfin 1.02 (by norm_num) (hT2.trans ?_)).trans ?_
    · have : 1.01 * (W / a) + 1.01 / 2 ^ 42 * (W / a) ≤ 1.02 * (W / a) := by
        have : (1.01 + 1.01 / 2 ^ 42 : ℝ) * (W / a) ≤ 1.02 * (W / a) := mul_le_mul_of_nonneg_right (by norm_num) he0.le
        linarith
      linarith
    · have hx60 : Real.exp (-X) ≤ 1 / 2 ^ 58 := by
        calc Real.exp (-X) ≤ Real.exp (1 + -44) := Real.exp_le_exp.mpr (by linarith)
          _ = Real.exp 1 * Real.exp (-44) := Real.exp_add _ _
          _ ≤ 4 * (1 / 2 ^ 60) := mul_le_mul (by linarith [Real.exp_one_lt_d9]) exp_44 (Real.exp_pos _).le (by norm_num)
          _ = _ := by norm_num
      have hWs : W ≤ 1 / 2 ^ 94 := by
        have : W = W / a * a := by field_simp
        rw [this, he]
        calc _ ≤ (1 / 2 ^ 58 : ℝ) * (1 / 2 ^ 36) := mul_le_mul hx60 (ha169 h13) ha0.le (by norm_num)
          _ = _ := by norm_num
      have : 2 * (1.02 : ℝ) ^ 2 * W ≤ 2 * 1.02 ^ 2 * (1 / 2 ^ 94) := by gcongr
      have h2 : (0 : ℝ) ≤ 3 / 2 ^ 84 * a := by positivity
      have h3 : 2 * (1.02 : ℝ) ^ 2 * (1 / 2 ^ 94) + 1 / 2 ^ 105 ≤ 1 / 2 ^ 90 := by norm_num
      linarith

/-- The error of one offset, squared and divided by its weight. -/
theorem szP_chi (h : SzOk fma mu sigma sigmin) (hlo : 1.27 ≤ sigmin) (k : ℤ) (hk : k ∈ Win) :
    (szP fma mu sigma sigmin k - szScale sigma sigmin * gaussW (mu - ⌊mu⌋) sigma k) ^ 2 / gaussW (mu - ⌊mu⌋) sigma k ≤
      1 / 15 * (3 / 2 ^ 84 * gA ^ (offBase k ^ 2) + 1 / 2 ^ 90
        + ((pdtSpec.getD (offBase k) 0 : ℝ) / 2 ^ 72 * gC - gA ^ (offBase k ^ 2)) ^ 2 / gA ^ (offBase k ^ 2)) := by
  have ht := thr_chi h hlo k hk
  have hb : offBase k ≤ 18 := by
    obtain ⟨k0, k1⟩ := mem_Win.mp hk
    unfold offBase; split <;> omega
  have hr := tab_ratio hb
  have hs0 : 0 < sigma := by linarith [h.s0, h.s1]
  have r0 : 0 ≤ mu - ⌊mu⌋ := by linarith [Int.floor_le mu]
  have r1 : mu - ⌊mu⌋ < 1 := by linarith [Int.lt_floor_add_one mu]
  have hW : gaussW (mu - ⌊mu⌋) sigma k ≤ gA ^ (offBase k ^ 2) := gaussW_le hs0 h.s2 k _ (offBase_near r0 r1 k).1
  have hW0 := gaussW_pos (mu - ⌊mu⌋) sigma k
  have ha0 : 0 < gA ^ (offBase k ^ 2) := pow_pos gA_pos _
  obtain ⟨c0, c1⟩ := ccs_le h
  have hg := gC_num.1
  have hg0 : 0 < gC := by linarith
  rw [szP_exact h k hk]
  unfold szScale
  have e73 : (pdtSpec.getD (offBase k) 0 : ℝ) / 2 ^ 73 = (pdtSpec.getD (offBase k) 0 : ℝ) / 2 ^ 72 / 2 := by
    rw [div_div]; norm_num
  rw [e73]
  have hp0 : 0 ≤ (pdtSpec.getD (offBase k) 0 : ℝ) / 2 ^ 72 := div_nonneg (Nat.cast_nonneg _) (pow_nonneg (by norm_num) _)
  generalize (pdtSpec.getD (offBase k) 0 : ℝ) / 2 ^ 72 = p at *
  generalize gaussW (mu - ⌊mu⌋) sigma k = W at *
  generalize gA ^ (offBase k ^ 2) = a at *
  generalize fdiv sigmin sigma = ccs at *
  generalize ((thrF fma (szX mu sigma (offSign k) (offBase k)) ccs).toNat : ℝ) / 2 ^ 64 = T at *
  have e : p / 2 * T - ccs / (2 * gC) * W = p / 2 * (T - ccs * (W / a)) + (p * gC - a) * ccs * (W / a) / (2 * gC) := by
    field_simp
    ring
  rw [e]
  have h1 : (p / 2 * (T - ccs * (W / a)) + (p * gC - a) * ccs * (W / a) / (2 * gC)) ^ 2 ≤
      2 * (p / 2 * (T - ccs * (W / a))) ^ 2 + 2 * ((p * gC - a) * ccs * (W / a) / (2 * gC)) ^ 2 := by
    nlinarith [sq_nonneg (p / 2 * (T - ccs * (W / a)) - (p * gC - a) * ccs * (W / a) / (2 * gC))]
  refine (div_le_div_of_nonneg_right h1 hW0.le).trans ?_
  rw [add_div]
  have hp2 : p ^ 2 ≤ (1.01 / 2.78) ^ 2 * a ^ 2 := by
    have : p ≤ 1.01 / 2.78 * a := by
      have h5 : p * 2.78 ≤ p * gC := mul_le_mul_of_nonneg_left hg hp0
      rw [div_mul_eq_mul_div, le_div_iff₀ (by norm_num)]
      linarith
    calc p ^ 2 ≤ (1.01 / 2.78 * a) ^ 2 := pow_le_pow_left₀ hp0 this 2
      _ = _ := by ring
  have f1 : 2 * (p / 2 * (T - ccs * (W / a))) ^ 2 / W ≤ 1 / 15 * (3 / 2 ^ 84 * a + 1 / 2 ^ 90) := by
    calc 2 * (p / 2 * (T - ccs * (W / a))) ^ 2 / W = p ^ 2 * (1 / 2 * (T - ccs * (W / a)) ^ 2 / W) := by ring
      _ ≤ (1.01 / 2.78) ^ 2 * a ^ 2 * (1 / 2 * (T - ccs * (W / a)) ^ 2 / W) := mul_le_mul_of_nonneg_right hp2 (by positivity)
      _ = (1.01 / 2.78) ^ 2 / 2 * ((T - ccs * (W / a)) ^ 2 * a ^ 2 / W) := by ring
      _ ≤ 1 / 15 * (3 / 2 ^ 84 * a + 1 / 2 ^ 90) := mul_le_mul (by norm_num) ht (by positivity) (by norm_num)
  have f2 : 2 * ((p * gC - a) * ccs * (W / a) / (2 * gC)) ^ 2 / W ≤ 1 / 15 * ((p * gC - a) ^ 2 / a) := by
    have e2 : 2 * ((p * gC - a) * ccs * (W / a) / (2 * gC)) ^ 2 / W =
        1 / (2 * gC ^ 2) * (ccs ^ 2 * (W / a)) * ((p * gC - a) ^ 2 / a) := by
      field_simp
    rw [e2]
    refine mul_le_mul_of_nonneg_right ?_ (by positivity)
    have g1 : 1 / (2 * gC ^ 2) ≤ 1 / 15 := by
      refine one_div_le_one_div_of_le (by norm_num) ?_
      nlinarith
    have g2 : ccs ^ 2 * (W / a) ≤ 1 := by
      have : W / a ≤ 1 := by rw [div_le_one ha0]; exact hW
      calc _ ≤ (1 : ℝ) * 1 := mul_le_mul (by nlinarith) this (by positivity) (by norm_num)
        _ = 1 := one_mul 1
    calc _ ≤ 1 / 15 * (1 : ℝ) := mul_le_mul g1 g2 (by positivity) (by norm_num)
      _ = _ := mul_one _
  calc _ ≤ _ := add_le_add f1 f2
    _ = _ := by ring

theorem win_sum (g : ℕ → ℝ) : ∑ k ∈ Win, g (offBase k) = 2 * ∑ z ∈ Finset.range 19, g z := by
  unfold Win
  rw [Finset.sum_image fun (a : ℕ) _ (b : ℕ) _ (h : (a : ℤ) - 18 = b - 18) => by omega]
  rw [show (38 : ℕ) = 19 + 19 from rfl, Finset.sum_range_add, two_mul]
  refine congrArg₂ (· + ·) ?_ ?_
  · rw [← Finset.sum_range_reflect]
    refine Finset.sum_congr rfl fun i hi => ?_
    have := Finset.mem_range.mp hi
    congr 1
    unfold offBase
    rw [if_neg (by omega)]
    omega
  · refine Finset.sum_congr rfl fun i hi => ?_
    congr 1
    unfold offBase
    rw [if_pos (by push_cast; omega)]
    push_cast
    omega

theorem szP_chi_sum (h : SzOk fma mu sigma sigmin) (hlo : 1.27 ≤ sigmin) :
    ∑ k ∈ Win, (szP fma mu sigma sigmin k - szScale sigma sigmin * gaussW (mu - ⌊mu⌋) sigma k) ^ 2 / gaussW (mu - ⌊mu⌋) sigma k ≤
      1.5 / 2 ^ 84 := by
  refine (Finset.sum_le_sum fun k hk => szP_chi h hlo k hk).trans ?_
  rw [← Finset.mul_sum, Finset.sum_add_distrib, Finset.sum_add_distrib, ← Finset.mul_sum,
    win_sum fun z => gA ^ (z ^ 2), win_sum fun z => ((pdtSpec.getD z 0 : ℝ) / 2 ^ 72 * gC - gA ^ (z ^ 2)) ^ 2 / gA ^ (z ^ 2)]
  have hc : Win.card = 38 := by decide +kernel
  rw [Finset.sum_const, hc]
  have h1 := tab_sq
  have h2 : ∑ z ∈ Finset.range 19, gA ^ (z ^ 2) ≤ 2.79 := by
    have := gC_eq
    have h3 : 0 ≤ ∑' j : ℕ, gA ^ ((j + 19) ^ 2) := tsum_nonneg fun _ => (pow_pos gA_pos _).le
    linarith [gC_num.2]
  generalize ∑ z ∈ Finset.range 19, gA ^ (z ^ 2) = A at *
  generalize ∑ z ∈ Finset.range 19, ((pdtSpec.getD z 0 : ℝ) / 2 ^ 72 * gC - gA ^ (z ^ 2)) ^ 2 / gA ^ (z ^ 2) = B at *
  norm_num at h1 h2 ⊢
  linarith

/-- Acceptance probability and sum of the weights. -/
theorem acc_total (h : SzOk fma mu sigma sigmin) (hlo : 1.27 ≤ sigmin) (hhi : sigma ≤ 1.82) :
    (∑' z : ℤ, gaussW (mu - ⌊mu⌋) sigma z) / szAcc fma mu sigma sigmin ^ 2 ≤ 14.2 := by
  obtain ⟨p1, p2⟩ := sqrt_2pi
  have hgs := gauss_sum (mu - ⌊mu⌋) (h.s0.trans h.s1)
  have hac := szAcc_ideal h
  obtain ⟨g1, g2⟩ := gC_num
  have hT : ∑' z : ℤ, gaussW (mu - ⌊mu⌋) sigma z ≤ 1.82 * √(2 * π) * 1.0001 := by
    have h1 := (abs_le.mp hgs).2
    have h2 : sigma * √(2 * π) ≤ 1.82 * √(2 * π) := mul_le_mul_of_nonneg_right hhi (by linarith)
    have h3 : sigma * √(2 * π) * (1 / 2 ^ 38) ≤ 1.82 * √(2 * π) * (1 / 2 ^ 38) := mul_le_mul_of_nonneg_right h2 (by norm_num)
    norm_num at *
    linarith
  have hA : 1.27 * √(2 * π) / 5.58 - 1 / 2 ^ 38 ≤ szAcc fma mu sigma sigmin := by
    have h1 := (abs_le.mp hac).1
    have h2 : 1.27 * √(2 * π) / 5.58 ≤ accIdeal sigmin := by
      unfold accIdeal
      rw [gC_exp]
      refine div_le_div₀ (by have := h.s0; positivity) (mul_le_mul_of_nonneg_right hlo (by linarith)) (by linarith) (by linarith)
    linarith
  have hA0 : 0 < szAcc fma mu sigma sigmin := by linarith [szAcc_ge h]
  rw [div_le_iff₀ (by positivity)]
  have hA' : 0.2275 * √(2 * π) ≤ szAcc fma mu sigma sigmin := by
    refine le_trans ?_ hA
    norm_num at p1 ⊢
    linarith
  have h2 : (0.2275 * √(2 * π)) ^ 2 ≤ szAcc fma mu sigma sigmin ^ 2 := pow_le_pow_left₀ (by positivity) hA' 2
  refine hT.trans ?_
  have h3 : (2.506 : ℝ) ≤ √(2 * π) := by
    refine Real.le_sqrt_of_sq_le ?_
    have := Real.pi_gt_d4
    norm_num at this ⊢; linarith
  generalize √(2 * π) = w at *
  have : 1.82 * w * 1.0001 ≤ 14.2 * (0.2275 * w) ^ 2 := by nlinarith
  linarith

/-- The order two divergence of one call: the sum of the squared probabilities of the sampler of the code over those of the Gaussian. -/
theorem leaf_chi (h : SzOk fma mu sigma sigmin) (hlo : 1.27 ≤ sigmin) (hhi : sigma ≤ 1.82) :
    ∑ k ∈ Win, (szP fma mu sigma sigmin k / szAcc fma mu sigma sigmin) ^ 2 /
      (gaussW (mu - ⌊mu⌋) sigma k / ∑' z : ℤ, gaussW (mu - ⌊mu⌋) sigma z) ≤ 1 + 1 / 2 ^ 77 := by
  have hs0 : 0 < sigma := by linarith [h.s0, h.s1]
  have r0 : 0 ≤ mu - ⌊mu⌋ := by linarith [Int.floor_le mu]
  have r1 : mu - ⌊mu⌋ < 1 := by linarith [Int.lt_floor_add_one mu]
  have hA0 : 0 < szAcc fma mu sigma sigmin := by linarith [szAcc_ge h]
  have hT0 := gauss_total_pos (sigma := sigma) (mu - ⌊mu⌋) hs0
  have hr := acc_total h hlo hhi
  have hsum := szP_chi_sum h hlo
  have htail := gauss_tail_of gA_tail_fine r0 r1 hs0 h.s2
  have hS := summable_gaussW (mu - ⌊mu⌋) hs0
  have hsc := szScale_bounds h
  have hg := gC_num.1
  have hw : szScale sigma sigmin ≤ 1 / 5.56 := by
    unfold szScale
    exact div_le_div₀ (by norm_num) (ccs_le h).2 (by norm_num) (by linarith)
  have hacc : ∑ k ∈ Win, szP fma mu sigma sigmin k = szAcc fma mu sigma sigmin := rfl
  have hsplit : ∑' k : ℤ, gaussW (mu - ⌊mu⌋) sigma k ≤ ∑ k ∈ Win, gaussW (mu - ⌊mu⌋) sigma k + 1.5 / 2 ^ 78 := by
    have s1 : Summable fun k => if k ∈ Win then gaussW (mu - ⌊mu⌋) sigma k else 0 :=
      summable_of_ne_finset_zero (s := Win) fun b hb => by rw [if_neg hb]
    have s2 : Summable fun k => if k ∈ Win then 0 else gaussW (mu - ⌊mu⌋) sigma k :=
      Summable.of_nonneg_of_le (fun k => by split <;> first | exact le_rfl | exact (gaussW_pos _ _ _).le)
        (fun k => by split <;> first | exact le_rfl | exact (gaussW_pos _ _ _).le) hS
    have e1 : ∑' k : ℤ, gaussW (mu - ⌊mu⌋) sigma k = (∑' k : ℤ, if k ∈ Win then gaussW (mu - ⌊mu⌋) sigma k else 0)
        + ∑' k : ℤ, if k ∈ Win then 0 else gaussW (mu - ⌊mu⌋) sigma k := by
      rw [← s1.tsum_add s2]
      refine tsum_congr fun k => ?_
      split <;> ring
    have e2 : (∑' k : ℤ, if k ∈ Win then gaussW (mu - ⌊mu⌋) sigma k else 0) = ∑ k ∈ Win, gaussW (mu - ⌊mu⌋) sigma k := by
      rw [tsum_eq_sum (s := Win) fun b hb => by rw [if_neg hb]]
      exact Finset.sum_congr rfl fun k hk => by rw [if_pos hk]
    rw [e1, e2]
    refine add_le_add le_rfl (htail.trans (by norm_num))
  have hWp := fun k => gaussW_pos (mu - ⌊mu⌋) sigma k
  generalize szAcc fma mu sigma sigmin = A at *
  generalize ∑' z : ℤ, gaussW (mu - ⌊mu⌋) sigma z = T at *
  generalize szScale sigma sigmin = w at *
  have e : ∀ k ∈ Win, (szP fma mu sigma sigmin k / A) ^ 2 / (gaussW (mu - ⌊mu⌋) sigma k / T) =
      T / A ^ 2 * ((szP fma mu sigma sigmin k - w * gaussW (mu - ⌊mu⌋) sigma k) ^ 2 / gaussW (mu - ⌊mu⌋) sigma k)
        + 2 * (w * T / A) * (szP fma mu sigma sigmin k / A) - T / A ^ 2 * w ^ 2 * gaussW (mu - ⌊mu⌋) sigma k := by
    intro k _
    have := hWp k
    field_simp
    ring
  rw [Finset.sum_congr rfl e, Finset.sum_sub_distrib, Finset.sum_add_distrib, ← Finset.mul_sum, ← Finset.mul_sum, ← Finset.mul_sum,
    ← Finset.sum_div, hacc, div_self hA0.ne', mul_one]
  generalize ∑ k ∈ Win, (szP fma mu sigma sigmin k - w * gaussW (mu - ⌊mu⌋) sigma k) ^ 2 / gaussW (mu - ⌊mu⌋) sigma k = S at *
  generalize ∑ k ∈ Win, gaussW (mu - ⌊mu⌋) sigma k = V at *
  have h1 : T / A ^ 2 * S ≤ 14.2 * (1.5 / 2 ^ 84) := by
    rcases le_total 0 S with h0 | h0
    · exact mul_le_mul hr hsum h0 (by norm_num)
    · have : T / A ^ 2 * S ≤ 0 := mul_nonpos_of_nonneg_of_nonpos (by positivity) h0
      refine this.trans (by norm_num)
  have h2 : T / A ^ 2 * w ^ 2 * T ≤ T / A ^ 2 * w ^ 2 * V + 14.2 * (1 / 5.56) ^ 2 * (1.5 / 2 ^ 78) := by
    have h3 : T / A ^ 2 * w ^ 2 ≤ 14.2 * (1 / 5.56) ^ 2 := by
      refine mul_le_mul hr (pow_le_pow_left₀ hsc.1 hw 2) (sq_nonneg _) (by norm_num)
    have h4 : 0 ≤ T / A ^ 2 * w ^ 2 := by positivity
    calc _ ≤ T / A ^ 2 * w ^ 2 * (V + 1.5 / 2 ^ 78) := mul_le_mul_of_nonneg_left hsplit h4
      _ = T / A ^ 2 * w ^ 2 * V + T / A ^ 2 * w ^ 2 * (1.5 / 2 ^ 78) := by ring
      _ ≤ _ := add_le_add le_rfl (mul_le_mul_of_nonneg_right h3 (by norm_num))
  have h5 : T / A ^ 2 * w ^ 2 * T = (w * T / A) ^ 2 := by ring
  rw [h5] at h2
  have h6 : 2 * (w * T / A) - (w * T / A) ^ 2 ≤ 1 := by nlinarith [sq_nonneg (w * T / A - 1)]
  have h7 : 14.2 * (1.5 / 2 ^ 84 : ℝ) + 14.2 * (1 / 5.56) ^ 2 * (1.5 / 2 ^ 78) ≤ 1 / 2 ^ 77 := by norm_num
  linarith

end Falcon
