import Verif.AdversarySpec
import Verif.Proofs.ChiTape
import Verif.Proofs.NormTail
import Verif.Proofs.TreeLow

/-! # One round of signing and the Gaussian on the preimages, in relative terms -/

namespace Falcon

open Real OTree

theorem ratio_pt {i w W a b δ : ℝ} (ha : 0 < a) (hw0 : 0 < w) (h1 : a * i ≤ w) (h2 : w ≤ b * i) (W1 : a ≤ W) (W2 : W ≤ b)
    (hδ : b ≤ a * (1 + δ)) : |i - w / W| ≤ δ * (w / W) := by
  have hW : 0 < W := lt_of_lt_of_le ha W1
  have hb : 0 < b := lt_of_lt_of_le hW W2
  have hδ0 : 0 ≤ δ := by
    by_contra h
    nlinarith
  have e : w / W * W = w := by field_simp
  have hq : 0 < w / W := by positivity
  generalize w / W = q at *
  subst e
  rw [abs_le]
  constructor
  · -- q W ≤ b i ≤ a (1 + δ) i, so q ≤ (1 + δ) i
    have i0 : 0 ≤ i := by
      by_contra h
      nlinarith
    have h3 : q * a ≤ q * W := mul_le_mul_of_nonneg_left W1 hq.le
    have h4 : b * i ≤ a * (1 + δ) * i := mul_le_mul_of_nonneg_right hδ i0
    have h5 : q ≤ (1 + δ) * i := by
      have : a * q ≤ a * ((1 + δ) * i) := by linarith
      exact le_of_mul_le_mul_left this ha
    nlinarith
  · have h3 : q * W ≤ q * (a * (1 + δ)) := mul_le_mul_of_nonneg_left (W2.trans hδ) hq.le
    have h4 : i ≤ q * (1 + δ) := by
      have : a * i ≤ a * (q * (1 + δ)) := by linarith
      exact le_of_mul_le_mul_left this ha
    linarith

/-- The leaves are so wide that the sums of the Gaussian weights do not depend on the centres. -/
theorem lo_exp {n : ℕ} (hn : ValidLog n) :
    ∃ lo : ℝ, 6 / 5 ≤ lo ∧ lo ≤ sigmaSig n / (1.17 * √12289) ∧ Real.exp (-(2 * π ^ 2 * lo ^ 2)) ≤ 1 / 2 ^ (37 + n) := by
  have hpi : (9.869 : ℝ) ≤ π ^ 2 := by
    have := Real.pi_gt_d4
    nlinarith
  have hl := Real.log_two_lt_d9
  have key : ∀ (k : ℕ) (x : ℝ), k * 0.6931471808 ≤ x → Real.exp (-x) ≤ 1 / 2 ^ k := by
    intro k x hx
    rw [Real.exp_neg, ← one_div]
    refine one_div_le_one_div_of_le (by positivity) ?_
    calc (2 : ℝ) ^ k = Real.exp (k * Real.log 2) := by rw [Real.exp_nat_mul, Real.exp_log (by norm_num)]
      _ ≤ _ := Real.exp_le_exp.mpr ((mul_le_mul_of_nonneg_left hl.le (Nat.cast_nonneg k)).trans hx)
  rcases hn with rfl | rfl
  · refine ⟨1.2778, by norm_num, le_lower (sigmaSig_pos 9).le ?_, key _ _ ?_⟩
    · unfold sigmaSig; rw [if_neg (by norm_num)]; norm_num
    · norm_num at hpi ⊢; linarith
  · refine ⟨1.2982, by norm_num, le_lower (sigmaSig_pos 10).le ?_, key _ _ ?_⟩
    · unfold sigmaSig; rw [if_pos rfl]; norm_num
    · norm_num at hpi ⊢; linarith

theorem pow_ratio {n : ℕ} (hn : ValidLog n) {K : ℝ} (hK0 : 0 < K) :
    0 ≤ 2 * (1 / 2 ^ (37 + n) : ℝ) * (1 + 1 / 2 ^ 39) ∧ 2 * (1 / 2 ^ (37 + n) : ℝ) * (1 + 1 / 2 ^ 39) ≤ 1 ∧
    0 < K * (1 - 2 * (1 / 2 ^ (37 + n) : ℝ) * (1 + 1 / 2 ^ 39)) ^ 2 ^ (n + 1) ∧
    K * (1 + 2 * (1 / 2 ^ (37 + n)) * (1 + 1 / 2 ^ 39)) ^ 2 ^ (n + 1) ≤
      K * (1 - 2 * (1 / 2 ^ (37 + n)) * (1 + 1 / 2 ^ 39)) ^ 2 ^ (n + 1) * (1 + 1.01 / 2 ^ 34) := by
  obtain ⟨ε, hε⟩ : ∃ ε : ℝ, ε = 2 * (1 / 2 ^ (37 + n)) * (1 + 1 / 2 ^ 39) := ⟨_, rfl⟩
  rw [← hε]
  have e0 : 0 ≤ ε := by rw [hε]; positivity
  have e1 : ε ≤ 1 / 2 ^ 40 := by
    rw [hε]
    rcases hn with rfl | rfl <;> norm_num
  have ed : ((2 ^ (n + 1) : ℕ) : ℝ) * (2 * ε) ≤ 1.001 / 2 ^ 34 := by
    rw [hε]
    push_cast
    rcases hn with rfl | rfl <;> norm_num
  have e40 : ε ≤ 1 / 4 := e1.trans (by norm_num)
  refine ⟨e0, by linarith, mul_pos hK0 (pow_pos (by linarith) _), ?_⟩
  rw [mul_assoc]
  refine mul_le_mul_of_nonneg_left ?_ hK0.le
  have hB := one_add_mul_le_pow (a := -(2 * ε)) (by linarith) (2 ^ (n + 1))
  have hr : (1 + ε) ^ 2 ^ (n + 1) * (1 + -(2 * ε)) ^ 2 ^ (n + 1) ≤ (1 - ε) ^ 2 ^ (n + 1) := by
    rw [← mul_pow]
    exact pow_le_pow_left₀ (mul_nonneg (by linarith) (by linarith)) (by nlinarith) _
  have h1 : (1 - 1.001 / 2 ^ 34 : ℝ) ≤ (1 + -(2 * ε)) ^ 2 ^ (n + 1) := by
    refine le_trans ?_ hB
    linarith
  have h0 : (0 : ℝ) ≤ (1 + ε) ^ 2 ^ (n + 1) := by positivity
  generalize (1 + ε) ^ 2 ^ (n + 1) = b at *
  generalize (1 - ε) ^ 2 ^ (n + 1) = a at *
  generalize (1 + -(2 * ε)) ^ 2 ^ (n + 1) = c at *
  have h2 : b * (1 - 1.001 / 2 ^ 34) ≤ a := (mul_le_mul_of_nonneg_left h1 h0).trans hr
  calc b ≤ b * (1 - 1.001 / 2 ^ 34) * (1 + 1.01 / 2 ^ 34) := by
        rw [mul_assoc]
        exact le_mul_of_one_le_right h0 (by norm_num)
    _ ≤ _ := mul_le_mul_of_nonneg_right h2 (by norm_num)

theorem pow_chi {n : ℕ} (hn : ValidLog n) : (1 + 1 / 2 ^ 77 : ℝ) ^ 2 ^ (n + 1) ≤ 1 + 1.01 / 2 ^ 66 := by
  have hle : (1 + 1 / 2 ^ 77 : ℝ) ^ 2 ^ (n + 1) ≤ Real.exp (1 / 2 ^ 66) := by
    calc (1 + 1 / 2 ^ 77 : ℝ) ^ 2 ^ (n + 1) ≤ Real.exp (1 / 2 ^ 77) ^ 2 ^ (n + 1) :=
          pow_le_pow_left₀ (by norm_num) (by linarith [Real.add_one_le_exp (1 / 2 ^ 77 : ℝ)]) _
      _ = Real.exp ((2 ^ (n + 1) : ℕ) * (1 / 2 ^ 77)) := (Real.exp_nat_mul _ _).symm
      _ ≤ _ := Real.exp_le_exp.mpr (by push_cast; rcases hn with rfl | rfl <;> norm_num)
  refine hle.trans ?_
  have h1 := Real.add_one_le_exp (-(1 / 2 ^ 66) : ℝ)
  have h2 : Real.exp (-(1 / 2 ^ 66) : ℝ) * Real.exp (1 / 2 ^ 66) = 1 := by rw [← Real.exp_add]; norm_num
  have h3 := Real.exp_pos (1 / 2 ^ 66 : ℝ)
  have h4 : (1 - 1 / 2 ^ 66 : ℝ) * Real.exp (1 / 2 ^ 66) ≤ 1 :=
    (mul_le_mul_of_nonneg_right (by linarith) h3.le).trans h2.le
  generalize Real.exp (1 / 2 ^ 66 : ℝ) = y at *
  have h5 : (1 : ℝ) ≤ (1 - 1 / 2 ^ 66) * (1 + 1.01 / 2 ^ 66) := by norm_num
  have h6 : (0 : ℝ) < 1 - 1 / 2 ^ 66 := by norm_num
  exact le_of_mul_le_mul_left (h4.trans h5) h6

open Classical in
/-- One round. -/
theorem round_chi {n : ℕ} (hn : ValidLog n) {h : Mem Ff} {f g F G : Mem Int} (heq : NtruEq n f g F G)
    (hh : ModEqXN (2 ^ n) (polyZq (2 ^ n) h * polyInt (2 ^ n) f) (polyInt (2 ^ n) g))
    (hinv : ∃ r, ModEqXN (2 ^ n) (polyInt (2 ^ n) f * r) 1) (hgs : gsTooBig exactA n f g = false) (B0 T0 z0 z1 : Mem ℂ) (c : Mem Ff)
    {tt : FTree ℂ} (htt : TreeAt n (computeFalconTree exactA n (computeMatrixB exactA n f g F G B0) T0) 0 0 tt)
    (hl : ∀ v ∈ tt.leaves, sigmaMin n ≤ exactA.re v ∧ exactA.re v ≤ 182 / 100)
    (hdef : ∀ (S : Type) (leaf : LeafSampler ℝ S), GoodLeaf leaf → ∀ s e,
      ffSampling exactA leaf n 0 (signTarget exactA n (computeMatrixB exactA n f g F G B0) c).1
        (signTarget exactA n (computeMatrixB exactA n f g F G B0) c).2
        (computeFalconTree exactA n (computeMatrixB exactA n f g F G B0) T0) z0 z1 s ≠ some (.error e)) :
    let B := computeMatrixB exactA n f g F G B0
    let t := signTarget exactA n B c
    ∃ P : OTree (Mem ℂ × Mem ℂ), OTree.Depth P (2 ^ (n + 1)) ∧
      (∀ (S : Type) (leaf : LeafSampler ℝ S) (s : S), ffSampling exactA leaf n 0 t.1 t.2 (computeFalconTree exactA n B T0) z0 z1 s =
        bindO (interp leaf P s) fun r => some (.ok (r.1.1, r.1.2, r.2))) ∧
      ∀ (m : ℕ) (e : PairZ n → ℝ) (Gv : Option (Except UB (Mem ℂ × Mem ℂ)) → ℝ), (∀ s, 0 ≤ e s) → (∀ s, e s ≤ 1) → Gv none = 0 →
        (∀ a, 0 ≤ Gv (some (.ok a))) → (∀ a, Gv (some (.ok a)) ≤ 1) →
        (∀ a (s : PairZ n), IsDftOf n (signVec exactA n B t.1 t.2 a.1 a.2).1 (tapeOf s.1) →
          IsDftOf n (signVec exactA n B t.1 t.2 a.1 a.2).2 (tapeOf s.2) → Gv (some (.ok a)) = e s) →
        0 ≤ (ctree false (sigmaMin n) m P).mean Gv ∧
        (ctree false (sigmaMin n) m P).mean Gv ^ 2 ≤ (1 + 1 / 2 ^ 64) * cosetMean n (sigmaSig n) h c (fun s => e s ^ 2) ∧
        |(ctree false (sigmaMin n) m P).mean Gv - cosetMean n (sigmaSig n) h c e| ≤
          1 / 2 ^ 32 * √(cosetMean n (sigmaSig n) h c fun s => e s ^ 2) + 2 ^ (n + 1) * (1 / 2 ^ m) ∧
        ((∀ s, e s = 1) → 1 - 2 ^ (n + 1) * (1 / 2 ^ m) ≤ (ctree false (sigmaMin n) m P).mean Gv) := by
  intro B t
  have hT : computeFalconTree exactA n B T0 = normalizeTree exactA (sigmaSig n) n 0
      (ffldl exactA n 0 (gramMatrix exactA n B (junkC exactA)) T0) := by
    rw [← sigSigma_exact]; rfl
  obtain ⟨lo, lo1, lo2, lo3⟩ := lo_exp hn
  have hpos := sigmaSig_pos n
  obtain ⟨P, φ, hd, hS, hSt, hP, φi, φr, key⟩ := coset_walk hn heq hh hinv hgs hpos lo2 B0 T0 z0 z1 c
  have hP' : ∀ (S : Type) (leaf : LeafSampler ℝ S) (s : S), ffSampling exactA leaf n 0 t.1 t.2 (computeFalconTree exactA n B T0) z0 z1 s =
      bindO (interp leaf P s) fun r => some (.ok (r.1.1, r.1.2, r.2)) := by
    rw [hT]; exact hP
  have hS2 : AllS (fun s => sigmaMin n ≤ s ∧ s ≤ 182 / 100) P := by
    refine (hSt tt (by rw [← hT]; exact htt)).mono ?_
    rintro s ⟨v, hv, rfl⟩
    exact hl v hv
  have hM : NearM (fun mu => |mu| ≤ 2 ^ 31 - 100) P := near_of_good fun S leaf hg s e he => hdef S leaf hg s e (by
    have := hP' S leaf s
    rw [he] at this
    exact this)
  refine ⟨P, hd, hP', ?_⟩
  -- three distributions on tapes
  have hS' : AllS (fun s => 0 < s) P := hS.mono fun s hs => by linarith
  have hi := gmean_tape hd hS' (g := fun _ => 1) (fun _ => zero_le_one) (fun _ => le_rfl)
  rw [gmean_one hS'] at hi
  simp only [mul_one] at hi
  obtain ⟨hp, hpi, hpi'⟩ := tape_chi hn hd hS2 hM
  have hi0 : ∀ v : Fin (2 ^ (n + 1)) → ℤ, 0 < callPr (walk P (tapeOf v) 0).2 := by
    intro v
    refine List.prod_pos ?_
    intro x hx
    obtain ⟨c, hc, rfl⟩ := List.mem_map.mp hx
    have := (key v).2.2.2 c hc
    exact div_pos (Real.exp_pos _) (gauss_total_pos _ (by linarith))
  have hw0 : ∀ v, 0 < pairW (sigmaSig n) (φ v) := fun v => Real.exp_pos _
  obtain ⟨K, hK⟩ : ∃ K, K = sigmaSig n ^ 2 ^ (n + 1) / 12289 ^ 2 ^ n * √(2 * π) ^ 2 ^ (n + 1) := ⟨_, rfl⟩
  have hK0 : 0 < K := by rw [hK]; positivity
  obtain ⟨ε0, ε1, ha0, hab1⟩ := pow_ratio hn hK0
  obtain ⟨ε, hε⟩ : ∃ ε : ℝ, ε = 2 * (1 / 2 ^ (37 + n)) * (1 + 1 / 2 ^ 39) := ⟨_, rfl⟩
  rw [← hε] at ε0 ε1 ha0 hab1
  have hab : ∀ v, K * (1 - ε) ^ 2 ^ (n + 1) * callPr (walk P (tapeOf v) 0).2 ≤ pairW (sigmaSig n) (φ v) ∧
      pairW (sigmaSig n) (φ v) ≤ K * (1 + ε) ^ 2 ^ (n + 1) * callPr (walk P (tapeOf v) 0).2 := by
    intro v
    obtain ⟨-, k2, k3, k4⟩ := key v
    have hb := callPr_bounds_of ε0 ε1 (l := (walk P (tapeOf v) 0).2) fun c hc => by
      have h1 := k4 c hc
      refine ⟨by linarith, ?_⟩
      rw [hε]
      refine gauss_sum_q c.mu (by linarith) ?_ (le_trans ?_ lo3)
      · rcases hn with rfl | rfl <;> norm_num
      · refine Real.exp_le_exp.mpr (neg_le_neg (mul_le_mul_of_nonneg_left ?_ (by positivity)))
        exact pow_le_pow_left₀ (by linarith) h1 2
    have hwd : widths (walk P (tapeOf v) 0).2 = sigmaSig n ^ 2 ^ (n + 1) / 12289 ^ 2 ^ n := by
      rw [eq_div_iff (by positivity)]; exact k3
    rw [walk_length hd, hwd, ← hK] at hb
    rw [k2]
    exact hb
  obtain ⟨m0, m1, m2⟩ := mass_bound ha0 hi (fun v => (hi0 v).le) hab
  have hW : 0 < ∑' v, pairW (sigmaSig n) (φ v) := lt_of_lt_of_le ha0 m1
  have hq0 : ∀ v, 0 < pairW (sigmaSig n) (φ v) / ∑' v, pairW (sigmaSig n) (φ v) := fun v => div_pos (hw0 v) hW
  have hq : HasSum (fun v => pairW (sigmaSig n) (φ v) / ∑' v, pairW (sigmaSig n) (φ v)) 1 := by
    have := m0.hasSum.div_const (∑' v, pairW (sigmaSig n) (φ v))
    rwa [div_self hW.ne'] at this
  have hpt : ∀ v, |callPr (walk P (tapeOf v) 0).2 - pairW (sigmaSig n) (φ v) / ∑' v, pairW (sigmaSig n) (φ v)| ≤
      1.01 / 2 ^ 34 * (pairW (sigmaSig n) (φ v) / ∑' v, pairW (sigmaSig n) (φ v)) := fun v =>
    ratio_pt ha0 (hw0 v) (hab v).1 (hab v).2 m1 m2 hab1
  obtain ⟨c1, c2, c3, c4⟩ := chi_trans hp hi hq hi0 hq0 hpi (hpi'.trans (pow_chi hn)) (by norm_num) hpt
  have cn : (1.5 * (1 + 1.01 / 2 ^ 34) * (1.01 / 2 ^ 66) + 3 * (1.01 / 2 ^ 34) ^ 2 : ℝ) ≤ 1 / 2 ^ 64 := by norm_num
  have c2 := c2.trans cn
  have c4 := c4.trans (add_le_add le_rfl cn)
  have e3 : ∀ e : PairZ n → ℝ, (∑' s : PairZ n, if InCoset n h c s then pairW (sigmaSig n) s * e s else 0) =
      ∑' v, pairW (sigmaSig n) (φ v) * e (φ v) := by
    intro e
    rw [← φi.tsum_eq (f := fun s : PairZ n => if InCoset n h c s then pairW (sigmaSig n) s * e s else 0)]
    · refine tsum_congr fun v => ?_
      have := (φr (φ v)).mp ⟨v, rfl⟩
      simp only [this, if_true]
    · intro s hs
      rw [φr]
      by_contra hc
      exact hs (by simp only [hc, if_false])
  have e2 : (∑' s : PairZ n, if InCoset n h c s then pairW (sigmaSig n) s else 0) = ∑' v, pairW (sigmaSig n) (φ v) := by
    have := e3 fun _ => 1
    simpa only [mul_one] using this
  have eM : ∀ e : PairZ n → ℝ, cosetMean n (sigmaSig n) h c e =
      ∑' v, pairW (sigmaSig n) (φ v) / (∑' v, pairW (sigmaSig n) (φ v)) * e (φ v) := by
    intro e
    unfold cosetMean
    rw [e2, e3, ← tsum_div_const]
    exact tsum_congr fun v => by ring
  intro m e Gv e0 e1 Gn G0 G1 hG
  obtain ⟨u1, u2, u3⟩ := ctree_umean hn m hd hS2 hM Gn G0 G1
  have hU := (umean_tape (smpPr_nonneg (sigmaMin n)) zero_le_one hd (tame_smp hn hS2 hM).1 (g := fun a => Gv (some (.ok a))) G0 G1).1
  have hGv : ∀ v, Gv (some (.ok (walk P (tapeOf v) 0).1)) = e (φ v) := fun v => hG _ _ (key v).1.1 (key v).1.2
  simp only [hGv] at hU
  have hlow : (∀ s, e s = 1) → umean (smpPr (sigmaMin n)) P (fun a => Gv (some (.ok a))) = 1 := by
    intro h1
    simp only [h1, mul_one] at hU
    exact hU.unique hp
  have hsq : Summable fun v => pairW (sigmaSig n) (φ v) / (∑' v, pairW (sigmaSig n) (φ v)) * e (φ v) ^ 2 :=
    Summable.of_nonneg_of_le (fun v => mul_nonneg (hq0 v).le (sq_nonneg _))
      (fun v => mul_le_of_le_one_right (hq0 v).le (pow_le_one₀ (e0 _) (e1 _))) hq.summable
  have hqe : Summable fun v => pairW (sigmaSig n) (φ v) / (∑' v, pairW (sigmaSig n) (φ v)) * e (φ v) :=
    Summable.of_nonneg_of_le (fun v => mul_nonneg (hq0 v).le (e0 _)) (fun v => mul_le_of_le_one_right (hq0 v).le (e1 _)) hq.summable
  have k1 := (tsum_cs hq0 c3 hsq).2
  have k2 := (tsum_cs hq0 c1 hsq).2
  rw [eM, eM]
  have hdiff : (∑' v, (callU (smpPr (sigmaMin n)) (walk P (tapeOf v) 0).2 - pairW (sigmaSig n) (φ v) / (∑' v, pairW (sigmaSig n) (φ v))) * e (φ v)) =
      umean (smpPr (sigmaMin n)) P (fun a => Gv (some (.ok a))) - ∑' v, pairW (sigmaSig n) (φ v) / (∑' v, pairW (sigmaSig n) (φ v)) * e (φ v) := by
    rw [← (hU.sub hqe.hasSum).tsum_eq]
    exact tsum_congr fun v => by ring
  rw [hdiff] at k2
  rw [hU.tsum_eq] at k1
  have hY : 0 ≤ ∑' v, pairW (sigmaSig n) (φ v) / (∑' v, pairW (sigmaSig n) (φ v)) * e (φ v) ^ 2 := tsum_nonneg fun v => mul_nonneg (hq0 v).le (sq_nonneg _)
  generalize (∑' v, pairW (sigmaSig n) (φ v) / (∑' v, pairW (sigmaSig n) (φ v)) * e (φ v) ^ 2) = Y at *
  generalize (∑' v, pairW (sigmaSig n) (φ v) / (∑' v, pairW (sigmaSig n) (φ v)) * e (φ v)) = X at *
  generalize umean (smpPr (sigmaMin n)) P (fun a => Gv (some (.ok a))) = U at *
  generalize (ctree false (sigmaMin n) m P).mean Gv = V at *
  refine ⟨u3, ?_, ?_, ?_⟩
  · calc V ^ 2 ≤ U ^ 2 := pow_le_pow_left₀ u3 u2 2
      _ ≤ _ := k1.trans (mul_le_mul_of_nonneg_right c4 hY)
  · have h1 : |U - X| ≤ 1 / 2 ^ 32 * √Y := by
      have h2 : (U - X) ^ 2 ≤ (1 / 2 ^ 32 * √Y) ^ 2 := by
        rw [mul_pow, Real.sq_sqrt hY]
        refine k2.trans (mul_le_mul_of_nonneg_right (c2.trans (by norm_num)) hY)
      exact abs_le_of_sq_le_sq h2 (by positivity)
    have h2 : |V - U| ≤ 2 ^ (n + 1) * (1 / 2 ^ m) := by
      push_cast at u1
      rw [abs_le]
      constructor
      · linarith
      · have : (0 : ℝ) ≤ 2 ^ (n + 1) * (1 / 2 ^ m) := by positivity
        linarith
    calc |V - X| ≤ |V - U| + |U - X| := abs_sub_le _ _ _
      _ ≤ _ := by linarith
  · intro h1
    push_cast at u1
    rw [hlow h1] at u1
    linarith

end Falcon
