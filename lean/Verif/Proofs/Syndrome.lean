import Verif.SyndromeSpec
import Verif.Proofs.CodeGauss

/-! # The point s1 + s2 h of a Gaussian pair -/

namespace Falcon

open Real OTree Polynomial

theorem pointOf_v {n : ℕ} (v : Point n) (i : Fin (2 ^ n)) : (pointOf v i.val).v.toNat = (v i).val := by
  unfold pointOf
  rw [dif_pos i.isLt]
  have := (v i).isLt
  show (UInt16.ofNat (v i).val).toNat = _
  rw [UInt16.toNat_ofNat']
  exact Nat.mod_eq_of_lt (by omega)

theorem pointOf_canon {n : ℕ} (v : Point n) : CanonBelow (2 ^ n) (pointOf v) := by
  intro j hj
  have := pointOf_v v ⟨j, hj⟩
  have h2 := (v ⟨j, hj⟩).isLt
  show (pointOf v j).v.toNat < 12289
  simp only at this
  omega

theorem point_exists (n : ℕ) (p : Zq[X]) : ∃ v : Point n, ModEqXN (2 ^ n) p (polyZq (2 ^ n) (pointOf v)) := by
  have hm : (X ^ 2 ^ n + 1 : Zq[X]).Monic := by
    have := monic_X_pow_add_C (1 : Zq) (n := 2 ^ n) (by positivity)
    rwa [map_one] at this
  have hdeg : (X ^ 2 ^ n + 1 : Zq[X]).degree = (2 ^ n : ℕ) := by
    have := degree_X_pow_add_C (n := 2 ^ n) (by positivity) (1 : Zq)
    rwa [map_one] at this
  obtain ⟨r, hr⟩ : ∃ r, r = p %ₘ (X ^ 2 ^ n + 1 : Zq[X]) := ⟨_, rfl⟩
  have hlt : r.degree < (2 ^ n : ℕ) := by rw [hr, ← hdeg]; exact degree_modByMonic_lt _ hm
  refine ⟨fun i => ⟨(r.coeff i.val).val, ZMod.val_lt _⟩, ?_⟩
  have e : polyZq (2 ^ n) (pointOf fun i : Fin (2 ^ n) => (⟨(r.coeff i.val).val, ZMod.val_lt _⟩ : Fin 12289)) = r := by
    refine Eq.trans ?_ (toPoly_of_degree_lt hlt)
    unfold polyZq
    refine toPoly_congr fun i hi => ?_
    have := pointOf_v (fun i : Fin (2 ^ n) => (⟨(r.coeff i.val).val, ZMod.val_lt _⟩ : Fin 12289)) ⟨i, hi⟩
    simp only at this
    unfold Ff.val
    rw [this]
    exact ZMod.natCast_zmod_val _
  rw [e, hr]
  refine ⟨p /ₘ (X ^ 2 ^ n + 1), ?_⟩
  have := modByMonic_add_div p (X ^ 2 ^ n + 1 : Zq[X])
  linear_combination (-1 : Zq[X]) * this

theorem point_unique {n : ℕ} {v v' : Point n} (h : ModEqXN (2 ^ n) (polyZq (2 ^ n) (pointOf v)) (polyZq (2 ^ n) (pointOf v'))) : v = v' := by
  have hdeg : (X ^ 2 ^ n + 1 : Zq[X]).degree = (2 ^ n : ℕ) := by
    have := degree_X_pow_add_C (n := 2 ^ n) (by positivity) (1 : Zq)
    rwa [map_one] at this
  have hlt : ∀ a : Mem Ff, (polyZq (2 ^ n) a).degree < (2 ^ n : ℕ) := by
    intro a
    rw [degree_lt_iff_coeff_zero]
    intro m hm
    unfold polyZq
    rw [toPoly_coeff, if_neg (by omega)]
  have h0 : polyZq (2 ^ n) (pointOf v) - polyZq (2 ^ n) (pointOf v') = 0 := by
    refine eq_zero_of_dvd_of_degree_lt h ?_
    rw [hdeg]
    exact lt_of_le_of_lt (degree_sub_le _ _) (max_lt (hlt _) (hlt _))
  funext i
  have hc := congrArg (fun p => p.coeff i.val) (sub_eq_zero.mp h0)
  simp only [polyZq, toPoly_coeff, if_pos i.isLt] at hc
  unfold Ff.val at hc
  rw [pointOf_v, pointOf_v] at hc
  have := (ZMod.natCast_eq_natCast_iff' _ _ _).mp hc
  rw [Nat.mod_eq_of_lt (v i).isLt, Nat.mod_eq_of_lt (v' i).isLt] at this
  exact Fin.ext this

theorem coset_point (n : ℕ) (h : Mem Ff) (s : PairZ n) : ∃ v : Point n, ∀ v', InCoset n h (pointOf v') s ↔ v' = v := by
  obtain ⟨v, hv⟩ := point_exists n (polyInt (2 ^ n) (tapeOf s.1) + polyInt (2 ^ n) (tapeOf s.2) * polyZq (2 ^ n) h)
  refine ⟨v, fun v' => ⟨fun h' => ?_, fun e => ?_⟩⟩
  · exact point_unique (ModEqXN.trans (ModEqXN.symm h') hv)
  · rw [e]; exact hv

open Classical in
/-- The mass of a coset hardly depends on the coset. -/
theorem mass_sharp {n : ℕ} (hn : ValidLog n) {h : Mem Ff} {f g F G : Mem Int} (tr : Trapdoor n h f g F G) :
    ∃ a : ℝ, 0 < a ∧ ∀ c : Mem Ff, a ≤ (∑' s : PairZ n, if InCoset n h c s then pairW (sigmaSig n) s else 0) ∧
      (∑' s : PairZ n, if InCoset n h c s then pairW (sigmaSig n) s else 0) ≤ a * (1 + 1.01 / 2 ^ 34) := by
  obtain ⟨lo, lo1, lo2, lo3⟩ := lo_exp hn
  have hpos := sigmaSig_pos n
  obtain ⟨K, hK⟩ : ∃ K, K = sigmaSig n ^ 2 ^ (n + 1) / 12289 ^ 2 ^ n * √(2 * π) ^ 2 ^ (n + 1) := ⟨_, rfl⟩
  have hK0 : 0 < K := by rw [hK]; positivity
  obtain ⟨ε0, ε1, ha0, hab1⟩ := pow_ratio hn hK0
  refine ⟨_, ha0, fun c => ?_⟩
  obtain ⟨P, φ, hd, hS, hSt, hP, φi, φr, key⟩ := coset_walk hn tr.eq tr.pub tr.inv (trap_gs hn tr) hpos lo2 (fun _ => 0) (fun _ => 0) (fun _ => 0)
    (fun _ => 0) c
  have hS' : AllS (fun s => 0 < s) P := hS.mono fun s hs => by linarith
  have hi := gmean_tape hd hS' (g := fun _ => 1) (fun _ => zero_le_one) (fun _ => le_rfl)
  rw [gmean_one hS'] at hi
  simp only [mul_one] at hi
  obtain ⟨ε, hε⟩ : ∃ ε : ℝ, ε = 2 * (1 / 2 ^ (37 + n)) * (1 + 1 / 2 ^ 39) := ⟨_, rfl⟩
  rw [← hε] at ε0 ε1 ha0 hab1 ⊢
  have hab : ∀ v, K * (1 - ε) ^ 2 ^ (n + 1) * callPr (walk P (tapeOf v) 0).2 ≤ pairW (sigmaSig n) (φ v) ∧
      pairW (sigmaSig n) (φ v) ≤ K * (1 + ε) ^ 2 ^ (n + 1) * callPr (walk P (tapeOf v) 0).2 := by
    intro v
    obtain ⟨-, k2, k3, k4⟩ := key v
    have hb := callPr_bounds_of ε0 ε1 (l := (walk P (tapeOf v) 0).2) fun c hc => by
      have h1 := k4 c hc
      refine ⟨by linarith, ?_⟩
      rw [hε]
      refine gauss_sum_q c.mu (by linarith) ?_ (le_trans ?_ lo3)
      · rcases hn with rfl | rfl <;> norm_num
      · refine Real.exp_le_exp.mpr (neg_le_neg (mul_le_mul_of_nonneg_left ?_ (by positivity)))
        exact pow_le_pow_left₀ (by linarith) h1 2
    have hwd : widths (walk P (tapeOf v) 0).2 = sigmaSig n ^ 2 ^ (n + 1) / 12289 ^ 2 ^ n := by
      rw [eq_div_iff (by positivity)]; exact k3
    rw [walk_length hd, hwd, ← hK] at hb
    rw [k2]
    exact hb
  obtain ⟨m0, m1, m2⟩ := mass_bound ha0 hi (fun v => callPr_nonneg _) hab
  have e : (∑' s : PairZ n, if InCoset n h c s then pairW (sigmaSig n) s else 0) = ∑' v, pairW (sigmaSig n) (φ v) := by
    rw [← φi.tsum_eq (f := fun s : PairZ n => if InCoset n h c s then pairW (sigmaSig n) s else 0)]
    · refine tsum_congr fun v => ?_
      rw [if_pos ((φr _).mp ⟨v, rfl⟩)]
    · intro s hs
      rw [Function.mem_support] at hs
      by_contra hc
      exact hs (if_neg fun h' => hc ((φr s).mpr h'))
  rw [e]
  exact ⟨m1, m2.trans hab1⟩

open Classical in
/-- Sums over all pairs, coset by coset. -/
theorem pairs_split {n : ℕ} (hn : ValidLog n) {h : Mem Ff} {f g F G : Mem Int} (tr : Trapdoor n h f g F G) (E : Point n → PairZ n → Prop)
    {D : PairZ n → Prop} (hD : ∀ s, D s ↔ ∃ v, InCoset n h (pointOf v) s ∧ E v s) :
    (∑' s : PairZ n, if D s then pairW (sigmaSig n) s else 0) =
      ∑ v : Point n, ∑' s : PairZ n, if InCoset n h (pointOf v) s ∧ E v s then pairW (sigmaSig n) s else 0 := by
  have hs : ∀ v : Point n, Summable fun s : PairZ n => if InCoset n h (pointOf v) s ∧ E v s then pairW (sigmaSig n) s else 0 := fun v =>
    Summable.of_nonneg_of_le (fun s => by split <;> first | exact (Real.exp_pos _).le | exact le_rfl) (fun s => by
      by_cases h1 : InCoset n h (pointOf v) s <;> by_cases h2 : E v s <;> simp [h1, h2, pairW, (Real.exp_pos _).le]) (coset_mass hn tr (pointOf v)).1
  rw [← Summable.tsum_finsetSum fun v _ => hs v]
  refine tsum_congr fun s => ?_
  obtain ⟨v, hv⟩ := coset_point n h s
  rw [Finset.sum_eq_single v (fun b _ hb => if_neg fun h' => hb ((hv b).mp h'.1)) (fun hb => absurd (Finset.mem_univ v) hb)]
  refine if_congr ((hD s).trans ⟨fun ⟨v', h1, h2⟩ => ?_, fun h1 => ⟨v, h1⟩⟩) rfl rfl
  have := (hv v').mp h1
  subst this
  exact ⟨h1, h2⟩

open Classical in
theorem pairs_total {n : ℕ} (hn : ValidLog n) {h : Mem Ff} {f g F G : Mem Int} (tr : Trapdoor n h f g F G) :
    (∑' s : PairZ n, pairW (sigmaSig n) s) = ∑ v : Point n, ∑' s : PairZ n, if InCoset n h (pointOf v) s then pairW (sigmaSig n) s else 0 := by
  have := pairs_split hn tr (fun _ _ => True) (D := fun _ => True) fun s => by
    obtain ⟨v, hv⟩ := coset_point n h s
    exact ⟨fun _ => ⟨v, (hv v).mpr rfl, trivial⟩, fun _ => trivial⟩
  simpa only [and_true, if_true] using this

theorem ratio_uniform {a A T M δ : ℝ} (ha : 0 < a) (h0 : a ≤ A) (h1 : A ≤ a * (1 + δ)) (hM : 0 < M) (h2 : M * a ≤ T) (h3 : T ≤ M * (a * (1 + δ))) :
    |M * (A / T) - 1| ≤ δ := by
  have hT : 0 < T := lt_of_lt_of_le (by positivity) h2
  have hδ : 0 ≤ δ := by
    by_contra h
    nlinarith
  have e : M * (A / T) - 1 = (M * A - T) / T := by field_simp
  rw [e, abs_div, abs_of_pos hT, div_le_iff₀ hT, abs_le]
  have h4 : M * a ≤ M * A := mul_le_mul_of_nonneg_left h0 hM.le
  have h5 : M * A ≤ M * (a * (1 + δ)) := mul_le_mul_of_nonneg_left h1 hM.le
  have h6 : δ * (M * a) ≤ δ * T := mul_le_mul_of_nonneg_left h2 hδ
  constructor <;> nlinarith

theorem card_point (n : ℕ) : (Fintype.card (Point n) : ℝ) = 12289 ^ 2 ^ n := by
  rw [Fintype.card_fun, Fintype.card_fin, Fintype.card_fin]
  push_cast
  rfl

open Classical in
/-- The share of one coset. -/
theorem coset_share {n : ℕ} (hn : ValidLog n) {h : Mem Ff} {f g F G : Mem Int} (tr : Trapdoor n h f g F G) (v : Point n) :
    |12289 ^ 2 ^ n * ((∑' s : PairZ n, if InCoset n h (pointOf v) s then pairW (sigmaSig n) s else 0) / ∑' s : PairZ n, pairW (sigmaSig n) s) - 1| ≤
      1 / 2 ^ 33 := by
  obtain ⟨a, ha, hm⟩ := mass_sharp hn tr
  have h2 : (12289 ^ 2 ^ n : ℝ) * a ≤ ∑' s : PairZ n, pairW (sigmaSig n) s := by
    rw [pairs_total hn tr, ← card_point]
    have := Finset.card_nsmul_le_sum Finset.univ (fun v : Point n => ∑' s : PairZ n, if InCoset n h (pointOf v) s then pairW (sigmaSig n) s else 0) a
      fun v _ => (hm (pointOf v)).1
    rwa [nsmul_eq_mul, Finset.card_univ] at this
  have h3 : (∑' s : PairZ n, pairW (sigmaSig n) s) ≤ (12289 ^ 2 ^ n : ℝ) * (a * (1 + 1.01 / 2 ^ 34)) := by
    rw [pairs_total hn tr, ← card_point]
    have := Finset.sum_le_card_nsmul Finset.univ (fun v : Point n => ∑' s : PairZ n, if InCoset n h (pointOf v) s then pairW (sigmaSig n) s else 0)
      (a * (1 + 1.01 / 2 ^ 34)) fun v _ => (hm (pointOf v)).2
    rwa [nsmul_eq_mul, Finset.card_univ] at this
  exact (ratio_uniform ha (hm (pointOf v)).1 (hm (pointOf v)).2 (pow_pos (by norm_num) _) h2 h3).trans (by norm_num)

open Classical in
/-- A pair drawn first, or a point drawn first. -/
theorem pair_joint {n : ℕ} (hn : ValidLog n) {h : Mem Ff} {f g F G : Mem Int} (tr : Trapdoor n h f g F G) (E : Point n → PairZ n → Prop) :
    |sphericalPr n (sigmaSig n) (fun s => ∃ v, InCoset n h (pointOf v) s ∧ E v s) -
      (∑ v : Point n, cosetPr n (sigmaSig n) h (pointOf v) (E v)) / 12289 ^ 2 ^ n| ≤ 1 / 2 ^ 33 := by
  have e : sphericalPr n (sigmaSig n) (fun s => ∃ v, InCoset n h (pointOf v) s ∧ E v s) - (∑ v : Point n, cosetPr n (sigmaSig n) h (pointOf v) (E v)) / 12289 ^ 2 ^ n =
      ∑ v : Point n, (12289 ^ 2 ^ n * ((∑' s : PairZ n, if InCoset n h (pointOf v) s then pairW (sigmaSig n) s else 0) / ∑' s : PairZ n, pairW (sigmaSig n) s) - 1) *
        cosetPr n (sigmaSig n) h (pointOf v) (E v) / 12289 ^ 2 ^ n := by
    unfold sphericalPr
    rw [pairs_split hn tr E (D := fun s => ∃ v, InCoset n h (pointOf v) s ∧ E v s) fun _ => Iff.rfl, Finset.sum_div, Finset.sum_div, ← Finset.sum_sub_distrib]
    refine Finset.sum_congr rfl fun v _ => ?_
    have h1 := (coset_mass hn tr (pointOf v)).2.ne'
    have h2 : (12289 ^ 2 ^ n : ℝ) ≠ 0 := pow_ne_zero _ (by norm_num)
    unfold cosetPr
    generalize (12289 ^ 2 ^ n : ℝ) = q at *
    generalize (∑' s : PairZ n, if InCoset n h (pointOf v) s then pairW (sigmaSig n) s else 0) = A at *
    generalize (∑' s : PairZ n, if InCoset n h (pointOf v) s ∧ E v s then pairW (sigmaSig n) s else 0) = x at *
    by_cases hT : (∑' s : PairZ n, pairW (sigmaSig n) s) = 0
    · exfalso
      obtain ⟨a, ha, hm⟩ := mass_sharp hn tr
      have hh : 0 < ∑' s : PairZ n, pairW (sigmaSig n) s := by
        rw [pairs_total hn tr]
        exact Finset.sum_pos (fun v _ => lt_of_lt_of_le ha (hm _).1) ⟨fun _ => 0, Finset.mem_univ _⟩
      exact hh.ne' hT
    · field_simp
  rw [e]
  refine (Finset.abs_sum_le_sum_abs _ _).trans ?_
  have hb : ∀ v ∈ (Finset.univ : Finset (Point n)), |(12289 ^ 2 ^ n * ((∑' s : PairZ n, if InCoset n h (pointOf v) s then pairW (sigmaSig n) s else 0) / ∑' s : PairZ n, pairW (sigmaSig n) s) - 1) *
        cosetPr n (sigmaSig n) h (pointOf v) (E v) / 12289 ^ 2 ^ n| ≤ 1 / 2 ^ 33 / 12289 ^ 2 ^ n := by
    intro v _
    have hc := cosetPr_mem hn tr (pointOf v) (E v)
    rw [abs_div, abs_of_pos (show (0 : ℝ) < 12289 ^ 2 ^ n from pow_pos (by norm_num) _)]
    refine div_le_div_of_nonneg_right ?_ (pow_pos (by norm_num) _).le
    rw [abs_mul, abs_of_nonneg hc.1]
    exact (mul_le_of_le_one_right (abs_nonneg _) hc.2.1).trans (coset_share hn tr v)
  refine (Finset.sum_le_card_nsmul _ _ _ hb).trans (le_of_eq ?_)
  rw [nsmul_eq_mul, Finset.card_univ, card_point]
  have h2 : (12289 ^ 2 ^ n : ℝ) ≠ 0 := pow_ne_zero _ (by norm_num)
  generalize (12289 ^ 2 ^ n : ℝ) = q at *
  field_simp

end Falcon
