import Verif.TimedSimSpec
import Verif.Proofs.TimedAdversary

/-! # Answers with iteration counts against their simulation -/

namespace Falcon

/-! ## Means -/

/-- A mean of functions with values in [0, 1]. -/
structure TMean {O : Type} (M : (O → ℝ) → ℝ) : Prop where
  lin : ∀ f g a b, Unit01 f → Unit01 g → M (fun o => a * f o + b * g o) = a * M f + b * M g
  mem : ∀ f, Unit01 f → 0 ≤ M f ∧ M f ≤ 1
  one : M (fun _ => 1) = 1

theorem TMean.mono {O : Type} {M : (O → ℝ) → ℝ} (hM : TMean M) {f g : O → ℝ} (hf : Unit01 f) (hg : Unit01 g) (h : ∀ o, f o ≤ g o) : M f ≤ M g := by
  have hd : Unit01 fun o => g o - f o := fun o => ⟨by linarith [h o], by linarith [(hf o).1, (hg o).2]⟩
  have h1 : M g = 1 * M f + 1 * M fun o => g o - f o := by
    rw [← hM.lin _ _ _ _ hf hd]
    congr 1
    funext o
    ring
  have h2 := (hM.mem _ hd).1
  linarith

open Classical in
theorem TMean.fin {O : Type} {M : (O → ℝ) → ℝ} (hM : TMean M) {φ : O → ℝ} (hφ : Unit01 φ) (U : Finset O) :
    M (fun o => if o ∈ U then φ o else 0) = ∑ o ∈ U, φ o * M fun x => if x = o then 1 else 0 := by
  have h1 : ∀ a : O, Unit01 fun x : O => if x = a then (1 : ℝ) else 0 := fun a x => by simp only; split <;> norm_num
  induction U using Finset.induction_on with
  | empty =>
    simp only [Finset.notMem_empty, if_false, Finset.sum_empty]
    have := hM.lin (fun _ => 1) (fun _ => 1) 0 0 (fun _ => ⟨zero_le_one, le_rfl⟩) fun _ => ⟨zero_le_one, le_rfl⟩
    simpa using this
  | insert a U ha ih =>
    rw [Finset.sum_insert ha, ← ih, add_comm]
    have e := hM.lin (fun o => if o ∈ U then φ o else 0) (fun x => if x = a then 1 else 0) 1 (φ a)
      (fun o => by simp only; split <;> first | exact hφ o | norm_num) (h1 a)
    rw [one_mul] at e
    rw [← e]
    congr 1
    funext o
    by_cases h : o = a
    · subst h
      simp [ha]
    · simp [h]

open Classical in
theorem mean_le {O : Type} {L : ℕ} (X : Mem UInt8 → O) {M : (O → ℝ) → ℝ} (hM : TMean M) {d : ℝ}
    (h : ∀ S : O → Prop, freq L (fun st => S (X st)) - M (fun o => if S o then 1 else 0) ≤ d) {φ : O → ℝ} (hφ : Unit01 φ) :
    (∑ v : Fin L → UInt8, φ (X (memOf v))) / 256 ^ L - M φ ≤ d := by
  let U : Finset O := Finset.univ.image fun v : Fin L → UInt8 => X (memOf v)
  let p : O → ℝ := fun o => ((Finset.univ.filter fun v : Fin L → UInt8 => X (memOf v) = o).card : ℝ) / 256 ^ L
  let r : O → ℝ := fun o => M fun x => if x = o then 1 else 0
  have hX : ∀ ψ : O → ℝ, (∑ v : Fin L → UInt8, ψ (X (memOf v))) / 256 ^ L = ∑ o ∈ U, p o * ψ o := by
    intro ψ
    rw [← Finset.sum_fiberwise_of_maps_to (s := Finset.univ) (t := U) (g := fun v : Fin L → UInt8 => X (memOf v))
      (fun v hv => Finset.mem_image_of_mem _ hv), Finset.sum_div]
    refine Finset.sum_congr rfl fun o _ => ?_
    rw [Finset.sum_congr rfl (g := fun _ => ψ o) fun v hv => by rw [(Finset.mem_filter.mp hv).2], Finset.sum_const, nsmul_eq_mul]
    simp only [p]
    ring
  have hS := h fun o => o ∈ U ∧ r o < p o
  rw [freq_sum, hX fun o => if o ∈ U ∧ r o < p o then 1 else 0] at hS
  have e1 : M (fun o => if o ∈ U ∧ r o < p o then 1 else 0) = ∑ o ∈ U, (if r o < p o then 1 else 0) * r o := by
    rw [← hM.fin (φ := fun o => if r o < p o then 1 else 0) (fun o => by simp only; split <;> norm_num) U]
    congr 1
    funext o
    by_cases h1 : o ∈ U <;> by_cases h2 : r o < p o <;> simp [h1, h2]
  have e2 : ∑ o ∈ U, φ o * r o ≤ M φ := by
    rw [← hM.fin hφ U]
    exact hM.mono (fun o => by split <;> first | exact hφ o | norm_num) hφ fun o => by
      split
      · exact le_rfl
      · exact (hφ o).1
  have hS : (∑ o ∈ U, p o * if o ∈ U ∧ r o < p o then 1 else 0) - (∑ o ∈ U, (if r o < p o then 1 else 0) * r o) ≤ d := by
    rw [← e1]
    convert hS
  rw [hX φ]
  refine le_trans (sub_le_sub_left e2 _) (le_trans ?_ hS)
  rw [← Finset.sum_sub_distrib, ← Finset.sum_sub_distrib]
  refine Finset.sum_le_sum fun o ho => ?_
  have a0 := (hφ o).1
  have a1 := (hφ o).2
  by_cases hlt : r o < p o
  · rw [if_pos ⟨ho, hlt⟩, if_pos hlt]
    nlinarith
  · rw [if_neg fun hx => hlt hx.2, if_neg hlt]
    have := not_lt.mp hlt
    nlinarith

open Classical in
/-- A program and a mean that agree on all events up to d agree on all test functions up to d. -/
theorem mean_close {O : Type} {L : ℕ} (X : Mem UInt8 → O) {M : (O → ℝ) → ℝ} (hM : TMean M) {d : ℝ}
    (h : ∀ S : O → Prop, |freq L (fun st => S (X st)) - M (fun o => if S o then 1 else 0)| ≤ d) {φ : O → ℝ} (hφ : Unit01 φ) :
    |(∑ v : Fin L → UInt8, φ (X (memOf v))) / 256 ^ L - M φ| ≤ d := by
  have t1 := mean_le X hM (fun S => (abs_le.mp (h S)).2) hφ
  have hφ' : Unit01 fun o => 1 - φ o := fun o => ⟨by linarith [(hφ o).2], by linarith [(hφ o).1]⟩
  have t2 := mean_le X hM (fun S => (abs_le.mp (h S)).2) hφ'
  have e1 : M (fun o => 1 - φ o) = 1 - M φ := by
    have := hM.lin (fun _ => 1) φ 1 (-1) (fun _ => ⟨zero_le_one, le_rfl⟩) hφ
    rw [hM.one] at this
    rw [show (1 : ℝ) - M φ = 1 * 1 + -1 * M φ by ring, ← this]
    congr 1
    funext o
    ring
  have e2 : (∑ v : Fin L → UInt8, (1 - φ (X (memOf v)))) / 256 ^ L = 1 - (∑ v : Fin L → UInt8, φ (X (memOf v))) / 256 ^ L := by
    rw [Finset.sum_sub_distrib, sub_div, Finset.sum_const, Finset.card_univ, Fintype.card_pi, Finset.prod_const, Finset.card_univ, Fintype.card_fin,
      BTree.card_byte, nsmul_eq_mul, mul_one, Nat.cast_pow]
    congr 1
    exact div_self (by positivity)
  rw [e1, e2] at t2
  exact abs_le.mpr ⟨by linarith, t1⟩

/-! ## The simulation -/

section
variable {n : ℕ} (hn : ValidLog n) {h : Mem Ff} {f g F G : Mem Int} (tr : Trapdoor n h f g F G)
include hn tr

theorem simSignMean_mem (m : ℕ) (c : Mem Ff) {φ : List ℕ → PairZ n → ℝ} (hφ : ∀ l, Unit01 (φ l)) {d : ℝ} (hd : 0 ≤ d ∧ d ≤ 1) (R : ℕ) :
    ∀ l, 0 ≤ simSignMean n (sigmaSig n) m h c φ d R l ∧ simSignMean n (sigmaSig n) m h c φ d R l ≤ 1 := by
  obtain ⟨g0, g1⟩ := geo_mass hn m
  induction R with
  | zero => exact fun l => hd
  | succ R ih =>
    intro l
    rw [simSignMean]
    have hu : ∀ k : Fin (2 ^ (n + 1)) → Fin m, 0 ≤ cosetMean n (sigmaSig n) h c (fun s => open Classical in if Accept n s then φ (l ++ countsOf k) s else
        simSignMean n (sigmaSig n) m h c φ d R (l ++ countsOf k)) ∧ cosetMean n (sigmaSig n) h c (fun s => open Classical in if Accept n s then φ (l ++ countsOf k) s else
        simSignMean n (sigmaSig n) m h c φ d R (l ++ countsOf k)) ≤ 1 := by
      intro k
      have hv : ∀ s : PairZ n, 0 ≤ (open Classical in if Accept n s then φ (l ++ countsOf k) s else simSignMean n (sigmaSig n) m h c φ d R (l ++ countsOf k)) ∧
          (open Classical in if Accept n s then φ (l ++ countsOf k) s else simSignMean n (sigmaSig n) m h c φ d R (l ++ countsOf k)) ≤ 1 := by
        intro s
        split
        · exact hφ _ s
        · exact ih _
      refine ⟨cosetMean_nonneg fun s => (hv s).1, ?_⟩
      refine (cosetMean_mono hn tr c (fun s => (hv s).1) (fun s => (hv s).2) (e' := fun _ => 1) (b := 1) fun _ => le_rfl).trans (le_of_eq ?_)
      exact cosetMean_const hn tr c 1
    refine ⟨add_nonneg (Finset.sum_nonneg fun k _ => mul_nonneg (g0 k) (hu k).1) (mul_nonneg (by linarith) hd.1), ?_⟩
    have h1 := Finset.sum_le_sum fun k (_ : k ∈ (Finset.univ : Finset (Fin (2 ^ (n + 1)) → Fin m))) => mul_le_of_le_one_right (g0 k) (hu k).2
    have h2 : (1 - ∑ k : Fin (2 ^ (n + 1)) → Fin m, geoPr n k) * d ≤ 1 - ∑ k : Fin (2 ^ (n + 1)) → Fin m, geoPr n k :=
      mul_le_of_le_one_right (by linarith) hd.2
    linarith

theorem simSignMean_lin (m : ℕ) (c : Mem Ff) {φ φ' : List ℕ → PairZ n → ℝ} (hφ : ∀ l, Unit01 (φ l)) (hφ' : ∀ l, Unit01 (φ' l)) {d d' : ℝ}
    (hd : 0 ≤ d ∧ d ≤ 1) (hd' : 0 ≤ d' ∧ d' ≤ 1) (a b : ℝ) (R : ℕ) : ∀ l,
    simSignMean n (sigmaSig n) m h c (fun l s => a * φ l s + b * φ' l s) (a * d + b * d') R l =
      a * simSignMean n (sigmaSig n) m h c φ d R l + b * simSignMean n (sigmaSig n) m h c φ' d' R l := by
  classical
  induction R with
  | zero => exact fun l => rfl
  | succ R ih =>
    intro l
    rw [simSignMean, simSignMean, simSignMean]
    have e : ∀ k : Fin (2 ^ (n + 1)) → Fin m, cosetMean n (sigmaSig n) h c (fun s => if Accept n s then a * φ (l ++ countsOf k) s + b * φ' (l ++ countsOf k) s else
        simSignMean n (sigmaSig n) m h c (fun l s => a * φ l s + b * φ' l s) (a * d + b * d') R (l ++ countsOf k)) =
        a * cosetMean n (sigmaSig n) h c (fun s => if Accept n s then φ (l ++ countsOf k) s else simSignMean n (sigmaSig n) m h c φ d R (l ++ countsOf k)) +
        b * cosetMean n (sigmaSig n) h c (fun s => if Accept n s then φ' (l ++ countsOf k) s else simSignMean n (sigmaSig n) m h c φ' d' R (l ++ countsOf k)) := by
      intro k
      rw [ih, ← cosetMean_lin hn tr c]
      · congr 1
        funext s
        split <;> rfl
      · intro s
        split
        · exact hφ _ s
        · exact simSignMean_mem hn tr m c hφ hd R _
      · intro s
        split
        · exact hφ' _ s
        · exact simSignMean_mem hn tr m c hφ' hd' R _
    have e2 : ∀ (a : ℝ) (w : (Fin (2 ^ (n + 1)) → Fin m) → ℝ), ∑ k : Fin (2 ^ (n + 1)) → Fin m, geoPr n k * (a * w k) =
        a * ∑ k : Fin (2 ^ (n + 1)) → Fin m, geoPr n k * w k := fun a w => by
      rw [Finset.mul_sum]
      exact Finset.sum_congr rfl fun k _ => by ring
    rw [Finset.sum_congr rfl fun k _ => by rw [e k, mul_add], Finset.sum_add_distrib, e2, e2]
    ring

theorem simSignMean_one (m : ℕ) (c : Mem Ff) (R : ℕ) : ∀ l, simSignMean n (sigmaSig n) m h c (fun _ _ => 1) 1 R l = 1 := by
  induction R with
  | zero => exact fun l => rfl
  | succ R ih =>
    intro l
    rw [simSignMean]
    simp only [ih, ite_self]
    rw [cosetMean_const hn tr c 1]
    simp

open Classical in
theorem simSignMean_pr (m : ℕ) (c : Mem Ff) (E : List ℕ → PairZ n → Prop) (R : ℕ) : ∀ l,
    simSignMean n (sigmaSig n) m h c (fun l s => if E l s then 1 else 0) 0 R l = simSignPr n (sigmaSig n) m h c E R l := by
  induction R with
  | zero => exact fun l => rfl
  | succ R ih =>
    intro l
    rw [simSignMean, simSignPr, mul_zero, add_zero]
    refine Finset.sum_congr rfl fun k _ => ?_
    rw [ih]
    generalize simSignPr n (sigmaSig n) m h c E R (l ++ countsOf k) = w
    congr 1
    obtain ⟨s0, hW⟩ := coset_mass hn tr c
    have hs : ∀ E : PairZ n → Prop, Summable fun s : PairZ n => if InCoset n h c s ∧ E s then pairW (sigmaSig n) s else 0 := fun E =>
      Summable.of_nonneg_of_le (fun s => by split <;> first | exact (Real.exp_pos _).le | exact le_rfl) (fun s => by
        by_cases h1 : InCoset n h c s <;> by_cases h2 : E s <;> simp [h1, h2, pairW, (Real.exp_pos _).le]) s0
    unfold cosetMean cosetPr
    rw [div_mul_eq_mul_div, ← add_div, ← tsum_mul_right, ← (hs _).tsum_add ((hs _).mul_right w)]
    congr 1
    refine tsum_congr fun s => ?_
    by_cases h1 : InCoset n h c s <;> by_cases h2 : Accept n s <;> by_cases h3 : E (l ++ countsOf k) s <;> simp [h1, h2, h3]

end

end Falcon
