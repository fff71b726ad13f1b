import Verif.Proofs.Syndrome
import Mathlib.Topology.Algebra.InfiniteSum.Ring
import Mathlib.Topology.Algebra.InfiniteSum.Real
import Mathlib.Analysis.Normed.Ring.InfiniteSum

/-! # The spherical Gaussian on all pairs is a product of Gaussians -/

namespace Falcon

open Real

theorem hasSum_pi_prod : ∀ {d : ℕ} (f : Fin d → ℤ → ℝ), (∀ i z, 0 ≤ f i z) → (∀ i, Summable (f i)) →
    HasSum (fun v : Fin d → ℤ => ∏ i, f i (v i)) (∏ i, ∑' z, f i z) := by
  intro d
  induction d with
  | zero =>
    intro f _ _
    simp only [Finset.univ_eq_empty, Finset.prod_empty]
    exact hasSum_unique (fun _ : Fin 0 → ℤ => (1 : ℝ))
  | succ d ih =>
    intro f h0 hs
    have h1 := ih (fun i => f i.succ) (fun i z => h0 _ z) (fun i => hs _)
    have h2 := (hs 0).hasSum
    have hm : Summable fun x : ℤ × (Fin d → ℤ) => f 0 x.1 * ∏ i : Fin d, f i.succ (x.2 i) :=
      Summable.mul_of_nonneg (f := f 0) (g := fun v : Fin d → ℤ => ∏ i : Fin d, f i.succ (v i)) (hs 0) h1.summable (h0 0)
        (fun v => Finset.prod_nonneg fun i _ => h0 _ _)
    have h3 := h2.mul h1 hm
    rw [Fin.prod_univ_succ, ← (Fin.consEquiv fun _ : Fin (d + 1) => ℤ).hasSum_iff]
    refine h3.congr_fun ?_
    rintro ⟨z, v⟩
    show ∏ i, f i ((Fin.cons z v : Fin (d + 1) → ℤ) i) = _
    rw [Fin.prod_univ_succ]
    simp only [Fin.cons_zero, Fin.cons_succ]

variable {n : ℕ} {sigma : ℝ}

theorem pairW_prod (s : PairZ n) : pairW sigma s = (∏ i, gaussW 0 sigma (s.1 i)) * ∏ i, gaussW 0 sigma (s.2 i) := by
  unfold pairW gaussW
  rw [← Real.exp_sum, ← Real.exp_sum, ← Real.exp_add]
  congr 1
  rw [Finset.sum_neg_distrib, Finset.sum_neg_distrib, ← Finset.sum_div, ← Finset.sum_div]
  simp only [sub_zero]
  ring

theorem spher_hasSum (a b : Fin (2 ^ n) → ℤ → ℝ) (ha : ∀ i z, 0 ≤ a i z) (hb : ∀ i z, 0 ≤ b i z)
    (sa : ∀ i, Summable fun z => gaussW 0 sigma z * a i z) (sb : ∀ i, Summable fun z => gaussW 0 sigma z * b i z) :
    HasSum (fun s : PairZ n => pairW sigma s * ((∏ i, a i (s.1 i)) * ∏ i, b i (s.2 i)))
      ((∏ i, ∑' z, gaussW 0 sigma z * a i z) * ∏ i, ∑' z, gaussW 0 sigma z * b i z) := by
  have na : ∀ i z, 0 ≤ gaussW 0 sigma z * a i z := fun i z => mul_nonneg (gaussW_pos _ _ _).le (ha i z)
  have nb : ∀ i z, 0 ≤ gaussW 0 sigma z * b i z := fun i z => mul_nonneg (gaussW_pos _ _ _).le (hb i z)
  have h1 := hasSum_pi_prod _ na sa
  have h2 := hasSum_pi_prod _ nb sb
  have hm := Summable.mul_of_nonneg h1.summable h2.summable (fun v => Finset.prod_nonneg fun i _ => na _ _)
    (fun v => Finset.prod_nonneg fun i _ => nb _ _)
  refine (h1.mul h2 hm).congr_fun fun s => ?_
  rw [pairW_prod, Finset.prod_mul_distrib, Finset.prod_mul_distrib]
  ring

theorem spher_total (hs : 0 < sigma) : HasSum (fun s : PairZ n => pairW sigma s)
    ((∑' z, gaussW 0 sigma z) ^ 2 ^ n * (∑' z, gaussW 0 sigma z) ^ 2 ^ n) := by
  have := spher_hasSum (n := n) (sigma := sigma) (fun _ _ => 1) (fun _ _ => 1) (fun _ _ => zero_le_one) (fun _ _ => zero_le_one)
    (fun _ => by simpa using summable_gaussW 0 hs) (fun _ => by simpa using summable_gaussW 0 hs)
  simpa using this

theorem gaussMean_prod (a b : Fin (2 ^ n) → ℤ → ℝ) :
    (∏ i, gaussMean 0 sigma (a i)) * ∏ i, gaussMean 0 sigma (b i) =
      ((∏ i, ∑' z, gaussW 0 sigma z * a i z) * ∏ i, ∑' z, gaussW 0 sigma z * b i z) /
        ((∑' z, gaussW 0 sigma z) ^ 2 ^ n * (∑' z, gaussW 0 sigma z) ^ 2 ^ n) := by
  unfold gaussMean
  rw [Finset.prod_div_distrib, Finset.prod_div_distrib, div_mul_div_comm, Finset.prod_const, Finset.card_univ, Fintype.card_fin]

open Classical in
theorem summable_ind (hs : 0 < sigma) (E : PairZ n → Prop) : Summable fun s : PairZ n => if E s then pairW sigma s else 0 :=
  Summable.of_nonneg_of_le (fun s => by split <;> first | exact (Real.exp_pos _).le | exact le_rfl)
    (fun s => by split <;> first | exact le_rfl | exact (Real.exp_pos _).le) (spher_total hs).summable

/-- Chernoff bound. -/
theorem spher_le (hs : 0 < sigma) {E : PairZ n → Prop} (K : ℝ) (a b : Fin (2 ^ n) → ℤ → ℝ) (hK : 0 ≤ K) (ha : ∀ i z, 0 ≤ a i z)
    (hb : ∀ i z, 0 ≤ b i z) (sa : ∀ i, Summable fun z => gaussW 0 sigma z * a i z) (sb : ∀ i, Summable fun z => gaussW 0 sigma z * b i z)
    (hE : ∀ s, E s → 1 ≤ K * ((∏ i, a i (s.1 i)) * ∏ i, b i (s.2 i))) :
    sphericalPr n sigma E ≤ K * ((∏ i, gaussMean 0 sigma (a i)) * ∏ i, gaussMean 0 sigma (b i)) := by
  classical
  have h1 := spher_hasSum a b ha hb sa sb
  unfold sphericalPr
  rw [(spher_total hs).tsum_eq, gaussMean_prod, ← mul_div_assoc]
  refine div_le_div_of_nonneg_right ?_ (by have := gauss_total_pos 0 hs; positivity)
  rw [← h1.tsum_eq, ← tsum_mul_left]
  refine (summable_ind hs E).tsum_le_tsum (fun s => ?_) (h1.summable.mul_left K)
  have hw : 0 < pairW sigma s := Real.exp_pos _
  split
  · rename_i h
    have := mul_le_mul_of_nonneg_left (hE s h) hw.le
    linarith
  · exact mul_nonneg hK (mul_nonneg hw.le (mul_nonneg (Finset.prod_nonneg fun i _ => ha _ _) (Finset.prod_nonneg fun i _ => hb _ _)))

/-- Independence. -/
theorem spher_eq (hs : 0 < sigma) {E : PairZ n → Prop} (a b : Fin (2 ^ n) → Set ℤ) (hE : ∀ s, E s ↔ (∀ i, s.1 i ∈ a i) ∧ ∀ i, s.2 i ∈ b i) :
    sphericalPr n sigma E = (∏ i, gaussPr 0 sigma (a i)) * ∏ i, gaussPr 0 sigma (b i) := by
  classical
  have hsum : ∀ A : Set ℤ, Summable fun z => gaussW 0 sigma z * if z ∈ A then 1 else 0 := fun A =>
    Summable.of_nonneg_of_le (fun z => mul_nonneg (gaussW_pos _ _ _).le (by split <;> norm_num))
      (fun z => mul_le_of_le_one_right (gaussW_pos _ _ _).le (by split <;> norm_num)) (summable_gaussW 0 hs)
  have h1 := spher_hasSum (n := n) (sigma := sigma) (fun i z => if z ∈ a i then 1 else 0) (fun i z => if z ∈ b i then 1 else 0)
    (fun i z => by split <;> norm_num) (fun i z => by split <;> norm_num) (fun i => hsum _) (fun i => hsum _)
  unfold sphericalPr gaussPr
  rw [(spher_total hs).tsum_eq, gaussMean_prod, ← h1.tsum_eq]
  congr 1
  refine tsum_congr fun s => ?_
  by_cases h : E s
  · obtain ⟨p, r⟩ := (hE s).mp h
    rw [if_pos h, Finset.prod_eq_one fun i _ => if_pos (p i), Finset.prod_eq_one fun i _ => if_pos (r i)]
    ring
  · rw [if_neg h]
    rw [hE, not_and_or, not_forall, not_forall] at h
    rcases h with ⟨i, h⟩ | ⟨i, h⟩
    · rw [Finset.prod_eq_zero (Finset.mem_univ i) (if_neg h)]
      ring
    · rw [Finset.prod_eq_zero (s := Finset.univ) (f := fun i => if s.2 i ∈ b i then (1 : ℝ) else 0) (Finset.mem_univ i) (if_neg h)]
      ring

theorem spher_nonneg (E : PairZ n → Prop) : 0 ≤ sphericalPr n sigma E := by
  classical
  unfold sphericalPr
  refine div_nonneg (tsum_nonneg fun s => ?_) (tsum_nonneg fun s => (Real.exp_pos _).le)
  split
  · exact (Real.exp_pos _).le
  · exact le_rfl

theorem spher_mono (hs : 0 < sigma) {E E' : PairZ n → Prop} (h : ∀ s, E s → E' s) : sphericalPr n sigma E ≤ sphericalPr n sigma E' := by
  classical
  unfold sphericalPr
  refine div_le_div_of_nonneg_right ((summable_ind hs E).tsum_le_tsum (fun s => ?_) (summable_ind hs E')) (tsum_nonneg fun s => (Real.exp_pos _).le)
  by_cases h1 : E s
  · rw [if_pos h1, if_pos (h s h1)]
  · rw [if_neg h1]
    split
    · exact (Real.exp_pos _).le
    · exact le_rfl

theorem spher_or (hs : 0 < sigma) (E E' : PairZ n → Prop) :
    sphericalPr n sigma (fun s => E s ∨ E' s) ≤ sphericalPr n sigma E + sphericalPr n sigma E' := by
  classical
  unfold sphericalPr
  rw [← add_div, ← (summable_ind hs E).tsum_add (summable_ind hs E')]
  refine div_le_div_of_nonneg_right ((summable_ind hs _).tsum_le_tsum (fun s => ?_) ((summable_ind hs E).add (summable_ind hs E')))
    (tsum_nonneg fun s => (Real.exp_pos _).le)
  have hw : 0 < pairW sigma s := Real.exp_pos _
  by_cases h1 : E s <;> by_cases h2 : E' s <;> simp [h1, h2, hw.le]

theorem spher_exists (hs : 0 < sigma) (E : Fin (2 ^ n) → PairZ n → Prop) :
    sphericalPr n sigma (fun s => ∃ i, E i s) ≤ ∑ i, sphericalPr n sigma (E i) := by
  classical
  unfold sphericalPr
  rw [← Finset.sum_div, ← Summable.tsum_finsetSum fun i _ => summable_ind hs (E i)]
  refine div_le_div_of_nonneg_right ((summable_ind hs _).tsum_le_tsum (fun s => ?_) (summable_sum fun i _ => summable_ind hs (E i)))
    (tsum_nonneg fun s => (Real.exp_pos _).le)
  have hw : 0 < pairW sigma s := Real.exp_pos _
  have hn : ∀ i ∈ Finset.univ, 0 ≤ if E i s then pairW sigma s else 0 := fun i _ => by split <;> first | exact hw.le | exact le_rfl
  split
  · rename_i h
    obtain ⟨i, h⟩ := h
    refine le_trans (le_of_eq ?_) (Finset.single_le_sum hn (Finset.mem_univ i))
    rw [if_pos h]
  · exact Finset.sum_nonneg hn

/-- Events of which at most one can happen. -/
theorem spher_disjoint (hs : 0 < sigma) (E : Fin (2 ^ n) → PairZ n → Prop) (hd : ∀ s i j, E i s → E j s → i = j) :
    ∑ i, sphericalPr n sigma (E i) ≤ sphericalPr n sigma (fun s => ∃ i, E i s) := by
  classical
  unfold sphericalPr
  rw [← Finset.sum_div, ← Summable.tsum_finsetSum fun i _ => summable_ind hs (E i)]
  refine div_le_div_of_nonneg_right ((summable_sum fun i _ => summable_ind hs (E i)).tsum_le_tsum (fun s => ?_) (summable_ind hs _))
    (tsum_nonneg fun s => (Real.exp_pos _).le)
  split
  · rename_i h
    obtain ⟨i, h⟩ := h
    rw [Finset.sum_eq_single i (fun j _ hj => if_neg fun h' => hj (hd s j i h' h)) (fun h => absurd (Finset.mem_univ i) h), if_pos h]
  · rename_i h
    rw [Finset.sum_eq_zero fun i _ => if_neg fun h' => h ⟨i, h'⟩]

end Falcon
