import Verif.Proofs.ChiCoset

/-! # Fast Fourier sampling with the integer sampler of the code, for a secret key -/

namespace Falcon

open Real OTree

theorem trap_norm {n : ℕ} (hn : ValidLog n) {h : Mem Ff} {f g F G : Mem Int} (tr : Trapdoor n h f g F G) :
    gramSchmidtNorm exactA n f g ≤ 16822.412 := by
  have hn10 : n ≤ 10 := by rcases hn with rfl | rfl <;> norm_num
  exact gsAtMost_norm hn10 (fgNorm_pos hn10 tr.eq) tr.gs

theorem trap_gs {n : ℕ} (hn : ValidLog n) {h : Mem Ff} {f g F G : Mem Int} (tr : Trapdoor n h f g F G) :
    gsTooBig exactA n f g = false := by
  unfold gsTooBig
  rw [exact_threshold]
  have := trap_norm hn tr
  show @decide (gramSchmidtNorm exactA n f g > 1.17 * 1.17 * 12289) (Classical.propDecidable _) = false
  exact decide_eq_false (not_lt.mpr (this.trans (by norm_num)))

theorem trap_small {n : ℕ} {h : Mem Ff} {f g F G : Mem Int} (tr : Trapdoor n h f g F G) : GsSmall n f g :=
  tr.gs.mono (by norm_num)

theorem low_exact_const {n : ℕ} (hn : ValidLog n) : sigmaMin n ^ 2 * 16822.412 ≤ sigSigma exactA n ^ 2 := by
  rw [sigSigma_exact]
  unfold sigmaSig
  rcases hn with rfl | rfl
  · rw [sigmaMin9_eq, if_neg (by norm_num)]; norm_num
  · rw [sigmaMin10_eq, if_pos rfl]; norm_num

/-- Leaves between both bounds. -/
theorem leaves_both {A : Arith ℝ ℂ} (hA : Accurate A) {n : ℕ} (hn : ValidLog n) {f g F G : Mem Int} (heq : NtruEq n f g F G)
    (hfit : FitsFormat n f g F G) (hgs : GsSmall n f g) {B0 T0 : Mem ℂ} {t : FTree ℂ}
    (ht : TreeAt n (computeFalconTree A n (computeMatrixB A n f g F G B0) T0) 0 0 t) (hl : ∀ v ∈ t.leaves, sigmaMin n ≤ A.re v) :
    ∀ v ∈ t.leaves, sigmaMin n ≤ A.re v ∧ A.re v ≤ 182 / 100 := by
  obtain ⟨l, L, R, hr, -, -, -, -, vL, vR⟩ := tree_float hA hn heq hfit hgs B0 T0
  have e := rep_leaves_unique _ _ _ _ _ ((treeAt_root _ _ _).mp ht) hr
  intro v hv
  refine ⟨hl v hv, ?_⟩
  rw [hA.re]
  rw [e] at hv
  simp only [FTree.leaves, List.mem_append] at hv
  rcases hv with hv | hv
  · exact (vL v hv).2
  · exact (vR v hv).2

open Classical in
theorem cosetPr_mem {n : ℕ} (hn : ValidLog n) {h : Mem Ff} {f g F G : Mem Int} (tr : Trapdoor n h f g F G) (c : Mem Ff)
    (E : PairZ n → Prop) : 0 ≤ cosetPr n (sigmaSig n) h c E ∧ cosetPr n (sigmaSig n) h c E ≤ 1 ∧
      cosetPr n (sigmaSig n) h c E + cosetPr n (sigmaSig n) h c (fun s => ¬ E s) = 1 := by
  obtain ⟨s0, m1, -, -⟩ := ideal_coset hn tr.eq tr.pub tr.inv (trap_gs hn tr) (sigmaSig_low hn) (fun _ => 0) (fun _ => 0) (fun _ => 0)
    (fun _ => 0) c E
  have hW : 0 < ∑' s : PairZ n, if InCoset n h c s then pairW (sigmaSig n) s else 0 := by
    refine lt_of_lt_of_le ?_ m1
    have := sigmaSig_pos n
    have : (0 : ℝ) < (1 - 1 / 2 ^ 38) ^ 2 ^ (n + 1) := pow_pos (by norm_num) _
    positivity
  have hsum : ∀ E : PairZ n → Prop, Summable fun s : PairZ n => if InCoset n h c s ∧ E s then pairW (sigmaSig n) s else 0 := fun E =>
    Summable.of_nonneg_of_le (fun s => by split <;> first | exact (Real.exp_pos _).le | exact le_rfl) (fun s => by
      by_cases h1 : InCoset n h c s <;> by_cases h2 : E s <;> simp [h1, h2, pairW, (Real.exp_pos _).le]) s0
  have h0 : ∀ E : PairZ n → Prop, 0 ≤ cosetPr n (sigmaSig n) h c E := fun E =>
    div_nonneg (tsum_nonneg fun s => by split <;> first | exact (Real.exp_pos _).le | exact le_rfl) hW.le
  have hadd : cosetPr n (sigmaSig n) h c E + cosetPr n (sigmaSig n) h c (fun s => ¬ E s) = 1 := by
    unfold cosetPr
    rw [← add_div, div_eq_one_iff_eq hW.ne', ← (hsum E).tsum_add (hsum fun s => ¬ E s)]
    refine tsum_congr fun s => ?_
    by_cases h1 : InCoset n h c s <;> by_cases h2 : E s <;> simp [h1, h2]
  exact ⟨h0 E, by linarith [h0 fun s => ¬ E s], hadd⟩

open Classical in
theorem cosetPr_mono {n : ℕ} (hn : ValidLog n) {h : Mem Ff} {f g F G : Mem Int} (tr : Trapdoor n h f g F G) (c : Mem Ff)
    {E E' : PairZ n → Prop} (hE : ∀ s, E s → E' s) : cosetPr n (sigmaSig n) h c E ≤ cosetPr n (sigmaSig n) h c E' := by
  obtain ⟨s0, -⟩ := ideal_coset hn tr.eq tr.pub tr.inv (trap_gs hn tr) (sigmaSig_low hn) (fun _ => 0) (fun _ => 0) (fun _ => 0)
    (fun _ => 0) c E
  have hsum : ∀ E : PairZ n → Prop, Summable fun s : PairZ n => if InCoset n h c s ∧ E s then pairW (sigmaSig n) s else 0 := fun E =>
    Summable.of_nonneg_of_le (fun s => by split <;> first | exact (Real.exp_pos _).le | exact le_rfl) (fun s => by
      by_cases h1 : InCoset n h c s <;> by_cases h2 : E s <;> simp [h1, h2, pairW, (Real.exp_pos _).le]) s0
  unfold cosetPr
  refine div_le_div_of_nonneg_right ((hsum E).tsum_le_tsum (fun s => ?_) (hsum E')) (tsum_nonneg fun s => by
    split <;> first | exact (Real.exp_pos _).le | exact le_rfl)
  by_cases h1 : InCoset n h c s <;> by_cases h2 : E s
  · simp [h1, h2, hE s h2]
  · simp only [h1, h2, and_false, if_false]
    split <;> first | exact (Real.exp_pos _).le | exact le_rfl
  · simp [h1]
  · simp [h1]

open Classical in
theorem coset_mass {n : ℕ} (hn : ValidLog n) {h : Mem Ff} {f g F G : Mem Int} (tr : Trapdoor n h f g F G) (c : Mem Ff) :
    (Summable fun s : PairZ n => if InCoset n h c s then pairW (sigmaSig n) s else 0) ∧
    0 < ∑' s : PairZ n, if InCoset n h c s then pairW (sigmaSig n) s else 0 := by
  obtain ⟨s0, m1, -, -⟩ := ideal_coset hn tr.eq tr.pub tr.inv (trap_gs hn tr) (sigmaSig_low hn) (fun _ => 0) (fun _ => 0) (fun _ => 0)
    (fun _ => 0) c (fun _ => True)
  refine ⟨s0, lt_of_lt_of_le ?_ m1⟩
  have := sigmaSig_pos n
  have : (0 : ℝ) < (1 - 1 / 2 ^ 38) ^ 2 ^ (n + 1) := pow_pos (by norm_num) _
  positivity

theorem cosetMean_nonneg {n : ℕ} {sigma : ℝ} {h c : Mem Ff} {e : PairZ n → ℝ} (e0 : ∀ s, 0 ≤ e s) : 0 ≤ cosetMean n sigma h c e :=
  div_nonneg (tsum_nonneg fun s => by split <;> first | exact mul_nonneg (Real.exp_pos _).le (e0 s) | exact le_rfl)
    (tsum_nonneg fun s => by split <;> first | exact (Real.exp_pos _).le | exact le_rfl)

theorem cosetMean_smul {n : ℕ} {sigma : ℝ} {h c : Mem Ff} (a : ℝ) (e : PairZ n → ℝ) :
    cosetMean n sigma h c (fun s => a * e s) = a * cosetMean n sigma h c e := by
  unfold cosetMean
  rw [← mul_div_assoc, ← tsum_mul_left]
  congr 1
  refine tsum_congr fun s => ?_
  split
  · ring
  · rw [mul_zero]

theorem cosetMean_mono {n : ℕ} (hn : ValidLog n) {h : Mem Ff} {f g F G : Mem Int} (tr : Trapdoor n h f g F G) (c : Mem Ff)
    {e e' : PairZ n → ℝ} (e0 : ∀ s, 0 ≤ e s) (he : ∀ s, e s ≤ e' s) {b : ℝ} (hb : ∀ s, e' s ≤ b) :
    cosetMean n (sigmaSig n) h c e ≤ cosetMean n (sigmaSig n) h c e' := by
  classical
  obtain ⟨s0, hW⟩ := coset_mass hn tr c
  have hs : ∀ e : PairZ n → ℝ, (∀ s, 0 ≤ e s) → (∀ s, e s ≤ b) → Summable fun s : PairZ n => if InCoset n h c s then pairW (sigmaSig n) s * e s else 0 := by
    intro e h0 h1
    refine Summable.of_nonneg_of_le (fun s => by split <;> first | exact mul_nonneg (Real.exp_pos _).le (h0 s) | exact le_rfl) (fun s => ?_) (s0.mul_right b)
    split
    · exact mul_le_mul_of_nonneg_left (h1 s) (Real.exp_pos _).le
    · rw [zero_mul]
  unfold cosetMean
  refine div_le_div_of_nonneg_right ((hs e e0 fun s => (he s).trans (hb s)).tsum_le_tsum (fun s => ?_) (hs e' (fun s => (e0 s).trans (he s)) hb)) hW.le
  split
  · exact mul_le_mul_of_nonneg_left (he s) (Real.exp_pos _).le
  · exact le_rfl

theorem cosetMean_const {n : ℕ} (hn : ValidLog n) {h : Mem Ff} {f g F G : Mem Int} (tr : Trapdoor n h f g F G) (c : Mem Ff) (a : ℝ) :
    cosetMean n (sigmaSig n) h c (fun _ => a) = a := by
  have e := cosetMean_smul (n := n) (sigma := sigmaSig n) (h := h) (c := c) a fun _ => 1
  simp only [mul_one] at e
  rw [e]
  unfold cosetMean
  simp only [mul_one]
  rw [div_self (coset_mass hn tr c).2.ne', mul_one]

theorem cosetMean_lin {n : ℕ} (hn : ValidLog n) {h : Mem Ff} {f g F G : Mem Int} (tr : Trapdoor n h f g F G) (c : Mem Ff)
    {e e' : PairZ n → ℝ} (e0 : ∀ s, 0 ≤ e s ∧ e s ≤ 1) (e1 : ∀ s, 0 ≤ e' s ∧ e' s ≤ 1) (a b : ℝ) :
    cosetMean n (sigmaSig n) h c (fun s => a * e s + b * e' s) = a * cosetMean n (sigmaSig n) h c e + b * cosetMean n (sigmaSig n) h c e' := by
  classical
  obtain ⟨s0, hW⟩ := coset_mass hn tr c
  have hs : ∀ e : PairZ n → ℝ, (∀ s, 0 ≤ e s ∧ e s ≤ 1) → Summable fun s : PairZ n => if InCoset n h c s then pairW (sigmaSig n) s * e s else 0 := by
    intro e h0
    refine Summable.of_nonneg_of_le (fun s => by split <;> first | exact mul_nonneg (Real.exp_pos _).le (h0 s).1 | exact le_rfl) (fun s => ?_) s0
    split
    · exact mul_le_of_le_one_right (Real.exp_pos _).le (h0 s).2
    · exact le_rfl
  unfold cosetMean
  rw [← mul_div_assoc, ← mul_div_assoc, ← add_div, ← tsum_mul_left, ← tsum_mul_left, ← ((hs e e0).mul_left a).tsum_add ((hs e' e1).mul_left b)]
  congr 1
  refine tsum_congr fun s => ?_
  by_cases h1 : InCoset n h c s
  · simp only [if_pos h1]; ring
  · simp only [if_neg h1]; ring

open Classical in
theorem cosetPr_mean {n : ℕ} {sigma : ℝ} {h c : Mem Ff} (E : PairZ n → Prop) :
    cosetPr n sigma h c E = cosetMean n sigma h c fun s => if E s then 1 else 0 := by
  unfold cosetPr cosetMean
  congr 1
  refine tsum_congr fun s => ?_
  by_cases h1 : InCoset n h c s <;> by_cases h2 : E s <;> simp [h1, h2]

section
open BTree

open Classical in
theorem freq_ff {n m : ℕ} {t0 t1 T z0 z1 : Mem ℂ} {P : OTree (Mem ℂ × Mem ℂ)} (hd : OTree.Depth P (2 ^ (n + 1)))
    (hP : ∀ (S : Type) (leaf : LeafSampler ℝ S) (s : S), ffSampling exactA leaf n 0 t0 t1 T z0 z1 s =
      bindO (interp leaf P s) fun r => some (.ok (r.1.1, r.1.2, r.2))) (Q : Mem ℂ → Mem ℂ → Prop) :
    freq (18 * m * 2 ^ (n + 1)) (fun s => ∃ r, ffSampling exactA (codeLeaf false n m s) n 0 t0 t1 T z0 z1 0 = some (.ok r) ∧ Q r.1 r.2.1) =
      (ctree false (sigmaMin n) m P).mean fun x => if ∃ a : Mem ℂ × Mem ℂ, x = some (.ok a) ∧ Q a.1 a.2 then 1 else 0 := by
  rw [← BTree.freq_eq (depth_ctree false (sigmaMin n) m hd) fun x => ∃ a : Mem ℂ × Mem ℂ, x = some (.ok a) ∧ Q a.1 a.2]
  congr 1
  funext s
  rw [hP, interp_ctree]
  generalize BTree.run (ctree false (sigmaMin n) m P) s 0 = x
  obtain ⟨x, q⟩ := x
  apply propext
  match x with
  | none => simp [bindO]
  | some (.error u) => simp [bindO, Except.map]
  | some (.ok a) =>
    constructor
    · rintro ⟨r, hr, h⟩
      have hr : (a.1, a.2, q) = r := Except.ok.inj (Option.some.inj hr)
      subst hr
      exact ⟨a, rfl, h⟩
    · rintro ⟨a', ha, h⟩
      have ha : a = a' := Except.ok.inj (Option.some.inj ha)
      subst ha
      exact ⟨(a.1, a.2, q), rfl, h⟩

end

theorem dft_unique {n : ℕ} (hn10 : n ≤ 10) {x y : Mem ℂ} {s s' : PairZ n} (hs : IsDftOf n x (tapeOf s.1) ∧ IsDftOf n y (tapeOf s.2))
    (hs' : IsDftOf n x (tapeOf s'.1) ∧ IsDftOf n y (tapeOf s'.2)) : s = s' := by
  refine Prod.ext (funext fun i => ?_) (funext fun i => ?_)
  · have := zC_inj hn10 (fun j hj => (hs.1 j hj).symm.trans (hs'.1 j hj)) i.1 i.2
    rwa [tapeOf_lt _ i.2, tapeOf_lt _ i.2] at this
  · have := zC_inj hn10 (fun j hj => (hs.2 j hj).symm.trans (hs'.2 j hj)) i.1 i.2
    rwa [tapeOf_lt _ i.2, tapeOf_lt _ i.2] at this

/-- One round of signing with a secret key. -/
theorem trap_round {n : ℕ} (hn : ValidLog n) {h : Mem Ff} {f g F G : Mem Int} (tr : Trapdoor n h f g F G)
    (B0 T0 z0 z1 : Mem ℂ) {c : Mem Ff} (hc : CanonBelow (2 ^ n) c) :
    let B := computeMatrixB exactA n f g F G B0
    let t := signTarget exactA n B c
    ∃ P : OTree (Mem ℂ × Mem ℂ), OTree.Depth P (2 ^ (n + 1)) ∧
      (∀ (S : Type) (leaf : LeafSampler ℝ S) (s : S), ffSampling exactA leaf n 0 t.1 t.2 (computeFalconTree exactA n B T0) z0 z1 s =
        bindO (interp leaf P s) fun r => some (.ok (r.1.1, r.1.2, r.2))) ∧
      ∀ (m : ℕ) (e : PairZ n → ℝ) (Gv : Option (Except UB (Mem ℂ × Mem ℂ)) → ℝ), (∀ s, 0 ≤ e s) → (∀ s, e s ≤ 1) → Gv none = 0 →
        (∀ a, 0 ≤ Gv (some (.ok a))) → (∀ a, Gv (some (.ok a)) ≤ 1) →
        (∀ a (s : PairZ n), IsDftOf n (signVec exactA n B t.1 t.2 a.1 a.2).1 (tapeOf s.1) →
          IsDftOf n (signVec exactA n B t.1 t.2 a.1 a.2).2 (tapeOf s.2) → Gv (some (.ok a)) = e s) →
        0 ≤ (ctree false (sigmaMin n) m P).mean Gv ∧
        (ctree false (sigmaMin n) m P).mean Gv ^ 2 ≤ (1 + 1 / 2 ^ 64) * cosetMean n (sigmaSig n) h c (fun s => e s ^ 2) ∧
        |(ctree false (sigmaMin n) m P).mean Gv - cosetMean n (sigmaSig n) h c e| ≤
          1 / 2 ^ 32 * √(cosetMean n (sigmaSig n) h c fun s => e s ^ 2) + 2 ^ (n + 1) * (1 / 2 ^ m) ∧
        ((∀ s, e s = 1) → 1 - 2 ^ (n + 1) * (1 / 2 ^ m) ≤ (ctree false (sigmaMin n) m P).mean Gv) := by
  intro B t
  obtain ⟨tt, ht, hl⟩ := tree_low_exact hn tr.eq (trap_norm hn tr) (low_exact_const hn) B0 T0
  have hl' := leaves_both accurate_exact hn tr.eq tr.fits (trap_small tr) ht hl
  exact round_chi hn tr.eq tr.pub tr.inv (trap_gs hn tr) B0 T0 z0 z1 c ht hl'
    (fun S leaf hg s e => signSampling_defined accurate_exact hg hn tr.eq tr.fits (trap_small tr) B0 T0 z0 z1 hc s e)

theorem code_coset_rel {n : ℕ} (hn : ValidLog n) {h : Mem Ff} {f g F G : Mem Int} (tr : Trapdoor n h f g F G)
    (B0 T0 z0 z1 : Mem ℂ) {c : Mem Ff} (hc : CanonBelow (2 ^ n) c) (m : ℕ) (E : PairZ n → Prop) :
    let B := computeMatrixB exactA n f g F G B0
    let t := signTarget exactA n B c
    let p := freq (18 * m * 2 ^ (n + 1)) (fun st => ∃ r, ffSampling exactA (codeLeaf false n m st) n 0 t.1 t.2
          (computeFalconTree exactA n B T0) z0 z1 0 = some (.ok r) ∧
          ∃ s : PairZ n, IsDftOf n (signVec exactA n B t.1 t.2 r.1 r.2.1).1 (tapeOf s.1) ∧
            IsDftOf n (signVec exactA n B t.1 t.2 r.1 r.2.1).2 (tapeOf s.2) ∧ E s)
    p ^ 2 ≤ (1 + 1 / 2 ^ 64) * cosetPr n (sigmaSig n) h c E ∧
    |p - cosetPr n (sigmaSig n) h c E| ≤ 1 / 2 ^ 32 * √(cosetPr n (sigmaSig n) h c E) + 2 ^ (n + 1) * (1 / 2 ^ m) := by
  classical
  intro B t p
  have hn10 : n ≤ 10 := by rcases hn with rfl | rfl <;> norm_num
  obtain ⟨P, hd, hP, hr⟩ := trap_round hn tr B0 T0 z0 z1 hc
  have hp : p = _ := freq_ff (m := m) hd hP fun y0 y1 => ∃ s : PairZ n, IsDftOf n (signVec exactA n B t.1 t.2 y0 y1).1 (tapeOf s.1) ∧
            IsDftOf n (signVec exactA n B t.1 t.2 y0 y1).2 (tapeOf s.2) ∧ E s
  have := hr m (fun s => if E s then 1 else 0) (fun x => if ∃ a : Mem ℂ × Mem ℂ, x = some (.ok a) ∧
      ∃ s : PairZ n, IsDftOf n (signVec exactA n B t.1 t.2 a.1 a.2).1 (tapeOf s.1) ∧
            IsDftOf n (signVec exactA n B t.1 t.2 a.1 a.2).2 (tapeOf s.2) ∧ E s then 1 else 0)
    (fun s => by split <;> norm_num) (fun s => by split <;> norm_num) (by simp) (fun s => by split <;> norm_num) (fun s => by split <;> norm_num)
    (fun a s h1 h2 => by
      have : (∃ a' : Mem ℂ × Mem ℂ, (some (.ok a) : Option (Except UB (Mem ℂ × Mem ℂ))) = some (.ok a') ∧
          ∃ s : PairZ n, IsDftOf n (signVec exactA n B t.1 t.2 a'.1 a'.2).1 (tapeOf s.1) ∧
            IsDftOf n (signVec exactA n B t.1 t.2 a'.1 a'.2).2 (tapeOf s.2) ∧ E s) ↔ E s := by
        constructor
        · rintro ⟨a', ha, s', h3, h4, h5⟩
          have ha : a = a' := Except.ok.inj (Option.some.inj ha)
          subst ha
          rwa [dft_unique hn10 ⟨h1, h2⟩ ⟨h3, h4⟩]
        · exact fun h => ⟨a, rfl, s, h1, h2, h⟩
      simp only [this])
  have e2 : (fun s : PairZ n => (if E s then (1 : ℝ) else 0) ^ 2) = fun s => if E s then 1 else 0 := by
    funext s
    split <;> norm_num
  rw [e2, ← cosetPr_mean] at this
  rw [hp]
  exact ⟨this.2.1, this.2.2.1⟩

theorem code_coset {n : ℕ} (hn : ValidLog n) {h : Mem Ff} {f g F G : Mem Int} (tr : Trapdoor n h f g F G)
    (B0 T0 z0 z1 : Mem ℂ) {c : Mem Ff} (hc : CanonBelow (2 ^ n) c) (m : ℕ) (E : PairZ n → Prop) :
    let B := computeMatrixB exactA n f g F G B0
    let t := signTarget exactA n B c
    |freq (18 * m * 2 ^ (n + 1)) (fun st => ∃ r, ffSampling exactA (codeLeaf false n m st) n 0 t.1 t.2
          (computeFalconTree exactA n B T0) z0 z1 0 = some (.ok r) ∧
          ∃ s : PairZ n, IsDftOf n (signVec exactA n B t.1 t.2 r.1 r.2.1).1 (tapeOf s.1) ∧
            IsDftOf n (signVec exactA n B t.1 t.2 r.1 r.2.1).2 (tapeOf s.2) ∧ E s)
      - cosetPr n (sigmaSig n) h c E| ≤ roundErr n m := by
  intro B t
  refine (code_coset_rel hn tr B0 T0 z0 z1 hc m E).2.trans ?_
  unfold roundErr
  have h3 : √(cosetPr n (sigmaSig n) h c E) ≤ 1 := Real.sqrt_le_one.mpr (cosetPr_mem hn tr c E).2.1
  refine add_le_add ?_ le_rfl
  exact mul_le_of_le_one_right (by norm_num) h3

end Falcon
