import Verif.Proofs.CosetGauss

/-! # Fast Fourier sampling with ideal answers is the spherical Gaussian on the preimages -/

namespace Falcon

open Real OTree

open Classical in
/-- Probabilities proportional to weights up to a factor between a and b. -/
theorem ratio_bound {ι : Type} {p w : ι → ℝ} {a b δ : ℝ} (ha : 0 < a) (hp : HasSum p 1) (hp0 : ∀ v, 0 ≤ p v)
    (hw : ∀ v, a * p v ≤ w v ∧ w v ≤ b * p v) (hδ : b ≤ a * (1 + δ)) (E : ι → Prop) :
    |(∑' v, if E v then p v else 0) - (∑' v, if E v then w v else 0) / ∑' v, w v| ≤
      δ * ((∑' v, if E v then w v else 0) / ∑' v, w v) := by
  have hw0 : ∀ v, 0 ≤ w v := fun v => (mul_nonneg ha.le (hp0 v)).trans (hw v).1
  have sw : Summable w := Summable.of_nonneg_of_le hw0 (fun v => (hw v).2) (hp.summable.mul_left b)
  have spE : Summable fun v => if E v then p v else 0 :=
    Summable.of_nonneg_of_le (fun v => by split <;> first | exact hp0 v | exact le_rfl)
      (fun v => by split <;> first | exact le_rfl | exact hp0 v) hp.summable
  have swE : Summable fun v => if E v then w v else 0 :=
    Summable.of_nonneg_of_le (fun v => by split <;> first | exact hw0 v | exact le_rfl)
      (fun v => by split <;> first | exact le_rfl | exact hw0 v) sw
  have W1 : a ≤ ∑' v, w v := by
    have := (hp.summable.mul_left a).tsum_le_tsum (fun v => (hw v).1) sw
    rwa [tsum_mul_left, hp.tsum_eq, mul_one] at this
  have W2 : ∑' v, w v ≤ b := by
    have := sw.tsum_le_tsum (fun v => (hw v).2) (hp.summable.mul_left b)
    rwa [tsum_mul_left, hp.tsum_eq, mul_one] at this
  have E1 : a * (∑' v, if E v then p v else 0) ≤ ∑' v, if E v then w v else 0 := by
    rw [← tsum_mul_left]
    exact (spE.mul_left a).tsum_le_tsum (fun v => by split <;> simp [(hw v).1]) swE
  have E2 : (∑' v, if E v then w v else 0) ≤ b * ∑' v, if E v then p v else 0 := by
    rw [← tsum_mul_left]
    exact swE.tsum_le_tsum (fun v => by split <;> simp [(hw v).2]) (spE.mul_left b)
  have E0 : 0 ≤ ∑' v, if E v then w v else 0 := tsum_nonneg fun v => by split <;> first | exact hw0 v | exact le_rfl
  have P0 : 0 ≤ ∑' v, if E v then p v else 0 := tsum_nonneg fun v => by split <;> first | exact hp0 v | exact le_rfl
  generalize (∑' v, if E v then w v else 0) = wE at *
  generalize (∑' v, if E v then p v else 0) = pE at *
  generalize ∑' v, w v = W at *
  have hW : 0 < W := lt_of_lt_of_le ha W1
  have hab : a ≤ b := W1.trans W2
  have hδ0 : 0 ≤ δ := by
    by_contra h
    nlinarith
  rw [abs_le]
  constructor
  · -- W pE ≥ (1 - δ) wE
    have : (1 - δ) * wE ≤ W * pE := by
      by_cases h1 : δ ≤ 1
      · have h2 : b * (1 - δ) ≤ a := by nlinarith
        have h3 : (1 - δ) * wE ≤ (1 - δ) * (b * pE) := mul_le_mul_of_nonneg_left E2 (by linarith)
        have h4 : b * (1 - δ) * pE ≤ a * pE := mul_le_mul_of_nonneg_right h2 P0
        have h5 : a * pE ≤ W * pE := mul_le_mul_of_nonneg_right W1 P0
        linarith
      · have : 0 ≤ W * pE := by positivity
        nlinarith
    have e : pE - wE / W + δ * (wE / W) = (W * pE - (1 - δ) * wE) / W := by field_simp; ring
    have : 0 ≤ pE - wE / W + δ * (wE / W) := by rw [e]; exact div_nonneg (by linarith) hW.le
    linarith
  · have : W * pE ≤ (1 + δ) * wE := by
      have h1 : W * pE ≤ b * pE := mul_le_mul_of_nonneg_right W2 P0
      have h2 : b * pE ≤ a * (1 + δ) * pE := mul_le_mul_of_nonneg_right hδ P0
      have h3 : (1 + δ) * (a * pE) ≤ (1 + δ) * wE := mul_le_mul_of_nonneg_left E1 (by linarith)
      linarith
    have e : δ * (wE / W) - (pE - wE / W) = ((1 + δ) * wE - W * pE) / W := by field_simp; ring
    have : 0 ≤ δ * (wE / W) - (pE - wE / W) := by rw [e]; exact div_nonneg (by linarith) hW.le
    linarith

theorem mass_bound {ι : Type} {p w : ι → ℝ} {a b : ℝ} (ha : 0 < a) (hp : HasSum p 1) (hp0 : ∀ v, 0 ≤ p v)
    (hw : ∀ v, a * p v ≤ w v ∧ w v ≤ b * p v) : Summable w ∧ a ≤ ∑' v, w v ∧ ∑' v, w v ≤ b := by
  have hw0 : ∀ v, 0 ≤ w v := fun v => (mul_nonneg ha.le (hp0 v)).trans (hw v).1
  have sw : Summable w := Summable.of_nonneg_of_le hw0 (fun v => (hw v).2) (hp.summable.mul_left b)
  refine ⟨sw, ?_, ?_⟩
  · have := (hp.summable.mul_left a).tsum_le_tsum (fun v => (hw v).1) sw
    rwa [tsum_mul_left, hp.tsum_eq, mul_one] at this
  · have := sw.tsum_le_tsum (fun v => (hw v).2) (hp.summable.mul_left b)
    rwa [tsum_mul_left, hp.tsum_eq, mul_one] at this

theorem callPr_nonneg (l : List Call) : 0 ≤ callPr l := List.prod_nonneg (by
  intro x hx
  obtain ⟨c, -, rfl⟩ := List.mem_map.mp hx
  exact div_nonneg (Real.exp_pos _).le (tsum_nonneg fun _ => (Real.exp_pos _).le))

/-- The normalization factors of the calls. -/
theorem callPr_bounds_of {ε : ℝ} (hε0 : 0 ≤ ε) (hε1 : ε ≤ 1) {l : List Call} (hl : ∀ c ∈ l, 0 < c.sigma ∧
      |∑' z : ℤ, gaussW c.mu c.sigma z - c.sigma * √(2 * π)| ≤ c.sigma * √(2 * π) * ε) :
    widths l * √(2 * π) ^ l.length * (1 - ε) ^ l.length * callPr l ≤ Real.exp (-(spread l / 2)) ∧
    Real.exp (-(spread l / 2)) ≤ widths l * √(2 * π) ^ l.length * (1 + ε) ^ l.length * callPr l := by
  rw [← spread_exp]
  induction l with
  | nil => simp [widths, callPr]
  | cons c l ih =>
    obtain ⟨i1, i2⟩ := ih fun x hx => hl x (List.mem_cons_of_mem _ hx)
    have hs := hl c (List.mem_cons_self ..)
    have hs0 : 0 < c.sigma := hs.1
    have hS := abs_le.mp hs.2
    have hT := gauss_total_pos c.mu hs0
    have hw0 : 0 ≤ widths l := List.prod_nonneg (by
      intro x hx
      obtain ⟨c', hc, rfl⟩ := List.mem_map.mp hx
      exact (hl c' (List.mem_cons_of_mem _ hc)).1.le)
    have hc0 := callPr_nonneg l
    have e1 : widths (c :: l) = c.sigma * widths l := by simp [widths]
    have e2 : callPr (c :: l) = gaussW c.mu c.sigma c.z / (∑' j : ℤ, gaussW c.mu c.sigma j) * callPr l := by simp [callPr]
    rw [List.map_cons, List.prod_cons, e1, e2, List.length_cons]
    have hp0 : 0 ≤ √(2 * π) := Real.sqrt_nonneg _
    have hg : 0 < gaussW c.mu c.sigma c.z := Real.exp_pos _
    have eg : Real.exp (-((c.z - c.mu) ^ 2 / (2 * c.sigma ^ 2))) = gaussW c.mu c.sigma c.z := rfl
    rw [eg]
    generalize (l.map fun c => Real.exp (-((c.z - c.mu) ^ 2 / (2 * c.sigma ^ 2)))).prod = X at *
    generalize gaussW c.mu c.sigma c.z = γ at *
    generalize (∑' j : ℤ, gaussW c.mu c.sigma j) = S at *
    generalize √(2 * π) = ρ at *
    generalize callPr l = p at *
    generalize widths l = w at *
    generalize l.length = d at *
    generalize c.sigma = s at *
    have f1 : s * w * ρ ^ (d + 1) * (1 - ε) ^ (d + 1) * (γ / S * p) =
        s * ρ * (1 - ε) / S * (γ * (w * ρ ^ d * (1 - ε) ^ d * p)) := by ring
    have f2 : s * w * ρ ^ (d + 1) * (1 + ε) ^ (d + 1) * (γ / S * p) =
        s * ρ * (1 + ε) / S * (γ * (w * ρ ^ d * (1 + ε) ^ d * p)) := by ring
    rw [f1, f2]
    have q1 : s * ρ * (1 - ε) / S ≤ 1 := by rw [div_le_one hT]; linarith [hS.1]
    have q2 : 1 ≤ s * ρ * (1 + ε) / S := by rw [one_le_div hT]; linarith [hS.2]
    constructor
    · refine (mul_le_of_le_one_left ?_ q1).trans (mul_le_mul_of_nonneg_left i1 hg.le)
      have : (0 : ℝ) ≤ 1 - ε := by linarith
      positivity
    · refine (mul_le_mul_of_nonneg_left i2 hg.le).trans (le_mul_of_one_le_left ?_ q2)
      positivity

theorem callPr_bounds {l : List Call} (hl : ∀ c ∈ l, 6 / 5 ≤ c.sigma) :
    widths l * √(2 * π) ^ l.length * (1 - 1 / 2 ^ 38) ^ l.length * callPr l ≤ Real.exp (-(spread l / 2)) ∧
    Real.exp (-(spread l / 2)) ≤ widths l * √(2 * π) ^ l.length * (1 + 1 / 2 ^ 38) ^ l.length * callPr l :=
  callPr_bounds_of (by norm_num) (by norm_num) fun c hc => ⟨by linarith [hl c hc], gauss_sum c.mu (hl c hc)⟩

theorem gmean_one {α : Type} {P : OTree α} (h : AllS (fun s => 0 < s) P) : gmean P (fun _ => 1) = 1 := by
  induction h with
  | ret a => rfl
  | call mu sigma k hs _ ih =>
    simp only [gmean, ih, gaussMean, mul_one]
    exact div_self (gauss_total_pos mu hs).ne'

theorem sigSigma_exact (n : ℕ) : sigSigma exactA n = sigmaSig n := by
  unfold sigSigma sigmaSig
  split
  · show ((168.388571447 : ℚ) : ℝ) = _
    norm_num
  · show ((165.736617183 : ℚ) : ℝ) = _
    norm_num

theorem sqNorm_tape {n : ℕ} (s : Fin (2 ^ n) → ℤ) : ((sqNorm (2 ^ n) (tapeOf s) : ℤ) : ℝ) = ∑ i, (s i : ℝ) ^ 2 := by
  unfold sqNorm
  rw [Finset.sum_range]
  push_cast
  refine Finset.sum_congr rfl fun i _ => ?_
  rw [tapeOf_lt s i.2]

/-- Fast Fourier sampling as a program, and the preimages in terms of its answers. -/
theorem coset_walk {n : ℕ} (hn : ValidLog n) {f g F G : Mem Int} {h : Mem Ff} (heq : NtruEq n f g F G)
    (hh : ModEqXN (2 ^ n) (polyZq (2 ^ n) h * polyInt (2 ^ n) f) (polyInt (2 ^ n) g))
    (hinv : ∃ r, ModEqXN (2 ^ n) (polyInt (2 ^ n) f * r) 1) (hgs : gsTooBig exactA n f g = false) {sigma lo : ℝ} (hpos : 0 < sigma)
    (hsg : lo ≤ sigma / (1.17 * √12289)) (B0 T0 z0 z1 : Mem ℂ) (c : Mem Ff) :
    let B := computeMatrixB exactA n f g F G B0
    let t := signTarget exactA n B c
    let T := normalizeTree exactA sigma n 0 (ffldl exactA n 0 (gramMatrix exactA n B (junkC exactA)) T0)
    ∃ (P : OTree (Mem ℂ × Mem ℂ)) (φ : (Fin (2 ^ (n + 1)) → ℤ) → PairZ n), OTree.Depth P (2 ^ (n + 1)) ∧ AllS (fun s => lo ≤ s) P ∧
      (∀ tr, TreeAt n T 0 0 tr → AllS (fun s => ∃ v ∈ tr.leaves, s = exactA.re v) P) ∧
      (∀ (S : Type) (leaf : LeafSampler ℝ S) (s : S), ffSampling exactA leaf n 0 t.1 t.2 T z0 z1 s =
        bindO (interp leaf P s) fun r => some (.ok (r.1.1, r.1.2, r.2))) ∧
      Function.Injective φ ∧ (∀ s, s ∈ Set.range φ ↔ InCoset n h c s) ∧
      ∀ v : Fin (2 ^ (n + 1)) → ℤ,
        (IsDftOf n (signVec exactA n B t.1 t.2 (walk P (tapeOf v) 0).1.1 (walk P (tapeOf v) 0).1.2).1 (tapeOf (φ v).1) ∧
         IsDftOf n (signVec exactA n B t.1 t.2 (walk P (tapeOf v) 0).1.1 (walk P (tapeOf v) 0).1.2).2 (tapeOf (φ v).2)) ∧
        pairW (sigma) (φ v) = Real.exp (-(spread (walk P (tapeOf v) 0).2 / 2)) ∧
        widths (walk P (tapeOf v) 0).2 * 12289 ^ 2 ^ n = sigma ^ 2 ^ (n + 1) ∧
        ∀ c ∈ (walk P (tapeOf v) 0).2, lo ≤ c.sigma := by
  intro B t T
  have hn10 : n ≤ 10 := by rcases hn with rfl | rfl <;> norm_num
  have h1 : 1 ≤ n := by rcases hn with rfl | rfl <;> norm_num
  obtain ⟨tr, htr, hl'⟩ := C47_leaves n h1 hn10 f g F G heq hgs sigma hpos (junkC exactA) B0 T0
  have hl : ∀ v ∈ tr.leaves, ∃ s : ℝ, v = s ∧ lo ≤ s := fun v hv => by
    obtain ⟨s, e, e1, -⟩ := hl' v hv
    exact ⟨s, e, hsg.trans e1⟩
  obtain ⟨P, hd, hS, hP⟩ := ffSampling_otree exactA n 0 t.1 t.2 T z0 z1 tr ((treeAt_root _ _ _).mp htr)
  have hS' : AllS (fun s => lo ≤ s) P := hS.mono fun s ⟨v, hv, e⟩ => by
    obtain ⟨x, rfl, hx⟩ := hl v hv
    have : exactA.re (x : ℂ) = x := rfl
    rw [e, this]; exact hx
  obtain ⟨φ, φi, φr, φv⟩ := exists_phi hn10 heq hh hinv B0 c
  obtain ⟨y0, y1⟩ := sym_target hn10 f g F G B0 c
  -- every tape
  have key : ∀ v : Fin (2 ^ (n + 1)) → ℤ,
      (IsDftOf n (signVec exactA n B t.1 t.2 (walk P (tapeOf v) 0).1.1 (walk P (tapeOf v) 0).1.2).1 (tapeOf (φ v).1) ∧
       IsDftOf n (signVec exactA n B t.1 t.2 (walk P (tapeOf v) 0).1.1 (walk P (tapeOf v) 0).1.2).2 (tapeOf (φ v).2)) ∧
      pairW (sigma) (φ v) = Real.exp (-(spread (walk P (tapeOf v) 0).2 / 2)) ∧
      widths (walk P (tapeOf v) 0).2 * 12289 ^ 2 ^ n = sigma ^ 2 ^ (n + 1) ∧
      ∀ c ∈ (walk P (tapeOf v) 0).2, lo ≤ c.sigma := by
    intro v
    have hrun := idealPr_tape exactA hP (tapeOf v)
    have hlen := walk_length hd (tapeOf v) 0
    have hrun' := (ffSampling_logged exactA (tapeLeaf (tapeOf v)) n 0 t.1 t.2 T z0 z1 0 []).symm
    rw [hrun] at hrun'
    have hrun' : ffSampling exactA (tapeLeaf (tapeOf v)) n 0 t.1 t.2 T z0 z1 0
      = some (.ok ((walk P (tapeOf v) 0).1.1, (walk P (tapeOf v) 0).1.2, (walk P (tapeOf v) 0).2.length)) := hrun'
    obtain ⟨l, r1, -, -, r4, r5⟩ := C48_draws _ n hn10 _ _ _ _ _ _ _ hrun'
    rw [hrun] at r1
    have el : (walk P (tapeOf v) 0).2 = l := by
      have r1 := Except.ok.inj (Option.some.inj r1)
      exact (Prod.mk.inj (Prod.mk.inj (Prod.mk.inj r1).2).2).2
    obtain ⟨l', r1', -, -, q3, ⟨t', ht', q4⟩, q5⟩ := C64_spherical (tapeLeaf (tapeOf v)) n h1 hn10 f g F G heq sigma hpos B0
      (junkC exactA) T0 _ _ _ _ y0 y1 0 _ hrun'
    have r1' := hrun.symm.trans r1'
    have el' : (walk P (tapeOf v) 0).2 = l' := by
      have r1' := Except.ok.inj (Option.some.inj r1')
      exact (Prod.mk.inj (Prod.mk.inj (Prod.mk.inj r1').2).2).2
    have d0 : IsDftOf n (walk P (tapeOf v) 0).1.1 (fun i => tapeOf v (callIdx0 n i)) := fun i hi =>
      (r4 i hi).trans (zC_congr_dft (fun j hj => by
        unfold drawn0
        rw [← el, walk_z P _ _ _ (by rw [hlen]; exact (callIdx_bound n j).1), Nat.zero_add]) i)
    have d1 : IsDftOf n (walk P (tapeOf v) 0).1.2 (fun i => tapeOf v (callIdx1 n i)) := fun i hi =>
      (r5 i hi).trans (zC_congr_dft (fun j hj => by
        unfold drawn1
        rw [← el, walk_z P _ _ _ (by rw [hlen]; exact (callIdx_bound n j).2.1), Nat.zero_add]) i)
    have hφ := φv v _ _ d0 d1
    refine ⟨hφ, ?_, by rw [el']; exact q5, ?_⟩
    · rw [el']
      have q3 : sqrdNormC exactA n _ + sqrdNormC exactA n _ = sigma ^ 2 * spread l' := q3
      rw [normC_int hn10 hφ.1, normC_int hn10 hφ.2, sqNorm_tape, sqNorm_tape] at q3
      unfold pairW
      rw [q3]
      congr 2
      field_simp
    · intro x hx
      rw [el'] at hx
      have hx := (q4 x hx).2
      have ht'' : TreeAt n T 0 0 t' := ht'
      rw [rep_leaves_unique _ _ _ _ _ ((treeAt_root _ _ _).mp ht'') ((treeAt_root _ _ _).mp htr)] at hx
      obtain ⟨y, e, hy⟩ := hl _ hx
      have e : x.sigma = y := by exact_mod_cast e
      rw [e]; exact hy
  refine ⟨P, φ, hd, hS', fun tr' htr' => ?_, hP, φi, φr, key⟩
  rw [rep_leaves_unique _ _ _ _ _ ((treeAt_root _ _ _).mp htr') ((treeAt_root _ _ _).mp htr)]
  exact hS

open Classical in
/-- Ideal sampling is the Gaussian on the preimages. -/
theorem ideal_coset {n : ℕ} (hn : ValidLog n) {f g F G : Mem Int} {h : Mem Ff} (heq : NtruEq n f g F G)
    (hh : ModEqXN (2 ^ n) (polyZq (2 ^ n) h * polyInt (2 ^ n) f) (polyInt (2 ^ n) g))
    (hinv : ∃ r, ModEqXN (2 ^ n) (polyInt (2 ^ n) f * r) 1) (hgs : gsTooBig exactA n f g = false) {sigma : ℝ}
    (hsg : 6 / 5 ≤ sigma / (1.17 * √12289)) (B0 T0 z0 z1 : Mem ℂ) (c : Mem Ff) (E : PairZ n → Prop) :
    let B := computeMatrixB exactA n f g F G B0
    let t := signTarget exactA n B c
    let T := normalizeTree exactA sigma n 0 (ffldl exactA n 0 (gramMatrix exactA n B (junkC exactA)) T0)
    let K := sigma ^ 2 ^ (n + 1) / 12289 ^ 2 ^ n * √(2 * π) ^ 2 ^ (n + 1)
    (Summable fun s : PairZ n => if InCoset n h c s then pairW sigma s else 0) ∧
    K * (1 - 1 / 2 ^ 38) ^ 2 ^ (n + 1) ≤ (∑' s : PairZ n, if InCoset n h c s then pairW sigma s else 0) ∧
    (∑' s : PairZ n, if InCoset n h c s then pairW sigma s else 0) ≤ K * (1 + 1 / 2 ^ 38) ^ 2 ^ (n + 1) ∧
    |idealPr exactA n t.1 t.2 T z0 z1 (fun y0 y1 => ∃ s : PairZ n,
        IsDftOf n (signVec exactA n B t.1 t.2 y0 y1).1 (tapeOf s.1) ∧ IsDftOf n (signVec exactA n B t.1 t.2 y0 y1).2 (tapeOf s.2) ∧ E s)
      - cosetPr n (sigma) h c E| ≤ 1 / 2 ^ 25 * cosetPr n (sigma) h c E := by
  intro B t T K
  have hn10 : n ≤ 10 := by rcases hn with rfl | rfl <;> norm_num
  have hpos : 0 < sigma := by
    have h0 : (0 : ℝ) < 1.17 * √12289 := by positivity
    have := (le_div_iff₀ h0).mp hsg
    have : 0 < 6 / 5 * (1.17 * √12289) := by positivity
    linarith
  obtain ⟨P, φ, hd, hS, -, hP, φi, φr, key⟩ := coset_walk hn heq hh hinv hgs hpos hsg B0 T0 z0 z1 c
  have hS' : AllS (fun s => 0 < s) P := hS.mono fun s hs => by linarith
  -- both sums over tapes
  have hsum := gmean_tape hd hS' (g := fun _ => 1) (fun _ => zero_le_one) (fun _ => le_rfl)
  rw [gmean_one hS'] at hsum
  simp only [mul_one] at hsum
  have e1 : idealPr exactA n t.1 t.2 T z0 z1 (fun y0 y1 => ∃ s : PairZ n,
        IsDftOf n (signVec exactA n B t.1 t.2 y0 y1).1 (tapeOf s.1) ∧ IsDftOf n (signVec exactA n B t.1 t.2 y0 y1).2 (tapeOf s.2) ∧ E s)
      = ∑' v, if E (φ v) then callPr (walk P (tapeOf v) 0).2 else 0 := by
    unfold idealPr
    refine tsum_congr fun v => ?_
    rw [idealPr_tape exactA hP]
    have hk := (key v).1
    have : (∃ s : PairZ n, IsDftOf n (signVec exactA n B t.1 t.2 (walk P (tapeOf v) 0).1.1 (walk P (tapeOf v) 0).1.2).1 (tapeOf s.1) ∧
        IsDftOf n (signVec exactA n B t.1 t.2 (walk P (tapeOf v) 0).1.1 (walk P (tapeOf v) 0).1.2).2 (tapeOf s.2) ∧ E s) ↔ E (φ v) := by
      constructor
      · rintro ⟨s, s0, s1, hE⟩
        have es : s = φ v := by
          refine Prod.ext (funext fun i => ?_) (funext fun i => ?_)
          · have := zC_inj hn10 (fun j hj => (s0 j hj).symm.trans (hk.1 j hj)) i.1 i.2
            rwa [tapeOf_lt _ i.2, tapeOf_lt _ i.2] at this
          · have := zC_inj hn10 (fun j hj => (s1 j hj).symm.trans (hk.2 j hj)) i.1 i.2
            rwa [tapeOf_lt _ i.2, tapeOf_lt _ i.2] at this
        rwa [← es]
      · exact fun hE => ⟨φ v, hk.1, hk.2, hE⟩
    simp only [this]
  have e2 : ∀ E' : PairZ n → Prop, (∑' s : PairZ n, if InCoset n h c s ∧ E' s then pairW (sigma) s else 0) =
      ∑' v, if E' (φ v) then pairW (sigma) (φ v) else 0 := by
    intro E'
    rw [← φi.tsum_eq (f := fun s : PairZ n => if InCoset n h c s ∧ E' s then pairW (sigma) s else 0)]
    · refine tsum_congr fun v => ?_
      have := (φr (φ v)).mp ⟨v, rfl⟩
      simp only [this, true_and]
    · intro s hs
      rw [φr]
      by_contra hc
      exact hs (by simp only [hc, false_and, if_false])
  have e3 : (∑' s : PairZ n, if InCoset n h c s then pairW (sigma) s else 0) = ∑' v, pairW (sigma) (φ v) := by
    have := e2 fun _ => True
    simpa only [and_true, if_true] using this
  have hK : K = sigma ^ 2 ^ (n + 1) / 12289 ^ 2 ^ n * √(2 * π) ^ 2 ^ (n + 1) := rfl
  have hK0 : 0 < K := by positivity
  have ha0 : 0 < K * (1 - 1 / 2 ^ 38) ^ 2 ^ (n + 1) := mul_pos hK0 (pow_pos (by norm_num) _)
  have hab : ∀ v, K * (1 - 1 / 2 ^ 38) ^ 2 ^ (n + 1) * callPr (walk P (tapeOf v) 0).2 ≤ pairW sigma (φ v) ∧
      pairW sigma (φ v) ≤ K * (1 + 1 / 2 ^ 38) ^ 2 ^ (n + 1) * callPr (walk P (tapeOf v) 0).2 := by
    intro v
    obtain ⟨-, k2, k3, k4⟩ := key v
    have hb := callPr_bounds k4
    have hwd : widths (walk P (tapeOf v) 0).2 = sigma ^ 2 ^ (n + 1) / 12289 ^ 2 ^ n := by
      rw [eq_div_iff (by positivity)]; exact k3
    rw [walk_length hd, hwd, ← hK] at hb
    rw [k2]
    exact hb
  obtain ⟨m0, m1, m2⟩ := mass_bound ha0 hsum (fun v => callPr_nonneg _) hab
  refine ⟨?_, by rw [e3]; exact m1, by rw [e3]; exact m2, ?_⟩
  · rw [← φi.summable_iff]
    · refine m0.congr fun v => ?_
      have := (φr (φ v)).mp ⟨v, rfl⟩
      simp only [Function.comp, this, if_true]
    · intro s hs
      rw [φr] at hs
      simp only [hs, if_false]
  unfold cosetPr
  rw [e1, e2, e3]
  refine ratio_bound (a := K * (1 - 1 / 2 ^ 38) ^ 2 ^ (n + 1)) (b := K * (1 + 1 / 2 ^ 38) ^ 2 ^ (n + 1)) ha0 hsum
    (fun v => callPr_nonneg _) hab ?_ fun v => E (φ v)
  · clear_value K
    rw [mul_assoc]
    refine mul_le_mul_of_nonneg_left ?_ hK0.le
    have hB := one_add_mul_le_pow (a := (-(1 / 2 ^ 37) : ℝ)) (by norm_num) (2 ^ (n + 1))
    have hr : (1 + 1 / 2 ^ 38 : ℝ) ^ 2 ^ (n + 1) * (1 + -(1 / 2 ^ 37)) ^ 2 ^ (n + 1) ≤ (1 - 1 / 2 ^ 38) ^ 2 ^ (n + 1) := by
      rw [← mul_pow]
      exact pow_le_pow_left₀ (by norm_num) (by norm_num) _
    have hd2 : ((2 ^ (n + 1) : ℕ) : ℝ) ≤ 2048 := by
      push_cast
      rcases hn with rfl | rfl <;> norm_num
    have h1 : (1 - 1 / 2 ^ 26 : ℝ) ≤ (1 + -(1 / 2 ^ 37)) ^ 2 ^ (n + 1) := by
      refine le_trans ?_ hB
      have : ((2 ^ (n + 1) : ℕ) : ℝ) * (1 / 2 ^ 37) ≤ 1 / 2 ^ 26 := by
        calc _ ≤ 2048 * (1 / 2 ^ 37 : ℝ) := mul_le_mul_of_nonneg_right hd2 (by norm_num)
          _ ≤ _ := by norm_num
      linarith
    have h0 : (0 : ℝ) ≤ (1 + 1 / 2 ^ 38) ^ 2 ^ (n + 1) := by positivity
    generalize (1 + 1 / 2 ^ 38 : ℝ) ^ 2 ^ (n + 1) = b at *
    generalize (1 - 1 / 2 ^ 38 : ℝ) ^ 2 ^ (n + 1) = a at *
    generalize (1 + -(1 / 2 ^ 37) : ℝ) ^ 2 ^ (n + 1) = c at *
    have h2 : b * (1 - 1 / 2 ^ 26) ≤ a := (mul_le_mul_of_nonneg_left h1 h0).trans hr
    calc b ≤ b * (1 - 1 / 2 ^ 26) * (1 + 1 / 2 ^ 25) := by
          rw [mul_assoc]
          exact le_mul_of_one_le_right h0 (by norm_num)
      _ ≤ _ := mul_le_mul_of_nonneg_right h2 (by norm_num)

end Falcon
