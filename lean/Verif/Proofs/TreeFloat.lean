import Verif.SmallSpec
import Verif.Proofs.DiagTree
import Verif.Proofs.TopFloat
import Verif.Proofs.FloatVec
import Verif.Proofs.Basis
import Verif.Props.Tree

/-!
# The Falcon tree in floating point: its leaves and its inner nodes
-/

namespace Falcon

open Finset

theorem gsSmall_norm {n : ℕ} (hn : n ≤ 10) {f g : Mem Int} (hpos : ∀ i, i < 2 ^ n → 0 < gramAt n f g i)
    (h : GsSmall n f g) : gramSchmidtNorm exactA n f g ≤ 16900 := by
  have h2n : (0 : ℝ) < 2 ^ n := by positivity
  rw [gsNorm_fg hn hpos, max_le_iff, sum_fgNorm hn]
  constructor
  · rw [mul_div_cancel_left₀ _ h2n.ne']; exact h.1
  · rw [← mul_div_assoc, div_le_iff₀ h2n, mul_sum]
    refine le_of_eq_of_le (sum_congr rfl fun i _ => ?_) h.2
    rw [mul_one_div]; rfl

/-- Every value of f f* + g g* lies between 17.4 and 2^25. -/
theorem gsSmall_pt {n : ℕ} (hn : ValidLog n) {f g : Mem Int} (hpos : ∀ i, i < 2 ^ n → 0 < gramAt n f g i)
    (h : GsSmall n f g) (j : ℕ) (hj : j < 2 ^ n) : 87 / 5 ≤ gramAt n f g j ∧ gramAt n f g j ≤ 18 * 10 ^ 6 := by
  have hn10 : n ≤ 10 := by rcases hn with rfl | rfl <;> norm_num
  have h2 : (2 : ℝ) ^ n ≤ 1024 := by rcases hn with rfl | rfl <;> norm_num
  have hp := hpos j hj
  constructor
  · have hne : 2 ^ n - 1 - j ≠ j := by
      have : 2 ^ n = 2 * 2 ^ (n - 1) := by rw [← pow_succ']; congr 1; rcases hn with rfl | rfl <;> norm_num
      omega
    have hs : ∑ i ∈ ({j, 2 ^ n - 1 - j} : Finset ℕ), (12289 : ℝ) ^ 2 / gramAt n f g i
        ≤ ∑ i ∈ range (2 ^ n), (12289 : ℝ) ^ 2 / gramAt n f g i := by
      apply sum_le_sum_of_subset_of_nonneg
      · intro i hi
        simp only [mem_insert, mem_singleton] at hi
        rw [mem_range]
        omega
      · intro i hi _
        have := hpos i (mem_range.mp hi)
        positivity
    rw [sum_pair (Ne.symm hne), show gramAt n f g (2 ^ n - 1 - j) = gramAt n f g j from fgNorm_compl n f g j hj] at hs
    have h3 := hs.trans h.2
    have h4 : (12289 : ℝ) ^ 2 / gramAt n f g j ≤ 16900 * 512 := by linarith
    rw [div_le_iff₀ hp] at h4
    norm_num at h4 ⊢
    linarith
  · have h3 : gramAt n f g j ≤ ∑ i ∈ range (2 ^ n), gramAt n f g i :=
      single_le_sum (f := gramAt n f g) (fun i hi => (hpos i (mem_range.mp hi)).le) (mem_range.mpr hj)
    have h4 : ∑ i ∈ range (2 ^ n), gramAt n f g i = 2 ^ n * _ := sum_fgNorm hn10 f g
    rw [h4] at h3
    have h5 : (2 : ℝ) ^ n * ∑ i ∈ range (2 ^ n), ((f i : ℝ) ^ 2 + (g i : ℝ) ^ 2) ≤ 1024 * 16900 :=
      mul_le_mul h2 h.1 (sum_nonneg fun i _ => by positivity) (by norm_num)
    linarith

theorem LBound.map {w : ℂ → ℂ} : ∀ (t : FTree ℂ) (k : ℕ), LBound k t → LBound k (t.mapLeaves w) := by
  intro t
  induction t with
  | leaf v => intro k _; trivial
  | node l L R ihL ihR => intro k h; exact ⟨h.1, h.2.1, ihL _ h.2.2.1, ihR _ h.2.2.2⟩

theorem leaves_map {C : Type} (w : C → C) (t : FTree C) : (t.mapLeaves w).leaves = t.leaves.map w := by
  induction t with
  | leaf v => rfl
  | node l L R ihL ihR => simp only [FTree.mapLeaves, FTree.leaves, ihL, ihR, List.map_append]

/-- A leaf whose deviation the sampler accepts. -/
def LeafOk (v : ℂ) : Prop := 6 / 5 ≤ v.re ∧ v.re ≤ 182 / 100

/-- The exact tree: the entries of D below the root and the leaves. -/
theorem tree_exact {k : ℕ} (hn : k + 1 ≤ 10) {f g F G : Mem Int} (heq : NtruEq (k + 1) f g F G)
    (hnorm : gramSchmidtNorm exactA (k + 1) f g ≤ 16900) : ∃ d0 d1 L0 R0, DiagTree (k + 1) d0 L0 ∧ DiagTree (k + 1) d1 R0 ∧
      (∀ i, i < 2 ^ (k + 1) → d0 i = (gramAt (k + 1) f g i : ℝ)) ∧
      (∀ i, i < 2 ^ (k + 1) → d1 i = ((12289 ^ 2 / gramAt (k + 1) f g i : ℝ) : ℂ)) ∧
      (∀ v ∈ L0.leaves, ∃ x : ℝ, v = x ∧ 12289 ^ 2 / 16900 ≤ x ∧ x ≤ 16900) ∧
      ∀ v ∈ R0.leaves, ∃ x : ℝ, v = x ∧ 12289 ^ 2 / 16900 ≤ x ∧ x ≤ 16900 := by
  have hpos : ∀ i, i < 2 ^ (k + 1) → 0 < gramAt (k + 1) f g i := fgNorm_pos hn heq
  have hpd := gram_pd hn heq (fun _ => 0) (junkC exactA)
  have hex := gram_exact hn f g F G (fun _ => 0) (junkC exactA)
  simp only at hpd hex
  have hldl := ldlTree_ok k _ _ _ hn hpd
  have hlv := basis_leaves (by omega) hn heq (fun _ => 0) (junkC exactA) 16900 hnorm _ hldl
  generalize gramMatrix exactA (k + 1) (computeMatrixB exactA (k + 1) f g F G fun _ => 0) (junkC exactA) = X at *
  obtain ⟨l0, d0, d1, L0, R0, ht0, hl, hL, hR⟩ := hldl
  rw [ht0] at hlv
  have hd0 : ∀ i, i < 2 ^ (k + 1) → d0 i = (gramAt (k + 1) f g i : ℝ) := by
    intro i hi
    rw [← (hl i hi).2.2.1, (hex i hi).1]; rfl
  refine ⟨d0, d1, L0, R0, hL, hR, hd0, ?_, ?_, ?_⟩
  · intro i hi
    obtain ⟨_, _, l1, l2, l3, l4⟩ := hl i hi
    obtain ⟨e0, _, e2, e3⟩ := hex i hi
    have hp := hpos i hi
    have hpc : (gramAt (k + 1) f g i : ℂ) ≠ 0 := by exact_mod_cast hp.ne'
    have hdet := gram_det hn heq i hi
    have hdet : (gramAt (k + 1) f g i : ℂ) * (fgNorm (k + 1) F G i : ℂ) - X (2 * 2 ^ (k + 1) + i)
        * (starRingEnd ℂ) (X (2 * 2 ^ (k + 1) + i)) = 12289 ^ 2 := by
      rw [Complex.mul_conj, e2]; exact_mod_cast hdet
    have l3' : X (2 * 2 ^ (k + 1) + i) = l0 i * d0 i := l3
    have l2' : (starRingEnd ℂ) (X (2 * 2 ^ (k + 1) + i)) = d0 i * (starRingEnd ℂ) (l0 i) := l2
    have l4' : X (3 * 2 ^ (k + 1) + i) = l0 i * d0 i * (starRingEnd ℂ) (l0 i) + d1 i := l4
    rw [l2', l3', ← e3, l4', hd0 i hi] at hdet
    push_cast
    rw [eq_div_iff hpc]
    linear_combination hdet
  · exact fun v hv => hlv v (by simp only [FTree.leaves, List.mem_append]; exact Or.inl hv)
  · exact fun v hv => hlv v (by simp only [FTree.leaves, List.mem_append]; exact Or.inr hv)

/-- The polynomial at the root in exact arithmetic. -/
noncomputable def rootL (n : ℕ) (f g F G : Mem Int) : Mem ℂ := fun i =>
  (dft n (zC G) i * (starRingEnd ℂ) (dft n (zC g) i) + -dft n (zC F) i * (starRingEnd ℂ) (-dft n (zC f) i))
    / (gramAt n f g i : ℂ)

theorem rootL_sym (n : ℕ) (f g F G : Mem Int) : ConjSym n (rootL n f g F G) := by
  intro i hi
  unfold rootL
  rw [show gramAt n f g (2 ^ n - 1 - i) = gramAt n f g i from fgNorm_compl n f g i hi, dft_compl n G i hi, dft_compl n g i hi,
    dft_compl n F i hi, dft_compl n f i hi]
  simp only [map_div₀, map_add, map_mul, map_neg, Complex.conj_conj, Complex.conj_ofReal]

section
variable {A : Arith ℝ ℂ} (hA : Accurate A)
include hA

theorem normLeaf_ok {n : ℕ} (hn : ValidLog n) {v : ℂ} {y : ℝ} (h : |v.re - y| ≤ 1 / 25 * y) (h1 : 12289 ^ 2 / 16900 ≤ y)
    (h2 : y ≤ 16900) : LeafOk (normLeaf A (sigSigma A n) v) := by
  have hs : 165 + 7 / 10 ≤ sigSigma A n ∧ sigSigma A n ≤ 168 + 4 / 10 := by
    have ht : tinyD ≤ 1 / 1000 := by unfold tinyD; norm_num
    have hu : uD ≤ 1 / 10 ^ 6 := by unfold uD; norm_num
    unfold sigSigma
    rcases hn with rfl | rfl
    · have h := hA.lit 165.736617183
      have e : ((165.736617183 : ℚ) : ℝ) = 165.736617183 := by norm_num
      rw [if_neg (by norm_num)]
      rw [e] at h
      have := abs_le.mp h
      rw [abs_of_pos (by norm_num)] at this
      constructor <;> norm_num at this ⊢ <;> linarith
    · have h := hA.lit 168.388571447
      have e : ((168.388571447 : ℚ) : ℝ) = 168.388571447 := by norm_num
      rw [if_pos rfl]
      rw [e] at h
      have := abs_le.mp h
      rw [abs_of_pos (by norm_num)] at this
      constructor <;> norm_num at this ⊢ <;> linarith
  have hv := abs_le.mp h
  norm_num at h1
  have hv1 : (926 / 10 : ℝ) ^ 2 ≤ v.re := by norm_num; linarith
  have hv2 : v.re ≤ (1326 / 10 : ℝ) ^ 2 := by norm_num; linarith
  have s1 : 926 / 10 ≤ Real.sqrt v.re := Real.le_sqrt_of_sq_le hv1
  have s2 : Real.sqrt v.re ≤ 1326 / 10 := Real.sqrt_le_iff.mpr ⟨by norm_num, hv2⟩
  have hq := abs_le.mp (hA.sqrt v.re)
  have ht : tinyD ≤ 1 / 1000 := by unfold tinyD; norm_num
  have ht0 := tinyD_pos
  have hu : uD ≤ 1 / 10 ^ 6 := by unfold uD; norm_num
  have hu0 := uD_pos
  have hu1 : uD * Real.sqrt v.re ≤ 1 / 10 ^ 6 * (1326 / 10) := mul_le_mul hu s2 (Real.sqrt_nonneg _) (by norm_num)
  have q1 : 9259 / 100 ≤ A.sqrt v.re := by norm_num at hu1; linarith
  have q2 : A.sqrt v.re ≤ 1327 / 10 := by norm_num at hu1; linarith
  have q0 : 0 < A.sqrt v.re := by linarith
  have d := abs_le.mp (hA.div (sigSigma A n) (A.sqrt v.re) (by rw [abs_of_pos q0]; linarith))
  have r1 : 165.7 / 132.7 ≤ sigSigma A n / A.sqrt v.re := by
    rw [div_le_div_iff₀ (by norm_num) q0]
    nlinarith [hs.1]
  have r2 : sigSigma A n / A.sqrt v.re ≤ 168.4 / 92.59 := by
    rw [div_le_div_iff₀ q0 (by norm_num)]
    nlinarith [hs.2]
  have r0 : 0 ≤ sigSigma A n / A.sqrt v.re := le_trans (by norm_num) r1
  rw [abs_of_nonneg r0] at d
  have hu2 : uD * (sigSigma A n / A.sqrt v.re) ≤ 1 / 10 ^ 6 * (168.4 / 92.59) := mul_le_mul hu r2 r0 (by norm_num)
  have ht2 : tinyD ≤ 1 / 10 ^ 6 := by unfold tinyD; norm_num
  unfold LeafOk normLeaf
  rw [ofReal_eq hA, hA.re, Complex.ofReal_re]
  generalize A.div (sigSigma A n) (A.sqrt v.re) = w at *
  generalize sigSigma A n / A.sqrt v.re = z at *
  norm_num at r1 r2 hu2 ht2 ⊢
  constructor <;> linarith

/-- The entries below the root and the polynomial at the root. -/
theorem top_sharp {n : ℕ} (hn : ValidLog n) {f g F G : Mem Int} (heq : NtruEq n f g F G) (hfit : FitsFormat n f g F G)
    (hgs : GsSmall n f g) (Bp Y0 : Mem ℂ) (Y : Mem ℂ) (hY : Y = gramMatrix A n (computeMatrixB A n f g F G Bp) Y0)
    (i : ℕ) (hi : i < 2 ^ n) : NearPos (1 / 10000) (1 / 2500) (Y i) (gramAt n f g i) ∧
      NearPos (1 / 10000) (1 / 2500) (A.csub (Y (3 * 2 ^ n + i)) (A.cmul (A.cmul (A.cdiv (Y (2 * 2 ^ n + i)) (Y i))
        (A.conj (A.cdiv (Y (2 * 2 ^ n + i)) (Y i)))) (Y i))) (12289 ^ 2 / gramAt n f g i) ∧
      ‖A.cdiv (Y (2 * 2 ^ n + i)) (Y i)‖ ≤ 44700 ∧
      ‖A.cdiv (Y (2 * 2 ^ n + i)) (Y i) - rootL n f g F G i‖ ≤ 1 := by
  have hn10 : n ≤ 10 := by rcases hn with rfl | rfl <;> norm_num
  obtain ⟨p1, p2⟩ := gsSmall_pt hn (fgNorm_pos hn10 heq) hgs i hi
  obtain ⟨b0, b1, b2, b3⟩ := basis_float hA hn hfit Bp
  have ha : kapD * aK = 1 / 2 ^ 32 := by unfold kapD aK; norm_num
  have hb : kapD * bK = 1 / 2 ^ 29 := by unfold kapD bK; norm_num
  have c0 := b0 i hi
  have c1 := b1 i hi
  have c2 := b2 i hi
  have c3 := b3 i hi
  rw [ha] at c0 c1
  rw [hb] at c2 c3
  obtain ⟨g00, _, g10, g11⟩ := gramMatrix_at A n (computeMatrixB A n f g F G Bp) Y0 i hi
  rw [← hY] at g00 g10 g11
  have hd : gramAt n f g i = ‖dft n (zC g) i‖ ^ 2 + ‖-dft n (zC f) i‖ ^ 2 := by
    rw [norm_neg, ← Complex.normSq_eq_norm_sq, ← Complex.normSq_eq_norm_sq]; unfold gramAt; ring
  have hdet : dft n (zC g) i * -dft n (zC F) i - -dft n (zC f) i * dft n (zC G) i = 12289 := by
    have := ntru_pt hn10 heq i hi; linear_combination this
  obtain ⟨r1, r2, r3, r4⟩ := top_point hA hd (by linarith) (by norm_num at p2 ⊢; linarith) hdet c0 c1 c2 c3 g00 g10 g11
  refine ⟨r1, r2, ?_, r4⟩
  have h5 := (mul_le_mul_of_nonneg_left p1 (sq_nonneg ‖A.cdiv (Y (2 * 2 ^ n + i)) (Y i)‖)).trans r3
  refine abs_le_of_sq_le_sq' ?_ (by norm_num) |>.2
  generalize ‖A.cdiv (Y (2 * 2 ^ n + i)) (Y i)‖ ^ 2 = w at *
  clear * - h5
  norm_num at h5 ⊢
  linarith

theorem top_at {n : ℕ} (hn : ValidLog n) {f g F G : Mem Int} (heq : NtruEq n f g F G) (hfit : FitsFormat n f g F G)
    (hgs : GsSmall n f g) (Bp Y0 : Mem ℂ) (Y : Mem ℂ) (hY : Y = gramMatrix A n (computeMatrixB A n f g F G Bp) Y0)
    (i : ℕ) (hi : i < 2 ^ n) : NearPos (1 / 1000) (1 / 2500) (Y i) (gramAt n f g i) ∧
      NearPos (1 / 1000) (1 / 2500) (A.csub (Y (3 * 2 ^ n + i)) (A.cmul (A.cmul (A.cdiv (Y (2 * 2 ^ n + i)) (Y i))
        (A.conj (A.cdiv (Y (2 * 2 ^ n + i)) (Y i)))) (Y i))) (12289 ^ 2 / gramAt n f g i) ∧
      ‖A.cdiv (Y (2 * 2 ^ n + i)) (Y i)‖ ≤ 44700 ∧
      ‖A.cdiv (Y (2 * 2 ^ n + i)) (Y i) - rootL n f g F G i‖ ≤ 1 := by
  have hn10 : n ≤ 10 := by rcases hn with rfl | rfl <;> norm_num
  have hp : 0 < gramAt n f g i := fgNorm_pos hn10 heq i hi
  obtain ⟨r1, r2, r3⟩ := top_sharp hA hn heq hfit hgs Bp Y0 Y hY i hi
  exact ⟨r1.mono (by norm_num) le_rfl hp.le, r2.mono (by norm_num) le_rfl (by positivity), r3⟩

theorem good_leaves {n : ℕ} (hn : ValidLog n) {a b : List ℂ} (hab : List.Forall₂ LeafNear a b) :
    (∀ v ∈ b, ∃ x : ℝ, v = x ∧ 12289 ^ 2 / 16900 ≤ x ∧ x ≤ 16900) →
      ∀ v ∈ a.map (normLeaf A (sigSigma A n)), LeafOk v := by
  induction hab with
  | nil => intro _ v hv; simp at hv
  | cons h _ ih =>
    intro hb v hv
    rw [List.map_cons, List.mem_cons] at hv
    rcases hv with rfl | hv
    · obtain ⟨y, e, hy⟩ := h
      obtain ⟨x, e', x1, x2⟩ := hb _ (List.mem_cons_self ..)
      have : y = x := by exact_mod_cast e.symm.trans e'
      subst this
      exact normLeaf_ok hA hn hy x1 x2
    · exact ih (fun w hw => hb w (List.mem_cons_of_mem _ hw)) v hv

theorem tree_float {n : ℕ} (hn : ValidLog n) {f g F G : Mem Int} (heq : NtruEq n f g F G) (hfit : FitsFormat n f g F G)
    (hgs : GsSmall n f g) (Bp T : Mem ℂ) : ∃ l L R, TRep n 0 (computeFalconTree A n (computeMatrixB A n f g F G Bp) T) (.node l L R) ∧
      (∀ i, i < 2 ^ n → ‖l i‖ ≤ 44700) ∧ (∃ y, ConjSym n y ∧ ∀ i, i < 2 ^ n → ‖l i - y i‖ ≤ 1) ∧ LBound (n - 1) L ∧ LBound (n - 1) R ∧
      (∀ v ∈ L.leaves, LeafOk v) ∧ ∀ v ∈ R.leaves, LeafOk v := by
  have hn10 : n ≤ 10 := by rcases hn with rfl | rfl <;> norm_num
  have hn1 : 1 ≤ n := by rcases hn with rfl | rfl <;> norm_num
  have hpos : ∀ i, i < 2 ^ n → 0 < gramAt n f g i := fgNorm_pos hn10 heq
  have hpt := gsSmall_pt hn hpos hgs
  have hnorm := gsSmall_norm hn10 hpos hgs
  have key := top_at hA hn heq hfit hgs Bp (junkC A) _ rfl
  have h1 := (C46_normalization A (sigSigma A n) n hn1 _ _
    (C46_construction A n hn1 (gramMatrix A n (computeMatrixB A n f g F G Bp) (junkC A)) T).1).1
  rw [treeAt_root] at h1
  unfold computeFalconTree
  simp only
  generalize gramMatrix A n (computeMatrixB A n f g F G Bp) (junkC A) = Y at *
  obtain ⟨k, rfl⟩ : ∃ k, n = k + 1 := ⟨n - 1, by omega⟩
  obtain ⟨d0, d1, L0, R0, hL, hR, hd0, hd1, vL, vR⟩ := tree_exact hn10 heq hnorm
  rw [ldlTree_eq] at h1
  have he : (1 / 1000 : ℝ) ≤ 1 / 1000 + ((10 - (k + 1) : ℕ) : ℝ) / 300 := by
    have : (0 : ℝ) ≤ ((10 - (k + 1) : ℕ) : ℝ) := Nat.cast_nonneg _
    linarith
  have hi' : (1 / 2500 : ℝ) + 1 / 2 ^ 16 ≤ (1 / 2500 + 1 / 2 ^ 16) * 2 ^ (10 - (k + 1)) :=
    le_mul_of_one_le_right (by positivity) (one_le_pow₀ (by norm_num))
  obtain ⟨fL, lL⟩ := diag_near hA hL (gramAt (k + 1) f g) Y _ _ hn10 hd0
    (fun j hj => ⟨by linarith [(hpt j hj).1], by have := (hpt j hj).2; norm_num at this ⊢; linarith⟩)
    (fun j hj => (key j hj).1) (fgNorm_compl (k + 1) f g) le_rfl he hi'
  obtain ⟨fR, lR⟩ := diag_near hA hR (fun i => 12289 ^ 2 / gramAt (k + 1) f g i) (fun i => A.csub (Y (3 * 2 ^ (k + 1) + i))
      (A.cmul (A.cmul (A.cdiv (Y (2 * 2 ^ (k + 1) + i)) (Y i)) (A.conj (A.cdiv (Y (2 * 2 ^ (k + 1) + i)) (Y i)))) (Y i)))
    _ _ hn10 hd1 (fun j hj => by
      obtain ⟨p1, p2⟩ := hpt j hj
      have p0 := hpos j hj
      rw [le_div_iff₀ p0, div_le_iff₀ p0]
      norm_num at p1 p2 ⊢
      constructor <;> linarith)
    (fun j hj => (key j hj).2.1) (fun j hj => by
      rw [show gramAt (k + 1) f g (2 ^ (k + 1) - 1 - j) = gramAt (k + 1) f g j from fgNorm_compl (k + 1) f g j hj])
    le_rfl he hi'
  rw [Nat.add_sub_cancel] at fL lL fR lR
  refine ⟨_, _, _, h1, fun i hi => (key i hi).2.2.1,
    ⟨_, rootL_sym _ f g F G, fun i hi => (key i hi).2.2.2⟩, LBound.map _ _ lL, LBound.map _ _ lR, ?_, ?_⟩
  · rw [leaves_map]
    exact good_leaves hA hn fL vL
  · rw [leaves_map]
    exact good_leaves hA hn fR vR

end

end Falcon
