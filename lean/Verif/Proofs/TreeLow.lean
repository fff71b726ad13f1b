import Verif.SamplingSpec
import Verif.Proofs.TreeFloat
import Verif.Props.TreeExact

/-!
# Leaves of the Falcon tree that are not below sigma_min
-/

namespace Falcon

open Finset

theorem GsAtMost.mono {M M' : ℝ} {n : ℕ} {f g : Mem Int} (h : GsAtMost M n f g) (hM : M ≤ M') : GsAtMost M' n f g :=
  ⟨h.1.trans hM, h.2.trans (mul_le_mul_of_nonneg_right hM (by positivity))⟩

theorem gsAtMost_norm {M : ℝ} {n : ℕ} (hn : n ≤ 10) {f g : Mem Int} (hpos : ∀ i, i < 2 ^ n → 0 < gramAt n f g i)
    (h : GsAtMost M n f g) : gramSchmidtNorm exactA n f g ≤ M := by
  have h2n : (0 : ℝ) < 2 ^ n := by positivity
  rw [gsNorm_fg hn hpos, max_le_iff, sum_fgNorm hn]
  constructor
  · rw [mul_div_cancel_left₀ _ h2n.ne']; exact h.1
  · rw [← mul_div_assoc, div_le_iff₀ h2n, mul_sum]
    refine le_of_eq_of_le (sum_congr rfl fun i _ => ?_) h.2
    rw [mul_one_div]; rfl

theorem tree_exact_le {k : ℕ} (hn : k + 1 ≤ 10) {f g F G : Mem Int} (heq : NtruEq (k + 1) f g F G) {M : ℝ}
    (hnorm : gramSchmidtNorm exactA (k + 1) f g ≤ M) : ∃ d0 d1 L0 R0, DiagTree (k + 1) d0 L0 ∧ DiagTree (k + 1) d1 R0 ∧
      (∀ i, i < 2 ^ (k + 1) → d0 i = (gramAt (k + 1) f g i : ℝ)) ∧
      (∀ i, i < 2 ^ (k + 1) → d1 i = ((12289 ^ 2 / gramAt (k + 1) f g i : ℝ) : ℂ)) ∧
      (∀ v ∈ L0.leaves, ∃ x : ℝ, v = x ∧ 12289 ^ 2 / M ≤ x ∧ x ≤ M) ∧
      ∀ v ∈ R0.leaves, ∃ x : ℝ, v = x ∧ 12289 ^ 2 / M ≤ x ∧ x ≤ M := by
  have hpos : ∀ i, i < 2 ^ (k + 1) → 0 < gramAt (k + 1) f g i := fgNorm_pos hn heq
  have hpd := gram_pd hn heq (fun _ => 0) (junkC exactA)
  have hex := gram_exact hn f g F G (fun _ => 0) (junkC exactA)
  simp only at hpd hex
  have hldl := ldlTree_ok k _ _ _ hn hpd
  have hlv := basis_leaves (by omega) hn heq (fun _ => 0) (junkC exactA) M hnorm _ hldl
  generalize gramMatrix exactA (k + 1) (computeMatrixB exactA (k + 1) f g F G fun _ => 0) (junkC exactA) = X at *
  obtain ⟨l0, d0, d1, L0, R0, ht0, hl, hL, hR⟩ := hldl
  rw [ht0] at hlv
  have hd0 : ∀ i, i < 2 ^ (k + 1) → d0 i = (gramAt (k + 1) f g i : ℝ) := by
    intro i hi
    rw [← (hl i hi).2.2.1, (hex i hi).1]; rfl
  refine ⟨d0, d1, L0, R0, hL, hR, hd0, ?_, ?_, ?_⟩
  · intro i hi
    obtain ⟨_, _, l1, l2, l3, l4⟩ := hl i hi
    obtain ⟨e0, _, e2, e3⟩ := hex i hi
    have hp := hpos i hi
    have hpc : (gramAt (k + 1) f g i : ℂ) ≠ 0 := by exact_mod_cast hp.ne'
    have hdet := gram_det hn heq i hi
    have hdet : (gramAt (k + 1) f g i : ℂ) * (fgNorm (k + 1) F G i : ℂ) - X (2 * 2 ^ (k + 1) + i)
        * (starRingEnd ℂ) (X (2 * 2 ^ (k + 1) + i)) = 12289 ^ 2 := by
      rw [Complex.mul_conj, e2]; exact_mod_cast hdet
    have l3' : X (2 * 2 ^ (k + 1) + i) = l0 i * d0 i := l3
    have l2' : (starRingEnd ℂ) (X (2 * 2 ^ (k + 1) + i)) = d0 i * (starRingEnd ℂ) (l0 i) := l2
    have l4' : X (3 * 2 ^ (k + 1) + i) = l0 i * d0 i * (starRingEnd ℂ) (l0 i) + d1 i := l4
    rw [l2', l3', ← e3, l4', hd0 i hi] at hdet
    push_cast
    rw [eq_div_iff hpc]
    linear_combination hdet
  · exact fun v hv => hlv v (by simp only [FTree.leaves, List.mem_append]; exact Or.inl hv)
  · exact fun v hv => hlv v (by simp only [FTree.leaves, List.mem_append]; exact Or.inr hv)

/-- A leaf whose real part is accurate to 7 in 10000. -/
def LeafSharp (v x : ℂ) : Prop := ∃ y : ℝ, x = y ∧ |v.re - y| ≤ 7 / 10000 * y

theorem diag_sharp {A : Arith ℝ ℂ} (hA : Accurate A) {k : ℕ} {d : Mem ℂ} {t : FTree ℂ} (ht : DiagTree k d t) :
    ∀ (r : ℕ → ℝ) (x : Mem ℂ) (e i : ℝ), k ≤ 10 → (∀ j, j < 2 ^ k → d j = r j) →
      (∀ j, j < 2 ^ k → 8 ≤ r j ∧ r j ≤ 2 ^ 25) → (∀ j, j < 2 ^ k → NearPos e i (x j) (r j)) →
      e ≤ 1 / 10000 + ((10 - k : ℕ) : ℝ) / 2 ^ 22 + (i + 1 / 2 ^ 16) ^ 2 / 78 →
      i + 1 / 2 ^ 16 ≤ (1 / 2500 + 1 / 2 ^ 16) * 2 ^ (10 - k) →
      List.Forall₂ LeafSharp (dTree A (k - 1) x).leaves t.leaves := by
  induction ht with
  | leaf d =>
    intro r x e i _ hd hr hx he hi
    simp only [Nat.sub_self, dTree, FTree.leaves]
    refine List.Forall₂.cons ⟨r 0, hd 0 (by norm_num), ?_⟩ List.Forall₂.nil
    have h1 := (hx 0 (by norm_num)).1
    have h2 := (hr 0 (by norm_num)).1
    have hi0 : 0 ≤ i := (abs_nonneg _).trans (hx 0 (by norm_num)).2
    refine h1.trans (mul_le_mul_of_nonneg_right ?_ (by linarith))
    have h3 := pow_le_pow_left₀ (by positivity) hi 2
    norm_num at he h3
    linarith
  | @node k d e0 e1 l d0 d1 L R hk hs hl hL hR ihL ihR =>
    intro r x e i hk10 hd hr hx he hi
    have hp : 2 ^ (k + 1) = 2 * 2 ^ k := by rw [pow_succ]; ring
    have key := node_means hk10 hs hl hd (fun j hj => by have := (hr j hj).1; linarith)
    have h2k : 2 ^ k ≤ 512 := (Nat.pow_le_pow_right (by norm_num) (by omega : k ≤ 9)).trans (by norm_num)
    obtain ⟨m, rfl⟩ : ∃ m, k = m + 1 := ⟨k - 1, by omega⟩
    simp only [Nat.add_sub_cancel] at ihL ihR hi ⊢
    have hi0 : 0 ≤ i := (abs_nonneg _).trans (hx 0 (by positivity)).2
    obtain ⟨w, hw1, hw2, hw3⟩ : ∃ w, 10 - (m + 1) = w + 1 ∧ 10 - (m + 1 + 1) = w ∧ w ≤ 8 := ⟨8 - m, by omega, by omega, by omega⟩
    rw [hw2] at he hi
    rw [hw1] at ihL ihR
    have hwr : (w : ℝ) ≤ 8 := by exact_mod_cast hw3
    have hw2r : (2 : ℝ) ^ w ≤ 2 ^ 8 := pow_le_pow_right₀ (by norm_num) hw3
    have hi' : 2 * i + 1 / 2 ^ 16 + 1 / 2 ^ 16 ≤ (1 / 2500 + 1 / 2 ^ 16) * 2 ^ (w + 1) := by
      rw [pow_succ (2 : ℝ) w]; linarith
    have hi4 : 2 * i + 1 / 2 ^ 16 ≤ 1 / 4 := by
      rw [pow_succ (2 : ℝ) w] at hi'
      norm_num at hi' hw2r ⊢
      linarith
    have hsq : i ^ 2 ≤ (i + 1 / 2 ^ 16) ^ 2 := pow_le_pow_left₀ hi0 (by linarith [show (0 : ℝ) ≤ 1 / 2 ^ 16 by positivity]) 2
    have he' : e + (1 / 2 ^ 22 + i ^ 2 / 26) ≤ 1 / 10000 + ((w + 1 : ℕ) : ℝ) / 2 ^ 22 + (2 * i + 1 / 2 ^ 16 + 1 / 2 ^ 16) ^ 2 / 78 := by
      rw [show 2 * i + 1 / 2 ^ 16 + 1 / 2 ^ 16 = 2 * (i + 1 / 2 ^ 16) by ring, mul_pow]
      generalize (i + 1 / 2 ^ 16) ^ 2 = J at *
      push_cast
      rw [add_div]
      linarith
    have he4 : e + 1 / 300 ≤ 1 / 25 := by
      have h3 : (i + 1 / 2 ^ 16) ^ 2 ≤ (1 / 4) ^ 2 := pow_le_pow_left₀ (by positivity) (by norm_num at hi4 ⊢; linarith) 2
      generalize (i + 1 / 2 ^ 16) ^ 2 = J at *
      norm_num at he h3 ⊢
      linarith
    have step := fun j (hj : j < 2 ^ (m + 1)) => step_sharp hA (hr (2 * j) (by omega)).1 (hr (2 * j) (by omega)).2
      (hr (2 * j + 1) (by omega)).1 (hr (2 * j + 1) (by omega)).2 (hx (2 * j) (by omega)) (hx (2 * j + 1) (by omega)) he4 hi4
      (e0 := (splitS A (m + 1) x).1 j) (e1 := (splitS A (m + 1) x).2 j) (c := A.conj ((splitS A (m + 1) x).2 j))
      (k := 2 ^ (m + 1) + j) (by omega) rfl rfl (by rw [hA.conj, RCLike.norm_conj])
    have l1 := ihL (fun j => (r (2 * j) + r (2 * j + 1)) / 2) (splitS A (m + 1) x).1 (e + (1 / 2 ^ 22 + i ^ 2 / 26))
      (2 * i + 1 / 2 ^ 16) (by omega) (fun j hj => (key j hj).1)
      (fun j hj => by
        have h1 := hr (2 * j) (by omega)
        have h2 := hr (2 * j + 1) (by omega)
        constructor <;> linarith) (fun j hj => (step j hj).1) he' hi'
    have r1 := ihR (fun j => 2 * r (2 * j) * r (2 * j + 1) / (r (2 * j) + r (2 * j + 1))) _ (e + (1 / 2 ^ 22 + i ^ 2 / 26))
      (2 * i + 1 / 2 ^ 16) (by omega) (fun j hj => (key j hj).2)
      (fun j hj => by
        obtain ⟨h1, h1'⟩ := hr (2 * j) (by omega)
        obtain ⟨h2, h2'⟩ := hr (2 * j + 1) (by omega)
        generalize r (2 * j) = a at *
        generalize r (2 * j + 1) = b at *
        constructor
        · rw [le_div_iff₀ (by linarith)]; nlinarith
        · rw [div_le_iff₀ (by linarith)]
          have := mul_le_mul_of_nonneg_left h1' (by linarith : 0 ≤ b)
          have := mul_le_mul_of_nonneg_left h2' (by linarith : 0 ≤ a)
          linarith) (fun j hj => (step j hj).2.1) he' hi'
    simp only [dTree, FTree.leaves]
    exact List.rel_append l1 r1

section
variable {A : Arith ℝ ℂ} (hA : Accurate A)
include hA

theorem normLeaf_low {n : ℕ} (hn : ValidLog n) {v : ℂ} {y : ℝ} (h : |v.re - y| ≤ 7 / 10000 * y) (h1 : 100 ≤ y)
    (h2 : y ≤ 16810) : sigmaMin n ≤ (normLeaf A (sigSigma A n) v).re := by
  have ht : tinyD ≤ 1 / 10 ^ 9 := by unfold tinyD; norm_num
  have hu : uD ≤ 1 / 10 ^ 12 := by unfold uD; norm_num
  have ht0 := tinyD_pos
  have hu0 := uD_pos
  -- sigma and sigma_min have almost the same ratio for both parameter sets
  have hs : sigmaMin n * (12969885 / 100000) ≤ sigSigma A n - 1 / 2000 ∧ sigSigma A n ≤ 168 + 4 / 10 ∧ sigmaMin n ≤ 13 / 10 := by
    unfold sigSigma
    rcases hn with rfl | rfl
    · have h := hA.lit 165.736617183
      have e : ((165.736617183 : ℚ) : ℝ) = 165.736617183 := by norm_num
      rw [if_neg (by norm_num), sigmaMin9_eq]
      rw [e] at h
      have := abs_le.mp h
      rw [abs_of_pos (by norm_num)] at this
      refine ⟨?_, ?_, ?_⟩ <;> norm_num at this hu ht ⊢ <;> linarith
    · have h := hA.lit 168.388571447
      have e : ((168.388571447 : ℚ) : ℝ) = 168.388571447 := by norm_num
      rw [if_pos rfl, sigmaMin10_eq]
      rw [e] at h
      have := abs_le.mp h
      rw [abs_of_pos (by norm_num)] at this
      refine ⟨?_, ?_, ?_⟩ <;> norm_num at this hu ht ⊢ <;> linarith
  have hv := abs_le.mp h
  have hv1 : (9 : ℝ) ^ 2 ≤ v.re := by norm_num; linarith
  have hv2 : v.re ≤ (12969879 / 100000 : ℝ) ^ 2 := by norm_num; linarith
  have s1 : 9 ≤ Real.sqrt v.re := Real.le_sqrt_of_sq_le hv1
  have s2 : Real.sqrt v.re ≤ 12969879 / 100000 := Real.sqrt_le_iff.mpr ⟨by norm_num, hv2⟩
  have hq := abs_le.mp (hA.sqrt v.re)
  have hu1 : uD * Real.sqrt v.re ≤ 1 / 10 ^ 12 * (12969879 / 100000) := mul_le_mul hu s2 (Real.sqrt_nonneg _) (by norm_num)
  have q1 : 8 ≤ A.sqrt v.re := by norm_num at hu1 ht; linarith
  have q2 : A.sqrt v.re ≤ 12969885 / 100000 := by norm_num at hu1 ht ⊢; linarith
  have q0 : 0 < A.sqrt v.re := by linarith
  have d := abs_le.mp (hA.div (sigSigma A n) (A.sqrt v.re) (by rw [abs_of_pos q0]; linarith))
  have hm0 : 0 < sigmaMin n := by
    rcases hn with rfl | rfl
    · rw [sigmaMin9_eq]; norm_num
    · rw [sigmaMin10_eq]; norm_num
  have r1 : sigmaMin n + 1 / 300000 ≤ sigSigma A n / A.sqrt v.re := by
    rw [le_div_iff₀ q0]
    have : (sigmaMin n + 1 / 300000) * A.sqrt v.re ≤ (sigmaMin n + 1 / 300000) * (12969885 / 100000) :=
      mul_le_mul_of_nonneg_left q2 (by positivity)
    linarith [hs.1]
  have r2 : sigSigma A n / A.sqrt v.re ≤ 168.4 / 8 := by
    rw [div_le_div_iff₀ q0 (by norm_num)]
    nlinarith [hs.2.1]
  have r0 : 0 ≤ sigSigma A n / A.sqrt v.re := le_trans (by positivity) r1
  rw [abs_of_nonneg r0] at d
  have hu2 : uD * (sigSigma A n / A.sqrt v.re) ≤ 1 / 10 ^ 12 * (168.4 / 8) := mul_le_mul hu r2 r0 (by norm_num)
  unfold normLeaf
  rw [ofReal_eq hA, hA.re, Complex.ofReal_re]
  generalize A.div (sigSigma A n) (A.sqrt v.re) = w at *
  generalize sigSigma A n / A.sqrt v.re = z at *
  norm_num at r1 r2 hu2 ht ⊢
  linarith

theorem low_leaves {n : ℕ} (hn : ValidLog n) {a b : List ℂ} (hab : List.Forall₂ LeafSharp a b) :
    (∀ v ∈ b, ∃ x : ℝ, v = x ∧ 100 ≤ x ∧ x ≤ 16810) →
      ∀ v ∈ a.map (normLeaf A (sigSigma A n)), sigmaMin n ≤ v.re := by
  induction hab with
  | nil => intro _ v hv; simp at hv
  | cons h _ ih =>
    intro hb v hv
    rw [List.map_cons, List.mem_cons] at hv
    rcases hv with rfl | hv
    · obtain ⟨y, e, hy⟩ := h
      obtain ⟨x, e', x1, x2⟩ := hb _ (List.mem_cons_self ..)
      have : y = x := by exact_mod_cast e.symm.trans e'
      subst this
      exact normLeaf_low hA hn hy x1 x2
    · exact ih (fun w hw => hb w (List.mem_cons_of_mem _ hw)) v hv

/-- The leaves of the tree of a key of Gram-Schmidt norms at most 16810, in every accurate arithmetic. -/
theorem tree_low {n : ℕ} (hn : ValidLog n) {f g F G : Mem Int} (heq : NtruEq n f g F G) (hfit : FitsFormat n f g F G)
    (hgs : GsAtMost 16810 n f g) (Bp T : Mem ℂ) :
    ∃ t, TreeAt n (computeFalconTree A n (computeMatrixB A n f g F G Bp) T) 0 0 t ∧ ∀ v ∈ t.leaves, sigmaMin n ≤ A.re v := by
  have hn10 : n ≤ 10 := by rcases hn with rfl | rfl <;> norm_num
  have hn1 : 1 ≤ n := by rcases hn with rfl | rfl <;> norm_num
  have hpos : ∀ i, i < 2 ^ n → 0 < gramAt n f g i := fgNorm_pos hn10 heq
  have hgs' : GsSmall n f g := hgs.mono (by norm_num)
  have hpt := gsSmall_pt hn hpos hgs'
  have hnorm := gsAtMost_norm hn10 hpos hgs
  have key := top_sharp hA hn heq hfit hgs' Bp (junkC A) _ rfl
  have h1 := (C46_normalization A (sigSigma A n) n hn1 _ _
    (C46_construction A n hn1 (gramMatrix A n (computeMatrixB A n f g F G Bp) (junkC A)) T).1).1
  unfold computeFalconTree
  simp only
  generalize gramMatrix A n (computeMatrixB A n f g F G Bp) (junkC A) = Y at *
  obtain ⟨k, rfl⟩ : ∃ k, n = k + 1 := ⟨n - 1, by omega⟩
  obtain ⟨d0, d1, L0, R0, hL, hR, hd0, hd1, vL, vR⟩ := tree_exact_le hn10 heq hnorm
  rw [ldlTree_eq] at h1
  have he : (1 / 10000 : ℝ) ≤ 1 / 10000 + ((10 - (k + 1) : ℕ) : ℝ) / 2 ^ 22 + (1 / 2500 + 1 / 2 ^ 16) ^ 2 / 78 := by
    have : (0 : ℝ) ≤ ((10 - (k + 1) : ℕ) : ℝ) / 2 ^ 22 := by positivity
    norm_num at this ⊢
    linarith
  have hi' : (1 / 2500 : ℝ) + 1 / 2 ^ 16 ≤ (1 / 2500 + 1 / 2 ^ 16) * 2 ^ (10 - (k + 1)) :=
    le_mul_of_one_le_right (by positivity) (one_le_pow₀ (by norm_num))
  have fL := diag_sharp hA hL (gramAt (k + 1) f g) Y _ _ hn10 hd0
    (fun j hj => ⟨by linarith [(hpt j hj).1], by have := (hpt j hj).2; norm_num at this ⊢; linarith⟩)
    (fun j hj => (key j hj).1) he hi'
  have fR := diag_sharp hA hR (fun i => 12289 ^ 2 / gramAt (k + 1) f g i) (fun i => A.csub (Y (3 * 2 ^ (k + 1) + i))
      (A.cmul (A.cmul (A.cdiv (Y (2 * 2 ^ (k + 1) + i)) (Y i)) (A.conj (A.cdiv (Y (2 * 2 ^ (k + 1) + i)) (Y i)))) (Y i)))
    _ _ hn10 hd1 (fun j hj => by
      obtain ⟨p1, p2⟩ := hpt j hj
      have p0 := hpos j hj
      rw [le_div_iff₀ p0, div_le_iff₀ p0]
      norm_num at p1 p2 ⊢
      constructor <;> linarith)
    (fun j hj => (key j hj).2.1) he hi'
  rw [Nat.add_sub_cancel] at fL fR
  refine ⟨_, h1, fun v hv => ?_⟩
  rw [hA.re]
  have w : ∀ {l : List ℂ}, (∀ v ∈ l, ∃ x : ℝ, v = x ∧ 12289 ^ 2 / (16810 : ℝ) ≤ x ∧ x ≤ 16810) →
      ∀ v ∈ l, ∃ x : ℝ, v = x ∧ 100 ≤ x ∧ x ≤ 16810 := fun h v hv => by
    obtain ⟨x, e, e1, e2⟩ := h v hv
    exact ⟨x, e, le_trans (by norm_num) e1, e2⟩
  rw [leaves_map, FTree.leaves, List.map_append, List.mem_append] at hv
  rcases hv with hv | hv
  · exact low_leaves hA hn fL (w vL) v hv
  · exact low_leaves hA hn fR (w vR) v hv

end

/-- In exact arithmetic: Gram-Schmidt norms at most M, and sigma_min^2 M at most sigma^2. -/
theorem tree_low_exact {n : ℕ} (hn : ValidLog n) {f g F G : Mem Int} (heq : NtruEq n f g F G) {M : ℝ}
    (hgs : gramSchmidtNorm exactA n f g ≤ M) (hM : sigmaMin n ^ 2 * M ≤ sigSigma exactA n ^ 2) (B0 T0 : Mem ℂ) :
    ∃ t, TreeAt n (computeFalconTree exactA n (computeMatrixB exactA n f g F G B0) T0) 0 0 t ∧
      ∀ v ∈ t.leaves, sigmaMin n ≤ exactA.re v := by
  have hn10 : n ≤ 10 := by rcases hn with rfl | rfl <;> norm_num
  have h1 : 1 ≤ n := by rcases hn with rfl | rfl <;> norm_num
  obtain ⟨t, ht, hl⟩ := basis_tree n h1 hn10 f g F G heq (junkC exactA) T0 B0 _ hgs
  refine ⟨t.mapLeaves (normLeaf exactA (sigSigma exactA n)), ?_, ?_⟩
  · rw [treeAt_root] at ht ⊢
    exact normalizeTree_rep exactA _ n 0 _ t h1 ht
  · intro v hv
    obtain ⟨w, hw, rfl⟩ := mem_mapLeaves _ _ _ hv
    obtain ⟨x, rfl, x1, x2⟩ := hl w hw
    have hM0 : 0 < gramSchmidtNorm exactA n f g := by
      have hpos : ∀ i, i < 2 ^ n → 0 < gramAt n f g i := fgNorm_pos hn10 heq
      rw [gsNorm_fg hn10 hpos]
      refine lt_max_of_lt_left (div_pos (sum_pos (fun i hi => hpos i (mem_range.mp hi)) ⟨0, by simp⟩) (by positivity))
    have x0 : 0 < x := lt_of_lt_of_le (div_pos (by norm_num) (hM0.trans_le hgs)) x1
    unfold normLeaf
    rw [exact_ofReal]
    show sigmaMin n ≤ sigSigma exactA n / Real.sqrt ((x : ℂ).re)
    rw [Complex.ofReal_re, le_div_iff₀ (Real.sqrt_pos.mpr x0)]
    have hs : 0 ≤ sigSigma exactA n := by
      unfold sigSigma
      split
      · show (0 : ℝ) ≤ ((168.388571447 : ℚ) : ℝ)
        norm_num
      · show (0 : ℝ) ≤ ((165.736617183 : ℚ) : ℝ)
        norm_num
    refine (abs_le_of_sq_le_sq' ?_ hs).2
    rw [mul_pow, Real.sq_sqrt x0.le]
    exact (mul_le_mul_of_nonneg_left x2 (sq_nonneg _)).trans hM

end Falcon
