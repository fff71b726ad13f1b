import Verif.Proofs.F64Fft
import Verif.Proofs.TreeFloat

/-!
# Finite binary64 runs: the Falcon tree
-/

namespace Falcon

/-- Trees of finite data. -/
def FinT : ℕ → FTree (F64 × F64) → FTree ℂ → Prop
  | _, .leaf v, .leaf w => FinC 200 v w ∧ 1 ≤ w.re
  | k, .node l L R, .node l' L' R' => RelBelow (2 ^ k) (FinC 16) l l' ∧ FinT (k - 1) L L' ∧ FinT (k - 1) R R'
  | _, _, _ => False

/-- A diagonal entry of moderate size. -/
def DiagOk (z : ℂ) : Prop := 1 ≤ z.re ∧ ‖z‖ ≤ 2 ^ 27

/-- All diagonal entries below a diagonal entry of size 2^(k+1) are of moderate size. -/
def DOk (A : Arith ℝ ℂ) : ℕ → Mem ℂ → Prop
  | 0, d => ∀ j, j < 2 ^ 1 → DiagOk (d j)
  | k + 1, d => (∀ j, j < 2 ^ (k + 2) → DiagOk (d j)) ∧ DOk A k (splitS A (k + 1) d).1 ∧
    DOk A k fun i => A.csub (A.conj ((splitS A (k + 1) d).1 i)) (A.cmul (A.cmul
      (A.cdiv (A.conj ((splitS A (k + 1) d).2 i)) ((splitS A (k + 1) d).1 i))
      (A.conj (A.cdiv (A.conj ((splitS A (k + 1) d).2 i)) ((splitS A (k + 1) d).1 i)))) ((splitS A (k + 1) d).1 i))

theorem DOk.top {A : Arith ℝ ℂ} {k : ℕ} {d : Mem ℂ} (h : DOk A k d) : ∀ j, j < 2 ^ (k + 1) → DiagOk (d j) := by
  cases k with
  | zero => exact h
  | succ k => exact h.1

theorem DiagOk.norm {z : ℂ} (h : DiagOk z) : 1 / 2 ^ 20 ≤ ‖z‖ := by
  have h1 := (le_abs_self _).trans (Complex.abs_re_le_norm z)
  have h2 := h.1
  norm_num
  linarith

theorem diagOk_near {e i r : ℝ} {x : ℂ} (h : NearPos e i x r) (he : e ≤ 1 / 25) (hi : i ≤ 1) (hr : 8 ≤ r) (hr' : r ≤ 2 ^ 25) :
    DiagOk x := by
  obtain ⟨h1, h2⟩ := h
  have h3 : e * r ≤ 1 / 25 * r := mul_le_mul_of_nonneg_right he (by linarith)
  have h4 := abs_le.mp h1
  refine ⟨by linarith, ?_⟩
  have h5 := Complex.norm_le_abs_re_add_abs_im x
  have h6 : |x.re| ≤ 2 * 2 ^ 25 := by rw [abs_le]; constructor <;> linarith
  norm_num at h6 ⊢
  linarith

/-- The computed diagonal entries are of moderate size. -/
theorem diag_ok {A : Arith ℝ ℂ} (hA : Accurate A) {k : ℕ} {d : Mem ℂ} {t : FTree ℂ} (ht : DiagTree k d t) :
    ∀ (r : ℕ → ℝ) (x : Mem ℂ) (e i : ℝ), k ≤ 10 → (∀ j, j < 2 ^ k → d j = r j) →
      (∀ j, j < 2 ^ k → 8 ≤ r j ∧ r j ≤ 2 ^ 25) → (∀ j, j < 2 ^ k → NearPos e i (x j) (r j)) →
      1 / 1000 ≤ e → e ≤ 1 / 1000 + ((10 - k : ℕ) : ℝ) / 300 →
      i + 1 / 2 ^ 16 ≤ (1 / 2500 + 1 / 2 ^ 16) * 2 ^ (10 - k) → DOk A (k - 1) x := by
  induction ht with
  | leaf d =>
    intro r x e i _ hd hr hx _ he hi j hj
    refine diagOk_near (hx j hj) ?_ ?_ (hr j hj).1 (hr j hj).2
    · norm_num at he; linarith
    · norm_num at hi; linarith
  | @node k d e0 e1 l d0 d1 L R hk hs hl hL hR ihL ihR =>
    intro r x e i hk10 hd hr hx he1 he hi
    have hp : 2 ^ (k + 1) = 2 * 2 ^ k := by rw [pow_succ]; ring
    have key := node_means hk10 hs hl hd (fun j hj => by have := (hr j hj).1; linarith)
    have h2k : 2 ^ k ≤ 512 := (Nat.pow_le_pow_right (by norm_num) (by omega : k ≤ 9)).trans (by norm_num)
    obtain ⟨m, rfl⟩ : ∃ m, k = m + 1 := ⟨k - 1, by omega⟩
    simp only [Nat.add_sub_cancel] at ihL ihR hi ⊢
    have hi0 : 0 ≤ i := (abs_nonneg _).trans (hx 0 (by positivity)).2
    obtain ⟨w, hw1, hw2, hw3⟩ : ∃ w, 10 - (m + 1) = w + 1 ∧ 10 - (m + 1 + 1) = w ∧ w ≤ 8 := ⟨8 - m, by omega, by omega, by omega⟩
    rw [hw2] at he hi
    rw [hw1] at ihL ihR
    have hwr : (w : ℝ) ≤ 8 := by exact_mod_cast hw3
    have hw2r : (2 : ℝ) ^ w ≤ 2 ^ 8 := pow_le_pow_right₀ (by norm_num) hw3
    have hi' : 2 * i + 1 / 2 ^ 16 + 1 / 2 ^ 16 ≤ (1 / 2500 + 1 / 2 ^ 16) * 2 ^ (w + 1) := by
      rw [pow_succ (2 : ℝ) w]; linarith
    have hi4 : 2 * i + 1 / 2 ^ 16 ≤ 1 / 4 := by
      rw [pow_succ (2 : ℝ) w] at hi'
      norm_num at hi' hw2r ⊢
      linarith
    have he' : e + 1 / 300 ≤ 1 / 1000 + ((w + 1 : ℕ) : ℝ) / 300 := by push_cast; linarith
    have he4 : e + 1 / 300 ≤ 1 / 25 := by linarith
    have step := fun j (hj : j < 2 ^ (m + 1)) => step_near hA (hr (2 * j) (by omega)).1 (hr (2 * j) (by omega)).2
      (hr (2 * j + 1) (by omega)).1 (hr (2 * j + 1) (by omega)).2 (hx (2 * j) (by omega)) (hx (2 * j + 1) (by omega)) he4 hi4
      (e0 := (splitS A (m + 1) x).1 j) (e1 := (splitS A (m + 1) x).2 j) (c := A.conj ((splitS A (m + 1) x).2 j))
      (k := 2 ^ (m + 1) + j) (by omega) rfl rfl (by rw [hA.conj, RCLike.norm_conj])
    refine ⟨fun j hj => diagOk_near (hx j hj) (by linarith) (by norm_num at hi4; linarith) (hr j hj).1 (hr j hj).2, ?_, ?_⟩
    · exact ihL (fun j => (r (2 * j) + r (2 * j + 1)) / 2) (splitS A (m + 1) x).1 (e + 1 / 300)
        (2 * i + 1 / 2 ^ 16) (by omega) (fun j hj => (key j hj).1)
        (fun j hj => by
          have h1 := hr (2 * j) (by omega)
          have h2 := hr (2 * j + 1) (by omega)
          constructor <;> linarith) (fun j hj => (step j hj).1) (by linarith) he' hi'
    · exact ihR (fun j => 2 * r (2 * j) * r (2 * j + 1) / (r (2 * j) + r (2 * j + 1))) _ (e + 1 / 300)
        (2 * i + 1 / 2 ^ 16) (by omega) (fun j hj => (key j hj).2)
        (fun j hj => by
          obtain ⟨h1, h1'⟩ := hr (2 * j) (by omega)
          obtain ⟨h2, h2'⟩ := hr (2 * j + 1) (by omega)
          generalize r (2 * j) = a at *
          generalize r (2 * j + 1) = b at *
          constructor
          · rw [le_div_iff₀ (by linarith)]; nlinarith
          · rw [div_le_iff₀ (by linarith)]
            have := mul_le_mul_of_nonneg_left h1' (by linarith : 0 ≤ b)
            have := mul_le_mul_of_nonneg_left h2' (by linarith : 0 ≤ a)
            linarith) (fun j hj => (step j hj).2.1) (by linarith) he' hi'

section
variable {A : Arith F64 (F64 × F64)} {A' : Arith ℝ ℂ} (hS : Sim A A')
include hS

theorem finC_schur {e : ℕ} (he : e ≤ 80) {g10 g00 g11 : F64 × F64} {y10 y00 y11 : ℂ} (h0 : FinC 27 g00 y00) (h10 : FinC e g10 y10)
    (h11 : FinC 80 g11 y11) (hy : 1 / 2 ^ 20 ≤ ‖y00‖) : FinC 200 (A.cdiv g10 g00) (A'.cdiv y10 y00) ∧
    FinC 400 (A.csub g11 (A.cmul (A.cmul (A.cdiv g10 g00) (A.conj (A.cdiv g10 g00))) g00))
      (A'.csub y11 (A'.cmul (A'.cmul (A'.cdiv y10 y00) (A'.conj (A'.cdiv y10 y00))) y00)) := by
  have hl := (hS.cdiv h10 h0 hy (by omega) (by omega)).mono (by omega : e + 27 + 43 ≤ 150)
  refine ⟨hl.mono (by norm_num), ?_⟩
  have h1 := hS.cmul (hS.cmul hl (hS.conj hl) (by norm_num)) h0 (by norm_num)
  exact (hS.csub (h11.mono (by norm_num)) h1 (by norm_num)).mono (by norm_num)

theorem finT_dTree : ∀ (k : ℕ) (a : Mem (F64 × F64)) (x : Mem ℂ), k + 1 ≤ 10 → DOk A' k x → LBound k (dTree A' k x) →
    RelBelow (2 ^ (k + 1)) (FinC 400) a x → FinT k (dTree A k a) (dTree A' k x) := by
  intro k
  induction k with
  | zero =>
    intro a x _ hd _ h
    exact ⟨((h 0 (by norm_num)).of_norm (hd 0 (by norm_num)).2).mono (by norm_num), (hd 0 (by norm_num)).1⟩
  | succ k ih =>
    intro a x hk hd hl h
    have h27 : RelBelow (2 ^ (k + 1 + 1)) (FinC 27) a x := fun j hj => (h j hj).of_norm (hd.1 j hj).2
    obtain ⟨s1, s2⟩ := finC_splitS hS hk (by norm_num) h27
    have hd0 := hd.2.1.top
    have hs := fun i hi => finC_schur hS (e := 27 + 3) (by norm_num) ((s1 i hi).of_norm (hd0 i hi).2) (hS.conj (s2 i hi))
      (hS.conj ((s1 i hi).mono (by norm_num : 27 + 3 ≤ 80))) (hd0 i hi).norm
    refine ⟨fun i hi => (hs i hi).1.of_norm ((hl.1 i hi).trans (by norm_num)), ?_, ?_⟩
    · exact ih _ _ (by omega) hd.2.1 hl.2.2.1 fun i hi => (s1 i hi).mono (by norm_num)
    · exact ih _ _ (by omega) hd.2.2 hl.2.2.2 fun i hi => (hs i hi).2

theorem finB_sigSigma (n : ℕ) : FinB 8 (sigSigma A n) (sigSigma A' n) := by
  unfold sigSigma
  split
  · exact hS.lit (by norm_num [abs_of_pos]) (by norm_num)
  · exact hS.lit (by norm_num [abs_of_pos]) (by norm_num)

theorem finT_map (hA : Accurate A') (n : ℕ) : ∀ (t : FTree (F64 × F64)) (t' : FTree ℂ) (k : ℕ), FinT k t t' →
    (∀ v ∈ (t'.mapLeaves (normLeaf A' (sigSigma A' n))).leaves, LeafOk v) →
    FinT k (t.mapLeaves (normLeaf A (sigSigma A n))) (t'.mapLeaves (normLeaf A' (sigSigma A' n))) := by
  intro t
  induction t with
  | leaf v =>
    intro t' k h hv
    cases t' with
    | node _ _ _ => cases k <;> exact h.elim
    | leaf w =>
      have h' : FinC 200 v w ∧ 1 ≤ w.re := by cases k <;> exact h
      have hw := hv (normLeaf A' (sigSigma A' n) w) (by simp only [FTree.mapLeaves, FTree.leaves, List.mem_singleton])
      have h1 := hS.re h'.1
      rw [hA.re] at h1
      have h2 := hS.sqrt h1 (by linarith [h'.2]) (by norm_num)
      have h3 : 1 / 2 ^ 1 ≤ |A'.sqrt w.re| := by
        have h4 := hA.sqrt w.re
        have h5 : 1 ≤ Real.sqrt w.re := Real.one_le_sqrt.mpr h'.2
        have h6 := (abs_le.mp h4).1
        have h7 : uD ≤ 1 / 4 := by unfold uD; norm_num
        have h8 : tinyD ≤ 1 / 4 := by unfold tinyD; norm_num
        have h9 := mul_le_mul_of_nonneg_right h7 (Real.sqrt_nonneg w.re)
        have h10 := le_abs_self (A'.sqrt w.re)
        norm_num
        linarith
      have h4 := hS.ofReal (hS.div (finB_sigSigma hS n) h2.1 h3 (by norm_num))
      have r : FinC 200 (normLeaf A (sigSigma A n) v) (normLeaf A' (sigSigma A' n) w) ∧ 1 ≤ (normLeaf A' (sigSigma A' n) w).re := by
        refine ⟨?_, by linarith [hw.1]⟩
        unfold normLeaf
        rw [hA.re w]
        exact h4.mono (by norm_num)
      cases k <;> exact r
  | node l L R ihL ihR =>
    intro t' k h hv
    cases t' with
    | leaf _ => cases k <;> exact h.elim
    | node l' L' R' =>
      simp only [FTree.mapLeaves, FTree.leaves, List.mem_append] at hv
      have r : FinT k (.node l L R) (.node l' L' R') → RelBelow (2 ^ k) (FinC 16) l l' ∧ FinT (k - 1) L L' ∧ FinT (k - 1) R R' := by
        intro h; cases k <;> exact h
      obtain ⟨h1, h2, h3⟩ := r h
      have i1 := ihL L' (k - 1) h2 (fun v hv' => hv v (Or.inl hv'))
      have i2 := ihR R' (k - 1) h3 (fun v hv' => hv v (Or.inr hv'))
      cases k <;> exact ⟨h1, i1, i2⟩

set_option maxHeartbeats 1000000 in
/-- The tree of a key in binary64 and the tree without upper bound on the exponent. -/
theorem tree_f64 (hA : Accurate A') {n : ℕ} (hn : ValidLog n) {f g F G : Mem Int} (heq : NtruEq n f g F G)
    (hfit : FitsFormat n f g F G) (hgs : GsSmall n f g) (B T : Mem (F64 × F64)) (Bp T' : Mem ℂ)
    (hB : ∀ x, x < 4 * 2 ^ n → FinC 37 (B x) (computeMatrixB A' n f g F G Bp x)) :
    ∃ t l L R, TRep n 0 (computeFalconTree A n B T) t ∧
      TRep n 0 (computeFalconTree A' n (computeMatrixB A' n f g F G Bp) T') (.node l L R) ∧ FinT n t (.node l L R) ∧
      (∀ i, i < 2 ^ n → ‖l i‖ ≤ 44700) ∧ (∃ y, ConjSym n y ∧ ∀ i, i < 2 ^ n → ‖l i - y i‖ ≤ 1) ∧ LBound (n - 1) L ∧ LBound (n - 1) R ∧
      (∀ v ∈ L.leaves, LeafOk v) ∧ ∀ v ∈ R.leaves, LeafOk v := by
  have hn10 : n ≤ 10 := by rcases hn with rfl | rfl <;> norm_num
  have hn1 : 1 ≤ n := by rcases hn with rfl | rfl <;> norm_num
  have hpos : ∀ i, i < 2 ^ n → 0 < gramAt n f g i := fgNorm_pos hn10 heq
  have hpt := gsSmall_pt hn hpos hgs
  have hnorm := gsSmall_norm hn10 hpos hgs
  have key := top_at hA hn heq hfit hgs Bp (junkC A') _ rfl
  have hY := finC_gram hS (Y0 := junkC A) (Z0 := junkC A') hB
  have h1 := (C46_normalization A' (sigSigma A' n) n hn1 _ _
    (C46_construction A' n hn1 (gramMatrix A' n (computeMatrixB A' n f g F G Bp) (junkC A')) T').1).1
  have h2 := (C46_normalization A (sigSigma A n) n hn1 _ _ (C46_construction A n hn1 (gramMatrix A n B (junkC A)) T).1).1
  rw [treeAt_root] at h1 h2
  unfold computeFalconTree
  simp only
  generalize gramMatrix A' n (computeMatrixB A' n f g F G Bp) (junkC A') = Y at *
  generalize gramMatrix A n B (junkC A) = X at *
  obtain ⟨k, rfl⟩ : ∃ k, n = k + 1 := ⟨n - 1, by omega⟩
  obtain ⟨d0, d1, L0, R0, hL, hR, hd0, hd1, vL, vR⟩ := tree_exact hn10 heq hnorm
  rw [ldlTree_eq] at h1 h2
  have he : (1 / 1000 : ℝ) ≤ 1 / 1000 + ((10 - (k + 1) : ℕ) : ℝ) / 300 := by
    have : (0 : ℝ) ≤ ((10 - (k + 1) : ℕ) : ℝ) := Nat.cast_nonneg _
    linarith
  have hi' : (1 / 2500 : ℝ) + 1 / 2 ^ 16 ≤ (1 / 2500 + 1 / 2 ^ 16) * 2 ^ (10 - (k + 1)) :=
    le_mul_of_one_le_right (by positivity) (one_le_pow₀ (by norm_num))
  have r0 : ∀ j, j < 2 ^ (k + 1) → 8 ≤ gramAt (k + 1) f g j ∧ gramAt (k + 1) f g j ≤ 2 ^ 25 := fun j hj =>
    ⟨by linarith [(hpt j hj).1], by have := (hpt j hj).2; norm_num at this ⊢; linarith⟩
  have r1 : ∀ j, j < 2 ^ (k + 1) → 8 ≤ 12289 ^ 2 / gramAt (k + 1) f g j ∧ 12289 ^ 2 / gramAt (k + 1) f g j ≤ 2 ^ 25 := fun j hj => by
    obtain ⟨p1, p2⟩ := hpt j hj
    have p0 := hpos j hj
    rw [le_div_iff₀ p0, div_le_iff₀ p0]
    norm_num at p1 p2 ⊢
    constructor <;> linarith
  obtain ⟨fL, lL⟩ := diag_near hA hL (gramAt (k + 1) f g) Y _ _ hn10 hd0 r0
    (fun j hj => (key j hj).1) (fgNorm_compl (k + 1) f g) le_rfl he hi'
  obtain ⟨fR, lR⟩ := diag_near hA hR (fun i => 12289 ^ 2 / gramAt (k + 1) f g i) (fun i => A'.csub (Y (3 * 2 ^ (k + 1) + i))
      (A'.cmul (A'.cmul (A'.cdiv (Y (2 * 2 ^ (k + 1) + i)) (Y i)) (A'.conj (A'.cdiv (Y (2 * 2 ^ (k + 1) + i)) (Y i)))) (Y i)))
    _ _ hn10 hd1 r1
    (fun j hj => (key j hj).2.1) (fun j hj => by
      rw [show gramAt (k + 1) f g (2 ^ (k + 1) - 1 - j) = gramAt (k + 1) f g j from fgNorm_compl (k + 1) f g j hj])
    le_rfl he hi'
  have okL := diag_ok hA hL (gramAt (k + 1) f g) Y _ _ hn10 hd0 r0 (fun j hj => (key j hj).1) le_rfl he hi'
  have okR := diag_ok hA hR (fun i => 12289 ^ 2 / gramAt (k + 1) f g i) _ _ _ hn10 hd1 r1 (fun j hj => (key j hj).2.1) le_rfl he hi'
  rw [Nat.add_sub_cancel] at fL lL fR lR okL okR
  have wL := good_leaves hA hn fL vL
  have wR := good_leaves hA hn fR vR
  rw [← leaves_map] at wL wR
  have top := okL.top
  have x0 : ∀ i, i < 2 ^ (k + 1) → FinC 76 (X i) (Y i) := fun i hi => by
    have := hY 0 i (Or.inl rfl) hi
    rwa [zero_mul, zero_add] at this
  have hs := fun i hi => finC_schur hS (e := 76) (by norm_num) ((x0 i hi).of_norm (top i hi).2) (hY 2 i (Or.inr (Or.inl rfl)) hi)
      ((hY 3 i (Or.inr (Or.inr rfl)) hi).mono (by norm_num : 76 ≤ 80)) (top i hi).norm
  refine ⟨_, _, _, _, h2, h1, ⟨fun i hi => (hs i hi).1.of_norm ((key i hi).2.2.1.trans (by norm_num)), ?_, ?_⟩,
    fun i hi => (key i hi).2.2.1, ⟨_, rootL_sym _ f g F G, fun i hi => (key i hi).2.2.2⟩, LBound.map _ _ lL, LBound.map _ _ lR, wL, wR⟩
  · exact finT_map hS hA (k + 1) _ _ k (finT_dTree hS k _ _ hn10 okL lL fun i hi => (x0 i hi).mono (by norm_num)) wL
  · exact finT_map hS hA (k + 1) _ _ k (finT_dTree hS k _ _ hn10 okR lR fun i hi => (hs i hi).2) wR

end

end Falcon
