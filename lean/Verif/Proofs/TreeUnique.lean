import Verif.Proofs.TreeExact

/-!
# The LDL* tree of a positive definite matrix is unique
-/

namespace Falcon

theorem isSplit_unique {k : ℕ} (hk : k + 1 ≤ 10) {d d' e0 e1 e0' e1' : Mem ℂ} (h : IsSplit k d e0 e1)
    (h' : IsSplit k d' e0' e1') (hd : ∀ i, i < 2 ^ (k + 1) → d i = d' i) (i : ℕ) (hi : i < 2 ^ k) :
    e0 i = e0' i ∧ e1 i = e1' i := by
  have hp : 2 ^ (k + 1) = 2 * 2 ^ k := by rw [pow_succ]; ring
  obtain ⟨a1, a2⟩ := h i hi
  obtain ⟨b1, b2⟩ := h' i hi
  rw [hd _ (by omega), b1, fftPoint_even hk i hi] at a1
  rw [hd _ (by omega), b2, fftPoint_odd hk i hi] at a2
  have hc := cT_ne (2 ^ k + i)
  constructor
  · linear_combination -(a1 + a2) / 2
  · have : cT (2 ^ k + i) * (e1 i - e1' i) = 0 := by linear_combination -(a1 - a2) / 2
    rcases mul_eq_zero.mp this with h | h
    · exact absurd h hc
    · linear_combination h

theorem isLdl_unique {N : ℕ} {g00 g01 g10 g11 g00' g01' g10' g11' l d0 d1 l' d0' d1' : Mem ℂ}
    (h : IsLdl N g00 g01 g10 g11 l d0 d1) (h' : IsLdl N g00' g01' g10' g11' l' d0' d1')
    (e0 : ∀ i, i < N → g00 i = g00' i) (e2 : ∀ i, i < N → g10 i = g10' i) (e3 : ∀ i, i < N → g11 i = g11' i)
    (hne : ∀ i, i < N → g00 i ≠ 0) (i : ℕ) (hi : i < N) : l i = l' i ∧ d0 i = d0' i ∧ d1 i = d1' i := by
  obtain ⟨_, _, a0, a1, a2, a3⟩ := h i hi
  obtain ⟨_, _, b0, b1, b2, b3⟩ := h' i hi
  have hd : d0 i = d0' i := by rw [← a0, ← b0, e0 i hi]
  have hl : l i = l' i := by
    have hn : d0' i ≠ 0 := by rw [← hd, ← a0]; exact hne i hi
    have : l i * d0' i = l' i * d0' i := by rw [← b2, ← hd, ← a2, e2 i hi]
    exact mul_right_cancel₀ hn this
  refine ⟨hl, hd, ?_⟩
  rw [e3 i hi, b3, hl, hd] at a3
  linear_combination -a3

/-- The diagonal entries of a decomposition of a positive definite matrix are positive. -/
theorem isLdl_pos {k : ℕ} {g00 g01 g10 g11 l d0 d1 : Mem ℂ} (h : IsLdl (2 ^ k) g00 g01 g10 g11 l d0 d1)
    (hpd : GramPD k g00 g10 g11) : RealPos k d0 ∧ RealPos k d1 := by
  constructor
  · intro i hi
    obtain ⟨a, b, ha, hb, ha0, hab⟩ := hpd i hi
    exact ⟨a, by rw [← (h i hi).2.2.1, ha], ha0⟩
  · intro i hi
    obtain ⟨a, b, ha, hb, ha0, hab⟩ := hpd i hi
    obtain ⟨i0, i1, h0, h1, h2, h3⟩ := h i hi
    have hac : (a : ℂ) ≠ 0 := by exact_mod_cast ha0.ne'
    have e : l i * d0 i * (starRingEnd ℂ) (l i) = ((Complex.normSq (g10 i) / a : ℝ) : ℂ) := by
      rw [Complex.ofReal_div, eq_div_iff hac, ← Complex.mul_conj, h2, map_mul,
        ← h0, ha, Complex.conj_ofReal]
      ring
    refine ⟨b - Complex.normSq (g10 i) / a, ?_, ?_⟩
    · rw [e, hb] at h3
      push_cast at h3 ⊢
      linear_combination -h3
    · rw [sub_pos, div_lt_iff₀ ha0]; linarith

theorem split_pd {k : ℕ} (hk : k + 1 ≤ 10) {d e0 e1 : Mem ℂ} (hs : IsSplit k d e0 e1) (hd : RealPos (k + 1) d) :
    GramPD k e0 (starM e1) e0 := by
  obtain ⟨hpd, hre⟩ := child_pd hd
  intro i hi
  obtain ⟨h0, h1⟩ := isSplit_unique hk hs (splitS_isSplit hk d) (fun _ _ => rfl) i hi
  have := hpd i hi
  rw [hre i hi] at this
  unfold starM at this ⊢
  rw [h0, h1]
  exact this

theorem diagTree_unique {k : ℕ} {d : Mem ℂ} {t : FTree ℂ} (h : DiagTree k d t) : ∀ {d' : Mem ℂ} {t' : FTree ℂ},
    DiagTree k d' t' → k ≤ 10 → (∀ i, i < 2 ^ k → d i = d' i) → RealPos k d →
    ∀ (level : ℕ) (T : Mem ℂ), TRep (k - 1) level T t → TRep (k - 1) level T t' := by
  induction h with
  | leaf d =>
    intro d' t' h' _ hd _ level T hr
    cases h' with
    | leaf =>
      have hr : T 0 = d 0 := hr
      show T 0 = d' 0
      rw [hr, hd 0 (by norm_num)]
    | node hk => omega
  | @node k d e0 e1 l d0 d1 L R hk hs hl hL hR ihL ihR =>
    intro d' t' h' hk10 hd hp level T hr
    cases h' with
    | leaf => omega
    | @node _ _ e0' e1' l' d0' d1' L' R' _ hs' hl' hL' hR' =>
      obtain ⟨m, rfl⟩ : ∃ m, k = m + 1 := ⟨k - 1, by omega⟩
      have hu := isSplit_unique hk10 hs hs' hd
      have hpd := split_pd hk10 hs hp
      have hv := isLdl_unique hl hl' (fun i hi => (hu i hi).1)
        (fun i hi => by unfold starM; rw [(hu i hi).2]) (fun i hi => (hu i hi).1)
        (fun i hi => by
          obtain ⟨a, b, ha, _, ha0, _⟩ := hpd i hi
          rw [ha]; exact_mod_cast ha0.ne')
      obtain ⟨p0, p1⟩ := isLdl_pos hl hpd
      simp only [Nat.add_sub_cancel] at hr ihL ihR ⊢
      obtain ⟨r0, r1, r2⟩ := hr
      refine ⟨fun i hi => by rw [r0 i hi, (hv i hi).1], ?_, ?_⟩
      · exact ihL hL' (by omega) (fun i hi => (hv i hi).2.1) p0 _ _ r1
      · exact ihR hR' (by omega) (fun i hi => (hv i hi).2.2) p1 _ _ r2

/-- Two LDL* trees of the same positive definite matrix are stored in the same way. -/
theorem ffLdl_unique {k : ℕ} (h1 : 1 ≤ k) (hk : k ≤ 10) {g00 g01 g10 g11 : Mem ℂ} {t t' : FTree ℂ}
    (h : FfLdl k g00 g01 g10 g11 t) (h' : FfLdl k g00 g01 g10 g11 t') (hpd : GramPD k g00 g10 g11)
    (level : ℕ) (T : Mem ℂ) (hr : TRep k level T t) : TRep k level T t' := by
  obtain ⟨l, d0, d1, L, R, rfl, hl, hL, hR⟩ := h
  obtain ⟨l', d0', d1', L', R', rfl, hl', hL', hR'⟩ := h'
  obtain ⟨m, rfl⟩ : ∃ m, k = m + 1 := ⟨k - 1, by omega⟩
  have hv := isLdl_unique hl hl' (fun _ _ => rfl) (fun _ _ => rfl) (fun _ _ => rfl) (fun i hi => by
    obtain ⟨a, b, ha, _, ha0, _⟩ := hpd i hi
    rw [ha]; exact_mod_cast ha0.ne')
  obtain ⟨p0, p1⟩ := isLdl_pos hl hpd
  obtain ⟨r0, r1, r2⟩ := hr
  refine ⟨fun i hi => by rw [r0 i hi, (hv i hi).1], ?_, ?_⟩
  · exact diagTree_unique hL hL' hk (fun i hi => (hv i hi).2.1) p0 _ _ r1
  · exact diagTree_unique hR hR' hk (fun i hi => (hv i hi).2.2) p1 _ _ r2

end Falcon
