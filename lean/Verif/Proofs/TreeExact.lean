import Verif.LdlSpec
import Verif.Proofs.Gram
import Verif.Proofs.FftExact

/-!
# The LDL* tree in exact arithmetic
-/

namespace Falcon

open Finset

/-! ### Conjugate points -/

theorem brv_neg : ∀ (n v : ℕ), v < 2 ^ n → brv n v + brv n (2 ^ n - 1 - v) = 2 ^ n - 1 := by
  intro n
  induction n with
  | zero => intro v _; rfl
  | succ n ih =>
    intro v hv
    have hp : 2 ^ (n + 1) = 2 * 2 ^ n := by rw [pow_succ]; ring
    have h := ih (v / 2) (by omega)
    have h0 : 0 < 2 ^ n := by positivity
    rw [brv, brv, hp, show (2 * 2 ^ n - 1 - v) / 2 = 2 ^ n - 1 - v / 2 by omega]
    rcases Nat.mod_two_eq_zero_or_one v with e | e
    · rw [e, show (2 * 2 ^ n - 1 - v) % 2 = 1 by omega]; omega
    · rw [e, show (2 * 2 ^ n - 1 - v) % 2 = 0 by omega]; omega

theorem fftPoint_compl (n i : ℕ) (hi : i < 2 ^ n) :
    fftPoint n (2 ^ n - 1 - i) = (starRingEnd ℂ) (fftPoint n i) := by
  have h := brv_neg n i hi
  have h0 : 0 < 2 ^ n := by positivity
  rw [brv_eq_revBits, brv_eq_revBits] at h
  unfold fftPoint
  have hc : (revBits n (2 ^ n - 1 - i) : ℂ) = 2 ^ n - 1 - (revBits n i : ℂ) := by
    have : ((revBits n i + revBits n (2 ^ n - 1 - i) + 1 : ℕ) : ℂ) = ((2 ^ n : ℕ) : ℂ) := by
      congr 1; omega
    push_cast at this
    linear_combination this
  rw [hc, ← Complex.exp_conj]
  have e : (starRingEnd ℂ) (Complex.I * (Real.pi : ℂ) * (2 * (revBits n i : ℂ) + 1) / 2 ^ n)
      = -(Complex.I * (Real.pi : ℂ) * (2 * (revBits n i : ℂ) + 1) / 2 ^ n) := by
    simp only [map_div₀, map_mul, map_add, map_one, Complex.conj_I, Complex.conj_ofReal, map_ofNat, map_natCast,
      map_pow]
    ring
  rw [e, show Complex.I * (Real.pi : ℂ) * (2 * (2 ^ n - 1 - (revBits n i : ℂ)) + 1) / 2 ^ n
    = -(Complex.I * (Real.pi : ℂ) * (2 * (revBits n i : ℂ) + 1) / 2 ^ n) + 2 * Real.pi * Complex.I by
      field_simp; ring, Complex.exp_periodic]

/-- Conjugate points have conjugate values for real coefficients. -/
theorem dft_compl (n : ℕ) (a : Mem Int) (i : ℕ) (hi : i < 2 ^ n) :
    dft n (zC a) (2 ^ n - 1 - i) = (starRingEnd ℂ) (dft n (zC a) i) := by
  unfold dft
  rw [map_sum]
  apply sum_congr rfl
  intro j _
  rw [fftPoint_compl n i hi, map_mul, map_pow]
  congr 1
  unfold zC
  exact (map_intCast (starRingEnd ℂ) _).symm

/-! ### The decomposition -/

theorem splitS_fst (k : ℕ) (d : Mem ℂ) (i : ℕ) :
    (splitS exactA k d).1 i = (d (2 * i) + d (2 * i + 1)) / 2 := by
  show ((exactA.lit (1 / 2) : ℝ) : ℂ) * (d (2 * i) + d (2 * i + 1)) = _
  rw [exact_half]; push_cast; ring

theorem splitS_snd (k : ℕ) (d : Mem ℂ) (i : ℕ) :
    (splitS exactA k d).2 i = (d (2 * i) - d (2 * i + 1)) / 2 * (starRingEnd ℂ) (cT (2 ^ k + i)) := by
  show ((exactA.lit (1 / 2) : ℝ) : ℂ) * (d (2 * i) - d (2 * i + 1)) * (starRingEnd ℂ) (exactA.tab (2 ^ k + i)) = _
  rw [exact_half, exact_tab]; push_cast; ring

theorem splitS_isSplit {k : ℕ} (hk : k + 1 ≤ 10) (d : Mem ℂ) :
    IsSplit k d (splitS exactA k d).1 (splitS exactA k d).2 := by
  intro i hi
  rw [splitS_fst, splitS_snd, fftPoint_even hk i hi, fftPoint_odd hk i hi]
  have h := cT_conj (2 ^ k + i)
  constructor
  · linear_combination -((d (2 * i) - d (2 * i + 1)) / 2) * h
  · linear_combination ((d (2 * i) - d (2 * i + 1)) / 2) * h

theorem isLdl_congr {N : ℕ} {g00 g01 g10 g11 g00' g01' g10' g11' l d0 d1 : Mem ℂ}
    (h0 : ∀ i, i < N → g00' i = g00 i) (h1 : ∀ i, i < N → g01' i = g01 i) (h2 : ∀ i, i < N → g10' i = g10 i)
    (h3 : ∀ i, i < N → g11' i = g11 i) (h : IsLdl N g00 g01 g10 g11 l d0 d1) :
    IsLdl N g00' g01' g10' g11' l d0 d1 := by
  intro i hi
  rw [h0 i hi, h1 i hi, h2 i hi, h3 i hi]
  exact h i hi

/-- One decomposition, with the values of the diagonal. -/
theorem ldl_step {a b : ℝ} {x : ℂ} (ha : 0 < a) :
    let l := x / (a : ℂ)
    let d1 : ℂ := (b : ℂ) - l * (starRingEnd ℂ) l * (a : ℂ)
    d1 = ((b - Complex.normSq x / a : ℝ) : ℂ) ∧
    (starRingEnd ℂ) x = (a : ℂ) * (starRingEnd ℂ) l ∧ x = l * (a : ℂ) ∧
    (b : ℂ) = l * (a : ℂ) * (starRingEnd ℂ) l + d1 := by
  have hac : (a : ℂ) ≠ 0 := by exact_mod_cast ha.ne'
  simp only
  rw [map_div₀, Complex.conj_ofReal]
  refine ⟨?_, ?_, ?_, ?_⟩
  · have h := Complex.mul_conj x
    push_cast
    rw [← h]
    field_simp
  · field_simp
  · field_simp
  · ring

/-- A real positive entry. -/
def RealPos (k : ℕ) (d : Mem ℂ) : Prop := ∀ i, i < 2 ^ k → ∃ a : ℝ, d i = a ∧ 0 < a

theorem child_pd {k : ℕ} {d : Mem ℂ} (h : RealPos (k + 1) d) :
    GramPD k (splitS exactA k d).1 (starM (splitS exactA k d).2) (starM (splitS exactA k d).1) ∧
    ∀ i, i < 2 ^ k → starM (splitS exactA k d).1 i = (splitS exactA k d).1 i := by
  have hp : 2 ^ (k + 1) = 2 * 2 ^ k := by rw [pow_succ]; ring
  have key : ∀ i, i < 2 ^ k → ∃ a b : ℝ, 0 < a ∧ 0 < b ∧
      (splitS exactA k d).1 i = (((a + b) / 2 : ℝ) : ℂ) ∧
      (splitS exactA k d).2 i = (((a - b) / 2 : ℝ) : ℂ) * (starRingEnd ℂ) (cT (2 ^ k + i)) := by
    intro i hi
    obtain ⟨a, ha, ha'⟩ := h (2 * i) (by omega)
    obtain ⟨b, hb, hb'⟩ := h (2 * i + 1) (by omega)
    refine ⟨a, b, ha', hb', ?_, ?_⟩
    · rw [splitS_fst, ha, hb]; push_cast; ring
    · rw [splitS_snd, ha, hb]; push_cast; ring
  constructor
  · intro i hi
    obtain ⟨a, b, ha, hb, h0, h1⟩ := key i hi
    refine ⟨(a + b) / 2, (a + b) / 2, h0, ?_, by linarith, ?_⟩
    · unfold starM; rw [h0, Complex.conj_ofReal]
    · unfold starM
      rw [h1, Complex.normSq_conj, Complex.normSq_mul, Complex.normSq_conj, cT_normSq, Complex.normSq_ofReal]
      nlinarith [mul_pos ha hb]
  · intro i hi
    obtain ⟨a, b, ha, hb, h0, h1⟩ := key i hi
    unfold starM; rw [h0, Complex.conj_ofReal]

theorem ldlTree_ok : ∀ (k : ℕ) (g00 g10 g11 : Mem ℂ), k + 1 ≤ 10 → GramPD (k + 1) g00 g10 g11 →
    FfLdl (k + 1) g00 (starM g10) g10 g11 (ldlTree exactA exactA.conj (k + 1) g00 g10 g11) := by
  intro k
  induction k with
  | zero =>
    intro g00 g10 g11 _ h
    refine ⟨_, g00, fun i => g11 i - g10 i / g00 i * (starRingEnd ℂ) (g10 i / g00 i) * g00 i, _, _, rfl, ?_,
      .leaf _, .leaf _⟩
    intro i hi
    obtain ⟨a, b, ha, hb, ha0, hab⟩ := h i hi
    obtain ⟨e1, e2, e3, e4⟩ := ldl_step (b := b) (x := g10 i) ha0
    show _ ∧ _ ∧ _ ∧ (starRingEnd ℂ) (g10 i) = _ ∧ _ ∧ _
    beta_reduce
    rw [ha, hb, e1]
    rw [e1] at e4
    exact ⟨Complex.ofReal_im _, Complex.ofReal_im _, rfl, e2, e3, e4⟩
  | succ k ih =>
    intro g00 g10 g11 hk h
    have hd : RealPos (k + 2) g00 ∧ RealPos (k + 2)
        (fun i => g11 i - g10 i / g00 i * (starRingEnd ℂ) (g10 i / g00 i) * g00 i) := by
      constructor
      · intro i hi
        obtain ⟨a, b, ha, hb, ha0, hab⟩ := h i hi
        exact ⟨a, ha, ha0⟩
      · intro i hi
        obtain ⟨a, b, ha, hb, ha0, hab⟩ := h i hi
        obtain ⟨e1, _⟩ := ldl_step (b := b) (x := g10 i) ha0
        refine ⟨b - Complex.normSq (g10 i) / a, by beta_reduce; rw [ha, hb, e1], ?_⟩
        rw [sub_pos, div_lt_iff₀ ha0]; linarith
    have hchild : ∀ d : Mem ℂ, RealPos (k + 2) d → DiagTree (k + 2) d
        (ldlTree exactA exactA.conj (k + 1) (splitS exactA (k + 1) d).1
          (fun i => exactA.conj ((splitS exactA (k + 1) d).2 i))
          (fun i => exactA.conj ((splitS exactA (k + 1) d).1 i))) := by
      intro d hd
      obtain ⟨hpd, hre⟩ := child_pd hd
      obtain ⟨l, d0, d1, L, R, ht, hl, hL, hR⟩ := ih _ _ _ (by omega) hpd
      have ht' : ldlTree exactA exactA.conj (k + 1) (splitS exactA (k + 1) d).1
          (fun i => exactA.conj ((splitS exactA (k + 1) d).2 i))
          (fun i => exactA.conj ((splitS exactA (k + 1) d).1 i)) = .node l L R := ht
      rw [ht']
      refine .node (by omega) (splitS_isSplit hk d) (isLdl_congr (fun _ _ => rfl) ?_ (fun _ _ => rfl)
        (fun i hi => (hre i hi).symm) hl) hL hR
      intro i hi
      unfold starM
      rw [Complex.conj_conj]
    refine ⟨_, g00, fun i => g11 i - g10 i / g00 i * (starRingEnd ℂ) (g10 i / g00 i) * g00 i, _, _, rfl, ?_,
      hchild g00 hd.1, hchild _ hd.2⟩
    intro i hi
    obtain ⟨a, b, ha, hb, ha0, hab⟩ := h i hi
    obtain ⟨e1, e2, e3, e4⟩ := ldl_step (b := b) (x := g10 i) ha0
    show _ ∧ _ ∧ _ ∧ (starRingEnd ℂ) (g10 i) = _ ∧ _ ∧ _
    beta_reduce
    rw [ha, hb, e1]
    rw [e1] at e4
    exact ⟨Complex.ofReal_im _, Complex.ofReal_im _, rfl, e2, e3, e4⟩

/-! ### Bounds on the leaves -/

/-- The diagonal entries of an inner node are the arithmetic and the harmonic mean of the values at opposite points. -/
theorem node_means {k : ℕ} (hk10 : k + 1 ≤ 10) {d e0 e1 l d0 d1 : Mem ℂ} {r : ℕ → ℝ} (hs : IsSplit k d e0 e1)
    (hl : IsLdl (2 ^ k) e0 e1 (starM e1) e0 l d0 d1) (hd : ∀ i, i < 2 ^ (k + 1) → d i = r i)
    (hpos : ∀ i, i < 2 ^ (k + 1) → 0 < r i) : ∀ i, i < 2 ^ k → d0 i = ((r (2 * i) + r (2 * i + 1)) / 2 : ℝ) ∧
      d1 i = (2 * r (2 * i) * r (2 * i + 1) / (r (2 * i) + r (2 * i + 1)) : ℝ) := by
  have hp : 2 ^ (k + 1) = 2 * 2 ^ k := by rw [pow_succ]; ring
  intro i hi
  obtain ⟨s1, s2⟩ := hs i hi
  obtain ⟨_, _, l1, l2, l3, l4⟩ := hl i hi
  have p1 := hpos (2 * i) (by omega)
  have p2 := hpos (2 * i + 1) (by omega)
  rw [fftPoint_even hk10 i hi, hd _ (by omega)] at s1
  rw [fftPoint_odd hk10 i hi, hd _ (by omega)] at s2
  have hc := cT_conj (2 ^ k + i)
  generalize cT (2 ^ k + i) = w at *
  have he0 : e0 i = ((r (2 * i) + r (2 * i + 1)) / 2 : ℝ) := by
    push_cast; linear_combination -(s1 + s2) / 2
  have he1 : w * e1 i = ((r (2 * i) - r (2 * i + 1)) / 2 : ℝ) := by
    push_cast; linear_combination -(s1 - s2) / 2
  have hn : e1 i * (starRingEnd ℂ) (e1 i) = (((r (2 * i) - r (2 * i + 1)) / 2 : ℝ) : ℂ) ^ 2 := by
    have h2 := congrArg (starRingEnd ℂ) he1
    rw [map_mul, Complex.conj_ofReal] at h2
    rw [pow_two]
    nth_rewrite 1 [← he1]
    rw [← h2]
    linear_combination -(e1 i * (starRingEnd ℂ) (e1 i)) * hc
  have hd0 : d0 i = ((r (2 * i) + r (2 * i + 1)) / 2 : ℝ) := by rw [← l1, he0]
  refine ⟨hd0, ?_⟩
  have hs0 : ((r (2 * i) + r (2 * i + 1) : ℝ) : ℂ) ≠ 0 := by
    exact_mod_cast (by linarith : (0 : ℝ) < r (2 * i) + r (2 * i + 1)).ne'
  have h5 : (starM e1 i) * e1 i = (l i * d0 i) * (d0 i * (starRingEnd ℂ) (l i)) := by rw [← l3, ← l2]
  simp only [starM] at h5
  rw [mul_comm, hn, hd0] at h5
  rw [he0, hd0] at l4
  have h6 : d1 i * ((r (2 * i) + r (2 * i + 1) : ℝ) : ℂ) = ((2 * r (2 * i) * r (2 * i + 1) : ℝ) : ℂ) := by
    push_cast at h5 l4 ⊢
    linear_combination (-(r (2 * i) : ℂ) - r (2 * i + 1)) * l4 + 2 * h5
  rw [Complex.ofReal_div, ← h6, mul_div_assoc, div_self hs0, mul_one]

theorem diag_bounds : ∀ (k : ℕ) (d : Mem ℂ) (t : FTree ℂ), DiagTree k d t → ∀ r : ℕ → ℝ, k ≤ 10 →
    (∀ i, i < 2 ^ k → d i = r i) → (∀ i, i < 2 ^ k → 0 < r i) → (∀ i, i < 2 ^ k → r (2 ^ k - 1 - i) = r i) →
    ∀ v ∈ t.leaves, ∃ x : ℝ, v = x ∧ 0 < x ∧ x * 2 ^ k ≤ ∑ i ∈ range (2 ^ k), r i ∧
      2 ^ k / x ≤ ∑ i ∈ range (2 ^ k), 1 / r i := by
  intro k d t h
  induction h with
  | leaf d =>
    intro r _ hd hpos hsym v hv
    have hv : v = d 0 := by simpa [FTree.leaves] using hv
    have h1 := hsym 0 (by norm_num)
    norm_num at h1
    refine ⟨r 0, by rw [hv, hd 0 (by norm_num)], hpos 0 (by norm_num), ?_, ?_⟩
    · norm_num [sum_range_succ, h1]; linarith
    · norm_num [sum_range_succ, h1]
      rw [div_eq_mul_inv]; linarith
  | @node k d e0 e1 l d0 d1 L R hk hs hl hL hR ihL ihR =>
    intro r hk10 hd hpos hsym v hv
    have hp : 2 ^ (k + 1) = 2 * 2 ^ k := by rw [pow_succ]; ring
    have hpr : (2 : ℝ) ^ (k + 1) = 2 * 2 ^ k := by rw [pow_succ]; ring
    -- the values of the two diagonal entries
    have key := node_means hk10 hs hl hd hpos
    have hsum : ∀ g : ℕ → ℝ, ∑ i ∈ range (2 ^ (k + 1)), g i = ∑ i ∈ range (2 ^ k), (g (2 * i) + g (2 * i + 1)) := by
      intro g; rw [hp, sum_pairs]
    have hsymp : ∀ i, i < 2 ^ k → r (2 * (2 ^ k - 1 - i)) = r (2 * i + 1) ∧
        r (2 * (2 ^ k - 1 - i) + 1) = r (2 * i) := by
      intro i hi
      constructor
      · rw [← hsym (2 * i + 1) (by omega)]; congr 1; omega
      · rw [← hsym (2 * i) (by omega)]; congr 1; omega
    simp only [FTree.leaves, List.mem_append] at hv
    rcases hv with hv | hv
    · obtain ⟨x, hx, x0, b1, b2⟩ := ihL (fun i => (r (2 * i) + r (2 * i + 1)) / 2) (by omega)
        (fun i hi => (key i hi).1)
        (fun i hi => by have := hpos (2 * i) (by omega); have := hpos (2 * i + 1) (by omega); linarith)
        (fun i hi => by rw [(hsymp i hi).1, (hsymp i hi).2]; ring) v hv
      refine ⟨x, hx, x0, ?_, ?_⟩
      · rw [hsum, hpr]
        have e : ∑ i ∈ range (2 ^ k), (r (2 * i) + r (2 * i + 1))
            = 2 * ∑ i ∈ range (2 ^ k), (r (2 * i) + r (2 * i + 1)) / 2 := by
          rw [mul_sum]; apply sum_congr rfl; intro i _; ring
        rw [e]; linarith
      · rw [hsum, hpr]
        have e : 2 * ∑ i ∈ range (2 ^ k), 1 / ((r (2 * i) + r (2 * i + 1)) / 2)
            ≤ ∑ i ∈ range (2 ^ k), (1 / r (2 * i) + 1 / r (2 * i + 1)) := by
          rw [mul_sum]
          apply sum_le_sum
          intro i hi
          have hi := mem_range.mp hi
          have p1 := hpos (2 * i) (by omega)
          have p2 := hpos (2 * i + 1) (by omega)
          rw [one_div_div, ← mul_div_assoc, div_add_div _ _ p1.ne' p2.ne', div_le_div_iff₀ (by linarith) (by positivity)]
          nlinarith [sq_nonneg (r (2 * i) - r (2 * i + 1))]
        rw [mul_div_assoc]; linarith
    · obtain ⟨x, hx, x0, b1, b2⟩ := ihR (fun i => 2 * r (2 * i) * r (2 * i + 1) / (r (2 * i) + r (2 * i + 1)))
        (by omega) (fun i hi => (key i hi).2)
        (fun i hi => by have := hpos (2 * i) (by omega); have := hpos (2 * i + 1) (by omega); positivity)
        (fun i hi => by rw [(hsymp i hi).1, (hsymp i hi).2]; ring) v hv
      refine ⟨x, hx, x0, ?_, ?_⟩
      · rw [hsum, hpr]
        have e : 2 * ∑ i ∈ range (2 ^ k), 2 * r (2 * i) * r (2 * i + 1) / (r (2 * i) + r (2 * i + 1))
            ≤ ∑ i ∈ range (2 ^ k), (r (2 * i) + r (2 * i + 1)) := by
          rw [mul_sum]
          apply sum_le_sum
          intro i hi
          have hi := mem_range.mp hi
          have p1 := hpos (2 * i) (by omega)
          have p2 := hpos (2 * i + 1) (by omega)
          rw [← mul_div_assoc, div_le_iff₀ (by linarith)]
          nlinarith [sq_nonneg (r (2 * i) - r (2 * i + 1))]
        linarith
      · rw [hsum, hpr]
        have e : ∑ i ∈ range (2 ^ k), (1 / r (2 * i) + 1 / r (2 * i + 1))
            = 2 * ∑ i ∈ range (2 ^ k), 1 / (2 * r (2 * i) * r (2 * i + 1) / (r (2 * i) + r (2 * i + 1))) := by
          rw [mul_sum]
          apply sum_congr rfl
          intro i hi
          have hi := mem_range.mp hi
          have p1 := hpos (2 * i) (by omega)
          have p2 := hpos (2 * i + 1) (by omega)
          field_simp
          ring
        rw [e, mul_div_assoc]; linarith

end Falcon
