import Verif.Proofs.Fft
import Mathlib.RingTheory.Polynomial.Cyclotomic.Roots
import Mathlib.GroupTheory.OrderOfElement

/-!
# Splitting, merging, norms and the recomputation of G in exact arithmetic
-/

namespace Falcon

open Finset Polynomial

theorem sum_pairs {M : Type} [AddCommMonoid M] (m : ℕ) (g : ℕ → M) :
    ∑ i ∈ range (2 * m), g i = ∑ i ∈ range m, (g (2 * i) + g (2 * i + 1)) := by
  induction m with
  | zero => simp
  | succ m ih =>
    rw [show 2 * (m + 1) = 2 * m + 1 + 1 by ring, sum_range_succ, sum_range_succ, ih, sum_range_succ,
      add_assoc]

theorem dft_split {k : ℕ} (a : Mem ℂ) (x : ℂ) :
    ∑ j ∈ range (2 ^ (k + 1)), a j * x ^ j
      = ∑ j ∈ range (2 ^ k), a (2 * j) * (x ^ 2) ^ j + x * ∑ j ∈ range (2 ^ k), a (2 * j + 1) * (x ^ 2) ^ j := by
  rw [pow_succ, mul_comm, sum_pairs, sum_add_distrib, mul_sum]
  congr 1
  · exact sum_congr rfl (fun j _ => by rw [← pow_mul])
  · exact sum_congr rfl (fun j _ => by rw [← pow_mul]; ring)

theorem dft_even {k : ℕ} (hk : k + 1 ≤ 10) (a : Mem ℂ) (j : ℕ) (hj : j < 2 ^ k) :
    dft (k + 1) a (2 * j) = dft k (fun i => a (2 * i)) j
      + cT (2 ^ k + j) * dft k (fun i => a (2 * i + 1)) j := by
  unfold dft
  rw [fftPoint_even hk j hj, dft_split, cT_sq hk j hj]

theorem dft_odd {k : ℕ} (hk : k + 1 ≤ 10) (a : Mem ℂ) (j : ℕ) (hj : j < 2 ^ k) :
    dft (k + 1) a (2 * j + 1) = dft k (fun i => a (2 * i)) j
      - cT (2 ^ k + j) * dft k (fun i => a (2 * i + 1)) j := by
  unfold dft
  rw [fftPoint_odd hk j hj, dft_split, neg_sq, cT_sq hk j hj]
  ring

theorem exact_half : exactA.lit (1 / 2) = (1 / 2 : ℝ) := by
  show (((1 / 2 : ℚ) : ℝ)) = _
  norm_num

theorem split_fst {k : ℕ} (f f0 f1 : Mem ℂ) (j : ℕ) (hj : j < 2 ^ k) :
    (splitFft exactA (k + 1) f f0 f1).1 j = (f (2 * j) + f (2 * j + 1)) / 2 := by
  rw [splitFft_fst, if_pos hj, exact_half]
  show ((1 / 2 : ℝ) : ℂ) * (f (2 * j) + f (2 * j + 1)) = _
  push_cast
  ring

theorem split_snd {k : ℕ} (f f0 f1 : Mem ℂ) (j : ℕ) (hj : j < 2 ^ k) :
    (splitFft exactA (k + 1) f f0 f1).2 j
      = (f (2 * j) - f (2 * j + 1)) / 2 * (starRingEnd ℂ) (cT (2 ^ k + j)) := by
  rw [splitFft_snd, if_pos hj, exact_half, exact_tab]
  show ((1 / 2 : ℝ) : ℂ) * (f (2 * j) - f (2 * j + 1)) * _ = _
  push_cast
  ring_nf
  rfl

theorem merge_even {k : ℕ} (f0 f1 f : Mem ℂ) (j : ℕ) (hj : j < 2 ^ k) :
    mergeFft exactA (k + 1) f0 f1 f (2 * j) = f0 j + f1 j * cT (2 ^ k + j) := by
  rw [mergeFft_at, if_pos (by rw [pow_succ]; omega), if_pos (by omega), exact_tab,
    show 2 * j / 2 = j by omega]
  rfl

theorem merge_odd {k : ℕ} (f0 f1 f : Mem ℂ) (j : ℕ) (hj : j < 2 ^ k) :
    mergeFft exactA (k + 1) f0 f1 f (2 * j + 1) = f0 j - f1 j * cT (2 ^ k + j) := by
  rw [mergeFft_at, if_pos (by rw [pow_succ]; omega), if_neg (by omega), exact_tab,
    show (2 * j + 1) / 2 = j by omega]
  rfl

theorem pair_cases {k : ℕ} {P : ℕ → Prop} (h0 : ∀ j, j < 2 ^ k → P (2 * j))
    (h1 : ∀ j, j < 2 ^ k → P (2 * j + 1)) (j : ℕ) (hj : j < 2 ^ (k + 1)) : P j := by
  rw [pow_succ] at hj
  rcases Nat.mod_two_eq_zero_or_one j with h | h
  · have := h0 (j / 2) (by omega)
    rwa [show 2 * (j / 2) = j by omega] at this
  · have := h1 (j / 2) (by omega)
    rwa [show 2 * (j / 2) + 1 = j by omega] at this

theorem merge_split {k : ℕ} (f f0 f1 g : Mem ℂ) (j : ℕ) (hj : j < 2 ^ (k + 1)) :
    mergeFft exactA (k + 1) (splitFft exactA (k + 1) f f0 f1).1 (splitFft exactA (k + 1) f f0 f1).2 g j
      = f j := by
  refine pair_cases (P := fun j => mergeFft exactA (k + 1) (splitFft exactA (k + 1) f f0 f1).1
    (splitFft exactA (k + 1) f f0 f1).2 g j = f j) ?_ ?_ j hj
  · intro j hj
    rw [merge_even _ _ _ j hj, split_fst f f0 f1 j hj, split_snd f f0 f1 j hj]
    linear_combination (f (2 * j) - f (2 * j + 1)) / 2 * cT_conj (2 ^ k + j)
  · intro j hj
    rw [merge_odd _ _ _ j hj, split_fst f f0 f1 j hj, split_snd f f0 f1 j hj]
    linear_combination -(f (2 * j) - f (2 * j + 1)) / 2 * cT_conj (2 ^ k + j)

theorem split_merge {k : ℕ} (f0 f1 f g0 g1 : Mem ℂ) (j : ℕ) (hj : j < 2 ^ k) :
    (splitFft exactA (k + 1) (mergeFft exactA (k + 1) f0 f1 f) g0 g1).1 j = f0 j ∧
    (splitFft exactA (k + 1) (mergeFft exactA (k + 1) f0 f1 f) g0 g1).2 j = f1 j := by
  rw [split_fst _ _ _ j hj, split_snd _ _ _ j hj, merge_even _ _ _ j hj, merge_odd _ _ _ j hj]
  constructor
  · ring
  · linear_combination f1 j * cT_conj (2 ^ k + j)

theorem split_dft {k : ℕ} (hk : k + 1 ≤ 10) {e a : Mem ℂ} (h : ∀ j, j < 2 ^ (k + 1) → e j = dft (k + 1) a j)
    (f0 f1 : Mem ℂ) (j : ℕ) (hj : j < 2 ^ k) :
    (splitFft exactA (k + 1) e f0 f1).1 j = dft k (fun i => a (2 * i)) j ∧
    (splitFft exactA (k + 1) e f0 f1).2 j = dft k (fun i => a (2 * i + 1)) j := by
  have hp : 2 ^ (k + 1) = 2 * 2 ^ k := by rw [pow_succ]; ring
  rw [split_fst _ _ _ j hj, split_snd _ _ _ j hj, h _ (by omega), h _ (by omega),
    dft_even hk a j hj, dft_odd hk a j hj]
  constructor
  · ring
  · linear_combination (dft k (fun i => a (2 * i + 1)) j) * cT_conj (2 ^ k + j)

theorem merge_dft {k : ℕ} (hk : k + 1 ≤ 10) {e0 e1 a : Mem ℂ}
    (h0 : ∀ j, j < 2 ^ k → e0 j = dft k (fun i => a (2 * i)) j)
    (h1 : ∀ j, j < 2 ^ k → e1 j = dft k (fun i => a (2 * i + 1)) j) (f : Mem ℂ) (j : ℕ)
    (hj : j < 2 ^ (k + 1)) : mergeFft exactA (k + 1) e0 e1 f j = dft (k + 1) a j := by
  refine pair_cases (P := fun j => mergeFft exactA (k + 1) e0 e1 f j = dft (k + 1) a j) ?_ ?_ j hj
  · intro j hj
    rw [merge_even _ _ _ j hj, h0 j hj, h1 j hj, dft_even hk a j hj]; ring
  · intro j hj
    rw [merge_odd _ _ _ j hj, h0 j hj, h1 j hj, dft_odd hk a j hj]; ring

/-! ### Norms -/

theorem parallelogram (E O z : ℂ) (hz : Complex.normSq z = 1) :
    Complex.normSq (E + z * O) + Complex.normSq (E - z * O)
      = 2 * (Complex.normSq E + Complex.normSq O) := by
  have h : Complex.normSq (z * O) = Complex.normSq O := by rw [Complex.normSq_mul, hz, one_mul]
  rw [Complex.normSq_add, Complex.normSq_sub, h]
  ring

theorem cT_normSq (k : ℕ) : Complex.normSq (cT k) = 1 := by
  rw [Complex.normSq_eq_norm_sq, cT_norm]; norm_num

theorem parseval {n : ℕ} (hn : n ≤ 10) (a : Mem ℂ) :
    ∑ j ∈ range (2 ^ n), Complex.normSq (dft n a j) = 2 ^ n * ∑ j ∈ range (2 ^ n), Complex.normSq (a j) := by
  induction n generalizing a with
  | zero => simp [dft]
  | succ k ih =>
    have e1 : ∀ g : ℕ → ℝ, ∑ j ∈ range (2 ^ (k + 1)), g j
        = ∑ j ∈ range (2 ^ k), (g (2 * j) + g (2 * j + 1)) := by
      intro g; rw [pow_succ, mul_comm, sum_pairs]
    rw [e1, e1, sum_congr rfl (g := fun j => 2 * (Complex.normSq (dft k (fun i => a (2 * i)) j)
      + Complex.normSq (dft k (fun i => a (2 * i + 1)) j))) (fun j hj => by
        have hj := mem_range.mp hj
        rw [dft_even hn a j hj, dft_odd hn a j hj, parallelogram _ _ _ (cT_normSq _)]),
      ← mul_sum, sum_add_distrib, ih (by omega), ih (by omega), sum_add_distrib, pow_succ]
    ring

theorem loop_sum {M : Type} [AddCommMonoid M] (n : ℕ) (g : ℕ → M) (s : M) :
    loop n (fun i s => s + g i) s = s + ∑ i ∈ range n, g i := by
  induction n with
  | zero => simp
  | succ n ih => rw [loop_succ, ih, sum_range_succ, add_assoc]

theorem sqrdNormR_val (n : ℕ) (a : Mem ℝ) :
    sqrdNormR exactA n a = ∑ i ∈ range (2 ^ n), a i ^ 2 := by
  have h := loop_sum (2 ^ n) (fun i => a i * a i) (0 : ℝ)
  unfold sqrdNormR
  rw [one_shiftLeft']
  have h0 : exactA.lit 0 = (0 : ℝ) := by show ((0 : ℚ) : ℝ) = 0; norm_num
  rw [h0]
  refine h.trans ?_
  rw [zero_add]
  exact sum_congr rfl (fun i _ => by ring)

theorem exact_lit0 : exactA.lit 0 = (0 : ℝ) := by show ((0 : ℚ) : ℝ) = 0; norm_num

theorem sqrdNormC_val (n : ℕ) (e : Mem ℂ) :
    sqrdNormC exactA n e = (∑ i ∈ range (2 ^ n), Complex.normSq (e i)) / 2 ^ n := by
  have h := loop_sum (2 ^ n) (fun i => e i * (starRingEnd ℂ) (e i)) (0 : ℂ)
  unfold sqrdNormC
  rw [one_shiftLeft', exact_lit0]
  show (loop (2 ^ n) (fun i s => s + e i * (starRingEnd ℂ) (e i)) (⟨0, 0⟩ : ℂ)).re / ((2 ^ n : ℚ) : ℝ) = _
  rw [show (⟨0, 0⟩ : ℂ) = 0 from rfl, h, zero_add]
  congr 1
  · rw [Complex.re_sum]
    exact sum_congr rfl (fun i _ => by rw [Complex.mul_conj]; simp)
  · push_cast; ring

theorem dft_adj {n : ℕ} (hn : n ≤ 10) (a : Mem ℂ) (j : ℕ) (hj : j < 2 ^ n) :
    dft n (adjC n a) j = (starRingEnd ℂ) (dft n a j) := by
  unfold dft adjC
  have hpow := fftPoint_pow hn j hj
  have hc := fftPoint_conj n j
  generalize fftPoint n j = x at *
  have hN : 0 < 2 ^ n := by positivity
  generalize 2 ^ n = N at *
  obtain ⟨M, rfl⟩ : ∃ M, N = M + 1 := ⟨N - 1, by omega⟩
  rw [map_sum, sum_range_succ', sum_range_succ']
  congr 1
  · rw [← sum_range_reflect]
    apply sum_congr rfl
    intro i hi
    have hi := mem_range.mp hi
    rw [if_neg (by omega), map_mul, map_pow, show M - 1 - i + 1 = M - i by omega,
      show M + 1 - (M - i) = i + 1 by omega]
    have hx : x ^ (M - i) = -(starRingEnd ℂ) x ^ (i + 1) := by
      have h2 : x ^ (M - i) * x ^ (i + 1) = -1 := by
        rw [← pow_add, show M - i + (i + 1) = M + 1 by omega]; exact hpow
      have h3 : x ^ (i + 1) * (starRingEnd ℂ) x ^ (i + 1) = 1 := by
        rw [← mul_pow, hc, one_pow]
      linear_combination (starRingEnd ℂ) x ^ (i + 1) * h2 - x ^ (M - i) * h3
    rw [hx]
    ring
  · simp

theorem toC_at (n : ℕ) (a : ℕ → ℂ) (m : Mem ℂ) (j : ℕ) (hj : j < 2 ^ n) :
    loop (1 <<< n) (fun i m => upd m i (a i)) m j = a j := by
  rw [one_shiftLeft', loop_fill, if_pos hj]

theorem exact_ofInt (z : ℤ) : exactA.ofInt z = (z : ℂ) := by
  show (⟨((z : ℚ) : ℝ), ((0 : ℚ) : ℝ)⟩ : ℂ) = _
  apply Complex.ext <;> simp

theorem exact_ofReal (x : ℝ) : exactA.ofReal x = (x : ℂ) := by
  show (⟨x, ((0 : ℚ) : ℝ)⟩ : ℂ) = _
  apply Complex.ext <;> simp

/-- The transform of the array filled from integers. -/
theorem fft_ofInt {n : ℕ} (hn : n ≤ 10) (a : Mem Int) (m : Mem ℂ) (j : ℕ) (hj : j < 2 ^ n) :
    fft exactA n (loop (1 <<< n) (fun i m => upd m i (exactA.ofInt (a i))) m) j = dft n (zC a) j := by
  rw [fft_congr exactA n (b := zC a) (fun j hj => by
    rw [toC_at n (fun i => exactA.ofInt (a i)) m j hj, exact_ofInt]; rfl) j hj, fft_val hn _ j hj]

theorem gsNorm_val {n : ℕ} (hn : n ≤ 10) (f g : Mem Int) :
    gramSchmidtNorm exactA n f g = max (∑ i ∈ range (2 ^ n), ((f i : ℝ) ^ 2 + (g i : ℝ) ^ 2))
      (12289 ^ 2 * ((∑ i ∈ range (2 ^ n),
        (Complex.normSq ((starRingEnd ℂ) (dft n (zC f) i) /
          (Complex.normSq (dft n (zC f) i) + Complex.normSq (dft n (zC g) i) : ℝ)) +
         Complex.normSq ((starRingEnd ℂ) (dft n (zC g) i) /
          (Complex.normSq (dft n (zC f) i) + Complex.normSq (dft n (zC g) i) : ℝ)))) / 2 ^ n)) := by
  have htmp : ∀ (a : Mem Int) (i : ℕ), i < 2 ^ n →
      loop (1 <<< n) (fun i m => upd m i (exactA.lit (a i))) (fun _ => exactA.lit 0) i = (a i : ℝ) := by
    intro a i hi
    rw [one_shiftLeft', loop_fill, if_pos hi]
    show (((a i : ℚ)) : ℝ) = _
    push_cast; rfl
  have hf : ∀ (a : Mem Int) (i : ℕ), i < 2 ^ n → fft exactA n
      (loop (1 <<< n) (fun i m => upd m i (exactA.ofReal (loop (1 <<< n) (fun i m =>
        upd m i (exactA.lit (a i))) (fun _ => exactA.lit 0) i))) (junkC exactA)) i = dft n (zC a) i := by
    intro a i hi
    rw [fft_congr exactA n (b := zC a) (fun j hj => by
      rw [toC_at n (fun i => exactA.ofReal (loop (1 <<< n) (fun i m =>
        upd m i (exactA.lit (a i))) (fun _ => exactA.lit 0) i)) _ j hj, exact_ofReal, htmp a j hj]
      unfold zC; push_cast; rfl) i hi, fft_val hn _ i hi]
  unfold gramSchmidtNorm
  show max (sqrdNormR exactA n _ + sqrdNormR exactA n _)
    (((12289 * 12289 : ℚ) : ℝ) * (sqrdNormC exactA n _ + sqrdNormC exactA n _)) = _
  rw [sqrdNormR_val, sqrdNormR_val, sqrdNormC_val, sqrdNormC_val, ← sum_add_distrib, ← add_div,
    ← sum_add_distrib]
  congr 1
  · apply sum_congr rfl
    intro i hi
    rw [htmp f i (mem_range.mp hi), htmp g i (mem_range.mp hi)]
  · congr 1
    · norm_num
    congr 1
    apply sum_congr rfl
    intro i hi
    have hi := mem_range.mp hi
    simp only [polyDivC_at, polyAddC_at, polyMulC_at, adjPoly_at, memcpy_at, if_pos hi, hf _ i hi,
      one_shiftLeft']
    have hs : exactA.cadd (exactA.cmul (dft n (zC f) i) (exactA.conj (dft n (zC f) i)))
        (exactA.cmul (dft n (zC g) i) (exactA.conj (dft n (zC g) i)))
        = ((Complex.normSq (dft n (zC f) i) + Complex.normSq (dft n (zC g) i) : ℝ) : ℂ) := by
      show dft n (zC f) i * (starRingEnd ℂ) (dft n (zC f) i)
        + dft n (zC g) i * (starRingEnd ℂ) (dft n (zC g) i) = _
      rw [Complex.mul_conj, Complex.mul_conj]
      push_cast; rfl
    simp only [one_shiftLeft'] at hf
    rw [hf f i hi, hf g i hi, hs]
    rfl

/-! ### The points are primitive roots -/

theorem fftPoint_primitive {n : ℕ} (hn : n ≤ 10) (j : ℕ) (hj : j < 2 ^ n) :
    IsPrimitiveRoot (fftPoint n j) (2 ^ (n + 1)) := by
  have h := fftPoint_pow hn j hj
  have ho : orderOf (fftPoint n j) = 2 ^ (n + 1) := by
    apply orderOf_eq_prime_pow
    · rw [h]; norm_num
    · rw [pow_succ, pow_mul, h]; norm_num
  rw [← ho]
  exact IsPrimitiveRoot.orderOf _

/-- A nonzero integer polynomial of degree below N vanishes at no point. -/
theorem dft_ne_zero {n : ℕ} (hn : n ≤ 10) (a : Mem Int) (j : ℕ) (hj : j < 2 ^ n)
    (h : dft n (zC a) j = 0) (i : ℕ) (hi : i < 2 ^ n) : a i = 0 := by
  have hp := fftPoint_primitive hn j hj
  have hev : aeval (fftPoint n j) (toPoly (2 ^ n) (fun i => (a i : ℚ))) = 0 := by
    rw [← h, dft_poly]
    unfold toPoly zC
    simp [eval_finsetSum]
  have hmin : (minpoly ℚ (fftPoint n j)).natDegree = 2 ^ n := by
    rw [← cyclotomic_eq_minpoly_rat hp (by positivity), natDegree_cyclotomic, Nat.totient_prime_pow
      Nat.prime_two (by omega)]
    simp
  by_contra hne
  have hP : toPoly (2 ^ n) (fun i => (a i : ℚ)) ≠ 0 := by
    intro h0
    have := congrArg (fun p => p.coeff i) h0
    simp only [toPoly_coeff, if_pos hi, coeff_zero] at this
    exact hne (by exact_mod_cast this)
  have h1 := natDegree_le_natDegree (minpoly.degree_le_of_ne_zero ℚ (fftPoint n j) hP hev)
  rw [hmin] at h1
  have h2 : (toPoly (2 ^ n) (fun i => (a i : ℚ))).natDegree < 2 ^ n := by
    rw [natDegree_lt_iff_degree_lt hP]
    rw [degree_lt_iff_coeff_zero]
    intro m hm
    rw [toPoly_coeff, if_neg (by omega)]
  omega

/-! ### Rounding -/

theorem stdRound_int (z : ℤ) : stdRound (z : ℝ) = z := by
  unfold stdRound
  split
  · rw [Int.floor_eq_iff]; constructor <;> push_cast <;> linarith
  · have : ⌊-(z : ℝ) + 1 / 2⌋ = -z := by
      rw [Int.floor_eq_iff]; constructor <;> push_cast <;> linarith
    rw [this, neg_neg]

theorem roundTo_int {lo hi z : ℤ} (h : lo ≤ z ∧ z ≤ hi) : exactA.roundTo lo hi (z : ℝ) = .ok z := by
  show exactRoundTo lo hi (z : ℝ) = _
  unfold exactRoundTo
  rw [stdRound_int, if_pos h]

/-- A loop converting entry after entry. -/
theorem loopE_fill {α : Type} (n : ℕ) (fE : ℕ → Except UB α) (f : ℕ → α)
    (h : ∀ i, i < n → fE i = .ok (f i)) (m : Mem α) :
    loopE n (fun i m => (fE i).bind fun v => .ok (upd m i v)) m
      = .ok (loop n (fun i m => upd m i (f i)) m) := by
  apply loopE_ok
  intro i hi t
  rw [h i hi]
  rfl

theorem recomputeG_exact {n : ℕ} (hn : n ≤ 10) (f g F G : Mem Int)
    (hne : ∃ i, i < 2 ^ n ∧ f i ≠ 0)
    (hG : ∀ i, i < 2 ^ n → -2 ^ 31 ≤ G i ∧ G i < 2 ^ 31)
    (heq : ModEqXN (2 ^ n) (polyZ (2 ^ n) f * polyZ (2 ^ n) G - polyZ (2 ^ n) g * polyZ (2 ^ n) F)
      (12289 : ℤ[X])) (G0 : Mem Int) :
    recomputeG exactA n f g F G0 = .ok (fun i => if i < 2 ^ n then G i else G0 i) := by
  have hpt : ∀ j, j < 2 ^ n → dft n (zC f) j * dft n (zC G) j
      = dft n (zC g) j * dft n (zC F) j + 12289 := by
    intro j hj
    obtain ⟨c, hc⟩ := heq
    have h := congrArg (fun p => (p.map (Int.castRingHom ℂ)).eval (fftPoint n j)) hc
    simp only [Polynomial.map_sub, Polynomial.map_mul, Polynomial.map_add, Polynomial.map_pow,
      Polynomial.map_X, Polynomial.map_one, eval_sub, eval_mul, eval_add, eval_pow, eval_X, eval_one,
      fftPoint_pow hn j hj] at h
    have hm : ∀ a : Mem Int, ((polyZ (2 ^ n) a).map (Int.castRingHom ℂ)).eval (fftPoint n j)
        = dft n (zC a) j := by
      intro a
      rw [dft_poly]
      unfold polyZ toPoly zC
      simp [Polynomial.map_sum, eval_finsetSum]
    rw [hm, hm, hm, hm] at h
    simp at h
    linear_combination h
  have hf0 : ∀ j, j < 2 ^ n → dft n (zC f) j ≠ 0 := by
    intro j hj h
    obtain ⟨i, hi, hfi⟩ := hne
    exact hfi (dft_ne_zero hn f j hj h i hi)
  unfold recomputeG
  simp only
  have hq : exactA.ofReal (exactA.lit 12289) = (12289 : ℂ) := by
    rw [exact_ofReal]
    show (((12289 : ℚ) : ℝ) : ℂ) = _
    push_cast; rfl
  have hG' : ∀ j, j < 2 ^ n → ifft exactA n (polyDivC exactA n (polyAddToC exactA n (polyMulC exactA n
      (fft exactA n (loop (1 <<< n) (fun i m => upd m i (exactA.ofInt (g i))) (junkC exactA)))
      (fft exactA n (loop (1 <<< n) (fun i m => upd m i (exactA.ofInt (F i))) (junkC exactA)))
      (junkC exactA)) (loop (1 <<< n) (fun i m => upd m i (exactA.ofReal (exactA.lit 12289))) (junkC exactA)))
      (fft exactA n (loop (1 <<< n) (fun i m => upd m i (exactA.ofInt (f i))) (junkC exactA)))
      (junkC exactA)) j = zC G j := by
    intro j hj
    refine ifft_dft hn (fun j hj => ?_) j hj
    rw [polyDivC_at, if_pos hj, polyAddToC_at, if_pos hj, polyMulC_at, if_pos hj, fft_ofInt hn _ _ j hj,
      fft_ofInt hn _ _ j hj, fft_ofInt hn _ _ j hj,
      toC_at n (fun _ => exactA.ofReal (exactA.lit 12289)) _ j hj, hq]
    show (dft n (zC g) j * dft n (zC F) j + 12289) / dft n (zC f) j = _
    rw [← hpt j hj, mul_div_cancel_left₀ _ (hf0 j hj)]
  rw [loopE_fill _ _ G]
  · congr 1
    funext i
    rw [loop_fill, one_shiftLeft']
  · intro i hi
    rw [one_shiftLeft'] at hi
    rw [hG' i hi]
    have : exactA.re (zC G i) = ((G i : ℤ) : ℝ) := by show (zC G i).re = _; simp [zC]
    rw [this]
    have := hG i hi
    exact roundTo_int ⟨this.1, by omega⟩

end Falcon
