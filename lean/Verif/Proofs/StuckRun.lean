import Verif.Proofs.StuckKey
import Verif.Proofs.GsAccept
import Verif.Proofs.KeyWords

/-!
# Key generation that draws the key of `StuckKey` never ends
-/

namespace Falcon

open Finset Polynomial

/-- The norm test accepts a small basis, in exact arithmetic. -/
theorem gs_accept_exact {n : ℕ} (hn : ValidLog n) {f g : Mem ℤ} (hD : ∀ j, j < 2 ^ n → 0 < gramAt n f g j)
    (h1 : ∑ i ∈ range (2 ^ n), f i ^ 2 + ∑ i ∈ range (2 ^ n), g i ^ 2 ≤ 16822)
    (h2 : 12289 ^ 2 * ((∑ j ∈ range (2 ^ n), 1 / gramAt n f g j) / 2 ^ n) ≤ 16822) : gsTooBig exactA n f g = false := by
  have hn10 : n ≤ 10 := by rcases hn with rfl | rfl <;> norm_num
  show @decide (gramSchmidtNorm exactA n f g > gsThreshold exactA) (Classical.propDecidable _) = false
  rw [decide_eq_false_iff_not, not_lt, gsNorm_val hn10]
  have ht : (16822 : ℝ) ≤ gsThreshold exactA := by
    show (16822 : ℝ) ≤ ((1.17 : ℚ) : ℝ) * ((1.17 : ℚ) : ℝ) * ((12289 : ℚ) : ℝ)
    norm_num
  refine le_trans (max_le ?_ ?_) ht
  · have : ((∑ i ∈ range (2 ^ n), f i ^ 2 + ∑ i ∈ range (2 ^ n), g i ^ 2 : ℤ) : ℝ) ≤ ((16822 : ℤ) : ℝ) := by exact_mod_cast h1
    push_cast at this
    rw [sum_add_distrib]
    exact this
  · refine le_trans (le_of_eq ?_) h2
    congr 2
    refine sum_congr rfl fun j hj => ?_
    have h := hD j (mem_range.mp hj)
    unfold gramAt at h ⊢
    rw [Complex.normSq_div, Complex.normSq_div, Complex.normSq_conj, Complex.normSq_conj, Complex.normSq_ofReal]
    generalize Complex.normSq (dft n (zC f) j) = a at *
    generalize Complex.normSq (dft n (zC g) j) = b at *
    field_simp

theorem sum_sq_sparse {m : ℕ} {c : ℕ → ℤ} {a : Mem ℤ} (h : Sparse (2 ^ m) c 0 a) :
    ∑ i ∈ range (2 ^ (m + 2)), a i ^ 2 = c 0 ^ 2 + c 1 ^ 2 + c 2 ^ 2 + c 3 ^ 2 := by
  have hS : 0 < 2 ^ m := by positivity
  have e : ∀ q, q < 4 → a (q * 2 ^ m) = c q := fun q hq => by simpa using h q hq 0 hS
  rw [four_mul_pow, sum_sparse hS]
  · have e0 := e 0 (by norm_num)
    have e1 := e 1 (by norm_num)
    rw [zero_mul] at e0
    rw [one_mul] at e1
    rw [e0, e1, e 2 (by norm_num), e 3 (by norm_num)]
  · intro q hq i hi h0
    rw [h q hq i hi, if_neg h0]; rfl

section
variable {m : ℕ} (hm : m = 7 ∨ m = 8) {f g : Mem ℤ} (hf : Sparse (2 ^ m) sf4 0 f) (hg : Sparse (2 ^ m) sg4 0 g)
include hm hf hg

omit hf hg in
theorem stuck_valid : ValidLog (m + 2) := by
  rcases hm with rfl | rfl <;> [left; right] <;> rfl

theorem stuck_sums : ∑ i ∈ range (2 ^ (m + 2)), f i ^ 2 + ∑ i ∈ range (2 ^ (m + 2)), g i ^ 2 = 9834 ∧
    (12289 : ℝ) ^ 2 * ((∑ j ∈ range (2 ^ (m + 2)), 1 / gramAt (m + 2) f g j) / 2 ^ (m + 2)) ≤ 16800 := by
  have hm10 : m + 2 ≤ 10 := by rcases hm with rfl | rfl <;> norm_num
  constructor
  · rw [sum_sq_sparse hf, sum_sq_sparse hg]
    decide
  · rw [sum_congr rfl fun j hj => by rw [stuck_gram hf hg hm10 j (mem_range.mp hj)], sum_const, card_range, nsmul_eq_mul]
    push_cast
    have : (0 : ℝ) < 2 ^ (m + 2) := by positivity
    rw [mul_div_assoc, mul_comm ((2 : ℝ) ^ (m + 2)), div_mul_cancel₀ _ this.ne']
    norm_num

theorem stuck_gs_exact : gsTooBig exactA (m + 2) f g = false := by
  have hm10 : m + 2 ≤ 10 := by rcases hm with rfl | rfl <;> norm_num
  obtain ⟨h1, h2⟩ := stuck_sums hm hf hg
  refine gs_accept_exact (stuck_valid hm) (fun j hj => ?_) (by omega) (by linarith)
  rw [stuck_gram hf hg hm10 j hj]; norm_num

theorem stuck_gs_ieee (b : Bool) : gsTooBig (ieeeA b) (m + 2) f g = false := by
  have hm10 : m + 2 ≤ 10 := by rcases hm with rfl | rfl <;> norm_num
  obtain ⟨h1, h2⟩ := stuck_sums hm hf hg
  obtain ⟨r1, r2⟩ := stuck_range hf hg hm
  refine gs_accept b (stuck_valid hm) r1 r2 (fun j hj => ?_) (by omega) h2
  rw [stuck_gram hf hg hm10 j hj]; norm_num

theorem stuck_solve_exact (fuel : ℕ) (r : Option (Mem ℤ × Mem ℤ)) :
    ntruSolve (redQuot exactA) fuel (m + 2) f g ≠ some (.ok r) := by
  have hm10 : m + 2 ≤ 10 := by rcases hm with rfl | rfl <;> norm_num
  have hF := sparseMem_sparse m sF4
  have hG := sparseMem_sparse m sG4
  obtain ⟨r1, r2⟩ := stuck_range hf hg hm
  intro h
  cases r with
  | none =>
    obtain ⟨u, v, hu, hv, huv⟩ := stuck_gcd hf hg hm10
    exact (ntruSolve_none_iff (k := m + 1) hm10 h hu hv).mp rfl huv
  | some r =>
    refine stuck_exact (stuck_valid hm) r1 r2 (fun j hj => ?_) (stuck_inv hf) (stuck_ntru hf hg hF hG)
      (stuck_quo hf hg hF hG hm10) (i := 0) (by positivity) (m := -1) ?_ fuel r h
    · rw [stuck_gram hf hg hm10 j hj]; norm_num
    · rw [sκ_zero]; norm_num

theorem stuck_solve_ieee (b : Bool) (fuel : ℕ) (r : Option (Mem ℤ × Mem ℤ)) :
    ntruSolve (redQuot (ieeeA b)) fuel (m + 2) f g ≠ some (.ok r) := by
  have hm10 : m + 2 ≤ 10 := by rcases hm with rfl | rfl <;> norm_num
  intro h
  cases r with
  | none =>
    obtain ⟨u, v, hu, hv, huv⟩ := stuck_gcd hf hg hm10
    exact (ntruSolve_none_iff (k := m + 1) hm10 h hu hv).mp rfl huv
  | some r => exact stuck_ieee b hm hf hg fuel r h

end

theorem bindO_ne {α β : Type} {x : Option (Except UB α)} {k : α → Option (Except UB β)} {r : β}
    (h : ∀ a, x = some (.ok a) → k a ≠ some (.ok r)) : bindO x k ≠ some (.ok r) := by
  intro e
  obtain ⟨a, ha, hk⟩ := bindO_ok e
  exact h a ha hk

/-- Bytes from which key generation draws `f` and `g`; if the two pass the tests and the solver does not return for
them, then neither does key generation, whatever bytes follow. -/
theorem keygen_stuck {fma : Bool} {quot : RedQuot} {gs : Mem ℤ → Mem ℤ → Bool} {n : ℕ} (hn : ValidLog n) {f g : Mem ℤ}
    (hf : ∀ j, j < 2 ^ n → -18 * ((4096 / 2 ^ n : ℕ) : ℤ) ≤ f j ∧ f j ≤ 19 * (4096 / 2 ^ n : ℕ))
    (hg : ∀ j, j < 2 ^ n → -18 * ((4096 / 2 ^ n : ℕ) : ℤ) ≤ g j ∧ g j ≤ 19 * (4096 / 2 ^ n : ℕ)) :
    ∃ w : List UInt8, ∀ (stream : ℕ → UInt8) (pos : ℕ), Reads stream pos w →
      (∀ f' g', (∀ i, i < 2 ^ n → f' i = f i) → (∀ i, i < 2 ^ n → g' i = g i) → isPolyInvertible n f' = true ∧
        gs f' g' = false ∧ ∀ fuel r, ntruSolve quot fuel n f' g' ≠ some (.ok r)) →
      ∀ (fuel iters : ℕ) (s : Ntru) (r : Ntru × ℕ), ntruGen quot gs fma n stream fuel iters s pos ≠ some (.ok r) := by
  obtain ⟨w1, hw1⟩ := genPoly_word (fma := fma) hn f hf
  obtain ⟨w2, hw2⟩ := genPoly_word (fma := fma) hn g hg
  refine ⟨w1 ++ w2, fun stream pos hr H fuel iters s r => ?_⟩
  cases iters with
  | zero => simp [ntruGen]
  | succ iters =>
    rw [ntruGen]
    cases fuel with
    | zero =>
      refine bindO_ne fun a ha => ?_
      exfalso
      obtain ⟨M, hM⟩ : ∃ M, 1 <<< n = M + 1 := ⟨2 ^ n - 1, by
        have : 0 < 2 ^ n := by positivity
        rw [one_shiftLeft']; omega⟩
      obtain ⟨K, hK⟩ : ∃ K, 4096 / (1 <<< n) = K + 1 := by
        rcases hn with rfl | rfl
        · exact ⟨7, by decide⟩
        · exact ⟨3, by decide⟩
      unfold genPoly at ha
      rw [hM, genPolyLoop, hK, genCoeff, samplerz] at ha
      cases ha
    | succ fuel =>
      obtain ⟨f', h1, h2⟩ := hw1 stream fuel pos s.f hr.left
      obtain ⟨g', h3, h4⟩ := hw2 stream fuel (pos + w1.length) s.g hr.right
      rw [h1, bindO_pure, h3, bindO_pure]
      obtain ⟨a1, a2, -⟩ := H f' g' h2 h4
      simp only [a1, a2]
      rw [if_neg (by simp), if_neg (by simp)]
      refine bindO_ne fun a ha => ?_
      exfalso
      refine (H _ _ ?_ ?_).2.2 _ _ ha
      · intro i hi
        rw [loop_fill_lt _ _ _ _ (by rw [one_shiftLeft']; exact hi), h2 i hi]
      · intro i hi
        rw [loop_fill_lt _ _ _ _ (by rw [one_shiftLeft']; exact hi), h4 i hi]

theorem sparse_congr {S : ℕ} {c : ℕ → ℤ} {a b : Mem ℤ} (h : Sparse S c 0 a) (e : ∀ i, i < 4 * S → b i = a i) :
    Sparse S c 0 b := by
  intro q hq i hi
  rw [e _ (by
    have : q * S ≤ 3 * S := Nat.mul_le_mul_right _ (by omega)
    omega), h q hq i hi]

theorem stuck_box {m : ℕ} (hm : m = 7 ∨ m = 8) {c : ℕ → ℤ} (hc : ∀ q, q < 4 → -67 ≤ c q ∧ c q ≤ 39) (j : ℕ)
    (hj : j < 2 ^ (m + 2)) : -18 * ((4096 / 2 ^ (m + 2) : ℕ) : ℤ) ≤ sparseMem m c j ∧
      sparseMem m c j ≤ 19 * (4096 / 2 ^ (m + 2) : ℕ) := by
  have h4 : 4 ≤ 4096 / 2 ^ (m + 2) := by rcases hm with rfl | rfl <;> norm_num
  have hq : j / 2 ^ m < 4 := by
    rw [Nat.div_lt_iff_lt_mul (by positivity)]
    rwa [four_mul_pow] at hj
  have := hc _ hq
  unfold sparseMem
  split <;> constructor <;> omega

/-- Key generation does not return if the stream begins with certain bytes. -/
theorem stuck_run {fma : Bool} {A : Arith ℝ ℂ} {m : ℕ} (hm : m = 7 ∨ m = 8)
    (hgs : ∀ {f g : Mem ℤ}, Sparse (2 ^ m) sf4 0 f → Sparse (2 ^ m) sg4 0 g → gsTooBig A (m + 2) f g = false)
    (hs : ∀ {f g : Mem ℤ}, Sparse (2 ^ m) sf4 0 f → Sparse (2 ^ m) sg4 0 g → ∀ fuel r,
      ntruSolve (redQuot A) fuel (m + 2) f g ≠ some (.ok r)) :
    ∃ w : List UInt8, ∀ (stream : ℕ → UInt8) (pos : ℕ), Reads stream pos w →
      ∀ (fuel iters : ℕ) (s : Ntru) (r : Ntru × ℕ),
        ntruGen (redQuot A) (gsTooBig A (m + 2)) fma (m + 2) stream fuel iters s pos ≠ some (.ok r) := by
  have hn : ValidLog (m + 2) := by rcases hm with rfl | rfl <;> [left; right] <;> rfl
  have b1 : ∀ q, q < 4 → -67 ≤ sf4 q ∧ sf4 q ≤ 39 := by decide
  have b2 : ∀ q, q < 4 → -67 ≤ sg4 q ∧ sg4 q ≤ 39 := by decide
  obtain ⟨w, hw⟩ := keygen_stuck (fma := fma) (quot := redQuot A) (gs := gsTooBig A (m + 2)) hn (f := sparseMem m sf4) (g := sparseMem m sg4)
    (stuck_box hm b1) (stuck_box hm b2)
  refine ⟨w, fun stream pos hr => hw stream pos hr fun f' g' e1 e2 => ?_⟩
  have hf := sparse_congr (sparseMem_sparse m sf4) (b := f') (fun i hi => e1 i (by rw [four_mul_pow]; exact hi))
  have hg := sparse_congr (sparseMem_sparse m sg4) (b := g') (fun i hi => e2 i (by rw [four_mul_pow]; exact hi))
  refine ⟨?_, hgs hf hg, hs hf hg⟩
  rw [C36_invertible_iff hn fun i hi => ?_]
  · exact stuck_inv hf
  · have := (stuck_range hf hg hm).1 i hi
    have h76 : 19 * (4096 / 2 ^ (m + 2) : ℤ) ≤ 152 := by rcases hm with rfl | rfl <;> norm_num
    have := abs_le.mp (this.trans h76)
    constructor <;> omega

end Falcon
