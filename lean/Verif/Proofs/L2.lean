import Verif.Proofs.Transform
import Mathlib.Analysis.Complex.Norm
import Mathlib.Analysis.SpecialFunctions.Pow.Real
import Mathlib.Algebra.Order.Chebyshev

/-!
# Euclidean norms of arrays and the error of one butterfly layer
-/

namespace Falcon

open Finset

/-- Euclidean norm of the first `N` entries. -/
noncomputable def l2 (N : ℕ) (r : ℕ → ℝ) : ℝ := Real.sqrt (∑ i ∈ range N, r i ^ 2)

/-- Euclidean norm of the first `N` entries of a complex array. -/
noncomputable def nC (N : ℕ) (a : Mem ℂ) : ℝ := l2 N fun i => ‖a i‖

theorem l2_nonneg (N : ℕ) (r : ℕ → ℝ) : 0 ≤ l2 N r := Real.sqrt_nonneg _
theorem nC_nonneg (N : ℕ) (a : Mem ℂ) : 0 ≤ nC N a := l2_nonneg _ _

theorem l2_sq (N : ℕ) (r : ℕ → ℝ) : l2 N r ^ 2 = ∑ i ∈ range N, r i ^ 2 :=
  Real.sq_sqrt (sum_nonneg fun _ _ => sq_nonneg _)

theorem nC_sq (N : ℕ) (a : Mem ℂ) : nC N a ^ 2 = ∑ i ∈ range N, ‖a i‖ ^ 2 := l2_sq _ _

theorem l2_mono {N : ℕ} {r s : ℕ → ℝ} (h : ∀ i, i < N → |r i| ≤ s i) : l2 N r ≤ l2 N s := by
  apply Real.sqrt_le_sqrt
  apply sum_le_sum
  intro i hi
  have := h i (mem_range.mp hi)
  rw [← sq_abs (r i)]
  exact pow_le_pow_left₀ (abs_nonneg _) this 2

theorem l2_add (N : ℕ) (r s : ℕ → ℝ) : l2 N (fun i => r i + s i) ≤ l2 N r + l2 N s := by
  apply Real.sqrt_le_iff.mpr
  refine ⟨add_nonneg (l2_nonneg _ _) (l2_nonneg _ _), ?_⟩
  have hc := Real.sum_mul_le_sqrt_mul_sqrt (range N) r s
  have e : ∑ i ∈ range N, (r i + s i) ^ 2 = ∑ i ∈ range N, r i ^ 2 + ∑ i ∈ range N, s i ^ 2
      + 2 * ∑ i ∈ range N, r i * s i := by
    rw [mul_sum, ← sum_add_distrib, ← sum_add_distrib]
    exact sum_congr rfl fun i _ => by ring
  rw [e, add_sq, l2_sq, l2_sq]
  have : ∑ i ∈ range N, r i * s i ≤ l2 N r * l2 N s := hc
  linarith

theorem l2_smul (N : ℕ) {c : ℝ} (hc : 0 ≤ c) (r : ℕ → ℝ) : l2 N (fun i => c * r i) = c * l2 N r := by
  unfold l2
  rw [sum_congr rfl (g := fun i => c ^ 2 * r i ^ 2) (fun i _ => by ring), ← mul_sum,
    Real.sqrt_mul (sq_nonneg c), Real.sqrt_sq hc]

theorem l2_const (N : ℕ) {c : ℝ} (hc : 0 ≤ c) : l2 N (fun _ => c) = Real.sqrt N * c := by
  unfold l2
  rw [sum_const, card_range, nsmul_eq_mul, Real.sqrt_mul (Nat.cast_nonneg _), Real.sqrt_sq hc]

theorem l2_ge {N : ℕ} {r : ℕ → ℝ} {i : ℕ} (hi : i < N) : |r i| ≤ l2 N r := by
  apply Real.le_sqrt_of_sq_le
  rw [sq_abs]
  exact single_le_sum (f := fun i => r i ^ 2) (fun _ _ => sq_nonneg _) (mem_range.mpr hi)

theorem nC_ge {N : ℕ} {a : Mem ℂ} {i : ℕ} (hi : i < N) : ‖a i‖ ≤ nC N a := by
  have := l2_ge (r := fun i => ‖a i‖) hi
  rwa [abs_of_nonneg (norm_nonneg _)] at this

theorem nC_congr {N : ℕ} {a b : Mem ℂ} (h : ∀ i, i < N → a i = b i) : nC N a = nC N b := by
  unfold nC l2
  congr 1
  exact sum_congr rfl fun i hi => by beta_reduce; rw [h i (mem_range.mp hi)]

theorem nC_add (N : ℕ) (a b : Mem ℂ) : nC N (fun i => a i + b i) ≤ nC N a + nC N b := by
  refine le_trans (l2_mono (s := fun i => ‖a i‖ + ‖b i‖) fun i _ => ?_) (l2_add N _ _)
  rw [abs_of_nonneg (norm_nonneg _)]
  exact norm_add_le _ _

theorem nC_le_of {N : ℕ} {a b : Mem ℂ} : nC N a ≤ nC N b + nC N (fun i => a i - b i) := by
  have := nC_add N b (fun i => a i - b i)
  rwa [show (fun i => b i + (a i - b i)) = a by funext i; ring] at this

theorem nC_sub_comm (N : ℕ) (a b : Mem ℂ) : nC N (fun i => a i - b i) = nC N (fun i => b i - a i) := by
  unfold nC
  congr 1
  funext i
  exact norm_sub_rev _ _

/-- Three majorants and a constant. -/
theorem nC_maj3 {N : ℕ} {e x y z : Mem ℂ} {a b c d : ℝ} (ha : 0 ≤ a) (hb : 0 ≤ b) (hc : 0 ≤ c) (hd : 0 ≤ d)
    (h : ∀ i, i < N → ‖e i‖ ≤ a * ‖x i‖ + b * ‖y i‖ + c * ‖z i‖ + d) :
    nC N e ≤ a * nC N x + b * nC N y + c * nC N z + Real.sqrt N * d := by
  refine le_trans (l2_mono (s := fun i => a * ‖x i‖ + b * ‖y i‖ + c * ‖z i‖ + d) fun i hi => ?_) ?_
  · rw [abs_of_nonneg (norm_nonneg _)]; exact h i hi
  · refine le_trans (l2_add N (fun i => a * ‖x i‖ + b * ‖y i‖ + c * ‖z i‖) fun _ => d) ?_
    rw [l2_const N hd]
    refine add_le_add ?_ le_rfl
    refine le_trans (l2_add N (fun i => a * ‖x i‖ + b * ‖y i‖) fun i => c * ‖z i‖) ?_
    rw [l2_smul N hc]
    refine add_le_add ?_ le_rfl
    refine le_trans (l2_add N (fun i => a * ‖x i‖) fun i => b * ‖y i‖) ?_
    rw [l2_smul N ha, l2_smul N hb]
    exact le_rfl

theorem nC_maj2 {N : ℕ} {e x y : Mem ℂ} {a b d : ℝ} (ha : 0 ≤ a) (hb : 0 ≤ b) (hd : 0 ≤ d)
    (h : ∀ i, i < N → ‖e i‖ ≤ a * ‖x i‖ + b * ‖y i‖ + d) :
    nC N e ≤ a * nC N x + b * nC N y + Real.sqrt N * d := by
  have := nC_maj3 (e := e) (x := x) (y := y) (z := y) (c := 0) ha hb le_rfl hd (fun i hi => by simpa using h i hi)
  simpa using this

theorem nC_maj1 {N : ℕ} {e x : Mem ℂ} {a d : ℝ} (ha : 0 ≤ a) (hd : 0 ≤ d)
    (h : ∀ i, i < N → ‖e i‖ ≤ a * ‖x i‖ + d) : nC N e ≤ a * nC N x + Real.sqrt N * d := by
  have := nC_maj2 (e := e) (x := x) (y := x) (b := 0) ha le_rfl hd (fun i hi => by simpa using h i hi)
  simpa using this

theorem nC_neg (N : ℕ) (a : Mem ℂ) : nC N (fun i => -a i) = nC N a := by
  unfold nC; simp only [norm_neg]

theorem nC_sub_le (N : ℕ) (a b : Mem ℂ) : nC N (fun i => a i - b i) ≤ nC N a + nC N b := by
  have := nC_add N a (fun i => -b i)
  rw [nC_neg] at this
  simpa [sub_eq_add_neg] using this

theorem nC_comb5 (N : ℕ) {x : Mem ℂ} (a b c d e : Mem ℂ)
    (h : ∀ i, i < N → x i = a i + b i - c i + d i - e i) :
    nC N x ≤ nC N a + nC N b + nC N c + nC N d + nC N e := by
  rw [nC_congr (b := fun i => a i + b i - c i + d i - e i) h]
  have h1 := nC_sub_le N (fun i => a i + b i - c i + d i) e
  have h2 := nC_add N (fun i => a i + b i - c i) d
  have h3 := nC_sub_le N (fun i => a i + b i) c
  have h4 := nC_add N a b
  linarith

theorem nC_comb3 (N : ℕ) {x : Mem ℂ} (a b c : Mem ℂ) (h : ∀ i, i < N → x i = a i + b i - c i) :
    nC N x ≤ nC N a + nC N b + nC N c := by
  rw [nC_congr (b := fun i => a i + b i - c i) h]
  have h3 := nC_sub_le N (fun i => a i + b i) c
  have h4 := nC_add N a b
  linarith

/-! ### Sums over blocks -/

theorem sum_blocks (cnt len : ℕ) (g : ℕ → ℝ) : ∑ j ∈ range (cnt * (2 * len)), g j =
    ∑ b ∈ range cnt, ∑ i ∈ range len, (g (b * (2 * len) + i) + g (b * (2 * len) + len + i)) := by
  induction cnt with
  | zero => simp
  | succ c ih =>
    rw [sum_range_succ, ← ih, show (c + 1) * (2 * len) = c * (2 * len) + (len + len) by ring, sum_range_add,
      sum_range_add, sum_add_distrib]
    simp only [Nat.add_assoc]

/-- A layer of butterflies that doubles the sum of squares of each pair doubles the sum of squares. -/
theorem layer_iso {bf : ℕ → ℂ → ℂ → ℂ × ℂ} {tk : ℕ → ℕ} {cnt len : ℕ} {a a' : Mem ℂ} (h : LayerSpec bf tk cnt len a a')
    (iso : ∀ k x y, ‖(bf k x y).1‖ ^ 2 + ‖(bf k x y).2‖ ^ 2 = 2 * (‖x‖ ^ 2 + ‖y‖ ^ 2)) :
    nC (cnt * (2 * len)) a' = Real.sqrt 2 * nC (cnt * (2 * len)) a := by
  unfold nC l2
  rw [← Real.sqrt_mul (by norm_num)]
  congr 1
  rw [sum_blocks, sum_blocks, mul_sum]
  apply sum_congr rfl
  intro b hb
  rw [mul_sum]
  apply sum_congr rfl
  intro i hi
  beta_reduce
  rw [h.lo b (mem_range.mp hb) i (mem_range.mp hi), h.hi b (mem_range.mp hb) i (mem_range.mp hi), iso]

/-- Error of one layer: `bf` against the exact `bf0`, inputs `a` against `p`. -/
theorem layer_err {bf bf0 : ℕ → ℂ → ℂ → ℂ × ℂ} {tk : ℕ → ℕ} {cnt len : ℕ} {a a' p p' : Mem ℂ} {c1 c2 d : ℝ}
    (h1 : 0 ≤ c1) (h2 : 0 ≤ c2) (hd : 0 ≤ d)
    (h : LayerSpec bf tk cnt len a a') (h0 : LayerSpec bf0 tk cnt len p p')
    (iso : ∀ k x y, ‖(bf0 k x y).1‖ ^ 2 + ‖(bf0 k x y).2‖ ^ 2 = 2 * (‖x‖ ^ 2 + ‖y‖ ^ 2))
    (lin : ∀ k x y u v, bf0 k (x - u) (y - v) = bf0 k x y - bf0 k u v)
    (err : ∀ b, b < cnt → ∀ x y,
      ‖(bf (tk b) x y).1 - (bf0 (tk b) x y).1‖ ≤ c1 * ‖y‖ + c2 * ‖(bf0 (tk b) x y).1‖ + d ∧
      ‖(bf (tk b) x y).2 - (bf0 (tk b) x y).2‖ ≤ c1 * ‖y‖ + c2 * ‖(bf0 (tk b) x y).2‖ + d) :
    nC (cnt * (2 * len)) (fun i => a' i - p' i) ≤ Real.sqrt 2 * nC (cnt * (2 * len)) (fun i => a i - p i)
      + Real.sqrt 2 * (c1 + c2) * nC (cnt * (2 * len)) a + Real.sqrt (cnt * (2 * len) : ℕ) * d := by
  have hw := bf_outer bf0 tk cnt len a
  have hy := bf_outer (fun _ _ y => (y, y)) tk cnt len a
  set w := loop cnt (fun b a => loop len (fun i' a => bfStep bf0 (tk b) len (b * (2 * len) + i') a) a) a
  set Y := loop cnt (fun b a => loop len (fun i' a => bfStep (fun _ _ y => (y, y)) (tk b) len (b * (2 * len) + i') a) a) a
  have hd' : LayerSpec bf0 tk cnt len (fun i => a i - p i) (fun i => w i - p' i) :=
    ⟨fun b hb i hi => by rw [hw.lo b hb i hi, h0.lo b hb i hi, lin]; rfl,
      fun b hb i hi => by rw [hw.hi b hb i hi, h0.hi b hb i hi, lin]; rfl,
      fun j hj => by rw [hw.frame j hj, h0.frame j hj]⟩
  have e1 := layer_iso hd' iso
  have e2 := layer_iso hw iso
  have e3 : nC (cnt * (2 * len)) Y ≤ Real.sqrt 2 * nC (cnt * (2 * len)) a := by
    unfold nC l2
    rw [← Real.sqrt_mul (by norm_num)]
    apply Real.sqrt_le_sqrt
    rw [sum_blocks, sum_blocks, mul_sum]
    apply sum_le_sum
    intro b hb
    rw [mul_sum]
    apply sum_le_sum
    intro i hi
    beta_reduce
    rw [hy.lo b (mem_range.mp hb) i (mem_range.mp hi), hy.hi b (mem_range.mp hb) i (mem_range.mp hi)]
    have := sq_nonneg ‖a (b * (2 * len) + i)‖
    simp only
    linarith
  have e4 : nC (cnt * (2 * len)) (fun i => a' i - w i) ≤ c1 * nC (cnt * (2 * len)) Y + c2 * nC (cnt * (2 * len)) w
      + Real.sqrt (cnt * (2 * len) : ℕ) * d := by
    refine nC_maj2 h1 h2 hd ?_
    refine idx_cases ?_ ?_
    · intro b hb i hi
      rw [h.lo b hb i hi, hw.lo b hb i hi, hy.lo b hb i hi]
      exact (err b hb _ _).1
    · intro b hb i hi
      rw [h.hi b hb i hi, hw.hi b hb i hi, hy.hi b hb i hi]
      exact (err b hb _ _).2
  have e5 := nC_add (cnt * (2 * len)) (fun i => a' i - w i) (fun i => w i - p' i)
  rw [show (fun i => a' i - w i + (w i - p' i)) = fun i => a' i - p' i by funext i; ring] at e5
  have e6 := mul_le_mul_of_nonneg_left e3 h1
  rw [e1] at e5
  rw [e2] at e4
  nlinarith

end Falcon
