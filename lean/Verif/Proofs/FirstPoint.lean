import Verif.Proofs.SparseEval
import Verif.Proofs.PolyList

/-!
# The first value of the transform
-/

namespace Falcon

/-- The entries of the first block after `j` layers. -/
def first {α : Type} (bf : ℕ → α → α → α × α) (n : ℕ) (a : Mem α) : ℕ → ℕ → α
  | 0, i => a i
  | j + 1, i => (bf (2 ^ j) (first bf n a j i) (first bf n a j (2 ^ (n - 1 - j) + i))).1

theorem first_layers {α : Type} (bf : ℕ → α → α → α × α) (n : ℕ) (a : Mem α) (j : ℕ) (hj : j ≤ n) (i : ℕ) (hi : i < 2 ^ (n - j)) :
    loop j (fun j a => downLayer n (n - 1 - j) (bfStep bf) a) a i = first bf n a j i := by
  induction j generalizing i with
  | zero => rfl
  | succ j ih =>
    rw [loop_succ]
    have s := downLayer_spec (show n - 1 - j < n by omega) bf (loop j (fun j a => downLayer n (n - 1 - j) (bfStep bf) a) a)
    have e := s.lo 0 (by positivity) i (by rw [show n - 1 - j = n - (j + 1) by omega]; exact hi)
    rw [zero_mul, zero_add, zero_add, add_zero, show n - (n - 1 - j) - 1 = j by omega] at e
    have h2 : 2 ^ (n - j) = 2 * 2 ^ (n - 1 - j) := by rw [← pow_succ']; congr 1; omega
    rw [show n - (j + 1) = n - 1 - j by omega] at hi
    rw [e, first, ih (by omega) i (by omega), ih (by omega) _ (by omega)]

theorem first_fft {R C : Type} (A : Arith R C) (n : ℕ) (a : Mem C) : fft A n a 0 = first (fftBf A) n a n 0 := by
  rw [fft_eq]
  exact first_layers (fftBf A) n a n le_rfl 0 (by positivity)

theorem bf_zero (b : Bool) (k : ℕ) : (fftBf (ieeeA b) k 0 0).1 = 0 := by
  unfold fftBf
  rw [(ieee_cmul_zero b _).1, (ieee_cadd_zero b repC_zero).1]

/-- Layers above the stride, on rational numbers. -/
theorem first_list (b : Bool) {a : Mem ℂ} {ls : ℕ → List (ℚ × ℚ)} (ha : ∀ i, i < 512 → i % 16 ≠ 0 → a i = 0)
    (h0 : ∀ t, t < 32 → a (16 * t) = qC ((ls 0).getD t 0))
    (hs : ∀ j, j < 5 → ∀ t, t < 2 ^ (4 - j) → (fftBf (qA b) (2 ^ j) ((ls j).getD t 0) ((ls j).getD (2 ^ (4 - j) + t) 0)).1 = (ls (j + 1)).getD t 0)
    (j : ℕ) (hj : j ≤ 5) :
    (∀ i, i < 2 ^ (9 - j) → i % 16 ≠ 0 → first (fftBf (ieeeA b)) 9 a j i = 0) ∧
    ∀ t, t < 2 ^ (5 - j) → first (fftBf (ieeeA b)) 9 a j (16 * t) = qC ((ls j).getD t 0) := by
  induction j with
  | zero => exact ⟨ha, h0⟩
  | succ j ih =>
    obtain ⟨i1, i2⟩ := ih (by omega)
    have h9 : 2 ^ (9 - j) = 2 * 2 ^ (9 - 1 - j) := by rw [← pow_succ']; congr 1; omega
    have h8 : 2 ^ (9 - 1 - j) = 16 * 2 ^ (4 - j) := by
      rw [show 9 - 1 - j = 4 + (4 - j) by omega, pow_add]; norm_num
    have h5 : 2 ^ (5 - j) = 2 * 2 ^ (4 - j) := by rw [← pow_succ']; congr 1; omega
    rw [show 9 - (j + 1) = 9 - 1 - j by omega, show 5 - (j + 1) = 4 - j by omega]
    constructor
    · intro i hi h16
      rw [first, i1 i (by omega) h16, i1 _ (by omega) (by omega), bf_zero]
    · intro t ht
      rw [first, h8, ← mul_add, i2 t (by omega), i2 _ (by omega), ← hs j (by omega) t ht, (qC_fftBf b _ _ _).1]

theorem first_zero (b : Bool) {n : ℕ} {a : Mem ℂ} {j : ℕ} (h : ∀ i, i < 2 ^ (n - j) → first (fftBf (ieeeA b)) n a j i = 0) (l : ℕ)
    (hl : j + l ≤ n) : ∀ i, i < 2 ^ (n - (j + l)) → first (fftBf (ieeeA b)) n a (j + l) i = 0 := by
  induction l with
  | zero => exact h
  | succ l ih =>
    intro i hi
    have ih := ih (by omega)
    have h2 : 2 ^ (n - (j + l)) = 2 * 2 ^ (n - 1 - (j + l)) := by rw [← pow_succ']; congr 1; omega
    rw [show n - (j + (l + 1)) = n - 1 - (j + l) by omega] at hi
    rw [← add_assoc, first, ih i (by omega), ih _ (by omega), bf_zero]

/-- The transform has first value zero if the layers above the stride have. -/
theorem fft_first_zero (b : Bool) {a : Mem ℂ} {ls : ℕ → List (ℚ × ℚ)} (ha : ∀ i, i < 512 → i % 16 ≠ 0 → a i = 0)
    (h0 : ∀ t, t < 32 → a (16 * t) = qC ((ls 0).getD t 0))
    (hs : ∀ j, j < 5 → ∀ t, t < 2 ^ (4 - j) → (fftBf (qA b) (2 ^ j) ((ls j).getD t 0) ((ls j).getD (2 ^ (4 - j) + t) 0)).1 = (ls (j + 1)).getD t 0)
    (he : (ls 5).getD 0 0 = 0) : fft (ieeeA b) 9 a 0 = 0 := by
  rw [first_fft]
  obtain ⟨i1, i2⟩ := first_list b ha h0 hs 5 le_rfl
  refine first_zero b (j := 5) (fun i hi => ?_) 4 (by norm_num) 0 (by norm_num)
  by_cases h : i % 16 = 0
  · have hi0 : i = 16 * 0 := by norm_num at hi; omega
    rw [hi0, i2 0 (by norm_num), he]
    apply Complex.ext <;> simp [qC]
  · exact i1 i hi h

end Falcon
