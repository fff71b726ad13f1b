import Verif.Proofs.FftExact

/-!
# Polynomials in a power of x given by lists of coefficients
-/

namespace Falcon

open Finset

section
variable {A : Type*} [CommRing A]

/-- The value at `y` of the polynomial with coefficients `l`. -/
def evL (y : A) : List ℤ → A
  | [] => 0
  | x :: l => x + y * evL y l

/-- The sum of two lists of coefficients. -/
def lAdd : List ℤ → List ℤ → List ℤ
  | [], b => b
  | a, [] => a
  | x :: a, y :: b => (x + y) :: lAdd a b

/-- The product of two lists of coefficients. -/
def lMul : List ℤ → List ℤ → List ℤ
  | [], _ => []
  | x :: a, b => lAdd (b.map (x * ·)) (0 :: lMul a b)

theorem evL_lAdd (y : A) (a b : List ℤ) : evL y (lAdd a b) = evL y a + evL y b := by
  induction a generalizing b with
  | nil => simp [lAdd, evL]
  | cons x a ih =>
    cases b with
    | nil => simp [lAdd, evL]
    | cons z b => simp only [lAdd, evL, ih, Int.cast_add]; ring

theorem evL_map (y : A) (x : ℤ) (b : List ℤ) : evL y (b.map (x * ·)) = x * evL y b := by
  induction b with
  | nil => simp [evL]
  | cons z b ih => simp only [List.map_cons, evL, ih, Int.cast_mul]; ring

theorem evL_lMul (y : A) (a b : List ℤ) : evL y (lMul a b) = evL y a * evL y b := by
  induction a with
  | nil => simp [lMul, evL]
  | cons x a ih => simp only [lMul, evL_lAdd, evL_map, evL, ih]; push_cast; ring

theorem evL_append (y : A) (a b : List ℤ) : evL y (a ++ b) = evL y a + y ^ a.length * evL y b := by
  induction a with
  | nil => simp [evL]
  | cons x a ih => simp only [List.cons_append, evL, ih, List.length_cons, pow_succ]; ring

theorem evL_split (y : A) (n : ℕ) (l : List ℤ) (h : n ≤ l.length) : evL y l = evL y (l.take n) + y ^ n * evL y (l.drop n) := by
  conv_lhs => rw [← List.take_append_drop n l]
  rw [evL_append, List.length_take, min_eq_left h]

theorem evL_sum (y : A) (l : List ℤ) : evL y l = ∑ t ∈ range l.length, (l.getD t 0 : ℤ) * y ^ t := by
  induction l with
  | nil => simp [evL]
  | cons x l ih =>
    rw [evL, ih, List.length_cons, sum_range_succ', mul_sum]
    simp only [List.getD_cons_succ, List.getD_cons_zero, pow_zero, mul_one]
    rw [add_comm]
    congr 1
    exact sum_congr rfl fun t _ => by ring

theorem evL_reverse {y w : A} (h : y * w = 1) (x : ℤ) (l : List ℤ) : evL w (x :: l) * y ^ l.length = evL y (x :: l).reverse := by
  induction l generalizing x with
  | nil => simp [evL]
  | cons z l ih =>
    rw [List.reverse_cons, evL_append, ← ih]
    simp only [List.length_reverse, List.length_cons, evL]
    linear_combination (z + w * evL w l) * y ^ l.length * h
end

/-- The polynomial with coefficients `l` in x^S. -/
def strideMem (S : ℕ) (l : List ℤ) : Mem Int := fun i => if i % S = 0 then l.getD (i / S) 0 else 0

theorem sum_stride {M : Type*} [AddCommMonoid M] {S : ℕ} (hS : 0 < S) (h : ℕ → M) (m : ℕ) :
    ∑ i ∈ range (m * S), (if i % S = 0 then h (i / S) else 0) = ∑ t ∈ range m, h t := by
  induction m with
  | zero => simp
  | succ m ih =>
    rw [add_mul, one_mul, sum_range_add, ih, sum_range_succ h m]
    congr 1
    rw [sum_eq_single 0]
    · rw [add_zero, if_pos (Nat.mul_mod_left m S), Nat.mul_div_cancel _ hS]
    · intro b hb hb0
      rw [if_neg]
      rw [mul_comm, Nat.mul_add_mod, Nat.mod_eq_of_lt (mem_range.mp hb)]
      exact hb0
    · intro h; exact absurd (mem_range.mpr hS) h

/-- A sum over all coefficients. -/
theorem sum_strideMem {M : Type*} [AddCommMonoid M] {S : ℕ} (hS : 0 < S) (l : List ℤ) (h : ℤ → ℕ → M) (h0 : ∀ i, h 0 i = 0) :
    ∑ i ∈ range (l.length * S), h (strideMem S l i) i = ∑ t ∈ range l.length, h (l.getD t 0) (S * t) := by
  rw [← sum_stride hS (fun t => h (l.getD t 0) (S * t)) l.length]
  refine sum_congr rfl fun i _ => ?_
  unfold strideMem
  split
  · rw [Nat.mul_div_cancel' (Nat.dvd_of_mod_eq_zero ‹_›)]
  · exact h0 i

open Polynomial in
theorem polyZ_stride {S N : ℕ} (hS : 0 < S) (l : List ℤ) (hl : l.length * S = N) : polyZ N (strideMem S l) = evL (X ^ S) l := by
  rw [evL_sum, ← hl]
  unfold polyZ toPoly
  rw [sum_strideMem hS l (fun z i => C z * X ^ i) (by simp)]
  exact sum_congr rfl fun t _ => by rw [pow_mul]; simp

theorem dft_stride {S n : ℕ} (hS : 0 < S) (l : List ℤ) (hl : l.length * S = 2 ^ n) (j : ℕ) :
    dft n (zC (strideMem S l)) j = evL (fftPoint n j ^ S) l := by
  rw [evL_sum, dft_poly]
  unfold toPoly zC
  rw [← hl, sum_strideMem hS l (fun z i => Polynomial.C (z : ℂ) * Polynomial.X ^ i) (by simp)]
  simp only [Polynomial.eval_finsetSum, Polynomial.eval_mul, Polynomial.eval_C, Polynomial.eval_pow, Polynomial.eval_X]
  exact sum_congr rfl fun t _ => by rw [pow_mul]

/-- The values at all points sum up to N times the constant coefficient. -/
theorem sum_dft {n : ℕ} (hn : n ≤ 10) (a : Mem ℂ) : ∑ j ∈ range (2 ^ n), dft n a j = 2 ^ n * a 0 := by
  induction n generalizing a with
  | zero => simp [dft]
  | succ k ih =>
    rw [pow_succ, mul_comm, sum_pairs, sum_congr rfl (g := fun j => 2 * dft k (fun i => a (2 * i)) j) (fun j hj => by
        have hj := mem_range.mp hj
        rw [dft_even hn a j hj, dft_odd hn a j hj]; ring),
      ← mul_sum, ih (by omega)]
    ring

end Falcon
