import Verif.Model.Ntt
import Verif.Spec
import Mathlib.Algebra.BigOperators.Ring.Finset
import Mathlib.Algebra.BigOperators.Intervals
import Mathlib.Tactic.Ring
import Mathlib.Tactic.Linarith

/-!
# Bit reversal
-/

namespace Falcon

/-- Recursive bit reversal. -/
def brv : ℕ → ℕ → ℕ
  | 0, _ => 0
  | n + 1, v => brv n (v / 2) + 2 ^ n * (v % 2)

theorem brv_lt (n v : ℕ) : brv n v < 2 ^ n := by
  induction n generalizing v with
  | zero => simp [brv]
  | succ n ih =>
    have := ih (v / 2)
    have h2 : v % 2 ≤ 1 := by omega
    rw [brv, pow_succ]
    nlinarith

theorem brv_succ' (n v : ℕ) : brv (n + 1) v = 2 * brv n v + v / 2 ^ n % 2 := by
  induction n generalizing v with
  | zero => simp [brv]
  | succ n ih =>
    rw [brv, ih, brv, Nat.div_div_eq_div_mul, ← pow_succ', pow_succ]
    ring

theorem bitRev_eq (n v : ℕ) : bitRev n v = brv n v := by
  unfold bitRev
  have : ∀ m, m ≤ n → loop m (fun i v_rev =>
      let bit := (v >>> i) &&& 1
      v_rev ^^^ (bit <<< (n - 1 - i))) 0 = 2 ^ (n - m) * brv m v := by
    intro m
    induction m with
    | zero => intro _; simp [brv]
    | succ m ih =>
      intro hm
      rw [loop_succ, ih (by omega)]
      simp only
      rw [Nat.and_one_is_mod, Nat.shiftRight_eq_div_pow, Nat.shiftLeft_eq]
      have hlt : v / 2 ^ m % 2 * 2 ^ (n - 1 - m) < 2 ^ (n - m) := by
        have h1 : v / 2 ^ m % 2 ≤ 1 := by omega
        have h2 : 2 ^ (n - m) = 2 * 2 ^ (n - 1 - m) := by
          rw [← pow_succ']; congr 1; omega
        have h3 : 0 < 2 ^ (n - 1 - m) := by positivity
        nlinarith
      have hx : 2 ^ (n - m) * brv m v ^^^ v / 2 ^ m % 2 * 2 ^ (n - 1 - m)
          = 2 ^ (n - m) * brv m v + v / 2 ^ m % 2 * 2 ^ (n - 1 - m) := by
        apply Nat.eq_of_testBit_eq
        intro i
        rw [Nat.testBit_xor, Nat.testBit_two_pow_mul_add _ hlt, Nat.testBit_two_pow_mul]
        by_cases h : i < n - m
        · have h' : ¬ (n - m ≤ i) := by omega
          simp only [ge_iff_le, h, h', decide_false, Bool.false_and, Bool.false_xor, if_true]
        · have : (v / 2 ^ m % 2 * 2 ^ (n - 1 - m)).testBit i = false :=
            Nat.testBit_lt_two_pow (lt_of_lt_of_le hlt (Nat.pow_le_pow_right (by norm_num) (by omega)))
          simp [h, this]
          omega
      rw [hx, brv_succ']
      have h2 : 2 ^ (n - m) = 2 * 2 ^ (n - (m + 1)) := by
        rw [← pow_succ']; congr 1; omega
      have h3 : n - 1 - m = n - (m + 1) := by omega
      rw [h2, h3]
      ring
  have h := this n le_rfl
  rw [Nat.sub_self, pow_zero, one_mul] at h
  exact h

theorem brv_small {n v : ℕ} (h : v < 2 ^ n) : brv (n + 1) v = 2 * brv n v := by
  rw [brv_succ', Nat.div_eq_of_lt h]; rfl

theorem brv_even (n v : ℕ) : brv (n + 1) (2 * v) = brv n v := by
  rw [brv]
  simp

theorem brv_odd (n v : ℕ) : brv (n + 1) (2 * v + 1) = brv n v + 2 ^ n := by
  rw [brv, show (2 * v + 1) / 2 = v by omega, show (2 * v + 1) % 2 = 1 by omega, mul_one]

theorem brv_add_mul (m u w : ℕ) : brv m (u + 2 ^ m * w) = brv m u := by
  induction m generalizing u w with
  | zero => simp [brv]
  | succ m ihm =>
    rw [brv, brv, show 2 ^ (m + 1) * w = 2 * (2 ^ m * w) by rw [pow_succ]; ring,
      show (u + 2 * (2 ^ m * w)) / 2 = u / 2 + 2 ^ m * w by omega,
      show (u + 2 * (2 ^ m * w)) % 2 = u % 2 by omega, ihm]

/-- `brv n` is an involution on `n`-bit numbers. -/
theorem brv_brv {n v : ℕ} (h : v < 2 ^ n) : brv n (brv n v) = v := by
  induction n generalizing v with
  | zero => simp [brv]; omega
  | succ n ih =>
    rw [pow_succ] at h
    have h1 : v / 2 < 2 ^ n := by omega
    rw [brv_succ', brv]
    have hb := brv_lt n (v / 2)
    have h2 : (brv n (v / 2) + 2 ^ n * (v % 2)) / 2 ^ n = v % 2 := by
      rw [Nat.add_mul_div_left _ _ (by positivity), Nat.div_eq_of_lt hb, zero_add]
    have h3 : brv n (brv n (v / 2) + 2 ^ n * (v % 2)) = v / 2 := by
      rw [brv_add_mul, ih h1]
    rw [h2, h3]
    omega

theorem brv_compl (t : ℕ) : ∀ n b, t < n → b < 2 ^ t →
    brv n (2 ^ t + b) + brv n (2 * 2 ^ t - 1 - b) = 2 ^ n := by
  induction t with
  | zero =>
    intro n b hn hb
    have : b = 0 := by omega
    subst this
    obtain ⟨m, rfl⟩ : ∃ m, n = m + 1 := ⟨n - 1, by omega⟩
    have h0 : ∀ m, brv m 0 = 0 := by
      intro m
      induction m with
      | zero => rfl
      | succ m ih => simp [brv, ih]
    simp [brv, h0, pow_succ]
    ring
  | succ t ih =>
    intro n b hn hb
    obtain ⟨m, rfl⟩ : ∃ m, n = m + 1 := ⟨n - 1, by omega⟩
    rw [pow_succ] at hb
    have := ih m (b / 2) (by omega) (by omega)
    rw [brv, brv, pow_succ,
      show (2 ^ t * 2 + b) / 2 = 2 ^ t + b / 2 by omega,
      show (2 * (2 ^ t * 2) - 1 - b) / 2 = 2 * 2 ^ t - 1 - b / 2 by omega]
    have hm : (2 ^ t * 2 + b) % 2 + (2 * (2 ^ t * 2) - 1 - b) % 2 = 1 := by omega
    rw [pow_succ]
    calc brv m (2 ^ t + b / 2) + 2 ^ m * ((2 ^ t * 2 + b) % 2) +
          (brv m (2 * 2 ^ t - 1 - b / 2) + 2 ^ m * ((2 * (2 ^ t * 2) - 1 - b) % 2))
        = (brv m (2 ^ t + b / 2) + brv m (2 * 2 ^ t - 1 - b / 2)) +
          2 ^ m * ((2 ^ t * 2 + b) % 2 + (2 * (2 ^ t * 2) - 1 - b) % 2) := by ring
      _ = 2 ^ m * 2 := by rw [this, hm]; ring

theorem brv_eq_revBits (n v : ℕ) : brv n v = revBits n v := by
  unfold revBits
  induction n with
  | zero => rfl
  | succ n ih =>
    rw [brv_succ', Finset.sum_range_succ, ih, Finset.mul_sum]
    congr 1
    · apply Finset.sum_congr rfl
      intro t ht
      have := Finset.mem_range.mp ht
      rw [show n + 1 - 1 - t = (n - 1 - t) + 1 by omega, pow_succ]
      ring
    · simp

end Falcon
