import Verif.Proofs.Float
import Mathlib.Data.Rat.Cast.Order
import Mathlib.Tactic.FieldSimp

/-!
# Rounding of rational numbers to binary64, computable
-/

namespace Falcon

/-- The exponent of the binade of a/b. -/
def expQ (a b : ℕ) : ℤ :=
  let l : ℤ := (Nat.log2 a : ℤ) - Nat.log2 b
  if b * 2 ^ l.toNat ≤ a * 2 ^ (-l).toNat then l else l - 1

/-- The nearest integer of n/d, ties to even. -/
def nearQ (n : ℤ) (d : ℕ) : ℤ :=
  let f := n / d
  let r := n % d
  if 2 * r < d then f else if d < 2 * r then f + 1 else if f % 2 = 0 then f else f + 1

/-- m 2^e. -/
def scaleQ (m e : ℤ) : ℚ := if 0 ≤ e then ((m * 2 ^ e.toNat : ℤ) : ℚ) else mkRat m (2 ^ (-e).toNat)

/-- Rounding of a rational number. -/
def rndQ (q : ℚ) : ℚ :=
  if q.num = 0 then 0 else
    let e := max (expQ q.num.natAbs q.den - 52) (-1074)
    scaleQ (nearQ (q.num * 2 ^ (-e).toNat) (q.den * 2 ^ e.toNat)) e

theorem zpow_split (e : ℤ) : (2 : ℝ) ^ e = 2 ^ e.toNat / 2 ^ (-e).toNat := by
  rcases le_total 0 e with h | h
  · obtain ⟨k, rfl⟩ := Int.eq_ofNat_of_zero_le h
    simp
  · obtain ⟨k, hk⟩ := Int.eq_ofNat_of_zero_le (neg_nonneg.mpr h)
    have : e = -(k : ℤ) := by omega
    subst this
    simp

theorem scaleQ_val (m e : ℤ) : ((scaleQ m e : ℚ) : ℝ) = m * 2 ^ e := by
  unfold scaleQ
  rw [zpow_split]
  split
  · rename_i h
    have : (-e).toNat = 0 := by omega
    rw [this]
    push_cast
    ring
  · rename_i h
    have : e.toNat = 0 := by omega
    rw [this, Rat.mkRat_eq_div]
    push_cast
    ring

theorem nearQ_val (n : ℤ) {d : ℕ} (hd : 0 < d) : rndZ ((n : ℝ) / d) = nearQ n d := by
  have hd' : (0 : ℝ) < d := by exact_mod_cast hd
  have hdz : (0 : ℤ) < d := by exact_mod_cast hd
  have h1 := Int.emod_nonneg n hdz.ne'
  have h2 := Int.emod_lt_of_pos n hdz
  have h3 := Int.emod_add_mul_ediv n d
  have hy : (n : ℝ) / d = (n / d : ℤ) + ((n % d : ℤ) : ℝ) / d := by
    rw [eq_comm, ← mul_right_inj' hd'.ne', mul_add, mul_div_cancel₀ _ hd'.ne', mul_div_cancel₀ _ hd'.ne']
    have : ((n % d + d * (n / d) : ℤ) : ℝ) = n := by rw [h3]
    push_cast at this ⊢
    linarith
  have hfl : ⌊(n : ℝ) / d⌋ = n / d := by
    rw [Int.floor_eq_iff, hy]
    constructor
    · have : 0 ≤ ((n % d : ℤ) : ℝ) / d := div_nonneg (by exact_mod_cast h1) hd'.le
      linarith
    · have : ((n % d : ℤ) : ℝ) / d < 1 := by rw [div_lt_one hd']; exact_mod_cast h2
      linarith
  have hfr : Int.fract ((n : ℝ) / d) = ((n % d : ℤ) : ℝ) / d := by
    have := Int.floor_add_fract ((n : ℝ) / d)
    rw [hfl] at this
    linarith
  have c1 : ((n % d : ℤ) : ℝ) / d < 1 / 2 ↔ 2 * (n % d) < d := by
    rw [div_lt_iff₀ hd', ← @Int.cast_lt ℝ]
    push_cast
    constructor <;> intro h <;> linarith
  have c2 : 1 / 2 < ((n % d : ℤ) : ℝ) / d ↔ (d : ℤ) < 2 * (n % d) := by
    rw [lt_div_iff₀ hd', ← @Int.cast_lt ℝ]
    push_cast
    constructor <;> intro h <;> linarith
  unfold rndZ nearQ
  rw [hfl, hfr]
  simp only [c1, c2, Int.even_iff]

theorem expQ_val {a b : ℕ} (ha : 0 < a) (hb : 0 < b) : Int.log 2 |(a : ℝ) / b| = expQ a b := by
  have hb' : (0 : ℝ) < b := by exact_mod_cast hb
  have ha' : (0 : ℝ) < a := by exact_mod_cast ha
  have hq : 0 < (a : ℝ) / b := by positivity
  have a1 : (2 : ℝ) ^ Nat.log2 a ≤ a := by exact_mod_cast Nat.log2_self_le ha.ne'
  have a2 : (a : ℝ) < 2 ^ (Nat.log2 a + 1) := by exact_mod_cast Nat.lt_log2_self
  have b1 : (2 : ℝ) ^ Nat.log2 b ≤ b := by exact_mod_cast Nat.log2_self_le hb.ne'
  have b2 : (b : ℝ) < 2 ^ (Nat.log2 b + 1) := by exact_mod_cast Nat.lt_log2_self
  have up : (a : ℝ) / b < 2 ^ ((Nat.log2 a : ℤ) - Nat.log2 b + 1) := by
    rw [div_lt_iff₀ hb']
    calc (a : ℝ) < 2 ^ (Nat.log2 a + 1) := a2
      _ = 2 ^ ((Nat.log2 a : ℤ) - Nat.log2 b + 1) * 2 ^ Nat.log2 b := by
        rw [← zpow_natCast, ← zpow_natCast, ← zpow_add₀ (by norm_num)]; congr 1; push_cast; ring
      _ ≤ _ := mul_le_mul_of_nonneg_left b1 (two_zpow_pos _).le
  have lo : (2 : ℝ) ^ ((Nat.log2 a : ℤ) - Nat.log2 b - 1) ≤ (a : ℝ) / b := by
    rw [le_div_iff₀ hb']
    calc (2 : ℝ) ^ ((Nat.log2 a : ℤ) - Nat.log2 b - 1) * b ≤ 2 ^ ((Nat.log2 a : ℤ) - Nat.log2 b - 1) * 2 ^ (Nat.log2 b + 1) :=
          mul_le_mul_of_nonneg_left b2.le (two_zpow_pos _).le
      _ = 2 ^ Nat.log2 a := by
        rw [← zpow_natCast, ← zpow_natCast, ← zpow_add₀ (by norm_num)]; congr 1; push_cast; ring
      _ ≤ _ := a1
  unfold expQ
  simp only
  generalize (Nat.log2 a : ℤ) - Nat.log2 b = l at *
  have hc : b * 2 ^ l.toNat ≤ a * 2 ^ (-l).toNat ↔ (2 : ℝ) ^ l ≤ (a : ℝ) / b := by
    rw [zpow_split, div_le_div_iff₀ (by positivity) hb', ← @Nat.cast_le ℝ]
    push_cast
    rw [mul_comm]
  have habs : |(a : ℝ) / b| = (a : ℝ) / b := abs_of_pos hq
  split
  · rename_i h
    have h1 := le_log_of (x := (a : ℝ) / b) (by rw [habs]; exact hc.mp h)
    have h2 := log_lt_of hq.ne' (by rw [habs]; exact up)
    omega
  · rename_i h
    have h1 := le_log_of (x := (a : ℝ) / b) (by rw [habs]; exact lo)
    have h2 := log_lt_of hq.ne' (by rw [habs]; exact not_le.mp fun h' => h (hc.mpr h'))
    omega

theorem rndQ_val (q : ℚ) : rnd (q : ℝ) = ((rndQ q : ℚ) : ℝ) := by
  unfold rndQ
  split
  · rename_i h
    rw [Rat.num_eq_zero.mp h]
    simp [rnd_zero]
  · rename_i h
    have hq : (q : ℝ) = (q.num : ℝ) / q.den := by
      conv_lhs => rw [← Rat.num_div_den q]
      push_cast
      rfl
    have hfe : fexp (q : ℝ) = max (expQ q.num.natAbs q.den - 52) (-1074) := by
      unfold fexp
      rw [← expQ_val (by omega) q.den_pos]
      congr 3
      rw [hq, abs_div, abs_div, Nat.cast_natAbs, Int.cast_abs, abs_abs]
    simp only
    rw [scaleQ_val]
    unfold rnd
    rw [hfe]
    generalize max (expQ q.num.natAbs q.den - 52) (-1074) = e
    congr 2
    rw [← nearQ_val _ (by have := q.den_pos; positivity), hq, zpow_split]
    congr 1
    have : (q.den : ℝ) ≠ 0 := by exact_mod_cast q.den_pos.ne'
    push_cast
    field_simp

end Falcon
