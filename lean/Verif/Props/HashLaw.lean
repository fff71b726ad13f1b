import Verif.Proofs.HashLaw

/-!
# C84: message hashing as a random function

If the XOF output is uniform, the hashed point is exactly uniform and hashing ends quickly.
-/

namespace Falcon

open BTree

theorem hash_hits {n fuel : ℕ} (st : ℕ → UInt8) (c0 : Mem Ff) (a : ℕ → ℕ) :
    (∃ c, hashToPoint fuel n st c0 = some c ∧ ∀ i, i < 2 ^ n → (c i).v.toNat = a i) ↔
      Hits (2 ^ n) a (run (accT (68 * fuel)) st 0).1 := by
  rw [run_accT]
  have e0 : (fun i => st (0 + i)) = st := by funext i; rw [Nat.zero_add]
  rw [e0]
  constructor
  · rintro ⟨c, h1, h2⟩
    have hl := (C24_hash_finishes_iff st c0).mp ⟨c, h1⟩
    obtain ⟨M, m1, m2⟩ := (hashToPoint_spec h1).1
    refine ⟨hl, fun i hi => ?_⟩
    rw [← h2 i hi, m2 i hi, accepted_getD st (M := M) (M' := 68 * fuel) (by omega) (by omega)]
  · rintro ⟨h1, h2⟩
    obtain ⟨c, hc⟩ := (C24_hash_finishes_iff st c0).mpr h1
    obtain ⟨M, m1, m2⟩ := (hashToPoint_spec hc).1
    refine ⟨c, hc, fun i hi => ?_⟩
    rw [← h2 i hi, m2 i hi, accepted_getD st (M := M) (M' := 68 * fuel) (by omega) (by omega)]

open Classical in
/-- Over uniform XOF output of `fuel` blocks, every point of Z_q^N is hit with exactly the same probability: the probability that hashing ends within
`fuel` blocks, divided by q^N. -/
theorem C84_uniform {n fuel : ℕ} (c0 : Mem Ff) (a : ℕ → ℕ) (ha : ∀ i, i < 2 ^ n → a i < 12289) :
    freq (136 * fuel) (fun st => ∃ c, hashToPoint fuel n st c0 = some c ∧ ∀ i, i < 2 ^ n → (c i).v.toNat = a i) =
      freq (136 * fuel) (fun st => ∃ c, hashToPoint fuel n st c0 = some c) / 12289 ^ 2 ^ n := by
  have hd : (accT (68 * fuel)).Depth (136 * fuel) := by
    have := depth_accT (68 * fuel)
    rwa [← Nat.mul_assoc] at this
  have e1 : (fun st => ∃ c, hashToPoint fuel n st c0 = some c ∧ ∀ i, i < 2 ^ n → (c i).v.toNat = a i) =
      fun st => Hits (2 ^ n) a (run (accT (68 * fuel)) st 0).1 := funext fun st => propext (hash_hits st c0 a)
  have e2 : (fun st => ∃ c, hashToPoint fuel n st c0 = some c) = fun st => 2 ^ n ≤ (run (accT (68 * fuel)) st 0).1.length := by
    funext st
    rw [run_accT]
    have e0 : (fun i => st (0 + i)) = st := by funext i; rw [Nat.zero_add]
    rw [e0]
    exact propext (C24_hash_finishes_iff st c0)
  rw [e1, e2, freq_eq hd fun l => Hits (2 ^ n) a l, freq_eq hd fun l => 2 ^ n ≤ l.length, eq_div_iff (by positivity)]
  exact mean_hits (68 * fuel) (2 ^ n) a ha

/-- Hashing needs more than `fuel` blocks of 136 bytes with probability at most 2^N (69627 / 131072)^(68 fuel). -/
theorem C84_finishes {n fuel : ℕ} (c0 : Mem Ff) :
    freq (136 * fuel) (fun st => hashToPoint fuel n st c0 = none) ≤ 2 ^ 2 ^ n * (69627 / 131072) ^ (68 * fuel) := by
  classical
  have hd : (accT (68 * fuel)).Depth (136 * fuel) := by
    have := depth_accT (68 * fuel)
    rwa [← Nat.mul_assoc] at this
  have e2 : (fun st => hashToPoint fuel n st c0 = none) = fun st => ¬ 2 ^ n ≤ (run (accT (68 * fuel)) st 0).1.length := by
    funext st
    rw [run_accT]
    have e0 : (fun i => st (0 + i)) = st := by funext i; rw [Nat.zero_add]
    rw [e0]
    apply propext
    rw [← C24_hash_finishes_iff st c0]
    cases hashToPoint fuel n st c0 <;> simp
  rw [e2, freq_eq hd fun l => ¬ 2 ^ n ≤ l.length]
  refine le_trans (le_of_eq ?_) (mean_short (68 * fuel) (2 ^ n))
  congr 1
  funext l
  by_cases h : 2 ^ n ≤ l.length <;> simp [h]

/-- 10 blocks suffice for N = 512 except with probability 2^-108, 18 blocks for N = 1024 except with probability 2^-92. -/
theorem C84_blocks (c0 : Mem Ff) :
    freq 1360 (fun st => hashToPoint 10 9 st c0 = none) ≤ 1 / 2 ^ 108 ∧
    freq 2448 (fun st => hashToPoint 18 10 st c0 = none) ≤ 1 / 2 ^ 92 := by
  have h : ∀ k, ((69627 : ℝ) / 131072) ^ (68 * k) ≤ (1 / 2 ^ 62) ^ k := fun k => by
    rw [pow_mul]
    exact pow_le_pow_left₀ (by positivity) (by norm_num) k
  constructor
  · refine (C84_finishes (n := 9) (fuel := 10) c0).trans ((mul_le_mul_of_nonneg_left (h 10) (by positivity)).trans (le_of_eq ?_))
    rw [one_div_pow, ← pow_mul, mul_one_div, div_eq_div_iff (by positivity) (by positivity), ← pow_add, one_mul]
    congr 1
  · refine (C84_finishes (n := 10) (fuel := 18) c0).trans ((mul_le_mul_of_nonneg_left (h 18) (by positivity)).trans (le_of_eq ?_))
    rw [one_div_pow, ← pow_mul, mul_one_div, div_eq_div_iff (by positivity) (by positivity), ← pow_add, one_mul]
    congr 1

/-- A point that meets the hypothesis. -/
example : ∃ a : ℕ → ℕ, (∀ i, i < 2 ^ 9 → a i < 12289) ∧ a 3 = 12288 := ⟨fun i => 12285 + i % 4, fun i _ => by simp only; omega, rfl⟩

end Falcon
