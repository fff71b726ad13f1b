import Verif.Proofs.U72
import Mathlib.Data.Fintype.Card
import Mathlib.Data.Fintype.BigOperators
import Mathlib.Order.Interval.Finset.Nat
import Mathlib.Data.Fintype.EquivFin

/-! # Counting byte strings; the base sampler; the Bernoulli loop -/

namespace Falcon

theorem memOf_lt {n : ℕ} (b : Fin n → UInt8) (i : ℕ) (h : i < n) : memOf b i = b ⟨i, h⟩ := by
  simp [memOf, h]

theorem leVal_congr (n : ℕ) (a b : Mem UInt8) (h : ∀ i, i < n → a i = b i) : leVal n a = leVal n b := by
  induction n with
  | zero => rfl
  | succ n ih => rw [leVal, leVal, ih (fun i hi => h i (by omega)), h n (by omega)]

/-- Byte strings of length `n` are the numbers below `256^n`. -/
noncomputable def bytesEquiv (n : ℕ) : (Fin n → UInt8) ≃ Fin (256 ^ n) :=
  Equiv.ofBijective (fun b => ⟨leVal n (memOf b), leVal_lt _ _⟩) (by
    constructor
    · intro a b h
      have h : leVal n (memOf a) = leVal n (memOf b) := congrArg Fin.val h
      funext i
      have h1 := leVal_digit n (memOf a) i i.2
      have h2 := leVal_digit n (memOf b) i i.2
      rw [h] at h1
      rw [memOf_lt a i i.2] at h1
      rw [memOf_lt b i i.2] at h2
      exact UInt8.toNat_inj.mp (h1.symm.trans h2)
    · intro v
      refine ⟨fun i => UInt8.ofNat (v.1 / 256 ^ i.1 % 256), Fin.ext ?_⟩
      refine leVal_of_digits n v.1 _ v.2 fun i hi => ?_
      rw [memOf_lt _ i hi]
      simp)

theorem card_interval (N a b : ℕ) (hb : b ≤ N) :
    (Finset.univ.filter fun v : Fin N => a ≤ v.1 ∧ v.1 < b).card = b - a := by
  rw [← Nat.card_Ico a b, ← Finset.card_map Fin.valEmbedding]
  congr 1
  ext x
  simp only [Finset.mem_map, Finset.mem_filter, Finset.mem_univ, true_and, Fin.valEmbedding_apply,
    Finset.mem_Ico]
  constructor
  · rintro ⟨v, h, rfl⟩; exact h
  · intro h; exact ⟨⟨x, by omega⟩, h, rfl⟩

/-- The number of byte strings whose little-endian value lies in `[a, b)`. -/
theorem card_leVal (n a b : ℕ) (hb : b ≤ 256 ^ n) :
    (Finset.univ.filter fun v : Fin n → UInt8 => a ≤ leVal n (memOf v) ∧ leVal n (memOf v) < b).card
      = b - a := by
  rw [← card_interval (256 ^ n) a b hb]
  refine Finset.card_equiv (bytesEquiv n) fun v => ?_
  simp only [Finset.mem_filter, Finset.mem_univ, true_and]
  rfl

/-- Reversal of byte strings. -/
theorem card_beVal (n b : ℕ) (hb : b ≤ 256 ^ n) :
    (Finset.univ.filter fun v : Fin n → UInt8 => beVal n (memOf v) < b).card = b := by
  have h := card_leVal n 0 b hb
  rw [Nat.sub_zero] at h
  refine Eq.trans ?_ h
  refine Finset.card_equiv (Equiv.arrowCongr Fin.revPerm (Equiv.refl UInt8)) fun v => ?_
  simp only [Finset.mem_filter, Finset.mem_univ, true_and, Nat.zero_le]
  have : beVal n (memOf v)
      = leVal n (memOf ((Equiv.arrowCongr Fin.revPerm (Equiv.refl UInt8)) v)) := by
    refine leVal_congr _ _ _ fun i hi => ?_
    rw [memOf_lt _ i hi, memOf_lt _ (n - 1 - i) (by omega)]
    simp only [Equiv.arrowCongr_apply, Function.comp, Equiv.refl_apply]
    congr 1
    apply Fin.ext
    simp [Fin.revPerm]
    omega
  rw [this]

/-! ## Base sampler -/

/-- Sum of the probability table from entry `z` on. -/
def pdtTail (z : ℕ) : ℕ := ((pdtSpec.drop z).foldr (· + ·) 0)

theorem pdtTail_zero : pdtTail 0 = 2 ^ 72 := by decide +kernel
theorem pdtTail_sub : ∀ z, z < 19 → pdtTail z = pdtSpec.getD z 0 + pdtTail (z + 1) := by
  decide +kernel
theorem pdtTail_19 : pdtTail 19 = 0 := by decide +kernel
theorem RCDT_val : ∀ i, i < 18 → (RCDT i).val = pdtTail (i + 1) := by
  decide +kernel

theorem pdtTail_anti (a b : ℕ) (hab : a ≤ b) (hb : b ≤ 19) : pdtTail b ≤ pdtTail a := by
  induction b with
  | zero => obtain rfl : a = 0 := by omega
            exact le_rfl
  | succ b ih =>
    rcases Nat.lt_or_ge a (b + 1) with h | h
    · have := pdtTail_sub b (by omega)
      have := ih (by omega) (by omega)
      omega
    · obtain rfl : a = b + 1 := by omega
      exact le_rfl

theorem baseSampler_eq (bytes : Mem UInt8) (z : ℕ) (hz : z ≤ 18)
    (h1 : pdtTail (z + 1) ≤ leVal 9 bytes) (h2 : leVal 9 bytes < pdtTail z) :
    (baseSampler bytes).toNat = z := by
  have key : ∀ n, n ≤ 18 → (loop n (fun i z0 => z0 + (if U72.lt (U72.fromLe bytes) (RCDT i) then 1 else 0))
      (0 : UInt32)).toNat = min n z := by
    intro n
    induction n with
    | zero => intro _; simp
    | succ n ih =>
      intro hn
      rw [loop_succ, UInt32.toNat_add, ih (by omega), U72.lt, U72.gt_spec, RCDT_val n (by omega),
        (U72.fromLe_spec bytes).2]
      by_cases h : n < z
      · have h3 := pdtTail_anti (n + 1) z (by omega) (by omega)
        have h4 : leVal 9 bytes < pdtTail (n + 1) := by omega
        simp only [h4, decide_true, if_true]
        show (min n z + 1) % 2 ^ 32 = _
        omega
      · have h3 := pdtTail_anti (z + 1) (n + 1) (by omega) (by omega)
        have h4 : ¬ leVal 9 bytes < pdtTail (n + 1) := by omega
        simp only [h4, decide_false]
        show (min n z + 0) % 2 ^ 32 = _
        omega
  unfold baseSampler
  rw [key 18 le_rfl]
  omega

theorem exists_bucket (u : ℕ) (hu : u < 2 ^ 72) : ∃ z, z ≤ 18 ∧ pdtTail (z + 1) ≤ u ∧ u < pdtTail z := by
  have key : ∀ n, n ≤ 19 → u < pdtTail (19 - n) → ∃ z, z ≤ 18 ∧ pdtTail (z + 1) ≤ u ∧ u < pdtTail z := by
    intro n
    induction n with
    | zero => intro _ h; rw [Nat.sub_zero, pdtTail_19] at h; omega
    | succ n ih =>
      intro hn h
      by_cases h' : u < pdtTail (19 - n)
      · exact ih (by omega) h'
      · refine ⟨19 - (n + 1), by omega, ?_, h⟩
        rw [show 19 - (n + 1) + 1 = 19 - n by omega]
        omega
  exact key 19 le_rfl (by rw [Nat.sub_self, pdtTail_zero]; exact hu)

theorem baseSampler_iff (bytes : Mem UInt8) (z : ℕ) (hz : z ≤ 18) :
    (baseSampler bytes).toNat = z ↔ pdtTail (z + 1) ≤ leVal 9 bytes ∧ leVal 9 bytes < pdtTail z := by
  constructor
  · intro h
    have hlt : leVal 9 bytes < 2 ^ 72 := by
      have := leVal_lt 9 bytes
      rwa [show (256 : ℕ) ^ 9 = 2 ^ 72 by norm_num] at this
    obtain ⟨z', hz', h1, h2⟩ := exists_bucket _ hlt
    have := baseSampler_eq bytes z' hz' h1 h2
    obtain rfl : z' = z := by omega
    exact ⟨h1, h2⟩
  · rintro ⟨h1, h2⟩
    exact baseSampler_eq bytes z hz h1 h2

theorem baseSampler_le (bytes : Mem UInt8) : (baseSampler bytes).toNat ≤ 18 := by
  have hlt : leVal 9 bytes < 2 ^ 72 := by
    have := leVal_lt 9 bytes
    rwa [show (256 : ℕ) ^ 9 = 2 ^ 72 by norm_num] at this
  obtain ⟨z', hz', h1, h2⟩ := exists_bucket _ hlt
  rw [baseSampler_eq bytes z' hz' h1 h2]
  exact hz'

/-! ## The Bernoulli loop -/

theorem beVal_succ (n : ℕ) (b : Mem UInt8) :
    beVal (n + 1) b = (b 0).toNat * 256 ^ n + beVal n (fun i => b (i + 1)) := by
  unfold beVal
  rw [leVal]
  have : leVal n (fun i => b (n + 1 - 1 - i)) = leVal n (fun i => b (n - 1 - i + 1)) := by
    refine leVal_congr _ _ _ fun i hi => ?_
    show b _ = b _
    congr 1
    omega
  rw [this]
  simp only [Nat.add_sub_cancel, Nat.sub_self]
  ring

theorem beVal_lt (n : ℕ) (b : Mem UInt8) : beVal n b < 256 ^ n := leVal_lt _ _

/-- Byte `k` (from the least significant) of the threshold. -/
theorem zbyte (z : UInt64) (k : ℕ) (hk : k < 8) :
    ((z >>> UInt64.ofNat (8 * k)) &&& 0xff).toNat = z.toNat / 256 ^ k % 256 := by
  rw [and_ff_toNat, UInt64.toNat_shiftRight]
  have : (UInt64.ofNat (8 * k)).toNat % 64 = 8 * k := by
    rw [UInt64.toNat_ofNat']
    omega
  rw [this, Nat.shiftRight_eq_div_pow, show (256 : ℕ) = 2 ^ 8 by norm_num, ← pow_mul]

/-- The loop entered with `8 (k+1)` compares the next `k+1` bytes with the low `k+1` bytes of `z`. -/
theorem berLoop_spec (z : UInt64) (s : ℕ → UInt8) (k : ℕ) : ∀ pos, k < 8 →
    (berLoop z s (8 * (k + 1)) pos).1
      = decide (beVal (k + 1) (fun i => s (pos + i)) < z.toNat % 256 ^ (k + 1)) := by
  induction k with
  | zero =>
    intro pos hk
    rw [berLoop, dif_pos (by omega)]
    have hz := zbyte z 0 (by omega)
    simp only [Nat.mul_zero] at hz
    simp only [show 8 * (0 + 1) - 8 = 0 by norm_num, hz, gt_iff_lt, lt_irrefl, and_false, if_false]
    rw [beVal_succ]
    simp only [beVal, leVal, pow_zero, Nat.div_one, Nat.mul_one, Nat.add_zero, pow_one, zero_add]
    rw [decide_eq_decide]
    omega
  | succ k ih =>
    intro pos hk
    rw [berLoop, dif_pos (by omega)]
    have hz := zbyte z (k + 1) hk
    have e : 8 * (k + 1 + 1) - 8 = 8 * (k + 1) := by omega
    simp only [e, hz]
    have hb := beVal_lt (k + 1) (fun i => s (pos + (i + 1)))
    have hm : z.toNat % 256 ^ (k + 1 + 1)
        = z.toNat % 256 ^ (k + 1) + 256 ^ (k + 1) * (z.toNat / 256 ^ (k + 1) % 256) := by
      rw [pow_succ 256 (k + 1), Nat.mod_mul]
    have hml : z.toNat % 256 ^ (k + 1) < 256 ^ (k + 1) := Nat.mod_lt _ (by positivity)
    rw [beVal_succ, hm]
    generalize z.toNat / 256 ^ (k + 1) % 256 = d at *
    have ihp := ih (pos + 1) (by omega)
    have e2 : (fun i => s (pos + 1 + i)) = (fun i => s (pos + (i + 1))) := by
      funext i; congr 1; omega
    rw [e2] at ihp
    simp only [Nat.add_zero]
    generalize 256 ^ (k + 1) = P at *
    generalize z.toNat % P = m at *
    generalize beVal (k + 1) (fun i => s (pos + (i + 1))) = v at *
    by_cases hd : (s pos).toNat = d
    · rw [if_pos ⟨by omega, by omega⟩, ihp, decide_eq_decide, hd, Nat.mul_comm]
      omega
    · rw [if_neg (by omega)]
      rw [decide_eq_decide]
      generalize (s pos).toNat = t at *
      rcases Nat.lt_or_ge t d with h | h
      · have : P * (t + 1) ≤ P * d := Nat.mul_le_mul_left _ h
        have h2 : P * (t + 1) = t * P + P := by ring
        constructor
        · intro _; omega
        · intro _; omega
      · have h' : d + 1 ≤ t := by omega
        have : P * (d + 1) ≤ P * t := Nat.mul_le_mul_left _ h'
        have h2 : P * (d + 1) = P * d + P := by ring
        have h3 : P * t = t * P := by ring
        constructor
        · intro _; omega
        · intro _; omega

/-- Number of bytes read: up to and including the first one that differs from the threshold. -/
theorem berLoop_reads (z : UInt64) (s : ℕ → UInt8) (k : ℕ) : ∀ pos, k < 8 →
    ∃ n, 1 ≤ n ∧ n ≤ k + 1 ∧ (berLoop z s (8 * (k + 1)) pos).2 = pos + n ∧
      (∀ j, j + 1 < n → (s (pos + j)).toNat = z.toNat / 256 ^ (k - j) % 256) ∧
      (n < k + 1 → (s (pos + (n - 1))).toNat ≠ z.toNat / 256 ^ (k - (n - 1)) % 256) := by
  induction k with
  | zero =>
    intro pos hk
    refine ⟨1, le_rfl, le_rfl, ?_, fun j hj => by omega, fun h => by omega⟩
    rw [berLoop, dif_pos (by omega)]
    simp
  | succ k ih =>
    intro pos hk
    rw [berLoop, dif_pos (by omega)]
    have hz := zbyte z (k + 1) hk
    have e : 8 * (k + 1 + 1) - 8 = 8 * (k + 1) := by omega
    simp only [e, hz]
    by_cases hd : (s pos).toNat = z.toNat / 256 ^ (k + 1) % 256
    · rw [if_pos ⟨by omega, by omega⟩]
      obtain ⟨n, h1, h2, h3, h4, h5⟩ := ih (pos + 1) (by omega)
      refine ⟨n + 1, by omega, by omega, by rw [h3]; omega, ?_, ?_⟩
      · intro j hj
        rcases Nat.eq_zero_or_pos j with rfl | hj0
        · simpa using hd
        · have := h4 (j - 1) (by omega)
          rw [show pos + 1 + (j - 1) = pos + j by omega, show k - (j - 1) = k + 1 - j by omega] at this
          exact this
      · intro hn
        have := h5 (by omega)
        rw [show pos + 1 + (n - 1) = pos + (n + 1 - 1) by omega,
          show k - (n - 1) = k + 1 - (n + 1 - 1) by omega] at this
        exact this
    · rw [if_neg (by omega)]
      refine ⟨1, le_rfl, by omega, rfl, fun j hj => by omega, fun _ => ?_⟩
      simpa using hd

end Falcon
