import Verif.SamplerSpec
import Mathlib.Tactic.Ring
import Mathlib.Tactic.NormNum
import Mathlib.Tactic.IntervalCases
import Mathlib.Tactic.Linarith

/-! # Proofs about 72-bit arithmetic and the integer part of the sampler -/

namespace Falcon

theorem flg64_toNat (b : Bool) : (flg64 b).toNat = if b then 1 else 0 := by cases b <;> rfl

theorem and_ff_toNat (x : UInt64) : (x &&& 0xff).toNat = x.toNat % 256 := by
  have := Nat.and_two_pow_sub_one_eq_mod x.toNat 8
  simpa using this

namespace U72

theorem add_spec (a b : U72) (ha : a.Valid) (hb : b.Valid) :
    (add a b).Valid ∧ (add a b).val = (a.val + b.val) % 2 ^ 72 := by
  unfold Valid val add at *
  simp only [and_ff_toNat, UInt64.toNat_add, flg64_toNat, decide_eq_true_eq, gt_iff_lt,
    UInt64.lt_iff_toNat_lt]
  have h1 : (0xffffffffffffffff - b.lo : UInt64).toNat = 2 ^ 64 - 1 - b.lo.toNat := by
    rw [UInt64.toNat_sub_of_le]
    · rfl
    · rw [UInt64.le_iff_toNat_le]
      have := b.lo.toNat_lt
      have h2 : (0xffffffffffffffff : UInt64).toNat = 2 ^ 64 - 1 := rfl
      omega
  rw [h1]
  have := a.lo.toNat_lt
  have := b.lo.toNat_lt
  split <;> omega

theorem sub_spec (a b : U72) (_ha : a.Valid) (hb : b.Valid) :
    (sub a b).Valid ∧ (sub a b).val = (a.val + (2 ^ 72 - b.val)) % 2 ^ 72 := by
  unfold Valid val sub at *
  simp only [and_ff_toNat, UInt64.toNat_sub, UInt64.toNat_add, flg64_toNat, decide_eq_true_eq,
    UInt64.lt_iff_toNat_lt]
  have := a.lo.toNat_lt
  have := b.lo.toNat_lt
  split <;> omega

theorem gt_spec (a b : U72) : gt a b = decide (b.val < a.val) := by
  unfold gt val
  have := a.lo.toNat_lt
  have := b.lo.toNat_lt
  rw [Bool.eq_iff_iff]
  simp only [Bool.or_eq_true, Bool.and_eq_true, decide_eq_true_eq, Bool.not_eq_true', beq_iff_eq,
    decide_eq_false_iff_not, beq_eq_false_iff_ne, ne_eq, UInt64.lt_iff_toNat_lt, gt_iff_lt,
    ← UInt64.toNat_inj]
  omega

end U72

theorem leVal_lt (n : ℕ) (b : Mem UInt8) : leVal n b < 256 ^ n := by
  induction n with
  | zero => simp [leVal]
  | succ n ih =>
    rw [leVal, pow_succ]
    have := (b n).toNat_lt
    have : 0 < 256 ^ n := by positivity
    nlinarith

theorem or_shift (x y k : ℕ) (hx : x < 2 ^ k) : x ||| (y <<< k) = x + y * 2 ^ k := by
  rw [Nat.or_comm, ← Nat.shiftLeft_add_eq_or_of_lt hx, Nat.shiftLeft_eq]
  omega

theorem fromLe_lo (b : Mem UInt8) (n : ℕ) (hn : n ≤ 8) :
    (loop n (fun i lo => lo ||| ((b i).toUInt64 <<< UInt64.ofNat (i * 8))) (0 : UInt64)).toNat
      = leVal n b := by
  induction n with
  | zero => rfl
  | succ n ih =>
    rw [loop_succ, UInt64.toNat_or, ih (by omega), leVal]
    have hb := (b n).toNat_lt
    have h1 : ((b n).toUInt64 <<< UInt64.ofNat (n * 8)).toNat = (b n).toNat <<< (8 * n) := by
      rw [UInt64.toNat_shiftLeft]
      have : (UInt64.ofNat (n * 8)).toNat % 64 = 8 * n := by
        rw [UInt64.toNat_ofNat']
        omega
      rw [this, Nat.shiftLeft_eq, Nat.shiftLeft_eq, UInt8.toNat_toUInt64, Nat.mod_eq_of_lt]
      have h2 : (2 : ℕ) ^ (8 * n) * 256 ≤ 2 ^ 64 := by
        have : (2 : ℕ) ^ (8 * n) * 256 = 2 ^ (8 * n + 8) := by rw [pow_add]; norm_num
        rw [this]
        exact Nat.pow_le_pow_right (by norm_num) (by omega)
      have h3 : 0 < (2 : ℕ) ^ (8 * n) := by positivity
      nlinarith
    rw [h1, or_shift _ _ _ (by
      have := leVal_lt n b
      rwa [show (256 : ℕ) = 2 ^ 8 by norm_num, ← pow_mul] at this)]
    rw [show (256 : ℕ) = 2 ^ 8 by norm_num, ← pow_mul]

namespace U72

theorem fromLe_spec (b : Mem UInt8) : (fromLe b).Valid ∧ (fromLe b).val = leVal 9 b := by
  have h := fromLe_lo b 8 le_rfl
  have h8 := (b 8).toNat_lt
  constructor
  · unfold Valid fromLe
    simpa using h8
  · unfold val fromLe
    simp only [h, leVal, UInt8.toNat_toUInt64]
    omega

theorem or8_rev (t : ℕ → UInt64) : loop 8 (fun i lo => lo ||| t (7 - i)) (0 : UInt64)
    = loop 8 (fun i lo => lo ||| t i) 0 := by
  show 0 ||| t 7 ||| t 6 ||| t 5 ||| t 4 ||| t 3 ||| t 2 ||| t 1 ||| t 0
    = 0 ||| t 0 ||| t 1 ||| t 2 ||| t 3 ||| t 4 ||| t 5 ||| t 6 ||| t 7
  generalize t 0 = a0
  generalize t 1 = a1
  generalize t 2 = a2
  generalize t 3 = a3
  generalize t 4 = a4
  generalize t 5 = a5
  generalize t 6 = a6
  generalize t 7 = a7
  ac_rfl

theorem fromBe_lo (b : Mem UInt8) :
    loop 8 (fun i lo => lo ||| ((b (1 + i)).toUInt64 <<< UInt64.ofNat ((7 - i) * 8))) (0 : UInt64)
      = loop 8 (fun i lo => lo ||| ((b (8 - i)).toUInt64 <<< UInt64.ofNat (i * 8))) 0 := by
  rw [← or8_rev (fun i => (b (8 - i)).toUInt64 <<< UInt64.ofNat (i * 8))]
  refine loop_congr fun i hi t => ?_
  show _ = t ||| ((b (8 - (7 - i))).toUInt64 <<< UInt64.ofNat ((7 - i) * 8))
  rw [show 8 - (7 - i) = 1 + i by omega]

theorem fromBe_eq (b : Mem UInt8) : fromBe b = fromLe (fun i => b (8 - i)) := by
  unfold fromBe fromLe
  rw [fromBe_lo]

theorem fromBe_spec (b : Mem UInt8) :
    (fromBe b).Valid ∧ (fromBe b).val = leVal 9 (fun i => b (8 - i)) := by
  rw [fromBe_eq]; exact fromLe_spec _

theorem byte_of (x : UInt64) (i : ℕ) (hi : i < 8) :
    (x >>> UInt64.ofNat (i * 8)).toUInt8.toNat = x.toNat / 256 ^ i % 256 := by
  have : (UInt64.ofNat (i * 8)).toNat % 64 = 8 * i := by
    rw [UInt64.toNat_ofNat']
    omega
  rw [UInt64.toNat_toUInt8, UInt64.toNat_shiftRight, this, Nat.shiftRight_eq_div_pow,
    show (256 : ℕ) = 2 ^ 8 by norm_num, ← pow_mul]

theorem toLe_get (a : U72) (ha : a.Valid) (i : ℕ) (hi : i < 9) :
    (toLe a i).toNat = a.val / 256 ^ i % 256 := by
  unfold toLe
  have key : ∀ n, ∀ j, (loop n (fun i res => upd res i (a.lo >>> UInt64.ofNat (i * 8)).toUInt8)
      (fun _ => (0 : UInt8))) j = if j < n then (a.lo >>> UInt64.ofNat (j * 8)).toUInt8 else 0 := by
    intro n
    induction n with
    | zero => intro j; simp
    | succ n ih =>
      intro j
      rw [loop_succ]
      by_cases h : j = n
      · subst h; simp
      · rw [upd_ne _ _ _ _ h, ih]
        have : j < n + 1 ↔ j < n := by omega
        simp [this]
  have hlo := a.lo.toNat_lt
  unfold Valid at ha
  unfold val
  by_cases h8 : i = 8
  · subst h8
    rw [upd_same, UInt64.toNat_toUInt8]
    omega
  · rw [upd_ne _ _ _ _ h8, key, if_pos (by omega), byte_of _ _ (by omega)]
    have : i < 8 := by omega
    interval_cases i <;> omega

theorem toBe_eq (a : U72) (i : ℕ) (hi : i < 9) : toBe a i = toLe a (8 - i) := by
  unfold toBe toLe
  simp only [loop_succ, loop_zero, Nat.reduceAdd, Nat.reduceSub, Nat.reduceMul]
  interval_cases i <;> rfl

theorem toBe_get (a : U72) (ha : a.Valid) (i : ℕ) (hi : i < 9) :
    (toBe a i).toNat = a.val / 256 ^ (8 - i) % 256 := by
  rw [toBe_eq a i hi, toLe_get a ha _ (by omega)]

end U72

theorem leVal_digit (n : ℕ) (b : Mem UInt8) (i : ℕ) (hi : i < n) :
    leVal n b / 256 ^ i % 256 = (b i).toNat := by
  induction n with
  | zero => omega
  | succ n ih =>
    rw [leVal]
    by_cases h : i = n
    · subst h
      rw [Nat.add_mul_div_right _ _ (by positivity), Nat.div_eq_of_lt (leVal_lt _ _)]
      have := (b i).toNat_lt
      omega
    · have hin : i < n := by omega
      obtain ⟨d, rfl⟩ : ∃ d, n = i + 1 + d := ⟨n - i - 1, by omega⟩
      have h2 : leVal (i + 1 + d) b + (b (i + 1 + d)).toNat * 256 ^ (i + 1 + d)
          = leVal (i + 1 + d) b + ((b (i + 1 + d)).toNat * 256 ^ d * 256) * 256 ^ i := by
        rw [pow_add, pow_succ]; ring
      rw [h2, Nat.add_mul_div_right _ _ (by positivity), Nat.add_mul_mod_self_right, ih hin]

theorem leVal_of_digits (n v : ℕ) (b : Mem UInt8) (hv : v < 256 ^ n)
    (h : ∀ i, i < n → (b i).toNat = v / 256 ^ i % 256) : leVal n b = v := by
  have key : ∀ m, m ≤ n → leVal m b = v % 256 ^ m := by
    intro m
    induction m with
    | zero => intro _; simp [leVal, Nat.mod_one]
    | succ m ih =>
      intro hm
      rw [leVal, ih (by omega), h m (by omega), pow_succ, Nat.mod_mul]
      ring
  rw [key n le_rfl, Nat.mod_eq_of_lt hv]

/-! ## Multiplication -/

theorem u64_and32 (x : UInt64) : (x &&& 0xffffffff).toNat = x.toNat % 2 ^ 32 := by
  have := Nat.and_two_pow_sub_one_eq_mod x.toNat 32
  simpa using this

theorem u64_shr32 (x : UInt64) : (x >>> 32).toNat = x.toNat / 2 ^ 32 := by
  rw [UInt64.toNat_shiftRight, Nat.shiftRight_eq_div_pow]
  rfl

theorem u64_shl32 (x : UInt64) : (x <<< 32).toNat = x.toNat * 2 ^ 32 % 2 ^ 64 := by
  rw [UInt64.toNat_shiftLeft, Nat.shiftLeft_eq]
  rfl

theorem fullMul_spec (a b : UInt64) :
    (fullMulU64 a b).1.toNat * 2 ^ 64 + (fullMulU64 a b).2.toNat = a.toNat * b.toNat := by
  obtain ⟨ah, hah⟩ : ∃ x, x = a.toNat / 2 ^ 32 := ⟨_, rfl⟩
  obtain ⟨al, hal⟩ : ∃ x, x = a.toNat % 2 ^ 32 := ⟨_, rfl⟩
  obtain ⟨bh, hbh⟩ : ∃ x, x = b.toNat / 2 ^ 32 := ⟨_, rfl⟩
  obtain ⟨bl, hbl⟩ : ∃ x, x = b.toNat % 2 ^ 32 := ⟨_, rfl⟩
  have ha := a.toNat_lt
  have hb := b.toNat_lt
  have h1 : a.toNat = ah * 2 ^ 32 + al := by omega
  have h2 : b.toNat = bh * 2 ^ 32 + bl := by omega
  have bah : ah ≤ 2 ^ 32 - 1 := by omega
  have bal : al ≤ 2 ^ 32 - 1 := by omega
  have bbh : bh ≤ 2 ^ 32 - 1 := by omega
  have bbl : bl ≤ 2 ^ 32 - 1 := by omega
  unfold fullMulU64
  simp only [UInt64.toNat_add, UInt64.toNat_mul, u64_and32, u64_shr32, u64_shl32]
  rw [← hah, ← hal, ← hbh, ← hbl]
  have e1 : ah * bh ≤ (2 ^ 32 - 1) * (2 ^ 32 - 1) := Nat.mul_le_mul bah bbh
  have e2 : ah * bl ≤ (2 ^ 32 - 1) * (2 ^ 32 - 1) := Nat.mul_le_mul bah bbl
  have e3 : al * bh ≤ (2 ^ 32 - 1) * (2 ^ 32 - 1) := Nat.mul_le_mul bal bbh
  have e4 : al * bl ≤ (2 ^ 32 - 1) * (2 ^ 32 - 1) := Nat.mul_le_mul bal bbl
  have e5 : a.toNat * b.toNat = ah * bh * 2 ^ 64 + (ah * bl + al * bh) * 2 ^ 32 + al * bl := by
    rw [h1, h2]; ring
  rw [e5]
  generalize ah * bh = p at *
  generalize ah * bl = m0 at *
  generalize al * bh = m1 at *
  generalize al * bl = l at *
  have : a.toNat * b.toNat < 2 ^ 128 := by
    calc a.toNat * b.toNat ≤ (2 ^ 64 - 1) * (2 ^ 64 - 1) := Nat.mul_le_mul (by omega) (by omega)
      _ < 2 ^ 128 := by norm_num
  rw [e5] at this
  clear e5 h1 h2 hah hal hbh hbl ha hb
  omega

theorem top63_spec (v : UInt64 × UInt64) (h : v.1.toNat * 2 ^ 64 + v.2.toNat < 2 ^ 126) :
    (top63Bits v).toNat = (v.1.toNat * 2 ^ 64 + v.2.toNat) / 2 ^ 63 := by
  unfold top63Bits
  have h2 := v.2.toNat_lt
  have hm : (v.1 &&& (((1 : UInt64) <<< 62) - 1)).toNat = v.1.toNat % 2 ^ 62 := by
    have := Nat.and_two_pow_sub_one_eq_mod v.1.toNat 62
    rw [UInt64.toNat_and]
    exact this
  have hs : ((v.1 &&& (((1 : UInt64) <<< 62) - 1)) <<< 1).toNat = (v.1.toNat % 2 ^ 62) <<< 1 := by
    rw [UInt64.toNat_shiftLeft, hm]
    show (v.1.toNat % 2 ^ 62) <<< 1 % 2 ^ 64 = _
    rw [Nat.shiftLeft_eq]
    omega
  have hr : (v.2 >>> 63).toNat = v.2.toNat / 2 ^ 63 := by
    rw [UInt64.toNat_shiftRight, Nat.shiftRight_eq_div_pow]; rfl
  rw [UInt64.toNat_or, hs, hr, Nat.or_comm, or_shift _ _ _ (by omega)]
  omega

end Falcon
