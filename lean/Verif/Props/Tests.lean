import Verif.Proofs.CheckNtru64
import Verif.Props.OneShotFloat
import Verif.Props.Reduced

/-!
# Property C101: the check of the NTRU equation in the tests of key generation
-/

namespace Falcon

open Finset Polynomial

theorem nC_zC_le {n : ℕ} {a : Mem ℤ} {α : ℕ} (h : ∑ i ∈ range (2 ^ n), a i ^ 2 ≤ (α : ℤ) ^ 2) : nC (2 ^ n) (zC a) ≤ α := by
  refine abs_le_of_sq_le_sq' ?_ (Nat.cast_nonneg α) |>.2
  rw [nC_sq]
  have e : ∑ i ∈ range (2 ^ n), ‖zC a i‖ ^ 2 = ((∑ i ∈ range (2 ^ n), a i ^ 2 : ℤ) : ℝ) := by
    push_cast
    refine sum_congr rfl fun i _ => ?_
    unfold zC
    rw [Complex.norm_intCast, sq_abs]
  rw [e]
  exact_mod_cast h

/-- C101: in every accurate arithmetic `check_ntru_eq` decides the NTRU equation, without undefined behaviour, for all f, g of norm at
most α and F, G of norm at most β, where α ≤ 2^10, β ≤ 2^17 and α β ≤ 2^24. -/
theorem C101_decides {A : Arith ℝ ℂ} (hA : Accurate A) {n : ℕ} (hn : ValidLog n) {f g F G : Mem ℤ} {α β : ℕ} (hα : α ≤ 2 ^ 10)
    (hβ : β ≤ 2 ^ 17) (hαβ : α * β ≤ 2 ^ 24) (hf : ∑ i ∈ range (2 ^ n), f i ^ 2 ≤ (α : ℤ) ^ 2)
    (hg : ∑ i ∈ range (2 ^ n), g i ^ 2 ≤ (α : ℤ) ^ 2) (hF : ∑ i ∈ range (2 ^ n), F i ^ 2 ≤ (β : ℤ) ^ 2)
    (hG : ∑ i ∈ range (2 ^ n), G i ^ 2 ≤ (β : ℤ) ^ 2) :
    ∃ r, checkNtruEq A n f g F G = .ok r ∧ (r = true ↔ NtruEq n f g F G) :=
  checkNtruEq_decides hA hn (Nat.cast_nonneg α) (Nat.cast_nonneg β) (by exact_mod_cast hαβ) (by exact_mod_cast hα) (by exact_mod_cast hβ)
    (nC_zC_le hf) (nC_zC_le hg) (nC_zC_le hF) (nC_zC_le hG)

theorem abs_le_of_sum {n : ℕ} {a : Mem ℤ} {α : ℕ} (h : ∑ i ∈ range (2 ^ n), a i ^ 2 ≤ (α : ℤ) ^ 2) (i : ℕ) (hi : i < 2 ^ n) :
    |a i| ≤ α :=
  abs_le_of_sq_le_sq ((single_le_sum (f := fun i => a i ^ 2) (fun _ _ => sq_nonneg _) (mem_range.mpr hi)).trans h)
    (Int.natCast_nonneg α)

/-- C101: the same on IEEE 754 data. -/
theorem C101_decides64 (b : Bool) (rm rd : F64.Recover) {n : ℕ} (hn : ValidLog n) {f g F G : Mem ℤ} {α β : ℕ} (hα : α ≤ 2 ^ 10)
    (hβ : β ≤ 2 ^ 17) (hαβ : α * β ≤ 2 ^ 24) (hf : ∑ i ∈ range (2 ^ n), f i ^ 2 ≤ (α : ℤ) ^ 2)
    (hg : ∑ i ∈ range (2 ^ n), g i ^ 2 ≤ (α : ℤ) ^ 2) (hF : ∑ i ∈ range (2 ^ n), F i ^ 2 ≤ (β : ℤ) ^ 2)
    (hG : ∑ i ∈ range (2 ^ n), G i ^ 2 ≤ (β : ℤ) ^ 2) :
    ∃ r, checkNtruEq (f64A b rm rd) n f g F G = .ok r ∧ (r = true ↔ NtruEq n f g F G) := by
  have hn10 : n ≤ 10 := by rcases hn with rfl | rfl <;> norm_num
  have hα' : (α : ℤ) ≤ 2 ^ 17 := by exact_mod_cast hα.trans (by norm_num)
  have hβ' : (β : ℤ) ≤ 2 ^ 17 := by exact_mod_cast hβ
  rw [checkNtruEq64 (sim_f64 b rm rd) hn10 fun i hi => ⟨(abs_le_of_sum hf i hi).trans hα', (abs_le_of_sum hg i hi).trans hα',
    (abs_le_of_sum hF i hi).trans hβ', (abs_le_of_sum hG i hi).trans hβ'⟩]
  exact C101_decides (accurate_ieee b) hn hα hβ hαβ hf hg hF hG

theorem sum_left {n : ℕ} {a b : Mem ℤ} {x : ℝ} {α : ℕ} (h : ∑ i ∈ range (2 ^ n), ((a i : ℝ) ^ 2 + (b i : ℝ) ^ 2) ≤ x)
    (hx : x ≤ (α : ℝ) ^ 2) : ∑ i ∈ range (2 ^ n), a i ^ 2 ≤ (α : ℤ) ^ 2 ∧ ∑ i ∈ range (2 ^ n), b i ^ 2 ≤ (α : ℤ) ^ 2 := by
  rw [sum_add_distrib] at h
  have h1 : 0 ≤ ∑ i ∈ range (2 ^ n), (a i : ℝ) ^ 2 := sum_nonneg fun _ _ => sq_nonneg _
  have h2 : 0 ≤ ∑ i ∈ range (2 ^ n), (b i : ℝ) ^ 2 := sum_nonneg fun _ _ => sq_nonneg _
  constructor
  · have : ((∑ i ∈ range (2 ^ n), a i ^ 2 : ℤ) : ℝ) ≤ ((α ^ 2 : ℤ) : ℝ) := by push_cast; linarith
    exact_mod_cast this
  · have : ((∑ i ∈ range (2 ^ n), b i ^ 2 : ℤ) : ℝ) ≤ ((α ^ 2 : ℤ) : ℝ) := by push_cast; linarith
    exact_mod_cast this

/-- C101: the test of `ntru_gen` never fails: whenever `ntru_gen` returns on IEEE 754 data, the check of the test is defined and true. -/
theorem C101_test_ntru_gen (b : Bool) (rm rd : F64.Recover) (hrd : F64.NoInvention rd) (fma : Bool) {n : ℕ} (hn : ValidLog n)
    (stream : ℕ → UInt8) (fuel iters : ℕ) (junk : Ntru) {s : Ntru} {pos : ℕ}
    (h : ntruGen (redQuot (f64A b rm rd)) (gsTooBig (f64A b rm rd) n) fma n stream fuel iters junk 0 = some (.ok (s, pos))) :
    testNtruGen (f64A b rm rd) fma n stream fuel iters junk = some (.ok true) := by
  obtain ⟨-, h2, -⟩ := C100_keys b rm rd hrd fma hn h
  obtain ⟨heq, -, -, hgs⟩ := C76_keys b rm rd hrd fma hn h
  obtain ⟨a1, a2⟩ := sum_left (α := 130) hgs.1 (by norm_num)
  obtain ⟨b1, b2⟩ := sum_left (α := 67 * 2 ^ n) h2 (by
    push_cast
    rw [mul_pow]
    have : (0 : ℝ) ≤ (2 ^ n) ^ 2 := by positivity
    nlinarith)
  obtain ⟨r, hr, hi⟩ := C101_decides64 b rm rd hn (α := 130) (β := 67 * 2 ^ n) (by norm_num)
    (by rcases hn with rfl | rfl <;> norm_num) (by rcases hn with rfl | rfl <;> norm_num) a1 a2 b1 b2
  unfold testNtruGen
  rw [h]
  show some (checkNtruEq _ n s.f s.g s.F s.G) = _
  rw [hr, hi.mpr heq]

theorem fits_sums {n : ℕ} (hn : ValidLog n) {f g F G : Mem ℤ} (h : FitsFormat n f g F G) :
    ∑ i ∈ range (2 ^ n), f i ^ 2 ≤ ((702 : ℕ) : ℤ) ^ 2 ∧ ∑ i ∈ range (2 ^ n), g i ^ 2 ≤ ((702 : ℕ) : ℤ) ^ 2 ∧
    ∑ i ∈ range (2 ^ n), F i ^ 2 ≤ ((4064 : ℕ) : ℤ) ^ 2 ∧ ∑ i ∈ range (2 ^ n), G i ^ 2 ≤ ((4064 : ℕ) : ℤ) ^ 2 := by
  have key : ∀ {a : Mem ℤ} {k : ℤ}, 0 ≤ k → (∀ i, i < 2 ^ n → |a i| ≤ k) → ∑ i ∈ range (2 ^ n), a i ^ 2 ≤ 2 ^ n * k ^ 2 := by
    intro a k hk ha
    refine (sum_le_card_nsmul _ _ (k ^ 2) fun i hi => ?_).trans (le_of_eq ?_)
    · rw [← sq_abs]
      have := ha i (mem_range.mp hi)
      have := abs_nonneg (a i)
      gcongr
    · rw [card_range, nsmul_eq_mul]; push_cast; ring
  have hK : (0 : ℤ) ≤ if n = 9 then 31 else 15 := by split <;> norm_num
  have b1 : (2 ^ n * (if n = 9 then 31 else 15) ^ 2 : ℤ) ≤ ((702 : ℕ) : ℤ) ^ 2 := by rcases hn with rfl | rfl <;> norm_num
  have b2 : (2 ^ n * 127 ^ 2 : ℤ) ≤ ((4064 : ℕ) : ℤ) ^ 2 := by rcases hn with rfl | rfl <;> norm_num
  exact ⟨(key hK fun i hi => (h i hi).1).trans b1, (key hK fun i hi => (h i hi).2.1).trans b1,
    (key (by norm_num) fun i hi => (h i hi).2.2.1).trans b2, (key (by norm_num) fun i hi => (h i hi).2.2.2).trans b2⟩

/-- C101: encoding a key that fits the format and whose f is not nearly zero at one of the points, decoding it, recomputing G and
checking the NTRU equation on IEEE 754 data gives back G and an equation that holds, whatever the output buffers held. -/
theorem C101_test_format (b : Bool) (rm rd : F64.Recover) {n : ℕ} (hn : ValidLog n) (s : Ntru) (junk' : FgF) (junkG : Mem ℤ)
    (skey : Mem UInt8) (heq : NtruEq n s.f s.g s.F s.G) (hfit : FitsFormat n s.f s.g s.F s.G)
    (hf0 : ∀ j, j < 2 ^ n → 1 / 2 ^ 10 ≤ ‖dft n (zC s.f) j‖) :
    testKeyFormat (f64A b rm rd) n s junk' junkG skey = .ok (true, true) := by
  obtain ⟨-, c2, -⟩ := C12_skey_roundtrip hn s.f s.g s.F skey junk' (skInRange_of_fits hn hfit)
  have hG := recomputeG_float (accurate_ieee b) hn heq hfit hf0 junkG
  rw [← recomputeG64 (sim_f64 b rm rd) (accurate_ieee b) hn hfit hf0] at hG
  obtain ⟨G', g1, g2⟩ := recomputeG_congr (f64A b rm rd) n junkG junkG c2 hG
  have g3 : ∀ i, i < 2 ^ n → G' i = s.G i := fun i hi => by rw [g2 i hi, if_pos hi]
  set k := (decodeSkey n (encodeSkey n s.f s.g s.F skey) junk').2
  have hfit' : FitsFormat n k.f k.g k.F G' := fun i hi => by
    rw [(c2 i hi).1, (c2 i hi).2.1, (c2 i hi).2.2, g3 i hi]; exact hfit i hi
  have heq' : NtruEq n k.f k.g k.F G' := by
    have e1 : polyZ (2 ^ n) k.f = polyZ (2 ^ n) s.f := toPoly_congr fun i hi => (c2 i hi).1
    have e2 : polyZ (2 ^ n) k.g = polyZ (2 ^ n) s.g := toPoly_congr fun i hi => (c2 i hi).2.1
    have e3 : polyZ (2 ^ n) k.F = polyZ (2 ^ n) s.F := toPoly_congr fun i hi => (c2 i hi).2.2
    have e4 : polyZ (2 ^ n) G' = polyZ (2 ^ n) s.G := toPoly_congr g3
    unfold NtruEq
    rw [e1, e2, e3, e4]
    exact heq
  obtain ⟨s1, s2, s3, s4⟩ := fits_sums hn hfit'
  obtain ⟨r, hr, hi⟩ := C101_decides64 b rm rd hn (α := 702) (β := 4064) (by norm_num) (by norm_num) (by norm_num) s1 s2 s3 s4
  unfold testKeyFormat
  show (recomputeG _ n k.f k.g k.F junkG).bind _ = _
  rw [g1]
  show (checkNtruEq _ n k.f k.g k.F G').bind _ = _
  rw [hr, hi.mpr heq']
  show Except.ok (true, loop (1 <<< n) (fun i b => b && (s.G i == G' i)) true) = _
  have hl : ∀ m, m ≤ 2 ^ n → loop m (fun i b => b && (s.G i == G' i)) true = true := by
    intro m
    induction m with
    | zero => intro _; rfl
    | succ m ih =>
      intro hm
      show (loop m _ true && (s.G m == G' m)) = true
      rw [ih (by omega), g3 m (by omega)]
      simp
  rw [one_shiftLeft', hl _ le_rfl]

/-- C101: the test of key generation never fails when the key fits the format and f is not nearly zero at one of the points. -/
theorem C101_test_keygen (b : Bool) (rm rd : F64.Recover) (hrd : F64.NoInvention rd) (fma : Bool) {n : ℕ} (hn : ValidLog n)
    (stream : ℕ → UInt8) (fuel iters : ℕ) (junk : Ntru) (junk' : FgF) (junkG : Mem ℤ) (skey : Mem UInt8) {s : Ntru} {pos : ℕ}
    (h : ntruGen (redQuot (f64A b rm rd)) (gsTooBig (f64A b rm rd) n) fma n stream fuel iters junk 0 = some (.ok (s, pos)))
    (hfit : FitsFormat n s.f s.g s.F s.G) (hf0 : ∀ j, j < 2 ^ n → 1 / 2 ^ 10 ≤ ‖dft n (zC s.f) j‖) :
    testKeygen (f64A b rm rd) fma n stream fuel iters junk junk' junkG skey = some (.ok (true, true)) := by
  unfold testKeygen
  rw [h]
  exact congrArg some (C101_test_format b rm rd hn s junk' junkG skey (C76_keys b rm rd hrd fma hn h).1 hfit hf0)

/-- A run of the test of `ntru_gen` that returns, with a key in which no polynomial is zero. -/
example (b : Bool) (rm : F64.Recover) : ∃ stream, testNtruGen (f64A b rm F64.keepNan) false 9 stream 3 1 zeroNtru = some (.ok true) := by
  obtain ⟨stream, s, pos, h, -⟩ := const_run_of (const_quot64 b rm F64.keepNan) (const_gs64 b rm F64.keepNan)
  exact ⟨stream, C101_test_ntru_gen b rm _ keepNan_noInvention false (Or.inl rfl) stream 3 1 zeroNtru h⟩

/-- A key with two coefficients in every polynomial meets the hypotheses of `C101_test_format`. -/
example (b : Bool) (rm rd : F64.Recover) (junk' : FgF) (junkG : Mem ℤ) (skey : Mem UInt8) :
    testKeyFormat (f64A b rm rd) 9 ⟨twoMem 30 (-31), twoMem 25 (-24), twoMem (-95) (-107), twoMem 125 116⟩ junk' junkG skey
      = .ok (true, true) :=
  C101_test_format b rm rd (Or.inl rfl) _ junk' junkG skey smallKey.1 smallKey.2 smallKey_point

/-- The sizes of `C101_decides` are met by f = 1, g = 0, F = 0, G = 12289, for which the equation holds. -/
example : NtruEq 9 (constMem 1) (constMem 0) (constMem 0) (constMem 12289) ∧ ∑ i ∈ range (2 ^ 9), constMem 1 i ^ 2 ≤ ((1 : ℕ) : ℤ) ^ 2 ∧
    ∑ i ∈ range (2 ^ 9), constMem 12289 i ^ 2 ≤ ((12289 : ℕ) : ℤ) ^ 2 := by
  have key : ∀ x : ℤ, ∑ i ∈ range (2 ^ 9), constMem x i ^ 2 = x ^ 2 := fun x => by
    rw [sum_eq_single_of_mem 0 (mem_range.mpr (by norm_num)) fun i _ h0 => by simp [constMem, h0]]
    simp [constMem]
  refine ⟨?_, by rw [key]; norm_num, by rw [key]; norm_num⟩
  have c : ∀ x : ℤ, polyZ (2 ^ 9) (constMem x) = C x := fun x => by
    unfold polyZ toPoly
    rw [sum_eq_single_of_mem 0 (mem_range.mpr (by norm_num)) fun i _ h0 => by simp [constMem, h0]]
    simp [constMem]
  unfold NtruEq
  rw [c, c, c]
  exact ⟨0, by simp⟩

end Falcon
