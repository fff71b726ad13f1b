import Verif.Proofs.ReduceSharp
import Verif.Props.SignDefined
import Verif.Props.Stuck
import Verif.Props.ReduceRun
import Verif.Props.F64Keygen

/-!
# Property C100: the second row of the secret basis is reduced
-/

namespace Falcon

open Finset Polynomial

theorem abs_of_norm {n : ℕ} (hn : ValidLog n) {F G : Mem ℤ}
    (h : ∑ i ∈ range (2 ^ n), ((F i : ℝ) ^ 2 + (G i : ℝ) ^ 2) ≤ 4400 * (2 ^ n) ^ 2) (i : ℕ) (hi : i < 2 ^ n) :
    |F i| ≤ 67 * 2 ^ n ∧ |G i| ≤ 67 * 2 ^ n := by
  have h1 : (F i : ℝ) ^ 2 + (G i : ℝ) ^ 2 ≤ 4400 * (2 ^ n) ^ 2 :=
    (single_le_sum (f := fun i => (F i : ℝ) ^ 2 + (G i : ℝ) ^ 2) (fun _ _ => by positivity) (mem_range.mpr hi)).trans h
  have h2 : F i ^ 2 + G i ^ 2 ≤ 4400 * (2 ^ n) ^ 2 := by exact_mod_cast h1
  have hN : (0 : ℤ) < 2 ^ n := by positivity
  constructor <;> refine abs_le_of_sq_le_sq ?_ (by positivity) <;> nlinarith [sq_nonneg (F i), sq_nonneg (G i)]

/-- C100: every key that `ntru_gen` returns on IEEE 754 data is reduced: no coefficient of the quotient
(F f* + G g*) / (f f* + g g*) is above 0.51 in absolute value, where 0.5 is what exact rounding would give. Therefore the squared
norm of (F, G) is at most 4400 N², and no coefficient is above 67 N: 34304 for N = 512 and 68608 for N = 1024. -/
theorem C100_keys (b : Bool) (rm rd : F64.Recover) (hrd : F64.NoInvention rd) (fma : Bool) {n : ℕ} (hn : ValidLog n)
    {stream : ℕ → UInt8} {fuel iters : ℕ} {s0 s : Ntru} {pos pos' : ℕ}
    (h : ntruGen (redQuot (f64A b rm rd)) (gsTooBig (f64A b rm rd) n) fma n stream fuel iters s0 pos = some (.ok (s, pos'))) :
    (∃ κ : Mem ℝ, IsQuo n s.f s.g s.F s.G κ ∧ ∀ i, i < 2 ^ n → |κ i| ≤ 51 / 100) ∧
    ∑ i ∈ range (2 ^ n), ((s.F i : ℝ) ^ 2 + (s.G i : ℝ) ^ 2) ≤ 4400 * (2 ^ n) ^ 2 ∧
    ∀ i, i < 2 ^ n → |s.F i| ≤ 67 * 2 ^ n ∧ |s.G i| ≤ 67 * 2 ^ n := by
  have hn10 : n ≤ 10 := by rcases hn with rfl | rfl <;> norm_num
  have H := ntruGen_spec iters s0 pos s pos' h
  have k := key64 hrd hn H
  have hf := abs_of_keyRange H.fRange
  have hg := abs_of_keyRange H.gRange
  have up53 : ∀ {a : Mem ℤ}, (∀ i, i < 2 ^ n → |a i| ≤ 19 * (4096 / 2 ^ n)) → ∀ i, i < 2 ^ n → |a i| ≤ 2 ^ 53 := by
    intro a h i hi
    refine (h i hi).trans ?_
    rcases hn with rfl | rfl <;> norm_num
  have q64 : ∀ {f g F' G' : Mem ℤ}, (∀ i, i < 2 ^ n → f i = s.f i ∧ g i = s.g i) → (∀ i, i < 2 ^ n → |F' i| ≤ 2 ^ 53) →
      (∀ i, i < 2 ^ n → |G' i| ≤ 2 ^ 53) →
      redQuot (f64A b rm rd) n f g F' G' = redQuot (ieeeA b) n f g F' G' := by
    intro f g F' G' e h1 h2
    refine redQuot64 hn10 (fun i hi => ?_) (fun i hi => ?_) h1 h2 fun j hj => ?_
    · rw [(e i hi).1]; exact up53 hf i hi
    · rw [(e i hi).2]; exact up53 hg i hi
    · rw [gsSum_low' _ e]; exact k.sum j hj
  obtain ⟨f, g, F, G, kr, e, hq, hkr⟩ := genOk_exit hn H fun f g F G e eg h => by
    refine solution_small_of (accurate_ieee b) hn (fun i hi => by rw [(e i hi).1]; exact hf i hi)
      (fun i hi => by rw [(e i hi).2]; exact hg i hi) (fun j hj => by rw [eg]; exact k.gram j hj) ?_ h
    intro F' G' kr h1 h2 h3
    rw [← h3]
    exact (q64 e h1 h2).symm
  have s53 : ∀ i, i < 2 ^ n → |s.F i| ≤ 2 ^ 53 ∧ |s.G i| ≤ 2 ^ 53 := fun i hi =>
    ⟨(k.small i hi).1.trans (by norm_num), (k.small i hi).2.trans (by norm_num)⟩
  rw [q64 (fun i hi => ⟨(e i hi).1, (e i hi).2.1⟩) (fun i hi => by rw [(e i hi).2.2.1]; exact (s53 i hi).1)
    (fun i hi => by rw [(e i hi).2.2.2]; exact (s53 i hi).2), redQuot_low _ e] at hq
  obtain ⟨κ, hκ, hb⟩ := reduced_sharp (accurate_ieee b) hn hf hg (fun i hi => (s53 i hi).1) (fun i hi => (s53 i hi).2) k.gram k.eq
    k.norms hq hkr
  have hnorm := solution_norm hn k.eq k.norms (fun j hj => lt_of_lt_of_le one_pos (k.gram j hj)) hκ hb
  exact ⟨⟨κ, hκ, hb⟩, hnorm, abs_of_norm hn hnorm⟩

/-- C100: in exact arithmetic the coefficients of the quotient are strictly between -1/2 and 1/2, and this determines F and G: there
is no other solution of the NTRU equation for this f and g with this property. -/
theorem C100_unique (fma : Bool) {n : ℕ} (hn : ValidLog n) {stream : ℕ → UInt8} {fuel iters : ℕ} {s0 s : Ntru} {pos pos' : ℕ}
    (h : ntruGen (redQuot exactA) (gsTooBig exactA n) fma n stream fuel iters s0 pos = some (.ok (s, pos'))) :
    (∃ κ : Mem ℝ, IsQuo n s.f s.g s.F s.G κ ∧ ∀ i, i < 2 ^ n → |κ i| < 1 / 2) ∧
    (∑ i ∈ range (2 ^ n), ((s.F i : ℝ) ^ 2 + (s.G i : ℝ) ^ 2) ≤ 4400 * (2 ^ n) ^ 2) ∧
    ∀ (F G : Mem ℤ) (κ : Mem ℝ), NtruEq n s.f s.g F G → IsQuo n s.f s.g F G κ → (∀ i, i < 2 ^ n → |κ i| ≤ 1 / 2) →
      ∀ i, i < 2 ^ n → F i = s.F i ∧ G i = s.G i := by
  have hn10 : n ≤ 10 := by rcases hn with rfl | rfl <;> norm_num
  have H := ntruGen_spec iters s0 pos s pos' h
  have hinv := (C38_ntru_gen hn h).2.1
  obtain ⟨i0, hi0, hne⟩ := nonzero_of_inv hinv
  have hD : ∀ j, j < 2 ^ n → 1 ≤ gramAt n s.f s.g j := fun j hj =>
    le_trans (by norm_num) (gs_exact hn ⟨i0, hi0, Or.inl hne⟩ H.gs j hj)
  have hD0 : ∀ j, j < 2 ^ n → 0 < gramAt n s.f s.g j := fun j hj => lt_of_lt_of_le one_pos (hD j hj)
  have hf := abs_of_keyRange H.fRange
  have hg := abs_of_keyRange H.gRange
  obtain ⟨f, g, F, G, kr, e, hq, hkr⟩ := genOk_exit hn H fun f g F G e eg h => solution_small accurate_exact hn
    (fun i hi => by rw [(e i hi).1]; exact hf i hi) (fun i hi => by rw [(e i hi).2]; exact hg i hi)
    (fun j hj => by rw [eg]; exact hD j hj) h
  rw [redQuot_low _ e] at hq
  obtain ⟨κ, hκ⟩ := isQuo_exists hn10 hD0 s.F s.G
  have hb : ∀ i, i < 2 ^ n → |κ i| < 1 / 2 := by
    intro i hi
    have hr := (redQuot_exact hn10 hD0 hq hκ i hi).1
    rw [hkr i hi] at hr
    exact abs_lt.mpr (stdRound_zero_strict hr.symm)
  have heq := (C66_narrowing hn h).1
  refine ⟨⟨κ, hκ, hb⟩, ?_, fun F' G' κ' h' hκ' hb' => ?_⟩
  · exact solution_norm hn heq (gsSmall_exact hn ⟨i0, hi0, Or.inl hne⟩ H.gs) hD0 hκ fun i hi => (hb i hi).le.trans (by norm_num)
  · refine reduced_unique hn10 hinv hD0 heq h' hκ hκ' fun i hi => ?_
    have h1 := abs_lt.mp (hb i hi)
    have h2 := abs_le.mp (hb' i hi)
    rw [abs_lt]
    constructor <;> linarith

/-- C100: on IEEE 754 data the same solution is returned, unless a coefficient of the exact quotient is close to 1/2: a solution whose
quotient has all coefficients below 0.49 in absolute value is the one that `ntru_gen` returns for this f and g. -/
theorem C100_same (b : Bool) (rm rd : F64.Recover) (hrd : F64.NoInvention rd) (fma : Bool) {n : ℕ} (hn : ValidLog n)
    {stream : ℕ → UInt8} {fuel iters : ℕ} {s0 s : Ntru} {pos pos' : ℕ}
    (h : ntruGen (redQuot (f64A b rm rd)) (gsTooBig (f64A b rm rd) n) fma n stream fuel iters s0 pos = some (.ok (s, pos')))
    (F G : Mem ℤ) (κ : Mem ℝ) (heq : NtruEq n s.f s.g F G) (hκ : IsQuo n s.f s.g F G κ)
    (hb : ∀ i, i < 2 ^ n → |κ i| < 49 / 100) : ∀ i, i < 2 ^ n → F i = s.F i ∧ G i = s.G i := by
  have hn10 : n ≤ 10 := by rcases hn with rfl | rfl <;> norm_num
  have k := key64 hrd hn (ntruGen_spec iters s0 pos s pos' h)
  obtain ⟨κ', hκ', hb'⟩ := (C100_keys b rm rd hrd fma hn h).1
  refine reduced_unique hn10 (C38_ntru_gen hn h).2.1 (fun j hj => lt_of_lt_of_le one_pos (k.gram j hj)) k.eq heq hκ' hκ fun i hi => ?_
  have h1 := abs_lt.mp (hb i hi)
  have h2 := abs_le.mp (hb' i hi)
  rw [abs_lt]
  constructor <;> linarith

theorem dft_single (n : ℕ) (a : Mem ℂ) (h : ∀ i, i < 2 ^ n → i ≠ 0 → a i = 0) (j : ℕ) : dft n a j = a 0 := by
  unfold dft
  rw [sum_eq_single_of_mem 0 (mem_range.mpr (by positivity)) fun i hi h0 => by rw [h i (mem_range.mp hi) h0, zero_mul]]
  simp

/-- The hypotheses of `C100_keys` and `C100_same` are met by a run that returns f = 1, g = -104, F = 118, G = 17, with the quotient
-1650 / 10817. -/
example (b : Bool) (rm : F64.Recover) : ∃ stream s pos,
    ntruGen (redQuot (f64A b rm F64.keepNan)) (gsTooBig (f64A b rm F64.keepNan) 9) false 9 stream 3 1 zeroNtru 0 = some (.ok (s, pos)) ∧
    F64.NoInvention F64.keepNan ∧ s.g 0 = -104 ∧ s.F 0 = 118 ∧ NtruEq 9 s.f s.g s.F s.G ∧
    ∃ κ : Mem ℝ, IsQuo 9 s.f s.g s.F s.G κ ∧ κ 0 = -1650 / 10817 ∧ ∀ i, i < 2 ^ 9 → |κ i| < 49 / 100 := by
  obtain ⟨stream, s, pos, h, hs⟩ := const_run_of (const_quot64 b rm F64.keepNan) (const_gs64 b rm F64.keepNan)
  refine ⟨stream, s, pos, h, keepNan_noInvention, (hs 0 (by norm_num)).2.1, (hs 0 (by norm_num)).2.2.1,
    (C76_keys b rm _ keepNan_noInvention false (Or.inl rfl) h).1, fun i => if i = 0 then -1650 / 10817 else 0, ?_, if_pos rfl, ?_⟩
  · rw [isQuo_iff]
    refine modEq_of_evals (by norm_num) fun j hj => ?_
    simp only [eval_mul, eval_add, ← dft_poly, dft_adj (show 9 ≤ 10 by norm_num) _ j hj]
    have c : ∀ {a : Mem ℤ} {x : ℤ}, (∀ i, i < 2 ^ 9 → a i = constMem x i) → dft 9 (zC a) j = x := by
      intro a x ha
      rw [dft_single]
      · unfold zC; rw [ha 0 (by norm_num)]; rfl
      · intro i hi h0
        unfold zC
        rw [ha i hi]
        unfold constMem
        rw [if_neg h0]
        simp
    rw [c fun i hi => (hs i hi).1, c fun i hi => (hs i hi).2.1, c fun i hi => (hs i hi).2.2.1, c fun i hi => (hs i hi).2.2.2,
      dft_single _ _ fun i _ h0 => by simp [h0]]
    simp only [if_true, map_intCast]
    push_cast
    norm_num
  · intro i _
    beta_reduce
    split
    · rw [abs_lt]; constructor <;> norm_num
    · norm_num

/-- The hypothesis of `C100_unique` is met. -/
example : ∃ stream s pos, ntruGen (redQuot exactA) (gsTooBig exactA 9) false 9 stream 3 1 zeroNtru 0 = some (.ok (s, pos)) ∧
    s.g 0 = -104 ∧ s.F 0 = 118 := by
  obtain ⟨stream, s, pos, h, hs⟩ := const_run accurate_exact const_gs_exact
  exact ⟨stream, s, pos, h, (hs 0 (by norm_num)).2.1, (hs 0 (by norm_num)).2.2.1⟩

end Falcon
