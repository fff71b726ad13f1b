import Verif.Props.Reduce
import Verif.Proofs.ConstRun

/-!
# The hypotheses of C66 are met: a run of key generation in exact arithmetic and in binary64

f = 1, g = -104, F = 118, G = 17, N = 512.
-/

namespace Falcon

open Finset Polynomial

theorem const_gram {f g : Mem ℤ} (hf : ∀ i, i < 2 ^ 9 → f i = constMem 1 i) (hg : ∀ i, i < 2 ^ 9 → g i = constMem (-104) i) (j : ℕ) :
    gramAt 9 f g j = 10817 := by
  have d : ∀ {a : Mem ℤ} {x : ℤ}, IsConst 9 a x → dft 9 (zC a) j = (x : ℂ) := fun h => dft_cst _ j h.zC
  unfold gramAt
  rw [d hf, d hg, Complex.normSq_intCast, Complex.normSq_intCast]
  norm_num

/-- The hypothesis of `C66_quotient` is met, and the quotient is not an integer: for f = 1, g = -104, F = 1000, G = 0 it is
1000 / 10817. -/
example : (∃ i, i < 2 ^ 9 ∧ (constMem 1 i ≠ 0 ∨ constMem (-104) i ≠ 0)) ∧
    IsQuo 9 (constMem 1) (constMem (-104)) (constMem 1000) (constMem 0) (fun i => if i = 0 then 1000 / 10817 else 0) := by
  refine ⟨⟨0, by norm_num, Or.inl (by simp [constMem])⟩, ?_⟩
  have hc : ∀ x : ℤ, polyR 9 (constMem x) = C (x : ℝ) := by
    intro x
    unfold polyR toPoly constMem
    rw [Finset.sum_eq_single 0]
    · simp
    · intro i _ hi; simp [hi]
    · intro h; exact absurd (Finset.mem_range.mpr (by norm_num)) h
  have ha : ∀ x : ℤ, polyR 9 (adjZ 9 (constMem x)) = C (x : ℝ) := by
    intro x
    rw [← hc x]
    unfold polyR
    refine toPoly_congr fun i hi => ?_
    unfold adjZ constMem
    by_cases h : i = 0
    · simp [h]
    · rw [if_neg h, if_neg h, if_neg (by omega)]; simp
  have hk : toPoly (2 ^ 9) (fun i => if i = 0 then (1000 / 10817 : ℝ) else 0) = C (1000 / 10817) := by
    unfold toPoly
    rw [Finset.sum_eq_single 0]
    · simp
    · intro i _ hi; simp [hi]
    · intro h; exact absurd (Finset.mem_range.mpr (by norm_num)) h
  unfold IsQuo
  rw [hc, hc, hc, hc, ha, ha, hk, ← C_mul, ← C_mul, ← C_add, ← C_mul, ← C_mul, ← C_mul, ← C_add]
  have : (1000 / 10817 : ℝ) * (((1 : ℤ) : ℝ) * ((1 : ℤ) : ℝ) + ((-104 : ℤ) : ℝ) * ((-104 : ℤ) : ℝ)) =
    ((1000 : ℤ) : ℝ) * ((1 : ℤ) : ℝ) + ((0 : ℤ) : ℝ) * ((-104 : ℤ) : ℝ) := by norm_num
  rw [this]
  exact ⟨0, by simp⟩

/-- The hypotheses of `C66_reduced` and `C66_solution_fits` are met, in every accurate arithmetic. -/
example {A : Arith ℝ ℂ} (hA : Accurate A) : ∃ F G,
    ntruSolve (redQuot A) 3 9 (constMem 1) (constMem (-104)) = some (.ok (some (F, G))) ∧ F 0 = 118 ∧ G 0 = 17 ∧
    (∀ i, i < 2 ^ 9 → |constMem 1 i| ≤ 19 * (4096 / 2 ^ 9) ∧ |constMem (-104) i| ≤ 19 * (4096 / 2 ^ 9)) ∧
    ∀ j, j < 2 ^ 9 → 1 ≤ gramAt 9 (constMem 1) (constMem (-104)) j := by
  obtain ⟨F, G, h, hF, hG⟩ := const_solve hA (f := constMem 1) (g := constMem (-104)) (fun _ _ => rfl) fun _ _ => rfl
  refine ⟨F, G, h, hF 0 (by norm_num), hG 0 (by norm_num), fun i _ => ?_, fun j _ => ?_⟩
  · unfold constMem
    split <;> norm_num
  · rw [const_gram (fun _ _ => rfl) fun _ _ => rfl]
    norm_num

/-- The hypothesis of `C66_narrowing` is met. -/
example : ∃ stream s pos, ntruGen (redQuot exactA) (gsTooBig exactA 9) false 9 stream 3 1 zeroNtru 0 = some (.ok (s, pos)) ∧
    s.g 0 = -104 ∧ s.F 0 = 118 := by
  obtain ⟨stream, s, pos, h, hs⟩ := const_run accurate_exact const_gs_exact
  exact ⟨stream, s, pos, h, (hs 0 (by norm_num)).2.1, (hs 0 (by norm_num)).2.2.1⟩

/-- The hypotheses of `C66_binary64` are met. -/
example (b : Bool) : ∃ stream s pos,
    ntruGen (redQuot (ieeeA b)) (gsTooBig (ieeeA b) 9) false 9 stream 3 1 zeroNtru 0 = some (.ok (s, pos)) ∧
    s.g 0 = -104 ∧ s.F 0 = 118 ∧ ∀ j, j < 2 ^ 9 → 1 / 2 ^ 10 ≤ gramAt 9 s.f s.g j := by
  obtain ⟨stream, s, pos, h, hs⟩ := const_run (accurate_ieee b) (const_gs_float b)
  refine ⟨stream, s, pos, h, (hs 0 (by norm_num)).2.1, (hs 0 (by norm_num)).2.2.1, fun j _ => ?_⟩
  rw [const_gram (fun i hi => (hs i hi).1) fun i hi => (hs i hi).2.1]
  norm_num

/-- The hypothesis of `C66_end_to_end` is met, with the bound on |f^|^2 + |g^|^2. (g = -104 does not fit the format of
secret keys; `C63_witness` has a run that goes through it.) -/
example (b : Bool) (mt : UInt32 → Mem UInt8) (rd : UInt32) (pk0 sk0 : Mem UInt8) : ∃ (xof : Xof) (pk sk : Mem UInt8) (s : Ntru) (pos : ℕ),
    falconKeygen (ieeeA b) xof mt false 9 3 1 zeroNtru rd pk0 sk0 = some (.ok (pk, sk)) ∧
    ntruGen (redQuot (ieeeA b)) (gsTooBig (ieeeA b) 9) false 9 (prngNew xof mt rd) 3 1 zeroNtru 0 = some (.ok (s, pos)) ∧
    ∀ j, j < 2 ^ 9 → 1 / 2 ^ 10 ≤ gramAt 9 s.f s.g j := by
  obtain ⟨stream, s, pos, h, hs⟩ := const_run (accurate_ieee b) (const_gs_float b)
  have hk : ∃ pk, falconKeygen (ieeeA b) (fun _ => stream) mt false 9 3 1 zeroNtru rd pk0 sk0 =
      some (.ok (pk, encodeSkey 9 s.f s.g s.F sk0)) := by
    unfold falconKeygen
    rw [show prngNew (fun _ => stream) mt rd = stream from rfl]
    simp only
    rw [h, bindO_pure]
    exact ⟨_, rfl⟩
  obtain ⟨pk, hk⟩ := hk
  refine ⟨fun _ => stream, pk, _, s, pos, hk, h, fun j _ => ?_⟩
  rw [const_gram (fun i hi => (hs i hi).1) fun i hi => (hs i hi).2.1]
  norm_num

end Falcon
