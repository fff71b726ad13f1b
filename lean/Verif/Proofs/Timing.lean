import Verif.TimingSpec
import Verif.Proofs.SampleDist

/-! # The numbers of iterations of the integer sampler -/

namespace Falcon

open Real

/-! ## One call -/

/-- `samplerz` with the number of iterations, as a program reading bytes; `i` iterations have been made before. -/
noncomputable def tsmp (mu sigma sigmin : ℝ) : ℕ → ℕ → BTree (Option (Except UB (ℤ × ℕ)))
  | 0, _ => .ret none
  | m + 1, i => (szTree false mu sigma sigmin).bind fun
    | .error e => .ret (some (.error e))
    | .ok (some r) => .ret (some (.ok (r, i + 1)))
    | .ok none => tsmp mu sigma sigmin m (i + 1)

theorem depth_tsmp (mu sigma sigmin : ℝ) (m : ℕ) : ∀ i, (tsmp mu sigma sigmin m i).Depth (18 * m) := by
  induction m with
  | zero => exact fun i => .ret _ _
  | succ m ih =>
    intro i
    rw [show 18 * (m + 1) = 18 + 18 * m by ring]
    refine BTree.Depth.bind (depth_szTree _ _ _ _) fun a => ?_
    match a with
    | .error e => exact .ret _ _
    | .ok (some r) => exact .ret _ _
    | .ok none => exact ih _

theorem tsmp_run (mu sigma sigmin : ℝ) (s : ℕ → UInt8) (m : ℕ) : ∀ (i p : ℕ),
    samplerz false mu sigma sigmin s m p = ((tsmp mu sigma sigmin m i).run s p).1.map (fun e => e.map
      fun r => (r.1, ((tsmp mu sigma sigmin m i).run s p).2)) ∧
    ∀ r c, ((tsmp mu sigma sigmin m i).run s p).1 = some (.ok (r, c)) → c = i + szIterations mu sigma sigmin s p ∧
      IsLeast {m | samplerz false mu sigma sigmin s m p ≠ none} (szIterations mu sigma sigmin s p) := by
  induction m with
  | zero => exact fun i p => ⟨rfl, fun r c h => by cases h⟩
  | succ m ih =>
    intro i p
    have hz : ∀ k, samplerz false mu sigma sigmin s (k + 1) p =
        match ((szTree false mu sigma sigmin).run s p).1, ((szTree false mu sigma sigmin).run s p).2 with
        | .error e, _ => some (.error e)
        | .ok (some r), q => some (.ok (r, q))
        | .ok none, q => samplerz false mu sigma sigmin s k q := by
      intro k
      rw [samplerz, szIter_tree]
      generalize BTree.run (szTree false mu sigma sigmin) s p = a
      obtain ⟨a, q⟩ := a
      match a with
      | .error e => rfl
      | .ok (some r) => rfl
      | .ok none => rfl
    simp only [tsmp, BTree.run_bind]
    generalize BTree.run (szTree false mu sigma sigmin) s p = a at hz ⊢
    obtain ⟨a, q⟩ := a
    match a, hz with
    | .error e, hz => exact ⟨hz m, fun r c h => by cases h⟩
    | .ok (some r), hz =>
      refine ⟨hz m, fun r' c h => ?_⟩
      have hz' : ∀ k, samplerz false mu sigma sigmin s (k + 1) p = some (.ok (r, q)) := hz
      have hL : IsLeast {m | samplerz false mu sigma sigmin s m p ≠ none} 1 := by
        refine ⟨?_, fun k hk => ?_⟩
        · show samplerz false mu sigma sigmin s (0 + 1) p ≠ none
          rw [hz']
          exact fun h => by cases h
        · match k with
          | 0 => exact absurd rfl hk
          | k + 1 => omega
      have hI : szIterations mu sigma sigmin s p = 1 := hL.csInf_eq
      have hc : (r, i + 1) = (r', c) := Except.ok.inj (Option.some.inj h)
      rw [hI]
      exact ⟨(Prod.ext_iff.mp hc).2.symm, hL⟩
    | .ok none, hz =>
      have hz' : ∀ k, samplerz false mu sigma sigmin s (k + 1) p = samplerz false mu sigma sigmin s k q := hz
      obtain ⟨h1, h2⟩ := ih (i + 1) q
      refine ⟨(hz' m).trans h1, fun r c h => ?_⟩
      obtain ⟨e, hL⟩ := h2 r c h
      have hL' : IsLeast {m | samplerz false mu sigma sigmin s m p ≠ none} (szIterations mu sigma sigmin s q + 1) := by
        refine ⟨?_, fun k hk => ?_⟩
        · show samplerz false mu sigma sigmin s (_ + 1) p ≠ none
          rw [hz']
          exact hL.1
        · match k with
          | 0 => exact absurd rfl hk
          | k + 1 =>
            have hk' : samplerz false mu sigma sigmin s (k + 1) p ≠ none := hk
            rw [hz'] at hk'
            have := hL.2 (show samplerz false mu sigma sigmin s k q ≠ none from hk')
            omega
      have hI : szIterations mu sigma sigmin s p = szIterations mu sigma sigmin s q + 1 := hL'.csInf_eq
      rw [hI]
      exact ⟨by omega, hL'⟩

theorem mean_tsmp {mu sigma sigmin : ℝ} (h : SzOk false mu sigma sigmin) (m : ℕ) : ∀ (i : ℕ) (G : Option (Except UB (ℤ × ℕ)) → ℝ),
    (tsmp mu sigma sigmin m i).mean G =
      ∑ j ∈ Finset.range m, (1 - szAcc false mu sigma sigmin) ^ j *
        ∑ k ∈ Win, szP false mu sigma sigmin k * G (some (.ok (⌊mu⌋ + k, i + j + 1)))
      + (1 - szAcc false mu sigma sigmin) ^ m * G none := by
  induction m with
  | zero => intro i G; simp [tsmp, BTree.mean]
  | succ m ih =>
    intro i G
    rw [tsmp, BTree.mean_bind, mean_szTree h]
    simp only [BTree.mean]
    rw [ih, Finset.sum_range_succ', mul_add, Finset.mul_sum]
    have e : ∀ j, (1 - szAcc false mu sigma sigmin) ^ (j + 1) *
          ∑ k ∈ Win, szP false mu sigma sigmin k * G (some (.ok (⌊mu⌋ + k, i + (j + 1) + 1)))
        = (1 - szAcc false mu sigma sigmin) * ((1 - szAcc false mu sigma sigmin) ^ j *
          ∑ k ∈ Win, szP false mu sigma sigmin k * G (some (.ok (⌊mu⌋ + k, i + 1 + j + 1)))) := fun j => by
      rw [show i + (j + 1) + 1 = i + 1 + j + 1 by omega]; ring
    simp only [e, pow_zero, one_mul, add_zero]
    ring

theorem pow_diff_sum {a b : ℝ} (a0 : 0 ≤ a) (a1 : a ≤ 1 / 2) (b0 : 0 ≤ b) (b1 : b ≤ 1 / 2) (j : ℕ) :
    |a ^ j - b ^ j| ≤ 2 * (j / 2 ^ j) * |a - b| := by
  induction j with
  | zero => simp
  | succ j ih =>
    have e : a ^ (j + 1) - b ^ (j + 1) = a * (a ^ j - b ^ j) + (a - b) * b ^ j := by ring
    rw [e]
    refine (abs_add_le _ _).trans ?_
    rw [abs_mul, abs_mul, abs_of_nonneg a0, abs_of_nonneg (pow_nonneg b0 j)]
    have h1 : a * |a ^ j - b ^ j| ≤ 1 / 2 * (2 * (j / 2 ^ j) * |a - b|) := mul_le_mul a1 ih (abs_nonneg _) (by norm_num)
    have h2 : b ^ j ≤ 1 / 2 ^ j := by rw [← one_div_pow]; exact pow_le_pow_left₀ b0 b1 j
    have h3 : |a - b| * b ^ j ≤ |a - b| * (1 / 2 ^ j) := mul_le_mul_of_nonneg_left h2 (abs_nonneg _)
    refine (add_le_add h1 h3).trans (le_of_eq ?_)
    push_cast
    rw [pow_succ]
    field_simp

theorem sum_half (m : ℕ) : ∑ j ∈ Finset.range m, ((j : ℝ) / 2 ^ j) ≤ 2 ∧ ∑ j ∈ Finset.range m, (1 / 2 ^ j : ℝ) ≤ 2 := by
  have h1 : ∀ m : ℕ, ∑ j ∈ Finset.range m, ((j : ℝ) / 2 ^ j) = 2 - 2 * (m + 1) / 2 ^ m := by
    intro m
    induction m with
    | zero => norm_num
    | succ m ih =>
      rw [Finset.sum_range_succ, ih, pow_succ]
      push_cast
      field_simp
      ring
  have h2 : ∀ m : ℕ, ∑ j ∈ Finset.range m, (1 / 2 ^ j : ℝ) = 2 - 2 / 2 ^ m := by
    intro m
    induction m with
    | zero => norm_num
    | succ m ih =>
      rw [Finset.sum_range_succ, ih, pow_succ]
      field_simp
      ring
  rw [h1, h2]
  constructor
  · have : (0 : ℝ) ≤ 2 * (m + 1) / 2 ^ m := by positivity
    linarith
  · have : (0 : ℝ) ≤ 2 / 2 ^ m := by positivity
    linarith

/-- One call: result and number of iterations are those of a Gaussian and an independent geometric number. -/
theorem timed_call {mu sigma sigmin : ℝ} (h : SzOk false mu sigma sigmin) (m : ℕ) (g : ℕ → ℤ → ℝ) (g0 : ∀ j z, 0 ≤ g j z) (g1 : ∀ j z, g j z ≤ 1) :
    |∑ j ∈ Finset.range m, (1 - szAcc false mu sigma sigmin) ^ j * ∑ k ∈ Win, szP false mu sigma sigmin k * g j (⌊mu⌋ + k)
      - ∑ j ∈ Finset.range m, accIdeal sigmin * (1 - accIdeal sigmin) ^ j * gaussMean mu sigma (g j)| ≤ 1 / 2 ^ 34 := by
  have hA1 := szAcc_le_one h
  have hA2 := szAcc_ge h
  have hb := accIdeal_bounds h.s0 (h.s1.trans h.s2)
  have hd := szAcc_ideal h
  have hs0 : 0 < sigma := by linarith [h.s0, h.s1]
  -- one number of iterations
  have hj : ∀ j, |∑ k ∈ Win, szP false mu sigma sigmin k * g j (⌊mu⌋ + k) - accIdeal sigmin * gaussMean mu sigma (g j)| ≤ 1 / 2 ^ 36 := by
    intro j
    obtain ⟨S, hS⟩ : ∃ S, S = ∑ k ∈ Win, szP false mu sigma sigmin k * g j (⌊mu⌋ + k) := ⟨_, rfl⟩
    have hS0 : 0 ≤ S := hS ▸ Finset.sum_nonneg fun k _ => mul_nonneg (szP_nonneg k) (g0 j _)
    have hS1 : S ≤ szAcc false mu sigma sigmin := hS ▸ Finset.sum_le_sum fun k _ => mul_le_of_le_one_right (szP_nonneg k) (g1 j _)
    have hA0 : 0 < szAcc false mu sigma sigmin := by linarith
    let G : Option (Except UB ℤ) → ℝ := fun
      | some (.ok z) => g j z
      | _ => S / szAcc false mu sigma sigmin
    have h1 := smp_mean h 38 (g j) (g0 j) (g1 j) G (fun z => rfl) (div_nonneg hS0 hA0.le) ((div_le_one hA0).mpr hS1)
    rw [mean_smpTree h] at h1
    have e1 : ∑ k ∈ Win, szP false mu sigma sigmin k * G (some (.ok (⌊mu⌋ + k))) = S := hS.symm
    have e2 : G none = S / szAcc false mu sigma sigmin := rfl
    have hgeo : (∑ i ∈ Finset.range 38, (1 - szAcc false mu sigma sigmin) ^ i) * szAcc false mu sigma sigmin
        = 1 - (1 - szAcc false mu sigma sigmin) ^ 38 := by
      have := geom_sum_mul_neg (1 - szAcc false mu sigma sigmin) 38
      rwa [sub_sub_cancel] at this
    rw [e1, e2] at h1
    rw [← hS]
    have hM := (OTree.gaussMean_mem (mu := mu) hs0 (g0 j) (g1 j)).2
    generalize gaussMean mu sigma (g j) = M at *
    generalize ∑ i ∈ Finset.range 38, (1 - szAcc false mu sigma sigmin) ^ i = Q at *
    generalize (1 - szAcc false mu sigma sigmin) ^ 38 = P at *
    generalize szAcc false mu sigma sigmin = A at *
    generalize accIdeal sigmin = a at *
    have e3 : Q * S + P * (S / A) = S / A := by
      have : Q * S = (1 - P) * (S / A) := by rw [← hgeo]; field_simp
      rw [this]; ring
    rw [e3] at h1
    have e4 : S - a * M = A * (S / A - M) + (A - a) * M := by field_simp; ring
    rw [e4]
    refine (abs_add_le _ _).trans ?_
    rw [abs_mul, abs_mul, abs_of_pos hA0, abs_of_nonneg hM.1]
    have t1 : A * |S / A - M| ≤ 1 * (1 / 2 ^ 38 + 1 / 2 ^ 38) := mul_le_mul hA1 h1 (abs_nonneg _) (by norm_num)
    have t2 : |A - a| * M ≤ 1 / 2 ^ 38 * 1 := mul_le_mul hd hM.2 hM.1 (by norm_num)
    linarith
  have hM := fun j => (OTree.gaussMean_mem (mu := mu) hs0 (g0 j) (g1 j)).2
  rw [← Finset.sum_sub_distrib]
  obtain ⟨q1, q2⟩ := sum_half m
  have hb2 : accIdeal sigmin ≤ 1 := by norm_num at hb; linarith
  have hb1 : 1 / 2 ≤ accIdeal sigmin := by norm_num at hb; linarith
  refine (Finset.abs_sum_le_sum_abs _ _).trans ((Finset.sum_le_sum fun j _ => ?_).trans
    (b := ∑ j ∈ Finset.range m, (1 / 2 ^ 36 * (1 / 2 ^ j) + 2 / 2 ^ 38 * ((j : ℝ) / 2 ^ j))) ?_)
  · have p := pow_diff_sum (a := 1 - szAcc false mu sigma sigmin) (b := 1 - accIdeal sigmin) (by linarith) (by linarith) (by linarith)
      (by linarith) j
    rw [show 1 - szAcc false mu sigma sigmin - (1 - accIdeal sigmin) = -(szAcc false mu sigma sigmin - accIdeal sigmin) by ring, abs_neg] at p
    have hj' := hj j
    have hMj := hM j
    have pw : (1 - szAcc false mu sigma sigmin) ^ j ≤ 1 / 2 ^ j := by
      rw [← one_div_pow]; exact pow_le_pow_left₀ (by linarith) (by linarith) j
    have pw0 : 0 ≤ (1 - szAcc false mu sigma sigmin) ^ j := pow_nonneg (by linarith) j
    generalize ∑ k ∈ Win, szP false mu sigma sigmin k * g j (⌊mu⌋ + k) = S at *
    generalize gaussMean mu sigma (g j) = M at *
    generalize (1 - szAcc false mu sigma sigmin) ^ j = X at *
    generalize (1 - accIdeal sigmin) ^ j = Y at *
    generalize accIdeal sigmin = a at *
    have e : X * S - a * Y * M = X * (S - a * M) + (X - Y) * (a * M) := by ring
    rw [e]
    refine (abs_add_le _ _).trans ?_
    rw [abs_mul, abs_mul, abs_of_nonneg pw0]
    have aM0 : 0 ≤ a * M := mul_nonneg (by linarith) hMj.1
    have aM1 : a * M ≤ 1 := (mul_le_mul hb2 hMj.2 hMj.1 (by norm_num)).trans (by norm_num)
    rw [abs_of_nonneg aM0]
    have t1 : X * |S - a * M| ≤ 1 / 2 ^ j * (1 / 2 ^ 36) := mul_le_mul pw hj' (abs_nonneg _) (by positivity)
    have t2 : |X - Y| * (a * M) ≤ |X - Y| := mul_le_of_le_one_right (abs_nonneg _) aM1
    have t3 : 2 * ((j : ℝ) / 2 ^ j) * |szAcc false mu sigma sigmin - a| ≤ 2 * ((j : ℝ) / 2 ^ j) * (1 / 2 ^ 38) :=
      mul_le_mul_of_nonneg_left hd (by positivity)
    have t4 : (1 : ℝ) / 2 ^ j * (1 / 2 ^ 36) + 2 * ((j : ℝ) / 2 ^ j) * (1 / 2 ^ 38) = 1 / 2 ^ 36 * (1 / 2 ^ j) + 2 / 2 ^ 38 * ((j : ℝ) / 2 ^ j) := by ring
    rw [← t4]
    exact add_le_add t1 (t2.trans (p.trans t3))
  · rw [Finset.sum_add_distrib, ← Finset.mul_sum, ← Finset.mul_sum]
    have u1 := mul_le_mul_of_nonneg_left q2 (by norm_num : (0 : ℝ) ≤ 1 / 2 ^ 36)
    have u2 := mul_le_mul_of_nonneg_left q1 (by norm_num : (0 : ℝ) ≤ 2 / 2 ^ 38)
    refine (add_le_add u1 u2).trans ?_
    norm_num

end Falcon
