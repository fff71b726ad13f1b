import Verif.Proofs.ConstKey

/-!
# The Gram-Schmidt test on f = 1, g = -104
-/

namespace Falcon

open Finset Polynomial

theorem const_gs_exact : gsTooBig exactA 9 (constMem 1) (constMem (-104)) = false := by
  show @decide (gramSchmidtNorm exactA 9 (constMem 1) (constMem (-104)) > gsThreshold exactA) (Classical.propDecidable _) = false
  have e : gsThreshold exactA = 117 / 100 * (117 / 100) * 12289 := by
    show (((1.17 : ℚ) : ℝ) * ((1.17 : ℚ) : ℝ)) * ((12289 : ℚ) : ℝ) = _
    norm_num
  rw [decide_eq_false_iff_not, e, not_lt, gsNorm_val (by norm_num)]
  have d : ∀ (x : ℤ) j, dft 9 (zC (constMem x)) j = (x : ℂ) := fun x j =>
    dft_cst (x : ℂ) j (IsConst.zC (n := 9) (a := constMem x) (x := x) fun _ _ => rfl)
  simp only [d]
  rw [sum_const, card_range]
  have h1 : ∑ i ∈ range (2 ^ 9), (((constMem 1 i : ℤ) : ℝ) ^ 2 + ((constMem (-104) i : ℤ) : ℝ) ^ 2) = 10817 := by
    rw [sum_eq_single 0]
    · norm_num [constMem]
    · intro i _ h
      simp [constMem, h]
    · intro h; exact absurd (mem_range.mpr (by norm_num)) h
  rw [h1]
  simp only [Complex.normSq_div, Complex.normSq_conj, Complex.normSq_ofReal, Complex.normSq_intCast]
  norm_num

section
variable {A : Arith ℝ ℂ} (hA : Accurate A)
include hA

/-- The computed values of f* / (ff* + gg*), for constants. -/
theorem const_inv {X Y : ℂ} {r : ℝ} {x y : ℤ} (hr : 1 ≤ r) (hR : r ^ 2 = (x : ℝ) ^ 2 + (y : ℝ) ^ 2) (hX : ‖X - x‖ ≤ delD * r)
    (hY : ‖Y - y‖ ≤ delD * r) (D : ℂ)
    (hD : D = A.cadd (A.cmul X (A.conj X)) (A.cmul Y (A.conj Y))) :
    ‖A.cdiv (A.conj X) D‖ ≤ 101 / 100 * ((|(x : ℝ)| + 1 / 100 * r) / r ^ 2) + 1 / 2 ^ 80 ∧
      ‖A.cdiv (A.conj Y) D‖ ≤ 101 / 100 * ((|(y : ℝ)| + 1 / 100 * r) / r ^ 2) + 1 / 2 ^ 80 := by
  have hx : ‖(x : ℂ)‖ ≤ r := by
    rw [Complex.norm_intCast]
    exact abs_le_of_sq_le_sq (by rw [hR]; nlinarith [sq_nonneg (y : ℝ)]) (by linarith)
  have hy : ‖(y : ℂ)‖ ≤ r := by
    rw [Complex.norm_intCast]
    exact abs_le_of_sq_le_sq (by rw [hR]; nlinarith [sq_nonneg (x : ℝ)]) (by linarith)
  have hden := den_near hA hr hx hy hX hY
  rw [← hD] at hden
  have e2 : (x : ℂ) * (starRingEnd ℂ) (x : ℂ) + (y : ℂ) * (starRingEnd ℂ) (y : ℂ) = ((r ^ 2 : ℝ) : ℂ) := by
    rw [map_intCast, map_intCast, hR]; push_cast; ring
  rw [e2] at hden
  have hr2 : 1 ≤ r ^ 2 := by nlinarith
  have hrn : ‖((r ^ 2 : ℝ) : ℂ)‖ = r ^ 2 := by rw [Complex.norm_real, Real.norm_of_nonneg (by positivity)]
  have hlo := norm_near hA (x := ((r ^ 2 : ℝ) : ℂ)) (y := D) (e := 5 * delD * r ^ 2) (by rw [norm_sub_rev]; exact hden)
  rw [hrn] at hlo
  have hD1 : 999 / 1000 * r ^ 2 ≤ ‖D‖ := by unfold delD at hlo; norm_num at hlo; linarith
  have hD0 : 0 < ‖D‖ := by linarith
  have key : ∀ {Z : ℂ} {z : ℤ}, ‖Z - z‖ ≤ delD * r →
      ‖A.cdiv (A.conj Z) D‖ ≤ 101 / 100 * ((|(z : ℝ)| + 1 / 100 * r) / r ^ 2) + 1 / 2 ^ 80 := by
    intro Z z hZ
    have hq := hA.cdiv (A.conj Z) D (by
      have : (1 : ℝ) / 2 ^ 20 ≤ 999 / 1000 := by norm_num
      linarith)
    have hn : ‖A.conj Z / D‖ = ‖Z‖ / ‖D‖ := by rw [hA.conj, norm_div, RCLike.norm_conj]
    have hb := norm_near hA hq
    rw [hn] at hb
    have hZn := norm_near hA hZ
    rw [Complex.norm_intCast] at hZn
    have hZ1 : ‖Z‖ ≤ |(z : ℝ)| + 1 / 100 * r := by
      have : delD * r ≤ 1 / 100 * r := by unfold delD; norm_num; linarith
      linarith
    have hdiv : ‖Z‖ / ‖D‖ ≤ 1000 / 999 * ((|(z : ℝ)| + 1 / 100 * r) / r ^ 2) := by
      rw [div_le_iff₀ hD0]
      have e : 1000 / 999 * ((|(z : ℝ)| + 1 / 100 * r) / r ^ 2) * (999 / 1000 * r ^ 2) = |(z : ℝ)| + 1 / 100 * r := by
        field_simp
      calc ‖Z‖ ≤ |(z : ℝ)| + 1 / 100 * r := hZ1
        _ = _ := e.symm
        _ ≤ _ := by gcongr
    have h0 : 0 ≤ (|(z : ℝ)| + 1 / 100 * r) / r ^ 2 := by positivity
    generalize ‖Z‖ / ‖D‖ = a at *
    generalize (|(z : ℝ)| + 1 / 100 * r) / r ^ 2 = t at *
    clear hq hn hlo hden hZ hrn
    unfold uD tinyD at hb
    norm_num at *
    linarith
  exact ⟨key hX, key hY⟩

/-- An upper bound for the computed norm. -/
theorem normC_up {n : ℕ} (hn : n ≤ 10) {x : Mem ℂ} {t : ℝ} (h : ∀ i, i < 2 ^ n → ‖x i‖ ^ 2 ≤ t) (ht : t ≤ 1) :
    (loop (1 <<< n) (fun i res => A.cadd res (A.cmul (x i) (A.conj (x i)))) (A.cx (A.lit 0) (A.lit 0))).re
      ≤ 2 ^ n * t + 1 / 2 ^ 25 := by
  have h2n : (2 : ℕ) ^ n ≤ 1024 := (Nat.pow_le_pow_right (by norm_num) hn).trans (by norm_num)
  have hN : (2 : ℝ) ^ n ≤ 1024 := by exact_mod_cast h2n
  have h1 := acc_err hA x (2 ^ n) h2n
  rw [one_shiftLeft']
  have hS : ∑ i ∈ range (2 ^ n), ‖x i‖ ^ 2 ≤ 2 ^ n * t := by
    refine (sum_le_sum fun i hi => h i (mem_range.mp hi)).trans (le_of_eq ?_)
    rw [sum_const, card_range, nsmul_eq_mul]; push_cast; rfl
  have hS0 : 0 ≤ ∑ i ∈ range (2 ^ n), ‖x i‖ ^ 2 := sum_nonneg fun _ _ => by positivity
  generalize ∑ i ∈ range (2 ^ n), ‖x i‖ ^ 2 = S at *
  have h2 := (Complex.abs_re_le_norm _).trans h1
  rw [Complex.sub_re, Complex.ofReal_re] at h2
  have h3 := (abs_le.mp h2).2
  have hN0 : (0 : ℝ) < 2 ^ n := by positivity
  have hS1 : S ≤ 1024 := by nlinarith
  have h4 : 8 * uD * ((2 ^ n : ℕ) : ℝ) * (S + 1) ≤ 8 * uD * 1024 * (1024 + 1) := by
    have : 0 ≤ uD := by unfold uD; positivity
    push_cast
    gcongr
  have h5 : 8 * uD * 1024 * (1024 + 1) ≤ 1 / 2 ^ 25 := by unfold uD; norm_num
  linarith

end

theorem const_gs_float (b : Bool) : gsTooBig (ieeeA b) 9 (constMem 1) (constMem (-104)) = false := by
  have hA := accurate_ieee b
  show @decide (gramSchmidtNorm (ieeeA b) 9 (constMem 1) (constMem (-104)) > gsThreshold (ieeeA b))
    (Classical.propDecidable _) = false
  rw [decide_eq_false_iff_not, not_lt]
  have ht : 15500 ≤ gsThreshold (ieeeA b) := by
    show 15500 ≤ rnd (rnd (rnd ((1.17 : ℚ) : ℝ) * rnd ((1.17 : ℚ) : ℝ)) * rnd ((12289 : ℚ) : ℝ))
    have a1 : 9 / 8 ≤ rnd ((1.17 : ℚ) : ℝ) := le_rnd_of_rep ⟨9, -3, by norm_num, by norm_num, by norm_num⟩ (by norm_num)
    have a2 : 12289 ≤ rnd ((12289 : ℚ) : ℝ) :=
      le_rnd_of_rep ⟨12289, 0, by norm_num, by norm_num, by norm_num⟩ (by norm_num)
    have a3 : 81 / 64 ≤ rnd (rnd ((1.17 : ℚ) : ℝ) * rnd ((1.17 : ℚ) : ℝ)) :=
      le_rnd_of_rep ⟨81, -6, by norm_num, by norm_num, by norm_num⟩ (by nlinarith)
    refine le_rnd_of_rep ⟨15500, 0, by norm_num, by norm_num, by norm_num⟩ ?_
    calc (15500 : ℝ) ≤ 81 / 64 * 12289 := by norm_num
      _ ≤ _ := by gcongr
  refine le_trans ?_ ht
  obtain ⟨F, G, hgs, hFG⟩ := gsNorm_at (ieeeA b) 9 (constMem 1) (constMem (-104))
  rw [hgs]
  refine max_le ?_ ?_
  · have hsq : ∀ x : ℤ, |x| ≤ 2 ^ 20 → sqrdNormR (ieeeA b) 9
        (loop (1 <<< 9) (fun i m => upd m i ((ieeeA b).lit ((constMem x i : ℤ) : ℚ))) fun _ => (ieeeA b).lit 0)
        = ((x * x : ℤ) : ℝ) := by
      intro x hx
      have hx2 : |x * x| ≤ 2 ^ 53 := by
        rw [abs_mul]
        calc |x| * |x| ≤ 2 ^ 20 * 2 ^ 20 := by gcongr
          _ ≤ _ := by norm_num
      have hrx : rnd ((x : ℤ) : ℝ) = x := rnd_of_rep (rep_int (hx.trans (by norm_num)))
      have hrx2 : rnd ((x * x : ℤ) : ℝ) = ((x * x : ℤ) : ℝ) := rnd_of_rep (rep_int hx2)
      have hm : ∀ m, m < 2 ^ 9 → loop (m + 1) (fun i res => rnd (res + rnd (loop (1 <<< 9) (fun i m => upd m i
          (rnd (((constMem x i : ℤ) : ℚ) : ℝ))) (fun _ => rnd ((0 : ℚ) : ℝ)) i * loop (1 <<< 9) (fun i m => upd m i
          (rnd (((constMem x i : ℤ) : ℚ) : ℝ))) (fun _ => rnd ((0 : ℚ) : ℝ)) i))) (rnd ((0 : ℚ) : ℝ)) = ((x * x : ℤ) : ℝ) := by
        intro m
        induction m with
        | zero =>
          intro _
          rw [loop_succ, loop_fill_lt _ (fun i => rnd (((constMem x i : ℤ) : ℚ) : ℝ)) _ _ (by norm_num)]
          show rnd (rnd ((0 : ℚ) : ℝ) + rnd (rnd (((x : ℤ) : ℚ) : ℝ) * rnd (((x : ℤ) : ℚ) : ℝ))) = _
          rw [Rat.cast_zero, rnd_zero, Rat.cast_intCast, hrx, ← Int.cast_mul, hrx2, zero_add, hrx2]
        | succ m ih =>
          intro hm
          rw [loop_succ, ih (by omega), loop_fill_lt _ (fun i => rnd (((constMem x i : ℤ) : ℚ) : ℝ)) _ _ (by
            rw [one_shiftLeft']; exact hm)]
          have : constMem x (m + 1) = 0 := by unfold constMem; rw [if_neg (by omega)]
          simp only [this, Int.cast_zero, Rat.cast_zero, rnd_zero, mul_zero, add_zero, hrx2]
      exact hm 511 (by norm_num)
    show rnd (sqrdNormR (ieeeA b) 9 _ + sqrdNormR (ieeeA b) 9 _) ≤ 15500
    rw [hsq 1 (by norm_num), hsq (-104) (by norm_num)]
    exact rnd_le_of_rep ⟨15500, 0, by norm_num, by norm_num, by norm_num⟩ (by norm_num)
  · have r1 : (104 : ℝ) ≤ Real.sqrt 10817 := Real.le_sqrt_of_sq_le (by norm_num)
    have r2 : Real.sqrt 10817 ^ 2 = 10817 := Real.sq_sqrt (by norm_num)
    have r3 : Real.sqrt 10817 ≤ 105 := by
      rw [Real.sqrt_le_left (by norm_num)]; norm_num
    generalize Real.sqrt 10817 = r at *
    have near : ∀ {x : ℤ}, |x| ≤ 104 → ∀ j, j < 2 ^ 9 →
        ‖fft (ieeeA b) 9 (toCx (ieeeA b) 9 (constMem x)) j - (x : ℂ)‖ ≤ delD * r := by
      intro x hx j hj
      refine (const_near hA (by norm_num) (fun _ _ => rfl) (hx.trans (by norm_num)) j hj).trans ?_
      have : |(x : ℝ)| ≤ 104 := by exact_mod_cast hx
      unfold delD
      norm_num at *
      linarith
    have hb : ∀ j, j < 2 ^ 9 → ‖F j‖ ≤ 1 / 4000 ∧ ‖G j‖ ≤ 1 / 100 := by
      intro j hj
      obtain ⟨e1, e2⟩ := hFG j hj
      have h := const_inv hA (x := 1) (y := -104) (by linarith) (by rw [r2]; norm_num) (near (by norm_num) j hj)
        (near (by norm_num) j hj) _ rfl
      rw [← e1, ← e2, r2] at h
      refine ⟨h.1.trans ?_, h.2.trans ?_⟩
      · norm_num; linarith
      · norm_num; linarith
    have up : ∀ {x : Mem ℂ} {t s : ℝ}, (∀ i, i < 2 ^ 9 → ‖x i‖ ≤ s) → s ^ 2 ≤ t → t ≤ 1 → Rep (t + 1 / 2 ^ 30) →
        sqrdNormC (ieeeA b) 9 x ≤ t + 1 / 2 ^ 30 := by
      intro x t s h1 h2 h3 h4
      have h := normC_up hA (n := 9) (by norm_num) (x := x) (t := t)
        (fun i hi => (pow_le_pow_left₀ (norm_nonneg _) (h1 i hi) 2).trans h2) h3
      unfold sqrdNormC
      simp only
      show rnd (_ / rnd ((2 ^ 9 : ℚ) : ℝ)) ≤ _
      have e : rnd ((2 ^ 9 : ℚ) : ℝ) = 512 := by
        have : ((2 ^ 9 : ℚ) : ℝ) = ((512 : ℤ) : ℝ) := by norm_num
        rw [this, rnd_of_rep (rep_int (by norm_num))]
        norm_num
      rw [e]
      refine rnd_le_of_rep h4 ?_
      rw [div_le_iff₀ (by norm_num)]
      refine h.trans ?_
      norm_num
      linarith
    have u1 := up (x := F) (t := 1 / 2 ^ 23) (fun j hj => (hb j hj).1) (by norm_num) (by norm_num)
      ⟨129, -30, by norm_num, by norm_num, by norm_num⟩
    have u2 := up (x := G) (t := 105 / 2 ^ 20) (fun j hj => (hb j hj).2) (by norm_num) (by norm_num)
      ⟨107521, -30, by norm_num, by norm_num, by norm_num⟩
    show rnd (rnd ((12289 * 12289 : ℚ) : ℝ) * rnd (sqrdNormC (ieeeA b) 9 F + sqrdNormC (ieeeA b) 9 G)) ≤ 15500
    have q : rnd ((12289 * 12289 : ℚ) : ℝ) = 151019521 := by
      have : ((12289 * 12289 : ℚ) : ℝ) = ((151019521 : ℤ) : ℝ) := by norm_num
      rw [this, rnd_of_rep (rep_int (by norm_num))]
      norm_num
    have u3 : rnd (sqrdNormC (ieeeA b) 9 F + sqrdNormC (ieeeA b) 9 G) ≤ 106 / 2 ^ 20 :=
      rnd_le_of_rep ⟨106, -20, by norm_num, by norm_num, by norm_num⟩ (by norm_num at *; linarith)
    rw [q]
    exact rnd_le_of_rep ⟨15500, 0, by norm_num, by norm_num, by norm_num⟩ (by norm_num at *; linarith)

end Falcon
