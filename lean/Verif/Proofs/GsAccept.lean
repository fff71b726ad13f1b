import Verif.Proofs.GsFloat
import Verif.Proofs.ConstGs

/-!
# The Gram-Schmidt test accepts in binary64 what is a little below the bound
-/

namespace Falcon

open Finset

section
variable {A : Arith ℝ ℂ} (hA : Accurate A)
include hA

/-- One computed f* / (ff* + gg*). -/
theorem inv_up {X x D : ℂ} {r : ℝ} (hr : 1 ≤ r) (hx : ‖x‖ ≤ r) (h : ‖X - x‖ ≤ delD)
    (hD : ‖D - ((r ^ 2 : ℝ) : ℂ)‖ ≤ 1 / 2 ^ 20 * r ^ 2) :
    ‖A.cdiv (A.conj X) D‖ ^ 2 ≤ (1 + 1 / 2 ^ 16) * (‖x‖ ^ 2 / r ^ 4) + 1 / 2 ^ 26 * (1 / r ^ 2) + 1 / 2 ^ 40 := by
  have hr2 : 1 ≤ r ^ 2 := by nlinarith
  have hrn : ‖((r ^ 2 : ℝ) : ℂ)‖ = r ^ 2 := by rw [Complex.norm_real, Real.norm_of_nonneg (by positivity)]
  have hlo := norm_near hA (x := ((r ^ 2 : ℝ) : ℂ)) (y := D) (e := 1 / 2 ^ 20 * r ^ 2) (by rw [norm_sub_rev]; exact hD)
  rw [hrn] at hlo
  have hD1 : (1 - 1 / 2 ^ 20) * r ^ 2 ≤ ‖D‖ := by linarith
  have hD0 : 0 < ‖D‖ := lt_of_lt_of_le (by norm_num; linarith) hD1
  have hq := hA.cdiv (A.conj X) D (by
    refine le_trans ?_ hD1
    norm_num; linarith)
  have hn : ‖A.conj X / D‖ = ‖X‖ / ‖D‖ := by rw [hA.conj, norm_div, RCLike.norm_conj]
  have hb := norm_near hA hq
  rw [hn] at hb
  have hX := norm_near hA h
  have h1 : ‖X‖ / ‖D‖ ≤ (1 + 1 / 2 ^ 19) * ((‖x‖ + delD) / r ^ 2) := by
    rw [div_le_iff₀ hD0]
    have e : (1 + 1 / 2 ^ 19) * ((‖x‖ + delD) / r ^ 2) * ((1 - 1 / 2 ^ 20) * r ^ 2)
        = ((1 + 1 / 2 ^ 19) * (1 - 1 / 2 ^ 20)) * (‖x‖ + delD) := by field_simp
    have hp : 0 ≤ ‖x‖ + delD := by unfold delD; positivity
    calc ‖X‖ ≤ 1 * (‖x‖ + delD) := by rw [one_mul]; exact hX
      _ ≤ ((1 + 1 / 2 ^ 19) * (1 - 1 / 2 ^ 20)) * (‖x‖ + delD) := by gcongr; norm_num
      _ = _ := e.symm
      _ ≤ _ := by gcongr
  have hir : 0 < 1 / r := by positivity
  -- everything in units of 1/r
  obtain ⟨t, ht⟩ : ∃ t, t = ‖x‖ / r ^ 2 := ⟨_, rfl⟩
  obtain ⟨s, hs⟩ : ∃ s, s = 1 / r := ⟨_, rfl⟩
  have hs1 : s ≤ 1 := by rw [hs, div_le_one (by linarith)]; exact hr
  have hs0 : 0 < s := by rw [hs]; positivity
  have hss : 1 / r ^ 2 = s ^ 2 := by rw [hs, div_pow, one_pow]
  have hts : t ≤ s := by
    rw [ht, hs, div_le_div_iff₀ (by positivity) (by linarith), one_mul, sq]
    gcongr
  have ht0 : 0 ≤ t := by rw [ht]; positivity
  have hsplit : (‖x‖ + delD) / r ^ 2 = t + delD * s ^ 2 := by rw [ht, ← hss]; ring
  have hx4 : ‖x‖ ^ 2 / r ^ 4 = t ^ 2 := by rw [ht, div_pow, ← pow_mul]
  rw [hsplit] at h1
  rw [hx4, hss]
  obtain ⟨a, ha⟩ : ∃ a, a = ‖X‖ / ‖D‖ := ⟨_, rfl⟩
  rw [← ha] at h1 hb
  have ha0 : 0 ≤ a := by rw [ha]; positivity
  have hδ : delD * s ^ 2 ≤ 1 / 2 ^ 29 * s := by unfold delD; nlinarith
  have h2 : a ≤ (1 + 1 / 2 ^ 19) * (t + 1 / 2 ^ 29 * s) := h1.trans (by gcongr)
  have hc0 := norm_nonneg (A.cdiv (A.conj X) D)
  generalize ‖A.cdiv (A.conj X) D‖ = c at *
  have hc : c ≤ (1 + 1 / 2 ^ 18) * (t + 1 / 2 ^ 29 * s) + 1 / 2 ^ 90 := by
    unfold uD tinyD at hb
    clear hq hn hlo hD hD1 h1 hx hX h hrn
    norm_num at *
    linarith
  have h3 := pow_le_pow_left₀ hc0 hc 2
  refine h3.trans ?_
  have e1 : t * s ≤ s ^ 2 := by nlinarith
  have e2 : t ≤ 1 := hts.trans hs1
  have e3 : s ^ 2 ≤ 1 := by nlinarith
  clear * - e1 e2 e3 hs1 hs0 ht0
  have : ((1 + 1 / 2 ^ 18) * (t + 1 / 2 ^ 29 * s) + 1 / 2 ^ 90) ^ 2 = (1 + 1 / 2 ^ 18) ^ 2 * t ^ 2
    + (1 + 1 / 2 ^ 18) ^ 2 * (2 / 2 ^ 29) * (t * s) + (1 + 1 / 2 ^ 18) ^ 2 * (1 / 2 ^ 58) * s ^ 2
    + 2 * (1 + 1 / 2 ^ 18) * (1 / 2 ^ 90) * (t + 1 / 2 ^ 29 * s) + 1 / 2 ^ 180 := by ring
  rw [this]
  have t2 : 0 ≤ t ^ 2 := sq_nonneg t
  have s2 : 0 ≤ s ^ 2 := sq_nonneg s
  generalize t ^ 2 = T at *
  generalize s ^ 2 = S at *
  generalize t * s = U at *
  norm_num
  linarith

/-- The sum of the two. -/
theorem inv_sum {X Y x y : ℂ} {D : ℝ} (hD : 1 ≤ D) (e : D = Complex.normSq x + Complex.normSq y)
    (hX : ‖X - x‖ ≤ delD) (hY : ‖Y - y‖ ≤ delD) :
    ‖A.cdiv (A.conj X) (A.cadd (A.cmul X (A.conj X)) (A.cmul Y (A.conj Y)))‖ ^ 2 +
      ‖A.cdiv (A.conj Y) (A.cadd (A.cmul X (A.conj X)) (A.cmul Y (A.conj Y)))‖ ^ 2 ≤ (1 + 1 / 2 ^ 15) * (1 / D) + 1 / 2 ^ 39 := by
  have hr2 : Real.sqrt D ^ 2 = D := Real.sq_sqrt (by linarith)
  have hr : 1 ≤ Real.sqrt D := Real.one_le_sqrt.mpr hD
  generalize Real.sqrt D = r at *
  subst hr2
  rw [Complex.normSq_eq_norm_sq, Complex.normSq_eq_norm_sq] at e
  have hx : ‖x‖ ≤ r := abs_le_of_sq_le_sq' (by nlinarith [sq_nonneg ‖y‖]) (by linarith) |>.2
  have hy : ‖y‖ ≤ r := abs_le_of_sq_le_sq' (by nlinarith [sq_nonneg ‖x‖]) (by linarith) |>.2
  have hden := den_near' hA (by linarith) hx hy hX hY
  have e2 : x * (starRingEnd ℂ) x + y * (starRingEnd ℂ) y = ((r ^ 2 : ℝ) : ℂ) := by
    rw [Complex.mul_conj, Complex.mul_conj, e, Complex.normSq_eq_norm_sq, Complex.normSq_eq_norm_sq]; push_cast; ring
  rw [e2] at hden
  have h1 := inv_up hA hr hx hX hden
  have h2 := inv_up hA hr hy hY hden
  have h3 : ‖x‖ ^ 2 / r ^ 4 + ‖y‖ ^ 2 / r ^ 4 = 1 / r ^ 2 := by
    rw [← add_div, ← e]
    have : r ≠ 0 := by linarith
    field_simp
  have h4 : 0 ≤ 1 / r ^ 2 := by positivity
  generalize ‖x‖ ^ 2 / r ^ 4 = a at *
  generalize ‖y‖ ^ 2 / r ^ 4 = b at *
  generalize 1 / r ^ 2 = c at *
  clear e2 hden e
  norm_num at *
  linarith

end

/-- The squared norm of an integer polynomial is computed exactly. -/
theorem sqrdNormR_exact (b : Bool) (n : ℕ) (f : Mem ℤ) (h : ∑ i ∈ range (2 ^ n), f i ^ 2 ≤ 2 ^ 53) :
    sqrdNormR (ieeeA b) n (loop (1 <<< n) (fun i m => upd m i ((ieeeA b).lit (f i))) fun _ => (ieeeA b).lit 0)
      = ((∑ i ∈ range (2 ^ n), f i ^ 2 : ℤ) : ℝ) := by
  have pos : ∀ m, 0 ≤ ∑ i ∈ range m, f i ^ 2 := fun m => sum_nonneg fun i _ => sq_nonneg _
  have part : ∀ m, m ≤ 2 ^ n → ∑ i ∈ range m, f i ^ 2 ≤ 2 ^ 53 := fun m hm =>
    (sum_le_sum_of_subset_of_nonneg (range_mono hm) fun i _ _ => sq_nonneg _).trans h
  have one : ∀ i, i < 2 ^ n → f i ^ 2 ≤ 2 ^ 53 := fun i hi =>
    (single_le_sum (f := fun i => f i ^ 2) (fun i _ => sq_nonneg _) (mem_range.mpr hi)).trans h
  have hfi : ∀ i, i < 2 ^ n → rnd ((f i : ℤ) : ℝ) = f i := by
    intro i hi
    refine rnd_of_rep (rep_int ?_)
    have := one i hi
    have h0 : |f i| ≤ f i ^ 2 := by
      rcases eq_or_ne (f i) 0 with h | h
      · rw [h]; norm_num
      · have : 1 ≤ |f i| := Int.one_le_abs h
        rw [← sq_abs]; nlinarith
    exact h0.trans this
  unfold sqrdNormR
  rw [one_shiftLeft']
  have key : ∀ m, m ≤ 2 ^ n → loop m (fun i res => (ieeeA b).add res ((ieeeA b).mul
      (loop (2 ^ n) (fun i m => upd m i ((ieeeA b).lit (f i))) (fun _ => (ieeeA b).lit 0) i)
      (loop (2 ^ n) (fun i m => upd m i ((ieeeA b).lit (f i))) (fun _ => (ieeeA b).lit 0) i))) ((ieeeA b).lit 0)
      = ((∑ i ∈ range m, f i ^ 2 : ℤ) : ℝ) := by
    intro m
    induction m with
    | zero =>
      intro _
      show rnd ((0 : ℚ) : ℝ) = _
      simp [rnd_zero]
    | succ m ih =>
      intro hm
      rw [loop_succ, ih (by omega), loop_fill_lt _ (fun i => (ieeeA b).lit (f i)) _ _ (by omega)]
      show rnd (_ + rnd (rnd (((f m : ℤ) : ℚ) : ℝ) * rnd (((f m : ℤ) : ℚ) : ℝ))) = _
      rw [Rat.cast_intCast, hfi m (by omega), ← sq, ← Int.cast_pow,
        rnd_of_rep (rep_int (by rw [abs_of_nonneg (sq_nonneg _)]; exact one m (by omega))), ← Int.cast_add, ← sum_range_succ,
        rnd_of_rep (rep_int (by rw [abs_of_nonneg (pos _)]; exact part _ hm))]
  exact key _ le_rfl

theorem gsThreshold_low (b : Bool) : 16820 ≤ gsThreshold (ieeeA b) := by
  show 16820 ≤ rnd (rnd (rnd ((1.17 : ℚ) : ℝ) * rnd ((1.17 : ℚ) : ℝ)) * rnd ((12289 : ℚ) : ℝ))
  have a1 : 599 / 512 ≤ rnd ((1.17 : ℚ) : ℝ) := le_rnd_of_rep ⟨599, -9, by norm_num, by norm_num, by norm_num⟩ (by norm_num)
  have a2 : 12289 ≤ rnd ((12289 : ℚ) : ℝ) :=
    le_rnd_of_rep ⟨12289, 0, by norm_num, by norm_num, by norm_num⟩ (by norm_num)
  have a3 : 358801 / 262144 ≤ rnd (rnd ((1.17 : ℚ) : ℝ) * rnd ((1.17 : ℚ) : ℝ)) :=
    le_rnd_of_rep ⟨358801, -18, by norm_num, by norm_num, by norm_num⟩ (by nlinarith)
  refine le_rnd_of_rep ⟨16820, 0, by norm_num, by norm_num, by norm_num⟩ ?_
  calc (16820 : ℝ) ≤ 358801 / 262144 * 12289 := by norm_num
    _ ≤ _ := by gcongr

/-- An upper bound of a computed norm in the Fourier domain. -/
theorem sqrdNormC_up (b : Bool) {n : ℕ} (hn : n ≤ 10) {x : Mem ℂ} {S : ℝ} (hS : ∑ i ∈ range (2 ^ n), ‖x i‖ ^ 2 = S) (hS1 : S ≤ 2 ^ n) :
    sqrdNormC (ieeeA b) n x ≤ S / 2 ^ n + 1 / 2 ^ 35 := by
  have hA := accurate_ieee b
  have h2n : (2 : ℕ) ^ n ≤ 1024 := (Nat.pow_le_pow_right (by norm_num) hn).trans (by norm_num)
  have h1 := acc_err hA x (2 ^ n) h2n
  rw [hS] at h1
  have hS0 : 0 ≤ S := hS ▸ sum_nonneg fun _ _ => by positivity
  have h2 := (Complex.abs_re_le_norm _).trans h1
  rw [Complex.sub_re, Complex.ofReal_re] at h2
  have h3 := (abs_le.mp h2).2
  unfold sqrdNormC
  simp only
  rw [one_shiftLeft']
  show rnd (_ / rnd ((2 ^ n : ℚ) : ℝ)) ≤ _
  have e : rnd ((2 ^ n : ℚ) : ℝ) = 2 ^ n := by
    have : ((2 ^ n : ℚ) : ℝ) = (((2 ^ n : ℕ) : ℤ) : ℝ) := by push_cast; rfl
    rw [this, rnd_of_rep (rep_int (by rw [abs_of_nonneg (by positivity)]; exact_mod_cast h2n.trans (by norm_num)))]
    push_cast; rfl
  rw [e]
  have hN : (0 : ℝ) < 2 ^ n := by positivity
  have hle : (loop (2 ^ n) (fun i res => (ieeeA b).cadd res ((ieeeA b).cmul (x i) ((ieeeA b).conj (x i))))
      ((ieeeA b).cx ((ieeeA b).lit 0) ((ieeeA b).lit 0))).re / 2 ^ n ≤ S / 2 ^ n + 1 / 2 ^ 37 := by
    rw [div_add' _ _ _ hN.ne', div_le_div_iff_of_pos_right hN]
    push_cast at h3
    have hb : 8 * uD * 2 ^ n * (S + 1) ≤ 1 / 2 ^ 37 * 2 ^ n := by
      have hS2 : S + 1 ≤ 1025 := by
        have : (2 : ℝ) ^ n ≤ 1024 := by exact_mod_cast h2n
        linarith
      calc 8 * uD * 2 ^ n * (S + 1) ≤ 8 * uD * 2 ^ n * 1025 := by unfold uD; gcongr
        _ = (8 * uD * 1025) * 2 ^ n := by ring
        _ ≤ 1 / 2 ^ 37 * 2 ^ n := by unfold uD; gcongr; norm_num
    linarith
  have ht : S / 2 ^ n ≤ 1 := by rw [div_le_one hN]; exact hS1
  have ht0 : 0 ≤ S / 2 ^ n := by positivity
  refine (rnd_mono hle).trans ((rnd_up50 (by positivity)).trans ?_)
  generalize S / 2 ^ n = t at *
  norm_num
  linarith

set_option maxHeartbeats 1000000 in
/-- Acceptance in binary64. -/
theorem gs_accept (b : Bool) {n : ℕ} (hn : ValidLog n) {f g : Mem ℤ}
    (hf : ∀ i, i < 2 ^ n → |f i| ≤ 19 * (4096 / 2 ^ n)) (hg : ∀ i, i < 2 ^ n → |g i| ≤ 19 * (4096 / 2 ^ n))
    (hD : ∀ j, j < 2 ^ n → 1 ≤ gramAt n f g j) (h1 : ∑ i ∈ range (2 ^ n), f i ^ 2 + ∑ i ∈ range (2 ^ n), g i ^ 2 ≤ 16800)
    (h2 : 12289 ^ 2 * ((∑ j ∈ range (2 ^ n), 1 / gramAt n f g j) / 2 ^ n) ≤ 16800) : gsTooBig (ieeeA b) n f g = false := by
  have hA := accurate_ieee b
  have hn10 : n ≤ 10 := by rcases hn with rfl | rfl <;> norm_num
  show @decide (gramSchmidtNorm (ieeeA b) n f g > gsThreshold (ieeeA b)) (Classical.propDecidable _) = false
  rw [decide_eq_false_iff_not, not_lt]
  refine le_trans ?_ (gsThreshold_low b)
  obtain ⟨F, G, hgs, hFG⟩ := gsNorm_at (ieeeA b) n f g
  rw [hgs]
  have p1 : 0 ≤ ∑ i ∈ range (2 ^ n), f i ^ 2 := sum_nonneg fun i _ => sq_nonneg _
  have p2 : 0 ≤ ∑ i ∈ range (2 ^ n), g i ^ 2 := sum_nonneg fun i _ => sq_nonneg _
  refine max_le ?_ ?_
  · rw [sqrdNormR_exact b n f (by omega), sqrdNormR_exact b n g (by omega)]
    show rnd (_ + _) ≤ _
    refine rnd_le_of_rep ⟨16820, 0, by norm_num, by norm_num, by norm_num⟩ ?_
    have : ((∑ i ∈ range (2 ^ n), f i ^ 2 + ∑ i ∈ range (2 ^ n), g i ^ 2 : ℤ) : ℝ) ≤ ((16800 : ℤ) : ℝ) := by exact_mod_cast h1
    push_cast at this ⊢
    linarith
  · have hm : ((19 * (4096 / 2 ^ n) : ℤ) : ℝ) * 2 ^ n + 200 ≤ bK := by
      unfold bK
      rcases hn with rfl | rfl <;> norm_num
    have hk0 : (0 : ℤ) ≤ 19 * (4096 / 2 ^ n) := by positivity
    have bas : ∀ a : Mem Int, (∀ i, i < 2 ^ n → |a i| ≤ 19 * (4096 / 2 ^ n)) → ∀ j, j < 2 ^ n →
        ‖fft (ieeeA b) n (toCx (ieeeA b) n a) j - dft n (zC a) j‖ ≤ delD := by
      intro a ha j hj
      have h := basis_near hA hn a (toCx (ieeeA b) n a) 1 (Or.inl rfl) ha
        (fun i hi => by rw [one_mul]; exact toCx_at hA (fun i hi => (ha i hi).trans (by
          rcases hn with rfl | rfl <;> norm_num)) i hi) hm (le_of_eq rfl) hk0 j hj
      simp only [one_mul] at h
      refine h.2.2.trans (le_of_eq ?_)
      unfold kapD bK delD; norm_num
    have pt : ∀ j, j < 2 ^ n → ‖F j‖ ^ 2 + ‖G j‖ ^ 2 ≤ (1 + 1 / 2 ^ 15) * (1 / gramAt n f g j) + 1 / 2 ^ 39 := by
      intro j hj
      rw [(hFG j hj).1, (hFG j hj).2]
      exact inv_sum hA (hD j hj) rfl (bas f hf j hj) (bas g hg j hj)
    have hN : (0 : ℝ) < 2 ^ n := by positivity
    obtain ⟨SF, hSF⟩ : ∃ S, S = ∑ i ∈ range (2 ^ n), ‖F i‖ ^ 2 := ⟨_, rfl⟩
    obtain ⟨SG, hSG⟩ : ∃ S, S = ∑ i ∈ range (2 ^ n), ‖G i‖ ^ 2 := ⟨_, rfl⟩
    have hF0 : 0 ≤ SF := hSF ▸ sum_nonneg fun _ _ => by positivity
    have hG0 : 0 ≤ SG := hSG ▸ sum_nonneg fun _ _ => by positivity
    have hsum : (SF + SG) / 2 ^ n ≤ (1 + 1 / 2 ^ 15) * ((∑ j ∈ range (2 ^ n), 1 / gramAt n f g j) / 2 ^ n) + 1 / 2 ^ 39 := by
      rw [hSF, hSG, ← sum_add_distrib, div_le_iff₀ hN]
      refine (sum_le_sum fun j hj => pt j (mem_range.mp hj)).trans (le_of_eq ?_)
      rw [sum_add_distrib, ← mul_sum, sum_const, card_range, nsmul_eq_mul]
      push_cast
      field_simp
    rw [add_div] at hsum
    have hq : (∑ j ∈ range (2 ^ n), 1 / gramAt n f g j) / 2 ^ n ≤ 16800 / 12289 ^ 2 := by
      rw [le_div_iff₀ (by norm_num), mul_comm]; exact h2
    have hFN : SF / 2 ^ n ≤ 1 := by
      have : 0 ≤ SG / 2 ^ n := by positivity
      norm_num at *; linarith
    have hGN : SG / 2 ^ n ≤ 1 := by
      have : 0 ≤ SF / 2 ^ n := by positivity
      norm_num at *; linarith
    have uF := sqrdNormC_up b hn10 hSF.symm ((div_le_one hN).mp hFN)
    have uG := sqrdNormC_up b hn10 hSG.symm ((div_le_one hN).mp hGN)
    show rnd (rnd ((12289 * 12289 : ℚ) : ℝ) * rnd (sqrdNormC (ieeeA b) n F + sqrdNormC (ieeeA b) n G)) ≤ 16820
    have q : rnd ((12289 * 12289 : ℚ) : ℝ) = 151019521 := by
      have : ((12289 * 12289 : ℚ) : ℝ) = ((151019521 : ℤ) : ℝ) := by norm_num
      rw [this, rnd_of_rep (rep_int (by norm_num))]
      norm_num
    rw [q]
    have u3 : rnd (sqrdNormC (ieeeA b) n F + sqrdNormC (ieeeA b) n G)
        ≤ (1 + 1 / 2 ^ 50) * (SF / 2 ^ n + SG / 2 ^ n + 1 / 2 ^ 34) + 1 / 2 ^ 50 := by
      refine (rnd_mono (y := SF / 2 ^ n + SG / 2 ^ n + 1 / 2 ^ 34) ?_).trans (rnd_up50 (by positivity))
      refine (add_le_add uF uG).trans (le_of_eq ?_)
      ring
    refine rnd_le_of_rep ⟨16820, 0, by norm_num, by norm_num, by norm_num⟩ ?_
    generalize rnd (sqrdNormC (ieeeA b) n F + sqrdNormC (ieeeA b) n G) = R at *
    generalize (∑ j ∈ range (2 ^ n), 1 / gramAt n f g j) / 2 ^ n = Q at *
    generalize SF / 2 ^ n = a at *
    generalize SG / 2 ^ n = c at *
    clear * - u3 hq hsum
    norm_num at *
    linarith

end Falcon
