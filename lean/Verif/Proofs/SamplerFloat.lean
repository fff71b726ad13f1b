import Verif.Model.Sampler
import Verif.Proofs.FloatEval
import Verif.Proofs.Sampler
import Verif.Proofs.ApproxExp

/-! # Floating point part of the sampler -/

namespace Falcon

theorem LN2_eq : LN2 = (6243314768165359 : ℤ) * (2 : ℝ) ^ (-53 : ℤ) := by
  unfold LN2
  refine rnd_eq_of _ _ (by norm_num) ?_ ?_ ?_ <;> norm_num [abs_lt, abs_of_pos]

theorem INV_eq : INV_LN2 = (6497320848556798 : ℤ) * (2 : ℝ) ^ (-52 : ℤ) := by
  unfold INV_LN2 fdiv
  rw [LN2_eq]
  refine rnd_eq_of _ _ (by norm_num) ?_ ?_ ?_ <;> norm_num [abs_lt, abs_of_pos]

/-- Mantissa of the double `s * LN2` and its position. -/
def sD (s : ℕ) : ℕ := Nat.log2 (s * 6243314768165359) - 52
def sM (s : ℕ) : ℕ := (s * 6243314768165359 + 2 ^ sD s / 2) / 2 ^ sD s

/-- For every `s < 200`: `s * LN2` rounds to `sM s * 2^(sD s - 53)`, and the double below that, times
`INV_LN2`, rounds to something below `s`. -/
theorem s_table : ∀ s, s < 200 → 1 ≤ s →
    2 ^ 52 < sM s ∧ sM s < 2 ^ 53 ∧ sD s ≤ 8 ∧
    2 ^ (sD s + 52) ≤ s * 6243314768165359 ∧ s * 6243314768165359 < 2 ^ (sD s + 53) ∧
    2 * (s * 6243314768165359) < 2 * (sM s * 2 ^ sD s) + 2 ^ sD s ∧
    2 * (sM s * 2 ^ sD s) < 2 * (s * 6243314768165359) + 2 ^ sD s ∧
    (sM s - 1) * 6497320848556798 < 2 ^ (Nat.log2 ((sM s - 1) * 6497320848556798) + 1) ∧
    52 ≤ Nat.log2 ((sM s - 1) * 6497320848556798) ∧
    2 * ((sM s - 1) * 6497320848556798) + 2 ^ (Nat.log2 ((sM s - 1) * 6497320848556798) - 52)
      < 2 * (s * 2 ^ (105 - sD s)) := by
  decide +kernel

theorem two_zpow_nat (k : ℕ) : ((2 : ℝ) ^ (k : ℤ)) = ((2 ^ k : ℕ) : ℝ) := by push_cast; simp

theorem natCast_sub_ge (d : ℕ) (c : ℤ) (hc : c ≤ 1074) : -1074 ≤ (d : ℤ) - c := by omega

theorem rnd_scaled (K m d : ℕ) (a1 : 2 ^ (d + 52) ≤ K) (a2 : K < 2 ^ (d + 53))
    (a3 : 2 * K < 2 * (m * 2 ^ d) + 2 ^ d) (a4 : 2 * (m * 2 ^ d) < 2 * K + 2 ^ d) :
    rnd ((K : ℝ) * 2 ^ (-53 : ℤ)) = ((m : ℤ) : ℝ) * 2 ^ ((d : ℤ) - 53) := by
  have hp := two_zpow_pos (-53)
  have hK0 : (0 : ℝ) ≤ (K : ℝ) * 2 ^ (-53 : ℤ) := mul_nonneg (Nat.cast_nonneg K) hp.le
  refine rnd_eq_of _ _ (natCast_sub_ge d 53 (by norm_num)) ?_ ?_ ?_
  · rw [abs_of_nonneg hK0]
    have : ((2 ^ (d + 52) : ℕ) : ℝ) ≤ (K : ℝ) := by exact_mod_cast a1
    calc (2 : ℝ) ^ ((d : ℤ) - 53 + 52) = ((2 ^ (d + 52) : ℕ) : ℝ) * 2 ^ (-53 : ℤ) := by
          rw [← two_zpow_nat, ← zpow_add₀ (by norm_num)]; congr 1; push_cast; ring
      _ ≤ _ := mul_le_mul_of_nonneg_right this hp.le
  · rw [abs_of_nonneg hK0]
    have : (K : ℝ) < ((2 ^ (d + 53) : ℕ) : ℝ) := by exact_mod_cast a2
    calc _ < ((2 ^ (d + 53) : ℕ) : ℝ) * 2 ^ (-53 : ℤ) := mul_lt_mul_of_pos_right this hp
      _ = (2 : ℝ) ^ ((d : ℤ) - 53 + 53) := by
          rw [← two_zpow_nat, ← zpow_add₀ (by norm_num)]; congr 1; push_cast; ring
  · have e : (K : ℝ) * 2 ^ (-53 : ℤ) / 2 ^ ((d : ℤ) - 53) = (K : ℝ) / ((2 ^ d : ℕ) : ℝ) := by
      rw [← two_zpow_nat, zpow_sub₀ (by norm_num), zpow_neg]
      have := (two_zpow_pos (d : ℤ)).ne'
      field_simp
    rw [e]
    have hD : (0 : ℝ) < ((2 ^ d : ℕ) : ℝ) := by positivity
    have b3 : (2 : ℝ) * K < 2 * (m * ((2 ^ d : ℕ) : ℝ)) + ((2 ^ d : ℕ) : ℝ) := by exact_mod_cast a3
    have b4 : (2 : ℝ) * (m * ((2 ^ d : ℕ) : ℝ)) < 2 * K + ((2 ^ d : ℕ) : ℝ) := by exact_mod_cast a4
    clear a1 a2 a3 a4 e hK0
    generalize ((2 ^ d : ℕ) : ℝ) = D at *
    rw [Int.cast_natCast, abs_lt]
    constructor
    · rw [lt_sub_iff_add_lt, lt_div_iff₀ hD]; linarith
    · rw [sub_lt_iff_lt_add, div_lt_iff₀ hD]; linarith

theorem rnd_sLN2 (s : ℕ) (hs : s < 200) (h1 : 1 ≤ s) :
    fmul (s : ℝ) LN2 = ((sM s : ℤ) : ℝ) * 2 ^ ((sD s : ℤ) - 53) := by
  obtain ⟨_, _, _, a1, a2, a3, a4, _⟩ := s_table s hs h1
  rw [← rnd_scaled _ _ _ a1 a2 a3 a4]
  unfold fmul
  rw [LN2_eq]
  congr 1
  push_cast; ring

theorem rnd_below (P d s L : ℕ) (hP0 : 0 < P) (hd : d ≤ 8) (c1 : P < 2 ^ (L + 1)) (c2 : 52 ≤ L)
    (c3 : 2 * P + 2 ^ (L - 52) < 2 * (s * 2 ^ (105 - d))) :
    rnd ((P : ℝ) * 2 ^ ((d : ℤ) - 105)) < s := by
  have hpd := two_zpow_pos ((d : ℤ) - 105)
  have herr := rnd_abs_err ((P : ℝ) * 2 ^ ((d : ℤ) - 105))
  have hx0 : (P : ℝ) * 2 ^ ((d : ℤ) - 105) ≠ 0 :=
    (mul_pos (Nat.cast_pos.mpr hP0) hpd).ne'
  have hlt : |(P : ℝ) * 2 ^ ((d : ℤ) - 105)| < 2 ^ ((L : ℤ) + 1 + ((d : ℤ) - 105)) := by
    rw [abs_of_nonneg (mul_nonneg (Nat.cast_nonneg P) hpd.le), zpow_add₀ (by norm_num)]
    refine mul_lt_mul_of_pos_right ?_ hpd
    have : (P : ℝ) < ((2 ^ (L + 1) : ℕ) : ℝ) := by exact_mod_cast c1
    rw [← two_zpow_nat] at this
    exact_mod_cast this
  have hl := log_lt_of hx0 hlt
  have hf : fexp ((P : ℝ) * 2 ^ ((d : ℤ) - 105)) ≤ (L - 52 : ℕ) + ((d : ℤ) - 105) := by
    unfold fexp
    rw [Nat.cast_sub c2]
    clear c3 c1
    refine max_le ?_ ?_
    · push_cast; omega
    · push_cast; omega
  have hu : (2 : ℝ) ^ fexp ((P : ℝ) * 2 ^ ((d : ℤ) - 105)) ≤ ((2 ^ (L - 52) : ℕ) : ℝ) * 2 ^ ((d : ℤ) - 105) := by
    refine (zpow_le_zpow_right₀ (by norm_num) hf).trans (le_of_eq ?_)
    rw [zpow_add₀ (by norm_num), two_zpow_nat]
  have c3' : (2 : ℝ) * P + ((2 ^ (L - 52) : ℕ) : ℝ) < 2 * (s * ((2 ^ (105 - d) : ℕ) : ℝ)) := by
    exact_mod_cast c3
  have e2 : ((2 ^ (105 - d) : ℕ) : ℝ) * 2 ^ ((d : ℤ) - 105) = 1 := by
    rw [← two_zpow_nat, ← zpow_add₀ (by norm_num), Nat.cast_sub (by omega)]
    norm_num
  rw [abs_le] at herr
  clear c1 c3 hlt hl hf hx0
  have h3 : (2 * (P : ℝ) + ((2 ^ (L - 52) : ℕ) : ℝ)) * 2 ^ ((d : ℤ) - 105)
      < 2 * (s * ((2 ^ (105 - d) : ℕ) : ℝ)) * 2 ^ ((d : ℤ) - 105) := mul_lt_mul_of_pos_right c3' hpd
  have e3 : 2 * ((s : ℝ) * ((2 ^ (105 - d) : ℕ) : ℝ)) * 2 ^ ((d : ℤ) - 105) = 2 * s := by
    rw [mul_assoc, mul_assoc, e2]; ring
  rw [e3, add_mul] at h3
  linarith [herr.1, herr.2]

theorem pred_times_inv (s : ℕ) (hs : s < 200) (h1 : 1 ≤ s) :
    rnd ((((sM s : ℤ) - 1 : ℤ) : ℝ) * 2 ^ ((sD s : ℤ) - 53) * INV_LN2) < s := by
  obtain ⟨hm, _, hd, _, _, _, _, c1, c2, c3⟩ := s_table s hs h1
  have hm' : 1 ≤ sM s := le_trans (by norm_num) hm.le
  have hP0 : 0 < (sM s - 1) * 6497320848556798 :=
    Nat.mul_pos (Nat.sub_pos_of_lt (lt_of_le_of_lt (by norm_num) hm)) (by norm_num)
  have key := rnd_below _ _ _ _ hP0 hd c1 c2 c3
  have e0 : (((sM s : ℤ) - 1 : ℤ) : ℝ) * 2 ^ ((sD s : ℤ) - 53) * INV_LN2
      = (((sM s - 1) * 6497320848556798 : ℕ) : ℝ) * 2 ^ ((sD s : ℤ) - 105) := by
    clear key c1 c2 c3 hP0
    rw [INV_eq, show (sD s : ℤ) - 105 = ((sD s : ℤ) - 53) + (-52) by ring, zpow_add₀ (by norm_num),
      Nat.cast_mul, Nat.cast_sub hm']
    push_cast; ring
  rw [e0]
  exact key

/-- Range of the quotient. -/
theorem berS_nonneg {x : ℝ} (h0 : 0 ≤ x) : 0 ≤ berS x := by
  unfold berS fmul
  rw [Int.floor_nonneg, ← rnd_zero]
  apply rnd_mono
  rw [INV_eq]
  have := two_zpow_pos (-52)
  positivity

theorem berS_lt {x : ℝ} (h1 : x < 137) : berS x < 199 := by
  unfold berS fmul
  rw [Int.floor_lt]
  have : rnd (x * INV_LN2) ≤ 198 := by
    refine rnd_le_of_rep ?_ ?_
    · have := rep_int (n := 198) (by norm_num)
      exact_mod_cast this
    · rw [INV_eq]
      have h : ((6497320848556798 : ℤ) : ℝ) * (2 : ℝ) ^ (-52 : ℤ) ≤ 1.4427 := by norm_num
      have h' : (0 : ℝ) ≤ ((6497320848556798 : ℤ) : ℝ) * (2 : ℝ) ^ (-52 : ℤ) := by norm_num
      calc x * _ ≤ 137 * (((6497320848556798 : ℤ) : ℝ) * (2 : ℝ) ^ (-52 : ℤ)) :=
            mul_le_mul_of_nonneg_right h1.le h'
        _ ≤ 137 * 1.4427 := mul_le_mul_of_nonneg_left h (by norm_num)
        _ ≤ 198 := by norm_num
  push_cast
  linarith

/-- `s * LN2`, rounded, never exceeds `x`. -/
theorem sLN2_le {x : ℝ} (hx : Rep x) (h0 : 0 ≤ x) (h1 : x < 137) : fmul (berS x) LN2 ≤ x := by
  have hs0 := berS_nonneg h0
  have hs1 := berS_lt h1
  obtain ⟨s, hs⟩ : ∃ s : ℕ, berS x = s := ⟨(berS x).toNat, by omega⟩
  rw [hs] at hs1 ⊢
  have hs1 : s < 199 := by exact_mod_cast hs1
  rcases Nat.eq_zero_or_pos s with rfl | hpos
  · unfold fmul; simp [rnd_zero, h0]
  · by_contra hlt
    push Not at hlt
    have hr := rnd_sLN2 s (by omega) hpos
    rw [Int.cast_natCast, hr] at hlt
    have hp := rep_lt hx _ _ (by exact_mod_cast (s_table s (by omega) hpos).1) hlt
    have hq := pred_times_inv s (by omega) hpos
    have hle : rnd (x * INV_LN2) ≤ rnd ((((sM s : ℤ) - 1 : ℤ) : ℝ) * 2 ^ ((sD s : ℤ) - 53) * INV_LN2) := by
      refine rnd_mono (mul_le_mul_of_nonneg_right hp ?_)
      rw [INV_eq]
      have := two_zpow_pos (-52)
      positivity
    have hfl : ((berS x : ℤ) : ℝ) ≤ rnd (x * INV_LN2) := Int.floor_le _
    rw [hs] at hfl
    push_cast at hfl
    linarith

theorem berR_nonneg {x : ℝ} (hx : Rep x) (h0 : 0 ≤ x) (h1 : x < 137) : 0 ≤ berR false x := by
  show 0 ≤ rnd (x - fmul (berS x) LN2)
  rw [← rnd_zero]
  exact rnd_mono (by have := sLN2_le hx h0 h1; linarith)

/-- The reduced argument before the final rounding. -/
theorem berR_arg_lt {x : ℝ} (h0 : 0 ≤ x) (h1 : x < 137) :
    x - fmul (berS x) LN2 ≤ 0.69315 := by
  have hs0 := berS_nonneg h0
  have hs1 := berS_lt h1
  obtain ⟨s, hs⟩ : ∃ s : ℕ, berS x = s := ⟨(berS x).toNat, by omega⟩
  have hlt : x * INV_LN2 < s + 1 := by
    by_contra hge
    push Not at hge
    have hrep : Rep ((s : ℝ) + 1) := by
      have := rep_int (n := (s : ℤ) + 1) (by rw [hs] at hs1; rw [abs_of_nonneg (by omega)]; omega)
      push_cast at this
      exact this
    have h2 := le_rnd_of_rep hrep hge
    have h3 : rnd (x * INV_LN2) < berS x + 1 := Int.lt_floor_add_one _
    rw [hs] at h3
    push_cast at h3
    linarith
  rw [hs]
  have hb : (s : ℝ) * LN2 - fmul ((s : ℤ) : ℝ) LN2 ≤ 199 / 2 ^ 53 := by
    have h := rnd_err ((s : ℝ) * LN2)
    unfold fmul
    rw [Int.cast_natCast]
    rw [abs_le] at h
    have hl : |(s : ℝ) * LN2| ≤ 198 * 0.7 := by
      have hl0 : (0 : ℝ) ≤ LN2 := by rw [LN2_eq]; norm_num
      have hl1 : LN2 ≤ 0.7 := by rw [LN2_eq]; norm_num
      rw [abs_of_nonneg (by positivity)]
      have hsr : (s : ℝ) ≤ 198 := by
        have : s ≤ 198 := by omega
        exact_mod_cast this
      exact mul_le_mul hsr hl1 hl0 (by norm_num)
    have h2 : |(s : ℝ) * LN2| * 2 ^ (-53 : ℤ) ≤ 198 * 0.7 * 2 ^ (-53 : ℤ) :=
      mul_le_mul_of_nonneg_right hl (two_zpow_pos _).le
    have h3 : (2 : ℝ) ^ (-1075 : ℤ) ≤ 2 ^ (-53 : ℤ) := zpow_le_zpow_right₀ (by norm_num) (by norm_num)
    have h4 : (2 : ℝ) ^ (-53 : ℤ) = 1 / 2 ^ 53 := by norm_num
    rw [h4] at h2 h3
    rw [h4] at h
    have := h.1
    rw [div_eq_mul_one_div]
    nlinarith
  rw [INV_eq] at hlt
  rw [LN2_eq] at hb ⊢
  have hsr : (s : ℝ) ≤ 198 := by
    have : s ≤ 198 := by omega
    exact_mod_cast this
  have hs0' : (0 : ℝ) ≤ s := by positivity
  norm_num at hlt hb ⊢
  linarith

theorem berR_lt {x : ℝ} (h0 : 0 ≤ x) (h1 : x < 137) : berR false x < 0.6932 := by
  have h := berR_arg_lt h0 h1
  have hrep : Rep (45428 / 65536 : ℝ) := ⟨45428, -16, by norm_num, by norm_num, by norm_num⟩
  have : berR false x ≤ 45428 / 65536 := by
    show rnd (x - fmul (berS x) LN2) ≤ _
    refine rnd_le_of_rep hrep ?_
    norm_num at h ⊢
    linarith
  norm_num at this ⊢
  linarith

end Falcon
