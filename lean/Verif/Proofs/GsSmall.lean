import Verif.Proofs.GsFloat
import Verif.Proofs.Basis
import Verif.SmallSpec

/-!
# The Gram-Schmidt test of key generation bounds the two norms
-/

namespace Falcon

open Finset

/-- In exact arithmetic the test is the bound. -/
theorem gsSmall_exact {n : ℕ} (hn : ValidLog n) {f g : Mem Int} (hne : ∃ i, i < 2 ^ n ∧ (f i ≠ 0 ∨ g i ≠ 0))
    (h : gsTooBig exactA n f g = false) : GsSmall n f g := by
  have hn10 : n ≤ 10 := by rcases hn with rfl | rfl <;> norm_num
  have h1 : gramSchmidtNorm exactA n f g ≤ 16900 := by
    have h : @decide (gramSchmidtNorm exactA n f g > gsThreshold exactA) (Classical.propDecidable _) = false := h
    have h := of_decide_eq_false h
    have e : gsThreshold exactA = 117 / 100 * (117 / 100) * 12289 := by
      show (((1.17 : ℚ) : ℝ) * ((1.17 : ℚ) : ℝ)) * ((12289 : ℚ) : ℝ) = _
      norm_num
    rw [e] at h
    exact (not_lt.mp h).trans (by norm_num)
  have hpos := gram_pos hn10 hne
  have hN : (0 : ℝ) < 2 ^ n := by positivity
  rw [gsNorm_fg hn10 (fun i hi => hpos i hi), sum_fgNorm hn10] at h1
  constructor
  · have := (le_max_left _ _).trans h1
    rwa [mul_div_cancel_left₀ _ hN.ne'] at this
  · have := (le_max_right _ _).trans h1
    rw [← mul_div_assoc, div_le_iff₀ hN, mul_sum] at this
    refine le_trans (le_of_eq (sum_congr rfl fun j _ => ?_)) this
    rw [mul_one_div]
    rfl

section
variable {A : Arith ℝ ℂ} (hA : Accurate A)
include hA

/-- The computed f* / (ff* + gg*), when ff* + gg* is at least 1. -/
theorem inv_low1 {X x D : ℂ} {r : ℝ} (hr : 1 ≤ r) (hr1 : r ≤ 2 ^ 20) (hx : ‖x‖ ≤ r) (h : ‖X - x‖ ≤ delD)
    (hD : ‖D - ((r ^ 2 : ℝ) : ℂ)‖ ≤ 1 / 2 ^ 20 * r ^ 2) : ‖x‖ - 1 / 10000 * r ≤ ‖A.cdiv (A.conj X) D‖ * r ^ 2 := by
  have hr0 : 0 < r := by linarith
  have hrr : r ≤ r ^ 2 := by nlinarith
  have hrn : ‖((r ^ 2 : ℝ) : ℂ)‖ = r ^ 2 := by rw [Complex.norm_real, Real.norm_of_nonneg (by positivity)]
  have hup := norm_near hA hD
  have hlo := norm_near hA (x := ((r ^ 2 : ℝ) : ℂ)) (y := D) (e := 1 / 2 ^ 20 * r ^ 2) (by rw [norm_sub_rev]; exact hD)
  rw [hrn] at hup hlo
  have hD1 : 9 / 10 * r ^ 2 ≤ ‖D‖ := by norm_num at hlo; linarith
  have hD0 : 0 < ‖D‖ := by nlinarith
  have hq := hA.cdiv (A.conj X) D (by
    have : (1 : ℝ) / 2 ^ 20 ≤ 9 / 10 := by norm_num
    nlinarith)
  have hxX := norm_near hA (x := x) (y := X) (e := delD) (by rw [norm_sub_rev]; exact h)
  have hXx := norm_near hA h
  have hn : ‖A.conj X / D‖ = ‖X‖ / ‖D‖ := by rw [hA.conj, norm_div, RCLike.norm_conj]
  have hb := norm_near hA (x := A.conj X / D) (y := A.cdiv (A.conj X) D)
    (e := 16 * uD * ‖A.conj X / D‖ + tinyD) (by rw [norm_sub_rev]; exact hq)
  rw [hn] at hb
  have ha : ‖X‖ / ‖D‖ * ‖D‖ = ‖X‖ := div_mul_cancel₀ _ hD0.ne'
  have ha0 : 0 ≤ ‖X‖ / ‖D‖ := by positivity
  have hd1 : delD ≤ 1 / 2 ^ 20 := by unfold delD; norm_num
  generalize ‖X‖ / ‖D‖ = a at *
  generalize ‖A.cdiv (A.conj X) D‖ = b at *
  generalize ‖D‖ = d at *
  generalize ‖X‖ = X' at *
  generalize ‖x‖ = x' at *
  clear hq hn hrn h hD hlo
  have a1 : a * (9 / 10 * r ^ 2) ≤ X' := by rw [← ha]; gcongr
  have a2 : a * r ^ 2 ≤ 2 * r := by norm_num at hd1; linarith
  have a3 : X' ≤ a * ((1 + 1 / 2 ^ 20) * r ^ 2) := by
    rw [← ha]; apply mul_le_mul_of_nonneg_left _ ha0; linarith
  have a4 : x' - 1 / 2 ^ 20 - 1 / 2 ^ 20 * (2 * r) ≤ a * r ^ 2 := by
    norm_num at *; linarith
  have b1 : a * r ^ 2 ≤ b * r ^ 2 + 16 * uD * (a * r ^ 2) + tinyD * r ^ 2 := by
    have := mul_le_mul_of_nonneg_right hb (show 0 ≤ r ^ 2 by positivity)
    linarith [show (b + (16 * uD * a + tinyD)) * r ^ 2 = b * r ^ 2 + 16 * uD * (a * r ^ 2) + tinyD * r ^ 2 by ring]
  have c1 : tinyD * r ^ 2 ≤ 1 / 2 ^ 80 * r := by
    have e : 1 / 2 ^ 80 * r = tinyD * (2 ^ 20 * r) := by unfold tinyD; norm_num; ring
    rw [e, sq]
    gcongr
    exact tinyD_pos.le
  have c2 : 16 * uD * (a * r ^ 2) ≤ 16 * uD * (2 * r) := by
    gcongr; have := uD_pos; positivity
  generalize a * r ^ 2 = A2 at *
  generalize b * r ^ 2 = B2 at *
  generalize tinyD * r ^ 2 = T2 at *
  clear * - a4 b1 c1 c2 hr
  rw [show uD = 1 / 2 ^ 53 from rfl] at *
  norm_num at *
  linarith

theorem ftAt1 {X Y x y : ℂ} {D : ℝ} (hD : 1 ≤ D) (hD1 : D ≤ 2 ^ 40) (e : D = Complex.normSq x + Complex.normSq y)
    (hX : ‖X - x‖ ≤ delD) (hY : ‖Y - y‖ ≤ delD) :
    999 / 1000 / D ≤ ‖A.cdiv (A.conj X) (A.cadd (A.cmul X (A.conj X)) (A.cmul Y (A.conj Y)))‖ ^ 2 +
      ‖A.cdiv (A.conj Y) (A.cadd (A.cmul X (A.conj X)) (A.cmul Y (A.conj Y)))‖ ^ 2 := by
  have hr2 : Real.sqrt D ^ 2 = D := Real.sq_sqrt (by linarith)
  have hr : 1 ≤ Real.sqrt D := by
    apply Real.le_sqrt_of_sq_le; linarith
  have hr1 : Real.sqrt D ≤ 2 ^ 20 := by
    rw [Real.sqrt_le_left (by norm_num)]; refine hD1.trans ?_; norm_num
  generalize Real.sqrt D = r at *
  subst hr2
  rw [Complex.normSq_eq_norm_sq, Complex.normSq_eq_norm_sq] at e
  have hx : ‖x‖ ≤ r := abs_le_of_sq_le_sq' (by nlinarith [sq_nonneg ‖y‖]) (by linarith) |>.2
  have hy : ‖y‖ ≤ r := abs_le_of_sq_le_sq' (by nlinarith [sq_nonneg ‖x‖]) (by linarith) |>.2
  have hden := den_near' hA (by linarith) hx hy hX hY
  have e2 : x * (starRingEnd ℂ) x + y * (starRingEnd ℂ) y = ((r ^ 2 : ℝ) : ℂ) := by
    rw [Complex.mul_conj, Complex.mul_conj, e, Complex.normSq_eq_norm_sq, Complex.normSq_eq_norm_sq]; push_cast; ring
  rw [e2] at hden
  have h1 := inv_low1 hA hr hr1 hx hX hden
  have h2 := inv_low1 hA hr hr1 hy hY hden
  have sqr : ∀ {u v : ℝ}, 0 ≤ u → 0 ≤ v → u ≤ r → u - 1 / 10000 * r ≤ v → u ^ 2 - 2 / 10000 * r ^ 2 ≤ v ^ 2 := by
    intro u v hu hv hur huv
    by_cases hc : 1 / 10000 * r ≤ u
    · have := pow_le_pow_left₀ (by linarith) huv 2
      have m : u * r ≤ r * r := mul_le_mul_of_nonneg_right hur (by linarith)
      nlinarith [sq_nonneg r]
    · push Not at hc
      have m : u * u ≤ 1 / 10000 * r * r := mul_le_mul hc.le hur hu (by positivity)
      nlinarith [sq_nonneg v, sq_nonneg r]
  have k1 := sqr (norm_nonneg x) (by positivity) hx h1
  have k2 := sqr (norm_nonneg y) (by positivity) hy h2
  have hp : 0 < r ^ 2 := by positivity
  generalize ‖A.cdiv (A.conj X) (A.cadd (A.cmul X (A.conj X)) (A.cmul Y (A.conj Y)))‖ = p at *
  generalize ‖A.cdiv (A.conj Y) (A.cadd (A.cmul X (A.conj X)) (A.cmul Y (A.conj Y)))‖ = q at *
  rw [div_le_iff₀ hp]
  have : 999 / 1000 * r ^ 2 ≤ ((p ^ 2 + q ^ 2) * r ^ 2) * r ^ 2 := by nlinarith
  exact le_of_mul_le_mul_right this hp

/-- The second norm. -/
theorem norms_sum {n : ℕ} (hn : ValidLog n) {f g : Mem Int}
    (hf : ∀ i, i < 2 ^ n → |f i| ≤ 19 * (4096 / 2 ^ n)) (hg : ∀ i, i < 2 ^ n → |g i| ≤ 19 * (4096 / 2 ^ n))
    {F G : Mem ℂ} {X Y : Mem ℂ}
    (hX : ∀ j, j < 2 ^ n → X j = fft A n (toCx A n f) j) (hY : ∀ j, j < 2 ^ n → Y j = fft A n (toCx A n g) j)
    (hF : ∀ j, j < 2 ^ n → F j = A.cdiv (A.conj (X j)) (A.cadd (A.cmul (X j) (A.conj (X j))) (A.cmul (Y j) (A.conj (Y j)))))
    (hG : ∀ j, j < 2 ^ n → G j = A.cdiv (A.conj (Y j)) (A.cadd (A.cmul (X j) (A.conj (X j))) (A.cmul (Y j) (A.conj (Y j)))))
    (hs : sqrdNormC A n F + sqrdNormC A n G ≤ 1 / 8970) (hD : ∀ j, j < 2 ^ n → 1 ≤ gramAt n f g j) :
    ∑ j ∈ range (2 ^ n), (12289 : ℝ) ^ 2 / gramAt n f g j ≤ 16900 * 2 ^ n := by
  have hn10 : n ≤ 10 := by rcases hn with rfl | rfl <;> norm_num
  have hm : ((19 * (4096 / 2 ^ n) : ℤ) : ℝ) * 2 ^ n + 200 ≤ bK := by
    unfold bK
    rcases hn with rfl | rfl <;> norm_num
  have hk0 : (0 : ℤ) ≤ 19 * (4096 / 2 ^ n) := by positivity
  have small : ∀ a : Mem Int, (∀ i, i < 2 ^ n → |a i| ≤ 19 * (4096 / 2 ^ n)) → ∀ i, i < 2 ^ n → |a i| ≤ 2 ^ 53 := by
    intro a ha i hi
    refine (ha i hi).trans ?_
    rcases hn with rfl | rfl <;> norm_num
  have bas : ∀ a : Mem Int, (∀ i, i < 2 ^ n → |a i| ≤ 19 * (4096 / 2 ^ n)) → ∀ j, j < 2 ^ n →
      ‖dft n (zC a) j‖ ≤ bK ∧ ‖fft A n (toCx A n a) j - dft n (zC a) j‖ ≤ delD := by
    intro a ha j hj
    have h := basis_near hA hn a (toCx A n a) 1 (Or.inl rfl) ha
      (fun i hi => by rw [one_mul]; exact toCx_at hA (small a ha) i hi) hm (le_of_eq rfl) hk0 j hj
    simp only [one_mul] at h
    refine ⟨h.2.1, h.2.2.trans (le_of_eq ?_)⟩
    unfold kapD bK delD; norm_num
  have h1 : ∀ j, j < 2 ^ n → 999 / 1000 / gramAt n f g j ≤ ‖F j‖ ^ 2 + ‖G j‖ ^ 2 := by
    intro j hj
    rw [hF j hj, hG j hj]
    refine ftAt1 hA (hD j hj) ?_ rfl (by rw [hX j hj]; exact (bas f hf j hj).2) (by rw [hY j hj]; exact (bas g hg j hj).2)
    show Complex.normSq _ + Complex.normSq _ ≤ _
    rw [Complex.normSq_eq_norm_sq, Complex.normSq_eq_norm_sq]
    have e1 := pow_le_pow_left₀ (norm_nonneg _) (bas f hf j hj).1 2
    have e2 := pow_le_pow_left₀ (norm_nonneg _) (bas g hg j hj).1 2
    refine (add_le_add e1 e2).trans ?_
    unfold bK; norm_num
  have a1 := normC_err hA hn10 F
  have a2 := normC_err hA hn10 G
  have hN : (0 : ℝ) < 2 ^ n := by positivity
  rw [div_le_iff₀ hN, nC_sq] at a1 a2
  have h2 := (sum_le_sum fun j hj => h1 j (mem_range.mp hj)).trans (le_of_eq sum_add_distrib)
  have h3 : ∑ j ∈ range (2 ^ n), (12289 : ℝ) ^ 2 / gramAt n f g j
      = 12289 ^ 2 * (1000 / 999) * ∑ j ∈ range (2 ^ n), 999 / 1000 / gramAt n f g j := by
    rw [mul_sum]
    refine sum_congr rfl fun j hj => ?_
    have := hD j (mem_range.mp hj)
    field_simp
  rw [h3]
  have h4 := h2.trans (add_le_add a1 a2)
  rw [← add_mul] at h4
  generalize sqrdNormC A n F = u at *
  generalize sqrdNormC A n G = v at *
  have h5 : (1 + 1 / 2 ^ 37) * u + 1 / 2 ^ 37 + ((1 + 1 / 2 ^ 37) * v + 1 / 2 ^ 37) ≤ 1 / 8969 := by
    norm_num; linarith
  have h6 := h4.trans (mul_le_mul_of_nonneg_right h5 hN.le)
  generalize ∑ j ∈ range (2 ^ n), 999 / 1000 / gramAt n f g j = S at *
  generalize (2 : ℝ) ^ n = N at *
  clear * - h6 hN
  norm_num at *
  linarith

end

/-- A sum of squares of integers is computed without error. -/
theorem sqrdNormR_int (b : Bool) {n : ℕ} (hn : n ≤ 10) {f : Mem Int} (hf : ∀ i, i < 2 ^ n → |f i| ≤ 2 ^ 20) :
    sqrdNormR (ieeeA b) n (loop (1 <<< n) (fun i m => upd m i ((ieeeA b).lit (f i))) fun _ => (ieeeA b).lit 0)
      = ((∑ i ∈ range (2 ^ n), f i ^ 2 : ℤ) : ℝ) := by
  have sq1 : ∀ i, i < 2 ^ n → f i ^ 2 ≤ 2 ^ 40 := by
    intro i hi
    have := pow_le_pow_left₀ (abs_nonneg _) (hf i hi) 2
    rw [sq_abs] at this
    exact this.trans (by norm_num)
  have hm : ∀ m, m ≤ 2 ^ n → loop m (fun i res => rnd (res + rnd (loop (1 <<< n) (fun i m => upd m i
      (rnd (((f i : ℤ) : ℚ) : ℝ))) (fun _ => rnd ((0 : ℚ) : ℝ)) i * loop (1 <<< n) (fun i m => upd m i
      (rnd (((f i : ℤ) : ℚ) : ℝ))) (fun _ => rnd ((0 : ℚ) : ℝ)) i))) (rnd ((0 : ℚ) : ℝ))
        = ((∑ i ∈ range m, f i ^ 2 : ℤ) : ℝ) := by
    intro m
    induction m with
    | zero =>
      intro _
      show rnd ((0 : ℚ) : ℝ) = _
      rw [Rat.cast_zero, rnd_zero]
      simp
    | succ m ih =>
      intro hm
      have hi : m < 2 ^ n := by omega
      rw [loop_succ, ih (by omega), loop_fill_lt _ (fun i => rnd (((f i : ℤ) : ℚ) : ℝ)) _ _ (by
            rw [one_shiftLeft']; exact hi)]
      rw [Rat.cast_intCast, rnd_of_rep (rep_int ((hf m hi).trans (by norm_num))), ← Int.cast_mul, ← sq]
      have s1 := sq1 m hi
      rw [rnd_of_rep (rep_int (by rw [abs_of_nonneg (sq_nonneg _)]; exact s1.trans (by norm_num))), ← Int.cast_add,
        ← sum_range_succ]
      refine rnd_of_rep (rep_int ?_)
      rw [abs_of_nonneg (sum_nonneg fun _ _ => sq_nonneg _)]
      refine (sum_le_sum (g := fun _ => (2 : ℤ) ^ 40) fun i hi => sq1 i (by have := mem_range.mp hi; omega)).trans ?_
      rw [sum_const, card_range, nsmul_eq_mul]
      have : ((m + 1 : ℕ) : ℤ) ≤ 2 ^ 10 := by
        have : m + 1 ≤ 2 ^ 10 := hm.trans (Nat.pow_le_pow_right (by norm_num) hn)
        exact_mod_cast this
      calc _ ≤ (2 : ℤ) ^ 10 * 2 ^ 40 := by gcongr
        _ ≤ _ := by norm_num
  have := hm (2 ^ n) le_rfl
  rw [← one_shiftLeft' n] at this ⊢
  exact this

/-- In binary64 the test bounds the norms, if ff* + gg* is not nearly zero. -/
theorem gsSmall_float (b : Bool) {n : ℕ} (hn : ValidLog n) {f g : Mem Int}
    (hf : ∀ i, i < 2 ^ n → |f i| ≤ 19 * (4096 / 2 ^ n)) (hg : ∀ i, i < 2 ^ n → |g i| ≤ 19 * (4096 / 2 ^ n))
    (h : gsTooBig (ieeeA b) n f g = false) (hD : ∀ j, j < 2 ^ n → 1 / 2 ^ 10 ≤ gramAt n f g j) : GsSmall n f g := by
  have hn10 : n ≤ 10 := by rcases hn with rfl | rfl <;> norm_num
  have hD1 := fun j hj => gs_float b hn hf hg h j hj (hD j hj)
  obtain ⟨F, G, hs, hFG, h1⟩ := gs_parts b h
  have small : ∀ a : Mem Int, (∀ i, i < 2 ^ n → |a i| ≤ 19 * (4096 / 2 ^ n)) → ∀ i, i < 2 ^ n → |a i| ≤ 2 ^ 20 := by
    intro a ha i hi
    refine (ha i hi).trans ?_
    rcases hn with rfl | rfl <;> norm_num
  refine ⟨?_, norms_sum (accurate_ieee b) hn hf hg (X := fft (ieeeA b) n (toCx (ieeeA b) n f))
    (Y := fft (ieeeA b) n (toCx (ieeeA b) n g))
    (fun _ _ => rfl) (fun _ _ => rfl) (fun j hj => (hFG j hj).1) (fun j hj => (hFG j hj).2) hs hD1⟩
  rw [sqrdNormR_int b hn10 (small f hf), sqrdNormR_int b hn10 (small g hg), ← Int.cast_add, ← sum_add_distrib] at h1
  have e : ∑ i ∈ range (2 ^ n), ((f i : ℝ) ^ 2 + (g i : ℝ) ^ 2) = ((∑ i ∈ range (2 ^ n), (f i ^ 2 + g i ^ 2) : ℤ) : ℝ) := by
    push_cast; rfl
  rw [e]
  have hp : (0 : ℤ) ≤ ∑ i ∈ range (2 ^ n), (f i ^ 2 + g i ^ 2) := sum_nonneg fun _ _ => by positivity
  have hp : (0 : ℝ) ≤ ((∑ i ∈ range (2 ^ n), (f i ^ 2 + g i ^ 2) : ℤ) : ℝ) := by exact_mod_cast hp
  have := rnd_lo50 hp
  generalize ((∑ i ∈ range (2 ^ n), (f i ^ 2 + g i ^ 2) : ℤ) : ℝ) = S at *
  clear * - h1 this
  norm_num at *
  linarith

end Falcon
