import Verif.Proofs.NanKey

/-!
# The solver on the pair of `Proofs/NanKey`
-/

namespace Falcon

open Finset Polynomial

/-! ### The first value of a transform on rational numbers -/

theorem first_congr {α : Type} (bf : ℕ → α → α → α × α) {n : ℕ} {a a' : Mem α} (h : ∀ i, i < 2 ^ n → a i = a' i) (j : ℕ) (hj : j ≤ n) :
    ∀ i, i < 2 ^ (n - j) → first bf n a j i = first bf n a' j i := by
  induction j with
  | zero => exact h
  | succ j ih =>
    intro i hi
    have h2 : 2 ^ (n - j) = 2 * 2 ^ (n - 1 - j) := by rw [← pow_succ']; congr 1; omega
    rw [show n - (j + 1) = n - 1 - j by omega] at hi
    rw [first, first, ih (by omega) i (by omega), ih (by omega) _ (by omega)]

theorem first_q (b : Bool) (n : ℕ) (a : Mem (ℚ × ℚ)) (j i : ℕ) :
    first (fftBf (ieeeA b)) n (fun i => qC (a i)) j i = qC (first (fftBf (qA b)) n a j i) := by
  induction j generalizing i with
  | zero => rfl
  | succ j ih => rw [first, first, ih, ih, (qC_fftBf b _ _ _).1]

set_option maxRecDepth 100000 in
theorem nanS_first : first (fftBf (qA false)) 3 (fun i => (qA false).ofInt (nanS.getD i 0)) 3 0 = 0 ∧
    first (fftBf (qA true)) 3 (fun i => (qA true).ofInt (nanS.getD i 0)) 3 0 = 0 := by
  decide +kernel

theorem nan_fft (b : Bool) {g : Mem ℤ} (hg : ∀ i, i < 2 ^ 3 → g i = nanS.getD i 0) : fft (ieeeA b) 3 (toCx (ieeeA b) 3 g) 0 = 0 := by
  rw [first_fft, first_congr (a' := fun i => qC ((qA b).ofInt (nanS.getD i 0))) _ (fun i hi => ?_) 3 le_rfl 0 (by norm_num), first_q]
  · have : first (fftBf (qA b)) 3 (fun i => (qA b).ofInt (nanS.getD i 0)) 3 0 = 0 := by
      cases b
      · exact nanS_first.1
      · exact nanS_first.2
    rw [this]
    apply Complex.ext <;> simp [qC]
  · unfold toCx
    rw [one_shiftLeft', loop_fill, if_pos hi, qC_ofInt, hg i hi]

theorem zero_fft (b : Bool) {f : Mem ℤ} (hf : ∀ i, i < 2 ^ 3 → f i = 0) : fft (ieeeA b) 3 (toCx (ieeeA b) 3 f) 0 = 0 := by
  rw [first_fft]
  refine first_zero b (j := 0) (fun i hi => ?_) 3 (by norm_num) 0 (by norm_num)
  rw [first]
  unfold toCx
  rw [one_shiftLeft', loop_fill, if_pos hi, hf i hi]
  show (⟨rnd _, rnd _⟩ : ℂ) = 0
  apply Complex.ext <;> simp [rnd_zero]

/-- The rounded quotient is undefined. -/
theorem nan_quot (b : Bool) (rm rd : F64.Recover) (hrd : F64.NoInvention rd) {f g F G : Mem ℤ} (hf : ∀ i, i < 2 ^ 3 → f i = 0)
    (hg : ∀ i, i < 2 ^ 3 → g i = nanS.getD i 0) (hF : ∀ i, i < 2 ^ 3 → |F i| ≤ 2 ^ 53) (hG : ∀ i, i < 2 ^ 3 → |G i| ≤ 2 ^ 53) :
    ∃ e, redQuot (f64A b rm rd) 3 f g F G = .error e := by
  cases h : redQuot (f64A b rm rd) 3 f g F G with
  | error e => exact ⟨e, rfl⟩
  | ok kr =>
    exfalso
    refine redQuot_den hrd (by norm_num) (fun i hi => ?_) (fun i hi => ?_) hF hG h 0 (by norm_num) ?_
    · rw [hf i hi]; norm_num
    · rw [hg i hi]
      have : ∀ i, i < 2 ^ 3 → |nanS.getD i 0| ≤ 2 ^ 53 := by decide +kernel
      exact this i hi
    · unfold gsSum
      rw [zero_fft b hf, nan_fft b hg, (ieee_cmul_zero b _).2, (ieee_cadd_zero b repC_zero).1]
      unfold denD
      split <;> simp [rnd_zero]

/-! ### The steps of the solver -/

theorem xgcd_one {fuel : ℕ} (hf : 3 ≤ fuel) {y : ℤ} (hy : 2 ≤ y) : xgcdZ fuel 1 y = some (1, 0, 1) := by
  obtain ⟨m, rfl⟩ : ∃ m, fuel = m + 3 := ⟨fuel - 3, by omega⟩
  unfold xgcdZ
  rw [xgcdZLoop, if_pos (by omega)]
  have h0 : Int.tdiv 1 y = 0 := Int.tdiv_eq_zero_of_lt (by norm_num) (by omega)
  simp only [h0]
  rw [xgcdZLoop, if_pos (by norm_num)]
  have h1 : y.tdiv (1 - 0 * y) = y := by simp
  simp only [h1]
  rw [xgcdZLoop, if_neg (by simp)]
  simp

theorem bitLen_le {k B : ℕ} {a b : Mem ℤ} (hB : 53 ≤ B) (h : ∀ i, i < 2 ^ k → |a i| < 2 ^ (B - 7) ∧ |b i| < 2 ^ (B - 7)) :
    bitLenPair (2 ^ k) a b ≤ B := by
  by_contra hc
  push Not at hc
  obtain ⟨i, hi, h'⟩ := C35_scaling_keeps_bits k a b (by omega)
  have hp : (2 : ℤ) ^ (B - 7) ≤ 2 ^ (bitLenPair (2 ^ k) a b - 8) := pow_le_pow_right₀ (by norm_num) (by omega)
  have := h i hi
  omega

theorem bitLen_gt {k B i : ℕ} {a b : Mem ℤ} (hi : i < 2 ^ k) (h : 2 ^ B ≤ |a i| ∨ 2 ^ B ≤ |b i|) : B < bitLenPair (2 ^ k) a b := by
  obtain ⟨-, h1, h2, -⟩ := C35_scaling_exact k a b i hi
  by_contra hc
  push Not at hc
  have hp : (2 : ℤ) ^ bitLenPair (2 ^ k) a b ≤ 2 ^ B := pow_le_pow_right₀ (by norm_num) hc
  omega

theorem bitLen_dvd (N : ℕ) (a b : Mem ℤ) : bitLenPair N a b = 53 ∨ 8 ∣ bitLenPair N a b := by
  unfold bitLenPair
  simp only
  have h1 := (C35_bit_length (minMax N a).1).1
  have h2 := (C35_bit_length (minMax N a).2).1
  have h3 := (C35_bit_length (minMax N b).1).1
  have h4 := (C35_bit_length (minMax N b).2).1
  omega

theorem lift_zero {k : ℕ} {F : Mem ℤ} (h : ∀ i, i < 2 ^ k → F i = 0) (c : Mem ℤ) : ∀ i, i < 2 ^ (k + 1) → karamul (k + 1) (lift k F) c i = 0 := by
  have h1 := karamul_poly (k + 1) (lift k F) c
  have h2 : toPoly (2 ^ (k + 1)) (lift k F) = 0 := by
    rw [pow_succ', lift_poly, toPoly_congr (b := fun _ => 0) h, toPoly_zeros, zero_comp]
  rw [h2, zero_mul, ← toPoly_zeros (2 ^ (k + 1))] at h1
  exact fun i hi => (modEq_coeff (by positivity) h1 i hi).symm

theorem lowL_mem {k : ℕ} {a : Mem ℤ} {l : List ℤ} (h : LowL k a l) {B : ℤ} (hl : ∀ x ∈ l, |x| < B) (i : ℕ) (hi : i < 2 ^ k) : |a i| < B := by
  rw [h.2 i hi, List.getD_eq_getElem?_getD, List.getElem?_eq_getElem (by rw [h.1]; exact hi)]
  exact hl _ (List.getElem_mem _)

/-- A level at which F and G are already shorter than f and g. -/
theorem solve_skip {quot : RedQuot} {fuel k B j : ℕ} (hfuel : 0 < fuel) {f g F' G' : Mem ℤ} {lG lf l : List ℤ}
    (h : ntruSolve quot fuel k (fieldNorm k f) (fieldNorm k g) = some (.ok (some (F', G')))) (hF : ∀ i, i < 2 ^ k → F' i = 0) (hG : LowL k G' lG)
    (hf : LowL (k + 1) f lf) (h1 : 2 ^ (k + 1) ≤ (lMul (liftL lG) (galL lf)).length)
    (hl : redL (2 ^ (k + 1)) (lMul (liftL lG) (galL lf)) = l) (h2 : l.length = 2 ^ (k + 1)) (hB : 53 ≤ B) (hs : ∀ x ∈ l, |x| < 2 ^ (B - 7))
    (hj : j < 2 ^ (k + 1)) (hg : 2 ^ B ≤ |g j|) :
    ∃ F G, ntruSolve quot fuel (k + 1) f g = some (.ok (some (F, G))) ∧ (∀ i, i < 2 ^ (k + 1) → F i = 0) ∧ LowL (k + 1) G l := by
  obtain ⟨m, rfl⟩ : ∃ m, fuel = m + 1 := ⟨fuel - 1, by omega⟩
  have hz := lift_zero hF (galoisConjugate (k + 1) g)
  have hG' := karamul_low (lift_low hG) (gal_low hf) h1 hl h2
  refine ⟨_, _, ?_, hz, hG'⟩
  rw [ntruSolve]
  simp only [h]
  rw [bindO_pure]
  simp only
  unfold reduce
  rw [reduceLoop]
  simp only
  rw [if_pos]
  · rfl
  · refine lt_of_le_of_lt (bitLen_le hB fun i hi => ⟨?_, lowL_mem hG' hs i hi⟩) (bitLen_gt hj (.inr hg))
    rw [hz i hi]
    simp

/-- At N = 8 the solver is undefined. -/
theorem nan_base (b : Bool) (rm rd : F64.Recover) (hrd : F64.NoInvention rd) {fuel : ℕ} (hfuel : 3 ≤ fuel) {f g : Mem ℤ}
    (hf : LowL 3 f nanF3) (hg : LowL 3 g nanGamma6) : ∃ e, ntruSolve (redQuot (f64A b rm rd)) fuel 3 f g = some (.error e) := by
  have f2 : LowL 2 (fieldNorm 2 f) nanF2 := fieldNorm_low hf (by decide +kernel) (by decide +kernel) (by decide +kernel)
  have g2 : LowL 2 (fieldNorm 2 g) nanG2 := fieldNorm_low hg (by decide +kernel) (by decide +kernel) (by decide +kernel)
  have f1 : LowL 1 (fieldNorm 1 (fieldNorm 2 f)) [1, 0] := fieldNorm_low f2 (by decide +kernel) (by decide +kernel) (by decide +kernel)
  have g1 : LowL 1 (fieldNorm 1 (fieldNorm 2 g)) nanG1 := fieldNorm_low g2 (by decide +kernel) (by decide +kernel) (by decide +kernel)
  have f0 : LowL 0 (fieldNorm 0 (fieldNorm 1 (fieldNorm 2 f))) [1] := fieldNorm_low f1 (by decide +kernel) (by decide +kernel) (by decide +kernel)
  have g0 : LowL 0 (fieldNorm 0 (fieldNorm 1 (fieldNorm 2 g))) nanG0 :=
    fieldNorm_low g1 (by decide +kernel) (by decide +kernel) (by decide +kernel)
  have s0 : ntruSolve (redQuot (f64A b rm rd)) fuel 0 (fieldNorm 0 (fieldNorm 1 (fieldNorm 2 f))) (fieldNorm 0 (fieldNorm 1 (fieldNorm 2 g))) =
      some (.ok (some (upd zerosZ 0 0, upd zerosZ 0 12289))) := by
    rw [ntruSolve, f0.2 0 (by norm_num), g0.2 0 (by norm_num), show ([1] : List ℤ).getD 0 0 = 1 from rfl,
      xgcd_one hfuel (show 2 ≤ nanG0.getD 0 0 by decide +kernel)]
    simp only
    rw [if_neg (by norm_num)]
    rfl
  obtain ⟨F1, G1, s1, z1, l1⟩ := solve_skip (B := 100) (j := 0) (l := [12289, 0]) (lG := [12289]) (by omega) s0 (fun i hi => by
      have : i = 0 := by omega
      subst this
      rfl) ⟨rfl, fun i hi => by
      have : i = 0 := by omega
      subst this
      rfl⟩ f1 (by decide +kernel) (by decide +kernel) (by decide +kernel) (by norm_num) (by decide +kernel) (by norm_num)
      (by rw [g1.2 0 (by norm_num)]; decide +kernel)
  obtain ⟨F2, G2, s2, z2, l2⟩ := solve_skip (B := 400) (j := 0) (l := nanGG2) (by omega) s1 z1 l1 f2 (by decide +kernel) (by decide +kernel)
    (by decide +kernel) (by norm_num) (by decide +kernel) (by norm_num) (by rw [g2.2 0 (by norm_num)]; decide +kernel)
  have hz := lift_zero z2 (galoisConjugate 3 g)
  have hG' : LowL 3 (karamul 3 (lift 2 G2) (galoisConjugate 3 f)) nanGG3 :=
    karamul_low (lift_low l2) (gal_low hf) (by decide +kernel) (by decide +kernel) (by decide +kernel)
  rw [ntruSolve]
  simp only [s2]
  rw [bindO_pure]
  simp only
  obtain ⟨m, rfl⟩ : ∃ m, fuel = m + 1 := ⟨fuel - 1, by omega⟩
  unfold reduce
  rw [reduceLoop]
  simp only
  generalize karamul (2 + 1) (lift 2 F2) (galoisConjugate (2 + 1) g) = F at *
  generalize karamul 3 (lift 2 G2) (galoisConjugate 3 f) = G at *
  have u0 : ∃ i, i < 2 ^ 3 ∧ 2 ^ 456 ≤ |g i| := by
    have : ∃ i, i < 2 ^ 3 ∧ 2 ^ 456 ≤ |nanGamma6.getD i 0| := by decide +kernel
    obtain ⟨i, hi, h⟩ := this
    exact ⟨i, hi, by rw [hg.2 i hi]; exact h⟩
  have u1 : ∃ i, i < 2 ^ 3 ∧ 2 ^ 464 ≤ |G i| := by
    have : ∃ i, i < 2 ^ 3 ∧ 2 ^ 464 ≤ |nanGG3.getD i 0| := by decide +kernel
    obtain ⟨i, hi, h⟩ := this
    exact ⟨i, hi, by rw [hG'.2 i hi]; exact h⟩
  have hb0 : bitLenPair (2 ^ 3) f g = 464 := by
    obtain ⟨i, hi, h⟩ := u0
    have a1 := bitLen_gt (a := f) hi (.inr h)
    have a2 := bitLen_le (B := 471) (a := f) (b := g) (by norm_num) fun i hi =>
      ⟨lowL_mem hf (B := 2 ^ 464) (by decide +kernel) i hi, lowL_mem hg (B := 2 ^ 464) (by decide +kernel) i hi⟩
    have a3 := bitLen_dvd (2 ^ 3) f g
    omega
  have hb1 : ¬ bitLenPair (2 ^ 3) F G < 464 := by
    obtain ⟨i, hi, h⟩ := u1
    have a1 := bitLen_gt (a := F) hi (.inr h)
    omega
  rw [hb0, if_neg hb1]
  obtain ⟨e, he⟩ := nan_quot b rm rd hrd (f := scaled 464 f) (g := scaled 464 g) (F := scaled (bitLenPair (2 ^ 3) F G) F)
    (G := scaled (bitLenPair (2 ^ 3) F G) G) (fun i hi => by
      unfold scaled
      rw [hf.2 i hi]
      have : ∀ i, i < 2 ^ 3 → nanF3.getD i 0 / 2 ^ (464 - 53) = 0 := by decide +kernel
      exact this i hi) (fun i hi => by
      unfold scaled
      rw [hg.2 i hi]
      have : ∀ i, i < 2 ^ 3 → nanGamma6.getD i 0 / 2 ^ (464 - 53) = nanS.getD i 0 := by decide +kernel
      exact this i hi) (fun i hi => by
      obtain ⟨-, -, -, ⟨c1, c2, -⟩, -⟩ := C35_scaling_exact 3 F G i hi
      exact abs_le.mpr ⟨c1, c2.le⟩) (fun i hi => by
      obtain ⟨-, -, -, -, ⟨c1, c2, -⟩, -⟩ := C35_scaling_exact 3 F G i hi
      exact abs_le.mpr ⟨c1, c2.le⟩)
  refine ⟨e, ?_⟩
  rw [show (2 : ℕ) + 1 = 3 from rfl, he]
  rfl

/-- The field norms reach the lists. -/
theorem nan_lists (f g : Mem ℤ) (hf : ModEqXN (2 ^ 3) (toPoly (2 ^ 3) f) (X ^ 4 * evL X nanPhi ^ 64))
    (hg : ModEqXN (2 ^ 3) (toPoly (2 ^ 3) g) (1 * evL X nanGamma ^ 64)) : LowL 3 f nanF3 ∧ LowL 3 g nanGamma6 := by
  have sq : ∀ {p : ℤ[X]} {l r : List ℤ}, ModEqXN (2 ^ 3) p (evL X l) → 2 ^ 3 ≤ (lMul l l).length → redL (2 ^ 3) (lMul l l) = r →
      ModEqXN (2 ^ 3) (p ^ 2) (evL X r) := by
    intro p l r h h1 h2
    have h3 := evL_red h1
    rw [h2, evL_lMul] at h3
    rw [modEq_iff] at *
    rw [map_pow, h, ← h3, map_mul, pow_two]
  have base : ∀ p : ℤ[X], ModEqXN (2 ^ 3) p p := fun p => by rw [modEq_iff]
  have tower : ∀ p : ℤ[X], p ^ 64 = ((((((p ^ 2) ^ 2) ^ 2) ^ 2) ^ 2) ^ 2) := fun p => by simp only [← pow_mul]
  have pf := sq (sq (sq (sq (sq (sq (base (evL X nanPhi)) (by decide +kernel) (show _ = nanPhi1 by decide +kernel)) (by decide +kernel)
    (show _ = nanPhi2 by decide +kernel)) (by decide +kernel) (show _ = nanPhi3 by decide +kernel)) (by decide +kernel)
    (show _ = nanPhi4 by decide +kernel)) (by decide +kernel) (show _ = nanPhi5 by decide +kernel)) (by decide +kernel)
    (show _ = nanPhi6 by decide +kernel)
  have pg := sq (sq (sq (sq (sq (sq (base (evL X nanGamma)) (by decide +kernel) (show _ = nanGamma1 by decide +kernel)) (by decide +kernel)
    (show _ = nanGamma2 by decide +kernel)) (by decide +kernel) (show _ = nanGamma3 by decide +kernel)) (by decide +kernel)
    (show _ = nanGamma4 by decide +kernel)) (by decide +kernel) (show _ = nanGamma5 by decide +kernel)) (by decide +kernel)
    (show _ = nanGamma6 by decide +kernel)
  rw [← tower] at pf pg
  constructor
  · refine poly_lowL (by decide +kernel) (ModEqXN.trans hf ?_)
    have h3 := evL_red (m := 2 ^ 3) (l := lMul [0, 0, 0, 0, 1] nanPhi6) (by decide +kernel)
    rw [show redL (2 ^ 3) (lMul [0, 0, 0, 0, 1] nanPhi6) = nanF3 by decide +kernel, evL_lMul,
      show evL (X : ℤ[X]) [0, 0, 0, 0, 1] = X ^ 4 by simp [evL]; ring] at h3
    refine ModEqXN.trans ?_ h3
    rw [modEq_iff] at *
    rw [map_mul, pf, map_mul]
  · refine poly_lowL (by decide +kernel) (ModEqXN.trans hg ?_)
    rw [one_mul]
    exact pg

/-- f = x^4 φ(x^64). -/
def nanFL : List ℤ := nanPhi.flatMap fun x => 0 :: x :: List.replicate 14 0

def nkf : Mem Int := strideMem 4 nanFL
def nkg : Mem Int := strideMem 64 nanGamma

theorem evL_blocks {A : Type*} [CommRing A] (y : A) (l : List ℤ) :
    evL y (l.flatMap fun x => 0 :: x :: List.replicate 14 0) = y * evL (y ^ 16) l := by
  induction l with
  | nil => simp [evL]
  | cons x l ih =>
    rw [List.flatMap_cons, evL_append, ih]
    simp only [List.length_cons, List.length_nil, evL, List.replicate, Int.cast_zero]
    ring

/-- The solver of key generation is undefined on f and g. -/
theorem nan_solve (b : Bool) (rm rd : F64.Recover) (hrd : F64.NoInvention rd) {fuel : ℕ} (hfuel : 3 ≤ fuel) {f g : Mem ℤ}
    (hf : ∀ i, i < 2 ^ 9 → f i = nkf i) (hg : ∀ i, i < 2 ^ 9 → g i = nkg i) :
    ∃ e, ntruSolve (redQuot (f64A b rm rd)) fuel 9 f g = some (.error e) := by
  have pf : toPoly (2 ^ 9) f = X ^ 4 * (evL X nanPhi).comp (X ^ 2 ^ 6) ^ 1 := by
    rw [toPoly_congr hf]
    have := polyZ_stride (S := 4) (N := 2 ^ 9) (by norm_num) nanFL (by decide +kernel)
    unfold polyZ at this
    unfold nkf
    rw [this]
    unfold nanFL
    rw [evL_blocks, evL_comp, X_comp, pow_one, ← pow_mul]
    norm_num
  have pg : toPoly (2 ^ 9) g = 1 * (evL X nanGamma).comp (X ^ 2 ^ 6) ^ 1 := by
    rw [toPoly_congr hg]
    have := polyZ_stride (S := 64) (N := 2 ^ 9) (by norm_num) nanGamma (by decide +kernel)
    unfold polyZ at this
    unfold nkg
    rw [this, evL_comp, X_comp, pow_one, one_mul]
    norm_num
  refine solve_descend (k := 3) (E := 64) (W := X ^ 4) (V := X ^ 2) (P := evL X nanPhi) (R := evL X nanGamma) (by simp [← pow_mul])
    (by rw [← pow_mul]) (fun f g h1 h2 => ?_) 6 1 f g (by norm_num) ?_ ?_
  · obtain ⟨a1, a2⟩ := nan_lists f g h1 h2
    exact nan_base b rm rd hrd hfuel a1 a2
  · rw [show 3 + 6 = 9 from rfl, pf, modEq_iff]
  · rw [show 3 + 6 = 9 from rfl, pg, modEq_iff]

end Falcon
