import Verif.Proofs.NanSolve

/-!
# The pair of `Proofs/NanKey` passes the tests of key generation
-/

namespace Falcon

open Finset Polynomial

/-- 1 / (z φ) at z^8 = -1. -/
def nanInv : List ℤ := [-21, -39, 51, 0, -51, 39, 21, -55]

theorem nan_unit {A : Type*} [CommRing A] (z : A) : ∃ c, z * evL z nanPhi * evL z nanInv = 1 + (z ^ 8 + 1) * c := by
  have h1 : evL z (lMul (0 :: nanPhi) nanInv) = z * evL z nanPhi * evL z nanInv := by
    rw [evL_lMul, evL]; push_cast; ring
  have h2 := evL_split z 8 (lMul (0 :: nanPhi) nanInv) (by decide +kernel)
  have h3 : (lMul (0 :: nanPhi) nanInv).take 8 = lAdd [1] ((lMul (0 :: nanPhi) nanInv).drop 8) := by decide +kernel
  rw [h3, evL_lAdd, show evL z [1] = 1 by simp [evL]] at h2
  exact ⟨evL z ((lMul (0 :: nanPhi) nanInv).drop 8), by rw [← h1, h2]; ring⟩

/-- q / f. -/
def nanGL : List ℤ := nanInv.flatMap fun x => List.replicate 15 0 ++ [12289 * x]

def nkG : Mem Int := strideMem 4 nanGL

theorem evL_blocks' {A : Type*} [CommRing A] (y : A) (l : List ℤ) :
    evL y (l.flatMap fun x => List.replicate 15 0 ++ [12289 * x]) = 12289 * y ^ 15 * evL (y ^ 16) l := by
  induction l with
  | nil => simp [evL]
  | cons x l ih =>
    rw [List.flatMap_cons, evL_append, ih]
    simp only [List.length_cons, List.length_nil, evL, List.replicate, List.cons_append, List.nil_append, Int.cast_zero]
    push_cast
    ring

/-- The NTRU equation has a solution. -/
theorem nan_ntru : NtruEq 9 nkf nkg (fun _ => 0) nkG := by
  unfold NtruEq ModEqXN
  have e0 : polyZ (2 ^ 9) (fun _ => 0) = 0 := toPoly_zeros _
  rw [e0]
  unfold nkf nkG
  rw [polyZ_stride (S := 4) (by norm_num) nanFL (by decide +kernel), polyZ_stride (S := 4) (by norm_num) nanGL (by decide +kernel)]
  unfold nanFL nanGL
  rw [evL_blocks, evL_blocks', show (X : ℤ[X]) ^ 2 ^ 9 = ((X ^ 4) ^ 16) ^ 8 by rw [← pow_mul, ← pow_mul]; norm_num]
  obtain ⟨c, hc⟩ := nan_unit (((X : ℤ[X]) ^ 4) ^ 16)
  refine ⟨12289 * c, ?_⟩
  generalize (X : ℤ[X]) ^ 4 = y at *
  linear_combination 12289 * hc

theorem nan_inv : ∃ r, ModEqXN (2 ^ 9) (polyInt (2 ^ 9) nkf * r) 1 := by
  unfold ModEqXN nkf
  rw [polyInt_stride (S := 4) (by norm_num) nanFL (by decide +kernel)]
  unfold nanFL
  rw [evL_blocks, show (X : Zq[X]) ^ 2 ^ 9 = ((X ^ 4) ^ 16) ^ 8 by rw [← pow_mul, ← pow_mul]; norm_num]
  obtain ⟨c, hc⟩ := nan_unit (((X : Zq[X]) ^ 4) ^ 16)
  refine ⟨(X ^ 4) ^ 15 * evL ((X ^ 4) ^ 16) nanInv, c, ?_⟩
  generalize (X : Zq[X]) ^ 4 = y at *
  linear_combination hc

/-! ### The Gram-Schmidt norm -/

/-- (f f* + g g*) z^7, not reduced. -/
def nanGram : List ℤ := lAdd (lMul nanPhi nanPhi.reverse) (lMul nanGamma nanGamma.reverse)

/-- A multiple of the inverse of f f* + g g*. -/
def nanU : List ℤ := [1519479960471, 379142569548, -51858513455, 117155972372, 0, -117155972372, 51858513455, -379142569548]

def nanM : ℤ := 15485669124791713

theorem nan_gram (j : ℕ) (hj : j < 2 ^ 9) :
    ((gramAt 9 nkf nkg j : ℝ) : ℂ) * dft 9 (zC (strideMem 64 nanU)) j = (nanM : ℂ) := by
  have p1 : (fftPoint 9 j ^ 64) ^ 8 = -1 := by
    rw [← pow_mul]; exact fftPoint_pow (n := 9) (by norm_num) j hj
  have p2 : ∀ m, fftPoint 9 j ^ m * (starRingEnd ℂ) (fftPoint 9 j ^ m) = 1 := fun m => by
    rw [Complex.mul_conj, Complex.normSq_eq_norm_sq, norm_pow, fftPoint_norm, one_pow]; norm_num
  have p3 := p2 4
  have p2 := p2 64
  have hg : ((gramAt 9 nkf nkg j : ℝ) : ℂ) = dft 9 (zC nkf) j * (starRingEnd ℂ) (dft 9 (zC nkf) j) +
      dft 9 (zC nkg) j * (starRingEnd ℂ) (dft 9 (zC nkg) j) := by
    unfold gramAt
    rw [Complex.mul_conj, Complex.mul_conj]
    push_cast
    rfl
  rw [hg]
  unfold nkf nkg
  rw [dft_stride (by norm_num) nanFL (by decide +kernel), dft_stride (by norm_num) nanGamma (by decide), dft_stride (by norm_num) nanU (by decide)]
  unfold nanFL
  rw [evL_blocks, ← pow_mul, map_mul, evL_conj, evL_conj]
  norm_num only [] at *
  generalize fftPoint 9 j ^ 64 = z at *
  generalize fftPoint 9 j ^ 4 = t at *
  generalize (starRingEnd ℂ) z = w at *
  generalize (starRingEnd ℂ) t = t' at *
  have r1 : evL w nanPhi * z ^ 7 = evL z nanPhi.reverse := evL_reverse p2 _ _
  have r2 : evL w nanGamma * z ^ 7 = evL z nanGamma.reverse := evL_reverse p2 _ _
  have h1 : evL z (lMul nanGram nanU) = (evL z nanPhi * evL z nanPhi.reverse + evL z nanGamma * evL z nanGamma.reverse) * evL z nanU := by
    unfold nanGram; rw [evL_lMul, evL_lAdd, evL_lMul, evL_lMul]
  have h2 := evL_split z 8 (lMul nanGram nanU) (by decide +kernel)
  have h5 := evL_split z 8 ((lMul nanGram nanU).drop 8) (by decide +kernel)
  have h3 : lAdd ((lMul nanGram nanU).take 8) (((lMul nanGram nanU).drop 8).drop 8) =
      lAdd [0, 0, 0, 0, 0, 0, 0, nanM] (((lMul nanGram nanU).drop 8).take 8) := by decide +kernel
  have h4 : evL z [0, 0, 0, 0, 0, 0, 0, nanM] = z ^ 7 * nanM := by simp [evL]; ring
  have h6 := congrArg (evL z) h3
  rw [evL_lAdd, evL_lAdd, h4] at h6
  have h7 : z ^ 7 * ((t * evL z nanPhi * (t' * evL w nanPhi) + evL z nanGamma * evL w nanGamma) * evL z nanU) = z ^ 7 * nanM := by
    rw [p1] at h2 h5
    linear_combination -h1 + h2 - h5 + h6 + (evL z nanPhi * evL z nanU) * r1 + (evL z nanGamma * evL z nanU) * r2 +
      z ^ 7 * evL z nanPhi * evL w nanPhi * evL z nanU * p3
  have h0 : z ^ 7 ≠ 0 := by
    intro h
    have : z ^ 8 = 0 := by rw [pow_succ, h, zero_mul]
    rw [this] at p1
    norm_num at p1
  exact mul_left_cancel₀ h0 h7

theorem nan_sum : ∑ j ∈ range (2 ^ 9), (12289 : ℝ) ^ 2 / gramAt 9 nkf nkg j = 12289 ^ 2 * 2 ^ 9 * (nanU.headD 0 : ℝ) / nanM := by
  have hM : (0 : ℝ) < nanM := by unfold nanM; norm_num
  have h : ((∑ j ∈ range (2 ^ 9), (12289 : ℝ) ^ 2 / gramAt 9 nkf nkg j : ℝ) : ℂ) =
      ((12289 ^ 2 * 2 ^ 9 * (nanU.headD 0 : ℝ) / nanM : ℝ) : ℂ) := by
    have hs := sum_dft (n := 9) (by norm_num) (zC (strideMem 64 nanU))
    have e : ∀ j ∈ range (2 ^ 9), (((12289 : ℝ) ^ 2 / gramAt 9 nkf nkg j : ℝ) : ℂ) =
        12289 ^ 2 / nanM * dft 9 (zC (strideMem 64 nanU)) j := by
      intro j hj
      have hg := nan_gram j (mem_range.mp hj)
      have hm : ((nanM : ℤ) : ℂ) ≠ 0 := by exact_mod_cast hM.ne'
      have hg0 : ((gramAt 9 nkf nkg j : ℝ) : ℂ) ≠ 0 := by
        intro h; rw [h, zero_mul] at hg; exact hm hg.symm
      push_cast
      rw [div_mul_eq_mul_div, div_eq_div_iff hg0 hm, ← hg]
      ring
    rw [Complex.ofReal_sum, sum_congr rfl e, ← mul_sum, hs]
    push_cast
    rw [show zC (strideMem 64 nanU) 0 = ((nanU.headD 0 : ℤ) : ℂ) from rfl]
    ring
  exact Complex.ofReal_injective h

theorem nan_trace : ∑ j ∈ range (2 ^ 9), (12289 : ℝ) ^ 2 / gramAt 9 nkf nkg j ≤ 16800 * 2 ^ 9 := by
  have hM : (0 : ℝ) < nanM := by unfold nanM; norm_num
  rw [nan_sum, div_le_iff₀ hM]
  have hz : (12289 ^ 2 * 2 ^ 9 * nanU.headD 0 : ℤ) ≤ 16800 * 2 ^ 9 * nanM := by decide +kernel
  exact_mod_cast hz

theorem nan_sq : ∑ i ∈ range (2 ^ 9), nkf i ^ 2 + ∑ i ∈ range (2 ^ 9), nkg i ^ 2 ≤ 16800 := by
  decide +kernel

theorem nan_gs : GsSmall 9 nkf nkg := by
  constructor
  · have h := nan_sq
    rw [← sum_add_distrib] at h
    have h' : ((∑ i ∈ range (2 ^ 9), (nkf i ^ 2 + nkg i ^ 2) : ℤ) : ℝ) ≤ 16800 := by exact_mod_cast h
    simp only [Int.cast_sum, Int.cast_add, Int.cast_pow] at h'
    exact h'.trans (by norm_num)
  · have h := nan_trace
    linarith

theorem nan_pos (j : ℕ) (hj : j < 2 ^ 9) : 0 < gramAt 9 nkf nkg j := by
  have hM : (0 : ℝ) < nanM := by unfold nanM; norm_num
  refine lt_of_le_of_ne (by unfold gramAt; exact add_nonneg (Complex.normSq_nonneg _) (Complex.normSq_nonneg _)) fun h => ?_
  have hg := nan_gram j hj
  rw [← h, Complex.ofReal_zero, zero_mul] at hg
  have : (nanM : ℝ) = 0 := by exact_mod_cast hg.symm
  exact hM.ne' this

theorem nan_low (j : ℕ) (hj : j < 2 ^ 9) : 1 ≤ gramAt 9 nkf nkg j := by
  have h1 := nan_trace
  have h2 := nan_pos
  have h3 := single_le_sum (f := fun j => (12289 : ℝ) ^ 2 / gramAt 9 nkf nkg j) (fun i hi =>
    div_nonneg (by positivity) (h2 i (mem_range.mp hi)).le) (mem_range.mpr hj)
  have h4 := h3.trans h1
  have h5 := h2 j hj
  rw [div_le_iff₀ h5] at h4
  norm_num at h4
  linarith

theorem nan_range (i : ℕ) : |nkf i| ≤ 60 ∧ |nkg i| ≤ 60 :=
  ⟨stride_le _ (by norm_num) (by decide +kernel) i, stride_le _ (by norm_num) (by decide +kernel) i⟩

/-- f is invertible and the norm test passes. -/
theorem nan_accepted (b : Bool) (rm rd : F64.Recover) {f' g' : Mem ℤ} (e1 : ∀ i, i < 2 ^ 9 → f' i = nkf i)
    (e2 : ∀ i, i < 2 ^ 9 → g' i = nkg i) : isPolyInvertible 9 f' = true ∧ gsTooBig (f64A b rm rd) 9 f' g' = false := by
  have hn : ValidLog 9 := .inl rfl
  have r1 : ∀ i, i < 2 ^ 9 → |f' i| ≤ 60 := fun i hi => by rw [e1 i hi]; exact (nan_range i).1
  have r2 : ∀ i, i < 2 ^ 9 → |g' i| ≤ 60 := fun i hi => by rw [e2 i hi]; exact (nan_range i).2
  have l1 : ∀ i, i < 2 ^ 9 → |f' i| ≤ 19 * (4096 / 2 ^ 9) := fun i hi => (r1 i hi).trans (by norm_num)
  have l2 : ∀ i, i < 2 ^ 9 → |g' i| ≤ 19 * (4096 / 2 ^ 9) := fun i hi => (r2 i hi).trans (by norm_num)
  have hD : ∀ j, j < 2 ^ 9 → 1 ≤ gramAt 9 f' g' j := fun j hj => by rw [gramAt_low e1 e2]; exact nan_low j hj
  constructor
  · rw [C36_invertible_iff hn fun i hi => by have := abs_le.mp (r1 i hi); constructor <;> linarith]
    obtain ⟨r, hr⟩ := nan_inv
    refine ⟨r, ?_⟩
    have : polyInt (2 ^ 9) f' = polyInt (2 ^ 9) nkf := polyInt_low e1
    rw [this]
    exact hr
  · rw [gsTooBig64 (by norm_num) (fun i hi => (r1 i hi).trans (by norm_num)) (fun i hi => (r2 i hi).trans (by norm_num)) fun j hj =>
      le_trans (by norm_num) (gsSum_low (accurate_ieee b) hn l1 l2 j hj (le_trans (by norm_num) (hD j hj)))]
    refine gs_accept b hn l1 l2 hD ?_ ?_
    · rw [sum_congr rfl fun i hi => by rw [e1 i (mem_range.mp hi)], sum_congr (s₁ := range (2 ^ 9)) (f := fun i => g' i ^ 2) rfl
        fun i hi => by rw [e2 i (mem_range.mp hi)]]
      exact nan_sq
    · have h := nan_trace
      rw [sum_congr rfl fun j _ => by rw [gramAt_low e1 e2]]
      simp only [div_eq_mul_one_div ((12289 : ℝ) ^ 2)] at h
      rw [← mul_sum] at h
      rw [← mul_div_assoc, div_le_iff₀ (by norm_num)]
      exact h

/-- If the solver is undefined on f and g, key generation is, on every stream that begins with certain bytes. -/
theorem keygen_undefined {fma : Bool} {n : ℕ} (hn : ValidLog n) {f g : Mem ℤ}
    (hf : ∀ j, j < 2 ^ n → -18 * ((4096 / 2 ^ n : ℕ) : ℤ) ≤ f j ∧ f j ≤ 19 * (4096 / 2 ^ n : ℕ))
    (hg : ∀ j, j < 2 ^ n → -18 * ((4096 / 2 ^ n : ℕ) : ℤ) ≤ g j ∧ g j ≤ 19 * (4096 / 2 ^ n : ℕ)) :
    ∃ w : List UInt8, ∀ (quot : RedQuot) (gs : Mem ℤ → Mem ℤ → Bool) (stream : ℕ → UInt8) (pos fuel : ℕ), Reads stream pos w →
      (∀ f' g', (∀ i, i < 2 ^ n → f' i = f i) → (∀ i, i < 2 ^ n → g' i = g i) → isPolyInvertible n f' = true ∧
        gs f' g' = false ∧ ∃ e, ntruSolve quot (fuel + 1) n f' g' = some (.error e)) →
      ∀ (iters : ℕ) (s : Ntru), ∃ e, ntruGen quot gs fma n stream (fuel + 1) (iters + 1) s pos = some (.error e) := by
  obtain ⟨w1, hw1⟩ := genPoly_word (fma := fma) hn f hf
  obtain ⟨w2, hw2⟩ := genPoly_word (fma := fma) hn g hg
  refine ⟨w1 ++ w2, fun quot gs stream pos fuel hr H iters s => ?_⟩
  rw [ntruGen]
  obtain ⟨f', h1, h2⟩ := hw1 stream fuel pos s.f hr.left
  obtain ⟨g', h3, h4⟩ := hw2 stream fuel (pos + w1.length) s.g hr.right
  rw [h1, bindO_pure, h3, bindO_pure]
  obtain ⟨a1, a2, -⟩ := H f' g' h2 h4
  simp only [a1, a2]
  rw [if_neg (by simp), if_neg (by simp)]
  obtain ⟨-, -, e, he⟩ := H (loop (1 <<< n) (fun i m => upd m i (f' i)) zerosZ) (loop (1 <<< n) (fun i m => upd m i (g' i)) zerosZ)
    (fun i hi => by rw [loop_fill_lt _ _ _ _ (by rw [one_shiftLeft']; exact hi), h2 i hi])
    (fun i hi => by rw [loop_fill_lt _ _ _ _ (by rw [one_shiftLeft']; exact hi), h4 i hi])
  exact ⟨e, by rw [he]; rfl⟩

end Falcon
