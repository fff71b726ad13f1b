import Verif.Proofs.FloatVec
import Verif.Proofs.Basis

namespace Falcon

/-- The quotient of one entry. -/
theorem quot_entry {A : Arith ℝ ℂ} (hA : Accurate A) {X x Y y Z z w q : ℂ} (hX : ‖X - x‖ ≤ 1 / 2 ^ 32)
    (hx : 1 / 2 ^ 10 ≤ ‖x‖) (hY1 : ‖Y‖ ≤ 2 ^ 14) (hy1 : ‖y‖ ≤ 2 ^ 14) (hY : ‖Y - y‖ ≤ 1 / 2 ^ 32)
    (hZ1 : ‖Z‖ ≤ 2 ^ 17) (hZ : ‖Z - z‖ ≤ 1 / 2 ^ 29) (hw1 : ‖w‖ ≤ 2 ^ 17) (hw : x * w = y * z + q)
    (hq : ‖q‖ ≤ 2 ^ 14) : ‖A.cdiv (A.cadd (A.cmul Y Z) q) X - w‖ ≤ 1 / 5 := by
  set P := A.cmul Y Z with hP
  set S := A.cadd P q with hS
  have hu : uD = 1 / 2 ^ 53 := rfl
  have ht : tinyD = 1 / 2 ^ 100 := rfl
  have hYZ : ‖Y‖ * ‖Z‖ ≤ 2 ^ 14 * 2 ^ 17 := by gcongr
  have h1 : ‖P - Y * Z‖ ≤ 1 / 2 ^ 19 := by
    have := hA.cmul Y Z
    rw [← hP, hu, ht] at this
    generalize ‖Y‖ * ‖Z‖ = t at *
    clear * - this hYZ
    norm_num at *
    linarith
  have h2 : ‖Y * Z - y * z‖ ≤ 1 / 2 ^ 14 := by
    have e : Y * Z - y * z = (Y - y) * Z + y * (Z - z) := by ring
    rw [e]
    refine (norm_add_le _ _).trans ?_
    rw [norm_mul, norm_mul]
    have a1 : ‖Y - y‖ * ‖Z‖ ≤ 1 / 2 ^ 32 * 2 ^ 17 := by gcongr
    have a2 : ‖y‖ * ‖Z - z‖ ≤ 2 ^ 14 * (1 / 2 ^ 29) := by gcongr
    refine (add_le_add a1 a2).trans ?_
    norm_num
  have h3 : ‖P + q‖ ≤ 2 ^ 32 := by
    have e : P + q = (P - Y * Z) + Y * Z + q := by ring
    have a := norm_add_le ((P - Y * Z) + Y * Z) q
    have b := norm_add_le (P - Y * Z) (Y * Z)
    rw [norm_mul] at b
    rw [← e] at a
    clear * - a b h1 hYZ hq
    norm_num at *
    linarith
  have h4 : ‖S - (P + q)‖ ≤ 1 / 2 ^ 20 := by
    have := hA.cadd P q
    rw [← hS, hu, ht] at this
    clear * - this h3
    norm_num at *
    linarith
  have h5 : ‖S - x * w‖ ≤ 1 / 2 ^ 14 + 1 / 2 ^ 18 := by
    have e : S - x * w = (S - (P + q)) + ((P - Y * Z) + (Y * Z - y * z)) := by rw [hw]; ring
    rw [e]
    have a := norm_add_le (S - (P + q)) ((P - Y * Z) + (Y * Z - y * z))
    have b := norm_add_le (P - Y * Z) (Y * Z - y * z)
    clear * - a b h1 h2 h4
    norm_num at *
    linarith
  have hX2 : 1 / 2 ^ 10 - 1 / 2 ^ 32 ≤ ‖X‖ := by
    have := norm_sub_norm_le x X
    rw [norm_sub_rev] at this
    linarith
  have hX0 : 0 < ‖X‖ := lt_of_lt_of_le (by norm_num) hX2
  have hXne : X ≠ 0 := norm_pos_iff.mp hX0
  have h6 : ‖S / X - w‖ ≤ 4 / 25 := by
    have e : S / X - w = ((S - x * w) + w * (x - X)) / X := by field_simp; ring
    rw [e, norm_div, div_le_iff₀ hX0]
    have a := norm_add_le (S - x * w) (w * (x - X))
    have b : ‖w * (x - X)‖ ≤ 2 ^ 17 * (1 / 2 ^ 32) := by
      rw [norm_mul, norm_sub_rev]
      gcongr
    clear * - a b h5 hX2
    norm_num at *
    linarith
  have h7 := hA.cdiv S X (le_trans (by norm_num) hX2)
  have h8 : ‖S / X‖ ≤ 2 ^ 18 := by
    have e : S / X = (S / X - w) + w := by ring
    have a := norm_add_le (S / X - w) w
    rw [← e] at a
    clear * - a h6 hw1
    norm_num at *
    linarith
  have e : A.cdiv S X - w = (A.cdiv S X - S / X) + (S / X - w) := by ring
  rw [e]
  refine (norm_add_le _ _).trans ?_
  rw [hu, ht] at h7
  clear * - h6 h7 h8
  norm_num at *
  linarith

section
variable {A : Arith ℝ ℂ} (hA : Accurate A)
include hA

theorem fft_int_near {n : ℕ} (hn : ValidLog n) (a : Mem Int) (J : Mem ℂ) {k : ℤ} {m : ℝ} (h0 : 0 ≤ k) (hk2 : k ≤ 127)
    (hk : ∀ i, i < 2 ^ n → |a i| ≤ k) (hm1 : (k : ℝ) * 2 ^ n + 200 ≤ m) (hm2 : m ≤ 2 ^ 17) :
    NearBas n m (fft A n (loop (1 <<< n) (fun i m => upd m i (A.ofInt (a i))) J)) (fun i => dft n (zC a) i) := by
  have := basis_near hA hn a (loop (1 <<< n) (fun i m => upd m i (A.ofInt (a i))) J) 1 (Or.inl rfl) hk
    (fun i hi => by
      rw [toC_at n (fun i => A.ofInt (a i)) J i hi, one_mul]
      have h : |(a i)| ≤ 2 ^ 53 := ((hk i hi).trans hk2).trans (by norm_num)
      show A.ofReal (A.lit (a i)) = _
      rw [ofReal_eq hA, hA.lit_small _ h]
      unfold zC; push_cast; rfl) hm1 hm2 h0
  simpa only [one_mul] using this

theorem recomputeG_float {n : ℕ} (hn : ValidLog n) {f g F G : Mem Int} (heq : NtruEq n f g F G)
    (hfit : FitsFormat n f g F G) (hf0 : ∀ j, j < 2 ^ n → 1 / 2 ^ 10 ≤ ‖dft n (zC f) j‖) (G0 : Mem Int) :
    recomputeG A n f g F G0 = .ok (fun i => if i < 2 ^ n then G i else G0 i) := by
  have hn10 : n ≤ 10 := by rcases hn with rfl | rfl <;> norm_num
  set K : ℤ := if n = 9 then 31 else 15 with hK
  have hK0 : 0 ≤ K := by rw [hK]; split <;> norm_num
  have hK1 : K ≤ 127 := by rw [hK]; split <;> norm_num
  have hKa : (K : ℝ) * 2 ^ n + 200 ≤ 2 ^ 14 := by
    rw [hK]
    rcases hn with rfl | rfl <;> norm_num
  have hKb : ((127 : ℤ) : ℝ) * 2 ^ n + 200 ≤ 2 ^ 17 := by
    rcases hn with rfl | rfl <;> norm_num
  have nf := fft_int_near hA hn f (junkC A) hK0 hK1 (fun i hi => (hfit i hi).1) hKa (by norm_num)
  have ng := fft_int_near hA hn g (junkC A) hK0 hK1 (fun i hi => (hfit i hi).2.1) hKa (by norm_num)
  have nF := fft_int_near hA hn F (junkC A) (by norm_num) le_rfl (fun i hi => (hfit i hi).2.2.1) hKb (by norm_num)
  have nG := fft_int_near hA hn G (junkC A) (by norm_num) le_rfl (fun i hi => (hfit i hi).2.2.2) hKb (by norm_num)
  have hpt : ∀ j, j < 2 ^ n → dft n (zC f) j * dft n (zC G) j = dft n (zC g) j * dft n (zC F) j + 12289 :=
    fun j hj => by linear_combination ntru_pt hn10 heq j hj
  have hq : A.ofReal (A.lit 12289) = (12289 : ℂ) := by
    have := hA.lit_small 12289 (by norm_num)
    push_cast at this
    rw [ofReal_eq hA, this]
    push_cast; rfl
  unfold recomputeG
  simp only
  set D := polyDivC A n (polyAddToC A n (polyMulC A n
      (fft A n (loop (1 <<< n) (fun i m => upd m i (A.ofInt (g i))) (junkC A)))
      (fft A n (loop (1 <<< n) (fun i m => upd m i (A.ofInt (F i))) (junkC A)))
      (junkC A)) (loop (1 <<< n) (fun i m => upd m i (A.ofReal (A.lit 12289))) (junkC A)))
      (fft A n (loop (1 <<< n) (fun i m => upd m i (A.ofInt (f i))) (junkC A)))
      (junkC A) with hD
  have hkap : kapD = 1 / 2 ^ 46 := rfl
  have hpoint : ∀ j, j < 2 ^ n → ‖D j - dft n (zC G) j‖ ≤ 1 / 5 := by
    intro j hj
    obtain ⟨-, -, f3⟩ := nf j hj
    obtain ⟨g1, g2, g3⟩ := ng j hj
    obtain ⟨F1, -, F3⟩ := nF j hj
    obtain ⟨-, G2, -⟩ := nG j hj
    rw [hD, polyDivC_at, if_pos hj, polyAddToC_at, if_pos hj, polyMulC_at, if_pos hj,
      toC_at n (fun _ => A.ofReal (A.lit 12289)) _ j hj, hq]
    rw [hkap] at f3 g3 F3
    exact quot_entry hA (f3.trans (by norm_num)) (hf0 j hj) g1 g2 (g3.trans (by norm_num)) F1
      (F3.trans (by norm_num)) G2 (hpt j hj) (by norm_num)
  obtain ⟨hs1, hs2⟩ := sqrt2_bounds hn
  have hsum : nC (2 ^ n) (fun i => D i - dft n (zC G) i) ≤ 1 / 5 * Real.sqrt 2 ^ n := by
    have := nC_maj1 (e := fun i => D i - dft n (zC G) i) (x := fun _ => 0) (a := 0) (d := 1 / 5) (N := 2 ^ n) le_rfl
      (by norm_num) (fun i hi => by simpa using hpoint i hi)
    rw [sqrt_pow2] at this
    linarith
  have hi := ifft_near hA hn10 D (zC G) hsum
  have hp : nC (2 ^ n) (zC G) ≤ 127 * Real.sqrt 2 ^ n := by
    have := nC_maj1 (e := zC G) (x := fun _ => 0) (a := 0) (d := 127) (N := 2 ^ n) le_rfl
      (by norm_num) (fun i hi => by
        have h : |(G i : ℝ)| ≤ 127 := by exact_mod_cast (hfit i hi).2.2.2
        simpa [zC] using h)
    rw [sqrt_pow2] at this
    linarith
  have hE : nC (2 ^ n) (fun i => ifft A n D i - zC G i) ≤ 1 / 4 := by
    generalize nC (2 ^ n) (fun i => ifft A n D i - zC G i) = E at *
    generalize nC (2 ^ n) (zC G) = x at *
    generalize Real.sqrt 2 ^ n = s at *
    have hs : 0 < s := by linarith
    have h2 : s * x ≤ s * (127 * 32) := by gcongr; linarith
    rw [hkap] at hi
    have : E * s ≤ 1 / 4 * s := by
      generalize s * x = sx at *
      norm_num at hi
      linarith
    exact le_of_mul_le_mul_right this hs
  rw [loopE_fill _ _ G]
  · congr 1
    funext i
    rw [loop_fill, one_shiftLeft']
  · intro i hi
    rw [one_shiftLeft'] at hi
    have h1 := nC_ge (a := fun i => ifft A n D i - zC G i) hi
    have h2 := Complex.abs_re_le_norm (ifft A n D i - zC G i)
    rw [Complex.sub_re] at h2
    have h3 : (zC G i).re = (G i : ℝ) := by simp [zC]
    rw [h3] at h2
    rw [hA.roundTo, hA.re]
    unfold exactRoundTo
    rw [stdRound_near (lt_of_le_of_lt (h2.trans (h1.trans hE)) (by norm_num)), if_pos]
    have := abs_le.mp (hfit i hi).2.2.2
    constructor <;> omega

end

end Falcon
