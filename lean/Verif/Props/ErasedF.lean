import Verif.Props.Erased
import Verif.Props.KeygenRun

/-!
# C116: secret keys whose polynomial F is erased
-/

namespace Falcon

open Finset Polynomial

/-- Secret key bytes with the right header whose F block is zero decode to F = 0. -/
theorem erasedF_decode {n : ℕ} (hn : ValidLog n) {sk : Mem UInt8} (h0 : (sk 0).toNat = 0x50 + n)
    (hz : ∀ i, i < 2 ^ n → sk (1 + 2 ^ n * skBits n / 8 + 2 ^ n * skBits n / 8 + i) = 0) (o : FgF) :
    (decodeSkey n sk o).1 = true ∧ (∀ i, i < 2 ^ n → (decodeSkey n sk o).2.F i = 0) ∧
      SkInRange n (decodeSkey n sk o).2.f (decodeSkey n sk o).2.g (decodeSkey n sk o).2.F := by
  obtain ⟨c1, -, c3⟩ := C13_skey_decode hn sk (fun _ => 0) o
  have ht : (decodeSkey n sk o).1 = true := by
    cases h : (decodeSkey n sk o).1 with
    | true => rfl
    | false => exact absurd h0 (c1.mp h)
  obtain ⟨hr, he⟩ := c3 ht
  refine ⟨ht, fun i hi => ?_, hr⟩
  have hl := (C59_skey_layout hn _ _ _ (fun _ => 0) hr).2.2 i hi
  have hb : 1 + 2 ^ n * skBits n / 8 + 2 ^ n * skBits n / 8 + 2 ^ n ≤ skBytes n := by rcases hn with rfl | rfl <;> decide
  rw [he _ (by omega), hz i hi] at hl
  have h3 := (hr i hi).2.2
  have hl : (0 : ℤ) = (decodeSkey n sk o).2.F i % 256 := hl
  omega

/-- The second half of the signature vector does not depend on the NTRU equation. -/
theorem signVec_snd {n : ℕ} (hn : n ≤ 10) (f g F G : Mem Int) (B0 : Mem ℂ) (c : Mem Ff)
    {z0 z1 : Mem ℂ} {a0 a1 u1 : Mem Int} (h0 : IsDftOf n z0 a0) (h1 : IsDftOf n z1 a1)
    (hu1 : ModEqXN (2 ^ n) (polyZ (2 ^ n) u1)
      (polyZ (2 ^ n) a0 * polyZ (2 ^ n) f + polyZ (2 ^ n) a1 * polyZ (2 ^ n) F)) :
    let B := computeMatrixB exactA n f g F G B0
    let t := signTarget exactA n B c
    IsDftOf n (signVec exactA n B t.1 t.2 z0 z1).2 u1 := by
  intro B t i hi
  obtain ⟨b0, b1, b2, b3⟩ := basis_exact hn f g F G B0 i hi
  obtain ⟨e0, e1⟩ := signTarget_at hn B c i hi
  have hu := evC_modEq hn hi hu1
  rw [evC_add, evC_mul, evC_mul, evC_poly, evC_poly, evC_poly, evC_poly, evC_poly] at hu
  rw [(signVec_at n B t.1 t.2 z0 z1 i hi).2, hu, h0 i hi, h1 i hi]
  show (t.1 i - _) * B (2 ^ n + i) + (t.2 i - _) * B (3 * 2 ^ n + i) = _
  rw [e0, e1]
  rw [show B (2 ^ n + i) = _ from b1, show B (3 * 2 ^ n + i) = _ from b3]
  ring

/-- C116, any key. In exact arithmetic a signature returned for any four polynomials f, g, F, G at all is one of some s2 = a0 f + a1 F in
ℤ[x]/(x^N + 1) with integer polynomials a0, a1; whether the polynomials form a key does not matter, nor do the tree and the sampler. -/
theorem C116_second {n : ℕ} (hn : ValidLog n) (f g F G : Mem Int) (xof : Xof) (leaf : LeafSampler ℝ) (fuel hfuel : ℕ) (B0 T : Mem ℂ)
    (stream : ℕ → UInt8) (msg : List UInt8) (sig sig' : Mem UInt8) (pos pos' : ℕ)
    (h : signPoly exactA xof leaf fuel hfuel n (computeMatrixB exactA n f g F G B0) T stream msg sig pos = some (.ok (sig', pos'))) :
    ∃ a0 a1 s2 : Mem Int, SignatureOf n sig' (fun i => stream (pos + i)) s2 ∧
      ModEqXN (2 ^ n) (polyZ (2 ^ n) s2) (polyZ (2 ^ n) a0 * polyZ (2 ^ n) f + polyZ (2 ^ n) a1 * polyZ (2 ^ n) F) ∧
      sqNorm (2 ^ n) s2 ≤ betaSq n := by
  have hn10 : n ≤ 10 := by rcases hn with rfl | rfl <;> norm_num
  obtain ⟨c, z, s2, p, -, hz, hle, hr, hs, -⟩ := signPoly_ok exactA hn h
  obtain ⟨a0, a1, h0, h1⟩ := C48_integer leaf n hn10 _ _ T _ _ p z hz
  obtain ⟨u1, hu1⟩ := exists_arr n (polyZ (2 ^ n) a0 * polyZ (2 ^ n) f + polyZ (2 ^ n) a1 * polyZ (2 ^ n) F)
  have hd := signVec_snd hn10 f g F G B0 c h0 h1 hu1
  have hnorm : sqNorm (2 ^ n) u1 ≤ betaSq n := by
    rw [exact_le] at hle
    unfold signNorm at hle
    have hle : sqrdNormC exactA n _ + sqrdNormC exactA n _ ≤ exactA.lit ((beta2 n : ℤ) : ℚ) := hle
    rw [normC_int hn10 hd, exact_lit_int, beta2_eq hn, sqrdNormC_val] at hle
    have h5 : (0 : ℝ) ≤ (∑ i ∈ range (2 ^ n), Complex.normSq ((signVec exactA n (computeMatrixB exactA n f g F G B0)
        (signTarget exactA n (computeMatrixB exactA n f g F G B0) c).1 (signTarget exactA n (computeMatrixB exactA n f g F G B0) c).2
        z.1 z.2.1).1 i)) / 2 ^ n := div_nonneg (sum_nonneg fun _ _ => Complex.normSq_nonneg _) (by positivity)
    have : ((sqNorm (2 ^ n) u1 : ℤ) : ℝ) ≤ ((betaSq n : ℤ) : ℝ) := by linarith
    exact_mod_cast this
  have hz0 : sqNorm (2 ^ n) (fun _ => 0) = 0 := by unfold sqNorm; simp
  obtain ⟨w, r1, r2, -⟩ := signRound_int hn10 hd (fun i hi => coeff_le_norm (u0 := fun _ => 0) (by rw [hz0, zero_add]; exact hnorm) i hi)
  have hw : s2 = w := by
    have := hr.symm.trans r1
    injection this
  refine ⟨a0, a1, s2, hs, ?_, ?_⟩
  · rw [show polyZ (2 ^ n) s2 = polyZ (2 ^ n) u1 from toPoly_congr fun i hi => by rw [hw]; exact r2 i hi]
    exact hu1
  · have : sqNorm (2 ^ n) s2 = sqNorm (2 ^ n) u1 := by
      unfold sqNorm
      exact sum_congr rfl fun i hi => by rw [hw, r2 i (mem_range.mp hi)]
    rw [this]; exact hnorm

/-- C116. `falcon::sign` on a secret key with the right header whose F is erased does not notice: in exact arithmetic every signature it
returns, for whatever f, g, message, seed and sampler, is one of a multiple of f in ℤ[x]/(x^N + 1). -/
theorem C116_erased {n : ℕ} (hn : ValidLog n) (xof : Xof) (mt : UInt32 → Mem UInt8) (leaf : (ℕ → UInt8) → LeafSampler ℝ) (fuel hfuel : ℕ)
    (junk : FgF) (junkG : Mem Int) (junkB junkT : Mem ℂ) (seed : UInt32) (sk : Mem UInt8) (h0 : (sk 0).toNat = 0x50 + n)
    (hz : ∀ i, i < 2 ^ n → sk (1 + 2 ^ n * skBits n / 8 + 2 ^ n * skBits n / 8 + i) = 0) (msg : List UInt8) (sig sig' : Mem UInt8) (b : Bool)
    (h : falconSign exactA xof mt leaf fuel hfuel n junk junkG junkB junkT seed sk msg sig = some (.ok (b, sig'))) :
    b = true ∧ ∃ z s2 : Mem Int, SignatureOf n sig' (prngNew xof mt seed) s2 ∧
      ModEqXN (2 ^ n) (polyZ (2 ^ n) s2) (polyZ (2 ^ n) z * polyZ (2 ^ n) (decodeSkey n sk junk).2.f) := by
  obtain ⟨d1, d2, -⟩ := erasedF_decode hn h0 hz junk
  cases hk : decodeSkey n sk junk with
  | mk t k =>
    rw [hk] at d1 d2
    simp only at d1 d2
    subst d1
    unfold falconSign at h
    simp only [hk] at h
    obtain ⟨G, -, h⟩ := bindO_ok h
    obtain ⟨s, hs, h⟩ := bindO_ok h
    injection h with h
    injection h with h
    injection h with h1 h2
    obtain ⟨a0, a1, s2, e1, e2, -⟩ := C116_second hn _ _ _ G xof _ fuel hfuel _ _ _ msg sig s.1 0 s.2 hs
    refine ⟨h1.symm, a0, s2, ?_, ?_⟩
    · rw [← h2]
      simpa only [Nat.zero_add] using e1
    · rw [polyZ_zero d2, mul_zero, add_zero] at e2
      exact e2

/-- C116, recovery. Two multiples of f by coprime polynomials give f: an integer combination of the two signatures is f. -/
theorem C116_recover {n : ℕ} {f z z' s2 s2' : Mem Int} {a b : ℤ[X]}
    (h : ModEqXN (2 ^ n) (polyZ (2 ^ n) s2) (polyZ (2 ^ n) z * polyZ (2 ^ n) f))
    (h' : ModEqXN (2 ^ n) (polyZ (2 ^ n) s2') (polyZ (2 ^ n) z' * polyZ (2 ^ n) f))
    (hab : ModEqXN (2 ^ n) (a * polyZ (2 ^ n) z + b * polyZ (2 ^ n) z') 1) :
    ModEqXN (2 ^ n) (a * polyZ (2 ^ n) s2 + b * polyZ (2 ^ n) s2') (polyZ (2 ^ n) f) := by
  obtain ⟨c, hc⟩ := h
  obtain ⟨c', hc'⟩ := h'
  obtain ⟨d, hd⟩ := hab
  exact ⟨a * c + b * c' + d * polyZ (2 ^ n) f, by linear_combination a * hc + b * hc' + polyZ (2 ^ n) f * hd⟩

/-- The polynomial G computed for f = 3, g = F = 0: 12289 / 3 rounded. -/
theorem recompute_three {n : ℕ} (hn : n ≤ 10) {f g F : Mem Int} (hf : ∀ i, i < 2 ^ n → f i = constMem 3 i)
    (hF : ∀ i, i < 2 ^ n → F i = 0) (G0 : Mem Int) : ∃ G, recomputeG exactA n f g F G0 = .ok G := by
  have hq : exactA.ofReal (exactA.lit 12289) = (12289 : ℂ) := by
    rw [exact_ofReal]
    show (((12289 : ℚ) : ℝ) : ℂ) = _
    push_cast; rfl
  have h3 : ∀ j, dft n (zC f) j = 3 := by
    intro j
    rw [← evC_poly, show polyZ (2 ^ n) f = polyZ (2 ^ n) (constMem 3) from toPoly_congr hf, polyZ_const (by positivity)]
    simp [evC]
  have h0 : ∀ j, dft n (zC F) j = 0 := by
    intro j
    rw [← evC_poly, polyZ_zero hF]
    simp [evC]
  unfold recomputeG
  simp only
  have hG' : ∀ j, j < 2 ^ n → ifft exactA n (polyDivC exactA n (polyAddToC exactA n (polyMulC exactA n
      (fft exactA n (loop (1 <<< n) (fun i m => upd m i (exactA.ofInt (g i))) (junkC exactA)))
      (fft exactA n (loop (1 <<< n) (fun i m => upd m i (exactA.ofInt (F i))) (junkC exactA)))
      (junkC exactA)) (loop (1 <<< n) (fun i m => upd m i (exactA.ofReal (exactA.lit 12289))) (junkC exactA)))
      (fft exactA n (loop (1 <<< n) (fun i m => upd m i (exactA.ofInt (f i))) (junkC exactA)))
      (junkC exactA)) j = if j = 0 then 12289 / 3 else 0 := by
    intro j hj
    refine ifft_dft hn (a := fun j => if j = 0 then 12289 / 3 else 0) (fun j hj => ?_) j hj
    rw [polyDivC_at, if_pos hj, polyAddToC_at, if_pos hj, polyMulC_at, if_pos hj, fft_ofInt hn _ _ j hj,
      fft_ofInt hn _ _ j hj, fft_ofInt hn _ _ j hj,
      toC_at n (fun _ => exactA.ofReal (exactA.lit 12289)) _ j hj, hq]
    show (dft n (zC g) j * dft n (zC F) j + 12289) / dft n (zC f) j = _
    rw [h0, h3, mul_zero, dft_poly]
    unfold toPoly
    rw [sum_eq_single 0 (fun i _ hi => by simp [hi]) (fun h => absurd (mem_range.mpr (by positivity)) h)]
    simp
  rw [loopE_fill _ _ (constMem 4096)]
  · exact ⟨_, rfl⟩
  · intro i hi
    rw [one_shiftLeft'] at hi
    rw [hG' i hi]
    show exactRoundTo _ _ (Complex.re _) = _
    unfold exactRoundTo
    have : stdRound (Complex.re (if i = 0 then 12289 / 3 else 0)) = constMem 4096 i := by
      unfold constMem
      apply stdRound_near
      split
      · rw [show (12289 / 3 : ℂ) = ((12289 / 3 : ℝ) : ℂ) by push_cast; rfl, Complex.ofReal_re]
        norm_num [abs_lt]
      · simp
    rw [this, if_pos (by unfold constMem; split <;> norm_num)]

/-- The hypotheses of `C116_erased` are met by the key bytes of f = 3, g = F = 0, for which signing returns a signature of s2 = 900, and by
those of the multiplier 299, which is coprime to 300, so `C116_recover` gives f = 900 - 897. -/
example {n : ℕ} (hn : ValidLog n) (mt : UInt32 → Mem UInt8) (rd : UInt32) (sk0 sig : Mem UInt8) (junk : FgF) (junkG : Mem Int)
    (junkB junkT : Mem ℂ) (msg : List UInt8) (x : ℤ) (hx : x = 300 ∨ x = 299) :
    let sk := encodeSkey n (constMem 3) (fun _ => 0) (fun _ => 0) sk0
    ((sk 0).toNat = 0x50 + n ∧ ∀ i, i < 2 ^ n → sk (1 + 2 ^ n * skBits n / 8 + 2 ^ n * skBits n / 8 + i) = 0) ∧
    ∃ (leaf : (ℕ → UInt8) → LeafSampler ℝ) (sig' : Mem UInt8),
      falconSign exactA exampleXof mt leaf 1 16 n junk junkG junkB junkT rd sk msg sig = some (.ok (true, sig')) ∧
      SignatureOf n sig' keyStream (constMem (3 * x)) := by
  intro sk
  have hn10 : n ≤ 10 := by rcases hn with rfl | rfl <;> norm_num
  have hr : SkInRange n (constMem 3) (fun _ => 0) (fun _ => 0) := by
    intro i _
    unfold constMem
    rcases hn with rfl | rfl <;> norm_num [skBits] <;> split <;> norm_num
  obtain ⟨c1, c2, c3, -⟩ := C12_skey_roundtrip hn (constMem 3) (fun _ => 0) (fun _ => 0) sk0 junk hr
  refine ⟨⟨c3, fun i hi => ?_⟩, ?_⟩
  · have := (C59_skey_layout hn (constMem 3) (fun _ => 0) (fun _ => 0) sk0 hr).2.2 i hi
    apply UInt8.toNat_inj.mp
    have : ((sk (1 + 2 ^ n * skBits n / 8 + 2 ^ n * skBits n / 8 + i)).toNat : ℤ) = 0 := this
    exact_mod_cast this
  · cases hk : decodeSkey n sk junk with
    | mk t k =>
      have c1 : (decodeSkey n sk junk).1 = true := c1
      have c2 : ∀ i, i < 2 ^ n → (decodeSkey n sk junk).2.f i = constMem 3 i ∧ (decodeSkey n sk junk).2.g i = 0 ∧
        (decodeSkey n sk junk).2.F i = 0 := c2
      rw [hk] at c1 c2
      simp only at c1 c2
      subst c1
      obtain ⟨G, hG⟩ := recompute_three hn10 (g := k.g) (fun i hi => (c2 i hi).1) (fun i hi => (c2 i hi).2.2) junkG
      obtain ⟨sig', pos', e1, e2⟩ := sign_run_const hn (fun i hi => (c2 i hi).1) (fun i hi => (c2 i hi).2.1)
        (fun i hi => (c2 i hi).2.2) G x (by rcases hx with rfl | rfl <;> norm_num) junkB
        (computeFalconTree exactA n (computeMatrixB exactA n k.f k.g k.F G junkB) junkT) (prngNew exampleXof mt rd) msg sig 0 exampleXof
        (fun l hl => by unfold exampleXof; rw [if_neg (by omega)])
      refine ⟨fun _ => oneLeaf n x (0 + 40), sig', ?_, ?_⟩
      · unfold falconSign
        simp only [hk]
        rw [hG, bindO_pure, e1, bindO_pure]
      · rw [exampleXof_prng] at e2
        simpa only [Nat.zero_add] using e2

end Falcon
