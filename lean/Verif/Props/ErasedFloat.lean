import Verif.Proofs.ErasedFloat
import Verif.Props.OneShotFloat

/-!
# C116 in binary64
-/

namespace Falcon

open Finset Polynomial

/-- C116 in binary64, from polynomials: F = 0 and an f in the range of the key format whose transform is nowhere below 1/10. -/
theorem C116_poly (b : Bool) {n : ℕ} (hn : ValidLog n) {f g F G : Mem Int} (hf : ∀ i, i < 2 ^ n → |f i| ≤ (if n = 9 then 31 else 15))
    (hF : ∀ i, i < 2 ^ n → F i = 0) (hδ : ∀ j, j < 2 ^ n → 1 / 10 ≤ ‖dft n (zC f) j‖) (xof : Xof) (leaf : LeafSampler ℝ) (fuel hfuel : ℕ)
    (B0 T : Mem ℂ) (stream : ℕ → UInt8) (msg : List UInt8) (sig sig' : Mem UInt8) (pos pos' : ℕ)
    (h : signPoly (ieeeA b) xof leaf fuel hfuel n (computeMatrixB (ieeeA b) n f g F G B0) T stream msg sig pos = some (.ok (sig', pos'))) :
    ∃ z s2 : Mem Int, SignatureOf n sig' (fun i => stream (pos + i)) s2 ∧
      ModEqXN (2 ^ n) (polyZ (2 ^ n) s2) (polyZ (2 ^ n) z * polyZ (2 ^ n) f) := by
  have hA := accurate_ieee b
  have hn10 : n ≤ 10 := by rcases hn with rfl | rfl <;> norm_num
  obtain ⟨c, z, s2, p, -, hz, hle, hr, hs, -⟩ := signPoly_ok (ieeeA b) hn h
  obtain ⟨l, -, -, -, q0, -⟩ := sample_near_draws hA leaf n hn10 _ _ T _ _ p z hz
  obtain ⟨u1, hu1⟩ := exists_arr n (polyZ (2 ^ n) (drawn0 n l) * polyZ (2 ^ n) f)
  obtain ⟨d1, hnm⟩ := erased_near b hn hf hF hδ B0 c q0 hu1 hle
  have hnorm := near_sqNorm hn (s0 := fun _ => 0) (u0 := fun _ => 0) (by
      rw [nC_congr (b := fun _ => 0) fun i _ => by rw [dft_zero, sub_zero], nC_zero]
      positivity) d1 (by
      rw [nC_zero]
      linarith)
  obtain ⟨w, r1, r2, -⟩ := near_round hA hn d1 (by
      have := sqNorm_nonneg (2 ^ n) (fun _ => (0 : ℤ))
      have := betaSq_le n
      omega)
  have hw : s2 = w := by
    have := hr.symm.trans r1
    injection this
  refine ⟨drawn0 n l, s2, hs, ?_⟩
  rw [show polyZ (2 ^ n) s2 = polyZ (2 ^ n) u1 from toPoly_congr fun i hi => by rw [hw]; exact r2 i hi]
  exact hu1

/-- C116 in binary64. `falcon::sign` on a secret key with the right header whose F is erased and whose f has no coefficient of -32 (-16) and a
transform nowhere below 1/10: recomputing G does not fail, and every signature returned is one of a multiple of f. -/
theorem C116_binary64 (b : Bool) {n : ℕ} (hn : ValidLog n) (xof : Xof) (mt : UInt32 → Mem UInt8) (leaf : (ℕ → UInt8) → LeafSampler ℝ)
    (fuel hfuel : ℕ) (junk : FgF) (junkG : Mem Int) (junkB junkT : Mem ℂ) (seed : UInt32) (sk : Mem UInt8) (h0 : (sk 0).toNat = 0x50 + n)
    (hz : ∀ i, i < 2 ^ n → sk (1 + 2 ^ n * skBits n / 8 + 2 ^ n * skBits n / 8 + i) = 0)
    (hf : ∀ i, i < 2 ^ n → |(decodeSkey n sk junk).2.f i| ≤ (if n = 9 then 31 else 15))
    (hδ : ∀ j, j < 2 ^ n → 1 / 10 ≤ ‖dft n (zC (decodeSkey n sk junk).2.f) j‖) (msg : List UInt8) (sig : Mem UInt8) :
    (∃ G, recomputeG (ieeeA b) n (decodeSkey n sk junk).2.f (decodeSkey n sk junk).2.g (decodeSkey n sk junk).2.F junkG = .ok G) ∧
    ∀ r sig', falconSign (ieeeA b) xof mt leaf fuel hfuel n junk junkG junkB junkT seed sk msg sig = some (.ok (r, sig')) →
      r = true ∧ ∃ z s2 : Mem Int, SignatureOf n sig' (prngNew xof mt seed) s2 ∧
        ModEqXN (2 ^ n) (polyZ (2 ^ n) s2) (polyZ (2 ^ n) z * polyZ (2 ^ n) (decodeSkey n sk junk).2.f) := by
  obtain ⟨d1, d2, -⟩ := erasedF_decode hn h0 hz junk
  refine ⟨erased_recompute b hn hf d2 hδ junkG, fun r sig' h => ?_⟩
  cases hk : decodeSkey n sk junk with
  | mk t k =>
    rw [hk] at d1 d2 hf hδ
    simp only at d1 d2 hf hδ
    subst d1
    unfold falconSign at h
    simp only [hk] at h
    obtain ⟨G, -, h⟩ := bindO_ok h
    obtain ⟨s, hs, h⟩ := bindO_ok h
    injection h with h
    injection h with h
    injection h with h1 h2
    obtain ⟨z, s2, e1, e2⟩ := C116_poly b hn hf d2 hδ xof _ fuel hfuel _ _ _ msg sig s.1 0 s.2 hs
    refine ⟨h1.symm, z, s2, ?_, e2⟩
    rw [← h2]
    simpa only [Nat.zero_add] using e1

/-! ### A run -/

theorem smallKey_tenth (j : ℕ) (hj : j < 2 ^ 9) : 1 / 10 ≤ ‖dft 9 (zC (twoMem 30 (-31))) j‖ := by
  have h1 : ‖fftPoint 9 j‖ = 1 := by
    have := congrArg norm (fftPoint_pow (n := 9) (by norm_num) j hj)
    rw [norm_pow] at this
    have : ‖fftPoint 9 j‖ ^ 2 ^ 9 = 1 := by rw [this]; simp
    exact (pow_eq_one_iff_of_nonneg (norm_nonneg _) (by norm_num)).mp this
  rw [dft_two]
  have h2 : ‖(((-31 : ℤ) : ℂ)) * fftPoint 9 j ^ 256‖ = 31 := by
    rw [norm_mul, norm_pow, h1, Complex.norm_intCast]; norm_num
  have h3 := norm_sub_norm_le ((((-31 : ℤ) : ℂ)) * fftPoint 9 j ^ 256) (-((30 : ℤ) : ℂ))
  rw [h2, norm_neg, Complex.norm_intCast, sub_neg_eq_add, add_comm _ ((30 : ℤ) : ℂ)] at h3
  refine le_trans ?_ h3
  norm_num

/-- One round with F = 0 and any G: the hashed point is 0, the sampler returns a single 1, the signature encodes f. -/
theorem erased_run (b : Bool) {f g F : Mem Int} (hf : ∀ i, i < 2 ^ 9 → f i = twoMem 30 (-31) i) (hg : ∀ i, i < 2 ^ 9 → g i = twoMem 25 (-24) i)
    (hF : ∀ i, i < 2 ^ 9 → F i = 0) (G : Mem Int) (B0 T : Mem ℂ) (stream : ℕ → UInt8) (msg : List UInt8) (sig : Mem UInt8) (pos : ℕ)
    (xof : Xof) (hxof : ∀ l, 40 ≤ l.length → xof l = streamOf fun _ => 0) : ∃ sig' pos',
    signPoly (ieeeA b) xof (oneLeaf 9 1 (pos + 40)) 1 16 9 (computeMatrixB (ieeeA b) 9 f g F G B0) T stream msg sig pos =
      some (.ok (sig', pos')) ∧ SignatureOf 9 sig' (fun i => stream (pos + i)) (twoMem 30 (-31)) := by
  have hn : ValidLog 9 := Or.inl rfl
  have hA := accurate_ieee b
  obtain ⟨c, c1, c2⟩ := hash_streamOf hn (c := fun _ => 0) (fun _ => by norm_num) (fun _ => Ff.zero)
  let B := computeMatrixB (ieeeA b) 9 f g F G B0
  let t := signTarget (ieeeA b) 9 B c
  have ht := zero_target b B (c := c) (fun i hi => by rw [c2 i hi])
  obtain ⟨z, hz⟩ := ffSampling_total (ieeeA b) (oneLeaf 9 1 (pos + 40)) (fun _ _ _ => ⟨_, rfl⟩) 9 t.1 t.2 T (junkC (ieeeA b)) (junkC (ieeeA b))
    (pos + 40)
  obtain ⟨l, -, hcalls, hlen, q0, q1⟩ := ffSampling_draws (ieeeA b) (fun k e c => NearInt k e c ∧ ((∀ i, i < 2 ^ k → c i = 0) → ∀ i, i < 2 ^ k → e i = 0))
    (fun z => ⟨ofInt_near0 hA z 0 rfl, fun h i _ => by
      have := h 0 (by norm_num)
      simp only at this
      rw [this]
      exact ieee_ofInt_zero b⟩)
    (fun k e0 e1 c0 c1 hk h0 h1 => ⟨merge_near hA hk h0.1 h1.1, fun h i hi => by
      have hp : 2 ^ (k + 1) = 2 * 2 ^ k := by ring
      have z0 : ∀ i, i < 2 ^ k → e0 i = 0 := h0.2 fun i hi => by
        have := h (2 * i) (by omega)
        unfold ilv at this
        rwa [if_pos (by omega), show 2 * i / 2 = i by omega] at this
      have z1 : ∀ i, i < 2 ^ k → e1 i = 0 := h1.2 fun i hi => by
        have := h (2 * i + 1) (by omega)
        unfold ilv at this
        rwa [if_neg (by omega), show (2 * i + 1) / 2 = i by omega] at this
      unfold mergeS
      rw [z0 _ (by omega), z1 _ (by omega), (ieee_mul_zero b _).2, (ieee_add_zero b).1, (ieee_add_zero b).2, ite_self]⟩)
    (fun k e e' c he h => ⟨by
      have h := h.1
      unfold NearInt at h ⊢
      refine le_trans (le_of_eq (nC_congr fun i hi => ?_)) h
      rw [he i hi], fun hc i hi => (he i hi).trans (h.2 hc i hi)⟩)
    (oneLeaf 9 1 (pos + 40)) 9 (by norm_num) t.1 t.2 T _ _ (pos + 40) z hz
  have hv := calls_posLeaf hcalls
  have ha0 : ∀ i, i < 2 ^ 9 → drawn0 9 l i = constMem 1 i := by
    intro i hi
    unfold drawn0
    rw [hv _ (by rw [hlen]; exact (callIdx_bound 9 i).1)]
    unfold constMem
    by_cases hi0 : i = 0
    · rw [if_pos hi0, if_pos (by rw [(callIdx_last 9 i hi).mpr hi0])]
    · rw [if_neg hi0, if_neg (fun h => hi0 ((callIdx_last 9 i hi).mp (by omega)))]
  have ha1 : ∀ i, i < 2 ^ 9 → drawn1 9 l i = 0 := by
    intro i hi
    have hb := callIdx_bound 9 i
    unfold drawn1
    rw [hv _ (by rw [hlen]; exact hb.2.1), if_neg]
    have := hb.2.2 (by norm_num)
    omega
  have hz1 := q1.2 ha1
  have hp0 : ∀ i, dft 9 (zC (drawn0 9 l)) i = 1 := by
    intro i
    rw [← evC_poly, show polyZ (2 ^ 9) (drawn0 9 l) = polyZ (2 ^ 9) (constMem 1) from toPoly_congr ha0, polyZ_const (by norm_num)]
    simp [evC]
  have hdf : ∀ i, dft 9 (zC f) i = dft 9 (zC (twoMem 30 (-31))) i := fun i => by
    rw [← evC_poly, ← evC_poly, show polyZ (2 ^ 9) f = _ from toPoly_congr hf]
    rfl
  have hdg : ∀ i, dft 9 (zC g) i = dft 9 (zC (twoMem 25 (-24))) i := fun i => by
    rw [← evC_poly, ← evC_poly, show polyZ (2 ^ 9) g = _ from toPoly_congr hg]
    rfl
  have hδ : ∀ j, j < 2 ^ 9 → 1 / 10 ≤ ‖dft 9 (zC f) j‖ := fun j hj => by rw [hdf]; exact smallKey_tenth j hj
  have bf : ∀ i, i < 2 ^ 9 → |f i| ≤ (if 9 = 9 then 31 else 15) := fun i hi => by rw [hf i hi]; exact (smallKey.2 i hi).1
  have bg : ∀ i, i < 2 ^ 9 → |g i| ≤ (if 9 = 9 then 31 else 15) := fun i hi => by rw [hg i hi]; exact (smallKey.2 i hi).2.1
  let s := signVec (ieeeA b) 9 B t.1 t.2 z.1 z.2.1
  have hN2 : ∀ a c : ℤ, nC (2 ^ 9) (zC (twoMem a c)) = Real.sqrt (a ^ 2 + c ^ 2) := by
    intro a c
    have h1 : nC (2 ^ 9) (zC (twoMem a c)) ^ 2 = a ^ 2 + c ^ 2 := by
      rw [nC_zC_sq]
      have := sqNorm_two a c
      unfold sqNorm at this
      exact_mod_cast this
    rw [← h1, Real.sqrt_sq (nC_nonneg _ _)]
  have hN1 : ∀ a c : ℤ, nC (2 ^ 9) (dft 9 (zC (twoMem a c))) = Real.sqrt 2 ^ 9 * Real.sqrt (a ^ 2 + c ^ 2) := by
    intro a c
    rw [nC_dft (by norm_num), hN2]
  obtain ⟨hs1, hs2⟩ := sqrt2_bounds hn
  have l0 : Real.sqrt (((25 : ℤ) : ℝ) ^ 2 + ((-24 : ℤ) : ℝ) ^ 2) ≤ 35 := by
    rw [Real.sqrt_le_left (by norm_num)]; norm_num
  have l1 : Real.sqrt (((30 : ℤ) : ℝ) ^ 2 + ((-31 : ℤ) : ℝ) ^ 2) ≤ 44 := by
    rw [Real.sqrt_le_left (by norm_num)]; norm_num
  have n0 : nC (2 ^ 9) (dft 9 (zC (twoMem 25 (-24)))) ≤ 32 * 35 := by
    rw [hN1]
    exact mul_le_mul hs2 l0 (Real.sqrt_nonneg _) (by norm_num)
  have n1 : nC (2 ^ 9) (dft 9 (zC (twoMem 30 (-31)))) ≤ 32 * 44 := by
    rw [hN1]
    exact mul_le_mul hs2 l1 (Real.sqrt_nonneg _) (by norm_num)
  have p0 := nC_nonneg (2 ^ 9) (dft 9 (zC (twoMem 25 (-24))))
  have p1 := nC_nonneg (2 ^ 9) (dft 9 (zC (twoMem 30 (-31))))
  have hzz : nC (2 ^ 9) (fun _ => (0 : ℂ) - 0) = 0 := by rw [sub_zero]; exact nC_zero _
  have k0 := kapD_pos
  have ka := aK_pos
  have kb := bK_pos
  have x0 : ∀ i, i < 2 ^ 9 → ((0 : ℂ) - dft 9 (zC (drawn0 9 l)) i) * dft 9 (zC g) i + (0 - dft 9 (zC fun _ => 0) i) * (12289 / dft 9 (zC f) i)
      = -dft 9 (zC (twoMem 25 (-24))) i := by
    intro i _
    rw [hp0, hdg, dft_zero]
    ring
  have x1 : ∀ i, i < 2 ^ 9 → ((0 : ℂ) - dft 9 (zC (drawn0 9 l)) i) * -dft 9 (zC f) i + (0 - dft 9 (zC fun _ => 0) i) * 0
      = dft 9 (zC (twoMem 30 (-31))) i := by
    intro i _
    rw [hp0, hdf]
    ring
  have hcore := core_rev hA hn (W0 := fun i => (ieeeA b).csub 0 (z.1 i)) (W1 := fun _ => 0) (T0 := fun _ => 0) (T1 := fun _ => 0)
    (t0 := fun _ => 0) (t1 := fun _ => 0) (Z1 := fun _ => 0) (S0 := s.1) (S1 := s.2)
    (erased_col0 hA hn bg f F G B0) (erased_col hA hn bf g F G B0) (other_col hδ) (zero_near 9 bK kb.le) (fun i hi => by
      have h := hδ i hi
      have hne : dft 9 (zC f) i ≠ 0 := fun h0 => by rw [h0, norm_zero] at h; norm_num at h
      field_simp
      ring) (by rw [hzz]; positivity) (by rw [nC_zero]; positivity) (by rw [hzz]; positivity) (by rw [nC_zero]; positivity) q0.1 (zero_nearInt 9)
    (fun _ _ => rfl) (fun _ _ => ((ieee_add_zero b).2).symm) (fun _ => rfl) (fun _ => rfl)
    (fun i hi => by
      rw [show s.1 i = _ from (signVec_float_at 9 B t.1 t.2 z.1 z.2.1 i hi).1, show t.1 i = 0 from (ht i hi).1,
        show t.2 i = 0 from (ht i hi).2, hz1 i hi, (ieee_add_zero b).2, (ieee_mul_zero b _).2, (ieee_mul_zero b _).2])
    (fun i hi => by
      rw [show s.2 i = _ from (erased_cols b f g F G hF B0 c z.1 z.2.1 i hi).2, (ieee_mul_zero b 0).1])
    (by
      rw [nC_congr x0, nC_congr x1, nC_neg]
      generalize nC (2 ^ 9) (dft 9 (zC (twoMem 25 (-24)))) = x at *
      generalize nC (2 ^ 9) (dft 9 (zC (twoMem 30 (-31)))) = y at *
      nlinarith)
  have y0 : nC (2 ^ 9) (fun i => s.1 i - -dft 9 (zC (twoMem 25 (-24))) i) ≤ 36 / 5 / 2 ^ 15 * 2 ^ 9 :=
    le_trans (le_of_eq (nC_congr fun i hi => by rw [← x0 i hi])) hcore.1
  have y1 : nC (2 ^ 9) (fun i => s.2 i - dft 9 (zC (twoMem 30 (-31))) i) ≤ 36 / 5 / 2 ^ 15 * 2 ^ 9 :=
    le_trans (le_of_eq (nC_congr fun i hi => by rw [← x1 i hi])) hcore.2
  have m0 : nC (2 ^ 9) s.1 ≤ nC (2 ^ 9) (fun i => -dft 9 (zC (twoMem 25 (-24))) i) + nC (2 ^ 9) (fun i => s.1 i - -dft 9 (zC (twoMem 25 (-24))) i) := nC_le_of
  have m1 : nC (2 ^ 9) s.2 ≤ nC (2 ^ 9) (dft 9 (zC (twoMem 30 (-31)))) + nC (2 ^ 9) (fun i => s.2 i - dft 9 (zC (twoMem 30 (-31))) i) := nC_le_of
  rw [nC_neg] at m0
  have hle : (ieeeA b).le (signNorm (ieeeA b) 9 s.1 s.2) ((ieeeA b).lit (beta2 9)) = true := by
    refine norm_test hA hn ?_
    have e0 := nC_nonneg (2 ^ 9) s.1
    have e1 := nC_nonneg (2 ^ 9) s.2
    have he : (36 / 5 / 2 ^ 15 * 2 ^ 9 : ℝ) ≤ 1 := by norm_num
    have f0 : nC (2 ^ 9) s.1 ≤ 2000 := (m0.trans (add_le_add n0 (y0.trans he))).trans (by norm_num)
    have f1 : nC (2 ^ 9) s.2 ≤ 2000 := (m1.trans (add_le_add n1 (y1.trans he))).trans (by norm_num)
    have hb : ((betaSq 9 : ℤ) : ℝ) = 34034726 := by norm_num [betaSq]
    rw [hb]
    generalize nC (2 ^ 9) s.1 = x at *
    generalize nC (2 ^ 9) s.2 = y at *
    nlinarith
  obtain ⟨s2, r1, r2, -⟩ := near_round hA hn y1 (by rw [sqNorm_two]; norm_num)
  have hcodes : (codes s2 (2 ^ 9)).length = 9 * 2 ^ 9 := by
    rw [codes_length, sum_congr rfl (g := fun _ => 9)]
    · simp
    · intro i hi
      rw [r2 i (Finset.mem_range.mp hi)]
      unfold twoMem
      split_ifs <;> rfl
  obtain ⟨ok, out, h1, h2, -⟩ := C15_compress_spec hn s2 sig
    (by
      intro i hi
      rw [r2 i hi]
      unfold twoMem
      split_ifs <;> norm_num)
    (by rw [hcodes]; norm_num)
  have : ok = true := h2.mpr (by rw [hcodes]; norm_num [sigBytes])
  subst this
  have hloop : signLoop (ieeeA b) (oneLeaf 9 1 (pos + 40)) 9 B T t.1 t.2 1 sig (pos + 40) = some (.ok (out, z.2.2)) := by
    unfold signLoop
    rw [hz, bindO_pure]
    simp only
    rw [if_pos hle, r1, bindO_pure, h1, bindO_pure]
    rfl
  have hcongr : ∀ N, N ≤ 2 ^ 9 → codes s2 N = codes (twoMem 30 (-31)) N := by
    intro N
    induction N with
    | zero => intro _; rfl
    | succ N ih => intro hN; rw [codes, codes, ih (by omega), r2 N (by omega)]
  have hsig : SignatureOf 9 _ _ s2 := (assemble_ok hn (stream := stream) (pos := pos) msg h1 rfl).1
  refine ⟨_, z.2.2, ?_, by unfold SignatureOf at hsig ⊢; rw [← hcongr _ le_rfl]; exact hsig⟩
  unfold signPoly
  simp only
  rw [hxof _ (by simp [bytes]), c1]
  simp only
  rw [show signLoop (ieeeA b) (oneLeaf 9 1 (pos + 40)) 9 _ T (signTarget (ieeeA b) 9 _ c).1 (signTarget (ieeeA b) 9 _ c).2 1
    sig (pos + 40) = _ from hloop, bindO_pure]

/-- The hypotheses of `C116_binary64` are met by the key of the other examples with F erased, for which signing returns a signature of f. -/
example (b : Bool) (mt : UInt32 → Mem UInt8) (rd : UInt32) (sk0 sig : Mem UInt8) (junk : FgF) (junkG : Mem Int) (junkB junkT : Mem ℂ)
    (msg : List UInt8) (sk : Mem UInt8) (hsk : sk = encodeSkey 9 (twoMem 30 (-31)) (twoMem 25 (-24)) (fun _ => 0) sk0) :
    ((sk 0).toNat = 0x59 ∧ (∀ i, i < 2 ^ 9 → sk (1 + 2 ^ 9 * skBits 9 / 8 + 2 ^ 9 * skBits 9 / 8 + i) = 0) ∧
      (∀ i, i < 2 ^ 9 → |(decodeSkey 9 sk junk).2.f i| ≤ (if 9 = 9 then 31 else 15)) ∧
      ∀ j, j < 2 ^ 9 → 1 / 10 ≤ ‖dft 9 (zC (decodeSkey 9 sk junk).2.f) j‖) ∧
    ∃ (xof : Xof) (leaf : (ℕ → UInt8) → LeafSampler ℝ) (sig' : Mem UInt8),
      falconSign (ieeeA b) xof mt leaf 1 16 9 junk junkG junkB junkT rd sk msg sig = some (.ok (true, sig')) ∧
      SignatureOf 9 sig' (prngNew xof mt rd) (twoMem 30 (-31)) := by
  have hn : ValidLog 9 := Or.inl rfl
  have hr : SkInRange 9 (twoMem 30 (-31)) (twoMem 25 (-24)) (fun _ => 0) :=
    skInRange_of_fits hn (G := fun _ => 0) fun i hi => ⟨(smallKey.2 i hi).1, (smallKey.2 i hi).2.1, by norm_num, by norm_num⟩
  obtain ⟨c1, c2, c3, -⟩ := C12_skey_roundtrip hn _ _ (fun _ => 0) sk0 junk hr
  rw [← hsk] at c1 c2 c3
  have bf : ∀ i, i < 2 ^ 9 → |(decodeSkey 9 sk junk).2.f i| ≤ (if 9 = 9 then 31 else 15) := fun i hi => by
    rw [(c2 i hi).1]; exact (smallKey.2 i hi).1
  have hδ : ∀ j, j < 2 ^ 9 → 1 / 10 ≤ ‖dft 9 (zC (decodeSkey 9 sk junk).2.f) j‖ := fun j hj => by
    rw [← evC_poly, show polyZ (2 ^ 9) (decodeSkey 9 sk junk).2.f = polyZ (2 ^ 9) (twoMem 30 (-31)) from toPoly_congr fun i hi => (c2 i hi).1, evC_poly]
    exact smallKey_tenth j hj
  refine ⟨⟨c3, fun i hi => ?_, bf, hδ⟩, fun _ => streamOf fun _ => 0, fun _ => oneLeaf 9 1 (0 + 40), ?_⟩
  · have := (C59_skey_layout hn _ _ (fun _ => 0) sk0 hr).2.2 i hi
    rw [← hsk] at this
    apply UInt8.toNat_inj.mp
    have : ((sk (1 + 2 ^ 9 * skBits 9 / 8 + 2 ^ 9 * skBits 9 / 8 + i)).toNat : ℤ) = 0 := this
    exact_mod_cast this
  · cases hk : decodeSkey 9 sk junk with
    | mk t k =>
      rw [hk] at c1 c2 bf hδ
      simp only at c1 c2 bf hδ
      subst c1
      obtain ⟨G, hG⟩ := erased_recompute b hn (g := k.g) bf (fun i hi => (c2 i hi).2.2) hδ junkG
      obtain ⟨sig', pos', e1, e2⟩ := erased_run b (fun i hi => (c2 i hi).1) (fun i hi => (c2 i hi).2.1) (fun i hi => (c2 i hi).2.2) G junkB
        (computeFalconTree (ieeeA b) 9 (computeMatrixB (ieeeA b) 9 k.f k.g k.F G junkB) junkT) (prngNew (fun _ => streamOf fun _ => 0) mt rd)
        msg sig 0 (fun _ => streamOf fun _ => 0) (fun _ _ => rfl)
      refine ⟨sig', ?_, by simpa only [Nat.zero_add] using e2⟩
      unfold falconSign
      simp only [hk]
      rw [hG, bindO_pure, e1, bindO_pure]

end Falcon
