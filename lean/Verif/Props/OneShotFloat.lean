import Verif.Proofs.RecomputeFloat
import Verif.Props.ReduceRun
import Verif.Props.FloatRun

/-!
# Property C67: one-shot signing with a serialised key in floating point
-/

namespace Falcon

open Finset Polynomial

/-- C67: in every accurate arithmetic, exact or binary64, the fourth polynomial G that signing recomputes from f, g, F is the exact
solution of the NTRU equation, for every key in the range of the format whose f is not nearly zero at one of the
points. The buffer beyond the degree is untouched. -/
theorem C67_recompute {A : Arith ℝ ℂ} (hA : Accurate A) {n : ℕ} (hn : ValidLog n) {f g F G : Mem Int}
    (heq : NtruEq n f g F G) (hfit : FitsFormat n f g F G)
    (hf0 : ∀ j, j < 2 ^ n → 1 / 2 ^ 10 ≤ ‖dft n (zC f) j‖) (G0 : Mem Int) :
    recomputeG A n f g F G0 = .ok (fun i => if i < 2 ^ n then G i else G0 i) :=
  recomputeG_float hA hn heq hfit hf0 G0

theorem skInRange_of_fits {n : ℕ} (hn : ValidLog n) {f g F G : Mem Int} (hfit : FitsFormat n f g F G) :
    SkInRange n f g F := by
  intro i hi
  obtain ⟨h1, h2, h3, -⟩ := hfit i hi
  rcases hn with rfl | rfl
  · have hb : skBits 9 = 6 := rfl
    rw [hb]
    norm_num at h1 h2
    rw [abs_le] at h1 h2 h3
    omega
  · have hb : skBits 10 = 5 := rfl
    rw [hb]
    norm_num at h1 h2
    rw [abs_le] at h1 h2 h3
    omega

/-- C67: in every accurate arithmetic, one-shot signing with the serialised key (f, g, F) is signing with the matrix and
the tree of (f, g, F, G). -/
theorem C67_one_shot {A : Arith ℝ ℂ} (hA : Accurate A) {n : ℕ} (hn : ValidLog n) {f g F G : Mem Int}
    (heq : NtruEq n f g F G) (hfit : FitsFormat n f g F G)
    (hf0 : ∀ j, j < 2 ^ n → 1 / 2 ^ 10 ≤ ‖dft n (zC f) j‖) (sk0 : Mem UInt8) (B0 T0 : Mem ℂ) (xof : Xof)
    (mt : UInt32 → Mem UInt8) (leaf : (ℕ → UInt8) → LeafSampler ℝ) (fuel hfuel : ℕ) (junk : FgF) (junkG : Mem Int)
    (junkB junkT : Mem ℂ) (rd : UInt32) (msg : List UInt8) (sig : Mem UInt8) :
    let B := computeMatrixB A n f g F G B0
    falconSign A xof mt leaf fuel hfuel n junk junkG junkB junkT rd (encodeSkey n f g F sk0) msg sig =
      signResult (signPoly A xof (leaf (prngNew xof mt rd)) fuel hfuel n B
        (computeFalconTree A n B T0) (prngNew xof mt rd) msg sig 0) := by
  intro B
  have hn1 : 1 ≤ n := by rcases hn with rfl | rfl <;> norm_num
  obtain ⟨c1, c2, -⟩ := C12_skey_roundtrip hn f g F sk0 junk (skInRange_of_fits hn hfit)
  cases hk : decodeSkey n (encodeSkey n f g F sk0) junk with
  | mk b k =>
    simp only [hk] at c1 c2
    subst c1
    obtain ⟨G', g1, g2⟩ := recomputeG_congr A n junkG junkG c2 (recomputeG_float hA hn heq hfit hf0 junkG)
    rw [C58_one_shot A hn _ junk k hk junkG G' g1 B0 T0]
    have hB : ∀ x, x < 4 * 2 ^ n → computeMatrixB A n k.f k.g k.F G' B0 x = B x :=
      computeMatrixB_congr A n B0 B0 fun i hi =>
        ⟨(c2 i hi).1, (c2 i hi).2.1, (c2 i hi).2.2, by rw [g2 i hi, if_pos hi]⟩
    obtain ⟨t, t1, t2⟩ := computeFalconTree_rep A n hn1 T0 T0 hB
    exact congrArg signResult (signPoly_congr A xof _ fuel hfuel n hB t1 t2 _ msg sig 0)

/-- C67: from key generation to verification, with serialised keys and signing in binary64 (or exact arithmetic, or any
accurate arithmetic `A`): a run of `falcon::keygen` that returns, with `K` exact or binary64, has found polynomials `s`
such that, if they fit the key format and neither |f^|^2 + |g^|^2 (for binary64) nor |f^| is nearly zero at one of the points, every
signature that `falcon::sign` returns with the secret key bytes carries exactly the s2 of the integers that were sampled
(C65). That is a preimage of the hashed point; its squared norm exceeds the bound by at most 166; `falcon::verify` accepts with the public
key bytes if it is within the bound, no coefficient of s2 exceeds 1023 in absolute value and, for N = 1024, no
coefficient of s1 equals 6144. -/
theorem C67_end_to_end (K : Arith ℝ ℂ) (hK : K = exactA ∨ ∃ b, K = ieeeA b) {A : Arith ℝ ℂ} (hA : Accurate A) (fma : Bool)
    {n : ℕ} (hn : ValidLog n) (xof : Xof) (mt : UInt32 → Mem UInt8) (kfuel iters : ℕ) (kjunk : Ntru) (krd : UInt32)
    (pk0 sk0 pk sk : Mem UInt8)
    (hkey : falconKeygen K xof mt fma n kfuel iters kjunk krd pk0 sk0 = some (.ok (pk, sk))) :
    ∃ (s : Ntru) (kpos : ℕ) (h : Mem Ff),
      ntruGen (redQuot K) (gsTooBig K n) fma n (prngNew xof mt krd) kfuel iters kjunk 0 = some (.ok (s, kpos)) ∧
      sk = encodeSkey n s.f s.g s.F sk0 ∧ PkeyOf n pk h ∧
      ModEqXN (2 ^ n) (polyZq (2 ^ n) h * polyInt (2 ^ n) s.f) (polyInt (2 ^ n) s.g) ∧
      (FitsFormat n s.f s.g s.F s.G → (K = exactA ∨ ∀ j, j < 2 ^ n → 1 / 2 ^ 10 ≤ gramAt n s.f s.g j) →
        (∀ j, j < 2 ^ n → 1 / 2 ^ 10 ≤ ‖dft n (zC s.f) j‖) →
        ∀ (leaf : (ℕ → UInt8) → LeafSampler ℝ) (fuel hfuel : ℕ) (junk : FgF) (junkG : Mem Int)
          (junkB junkT : Mem ℂ) (rd : UInt32) (msg : List UInt8) (sig sig' : Mem UInt8) (b : Bool),
          falconSign A xof mt leaf fuel hfuel n junk junkG junkB junkT rd sk msg sig = some (.ok (b, sig')) →
          b = true ∧ ∃ (c : Mem Ff) (s1 s2 : Mem Int) (p p' : ℕ) (l : List Call),
            hashToPoint hfuel n (xof (saltMsg sig' msg)) (fun _ => Ff.zero) = some c ∧
            Calls (leaf (prngNew xof mt rd)) p l p' ∧ l.length = 2 ^ (n + 1) ∧
            RoundVec n s.f s.g s.F s.G c l s1 s2 ∧ Preimage (2 ^ n) h c s1 s2 ∧
            sqNorm (2 ^ n) s1 + sqNorm (2 ^ n) s2 ≤ betaSq n + 166 ∧
            SignatureOf n sig' (prngNew xof mt rd) s2 ∧
            (sqNorm (2 ^ n) s1 + sqNorm (2 ^ n) s2 ≤ betaSq n →
              (∀ i, i < 2 ^ n → |s2 i| ≤ 1023) → (n = 10 → ∀ i, i < 2 ^ n → s1 i ≠ 6144) →
              ∀ (p : Ovf) (vjunk : Junk) (lim : ℕ), sigBytes n + 2 ≤ lim →
                verify xof hfuel p n vjunk pk msg (rdArr lim sig') = some (.ok true))) := by
  obtain ⟨s, kpos, h, h1, h2, h3, h4, h5⟩ := C66_end_to_end K hK fma hn xof mt kfuel iters kjunk krd pk0 sk0 pk sk hkey
  refine ⟨s, kpos, h, h1, h2, h3, h4, ?_⟩
  intro hfit hD hf0 leaf fuel hfuel junk junkG junkB junkT rd msg sig sig' b hsig
  obtain ⟨heq, -⟩ := h5 (skInRange_of_fits hn hfit) hD
  have hinv := (C38_ntru_gen hn h1).2.1
  rw [h2, C67_one_shot hA hn heq hfit hf0 sk0 junkB junkT xof mt leaf fuel hfuel junk junkG junkB junkT rd msg sig] at hsig
  cases hsp : signPoly A xof (leaf (prngNew xof mt rd)) fuel hfuel n
      (computeMatrixB A n s.f s.g s.F s.G junkB)
      (computeFalconTree A n (computeMatrixB A n s.f s.g s.F s.G junkB) junkT) (prngNew xof mt rd) msg sig 0 with
  | none => rw [hsp] at hsig; cases hsig
  | some e =>
    cases e with
    | error e => rw [hsp] at hsig; cases hsig
    | ok r =>
      rw [hsp] at hsig
      have hsig := Prod.mk.inj (Except.ok.inj (Option.some.inj hsig))
      obtain ⟨c, s1, s2, p, l, q1, q2, q3, q4, q5, q6, q7, q8⟩ := C65_float_sign hA hn heq hfit h4 hinv xof _ fuel hfuel
        junkB _ _ msg sig r.1 0 r.2 hsp
      rw [← hsig.2]
      refine ⟨hsig.1.symm, c, s1, s2, p, r.2, l, q1, q2, q3, q4, q5, q6, by simpa only [Nat.zero_add] using q7, ?_⟩
      intro hb hs h6 p vjunk lim hlim
      exact q8 hb hs h6 pk p vjunk lim h3 hlim

/-- The transform of a + b x^256. -/
theorem dft_two (a b : ℤ) (j : ℕ) : dft 9 (zC (twoMem a b)) j = a + b * fftPoint 9 j ^ 256 := by
  have h : ((polyZ (2 ^ 9) (twoMem a b)).map (Int.castRingHom ℂ)).eval (fftPoint 9 j) = dft 9 (zC (twoMem a b)) j := by
    rw [dft_poly]
    unfold polyZ toPoly zC
    simp [Polynomial.map_sum, eval_finsetSum]
  rw [← h, polyZ_two]
  simp

theorem smallKey_point (j : ℕ) (hj : j < 2 ^ 9) : 1 / 2 ^ 10 ≤ ‖dft 9 (zC (twoMem 30 (-31))) j‖ := by
  have h1 : ‖fftPoint 9 j‖ = 1 := by
    have := congrArg norm (fftPoint_pow (n := 9) (by norm_num) j hj)
    rw [norm_pow] at this
    have : ‖fftPoint 9 j‖ ^ 2 ^ 9 = 1 := by rw [this]; simp
    exact (pow_eq_one_iff_of_nonneg (norm_nonneg _) (by norm_num)).mp this
  rw [dft_two]
  have h2 : ‖(((-31 : ℤ) : ℂ)) * fftPoint 9 j ^ 256‖ = 31 := by
    rw [norm_mul, norm_pow, h1, Complex.norm_intCast]; norm_num
  have h3 := norm_sub_norm_le ((((-31 : ℤ) : ℂ)) * fftPoint 9 j ^ 256) (-((30 : ℤ) : ℂ))
  rw [h2, norm_neg, Complex.norm_intCast, sub_neg_eq_add, add_comm _ ((30 : ℤ) : ℂ)] at h3
  refine le_trans ?_ h3
  norm_num

/-- The hypotheses of `C67_recompute` are met by a key of the format. -/
example (b : Bool) (G0 : Mem Int) :
    recomputeG (ieeeA b) 9 (twoMem 30 (-31)) (twoMem 25 (-24)) (twoMem (-95) (-107)) G0
      = .ok (fun i => if i < 2 ^ 9 then twoMem 125 116 i else G0 i) :=
  C67_recompute (accurate_ieee b) (Or.inl rfl) smallKey.1 smallKey.2 smallKey_point G0

/-- The hypotheses of `C67_one_shot` are met by the same key, with a run that returns. -/
example (b : Bool) (sk0 : Mem UInt8) (mt : UInt32 → Mem UInt8) (junk : FgF) (junkG : Mem Int)
    (junkB junkT : Mem ℂ) (rd : UInt32) (msg : List UInt8) (sig : Mem UInt8) :
    ∃ (xof : Xof) (leaf : (ℕ → UInt8) → LeafSampler ℝ) (sig' : Mem UInt8),
      falconSign (ieeeA b) xof mt leaf 1 16 9 junk junkG junkB junkT rd
        (encodeSkey 9 (twoMem 30 (-31)) (twoMem 25 (-24)) (twoMem (-95) (-107)) sk0) msg sig = some (.ok (true, sig')) ∧
      SignatureOf 9 sig' (prngNew xof mt rd) (twoMem 30 (-31)) := by
  have h := C67_one_shot (accurate_ieee b) (Or.inl rfl) smallKey.1 smallKey.2 smallKey_point sk0 junkB junkT
    (fun _ => streamOf fun _ => 0) mt (fun _ => oneLeaf 9 1 (0 + 40)) 1 16 junk junkG junkB junkT rd msg sig
  obtain ⟨sig', pos', e1, e2⟩ := float_run (accurate_ieee b) junkB (computeFalconTree (ieeeA b) 9
    (computeMatrixB (ieeeA b) 9 (twoMem 30 (-31)) (twoMem 25 (-24)) (twoMem (-95) (-107)) (twoMem 125 116) junkB) junkT)
    (prngNew (fun _ => streamOf fun _ => 0) mt rd) msg sig 0 (fun _ => streamOf fun _ => 0) (fun _ _ => rfl)
  refine ⟨_, _, sig', h.trans ?_, by simpa only [Nat.zero_add] using e2⟩
  rw [e1]
  rfl

/-- The hypotheses of `C67_end_to_end` up to the range of the key are met by a run of key generation in binary64. (Its key
1, -104, 118, 17 is not in the range of the format. The examples above go through the rest.) -/
example (b : Bool) (mt : UInt32 → Mem UInt8) (rd : UInt32) (pk0 sk0 : Mem UInt8) : ∃ (xof : Xof) (pk sk : Mem UInt8) (s : Ntru) (pos : ℕ),
    falconKeygen (ieeeA b) xof mt false 9 3 1 zeroNtru rd pk0 sk0 = some (.ok (pk, sk)) ∧
    ntruGen (redQuot (ieeeA b)) (gsTooBig (ieeeA b) 9) false 9 (prngNew xof mt rd) 3 1 zeroNtru 0 = some (.ok (s, pos)) ∧
    (∀ j, j < 2 ^ 9 → 1 / 2 ^ 10 ≤ gramAt 9 s.f s.g j) ∧ ∀ j, j < 2 ^ 9 → 1 / 2 ^ 10 ≤ ‖dft 9 (zC s.f) j‖ := by
  obtain ⟨stream, s, pos, h, hs⟩ := const_run (accurate_ieee b) (const_gs_float b)
  have hk : ∃ pk, falconKeygen (ieeeA b) (fun _ => stream) mt false 9 3 1 zeroNtru rd pk0 sk0 =
      some (.ok (pk, encodeSkey 9 s.f s.g s.F sk0)) := by
    unfold falconKeygen
    rw [show prngNew (fun _ => stream) mt rd = stream from rfl]
    simp only
    rw [h, bindO_pure]
    exact ⟨_, rfl⟩
  obtain ⟨pk, hk⟩ := hk
  refine ⟨fun _ => stream, pk, _, s, pos, hk, h, fun j _ => ?_, fun j _ => ?_⟩
  · rw [const_gram (fun i hi => (hs i hi).1) fun i hi => (hs i hi).2.1]
    norm_num
  · have : dft 9 (zC s.f) j = dft 9 (zC (constMem 1)) j := by
      unfold dft
      exact sum_congr rfl fun i hi => by unfold zC; rw [(hs i (mem_range.mp hi)).1]
    have hc : IsConst 9 (constMem 1) 1 := fun _ _ => rfl
    rw [this, dft_cst _ j hc.zC]
    norm_num

end Falcon
