import Verif.F64Spec
import Verif.Proofs.F64KeyRun
import Verif.Props.F64Sign
import Verif.Props.ReduceRun

/-!
# Property C76: keys generated on IEEE 754 data, with infinities and NaN
-/

namespace Falcon

open Finset

/-- C76, the sampler of key generation: with centre 0 and the deviation of the code it behaves on IEEE 754 data as in the model without
upper bound on the exponent. -/
theorem C76_key_sampler (fma : Bool) (n : ℕ) (stream : ℕ → UInt8) (fuel pos : ℕ) :
    samplerz64 fma (F64.lit 0) (F64.lit 1.43300980528773) (sigmaMinF n) stream fuel pos =
      samplerz fma 0 keySigma (sigmaMin n) stream fuel pos := by
  obtain ⟨s, h0⟩ := isZ_lit0
  obtain ⟨⟨t, ht⟩, hb⟩ : FinB 1 (F64.lit 1.43300980528773) (rnd ((1.43300980528773 : ℚ) : ℝ)) :=
    finB_lit (by rw [abs_of_pos] <;> norm_num) (by norm_num)
  have e : rnd ((1.43300980528773 : ℚ) : ℝ) = keySigma := by
    unfold keySigma
    norm_num
  rw [h0, ht]
  rw [e] at hb ⊢
  have h1 : 1 ≤ keySigma := le_rnd_of_rep (by simpa using rep_pow 0) (by norm_num)
  exact C75_sampler fma n s t (by norm_num) h1 ((le_abs_self _).trans (hb.trans (by norm_num))) stream fuel pos

/-- C76: whenever `ntru_gen` returns on IEEE 754 data, the NTRU equation holds over the integers, the coefficients of F and G are below
2^23, the integer |f^|^2 + |g^|^2 is at least 1 at every point, and the Gram-Schmidt norm is below the bound of the code up to rounding
errors. No assumption on f and g is left: a pair for which a division by a computed zero happens, or an infinity or a NaN reaches the
result of the test, is either rejected or never gets past the conversion of the quotient to an integer. -/
theorem C76_keys (b : Bool) (rm rd : F64.Recover) (hrd : F64.NoInvention rd) (fma : Bool) {n : ℕ} (hn : ValidLog n) {stream : ℕ → UInt8}
    {fuel iters : ℕ} {s0 s : Ntru} {pos pos' : ℕ}
    (h : ntruGen (redQuot (f64A b rm rd)) (gsTooBig (f64A b rm rd) n) fma n stream fuel iters s0 pos = some (.ok (s, pos'))) :
    NtruEq n s.f s.g s.F s.G ∧ (∀ i, i < 2 ^ n → |s.F i| ≤ 2 ^ 23 ∧ |s.G i| ≤ 2 ^ 23) ∧
    (∀ j, j < 2 ^ n → 1 ≤ gramAt n s.f s.g j) ∧ GsSmall n s.f s.g := by
  have k := key64 hrd hn (ntruGen_spec iters s0 pos s pos' h)
  exact ⟨k.eq, k.small, k.gram, k.norms⟩

/-- C76: if `falcon::keygen` returns on IEEE 754 data, and the polynomials fit the key format and f^ is not nearly zero at one of the
points, then `falcon::sign` with the secret key bytes, on IEEE 754 data as well, executes no undefined behaviour, and a signature
that it returns is one of a short vector for the public key that `falcon::keygen` has returned, accepted by `falcon::verify` under the
conditions of C65. -/
theorem C76_end_to_end (b : Bool) (rm rd : F64.Recover) (hrd : F64.NoInvention rd) (fma : Bool) {n : ℕ} (hn : ValidLog n) (xof : Xof)
    (mt : UInt32 → Mem UInt8) (kfuel iters : ℕ) (kjunk : Ntru) (krd : UInt32) (pk0 sk0 pk sk : Mem UInt8)
    (hkey : falconKeygen (f64A b rm rd) xof mt fma n kfuel iters kjunk krd pk0 sk0 = some (.ok (pk, sk))) :
    ∃ (s : Ntru) (kpos : ℕ) (h : Mem Ff),
      ntruGen (redQuot (f64A b rm rd)) (gsTooBig (f64A b rm rd) n) fma n (prngNew xof mt krd) kfuel iters kjunk 0 = some (.ok (s, kpos)) ∧
      sk = encodeSkey n s.f s.g s.F sk0 ∧ PkeyOf n pk h ∧
      ModEqXN (2 ^ n) (polyZq (2 ^ n) h * polyInt (2 ^ n) s.f) (polyInt (2 ^ n) s.g) ∧
      (FitsFormat n s.f s.g s.F s.G → (∀ j, j < 2 ^ n → 1 / 2 ^ 10 ≤ ‖dft n (zC s.f) j‖) →
        ∀ (b' : Bool) (rm' rd' : F64.Recover) (fuel lfuel hfuel : ℕ) (junk : FgF) (junkG : Mem Int) (junkB junkT : Mem (F64 × F64))
          (seed : UInt32) (msg : List UInt8) (sig : Mem UInt8),
          let r := falconSign (f64A b' rm' rd') xof mt (codeLeaf64 false n lfuel) fuel hfuel n junk junkG junkB junkT seed sk msg sig
          (∀ e, r ≠ some (.error e)) ∧
          ∀ ok sig', r = some (.ok (ok, sig')) → ok = true ∧ ∃ (c : Mem Ff) (s1 s2 : Mem Int),
            hashToPoint hfuel n (xof (saltMsg sig' msg)) (fun _ => Ff.zero) = some c ∧
            Preimage (2 ^ n) h c s1 s2 ∧ sqNorm (2 ^ n) s1 + sqNorm (2 ^ n) s2 ≤ betaSq n + 166 ∧
            SignatureOf n sig' (prngNew xof mt seed) s2 ∧
            (sqNorm (2 ^ n) s1 + sqNorm (2 ^ n) s2 ≤ betaSq n →
              (∀ i, i < 2 ^ n → |s2 i| ≤ 1023) → (n = 10 → ∀ i, i < 2 ^ n → s1 i ≠ 6144) →
              ∀ (p : Ovf) (vjunk : Junk) (lim : ℕ), sigBytes n + 2 ≤ lim →
                verify xof hfuel p n vjunk pk msg (rdArr lim sig') = some (.ok true))) := by
  obtain ⟨s, kpos, h, h1, h2, h3, h4, -⟩ := C63_end_to_end (f64A b rm rd) fma hn xof mt kfuel iters kjunk krd pk0 sk0 pk sk hkey
  refine ⟨s, kpos, h, h1, h2, h3, h4, ?_⟩
  intro hfit hf0 b' rm' rd' fuel lfuel hfuel junk junkG junkB junkT seed msg sig r
  obtain ⟨heq, -, -, hgs⟩ := C76_keys b rm rd hrd fma hn h1
  have hinv := (C38_ntru_gen hn h1).2.1
  subst h2
  refine ⟨fun e => (C75_defined b' rm' rd' hn heq hfit hgs xof fuel lfuel hfuel junkB junkT).2 hf0 sk0 mt junk junkG seed msg sig e, ?_⟩
  intro ok sig' hr
  obtain ⟨q0, c, s1, s2, p, p', l, q1, -, -, -, q5, q6, q7, q8⟩ := C75_signature b' rm' rd' hn heq hfit hgs hf0 h4 hinv sk0 xof mt fuel lfuel
    hfuel junk junkG junkB junkT seed msg sig sig' ok hr
  exact ⟨q0, c, s1, s2, q1, q5, q6, q7, fun a1 a2 a3 p vjunk lim hl => q8 a1 a2 a3 pk p vjunk lim h3 hl⟩

/-- C76, what the Gram-Schmidt test alone does not do: `std::max` drops a NaN in its second argument, and the pair f = g = 0, for which
every quotient is 0/0, passes the test of `ntru_gen` (it is the test for invertibility that rejects it). -/
theorem C76_nan : (∀ x, F64.max x .nan = x) ∧
    ∀ (b : Bool) {n : ℕ}, ValidLog n → gsTooBig (f64A b F64.keepNan F64.keepNan) n (fun _ => 0) (fun _ => 0) = false ∧
      isPolyInvertible n (fun _ => 0) = false := by
  refine ⟨fun x => by cases x <;> rfl, fun b n hn => ⟨gs_zero_pair b hn, ?_⟩⟩
  rw [Bool.eq_false_iff]
  intro h
  rw [C36_invertible_iff hn (by intro i _; norm_num)] at h
  obtain ⟨i, -, hne⟩ := nonzero_of_inv (n := n) (f := fun _ => 0) h
  exact hne rfl

theorem keepNan_noInvention : F64.NoInvention F64.keepNan := by
  rintro x y - - ⟨s, z, h⟩
  cases h

/-- The hypotheses of `C76_keys` are met: a run that returns f = 1, g = -104, F = 118, G = 17. -/
example (b : Bool) (rm : F64.Recover) : ∃ stream s pos,
    ntruGen (redQuot (f64A b rm F64.keepNan)) (gsTooBig (f64A b rm F64.keepNan) 9) false 9 stream 3 1 zeroNtru 0 = some (.ok (s, pos)) ∧
    s.g 0 = -104 ∧ s.F 0 = 118 ∧ F64.NoInvention F64.keepNan := by
  obtain ⟨stream, s, pos, h, hs⟩ := const_run_of (const_quot64 b rm F64.keepNan) (const_gs64 b rm F64.keepNan)
  exact ⟨stream, s, pos, h, (hs 0 (by norm_num)).2.1, (hs 0 (by norm_num)).2.2.1, keepNan_noInvention⟩

/-- The hypothesis of `C76_end_to_end` is met. -/
example (b : Bool) (rm : F64.Recover) (mt : UInt32 → Mem UInt8) (krd : UInt32) (pk0 sk0 : Mem UInt8) : ∃ (xof : Xof) (pk sk : Mem UInt8),
    falconKeygen (f64A b rm F64.keepNan) xof mt false 9 3 1 zeroNtru krd pk0 sk0 = some (.ok (pk, sk)) := by
  obtain ⟨stream, s, pos, h, hs⟩ := const_run_of (const_quot64 b rm F64.keepNan) (const_gs64 b rm F64.keepNan)
  refine ⟨fun _ => stream, encodePkey 9 (computePublicKey 9 s.f s.g fun _ => Ff.zero) pk0, encodeSkey 9 s.f s.g s.F sk0, ?_⟩
  unfold falconKeygen
  rw [show prngNew (fun _ => stream) mt krd = stream from rfl]
  simp only
  rw [h, bindO_pure]

end Falcon
