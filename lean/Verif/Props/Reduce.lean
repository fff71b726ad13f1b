import Verif.Proofs.GsFloat
import Verif.Props.Load

/-!
# Property C66: the reduction of the NTRU solution and the narrowing of its coefficients
-/

namespace Falcon

open Finset Polynomial

/-- C66: the quotient (F f* + G g*) / (f f* + g g*) exists over the reals, for every pair (f, g) other than (0, 0), and
in exact arithmetic the integers by which (F, G) is reduced are its coefficients, rounded half away from zero; the
conversion to a 64-bit integer is defined only if they fit. -/
theorem C66_quotient {n : ℕ} (hn : n ≤ 10) {f g : Mem Int} (hne : ∃ i, i < 2 ^ n ∧ (f i ≠ 0 ∨ g i ≠ 0)) (F G : Mem Int) :
    ∃ κ : Mem ℝ, IsQuo n f g F G κ ∧ (∀ κ' : Mem ℝ, IsQuo n f g F G κ' → ∀ i, i < 2 ^ n → κ' i = κ i) ∧
      ∀ kr, redQuot exactA n f g F G = .ok kr → ∀ i, i < 2 ^ n →
        kr i = stdRound (κ i) ∧ -2 ^ 63 ≤ kr i ∧ kr i < 2 ^ 63 := by
  have hD := gram_pos hn hne
  obtain ⟨κ, hκ⟩ := isQuo_exists hn hD F G
  refine ⟨κ, hκ, fun κ' hκ' i hi => ?_, fun kr h i hi => redQuot_exact hn hD h hκ i hi⟩
  have : (κ' i : ℂ) = (κ i : ℂ) := by
    refine dft_inj hn (a := fun i => (κ' i : ℂ)) (b := fun i => (κ i : ℂ)) (fun j hj => ?_) i hi
    have h1 := isQuo_dft hn hκ j hj
    have h2 := isQuo_dft hn hκ' j hj
    have h0 : ((gramAt n f g j : ℝ) : ℂ) ≠ 0 := by exact_mod_cast (hD j hj).ne'
    exact mul_right_cancel₀ h0 (h2.trans h1.symm)
  exact_mod_cast this

/-- C66: whatever the rounded quotients are, a solution is returned by the solver only when its joint bit length is
below that of (f, g), or all the coefficients of the rounded quotient are zero. -/
theorem C66_reduced (quot : RedQuot) (fuel k : ℕ) (f g F G : Mem ℤ)
    (h : ntruSolve quot fuel (k + 1) f g = some (.ok (some (F, G)))) :
    bitLenPair (2 ^ (k + 1)) F G < bitLenPair (2 ^ (k + 1)) f g ∨
    ∃ kr, quot (k + 1) (scaled (bitLenPair (2 ^ (k + 1)) f g) f) (scaled (bitLenPair (2 ^ (k + 1)) f g) g)
      (scaled (bitLenPair (2 ^ (k + 1)) F G) F) (scaled (bitLenPair (2 ^ (k + 1)) F G) G) = .ok kr ∧
      ∀ i, i < 2 ^ (k + 1) → kr i = 0 :=
  ntruSolve_exit quot fuel k f g F G h

/-- C66: in every accurate arithmetic, exact or binary64, a solution for coefficients of the size of a key has
coefficients of absolute value at most 2^23, if |f^|^2 + |g^|^2 is at least 1 at every point; the narrowing to
`int32_t` keeps it. -/
theorem C66_solution_fits {A : Arith ℝ ℂ} (hA : Accurate A) {n : ℕ} (hn : ValidLog n) {f g F G : Mem Int}
    (hfg : ∀ i, i < 2 ^ n → |f i| ≤ 19 * (4096 / 2 ^ n) ∧ |g i| ≤ 19 * (4096 / 2 ^ n))
    (hD : ∀ j, j < 2 ^ n → 1 ≤ gramAt n f g j) {fuel : ℕ}
    (h : ntruSolve (redQuot A) fuel n f g = some (.ok (some (F, G)))) :
    ∀ i, i < 2 ^ n → |F i| ≤ 2 ^ 23 ∧ |G i| ≤ 2 ^ 23 ∧ narrow32 (getSi (F i)) = F i ∧ narrow32 (getSi (G i)) = G i := by
  intro i hi
  obtain ⟨h1, h2⟩ := solution_small hA hn (fun i hi => (hfg i hi).1) (fun i hi => (hfg i hi).2) hD h i hi
  refine ⟨h1, h2, narrow_id ?_, narrow_id ?_⟩
  · rw [abs_le] at h1; omega
  · rw [abs_le] at h2; omega

theorem abs_of_keyRange {n : ℕ} {a : Mem Int} (h : KeyRange n a) (i : ℕ) (hi : i < 2 ^ n) : |a i| ≤ 19 * (4096 / 2 ^ n) := by
  have := h i hi
  rw [Int.abs_eq_natAbs]; exact_mod_cast this

/-- A finished run whose |f^|^2 + |g^|^2 is at least 1 at every point. -/
theorem genOk_fits_of {n : ℕ} {quot : RedQuot} {gs : Mem ℤ → Mem ℤ → Bool} {fuel : ℕ} {s : Ntru}
    (H : GenOk quot gs n fuel s)
    (hsol : ∀ f g F G, (∀ i, i < 2 ^ n → f i = s.f i ∧ g i = s.g i) → (∀ j, gramAt n f g j = gramAt n s.f s.g j) →
      ntruSolve quot fuel n f g = some (.ok (some (F, G))) → ∀ i, i < 2 ^ n → |F i| ≤ 2 ^ 23 ∧ |G i| ≤ 2 ^ 23) :
    NtruEq n s.f s.g s.F s.G ∧ ∀ i, i < 2 ^ n → |s.F i| ≤ 2 ^ 23 ∧ |s.G i| ≤ 2 ^ 23 := by
  obtain ⟨F, G, hdet, hsol', hFG⟩ := H.sol
  have cp : ∀ a : Mem ℤ, ∀ i, i < 2 ^ n → loop (1 <<< n) (fun i m => upd m i (a i)) zerosZ i = a i := by
    intro a i hi
    rw [one_shiftLeft', loop_fill, if_pos hi]
  have cd : ∀ a : Mem ℤ, ∀ j, dft n (zC (loop (1 <<< n) (fun i m => upd m i (a i)) zerosZ)) j = dft n (zC a) j := by
    intro a j
    unfold dft
    refine sum_congr rfl fun i hi => ?_
    unfold zC
    rw [cp a i (mem_range.mp hi)]
  have hfit : ∀ i, i < 2 ^ n → |F i| ≤ 2 ^ 23 ∧ |G i| ≤ 2 ^ 23 ∧ narrow32 (getSi (F i)) = F i ∧ narrow32 (getSi (G i)) = G i := by
    intro i hi
    obtain ⟨h1, h2⟩ := hsol _ _ F G (fun i hi => ⟨cp _ i hi, cp _ i hi⟩) (fun j => by unfold gramAt; rw [cd, cd]) hsol' i hi
    refine ⟨h1, h2, narrow_id ?_, narrow_id ?_⟩
    · rw [abs_le] at h1; omega
    · rw [abs_le] at h2; omega
  have eF : ∀ i, i < 2 ^ n → s.F i = F i := fun i hi => (hFG i hi).1.trans (hfit i hi).2.2.1
  have eG : ∀ i, i < 2 ^ n → s.G i = G i := fun i hi => (hFG i hi).2.trans (hfit i hi).2.2.2
  refine ⟨?_, fun i hi => by rw [eF i hi, eG i hi]; exact ⟨(hfit i hi).1, (hfit i hi).2.1⟩⟩
  have e1 : toPoly (2 ^ n) s.F = toPoly (2 ^ n) F := toPoly_congr eF
  have e2 : toPoly (2 ^ n) s.G = toPoly (2 ^ n) G := toPoly_congr eG
  show ModEqXN (2 ^ n) (toPoly (2 ^ n) s.f * toPoly (2 ^ n) s.G - toPoly (2 ^ n) s.g * toPoly (2 ^ n) s.F) (C 12289)
  rw [e1, e2]
  exact hdet

theorem genOk_fits {A : Arith ℝ ℂ} (hA : Accurate A) {n : ℕ} (hn : ValidLog n) {gs : Mem ℤ → Mem ℤ → Bool} {fuel : ℕ} {s : Ntru}
    (H : GenOk (redQuot A) gs n fuel s) (hD : ∀ j, j < 2 ^ n → 1 ≤ gramAt n s.f s.g j) :
    NtruEq n s.f s.g s.F s.G ∧ ∀ i, i < 2 ^ n → |s.F i| ≤ 2 ^ 23 ∧ |s.G i| ≤ 2 ^ 23 :=
  genOk_fits_of H fun f g _ _ e eg h => solution_small hA hn
    (fun i hi => by rw [(e i hi).1]; exact abs_of_keyRange H.fRange i hi)
    (fun i hi => by rw [(e i hi).2]; exact abs_of_keyRange H.gRange i hi) (fun j hj => by rw [eg]; exact hD j hj) h

/-- C66, exact arithmetic: every key that `ntru_gen` returns, for any stream of bytes, satisfies the NTRU equation with
the 32-bit coefficients that are stored, and these are at most 2^23 in absolute value. -/
theorem C66_narrowing {fma : Bool} {n : ℕ} (hn : ValidLog n) {stream : ℕ → UInt8} {fuel iters : ℕ} {s0 s : Ntru} {pos pos' : ℕ}
    (h : ntruGen (redQuot exactA) (gsTooBig exactA n) fma n stream fuel iters s0 pos = some (.ok (s, pos'))) :
    NtruEq n s.f s.g s.F s.G ∧ ∀ i, i < 2 ^ n → |s.F i| ≤ 2 ^ 23 ∧ |s.G i| ≤ 2 ^ 23 := by
  have H := ntruGen_spec iters s0 pos s pos' h
  obtain ⟨i, hi, hne⟩ := nonzero_of_inv (C38_ntru_gen hn h).2.1
  refine genOk_fits accurate_exact hn H fun j hj => ?_
  exact le_trans (by norm_num) (gs_exact hn ⟨i, hi, Or.inl hne⟩ H.gs j hj)

/-- C66, binary64: the same for every key that `ntru_gen` returns with |f^|^2 + |g^|^2 at least 2^-10 at every point. The
test on the Gram-Schmidt norm, computed in binary64, then excludes values below 1. -/
theorem C66_binary64 (b : Bool) {fma : Bool} {n : ℕ} (hn : ValidLog n) {stream : ℕ → UInt8} {fuel iters : ℕ} {s0 s : Ntru}
    {pos pos' : ℕ}
    (h : ntruGen (redQuot (ieeeA b)) (gsTooBig (ieeeA b) n) fma n stream fuel iters s0 pos = some (.ok (s, pos')))
    (hD : ∀ j, j < 2 ^ n → 1 / 2 ^ 10 ≤ gramAt n s.f s.g j) :
    NtruEq n s.f s.g s.F s.G ∧ ∀ i, i < 2 ^ n → |s.F i| ≤ 2 ^ 23 ∧ |s.G i| ≤ 2 ^ 23 := by
  have H := ntruGen_spec iters s0 pos s pos' h
  refine genOk_fits (accurate_ieee b) hn H fun j hj => ?_
  exact gs_float b hn (abs_of_keyRange H.fRange) (abs_of_keyRange H.gRange) H.gs j hj (hD j hj)

/-- C66: C63 without its hypothesis on the narrowing, for key generation in exact arithmetic, or in binary64 with
|f^|^2 + |g^|^2 at least 2^-10 at every point: from key generation to verification, with serialised keys, provided
that f, g, F fit the secret key format. -/
theorem C66_end_to_end (K : Arith ℝ ℂ) (hK : K = exactA ∨ ∃ b, K = ieeeA b) (fma : Bool) {n : ℕ} (hn : ValidLog n) (xof : Xof)
    (mt : UInt32 → Mem UInt8) (kfuel iters : ℕ) (kjunk : Ntru) (krd : UInt32) (pk0 sk0 pk sk : Mem UInt8)
    (hkey : falconKeygen K xof mt fma n kfuel iters kjunk krd pk0 sk0 = some (.ok (pk, sk))) :
    ∃ (s : Ntru) (kpos : ℕ) (h : Mem Ff),
      ntruGen (redQuot K) (gsTooBig K n) fma n (prngNew xof mt krd) kfuel iters kjunk 0 = some (.ok (s, kpos)) ∧
      sk = encodeSkey n s.f s.g s.F sk0 ∧ PkeyOf n pk h ∧
      ModEqXN (2 ^ n) (polyZq (2 ^ n) h * polyInt (2 ^ n) s.f) (polyInt (2 ^ n) s.g) ∧
      (SkInRange n s.f s.g s.F → (K = exactA ∨ ∀ j, j < 2 ^ n → 1 / 2 ^ 10 ≤ gramAt n s.f s.g j) →
        NtruEq n s.f s.g s.F s.G ∧
        ∀ (leaf : (ℕ → UInt8) → LeafSampler ℝ) (fuel hfuel : ℕ) (junk : FgF) (junkG : Mem Int)
          (junkB junkT : Mem ℂ) (rd : UInt32) (msg : List UInt8) (sig sig' : Mem UInt8) (b : Bool),
          falconSign exactA xof mt leaf fuel hfuel n junk junkG junkB junkT rd sk msg sig = some (.ok (b, sig')) →
          b = true ∧ ∃ (c : Mem Ff) (s1 s2 : Mem Int),
            hashToPoint hfuel n (xof (saltMsg sig' msg)) (fun _ => Ff.zero) = some c ∧
            Preimage (2 ^ n) h c s1 s2 ∧ sqNorm (2 ^ n) s1 + sqNorm (2 ^ n) s2 ≤ betaSq n ∧
            SignatureOf n sig' (prngNew xof mt rd) s2 ∧
            ((∀ i, i < 2 ^ n → |s2 i| ≤ 1023) → (n = 10 → ∀ i, i < 2 ^ n → s1 i ≠ 6144) →
              ∀ (p : Ovf) (vjunk : Junk) (lim : ℕ), sigBytes n + 2 ≤ lim →
                verify xof hfuel p n vjunk pk msg (rdArr lim sig') = some (.ok true))) := by
  obtain ⟨s, kpos, h, h1, h2, h3, h4, h5⟩ := C63_end_to_end K fma hn xof mt kfuel iters kjunk krd pk0 sk0 pk sk hkey
  refine ⟨s, kpos, h, h1, h2, h3, h4, fun hr hD => ?_⟩
  have heq : NtruEq n s.f s.g s.F s.G := by
    rcases hK with rfl | ⟨b, rfl⟩
    · exact (C66_narrowing hn h1).1
    · rcases hD with he | hD
      · rw [he] at h1; exact (C66_narrowing hn h1).1
      · exact (C66_binary64 b hn h1 hD).1
  exact ⟨heq, h5 hr heq⟩

end Falcon
