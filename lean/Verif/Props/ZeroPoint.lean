import Verif.Proofs.ZeroRun
import Verif.Props.UnitTestsFft
import Verif.Props.F64Keygen

/-!
# C107: a valid key with which one-shot signing is undefined
-/

namespace Falcon

open Finset

/-- C107: if f, g, F are in the range of the secret key format and the transform of f is computed as zero at a point, recomputing G on
IEEE 754 data converts a value that is not finite to an integer. -/
theorem C107_recompute (b : Bool) (rm rd : F64.Recover) (hrd : F64.NoInvention rd) {n : ℕ} (hn : n ≤ 10) {f g F : Mem Int}
    (hr : ∀ i, i < 2 ^ n → |f i| ≤ 128 ∧ |g i| ≤ 128 ∧ |F i| ≤ 128) {j : ℕ} (hj : j < 2 ^ n)
    (hz : fft (ieeeA b) n (loop (1 <<< n) (fun i m => upd m i ((ieeeA b).ofInt (f i))) (junkC (ieeeA b))) j = 0) (G0 : Mem Int) :
    ∃ e, recomputeG (f64A b rm rd) n f g F G0 = .error e := by
  have hS := sim_f64 b rm rd
  have hfft : ∀ a : Mem Int, (∀ i, i < 2 ^ n → |a i| ≤ 128) → RelBelow (2 ^ n) (FinC 37)
      (fft (f64A b rm rd) n (loop (1 <<< n) (fun i m => upd m i ((f64A b rm rd).ofInt (a i))) (junkC (f64A b rm rd))))
      (fft (ieeeA b) n (loop (1 <<< n) (fun i m => upd m i ((ieeeA b).ofInt (a i))) (junkC (ieeeA b)))) := by
    intro a ha
    refine finC_fft hS (e := 7) hn (by norm_num) fun i hi => ?_
    rw [one_shiftLeft', loop_fill, loop_fill, if_pos hi, if_pos hi]
    refine hS.ofInt ?_ (by norm_num)
    have : ((|a i| : ℤ) : ℝ) ≤ 128 := by exact_mod_cast ha i hi
    rw [Int.cast_abs] at this
    norm_num
    linarith
  have kf := hfft f (fun i hi => (hr i hi).1) j hj
  have kg := hfft g (fun i hi => (hr i hi).2.1) j hj
  have kF := hfft F (fun i hi => (hr i hi).2.2) j hj
  rw [hz] at kf
  unfold recomputeG
  simp only
  have h1 : FinC 75 _ _ := hS.cmul kg kF (by norm_num)
  have h2 : FinC 76 _ _ := hS.cadd h1 ((finC_lit12289 hS).mono (by norm_num)) (by norm_num)
  have hq := cdiv_zero (b := b) (rm := rm) (rd := rd) hrd h2 kf (by unfold denD; split <;> simp [rnd_zero]) (by norm_num) (by norm_num)
  have hf := ifft_not_finite (b := b) (rm := rm) (rd := rd) hn (a := polyDivC (f64A b rm rd) n (polyAddToC (f64A b rm rd) n
      (polyMulC (f64A b rm rd) n
      (fft (f64A b rm rd) n (loop (1 <<< n) (fun i m => upd m i ((f64A b rm rd).ofInt (g i))) (junkC (f64A b rm rd))))
      (fft (f64A b rm rd) n (loop (1 <<< n) (fun i m => upd m i ((f64A b rm rd).ofInt (F i))) (junkC (f64A b rm rd))))
      (junkC (f64A b rm rd)))
      (loop (1 <<< n) (fun i m => upd m i ((f64A b rm rd).ofReal ((f64A b rm rd).lit 12289))) (junkC (f64A b rm rd))))
      (fft (f64A b rm rd) n (loop (1 <<< n) (fun i m => upd m i ((f64A b rm rd).ofInt (f i))) (junkC (f64A b rm rd))))
      (junkC (f64A b rm rd))) hj (by
    rw [polyDivC_at, if_pos hj, polyAddToC_at, if_pos hj, polyMulC_at, if_pos hj,
      show loop (1 <<< n) (fun i m => upd m i ((f64A b rm rd).ofReal ((f64A b rm rd).lit 12289))) (junkC (f64A b rm rd)) j =
        (f64A b rm rd).ofReal ((f64A b rm rd).lit 12289) by rw [one_shiftLeft', loop_fill, if_pos hj]]
    exact hq)
  generalize ifft (f64A b rm rd) n _ = w at *
  have hw : ∃ e, (f64A b rm rd).roundTo (-2 ^ 31) (2 ^ 31 - 1) ((f64A b rm rd).re (w 0)) = .error e := by
    show ∃ e, F64.roundTo _ _ (w 0).1 = _
    cases hz : (w 0).1 with
    | nan => exact ⟨_, rfl⟩
    | inf s => exact ⟨_, rfl⟩
    | fin s x => exact absurd ⟨s, x, hz⟩ hf
  obtain ⟨e, he⟩ := hw
  refine ⟨e, ?_⟩
  have hp : 0 < 2 ^ n := by positivity
  obtain ⟨m, hm⟩ : ∃ m, 1 <<< n = m + 1 := ⟨2 ^ n - 1, by rw [one_shiftLeft']; omega⟩
  rw [hm]
  clear hm
  induction m with
  | zero => simp only [loopE, he]; rfl
  | succ m ih => rw [loopE, ih]; rfl

/-- C107: then `falcon::sign` with the secret key bytes is undefined for every message and seed, whatever the sampler. -/
theorem C107_one_shot (b : Bool) (rm rd : F64.Recover) (hrd : F64.NoInvention rd) {n : ℕ} (hn : ValidLog n) {f g : Mem Int}
    (hfit : ∀ i, i < 2 ^ n → |f i| ≤ (if n = 9 then 31 else 15) ∧ |g i| ≤ (if n = 9 then 31 else 15)) {j : ℕ} (hj : j < 2 ^ n)
    (hz : fft (ieeeA b) n (loop (1 <<< n) (fun i m => upd m i ((ieeeA b).ofInt (f i))) (junkC (ieeeA b))) j = 0) (F : Mem Int) (sk0 : Mem UInt8)
    (xof : Xof) (mt : UInt32 → Mem UInt8) (leaf : (ℕ → UInt8) → LeafSampler F64) (fuel hfuel : ℕ) (junk : FgF) (junkG : Mem Int)
    (junkB junkT : Mem (F64 × F64)) (seed : UInt32) (msg : List UInt8) (sig : Mem UInt8) :
    ∃ e, falconSign (f64A b rm rd) xof mt leaf fuel hfuel n junk junkG junkB junkT seed (encodeSkey n f g F sk0) msg sig =
      some (.error e) := by
  have hn10 : n ≤ 10 := by rcases hn with rfl | rfl <;> norm_num
  rw [← encodeSkey_mod]
  obtain ⟨F', hF'⟩ : ∃ F' : Mem Int, F' = fun i => (F i + 128) % 256 - 128 := ⟨_, rfl⟩
  have hF : ∀ i, -128 ≤ F' i ∧ F' i ≤ 127 := fun i => by rw [hF']; dsimp only; omega
  rw [← hF']
  clear hF'
  obtain ⟨c1, c2, -⟩ := C12_skey_roundtrip hn f g F' sk0 junk fun i hi => by
    obtain ⟨h1, h2⟩ := hfit i hi
    rw [abs_le] at h1 h2
    rcases hn with rfl | rfl <;> simp at h1 h2 <;> unfold skBits <;> simp <;> refine ⟨by omega, by omega, hF i⟩
  cases hk : decodeSkey n (encodeSkey n f g F' sk0) junk with
  | mk t k =>
    simp only [hk] at c1 c2
    subst c1
    have hK : (if n = 9 then 31 else 15 : ℤ) ≤ 128 := by split <;> norm_num
    obtain ⟨e, he⟩ := C107_recompute b rm rd hrd hn10 (f := k.f) (g := k.g) (F := k.F) (fun i hi => by
        obtain ⟨h1, h2, h3⟩ := c2 i hi
        rw [h1, h2, h3]
        exact ⟨(hfit i hi).1.trans hK, (hfit i hi).2.trans hK, abs_le.mpr ⟨(hF i).1, (hF i).2.trans (by norm_num)⟩⟩) hj (by
        rw [← hz]
        rw [one_shiftLeft', loop_congr (s := junkC (ieeeA b)) fun i hi t => by rw [(c2 i hi).1]]) junkG
    refine ⟨e, ?_⟩
    unfold falconSign
    simp only [hk]
    rw [he]
    rfl

/-- C107: such a key exists for N = 512. It satisfies the NTRU equation, fits the format, passes the Gram-Schmidt bounds, f is invertible, and
with contraction or without, one-shot signing with its bytes is undefined for every message and every seed; yet signing with the
matrix and the tree that key generation keeps in memory is defined for every message and every stream. -/
theorem C107_key : ∃ f g F G : Mem Int, NtruEq 9 f g F G ∧ FitsFormat 9 f g F G ∧ GsSmall 9 f g ∧
    (∃ r, ModEqXN (2 ^ 9) (polyInt (2 ^ 9) f * r) 1) ∧ (∀ j, j < 2 ^ 9 → dft 9 (zC f) j ≠ 0) ∧
    ∀ (b : Bool) (rm rd : F64.Recover), F64.NoInvention rd → ∀ (xof : Xof) (fuel lfuel hfuel : ℕ),
      (∀ (mt : UInt32 → Mem UInt8) (leaf : (ℕ → UInt8) → LeafSampler F64) (sk0 : Mem UInt8) (junk : FgF) (junkG : Mem Int)
        (junkB junkT : Mem (F64 × F64)) (seed : UInt32) (msg : List UInt8) (sig : Mem UInt8),
        ∃ e, falconSign (f64A b rm rd) xof mt leaf fuel hfuel 9 junk junkG junkB junkT seed (encodeSkey 9 f g F sk0) msg sig =
          some (.error e)) ∧
      ∀ (B0 T0 : Mem (F64 × F64)) (stream : ℕ → UInt8) (msg : List UInt8) (sig : Mem UInt8) (pos : ℕ) (e : UB),
        let B := computeMatrixB (f64A b rm rd) 9 f g F G B0
        signPoly (f64A b rm rd) xof (codeLeaf64 false 9 lfuel stream) fuel hfuel 9 B (computeFalconTree (f64A b rm rd) 9 B T0) stream msg
          sig pos ≠ some (.error e) := by
  refine ⟨zkf, zkg, zkF, zkG, zeroKey_eq, zeroKey_fits, zeroKey_gs, zeroKey_inv, fun j hj h => ?_, fun b rm rd hrd xof fuel lfuel hfuel =>
    ⟨fun mt leaf sk0 junk junkG junkB junkT seed msg sig => ?_, fun B0 T0 stream msg sig pos e => ?_⟩⟩
  · have := dft_ne_zero (n := 9) (by norm_num) zkf j hj h 0 (by norm_num)
    exact absurd this (by decide)
  · exact C107_one_shot b rm rd hrd (.inl rfl) (fun i hi => ⟨(zeroKey_fits i hi).1, (zeroKey_fits i hi).2.1⟩) (show 0 < 2 ^ 9 by norm_num)
      (zeroKey_point b _) zkF sk0 xof mt leaf fuel hfuel junk
      junkG junkB junkT seed msg sig
  · exact (C75_defined b rm rd (.inl rfl) zeroKey_eq zeroKey_fits zeroKey_gs xof fuel lfuel hfuel B0 T0).1 stream msg sig pos e

/-- C107, key generation: nothing rejects these keys. If `falcon::keygen` returns a secret key whose f has computed transform zero at a point
and whose f and g fit the format, every `falcon::sign` with it is undefined. -/
theorem C107_keygen {R C : Type} (K : Arith R C) (b : Bool) (rm rd : F64.Recover) (hrd : F64.NoInvention rd) (fma : Bool) {n : ℕ} (hn : ValidLog n)
    (xof : Xof) (mt : UInt32 → Mem UInt8) (kfuel iters : ℕ) (kjunk : Ntru) (krd : UInt32) (pk0 sk0 pk sk : Mem UInt8)
    (hkey : falconKeygen K xof mt fma n kfuel iters kjunk krd pk0 sk0 = some (.ok (pk, sk))) :
    ∃ (s : Ntru) (kpos : ℕ), ntruGen (redQuot K) (gsTooBig K n) fma n (prngNew xof mt krd) kfuel iters kjunk 0 = some (.ok (s, kpos)) ∧
      ((∀ i, i < 2 ^ n → |s.f i| ≤ (if n = 9 then 31 else 15) ∧ |s.g i| ≤ (if n = 9 then 31 else 15)) → ∀ j, j < 2 ^ n →
        fft (ieeeA b) n (loop (1 <<< n) (fun i m => upd m i ((ieeeA b).ofInt (s.f i))) (junkC (ieeeA b))) j = 0 →
        ∀ (leaf : (ℕ → UInt8) → LeafSampler F64) (fuel hfuel : ℕ) (junk : FgF) (junkG : Mem Int) (junkB junkT : Mem (F64 × F64))
          (seed : UInt32) (msg : List UInt8) (sig : Mem UInt8),
          ∃ e, falconSign (f64A b rm rd) xof mt leaf fuel hfuel n junk junkG junkB junkT seed sk msg sig = some (.error e)) := by
  obtain ⟨s, kpos, h, h1, h2, -⟩ := C63_end_to_end K fma hn xof mt kfuel iters kjunk krd pk0 sk0 pk sk hkey
  refine ⟨s, kpos, h1, fun hfit j hj hz leaf fuel hfuel junk junkG junkB junkT seed msg sig => ?_⟩
  subst h2
  exact C107_one_shot b rm rd hrd hn hfit hj hz s.F sk0 xof mt leaf fuel hfuel junk junkG junkB junkT seed msg sig

/-- C107, key generation draws this key: there is a finite string of bytes such that, whenever the random stream of `falcon::keygen` for N = 512
begins with it, the drawn f and g pass every test, the first attempt is not rejected, and if the call returns a key, every `falcon::sign` with
the returned secret key is undefined: every message, seed, sampler and fused or not. -/
theorem C107_reached (fma : Bool) : ∃ (len : ℕ) (w : ℕ → UInt8), ∀ (b' : Bool) (rm' rd' : F64.Recover) (xof : Xof) (mt : UInt32 → Mem UInt8)
    (krd : UInt32), (∀ i, i < len → prngNew xof mt krd i = w i) →
    ∀ (kfuel iters : ℕ) (kjunk : Ntru) (pk0 sk0 pk sk : Mem UInt8),
      falconKeygen (f64A b' rm' rd') xof mt fma 9 kfuel iters kjunk krd pk0 sk0 = some (.ok (pk, sk)) →
      ∀ (b : Bool) (rm rd : F64.Recover), F64.NoInvention rd → ∀ (xof' : Xof) (mt' : UInt32 → Mem UInt8) (leaf : (ℕ → UInt8) → LeafSampler F64)
        (fuel hfuel : ℕ) (junk : FgF) (junkG : Mem Int) (junkB junkT : Mem (F64 × F64)) (seed : UInt32) (msg : List UInt8) (sig : Mem UInt8),
        ∃ e, falconSign (f64A b rm rd) xof' mt' leaf fuel hfuel 9 junk junkG junkB junkT seed sk msg sig = some (.error e) := by
  have hn : ValidLog 9 := .inl rfl
  have box : ∀ a : Mem ℤ, (∀ i, i < 2 ^ 9 → |a i| ≤ 31) → ∀ j, j < 2 ^ 9 →
      -18 * ((4096 / 2 ^ 9 : ℕ) : ℤ) ≤ a j ∧ a j ≤ 19 * (4096 / 2 ^ 9 : ℕ) := by
    intro a h j hj
    have := abs_le.mp (h j hj)
    norm_num
    constructor <;> linarith
  obtain ⟨w, hw⟩ := keygen_draws (fma := fma) hn (box zkf fun i hi => (zeroKey_fits i hi).1) (box zkg fun i hi => (zeroKey_fits i hi).2.1)
  refine ⟨w.length, fun i => w.getD i 0, fun b' rm' rd' xof mt krd hp kfuel iters kjunk pk0 sk0 pk sk hkey b rm rd hrd xof' mt' leaf fuel hfuel
    junk junkG junkB junkT seed msg sig => ?_⟩
  obtain ⟨s, kpos, h, h1, h2, -⟩ := C63_end_to_end _ fma hn xof mt kfuel iters kjunk krd pk0 sk0 pk sk hkey
  have hs := hw (redQuot (f64A b' rm' rd')) (gsTooBig (f64A b' rm' rd') 9) _ 0 (fun i hi => by rw [Nat.zero_add]; exact hp i hi) (fun f' g' e1 e2 => by
    obtain ⟨a1, a2, a3⟩ := zeroKey_accepted b' rm' rd' e1 e2
    exact ⟨a1, a2, a3 _⟩) _ _ _ _ h1
  simp only at hs
  subst h2
  refine C107_one_shot b rm rd hrd hn (fun i hi => ?_) (show 0 < 2 ^ 9 by norm_num) ?_ s.F sk0 xof' mt' leaf fuel hfuel junk junkG junkB junkT
    seed msg sig
  · rw [(hs i hi).1, (hs i hi).2]
    exact ⟨(zeroKey_fits i hi).1, (zeroKey_fits i hi).2.1⟩
  · rw [← zeroKey_point b (junkC (ieeeA b)), one_shiftLeft', loop_congr (s := junkC (ieeeA b)) fun i hi t => by rw [(hs i hi).1]]

/-- For some extendable output function the stream begins with any given bytes. -/
example (len : ℕ) (w : ℕ → UInt8) (mt : UInt32 → Mem UInt8) (krd : UInt32) : ∃ xof : Xof, ∀ i, i < len → prngNew xof mt krd i = w i :=
  ⟨fun _ => w, fun _ _ => rfl⟩

/-- The hypotheses hold for the key above, and `keepNan` invents no value. -/
example (b : Bool) (rm : F64.Recover) (G0 : Mem Int) : ∃ e, recomputeG (f64A b rm F64.keepNan) 9 zkf zkg zkF G0 = .error e :=
  C107_recompute b rm F64.keepNan keepNan_noInvention (by norm_num) (fun i hi => by
    have := zeroKey_fits i hi
    rw [if_pos rfl] at this
    exact ⟨this.1.trans (by norm_num), this.2.1.trans (by norm_num), this.2.2.1.trans (by norm_num)⟩) (show 0 < 2 ^ 9 by norm_num) (zeroKey_point b _) G0

/-- The exact arithmetic recovers G of the same key. -/
example (G0 : Mem Int) : ∃ G', recomputeG exactA 9 zkf zkg zkF G0 = .ok G' ∧ G' 16 = 31 := by
  refine ⟨_, recomputeG_exact (by norm_num) zkf zkg zkF zkG ⟨0, by norm_num, by decide⟩ (fun i hi => ?_) zeroKey_eq G0, by rw [if_pos (by norm_num)]; decide⟩
  have := abs_le.mp (zeroKey_fits i hi).2.2.2
  constructor <;> linarith

end Falcon
