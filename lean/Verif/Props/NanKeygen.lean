import Verif.Proofs.NanAccept
import Verif.Props.F64Keygen

/-!
# C108: key generation converts a NaN to an integer
-/

namespace Falcon

open Finset

/-- C108: if the transforms of the scaled f and g are both computed as zero at some point, the rounded quotient of `reduce` is undefined on
IEEE 754 data: zero is divided by zero, and the NaN reaches a coefficient that is converted to `long`. -/
theorem C108_quotient (b : Bool) (rm rd : F64.Recover) (hrd : F64.NoInvention rd) {k : ℕ} (hk : k ≤ 10) {f g F G : Mem Int}
    (hr : ∀ i, i < 2 ^ k → |f i| ≤ 2 ^ 53 ∧ |g i| ≤ 2 ^ 53 ∧ |F i| ≤ 2 ^ 53 ∧ |G i| ≤ 2 ^ 53) {j : ℕ} (hj : j < 2 ^ k)
    (hf : fft (ieeeA b) k (loop (1 <<< k) (fun i m => upd m i ((ieeeA b).ofInt (f i))) (junkC (ieeeA b))) j = 0)
    (hg : fft (ieeeA b) k (loop (1 <<< k) (fun i m => upd m i ((ieeeA b).ofInt (g i))) (junkC (ieeeA b))) j = 0) :
    ∃ e, redQuot (f64A b rm rd) k f g F G = .error e := by
  cases h : redQuot (f64A b rm rd) k f g F G with
  | error e => exact ⟨e, rfl⟩
  | ok kr =>
    exfalso
    refine redQuot_den hrd hk (fun i hi => (hr i hi).1) (fun i hi => (hr i hi).2.1) (fun i hi => (hr i hi).2.2.1)
      (fun i hi => (hr i hi).2.2.2) h j hj ?_
    unfold gsSum toCx
    rw [hf, hg, (ieee_cmul_zero b _).2, (ieee_cadd_zero b repC_zero).1]
    unfold denD
    split <;> simp [rnd_zero]

/-- C108: there are f and g for N = 512, with coefficients of absolute value at most 60, such that f is invertible modulo q, both norm bounds
hold and the NTRU equation has a solution; the code finds f invertible and the norms small; and its solver is undefined on IEEE 754 data, with
contraction or without. -/
theorem C108_solver : ∃ f g : Mem Int, (∀ i, |f i| ≤ 60 ∧ |g i| ≤ 60) ∧ (∃ r, ModEqXN (2 ^ 9) (polyInt (2 ^ 9) f * r) 1) ∧ GsSmall 9 f g ∧
    (∃ F G : Mem Int, NtruEq 9 f g F G) ∧
    ∀ (b : Bool) (rm rd : F64.Recover), F64.NoInvention rd → isPolyInvertible 9 f = true ∧ gsTooBig (f64A b rm rd) 9 f g = false ∧
      ∀ fuel, 3 ≤ fuel → ∃ e, ntruSolve (redQuot (f64A b rm rd)) fuel 9 f g = some (.error e) :=
  ⟨nkf, nkg, nan_range, nan_inv, nan_gs, ⟨_, _, nan_ntru⟩, fun b rm rd hrd => by
    obtain ⟨h1, h2⟩ := nan_accepted b rm rd (f' := nkf) (g' := nkg) (fun _ _ => rfl) fun _ _ => rfl
    exact ⟨h1, h2, fun fuel hf => nan_solve b rm rd hrd hf (fun _ _ => rfl) fun _ _ => rfl⟩⟩

/-- C108, key generation draws them: there is a finite string of bytes such that, whenever the random stream of `falcon::keygen` for N = 512
begins with it, the call is undefined, with any two limits of which the first is at least three iterations. -/
theorem C108_reached (fma : Bool) : ∃ (len : ℕ) (w : ℕ → UInt8), ∀ (b : Bool) (rm rd : F64.Recover), F64.NoInvention rd →
    ∀ (xof : Xof) (mt : UInt32 → Mem UInt8) (krd : UInt32), (∀ i, i < len → prngNew xof mt krd i = w i) →
    ∀ (kfuel iters : ℕ) (kjunk : Ntru) (pk0 sk0 : Mem UInt8), 3 ≤ kfuel → 1 ≤ iters →
      ∃ e, falconKeygen (f64A b rm rd) xof mt fma 9 kfuel iters kjunk krd pk0 sk0 = some (.error e) := by
  have hn : ValidLog 9 := .inl rfl
  have box : ∀ a : Mem ℤ, (∀ i, |a i| ≤ 60) → ∀ j, j < 2 ^ 9 → -18 * ((4096 / 2 ^ 9 : ℕ) : ℤ) ≤ a j ∧ a j ≤ 19 * (4096 / 2 ^ 9 : ℕ) := by
    intro a h j hj
    have := abs_le.mp (h j)
    norm_num
    constructor <;> linarith
  obtain ⟨w, hw⟩ := keygen_undefined (fma := fma) hn (box nkf fun i => (nan_range i).1) (box nkg fun i => (nan_range i).2)
  refine ⟨w.length, fun i => w.getD i 0, fun b rm rd hrd xof mt krd hp kfuel iters kjunk pk0 sk0 hk hi => ?_⟩
  obtain ⟨m, rfl⟩ : ∃ m, kfuel = m + 1 := ⟨kfuel - 1, by omega⟩
  obtain ⟨t, rfl⟩ : ∃ t, iters = t + 1 := ⟨iters - 1, by omega⟩
  obtain ⟨e, he⟩ := hw (redQuot (f64A b rm rd)) (gsTooBig (f64A b rm rd) 9) (prngNew xof mt krd) 0 m
    (fun i hi => by rw [Nat.zero_add]; exact hp i hi) (fun f' g' e1 e2 => by
      obtain ⟨a1, a2⟩ := nan_accepted b rm rd e1 e2
      exact ⟨a1, a2, nan_solve b rm rd hrd hk e1 e2⟩) t kjunk
  refine ⟨e, ?_⟩
  unfold falconKeygen
  simp only
  rw [he]
  rfl

/-- For some extendable output function the stream begins with any given bytes. -/
example (len : ℕ) (w : ℕ → UInt8) (mt : UInt32 → Mem UInt8) (krd : UInt32) : ∃ xof : Xof, ∀ i, i < len → prngNew xof mt krd i = w i :=
  ⟨fun _ => w, fun _ _ => rfl⟩

/-- The hypotheses of the quotient are met at N = 8, and `keepNan` invents no value. -/
example (b : Bool) (rm : F64.Recover) : ∃ e, redQuot (f64A b rm F64.keepNan) 3 (fun _ => 0) (memL nanS) (fun _ => 0) (fun _ => 1) = .error e :=
  C108_quotient b rm F64.keepNan keepNan_noInvention (by norm_num) (fun i hi => ⟨by norm_num, by
    have : ∀ i, i < 2 ^ 3 → |nanS.getD i 0| ≤ 2 ^ 53 := by decide +kernel
    exact this i hi, by norm_num, by norm_num⟩) (show 0 < 2 ^ 3 by norm_num) (zero_fft b fun _ _ => rfl) (nan_fft b fun _ _ => rfl)

/-- The scaled g is not zero. -/
example : nanS.getD 0 0 ≠ 0 := by decide +kernel

end Falcon
