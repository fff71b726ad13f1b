import Verif.Props.ZeroPoint

/-!
# C115: secret keys whose first polynomial is erased
-/

namespace Falcon

open Finset

/-- Secret key bytes with the right header whose f block is zero decode to f = 0 and to g, F in range. -/
theorem erased_decode {n : ℕ} (hn : ValidLog n) {sk : Mem UInt8} (h0 : (sk 0).toNat = 0x50 + n)
    (hz : ∀ j, j < 2 ^ n * skBits n / 8 → sk (1 + j) = 0) (o : FgF) :
    (decodeSkey n sk o).1 = true ∧ (∀ i, i < 2 ^ n → (decodeSkey n sk o).2.f i = 0) ∧
      SkInRange n (decodeSkey n sk o).2.f (decodeSkey n sk o).2.g (decodeSkey n sk o).2.F := by
  obtain ⟨c1, -, c3⟩ := C13_skey_decode hn sk (fun _ => 0) o
  have ht : (decodeSkey n sk o).1 = true := by
    cases h : (decodeSkey n sk o).1 with
    | true => rfl
    | false => exact absurd h0 (c1.mp h)
  obtain ⟨hr, he⟩ := c3 ht
  refine ⟨ht, fun i hi => ?_, hr⟩
  have hl := (C59_skey_layout hn _ _ _ (fun _ => 0) hr).1
  have hb : 1 + 2 ^ n * skBits n / 8 ≤ skBytes n := by rcases hn with rfl | rfl <;> decide
  rw [sum_eq_zero (fun j hj => by
    rw [he (1 + j) (by have := mem_range.mp hj; omega), hz j (mem_range.mp hj)]; simp)] at hl
  have h1 := (sum_eq_zero_iff.mp hl.symm) i (mem_range.mpr hi)
  have h2 : ((decodeSkey n sk o).2.f i % 2 ^ skBits n).toNat = 0 := by
    rcases Nat.mul_eq_zero.mp h1 with h | h
    · exact h
    · exact absurd h (by positivity)
  have h3 := (hr i hi).1
  rcases hn with rfl | rfl <;> norm_num [skBits] at h2 h3 <;> omega

/-- C115. On IEEE 754 data `falcon::sign` does not refuse a secret key whose header is right and whose f is erased: it divides by zero and
converts a value that is not finite to an integer, for every g, F, message, seed and sampler. -/
theorem C115_erased (b : Bool) (rm rd : F64.Recover) (hrd : F64.NoInvention rd) {n : ℕ} (hn : ValidLog n) (xof : Xof) (mt : UInt32 → Mem UInt8)
    (leaf : (ℕ → UInt8) → LeafSampler F64) (fuel hfuel : ℕ) (junk : FgF) (junkG : Mem Int) (junkB junkT : Mem (F64 × F64)) (seed : UInt32)
    (sk : Mem UInt8) (h0 : (sk 0).toNat = 0x50 + n) (hz : ∀ j, j < 2 ^ n * skBits n / 8 → sk (1 + j) = 0) (msg : List UInt8) (sig : Mem UInt8) :
    ∃ e, falconSign (f64A b rm rd) xof mt leaf fuel hfuel n junk junkG junkB junkT seed sk msg sig = some (.error e) := by
  have hn10 : n ≤ 10 := by rcases hn with rfl | rfl <;> norm_num
  obtain ⟨d1, d2, d3⟩ := erased_decode hn h0 hz junk
  cases hk : decodeSkey n sk junk with
  | mk t k =>
    rw [hk] at d1 d2 d3
    simp only at d1 d2 d3
    subst d1
    obtain ⟨e, he⟩ := C107_recompute b rm rd hrd hn10 (f := k.f) (g := k.g) (F := k.F) (fun i hi => by
        obtain ⟨h1, h2, h3⟩ := d3 i hi
        rw [abs_le, abs_le, abs_le]
        rcases hn with rfl | rfl <;> norm_num [skBits] at h1 h2 h3 <;> omega) (j := 0) (by positivity) (by
        refine fft_zeros b n (fun i hi => ?_) 0 (by positivity)
        rw [one_shiftLeft', loop_fill, if_pos hi, d2 i hi]
        show (⟨rnd _, rnd _⟩ : ℂ) = 0
        apply Complex.ext <;> simp [rnd_zero]) junkG
    refine ⟨e, ?_⟩
    unfold falconSign
    simp only [hk]
    rw [he]
    rfl

/-- C115. `falcon::keygen` returns no such key: if the polynomials fit the format, the f block of the secret key is not zero. -/
theorem C115_generated {R C : Type} (K : Arith R C) (fma : Bool) {n : ℕ} (hn : ValidLog n) (xof : Xof) (mt : UInt32 → Mem UInt8) (kfuel iters : ℕ)
    (kjunk : Ntru) (krd : UInt32) (pk0 sk0 pk sk : Mem UInt8)
    (hkey : falconKeygen K xof mt fma n kfuel iters kjunk krd pk0 sk0 = some (.ok (pk, sk))) :
    ∃ (s : Ntru) (kpos : ℕ), ntruGen (redQuot K) (gsTooBig K n) fma n (prngNew xof mt krd) kfuel iters kjunk 0 = some (.ok (s, kpos)) ∧
      (SkInRange n s.f s.g s.F → (sk 0).toNat = 0x50 + n ∧ ∃ j, j < 2 ^ n * skBits n / 8 ∧ sk (1 + j) ≠ 0) := by
  obtain ⟨s, kpos, h, h1, h2, -⟩ := C63_end_to_end K fma hn xof mt kfuel iters kjunk krd pk0 sk0 pk sk hkey
  refine ⟨s, kpos, h1, fun hr => ?_⟩
  obtain ⟨-, ⟨r, hr1⟩, -⟩ := C38_ntru_gen hn h1
  obtain ⟨-, c2, c3, -⟩ := C12_skey_roundtrip hn s.f s.g s.F sk0 ⟨s.f, s.g, s.F⟩ hr
  rw [← h2] at c2 c3
  refine ⟨c3, ?_⟩
  by_contra hz
  push Not at hz
  have hf : ∀ i, i < 2 ^ n → s.f i = 0 := fun i hi => by
    rw [← (c2 i hi).1]
    exact (erased_decode hn c3 hz ⟨s.f, s.g, s.F⟩).2.1 i hi
  refine evals_of_inv hn hr1 0 (by positivity) ?_
  have : polyInt (2 ^ n) s.f = 0 := by
    unfold polyInt toPoly
    exact sum_eq_zero fun i hi => by simp [hf i (mem_range.mp hi)]
  rw [this, Polynomial.eval_zero]

/-- Such byte strings exist for both sizes, with g and F that are not zero. -/
example (b : Bool) (rm : F64.Recover) (xof : Xof) (mt : UInt32 → Mem UInt8) (leaf : (ℕ → UInt8) → LeafSampler F64) (junk : FgF) (seed : UInt32)
    (msg : List UInt8) (sig : Mem UInt8) :
    ∃ e, falconSign (f64A b rm F64.keepNan) xof mt leaf 5 10 10 junk (fun _ => 0) (fun _ => (.nan, .nan)) (fun _ => (.nan, .nan)) seed
      (fun j => if j = 0 then 0x5a else if j < 641 then 0 else 7) msg sig = some (.error e) :=
  C115_erased b rm _ keepNan_noInvention (.inr rfl) xof mt leaf 5 10 junk _ _ _ seed _ rfl (fun j hj => by
    have : j < 640 := hj
    rw [if_neg (by omega), if_pos (by omega)]) msg sig

end Falcon
