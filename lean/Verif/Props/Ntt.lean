import Verif.Proofs.Ntt

/-!
# C05-C08 : number theoretic transform (include/ntt.hpp, include/polynomial.hpp)
-/

namespace Falcon

open Finset

/-- C05. Entry `i` of the transform is the canonical value of the polynomial at `ζ^(2 rev(i) + 1)`. -/
theorem C05_ntt_eval (n : ℕ) (hn : ValidLog n) (a : Mem Ff) (ha : CanonBelow (2 ^ n) a) (i : ℕ)
    (hi : i < 2 ^ n) :
    (ntt n a i).Canonical ∧
    (ntt n a i).val = ∑ j ∈ range (2 ^ n), (a j).val * (zetaQ n ^ (2 * revBits n i + 1)) ^ j := by
  refine ⟨ntt_canon hn ha i hi, ?_⟩
  rw [(ntt_val hn ha.fits i hi).2, toPoly_eval, root_zT hn i hi, nttZeta_val hn, brv_eq_revBits]

/-- C05. The evaluation points are the N roots of `x^N + 1`: odd powers of ζ, each odd exponent below
2N occurring for exactly one index. -/
theorem C05_points (n : ℕ) (hn : ValidLog n) :
    zetaQ n ^ (2 ^ n) = -1 ∧
    (∀ i, i < 2 ^ n → revBits n i < 2 ^ n) ∧ (∀ i, i < 2 ^ n → revBits n (revBits n i) = i) := by
  refine ⟨?_, ?_, ?_⟩
  · rw [← nttZeta_val hn]; exact (zeta_spec hn).2
  · intro i _; rw [← brv_eq_revBits]; exact brv_lt n i
  · intro i hi; rw [← brv_eq_revBits, ← brv_eq_revBits]; exact brv_brv hi

/-- C05 for the unreduced 14-bit coefficients that `decode_pkey` can deliver: the values are right
modulo q. -/
theorem C05_ntt_eval_14bit (n : ℕ) (hn : ValidLog n) (a : Mem Ff) (ha : FitsBelow (2 ^ n) a) (i : ℕ)
    (hi : i < 2 ^ n) :
    (ntt n a i).Fits14 ∧
    (ntt n a i).val = ∑ j ∈ range (2 ^ n), (a j).val * (zetaQ n ^ (2 * revBits n i + 1)) ^ j := by
  refine ⟨(ntt_val hn ha i hi).1, ?_⟩
  rw [(ntt_val hn ha i hi).2, toPoly_eval, root_zT hn i hi, nttZeta_val hn, brv_eq_revBits]

example : ValidLog 9 ∧ CanonBelow (2 ^ 9) (fun i => Ff.ofU16 (UInt16.ofNat (7 * i))) ∧
    revBits 9 1 = 256 :=
  ⟨Or.inl rfl, fun _ _ => (Ff.ofU16_spec _).1, by decide +kernel⟩

/-- C06. The two transforms are mutually inverse. -/
theorem C06_ntt_inverse (n : ℕ) (hn : ValidLog n) (a : Mem Ff) (ha : CanonBelow (2 ^ n) a) (i : ℕ)
    (hi : i < 2 ^ n) : intt n (ntt n a) i = a i ∧ ntt n (intt n a) i = a i :=
  ⟨intt_ntt_val hn ha i hi, ntt_intt_val hn ha i hi⟩

example : ValidLog 10 ∧ CanonBelow (2 ^ 10) (fun i => Ff.ofU16 (UInt16.ofNat (i * i))) :=
  ⟨Or.inr rfl, fun _ _ => (Ff.ofU16_spec _).1⟩

/-- C07. Transform, multiply pointwise, transform back: the canonical product modulo `X^N + 1`. -/
theorem C07_ntt_product (n : ℕ) (hn : ValidLog n) (a b c0 : Mem Ff) (ha : CanonBelow (2 ^ n) a)
    (hb : CanonBelow (2 ^ n) b) :
    let c := intt n (polyMul n (ntt n a) (ntt n b) c0)
    CanonBelow (2 ^ n) c ∧
    ModEqXN (2 ^ n) (polyZq (2 ^ n) a * polyZq (2 ^ n) b) (polyZq (2 ^ n) c) := by
  intro c
  have hval : ∀ j, j < 2 ^ n → polyMul n (ntt n a) (ntt n b) c0 j = Ff.mul (ntt n a j) (ntt n b j) := by
    intro j hj
    unfold polyMul
    rw [loop_fill, one_shiftLeft', if_pos hj]
  have hcan : CanonBelow (2 ^ n) (polyMul n (ntt n a) (ntt n b) c0) := by
    intro j hj
    rw [hval j hj]
    exact (Ff.mul_spec (ntt_canon hn ha j hj).fits (ntt_canon hn hb j hj).fits).1
  refine ⟨intt_canon hn hcan, ?_⟩
  apply intt_poly hn hcan
  intro j hj
  rw [hval j hj, (Ff.mul_spec (ntt_canon hn ha j hj).fits (ntt_canon hn hb j hj).fits).2,
    (ntt_val hn ha.fits j hj).2, (ntt_val hn hb.fits j hj).2, Polynomial.eval_mul]
  rfl

/-- C08 (number theoretic part). With every access checked against the array length N and the table
length N, no access is out of bounds, and entries from N on are untouched. Holds for every log2 N. -/
theorem C08_ntt_in_bounds (n : ℕ) (a : Mem Ff) :
    nttE n a = .ok (ntt n a) ∧ inttE n a = .ok (intt n a) ∧
    (∀ j, 2 ^ n ≤ j → ntt n a j = a j) ∧ (∀ j, 2 ^ n ≤ j → intt n a j = a j) :=
  ⟨nttE_ok n a, inttE_ok n a, ntt_frame n a, intt_frame n a⟩

/-- An access past the end is reported by the checked primitive (the previous theorem is not vacuous). -/
example : rdE 512 (fun _ => Ff.zero) 512 = .error (.oobRead 512) := rfl

end Falcon
