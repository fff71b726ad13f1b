import Verif.SamplingSpec

/-! # Specification vocabulary: pairs drawn without a secret key -/

namespace Falcon

/-- The points of Z_q^N, N = 2^n. -/
abbrev Point (n : ℕ) : Type := Fin (2 ^ n) → Fin 12289

/-- A point as an array of field elements. -/
def pointOf {n : ℕ} (v : Point n) : Mem Ff := fun i => if h : i < 2 ^ n then ⟨UInt16.ofNat (v ⟨i, h⟩).val⟩ else ⟨0⟩

open Classical in
/-- The spherical discrete Gaussian on all pairs of integer polynomials: the probability of `E`. Its 2N coordinates are independent; no key is involved. -/
noncomputable def sphericalPr (n : ℕ) (sigma : ℝ) (E : PairZ n → Prop) : ℝ :=
  (∑' s : PairZ n, if E s then pairW sigma s else 0) / ∑' s : PairZ n, pairW sigma s

end Falcon
