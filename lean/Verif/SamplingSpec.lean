import Verif.SphericalSpec
import Verif.GaussSpec
import Verif.VerifySpec
import Verif.SmallSpec
import Verif.FloatSpec

/-! # Specification vocabulary: fast Fourier sampling with an ideal integer sampler -/

namespace Falcon

/-- The integer sampler whose answers are read from a tape. -/
def tapeLeaf (v : ℕ → ℤ) : LeafSampler ℝ := fun _ _ p => some (.ok (v p, p + 1))

/-- A finite tape, continued by zeros. -/
def tapeOf {d : ℕ} (v : Fin d → ℤ) : ℕ → ℤ := fun i => if h : i < d then v ⟨i, h⟩ else 0

/-- The probability of the answers in a list of calls, when every call is answered by the discrete Gaussian over the integers of
the centre and the standard deviation of the call. -/
noncomputable def callPr (l : List Call) : ℝ :=
  (l.map fun c => gaussW c.mu c.sigma c.z / ∑' j : ℤ, gaussW c.mu c.sigma j).prod

open Classical in
/-- The probability that fast Fourier sampling returns (z0, z1) with property `E`, when every call of the integer sampler is answered
by an exact discrete Gaussian of the centre and the standard deviation it is called with. It is the sum, over all tapes of
answers, of the probability of the answers. -/
noncomputable def idealPr {C : Type} (A : Arith ℝ C) (n : ℕ) (t0 t1 T z0 z1 : Mem C) (E : Mem C → Mem C → Prop) : ℝ :=
  ∑' v : Fin (2 ^ (n + 1)) → ℤ,
    match ffSampling A (logged (tapeLeaf (tapeOf v))) n 0 t0 t1 T z0 z1 (0, []) with
    | some (.ok r) => if E r.1 r.2.1 then callPr r.2.2.2 else 0
    | _ => 0

/-- The two squared Gram-Schmidt norms of a basis are at most M. -/
def GsAtMost (M : ℝ) (n : ℕ) (f g : Mem Int) : Prop :=
  ∑ i ∈ Finset.range (2 ^ n), ((f i : ℝ) ^ 2 + (g i : ℝ) ^ 2) ≤ M ∧
  ∑ j ∈ Finset.range (2 ^ n), (12289 : ℝ) ^ 2 / gramAt n f g j ≤ M * 2 ^ n

/-- (f, g, F, G) is a secret key for the public key `h`: it satisfies the NTRU equation, its coefficients fit the secret key format,
h f = g mod q with f invertible, and its squared Gram-Schmidt norms are at most 16822.412 (key generation allows 1.17^2 q = 16822.4121). -/
structure Trapdoor (n : ℕ) (h : Mem Ff) (f g F G : Mem Int) : Prop where
  eq : NtruEq n f g F G
  fits : FitsFormat n f g F G
  pub : ModEqXN (2 ^ n) (polyZq (2 ^ n) h * polyInt (2 ^ n) f) (polyInt (2 ^ n) g)
  inv : ∃ r, ModEqXN (2 ^ n) (polyInt (2 ^ n) f * r) 1
  gs : GsAtMost 16822.412 n f g

/-- A pair of integer polynomials of size 2^n. -/
abbrev PairZ (n : ℕ) : Type := (Fin (2 ^ n) → ℤ) × (Fin (2 ^ n) → ℤ)

/-- The squared length of a pair. -/
def pairSq {n : ℕ} (s : PairZ n) : ℤ := ∑ i, s.1 i ^ 2 + ∑ i, s.2 i ^ 2

/-- (s1, s2) is a preimage of the hashed point `c` under the public key `h`: s1 + s2 h = c modulo q and X^N + 1. -/
def InCoset (n : ℕ) (h c : Mem Ff) (s : PairZ n) : Prop := Preimage (2 ^ n) h c (tapeOf s.1) (tapeOf s.2)

/-- The weight exp(-|s|^2 / (2 sigma^2)) of a pair of integer polynomials. -/
noncomputable def pairW {n : ℕ} (sigma : ℝ) (s : PairZ n) : ℝ :=
  Real.exp (-((∑ i, (s.1 i : ℝ) ^ 2 + ∑ i, (s.2 i : ℝ) ^ 2) / (2 * sigma ^ 2)))

open Classical in
/-- The spherical discrete Gaussian on the preimages of `c` under the public key `h`: the probability of the preimages with property
`E`. It is defined by the public key, the hashed point and sigma alone. -/
noncomputable def cosetPr (n : ℕ) (sigma : ℝ) (h c : Mem Ff) (E : PairZ n → Prop) : ℝ :=
  (∑' s : PairZ n, if InCoset n h c s ∧ E s then pairW sigma s else 0) /
    ∑' s : PairZ n, if InCoset n h c s then pairW sigma s else 0

/-- The error of one round of sampling with at most `m` attempts per integer. -/
noncomputable def roundErr (n m : ℕ) : ℝ := 1 / 2 ^ 32 + 2 ^ (n + 1) * (1 / 2 ^ m)

/-- What signing accepts: a pair that is short enough and whose second half fits the signature (Falcon specification, algorithm 10). -/
def Accept (n : ℕ) (s : PairZ n) : Prop :=
  pairSq s ≤ betaSq n ∧ ∑ i, (9 + (s.2 i).natAbs / 128) < 8 * (sigBytes n - 41)

/-- Rejection sampling from the spherical Gaussian on the preimages of `c`, with at most `R` rounds: the probability that one of the
rounds is accepted and the first accepted pair has property `E`. -/
noncomputable def rejectPr (n : ℕ) (sigma : ℝ) (h c : Mem Ff) (R : ℕ) (E : PairZ n → Prop) : ℝ :=
  ∑ i ∈ Finset.range R, (1 - cosetPr n sigma h c (Accept n)) ^ i * cosetPr n sigma h c (fun s => Accept n s ∧ E s)

/-- A random stream that starts with the 40 bytes `salt`. -/
def saltStream (salt st : ℕ → UInt8) : ℕ → UInt8 := fun i => if i < 40 then salt i else st (i - 40)

/-- Signing as the specification has it: a uniform salt of 40 bytes, the hashed point of salt and message, and rejection sampling from the spherical
Gaussian on its preimages. The probability that within `R` rounds this gives a pair that, together with the salt, has property `E`; `hash` maps
salts to hashed points (`none`: hashing does not end). -/
noncomputable def specSignPr (n : ℕ) (sigma : ℝ) (h : Mem Ff) (hash : (ℕ → UInt8) → Option (Mem Ff)) (R : ℕ) (E : (ℕ → UInt8) → PairZ n → Prop) : ℝ :=
  (∑ v : Fin 40 → UInt8, match hash (memOf v) with
    | none => 0
    | some c => rejectPr n sigma h c R (E (memOf v))) / 256 ^ 40

end Falcon
