import Verif.Props.Gauss
import Verif.Props.FlatKey
import Verif.Props.Ntru
import Verif.Props.Hash
import Verif.Proofs.SignLaw

/-!
# C80-C83: the distribution of signatures

Random bytes are independent and uniform: `freq k P` is the fraction of byte strings of length k for which P holds.
-/

namespace Falcon

open Finset Polynomial Real

/-! ## C80: fast Fourier sampling with the integer sampler of the code -/

/-- Fast Fourier sampling in arithmetic `A` (exact or binary64 with any exponent bound), with the integer sampler of the code and at most m
attempts per integer, is distributed as fast Fourier sampling in arithmetic `A` with exact discrete Gaussians, up to
2N (2^-38 + 2^-m): for every secret key with leaves at least sigma_min, every hashed point and every event of the output. -/
theorem C80_sampling {A : Arith ℝ ℂ} (hA : Accurate A) {n : ℕ} (hn : ValidLog n) {f g F G : Mem Int} (heq : NtruEq n f g F G)
    (hfit : FitsFormat n f g F G) (hgs : GsSmall n f g) (B0 T0 z0 z1 : Mem ℂ) {c : Mem Ff} (hc : CanonBelow (2 ^ n) c) {t : FTree ℂ}
    (ht : TreeAt n (computeFalconTree A n (computeMatrixB A n f g F G B0) T0) 0 0 t) (hl : ∀ v ∈ t.leaves, sigmaMin n ≤ A.re v)
    (m : ℕ) (E : Mem ℂ → Mem ℂ → Prop) :
    let B := computeMatrixB A n f g F G B0
    let T := computeFalconTree A n B T0
    let u := signTarget A n B c
    |freq (18 * m * 2 ^ (n + 1)) (fun s => ∃ r, ffSampling A (codeLeaf false n m s) n 0 u.1 u.2 T z0 z1 0 = some (.ok r) ∧ E r.1 r.2.1)
      - idealPr A n u.1 u.2 T z0 z1 E| ≤ 2 ^ (n + 1) * (1 / 2 ^ 38 + 1 / 2 ^ m) ∧
    idealPr A n u.1 u.2 T z0 z1 (fun _ _ => True) = 1 := by
  intro B T u
  have hmin := (keyOk_bounds hn).1
  exact ⟨sample_dist hn ht (leaves_both hA hn heq hfit hgs ht hl)
    (fun S leaf hg s e => signSampling_defined hA hg hn heq hfit hgs B0 T0 z0 z1 hc s e) m E,
    idealPr_total A ht fun v hv => by linarith [hl v hv]⟩

/-- In binary64 the leaves are at least sigma_min for every key whose squared Gram-Schmidt norms are at most 16810 (key generation
allows 16822.41; the gap pays for rounding). -/
theorem C80_leaves {A : Arith ℝ ℂ} (hA : Accurate A) {n : ℕ} (hn : ValidLog n) {f g F G : Mem Int} (heq : NtruEq n f g F G)
    (hfit : FitsFormat n f g F G) (hgs : GsAtMost 16810 n f g) (B0 T0 : Mem ℂ) :
    ∃ t, TreeAt n (computeFalconTree A n (computeMatrixB A n f g F G B0) T0) 0 0 t ∧ ∀ v ∈ t.leaves, sigmaMin n ≤ A.re v :=
  tree_low hA hn heq hfit hgs B0 T0

/-- In exact arithmetic the leaves are at least sigma_min for every key whose squared Gram-Schmidt norms are at most 16822.412. -/
theorem C80_leaves_exact {n : ℕ} (hn : ValidLog n) {h : Mem Ff} {f g F G : Mem Int} (tr : Trapdoor n h f g F G) (B0 T0 : Mem ℂ) :
    ∃ t, TreeAt n (computeFalconTree exactA n (computeMatrixB exactA n f g F G B0) T0) 0 0 t ∧
      ∀ v ∈ t.leaves, sigmaMin n ≤ exactA.re v :=
  tree_low_exact hn tr.eq (trap_norm hn tr) (low_exact_const hn) B0 T0

theorem flatKey_most : GsAtMost 16810 9 flatf flatg := by
  refine ⟨?_, ?_⟩
  · have h := flatKey_gs.1
    have e : ∑ i ∈ range (2 ^ 9), ((flatf i : ℝ) ^ 2 + (flatg i : ℝ) ^ 2) = 12222 := by
      have h : ∀ i, (flatf i : ℝ) ^ 2 + (flatg i : ℝ) ^ 2 = if i % 64 = 0 then
          ((([1, 31, 29, 31, -30, -29, 31, -29] : List ℤ).getD (i / 64) 0 : ℤ) : ℝ) ^ 2 + ((([-2, 31, -27, 31, 29, -27, -31, -27] : List ℤ).getD (i / 64) 0 : ℤ) : ℝ) ^ 2 else 0 := by
        intro i
        unfold flatf flatg octMem
        split <;> simp
      rw [sum_congr rfl fun i _ => h i, show 2 ^ 9 = 8 * 64 by norm_num,
        sum_oct (fun t => ((([1, 31, 29, 31, -30, -29, 31, -29] : List ℤ).getD t 0 : ℤ) : ℝ) ^ 2 + ((([-2, 31, -27, 31, 29, -27, -31, -27] : List ℤ).getD t 0 : ℤ) : ℝ) ^ 2)]
      simp only [sum_range_succ, sum_range_zero, List.getD_cons_zero, List.getD_cons_succ]
      norm_num
    rw [e]; norm_num
  · rw [sum_congr rfl fun j hj => by rw [flatKey_gram j (mem_range.mp hj)], sum_const, card_range]
    norm_num

/-- A key and a hashed point that meet the hypotheses in binary64. -/
example : ∃ f g F G : Mem Int, NtruEq 9 f g F G ∧ FitsFormat 9 f g F G ∧ GsSmall 9 f g ∧ GsAtMost 16810 9 f g ∧
    CanonBelow (2 ^ 9) (fun _ => (⟨7⟩ : Ff)) :=
  ⟨flatf, flatg, flatF, flatG, flatKey_eq, flatKey_fits, flatKey_gs, flatKey_most, fun i _ => by show (7 : UInt16).toNat < 12289; decide⟩

/-! ## C81: one round of signing is the spherical Gaussian on the preimages -/

/-- With ideal integer sampling, (s1, s2) is distributed as the spherical Gaussian of parameter sigma on the preimages of c, with relative
error 2^-25 for every event. The Gaussian is defined by the public key alone. -/
theorem C81_ideal {n : ℕ} (hn : ValidLog n) {h : Mem Ff} {f g F G : Mem Int} (tr : Trapdoor n h f g F G) (B0 T0 z0 z1 : Mem ℂ) (c : Mem Ff)
    (E : PairZ n → Prop) :
    let B := computeMatrixB exactA n f g F G B0
    let t := signTarget exactA n B c
    |idealPr exactA n t.1 t.2 (computeFalconTree exactA n B T0) z0 z1 (fun y0 y1 => ∃ s : PairZ n,
        IsDftOf n (signVec exactA n B t.1 t.2 y0 y1).1 (tapeOf s.1) ∧ IsDftOf n (signVec exactA n B t.1 t.2 y0 y1).2 (tapeOf s.2) ∧ E s)
      - cosetPr n (sigmaSig n) h c E| ≤ 1 / 2 ^ 25 * cosetPr n (sigmaSig n) h c E := by
  intro B t
  obtain ⟨-, -, -, h2⟩ := ideal_coset hn tr.eq tr.pub tr.inv (trap_gs hn tr) (sigmaSig_low hn) B0 T0 z0 z1 c E
  have hT : computeFalconTree exactA n B T0 = normalizeTree exactA (sigmaSig n) n 0
      (ffldl exactA n 0 (gramMatrix exactA n B (junkC exactA)) T0) := by
    rw [← sigSigma_exact]; rfl
  rw [hT]
  exact h2

/-- The Gaussian on the preimages is a probability: the preimages carry weight and the events E and not E add up to 1. -/
theorem C81_probability {n : ℕ} (hn : ValidLog n) {h : Mem Ff} {f g F G : Mem Int} (tr : Trapdoor n h f g F G) (c : Mem Ff)
    (E : PairZ n → Prop) : 0 ≤ cosetPr n (sigmaSig n) h c E ∧ cosetPr n (sigmaSig n) h c E ≤ 1 ∧
      cosetPr n (sigmaSig n) h c E + cosetPr n (sigmaSig n) h c (fun s => ¬ E s) = 1 :=
  cosetPr_mem hn tr c E

/-- With the integer sampler of the code: one round returns a pair with property E with the probability of E under the spherical Gaussian on the
preimages of c, up to 2^-32 + 2N 2^-m. -/
theorem C81_code {n : ℕ} (hn : ValidLog n) {h : Mem Ff} {f g F G : Mem Int} (tr : Trapdoor n h f g F G)
    (B0 T0 z0 z1 : Mem ℂ) {c : Mem Ff} (hc : CanonBelow (2 ^ n) c) (m : ℕ) (E : PairZ n → Prop) :
    let B := computeMatrixB exactA n f g F G B0
    let t := signTarget exactA n B c
    |freq (18 * m * 2 ^ (n + 1)) (fun st => ∃ r, ffSampling exactA (codeLeaf false n m st) n 0 t.1 t.2
          (computeFalconTree exactA n B T0) z0 z1 0 = some (.ok r) ∧
          ∃ s : PairZ n, IsDftOf n (signVec exactA n B t.1 t.2 r.1 r.2.1).1 (tapeOf s.1) ∧
            IsDftOf n (signVec exactA n B t.1 t.2 r.1 r.2.1).2 (tapeOf s.2) ∧ E s)
      - cosetPr n (sigmaSig n) h c E| ≤ roundErr n m :=
  code_coset hn tr B0 T0 z0 z1 hc m E

/-- With m = 64 the error is below 2^-31. -/
theorem C81_error {n : ℕ} (hn : ValidLog n) : roundErr n 64 ≤ 1 / 2 ^ 31 := by
  unfold roundErr
  rcases hn with rfl | rfl <;> norm_num

theorem tri4 {a b x e : ℝ} (h1 : |a - x| ≤ e) (h2 : |b - x| ≤ e) : |a - b| ≤ 2 * e := by
  rw [abs_sub_comm] at h2
  have := (abs_sub_le a x b).trans (add_le_add h1 h2)
  linarith

/-- One round does not tell two secret keys of the same public key apart: all events have the same probability up to
2 (2^-32 + 2N 2^-m). -/
theorem C81_basis {n : ℕ} (hn : ValidLog n) {h : Mem Ff} {f g F G f' g' F' G' : Mem Int} (tr : Trapdoor n h f g F G)
    (tr' : Trapdoor n h f' g' F' G') (B0 T0 z0 z1 : Mem ℂ) {c : Mem Ff} (hc : CanonBelow (2 ^ n) c) (m : ℕ) (E : PairZ n → Prop) :
    let round := fun f g F G : Mem Int =>
      let B := computeMatrixB exactA n f g F G B0
      let t := signTarget exactA n B c
      freq (18 * m * 2 ^ (n + 1)) (fun st => ∃ r, ffSampling exactA (codeLeaf false n m st) n 0 t.1 t.2
          (computeFalconTree exactA n B T0) z0 z1 0 = some (.ok r) ∧
          ∃ s : PairZ n, IsDftOf n (signVec exactA n B t.1 t.2 r.1 r.2.1).1 (tapeOf s.1) ∧
            IsDftOf n (signVec exactA n B t.1 t.2 r.1 r.2.1).2 (tapeOf s.2) ∧ E s)
    |round f g F G - round f' g' F' G'| ≤ 2 * roundErr n m :=
  tri4 (C81_code hn tr B0 T0 z0 z1 hc m E) (C81_code hn tr' B0 T0 z0 z1 hc m E)

/-! ## C82: the norm test -/

/-- Under the spherical Gaussian on the preimages of any point, (s1, s2) is too long for verification with probability at most
2^-14 (N = 512) or 2^-28 (N = 1024). -/
theorem C82_tail {n : ℕ} (hn : ValidLog n) {h : Mem Ff} {f g F G : Mem Int} (tr : Trapdoor n h f g F G) (c : Mem Ff) :
    cosetPr n (sigmaSig n) h c (fun s => betaSq n < pairSq s) ≤ 1 / 2 ^ (14 * (n - 8)) :=
  norm_tail hn tr.eq tr.pub tr.inv (trap_gs hn tr) c

/-- One round of the code returns a pair of squared norm at most beta^2 with probability at least 1 - 2^-14 (N = 512) or 1 - 2^-28
(N = 1024), up to the error of one round. -/
theorem C82_code {n : ℕ} (hn : ValidLog n) {h : Mem Ff} {f g F G : Mem Int} (tr : Trapdoor n h f g F G)
    (B0 T0 z0 z1 : Mem ℂ) {c : Mem Ff} (hc : CanonBelow (2 ^ n) c) (m : ℕ) :
    let B := computeMatrixB exactA n f g F G B0
    let t := signTarget exactA n B c
    1 - 1 / 2 ^ (14 * (n - 8)) - roundErr n m ≤
    freq (18 * m * 2 ^ (n + 1)) (fun st => ∃ r, ffSampling exactA (codeLeaf false n m st) n 0 t.1 t.2
          (computeFalconTree exactA n B T0) z0 z1 0 = some (.ok r) ∧
          ∃ s : PairZ n, IsDftOf n (signVec exactA n B t.1 t.2 r.1 r.2.1).1 (tapeOf s.1) ∧
            IsDftOf n (signVec exactA n B t.1 t.2 r.1 r.2.1).2 (tapeOf s.2) ∧ pairSq s ≤ betaSq n) := by
  intro B t
  have h1 := code_coset hn tr B0 T0 z0 z1 hc m fun s => pairSq s ≤ betaSq n
  have h2 := (cosetPr_mem hn tr c fun s => pairSq s ≤ betaSq n).2.2
  have h3 := norm_tail_of hn tr.eq tr.pub tr.inv (trap_gs hn tr) c (E := fun s => ¬ pairSq s ≤ betaSq n) fun s h => not_le.mp h
  have h4 := (abs_le.mp h1).1
  linarith

/-! ## C83: signatures -/

/-- Signing with a given salt, in exact arithmetic, at most R rounds and m attempts per integer, is rejection sampling from the spherical Gaussian
on the preimages of the hashed point: every event of the signature bytes has the probability that the first accepted pair encodes to such a signature,
up to R times the error of one round. -/
theorem C83_law {n : ℕ} (hn : ValidLog n) {h : Mem Ff} {f g F G : Mem Int} (tr : Trapdoor n h f g F G)
    (B0 T0 : Mem ℂ) (xof : Xof) (hfuel : ℕ) (msg : List UInt8) (sig : Mem UInt8) (salt : ℕ → UInt8) {c : Mem Ff}
    (hc : hashToPoint hfuel n (xof ((List.range 40).map salt ++ msg)) (fun _ => Ff.zero) = some c) (m R : ℕ) {Ev : Mem UInt8 → Prop}
    (hEv : ∀ a b, (∀ j, j < sigBytes n → a j = b j) → (Ev a ↔ Ev b)) :
    let B := computeMatrixB exactA n f g F G B0
    |freq (18 * m * 2 ^ (n + 1) * R) (fun st => ∃ r, signPoly exactA xof (codeLeaf false n m (saltStream salt st)) R hfuel n B
          (computeFalconTree exactA n B T0) (saltStream salt st) msg sig 0 = some (.ok r) ∧ Ev r.1)
      - rejectPr n (sigmaSig n) h c R (fun s => ∃ a, SignatureOf n a salt (tapeOf s.2) ∧ Ev a)| ≤ R * roundErr n m :=
  (sign_law hn tr B0 T0 xof hfuel msg sig salt hc m R hEv).2

/-- The rejection sampling in closed form: if pairs are accepted with positive probability, it is the Gaussian conditioned on acceptance, times the
probability that R rounds are enough. -/
theorem C83_conditioned {n : ℕ} {h c : Mem Ff} {sigma : ℝ} (hpos : 0 < cosetPr n sigma h c (Accept n)) (R : ℕ) (E : PairZ n → Prop) :
    rejectPr n sigma h c R E = (1 - (1 - cosetPr n sigma h c (Accept n)) ^ R) *
      (cosetPr n sigma h c (fun s => Accept n s ∧ E s) / cosetPr n sigma h c (Accept n)) := by
  unfold rejectPr
  rw [← Finset.sum_mul]
  generalize cosetPr n sigma h c (Accept n) = a at hpos ⊢
  rw [geom_sum_eq (by linarith)]
  rw [show 1 - a - 1 = -a by ring]
  field_simp
  ring

/-- Signatures do not tell two secret keys of the same public key apart: for the same message and salt every event of the signature bytes has the same
probability under both, up to 2 R times the error of one round. -/
theorem C83_basis {n : ℕ} (hn : ValidLog n) {h : Mem Ff} {f g F G f' g' F' G' : Mem Int} (tr : Trapdoor n h f g F G)
    (tr' : Trapdoor n h f' g' F' G') (B0 T0 : Mem ℂ) (xof : Xof) (hfuel : ℕ) (msg : List UInt8) (sig : Mem UInt8) (salt : ℕ → UInt8) {c : Mem Ff}
    (hc : hashToPoint hfuel n (xof ((List.range 40).map salt ++ msg)) (fun _ => Ff.zero) = some c) (m R : ℕ) {Ev : Mem UInt8 → Prop}
    (hEv : ∀ a b, (∀ j, j < sigBytes n → a j = b j) → (Ev a ↔ Ev b)) :
    let signs := fun f g F G : Mem Int =>
      let B := computeMatrixB exactA n f g F G B0
      freq (18 * m * 2 ^ (n + 1) * R) (fun st => ∃ r, signPoly exactA xof (codeLeaf false n m (saltStream salt st)) R hfuel n B
          (computeFalconTree exactA n B T0) (saltStream salt st) msg sig 0 = some (.ok r) ∧ Ev r.1)
    |signs f g F G - signs f' g' F' G'| ≤ 2 * R * roundErr n m := by
  intro signs
  have := tri4 (sign_law hn tr B0 T0 xof hfuel msg sig salt hc m R hEv).2 (sign_law hn tr' B0 T0 xof hfuel msg sig salt hc m R hEv).2
  refine this.trans (le_of_eq ?_)
  ring

/-! ## A public key with two secret keys -/

theorem polyInt_oct (l : List ℤ) : polyInt (2 ^ 9) (octMem l) = ∑ t ∈ range 8, C ((l.getD t 0 : ℤ) : Zq) * (X ^ 64) ^ t := by
  have h : polyInt (2 ^ 9) (octMem l) = (polyZ (2 ^ 9) (octMem l)).map (Int.castRingHom Zq) := by
    unfold polyInt polyZ toPoly
    simp [Polynomial.map_sum]
  rw [h, polyZ_oct]
  simp [Polynomial.map_sum]

theorem flatKey_inv : ∃ r, ModEqXN (2 ^ 9) (polyInt (2 ^ 9) flatf * r) 1 := by
  unfold ModEqXN flatf
  rw [polyInt_oct, show (2 : ℕ) ^ 9 = 64 * 8 by norm_num, pow_mul]
  generalize (X : Zq[X]) ^ 64 = y
  have hq : (12289 : Zq[X]) = 0 := by
    have h : ((12289 : Zq)) = 0 := by decide +kernel
    rw [show (12289 : Zq[X]) = C (12289 : Zq) from (map_ofNat C 12289).symm, h, C_0]
  refine ⟨(1210) * y ^ 0 + (10512) * y ^ 1 + (11646) * y ^ 2 + (10512) * y ^ 3 + (11722) * y ^ 4 + (11646) * y ^ 5 + (1777) * y ^ 6 + (11646) * y ^ 7, (173255) * y ^ 0 + (-308359) * y ^ 1 + (28516) * y ^ 2 + (-379825) * y ^ 3 + (-620381) * y ^ 4 + (309493) * y ^ 5 + (-337734) * y ^ 6, ?_⟩
  simp only [sum_range_succ, sum_range_zero, List.getD_cons_zero, List.getD_cons_succ, Int.cast_neg, Int.cast_ofNat, Int.cast_one, map_neg,
    map_ofNat, map_one]
  linear_combination ((-14) * y ^ 0 + (29) * y ^ 1 + (28) * y ^ 2 + (89) * y ^ 3 + (129) * y ^ 4 + (31) * y ^ 5 + (61) * y ^ 6 + (33) * y ^ 7) * hq

/-- (f, g, F + f, G + g) is another secret key of the same public key. -/
def flatF' : Mem Int := octMem [27, 1, 38, 1, -3, -7, -28, -7]
def flatG' : Mem Int := octMem [42, 50, -45, 50, 65, -76, -77, -76]

theorem flatKey_eq' : NtruEq 9 flatf flatg flatF' flatG' := by
  unfold NtruEq ModEqXN flatf flatg flatF' flatG'
  simp only [polyZ_oct]
  refine ⟨C (-12193) * (X ^ 64) ^ 0 + C (517) * (X ^ 64) ^ 1 + C (3497) * (X ^ 64) ^ 2 + C (-579) * (X ^ 64) ^ 3 + C (775) * (X ^ 64) ^ 4 + C (-1096) * (X ^ 64) ^ 5 + C (2015) * (X ^ 64) ^ 6, ?_⟩
  rw [show (2 : ℕ) ^ 9 = 64 * 8 by norm_num, pow_mul]
  generalize (X : ℤ[X]) ^ 64 = y
  simp only [sum_range_succ, sum_range_zero, List.getD_cons_zero, List.getD_cons_succ, map_neg, map_ofNat, map_one]
  ring

theorem flatKey_fits' : FitsFormat 9 flatf flatg flatF' flatG' := by
  intro i hi
  have h0 := flatKey_fits i hi
  rw [if_pos rfl] at h0 ⊢
  have h : ∀ (l : List ℤ) (b : ℤ), 0 ≤ b → (∀ x ∈ l, |x| ≤ b) → |octMem l i| ≤ b := by
    intro l b hb hl
    unfold octMem
    split
    · rw [List.getD_eq_getElem?_getD]
      cases h : l[i / 64]? with
      | none => simpa using hb
      | some x => exact hl x (List.mem_of_getElem? h)
    · simpa using hb
  exact ⟨h0.1, h0.2.1, h _ _ (by norm_num) (by decide), h _ _ (by norm_num) (by decide)⟩

theorem flat_public : ModEqXN (2 ^ 9) (polyZq (2 ^ 9) (computePublicKey 9 flatf flatg (fun _ => Ff.zero)) * polyInt (2 ^ 9) flatf)
    (polyInt (2 ^ 9) flatg) := by
  have hr : ∀ i, i < 2 ^ 9 → (-12289 < flatf i ∧ flatf i < 12289) ∧ (-12289 < flatg i ∧ flatg i < 12289) := fun i hi => by
    have h0 := flatKey_fits i hi
    rw [if_pos rfl] at h0
    have := abs_le.mp h0.1
    have := abs_le.mp h0.2.1
    omega
  exact (C37_public_key (.inl rfl) _ (fun i hi => by have := hr i hi; first | exact this.1 | omega)
    (fun i hi => by have := hr i hi; first | exact this.2 | omega) flatKey_inv).2.1

theorem flat_trapdoor : Trapdoor 9 (computePublicKey 9 flatf flatg (fun _ => Ff.zero)) flatf flatg flatF flatG :=
  ⟨flatKey_eq, flatKey_fits, flat_public, flatKey_inv, flatKey_most.mono (by norm_num)⟩

theorem flat_trapdoor' : Trapdoor 9 (computePublicKey 9 flatf flatg (fun _ => Ff.zero)) flatf flatg flatF' flatG' :=
  ⟨flatKey_eq', flatKey_fits', flat_public, flatKey_inv, flatKey_most.mono (by norm_num)⟩

/-- The hypotheses hold for a public key with two secret keys that differ. -/
example : ∃ (h : Mem Ff) (f g F G F' G' : Mem Int), Trapdoor 9 h f g F G ∧ Trapdoor 9 h f g F' G' ∧ F 0 ≠ F' 0 :=
  ⟨_, _, _, _, _, _, _, flat_trapdoor, flat_trapdoor', by decide⟩

/-- An event that depends on the bytes of the signature only, and an XOF whose output hashes to a point. -/
example : (∀ a b : Mem UInt8, (∀ j, j < sigBytes 9 → a j = b j) → (a 41 = 3 ↔ b 41 = 3)) ∧
    ∃ (xof : Xof) (c : Mem Ff), hashToPoint 16 9 (xof ((List.range 40).map (fun _ => 1) ++ [2])) (fun _ => Ff.zero) = some c ∧
      (c 5).v.toNat = 5 := by
  refine ⟨fun a b h => by rw [h 41 (by decide)], fun _ => streamOf fun i => i % 12289, ?_⟩
  obtain ⟨r, h1, h2⟩ := hash_streamOf (n := 9) (.inl rfl) (c := fun i => i % 12289) (fun i => Nat.mod_lt _ (by norm_num)) (fun _ => Ff.zero)
  exact ⟨r, h1, h2 5 (by norm_num)⟩

end Falcon
