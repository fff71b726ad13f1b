import Verif.Proofs.Spherical
import Verif.Props.Sign
import Verif.Props.SignRun
import Mathlib.Analysis.SpecialFunctions.Exp

/-!
# C64 : fast Fourier sampling is spherical
-/

namespace Falcon

open Finset

theorem widths_pos {l : List Call} (h : ∀ c ∈ l, 0 < c.sigma) : 0 < widths l := by
  unfold widths
  refine List.prod_pos fun x hx => ?_
  obtain ⟨c, hc, rfl⟩ := List.mem_map.mp hx
  exact h c hc

/-- The sum over the calls, for every kind of state. -/
theorem spherical_calls {S : Type} (leaf : LeafSampler ℝ S) (n : ℕ) (h1 : 1 ≤ n) (hn : n ≤ 10) (f g F G : Mem Int)
    (heq : NtruEq n f g F G) (sigma : ℝ) (hs : 0 < sigma) (B0 M0 T0 : Mem ℂ) (t0 t1 z0 z1 : Mem ℂ)
    (ht0 : ConjSym n t0) (ht1 : ConjSym n t1) (s : S) (r : Mem ℂ × Mem ℂ × S) :
    let B := computeMatrixB exactA n f g F G B0
    let T := normalizeTree exactA sigma n 0 (ffldl exactA n 0 (gramMatrix exactA n B M0) T0)
    ffSampling exactA leaf n 0 t0 t1 T z0 z1 s = some (.ok r) →
    ∃ l : List Call, Calls leaf s l r.2.2 ∧ l.length = 2 ^ (n + 1) ∧
      signNorm exactA n (signVec exactA n B t0 t1 r.1 r.2.1).1 (signVec exactA n B t0 t1 r.1 r.2.1).2
        = sigma ^ 2 * spread l ∧
      (∃ t, TreeAt n T 0 0 t ∧ ∀ c ∈ l, 0 < c.sigma ∧ (c.sigma : ℂ) ∈ t.leaves) ∧
      widths l * 12289 ^ 2 ^ n = sigma ^ 2 ^ (n + 1) := by
  intro B T h
  obtain ⟨m, rfl⟩ : ∃ m, n = m + 1 := ⟨n - 1, by omega⟩
  have hpd := gram_pd hn heq B0 M0
  have ht := ldlTree_ok m _ _ _ hn hpd
  have hrep := ffldl_rep exactA (m + 1) 0 (gramMatrix exactA (m + 1) B M0) T0 _ _ _ h1 (fun _ _ => rfl)
    (fun _ _ => rfl) (fun _ _ => rfl)
  have hrep2 := normalizeTree_rep exactA sigma (m + 1) 0 _ _ h1 hrep
  have hbl := basis_leaves h1 hn heq B0 M0 _ le_rfl _ ht
  have hrel := ffSampling_rel exactA leaf (m + 1) 0 t0 t1 T z0 z1 t0 t1 s _ hrep2 (fun _ _ => rfl) (fun _ _ => rfl)
  rw [h] at hrel
  generalize ldlTree exactA exactA.conj (m + 1) _ _ _ = t at ht hrep2 hbl hrel
  cases hsm : sampleTree exactA leaf (m + 1) (t.mapLeaves (normLeaf exactA sigma)) t0 t1 s with
  | none => rw [hsm] at hrel; exact hrel.elim
  | some x =>
    cases x with
    | error e => rw [hsm] at hrel; exact hrel.elim
    | ok w =>
      rw [hsm] at hrel
      obtain ⟨q1, q2, -⟩ := hrel
      obtain ⟨l, c1, c2, c3, c4, c5⟩ := basis_spread leaf hs h1 hn heq B0 M0 t ht t0 t1 ht0 ht1 s w hsm
      have hsp : ∀ c ∈ l, 0 < c.sigma := by
        intro c hc
        obtain ⟨v, hv, e⟩ := c4 c hc
        obtain ⟨x, rfl, x1, -⟩ := hbl v hv
        rw [e, Complex.ofReal_re]
        have hM : 0 < gramSchmidtNorm exactA (m + 1) f g := by
          rw [gsNorm_fg hn (fgNorm_pos hn heq)]
          refine lt_max_of_lt_left (div_pos (sum_pos (fun i hi => fgNorm_pos hn heq i (mem_range.mp hi)) ⟨0, by simp⟩)
            (by positivity))
        have x0 : 0 < x := lt_of_lt_of_le (by positivity) x1
        exact div_pos hs (Real.sqrt_pos.mpr x0)
      refine ⟨l, by rw [q1]; exact c1, c2, ?_, ⟨_, (treeAt_root _ _ _).mpr hrep2, fun c hc => ⟨hsp c hc, ?_⟩⟩, ?_⟩
      · unfold signNorm
        show sqrdNormC exactA (m + 1) _ + sqrdNormC exactA (m + 1) _ = _
        rw [sqrdNormC_val, sqrdNormC_val, ← add_div, ← sum_add_distrib]
        rw [eq_comm, eq_div_iff (by positivity), mul_comm, ← c3]
        apply sum_congr rfl
        intro i hi
        have hi := mem_range.mp hi
        obtain ⟨b0, b1, b2, b3⟩ := basis_exact hn f g F G B0 i hi
        obtain ⟨v0, v1⟩ := signVec_at (m + 1) B t0 t1 r.1 r.2.1 i hi
        rw [v0, v1, (q2 i hi).1, (q2 i hi).2, show B i = _ from b0, show B (2 ^ (m + 1) + i) = _ from b1,
          show B (2 * 2 ^ (m + 1) + i) = _ from b2, show B (3 * 2 ^ (m + 1) + i) = _ from b3]
      · obtain ⟨v, hv, e⟩ := c4 c hc
        have : ∀ u : FTree ℂ, v ∈ u.leaves → normLeaf exactA sigma v ∈ (u.mapLeaves (normLeaf exactA sigma)).leaves := by
          intro u
          induction u with
          | leaf x => intro hx; simp only [FTree.leaves, FTree.mapLeaves, List.mem_singleton] at hx ⊢; rw [hx]
          | node x L R iL iR =>
            intro hx
            simp only [FTree.leaves, FTree.mapLeaves, List.mem_append] at hx ⊢
            exact hx.imp iL iR
        have h3 := this t hv
        rw [e]
        have h4 : normLeaf exactA sigma v = ((sigma / Real.sqrt v.re : ℝ) : ℂ) := by
          unfold normLeaf; rw [exact_ofReal]; rfl
        rwa [h4] at h3
      · have hw := widths_pos hsp
        have h5 : (widths l * 12289 ^ 2 ^ (m + 1)) ^ 2 = (sigma ^ 2 ^ (m + 1 + 1)) ^ 2 := by
          rw [mul_pow, ← pow_mul (12289 : ℝ), mul_comm (2 ^ (m + 1)), pow_mul, c5, ← pow_mul, mul_comm 2]
        exact (pow_left_inj₀ (by positivity) (by positivity) two_ne_zero).mp h5

/-- C64. In exact arithmetic, for every solution of the NTRU equation, every σ > 0, all targets that are transforms
of real polynomials and every sampler (with any kind of state): a run of fast Fourier sampling with the normalized
tree of the basis makes exactly 2N calls of the sampler; the squared length of (t - z) B is σ^2 times the sum of
((z_i - μ_i) / σ_i)^2 over these calls; each σ_i is a leaf of the tree, positive, and the product of the σ_i is
(σ / √q)^(2N). The calls are those recorded when the sampler is replaced by one that keeps a record. -/
theorem C64_spherical {S : Type} (leaf : LeafSampler ℝ S) (n : ℕ) (h1 : 1 ≤ n) (hn : n ≤ 10) (f g F G : Mem Int)
    (heq : NtruEq n f g F G) (sigma : ℝ) (hs : 0 < sigma) (B0 M0 T0 : Mem ℂ) (t0 t1 z0 z1 : Mem ℂ)
    (ht0 : ConjSym n t0) (ht1 : ConjSym n t1) (s : S) (r : Mem ℂ × Mem ℂ × S) :
    let B := computeMatrixB exactA n f g F G B0
    let T := normalizeTree exactA sigma n 0 (ffldl exactA n 0 (gramMatrix exactA n B M0) T0)
    ffSampling exactA leaf n 0 t0 t1 T z0 z1 s = some (.ok r) →
    ∃ l : List Call,
      ffSampling exactA (logged leaf) n 0 t0 t1 T z0 z1 (s, []) = some (.ok (r.1, r.2.1, r.2.2, l)) ∧
      Calls leaf s l r.2.2 ∧ l.length = 2 ^ (n + 1) ∧
      signNorm exactA n (signVec exactA n B t0 t1 r.1 r.2.1).1 (signVec exactA n B t0 t1 r.1 r.2.1).2
        = sigma ^ 2 * spread l ∧
      (∃ t, TreeAt n T 0 0 t ∧ ∀ c ∈ l, 0 < c.sigma ∧ (c.sigma : ℂ) ∈ t.leaves) ∧
      widths l * 12289 ^ 2 ^ n = sigma ^ 2 ^ (n + 1) := by
  intro B T h
  obtain ⟨l', hl'⟩ := logged_ok (r := r)
    ((ffSampling_logged exactA leaf n 0 t0 t1 T z0 z1 s []).trans h)
  obtain ⟨l, c1, c2, c3, c4, c5⟩ := spherical_calls (logged leaf) n h1 hn f g F G heq sigma hs B0 M0 T0 t0 t1 z0 z1
    ht0 ht1 (s, []) (r.1, r.2.1, r.2.2, l') hl'
  obtain ⟨e1, e2⟩ := c1.log
  have e1 : l' = l := by simpa using e1
  subst e1
  exact ⟨l', hl', e2, c2, c3, c4, c5⟩

theorem spread_exp (l : List Call) : (l.map fun c => Real.exp (-((c.z - c.mu) ^ 2 / (2 * c.sigma ^ 2)))).prod
    = Real.exp (-(spread l / 2)) := by
  induction l with
  | nil => simp [spread]
  | cons c l ih =>
    rw [List.map_cons, List.prod_cons, ih, ← Real.exp_add]
    congr 1
    unfold spread
    rw [List.map_cons, List.sum_cons, div_pow]
    by_cases h : c.sigma = 0
    · rw [h]; simp
    · field_simp; ring

theorem sym_dft (n : ℕ) {e : Mem ℂ} {a : Mem Int} (h : IsDftOf n e a) : ConjSym n e := by
  intro i hi
  rw [h i hi, h _ (by omega), dft_compl n a i hi]

/-- The targets of signing are transforms of real polynomials. -/
theorem sym_target {n : ℕ} (hn : n ≤ 10) (f g F G : Mem Int) (B0 : Mem ℂ) (c : Mem Ff) :
    let t := signTarget exactA n (computeMatrixB exactA n f g F G B0) c
    ConjSym n t.1 ∧ ConjSym n t.2 := by
  intro t
  constructor
  · intro i hi
    have hi' : 2 ^ n - 1 - i < 2 ^ n := by omega
    show (signTarget exactA n _ c).1 _ = (starRingEnd ℂ) ((signTarget exactA n _ c).1 i)
    rw [(signTarget_at hn _ c i hi).1, (signTarget_at hn _ c _ hi').1, (basis_exact hn f g F G B0 i hi).2.2.2,
      (basis_exact hn f g F G B0 _ hi').2.2.2, dft_compl n _ i hi, dft_compl n _ i hi]
    simp [map_ofNat]
  · intro i hi
    have hi' : 2 ^ n - 1 - i < 2 ^ n := by omega
    show (signTarget exactA n _ c).2 _ = (starRingEnd ℂ) ((signTarget exactA n _ c).2 i)
    rw [(signTarget_at hn _ c i hi).2, (signTarget_at hn _ c _ hi').2, (basis_exact hn f g F G B0 i hi).2.1,
      (basis_exact hn f g F G B0 _ hi').2.1, dft_compl n _ i hi, dft_compl n _ i hi]
    simp [map_ofNat]

/-- The standard deviation of signatures. -/
noncomputable def sigmaSig (n : ℕ) : ℝ := if n = 10 then 168.388571447 else 165.736617183

/-- C64 for signing. If signing returns then in its last round the sampler was called exactly 2N times, and the
product of the Gaussian weights exp(-(z_i - μ_i)^2 / 2σ_i^2) of its answers is exp(-(|s1|^2 + |s2|^2) / 2σ^2), where
(s1, s2) is the signature vector and σ = 165.7... or 168.3...: it depends on the key only through the length of
the signature. -/
theorem C64_signature {n : ℕ} (hn : ValidLog n) {f g F G : Mem Int} (heq : NtruEq n f g F G) {h : Mem Ff}
    (hh : ModEqXN (2 ^ n) (polyZq (2 ^ n) h * polyInt (2 ^ n) f) (polyInt (2 ^ n) g))
    (hinv : ∃ r, ModEqXN (2 ^ n) (polyInt (2 ^ n) f * r) 1) (xof : Xof) (leaf : LeafSampler ℝ) (fuel hfuel : ℕ)
    (B0 T0 : Mem ℂ) (stream : ℕ → UInt8) (msg : List UInt8) (sig sig' : Mem UInt8) (pos pos' : ℕ)
    (hs : signPoly exactA xof leaf fuel hfuel n (computeMatrixB exactA n f g F G B0)
      (computeFalconTree exactA n (computeMatrixB exactA n f g F G B0) T0) stream msg sig pos =
      some (.ok (sig', pos'))) :
    ∃ (c : Mem Ff) (s1 s2 : Mem Int) (p : ℕ) (l : List Call),
      hashToPoint hfuel n (xof (saltMsg sig' msg)) (fun _ => Ff.zero) = some c ∧
      Preimage (2 ^ n) h c s1 s2 ∧ SignatureOf n sig' (fun i => stream (pos + i)) s2 ∧
      Calls leaf p l pos' ∧ l.length = 2 ^ (n + 1) ∧ (∀ x ∈ l, 0 < x.sigma) ∧
      (l.map fun c => Real.exp (-((c.z - c.mu) ^ 2 / (2 * c.sigma ^ 2)))).prod
        = Real.exp (-(((sqNorm (2 ^ n) s1 + sqNorm (2 ^ n) s2 : ℤ) : ℝ) / (2 * sigmaSig n ^ 2))) := by
  have hn10 : n ≤ 10 := by rcases hn with rfl | rfl <;> norm_num
  have h1 : 1 ≤ n := by rcases hn with rfl | rfl <;> norm_num
  obtain ⟨c, z, s2, p, hc, e1, e2, e3, e4, e5, e6⟩ := signPoly_last exactA hn hs
  obtain ⟨a0, a1, ha0, ha1⟩ := C48_integer leaf n hn10 _ _ _ _ _ p z e1
  obtain ⟨u0, u1, m0, m1, d0, d1⟩ := signVec_int hn10 heq B0 c ha0 ha1
  have hnorm := (signNorm_int hn d0 d1).mp e2
  obtain ⟨s2', r1, r2, -⟩ := signRound_int hn10 d1 (fun i hi => coeff_le_norm hnorm i hi)
  rw [r1] at e3
  injection e3 with e3
  subst e3
  have hpoly : polyZ (2 ^ n) s2' = polyZ (2 ^ n) u1 := toPoly_congr r2
  have hP : Preimage (2 ^ n) h c u0 s2' := preimage_of_basis heq hh hinv m0 (by rw [hpoly]; exact m1)
  have hsig : sigSigma exactA n = sigmaSig n := by
    unfold sigSigma sigmaSig
    split
    · show ((168.388571447 : ℚ) : ℝ) = _
      norm_num
    · show ((165.736617183 : ℚ) : ℝ) = _
      norm_num
  have hpos : 0 < sigmaSig n := by unfold sigmaSig; split <;> norm_num
  obtain ⟨y0, y1⟩ := sym_target hn10 f g F G B0 c
  obtain ⟨l, -, c1, c2, c3, ⟨t, -, c4⟩, -⟩ := C64_spherical leaf n h1 hn10 f g F G heq (sigmaSig n) hpos B0
    (junkC exactA) T0 _ _ _ _ y0 y1 p z (by rw [← hsig]; exact e1)
  refine ⟨c, u0, s2', p, l, hc, hP, e4, by rw [e6]; exact c1, c2, fun x hx => (c4 x hx).1, ?_⟩
  rw [spread_exp]
  congr 2
  unfold signNorm at c3
  have c3 : sqrdNormC exactA n _ + sqrdNormC exactA n _ = sigmaSig n ^ 2 * spread l := c3
  rw [normC_int hn10 d0, normC_int hn10 d1] at c3
  rw [sqNorm_congr r2]
  push_cast at c3 ⊢
  rw [c3]
  field_simp

/-- The hypotheses of `C64_spherical` are met: the key f = 100, g = 47, F = -187, G = 35, the targets of an arbitrary
hashed point, and a sampler that returns 0, 1, 2, ... -/
example (n : ℕ) (hn : n ≤ 10) (B0 M0 T0 z0 z1 : Mem ℂ) (c : Mem Ff) :
    let k (z : ℤ) : Mem Int := fun i => if i = 0 then z else 0
    let B := computeMatrixB exactA n (k 100) (k 47) (k (-187)) (k 35) B0
    let t := signTarget exactA n B c
    let T := normalizeTree exactA 165 n 0 (ffldl exactA n 0 (gramMatrix exactA n B M0) T0)
    NtruEq n (k 100) (k 47) (k (-187)) (k 35) ∧ ConjSym n t.1 ∧ ConjSym n t.2 ∧
    ∃ r, ffSampling exactA (posLeaf fun p => (p : ℤ)) n 0 t.1 t.2 T z0 z1 0 = some (.ok r) := by
  intro k B t T
  obtain ⟨y0, y1⟩ := sym_target hn (k 100) (k 47) (k (-187)) (k 35) B0 c
  refine ⟨(C47_example n hn).1, y0, y1, ?_⟩
  obtain ⟨x0, x1, s1, -, -⟩ := sample_pos (fun p => (p : ℤ)) n 0 T _ t.1 t.2 0 hn (treeOf_rep n 0 T)
  have hrel := ffSampling_rel exactA (posLeaf fun p => (p : ℤ)) n 0 t.1 t.2 T z0 z1 t.1 t.2 0 _ (treeOf_rep n 0 T)
    (fun _ _ => rfl) (fun _ _ => rfl)
  rw [s1] at hrel
  cases hz : ffSampling exactA (posLeaf fun p => (p : ℤ)) n 0 t.1 t.2 T z0 z1 0 with
  | none => rw [hz] at hrel; exact hrel.elim
  | some e =>
    cases e with
    | error e => rw [hz] at hrel; exact hrel.elim
    | ok z => exact ⟨z, rfl⟩

/-- The hypotheses of `C64_signature` are met by a run that returns. -/
example (B0 T0 : Mem ℂ) (stream : ℕ → UInt8) (msg : List UInt8) (sig : Mem UInt8) :
    ∃ (f g F G : Mem Int) (h : Mem Ff) (xof : Xof) (leaf : LeafSampler ℝ) (sig' : Mem UInt8) (pos' : ℕ),
      NtruEq 10 f g F G ∧ ModEqXN (2 ^ 10) (polyZq (2 ^ 10) h * polyInt (2 ^ 10) f) (polyInt (2 ^ 10) g) ∧
      (∃ r, ModEqXN (2 ^ 10) (polyInt (2 ^ 10) f * r) 1) ∧
      signPoly exactA xof leaf 1 16 10 (computeMatrixB exactA 10 f g F G B0)
        (computeFalconTree exactA 10 (computeMatrixB exactA 10 f g F G B0) T0) stream msg sig 0 =
        some (.ok (sig', pos')) := by
  obtain ⟨h, pk, -, h1, h2, h3⟩ := exampleKey 10 (Or.inr rfl)
  obtain ⟨sig', pos', e1, -⟩ := sign_run (Or.inr rfl : ValidLog 10) 1000 (by norm_num) B0 _ stream msg sig 0
    (fun _ => streamOf fun _ => 0) (fun _ _ => rfl)
  exact ⟨_, _, _, _, h, _, _, sig', pos', h1, h2, h3, e1⟩

end Falcon
