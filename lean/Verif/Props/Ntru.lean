import Verif.Proofs.NtruGen

/-!
# Properties C31 - C38: polynomial arithmetic over the integers, NTRU equation, public key

`quot` (the rounded floating point quotients of `reduce`) and `gsTooBig` (the Gram-Schmidt norm test) are
arbitrary functions in every theorem, so the results hold for whatever the floating point code computes.
-/

namespace Falcon

open Polynomial

/-! ### C31 -/

/-- C31: `karatsuba` is the exact product, `karamul` the product modulo `X^N + 1`. -/
theorem C31_karatsuba_exact (k : ℕ) (a b : Mem ℤ) :
    toPoly (2 * 2 ^ k) (karatsuba k a b) = toPoly (2 ^ k) a * toPoly (2 ^ k) b ∧
    ModEqXN (2 ^ k) (toPoly (2 ^ k) (karamul k a b)) (toPoly (2 ^ k) a * toPoly (2 ^ k) b) := by
  refine ⟨karatsuba_poly k a b, ?_⟩
  rw [modEq_iff]
  exact (modEq_iff.mp (karamul_poly k a b)).symm

/-- (1 + 2X)(3 + 4X) = 3 + 10 X + 8 X^2, and = -5 + 10 X modulo X^2 + 1. -/
example : (∀ i, i < 4 → karatsuba 1 (fun i => 2 * i + 1 - i) (fun i => 3 + i) i = [3, 10, 8, 0].getD i 0) ∧
    ∀ i, i < 2 → karamul 1 (fun i => 2 * i + 1 - i) (fun i => 3 + i) i = [-5, 10].getD i 0 := by
  decide +kernel

/-! ### C32 -/

/-- C32: the lifted field norm of `f` is `f(X) f(-X)` modulo `X^N + 1`; `lift` substitutes `X^2` and
`galois_conjugate` substitutes `-X`. -/
theorem C32_norm_lift (k : ℕ) (f : Mem ℤ) :
    ModEqXN (2 ^ (k + 1)) (toPoly (2 ^ (k + 1)) (lift k (fieldNorm k f)))
      (toPoly (2 ^ (k + 1)) f * (toPoly (2 ^ (k + 1)) f).comp (-X)) ∧
    (∀ g : Mem ℤ, toPoly (2 ^ (k + 1)) (lift k g) = (toPoly (2 ^ k) g).comp (X ^ 2)) ∧
    ∀ g : Mem ℤ, toPoly (2 ^ k) (galoisConjugate k g) = (toPoly (2 ^ k) g).comp (-X) := by
  have hl : ∀ g : Mem ℤ, toPoly (2 ^ (k + 1)) (lift k g) = (toPoly (2 ^ k) g).comp (X ^ 2) := by
    intro g
    rw [show 2 ^ (k + 1) = 2 * 2 ^ k by rw [pow_succ]; ring]
    exact lift_poly k g
  refine ⟨?_, hl, galois_poly k⟩
  rw [hl]
  exact norm_lift k f

/-- f = 1 + 2X + 3X^2 + 4X^3: N(f)(X) = (1 + 3X)^2 - X (2 + 4X)^2 = 8 - 14 X ... modulo X^2 + 1. -/
example : ∀ i, i < 2 → fieldNorm 1 (fun i => (i : ℤ) + 1) i = [8, 18].getD i 0 := by decide +kernel

/-! ### C33 -/

/-- C33: for all integers the loop ends after at most `|y| + 1` tests, with a Bezout identity for a greatest
common divisor (up to sign), and more fuel does not change the result. -/
theorem C33_xgcd (x y : ℤ) : ∃ a b g, (∀ fuel, y.natAbs < fuel → xgcdZ fuel x y = some (a, b, g)) ∧
    a * x + b * y = g ∧ g.natAbs = Int.gcd x y := by
  obtain ⟨a, b, g, h, h1, h2⟩ := xgcdZ_spec x y (y.natAbs + 1) (Nat.lt_succ_self _)
  refine ⟨a, b, g, fun fuel hf => ?_, h1, h2⟩
  have mono : ∀ (n m : ℕ) (p r s t u v : ℤ) (o : ℤ × ℤ × ℤ), n ≤ m →
      xgcdZLoop n p r s t u v = some o → xgcdZLoop m p r s t u v = some o := by
    intro n
    induction n with
    | zero => intro m p r s t u v o _ h; cases h
    | succ n ih =>
      intro m p r s t u v o hm h
      obtain ⟨m, rfl⟩ : ∃ m', m = m' + 1 := ⟨m - 1, by omega⟩
      rw [xgcdZLoop] at h ⊢
      split at h
      · rename_i hr
        rw [if_pos hr]
        exact ih m _ _ _ _ _ _ _ (by omega) h
      · rename_i hr
        rw [if_neg hr]
        exact h
  exact mono _ _ _ _ _ _ _ _ _ (by omega) h

example : xgcdZ 20 240 (-46) = some (9, 47, -2) ∧ (9 : ℤ) * 240 + 47 * (-46) = -2 := by decide +kernel

/-! ### C34 -/

/-- C34: a reported solution satisfies `f G - g F = q` modulo `X^N + 1` over the integers, for every `N = 2^k`,
every choice of rounded quotients and every number of iterations. -/
theorem C34_ntru_equation (quot : RedQuot) (fuel k : ℕ) (f g F G : Mem ℤ)
    (h : ntruSolve quot fuel k f g = some (.ok (some (F, G)))) :
    ModEqXN (2 ^ k) (toPoly (2 ^ k) f * toPoly (2 ^ k) G - toPoly (2 ^ k) g * toPoly (2 ^ k) F) (C 12289) :=
  ntruSolve_det quot fuel k f g F G h

/-- C34: if the two constants reached by the descent are not coprime, no solution is reported. -/
theorem C34_base_refuses (quot : RedQuot) (fuel : ℕ) (f g : Mem ℤ) (h : Int.gcd (f 0) (g 0) ≠ 1) (r) :
    ntruSolve quot fuel 0 f g ≠ some (.ok (some r)) := by
  intro hs
  obtain ⟨F, G⟩ := r
  have := C34_ntru_equation quot fuel 0 f g F G hs
  rw [ntruSolve] at hs
  split at hs
  · cases hs
  · rename_i a b d hx
    split at hs
    · cases hs
    · rename_i hd
      have hb := xgcdZLoop_bezout (f 0) (g 0) fuel _ _ _ _ _ _ (by ring) (by ring) a b d hx
      have hd1 : d = 1 := by simpa using hd
      rw [hd1] at hb
      exact h (Int.isCoprime_iff_gcd_eq_one.mp ⟨a, b, hb⟩)

/-- A run for N = 2: f = 2 + X, g = 1 + X has norms 5 and 2; all quotients are zero. -/
example : (match ntruSolve (fun _ _ _ _ _ => .ok zerosZ) 10 1 (fun i => 2 - i) (fun _ => 1) with
    | some (.ok (some (F, G))) => decide (F 0 = 24578 ∧ F 1 = -24578 ∧ G 0 = 24578 ∧ G 1 = -12289)
    | _ => false) = true := by decide +kernel

/-! ### C35 -/

/-- C35: the bit length estimate. -/
theorem C35_bit_length (v : ℤ) : 8 ∣ approxBitLen v ∧ |v| < 2 ^ approxBitLen v ∧
    (v = 0 → approxBitLen v = 0) ∧ (v ≠ 0 → 8 ≤ approxBitLen v ∧ 2 ^ (approxBitLen v - 8) ≤ |v|) := by
  obtain ⟨h1, h2, h3, h4⟩ := approxBitLen_nat v.natAbs
  refine ⟨h1, ?_, fun h => h3 (by simp [h]), fun h => ?_⟩
  · rw [Int.abs_eq_natAbs]; exact_mod_cast h2
  · obtain ⟨a, b⟩ := h4 (Int.natAbs_pos.mpr h)
    refine ⟨a, ?_⟩
    rw [Int.abs_eq_natAbs]; exact_mod_cast b

/-- C35: the joint bit length is at least 53 and bounds every coefficient of both arrays, so that the shift
amounts are not negative; scaled coefficients lie in [-2^53, 2^53) and are exact in binary64. -/
theorem C35_scaling_exact (k : ℕ) (a b : Mem ℤ) (i : ℕ) (hi : i < 2 ^ k) :
    let L := bitLenPair (2 ^ k) a b
    53 ≤ L ∧ |a i| < 2 ^ L ∧ |b i| < 2 ^ L ∧
    (-2 ^ 53 ≤ scaled L a i ∧ scaled L a i < 2 ^ 53 ∧ rnd (scaled L a i) = scaled L a i) ∧
    (-2 ^ 53 ≤ scaled L b i ∧ scaled L b i < 2 ^ 53 ∧ rnd (scaled L b i) = scaled L b i) ∧
    scaled L a i * 2 ^ (L - 53) ≤ a i ∧ a i < (scaled L a i + 1) * 2 ^ (L - 53) := by
  intro L
  have h53 : 53 ≤ L := bitLenPair_ge _ _ _
  obtain ⟨ha, hb⟩ := bitLenPair_bound (Nat.two_pow_pos k) a b i hi
  have aux : ∀ x : ℤ, x.natAbs < 2 ^ L → |x| < 2 ^ L := by
    intro x hx; rw [Int.abs_eq_natAbs]; exact_mod_cast hx
  have aux2 : ∀ x : ℤ, x.natAbs < 2 ^ L → -2 ^ 53 ≤ x / 2 ^ (L - 53) ∧ x / 2 ^ (L - 53) < 2 ^ 53 ∧
      rnd ((x / 2 ^ (L - 53) : ℤ) : ℝ) = ((x / 2 ^ (L - 53) : ℤ) : ℝ) := by
    intro x hx
    obtain ⟨h1, h2⟩ := ediv_bound h53 hx
    exact ⟨h1, h2, rnd_of_rep (rep_int (abs_le.mpr ⟨by linarith, by linarith⟩))⟩
  have hp : (0 : ℤ) < 2 ^ (L - 53) := by positivity
  refine ⟨h53, aux _ ha, aux _ hb, aux2 _ ha, aux2 _ hb, Int.ediv_mul_le _ hp.ne', ?_⟩
  exact Int.lt_ediv_add_one_mul_self _ hp

/-- C35: the bit length is that of an extreme coefficient, so at least one scaled coefficient keeps 45
significant bits whenever scaling drops bits at all. -/
theorem C35_scaling_keeps_bits (k : ℕ) (a b : Mem ℤ) (h : 53 < bitLenPair (2 ^ k) a b) :
    ∃ i, i < 2 ^ k ∧ (2 ^ (bitLenPair (2 ^ k) a b - 8) ≤ |a i| ∨ 2 ^ (bitLenPair (2 ^ k) a b - 8) ≤ |b i|) := by
  obtain ⟨-, ⟨i1, h1, e1⟩, ⟨i2, h2, e2⟩⟩ := minMax_spec (Nat.two_pow_pos k) a
  obtain ⟨-, ⟨i3, h3, e3⟩, ⟨i4, h4, e4⟩⟩ := minMax_spec (Nat.two_pow_pos k) b
  have key : ∀ v : ℤ, bitLenPair (2 ^ k) a b = approxBitLen v →
      2 ^ (bitLenPair (2 ^ k) a b - 8) ≤ |v| := by
    intro v hv
    rw [hv] at h ⊢
    obtain ⟨-, -, z, p⟩ := C35_bit_length v
    exact (p fun h0 => by rw [z h0] at h; omega).2
  have : bitLenPair (2 ^ k) a b = approxBitLen (minMax (2 ^ k) a).1 ∨
      bitLenPair (2 ^ k) a b = approxBitLen (minMax (2 ^ k) a).2 ∨
      bitLenPair (2 ^ k) a b = approxBitLen (minMax (2 ^ k) b).1 ∨
      bitLenPair (2 ^ k) a b = approxBitLen (minMax (2 ^ k) b).2 := by
    unfold bitLenPair at h ⊢
    simp only at h ⊢
    omega
  rcases this with h | h | h | h
  · exact ⟨i1, h1, Or.inl (e1 ▸ key _ h)⟩
  · exact ⟨i2, h2, Or.inl (e2 ▸ key _ h)⟩
  · exact ⟨i3, h3, Or.inr (e3 ▸ key _ h)⟩
  · exact ⟨i4, h4, Or.inr (e4 ▸ key _ h)⟩

example : approxBitLen (-300) = 16 := by decide +kernel

/-! ### C36, C37 -/

/-- C36: the test accepts exactly the units of Z_q[X]/(X^N+1). -/
theorem C36_invertible_iff {n : ℕ} (hn : ValidLog n) {p : Mem ℤ} (hp : CoeffRange (2 ^ n) p) :
    isPolyInvertible n p = true ↔ ∃ r : Zq[X], ModEqXN (2 ^ n) (polyInt (2 ^ n) p * r) 1 := by
  rw [invertible_evals hn hp]
  exact ⟨exists_inv_of_evals hn, fun ⟨r, hr⟩ => evals_of_inv hn hr⟩

theorem toPoly_single (N : ℕ) (hN : 0 < N) (c : ℤ) :
    polyInt N (fun i => if i = 0 then c else 0) = C (c : Zq) := by
  unfold polyInt toPoly
  rw [Finset.sum_eq_single 0]
  · simp
  · intro i _ h; simp [h]
  · intro h; exact absurd (Finset.mem_range.mpr hN) h

/-- The constant polynomial 5 is accepted, the zero polynomial is not. -/
example {n : ℕ} (hn : ValidLog n) : isPolyInvertible n (fun i => if i = 0 then 5 else 0) = true := by
  rw [C36_invertible_iff hn (by intro i _; dsimp only; split <;> omega), toPoly_single _ (Nat.two_pow_pos n)]
  refine ⟨C ((5 : Zq)⁻¹), 0, ?_⟩
  rw [← C_mul, show (((5 : ℤ) : Zq)) * (5 : Zq)⁻¹ = 1 by decide +kernel]
  simp

example {n : ℕ} (hn : ValidLog n) : isPolyInvertible n (fun _ => 0) = false := by
  rw [Bool.eq_false_iff, ne_eq, invertible_evals hn (by intro i _; dsimp only; omega)]
  intro h
  refine h 0 (Nat.two_pow_pos n) ?_
  simp [polyInt, toPoly]

/-- C37: the public key is canonical, satisfies `h f = g`, and every canonical polynomial with that property is
equal to it. -/
theorem C37_public_key {n : ℕ} (hn : ValidLog n) {f g : Mem ℤ} (h0 : Mem Ff) (hf : CoeffRange (2 ^ n) f)
    (hg : CoeffRange (2 ^ n) g) (hinv : ∃ r, ModEqXN (2 ^ n) (polyInt (2 ^ n) f * r) 1) :
    CanonBelow (2 ^ n) (computePublicKey n f g h0) ∧
    ModEqXN (2 ^ n) (polyZq (2 ^ n) (computePublicKey n f g h0) * polyInt (2 ^ n) f) (polyInt (2 ^ n) g) ∧
    ∀ h : Mem Ff, CanonBelow (2 ^ n) h → ModEqXN (2 ^ n) (polyZq (2 ^ n) h * polyInt (2 ^ n) f)
      (polyInt (2 ^ n) g) → ∀ i, i < 2 ^ n → h i = computePublicKey n f g h0 i := by
  obtain ⟨h1, h2⟩ := publicKey_spec hn h0 hf hg hinv
  refine ⟨h1, h2, fun h hc hm i hi => ?_⟩
  obtain ⟨r, hr⟩ := hinv
  have e : ModEqXN (2 ^ n) (polyZq (2 ^ n) h) (polyZq (2 ^ n) (computePublicKey n f g h0)) := by
    rw [modEq_iff] at *
    simp only [map_mul] at *
    have := congrArg (· * AdjoinRoot.mk (X ^ 2 ^ n + 1) r) (hm.trans h2.symm)
    simp only [mul_assoc, hr, map_one, mul_one] at this
    exact this
  exact (Ff.val_eq_iff _ _ (hc i hi) (h1 i hi)).mp (modEq_coeff (Nat.two_pow_pos n) e i hi)

example {n : ℕ} : ∃ f g : Mem ℤ, CoeffRange (2 ^ n) f ∧ CoeffRange (2 ^ n) g ∧
    (∃ r, ModEqXN (2 ^ n) (polyInt (2 ^ n) f * r) 1) ∧ g 1 ≠ 0 := by
  refine ⟨fun i => if i = 0 then 5 else 0, fun i => if i = 1 then 3 else 0, ?_, ?_, ?_, by decide⟩
  · intro i _; dsimp only; split <;> omega
  · intro i _; dsimp only; split <;> omega
  · rw [toPoly_single _ (Nat.two_pow_pos n)]
    refine ⟨C ((5 : Zq)⁻¹), 0, ?_⟩
    rw [← C_mul, show (((5 : ℤ) : Zq)) * (5 : Zq)⁻¹ = 1 by decide +kernel]
    simp

/-! ### C38 -/

/-- C38: what key generation guarantees whenever it returns. `narrow32 ∘ getSi` is the identity on 32-bit
values, so the last part reads: if the solution fits `int32_t`, the returned key satisfies the NTRU equation. -/
theorem C38_ntru_gen {quot : RedQuot} {gs : Mem ℤ → Mem ℤ → Bool} {fma : Bool} {n : ℕ} (hn : ValidLog n)
    {stream : ℕ → UInt8} {fuel iters : ℕ} {s0 s : Ntru} {pos pos' : ℕ}
    (h : ntruGen quot gs fma n stream fuel iters s0 pos = some (.ok (s, pos'))) :
    (∀ i, i < 2 ^ n → |s.f i| ≤ 19 * (4096 / 2 ^ n) ∧ |s.g i| ≤ 19 * (4096 / 2 ^ n)) ∧
    (∃ r, ModEqXN (2 ^ n) (polyInt (2 ^ n) s.f * r) 1) ∧
    gs s.f s.g = false ∧
    ∃ F G : Mem ℤ,
      ModEqXN (2 ^ n) (toPoly (2 ^ n) s.f * toPoly (2 ^ n) G - toPoly (2 ^ n) s.g * toPoly (2 ^ n) F) (C 12289) ∧
      (∀ i, i < 2 ^ n → s.F i = narrow32 (getSi (F i)) ∧ s.G i = narrow32 (getSi (G i))) ∧
      ((∀ i, i < 2 ^ n → (-2 ^ 31 ≤ F i ∧ F i < 2 ^ 31) ∧ (-2 ^ 31 ≤ G i ∧ G i < 2 ^ 31)) →
        ModEqXN (2 ^ n) (toPoly (2 ^ n) s.f * toPoly (2 ^ n) s.G - toPoly (2 ^ n) s.g * toPoly (2 ^ n) s.F)
          (C 12289)) := by
  have H := ntruGen_spec iters s0 pos s pos' h
  obtain ⟨F, G, hd, -, hFG⟩ := H.sol
  have habs : ∀ x : ℤ, x.natAbs ≤ 19 * (4096 / 2 ^ n) → |x| ≤ 19 * (4096 / 2 ^ n) := by
    intro x hx; rw [Int.abs_eq_natAbs]; exact_mod_cast hx
  refine ⟨fun i hi => ⟨habs _ (H.fRange i hi), habs _ (H.gRange i hi)⟩,
    (C36_invertible_iff hn (H.fRange.coeff hn)).mp H.inv, H.gs, F, G, hd, hFG, fun hr => ?_⟩
  have e1 : toPoly (2 ^ n) s.F = toPoly (2 ^ n) F :=
    toPoly_congr fun i hi => by rw [(hFG i hi).1, narrow_id (hr i hi).1]
  have e2 : toPoly (2 ^ n) s.G = toPoly (2 ^ n) G :=
    toPoly_congr fun i hi => by rw [(hFG i hi).2, narrow_id (hr i hi).2]
  rw [e1, e2]
  exact hd

/-- C38: if the rounded quotients are representable, key generation has no undefined behaviour, whether or not the compiler
contracts the argument reduction of the sampler. -/
theorem C38_defined {quot : RedQuot} (hq : ∀ k f g F G, ∃ r, quot k f g F G = .ok r)
    {gs : Mem ℤ → Mem ℤ → Bool} {fma : Bool} {n : ℕ} (hn : ValidLog n) {stream : ℕ → UInt8} {fuel iters : ℕ} {s : Ntru}
    {pos : ℕ} (u : UB) : ntruGen quot gs fma n stream fuel iters s pos ≠ some (.error u) :=
  ntruGen_noUB hq hn iters s pos u

/-- C38, the violation: the narrowing of a solution keeps 32 bits only; every integer outside the range of
`int32_t` is changed by it. -/
theorem C38_narrowing_corrupts (v : ℤ) : narrow32 (getSi v) = v ↔ -2 ^ 31 ≤ v ∧ v < 2 ^ 31 := by
  refine ⟨fun h => ?_, narrow_id⟩
  have := Int.bmod_lt (x := getSi v) (show 0 < 2 ^ 32 by norm_num)
  have := Int.le_bmod (x := getSi v) (show 0 < 2 ^ 32 by norm_num)
  unfold narrow32 at h
  omega

example : narrow32 (getSi (2 ^ 31)) = -2 ^ 31 ∧ narrow32 (getSi (2 ^ 64 + 5)) = 5 := by decide +kernel

end Falcon
