import Verif.Proofs.StuckRun
import Verif.Proofs.GsSmall
import Verif.Props.ReduceRun

/-!
# C69 - C72: when key generation fails, what it can draw, when it does not end, what the norm test accepts
-/

namespace Falcon

open Finset Polynomial

/-! ## C69: the solver fails exactly when the norms have a common divisor -/

/-- If the solver returns, it reports failure exactly when the norms of f and g (the products of their values at the roots
of x^N + 1, which are integers) are not coprime. This holds for every procedure `quot` of rounding quotients. -/
theorem C69_failure {quot : RedQuot} {fuel n : ℕ} (hn : 1 ≤ n) (hn10 : n ≤ 10) {f g : Mem ℤ} {r : Option (Mem ℤ × Mem ℤ)}
    (h : ntruSolve quot fuel n f g = some (.ok r)) {u v : ℤ} (hu : IsNorm n f u) (hv : IsNorm n g v) :
    r = none ↔ Int.gcd u v ≠ 1 := by
  obtain ⟨k, rfl⟩ : ∃ k, n = k + 1 := ⟨n - 1, by omega⟩
  exact ntruSolve_none_iff hn10 h hu hv

/-- The norm of every integer polynomial exists and is unique, so `C69_failure` speaks about every run. -/
theorem C69_norm_exists {n : ℕ} (hn : n ≤ 10) (a : Mem ℤ) : ∃! u : ℤ, IsNorm n a u :=
  ⟨_, isNorm_normZ hn a, fun _ h => h.unique (isNorm_normZ hn a)⟩

/-- The norms of the constants 1 and 2 at N = 2. -/
example : IsNorm 1 (constMem 1) 1 ∧ IsNorm 1 (constMem 2) 4 := by
  have : ∀ x : ℤ, IsNorm 1 (constMem x) (x ^ 2) := by
    intro x
    unfold IsNorm
    have d : ∀ j, dft 1 (zC (constMem x)) j = (x : ℂ) := fun j => dft_cst _ j (IsConst.zC (fun _ _ => rfl))
    simp [d]
  exact ⟨by simpa using this 1, by simpa using this 2⟩

/-- The hypothesis of `C69_failure` is met with both outcomes. -/
example {A : Arith ℝ ℂ} (hA : Accurate A) : ∃ F G,
    ntruSolve (redQuot A) 3 9 (constMem 1) (constMem (-104)) = some (.ok (some (F, G))) := by
  obtain ⟨F, G, h, -, -⟩ := const_solve hA (f := constMem 1) (g := constMem (-104)) (fun _ _ => rfl) fun _ _ => rfl
  exact ⟨F, G, h⟩

example (quot : RedQuot) : ntruSolve quot 5 1 (constMem 2) (constMem 4) = some (.ok none) := by rfl

/-! ## C70: the polynomials that key generation draws -/

/-- `gen_poly` can return exactly the polynomials with coefficients between -18 (4096/N) and 19 (4096/N). -/
theorem C70_drawn (fma : Bool) {n : ℕ} (hn : ValidLog n) (a : Mem ℤ) :
    (∀ j, j < 2 ^ n → -18 * ((4096 / 2 ^ n : ℕ) : ℤ) ≤ a j ∧ a j ≤ 19 * (4096 / 2 ^ n : ℕ)) ↔
      ∃ stream fuel poly pos r pos', genPoly fma n stream fuel poly pos = some (.ok (r, pos')) ∧
        ∀ j, j < 2 ^ n → r j = a j := by
  constructor
  · intro h
    obtain ⟨w, hw⟩ := genPoly_word (fma := fma) hn a h
    obtain ⟨r, h1, h2⟩ := hw _ 0 0 zerosZ (reads_self w)
    exact ⟨_, _, _, _, r, _, h1, h2⟩
  · rintro ⟨stream, fuel, poly, pos, r, pos', h1, h2⟩ j hj
    rw [← h2 j hj]
    exact (poly_exact h1).1 j (by omega) (by rw [one_shiftLeft']; omega)

/-- A single sample of key generation takes every value between -18 and 19, and no other. -/
theorem C70_sample (fma : Bool) {n : ℕ} (hn : ValidLog n) (z : ℤ) : (-18 ≤ z ∧ z ≤ 19) ↔
    ∃ stream fuel pos pos', samplerz fma 0 keySigma (sigmaMin n) stream fuel pos = some (.ok (z, pos')) := by
  constructor
  · rintro ⟨h1, h2⟩
    obtain ⟨w, hw⟩ := sample_word (fma := fma) hn z h1 h2
    exact ⟨_, _, _, _, hw _ 0 0 (reads_self w)⟩
  · rintro ⟨stream, fuel, pos, pos', h⟩
    simpa using samplerz_range (by simp) (by simp) h

/-- Every pair of such polynomials is drawn, one after the other, from some finite string of bytes, whatever bytes follow
and with a single iteration of the sampler for each sample. -/
theorem C70_pairs (fma : Bool) {n : ℕ} (hn : ValidLog n) (f g : Mem ℤ)
    (hf : ∀ j, j < 2 ^ n → -18 * ((4096 / 2 ^ n : ℕ) : ℤ) ≤ f j ∧ f j ≤ 19 * (4096 / 2 ^ n : ℕ))
    (hg : ∀ j, j < 2 ^ n → -18 * ((4096 / 2 ^ n : ℕ) : ℤ) ≤ g j ∧ g j ≤ 19 * (4096 / 2 ^ n : ℕ)) :
    ∃ (len : ℕ) (w : ℕ → UInt8), ∀ (stream : ℕ → UInt8) (pos : ℕ), (∀ i, i < len → stream (pos + i) = w i) →
      ∀ (fuel : ℕ) (f0 g0 : Mem ℤ), ∃ f' g' p, genPoly fma n stream (fuel + 1) f0 pos = some (.ok (f', p)) ∧
        genPoly fma n stream (fuel + 1) g0 p = some (.ok (g', pos + len)) ∧
        ∀ j, j < 2 ^ n → f' j = f j ∧ g' j = g j := by
  obtain ⟨w1, hw1⟩ := genPoly_word (fma := fma) hn f hf
  obtain ⟨w2, hw2⟩ := genPoly_word (fma := fma) hn g hg
  refine ⟨(w1 ++ w2).length, fun i => (w1 ++ w2).getD i 0, fun stream pos h fuel f0 g0 => ?_⟩
  have hr : Reads stream pos (w1 ++ w2) := h
  obtain ⟨f', a1, a2⟩ := hw1 stream fuel pos f0 hr.left
  obtain ⟨g', b1, b2⟩ := hw2 stream fuel (pos + w1.length) g0 hr.right
  refine ⟨f', g', _, a1, ?_, fun j hj => ⟨a2 j hj, b2 j hj⟩⟩
  rw [b1, List.length_append, add_assoc]

example : ∀ j, j < 2 ^ 9 → -18 * ((4096 / 2 ^ 9 : ℕ) : ℤ) ≤ constMem (-104) j ∧ constMem (-104) j ≤ 19 * (4096 / 2 ^ 9 : ℕ) := by
  intro j _
  unfold constMem
  split <;> norm_num

/-! ## C71: the reduction need not end -/

/-- In exact arithmetic: if one coefficient of (F f* + G g*) / (f f* + g g*) is a half integer for some solution (F, G) of
the NTRU equation, then the solver returns no solution for f and g. `std::round` rounds halves away from zero; so the
quotient never rounds to zero and `reduce` never leaves its loop. -/
theorem C71_half_integer {n : ℕ} (hn : ValidLog n) {f g F G : Mem Int}
    (hf : ∀ i, i < 2 ^ n → |f i| ≤ 19 * (4096 / 2 ^ n)) (hg : ∀ i, i < 2 ^ n → |g i| ≤ 19 * (4096 / 2 ^ n))
    (hD : ∀ j, j < 2 ^ n → 1 ≤ gramAt n f g j) (hinv : ∃ r : Zq[X], ModEqXN (2 ^ n) (polyInt (2 ^ n) f * r) 1)
    (heq : NtruEq n f g F G) {κ : Mem ℝ} (hκ : IsQuo n f g F G κ) {i : ℕ} (hi : i < 2 ^ n) {m : ℤ} (hm : κ i = m + 1 / 2)
    (fuel : ℕ) (r : Mem ℤ × Mem ℤ) : ntruSolve (redQuot exactA) fuel n f g ≠ some (.ok (some r)) :=
  stuck_exact hn hf hg hD hinv heq hκ hi hm fuel r

/-- The polynomial a + b x^(N/4) + c x^(N/2) + d x^(3N/4). -/
def quarterPoly (n : ℕ) (a b c d : ℤ) : Mem ℤ := fun i =>
  if i = 0 then a else if i = 2 ^ n / 4 then b else if i = 2 * (2 ^ n / 4) then c else if i = 3 * (2 ^ n / 4) then d else 0

theorem quarterPoly_sparse (m : ℕ) (c : ℕ → ℤ) : Sparse (2 ^ m) c 0 (quarterPoly (m + 2) (c 0) (c 1) (c 2) (c 3)) := by
  have h : 2 ^ (m + 2) / 4 = 2 ^ m := by rw [four_mul_pow]; omega
  have hS : 0 < 2 ^ m := by positivity
  intro q hq i hi
  unfold quarterPoly
  rw [h]
  generalize 2 ^ m = S at *
  interval_cases q <;> split_ifs <;> first | rfl | (exfalso; omega)

/-- The key: f = 18 + 39 y + 35 y² - 9 y³ and g = 24 - 23 y + 33 y² - 67 y³ with y = x^(N/4). -/
def stuckF (n : ℕ) : Mem ℤ := quarterPoly n 18 39 35 (-9)
def stuckG (n : ℕ) : Mem ℤ := quarterPoly n 24 (-23) 33 (-67)

theorem stuck_split {n : ℕ} (hn : ValidLog n) : ∃ m, (m = 7 ∨ m = 8) ∧ n = m + 2 ∧ Sparse (2 ^ m) sf4 0 (stuckF n) ∧
    Sparse (2 ^ m) sg4 0 (stuckG n) := by
  rcases hn with rfl | rfl
  · exact ⟨7, Or.inl rfl, rfl, quarterPoly_sparse 7 sf4, quarterPoly_sparse 7 sg4⟩
  · exact ⟨8, Or.inr rfl, rfl, quarterPoly_sparse 8 sf4, quarterPoly_sparse 8 sg4⟩

/-- The key passes every test of key generation: f is invertible mod q, the norm test accepts f and g in exact arithmetic
and in binary64, and the norms of f and g are coprime, so that the NTRU equation is solvable. -/
theorem C71_key_valid {n : ℕ} (hn : ValidLog n) : isPolyInvertible n (stuckF n) = true ∧
    gsTooBig exactA n (stuckF n) (stuckG n) = false ∧ (∀ b, gsTooBig (ieeeA b) n (stuckF n) (stuckG n) = false) ∧
    (∃ u v : ℤ, IsNorm n (stuckF n) u ∧ IsNorm n (stuckG n) v ∧ Int.gcd u v = 1) ∧
    ∃ F G, NtruEq n (stuckF n) (stuckG n) F G ∧ ∀ i, i < 2 ^ n → |F i| ≤ 94 ∧ |G i| ≤ 94 := by
  obtain ⟨m, hm, rfl, hf, hg⟩ := stuck_split hn
  have hm10 : m + 2 ≤ 10 := by rcases hm with rfl | rfl <;> norm_num
  refine ⟨?_, stuck_gs_exact hm hf hg, stuck_gs_ieee hm hf hg, stuck_gcd hf hg hm10, sparseMem m sF4, sparseMem m sG4,
    stuck_ntru hf hg (sparseMem_sparse m sF4) (sparseMem_sparse m sG4), fun i hi => ?_⟩
  · rw [C36_invertible_iff hn fun i hi => ?_]
    · exact stuck_inv hf
    · have := (stuck_range hf hg hm).1 i hi
      have h76 : 19 * (4096 / 2 ^ (m + 2) : ℤ) ≤ 152 := by rcases hm with rfl | rfl <;> norm_num
      have := abs_le.mp (this.trans h76)
      constructor <;> omega
  · have hq : i / 2 ^ m < 4 := by
      rw [Nat.div_lt_iff_lt_mul (by positivity)]
      rwa [four_mul_pow] at hi
    have b1 : ∀ q, q < 4 → |sF4 q| ≤ 94 := by decide
    have b2 : ∀ q, q < 4 → |sG4 q| ≤ 94 := by decide
    unfold sparseMem
    constructor
    · split
      · exact b1 _ hq
      · norm_num
    · split
      · exact b2 _ hq
      · norm_num

/-- For this key the solver does not return, in exact arithmetic and in binary64, with any amount of fuel. -/
theorem C71_solver {n : ℕ} (hn : ValidLog n) (fuel : ℕ) (r : Option (Mem ℤ × Mem ℤ)) :
    ntruSolve (redQuot exactA) fuel n (stuckF n) (stuckG n) ≠ some (.ok r) ∧
    ∀ b, ntruSolve (redQuot (ieeeA b)) fuel n (stuckF n) (stuckG n) ≠ some (.ok r) := by
  obtain ⟨m, hm, rfl, hf, hg⟩ := stuck_split hn
  exact ⟨stuck_solve_exact hm hf hg fuel r, fun b => stuck_solve_ieee hm hf hg b fuel r⟩

/-- There is a finite string of bytes such that key generation in binary64 returns on no random stream beginning with it. -/
theorem C71_keygen {n : ℕ} (hn : ValidLog n) (b fma : Bool) : ∃ (len : ℕ) (w : ℕ → UInt8), ∀ (stream : ℕ → UInt8) (pos : ℕ),
    (∀ i, i < len → stream (pos + i) = w i) → ∀ (fuel iters : ℕ) (s : Ntru) (r : Ntru × ℕ),
      ntruGen (redQuot (ieeeA b)) (gsTooBig (ieeeA b) n) fma n stream fuel iters s pos ≠ some (.ok r) := by
  obtain ⟨m, hm, rfl, -, -⟩ := stuck_split hn
  obtain ⟨w, hw⟩ := stuck_run (fma := fma) (A := ieeeA b) hm (fun hf hg => stuck_gs_ieee hm hf hg b)
    (fun hf hg fuel r => stuck_solve_ieee hm hf hg b fuel r)
  exact ⟨w.length, fun i => w.getD i 0, hw⟩

/-- The same in exact arithmetic. -/
theorem C71_keygen_exact {n : ℕ} (hn : ValidLog n) (fma : Bool) : ∃ (len : ℕ) (w : ℕ → UInt8), ∀ (stream : ℕ → UInt8) (pos : ℕ),
    (∀ i, i < len → stream (pos + i) = w i) → ∀ (fuel iters : ℕ) (s : Ntru) (r : Ntru × ℕ),
      ntruGen (redQuot exactA) (gsTooBig exactA n) fma n stream fuel iters s pos ≠ some (.ok r) := by
  obtain ⟨m, hm, rfl, -, -⟩ := stuck_split hn
  obtain ⟨w, hw⟩ := stuck_run (fma := fma) (A := exactA) hm (fun hf hg => stuck_gs_exact hm hf hg)
    (fun hf hg fuel r => stuck_solve_exact hm hf hg fuel r)
  exact ⟨w.length, fun i => w.getD i 0, hw⟩

/-- The public function: `falcon::keygen` does not return if the extendable output function produces these bytes. -/
theorem C71_public {n : ℕ} (hn : ValidLog n) (b fma : Bool) : ∃ (len : ℕ) (w : ℕ → UInt8),
    ∀ (xof : Xof) (mt : UInt32 → Mem UInt8) (rd : UInt32), (∀ i, i < len → prngNew xof mt rd i = w i) →
      ∀ (fuel iters : ℕ) (junk : Ntru) (pk sk : Mem UInt8) (r : Mem UInt8 × Mem UInt8),
        falconKeygen (ieeeA b) xof mt fma n fuel iters junk rd pk sk ≠ some (.ok r) := by
  obtain ⟨len, w, hw⟩ := C71_keygen hn b fma
  refine ⟨len, w, fun xof mt rd h fuel iters junk pk sk r => ?_⟩
  unfold falconKeygen
  refine bindO_ne fun a ha => ?_
  exact absurd ha (hw _ 0 (fun i hi => by rw [Nat.zero_add]; exact h i hi) fuel iters junk a)

/-- The hypotheses of `C71_half_integer` are met. -/
example {n : ℕ} (hn : ValidLog n) : ∃ (f g F G : Mem ℤ) (κ : Mem ℝ), (∀ i, i < 2 ^ n → |f i| ≤ 19 * (4096 / 2 ^ n)) ∧
    (∀ i, i < 2 ^ n → |g i| ≤ 19 * (4096 / 2 ^ n)) ∧ (∀ j, j < 2 ^ n → 1 ≤ gramAt n f g j) ∧
    (∃ r : Zq[X], ModEqXN (2 ^ n) (polyInt (2 ^ n) f * r) 1) ∧ NtruEq n f g F G ∧ IsQuo n f g F G κ ∧
    κ 0 = ((-1 : ℤ) : ℝ) + 1 / 2 := by
  obtain ⟨m, hm, rfl, hf, hg⟩ := stuck_split hn
  have hm10 : m + 2 ≤ 10 := by rcases hm with rfl | rfl <;> norm_num
  have hF := sparseMem_sparse m sF4
  have hG := sparseMem_sparse m sG4
  obtain ⟨r1, r2⟩ := stuck_range hf hg hm
  refine ⟨_, _, _, _, _, r1, r2, fun j hj => ?_, stuck_inv hf, stuck_ntru hf hg hF hG, stuck_quo hf hg hF hG hm10, ?_⟩
  · rw [stuck_gram hf hg hm10 j hj]; norm_num
  · rw [sκ_zero]; norm_num

/-! ## C72: what the norm test of key generation accepts in binary64 -/

/-- The test, computed in binary64, accepts every key in range whose two exact squared Gram-Schmidt norms are at most 16800;
every accepted key has both at most 16900 (the threshold is 1.17² q = 16822.4). Both parts need that ff* + gg* is not nearly
zero at some point. -/
theorem C72_norm_test (b : Bool) {n : ℕ} (hn : ValidLog n) {f g : Mem ℤ}
    (hf : ∀ i, i < 2 ^ n → |f i| ≤ 19 * (4096 / 2 ^ n)) (hg : ∀ i, i < 2 ^ n → |g i| ≤ 19 * (4096 / 2 ^ n)) :
    ((∀ j, j < 2 ^ n → 1 ≤ gramAt n f g j) →
      ∑ i ∈ range (2 ^ n), f i ^ 2 + ∑ i ∈ range (2 ^ n), g i ^ 2 ≤ 16800 →
      (12289 : ℝ) ^ 2 * ((∑ j ∈ range (2 ^ n), 1 / gramAt n f g j) / 2 ^ n) ≤ 16800 →
      gsTooBig (ieeeA b) n f g = false) ∧
    ((∀ j, j < 2 ^ n → 1 / 2 ^ 10 ≤ gramAt n f g j) → gsTooBig (ieeeA b) n f g = false →
      ∑ i ∈ range (2 ^ n), ((f i : ℝ) ^ 2 + (g i : ℝ) ^ 2) ≤ 16900 ∧
      ∑ j ∈ range (2 ^ n), (12289 : ℝ) ^ 2 / gramAt n f g j ≤ 16900 * 2 ^ n) :=
  ⟨fun hD h1 h2 => gs_accept b hn hf hg hD h1 h2, fun hD h => gsSmall_float b hn hf hg h hD⟩

/-- The hypotheses are met by the key of `C71_key_valid`. -/
example {n : ℕ} (hn : ValidLog n) : (∀ j, j < 2 ^ n → 1 ≤ gramAt n (stuckF n) (stuckG n) j) ∧
    ∑ i ∈ range (2 ^ n), stuckF n i ^ 2 + ∑ i ∈ range (2 ^ n), stuckG n i ^ 2 ≤ 16800 ∧
    (12289 : ℝ) ^ 2 * ((∑ j ∈ range (2 ^ n), 1 / gramAt n (stuckF n) (stuckG n) j) / 2 ^ n) ≤ 16800 := by
  obtain ⟨m, hm, rfl, hf, hg⟩ := stuck_split hn
  have hm10 : m + 2 ≤ 10 := by rcases hm with rfl | rfl <;> norm_num
  obtain ⟨h1, h2⟩ := stuck_sums hm hf hg
  refine ⟨fun j hj => ?_, by omega, h2⟩
  rw [stuck_gram hf hg hm10 j hj]; norm_num

end Falcon
