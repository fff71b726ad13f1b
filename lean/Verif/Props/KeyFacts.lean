import Verif.Props.Reduced
import Verif.Proofs.Seed

/-!
# C112, C113: parity of the coefficient sums of a key; f and the public key determine the secret key
-/

namespace Falcon

open Polynomial Finset

/-- The sum of the coefficients. -/
def coeffSum (N : ℕ) (a : Mem ℤ) : ℤ := ∑ i ∈ range N, a i

theorem eval_one_polyZ (N : ℕ) (a : Mem ℤ) : (polyZ N a).eval 1 = coeffSum N a := by
  unfold polyZ coeffSum toPoly
  simp [eval_finset_sum]

theorem odd_of_ntruEq {n : ℕ} {f g F G : Mem ℤ} (h : NtruEq n f g F G) :
    Odd (coeffSum (2 ^ n) f * coeffSum (2 ^ n) G - coeffSum (2 ^ n) g * coeffSum (2 ^ n) F) := by
  obtain ⟨r, hr⟩ := h
  have := congrArg (Polynomial.eval 1) hr
  simp only [eval_sub, eval_mul, eval_one_polyZ, eval_add, eval_pow, eval_X, one_pow, eval_one, eval_ofNat] at this
  exact ⟨6144 + r.eval 1, by linarith⟩

/-- C112. For every key that `ntru_gen` returns on IEEE 754 data, the coefficient sums form a matrix of odd determinant: never both those
of f and g are even, nor both of F and G, of f and F, of g and G. -/
theorem C112_parity (b : Bool) (rm rd : F64.Recover) (hrd : F64.NoInvention rd) (fma : Bool) {n : ℕ} (hn : ValidLog n) {stream : ℕ → UInt8}
    {fuel iters : ℕ} {s0 s : Ntru} {pos pos' : ℕ}
    (h : ntruGen (redQuot (f64A b rm rd)) (gsTooBig (f64A b rm rd) n) fma n stream fuel iters s0 pos = some (.ok (s, pos'))) :
    Odd (coeffSum (2 ^ n) s.f * coeffSum (2 ^ n) s.G - coeffSum (2 ^ n) s.g * coeffSum (2 ^ n) s.F) ∧
    ¬(Even (coeffSum (2 ^ n) s.f) ∧ Even (coeffSum (2 ^ n) s.g)) ∧ ¬(Even (coeffSum (2 ^ n) s.F) ∧ Even (coeffSum (2 ^ n) s.G)) ∧
    ¬(Even (coeffSum (2 ^ n) s.f) ∧ Even (coeffSum (2 ^ n) s.F)) ∧ ¬(Even (coeffSum (2 ^ n) s.g) ∧ Even (coeffSum (2 ^ n) s.G)) := by
  have ho := odd_of_ntruEq (C76_keys b rm rd hrd fma hn h).1
  refine ⟨ho, ?_, ?_, ?_, ?_⟩ <;> rintro ⟨h1, h2⟩ <;> refine Int.not_even_iff_odd.mpr ho (Even.sub ?_ ?_)
  · exact h1.mul_right _
  · exact h2.mul_right _
  · exact h2.mul_left _
  · exact h1.mul_left _
  · exact h1.mul_right _
  · exact h2.mul_left _
  · exact h2.mul_left _
  · exact h1.mul_right _

/-- C112, for the solver alone, in any arithmetic: with two polynomials of even coefficient sums `ntru_solve` never returns a solution. -/
theorem C112_reject {quot : RedQuot} {fuel n : ℕ} {f g : Mem ℤ} (hf : Even (coeffSum (2 ^ n) f)) (hg : Even (coeffSum (2 ^ n) g))
    {r : Option (Mem ℤ × Mem ℤ)} (h : ntruSolve quot fuel n f g = some (.ok r)) : r = none := by
  rcases r with - | ⟨F, G⟩
  · rfl
  · have e : NtruEq n f g F G := C34_ntru_equation quot fuel n f g F G h
    exact absurd (Even.sub (hf.mul_right _) (hg.mul_right _)) (Int.not_even_iff_odd.mpr (odd_of_ntruEq e))

theorem g_of_f {n : ℕ} (hn : ValidLog n) {f g f' g' : Mem ℤ} (h0 h0' : Mem Ff) (b1 : ∀ i, i < 2 ^ n → |f i| ≤ 152 ∧ |g i| ≤ 152)
    (b2 : ∀ i, i < 2 ^ n → |f' i| ≤ 152 ∧ |g' i| ≤ 152) (i1 : ∃ r, ModEqXN (2 ^ n) (polyInt (2 ^ n) f * r) 1)
    (ef : ∀ i, i < 2 ^ n → f' i = f i)
    (eh : ∀ i, i < 2 ^ n → computePublicKey n f' g' h0' i = computePublicKey n f g h0 i) : ∀ i, i < 2 ^ n → g' i = g i := by
  have cr : ∀ {a : Mem ℤ}, (∀ i, i < 2 ^ n → |a i| ≤ 152) → CoeffRange (2 ^ n) a := fun ha i hi => by
    have := abs_le.mp (ha i hi); constructor <;> omega
  have epf : polyInt (2 ^ n) f' = polyInt (2 ^ n) f := toPoly_congr fun i hi => by rw [ef i hi]
  obtain ⟨-, p, -⟩ := C37_public_key hn h0 (cr fun i hi => (b1 i hi).1) (cr fun i hi => (b1 i hi).2) i1
  obtain ⟨-, p', -⟩ := C37_public_key hn h0' (cr fun i hi => (b2 i hi).1) (cr fun i hi => (b2 i hi).2) (by rw [epf]; exact i1)
  have eq : polyZq (2 ^ n) (computePublicKey n f' g' h0') = polyZq (2 ^ n) (computePublicKey n f g h0) :=
    toPoly_congr fun i hi => by rw [eh i hi]
  rw [eq, epf] at p'
  intro i hi
  have e : ((g' i : ℤ) : Zq) = ((g i : ℤ) : Zq) := modEq_coeff (Nat.two_pow_pos n) (p'.symm.trans p) i hi
  rw [ZMod.intCast_eq_intCast_iff_dvd_sub] at e
  have hq : ((q : ℕ) : ℤ) = 12289 := rfl
  rw [hq] at e
  have := abs_le.mp (b1 i hi).2
  have := abs_le.mp (b2 i hi).2
  omega

theorem key_bound {n : ℕ} (hn : ValidLog n) {s : Ntru}
    (h : ∀ i, i < 2 ^ n → |s.f i| ≤ 19 * (4096 / 2 ^ n) ∧ |s.g i| ≤ 19 * (4096 / 2 ^ n)) :
    ∀ i, i < 2 ^ n → |s.f i| ≤ 152 ∧ |s.g i| ≤ 152 := fun i hi => by
  obtain ⟨a, b⟩ := h i hi
  rcases hn with rfl | rfl <;> norm_num at a b <;> constructor <;> omega

theorem ntruEq_low {n : ℕ} {f g f' g' F G : Mem ℤ} (ef : ∀ i, i < 2 ^ n → f' i = f i) (eg : ∀ i, i < 2 ^ n → g' i = g i)
    (h : NtruEq n f g F G) : NtruEq n f' g' F G := by
  have e1 : polyZ (2 ^ n) f' = polyZ (2 ^ n) f := toPoly_congr ef
  have e2 : polyZ (2 ^ n) g' = polyZ (2 ^ n) g := toPoly_congr eg
  unfold NtruEq
  rw [e1, e2]
  exact h

theorem isQuo_low {n : ℕ} {f g f' g' F G : Mem ℤ} {κ : Mem ℝ} (ef : ∀ i, i < 2 ^ n → f' i = f i) (eg : ∀ i, i < 2 ^ n → g' i = g i)
    (h : IsQuo n f g F G κ) : IsQuo n f' g' F G κ := by
  have e : ∀ {a a' : Mem ℤ}, (∀ i, i < 2 ^ n → a' i = a i) → polyR n a' = polyR n a ∧ polyR n (adjZ n a') = polyR n (adjZ n a) := by
    intro a a' h
    refine ⟨toPoly_congr fun i hi => by simp only [h i hi], toPoly_congr fun i hi => ?_⟩
    unfold adjZ
    split
    · rw [h _ (by positivity)]
    · rw [h _ (by omega)]
  unfold IsQuo
  rw [(e ef).1, (e ef).2, (e eg).1, (e eg).2]
  exact h

/-- C113. Two runs of key generation on IEEE 754 data, with whatever compiler options and random bytes, that return the same f and the same
public key return the same g; and the same F and G, if the coefficients of the quotient by which F and G are reduced are not within 1/100 of
1/2 in one of them. -/
theorem C113_same_key (b b' : Bool) (rm rd rm' rd' : F64.Recover) (hrd : F64.NoInvention rd) (hrd' : F64.NoInvention rd') (fma fma' : Bool)
    {n : ℕ} (hn : ValidLog n) {stream stream' : ℕ → UInt8} {fuel iters fuel' iters' : ℕ} {s0 s s0' s' : Ntru} {pos pos' p p' : ℕ}
    (h : ntruGen (redQuot (f64A b rm rd)) (gsTooBig (f64A b rm rd) n) fma n stream fuel iters s0 pos = some (.ok (s, pos')))
    (h' : ntruGen (redQuot (f64A b' rm' rd')) (gsTooBig (f64A b' rm' rd') n) fma' n stream' fuel' iters' s0' p = some (.ok (s', p')))
    (ef : ∀ i, i < 2 ^ n → s'.f i = s.f i) (h0 h0' : Mem Ff)
    (eh : ∀ i, i < 2 ^ n → computePublicKey n s'.f s'.g h0' i = computePublicKey n s.f s.g h0 i) :
    (∀ i, i < 2 ^ n → s'.g i = s.g i) ∧
    ∀ κ : Mem ℝ, IsQuo n s.f s.g s.F s.G κ → (∀ i, i < 2 ^ n → |κ i| < 49 / 100) →
      ∀ i, i < 2 ^ n → s'.F i = s.F i ∧ s'.G i = s.G i := by
  obtain ⟨b1, i1, -⟩ := C38_ntru_gen hn h
  obtain ⟨b2, -⟩ := C38_ntru_gen hn h'
  have eg := g_of_f hn h0 h0' (key_bound hn b1) (key_bound hn b2) i1 ef eh
  refine ⟨eg, fun κ hκ hb i hi => ?_⟩
  have heq := (C76_keys b rm rd hrd fma hn h).1
  have := C100_same b' rm' rd' hrd' fma' hn h' s.F s.G κ (ntruEq_low ef eg heq) (isQuo_low ef eg hκ) hb i hi
  exact ⟨this.1.symm, this.2.symm⟩

/-- C113 in exact arithmetic: f and the public key determine the whole key. -/
theorem C113_exact (fma fma' : Bool) {n : ℕ} (hn : ValidLog n) {stream stream' : ℕ → UInt8} {fuel iters fuel' iters' : ℕ}
    {s0 s s0' s' : Ntru} {pos pos' p p' : ℕ}
    (h : ntruGen (redQuot exactA) (gsTooBig exactA n) fma n stream fuel iters s0 pos = some (.ok (s, pos')))
    (h' : ntruGen (redQuot exactA) (gsTooBig exactA n) fma' n stream' fuel' iters' s0' p = some (.ok (s', p')))
    (ef : ∀ i, i < 2 ^ n → s'.f i = s.f i) (h0 h0' : Mem Ff)
    (eh : ∀ i, i < 2 ^ n → computePublicKey n s'.f s'.g h0' i = computePublicKey n s.f s.g h0 i) :
    ∀ i, i < 2 ^ n → s'.g i = s.g i ∧ s'.F i = s.F i ∧ s'.G i = s.G i := by
  obtain ⟨b1, i1, -⟩ := C38_ntru_gen hn h
  obtain ⟨b2, -⟩ := C38_ntru_gen hn h'
  have eg := g_of_f hn h0 h0' (key_bound hn b1) (key_bound hn b2) i1 ef eh
  obtain ⟨⟨κ, hκ, hb⟩, -⟩ := C100_unique fma hn h
  obtain ⟨-, -, hu⟩ := C100_unique fma' hn h'
  intro i hi
  have := hu s.F s.G κ (ntruEq_low ef eg (C66_narrowing hn h).1) (isQuo_low ef eg hκ) (fun i hi => (hb i hi).le) i hi
  exact ⟨eg i hi, this.1.symm, this.2.symm⟩

/-- The hypotheses of `C112_parity` and `C113_same_key` are met by two runs with any two settings of the arithmetic, which return f = 1,
g = -104, F = 118, G = 17 of odd and even coefficient sums; that the quotient is small is shown beside C100. -/
example (b b' : Bool) (rm rm' : F64.Recover) : ∃ stream s pos stream' s' pos',
    ntruGen (redQuot (f64A b rm F64.keepNan)) (gsTooBig (f64A b rm F64.keepNan) 9) false 9 stream 3 1 zeroNtru 0 = some (.ok (s, pos)) ∧
    ntruGen (redQuot (f64A b' rm' F64.keepNan)) (gsTooBig (f64A b' rm' F64.keepNan) 9) false 9 stream' 3 1 zeroNtru 0 =
      some (.ok (s', pos')) ∧ (∀ i, i < 2 ^ 9 → s'.f i = s.f i) ∧
    (∀ i, i < 2 ^ 9 → computePublicKey 9 s'.f s'.g (fun _ => Ff.zero) i = computePublicKey 9 s.f s.g (fun _ => Ff.zero) i) ∧
    coeffSum (2 ^ 9) s.f = 1 ∧ coeffSum (2 ^ 9) s.g = -104 := by
  obtain ⟨stream, s, pos, h, hs⟩ := const_run_of (const_quot64 b rm F64.keepNan) (const_gs64 b rm F64.keepNan)
  obtain ⟨stream', s', pos', h', hs'⟩ := const_run_of (const_quot64 b' rm' F64.keepNan) (const_gs64 b' rm' F64.keepNan)
  have cs : ∀ {a : Mem ℤ} {x : ℤ}, (∀ i, i < 2 ^ 9 → a i = constMem x i) → coeffSum (2 ^ 9) a = x := by
    intro a x ha
    unfold coeffSum
    rw [sum_eq_single_of_mem 0 (mem_range.mpr (by positivity)) fun i hi h0 => by
      rw [ha i (mem_range.mp hi)]; unfold constMem; rw [if_neg h0], ha 0 (by positivity)]
    rfl
  have ef : ∀ i, i < 2 ^ 9 → s'.f i = s.f i := fun i hi => (hs' i hi).1.trans (hs i hi).1.symm
  have eg : ∀ i, i < 2 ^ 9 → s'.g i = s.g i := fun i hi => (hs' i hi).2.1.trans (hs i hi).2.1.symm
  exact ⟨stream, s, pos, stream', s', pos', h, h', ef, fun i _ => by rw [computePublicKey_congr 9 _ ef eg], cs fun i hi => (hs i hi).1,
    cs fun i hi => (hs i hi).2.1⟩

/-- The same in exact arithmetic, for `C113_exact`. -/
example : ∃ stream s pos, ntruGen (redQuot exactA) (gsTooBig exactA 9) false 9 stream 3 1 zeroNtru 0 = some (.ok (s, pos)) ∧
    s.g 0 = -104 := by
  obtain ⟨stream, s, pos, h, hs⟩ := const_run accurate_exact const_gs_exact
  exact ⟨stream, s, pos, h, (hs 0 (by norm_num)).2.1⟩

/-- The hypotheses of `C112_reject` are met. -/
example (quot : RedQuot) : ntruSolve quot 5 1 (constMem 2) (constMem 4) = some (.ok none) ∧ coeffSum (2 ^ 1) (constMem 2) = 2 ∧
    coeffSum (2 ^ 1) (constMem 4) = 4 := by
  refine ⟨rfl, ?_, ?_⟩ <;> decide

end Falcon
