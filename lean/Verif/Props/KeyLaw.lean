import Verif.Proofs.KeyLaw
import Verif.Props.Stuck

/-!
# C85, C86: the distribution of keys

On uniform bytes, the polynomials f and g are sums of discrete Gaussians, and the secret polynomials of a key are the first such pair that passes
the tests of `ntru_gen`.
-/

namespace Falcon

open OTree

theorem keySigma_fg : keySigma = fgSigma := rfl

/-- The parameter is 1.17 sqrt(q / 8192) of the specification (equation 3.28 with the sums of 4096/N), up to 10^-14. -/
theorem C85_sigma : |fgSigma - 1.17 * Real.sqrt (12289 / 8192)| ≤ 1 / 10 ^ 14 := by
  have h1 : |fgSigma - 1.43300980528773| ≤ 2 / 10 ^ 15 := by
    unfold fgSigma
    refine (rnd_rel_err (x := 1.43300980528773) ?_).trans ?_
    · rw [abs_of_pos (by norm_num)]
      exact le_trans (zpow_le_one_of_nonpos₀ (by norm_num) (by norm_num)) (by norm_num)
    · rw [abs_of_pos (by norm_num)]
      norm_num
  have h2 : Real.sqrt (12289 / 8192) ≤ 1.22479470537413 := Real.sqrt_le_iff.mpr ⟨by norm_num, by norm_num⟩
  have h3 : 1.224794705374129 ≤ Real.sqrt (12289 / 8192) := Real.le_sqrt_of_sq_le (by norm_num)
  rw [abs_le] at h1 ⊢
  constructor <;> norm_num at * <;> linarith [h1.1, h1.2]

open Classical in
/-- The two calls of `gen_poly` in a round of `ntru_gen`: the probability of every event of (f, g) is the one under the ideal distribution, up to
8192 (2^-38 + 2^-m); `m` bounds the iterations of each call of the integer sampler. With and without contraction. -/
theorem C85_pair (fma : Bool) {n : ℕ} (hn : ValidLog n) (m : ℕ) (f g : Mem ℤ) (E : PairZ n → Prop) :
    |freq (18 * m * 8192) (fun st => ∃ f' p g' p', genPoly fma n st m f 0 = some (.ok (f', p)) ∧ genPoly fma n st m g p = some (.ok (g', p')) ∧
        E (fun i => f' i, fun i => g' i))
      - pairPr n fgSigma E| ≤ 8192 * (1 / 2 ^ 38 + 1 / 2 ^ m) := by
  have hd := (keyC_pairT hn f g).2
  have h := pair_dist fma hn m f g E
  rw [keySigma_fg] at h
  rw [← BTree.freq_eq (depth_ctree fma (sigmaMin n) m hd) fun x => ∃ a : Mem ℤ × Mem ℤ, x = some (.ok a) ∧ E (cut n a.1, cut n a.2)] at h
  have e : (fun st => ∃ f' p g' p', genPoly fma n st m f 0 = some (.ok (f', p)) ∧ genPoly fma n st m g p = some (.ok (g', p')) ∧
        E (fun i => f' i, fun i => g' i)) =
      fun st => ∃ a : Mem ℤ × Mem ℤ, ((ctree fma (sigmaMin n) m (pairT n f g)).run st 0).1 = some (.ok a) ∧ E (cut n a.1, cut n a.2) := by
    funext st
    have e1 : interp (codeLeaf fma n m st) (pairT n f g) 0 = bindO (genPoly fma n st m f 0) fun fp => bindO (genPoly fma n st m g fp.2) fun gp =>
        some (.ok ((fp.1, gp.1), gp.2)) := by
      simp only [genPoly_tree fma hn, pairT, interp_bind, interp]
    rw [interp_ctree] at e1
    refine propext ⟨?_, ?_⟩
    · rintro ⟨f', p, g', p', h1, h2, h3⟩
      rw [h1, show (bindO (some (.ok (f', p)))) = fun k : _ → Option (Except UB ((Mem ℤ × Mem ℤ) × ℕ)) => k (f', p) from rfl] at e1
      simp only [h2] at e1
      refine ⟨(f', g'), ?_, h3⟩
      generalize (ctree fma (sigmaMin n) m (pairT n f g)).run st 0 = x at e1
      obtain ⟨x, q⟩ := x
      match x with
      | none => cases e1
      | some (.error _) => cases e1
      | some (.ok a) => cases e1; rfl
    · rintro ⟨a, h1, h2⟩
      rw [h1] at e1
      obtain ⟨fp, h3, e2⟩ := bindO_ok e1.symm
      obtain ⟨gp, h4, e3⟩ := bindO_ok e2
      have e4 : ((fp.1, gp.1), gp.2) = (a, ((ctree fma (sigmaMin n) m (pairT n f g)).run st 0).2) := Except.ok.inj (Option.some.inj e3)
      have e5 : (fp.1, gp.1) = a := congrArg Prod.fst e4
      rw [← e5] at h2
      exact ⟨fp.1, fp.2, gp.1, gp.2, h3, h4, h2⟩
  rw [e]
  exact h

open Classical in
/-- `ntru_gen` with at most `R` rounds: (f, g) of the result has a property with the probability that, among `R` independent draws from the ideal
distribution, the first one that is not sent back passes all tests and has the property; up to 2 R 8192 (2^-38 + 2^-m). For every outcome of the
Gram-Schmidt test and every quotient procedure. -/
theorem C86_law {quot : RedQuot} {gs : Mem Int → Mem Int → Bool} (fma : Bool) {n : ℕ} (hn : ValidLog n)
    (hgs : ∀ f g f' g', (∀ i, i < 2 ^ n → f i = f' i) → (∀ i, i < 2 ^ n → g i = g' i) → gs f g = gs f' g') (m R : ℕ) (s : Ntru)
    (E : PairZ n → Prop) :
    |freq (18 * m * 8192 * R) (fun st => ∃ r p, ntruGen quot gs fma n st m R s 0 = some (.ok (r, p)) ∧ E (fun i => r.f i, fun i => r.g i))
      - retryPr R (pairPr n fgSigma (KeyAgain quot gs m n)) (pairPr n fgSigma (fun s => KeyDone quot gs m n s ∧ E s))|
      ≤ 2 * R * (8192 * (1 / 2 ^ 38 + 1 / 2 ^ m)) := by
  have h := key_mean (quot := quot) fma hn hgs m E R s
  rw [keySigma_fg] at h
  rw [← BTree.freq_eq (depth_keyT quot gs fma hn m R s) fun x => ∃ a : Ntru, x = some (.ok a) ∧ E (cut n a.f, cut n a.g)] at h
  have e : (fun st => ∃ r p, ntruGen quot gs fma n st m R s 0 = some (.ok (r, p)) ∧ E (fun i => r.f i, fun i => r.g i)) =
      fun st => ∃ a : Ntru, ((keyT quot gs fma n m R s).run st 0).1 = some (.ok a) ∧ E (cut n a.f, cut n a.g) := by
    funext st
    rw [ntruGen_tree quot gs fma hn st m R s 0]
    generalize (keyT quot gs fma n m R s).run st 0 = x
    obtain ⟨x, q⟩ := x
    refine propext ⟨?_, ?_⟩
    · rintro ⟨r, p, h1, h2⟩
      match x with
      | none => cases h1
      | some (.error _) => cases h1
      | some (.ok a) => cases h1; exact ⟨_, rfl, h2⟩
    · rintro ⟨a, h1, h2⟩
      cases h1
      exact ⟨a, q, rfl, h2⟩
  rw [e]
  exact h

open Classical in
/-- With the tests of the code in any arithmetic: the law of the public key of a generated key pair. -/
theorem C86_public_key {K C : Type} (A : Arith K C) (fma : Bool) {n : ℕ} (hn : ValidLog n) (m R : ℕ) (s : Ntru) (h0 : Mem Ff)
    (E : Mem Ff → Prop) :
    |freq (18 * m * 8192 * R) (fun st => ∃ r p, ntruGen (redQuot A) (gsTooBig A n) fma n st m R s 0 = some (.ok (r, p)) ∧
        E (computePublicKey n r.f r.g h0))
      - retryPr R (pairPr n fgSigma (KeyAgain (redQuot A) (gsTooBig A n) m n))
          (pairPr n fgSigma (fun s => KeyDone (redQuot A) (gsTooBig A n) m n s ∧ E (computePublicKey n (tapeOf s.1) (tapeOf s.2) h0)))|
      ≤ 2 * R * (8192 * (1 / 2 ^ 38 + 1 / 2 ^ m)) := by
  have h := C86_law (quot := redQuot A) (gs := gsTooBig A n) fma hn (fun _ _ _ _ hf hg => gsTooBig_congr A n hf hg) m R s
    (fun s => E (computePublicKey n (tapeOf s.1) (tapeOf s.2) h0))
  have e : ∀ r : Ntru, computePublicKey n r.f r.g h0 = computePublicKey n (tapeOf (fun i : Fin (2 ^ n) => r.f i)) (tapeOf (fun i : Fin (2 ^ n) => r.g i)) h0 :=
    fun r => computePublicKey_congr n h0 (tape_cut n r.f) (tape_cut n r.g)
  simp only [e]
  exact h

/-- If a draw is sent back with probability below 1, this is the ideal distribution of (f, g) conditioned on not being sent back, times the
probability that R rounds suffice. -/
theorem C86_conditioned {R : ℕ} {again hit : ℝ} (h : again ≠ 1) : retryPr R again hit = (1 - again ^ R) * (hit / (1 - again)) := by
  unfold retryPr
  rw [← Finset.sum_mul, geom_sum_eq h]
  have h1 : again - 1 ≠ 0 := sub_ne_zero.mpr h
  have h2 : 1 - again ≠ 0 := sub_ne_zero.mpr (Ne.symm h)
  field_simp
  ring

/-- The ideal distribution is a probability distribution. -/
theorem C85_total {n : ℕ} (hn : ValidLog n) : pairPr n fgSigma (fun _ => True) = 1 := by
  classical
  rw [← keySigma_fg, ← gmean_pairT hn (fun _ => 0) (fun _ => 0)]
  simp only [if_true]
  exact gmean_one (keyC_pairT hn _ _).1.pos

/-- A draw is either sent back, or accepted, or neither; never two of these. -/
theorem C86_disjoint {quot : RedQuot} {gs : Mem Int → Mem Int → Bool} {fuel n : ℕ} (s : PairZ n) (h : KeyDone quot gs fuel n s) :
    ¬ KeyAgain quot gs fuel n s := by
  obtain ⟨h1, h2, FG, h3⟩ := h
  rintro (h | h | h)
  · rw [h1] at h; cases h
  · rw [h2] at h; cases h
  · rw [h3] at h; cases h

/-- Non-vacuity: with 40 iterations per integer the error of one round is below 2^-24. -/
example : (8192 * (1 / 2 ^ 38 + 1 / 2 ^ 40) : ℝ) ≤ 1 / 2 ^ 24 := by norm_num

/-- What is accepted, for coefficients below q: f is invertible modulo q, the Gram-Schmidt test passes, and the norms of f and g are coprime. -/
theorem C86_accepted {quot : RedQuot} {gs : Mem Int → Mem Int → Bool} {fuel n : ℕ} (hn : ValidLog n) {s : PairZ n}
    (hs : CoeffRange (2 ^ n) (tapeOf s.1)) (h : KeyDone quot gs fuel n s) {u v : ℤ} (hu : IsNorm n (tapeOf s.1) u) (hv : IsNorm n (tapeOf s.2) v) :
    (∃ r : Polynomial Zq, ModEqXN (2 ^ n) (polyInt (2 ^ n) (tapeOf s.1) * r) 1) ∧ gs (tapeOf s.1) (tapeOf s.2) = false ∧ Int.gcd u v = 1 := by
  obtain ⟨h1, h2, FG, h3⟩ := h
  have hn' : 1 ≤ n ∧ n ≤ 10 := by rcases hn with rfl | rfl <;> omega
  refine ⟨(C36_invertible_iff hn hs).mp h1, h2, ?_⟩
  by_contra hc
  have := (C69_failure hn'.1 hn'.2 h3 hu hv).mpr hc
  cases this

/-- What is sent back, for coefficients below q: f is not invertible modulo q, or the Gram-Schmidt test fails, or the norms of f and g have a
common factor. -/
theorem C86_sent_back {quot : RedQuot} {gs : Mem Int → Mem Int → Bool} {fuel n : ℕ} (hn : ValidLog n) {s : PairZ n}
    (hs : CoeffRange (2 ^ n) (tapeOf s.1)) (h : KeyAgain quot gs fuel n s) {u v : ℤ} (hu : IsNorm n (tapeOf s.1) u) (hv : IsNorm n (tapeOf s.2) v) :
    (¬ ∃ r : Polynomial Zq, ModEqXN (2 ^ n) (polyInt (2 ^ n) (tapeOf s.1) * r) 1) ∨ gs (tapeOf s.1) (tapeOf s.2) = true ∨ Int.gcd u v ≠ 1 := by
  have hn' : 1 ≤ n ∧ n ≤ 10 := by rcases hn with rfl | rfl <;> omega
  rcases h with h | h | h
  · refine .inl fun hr => ?_
    rw [(C36_invertible_iff hn hs).mpr hr] at h
    cases h
  · exact .inr (.inl h)
  · exact .inr (.inr ((C69_failure hn'.1 hn'.2 h hu hv).mp rfl))

/-- The zero polynomial is sent back, whatever the other tests say. -/
example (quot : RedQuot) (gs : Mem Int → Mem Int → Bool) : KeyAgain quot gs 5 9 (0, 0) := by
  refine .inl ?_
  by_contra h
  rw [Bool.not_eq_false] at h
  have e : tapeOf (0 : Fin (2 ^ 9) → ℤ) = fun _ => 0 := by funext i; unfold tapeOf; split <;> rfl
  rw [e] at h
  have e0 : polyInt (2 ^ 9) (fun _ => 0) = 0 := by
    have := toPoly_single (2 ^ 9) (by norm_num) 0
    simpa using this
  exact (invertible_evals (.inl rfl) (p := fun _ => 0) (fun i _ => by norm_num)).mp h 0 (by norm_num) (by rw [e0, Polynomial.eval_zero])

end Falcon
