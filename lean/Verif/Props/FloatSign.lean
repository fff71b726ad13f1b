import Verif.Props.SignRun
import Verif.Proofs.Draws
import Verif.Proofs.Ieee

/-!
# C65: signing with rounding errors
-/

namespace Falcon

open Finset Polynomial

theorem betaSq_le (n : ℕ) : betaSq n ≤ 70265242 := by unfold betaSq; split <;> norm_num

/-- C48, every call counts. Each of the 2^(k+1) calls determines one of the 2 · 2^k coefficients. (There are as many
calls as coefficients, so each determines exactly one.) -/
theorem C48_all_used : ∀ (k j : ℕ), j < 2 ^ (k + 1) → ∃ i, i < 2 ^ k ∧ (callIdx0 k i = j ∨ callIdx1 k i = j) := by
  intro k
  induction k with
  | zero =>
    intro j hj
    refine ⟨0, by norm_num, ?_⟩
    rw [callIdx0, callIdx1]
    omega
  | succ k ih =>
    have key : ∀ j, j < 2 ^ (k + 1) → ∃ i, i < 2 ^ (k + 1) ∧
        (if i % 2 = 0 then callIdx0 k (i / 2) else callIdx1 k (i / 2)) = j := by
      intro j hj
      obtain ⟨i, hi, h⟩ := ih j hj
      rcases h with h | h
      · exact ⟨2 * i, by rw [pow_succ]; omega, by rw [if_pos (by omega), show 2 * i / 2 = i by omega, h]⟩
      · exact ⟨2 * i + 1, by rw [pow_succ]; omega, by rw [if_neg (by omega), show (2 * i + 1) / 2 = i by omega, h]⟩
    intro j hj
    have e : 2 ^ (k + 1 + 1) = 2 * 2 ^ (k + 1) := by ring
    by_cases h : j < 2 ^ (k + 1)
    · obtain ⟨i, hi, hj⟩ := key j h
      exact ⟨i, hi, Or.inr (by rw [callIdx1]; exact hj)⟩
    · obtain ⟨i, hi, hj⟩ := key (j - 2 ^ (k + 1)) (by omega)
      exact ⟨i, hi, Or.inl (by rw [callIdx0, hj]; omega)⟩

/-- C48, the coefficients. In exact arithmetic the outputs of fast Fourier sampling are the transforms of the two
polynomials whose coefficients are the integers returned by the 2^(k+1) calls of the integer sampler, in the order
given by `drawn0` and `drawn1`. -/
theorem C48_draws {S : Type} (leaf : LeafSampler ℝ S) (k : ℕ) (hk : k ≤ 10) (t0 t1 T z0 z1 : Mem ℂ) (s : S)
    (r : Mem ℂ × Mem ℂ × S) (h : ffSampling exactA leaf k 0 t0 t1 T z0 z1 s = some (.ok r)) : ∃ l : List Call,
      ffSampling exactA (logged leaf) k 0 t0 t1 T z0 z1 (s, []) = some (.ok (r.1, r.2.1, r.2.2, l)) ∧
      Calls leaf s l r.2.2 ∧ l.length = 2 ^ (k + 1) ∧ IsDftOf k r.1 (drawn0 k l) ∧ IsDftOf k r.2.1 (drawn1 k l) :=
  ffSampling_draws exactA IsDftOf
    (fun z i hi => by
      have : i = 0 := by simpa using hi
      subst this
      simp [dft, zC, exact_ofInt])
    (fun _ _ _ _ _ hk h0 h1 => merge_int hk h0 h1)
    (fun _ _ _ _ he h i hi => (he i hi).trans (h i hi)) leaf k hk t0 t1 T z0 z1 s r h

/-- Fast Fourier sampling in floating point: both outputs are close to the transforms of the polynomials of the
integers drawn. -/
theorem sample_near_draws {S : Type} {A : Arith ℝ ℂ} (hA : Accurate A) (leaf : LeafSampler ℝ S) (k : ℕ) (hk : k ≤ 10)
    (t0 t1 T z0 z1 : Mem ℂ) (s : S) (r : Mem ℂ × Mem ℂ × S)
    (h : ffSampling A leaf k 0 t0 t1 T z0 z1 s = some (.ok r)) : ∃ l : List Call,
      ffSampling A (logged leaf) k 0 t0 t1 T z0 z1 (s, []) = some (.ok (r.1, r.2.1, r.2.2, l)) ∧
      Calls leaf s l r.2.2 ∧ l.length = 2 ^ (k + 1) ∧ NearInt k r.1 (drawn0 k l) ∧ NearInt k r.2.1 (drawn1 k l) :=
  ffSampling_draws A NearInt (fun z => ofInt_near0 hA z 0 rfl) (fun _ _ _ _ _ hk h0 h1 => merge_near hA hk h0 h1)
    (fun k e e' c he h => by
      unfold NearInt at h ⊢
      refine le_trans (le_of_eq (nC_congr fun i hi => ?_)) h
      rw [he i hi]) leaf k hk t0 t1 T z0 z1 s r h

/-- `l` are the integers drawn in one round of signing and (u0, u1) is the vector they stand for:
u0 = c - a0 g - a1 G and u1 = a0 f + a1 F, where a0 and a1 are the polynomials of the integers drawn. -/
def RoundVec (n : ℕ) (f g F G : Mem Int) (c : Mem Ff) (l : List Call) (u0 u1 : Mem Int) : Prop :=
  ModEqXN (2 ^ n) (polyZ (2 ^ n) u0) (polyZ (2 ^ n) (hashInt c) - polyZ (2 ^ n) (drawn0 n l) * polyZ (2 ^ n) g
    - polyZ (2 ^ n) (drawn1 n l) * polyZ (2 ^ n) G) ∧
  ModEqXN (2 ^ n) (polyZ (2 ^ n) u1)
    (polyZ (2 ^ n) (drawn0 n l) * polyZ (2 ^ n) f + polyZ (2 ^ n) (drawn1 n l) * polyZ (2 ^ n) F)

theorem roundVec_exists (n : ℕ) (f g F G : Mem Int) (c : Mem Ff) (l : List Call) :
    ∃ u0 u1, RoundVec n f g F G c l u0 u1 := by
  obtain ⟨u0, h0⟩ := exists_arr n (polyZ (2 ^ n) (hashInt c) - polyZ (2 ^ n) (drawn0 n l) * polyZ (2 ^ n) g
    - polyZ (2 ^ n) (drawn1 n l) * polyZ (2 ^ n) G)
  obtain ⟨u1, h1⟩ := exists_arr n
    (polyZ (2 ^ n) (drawn0 n l) * polyZ (2 ^ n) f + polyZ (2 ^ n) (drawn1 n l) * polyZ (2 ^ n) F)
  exact ⟨u0, u1, h0, h1⟩

/-- C65, one round. For every arithmetic within the error bounds of `Accurate`, key in the range of the key format
that satisfies the NTRU equation, hashed point, tree and sampler: if fast Fourier sampling returns, having drawn
the integers `l`, and (u0, u1) is the vector these integers stand for, then
- if the norm test accepts, the squared norm of (u0, u1) is at most β² + 166 and rounding returns exactly the
  coefficients of u1;
- if the squared norm is at most β² - 168, the norm test accepts. -/
theorem C65_round {S : Type} {A : Arith ℝ ℂ} (hA : Accurate A) {n : ℕ} (hn : ValidLog n) {f g F G : Mem Int}
    (heq : NtruEq n f g F G) (hfit : FitsFormat n f g F G) {c : Mem Ff} (hc : CanonBelow (2 ^ n) c)
    (leaf : LeafSampler ℝ S) (B0 T z0 z1 : Mem ℂ) (s : S) (r : Mem ℂ × Mem ℂ × S) :
    let B := computeMatrixB A n f g F G B0
    let t := signTarget A n B c
    let v := signVec A n B t.1 t.2 r.1 r.2.1
    ffSampling A leaf n 0 t.1 t.2 T z0 z1 s = some (.ok r) →
    ∃ l : List Call,
      ffSampling A (logged leaf) n 0 t.1 t.2 T z0 z1 (s, []) = some (.ok (r.1, r.2.1, r.2.2, l)) ∧
      Calls leaf s l r.2.2 ∧ l.length = 2 ^ (n + 1) ∧
      ∀ u0 u1, RoundVec n f g F G c l u0 u1 →
        (A.le (signNorm A n v.1 v.2) (A.lit (beta2 n)) = true →
          sqNorm (2 ^ n) u0 + sqNorm (2 ^ n) u1 ≤ betaSq n + 166 ∧
          ∃ s2, signRound A n v.2 = .ok s2 ∧ ∀ i, i < 2 ^ n → s2 i = u1 i) ∧
        (sqNorm (2 ^ n) u0 + sqNorm (2 ^ n) u1 ≤ betaSq n - 168 →
          A.le (signNorm A n v.1 v.2) (A.lit (beta2 n)) = true) := by
  intro B t v h
  have hn10 : n ≤ 10 := by rcases hn with rfl | rfl <;> norm_num
  obtain ⟨l, e1, e2, e3, q0, q1⟩ := sample_near_draws hA leaf n hn10 _ _ T _ _ s r h
  refine ⟨l, e1, e2, e3, fun u0 u1 hu => ⟨fun hle => ?_, fun hs => ?_⟩⟩
  · obtain ⟨d0, d1, hnm⟩ := signVec_float_of hA hn heq hfit B0 hc q0 q1 hu.1 hu.2 hle
    have hnorm := near_sqNorm hn d0 d1 hnm
    obtain ⟨s2, r1, r2, -⟩ := near_round hA hn d1 (by
      have := sqNorm_nonneg (2 ^ n) u0
      have := betaSq_le n
      omega)
    exact ⟨hnorm, s2, r1, r2⟩
  · exact (signVec_rev hA hn heq hfit B0 hc q0 q1 hu.1 hu.2 hs).1

/-- C65. The statement of C49 for every arithmetic whose operations satisfy the error bounds of `Accurate`, in
particular for binary64 (`C65_binary64`). For every key in the range of the key format that satisfies the NTRU
equation with h f = g and f invertible mod q, every tree, message, random stream and every behaviour of the integer
sampler: if signing returns then rounding errors have not changed the signature. It encodes the second half of the
vector (s1, s2) which the integers drawn in the last round stand for, computed exactly: s1 = c - a0 g - a1 G and
s2 = a0 f + a1 F. This is an exact preimage of the hashed point. Its squared norm exceeds the bound by at most 166
(the norm test is done on rounded values). Verification accepts if the norm is within the bound, no coefficient of s2 exceeds
1023 in absolute value and, for N = 1024, no coefficient of s1 equals 6144. -/
theorem C65_float_sign {A : Arith ℝ ℂ} (hA : Accurate A) {n : ℕ} (hn : ValidLog n) {f g F G : Mem Int}
    (heq : NtruEq n f g F G) (hfit : FitsFormat n f g F G) {h : Mem Ff}
    (hh : ModEqXN (2 ^ n) (polyZq (2 ^ n) h * polyInt (2 ^ n) f) (polyInt (2 ^ n) g))
    (hinv : ∃ r, ModEqXN (2 ^ n) (polyInt (2 ^ n) f * r) 1) (xof : Xof) (leaf : LeafSampler ℝ) (fuel hfuel : ℕ)
    (B0 T : Mem ℂ) (stream : ℕ → UInt8) (msg : List UInt8) (sig sig' : Mem UInt8) (pos pos' : ℕ)
    (hs : signPoly A xof leaf fuel hfuel n (computeMatrixB A n f g F G B0) T stream msg sig pos =
      some (.ok (sig', pos'))) :
    ∃ (c : Mem Ff) (s1 s2 : Mem Int) (p : ℕ) (l : List Call),
      hashToPoint hfuel n (xof (saltMsg sig' msg)) (fun _ => Ff.zero) = some c ∧
      Calls leaf p l pos' ∧ l.length = 2 ^ (n + 1) ∧ RoundVec n f g F G c l s1 s2 ∧
      Preimage (2 ^ n) h c s1 s2 ∧ sqNorm (2 ^ n) s1 + sqNorm (2 ^ n) s2 ≤ betaSq n + 166 ∧
      SignatureOf n sig' (fun i => stream (pos + i)) s2 ∧
      (sqNorm (2 ^ n) s1 + sqNorm (2 ^ n) s2 ≤ betaSq n →
        (∀ i, i < 2 ^ n → |s2 i| ≤ 1023) → (n = 10 → ∀ i, i < 2 ^ n → s1 i ≠ 6144) →
        ∀ (pk : Mem UInt8) (p : Ovf) (junk : Junk) (lim : ℕ), PkeyOf n pk h → sigBytes n + 2 ≤ lim →
          verify xof hfuel p n junk pk msg (rdArr lim sig') = some (.ok true)) := by
  have hn10 : n ≤ 10 := by rcases hn with rfl | rfl <;> norm_num
  obtain ⟨c, z, s2, p, hc, e1, e2, e3, e4, -, e6⟩ := signPoly_last A hn hs
  have hcan : CanonBelow (2 ^ n) c := (C24_hash_point _ _ _ hc).2.1
  obtain ⟨l, -, hcalls, hlen, hround⟩ := C65_round hA hn heq hfit hcan leaf B0 T _ _ p z e1
  obtain ⟨u0, u1, hu⟩ := roundVec_exists n f g F G c l
  obtain ⟨hnorm, s2', r1, r2⟩ := (hround u0 u1 hu).1 e2
  rw [r1] at e3
  injection e3 with e3
  subst e3
  have hpoly : polyZ (2 ^ n) s2' = polyZ (2 ^ n) u1 := toPoly_congr r2
  have hu' : RoundVec n f g F G c l u0 s2' := ⟨hu.1, by rw [hpoly]; exact hu.2⟩
  have hP : Preimage (2 ^ n) h c u0 s2' := preimage_of_basis heq hh hinv hu'.1 hu'.2
  have hN : sqNorm (2 ^ n) u0 + sqNorm (2 ^ n) s2' ≤ betaSq n + 166 := by rw [sqNorm_congr r2]; exact hnorm
  refine ⟨c, u0, s2', p, l, hc, by rw [e6]; exact hcalls, hlen, hu', hP, hN, e4, ?_⟩
  intro hbound hb h6 pk p' junk lim hpk hlim
  obtain ⟨b1, b2, b3, b4⟩ := e4
  rw [codes_eq_flat] at b3 b4
  have hbody := bodyEnd_of_flat (s := s2')
    (fun i hi => chunk_code (by have := hb i hi; rw [Int.abs_eq_natAbs] at this; omega)) b3 b4
  exact C28_complete hn hlim p' hpk ⟨b1, hbody.body⟩ hc hP hbound h6

/-- Signing has no undefined behaviour if sampling has none. -/
theorem signPoly_defined_of {A : Arith ℝ ℂ} (hA : Accurate A) {n : ℕ} (hn : ValidLog n) {f g F G : Mem Int}
    (heq : NtruEq n f g F G) (hfit : FitsFormat n f g F G) (xof : Xof)
    (leaf : LeafSampler ℝ) (fuel hfuel : ℕ) (B0 T : Mem ℂ)
    (hl : ∀ (c : Mem Ff), CanonBelow (2 ^ n) c → ∀ pos e,
      ffSampling A leaf n 0 (signTarget A n (computeMatrixB A n f g F G B0) c).1
        (signTarget A n (computeMatrixB A n f g F G B0) c).2 T (junkC A) (junkC A) pos ≠ some (.error e))
    (stream : ℕ → UInt8) (msg : List UInt8) (sig : Mem UInt8) (pos : ℕ) (e : UB) :
    signPoly A xof leaf fuel hfuel n (computeMatrixB A n f g F G B0) T stream msg sig pos ≠
      some (.error e) := by
  have hn10 : n ≤ 10 := by rcases hn with rfl | rfl <;> norm_num
  have hloop : ∀ (c : Mem Ff) (hcan : CanonBelow (2 ^ n) c) (fuel : ℕ) (sig : Mem UInt8) (pos : ℕ) (e : UB),
      signLoop A leaf n (computeMatrixB A n f g F G B0) T
        (signTarget A n (computeMatrixB A n f g F G B0) c).1
        (signTarget A n (computeMatrixB A n f g F G B0) c).2 fuel sig pos ≠ some (.error e) := by
    intro c hcan fuel
    induction fuel with
    | zero => intro sig pos e h; cases h
    | succ fuel ih =>
      intro sig pos e h
      unfold signLoop at h
      rcases bindO_some h with ⟨u, h, -⟩ | ⟨z, hz, h⟩
      · exact hl c hcan _ _ h
      obtain ⟨l, -, -, -, hround⟩ := C65_round hA hn heq hfit hcan leaf B0 T _ _ pos z hz
      obtain ⟨u0, u1, hu⟩ := roundVec_exists n f g F G c l
      simp only at h
      split at h
      · rename_i hle
        obtain ⟨hnorm, s2, r1, r2⟩ := (hround u0 u1 hu).1 hle
        have hu0 := sqNorm_nonneg (2 ^ n) u0
        have hsq : ∑ i ∈ Finset.range (2 ^ n), s2 i ^ 2 ≤ betaSq n + 1000 := by
          have e1 : sqNorm (2 ^ n) s2 = sqNorm (2 ^ n) u1 := sqNorm_congr r2
          unfold sqNorm at e1 hu0 hnorm
          omega
        obtain ⟨r, hr⟩ := compress_defined_slack hn s2 sig hsq
        rw [r1, bindO_pure, hr, bindO_pure] at h
        split at h
        · cases h
        · exact ih _ _ _ h
      · exact ih _ _ _ h
  intro h
  unfold signPoly at h
  simp only at h
  split at h
  · cases h
  · rename_i c hc
    have hcan : CanonBelow (2 ^ n) c := (C24_hash_point _ _ _ hc).2.1
    rcases bindO_some h with ⟨u, h, -⟩ | ⟨r, -, h⟩
    · exact hloop c hcan _ _ _ _ h
    · cases h

/-- C65, definedness. With rounding errors too, signing has no undefined behaviour of its own: neither the conversion
of coefficients to integers nor the compression can fail, in any round. -/
theorem C65_defined {A : Arith ℝ ℂ} (hA : Accurate A) {n : ℕ} (hn : ValidLog n) {f g F G : Mem Int}
    (heq : NtruEq n f g F G) (hfit : FitsFormat n f g F G) (xof : Xof)
    (leaf : LeafSampler ℝ) (hl : ∀ mu s p e, leaf mu s p ≠ some (.error e)) (fuel hfuel : ℕ) (B0 T : Mem ℂ)
    (stream : ℕ → UInt8) (msg : List UInt8) (sig : Mem UInt8) (pos : ℕ) (e : UB) :
    signPoly A xof leaf fuel hfuel n (computeMatrixB A n f g F G B0) T stream msg sig pos ≠
      some (.error e) := by
  exact signPoly_defined_of hA hn heq hfit xof leaf fuel hfuel B0 T
    (fun _ _ _ _ h => ffSampling_defined A leaf hl _ _ _ _ _ _ _ _ h) stream msg sig pos e

end Falcon
