import Verif.Proofs.Sampling
import Verif.Proofs.Basis
import Verif.Proofs.NtruAlg
import Verif.Props.Verify

/-!
# Signing: the loop for every arithmetic, the vector in exact arithmetic
-/

namespace Falcon

open Finset Polynomial

/-! ### The loop, for every arithmetic -/

theorem compress_frame {n : ℕ} {s : Mem Int} {sig out : Mem UInt8} {b : Bool}
    (h : compressSigE n s sig = .ok (b, out)) (j : ℕ) (hj : j < 41 ∨ sigLen n ≤ j) : out j = sig j := by
  have hl : 666 ≤ sigLen n := sigBytes_ge n
  unfold compressSigE at h
  simp only at h
  cases hd : loopE (1 <<< n) (compressCoeffE (maxSigBuf n) s) (fun _ => 0, 0) with
  | error e => rw [hd] at h; cases h
  | ok r =>
    rw [hd] at h
    simp only [Except.bind] at h
    have h2 := (Prod.mk.inj (Except.ok.inj h)).2
    rw [← h2]
    generalize (if r.2 ≥ 8 * sigLen n - (8 + 320) then (fun _ => 0 : Mem UInt8) else r.1) = w
    have : ∀ m, m ≤ sigLen n - (1 + 40) → loop m (fun j sig => upd sig (41 + j) (w j)) sig j = sig j := by
      intro m
      induction m with
      | zero => intro _; rfl
      | succ m ih =>
        intro hm
        rw [loop_succ, upd_ne _ _ _ _ (by omega), ih (by omega)]
    exact this _ le_rfl

section
variable {R C : Type} (A : Arith R C)

/-- What a finished run of the loop has done in its last round. -/
theorem signLoop_ok (leaf : LeafSampler R) (n : ℕ) (B T t0 t1 : Mem C) : ∀ (fuel : ℕ) (sig sig' : Mem UInt8)
    (pos pos' : ℕ), signLoop A leaf n B T t0 t1 fuel sig pos = some (.ok (sig', pos')) →
    ∃ z sig0 s2 p, ffSampling A leaf n 0 t0 t1 T (junkC A) (junkC A) p = some (.ok z) ∧
      A.le (signNorm A n (signVec A n B t0 t1 z.1 z.2.1).1 (signVec A n B t0 t1 z.1 z.2.1).2)
        (A.lit (beta2 n)) = true ∧
      signRound A n (signVec A n B t0 t1 z.1 z.2.1).2 = .ok s2 ∧
      compressSigE n s2 sig0 = .ok (true, sig') ∧ (∀ j, j < 41 ∨ sigLen n ≤ j → sig0 j = sig j) ∧
      pos' = z.2.2 := by
  intro fuel
  induction fuel with
  | zero => intro sig sig' pos pos' h; cases h
  | succ fuel ih =>
    intro sig sig' pos pos' h
    unfold signLoop at h
    obtain ⟨z, hz, h⟩ := bindO_ok h
    simp only at h
    split at h
    · rename_i hle
      obtain ⟨s2, hs, h⟩ := bindO_ok h
      obtain ⟨r, hr, h⟩ := bindO_ok h
      injection hs with hs
      injection hr with hr
      split at h
      · rename_i hr1
        injection h with h
        injection h with h
        injection h with h1 h2
        exact ⟨z, sig, s2, pos, hz, hle, hs, by rw [hr, ← h1, ← hr1], fun _ _ => rfl, h2.symm⟩
      · obtain ⟨z', sig0, s2', p, e1, e2, e3, e4, e5, e6⟩ := ih r.2 sig' z.2.2 pos' h
        exact ⟨z', sig0, s2', p, e1, e2, e3, e4,
          fun j hj => (e5 j hj).trans (compress_frame (b := r.1) hr j hj), e6⟩
    · exact ih sig sig' z.2.2 pos' h

end

/-! ### The sampled vectors are transforms of integer polynomials -/

theorem merge_int {k : ℕ} (hk : k + 1 ≤ 10) {e0 e1 : Mem ℂ} {c0 c1 : Mem Int} (h0 : IsDftOf k e0 c0)
    (h1 : IsDftOf k e1 c1) :
    IsDftOf (k + 1) (mergeS exactA k e0 e1) (fun i => if i % 2 = 0 then c0 (i / 2) else c1 (i / 2)) := by
  intro j hj
  rw [← mergeS_eq exactA k e0 e1 (junkC exactA) e0 e1 (fun _ _ => rfl) (fun _ _ => rfl) j hj]
  refine merge_dft hk (fun j hj => ?_) (fun j hj => ?_) _ j hj
  · rw [h0 j hj]
    congr 1
    funext i
    show _ = (((if 2 * i % 2 = 0 then c0 (2 * i / 2) else c1 (2 * i / 2)) : ℤ) : ℂ)
    rw [if_pos (by omega), show 2 * i / 2 = i by omega]
    rfl
  · rw [h1 j hj]
    congr 1
    funext i
    show _ = (((if (2 * i + 1) % 2 = 0 then c0 ((2 * i + 1) / 2) else c1 ((2 * i + 1) / 2)) : ℤ) : ℂ)
    rw [if_neg (by omega), show (2 * i + 1) / 2 = i by omega]
    rfl

theorem sample_int {S : Type} (leaf : LeafSampler ℝ S) : ∀ (k level : ℕ) (T : Mem ℂ) (t : FTree ℂ) (t0 t1 : Mem ℂ)
    (pos : S) (z : Mem ℂ × Mem ℂ × S), k ≤ 10 → TRep k level T t →
    sampleTree exactA leaf k t t0 t1 pos = some (.ok z) → ∃ a0 a1 : Mem Int, IsDftOf k z.1 a0 ∧ IsDftOf k z.2.1 a1 := by
  intro k
  induction k with
  | zero =>
    intro level T t t0 t1 pos z _ hr h
    cases t with
    | node _ _ _ => exact hr.elim
    | leaf v =>
      unfold sampleTree at h
      obtain ⟨a, _, h⟩ := bindO_ok h
      obtain ⟨b, _, h⟩ := bindO_ok h
      injection h with h
      injection h with h
      refine ⟨fun _ => a.1, fun _ => b.1, ?_, ?_⟩
      · intro i _
        rw [← h]
        simp [dft, zC, exact_ofInt]
      · intro i _
        rw [← h]
        simp [dft, zC, exact_ofInt]
  | succ k ih =>
    intro level T t t0 t1 pos z hk hr h
    cases t with
    | leaf v => exact hr.elim
    | node l L R =>
      unfold sampleTree at h
      simp only [Nat.add_sub_cancel] at h
      obtain ⟨zr, h1, h⟩ := bindO_ok h
      obtain ⟨zl, h2, h⟩ := bindO_ok h
      injection h with h
      injection h with h
      obtain ⟨c0, c1, e0, e1⟩ := ih _ _ _ _ _ _ _ (by omega) hr.2.2 h1
      obtain ⟨b0, b1, d0, d1⟩ := ih _ _ _ _ _ _ _ (by omega) hr.2.1 h2
      rw [← h]
      exact ⟨_, _, merge_int hk d0 d1, merge_int hk e0 e1⟩

/-! ### Evaluation of integer polynomials at the points -/

/-- The value of an integer polynomial at a point. -/
noncomputable def evC (n j : ℕ) (p : ℤ[X]) : ℂ := (p.map (Int.castRingHom ℂ)).eval (fftPoint n j)

theorem evC_add (n j : ℕ) (p r : ℤ[X]) : evC n j (p + r) = evC n j p + evC n j r := by simp [evC]
theorem evC_sub (n j : ℕ) (p r : ℤ[X]) : evC n j (p - r) = evC n j p - evC n j r := by simp [evC]
theorem evC_mul (n j : ℕ) (p r : ℤ[X]) : evC n j (p * r) = evC n j p * evC n j r := by simp [evC]

theorem evC_poly (n j : ℕ) (a : Mem Int) : evC n j (polyZ (2 ^ n) a) = dft n (zC a) j := by
  rw [dft_poly]
  unfold evC polyZ toPoly zC
  simp [Polynomial.map_sum, eval_finsetSum]

theorem evC_modEq {n : ℕ} (hn : n ≤ 10) {j : ℕ} (hj : j < 2 ^ n) {p r : ℤ[X]} (h : ModEqXN (2 ^ n) p r) :
    evC n j p = evC n j r := by
  obtain ⟨c, hc⟩ := h
  have h := congrArg (evC n j) hc
  rw [evC_sub, evC_mul] at h
  have h0 : evC n j (X ^ 2 ^ n + 1) = 0 := by simp [evC, fftPoint_pow hn j hj]
  rw [h0, zero_mul] at h
  exact sub_eq_zero.mp h

/-- The residue as an array. -/
theorem exists_arr (n : ℕ) (p : ℤ[X]) : ∃ a : Mem Int, ModEqXN (2 ^ n) (polyZ (2 ^ n) a) p := by
  obtain ⟨d, c, hc⟩ := exists_rep (K := ℤ) (n := 2 ^ n) (by positivity) p
  exact ⟨d, -c, by unfold polyZ; linear_combination -hc⟩

/-! ### The vector of signing -/

/-- The integer polynomial of the hashed point. -/
def hashInt (c : Mem Ff) : Mem Int := fun i => ((c i).v.toNat : ℤ)

theorem signTarget_at {n : ℕ} (hn : n ≤ 10) (B : Mem ℂ) (c : Mem Ff) (i : ℕ) (hi : i < 2 ^ n) :
    (signTarget exactA n B c).1 i = dft n (zC (hashInt c)) i * B (3 * 2 ^ n + i) / 12289 ∧
    (signTarget exactA n B c).2 i = -(dft n (zC (hashInt c)) i * B (2 ^ n + i) / 12289) := by
  have hq : exactA.ofReal (exactA.lit 12289) = (12289 : ℂ) := by
    rw [exact_ofReal]
    show (((12289 : ℚ) : ℝ) : ℂ) = _
    push_cast; rfl
  have hc := fft_ofInt hn (hashInt c) (junkC exactA) i hi
  have hmap : ∀ (N : ℕ) (g : ℂ → ℂ) (t : Mem ℂ) (i : ℕ), i < N →
      loop N (fun i t => upd t i (g (t i))) t i = g (t i) := by
    intro N g t i hi
    rw [loop_map, if_pos hi]
  unfold signTarget
  simp only
  rw [hq]
  unfold hashInt at hc ⊢
  constructor
  · rw [one_shiftLeft'] at *
    rw [hmap (2 ^ n) (fun x => exactA.cdiv x 12289) _ i hi, polyMulC_at, if_pos hi, hc]
    rfl
  · rw [one_shiftLeft'] at *
    rw [hmap (2 ^ n) (fun x => exactA.cneg (exactA.cdiv x 12289)) _ i hi, polyMulC_at, if_pos hi, hc]
    rfl

theorem signVec_at (n : ℕ) (B t0 t1 z0 z1 : Mem ℂ) (i : ℕ) (hi : i < 2 ^ n) :
    (signVec exactA n B t0 t1 z0 z1).1 i = (t0 i - z0 i) * B i + (t1 i - z1 i) * B (2 * 2 ^ n + i) ∧
    (signVec exactA n B t0 t1 z0 z1).2 i = (t0 i - z0 i) * B (2 ^ n + i) + (t1 i - z1 i) * B (3 * 2 ^ n + i) := by
  unfold signVec
  simp only [polyAddToC_at, polyMulC_at, polySubC_at, if_pos hi, one_shiftLeft']
  exact ⟨rfl, rfl⟩

/-- The signature vector: transforms of every pair of integer polynomials congruent to u0 = c - a0 g - a1 G and
u1 = a0 f + a1 F. -/
theorem signVec_dft {n : ℕ} (hn : n ≤ 10) {f g F G : Mem Int} (heq : NtruEq n f g F G) (B0 : Mem ℂ) (c : Mem Ff)
    {z0 z1 : Mem ℂ} {a0 a1 u0 u1 : Mem Int} (h0 : IsDftOf n z0 a0) (h1 : IsDftOf n z1 a1)
    (hu0 : ModEqXN (2 ^ n) (polyZ (2 ^ n) u0) (polyZ (2 ^ n) (hashInt c) - polyZ (2 ^ n) a0 * polyZ (2 ^ n) g
        - polyZ (2 ^ n) a1 * polyZ (2 ^ n) G))
    (hu1 : ModEqXN (2 ^ n) (polyZ (2 ^ n) u1)
      (polyZ (2 ^ n) a0 * polyZ (2 ^ n) f + polyZ (2 ^ n) a1 * polyZ (2 ^ n) F)) :
    let B := computeMatrixB exactA n f g F G B0
    let t := signTarget exactA n B c
    IsDftOf n (signVec exactA n B t.1 t.2 z0 z1).1 u0 ∧ IsDftOf n (signVec exactA n B t.1 t.2 z0 z1).2 u1 := by
  intro B t
  refine ⟨?_, ?_⟩
  · intro i hi
    obtain ⟨b0, b1, b2, b3⟩ := basis_exact hn f g F G B0 i hi
    obtain ⟨e0, e1⟩ := signTarget_at hn B c i hi
    have hp := ntru_pt hn heq i hi
    have hu := evC_modEq hn hi hu0
    rw [evC_sub, evC_sub, evC_mul, evC_mul, evC_poly, evC_poly, evC_poly, evC_poly, evC_poly, evC_poly] at hu
    rw [(signVec_at n B t.1 t.2 z0 z1 i hi).1, hu, h0 i hi, h1 i hi]
    show (t.1 i - _) * B i + (t.2 i - _) * B (2 * 2 ^ n + i) = _
    rw [e0, e1]
    rw [show B i = _ from b0, show B (2 ^ n + i) = _ from b1, show B (2 * 2 ^ n + i) = _ from b2,
      show B (3 * 2 ^ n + i) = _ from b3]
    linear_combination (dft n (zC (hashInt c)) i / 12289) * hp
  · intro i hi
    obtain ⟨b0, b1, b2, b3⟩ := basis_exact hn f g F G B0 i hi
    obtain ⟨e0, e1⟩ := signTarget_at hn B c i hi
    have hu := evC_modEq hn hi hu1
    rw [evC_add, evC_mul, evC_mul, evC_poly, evC_poly, evC_poly, evC_poly, evC_poly] at hu
    rw [(signVec_at n B t.1 t.2 z0 z1 i hi).2, hu, h0 i hi, h1 i hi]
    show (t.1 i - _) * B (2 ^ n + i) + (t.2 i - _) * B (3 * 2 ^ n + i) = _
    rw [e0, e1]
    rw [show B (2 ^ n + i) = _ from b1, show B (3 * 2 ^ n + i) = _ from b3]
    ring

theorem signVec_int {n : ℕ} (hn : n ≤ 10) {f g F G : Mem Int} (heq : NtruEq n f g F G) (B0 : Mem ℂ) (c : Mem Ff)
    {z0 z1 : Mem ℂ} {a0 a1 : Mem Int} (h0 : IsDftOf n z0 a0) (h1 : IsDftOf n z1 a1) :
    let B := computeMatrixB exactA n f g F G B0
    let t := signTarget exactA n B c
    ∃ u0 u1 : Mem Int,
      ModEqXN (2 ^ n) (polyZ (2 ^ n) u0) (polyZ (2 ^ n) (hashInt c) - polyZ (2 ^ n) a0 * polyZ (2 ^ n) g
        - polyZ (2 ^ n) a1 * polyZ (2 ^ n) G) ∧
      ModEqXN (2 ^ n) (polyZ (2 ^ n) u1) (polyZ (2 ^ n) a0 * polyZ (2 ^ n) f + polyZ (2 ^ n) a1 * polyZ (2 ^ n) F) ∧
      IsDftOf n (signVec exactA n B t.1 t.2 z0 z1).1 u0 ∧ IsDftOf n (signVec exactA n B t.1 t.2 z0 z1).2 u1 := by
  intro B t
  obtain ⟨u0, hu0⟩ := exists_arr n (polyZ (2 ^ n) (hashInt c) - polyZ (2 ^ n) a0 * polyZ (2 ^ n) g
        - polyZ (2 ^ n) a1 * polyZ (2 ^ n) G)
  obtain ⟨u1, hu1⟩ := exists_arr n (polyZ (2 ^ n) a0 * polyZ (2 ^ n) f + polyZ (2 ^ n) a1 * polyZ (2 ^ n) F)
  exact ⟨u0, u1, hu0, hu1, signVec_dft hn heq B0 c h0 h1 hu0 hu1⟩

theorem normC_int {n : ℕ} (hn : n ≤ 10) {e : Mem ℂ} {a : Mem Int} (h : IsDftOf n e a) :
    sqrdNormC exactA n e = ((sqNorm (2 ^ n) a : ℤ) : ℝ) := by
  rw [sqrdNormC_val, sum_congr rfl fun i hi => by rw [h i (mem_range.mp hi)], parseval hn,
    mul_div_cancel_left₀ _ (by positivity)]
  unfold sqNorm
  push_cast
  apply sum_congr rfl
  intro i _
  unfold zC
  rw [show ((a i : ℤ) : ℂ) = ((a i : ℝ) : ℂ) by push_cast; rfl, Complex.normSq_ofReal]; ring

theorem exact_le (x y : ℝ) : exactA.le x y = true ↔ x ≤ y := by
  show @decide _ (Classical.propDecidable _) = true ↔ _
  rw [decide_eq_true_iff]

theorem beta2_eq {n : ℕ} (hn : ValidLog n) : beta2 n = betaSq n := by
  rcases hn with rfl | rfl <;> rfl

/-- The norm test in exact arithmetic. -/
theorem signNorm_int {n : ℕ} (hn : ValidLog n) {e0 e1 : Mem ℂ} {u0 u1 : Mem Int} (h0 : IsDftOf n e0 u0)
    (h1 : IsDftOf n e1 u1) :
    exactA.le (signNorm exactA n e0 e1) (exactA.lit (beta2 n)) = true ↔
      sqNorm (2 ^ n) u0 + sqNorm (2 ^ n) u1 ≤ betaSq n := by
  have hn10 : n ≤ 10 := by rcases hn with rfl | rfl <;> norm_num
  rw [exact_le]
  unfold signNorm
  show sqrdNormC exactA n e0 + sqrdNormC exactA n e1 ≤ exactA.lit ((beta2 n : ℤ) : ℚ) ↔ _
  rw [normC_int hn10 h0, normC_int hn10 h1, exact_lit_int, beta2_eq hn]
  exact_mod_cast Iff.rfl

theorem coeff_le_norm {n : ℕ} {u0 u1 : Mem Int} (h : sqNorm (2 ^ n) u0 + sqNorm (2 ^ n) u1 ≤ betaSq n)
    (i : ℕ) (hi : i < 2 ^ n) : -8383 ≤ u1 i ∧ u1 i ≤ 8383 := by
  have h1 : u1 i ^ 2 ≤ sqNorm (2 ^ n) u1 :=
    Finset.single_le_sum (f := fun i => u1 i ^ 2) (fun _ _ => sq_nonneg _) (Finset.mem_range.mpr hi)
  have h2 := sqNorm_nonneg (2 ^ n) u0
  have h3 : betaSq n ≤ 70265242 := by unfold betaSq; split <;> norm_num
  constructor <;> nlinarith

/-- Rounding is exact and defined for vectors that pass the norm test. -/
theorem signRound_int {n : ℕ} (hn : n ≤ 10) {e : Mem ℂ} {u : Mem Int} (h : IsDftOf n e u)
    (hu : ∀ i, i < 2 ^ n → -8383 ≤ u i ∧ u i ≤ 8383) :
    ∃ s2, signRound exactA n e = .ok s2 ∧ (∀ i, i < 2 ^ n → s2 i = u i) ∧ ∀ i, 2 ^ n ≤ i → s2 i = 0 := by
  refine ⟨loop (1 <<< n) (fun i m => upd m i (u i)) (fun _ => 0), ?_, ?_, ?_⟩
  · unfold signRound
    simp only
    rw [loopE_fill _ _ u]
    intro i hi
    rw [one_shiftLeft'] at hi
    rw [ifft_dft hn (a := zC u) (fun j hj => h j hj) i hi]
    have : exactA.re (zC u i) = ((u i : ℤ) : ℝ) := by show (zC u i).re = _; simp [zC]
    rw [this]
    have := hu i hi
    exact roundTo_int ⟨by omega, by omega⟩
  · intro i hi
    rw [one_shiftLeft', loop_fill, if_pos hi]
  · intro i hi
    rw [one_shiftLeft', loop_fill, if_neg (by omega)]

end Falcon
