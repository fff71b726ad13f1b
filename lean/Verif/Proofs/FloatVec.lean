import Verif.Proofs.FloatNorm

/-!
# The signature vector computed in floating point
-/

namespace Falcon

open Finset Polynomial

theorem stdRound_near {x : ℝ} {z : ℤ} (h : |x - z| < 1 / 2) : stdRound x = z := by
  rw [abs_lt] at h
  unfold stdRound
  split
  · rw [Int.floor_eq_iff]; constructor <;> linarith
  · have : ⌊-x + 1 / 2⌋ = -z := by
      rw [Int.floor_eq_iff]; constructor <;> push_cast <;> linarith
    rw [this, neg_neg]

section
variable {A : Arith ℝ ℂ} (hA : Accurate A)
include hA

theorem basis_float {n : ℕ} (hn : ValidLog n) {f g F G : Mem Int} (hfit : FitsFormat n f g F G) (Bp : Mem ℂ) :
    let B := computeMatrixB A n f g F G Bp
    NearBas n aK B (fun i => dft n (zC g) i) ∧ NearBas n aK (fun i => B (2 ^ n + i)) (fun i => -dft n (zC f) i) ∧
    NearBas n bK (fun i => B (2 * 2 ^ n + i)) (fun i => dft n (zC G) i) ∧
    NearBas n bK (fun i => B (3 * 2 ^ n + i)) (fun i => -dft n (zC F) i) := by
  intro B
  have hB := (computeMatrixB_at A n f g F G Bp).1
  have lit : ∀ z : ℤ, |z| ≤ 127 → A.ofReal (A.lit z) = (z : ℂ) := by
    intro z hz
    rw [ofReal_eq hA, hA.lit_small z (hz.trans (by norm_num))]
    push_cast; rfl
  have litn : ∀ z : ℤ, |z| ≤ 127 → A.ofReal (A.neg (A.lit z)) = -1 * (z : ℂ) := by
    intro z hz
    rw [ofReal_eq hA, hA.neg, hA.lit_small z (hz.trans (by norm_num))]
    push_cast; ring
  set K : ℤ := if n = 9 then 31 else 15 with hK
  have hK0 : 0 ≤ K := by rw [hK]; split <;> norm_num
  have hK1 : K ≤ 127 := by rw [hK]; split <;> norm_num
  have hKa : (K : ℝ) * 2 ^ n + 200 ≤ aK := by
    rw [hK]; unfold aK
    rcases hn with rfl | rfl <;> norm_num
  have hKb : ((127 : ℤ) : ℝ) * 2 ^ n + 200 ≤ bK := by
    unfold bK
    rcases hn with rfl | rfl <;> norm_num
  have ha2 : aK ≤ 2 ^ 17 := by unfold aK; norm_num
  have hb2 : bK ≤ 2 ^ 17 := le_of_eq rfl
  have key : ∀ (b : ℕ) (hb : b < 4) (a : Mem Int) (d : ℂ) (k : ℤ) (m : ℝ), (d = 1 ∨ d = -1) → 0 ≤ k →
      (k : ℝ) * 2 ^ n + 200 ≤ m → m ≤ 2 ^ 17 → (∀ i, i < 2 ^ n → |a i| ≤ k) →
      (∀ i, i < 2 ^ n → basisCol A f g F G b i = d * zC a i) →
      NearBas n m (fun i => B (b * 2 ^ n + i)) (fun i => d * dft n (zC a) i) := by
    intro b hb a d k m hd h0 hm1 hm2 hk hx
    have h := basis_near hA hn a (basisCol A f g F G b) d hd hk hx hm1 hm2 h0
    intro i hi
    have := h i hi
    show ‖B (b * 2 ^ n + i)‖ ≤ m ∧ _ ∧ ‖B (b * 2 ^ n + i) - _‖ ≤ _
    rw [show B (b * 2 ^ n + i) = _ from hB b i hb hi]
    exact this
  refine ⟨?_, ?_, ?_, ?_⟩
  · have := key 0 (by omega) g 1 K aK (Or.inl rfl) hK0 hKa ha2 (fun i hi => (hfit i hi).2.1)
      (fun i hi => by rw [one_mul]; exact lit _ ((hfit i hi).2.1.trans hK1))
    simpa using this
  · have := key 1 (by omega) f (-1) K aK (Or.inr rfl) hK0 hKa ha2 (fun i hi => (hfit i hi).1)
      (fun i hi => litn _ ((hfit i hi).1.trans hK1))
    simpa using this
  · have := key 2 (by omega) G 1 127 bK (Or.inl rfl) (by norm_num) hKb hb2 (fun i hi => (hfit i hi).2.2.2)
      (fun i hi => by rw [one_mul]; exact lit _ (hfit i hi).2.2.2)
    simpa using this
  · have := key 3 (by omega) F (-1) 127 bK (Or.inr rfl) (by norm_num) hKb hb2 (fun i hi => (hfit i hi).2.2.1)
      (fun i hi => litn _ (hfit i hi).2.2.1)
    simpa using this

theorem signTarget_float {n : ℕ} (hn : ValidLog n) {c : Mem Ff} (hc : CanonBelow (2 ^ n) c) {B b1 b3 : Mem ℂ}
    (hB1 : NearBas n aK (fun i => B (2 ^ n + i)) b1) (hB3 : NearBas n bK (fun i => B (3 * 2 ^ n + i)) b3) :
    let t := signTarget A n B c
    let ch := dft n (zC (hashInt c))
    nC (2 ^ n) (fun i => t.1 i - ch i * b3 i / 12289) ≤ 12 / 5 * kapD * (bK * 2 ^ n) ∧
    nC (2 ^ n) (fun i => ch i * b3 i / 12289) ≤ bK * 2 ^ n ∧
    nC (2 ^ n) (fun i => t.2 i - -(ch i * b1 i / 12289)) ≤ 12 / 5 * kapD * (aK * 2 ^ n) ∧
    nC (2 ^ n) (fun i => -(ch i * b1 i / 12289)) ≤ aK * 2 ^ n := by
  intro t ch
  have hn10 : n ≤ 10 := by rcases hn with rfl | rfl <;> norm_num
  obtain ⟨hs1, hs2⟩ := sqrt2_bounds hn
  have hsN := sqrt2_sq n
  have hq : A.ofReal (A.lit 12289) = (12289 : ℂ) := by
    have := hA.lit_small 12289 (by norm_num)
    rw [ofReal_eq hA]
    push_cast at this
    rw [this]; push_cast; rfl
  have hci : ∀ i, i < 2 ^ n → ‖zC (hashInt c) i‖ ≤ 12288 := by
    intro i hi
    have : (c i).v.toNat < 12289 := hc i hi
    show ‖(((c i).v.toNat : ℤ) : ℂ)‖ ≤ _
    rw [Complex.norm_intCast]
    have h2 : |(((c i).v.toNat : ℤ) : ℝ)| = ((c i).v.toNat : ℝ) := by
      push_cast; exact abs_of_nonneg (by positivity)
    rw [h2]
    exact_mod_cast (by omega : (c i).v.toNat ≤ 12288)
  have hnc : nC (2 ^ n) (zC (hashInt c)) ≤ Real.sqrt 2 ^ n * 12288 := by
    rw [← sqrt_pow2, ← l2_const _ (by norm_num)]
    unfold nC
    refine l2_mono fun i hi => ?_
    rw [abs_of_nonneg (norm_nonneg _)]
    exact hci i hi
  have hch : nC (2 ^ n) ch ≤ 12289 * 2 ^ n := by
    rw [nC_dft hn10]
    have : Real.sqrt 2 ^ n * nC (2 ^ n) (zC (hashInt c)) ≤ Real.sqrt 2 ^ n * (Real.sqrt 2 ^ n * 12288) :=
      mul_le_mul_of_nonneg_left hnc (by linarith)
    rw [← mul_assoc, hsN] at this
    have hp : (0 : ℝ) < 2 ^ n := by positivity
    linarith
  set X := loop (2 ^ n) (fun i m => upd m i (A.ofInt ((c i).v.toNat : Int))) (junkC A) with hX
  have hXi : ∀ i, i < 2 ^ n → X i = zC (hashInt c) i := by
    intro i hi
    have hlt : (c i).v.toNat < 12289 := hc i hi
    rw [hX, loop_fill, if_pos hi]
    have := hA.lit_small ((c i).v.toNat : ℤ) (by
      rw [abs_of_nonneg (by positivity)]
      exact (by omega : ((c i).v.toNat : ℤ) ≤ 12289).trans (by norm_num))
    show A.ofReal (A.lit (((c i).v.toNat : ℤ) : ℚ)) = _
    rw [ofReal_eq hA, this]
    rfl
  have hC : nC (2 ^ n) (fun i => fft A n X i - ch i) ≤ kapD * (12289 * 2 ^ n) := by
    refine (fft_near hA hn10 _ X hXi).trans ?_
    apply mul_le_mul_of_nonneg_left _ kapD_pos.le
    have : Real.sqrt 2 ^ n * (nC (2 ^ n) (zC (hashInt c)) + 1) ≤ Real.sqrt 2 ^ n * (Real.sqrt 2 ^ n * 12288 + 1) :=
      mul_le_mul_of_nonneg_left (by linarith) (by linarith)
    rw [mul_add (Real.sqrt 2 ^ n) (Real.sqrt 2 ^ n * 12288), ← mul_assoc, hsN] at this
    have hp : Real.sqrt 2 ^ n ≤ 2 ^ n := by rw [← hsN]; nlinarith
    linarith
  have hmap : ∀ (g : ℂ → ℂ) (t : Mem ℂ) (i : ℕ), i < 2 ^ n →
      loop (2 ^ n) (fun i t => upd t i (g (t i))) t i = g (t i) := by
    intro g t i hi
    rw [loop_map, if_pos hi]
  have ht1 : ∀ i, i < 2 ^ n → t.1 i = A.cdiv (A.cmul (fft A n X i) (B (3 * 2 ^ n + i))) 12289 := by
    intro i hi
    show (signTarget A n B c).1 i = _
    unfold signTarget
    simp only
    rw [one_shiftLeft', hq, hmap (fun x => A.cdiv x 12289) _ i hi, polyMulC_at, if_pos hi]
    rfl
  have ht2 : ∀ i, i < 2 ^ n → t.2 i = -A.cdiv (A.cmul (fft A n X i) (B (2 ^ n + i))) 12289 := by
    intro i hi
    show (signTarget A n B c).2 i = _
    unfold signTarget
    simp only
    rw [one_shiftLeft', hq, hmap (fun x => A.cneg (A.cdiv x 12289)) _ i hi, polyMulC_at, if_pos hi, hA.cneg]
    rfl
  have hqn : ‖(12289 : ℂ)‖ = 12289 := by
    rw [show (12289 : ℂ) = ((12289 : ℝ) : ℂ) by push_cast; rfl, Complex.norm_real]; norm_num
  have size : ∀ (b : Mem ℂ) (m : ℝ), 0 ≤ m → (∀ i, i < 2 ^ n → ‖b i‖ ≤ m) →
      nC (2 ^ n) (fun i => ch i * b i / 12289) ≤ m * 2 ^ n := by
    intro b m hm hb
    have h := nC_maj1 (N := 2 ^ n) (e := fun i => ch i * b i / 12289) (x := ch) (a := m / 12289) (d := 0)
      (by positivity) le_rfl (fun i hi => by
        rw [norm_div, norm_mul, hqn, add_zero, div_mul_eq_mul_div, mul_comm m]
        exact div_le_div_of_nonneg_right (mul_le_mul_of_nonneg_left (hb i hi) (norm_nonneg _)) (by norm_num))
    rw [mul_zero, add_zero] at h
    refine h.trans ?_
    calc m / 12289 * nC (2 ^ n) ch ≤ m / 12289 * (12289 * 2 ^ n) := mul_le_mul_of_nonneg_left hch (by positivity)
      _ = _ := by ring
  have one_a : (1 : ℝ) ≤ aK := by unfold aK; norm_num
  have one_b : (1 : ℝ) ≤ bK := by unfold bK; norm_num
  refine ⟨?_, size b3 bK (by linarith) (fun i hi => (hB3 i hi).2.1), ?_, ?_⟩
  · exact target_near hA hn one_b hC hch (fun i hi => (hB3 i hi).1) (fun i hi => (hB3 i hi).2.2) ht1
  · have h := target_near hA hn one_a hC hch (fun i hi => (hB1 i hi).1) (fun i hi => (hB1 i hi).2.2)
      (t := fun i => -t.2 i) (fun i hi => by rw [ht2 i hi, neg_neg])
    rw [← nC_neg]
    refine le_trans (le_of_eq (nC_congr fun i _ => ?_)) h
    ring
  · rw [nC_neg]
    exact size b1 aK (by linarith) (fun i hi => (hB1 i hi).2.1)

omit hA in
theorem signVec_float_at (n : ℕ) (B t0 t1 z0 z1 : Mem ℂ) (i : ℕ) (hi : i < 2 ^ n) :
    (signVec A n B t0 t1 z0 z1).1 i = A.cadd (A.cmul (A.csub (t0 i) (z0 i)) (B i))
      (A.cmul (A.csub (t1 i) (z1 i)) (B (2 * 2 ^ n + i))) ∧
    (signVec A n B t0 t1 z0 z1).2 i = A.cadd (A.cmul (A.csub (t0 i) (z0 i)) (B (2 ^ n + i)))
      (A.cmul (A.csub (t1 i) (z1 i)) (B (3 * 2 ^ n + i))) := by
  unfold signVec
  simp only [polyAddToC_at, polyMulC_at, polySubC_at, if_pos hi, one_shiftLeft']
  exact ⟨rfl, rfl⟩

/-- A vector that passed the norm test is close to the transforms of the integer polynomials
c - a0 g - a1 G and a0 f + a1 F. -/
theorem signVec_float_of {n : ℕ} (hn : ValidLog n) {f g F G : Mem Int} (heq : NtruEq n f g F G)
    (hfit : FitsFormat n f g F G) (Bp : Mem ℂ) {c : Mem Ff} (hc : CanonBelow (2 ^ n) c) {z0 z1 : Mem ℂ}
    {a0 a1 u0 u1 : Mem Int} (h0 : NearInt n z0 a0) (h1 : NearInt n z1 a1)
    (m0 : ModEqXN (2 ^ n) (polyZ (2 ^ n) u0) (polyZ (2 ^ n) (hashInt c) - polyZ (2 ^ n) a0 * polyZ (2 ^ n) g
      - polyZ (2 ^ n) a1 * polyZ (2 ^ n) G))
    (m1 : ModEqXN (2 ^ n) (polyZ (2 ^ n) u1) (polyZ (2 ^ n) a0 * polyZ (2 ^ n) f + polyZ (2 ^ n) a1 * polyZ (2 ^ n) F)) :
    let B := computeMatrixB A n f g F G Bp
    let t := signTarget A n B c
    let s := signVec A n B t.1 t.2 z0 z1
    A.le (signNorm A n s.1 s.2) (A.lit (beta2 n)) = true →
      nC (2 ^ n) (fun i => s.1 i - dft n (zC u0) i) ≤ 36 / 5 / 2 ^ 15 * 2 ^ n ∧
      nC (2 ^ n) (fun i => s.2 i - dft n (zC u1) i) ≤ 36 / 5 / 2 ^ 15 * 2 ^ n ∧
      nC (2 ^ n) s.1 ^ 2 + nC (2 ^ n) s.2 ^ 2 ≤ 2 ^ n * (betaSq n + 1 / 100) := by
  intro B t s htest
  have hn10 : n ≤ 10 := by rcases hn with rfl | rfl <;> norm_num
  have hnorm := test_norm hA hn htest
  have hN : (0 : ℝ) < 2 ^ n := by positivity
  have hb : (betaSq n : ℝ) ≤ 70265242 := by
    have : betaSq n ≤ 70265242 := by unfold betaSq; split <;> norm_num
    exact_mod_cast this
  have hnorm' : nC (2 ^ n) s.1 ^ 2 + nC (2 ^ n) s.2 ^ 2 ≤ 2 ^ n * 70270000 :=
    hnorm.trans (mul_le_mul_of_nonneg_left (by linarith) hN.le)
  obtain ⟨B0, B1, B2, B3⟩ := basis_float hA hn hfit Bp
  obtain ⟨T0, T0', T1, T1'⟩ := signTarget_float hA hn hc B1 B3
  have hcore := core hA hn (W0 := fun i => A.csub (t.1 i) (z0 i)) (W1 := fun i => A.csub (t.2 i) (z1 i))
    B0 B1 B2 B3 (fun i hi => by
      have := ntru_pt hn10 heq i hi
      linear_combination this) T0 T0' T1 T1' h0 h1 (fun _ _ => rfl) (fun _ _ => rfl)
    (fun i hi => (signVec_float_at n B t.1 t.2 z0 z1 i hi).1)
    (fun i hi => (signVec_float_at n B t.1 t.2 z0 z1 i hi).2) hnorm'
  obtain ⟨d0, d1⟩ := signVec_dft hn10 heq Bp c (z0 := dft n (zC a0)) (z1 := dft n (zC a1))
    (fun _ _ => rfl) (fun _ _ => rfl) m0 m1
  refine ⟨?_, ?_, hnorm⟩
  · refine le_trans (le_of_eq (nC_congr fun i hi => ?_)) hcore.1
    have e := d0 i hi
    rw [(signVec_at n _ _ _ _ _ i hi).1] at e
    obtain ⟨b0, b1, b2, b3⟩ := basis_exact hn10 f g F G Bp i hi
    obtain ⟨e0, e1⟩ := signTarget_at hn10 (computeMatrixB exactA n f g F G Bp) c i hi
    rw [e0, e1, b0, b1, b2, b3] at e
    rw [← e]
  · refine le_trans (le_of_eq (nC_congr fun i hi => ?_)) hcore.2
    have e := d1 i hi
    rw [(signVec_at n _ _ _ _ _ i hi).2] at e
    obtain ⟨b0, b1, b2, b3⟩ := basis_exact hn10 f g F G Bp i hi
    obtain ⟨e0, e1⟩ := signTarget_at hn10 (computeMatrixB exactA n f g F G Bp) c i hi
    rw [e0, e1, b1, b3] at e
    rw [← e]

omit hA in
/-- The norm of the exact vector. -/
theorem near_sqNorm {n : ℕ} (hn : ValidLog n) {s0 s1 : Mem ℂ} {u0 u1 : Mem Int}
    (d0 : nC (2 ^ n) (fun i => s0 i - dft n (zC u0) i) ≤ 36 / 5 / 2 ^ 15 * 2 ^ n)
    (d1 : nC (2 ^ n) (fun i => s1 i - dft n (zC u1) i) ≤ 36 / 5 / 2 ^ 15 * 2 ^ n)
    (h : nC (2 ^ n) s0 ^ 2 + nC (2 ^ n) s1 ^ 2 ≤ 2 ^ n * (betaSq n + 1 / 100)) :
    sqNorm (2 ^ n) u0 + sqNorm (2 ^ n) u1 ≤ betaSq n + 166 := by
  have hn10 : n ≤ 10 := by rcases hn with rfl | rfl <;> norm_num
  obtain ⟨hs1, hs2⟩ := sqrt2_bounds hn
  have hsN := sqrt2_sq n
  have hb : (betaSq n : ℝ) ≤ 70265242 := by
    have : betaSq n ≤ 70265242 := by unfold betaSq; split <;> norm_num
    exact_mod_cast this
  have l0 : nC (2 ^ n) (dft n (zC u0)) ≤ nC (2 ^ n) s0 + nC (2 ^ n) (fun i => s0 i - dft n (zC u0) i) := by
    rw [nC_sub_comm]; exact nC_le_of
  have l1 : nC (2 ^ n) (dft n (zC u1)) ≤ nC (2 ^ n) s1 + nC (2 ^ n) (fun i => s1 i - dft n (zC u1) i) := by
    rw [nC_sub_comm]; exact nC_le_of
  rw [nC_dft hn10] at l0 l1
  have e : ∀ u : Mem Int, ((sqNorm (2 ^ n) u : ℤ) : ℝ) = nC (2 ^ n) (zC u) ^ 2 := by
    intro u
    rw [nC_zC_sq]; unfold sqNorm; push_cast; rfl
  have goal : nC (2 ^ n) (zC u0) ^ 2 + nC (2 ^ n) (zC u1) ^ 2 < betaSq n + 167 := by
    have p0 := nC_nonneg (2 ^ n) (zC u0)
    have p1 := nC_nonneg (2 ^ n) (zC u1)
    have r0 := nC_nonneg (2 ^ n) s0
    have r1 := nC_nonneg (2 ^ n) s1
    rw [← hsN] at d0 d1 h
    generalize nC (2 ^ n) (zC u0) = x at *
    generalize nC (2 ^ n) (zC u1) = y at *
    generalize nC (2 ^ n) (fun i => s0 i - dft n (zC u0) i) = v at *
    generalize nC (2 ^ n) (fun i => s1 i - dft n (zC u1) i) = w at *
    generalize nC (2 ^ n) s0 = a at *
    generalize nC (2 ^ n) s1 = b at *
    generalize (betaSq n : ℝ) = β at *
    generalize Real.sqrt 2 ^ n = s at *
    clear hsN e
    have hs : 0 < s := by linarith
    -- divide by s
    have hx : x ≤ a / s + 36 / 5 / 2 ^ 15 * 32 := by
      have : s * x ≤ a + 36 / 5 / 2 ^ 15 * (s * 32) := by
        have : 36 / 5 / 2 ^ 15 * (s * s) ≤ 36 / 5 / 2 ^ 15 * (s * 32) := by gcongr
        linarith
      have h2 : a / s + 36 / 5 / 2 ^ 15 * 32 = (a + 36 / 5 / 2 ^ 15 * (s * 32)) / s := by field_simp
      rw [h2, le_div_iff₀ hs]; linarith
    have hy : y ≤ b / s + 36 / 5 / 2 ^ 15 * 32 := by
      have : s * y ≤ b + 36 / 5 / 2 ^ 15 * (s * 32) := by
        have : 36 / 5 / 2 ^ 15 * (s * s) ≤ 36 / 5 / 2 ^ 15 * (s * 32) := by gcongr
        linarith
      have h2 : b / s + 36 / 5 / 2 ^ 15 * 32 = (b + 36 / 5 / 2 ^ 15 * (s * 32)) / s := by field_simp
      rw [h2, le_div_iff₀ hs]; linarith
    have hab : (a / s) ^ 2 + (b / s) ^ 2 ≤ β + 1 / 100 := by
      rw [div_pow, div_pow, ← add_div, div_le_iff₀ (by positivity)]
      linarith
    have ha0 : 0 ≤ a / s := by positivity
    have hb0 : 0 ≤ b / s := by positivity
    generalize a / s = A0 at *
    generalize b / s = B0 at *
    clear d0 d1 h l0 l1
    have hsum : A0 + B0 ≤ 11855 := by
      refine (abs_le_of_sq_le_sq' ?_ (by norm_num)).2
      nlinarith [sq_nonneg (A0 - B0)]
    norm_num at hx hy
    have hx2 : x ^ 2 ≤ (A0 + 9 / 1280) ^ 2 := pow_le_pow_left₀ p0 (by linarith) 2
    have hy2 : y ^ 2 ≤ (B0 + 9 / 1280) ^ 2 := pow_le_pow_left₀ p1 (by linarith) 2
    nlinarith
  rw [← e, ← e] at goal
  have : sqNorm (2 ^ n) u0 + sqNorm (2 ^ n) u1 < betaSq n + 167 := by exact_mod_cast goal
  omega

/-- Rounding recovers the exact coefficients. -/
theorem near_round {n : ℕ} (hn : ValidLog n) {s1 : Mem ℂ} {u1 : Mem Int}
    (d1 : nC (2 ^ n) (fun i => s1 i - dft n (zC u1) i) ≤ 36 / 5 / 2 ^ 15 * 2 ^ n)
    (h : sqNorm (2 ^ n) u1 ≤ 70265242 + 166) :
    ∃ s2, signRound A n s1 = .ok s2 ∧ (∀ i, i < 2 ^ n → s2 i = u1 i) ∧ ∀ i, 2 ^ n ≤ i → s2 i = 0 := by
  have hn10 : n ≤ 10 := by rcases hn with rfl | rfl <;> norm_num
  obtain ⟨hs1, hs2⟩ := sqrt2_bounds hn
  have hsN := sqrt2_sq n
  have hi := ifft_near hA hn10 s1 (zC u1) d1
  have hp : nC (2 ^ n) (zC u1) ≤ 8400 := by
    refine (abs_le_of_sq_le_sq' ?_ (by norm_num)).2
    rw [nC_zC_sq]
    have : (sqNorm (2 ^ n) u1 : ℝ) ≤ 70265242 + 166 := by exact_mod_cast h
    unfold sqNorm at this
    push_cast at this
    linarith
  have hE : nC (2 ^ n) (fun i => ifft A n s1 i - zC u1 i) ≤ 1 / 100 := by
    have p0 := nC_nonneg (2 ^ n) (zC u1)
    rw [← hsN] at hi
    generalize nC (2 ^ n) (fun i => ifft A n s1 i - zC u1 i) = E at *
    generalize nC (2 ^ n) (zC u1) = x at *
    generalize Real.sqrt 2 ^ n = s at *
    have hs : 0 < s := by linarith
    have h2 : s * x ≤ s * 8400 := by gcongr
    have h3 : s * s ≤ s * 32 := by gcongr
    have hk : kapD = 1 / 2 ^ 46 := rfl
    rw [hk] at hi
    have : E * s ≤ 1 / 100 * s := by
      generalize s * x = sx at *
      generalize s * s = ss at *
      norm_num at hi
      linarith
    exact le_of_mul_le_mul_right this hs
  have hcoef : ∀ i, i < 2 ^ n → |A.re (ifft A n s1 i) - u1 i| < 1 / 2 := by
    intro i hi
    rw [hA.re]
    have h1 := nC_ge (a := fun i => ifft A n s1 i - zC u1 i) hi
    have h2 := Complex.abs_re_le_norm (ifft A n s1 i - zC u1 i)
    rw [Complex.sub_re] at h2
    have h3 : (zC u1 i).re = (u1 i : ℝ) := by simp [zC]
    rw [h3] at h2
    exact lt_of_le_of_lt (h2.trans (h1.trans hE)) (by norm_num)
  have hrange : ∀ i, i < 2 ^ n → -8400 ≤ u1 i ∧ u1 i ≤ 8400 := by
    intro i hi
    have h1 : u1 i ^ 2 ≤ sqNorm (2 ^ n) u1 :=
      Finset.single_le_sum (f := fun i => u1 i ^ 2) (fun _ _ => sq_nonneg _) (Finset.mem_range.mpr hi)
    constructor <;> nlinarith
  refine ⟨loop (1 <<< n) (fun i m => upd m i (u1 i)) (fun _ => 0), ?_, ?_, ?_⟩
  · unfold signRound
    simp only
    rw [loopE_fill _ _ u1]
    intro i hi
    rw [one_shiftLeft'] at hi
    rw [hA.roundTo]
    unfold exactRoundTo
    rw [stdRound_near (hcoef i hi), if_pos]
    have := hrange i hi
    constructor <;> omega
  · intro i hi
    rw [one_shiftLeft', loop_fill, if_pos hi]
  · intro i hi
    rw [one_shiftLeft', loop_fill, if_neg (by omega)]

end

end Falcon
