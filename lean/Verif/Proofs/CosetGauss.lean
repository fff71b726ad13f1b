import Verif.Proofs.SampleDist
import Verif.Proofs.Coset
import Verif.Props.Spherical
import Verif.Props.FloatSign

/-! # Answers of the integer sampler and preimages of the hashed point -/

namespace Falcon

open Polynomial

/-! ## Tapes and coefficients -/

theorem exists_tape_mem : ∀ (k : ℕ) (a0 a1 : Mem Int), ∃ v : ℕ → ℤ, ∀ i, i < 2 ^ k → v (callIdx0 k i) = a0 i ∧ v (callIdx1 k i) = a1 i := by
  intro k
  induction k with
  | zero =>
    intro a0 a1
    refine ⟨fun j => if j = 0 then a0 0 else a1 0, fun i hi => ?_⟩
    have : i = 0 := by simpa using hi
    subst this
    simp [callIdx0, callIdx1]
  | succ k ih =>
    intro a0 a1
    obtain ⟨w0, h0⟩ := ih (fun i => a0 (2 * i)) (fun i => a0 (2 * i + 1))
    obtain ⟨w1, h1⟩ := ih (fun i => a1 (2 * i)) (fun i => a1 (2 * i + 1))
    refine ⟨fun j => if j < 2 ^ (k + 1) then w1 j else w0 (j - 2 ^ (k + 1)), fun i hi => ?_⟩
    have hi2 : i / 2 < 2 ^ k := by rw [pow_succ] at hi; omega
    obtain ⟨b0, b1, -⟩ := callIdx_bound k (i / 2)
    rw [callIdx0, callIdx1]
    have hlt : ∀ x, ¬2 ^ (k + 1) + x < 2 ^ (k + 1) := fun x => by omega
    constructor
    · simp only [hlt, if_false, Nat.add_sub_cancel_left]
      by_cases hp : i % 2 = 0
      · rw [if_pos hp, (h0 _ hi2).1]; congr 1; omega
      · rw [if_neg hp, (h0 _ hi2).2]; congr 1; omega
    · by_cases hp : i % 2 = 0
      · simp only [if_pos hp, if_pos b0, (h1 _ hi2).1]; congr 1; omega
      · simp only [if_neg hp, if_pos b1, (h1 _ hi2).2]; congr 1; omega

theorem tapeOf_lt {d : ℕ} (v : Fin d → ℤ) {i : ℕ} (hi : i < d) : tapeOf v i = v ⟨i, hi⟩ := dif_pos hi

theorem tapeOf_restrict {d : ℕ} (w : ℕ → ℤ) {i : ℕ} (hi : i < d) : tapeOf (fun i : Fin d => w i) i = w i := dif_pos hi

theorem exists_tape (k : ℕ) (a0 a1 : Mem Int) : ∃ v : Fin (2 ^ (k + 1)) → ℤ, ∀ i, i < 2 ^ k →
    tapeOf v (callIdx0 k i) = a0 i ∧ tapeOf v (callIdx1 k i) = a1 i := by
  obtain ⟨w, hw⟩ := exists_tape_mem k a0 a1
  refine ⟨fun i => w i, fun i hi => ?_⟩
  obtain ⟨b0, b1, -⟩ := callIdx_bound k i
  rw [tapeOf_restrict w b0, tapeOf_restrict w b1]
  exact hw i hi

theorem tape_ext {k : ℕ} {v v' : Fin (2 ^ (k + 1)) → ℤ} (h : ∀ i, i < 2 ^ k → tapeOf v (callIdx0 k i) = tapeOf v' (callIdx0 k i) ∧
    tapeOf v (callIdx1 k i) = tapeOf v' (callIdx1 k i)) : v = v' := by
  funext j
  obtain ⟨i, hi, hj⟩ := C48_all_used k j.1 j.2
  have e : ∀ w : Fin (2 ^ (k + 1)) → ℤ, tapeOf w j.1 = w j := fun w => tapeOf_lt w j.2
  rw [← e v, ← e v']
  rcases hj with hj | hj
  · rw [← hj]; exact (h i hi).1
  · rw [← hj]; exact (h i hi).2

theorem walk_z {α : Type} (P : OTree α) (v : ℕ → ℤ) (p j : ℕ) (hj : j < (P.walk v p).2.length) :
    ((P.walk v p).2.map Call.z).getD j 0 = v (p + j) := by
  induction P generalizing p j with
  | ret a => simp [OTree.walk] at hj
  | call mu sigma k ih =>
    simp only [OTree.walk, List.length_cons] at hj ⊢
    cases j with
    | zero => simp
    | succ j =>
      rw [List.map_cons, List.getD_cons_succ, ih _ _ _ (by omega)]
      congr 1
      omega

/-! ## The lattice -/

theorem lift_modEq {N : ℕ} {p r : ℤ[X]} (h : ModEqXN N (p.map (Int.castRingHom Zq)) (r.map (Int.castRingHom Zq))) :
    ∃ k : ℤ[X], ModEqXN N p (r + 12289 * k) := by
  obtain ⟨c, hc⟩ := h
  have hsurj : Function.Surjective (Int.castRingHom Zq) := ZMod.intCast_surjective
  obtain ⟨c', rfl⟩ := Polynomial.map_surjective _ hsurj c
  have e : (p - r - (X ^ N + 1) * c').map (Int.castRingHom Zq) = 0 := by
    simp only [Polynomial.map_sub, Polynomial.map_mul, Polynomial.map_add, Polynomial.map_pow, map_X, Polynomial.map_one]
    linear_combination hc
  have hd : (12289 : ℤ[X]) ∣ p - r - (X ^ N + 1) * c' := by
    rw [show (12289 : ℤ[X]) = C 12289 from rfl, Polynomial.C_dvd_iff_dvd_coeff]
    intro i
    have := congrArg (fun p => p.coeff i) e
    simp only [coeff_map, coeff_zero] at this
    exact (ZMod.intCast_zmod_eq_zero_iff_dvd _ 12289).mp this
  obtain ⟨s, hs⟩ := hd
  exact ⟨s, c', by linear_combination hs⟩

/-- Every preimage of the hashed point is (c, 0) minus an integer combination of the basis. -/
theorem coset_solve {n : ℕ} (hn : n ≤ 10) {f g F G u0 u1 : Mem Int} {h c : Mem Ff} (heq : NtruEq n f g F G)
    (hh : ModEqXN (2 ^ n) (polyZq (2 ^ n) h * polyInt (2 ^ n) f) (polyInt (2 ^ n) g))
    (hinv : ∃ r, ModEqXN (2 ^ n) (polyInt (2 ^ n) f * r) 1) (hP : Preimage (2 ^ n) h c u0 u1) :
    ∃ x0 x1 : Mem Int, ∀ j, j < 2 ^ n →
      dft n (zC u0) j = dft n (zC (hashInt c)) j - dft n (zC x0) j * dft n (zC g) j - dft n (zC x1) j * dft n (zC G) j ∧
      dft n (zC u1) j = dft n (zC x0) j * dft n (zC f) j + dft n (zC x1) j * dft n (zC F) j := by
  obtain ⟨r, s, hrs⟩ := lift_inv hinv
  have e1 : ModEqXN (2 ^ n) ((polyZ (2 ^ n) u0 + polyZ (2 ^ n) u1 * polyZ (2 ^ n) (hashInt h)).map (Int.castRingHom Zq))
      ((polyZ (2 ^ n) (hashInt c)).map (Int.castRingHom Zq)) := by
    simp only [Polynomial.map_add, Polynomial.map_mul, ← polyInt_map, polyZq_hash]
    exact hP
  have e2 : ModEqXN (2 ^ n) ((polyZ (2 ^ n) (hashInt h) * polyZ (2 ^ n) f).map (Int.castRingHom Zq))
      ((polyZ (2 ^ n) g).map (Int.castRingHom Zq)) := by
    simp only [Polynomial.map_mul, ← polyInt_map, polyZq_hash]
    exact hh
  obtain ⟨k, hk⟩ := lift_modEq e1
  obtain ⟨l, hl⟩ := lift_modEq e2
  obtain ⟨x1, hx1⟩ := exists_arr n (polyZ (2 ^ n) u1 * l - k * polyZ (2 ^ n) f)
  obtain ⟨x0, hx0⟩ := exists_arr n (r * (polyZ (2 ^ n) u1 - polyZ (2 ^ n) F * (polyZ (2 ^ n) u1 * l - k * polyZ (2 ^ n) f))
    - s * (polyZ (2 ^ n) G * polyZ (2 ^ n) u1 - polyZ (2 ^ n) F * (polyZ (2 ^ n) (hashInt c) - polyZ (2 ^ n) u0)))
  refine ⟨x0, x1, fun j hj => ?_⟩
  have a1 := evC_modEq hn hj heq
  have a2 := evC_modEq hn hj hrs
  have a3 := evC_modEq hn hj hk
  have a4 := evC_modEq hn hj hl
  have a5 := evC_modEq hn hj hx1
  have a6 := evC_modEq hn hj hx0
  have one : evC n j 1 = 1 := by simp [evC]
  have q : evC n j 12289 = 12289 := by simp [evC]
  simp only [evC_sub, evC_mul, evC_add, evC_poly, one, q] at a1 a2 a3 a4 a5 a6
  generalize dft n (zC f) j = f at *
  generalize dft n (zC g) j = g at *
  generalize dft n (zC F) j = F at *
  generalize dft n (zC G) j = G at *
  generalize dft n (zC u0) j = u0 at *
  generalize dft n (zC u1) j = u1 at *
  generalize dft n (zC x0) j = x0 at *
  generalize dft n (zC x1) j = x1 at *
  generalize dft n (zC (hashInt c)) j = c at *
  generalize dft n (zC (hashInt h)) j = h at *
  generalize evC n j r = r at *
  generalize evC n j s = s at *
  generalize evC n j k = k at *
  generalize evC n j l = l at *
  have hq : (12289 : ℂ) ≠ 0 := by norm_num
  have b1 : 12289 * x1 = f * (c - u0) - g * u1 := by
    rw [a5]
    linear_combination f * a3 - u1 * a4
  have b0 : 12289 * x0 = G * u1 - F * (c - u0) := by
    rw [← a5] at a6
    rw [a6]
    linear_combination (G * u1 - F * (c - u0)) * a2 - r * u1 * a1 - r * F * b1
  constructor
  · apply mul_left_cancel₀ hq
    linear_combination g * b0 + G * b1 + (c - u0) * a1
  · apply mul_left_cancel₀ hq
    linear_combination -(f * b0) - F * b1 - u1 * a1

theorem zC_congr_dft {n : ℕ} {a b : Mem Int} (h : ∀ i, i < 2 ^ n → a i = b i) (j : ℕ) : dft n (zC a) j = dft n (zC b) j := by
  unfold dft
  refine Finset.sum_congr rfl fun i hi => ?_
  unfold zC
  rw [h i (Finset.mem_range.mp hi)]

theorem zC_inj {n : ℕ} (hn : n ≤ 10) {a b : Mem Int} (h : ∀ j, j < 2 ^ n → dft n (zC a) j = dft n (zC b) j) (i : ℕ)
    (hi : i < 2 ^ n) : a i = b i := by
  have := dft_inj hn h i hi
  unfold zC at this
  exact_mod_cast this

theorem preimage_congr {n : ℕ} {h c : Mem Ff} {u0 u1 w0 w1 : Mem Int} (h0 : ∀ i, i < 2 ^ n → u0 i = w0 i)
    (h1 : ∀ i, i < 2 ^ n → u1 i = w1 i) (hP : Preimage (2 ^ n) h c u0 u1) : Preimage (2 ^ n) h c w0 w1 := by
  unfold Preimage at hP ⊢
  have e : ∀ {a b : Mem Int}, (∀ i, i < 2 ^ n → a i = b i) → polyInt (2 ^ n) a = polyInt (2 ^ n) b := fun hab =>
    toPoly_congr fun i hi => by rw [hab i hi]
  rw [← e h0, ← e h1]
  exact hP

/-- The answers of the integer sampler are in bijection with the preimages of the hashed point. -/
theorem exists_phi {n : ℕ} (hn : n ≤ 10) {f g F G : Mem Int} {h : Mem Ff} (heq : NtruEq n f g F G)
    (hh : ModEqXN (2 ^ n) (polyZq (2 ^ n) h * polyInt (2 ^ n) f) (polyInt (2 ^ n) g))
    (hinv : ∃ r, ModEqXN (2 ^ n) (polyInt (2 ^ n) f * r) 1) (B0 : Mem ℂ) (c : Mem Ff) :
    let B := computeMatrixB exactA n f g F G B0
    let t := signTarget exactA n B c
    ∃ φ : (Fin (2 ^ (n + 1)) → ℤ) → PairZ n, Function.Injective φ ∧ (∀ s, s ∈ Set.range φ ↔ InCoset n h c s) ∧
      ∀ v z0 z1, IsDftOf n z0 (fun i => tapeOf v (callIdx0 n i)) → IsDftOf n z1 (fun i => tapeOf v (callIdx1 n i)) →
        IsDftOf n (signVec exactA n B t.1 t.2 z0 z1).1 (tapeOf (φ v).1) ∧
        IsDftOf n (signVec exactA n B t.1 t.2 z0 z1).2 (tapeOf (φ v).2) := by
  intro B t
  have ex0 := fun v : Fin (2 ^ (n + 1)) → ℤ => exists_arr n (polyZ (2 ^ n) (hashInt c)
    - polyZ (2 ^ n) (fun i => tapeOf v (callIdx0 n i)) * polyZ (2 ^ n) g - polyZ (2 ^ n) (fun i => tapeOf v (callIdx1 n i)) * polyZ (2 ^ n) G)
  have ex1 := fun v : Fin (2 ^ (n + 1)) → ℤ => exists_arr n (polyZ (2 ^ n) (fun i => tapeOf v (callIdx0 n i)) * polyZ (2 ^ n) f
    + polyZ (2 ^ n) (fun i => tapeOf v (callIdx1 n i)) * polyZ (2 ^ n) F)
  choose u0 hu0 using ex0
  choose u1 hu1 using ex1
  have hres : ∀ (w : Mem Int) i, i < 2 ^ n → w i = tapeOf (fun i : Fin (2 ^ n) => w i) i := fun w i hi => (tapeOf_restrict w hi).symm
  refine ⟨fun v => (fun i => u0 v i, fun i => u1 v i), ?_, ?_, ?_⟩
  · intro v v' hv
    obtain ⟨p0, p1⟩ := Prod.mk.inj hv
    have q0 : ∀ i, i < 2 ^ n → u0 v i = u0 v' i := fun i hi => congrFun p0 ⟨i, hi⟩
    have q1 : ∀ i, i < 2 ^ n → u1 v i = u1 v' i := fun i hi => congrFun p1 ⟨i, hi⟩
    have key : ∀ j, j < 2 ^ n → dft n (zC fun i => tapeOf v (callIdx0 n i)) j = dft n (zC fun i => tapeOf v' (callIdx0 n i)) j ∧
        dft n (zC fun i => tapeOf v (callIdx1 n i)) j = dft n (zC fun i => tapeOf v' (callIdx1 n i)) j := by
      intro j hj
      have a1 := evC_modEq hn hj heq
      have a2 := evC_modEq hn hj (hu0 v)
      have a3 := evC_modEq hn hj (hu0 v')
      have a4 := evC_modEq hn hj (hu1 v)
      have a5 := evC_modEq hn hj (hu1 v')
      have q : evC n j 12289 = 12289 := by simp [evC]
      simp only [evC_sub, evC_mul, evC_add, evC_poly, q] at a1 a2 a3 a4 a5
      rw [zC_congr_dft q0] at a2
      rw [zC_congr_dft q1] at a4
      have hq : (12289 : ℂ) ≠ 0 := by norm_num
      generalize dft n (zC fun i => tapeOf v (callIdx0 n i)) j = x0 at *
      generalize dft n (zC fun i => tapeOf v (callIdx1 n i)) j = x1 at *
      generalize dft n (zC fun i => tapeOf v' (callIdx0 n i)) j = y0 at *
      generalize dft n (zC fun i => tapeOf v' (callIdx1 n i)) j = y1 at *
      generalize dft n (zC f) j = f at *
      generalize dft n (zC g) j = g at *
      generalize dft n (zC F) j = F at *
      generalize dft n (zC G) j = G at *
      constructor
      · apply mul_left_cancel₀ hq
        linear_combination -(x0 - y0) * a1 - G * (a4 - a5) - F * (a2 - a3)
      · apply mul_left_cancel₀ hq
        linear_combination -(x1 - y1) * a1 + f * (a2 - a3) + g * (a4 - a5)
    exact tape_ext fun i hi => ⟨zC_inj hn (fun j hj => (key j hj).1) i hi, zC_inj hn (fun j hj => (key j hj).2) i hi⟩
  · intro s
    constructor
    · rintro ⟨v, rfl⟩
      exact preimage_congr (hres _) (hres _) (preimage_of_basis heq hh hinv (hu0 v) (hu1 v))
    · intro hs
      obtain ⟨x0, x1, hx⟩ := coset_solve hn heq hh hinv hs
      obtain ⟨v, hv⟩ := exists_tape n x0 x1
      refine ⟨v, Prod.ext ?_ ?_⟩
      · funext i
        have e : ∀ j, j < 2 ^ n → dft n (zC (u0 v)) j = dft n (zC (tapeOf s.1)) j := by
          intro j hj
          have a2 := evC_modEq hn hj (hu0 v)
          simp only [evC_sub, evC_mul, evC_poly] at a2
          rw [a2, (hx j hj).1, zC_congr_dft fun i hi => (hv i hi).1, zC_congr_dft fun i hi => (hv i hi).2]
        have := zC_inj hn e i.1 i.2
        rw [tapeOf_lt _ i.2] at this
        exact this
      · funext i
        have e : ∀ j, j < 2 ^ n → dft n (zC (u1 v)) j = dft n (zC (tapeOf s.2)) j := by
          intro j hj
          have a2 := evC_modEq hn hj (hu1 v)
          simp only [evC_add, evC_mul, evC_poly] at a2
          rw [a2, (hx j hj).2, zC_congr_dft fun i hi => (hv i hi).1, zC_congr_dft fun i hi => (hv i hi).2]
        have := zC_inj hn e i.1 i.2
        rw [tapeOf_lt _ i.2] at this
        exact this
  · intro v z0 z1 h0 h1
    obtain ⟨d0, d1⟩ := signVec_dft hn heq B0 c h0 h1 (hu0 v) (hu1 v)
    exact ⟨fun i hi => (d0 i hi).trans (zC_congr_dft (hres _) i), fun i hi => (d1 i hi).trans (zC_congr_dft (hres _) i)⟩

end Falcon
