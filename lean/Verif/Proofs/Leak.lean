import Verif.Proofs.SignBound
import Verif.Proofs.Draws
import Verif.Proofs.TreeExact
import Verif.LeakSpec

/-!
# The first two calls of the integer sampler in one round of signing
-/

namespace Falcon

open Finset

/-- The centre of the first call: it does not depend on anything drawn. -/
noncomputable def firstC (A : Arith ℝ ℂ) : ℕ → Mem ℂ → Mem ℂ → ℂ
  | 0, t0, _ => t0 0
  | k + 1, _, t1 => firstC A k (splitS A k t1).1 (splitS A k t1).2

/-- The centre of the second call. -/
noncomputable def secondC (A : Arith ℝ ℂ) : ℕ → Mem ℂ → Mem ℂ → ℂ
  | 0, _, t1 => t1 0
  | k + 1, _, t1 => secondC A k (splitS A k t1).1 (splitS A k t1).2

/-- The first two calls, with a record. -/
theorem sample_first {S : Type} (A : Arith ℝ ℂ) (leaf : LeafSampler ℝ S) : ∀ (k level : ℕ) (T : Mem ℂ) (t : FTree ℂ) (t0 t1 : Mem ℂ)
    (s : S) (l0 : List Call) (w : Mem ℂ × Mem ℂ × S × List Call), k ≤ 10 → TRep k level T t →
    sampleTree A (logged leaf) k t t0 t1 (s, l0) = some (.ok w) →
    ∃ (sg : ℝ) (y0 y1 : ℤ) (l1 : List Call), (∃ v ∈ t.leaves, sg = A.re v) ∧
      w.2.2.2 = l0 ++ ⟨A.re (firstC A k t0 t1), sg, y0⟩ :: ⟨A.re (secondC A k t0 t1), sg, y1⟩ :: l1 := by
  intro k
  induction k with
  | zero =>
    intro level T t t0 t1 s l0 w _ hr h
    cases t with
    | node _ _ _ => exact hr.elim
    | leaf v =>
      unfold sampleTree at h
      obtain ⟨a, h1, h⟩ := bindO_ok h
      obtain ⟨b, h2, h⟩ := bindO_ok h
      have h := Except.ok.inj (Option.some.inj h)
      unfold logged at h1 h2
      obtain ⟨a', -, h1⟩ := bindO_ok h1
      obtain ⟨b', -, h2⟩ := bindO_ok h2
      have h1 := Except.ok.inj (Option.some.inj h1)
      have h2 := Except.ok.inj (Option.some.inj h2)
      subst h1
      subst h2
      subst h
      refine ⟨A.re v, a'.1, b'.1, [], ⟨v, by simp [FTree.leaves], rfl⟩, ?_⟩
      simp [firstC, secondC]
  | succ k ih =>
    intro level T t t0 t1 s l0 w hk hr h
    cases t with
    | leaf v => exact hr.elim
    | node l L R =>
      unfold sampleTree at h
      simp only [Nat.add_sub_cancel] at h
      obtain ⟨zr, h1, h⟩ := bindO_ok h
      obtain ⟨zl, h2, h⟩ := bindO_ok h
      have h := Except.ok.inj (Option.some.inj h)
      subst h
      obtain ⟨sg, y0, y1, l1, ⟨v, hv, hsg⟩, e1⟩ := ih _ _ _ _ _ _ _ _ (by omega) hr.2.2 h1
      obtain ⟨ll, c2, -⟩ := draws_rel A (fun _ _ _ => True) (fun _ => trivial) (fun _ _ _ _ _ _ _ _ => trivial) (logged leaf) k _ _ _ _ _ _ _
        (by omega) hr.2.1 h2
      refine ⟨sg, y0, y1, l1 ++ ll, ⟨v, by simp only [FTree.leaves, List.mem_append]; exact Or.inr hv, hsg⟩, ?_⟩
      show zl.2.2.2 = _
      rw [c2.log.1, e1]
      simp [firstC, secondC]

/-! ### The centres are near to coefficients of the target -/

/-- The halves of a transform. -/
theorem spE_dftC {k : ℕ} (hk : k + 1 ≤ 10) (a : Mem ℂ) (i : ℕ) (hi : i < 2 ^ k) :
    spE (dft (k + 1) a) i = dft k (fun j => a (2 * j)) i := by
  unfold spE
  rw [dft_even hk _ i hi, dft_odd hk _ i hi]
  ring

theorem spO_dftC {k : ℕ} (hk : k + 1 ≤ 10) (a : Mem ℂ) (i : ℕ) (hi : i < 2 ^ k) :
    spO k (dft (k + 1) a) i = dft k (fun j => a (2 * j + 1)) i := by
  unfold spO
  rw [dft_even hk _ i hi, dft_odd hk _ i hi]
  have := cT_conj (2 ^ k + i)
  linear_combination dft k (fun j => a (2 * j + 1)) i * this

theorem rms_spE (k : ℕ) (t : Mem ℂ) : rms k (spE t) ≤ rms (k + 1) t :=
  (abs_le_of_sq_le_sq' (by nlinarith [sq_nonneg (rms k (spO k t)), rms_split k t]) (rms_nonneg _ _)).2

theorem rms_spO (k : ℕ) (t : Mem ℂ) : rms k (spO k t) ≤ rms (k + 1) t :=
  (abs_le_of_sq_le_sq' (by nlinarith [sq_nonneg (rms k (spE t)), rms_split k t]) (rms_nonneg _ _)).2

section
variable {A : Arith ℝ ℂ} (hA : Accurate A)
include hA

theorem split_near {k : ℕ} (hk : k + 1 ≤ 10) {t a : Mem ℂ} {e : ℝ} (he : e ≤ 1) (h : rms (k + 1) (fun i => t i - dft (k + 1) a i) ≤ e)
    (hm : rms (k + 1) (dft (k + 1) a) ≤ 2 ^ 20) :
    rms k (fun i => (splitS A k t).1 i - dft k (fun j => a (2 * j)) i) ≤ e + 1 / 2 ^ 27 ∧
    rms k (fun i => (splitS A k t).2 i - dft k (fun j => a (2 * j + 1)) i) ≤ e + 1 / 2 ^ 27 ∧
    rms k (dft k (fun j => a (2 * j))) ≤ 2 ^ 20 ∧ rms k (dft k (fun j => a (2 * j + 1))) ≤ 2 ^ 20 := by
  have ht : rms (k + 1) t ≤ 2 ^ 20 + 1 := by
    have := rms_tri (k + 1) t (dft (k + 1) a)
    linarith
  have h1 := spE_err hA k t
  have h2 := spO_err hA hk t
  have b1 := (rms_spE k t).trans ht
  have b2 := (rms_spO k t).trans ht
  have c1 : rms k (fun i => spE t i - dft k (fun j => a (2 * j)) i) ≤ e := by
    refine le_trans (le_of_eq ?_) ((rms_spE k fun i => t i - dft (k + 1) a i).trans h)
    refine rms_congr fun i hi => ?_
    rw [← spE_dftC hk a i hi]
    unfold spE
    ring
  have c2 : rms k (fun i => spO k t i - dft k (fun j => a (2 * j + 1)) i) ≤ e := by
    refine le_trans (le_of_eq ?_) ((rms_spO k fun i => t i - dft (k + 1) a i).trans h)
    refine rms_congr fun i hi => ?_
    rw [← spO_dftC hk a i hi]
    unfold spO
    ring
  have d1 := rms_add k (fun i => (splitS A k t).1 i - spE t i) (fun i => spE t i - dft k (fun j => a (2 * j)) i)
  have d2 := rms_add k (fun i => (splitS A k t).2 i - spO k t i) (fun i => spO k t i - dft k (fun j => a (2 * j + 1)) i)
  simp only [sub_add_sub_cancel] at d1 d2
  refine ⟨?_, ?_, ?_, ?_⟩
  · clear * - d1 c1 h1 b1
    rw [show uD = 1 / 2 ^ 53 from rfl, show tinyD = 1 / 2 ^ 100 from rfl] at *
    norm_num at *
    linarith
  · clear * - d2 c2 h2 b2
    rw [show uD = 1 / 2 ^ 53 from rfl, show tinyD = 1 / 2 ^ 100 from rfl] at *
    norm_num at *
    linarith
  · exact (le_of_eq (rms_congr fun i hi => (spE_dftC hk a i hi).symm)).trans ((rms_spE _ _).trans hm)
  · exact (le_of_eq (rms_congr fun i hi => (spO_dftC hk a i hi).symm)).trans ((rms_spO _ _).trans hm)

/-- The centre of the first call is near to the first coefficient of the first target (k = 0) or the middle coefficient of the second, the centre
of the second call to the last coefficient of the second target. -/
theorem first_near : ∀ (k : ℕ) (t0 t1 a0 a1 : Mem ℂ) (e : ℝ), k ≤ 10 → e + k / 2 ^ 27 ≤ 1 → (k = 0 → rms k (fun i => t0 i - dft k a0 i) ≤ e) →
    rms k (fun i => t1 i - dft k a1 i) ≤ e → rms k (dft k a1) ≤ 2 ^ 20 →
    ‖firstC A k t0 t1 - (if k = 0 then a0 0 else a1 (2 ^ (k - 1) - 1))‖ ≤ e + k / 2 ^ 27 ∧
    ‖secondC A k t0 t1 - a1 (2 ^ k - 1)‖ ≤ e + k / 2 ^ 27 := by
  intro k
  induction k with
  | zero =>
    intro t0 t1 a0 a1 e _ _ h0 h1 _
    have h0 := h0 rfl
    rw [rms_zero] at h0 h1
    have d : ∀ a : Mem ℂ, dft 0 a 0 = a 0 := fun a => by simp [dft]
    rw [d] at h0 h1
    simp only [firstC, secondC, Nat.cast_zero, zero_div, add_zero, pow_zero, Nat.sub_self, if_true]
    exact ⟨h0, h1⟩
  | succ k ih =>
    intro t0 t1 a0 a1 e hk he _ h1 hm
    have hk0 : (0 : ℝ) ≤ k / 2 ^ 27 := by positivity
    have hs : (((k + 1 : ℕ) : ℝ)) / 2 ^ 27 = 1 / 2 ^ 27 + k / 2 ^ 27 := by push_cast; ring
    rw [hs] at he ⊢
    obtain ⟨x0, x1, -, m1⟩ := split_near hA hk (by linarith [show (0 : ℝ) < 1 / 2 ^ 27 by positivity]) h1 hm
    obtain ⟨i0, i1⟩ := ih (splitS A k t1).1 (splitS A k t1).2 _ _ (e + 1 / 2 ^ 27) (by omega) (by linarith) (fun _ => x0) x1 m1
    rw [firstC, secondC, ← add_assoc, if_neg (Nat.succ_ne_zero k), Nat.add_sub_cancel]
    constructor
    · refine le_trans (le_of_eq ?_) i0
      congr 2
      by_cases h : k = 0
      · subst h
        rfl
      · rw [if_neg h]
        show _ = a1 (2 * (2 ^ (k - 1) - 1) + 1)
        obtain ⟨j, rfl⟩ : ∃ j, k = j + 1 := ⟨k - 1, by omega⟩
        have := Nat.one_le_two_pow (n := j)
        rw [Nat.add_sub_cancel, pow_succ]
        congr 1
        omega
    · refine le_trans (le_of_eq ?_) i1
      congr 2
      show _ = a1 (2 * (2 ^ k - 1) + 1)
      have := Nat.one_le_two_pow (n := k)
      rw [pow_succ]
      congr 1
      omega

/-- The second target is near to the transform of c f / q. -/
theorem target_second {n : ℕ} (hn : ValidLog n) {f g F G : Mem Int} (hfit : FitsFormat n f g F G) (B0 : Mem ℂ) {c : Mem Ff}
    (hc : CanonBelow (2 ^ n) c) {w : Mem Int} (hw : ModEqXN (2 ^ n) (polyZ (2 ^ n) w) (polyZ (2 ^ n) (hashInt c) * polyZ (2 ^ n) f)) :
    let a : Mem ℂ := fun i => zC w i * (1 / 12289)
    rms n (fun i => (signTarget A n (computeMatrixB A n f g F G B0) c).2 i - dft n a i) ≤ 1 / 2 ^ 22 ∧ rms n (dft n a) ≤ 2 ^ 20 := by
  intro a
  have hn10 : n ≤ 10 := by rcases hn with rfl | rfl <;> norm_num
  obtain ⟨-, b1, -, b3⟩ := basis_float hA hn hfit B0
  obtain ⟨-, -, h3, h4⟩ := signTarget_float hA hn hc b1 b3
  rw [← mul_assoc] at h3
  have r3 := rms_of_nC hn (by unfold kapD aK; positivity) h3
  have r4 := rms_of_nC hn (by unfold aK; positivity) h4
  have ha : ∀ i, i < 2 ^ n → dft n a i = -(dft n (zC (hashInt c)) i * -dft n (zC f) i / 12289) := by
    intro i hi
    have e := evC_modEq hn10 hi hw
    rw [evC_mul, evC_poly, evC_poly, evC_poly] at e
    have e2 : dft n a i = dft n (zC w) i * (1 / 12289) := by
      unfold dft
      rw [sum_mul]
      exact sum_congr rfl fun j _ => by ring
    rw [e2, e]
    ring
  constructor
  · refine (le_of_eq (rms_congr fun i hi => ?_)).trans (r3.trans ?_)
    · rw [ha i hi]
    · unfold kapD aK; norm_num
  · refine (le_of_eq (rms_congr fun i hi => ha i hi)).trans (r4.trans ?_)
    unfold aK; norm_num

/-- The centres of the first two calls of the integer sampler in a round of signing are coefficients of c f / q, up to rounding errors. -/
theorem round_first {S : Type} {n : ℕ} (hn : ValidLog n) {f g F G : Mem Int} (hfit : FitsFormat n f g F G) (B0 : Mem ℂ) {c : Mem Ff}
    (hc : CanonBelow (2 ^ n) c) {w : Mem Int} (hw : ModEqXN (2 ^ n) (polyZ (2 ^ n) w) (polyZ (2 ^ n) (hashInt c) * polyZ (2 ^ n) f))
    (leaf : LeafSampler ℝ S) (T z0 z1 : Mem ℂ) (t : FTree ℂ) (ht : TRep n 0 T t) (s : S) (r : Mem ℂ × Mem ℂ × S × List Call)
    (h : ffSampling A (logged leaf) n 0 (signTarget A n (computeMatrixB A n f g F G B0) c).1
      (signTarget A n (computeMatrixB A n f g F G B0) c).2 T z0 z1 (s, []) = some (.ok r)) :
    ∃ (c0 c1 : Call) (l1 : List Call), r.2.2.2 = c0 :: c1 :: l1 ∧ (∃ v ∈ t.leaves, c0.sigma = A.re v) ∧
      |c0.mu - w (2 ^ (n - 1) - 1) / 12289| ≤ 1 / 2 ^ 20 ∧ |c1.mu - w (2 ^ n - 1) / 12289| ≤ 1 / 2 ^ 20 ∧
      |c0.mu| ≤ 2 ^ 30 ∧ |c1.mu| ≤ 2 ^ 30 := by
  have hn10 : n ≤ 10 := by rcases hn with rfl | rfl <;> norm_num
  have hn0 : n ≠ 0 := by rcases hn with rfl | rfl <;> norm_num
  obtain ⟨q1, q2⟩ := target_second hA hn hfit B0 hc hw
  generalize (signTarget A n (computeMatrixB A n f g F G B0) c).1 = t0 at *
  generalize (signTarget A n (computeMatrixB A n f g F G B0) c).2 = t1 at *
  have hrel := ffSampling_rel A (logged leaf) n 0 t0 t1 T z0 z1 t0 t1 (s, []) _ ht (fun _ _ => rfl) (fun _ _ => rfl)
  rw [h] at hrel
  cases hs : sampleTree A (logged leaf) n t t0 t1 (s, []) with
  | none => rw [hs] at hrel; exact hrel.elim
  | some e =>
    cases e with
    | error e => rw [hs] at hrel; exact hrel.elim
    | ok v =>
      rw [hs] at hrel
      obtain ⟨sg, y0, y1, l1, hsg, hl⟩ := sample_first A leaf n 0 T _ t0 t1 s [] v hn10 ht hs
      have hN : (n : ℝ) ≤ 10 := by exact_mod_cast hn10
      obtain ⟨f0, f1⟩ := first_near hA n t0 t1 (fun _ => 0) _ _ hn10 (by
        have : (n : ℝ) / 2 ^ 27 ≤ 10 / 2 ^ 27 := by gcongr
        norm_num at this ⊢
        linarith) (fun h => (hn0 h).elim) q1 q2
      have hb : (1 : ℝ) / 2 ^ 22 + n / 2 ^ 27 ≤ 1 / 2 ^ 20 := by
        have : (n : ℝ) / 2 ^ 27 ≤ 10 / 2 ^ 27 := by gcongr
        norm_num at this ⊢
        linarith
      rw [if_neg hn0] at f0
      have key : ∀ (x : ℂ) (y : ℤ), ‖x - zC (fun _ => y) 0 * (1 / 12289)‖ ≤ 1 / 2 ^ 22 + n / 2 ^ 27 →
          |A.re x - y / 12289| ≤ 1 / 2 ^ 20 := by
        intro x y hx
        refine le_trans ?_ (hx.trans hb)
        refine le_trans (le_of_eq ?_) (Complex.abs_re_le_norm _)
        rw [hA.re, Complex.sub_re]
        have : (zC (fun _ => y) 0 * (1 / 12289) : ℂ) = (((y : ℝ) / 12289 : ℝ) : ℂ) := by
          unfold zC; push_cast; ring
        rw [this, Complex.ofReal_re]
      have big : ∀ (x : ℂ) (i : ℕ), i < 2 ^ n → ‖x - zC w i * (1 / 12289)‖ ≤ 1 / 2 ^ 22 + n / 2 ^ 27 → |A.re x| ≤ 2 ^ 30 := by
        intro x i hi hx
        have h1 : ‖zC w i * (1 / 12289)‖ ≤ 2 ^ 20 := by
          refine le_trans (nC_ge (a := fun i => zC w i * (1 / 12289)) hi) ?_
          rw [← rms_dft hn10]
          exact q2
        have h2 := norm_le_norm_add_norm_sub' x (zC w i * (1 / 12289))
        have h3 := Complex.abs_re_le_norm x
        rw [hA.re]
        have h4 := hx.trans hb
        generalize zC w i * (1 / 12289) = y at h1 h2 h4
        have h5 : (1 : ℝ) / 2 ^ 20 + 2 ^ 20 ≤ 2 ^ 30 := by norm_num
        linarith
      have hp := Nat.one_lt_two_pow hn0
      have hp' : 2 ^ (n - 1) ≤ 2 ^ n := Nat.pow_le_pow_right (by norm_num) (by omega)
      refine ⟨⟨A.re (firstC A n t0 t1), sg, y0⟩, ⟨A.re (secondC A n t0 t1), sg, y1⟩, l1, ?_, hsg, key _ _ f0, key _ _ f1,
        big _ _ (by omega) f0, big _ _ (by omega) f1⟩
      have := hrel.1
      rw [this, hl, List.nil_append]

end

open Polynomial in
/-- What the vector of a round reveals: s1 f + s2 g = c f - q a1. -/
theorem round_identity {n : ℕ} {f g F G a0 a1 : Mem Int} (heq : NtruEq n f g F G) {c : Mem Ff} {s1 s2 : Mem Int}
    (h0 : ModEqXN (2 ^ n) (polyZ (2 ^ n) s1) (polyZ (2 ^ n) (hashInt c) - polyZ (2 ^ n) a0 * polyZ (2 ^ n) g
        - polyZ (2 ^ n) a1 * polyZ (2 ^ n) G))
    (h1 : ModEqXN (2 ^ n) (polyZ (2 ^ n) s2) (polyZ (2 ^ n) a0 * polyZ (2 ^ n) f + polyZ (2 ^ n) a1 * polyZ (2 ^ n) F)) {w v : Mem Int}
    (hw : ModEqXN (2 ^ n) (polyZ (2 ^ n) w) (polyZ (2 ^ n) (hashInt c) * polyZ (2 ^ n) f))
    (hv : ModEqXN (2 ^ n) (polyZ (2 ^ n) v) (polyZ (2 ^ n) s1 * polyZ (2 ^ n) f + polyZ (2 ^ n) s2 * polyZ (2 ^ n) g)) :
    ∀ i, i < 2 ^ n → v i = w i - 12289 * a1 i := by
  refine modEq_coeff (b := fun i => w i - 12289 * a1 i) (by positivity) ?_
  have e : toPoly (2 ^ n) (fun i => w i - 12289 * a1 i) = polyZ (2 ^ n) w - 12289 * polyZ (2 ^ n) a1 := by
    unfold polyZ toPoly
    rw [mul_sum, ← sum_sub_distrib]
    refine sum_congr rfl fun i _ => ?_
    rw [C_sub, C_mul, show (C (12289 : ℤ) : ℤ[X]) = 12289 from rfl]
    ring
  rw [e]
  change ModEqXN (2 ^ n) (polyZ (2 ^ n) v) _
  unfold NtruEq at heq
  rw [modEq_iff] at *
  simp only [map_mul, map_sub, map_add] at *
  rw [hv, h0, h1, hw]
  linear_combination -(AdjoinRoot.mk (X ^ 2 ^ n + 1) (polyZ (2 ^ n) a1)) * heq

/-! ### The integer sampler -/

theorem baseSampler_count (bytes : Mem UInt8) :
    (baseSampler bytes).toNat = ((List.range 18).filter fun i => leVal 9 bytes < (pdtSpec.drop (i + 1)).sum).length := by
  have hz := baseSampler_le bytes
  obtain ⟨h1, h2⟩ := (baseSampler_iff bytes _ hz).mp rfl
  generalize (baseSampler bytes).toNat = z at *
  generalize leVal 9 bytes = u at *
  have e : ∀ i, i < 18 → (u < (pdtSpec.drop (i + 1)).sum ↔ i < z) := by
    intro i hi
    change u < pdtTail (i + 1) ↔ i < z
    constructor
    · intro h
      by_contra hc
      have := pdtTail_anti (z + 1) (i + 1) (by omega) (by omega)
      omega
    · intro h
      have := pdtTail_anti (i + 1) z (by omega) (by omega)
      omega
  have f : ((List.range 18).filter fun i => u < (pdtSpec.drop (i + 1)).sum) = (List.range 18).filter fun i => i < z :=
    List.filter_congr fun i hi => by rw [List.mem_range] at hi; simp only [e i hi]
  rw [f]
  clear * - hz
  interval_cases z <;> rfl

theorem proposal_eq (tape : ℕ → UInt8) (p : ℕ) :
    szZ (tape (p + 9) &&& 1 == 1) (baseSampler fun i => tape (p + i)).toNat = proposal tape p := by
  unfold proposal
  rw [baseSampler_count]
  have hb : (tape (p + 9) &&& 1 == 1) = decide ((tape (p + 9)).toNat % 2 = 1) := by
    have : ∀ b : UInt8, (b &&& 1 == 1) = decide (b.toNat % 2 = 1) := by decide +kernel
    exact this _
  rw [hb]
  by_cases h : (tape (p + 9)).toNat % 2 = 1
  · simp [szZ, h]
  · simp [szZ, h]

theorem szIter_result {fma : Bool} {mu sigma sigmin : ℝ} {tape : ℕ → UInt8} {pos : ℕ} {r : Option ℤ} {pos' : ℕ} (hm : |mu| ≤ 2 ^ 30)
    (h : szIter fma mu sigma sigmin tape pos = .ok (r, pos')) :
    (∃ k, 1 ≤ k ∧ k ≤ 8 ∧ pos' = pos + 10 + k) ∧ ∀ z, r = some z → z = ⌊mu⌋ + proposal tape pos := by
  unfold szIter berExp at h
  simp only at h
  cases ht : berThreshold fma (szX mu sigma (tape (pos + 9) &&& 1 == 1) (baseSampler fun i => tape (pos + i)).toNat) (fdiv sigmin sigma) with
  | error e => rw [ht] at h; cases h
  | ok t =>
    rw [ht] at h
    simp only [Except.bind] at h
    obtain ⟨k, k1, k2, k3, -⟩ := berLoop_reads t tape 7 (pos + 10) (by norm_num)
    have k3 : (berLoop t tape 64 (pos + 10)).2 = pos + 10 + k := k3
    rw [proposal_eq, k3] at h
    have hb := szZ_bounds (tape (pos + 9) &&& 1 == 1) _ (baseSampler_le fun i => tape (pos + i))
    rw [proposal_eq] at hb
    split at h
    · have hm' := abs_le.mp hm
      have m0 : -2 ^ 30 ≤ ⌊mu⌋ := by rw [Int.le_floor]; push_cast; norm_num at hm' ⊢; exact hm'.1
      have m1 : ⌊mu⌋ ≤ 2 ^ 30 := by
        have := Int.floor_le mu
        have h2 : (⌊mu⌋ : ℝ) ≤ ((2 ^ 30 : ℤ) : ℝ) := by push_cast; linarith [hm'.2]
        exact_mod_cast h2
      rw [fadd_int (by rw [abs_le]; omega)] at h
      unfold toI32 at h
      rw [if_pos (by omega)] at h
      simp only at h
      have h := Prod.mk.inj (Except.ok.inj h)
      refine ⟨⟨k, k1, k2, h.2.symm⟩, fun z hz => ?_⟩
      rw [← h.1] at hz
      have := Option.some.inj hz
      omega
    · have h := Prod.mk.inj (Except.ok.inj h)
      refine ⟨⟨k, k1, k2, h.2.symm⟩, fun z hz => ?_⟩
      rw [← h.1] at hz
      cases hz

/-- A value that the sampler returns is the centre, rounded down, plus the integer proposed at a position that it reaches. -/
theorem samplerz_result {fma : Bool} {mu sigma sigmin : ℝ} {tape : ℕ → UInt8} (hm : |mu| ≤ 2 ^ 30) : ∀ (fuel pos : ℕ) (z : ℤ) (pos' : ℕ),
    samplerz fma mu sigma sigmin tape fuel pos = some (.ok (z, pos')) →
    ∃ p, Reached pos p ∧ z = ⌊mu⌋ + proposal tape p ∧ Reached pos pos' := by
  intro fuel
  induction fuel with
  | zero => intro pos z pos' h; cases h
  | succ fuel ih =>
    intro pos z pos' h
    rw [samplerz] at h
    split at h
    · cases h
    · rename_i r p' e
      obtain ⟨⟨k, k1, k2, k3⟩, hz⟩ := szIter_result hm e
      have h := Prod.mk.inj (Except.ok.inj (Option.some.inj h))
      refine ⟨pos, .here, by rw [← h.1]; exact hz _ rfl, ?_⟩
      rw [← h.2, k3]
      exact .next k .here k1 k2
    · rename_i p' e
      obtain ⟨⟨k, k1, k2, k3⟩, -⟩ := szIter_result hm e
      obtain ⟨p, h1, h2, h3⟩ := ih _ _ _ h
      have tr : ∀ x, Reached p' x → Reached pos x := by
        intro x hx
        induction hx with
        | here => rw [k3]; exact .next k .here k1 k2
        | next j _ j1 j2 ih => exact .next j ih j1 j2
      exact ⟨p, tr _ h1, h2, tr _ h3⟩

/-- Bytes for which the first proposal is 0 or 1 and is accepted whatever the centre and the deviation. -/
theorem samplerz_sure {n : ℕ} (hn : ValidLog n) {mu sigma : ℝ} (hm : |mu| ≤ 2 ^ 30) (hs0 : sigmaMin n ≤ sigma) (hs1 : sigma ≤ 182 / 100)
    (tape : ℕ → UInt8) (fuel pos : ℕ) (h0 : 2 ^ 72 - pdtSpec.getD 0 0 ≤ leVal 9 fun i => tape (pos + i)) (h1 : (tape (pos + 10)).toNat < 120) :
    samplerz false mu sigma (sigmaMin n) tape (fuel + 1) pos
      = some (.ok (⌊mu⌋ + (if (tape (pos + 9)).toNat % 2 = 1 then 1 else 0), pos + 11)) := by
  have hm' := abs_le.mp hm
  have m0 : -2147483630 ≤ ⌊mu⌋ := by rw [Int.le_floor]; push_cast; norm_num at hm' ⊢; linarith [hm'.1]
  have m1 : ⌊mu⌋ < 2147483629 := by rw [Int.floor_lt]; push_cast; norm_num at hm' ⊢; linarith [hm'.2]
  have hsm : 12778 / 10000 ≤ sigmaMin n ∧ sigmaMin n ≤ 13 / 10 := by
    rcases hn with rfl | rfl
    · rw [sigmaMin9_eq]; norm_num
    · rw [sigmaMin10_eq]; norm_num
  have hM : (182 / 100 : ℝ) ≤ sigmaMax := by rw [sigmaMax_eq]; norm_num
  have hz : (baseSampler fun i => tape (pos + i)).toNat = 0 := by
    rw [baseSampler_iff _ 0 (by norm_num)]
    have e := pdtTail_sub 0 (by norm_num)
    have e0 := pdtTail_zero
    have := leVal_lt 9 fun i => tape (pos + i)
    rw [show (256 : ℕ) ^ 9 = 2 ^ 72 by norm_num] at this
    constructor <;> omega
  have hb : (tape (pos + 9) &&& 1 == 1) = decide ((tape (pos + 9)).toNat % 2 = 1) := by
    have : ∀ b : UInt8, (b &&& 1 == 1) = decide (b.toNat % 2 = 1) := by decide +kernel
    exact this _
  have heq := szIter_eq (mu := mu) (sigma := sigma) (sigmin := sigmaMin n) tape pos m0 m1 (by linarith) (by linarith) (by linarith) (by linarith)
    0 _ _ hz hb rfl
  generalize hB : decide ((tape (pos + 9)).toNat % 2 = 1) = b at *
  have hX := szX_err mu sigma b 0 (by norm_num) (by linarith) (by linarith)
  have x0 := szX_nonneg mu sigma b 0 (by norm_num) (zpow_500_le.trans (by linarith)) (by linarith)
  have x1 := szX_lt mu sigma b 0 (by norm_num) (by linarith)
  have c0 : 11 / 16 ≤ fdiv (sigmaMin n) sigma := by
    have r : Rep (11 / 16 : ℝ) := ⟨11, -4, by norm_num, by norm_num, by norm_num⟩
    refine le_rnd_of_rep r ?_
    rw [le_div_iff₀ (by linarith)]
    linarith
  have c1 : fdiv (sigmaMin n) sigma ≤ 1 := by
    have r : Rep (1 : ℝ) := ⟨1, 0, by norm_num, by norm_num, by norm_num⟩
    refine rnd_le_of_rep r ?_
    rw [div_le_one (by linarith)]
    exact hs0
  have hT := thr_accurate_abs (rep_szX mu sigma b 0) x0 x1 (by linarith) c1
  have hxb : szX mu sigma b 0 ≤ 31 / 100 := by
    have f1 := Int.floor_le mu
    have f2 := Int.lt_floor_add_one mu
    have hsq : ((szZ b 0 : ℝ) - (mu - ⌊mu⌋)) ^ 2 ≤ 1 := by
      have hc : (szZ b 0 : ℝ) = 0 ∨ (szZ b 0 : ℝ) = 1 := by
        cases b <;> simp [szZ]
      rw [sq_le_one_iff_abs_le_one, abs_le]
      rcases hc with h | h <;> rw [h] <;> constructor <;> linarith
    have hq : ((szZ b 0 : ℝ) - (mu - ⌊mu⌋)) ^ 2 / (2 * sigma ^ 2) ≤ 307 / 1000 := by
      have hs2 : (12778 / 10000 : ℝ) ^ 2 ≤ sigma ^ 2 :=
        pow_le_pow_left₀ (by norm_num) (hsm.1.trans hs0) 2
      have hs3 : (163 / 100 : ℝ) ≤ sigma ^ 2 := le_trans (by norm_num) hs2
      rw [div_le_iff₀ (by linarith)]
      linarith
    have := (abs_le.mp hX).2
    norm_num at this hq ⊢
    linarith
  have hthr : 120 * 2 ^ 56 ≤ (thr (szX mu sigma b 0) (fdiv (sigmaMin n) sigma)).toNat := by
    have he : 69 / 100 ≤ Real.exp (-szX mu sigma b 0) := by
      have := Real.add_one_le_exp (-szX mu sigma b 0)
      linarith
    have hp : 11 / 16 * (69 / 100) ≤ fdiv (sigmaMin n) sigma * Real.exp (-szX mu sigma b 0) :=
      mul_le_mul c0 he (by norm_num) (by linarith)
    have h := (abs_le.mp hT).1
    have h2 : (120 / 256 : ℝ) ≤ ((thr (szX mu sigma b 0) (fdiv (sigmaMin n) sigma)).toNat : ℝ) / 2 ^ 64 := by
      norm_num at h hp ⊢
      linarith
    rw [le_div_iff₀ (by norm_num)] at h2
    have h3 : ((120 * 2 ^ 56 : ℕ) : ℝ) ≤ ((thr (szX mu sigma b 0) (fdiv (sigmaMin n) sigma)).toNat : ℝ) := by
      push_cast
      norm_num at h2 ⊢
      linarith
    exact_mod_cast h3
  have hacc : (berLoop (thr (szX mu sigma b 0) (fdiv (sigmaMin n) sigma)) tape 64 (pos + 10)).1 = true := by
    rw [C55_bernoulli, decide_eq_true_eq]
    refine lt_of_lt_of_le ?_ hthr
    have := beVal_lt 7 fun i => tape (pos + 10 + (i + 1))
    rw [beVal_succ 7]
    rw [show (256 : ℕ) ^ 7 = 2 ^ 56 by norm_num] at this ⊢
    show (tape (pos + 10)).toNat * 2 ^ 56 + _ < _
    omega
  rw [hacc, if_pos rfl] at heq
  have hz' : szZ b 0 + ⌊mu⌋ = ⌊mu⌋ + (if (tape (pos + 9)).toNat % 2 = 1 then 1 else 0) := by
    rw [← hB]
    by_cases h : (tape (pos + 9)).toNat % 2 = 1 <;> simp [szZ, h, add_comm]
  have hpos : (berLoop (thr (szX mu sigma b 0) (fdiv (sigmaMin n) sigma)) tape 64 (pos + 10)).2 = pos + 11 := by
    obtain ⟨m, m1, m2, m3, m4, -⟩ := berLoop_reads (thr (szX mu sigma b 0) (fdiv (sigmaMin n) sigma)) tape 7 (pos + 10) (by norm_num)
    have m3 : (berLoop (thr (szX mu sigma b 0) (fdiv (sigmaMin n) sigma)) tape 64 (pos + 10)).2 = pos + 10 + m := m3
    rw [m3]
    by_cases hm : m = 1
    · rw [hm]
    · exfalso
      have h := m4 0 (by omega)
      have hlt := (thr (szX mu sigma b 0) (fdiv (sigmaMin n) sigma)).toNat_lt
      simp only [Nat.add_zero, Nat.sub_zero] at h
      rw [show (256 : ℕ) ^ 7 = 2 ^ 56 by norm_num] at h
      omega
  rw [hz', hpos] at heq
  rw [samplerz, heq]

/-- From the centre to the inequality. -/
theorem leak_bound {mu : ℝ} {w v z y : ℤ} (hmu : |mu - w / 12289| ≤ 1 / 2 ^ 20) (hz : z = ⌊mu⌋ + y) (hv : v = w - 12289 * z) :
    0 ≤ v + 12289 * y ∧ v + 12289 * y ≤ 12289 := by
  have h1 := abs_le.mp hmu
  have f1 := Int.floor_le mu
  have f2 := Int.lt_floor_add_one mu
  have e : v + 12289 * y = w - 12289 * ⌊mu⌋ := by rw [hv, hz]; ring
  rw [e]
  have a1 : (-1 : ℝ) < (w : ℝ) - 12289 * ⌊mu⌋ := by norm_num at h1 ⊢; linarith [h1.1, h1.2]
  have a2 : (w : ℝ) - 12289 * ⌊mu⌋ < 12290 := by norm_num at h1 ⊢; linarith [h1.1, h1.2]
  have a1' : (-1 : ℤ) < w - 12289 * ⌊mu⌋ := by exact_mod_cast a1
  have a2' : w - 12289 * ⌊mu⌋ < (12290 : ℤ) := by exact_mod_cast a2
  omega

end Falcon
