import Verif.Proofs.TreeFloat
import Verif.Proofs.FloatSign

/-!
# Sizes in fast Fourier sampling in floating point

The symmetric part of the target is tracked against the transforms of the sampled polynomials, the antisymmetric part
(which is due to rounding) by its size.
-/

namespace Falcon

open Finset

noncomputable def etaS : ℝ := 1 / 1024

theorem rms_tri (k : ℕ) (x y : Mem ℂ) : rms k x ≤ rms k y + rms k (fun i => x i - y i) := by
  have h := rms_add k y (fun i => x i - y i)
  rwa [rms_congr (y := x) (fun i _ => by ring)] at h

theorem rms_norm_congr {k : ℕ} {x y : Mem ℂ} (h : ∀ i, i < 2 ^ k → ‖x i‖ = ‖y i‖) : rms k x = rms k y := by
  unfold rms nC l2
  congr 2
  exact sum_congr rfl fun i hi => by beta_reduce; rw [h i (mem_range.mp hi)]

theorem pair_tri {a b a' b' e0 e1 s e : ℝ} (ha' : 0 ≤ a') (hb' : 0 ≤ b')
    (hs : 0 ≤ s) (he : 0 ≤ e) (h : a ^ 2 + b ^ 2 ≤ s ^ 2) (hh : e0 ^ 2 + e1 ^ 2 ≤ e ^ 2) (i0 : a' ≤ a + e0) (i1 : b' ≤ b + e1) :
    a' ^ 2 + b' ^ 2 ≤ (s + e) ^ 2 := by
  have c1 : a' ^ 2 ≤ (a + e0) ^ 2 := pow_le_pow_left₀ ha' i0 2
  have c2 : b' ^ 2 ≤ (b + e1) ^ 2 := pow_le_pow_left₀ hb' i1 2
  have cs : a * e0 + b * e1 ≤ s * e := by
    refine (abs_le_of_sq_le_sq' ?_ (by positivity)).2
    have m := mul_le_mul h hh (by positivity) (by positivity)
    nlinarith [sq_nonneg (a * e1 - b * e0)]
  nlinarith

/-- Sampling with the tree `t` of height `k` is defined on targets of bounded size, and the result is close to the target. -/
def SampOk {S : Type} (A : Arith ℝ ℂ) (leaf : LeafSampler ℝ S) (k : ℕ) (t : FTree ℂ) (c m p q : ℝ) : Prop :=
  ∀ (t0 t1 : Mem ℂ) (pos : S) (s a : ℝ), 0 ≤ s → 0 ≤ a → rms k (symP k t0) ^ 2 + rms k (symP k t1) ^ 2 ≤ s ^ 2 →
    rms k (asyP k t0) ^ 2 + rms k (asyP k t1) ^ 2 ≤ a ^ 2 → s + p + q * a ≤ 2 ^ 31 - 200 →
    (∀ e, sampleTree A leaf k t t0 t1 pos ≠ some (.error e)) ∧
    ∀ z, sampleTree A leaf k t t0 t1 pos = some (.ok z) → ∃ a0 a1 : Mem Int, NearInt k z.1 a0 ∧ NearInt k z.2.1 a1 ∧
      rms k (fun i => symP k t0 i - dft k (zC a0) i) ^ 2 + rms k (fun i => symP k t1 i - dft k (zC a1) i) ^ 2 ≤ (c + m * a) ^ 2

section
variable {A : Arith ℝ ℂ} (hA : Accurate A)
include hA

theorem spE_err (k : ℕ) (t : Mem ℂ) : rms k (fun i => (splitS A k t).1 i - spE t i) ≤ 4 * uD * rms k (spE t) + 2 * tinyD := by
  apply rms_maj1 (by unfold uD; positivity) (by unfold tinyD; positivity)
  intro i _
  show ‖A.scale (A.lit (1 / 2)) (A.cadd (t (2 * i)) (t (2 * i + 1))) - (t (2 * i) + t (2 * i + 1)) / 2‖ ≤
    4 * uD * ‖(t (2 * i) + t (2 * i + 1)) / 2‖ + 2 * tinyD
  generalize t (2 * i) = x
  generalize t (2 * i + 1) = y
  have h1 := hA.cadd x y
  have h2 := hA.scale (A.lit (1 / 2)) (A.cadd x y)
  rw [lit_half hA] at h2 ⊢
  generalize A.cadd x y = s at *
  generalize A.scale (1 / 2) s = e at *
  have h4 : ((1 / 2 : ℝ) : ℂ) * s = s / 2 := by push_cast; ring
  rw [h4] at h2
  have e1 : e - (x + y) / 2 = (e - s / 2) + (s - (x + y)) / 2 := by ring
  have e2 : s / 2 = (x + y) / 2 + (s - (x + y)) / 2 := by ring
  have n2 : ‖s / 2‖ ≤ ‖(x + y) / 2‖ + ‖(s - (x + y)) / 2‖ := by
    conv_lhs => rw [e2]
    exact norm_add_le _ _
  rw [e1]
  refine (norm_add_le _ _).trans ?_
  have n3 : ‖(s - (x + y)) / 2‖ = ‖s - (x + y)‖ / 2 := by rw [norm_div, Complex.norm_ofNat]
  have n4 : ‖(x + y) / 2‖ = ‖x + y‖ / 2 := by rw [norm_div, Complex.norm_ofNat]
  have n5 := norm_nonneg (x + y)
  rw [n3] at n2 ⊢
  rw [n4] at n2 ⊢
  generalize ‖s - (x + y)‖ = z1 at *
  generalize ‖x + y‖ = z2 at *
  generalize ‖s / 2‖ = z3 at *
  generalize ‖e - s / 2‖ = z4 at *
  clear * - h1 h2 n2 n5
  rw [show uD = 1 / 2 ^ 53 from rfl, show tinyD = 1 / 2 ^ 100 from rfl] at *
  norm_num at *
  linarith

theorem spO_err {k : ℕ} (hk : k + 1 ≤ 10) (t : Mem ℂ) :
    rms k (fun i => (splitS A k t).2 i - spO k t i) ≤ 16 * uD * rms k (spO k t) + 3 * tinyD := by
  apply rms_maj1 (by unfold uD; positivity) (by unfold tinyD; positivity)
  intro i hi
  have h2n : (2 : ℕ) ^ (k + 1) ≤ 1024 := (Nat.pow_le_pow_right (by norm_num) hk).trans (by norm_num)
  have hp : 2 ^ (k + 1) = 2 * 2 ^ k := by rw [pow_succ]; ring
  show ‖A.cmul (A.scale (A.lit (1 / 2)) (A.csub (t (2 * i)) (t (2 * i + 1)))) (A.conj (A.tab (2 ^ k + i)))
    - (starRingEnd ℂ) (cT (2 ^ k + i)) * ((t (2 * i) - t (2 * i + 1)) / 2)‖ ≤
    16 * uD * ‖(starRingEnd ℂ) (cT (2 ^ k + i)) * ((t (2 * i) - t (2 * i + 1)) / 2)‖ + 3 * tinyD
  have h0 := conjtab_err hA (k := 2 ^ k + i) (by omega)
  generalize t (2 * i) = x
  generalize t (2 * i + 1) = y
  have h1 := hA.csub x y
  have h2 := hA.scale (A.lit (1 / 2)) (A.csub x y)
  rw [lit_half hA] at h2 ⊢
  generalize A.csub x y = s at *
  have h0 := h0 (A.scale (1 / 2) s)
  generalize A.scale (1 / 2) s = e at *
  generalize A.cmul e (A.conj (A.tab (2 ^ k + i))) = w at *
  have h4 : ((1 / 2 : ℝ) : ℂ) * s = s / 2 := by push_cast; ring
  rw [h4] at h2
  have e0 : w - (starRingEnd ℂ) (cT (2 ^ k + i)) * ((x - y) / 2) = (w - (starRingEnd ℂ) (cT (2 ^ k + i)) * e)
    + (starRingEnd ℂ) (cT (2 ^ k + i)) * ((e - s / 2) + (s - (x - y)) / 2) := by ring
  have e2 : s / 2 = (x - y) / 2 + (s - (x - y)) / 2 := by ring
  have e3 : e = s / 2 + (e - s / 2) := by ring
  have n2 : ‖s / 2‖ ≤ ‖(x - y) / 2‖ + ‖(s - (x - y)) / 2‖ := by
    conv_lhs => rw [e2]
    exact norm_add_le _ _
  have n6 : ‖e‖ ≤ ‖s / 2‖ + ‖e - s / 2‖ := by
    conv_lhs => rw [e3]
    exact norm_add_le _ _
  rw [e0]
  refine (norm_add_le _ _).trans ?_
  rw [norm_mul, norm_mul, RCLike.norm_conj, cT_norm, one_mul, one_mul]
  refine (add_le_add_right (norm_add_le _ _) _).trans ?_
  have n3 : ‖(s - (x - y)) / 2‖ = ‖s - (x - y)‖ / 2 := by rw [norm_div, Complex.norm_ofNat]
  have n4 : ‖(x - y) / 2‖ = ‖x - y‖ / 2 := by rw [norm_div, Complex.norm_ofNat]
  have n5 := norm_nonneg (x - y)
  rw [n3] at n2 ⊢
  rw [n4] at n2 ⊢
  generalize ‖s - (x - y)‖ = z1 at *
  generalize ‖x - y‖ = z2 at *
  generalize ‖s / 2‖ = z3 at *
  generalize ‖e - s / 2‖ = z4 at *
  generalize ‖w - (starRingEnd ℂ) (cT (2 ^ k + i)) * e‖ = z5 at *
  generalize ‖e‖ = z6 at *
  clear * - h1 h2 n2 n5 n6 h0
  rw [show uD = 1 / 2 ^ 53 from rfl, show tinyD = 1 / 2 ^ 100 from rfl] at *
  norm_num at *
  linarith

/-- Errors of both halves. -/
theorem split_err {k : ℕ} (hk : k + 1 ≤ 10) (t : Mem ℂ) (h : rms (k + 1) t ≤ 2 ^ 33) :
    rms k (fun i => (splitS A k t).1 i - spE t i) ≤ 1 / 2048 ∧ rms k (fun i => (splitS A k t).2 i - spO k t i) ≤ 1 / 2048 := by
  have h1 := spE_err hA k t
  have h2 := spO_err hA hk t
  have h3 := rms_split k t
  have h0 := rms_nonneg (k + 1) t
  have b1 : rms k (spE t) ≤ rms (k + 1) t := (abs_le_of_sq_le_sq' (by nlinarith [sq_nonneg (rms k (spO k t))]) h0).2
  have b2 : rms k (spO k t) ≤ rms (k + 1) t := (abs_le_of_sq_le_sq' (by nlinarith [sq_nonneg (rms k (spE t))]) h0).2
  clear * - h1 h2 b1 b2 h
  rw [show uD = 1 / 2 ^ 53 from rfl, show tinyD = 1 / 2 ^ 100 from rfl] at *
  norm_num at *
  constructor <;> linarith

/-- Both halves of a target. -/
theorem split_parts {k : ℕ} (hk : k + 1 ≤ 10) (t : Mem ℂ) {s a : ℝ} (hs : rms (k + 1) (symP (k + 1) t) ≤ s)
    (ha : rms (k + 1) (asyP (k + 1) t) ≤ a) (hb : s + a ≤ 2 ^ 33) :
    rms k (symP k (splitS A k t).1) ^ 2 + rms k (symP k (splitS A k t).2) ^ 2 ≤ (s + etaS) ^ 2 ∧
    rms k (asyP k (splitS A k t).1) ^ 2 + rms k (asyP k (splitS A k t).2) ^ 2 ≤ (a + etaS) ^ 2 ∧
    ∀ (c0 c1 : Mem Int) (r : ℝ), 0 ≤ r → rms k (fun i => symP k (splitS A k t).1 i - dft k (zC c0) i) ^ 2
      + rms k (fun i => symP k (splitS A k t).2 i - dft k (zC c1) i) ^ 2 ≤ r ^ 2 →
      rms (k + 1) (fun i => symP (k + 1) t i - dft (k + 1) (zC (ilv c0 c1)) i) ≤ r + etaS := by
  obtain ⟨e1, e2⟩ := split_err hA hk t (by have := rms_le_parts (k + 1) t; linarith)
  generalize (splitS A k t).1 = E at *
  generalize (splitS A k t).2 = O at *
  have s0 : 0 ≤ s := (rms_nonneg _ _).trans hs
  have a0 : 0 ≤ a := (rms_nonneg _ _).trans ha
  have he : (0 : ℝ) ≤ etaS := by unfold etaS; norm_num
  have hq : (1 / 2048 : ℝ) ^ 2 + (1 / 2048) ^ 2 ≤ etaS ^ 2 := by unfold etaS; norm_num
  have x1 : rms k (spE (symP (k + 1) t)) = rms k (symP k (spE t)) := rms_congr fun i hi => (symP_spE k t i hi).symm
  have x2 : rms k (spO k (symP (k + 1) t)) = rms k (symP k (spO k t)) := rms_congr fun i hi => (symP_spO hk t i hi).symm
  have x3 : rms k (spE (asyP (k + 1) t)) = rms k (asyP k (spE t)) := rms_congr fun i hi => (asyP_spE k t i hi).symm
  have x4 : rms k (spO k (asyP (k + 1) t)) = rms k (asyP k (spO k t)) := rms_congr fun i hi => (asyP_spO hk t i hi).symm
  have y1 := (symP_close k E (spE t)).trans e1
  have y2 := (symP_close k O (spO k t)).trans e2
  have y3 := (asyP_close k E (spE t)).trans e1
  have y4 := (asyP_close k O (spO k t)).trans e2
  have z1 := rms_split k (symP (k + 1) t)
  have z2 := rms_split k (asyP (k + 1) t)
  rw [x1, x2] at z1
  rw [x3, x4] at z2
  refine ⟨?_, ?_, ?_⟩
  · refine pair_tri (a := rms k (symP k (spE t))) (b := rms k (symP k (spO k t))) (rms_nonneg _ _) (rms_nonneg _ _) s0 he ?_ hq ?_ ?_
    · rw [z1]; exact pow_le_pow_left₀ (rms_nonneg _ _) hs 2
    · exact (rms_tri k _ (symP k (spE t))).trans (add_le_add_right y1 _)
    · exact (rms_tri k _ (symP k (spO k t))).trans (add_le_add_right y2 _)
  · refine pair_tri (a := rms k (asyP k (spE t))) (b := rms k (asyP k (spO k t))) (rms_nonneg _ _) (rms_nonneg _ _) a0 he ?_ hq ?_ ?_
    · rw [z2]; exact pow_le_pow_left₀ (rms_nonneg _ _) ha 2
    · exact (rms_tri k _ (asyP k (spE t))).trans (add_le_add_right y3 _)
    · exact (rms_tri k _ (asyP k (spO k t))).trans (add_le_add_right y4 _)
  · intro c0 c1 r hr h
    refine (abs_le_of_sq_le_sq' ?_ (by linarith)).2
    rw [← rms_split]
    refine pair_tri (a := rms k (fun i => symP k E i - dft k (zC c0) i)) (b := rms k (fun i => symP k O i - dft k (zC c1) i))
      (rms_nonneg _ _) (rms_nonneg _ _) hr he h hq ?_ ?_
    · refine (rms_tri k _ (fun i => symP k E i - dft k (zC c0) i)).trans (add_le_add_right (le_trans (le_of_eq ?_) y1) _)
      apply rms_norm_congr
      intro i hi
      have q1 := symP_spE k t i hi
      have q2 := spE_dft hk c0 c1 i hi
      beta_reduce
      rw [q1, ← q2]
      unfold spE
      beta_reduce
      rw [← norm_neg]
      congr 2
      ring
    · refine (rms_tri k _ (fun i => symP k O i - dft k (zC c1) i)).trans (add_le_add_right (le_trans (le_of_eq ?_) y2) _)
      apply rms_norm_congr
      intro i hi
      have q1 := symP_spO hk t i hi
      have q2 := spO_dft hk c0 c1 i hi
      beta_reduce
      rw [q1, ← q2]
      unfold spO
      beta_reduce
      rw [← norm_neg]
      congr 2
      ring

/-- The new target, one entry. -/
theorem target_pt {t x z l : ℂ} {lam : ℝ} (hl : ‖l‖ ≤ lam) (hlam : lam ≤ 2 ^ 16) :
    ‖A.cadd t (A.cmul (A.csub x z) l) - (t + (x - z) * l)‖ ≤ uD * ‖t‖ + 8 * uD * lam * ‖x - z‖ + 2 ^ 20 * tinyD := by
  have hl0 : 0 ≤ lam := (norm_nonneg _).trans hl
  have h1 := hA.csub x z
  have h2 := hA.cmul (A.csub x z) l
  have h3 := hA.cadd t (A.cmul (A.csub x z) l)
  generalize A.csub x z = w at *
  generalize A.cmul w l = v at *
  generalize A.cadd t v = r at *
  generalize x - z = y at *
  have e1 : r - (t + y * l) = (r - (t + v)) + (v - w * l) + (w - y) * l := by ring
  have n1 : ‖w‖ ≤ ‖y‖ + ‖w - y‖ := by
    calc ‖w‖ = ‖y + (w - y)‖ := by rw [add_sub_cancel]
      _ ≤ _ := norm_add_le _ _
  have n2 : ‖t + v‖ ≤ ‖t‖ + (‖w‖ * ‖l‖ + ‖v - w * l‖) := by
    refine (norm_add_le _ _).trans (add_le_add_right ?_ _)
    calc ‖v‖ = ‖w * l + (v - w * l)‖ := by rw [add_sub_cancel]
      _ ≤ _ := (norm_add_le _ _).trans (by rw [norm_mul])
  rw [e1]
  refine (norm_add₃_le ..).trans ?_
  rw [norm_mul]
  have m1 : ‖w‖ * ‖l‖ ≤ ‖w‖ * lam := mul_le_mul_of_nonneg_left hl (norm_nonneg _)
  have m2 : ‖w - y‖ * ‖l‖ ≤ ‖w - y‖ * lam := mul_le_mul_of_nonneg_left hl (norm_nonneg _)
  have m3 : ‖w‖ * lam ≤ (‖y‖ + ‖w - y‖) * lam := mul_le_mul_of_nonneg_right n1 hl0
  have m4 : ‖w - y‖ * lam ≤ (uD * ‖y‖ + tinyD) * lam := mul_le_mul_of_nonneg_right h1 hl0
  have m5 : tinyD * lam ≤ tinyD * 2 ^ 16 := mul_le_mul_of_nonneg_left hlam (by unfold tinyD; positivity)
  have m6 : 0 ≤ ‖y‖ * lam := mul_nonneg (norm_nonneg _) hl0
  have m7 := norm_nonneg t
  have e2 : (‖y‖ + ‖w - y‖) * lam = ‖y‖ * lam + ‖w - y‖ * lam := by ring
  have e3 : (uD * ‖y‖ + tinyD) * lam = uD * (‖y‖ * lam) + tinyD * lam := by ring
  have e4 : 8 * uD * lam * ‖y‖ = 8 * uD * (‖y‖ * lam) := by ring
  rw [e2] at m3
  rw [e3] at m4
  rw [e4]
  generalize ‖y‖ * lam = q0 at *
  generalize ‖w - y‖ * lam = q1 at *
  generalize ‖w‖ * lam = q2 at *
  generalize ‖w‖ * ‖l‖ = q3 at *
  generalize ‖w - y‖ * ‖l‖ = q4 at *
  generalize ‖v - w * l‖ = q5 at *
  generalize ‖t + v‖ = q6 at *
  generalize ‖r - (t + v)‖ = q7 at *
  generalize ‖t‖ = q8 at *
  generalize tinyD * lam = q9 at *
  clear * - h2 h3 n2 m1 m2 m3 m4 m5 m6 m7
  rw [show uD = 1 / 2 ^ 53 from rfl, show tinyD = 1 / 2 ^ 100 from rfl] at *
  norm_num at *
  linarith

omit hA in
/-- A sampled polynomial is nearly a transform. -/
theorem near_rms {k : ℕ} (hk : k ≤ 10) {z : Mem ℂ} {b : Mem Int} (h : NearInt k z b) {M : ℝ} (hM : rms k (dft k (zC b)) ≤ M)
    (hM' : M ≤ 2 ^ 33) : rms k (fun i => z i - dft k (zC b) i) ≤ etaS := by
  rw [rms_dft hk] at hM
  have h1 := Mz_le k b
  have h2 := sqrt2_pow_le hk
  have h3 := gam_le hk
  have h4 := gam_nonneg k
  unfold NearInt at h
  unfold rms
  rw [div_le_iff₀ (s2_pos k)]
  refine h.trans ?_
  have hs := s2_pos k
  rw [mul_assoc, mul_comm]
  refine mul_le_mul_of_nonneg_right ?_ hs.le
  have h5 : gam k * Mz k b ≤ kapD * (2 ^ 33 + 32) := mul_le_mul h3 (by linarith) (Mz_nonneg _ _) (by unfold kapD; norm_num)
  refine h5.trans ?_
  unfold kapD etaS
  norm_num

/-- The new target of the left child. `D` bounds the distance of the symmetric part of `t1` from the transform of `b`. -/
theorem target_parts {k : ℕ} (hk : k ≤ 10) {t0 t1 z1 l y : Mem ℂ} {b : Mem Int} {lam d s0 a0 s1 a1 D : ℝ}
    (hl : ∀ i, i < 2 ^ k → ‖l i‖ ≤ lam) (hlam : lam ≤ 2 ^ 16) (hy : ConjSym k y)
    (hd : ∀ i, i < 2 ^ k → ‖l i - y i‖ ≤ d) (hlam0 : 0 ≤ lam) (hd0 : 0 ≤ d) (hs0 : rms k (symP k t0) ≤ s0) (ha0 : rms k (asyP k t0) ≤ a0)
    (hs1 : rms k (symP k t1) ≤ s1) (ha1 : rms k (asyP k t1) ≤ a1) (hD : rms k (fun i => symP k t1 i - dft k (zC b) i) ≤ D)
    (hz : NearInt k z1 b) (b0 : s0 + a0 ≤ 2 ^ 32) (b1 : s1 + D ≤ 2 ^ 33) (b2 : lam * (D + etaS) + lam * (a1 + etaS) ≤ 2 ^ 32) :
    rms k (fun i => symP k (fun i => A.cadd (t0 i) (A.cmul (A.csub (t1 i) (z1 i)) (l i))) i - symP k t0 i)
      ≤ lam * (D + etaS) + d * (a1 + etaS) + etaS ∧
    rms k (asyP k (fun i => A.cadd (t0 i) (A.cmul (A.csub (t1 i) (z1 i)) (l i))))
      ≤ a0 + d * (D + etaS) + lam * (a1 + etaS) + etaS := by
  set t' : Mem ℂ := fun i => A.cadd (t0 i) (A.cmul (A.csub (t1 i) (z1 i)) (l i)) with ht'
  set x : Mem ℂ := fun i => t1 i - z1 i with hx
  set v : Mem ℂ := fun i => x i * l i with hv
  -- the sampled polynomial
  have hdb : rms k (dft k (zC b)) ≤ s1 + D := by
    have h1 := rms_tri k (dft k (zC b)) (symP k t1)
    rw [rms_norm_congr (y := fun i => symP k t1 i - dft k (zC b) i) (fun i _ => norm_sub_rev _ _)] at h1
    linarith
  have hzr := near_rms hk hz hdb b1
  have xs : rms k (symP k x) ≤ D + etaS := by
    have h1 := rms_sub k (fun i => symP k t1 i - dft k (zC b) i) (symP k (fun i => z1 i - dft k (zC b) i))
    have h2 := (rms_symP k (fun i => z1 i - dft k (zC b) i)).trans hzr
    rw [rms_congr (y := symP k x) (fun i hi => by
      rw [hx, symP_sub, symP_sub, symP_sym (dft_sym k b) i hi]; ring)] at h1
    linarith
  have xa : rms k (asyP k x) ≤ a1 + etaS := by
    have h1 := rms_sub k (asyP k t1) (asyP k (fun i => z1 i - dft k (zC b) i))
    have h2 := (rms_asyP k (fun i => z1 i - dft k (zC b) i)).trans hzr
    rw [rms_congr (y := asyP k x) (fun i hi => by
      rw [hx, asyP_sub, asyP_sub, asyP_sym (dft_sym k b) i hi]; ring)] at h1
    linarith
  have ls := symP_sup hl
  have la := asyP_sup hy hd
  have vs : rms k (symP k v) ≤ lam * (D + etaS) + d * (a1 + etaS) := by
    rw [rms_congr (fun i _ => symP_mul k x l i)]
    refine (rms_add k _ _).trans (add_le_add ?_ ?_)
    · exact (rms_mul (symP k x) (symP k l) hlam0 ls).trans (mul_le_mul_of_nonneg_left xs hlam0)
    · exact (rms_mul (asyP k x) (asyP k l) hd0 la).trans (mul_le_mul_of_nonneg_left xa hd0)
  have va : rms k (asyP k v) ≤ d * (D + etaS) + lam * (a1 + etaS) := by
    rw [rms_congr (fun i _ => asyP_mul k x l i)]
    refine (rms_add k _ _).trans (add_le_add ?_ ?_)
    · exact (rms_mul (symP k x) (asyP k l) hd0 la).trans (mul_le_mul_of_nonneg_left xs hd0)
    · exact (rms_mul (asyP k x) (symP k l) hlam0 ls).trans (mul_le_mul_of_nonneg_left xa hlam0)
  -- rounding
  have hr : rms k (fun i => t' i - (t0 i + v i)) ≤ etaS := by
    have h1 := rms_maj2 (k := k) (e := fun i => t' i - (t0 i + v i)) (x := t0) (y := x) (a := uD) (b := 8 * uD * lam)
      (d := 2 ^ 20 * tinyD) uD_pos.le (mul_nonneg (by unfold uD; norm_num) hlam0) (by unfold tinyD; positivity)
      (fun i hi => target_pt hA (hl i hi) hlam)
    refine h1.trans ?_
    have h2 : rms k t0 ≤ 2 ^ 32 := by have := rms_le_parts k t0; linarith
    have h3 : lam * rms k x ≤ 2 ^ 32 := by
      have := mul_le_mul_of_nonneg_left ((rms_le_parts k x).trans (add_le_add xs xa)) hlam0
      linarith
    rw [mul_assoc]
    generalize lam * rms k x = q1 at *
    generalize rms k t0 = q2 at *
    clear * - h2 h3
    rw [show uD = 1 / 2 ^ 53 from rfl, show tinyD = 1 / 2 ^ 100 from rfl, show etaS = 1 / 1024 from rfl]
    norm_num at *
    linarith
  constructor
  · have h1 := (symP_close k t' (fun i => t0 i + v i)).trans hr
    have h2 := rms_add k (symP k v) (fun i => symP k t' i - symP k (fun i => t0 i + v i) i)
    rw [rms_congr (y := fun i => symP k t' i - symP k t0 i) (fun i _ => by rw [symP_add]; ring)] at h2
    linarith
  · have h1 := (asyP_close k t' (fun i => t0 i + v i)).trans hr
    have h2 := rms_tri k (asyP k t') (asyP k (fun i => t0 i + v i))
    have h3 := rms_add k (asyP k t0) (asyP k v)
    rw [rms_congr (y := asyP k (fun i => t0 i + v i)) (fun i _ => (asyP_add k t0 v i).symm)] at h3
    linarith

/-- One inner node. -/
theorem node_step {S : Type} {leaf : LeafSampler ℝ S} {k : ℕ} (hk : k + 1 ≤ 10) {l y : Mem ℂ} {L R : FTree ℂ}
    {c m p q lam d s0 a0 s1 a1 D : ℝ} (hL : SampOk A leaf k L c m p q) (hR : SampOk A leaf k R c m p q)
    (hl : ∀ i, i < 2 ^ (k + 1) → ‖l i‖ ≤ lam) (hlam : lam ≤ 2 ^ 16) (hlam1 : 1 ≤ lam) (hy : ConjSym (k + 1) y)
    (hd : ∀ i, i < 2 ^ (k + 1) → ‖l i - y i‖ ≤ d) (hd0 : 0 ≤ d) (hc : 0 ≤ c) (hm : 0 ≤ m) (hp : 0 ≤ p) (hq : 1 ≤ q)
    (t0 t1 : Mem ℂ) (pos : S)
    (hs0 : rms (k + 1) (symP (k + 1) t0) ≤ s0) (ha0 : rms (k + 1) (asyP (k + 1) t0) ≤ a0)
    (hs1 : rms (k + 1) (symP (k + 1) t1) ≤ s1) (ha1 : rms (k + 1) (asyP (k + 1) t1) ≤ a1)
    (hD : D = c + m * (a1 + etaS) + etaS)
    (H1 : s1 + etaS + p + q * (a1 + etaS) ≤ 2 ^ 31 - 200)
    (H2 : s0 + (lam * (D + etaS) + d * (a1 + etaS) + etaS) + etaS + p
      + q * (a0 + d * (D + etaS) + lam * (a1 + etaS) + etaS + etaS) ≤ 2 ^ 31 - 200) :
    (∀ e, sampleTree A leaf (k + 1) (.node l L R) t0 t1 pos ≠ some (.error e)) ∧
    ∀ z, sampleTree A leaf (k + 1) (.node l L R) t0 t1 pos = some (.ok z) → ∃ b0 b1 : Mem Int,
      NearInt (k + 1) z.1 b0 ∧ NearInt (k + 1) z.2.1 b1 ∧
      rms (k + 1) (fun i => symP (k + 1) t1 i - dft (k + 1) (zC b1) i) ≤ D ∧
      rms (k + 1) (fun i => symP (k + 1) t0 i - dft (k + 1) (zC b0) i)
        ≤ c + m * (a0 + d * (D + etaS) + lam * (a1 + etaS) + etaS + etaS) + etaS
          + (lam * (D + etaS) + d * (a1 + etaS) + etaS) := by
  have he : (0 : ℝ) < etaS := by unfold etaS; norm_num
  have s0n : 0 ≤ s0 := (rms_nonneg _ _).trans hs0
  have s1n : 0 ≤ s1 := (rms_nonneg _ _).trans hs1
  have a0n : 0 ≤ a0 := (rms_nonneg _ _).trans ha0
  have a1n : 0 ≤ a1 := (rms_nonneg _ _).trans ha1
  have Dn : 0 ≤ D := by rw [hD]; positivity
  have hq1 : a1 + etaS ≤ q * (a1 + etaS) := le_mul_of_one_le_left (by linarith) hq
  have n1 : 0 ≤ d * (D + etaS) := by positivity
  have n2 : 0 ≤ d * (a1 + etaS) := by positivity
  have n3 : 0 ≤ lam * (a1 + etaS) := by positivity
  have n4 : 0 ≤ lam * (D + etaS) := by positivity
  have hq2 : a0 + d * (D + etaS) + lam * (a1 + etaS) + etaS + etaS
      ≤ q * (a0 + d * (D + etaS) + lam * (a1 + etaS) + etaS + etaS) := le_mul_of_one_le_left (by linarith) hq
  have hq3 : D + etaS ≤ lam * (D + etaS) := le_mul_of_one_le_left (by linarith) hlam1
  have big : (2 : ℝ) ^ 31 - 200 ≤ 2 ^ 31 := by norm_num
  have big2 : (2 : ℝ) ^ 31 + 2 ^ 31 ≤ 2 ^ 32 := by norm_num
  have big3 : (2 : ℝ) ^ 32 ≤ 2 ^ 33 := by norm_num
  obtain ⟨r1, r2, r3⟩ := split_parts hA hk t1 hs1 ha1 (by linarith)
  obtain ⟨re, rok⟩ := hR _ _ pos _ _ (by linarith) (by linarith) r1 r2 (by linarith)
  -- the left child, for each result of the right one
  have left : ∀ zr, sampleTree A leaf k R (splitS A k t1).1 (splitS A k t1).2 pos = some (.ok zr) → ∃ b1 : Mem Int,
      NearInt (k + 1) (mergeS A k zr.1 zr.2.1) b1 ∧
      rms (k + 1) (fun i => symP (k + 1) t1 i - dft (k + 1) (zC b1) i) ≤ D ∧
      rms (k + 1) (fun i => symP (k + 1) (fun i => A.cadd (t0 i) (A.cmul (A.csub (t1 i) (mergeS A k zr.1 zr.2.1 i)) (l i))) i
        - symP (k + 1) t0 i) ≤ lam * (D + etaS) + d * (a1 + etaS) + etaS ∧
      rms (k + 1) (asyP (k + 1) (fun i => A.cadd (t0 i) (A.cmul (A.csub (t1 i) (mergeS A k zr.1 zr.2.1 i)) (l i))))
        ≤ a0 + d * (D + etaS) + lam * (a1 + etaS) + etaS := by
    intro zr hzr
    obtain ⟨c0, c1, w0, w1, w2⟩ := rok zr hzr
    have hb1 := merge_near hA hk w0 w1
    have hD1 := r3 c0 c1 _ (by positivity) w2
    rw [← hD] at hD1
    obtain ⟨u1, u2⟩ := target_parts hA hk hl hlam hy hd (by linarith) hd0 hs0 ha0 hs1 ha1 hD1 hb1 (by linarith) (by linarith)
      (by linarith)
    exact ⟨_, hb1, hD1, u1, u2⟩
  have left' : ∀ t' : Mem ℂ, rms (k + 1) (fun i => symP (k + 1) t' i - symP (k + 1) t0 i)
        ≤ lam * (D + etaS) + d * (a1 + etaS) + etaS →
      rms (k + 1) (asyP (k + 1) t') ≤ a0 + d * (D + etaS) + lam * (a1 + etaS) + etaS → ∀ pos,
      (∀ e, sampleTree A leaf k L (splitS A k t').1 (splitS A k t').2 pos ≠ some (.error e)) ∧
      ∀ zl, sampleTree A leaf k L (splitS A k t').1 (splitS A k t').2 pos = some (.ok zl) → ∃ b0 : Mem Int,
        NearInt (k + 1) (mergeS A k zl.1 zl.2.1) b0 ∧
        rms (k + 1) (fun i => symP (k + 1) t0 i - dft (k + 1) (zC b0) i)
          ≤ c + m * (a0 + d * (D + etaS) + lam * (a1 + etaS) + etaS + etaS) + etaS
            + (lam * (D + etaS) + d * (a1 + etaS) + etaS) := by
    intro t' h1 h2 pos
    have h3 : rms (k + 1) (symP (k + 1) t') ≤ s0 + (lam * (D + etaS) + d * (a1 + etaS) + etaS) := by
      have := rms_tri (k + 1) (symP (k + 1) t') (symP (k + 1) t0)
      linarith
    obtain ⟨l1, l2, l3⟩ := split_parts hA hk t' h3 h2 (by linarith)
    obtain ⟨le, lok⟩ := hL _ _ pos _ _ (by linarith) (by linarith) l1 l2 (by linarith)
    refine ⟨le, fun zl hzl => ?_⟩
    obtain ⟨c0, c1, w0, w1, w2⟩ := lok zl hzl
    have hD0 := l3 c0 c1 _ (by positivity) w2
    refine ⟨_, merge_near hA hk w0 w1, ?_⟩
    have h4 := rms_add (k + 1) (fun i => symP (k + 1) t' i - dft (k + 1) (zC (ilv c0 c1)) i)
      (fun i => symP (k + 1) t0 i - symP (k + 1) t' i)
    rw [rms_norm_congr (x := fun i => symP (k + 1) t0 i - symP (k + 1) t' i)
        (y := fun i => symP (k + 1) t' i - symP (k + 1) t0 i) (fun i _ => norm_sub_rev _ _),
      rms_congr (y := fun i => symP (k + 1) t0 i - dft (k + 1) (zC (ilv c0 c1)) i) (fun i _ => by ring)] at h4
    linarith
  constructor
  · intro e h
    unfold sampleTree at h
    simp only [Nat.add_sub_cancel] at h
    rcases bindO_some h with ⟨u, h, -⟩ | ⟨zr, hzr, h⟩
    · exact re _ h
    obtain ⟨b1, _, _, u1, u2⟩ := left zr hzr
    rcases bindO_some h with ⟨u, h, -⟩ | ⟨zl, _, h⟩
    · exact (left' _ u1 u2 _).1 _ h
    · cases h
  · intro z h
    unfold sampleTree at h
    simp only [Nat.add_sub_cancel] at h
    obtain ⟨zr, hzr, h⟩ := bindO_ok h
    obtain ⟨zl, hzl, h⟩ := bindO_ok h
    have h := Except.ok.inj (Option.some.inj h)
    obtain ⟨b1, v1, v2, u1, u2⟩ := left zr hzr
    obtain ⟨b0, v3, v4⟩ := (left' _ u1 u2 _).2 zl hzl
    rw [← h]
    exact ⟨b0, b1, v3, v1, v2, v4⟩

end

/-! ### Constants -/

noncomputable def cK : ℕ → ℝ
  | 0 => 672 / 25 | 1 => 1509 / 25 | 2 => 678 / 5 | 3 => 15247 / 50 | 4 => 68711 / 100 | 5 => 155449 / 100
  | 6 => 177199 / 50 | 7 => 409199 / 50 | 8 => 479324 / 25 | _ => 221472 / 5

noncomputable def mK : ℕ → ℝ
  | 0 => 0 | 1 => 23 / 500 | 2 => 77 / 500 | 3 => 431 / 1000 | 4 => 1157 / 1000 | 5 => 3079 / 1000 | 6 => 4109 / 500
  | 7 => 22159 / 1000 | 8 => 12099 / 200 | _ => 163119 / 1000

noncomputable def dT : ℕ → ℝ
  | 0 => 1 | 1 => 451 / 10000 | 2 => 341 / 10000 | 3 => 67 / 2500 | 4 => 213 / 10000 | 5 => 167 / 10000 | 6 => 63 / 5000
  | 7 => 87 / 10000 | 8 => 49 / 10000 | _ => 3 / 2500

noncomputable def pK : ℕ → ℝ
  | 0 => 0 | 1 => 142 / 5 | 2 => 462 / 5 | 3 => 2373 / 10 | 4 => 2834 / 5 | 5 => 13203 / 10 | 6 => 30599 / 10 | 7 => 35627 / 5
  | 8 => 166683 / 10 | _ => 75339 / 2

noncomputable def qK : ℕ → ℝ
  | 0 => 1 | 1 => 147 / 100 | 2 => 109 / 50 | 3 => 33 / 10 | 4 => 259 / 50 | 5 => 173 / 20 | 6 => 394 / 25 | 7 => 796 / 25
  | 8 => 7111 / 100 | _ => 3347 / 20

theorem dK_le (k : ℕ) (h1 : 1 ≤ k) (h9 : k ≤ 9) : dK k ≤ dT k := by
  interval_cases k <;> · unfold dK dT; norm_num

/-- The inequalities between constants of consecutive heights. -/
structure NumStep (c m d p q c' m' p' q' : ℝ) : Prop where
  c0 : 0 ≤ c
  m0 : 0 ≤ m
  p0 : 0 ≤ p
  q1 : 1 ≤ q
  d0 : 0 ≤ d
  c0' : 0 ≤ c'
  m0' : 0 ≤ m'
  cc : (c + m * etaS + etaS) ^ 2 + (c + m * (d * (c + m * etaS + etaS + etaS) + 4 * etaS) + etaS
    + 101 / 100 * (c + m * etaS + etaS + etaS) + d * etaS + etaS) ^ 2 ≤ c' ^ 2
  mm : m ^ 2 + (m * (14215 / 10000 + d * m) + 101 / 100 * m + d) ^ 2 ≤ m' ^ 2
  pp : p + q * (d * (c + m * etaS + etaS + etaS) + 4 * etaS) + 101 / 100 * (c + m * etaS + etaS + etaS) + d * etaS + 2 * etaS ≤ p'
  pp' : p + etaS + q * etaS ≤ p'
  qq : q * (14215 / 10000 + d * m) + 101 / 100 * m + d ≤ q'
  qq' : q ≤ q'

theorem numStep (k : ℕ) (hk : k < 9) :
    NumStep (cK k) (mK k) (dT (k + 1)) (pK k) (qK k) (cK (k + 1)) (mK (k + 1)) (pK (k + 1)) (qK (k + 1)) := by
  interval_cases k <;>
  · constructor <;> norm_num [cK, mK, pK, qK, etaS, dT]

set_option maxHeartbeats 1000000 in
/-- The bounds propagate. -/
theorem step_sound {c m d p q c' m' p' q' : ℝ} (h : NumStep c m d p q c' m' p' q') {s0 s1 a0 a1 s a : ℝ} (hs0 : 0 ≤ s0)
    (hs1 : 0 ≤ s1) (ha0 : 0 ≤ a0) (ha1 : 0 ≤ a1) (hs : 0 ≤ s) (ha : 0 ≤ a) (hss : s0 ^ 2 + s1 ^ 2 ≤ s ^ 2)
    (haa : a0 ^ 2 + a1 ^ 2 ≤ a ^ 2) (hT : s + p' + q' * a ≤ 2 ^ 31 - 200) {D : ℝ} (hD : D = c + m * (a1 + etaS) + etaS) :
    s1 + etaS + p + q * (a1 + etaS) ≤ 2 ^ 31 - 200 ∧
    s0 + (101 / 100 * (D + etaS) + d * (a1 + etaS) + etaS) + etaS + p
      + q * (a0 + d * (D + etaS) + 101 / 100 * (a1 + etaS) + etaS + etaS) ≤ 2 ^ 31 - 200 ∧
    (c + m * (a0 + d * (D + etaS) + 101 / 100 * (a1 + etaS) + etaS + etaS) + etaS
          + (101 / 100 * (D + etaS) + d * (a1 + etaS) + etaS)) ^ 2 + D ^ 2 ≤ (c' + m' * a) ^ 2 := by
  obtain ⟨c0, m0, p0, q1, d0, c0', m0', cc, mm, pp, pp', qq, qq'⟩ := h
  have he : (0 : ℝ) < etaS := by unfold etaS; norm_num
  have i0 : s0 ≤ s := (abs_le_of_sq_le_sq' (by nlinarith [sq_nonneg s1]) hs).2
  have i1 : s1 ≤ s := (abs_le_of_sq_le_sq' (by nlinarith [sq_nonneg s0]) hs).2
  have j1 : a1 ≤ a := (abs_le_of_sq_le_sq' (by nlinarith [sq_nonneg a0]) ha).2
  have j2 : a0 + 101 / 100 * a1 ≤ 14215 / 10000 * a := by
    refine (abs_le_of_sq_le_sq' ?_ (by positivity)).2
    have e : (a0 + 101 / 100 * a1) ^ 2 = 20201 / 10000 * (a0 ^ 2 + a1 ^ 2) - (101 / 100 * a0 - a1) ^ 2 := by ring
    rw [e, mul_pow]
    have h1 := sq_nonneg (101 / 100 * a0 - a1)
    have h2 := sq_nonneg a
    clear * - h1 h2 haa
    linarith
  set C1 := c + m * etaS + etaS with hC1
  have D1 : D ≤ C1 + m * a := by
    have := mul_le_mul_of_nonneg_left j1 m0
    rw [hD, hC1]; linarith
  have D0 : 0 ≤ D := by rw [hD]; positivity
  have C10 : 0 ≤ C1 := by rw [hC1]; positivity
  have dD : d * D ≤ d * (C1 + m * a) := mul_le_mul_of_nonneg_left D1 d0
  have da : d * a1 ≤ d * a := mul_le_mul_of_nonneg_left j1 d0
  have aL : a0 + d * (D + etaS) + 101 / 100 * (a1 + etaS) + etaS + etaS
      ≤ (14215 / 10000 + d * m) * a + (d * (C1 + etaS) + 4 * etaS) := by
    linarith
  have aL0 : 0 ≤ a0 + d * (D + etaS) + 101 / 100 * (a1 + etaS) + etaS + etaS := by positivity
  have qa : q * a ≤ q' * a := mul_le_mul_of_nonneg_right qq' ha
  have qa1 : q * a1 ≤ q * a := mul_le_mul_of_nonneg_left j1 (by linarith)
  have qL := mul_le_mul_of_nonneg_left aL (by linarith : 0 ≤ q)
  have mL := mul_le_mul_of_nonneg_left aL m0
  have qqa := mul_le_mul_of_nonneg_right qq ha
  refine ⟨by linarith, by linarith, ?_⟩
  set C2 := c + m * (d * (C1 + etaS) + 4 * etaS) + etaS + 101 / 100 * (C1 + etaS) + d * etaS + etaS with hC2
  set M2 := m * (14215 / 10000 + d * m) + 101 / 100 * m + d with hM2
  have E2 : c + m * (a0 + d * (D + etaS) + 101 / 100 * (a1 + etaS) + etaS + etaS) + etaS
      + (101 / 100 * (D + etaS) + d * (a1 + etaS) + etaS) ≤ C2 + M2 * a := by
    rw [hC2, hM2]; linarith
  have E20 : 0 ≤ c + m * (a0 + d * (D + etaS) + 101 / 100 * (a1 + etaS) + etaS + etaS) + etaS
      + (101 / 100 * (D + etaS) + d * (a1 + etaS) + etaS) := by positivity
  have F1 := pow_le_pow_left₀ E20 E2 2
  have F2 := pow_le_pow_left₀ D0 D1 2
  have M20 : 0 ≤ M2 := by rw [hM2]; positivity
  have C20 : 0 ≤ C2 := by rw [hC2]; positivity
  refine (add_le_add F1 F2).trans ?_
  clear_value C1 C2 M2
  have cs : C2 * M2 + C1 * m ≤ c' * m' := by
    refine (abs_le_of_sq_le_sq' ?_ (by positivity)).2
    have h1 := mul_le_mul cc mm (by positivity) (by positivity)
    have h2 := sq_nonneg (C2 * m - C1 * M2)
    have e : (C2 * M2 + C1 * m) ^ 2 = (C1 ^ 2 + C2 ^ 2) * (m ^ 2 + M2 ^ 2) - (C2 * m - C1 * M2) ^ 2 := by ring
    rw [e, mul_pow]
    linarith
  have cs' := mul_le_mul_of_nonneg_left cs ha
  have mm' := mul_le_mul_of_nonneg_left mm (sq_nonneg a)
  have e : (C2 + M2 * a) ^ 2 + (C1 + m * a) ^ 2
      = (C1 ^ 2 + C2 ^ 2) + 2 * (a * (C2 * M2 + C1 * m)) + a ^ 2 * (m ^ 2 + M2 ^ 2) := by ring
  have e' : (c' + m' * a) ^ 2 = c' ^ 2 + 2 * (a * (c' * m')) + a ^ 2 * m' ^ 2 := by ring
  rw [e, e']
  linarith

theorem symP_zero (x : Mem ℂ) : symP 0 x 0 = ((x 0).re : ℂ) := by
  unfold symP mir
  rw [show 2 ^ 0 - 1 - 0 = 0 from rfl, Complex.add_conj]
  push_cast; ring

section
variable {A : Arith ℝ ℂ} (hA : Accurate A)
include hA

/-- Every subtree below the root. -/
theorem sampOk {S : Type} {leaf : LeafSampler ℝ S} (hg : GoodLeaf leaf) : ∀ (k level : ℕ) (T : Mem ℂ) (t : FTree ℂ), k ≤ 9 →
    TRep k level T t → LBound k t → (∀ v ∈ t.leaves, LeafOk v) → SampOk A leaf k t (cK k) (mK k) (pK k) (qK k) := by
  intro k
  induction k with
  | zero =>
    intro level T t _ hr _ hv t0 t1 pos s a hs ha hss haa hT
    cases t with
    | node _ _ _ => exact hr.elim
    | leaf v =>
      have hlv := hv v (by simp [FTree.leaves])
      rw [rms_zero, rms_zero, symP_zero, symP_zero, Complex.norm_real, Complex.norm_real, Real.norm_eq_abs,
        Real.norm_eq_abs] at hss
      have hT' : s ≤ 2 ^ 31 - 200 := by
        have : pK 0 = 0 := rfl
        have : qK 0 = 1 := rfl
        rw [‹pK 0 = 0›, ‹qK 0 = 1›] at hT
        linarith
      have i0 : |(t0 0).re| ≤ 2 ^ 31 - 100 := by
        have := (abs_le_of_sq_le_sq' (by nlinarith [sq_nonneg |(t1 0).re|] : |(t0 0).re| ^ 2 ≤ s ^ 2) hs).2
        linarith
      have i1 : |(t1 0).re| ≤ 2 ^ 31 - 100 := by
        have := (abs_le_of_sq_le_sq' (by nlinarith [sq_nonneg |(t0 0).re|] : |(t1 0).re| ^ 2 ≤ s ^ 2) hs).2
        linarith
      constructor
      · intro e h
        unfold sampleTree at h
        rw [hA.re, hA.re, hA.re] at h
        rcases bindO_some h with ⟨u, h, -⟩ | ⟨za, _, h⟩
        · exact (hg _ _ pos i0 hlv.1 hlv.2).1 _ h
        rcases bindO_some h with ⟨u, h, -⟩ | ⟨zb, _, h⟩
        · exact (hg _ _ za.2 i1 hlv.1 hlv.2).1 _ h
        · cases h
      · intro z h
        unfold sampleTree at h
        rw [hA.re, hA.re, hA.re] at h
        obtain ⟨za, hza, h⟩ := bindO_ok h
        obtain ⟨zb, hzb, h⟩ := bindO_ok h
        have h := Except.ok.inj (Option.some.inj h)
        have g0 := (hg _ _ pos i0 hlv.1 hlv.2).2 _ hza
        have g1 := (hg _ _ za.2 i1 hlv.1 hlv.2).2 _ hzb
        refine ⟨fun _ => za.1, fun _ => zb.1, ?_, ?_, ?_⟩
        · rw [← h]; exact ofInt_near0 hA _ 0 rfl
        · rw [← h]; exact ofInt_near0 hA _ 0 rfl
        · have d0 : ∀ w : ℤ, dft 0 (zC fun _ => w) 0 = ((w : ℝ) : ℂ) := by intro w; simp [dft, zC]
          rw [rms_zero, rms_zero, symP_zero, symP_zero, d0, d0, ← Complex.ofReal_sub, ← Complex.ofReal_sub, Complex.norm_real,
            Complex.norm_real, Real.norm_eq_abs, Real.norm_eq_abs]
          have q0 := pow_le_pow_left₀ (abs_nonneg _) g0 2
          have q1 := pow_le_pow_left₀ (abs_nonneg _) g1 2
          have : cK 0 + mK 0 * a = 672 / 25 := by
            rw [show cK 0 = 672 / 25 from rfl, show mK 0 = 0 from rfl]; ring
          rw [this]
          norm_num at q0 q1 ⊢
          linarith
  | succ k ih =>
    intro level T t hk hr hb hv t0 t1 pos s a hs ha hss haa hT
    cases t with
    | leaf v => exact hr.elim
    | node l L R =>
      obtain ⟨hb1, ⟨y, hy, hyd⟩, hbL, hbR⟩ := hb
      rw [Nat.add_sub_cancel] at hbL hbR
      simp only [FTree.leaves, List.mem_append] at hv
      have hL := ih _ _ L (by omega) hr.2.1 hbL (fun v h => hv v (Or.inl h))
      have hR := ih _ _ R (by omega) hr.2.2 hbR (fun v h => hv v (Or.inr h))
      have num := numStep k (by omega)
      obtain ⟨n1, n2, n3⟩ := step_sound num (rms_nonneg _ _) (rms_nonneg _ _) (rms_nonneg _ _) (rms_nonneg _ _) hs ha hss haa hT rfl
      have st := node_step hA (by omega) hL hR hb1 (by norm_num) (by norm_num) hy
        (fun i hi => (hyd i hi).trans (dK_le (k + 1) (by omega) hk)) num.d0 num.c0 num.m0 num.p0 num.q1 t0 t1 pos le_rfl le_rfl
        le_rfl le_rfl rfl n1 n2
      refine ⟨st.1, fun z hz => ?_⟩
      obtain ⟨b0, b1, v1, v2, v3, v4⟩ := st.2 z hz
      refine ⟨b0, b1, v1, v2, le_trans ?_ n3⟩
      exact add_le_add (pow_le_pow_left₀ (rms_nonneg _ _) v4 2) (pow_le_pow_left₀ (rms_nonneg _ _) v3 2)

end

end Falcon
