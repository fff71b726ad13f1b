import Verif.Props.Timing

/-!
# C119: a round of signing together with its iteration counts can be simulated from the public key

Random bytes are independent and uniform: `freq k P` is the fraction of byte strings of length k for which P holds.
-/

namespace Falcon

open Finset

/-- Every joint event of the iteration counts and the pair of one round has the probability it has in the simulation, up to 2^-22. -/
theorem C119_round {n : ℕ} (hn : ValidLog n) {h : Mem Ff} {f g F G : Mem Int} (tr : Trapdoor n h f g F G)
    (B0 T0 z0 z1 : Mem ℂ) {c : Mem Ff} (hc : CanonBelow (2 ^ n) c) (m : ℕ) (E : List ℕ → PairZ n → Prop) :
    |roundPr n m f g F G B0 T0 z0 z1 c E - simPr n (sigmaSig n) m h c E| ≤ 1 / 2 ^ 22 := by
  obtain ⟨t, ht, hl⟩ := C80_leaves_exact hn tr B0 T0
  obtain ⟨b1, b2, hsum, -⟩ := C118_param hn m
  have h1 := C118_joint accurate_exact hn tr.eq tr.fits (trap_small tr) B0 T0 z0 z1 hc ht hl m fun l y0 y1 => ∃ s : PairZ n,
    IsDftOf n (signVec exactA n (computeMatrixB exactA n f g F G B0) (signTarget exactA n (computeMatrixB exactA n f g F G B0) c).1
      (signTarget exactA n (computeMatrixB exactA n f g F G B0) c).2 y0 y1).1 (tapeOf s.1) ∧
    IsDftOf n (signVec exactA n (computeMatrixB exactA n f g F G B0) (signTarget exactA n (computeMatrixB exactA n f g F G B0) c).1
      (signTarget exactA n (computeMatrixB exactA n f g F G B0) c).2 y0 y1).2 (tapeOf s.2) ∧ E l s
  have hg0 : ∀ k : Fin (2 ^ (n + 1)) → Fin m, 0 ≤ geoPr n k := fun k =>
    prod_nonneg fun i _ => mul_nonneg (by linarith) (pow_nonneg (by linarith) _)
  have hg1 : ∑ k : Fin (2 ^ (n + 1)) → Fin m, geoPr n k ≤ 1 := by
    rw [hsum]
    have p0 : 0 ≤ (1 - iterAcc n) ^ m := pow_nonneg (by linarith) m
    have p1 : (1 - iterAcc n) ^ m ≤ 1 := pow_le_one₀ (by linarith) (by linarith)
    exact pow_le_one₀ (by linarith) (by linarith)
  have h2 : |timedPr exactA n m (signTarget exactA n (computeMatrixB exactA n f g F G B0) c).1
      (signTarget exactA n (computeMatrixB exactA n f g F G B0) c).2 (computeFalconTree exactA n (computeMatrixB exactA n f g F G B0) T0) z0 z1
      (fun l y0 y1 => ∃ s : PairZ n,
    IsDftOf n (signVec exactA n (computeMatrixB exactA n f g F G B0) (signTarget exactA n (computeMatrixB exactA n f g F G B0) c).1
      (signTarget exactA n (computeMatrixB exactA n f g F G B0) c).2 y0 y1).1 (tapeOf s.1) ∧
    IsDftOf n (signVec exactA n (computeMatrixB exactA n f g F G B0) (signTarget exactA n (computeMatrixB exactA n f g F G B0) c).1
      (signTarget exactA n (computeMatrixB exactA n f g F G B0) c).2 y0 y1).2 (tapeOf s.2) ∧ E l s) - simPr n (sigmaSig n) m h c E| ≤ 1 / 2 ^ 25 := by
    unfold timedPr simPr
    rw [← sum_sub_distrib]
    refine (abs_sum_le_sum_abs _ _).trans ((sum_le_sum fun k _ => ?_).trans (b := ∑ k : Fin (2 ^ (n + 1)) → Fin m, geoPr n k * (1 / 2 ^ 25)) ?_)
    · rw [← mul_sub, abs_mul, abs_of_nonneg (hg0 k)]
      refine mul_le_mul_of_nonneg_left ((C81_ideal hn tr B0 T0 z0 z1 c (E (countsOf k))).trans ?_) (hg0 k)
      exact mul_le_of_le_one_right (by norm_num) (C81_probability hn tr c _).2.1
    · rw [← sum_mul]
      exact mul_le_of_le_one_left (by norm_num) hg1
  refine (tri h1 h2).trans ?_
  rcases hn with rfl | rfl <;> norm_num

/-- Pair and iteration counts of one round do not tell two secret keys of the same public key apart. -/
theorem C119_basis {n : ℕ} (hn : ValidLog n) {h : Mem Ff} {f g F G f' g' F' G' : Mem Int} (tr : Trapdoor n h f g F G)
    (tr' : Trapdoor n h f' g' F' G') (B0 T0 z0 z1 : Mem ℂ) {c : Mem Ff} (hc : CanonBelow (2 ^ n) c) (m : ℕ) (E : List ℕ → PairZ n → Prop) :
    |roundPr n m f g F G B0 T0 z0 z1 c E - roundPr n m f' g' F' G' B0 T0 z0 z1 c E| ≤ 2 * (1 / 2 ^ 22) :=
  tri4 (C119_round hn tr B0 T0 z0 z1 hc m E) (C119_round hn tr' B0 T0 z0 z1 hc m E)

/-- Two secret keys of one public key and a hashed point. -/
example : ∃ (h : Mem Ff) (f g F G F' G' : Mem Int), Trapdoor 9 h f g F G ∧ Trapdoor 9 h f g F' G' ∧ F 0 ≠ F' 0 ∧
    CanonBelow (2 ^ 9) (fun _ => (⟨7⟩ : Ff)) :=
  ⟨_, _, _, _, _, _, _, flat_trapdoor, flat_trapdoor', by decide, fun i _ => by show (7 : UInt16).toNat < 12289; decide⟩

end Falcon
