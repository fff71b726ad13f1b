import Verif.Proofs.HashMean

/-! # The squared norm of a uniform point -/

namespace Falcon

open Real

/-- The representative that verification takes for a residue. -/
def cen (j : Fin 12289) : ℤ := if j.val < 6144 then (j.val : ℤ) else j.val - 12289

/-- Squared norm of the representatives of a point. -/
def pointSq {n : ℕ} (v : Point n) : ℤ := ∑ i, cen (v i) ^ 2

/-! ### The point s1 = c - s2 h is uniform with c -/

theorem tail_congr {n : ℕ} (hn : ValidLog n) {h c c' : Mem Ff} {s2 : Mem Int} (hh : FitsBelow (2 ^ n) h) (hs : ∀ i, i < 2 ^ n → (s2 i).natAbs ≤ 1023)
    (hc : CanonBelow (2 ^ n) c) (he : ∀ i, i < 2 ^ n → c i = c' i) : codeNorm n h c s2 = codeNorm n h c' s2 := by
  have hc' : CanonBelow (2 ^ n) c' := fun i hi => by rw [← he i hi]; exact hc i hi
  have h1 := preimage_tail hn hh hc hs
  have h2 := preimage_tail hn hh hc' hs
  have e : polyZq (2 ^ n) c = polyZq (2 ^ n) c' := toPoly_congr fun i hi => by rw [he i hi]
  unfold Preimage at h1 h2
  rw [e] at h1
  have h3 := preimage_cong (h := h) (s2 := s2) (c := c') (Nat.two_pow_pos n) h1 h2
  unfold codeNorm
  congr 1
  refine sqNorm_congr fun i hi => ?_
  have a1 := (tailS1_spec hn hh hc hs).1 i hi
  have a2 := (tailS1_spec hn hh hc' hs).1 i hi
  have a3 := h3 i hi
  rw [ZMod.intCast_eq_intCast_iff] at a3
  have a4 : centre (tailS1 n h c s2 i) % 12289 = centre (tailS1 n h c' s2 i) % 12289 := a3
  unfold Ff.Canonical at a1 a2
  have hq : q = 12289 := rfl
  rw [centre_eq, centre_eq] at *
  split at a4 <;> split at a4 <;> rename_i b1 b2 <;> simp only [b1, b2, if_true, if_false] <;> omega

/-- The point of the residues of c - s2 h. -/
def s1Point {n : ℕ} (hn : ValidLog n) {h : Mem Ff} {s2 : Mem Int} (hh : FitsBelow (2 ^ n) h) (hs : ∀ i, i < 2 ^ n → (s2 i).natAbs ≤ 1023) (v : Point n) : Point n :=
  fun i => ⟨(tailS1 n h (pointOf v) s2 i.1).v.toNat, (tailS1_spec hn hh (pointOf_canon v) hs).1 i.1 i.2⟩

theorem s1Point_inj {n : ℕ} (hn : ValidLog n) {h : Mem Ff} {s2 : Mem Int} (hh : FitsBelow (2 ^ n) h) (hs : ∀ i, i < 2 ^ n → (s2 i).natAbs ≤ 1023) :
    Function.Injective (s1Point hn hh hs) := by
  intro v v' he
  have h1 := (tailS1_spec hn hh (pointOf_canon v) hs).2
  have h2 := (tailS1_spec hn hh (pointOf_canon v') hs).2
  have e : polyZq (2 ^ n) (tailS1 n h (pointOf v) s2) = polyZq (2 ^ n) (tailS1 n h (pointOf v') s2) := toPoly_congr fun i hi => by
    have := congrArg Fin.val (congrFun he ⟨i, hi⟩)
    have : (tailS1 n h (pointOf v) s2 i).v.toNat = (tailS1 n h (pointOf v') s2 i).v.toNat := this
    rw [ff_ext this]
  rw [e] at h1
  refine point_unique ?_
  unfold ModEqXN at *
  have := dvd_sub h1 h2
  have e2 : polyZq (2 ^ n) (pointOf v) - polyInt (2 ^ n) s2 * polyZq (2 ^ n) h - polyZq (2 ^ n) (tailS1 n h (pointOf v') s2) -
      (polyZq (2 ^ n) (pointOf v') - polyInt (2 ^ n) s2 * polyZq (2 ^ n) h - polyZq (2 ^ n) (tailS1 n h (pointOf v') s2)) =
      polyZq (2 ^ n) (pointOf v) - polyZq (2 ^ n) (pointOf v') := by ring
  rwa [e2] at this

theorem codeNorm_point {n : ℕ} (hn : ValidLog n) {h : Mem Ff} {s2 : Mem Int} (hh : FitsBelow (2 ^ n) h) (hs : ∀ i, i < 2 ^ n → (s2 i).natAbs ≤ 1023)
    (v : Point n) : codeNorm n h (pointOf v) s2 = sqNorm (2 ^ n) s2 + pointSq (s1Point hn hh hs v) := by
  unfold codeNorm pointSq
  congr 1
  unfold sqNorm
  rw [Finset.sum_range]
  refine Finset.sum_congr rfl fun i _ => ?_
  show centre _ ^ 2 = _
  rw [centre_eq]
  rfl

/-- Over all points c, the norm that verification computes is distributed as the norm of a uniform point. -/
theorem norm_shift {n : ℕ} (hn : ValidLog n) {h : Mem Ff} {s2 : Mem Int} (hh : FitsBelow (2 ^ n) h) (hs : ∀ i, i < 2 ^ n → (s2 i).natAbs ≤ 1023)
    (F : ℤ → ℝ) : ∑ v : Point n, F (codeNorm n h (pointOf v) s2) = ∑ v : Point n, F (sqNorm (2 ^ n) s2 + pointSq v) := by
  have hb := (Finite.injective_iff_bijective.mp (s1Point_inj hn hh hs))
  refine Fintype.sum_bijective _ hb _ _ fun v => ?_
  rw [codeNorm_point hn hh hs]

/-- How often the computed norm has a property, over uniform XOF output. -/
theorem norm_freq {n : ℕ} (hn : ValidLog n) (fuel : ℕ) {h : Mem Ff} {s2 : Mem Int} (hh : FitsBelow (2 ^ n) h) (hs : ∀ i, i < 2 ^ n → (s2 i).natAbs ≤ 1023)
    (c0 : Mem Ff) (E : ℤ → Prop) [DecidablePred E] :
    freq (136 * fuel) (fun st => ∃ c, hashToPoint fuel n st c0 = some c ∧ E (codeNorm n h c s2)) =
    freq (136 * fuel) (fun st => ∃ c, hashToPoint fuel n st c0 = some c) *
      ((∑ v : Point n, if E (sqNorm (2 ^ n) s2 + pointSq v) then (1 : ℝ) else 0) / 12289 ^ 2 ^ n) := by
  classical
  rw [← norm_shift hn hh hs fun z => if E z then (1 : ℝ) else 0]
  have h1 := hash_mean (n := n) (fuel := fuel) c0 (fun c => if CanonBelow (2 ^ n) c ∧ E (codeNorm n h c s2) then (1 : ℝ) else 0) fun c c' he => by
    by_cases hc : CanonBelow (2 ^ n) c
    · have hc' : CanonBelow (2 ^ n) c' := fun i hi => by rw [← he i hi]; exact hc i hi
      simp only [hc, hc', true_and, tail_congr hn hh hs hc he]
    · have hc' : ¬ CanonBelow (2 ^ n) c' := fun h => hc fun i hi => by rw [he i hi]; exact h i hi
      simp only [hc, hc', false_and]
  simp only [pointOf_canon, true_and] at h1
  rw [← h1, freq_sum]
  congr 1
  refine Finset.sum_congr rfl fun w _ => ?_
  cases hw : hashToPoint fuel n (memOf w) c0 with
  | none => simp
  | some c =>
    have hcan := (hashToPoint_spec hw).1.canon
    simp [hcan]

/-! ### Few points are short -/

/-- At most e^(N/2) Z^N points have squared norm at most N s^2, where Z is the Gaussian sum of width s. -/
theorem ball_share {n : ℕ} {B s : ℝ} (hs : 6 / 5 ≤ s) (hB : B = 2 ^ n * s ^ 2) :
    (∑ v : Point n, if ((pointSq v : ℤ) : ℝ) ≤ B then (1 : ℝ) else 0) / 12289 ^ 2 ^ n ≤ (rexp (1 / 2) * (∑' z : ℤ, gaussW 0 s z) / 12289) ^ 2 ^ n := by
  have hs0 : 0 < s := by linarith
  rw [div_pow]
  refine div_le_div_of_nonneg_right ?_ (by positivity)
  have h1 : ∀ v : Point n, (if ((pointSq v : ℤ) : ℝ) ≤ B then (1 : ℝ) else 0) ≤ rexp (1 / 2) ^ 2 ^ n * ∏ i, gaussW 0 s (cen (v i)) := by
    intro v
    have e : rexp (1 / 2) ^ 2 ^ n * ∏ i, gaussW 0 s (cen (v i)) = rexp ((B - (pointSq v : ℤ)) / (2 * s ^ 2)) := by
      unfold gaussW
      rw [← Real.exp_sum, ← Real.exp_nat_mul, ← Real.exp_add]
      congr 1
      unfold pointSq
      push_cast
      rw [hB, sub_div, sub_eq_add_neg, Finset.sum_neg_distrib, ← Finset.sum_div]
      congr 1
      · field_simp
      · simp
    rw [e]
    split
    · rename_i hle
      exact Real.one_le_exp (div_nonneg (by linarith) (by positivity))
    · exact (Real.exp_pos _).le
  refine (Finset.sum_le_sum fun v _ => h1 v).trans ?_
  rw [← Finset.mul_sum, mul_pow]
  refine mul_le_mul_of_nonneg_left ?_ (by positivity)
  have h2 : ∑ v : Point n, ∏ i, gaussW 0 s (cen (v i)) = (∑ j : Fin 12289, gaussW 0 s (cen j)) ^ 2 ^ n := by
    have := Finset.prod_univ_sum (κ := fun _ : Fin (2 ^ n) => Fin 12289) (fun _ => Finset.univ) (fun _ j => gaussW 0 s (cen j))
    rw [Finset.prod_const, Finset.card_univ, Fintype.card_fin] at this
    rw [this, Fintype.piFinset_univ]
  rw [h2]
  have hpos : ∀ z : ℤ, 0 ≤ gaussW 0 s z := fun z => (Real.exp_pos _).le
  refine pow_le_pow_left₀ (Finset.sum_nonneg fun j _ => hpos _) ?_ _
  have hinj : Function.Injective cen := by
    intro a b hab
    unfold cen at hab
    have := a.isLt
    have := b.isLt
    refine Fin.ext ?_
    split at hab <;> split at hab <;> omega
  have h3 := Finset.sum_map Finset.univ ⟨cen, hinj⟩ (fun z => gaussW 0 s z)
  have h4 := (summable_gaussW 0 hs0).sum_le_tsum (Finset.univ.map ⟨cen, hinj⟩) fun z _ => hpos z
  rw [h3] at h4
  exact h4

end Falcon
