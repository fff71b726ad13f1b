import Verif.Props.SignGauss
import Verif.Proofs.TimingRound

/-!
# C118: the numbers of iterations of the integer sampler do not depend on the secret key

Random bytes are independent and uniform: `freq k P` is the fraction of byte strings of length k for which P holds.
-/

namespace Falcon

open Finset

/-- The 2N numbers of iterations in one round of sampling are, up to 2N 2^-34, independent geometric numbers of one fixed parameter, and they
are independent of the sampled vectors: for every secret key with leaves at least sigma_min, every hashed point and every joint event of
the numbers and the output. Calls with more than m attempts are counted on neither side. -/
theorem C118_joint {A : Arith ℝ ℂ} (hA : Accurate A) {n : ℕ} (hn : ValidLog n) {f g F G : Mem Int} (heq : NtruEq n f g F G)
    (hfit : FitsFormat n f g F G) (hgs : GsSmall n f g) (B0 T0 z0 z1 : Mem ℂ) {c : Mem Ff} (hc : CanonBelow (2 ^ n) c) {t : FTree ℂ}
    (ht : TreeAt n (computeFalconTree A n (computeMatrixB A n f g F G B0) T0) 0 0 t) (hl : ∀ v ∈ t.leaves, sigmaMin n ≤ A.re v)
    (m : ℕ) (E : List ℕ → Mem ℂ → Mem ℂ → Prop) :
    let B := computeMatrixB A n f g F G B0
    let T := computeFalconTree A n B T0
    let u := signTarget A n B c
    |freq (18 * m * 2 ^ (n + 1)) (fun s => ∃ r, ffSampling A (timedLeaf n m s) n 0 u.1 u.2 T z0 z1 (0, []) = some (.ok r) ∧
        E r.2.2.2 r.1 r.2.1) - timedPr A n m u.1 u.2 T z0 z1 E| ≤ 2 ^ (n + 1) * (1 / 2 ^ 34) := by
  intro B T u
  exact timed_dist hn ht (leaves_both hA hn heq hfit hgs ht hl)
    (fun S leaf hg s e => signSampling_defined hA hg hn heq hfit hgs B0 T0 z0 z1 hc s e) m E

/-- The numbers alone: the distribution on the right is given by the parameter set. -/
theorem C118_counts {A : Arith ℝ ℂ} (hA : Accurate A) {n : ℕ} (hn : ValidLog n) {f g F G : Mem Int} (heq : NtruEq n f g F G)
    (hfit : FitsFormat n f g F G) (hgs : GsSmall n f g) (B0 T0 z0 z1 : Mem ℂ) {c : Mem Ff} (hc : CanonBelow (2 ^ n) c) {t : FTree ℂ}
    (ht : TreeAt n (computeFalconTree A n (computeMatrixB A n f g F G B0) T0) 0 0 t) (hl : ∀ v ∈ t.leaves, sigmaMin n ≤ A.re v)
    (m : ℕ) (E : List ℕ → Prop) [DecidablePred E] :
    let B := computeMatrixB A n f g F G B0
    let T := computeFalconTree A n B T0
    let u := signTarget A n B c
    |freq (18 * m * 2 ^ (n + 1)) (fun s => ∃ r, ffSampling A (timedLeaf n m s) n 0 u.1 u.2 T z0 z1 (0, []) = some (.ok r) ∧ E r.2.2.2)
      - ∑ k : Fin (2 ^ (n + 1)) → Fin m, (if E (countsOf k) then geoPr n k else 0)| ≤ 2 ^ (n + 1) * (1 / 2 ^ 34) := by
  intro B T u
  have hmin := (keyOk_bounds hn).1
  have h := C118_joint hA hn heq hfit hgs B0 T0 z0 z1 hc ht hl m fun l _ _ => E l
  have e : timedPr A n m u.1 u.2 T z0 z1 (fun l _ _ => E l)
      = ∑ k : Fin (2 ^ (n + 1)) → Fin m, (if E (countsOf k) then geoPr n k else 0) := by
    refine sum_congr rfl fun k _ => ?_
    by_cases hE : E (countsOf k)
    · simp only [hE, if_true]
      rw [idealPr_total A ht fun v hv => by linarith [hl v hv], mul_one]
    · simp only [hE, if_false]
      have : idealPr A n u.1 u.2 T z0 z1 (fun _ _ => False) = 0 := by
        unfold idealPr
        rw [← tsum_zero (α := ℝ) (β := Fin (2 ^ (n + 1)) → ℤ)]
        refine tsum_congr fun v => ?_
        split <;> simp
      rw [this, mul_zero]
  rw [← e]
  exact h

/-- The probability that an iteration ends the call is at least one half, and within m attempts all calls of a round end except with
probability 2N 2^-m. -/
theorem C118_param {n : ℕ} (hn : ValidLog n) (m : ℕ) : 1 / 2 ≤ iterAcc n ∧ iterAcc n < 1 ∧
    ∑ k : Fin (2 ^ (n + 1)) → Fin m, geoPr n k = (1 - (1 - iterAcc n) ^ m) ^ 2 ^ (n + 1) ∧
    1 - 2 ^ (n + 1) / 2 ^ m ≤ (1 - (1 - iterAcc n) ^ m) ^ 2 ^ (n + 1) := by
  have hmin := (keyOk_bounds hn).1
  have hs : sigmaMin n ≤ sigmaMax := (keyOk_bounds hn).2.1.trans (keyOk_bounds hn).2.2
  have hb := accIdeal_bounds hmin hs
  have b1 : 1 / 2 ≤ iterAcc n := by show 1 / 2 ≤ accIdeal (sigmaMin n); norm_num at hb; linarith
  have b2 : iterAcc n < 1 := by show accIdeal (sigmaMin n) < 1; norm_num at hb; linarith
  refine ⟨b1, b2, ?_, ?_⟩
  · unfold geoPr
    rw [← Fintype.prod_sum fun (_ : Fin (2 ^ (n + 1))) (j : Fin m) => iterAcc n * (1 - iterAcc n) ^ (j : ℕ), prod_const, card_univ,
      Fintype.card_fin]
    have h := geom_sum_mul_neg (1 - iterAcc n) m
    rw [sub_sub_cancel] at h
    rw [← h, ← mul_sum, mul_comm, sum_range]
  · have hp : (1 - iterAcc n) ^ m ≤ 1 / 2 ^ m := by
      rw [← one_div_pow]; exact pow_le_pow_left₀ (by linarith) (by linarith) m
    have hp1 : (1 - iterAcc n) ^ m ≤ 1 := pow_le_one₀ (by linarith) (by linarith)
    have hB := one_add_mul_le_pow (a := -(1 - iterAcc n) ^ m) (by linarith) (2 ^ (n + 1))
    rw [← sub_eq_add_neg] at hB
    refine le_trans ?_ hB
    push_cast
    have h0 : (0 : ℝ) ≤ 2 ^ (n + 1) := by positivity
    have := mul_le_mul_of_nonneg_left hp h0
    rw [mul_one_div] at this
    linarith

/-- Two signers with different secret keys, hashed points and arithmetic: no event of the numbers of iterations tells them apart with
advantage above 4N 2^-34. -/
theorem C118_two {A A' : Arith ℝ ℂ} (hA : Accurate A) (hA' : Accurate A') {n : ℕ} (hn : ValidLog n) {f g F G f' g' F' G' : Mem Int}
    (heq : NtruEq n f g F G) (heq' : NtruEq n f' g' F' G') (hfit : FitsFormat n f g F G) (hfit' : FitsFormat n f' g' F' G')
    (hgs : GsAtMost 16810 n f g) (hgs' : GsAtMost 16810 n f' g')
    (B0 T0 z0 z1 B0' T0' z0' z1' : Mem ℂ) {c c' : Mem Ff} (hc : CanonBelow (2 ^ n) c) (hc' : CanonBelow (2 ^ n) c') (m : ℕ) (E : List ℕ → Prop) :
    let B := computeMatrixB A n f g F G B0
    let T := computeFalconTree A n B T0
    let u := signTarget A n B c
    let B' := computeMatrixB A' n f' g' F' G' B0'
    let T' := computeFalconTree A' n B' T0'
    let u' := signTarget A' n B' c'
    |freq (18 * m * 2 ^ (n + 1)) (fun s => ∃ r, ffSampling A (timedLeaf n m s) n 0 u.1 u.2 T z0 z1 (0, []) = some (.ok r) ∧ E r.2.2.2)
      - freq (18 * m * 2 ^ (n + 1)) (fun s => ∃ r, ffSampling A' (timedLeaf n m s) n 0 u'.1 u'.2 T' z0' z1' (0, []) = some (.ok r) ∧
        E r.2.2.2)| ≤ 2 ^ (n + 2) * (1 / 2 ^ 34) := by
  classical
  intro B T u B' T' u'
  obtain ⟨t, ht, hl⟩ := C80_leaves hA hn heq hfit hgs B0 T0
  obtain ⟨t', ht', hl'⟩ := C80_leaves hA' hn heq' hfit' hgs' B0' T0'
  have h := C118_counts hA hn heq hfit (hgs.mono (by norm_num)) B0 T0 z0 z1 hc ht hl m E
  have h' := C118_counts hA' hn heq' hfit' (hgs'.mono (by norm_num)) B0' T0' z0' z1' hc' ht' hl' m E
  refine (tri h ((abs_sub_comm _ _).trans_le h')).trans (le_of_eq ?_)
  rw [pow_succ 2 (n + 1)]
  ring

/-- Inside an iteration the only loop of variable length is the comparison of random bytes with the threshold. Its length, 1 to 8 bytes, has
the same distribution for every threshold, so for every centre, deviation and candidate. -/
theorem C118_bytes {fma : Bool} {x ccs : ℝ} {z : UInt64} (hz : berThreshold fma x ccs = .ok z) (k : ℕ) (h1 : 1 ≤ k) (h8 : k ≤ 8) :
    freq 8 (fun s => ∃ b, berExp fma x ccs s 0 = .ok (b, k)) = if k < 8 then 255 / 256 ^ k else 1 / 256 ^ 7 := by
  rw [← berLoop_bytes z k h1 h8]
  congr 1
  funext s
  apply propext
  unfold berExp
  rw [hz]
  constructor
  · rintro ⟨b, hb⟩
    have hb : berLoop z s 64 0 = (b, k) := Except.ok.inj hb
    rw [hb]
  · intro h
    exact ⟨(berLoop z s 64 0).1, congrArg Except.ok (Prod.ext rfl h)⟩

/-- The threshold is defined for an exponent of the sampler. -/
example : ∃ z, berThreshold false (3 / 2) (7 / 8) = .ok z :=
  ⟨_, berThreshold_ok ⟨3, -1, by norm_num, by norm_num, by norm_num⟩ ⟨7, -3, by norm_num, by norm_num, by norm_num⟩ (by norm_num) (by norm_num)
    (by norm_num) (by norm_num)⟩

/-- A key and two hashed points that meet the hypotheses in exact arithmetic and in binary64. -/
example : ∃ f g F G : Mem Int, NtruEq 9 f g F G ∧ FitsFormat 9 f g F G ∧ GsSmall 9 f g ∧ GsAtMost 16810 9 f g ∧
    CanonBelow (2 ^ 9) (fun _ => (⟨7⟩ : Ff)) ∧ CanonBelow (2 ^ 9) (fun i => if i = 3 then (⟨12288⟩ : Ff) else ⟨0⟩) :=
  ⟨flatf, flatg, flatF, flatG, flatKey_eq, flatKey_fits, flatKey_gs, flatKey_most, fun i _ => by show (7 : UInt16).toNat < 12289; decide,
    fun i _ => by
      dsimp only
      split
      · show (12288 : UInt16).toNat < 12289; decide
      · show (0 : UInt16).toNat < 12289; decide⟩

end Falcon
