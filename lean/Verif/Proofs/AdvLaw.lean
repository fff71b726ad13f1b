import Verif.AdversarySpec
import Verif.Props.SignSalt

/-! # Signing with a random salt, as means; adversaries -/

namespace Falcon

section
variable {n : ℕ} (hn : ValidLog n) {h : Mem Ff} {f g F G : Mem Int} (tr : Trapdoor n h f g F G)
include hn tr

theorem rejectMean_lin (c : Mem Ff) {e e' : PairZ n → ℝ} (he : Unit01 e) (he' : Unit01 e') {d d' : ℝ} (hd : 0 ≤ d ∧ d ≤ 1) (hd' : 0 ≤ d' ∧ d' ≤ 1)
    (a b : ℝ) (R : ℕ) : rejectMean n (sigmaSig n) h c (fun s => a * e s + b * e' s) (a * d + b * d') R =
      a * rejectMean n (sigmaSig n) h c e d R + b * rejectMean n (sigmaSig n) h c e' d' R := by
  classical
  induction R with
  | zero => rfl
  | succ R ih =>
    rw [rejectMean, rejectMean, rejectMean, ih, ← cosetMean_lin hn tr c]
    · congr 1
      funext s
      split <;> rfl
    · intro s
      split <;> first | exact he s | exact rejectMean_mem hn tr c he hd R
    · intro s
      split <;> first | exact he' s | exact rejectMean_mem hn tr c he' hd' R

end

/-- Averaging over byte strings is averaging over their first J bytes and over the rest. -/
theorem avg_append (J K : ℕ) (φ : Mem UInt8 → ℝ) :
    (∑ v : Fin (J + K) → UInt8, φ (memOf v)) / 256 ^ (J + K) =
      (∑ v : Fin J → UInt8, (∑ w : Fin K → UInt8, φ fun i => if i < J then memOf v i else memOf w (i - J)) / 256 ^ K) / 256 ^ J := by
  rw [← Finset.sum_div, div_div, ← pow_add, Nat.add_comm K J]
  congr 1
  rw [← (Fin.appendEquiv J K).sum_comp, Fintype.sum_prod_type]
  refine Finset.sum_congr rfl fun v _ => Finset.sum_congr rfl fun w _ => ?_
  rw [← memOf_append]
  rfl

theorem avg_salt (K : ℕ) (φ : Mem UInt8 → ℝ) :
    (∑ v : Fin (40 + K) → UInt8, φ (memOf v)) / 256 ^ (40 + K) =
      (∑ v : Fin 40 → UInt8, (∑ w : Fin K → UInt8, φ (saltStream (memOf v) (memOf w))) / 256 ^ K) / 256 ^ 40 := avg_append 40 K φ

theorem card_salt : ((Finset.univ : Finset (Fin 40 → UInt8)).card : ℝ) = 256 ^ 40 := by
  rw [Finset.card_univ, Fintype.card_pi, Finset.prod_const, Finset.card_univ, Fintype.card_fin, BTree.card_byte]
  exact Nat.cast_pow 256 40

theorem salt_pos : (0 : ℝ) < 256 ^ 40 := pow_pos (by norm_num) _

/-- Means of numbers and of squares over salts. -/
theorem avg_rel {V W : (Fin 40 → UInt8) → ℝ} {ρ : ℝ} (hV : ∀ v, V v ^ 2 ≤ ρ * W v) :
    ((∑ v, V v) / 256 ^ 40) ^ 2 ≤ ρ * ((∑ v, W v) / 256 ^ 40) := by
  have h1 := sq_sum_le_card_mul_sum_sq (s := (Finset.univ : Finset (Fin 40 → UInt8))) (f := V)
  have hc := card_salt
  have hq := salt_pos
  generalize (256 : ℝ) ^ 40 = q at hc hq ⊢
  rw [hc] at h1
  have h2 : ∑ v, V v ^ 2 ≤ ρ * ∑ v, W v := by
    rw [Finset.mul_sum]
    exact Finset.sum_le_sum fun v _ => hV v
  rw [div_pow, ← mul_div_assoc, div_le_div_iff₀ (by positivity) hq]
  have h3 := mul_le_mul_of_nonneg_left h2 hq.le
  nlinarith

theorem avg_dist {V W : (Fin 40 → UInt8) → ℝ} {d : ℝ} (hV : ∀ v, |V v - W v| ≤ d) :
    |(∑ v, V v) / 256 ^ 40 - (∑ v, W v) / 256 ^ 40| ≤ d := by
  have hc := card_salt
  have hq := salt_pos
  generalize (256 : ℝ) ^ 40 = q at hc hq ⊢
  rw [← sub_div, ← Finset.sum_sub_distrib, abs_div, abs_of_pos hq, div_le_iff₀ hq, mul_comm, ← hc, ← nsmul_eq_mul]
  exact (Finset.abs_sum_le_sum_abs _ _).trans (Finset.sum_le_card_nsmul _ _ _ fun v _ => hV v)

theorem avg_const (a : ℝ) : (∑ _v : Fin 40 → UInt8, a) / 256 ^ 40 = a := by
  have hc := card_salt
  have hq := salt_pos
  generalize (256 : ℝ) ^ 40 = q at hc hq ⊢
  rw [Finset.sum_const, nsmul_eq_mul, hc, mul_div_cancel_left₀ _ hq.ne']

theorem avg_eq {V : (Fin 40 → UInt8) → ℝ} {a : ℝ} (h : ∀ v, V v = a) : (∑ v, V v) / 256 ^ 40 = a := by
  rw [Finset.sum_congr rfl fun v _ => h v]
  exact avg_const a

theorem avg_lin {V W X : (Fin 40 → UInt8) → ℝ} {a b : ℝ} (hX : ∀ v, X v = a * V v + b * W v) :
    (∑ v, X v) / 256 ^ 40 = a * ((∑ v, V v) / 256 ^ 40) + b * ((∑ v, W v) / 256 ^ 40) := by
  rw [Finset.sum_congr rfl fun v _ => hX v, Finset.sum_add_distrib, ← Finset.mul_sum, ← Finset.mul_sum, add_div, mul_div_assoc, mul_div_assoc]

theorem avg_mono {V W : (Fin 40 → UInt8) → ℝ} (h : ∀ v, V v ≤ W v) : (∑ v, V v) / 256 ^ 40 ≤ (∑ v, W v) / 256 ^ 40 :=
  div_le_div_of_nonneg_right (Finset.sum_le_sum fun v _ => h v) salt_pos.le

/-- A mean of functions with values between 0 and 1. -/
structure IsMean (S : (Option (List UInt8) → ℝ) → ℝ) : Prop where
  lin : ∀ f g a b, Unit01 f → Unit01 g → S (fun o => a * f o + b * g o) = a * S f + b * S g
  mem : ∀ f, Unit01 f → 0 ≤ S f ∧ S f ≤ 1
  one : S (fun _ => 1) = 1

theorem IsMean.mono {S : (Option (List UInt8) → ℝ) → ℝ} (hS : IsMean S) {f g : Option (List UInt8) → ℝ} (hf : Unit01 f) (hg : Unit01 g)
    (h : ∀ o, f o ≤ g o) : S f ≤ S g := by
  have h1 : S g = 1 * S f + 1 * S fun o => g o - f o := by
    rw [← hS.lin _ _ _ _ hf fun o => ⟨by linarith [h o], by linarith [(hf o).1, (hg o).2]⟩]
    congr 1
    funext o
    ring
  have h2 := (hS.mem (fun o => g o - f o) fun o => ⟨by linarith [h o], by linarith [(hf o).1, (hg o).2]⟩).1
  linarith

/-- The ideal signer as a mean. -/
noncomputable def specMean (n : ℕ) (h : Mem Ff) (hash : (ℕ → UInt8) → Option (Mem Ff)) (R : ℕ) (val : Option (List UInt8) → ℝ) : ℝ :=
  specSignMean n (sigmaSig n) h hash R (fun salt => sigVal n salt val) (val none)

theorem specMean_isMean {n : ℕ} (hn : ValidLog n) {h : Mem Ff} {f g F G : Mem Int} (tr : Trapdoor n h f g F G)
    (hash : (ℕ → UInt8) → Option (Mem Ff)) (R : ℕ) : IsMean (specMean n h hash R) := by
  classical
  have hone : specMean n h hash R (fun _ => 1) = 1 := by
    unfold specMean specSignMean
    refine avg_eq fun v => ?_
    match hash (memOf v) with
    | none => rfl
    | some c =>
      show rejectMean n (sigmaSig n) h c _ _ R = 1
      have : sigVal n (memOf v) (fun _ => 1) = fun _ => 1 := funext fun s => sigVal_prop (Q := fun x => x = 1) (fun _ => rfl) s
      beta_reduce
      rw [this]
      induction R with
      | zero => rfl
      | succ R ih =>
        rw [rejectMean, ih]
        simp only [ite_self]
        exact cosetMean_const hn tr c 1
  refine ⟨fun f g a b hf hg => ?_, fun f hf => ?_, hone⟩
  · unfold specMean specSignMean
    refine avg_lin fun v => ?_
    match hash (memOf v) with
    | none => rfl
    | some c =>
      show rejectMean n (sigmaSig n) h c _ _ R = a * rejectMean n (sigmaSig n) h c _ _ R + b * rejectMean n (sigmaSig n) h c _ _ R
      rw [← rejectMean_lin hn tr c hf.sigVal hg.sigVal (hf none) (hg none)]
      have : sigVal n (memOf v) (fun o => a * f o + b * g o) = fun s => a * sigVal n (memOf v) f s + b * sigVal n (memOf v) g s := by
        funext s
        unfold sigVal
        split <;> rfl
      beta_reduce
      rw [this]
  · unfold specMean specSignMean
    have h1 : ∀ v : Fin 40 → UInt8, 0 ≤ (match hash (memOf v) with
      | none => f none
      | some c => rejectMean n (sigmaSig n) h c (sigVal n (memOf v) f) (f none) R) ∧ (match hash (memOf v) with
      | none => f none
      | some c => rejectMean n (sigmaSig n) h c (sigVal n (memOf v) f) (f none) R) ≤ 1 := by
      intro v
      match hash (memOf v) with
      | none => exact hf none
      | some c => exact rejectMean_mem hn tr c hf.sigVal (hf none) R
    refine ⟨?_, ?_⟩
    · exact (avg_const 0).symm.le.trans (avg_mono fun v => (h1 v).1)
    · exact (avg_mono fun v => (h1 v).2).trans (avg_const 1).le

/-- Signing with all bytes uniform, as means of functions of the signature. -/
theorem signer_mean {n : ℕ} (hn : ValidLog n) {h : Mem Ff} {f g F G : Mem Int} (tr : Trapdoor n h f g F G)
    (B0 T0 : Mem ℂ) (xof : Xof) (hfuel : ℕ) (msg : List UInt8) (sig : Mem UInt8) (m R : ℕ) :
    let B := computeMatrixB exactA n f g F G B0
    let hash := fun salt : ℕ → UInt8 => hashToPoint hfuel n (xof ((List.range 40).map salt ++ msg)) (fun _ => Ff.zero)
    ∃ U, SubMean U (specMean n h hash R) ((1 + 1 / 2 ^ 64) ^ R) (R * (2 ^ (n + 1) * (1 / 2 ^ m))) (R * roundErr n m) ∧
      ∀ val : Option (List UInt8) → ℝ, (∑ v : Fin (40 + 18 * m * 2 ^ (n + 1) * R) → UInt8,
          val (exactSigner xof m R hfuel n B (computeFalconTree exactA n B T0) sig msg (memOf v))) / 256 ^ (40 + 18 * m * 2 ^ (n + 1) * R) =
          U val + val none * (1 - U fun _ => 1) := by
  classical
  intro B hash
  have herr : 0 ≤ R * roundErr n m := by unfold roundErr; positivity
  have hdel : (0 : ℝ) ≤ R * (2 ^ (n + 1) * (1 / 2 ^ m)) := by positivity
  have hρ : (1 : ℝ) ≤ (1 + 1 / 2 ^ 64) ^ R := one_le_pow₀ (by norm_num)
  -- for each salt
  have hsalt : ∀ v : Fin 40 → UInt8, ∃ U, SubMean U (fun val => match hash (memOf v) with
      | none => val none
      | some c => rejectMean n (sigmaSig n) h c (sigVal n (memOf v) val) (val none) R) ((1 + 1 / 2 ^ 64) ^ R)
        (R * (2 ^ (n + 1) * (1 / 2 ^ m))) (R * roundErr n m) ∧
      ∀ val : Option (List UInt8) → ℝ,
        (∑ w : Fin (18 * m * 2 ^ (n + 1) * R) → UInt8,
          val (exactSigner xof m R hfuel n B (computeFalconTree exactA n B T0) sig msg (saltStream (memOf v) (memOf w)))) /
            256 ^ (18 * m * 2 ^ (n + 1) * R) = U val + val none * (1 - U fun _ => 1) := by
    intro v
    cases hh : hash (memOf v) with
    | some c => exact sign_mean hn tr B0 T0 xof hfuel msg sig (memOf v) hh m R
    | none =>
      refine ⟨fun val => val none, ⟨fun f g a b => rfl, fun f hf => hf none, le_rfl, by linarith, fun f hf => ?_, fun f hf => ?_⟩, fun val => ?_⟩
      · exact le_mul_of_one_le_left (sq_nonneg _) hρ
      · simpa using herr
      · have : ∀ w : Fin (18 * m * 2 ^ (n + 1) * R) → UInt8,
            exactSigner xof m R hfuel n B (computeFalconTree exactA n B T0) sig msg (saltStream (memOf v) (memOf w)) = none := by
          intro w
          have hbytes : bytes 40 (prngRead (saltStream (memOf v) (memOf w)) 0 40 (fun _ => 0)) = (List.range 40).map (memOf v) := by
            unfold bytes
            refine List.map_congr_left fun i hi => ?_
            unfold prngRead saltStream
            rw [loop_fill, if_pos (List.mem_range.mp hi), Nat.zero_add, if_pos (List.mem_range.mp hi)]
          unfold exactSigner signPoly
          simp only [hbytes]
          rw [show hashToPoint hfuel n (xof ((List.range 40).map (memOf v) ++ msg)) (fun _ => Ff.zero) = none from hh]
        simp only [this, Finset.sum_const, Finset.card_univ, Fintype.card_pi, Finset.prod_const, Fintype.card_fin, BTree.card_byte, nsmul_eq_mul,
          sub_self, mul_zero, add_zero]
        rw [Nat.cast_pow]
        generalize 18 * m * 2 ^ (n + 1) * R = K
        have : (0 : ℝ) < 256 ^ K := by positivity
        exact mul_div_cancel_left₀ _ this.ne'
  choose U hU eU using hsalt
  refine ⟨fun val => (∑ v, U v val) / 256 ^ 40, ⟨fun f g a b => ?_, fun f hf => ?_, ?_, ?_, fun f hf => ?_, fun f hf => ?_⟩, fun val => ?_⟩
  · exact avg_lin fun v => (hU v).lin f g a b
  · exact (avg_const 0).symm.le.trans (avg_mono fun v => (hU v).nonneg f hf)
  · exact (avg_mono fun v => (hU v).le_one).trans (avg_const 1).le
  · exact (avg_const _).symm.le.trans (avg_mono fun v => (hU v).low)
  · exact avg_rel fun v => (hU v).sq f hf
  · exact avg_dist fun v => (hU v).near f hf
  · have h1 := avg_salt (18 * m * 2 ^ (n + 1) * R) fun st => val (exactSigner xof m R hfuel n B (computeFalconTree exactA n B T0) sig msg st)
    rw [h1, Finset.sum_congr rfl fun v _ => eU v val]
    have h2 : (∑ v : Fin 40 → UInt8, (1 - U v fun _ => 1)) / 256 ^ 40 = 1 - (∑ v : Fin 40 → UInt8, U v fun _ => 1) / 256 ^ 40 := by
      have := avg_lin (V := fun _ => 1) (W := fun v => U v fun _ => 1) (X := fun v => 1 - U v fun _ => 1) (a := 1) (b := -1) fun v => by ring
      rw [this, avg_const]
      ring
    rw [← h2]
    have := avg_lin (V := fun v => U v val) (W := fun v => 1 - U v fun _ => 1) (X := fun v => U v val + val none * (1 - U v fun _ => 1)) (a := 1)
      (b := val none) fun v => by ring
    rw [this, one_mul]

/-! ## Games -/

namespace Adversary

open Classical in
/-- The value of a game whose questions are answered by means: `x` for winning, `y` for losing. -/
noncomputable def gval (U : List UInt8 → (Option (List UInt8) → ℝ) → ℝ) (x y : ℝ) : Adversary → ℝ
  | stop w => if w then x else y
  | ask msg next => U msg fun o => gval U x y (next o)

theorem winsPr_gval (L : ℕ) (sign : List UInt8 → (ℕ → UInt8) → Option (List UInt8)) (A : Adversary) :
    A.winsPr L sign = A.gval (fun msg val => (∑ v : Fin L → UInt8, val (sign msg (memOf v))) / 256 ^ L) 1 0 := by
  induction A with
  | stop w => rfl
  | ask msg next ih =>
    rw [winsPr, gval]
    simp only [ih]

theorem specWinsPr_gval (n : ℕ) (h : Mem Ff) (hash : List UInt8 → Option (Mem Ff)) (R : ℕ) (A : Adversary) :
    A.specWinsPr n (sigmaSig n) h hash R = A.gval (fun msg => specMean n h (fun salt => hash ((List.range 40).map salt ++ msg)) R) 1 0 := by
  induction A with
  | stop w => rfl
  | ask msg next ih =>
    rw [specWinsPr, gval]
    simp only [← ih]
    rfl

section
variable {U S : List UInt8 → (Option (List UInt8) → ℝ) → ℝ} {ρ δ err : ℝ}

theorem gval_mem (hS : ∀ msg, IsMean (S msg)) (A : Adversary) {x y : ℝ} (hx : 0 ≤ x ∧ x ≤ 1) (hy : 0 ≤ y ∧ y ≤ 1) :
    0 ≤ A.gval S x y ∧ A.gval S x y ≤ 1 := by
  induction A with
  | stop w => rw [gval]; split <;> assumption
  | ask msg next ih => exact (hS msg).mem _ ih

theorem gval_lin (hS : ∀ msg, IsMean (S msg)) (A : Adversary) (x y : ℝ) :
    A.gval S x y = x * A.gval S 1 0 + y * A.gval S 0 1 := by
  induction A with
  | stop w => by_cases hw : w <;> simp [gval, hw]
  | ask msg next ih =>
    rw [gval, gval, gval]
    simp only [ih]
    exact (hS msg).lin _ _ _ _ (fun o => gval_mem hS _ ⟨zero_le_one, le_rfl⟩ ⟨le_rfl, zero_le_one⟩)
      fun o => gval_mem hS _ ⟨le_rfl, zero_le_one⟩ ⟨zero_le_one, le_rfl⟩

theorem gval_one (hS : ∀ msg, IsMean (S msg)) (A : Adversary) : A.gval S 1 1 = 1 := by
  induction A with
  | stop w => rw [gval, ite_self]
  | ask msg next ih =>
    rw [gval]
    simp only [ih]
    exact (hS msg).one

theorem SubMean.mono {U S : (Option (List UInt8) → ℝ) → ℝ} (hU : SubMean U S ρ δ err) {f g : Option (List UInt8) → ℝ} (h : ∀ o, f o ≤ g o) : U f ≤ U g := by
  have h1 : U g = 1 * U f + 1 * U fun o => g o - f o := by
    rw [← hU.lin]
    congr 1
    funext o
    ring
  have h2 := hU.nonneg (fun o => g o - f o) fun o => by linarith [h o]
  linarith

theorem sub_lin (hU : ∀ msg, SubMean (U msg) (S msg) ρ δ err) (A : Adversary) (x y : ℝ) :
    A.gval U x y = x * A.gval U 1 0 + y * A.gval U 0 1 := by
  induction A with
  | stop w => by_cases hw : w <;> simp [gval, hw]
  | ask msg next ih =>
    rw [gval, gval, gval]
    simp only [ih]
    exact (hU msg).lin _ _ _ _

theorem sub_nonneg' (hU : ∀ msg, SubMean (U msg) (S msg) ρ δ err) (A : Adversary) {x y : ℝ} (hx : 0 ≤ x) (hy : 0 ≤ y) : 0 ≤ A.gval U x y := by
  induction A with
  | stop w => rw [gval]; split <;> assumption
  | ask msg next ih => exact (hU msg).nonneg _ ih

theorem sub_le (hU : ∀ msg, SubMean (U msg) (S msg) ρ δ err) (A : Adversary) {x y : ℝ} (hx : x ≤ 1) (hy : y ≤ 1) : A.gval U x y ≤ 1 := by
  induction A with
  | stop w => rw [gval]; split <;> assumption
  | ask msg next ih => exact (SubMean.mono (hU msg) ih).trans (hU msg).le_one

theorem sub_low (hU : ∀ msg, SubMean (U msg) (S msg) ρ δ err) (hδ : 0 ≤ δ) {A : Adversary} {Q : ℕ} (hA : A.Asks Q) : 1 - Q * δ ≤ A.gval U 1 1 := by
  induction hA with
  | stop w q => rw [gval, ite_self]; nlinarith [Nat.cast_nonneg (α := ℝ) q]
  | ask msg next q h ih =>
    rw [gval]
    have h1 : U msg (fun o => 1 * 1 + -(q * δ) * 1) = 1 * U msg (fun _ => 1) + -(q * δ) * U msg (fun _ => 1) := (hU msg).lin _ _ _ _
    have h2 : U msg (fun o => 1 * 1 + -(q * δ) * 1) ≤ U msg fun o => gval U 1 1 (next o) := SubMean.mono (hU msg) fun o => by linarith [ih o]
    have h3 := (hU msg).low
    have h4 := (hU msg).le_one
    have h5 : 0 ≤ q * δ := mul_nonneg (Nat.cast_nonneg _) hδ
    push_cast
    nlinarith

theorem sub_sq (hU : ∀ msg, SubMean (U msg) (S msg) ρ δ err) (hS : ∀ msg, IsMean (S msg)) (hρ : 1 ≤ ρ) {A : Adversary} {Q : ℕ} (hA : A.Asks Q)
    {x y : ℝ} (hx : 0 ≤ x ∧ x ≤ 1) (hy : 0 ≤ y ∧ y ≤ 1) : A.gval U x y ^ 2 ≤ ρ ^ Q * A.gval S (x ^ 2) (y ^ 2) := by
  have hx2 : 0 ≤ x ^ 2 ∧ x ^ 2 ≤ 1 := ⟨sq_nonneg _, pow_le_one₀ hx.1 hx.2⟩
  have hy2 : 0 ≤ y ^ 2 ∧ y ^ 2 ≤ 1 := ⟨sq_nonneg _, pow_le_one₀ hy.1 hy.2⟩
  induction hA with
  | stop w q =>
    have h1 : 1 ≤ ρ ^ q := one_le_pow₀ hρ
    rw [gval, gval]
    split
    · exact le_mul_of_one_le_left (sq_nonneg _) h1
    · exact le_mul_of_one_le_left (sq_nonneg _) h1
  | ask msg next q h ih =>
    rw [gval, gval]
    have h01 : Unit01 fun o => gval U x y (next o) := fun o => ⟨sub_nonneg' hU _ hx.1 hy.1, sub_le hU _ hx.2 hy.2⟩
    have hS01 : Unit01 fun o => gval S (x ^ 2) (y ^ 2) (next o) := fun o => gval_mem hS _ hx2 hy2
    have hq : 0 < ρ ^ q := pow_pos (by linarith) _
    have h1 : S msg (fun o => (ρ ^ q)⁻¹ * gval U x y (next o) ^ 2 + 0 * gval U x y (next o)) =
      (ρ ^ q)⁻¹ * S msg (fun o => gval U x y (next o) ^ 2) + 0 * S msg (fun o => gval U x y (next o)) := (hS msg).lin _ _ _ _ h01.sq h01
    have h2 : S msg (fun o => (ρ ^ q)⁻¹ * gval U x y (next o) ^ 2 + 0 * gval U x y (next o)) ≤ S msg fun o => gval S (x ^ 2) (y ^ 2) (next o) := by
      have hle : ∀ o, (ρ ^ q)⁻¹ * gval U x y (next o) ^ 2 + 0 * gval U x y (next o) ≤ gval S (x ^ 2) (y ^ 2) (next o) := fun o => by
        rw [zero_mul, add_zero, inv_mul_le_iff₀ hq]
        exact ih o
      refine (hS msg).mono (fun o => ⟨?_, (hle o).trans (hS01 o).2⟩) hS01 hle
      rw [zero_mul, add_zero]
      exact mul_nonneg (inv_nonneg.mpr hq.le) (sq_nonneg _)
    rw [h1, zero_mul, add_zero, inv_mul_le_iff₀ hq] at h2
    refine ((hU msg).sq _ h01).trans ?_
    rw [pow_succ, mul_assoc, mul_comm (ρ ^ q), mul_assoc, mul_comm _ (ρ ^ q)]
    exact mul_le_mul_of_nonneg_left h2 (by linarith)

/-- The program itself, which counts a failure as no answer. -/
theorem full_bounds {V : List UInt8 → (Option (List UInt8) → ℝ) → ℝ} (hU : ∀ msg, SubMean (U msg) (S msg) ρ δ err)
    (hV : ∀ msg val, V msg val = U msg val + val none * (1 - U msg fun _ => 1)) (A : Adversary) :
    A.gval U 1 0 ≤ A.gval V 1 0 ∧ A.gval V 1 0 ≤ 1 - A.gval U 0 1 := by
  induction A with
  | stop w => by_cases hw : w <;> simp [gval, hw]
  | ask msg next ih =>
    have h1 := (hU msg).le_one
    rw [gval, gval, gval, hV]
    have h0 : 0 ≤ gval V 1 0 (next none) := (sub_nonneg' hU _ zero_le_one le_rfl).trans (ih none).1
    have h0' : gval V 1 0 (next none) ≤ 1 := (ih none).2.trans (by linarith [sub_nonneg' hU (next none) (le_refl (0 : ℝ)) zero_le_one])
    constructor
    · have := SubMean.mono (hU msg) fun o => (ih o).1
      nlinarith
    · have h2 : U msg (fun o => 1 * 1 + -1 * gval U 0 1 (next o)) = 1 * U msg (fun _ => 1) + -1 * U msg (fun o => gval U 0 1 (next o)) := (hU msg).lin _ _ _ _
      have h3 : U msg (fun o => gval V 1 0 (next o)) ≤ U msg (fun o => 1 * 1 + -1 * gval U 0 1 (next o)) := SubMean.mono (hU msg) fun o => by linarith [(ih o).2]
      nlinarith

end

theorem two_point {u v s ρ d : ℝ} (s0 : 0 ≤ s) (s1 : s ≤ 1) (u0 : 0 ≤ u) (v0 : 0 ≤ v) (uv : u + v = 1 - d) (hd : 0 ≤ d)
    (hρ : 1 ≤ ρ) (H : ∀ x y, 0 ≤ x ∧ x ≤ 1 → 0 ≤ y ∧ y ≤ 1 → (x * u + y * v) ^ 2 ≤ ρ * (x ^ 2 * s + y ^ 2 * (1 - s))) :
    (2 * (u - s) + d) ^ 2 ≤ ρ - 1 + 2 * d := by
  have u1 : u ≤ 1 := by linarith
  have v1 : v ≤ 1 := by linarith
  have hd1 : d ≤ 1 := by linarith
  rcases eq_or_lt_of_le s0 with h0 | h0
  · have := H 1 0 ⟨zero_le_one, le_rfl⟩ ⟨le_rfl, zero_le_one⟩
    rw [← h0] at this
    have hu : u = 0 := by nlinarith
    rw [hu, ← h0]
    nlinarith
  rcases eq_or_lt_of_le s1 with h1 | h1
  · have := H 0 1 ⟨le_rfl, zero_le_one⟩ ⟨zero_le_one, le_rfl⟩
    rw [h1] at this
    have hv : v = 0 := by nlinarith
    have hu : u = 1 - d := by linarith
    rw [hu, h1]
    nlinarith
  have hs : 0 < s * (1 - s) := mul_pos h0 (by linarith)
  obtain ⟨Z, hZ⟩ : ∃ Z, Z = u ^ 2 * (1 - s) + v ^ 2 * s := ⟨_, rfl⟩
  have Z0 : 0 ≤ Z := by rw [hZ]; exact add_nonneg (mul_nonneg (sq_nonneg _) (by linarith)) (mul_nonneg (sq_nonneg _) s0)
  have h2 := H (u * (1 - s)) (v * s) ⟨by nlinarith, by nlinarith⟩ ⟨by nlinarith, by nlinarith⟩
  have h3 : Z * Z ≤ ρ * (s * (1 - s)) * Z := by
    have e1 : u * (1 - s) * u + v * s * v = Z := by rw [hZ]; ring
    have e2 : ρ * ((u * (1 - s)) ^ 2 * s + (v * s) ^ 2 * (1 - s)) = ρ * (s * (1 - s)) * Z := by rw [hZ]; ring
    rw [e1, e2] at h2
    linarith
  have h4 : Z ≤ ρ * (s * (1 - s)) := by
    rcases eq_or_lt_of_le Z0 with h | h
    · rw [← h]; positivity
    · exact le_of_mul_le_mul_right h3 h
  have hv : v = 1 - d - u := by linarith
  obtain ⟨x, hx⟩ : ∃ x, u = s + x := ⟨u - s, by ring⟩
  have e1 : Z = s * (1 - s) * (1 - 2 * d) + (x ^ 2 * (1 - s) + (x + d) ^ 2 * s) := by rw [hZ, hv, hx]; ring
  have h5 : s * (1 - s) * (2 * x + d) ^ 2 ≤ x ^ 2 * (1 - s) + (x + d) ^ 2 * s := by
    have : x ^ 2 * (1 - s) + (x + d) ^ 2 * s - s * (1 - s) * (2 * x + d) ^ 2 = (x * (1 - s) - (x + d) * s) ^ 2 := by ring
    nlinarith [sq_nonneg (x * (1 - s) - (x + d) * s)]
  have h6 : s * (1 - s) * (2 * x + d) ^ 2 ≤ s * (1 - s) * (ρ - 1 + 2 * d) := by
    rw [e1] at h4
    nlinarith
  have e2 : 2 * (u - s) + d = 2 * x + d := by rw [hx]; ring
  rw [e2]
  exact le_of_mul_le_mul_left h6 hs

/-- Many questions. -/
theorem game_dist {U S V : List UInt8 → (Option (List UInt8) → ℝ) → ℝ} {ρ δ err : ℝ} (hU : ∀ msg, SubMean (U msg) (S msg) ρ δ err)
    (hS : ∀ msg, IsMean (S msg)) (hρ : 1 ≤ ρ) (hδ : 0 ≤ δ) (hV : ∀ msg val, V msg val = U msg val + val none * (1 - U msg fun _ => 1))
    {A : Adversary} {Q : ℕ} (hA : A.Asks Q) :
    |A.gval V 1 0 - A.gval S 1 0| ≤ (√(ρ ^ Q - 1 + 2 * (Q * δ)) + Q * δ) / 2 ∧
    ∃ y, 0 ≤ y ∧ y ≤ Q * δ ∧ y ≤ A.gval V 1 0 ∧ (A.gval V 1 0 - y) ^ 2 ≤ ρ ^ Q * A.gval S 1 0 := by
  have hlow := sub_low hU hδ hA
  have h11 := sub_lin hU A 1 1
  have h01 := sub_nonneg' hU A (le_refl (0 : ℝ)) zero_le_one
  have h10 := sub_nonneg' hU A zero_le_one (le_refl (0 : ℝ))
  have hle := sub_le hU A (le_refl (1 : ℝ)) le_rfl
  have hs := gval_mem hS A (x := 1) (y := 0) ⟨zero_le_one, le_rfl⟩ ⟨le_rfl, zero_le_one⟩
  have hfb := full_bounds hU hV A
  have hs1 := gval_lin hS A 1 1
  rw [gval_one hS] at hs1
  obtain ⟨d, hd⟩ : ∃ d, d = 1 - A.gval U 1 1 := ⟨_, rfl⟩
  have d0 : 0 ≤ d := by linarith
  have dQ : d ≤ Q * δ := by linarith
  have htp := two_point (u := A.gval U 1 0) (v := A.gval U 0 1) (s := A.gval S 1 0) (ρ := ρ ^ Q) (d := d) hs.1 hs.2 h10 h01 (by linarith) d0
    (one_le_pow₀ hρ) (fun x y hx hy => by
      have := sub_sq hU hS hρ hA hx hy
      rw [sub_lin hU A x y, gval_lin hS A (x ^ 2) (y ^ 2)] at this
      have e : A.gval S 0 1 = 1 - A.gval S 1 0 := by linarith
      rw [e] at this
      exact this)
  refine ⟨?_, A.gval V 1 0 - A.gval U 1 0, by linarith, by linarith, by linarith, ?_⟩
  · have h1 : |2 * (A.gval U 1 0 - A.gval S 1 0) + d| ≤ √(ρ ^ Q - 1 + 2 * (Q * δ)) :=
      Real.abs_le_sqrt (htp.trans (by linarith))
    have h2 := abs_le.mp h1
    rw [abs_le]
    constructor <;> linarith
  · have := sub_sq hU hS hρ hA (x := 1) (y := 0) ⟨zero_le_one, le_rfl⟩ ⟨le_rfl, zero_le_one⟩
    rw [one_pow, zero_pow two_ne_zero] at this
    rwa [sub_sub_cancel]

end Adversary

end Falcon
