import Verif.Props.HashLaw
import Verif.Props.SignSalt
import Verif.Proofs.Syndrome
import Verif.Proofs.SigEvents
import Verif.Proofs.SigParse
import Verif.OracleSpec

/-! # Averages over the hashed point -/

namespace Falcon

theorem freq_sum (L : ℕ) (P : Mem UInt8 → Prop) [∀ st, Decidable (P st)] :
    freq L P = (∑ w : Fin L → UInt8, if P (memOf w) then (1 : ℝ) else 0) / 256 ^ L := by
  unfold freq
  rw [Finset.sum_ite, Finset.sum_const_zero, add_zero, Finset.sum_const, nsmul_eq_mul, mul_one]
  congr 3
  ext v
  simp

theorem pointOf_toNat {n : ℕ} (v : Point n) {i : ℕ} (hi : i < 2 ^ n) : (pointOf v i).v.toNat = (v ⟨i, hi⟩).val := by
  unfold pointOf
  rw [dif_pos hi]
  show (UInt16.ofNat _).toNat = _
  have := (v ⟨i, hi⟩).isLt
  rw [UInt16.toNat_ofNat']
  exact Nat.mod_eq_of_lt (by omega)

theorem ff_ext {a b : Ff} (h : a.v.toNat = b.v.toNat) : a = b := by
  cases a
  cases b
  congr 1
  exact UInt16.toNat_inj.mp h

/-- The average of a function of the hashed point over uniform XOF output. -/
theorem hash_mean {n fuel : ℕ} (c0 : Mem Ff) (F : Mem Ff → ℝ) (hF : ∀ c c', (∀ i, i < 2 ^ n → c i = c' i) → F c = F c') :
    (∑ w : Fin (136 * fuel) → UInt8, match hashToPoint fuel n (memOf w) c0 with
      | none => 0
      | some c => F c) / 256 ^ (136 * fuel) =
    freq (136 * fuel) (fun st => ∃ c, hashToPoint fuel n st c0 = some c) * ((∑ v : Point n, F (pointOf v)) / 12289 ^ 2 ^ n) := by
  classical
  have e1 : ∀ w : Fin (136 * fuel) → UInt8, (match hashToPoint fuel n (memOf w) c0 with
      | none => 0
      | some c => F c) = ∑ v : Point n, (if ∃ c, hashToPoint fuel n (memOf w) c0 = some c ∧ ∀ i, i < 2 ^ n → (c i).v.toNat = (pointOf v i).v.toNat
        then (1 : ℝ) else 0) * F (pointOf v) := by
    intro w
    cases hw : hashToPoint fuel n (memOf w) c0 with
    | none => simp
    | some c =>
      have hcan := (hashToPoint_spec hw).1.canon
      have hlt : ∀ i : Fin (2 ^ n), (c i.1).v.toNat < 12289 := fun i => hcan i.1 i.2
      have hv : ∀ i, i < 2 ^ n → c i = pointOf (fun i : Fin (2 ^ n) => (⟨(c i.1).v.toNat, hlt i⟩ : Fin 12289)) i := fun i hi =>
        ff_ext (by rw [pointOf_toNat _ hi])
      rw [Finset.sum_eq_single (fun i : Fin (2 ^ n) => (⟨(c i.1).v.toNat, hlt i⟩ : Fin 12289))]
      · rw [if_pos ⟨c, rfl, fun i hi => by rw [← hv i hi]⟩, one_mul]
        exact hF _ _ hv
      · intro v _ hne
        rw [if_neg, zero_mul]
        rintro ⟨c', h1, h2⟩
        cases h1
        refine hne (funext fun i => Fin.ext ?_)
        rw [← pointOf_toNat v i.2, ← h2 i.1 i.2]
      · intro h
        exact absurd (Finset.mem_univ _) h
  rw [Finset.sum_congr rfl fun w _ => e1 w, Finset.sum_comm, Finset.sum_div, Finset.sum_div, Finset.mul_sum]
  refine Finset.sum_congr rfl fun v _ => ?_
  have h := C84_uniform (n := n) (fuel := fuel) c0 (fun i => (pointOf v i).v.toNat) fun i hi => by
    rw [pointOf_toNat v hi]
    exact (v _).isLt
  rw [freq_sum (136 * fuel) (fun st => ∃ c, hashToPoint fuel n st c0 = some c ∧ ∀ i, i < 2 ^ n → (c i).v.toNat = (pointOf v i).v.toNat)] at h
  rw [← Finset.sum_mul, mul_div_right_comm, h]
  ring

theorem cosetPr_points {n : ℕ} {sigma : ℝ} {h c c' : Mem Ff} (hc : ∀ i, i < 2 ^ n → c i = c' i) (E : PairZ n → Prop) :
    cosetPr n sigma h c E = cosetPr n sigma h c' E := by
  have e : polyZq (2 ^ n) c = polyZq (2 ^ n) c' := toPoly_congr fun i hi => by rw [hc i hi]
  have : InCoset n h c = InCoset n h c' := by
    funext s
    unfold InCoset Preimage
    rw [e]
  unfold cosetPr
  rw [this]

theorem cosetPr_mono_in {n : ℕ} (hn : ValidLog n) {h : Mem Ff} {f g F G : Mem Int} (tr : Trapdoor n h f g F G) (c : Mem Ff)
    {E E' : PairZ n → Prop} (hE : ∀ s, InCoset n h c s → E s → E' s) : cosetPr n (sigmaSig n) h c E ≤ cosetPr n (sigmaSig n) h c E' := by
  have e : cosetPr n (sigmaSig n) h c E = cosetPr n (sigmaSig n) h c (fun s => InCoset n h c s ∧ E s) := by
    unfold cosetPr
    congr 1
    refine tsum_congr fun s => ?_
    congr 1
    exact propext ⟨fun h => ⟨h.1, h⟩, fun h => h.2⟩
  rw [e]
  exact cosetPr_mono hn tr c fun s h => hE s h.1 h.2

/-- Averaged over all points, the Gaussians on the preimages give the Gaussian on all pairs. -/
theorem point_mean {n : ℕ} (hn : ValidLog n) {h : Mem Ff} {f g F G : Mem Int} (tr : Trapdoor n h f g F G) (E : PairZ n → Prop) :
    |sphericalPr n (sigmaSig n) E - (∑ v : Point n, cosetPr n (sigmaSig n) h (pointOf v) E) / 12289 ^ 2 ^ n| ≤ 1 / 2 ^ 33 := by
  have := pair_joint hn tr fun _ => E
  have e : (fun s => ∃ v : Point n, InCoset n h (pointOf v) s ∧ E s) = E := by
    funext s
    obtain ⟨v, hv⟩ := coset_point n h s
    exact propext ⟨fun ⟨_, _, h⟩ => h, fun h => ⟨v, (hv v).mpr rfl, h⟩⟩
  rwa [e] at this

open Classical in
theorem freq_compl (L : ℕ) (P : Mem UInt8 → Prop) : freq L P + freq L (fun st => ¬ P st) = 1 := by
  rw [freq_sum, freq_sum, ← add_div, ← Finset.sum_add_distrib, Finset.sum_congr (g := fun _ => (1 : ℝ)) rfl fun w _ => by
    by_cases h : P (memOf w) <;> simp [h]]
  rw [Finset.sum_const, Finset.card_univ, Fintype.card_pi, Finset.prod_const, Finset.card_univ, Fintype.card_fin, BTree.card_byte, nsmul_eq_mul, mul_one]
  rw [Nat.cast_pow]
  exact div_self (by positivity)

theorem freq_nonneg (L : ℕ) (P : Mem UInt8 → Prop) : 0 ≤ freq L P := by
  unfold freq
  positivity

theorem hash_ends {n : ℕ} (hn : ValidLog n) (c0 : Mem Ff) :
    1 - 1 / 2 ^ 90 ≤ freq (136 * hashBlocks n) (fun st => ∃ c, hashToPoint (hashBlocks n) n st c0 = some c) ∧
    freq (136 * hashBlocks n) (fun st => ∃ c, hashToPoint (hashBlocks n) n st c0 = some c) ≤ 1 := by
  have h1 := freq_compl (136 * hashBlocks n) (fun st => ∃ c, hashToPoint (hashBlocks n) n st c0 = some c)
  have h2 := freq_nonneg (136 * hashBlocks n) (fun st => ¬ ∃ c, hashToPoint (hashBlocks n) n st c0 = some c)
  refine ⟨?_, by linarith⟩
  have e : (fun st => ¬ ∃ c, hashToPoint (hashBlocks n) n st c0 = some c) = fun st => hashToPoint (hashBlocks n) n st c0 = none := by
    funext st
    cases hashToPoint (hashBlocks n) n st c0 <;> simp
  rw [e] at h1
  have hb := C84_blocks c0
  have h3 : freq (136 * hashBlocks n) (fun st => hashToPoint (hashBlocks n) n st c0 = none) ≤ 1 / 2 ^ 90 := by
    rcases hn with rfl | rfl
    · refine hb.1.trans ?_
      norm_num
    · refine hb.2.trans ?_
      norm_num
  linarith

theorem spher_le_one {n : ℕ} {sigma : ℝ} (hs : 0 < sigma) (E : PairZ n → Prop) : sphericalPr n sigma E ≤ 1 := by
  classical
  unfold sphericalPr
  refine div_le_one_of_le₀ ((summable_ind hs E).tsum_le_tsum (fun s => ?_) (spher_total hs).summable) (tsum_nonneg fun s => (Real.exp_pos _).le)
  split
  · exact le_rfl
  · exact (Real.exp_pos _).le

theorem reject_ge {n : ℕ} (hn : ValidLog n) {h : Mem Ff} {f g F G : Mem Int} (tr : Trapdoor n h f g F G) (c : Mem Ff) {R : ℕ} (hR : 1 ≤ R)
    (E : PairZ n → Prop) : cosetPr n (sigmaSig n) h c (fun s => Accept n s ∧ E s) ≤ rejectPr n (sigmaSig n) h c R E := by
  unfold rejectPr
  have hp := cosetPr_mem hn tr c (Accept n)
  have he := cosetPr_mem hn tr c (fun s => Accept n s ∧ E s)
  have := Finset.single_le_sum (f := fun i => (1 - cosetPr n (sigmaSig n) h c (Accept n)) ^ i * cosetPr n (sigmaSig n) h c (fun s => Accept n s ∧ E s))
    (fun i _ => mul_nonneg (pow_nonneg (by linarith) i) he.1) (Finset.mem_range.mpr (show 0 < R by omega))
  simpa using this

theorem reject_le {n : ℕ} (hn : ValidLog n) {h : Mem Ff} {f g F G : Mem Int} (tr : Trapdoor n h f g F G) (c : Mem Ff) (R : ℕ)
    (E : PairZ n → Prop) : rejectPr n (sigmaSig n) h c R E ≤ R * cosetPr n (sigmaSig n) h c (fun s => Accept n s ∧ E s) := by
  unfold rejectPr
  have hp := cosetPr_mem hn tr c (Accept n)
  have he := cosetPr_mem hn tr c (fun s => Accept n s ∧ E s)
  have := Finset.sum_le_card_nsmul (Finset.range R)
    (fun i => (1 - cosetPr n (sigmaSig n) h c (Accept n)) ^ i * cosetPr n (sigmaSig n) h c (fun s => Accept n s ∧ E s)) _
    (fun i _ => mul_le_of_le_one_left he.1 (pow_le_one₀ (by linarith) (by linarith [hp.1])))
  rwa [Finset.card_range, nsmul_eq_mul] at this

theorem card_bytes (L : ℕ) : ((Finset.univ : Finset (Fin L → UInt8)).card : ℝ) = 256 ^ L := by
  rw [Finset.card_univ, Fintype.card_pi, Finset.prod_const, Finset.card_univ, Fintype.card_fin, BTree.card_byte, Nat.cast_pow]
  rfl

/-- Signing over a random oracle, compared with the specification. -/
theorem oracle_law {n : ℕ} (hn : ValidLog n) {h : Mem Ff} {f g F G : Mem Int} (tr : Trapdoor n h f g F G) (B0 T0 : Mem ℂ) (msg : List UInt8)
    (sig : Mem UInt8) (m R : ℕ) {Ev : Xof → Mem UInt8 → Prop} (hEv : ∀ x a b, (∀ j, j < sigBytes n → a j = b j) → (Ev x a ↔ Ev x b)) :
    |oracleSignPr n m R f g F G B0 T0 msg sig Ev -
      (∑ w : Fin (136 * hashBlocks n) → UInt8, (∑ v : Fin 40 → UInt8, match hashToPoint (hashBlocks n) n (memOf w) (fun _ => Ff.zero) with
        | none => 0
        | some c => rejectPr n (sigmaSig n) h c R (fun s => ∃ a, SignatureOf n a (memOf v) (tapeOf s.2) ∧ Ev (fun _ => memOf w) a)) / 256 ^ 40) /
          256 ^ (136 * hashBlocks n)| ≤ R * roundErr n m := by
  unfold oracleSignPr
  rw [← sub_div, ← Finset.sum_sub_distrib, abs_div, abs_of_pos (show (0 : ℝ) < 256 ^ (136 * hashBlocks n) by positivity), div_le_iff₀ (by positivity)]
  refine (Finset.abs_sum_le_sum_abs _ _).trans ?_
  rw [mul_comm ((R : ℝ) * roundErr n m), ← card_bytes (136 * hashBlocks n), ← nsmul_eq_mul]
  refine Finset.sum_le_card_nsmul _ _ _ fun w _ => ?_
  exact C87_law hn tr B0 T0 (fun _ => memOf w) (hashBlocks n) msg sig m R (hEv _)

/-- The average, over the oracle, of the mass of pairs in `D`. -/
theorem oracle_mean {n : ℕ} (hn : ValidLog n) {h : Mem Ff} {f g F G : Mem Int} (tr : Trapdoor n h f g F G) (D : PairZ n → Prop) :
    let avg := (∑ w : Fin (136 * hashBlocks n) → UInt8, match hashToPoint (hashBlocks n) n (memOf w) (fun _ => Ff.zero) with
        | none => 0
        | some c => cosetPr n (sigmaSig n) h c D) / 256 ^ (136 * hashBlocks n)
    sphericalPr n (sigmaSig n) D - 1 / 2 ^ 32 ≤ avg ∧ avg ≤ sphericalPr n (sigmaSig n) D + 1 / 2 ^ 33 := by
  intro avg
  have e : avg = _ := hash_mean (n := n) (fuel := hashBlocks n) (fun _ => Ff.zero) (fun c => cosetPr n (sigmaSig n) h c D) fun c c' hc => cosetPr_points hc D
  have hf := hash_ends hn fun _ => Ff.zero
  have hm := abs_le.mp (point_mean hn tr D)
  have h0 : 0 ≤ (∑ v : Point n, cosetPr n (sigmaSig n) h (pointOf v) D) / 12289 ^ 2 ^ n :=
    div_nonneg (Finset.sum_nonneg fun v _ => (cosetPr_mem hn tr _ D).1) (pow_nonneg (by norm_num) _)
  have h1 := spher_le_one (n := n) (sigmaSig_pos n) D
  rw [e]
  generalize freq (136 * hashBlocks n) (fun st => ∃ c, hashToPoint (hashBlocks n) n st (fun _ => Ff.zero) = some c) = fr at hf
  generalize (∑ v : Point n, cosetPr n (sigmaSig n) h (pointOf v) D) / 12289 ^ 2 ^ n = av at hm h0
  generalize sphericalPr n (sigmaSig n) D = sp at hm h1
  obtain ⟨h2, h3⟩ := hm
  obtain ⟨h4, h5⟩ := hf
  constructor
  · have : (1 - 1 / 2 ^ 90) * av ≤ fr * av := mul_le_mul_of_nonneg_right h4 h0
    have h6 : (1 / 2 ^ 90 : ℝ) * av ≤ 1 / 2 ^ 90 * 2 := mul_le_mul_of_nonneg_left (by
      have : (1 / 2 ^ 33 : ℝ) ≤ 1 := by norm_num
      linarith) (by positivity)
    have h7 : (1 / 2 ^ 90 : ℝ) * 2 + 1 / 2 ^ 33 ≤ 1 / 2 ^ 32 := by norm_num
    nlinarith
  · have : fr * av ≤ 1 * av := mul_le_mul_of_nonneg_right h5 h0
    linarith

theorem byteAvg_mono {L : ℕ} {a b : (Fin L → UInt8) → ℝ} (h : ∀ w, a w ≤ b w) : (∑ w, a w) / 256 ^ L ≤ (∑ w, b w) / 256 ^ L :=
  div_le_div_of_nonneg_right (Finset.sum_le_sum fun w _ => h w) (by positivity)

theorem byteAvg_const (L : ℕ) (x : ℝ) : (∑ _w : Fin L → UInt8, x) / 256 ^ L = x := by
  rw [Finset.sum_const, nsmul_eq_mul, card_bytes, mul_div_cancel_left₀ _ (by positivity)]

theorem oracle_lower {n : ℕ} (hn : ValidLog n) {h : Mem Ff} {f g F G : Mem Int} (tr : Trapdoor n h f g F G) (B0 T0 : Mem ℂ) (msg : List UInt8)
    (sig : Mem UInt8) (m : ℕ) {R : ℕ} (hR : 1 ≤ R) {Ev : Xof → Mem UInt8 → Prop} (hEv : ∀ x a b, (∀ j, j < sigBytes n → a j = b j) → (Ev x a ↔ Ev x b))
    {D : PairZ n → Prop} (hD : ∀ x salt s, Accept n s → D s → ∃ a, SignatureOf n a salt (tapeOf s.2) ∧ Ev x a) :
    sphericalPr n (sigmaSig n) (fun s => Accept n s ∧ D s) - 1 / 2 ^ 32 - R * roundErr n m ≤ oracleSignPr n m R f g F G B0 T0 msg sig Ev := by
  have h1 := (abs_le.mp (oracle_law hn tr B0 T0 msg sig m R hEv)).1
  have h2 := (oracle_mean hn tr fun s => Accept n s ∧ D s).1
  have h3 : _ ≤ _ := h2.trans (byteAvg_mono (b := fun w => (∑ v : Fin 40 → UInt8, match hashToPoint (hashBlocks n) n (memOf w) (fun _ => Ff.zero) with
        | none => 0
        | some c => rejectPr n (sigmaSig n) h c R (fun s => ∃ a, SignatureOf n a (memOf v) (tapeOf s.2) ∧ Ev (fun _ => memOf w) a)) / 256 ^ 40) fun w => by
    refine (le_of_eq (byteAvg_const 40 _).symm).trans (byteAvg_mono fun v => ?_)
    cases hashToPoint (hashBlocks n) n (memOf w) (fun _ => Ff.zero) with
    | none => exact le_rfl
    | some c => exact (cosetPr_mono hn tr c fun s hs => ⟨hs.1, hD _ _ s hs.1 hs.2⟩).trans (reject_ge hn tr c hR _))
  linarith

theorem oracle_upper {n : ℕ} (hn : ValidLog n) {h : Mem Ff} {f g F G : Mem Int} (tr : Trapdoor n h f g F G) (B0 T0 : Mem ℂ) (msg : List UInt8)
    (sig : Mem UInt8) (m R : ℕ) {Ev : Xof → Mem UInt8 → Prop} (hEv : ∀ x a b, (∀ j, j < sigBytes n → a j = b j) → (Ev x a ↔ Ev x b))
    {D : PairZ n → Prop} (hD : ∀ st c salt s a, hashToPoint (hashBlocks n) n st (fun _ => Ff.zero) = some c → InCoset n h c s → Accept n s →
      SignatureOf n a salt (tapeOf s.2) → Ev (fun _ => st) a → D s) :
    oracleSignPr n m R f g F G B0 T0 msg sig Ev ≤ R * (sphericalPr n (sigmaSig n) D + 1 / 2 ^ 33 + roundErr n m) := by
  have h1 := (abs_le.mp (oracle_law hn tr B0 T0 msg sig m R hEv)).2
  have h2 := (oracle_mean hn tr D).2
  have h3 := byteAvg_mono (a := fun w : Fin (136 * hashBlocks n) → UInt8 => (∑ v : Fin 40 → UInt8, match hashToPoint (hashBlocks n) n (memOf w) (fun _ => Ff.zero) with
        | none => 0
        | some c => rejectPr n (sigmaSig n) h c R (fun s => ∃ a, SignatureOf n a (memOf v) (tapeOf s.2) ∧ Ev (fun _ => memOf w) a)) / 256 ^ 40)
      (b := fun w => R * match hashToPoint (hashBlocks n) n (memOf w) (fun _ => Ff.zero) with
        | none => 0
        | some c => cosetPr n (sigmaSig n) h c D) fun w => by
    refine le_trans (byteAvg_mono fun v => ?_) (le_of_eq (byteAvg_const 40 _))
    cases hw : hashToPoint (hashBlocks n) n (memOf w) (fun _ => Ff.zero) with
    | none => exact le_of_eq (mul_zero _).symm
    | some c =>
      refine (reject_le hn tr c R _).trans (mul_le_mul_of_nonneg_left (cosetPr_mono_in hn tr c fun s hs hs' => ?_) (Nat.cast_nonneg R))
      obtain ⟨ha, a, h4, h5⟩ := hs'
      exact hD _ c _ s a hw hs ha h4 h5
  rw [← Finset.mul_sum, mul_div_assoc] at h3
  have h4 := mul_le_mul_of_nonneg_left h2 (Nat.cast_nonneg (α := ℝ) R)
  linarith

end Falcon
