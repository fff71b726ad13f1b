import Verif.Props.SignGauss

/-!
# C87: signing with a random salt

All random bytes of `sign`, those of the salt included, are uniform.
-/

namespace Falcon

theorem memOf_append {J K : ℕ} (v : Fin J → UInt8) (w : Fin K → UInt8) :
    memOf (Fin.append v w) = fun i => if i < J then memOf v i else memOf w (i - J) := by
  funext i
  show (if h : i < J + K then Fin.append v w ⟨i, h⟩ else 0) = if i < J then (if h : i < J then v ⟨i, h⟩ else 0) else
    if h : i - J < K then w ⟨i - J, h⟩ else 0
  by_cases h : i < J
  · rw [dif_pos (by omega), if_pos h, dif_pos h]
    exact Fin.append_left v w ⟨i, h⟩
  · rw [if_neg h]
    by_cases h' : i < J + K
    · rw [dif_pos h', dif_pos (by omega)]
      rw [← Fin.append_right v w ⟨i - J, by omega⟩]
      congr 1
      exact Fin.ext (by simp; omega)
    · rw [dif_neg h', dif_neg (by omega)]

/-- Averaging over byte strings is averaging over their first J bytes and over the rest. -/
theorem freq_append (J K : ℕ) (P : Mem UInt8 → Prop) :
    freq (J + K) P = (∑ v : Fin J → UInt8, freq K fun st => P fun i => if i < J then memOf v i else st (i - J)) / 256 ^ J := by
  classical
  unfold freq
  rw [← Finset.sum_div, div_div, ← pow_add, Nat.add_comm K J]
  congr 1
  rw [Finset.card_eq_sum_ones, Finset.sum_filter]
  push_cast
  rw [← (Fin.appendEquiv J K).sum_comp, Fintype.sum_prod_type]
  refine Finset.sum_congr rfl fun v _ => ?_
  rw [Finset.card_eq_sum_ones, Finset.sum_filter]
  push_cast
  refine Finset.sum_congr rfl fun w _ => ?_
  rw [← memOf_append]
  rfl

theorem freq_salt (K : ℕ) (P : Mem UInt8 → Prop) :
    freq (40 + K) P = (∑ v : Fin 40 → UInt8, freq K fun st => P (saltStream (memOf v) st)) / 256 ^ 40 := freq_append 40 K P

/-- Signing in exact arithmetic on uniform bytes: every event of the signature bytes has the probability that it has under the signing algorithm of the
specification with ideal Gaussians, which uses no secret basis; up to R times the error of one round. -/
theorem C87_law {n : ℕ} (hn : ValidLog n) {h : Mem Ff} {f g F G : Mem Int} (tr : Trapdoor n h f g F G)
    (B0 T0 : Mem ℂ) (xof : Xof) (hfuel : ℕ) (msg : List UInt8) (sig : Mem UInt8) (m R : ℕ) {Ev : Mem UInt8 → Prop}
    (hEv : ∀ a b, (∀ j, j < sigBytes n → a j = b j) → (Ev a ↔ Ev b)) :
    let B := computeMatrixB exactA n f g F G B0
    |freq (40 + 18 * m * 2 ^ (n + 1) * R) (fun st => ∃ r, signPoly exactA xof (codeLeaf false n m st) R hfuel n B
          (computeFalconTree exactA n B T0) st msg sig 0 = some (.ok r) ∧ Ev r.1)
      - specSignPr n (sigmaSig n) h (fun salt => hashToPoint hfuel n (xof ((List.range 40).map salt ++ msg)) (fun _ => Ff.zero)) R
          (fun salt s => ∃ a, SignatureOf n a salt (tapeOf s.2) ∧ Ev a)| ≤ R * roundErr n m := by
  intro B
  have herr : 0 ≤ R * roundErr n m := by unfold roundErr; positivity
  rw [freq_salt, specSignPr, ← sub_div, ← Finset.sum_sub_distrib, abs_div, abs_of_pos (show (0 : ℝ) < 256 ^ 40 by positivity),
    div_le_iff₀ (by positivity)]
  refine (Finset.abs_sum_le_sum_abs _ _).trans ?_
  have hc : ((Finset.univ : Finset (Fin 40 → UInt8)).card : ℝ) = 256 ^ 40 := by
    rw [Finset.card_univ, Fintype.card_pi, Finset.prod_const, Finset.card_univ, Fintype.card_fin, BTree.card_byte]
    exact Nat.cast_pow 256 40
  rw [mul_comm ((R : ℝ) * roundErr n m), ← hc, ← nsmul_eq_mul]
  refine Finset.sum_le_card_nsmul _ _ _ fun v _ => ?_
  match hh : hashToPoint hfuel n (xof ((List.range 40).map (memOf v) ++ msg)) (fun _ => Ff.zero) with
  | some c => exact C83_law hn tr B0 T0 xof hfuel msg sig (memOf v) hh m R hEv
  | none =>
    have e : (fun st => ∃ r, signPoly exactA xof (codeLeaf false n m (saltStream (memOf v) st)) R hfuel n B
          (computeFalconTree exactA n B T0) (saltStream (memOf v) st) msg sig 0 = some (.ok r) ∧ Ev r.1) = fun _ => False := by
      funext st
      have hbytes : bytes 40 (prngRead (saltStream (memOf v) st) 0 40 (fun _ => 0)) = (List.range 40).map (memOf v) := by
        unfold bytes
        refine List.map_congr_left fun i hi => ?_
        unfold prngRead saltStream
        rw [loop_fill, if_pos (List.mem_range.mp hi), Nat.zero_add, if_pos (List.mem_range.mp hi)]
      have : signPoly exactA xof (codeLeaf false n m (saltStream (memOf v) st)) R hfuel n B
          (computeFalconTree exactA n B T0) (saltStream (memOf v) st) msg sig 0 = none := by
        unfold signPoly
        simp only [hbytes, hh]
      rw [this]
      exact propext ⟨fun ⟨r, hr, _⟩ => (by cases hr), False.elim⟩
    rw [e]
    have : freq (18 * m * 2 ^ (n + 1) * R) (fun _ => False) = 0 := by
      unfold freq
      simp
    rw [this, sub_zero, abs_zero]
    exact herr

/-- Two secret keys of one public key: the distributions of the signatures of a message differ by at most 2 R times the error of one round. -/
theorem C87_basis {n : ℕ} (hn : ValidLog n) {h : Mem Ff} {f g F G f' g' F' G' : Mem Int} (tr : Trapdoor n h f g F G)
    (tr' : Trapdoor n h f' g' F' G') (B0 T0 : Mem ℂ) (xof : Xof) (hfuel : ℕ) (msg : List UInt8) (sig : Mem UInt8) (m R : ℕ)
    {Ev : Mem UInt8 → Prop} (hEv : ∀ a b, (∀ j, j < sigBytes n → a j = b j) → (Ev a ↔ Ev b)) :
    let signs := fun f g F G : Mem Int =>
      let B := computeMatrixB exactA n f g F G B0
      freq (40 + 18 * m * 2 ^ (n + 1) * R) (fun st => ∃ r, signPoly exactA xof (codeLeaf false n m st) R hfuel n B
          (computeFalconTree exactA n B T0) st msg sig 0 = some (.ok r) ∧ Ev r.1)
    |signs f g F G - signs f' g' F' G'| ≤ 2 * R * roundErr n m := by
  intro signs
  have := tri4 (C87_law hn tr B0 T0 xof hfuel msg sig m R hEv) (C87_law hn tr' B0 T0 xof hfuel msg sig m R hEv)
  refine this.trans (le_of_eq ?_)
  ring

/-- Non-vacuity: two secret keys of one public key, one round, 40 attempts per integer; the event is that the first byte of the compressed half
is odd. -/
example (xof : Xof) (msg : List UInt8) (sig : Mem UInt8) :
    let signs := fun f g F G : Mem Int =>
      let B := computeMatrixB exactA 9 f g F G (fun _ => 0)
      freq (40 + 18 * 40 * 2 ^ (9 + 1) * 1) (fun st => ∃ r, signPoly exactA xof (codeLeaf false 9 40 st) 1 20 9 B
          (computeFalconTree exactA 9 B (fun _ => 0)) st msg sig 0 = some (.ok r) ∧ r.1 41 % 2 = 1)
    |signs flatf flatg flatF flatG - signs flatf flatg flatF' flatG'| ≤ 1 / 2 ^ 28 := by
  intro signs
  refine (C87_basis (.inl rfl) flat_trapdoor flat_trapdoor' (fun _ => 0) (fun _ => 0) xof 20 msg sig 40 1 (Ev := fun a => a 41 % 2 = 1)
    (fun a b h => by rw [h 41 (by decide)])).trans ?_
  unfold roundErr
  norm_num

end Falcon
