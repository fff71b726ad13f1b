import Verif.KeylessSpec
import Verif.Props.Syndrome
import Verif.Props.TimingSign
import Verif.Proofs.HashMean

/-!
# C121: signatures of uniform points, with their iteration counts, can be produced without any secret key

Random bytes are independent and uniform: `freq k P` is the fraction of byte strings of length k for which P holds.
-/

namespace Falcon

open Finset

/-- The simulations that need a preimage sampler, averaged over the point, are the simulation that needs none. -/
theorem keyless_avg {n : ℕ} (hn : ValidLog n) {h : Mem Ff} {f g F G : Mem Int} (tr : Trapdoor n h f g F G) (m : ℕ)
    (E : Point n → List ℕ → PairZ n → Prop) :
    |(∑ v : Point n, simPr n (sigmaSig n) m h (pointOf v) (E v)) / 12289 ^ 2 ^ n - keylessPr n (sigmaSig n) m h E| ≤ 1 / 2 ^ 33 := by
  obtain ⟨g0, g1⟩ := geo_mass hn m
  have e : (∑ v : Point n, simPr n (sigmaSig n) m h (pointOf v) (E v)) / 12289 ^ 2 ^ n = ∑ k : Fin (2 ^ (n + 1)) → Fin m, geoPr n k *
      ((∑ v : Point n, cosetPr n (sigmaSig n) h (pointOf v) (E v (countsOf k))) / 12289 ^ 2 ^ n) := by
    unfold simPr
    rw [sum_comm, sum_div]
    refine sum_congr rfl fun k _ => ?_
    rw [← mul_sum, mul_div_assoc]
  rw [e]
  unfold keylessPr
  rw [← sum_sub_distrib]
  refine (abs_sum_le_sum_abs _ _).trans ((sum_le_sum fun k _ => ?_).trans (b := ∑ k : Fin (2 ^ (n + 1)) → Fin m, geoPr n k * (1 / 2 ^ 33)) ?_)
  · rw [← mul_sub, abs_mul, abs_of_nonneg (g0 k), abs_sub_comm]
    exact mul_le_mul_of_nonneg_left (pair_joint hn tr fun v => E v (countsOf k)) (g0 k)
  · rw [← sum_mul]
    exact mul_le_of_le_one_left (by norm_num) g1

theorem avg_close {n : ℕ} (p p' : Point n → ℝ) {e : ℝ} (hb : ∀ v, |p v - p' v| ≤ e) :
    |(∑ v : Point n, p v) / 12289 ^ 2 ^ n - (∑ v : Point n, p' v) / 12289 ^ 2 ^ n| ≤ e := by
  have hq : (0 : ℝ) < 12289 ^ 2 ^ n := pow_pos (by norm_num) _
  rw [← sub_div, ← sum_sub_distrib, abs_div, abs_of_pos hq, div_le_iff₀ hq]
  refine (abs_sum_le_sum_abs _ _).trans ((sum_le_card_nsmul _ _ _ fun v _ => hb v).trans (le_of_eq ?_))
  rw [nsmul_eq_mul, card_univ, card_point, mul_comm]

/-- Drawing a uniform point and running one round of signing on it, or drawing a pair and counts without a key and computing the point: every event of
point, iteration counts and pair has the same probability up to 2^-21. -/
theorem C121_round {n : ℕ} (hn : ValidLog n) {h : Mem Ff} {f g F G : Mem Int} (tr : Trapdoor n h f g F G) (B0 T0 z0 z1 : Mem ℂ) (m : ℕ)
    (E : Point n → List ℕ → PairZ n → Prop) :
    |(∑ v : Point n, roundPr n m f g F G B0 T0 z0 z1 (pointOf v) (E v)) / 12289 ^ 2 ^ n - keylessPr n (sigmaSig n) m h E| ≤ 1 / 2 ^ 21 :=
  (tri (avg_close _ _ fun v => C119_round hn tr B0 T0 z0 z1 (pointOf_canon v) m (E v)) (keyless_avg hn tr m E)).trans (by norm_num)

/-- The same for the signature bytes: point, compressed signature and iteration counts, when signing succeeds in its first round. -/
theorem C121_sign {n : ℕ} (hn : ValidLog n) {h : Mem Ff} {f g F G : Mem Int} (tr : Trapdoor n h f g F G) (B0 T0 : Mem ℂ) (m : ℕ) (salt : ℕ → UInt8)
    {Ev : Point n → List ℕ → Mem UInt8 → Prop} (hEv : ∀ v l a b, (∀ j, 41 ≤ j → j < sigBytes n → a j = b j) → (Ev v l a ↔ Ev v l b)) (sig : Mem UInt8) :
    let B := computeMatrixB exactA n f g F G B0
    let p := fun v : Point n =>
      let t := signTarget exactA n B (pointOf v)
      freq (18 * m * 2 ^ (n + 1)) (fun st => ∃ r, signLoop exactA (timedLeaf n m st) n B (computeFalconTree exactA n B T0) t.1 t.2 1 sig (0, []) =
        some (.ok r) ∧ Ev v r.2.2 r.1)
    |(∑ v : Point n, p v) / 12289 ^ 2 ^ n - keylessPr n (sigmaSig n) m h (fun v l s => Accept n s ∧ ∃ a, SignatureOf n a salt (tapeOf s.2) ∧ Ev v l a)| ≤
      1 / 2 ^ 21 := by
  intro B p
  refine (tri (avg_close _ (fun v => simPr n (sigmaSig n) m h (pointOf v) fun l s => Accept n s ∧ ∃ a, SignatureOf n a salt (tapeOf s.2) ∧ Ev v l a)
    (e := 1 / 2 ^ 22) fun v => ?_) (keyless_avg hn tr m _)).trans (by norm_num)
  have h1 := timed_sign hn tr B0 T0 (pointOf_canon v) m salt (hEv v) 1 sig
  have e : simSignPr n (sigmaSig n) m h (pointOf v) (fun l s => ∃ a, SignatureOf n a salt (tapeOf s.2) ∧ Ev v l a) 1 [] =
      simPr n (sigmaSig n) m h (pointOf v) fun l s => Accept n s ∧ ∃ a, SignatureOf n a salt (tapeOf s.2) ∧ Ev v l a := by
    unfold simPr
    simp only [simSignPr, mul_zero, add_zero, List.nil_append]
  rw [e, mul_one, Nat.cast_one, one_mul] at h1
  exact h1

/-- Later rounds change the simulation of the signing loop at most by the probability that the first round is not accepted. -/
theorem simSign_first {n : ℕ} (hn : ValidLog n) {h : Mem Ff} {f g F G : Mem Int} (tr : Trapdoor n h f g F G) (m : ℕ) (c : Mem Ff)
    (E : List ℕ → PairZ n → Prop) (R : ℕ) :
    |simSignPr n (sigmaSig n) m h c E (R + 1) [] - simPr n (sigmaSig n) m h c (fun l s => Accept n s ∧ E l s)| ≤
      cosetPr n (sigmaSig n) h c (fun s => ¬ Accept n s) := by
  obtain ⟨g0, g1⟩ := geo_mass hn m
  have a0 := (cosetPr_mem hn tr c fun s => ¬ Accept n s).1
  have e : simSignPr n (sigmaSig n) m h c E (R + 1) [] - simPr n (sigmaSig n) m h c (fun l s => Accept n s ∧ E l s) =
      ∑ k : Fin (2 ^ (n + 1)) → Fin m, geoPr n k * (cosetPr n (sigmaSig n) h c (fun s => ¬ Accept n s) * simSignPr n (sigmaSig n) m h c E R (countsOf k)) := by
    unfold simPr
    rw [simSignPr, ← sum_sub_distrib]
    refine sum_congr rfl fun k _ => ?_
    rw [List.nil_append]
    ring
  rw [e, abs_of_nonneg (sum_nonneg fun k _ => mul_nonneg (g0 k) (mul_nonneg a0 (simSignPr_mem hn tr m c E R _).1))]
  refine (sum_le_sum fun k _ => mul_le_mul_of_nonneg_left (mul_le_of_le_one_right a0 (simSignPr_mem hn tr m c E R _).2) (g0 k)).trans ?_
  rw [← sum_mul]
  exact mul_le_of_le_one_left a0 g1

/-- The same for the whole loop with at most R + 1 rounds: a second round is needed only with the probability that a pair from the spherical Gaussian is too
long for the norm test or for the signature buffer, and this is the only further error. -/
theorem C121_loop {n : ℕ} (hn : ValidLog n) {h : Mem Ff} {f g F G : Mem Int} (tr : Trapdoor n h f g F G) (B0 T0 : Mem ℂ) (m : ℕ) (salt : ℕ → UInt8)
    {Ev : Point n → List ℕ → Mem UInt8 → Prop} (hEv : ∀ v l a b, (∀ j, 41 ≤ j → j < sigBytes n → a j = b j) → (Ev v l a ↔ Ev v l b)) (R : ℕ)
    (sig : Mem UInt8) :
    let B := computeMatrixB exactA n f g F G B0
    let p := fun v : Point n =>
      let t := signTarget exactA n B (pointOf v)
      freq (18 * m * 2 ^ (n + 1) * (R + 1)) (fun st => ∃ r, signLoop exactA (timedLeaf n m st) n B (computeFalconTree exactA n B T0) t.1 t.2 (R + 1) sig (0, []) =
        some (.ok r) ∧ Ev v r.2.2 r.1)
    |(∑ v : Point n, p v) / 12289 ^ 2 ^ n - keylessPr n (sigmaSig n) m h (fun v l s => Accept n s ∧ ∃ a, SignatureOf n a salt (tapeOf s.2) ∧ Ev v l a)| ≤
      (R + 1) * (1 / 2 ^ 22) + sphericalPr n (sigmaSig n) (fun s => ¬ Accept n s) + 1 / 2 ^ 32 := by
  intro B p
  have h1 : |(∑ v : Point n, p v) / 12289 ^ 2 ^ n - (∑ v : Point n, simSignPr n (sigmaSig n) m h (pointOf v)
      (fun l s => ∃ a, SignatureOf n a salt (tapeOf s.2) ∧ Ev v l a) (R + 1) []) / 12289 ^ 2 ^ n| ≤ ((R : ℝ) + 1) * (1 / 2 ^ 22) := by
    refine avg_close _ _ fun v => ?_
    have := timed_sign hn tr B0 T0 (pointOf_canon v) m salt (hEv v) (R + 1) sig
    rw [Nat.cast_succ] at this
    exact this
  have h2 : |(∑ v : Point n, simSignPr n (sigmaSig n) m h (pointOf v) (fun l s => ∃ a, SignatureOf n a salt (tapeOf s.2) ∧ Ev v l a) (R + 1) []) / 12289 ^ 2 ^ n -
      (∑ v : Point n, simPr n (sigmaSig n) m h (pointOf v) (fun l s => Accept n s ∧ ∃ a, SignatureOf n a salt (tapeOf s.2) ∧ Ev v l a)) / 12289 ^ 2 ^ n| ≤
      (∑ v : Point n, cosetPr n (sigmaSig n) h (pointOf v) (fun s => ¬ Accept n s)) / 12289 ^ 2 ^ n := by
    have hq : (0 : ℝ) < 12289 ^ 2 ^ n := pow_pos (by norm_num) _
    rw [← sub_div, ← sum_sub_distrib, abs_div, abs_of_pos hq]
    exact div_le_div_of_nonneg_right ((abs_sum_le_sum_abs _ _).trans (sum_le_sum fun v _ => simSign_first hn tr m (pointOf v) _ R)) hq.le
  have h3 := keyless_avg hn tr m fun v l s => Accept n s ∧ ∃ a, SignatureOf n a salt (tapeOf s.2) ∧ Ev v l a
  have h4 := (abs_le.mp (point_mean hn tr fun s => ¬ Accept n s)).1
  refine (tri h1 (tri h2 h3)).trans ?_
  have e : (1 / 2 ^ 33 + 1 / 2 ^ 33 : ℝ) = 1 / 2 ^ 32 := by norm_num
  linarith

/-- A secret key and an event of the first coordinate of the point, the first count and a signature byte. -/
example : (∃ (h : Mem Ff) (f g F G : Mem Int), Trapdoor 9 h f g F G) ∧
    ∀ (v : Point 9) (l : List ℕ) (a b : Mem UInt8), (∀ j, 41 ≤ j → j < sigBytes 9 → a j = b j) →
      (((v 0).val = 7 ∧ l.head? = some 2 ∧ a 44 = 3) ↔ ((v 0).val = 7 ∧ l.head? = some 2 ∧ b 44 = 3)) :=
  ⟨⟨_, _, _, _, _, flat_trapdoor⟩, fun v l a b h => by rw [h 44 (by norm_num) (by decide)]⟩

end Falcon
