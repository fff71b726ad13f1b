import Verif.Proofs.TimingSign

/-!
# C120: signature and iteration counts of the whole signing loop can be simulated from the public key

Random bytes are independent and uniform: `freq k P` is the fraction of byte strings of length k for which P holds.
-/

namespace Falcon

open Finset

/-- The loop of signing, in exact arithmetic, at most R rounds and m attempts per integer, for every hashed point: every event of the compressed
signature and of the list of all iteration counts of all rounds has the probability it has in the simulation, up to R 2^-22. The simulation uses the
public key and the hashed point only. The length of the list is 2N times the number of rounds, so the number of rounds is part of what is seen. -/
theorem C120_sign {n : ℕ} (hn : ValidLog n) {h : Mem Ff} {f g F G : Mem Int} (tr : Trapdoor n h f g F G)
    (B0 T0 : Mem ℂ) {c : Mem Ff} (hc : CanonBelow (2 ^ n) c) (m : ℕ) (salt : ℕ → UInt8) {Ev : List ℕ → Mem UInt8 → Prop}
    (hEv : ∀ l a b, (∀ j, 41 ≤ j → j < sigBytes n → a j = b j) → (Ev l a ↔ Ev l b)) (R : ℕ) (sig : Mem UInt8) :
    let B := computeMatrixB exactA n f g F G B0
    let t := signTarget exactA n B c
    |freq (18 * m * 2 ^ (n + 1) * R) (fun st => ∃ r, signLoop exactA (timedLeaf n m st) n B (computeFalconTree exactA n B T0) t.1 t.2 R sig (0, []) =
        some (.ok r) ∧ Ev r.2.2 r.1)
      - simSignPr n (sigmaSig n) m h c (fun l s => ∃ a, SignatureOf n a salt (tapeOf s.2) ∧ Ev l a) R []| ≤ R * (1 / 2 ^ 22) :=
  timed_sign hn tr B0 T0 hc m salt hEv R sig

/-- Signature and iteration counts together do not tell two secret keys of the same public key apart. -/
theorem C120_basis {n : ℕ} (hn : ValidLog n) {h : Mem Ff} {f g F G f' g' F' G' : Mem Int} (tr : Trapdoor n h f g F G)
    (tr' : Trapdoor n h f' g' F' G') (B0 T0 : Mem ℂ) {c : Mem Ff} (hc : CanonBelow (2 ^ n) c) (m : ℕ) {Ev : List ℕ → Mem UInt8 → Prop}
    (hEv : ∀ l a b, (∀ j, 41 ≤ j → j < sigBytes n → a j = b j) → (Ev l a ↔ Ev l b)) (R : ℕ) (sig : Mem UInt8) :
    let signs := fun f g F G : Mem Int =>
      let B := computeMatrixB exactA n f g F G B0
      let t := signTarget exactA n B c
      freq (18 * m * 2 ^ (n + 1) * R) (fun st => ∃ r, signLoop exactA (timedLeaf n m st) n B (computeFalconTree exactA n B T0) t.1 t.2 R sig (0, []) =
        some (.ok r) ∧ Ev r.2.2 r.1)
    |signs f g F G - signs f' g' F' G'| ≤ 2 * (R * (1 / 2 ^ 22)) :=
  tri4 (timed_sign hn tr B0 T0 hc m (fun _ => 0) hEv R sig) (timed_sign hn tr' B0 T0 hc m (fun _ => 0) hEv R sig)

/-- Without the counts the simulation is rejection sampling from the Gaussian on the preimages, every round weighted with the probability that its
calls end within m attempts. -/
theorem C120_signature (n : ℕ) (sigma : ℝ) (m : ℕ) (h c : Mem Ff) (E : PairZ n → Prop) (R : ℕ) (l : List ℕ) :
    simSignPr n sigma m h c (fun _ s => E s) R l = ∑ i ∈ range R, (∑ k : Fin (2 ^ (n + 1)) → Fin m, geoPr n k) ^ (i + 1) *
      (cosetPr n sigma h c (fun s => ¬ Accept n s) ^ i * cosetPr n sigma h c (fun s => Accept n s ∧ E s)) := by
  induction R generalizing l with
  | zero => rfl
  | succ R ih =>
    rw [simSignPr]
    simp only [ih]
    rw [← sum_mul, sum_range_succ', mul_add, mul_sum, mul_sum]
    rw [add_comm]
    congr 1
    · refine sum_congr rfl fun i _ => ?_
      rw [pow_succ' _ (i + 1), pow_succ' _ i]
      ring
    · simp

/-- Two secret keys of one public key, a hashed point, and an event of the third signature body byte and of the number of rounds. -/
example : (∃ (h : Mem Ff) (f g F G F' G' : Mem Int), Trapdoor 9 h f g F G ∧ Trapdoor 9 h f g F' G' ∧ F 0 ≠ F' 0 ∧
      CanonBelow (2 ^ 9) (fun _ => (⟨7⟩ : Ff))) ∧
    ∀ (l : List ℕ) (a b : Mem UInt8), (∀ j, 41 ≤ j → j < sigBytes 9 → a j = b j) →
      ((l.length = 2048 ∧ a 44 = 3) ↔ (l.length = 2048 ∧ b 44 = 3)) :=
  ⟨⟨_, _, _, _, _, _, _, flat_trapdoor, flat_trapdoor', by decide, fun i _ => by show (7 : UInt16).toNat < 12289; decide⟩,
    fun l a b h => by rw [h 44 (by norm_num) (by decide)]⟩

end Falcon
