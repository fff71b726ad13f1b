import Verif.Proofs.TimedAdversary

/-!
# C122: an adversary that sees signatures and iteration counts

Random bytes are independent and uniform, arithmetic outside the integer sampler is exact.
-/

namespace Falcon

/-- The observed signer is the signer of the model: the signature bytes are those of `signPoly`. -/
theorem C122_signer {n : ℕ} (hn : ValidLog n) {h : Mem Ff} {f g F G : Mem Int} (tr : Trapdoor n h f g F G) (B0 T0 : Mem ℂ) (xof : Xof) (m R hfuel : ℕ)
    (sig : Mem UInt8) (msg : List UInt8) (st : ℕ → UInt8) :
    let B := computeMatrixB exactA n f g F G B0
    (timedSigner xof m R hfuel n B (computeFalconTree exactA n B T0) sig msg st).map (fun o => o.1) =
      exactSigner xof m R hfuel n B (computeFalconTree exactA n B T0) sig msg st := by
  intro B
  unfold timedSigner exactSigner signPoly
  simp only [Nat.zero_add]
  match hashToPoint hfuel n (xof (bytes 40 (prngRead st 0 40 (fun _ => 0)) ++ msg)) (fun _ => Ff.zero) with
  | none => rfl
  | some c =>
    simp only
    obtain ⟨P, hP⟩ := round_otree hn tr B0 T0 (signTarget exactA n B c).1 (signTarget exactA n B c).2
    rw [loop_forget hP st R sig 40 []]
    match signLoop exactA (timedLeaf n m st) n B (computeFalconTree exactA n B T0) (signTarget exactA n B c).1 (signTarget exactA n B c).2 R sig (40, []) with
    | none => rfl
    | some (.error e) => rfl
    | some (.ok r) => rfl

/-- Every event of the signature bytes and the counts of one answer, or of there being no answer. -/
theorem answer_close {n : ℕ} (hn : ValidLog n) {h : Mem Ff} {f g F G f' g' F' G' : Mem Int} (tr : Trapdoor n h f g F G)
    (tr' : Trapdoor n h f' g' F' G') (B0 T0 : Mem ℂ) (xof : Xof) (m R hfuel : ℕ) (sig : Mem UInt8) (msg : List UInt8)
    (S : Option (List UInt8 × List ℕ) → Prop) :
    let signs := fun f g F G : Mem Int =>
      let B := computeMatrixB exactA n f g F G B0
      timedSigner xof m R hfuel n B (computeFalconTree exactA n B T0) sig msg
    |freq (40 + 18 * m * 2 ^ (n + 1) * R) (fun st => S (signs f g F G st)) - freq (40 + 18 * m * 2 ^ (n + 1) * R) (fun st => S (signs f' g' F' G' st))| ≤
      2 * (R * (1 / 2 ^ 22)) := by
  intro signs
  -- events that need an answer
  have main : ∀ S : Option (List UInt8 × List ℕ) → Prop, ¬ S none →
      |freq (40 + 18 * m * 2 ^ (n + 1) * R) (fun st => S (signs f g F G st)) - freq (40 + 18 * m * 2 ^ (n + 1) * R) (fun st => S (signs f' g' F' G' st))| ≤
        2 * (R * (1 / 2 ^ 22)) := by
    intro S hS
    rw [freq_salt, freq_salt, ← sub_div, ← Finset.sum_sub_distrib, abs_div, abs_of_pos (show (0 : ℝ) < 256 ^ 40 by positivity),
      div_le_iff₀ (by positivity)]
    refine (Finset.abs_sum_le_sum_abs _ _).trans ?_
    have hc : ((Finset.univ : Finset (Fin 40 → UInt8)).card : ℝ) = 256 ^ 40 := by
      rw [Finset.card_univ, Fintype.card_pi, Finset.prod_const, Finset.card_univ, Fintype.card_fin, BTree.card_byte]
      exact Nat.cast_pow 256 40
    rw [mul_comm _ ((256 : ℝ) ^ 40), ← hc, ← nsmul_eq_mul]
    refine Finset.sum_le_card_nsmul _ _ _ fun v _ => ?_
    have hb := salt_list (memOf v)
    match hh : hashToPoint hfuel n (xof ((List.range 40).map (memOf v) ++ msg)) (fun _ => Ff.zero) with
    | none =>
      have e : ∀ f g F G : Mem Int, (fun st => S (signs f g F G (saltStream (memOf v) st))) = fun _ => S none := by
        intro f g F G
        funext st
        simp only [signs, timedSigner, hb, hh]
      rw [e, e, sub_self, abs_zero]
      exact mul_nonneg zero_le_two (mul_nonneg (Nat.cast_nonneg R) (by norm_num))
    | some c =>
      have hcan : CanonBelow (2 ^ n) c := (hashToPoint_spec hh).1.canon
      have e1 := answer_salt hn tr B0 T0 xof m R hfuel sig msg (memOf v) hh hS
      have e2 := answer_salt hn tr' B0 T0 xof m R hfuel sig msg (memOf v) hh hS
      simp only [signs]
      rw [e1, e2]
      exact C120_basis hn tr tr' B0 T0 hcan m (Ev := fun l a => S (some (bytes (sigBytes n) (assemble n (memOf v) a), l)))
        (fun l a b hab => by rw [assemble_bytes hab]) R sig
  by_cases hS : S none
  · have h1 := main (fun o => ¬ S o) fun hx => hx hS
    have c1 := freq_compl (40 + 18 * m * 2 ^ (n + 1) * R) fun st => S (signs f g F G st)
    have c2 := freq_compl (40 + 18 * m * 2 ^ (n + 1) * R) fun st => S (signs f' g' F' G' st)
    rw [abs_le] at h1 ⊢
    constructor <;> linarith [h1.1, h1.2]
  · exact main S hS

/-- An adversary asks adaptively for Q signatures and sees all signature bytes and all iteration counts of the integer sampler, for every answer. It does not tell
two secret keys of one public key apart: its probabilities of winning differ by at most Q R 2^-21, for R rounds per signature. -/
theorem C122_adversary {n : ℕ} (hn : ValidLog n) {h : Mem Ff} {f g F G f' g' F' G' : Mem Int} (tr : Trapdoor n h f g F G)
    (tr' : Trapdoor n h f' g' F' G') (B0 T0 : Mem ℂ) (xof : Xof) (m R hfuel : ℕ) (sig : Mem UInt8) {A : TimedAdversary} {Q : ℕ} (hA : A.Asks Q) :
    let p := fun f g F G : Mem Int =>
      let B := computeMatrixB exactA n f g F G B0
      A.winsPr (40 + 18 * m * 2 ^ (n + 1) * R) (timedSigner xof m R hfuel n B (computeFalconTree exactA n B T0) sig)
    |p f g F G - p f' g' F' G'| ≤ Q * (R * (1 / 2 ^ 21)) := by
  intro p
  refine (TimedAdversary.hybrid (fun msg S => answer_close hn tr tr' B0 T0 xof m R hfuel sig msg S) hA).trans (le_of_eq ?_)
  ring

/-- An adversary that asks for a message made of the first answer, and wins if the first call of the sampler took equally long twice; two secret keys of one
public key. -/
example (xof : Xof) (sig : Mem UInt8) :
    let A : TimedAdversary := .ask [1] fun o => .ask ((o.map Prod.fst).getD []) fun o' =>
      .stop (∃ a b, o = some a ∧ o' = some b ∧ a.2.head? = b.2.head?)
    let p := fun f g F G : Mem Int =>
      let B := computeMatrixB exactA 9 f g F G (fun _ => 0)
      A.winsPr (40 + 18 * 128 * 2 ^ (9 + 1) * 4) (timedSigner xof 128 4 20 9 B (computeFalconTree exactA 9 B (fun _ => 0)) sig)
    flatF 0 ≠ flatF' 0 ∧ |p flatf flatg flatF flatG - p flatf flatg flatF' flatG'| ≤ 1 / 2 ^ 18 := by
  intro A p
  refine ⟨by decide, (C122_adversary (.inl rfl) flat_trapdoor flat_trapdoor' (fun _ => 0) (fun _ => 0) xof 128 4 20 sig (A := A) (Q := 2)
    (.ask _ _ 1 fun _ => .ask _ _ 0 fun _ => .stop _ 0)).trans ?_⟩
  norm_num

end Falcon
