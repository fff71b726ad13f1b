import Verif.Props.Seed
import Mathlib.Analysis.SpecialFunctions.Exp
import Mathlib.Data.Fintype.CardEmbedding

/-!
# C98: independently generated keys and salts repeat

The words of the random device are uniform and independent: all tuples of Q words are counted. Nothing is assumed about the XOF and the twister.
-/

namespace Falcon

instance : Fintype UInt32 := Fintype.ofEquiv (Fin (2 ^ 32)) ⟨UInt32.ofFin, UInt32.toFin, fun _ => rfl, fun _ => rfl⟩

open Classical in
/-- The fraction of the Q-tuples of 32-bit words having a property. -/
noncomputable def wordFreq (Q : ℕ) (P : (Fin Q → UInt32) → Prop) : ℝ :=
  ((Finset.univ.filter fun rds : Fin Q → UInt32 => P rds).card : ℝ) / (2 ^ 32) ^ Q

theorem card_word : Fintype.card UInt32 = 2 ^ 32 := by
  rw [Fintype.card_congr (⟨UInt32.toFin, UInt32.ofFin, fun _ => rfl, fun _ => rfl⟩ : UInt32 ≃ Fin (2 ^ 32)), Fintype.card_fin]

/-- The birthday bound: Q independent words are distinct with probability at most exp(-Q(Q-1)/2^33). -/
theorem words_distinct (Q : ℕ) {P : (Fin Q → UInt32) → Prop} (hP : ∀ rds, P rds → Function.Injective rds) :
    wordFreq Q P ≤ Real.exp (-(Q * (Q - 1) / 2 ^ 33)) := by
  classical
  unfold wordFreq
  have h1 : (Finset.univ.filter fun rds : Fin Q → UInt32 => P rds).card ≤ (2 ^ 32).descFactorial Q := by
    have e := Fintype.card_embedding_eq (α := Fin Q) (β := UInt32)
    rw [card_word, Fintype.card_fin] at e
    rw [← e, ← Finset.card_univ]
    refine Finset.card_le_card_of_surjOn (fun e : Fin Q ↪ UInt32 => (e : Fin Q → UInt32)) fun rds hr => ?_
    rw [Finset.mem_coe, Finset.mem_filter] at hr
    exact ⟨⟨rds, hP rds hr.2⟩, Finset.mem_coe.mpr (Finset.mem_univ _), rfl⟩
  have h2 : (((2 ^ 32).descFactorial Q : ℕ) : ℝ) ≤ (2 ^ 32) ^ Q * Real.exp (-(Q * (Q - 1) / 2 ^ 33)) := by
    clear h1 hP P
    induction Q with
    | zero => simp
    | succ Q ih =>
      rw [Nat.descFactorial_succ, Nat.cast_mul]
      have h3 : ((2 ^ 32 - Q : ℕ) : ℝ) ≤ 2 ^ 32 * Real.exp (-(Q / 2 ^ 32)) := by
        by_cases hq : Q ≤ 2 ^ 32
        · rw [Nat.cast_sub hq]
          have := Real.add_one_le_exp (-((Q : ℝ) / 2 ^ 32))
          push_cast
          have h4 : (2 : ℝ) ^ 32 * (-(Q / 2 ^ 32) + 1) ≤ 2 ^ 32 * Real.exp (-(Q / 2 ^ 32)) := mul_le_mul_of_nonneg_left this (by norm_num)
          have h5 : (2 : ℝ) ^ 32 * (-(Q / 2 ^ 32) + 1) = 2 ^ 32 - Q := by ring
          linarith
        · rw [Nat.sub_eq_zero_of_le (not_le.mp hq).le, Nat.cast_zero]
          positivity
      refine (mul_le_mul h3 ih (Nat.cast_nonneg _) (by positivity)).trans (le_of_eq ?_)
      rw [mul_mul_mul_comm, ← pow_succ', ← Real.exp_add]
      congr 2
      push_cast
      ring
  rw [div_le_iff₀ (by positivity), mul_comm]
  exact (Nat.cast_le.mpr h1).trans h2

/-- C98: Q key generations, each from its own random word, all return and give pairwise different key pairs for a fraction of at most exp(-Q(Q-1)/2^33) of
the words: two parties share their secret key soon after Q = 2^16. The runs may differ in their buffers and in the numbers of candidates allowed. -/
theorem C98_keys {R C : Type} (A : Arith R C) (xof : Xof) (mt : UInt32 → Mem UInt8) (fma : Bool) {n : ℕ} (hn : ValidLog n) (Q : ℕ)
    (fuel iters : Fin Q → ℕ) (junk : Fin Q → Ntru) (pk0 sk0 : Fin Q → Mem UInt8) :
    wordFreq Q (fun rds => ∃ pk sk : Fin Q → Mem UInt8,
      (∀ i, falconKeygen A xof mt fma n (fuel i) (iters i) (junk i) (rds i) (pk0 i) (sk0 i) = some (.ok (pk i, sk i))) ∧
      ∀ i j, i ≠ j → (∃ b, b < pkBytes n ∧ pk i b ≠ pk j b) ∨ ∃ b, b < skBytes n ∧ sk i b ≠ sk j b) ≤ Real.exp (-(Q * (Q - 1) / 2 ^ 33)) := by
  refine words_distinct Q fun rds ⟨pk, sk, h1, h2⟩ i j hij => ?_
  by_contra hne
  have hi := h1 i
  have hj := h1 j
  rw [hij] at hi
  obtain ⟨a1, a2⟩ := C39_determined A xof mt fma hn (rds j) hi hj
  rcases h2 i j hne with ⟨b, b1, b2⟩ | ⟨b, b1, b2⟩
  · exact b2 (a1 b b1)
  · exact b2 (a2 b b1)

/-- C98: Q signatures, for any keys and messages, made from one random word each, have pairwise different salts for a fraction of at most
exp(-Q(Q-1)/2^33) of the words, instead of nearly always. -/
theorem C98_salts {R C : Type} (A : Arith R C) (xof : Xof) (mt : UInt32 → Mem UInt8) (leaf : (ℕ → UInt8) → LeafSampler R) {n : ℕ} (hn : ValidLog n)
    (Q : ℕ) (fuel hfuel : Fin Q → ℕ) (junk : Fin Q → FgF) (junkG : Fin Q → Mem Int) (junkB junkT : Fin Q → Mem C) (skey : Fin Q → Mem UInt8)
    (msg : Fin Q → List UInt8) (sig0 : Fin Q → Mem UInt8) :
    wordFreq Q (fun rds => ∃ sig : Fin Q → Mem UInt8,
      (∀ i, falconSign A xof mt leaf (fuel i) (hfuel i) n (junk i) (junkG i) (junkB i) (junkT i) (rds i) (skey i) (msg i) (sig0 i) = some (.ok (true, sig i))) ∧
      ∀ i j, i ≠ j → ∃ b, b < 40 ∧ sig i (1 + b) ≠ sig j (1 + b)) ≤ Real.exp (-(Q * (Q - 1) / 2 ^ 33)) := by
  refine words_distinct Q fun rds ⟨sig, h1, h2⟩ i j hij => ?_
  by_contra hne
  obtain ⟨b, b1, b2⟩ := h2 i j hne
  refine b2 ?_
  rw [C39_salt_bytes A xof mt leaf hn (h1 i) b b1, C39_salt_bytes A xof mt leaf hn (h1 j) b b1, hij]

/-- Non-vacuity of the bound: among 2^17 key pairs the probability that they are all different is below 1/6. -/
example : Real.exp (-((2 ^ 17 : ℕ) * ((2 ^ 17 : ℕ) - 1) / 2 ^ 33)) ≤ 1 / 6 := by
  have h : (1.99 : ℝ) ≤ (2 ^ 17 : ℕ) * ((2 ^ 17 : ℕ) - 1) / 2 ^ 33 := by norm_num
  refine (Real.exp_le_exp.mpr (neg_le_neg h)).trans ?_
  rw [Real.exp_neg, ← one_div]
  refine one_div_le_one_div_of_le (by norm_num) ?_
  have h1 : Real.exp 1.99 = Real.exp (1.99 / 4) ^ 4 := by rw [← Real.exp_nat_mul]; norm_num
  have h2 := Real.quadratic_le_exp_of_nonneg (x := 1.99 / 4) (by norm_num)
  rw [h1]
  refine le_trans ?_ (pow_le_pow_left₀ (by norm_num) h2 4)
  norm_num

end Falcon
