import Verif.F64Spec
import Verif.Proofs.SignCongr
import Verif.Proofs.SignProg

/-!
# C117: signing as a straight-line program
-/

namespace Falcon

/-- The content of the arrays for matrix and tree before the call does not matter. -/
theorem falconSign_arrays {R C : Type} (A : Arith R C) {n : ℕ} (hn : 1 ≤ n) (xof : Xof) (mt : UInt32 → Mem UInt8)
    (leaf : (ℕ → UInt8) → LeafSampler R) (fuel hfuel : ℕ) (junk : FgF) (junkG : Mem Int) (B T B' T' : Mem C) (rd : UInt32)
    (skey : Mem UInt8) (msg : List UInt8) (sig : Mem UInt8) :
    falconSign A xof mt leaf fuel hfuel n junk junkG B T rd skey msg sig =
      falconSign A xof mt leaf fuel hfuel n junk junkG B' T' rd skey msg sig := by
  unfold falconSign
  simp only
  split
  · rfl
  · rename_i k _
    refine bindO_congr fun G _ => ?_
    have hB := computeMatrixB_congr A n (f := k.f) (g := k.g) (F := k.F) (G := G) B B' (fun i _ => ⟨rfl, rfl, rfl, rfl⟩)
    obtain ⟨t, h1, h2⟩ := computeFalconTree_rep A n hn T T' hB
    rw [signPoly_congr A xof _ fuel hfuel n hB h1 h2]

/-- C117: for each degree there is one program, with two questions to the integer sampler for each of the N coefficients, that does
what one-shot signing does: for every arithmetic, every secret key, message and random word, every sampler and every XOF. -/
theorem C117_program {n : ℕ} (hn : 1 ≤ n) : ∃ P : SignProg, P.questions.length = 2 * 2 ^ n ∧
    ∀ {R C : Type} (A : Arith R C) (xof : Xof) (mt : UInt32 → Mem UInt8) (leaf : (ℕ → UInt8) → LeafSampler R) (fuel hfuel : ℕ)
      (junk : FgF) (junkG : Mem Int) (junkB junkT : Mem C) (rd : UInt32) (skey : Mem UInt8) (msg : List UInt8) (sig : Mem UInt8),
      falconSign A xof mt leaf fuel hfuel n junk junkG junkB junkT rd skey msg sig =
        P.sign A xof mt leaf fuel hfuel n junk junkG rd skey msg sig := by
  refine ⟨signProg n, symSampling_length _ _ _ _ _ _ _ _, fun A xof mt leaf fuel hfuel junk junkG B T rd skey msg sig => ?_⟩
  rw [falconSign_arrays A hn xof mt leaf fuel hfuel junk junkG B T (junkC A) (junkC A)]
  simp only [falconSign, SignProg.sign]
  rcases hk : decodeSkey n skey junk with ⟨ok, k⟩
  cases ok
  · rfl
  · simp only [Bool.true_eq_false, if_false]
    have hG := symG_eval A (Input.of k.f k.g k.F (fun _ => 0) (fun _ => Ff.zero)) n junkG
    rw [show recomputeG A n k.f k.g k.F junkG = _ from hG]
    refine bindO_congr fun G _ => ?_
    simp only [signPoly, Nat.zero_add]
    cases hashToPoint hfuel n (xof (bytes 40 (prngRead (prngNew xof mt rd) 0 40 fun _ => 0) ++ msg)) (fun _ => Ff.zero) with
    | none => rfl
    | some c =>
      simp only [bindO_bindO]
      rw [rounds_eq n (leaf (prngNew xof mt rd)) k.f k.g k.F G c fuel sig 40]
      rfl

/-- The answers of the sampler in a round that ends: one for each question, each returned for the centre and deviation
that the inputs and the answers before it give. -/
theorem C117_calls {R C S : Type} (A : Arith R C) {leaf : LeafSampler R S} (l : List (RTerm × RTerm)) : ∀ {j : ℕ} {ρ : Input → ℤ} {s : S}
    {r : (Input → ℤ) × S}, ask A leaf l j ρ s = some (.ok r) →
    ∃ st : ℕ → S, st 0 = s ∧ st l.length = r.2 ∧ ∀ (i : ℕ) (hi : i < l.length), ∃ ρ' : Input → ℤ,
      (∀ v, (∀ k, v = .z k → k < j + i) → ρ' v = r.1 v) ∧
      leaf (l[i].1.eval A ρ') (l[i].2.eval A ρ') (st i) = some (.ok (r.1 (.z (j + i)), st (i + 1))) := by
  induction l with
  | nil =>
    intro j ρ s r h
    simp only [ask, Option.some.injEq, Except.ok.injEq] at h
    subst h
    exact ⟨fun _ => s, rfl, rfl, fun i hi => absurd hi (Nat.not_lt_zero i)⟩
  | cons q l ih =>
    intro j ρ s r h
    simp only [ask] at h
    obtain ⟨a, ha, h2⟩ := bindO_ok h
    obtain ⟨st, e0, e1, e2⟩ := ih h2
    refine ⟨fun i => match i with | 0 => s | i + 1 => st i, rfl, e1, fun i hi => ?_⟩
    match i, hi with
    | 0, _ =>
      refine ⟨ρ, ask_agree (leaf := leaf) (j := j) (q :: l) h, ?_⟩
      have hz : r.1 (.z j) = a.1 := by
        rw [← ask_agree _ h2 (.z j) (by intro i e; cases e; exact Nat.lt_succ_self j)]
        simp only [Input.answer, if_true]
      simp only [List.getElem_cons_zero, Nat.add_zero]
      rw [ha, hz, e0]
    | i + 1, hi =>
      obtain ⟨ρ', h3, h4⟩ := e2 i (Nat.lt_of_succ_lt_succ hi)
      rw [show j + (i + 1) = j + 1 + i by omega]
      exact ⟨ρ', h3, h4⟩

/-- The hypothesis of C117 is met by both parameter sets: 1024 and 2048 questions in each round, for every key. -/
example : (∃ P : SignProg, P.questions.length = 1024 ∧ ∀ (xof : Xof) (mt : UInt32 → Mem UInt8) (leaf : (ℕ → UInt8) → LeafSampler F64)
      (fuel hfuel : ℕ) (junk : FgF) (junkG : Mem Int) (junkB junkT : Mem (F64 × F64)) (rd : UInt32) (skey : Mem UInt8) (msg : List UInt8)
      (sig : Mem UInt8), falconSign (f64A true F64.keepNan F64.keepNan) xof mt leaf fuel hfuel 9 junk junkG junkB junkT rd skey msg sig =
        P.sign (f64A true F64.keepNan F64.keepNan) xof mt leaf fuel hfuel 9 junk junkG rd skey msg sig) ∧
    ∃ P : SignProg, P.questions.length = 2048 := by
  obtain ⟨P, h1, h2⟩ := C117_program (n := 9) (by norm_num)
  obtain ⟨P', h1', _⟩ := C117_program (n := 10) (by norm_num)
  exact ⟨⟨P, h1, fun xof mt leaf fuel hfuel junk junkG junkB junkT rd skey msg sig => h2 _ xof mt leaf fuel hfuel junk junkG junkB junkT rd skey
    msg sig⟩, P', h1'⟩

end Falcon
