import Verif.Proofs.FloatRev
import Verif.Proofs.SignRun
import Verif.Proofs.Spherical

/-!
# The integers drawn by the sampler are the coefficients of the outputs
-/

namespace Falcon

open Finset

theorem drawn_ilv {k : ℕ} {lr ll : List Call} (h1 : lr.length = 2 ^ (k + 1)) (h2 : ll.length = 2 ^ (k + 1)) :
    drawn0 (k + 1) (lr ++ ll) = ilv (drawn0 k ll) (drawn1 k ll) ∧
    drawn1 (k + 1) (lr ++ ll) = ilv (drawn0 k lr) (drawn1 k lr) := by
  constructor
  · funext i
    have hb := callIdx_bound k (i / 2)
    unfold drawn0 drawn1 ilv
    rw [callIdx0, List.map_append]
    split
    · rw [List.getD_append_right _ _ _ _ (by rw [List.length_map]; omega), List.length_map, h1, Nat.add_sub_cancel_left]
    · rw [List.getD_append_right _ _ _ _ (by rw [List.length_map]; omega), List.length_map, h1, Nat.add_sub_cancel_left]
  · funext i
    have hb := callIdx_bound k (i / 2)
    unfold drawn0 drawn1 ilv
    rw [callIdx1, List.map_append]
    split
    · rw [List.getD_append _ _ _ _ (by rw [List.length_map]; omega)]
    · rw [List.getD_append _ _ _ _ (by rw [List.length_map]; omega)]

/-- A relation between arrays and integer polynomials that holds for constants and is kept by merging holds for
the outputs and the integers drawn. -/
theorem draws_rel {S : Type} (A : Arith ℝ ℂ) (Q : ℕ → Mem ℂ → Mem Int → Prop)
    (hb : ∀ z : ℤ, Q 0 (fun _ => A.ofInt z) (fun _ => z))
    (hm : ∀ (k : ℕ) (e0 e1 : Mem ℂ) (c0 c1 : Mem Int), k + 1 ≤ 10 → Q k e0 c0 → Q k e1 c1 →
      Q (k + 1) (mergeS A k e0 e1) (ilv c0 c1))
    (leaf : LeafSampler ℝ S) : ∀ (k level : ℕ) (T : Mem ℂ) (t : FTree ℂ) (t0 t1 : Mem ℂ)
    (s : S) (z : Mem ℂ × Mem ℂ × S), k ≤ 10 → TRep k level T t →
    sampleTree A leaf k t t0 t1 s = some (.ok z) → ∃ l : List Call, Calls leaf s l z.2.2 ∧ l.length = 2 ^ (k + 1) ∧
      Q k z.1 (drawn0 k l) ∧ Q k z.2.1 (drawn1 k l) := by
  intro k
  induction k with
  | zero =>
    intro level T t t0 t1 s z _ hr h
    cases t with
    | node _ _ _ => exact hr.elim
    | leaf v =>
      unfold sampleTree at h
      obtain ⟨a, h1, h⟩ := bindO_ok h
      obtain ⟨b, h2, h⟩ := bindO_ok h
      have h := Except.ok.inj (Option.some.inj h)
      subst h
      refine ⟨[⟨A.re (t0 0), A.re v, a.1⟩, ⟨A.re (t1 0), A.re v, b.1⟩], .cons h1 (.cons h2 (.nil _)), rfl, ?_, ?_⟩
      · have : drawn0 0 [⟨A.re (t0 0), A.re v, a.1⟩, ⟨A.re (t1 0), A.re v, b.1⟩] = fun _ => a.1 := by
          funext i; unfold drawn0; rw [callIdx0]; rfl
        rw [this]; exact hb _
      · have : drawn1 0 [⟨A.re (t0 0), A.re v, a.1⟩, ⟨A.re (t1 0), A.re v, b.1⟩] = fun _ => b.1 := by
          funext i; unfold drawn1; rw [callIdx1]; rfl
        rw [this]; exact hb _
  | succ k ih =>
    intro level T t t0 t1 s z hk hr h
    cases t with
    | leaf v => exact hr.elim
    | node l L R =>
      unfold sampleTree at h
      simp only [Nat.add_sub_cancel] at h
      obtain ⟨zr, h1, h⟩ := bindO_ok h
      obtain ⟨zl, h2, h⟩ := bindO_ok h
      have h := Except.ok.inj (Option.some.inj h)
      subst h
      obtain ⟨lr, c1, n1, e0, e1⟩ := ih _ _ _ _ _ _ _ (by omega) hr.2.2 h1
      obtain ⟨ll, c2, n2, d0, d1⟩ := ih _ _ _ _ _ _ _ (by omega) hr.2.1 h2
      obtain ⟨i0, i1⟩ := drawn_ilv n1 n2
      refine ⟨lr ++ ll, c1.append c2, ?_, ?_, ?_⟩
      · rw [List.length_append, n1, n2]; ring
      · rw [i0]; exact hm _ _ _ _ _ hk d0 d1
      · rw [i1]; exact hm _ _ _ _ _ hk e0 e1

/-- The same for the code. -/
theorem ffSampling_draws {S : Type} (A : Arith ℝ ℂ) (Q : ℕ → Mem ℂ → Mem Int → Prop)
    (hb : ∀ z : ℤ, Q 0 (fun _ => A.ofInt z) (fun _ => z))
    (hm : ∀ (k : ℕ) (e0 e1 : Mem ℂ) (c0 c1 : Mem Int), k + 1 ≤ 10 → Q k e0 c0 → Q k e1 c1 →
      Q (k + 1) (mergeS A k e0 e1) (ilv c0 c1))
    (hc : ∀ k e e' c, (∀ i, i < 2 ^ k → e i = e' i) → Q k e' c → Q k e c)
    (leaf : LeafSampler ℝ S) (k : ℕ) (hk : k ≤ 10) (t0 t1 T z0 z1 : Mem ℂ) (s : S) (r : Mem ℂ × Mem ℂ × S)
    (h : ffSampling A leaf k 0 t0 t1 T z0 z1 s = some (.ok r)) : ∃ l : List Call,
      ffSampling A (logged leaf) k 0 t0 t1 T z0 z1 (s, []) = some (.ok (r.1, r.2.1, r.2.2, l)) ∧
      Calls leaf s l r.2.2 ∧ l.length = 2 ^ (k + 1) ∧ Q k r.1 (drawn0 k l) ∧ Q k r.2.1 (drawn1 k l) := by
  obtain ⟨l', hl'⟩ := logged_ok (r := r) ((ffSampling_logged A leaf k 0 t0 t1 T z0 z1 s []).trans h)
  have hrel := ffSampling_rel A (logged leaf) k 0 t0 t1 T z0 z1 t0 t1 (s, []) _ (treeOf_rep k 0 T) (fun _ _ => rfl)
    (fun _ _ => rfl)
  rw [hl'] at hrel
  cases hs : sampleTree A (logged leaf) k (treeOf k 0 T) t0 t1 (s, []) with
  | none => rw [hs] at hrel; exact hrel.elim
  | some e =>
    cases e with
    | error e => rw [hs] at hrel; exact hrel.elim
    | ok w =>
      rw [hs] at hrel
      obtain ⟨l, c1, c2, q0, q1⟩ := draws_rel A Q hb hm (logged leaf) k 0 T _ t0 t1 (s, []) w hk (treeOf_rep k 0 T) hs
      obtain ⟨e1, e2⟩ := c1.log
      rw [← hrel.1] at e1 e2
      have e1 : l' = l := by simpa using e1
      subst e1
      exact ⟨l', hl', e2, c2, hc _ _ _ _ (fun i hi => (hrel.2.1 i hi).1) q0, hc _ _ _ _ (fun i hi => (hrel.2.1 i hi).2) q1⟩

end Falcon
