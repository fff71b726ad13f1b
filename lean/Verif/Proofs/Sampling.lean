import Verif.Proofs.Tree

/-!
# `ff_sampling` on the flat tree refines `sampleTree`
-/

namespace Falcon

theorem bindO_pure {α β : Type} (a : α) (f : α → Option (Except UB β)) : bindO (some (.ok a)) f = f a := rfl

theorem SampRel.bind {C S : Type} {k k' : ℕ} {z0 z1 z0' z1' : Mem C}
    {x y : Option (Except UB (Mem C × Mem C × S))}
    {f g : Mem C × Mem C × S → Option (Except UB (Mem C × Mem C × S))} (h : SampRel k z0 z1 x y)
    (hfg : ∀ r s, x = some (.ok r) → y = some (.ok s) → r.2.2 = s.2.2 →
      (∀ i, i < 2 ^ k → r.1 i = s.1 i ∧ r.2.1 i = s.2.1 i) →
      (∀ i, 2 ^ k ≤ i → r.1 i = z0 i ∧ r.2.1 i = z1 i) → SampRel k' z0' z1' (f r) (g s)) :
    SampRel k' z0' z1' (bindO x f) (bindO y g) := by
  match x, y, h with
  | none, none, _ => exact trivial
  | some (.error e), some (.error e'), h => exact h
  | some (.ok r), some (.ok s), h => exact hfg r s rfl rfl h.1 h.2.1 h.2.2

section
variable {R C : Type} (A : Arith R C)

theorem ffSampling_rel {S : Type} (leaf : LeafSampler R S) : ∀ (k level : ℕ) (t0 t1 T z0 z1 s0 s1 : Mem C) (pos : S)
    (t : FTree C), TRep k level T t → (∀ i, i < 2 ^ k → t0 i = s0 i) → (∀ i, i < 2 ^ k → t1 i = s1 i) →
    SampRel k z0 z1 (ffSampling A leaf k level t0 t1 T z0 z1 pos) (sampleTree A leaf k t s0 s1 pos) := by
  intro k
  induction k with
  | zero =>
    intro level t0 t1 T z0 z1 s0 s1 pos t hr h0 h1
    cases t with
    | node _ _ _ => exact hr.elim
    | leaf v =>
      simp only [TRep] at hr
      unfold ffSampling sampleTree
      simp only
      rw [hr, h0 0 (by norm_num), h1 0 (by norm_num)]
      cases leaf (A.re (s0 0)) (A.re v) pos with
      | none => exact trivial
      | some x =>
        cases x with
        | error e => exact rfl
        | ok a =>
          rw [bindO_pure, bindO_pure]
          cases leaf (A.re (s1 0)) (A.re v) a.2 with
          | none => exact trivial
          | some x =>
            cases x with
            | error e => exact rfl
            | ok b =>
              rw [bindO_pure, bindO_pure]
              refine ⟨rfl, ?_, ?_⟩
              · intro i hi
                have : i = 0 := by simpa using hi
                subst this
                dsimp only
                exact ⟨upd_same _ _ _, upd_same _ _ _⟩
              · intro i hi
                have hi : i ≠ 0 := by have : 1 ≤ i := by simpa using hi
                                      omega
                dsimp only
                exact ⟨upd_ne _ _ _ _ hi, upd_ne _ _ _ _ hi⟩
  | succ k ih =>
    intro level t0 t1 T z0 z1 s0 s1 pos t hr h0 h1
    cases t with
    | leaf v => exact hr.elim
    | node l L Rt =>
      have hp : 2 ^ (k + 1) = 2 * 2 ^ k := by rw [pow_succ]; ring
      simp only [TRep] at hr
      unfold ffSampling sampleTree
      simp only [Nat.add_sub_cancel]
      rw [N_half, one_shiftLeft', one_shiftLeft']
      refine SampRel.bind (ih (level + 1) _ _ _ _ _ _ _ pos Rt hr.2.2
        (fun i hi => (splitS_eq A k t1 _ _ s1 h1 i hi).1) (fun i hi => (splitS_eq A k t1 _ _ s1 h1 i hi).2)) ?_
      intro zr ys _ _ hpos hz hzf
      have hz0 : ∀ i, i < 2 ^ k → ptr (putPtr z0 (2 ^ k) zr.1) (2 ^ k) i = ys.1 i := by
        intro i hi
        unfold ptr putPtr
        rw [if_neg (by omega), show 2 ^ k + i - 2 ^ k = i by omega, (hz i hi).1]
      have hz1 : ∀ i, i < 2 ^ k → ptr (putPtr z1 (2 ^ k) zr.2.1) (2 ^ k) i = ys.2.1 i := by
        intro i hi
        unfold ptr putPtr
        rw [if_neg (by omega), show 2 ^ k + i - 2 ^ k = i by omega, (hz i hi).2]
      have hm : ∀ i, i < 2 ^ (k + 1) → mergeFft A (k + 1) (ptr (putPtr z0 (2 ^ k) zr.1) (2 ^ k))
          (ptr (putPtr z1 (2 ^ k) zr.2.1) (2 ^ k)) (junkC A) i = mergeS A k ys.1 ys.2.1 i :=
        fun i hi => mergeS_eq A k _ _ _ _ _ hz0 hz1 i hi
      rw [hpos]
      generalize mergeFft A (k + 1) (ptr (putPtr z0 (2 ^ k) zr.1) (2 ^ k))
          (ptr (putPtr z1 (2 ^ k) zr.2.1) (2 ^ k)) (junkC A) = m1 at hm ⊢
      have ht : ∀ i, i < 2 ^ (k + 1) → polyAddC A (k + 1) t0 (polyMulC A (k + 1)
          (polySubC A (k + 1) t1 m1 (junkC A)) T (junkC A)) (polySubC A (k + 1) t1 m1 (junkC A)) i
          = A.cadd (s0 i) (A.cmul (A.csub (s1 i) (mergeS A k ys.1 ys.2.1 i)) (l i)) := by
        intro i hi
        rw [polyAddC_at, if_pos hi, polyMulC_at, if_pos hi, polySubC_at, if_pos hi, h0 i hi, h1 i hi, hm i hi,
          hr.1 i hi]
      refine SampRel.bind (ih (level + 1) _ _ _ _ _ _ _ ys.2.2 L hr.2.1
        (fun i hi => (splitS_eq A k _ _ _ _ ht i hi).1) (fun i hi => (splitS_eq A k _ _ _ _ ht i hi).2)) ?_
      intro zl xs _ _ hpos2 hy hyf
      refine ⟨hpos2, ?_, ?_⟩
      · intro i hi
        dsimp only
        rw [memcpy_at, memcpy_at, if_pos hi, if_pos hi, hm i hi,
          mergeS_eq A k _ _ _ xs.1 xs.2.1 (fun i hi => (hy i hi).1) (fun i hi => (hy i hi).2) i hi]
        exact ⟨rfl, rfl⟩
      · intro i hi
        dsimp only
        rw [memcpy_at, memcpy_at, if_neg (by omega), if_neg (by omega), (hyf i (by omega)).1,
          (hyf i (by omega)).2]
        unfold putPtr
        rw [if_neg (by omega), if_neg (by omega)]
        have h3 := hzf (i - 2 ^ k) (by omega)
        unfold ptr at h3
        rw [h3.1, h3.2, show 2 ^ k + (i - 2 ^ k) = i by omega]
        exact ⟨rfl, rfl⟩

end

end Falcon
