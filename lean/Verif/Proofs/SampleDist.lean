import Verif.Proofs.OracleTree
import Verif.Proofs.TreeFloat

/-! # Fast Fourier sampling with the integer sampler of the code and with ideal answers -/

namespace Falcon

open OTree

theorem rep_leaves_unique {C : Type} : ∀ (k level : ℕ) (T : Mem C) (t t' : FTree C), TRep k level T t → TRep k level T t' →
    t.leaves = t'.leaves := by
  intro k
  induction k with
  | zero =>
    intro level T t t' h h'
    match t, t', h, h' with
    | .leaf v, .leaf v', h, h' =>
      have e : v = v' := h.symm.trans h'
      rw [e]
  | succ k ih =>
    intro level T t t' h h'
    match t, t', h, h' with
    | .node l L R, .node l' L' R', h, h' =>
      simp only [FTree.leaves]
      rw [ih _ _ L L' h.2.1 h'.2.1, ih _ _ R R' h.2.2 h'.2.2]

/-- Ideal sampling, in terms of the program. -/
theorem idealPr_tape {C : Type} (A : Arith ℝ C) {n : ℕ} {t0 t1 T z0 z1 : Mem C} {P : OTree (Mem C × Mem C)}
    (hP : ∀ (S : Type) (leaf : LeafSampler ℝ S) (s : S), ffSampling A leaf n 0 t0 t1 T z0 z1 s =
      bindO (interp leaf P s) fun r => some (.ok (r.1.1, r.1.2, r.2))) (v : ℕ → ℤ) :
    ffSampling A (logged (tapeLeaf v)) n 0 t0 t1 T z0 z1 (0, []) =
      some (.ok ((walk P v 0).1.1, (walk P v 0).1.2, (walk P v 0).2.length, (walk P v 0).2)) := by
  rw [hP, interp_walk, bindO_pure]
  simp

open Classical in
theorem idealPr_eq {C : Type} (A : Arith ℝ C) {n : ℕ} {t0 t1 T z0 z1 : Mem C} {P : OTree (Mem C × Mem C)}
    (hd : Depth P (2 ^ (n + 1))) (hS : AllS (fun s => 0 < s) P)
    (hP : ∀ (S : Type) (leaf : LeafSampler ℝ S) (s : S), ffSampling A leaf n 0 t0 t1 T z0 z1 s =
      bindO (interp leaf P s) fun r => some (.ok (r.1.1, r.1.2, r.2))) (E : Mem C → Mem C → Prop) :
    idealPr A n t0 t1 T z0 z1 E = gmean P fun a => if E a.1 a.2 then 1 else 0 := by
  have h := gmean_tape hd hS (g := fun a => if E a.1 a.2 then 1 else 0) (fun a => by split <;> norm_num)
    (fun a => by split <;> norm_num)
  rw [← h.tsum_eq]
  unfold idealPr
  refine tsum_congr fun v => ?_
  rw [idealPr_tape A hP]
  simp only [mul_ite, mul_one, mul_zero]

/-- One round of sampling, for every program in range. -/
theorem sample_dist {A : Arith ℝ ℂ} {n : ℕ} (hn : ValidLog n) {t0 t1 T z0 z1 : Mem ℂ} {t : FTree ℂ} (ht : TreeAt n T 0 0 t)
    (hl : ∀ v ∈ t.leaves, sigmaMin n ≤ A.re v ∧ A.re v ≤ 182 / 100)
    (hdef : ∀ (S : Type) (leaf : LeafSampler ℝ S), GoodLeaf leaf → ∀ s e, ffSampling A leaf n 0 t0 t1 T z0 z1 s ≠ some (.error e))
    (m : ℕ) (E : Mem ℂ → Mem ℂ → Prop) :
    |freq (18 * m * 2 ^ (n + 1)) (fun s => ∃ r, ffSampling A (codeLeaf false n m s) n 0 t0 t1 T z0 z1 0 = some (.ok r) ∧ E r.1 r.2.1)
      - idealPr A n t0 t1 T z0 z1 E| ≤ 2 ^ (n + 1) * (1 / 2 ^ 38 + 1 / 2 ^ m) := by
  classical
  obtain ⟨P, hd, hS, hP⟩ := ffSampling_otree A n 0 t0 t1 T z0 z1 t ((treeAt_root _ _ _).mp ht)
  have hmin := (keyOk_bounds hn).1
  have hS' : AllS (fun s => sigmaMin n ≤ s ∧ s ≤ 182 / 100) P := hS.mono fun s ⟨v, hv, e⟩ => e ▸ hl v hv
  have hM : NearM (fun mu => |mu| ≤ 2 ^ 31 - 100) P := near_of_good fun S leaf hg s e he => hdef S leaf hg s e (by rw [hP, he]; rfl)
  rw [idealPr_eq A hd (hS'.mono fun s h => by linarith [h.1]) hP]
  have e := BTree.freq_eq (depth_ctree false (sigmaMin n) m hd) fun x => ∃ a : Mem ℂ × Mem ℂ, x = some (.ok a) ∧ E a.1 a.2
  have e2 : (fun s => ∃ r, ffSampling A (codeLeaf false n m s) n 0 t0 t1 T z0 z1 0 = some (.ok r) ∧ E r.1 r.2.1)
      = fun s => ∃ a : Mem ℂ × Mem ℂ, ((ctree false (sigmaMin n) m P).run s 0).1 = some (.ok a) ∧ E a.1 a.2 := by
    funext s
    rw [hP, interp_ctree]
    generalize BTree.run (ctree false (sigmaMin n) m P) s 0 = x
    obtain ⟨x, q⟩ := x
    apply propext
    match x with
    | none => simp [bindO]
    | some (.error u) => simp [bindO, Except.map]
    | some (.ok a) =>
      constructor
      · rintro ⟨r, hr, h⟩
        have hr : (a.1, a.2, q) = r := Except.ok.inj (Option.some.inj hr)
        subst hr
        exact ⟨a, rfl, h⟩
      · rintro ⟨a', ha, h⟩
        have ha : a = a' := Except.ok.inj (Option.some.inj ha)
        subst ha
        exact ⟨(a.1, a.2, q), rfl, h⟩
  rw [e2, e]
  have h := ctree_mean hn m hd hS' hM (g := fun a => if E a.1 a.2 then 1 else 0) (fun a => by split <;> norm_num)
    (fun a => by split <;> norm_num) (G := fun x => if ∃ a : Mem ℂ × Mem ℂ, x = some (.ok a) ∧ E a.1 a.2 then 1 else 0)
    (fun a => by
      have : (∃ a' : Mem ℂ × Mem ℂ, (some (Except.ok a) : Option (Except UB (Mem ℂ × Mem ℂ))) = some (.ok a') ∧ E a'.1 a'.2) ↔ E a.1 a.2 := by
        constructor
        · rintro ⟨a', ha, h⟩
          rwa [Except.ok.inj (Option.some.inj ha)]
        · exact fun h => ⟨a, rfl, h⟩
      simp only [this]) (fun a => by split <;> norm_num) (fun a => by split <;> norm_num)
  push_cast at h
  exact h

/-- The ideal probabilities sum to one. -/
theorem idealPr_total {C : Type} (A : Arith ℝ C) {n : ℕ} {t0 t1 T z0 z1 : Mem C} {t : FTree C} (ht : TreeAt n T 0 0 t)
    (hl : ∀ v ∈ t.leaves, 0 < A.re v) : idealPr A n t0 t1 T z0 z1 (fun _ _ => True) = 1 := by
  obtain ⟨P, hd, hS, hP⟩ := ffSampling_otree A n 0 t0 t1 T z0 z1 t ((treeAt_root _ _ _).mp ht)
  have hS' : AllS (fun s => 0 < s) P := hS.mono fun s ⟨v, hv, e⟩ => e ▸ hl v hv
  rw [idealPr_eq A hd hS' hP]
  clear hd hS hP
  simp only [if_true]
  induction hS' with
  | ret a => rfl
  | call mu sigma k hs _ ih =>
    simp only [gmean, ih, gaussMean, mul_one]
    exact div_self (gauss_total_pos mu hs).ne'

end Falcon
