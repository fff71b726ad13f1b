import Verif.SamplingSpec
import Verif.Proofs.SamplerFinal
import Verif.Proofs.SignBound
import Verif.Proofs.Spherical

/-! # Programs calling an integer sampler, as decision trees over its answers -/

namespace Falcon

/-- A program that calls an integer sampler with a centre and a standard deviation and goes on with its answer. -/
inductive OTree (α : Type) where
  | ret (a : α) : OTree α
  | call (mu sigma : ℝ) (k : ℤ → OTree α) : OTree α

namespace OTree

variable {α β : Type}

/-- Sequence. -/
def bind : OTree α → (α → OTree β) → OTree β
  | ret a, f => f a
  | call mu sigma k, f => call mu sigma fun z => bind (k z) f

/-- Execution with a sampler. -/
def interp {S : Type} (leaf : LeafSampler ℝ S) : OTree α → S → Option (Except UB (α × S))
  | ret a, s => some (.ok (a, s))
  | call mu sigma k, s => bindO (leaf mu sigma s) fun r => interp leaf (k r.1) r.2

/-- Exactly `d` calls. -/
inductive Depth : OTree α → ℕ → Prop
  | ret (a : α) : Depth (ret a) 0
  | call (mu sigma : ℝ) (k : ℤ → OTree α) (d : ℕ) (h : ∀ z, Depth (k z) d) : Depth (call mu sigma k) (d + 1)

/-- The standard deviation of every call has the property `Q`. -/
inductive AllS (Q : ℝ → Prop) : OTree α → Prop
  | ret (a : α) : AllS Q (ret a)
  | call (mu sigma : ℝ) (k : ℤ → OTree α) (h : Q sigma) (hk : ∀ z, AllS Q (k z)) : AllS Q (call mu sigma k)

/-- The centre of every call has the property `Q`, as long as the answers are at most 19 away from the centre. -/
inductive NearM (Q : ℝ → Prop) : OTree α → Prop
  | ret (a : α) : NearM Q (ret a)
  | call (mu sigma : ℝ) (k : ℤ → OTree α) (h : Q mu) (hk : ∀ z : ℤ, |mu - z| ≤ 19 → NearM Q (k z)) :
    NearM Q (call mu sigma k)

theorem bindO_assoc {α β γ : Type} (x : Option (Except UB α)) (f : α → Option (Except UB β)) (g : β → Option (Except UB γ)) :
    bindO (bindO x f) g = bindO x fun a => bindO (f a) g := by
  match x with
  | none => rfl
  | some (.error e) => rfl
  | some (.ok a) => rfl

theorem interp_bind {S : Type} (leaf : LeafSampler ℝ S) (P : OTree α) (f : α → OTree β) (s : S) :
    interp leaf (bind P f) s = bindO (interp leaf P s) fun r => interp leaf (f r.1) r.2 := by
  induction P generalizing s with
  | ret a => rfl
  | call mu sigma k ih =>
    simp only [bind, interp, bindO_assoc]
    congr 1
    funext r
    exact ih _ _

theorem Depth.bind {P : OTree α} {f : α → OTree β} {d e : ℕ} (h : Depth P d) (hf : ∀ a, Depth (f a) e) :
    Depth (bind P f) (d + e) := by
  induction h with
  | ret a => rw [Nat.zero_add]; exact hf a
  | call mu sigma k d _ ih =>
    rw [show d + 1 + e = d + e + 1 by omega]
    exact .call _ _ _ _ ih

theorem AllS.bind {Q : ℝ → Prop} {P : OTree α} {f : α → OTree β} (h : AllS Q P) (hf : ∀ a, AllS Q (f a)) :
    AllS Q (bind P f) := by
  induction h with
  | ret a => exact hf a
  | call mu sigma k h _ ih => exact .call _ _ _ h ih

theorem AllS.mono {Q Q' : ℝ → Prop} (hq : ∀ s, Q s → Q' s) {P : OTree α} (h : AllS Q P) : AllS Q' P := by
  induction h with
  | ret a => exact .ret a
  | call mu sigma k h _ ih => exact .call _ _ _ (hq _ h) ih

/-! ## Fast Fourier sampling is such a program -/

/-- `ff_sampling` makes 2^(k+1) calls with leaves of the tree as standard deviations, for every sampler. -/
theorem ffSampling_otree {C : Type} (A : Arith ℝ C) : ∀ (k level : ℕ) (t0 t1 T z0 z1 : Mem C) (t : FTree C),
    TRep k level T t → ∃ P : OTree (Mem C × Mem C), Depth P (2 ^ (k + 1)) ∧ AllS (fun s => ∃ v ∈ t.leaves, s = A.re v) P ∧
      ∀ (S : Type) (leaf : LeafSampler ℝ S) (s : S), ffSampling A leaf k level t0 t1 T z0 z1 s =
        bindO (interp leaf P s) fun r => some (.ok (r.1.1, r.1.2, r.2)) := by
  intro k
  induction k with
  | zero =>
    intro level t0 t1 T z0 z1 t hr
    cases t with
    | node _ _ _ => exact hr.elim
    | leaf v =>
      have hv : T 0 = v := hr
      refine ⟨.call (A.re (t0 0)) (A.re (T 0)) fun a => .call (A.re (t1 0)) (A.re (T 0)) fun b =>
        .ret (upd z0 0 (A.ofInt a), upd z1 0 (A.ofInt b)), ?_, ?_, ?_⟩
      · exact .call _ _ _ 1 fun _ => .call _ _ _ 0 fun _ => .ret _
      · have h : ∃ w ∈ (FTree.leaf v).leaves, A.re (T 0) = A.re w := ⟨v, by simp [FTree.leaves], by rw [hv]⟩
        exact .call _ _ _ h fun _ => .call _ _ _ h fun _ => .ret _
      · intro S leaf s
        simp only [ffSampling, interp, bindO_assoc]
        rfl
  | succ k ih =>
    intro level t0 t1 T z0 z1 t hr
    cases t with
    | leaf _ => exact hr.elim
    | node l L R =>
      obtain ⟨-, hL, hR⟩ := hr
      have e1 : (1 <<< (k + 1) : ℕ) = 2 ^ (k + 1) := by rw [Nat.one_shiftLeft]
      have e2 : (1 <<< level : ℕ) = 2 ^ level := by rw [Nat.one_shiftLeft]
      have e3 : (2 ^ (k + 1)) / 2 = 2 ^ k := by rw [pow_succ]; omega
      obtain ⟨PR, dR, aR, iR⟩ := ih (level + 1) (splitFft A (k + 1) t1 (junkC A) (junkC A)).1
        (splitFft A (k + 1) t1 (junkC A) (junkC A)).2 (ptr T (2 ^ level * 2 ^ (k + 1) + 2 ^ k)) (ptr z0 (2 ^ k)) (ptr z1 (2 ^ k)) R hR
      have key := fun (u0 u1 w0 w1 : Mem C) => ih (level + 1) u0 u1 (ptr T (2 ^ level * 2 ^ (k + 1))) w0 w1 L hL
      choose PL dL aL iL using key
      refine ⟨bind PR fun zr =>
        let z0 := putPtr z0 (2 ^ k) zr.1
        let z1 := putPtr z1 (2 ^ k) zr.2
        let merged_z1 := mergeFft A (k + 1) (ptr z0 (2 ^ k)) (ptr z1 (2 ^ k)) (junkC A)
        let tmp0 := polySubC A (k + 1) t1 merged_z1 (junkC A)
        let tmp1 := polyMulC A (k + 1) tmp0 T (junkC A)
        let tmp0 := polyAddC A (k + 1) t0 tmp1 tmp0
        let t0s := splitFft A (k + 1) tmp0 (junkC A) (junkC A)
        bind (PL t0s.1 t0s.2 z0 z1) fun zl =>
          .ret (memcpy (2 ^ (k + 1)) (mergeFft A (k + 1) zl.1 zl.2 (junkC A)) zl.1, memcpy (2 ^ (k + 1)) merged_z1 zl.2), ?_, ?_, ?_⟩
      · rw [show 2 ^ (k + 1 + 1) = 2 ^ (k + 1) + (2 ^ (k + 1) + 0) by ring]
        exact dR.bind fun _ => (dL _ _ _ _).bind fun _ => .ret _
      · refine (aR.mono ?_).bind fun _ => ((aL _ _ _ _).mono ?_).bind fun _ => .ret _
        · rintro s ⟨v, hv, e⟩
          exact ⟨v, by simp [FTree.leaves, hv], e⟩
        · rintro s ⟨v, hv, e⟩
          exact ⟨v, by simp [FTree.leaves, hv], e⟩
      · intro S leaf s
        simp only [ffSampling, e1, e2, e3, iR, iL, bindO_assoc, interp_bind, interp]
        congr 1

/-- If a program is defined for every sampler that is defined in the range, its calls are in the range. -/
theorem near_of_good {P : OTree α}
    (h : ∀ (S : Type) (leaf : LeafSampler ℝ S), GoodLeaf leaf → ∀ s e, interp leaf P s ≠ some (.error e)) :
    NearM (fun mu => |mu| ≤ 2 ^ 31 - 100) P := by
  classical
  -- answers from a list; out of range arguments are an error, answers out of range do not return
  let leaf : LeafSampler ℝ (List ℤ) := fun mu s l =>
    if |mu| ≤ 2 ^ 31 - 100 then
      (match l with
      | [] => none
      | z :: l => if |mu - z| ≤ 19 then some (.ok (z, l)) else none)
    else some (.error .floatConv)
  have hg : GoodLeaf leaf := by
    intro mu s l hm _ _
    simp only [leaf, if_pos hm]
    cases l with
    | nil => exact ⟨fun e => by simp, fun r => by simp⟩
    | cons z l =>
      by_cases hz : |mu - z| ≤ 19
      · simp only [if_pos hz]
        exact ⟨fun e => by simp, fun r hr => by rw [← Except.ok.inj (Option.some.inj hr)]; exact hz⟩
      · simp only [if_neg hz]
        exact ⟨fun e => by simp, fun r => by simp⟩
  have h' := h _ leaf hg
  clear h
  induction P with
  | ret a => exact .ret a
  | call mu sigma k ih =>
    have hm : |mu| ≤ 2 ^ 31 - 100 := by
      by_contra hc
      exact h' [] .floatConv (by simp only [interp, leaf, if_neg hc]; rfl)
    refine .call _ _ _ hm fun z hz => ih z fun l e he => h' (z :: l) e ?_
    simp only [interp]
    have : leaf mu sigma (z :: l) = some (.ok (z, l)) := by simp only [leaf, if_pos hm, if_pos hz]
    rw [this]
    exact he

/-! ## The code's sampler -/

/-- The program with the integer sampler of the code, as a program reading bytes. -/
noncomputable def ctree (fma : Bool) (sigmin : ℝ) (m : ℕ) : OTree α → BTree (Option (Except UB α))
  | ret a => .ret (some (.ok a))
  | call mu sigma k => (smpTree fma mu sigma sigmin m).bind fun
    | none => .ret none
    | some (.error e) => .ret (some (.error e))
    | some (.ok z) => ctree fma sigmin m (k z)

theorem interp_ctree (fma : Bool) (n m : ℕ) (stream : ℕ → UInt8) (P : OTree α) (p : ℕ) :
    interp (codeLeaf fma n m stream) P p = ((ctree fma (sigmaMin n) m P).run stream p).1.map fun e => e.map
      fun a => (a, ((ctree fma (sigmaMin n) m P).run stream p).2) := by
  induction P generalizing p with
  | ret a => rfl
  | call mu sigma k ih =>
    simp only [interp, ctree, BTree.run_bind]
    unfold codeLeaf
    rw [samplerz_tree]
    generalize BTree.run (smpTree fma mu sigma (sigmaMin n) m) stream p = a
    obtain ⟨a, q⟩ := a
    match a with
    | none => rfl
    | some (.error e) => rfl
    | some (.ok z) => exact ih z q

theorem depth_ctree (fma : Bool) (sigmin : ℝ) (m : ℕ) {P : OTree α} {d : ℕ} (h : Depth P d) :
    (ctree fma sigmin m P).Depth (18 * m * d) := by
  induction h with
  | ret a => exact .ret _ _
  | call mu sigma k d _ ih =>
    rw [Nat.mul_succ, Nat.add_comm, ctree]
    refine BTree.Depth.bind (depth_smpTree _ _ _ _ _) fun a => ?_
    match a with
    | none => exact .ret _ _
    | some (.error e) => exact .ret _ _
    | some (.ok z) => exact ih z

/-! ## Ideal answers -/

/-- Mean of `g` over the results when the calls are answered by discrete Gaussians. -/
noncomputable def gmean : OTree α → (α → ℝ) → ℝ
  | ret a, g => g a
  | call mu sigma k, g => gaussMean mu sigma fun z => gmean (k z) g

theorem gaussMean_mem {mu sigma : ℝ} (hs : 0 < sigma) {g : ℤ → ℝ} (g0 : ∀ z, 0 ≤ g z) (g1 : ∀ z, g z ≤ 1) :
    Summable (fun z => gaussW mu sigma z * g z) ∧ 0 ≤ gaussMean mu sigma g ∧ gaussMean mu sigma g ≤ 1 := by
  have hS := summable_gaussW mu hs
  have hW : ∀ z, 0 ≤ gaussW mu sigma z := fun z => (Real.exp_pos _).le
  have hsum : Summable (fun z => gaussW mu sigma z * g z) :=
    Summable.of_nonneg_of_le (fun z => mul_nonneg (hW z) (g0 z)) (fun z => mul_le_of_le_one_right (hW z) (g1 z)) hS
  refine ⟨hsum, div_nonneg (tsum_nonneg fun z => mul_nonneg (hW z) (g0 z)) (tsum_nonneg hW), ?_⟩
  unfold gaussMean
  rw [div_le_one (gauss_total_pos mu hs)]
  exact hsum.tsum_le_tsum (fun z => mul_le_of_le_one_right (hW z) (g1 z)) hS

theorem gmean_mem {P : OTree α} (h : AllS (fun s => 0 < s) P) {g : α → ℝ} (g0 : ∀ a, 0 ≤ g a) (g1 : ∀ a, g a ≤ 1) :
    0 ≤ gmean P g ∧ gmean P g ≤ 1 := by
  induction h with
  | ret a => exact ⟨g0 a, g1 a⟩
  | call mu sigma k hs _ ih => exact (gaussMean_mem hs (fun z => (ih z).1) fun z => (ih z).2).2

theorem mean_dist {t : BTree α} {n : ℕ} (hd : t.Depth n) {g h : α → ℝ} {δ : ℝ}
    (H : ∀ s, |g (t.run s 0).1 - h (t.run s 0).1| ≤ δ) : |t.mean g - t.mean h| ≤ δ := by
  rw [← BTree.mean_eq hd, ← BTree.mean_eq hd, ← sub_div, ← Finset.sum_sub_distrib, abs_div, abs_of_pos (by positivity : (0 : ℝ) < 256 ^ n),
    div_le_iff₀ (by positivity)]
  refine (Finset.abs_sum_le_sum_abs _ _).trans ((Finset.sum_le_sum fun v _ => H _).trans ?_)
  rw [Finset.sum_const, Finset.card_univ, Fintype.card_pi, Finset.prod_const, BTree.card_byte, Finset.card_univ, Fintype.card_fin,
    nsmul_eq_mul, mul_comm]
  push_cast
  exact le_rfl

/-- The hybrid argument: one error of the integer sampler per call. -/
theorem ctree_mean {n : ℕ} (hn : ValidLog n) (m : ℕ) {P : OTree α} {d : ℕ} (hd : Depth P d)
    (hS : AllS (fun s => sigmaMin n ≤ s ∧ s ≤ 182 / 100) P) (hM : NearM (fun mu => |mu| ≤ 2 ^ 31 - 100) P)
    {g : α → ℝ} (g0 : ∀ a, 0 ≤ g a) (g1 : ∀ a, g a ≤ 1) {G : Option (Except UB α) → ℝ} (hG : ∀ a, G (some (.ok a)) = g a)
    (hG0 : ∀ x, 0 ≤ G x) (hG1 : ∀ x, G x ≤ 1) :
    |(ctree false (sigmaMin n) m P).mean G - gmean P g| ≤ d * (1 / 2 ^ 38 + 1 / 2 ^ m) := by
  have hmin := (keyOk_bounds hn).1
  induction hd with
  | ret a => simp [ctree, BTree.mean, gmean, hG]
  | call mu sigma k d hd ih =>
    cases hS with
    | call _ _ _ hs hSk =>
    cases hM with
    | call _ _ _ hm hMk =>
    have hpos : ∀ z, AllS (fun s => 0 < s) (k z) := fun z => (hSk z).mono fun s h => by linarith [h.1]
    have hmem := fun z => gmean_mem (hpos z) g0 g1
    have hmm := abs_le.mp hm
    have f1 := Int.floor_le mu
    have f2 := Int.lt_floor_add_one mu
    have hok : SzOk false mu sigma (sigmaMin n) := by
      have h2 : sigma ≤ sigmaMax := hs.2.trans (by rw [sigmaMax_eq]; norm_num)
      refine ⟨?_, ?_, hmin, hs.1, h2, szSafe_of (hmin.trans hs.1) h2 fun h => by cases h⟩
      · rw [Int.le_floor]; push_cast; norm_num at hmm ⊢; linarith
      · rw [Int.floor_lt]; push_cast; norm_num at hmm ⊢; linarith
    rw [ctree, BTree.mean_bind, gmean]
    let G2 : Option (Except UB ℤ) → ℝ := fun
      | none => G none
      | some (.error e) => G (some (.error e))
      | some (.ok z) => gmean (k z) g
    have h1 := smp_mean hok m (fun z => gmean (k z) g) (fun z => (hmem z).1) (fun z => (hmem z).2) G2 (fun z => rfl)
      (hG0 none) (hG1 none)
    have hε : (0 : ℝ) ≤ d * (1 / 2 ^ 38 + 1 / 2 ^ m) := by positivity
    refine (tri (mean_dist (h := G2) (δ := d * (1 / 2 ^ 38 + 1 / 2 ^ m)) (depth_smpTree false mu sigma (sigmaMin n) m) fun s => ?_) h1).trans ?_
    · cases hrun : (BTree.run (smpTree false mu sigma (sigmaMin n) m) s 0).1 with
      | none => simpa [G2, BTree.mean] using hε
      | some x =>
        cases x with
        | error e => simpa [G2, BTree.mean] using hε
        | ok z =>
          refine ih z (hSk z) (hMk z ?_)
          obtain ⟨p, hp⟩ := (samplerz_some_iff (fma := false) (sigma := sigma) (sigmin := sigmaMin n) (mu := mu) (m := m) z).mpr hrun
          exact (codeLeaf_good hn m s mu sigma 0 hm (hmin.trans hs.1) hs.2).2 (z, p) hp
    · push_cast
      linarith

/-! ## Tapes -/

/-- Result and calls when the answers are read from a tape. -/
def walk : OTree α → (ℕ → ℤ) → ℕ → α × List Call
  | ret a, _, _ => (a, [])
  | call mu sigma k, v, p => ((walk (k (v p)) v (p + 1)).1, ⟨mu, sigma, v p⟩ :: (walk (k (v p)) v (p + 1)).2)

theorem interp_walk (v : ℕ → ℤ) (P : OTree α) (p : ℕ) (l : List Call) :
    interp (logged (tapeLeaf v)) P (p, l) =
      some (.ok ((walk P v p).1, (p + (walk P v p).2.length, l ++ (walk P v p).2))) := by
  induction P generalizing p l with
  | ret a => simp [interp, walk]
  | call mu sigma k ih =>
    have : logged (tapeLeaf v) mu sigma (p, l) = some (.ok (v p, (p + 1, l ++ [⟨mu, sigma, v p⟩]))) := rfl
    simp only [interp, this]
    show interp _ (k (v p)) (p + 1, _) = _
    rw [ih]
    simp [walk, Nat.add_assoc, Nat.add_comm 1]

theorem walk_shift (P : OTree α) (v w : ℕ → ℤ) (p q : ℕ) (h : ∀ i, v (p + i) = w (q + i)) : walk P v p = walk P w q := by
  induction P generalizing p q with
  | ret a => rfl
  | call mu sigma k ih =>
    have h0 := h 0
    simp only [Nat.add_zero] at h0
    simp only [walk, h0]
    rw [ih _ (p + 1) (q + 1) fun i => by rw [Nat.add_assoc, h, Nat.add_assoc]]

theorem tapeOf_cons_zero {d : ℕ} (z : ℤ) (v : Fin d → ℤ) : tapeOf (Fin.cons z v : Fin (d + 1) → ℤ) 0 = z := by
  unfold tapeOf
  rw [dif_pos (by omega)]
  rfl

theorem tapeOf_cons_succ {d : ℕ} (z : ℤ) (v : Fin d → ℤ) (i : ℕ) :
    tapeOf (Fin.cons z v : Fin (d + 1) → ℤ) (1 + i) = tapeOf v (0 + i) := by
  unfold tapeOf
  by_cases h : i < d
  · rw [dif_pos (by omega), dif_pos (by omega)]
    have : (⟨1 + i, by omega⟩ : Fin (d + 1)) = Fin.succ ⟨0 + i, by omega⟩ := Fin.ext (by simp; omega)
    rw [this, Fin.cons_succ]
  · rw [dif_neg (by omega), dif_neg (by omega)]

theorem walk_cons (mu sigma : ℝ) (k : ℤ → OTree α) {d : ℕ} (z : ℤ) (v : Fin d → ℤ) :
    walk (call mu sigma k) (tapeOf (Fin.cons z v : Fin (d + 1) → ℤ)) 0 =
      ((walk (k z) (tapeOf v) 0).1, ⟨mu, sigma, z⟩ :: (walk (k z) (tapeOf v) 0).2) := by
  rw [walk, tapeOf_cons_zero, walk_shift _ _ (tapeOf v) (0 + 1) 0 fun i => tapeOf_cons_succ z v i]

theorem walk_length {P : OTree α} {d : ℕ} (h : Depth P d) (v : ℕ → ℤ) (p : ℕ) : (walk P v p).2.length = d := by
  induction h generalizing p with
  | ret a => rfl
  | call mu sigma k d _ ih => simp [walk, ih]

/-- The mean under ideal answers is the sum over the tapes. -/
theorem gmean_tape {P : OTree α} {d : ℕ} (hd : Depth P d) (hS : AllS (fun s => 0 < s) P) {g : α → ℝ} (g0 : ∀ a, 0 ≤ g a)
    (g1 : ∀ a, g a ≤ 1) :
    HasSum (fun v : Fin d → ℤ => callPr (walk P (tapeOf v) 0).2 * g (walk P (tapeOf v) 0).1) (gmean P g) := by
  induction hd with
  | ret a =>
    simp [walk, callPr, gmean]
  | call mu sigma k d hd ih =>
    cases hS with
    | call _ _ _ hs hSk =>
    have hmem := fun z => gmean_mem (hSk z) g0 g1
    obtain ⟨hsum, -, -⟩ := gaussMean_mem (mu := mu) hs (fun z => (hmem z).1) fun z => (hmem z).2
    have hT := gauss_total_pos mu hs
    have hc0 : ∀ l : List Call, 0 ≤ callPr l := fun l => List.prod_nonneg (by
      intro x hx
      obtain ⟨c, -, rfl⟩ := List.mem_map.mp hx
      exact div_nonneg (Real.exp_pos _).le (tsum_nonneg fun _ => (Real.exp_pos _).le))
    let F : ℤ × (Fin d → ℤ) → ℝ := fun x => gaussW mu sigma x.1 / (∑' j : ℤ, gaussW mu sigma j) *
      (callPr (walk (k x.1) (tapeOf x.2) 0).2 * g (walk (k x.1) (tapeOf x.2) 0).1)
    have hF0 : 0 ≤ F := fun x => mul_nonneg (div_nonneg (Real.exp_pos _).le hT.le) (mul_nonneg (hc0 _) (g0 _))
    have hfib : ∀ z, HasSum (fun v => F (z, v)) (gaussW mu sigma z / (∑' j : ℤ, gaussW mu sigma j) * gmean (k z) g) :=
      fun z => (ih z (hSk z)).mul_left _
    have hout : HasSum (fun z => gaussW mu sigma z / (∑' j : ℤ, gaussW mu sigma j) * gmean (k z) g)
        (gaussMean mu sigma fun z => gmean (k z) g) := by
      have := hsum.hasSum.div_const (∑' j : ℤ, gaussW mu sigma j)
      refine this.congr_fun ?_ 
      intro z
      ring
    have hsF : Summable F := (summable_prod_of_nonneg hF0).mpr ⟨fun z => (hfib z).summable, by
      simp only [(hfib _).tsum_eq]
      exact hout.summable⟩
    have hFs : HasSum F (gaussMean mu sigma fun z => gmean (k z) g) := by
      have h2 := hsF.hasSum
      rw [hsF.tsum_prod] at h2
      simp only [(hfib _).tsum_eq, hout.tsum_eq] at h2
      exact h2
    rw [gmean]
    rw [← (Fin.consEquiv fun _ : Fin (d + 1) => ℤ).hasSum_iff]
    refine hFs.congr_fun ?_
    rintro ⟨z, v⟩
    show callPr (walk (call mu sigma k) (tapeOf (Fin.cons z v : Fin (d + 1) → ℤ)) 0).2 * g (walk (call mu sigma k) (tapeOf (Fin.cons z v : Fin (d + 1) → ℤ)) 0).1 = _
    rw [walk_cons]
    simp only [callPr, List.map_cons, List.prod_cons, F]
    ring

end OTree

end Falcon
