import Verif.Props.Transcript

/-! # The signing loop with the iteration counts of the integer sampler -/

namespace Falcon

open OTree BTree

/-- The signing loop with iteration counts, as a program reading bytes. -/
noncomputable def trej (sigmin : ℝ) (m : ℕ) (P : OTree (Mem ℂ × Mem ℂ)) (test : Mem ℂ × Mem ℂ → Mem UInt8 → Except UB (Bool × Mem UInt8)) :
    ℕ → List ℕ → Mem UInt8 → BTree (Option (Except UB (Mem UInt8 × List ℕ)))
  | 0, _, _ => .ret none
  | R + 1, l, b => (tctree sigmin m P l).bind fun
    | none => .ret none
    | some (.error e) => .ret (some (.error e))
    | some (.ok a) => match test a.1 b with
      | .error e => .ret (some (.error e))
      | .ok (true, out) => .ret (some (.ok (out, a.2)))
      | .ok (false, out) => trej sigmin m P test R a.2 out

theorem depth_trej (sigmin : ℝ) (m : ℕ) {P : OTree (Mem ℂ × Mem ℂ)} {d : ℕ} (hd : OTree.Depth P d)
    (test : Mem ℂ × Mem ℂ → Mem UInt8 → Except UB (Bool × Mem UInt8)) :
    ∀ (R : ℕ) (l : List ℕ) (b : Mem UInt8), (trej sigmin m P test R l b).Depth (18 * m * d * R) := by
  intro R
  induction R with
  | zero => exact fun l b => .ret _ _
  | succ R ih =>
    intro l b
    rw [Nat.mul_succ, Nat.add_comm (18 * m * d * R), trej]
    refine BTree.Depth.bind (depth_tctree sigmin m hd l) fun a => ?_
    match a with
    | none => exact .ret _ _
    | some (.error e) => exact .ret _ _
    | some (.ok a) =>
      simp only
      match test a.1 b with
      | .error e => exact .ret _ _
      | .ok (true, out) => exact .ret _ _
      | .ok (false, out) => exact ih a.2 out

theorem signLoop_trej {n m : ℕ} {B T t0 t1 : Mem ℂ} {P : OTree (Mem ℂ × Mem ℂ)}
    (hP : ∀ (S : Type) (leaf : LeafSampler ℝ S) (s : S), ffSampling exactA leaf n 0 t0 t1 T (junkC exactA) (junkC exactA) s =
      bindO (interp leaf P s) fun r => some (.ok (r.1.1, r.1.2, r.2))) (stream : ℕ → UInt8) (R : ℕ) (sig : Mem UInt8) (p : ℕ) (l : List ℕ) :
    signLoop exactA (timedLeaf n m stream) n B T t0 t1 R sig (p, l) =
      ((trej (sigmaMin n) m P (signTest n B t0 t1) R l sig).run stream p).1.map fun e => e.map fun x =>
        (x.1, ((trej (sigmaMin n) m P (signTest n B t0 t1) R l sig).run stream p).2, x.2) := by
  induction R generalizing sig p l with
  | zero => rfl
  | succ R ih =>
    rw [signLoop, hP, interp_tctree, trej, BTree.run_bind]
    generalize BTree.run (tctree (sigmaMin n) m P l) stream p = x
    obtain ⟨x, q⟩ := x
    match x with
    | none => rfl
    | some (.error e) => rfl
    | some (.ok (a, l')) =>
      show (if exactA.le _ _ = true then _ else _) = _
      simp only [signTest]
      by_cases hle : exactA.le (signNorm exactA n (signVec exactA n B t0 t1 a.1 a.2).1 (signVec exactA n B t0 t1 a.1 a.2).2)
          (exactA.lit (beta2 n)) = true
      · rw [if_pos hle]
        simp only [if_pos hle]
        match signRound exactA n (signVec exactA n B t0 t1 a.1 a.2).2 with
        | .error e => rfl
        | .ok s2 =>
          show bindO (some (compressSigE n s2 sig)) _ = _
          simp only [Except.bind]
          match compressSigE n s2 sig with
          | .error e => rfl
          | .ok (true, out) => rfl
          | .ok (false, out) => exact ih out q l'
      · rw [if_neg hle]
        simp only [if_neg hle]
        exact ih sig q l'

theorem gmean_lin {α : Type} {P : OTree α} (h : AllS (fun s => 0 < s) P) {f g : α → ℝ} (f0 : ∀ a, 0 ≤ f a) (f1 : ∀ a, f a ≤ 1)
    (g0 : ∀ a, 0 ≤ g a) (g1 : ∀ a, g a ≤ 1) (w : ℝ) : gmean P (fun x => f x + w * g x) = gmean P f + w * gmean P g := by
  induction h with
  | ret a => rfl
  | call mu sigma k hs hk ih =>
    have hf := (gaussMean_mem (mu := mu) hs (fun z => (gmean_mem (hk z) f0 f1).1) fun z => (gmean_mem (hk z) f0 f1).2).1
    have hg := (gaussMean_mem (mu := mu) hs (fun z => (gmean_mem (hk z) g0 g1).1) fun z => (gmean_mem (hk z) g0 g1).2).1
    simp only [gmean, ih]
    unfold gaussMean
    rw [← mul_div_assoc, ← add_div, ← tsum_mul_left, ← hf.tsum_add (hg.mul_left w)]
    congr 1
    exact tsum_congr fun z => by ring

theorem geo_mass {n : ℕ} (hn : ValidLog n) (m : ℕ) : (∀ k : Fin (2 ^ (n + 1)) → Fin m, 0 ≤ geoPr n k) ∧
    ∑ k : Fin (2 ^ (n + 1)) → Fin m, geoPr n k ≤ 1 := by
  obtain ⟨b1, b2, hsum, -⟩ := C118_param hn m
  refine ⟨fun k => Finset.prod_nonneg fun i _ => mul_nonneg (by linarith) (pow_nonneg (by linarith) _), ?_⟩
  rw [hsum]
  have p0 : 0 ≤ (1 - iterAcc n) ^ m := pow_nonneg (by linarith) m
  have p1 : (1 - iterAcc n) ^ m ≤ 1 := pow_le_one₀ (by linarith) (by linarith)
  exact pow_le_one₀ (by linarith) (by linarith)

theorem simSignPr_mem {n : ℕ} (hn : ValidLog n) {h : Mem Ff} {f g F G : Mem Int} (tr : Trapdoor n h f g F G) (m : ℕ) (c : Mem Ff)
    (E : List ℕ → PairZ n → Prop) (R : ℕ) : ∀ l, 0 ≤ simSignPr n (sigmaSig n) m h c E R l ∧ simSignPr n (sigmaSig n) m h c E R l ≤ 1 := by
  obtain ⟨hg0, hg1⟩ := geo_mass hn m
  induction R with
  | zero => exact fun l => ⟨le_rfl, zero_le_one⟩
  | succ R ih =>
    intro l
    have hp : ∀ k : Fin (2 ^ (n + 1)) → Fin m, 0 ≤ cosetPr n (sigmaSig n) h c (fun s => Accept n s ∧ E (l ++ countsOf k) s)
        + cosetPr n (sigmaSig n) h c (fun s => ¬ Accept n s) * simSignPr n (sigmaSig n) m h c E R (l ++ countsOf k) ∧
        cosetPr n (sigmaSig n) h c (fun s => Accept n s ∧ E (l ++ countsOf k) s)
        + cosetPr n (sigmaSig n) h c (fun s => ¬ Accept n s) * simSignPr n (sigmaSig n) m h c E R (l ++ countsOf k) ≤ 1 := by
      intro k
      have i := ih (l ++ countsOf k)
      have a1 := cosetPr_mono hn tr c (E := fun s => Accept n s ∧ E (l ++ countsOf k) s) (E' := Accept n) fun s h => h.1
      have a2 := cosetPr_mem hn tr c (Accept n)
      have a3 := cosetPr_mem hn tr c fun s => ¬ Accept n s
      have a4 := cosetPr_mem hn tr c fun s => Accept n s ∧ E (l ++ countsOf k) s
      refine ⟨add_nonneg a4.1 (mul_nonneg a3.1 i.1), ?_⟩
      have := mul_le_of_le_one_right a3.1 i.2
      linarith [a2.2.2]
    rw [simSignPr]
    exact ⟨Finset.sum_nonneg fun k _ => mul_nonneg (hg0 k) (hp k).1,
      (Finset.sum_le_sum fun k _ => mul_le_of_le_one_right (hg0 k) (hp k).2).trans hg1⟩

theorem assemble_body (n : ℕ) (salt : ℕ → UInt8) (out : Mem UInt8) (j : ℕ) (hj : 41 ≤ j) : assemble n salt out j = out j := by
  unfold assemble
  have : ∀ k (m : Mem UInt8), k ≤ 40 → loop k (fun i sig => upd sig (1 + i) (prngRead salt 0 40 (fun _ => 0) i)) m j = m j := by
    intro k
    induction k with
    | zero => intro m _; rfl
    | succ k ih =>
      intro m hk
      rw [loop_succ]
      unfold upd
      rw [if_neg (by omega)]
      exact ih m (by omega)
  rw [this 40 _ le_rfl]
  unfold upd
  rw [if_neg (by omega)]

/-- The signing loop with iteration counts against the simulation. -/
theorem timed_sign {n : ℕ} (hn : ValidLog n) {h : Mem Ff} {f g F G : Mem Int} (tr : Trapdoor n h f g F G)
    (B0 T0 : Mem ℂ) {c : Mem Ff} (hc : CanonBelow (2 ^ n) c) (m : ℕ) (salt : ℕ → UInt8) {Ev : List ℕ → Mem UInt8 → Prop}
    (hEv : ∀ l a b, (∀ j, 41 ≤ j → j < sigBytes n → a j = b j) → (Ev l a ↔ Ev l b)) (R : ℕ) (sig : Mem UInt8) :
    let B := computeMatrixB exactA n f g F G B0
    let t := signTarget exactA n B c
    |freq (18 * m * 2 ^ (n + 1) * R) (fun st => ∃ r, signLoop exactA (timedLeaf n m st) n B (computeFalconTree exactA n B T0) t.1 t.2 R sig (0, []) =
        some (.ok r) ∧ Ev r.2.2 r.1)
      - simSignPr n (sigmaSig n) m h c (fun l s => ∃ a, SignatureOf n a salt (tapeOf s.2) ∧ Ev l a) R []| ≤ R * (1 / 2 ^ 22) := by
  classical
  intro B t
  have hn10 : n ≤ 10 := by rcases hn with rfl | rfl <;> norm_num
  have hmin := (keyOk_bounds hn).1
  obtain ⟨hg0, hg1⟩ := geo_mass hn m
  obtain ⟨tt, ht, hl⟩ := C80_leaves_exact hn tr B0 T0
  have hl' := leaves_both accurate_exact hn tr.eq tr.fits (trap_small tr) ht hl
  obtain ⟨P, hd, hS, hP⟩ := ffSampling_otree exactA n 0 t.1 t.2 (computeFalconTree exactA n B T0) (junkC exactA) (junkC exactA) tt
    ((treeAt_root _ _ _).mp ht)
  have hS' : AllS (fun s => sigmaMin n ≤ s ∧ s ≤ 182 / 100) P := hS.mono fun s ⟨v, hv, e⟩ => e ▸ hl' v hv
  have hS0 : AllS (fun s => 0 < s) P := hS'.mono fun s h => by linarith [h.1]
  have hM : NearM (fun mu => |mu| ≤ 2 ^ 31 - 100) P := near_of_good fun S leaf hg s e he =>
    signSampling_defined accurate_exact hg hn tr.eq tr.fits (trap_small tr) B0 T0 (junkC exactA) (junkC exactA) hc s e (by
      show ffSampling exactA leaf n 0 t.1 t.2 (computeFalconTree exactA n B T0) (junkC exactA) (junkC exactA) s = _
      rw [hP, he]; rfl)
  let D : Mem ℂ × Mem ℂ → PairZ n → Prop := fun y s =>
    IsDftOf n (signVec exactA n B t.1 t.2 y.1 y.2).1 (tapeOf s.1) ∧ IsDftOf n (signVec exactA n B t.1 t.2 y.1 y.2).2 (tapeOf s.2)
  have uniq : ∀ y s s', D y s → D y s' → s = s' := fun y s s' hs hs' => dft_unique hn10 hs hs'
  obtain ⟨E, hE⟩ : ∃ E : List ℕ → PairZ n → Prop, E = fun l s => ∃ a, SignatureOf n a salt (tapeOf s.2) ∧ Ev l a := ⟨_, rfl⟩
  rw [← hE]
  have reach : ∀ s l a, ((tctree (sigmaMin n) m P l).run s 0).1 = some (.ok a) → ∃ s : PairZ n, D a.1 s ∧
      (Accept n s → ∀ sig, ∃ out, signTest n B t.1 t.2 a.1 sig = .ok (true, out) ∧ SignatureOf n (assemble n salt out) salt (tapeOf s.2)) ∧
      (¬ Accept n s → ∀ sig, ∃ out, signTest n B t.1 t.2 a.1 sig = .ok (false, out)) := by
    intro st l a ha
    have hrun : ffSampling exactA (timedLeaf n m st) n 0 t.1 t.2 (computeFalconTree exactA n B T0) (junkC exactA) (junkC exactA) (0, l)
        = some (.ok (a.1.1, a.1.2, ((tctree (sigmaMin n) m P l).run st 0).2, a.2)) := by
      rw [hP, interp_tctree, ha]; rfl
    obtain ⟨a0, a1, i0, i1⟩ := C48_integer _ n hn10 _ _ _ _ _ _ _ hrun
    obtain ⟨s, s1, s2, s3, s4⟩ := signTest_ok hn tr.eq B0 c (z := a.1) i0 i1 salt
    exact ⟨s, ⟨s1, s2⟩, s3, s4⟩
  -- one round against the simulation
  have round : ∀ (w : List ℕ → ℝ), (∀ l, 0 ≤ w l ∧ w l ≤ 1) → ∀ l (gv : Mem ℂ × Mem ℂ → List ℕ → ℝ),
      (∀ a l', gv a l' = (if ∃ s, D a s ∧ (Accept n s ∧ E l' s) then 1 else 0) + w l' * (if ∃ s, D a s ∧ ¬ Accept n s then 1 else 0)) →
      ∀ Gv : Option (Except UB ((Mem ℂ × Mem ℂ) × List ℕ)) → ℝ, (∀ a, Gv (some (.ok a)) = gv a.1 a.2) → Gv none = 0 →
      |(tctree (sigmaMin n) m P l).mean Gv - ∑ k : Fin (2 ^ (n + 1)) → Fin m, geoPr n k *
        (cosetPr n (sigmaSig n) h c (fun s => Accept n s ∧ E (l ++ countsOf k) s)
        + cosetPr n (sigmaSig n) h c (fun s => ¬ Accept n s) * w (l ++ countsOf k))| ≤ 1 / 2 ^ 22 := by
    intro w hw l gv hgv Gv hGv hG0
    have gv01 : ∀ a l', 0 ≤ gv a l' ∧ gv a l' ≤ 1 := by
      intro a l'
      rw [hgv]
      by_cases h1 : ∃ s, D a s ∧ (Accept n s ∧ E l' s)
      · have h2 : ¬ ∃ s, D a s ∧ ¬ Accept n s := by
          rintro ⟨s', d', n'⟩
          obtain ⟨s, d, x⟩ := h1
          exact n' (uniq _ _ _ d d' ▸ x.1)
        rw [if_pos h1, if_neg h2]
        norm_num
      · rw [if_neg h1]
        have := hw l'
        split <;> simp [this]
    have h1 := tctree_mean hn m hd hS' hM (g := gv) (fun a l => (gv01 a l).1) (fun a l => (gv01 a l).2) hGv hG0 l
    rw [tgmean_sum n m hd hS0 (fun a l => (gv01 a l).1) (fun a l => (gv01 a l).2)] at h1
    have h2 : |∑ k : Fin (2 ^ (n + 1)) → Fin m, geoPr n k * gmean P (fun x => gv x (l ++ countsOf k)) -
        ∑ k : Fin (2 ^ (n + 1)) → Fin m, geoPr n k *
        (cosetPr n (sigmaSig n) h c (fun s => Accept n s ∧ E (l ++ countsOf k) s)
        + cosetPr n (sigmaSig n) h c (fun s => ¬ Accept n s) * w (l ++ countsOf k))| ≤ 1 / 2 ^ 24 := by
      rw [← Finset.sum_sub_distrib]
      refine (Finset.abs_sum_le_sum_abs _ _).trans ((Finset.sum_le_sum fun k _ => ?_).trans
        (b := ∑ k : Fin (2 ^ (n + 1)) → Fin m, geoPr n k * (1 / 2 ^ 24)) ?_)
      · rw [← mul_sub, abs_mul, abs_of_nonneg (hg0 k)]
        refine mul_le_mul_of_nonneg_left ?_ (hg0 k)
        have hwk := hw (l ++ countsOf k)
        simp only [hgv]
        generalize w (l ++ countsOf k) = wk at *
        rw [gmean_lin hS0 (fun a => by split <;> norm_num) (fun a => by split <;> norm_num) (fun a => by split <;> norm_num)
          (fun a => by split <;> norm_num)]
        have e1 := idealPr_eq exactA hd hS0 hP fun y0 y1 => ∃ s, D (y0, y1) s ∧ (Accept n s ∧ E (l ++ countsOf k) s)
        have e2 := idealPr_eq exactA hd hS0 hP fun y0 y1 => ∃ s, D (y0, y1) s ∧ ¬ Accept n s
        have c1 := C81_ideal hn tr B0 T0 (junkC exactA) (junkC exactA) c fun s => Accept n s ∧ E (l ++ countsOf k) s
        have c2 := C81_ideal hn tr B0 T0 (junkC exactA) (junkC exactA) c fun s => ¬ Accept n s
        have p1 := (C81_probability hn tr c fun s => Accept n s ∧ E (l ++ countsOf k) s)
        have p2 := (C81_probability hn tr c fun s => ¬ Accept n s)
        have c1 : |gmean P (fun a => if ∃ s, D a s ∧ (Accept n s ∧ E (l ++ countsOf k) s) then 1 else 0) -
            cosetPr n (sigmaSig n) h c (fun s => Accept n s ∧ E (l ++ countsOf k) s)| ≤ 1 / 2 ^ 25 := by
          rw [← e1]
          refine le_trans (le_of_eq ?_) (c1.trans (mul_le_of_le_one_right (by norm_num) p1.2.1))
          congr 2
          simp only [D, and_assoc]
          rfl
        have c2 : |gmean P (fun a => if ∃ s, D a s ∧ ¬ Accept n s then 1 else 0) - cosetPr n (sigmaSig n) h c (fun s => ¬ Accept n s)| ≤ 1 / 2 ^ 25 := by
          rw [← e2]
          refine le_trans (le_of_eq ?_) (c2.trans (mul_le_of_le_one_right (by norm_num) p2.2.1))
          congr 2
          simp only [D, and_assoc]
          rfl
        generalize gmean P (fun a => if ∃ s, D a s ∧ (Accept n s ∧ E (l ++ countsOf k) s) then 1 else 0) = x1 at *
        generalize gmean P (fun a => if ∃ s, D a s ∧ ¬ Accept n s then 1 else 0) = x2 at *
        generalize cosetPr n (sigmaSig n) h c (fun s => Accept n s ∧ E (l ++ countsOf k) s) = y1 at *
        generalize cosetPr n (sigmaSig n) h c (fun s => ¬ Accept n s) = y2 at *
        have e : x1 + wk * x2 - (y1 + y2 * wk) = (x1 - y1) + wk * (x2 - y2) := by ring
        rw [e]
        refine (abs_add_le _ _).trans ?_
        rw [abs_mul, abs_of_nonneg hwk.1]
        have := mul_le_mul hwk.2 c2 (abs_nonneg _) zero_le_one
        norm_num at this c1 ⊢
        linarith
      · rw [← Finset.sum_mul]
        exact mul_le_of_le_one_left (by norm_num) hg1
    refine (tri h1 h2).trans ?_
    push_cast
    rcases hn with rfl | rfl <;> norm_num
  -- the loop
  let Fv : Option (Except UB (Mem UInt8 × List ℕ)) → ℝ := fun x => if ∃ r, x = some (.ok r) ∧ Ev r.2 r.1 then 1 else 0
  have Fv_ok : ∀ r, Fv (some (.ok r)) = if Ev r.2 r.1 then 1 else 0 := by
    intro r
    have : (∃ r', (some (Except.ok r) : Option (Except UB (Mem UInt8 × List ℕ))) = some (.ok r') ∧ Ev r'.2 r'.1) ↔ Ev r.2 r.1 := by
      constructor
      · rintro ⟨r', hr, h⟩
        rwa [Except.ok.inj (Option.some.inj hr)]
      · exact fun h => ⟨r, rfl, h⟩
    simp only [Fv, this]
  have Fv_none : Fv none = 0 := if_neg fun ⟨r, h, _⟩ => by cases h
  have Fv_err : ∀ e, Fv (some (.error e)) = 0 := fun e => if_neg fun ⟨r, h, _⟩ => by cases h
  have key : ∀ R l b, |(trej (sigmaMin n) m P (signTest n B t.1 t.2) R l b).mean Fv - simSignPr n (sigmaSig n) m h c E R l| ≤ R * (1 / 2 ^ 22) := by
    intro R
    induction R with
    | zero =>
      intro l b
      simp [trej, BTree.mean, simSignPr, Fv_none]
    | succ R ih =>
      intro l b
      have hw := simSignPr_mem hn tr m c E R
      let gv : Mem ℂ × Mem ℂ → List ℕ → ℝ := fun a l' =>
        (if ∃ s, D a s ∧ (Accept n s ∧ E l' s) then 1 else 0) + simSignPr n (sigmaSig n) m h c E R l' * (if ∃ s, D a s ∧ ¬ Accept n s then 1 else 0)
      let Gv : Option (Except UB ((Mem ℂ × Mem ℂ) × List ℕ)) → ℝ := fun
        | some (.ok a) => gv a.1 a.2
        | _ => 0
      have h1 := round _ hw l gv (fun _ _ => rfl) Gv (fun _ => rfl) rfl
      rw [trej, BTree.mean_bind, simSignPr]
      have hR : (0 : ℝ) ≤ R * (1 / 2 ^ 22) := by positivity
      refine (tri (mean_dist (h := Gv) (δ := R * (1 / 2 ^ 22)) (depth_tctree (sigmaMin n) m hd l) fun st => ?_) h1).trans ?_
      · have hst := reach st l
        generalize ((tctree (sigmaMin n) m P l).run st 0).1 = x at hst
        match x with
        | none => simpa [Gv, BTree.mean, Fv_none] using hR
        | some (.error u) => simpa [Gv, BTree.mean, Fv_err] using hR
        | some (.ok (a, l')) =>
          obtain ⟨s, d, s2, s3⟩ := hst _ rfl
          by_cases ha : Accept n s
          · obtain ⟨out, o1, o2⟩ := s2 ha b
            have n1 : ¬ ∃ s, D a s ∧ ¬ Accept n s := fun ⟨s', d', n'⟩ => n' (uniq _ _ _ d d' ▸ ha)
            have n2 : (∃ s, D a s ∧ (Accept n s ∧ E l' s)) ↔ Ev l' out := by
              have hb := hEv l' (assemble n salt out) out fun j hj _ => assemble_body n salt out j hj
              constructor
              · rintro ⟨s', d', -, he⟩
                rw [hE, uniq _ _ _ d' d] at he
                obtain ⟨a', h1, h2⟩ := he
                exact hb.mp ((hEv l' _ _ fun j _ hj => signatureOf_unique h1 o2 j hj).mp h2)
              · intro he
                refine ⟨s, d, ha, ?_⟩
                rw [hE]
                exact ⟨_, o2, hb.mpr he⟩
            simp only [o1, BTree.mean, Fv_ok, Gv, gv, n1, n2, if_false, mul_zero, add_zero]
            rw [sub_self, abs_zero]
            exact hR
          · obtain ⟨out, o1⟩ := s3 ha b
            have n1 : ∃ s, D a s ∧ ¬ Accept n s := ⟨s, d, ha⟩
            have n2 : ¬ ∃ s, D a s ∧ (Accept n s ∧ E l' s) := fun ⟨s', d', x, _⟩ => ha (uniq _ _ _ d' d ▸ x)
            simp only [o1, Gv, gv, if_pos n1, if_neg n2, mul_one, zero_add]
            exact ih l' out
      · push_cast
        linarith
  have e := BTree.freq_eq (depth_trej (sigmaMin n) m hd (signTest n B t.1 t.2) R [] sig) fun x => ∃ r, x = some (.ok r) ∧ Ev r.2 r.1
  have e2 : (fun st => ∃ r, signLoop exactA (timedLeaf n m st) n B (computeFalconTree exactA n B T0) t.1 t.2 R sig (0, []) =
        some (.ok r) ∧ Ev r.2.2 r.1)
      = fun st => ∃ r, ((trej (sigmaMin n) m P (signTest n B t.1 t.2) R [] sig).run st 0).1 = some (.ok r) ∧ Ev r.2 r.1 := by
    funext st
    rw [signLoop_trej hP]
    generalize BTree.run (trej (sigmaMin n) m P (signTest n B t.1 t.2) R [] sig) st 0 = x
    obtain ⟨x, q⟩ := x
    apply propext
    match x with
    | none => simp
    | some (.error u) => simp [Except.map]
    | some (.ok a) =>
      constructor
      · rintro ⟨r, hr, h⟩
        have hr : (a.1, q, a.2) = r := Except.ok.inj (Option.some.inj hr)
        subst hr
        exact ⟨a, rfl, h⟩
      · rintro ⟨a', ha, h⟩
        have ha : a = a' := Except.ok.inj (Option.some.inj ha)
        subst ha
        exact ⟨(a.1, q, a.2), rfl, h⟩
  rw [e2, e]
  exact key R [] sig

end Falcon
