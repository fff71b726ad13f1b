import Verif.Proofs.Timing

/-! # The numbers of iterations of the integer sampler in the calls of one round -/

namespace Falcon

open Real

namespace OTree

variable {α : Type}

/-- A program whose calls are answered by the integer sampler of the code, with the numbers of iterations, as a program reading
bytes. -/
noncomputable def tctree (sigmin : ℝ) (m : ℕ) : OTree α → List ℕ → BTree (Option (Except UB (α × List ℕ)))
  | ret a, l => .ret (some (.ok (a, l)))
  | call mu sigma k, l => (tsmp mu sigma sigmin m 0).bind fun
    | none => .ret none
    | some (.error e) => .ret (some (.error e))
    | some (.ok x) => tctree sigmin m (k x.1) (l ++ [x.2])

theorem interp_tctree (n m : ℕ) (stream : ℕ → UInt8) (P : OTree α) (p : ℕ) (l : List ℕ) :
    interp (timedLeaf n m stream) P (p, l) = ((tctree (sigmaMin n) m P l).run stream p).1.map fun e => e.map
      fun a => (a.1, ((tctree (sigmaMin n) m P l).run stream p).2, a.2) := by
  induction P generalizing p l with
  | ret a => rfl
  | call mu sigma k ih =>
    simp only [interp, tctree, BTree.run_bind]
    unfold timedLeaf codeLeaf
    obtain ⟨h1, h2⟩ := tsmp_run mu sigma (sigmaMin n) stream m 0 p
    rw [h1]
    generalize BTree.run (tsmp mu sigma (sigmaMin n) m 0) stream p = a at h2 ⊢
    obtain ⟨a, q⟩ := a
    match a, h2 with
    | none, _ => rfl
    | some (.error e), _ => rfl
    | some (.ok (z, c)), h2 =>
      have hc : c = szIterations mu sigma (sigmaMin n) stream p := by
        have := (h2 z c rfl).1
        omega
      show interp (timedLeaf n m stream) (k z) (q, l ++ [szIterations mu sigma (sigmaMin n) stream p]) = _
      rw [← hc]
      exact ih z q (l ++ [c])

theorem depth_tctree (sigmin : ℝ) (m : ℕ) {P : OTree α} {d : ℕ} (h : Depth P d) : ∀ l, (tctree sigmin m P l).Depth (18 * m * d) := by
  induction h with
  | ret a => exact fun l => .ret _ _
  | call mu sigma k d _ ih =>
    intro l
    rw [Nat.mul_succ, Nat.add_comm, tctree]
    refine BTree.Depth.bind (depth_tsmp _ _ _ _ _) fun a => ?_
    match a with
    | none => exact .ret _ _
    | some (.error e) => exact .ret _ _
    | some (.ok x) => exact ih x.1 _

/-- Mean when the calls are answered by discrete Gaussians and independent geometric numbers, at most `m` each. -/
noncomputable def tgmean (a : ℝ) (m : ℕ) : OTree α → List ℕ → (α → List ℕ → ℝ) → ℝ
  | ret x, l, g => g x l
  | call mu sigma k, l, g => ∑ j ∈ Finset.range m, a * (1 - a) ^ j * gaussMean mu sigma fun z => tgmean a m (k z) (l ++ [j + 1]) g

theorem tgmean_mem {a : ℝ} (a0 : 0 ≤ a) (a1 : a ≤ 1) (m : ℕ) {P : OTree α} (h : AllS (fun s => 0 < s) P) {g : α → List ℕ → ℝ}
    (g0 : ∀ x l, 0 ≤ g x l) (g1 : ∀ x l, g x l ≤ 1) : ∀ l, 0 ≤ tgmean a m P l g ∧ tgmean a m P l g ≤ 1 := by
  induction h with
  | ret x => exact fun l => ⟨g0 x l, g1 x l⟩
  | call mu sigma k hs _ ih =>
    intro l
    have hm := fun j : ℕ => (gaussMean_mem (mu := mu) hs (fun z => (ih z (l ++ [j + 1])).1) fun z => (ih z (l ++ [j + 1])).2).2
    have hw : ∀ j : ℕ, 0 ≤ a * (1 - a) ^ j := fun j => mul_nonneg a0 (pow_nonneg (by linarith) j)
    refine ⟨Finset.sum_nonneg fun j _ => mul_nonneg (hw j) (hm j).1, ?_⟩
    refine (Finset.sum_le_sum fun j _ => mul_le_of_le_one_right (hw j) (hm j).2).trans ?_
    have := geom_sum_mul_neg (1 - a) m
    rw [sub_sub_cancel] at this
    rw [← Finset.mul_sum, mul_comm, this]
    have : 0 ≤ (1 - a) ^ m := pow_nonneg (by linarith) m
    linarith

theorem tctree_mean {n : ℕ} (hn : ValidLog n) (m : ℕ) {P : OTree α} {d : ℕ} (hd : Depth P d)
    (hS : AllS (fun s => sigmaMin n ≤ s ∧ s ≤ 182 / 100) P) (hM : NearM (fun mu => |mu| ≤ 2 ^ 31 - 100) P)
    {g : α → List ℕ → ℝ} (g0 : ∀ a l, 0 ≤ g a l) (g1 : ∀ a l, g a l ≤ 1) {G : Option (Except UB (α × List ℕ)) → ℝ}
    (hG : ∀ a, G (some (.ok a)) = g a.1 a.2) (hG0 : G none = 0) :
    ∀ l, |(tctree (sigmaMin n) m P l).mean G - tgmean (iterAcc n) m P l g| ≤ d * (1 / 2 ^ 34) := by
  have hmin := (keyOk_bounds hn).1
  induction hd with
  | ret a => intro l; simp [tctree, BTree.mean, tgmean, hG]
  | call mu sigma k d hd ih =>
    intro l
    cases hS with
    | call _ _ _ hs hSk =>
    cases hM with
    | call _ _ _ hm hMk =>
    have hpos : ∀ z, AllS (fun s => 0 < s) (k z) := fun z => (hSk z).mono fun s h => by linarith [h.1]
    have hmm := abs_le.mp hm
    have f1 := Int.floor_le mu
    have f2 := Int.lt_floor_add_one mu
    have hok : SzOk false mu sigma (sigmaMin n) := by
      have h2 : sigma ≤ sigmaMax := hs.2.trans (by rw [sigmaMax_eq]; norm_num)
      refine ⟨?_, ?_, hmin, hs.1, h2, szSafe_of (hmin.trans hs.1) h2 fun h => by cases h⟩
      · rw [Int.le_floor]; push_cast; norm_num at hmm ⊢; linarith
      · rw [Int.floor_lt]; push_cast; norm_num at hmm ⊢; linarith
    have hb := accIdeal_bounds hok.s0 (hok.s1.trans hok.s2)
    have hmem := fun z => tgmean_mem (a := iterAcc n) (by show 0 ≤ accIdeal (sigmaMin n); norm_num at hb; linarith)
      (by show accIdeal (sigmaMin n) ≤ 1; norm_num at hb; linarith) m (hpos z) g0 g1
    rw [tctree, BTree.mean_bind, tgmean]
    let G2 : Option (Except UB (ℤ × ℕ)) → ℝ := fun
      | none => G none
      | some (.error e) => G (some (.error e))
      | some (.ok x) => tgmean (iterAcc n) m (k x.1) (l ++ [x.2]) g
    have h1 := timed_call hok m (fun j z => tgmean (iterAcc n) m (k z) (l ++ [j + 1]) g) (fun j z => (hmem z _).1) (fun j z => (hmem z _).2)
    have h2 := mean_tsmp hok m 0 G2
    have e2 : G2 none = 0 := hG0
    rw [e2, mul_zero, add_zero] at h2
    simp only [zero_add] at h2
    have h3 : (tsmp mu sigma (sigmaMin n) m 0).mean G2 = ∑ j ∈ Finset.range m, (1 - szAcc false mu sigma (sigmaMin n)) ^ j *
      ∑ k_1 ∈ Win, szP false mu sigma (sigmaMin n) k_1 * tgmean (iterAcc n) m (k (⌊mu⌋ + k_1)) (l ++ [j + 1]) g := h2
    rw [← h3] at h1
    have hε : (0 : ℝ) ≤ d * (1 / 2 ^ 34) := by positivity
    refine (tri (mean_dist (h := G2) (δ := d * (1 / 2 ^ 34)) (depth_tsmp mu sigma (sigmaMin n) m 0) fun s => ?_) h1).trans ?_
    · obtain ⟨r1, -⟩ := tsmp_run mu sigma (sigmaMin n) s m 0 0
      cases hrun : (BTree.run (tsmp mu sigma (sigmaMin n) m 0) s 0).1 with
      | none => simpa [G2, BTree.mean] using hε
      | some x =>
        cases x with
        | error e => simpa [G2, BTree.mean] using hε
        | ok z =>
          refine ih z.1 (hSk z.1) (hMk z.1 ?_) _
          rw [hrun] at r1
          exact (codeLeaf_good hn m s mu sigma 0 hm (hmin.trans hs.1) hs.2).2 (z.1, ((tsmp mu sigma (sigmaMin n) m 0).run s 0).2) r1
    · push_cast
      linarith

theorem gaussMean_sum {ι : Type} (I : Finset ι) {mu sigma : ℝ} (hs : 0 < sigma) (w : ι → ℝ) (h : ι → ℤ → ℝ) (h0 : ∀ i z, 0 ≤ h i z)
    (h1 : ∀ i z, h i z ≤ 1) : gaussMean mu sigma (fun z => ∑ i ∈ I, w i * h i z) = ∑ i ∈ I, w i * gaussMean mu sigma (h i) := by
  unfold gaussMean
  have e : ∀ z, gaussW mu sigma z * ∑ i ∈ I, w i * h i z = ∑ i ∈ I, w i * (gaussW mu sigma z * h i z) := fun z => by
    rw [Finset.mul_sum]
    exact Finset.sum_congr rfl fun i _ => by ring
  simp only [e]
  rw [Summable.tsum_finsetSum fun i _ => ((gaussMean_mem hs (h0 i) (h1 i)).1).mul_left _, Finset.sum_div]
  refine Finset.sum_congr rfl fun i _ => ?_
  rw [tsum_mul_left, mul_div_assoc]

/-- The recursive mean is the sum over the numbers of iterations. -/
theorem tgmean_sum (n m : ℕ) {P : OTree α} {d : ℕ} (hd : Depth P d) (hS : AllS (fun s => 0 < s) P) {g : α → List ℕ → ℝ}
    (g0 : ∀ x l, 0 ≤ g x l) (g1 : ∀ x l, g x l ≤ 1) :
    ∀ l, tgmean (iterAcc n) m P l g = ∑ c : Fin d → Fin m, geoPr n c * gmean P fun x => g x (l ++ countsOf c) := by
  induction hd with
  | ret x =>
    intro l
    simp [tgmean, geoPr, gmean, countsOf]
  | call mu sigma k d hd ih =>
    intro l
    cases hS with
    | call _ _ _ hs hSk =>
    rw [← (Fin.consEquiv fun _ : Fin (d + 1) => Fin m).sum_comp, Fintype.sum_prod_type, tgmean, Finset.sum_range]
    refine Finset.sum_congr rfl fun j _ => ?_
    simp only [ih _ (hSk _)]
    rw [gaussMean_sum _ hs _ _ (fun c z => (gmean_mem (hSk z) (fun x => g0 x _) fun x => g1 x _).1)
      (fun c z => (gmean_mem (hSk z) (fun x => g0 x _) fun x => g1 x _).2), Finset.mul_sum]
    refine Finset.sum_congr rfl fun c _ => ?_
    show _ = geoPr n (Fin.cons j c : Fin (d + 1) → Fin m) * gmean (call mu sigma k) fun x => g x (l ++ countsOf (Fin.cons j c : Fin (d + 1) → Fin m))
    have e1 : geoPr n (Fin.cons j c : Fin (d + 1) → Fin m) = iterAcc n * (1 - iterAcc n) ^ (j : ℕ) * geoPr n c := by
      simp [geoPr, Fin.prod_univ_succ]
    have e2 : l ++ countsOf (Fin.cons j c : Fin (d + 1) → Fin m) = l ++ [(j : ℕ) + 1] ++ countsOf c := by
      simp [countsOf, List.ofFn_succ]
    rw [e1, e2, gmean]
    ring

end OTree

open OTree

/-- One round of sampling with the numbers of iterations, for every program in range. -/
theorem timed_dist {A : Arith ℝ ℂ} {n : ℕ} (hn : ValidLog n) {t0 t1 T z0 z1 : Mem ℂ} {t : FTree ℂ} (ht : TreeAt n T 0 0 t)
    (hl : ∀ v ∈ t.leaves, sigmaMin n ≤ A.re v ∧ A.re v ≤ 182 / 100)
    (hdef : ∀ (S : Type) (leaf : LeafSampler ℝ S), GoodLeaf leaf → ∀ s e, ffSampling A leaf n 0 t0 t1 T z0 z1 s ≠ some (.error e))
    (m : ℕ) (E : List ℕ → Mem ℂ → Mem ℂ → Prop) :
    |freq (18 * m * 2 ^ (n + 1)) (fun s => ∃ r, ffSampling A (timedLeaf n m s) n 0 t0 t1 T z0 z1 (0, []) = some (.ok r) ∧ E r.2.2.2 r.1 r.2.1)
      - timedPr A n m t0 t1 T z0 z1 E| ≤ 2 ^ (n + 1) * (1 / 2 ^ 34) := by
  classical
  obtain ⟨P, hd, hS, hP⟩ := ffSampling_otree A n 0 t0 t1 T z0 z1 t ((treeAt_root _ _ _).mp ht)
  have hmin := (keyOk_bounds hn).1
  have hS' : AllS (fun s => sigmaMin n ≤ s ∧ s ≤ 182 / 100) P := hS.mono fun s ⟨v, hv, e⟩ => e ▸ hl v hv
  have hS0 : AllS (fun s => 0 < s) P := hS'.mono fun s h => by linarith [h.1]
  have hM : NearM (fun mu => |mu| ≤ 2 ^ 31 - 100) P := near_of_good fun S leaf hg s e he => hdef S leaf hg s e (by rw [hP, he]; rfl)
  have eI : timedPr A n m t0 t1 T z0 z1 E = tgmean (iterAcc n) m P [] fun a l => if E l a.1 a.2 then 1 else 0 := by
    rw [tgmean_sum n m hd hS0 (fun a l => by split <;> norm_num) (fun a l => by split <;> norm_num), timedPr]
    refine Finset.sum_congr rfl fun c _ => ?_
    rw [idealPr_eq A hd hS0 hP]
    rfl
  rw [eI]
  have e := BTree.freq_eq (depth_tctree (sigmaMin n) m hd []) fun x => ∃ a : (Mem ℂ × Mem ℂ) × List ℕ, x = some (.ok a) ∧ E a.2 a.1.1 a.1.2
  have e2 : (fun s => ∃ r, ffSampling A (timedLeaf n m s) n 0 t0 t1 T z0 z1 (0, []) = some (.ok r) ∧ E r.2.2.2 r.1 r.2.1)
      = fun s => ∃ a : (Mem ℂ × Mem ℂ) × List ℕ, ((tctree (sigmaMin n) m P []).run s 0).1 = some (.ok a) ∧ E a.2 a.1.1 a.1.2 := by
    funext s
    rw [hP, interp_tctree]
    generalize BTree.run (tctree (sigmaMin n) m P []) s 0 = x
    obtain ⟨x, q⟩ := x
    apply propext
    match x with
    | none => simp [bindO]
    | some (.error u) => simp [bindO, Except.map]
    | some (.ok a) =>
      constructor
      · rintro ⟨r, hr, h⟩
        have hr : (a.1.1, a.1.2, q, a.2) = r := Except.ok.inj (Option.some.inj hr)
        subst hr
        exact ⟨a, rfl, h⟩
      · rintro ⟨a', ha, h⟩
        have ha : a = a' := Except.ok.inj (Option.some.inj ha)
        subst ha
        exact ⟨(a.1.1, a.1.2, q, a.2), rfl, h⟩
  rw [e2, e]
  have h := tctree_mean hn m hd hS' hM (g := fun a l => if E l a.1 a.2 then 1 else 0) (fun a l => by split <;> norm_num)
    (fun a l => by split <;> norm_num)
    (G := fun x => if ∃ a : (Mem ℂ × Mem ℂ) × List ℕ, x = some (.ok a) ∧ E a.2 a.1.1 a.1.2 then 1 else 0)
    (fun a => by
      have : (∃ a' : (Mem ℂ × Mem ℂ) × List ℕ, (some (Except.ok a) : Option (Except UB ((Mem ℂ × Mem ℂ) × List ℕ))) = some (.ok a') ∧
          E a'.2 a'.1.1 a'.1.2) ↔ E a.2 a.1.1 a.1.2 := by
        constructor
        · rintro ⟨a', ha, h⟩
          rwa [Except.ok.inj (Option.some.inj ha)]
        · exact fun h => ⟨a, rfl, h⟩
      simp only [this]) (if_neg fun ⟨a, h, _⟩ => by cases h) []
  push_cast at h
  exact h

/-! ## The number of bytes that one comparison reads -/

namespace BTree

variable {α : Type}

/-- The program that returns the position after the bytes read. -/
def cnt : BTree α → ℕ → BTree ℕ
  | ret _, p => ret p
  | read f, p => read fun b => cnt (f b) (p + 1)

theorem run_cnt (t : BTree α) (s : ℕ → UInt8) : ∀ p, (run (cnt t p) s p).1 = (run t s p).2 := by
  induction t with
  | ret a => exact fun p => rfl
  | read f ih => exact fun p => ih _ _

theorem depth_cnt {t : BTree α} {n : ℕ} (h : Depth t n) : ∀ p, Depth (cnt t p) n := by
  induction h with
  | ret a n => exact fun p => .ret _ _
  | read f n _ ih => exact fun p => .read _ _ fun b => ih b _

end BTree

theorem mean_cnt_berTree (z : UInt64) (g : ℕ → ℝ) (k : ℕ) : ∀ p, (BTree.cnt (berTree z (k + 2)) p).mean g =
    255 / 256 * g (p + 1) + 1 / 256 * (BTree.cnt (berTree z (k + 1)) (p + 1)).mean g := by
  intro p
  have hlt : ((z >>> UInt64.ofNat (8 * (k + 1))) &&& 0xff).toNat < 256 := by
    rw [UInt64.toNat_and]
    exact Nat.lt_of_le_of_lt Nat.and_le_right (by decide)
  obtain ⟨b0, hb0⟩ : ∃ b : UInt8, b.toNat = ((z >>> UInt64.ofNat (8 * (k + 1))) &&& 0xff).toNat :=
    ⟨UInt8.ofNat _, UInt8.toNat_ofNat_of_lt' hlt⟩
  have hf : ∀ b : UInt8, (BTree.cnt (if (b.toNat : Int) - (((z >>> UInt64.ofNat (8 * (k + 1))) &&& 0xff).toNat : Int) = 0 ∧ 0 < k + 1
      then berTree z (k + 1) else .ret (decide ((b.toNat : Int) - (((z >>> UInt64.ofNat (8 * (k + 1))) &&& 0xff).toNat : Int) < 0))) (p + 1)).mean g
      = g (p + 1) + if b = b0 then (BTree.cnt (berTree z (k + 1)) (p + 1)).mean g - g (p + 1) else 0 := by
    intro b
    by_cases h : b = b0
    · rw [if_pos h, if_pos ⟨by rw [h, hb0]; omega, by omega⟩]
      ring
    · rw [if_neg h, if_neg fun h' => h (UInt8.toNat_inj.mp (by rw [hb0]; omega))]
      simp [BTree.cnt, BTree.mean]
  rw [berTree, BTree.cnt, BTree.mean]
  simp only [hf]
  rw [Finset.sum_add_distrib, Finset.sum_ite_eq' Finset.univ b0, if_pos (Finset.mem_univ _), Finset.sum_const, Finset.card_univ, BTree.card_byte,
    nsmul_eq_mul]
  push_cast
  ring

theorem mean_cnt_berTree_one (z : UInt64) (g : ℕ → ℝ) (p : ℕ) : (BTree.cnt (berTree z 1) p).mean g = g (p + 1) := by
  rw [berTree, BTree.cnt, BTree.mean]
  simp only [lt_irrefl, and_false, if_false, BTree.cnt, BTree.mean]
  rw [Finset.sum_const, Finset.card_univ, BTree.card_byte, nsmul_eq_mul]
  push_cast
  ring

/-- The number of bytes compared, for every threshold. -/
theorem berLoop_bytes (z : UInt64) (k : ℕ) (h1 : 1 ≤ k) (h8 : k ≤ 8) :
    freq 8 (fun s => (berLoop z s 64 0).2 = k) = if k < 8 then 255 / 256 ^ k else 1 / 256 ^ 7 := by
  have e := BTree.freq_eq (BTree.depth_cnt (depth_berTree z 8) 0) fun p => p = k
  have e2 : (fun s : Mem UInt8 => (berLoop z s 64 0).2 = k) = fun s => ((BTree.cnt (berTree z 8) 0).run s 0).1 = k := by
    funext s
    rw [BTree.run_cnt, ← berLoop_tree]
  rw [e2, e]
  rw [mean_cnt_berTree z _ 6, mean_cnt_berTree z _ 5, mean_cnt_berTree z _ 4, mean_cnt_berTree z _ 3, mean_cnt_berTree z _ 2,
    mean_cnt_berTree z _ 1, mean_cnt_berTree z _ 0, mean_cnt_berTree_one z]
  interval_cases k <;> norm_num

end Falcon
