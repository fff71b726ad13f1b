import Verif.KeyLawSpec
import Verif.Proofs.SignLaw
import Verif.Props.Contract
import Verif.Proofs.Seed

/-! # The law of key generation -/

namespace Falcon

open OTree

namespace OTree

variable {α β : Type}

/-- Every call is the one of key generation. -/
inductive KeyC : OTree α → Prop
  | ret (a : α) : KeyC (ret a)
  | call (k : ℤ → OTree α) (hk : ∀ z, KeyC (k z)) : KeyC (call 0 keySigma k)

theorem KeyC.bind {P : OTree α} {f : α → OTree β} (h : KeyC P) (hf : ∀ a, KeyC (f a)) : KeyC (bind P f) := by
  induction h with
  | ret a => exact hf a
  | call k _ ih => exact .call _ ih

theorem keySz (fma : Bool) {n : ℕ} (hn : ValidLog n) : SzOk fma 0 keySigma (sigmaMin n) := by
  obtain ⟨a, b, c⟩ := keyOk_bounds hn
  exact ⟨by simp, by simp, a, b, c, szSafe_of (a.trans b) c fun _ s z0 hz => key_multiple s hz⟩

theorem keySigma_pos : 0 < keySigma := by
  obtain ⟨a, b, c⟩ := keyOk_bounds (n := 9) (.inl rfl)
  linarith

theorem KeyC.pos {P : OTree α} (h : KeyC P) : AllS (fun s => 0 < s) P := by
  induction h with
  | ret a => exact .ret a
  | call k _ ih => exact .call _ _ _ keySigma_pos ih

/-- The hybrid argument, with and without contraction. -/
theorem ctree_mean_key (fma : Bool) {n : ℕ} (hn : ValidLog n) (m : ℕ) {P : OTree α} {d : ℕ} (hd : Depth P d) (hC : KeyC P)
    {g : α → ℝ} (g0 : ∀ a, 0 ≤ g a) (g1 : ∀ a, g a ≤ 1) {G : Option (Except UB α) → ℝ} (hG : ∀ a, G (some (.ok a)) = g a)
    (hG0 : ∀ x, 0 ≤ G x) (hG1 : ∀ x, G x ≤ 1) :
    |(ctree fma (sigmaMin n) m P).mean G - gmean P g| ≤ d * (1 / 2 ^ 38 + 1 / 2 ^ m) := by
  induction hd with
  | ret a => simp [ctree, BTree.mean, gmean, hG]
  | call mu sigma k d hd ih =>
    cases hC with
    | call _ hk =>
    have hmem := fun z => gmean_mem (hk z).pos g0 g1
    rw [ctree, BTree.mean_bind, gmean]
    let G2 : Option (Except UB ℤ) → ℝ := fun
      | none => G none
      | some (.error e) => G (some (.error e))
      | some (.ok z) => gmean (k z) g
    have h1 := smp_mean (keySz fma hn) m (fun z => gmean (k z) g) (fun z => (hmem z).1) (fun z => (hmem z).2) G2 (fun z => rfl)
      (hG0 none) (hG1 none)
    have hε : (0 : ℝ) ≤ d * (1 / 2 ^ 38 + 1 / 2 ^ m) := by positivity
    refine (tri (mean_dist (h := G2) (δ := d * (1 / 2 ^ 38 + 1 / 2 ^ m)) (depth_smpTree fma 0 keySigma (sigmaMin n) m) fun s => ?_) h1).trans ?_
    · cases hrun : (BTree.run (smpTree fma 0 keySigma (sigmaMin n) m) s 0).1 with
      | none => simpa [G2, BTree.mean] using hε
      | some x =>
        cases x with
        | error e => simpa [G2, BTree.mean] using hε
        | ok z => exact ih z (hk z)
    · push_cast
      linarith

theorem KeyC.callPr_walk {P : OTree α} (h : KeyC P) {d : ℕ} (hd : Depth P d) (v : ℕ → ℤ) (p : ℕ) :
    callPr (walk P v p).2 = ∏ i ∈ Finset.range d, gaussW 0 keySigma (v (p + i)) / ∑' j : ℤ, gaussW 0 keySigma j := by
  induction h generalizing d p with
  | ret a => cases hd; simp [walk, callPr]
  | call k _ ih =>
    cases hd with
    | call _ _ _ d hk =>
    have := ih (v p) (hk (v p)) (p + 1)
    rw [Finset.prod_range_succ', ← show ∏ i ∈ Finset.range d, gaussW 0 keySigma (v (p + 1 + i)) / ∑' j : ℤ, gaussW 0 keySigma j =
      ∏ i ∈ Finset.range d, gaussW 0 keySigma (v (p + (i + 1))) / ∑' j : ℤ, gaussW 0 keySigma j from
      Finset.prod_congr rfl fun i _ => by rw [show p + 1 + i = p + (i + 1) by omega], ← this]
    simp only [walk, callPr, List.map_cons, List.prod_cons, Nat.add_zero]
    ring

/-! ## gen_poly -/

/-- The sum of `k` answers. -/
noncomputable def coeffT : ℕ → ℤ → OTree ℤ
  | 0, r => .ret r
  | k + 1, r => .call 0 keySigma fun z => coeffT k (r + z)

/-- The polynomial. -/
noncomputable def polyT (k : ℕ) : ℕ → ℕ → Mem ℤ → OTree (Mem ℤ)
  | 0, _, p => .ret p
  | m + 1, i, p => (coeffT k 0).bind fun z => polyT k m (i + 1) (upd p i z)

/-- The pair. -/
noncomputable def pairT (n : ℕ) (f g : Mem ℤ) : OTree (Mem ℤ × Mem ℤ) :=
  (polyT (4096 / 2 ^ n) (2 ^ n) 0 f).bind fun f => (polyT (4096 / 2 ^ n) (2 ^ n) 0 g).bind fun g => .ret (f, g)

theorem keyC_coeffT (k : ℕ) (r : ℤ) : KeyC (coeffT k r) ∧ Depth (coeffT k r) k := by
  induction k generalizing r with
  | zero => exact ⟨.ret _, .ret _⟩
  | succ k ih => exact ⟨.call _ fun z => (ih _).1, .call _ _ _ _ fun z => (ih _).2⟩

theorem keyC_polyT (k m i : ℕ) (p : Mem ℤ) : KeyC (polyT k m i p) ∧ Depth (polyT k m i p) (k * m) := by
  induction m generalizing i p with
  | zero => exact ⟨.ret _, .ret _⟩
  | succ m ih =>
    rw [Nat.mul_succ, Nat.add_comm (k * m)]
    exact ⟨(keyC_coeffT k 0).1.bind fun z => (ih _ _).1, (keyC_coeffT k 0).2.bind fun z => (ih _ _).2⟩

theorem quarter {n : ℕ} (hn : ValidLog n) : 4096 / 2 ^ n * 2 ^ n = 4096 := by
  rcases hn with rfl | rfl <;> rfl

theorem keyC_pairT {n : ℕ} (hn : ValidLog n) (f g : Mem ℤ) : KeyC (pairT n f g) ∧ Depth (pairT n f g) 8192 := by
  have h := fun p => keyC_polyT (4096 / 2 ^ n) (2 ^ n) 0 p
  rw [quarter hn] at h
  exact ⟨(h f).1.bind fun f => (h g).1.bind fun g => .ret _, (h f).2.bind (e := 4096) fun f => (h g).2.bind (e := 0) fun g => .ret _⟩

theorem walk_bind (P : OTree α) (f : α → OTree β) (v : ℕ → ℤ) (p : ℕ) :
    (walk (bind P f) v p).1 = (walk (f (walk P v p).1) v (p + (walk P v p).2.length)).1 := by
  induction P generalizing p with
  | ret a => rfl
  | call mu sigma k ih =>
    simp only [bind, walk, List.length_cons, ih]
    rw [show p + 1 + (walk (k (v p)) v (p + 1)).2.length = p + ((walk (k (v p)) v (p + 1)).2.length + 1) by omega]

theorem walk_coeffT (k : ℕ) (r : ℤ) (v : ℕ → ℤ) (p : ℕ) :
    (walk (coeffT k r) v p).1 = r + ∑ j ∈ Finset.range k, v (p + j) := by
  induction k generalizing r p with
  | zero => simp [coeffT, walk]
  | succ k ih =>
    simp only [coeffT, walk, ih]
    rw [Finset.sum_range_succ']
    simp only [Nat.add_zero, Nat.add_assoc, Nat.add_comm 1]
    ring

theorem walk_polyT (k m i : ℕ) (q : Mem ℤ) (v : ℕ → ℤ) (p : ℕ) (x : ℕ) :
    (walk (polyT k m i q) v p).1 x = if i ≤ x ∧ x < i + m then ∑ j ∈ Finset.range k, v (p + k * (x - i) + j) else q x := by
  induction m generalizing i q p with
  | zero => simp only [polyT, walk]; rw [if_neg (by omega)]
  | succ m ih =>
    rw [polyT, walk_bind, walk_length (keyC_coeffT k 0).2, walk_coeffT, ih, zero_add]
    by_cases hx : x = i
    · subst hx
      rw [if_neg (by omega), if_pos (by omega), upd_same, Nat.sub_self, Nat.mul_zero, Nat.add_zero]
    · rw [upd_ne _ _ _ _ hx]
      by_cases hr : i + 1 ≤ x ∧ x < i + 1 + m
      · rw [if_pos hr, if_pos (by omega)]
        refine Finset.sum_congr rfl fun j _ => ?_
        congr 1
        obtain ⟨d, rfl⟩ : ∃ d, x = i + 1 + d := ⟨x - (i + 1), by omega⟩
        rw [show i + 1 + d - (i + 1) = d by omega, show i + 1 + d - i = d + 1 by omega]
        ring
      · rw [if_neg hr, if_neg (by omega)]

/-- The restriction to the coefficients of a polynomial. -/
def cut (n : ℕ) (p : Mem ℤ) : Fin (2 ^ n) → ℤ := fun i => p i

theorem walk_pairT {n : ℕ} (hn : ValidLog n) (f g : Mem ℤ) (v : ℕ → ℤ) :
    cut n (walk (pairT n f g) v 0).1.1 = sumPoly n v ∧ cut n (walk (pairT n f g) v 0).1.2 = sumPoly n (fun i => v (4096 + i)) := by
  have hd := fun p => (keyC_polyT (4096 / 2 ^ n) (2 ^ n) 0 p).2
  unfold pairT
  rw [walk_bind, walk_bind, walk_length (hd f), quarter hn]
  simp only [walk]
  constructor
  · funext i
    unfold cut sumPoly
    rw [walk_polyT, if_pos ⟨Nat.zero_le _, by have := i.2; omega⟩]
    simp
  · funext i
    unfold cut sumPoly
    rw [walk_polyT, if_pos ⟨Nat.zero_le _, by have := i.2; omega⟩]
    refine Finset.sum_congr rfl fun j _ => ?_
    rw [Nat.zero_add, Nat.sub_zero, Nat.add_assoc]

open Classical in
theorem gmean_pairT {n : ℕ} (hn : ValidLog n) (f g : Mem ℤ) (E : PairZ n → Prop) :
    gmean (pairT n f g) (fun a => if E (cut n a.1, cut n a.2) then 1 else 0) = pairPr n keySigma E := by
  obtain ⟨hC, hd⟩ := keyC_pairT hn f g
  have h := gmean_tape hd hC.pos (g := fun a => if E (cut n a.1, cut n a.2) then 1 else 0) (fun a => by split <;> norm_num)
    (fun a => by split <;> norm_num)
  rw [← h.tsum_eq]
  unfold pairPr
  refine tsum_congr fun v => ?_
  rw [hC.callPr_walk hd, (walk_pairT hn f g _).1, (walk_pairT hn f g _).2, Finset.prod_range]
  have : ∀ i : Fin 8192, tapeOf v (0 + i) = v i := fun i => by rw [Nat.zero_add, tapeOf_lt v i.2]
  simp only [this, mul_ite, mul_one, mul_zero]

theorem genCoeff_tree (fma : Bool) {n : ℕ} (hn : ValidLog n) (stream : ℕ → UInt8) (m : ℕ) : ∀ (k : ℕ) (r : ℤ) (p : ℕ), k ≤ 100 →
    |r| ≤ 19 * (100 - k) → genCoeff fma n stream m k r p = interp (codeLeaf fma n m stream) (coeffT k r) p := by
  intro k
  induction k with
  | zero => intro r p _ _; rfl
  | succ k ih =>
    intro r p hk hr
    simp only [genCoeff, coeffT, interp]
    unfold codeLeaf
    rcases C77_key_sampler fma hn stream m p with h | ⟨z, q, h, h1, h2⟩
    · rw [h]; rfl
    · rw [h]
      have hr' := abs_le.mp hr
      push_cast at hr'
      have hb : |r + z| ≤ 19 * (100 - k) := abs_le.mpr ⟨by linarith, by linarith⟩
      have hk' : (0 : ℤ) ≤ k := by positivity
      have hb' := abs_le.mp hb
      show (match i32 .strict (r + z) with
        | .error e => some (.error e)
        | .ok res => genCoeff fma n stream m k res q) = interp _ (coeffT k (r + z)) q
      have : i32 .strict (r + z) = .ok (r + z) := by
        unfold i32
        rw [if_pos (by omega)]
      rw [this]
      exact ih _ _ (by omega) hb

theorem genPoly_tree (fma : Bool) {n : ℕ} (hn : ValidLog n) (stream : ℕ → UInt8) (m : ℕ) (f : Mem ℤ) (p : ℕ) :
    genPoly fma n stream m f p = interp (codeLeaf fma n m stream) (polyT (4096 / 2 ^ n) (2 ^ n) 0 f) p := by
  have hk : 4096 / 2 ^ n ≤ 100 := by rcases hn with rfl | rfl <;> norm_num
  have h : ∀ (c i : ℕ) (f : Mem ℤ) (p : ℕ), genPolyLoop fma n stream m c i f p =
      interp (codeLeaf fma n m stream) (polyT (4096 / 2 ^ n) c i f) p := by
    intro c
    induction c with
    | zero => intro i f p; rfl
    | succ c ih =>
      intro i f p
      have e : (1 <<< n : ℕ) = 2 ^ n := by rw [Nat.one_shiftLeft]
      have hk' : ((4096 / 2 ^ n : ℕ) : ℤ) ≤ 100 := by exact_mod_cast hk
      simp only [genPolyLoop, polyT, interp_bind, e]
      rw [genCoeff_tree fma hn stream m _ 0 p hk (by rw [abs_zero]; linarith)]
      congr 1
      funext z
      exact ih _ _ _
  unfold genPoly
  rw [Nat.one_shiftLeft]
  exact h _ _ _ _

end OTree

/-- One round of `ntru_gen` after (f, g) is drawn; `none`: draw again. -/
noncomputable def keyStep (quot : RedQuot) (gs : Mem Int → Mem Int → Bool) (n m : ℕ) (s : Ntru) : Option (Option (Except UB Ntru)) :=
  if !isPolyInvertible n s.f then none else
  if gs s.f s.g then none else
  match ntruSolve quot m n (tapeOf (cut n s.f)) (tapeOf (cut n s.g)) with
  | none => some none
  | some (.error e) => some (some (.error e))
  | some (.ok none) => none
  | some (.ok (some (F, G))) => some (some (.ok { s with
      F := loop (2 ^ n) (fun i m => upd m i (narrow32 (getSi (F i)))) s.F
      G := loop (2 ^ n) (fun i m => upd m i (narrow32 (getSi (G i)))) s.G }))

/-- `ntru_gen` as a program reading bytes. -/
noncomputable def keyT (quot : RedQuot) (gs : Mem Int → Mem Int → Bool) (fma : Bool) (n m : ℕ) : ℕ → Ntru → BTree (Option (Except UB Ntru))
  | 0, _ => .ret none
  | R + 1, s => (ctree fma (sigmaMin n) m (pairT n s.f s.g)).bind fun
    | none => .ret none
    | some (.error e) => .ret (some (.error e))
    | some (.ok a) => match keyStep quot gs n m { s with f := a.1, g := a.2 } with
      | none => keyT quot gs fma n m R { s with f := a.1, g := a.2 }
      | some r => .ret r

theorem fill_cut (n : ℕ) (f : Mem ℤ) : loop (1 <<< n) (fun i m => upd m i (f i)) zerosZ = tapeOf (cut n f) := by
  funext i
  rw [loop_fill, Nat.one_shiftLeft]
  unfold tapeOf cut zerosZ
  split <;> rfl

theorem ntruGen_tree (quot : RedQuot) (gs : Mem Int → Mem Int → Bool) (fma : Bool) {n : ℕ} (hn : ValidLog n) (stream : ℕ → UInt8) (m : ℕ) :
    ∀ (R : ℕ) (s : Ntru) (p : ℕ), ntruGen quot gs fma n stream m R s p =
      ((keyT quot gs fma n m R s).run stream p).1.map fun e => e.map fun a => (a, ((keyT quot gs fma n m R s).run stream p).2) := by
  intro R
  induction R with
  | zero => intro s p; rfl
  | succ R ih =>
    intro s p
    have e : ntruGen quot gs fma n stream m (R + 1) s p = bindO (interp (codeLeaf fma n m stream) (pairT n s.f s.g) p) fun r =>
        match keyStep quot gs n m { s with f := r.1.1, g := r.1.2 } with
        | none => ntruGen quot gs fma n stream m R { s with f := r.1.1, g := r.1.2 } r.2
        | some o => o.map fun (e : Except UB Ntru) => e.map fun a => (a, r.2) := by
      simp only [ntruGen, genPoly_tree fma hn, pairT, interp_bind, interp, bindO_assoc]
      congr 1
      funext fp
      congr 1
      funext gp
      show _ = match keyStep quot gs n m { s with f := fp.1, g := gp.1 } with
        | none => ntruGen quot gs fma n stream m R { s with f := fp.1, g := gp.1 } gp.2
        | some o => o.map fun (e : Except UB Ntru) => e.map fun a => (a, gp.2)
      simp only [fill_cut, keyStep]
      cases isPolyInvertible n fp.1 with
      | false => simp
      | true =>
        cases gs fp.1 gp.1 with
        | true => simp
        | false =>
          simp only [Bool.not_true, Bool.false_eq_true, if_false, Nat.one_shiftLeft]
          match ntruSolve quot m n (tapeOf (cut n fp.1)) (tapeOf (cut n gp.1)) with
          | none => rfl
          | some (.error e) => rfl
          | some (.ok none) => rfl
          | some (.ok (some (F, G))) => rfl
    rw [e, interp_ctree, keyT, BTree.run_bind]
    generalize BTree.run (ctree fma (sigmaMin n) m (pairT n s.f s.g)) stream p = x
    obtain ⟨x, q⟩ := x
    match x with
    | none => rfl
    | some (.error e) => rfl
    | some (.ok a) =>
      show (match keyStep quot gs n m { s with f := a.1, g := a.2 } with
        | none => ntruGen quot gs fma n stream m R { s with f := a.1, g := a.2 } q
        | some o => o.map fun (e : Except UB Ntru) => e.map fun a => (a, q)) = _
      simp only
      cases keyStep quot gs n m { s with f := a.1, g := a.2 } with
      | none => exact ih _ _
      | some o => rfl

theorem depth_keyT (quot : RedQuot) (gs : Mem Int → Mem Int → Bool) (fma : Bool) {n : ℕ} (hn : ValidLog n) (m R : ℕ) (s : Ntru) :
    (keyT quot gs fma n m R s).Depth (18 * m * 8192 * R) := by
  induction R generalizing s with
  | zero => exact .ret _ _
  | succ R ih =>
    rw [Nat.mul_succ, Nat.add_comm (18 * m * 8192 * R), keyT]
    refine BTree.Depth.bind (depth_ctree _ _ _ (keyC_pairT hn _ _).2) fun x => ?_
    match x with
    | none => exact .ret _ _
    | some (.error e) => exact .ret _ _
    | some (.ok a) =>
      simp only
      cases keyStep quot gs n m { s with f := a.1, g := a.2 } with
      | none => exact ih _
      | some o => exact .ret _ _

open Classical in
/-- One draw of the code against the ideal one. -/
theorem pair_dist (fma : Bool) {n : ℕ} (hn : ValidLog n) (m : ℕ) (f g : Mem ℤ) (E : PairZ n → Prop) :
    |(ctree fma (sigmaMin n) m (pairT n f g)).mean (fun x => if ∃ a : Mem ℤ × Mem ℤ, x = some (.ok a) ∧ E (cut n a.1, cut n a.2) then 1 else 0)
      - pairPr n keySigma E| ≤ 8192 * (1 / 2 ^ 38 + 1 / 2 ^ m) := by
  obtain ⟨hC, hd⟩ := keyC_pairT hn f g
  rw [← gmean_pairT hn f g]
  have h := ctree_mean_key fma hn m hd hC (g := fun a => if E (cut n a.1, cut n a.2) then 1 else 0) (fun a => by split <;> norm_num)
    (fun a => by split <;> norm_num) (G := fun x => if ∃ a : Mem ℤ × Mem ℤ, x = some (.ok a) ∧ E (cut n a.1, cut n a.2) then 1 else 0)
    (fun a => by
      have : (∃ a' : Mem ℤ × Mem ℤ, (some (Except.ok a) : Option (Except UB (Mem ℤ × Mem ℤ))) = some (.ok a') ∧ E (cut n a'.1, cut n a'.2)) ↔
          E (cut n a.1, cut n a.2) := by
        constructor
        · rintro ⟨a', ha, h⟩
          rwa [Except.ok.inj (Option.some.inj ha)]
        · exact fun h => ⟨a, rfl, h⟩
      simp only [this]) (fun a => by split <;> norm_num) (fun a => by split <;> norm_num)
  push_cast at h
  exact h

theorem pairPr_mem {n : ℕ} (hn : ValidLog n) (E : PairZ n → Prop) : 0 ≤ pairPr n keySigma E ∧ pairPr n keySigma E ≤ 1 := by
  classical
  rw [← gmean_pairT hn (fun _ => 0) (fun _ => 0)]
  exact gmean_mem (keyC_pairT hn _ _).1.pos (fun a => by split <;> norm_num) (fun a => by split <;> norm_num)

theorem pairPr_disjoint {n : ℕ} (hn : ValidLog n) {E E' : PairZ n → Prop} (h : ∀ s, E s → ¬ E' s) :
    pairPr n keySigma E + pairPr n keySigma E' ≤ 1 := by
  classical
  have hC := (keyC_pairT hn (fun _ => 0) (fun _ => 0)).1.pos
  have hd := (keyC_pairT hn (fun _ => 0) (fun _ => 0)).2
  rw [← gmean_pairT hn (fun _ => 0) (fun _ => 0), ← gmean_pairT hn (fun _ => 0) (fun _ => 0)]
  have h1 := gmean_tape hd hC (g := fun a => if E (cut n a.1, cut n a.2) then 1 else 0) (fun a => by split <;> norm_num)
    (fun a => by split <;> norm_num)
  have h2 := gmean_tape hd hC (g := fun a => if E' (cut n a.1, cut n a.2) then 1 else 0) (fun a => by split <;> norm_num)
    (fun a => by split <;> norm_num)
  have h3 := gmean_tape hd hC (g := fun _ => 1) (fun a => zero_le_one) (fun a => le_rfl)
  rw [gmean_one hC] at h3
  refine hasSum_le (fun v => ?_) (h1.add h2) h3
  have hc0 : ∀ l : List Call, 0 ≤ callPr l := fun l => List.prod_nonneg (by
    intro x hx
    obtain ⟨c, -, rfl⟩ := List.mem_map.mp hx
    exact div_nonneg (Real.exp_pos _).le (tsum_nonneg fun _ => (Real.exp_pos _).le))
  rw [← mul_add]
  refine mul_le_mul_of_nonneg_left ?_ (hc0 _)
  by_cases e : E (cut n (walk (pairT n (fun _ => 0) (fun _ => 0)) (tapeOf v) 0).1.1, cut n (walk (pairT n (fun _ => 0) (fun _ => 0)) (tapeOf v) 0).1.2)
  · simp [e, h _ e]
  · simp only [e, if_false, zero_add]
    split <;> norm_num

theorem retry_mem {y s : ℝ} (hy : 0 ≤ y) (hs : 0 ≤ s) (h : y + s ≤ 1) (R : ℕ) : 0 ≤ retryPr R s y ∧ retryPr R s y ≤ 1 := by
  induction R with
  | zero => simp [retryPr]
  | succ R ih =>
    have e : retryPr (R + 1) s y = y + s * retryPr R s y := by
      unfold retryPr
      rw [Finset.sum_range_succ', Finset.mul_sum, add_comm]
      simp only [pow_zero, one_mul]
      congr 1
      exact Finset.sum_congr rfl fun i _ => by ring
    rw [e]
    exact ⟨by nlinarith [mul_nonneg hs ih.1], by nlinarith [mul_le_mul_of_nonneg_left ih.2 hs]⟩

theorem retry_succ (R : ℕ) (s y : ℝ) : retryPr (R + 1) s y = y + s * retryPr R s y := by
  unfold retryPr
  rw [Finset.sum_range_succ', Finset.mul_sum, add_comm]
  simp only [pow_zero, one_mul]
  congr 1
  exact Finset.sum_congr rfl fun i _ => by ring

theorem tape_cut (n : ℕ) (f : Mem ℤ) : ∀ i, i < 2 ^ n → f i = tapeOf (cut n f) i := fun i hi => by
  rw [tapeOf_lt _ hi]; rfl

theorem keyStep_cases {quot : RedQuot} {gs : Mem Int → Mem Int → Bool} {n : ℕ}
    (hgs : ∀ f g f' g', (∀ i, i < 2 ^ n → f i = f' i) → (∀ i, i < 2 ^ n → g i = g' i) → gs f g = gs f' g') (m : ℕ) (s : Ntru) :
    (KeyAgain quot gs m n (cut n s.f, cut n s.g) ∧ ¬ KeyDone quot gs m n (cut n s.f, cut n s.g) ∧ keyStep quot gs n m s = none) ∨
    (¬ KeyAgain quot gs m n (cut n s.f, cut n s.g) ∧ KeyDone quot gs m n (cut n s.f, cut n s.g) ∧
      ∃ F G, keyStep quot gs n m s = some (some (.ok { s with F := F, G := G }))) ∨
    (¬ KeyAgain quot gs m n (cut n s.f, cut n s.g) ∧ ¬ KeyDone quot gs m n (cut n s.f, cut n s.g) ∧
      ∃ r, keyStep quot gs n m s = some r ∧ ∀ a, r ≠ some (.ok a)) := by
  have i1 : isPolyInvertible n s.f = isPolyInvertible n (tapeOf (cut n s.f)) := isPolyInvertible_congr n (tape_cut n s.f)
  have i2 : gs s.f s.g = gs (tapeOf (cut n s.f)) (tapeOf (cut n s.g)) := hgs _ _ _ _ (tape_cut n s.f) (tape_cut n s.g)
  simp only [keyStep, i1, i2, KeyDone, KeyAgain]
  cases c1 : isPolyInvertible n (tapeOf (cut n s.f)) with
  | false => simp
  | true =>
    cases c2 : gs (tapeOf (cut n s.f)) (tapeOf (cut n s.g)) with
    | true => simp
    | false =>
      match c3 : ntruSolve quot m n (tapeOf (cut n s.f)) (tapeOf (cut n s.g)) with
      | none => simp
      | some (.error e) => simp
      | some (.ok none) => simp
      | some (.ok (some (F, G))) => simp

theorem key_combine {X D Ag Y A S δ ε : ℝ} (h : |X - (D + S * Ag)| ≤ ε) (h1 : |Ag - A| ≤ δ) (h2 : |D - Y| ≤ δ) (h0 : 0 ≤ S) (hS : S ≤ 1) :
    |X - (Y + A * S)| ≤ ε + 2 * δ := by
  have e : X - (Y + A * S) = (X - (D + S * Ag)) + (D - Y) + S * (Ag - A) := by ring
  have h3 : |S * (Ag - A)| ≤ δ := by
    rw [abs_mul, abs_of_nonneg h0]
    nlinarith [abs_nonneg (Ag - A)]
  rw [e]
  refine (abs_add_le _ _).trans ?_
  have := abs_add_le (X - (D + S * Ag)) (D - Y)
  linarith

open Classical in
/-- The law of `ntru_gen`. -/
theorem key_mean {quot : RedQuot} {gs : Mem Int → Mem Int → Bool} (fma : Bool) {n : ℕ} (hn : ValidLog n)
    (hgs : ∀ f g f' g', (∀ i, i < 2 ^ n → f i = f' i) → (∀ i, i < 2 ^ n → g i = g' i) → gs f g = gs f' g') (m : ℕ)
    (E : PairZ n → Prop) (R : ℕ) (s : Ntru) :
    |(keyT quot gs fma n m R s).mean (fun x => if ∃ a : Ntru, x = some (.ok a) ∧ E (cut n a.f, cut n a.g) then 1 else 0)
      - retryPr R (pairPr n keySigma (KeyAgain quot gs m n)) (pairPr n keySigma (fun s => KeyDone quot gs m n s ∧ E s))|
      ≤ 2 * R * (8192 * (1 / 2 ^ 38 + 1 / 2 ^ m)) := by
  have hδ : (0 : ℝ) ≤ 8192 * (1 / 2 ^ 38 + 1 / 2 ^ m) := by positivity
  generalize hδe : (8192 * (1 / 2 ^ 38 + 1 / 2 ^ m) : ℝ) = δ at *
  have ha := pairPr_mem hn (KeyAgain quot gs m n)
  have hy := pairPr_mem hn (fun s => KeyDone quot gs m n s ∧ E s)
  have hdis := pairPr_disjoint hn (E := fun s => KeyDone quot gs m n s ∧ E s) (E' := KeyAgain quot gs m n) (by
    rintro s ⟨⟨h1, h2, FG, h3⟩, -⟩ (h | h | h)
    · rw [h1] at h; cases h
    · rw [h2] at h; cases h
    · rw [h3] at h; cases h)
  induction R generalizing s with
  | zero =>
    simp [keyT, BTree.mean, retryPr]
  | succ R ih =>
    rw [retry_succ, keyT, BTree.mean_bind]
    have d1 := pair_dist fma hn m s.f s.g (KeyAgain quot gs m n)
    have d2 := pair_dist fma hn m s.f s.g (fun s => KeyDone quot gs m n s ∧ E s)
    rw [hδe] at d1 d2
    generalize pairPr n keySigma (KeyAgain quot gs m n) = A at *
    generalize pairPr n keySigma (fun s => KeyDone quot gs m n s ∧ E s) = Y at *
    have hS := retry_mem hy.1 ha.1 hdis R
    generalize retryPr R A Y = S at *
    set t := ctree fma (sigmaMin n) m (pairT n s.f s.g) with ht
    have hdt : t.Depth (18 * m * 8192) := depth_ctree _ _ _ (keyC_pairT hn _ _).2
    have key := mean_dist hdt (g := fun x => BTree.mean (match x with
        | none => BTree.ret none
        | some (.error e) => .ret (some (.error e))
        | some (.ok a) => match keyStep quot gs n m { s with f := a.1, g := a.2 } with
          | none => keyT quot gs fma n m R { s with f := a.1, g := a.2 }
          | some r => .ret r) (fun x => if ∃ a : Ntru, x = some (.ok a) ∧ E (cut n a.f, cut n a.g) then 1 else 0))
      (h := fun x => (if ∃ a : Mem ℤ × Mem ℤ, x = some (.ok a) ∧ KeyDone quot gs m n (cut n a.1, cut n a.2) ∧ E (cut n a.1, cut n a.2) then 1 else 0) +
        S * (if ∃ a : Mem ℤ × Mem ℤ, x = some (.ok a) ∧ KeyAgain quot gs m n (cut n a.1, cut n a.2) then 1 else 0))
      (δ := 2 * R * δ) (fun st => by
        have hε : (0 : ℝ) ≤ 2 * R * δ := by positivity
        generalize (t.run st 0).1 = x
        match x with
        | none =>
          have h1 : ∀ Q : Mem ℤ × Mem ℤ → Prop, ¬ ∃ a, (none : Option (Except UB (Mem ℤ × Mem ℤ))) = some (.ok a) ∧ Q a := by
            rintro Q ⟨a, h, -⟩; cases h
          have h2 : ¬ ∃ a : Ntru, (none : Option (Except UB Ntru)) = some (.ok a) ∧ E (cut n a.f, cut n a.g) := by rintro ⟨a, h, -⟩; cases h
          simp only [BTree.mean, h1 (fun a => KeyDone quot gs m n (cut n a.1, cut n a.2) ∧ E (cut n a.1, cut n a.2)),
            h1 (fun a => KeyAgain quot gs m n (cut n a.1, cut n a.2)), h2, if_false, mul_zero, add_zero, sub_zero, abs_zero]
          exact hε
        | some (.error e) =>
          have h1 : ∀ Q : Mem ℤ × Mem ℤ → Prop, ¬ ∃ a, (some (.error e) : Option (Except UB (Mem ℤ × Mem ℤ))) = some (.ok a) ∧ Q a := by
            rintro Q ⟨a, h, -⟩; cases h
          have h2 : ¬ ∃ a : Ntru, (some (.error e) : Option (Except UB Ntru)) = some (.ok a) ∧ E (cut n a.f, cut n a.g) := by rintro ⟨a, h, -⟩; cases h
          simp only [BTree.mean, h1 (fun a => KeyDone quot gs m n (cut n a.1, cut n a.2) ∧ E (cut n a.1, cut n a.2)),
            h1 (fun a => KeyAgain quot gs m n (cut n a.1, cut n a.2)), h2, if_false, mul_zero, add_zero, sub_zero, abs_zero]
          exact hε
        | some (.ok a) =>
          have h1 : ∀ Q : Mem ℤ × Mem ℤ → Prop, (∃ a', (some (.ok a) : Option (Except UB (Mem ℤ × Mem ℤ))) = some (.ok a') ∧ Q a') ↔ Q a :=
            fun Q => ⟨fun ⟨a', h, hq⟩ => by rwa [Except.ok.inj (Option.some.inj h)], fun h => ⟨a, rfl, h⟩⟩
          simp only [h1 (fun a => KeyDone quot gs m n (cut n a.1, cut n a.2) ∧ E (cut n a.1, cut n a.2)),
            h1 (fun a => KeyAgain quot gs m n (cut n a.1, cut n a.2))]
          rcases keyStep_cases (quot := quot) hgs m { s with f := a.1, g := a.2 } with ⟨h, h', e⟩ | ⟨h, h', F, G, e⟩ | ⟨h, h', r, e, hr⟩
          · simp only [e]
            simp only [h, h', false_and, if_false, if_true, mul_one, zero_add]
            exact ih _
          · simp only [e]
            simp only [h, h', true_and, if_false, mul_zero, add_zero, BTree.mean, Option.some.injEq, Except.ok.injEq, exists_eq_left', sub_self, abs_zero]
            exact hε
          · simp only [e]
            have h3 : ¬ ∃ a : Ntru, r = some (.ok a) ∧ E (cut n a.f, cut n a.g) := fun ⟨a, ha, _⟩ => hr a ha
            simp only [h, h', h3, false_and, if_false, mul_zero, add_zero, BTree.mean, sub_self, abs_zero]
            exact hε)
    rw [BTree.mean_add, BTree.mean_smul] at key
    exact (key_combine key d1 d2 hS.1 hS.2).trans (le_of_eq (by push_cast; ring))

end Falcon
