import Verif.SphericalSpec
import Verif.Proofs.Basis
import Verif.Proofs.NtruAlg

/-!
# Fast Fourier sampling adds up the spread of its calls
-/

namespace Falcon

open Finset

/-! ### Calls -/

theorem Calls.append {S : Type} {leaf : LeafSampler ℝ S} {s s' s'' : S} {l l' : List Call}
    (h : Calls leaf s l s') (h' : Calls leaf s' l' s'') : Calls leaf s (l ++ l') s'' := by
  induction h with
  | nil => exact h'
  | cons h0 _ ih => exact .cons h0 (ih h')

theorem spread_append (l l' : List Call) : spread (l ++ l') = spread l + spread l' := by
  unfold spread; rw [List.map_append, List.sum_append]

theorem widths_append (l l' : List Call) : widths (l ++ l') = widths l * widths l' := by
  unfold widths; rw [List.map_append, List.prod_append]

theorem Calls.log {S : Type} {leaf : LeafSampler ℝ S} {s s' : S × List Call} {l : List Call}
    (h : Calls (logged leaf) s l s') : s'.2 = s.2 ++ l ∧ Calls leaf s.1 l s'.1 := by
  induction h with
  | nil => exact ⟨(List.append_nil _).symm, .nil _⟩
  | @cons s s1 s2 c l h0 _ ih =>
    unfold logged at h0
    obtain ⟨r, hr, h0⟩ := bindO_ok h0
    obtain ⟨e1, e2⟩ := Prod.mk.inj (Except.ok.inj (Option.some.inj h0))
    rw [← e2] at ih
    refine ⟨?_, .cons (s' := r.2) ?_ ih.2⟩
    · rw [ih.1, e1]; simp
    · rw [hr, ← e1]

theorem prod_range_two {M : Type} [CommMonoid M] (m : ℕ) (g : ℕ → M) :
    ∏ i ∈ range (2 * m), g i = ∏ i ∈ range m, (g (2 * i) * g (2 * i + 1)) := by
  induction m with
  | zero => simp
  | succ m ih =>
    rw [show 2 * (m + 1) = 2 * m + 1 + 1 by ring, prod_range_succ, prod_range_succ, ih, prod_range_succ, mul_assoc]

/-- Forget the record. -/
def forget {C S : Type} (x : Option (Except UB (Mem C × Mem C × S × List Call))) :
    Option (Except UB (Mem C × Mem C × S)) := bindO x fun r => some (.ok (r.1, r.2.1, r.2.2.1))

theorem forget_bind {C S α β : Type} {X : Option (Except UB α)} {Y : Option (Except UB β)} {p : α → β}
    {f' : α → Option (Except UB (Mem C × Mem C × S × List Call))} {f : β → Option (Except UB (Mem C × Mem C × S))}
    (h : bindO X (fun a => some (.ok (p a))) = Y) (hf : ∀ a, forget (f' a) = f (p a)) :
    forget (bindO X f') = bindO Y f := by
  match X with
  | none => subst h; rfl
  | some (.error e) => subst h; rfl
  | some (.ok a) => subst h; exact hf a

/-- Keeping a record does not change the run. -/
theorem ffSampling_logged {C S : Type} (A : Arith ℝ C) (leaf : LeafSampler ℝ S) : ∀ (k level : ℕ)
    (t0 t1 T z0 z1 : Mem C) (s : S) (l : List Call),
    forget (ffSampling A (logged leaf) k level t0 t1 T z0 z1 (s, l)) = ffSampling A leaf k level t0 t1 T z0 z1 s := by
  have hleaf : ∀ mu sigma (x : S × List Call), bindO (logged leaf mu sigma x) (fun r => some (.ok (r.1, r.2.1)))
      = leaf mu sigma x.1 := by
    intro mu sigma x
    unfold logged
    match leaf mu sigma x.1 with
    | none => rfl
    | some (.error e) => rfl
    | some (.ok r) => rfl
  intro k
  induction k with
  | zero =>
    intro level t0 t1 T z0 z1 s l
    unfold ffSampling
    refine forget_bind (p := fun r => (r.1, r.2.1)) (hleaf _ _ (s, l)) fun a => ?_
    exact forget_bind (p := fun r => (r.1, r.2.1)) (hleaf _ _ a.2) fun b => rfl
  | succ k ih =>
    intro level t0 t1 T z0 z1 s l
    unfold ffSampling
    refine forget_bind (p := fun r : Mem C × Mem C × S × List Call => (r.1, r.2.1, r.2.2.1))
      (ih _ _ _ _ _ _ s l) fun a => ?_
    exact forget_bind (p := fun r : Mem C × Mem C × S × List Call => (r.1, r.2.1, r.2.2.1))
      (ih _ _ _ _ _ _ a.2.2.1 a.2.2.2) fun b => rfl

theorem logged_ok {C S : Type} {x : Option (Except UB (Mem C × Mem C × S × List Call))} {r : Mem C × Mem C × S}
    (h : forget x = some (.ok r)) : ∃ l, x = some (.ok (r.1, r.2.1, r.2.2, l)) := by
  obtain ⟨a, ha, h⟩ := bindO_ok h
  have h := Except.ok.inj (Option.some.inj h)
  subst h
  exact ⟨a.2.2.2, ha⟩

/-! ### Transforms of real polynomials -/

theorem cT_compl {k : ℕ} (hk : k + 1 ≤ 10) (i : ℕ) (hi : i < 2 ^ k) :
    cT (2 ^ k + (2 ^ k - 1 - i)) = -(starRingEnd ℂ) (cT (2 ^ k + i)) := by
  have hp : 2 ^ (k + 1) = 2 * 2 ^ k := by rw [pow_succ]; ring
  have h := fftPoint_compl (k + 1) (2 * i) (by omega)
  rw [show 2 ^ (k + 1) - 1 - 2 * i = 2 * (2 ^ k - 1 - i) + 1 by omega, fftPoint_odd hk _ (by omega),
    fftPoint_even hk i hi] at h
  rw [← h, neg_neg]

theorem sym_pairs {k : ℕ} {a : Mem ℂ} (h : ConjSym (k + 1) a) (i : ℕ) (hi : i < 2 ^ k) :
    a (2 * (2 ^ k - 1 - i)) = (starRingEnd ℂ) (a (2 * i + 1)) ∧
    a (2 * (2 ^ k - 1 - i) + 1) = (starRingEnd ℂ) (a (2 * i)) := by
  have hp : 2 ^ (k + 1) = 2 * 2 ^ k := by rw [pow_succ]; ring
  constructor
  · rw [← h (2 * i + 1) (by omega)]; congr 1; omega
  · rw [← h (2 * i) (by omega)]; congr 1; omega

theorem sym_split {k : ℕ} (hk : k + 1 ≤ 10) {a : Mem ℂ} (h : ConjSym (k + 1) a) :
    ConjSym k (splitS exactA k a).1 ∧ ConjSym k (splitS exactA k a).2 := by
  constructor
  · intro i hi
    obtain ⟨h1, h2⟩ := sym_pairs h i hi
    rw [splitS_fst, splitS_fst, h1, h2, map_div₀, map_add, map_ofNat, add_comm]
  · intro i hi
    obtain ⟨h1, h2⟩ := sym_pairs h i hi
    rw [splitS_snd, splitS_snd, h1, h2, cT_compl hk i hi, map_mul, map_div₀, map_sub, map_neg, Complex.conj_conj,
      map_ofNat]
    ring

theorem mergeS_even (k : ℕ) (f0 f1 : Mem ℂ) (i : ℕ) :
    mergeS exactA k f0 f1 (2 * i) = f0 i + f1 i * cT (2 ^ k + i) := by
  unfold mergeS
  rw [if_pos (by omega), show 2 * i / 2 = i by omega, exact_tab]
  rfl

theorem mergeS_odd (k : ℕ) (f0 f1 : Mem ℂ) (i : ℕ) :
    mergeS exactA k f0 f1 (2 * i + 1) = f0 i - f1 i * cT (2 ^ k + i) := by
  unfold mergeS
  rw [if_neg (by omega), show (2 * i + 1) / 2 = i by omega, exact_tab]
  rfl

theorem sym_merge {k : ℕ} (hk : k + 1 ≤ 10) {f0 f1 : Mem ℂ} (h0 : ConjSym k f0) (h1 : ConjSym k f1) :
    ConjSym (k + 1) (mergeS exactA k f0 f1) := by
  have hp : 2 ^ (k + 1) = 2 * 2 ^ k := by rw [pow_succ]; ring
  intro j hj
  have hc := fun i hi => cT_compl hk i hi
  rcases Nat.even_or_odd' j with ⟨i, rfl | rfl⟩
  · rw [show 2 ^ (k + 1) - 1 - 2 * i = 2 * (2 ^ k - 1 - i) + 1 by omega, mergeS_odd, mergeS_even,
      h0 i (by omega), h1 i (by omega), hc i (by omega), map_add, map_mul]
    ring
  · rw [show 2 ^ (k + 1) - 1 - (2 * i + 1) = 2 * (2 ^ k - 1 - i) by omega, mergeS_odd, mergeS_even,
      h0 i (by omega), h1 i (by omega), hc i (by omega), map_sub, map_mul]
    ring

/-! ### One node -/

/-- What is shown for the tree `t` below a diagonal entry with values `r` at the 2^(k+1) points: sampling the
halves of `e` leaves a vector whose squared length, weighted by `r`, is the spread of the calls. -/
def Spread {S : Type} (leaf : LeafSampler ℝ S) (sigma : ℝ) (k : ℕ) (t : FTree ℂ) (r : ℕ → ℝ) : Prop :=
  ∀ (e : Mem ℂ) (s : S) (w : Mem ℂ × Mem ℂ × S), ConjSym (k + 1) e →
    sampleTree exactA leaf k (t.mapLeaves (normLeaf exactA sigma)) (splitS exactA k e).1 (splitS exactA k e).2 s
      = some (.ok w) →
    ∃ l, Calls leaf s l w.2.2 ∧ l.length = 2 ^ (k + 1) ∧ ConjSym (k + 1) (mergeS exactA k w.1 w.2.1) ∧
      ∑ i ∈ range (2 ^ (k + 1)), r i * Complex.normSq (e i - mergeS exactA k w.1 w.2.1 i)
        = 2 ^ (k + 1) * (sigma ^ 2 * spread l) ∧
      (∀ c ∈ l, ∃ v ∈ t.leaves, c.sigma = sigma / Real.sqrt v.re) ∧
      widths l ^ 2 * ∏ i ∈ range (2 ^ (k + 1)), r i = sigma ^ (2 * 2 ^ (k + 1))

theorem node_spread {S : Type} {leaf : LeafSampler ℝ S} {sigma : ℝ} {k : ℕ} {L R : FTree ℂ} {r0 r1 : ℕ → ℝ}
    {l : Mem ℂ} (hL : Spread leaf sigma k L r0) (hR : Spread leaf sigma k R r1) (hl : ConjSym (k + 1) l)
    (t0 t1 : Mem ℂ) (h0 : ConjSym (k + 1) t0) (h1 : ConjSym (k + 1) t1) (s : S) (w : Mem ℂ × Mem ℂ × S)
    (h : sampleTree exactA leaf (k + 1) ((FTree.node l L R).mapLeaves (normLeaf exactA sigma)) t0 t1 s
      = some (.ok w)) :
    ∃ c, Calls leaf s c w.2.2 ∧ c.length = 2 ^ (k + 2) ∧ ConjSym (k + 1) w.1 ∧ ConjSym (k + 1) w.2.1 ∧
      ∑ i ∈ range (2 ^ (k + 1)), (r0 i * Complex.normSq (t0 i - w.1 i + (t1 i - w.2.1 i) * l i)
        + r1 i * Complex.normSq (t1 i - w.2.1 i)) = 2 ^ (k + 1) * (sigma ^ 2 * spread c) ∧
      (∀ x ∈ c, ∃ v ∈ (FTree.node l L R).leaves, x.sigma = sigma / Real.sqrt v.re) ∧
      widths c ^ 2 * ∏ i ∈ range (2 ^ (k + 1)), r0 i * r1 i = sigma ^ (2 * 2 ^ (k + 2)) := by
  unfold FTree.mapLeaves sampleTree at h
  simp only [Nat.add_sub_cancel] at h
  obtain ⟨zr, hr, h⟩ := bindO_ok h
  obtain ⟨zl, hl', h⟩ := bindO_ok h
  have h := Except.ok.inj (Option.some.inj h)
  obtain ⟨c1, a1, a2, a3, a4, a5, a6⟩ := hR t1 s zr h1 hr
  have hsym : ConjSym (k + 1)
      (fun i => exactA.cadd (t0 i) (exactA.cmul (exactA.csub (t1 i) (mergeS exactA k zr.1 zr.2.1 i)) (l i))) := by
    intro i hi
    show t0 _ + (t1 _ - mergeS exactA k zr.1 zr.2.1 _) * l _ = (starRingEnd ℂ) (t0 i
      + (t1 i - mergeS exactA k zr.1 zr.2.1 i) * l i)
    rw [h0 i hi, h1 i hi, a3 i hi, hl i hi, map_add, map_mul, map_sub]
  obtain ⟨c0, b1, b2, b3, b4, b5, b6⟩ := hL _ zr.2.2 zl hsym hl'
  subst h
  refine ⟨c1 ++ c0, a1.append b1, ?_, b3, a3, ?_, ?_, ?_⟩
  · rw [List.length_append, a2, b2]; ring
  · rw [sum_add_distrib, spread_append, a4]
    rw [show ∑ i ∈ range (2 ^ (k + 1)), r0 i * Complex.normSq (t0 i - mergeS exactA k zl.1 zl.2.1 i
        + (t1 i - mergeS exactA k zr.1 zr.2.1 i) * l i)
        = 2 ^ (k + 1) * (sigma ^ 2 * spread c0) from ?_]
    · ring
    rw [← b4]
    apply sum_congr rfl
    intro i _
    congr 2
    show _ = t0 i + (t1 i - mergeS exactA k zr.1 zr.2.1 i) * l i - _
    ring
  · intro x hx
    rw [FTree.leaves]
    rcases List.mem_append.mp hx with hx | hx
    · obtain ⟨v, hv, e⟩ := a5 x hx
      exact ⟨v, List.mem_append.mpr (Or.inr hv), e⟩
    · obtain ⟨v, hv, e⟩ := b5 x hx
      exact ⟨v, List.mem_append.mpr (Or.inl hv), e⟩
  · rw [widths_append, prod_mul_distrib, show (2 : ℕ) * 2 ^ (k + 2) = 2 * 2 ^ (k + 1) + 2 * 2 ^ (k + 1) by ring,
      pow_add sigma]
    linear_combination (widths c0 ^ 2 * ∏ i ∈ range (2 ^ (k + 1)), r0 i) * a6 + sigma ^ (2 * 2 ^ (k + 1)) * b6

/-! ### The values of the decomposition -/

theorem diag_vals {k : ℕ} (hk : k + 1 ≤ 10) {d e0 e1 l d0 d1 : Mem ℂ} (hs : IsSplit k d e0 e1)
    (hl : IsLdl (2 ^ k) e0 e1 (starM e1) e0 l d0 d1) {r : ℕ → ℝ} (hd : ∀ i, i < 2 ^ (k + 1) → d i = r i)
    (hpos : ∀ i, i < 2 ^ (k + 1) → 0 < r i) (i : ℕ) (hi : i < 2 ^ k) :
    d0 i = ((r (2 * i) + r (2 * i + 1)) / 2 : ℝ) ∧
    d1 i = (2 * r (2 * i) * r (2 * i + 1) / (r (2 * i) + r (2 * i + 1)) : ℝ) ∧
    l i = ((r (2 * i) - r (2 * i + 1)) / (r (2 * i) + r (2 * i + 1)) : ℝ) * cT (2 ^ k + i) := by
  have hp : 2 ^ (k + 1) = 2 * 2 ^ k := by rw [pow_succ]; ring
  obtain ⟨s1, s2⟩ := hs i hi
  obtain ⟨_, _, l1, l2, l3, l4⟩ := hl i hi
  have p1 := hpos (2 * i) (by omega)
  have p2 := hpos (2 * i + 1) (by omega)
  rw [fftPoint_even hk i hi, hd _ (by omega)] at s1
  rw [fftPoint_odd hk i hi, hd _ (by omega)] at s2
  have hc := cT_conj (2 ^ k + i)
  generalize cT (2 ^ k + i) = w at *
  generalize r (2 * i) = a at *
  generalize r (2 * i + 1) = b at *
  have he0 : e0 i = ((a + b) / 2 : ℝ) := by push_cast; linear_combination -(s1 + s2) / 2
  have he1 : e1 i = ((a - b) / 2 : ℝ) * (starRingEnd ℂ) w := by
    push_cast; linear_combination (-(s1 - s2) / 2) * (starRingEnd ℂ) w - e1 i * hc
  have hd0 : d0 i = ((a + b) / 2 : ℝ) := by rw [← l1, he0]
  have hs0 : (a : ℂ) + b ≠ 0 := by exact_mod_cast (by linarith : (0 : ℝ) < a + b).ne'
  have hl : l i = ((a - b) / (a + b) : ℝ) * w := by
    have h3 : starM e1 i = l i * d0 i := l3
    unfold starM at h3
    rw [he1, map_mul, Complex.conj_ofReal, Complex.conj_conj, hd0] at h3
    push_cast at h3 ⊢
    field_simp
    linear_combination -2 * h3
  refine ⟨hd0, ?_, hl⟩
  have h4 : e0 i = l i * d0 i * (starRingEnd ℂ) (l i) + d1 i := l4
  rw [he0, hd0, hl, map_mul, Complex.conj_ofReal] at h4
  have hc2 : (((a - b) / (a + b) : ℝ) : ℂ) * (a + b) = a - b := by
    push_cast; rw [div_mul_cancel₀ _ hs0]
  rw [Complex.ofReal_div]
  generalize (((a - b) / (a + b) : ℝ) : ℂ) = c at *
  push_cast at h4 ⊢
  rw [eq_div_iff hs0]
  linear_combination -(a + b : ℂ) * h4 - ((c * (a + b) + (a - b)) / 2 * (w * (starRingEnd ℂ) w)) * hc2
    - (a - b : ℂ) ^ 2 / 2 * hc

theorem pair_identity {a b : ℝ} (ha : 0 < a) (hb : 0 < b) (u0 u1 w : ℂ) (hw : w * (starRingEnd ℂ) w = 1) :
    a * Complex.normSq (u0 + u1 * w) + b * Complex.normSq (u0 - u1 * w)
      = 2 * ((a + b) / 2 * Complex.normSq (u0 + u1 * (((a - b) / (a + b) : ℝ) * w))
        + 2 * a * b / (a + b) * Complex.normSq u1) := by
  have hn : Complex.normSq u1 = Complex.normSq (u1 * w) := by
    rw [Complex.mul_conj] at hw
    have hw : Complex.normSq w = 1 := by exact_mod_cast hw
    rw [Complex.normSq_mul, hw, mul_one]
  rw [hn, show u1 * (((a - b) / (a + b) : ℝ) * w) = ((a - b) / (a + b) : ℝ) * (u1 * w) by ring]
  generalize u1 * w = x
  simp only [Complex.normSq_apply, Complex.add_re, Complex.add_im, Complex.sub_re, Complex.sub_im,
    Complex.re_ofReal_mul, Complex.im_ofReal_mul]
  field_simp
  ring

/-! ### All nodes -/

theorem sym_real {a : Mem ℂ} (h : ConjSym 0 a) : ((a 0).re : ℂ) = a 0 := by
  have h := h 0 (by norm_num)
  norm_num at h
  exact (Complex.conj_eq_iff_re).mp h.symm

theorem diag_spread {S : Type} (leaf : LeafSampler ℝ S) {sigma : ℝ} (hsig : 0 < sigma) : ∀ (m : ℕ) (d : Mem ℂ)
    (t : FTree ℂ), DiagTree m d t → ∀ k, m = k + 1 → k + 1 ≤ 10 → ∀ r : ℕ → ℝ,
    (∀ i, i < 2 ^ (k + 1) → d i = r i) → (∀ i, i < 2 ^ (k + 1) → 0 < r i) →
    (∀ i, i < 2 ^ (k + 1) → r (2 ^ (k + 1) - 1 - i) = r i) → Spread leaf sigma k t r := by
  intro m d t h
  induction h with
  | leaf d =>
    intro k hm _ r hd hpos hsym
    obtain rfl : k = 0 := by omega
    intro e s w he h
    unfold FTree.mapLeaves sampleTree at h
    obtain ⟨a, h1, h⟩ := bindO_ok h
    obtain ⟨b, h2, h⟩ := bindO_ok h
    have h := Except.ok.inj (Option.some.inj h)
    subst h
    have p0 := hpos 0 (by norm_num)
    have hr1 : r 1 = r 0 := hsym 0 (by norm_num)
    have hre : exactA.re (normLeaf exactA sigma (d 0)) = sigma / Real.sqrt (r 0) := by
      unfold normLeaf
      rw [exact_ofReal, hd 0 (by norm_num)]
      show ((sigma / Real.sqrt ((r 0 : ℂ).re) : ℝ) : ℂ).re = _
      rw [Complex.ofReal_re, Complex.ofReal_re]
    obtain ⟨y0, y1⟩ := sym_split (k := 0) (by norm_num) he
    have x0 := sym_real y0
    have x1 := sym_real y1
    have hsp := splitS_isSplit (k := 0) (by norm_num) e 0 (by norm_num)
    rw [fftPoint_even (by norm_num) 0 (by norm_num), fftPoint_odd (by norm_num) 0 (by norm_num)] at hsp
    generalize (splitS exactA 0 e).1 = f0 at *
    generalize (splitS exactA 0 e).2 = f1 at *
    have h1' : leaf (f0 0).re (sigma / Real.sqrt (r 0)) s = some (.ok a) := by rw [← hre]; exact h1
    have h2' : leaf (f1 0).re (sigma / Real.sqrt (r 0)) a.2 = some (.ok b) := by rw [← hre]; exact h2
    refine ⟨[⟨(f0 0).re, sigma / Real.sqrt (r 0), a.1⟩, ⟨(f1 0).re, sigma / Real.sqrt (r 0), b.1⟩],
      .cons h1' (.cons h2' (.nil _)), rfl, ?_, ?_, ?_, ?_⟩
    · refine sym_merge (by norm_num) ?_ ?_
      · intro i _
        show exactA.ofInt a.1 = (starRingEnd ℂ) (exactA.ofInt a.1)
        rw [exact_ofInt, map_intCast]
      · intro i _
        show exactA.ofInt b.1 = (starRingEnd ℂ) (exactA.ofInt b.1)
        rw [exact_ofInt, map_intCast]
    · have hm0 := mergeS_even 0 (fun _ => exactA.ofInt a.1) (fun _ => exactA.ofInt b.1) 0
      have hm1 := mergeS_odd 0 (fun _ => exactA.ofInt a.1) (fun _ => exactA.ofInt b.1) 0
      simp only [mul_zero, zero_add] at hm0 hm1 hsp
      norm_num only [zero_add, pow_one]
      rw [sum_range_succ, sum_range_one, hm0, hm1, hsp.1, hsp.2, hr1, exact_ofInt, exact_ofInt]
      have hc := cT_conj (2 ^ 0 + 0)
      simp only [Nat.add_zero] at hc
      generalize cT (2 ^ 0) = v at *
      have hid := pair_identity p0 p0 (f0 0 - a.1) (f1 0 - b.1) v hc
      rw [sub_self, zero_div] at hid
      rw [show f0 0 + v * f1 0 - ((a.1 : ℂ) + b.1 * v) = f0 0 - a.1 + (f1 0 - b.1) * v by ring,
        show f0 0 + -v * f1 0 - ((a.1 : ℂ) - b.1 * v) = f0 0 - a.1 - (f1 0 - b.1) * v by ring, hid]
      rw [← x0, ← x1]
      unfold spread
      simp only [List.map_cons, List.map_nil, List.sum_cons, List.sum_nil, Complex.ofReal_zero, zero_mul, mul_zero,
        add_zero]
      rw [show ((f0 0).re : ℂ) - (a.1 : ℂ) = (((f0 0).re - a.1 : ℝ) : ℂ) by push_cast; rfl,
        show ((f1 0).re : ℂ) - (b.1 : ℂ) = (((f1 0).re - b.1 : ℝ) : ℂ) by push_cast; rfl,
        Complex.normSq_ofReal, Complex.normSq_ofReal]
      simp only [Complex.ofReal_re]
      have hq : Real.sqrt (r 0) ^ 2 = r 0 := Real.sq_sqrt p0.le
      have hq0 : Real.sqrt (r 0) ≠ 0 := (Real.sqrt_pos.mpr p0).ne'
      generalize Real.sqrt (r 0) = y at *
      rw [← hq]
      field_simp
      ring
    · have hv : (d 0).re = r 0 := by rw [hd 0 (by norm_num), Complex.ofReal_re]
      intro c hc
      refine ⟨d 0, by simp [FTree.leaves], ?_⟩
      rw [hv]
      simp only [List.mem_cons, List.not_mem_nil, or_false] at hc
      rcases hc with rfl | rfl <;> rfl
    · have hq : Real.sqrt (r 0) ^ 2 = r 0 := Real.sq_sqrt p0.le
      have hq0 : Real.sqrt (r 0) ≠ 0 := (Real.sqrt_pos.mpr p0).ne'
      norm_num only [zero_add, pow_one]
      rw [prod_range_succ, prod_range_one, hr1]
      unfold widths
      simp only [List.map_cons, List.map_nil, List.prod_cons, List.prod_nil, mul_one]
      generalize Real.sqrt (r 0) = y at *
      rw [← hq]
      field_simp
  | @node k' d e0 e1 l d0 d1 L R hk1 hs hl hL hR ihL ihR =>
    intro k hm hk10 r hd hpos hsym
    obtain rfl : k' = k := by omega
    obtain ⟨k, rfl⟩ : ∃ k, k' = k + 1 := ⟨k' - 1, by omega⟩
    have hp : 2 ^ (k + 1 + 1) = 2 * 2 ^ (k + 1) := by rw [pow_succ]; ring
    have key := diag_vals hk10 hs hl hd hpos
    have hsymp : ∀ i, i < 2 ^ (k + 1) → r (2 * (2 ^ (k + 1) - 1 - i)) = r (2 * i + 1) ∧
        r (2 * (2 ^ (k + 1) - 1 - i) + 1) = r (2 * i) := by
      intro i hi
      constructor
      · rw [← hsym (2 * i + 1) (by omega)]; congr 1; omega
      · rw [← hsym (2 * i) (by omega)]; congr 1; omega
    have sL := ihL k rfl (by omega) (fun i => (r (2 * i) + r (2 * i + 1)) / 2) (fun i hi => (key i hi).1)
      (fun i hi => by have := hpos (2 * i) (by omega); have := hpos (2 * i + 1) (by omega); linarith)
      (fun i hi => by rw [(hsymp i hi).1, (hsymp i hi).2]; ring)
    have sR := ihR k rfl (by omega) (fun i => 2 * r (2 * i) * r (2 * i + 1) / (r (2 * i) + r (2 * i + 1)))
      (fun i hi => (key i hi).2.1)
      (fun i hi => by have := hpos (2 * i) (by omega); have := hpos (2 * i + 1) (by omega); positivity)
      (fun i hi => by rw [(hsymp i hi).1, (hsymp i hi).2]; ring)
    have hlsym : ConjSym (k + 1) l := by
      intro i hi
      rw [(key i hi).2.2, (key _ (by omega)).2.2, (hsymp i hi).1, (hsymp i hi).2, cT_compl hk10 i hi, map_mul,
        Complex.conj_ofReal]
      push_cast
      rw [add_comm (r (2 * i + 1) : ℂ)]
      ring
    intro e s w he h
    obtain ⟨y0, y1⟩ := sym_split hk10 he
    obtain ⟨c, c1, c2, c3, c4, c5, c6, c7⟩ := node_spread sL sR hlsym _ _ y0 y1 s w h
    refine ⟨c, c1, c2, sym_merge hk10 c3 c4, ?_, c6, ?_⟩
    rotate_left
    · rw [← c7, hp, prod_range_two]
      congr 1
      apply prod_congr rfl
      intro i hi
      have hi := mem_range.mp hi
      have := hpos (2 * i) (by omega)
      have := hpos (2 * i + 1) (by omega)
      field_simp
    rw [hp, sum_pairs, show (2 : ℝ) ^ (k + 1 + 1) * (sigma ^ 2 * spread c)
      = 2 * (2 ^ (k + 1) * (sigma ^ 2 * spread c)) by ring, ← c5, mul_sum]
    apply sum_congr rfl
    intro i hi
    have hi := mem_range.mp hi
    have hsp := splitS_isSplit hk10 e i hi
    rw [fftPoint_even hk10 i hi, fftPoint_odd hk10 i hi] at hsp
    rw [mergeS_even, mergeS_odd, hsp.1, hsp.2, (key i hi).2.2,
      ← pair_identity (hpos (2 * i) (by omega)) (hpos (2 * i + 1) (by omega)) _ _ _ (cT_conj (2 ^ (k + 1) + i))]
    congr 3 <;> ring

/-! ### The basis -/

theorem basis_identity {d0 d1 : ℝ} (h0 : 0 < d0) (u0 u1 f g F G l : ℂ)
    (hf : d0 = Complex.normSq f + Complex.normSq g)
    (hl : G * (starRingEnd ℂ) g + F * (starRingEnd ℂ) f = l * d0)
    (hd : Complex.normSq F + Complex.normSq G = Complex.normSq l * d0 + d1) :
    Complex.normSq (u0 * g + u1 * G) + Complex.normSq (u0 * -f + u1 * -F)
      = d0 * Complex.normSq (u0 + u1 * l) + d1 * Complex.normSq u1 := by
  have e : d1 = Complex.normSq F + Complex.normSq G - Complex.normSq l * d0 := by linarith
  have key : ((Complex.normSq (u0 * g + u1 * G) + Complex.normSq (u0 * -f + u1 * -F) : ℝ) : ℂ)
      = ((d0 * Complex.normSq (u0 + u1 * l) + d1 * Complex.normSq u1 : ℝ) : ℂ) := by
    have hfc := congrArg (fun x : ℝ => (x : ℂ)) hf
    have hl' := congrArg (starRingEnd ℂ) hl
    simp only [map_add, map_mul, Complex.conj_conj, Complex.conj_ofReal] at hl'
    rw [e]
    push_cast at hfc ⊢
    simp only [← Complex.mul_conj, map_add, map_mul, map_neg] at hfc ⊢
    linear_combination (-(u0 * (starRingEnd ℂ) u0)) * hfc + u1 * (starRingEnd ℂ) u0 * hl
      + u0 * (starRingEnd ℂ) u1 * hl'
  exact_mod_cast key

/-- The LDL* decomposition of the Gram matrix of the basis: its values at the points. -/
theorem basis_vals {n : ℕ} (hn : n ≤ 10) {f g F G : Mem Int} (heq : NtruEq n f g F G) {X l d0 d1 : Mem ℂ}
    (hex : ∀ i, i < 2 ^ n → X i = (fgNorm n f g i : ℝ) ∧
      X (2 * 2 ^ n + i) = dft n (zC G) i * (starRingEnd ℂ) (dft n (zC g) i)
        + dft n (zC F) i * (starRingEnd ℂ) (dft n (zC f) i) ∧
      X (3 * 2 ^ n + i) = (fgNorm n F G i : ℝ))
    (hl : IsLdl (2 ^ n) X (starM fun i => X (2 * 2 ^ n + i)) (fun i => X (2 * 2 ^ n + i))
      (fun i => X (3 * 2 ^ n + i)) l d0 d1) (i : ℕ) (hi : i < 2 ^ n) :
    d0 i = (fgNorm n f g i : ℝ) ∧ d1 i = ((12289 ^ 2 / fgNorm n f g i : ℝ) : ℂ) ∧
    dft n (zC G) i * (starRingEnd ℂ) (dft n (zC g) i) + dft n (zC F) i * (starRingEnd ℂ) (dft n (zC f) i)
      = l i * (fgNorm n f g i : ℝ) := by
  obtain ⟨_, _, l1, l2, l3, l4⟩ := hl i hi
  obtain ⟨e0, e2, e3⟩ := hex i hi
  have hp := fgNorm_pos hn heq i hi
  have hpc : (fgNorm n f g i : ℂ) ≠ 0 := by exact_mod_cast hp.ne'
  have hd0 : d0 i = (fgNorm n f g i : ℝ) := by rw [← l1, e0]
  have l3' : X (2 * 2 ^ n + i) = l i * d0 i := l3
  refine ⟨hd0, ?_, by rw [← e2, l3', hd0]⟩
  have hdet := gram_det hn heq i hi
  have hdet : (fgNorm n f g i : ℂ) * (fgNorm n F G i : ℂ) - X (2 * 2 ^ n + i)
      * (starRingEnd ℂ) (X (2 * 2 ^ n + i)) = 12289 ^ 2 := by
    rw [Complex.mul_conj, e2]; exact_mod_cast hdet
  have l2' : (starRingEnd ℂ) (X (2 * 2 ^ n + i)) = d0 i * (starRingEnd ℂ) (l i) := l2
  have l4' : X (3 * 2 ^ n + i) = l i * d0 i * (starRingEnd ℂ) (l i) + d1 i := l4
  rw [l2', l3', ← e3, l4', hd0] at hdet
  push_cast
  rw [eq_div_iff hpc]
  linear_combination hdet

/-- Sampling with the normalized tree of the basis. -/
theorem basis_spread {S : Type} (leaf : LeafSampler ℝ S) {sigma : ℝ} (hsig : 0 < sigma) {n : ℕ} (h1 : 1 ≤ n)
    (hn : n ≤ 10) {f g F G : Mem Int} (heq : NtruEq n f g F G) (B0 M0 : Mem ℂ) (t : FTree ℂ)
    (ht : let X := gramMatrix exactA n (computeMatrixB exactA n f g F G B0) M0
      FfLdl n X (starM fun i => X (2 * 2 ^ n + i)) (fun i => X (2 * 2 ^ n + i)) (fun i => X (3 * 2 ^ n + i)) t)
    (t0 t1 : Mem ℂ) (h0 : ConjSym n t0) (h1' : ConjSym n t1) (s : S) (w : Mem ℂ × Mem ℂ × S)
    (h : sampleTree exactA leaf n (t.mapLeaves (normLeaf exactA sigma)) t0 t1 s = some (.ok w)) :
    ∃ c, Calls leaf s c w.2.2 ∧ c.length = 2 ^ (n + 1) ∧
      (∑ i ∈ range (2 ^ n), (Complex.normSq ((t0 i - w.1 i) * dft n (zC g) i + (t1 i - w.2.1 i) * dft n (zC G) i)
        + Complex.normSq ((t0 i - w.1 i) * -dft n (zC f) i + (t1 i - w.2.1 i) * -dft n (zC F) i)))
        = 2 ^ n * (sigma ^ 2 * spread c) ∧
      (∀ x ∈ c, ∃ v ∈ t.leaves, x.sigma = sigma / Real.sqrt v.re) ∧
      widths c ^ 2 * (12289 ^ 2) ^ (2 ^ n) = sigma ^ (2 * 2 ^ (n + 1)) := by
  obtain ⟨k, rfl⟩ : ∃ k, n = k + 1 := ⟨n - 1, by omega⟩
  simp only at ht
  have hex := gram_exact hn f g F G B0 M0
  simp only at hex
  generalize gramMatrix exactA (k + 1) (computeMatrixB exactA (k + 1) f g F G B0) M0 = X at ht hex
  obtain ⟨l, d0, d1, L, R, rfl, hl, hL, hR⟩ := ht
  have key := basis_vals hn heq (fun i hi => ⟨(hex i hi).1, (hex i hi).2.2⟩) hl
  have hpos := fgNorm_pos hn heq
  have hcompl := fgNorm_compl (k + 1) f g
  have sL := diag_spread leaf hsig _ _ _ hL k rfl hn (fgNorm (k + 1) f g) (fun i hi => (key i hi).1) hpos hcompl
  have sR := diag_spread leaf hsig _ _ _ hR k rfl hn (fun i => 12289 ^ 2 / fgNorm (k + 1) f g i)
    (fun i hi => (key i hi).2.1) (fun i hi => div_pos (by norm_num) (hpos i hi))
    (fun i hi => by rw [hcompl i hi])
  have hlsym : ConjSym (k + 1) l := by
    intro i hi
    have hi' : 2 ^ (k + 1) - 1 - i < 2 ^ (k + 1) := by omega
    have e1 := (key i hi).2.2
    have e2 := (key _ hi').2.2
    have hne : ((fgNorm (k + 1) f g i : ℝ) : ℂ) ≠ 0 := by exact_mod_cast (hpos i hi).ne'
    rw [hcompl i hi, dft_compl _ _ i hi, dft_compl _ _ i hi, dft_compl _ _ i hi, dft_compl _ _ i hi] at e2
    have e1' := congrArg (starRingEnd ℂ) e1
    rw [map_mul, Complex.conj_ofReal] at e1'
    simp only [map_add, map_mul] at e1'
    exact mul_right_cancel₀ hne (e2.symm.trans e1')
  obtain ⟨c, c1, c2, c3, c4, c5, c6, c7⟩ := node_spread sL sR hlsym t0 t1 h0 h1' s w h
  refine ⟨c, c1, c2, ?_, c6, ?_⟩
  · rw [← c5]
    apply sum_congr rfl
    intro i hi
    have hi := mem_range.mp hi
    obtain ⟨_, _, k3⟩ := key i hi
    refine basis_identity (hpos i hi) _ _ _ _ _ _ _ rfl k3 ?_
    have hd := gram_det hn heq i hi
    rw [k3, Complex.normSq_mul, Complex.normSq_ofReal] at hd
    have hp := hpos i hi
    show fgNorm (k + 1) F G i = _
    field_simp
    nlinarith
  · rw [← c7]
    congr 1
    rw [prod_congr rfl fun i hi => show fgNorm (k + 1) f g i * (12289 ^ 2 / fgNorm (k + 1) f g i) = 12289 ^ 2 from ?_,
      prod_const, card_range]
    have := (hpos i (mem_range.mp hi)).ne'
    field_simp

end Falcon
