import Verif.Model.Ntru
import Verif.Proofs.Ntt
import Mathlib.RingTheory.AdjoinRoot
import Mathlib.Algebra.Polynomial.Eval.Defs
import Mathlib.Tactic.Ring
import Mathlib.Tactic.LinearCombination

/-!
# Karatsuba multiplication, field norm, lifting and the algebra of the NTRU solver
-/

namespace Falcon

open Finset Polynomial

section Poly

variable {K : Type} [CommRing K]

theorem toPoly_upd {n i : ℕ} (hi : i < n) (m : Mem K) (v : K) :
    toPoly n (upd m i v) = toPoly n m + C (v - m i) * X ^ i := by
  unfold toPoly
  have hi' : i ∈ range n := mem_range.mpr hi
  rw [← Finset.add_sum_erase _ _ hi', ← Finset.add_sum_erase (range n) (fun j => C (m j) * X ^ j) hi']
  rw [sum_congr rfl (g := fun j => C (m j) * X ^ j)]
  · rw [upd_same, C_sub]; ring
  · intro j hj
    rw [upd_ne _ _ _ _ (ne_of_mem_erase hj)]

theorem toPoly_add_range (m n : ℕ) (a : Mem K) :
    toPoly (m + n) a = toPoly m a + X ^ m * toPoly n (fun i => a (m + i)) := by
  unfold toPoly
  rw [sum_range_add, mul_sum]
  congr 1
  exact sum_congr rfl fun i _ => by rw [pow_add]; ring

theorem toPoly_zeros (n : ℕ) : toPoly n (fun _ => (0 : K)) = 0 := by
  simp [toPoly]

theorem toPoly_succ (n : ℕ) (a : Mem K) : toPoly (n + 1) a = toPoly n a + C (a n) * X ^ n := by
  unfold toPoly
  rw [sum_range_succ]

theorem toPoly_add (n : ℕ) (a b : Mem K) :
    toPoly n (fun i => a i + b i) = toPoly n a + toPoly n b := by
  unfold toPoly
  rw [← sum_add_distrib]
  exact sum_congr rfl fun i _ => by rw [C_add]; ring

theorem toPoly_sub (n : ℕ) (a b : Mem K) :
    toPoly n (fun i => a i - b i) = toPoly n a - toPoly n b := by
  unfold toPoly
  rw [← sum_sub_distrib]
  exact sum_congr rfl fun i _ => by rw [C_sub]; ring

theorem toPoly_neg (n : ℕ) (a : Mem K) : toPoly n (fun i => - a i) = - toPoly n a := by
  unfold toPoly
  rw [← sum_neg_distrib]
  exact sum_congr rfl fun i _ => by rw [C_neg]; ring

theorem toPoly_mul_const (n : ℕ) (a : Mem K) (c : K) :
    toPoly n (fun i => a i * c) = toPoly n a * C c := by
  unfold toPoly
  rw [sum_mul]
  exact sum_congr rfl fun i _ => by rw [C_mul]; ring

/-- Even and odd coefficients. -/
theorem toPoly_even_odd (n : ℕ) (a : Mem K) :
    toPoly (2 * n) a = (toPoly n (fun i => a (2 * i))).comp (X ^ 2)
      + X * (toPoly n (fun i => a (2 * i + 1))).comp (X ^ 2) := by
  induction n with
  | zero => simp [toPoly]
  | succ n ih =>
    rw [show 2 * (n + 1) = 2 * n + 1 + 1 by ring, toPoly_succ, toPoly_succ, ih, toPoly_succ, toPoly_succ,
      add_comp, add_comp, mul_comp, mul_comp, C_comp, C_comp, X_pow_comp, ← pow_mul]
    ring

theorem comp_neg_toPoly (n : ℕ) (a : Mem K) :
    (toPoly n a).comp (-X) = toPoly n (fun i => if i % 2 = 1 then -a i else a i) := by
  induction n with
  | zero => simp [toPoly]
  | succ n ih =>
    rw [toPoly_succ, toPoly_succ, add_comp, ih, mul_comp, C_comp, X_pow_comp]
    congr 1
    rcases Nat.mod_two_eq_zero_or_one n with h | h
    · rw [if_neg (by omega), Even.neg_pow (Nat.even_iff.mpr h)]
    · rw [if_pos h, Odd.neg_pow (Nat.odd_iff.mpr h), C_neg]; ring

end Poly

/-- Congruence modulo `X^N + 1` is equality in the quotient ring. -/
theorem modEq_iff {K : Type} [CommRing K] {N : ℕ} {p r : K[X]} :
    ModEqXN N p r ↔ AdjoinRoot.mk (X ^ N + 1) p = AdjoinRoot.mk (X ^ N + 1) r :=
  AdjoinRoot.mk_eq_mk.symm

theorem loop_fill_lt {α : Type} (n : ℕ) (f : ℕ → α) (a : Mem α) (j : ℕ) (hj : j < n) :
    loop n (fun i m => upd m i (f i)) a j = f j := by
  rw [loop_fill, if_pos hj]

theorem toPoly_fill {K : Type} [CommRing K] (n : ℕ) (f : ℕ → K) (a : Mem K) :
    toPoly n (loop n (fun i m => upd m i (f i)) a) = toPoly n f :=
  toPoly_congr fun i hi => loop_fill_lt n f a i hi

/-! ### Karatsuba -/

theorem kara_acc (N h : ℕ) (hh : 2 * h = N) (u v w : Mem ℤ) :
    toPoly (2 * N) (loop N (fun i ab =>
      let ab := upd ab i (ab i + u i)
      let ab := upd ab (N + i) (ab (N + i) + v i)
      upd ab (h + i) (ab (h + i) + w i)) zerosZ)
    = toPoly N u + X ^ N * toPoly N v + X ^ h * toPoly N w := by
  have key : ∀ n, n ≤ N → toPoly (2 * N) (loop n (fun i ab =>
      let ab := upd ab i (ab i + u i)
      let ab := upd ab (N + i) (ab (N + i) + v i)
      upd ab (h + i) (ab (h + i) + w i)) zerosZ)
      = toPoly n u + X ^ N * toPoly n v + X ^ h * toPoly n w := by
    intro n
    induction n with
    | zero =>
      intro _
      rw [loop_zero, show zerosZ = fun _ => (0 : ℤ) from rfl, toPoly_zeros]
      simp [toPoly]
    | succ n ih =>
      intro hn
      rw [loop_succ]
      simp only
      rw [toPoly_upd (by omega), toPoly_upd (by omega), toPoly_upd (by omega), ih (by omega),
        toPoly_succ, toPoly_succ, toPoly_succ]
      simp only [add_sub_cancel_left, pow_add]
      ring
  exact key N le_rfl

theorem karatsuba_poly : ∀ (k : ℕ) (a b : Mem ℤ),
    toPoly (2 * 2 ^ k) (karatsuba k a b) = toPoly (2 ^ k) a * toPoly (2 ^ k) b := by
  intro k
  induction k with
  | zero =>
    intro a b
    simp [karatsuba, toPoly, sum_range_succ, upd]
  | succ k ih =>
    intro a b
    unfold karatsuba
    simp only
    have hN : 2 ^ (k + 1) / 2 = 2 ^ k := by rw [pow_succ]; omega
    rw [hN, kara_acc _ _ (by rw [pow_succ]; ring)]
    have hsub : ∀ (x y m : Mem ℤ), toPoly (2 ^ (k + 1)) (loop (2 ^ (k + 1))
        (fun i m => upd m i (m i - (x i + y i))) m)
        = toPoly (2 ^ (k + 1)) m - (toPoly (2 ^ (k + 1)) x + toPoly (2 ^ (k + 1)) y) := by
      intro x y m
      rw [← toPoly_add, ← toPoly_sub]
      refine toPoly_congr fun i hi => ?_
      rw [loop_map (2 ^ (k + 1)) (fun i m => m - (x i + y i)) m i, if_pos hi]
    rw [hsub, show 2 ^ (k + 1) = 2 * 2 ^ k by rw [pow_succ]; ring, ih, ih, ih]
    simp only [toPoly_fill]
    rw [toPoly_add, toPoly_add, show 2 * 2 ^ k = 2 ^ k + 2 ^ k by ring, toPoly_add_range,
      toPoly_add_range, pow_add]
    ring

theorem karamul_poly (k : ℕ) (a b : Mem ℤ) :
    ModEqXN (2 ^ k) (toPoly (2 ^ k) a * toPoly (2 ^ k) b) (toPoly (2 ^ k) (karamul k a b)) := by
  unfold karamul
  simp only
  rw [toPoly_fill, toPoly_sub, ← karatsuba_poly, two_mul, toPoly_add_range]
  refine ⟨toPoly (2 ^ k) (fun i => karatsuba k a b (2 ^ k + i)), ?_⟩
  ring

/-! ### Field norm, lift, conjugate -/

theorem lift_poly (k : ℕ) (a : Mem ℤ) :
    toPoly (2 * 2 ^ k) (lift k a) = (toPoly (2 ^ k) a).comp (X ^ 2) := by
  have key : ∀ n, n ≤ 2 ^ k → ∀ j, loop n (fun i res => upd res (2 * i) (a i)) zerosZ j
      = if j % 2 = 0 ∧ j / 2 < n then a (j / 2) else 0 := by
    intro n
    induction n with
    | zero => intro _ j; simp [zerosZ]
    | succ n ih =>
      intro hn j
      rw [loop_succ]
      by_cases hj : j = 2 * n
      · subst hj
        rw [upd_same, if_pos (by omega)]
        congr 1; omega
      · rw [upd_ne _ _ _ _ hj, ih (by omega)]
        by_cases h : j % 2 = 0 ∧ j / 2 < n
        · rw [if_pos h, if_pos (by omega)]
        · rw [if_neg h, if_neg (by omega)]
  have h := key _ le_rfl
  rw [toPoly_even_odd]
  unfold lift
  rw [toPoly_congr (b := a), toPoly_congr (b := fun _ => 0)
    (a := fun i => loop (2 ^ k) (fun i res => upd res (2 * i) (a i)) zerosZ (2 * i + 1)), toPoly_zeros]
  · simp
  · intro i _
    rw [h, if_neg (by omega)]
  · intro i hi
    rw [h, if_pos (by omega)]
    congr 1; omega

theorem galois_poly (k : ℕ) (a : Mem ℤ) :
    toPoly (2 ^ k) (galoisConjugate k a) = (toPoly (2 ^ k) a).comp (-X) := by
  rw [comp_neg_toPoly]
  unfold galoisConjugate
  refine toPoly_congr fun i hi => ?_
  have : (fun (i : ℕ) (res : Mem ℤ) => if i &&& 1 ≠ 0 then upd res i (-a i) else upd res i (a i))
      = fun i res => upd res i (if i % 2 = 1 then -a i else a i) := by
    funext i res
    rw [Nat.and_one_is_mod]
    rcases Nat.mod_two_eq_zero_or_one i with h | h <;> simp [h]
  rw [this, loop_fill_lt _ _ _ _ hi]

theorem fieldNorm_poly (k : ℕ) (a : Mem ℤ) :
    ModEqXN (2 ^ k) (toPoly (2 ^ k) (fun i => a (2 * i)) ^ 2 - X * toPoly (2 ^ k) (fun i => a (2 * i + 1)) ^ 2)
      (toPoly (2 ^ k) (fieldNorm k a)) := by
  unfold fieldNorm
  simp only
  have he := karamul_poly k (loop (2 ^ k) (fun i m => upd m i (a (2 * i))) zerosZ)
    (loop (2 ^ k) (fun i m => upd m i (a (2 * i))) zerosZ)
  have ho := karamul_poly k (loop (2 ^ k) (fun i m => upd m i (a (2 * i + 1))) zerosZ)
    (loop (2 ^ k) (fun i m => upd m i (a (2 * i + 1))) zerosZ)
  rw [toPoly_fill (2 ^ k) (fun i => a (2 * i))] at he
  rw [toPoly_fill (2 ^ k) (fun i => a (2 * i + 1))] at ho
  generalize karamul k (loop (2 ^ k) (fun i m => upd m i (a (2 * i))) zerosZ)
    (loop (2 ^ k) (fun i m => upd m i (a (2 * i))) zerosZ) = E at *
  generalize karamul k (loop (2 ^ k) (fun i m => upd m i (a (2 * i + 1))) zerosZ)
    (loop (2 ^ k) (fun i m => upd m i (a (2 * i + 1))) zerosZ) = O at *
  generalize toPoly (2 ^ k) (fun i => a (2 * i)) = e at *
  generalize toPoly (2 ^ k) (fun i => a (2 * i + 1)) = o at *
  have hpos : 0 < 2 ^ k := by positivity
  have key : ∀ n, n ≤ 2 ^ k - 1 → toPoly (2 ^ k) (loop n (fun i res => upd res (i + 1) (res (i + 1) - O i)) E)
      = toPoly (2 ^ k) E - X * toPoly n O := by
    intro n
    induction n with
    | zero => intro _; simp [toPoly]
    | succ n ih =>
      intro hn
      rw [loop_succ, toPoly_upd (by omega), ih (by omega), toPoly_succ]
      simp only [sub_sub_cancel_left, C_neg, pow_succ]
      ring
  rw [toPoly_upd hpos, key _ le_rfl, add_sub_cancel_left, pow_zero, mul_one]
  have hO : toPoly (2 ^ k) O = toPoly (2 ^ k - 1) O + C (O (2 ^ k - 1)) * X ^ (2 ^ k - 1) := by
    rw [← toPoly_succ]; congr 1; omega
  obtain ⟨c, hc⟩ := he
  obtain ⟨d, hd⟩ := ho
  have hX : (X : ℤ[X]) ^ (2 ^ k) = X * X ^ (2 ^ k - 1) := by
    rw [← pow_succ']; congr 1; omega
  refine ⟨c - X * d - C (O (2 ^ k - 1)), ?_⟩
  linear_combination hc - X * hd - X * hO + C (O (2 ^ k - 1)) * hX

/-- Substituting `X^2` for `X` maps congruences modulo `X^N + 1` to congruences modulo `X^(2N) + 1`. -/
theorem ModEqXN.comp_sq {N : ℕ} {p r : ℤ[X]} (h : ModEqXN N p r) :
    ModEqXN (2 * N) (p.comp (X ^ 2)) (r.comp (X ^ 2)) := by
  obtain ⟨c, hc⟩ := h
  refine ⟨c.comp (X ^ 2), ?_⟩
  have := congrArg (fun p => p.comp (X ^ 2)) hc
  simp only [sub_comp, mul_comp, add_comp, X_pow_comp, one_comp, ← pow_mul] at this
  exact this

theorem norm_lift (k : ℕ) (a : Mem ℤ) :
    ModEqXN (2 ^ (k + 1)) ((toPoly (2 ^ k) (fieldNorm k a)).comp (X ^ 2))
      (toPoly (2 ^ (k + 1)) a * (toPoly (2 ^ (k + 1)) a).comp (-X)) := by
  have h := (fieldNorm_poly k a).comp_sq
  rw [show 2 ^ (k + 1) = 2 * 2 ^ k by rw [pow_succ]; ring, toPoly_even_odd]
  rw [sub_comp, pow_comp, mul_comp, X_comp, pow_comp] at h
  simp only [add_comp, mul_comp, X_comp, comp_assoc, X_pow_comp]
  have e : ((X : ℤ[X]) ^ 2).comp (-X) = X ^ 2 := by simp
  rw [modEq_iff] at *
  rw [← h]
  congr 1
  simp only [Even.neg_pow (n := 2) (by decide)]
  ring

/-! ### Extended gcd -/

theorem xgcdZLoop_spec (x y : ℤ) : ∀ (fuel : ℕ) (old_r r old_s s old_t t : ℤ),
    old_s * x + old_t * y = old_r → s * x + t * y = r → Int.gcd old_r r = Int.gcd x y →
    r.natAbs < fuel →
    ∃ a b g, xgcdZLoop fuel old_r r old_s s old_t t = some (a, b, g) ∧ a * x + b * y = g ∧
      g.natAbs = Int.gcd x y := by
  intro fuel
  induction fuel with
  | zero => intro _ r _ _ _ _ _ _ _ h; omega
  | succ fuel ih =>
    intro old_r r old_s s old_t t h1 h2 h3 h4
    rw [xgcdZLoop]
    by_cases hr : r = 0
    · subst hr
      refine ⟨old_s, old_t, old_r, by simp, h1, ?_⟩
      rw [← h3, Int.gcd_zero_right]
    · rw [if_pos hr]
      have hmod : old_r - Int.tdiv old_r r * r = Int.tmod old_r r := by
        rw [Int.tmod_def, mul_comm]
      refine ih _ _ _ _ _ _ h2 ?_ ?_ ?_
      · linear_combination h1 - (Int.tdiv old_r r) * h2
      · rw [← h3, Int.gcd_comm old_r r]
        have : old_r - Int.tdiv old_r r * r = old_r + r * (-(Int.tdiv old_r r)) := by ring
        rw [this, Int.gcd_add_mul_left_right]
      · rw [hmod, Int.natAbs_tmod]
        have := Nat.mod_lt old_r.natAbs (Int.natAbs_pos.mpr hr)
        omega

theorem xgcdZ_spec (x y : ℤ) (fuel : ℕ) (hf : y.natAbs < fuel) :
    ∃ a b g, xgcdZ fuel x y = some (a, b, g) ∧ a * x + b * y = g ∧ g.natAbs = Int.gcd x y :=
  xgcdZLoop_spec x y fuel x y 1 0 0 1 (by ring) (by ring) rfl hf

theorem xgcdZLoop_bezout (x y : ℤ) : ∀ (fuel : ℕ) (old_r r old_s s old_t t : ℤ),
    old_s * x + old_t * y = old_r → s * x + t * y = r →
    ∀ a b g, xgcdZLoop fuel old_r r old_s s old_t t = some (a, b, g) → a * x + b * y = g := by
  intro fuel
  induction fuel with
  | zero => intro _ _ _ _ _ _ _ _ _ _ _ h; cases h
  | succ fuel ih =>
    intro old_r r old_s s old_t t h1 h2 a b g h
    rw [xgcdZLoop] at h
    by_cases hr : r = 0
    · subst hr
      rw [if_neg (by simp)] at h
      cases h
      exact h1
    · rw [if_pos hr] at h
      exact ih _ _ _ _ _ _ h2 (by linear_combination h1 - (Int.tdiv old_r r) * h2) a b g h

/-! ### Reduction and solver -/

/-- `f G - g F`. -/
noncomputable def ntruDet (N : ℕ) (f g F G : Mem ℤ) : ℤ[X] :=
  toPoly N f * toPoly N G - toPoly N g * toPoly N F

theorem reduceLoop_det (quot : RedQuot) (k : ℕ) (f g : Mem ℤ) (blen0 : ℕ) :
    ∀ (fuel : ℕ) (F G F' G' : Mem ℤ), reduceLoop quot k f g blen0 fuel F G = some (.ok (F', G')) →
      ModEqXN (2 ^ k) (ntruDet (2 ^ k) f g F' G') (ntruDet (2 ^ k) f g F G) := by
  intro fuel
  induction fuel with
  | zero => intro F G F' G' h; cases h
  | succ fuel ih =>
    intro F G F' G' h
    rw [reduceLoop] at h
    simp only at h
    split at h
    · cases h
      exact ⟨0, by ring⟩
    · split at h
      · cases h
      · rename_i kr _
        split at h
        · cases h
          exact ⟨0, by ring⟩
        · have h1 := ih _ _ _ _ h
          refine modEq_iff.mpr ((modEq_iff.mp h1).trans ?_)
          have hf := modEq_iff.mp (karamul_poly k f kr)
          have hg := modEq_iff.mp (karamul_poly k g kr)
          unfold ntruDet
          have hm : ∀ (s : ℤ) (A B : Mem ℤ), toPoly (2 ^ k) (loop (2 ^ k) (fun i F => upd F i
              (F i - B i * s)) A) = toPoly (2 ^ k) A - toPoly (2 ^ k) B * C s := by
            intro s A B
            rw [← toPoly_mul_const, ← toPoly_sub]
            refine toPoly_congr fun i hi => ?_
            rw [loop_map (2 ^ k) (fun i m => m - B i * s) A i, if_pos hi]
          rw [hm, hm]
          simp only [map_sub, map_mul] at hf hg ⊢
          rw [← hf, ← hg]
          ring

theorem bindO_ok {α β : Type} {x : Option (Except UB α)} {f : α → Option (Except UB β)} {b : β}
    (h : bindO x f = some (.ok b)) : ∃ a, x = some (.ok a) ∧ f a = some (.ok b) := by
  unfold bindO at h
  split at h
  · cases h
  · cases h
  · exact ⟨_, rfl, h⟩

theorem bindO_some {α β : Type} {x : Option (Except UB α)} {f : α → Option (Except UB β)} {e : Except UB β}
    (h : bindO x f = some e) : (∃ u, x = some (.error u) ∧ e = .error u) ∨
      ∃ a, x = some (.ok a) ∧ f a = some e := by
  unfold bindO at h
  split at h
  · cases h
  · left; cases h; exact ⟨_, rfl, rfl⟩
  · right; exact ⟨_, rfl, h⟩

theorem ntruSolve_det (quot : RedQuot) (fuel : ℕ) : ∀ (k : ℕ) (f g F G : Mem ℤ),
    ntruSolve quot fuel k f g = some (.ok (some (F, G))) →
    ModEqXN (2 ^ k) (ntruDet (2 ^ k) f g F G) (C 12289) := by
  intro k
  induction k with
  | zero =>
    intro f g F G h
    rw [ntruSolve] at h
    cases hx : xgcdZ fuel (f 0) (g 0) with
    | none => rw [hx] at h; cases h
    | some r =>
      obtain ⟨a, b, d⟩ := r
      rw [hx] at h
      simp only at h
      by_cases hd : d = 1
      · subst hd
        rw [if_neg (by simp)] at h
        cases h
        have hb := xgcdZLoop_bezout (f 0) (g 0) fuel _ _ _ _ _ _ (by ring) (by ring) a b 1 hx
        refine ⟨0, ?_⟩
        simp only [ntruDet, toPoly, pow_zero, sum_range_one, mul_one, upd_same, mul_zero, Q_toNat]
        rw [← C_mul, ← C_mul, ← C_sub, ← C_sub, ← C_0]
        congr 1
        push_cast
        linear_combination 12289 * hb
      · rw [if_pos hd] at h; cases h
  | succ k ih =>
    intro f g F G h
    rw [ntruSolve] at h
    simp only at h
    obtain ⟨ret, hret, h⟩ := bindO_ok h
    cases ret with
    | none => cases h
    | some FG' =>
      obtain ⟨F', G'⟩ := FG'
      simp only at h
      obtain ⟨FG, hred, h⟩ := bindO_ok h
      cases h
      have h1 := reduceLoop_det _ _ _ _ _ _ _ _ _ _ hred
      have h2 := (ih _ _ _ _ hret).comp_sq
      refine modEq_iff.mpr ((modEq_iff.mp h1).trans ?_)
      have e : 2 ^ (k + 1) = 2 * 2 ^ k := by rw [pow_succ]; ring
      have hF := modEq_iff.mp (karamul_poly (k + 1) (lift k F') (galoisConjugate (k + 1) g))
      have hG := modEq_iff.mp (karamul_poly (k + 1) (lift k G') (galoisConjugate (k + 1) f))
      have nf := modEq_iff.mp (norm_lift k f)
      have ng := modEq_iff.mp (norm_lift k g)
      rw [galois_poly] at hF hG
      have hl1 : toPoly (2 ^ (k + 1)) (lift k F') = (toPoly (2 ^ k) F').comp (X ^ 2) := by
        rw [e, lift_poly]
      have hl2 : toPoly (2 ^ (k + 1)) (lift k G') = (toPoly (2 ^ k) G').comp (X ^ 2) := by
        rw [e, lift_poly]
      rw [hl1] at hF
      rw [hl2] at hG
      rw [← e] at h2
      have h2 := modEq_iff.mp h2
      unfold ntruDet at h2 ⊢
      simp only [map_sub, map_mul, sub_comp, mul_comp, C_comp] at *
      rw [← hF, ← hG, ← h2, nf, ng]
      ring

end Falcon
