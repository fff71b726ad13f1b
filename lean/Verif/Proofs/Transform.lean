import Verif.Model.Ntt
import Mathlib.Tactic.Ring
import Mathlib.Tactic.Linarith
import Mathlib.Tactic.NormNum
import Mathlib.Algebra.BigOperators.Intervals
import Mathlib.Algebra.BigOperators.Ring.Finset
import Mathlib.Algebra.BigOperators.Fin

/-!
# Generic theory of the in-place transforms

`bfStep bf` is one butterfly. The loop nests of the model become per-layer descriptions, then
evaluation of a polynomial at the roots given by a table.
-/

namespace Falcon

open Finset

/-- One butterfly on positions `i`, `i + len`. -/
def bfStep {α : Type} (bf : ℕ → α → α → α × α) (k len i : ℕ) (a : Mem α) : Mem α :=
  upd (upd a (i + len) (bf k (a i) (a (i + len))).2) i (bf k (a i) (a (i + len))).1

theorem one_shiftLeft' (n : ℕ) : 1 <<< n = 2 ^ n := by rw [Nat.shiftLeft_eq, one_mul]

theorem bf_inner {α : Type} (bf : ℕ → α → α → α × α) (k len S : ℕ) (m : ℕ) (hm : m ≤ len)
    (a : Mem α) :
    let a' := loop m (fun i' a => bfStep bf k len (S + i') a) a
    (∀ i, i < m → a' (S + i) = (bf k (a (S + i)) (a (S + len + i))).1 ∧
      a' (S + len + i) = (bf k (a (S + i)) (a (S + len + i))).2) ∧
    ∀ j, (∀ i, i < m → j ≠ S + i ∧ j ≠ S + len + i) → a' j = a j := by
  induction m with
  | zero => simp
  | succ m ih =>
    have ih := ih (by omega)
    simp only at ih ⊢
    rw [loop_succ]
    generalize loop m (fun i' a => bfStep bf k len (S + i') a) a = a' at ih ⊢
    obtain ⟨h1, h2⟩ := ih
    have e1 : a' (S + m) = a (S + m) := h2 _ (fun i hi => by omega)
    have e2 : a' (S + m + len) = a (S + len + m) := by
      rw [show S + m + len = S + len + m by omega]
      exact h2 _ (fun i hi => by omega)
    unfold bfStep
    rw [e1, e2]
    constructor
    · intro i hi
      by_cases him : i = m
      · subst him
        constructor
        · simp
        · rw [upd_ne _ _ _ _ (by omega), show S + i + len = S + len + i by omega]
          simp
      · have hi' : i < m := by omega
        constructor
        · rw [upd_ne _ _ _ _ (by omega), upd_ne _ _ _ _ (by omega)]
          exact (h1 i hi').1
        · rw [upd_ne _ _ _ _ (by omega), upd_ne _ _ _ _ (by omega)]
          exact (h1 i hi').2
    · intro j hj
      have hm := hj m (by omega)
      rw [upd_ne _ _ _ _ (by omega), upd_ne _ _ _ _ (by omega)]
      exact h2 j (fun i hi => hj i (by omega))

/-- Description of one layer, `tk b` being the table index used for block `b`. -/
structure LayerSpec {α : Type} (bf : ℕ → α → α → α × α) (tk : ℕ → ℕ) (cnt len : ℕ)
    (a a' : Mem α) : Prop where
  lo : ∀ b, b < cnt → ∀ i, i < len → a' (b * (2 * len) + i) =
    (bf (tk b) (a (b * (2 * len) + i)) (a (b * (2 * len) + len + i))).1
  hi : ∀ b, b < cnt → ∀ i, i < len → a' (b * (2 * len) + len + i) =
    (bf (tk b) (a (b * (2 * len) + i)) (a (b * (2 * len) + len + i))).2
  frame : ∀ j, cnt * (2 * len) ≤ j → a' j = a j

theorem bf_outer {α : Type} (bf : ℕ → α → α → α × α) (tk : ℕ → ℕ) (cnt len : ℕ) (a : Mem α) :
    LayerSpec bf tk cnt len a
      (loop cnt (fun b a => loop len (fun i' a => bfStep bf (tk b) len (b * (2 * len) + i') a) a) a) := by
  induction cnt with
  | zero => exact ⟨by simp, by simp, by simp⟩
  | succ c ih =>
    rw [loop_succ]
    generalize loop c (fun b a => loop len (fun i' a => bfStep bf (tk b) len (b * (2 * len) + i') a) a) a
      = a1 at ih ⊢
    have hi := bf_inner bf (tk c) len (c * (2 * len)) len le_rfl a1
    simp only at hi
    generalize loop len (fun i' a => bfStep bf (tk c) len (c * (2 * len) + i') a) a1 = a2 at hi ⊢
    obtain ⟨h1, h2⟩ := hi
    have hbc : ∀ b, b < c → b * (2 * len) + 2 * len ≤ c * (2 * len) := by
      intro b hb
      calc b * (2 * len) + 2 * len = (b + 1) * (2 * len) := by ring
        _ ≤ c * (2 * len) := Nat.mul_le_mul_right _ hb
    refine ⟨?_, ?_, ?_⟩
    · intro b hb i hi
      by_cases hc : b = c
      · subst hc
        rw [(h1 i hi).1, ih.frame _ (by omega), ih.frame _ (by omega)]
      · have := hbc b (by omega)
        rw [h2 _ (fun i' hi' => by omega), ih.lo b (by omega) i hi]
    · intro b hb i hi
      by_cases hc : b = c
      · subst hc
        rw [(h1 i hi).2, ih.frame _ (by omega), ih.frame _ (by omega)]
      · have := hbc b (by omega)
        rw [h2 _ (fun i' hi' => by omega), ih.hi b (by omega) i hi]
    · intro j hj
      have : (c + 1) * (2 * len) = c * (2 * len) + 2 * len := by ring
      rw [h2 _ (fun i' hi' => by omega), ih.frame _ (by omega)]

theorem layer_idx {n l : ℕ} (hl : l < n) :
    (1 <<< n) >>> (l + 1) = 2 ^ (n - l - 1) ∧ 2 ^ (n - l - 1) * (2 * 2 ^ l) = 2 ^ n := by
  constructor
  · rw [one_shiftLeft', Nat.shiftRight_eq_div_pow, Nat.pow_div (by omega) (by norm_num)]
    congr 1
  · rw [← pow_succ', ← pow_add]
    congr 1
    omega

theorem start_shift (b l : ℕ) : (b * ((1 <<< l) <<< 1)) >>> (l + 1) = b := by
  rw [one_shiftLeft', Nat.shiftLeft_eq, pow_one, Nat.shiftRight_eq_div_pow, pow_succ]
  exact Nat.mul_div_cancel _ (by positivity)

theorem downLayer_eq {α : Type} {n l : ℕ} (hl : l < n) (step) (a : Mem α) :
    downLayer n l step a = loop (2 ^ (n - l - 1)) (fun b a =>
      loop (2 ^ l) (fun i' a => step (2 ^ (n - l - 1) + b) (2 ^ l) (b * (2 * 2 ^ l) + i') a) a) a := by
  unfold downLayer
  simp only
  rw [(layer_idx hl).1]
  apply loop_congr
  intro b _ t
  rw [start_shift, one_shiftLeft', Nat.shiftLeft_eq, pow_one, mul_comm (2 ^ l) 2]

theorem upLayer_eq {α : Type} {n l : ℕ} (hl : l < n) (step) (a : Mem α) :
    upLayer n l step a = loop (2 ^ (n - l - 1)) (fun b a =>
      loop (2 ^ l) (fun i' a =>
        step (2 * 2 ^ (n - l - 1) - 1 - b) (2 ^ l) (b * (2 * 2 ^ l) + i') a) a) a := by
  unfold upLayer
  simp only
  rw [(layer_idx hl).1]
  apply loop_congr
  intro b _ t
  have : (1 <<< n) >>> l = 2 * 2 ^ (n - l - 1) := by
    rw [one_shiftLeft', Nat.shiftRight_eq_div_pow, Nat.pow_div (by omega) (by norm_num), ← pow_succ']
    congr 1
    omega
  rw [start_shift, this, one_shiftLeft', Nat.shiftLeft_eq, pow_one, mul_comm (2 ^ l) 2]

theorem downLayer_spec {α : Type} {n l : ℕ} (hl : l < n) (bf : ℕ → α → α → α × α) (a : Mem α) :
    LayerSpec bf (fun b => 2 ^ (n - l - 1) + b) (2 ^ (n - l - 1)) (2 ^ l) a
      (downLayer n l (bfStep bf) a) := by
  rw [downLayer_eq hl]
  exact bf_outer bf (fun b => 2 ^ (n - l - 1) + b) _ _ a

theorem upLayer_spec {α : Type} {n l : ℕ} (hl : l < n) (bf : ℕ → α → α → α × α) (a : Mem α) :
    LayerSpec bf (fun b => 2 * 2 ^ (n - l - 1) - 1 - b) (2 ^ (n - l - 1)) (2 ^ l) a
      (upLayer n l (bfStep bf) a) := by
  rw [upLayer_eq hl]
  exact bf_outer bf (fun b => 2 * 2 ^ (n - l - 1) - 1 - b) _ _ a

/-- Every index below `cnt * (2 * len)` is in the low or the high half of a block. -/
theorem idx_cases {cnt len : ℕ} {P : ℕ → Prop}
    (hlo : ∀ b, b < cnt → ∀ i, i < len → P (b * (2 * len) + i))
    (hhi : ∀ b, b < cnt → ∀ i, i < len → P (b * (2 * len) + len + i)) :
    ∀ j, j < cnt * (2 * len) → P j := by
  intro j hj
  have hlen : 0 < len := by
    rcases Nat.eq_zero_or_pos len with h | h
    · subst h; simp at hj
    · exact h
  have hb : j / (2 * len) < cnt := Nat.div_lt_of_lt_mul (by rw [mul_comm]; exact hj)
  have hd := Nat.div_add_mod j (2 * len)
  have hm := Nat.mod_lt j (show 0 < 2 * len by omega)
  rw [mul_comm] at hd
  by_cases h : j % (2 * len) < len
  · have := hlo _ hb _ h
    rwa [hd] at this
  · have := hhi _ hb (j % (2 * len) - len) (by omega)
    rwa [show j / (2 * len) * (2 * len) + len + (j % (2 * len) - len) = j by omega] at this

/-- Two memories related entrywise below `N`. -/
def RelBelow {α β : Type} (N : ℕ) (R : α → β → Prop) (a : Mem α) (b : Mem β) : Prop :=
  ∀ j, j < N → R (a j) (b j)

theorem LayerSpec.rel {α β : Type} {R : α → β → Prop} {bf : ℕ → α → α → α × α}
    {bg : ℕ → β → β → β × β} {tk cnt len} {a a' : Mem α} {b b' : Mem β}
    (h : LayerSpec bf tk cnt len a a') (h' : LayerSpec bg tk cnt len b b')
    (hbf : ∀ i, i < cnt → ∀ x x' y y', R x x' → R y y' →
      R (bf (tk i) x y).1 (bg (tk i) x' y').1 ∧ R (bf (tk i) x y).2 (bg (tk i) x' y').2)
    (hr : RelBelow (cnt * (2 * len)) R a b) : RelBelow (cnt * (2 * len)) R a' b' := by
  have hix : ∀ b, b < cnt → b * (2 * len) + 2 * len ≤ cnt * (2 * len) := by
    intro b hb
    calc b * (2 * len) + 2 * len = (b + 1) * (2 * len) := by ring
      _ ≤ cnt * (2 * len) := Nat.mul_le_mul_right _ hb
  refine idx_cases ?_ ?_
  · intro c hc i hi
    have := hix c hc
    rw [h.lo c hc i hi, h'.lo c hc i hi]
    exact (hbf c hc _ _ _ _ (hr _ (by omega)) (hr _ (by omega))).1
  · intro c hc i hi
    have := hix c hc
    rw [h.hi c hc i hi, h'.hi c hc i hi]
    exact (hbf c hc _ _ _ _ (hr _ (by omega)) (hr _ (by omega))).2

theorem downLayers_rel {α β : Type} {R : α → β → Prop} (n : ℕ) {bf : ℕ → α → α → α × α}
    {bg : ℕ → β → β → β × β}
    (hbf : ∀ k, k < 2 ^ n → ∀ x x' y y', R x x' → R y y' →
      R (bf k x y).1 (bg k x' y').1 ∧ R (bf k x y).2 (bg k x' y').2)
    {a : Mem α} {b : Mem β} (hr : RelBelow (2 ^ n) R a b) :
    RelBelow (2 ^ n) R (downLayers n (bfStep bf) a) (downLayers n (bfStep bg) b) := by
  unfold downLayers
  have : ∀ m, m ≤ n → RelBelow (2 ^ n) R
      (loop m (fun j a => downLayer n (n - 1 - j) (bfStep bf) a) a)
      (loop m (fun j a => downLayer n (n - 1 - j) (bfStep bg) a) b) := by
    intro m
    induction m with
    | zero => intro _; exact hr
    | succ m ih =>
      intro hm
      rw [loop_succ, loop_succ]
      have hl : n - 1 - m < n := by omega
      have hN := (layer_idx hl).2
      have h0 : 0 < 2 ^ (n - 1 - m) := by positivity
      have := LayerSpec.rel (R := R) (downLayer_spec hl bf _) (downLayer_spec hl bg _)
        (fun i hi => hbf _ (by nlinarith)) (by rw [hN]; exact ih (by omega))
      rwa [hN] at this
  exact this n le_rfl

theorem upLayers_rel {α β : Type} {R : α → β → Prop} (n : ℕ) {bf : ℕ → α → α → α × α}
    {bg : ℕ → β → β → β × β}
    (hbf : ∀ k, k < 2 ^ n → ∀ x x' y y', R x x' → R y y' →
      R (bf k x y).1 (bg k x' y').1 ∧ R (bf k x y).2 (bg k x' y').2)
    {a : Mem α} {b : Mem β} (hr : RelBelow (2 ^ n) R a b) :
    RelBelow (2 ^ n) R (upLayers n (bfStep bf) a) (upLayers n (bfStep bg) b) := by
  unfold upLayers
  have : ∀ m, m ≤ n → RelBelow (2 ^ n) R
      (loop m (fun j a => upLayer n j (bfStep bf) a) a)
      (loop m (fun j a => upLayer n j (bfStep bg) a) b) := by
    intro m
    induction m with
    | zero => intro _; exact hr
    | succ m ih =>
      intro hm
      rw [loop_succ, loop_succ]
      have hl : m < n := by omega
      have hN := (layer_idx hl).2
      have h0 : 0 < 2 ^ m := by positivity
      have h1 : 0 < 2 ^ (n - m - 1) := by positivity
      have := LayerSpec.rel (R := R) (upLayer_spec hl bf _) (upLayer_spec hl bg _)
        (fun i hi => hbf _ (by
          have : 2 * 2 ^ (n - m - 1) ≤ 2 ^ n := by nlinarith
          omega)) (by rw [hN]; exact ih (by omega))
      rwa [hN] at this
  exact this n le_rfl

theorem downLayers_frame {α : Type} (n : ℕ) (bf : ℕ → α → α → α × α) (a : Mem α) (j : ℕ)
    (hj : 2 ^ n ≤ j) : downLayers n (bfStep bf) a j = a j := by
  unfold downLayers
  have : ∀ m, m ≤ n → loop m (fun j a => downLayer n (n - 1 - j) (bfStep bf) a) a j = a j := by
    intro m
    induction m with
    | zero => intro _; rfl
    | succ m ih =>
      intro hm
      have hl : n - 1 - m < n := by omega
      rw [loop_succ, (downLayer_spec hl bf _).frame j (by rw [(layer_idx hl).2]; exact hj),
        ih (by omega)]
  exact this n le_rfl

theorem upLayers_frame {α : Type} (n : ℕ) (bf : ℕ → α → α → α × α) (a : Mem α) (j : ℕ)
    (hj : 2 ^ n ≤ j) : upLayers n (bfStep bf) a j = a j := by
  unfold upLayers
  have : ∀ m, m ≤ n → loop m (fun j a => upLayer n j (bfStep bf) a) a j = a j := by
    intro m
    induction m with
    | zero => intro _; rfl
    | succ m ih =>
      intro hm
      have hl : m < n := by omega
      rw [loop_succ, (upLayer_spec hl bf _).frame j (by rw [(layer_idx hl).2]; exact hj),
        ih (by omega)]
  exact this n le_rfl

end Falcon
