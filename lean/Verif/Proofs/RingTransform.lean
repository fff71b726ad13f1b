import Verif.Spec
import Verif.Proofs.Transform
import Verif.Proofs.BitRev
import Mathlib.Algebra.Polynomial.Div
import Mathlib.Algebra.Polynomial.Eval.Degree
import Mathlib.Algebra.Polynomial.RingDivision
import Mathlib.Algebra.Field.Basic
import Mathlib.Tactic.LinearCombination

/-!
# The transforms over a commutative ring

`K`-level butterflies, evaluation theorem, mutual inverses, product theorem.
-/

namespace Falcon

open Finset Polynomial

variable {K : Type} [CommRing K]

/-- Cooley-Tukey butterfly. -/
def ctBf (T : ℕ → K) (k : ℕ) (x y : K) : K × K := (x + T k * y, x - T k * y)

/-- Gentleman-Sande butterfly. -/
def gsBf (T : ℕ → K) (k : ℕ) (x y : K) : K × K := (x + y, (x - y) * (-T k))

/-- Laws of a table of roots in bit-reversed order. -/
structure RootTable (n : ℕ) (T : ℕ → K) : Prop where
  sq_one : T 1 ^ 2 = -1
  sq_even : ∀ k, 0 < k → k < 2 ^ (n - 1) → T (2 * k) ^ 2 = T k
  sq_odd : ∀ k, 0 < k → k < 2 ^ (n - 1) → T (2 * k + 1) ^ 2 = -T k
  neg_inv : ∀ t, t < n → ∀ b, b < 2 ^ t → T (2 ^ t + b) * (-T (2 * 2 ^ t - 1 - b)) = 1

theorem rootTable_of_pow {n : ℕ} (hn : 0 < n) (ζ : K) (hζ : ζ ^ (2 ^ n) = -1) :
    RootTable n (fun k => ζ ^ brv n k) := by
  obtain ⟨m, rfl⟩ : ∃ m, n = m + 1 := ⟨n - 1, by omega⟩
  refine ⟨?_, ?_, ?_, ?_⟩
  · have h := brv_odd m 0
    have h0 := brv_compl 0 (m + 1) 0 (by omega) (by norm_num)
    simp only [pow_zero, add_zero, mul_one] at h0
    rw [← hζ, ← pow_mul]
    congr 1
    simp at h0
    omega
  · intro k _ hk
    simp only [Nat.add_sub_cancel] at hk
    rw [brv_even, brv_small hk, ← pow_mul, mul_comm]
  · intro k _ hk
    simp only [Nat.add_sub_cancel] at hk
    rw [brv_odd, brv_small hk, ← pow_mul, add_mul, pow_add, ← pow_succ, hζ, mul_comm 2]
    ring
  · intro t ht b hb
    have := brv_compl t (m + 1) b ht hb
    rw [mul_neg, ← pow_add, this, hζ, neg_neg]

/-- A table for transforms of size up to `2^n` also serves smaller sizes. -/
theorem RootTable.mono {n m : ℕ} {T : ℕ → K} (h : RootTable n T) (hm : m ≤ n) : RootTable m T where
  sq_one := h.sq_one
  sq_even k h0 hk := h.sq_even k h0 (lt_of_lt_of_le hk (Nat.pow_le_pow_right (by norm_num) (by omega)))
  sq_odd k h0 hk := h.sq_odd k h0 (lt_of_lt_of_le hk (Nat.pow_le_pow_right (by norm_num) (by omega)))
  neg_inv t ht b hb := h.neg_inv t (by omega) b hb

/-- The root attached to block `j` after `m` layers: block `j` holds the residue modulo
`x^len - root m j`. -/
def root (T : ℕ → K) : ℕ → ℕ → K
  | 0, _ => -1
  | m + 1, j => if j % 2 = 0 then T (2 ^ m + j / 2) else -T (2 ^ m + j / 2)

theorem root_succ (T : ℕ → K) (m j : ℕ) :
    root T (m + 1) j = if j % 2 = 0 then T (2 ^ m + j / 2) else -T (2 ^ m + j / 2) := rfl

theorem root_succ_sq (T : ℕ → K) (m j : ℕ) : root T (m + 1) j ^ 2 = T (2 ^ m + j / 2) ^ 2 := by
  rw [root_succ]
  split
  · rfl
  · ring

theorem root_even (T : ℕ → K) (m j : ℕ) : root T (m + 1) (2 * j) = T (2 ^ m + j) := by
  simp [root]

theorem root_odd (T : ℕ → K) (m j : ℕ) : root T (m + 1) (2 * j + 1) = -T (2 ^ m + j) := by
  simp [root, show (2 * j + 1) % 2 = 1 by omega, show (2 * j + 1) / 2 = j by omega]

theorem RootTable.sq_root {n : ℕ} {T : ℕ → K} (h : RootTable n T) (m : ℕ) (hm : m < n) (j : ℕ)
    (hj : j < 2 ^ m) : T (2 ^ m + j) ^ 2 = root T m j := by
  cases m with
  | zero =>
    have : j = 0 := by omega
    subst this
    simpa [root] using h.sq_one
  | succ m =>
    have hp : 2 ^ (m + 1) ≤ 2 ^ (n - 1) := Nat.pow_le_pow_right (by norm_num) (by omega)
    have h1 : 0 < 2 ^ m := by positivity
    rw [pow_succ] at hj hp
    rw [root_succ]
    split
    · rename_i he
      rw [show 2 ^ (m + 1) + j = 2 * (2 ^ m + j / 2) by rw [pow_succ]; omega]
      exact h.sq_even _ (by omega) (by omega)
    · rename_i he
      rw [show 2 ^ (m + 1) + j = 2 * (2 ^ m + j / 2) + 1 by rw [pow_succ]; omega]
      exact h.sq_odd _ (by omega) (by omega)

theorem RootTable.root_pow {n : ℕ} {T : ℕ → K} (h : RootTable n T) :
    ∀ (m : ℕ), m ≤ n → ∀ j, j < 2 ^ m → root T m j ^ (2 ^ m) = -1 := by
  intro m
  induction m with
  | zero => intro _ j _; simp [root]
  | succ m ih =>
    intro hm j hj
    rw [pow_succ] at hj
    have hs : root T (m + 1) j ^ 2 = root T m (j / 2) := by
      rw [← h.sq_root m (by omega) (j / 2) (by omega), root_succ_sq]
    rw [pow_succ', pow_mul, hs]
    exact ih (by omega) _ (by omega)

/-- Evaluation invariant: after the layers `n-1, ..., n-m`. -/
theorem ct_eval {n : ℕ} {T : ℕ → K} (hT : RootTable n T) (A : Mem K) :
    ∀ m, m ≤ n →
    let A' := loop m (fun j a => downLayer n (n - 1 - j) (bfStep (ctBf T)) a) A
    ∀ j, j < 2 ^ m → ∀ x : K, x ^ (2 ^ (n - m)) = root T m j →
      ∑ i ∈ range (2 ^ (n - m)), A' (j * 2 ^ (n - m) + i) * x ^ i
        = ∑ i ∈ range (2 ^ n), A i * x ^ i := by
  intro m
  induction m with
  | zero =>
    intro _
    simp only [loop_zero, pow_zero, Nat.sub_zero]
    intro j hj x _
    have : j = 0 := by omega
    subst this
    simp
  | succ m ih =>
    intro hm
    have ih := ih (by omega)
    simp only [loop_succ] at ih ⊢
    generalize loop m (fun j a => downLayer n (n - 1 - j) (bfStep (ctBf T)) a) A = A1 at ih ⊢
    have hl : n - 1 - m < n := by omega
    have sp := downLayer_spec hl (ctBf T) A1
    generalize downLayer n (n - 1 - m) (bfStep (ctBf T)) A1 = A2 at sp ⊢
    have hcnt : n - (n - 1 - m) - 1 = m := by omega
    rw [hcnt] at sp
    have hlen : n - (m + 1) = n - 1 - m := by omega
    have hlen2 : 2 ^ (n - m) = 2 * 2 ^ (n - 1 - m) := by rw [← pow_succ']; congr 1; omega
    rw [hlen2] at ih
    rw [hlen]
    generalize 2 ^ (n - 1 - m) = L at *
    intro j hj x hx
    rw [pow_succ] at hj
    have hj2 : j / 2 < 2 ^ m := by omega
    have hsq := hT.sq_root m (by omega) (j / 2) hj2
    have hx2 : x ^ (2 * L) = root T m (j / 2) := by
      rw [mul_comm, pow_mul, hx, ← hsq, root_succ_sq]
    rw [← ih (j / 2) hj2 x hx2, show 2 * L = L + L by ring, sum_range_add, ← sum_add_distrib]
    apply sum_congr rfl
    intro i hi
    have hi := mem_range.mp hi
    rcases Nat.mod_two_eq_zero_or_one j with he | he
    · have e1 : j * L + i = j / 2 * (2 * L) + i := by
        conv_lhs => rw [show j = j / 2 * 2 by omega]
        ring
      have hx' : x ^ L = T (2 ^ m + j / 2) := by rw [hx, root_succ]; simp [he]
      rw [e1, sp.lo _ hj2 i hi]
      simp only [ctBf]
      rw [← hx', pow_add, show j / 2 * (2 * L) + L + i = j / 2 * (L + L) + (L + i) by ring,
        show j / 2 * (2 * L) + i = j / 2 * (L + L) + i by ring]
      ring
    · have e1 : j * L + i = j / 2 * (2 * L) + L + i := by
        conv_lhs => rw [show j = j / 2 * 2 + 1 by omega]
        ring
      have hx' : x ^ L = -T (2 ^ m + j / 2) := by rw [hx, root_succ]; simp [he]
      rw [e1, sp.hi _ hj2 i hi]
      simp only [ctBf]
      rw [show T (2 ^ m + j / 2) = -x ^ L by rw [hx', neg_neg], pow_add,
        show j / 2 * (2 * L) + L + i = j / 2 * (L + L) + (L + i) by ring,
        show j / 2 * (2 * L) + i = j / 2 * (L + L) + i by ring]
      ring

/-- The forward transform evaluates at the leaf roots. -/
theorem downLayers_eval {n : ℕ} {T : ℕ → K} (hT : RootTable n T) (A : Mem K) (j : ℕ)
    (hj : j < 2 ^ n) :
    downLayers n (bfStep (ctBf T)) A j = ∑ i ∈ range (2 ^ n), A i * root T n j ^ i := by
  have := ct_eval hT A n le_rfl j hj (root T n j) (by simp)
  simp only [Nat.sub_self, pow_zero, mul_one, sum_range_one, Nat.add_zero] at this
  exact this

/-! ### Mutual inverses -/

theorem gs_ct_layer {n l : ℕ} (hl : l < n) {T : ℕ → K} (hT : RootTable n T) (A : Mem K) :
    ∀ j, j < 2 ^ n →
      upLayer n l (bfStep (gsBf T)) (downLayer n l (bfStep (ctBf T)) A) j = 2 * A j := by
  have hN := (layer_idx hl).2
  rw [← hN]
  have d := downLayer_spec hl (ctBf T) A
  have u := upLayer_spec hl (gsBf T) (downLayer n l (bfStep (ctBf T)) A)
  refine idx_cases ?_ ?_
  · intro b hb i hi
    rw [u.lo b hb i hi, d.lo b hb i hi, d.hi b hb i hi]
    simp only [gsBf, ctBf]
    ring
  · intro b hb i hi
    have hinv := hT.neg_inv (n - l - 1) (by omega) b hb
    rw [u.hi b hb i hi, d.lo b hb i hi, d.hi b hb i hi]
    simp only [gsBf, ctBf]
    linear_combination (2 * A (b * (2 * 2 ^ l) + 2 ^ l + i)) * hinv

theorem ct_gs_layer {n l : ℕ} (hl : l < n) {T : ℕ → K} (hT : RootTable n T) (A : Mem K) :
    ∀ j, j < 2 ^ n →
      downLayer n l (bfStep (ctBf T)) (upLayer n l (bfStep (gsBf T)) A) j = 2 * A j := by
  have hN := (layer_idx hl).2
  rw [← hN]
  have u := upLayer_spec hl (gsBf T) A
  have d := downLayer_spec hl (ctBf T) (upLayer n l (bfStep (gsBf T)) A)
  refine idx_cases ?_ ?_
  · intro b hb i hi
    have hinv := hT.neg_inv (n - l - 1) (by omega) b hb
    rw [d.lo b hb i hi, u.lo b hb i hi, u.hi b hb i hi]
    simp only [gsBf, ctBf]
    linear_combination (A (b * (2 * 2 ^ l) + i) - A (b * (2 * 2 ^ l) + 2 ^ l + i)) * hinv
  · intro b hb i hi
    have hinv := hT.neg_inv (n - l - 1) (by omega) b hb
    rw [d.hi b hb i hi, u.lo b hb i hi, u.hi b hb i hi]
    simp only [gsBf, ctBf]
    linear_combination (-(A (b * (2 * 2 ^ l) + i) - A (b * (2 * 2 ^ l) + 2 ^ l + i))) * hinv

theorem downLayer_scale {n l : ℕ} (hl : l < n) (T : ℕ → K) (c : K) {A B : Mem K}
    (h : RelBelow (2 ^ n) (fun x y => x = c * y) A B) :
    RelBelow (2 ^ n) (fun x y => x = c * y) (downLayer n l (bfStep (ctBf T)) A)
      (downLayer n l (bfStep (ctBf T)) B) := by
  have hN := (layer_idx hl).2
  rw [← hN] at h ⊢
  refine LayerSpec.rel (downLayer_spec hl _ _) (downLayer_spec hl _ _) ?_ h
  rintro i _ x x' y y' rfl rfl
  simp only [ctBf]
  constructor <;> ring

theorem upLayer_scale {n l : ℕ} (hl : l < n) (T : ℕ → K) (c : K) {A B : Mem K}
    (h : RelBelow (2 ^ n) (fun x y => x = c * y) A B) :
    RelBelow (2 ^ n) (fun x y => x = c * y) (upLayer n l (bfStep (gsBf T)) A)
      (upLayer n l (bfStep (gsBf T)) B) := by
  have hN := (layer_idx hl).2
  rw [← hN] at h ⊢
  refine LayerSpec.rel (upLayer_spec hl _ _) (upLayer_spec hl _ _) ?_ h
  rintro i _ x x' y y' rfl rfl
  simp only [gsBf]
  constructor <;> ring

theorem up_down {n : ℕ} {T : ℕ → K} (hT : RootTable n T) (A : Mem K) :
    ∀ j, j < 2 ^ n →
      upLayers n (bfStep (gsBf T)) (downLayers n (bfStep (ctBf T)) A) j = 2 ^ n * A j := by
  unfold upLayers downLayers
  -- layers m-1, ..., 0 undone by 0, ..., m-1
  have key : ∀ m, m ≤ n → ∀ A : Mem K, RelBelow (2 ^ n) (fun x y => x = 2 ^ m * y)
      (loop m (fun l a => upLayer n l (bfStep (gsBf T)) a)
        (loop m (fun j a => downLayer n (m - 1 - j) (bfStep (ctBf T)) a) A)) A := by
    intro m
    induction m with
    | zero => intro _ A j _; simp
    | succ m ih =>
      intro hm A
      rw [loop_succ, loop_succ']
      have e : (fun (i : ℕ) (a : Mem K) => downLayer n (m + 1 - 1 - (i + 1)) (bfStep (ctBf T)) a) =
          fun i a => downLayer n (m - 1 - i) (bfStep (ctBf T)) a := by
        funext i a; congr 1; omega
      rw [e]
      have h1 := ih (by omega) (downLayer n (m + 1 - 1 - 0) (bfStep (ctBf T)) A)
      have h2 := upLayer_scale (l := m) (by omega) T _ h1
      intro j hj
      rw [h2 j hj]
      simp only [Nat.add_sub_cancel, Nat.sub_zero]
      rw [gs_ct_layer (by omega) hT A j hj]
      ring
  exact key n le_rfl A

theorem down_up {n : ℕ} {T : ℕ → K} (hT : RootTable n T) (A : Mem K) :
    ∀ j, j < 2 ^ n →
      downLayers n (bfStep (ctBf T)) (upLayers n (bfStep (gsBf T)) A) j = 2 ^ n * A j := by
  unfold upLayers downLayers
  have key : ∀ m, m ≤ n → ∀ A : Mem K, RelBelow (2 ^ n) (fun x y => x = 2 ^ m * y)
      (loop m (fun j a => downLayer n (m - 1 - j) (bfStep (ctBf T)) a)
        (loop m (fun l a => upLayer n l (bfStep (gsBf T)) a) A)) A := by
    intro m
    induction m with
    | zero => intro _ A j _; simp
    | succ m ih =>
      intro hm A
      rw [loop_succ' m (fun (j : ℕ) (a : Mem K) => downLayer n (m + 1 - 1 - j) (bfStep (ctBf T)) a),
        loop_succ m (fun (l : ℕ) (a : Mem K) => upLayer n l (bfStep (gsBf T)) a)]
      have e : (fun (i : ℕ) (a : Mem K) => downLayer n (m + 1 - 1 - (i + 1)) (bfStep (ctBf T)) a) =
          fun i a => downLayer n (m - 1 - i) (bfStep (ctBf T)) a := by
        funext i a; congr 1; omega
      rw [e]
      have hscale : ∀ k, k ≤ m → ∀ (A B : Mem K) (c : K),
          RelBelow (2 ^ n) (fun x y => x = c * y) A B →
          RelBelow (2 ^ n) (fun x y => x = c * y)
            (loop k (fun i a => downLayer n (m - 1 - i) (bfStep (ctBf T)) a) A)
            (loop k (fun i a => downLayer n (m - 1 - i) (bfStep (ctBf T)) a) B) := by
        intro k
        induction k with
        | zero => intro _ A B c h; exact h
        | succ k ihk =>
          intro hk A B c h
          rw [loop_succ, loop_succ]
          exact downLayer_scale (by omega) T c (ihk (by omega) A B c h)
      have h0 := fun B => ct_gs_layer (l := m) (by omega) hT B
      have h1 := hscale m le_rfl _ _ 2 (h0 (loop m (fun l a => upLayer n l (bfStep (gsBf T)) a) A))
      have h2 := ih (by omega) A
      intro j hj
      simp only [Nat.add_sub_cancel, Nat.sub_zero] at h1 ⊢
      rw [h1 j hj, h2 j hj]
      ring
  exact key n le_rfl A

/-! ### Polynomials -/

theorem toPoly_eval (n : ℕ) (a : Mem K) (x : K) :
    (toPoly n a).eval x = ∑ i ∈ range n, a i * x ^ i := by
  simp [toPoly, eval_finsetSum]

theorem toPoly_coeff (n : ℕ) (a : Mem K) (i : ℕ) :
    (toPoly n a).coeff i = if i < n then a i else 0 := by
  simp [toPoly, coeff_C_mul, coeff_X_pow]

theorem toPoly_congr {n : ℕ} {a b : Mem K} (h : ∀ i, i < n → a i = b i) : toPoly n a = toPoly n b := by
  unfold toPoly
  apply sum_congr rfl
  intro i hi
  rw [h i (mem_range.mp hi)]

theorem toPoly_of_degree_lt {n : ℕ} {p : K[X]} (h : p.degree < n) : toPoly n p.coeff = p := by
  ext i
  rw [toPoly_coeff]
  split
  · rfl
  · rename_i hi
    exact (coeff_eq_zero_of_degree_lt (lt_of_lt_of_le h (by exact_mod_cast not_lt.mp hi))).symm

/-- Reduction modulo `X^n + 1` to a polynomial of degree below `n`. -/
theorem exists_rep [Nontrivial K] {n : ℕ} (hn : 0 < n) (p : K[X]) :
    ∃ d : Mem K, (X ^ n + 1 : K[X]) ∣ p - toPoly n d := by
  have hm : (X ^ n + 1 : K[X]).Monic := by
    have := monic_X_pow_add_C (R := K) (n := n) 1 (by omega)
    simpa using this
  have hd : (X ^ n + 1 : K[X]).degree = n := by
    have := degree_X_pow_add_C (R := K) (n := n) hn 1
    simpa using this
  refine ⟨(p %ₘ (X ^ n + 1)).coeff, ?_⟩
  rw [toPoly_of_degree_lt (by rw [← hd]; exact degree_modByMonic_lt _ hm)]
  refine ⟨p /ₘ (X ^ n + 1), ?_⟩
  have := modByMonic_add_div p (X ^ n + 1 : K[X])
  linear_combination -this

theorem eval_eq_of_dvd {n : ℕ} {p r : K[X]} (h : (X ^ n + 1 : K[X]) ∣ p - r) {x : K}
    (hx : x ^ n = -1) : p.eval x = r.eval x := by
  obtain ⟨c, hc⟩ := h
  have : p = r + (X ^ n + 1) * c := by rw [← hc]; ring
  rw [this]
  simp [hx]

/-- Residues modulo `X^n + 1` are determined by the values of the forward transform. -/
theorem dvd_of_evals [Nontrivial K] {n : ℕ} {T : ℕ → K} (hT : RootTable n T) (h2 : IsUnit (2 : K))
    {p : K[X]} {c : Mem K}
    (h : ∀ j, j < 2 ^ n → p.eval (root T n j) = (toPoly (2 ^ n) c).eval (root T n j)) :
    (X ^ (2 ^ n) + 1 : K[X]) ∣ p - toPoly (2 ^ n) c := by
  obtain ⟨d, hd⟩ := exists_rep (n := 2 ^ n) (by positivity) p
  have heq : ∀ j, j < 2 ^ n → d j = c j := by
    have hev : RelBelow (2 ^ n) Eq (downLayers n (bfStep (ctBf T)) d)
        (downLayers n (bfStep (ctBf T)) c) := by
      intro j hj
      rw [downLayers_eval hT d j hj, downLayers_eval hT c j hj, ← toPoly_eval, ← toPoly_eval,
        ← h j hj]
      exact (eval_eq_of_dvd hd (hT.root_pow n le_rfl j hj)).symm
    have hup := upLayers_rel (R := Eq) n (bf := gsBf T) (bg := gsBf T)
      (by rintro k _ x _ y _ rfl rfl; exact ⟨rfl, rfl⟩) hev
    intro j hj
    have h3 := hup j hj
    rw [up_down hT d j hj, up_down hT c j hj] at h3
    exact (IsUnit.mul_right_inj (h2.pow n)).mp h3
  rw [toPoly_congr heq] at hd
  exact hd

end Falcon
