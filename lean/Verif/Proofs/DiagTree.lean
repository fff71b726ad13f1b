import Verif.Proofs.DiagFloat
import Verif.Proofs.TreeExact
import Verif.Proofs.Mirror

/-!
# The leaves of the LDL* tree in floating point
-/

namespace Falcon

/-- The tree below a diagonal entry of size 2^(k+1), as the code computes it. -/
def dTree {R C : Type} (A : Arith R C) : ℕ → Mem C → FTree C
  | 0, d => .leaf (d 0)
  | k + 1, d =>
    let e0 := (splitS A (k + 1) d).1
    let l : Mem C := fun i => A.cdiv (A.conj ((splitS A (k + 1) d).2 i)) (e0 i)
    .node l (dTree A k e0) (dTree A k fun i => A.csub (A.conj (e0 i)) (A.cmul (A.cmul (l i) (A.conj (l i))) (e0 i)))

theorem ldlTree_eq {R C : Type} (A : Arith R C) : ∀ (k : ℕ) (g00 g10 g11 : Mem C),
    ldlTree A A.conj (k + 1) g00 g10 g11 = .node (fun i => A.cdiv (g10 i) (g00 i)) (dTree A k g00)
      (dTree A k fun i => A.csub (g11 i) (A.cmul (A.cmul (A.cdiv (g10 i) (g00 i)) (A.conj (A.cdiv (g10 i) (g00 i)))) (g00 i))) := by
  intro k
  induction k with
  | zero => intro g00 g10 g11; rfl
  | succ k ih =>
    intro g00 g10 g11
    have hc : ∀ d : Mem C, ldlTree A A.conj (k + 1) (splitS A (k + 1) d).1 (fun i => A.conj ((splitS A (k + 1) d).2 i))
        (fun i => A.conj ((splitS A (k + 1) d).1 i)) = dTree A (k + 1) d := fun d => by rw [ih]; rfl
    rw [ldlTree]
    simp only [Nat.succ_ne_zero, if_false, hc]

/-- Bound of the error of the polynomials at the inner nodes of height `k`. -/
noncomputable def dK (k : ℕ) : ℝ :=
  11 / 10 * (1 / 1000 + ((9 - k : ℕ) : ℝ) / 300 + (1 / 2500 + 1 / 2 ^ 16) * 2 ^ (9 - k) / 8)

/-- The polynomials at the inner nodes are bounded and close to real polynomials. -/
def LBound : ℕ → FTree ℂ → Prop
  | _, .leaf _ => True
  | k, .node l L R => (∀ i, i < 2 ^ k → ‖l i‖ ≤ 101 / 100) ∧ (∃ y, ConjSym k y ∧ ∀ i, i < 2 ^ k → ‖l i - y i‖ ≤ dK k) ∧
    LBound (k - 1) L ∧ LBound (k - 1) R

/-- A leaf whose real part is accurate to 4 percent. -/
def LeafNear (v x : ℂ) : Prop := ∃ y : ℝ, x = y ∧ |v.re - y| ≤ 1 / 25 * y

theorem diag_near {A : Arith ℝ ℂ} (hA : Accurate A) {k : ℕ} {d : Mem ℂ} {t : FTree ℂ} (ht : DiagTree k d t) :
    ∀ (r : ℕ → ℝ) (x : Mem ℂ) (e i : ℝ), k ≤ 10 → (∀ j, j < 2 ^ k → d j = r j) →
      (∀ j, j < 2 ^ k → 8 ≤ r j ∧ r j ≤ 2 ^ 25) → (∀ j, j < 2 ^ k → NearPos e i (x j) (r j)) →
      (∀ j, j < 2 ^ k → r (2 ^ k - 1 - j) = r j) → 1 / 1000 ≤ e → e ≤ 1 / 1000 + ((10 - k : ℕ) : ℝ) / 300 →
      i + 1 / 2 ^ 16 ≤ (1 / 2500 + 1 / 2 ^ 16) * 2 ^ (10 - k) →
      List.Forall₂ LeafNear (dTree A (k - 1) x).leaves t.leaves ∧ LBound (k - 1) (dTree A (k - 1) x) := by
  induction ht with
  | leaf d =>
    intro r x e i _ hd hr hx _ _ he _
    refine ⟨?_, trivial⟩
    simp only [Nat.sub_self, dTree, FTree.leaves]
    refine List.Forall₂.cons ⟨r 0, hd 0 (by norm_num), ?_⟩ List.Forall₂.nil
    have h1 := (hx 0 (by norm_num)).1
    have h2 := (hr 0 (by norm_num)).1
    refine h1.trans (mul_le_mul_of_nonneg_right ?_ (by linarith))
    norm_num at he
    linarith
  | @node k d e0 e1 l d0 d1 L R hk hs hl hL hR ihL ihR =>
    intro r x e i hk10 hd hr hx hsym he1 he hi
    have hp : 2 ^ (k + 1) = 2 * 2 ^ k := by rw [pow_succ]; ring
    have key := node_means hk10 hs hl hd (fun j hj => by have := (hr j hj).1; linarith)
    have h2k : 2 ^ k ≤ 512 := (Nat.pow_le_pow_right (by norm_num) (by omega : k ≤ 9)).trans (by norm_num)
    obtain ⟨m, rfl⟩ : ∃ m, k = m + 1 := ⟨k - 1, by omega⟩
    simp only [Nat.add_sub_cancel] at ihL ihR hi ⊢
    have hi0 : 0 ≤ i := (abs_nonneg _).trans (hx 0 (by positivity)).2
    obtain ⟨w, hw1, hw2, hw3⟩ : ∃ w, 10 - (m + 1) = w + 1 ∧ 10 - (m + 1 + 1) = w ∧ w ≤ 8 := ⟨8 - m, by omega, by omega, by omega⟩
    have hdK : dK (m + 1) = 11 / 10 * (1 / 1000 + (w : ℝ) / 300 + (1 / 2500 + 1 / 2 ^ 16) * 2 ^ w / 8) := by
      unfold dK; rw [show 9 - (m + 1) = w by omega]
    rw [hw2] at he hi
    rw [hw1] at ihL ihR
    have hwr : (w : ℝ) ≤ 8 := by exact_mod_cast hw3
    have hw2r : (2 : ℝ) ^ w ≤ 2 ^ 8 := pow_le_pow_right₀ (by norm_num) hw3
    have hi' : 2 * i + 1 / 2 ^ 16 + 1 / 2 ^ 16 ≤ (1 / 2500 + 1 / 2 ^ 16) * 2 ^ (w + 1) := by
      rw [pow_succ (2 : ℝ) w]; linarith
    have hi4 : 2 * i + 1 / 2 ^ 16 ≤ 1 / 4 := by
      rw [pow_succ (2 : ℝ) w] at hi'
      norm_num at hi' hw2r ⊢
      linarith
    have he' : e + 1 / 300 ≤ 1 / 1000 + ((w + 1 : ℕ) : ℝ) / 300 := by push_cast; linarith
    have he4 : e + 1 / 300 ≤ 1 / 25 := by linarith
    have step := fun j (hj : j < 2 ^ (m + 1)) => step_near hA (hr (2 * j) (by omega)).1 (hr (2 * j) (by omega)).2
      (hr (2 * j + 1) (by omega)).1 (hr (2 * j + 1) (by omega)).2 (hx (2 * j) (by omega)) (hx (2 * j + 1) (by omega)) he4 hi4
      (e0 := (splitS A (m + 1) x).1 j) (e1 := (splitS A (m + 1) x).2 j) (c := A.conj ((splitS A (m + 1) x).2 j))
      (k := 2 ^ (m + 1) + j) (by omega) rfl rfl (by rw [hA.conj, RCLike.norm_conj])
    have quo := fun j (hj : j < 2 ^ (m + 1)) => quot_near hA (hr (2 * j) (by omega)).1 (hr (2 * j) (by omega)).2
      (hr (2 * j + 1) (by omega)).1 (hr (2 * j + 1) (by omega)).2 (hx (2 * j) (by omega)) (hx (2 * j + 1) (by omega)) he1
      (by linarith) (by norm_num at hi4; linarith)
      (e0 := (splitS A (m + 1) x).1 j) (e1 := (splitS A (m + 1) x).2 j) (k := 2 ^ (m + 1) + j) (by omega) rfl rfl
    have hsy : ∀ j, j < 2 ^ (m + 1) → r (2 * (2 ^ (m + 1) - 1 - j)) = r (2 * j + 1) ∧
        r (2 * (2 ^ (m + 1) - 1 - j) + 1) = r (2 * j) := by
      intro j hj
      constructor
      · rw [← hsym (2 * j + 1) (by omega)]; congr 1; omega
      · rw [← hsym (2 * j) (by omega)]; congr 1; omega
    obtain ⟨l1, l2⟩ := ihL (fun j => (r (2 * j) + r (2 * j + 1)) / 2) (splitS A (m + 1) x).1 (e + 1 / 300)
      (2 * i + 1 / 2 ^ 16) (by omega) (fun j hj => (key j hj).1)
      (fun j hj => by
        have h1 := hr (2 * j) (by omega)
        have h2 := hr (2 * j + 1) (by omega)
        constructor <;> linarith) (fun j hj => (step j hj).1)
      (fun j hj => by obtain ⟨s1, s2⟩ := hsy j hj; rw [s1, s2]; ring) (by linarith) he' hi'
    obtain ⟨r1, r2⟩ := ihR (fun j => 2 * r (2 * j) * r (2 * j + 1) / (r (2 * j) + r (2 * j + 1))) _ (e + 1 / 300)
      (2 * i + 1 / 2 ^ 16) (by omega) (fun j hj => (key j hj).2)
      (fun j hj => by
        obtain ⟨h1, h1'⟩ := hr (2 * j) (by omega)
        obtain ⟨h2, h2'⟩ := hr (2 * j + 1) (by omega)
        generalize r (2 * j) = a at *
        generalize r (2 * j + 1) = b at *
        constructor
        · rw [le_div_iff₀ (by linarith)]; nlinarith
        · rw [div_le_iff₀ (by linarith)]
          have := mul_le_mul_of_nonneg_left h1' (by linarith : 0 ≤ b)
          have := mul_le_mul_of_nonneg_left h2' (by linarith : 0 ≤ a)
          linarith) (fun j hj => (step j hj).2.1)
      (fun j hj => by obtain ⟨s1, s2⟩ := hsy j hj; rw [s1, s2]; ring) (by linarith) he' hi'
    refine ⟨?_, fun j hj => (step j hj).2.2, ?_, l2, r2⟩
    swap
    · refine ⟨fun j => (((r (2 * j) - r (2 * j + 1)) / (r (2 * j) + r (2 * j + 1)) : ℝ) : ℂ) * cT (2 ^ (m + 1) + j), ?_, ?_⟩
      · intro j hj
        obtain ⟨s1, s2⟩ := hsy j hj
        beta_reduce
        rw [s1, s2, cT_compl (by omega) j hj, map_mul, Complex.conj_ofReal]
        have e1 : (r (2 * j + 1) - r (2 * j)) / (r (2 * j + 1) + r (2 * j))
            = -((r (2 * j) - r (2 * j + 1)) / (r (2 * j) + r (2 * j + 1))) := by
          rw [add_comm (r (2 * j + 1)), ← neg_div, neg_sub]
        rw [e1]; push_cast; ring
      · intro j hj
        refine (quo j hj).trans ?_
        rw [hdK]
        have : i / 8 ≤ (1 / 2500 + 1 / 2 ^ 16) * 2 ^ w / 8 := by
          have h0 : (0 : ℝ) ≤ 1 / 2 ^ 16 := by positivity
          linarith
        linarith
    simp only [dTree, FTree.leaves]
    exact List.rel_append l1 r1

end Falcon
