import Verif.Proofs.FloatVec
import Verif.Proofs.NtruGen

/-!
# The reduction of the NTRU solver: when it stops, and what its quotient is
-/

namespace Falcon

open Finset Polynomial

/-! ### When the loop stops -/

theorem loop_or_false (N : ℕ) (P : ℕ → Bool) (h : loop N (fun i b => b || P i) false = false) (i : ℕ)
    (hi : i < N) : P i = false := by
  induction N with
  | zero => omega
  | succ N ih =>
    rw [loop_succ, Bool.or_eq_false_iff] at h
    rcases Nat.lt_or_ge i N with h1 | h1
    · exact ih h.1 h1
    · have : i = N := by omega
      rw [this]; exact h.2

/-- The loop stops when (F, G) is shorter than (f, g) or when the rounded quotient vanishes. -/
theorem reduceLoop_exit (quot : RedQuot) (k : ℕ) (f g : Mem ℤ) (blen0 : ℕ) :
    ∀ (fuel : ℕ) (F G F' G' : Mem ℤ), reduceLoop quot k f g blen0 fuel F G = some (.ok (F', G')) →
      bitLenPair (2 ^ k) F' G' < blen0 ∨
      ∃ kr, quot k (scaled blen0 f) (scaled blen0 g) (scaled (bitLenPair (2 ^ k) F' G') F')
        (scaled (bitLenPair (2 ^ k) F' G') G') = .ok kr ∧ ∀ i, i < 2 ^ k → kr i = 0 := by
  intro fuel
  induction fuel with
  | zero => intro F G F' G' h; cases h
  | succ fuel ih =>
    intro F G F' G' h
    rw [reduceLoop] at h
    simp only at h
    split at h
    · rename_i hlt
      obtain ⟨rfl, rfl⟩ := Prod.mk.inj (Except.ok.inj (Option.some.inj h))
      exact Or.inl hlt
    · split at h
      · cases h
      · rename_i kr hq
        split at h
        · rename_i hz
          obtain ⟨rfl, rfl⟩ := Prod.mk.inj (Except.ok.inj (Option.some.inj h))
          refine Or.inr ⟨kr, hq, fun i hi => ?_⟩
          have := loop_or_false (2 ^ k) (fun i => decide (kr i ≠ 0)) (by simpa using hz) i hi
          simpa using this
        · exact ih _ _ _ _ h

/-- The result of the solver above the base case is a result of the reduction. -/
theorem ntruSolve_exit (quot : RedQuot) (fuel k : ℕ) (f g F G : Mem ℤ)
    (h : ntruSolve quot fuel (k + 1) f g = some (.ok (some (F, G)))) :
    bitLenPair (2 ^ (k + 1)) F G < bitLenPair (2 ^ (k + 1)) f g ∨
    ∃ kr, quot (k + 1) (scaled (bitLenPair (2 ^ (k + 1)) f g) f) (scaled (bitLenPair (2 ^ (k + 1)) f g) g)
      (scaled (bitLenPair (2 ^ (k + 1)) F G) F) (scaled (bitLenPair (2 ^ (k + 1)) F G) G) = .ok kr ∧
      ∀ i, i < 2 ^ (k + 1) → kr i = 0 := by
  rw [ntruSolve] at h
  simp only at h
  obtain ⟨ret, -, h⟩ := bindO_ok h
  cases ret with
  | none => cases h
  | some FG' =>
    obtain ⟨F', G'⟩ := FG'
    simp only at h
    obtain ⟨FG, hred, h⟩ := bindO_ok h
    obtain rfl := Option.some.inj (Except.ok.inj (Option.some.inj h))
    exact reduceLoop_exit _ _ _ _ _ _ _ _ _ _ hred

/-! ### The quotient -/

theorem loopE_fill_inv (e : ℕ → Except UB ℤ) (N : ℕ) : ∀ (m m' : Mem ℤ),
    loopE N (fun i m => (e i).bind fun v => .ok (upd m i v)) m = .ok m' → ∀ i, i < N → e i = .ok (m' i) := by
  induction N with
  | zero => intro m m' _ i hi; omega
  | succ N ih =>
    intro m m' h i hi
    rw [loopE] at h
    cases hl : loopE N (fun i m => (e i).bind fun v => .ok (upd m i v)) m with
    | error u => rw [hl] at h; cases h
    | ok m1 =>
      rw [hl] at h
      have h : (e N).bind (fun v => .ok (upd m1 N v)) = .ok m' := h
      cases he : e N with
      | error u => rw [he] at h; cases h
      | ok v =>
        rw [he] at h
        have h := Except.ok.inj (show Except.ok (upd m1 N v) = Except.ok m' from h)
        rcases Nat.lt_or_ge i N with h1 | h1
        · rw [ih m m1 hl i h1, ← h, upd_ne _ _ _ _ (by omega)]
        · have : i = N := by omega
          rw [this, he, ← h, upd_same]

section
variable {R C : Type} (A : Arith R C)

/-- The array of an integer polynomial before the transform. -/
def toCx (k : ℕ) (a : Mem ℤ) : Mem C := loop (1 <<< k) (fun i m => upd m i (A.ofInt (a i))) (junkC A)

/-- The quotient at one point. -/
def quoAt (x y u v : C) : C :=
  A.cdiv (A.cadd (A.cmul u (A.conj x)) (A.cmul v (A.conj y)))
    (A.cadd (A.cmul x (A.conj x)) (A.cmul y (A.conj y)))

theorem redQuot_at {k : ℕ} {f g F G kr : Mem ℤ} (h : redQuot A k f g F G = .ok kr) :
    ∃ Q : Mem C, (∀ j, j < 2 ^ k → Q j = quoAt A (fft A k (toCx A k f) j) (fft A k (toCx A k g) j)
      (fft A k (toCx A k F) j) (fft A k (toCx A k G) j)) ∧
    ∀ i, i < 2 ^ k → A.roundTo (-2 ^ 63) (2 ^ 63 - 1) (A.re (ifft A k Q i)) = .ok (kr i) := by
  unfold redQuot at h
  simp only at h
  refine ⟨_, ?_, fun i hi => loopE_fill_inv _ _ _ _ h i (by rw [one_shiftLeft']; exact hi)⟩
  intro j hj
  simp only [polyDivC_at, polyAddC_at, polyMulC_at, adjPoly_at, memcpy_at, if_pos hj, one_shiftLeft']
  unfold quoAt toCx
  simp only [one_shiftLeft']

end

end Falcon
