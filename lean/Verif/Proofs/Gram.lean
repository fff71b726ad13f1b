import Verif.Proofs.Tree

/-!
# The basis matrix and its Gram matrix, for every arithmetic
-/

namespace Falcon

section
variable {R C : Type} (A : Arith R C)

theorem loop_four {α : Type} (N : ℕ) (c : ℕ → ℕ → α) (B : Mem α) : ∀ m, m ≤ N →
    let B' := loop m (fun i B => upd (upd (upd (upd B i (c 0 i)) (N + i) (c 1 i)) (2 * N + i) (c 2 i))
      (3 * N + i) (c 3 i)) B
    (∀ b i, b < 4 → i < m → B' (b * N + i) = c b i) ∧ ∀ x, 4 * N ≤ x → B' x = B x := by
  intro m
  induction m with
  | zero => intro _; exact ⟨fun b i _ hi => by omega, fun x _ => rfl⟩
  | succ m ih =>
    intro hm
    have ih := ih (by omega)
    simp only at ih ⊢
    rw [loop_succ]
    generalize loop m (fun i B => upd (upd (upd (upd B i (c 0 i)) (N + i) (c 1 i)) (2 * N + i) (c 2 i))
      (3 * N + i) (c 3 i)) B = B' at ih ⊢
    constructor
    · intro b i hb hi
      have hb4 : b = 0 ∨ b = 1 ∨ b = 2 ∨ b = 3 := by omega
      by_cases him : i = m
      · subst him
        rcases hb4 with rfl | rfl | rfl | rfl
        · rw [zero_mul, zero_add, upd_ne _ _ _ _ (by omega), upd_ne _ _ _ _ (by omega), upd_ne _ _ _ _ (by omega),
            upd_same]
        · rw [one_mul, upd_ne _ _ _ _ (by omega), upd_ne _ _ _ _ (by omega), upd_same]
        · rw [upd_ne _ _ _ _ (by omega), upd_same]
        · rw [upd_same]
      · have h := ih.1 b i hb (by omega)
        have hx : b * N = 0 ∨ b * N = N ∨ b * N = 2 * N ∨ b * N = 3 * N := by
          rcases hb4 with rfl | rfl | rfl | rfl <;> omega
        rw [upd_ne _ _ _ _ (by omega), upd_ne _ _ _ _ (by omega), upd_ne _ _ _ _ (by omega),
          upd_ne _ _ _ _ (by omega), h]
    · intro x hx
      rw [upd_ne _ _ _ _ (by omega), upd_ne _ _ _ _ (by omega), upd_ne _ _ _ _ (by omega),
        upd_ne _ _ _ _ (by omega), ih.2 x hx]

/-- Four blocks of length `N`, each transformed in place by a function that only touches the block. -/
theorem four_blocks {α : Type} {N : ℕ} (hN : 0 < N) (F : Mem α → Mem α)
    (hF : ∀ a b : Mem α, (∀ i, i < N → a i = b i) → ∀ i, i < N → F a i = F b i)
    (hfr : ∀ (a : Mem α) i, N ≤ i → F a i = a i) (B : Mem α) (c : ℕ → Mem α)
    (hB : ∀ b i, b < 4 → i < N → B (b * N + i) = c b i) :
    (∀ b i, b < 4 → i < N → atPtr (3 * N) F (atPtr (2 * N) F (atPtr N F (F B))) (b * N + i) = F (c b) i) ∧
    ∀ x, 4 * N ≤ x → atPtr (3 * N) F (atPtr (2 * N) F (atPtr N F (F B))) x = B x := by
  have hat : ∀ p (X : Mem α) x, (x < p ∨ p + N ≤ x) → atPtr p F X x = X x := by
    intro p X x hx
    rcases hx with hx | hx
    · exact atPtr_lt hx F X
    · rw [atPtr_ge (by omega), hfr _ _ (by omega)]
      unfold ptr; congr 1; omega
  have hin : ∀ p (X : Mem α) (d : Mem α), (∀ i, i < N → X (p + i) = d i) → ∀ i, i < N →
      atPtr p F X (p + i) = F d i := by
    intro p X d hd i hi
    rw [atPtr_add]; exact hF _ _ hd i hi
  constructor
  · intro b i hb hi
    have hb4 : b = 0 ∨ b = 1 ∨ b = 2 ∨ b = 3 := by omega
    rcases hb4 with rfl | rfl | rfl | rfl
    · rw [zero_mul, zero_add, hat _ _ _ (by omega), hat _ _ _ (by omega), hat _ _ _ (by omega)]
      exact hF _ _ (fun i hi => by have := hB 0 i (by omega) hi; rwa [zero_mul, zero_add] at this) i hi
    · rw [one_mul, hat _ _ _ (by omega), hat _ _ _ (by omega)]
      refine hin _ _ _ (fun i hi => ?_) i hi
      rw [hfr _ _ (by omega)]
      have := hB 1 i (by omega) hi
      rwa [one_mul] at this
    · rw [hat _ _ _ (by omega)]
      refine hin _ _ _ (fun i hi => ?_) i hi
      rw [hat _ _ _ (by omega), hfr _ _ (by omega)]
      exact hB 2 i (by omega) hi
    · refine hin _ _ _ (fun i hi => ?_) i hi
      rw [hat _ _ _ (by omega), hat _ _ _ (by omega), hfr _ _ (by omega)]
      exact hB 3 i (by omega) hi
  · intro x hx
    rw [hat _ _ _ (by omega), hat _ _ _ (by omega), hat _ _ _ (by omega), hfr _ _ (by omega)]

/-- The coefficients of the four entries of the basis matrix. -/
def basisCol (f g F G : Mem Int) : ℕ → Mem C
  | 0 => fun i => A.ofReal (A.lit (g i))
  | 1 => fun i => A.ofReal (A.neg (A.lit (f i)))
  | 2 => fun i => A.ofReal (A.lit (G i))
  | _ => fun i => A.ofReal (A.neg (A.lit (F i)))

theorem computeMatrixB_at (n : ℕ) (f g F G : Mem Int) (B : Mem C) :
    (∀ b i, b < 4 → i < 2 ^ n →
      computeMatrixB A n f g F G B (b * 2 ^ n + i) = fft A n (basisCol A f g F G b) i) ∧
    ∀ x, 4 * 2 ^ n ≤ x → computeMatrixB A n f g F G B x = B x := by
  unfold computeMatrixB
  simp only
  rw [one_shiftLeft']
  have h := loop_four (2 ^ n) (fun b i => basisCol A f g F G b i) B (2 ^ n) le_rfl
  simp only [basisCol] at h
  generalize loop (2 ^ n) _ B = B' at h ⊢
  have h2 := four_blocks (N := 2 ^ n) (by positivity) (fft A n) (fun a b hab i hi => fft_congr A n hab i hi)
    (fun a i hi => fft_frame A n a i hi) B' (basisCol A f g F G) (by
      intro b i hb hi
      have hb4 : b = 0 ∨ b = 1 ∨ b = 2 ∨ b = 3 := by omega
      rw [h.1 b i hb hi]
      rcases hb4 with rfl | rfl | rfl | rfl <;> rfl)
  exact ⟨h2.1, fun x hx => by rw [h2.2 x hx, h.2 x hx]⟩

/-- One entry of the Gram matrix. -/
def gramEntry (x y u v : C) : C := A.cadd (A.cmul x (A.conj u)) (A.cmul y (A.conj v))

theorem atPtr_mulAdd (n p : ℕ) (x y u v tmp0 X : Mem C) (j : ℕ) :
    atPtr p (fun G => polyAddToC A n G (polyMulC A n y v tmp0)) (atPtr p (polyMulC A n x u) X) j
      = if p ≤ j ∧ j < p + 2 ^ n then A.cadd (A.cmul (x (j - p)) (u (j - p))) (A.cmul (y (j - p)) (v (j - p)))
        else X j := by
  by_cases h1 : j < p
  · rw [atPtr_lt h1, atPtr_lt h1, if_neg (by omega)]
  · rw [atPtr_ge (by omega), polyAddToC_at, ptr_atPtr]
    by_cases h2 : j < p + 2 ^ n
    · rw [if_pos (by omega : j - p < 2 ^ n), if_pos (by omega : p ≤ j ∧ j < p + 2 ^ n), polyMulC_at,
        if_pos (by omega), polyMulC_at, if_pos (by omega)]
    · rw [if_neg (by omega : ¬ j - p < 2 ^ n), if_neg (by omega : ¬ (p ≤ j ∧ j < p + 2 ^ n)), polyMulC_at,
        if_neg (by omega)]
      unfold ptr; congr 1; omega

theorem gramMatrix_at (n : ℕ) (B G : Mem C) (i : ℕ) (hi : i < 2 ^ n) :
    gramMatrix A n B G i = gramEntry A (B i) (B (2 ^ n + i)) (B i) (B (2 ^ n + i)) ∧
    gramMatrix A n B G (2 ^ n + i) =
      gramEntry A (B i) (B (2 ^ n + i)) (B (2 * 2 ^ n + i)) (B (3 * 2 ^ n + i)) ∧
    gramMatrix A n B G (2 * 2 ^ n + i) =
      gramEntry A (B (2 * 2 ^ n + i)) (B (3 * 2 ^ n + i)) (B i) (B (2 ^ n + i)) ∧
    gramMatrix A n B G (3 * 2 ^ n + i) =
      gramEntry A (B (2 * 2 ^ n + i)) (B (3 * 2 ^ n + i)) (B (2 * 2 ^ n + i)) (B (3 * 2 ^ n + i)) := by
  have hadj := (four_blocks (N := 2 ^ n) (by positivity) (adjPoly A n)
    (fun a b hab i hi => by rw [adjPoly_at, adjPoly_at, if_pos hi, if_pos hi, hab i hi])
    (fun a i hi => by rw [adjPoly_at, if_neg (by omega)]) (memcpy (2 ^ n * 2 * 2) B (junkC A))
    (fun b i => B (b * 2 ^ n + i)) (by
      intro b i hb hi
      rw [memcpy_at, if_pos]
      have : b * 2 ^ n ≤ 3 * 2 ^ n := Nat.mul_le_mul_right _ (by omega)
      omega)).1
  have hadj : ∀ b i, b < 4 → i < 2 ^ n → atPtr (3 * 2 ^ n) (adjPoly A n) (atPtr (2 * 2 ^ n) (adjPoly A n)
      (atPtr (2 ^ n) (adjPoly A n) (adjPoly A n (memcpy (2 ^ n * 2 * 2) B (junkC A))))) (b * 2 ^ n + i)
      = A.conj (B (b * 2 ^ n + i)) := by
    intro b i hb hi
    rw [hadj b i hb hi, adjPoly_at, if_pos hi]
  unfold gramMatrix
  rw [one_shiftLeft']
  generalize atPtr (3 * 2 ^ n) (adjPoly A n) (atPtr (2 * 2 ^ n) (adjPoly A n)
      (atPtr (2 ^ n) (adjPoly A n) (adjPoly A n (memcpy (2 ^ n * 2 * 2) B (junkC A))))) = D at hadj ⊢
  have d0 := hadj 0 i (by omega) hi
  have d1 := hadj 1 i (by omega) hi
  have d2 := hadj 2 i (by omega) hi
  have d3 := hadj 3 i (by omega) hi
  rw [zero_mul, zero_add] at d0
  rw [one_mul] at d1
  unfold gramEntry
  rw [← d0, ← d1, ← d2, ← d3]
  simp only [atPtr_mulAdd]
  refine ⟨?_, ?_, ?_, ?_⟩
  · rw [if_neg (by omega), if_neg (by omega), if_neg (by omega), polyAddToC_at, if_pos hi, polyMulC_at, if_pos hi,
      polyMulC_at, if_pos hi]
    rfl
  · rw [if_neg (by omega), if_neg (by omega), if_pos (by omega), show 2 ^ n + i - 2 ^ n = i by omega]
    rfl
  · rw [if_neg (by omega), if_pos (by omega), show 2 * 2 ^ n + i - 2 * 2 ^ n = i by omega]
    rfl
  · rw [if_pos (by omega), show 3 * 2 ^ n + i - 3 * 2 ^ n = i by omega]
    rfl

end

end Falcon
