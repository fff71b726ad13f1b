import Verif.Proofs.Gram
import Verif.Proofs.SignExact
import Verif.Props.Tree

/-!
# Signing depends only on the used part of the matrix and on the tree stored
-/

namespace Falcon

section
variable {R C : Type} (A : Arith R C)

theorem polyMulC_congr (n : ℕ) {a a' b b' : Mem C} (c : Mem C) (ha : ∀ i, i < 2 ^ n → a i = a' i)
    (hb : ∀ i, i < 2 ^ n → b i = b' i) : polyMulC A n a b c = polyMulC A n a' b' c := by
  funext j
  rw [polyMulC_at, polyMulC_at]
  split
  · rename_i h; rw [ha j h, hb j h]
  · rfl

theorem memcpy_congr {N : ℕ} {a a' : Mem C} (b : Mem C) (h : ∀ i, i < N → a i = a' i) :
    memcpy N a b = memcpy N a' b := by
  unfold memcpy
  exact loop_congr fun i hi t => by rw [h i hi]

/-- The Gram matrix reads only the 4N entries of the matrix. -/
theorem gramMatrix_congr (n : ℕ) {B B' : Mem C} (G : Mem C) (h : ∀ x, x < 4 * 2 ^ n → B x = B' x) :
    gramMatrix A n B G = gramMatrix A n B' G := by
  have h0 : ∀ i, i < 2 ^ n → B i = B' i := fun i hi => h i (by omega)
  have h1 : ∀ b i, b < 4 → i < 2 ^ n → ptr B (b * 2 ^ n) i = ptr B' (b * 2 ^ n) i := by
    intro b i hb hi
    refine h _ ?_
    have : b * 2 ^ n ≤ 3 * 2 ^ n := Nat.mul_le_mul_right _ (by omega)
    omega
  have h1' : ∀ i, i < 2 ^ n → ptr B (2 ^ n) i = ptr B' (2 ^ n) i := fun i hi => h _ (by omega)
  unfold gramMatrix
  simp only
  rw [one_shiftLeft', memcpy_congr (a := B) (a' := B') (N := 2 ^ n * 2 * 2) _ (fun i hi => h i (by omega))]
  have e0 : ∀ y, polyMulC A n B y = polyMulC A n B' y := fun y => by
    funext c; exact polyMulC_congr A n c h0 (fun _ _ => rfl)
  have e1 : ∀ y, polyMulC A n (ptr B (2 ^ n)) y = polyMulC A n (ptr B' (2 ^ n)) y := fun y => by
    funext c; exact polyMulC_congr A n c h1' (fun _ _ => rfl)
  have e2 : ∀ y, polyMulC A n (ptr B (2 * 2 ^ n)) y = polyMulC A n (ptr B' (2 * 2 ^ n)) y := fun y => by
    funext c; exact polyMulC_congr A n c (fun i hi => h1 2 i (by omega) hi) (fun _ _ => rfl)
  have e3 : ∀ y, polyMulC A n (ptr B (3 * 2 ^ n)) y = polyMulC A n (ptr B' (3 * 2 ^ n)) y := fun y => by
    funext c; exact polyMulC_congr A n c (fun i hi => h1 3 i (by omega) hi) (fun _ _ => rfl)
  simp only [e0, e1, e2, e3]

/-- The matrix depends only on the N coefficients of each polynomial. -/
theorem computeMatrixB_congr (n : ℕ) {f g F G f' g' F' G' : Mem Int} (B B' : Mem C)
    (h : ∀ i, i < 2 ^ n → f i = f' i ∧ g i = g' i ∧ F i = F' i ∧ G i = G' i) (x : ℕ) (hx : x < 4 * 2 ^ n) :
    computeMatrixB A n f g F G B x = computeMatrixB A n f' g' F' G' B' x := by
  have hN : 0 < 2 ^ n := by positivity
  have hb : x / 2 ^ n < 4 := (Nat.div_lt_iff_lt_mul hN).mpr hx
  have hi := Nat.mod_lt x hN
  have hxe : x = x / 2 ^ n * 2 ^ n + x % 2 ^ n := (Nat.div_add_mod' x (2 ^ n)).symm
  rw [hxe, (computeMatrixB_at A n f g F G B).1 _ _ hb hi, (computeMatrixB_at A n f' g' F' G' B').1 _ _ hb hi]
  refine fft_congr A n (fun j hj => ?_) _ hi
  obtain ⟨e1, e2, e3, e4⟩ := h j hj
  generalize x / 2 ^ n = b
  unfold basisCol
  split <;> simp only [e1, e2, e3, e4]

theorem signTarget_congr (n : ℕ) {B B' : Mem C} (c : Mem Ff) (h : ∀ x, x < 4 * 2 ^ n → B x = B' x) :
    signTarget A n B c = signTarget A n B' c := by
  unfold signTarget
  simp only
  rw [one_shiftLeft',
    polyMulC_congr A n (a := fft A n _) (b := ptr B (3 * 2 ^ n)) (b' := ptr B' (3 * 2 ^ n)) _ (fun _ _ => rfl)
      (fun i hi => h _ (by omega)),
    polyMulC_congr A n (a := fft A n _) (b := ptr B (2 ^ n)) (b' := ptr B' (2 ^ n)) _ (fun _ _ => rfl)
      (fun i hi => h _ (by omega))]

theorem signVec_congr (n : ℕ) {B B' : Mem C} (t0 t1 z0 z1 : Mem C) (h : ∀ x, x < 4 * 2 ^ n → B x = B' x) :
    signVec A n B t0 t1 z0 z1 = signVec A n B' t0 t1 z0 z1 := by
  have e : ∀ (p : ℕ) (y c : Mem C), p ≤ 3 * 2 ^ n → polyMulC A n y (ptr B p) c = polyMulC A n y (ptr B' p) c :=
    fun p y c hp => polyMulC_congr A n c (fun _ _ => rfl) (fun i hi => h _ (by omega))
  have e0 : ∀ (y c : Mem C), polyMulC A n y B c = polyMulC A n y B' c :=
    fun y c => polyMulC_congr A n c (fun _ _ => rfl) (fun i hi => h _ (by omega))
  unfold signVec
  simp only
  rw [one_shiftLeft', e0, e (2 * 2 ^ n) _ _ (by omega), e (2 ^ n) _ _ (by omega), e (3 * 2 ^ n) _ _ (by omega)]

/-- Two runs related to the same run of the specification are equal. -/
theorem SampRel.eq {k : ℕ} {z0 z1 : Mem C} {x y r : Option (Except UB (Mem C × Mem C × ℕ))}
    (hx : SampRel k z0 z1 x r) (hy : SampRel k z0 z1 y r) : x = y := by
  rcases r with _ | _ | r <;> rcases x with _ | _ | x <;> rcases y with _ | _ | y <;>
    first | exact hx.elim | exact hy.elim | rfl | skip
  · rw [show _ = _ from hx, show _ = _ from hy]
  · obtain ⟨a1, a2, a3⟩ := hx
    obtain ⟨b1, b2, b3⟩ := hy
    have e1 : x.1 = y.1 := by
      funext i
      by_cases hi : i < 2 ^ k
      · rw [(a2 i hi).1, (b2 i hi).1]
      · rw [(a3 i (by omega)).1, (b3 i (by omega)).1]
    have e2 : x.2.1 = y.2.1 := by
      funext i
      by_cases hi : i < 2 ^ k
      · rw [(a2 i hi).2, (b2 i hi).2]
      · rw [(a3 i (by omega)).2, (b3 i (by omega)).2]
    rw [show x = y from Prod.ext e1 (Prod.ext e2 (a1.trans b1.symm))]

theorem signLoop_congr (leaf : LeafSampler R) (n : ℕ) {B B' T T' : Mem C} (t0 t1 : Mem C) {t : FTree C}
    (hB : ∀ x, x < 4 * 2 ^ n → B x = B' x) (hT : TRep n 0 T t) (hT' : TRep n 0 T' t) :
    ∀ (fuel : ℕ) (sig : Mem UInt8) (pos : ℕ),
    signLoop A leaf n B T t0 t1 fuel sig pos = signLoop A leaf n B' T' t0 t1 fuel sig pos := by
  intro fuel
  induction fuel with
  | zero => intro sig pos; rfl
  | succ fuel ih =>
    intro sig pos
    unfold signLoop
    have h1 := ffSampling_rel A leaf n 0 t0 t1 T (junkC A) (junkC A) t0 t1 pos t hT (fun _ _ => rfl) (fun _ _ => rfl)
    have h2 := ffSampling_rel A leaf n 0 t0 t1 T' (junkC A) (junkC A) t0 t1 pos t hT' (fun _ _ => rfl) (fun _ _ => rfl)
    rw [h1.eq h2]
    congr 1
    funext z
    simp only
    rw [signVec_congr A n _ _ _ _ hB]
    simp only [ih]

/-- Signing depends only on the 4N entries of the matrix and the tree stored in the array. -/
theorem signPoly_congr (xof : Xof) (leaf : LeafSampler R) (fuel hfuel n : ℕ) {B B' T T' : Mem C} {t : FTree C}
    (hB : ∀ x, x < 4 * 2 ^ n → B x = B' x) (hT : TRep n 0 T t) (hT' : TRep n 0 T' t)
    (stream : ℕ → UInt8) (msg : List UInt8) (sig : Mem UInt8) (pos : ℕ) :
    signPoly A xof leaf fuel hfuel n B T stream msg sig pos =
      signPoly A xof leaf fuel hfuel n B' T' stream msg sig pos := by
  unfold signPoly
  simp only
  split
  · rfl
  · rename_i c _
    rw [signTarget_congr A n c hB, signLoop_congr A leaf n _ _ hB hT hT']

/-- The tree computed depends only on the 4N entries of the matrix. -/
theorem computeFalconTree_rep (n : ℕ) (hn : 1 ≤ n) {B B' : Mem C} (T T' : Mem C)
    (hB : ∀ x, x < 4 * 2 ^ n → B x = B' x) : ∃ t, TRep n 0 (computeFalconTree A n B T) t ∧
      TRep n 0 (computeFalconTree A n B' T') t := by
  unfold computeFalconTree
  simp only
  rw [gramMatrix_congr A n (junkC A) hB]
  have h1 := (C46_normalization A (sigSigma A n) n hn _ _ (C46_construction A n hn (gramMatrix A n B' (junkC A)) T).1).1
  have h2 := (C46_normalization A (sigSigma A n) n hn _ _ (C46_construction A n hn (gramMatrix A n B' (junkC A)) T').1).1
  rw [treeAt_root] at h1 h2
  exact ⟨_, h1, h2⟩

end

end Falcon
