import Verif.TreeSpec
import Verif.Proofs.Fft

/-!
# The flat tree: layout, and refinement of the code to the functions on inductive trees
-/

namespace Falcon

/-- Relative version of `TreeAt`. -/
def TRep {C : Type} : (k level : ℕ) → Mem C → FTree C → Prop
  | 0, _, T, .leaf v => T 0 = v
  | k + 1, level, T, .node l L R => (∀ i, i < 2 ^ (k + 1) → T i = l i) ∧
    TRep k (level + 1) (ptr T (2 ^ level * 2 ^ (k + 1))) L ∧
    TRep k (level + 1) (ptr T (2 ^ level * 2 ^ (k + 1) + 2 ^ k)) R
  | _, _, _, _ => False

/-- The entries used by a tree of height `k` at level `level`, relative to its start. -/
def Slot (k level x : ℕ) : Prop := ∃ a b, x = 2 ^ (level + k) * a + b ∧ b < 2 ^ k ∧ a ≤ k

theorem ptr_ptr {C : Type} (T : Mem C) (p r : ℕ) : ptr (ptr T p) r = ptr T (p + r) := by
  funext i; unfold ptr; rw [add_assoc]

theorem treeAt_iff_rep {C : Type} (K : ℕ) (T : Mem C) (t : FTree C) : ∀ (k d j : ℕ), d + k = K →
    (TreeAt K T d j t ↔ TRep k d (ptr T (d * 2 ^ K + j * 2 ^ k)) t) := by
  induction t with
  | leaf v =>
    intro k d j hk
    cases k with
    | zero =>
      simp only [TreeAt, TRep, ptr]
      have : K - d = 0 := by omega
      rw [this]
      simp only [pow_zero, Nat.add_zero]
      exact ⟨fun h => h.2, fun h => ⟨by omega, h⟩⟩
    | succ k =>
      simp only [TreeAt, TRep]
      constructor
      · intro h; omega
      · intro h; exact h.elim
  | node l L R ihL ihR =>
    intro k d j hk
    cases k with
    | zero =>
      simp only [TreeAt, TRep]
      constructor
      · intro h; omega
      · intro h; exact h.elim
    | succ k =>
      simp only [TreeAt, TRep]
      have e : K - d = k + 1 := by omega
      have hW : 2 ^ d * 2 ^ (k + 1) = 2 ^ K := by rw [← pow_add, hk]
      rw [ihL k (d + 1) (2 * j) (by omega), ihR k (d + 1) (2 * j + 1) (by omega), ptr_ptr, ptr_ptr, hW, e]
      have e1 : (d + 1) * 2 ^ K + 2 * j * 2 ^ k = d * 2 ^ K + j * 2 ^ (k + 1) + 2 ^ K := by
        rw [pow_succ]; ring
      have e2 : (d + 1) * 2 ^ K + (2 * j + 1) * 2 ^ k = d * 2 ^ K + j * 2 ^ (k + 1) + (2 ^ K + 2 ^ k) := by
        rw [pow_succ]; ring
      rw [e1, e2]
      constructor
      · rintro ⟨_, h⟩; exact h
      · intro h; exact ⟨by omega, h⟩

theorem treeAt_root {C : Type} (K : ℕ) (T : Mem C) (t : FTree C) : TreeAt K T 0 0 t ↔ TRep K 0 T t := by
  have h := treeAt_iff_rep K T t K 0 0 (by omega)
  rw [h]
  have : ptr T (0 * 2 ^ K + 0 * 2 ^ K) = T := by
    funext i; unfold ptr; congr 1; ring
  rw [this]

theorem slot_own {k level x : ℕ} (h : x < 2 ^ k) : Slot k level x := ⟨0, x, by ring, h, by omega⟩

theorem slot_left {k level y : ℕ} (h : Slot k (level + 1) y) :
    Slot (k + 1) level (2 ^ level * 2 ^ (k + 1) + y) := by
  obtain ⟨a, b, rfl, hb, ha⟩ := h
  refine ⟨a + 1, b, ?_, ?_, by omega⟩
  · rw [← pow_add, show level + 1 + k = level + (k + 1) by ring]; ring
  · rw [pow_succ]; omega

theorem slot_right {k level y : ℕ} (h : Slot k (level + 1) y) :
    Slot (k + 1) level (2 ^ level * 2 ^ (k + 1) + 2 ^ k + y) := by
  obtain ⟨a, b, rfl, hb, ha⟩ := h
  refine ⟨a + 1, 2 ^ k + b, ?_, ?_, by omega⟩
  · rw [← pow_add, show level + 1 + k = level + (k + 1) by ring]; ring
  · rw [pow_succ]; omega

/-- The right child writes nothing of the left child. -/
theorem slot_disjoint {k level y : ℕ} (h : Slot k (level + 1) y) (hy : 2 ^ k ≤ y) :
    ¬ Slot k (level + 1) (y - 2 ^ k) := by
  obtain ⟨a, b, rfl, hb, ha⟩ := h
  rintro ⟨a', b', he, hb', _⟩
  have hW : 2 ^ k * 2 ≤ 2 ^ (level + 1 + k) := by
    rw [← pow_succ]; exact Nat.pow_le_pow_right (by norm_num) (by omega)
  generalize 2 ^ (level + 1 + k) = W at *
  generalize 2 ^ k = H at *
  have h1 : (W * a + b) % W = b := by rw [Nat.mul_add_mod, Nat.mod_eq_of_lt (by omega)]
  have h2 : (W * a' + (H + b')) % W = H + b' := by rw [Nat.mul_add_mod, Nat.mod_eq_of_lt (by omega)]
  have h3 : W * a + b = W * a' + (H + b') := by omega
  rw [h3, h2] at h1
  omega

theorem own_le_off (k level : ℕ) : 2 ^ (k + 1) ≤ 2 ^ level * 2 ^ (k + 1) :=
  Nat.le_mul_of_pos_left _ (by positivity)

theorem slot_zero {k x : ℕ} : Slot k 0 x ↔ x < (k + 1) * 2 ^ k := by
  unfold Slot
  rw [zero_add]
  constructor
  · rintro ⟨a, b, rfl, hb, ha⟩
    calc 2 ^ k * a + b < 2 ^ k * a + 2 ^ k := by omega
      _ = (a + 1) * 2 ^ k := by ring
      _ ≤ (k + 1) * 2 ^ k := Nat.mul_le_mul_right _ (by omega)
  · intro h
    refine ⟨x / 2 ^ k, x % 2 ^ k, (Nat.div_add_mod _ _).symm, Nat.mod_lt _ (by positivity), ?_⟩
    have := Nat.div_lt_of_lt_mul (m := x) (n := 2 ^ k) (k := k + 1) (by rw [mul_comm]; exact h)
    omega

/-! ### Pointers -/

theorem ptr_atPtr {C : Type} (p : ℕ) (f : Mem C → Mem C) (T : Mem C) : ptr (atPtr p f T) p = f (ptr T p) := by
  funext i
  unfold ptr atPtr
  rw [if_neg (by omega), show p + i - p = i by omega]

theorem atPtr_lt {C : Type} {p x : ℕ} (h : x < p) (f : Mem C → Mem C) (T : Mem C) : atPtr p f T x = T x := by
  unfold atPtr; rw [if_pos h]

theorem atPtr_ge {C : Type} {p x : ℕ} (h : p ≤ x) (f : Mem C → Mem C) (T : Mem C) :
    atPtr p f T x = f (ptr T p) (x - p) := by
  unfold atPtr; rw [if_neg (by omega)]; rfl

theorem atPtr_add {C : Type} (p i : ℕ) (f : Mem C → Mem C) (T : Mem C) :
    atPtr p f T (p + i) = f (ptr T p) i := by
  rw [atPtr_ge (by omega), show p + i - p = i by omega]

theorem rep_congr {C : Type} : ∀ (k level : ℕ) (T T' : Mem C) (t : FTree C),
    (∀ x, Slot k level x → T' x = T x) → TRep k level T t → TRep k level T' t := by
  intro k
  induction k with
  | zero =>
    intro level T T' t h hr
    cases t with
    | leaf v => simp only [TRep] at hr ⊢; rw [h 0 (slot_own (by norm_num)), hr]
    | node l L R => exact hr
  | succ k ih =>
    intro level T T' t h hr
    cases t with
    | leaf v => exact hr
    | node l L R =>
      simp only [TRep] at hr ⊢
      refine ⟨fun i hi => by rw [h i (slot_own hi), hr.1 i hi], ih _ _ _ _ ?_ hr.2.1, ih _ _ _ _ ?_ hr.2.2⟩
      · intro x hx; exact h _ (slot_left hx)
      · intro x hx; exact h _ (slot_right hx)

/-- A node whose children are written by `fl` and `fr`, which respect their slots. -/
theorem node_write {C : Type} (k level : ℕ) (l : Mem C) (T1 : Mem C) (fl fr : Mem C → Mem C) (L R : FTree C)
    (hl : ∀ i, i < 2 ^ (k + 1) → T1 i = l i)
    (frl : ∀ T x, ¬ Slot k (level + 1) x → fl T x = T x)
    (frr : ∀ T x, ¬ Slot k (level + 1) x → fr T x = T x)
    (hL : TRep k (level + 1) (fl (ptr T1 (2 ^ level * 2 ^ (k + 1)))) L)
    (hR : TRep k (level + 1) (fr (ptr (atPtr (2 ^ level * 2 ^ (k + 1)) fl T1) (2 ^ level * 2 ^ (k + 1) + 2 ^ k))) R) :
    TRep (k + 1) level (atPtr (2 ^ level * 2 ^ (k + 1) + 2 ^ k) fr (atPtr (2 ^ level * 2 ^ (k + 1)) fl T1))
      (.node l L R) := by
  have ho := own_le_off k level
  simp only [TRep]
  refine ⟨?_, ?_, ?_⟩
  · intro i hi
    rw [atPtr_lt (by omega), atPtr_lt (by omega), hl i hi]
  · rw [← ptr_atPtr (2 ^ level * 2 ^ (k + 1)) fl T1] at hL
    refine rep_congr _ _ _ _ _ ?_ hL
    intro x hx
    show atPtr _ fr _ (2 ^ level * 2 ^ (k + 1) + x) = atPtr _ fl T1 (2 ^ level * 2 ^ (k + 1) + x)
    by_cases hlt : x < 2 ^ k
    · rw [atPtr_lt (by omega)]
    · rw [atPtr_ge (by omega), frr]
      · unfold ptr; congr 1; omega
      · rw [show 2 ^ level * 2 ^ (k + 1) + x - (2 ^ level * 2 ^ (k + 1) + 2 ^ k) = x - 2 ^ k by omega]
        exact slot_disjoint hx (by omega)
  · rw [ptr_atPtr]
    exact hR

theorem node_frame {C : Type} (k level : ℕ) (T1 : Mem C) (fl fr : Mem C → Mem C)
    (frl : ∀ T x, ¬ Slot k (level + 1) x → fl T x = T x)
    (frr : ∀ T x, ¬ Slot k (level + 1) x → fr T x = T x) (x : ℕ) (hx : ¬ Slot (k + 1) level x) :
    atPtr (2 ^ level * 2 ^ (k + 1) + 2 ^ k) fr (atPtr (2 ^ level * 2 ^ (k + 1)) fl T1) x = T1 x := by
  have h1 : atPtr (2 ^ level * 2 ^ (k + 1)) fl T1 x = T1 x := by
    by_cases h : x < 2 ^ level * 2 ^ (k + 1)
    · rw [atPtr_lt h]
    · rw [atPtr_ge (by omega), frl]
      · unfold ptr; congr 1; omega
      · intro hs
        have := slot_left hs
        rw [show 2 ^ level * 2 ^ (k + 1) + (x - 2 ^ level * 2 ^ (k + 1)) = x by omega] at this
        exact hx this
  by_cases h : x < 2 ^ level * 2 ^ (k + 1) + 2 ^ k
  · rw [atPtr_lt h, h1]
  · rw [atPtr_ge (by omega), frr]
    · unfold ptr
      rw [show 2 ^ level * 2 ^ (k + 1) + 2 ^ k + (x - (2 ^ level * 2 ^ (k + 1) + 2 ^ k)) = x by omega, h1]
    · intro hs
      have := slot_right hs
      rw [show 2 ^ level * 2 ^ (k + 1) + 2 ^ k + (x - (2 ^ level * 2 ^ (k + 1) + 2 ^ k)) = x by omega] at this
      exact hx this

theorem slot_leaf_iff {level x : ℕ} : Slot 0 level x ↔ x = 0 := by
  constructor
  · rintro ⟨a, b, rfl, hb, ha⟩
    have : a = 0 := by omega
    subst this
    simp at hb
    simp [hb]
  · rintro rfl; exact slot_own (by norm_num)

section
variable {R C : Type} (A : Arith R C)

theorem N_half (k : ℕ) : 1 <<< (k + 1) / 2 = 2 ^ k := by
  rw [one_shiftLeft', pow_succ]; exact Nat.mul_div_cancel _ (by norm_num)

/-! ### ldl and the matrices of the children -/

theorem ldl_l (k : ℕ) (G l10 d00 d11 : Mem C) (i : ℕ) :
    (ldl A k G l10 d00 d11).1 i = if i < 2 ^ k then A.cdiv (G (2 * 2 ^ k + i)) (G i) else l10 i := by
  unfold ldl
  simp only
  rw [polyDivC_at, one_shiftLeft']
  rfl

theorem ldl_d00 (k : ℕ) (G l10 d00 d11 : Mem C) (i : ℕ) :
    (ldl A k G l10 d00 d11).2.1 i = if i < 2 ^ k then G i else d00 i := by
  unfold ldl
  simp only
  rw [memcpy_at, one_shiftLeft']

theorem ldl_d11 (k : ℕ) (G l10 d00 d11 : Mem C) (i : ℕ) :
    (ldl A k G l10 d00 d11).2.2 i = if i < 2 ^ k then
      A.csub (G (3 * 2 ^ k + i)) (A.cmul (A.cmul (A.cdiv (G (2 * 2 ^ k + i)) (G i))
        (A.conj (A.cdiv (G (2 * 2 ^ k + i)) (G i)))) (G i)) else d11 i := by
  unfold ldl
  simp only
  rw [polySubC_at]
  split
  · rename_i h
    rw [polyMulC_at, if_pos h, polyMulC_at, if_pos h, polyDivC_at, if_pos h, adjPoly_at, if_pos h, memcpy_at,
      if_pos (by rw [one_shiftLeft']; exact h), polyDivC_at, if_pos h, one_shiftLeft']
    rfl
  · rfl

theorem childGram_at (k : ℕ) (d0 d1 : Mem C) (i : ℕ) (hi : i < 2 ^ k) :
    childGram A (k + 1) d0 d1 i = d0 i ∧
    childGram A (k + 1) d0 d1 (2 * 2 ^ k + i) = A.conj (d1 i) ∧
    childGram A (k + 1) d0 d1 (3 * 2 ^ k + i) = A.conj (d0 i) := by
  unfold childGram
  rw [N_half, one_shiftLeft', pow_succ]
  refine ⟨?_, ?_, ?_⟩
  · rw [atPtr_lt (by omega), atPtr_lt (by omega), atPtr_lt (by omega), atPtr_lt (by omega), memcpy_at, if_pos hi]
  · rw [mul_comm 2 (2 ^ k), atPtr_add, adjPoly_at, if_pos (by rw [pow_succ]; omega)]
    unfold ptr
    rw [atPtr_lt (by omega), atPtr_add, memcpy_at, if_pos hi]
  · rw [show 3 * 2 ^ k + i = 2 ^ k * 2 + (2 ^ k + i) by ring, atPtr_add, adjPoly_at,
      if_pos (by rw [pow_succ]; omega)]
    unfold ptr
    rw [show 2 ^ k * 2 + (2 ^ k + i) = 2 ^ k * 2 + 2 ^ k + i by ring, atPtr_add, memcpy_at, if_pos hi]

/-! ### ffldl -/

theorem ffldl_frame : ∀ (k level : ℕ) (G T : Mem C) (x : ℕ), ¬ Slot k level x → ffldl A k level G T x = T x := by
  intro k
  induction k with
  | zero => intro level G T x _; rfl
  | succ k ih =>
    intro level G T x hx
    have hx2 : ¬ x < 2 ^ (k + 1) := fun h => hx (slot_own h)
    unfold ffldl
    simp only
    rw [N_half, one_shiftLeft', one_shiftLeft']
    split
    · rename_i hk
      subst hk
      have h := node_frame 0 level (ldl A 1 G T (junkC A) (junkC A)).1
        (memcpy (2 ^ 0) (ldl A 1 G T (junkC A) (junkC A)).2.1)
        (memcpy (2 ^ 0) (ldl A 1 G T (junkC A) (junkC A)).2.2)
        (fun T x hx => by
          rw [memcpy_at, if_neg]; intro h; exact hx (slot_own (by simpa using h)))
        (fun T x hx => by
          rw [memcpy_at, if_neg]; intro h; exact hx (slot_own (by simpa using h))) x hx
      rw [h, ldl_l, if_neg hx2]
    · rw [node_frame k level _ _ _ (fun T x hx => ih (level + 1) _ T x hx)
        (fun T x hx => ih (level + 1) _ T x hx) x hx, ldl_l, if_neg hx2]

theorem splitS_eq (k : ℕ) (f f0 f1 g : Mem C) (hfg : ∀ i, i < 2 ^ (k + 1) → f i = g i) (j : ℕ) (hj : j < 2 ^ k) :
    (splitFft A (k + 1) f f0 f1).1 j = (splitS A k g).1 j ∧
    (splitFft A (k + 1) f f0 f1).2 j = (splitS A k g).2 j := by
  have hp : 2 ^ (k + 1) = 2 * 2 ^ k := by rw [pow_succ]; ring
  rw [splitFft_fst, splitFft_snd, if_pos hj, if_pos hj, hfg _ (by omega), hfg _ (by omega)]
  exact ⟨rfl, rfl⟩

theorem mergeS_eq (k : ℕ) (f0 f1 f g0 g1 : Mem C) (h0 : ∀ i, i < 2 ^ k → f0 i = g0 i)
    (h1 : ∀ i, i < 2 ^ k → f1 i = g1 i) (j : ℕ) (hj : j < 2 ^ (k + 1)) :
    mergeFft A (k + 1) f0 f1 f j = mergeS A k g0 g1 j := by
  have hp : 2 ^ (k + 1) = 2 * 2 ^ k := by rw [pow_succ]; ring
  rw [mergeFft_at, if_pos hj, h0 _ (by omega), h1 _ (by omega)]
  rfl

theorem ffldl_rep : ∀ (k level : ℕ) (G T g00 g10 g11 : Mem C), 0 < k →
    (∀ i, i < 2 ^ k → G i = g00 i) → (∀ i, i < 2 ^ k → G (2 * 2 ^ k + i) = g10 i) →
    (∀ i, i < 2 ^ k → G (3 * 2 ^ k + i) = g11 i) →
    TRep k level (ffldl A k level G T) (ldlTree A A.conj k g00 g10 g11) := by
  intro k
  induction k with
  | zero => intro level G T g00 g10 g11 h; omega
  | succ k ih =>
    intro level G T g00 g10 g11 _ h00 h10 h11
    have hl : ∀ i, i < 2 ^ (k + 1) → (ldl A (k + 1) G T (junkC A) (junkC A)).1 i = A.cdiv (g10 i) (g00 i) := by
      intro i hi; rw [ldl_l, if_pos hi, h10 i hi, h00 i hi]
    have hd0 : ∀ i, i < 2 ^ (k + 1) → (ldl A (k + 1) G T (junkC A) (junkC A)).2.1 i = g00 i := by
      intro i hi; rw [ldl_d00, if_pos hi, h00 i hi]
    have hd1 : ∀ i, i < 2 ^ (k + 1) → (ldl A (k + 1) G T (junkC A) (junkC A)).2.2 i =
        A.csub (g11 i) (A.cmul (A.cmul (A.cdiv (g10 i) (g00 i)) (A.conj (A.cdiv (g10 i) (g00 i)))) (g00 i)) := by
      intro i hi; rw [ldl_d11, if_pos hi, h10 i hi, h00 i hi, h11 i hi]
    unfold ffldl ldlTree
    simp only
    rw [N_half, one_shiftLeft', one_shiftLeft']
    generalize ldl A (k + 1) G T (junkC A) (junkC A) = r at *
    by_cases hk : k = 0
    · subst hk
      simp only [if_true]
      refine node_write 0 level _ r.1 _ _ _ _ hl ?_ ?_ ?_ ?_
      · intro T x hx; rw [memcpy_at, if_neg]; intro h; exact hx (slot_own (by simpa using h))
      · intro T x hx; rw [memcpy_at, if_neg]; intro h; exact hx (slot_own (by simpa using h))
      · simp only [TRep]; rw [memcpy_at, if_pos (by norm_num), hd0 0 (by norm_num)]
      · simp only [TRep]; rw [memcpy_at, if_pos (by norm_num), hd1 0 (by norm_num)]
    · simp only [if_neg hk]
      have key : ∀ (D d : Mem C), (∀ i, i < 2 ^ (k + 1) → D i = d i) → ∀ T,
          TRep k (level + 1) (ffldl A k (level + 1) (childGram A (k + 1)
            (splitFft A (k + 1) D (junkC A) (junkC A)).1 (splitFft A (k + 1) D (junkC A) (junkC A)).2) T)
            (ldlTree A A.conj k (splitS A k d).1 (fun i => A.conj ((splitS A k d).2 i))
              (fun i => A.conj ((splitS A k d).1 i))) := by
        intro D d hD T
        refine ih (level + 1) _ T _ _ _ (by omega) ?_ ?_ ?_
        · intro i hi; rw [(childGram_at A k _ _ i hi).1, (splitS_eq A k D _ _ d hD i hi).1]
        · intro i hi; rw [(childGram_at A k _ _ i hi).2.1, (splitS_eq A k D _ _ d hD i hi).2]
        · intro i hi; rw [(childGram_at A k _ _ i hi).2.2, (splitS_eq A k D _ _ d hD i hi).1]
      refine node_write k level _ r.1 _ _ _ _ hl ?_ ?_ ?_ ?_
      · intro T x hx; exact ffldl_frame A k (level + 1) _ T x hx
      · intro T x hx; exact ffldl_frame A k (level + 1) _ T x hx
      · exact key _ _ hd0 _
      · exact key _ _ hd1 _

/-! ### normalize_tree -/

theorem normalizeTree_frame (sigma : R) : ∀ (k level : ℕ) (T : Mem C) (x : ℕ), ¬ Slot k level x →
    normalizeTree A sigma k level T x = T x := by
  intro k
  induction k with
  | zero => intro level T x _; rfl
  | succ k ih =>
    intro level T x hx
    unfold normalizeTree
    simp only
    rw [N_half, one_shiftLeft', one_shiftLeft']
    split
    · rename_i hk
      subst hk
      have h1 : x ≠ 2 ^ level * 2 ^ (0 + 1) := by
        rintro rfl; exact hx (by simpa using slot_left (slot_own (k := 0) (level := level + 1) (x := 0) (by norm_num)))
      have h2 : x ≠ 2 ^ level * 2 ^ (0 + 1) + 2 ^ 0 := by
        rintro rfl; exact hx (by simpa using slot_right (slot_own (k := 0) (level := level + 1) (x := 0) (by norm_num)))
      rw [upd_ne _ _ _ _ h2, upd_ne _ _ _ _ h1]
    · exact node_frame k level _ _ _ (fun T x hx => ih (level + 1) T x hx)
        (fun T x hx => ih (level + 1) T x hx) x hx

theorem normalizeTree_rep (sigma : R) : ∀ (k level : ℕ) (T : Mem C) (t : FTree C), 0 < k → TRep k level T t →
    TRep k level (normalizeTree A sigma k level T) (t.mapLeaves (normLeaf A sigma)) := by
  intro k
  induction k with
  | zero => intro level T t h; omega
  | succ k ih =>
    intro level T t _ hr
    cases t with
    | leaf v => exact hr.elim
    | node l L R =>
      have ho := own_le_off k level
      have hk0 : 0 < 2 ^ k := by positivity
      simp only [TRep] at hr
      unfold normalizeTree
      simp only [FTree.mapLeaves]
      rw [N_half, one_shiftLeft', one_shiftLeft']
      by_cases hk : k = 0
      · subst hk
        rw [if_pos rfl]
        obtain ⟨h1, h2, h3⟩ := hr
        cases L with
        | node _ _ _ => exact h2.elim
        | leaf v =>
        cases R with
        | node _ _ _ => exact h3.elim
        | leaf w =>
        simp only [TRep, ptr, FTree.mapLeaves, Nat.add_zero] at *
        refine ⟨?_, ?_, ?_⟩
        · intro i hi
          rw [upd_ne _ _ _ _ (by omega), upd_ne _ _ _ _ (by omega), h1 i hi]
        · rw [upd_ne _ _ _ _ (by omega), upd_same, h2]; rfl
        · rw [upd_same, upd_ne _ _ _ _ (by omega), h3]; rfl
      · rw [if_neg hk]
        refine node_write k level _ T _ _ _ _ hr.1 ?_ ?_ ?_ ?_
        · intro T x hx; exact normalizeTree_frame A sigma k (level + 1) T x hx
        · intro T x hx; exact normalizeTree_frame A sigma k (level + 1) T x hx
        · exact ih (level + 1) _ _ (by omega) hr.2.1
        · refine ih (level + 1) _ _ (by omega) (rep_congr _ _ _ _ _ ?_ hr.2.2)
          intro x hx
          show atPtr _ _ T (2 ^ level * 2 ^ (k + 1) + 2 ^ k + x) = T (2 ^ level * 2 ^ (k + 1) + 2 ^ k + x)
          rw [atPtr_ge (by omega), normalizeTree_frame]
          · unfold ptr; congr 1; omega
          · intro hs
            exact slot_disjoint hs (by omega) (by
              rwa [show 2 ^ level * 2 ^ (k + 1) + 2 ^ k + x - 2 ^ level * 2 ^ (k + 1) - 2 ^ k = x by omega])

end

end Falcon
