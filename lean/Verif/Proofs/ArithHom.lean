import Verif.ProgramSpec
import Verif.Model.Sign

/-! # Functions between arithmetics that respect the operations commute with the floating point code -/

namespace Falcon

variable {R C R' C' : Type}

/-- A pair of functions that respects all operations but comparison and rounding. -/
structure ArithHom (A : Arith R C) (A' : Arith R' C') (φ : R → R') (ψ : C → C') : Prop where
  lit : ∀ q, φ (A.lit q) = A'.lit q
  neg : ∀ x, φ (A.neg x) = A'.neg (φ x)
  add : ∀ x y, φ (A.add x y) = A'.add (φ x) (φ y)
  mul : ∀ x y, φ (A.mul x y) = A'.mul (φ x) (φ y)
  div : ∀ x y, φ (A.div x y) = A'.div (φ x) (φ y)
  sqrt : ∀ x, φ (A.sqrt x) = A'.sqrt (φ x)
  cx : ∀ x y, ψ (A.cx x y) = A'.cx (φ x) (φ y)
  re : ∀ x, φ (A.re x) = A'.re (ψ x)
  cadd : ∀ x y, ψ (A.cadd x y) = A'.cadd (ψ x) (ψ y)
  csub : ∀ x y, ψ (A.csub x y) = A'.csub (ψ x) (ψ y)
  cmul : ∀ x y, ψ (A.cmul x y) = A'.cmul (ψ x) (ψ y)
  cdiv : ∀ x y, ψ (A.cdiv x y) = A'.cdiv (ψ x) (ψ y)
  cneg : ∀ x, ψ (A.cneg x) = A'.cneg (ψ x)
  conj : ∀ x, ψ (A.conj x) = A'.conj (ψ x)
  scale : ∀ x y, ψ (A.scale x y) = A'.scale (φ x) (ψ y)
  tab : ∀ k, ψ (A.tab k) = A'.tab k

/-- Apply a function to every element. -/
def mp {α β : Type} (ψ : α → β) (m : Mem α) : Mem β := fun i => ψ (m i)

theorem mp_apply {α β : Type} (ψ : α → β) (m : Mem α) (i : ℕ) : mp ψ m i = ψ (m i) := rfl

theorem mp_upd {α β : Type} (ψ : α → β) (m : Mem α) (i : ℕ) (x : α) : mp ψ (upd m i x) = upd (mp ψ m) i (ψ x) := by
  funext j
  simp only [mp, upd]
  split <;> rfl

theorem loop_hom {σ τ : Type} (Φ : σ → τ) (n : ℕ) {f : ℕ → σ → σ} {f' : ℕ → τ → τ} (h : ∀ i m, Φ (f i m) = f' i (Φ m)) (m : σ) :
    Φ (loop n f m) = loop n f' (Φ m) := by
  induction n with
  | zero => rfl
  | succ n ih => rw [loop_succ, loop_succ, h, ih]

theorem mp_atPtr {α β : Type} (ψ : α → β) (p : ℕ) {f : Mem α → Mem α} {f' : Mem β → Mem β} (h : ∀ m, mp ψ (f m) = f' (mp ψ m))
    (b : Mem α) : mp ψ (atPtr p f b) = atPtr p f' (mp ψ b) := by
  funext i
  have h1 := congrFun (h (fun j => b (p + j))) (i - p)
  simp only [mp, atPtr] at h1 ⊢
  split
  · rfl
  · exact h1

theorem mp_ptr {α β : Type} (ψ : α → β) (b : Mem α) (p : ℕ) : mp ψ (ptr b p) = ptr (mp ψ b) p := rfl

theorem mp_putPtr {α β : Type} (ψ : α → β) (b : Mem α) (p : ℕ) (m : Mem α) : mp ψ (putPtr b p m) = putPtr (mp ψ b) p (mp ψ m) := by
  funext i
  simp only [mp, putPtr]
  split <;> rfl

theorem mp_memcpy {α β : Type} (ψ : α → β) (n : ℕ) (s d : Mem α) : mp ψ (memcpy n s d) = memcpy n (mp ψ s) (mp ψ d) :=
  loop_hom (mp ψ) n (fun i m => by rw [mp_upd]; rfl) d

theorem mp_downLayers {α β : Type} (ψ : α → β) (n : ℕ) {st : ℕ → ℕ → ℕ → Mem α → Mem α} {st' : ℕ → ℕ → ℕ → Mem β → Mem β}
    (h : ∀ k len i m, mp ψ (st k len i m) = st' k len i (mp ψ m)) (m : Mem α) :
    mp ψ (downLayers n st m) = downLayers n st' (mp ψ m) := by
  unfold downLayers
  refine loop_hom (mp ψ) _ (fun l m => ?_) m
  unfold downLayer
  refine loop_hom (mp ψ) _ (fun b m => ?_) m
  dsimp only
  refine loop_hom (mp ψ) _ (fun i m => ?_) m
  exact h _ _ _ m

theorem mp_upLayers {α β : Type} (ψ : α → β) (n : ℕ) {st : ℕ → ℕ → ℕ → Mem α → Mem α} {st' : ℕ → ℕ → ℕ → Mem β → Mem β}
    (h : ∀ k len i m, mp ψ (st k len i m) = st' k len i (mp ψ m)) (m : Mem α) :
    mp ψ (upLayers n st m) = upLayers n st' (mp ψ m) := by
  unfold upLayers
  refine loop_hom (mp ψ) _ (fun l m => ?_) m
  unfold upLayer
  refine loop_hom (mp ψ) _ (fun b m => ?_) m
  dsimp only
  refine loop_hom (mp ψ) _ (fun i m => ?_) m
  exact h _ _ _ m

section
variable {A : Arith R C} {A' : Arith R' C'} {φ : R → R'} {ψ : C → C'} (h : ArithHom A A' φ ψ)
include h

theorem hom_ofReal (x : R) : ψ (A.ofReal x) = A'.ofReal (φ x) := by
  simp only [Arith.ofReal, h.cx, h.lit]

theorem hom_ofInt (z : ℤ) : ψ (A.ofInt z) = A'.ofInt z := by
  simp only [Arith.ofInt, hom_ofReal h, h.lit]

theorem hom_junk : mp ψ (junkC A) = junkC A' := by
  funext i
  simp only [mp, junkC, hom_ofReal h, h.lit]

theorem hom_fft (n : ℕ) (v : Mem C) : mp ψ (fft A n v) = fft A' n (mp ψ v) :=
  mp_downLayers ψ n (fun k len i m => by simp only [fftStep, mp_upd, h.cadd, h.csub, h.cmul, h.tab, mp_apply, upd, apply_ite ψ]) v

theorem hom_ifft (n : ℕ) (v : Mem C) : mp ψ (ifft A n v) = ifft A' n (mp ψ v) := by
  have h1 := mp_upLayers ψ n (st := ifftStep A) (st' := ifftStep A') (fun k len i m => by
    simp only [ifftStep, mp_upd, h.cadd, h.csub, h.cmul, h.tab, h.cneg, mp_apply, upd, apply_ite ψ]) v
  simp only [ifft]
  rw [← h1]
  exact loop_hom (mp ψ) _ (fun i m => by simp only [mp_upd, h.scale, h.lit, mp_apply]) _

theorem hom_adj (n : ℕ) (v : Mem C) : mp ψ (adjPoly A n v) = adjPoly A' n (mp ψ v) :=
  loop_hom (mp ψ) _ (fun i m => by simp only [mp_upd, h.conj, mp_apply]) v

theorem hom_add (n : ℕ) (a b c : Mem C) : mp ψ (polyAddC A n a b c) = polyAddC A' n (mp ψ a) (mp ψ b) (mp ψ c) :=
  loop_hom (mp ψ) _ (fun i m => by simp only [mp_upd, h.cadd, mp_apply]) c

theorem hom_addTo (n : ℕ) (a b : Mem C) : mp ψ (polyAddToC A n a b) = polyAddToC A' n (mp ψ a) (mp ψ b) :=
  loop_hom (mp ψ) _ (fun i m => by simp only [mp_upd, h.cadd, mp_apply]) a

theorem hom_sub (n : ℕ) (a b c : Mem C) : mp ψ (polySubC A n a b c) = polySubC A' n (mp ψ a) (mp ψ b) (mp ψ c) :=
  loop_hom (mp ψ) _ (fun i m => by simp only [mp_upd, h.csub, mp_apply]) c

theorem hom_mul (n : ℕ) (a b c : Mem C) : mp ψ (polyMulC A n a b c) = polyMulC A' n (mp ψ a) (mp ψ b) (mp ψ c) :=
  loop_hom (mp ψ) _ (fun i m => by simp only [mp_upd, h.cmul, mp_apply]) c

theorem hom_div (n : ℕ) (a b c : Mem C) : mp ψ (polyDivC A n a b c) = polyDivC A' n (mp ψ a) (mp ψ b) (mp ψ c) :=
  loop_hom (mp ψ) _ (fun i m => by simp only [mp_upd, h.cdiv, mp_apply]) c

theorem hom_split1 (n : ℕ) (f a b : Mem C) : mp ψ (splitFft A n f a b).1 = (splitFft A' n (mp ψ f) (mp ψ a) (mp ψ b)).1 :=
  loop_hom (mp ψ) _ (fun i m => by simp only [mp_upd, h.cadd, h.scale, h.lit, mp_apply]) a

theorem hom_split2 (n : ℕ) (f a b : Mem C) : mp ψ (splitFft A n f a b).2 = (splitFft A' n (mp ψ f) (mp ψ a) (mp ψ b)).2 :=
  loop_hom (mp ψ) _ (fun i m => by simp only [mp_upd, h.csub, h.cmul, h.conj, h.tab, h.scale, h.lit, mp_apply]) b

theorem hom_merge (n : ℕ) (a b f : Mem C) : mp ψ (mergeFft A n a b f) = mergeFft A' n (mp ψ a) (mp ψ b) (mp ψ f) :=
  loop_hom (mp ψ) _ (fun i m => by simp only [mp_upd, h.cadd, h.csub, h.cmul, h.tab, mp_apply]) f

theorem hom_norm (n : ℕ) (v : Mem C) : φ (sqrdNormC A n v) = sqrdNormC A' n (mp ψ v) := by
  simp only [sqrdNormC, h.div, h.re, h.lit]
  congr 2
  rw [← h.lit, ← h.cx]
  exact loop_hom ψ _ (fun i m => by simp only [h.cadd, h.cmul, h.conj, mp_apply]) _

theorem hom_gram (k : ℕ) (B G : Mem C) : mp ψ (gramMatrix A k B G) = gramMatrix A' k (mp ψ B) (mp ψ G) := by
  have ha := hom_adj h k
  have h1 (p : ℕ) (t G : Mem C) : mp ψ (atPtr p (fun G => polyAddToC A k G t) G) = atPtr p (fun G => polyAddToC A' k G (mp ψ t)) (mp ψ G) :=
    mp_atPtr ψ _ (fun m => hom_addTo h k m _) G
  have h2 (p : ℕ) (a b G : Mem C) : mp ψ (atPtr p (polyMulC A k a b) G) = atPtr p (polyMulC A' k (mp ψ a) (mp ψ b)) (mp ψ G) :=
    mp_atPtr ψ _ (fun m => hom_mul h k _ _ m) G
  simp only [gramMatrix, h1, h2, mp_atPtr ψ _ ha, hom_addTo h, hom_mul h, mp_ptr, hom_adj h, mp_memcpy, hom_junk h]

theorem hom_ldl (k : ℕ) (G a b c : Mem C) : mp ψ (ldl A k G a b c).1 = (ldl A' k (mp ψ G) (mp ψ a) (mp ψ b) (mp ψ c)).1 ∧
    mp ψ (ldl A k G a b c).2.1 = (ldl A' k (mp ψ G) (mp ψ a) (mp ψ b) (mp ψ c)).2.1 ∧
    mp ψ (ldl A k G a b c).2.2 = (ldl A' k (mp ψ G) (mp ψ a) (mp ψ b) (mp ψ c)).2.2 := by
  simp only [ldl, hom_sub h, hom_mul h, hom_div h, hom_adj h, mp_memcpy, mp_ptr, hom_junk h, and_self]

theorem hom_child (k : ℕ) (a b : Mem C) : mp ψ (childGram A k a b) = childGram A' k (mp ψ a) (mp ψ b) := by
  simp only [childGram]
  simp only [mp_atPtr ψ _ (hom_adj h k), mp_atPtr ψ _ (fun m => mp_memcpy ψ _ _ m), mp_memcpy, hom_junk h]

theorem hom_ffldl (k : ℕ) : ∀ (level : ℕ) (G T : Mem C), mp ψ (ffldl A k level G T) = ffldl A' k level (mp ψ G) (mp ψ T) := by
  induction k with
  | zero => intro level G T; rfl
  | succ k ih =>
    intro level G T
    obtain ⟨h1, h2, h3⟩ := hom_ldl h (k + 1) G T (junkC A) (junkC A)
    rw [hom_junk h] at h1 h2 h3
    simp only [ffldl]
    split
    · simp only [mp_atPtr ψ _ (fun m => mp_memcpy ψ _ _ m), h1, h2, h3]
    · simp only [mp_atPtr ψ _ (fun m => ih _ _ m), hom_child h, hom_split1 h, hom_split2 h, hom_junk h, h1, h2, h3]

theorem hom_normalize (s : R) (k : ℕ) : ∀ (level : ℕ) (T : Mem C),
    mp ψ (normalizeTree A s k level T) = normalizeTree A' (φ s) k level (mp ψ T) := by
  induction k with
  | zero => intro level T; rfl
  | succ k ih =>
    intro level T
    simp only [normalizeTree]
    split
    · simp only [mp_upd, hom_ofReal h, h.div, h.sqrt, h.re, mp_apply, upd, apply_ite ψ]
    · simp only [mp_atPtr ψ _ (fun m => ih _ m)]

theorem hom_tree (n : ℕ) (B T : Mem C) : mp ψ (computeFalconTree A n B T) = computeFalconTree A' n (mp ψ B) (mp ψ T) := by
  simp only [computeFalconTree, hom_normalize h, hom_ffldl h, hom_gram h, hom_junk h]
  congr 1
  simp only [sigSigma]
  split <;> rw [h.lit]

theorem hom_vec (n : ℕ) (B t0 t1 z0 z1 : Mem C) :
    mp ψ (signVec A n B t0 t1 z0 z1).1 = (signVec A' n (mp ψ B) (mp ψ t0) (mp ψ t1) (mp ψ z0) (mp ψ z1)).1 ∧
    mp ψ (signVec A n B t0 t1 z0 z1).2 = (signVec A' n (mp ψ B) (mp ψ t0) (mp ψ t1) (mp ψ z0) (mp ψ z1)).2 := by
  simp only [signVec, hom_addTo h, hom_mul h, hom_sub h, mp_ptr, hom_junk h, and_self]

end

end Falcon
