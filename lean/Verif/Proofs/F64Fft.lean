import Verif.Proofs.F64
import Verif.Proofs.Gram
import Verif.Proofs.Tree

/-!
# Finite binary64 runs: transforms, splitting and merging
-/

namespace Falcon

theorem LayerSpec.rel2 {α β : Type} {R R' : α → β → Prop} {bf : ℕ → α → α → α × α}
    {bg : ℕ → β → β → β × β} {tk cnt len} {a a' : Mem α} {b b' : Mem β}
    (h : LayerSpec bf tk cnt len a a') (h' : LayerSpec bg tk cnt len b b')
    (hbf : ∀ i, i < cnt → ∀ x x' y y', R x x' → R y y' →
      R' (bf (tk i) x y).1 (bg (tk i) x' y').1 ∧ R' (bf (tk i) x y).2 (bg (tk i) x' y').2)
    (hr : RelBelow (cnt * (2 * len)) R a b) : RelBelow (cnt * (2 * len)) R' a' b' := by
  have hix : ∀ b, b < cnt → b * (2 * len) + 2 * len ≤ cnt * (2 * len) := by
    intro b hb
    calc b * (2 * len) + 2 * len = (b + 1) * (2 * len) := by ring
      _ ≤ cnt * (2 * len) := Nat.mul_le_mul_right _ hb
  refine idx_cases ?_ ?_
  · intro c hc i hi
    have := hix c hc
    rw [h.lo c hc i hi, h'.lo c hc i hi]
    exact (hbf c hc _ _ _ _ (hr _ (by omega)) (hr _ (by omega))).1
  · intro c hc i hi
    have := hix c hc
    rw [h.hi c hc i hi, h'.hi c hc i hi]
    exact (hbf c hc _ _ _ _ (hr _ (by omega)) (hr _ (by omega))).2

theorem downLayers_rel2 {α β : Type} {R : ℕ → α → β → Prop} (n : ℕ) {bf : ℕ → α → α → α × α}
    {bg : ℕ → β → β → β × β}
    (hbf : ∀ m, m < n → ∀ k, k < 2 ^ n → ∀ x x' y y', R m x x' → R m y y' →
      R (m + 1) (bf k x y).1 (bg k x' y').1 ∧ R (m + 1) (bf k x y).2 (bg k x' y').2)
    {a : Mem α} {b : Mem β} (hr : RelBelow (2 ^ n) (R 0) a b) :
    RelBelow (2 ^ n) (R n) (downLayers n (bfStep bf) a) (downLayers n (bfStep bg) b) := by
  unfold downLayers
  have : ∀ m, m ≤ n → RelBelow (2 ^ n) (R m)
      (loop m (fun j a => downLayer n (n - 1 - j) (bfStep bf) a) a)
      (loop m (fun j a => downLayer n (n - 1 - j) (bfStep bg) a) b) := by
    intro m
    induction m with
    | zero => intro _; exact hr
    | succ m ih =>
      intro hm
      rw [loop_succ, loop_succ]
      have hl : n - 1 - m < n := by omega
      have hN := (layer_idx hl).2
      have h0 : 0 < 2 ^ (n - 1 - m) := by positivity
      have := LayerSpec.rel2 (R := R m) (R' := R (m + 1)) (downLayer_spec hl bf _) (downLayer_spec hl bg _)
        (fun i hi => hbf m (by omega) _ (by nlinarith)) (by rw [hN]; exact ih (by omega))
      rwa [hN] at this
  exact this n le_rfl

theorem upLayers_rel2 {α β : Type} {R : ℕ → α → β → Prop} (n : ℕ) {bf : ℕ → α → α → α × α}
    {bg : ℕ → β → β → β × β}
    (hbf : ∀ m, m < n → ∀ k, k < 2 ^ n → ∀ x x' y y', R m x x' → R m y y' →
      R (m + 1) (bf k x y).1 (bg k x' y').1 ∧ R (m + 1) (bf k x y).2 (bg k x' y').2)
    {a : Mem α} {b : Mem β} (hr : RelBelow (2 ^ n) (R 0) a b) :
    RelBelow (2 ^ n) (R n) (upLayers n (bfStep bf) a) (upLayers n (bfStep bg) b) := by
  unfold upLayers
  have : ∀ m, m ≤ n → RelBelow (2 ^ n) (R m)
      (loop m (fun j a => upLayer n j (bfStep bf) a) a)
      (loop m (fun j a => upLayer n j (bfStep bg) a) b) := by
    intro m
    induction m with
    | zero => intro _; exact hr
    | succ m ih =>
      intro hm
      rw [loop_succ, loop_succ]
      have hl : m < n := by omega
      have hN := (layer_idx hl).2
      have h0 : 0 < 2 ^ m := by positivity
      have h1 : 0 < 2 ^ (n - m - 1) := by positivity
      have := LayerSpec.rel2 (R := R m) (R' := R (m + 1)) (upLayer_spec hl bf _) (upLayer_spec hl bg _)
        (fun i hi => hbf m (by omega) _ (by
          have : 2 * 2 ^ (n - m - 1) ≤ 2 ^ n := by nlinarith
          omega)) (by rw [hN]; exact ih (by omega))
      rwa [hN] at this
  exact this n le_rfl

section
variable {A : Arith F64 (F64 × F64)} {A' : Arith ℝ ℂ} (hS : Sim A A')
include hS

theorem finC_fft {n e : ℕ} (hn : n ≤ 10) (he : e ≤ 900) {a : Mem (F64 × F64)} {z : Mem ℂ}
    (h : RelBelow (2 ^ n) (FinC e) a z) : RelBelow (2 ^ n) (FinC (e + 30)) (fft A n a) (fft A' n z) := by
  have hp : 2 ^ n ≤ 1024 := (Nat.pow_le_pow_right (by norm_num) hn).trans (by norm_num)
  rw [fft_eq, fft_eq]
  have := downLayers_rel2 (R := fun m => FinC (e + 3 * m)) n (bf := fftBf A) (bg := fftBf A') (by
    intro m hm k hk x x' y y' hx hy
    have ht := hS.cmul (hS.tab (by omega : k < 1024)) hy (by omega)
    have hx' := hx.mono (by omega : e + 3 * m ≤ 1 + (e + 3 * m) + 1)
    exact ⟨(hS.cadd hx' ht (by omega)).mono (by omega), (hS.csub hx' ht (by omega)).mono (by omega)⟩) h
  exact fun j hj => (this j hj).mono (by omega)

theorem finC_ifft {n e : ℕ} (hn : n ≤ 10) (he : e ≤ 900) {a : Mem (F64 × F64)} {z : Mem ℂ}
    (h : RelBelow (2 ^ n) (FinC e) a z) : RelBelow (2 ^ n) (FinC (e + 30)) (ifft A n a) (ifft A' n z) := by
  have hp : 2 ^ n ≤ 1024 := (Nat.pow_le_pow_right (by norm_num) hn).trans (by norm_num)
  have := upLayers_rel2 (R := fun m => FinC (e + 3 * m)) n (bf := ifftBf A) (bg := ifftBf A') (by
    intro m hm k hk x x' y y' hx hy
    have ht := hS.cneg (hS.tab (by omega : k < 1024))
    exact ⟨(hS.cadd hx hy (by omega)).mono (by omega),
      (hS.cmul (hS.csub hx hy (by omega)) ht (by omega)).mono (by omega)⟩) h
  intro j hj
  rw [ifft_eq, ifft_eq, if_pos hj, if_pos hj]
  exact (hS.scale (hS.unit n) (this j hj) (by omega)).mono (by omega)

theorem finC_splitS {k e : ℕ} (hk : k + 1 ≤ 10) (he : e ≤ 900) {a : Mem (F64 × F64)} {z : Mem ℂ}
    (h : RelBelow (2 ^ (k + 1)) (FinC e) a z) :
    RelBelow (2 ^ k) (FinC (e + 3)) (splitS A k a).1 (splitS A' k z).1 ∧
    RelBelow (2 ^ k) (FinC (e + 3)) (splitS A k a).2 (splitS A' k z).2 := by
  have hp : 2 ^ (k + 1) ≤ 1024 := (Nat.pow_le_pow_right (by norm_num) hk).trans (by norm_num)
  have hp2 : 2 ^ (k + 1) = 2 * 2 ^ k := by rw [pow_succ]; ring
  constructor
  · intro i hi
    exact (hS.scale hS.half (hS.cadd (h (2 * i) (by omega)) (h (2 * i + 1) (by omega)) (by omega)) (by omega)).mono (by omega)
  · intro i hi
    have h1 := hS.scale hS.half
      (hS.csub (h (2 * i) (by omega)) (h (2 * i + 1) (by omega)) (by omega)) (by omega)
    exact (hS.cmul h1 (hS.conj (hS.tab (by omega : 2 ^ k + i < 1024))) (by omega)).mono (by omega)

theorem finC_mergeS {k e : ℕ} (hk : k + 1 ≤ 10) (he : e ≤ 900) {a a' : Mem (F64 × F64)} {z z' : Mem ℂ}
    (h : RelBelow (2 ^ k) (FinC e) a z) (h' : RelBelow (2 ^ k) (FinC e) a' z') :
    RelBelow (2 ^ (k + 1)) (FinC (e + 3)) (mergeS A k a a') (mergeS A' k z z') := by
  have hp : 2 ^ (k + 1) ≤ 1024 := (Nat.pow_le_pow_right (by norm_num) hk).trans (by norm_num)
  have hp2 : 2 ^ (k + 1) = 2 * 2 ^ k := by rw [pow_succ]; ring
  intro j hj
  have h1 := hS.cmul (h' (j / 2) (by omega)) (hS.tab (by omega : 2 ^ k + j / 2 < 1024)) (by omega)
  have h2 := (h (j / 2) (by omega)).mono (by omega : e ≤ e + 1 + 1)
  unfold mergeS
  split
  · exact hS.cadd h2 h1 (by omega)
  · exact hS.csub h2 h1 (by omega)

/-- The coefficients of an integer polynomial. -/
theorem finC_basis {n : ℕ} (hn : ValidLog n) {f g F G : Mem Int} (hfit : FitsFormat n f g F G) (B B' : Mem (F64 × F64)) (C : Mem ℂ) :
    ∀ x, x < 4 * 2 ^ n → FinC 37 (computeMatrixB A n f g F G B x) (computeMatrixB A' n f g F G C x) := by
  have hn10 : n ≤ 10 := by rcases hn with rfl | rfl <;> norm_num
  have hz : ∀ z : ℤ, |z| ≤ 127 → |(z : ℝ)| ≤ 2 ^ 7 := by
    intro z h
    have : ((|z| : ℤ) : ℝ) ≤ 127 := by exact_mod_cast h
    rw [Int.cast_abs] at this
    norm_num
    linarith
  have hc : ∀ c, c < 4 → RelBelow (2 ^ n) (FinC 7) (basisCol A f g F G c) (basisCol A' f g F G c) := by
    intro c hc i hi
    obtain ⟨h1, h2, h3, h4⟩ := hfit i hi
    have h1 : |f i| ≤ 127 := h1.trans (by split <;> norm_num)
    have h2 : |g i| ≤ 127 := h2.trans (by split <;> norm_num)
    have hc4 : c = 0 ∨ c = 1 ∨ c = 2 ∨ c = 3 := by omega
    rcases hc4 with rfl | rfl | rfl | rfl
    · exact hS.ofReal (hS.int (hz _ h2) (by norm_num))
    · exact hS.ofReal (hS.neg (hS.int (hz _ h1) (by norm_num)))
    · exact hS.ofReal (hS.int (hz _ h4) (by norm_num))
    · exact hS.ofReal (hS.neg (hS.int (hz _ h3) (by norm_num)))
  intro x hx
  have hN : 0 < 2 ^ n := by positivity
  have hd := Nat.div_add_mod x (2 ^ n)
  have hm := Nat.mod_lt x hN
  have hb : x / 2 ^ n < 4 := Nat.div_lt_of_lt_mul (by linarith)
  rw [← hd, mul_comm, (computeMatrixB_at _ n f g F G B).1 _ _ hb hm, (computeMatrixB_at _ n f g F G C).1 _ _ hb hm]
  exact finC_fft hS hn10 (by norm_num) (hc _ hb) _ hm

/-- The entries of the Gram matrix. -/
theorem finC_gram {n : ℕ} {B Y0 : Mem (F64 × F64)} {C Z0 : Mem ℂ}
    (h : ∀ x, x < 4 * 2 ^ n → FinC 37 (B x) (C x)) (c i : ℕ) (hc : c = 0 ∨ c = 2 ∨ c = 3) (hi : i < 2 ^ n) :
    FinC 76 (gramMatrix A n B Y0 (c * 2 ^ n + i)) (gramMatrix A' n C Z0 (c * 2 ^ n + i)) := by
  have key : ∀ {x y u v : F64 × F64} {x' y' u' v' : ℂ}, FinC 37 x x' → FinC 37 y y' → FinC 37 u u' → FinC 37 v v' →
      FinC 76 (gramEntry A x y u v) (gramEntry A' x' y' u' v') := by
    intro x y u v x' y' u' v' hx hy hu hv
    exact hS.cadd (hS.cmul hx (hS.conj hu) (by norm_num)) (hS.cmul hy (hS.conj hv) (by norm_num)) (by norm_num)
  obtain ⟨g0, -, g2, g3⟩ := gramMatrix_at A n B Y0 i hi
  obtain ⟨e0, -, e2, e3⟩ := gramMatrix_at A' n C Z0 i hi
  have k0 := h i (by omega)
  have k1 := h (2 ^ n + i) (by omega)
  have k2 := h (2 * 2 ^ n + i) (by omega)
  have k3 := h (3 * 2 ^ n + i) (by omega)
  rcases hc with rfl | rfl | rfl
  · rw [zero_mul, zero_add, g0, e0]; exact key k0 k1 k0 k1
  · rw [g2, e2]; exact key k2 k3 k0 k1
  · rw [g3, e3]; exact key k2 k3 k2 k3

end

end Falcon
