import Verif.Proofs.FloatFft

/-!
# Rounding errors of fast Fourier sampling

The sampled vectors are, up to a relative error, transforms of integer polynomials, whatever the tree, the target
and the integer sampler.
-/

namespace Falcon

open Finset

theorem nC_dft {n : ℕ} (hn : n ≤ 10) (a : Mem ℂ) : nC (2 ^ n) (dft n a) = Real.sqrt 2 ^ n * nC (2 ^ n) a := by
  have h := parseval hn a
  unfold nC l2
  have e : ∀ b : Mem ℂ, ∑ i ∈ range (2 ^ n), (fun i => ‖b i‖) i ^ 2 = ∑ i ∈ range (2 ^ n), Complex.normSq (b i) :=
    fun b => sum_congr rfl fun i _ => by beta_reduce; rw [Complex.normSq_eq_norm_sq]
  rw [e, e, h, Real.sqrt_mul (by positivity)]
  congr 1
  have := sqrt_pow2 n
  rwa [Nat.cast_pow, Nat.cast_ofNat] at this

/-- Size of an integer array, at least 1. -/
noncomputable def Mz (k : ℕ) (a : Mem Int) : ℝ := Real.sqrt (∑ i ∈ range (2 ^ k), ((a i : ℝ) ^ 2 + 1))

theorem Mz_sq (k : ℕ) (a : Mem Int) : Mz k a ^ 2 = ∑ i ∈ range (2 ^ k), ((a i : ℝ) ^ 2 + 1) :=
  Real.sq_sqrt (sum_nonneg fun _ _ => by positivity)

theorem Mz_nonneg (k : ℕ) (a : Mem Int) : 0 ≤ Mz k a := Real.sqrt_nonneg _

theorem nC_zC_sq (k : ℕ) (a : Mem Int) : nC (2 ^ k) (zC a) ^ 2 = ∑ i ∈ range (2 ^ k), (a i : ℝ) ^ 2 := by
  rw [nC_sq]
  apply sum_congr rfl
  intro i _
  show ‖((a i : ℤ) : ℂ)‖ ^ 2 = _
  rw [Complex.norm_intCast, sq_abs]

theorem Mz_split (k : ℕ) (a : Mem Int) : Mz k a ^ 2 = nC (2 ^ k) (zC a) ^ 2 + 2 ^ k := by
  rw [Mz_sq, nC_zC_sq, sum_add_distrib]
  simp

theorem nC_le_Mz (k : ℕ) (a : Mem Int) : nC (2 ^ k) (zC a) ≤ Mz k a := by
  refine (abs_le_of_sq_le_sq' ?_ (Mz_nonneg _ _)).2
  rw [Mz_split]
  have : (0 : ℝ) < 2 ^ k := by positivity
  linarith

theorem one_le_Mz (k : ℕ) (a : Mem Int) : 1 ≤ Mz k a := by
  refine (abs_le_of_sq_le_sq' ?_ (Mz_nonneg _ _)).2
  rw [Mz_split]
  have : (1 : ℝ) ≤ 2 ^ k := one_le_pow₀ (by norm_num)
  nlinarith [sq_nonneg (nC (2 ^ k) (zC a))]

theorem Mz_le (k : ℕ) (a : Mem Int) : Mz k a ≤ nC (2 ^ k) (zC a) + Real.sqrt 2 ^ k := by
  refine (abs_le_of_sq_le_sq' ?_ (add_nonneg (nC_nonneg _ _) (by positivity))).2
  rw [Mz_split]
  have h : (Real.sqrt 2 ^ k) ^ 2 = 2 ^ k := by rw [← pow_mul, mul_comm, pow_mul, Real.sq_sqrt (by norm_num)]
  have h1 := nC_nonneg (2 ^ k) (zC a)
  have h2 : 0 ≤ Real.sqrt 2 ^ k := by positivity
  nlinarith

/-- Two arrays interleaved. -/
def ilv {α : Type} (a b : Mem α) : Mem α := fun i => if i % 2 = 0 then a (i / 2) else b (i / 2)

theorem ilv_even {α : Type} (a b : Mem α) (i : ℕ) : ilv a b (2 * i) = a i := by
  unfold ilv; rw [if_pos (by omega), show 2 * i / 2 = i by omega]

theorem ilv_odd {α : Type} (a b : Mem α) (i : ℕ) : ilv a b (2 * i + 1) = b i := by
  unfold ilv; rw [if_neg (by omega), show (2 * i + 1) / 2 = i by omega]

theorem sum_ilv (k : ℕ) (g : ℕ → ℝ) :
    ∑ i ∈ range (2 ^ (k + 1)), g i = ∑ i ∈ range (2 ^ k), g (2 * i) + ∑ i ∈ range (2 ^ k), g (2 * i + 1) := by
  rw [pow_succ, mul_comm, sum_pairs, sum_add_distrib]

theorem Mz_ilv (k : ℕ) (a b : Mem Int) : Mz (k + 1) (ilv a b) ^ 2 = Mz k a ^ 2 + Mz k b ^ 2 := by
  rw [Mz_sq, Mz_sq, Mz_sq, sum_ilv]
  simp only [ilv_even, ilv_odd]

/-- Interleaving below 2^(k+1), another array above. -/
def ilvTo {α : Type} (k : ℕ) (a b m : Mem α) : Mem α := fun i => if i < 2 ^ (k + 1) then ilv a b i else m i

theorem ilvTo_even {α : Type} {k : ℕ} (a b m : Mem α) {i : ℕ} (hi : i < 2 ^ k) : ilvTo k a b m (2 * i) = a i := by
  have hp : 2 ^ (k + 1) = 2 * 2 ^ k := by rw [pow_succ]; ring
  unfold ilvTo; rw [if_pos (by omega), ilv_even]

theorem ilvTo_odd {α : Type} {k : ℕ} (a b m : Mem α) {i : ℕ} (hi : i < 2 ^ k) : ilvTo k a b m (2 * i + 1) = b i := by
  have hp : 2 ^ (k + 1) = 2 * 2 ^ k := by rw [pow_succ]; ring
  unfold ilvTo; rw [if_pos (by omega), ilv_odd]

theorem nC_ilv_sq {k : ℕ} (e0 e1 : Mem ℂ) (x : Mem ℂ) (h0 : ∀ i, i < 2 ^ k → x (2 * i) = e0 i)
    (h1 : ∀ i, i < 2 ^ k → x (2 * i + 1) = e1 i) :
    nC (2 ^ (k + 1)) x ^ 2 = nC (2 ^ k) e0 ^ 2 + nC (2 ^ k) e1 ^ 2 := by
  rw [nC_sq, nC_sq, nC_sq, sum_ilv]
  congr 1 <;> apply sum_congr rfl <;> intro i hi
  · rw [h0 i (mem_range.mp hi)]
  · rw [h1 i (mem_range.mp hi)]

/-- The butterfly of merging. -/
def mergeBf (A : Arith ℝ ℂ) (k : ℕ) (x y : ℂ) : ℂ × ℂ :=
  (A.cadd x (A.cmul y (A.tab k)), A.csub x (A.cmul y (A.tab k)))

theorem layer_pairs {k : ℕ} {bf : ℕ → ℂ → ℂ → ℂ × ℂ} {e0 e1 a' : Mem ℂ}
    (h0 : ∀ i, i < 2 ^ k → a' (2 * i) = (bf (2 ^ k + i) (e0 i) (e1 i)).1)
    (h1 : ∀ i, i < 2 ^ k → a' (2 * i + 1) = (bf (2 ^ k + i) (e0 i) (e1 i)).2) :
    LayerSpec bf (fun b => 2 ^ k + b) (2 ^ k) 1 (ilvTo k e0 e1 a') a' := by
  have hp : 2 ^ (k + 1) = 2 * 2 ^ k := by rw [pow_succ]; ring
  constructor
  · intro b hb i hi
    have : i = 0 := by omega
    subst this
    rw [show b * (2 * 1) + 0 = 2 * b by ring, show b * (2 * 1) + 1 + 0 = 2 * b + 1 by ring, ilvTo_even _ _ _ hb,
      ilvTo_odd _ _ _ hb]
    exact h0 b hb
  · intro b hb i hi
    have : i = 0 := by omega
    subst this
    rw [show b * (2 * 1) + 0 = 2 * b by ring, show b * (2 * 1) + 1 + 0 = 2 * b + 1 by ring, ilvTo_even _ _ _ hb,
      ilvTo_odd _ _ _ hb]
    exact h1 b hb
  · intro j hj
    unfold ilvTo
    rw [if_neg (by omega)]

/-- Relative error of the sampled vectors of size 2^k. -/
noncomputable def gam (k : ℕ) : ℝ := (1 + 12 * uD) ^ k * (1 + uD) - 1

theorem gam_nonneg (k : ℕ) : 0 ≤ gam k := by
  unfold gam
  have h := uD_pos
  have h1 : (1 : ℝ) ≤ (1 + 12 * uD) ^ k := one_le_pow₀ (by linarith)
  nlinarith

/-- `z` is the transform of the integer polynomial `a`, up to rounding. -/
def NearInt (k : ℕ) (z : Mem ℂ) (a : Mem Int) : Prop :=
  nC (2 ^ k) (fun i => z i - dft k (zC a) i) ≤ Real.sqrt 2 ^ k * gam k * Mz k a

section
variable {A : Arith ℝ ℂ} (hA : Accurate A)
include hA

theorem mergeBf_err {k : ℕ} (hk : k < 1024) (x y : ℂ) :
    ‖(mergeBf A k x y).1 - (ctBf cT k x y).1‖ ≤ 53 / 5 * uD * ‖y‖ + uD * ‖(ctBf cT k x y).1‖ + 3 * tinyD ∧
    ‖(mergeBf A k x y).2 - (ctBf cT k x y).2‖ ≤ 53 / 5 * uD * ‖y‖ + uD * ‖(ctBf cT k x y).2‖ + 3 * tinyD := by
  have h1 := tabmul_err hA hk (w := A.cmul y (A.tab k)) (y := y) (by
    have := hA.cmul y (A.tab k)
    rwa [mul_comm y, mul_comm ‖y‖] at this)
  constructor
  · exact bf_err hA (norm_nonneg _) h1 (hA.cadd x _)
  · show ‖A.csub x (A.cmul y (A.tab k)) - (x - cT k * y)‖ ≤ _ + uD * ‖x - cT k * y‖ + _
    rw [sub_eq_add_neg x (cT k * y)]
    refine bf_err hA (w := -A.cmul y (A.tab k)) (norm_nonneg _) ?_ ?_
    · rw [show -A.cmul y (A.tab k) - -(cT k * y) = -(A.cmul y (A.tab k) - cT k * y) by ring, norm_neg]
      exact h1
    · rw [← sub_eq_add_neg]; exact hA.csub x _

theorem merge_near {k : ℕ} (hk : k + 1 ≤ 10) {e0 e1 : Mem ℂ} {c0 c1 : Mem Int} (h0 : NearInt k e0 c0)
    (h1 : NearInt k e1 c1) : NearInt (k + 1) (mergeS A k e0 e1) (ilv c0 c1) := by
  have hp : 2 ^ (k + 1) = 2 * 2 ^ k := by rw [pow_succ]; ring
  have hu := uD_pos
  have ht := tinyD_pos
  have h2n : (2 : ℕ) ^ (k + 1) ≤ 1024 := (Nat.pow_le_pow_right (by norm_num) hk).trans (by norm_num)
  have hz0 : (fun i => zC (ilv c0 c1) (2 * i)) = zC c0 := by
    funext i; show ((ilv c0 c1 (2 * i) : ℤ) : ℂ) = _; rw [ilv_even]; rfl
  have hz1 : (fun i => zC (ilv c0 c1) (2 * i + 1)) = zC c1 := by
    funext i; show ((ilv c0 c1 (2 * i + 1) : ℤ) : ℂ) = _; rw [ilv_odd]; rfl
  have hx : LayerSpec (mergeBf A) (fun b => 2 ^ k + b) (2 ^ k) 1 (ilvTo k e0 e1 (mergeS A k e0 e1)) (mergeS A k e0 e1) :=
    layer_pairs (fun i _ => by
      unfold mergeS; rw [if_pos (by omega), show 2 * i / 2 = i by omega]; rfl) (fun i _ => by
      unfold mergeS; rw [if_neg (by omega), show (2 * i + 1) / 2 = i by omega]; rfl)
  have hy : LayerSpec (ctBf cT) (fun b => 2 ^ k + b) (2 ^ k) 1
      (ilvTo k (dft k (zC c0)) (dft k (zC c1)) (dft (k + 1) (zC (ilv c0 c1)))) (dft (k + 1) (zC (ilv c0 c1))) :=
    layer_pairs (fun i hi => by rw [dft_even hk _ i hi, hz0, hz1]; rfl)
      (fun i hi => by rw [dft_odd hk _ i hi, hz0, hz1]; rfl)
  have e1' := layer_err (c1 := 53 / 5 * uD) (c2 := uD) (d := 3 * tinyD) (by linarith) hu.le (by linarith)
      hx hy ct_iso ct_lin (fun b hb x y => mergeBf_err hA (by omega) x y)
  have e2 := layer_iso hy ct_iso
  rw [show 2 ^ k * (2 * 1) = 2 ^ (k + 1) by omega] at e1' e2
  set p := ilvTo k (dft k (zC c0)) (dft k (zC c1)) (dft (k + 1) (zC (ilv c0 c1))) with hpdef
  set a := ilvTo k e0 e1 (mergeS A k e0 e1) with hadef
  have hM := Mz_nonneg (k + 1) (ilv c0 c1)
  have hM1 := one_le_Mz (k + 1) (ilv c0 c1)
  have hs : 0 ≤ Real.sqrt 2 ^ k := by positivity
  have hs1 : 1 ≤ Real.sqrt 2 ^ k := one_le_pow₀ sqrt2_ge
  have hg := gam_nonneg k
  have hE : nC (2 ^ (k + 1)) (fun i => a i - p i) ≤ Real.sqrt 2 ^ k * gam k * Mz (k + 1) (ilv c0 c1) := by
    refine (abs_le_of_sq_le_sq' ?_ (by positivity)).2
    rw [nC_ilv_sq (fun i => e0 i - dft k (zC c0) i) (fun i => e1 i - dft k (zC c1) i), mul_pow, Mz_ilv, mul_add,
      ← mul_pow, ← mul_pow]
    · exact add_le_add (pow_le_pow_left₀ (nC_nonneg _ _) h0 2) (pow_le_pow_left₀ (nC_nonneg _ _) h1 2)
    · intro i hi
      simp only [hadef, hpdef]
      rw [ilvTo_even _ _ _ hi, ilvTo_even _ _ _ hi]
    · intro i hi
      simp only [hadef, hpdef]
      rw [ilvTo_odd _ _ _ hi, ilvTo_odd _ _ _ hi]
  have hP : nC (2 ^ (k + 1)) p ≤ Real.sqrt 2 ^ k * Mz (k + 1) (ilv c0 c1) := by
    rw [nC_dft hk, pow_succ] at e2
    have h3 : nC (2 ^ (k + 1)) p = Real.sqrt 2 ^ k * nC (2 ^ (k + 1)) (zC (ilv c0 c1)) := by
      have h2 := sqrt2_ge
      have : Real.sqrt 2 * nC (2 ^ (k + 1)) p = Real.sqrt 2 * (Real.sqrt 2 ^ k * nC (2 ^ (k + 1)) (zC (ilv c0 c1))) := by
        rw [← e2]; ring
      exact mul_left_cancel₀ (by positivity) this
    rw [h3]
    exact mul_le_mul_of_nonneg_left (nC_le_Mz _ _) hs
  have hA' : nC (2 ^ (k + 1)) a ≤ nC (2 ^ (k + 1)) p + nC (2 ^ (k + 1)) (fun i => a i - p i) := nC_le_of
  have htail : Real.sqrt ((2 ^ (k + 1) : ℕ) : ℝ) * (3 * tinyD) ≤ Real.sqrt 2 * (2 / 5 * uD) := by
    rw [sqrt_pow2]
    have h1 := sqrt2_pow_le hk
    have h2 := sqrt2_ge
    have h3 := tinyD_le
    nlinarith
  unfold NearInt
  refine e1'.trans ?_
  have hfin : nC (2 ^ (k + 1)) (fun i => a i - p i) + (53 / 5 * uD + uD) * nC (2 ^ (k + 1)) a + 2 / 5 * uD
      ≤ Real.sqrt 2 ^ k * gam (k + 1) * Mz (k + 1) (ilv c0 c1) := by
    have hgk : gam (k + 1) = (1 + 12 * uD) * gam k + 12 * uD := by unfold gam; ring
    rw [hgk]
    generalize nC (2 ^ (k + 1)) (fun i => a i - p i) = E at *
    generalize nC (2 ^ (k + 1)) a = Q at *
    generalize nC (2 ^ (k + 1)) p = P at *
    generalize Mz (k + 1) (ilv c0 c1) = M at *
    generalize Real.sqrt 2 ^ k = S at *
    have hSM : 1 ≤ S * M := by nlinarith
    have q1 : Q ≤ S * M + S * gam k * M := by linarith
    have q2 : 58 / 5 * uD * Q ≤ 58 / 5 * uD * (S * M + S * gam k * M) :=
      mul_le_mul_of_nonneg_left q1 (by linarith)
    have q3 : 0 ≤ uD * (S * gam k * M) := by positivity
    have q4 : uD ≤ uD * (S * M) := by nlinarith
    nlinarith
  calc Real.sqrt 2 * nC (2 ^ (k + 1)) (fun i => a i - p i)
        + Real.sqrt 2 * (53 / 5 * uD + uD) * nC (2 ^ (k + 1)) a + Real.sqrt ((2 ^ (k + 1) : ℕ) : ℝ) * (3 * tinyD)
      ≤ Real.sqrt 2 * (nC (2 ^ (k + 1)) (fun i => a i - p i) + (53 / 5 * uD + uD) * nC (2 ^ (k + 1)) a
        + 2 / 5 * uD) := by linarith
    _ ≤ Real.sqrt 2 * (Real.sqrt 2 ^ k * gam (k + 1) * Mz (k + 1) (ilv c0 c1)) :=
        mul_le_mul_of_nonneg_left hfin (Real.sqrt_nonneg _)
    _ = _ := by rw [pow_succ]; ring

theorem lit_zero : A.lit 0 = 0 := by
  have := hA.lit_int 0
  simpa using this

theorem ofInt_near (z : ℤ) : ‖A.ofInt z - (z : ℂ)‖ ≤ uD * |(z : ℝ)| := by
  have h : A.ofInt z - (z : ℂ) = ((A.lit z - z : ℝ) : ℂ) := by
    show A.cx (A.lit z) (A.lit 0) - _ = _
    rw [hA.cx, lit_zero hA]
    apply Complex.ext <;> simp
  rw [h, Complex.norm_real]
  exact hA.lit_int z

theorem ofInt_near0 (z : ℤ) (k : ℕ) (hk : k = 0) : NearInt k (fun _ => A.ofInt z) (fun _ => z) := by
  subst hk
  unfold NearInt gam
  have h := ofInt_near hA z
  have h1 : nC (2 ^ 0) (fun i => A.ofInt z - dft 0 (zC fun _ => z) i) = ‖A.ofInt z - (z : ℂ)‖ := by
    unfold nC l2
    simp [dft, zC]
  rw [h1]
  refine h.trans ?_
  have h2 : |(z : ℝ)| ≤ Mz 0 (fun _ => z) := by
    refine (abs_le_of_sq_le_sq' ?_ (Mz_nonneg _ _)).2
    rw [Mz_sq]; simp
  have := mul_le_mul_of_nonneg_left h2 uD_pos.le
  simpa using this

theorem sample_near (leaf : LeafSampler ℝ) : ∀ (k level : ℕ) (T : Mem ℂ) (t : FTree ℂ) (t0 t1 : Mem ℂ)
    (pos : ℕ) (z : Mem ℂ × Mem ℂ × ℕ), k ≤ 10 → TRep k level T t →
    sampleTree A leaf k t t0 t1 pos = some (.ok z) → ∃ a0 a1 : Mem Int, NearInt k z.1 a0 ∧ NearInt k z.2.1 a1 := by
  intro k
  induction k with
  | zero =>
    intro level T t t0 t1 pos z _ hr h
    cases t with
    | node _ _ _ => exact hr.elim
    | leaf v =>
      unfold sampleTree at h
      obtain ⟨a, _, h⟩ := bindO_ok h
      obtain ⟨b, _, h⟩ := bindO_ok h
      injection h with h
      injection h with h
      refine ⟨fun _ => a.1, fun _ => b.1, ?_, ?_⟩
      · rw [← h]; exact ofInt_near0 hA _ 0 rfl
      · rw [← h]; exact ofInt_near0 hA _ 0 rfl
  | succ k ih =>
    intro level T t t0 t1 pos z hk hr h
    cases t with
    | leaf v => exact hr.elim
    | node l L R =>
      unfold sampleTree at h
      simp only [Nat.add_sub_cancel] at h
      obtain ⟨zr, h1, h⟩ := bindO_ok h
      obtain ⟨zl, h2, h⟩ := bindO_ok h
      injection h with h
      injection h with h
      obtain ⟨c0, c1, e0, e1⟩ := ih _ _ _ _ _ _ _ (by omega) hr.2.2 h1
      obtain ⟨b0, b1, d0, d1⟩ := ih _ _ _ _ _ _ _ (by omega) hr.2.1 h2
      rw [← h]
      exact ⟨_, _, merge_near hA hk d0 d1, merge_near hA hk e0 e1⟩

end

end Falcon
