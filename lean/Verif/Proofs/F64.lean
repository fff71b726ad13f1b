import Verif.Model.F64
import Verif.Proofs.Ieee

/-!
# Finite binary64 runs agree with the arithmetic without upper bound on the exponent: the operations
-/

namespace Falcon

/-- The datum is the finite number `x`, and `x` is at most 2^e in absolute value. -/
def FinB (e : ℕ) (d : F64) (x : ℝ) : Prop := (∃ s, d = .fin s x) ∧ |x| ≤ 2 ^ e

theorem FinB.mono {e e' : ℕ} {d : F64} {x : ℝ} (h : FinB e d x) (he : e ≤ e') : FinB e' d x :=
  ⟨h.1, h.2.trans (pow_le_pow_right₀ (by norm_num) he)⟩

theorem FinB.of_le {e e' : ℕ} {d : F64} {x : ℝ} (h : FinB e d x) (he : |x| ≤ 2 ^ e') : FinB e' d x := ⟨h.1, he⟩

theorem rnd_le_pow {x : ℝ} {e : ℕ} (h : |x| ≤ 2 ^ e) : |rnd x| ≤ 2 ^ e := by
  have hr : Rep ((2 : ℝ) ^ e) := by
    have := rep_zpow (e := (e : ℤ)) (by omega)
    rwa [zpow_natCast] at this
  rw [abs_le] at h ⊢
  exact ⟨le_rnd_of_rep (rep_neg hr) h.1, rnd_le_of_rep hr h.2⟩

theorem F64.round_fin {z : Bool} {x : ℝ} {e : ℕ} (h : |x| ≤ 2 ^ e) (he : e ≤ 1023) : FinB e (F64.round z x) (rnd x) := by
  have h1 := rnd_le_pow h
  have h2 : (2 : ℝ) ^ e < 2 ^ 1024 := pow_lt_pow_right₀ (by norm_num) (by omega)
  refine ⟨?_, h1⟩
  unfold F64.round
  rw [if_neg (not_le.mpr (h1.trans_lt h2))]
  exact ⟨_, rfl⟩

theorem finB_neg {e : ℕ} {d : F64} {x : ℝ} (h : FinB e d x) : FinB e (F64.neg d) (-x) := by
  obtain ⟨⟨s, rfl⟩, h⟩ := h
  exact ⟨⟨_, rfl⟩, by rwa [abs_neg]⟩

theorem finB_add {e : ℕ} {d d' : F64} {x y : ℝ} (h : FinB e d x) (h' : FinB e d' y) (he : e ≤ 1000) :
    FinB (e + 1) (F64.add d d') (rnd (x + y)) := by
  obtain ⟨⟨s, rfl⟩, h⟩ := h
  obtain ⟨⟨t, rfl⟩, h'⟩ := h'
  refine F64.round_fin ?_ (by omega)
  have := abs_add_le x y
  rw [pow_succ]
  linarith

theorem finB_sub {e : ℕ} {d d' : F64} {x y : ℝ} (h : FinB e d x) (h' : FinB e d' y) (he : e ≤ 1000) :
    FinB (e + 1) (F64.sub d d') (rnd (x - y)) := by
  rw [sub_eq_add_neg]
  exact finB_add h (finB_neg h') he

theorem finB_mul {e e' : ℕ} {d d' : F64} {x y : ℝ} (h : FinB e d x) (h' : FinB e' d' y) (he : e + e' ≤ 1000) :
    FinB (e + e') (F64.mul d d') (rnd (x * y)) := by
  obtain ⟨⟨s, rfl⟩, h⟩ := h
  obtain ⟨⟨t, rfl⟩, h'⟩ := h'
  refine F64.round_fin ?_ (by omega)
  rw [abs_mul, pow_add]
  exact mul_le_mul h h' (abs_nonneg _) (by positivity)

theorem finB_fma {e e' : ℕ} {a b c : F64} {x y z : ℝ} (h : FinB e a x) (h' : FinB e' b y) (h'' : FinB (e + e') c z)
    (he : e + e' ≤ 1000) : FinB (e + e' + 1) (F64.fma a b c) (rnd (x * y + z)) := by
  obtain ⟨⟨s, rfl⟩, h⟩ := h
  obtain ⟨⟨t, rfl⟩, h'⟩ := h'
  obtain ⟨⟨u, rfl⟩, h''⟩ := h''
  refine F64.round_fin ?_ (by omega)
  have h1 := abs_add_le (x * y) z
  have h2 : |x * y| ≤ 2 ^ (e + e') := by
    rw [abs_mul, pow_add]
    exact mul_le_mul h h' (abs_nonneg _) (by positivity)
  rw [pow_succ]
  linarith

theorem finB_div {e m : ℕ} {d d' : F64} {x y : ℝ} (h : FinB e d x) (h' : ∃ s, d' = .fin s y) (hy : 1 / 2 ^ m ≤ |y|)
    (he : e + m ≤ 1000) : FinB (e + m) (F64.div d d') (rnd (x / y)) := by
  obtain ⟨⟨s, rfl⟩, h⟩ := h
  obtain ⟨t, rfl⟩ := h'
  have hp : (0 : ℝ) < 1 / 2 ^ m := by positivity
  have hy0 : y ≠ 0 := fun h => by rw [h, abs_zero] at hy; linarith
  show FinB (e + m) (if y = 0 then _ else _) _
  rw [if_neg hy0]
  refine F64.round_fin ?_ (by omega)
  rw [abs_div, div_le_iff₀ (abs_pos.mpr hy0)]
  calc |x| ≤ 2 ^ e := h
    _ = 2 ^ (e + m) * (1 / 2 ^ m) := by rw [pow_add]; field_simp
    _ ≤ _ := mul_le_mul_of_nonneg_left hy (by positivity)

theorem finB_sqrt {e : ℕ} {d : F64} {x : ℝ} (h : FinB e d x) (h0 : 0 ≤ x) (he : e ≤ 1000) :
    FinB e (F64.sqrt d) (rnd (Real.sqrt x)) := by
  obtain ⟨⟨s, rfl⟩, h⟩ := h
  show FinB e (if x < 0 then _ else _) _
  rw [if_neg (not_lt.mpr h0)]
  refine F64.round_fin ?_ (by omega)
  rw [abs_of_nonneg h0] at h
  rw [abs_of_nonneg (Real.sqrt_nonneg _)]
  refine Real.sqrt_le_iff.mpr ⟨by positivity, h.trans ?_⟩
  exact le_self_pow₀ (one_le_pow₀ (by norm_num)) (by norm_num)

theorem finB_lit {e : ℕ} {q : ℚ} (h : |(q : ℝ)| ≤ 2 ^ e) (he : e ≤ 1000) : FinB e (F64.lit q) (rnd q) :=
  F64.round_fin h (by omega)

theorem finB_le {e : ℕ} {d d' : F64} {x y : ℝ} (h : FinB e d x) (h' : FinB e d' y) :
    F64.le d d' = @decide (x ≤ y) (Classical.propDecidable _) := by
  obtain ⟨⟨s, rfl⟩, _⟩ := h
  obtain ⟨⟨t, rfl⟩, _⟩ := h'
  rfl

theorem finB_gt {e : ℕ} {d d' : F64} {x y : ℝ} (h : FinB e d x) (h' : FinB e d' y) :
    F64.lt d' d = @decide (x > y) (Classical.propDecidable _) := by
  obtain ⟨⟨s, rfl⟩, _⟩ := h
  obtain ⟨⟨t, rfl⟩, _⟩ := h'
  rfl

theorem finB_roundTo {e : ℕ} {d : F64} {x : ℝ} (h : FinB e d x) (lo hi : ℤ) : F64.roundTo lo hi d = exactRoundTo lo hi x := by
  obtain ⟨⟨s, rfl⟩, _⟩ := h
  rfl

/-- The same for complex data, part by part. -/
def FinC (e : ℕ) (d : F64 × F64) (z : ℂ) : Prop := FinB e d.1 z.re ∧ FinB e d.2 z.im

theorem FinC.mono {e e' : ℕ} {d : F64 × F64} {x : ℂ} (h : FinC e d x) (he : e ≤ e') : FinC e' d x :=
  ⟨h.1.mono he, h.2.mono he⟩

theorem FinC.of_norm {e e' : ℕ} {d : F64 × F64} {x : ℂ} (h : FinC e d x) (he : ‖x‖ ≤ 2 ^ e') : FinC e' d x :=
  ⟨h.1.of_le ((Complex.abs_re_le_norm x).trans he), h.2.of_le ((Complex.abs_im_le_norm x).trans he)⟩

theorem recover_fin {rc : F64.Recover} {x y r : F64 × F64} {e : ℕ} {z : ℂ} (h : FinC e r z) :
    FinC e (F64.recover rc x y r) z := by
  obtain ⟨r1, r2⟩ := r
  obtain ⟨⟨⟨s, h1⟩, h2⟩, h3⟩ := h
  simp only at h1 h2 h3
  subst h1
  exact ⟨⟨⟨s, rfl⟩, h2⟩, h3⟩

section
variable {b : Bool} {rm rd : F64.Recover}

theorem finC_cadd {e : ℕ} {d d' : F64 × F64} {x y : ℂ} (h : FinC e d x) (h' : FinC e d' y) (he : e ≤ 1000) :
    FinC (e + 1) ((f64A b rm rd).cadd d d') ((ieeeA b).cadd x y) :=
  ⟨finB_add h.1 h'.1 he, finB_add h.2 h'.2 he⟩

theorem finC_csub {e : ℕ} {d d' : F64 × F64} {x y : ℂ} (h : FinC e d x) (h' : FinC e d' y) (he : e ≤ 1000) :
    FinC (e + 1) ((f64A b rm rd).csub d d') ((ieeeA b).csub x y) :=
  ⟨finB_sub h.1 h'.1 he, finB_sub h.2 h'.2 he⟩

theorem finC_cneg {e : ℕ} {d : F64 × F64} {x : ℂ} (h : FinC e d x) :
    FinC e ((f64A b rm rd).cneg d) ((ieeeA b).cneg x) := ⟨finB_neg h.1, finB_neg h.2⟩

theorem finC_conj {e : ℕ} {d : F64 × F64} {x : ℂ} (h : FinC e d x) :
    FinC e ((f64A b rm rd).conj d) ((ieeeA b).conj x) := ⟨h.1, finB_neg h.2⟩

theorem finC_mul0 {e e' : ℕ} {d d' : F64 × F64} {x y : ℂ} (h : FinC e d x) (h' : FinC e' d' y) (he : e + e' ≤ 1000) :
    FinC (e + e' + 1) (F64.cmul0 b d d') (ieeeMul b x y) := by
  unfold F64.cmul0 ieeeMul
  cases b
  · exact ⟨finB_sub (finB_mul h.1 h'.1 he) (finB_mul h.2 h'.2 he) he, finB_add (finB_mul h.1 h'.2 he) (finB_mul h.2 h'.1 he) he⟩
  · refine ⟨?_, finB_fma h.1 h'.2 (finB_mul h.2 h'.1 he) he⟩
    simp only [if_true]
    rw [sub_eq_add_neg]
    exact finB_fma h.1 h'.1 (finB_neg (finB_mul h.2 h'.2 he)) he

theorem finC_cmul {e e' : ℕ} {d d' : F64 × F64} {x y : ℂ} (h : FinC e d x) (h' : FinC e' d' y) (he : e + e' ≤ 1000) :
    FinC (e + e' + 1) ((f64A b rm rd).cmul d d') ((ieeeA b).cmul x y) := recover_fin (finC_mul0 h h' he)

theorem one_comp_large {y : ℂ} (hy : 1 / 2 ^ 20 ≤ ‖y‖) : 1 / 2 ^ 21 ≤ |y.re| ∨ 1 / 2 ^ 21 ≤ |y.im| := by
  by_contra h
  push Not at h
  have := norm_le_max h.1.le h.2.le
  norm_num at hy this
  linarith

theorem sq_lower {x : ℝ} (h : 1 / 2 ^ 21 ≤ |x|) : 1 / 2 ^ 42 ≤ rnd (x * x) := by
  have hr : Rep ((1 : ℝ) / 2 ^ 42) := by
    have := rep_zpow (e := (-42 : ℤ)) (by omega)
    rw [zpow_neg] at this
    rw [one_div]
    exact_mod_cast this
  refine le_rnd_of_rep hr ?_
  rw [← abs_mul_abs_self]
  have := mul_le_mul h h (by positivity) (abs_nonneg _)
  norm_num at this ⊢
  linarith

theorem den_lower {y : ℂ} (hy : 1 / 2 ^ 20 ≤ ‖y‖) :
    1 / 2 ^ 42 ≤ (if b then rnd (y.re * y.re + rnd (y.im * y.im)) else rnd (rnd (y.re * y.re) + rnd (y.im * y.im))) := by
  have hr : Rep ((1 : ℝ) / 2 ^ 42) := by
    have := rep_zpow (e := (-42 : ℤ)) (by omega)
    rw [zpow_neg] at this
    rw [one_div]
    exact_mod_cast this
  have n1 : 0 ≤ rnd (y.re * y.re) := by rw [← rnd_zero]; exact rnd_mono (mul_self_nonneg _)
  have n2 : 0 ≤ rnd (y.im * y.im) := by rw [← rnd_zero]; exact rnd_mono (mul_self_nonneg _)
  have n3 : 0 ≤ y.re * y.re := mul_self_nonneg _
  have key : ∀ x : ℝ, 1 / 2 ^ 21 ≤ |x| → 1 / 2 ^ 42 ≤ x * x := by
    intro x h
    rw [← abs_mul_abs_self]
    have := mul_le_mul h h (by positivity) (abs_nonneg _)
    norm_num at this ⊢
    linarith
  rcases one_comp_large hy with h | h <;> split <;> apply le_rnd_of_rep hr
  · have := key _ h; linarith
  · have := sq_lower h; linarith
  · have := sq_lower h; linarith
  · have := sq_lower h; linarith

theorem finC_cdiv {e e' : ℕ} {d d' : F64 × F64} {x y : ℂ} (h : FinC e d x) (h' : FinC e' d' y) (hy : 1 / 2 ^ 20 ≤ ‖y‖)
    (he : e + e' ≤ 900) (he' : e' ≤ 450) : FinC (e + e' + 43) ((f64A b rm rd).cdiv d d') ((ieeeA b).cdiv x y) := by
  refine recover_fin ?_
  have hp : FinC (e + e' + 1) (F64.cmul0 b d (d'.1, F64.neg d'.2)) (ieeeMul b x ((starRingEnd ℂ) y)) :=
    finC_mul0 h ⟨h'.1, finB_neg h'.2⟩ (by omega)
  have hl := den_lower (b := b) hy
  have hd : ∃ s, (if b then F64.fma d'.1 d'.1 (F64.mul d'.2 d'.2) else F64.add (F64.mul d'.1 d'.1) (F64.mul d'.2 d'.2)) =
      .fin s (if b then rnd (y.re * y.re + rnd (y.im * y.im)) else rnd (rnd (y.re * y.re) + rnd (y.im * y.im))) := by
    cases b
    · exact (finB_add (finB_mul h'.1 h'.1 (by omega)) (finB_mul h'.2 h'.2 (by omega)) (by omega)).1
    · exact (finB_fma h'.1 h'.1 (finB_mul h'.2 h'.2 (by omega)) (by omega)).1
  show FinC _ (F64.cdiv0 b d d') (ieeeDiv b x y)
  unfold F64.cdiv0 ieeeDiv
  simp only
  have hl' := hl.trans (le_abs_self _)
  exact ⟨(finB_div hp.1 hd hl' (by omega)).mono (by omega), (finB_div hp.2 hd hl' (by omega)).mono (by omega)⟩

theorem finC_scale {e e' : ℕ} {r : F64} {ρ : ℝ} {d : F64 × F64} {x : ℂ} (h : FinB e r ρ) (h' : FinC e' d x) (he : e + e' ≤ 1000) :
    FinC (e + e') ((f64A b rm rd).scale r d) ((ieeeA b).scale ρ x) :=
  ⟨finB_mul h h'.1 he, finB_mul h h'.2 he⟩

theorem finB_unit (n : ℕ) : FinB 0 ((f64A b rm rd).lit (1 / 2 ^ n)) ((ieeeA b).lit (1 / 2 ^ n)) := by
  refine finB_lit ?_ (by norm_num)
  push_cast
  rw [abs_of_nonneg (by positivity), pow_zero]
  exact div_le_one_of_le₀ (one_le_pow₀ (by norm_num)) (by positivity)

theorem finB_half : FinB 0 ((f64A b rm rd).lit (1 / 2)) ((ieeeA b).lit (1 / 2)) := by
  have := finB_unit (b := b) (rm := rm) (rd := rd) 1
  rwa [pow_one] at this

theorem finC_ofReal {e : ℕ} {d : F64} {x : ℝ} (h : FinB e d x) : FinC e ((f64A b rm rd).ofReal d) ((ieeeA b).ofReal x) := by
  refine ⟨h, ?_⟩
  show FinB e (F64.lit 0) (rnd ((0 : ℚ) : ℝ))
  refine (finB_lit (e := 0) (q := 0) (by norm_num) (by norm_num)).mono (Nat.zero_le _)

theorem finB_int {e : ℕ} {z : ℤ} (h : |(z : ℝ)| ≤ 2 ^ e) (he : e ≤ 1000) :
    FinB e ((f64A b rm rd).lit z) ((ieeeA b).lit z) := finB_lit (by push_cast; exact h) he

theorem finC_ofInt {e : ℕ} {z : ℤ} (h : |(z : ℝ)| ≤ 2 ^ e) (he : e ≤ 1000) :
    FinC e ((f64A b rm rd).ofInt z) ((ieeeA b).ofInt z) := finC_ofReal (finB_int h he)

/-- The table entries have parts of at most 2 in absolute value. -/
theorem finC_tab {k : ℕ} (hk : k < 1024) : FinC 1 ((f64A b rm rd).tab k) ((ieeeA b).tab k) := by
  obtain ⟨⟨h1, h2⟩, _⟩ := C43_root_table k hk
  have c := Real.abs_cos_le_one (Real.pi * revBits 10 k / 1024)
  have s := Real.abs_sin_le_one (Real.pi * revBits 10 k / 1024)
  have key : ∀ x y : ℝ, |x - y| ≤ 1 / 2 ^ 51 → |y| ≤ 1 → |x| ≤ 2 ^ 1 := by
    intro x y h h'
    have h3 := abs_add_le (x - y) y
    rw [sub_add_cancel] at h3
    norm_num at h ⊢
    linarith
  exact ⟨finB_lit (key _ _ h1 c) (by norm_num), finB_lit (key _ _ h2 s) (by norm_num)⟩

end

/-- A sum of `m` terms of at most 2^e. -/
def FinM (m e : ℕ) (d : F64) (x : ℝ) : Prop := (∃ s, d = .fin s x) ∧ |x| ≤ m * 2 ^ e

theorem finM_add {m e : ℕ} {d d' : F64} {x y : ℝ} (h : FinM m e d x) (h' : FinB e d' y) (hm : m < 2 ^ 20) (he : e ≤ 900) :
    FinM (m + 1) e (F64.add d d') (rnd (x + y)) := by
  obtain ⟨⟨s, rfl⟩, h⟩ := h
  obtain ⟨⟨t, rfl⟩, h'⟩ := h'
  have hr : Rep (((m + 1 : ℕ) : ℝ) * 2 ^ e) := by
    refine ⟨((m + 1 : ℕ) : ℤ), (e : ℤ), ?_, by omega, ?_⟩
    · rw [Nat.abs_cast]
      have : m + 1 < 2 ^ 53 := lt_of_le_of_lt hm (by norm_num)
      exact_mod_cast this
    · rw [zpow_natCast]; push_cast; rfl
  have hxy : |x + y| ≤ ((m + 1 : ℕ) : ℝ) * 2 ^ e := by
    refine (abs_add_le x y).trans ?_
    push_cast
    linarith
  have h1 : |rnd (x + y)| ≤ ((m + 1 : ℕ) : ℝ) * 2 ^ e := by
    rw [abs_le] at hxy ⊢
    have hn := rep_neg hr
    exact ⟨le_rnd_of_rep hn hxy.1, rnd_le_of_rep hr hxy.2⟩
  have h2 : ((m + 1 : ℕ) : ℝ) * 2 ^ e ≤ 2 ^ 1000 := by
    have a : ((m + 1 : ℕ) : ℝ) ≤ 2 ^ 20 := by exact_mod_cast hm
    have b : (2 : ℝ) ^ e ≤ 2 ^ 900 := pow_le_pow_right₀ (by norm_num) he
    calc ((m + 1 : ℕ) : ℝ) * 2 ^ e ≤ 2 ^ 20 * 2 ^ 900 := mul_le_mul a b (by positivity) (by positivity)
      _ = 2 ^ 920 := by rw [← pow_add]
      _ ≤ 2 ^ 1000 := pow_le_pow_right₀ (by norm_num) (by norm_num)
  obtain ⟨⟨u, hu⟩, -⟩ := F64.round_fin (z := s && t) (hxy.trans h2) (by norm_num)
  exact ⟨⟨u, hu⟩, h1⟩

/-- The same for complex data. -/
def FinCM (m e : ℕ) (d : F64 × F64) (z : ℂ) : Prop := FinM m e d.1 z.re ∧ FinM m e d.2 z.im

/-- The relation between a run on binary64 data and a run without upper bound on the exponent, operation by operation. -/
structure Sim (A : Arith F64 (F64 × F64)) (A' : Arith ℝ ℂ) : Prop where
  cadd : ∀ {e : ℕ} {d d' : F64 × F64} {x y : ℂ}, FinC e d x → FinC e d' y → e ≤ 1000 → FinC (e + 1) (A.cadd d d') (A'.cadd x y)
  csub : ∀ {e : ℕ} {d d' : F64 × F64} {x y : ℂ}, FinC e d x → FinC e d' y → e ≤ 1000 → FinC (e + 1) (A.csub d d') (A'.csub x y)
  cneg : ∀ {e : ℕ} {d : F64 × F64} {x : ℂ}, FinC e d x → FinC e (A.cneg d) (A'.cneg x)
  conj : ∀ {e : ℕ} {d : F64 × F64} {x : ℂ}, FinC e d x → FinC e (A.conj d) (A'.conj x)
  cmul : ∀ {e e' : ℕ} {d d' : F64 × F64} {x y : ℂ}, FinC e d x → FinC e' d' y → e + e' ≤ 1000 →
    FinC (e + e' + 1) (A.cmul d d') (A'.cmul x y)
  cdiv : ∀ {e e' : ℕ} {d d' : F64 × F64} {x y : ℂ}, FinC e d x → FinC e' d' y → 1 / 2 ^ 20 ≤ ‖y‖ → e + e' ≤ 900 → e' ≤ 450 →
    FinC (e + e' + 43) (A.cdiv d d') (A'.cdiv x y)
  scale : ∀ {e e' : ℕ} {r : F64} {ρ : ℝ} {d : F64 × F64} {x : ℂ}, FinB e r ρ → FinC e' d x → e + e' ≤ 1000 →
    FinC (e + e') (A.scale r d) (A'.scale ρ x)
  unit : ∀ n : ℕ, FinB 0 (A.lit (1 / 2 ^ n)) (A'.lit (1 / 2 ^ n))
  half : FinB 0 (A.lit (1 / 2)) (A'.lit (1 / 2))
  lit : ∀ {e : ℕ} {q : ℚ}, |(q : ℝ)| ≤ 2 ^ e → e ≤ 1000 → FinB e (A.lit q) (A'.lit q)
  ofReal : ∀ {e : ℕ} {d : F64} {x : ℝ}, FinB e d x → FinC e (A.ofReal d) (A'.ofReal x)
  int : ∀ {e : ℕ} {z : ℤ}, |(z : ℝ)| ≤ 2 ^ e → e ≤ 1000 → FinB e (A.lit z) (A'.lit z)
  ofInt : ∀ {e : ℕ} {z : ℤ}, |(z : ℝ)| ≤ 2 ^ e → e ≤ 1000 → FinC e (A.ofInt z) (A'.ofInt z)
  tab : ∀ {k : ℕ}, k < 1024 → FinC 1 (A.tab k) (A'.tab k)
  neg : ∀ {e : ℕ} {d : F64} {x : ℝ}, FinB e d x → FinB e (A.neg d) (A'.neg x)
  add : ∀ {e : ℕ} {d d' : F64} {x y : ℝ}, FinB e d x → FinB e d' y → e ≤ 1000 → FinB (e + 1) (A.add d d') (A'.add x y)
  div : ∀ {e m : ℕ} {d d' : F64} {x y : ℝ}, FinB e d x → (∃ s, d' = .fin s y) → 1 / 2 ^ m ≤ |y| → e + m ≤ 1000 →
    FinB (e + m) (A.div d d') (A'.div x y)
  sqrt : ∀ {e : ℕ} {d : F64} {x : ℝ}, FinB e d x → 0 ≤ x → e ≤ 1000 → FinB e (A.sqrt d) (A'.sqrt x)
  le : ∀ {e : ℕ} {d d' : F64} {x y : ℝ}, FinB e d x → FinB e d' y → A.le d d' = A'.le x y
  re : ∀ {e : ℕ} {d : F64 × F64} {x : ℂ}, FinC e d x → FinB e (A.re d) (A'.re x)
  cx : ∀ {d d' : F64} {x y : ℝ} {e : ℕ}, FinB e d x → FinB e d' y → FinC e (A.cx d d') (A'.cx x y)
  acc : ∀ {m e : ℕ} {d d' : F64 × F64} {x y : ℂ}, FinCM m e d x → FinC e d' y → m < 2 ^ 20 → e ≤ 900 →
    FinCM (m + 1) e (A.cadd d d') (A'.cadd x y)
  roundTo : ∀ {e : ℕ} {d : F64} {x : ℝ}, FinB e d x → ∀ lo hi, A.roundTo lo hi d = A'.roundTo lo hi x

theorem sim_f64 (b : Bool) (rm rd : F64.Recover) : Sim (f64A b rm rd) (ieeeA b) where
  cadd := finC_cadd
  csub := finC_csub
  cneg := finC_cneg
  conj := finC_conj
  cmul := finC_cmul
  cdiv := finC_cdiv
  scale := finC_scale
  unit := finB_unit
  half := finB_half
  lit := finB_lit
  ofReal := finC_ofReal
  int := finB_int
  ofInt := finC_ofInt
  tab := finC_tab
  neg := finB_neg
  add := finB_add
  div := finB_div
  sqrt := finB_sqrt
  le := finB_le
  re := fun h => h.1
  cx := fun h h' => ⟨h, h'⟩
  acc := fun h h' hm he => ⟨finM_add h.1 h'.1 hm he, finM_add h.2 h'.2 hm he⟩
  roundTo := finB_roundTo

end Falcon
