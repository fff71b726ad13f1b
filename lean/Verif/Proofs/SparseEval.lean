import Verif.Proofs.Sparse

/-!
# Binary64 on rational numbers, computable
-/

namespace Falcon

/-- `ieeeMul` on pairs of rational numbers. -/
def qMul (fma : Bool) (x y : ℚ × ℚ) : ℚ × ℚ :=
  if fma then (rndQ (x.1 * y.1 - rndQ (x.2 * y.2)), rndQ (x.1 * y.2 + rndQ (x.2 * y.1)))
  else (rndQ (rndQ (x.1 * y.1) - rndQ (x.2 * y.2)), rndQ (rndQ (x.1 * y.2) + rndQ (x.2 * y.1)))

/-- `ieeeDiv` on pairs of rational numbers. -/
def qDiv (fma : Bool) (x y : ℚ × ℚ) : ℚ × ℚ :=
  let d := if fma then rndQ (y.1 * y.1 + rndQ (y.2 * y.2)) else rndQ (rndQ (y.1 * y.1) + rndQ (y.2 * y.2))
  let p := qMul fma x (y.1, -y.2)
  (rndQ (p.1 / d), rndQ (p.2 / d))

/-- The operations of `ieeeA` that keep rational numbers rational; the others are not used. -/
def qA (fma : Bool) : Arith ℚ (ℚ × ℚ) where
  lit x := rndQ x
  neg x := -x
  add x y := rndQ (x + y)
  mul x y := rndQ (x * y)
  div x y := rndQ (x / y)
  sqrt x := x
  max x y := max x y
  le x y := decide (x ≤ y)
  gt x y := decide (x > y)
  roundTo _ _ _ := .ok 0
  cx a b := (a, b)
  re z := z.1
  cadd x y := (rndQ (x.1 + y.1), rndQ (x.2 + y.2))
  csub x y := (rndQ (x.1 - y.1), rndQ (x.2 - y.2))
  cmul := qMul fma
  cdiv := qDiv fma
  cneg x := (-x.1, -x.2)
  conj x := (x.1, -x.2)
  scale r z := (rndQ (r * z.1), rndQ (r * z.2))
  tab k := (rndQ (rootLit k).1, rndQ (rootLit k).2)

/-- A pair of rational numbers as a complex number. -/
noncomputable def qC (z : ℚ × ℚ) : ℂ := ⟨(z.1 : ℝ), (z.2 : ℝ)⟩

section
variable (b : Bool)

theorem qC_cadd (x y : ℚ × ℚ) : qC ((qA b).cadd x y) = (ieeeA b).cadd (qC x) (qC y) := by
  apply Complex.ext <;> simp [qA, qC, ieeeA, ← rndQ_val]

theorem qC_csub (x y : ℚ × ℚ) : qC ((qA b).csub x y) = (ieeeA b).csub (qC x) (qC y) := by
  apply Complex.ext <;> simp [qA, qC, ieeeA, ← rndQ_val]

theorem qC_cmul (x y : ℚ × ℚ) : qC ((qA b).cmul x y) = (ieeeA b).cmul (qC x) (qC y) := by
  cases b <;> apply Complex.ext <;> simp [qA, qC, qMul, ieeeA, ieeeMul, ← rndQ_val]

theorem qC_conj (x : ℚ × ℚ) : qC ((qA b).conj x) = (ieeeA b).conj (qC x) := by
  apply Complex.ext <;> simp [qA, qC, ieeeA]

theorem qC_cneg (x : ℚ × ℚ) : qC ((qA b).cneg x) = (ieeeA b).cneg (qC x) := by
  apply Complex.ext <;> simp [qA, qC, ieeeA]

theorem qC_cdiv (x y : ℚ × ℚ) : qC ((qA b).cdiv x y) = (ieeeA b).cdiv (qC x) (qC y) := by
  have e := qC_cmul b x ((qA b).conj y)
  rw [qC_conj] at e
  cases b <;> apply Complex.ext <;> simp [qA, qC, qDiv, qMul, ieeeA, ieeeDiv, ieeeMul, ← rndQ_val]

theorem qC_tab (k : ℕ) : qC ((qA b).tab k) = (ieeeA b).tab k := by
  apply Complex.ext <;> simp [qA, qC, ieeeA, ← rndQ_val]

theorem qC_scale (q : ℚ) (x : ℚ × ℚ) : qC ((qA b).scale ((qA b).lit q) x) = (ieeeA b).scale ((ieeeA b).lit q) (qC x) := by
  apply Complex.ext <;> simp [qA, qC, ieeeA, ← rndQ_val]

theorem qC_ofInt (z : ℤ) : qC ((qA b).ofInt z) = (ieeeA b).ofInt z := by
  apply Complex.ext <;> simp [Arith.ofInt, Arith.ofReal, qA, qC, ieeeA, ← rndQ_val]

theorem qC_fftBf (k : ℕ) (x y : ℚ × ℚ) : qC (fftBf (qA b) k x y).1 = (fftBf (ieeeA b) k (qC x) (qC y)).1 ∧
    qC (fftBf (qA b) k x y).2 = (fftBf (ieeeA b) k (qC x) (qC y)).2 := by
  unfold fftBf
  simp only [qC_cadd, qC_csub, qC_cmul, qC_tab, and_self]

theorem qC_ifftBf (k : ℕ) (x y : ℚ × ℚ) : qC (ifftBf (qA b) k x y).1 = (ifftBf (ieeeA b) k (qC x) (qC y)).1 ∧
    qC (ifftBf (qA b) k x y).2 = (ifftBf (ieeeA b) k (qC x) (qC y)).2 := by
  unfold ifftBf
  simp only [qC_cadd, qC_csub, qC_cmul, qC_cneg, qC_tab, and_self]

theorem qC_fft4 (c : ℕ → ℚ × ℚ) (q : ℕ) : qC (fft4 (qA b) c q) = fft4 (ieeeA b) (fun i => qC (c i)) q := by
  unfold fft4 lay2 lay1
  simp only [apply_ite qC, (qC_fftBf b _ _ _).1, (qC_fftBf b _ _ _).2]

theorem qC_ifft4 (m : ℕ) (W : ℕ → ℚ × ℚ) (q : ℕ) : qC (ifft4 (qA b) m W q) = ifft4 (ieeeA b) m (fun i => qC (W i)) q := by
  have hd : ∀ (m : ℕ) (x : ℚ × ℚ), qC ((fun x => (qA b).cadd x x)^[m] x) = (fun x => (ieeeA b).cadd x x)^[m] (qC x) := by
    intro m
    induction m with
    | zero => intro x; rfl
    | succ m ih => intro x; rw [Function.iterate_succ_apply, Function.iterate_succ_apply, ih, qC_cadd]
  unfold ifft4 lay2 lay1
  simp only [qC_scale, apply_ite qC, (qC_ifftBf b _ _ _).1, (qC_ifftBf b _ _ _).2, hd]

theorem qC_quo4 (m : ℕ) (f g F G : ℕ → ℤ) (q : ℕ) : quo4 (ieeeA b) m f g F G q = qC (quo4 (qA b) m f g F G q) := by
  unfold quo4 quoAt
  rw [qC_ifft4]
  simp only [qC_cdiv, qC_cadd, qC_cmul, qC_conj, qC_fft4, qC_ofInt]

end

/-- The four coefficients of the key that makes the reduction loop for ever. -/
def sf4 : ℕ → ℤ := fun i => match i with | 0 => 18 | 1 => 39 | 2 => 35 | 3 => -9 | _ => 0
def sg4 : ℕ → ℤ := fun i => match i with | 0 => 24 | 1 => -23 | 2 => 33 | 3 => -67 | _ => 0
def sF4 : ℕ → ℤ := fun i => match i with | 0 => -28 | 1 => -94 | 2 => 8 | 3 => -41 | _ => 0
def sG4 : ℕ → ℤ := fun i => match i with | 0 => -24 | 1 => 33 | 2 => -79 | 3 => -38 | _ => 0

set_option maxRecDepth 100000 in
/-- The quotient of (F, G) has constant coefficient at most -1/2, and that of (F + f, G + g) at least 1/2, as computed. -/
theorem stuck_eval (b : Bool) {m : ℕ} (hm : m = 7 ∨ m = 8) : (quo4 (qA b) m sf4 sg4 sF4 sG4 0).1 ≤ -(1 / 2) ∧
    1 / 2 ≤ (quo4 (qA b) m sf4 sg4 (fun i => sF4 i + sf4 i) (fun i => sG4 i + sg4 i) 0).1 := by
  rcases hm with rfl | rfl <;> cases b <;> decide +kernel

end Falcon
