import Verif.Proofs.ZeroKey
import Verif.Proofs.StuckRun
import Verif.Proofs.F64Key
import Verif.Props.Stuck

/-!
# Key generation draws the key of `Proofs/ZeroKey`
-/

namespace Falcon

open Finset

/-- The even part of the coefficients. -/
def evens (m : ℕ) (l : List ℤ) : List ℤ := (List.range m).map fun i => l.getD (2 * i) 0

/-- The odd part of the coefficients. -/
def odds (m : ℕ) (l : List ℤ) : List ℤ := (List.range m).map fun i => l.getD (2 * i + 1) 0

/-- e^2 - x o^2 where e and o are the even and the odd part. -/
def normP (m : ℕ) (l : List ℤ) : List ℤ := lAdd (lMul (evens m l) (evens m l)) (0 :: (lMul (odds m l) (odds m l)).map (-1 * ·))

/-- The field norm. -/
def normL (m : ℕ) (l : List ℤ) : List ℤ := lAdd ((normP m l).take m) (((normP m l).drop m).map (-1 * ·))

/-- The polynomial with coefficients `l`. -/
def memL (l : List ℤ) : Mem ℤ := fun i => l.getD i 0

theorem dft_memL {k : ℕ} (l : List ℤ) (hl : l.length = 2 ^ k) (j : ℕ) : dft k (zC (memL l)) j = evL (fftPoint k j) l := by
  have h := dft_stride (S := 1) (n := k) one_pos l (by rw [hl, mul_one]) j
  rw [pow_one] at h
  rw [← h]
  congr 1
  funext i
  simp [memL, strideMem, zC, Nat.mod_one]

theorem isNorm_list {k : ℕ} (hk : k + 1 ≤ 10) {l : List ℤ} {v : ℤ} (hP : 2 ^ k ≤ (normP (2 ^ k) l).length)
    (hb : (normL (2 ^ k) l).length = 2 ^ k) (h : IsNorm k (memL (normL (2 ^ k) l)) v) : IsNorm (k + 1) (memL l) v := by
  unfold IsNorm at *
  rw [h, show 2 ^ (k + 1) = 2 * 2 ^ k by rw [pow_succ, mul_comm], prod_pair_index]
  refine prod_congr rfl fun j hj => ?_
  have hj := mem_range.mp hj
  rw [dft_even hk _ j hj, dft_odd hk _ j hj, dft_memL _ hb]
  have e0 : dft k (fun i => zC (memL l) (2 * i)) j = evL (fftPoint k j) (evens (2 ^ k) l) := by
    rw [← dft_memL _ (by simp [evens])]
    refine sum_congr rfl fun i hi => ?_
    have hi := mem_range.mp hi
    simp [zC, memL, evens, List.getD_eq_getElem?_getD, hi]
  have e1 : dft k (fun i => zC (memL l) (2 * i + 1)) j = evL (fftPoint k j) (odds (2 ^ k) l) := by
    rw [← dft_memL _ (by simp [odds])]
    refine sum_congr rfl fun i hi => ?_
    have hi := mem_range.mp hi
    simp [zC, memL, odds, List.getD_eq_getElem?_getD, hi]
  rw [e0, e1]
  have c := cT_sq hk j hj
  have p := fftPoint_pow (n := k) (by omega) j hj
  have s := evL_split (fftPoint k j) (2 ^ k) (normP (2 ^ k) l) hP
  have t : evL (fftPoint k j) (normP (2 ^ k) l) = evL (fftPoint k j) (evens (2 ^ k) l) ^ 2 -
      fftPoint k j * evL (fftPoint k j) (odds (2 ^ k) l) ^ 2 := by
    unfold normP
    rw [evL_lAdd, evL_lMul, evL, evL_map, evL_lMul]
    push_cast
    ring
  unfold normL
  rw [evL_lAdd, evL_map]
  rw [p] at s
  generalize evL (fftPoint k j) (evens (2 ^ k) l) = a at *
  generalize evL (fftPoint k j) (odds (2 ^ k) l) = d at *
  push_cast
  linear_combination t - s + d ^ 2 * c

theorem isNorm_one {v : ℤ} (l : List ℤ) (h : l.getD 0 0 = v) : IsNorm 0 (memL l) v := by
  unfold IsNorm dft zC memL
  simp only [pow_zero, prod_range_one, sum_range_one, mul_one, h]

/-- The tower over the degree 32 part. -/
def tower5 (l : List ℤ) : ℤ := (normL 1 (normL 2 (normL 4 (normL 8 (normL 16 l))))).getD 0 0

/-- Lengths in the tower. -/
def lens5 (l : List ℤ) : Prop :=
  let l4 := normL 16 l
  let l3 := normL 8 l4
  let l2 := normL 4 l3
  let l1 := normL 2 l2
  let l0 := normL 1 l1
  (16 ≤ (normP 16 l).length ∧ l4.length = 16) ∧ (8 ≤ (normP 8 l4).length ∧ l3.length = 8) ∧
  (4 ≤ (normP 4 l3).length ∧ l2.length = 4) ∧ (2 ≤ (normP 2 l2).length ∧ l1.length = 2) ∧ 1 ≤ (normP 1 l1).length ∧ l0.length = 1

instance (l : List ℤ) : Decidable (lens5 l) := by unfold lens5; infer_instance

theorem isNorm_tower {l : List ℤ} (h : lens5 l) : IsNorm 5 (memL l) (tower5 l) := by
  obtain ⟨⟨a1, a2⟩, ⟨b1, b2⟩, ⟨c1, c2⟩, ⟨d1, d2⟩, e1, e2⟩ := h
  exact isNorm_list (k := 4) (by norm_num) a1 a2 (isNorm_list (k := 3) (by norm_num) b1 b2 (isNorm_list (k := 2) (by norm_num) c1 c2
    (isNorm_list (k := 1) (by norm_num) d1 d2 (isNorm_list (k := 0) (by norm_num) e1 e2 (isNorm_one _ rfl)))))

theorem isNorm_stride {l : List ℤ} {v : ℤ} (h : IsNorm 5 (memL l) v) : ∀ m, m + 5 ≤ 10 →
    IsNorm (m + 5) (strideMem (2 ^ m) l) (v ^ 2 ^ m) := by
  intro m
  induction m with
  | zero =>
    intro _
    have e : strideMem (2 ^ 0) l = memL l := by
      funext i
      simp [strideMem, memL, Nat.mod_one]
    rw [e, pow_zero, pow_one]
    exact h
  | succ m ih =>
    intro hm
    have := isNorm_even (k := m + 5) (by omega) (a := strideMem (2 ^ (m + 1)) l) (b := strideMem (2 ^ m) l) ?_ ?_ (ih (by omega))
    · rw [← pow_mul, ← pow_succ] at this
      rw [show m + 1 + 5 = m + 5 + 1 by ring]
      exact this
    · intro i _
      unfold strideMem
      rw [pow_succ', Nat.mul_mod_mul_left, Nat.mul_div_mul_left _ _ (by norm_num)]
      simp
    · intro i _
      unfold strideMem
      rw [if_neg]
      intro h
      have h2 : 2 ∣ 2 * i + 1 := (pow_succ' 2 m ▸ Dvd.intro (2 ^ m) rfl : 2 ∣ 2 ^ (m + 1)).trans (Nat.dvd_of_mod_eq_zero h)
      omega

/-- The norms of f and g are coprime. -/
theorem zeroKey_gcd : ∃ u v : ℤ, IsNorm 9 zkf u ∧ IsNorm 9 zkg v ∧ Int.gcd u v = 1 := by
  refine ⟨_, _, isNorm_stride (isNorm_tower (l := zeroF) (by decide +kernel)) 4 (by norm_num),
    isNorm_stride (isNorm_tower (l := zeroG) (by decide +kernel)) 4 (by norm_num), ?_⟩
  rw [← Int.isCoprime_iff_gcd_eq_one]
  apply IsCoprime.pow
  rw [Int.isCoprime_iff_gcd_eq_one]
  decide +kernel

theorem zeroKey_sq : ∑ i ∈ range (2 ^ 9), zkf i ^ 2 + ∑ i ∈ range (2 ^ 9), zkg i ^ 2 ≤ 16800 := by
  decide +kernel

/-- The sum of the inverses of ff* + gg*. -/
theorem zeroKey_trace : ∑ j ∈ range (2 ^ 9), (12289 : ℝ) ^ 2 / gramAt 9 zkf zkg j ≤ 16800 * 2 ^ 9 := by
  have hM : (0 : ℝ) < zeroM := by unfold zeroM; norm_num
  rw [zeroKey_sum, div_le_iff₀ hM]
  have hz : (12289 ^ 2 * 2 ^ 9 * zeroU.headD 0 : ℤ) ≤ 16800 * 2 ^ 9 * zeroM := by decide +kernel
  exact_mod_cast hz

theorem zeroKey_pos (j : ℕ) (hj : j < 2 ^ 9) : 0 < gramAt 9 zkf zkg j := by
  have hM : (0 : ℝ) < zeroM := by unfold zeroM; norm_num
  refine lt_of_le_of_ne (by unfold gramAt; exact add_nonneg (Complex.normSq_nonneg _) (Complex.normSq_nonneg _)) fun h => ?_
  have hg := zeroKey_gram j hj
  rw [← h, Complex.ofReal_zero, zero_mul] at hg
  have : (zeroM : ℝ) = 0 := by exact_mod_cast hg.symm
  exact hM.ne' this

theorem zeroKey_low (j : ℕ) (hj : j < 2 ^ 9) : 1 ≤ gramAt 9 zkf zkg j := by
  have h1 := zeroKey_trace
  have h2 := zeroKey_pos
  have h3 := single_le_sum (f := fun j => (12289 : ℝ) ^ 2 / gramAt 9 zkf zkg j) (fun i hi =>
    div_nonneg (by positivity) (h2 i (mem_range.mp hi)).le) (mem_range.mpr hj)
  have h4 := h3.trans h1
  have h5 := h2 j hj
  rw [div_le_iff₀ h5] at h4
  norm_num at h4
  linarith

/-- If key generation returns on a stream that begins with certain bytes, it returns f and g. -/
theorem keygen_draws {fma : Bool} {n : ℕ} (hn : ValidLog n) {f g : Mem ℤ}
    (hf : ∀ j, j < 2 ^ n → -18 * ((4096 / 2 ^ n : ℕ) : ℤ) ≤ f j ∧ f j ≤ 19 * (4096 / 2 ^ n : ℕ))
    (hg : ∀ j, j < 2 ^ n → -18 * ((4096 / 2 ^ n : ℕ) : ℤ) ≤ g j ∧ g j ≤ 19 * (4096 / 2 ^ n : ℕ)) :
    ∃ w : List UInt8, ∀ (quot : RedQuot) (gs : Mem ℤ → Mem ℤ → Bool) (stream : ℕ → UInt8) (pos : ℕ), Reads stream pos w →
      (∀ f' g', (∀ i, i < 2 ^ n → f' i = f i) → (∀ i, i < 2 ^ n → g' i = g i) → isPolyInvertible n f' = true ∧
        gs f' g' = false ∧ ∀ fuel, ntruSolve quot fuel n f' g' ≠ some (.ok none)) →
      ∀ (fuel iters : ℕ) (s : Ntru) (r : Ntru × ℕ), ntruGen quot gs fma n stream fuel iters s pos = some (.ok r) →
        ∀ i, i < 2 ^ n → r.1.f i = f i ∧ r.1.g i = g i := by
  obtain ⟨w1, hw1⟩ := genPoly_word (fma := fma) hn f hf
  obtain ⟨w2, hw2⟩ := genPoly_word (fma := fma) hn g hg
  refine ⟨w1 ++ w2, fun quot gs stream pos hr H fuel iters s r h => ?_⟩
  cases iters with
  | zero => simp [ntruGen] at h
  | succ iters =>
    rw [ntruGen] at h
    cases fuel with
    | zero =>
      obtain ⟨a, ha, -⟩ := bindO_ok h
      exfalso
      obtain ⟨M, hM⟩ : ∃ M, 1 <<< n = M + 1 := ⟨2 ^ n - 1, by
        have : 0 < 2 ^ n := by positivity
        rw [one_shiftLeft']; omega⟩
      obtain ⟨K, hK⟩ : ∃ K, 4096 / (1 <<< n) = K + 1 := by
        rcases hn with rfl | rfl
        · exact ⟨7, by decide⟩
        · exact ⟨3, by decide⟩
      unfold genPoly at ha
      rw [hM, genPolyLoop, hK, genCoeff, samplerz] at ha
      cases ha
    | succ fuel =>
      obtain ⟨f', h1, h2⟩ := hw1 stream fuel pos s.f hr.left
      obtain ⟨g', h3, h4⟩ := hw2 stream fuel (pos + w1.length) s.g hr.right
      rw [h1, bindO_pure, h3, bindO_pure] at h
      obtain ⟨a1, a2, -⟩ := H f' g' h2 h4
      simp only [a1, a2] at h
      rw [if_neg (by simp), if_neg (by simp)] at h
      obtain ⟨a, ha, h⟩ := bindO_ok h
      cases a with
      | none =>
        exfalso
        refine (H _ _ ?_ ?_).2.2 _ ha
        · intro i hi
          rw [loop_fill_lt _ _ _ _ (by rw [one_shiftLeft']; exact hi), h2 i hi]
        · intro i hi
          rw [loop_fill_lt _ _ _ _ (by rw [one_shiftLeft']; exact hi), h4 i hi]
      | some a =>
        obtain ⟨F, G⟩ := a
        simp only [Option.some.injEq, Except.ok.injEq] at h
        subst h
        exact fun i hi => ⟨h2 i hi, h4 i hi⟩

theorem isNorm_low {k : ℕ} {a b : Mem ℤ} {v : ℤ} (e : ∀ i, i < 2 ^ k → a i = b i) (h : IsNorm k b v) : IsNorm k a v := by
  unfold IsNorm at *
  rw [h]
  exact prod_congr rfl fun j _ => sum_congr rfl fun i hi => by unfold zC; rw [e i (mem_range.mp hi)]

theorem gramAt_low {n : ℕ} {f g f' g' : Mem ℤ} (e1 : ∀ i, i < 2 ^ n → f' i = f i) (e2 : ∀ i, i < 2 ^ n → g' i = g i) (j : ℕ) :
    gramAt n f' g' j = gramAt n f g j := by
  have h : ∀ a a' : Mem ℤ, (∀ i, i < 2 ^ n → a' i = a i) → dft n (zC a') j = dft n (zC a) j := fun a a' h =>
    sum_congr rfl fun i hi => by unfold zC; rw [h i (mem_range.mp hi)]
  unfold gramAt
  rw [h f f' e1, h g g' e2]

theorem polyInt_low {N : ℕ} {a b : Mem ℤ} (e : ∀ i, i < N → a i = b i) : polyInt N a = polyInt N b := by
  unfold polyInt toPoly
  exact sum_congr rfl fun i hi => by simp only [e i (mem_range.mp hi)]

/-- The key passes the tests of key generation, and the solver does not reject it. -/
theorem zeroKey_accepted (b : Bool) (rm rd : F64.Recover) {f' g' : Mem ℤ} (e1 : ∀ i, i < 2 ^ 9 → f' i = zkf i)
    (e2 : ∀ i, i < 2 ^ 9 → g' i = zkg i) : isPolyInvertible 9 f' = true ∧ gsTooBig (f64A b rm rd) 9 f' g' = false ∧
      ∀ (quot : RedQuot) fuel, ntruSolve quot fuel 9 f' g' ≠ some (.ok none) := by
  have hn : ValidLog 9 := .inl rfl
  have r1 : ∀ i, i < 2 ^ 9 → |f' i| ≤ 31 := fun i hi => by rw [e1 i hi]; exact (zeroKey_fits i hi).1
  have r2 : ∀ i, i < 2 ^ 9 → |g' i| ≤ 31 := fun i hi => by rw [e2 i hi]; exact (zeroKey_fits i hi).2.1
  have l1 : ∀ i, i < 2 ^ 9 → |f' i| ≤ 19 * (4096 / 2 ^ 9) := fun i hi => (r1 i hi).trans (by norm_num)
  have l2 : ∀ i, i < 2 ^ 9 → |g' i| ≤ 19 * (4096 / 2 ^ 9) := fun i hi => (r2 i hi).trans (by norm_num)
  have hD : ∀ j, j < 2 ^ 9 → 1 ≤ gramAt 9 f' g' j := fun j hj => by rw [gramAt_low e1 e2]; exact zeroKey_low j hj
  refine ⟨?_, ?_, fun quot fuel h => ?_⟩
  · rw [C36_invertible_iff hn fun i hi => by have := abs_le.mp (r1 i hi); constructor <;> linarith]
    obtain ⟨r, hr⟩ := zeroKey_inv
    refine ⟨r, ?_⟩
    have : polyInt (2 ^ 9) f' = polyInt (2 ^ 9) zkf := polyInt_low e1
    rw [this]
    exact hr
  · rw [gsTooBig64 (by norm_num) (fun i hi => (r1 i hi).trans (by norm_num)) (fun i hi => (r2 i hi).trans (by norm_num)) fun j hj =>
      le_trans (by norm_num) (gsSum_low (accurate_ieee b) hn l1 l2 j hj (le_trans (by norm_num) (hD j hj)))]
    refine gs_accept b hn l1 l2 hD ?_ ?_
    · rw [sum_congr rfl fun i hi => by rw [e1 i (mem_range.mp hi)], sum_congr (s₁ := range (2 ^ 9)) (f := fun i => g' i ^ 2) rfl
        fun i hi => by rw [e2 i (mem_range.mp hi)]]
      exact zeroKey_sq
    · have h := zeroKey_trace
      rw [sum_congr rfl fun j _ => by rw [gramAt_low e1 e2]]
      simp only [div_eq_mul_one_div ((12289 : ℝ) ^ 2)] at h
      rw [← mul_sum] at h
      rw [← mul_div_assoc, div_le_iff₀ (by norm_num)]
      exact h
  · obtain ⟨u, v, hu, hv, huv⟩ := zeroKey_gcd
    exact (C69_failure (by norm_num) (by norm_num) h (isNorm_low e1 hu) (isNorm_low e2 hv)).mp rfl huv

theorem toU8_mod (x : ℤ) : toU8 ((x + 128) % 256 - 128) = toU8 x := by
  unfold toU8
  congr 2
  omega

/-- The encoder keeps F modulo 256. -/
theorem encodeSkey_mod (n : ℕ) (f g F : Mem ℤ) (sk : Mem UInt8) :
    encodeSkey n f g (fun i => (F i + 128) % 256 - 128) sk = encodeSkey n f g F sk := by
  unfold encodeSkey
  simp only [toU8_mod]

end Falcon
