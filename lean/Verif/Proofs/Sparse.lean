import Verif.Proofs.Reduce
import Verif.Proofs.RatFloat

/-!
# The reduction quotient of polynomials in x^(N/4)

The transforms of a polynomial whose only nonzero coefficients have indices 0, N/4, N/2, 3N/4 take four values. In
binary64 the lower layers copy or double these values without error.
-/

namespace Falcon

/-- The first `4 S` entries are `c q` at `q S` and `z` elsewhere. -/
def Sparse {α : Type} (S : ℕ) (c : ℕ → α) (z : α) (a : Mem α) : Prop :=
  ∀ q, q < 4 → ∀ i, i < S → a (q * S + i) = if i = 0 then c q else z

/-- The layer combining entries 0, 2 and 1, 3. -/
def lay1 {α : Type} (bf : ℕ → α → α → α × α) (k : ℕ) (c : ℕ → α) (q : ℕ) : α :=
  if q < 2 then (bf k (c q) (c (q + 2))).1 else (bf k (c (q - 2)) (c q)).2

/-- The layer combining entries 0, 1 and 2, 3. -/
def lay2 {α : Type} (bf : ℕ → α → α → α × α) (tk : ℕ → ℕ) (c : ℕ → α) (q : ℕ) : α :=
  if q % 2 = 0 then (bf (tk (q / 2)) (c q) (c (q + 1))).1 else (bf (tk (q / 2)) (c (q - 1)) (c q)).2

theorem LayerSpec.lay1 {α : Type} {bf : ℕ → α → α → α × α} {tk : ℕ → ℕ} {S : ℕ} {c : ℕ → α} {z : α} {a a' : Mem α}
    (hz : ∀ k, bf k z z = (z, z)) (h : LayerSpec bf tk 1 (2 * S) a a') (ha : Sparse S c z a) :
    Sparse S (lay1 bf (tk 0) c) z a' := by
  intro q hq i hi
  unfold Falcon.lay1
  by_cases h2 : q < 2
  · have e := h.lo 0 (by norm_num) (q * S + i) (by
      have : q * S ≤ 1 * S := Nat.mul_le_mul_right _ (by omega)
      omega)
    rw [show 0 * (2 * (2 * S)) + (q * S + i) = q * S + i by ring,
      show 0 * (2 * (2 * S)) + 2 * S + (q * S + i) = (q + 2) * S + i by ring, ha q hq i hi, ha (q + 2) (by omega) i hi] at e
    rw [e, if_pos h2]
    by_cases h0 : i = 0
    · simp only [if_pos h0]
    · simp only [if_neg h0, hz]
  · obtain ⟨p, rfl⟩ : ∃ p, q = p + 2 := ⟨q - 2, by omega⟩
    have e := h.hi 0 (by norm_num) (p * S + i) (by
      have : p * S ≤ 1 * S := Nat.mul_le_mul_right _ (by omega)
      omega)
    rw [show 0 * (2 * (2 * S)) + (p * S + i) = p * S + i by ring,
      show 0 * (2 * (2 * S)) + 2 * S + (p * S + i) = (p + 2) * S + i by ring, ha p (by omega) i hi, ha (p + 2) hq i hi] at e
    rw [e, if_neg h2, Nat.add_sub_cancel]
    by_cases h0 : i = 0
    · simp only [if_pos h0]
    · simp only [if_neg h0, hz]

theorem LayerSpec.lay2 {α : Type} {bf : ℕ → α → α → α × α} {tk : ℕ → ℕ} {S : ℕ} {c : ℕ → α} {z : α} {a a' : Mem α}
    (hz : ∀ k, bf k z z = (z, z)) (h : LayerSpec bf tk 2 S a a') (ha : Sparse S c z a) :
    Sparse S (lay2 bf tk c) z a' := by
  intro q hq i hi
  unfold Falcon.lay2
  by_cases h2 : q % 2 = 0
  · obtain ⟨p, rfl⟩ : ∃ p, q = 2 * p := ⟨q / 2, by omega⟩
    have e := h.lo p (by omega) i hi
    rw [show p * (2 * S) + i = 2 * p * S + i by ring, show p * (2 * S) + S + i = (2 * p + 1) * S + i by ring,
      ha _ hq i hi, ha _ (by omega) i hi] at e
    rw [e, if_pos h2, show 2 * p / 2 = p by omega]
    by_cases h0 : i = 0
    · simp only [if_pos h0]
    · simp only [if_neg h0, hz]
  · obtain ⟨p, rfl⟩ : ∃ p, q = 2 * p + 1 := ⟨q / 2, by omega⟩
    have e := h.hi p (by omega) i hi
    rw [show p * (2 * S) + i = 2 * p * S + i by ring, show p * (2 * S) + S + i = (2 * p + 1) * S + i by ring,
      ha _ (by omega) i hi, ha _ hq i hi] at e
    rw [e, if_neg h2, show (2 * p + 1) / 2 = p by omega, Nat.add_sub_cancel]
    by_cases h0 : i = 0
    · simp only [if_pos h0]
    · simp only [if_neg h0, hz]

theorem Sparse.at {α : Type} {S : ℕ} {c : ℕ → α} {z : α} {a : Mem α} (h : Sparse S c z a) (j : ℕ) (hj : j < 4 * S) :
    a j = if j % S = 0 then c (j / S) else z := by
  have hS : 0 < S := by omega
  have e := h (j / S) (Nat.div_lt_of_lt_mul (by rw [mul_comm]; exact hj)) (j % S) (Nat.mod_lt _ hS)
  rwa [show j / S * S + j % S = j by rw [mul_comm]; exact Nat.div_add_mod j S] at e

theorem Sparse.of_at {α : Type} {S : ℕ} {c : ℕ → α} {z : α} {a : Mem α}
    (h : ∀ j, j < 4 * S → a j = if j % S = 0 then c (j / S) else z) : Sparse S c z a := by
  intro q hq i hi
  have hS : 0 < S := by omega
  have hle : q * S ≤ 3 * S := Nat.mul_le_mul_right _ (by omega)
  rw [h _ (by omega), Nat.mul_comm q S, Nat.mul_add_mod, Nat.mod_eq_of_lt hi, Nat.mul_add_div hS, Nat.div_eq_of_lt hi, Nat.add_zero]

theorem mod_lo {b len i : ℕ} (hi : i < len) : (b * (2 * len) + i) % (2 * len) = i ∧
    (b * (2 * len) + len + i) % (2 * len) = len + i ∧ (b * (2 * len) + i) % len = i ∧ (b * (2 * len) + len + i) % len = i := by
  refine ⟨?_, ?_, ?_, ?_⟩
  · rw [mul_comm b, Nat.mul_add_mod, Nat.mod_eq_of_lt (by omega)]
  · rw [mul_comm b, Nat.add_assoc, Nat.mul_add_mod, Nat.mod_eq_of_lt (by omega)]
  · rw [show b * (2 * len) + i = len * (2 * b) + i by ring, Nat.mul_add_mod, Nat.mod_eq_of_lt hi]
  · rw [show b * (2 * len) + len + i = len * (2 * b + 1) + i by ring, Nat.mul_add_mod, Nat.mod_eq_of_lt hi]

theorem div_lo {b len i t : ℕ} (hi : i < len) : (b * (2 * len) + i) / (2 * len * 2 ^ t) = b / 2 ^ t ∧
    (b * (2 * len) + len + i) / (2 * len * 2 ^ t) = b / 2 ^ t := by
  have h0 : 0 < 2 * len := by omega
  constructor
  · rw [← Nat.div_div_eq_div_mul, mul_comm b, Nat.mul_add_div h0, Nat.div_eq_of_lt (show i < 2 * len by omega), Nat.add_zero]
  · rw [← Nat.div_div_eq_div_mul, mul_comm b, Nat.add_assoc, Nat.mul_add_div h0,
      Nat.div_eq_of_lt (show len + i < 2 * len by omega), Nat.add_zero]

/-- Below the top two layers the forward transform copies. -/
theorem down_sparse {α : Type} {bf : ℕ → α → α → α × α} {z : α} {P : α → Prop} (hz : P z)
    (hbf : ∀ k x, P x → bf k x z = (x, x)) {m : ℕ} {c : ℕ → α} {a : Mem α} (ha : Sparse (2 ^ m) c z a)
    (hP : ∀ q, q < 4 → P (lay2 bf (fun b => 2 + b) (lay1 bf 1 c) q)) (j : ℕ) (hj : j < 2 ^ (m + 2)) :
    downLayers (m + 2) (bfStep bf) a j = lay2 bf (fun b => 2 + b) (lay1 bf 1 c) (j / 2 ^ m) := by
  set V := lay2 bf (fun b => 2 + b) (lay1 bf 1 c) with hV
  have hzz : ∀ k, bf k z z = (z, z) := fun k => hbf k z hz
  have h4 : 2 ^ (m + 2) = 4 * 2 ^ m := by rw [pow_add]; ring
  have key : ∀ t, t ≤ m → ∀ j, j < 4 * 2 ^ m →
      loop (2 + t) (fun j a => downLayer (m + 2) (m + 2 - 1 - j) (bfStep bf) a) a j
        = if j % 2 ^ (m - t) = 0 then V (j / 2 ^ m) else z := by
    intro t
    induction t with
    | zero =>
      intro _ j hj
      have s1 := downLayer_spec (show m + 1 < m + 2 by omega) bf a
      rw [show m + 2 - (m + 1) - 1 = 0 by omega, pow_zero, pow_succ', ] at s1
      have t1 := s1.lay1 hzz ha
      have s2 := downLayer_spec (show m < m + 2 by omega) bf (downLayer (m + 2) (m + 1) (bfStep bf) a)
      rw [show m + 2 - m - 1 = 1 by omega, pow_one] at s2
      have t2 := s2.lay2 hzz t1
      have := t2.at j hj
      rw [Nat.sub_zero]
      exact this
    | succ t ih =>
      intro ht
      obtain ⟨l, rfl⟩ : ∃ l, m = t + 1 + l := ⟨m - (t + 1), by omega⟩
      rw [show 2 + (t + 1) = (2 + t) + 1 by ring, loop_succ]
      have hl : t + 1 + l + 2 - 1 - (2 + t) = l := by omega
      simp only [hl]
      have s := downLayer_spec (show l < t + 1 + l + 2 by omega) bf
        (loop (2 + t) (fun j a => downLayer (t + 1 + l + 2) (t + 1 + l + 2 - 1 - j) (bfStep bf) a) a)
      have hS : 2 ^ (t + 1 + l) = 2 * 2 ^ l * 2 ^ t := by rw [pow_add, pow_succ]; ring
      have hN : 2 ^ (t + 1 + l + 2 - l - 1) * (2 * 2 ^ l) = 4 * 2 ^ (t + 1 + l) := by
        rw [(layer_idx (show l < t + 1 + l + 2 by omega)).2, h4]
      have ih := ih (by omega)
      rw [show t + 1 + l - t = l + 1 by omega, pow_succ'] at ih
      rw [show t + 1 + l - (t + 1) = l by omega, ← hN]
      rw [← hN] at ih
      generalize loop (2 + t) (fun j a => downLayer (t + 1 + l + 2) (t + 1 + l + 2 - 1 - j) (bfStep bf) a) a = a0 at *
      generalize hlen : 2 ^ l = len at *
      have hblk : ∀ b, b < 2 ^ (t + 1 + l + 2 - l - 1) → b * (2 * len) + 2 * len ≤ 2 ^ (t + 1 + l + 2 - l - 1) * (2 * len) := by
        intro b hb
        calc b * (2 * len) + 2 * len = (b + 1) * (2 * len) := by ring
          _ ≤ _ := Nat.mul_le_mul_right _ hb
      have hq : ∀ b, b < 2 ^ (t + 1 + l + 2 - l - 1) → b / 2 ^ t < 4 := by
        intro b hb
        refine Nat.div_lt_of_lt_mul (hb.trans_le (le_of_eq ?_))
        rw [show t + 1 + l + 2 - l - 1 = t + 2 by omega, pow_add]; ring
      refine idx_cases ?_ ?_
      · intro b hb i hi
        have hb' := hblk b hb
        obtain ⟨m1, m2, m3, m4⟩ := mod_lo (b := b) hi
        obtain ⟨d1, d2⟩ := div_lo (b := b) (t := t) hi
        rw [s.lo b hb i hi, ih _ (by omega), ih _ (by omega), m1, m2, m3, hS, d1, d2, if_neg (show ¬(len + i = 0) by omega)]
        by_cases h0 : i = 0
        · rw [if_pos h0, hbf _ _ (hP _ (hq b hb))]
        · rw [if_neg h0, hzz]
      · intro b hb i hi
        have hb' := hblk b hb
        obtain ⟨m1, m2, m3, m4⟩ := mod_lo (b := b) hi
        obtain ⟨d1, d2⟩ := div_lo (b := b) (t := t) hi
        rw [s.hi b hb i hi, ih _ (by omega), ih _ (by omega), m1, m2, m4, hS, d1, d2, if_neg (show ¬(len + i = 0) by omega)]
        by_cases h0 : i = 0
        · rw [if_pos h0, hbf _ _ (hP _ (hq b hb))]
        · rw [if_neg h0, hzz]
  have := key m le_rfl j (by omega)
  rw [Nat.sub_self, pow_zero, Nat.mod_one, if_pos rfl] at this
  unfold downLayers
  rw [show m + 2 = 2 + m by ring] at this ⊢
  exact this

/-- Below the top two layers the inverse transform doubles. -/
theorem up_sparse {α : Type} {bf : ℕ → α → α → α × α} {z : α} {P : α → Prop} (dbl : α → α) (hz : P z) (hzd : dbl z = z)
    (hd : ∀ x, P x → P (dbl x)) (hbf : ∀ k x, P x → bf k x x = (dbl x, z)) {m : ℕ} {W : ℕ → α} {a : Mem α}
    (hW : ∀ q, q < 4 → P (W q)) (ha : ∀ j, j < 2 ^ (m + 2) → a j = W (j / 2 ^ m)) :
    Sparse (2 ^ m) (lay1 bf 1 (lay2 bf (fun b => 3 - b) (fun q => dbl^[m] (W q)))) z
      (upLayers (m + 2) (bfStep bf) a) := by
  have hzz : ∀ k, bf k z z = (z, z) := fun k => by rw [hbf k z hz, hzd]
  have h4 : 2 ^ (m + 2) = 4 * 2 ^ m := by rw [pow_add]; ring
  have hPd : ∀ t q, q < 4 → P (dbl^[t] (W q)) := by
    intro t q hq
    induction t with
    | zero => exact hW q hq
    | succ t ih => rw [Function.iterate_succ_apply']; exact hd _ ih
  have key : ∀ t, t ≤ m → ∀ j, j < 4 * 2 ^ m →
      loop t (fun j a => upLayer (m + 2) j (bfStep bf) a) a j
        = if j % 2 ^ t = 0 then dbl^[t] (W (j / 2 ^ m)) else z := by
    intro t
    induction t with
    | zero =>
      intro _ j hj
      rw [pow_zero, Nat.mod_one, if_pos rfl]
      exact ha j (by omega)
    | succ t ih =>
      intro ht
      obtain ⟨r, rfl⟩ : ∃ r, m = t + 1 + r := ⟨m - (t + 1), by omega⟩
      rw [loop_succ]
      have s := upLayer_spec (show t < t + 1 + r + 2 by omega) bf
        (loop t (fun j a => upLayer (t + 1 + r + 2) j (bfStep bf) a) a)
      have hS : 2 ^ (t + 1 + r) = 2 * 2 ^ t * 2 ^ r := by rw [pow_add, pow_succ]; ring
      have hN : 2 ^ (t + 1 + r + 2 - t - 1) * (2 * 2 ^ t) = 4 * 2 ^ (t + 1 + r) := by
        rw [(layer_idx (show t < t + 1 + r + 2 by omega)).2, h4]
      have ih := ih (by omega)
      rw [pow_succ', ← hN]
      rw [← hN] at ih
      generalize loop t (fun j a => upLayer (t + 1 + r + 2) j (bfStep bf) a) a = a0 at *
      generalize hlen : 2 ^ t = len at *
      have hblk : ∀ b, b < 2 ^ (t + 1 + r + 2 - t - 1) → b * (2 * len) + 2 * len ≤ 2 ^ (t + 1 + r + 2 - t - 1) * (2 * len) := by
        intro b hb
        calc b * (2 * len) + 2 * len = (b + 1) * (2 * len) := by ring
          _ ≤ _ := Nat.mul_le_mul_right _ hb
      have hq : ∀ b, b < 2 ^ (t + 1 + r + 2 - t - 1) → b / 2 ^ r < 4 := by
        intro b hb
        refine Nat.div_lt_of_lt_mul (hb.trans_le (le_of_eq ?_))
        rw [show t + 1 + r + 2 - t - 1 = r + 2 by omega, pow_add]; ring
      refine idx_cases ?_ ?_
      · intro b hb i hi
        have hb' := hblk b hb
        obtain ⟨m1, m2, m3, m4⟩ := mod_lo (b := b) hi
        obtain ⟨d1, d2⟩ := div_lo (b := b) (t := r) hi
        rw [s.lo b hb i hi, ih _ (by omega), ih _ (by omega), m3, m4, m1, hS, d1, d2]
        by_cases h0 : i = 0
        · rw [if_pos h0, hbf _ _ (hPd _ _ (hq b hb)), if_pos h0, Function.iterate_succ_apply']
        · rw [if_neg h0, hzz, if_neg h0]
      · intro b hb i hi
        have hb' := hblk b hb
        obtain ⟨m1, m2, m3, m4⟩ := mod_lo (b := b) hi
        obtain ⟨d1, d2⟩ := div_lo (b := b) (t := r) hi
        rw [s.hi b hb i hi, ih _ (by omega), ih _ (by omega), m3, m4, m2, hS, d1, d2, if_neg (show ¬(len + i = 0) by omega)]
        by_cases h0 : i = 0
        · rw [if_pos h0, hbf _ _ (hPd _ _ (hq b hb))]
        · rw [if_neg h0, hzz]
  have s0 := Sparse.of_at (c := fun q => dbl^[m] (W q)) (key m le_rfl)
  unfold upLayers
  rw [show m + 2 = m + 1 + 1 by ring, loop_succ, loop_succ]
  have s1 := upLayer_spec (show m < m + 2 by omega) bf (loop m (fun j a => upLayer (m + 1 + 1) j (bfStep bf) a) a)
  rw [show m + 2 - m - 1 = 1 by omega, pow_one] at s1
  have t1 := s1.lay2 hzz s0
  have s2 := upLayer_spec (show m + 1 < m + 2 by omega) bf
    (upLayer (m + 2) m (bfStep bf) (loop m (fun j a => upLayer (m + 1 + 1) j (bfStep bf) a) a))
  rw [show m + 2 - (m + 1) - 1 = 0 by omega, pow_zero, pow_succ'] at s2
  have t2 := s2.lay1 hzz t1
  exact t2

section
variable {R C : Type} (A : Arith R C)

/-- The transform at four points. -/
def fft4 (c : ℕ → C) : ℕ → C := lay2 (fftBf A) (fun b => 2 + b) (lay1 (fftBf A) 1 c)

/-- The inverse transform of four values, each repeated 2^m times. -/
def ifft4 (m : ℕ) (W : ℕ → C) (q : ℕ) : C :=
  A.scale (A.lit (1 / 2 ^ (m + 2)))
    (lay1 (ifftBf A) 1 (lay2 (ifftBf A) (fun b => 3 - b) (fun q => (fun x => A.cadd x x)^[m] (W q))) q)

/-- The quotient of `reduce` for polynomials in x^(N/4). -/
def quo4 (m : ℕ) (f g F G : ℕ → ℤ) : ℕ → C := ifft4 A m fun q =>
  quoAt A (fft4 A (fun i => A.ofInt (f i)) q) (fft4 A (fun i => A.ofInt (g i)) q)
    (fft4 A (fun i => A.ofInt (F i)) q) (fft4 A (fun i => A.ofInt (G i)) q)

end

/-- Both parts are doubles. -/
def RepC (z : ℂ) : Prop := Rep z.re ∧ Rep z.im

theorem repC_zero : RepC 0 := by
  have : Rep 0 := by simpa using rep_int (n := 0) (by norm_num)
  exact ⟨this, this⟩

theorem ieee_cadd_zero (b : Bool) {x : ℂ} (hx : RepC x) : (ieeeA b).cadd x 0 = x ∧ (ieeeA b).csub x 0 = x := by
  constructor <;> (apply Complex.ext <;> simp [ieeeA, rnd_of_rep hx.1, rnd_of_rep hx.2])

theorem ieee_cmul_zero (b : Bool) (x : ℂ) : (ieeeA b).cmul x 0 = 0 ∧ (ieeeA b).cmul 0 x = 0 := by
  constructor <;> (apply Complex.ext <;> cases b <;> simp [ieeeA, ieeeMul, rnd_zero])

theorem ieee_dbl (b : Bool) {x : ℂ} : RepC ((ieeeA b).cadd x x) ∧ (ieeeA b).csub x x = 0 := by
  refine ⟨⟨rep_rnd _, rep_rnd _⟩, ?_⟩
  apply Complex.ext <;> simp [ieeeA, rnd_zero]

theorem ieee_fft4 (b : Bool) (c : ℕ → ℂ) (q : ℕ) : RepC (fft4 (ieeeA b) c q) := by
  unfold fft4 lay2 fftBf
  split <;> exact ⟨rep_rnd _, rep_rnd _⟩

theorem ieee_fft (b : Bool) {m : ℕ} {c : ℕ → ℂ} {a : Mem ℂ} (ha : Sparse (2 ^ m) c 0 a) (j : ℕ) (hj : j < 2 ^ (m + 2)) :
    fft (ieeeA b) (m + 2) a j = fft4 (ieeeA b) c (j / 2 ^ m) := by
  rw [fft_eq]
  refine down_sparse (P := RepC) repC_zero ?_ ha (fun q _ => ieee_fft4 b c q) j hj
  intro k x hx
  unfold fftBf
  rw [(ieee_cmul_zero b _).1, (ieee_cadd_zero b hx).1, (ieee_cadd_zero b hx).2]

theorem ieee_ifft (b : Bool) {m : ℕ} {W : ℕ → ℂ} {a : Mem ℂ} (hW : ∀ q, RepC (W q))
    (ha : ∀ j, j < 2 ^ (m + 2) → a j = W (j / 2 ^ m)) (q : ℕ) (hq : q < 4) :
    ifft (ieeeA b) (m + 2) a (q * 2 ^ m) = ifft4 (ieeeA b) m W q := by
  have h := up_sparse (bf := ifftBf (ieeeA b)) (z := 0) (P := RepC) (fun x => (ieeeA b).cadd x x) repC_zero
    (ieee_cadd_zero b repC_zero).1 (fun x _ => (ieee_dbl b).1) (by
      intro k x hx
      unfold ifftBf
      rw [(ieee_dbl b).2, (ieee_cmul_zero b _).2]) (fun q _ => hW q) ha q hq 0 (by positivity)
  rw [if_pos rfl, Nat.add_zero (q * 2 ^ m)] at h
  have hlt : q * 2 ^ m < 2 ^ (m + 2) := by
    rw [pow_add, mul_comm (2 ^ m)]
    exact Nat.mul_lt_mul_of_pos_right (by omega) (by positivity)
  rw [ifft_eq, if_pos hlt, h]
  rfl

/-- The computed quotient of polynomials in x^(N/4), before rounding to integers. -/
theorem ieee_quo (b : Bool) {m : ℕ} {f g F G kr : Mem ℤ} {f4 g4 F4 G4 : ℕ → ℤ} (hf : Sparse (2 ^ m) f4 0 f)
    (hg : Sparse (2 ^ m) g4 0 g) (hF : Sparse (2 ^ m) F4 0 F) (hG : Sparse (2 ^ m) G4 0 G)
    (h : redQuot (ieeeA b) (m + 2) f g F G = .ok kr) (q : ℕ) (hq : q < 4) :
    exactRoundTo (-2 ^ 63) (2 ^ 63 - 1) (quo4 (ieeeA b) m f4 g4 F4 G4 q).re = .ok (kr (q * 2 ^ m)) := by
  have h4 : 2 ^ (m + 2) = 4 * 2 ^ m := by rw [pow_add]; ring
  obtain ⟨Q, hQ, hr⟩ := redQuot_at _ h
  have tc : ∀ {a : Mem ℤ} {a4 : ℕ → ℤ}, Sparse (2 ^ m) a4 0 a →
      Sparse (2 ^ m) (fun i => (ieeeA b).ofInt (a4 i)) 0 (toCx (ieeeA b) (m + 2) a) := by
    intro a a4 ha q hq i hi
    have hle : q * 2 ^ m ≤ 3 * 2 ^ m := Nat.mul_le_mul_right _ (by omega)
    unfold toCx
    rw [one_shiftLeft', loop_fill, if_pos (by omega), ha q hq i hi]
    split
    · rfl
    · apply Complex.ext <;> simp [Arith.ofInt, Arith.ofReal, ieeeA, rnd_zero]
  have hlt : q * 2 ^ m < 2 ^ (m + 2) := by
    rw [h4]
    exact Nat.mul_lt_mul_of_pos_right (by omega) (by positivity)
  have e := hr _ hlt
  rw [ieee_ifft b (W := fun q => quoAt (ieeeA b) (fft4 (ieeeA b) (fun i => (ieeeA b).ofInt (f4 i)) q)
    (fft4 (ieeeA b) (fun i => (ieeeA b).ofInt (g4 i)) q) (fft4 (ieeeA b) (fun i => (ieeeA b).ofInt (F4 i)) q)
    (fft4 (ieeeA b) (fun i => (ieeeA b).ofInt (G4 i)) q)) (fun q => ⟨rep_rnd _, rep_rnd _⟩) (fun j hj => by
      rw [hQ j hj, ieee_fft b (tc hf) j hj, ieee_fft b (tc hg) j hj, ieee_fft b (tc hF) j hj, ieee_fft b (tc hG) j hj]) q hq] at e
  exact e

end Falcon
