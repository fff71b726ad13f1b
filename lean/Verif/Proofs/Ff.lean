import Verif.Spec
import Mathlib.Tactic.Ring
import Mathlib.Tactic.Linarith
import Mathlib.Tactic.NormNum
import Mathlib.Tactic.NormNum.Prime
import Mathlib.Data.ZMod.Basic
import Mathlib.Algebra.Field.ZMod

/-!
# Natural number semantics of the field operations
-/

namespace Falcon

@[simp] theorem Q_toNat : Q.toNat = 12289 := rfl
@[simp] theorem R_toNat : R.toNat = 21843 := rfl

namespace Ff

theorem ofU16_toNat (x : UInt16) : (ofU16 x).v.toNat = x.toNat % 12289 := by
  unfold ofU16
  split
  · rename_i h
    rw [UInt16.lt_iff_toNat_lt, Q_toNat] at h
    simp only
    omega
  · simp [UInt16.toNat_mod]

theorem flgQ_toNat (b : Bool) : (flgQ b).toNat = if b then 12289 else 0 := by
  cases b <;> rfl

theorem reduceOnce (t : UInt16) :
    (t - flgQ (decide (t ≥ Q))).toNat = if 12289 ≤ t.toNat then t.toNat - 12289 else t.toNat := by
  have ht := t.toNat_lt
  by_cases h : t ≥ Q
  · have h' : 12289 ≤ t.toNat := by
      have := UInt16.le_iff_toNat_le.mp h
      simpa using this
    simp only [h, decide_true, UInt16.toNat_sub, flgQ_toNat, if_true, h']
    omega
  · have h' : ¬ 12289 ≤ t.toNat := by
      intro h2
      exact h (UInt16.le_iff_toNat_le.mpr (by simpa using h2))
    simp only [h, decide_false, UInt16.toNat_sub, flgQ_toNat, h', if_false, Bool.false_eq_true]
    omega

theorem add_toNat (a b : Ff) (h : a.v.toNat + b.v.toNat < 65536) :
    (add a b).v.toNat = (a.v.toNat + b.v.toNat) % 12289 := by
  simp only [add, ofU16_toNat, reduceOnce, UInt16.toNat_add]
  split <;> omega

theorem addAssign_toNat (a b : Ff) (h : a.v.toNat + b.v.toNat < 65536) :
    (addAssign a b).v.toNat =
      if 12289 ≤ a.v.toNat + b.v.toNat then a.v.toNat + b.v.toNat - 12289
      else a.v.toNat + b.v.toNat := by
  simp only [addAssign, reduceOnce, UInt16.toNat_add]
  rw [Nat.mod_eq_of_lt h]

theorem neg_toNat (a : Ff) :
    (neg a).v.toNat =
      (if a.v.toNat ≤ 12289 then 12289 - a.v.toNat else 77825 - a.v.toNat) % 12289 := by
  have := a.v.toNat_lt
  simp only [neg, ofU16_toNat, UInt16.toNat_sub, Q_toNat]
  split <;> omega

theorem sub_toNat (a b : Ff) (ha : a.v.toNat < 16384) (hb : b.v.toNat < 12289) :
    (sub a b).v.toNat = (a.v.toNat + (12289 - b.v.toNat)) % 12289 := by
  have hn := neg_toNat b
  rw [if_pos (by omega)] at hn
  unfold sub
  rw [add_toNat _ _ (by omega), hn]
  omega

theorem barrett_toNat (a b : UInt16) (ha : a.toNat < 16384) (hb : b.toNat < 16384) :
    (barrett a b).toNat = (a.toNat * b.toNat) % 12289 := by
  have hx : a.toNat * b.toNat < 268435456 := by
    have : a.toNat * b.toNat ≤ 16383 * 16383 := Nat.mul_le_mul (by omega) (by omega)
    omega
  unfold barrett
  simp only [reduceOnce]
  simp only [UInt32.toNat_toUInt16, UInt32.toNat_sub, UInt32.toNat_mul, UInt16.toNat_toUInt32,
    UInt64.toNat_toUInt32, UInt64.toNat_shiftRight, UInt64.toNat_mul, UInt32.toNat_toUInt64,
    UInt16.toNat_toUInt64, Q_toNat, R_toNat]
  generalize a.toNat * b.toNat = x at hx ⊢
  have e : (28 : UInt64).toNat % 64 = 28 := rfl
  rw [e, Nat.shiftRight_eq_div_pow]
  simp only [Nat.reducePow]
  rw [Nat.mod_eq_of_lt (by omega : x < 4294967296),
    Nat.mod_eq_of_lt (by omega : x * 21843 < 18446744073709551616)]
  have h1 : x * 21843 / 268435456 * 12289 ≤ x := by omega
  have h2 : x < x * 21843 / 268435456 * 12289 + 24578 := by omega
  generalize x * 21843 / 268435456 = k at h1 h2 ⊢
  have h3 : (4294967296 - k % 4294967296 * 12289 % 4294967296 + x) % 4294967296 % 65536
      = x - k * 12289 := by
    rw [Nat.mod_eq_of_lt (by omega : k < 4294967296),
      Nat.mod_eq_of_lt (by omega : k * 12289 < 4294967296)]
    omega
  rw [h3]
  split <;> omega

theorem mul_toNat (a b : Ff) (ha : a.v.toNat < 16384) (hb : b.v.toNat < 16384) :
    (mul a b).v.toNat = (a.v.toNat * b.v.toNat) % 12289 := by
  unfold mul
  rw [ofU16_toNat, barrett_toNat _ _ ha hb]
  omega

theorem mulAssign_toNat (a b : Ff) (ha : a.v.toNat < 16384) (hb : b.v.toNat < 16384) :
    (mulAssign a b).v.toNat = (a.v.toNat * b.v.toNat) % 12289 := by
  unfold mulAssign
  rw [barrett_toNat _ _ ha hb]

theorem ext_toNat {a b : Ff} (h : a.v.toNat = b.v.toNat) : a = b := by
  cases a; cases b; simp only [Ff.mk.injEq]; exact UInt16.toNat_inj.mp h

end Ff

theorem wrap16_id (x : Int) (h1 : -32768 ≤ x) (h2 : x ≤ 32767) : wrap16 x = x := by
  unfold wrap16 Int.bmod
  simp only
  split <;> omega

/-- Invariant of the extended gcd loop. -/
structure XInv (x y : ℤ) (old_r r old_s s old_t t : ℤ) : Prop where
  hr0 : 0 < old_r
  hr1 : 0 ≤ r
  gcd : Int.gcd old_r r = Int.gcd x y
  bz0 : old_s * x + old_t * y = old_r
  bz1 : s * x + t * y = r
  sgn : ∃ e : ℤ, (e = 1 ∨ e = -1) ∧ 0 ≤ e * old_s ∧ 0 ≤ -e * s ∧ 0 ≤ -e * old_t ∧ 0 ≤ e * t ∧
    -e * s * old_r + e * old_s * r = y ∧ e * t * old_r + -e * old_t * r = x ∧
    e * old_s ≤ y ∧ -e * old_t ≤ x
  lr0 : old_r ≤ 32767
  lr1 : r ≤ 32767

theorem XInv.step {x y old_r r old_s s old_t t : ℤ} (hx2 : x ≤ 32767) (hy2 : y ≤ 32767)
    (h : XInv x y old_r r old_s s old_t t) (hr : r ≠ 0) :
    let q := old_r.tdiv r
    (0 ≤ q ∧ q ≤ 32767) ∧ (0 ≤ old_r - q * r ∧ old_r - q * r ≤ 32767) ∧
    (-32768 ≤ old_s - q * s ∧ old_s - q * s ≤ 32767) ∧
    (-32768 ≤ old_t - q * t ∧ old_t - q * t ≤ 32767) ∧
    XInv x y r (old_r - q * r) s (old_s - q * s) t (old_t - q * t) := by
  intro q
  obtain ⟨h1, h2, h3, h4, h5, ⟨e, he, e1, e2, e3, e4, e5, e6, e7, e8⟩, l0, l1⟩ := h
  have hq0 : 0 ≤ q := Int.tdiv_nonneg h1.le h2
  have hmod : old_r - q * r = old_r % r := by
    have hq : q = old_r / r := Int.tdiv_eq_ediv_of_nonneg h1.le
    rw [hq, Int.emod_def, mul_comm]
  have hrpos : 0 < r := lt_of_le_of_ne h2 (Ne.symm hr)
  have hm0 : 0 ≤ old_r - q * r := by rw [hmod]; exact Int.emod_nonneg _ hr
  have hm1 : old_r - q * r < r := by rw [hmod]; exact Int.emod_lt_of_pos _ hrpos
  have hqle : q ≤ 32767 := by
    have := le_mul_of_one_le_right hq0 (Int.add_one_le_iff.mpr hrpos)
    linarith
  have ee : e * e = 1 := by rcases he with rfl | rfl <;> norm_num
  -- new cofactors
  have ns0 : 0 ≤ e * (old_s - q * s) := by
    linarith [mul_nonneg hq0 e2]
  have nt0 : 0 ≤ -e * (old_t - q * t) := by
    linarith [mul_nonneg hq0 e4]
  have ids : -(-e) * (old_s - q * s) * r + -e * s * (old_r - q * r) = y := by rw [← e5]; ring
  have idt : -e * (old_t - q * t) * r + -(-e) * t * (old_r - q * r) = x := by rw [← e6]; ring
  have p1 : 0 ≤ -e * s * (old_r - q * r) := mul_nonneg e2 hm0
  have p2 : 0 ≤ e * t * (old_r - q * r) := mul_nonneg e4 hm0
  have bs : e * (old_s - q * s) ≤ y := by
    have h1' : e * (old_s - q * s) * r ≤ y := by linarith
    exact le_trans (le_mul_of_one_le_right ns0 (Int.add_one_le_iff.mpr hrpos)) h1'
  have bt : -e * (old_t - q * t) ≤ x := by
    have h1' : -e * (old_t - q * t) * r ≤ x := by linarith
    exact le_trans (le_mul_of_one_le_right nt0 (Int.add_one_le_iff.mpr hrpos)) h1'
  have bs' : -e * s ≤ y := by
    have h1' : -e * s * old_r ≤ y := by linarith [mul_nonneg e1 h2]
    exact le_trans (le_mul_of_one_le_right e2 (Int.add_one_le_iff.mpr h1)) h1'
  have bt' : e * t ≤ x := by
    have h1' : e * t * old_r ≤ x := by linarith [mul_nonneg e3 h2]
    exact le_trans (le_mul_of_one_le_right e4 (Int.add_one_le_iff.mpr h1)) h1'
  refine ⟨⟨hq0, hqle⟩, ⟨hm0, by omega⟩, ?_, ?_, ?_⟩
  · rcases he with rfl | rfl <;> constructor <;> linarith
  · rcases he with rfl | rfl <;> constructor <;> linarith
  · refine ⟨hrpos, hm0, ?_, h5, ?_, ⟨-e, ?_, by linarith, by linarith, by linarith, by linarith,
      ids, idt, bs', by linarith⟩, l1, by omega⟩
    · rw [← h3, Int.gcd_comm old_r r]; exact Int.gcd_sub_mul_right_right ..
    · rw [← h4, ← h5]; ring
    · rcases he with rfl | rfl <;> norm_num

theorem xgcdLoop_spec {x y : ℤ} (hx2 : x ≤ 32767) (hy2 : y ≤ 32767)
    (n : ℕ) : ∀ (old_r r old_s s old_t t : ℤ), r.natAbs ≤ n → XInv x y old_r r old_s s old_t t →
    let res := xgcdLoop old_r r old_s s old_t t
    (res.1 * x + res.2.1 * y = res.2.2 ∧ res.2.2 = Int.gcd x y ∧ |res.1| ≤ y ∧ |res.2.1| ≤ x) ∧
    ∀ v ∈ xgcdAssigned old_r r old_s s old_t t, -32768 ≤ v ∧ v ≤ 32767 := by
  induction n with
  | zero =>
    intro old_r r old_s s old_t t hn h
    have hr : r = 0 := by omega
    rw [xgcdLoop, xgcdAssigned, if_pos hr, if_pos hr]
    obtain ⟨h1, h2, h3, h4, h5, ⟨e, he, e1, e2, e3, e4, e5, e6, e7, e8⟩, l0, l1⟩ := h
    refine ⟨⟨h4, ?_, ?_, ?_⟩, by simp⟩
    · rw [← h3, hr, Int.gcd_zero_right]; simp only; omega
    · rw [abs_le]; rcases he with rfl | rfl <;> constructor <;> linarith
    · rw [abs_le]; rcases he with rfl | rfl <;> constructor <;> linarith
  | succ n ih =>
    intro old_r r old_s s old_t t hn h
    by_cases hr : r = 0
    · exact ih _ _ _ _ _ _ (by simp [hr]) h
    · obtain ⟨b1, b2, b3, b4, hi⟩ := h.step hx2 hy2 hr
      have hdec := xgcd_dec old_r r hr
      have w1 := wrap16_id _ (by omega) b1.2
      have w2 := wrap16_id _ (by omega) b2.2
      have w3 := wrap16_id _ b3.1 b3.2
      have w4 := wrap16_id _ b4.1 b4.2
      rw [w1, w2] at hdec
      have := ih _ _ _ _ _ _ (by omega) hi
      rw [xgcdLoop, xgcdAssigned, if_neg hr, if_neg hr]
      simp only [w1, w2, w3, w4]
      refine ⟨this.1, ?_⟩
      intro v hv
      rw [List.mem_append] at hv
      rcases hv with hv | hv
      · simp only [List.mem_cons, List.not_mem_nil, or_false] at hv
        rcases hv with rfl | rfl | rfl | rfl
        · exact ⟨by omega, b1.2⟩
        · exact ⟨by omega, b2.2⟩
        · exact b3
        · exact b4
      · exact this.2 v hv

theorem xinv_init {x y : ℤ} (hx : 0 < x) (hy : 0 < y) (hx2 : x ≤ 32767) (hy2 : y ≤ 32767) :
    XInv x y x y 1 0 0 1 := by
  refine ⟨hx, hy.le, rfl, by ring, by ring, ⟨1, Or.inl rfl, ?_⟩, hx2, hy2⟩
  norm_num
  omega

namespace Ff

/-! ## Semantics in Z_q -/

theorem val_eq_iff (a b : Ff) (ha : a.Canonical) (hb : b.Canonical) : a.val = b.val ↔ a = b := by
  constructor
  · intro h
    unfold val at h
    rw [ZMod.natCast_eq_natCast_iff, Nat.ModEq, Nat.mod_eq_of_lt ha, Nat.mod_eq_of_lt hb] at h
    exact ext_toNat h
  · rintro rfl; rfl

theorem val_of_mod {a : Ff} {n : ℕ} (h : a.v.toNat = n % 12289) : a.val = (n : Zq) := by
  unfold val
  rw [h]
  exact (ZMod.natCast_mod n 12289)

theorem canon_of_mod {a : Ff} {n : ℕ} (h : a.v.toNat = n % 12289) : a.Canonical := by
  unfold Canonical
  rw [h]
  exact Nat.mod_lt _ (by norm_num)

theorem Canonical.fits {a : Ff} (h : a.Canonical) : a.Fits14 := by
  unfold Canonical at h
  unfold Fits14
  have : q = 12289 := rfl
  omega

theorem add_spec {a b : Ff} (ha : a.Fits14) (hb : b.Fits14) :
    (add a b).Canonical ∧ (add a b).val = a.val + b.val := by
  unfold Fits14 at ha hb
  have h := add_toNat a b (by omega)
  refine ⟨canon_of_mod h, ?_⟩
  rw [val_of_mod h, Nat.cast_add]; rfl

theorem addAssign_spec {a b : Ff} (ha : a.Fits14) (hb : b.Canonical) :
    (addAssign a b).Fits14 ∧ (addAssign a b).val = a.val + b.val := by
  unfold Fits14 at *
  unfold Canonical at hb
  have hq : q = 12289 := rfl
  have h := addAssign_toNat a b (by omega)
  constructor
  · rw [h]; split <;> omega
  · unfold val
    rw [h]
    split
    · rename_i hle
      rw [Nat.cast_sub hle, Nat.cast_add]
      have : ((12289 : ℕ) : Zq) = 0 := ZMod.natCast_self 12289
      rw [this, sub_zero]
    · rw [Nat.cast_add]

theorem addAssign_canon {a b : Ff} (ha : a.Canonical) (hb : b.Canonical) :
    (addAssign a b).Canonical := by
  unfold Canonical at *
  have hq : q = 12289 := rfl
  rw [addAssign_toNat a b (by omega)]
  split <;> omega

theorem neg_spec {a : Ff} (ha : a.Canonical) : (neg a).Canonical ∧ (neg a).val = -a.val := by
  have h := neg_toNat a
  unfold Canonical at ha
  have hq : q = 12289 := rfl
  rw [if_pos (by omega)] at h
  refine ⟨canon_of_mod h, ?_⟩
  rw [val_of_mod h, Nat.cast_sub (by omega)]
  have : ((12289 : ℕ) : Zq) = 0 := ZMod.natCast_self 12289
  rw [this, zero_sub]; rfl

theorem sub_spec {a b : Ff} (ha : a.Fits14) (hb : b.Canonical) :
    (sub a b).Canonical ∧ (sub a b).val = a.val - b.val := by
  have hq : q = 12289 := rfl
  have h := sub_toNat a b ha hb
  unfold Canonical at hb
  refine ⟨canon_of_mod h, ?_⟩
  rw [val_of_mod h, Nat.cast_add, Nat.cast_sub (by omega)]
  have : ((12289 : ℕ) : Zq) = 0 := ZMod.natCast_self 12289
  rw [this, zero_sub]
  unfold val
  ring

theorem mul_spec {a b : Ff} (ha : a.Fits14) (hb : b.Fits14) :
    (mul a b).Canonical ∧ (mul a b).val = a.val * b.val := by
  have h := mul_toNat a b ha hb
  refine ⟨canon_of_mod h, ?_⟩
  rw [val_of_mod h, Nat.cast_mul]; rfl

theorem mulAssign_eq {a b : Ff} (ha : a.Fits14) (hb : b.Fits14) : mulAssign a b = mul a b :=
  ext_toNat (by rw [mul_toNat a b ha hb, mulAssign_toNat a b ha hb])

theorem ofU16_spec (x : UInt16) : (ofU16 x).Canonical ∧ (ofU16 x).val = (x.toNat : Zq) :=
  ⟨canon_of_mod (ofU16_toNat x), val_of_mod (ofU16_toNat x)⟩

theorem one_spec : one.Canonical ∧ one.val = 1 := by
  refine ⟨(ofU16_spec 1).1, ?_⟩
  unfold one
  rw [(ofU16_spec 1).2]
  simp

theorem zero_spec : zero.Canonical ∧ zero.val = 0 := by
  refine ⟨(ofU16_spec 0).1, ?_⟩
  unfold zero
  rw [(ofU16_spec 0).2]
  simp

theorem val_eq_zero_iff {a : Ff} (ha : a.Canonical) : a.val = 0 ↔ a = zero := by
  rw [← zero_spec.2, val_eq_iff _ _ ha zero_spec.1]

theorem toU16_toNat (x : ℤ) : ((toU16 x).toNat : ℤ) = x % 65536 := by
  unfold toU16
  have h0 := Int.emod_nonneg x (b := 65536) (by norm_num)
  have h1 := Int.emod_lt_of_pos x (b := 65536) (by norm_num)
  rw [UInt16.toNat_ofNat']
  have : (x % 65536).toNat < 65536 := by omega
  rw [Nat.mod_eq_of_lt (by simpa using this)]
  omega

theorem inv_spec {a : Ff} (ha : a.Fits14) :
    (inv a).Canonical ∧ (inv a).val = (a.val)⁻¹ := by
  unfold Fits14 at ha
  by_cases h0 : a.v = 0
  · have : a = ⟨0⟩ := by cases a; simpa using h0
    subst this
    have e : inv ⟨0⟩ = zero := by decide +kernel
    rw [e]
    refine ⟨zero_spec.1, ?_⟩
    have e2 : (⟨0⟩ : Ff) = zero := by decide +kernel
    rw [e2, zero_spec.2, inv_zero]
  by_cases hz : a.v = 12289
  · have : a = ⟨12289⟩ := by cases a; simpa using hz
    subst this
    have e : inv ⟨12289⟩ = zero := by decide +kernel
    rw [e]
    refine ⟨zero_spec.1, ?_⟩
    have e2 : (⟨12289⟩ : Ff).val = 0 := by unfold val; exact ZMod.natCast_self 12289
    rw [e2, zero_spec.2, inv_zero]
  · have hz : a.v.toNat ≠ 12289 := fun h => hz (UInt16.toNat_inj.mp (by simpa using h))
    have hpos : 0 < a.v.toNat := by
      rcases Nat.eq_zero_or_pos a.v.toNat with h | h
      · exact absurd (UInt16.toNat_inj.mp (by simpa using h)) h0
      · exact h
    have hs := xgcdLoop_spec (x := a.v.toNat) (y := 12289) (by omega)
      (by norm_num) _ _ _ _ _ _ _ le_rfl
      (xinv_init (by omega) (by norm_num) (by omega) (by norm_num))
    simp only at hs
    obtain ⟨⟨hb, hg, hb1, -⟩, -⟩ := hs
    have hx : xgcd (a.v + flg1 false) Q = xgcdLoop a.v.toNat 12289 1 0 0 1 := by
      unfold xgcd
      have : a.v + flg1 false = a.v := by simp [flg1]
      rw [this, Q_toNat, wrap16_id _ (by omega) (by omega)]
      rfl
    unfold inv
    simp only [h0, decide_false]
    rw [hx]
    generalize xgcdLoop a.v.toNat 12289 1 0 0 1 = res at hb hg hb1
    obtain ⟨A, B, G⟩ := res
    simp only at hb hg hb1 ⊢
    have e1 : flg1 false = 0 := rfl
    rw [e1, UInt16.sub_zero]
    refine ⟨(ofU16_spec _).1, ?_⟩
    rw [(ofU16_spec _).2, reduceOnce]
    -- value of the conditional corrections
    have hA : ((toU16 ((flgQ (decide (A < 0))).toNat + A)).toNat : ℤ) =
        if A < 0 then A + 12289 else A := by
      rw [toU16_toNat, flgQ_toNat]
      rw [abs_le] at hb1
      by_cases hA : A < 0
      · simp [hA]; omega
      · simp [hA]; omega
    have hcast : ∀ n : ℕ, ((if 12289 ≤ n then n - 12289 else n : ℕ) : Zq) = (n : Zq) := by
      intro n
      split
      · rename_i h
        rw [Nat.cast_sub h]
        have : ((12289 : ℕ) : Zq) = 0 := ZMod.natCast_self 12289
        rw [this, sub_zero]
      · rfl
    rw [hcast]
    have hA2 : (((toU16 ((flgQ (decide (A < 0))).toNat + A)).toNat : ℕ) : Zq) = (A : Zq) := by
      have h3 : (((toU16 ((flgQ (decide (A < 0))).toNat + A)).toNat : ℤ) : Zq) = (A : Zq) := by
        rw [hA]
        split
        · rw [Int.cast_add]
          have : ((12289 : ℤ) : Zq) = 0 := by exact_mod_cast ZMod.natCast_self 12289
          rw [this, add_zero]
        · rfl
      rw [← h3]; norm_cast
    rw [hA2]
    have hq0 : ((12289 : ℤ) : Zq) = 0 := by exact_mod_cast ZMod.natCast_self 12289
    have hcop : Nat.Coprime a.v.toNat 12289 := by
      rw [Nat.coprime_comm, Nat.Prime.coprime_iff_not_dvd (by norm_num)]
      omega
    have hg1 : G = 1 := by
      rw [hg]
      have : Int.gcd (a.v.toNat : ℤ) 12289 = Nat.gcd a.v.toNat 12289 := rfl
      rw [this, hcop]; rfl
    rw [hg1] at hb
    have hc := congrArg (Int.cast : ℤ → Zq) hb
    push_cast at hc
    have h12 : ((12289 : Zq)) = 0 := by exact_mod_cast ZMod.natCast_self 12289
    rw [h12, mul_zero, add_zero] at hc
    exact eq_inv_of_mul_eq_one_left hc

theorem div_spec {a b : Ff} (ha : a.Fits14) (hb : b.Fits14) :
    (div a b).Canonical ∧ (div a b).val = a.val / b.val := by
  have h1 := inv_spec hb
  have h2 := mul_spec ha h1.1.fits
  refine ⟨h2.1, ?_⟩
  unfold div
  rw [h2.2, h1.2, div_eq_mul_inv]

theorem lt_two_pow_bitLen (n : ℕ) : n < 2 ^ bitLen n := by
  unfold bitLen
  split
  · omega
  · exact Nat.lt_log2_self

theorem pow_spec {a : Ff} (ha : a.Canonical) (n : ℕ) :
    (pow a n).Canonical ∧ (pow a n).val = a.val ^ n := by
  unfold pow
  simp only
  have key : ∀ m : ℕ,
      let s := loop m (fun i (s : Ff × Ff) =>
        let base := mul s.1 s.1
        let res := mul s.2 (if (n >>> (i + 1)) % 2 = 1 then base else one)
        (base, res)) (a, if n % 2 = 1 then a else one)
      (s.1.Canonical ∧ s.1.val = a.val ^ (2 ^ m)) ∧
      (s.2.Canonical ∧ s.2.val = a.val ^ (n % 2 ^ (m + 1))) := by
    intro m
    induction m with
    | zero =>
      simp only [loop_zero, pow_zero, pow_one, zero_add]
      refine ⟨⟨ha, trivial⟩, ?_⟩
      split
      · rename_i h; rw [h, pow_one]; exact ⟨ha, rfl⟩
      · rename_i h
        have : n % 2 = 0 := by omega
        rw [this, pow_zero]; exact one_spec
    | succ m ih =>
      simp only [loop_succ] at ih ⊢
      generalize loop m (fun i (s : Ff × Ff) =>
        (mul s.1 s.1, mul s.2 (if (n >>> (i + 1)) % 2 = 1 then mul s.1 s.1 else one)))
        (a, if n % 2 = 1 then a else one) = s at ih ⊢
      obtain ⟨⟨c1, v1⟩, ⟨c2, v2⟩⟩ := ih
      have hb := mul_spec c1.fits c1.fits
      have hbv : (mul s.1 s.1).val = a.val ^ (2 ^ (m + 1)) := by
        rw [hb.2, v1, ← pow_add]; congr 1; ring
      refine ⟨⟨hb.1, hbv⟩, ?_⟩
      have hsplit : n % 2 ^ (m + 1 + 1) = n % 2 ^ (m + 1) + 2 ^ (m + 1) * (n / 2 ^ (m + 1) % 2) := by
        rw [pow_succ 2 (m + 1), Nat.mod_mul]
      rw [Nat.shiftRight_eq_div_pow]
      split
      · rename_i h
        have := mul_spec c2.fits hb.1.fits
        refine ⟨this.1, ?_⟩
        rw [this.2, v2, hbv, ← pow_add, hsplit, h, mul_one]
      · rename_i h
        have h0 : n / 2 ^ (m + 1) % 2 = 0 := by omega
        have := mul_spec c2.fits one_spec.1.fits
        refine ⟨this.1, ?_⟩
        rw [this.2, v2, one_spec.2, mul_one, hsplit, h0, mul_zero, add_zero]
  have h := (key (bitLen n - 1)).2
  refine ⟨h.1, ?_⟩
  rw [h.2]
  congr 1
  apply Nat.mod_eq_of_lt
  refine lt_of_lt_of_le (lt_two_pow_bitLen n) (Nat.pow_le_pow_right (by norm_num) (by omega))

theorem beq_spec (a b : Ff) : beq a b = true ↔ a = b := by
  unfold beq
  rw [beq_iff_eq, UInt16.xor_eq_zero_iff]
  constructor
  · intro h; cases a; cases b; simpa using h
  · rintro rfl; rfl

end Ff
end Falcon
