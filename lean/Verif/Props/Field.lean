import Verif.Proofs.Ff

/-!
# C01-C04 : prime field arithmetic (include/ff.hpp)
-/

namespace Falcon

/-- C01. The constructor reduces any 16-bit word modulo q. -/
theorem C01_construct (x : UInt16) :
    (Ff.ofU16 x).v.toNat = x.toNat % q ∧ (Ff.ofU16 x).Canonical :=
  ⟨Ff.ofU16_toNat x, (Ff.ofU16_spec x).1⟩

example : (Ff.ofU16 65535).v.toNat = 4090 := by decide +kernel

/-- C01. On canonical operands every operation returns the canonical representative of the exact
integer result. -/
theorem C01_field_ops (a b : Ff) (ha : a.Canonical) (hb : b.Canonical) :
    (Ff.add a b).v.toNat = (a.v.toNat + b.v.toNat) % q ∧
    (Ff.addAssign a b).v.toNat = (a.v.toNat + b.v.toNat) % q ∧
    ((Ff.sub a b).v.toNat : ℤ) = ((a.v.toNat : ℤ) - b.v.toNat) % q ∧
    ((Ff.neg a).v.toNat : ℤ) = (-(a.v.toNat : ℤ)) % q ∧
    (Ff.mul a b).v.toNat = (a.v.toNat * b.v.toNat) % q ∧
    (Ff.mulAssign a b).v.toNat = (a.v.toNat * b.v.toNat) % q := by
  have hq : q = 12289 := rfl
  have ha' := ha.fits
  have hb' := hb.fits
  unfold Ff.Canonical at ha hb
  unfold Ff.Fits14 at ha' hb'
  refine ⟨Ff.add_toNat a b (by omega), ?_, ?_, ?_, Ff.mul_toNat a b ha' hb',
    Ff.mulAssign_toNat a b ha' hb'⟩
  · rw [Ff.addAssign_toNat a b (by omega)]
    rw [hq]
    split <;> omega
  · rw [Ff.sub_toNat a b ha' hb, hq]
    omega
  · rw [Ff.neg_toNat, if_pos (by omega), hq]
    omega

example : (Ff.mk 12288).Canonical ∧ (Ff.mk 12287).Canonical ∧
    (Ff.mul ⟨12288⟩ ⟨12287⟩).v = 2 ∧ (Ff.sub ⟨5⟩ ⟨12287⟩).v = 7 := by
  refine ⟨?_, ?_, ?_, ?_⟩ <;> (first | (unfold Ff.Canonical; decide +kernel) | decide +kernel)

/-- C02. Operands of up to 14 bits are multiplied correctly, and accumulating canonical values into
a 14-bit one stays within 14 bits and is right modulo q; subtracting a canonical value is also right. -/
theorem C02_noncanonical (a b c : Ff) (ha : a.Fits14) (hb : b.Fits14) (hc : c.Canonical) :
    ((Ff.mul a b).Canonical ∧ (Ff.mul a b).val = a.val * b.val) ∧
    (Ff.mulAssign a b = Ff.mul a b) ∧
    ((Ff.addAssign a c).Fits14 ∧ (Ff.addAssign a c).val = a.val + c.val) ∧
    ((Ff.add a b).Canonical ∧ (Ff.add a b).val = a.val + b.val) ∧
    ((Ff.sub a c).Canonical ∧ (Ff.sub a c).val = a.val - c.val) :=
  ⟨Ff.mul_spec ha hb, Ff.mulAssign_eq ha hb, Ff.addAssign_spec ha hc, Ff.add_spec ha hb,
    Ff.sub_spec ha hc⟩

example : (Ff.mk 16383).Fits14 ∧ ¬ (Ff.mk 16383).Canonical ∧
    (Ff.mul ⟨16383⟩ ⟨16383⟩).v = 10929 := by
  refine ⟨?_, ?_, ?_⟩
  · unfold Ff.Fits14; decide +kernel
  · unfold Ff.Canonical; decide +kernel
  · decide +kernel

/-- C02. Negating an unreduced value wraps at 2^16 and always yields a wrong residue: the result is
off by 2^16 mod q = 4091. -/
theorem C02_neg_noncanonical (a : Ff) (h : q < a.v.toNat) :
    (Ff.neg a).val = -a.val + 4091 ∧ (Ff.neg a).val ≠ -a.val := by
  have hq : q = 12289 := rfl
  have hlt := a.v.toNat_lt
  have hv : (Ff.neg a).val = -a.val + 4091 := by
    have h1 := Ff.neg_toNat a
    rw [if_neg (by omega)] at h1
    rw [Ff.val_of_mod h1, Nat.cast_sub (by omega)]
    have : ((77825 : ℕ) : Zq) = 4091 := by decide +kernel
    rw [this]
    unfold Ff.val
    ring
  refine ⟨hv, ?_⟩
  rw [hv]
  intro h2
  have h3 : (4091 : Zq) = 0 := by simpa using h2
  exact absurd h3 (by decide +kernel)

example : q < (Ff.mk 12290).v.toNat ∧ (Ff.neg ⟨12290⟩).v = 4090 ∧ (Ff.neg ⟨1⟩).v = 12288 := by
  decide +kernel

/-- C03. `inv` is the inverse of the field Z_q, with inv 0 = 0. -/
theorem C03_inv (a : Ff) (ha : a.Canonical) :
    (Ff.inv a).Canonical ∧ (a ≠ Ff.zero → (a.v.toNat * (Ff.inv a).v.toNat) % q = 1) ∧
    (a = Ff.zero → Ff.inv a = Ff.zero) := by
  have h := Ff.inv_spec ha.fits
  refine ⟨h.1, ?_, ?_⟩
  · intro hne
    have h0 : a.val ≠ 0 := fun h0 => hne ((Ff.val_eq_zero_iff ha).mp h0)
    have h1 : a.val * (Ff.inv a).val = 1 := by rw [h.2]; exact mul_inv_cancel₀ h0
    unfold Ff.val at h1
    have h2 : ((a.v.toNat * (Ff.inv a).v.toNat : ℕ) : Zq) = ((1 : ℕ) : Zq) := by
      push_cast; exact h1
    rw [ZMod.natCast_eq_natCast_iff] at h2
    exact h2
  · intro h0
    apply (Ff.val_eq_iff _ _ h.1 Ff.zero_spec.1).mp
    rw [h.2, h0, Ff.zero_spec.2, inv_zero]

/-- C03. `a / b` is the unique canonical `c` with `b c = a`, and zero when `b = 0`. -/
theorem C03_div (a b : Ff) (ha : a.Canonical) (hb : b.Canonical) :
    (b ≠ Ff.zero → ∀ c : Ff, c.Canonical → (Ff.div a b = c ↔ b.val * c.val = a.val)) ∧
    (b = Ff.zero → Ff.div a b = Ff.zero) ∧ (Ff.div a b).Canonical := by
  have h := Ff.div_spec ha.fits hb.fits
  refine ⟨?_, ?_, h.1⟩
  · intro hne c hc
    have h0 : b.val ≠ 0 := fun h0 => hne ((Ff.val_eq_zero_iff hb).mp h0)
    rw [← Ff.val_eq_iff _ _ h.1 hc, h.2, div_eq_iff h0, mul_comm, eq_comm]
  · intro h0
    apply (Ff.val_eq_iff _ _ h.1 Ff.zero_spec.1).mp
    rw [h.2, h0, Ff.zero_spec.2, div_zero]

/-- C03. The extended gcd returns Bezout cofactors of the greatest common divisor, and none of the
conversions to `int16_t` in its loop changes a value. -/
theorem C03_xgcd_no_wrap (x y : UInt16) (hx : 0 < x.toNat) (hx2 : x.toNat < 2 ^ 15)
    (hy : 0 < y.toNat) (hy2 : y.toNat < 2 ^ 15) :
    let res := xgcd x y
    res.1 * x.toNat + res.2.1 * y.toNat = res.2.2 ∧ res.2.2 = Nat.gcd x.toNat y.toNat ∧
    ∀ v ∈ xgcdAssigned x.toNat y.toNat 1 0 0 1, -2 ^ 15 ≤ v ∧ v < 2 ^ 15 := by
  have hs := xgcdLoop_spec (x := x.toNat) (y := y.toNat) (by omega) (by omega) _ _ _ _ _ _ _ le_rfl
      (xinv_init (by omega) (by omega) (by omega) (by omega))
  simp only at hs ⊢
  unfold xgcd
  rw [wrap16_id _ (by omega) (by omega), wrap16_id _ (by omega) (by omega)]
  refine ⟨hs.1.1, hs.1.2.1, fun v hv => ?_⟩
  have := hs.2 v hv
  constructor <;> omega

example : (Ff.inv ⟨7⟩).v = 8778 ∧ (Ff.div ⟨1⟩ ⟨7⟩).v = 8778 ∧ (Ff.mk 7).v.toNat < q := by
  decide +kernel

example : 0 < (7 : UInt16).toNat ∧ (7 : UInt16).toNat < 2 ^ 15 ∧ 0 < Q.toNat ∧ Q.toNat < 2 ^ 15 ∧
    xgcd 7 Q = (-3511, 2, 1) := by
  decide +kernel

/-- C04. Square-and-multiply computes powers. The exponent is a 64-bit word in the code; the
statement holds for every natural number. -/
theorem C04_pow (a : Ff) (ha : a.Canonical) (n : ℕ) :
    (Ff.pow a n).v.toNat = a.v.toNat ^ n % q := by
  have h := Ff.pow_spec ha n
  have h1 : (((Ff.pow a n).v.toNat : ℕ) : Zq) = ((a.v.toNat ^ n : ℕ) : Zq) := by
    rw [Nat.cast_pow]; exact h.2
  rw [ZMod.natCast_eq_natCast_iff, Nat.ModEq, Nat.mod_eq_of_lt h.1] at h1
  exact h1

example : (Ff.mk 7).Canonical ∧ (Ff.pow ⟨7⟩ 1024).v = 12288 ∧ (Ff.pow ⟨0⟩ 0).v = 1 := by
  refine ⟨?_, ?_, ?_⟩
  · unfold Ff.Canonical; decide +kernel
  · decide +kernel
  · decide +kernel

end Falcon
