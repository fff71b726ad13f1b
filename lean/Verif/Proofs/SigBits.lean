import Verif.Model.SigCodec
import Verif.SigSpec
import Verif.Proofs.Codec

/-!
# Bit level lemmas for the signature codec
-/

namespace Falcon

theorem extract8_ok {lim : ℕ} {m : Mem UInt8} {p : ℕ} (h : p / 8 + 1 < lim) :
    ∃ r, extract8 (rdE lim m) p = .ok r ∧ ∀ j, j < 8 → r.toNat.testBit (7 - j) = bitAt m (p + j) := by
  have e3 : p >>> 3 = p / 8 := Nat.shiftRight_eq_div_pow p 3
  have e7 : p &&& 7 = p % 8 := and7 p
  unfold extract8
  simp only [e3, e7]
  rw [rdE_ok (by omega), rdE_ok h]
  refine ⟨_, rfl, ?_⟩
  intro j hj
  have h0 := (m (p / 8)).toNat_lt
  have h1 := (m (p / 8 + 1)).toNat_lt
  have hw : (((m (p / 8)).toUInt16 <<< 8) ||| (m (p / 8 + 1)).toUInt16).toNat =
      2 ^ 8 * (m (p / 8)).toNat + (m (p / 8 + 1)).toNat := by
    bits_simp [Nat.shiftLeft_eq]
    rw [or_add (k := 8) (by omega) (by omega)]
    omega
  have hs : (UInt16.ofNat (8 - p % 8)).toNat = 8 - p % 8 := by
    simp only [UInt16.toNat_ofNat']; omega
  rw [UInt16.toNat_toUInt8, UInt16.toNat_shiftRight, hs, hw]
  rw [show (8 - p % 8) % 16 = 8 - p % 8 by omega]
  rw [Nat.testBit_mod_two_pow, Nat.testBit_shiftRight,
    Nat.testBit_two_pow_mul_add _ h1]
  unfold bitAt
  rw [show decide (7 - j < 8) = true by simp; omega, Bool.true_and]
  by_cases hc : p % 8 + j < 8
  · rw [if_neg (by omega), show (p + j) / 8 = p / 8 by omega]
    congr 1; omega
  · rw [if_pos (by omega), show (p + j) / 8 = p / 8 + 1 by omega]
    congr 1; omega

theorem extract8_err {lim : ℕ} {m : Mem UInt8} {p : ℕ} (h : lim ≤ p / 8 + 1) :
    ∃ i, extract8 (rdE lim m) p = .error (.oobRead i) ∧ lim ≤ i := by
  have e3 : p >>> 3 = p / 8 := Nat.shiftRight_eq_div_pow p 3
  unfold extract8
  simp only [e3]
  by_cases h' : p / 8 < lim
  · rw [rdE_ok h']
    refine ⟨p / 8 + 1, ?_, h⟩
    simp [rdE, Except.bind, show ¬ p / 8 + 1 < lim by omega]
  · refine ⟨p / 8, ?_, by omega⟩
    simp [rdE, h', Except.bind]

theorem extractRem_ok {lim : ℕ} {m : Mem UInt8} {p : ℕ} (h : p / 8 < lim) :
    ∃ r, extractRem (rdE lim m) p = .ok r ∧
      (∀ j, p % 8 + j < 8 → r.toNat.testBit (7 - j) = bitAt m (p + j)) ∧
      (∀ j, j < 8 → 8 ≤ p % 8 + j → r.toNat.testBit (7 - j) = false) := by
  have e3 : p >>> 3 = p / 8 := Nat.shiftRight_eq_div_pow p 3
  have e7 : p &&& 7 = p % 8 := and7 p
  unfold extractRem
  simp only [e3, e7]
  rw [rdE_ok h]
  refine ⟨_, rfl, ?_⟩
  have hs : (UInt8.ofNat (p % 8)).toNat = p % 8 := by
    simp only [UInt8.toNat_ofNat']; omega
  rw [UInt8.toNat_shiftLeft, hs, show p % 8 % 8 = p % 8 by omega]
  constructor
  · intro j hj
    rw [Nat.testBit_mod_two_pow, Nat.testBit_shiftLeft]
    unfold bitAt
    rw [show decide (7 - j < 8) = true by simp; omega, Bool.true_and,
      show decide (7 - j ≥ p % 8) = true by simp; omega, Bool.true_and,
      show (p + j) / 8 = p / 8 by omega]
    congr 1; omega
  · intro j hj hj'
    rw [Nat.testBit_mod_two_pow, Nat.testBit_shiftLeft,
      show decide (7 - j ≥ p % 8) = false by simp; omega]
    simp

theorem clz8_table : ∀ n, n < 256 → (8 - Ff.bitLen n ≤ 8) ∧
    (∀ j, j < 8 - Ff.bitLen n → n.testBit (7 - j) = false) ∧
    (8 - Ff.bitLen n < 8 → n.testBit (7 - (8 - Ff.bitLen n)) = true) := by
  decide +kernel

theorem clz8_spec (r : UInt8) : clz8 r ≤ 8 ∧ (∀ j, j < clz8 r → r.toNat.testBit (7 - j) = false) ∧
    (clz8 r < 8 → r.toNat.testBit (7 - clz8 r) = true) :=
  clz8_table r.toNat r.toNat_lt

/-- Least index below `e` of a one among the bits from `p`, else at least `e`. -/
structure FirstOne (m : Mem UInt8) (p e v : ℕ) : Prop where
  zeros : ∀ j, j < v → j < e → bitAt m (p + j) = false
  one : v < e → bitAt m (p + v) = true

theorem nextZeros_ok {sb lim : ℕ} {m : Mem UInt8} {p : ℕ} (hp : p < 8 * sb) (hl : sb + 1 ≤ lim) :
    ∃ v, nextZeros (rdE lim m) p (min 8 (8 * sb - p)) = .ok v ∧
      FirstOne m p (min 8 (8 * sb - p)) v := by
  unfold nextZeros
  by_cases h : min 8 (8 * sb - p) < 8
  · rw [if_pos h]
    obtain ⟨r, hr, h1, h2⟩ := extractRem_ok (m := m) (p := p) (by omega : p / 8 < lim)
    rw [hr]
    obtain ⟨c1, c2, c3⟩ := clz8_spec r
    refine ⟨clz8 r, rfl, ⟨?_, ?_⟩⟩
    · intro j hj he
      rw [← h1 j (by omega)]; exact c2 j hj
    · intro hv
      rw [← h1 _ (by omega)]; exact c3 (by omega)
  · rw [if_neg h]
    obtain ⟨r, hr, h1⟩ := extract8_ok (m := m) (p := p) (by omega : p / 8 + 1 < lim)
    rw [hr]
    obtain ⟨c1, c2, c3⟩ := clz8_spec r
    refine ⟨clz8 r, rfl, ⟨?_, ?_⟩⟩
    · intro j hj he
      rw [← h1 j (by omega)]; exact c2 j hj
    · intro hv
      rw [← h1 _ (by omega)]; exact c3 (by omega)

/-! ### Matching -/

theorem Matches.append {m : Mem UInt8} {p : ℕ} {a b : List Bool} :
    Matches m p (a ++ b) ↔ Matches m p a ∧ Matches m (p + a.length) b := by
  constructor
  · intro h
    refine ⟨fun i hi => ?_, fun i hi => ?_⟩
    · have := h i (by simp; omega)
      rw [this, List.getElem_append_left hi]
    · have := h (a.length + i) (by simp; omega)
      rw [add_assoc, this, List.getElem_append_right (by omega)]
      congr 1; omega
  · rintro ⟨h1, h2⟩ i hi
    by_cases h : i < a.length
    · rw [List.getElem_append_left h]; exact h1 i h
    · rw [List.getElem_append_right (by omega)]
      have := h2 (i - a.length) (by simp at hi; omega)
      rw [← this]; congr 1; omega

theorem Matches.cons {m : Mem UInt8} {p : ℕ} {b : Bool} {a : List Bool} :
    Matches m p (b :: a) ↔ bitAt m p = b ∧ Matches m (p + 1) a := by
  rw [show b :: a = [b] ++ a from rfl, Matches.append]
  simp [Matches]

theorem Matches.nil {m : Mem UInt8} {p : ℕ} : Matches m p [] := by
  intro i hi; simp at hi

theorem Matches.single {m : Mem UInt8} {p : ℕ} {b : Bool} : Matches m p [b] ↔ bitAt m p = b := by
  rw [Matches.cons]; simp [Matches.nil]

theorem Matches.replicate {m : Mem UInt8} {p k : ℕ} :
    Matches m p (List.replicate k false) ↔ ∀ j, j < k → bitAt m (p + j) = false := by
  constructor
  · intro h j hj
    have := h j (by simpa using hj)
    simpa using this
  · intro h i hi
    have := h i (by simpa using hi)
    simpa using this

theorem Matches.bits7 {m : Mem UInt8} {p v : ℕ} :
    Matches m p (bits7 v) ↔ ∀ t, t < 7 → bitAt m (p + t) = v.testBit (6 - t) := by
  constructor
  · intro h t ht
    have := h t (by simpa [Falcon.bits7] using ht)
    simpa [Falcon.bits7] using this
  · intro h i hi
    have := h i (by simpa [Falcon.bits7] using hi)
    simpa [Falcon.bits7] using this

@[simp] theorem bits7_length (v : ℕ) : (bits7 v).length = 7 := by simp [bits7]

theorem eq_of_bits7 {a b : ℕ} (ha : a < 128) (hb : b < 128)
    (h : ∀ t, t < 7 → a.testBit (6 - t) = b.testBit (6 - t)) : a = b := by
  apply Nat.eq_of_testBit_eq
  intro i
  by_cases hi : i < 7
  · have := h (6 - i) (by omega)
    rwa [show 6 - (6 - i) = i by omega] at this
  · have pa : a < 2 ^ i := lt_of_lt_of_le ha (by
      calc (128 : ℕ) = 2 ^ 7 := rfl
        _ ≤ 2 ^ i := Nat.pow_le_pow_right (by norm_num) (by omega))
    have pb : b < 2 ^ i := lt_of_lt_of_le hb (by
      calc (128 : ℕ) = 2 ^ 7 := rfl
        _ ≤ 2 ^ i := Nat.pow_le_pow_right (by norm_num) (by omega))
    rw [Nat.testBit_lt_two_pow pa, Nat.testBit_lt_two_pow pb]

/-! ### Setting a bit -/

theorem orBit_bit (buf : Mem UInt8) (p i : ℕ) (b : Bool) :
    bitAt (upd buf (p >>> 3) (buf (p >>> 3) ||| ((if b then 1 else 0 : UInt8) <<<
      UInt8.ofNat (7 - (p &&& 7))))) i = (bitAt buf i || (decide (i = p) && b)) := by
  rw [Nat.shiftRight_eq_div_pow, and7, show (2 : ℕ) ^ 3 = 8 from rfl]
  unfold bitAt
  have hs : (UInt8.ofNat (7 - p % 8)).toNat = 7 - p % 8 := by
    simp only [UInt8.toNat_ofNat']; omega
  by_cases h : i / 8 = p / 8
  · rw [h, upd_same, UInt8.toNat_or, Nat.testBit_or, UInt8.toNat_shiftLeft, hs,
      show (7 - p % 8) % 8 = 7 - p % 8 by omega, Nat.testBit_mod_two_pow, Nat.testBit_shiftLeft]
    congr 1
    rw [show decide (7 - i % 8 < 8) = true by simp; omega, Bool.true_and]
    cases b
    · simp
    · simp only [if_true, UInt8.toNat_one, Bool.and_true]
      by_cases hip : i = p
      · subst hip; simp
      · rw [decide_eq_false hip]
        rw [show (1 : ℕ) = 2 ^ 0 from rfl, Nat.testBit_two_pow]
        simp; omega
  · rw [upd_ne _ _ _ _ h]
    have : i ≠ p := by rintro rfl; exact h rfl
    rw [decide_eq_false this]; simp

end Falcon
