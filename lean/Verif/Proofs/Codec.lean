import Verif.Model.Codec
import Verif.Proofs.Ntt
import Mathlib.Tactic.IntervalCases

/-!
# Key codecs
-/

namespace Falcon

theorem or_add {k x b : ℕ} (hx : x % 2 ^ k = 0) (hb : b < 2 ^ k) : x ||| b = x + b := by
  have h := Nat.two_pow_add_eq_or_of_lt hb (x / 2 ^ k)
  have h2 : 2 ^ k * (x / 2 ^ k) = x := by
    have := Nat.div_add_mod x (2 ^ k); omega
  rw [h2] at h
  exact h.symm

theorem or_add3 {k m x y z : ℕ} (hx : x % 2 ^ k = 0) (hy : y < 2 ^ k) (hm : m ≤ k)
    (hym : y % 2 ^ m = 0) (hz : z < 2 ^ m) : x ||| y ||| z = x + y + z := by
  rw [or_add hx hy]
  apply or_add _ hz
  have h1 : 2 ^ m ∣ x := (Nat.pow_dvd_pow 2 hm).trans (Nat.dvd_of_mod_eq_zero hx)
  exact Nat.mod_eq_zero_of_dvd (Nat.dvd_add h1 (Nat.dvd_of_mod_eq_zero hym))

theorem and1 (x : ℕ) : x &&& 1 = x % 2 := Nat.and_two_pow_sub_one_eq_mod x 1
theorem and3 (x : ℕ) : x &&& 3 = x % 4 := Nat.and_two_pow_sub_one_eq_mod x 2
theorem and7 (x : ℕ) : x &&& 7 = x % 8 := Nat.and_two_pow_sub_one_eq_mod x 3
theorem and15 (x : ℕ) : x &&& 15 = x % 16 := Nat.and_two_pow_sub_one_eq_mod x 4
theorem and31 (x : ℕ) : x &&& 31 = x % 32 := Nat.and_two_pow_sub_one_eq_mod x 5
theorem and63 (x : ℕ) : x &&& 63 = x % 64 := Nat.and_two_pow_sub_one_eq_mod x 6
theorem and127 (x : ℕ) : x &&& 127 = x % 128 := Nat.and_two_pow_sub_one_eq_mod x 7

open Lean.Parser.Tactic in
/-- Rewrite machine word shifts and masks into multiplications, divisions and remainders. -/
macro "bits_simp" "[" xs:simpLemma,* "]" : tactic =>
  `(tactic| simp [$xs,*, UInt8.toNat_or, UInt8.toNat_shiftLeft, UInt8.toNat_shiftRight, UInt8.toNat_and,
      UInt16.toNat_toUInt8, UInt16.toNat_and, UInt16.toNat_or,
      UInt16.toNat_shiftRight, UInt16.toNat_shiftLeft, UInt8.toNat_toUInt16, Nat.shiftLeft_eq,
      Nat.shiftRight_eq_div_pow, and1, and3, and7, and15, and31, and63, and127])

/-- A loop that writes blocks of `s` cells, block `b` at `off + s * b`. -/
theorem loop_blocks {α : Type} (s off : ℕ) (hs : 0 < s) (body : ℕ → Mem α → Mem α) (v : ℕ → ℕ → α)
    (hin : ∀ b m r, r < s → body b m (off + s * b + r) = v b r)
    (hout : ∀ b m j, (∀ r, r < s → j ≠ off + s * b + r) → body b m j = m j) (cnt : ℕ) (m : Mem α) :
    (∀ b, b < cnt → ∀ r, r < s → loop cnt body m (off + s * b + r) = v b r) ∧
    (∀ j, j < off ∨ off + s * cnt ≤ j → loop cnt body m j = m j) := by
  induction cnt with
  | zero => exact ⟨by simp, by intro j _; rfl⟩
  | succ c ih =>
    rw [loop_succ]
    constructor
    · intro b hb r hr
      by_cases h : b = c
      · subst h; exact hin b _ r hr
      · have hbc : s * b + s ≤ s * c := by
          calc s * b + s = s * (b + 1) := by ring
            _ ≤ s * c := Nat.mul_le_mul_left _ (by omega)
        rw [hout c _ _ (fun r' hr' => by omega)]
        exact ih.1 b (by omega) r hr
    · intro j hj
      have : s * (c + 1) = s * c + s := by ring
      rw [hout c _ _ (fun r' hr' => by omega)]
      exact ih.2 j (by omega)

theorem eq_block {s off j cnt : ℕ} (hs : 0 < s) (h1 : off ≤ j) (h2 : j < off + s * cnt) :
    ∃ b r, b < cnt ∧ r < s ∧ j = off + s * b + r := by
  refine ⟨(j - off) / s, (j - off) % s, ?_, Nat.mod_lt _ hs, ?_⟩
  · exact Nat.div_lt_of_lt_mul (by omega)
  · have := Nat.div_add_mod (j - off) s
    omega

/-! ### Public key -/

/-- The seven bytes of a block. -/
def pkByte (h0 h1 h2 h3 : UInt16) : ℕ → UInt8
  | 0 => h0.toUInt8
  | 1 => ((h1 &&& 0x03).toUInt8 <<< 6) ||| (h0 >>> 8).toUInt8
  | 2 => (h1 >>> 2).toUInt8
  | 3 => ((h2 &&& 0x0f).toUInt8 <<< 4) ||| (h1 >>> 10).toUInt8
  | 4 => (h2 >>> 4).toUInt8
  | 5 => ((h3 &&& 0x3f).toUInt8 <<< 2) ||| (h2 >>> 12).toUInt8
  | _ => (h3 >>> 6).toUInt8

/-- The four coefficients of a block. -/
def pkCoeff (p : ℕ → UInt8) : ℕ → UInt16
  | 0 => ((p 1 &&& 0x3f).toUInt16 <<< 8) ||| (p 0).toUInt16
  | 1 => ((p 3 &&& 0x0f).toUInt16 <<< 10) ||| ((p 2).toUInt16 <<< 2) ||| (p 1 >>> 6).toUInt16
  | 2 => ((p 5 &&& 0x03).toUInt16 <<< 12) ||| ((p 4).toUInt16 <<< 4) ||| (p 3 >>> 4).toUInt16
  | _ => ((p 6).toUInt16 <<< 6) ||| (p 5 >>> 2).toUInt16

theorem pkByte_toNat (h0 h1 h2 h3 : UInt16) (b0 : h0.toNat < 16384) (b1 : h1.toNat < 16384)
    (b2 : h2.toNat < 16384) (b3 : h3.toNat < 16384) :
    (pkByte h0 h1 h2 h3 0).toNat = h0.toNat % 256 ∧
    (pkByte h0 h1 h2 h3 1).toNat = h1.toNat % 4 * 64 + h0.toNat / 256 ∧
    (pkByte h0 h1 h2 h3 2).toNat = h1.toNat / 4 % 256 ∧
    (pkByte h0 h1 h2 h3 3).toNat = h2.toNat % 16 * 16 + h1.toNat / 1024 ∧
    (pkByte h0 h1 h2 h3 4).toNat = h2.toNat / 16 % 256 ∧
    (pkByte h0 h1 h2 h3 5).toNat = h3.toNat % 64 * 4 + h2.toNat / 4096 ∧
    (pkByte h0 h1 h2 h3 6).toNat = h3.toNat / 64 := by
  refine ⟨?_, ?_, ?_, ?_, ?_, ?_, ?_⟩
  · bits_simp [pkByte]
  · bits_simp [pkByte]
    rw [or_add (k := 6) (by omega) (by omega)]
    omega
  · bits_simp [pkByte]
  · bits_simp [pkByte]
    rw [or_add (k := 4) (by omega) (by omega)]
    omega
  · bits_simp [pkByte]
  · bits_simp [pkByte]
    rw [or_add (k := 2) (by omega) (by omega)]
    omega
  · bits_simp [pkByte]
    omega

theorem pkCoeff_toNat (p : ℕ → UInt8) :
    (pkCoeff p 0).toNat = (p 1).toNat % 64 * 256 + (p 0).toNat ∧
    (pkCoeff p 1).toNat = (p 3).toNat % 16 * 1024 + (p 2).toNat * 4 + (p 1).toNat / 64 ∧
    (pkCoeff p 2).toNat = (p 5).toNat % 4 * 4096 + (p 4).toNat * 16 + (p 3).toNat / 16 ∧
    (pkCoeff p 3).toNat = (p 6).toNat * 64 + (p 5).toNat / 4 := by
  have := fun i => (p i).toNat_lt
  have h0 := this 0; have h1 := this 1; have h2 := this 2; have h3 := this 3
  have h4 := this 4; have h5 := this 5; have h6 := this 6
  refine ⟨?_, ?_, ?_, ?_⟩
  · bits_simp [pkCoeff]
    rw [or_add (k := 8) (by omega) (by omega)]
    omega
  · bits_simp [pkCoeff]
    rw [or_add3 (k := 10) (m := 2) (by omega) (by omega) (by omega) (by omega) (by omega)]
    omega
  · bits_simp [pkCoeff]
    rw [or_add3 (k := 12) (m := 4) (by omega) (by omega) (by omega) (by omega) (by omega)]
    omega
  · bits_simp [pkCoeff]
    rw [or_add (k := 6) (by omega) (by omega)]
    omega

theorem pk_counts {n : ℕ} (hn : ValidLog n) :
    ∃ c, (1 <<< n) / 4 = c ∧ (pkeyLen n - 1) / 7 = c ∧ pkeyLen n = 1 + 7 * c ∧ 2 ^ n = 4 * c ∧
      1 <<< n = 4 * c := by
  rcases hn with rfl | rfl
  · exact ⟨128, by decide, by decide, by decide, by decide, by decide⟩
  · exact ⟨256, by decide, by decide, by decide, by decide, by decide⟩

theorem encodePkey_spec {n c : ℕ} (hc : (1 <<< n) / 4 = c) (h : Mem Ff) (pk : Mem UInt8) :
    encodePkey n h pk 0 = UInt8.ofNat n ∧
    (∀ b, b < c → ∀ r, r < 7 → encodePkey n h pk (1 + 7 * b + r) =
      pkByte (h (4 * b)).v (h (4 * b + 1)).v (h (4 * b + 2)).v (h (4 * b + 3)).v r) ∧
    (∀ j, 1 + 7 * c ≤ j → encodePkey n h pk j = pk j) := by
  unfold encodePkey
  rw [hc]
  have hb := loop_blocks 7 1 (by norm_num)
    (fun b pkey => encodePkeyBlock h (4 * b) (1 + 7 * b) pkey)
    (fun b r => pkByte (h (4 * b)).v (h (4 * b + 1)).v (h (4 * b + 2)).v (h (4 * b + 3)).v r)
    (by
      intro b m r hr
      simp only [encodePkeyBlock, upd]
      interval_cases r <;> simp [pkByte])
    (by
      intro b m j hj
      have e0 := hj 0 (by norm_num); have e1 := hj 1 (by norm_num); have e2 := hj 2 (by norm_num)
      have e3 := hj 3 (by norm_num); have e4 := hj 4 (by norm_num); have e5 := hj 5 (by norm_num)
      have e6 := hj 6 (by norm_num)
      simp only [encodePkeyBlock, upd, e0, e1, e2, e3, e4, e5, e6, if_false]) c
    (upd pk 0 (UInt8.ofNat n))
  refine ⟨?_, hb.1, ?_⟩
  · rw [hb.2 0 (by omega)]; simp
  · intro j hj
    rw [hb.2 j (by omega), upd_ne _ _ _ _ (by omega)]

theorem decodePkey_spec {n c : ℕ} (hc : (pkeyLen n - 1) / 7 = c) (pk : Mem UInt8) (h : Mem Ff)
    (hh : pk 0 = UInt8.ofNat n) :
    (decodePkey n pk h).1 = true ∧
    (∀ b, b < c → ∀ r, r < 4 → (decodePkey n pk h).2 (4 * b + r) =
      ⟨pkCoeff (fun i => pk (1 + 7 * b + i)) r⟩) ∧
    (∀ j, 4 * c ≤ j → (decodePkey n pk h).2 j = h j) := by
  unfold decodePkey
  rw [if_neg (by simpa using hh), hc]
  have hb := loop_blocks 4 0 (by norm_num)
    (fun b h => decodePkeyBlock pk (1 + 7 * b) (4 * b) h)
    (fun b r => ⟨pkCoeff (fun i => pk (1 + 7 * b + i)) r⟩)
    (by
      intro b m r hr
      simp only [decodePkeyBlock, upd]
      interval_cases r <;> simp [pkCoeff])
    (by
      intro b m j hj
      have e0 := hj 0 (by norm_num); have e1 := hj 1 (by norm_num); have e2 := hj 2 (by norm_num)
      have e3 := hj 3 (by norm_num)
      simp only [zero_add] at e0 e1 e2 e3
      simp only [decodePkeyBlock, upd, e0, e1, e2, e3, if_false]) c h
  refine ⟨rfl, ?_, ?_⟩
  · intro b hb' r hr
    have := hb.1 b hb' r hr
    simpa using this
  · intro j hj
    exact hb.2 j (by omega)

theorem decodePkey_reject {n : ℕ} (pk : Mem UInt8) (h : Mem Ff) (hh : pk 0 ≠ UInt8.ofNat n) :
    (decodePkey n pk h).1 = false ∧ (∀ j, j < 2 ^ n → (decodePkey n pk h).2 j = Ff.zero) ∧
    (∀ j, 2 ^ n ≤ j → (decodePkey n pk h).2 j = h j) := by
  unfold decodePkey
  rw [if_pos hh]
  refine ⟨rfl, ?_, ?_⟩
  · intro j hj
    show loop (1 <<< n) (fun i h => upd h i ((fun _ => Ff.ofU16 0) i)) h j = Ff.zero
    rw [loop_fill, one_shiftLeft', if_pos hj]; rfl
  · intro j hj
    show loop (1 <<< n) (fun i h => upd h i ((fun _ => Ff.ofU16 0) i)) h j = h j
    rw [loop_fill, one_shiftLeft', if_neg (by omega)]

theorem pk_roundtrip_block (h0 h1 h2 h3 : UInt16) (b0 : h0.toNat < 16384) (b1 : h1.toNat < 16384)
    (b2 : h2.toNat < 16384) (b3 : h3.toNat < 16384) :
    let p := pkByte h0 h1 h2 h3
    pkCoeff p 0 = h0 ∧ pkCoeff p 1 = h1 ∧ pkCoeff p 2 = h2 ∧ pkCoeff p 3 = h3 := by
  intro p
  obtain ⟨p0, p1, p2, p3, p4, p5, p6⟩ := pkByte_toNat h0 h1 h2 h3 b0 b1 b2 b3
  obtain ⟨c0, c1, c2, c3⟩ := pkCoeff_toNat p
  refine ⟨?_, ?_, ?_, ?_⟩ <;> apply UInt16.toNat_inj.mp
  · rw [c0, p0, p1]; omega
  · rw [c1, p1, p2, p3]; omega
  · rw [c2, p3, p4, p5]; omega
  · rw [c3, p5, p6]; omega

theorem pkCoeff_lt (p : ℕ → UInt8) (r : ℕ) (hr : r < 4) : (pkCoeff p r).toNat < 16384 := by
  have := fun i => (p i).toNat_lt
  have h0 := this 0; have h1 := this 1; have h2 := this 2; have h3 := this 3
  have h4 := this 4; have h5 := this 5; have h6 := this 6
  obtain ⟨c0, c1, c2, c3⟩ := pkCoeff_toNat p
  interval_cases r <;> omega

theorem pk_roundtrip_bytes (p : ℕ → UInt8) (r : ℕ) (hr : r < 7) :
    pkByte (pkCoeff p 0) (pkCoeff p 1) (pkCoeff p 2) (pkCoeff p 3) r = p r := by
  have := fun i => (p i).toNat_lt
  have h0 := this 0; have h1 := this 1; have h2 := this 2; have h3 := this 3
  have h4 := this 4; have h5 := this 5; have h6 := this 6
  obtain ⟨c0, c1, c2, c3⟩ := pkCoeff_toNat p
  obtain ⟨p0, p1, p2, p3, p4, p5, p6⟩ := pkByte_toNat _ _ _ _ (pkCoeff_lt p 0 (by norm_num))
    (pkCoeff_lt p 1 (by norm_num)) (pkCoeff_lt p 2 (by norm_num)) (pkCoeff_lt p 3 (by norm_num))
  interval_cases r <;> apply UInt8.toNat_inj.mp
  · rw [p0, c0]; omega
  · rw [p1, c0, c1]; omega
  · rw [p2, c1]; omega
  · rw [p3, c1, c2]; omega
  · rw [p4, c2]; omega
  · rw [p5, c2, c3]; omega
  · rw [p6, c3]; omega

/-! ### Secret key -/

/-- What the proofs need of a block codec: `S` coefficients in `[-w/2, w/2)` to `s` bytes. -/
structure BlockCodec (w : ℤ) (S s : ℕ) (e : Mem Int → ℕ → ℕ → Mem UInt8 → Mem UInt8)
    (d : Mem UInt8 → ℕ → ℕ → Mem Int → Mem Int) (B : (ℕ → ℤ) → ℕ → UInt8)
    (C : (ℕ → UInt8) → ℕ → ℤ) : Prop where
  S_pos : 0 < S
  s_pos : 0 < s
  e_in : ∀ f fo so m r, r < s → e f fo so m (so + r) = B (fun i => f (fo + i)) r
  e_out : ∀ f fo so m j, (∀ r, r < s → j ≠ so + r) → e f fo so m j = m j
  d_in : ∀ k so fo m r, r < S → d k so fo m (fo + r) = C (fun i => k (so + i)) r
  d_out : ∀ k so fo m j, (∀ r, r < S → j ≠ fo + r) → d k so fo m j = m j
  C_B : ∀ x : ℕ → ℤ, (∀ i, i < S → -(w / 2) ≤ x i ∧ x i < w / 2) → ∀ r, r < S → C (B x) r = x r
  C_range : ∀ p r, r < S → -(w / 2) ≤ C p r ∧ C p r < w / 2
  B_C : ∀ p r, r < s → B (C p) r = p r
  B_congr : ∀ x y : ℕ → ℤ, (∀ i, i < S → x i = y i) → ∀ r, r < s → B x r = B y r
  C_congr : ∀ x y : ℕ → UInt8, (∀ i, i < s → x i = y i) → ∀ r, r < S → C x r = C y r

theorem wrapCoeff_toNat {w x : ℤ} (hw : 0 < w) (hw2 : w ≤ 256) (hev : w % 2 = 0)
    (h1 : -(w / 2) ≤ x) (h2 : x < w / 2) : ((wrapCoeff w x).toNat : ℤ) = x % w := by
  have hlt : x % w < w := Int.emod_lt_of_pos x hw
  have hnn : 0 ≤ x % w := Int.emod_nonneg x (by omega)
  have e : (if x < 0 then w else 0) + x = x % w := by
    split
    · rw [← Int.add_emod_left, Int.emod_eq_of_lt (by omega) (by omega)]
    · rw [Int.emod_eq_of_lt (by omega) (by omega)]; omega
  unfold wrapCoeff toU8
  rw [e, Int.emod_eq_of_lt hnn (by omega)]
  simp only [UInt8.toNat_ofNat']
  omega

theorem unwrapCoeff_emod {w x : ℤ} (hw : 0 < w) (hev : w % 2 = 0)
    (h1 : -(w / 2) ≤ x) (h2 : x < w / 2) : unwrapCoeff w (x % w) = x := by
  unfold unwrapCoeff
  by_cases h : x < 0
  · have : x % w = w + x := by
      rw [← Int.add_emod_left, Int.emod_eq_of_lt (by omega) (by omega)]
    rw [this, if_pos (by omega)]; omega
  · rw [Int.emod_eq_of_lt (by omega) (by omega), if_neg (by omega)]; omega

theorem unwrapCoeff_range {w x : ℤ} (_hw : 0 < w) (hev : w % 2 = 0) (h1 : 0 ≤ x) (h2 : x < w) :
    -(w / 2) ≤ unwrapCoeff w x ∧ unwrapCoeff w x < w / 2 := by
  unfold unwrapCoeff
  split <;> omega

theorem unwrapCoeff_mod {w x : ℤ} (_hw : 0 < w) (h1 : 0 ≤ x) (h2 : x < w) :
    unwrapCoeff w x % w = x := by
  unfold unwrapCoeff
  split
  · rw [Int.sub_emod_right, Int.emod_eq_of_lt h1 h2]
  · rw [sub_zero, Int.emod_eq_of_lt h1 h2]

def sk6Byte (x : ℕ → ℤ) : ℕ → UInt8
  | 0 => (wrapCoeff 64 (x 1) <<< 6) ||| wrapCoeff 64 (x 0)
  | 1 => (wrapCoeff 64 (x 2) <<< 4) ||| (wrapCoeff 64 (x 1) >>> 2)
  | _ => (wrapCoeff 64 (x 3) <<< 2) ||| (wrapCoeff 64 (x 2) >>> 4)

def sk6Nat (p : ℕ → UInt8) : ℕ → ℕ
  | 0 => (p 0).toNat &&& 0x3f
  | 1 => (((p 1).toNat &&& 0x0f) <<< 2) ||| ((p 0).toNat >>> 6)
  | 2 => (((p 2).toNat &&& 0x03) <<< 4) ||| ((p 1).toNat >>> 4)
  | _ => (p 2).toNat >>> 2

theorem sk6Byte_toNat (x : ℕ → ℤ) (a : ℕ → ℕ) (ha : ∀ i, i < 4 → (wrapCoeff 64 (x i)).toNat = a i)
    (hb : ∀ i, i < 4 → a i < 64) :
    (sk6Byte x 0).toNat = a 1 % 4 * 64 + a 0 ∧
    (sk6Byte x 1).toNat = a 2 % 16 * 16 + a 1 / 4 ∧
    (sk6Byte x 2).toNat = a 3 * 4 + a 2 / 16 := by
  have a0 := ha 0 (by norm_num); have a1 := ha 1 (by norm_num); have a2 := ha 2 (by norm_num)
  have a3 := ha 3 (by norm_num)
  have b0 := hb 0 (by norm_num); have b1 := hb 1 (by norm_num); have b2 := hb 2 (by norm_num)
  have b3 := hb 3 (by norm_num)
  refine ⟨?_, ?_, ?_⟩
  · bits_simp [sk6Byte, a0, a1]
    rw [or_add (k := 6) (by omega) (by omega)]
    omega
  · bits_simp [sk6Byte, a1, a2]
    rw [or_add (k := 4) (by omega) (by omega)]
    omega
  · bits_simp [sk6Byte, a2, a3]
    rw [or_add (k := 2) (by omega) (by omega)]
    omega

theorem sk6Nat_eq (p : ℕ → UInt8) :
    sk6Nat p 0 = (p 0).toNat % 64 ∧
    sk6Nat p 1 = (p 1).toNat % 16 * 4 + (p 0).toNat / 64 ∧
    sk6Nat p 2 = (p 2).toNat % 4 * 16 + (p 1).toNat / 16 ∧
    sk6Nat p 3 = (p 2).toNat / 4 := by
  have h0 := (p 0).toNat_lt; have h1 := (p 1).toNat_lt; have h2 := (p 2).toNat_lt
  refine ⟨?_, ?_, ?_, ?_⟩
  · bits_simp [sk6Nat]
  · bits_simp [sk6Nat]
    rw [or_add (k := 2) (by omega) (by omega)]
  · bits_simp [sk6Nat]
    rw [or_add (k := 4) (by omega) (by omega)]
  · bits_simp [sk6Nat]

theorem sk6Nat_lt (p : ℕ → UInt8) (r : ℕ) (hr : r < 4) : sk6Nat p r < 64 := by
  have h0 := (p 0).toNat_lt; have h1 := (p 1).toNat_lt; have h2 := (p 2).toNat_lt
  obtain ⟨c0, c1, c2, c3⟩ := sk6Nat_eq p
  interval_cases r <;> omega

theorem codec6 : BlockCodec 64 4 3 encode6 decode6 sk6Byte
    (fun p r => unwrapCoeff 64 (sk6Nat p r : ℕ)) where
  S_pos := by norm_num
  s_pos := by norm_num
  e_in := by
    intro f fo so m r hr
    simp only [encode6, upd]
    interval_cases r <;> simp [sk6Byte]
  e_out := by
    intro f fo so m j hj
    have e0 := hj 0 (by norm_num); have e1 := hj 1 (by norm_num); have e2 := hj 2 (by norm_num)
    simp only [encode6, upd, e0, e1, e2, if_false]
  d_in := by
    intro k so fo m r hr
    simp only [decode6, upd]
    interval_cases r <;> simp [sk6Nat]
  d_out := by
    intro k so fo m j hj
    have e0 := hj 0 (by norm_num); have e1 := hj 1 (by norm_num); have e2 := hj 2 (by norm_num)
    have e3 := hj 3 (by norm_num)
    simp only [decode6, upd, e0, e1, e2, e3, if_false]
  C_B := by
    intro x hx r hr
    have hw : ∀ i, i < 4 → ((wrapCoeff 64 (x i)).toNat : ℤ) = x i % 64 := fun i hi =>
      wrapCoeff_toNat (by norm_num) (by norm_num) (by norm_num) (hx i hi).1 (hx i hi).2
    have hb : ∀ i, i < 4 → (wrapCoeff 64 (x i)).toNat < 64 := fun i hi => by
      have := hw i hi; omega
    obtain ⟨p0, p1, p2⟩ := sk6Byte_toNat x _ (fun _ _ => rfl) hb
    obtain ⟨c0, c1, c2, c3⟩ := sk6Nat_eq (sk6Byte x)
    have key : sk6Nat (sk6Byte x) r = (wrapCoeff 64 (x r)).toNat := by
      have b0 := hb 0 (by norm_num); have b1 := hb 1 (by norm_num); have b2 := hb 2 (by norm_num)
      have b3 := hb 3 (by norm_num)
      interval_cases r <;> omega
    show unwrapCoeff 64 _ = _
    rw [key, hw r hr]
    exact unwrapCoeff_emod (by norm_num) (by norm_num) (hx r hr).1 (hx r hr).2
  C_range := by
    intro p r hr
    have := sk6Nat_lt p r hr
    exact unwrapCoeff_range (by norm_num) (by norm_num) (by omega) (by omega)
  B_C := by
    intro p r hr
    have hx : ∀ i, i < 4 → (wrapCoeff 64 (unwrapCoeff 64 (sk6Nat p i : ℕ))).toNat = sk6Nat p i := by
      intro i hi
      have hl := sk6Nat_lt p i hi
      have hr := unwrapCoeff_range (w := 64) (x := sk6Nat p i) (by norm_num) (by norm_num) (by omega)
        (by omega)
      have h1 := wrapCoeff_toNat (w := 64) (by norm_num) (by norm_num) (by norm_num) hr.1 hr.2
      rw [unwrapCoeff_mod (by norm_num) (by omega) (by omega)] at h1
      exact_mod_cast h1
    obtain ⟨p0, p1, p2⟩ := sk6Byte_toNat (fun r => unwrapCoeff 64 (sk6Nat p r : ℕ)) _ hx
      (fun i hi => sk6Nat_lt p i hi)
    obtain ⟨c0, c1, c2, c3⟩ := sk6Nat_eq p
    have h0 := (p 0).toNat_lt; have h1 := (p 1).toNat_lt; have h2 := (p 2).toNat_lt
    apply UInt8.toNat_inj.mp
    interval_cases r <;> omega
  B_congr := by
    intro x y h r hr
    have e0 := h 0 (by norm_num); have e1 := h 1 (by norm_num); have e2 := h 2 (by norm_num)
    have e3 := h 3 (by norm_num)
    interval_cases r <;> simp [sk6Byte, e0, e1, e2, e3]
  C_congr := by
    intro x y h r hr
    have e0 := h 0 (by norm_num); have e1 := h 1 (by norm_num); have e2 := h 2 (by norm_num)
    interval_cases r <;> simp [sk6Nat, e0, e1, e2]

def sk5Byte (x : ℕ → ℤ) : ℕ → UInt8
  | 0 => (wrapCoeff 32 (x 1) <<< 5) ||| wrapCoeff 32 (x 0)
  | 1 => (wrapCoeff 32 (x 3) <<< 7) ||| (wrapCoeff 32 (x 2) <<< 2) ||| (wrapCoeff 32 (x 1) >>> 3)
  | 2 => (wrapCoeff 32 (x 4) <<< 4) ||| (wrapCoeff 32 (x 3) >>> 1)
  | 3 => (wrapCoeff 32 (x 6) <<< 6) ||| (wrapCoeff 32 (x 5) <<< 1) ||| (wrapCoeff 32 (x 4) >>> 4)
  | _ => (wrapCoeff 32 (x 7) <<< 3) ||| (wrapCoeff 32 (x 6) >>> 2)

def sk5Nat (p : ℕ → UInt8) : ℕ → ℕ
  | 0 => (p 0).toNat &&& 0x1f
  | 1 => (((p 1).toNat &&& 0x03) <<< 3) ||| ((p 0).toNat >>> 5)
  | 2 => ((p 1).toNat >>> 2) &&& 0x1f
  | 3 => (((p 2).toNat &&& 0x0f) <<< 1) ||| ((p 1).toNat >>> 7)
  | 4 => (((p 3).toNat &&& 0x01) <<< 4) ||| ((p 2).toNat >>> 4)
  | 5 => ((p 3).toNat >>> 1) &&& 0x1f
  | 6 => (((p 4).toNat &&& 0x07) <<< 2) ||| ((p 3).toNat >>> 6)
  | _ => (p 4).toNat >>> 3

theorem sk5Byte_toNat (x : ℕ → ℤ) (a : ℕ → ℕ) (ha : ∀ i, i < 8 → (wrapCoeff 32 (x i)).toNat = a i)
    (hb : ∀ i, i < 8 → a i < 32) :
    (sk5Byte x 0).toNat = a 1 % 8 * 32 + a 0 ∧
    (sk5Byte x 1).toNat = a 3 % 2 * 128 + a 2 * 4 + a 1 / 8 ∧
    (sk5Byte x 2).toNat = a 4 % 16 * 16 + a 3 / 2 ∧
    (sk5Byte x 3).toNat = a 6 % 4 * 64 + a 5 * 2 + a 4 / 16 ∧
    (sk5Byte x 4).toNat = a 7 * 8 + a 6 / 4 := by
  have a0 := ha 0 (by norm_num); have a1 := ha 1 (by norm_num); have a2 := ha 2 (by norm_num)
  have a3 := ha 3 (by norm_num); have a4 := ha 4 (by norm_num); have a5 := ha 5 (by norm_num)
  have a6 := ha 6 (by norm_num); have a7 := ha 7 (by norm_num)
  have b0 := hb 0 (by norm_num); have b1 := hb 1 (by norm_num); have b2 := hb 2 (by norm_num)
  have b3 := hb 3 (by norm_num); have b4 := hb 4 (by norm_num); have b5 := hb 5 (by norm_num)
  have b6 := hb 6 (by norm_num); have b7 := hb 7 (by norm_num)
  refine ⟨?_, ?_, ?_, ?_, ?_⟩
  · bits_simp [sk5Byte, a0, a1]
    rw [or_add (k := 5) (by omega) (by omega)]
    omega
  · bits_simp [sk5Byte, a1, a2, a3]
    rw [or_add3 (k := 7) (m := 2) (by omega) (by omega) (by omega) (by omega) (by omega)]
    omega
  · bits_simp [sk5Byte, a3, a4]
    rw [or_add (k := 4) (by omega) (by omega)]
    omega
  · bits_simp [sk5Byte, a4, a5, a6]
    rw [or_add3 (k := 6) (m := 1) (by omega) (by omega) (by omega) (by omega) (by omega)]
    omega
  · bits_simp [sk5Byte, a6, a7]
    rw [or_add (k := 3) (by omega) (by omega)]
    omega

theorem sk5Nat_eq (p : ℕ → UInt8) :
    sk5Nat p 0 = (p 0).toNat % 32 ∧
    sk5Nat p 1 = (p 1).toNat % 4 * 8 + (p 0).toNat / 32 ∧
    sk5Nat p 2 = (p 1).toNat / 4 % 32 ∧
    sk5Nat p 3 = (p 2).toNat % 16 * 2 + (p 1).toNat / 128 ∧
    sk5Nat p 4 = (p 3).toNat % 2 * 16 + (p 2).toNat / 16 ∧
    sk5Nat p 5 = (p 3).toNat / 2 % 32 ∧
    sk5Nat p 6 = (p 4).toNat % 8 * 4 + (p 3).toNat / 64 ∧
    sk5Nat p 7 = (p 4).toNat / 8 := by
  have h0 := (p 0).toNat_lt; have h1 := (p 1).toNat_lt; have h2 := (p 2).toNat_lt
  have h3 := (p 3).toNat_lt; have h4 := (p 4).toNat_lt
  refine ⟨?_, ?_, ?_, ?_, ?_, ?_, ?_, ?_⟩
  · bits_simp [sk5Nat]
  · bits_simp [sk5Nat]
    rw [or_add (k := 3) (by omega) (by omega)]
  · bits_simp [sk5Nat]
  · bits_simp [sk5Nat]
    rw [or_add (k := 1) (by omega) (by omega)]
  · bits_simp [sk5Nat]
    rw [or_add (k := 4) (by omega) (by omega)]
  · bits_simp [sk5Nat]
  · bits_simp [sk5Nat]
    rw [or_add (k := 2) (by omega) (by omega)]
  · bits_simp [sk5Nat]

theorem sk5Nat_lt (p : ℕ → UInt8) (r : ℕ) (hr : r < 8) : sk5Nat p r < 32 := by
  have h0 := (p 0).toNat_lt; have h1 := (p 1).toNat_lt; have h2 := (p 2).toNat_lt
  have h3 := (p 3).toNat_lt; have h4 := (p 4).toNat_lt
  obtain ⟨c0, c1, c2, c3, c4, c5, c6, c7⟩ := sk5Nat_eq p
  interval_cases r <;> omega

theorem sk5_key (x : ℕ → ℤ) (hb : ∀ i, i < 8 → (wrapCoeff 32 (x i)).toNat < 32) (r : ℕ)
    (hr : r < 8) : sk5Nat (sk5Byte x) r = (wrapCoeff 32 (x r)).toNat := by
  obtain ⟨p0, p1, p2, p3, p4⟩ := sk5Byte_toNat x _ (fun _ _ => rfl) hb
  obtain ⟨c0, c1, c2, c3, c4, c5, c6, c7⟩ := sk5Nat_eq (sk5Byte x)
  have b0 := hb 0 (by norm_num); have b1 := hb 1 (by norm_num); have b2 := hb 2 (by norm_num)
  have b3 := hb 3 (by norm_num); have b4 := hb 4 (by norm_num); have b5 := hb 5 (by norm_num)
  have b6 := hb 6 (by norm_num); have b7 := hb 7 (by norm_num)
  interval_cases r
  · rw [c0, p0]; clear p0 p1 p2 p3 p4 c0 c1 c2 c3 c4 c5 c6 c7; omega
  · rw [c1, p0, p1]; clear p0 p1 p2 p3 p4 c0 c1 c2 c3 c4 c5 c6 c7; omega
  · rw [c2, p1]; clear p0 p1 p2 p3 p4 c0 c1 c2 c3 c4 c5 c6 c7; omega
  · rw [c3, p1, p2]; clear p0 p1 p2 p3 p4 c0 c1 c2 c3 c4 c5 c6 c7; omega
  · rw [c4, p2, p3]; clear p0 p1 p2 p3 p4 c0 c1 c2 c3 c4 c5 c6 c7; omega
  · rw [c5, p3]; clear p0 p1 p2 p3 p4 c0 c1 c2 c3 c4 c5 c6 c7; omega
  · rw [c6, p3, p4]; clear p0 p1 p2 p3 p4 c0 c1 c2 c3 c4 c5 c6 c7; omega
  · rw [c7, p4]; clear p0 p1 p2 p3 p4 c0 c1 c2 c3 c4 c5 c6 c7; omega

theorem codec5 : BlockCodec 32 8 5 encode5 decode5 sk5Byte
    (fun p r => unwrapCoeff 32 (sk5Nat p r : ℕ)) where
  S_pos := by norm_num
  s_pos := by norm_num
  e_in := by
    intro f fo so m r hr
    simp only [encode5, upd]
    interval_cases r <;> simp [sk5Byte]
  e_out := by
    intro f fo so m j hj
    have e0 := hj 0 (by norm_num); have e1 := hj 1 (by norm_num); have e2 := hj 2 (by norm_num)
    have e3 := hj 3 (by norm_num); have e4 := hj 4 (by norm_num)
    simp only [encode5, upd, e0, e1, e2, e3, e4, if_false]
  d_in := by
    intro k so fo m r hr
    simp only [decode5, upd]
    interval_cases r <;> simp [sk5Nat]
  d_out := by
    intro k so fo m j hj
    have e0 := hj 0 (by norm_num); have e1 := hj 1 (by norm_num); have e2 := hj 2 (by norm_num)
    have e3 := hj 3 (by norm_num); have e4 := hj 4 (by norm_num); have e5 := hj 5 (by norm_num)
    have e6 := hj 6 (by norm_num); have e7 := hj 7 (by norm_num)
    simp only [decode5, upd, e0, e1, e2, e3, e4, e5, e6, e7, if_false]
  C_B := by
    intro x hx r hr
    have hw : ∀ i, i < 8 → ((wrapCoeff 32 (x i)).toNat : ℤ) = x i % 32 := fun i hi =>
      wrapCoeff_toNat (by norm_num) (by norm_num) (by norm_num) (hx i hi).1 (hx i hi).2
    have hb : ∀ i, i < 8 → (wrapCoeff 32 (x i)).toNat < 32 := fun i hi => by
      have := hw i hi; omega
    have key := sk5_key x hb r hr
    show unwrapCoeff 32 _ = _
    rw [key, hw r hr]
    exact unwrapCoeff_emod (by norm_num) (by norm_num) (hx r hr).1 (hx r hr).2
  C_range := by
    intro p r hr
    have := sk5Nat_lt p r hr
    exact unwrapCoeff_range (by norm_num) (by norm_num) (by omega) (by omega)
  B_C := by
    intro p r hr
    have hx : ∀ i, i < 8 → (wrapCoeff 32 (unwrapCoeff 32 (sk5Nat p i : ℕ))).toNat = sk5Nat p i := by
      intro i hi
      have hl := sk5Nat_lt p i hi
      have hr := unwrapCoeff_range (w := 32) (x := sk5Nat p i) (by norm_num) (by norm_num) (by omega)
        (by omega)
      have h1 := wrapCoeff_toNat (w := 32) (by norm_num) (by norm_num) (by norm_num) hr.1 hr.2
      rw [unwrapCoeff_mod (by norm_num) (by omega) (by omega)] at h1
      exact_mod_cast h1
    obtain ⟨p0, p1, p2, p3, p4⟩ := sk5Byte_toNat (fun r => unwrapCoeff 32 (sk5Nat p r : ℕ)) _ hx
      (fun i hi => sk5Nat_lt p i hi)
    obtain ⟨c0, c1, c2, c3, c4, c5, c6, c7⟩ := sk5Nat_eq p
    have h0 := (p 0).toNat_lt; have h1 := (p 1).toNat_lt; have h2 := (p 2).toNat_lt
    have h3 := (p 3).toNat_lt; have h4 := (p 4).toNat_lt
    apply UInt8.toNat_inj.mp
    interval_cases r
    · rw [p0, c0, c1]; clear p0 p1 p2 p3 p4 c0 c1 c2 c3 c4 c5 c6 c7 hx; omega
    · rw [p1, c1, c2, c3]; clear p0 p1 p2 p3 p4 c0 c1 c2 c3 c4 c5 c6 c7 hx; omega
    · rw [p2, c3, c4]; clear p0 p1 p2 p3 p4 c0 c1 c2 c3 c4 c5 c6 c7 hx; omega
    · rw [p3, c4, c5, c6]; clear p0 p1 p2 p3 p4 c0 c1 c2 c3 c4 c5 c6 c7 hx; omega
    · rw [p4, c6, c7]; clear p0 p1 p2 p3 p4 c0 c1 c2 c3 c4 c5 c6 c7 hx; omega
  B_congr := by
    intro x y h r hr
    have e0 := h 0 (by norm_num); have e1 := h 1 (by norm_num); have e2 := h 2 (by norm_num)
    have e3 := h 3 (by norm_num); have e4 := h 4 (by norm_num); have e5 := h 5 (by norm_num)
    have e6 := h 6 (by norm_num); have e7 := h 7 (by norm_num)
    interval_cases r <;> simp [sk5Byte, e0, e1, e2, e3, e4, e5, e6, e7]
  C_congr := by
    intro x y h r hr
    have e0 := h 0 (by norm_num); have e1 := h 1 (by norm_num); have e2 := h 2 (by norm_num)
    have e3 := h 3 (by norm_num); have e4 := h 4 (by norm_num)
    interval_cases r <;> simp [sk5Nat, e0, e1, e2, e3, e4]

/-- `encode_skey` with the block codec as a parameter. -/
def encGen (e : Mem Int → ℕ → ℕ → Mem UInt8 → Mem UInt8) (S s c N : ℕ) (hdr : UInt8)
    (f g F : Mem Int) (skey : Mem UInt8) : Mem UInt8 :=
  loop N (fun i skey => upd skey (1 + s * c + s * c + i) (toU8 (F i)))
    (loop c (fun b skey => e g (S * b) (1 + s * c + s * b) skey)
      (loop c (fun b skey => e f (S * b) (1 + s * b) skey) (upd skey 0 hdr)))

/-- The accepting branch of `decode_skey` with the block codec as a parameter. -/
def decGen (d : Mem UInt8 → ℕ → ℕ → Mem Int → Mem Int) (S s c N : ℕ) (skey : Mem UInt8) (o : FgF) :
    FgF :=
  ⟨loop c (fun b f => d skey (1 + s * b) (S * b) f) o.f,
   loop c (fun b g => d skey (1 + s * c + s * b) (S * b) g) o.g,
   loop N (fun i a => upd a i (unwrapCoeff 256 ((skey (1 + s * c + s * c + i)).toNat : ℕ))) o.F⟩

theorem encodeSkey_nine (f g F : Mem Int) (sk : Mem UInt8) :
    encodeSkey 9 f g F sk = encGen encode6 4 3 128 512 0x59 f g F sk := by
  have h1 : (1 : ℕ) <<< 9 = 512 := rfl
  have h2 : (512 : ℕ) / 4 = 128 := rfl
  have h3 : (0x50 ||| UInt8.ofNat 9 : UInt8) = 0x59 := by decide
  simp only [encodeSkey, encGen, h1, h2, h3]
  rw [if_pos trivial]

theorem encodeSkey_ten (f g F : Mem Int) (sk : Mem UInt8) :
    encodeSkey 10 f g F sk = encGen encode5 8 5 128 1024 0x5a f g F sk := by
  have h1 : (1 : ℕ) <<< 10 = 1024 := rfl
  have h2 : (1024 : ℕ) / 8 = 128 := rfl
  have h3 : (0x50 ||| UInt8.ofNat 10 : UInt8) = 0x5a := by decide
  simp only [encodeSkey, encGen, h1, h2, h3]
  rw [if_neg (by norm_num)]

theorem decodeSkey_nine (sk : Mem UInt8) (o : FgF) (h : sk 0 = 0x59) :
    decodeSkey 9 sk o = (true, decGen decode6 4 3 128 512 sk o) := by
  unfold decodeSkey
  rw [if_neg (by rw [h]; decide), if_pos rfl]; rfl

theorem decodeSkey_ten (sk : Mem UInt8) (o : FgF) (h : sk 0 = 0x5a) :
    decodeSkey 10 sk o = (true, decGen decode5 8 5 128 1024 sk o) := by
  unfold decodeSkey
  rw [if_neg (by rw [h]; decide), if_neg (by norm_num)]; rfl

theorem encGen_spec {w : ℤ} {S s : ℕ} {e d B C} (hc : BlockCodec w S s e d B C) (c N : ℕ)
    (hdr : UInt8) (f g F : Mem Int) (sk : Mem UInt8) :
    let out := encGen e S s c N hdr f g F sk
    out 0 = hdr ∧
    (∀ b, b < c → ∀ r, r < s → out (1 + s * b + r) = B (fun i => f (S * b + i)) r) ∧
    (∀ b, b < c → ∀ r, r < s → out (1 + s * c + s * b + r) = B (fun i => g (S * b + i)) r) ∧
    (∀ i, i < N → out (1 + s * c + s * c + i) = toU8 (F i)) ∧
    (∀ j, 1 + s * c + s * c + N ≤ j → out j = sk j) := by
  intro out
  have h1 := loop_blocks s 1 hc.s_pos (fun b skey => e f (S * b) (1 + s * b) skey)
    (fun b r => B (fun i => f (S * b + i)) r) (fun b m r hr => hc.e_in _ _ _ _ _ hr)
    (fun b m j hj => hc.e_out _ _ _ _ _ hj) c (upd sk 0 hdr)
  set m1 := loop c (fun b skey => e f (S * b) (1 + s * b) skey) (upd sk 0 hdr)
  have h2 := loop_blocks s (1 + s * c) hc.s_pos (fun b skey => e g (S * b) (1 + s * c + s * b) skey)
    (fun b r => B (fun i => g (S * b + i)) r) (fun b m r hr => hc.e_in _ _ _ _ _ hr)
    (fun b m j hj => hc.e_out _ _ _ _ _ hj) c m1
  set m2 := loop c (fun b skey => e g (S * b) (1 + s * c + s * b) skey) m1
  have h3 := loop_blocks 1 (1 + s * c + s * c) one_pos
    (fun i skey => upd skey (1 + s * c + s * c + i) (toU8 (F i)))
    (fun b _ => toU8 (F b))
    (by
      intro b m r hr
      have : r = 0 := by omega
      subst this
      simp only [one_mul, add_zero, upd_same])
    (by
      intro b m j hj
      have := hj 0 one_pos
      exact upd_ne _ _ _ _ (by omega)) N m2
  have hout : out = loop N (fun i skey => upd skey (1 + s * c + s * c + i) (toU8 (F i))) m2 := rfl
  rw [hout]
  have hbd : ∀ b, b < c → s * b + s ≤ s * c := fun b hb => by
    calc s * b + s = s * (b + 1) := by ring
      _ ≤ s * c := Nat.mul_le_mul_left _ (by omega)
  refine ⟨?_, ?_, ?_, ?_, ?_⟩
  · rw [h3.2 _ (by omega), h2.2 _ (by omega), h1.2 _ (by omega), upd_same]
  · intro b hb r hr
    have := hbd b hb
    rw [h3.2 _ (by omega), h2.2 _ (by omega), h1.1 b hb r hr]
  · intro b hb r hr
    have := hbd b hb
    rw [h3.2 _ (by omega), h2.1 b hb r hr]
  · intro i hi
    have := h3.1 i hi 0 one_pos
    simpa using this
  · intro j hj
    rw [h3.2 _ (by omega), h2.2 _ (by omega), h1.2 _ (by omega), upd_ne _ _ _ _ (by omega)]

theorem decGen_spec {w : ℤ} {S s : ℕ} {e d B C} (hc : BlockCodec w S s e d B C) (c N : ℕ)
    (sk : Mem UInt8) (o : FgF) :
    let out := decGen d S s c N sk o
    (∀ b, b < c → ∀ r, r < S → out.f (S * b + r) = C (fun i => sk (1 + s * b + i)) r) ∧
    (∀ b, b < c → ∀ r, r < S → out.g (S * b + r) = C (fun i => sk (1 + s * c + s * b + i)) r) ∧
    (∀ i, i < N → out.F i = unwrapCoeff 256 ((sk (1 + s * c + s * c + i)).toNat : ℕ)) ∧
    (∀ j, S * c ≤ j → out.f j = o.f j ∧ out.g j = o.g j) ∧ (∀ j, N ≤ j → out.F j = o.F j) := by
  intro out
  have h1 := loop_blocks S 0 hc.S_pos (fun b f => d sk (1 + s * b) (S * b) f)
    (fun b r => C (fun i => sk (1 + s * b + i)) r)
    (fun b m r hr => by rw [zero_add]; exact hc.d_in _ _ _ _ _ hr)
    (fun b m j hj => hc.d_out _ _ _ _ _ (fun r hr => by have := hj r hr; omega)) c o.f
  have h2 := loop_blocks S 0 hc.S_pos (fun b f => d sk (1 + s * c + s * b) (S * b) f)
    (fun b r => C (fun i => sk (1 + s * c + s * b + i)) r)
    (fun b m r hr => by rw [zero_add]; exact hc.d_in _ _ _ _ _ hr)
    (fun b m j hj => hc.d_out _ _ _ _ _ (fun r hr => by have := hj r hr; omega)) c o.g
  have h3 := loop_fill N (fun i => unwrapCoeff 256 ((sk (1 + s * c + s * c + i)).toNat : ℕ)) o.F
  refine ⟨?_, ?_, ?_, ?_, ?_⟩
  · intro b hb r hr
    have := h1.1 b hb r hr
    rwa [zero_add] at this
  · intro b hb r hr
    have := h2.1 b hb r hr
    rwa [zero_add] at this
  · intro i hi
    have := h3 i
    rwa [if_pos hi] at this
  · intro j hj
    exact ⟨h1.2 j (by omega), h2.2 j (by omega)⟩
  · intro j hj
    have := h3 j
    rwa [if_neg (by omega)] at this

theorem unwrap_toU8 {x : ℤ} (h1 : -128 ≤ x) (h2 : x < 128) :
    unwrapCoeff 256 ((toU8 x).toNat : ℕ) = x := by
  have : ((toU8 x).toNat : ℤ) = x % 256 := by
    unfold toU8
    simp only [UInt8.toNat_ofNat']
    omega
  rw [this]
  exact unwrapCoeff_emod (by norm_num) (by norm_num) h1 h2

theorem toU8_unwrap (x : UInt8) : toU8 (unwrapCoeff 256 (x.toNat : ℕ)) = x := by
  have hx := x.toNat_lt
  unfold toU8
  rw [unwrapCoeff_mod (by norm_num) (by omega) (by omega)]
  simp

theorem skGen_roundtrip {w : ℤ} {S s : ℕ} {e d B C} (hc : BlockCodec w S s e d B C) (c : ℕ)
    (hdr : UInt8) (f g F : Mem Int) (sk : Mem UInt8) (o : FgF)
    (hf : ∀ i, i < S * c → -(w / 2) ≤ f i ∧ f i < w / 2)
    (hg : ∀ i, i < S * c → -(w / 2) ≤ g i ∧ g i < w / 2)
    (hF : ∀ i, i < S * c → -128 ≤ F i ∧ F i < 128) :
    let out := decGen d S s c (S * c) (encGen e S s c (S * c) hdr f g F sk) o
    ∀ i, i < S * c → out.f i = f i ∧ out.g i = g i ∧ out.F i = F i := by
  intro out i hi
  obtain ⟨-, ef, eg, eF, -⟩ := encGen_spec hc c (S * c) hdr f g F sk
  obtain ⟨df, dg, dF, -, -⟩ := decGen_spec hc c (S * c) (encGen e S s c (S * c) hdr f g F sk) o
  obtain ⟨b, r, hb, hr, hbr⟩ := eq_block (off := 0) hc.S_pos (Nat.zero_le i) (by omega : i < 0 + S * c)
  rw [zero_add] at hbr
  have hbd : S * b + S ≤ S * c := by
    calc S * b + S = S * (b + 1) := by ring
      _ ≤ S * c := Nat.mul_le_mul_left _ (by omega)
  refine ⟨?_, ?_, ?_⟩
  · rw [hbr]
    show (decGen d S s c (S * c) _ o).f (S * b + r) = _
    rw [df b hb r hr, hc.C_congr _ _ (fun i hi => ef b hb i hi) r hr,
      hc.C_B _ (fun i hi => hf _ (by omega)) r hr]
  · rw [hbr]
    show (decGen d S s c (S * c) _ o).g (S * b + r) = _
    rw [dg b hb r hr, hc.C_congr _ _ (fun i hi => eg b hb i hi) r hr,
      hc.C_B _ (fun i hi => hg _ (by omega)) r hr]
  · show (decGen d S s c (S * c) _ o).F i = _
    rw [dF i hi, eF i hi, unwrap_toU8 (hF i hi).1 (hF i hi).2]

theorem skGen_range {w : ℤ} {S s : ℕ} {e d B C} (hc : BlockCodec w S s e d B C) (c : ℕ)
    (sk : Mem UInt8) (o : FgF) :
    let out := decGen d S s c (S * c) sk o
    ∀ i, i < S * c → (-(w / 2) ≤ out.f i ∧ out.f i < w / 2) ∧ (-(w / 2) ≤ out.g i ∧ out.g i < w / 2) ∧
      (-128 ≤ out.F i ∧ out.F i < 128) := by
  intro out i hi
  obtain ⟨df, dg, dF, -, -⟩ := decGen_spec hc c (S * c) sk o
  obtain ⟨b, r, hb, hr, hbr⟩ := eq_block (off := 0) hc.S_pos (Nat.zero_le i) (by omega : i < 0 + S * c)
  rw [zero_add] at hbr
  refine ⟨?_, ?_, ?_⟩
  · rw [hbr]
    show -(w / 2) ≤ (decGen d S s c (S * c) _ o).f (S * b + r) ∧
      (decGen d S s c (S * c) _ o).f (S * b + r) < _
    rw [df b hb r hr]; exact hc.C_range _ r hr
  · rw [hbr]
    show -(w / 2) ≤ (decGen d S s c (S * c) _ o).g (S * b + r) ∧
      (decGen d S s c (S * c) _ o).g (S * b + r) < _
    rw [dg b hb r hr]; exact hc.C_range _ r hr
  · show -128 ≤ (decGen d S s c (S * c) _ o).F i ∧ (decGen d S s c (S * c) _ o).F i < 128
    rw [dF i hi]
    have := (sk (1 + s * c + s * c + i)).toNat_lt
    exact unwrapCoeff_range (w := 256) (by norm_num) (by norm_num) (by omega) (by omega)

theorem skGen_reencode {w : ℤ} {S s : ℕ} {e d B C} (hc : BlockCodec w S s e d B C) (c : ℕ)
    (sk sk' : Mem UInt8) (o : FgF) :
    let out := decGen d S s c (S * c) sk o
    ∀ j, j < 1 + s * c + s * c + S * c →
      encGen e S s c (S * c) (sk 0) out.f out.g out.F sk' j = sk j := by
  intro out j hj
  obtain ⟨df, dg, dF, -, -⟩ := decGen_spec hc c (S * c) sk o
  obtain ⟨e0, ef, eg, eF, -⟩ := encGen_spec hc c (S * c) (sk 0) out.f out.g out.F sk'
  by_cases h0 : j = 0
  · subst h0; exact e0
  by_cases h1 : j < 1 + s * c
  · obtain ⟨b, r, hb, hr, rfl⟩ := eq_block hc.s_pos (by omega : 1 ≤ j) h1
    rw [ef b hb r hr, hc.B_congr _ _ (fun i hi => df b hb i hi) r hr, hc.B_C _ r hr]
  by_cases h2 : j < 1 + s * c + s * c
  · obtain ⟨b, r, hb, hr, rfl⟩ := eq_block hc.s_pos (by omega : 1 + s * c ≤ j) h2
    rw [eg b hb r hr, hc.B_congr _ _ (fun i hi => dg b hb i hi) r hr, hc.B_C _ r hr]
  · have : j = 1 + s * c + s * c + (j - (1 + s * c + s * c)) := by omega
    rw [this, eF _ (by omega), dF _ (by omega), toU8_unwrap]

/-! ### Positional layout -/

theorem block_sum (X Y s S : ℕ) (hXY : X ^ s = Y ^ S) (p a : ℕ → ℕ) (c : ℕ)
    (h : ∀ b, b < c → ∑ r ∈ Finset.range s, p (s * b + r) * X ^ r =
      ∑ r ∈ Finset.range S, a (S * b + r) * Y ^ r) :
    ∑ j ∈ Finset.range (s * c), p j * X ^ j = ∑ i ∈ Finset.range (S * c), a i * Y ^ i := by
  induction c with
  | zero => simp
  | succ c ih =>
    rw [Nat.mul_succ, Nat.mul_succ, Finset.sum_range_add, Finset.sum_range_add,
      ih (fun b hb => h b (by omega))]
    congr 1
    have e1 : ∀ r, p (s * c + r) * X ^ (s * c + r) = X ^ (s * c) * (p (s * c + r) * X ^ r) := by
      intro r; rw [pow_add]; ring
    have e2 : ∀ r, a (S * c + r) * Y ^ (S * c + r) = Y ^ (S * c) * (a (S * c + r) * Y ^ r) := by
      intro r; rw [pow_add]; ring
    simp only [e1, e2, ← Finset.mul_sum]
    rw [h c (by omega), pow_mul, pow_mul, hXY]

theorem pk_block_sum (h0 h1 h2 h3 : UInt16) (b0 : h0.toNat < 16384) (b1 : h1.toNat < 16384)
    (b2 : h2.toNat < 16384) (b3 : h3.toNat < 16384) :
    ∑ r ∈ Finset.range 7, (pkByte h0 h1 h2 h3 r).toNat * 256 ^ r =
      h0.toNat + h1.toNat * 16384 + h2.toNat * 16384 ^ 2 + h3.toNat * 16384 ^ 3 := by
  obtain ⟨p0, p1, p2, p3, p4, p5, p6⟩ := pkByte_toNat h0 h1 h2 h3 b0 b1 b2 b3
  simp only [Finset.sum_range_succ, Finset.sum_range_zero, p0, p1, p2, p3, p4, p5, p6]
  clear p0 p1 p2 p3 p4 p5 p6
  norm_num
  omega

theorem sk6_block_sum (x : ℕ → ℤ) (hx : ∀ i, i < 4 → -32 ≤ x i ∧ x i < 32) :
    ∑ r ∈ Finset.range 3, (sk6Byte x r).toNat * 256 ^ r =
      ∑ r ∈ Finset.range 4, (x r % 64).toNat * 64 ^ r := by
  have hw : ∀ i, i < 4 → (wrapCoeff 64 (x i)).toNat = (x i % 64).toNat := fun i hi => by
    have := wrapCoeff_toNat (w := 64) (by norm_num) (by norm_num) (by norm_num)
      (by have := hx i hi; omega) (by have := hx i hi; omega : x i < _)
    omega
  have hb : ∀ i, i < 4 → (x i % 64).toNat < 64 := fun i _ => by omega
  obtain ⟨p0, p1, p2⟩ := sk6Byte_toNat x _ hw hb
  simp only [Finset.sum_range_succ, Finset.sum_range_zero, p0, p1, p2]
  have b0 := hb 0 (by norm_num); have b1 := hb 1 (by norm_num); have b2 := hb 2 (by norm_num)
  have b3 := hb 3 (by norm_num)
  clear p0 p1 p2 hx hw hb
  generalize (x 0 % 64).toNat = y0 at *
  generalize (x 1 % 64).toNat = y1 at *
  generalize (x 2 % 64).toNat = y2 at *
  generalize (x 3 % 64).toNat = y3 at *
  norm_num
  omega

theorem sk5_block_sum (x : ℕ → ℤ) (hx : ∀ i, i < 8 → -16 ≤ x i ∧ x i < 16) :
    ∑ r ∈ Finset.range 5, (sk5Byte x r).toNat * 256 ^ r =
      ∑ r ∈ Finset.range 8, (x r % 32).toNat * 32 ^ r := by
  have hw : ∀ i, i < 8 → (wrapCoeff 32 (x i)).toNat = (x i % 32).toNat := fun i hi => by
    have := wrapCoeff_toNat (w := 32) (by norm_num) (by norm_num) (by norm_num)
      (by have := hx i hi; omega) (by have := hx i hi; omega : x i < _)
    omega
  have hb : ∀ i, i < 8 → (x i % 32).toNat < 32 := fun i _ => by omega
  obtain ⟨p0, p1, p2, p3, p4⟩ := sk5Byte_toNat x _ hw hb
  simp only [Finset.sum_range_succ, Finset.sum_range_zero, p0, p1, p2, p3, p4]
  have b0 := hb 0 (by norm_num); have b1 := hb 1 (by norm_num); have b2 := hb 2 (by norm_num)
  have b3 := hb 3 (by norm_num); have b4 := hb 4 (by norm_num); have b5 := hb 5 (by norm_num)
  have b6 := hb 6 (by norm_num); have b7 := hb 7 (by norm_num)
  clear p0 p1 p2 p3 p4 hx hw hb
  generalize (x 0 % 32).toNat = y0 at *
  generalize (x 1 % 32).toNat = y1 at *
  generalize (x 2 % 32).toNat = y2 at *
  generalize (x 3 % 32).toNat = y3 at *
  generalize (x 4 % 32).toNat = y4 at *
  generalize (x 5 % 32).toNat = y5 at *
  generalize (x 6 % 32).toNat = y6 at *
  generalize (x 7 % 32).toNat = y7 at *
  norm_num
  omega

theorem sk6_layout (E : Mem UInt8) (x : Mem Int) (o c : ℕ)
    (hx : ∀ i, i < 4 * c → -32 ≤ x i ∧ x i < 32)
    (hb : ∀ b, b < c → ∀ r, r < 3 → E (o + 3 * b + r) = sk6Byte (fun i => x (4 * b + i)) r) :
    ∑ j ∈ Finset.range (3 * c), (E (o + j)).toNat * 256 ^ j =
      ∑ i ∈ Finset.range (4 * c), (x i % 64).toNat * 64 ^ i := by
  refine block_sum 256 64 3 4 (by norm_num) (fun j => (E (o + j)).toNat)
    (fun i => (x i % 64).toNat) c ?_
  intro b hb'
  have := sk6_block_sum (fun i => x (4 * b + i)) (fun i hi => hx _ (by omega))
  rw [Finset.sum_congr rfl (g := fun r => (sk6Byte (fun i => x (4 * b + i)) r).toNat * 256 ^ r)]
  · exact this
  · intro r hr
    rw [← hb b hb' r (Finset.mem_range.mp hr), add_assoc]

theorem sk5_layout (E : Mem UInt8) (x : Mem Int) (o c : ℕ)
    (hx : ∀ i, i < 8 * c → -16 ≤ x i ∧ x i < 16)
    (hb : ∀ b, b < c → ∀ r, r < 5 → E (o + 5 * b + r) = sk5Byte (fun i => x (8 * b + i)) r) :
    ∑ j ∈ Finset.range (5 * c), (E (o + j)).toNat * 256 ^ j =
      ∑ i ∈ Finset.range (8 * c), (x i % 32).toNat * 32 ^ i := by
  refine block_sum 256 32 5 8 (by norm_num) (fun j => (E (o + j)).toNat)
    (fun i => (x i % 32).toNat) c ?_
  intro b hb'
  have := sk5_block_sum (fun i => x (8 * b + i)) (fun i hi => hx _ (by omega))
  rw [Finset.sum_congr rfl (g := fun r => (sk5Byte (fun i => x (8 * b + i)) r).toNat * 256 ^ r)]
  · exact this
  · intro r hr
    rw [← hb b hb' r (Finset.mem_range.mp hr), add_assoc]

end Falcon
