import Verif.Proofs.Ff
import Verif.Model.FfMore
import Mathlib.Algebra.BigOperators.Fin
import Mathlib.Logic.Equiv.Fin.Basic
import Mathlib.Data.Fintype.BigOperators

/-!
# C73, C74: comparison, shift and random generation of field elements
-/

namespace Falcon

open Finset

/-! ## C73 -/

/-- The six comparison operators compare the canonical representatives. -/
theorem C73_order (a b : Ff) :
    (Ff.beq a b = true ↔ a.v.toNat = b.v.toNat) ∧ (Ff.bne a b = true ↔ a.v.toNat ≠ b.v.toNat) ∧
    (Ff.gt a b = true ↔ a.v.toNat > b.v.toNat) ∧ (Ff.ge a b = true ↔ a.v.toNat ≥ b.v.toNat) ∧
    (Ff.lt a b = true ↔ a.v.toNat < b.v.toNat) ∧ (Ff.le a b = true ↔ a.v.toNat ≤ b.v.toNat) := by
  have hb : Ff.beq a b = true ↔ a.v.toNat = b.v.toNat := by
    unfold Ff.beq
    rw [beq_iff_eq, UInt16.toNat_inj, UInt16.xor_eq_zero_iff]
  refine ⟨hb, ?_, ?_, ?_, ?_, ?_⟩
  · unfold Ff.bne
    rw [Bool.not_eq_true', ← Bool.not_eq_true, hb]
  all_goals simp [Ff.gt, Ff.ge, Ff.lt, Ff.le, UInt16.lt_iff_toNat_lt, UInt16.le_iff_toNat_le]

/-- Shifts are defined exactly for amounts below 32. The left shift cuts the product to 16 bits and reduces it; the right
shift divides the representative. Both return canonical elements. -/
theorem C73_shift (a : Ff) (ha : a.Canonical) (l : ℕ) :
    (Ff.shl a l = none ↔ 32 ≤ l) ∧ (Ff.shr a l = none ↔ 32 ≤ l) ∧
    (∀ r, Ff.shl a l = some r → r.Canonical ∧ r.v.toNat = a.v.toNat * 2 ^ l % 2 ^ 16 % q) ∧
    ∀ r, Ff.shr a l = some r → r.Canonical ∧ r.v.toNat = a.v.toNat / 2 ^ l := by
  unfold Ff.shl Ff.shr
  refine ⟨by simp, by simp, fun r h => ?_, fun r h => ?_⟩
  · split at h
    · cases h
      refine ⟨(Ff.ofU16_spec _).1, ?_⟩
      rw [Ff.ofU16_toNat, UInt16.toNat_ofNat']
      norm_num
    · cases h
  · split at h
    · cases h
      refine ⟨(Ff.ofU16_spec _).1, ?_⟩
      have h1 : a.v.toNat / 2 ^ l ≤ a.v.toNat := Nat.div_le_self _ _
      have h2 : a.v.toNat < q := ha
      have hq : q = 12289 := rfl
      rw [Ff.ofU16_toNat, UInt16.toNat_ofNat', Nat.mod_eq_of_lt (a := a.v.toNat / 2 ^ l) (by
        have := a.v.toNat_lt; norm_num at this ⊢; omega), Nat.mod_eq_of_lt (by omega)]
    · cases h

/-- The left shift is multiplication by 2^l in the field as long as the product fits 16 bits ... -/
theorem C73_shift_mul (a : Ff) (ha : a.Canonical) (l : ℕ) (hl : l < 32) (h : a.v.toNat * 2 ^ l < 2 ^ 16) :
    ∃ r, Ff.shl a l = some r ∧ r.v.toNat = a.v.toNat * 2 ^ l % q := by
  cases hr : Ff.shl a l with
  | none => have := (C73_shift a ha l).1.mp hr; omega
  | some r => exact ⟨r, rfl, by rw [((C73_shift a ha l).2.2.1 r hr).2, Nat.mod_eq_of_lt h]⟩

/-- ... and not in general: 8192 << 3 is 0. -/
theorem C73_shift_loses : ∃ a : Ff, a.Canonical ∧ a ≠ Ff.zero ∧ Ff.shl a 3 = some Ff.zero :=
  ⟨⟨8192⟩, by show (8192 : UInt16).toNat < q; decide, by decide, by decide⟩

example : (⟨3⟩ : Ff).Canonical ∧ (⟨3⟩ : Ff).v.toNat * 2 ^ 12 < 2 ^ 16 ∧ Ff.shl ⟨3⟩ 12 = some ⟨12288⟩ :=
  ⟨by show (3 : UInt16).toNat < q; decide, by decide, by decide⟩

/-! ## C74 -/

/-- A finite sequence of 16-bit draws as a stream. -/
def drawsOf {n : ℕ} (d : Fin n → Fin 65536) : ℕ → UInt16 := fun i => if h : i < n then UInt16.ofNat (d ⟨i, h⟩) else 0

theorem randLoop_shift (d : ℕ → UInt16) : ∀ k i, Ff.randLoop d k (i + 1) = Ff.randLoop (fun j => d (j + 1)) k i := by
  intro k
  induction k with
  | zero => intro i; rfl
  | succ k ih => intro i; rw [Ff.randLoop, Ff.randLoop, ih]

theorem randLoop_congr {d e : ℕ → UInt16} : ∀ k i, (∀ j, j < i + k → d j = e j) →
    Ff.randLoop d k i = Ff.randLoop e k i := by
  intro k
  induction k with
  | zero => intro i _; rfl
  | succ k ih =>
    intro i h
    rw [Ff.randLoop, Ff.randLoop, h i (by omega), ih (i + 1) fun j hj => h j (by omega)]

theorem randLoop_cons {n : ℕ} (a : Fin 65536) (d : Fin n → Fin 65536) :
    Ff.randLoop (drawsOf (Fin.cons a d)) (n + 1) 0 =
      if a.val < q then UInt16.ofNat a.val else Ff.randLoop (drawsOf d) n 0 := by
  have h0 : drawsOf (Fin.cons a d) 0 = UInt16.ofNat a.val := by
    unfold drawsOf
    rw [dif_pos (by omega)]
    rfl
  rw [Ff.randLoop, h0, randLoop_shift]
  have hlt : UInt16.ofNat a.val < Q ↔ a.val < q := by
    rw [UInt16.lt_iff_toNat_lt, UInt16.toNat_ofNat', Nat.mod_eq_of_lt a.isLt]
    rfl
  simp only [hlt]
  split
  · rfl
  · refine randLoop_congr n 0 fun j hj => ?_
    unfold drawsOf
    rw [dif_pos (by omega), dif_pos (by omega)]
    rfl

/-- The number of sequences of `n` draws that lead to `x`. -/
def randCount (n x : ℕ) : ℕ := (univ.filter fun d : Fin n → Fin 65536 => (Ff.randLoop (drawsOf d) n 0).toNat = x).card

theorem sum_split {M : ℕ} (x c P : ℕ) (hM : q ≤ M) :
    (∑ a : Fin M, if a.val < q then (if a.val = x then P else 0) else c) = (if x < q then P else 0) + (M - q) * c := by
  generalize q = q at *
  rw [Fin.sum_univ_eq_sum_range (fun a => if a < q then (if a = x then P else 0) else c) M]
  obtain ⟨r, rfl⟩ := Nat.exists_eq_add_of_le hM
  rw [sum_range_add]
  congr 1
  · rw [sum_congr rfl fun a ha => if_pos (mem_range.mp ha), sum_ite_eq']
    simp
  · rw [sum_congr rfl fun a _ => if_neg (by omega), sum_const, card_range, smul_eq_mul, Nat.add_sub_cancel_left]

theorem randCount_succ (n x : ℕ) : randCount (n + 1) x = (if x < q then 65536 ^ n else 0) + (65536 - q) * randCount n x := by
  have hq : q = 12289 := rfl
  unfold randCount
  rw [card_filter, ← (Fin.consEquiv fun _ => Fin 65536).sum_comp, Fintype.sum_prod_type]
  have key : ∀ a : Fin 65536, (∑ d : Fin n → Fin 65536,
      if (Ff.randLoop (drawsOf ((Fin.consEquiv fun _ => Fin 65536) (a, d))) (n + 1) 0).toNat = x then 1 else 0) =
        if a.val < q then (if a.val = x then 65536 ^ n else 0)
        else (univ.filter fun d : Fin n → Fin 65536 => (Ff.randLoop (drawsOf d) n 0).toNat = x).card := by
    intro a
    have e : ∀ d : Fin n → Fin 65536, Ff.randLoop (drawsOf ((Fin.consEquiv fun _ => Fin 65536) (a, d))) (n + 1) 0 =
      if a.val < q then UInt16.ofNat a.val else Ff.randLoop (drawsOf d) n 0 := fun d => randLoop_cons a d
    simp only [e]
    by_cases h : a.val < q
    · simp only [h, if_true]
      have : (UInt16.ofNat a.val).toNat = a.val := by
        rw [UInt16.toNat_ofNat', Nat.mod_eq_of_lt a.isLt]
      rw [this]
      split <;> simp
    · simp only [h, if_false]
      rw [card_filter]
  rw [sum_congr rfl fun a _ => key a]
  generalize (univ.filter fun d : Fin n → Fin 65536 => (Ff.randLoop (drawsOf d) n 0).toNat = x).card = c
  exact sum_split x c (65536 ^ n) (M := 65536) (by rw [hq]; norm_num)

theorem randCount_zero (x : ℕ) : randCount 0 x = if x = 0 then 1 else 0 := by
  unfold randCount
  have : ∀ d : Fin 0 → Fin 65536, (Ff.randLoop (drawsOf d) 0 0).toNat = 0 := fun _ => rfl
  simp only [this]
  by_cases h : x = 0
  · rw [h]; simp
  · rw [if_neg h]; simp [Ne.symm h]

/-- `random` always returns a canonical element. -/
theorem C74_canonical (draws : ℕ → UInt16) : (Ff.random draws).Canonical := by
  have : ∀ k i, (Ff.randLoop draws k i).toNat < q := by
    intro k
    induction k with
    | zero => intro i; show (0 : UInt16).toNat < q; decide
    | succ k ih =>
      intro i
      rw [Ff.randLoop]
      split
      · rename_i h
        exact UInt16.lt_iff_toNat_lt.mp h
      · exact ih _
  exact this _ _

/-- Of the 65536^1024 equally likely sequences of draws, equally many lead to each non-zero element. Zero is the outcome of
(65536 - q)^1024 sequences more: those in which every draw is rejected. -/
theorem C74_uniform : (∀ x y, 0 < x → x < q → 0 < y → y < q → 
      (univ.filter fun d : Fin 1024 → Fin 65536 => (Ff.random (drawsOf d)).v.toNat = x).card =
      (univ.filter fun d : Fin 1024 → Fin 65536 => (Ff.random (drawsOf d)).v.toNat = y).card) ∧
    ∀ x, 0 < x → x < q →
      (univ.filter fun d : Fin 1024 → Fin 65536 => (Ff.random (drawsOf d)).v.toNat = 0).card =
      (univ.filter fun d : Fin 1024 → Fin 65536 => (Ff.random (drawsOf d)).v.toNat = x).card + (65536 - q) ^ 1024 := by
  have e : ∀ x, (univ.filter fun d : Fin 1024 → Fin 65536 => (Ff.random (drawsOf d)).v.toNat = x).card = randCount 1024 x :=
    fun x => rfl
  have h1 : ∀ n x y, 0 < x → x < q → 0 < y → y < q → randCount n x = randCount n y := by
    intro n x y hx hx' hy hy'
    induction n with
    | zero => rw [randCount_zero, randCount_zero, if_neg (by omega), if_neg (by omega)]
    | succ n ih => rw [randCount_succ, randCount_succ, ih, if_pos hx', if_pos hy']
  have h2 : ∀ n x, 0 < x → x < q → randCount n 0 = randCount n x + (65536 - q) ^ n := by
    intro n x hx hx'
    induction n with
    | zero => rw [randCount_zero, randCount_zero, if_pos rfl, if_neg (by omega)]; rfl
    | succ n ih =>
      rw [randCount_succ, randCount_succ, ih, if_pos (by decide), if_pos hx', Nat.mul_add, pow_succ' (65536 - q)]
      ring
  refine ⟨fun x y hx hx' hy hy' => ?_, fun x hx hx' => ?_⟩
  · rw [e, e]; exact h1 _ _ _ hx hx' hy hy'
  · rw [e, e]; exact h2 _ _ hx hx'

end Falcon
