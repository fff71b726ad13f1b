import Verif.GaussSpec
import Verif.Model.Sampler
import Verif.Proofs.SamplerArr
import Mathlib.Data.Fin.Tuple.Basic
import Mathlib.Algebra.BigOperators.Ring.Finset
import Mathlib.Algebra.BigOperators.Field

/-! # Programs reading bytes from a stream, as decision trees, and their mean over uniform byte strings -/

namespace Falcon

/-- A program that reads bytes one after the other and returns a value. -/
inductive BTree (α : Type) where
  | ret (a : α) : BTree α
  | read (f : UInt8 → BTree α) : BTree α

namespace BTree

variable {α β : Type}

/-- Result and position after the bytes read. -/
def run : BTree α → (ℕ → UInt8) → ℕ → α × ℕ
  | ret a, _, p => (a, p)
  | read f, s, p => run (f (s p)) s (p + 1)

/-- Sequence. -/
def bind : BTree α → (α → BTree β) → BTree β
  | ret a, k => k a
  | read f, k => read fun b => bind (f b) k

/-- At most `n` bytes are read. -/
inductive Depth : BTree α → ℕ → Prop
  | ret (a : α) (n : ℕ) : Depth (ret a) n
  | read (f : UInt8 → BTree α) (n : ℕ) (h : ∀ b, Depth (f b) n) : Depth (read f) (n + 1)

/-- Mean of `g` over the results when the bytes are independent and uniform. -/
noncomputable def mean : BTree α → (α → ℝ) → ℝ
  | ret a, g => g a
  | read f, g => (∑ b : UInt8, mean (f b) g) / 256

theorem run_bind (t : BTree α) (k : α → BTree β) (s : ℕ → UInt8) (p : ℕ) :
    run (bind t k) s p = run (k (run t s p).1) s (run t s p).2 := by
  induction t generalizing p with
  | ret a => rfl
  | read f ih => exact ih _ _

theorem mean_bind (t : BTree α) (k : α → BTree β) (g : β → ℝ) :
    mean (bind t k) g = mean t fun a => mean (k a) g := by
  induction t with
  | ret a => rfl
  | read f ih => simp only [bind, mean, ih]

theorem Depth.mono {t : BTree α} {n m : ℕ} (h : Depth t n) (hm : n ≤ m) : Depth t m := by
  induction h generalizing m with
  | ret a n => exact .ret a m
  | read f n _ ih =>
    obtain ⟨m, rfl⟩ : ∃ m', m = m' + 1 := ⟨m - 1, by omega⟩
    exact .read f m fun b => ih b (by omega)

theorem Depth.bind {t : BTree α} {k : α → BTree β} {n m : ℕ} (h : Depth t n) (hk : ∀ a, Depth (k a) m) :
    Depth (bind t k) (n + m) := by
  induction h with
  | ret a n => exact (hk a).mono (by omega)
  | read f n _ ih =>
    rw [show n + 1 + m = (n + m) + 1 by omega]
    exact .read _ _ ih

theorem run_shift (t : BTree α) (s s' : ℕ → UInt8) (p q : ℕ) (h : ∀ i, s (p + i) = s' (q + i)) :
    (run t s p).1 = (run t s' q).1 := by
  induction t generalizing p q with
  | ret a => rfl
  | read f ih =>
    have h0 := h 0
    simp only [Nat.add_zero] at h0
    simp only [run, h0]
    exact ih _ _ _ fun i => by rw [Nat.add_assoc, h, Nat.add_assoc]

theorem card_byte : Fintype.card UInt8 = 256 := by
  have := Fintype.card_congr (⟨fun x => ⟨x.toNat, x.toNat_lt⟩, fun x => UInt8.ofNat x.1, fun x => UInt8.ofNat_toNat,
        fun x => Fin.ext (by show (UInt8.ofNat x.1).toNat = x.1; rw [UInt8.toNat_ofNat']; omega)⟩ : UInt8 ≃ Fin 256)
  rw [this, Fintype.card_fin]

theorem sum_cons (n : ℕ) (F : (Fin (n + 1) → UInt8) → ℝ) :
    ∑ v, F v = ∑ b : UInt8, ∑ v : Fin n → UInt8, F (Fin.cons b v) := by
  rw [← Fintype.sum_prod_type' (f := fun b v => F (Fin.cons b v))]
  refine (Fintype.sum_equiv (Fin.consEquiv fun _ => UInt8) _ _ fun x => ?_).symm
  rfl

theorem memOf_cons_zero (n : ℕ) (b : UInt8) (v : Fin n → UInt8) :
    memOf (Fin.cons b v : Fin (n + 1) → UInt8) 0 = b := by
  unfold memOf
  rw [dif_pos (by omega)]
  rfl

theorem memOf_cons_succ (n : ℕ) (b : UInt8) (v : Fin n → UInt8) (i : ℕ) :
    memOf (Fin.cons b v : Fin (n + 1) → UInt8) (1 + i) = memOf v (0 + i) := by
  unfold memOf
  by_cases h : i < n
  · rw [dif_pos (by omega), dif_pos (by omega)]
    have : (⟨1 + i, by omega⟩ : Fin (n + 1)) = Fin.succ ⟨0 + i, by omega⟩ := Fin.ext (by simp; omega)
    rw [this, Fin.cons_succ]
  · rw [dif_neg (by omega), dif_neg (by omega)]

/-- The mean of a tree is the average over all byte strings of sufficient length. -/
theorem mean_eq {t : BTree α} {n : ℕ} (h : Depth t n) (g : α → ℝ) :
    (∑ v : Fin n → UInt8, g (run t (memOf v) 0).1) / 256 ^ n = mean t g := by
  induction h with
  | ret a n =>
    simp only [run, mean, Finset.sum_const, Finset.card_univ, Fintype.card_pi, card_byte, Finset.prod_const,
      Fintype.card_fin, nsmul_eq_mul]
    push_cast
    field_simp
  | read f n _ ih =>
    rw [sum_cons, mean, pow_succ, ← div_div, Finset.sum_div]
    refine congrArg (· / 256) (Finset.sum_congr rfl fun b _ => ?_)
    rw [← ih b]
    refine congrArg (· / 256 ^ n) (Finset.sum_congr rfl fun v _ => ?_)
    simp only [run, memOf_cons_zero]
    rw [run_shift _ _ (memOf v) _ 0 fun i => memOf_cons_succ n b v i]

theorem freq_eq {t : BTree α} {n : ℕ} (h : Depth t n) (P : α → Prop) [DecidablePred P] :
    freq n (fun s => P (run t s 0).1) = mean t fun a => if P a then 1 else 0 := by
  classical
  rw [← mean_eq h, freq]
  congr 1
  rw [Finset.card_eq_sum_ones, Finset.sum_filter]
  push_cast
  rfl

theorem mean_mono (t : BTree α) {g h : α → ℝ} (hg : ∀ a, g a ≤ h a) : mean t g ≤ mean t h := by
  induction t with
  | ret a => exact hg a
  | read f ih => exact div_le_div_of_nonneg_right (Finset.sum_le_sum fun b _ => ih b) (by norm_num)

theorem mean_const (t : BTree α) (c : ℝ) : mean t (fun _ => c) = c := by
  induction t with
  | ret a => rfl
  | read f ih => simp only [mean, ih, Finset.sum_const, Finset.card_univ, card_byte, nsmul_eq_mul]; norm_num

theorem mean_add (t : BTree α) (g h : α → ℝ) : mean t (fun a => g a + h a) = mean t g + mean t h := by
  induction t with
  | ret a => rfl
  | read f ih => simp only [mean, ih, Finset.sum_add_distrib, add_div]

theorem mean_smul (t : BTree α) (c : ℝ) (g : α → ℝ) : mean t (fun a => c * g a) = c * mean t g := by
  induction t with
  | ret a => rfl
  | read f ih => simp only [mean, ih, ← Finset.mul_sum, mul_div_assoc]

/-! ## Reading a block of bytes -/

/-- Reads `n` bytes into positions `i, i + 1, ...` of `m`. -/
def block : (n i : ℕ) → Mem UInt8 → BTree (Mem UInt8)
  | 0, _, m => ret m
  | n + 1, i, m => read fun b => block n (i + 1) (upd m i b)

theorem run_block (n i : ℕ) (m : Mem UInt8) (s : ℕ → UInt8) (p : ℕ) :
    (run (block n i m) s p).2 = p + n ∧
    ∀ j, (run (block n i m) s p).1 j = if i ≤ j ∧ j < i + n then s (p + (j - i)) else m j := by
  induction n generalizing i m p with
  | zero => exact ⟨rfl, fun j => by rw [if_neg (by omega)]; rfl⟩
  | succ n ih =>
    obtain ⟨h1, h2⟩ := ih (i + 1) (upd m i (s p)) (p + 1)
    refine ⟨by rw [block, run, h1]; omega, fun j => ?_⟩
    rw [block, run, h2]
    by_cases hj : j = i
    · subst hj
      rw [if_neg (by omega), if_pos (by omega), upd, if_pos rfl, Nat.sub_self, Nat.add_zero]
    · by_cases hc : i + 1 ≤ j ∧ j < i + 1 + n
      · rw [if_pos hc, if_pos (by omega), show p + 1 + (j - (i + 1)) = p + (j - i) by omega]
      · rw [if_neg hc, if_neg (by omega), upd, if_neg hj]

theorem depth_block (n i : ℕ) (m : Mem UInt8) : Depth (block n i m) n := by
  induction n generalizing i m with
  | zero => exact .ret _ _
  | succ n ih => exact .read _ _ fun b => ih _ _

end BTree
end Falcon
