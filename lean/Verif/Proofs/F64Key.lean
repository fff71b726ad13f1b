import Verif.Proofs.F64Poison
import Verif.Props.SignDefined

/-!
# Keys generated on IEEE 754 data
-/

namespace Falcon

open Finset

/-- The solver returns a solution for coefficients of the size of a key only after a quotient by (f, g) itself. -/
theorem solve_quot {n : ℕ} (hn : ValidLog n) {f g F G : Mem Int}
    (hf : ∀ i, i < 2 ^ n → |f i| ≤ 19 * (4096 / 2 ^ n)) (hg : ∀ i, i < 2 ^ n → |g i| ≤ 19 * (4096 / 2 ^ n)) {fuel : ℕ} {quot : RedQuot}
    (h : ntruSolve quot fuel n f g = some (.ok (some (F, G)))) :
    ∃ F' G' kr, (∀ i, i < 2 ^ n → |F' i| ≤ 2 ^ 53) ∧ (∀ i, i < 2 ^ n → |G' i| ≤ 2 ^ 53) ∧ quot n f g F' G' = .ok kr := by
  have hN : 0 < 2 ^ n := by positivity
  have hlen : bitLenPair (2 ^ n) f g = 53 := by
    have cv : ∀ x : ℤ, |x| ≤ 19 * (4096 / 2 ^ n) → x.natAbs < 2 ^ 40 := by
      intro x hx
      have : |x| ≤ 152 := hx.trans (by rcases hn with rfl | rfl <;> norm_num)
      rw [Int.abs_eq_natAbs] at this
      omega
    exact bitLenPair_small hN (fun i hi => cv _ (hf i hi)) (fun i hi => cv _ (hg i hi))
  have hex : bitLenPair (2 ^ n) F G < bitLenPair (2 ^ n) f g ∨
      ∃ kr, quot n (scaled (bitLenPair (2 ^ n) f g) f) (scaled (bitLenPair (2 ^ n) f g) g)
        (scaled (bitLenPair (2 ^ n) F G) F) (scaled (bitLenPair (2 ^ n) F G) G) = .ok kr ∧
        ∀ i, i < 2 ^ n → kr i = 0 := by
    obtain ⟨k, rfl⟩ : ∃ k, n = k + 1 := ⟨n - 1, by rcases hn with rfl | rfl <;> rfl⟩
    exact ntruSolve_exit _ _ _ _ _ _ _ h
  rw [hlen, scaled_53, scaled_53] at hex
  have hge := bitLenPair_ge (2 ^ n) F G
  rcases hex with hlt | ⟨kr, hq, -⟩
  · omega
  have hbound := bitLenPair_bound hN F G
  generalize hL : bitLenPair (2 ^ n) F G = L at *
  have sc : ∀ x : ℤ, x.natAbs < 2 ^ L → |x / 2 ^ (L - 53)| ≤ 2 ^ 53 := by
    intro x hx
    have := ediv_bound hge hx
    rw [abs_le]
    omega
  exact ⟨_, _, kr, fun i hi => sc _ (hbound i hi).1, fun i hi => sc _ (hbound i hi).2, hq⟩

theorem fft_low {R C : Type} (A : Arith R C) {n : ℕ} {f f' : Mem Int} (h : ∀ i, i < 2 ^ n → f i = f' i) :
    toCx A n f = toCx A n f' := by
  unfold toCx
  funext i
  rw [one_shiftLeft', loop_fill, loop_fill]
  split
  · rename_i hi; rw [h i hi]
  · rfl

theorem gsSum_low' {R C : Type} (A : Arith R C) {n : ℕ} {f f' g g' : Mem Int}
    (h : ∀ i, i < 2 ^ n → f i = f' i ∧ g i = g' i) (j : ℕ) : gsSum A n f g j = gsSum A n f' g' j := by
  unfold gsSum
  rw [fft_low A fun i hi => (h i hi).1, fft_low A fun i hi => (h i hi).2]

/-- What a finished run on IEEE 754 data implies. -/
structure Key64 (b : Bool) (rm rd : F64.Recover) (n : ℕ) (s : Ntru) : Prop where
  sum : ∀ j, j < 2 ^ n → 1 / 2 ^ 80 ≤ ‖gsSum (ieeeA b) n s.f s.g j‖
  gs : gsTooBig (ieeeA b) n s.f s.g = false
  gram : ∀ j, j < 2 ^ n → 1 ≤ gramAt n s.f s.g j
  eq : NtruEq n s.f s.g s.F s.G
  small : ∀ i, i < 2 ^ n → |s.F i| ≤ 2 ^ 23 ∧ |s.G i| ≤ 2 ^ 23
  norms : GsSmall n s.f s.g

theorem key64 {b : Bool} {rm rd : F64.Recover} (hrd : F64.NoInvention rd) {n : ℕ} (hn : ValidLog n) {fuel : ℕ} {s : Ntru}
    (H : GenOk (redQuot (f64A b rm rd)) (gsTooBig (f64A b rm rd) n) n fuel s) : Key64 b rm rd n s := by
  have hn10 : n ≤ 10 := by rcases hn with rfl | rfl <;> norm_num
  have hf := abs_of_keyRange H.fRange
  have hg := abs_of_keyRange H.gRange
  have up8 : ∀ {a : Mem ℤ}, (∀ i, i < 2 ^ n → |a i| ≤ 19 * (4096 / 2 ^ n)) → ∀ i, i < 2 ^ n → |a i| ≤ 2 ^ 8 := by
    intro a h i hi
    refine (h i hi).trans ?_
    rcases hn with rfl | rfl <;> norm_num
  have up53 : ∀ {a : Mem ℤ}, (∀ i, i < 2 ^ n → |a i| ≤ 19 * (4096 / 2 ^ n)) → ∀ i, i < 2 ^ n → |a i| ≤ 2 ^ 53 := by
    intro a h i hi
    exact (up8 h i hi).trans (by norm_num)
  have cp : ∀ a : Mem ℤ, ∀ i, i < 2 ^ n → loop (1 <<< n) (fun i m => upd m i (a i)) zerosZ i = a i := by
    intro a i hi
    rw [one_shiftLeft', loop_fill, if_pos hi]
  have hden : ∀ j, j < 2 ^ n → denD b (gsSum (ieeeA b) n s.f s.g j) ≠ 0 := by
    obtain ⟨F, G, -, hsol, -⟩ := H.sol
    have cf : ∀ i, i < 2 ^ n → |loop (1 <<< n) (fun i m => upd m i (s.f i)) zerosZ i| ≤ 19 * (4096 / 2 ^ n) :=
      fun i hi => by rw [cp _ i hi]; exact hf i hi
    have cg : ∀ i, i < 2 ^ n → |loop (1 <<< n) (fun i m => upd m i (s.g i)) zerosZ i| ≤ 19 * (4096 / 2 ^ n) :=
      fun i hi => by rw [cp _ i hi]; exact hg i hi
    obtain ⟨F', G', kr, h1, h2, h3⟩ := solve_quot hn cf cg hsol
    intro j hj
    have := redQuot_den hrd hn10 (up53 cf) (up53 cg) h1 h2 h3 j hj
    rwa [gsSum_low' _ (f' := s.f) (g' := s.g) (fun i hi => ⟨cp _ i hi, cp _ i hi⟩) j] at this
  have hsum : ∀ j, j < 2 ^ n → 1 / 2 ^ 80 ≤ ‖gsSum (ieeeA b) n s.f s.g j‖ := by
    intro j hj
    by_contra hlt
    push Not at hlt
    have := gsTooBig_tiny (b := b) (rm := rm) (rd := rd) hn10 (up8 hf) (up8 hg) hden ⟨j, hj, hlt⟩
    rw [H.gs] at this
    cases this
  have hgs : gsTooBig (ieeeA b) n s.f s.g = false := by
    rw [← gsTooBig64 (rm := rm) (rd := rd) hn10 (up8 hf) (up8 hg) hsum]
    exact H.gs
  have hgram : ∀ j, j < 2 ^ n → 1 ≤ gramAt n s.f s.g j := fun j hj => gs_tiny b hn hf hg hgs j hj (hsum j hj)
  have hfit := genOk_fits_of H fun f g F G e eg h => by
    refine solution_small_of (accurate_ieee b) hn (fun i hi => by rw [(e i hi).1]; exact hf i hi)
      (fun i hi => by rw [(e i hi).2]; exact hg i hi) (fun j hj => by rw [eg]; exact hgram j hj) ?_ h
    intro F' G' kr h1 h2 h3
    rw [← h3]
    refine (redQuot64 hn10 (fun i hi => ?_) (fun i hi => ?_) h1 h2 fun j hj => ?_).symm
    · rw [(e i hi).1]; exact up53 hf i hi
    · rw [(e i hi).2]; exact up53 hg i hi
    · rw [gsSum_low' _ e]; exact hsum j hj
  exact ⟨hsum, hgs, hgram, hfit.1, hfit.2, gsSmall_float b hn hf hg hgs fun j hj => le_trans (by norm_num) (hgram j hj)⟩

end Falcon
