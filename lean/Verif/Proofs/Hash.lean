import Verif.Model.Verify
import Verif.VerifySpec
import Mathlib.Data.List.GetD
import Verif.Proofs.Ff
import Verif.Proofs.Ntt

/-! # Proofs about message hashing -/

namespace Falcon

theorem accepted_succ (st : ℕ → UInt8) (M : ℕ) :
    accepted st (M + 1) = accepted st M ++ (if wordAt st M < 61445 then [wordAt st M] else []) := by
  unfold accepted
  rw [List.range_succ, List.map_append, List.filter_append]
  congr 1
  simp only [List.map_cons, List.map_nil, List.filter_cons, List.filter_nil, decide_eq_true_eq]

theorem accepted_prefix (st : ℕ → UInt8) {M M' : ℕ} (h : M ≤ M') :
    ∃ r, accepted st M' = accepted st M ++ r := by
  induction M', h using Nat.le_induction with
  | base => exact ⟨[], by simp⟩
  | succ k _ ih =>
    obtain ⟨r, hr⟩ := ih
    exact ⟨r ++ (if wordAt st k < 61445 then [wordAt st k] else []), by rw [accepted_succ, hr, List.append_assoc]⟩

theorem accepted_getD (st : ℕ → UInt8) {M M' i : ℕ} (h : i < (accepted st M).length)
    (h' : i < (accepted st M').length) : (accepted st M).getD i 0 = (accepted st M').getD i 0 := by
  rcases le_total M M' with hm | hm
  · obtain ⟨r, hr⟩ := accepted_prefix st hm
    rw [hr, List.getD_append _ _ _ _ h]
  · obtain ⟨r, hr⟩ := accepted_prefix st hm
    rw [hr, List.getD_append _ _ _ _ h']

theorem hash_word (a b : UInt8) :
    ((a.toUInt16 <<< 8) ||| (b.toUInt16 <<< 0)).toNat = 256 * a.toNat + b.toNat := by
  have ha := a.toNat_lt; have hb := b.toNat_lt
  have h0 : b.toUInt16 <<< 0 = b.toUInt16 := by
    apply UInt16.toNat_inj.mp; simp
  rw [h0, UInt16.toNat_or, UInt16.toNat_shiftLeft, UInt8.toNat_toUInt16, UInt8.toNat_toUInt16]
  have : a.toNat <<< ((8 : UInt16).toNat % 16) % 2 ^ 16 = a.toNat * 2 ^ 8 := by
    rw [show (8 : UInt16).toNat % 16 = 8 from rfl, Nat.shiftLeft_eq, Nat.mod_eq_of_lt (by omega)]
  rw [this, Nat.mul_comm a.toNat, ← Nat.two_pow_add_eq_or_of_lt (by omega : b.toNat < 2 ^ 8)]

theorem hashBound_toNat : hashBound.toNat = 61445 := by decide +kernel

/-- Invariant of the rejection loops after `M` words. -/
structure HInv (N : ℕ) (st : ℕ → UInt8) (c0 : Mem Ff) (M : ℕ) (s : Mem Ff × ℕ) : Prop where
  idx : s.2 = min N (accepted st M).length
  val : ∀ i, i < s.2 → (s.1 i).v.toNat = (accepted st M).getD i 0 % q
  frame : ∀ i, s.2 ≤ i → s.1 i = c0 i

theorem HInv.step {N : ℕ} {st : ℕ → UInt8} {c0 : Mem Ff} {M : ℕ} {s : Mem Ff × ℕ}
    (h : HInv N st c0 M s) :
    HInv N st c0 (M + 1) (if s.2 < N then
      (if ((st (2 * M)).toUInt16 <<< 8 ||| (st (2 * M + 1)).toUInt16 <<< 0) < hashBound then
        (upd s.1 s.2 (Ff.ofU16 ((st (2 * M)).toUInt16 <<< 8 ||| (st (2 * M + 1)).toUInt16 <<< 0)), s.2 + 1)
       else s) else s) := by
  obtain ⟨h1, h2, h3⟩ := h
  have hw : ((st (2 * M)).toUInt16 <<< 8 ||| (st (2 * M + 1)).toUInt16 <<< 0).toNat = wordAt st M :=
    hash_word _ _
  have hlt : ((st (2 * M)).toUInt16 <<< 8 ||| (st (2 * M + 1)).toUInt16 <<< 0) < hashBound ↔
      wordAt st M < 61445 := by
    rw [UInt16.lt_iff_toNat_lt, hw, hashBound_toNat]
  have hgd : ∀ i, i < s.2 → (accepted st (M + 1)).getD i 0 = (accepted st M).getD i 0 := by
    intro i hi
    rw [accepted_succ, List.getD_append _ _ _ _ (by omega)]
  by_cases hN : s.2 < N
  · rw [if_pos hN]
    have hl : s.2 = (accepted st M).length := by omega
    by_cases ha : wordAt st M < 61445
    · rw [if_pos (hlt.mpr ha)]
      have hlen : (accepted st (M + 1)).length = (accepted st M).length + 1 := by
        rw [accepted_succ, if_pos ha, List.length_append]; rfl
      refine ⟨?_, ?_, ?_⟩
      · simp only; omega
      · intro i hi
        simp only at hi ⊢
        by_cases he : i = s.2
        · subst he
          rw [upd_same, (Ff.ofU16_toNat _), hw, accepted_succ, if_pos ha]
          rw [List.getD_append_right _ _ _ _ (by omega), hl]
          simp
        · rw [upd_ne _ _ _ _ he, hgd i (by omega)]
          exact h2 i (by omega)
      · intro i hi
        simp only at hi ⊢
        rw [upd_ne _ _ _ _ (by omega)]
        exact h3 i (by omega)
    · rw [if_neg (fun h => ha (hlt.mp h))]
      have hlen : (accepted st (M + 1)).length = (accepted st M).length := by
        rw [accepted_succ, if_neg ha, List.append_nil]
      exact ⟨by omega, fun i hi => by rw [hgd i hi]; exact h2 i hi, h3⟩
  · rw [if_neg hN]
    have hlen : (accepted st M).length ≤ (accepted st (M + 1)).length := by
      rw [accepted_succ, List.length_append]; omega
    exact ⟨by omega, fun i hi => by rw [hgd i hi]; exact h2 i hi, h3⟩

theorem HInv.block {N : ℕ} {st : ℕ → UInt8} {c0 : Mem Ff} {blk : ℕ} {s : Mem Ff × ℕ}
    (h : HInv N st c0 (68 * blk) s) :
    HInv N st c0 (68 * (blk + 1)) (hashBlock N (fun i => st (136 * blk + i)) s) := by
  unfold hashBlock
  have := loop_inv (n := 68) (P := fun j s => HInv N st c0 (68 * blk + j) s)
    (f := fun j st' => if st'.2 < N then
      (if ((st (136 * blk + (2 * j + 0))).toUInt16 <<< 8 |||
          (st (136 * blk + (2 * j + 1))).toUInt16 <<< 0) < hashBound then
        (upd st'.1 st'.2 (Ff.ofU16 ((st (136 * blk + (2 * j + 0))).toUInt16 <<< 8 |||
          (st (136 * blk + (2 * j + 1))).toUInt16 <<< 0)), st'.2 + 1)
       else st') else st') (s := s) h (by
    intro j _ t ht
    have := ht.step
    rw [show 2 * (68 * blk + j) = 136 * blk + (2 * j + 0) by ring,
      show 136 * blk + (2 * j + 0) + 1 = 136 * blk + (2 * j + 1) by ring] at this
    exact this)
  exact this

theorem hashLoop_spec (N : ℕ) (st : ℕ → UInt8) (c0 : Mem Ff) (fuel : ℕ) : ∀ (blk : ℕ) (s : Mem Ff × ℕ),
    HInv N st c0 (68 * blk) s →
    (∀ c, hashLoop N st fuel blk s = some c → ∃ M, M ≤ 68 * (blk + fuel) ∧ N ≤ (accepted st M).length ∧
      (∀ i, i < N → (c i).v.toNat = (accepted st M).getD i 0 % q) ∧ ∀ i, N ≤ i → c i = c0 i) ∧
    (N ≤ (accepted st (68 * (blk + fuel))).length → ∃ c, hashLoop N st fuel blk s = some c) := by
  induction fuel with
  | zero =>
    intro blk s h
    unfold hashLoop
    have := h.idx
    by_cases hN : s.2 < N
    · rw [if_pos hN]
      refine ⟨fun c hc => by simp at hc, fun hl => ?_⟩
      rw [Nat.add_zero] at hl; omega
    · rw [if_neg hN]
      refine ⟨fun c hc => ?_, fun _ => ⟨_, rfl⟩⟩
      cases hc
      exact ⟨68 * blk, by omega, by omega, fun i hi => h.val i (by omega), fun i hi => h.frame i (by omega)⟩
  | succ fuel ih =>
    intro blk s h
    unfold hashLoop
    have := h.idx
    by_cases hN : s.2 < N
    · rw [if_pos hN]
      have := ih (blk + 1) _ h.block
      rw [show blk + 1 + fuel = blk + (fuel + 1) by ring] at this
      exact this
    · rw [if_neg hN]
      refine ⟨fun c hc => ?_, fun _ => ⟨_, rfl⟩⟩
      cases hc
      exact ⟨68 * blk, by omega, by omega, fun i hi => h.val i (by omega), fun i hi => h.frame i (by omega)⟩

theorem hinv_init (N : ℕ) (st : ℕ → UInt8) (c0 : Mem Ff) : HInv N st c0 (68 * 0) (c0, 0) :=
  ⟨by simp [accepted], fun i hi => absurd hi (by simp), fun _ _ => rfl⟩

theorem HashPoint.canon {N : ℕ} {st : ℕ → UInt8} {c : Mem Ff} (h : HashPoint N st c) : CanonBelow N c := by
  obtain ⟨M, -, h2⟩ := h
  intro i hi
  unfold Ff.Canonical
  rw [h2 i hi]
  exact Nat.mod_lt _ (by norm_num)

theorem HashPoint.unique {N : ℕ} {st : ℕ → UInt8} {c c' : Mem Ff} (h : HashPoint N st c)
    (h' : HashPoint N st c') : ∀ i, i < N → c i = c' i := by
  obtain ⟨M, h1, h2⟩ := h
  obtain ⟨M', h1', h2'⟩ := h'
  intro i hi
  have : (c i).v.toNat = (c' i).v.toNat := by
    rw [h2 i hi, h2' i hi, accepted_getD st (M := M) (M' := M') (by omega) (by omega)]
  have := UInt16.toNat_inj.mp this
  cases hc : c i; cases hc' : c' i; simp_all

end Falcon
