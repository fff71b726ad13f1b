import Verif.Proofs.SigBits

/-!
# `compress_sig`
-/

namespace Falcon

/-- The buffer holds the bits of `L`, then zeros. -/
def Holds (buf : Mem UInt8) (L : List Bool) : Prop := ∀ i, bitAt buf i = L.getD i false

theorem bind_ok {ε α β : Type} (a : α) (f : α → Except ε β) : (Except.ok a : Except ε α).bind f = f a :=
  rfl

theorem bind_error {ε α β : Type} (e : ε) (f : α → Except ε β) :
    (Except.error e : Except ε α).bind f = .error e := rfl

theorem bind_eq_ok {ε α β : Type} {x : Except ε α} {f : α → Except ε β} {r : β}
    (h : x.bind f = .ok r) : ∃ a, x = .ok a ∧ f a = .ok r := by
  cases x with
  | error e => cases h
  | ok a => exact ⟨a, rfl, h⟩

theorem orBitE_holds {cap : ℕ} {buf : Mem UInt8} {L : List Bool} (h : Holds buf L)
    (hl : L.length < 8 * cap) (b : Bool) (bb : UInt8) (hbb : bb = if b then 1 else 0) :
    ∃ buf', orBitE cap L.length bb buf = .ok buf' ∧ Holds buf' (L ++ [b]) := by
  unfold orBitE
  have e3 : L.length >>> 3 = L.length / 8 := Nat.shiftRight_eq_div_pow _ 3
  have hlt : L.length >>> 3 < cap := by omega
  rw [rdE_ok hlt, bind_ok, wrE_ok hlt]
  refine ⟨_, rfl, ?_⟩
  intro i
  rw [hbb, orBit_bit, h i]
  by_cases hi : i = L.length
  · subst hi; simp
  · rw [decide_eq_false hi]
    by_cases hi' : i < L.length
    · simp [List.getD, hi', List.getElem?_append_left hi']
    · have h1 : L.length ≤ i := by omega
      have h2 : (L ++ [b]).length ≤ i := by simp; omega
      simp only [List.getD, List.getElem?_eq_none h1, List.getElem?_eq_none h2]; simp

theorem orBitE_lt {cap i : ℕ} {b : UInt8} {buf buf' : Mem UInt8} (h : orBitE cap i b buf = .ok buf') :
    i < 8 * cap := by
  have e3 : i >>> 3 = i / 8 := Nat.shiftRight_eq_div_pow _ 3
  unfold orBitE rdE at h
  by_contra hc
  rw [if_neg (by omega)] at h
  cases h

theorem loop_orBitE {cap : ℕ} {buf : Mem UInt8} {L : List Bool} (h : Holds buf L)
    (b : ℕ → Bool) (bb : ℕ → UInt8) (k : ℕ) (hbb : ∀ t, t < k → bb t = if b t then 1 else 0)
    (hl : L.length + k ≤ 8 * cap) :
    ∃ buf', loopE k (fun t buf => orBitE cap (L.length + t) (bb t) buf) buf = .ok buf' ∧
      Holds buf' (L ++ (List.range k).map b) := by
  induction k with
  | zero => exact ⟨buf, rfl, by simpa using h⟩
  | succ k ih =>
    obtain ⟨b1, h1, h2⟩ := ih (fun t ht => hbb t (by omega)) (by omega)
    rw [loopE, h1, bind_ok]
    have hlen : (L ++ (List.range k).map b).length = L.length + k := by simp
    obtain ⟨b2, h3, h4⟩ := orBitE_holds (cap := cap) h2 (by omega) (b k) (bb k) (hbb k (by omega))
    rw [hlen] at h3
    refine ⟨b2, h3, ?_⟩
    rw [List.range_succ, List.map_append, ← List.append_assoc]
    exact h4

theorem codeBits_length (x : ℤ) : (codeBits x).length = 9 + x.natAbs / 128 := by
  simp [codeBits]; omega

theorem codes_length (s : ℕ → ℤ) (N : ℕ) :
    (codes s N).length = ∑ i ∈ Finset.range N, (9 + (s i).natAbs / 128) := by
  induction N with
  | zero => rfl
  | succ N ih => rw [codes, List.length_append, ih, codeBits_length, Finset.sum_range_succ]

theorem compressCoeffE_ok {cap : ℕ} {s : Mem Int} {i : ℕ} {buf : Mem UInt8} {L : List Bool}
    (h : Holds buf L) (hm : s i ≠ -2 ^ 31) (hl : L.length + (codeBits (s i)).length ≤ 8 * cap) :
    ∃ buf', compressCoeffE cap s i (buf, L.length) =
      .ok (buf', (L ++ codeBits (s i)).length) ∧ Holds buf' (L ++ codeBits (s i)) := by
  rw [codeBits_length] at hl
  unfold compressCoeffE
  dsimp only
  obtain ⟨b1, h1, k1⟩ := orBitE_holds (cap := cap) h (by omega) (decide (s i < 0))
    (if s i < 0 then 1 else 0) (by simp)
  rw [h1, bind_ok]
  have ha : absE (s i) = .ok (s i).natAbs := by rw [absE, if_neg hm]
  rw [ha, bind_ok]
  have l1 : (L ++ [decide (s i < 0)]).length = L.length + 1 := by simp
  obtain ⟨b2, h2, k2⟩ := loop_orBitE (cap := cap) k1 (fun t => ((s i).natAbs % 128).testBit (6 - t))
    (fun t => UInt8.ofNat (((s i).natAbs >>> (6 - t)) &&& 1)) 7
    (by
      intro t ht
      have : ((s i).natAbs % 128).testBit (6 - t) = (s i).natAbs.testBit (6 - t) := by
        rw [show (128 : ℕ) = 2 ^ 7 from rfl, Nat.testBit_mod_two_pow]
        simp; omega
      simp only [this, Nat.testBit_eq_decide_div_mod_eq]
      rw [Nat.shiftRight_eq_div_pow, and1]
      rcases Nat.mod_two_eq_zero_or_one ((s i).natAbs / 2 ^ (6 - t)) with e | e <;> rw [e] <;> rfl)
    (by omega)
  rw [l1] at h2
  rw [h2, bind_ok]
  have l2 : (L ++ [decide (s i < 0)] ++ (List.range 7).map
      (fun t => ((s i).natAbs % 128).testBit (6 - t))).length = L.length + 1 + 7 := by simp
  have e7 : (s i).natAbs >>> 7 = (s i).natAbs / 128 := Nat.shiftRight_eq_div_pow _ 7
  rw [e7]
  obtain ⟨b3, h3, k3⟩ := loop_orBitE (cap := cap) k2 (fun _ => false) (fun _ => 0)
    ((s i).natAbs / 128) (by intros; rfl) (by omega)
  rw [l2] at h3
  rw [h3, bind_ok]
  have l3 : (L ++ [decide (s i < 0)] ++ (List.range 7).map
      (fun t => ((s i).natAbs % 128).testBit (6 - t)) ++ (List.range ((s i).natAbs / 128)).map
      (fun _ => false)).length = L.length + 1 + 7 + (s i).natAbs / 128 := by
    simp; omega
  obtain ⟨b4, h4, k4⟩ := orBitE_holds (cap := cap) k3 (by omega) true 1 rfl
  rw [l3] at h4
  rw [h4, bind_ok]
  refine ⟨b4, ?_, ?_⟩
  · rw [List.length_append, codeBits_length]
    congr 2; omega
  · have : L ++ codeBits (s i) = L ++ [decide (s i < 0)] ++ (List.range 7).map
      (fun t => ((s i).natAbs % 128).testBit (6 - t)) ++ (List.range ((s i).natAbs / 128)).map
      (fun _ => false) ++ [true] := by
      simp [codeBits, bits7, List.map_const', List.append_assoc]
    rw [this]; exact k4

/-- The loop is only defined if everything fits. -/
theorem compressCoeffE_inv {cap : ℕ} {s : Mem Int} {i : ℕ} {buf : Mem UInt8} {p : ℕ}
    {st : Mem UInt8 × ℕ} (h : compressCoeffE cap s i (buf, p) = .ok st) :
    s i ≠ -2 ^ 31 ∧ p + (codeBits (s i)).length ≤ 8 * cap ∧ st.2 = p + (codeBits (s i)).length := by
  rw [codeBits_length]
  unfold compressCoeffE at h
  dsimp only at h
  obtain ⟨b1, -, h⟩ := bind_eq_ok h
  obtain ⟨c, hc, h⟩ := bind_eq_ok h
  obtain ⟨b2, -, h⟩ := bind_eq_ok h
  obtain ⟨b3, -, h⟩ := bind_eq_ok h
  obtain ⟨b4, h4, h⟩ := bind_eq_ok h
  have hm : s i ≠ -2 ^ 31 := by
    intro hm
    rw [absE, if_pos hm] at hc; cases hc
  rw [absE, if_neg hm] at hc
  cases hc
  have e7 : (s i).natAbs >>> 7 = (s i).natAbs / 128 := Nat.shiftRight_eq_div_pow _ 7
  have := orBitE_lt h4
  cases h
  refine ⟨hm, by omega, ?_⟩
  dsimp only; omega

theorem compressLoop_ok {cap : ℕ} (s : Mem Int) (N : ℕ) (hm : ∀ i, i < N → s i ≠ -2 ^ 31)
    (hl : (codes s N).length ≤ 8 * cap) :
    ∃ buf, loopE N (compressCoeffE cap s) (fun _ => 0, 0) = .ok (buf, (codes s N).length) ∧
      Holds buf (codes s N) := by
  induction N with
  | zero =>
    refine ⟨fun _ => 0, rfl, ?_⟩
    intro i; simp [bitAt, codes]
  | succ N ih =>
    rw [codes, List.length_append] at hl
    obtain ⟨b, h1, h2⟩ := ih (fun i hi => hm i (by omega)) (by omega)
    rw [loopE, h1, bind_ok]
    exact compressCoeffE_ok h2 (hm N (by omega)) hl

theorem compressLoop_inv {cap : ℕ} (s : Mem Int) (N : ℕ) {st : Mem UInt8 × ℕ}
    (h : loopE N (compressCoeffE cap s) (fun _ => 0, 0) = .ok st) :
    (∀ i, i < N → s i ≠ -2 ^ 31) ∧ (codes s N).length ≤ 8 * cap ∧ st.2 = (codes s N).length := by
  induction N generalizing st with
  | zero => cases h; simp [codes]
  | succ N ih =>
    rw [loopE] at h
    obtain ⟨⟨b, p⟩, h1, h2⟩ := bind_eq_ok h
    obtain ⟨a1, a2, a3⟩ := ih h1
    obtain ⟨c1, c2, c3⟩ := compressCoeffE_inv h2
    rw [codes, List.length_append]
    dsimp only at a3
    refine ⟨?_, by omega, by omega⟩
    intro i hi
    by_cases e : i = N
    · subst e; exact c1
    · exact a1 i (by omega)

theorem compress_copy (c : ℕ) (buf sig : Mem UInt8) (j : ℕ) :
    loop c (fun j sig => upd sig (41 + j) (buf j)) sig j =
      if 41 ≤ j ∧ j < 41 + c then buf (j - 41) else sig j := by
  induction c with
  | zero => rw [loop_zero, if_neg (by omega)]
  | succ c ih =>
    rw [loop_succ]
    by_cases h : j = 41 + c
    · subst h
      rw [upd_same, if_pos (by omega)]; congr 1; omega
    · rw [upd_ne _ _ _ _ h, ih]
      by_cases h2 : 41 ≤ j ∧ j < 41 + c
      · rw [if_pos h2, if_pos (by omega)]
      · rw [if_neg h2, if_neg (by omega)]

theorem bitAt_shift (buf sig : Mem UInt8) (c i : ℕ) (hi : i < 8 * c) :
    bitAt (loop c (fun j sig => upd sig (41 + j) (buf j)) sig) (328 + i) = bitAt buf i := by
  unfold bitAt
  rw [compress_copy, if_pos (by omega), show (328 + i) / 8 - 41 = i / 8 by omega,
    show (328 + i) % 8 = i % 8 by omega]

/-- Everything about `compress_sig` when the codes fit the internal buffer. -/
theorem compressSigE_ok {n : ℕ} (s : Mem Int) (sig : Mem UInt8)
    (hm : ∀ i, i < 2 ^ n → s i ≠ -2 ^ 31)
    (hl : (codes s (2 ^ n)).length ≤ 8 * maxSigBuf n) :
    ∃ out, compressSigE n s sig =
      .ok (decide ((codes s (2 ^ n)).length < 8 * sigLen n - 328), out) ∧
      (∀ j, j < 41 ∨ (sigLen n ≤ j ∧ 41 ≤ sigLen n) → out j = sig j) ∧
      (∀ i, i < 8 * (sigLen n - 41) → bitAt out (328 + i) =
        if (codes s (2 ^ n)).length < 8 * sigLen n - 328 then (codes s (2 ^ n)).getD i false
        else false) := by
  obtain ⟨buf, h1, h2⟩ := compressLoop_ok s (2 ^ n) hm hl
  unfold compressSigE
  dsimp only
  rw [one_shiftLeft', h1, bind_ok]
  dsimp only
  refine ⟨_, rfl, ?_, ?_⟩
  · intro j hj
    rw [compress_copy, if_neg (by omega)]
  · intro i hi
    rw [bitAt_shift _ _ _ _ hi]
    by_cases hc : (codes s (2 ^ n)).length < 8 * sigLen n - 328
    · rw [if_pos hc, if_neg (by omega)]; exact h2 i
    · rw [if_neg hc, if_pos (by omega)]; simp [bitAt]

theorem compressSigE_inv {n : ℕ} (s : Mem Int) (sig : Mem UInt8) {r : Bool × Mem UInt8}
    (h : compressSigE n s sig = .ok r) :
    (∀ i, i < 2 ^ n → s i ≠ -2 ^ 31) ∧ (codes s (2 ^ n)).length ≤ 8 * maxSigBuf n := by
  unfold compressSigE at h
  dsimp only at h
  rw [one_shiftLeft'] at h
  obtain ⟨st, h1, -⟩ := bind_eq_ok h
  obtain ⟨a, b, -⟩ := compressLoop_inv s (2 ^ n) h1
  exact ⟨a, b⟩

end Falcon
