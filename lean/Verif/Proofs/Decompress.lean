import Verif.Proofs.Compress

/-!
# `decompress_sig`: exact characterisation of the accepted strings
-/

namespace Falcon

variable {m : Mem UInt8} {sb lim : ℕ}

/-! ### The tail loop of the unary part -/

theorem unaryTail_sound (hl : sb + 1 ≤ lim) (p : ℕ) :
    ∃ r, unaryTail (rdE lim m) (8 * sb) p = .ok r ∧ p ≤ r ∧ (p < 8 * sb → r ≤ 8 * sb) ∧
      (r < 8 * sb → ∃ j oct, oct.length = 8 ∧ true ∈ oct ∧
        Matches m p (List.replicate (8 * j) false ++ oct) ∧ r = p + 8 * j + 8) := by
  induction hk : 8 * sb - p using Nat.strong_induction_on generalizing p with
  | _ k ih =>
    rw [unaryTail]
    by_cases hp : p < 8 * sb
    · rw [dif_pos hp]
      obtain ⟨v, hv, hf⟩ := nextZeros_ok (m := m) hp hl
      dsimp only
      rw [hv, bind_ok]
      by_cases hc : v < min 8 (8 * sb - p)
      · rw [if_pos hc]
        refine ⟨_, rfl, by omega, by omega, ?_⟩
        intro hr
        have h8 : min 8 (8 * sb - p) = 8 := by omega
        rw [h8] at hc ⊢
        refine ⟨0, (List.range 8).map (fun i => bitAt m (p + i)), by simp, ?_, ?_, by omega⟩
        · rw [List.mem_map]
          exact ⟨v, by simpa using hc, hf.one (by omega)⟩
        · intro i hi
          simp
      · rw [if_neg hc]
        obtain ⟨r, h1, h2, h3, h4⟩ := ih (8 * sb - (p + min 8 (8 * sb - p))) (by omega) _ rfl
        refine ⟨r, h1, by omega, ?_, ?_⟩
        · intro _
          by_cases he : p + min 8 (8 * sb - p) < 8 * sb
          · exact h3 he
          · have : p + min 8 (8 * sb - p) = 8 * sb := by omega
            rw [this, unaryTail, dif_neg (by omega)] at h1
            cases h1; omega
        · intro hr
          obtain ⟨j, oct, ho, hne, hm, hrr⟩ := h4 hr
          clear h4
          have h8 : min 8 (8 * sb - p) = 8 := by omega
          rw [h8] at hm hrr
          refine ⟨j + 1, oct, ho, hne, ?_, by omega⟩
          rw [show 8 * (j + 1) = 8 + 8 * j by ring, List.replicate_add, List.append_assoc,
            Matches.append]
          refine ⟨?_, by simpa using hm⟩
          rw [Matches.replicate]
          intro i hi
          exact hf.zeros i (by omega) (by omega)
    · rw [dif_neg hp]
      exact ⟨p, rfl, le_refl _, by omega, by omega⟩

theorem unaryTail_complete (hl : sb + 1 ≤ lim) (j p : ℕ) (oct : List Bool) (ho : oct.length = 8)
    (hne : true ∈ oct) (hm : Matches m p (List.replicate (8 * j) false ++ oct))
    (hle : p + 8 * j + 8 ≤ 8 * sb) :
    unaryTail (rdE lim m) (8 * sb) p = .ok (p + 8 * j + 8) := by
  induction j generalizing p with
  | zero =>
    rw [unaryTail, dif_pos (by omega)]
    obtain ⟨v, hv, hf⟩ := nextZeros_ok (m := m) (by omega : p < 8 * sb) hl
    dsimp only
    rw [hv, bind_ok]
    have h8 : min 8 (8 * sb - p) = 8 := by omega
    rw [h8] at hf ⊢
    obtain ⟨i, hi, hi'⟩ := List.getElem_of_mem hne
    have hv8 : v < 8 := by
      by_contra hc
      have h1 := hf.zeros i (by omega) (by omega)
      have h2 : bitAt m (p + i) = true := by
        rw [← hi']
        have := hm i (by simpa using hi)
        simpa using this
      rw [h1] at h2; cases h2
    rw [if_pos hv8]
  | succ j ih =>
    rw [unaryTail, dif_pos (by omega)]
    obtain ⟨v, hv, hf⟩ := nextZeros_ok (m := m) (by omega : p < 8 * sb) hl
    dsimp only
    rw [hv, bind_ok]
    have h8 : min 8 (8 * sb - p) = 8 := by omega
    rw [h8] at hf ⊢
    rw [show 8 * (j + 1) = 8 + 8 * j by ring, List.replicate_add, List.append_assoc,
      Matches.append, Matches.replicate] at hm
    have hv8 : ¬ v < 8 := by
      intro hc
      have h1 := hf.one hc
      rw [hm.1 v hc] at h1; cases h1
    rw [if_neg hv8, ih (p + 8) (by simpa using hm.2) (by omega)]
    congr 1; ring

/-! ### One coefficient -/

theorem testBit7 (r : UInt8) : (r >>> 7).toNat = if r.toNat.testBit 7 then 1 else 0 := by
  have := r.toNat_lt
  rw [UInt8.toNat_shiftRight, Nat.testBit_eq_decide_div_mod_eq, Nat.shiftRight_eq_div_pow]
  rw [show ((7 : UInt8).toNat % 8) = 7 from rfl]
  by_cases h : r.toNat / 2 ^ 7 % 2 = 1
  · simp only [h, decide_true, if_true]; omega
  · simp only [h, decide_false, Bool.false_eq_true, if_false]; omega

theorem low7 (r : UInt8) : (r &&& 0x7f).toNat = r.toNat % 128 := by
  rw [UInt8.toNat_and]; exact and127 _

theorem low7_bits {r : UInt8} {p : ℕ} (h : ∀ j, j < 8 → r.toNat.testBit (7 - j) = bitAt m (p + j)) :
    Matches m (p + 1) (bits7 (r.toNat % 128)) := by
  rw [Matches.bits7]
  intro t ht
  rw [show (128 : ℕ) = 2 ^ 7 from rfl, Nat.testBit_mod_two_pow,
    show decide (6 - t < 7) = true by simp; omega, Bool.true_and]
  have := h (t + 1) (by omega)
  rw [show 7 - (t + 1) = 6 - t by omega] at this
  rw [this]; congr 1; ring

/-- What `readCoeff` returns, in terms of bits. -/
theorem readCoeff_run (hl : sb + 2 ≤ lim) {p : ℕ} (hp : p < 8 * sb) :
    ∃ low k, low < 128 ∧ k ≤ 8 ∧ Matches m (p + 1) (bits7 low) ∧
      (∀ j, j < k → bitAt m (p + 8 + j) = false) ∧ (k < 8 → bitAt m (p + 8 + k) = true) ∧
      readCoeff (rdE lim m) (8 * sb) p =
        (if k < 8 then .ok (sval (bitAt m p) (low + 128 * k), (bitAt m p).toNat, p + 8 + k)
         else (unaryTail (rdE lim m) (8 * sb) (p + 16)).bind fun r =>
           .ok (sval (bitAt m p) low, (bitAt m p).toNat, r)) := by
  obtain ⟨r, hr, hb⟩ := extract8_ok (m := m) (p := p) (by omega : p / 8 + 1 < lim)
  obtain ⟨t, ht, hb'⟩ := extract8_ok (m := m) (p := p + 8) (by omega : (p + 8) / 8 + 1 < lim)
  obtain ⟨c1, c2, c3⟩ := clz8_spec t
  refine ⟨r.toNat % 128, clz8 t, Nat.mod_lt _ (by norm_num), c1, low7_bits hb, ?_, ?_, ?_⟩
  · intro j hj; rw [← hb' j (by omega)]; exact c2 j hj
  · intro h; rw [← hb' _ h]; exact c3 h
  · have hs : (r >>> 7).toNat = (bitAt m p).toNat := by
      have := hb 0 (by norm_num)
      rw [testBit7, show (7 : ℕ) = 7 - 0 from rfl, this, add_zero]
      cases bitAt m p <;> rfl
    have hv : ∀ v : ℕ, (if (bitAt m p).toNat = 1 then -(v : ℤ) else v) = sval (bitAt m p) v := by
      intro v; unfold sval; cases bitAt m p <;> simp
    unfold readCoeff
    rw [hr, bind_ok]
    dsimp only
    rw [ht, bind_ok, hs, low7]
    by_cases hk : clz8 t < 8
    · rw [if_pos hk, if_pos hk, hv]
      rfl
    · rw [if_neg hk, if_neg hk]
      have : clz8 t = 8 := by omega
      rw [this, show p + 8 + 8 = p + 16 by ring]
      simp only [hv]

/-- A chunk for `x` at bit `p`, ending at `e`. -/
def ChunkAt (m : Mem UInt8) (p : ℕ) (x : ℤ) (e : ℕ) : Prop :=
  ∃ c, Chunk x c ∧ Matches m p c ∧ e = p + c.length

theorem Chunk.length_pos {x : ℤ} {c : List Bool} (h : Chunk x c) : 0 < c.length := by
  cases h <;> simp

theorem readCoeff_sound (hl : sb + 2 ≤ lim) {p : ℕ} (hp : p < 8 * sb) :
    ∃ x sg nxt, readCoeff (rdE lim m) (8 * sb) p = .ok (x, sg, nxt) ∧ p + 8 ≤ nxt ∧
      (nxt + 1 < 8 * sb → ¬ (x = 0 ∧ sg = 1) → ChunkAt m p x (nxt + 1)) := by
  obtain ⟨low, k, h1, h2, h3, h4, h5, h6⟩ := readCoeff_run (m := m) hl hp
  rw [h6]
  by_cases hk : k < 8
  · rw [if_pos hk]
    refine ⟨_, _, _, rfl, by omega, ?_⟩
    intro _ hz
    refine ⟨_, Chunk.short (bitAt m p) low k h1 hk ?_, ?_, ?_⟩
    · rintro ⟨e1, e2⟩
      exact hz ⟨by rw [e2]; simp [sval], by rw [e1]; rfl⟩
    · rw [Matches.cons, Matches.append, Matches.append, Matches.single, Matches.replicate]
      refine ⟨rfl, ⟨h3, ?_⟩, ?_⟩
      · intro j hj; rw [← h4 j hj]; congr 1
      · rw [← h5 hk]; congr 1; simp; ring
    · simp; ring
  · rw [if_neg hk]
    obtain ⟨r, u1, u2, u3, u4⟩ := unaryTail_sound (m := m) (by omega : sb + 1 ≤ lim) (p + 16)
    rw [u1, bind_ok]
    refine ⟨_, _, _, rfl, by omega, ?_⟩
    intro hr hz
    obtain ⟨j, oct, ho, hne, hm, rfl⟩ := u4 (by omega)
    have h16 : k = 8 := by omega
    subst h16
    refine ⟨_, Chunk.long (bitAt m p) low j oct (bitAt m (p + 16 + 8 * j + 8)) h1 ?_ ho hne, ?_, ?_⟩
    · rintro ⟨e1, e2⟩
      exact hz ⟨by rw [e2]; simp [sval], by rw [e1]; rfl⟩
    · rw [Matches.append] at hm
      rw [Matches.cons, Matches.append, Matches.append, Matches.append, Matches.single,
        List.replicate_add, Matches.append, Matches.replicate]
      refine ⟨rfl, ⟨⟨h3, ?_, ?_⟩, ?_⟩, ?_⟩
      · intro i hi; rw [← h4 i hi]; congr 1
      · simpa [add_assoc] using hm.1
      · have := hm.2
        simp only [List.length_replicate] at this
        simp only [List.length_append, bits7_length, List.length_replicate]
        rw [show p + 1 + (7 + (8 + 8 * j)) = p + 16 + 8 * j by ring]
        exact this
      · simp only [List.length_append, bits7_length, List.length_replicate, ho]
        congr 1; ring
    · simp [ho]; ring

theorem readCoeff_complete (hl : sb + 2 ≤ lim) {p : ℕ} {x : ℤ} {c : List Bool} (hc : Chunk x c)
    (hm : Matches m p c) (hle : p + c.length ≤ 8 * sb) :
    ∃ sg, readCoeff (rdE lim m) (8 * sb) p = .ok (x, sg, p + c.length - 1) ∧ ¬ (x = 0 ∧ sg = 1) := by
  have hpos := hc.length_pos
  obtain ⟨low', k', h1, h2, h3, h4, h5, h6⟩ := readCoeff_run (m := m) hl (by omega : p < 8 * sb)
  rw [h6]
  rw [Matches.bits7] at h3
  cases hc with
  | short neg low k hlo hk hz =>
    rw [Matches.cons, Matches.append, Matches.append, Matches.single, Matches.replicate,
      Matches.bits7] at hm
    obtain ⟨e0, ⟨e1, e2⟩, e3⟩ := hm
    have el : low' = low := eq_of_bits7 h1 hlo (fun t ht => by rw [← h3 t ht, e1 t ht])
    simp only [bits7_length, List.length_append, List.length_replicate] at e2 e3
    have ek : k' = k := by
      rcases Nat.lt_trichotomy k' k with h | h | h
      · have a1 := e2 k' h
        have a2 := h5 (by omega)
        rw [show p + 1 + 7 + k' = p + 8 + k' by ring, a2] at a1; cases a1
      · exact h
      · have a1 := h4 k h
        rw [show p + 1 + (7 + k) = p + 8 + k by ring, a1] at e3; cases e3
    subst el ek
    rw [if_pos hk, e0]
    refine ⟨neg.toNat, ?_, ?_⟩
    · congr 3
      simp; omega
    · rintro ⟨a1, a2⟩
      apply hz
      cases neg
      · cases a2
      · refine ⟨rfl, ?_⟩
        simp only [sval, if_true] at a1
        omega
  | long neg low j oct last hlo hz ho hne =>
    rw [Matches.cons, Matches.append, Matches.append, Matches.append, Matches.single,
      List.replicate_add, Matches.append, Matches.replicate, Matches.bits7] at hm
    obtain ⟨e0, ⟨⟨e1, e2, e3⟩, e4⟩, e5⟩ := hm
    have el : low' = low := eq_of_bits7 h1 hlo (fun t ht => by rw [← h3 t ht, e1 t ht])
    simp only [bits7_length, List.length_append, List.length_replicate, ho] at e2 e3 e4 e5
    have ek : ¬ k' < 8 := by
      intro h
      have a1 := e2 k' h
      have a2 := h5 h
      rw [show p + 1 + 7 + k' = p + 8 + k' by ring, a2] at a1; cases a1
    subst el
    have hlen : (neg :: (bits7 low' ++ List.replicate (8 + 8 * j) false ++ oct ++ [last])).length =
        16 + 8 * j + 9 := by simp [ho]; ring
    rw [hlen] at hle ⊢
    have hmm : Matches m (p + 16) (List.replicate (8 * j) false ++ oct) := by
      rw [Matches.append]
      refine ⟨by simpa [add_assoc] using e3, ?_⟩
      simp only [List.length_replicate]
      rw [show p + 16 + 8 * j = p + 1 + (7 + (8 + 8 * j)) by ring]
      exact e4
    rw [if_neg ek, e0, unaryTail_complete (by omega) j (p + 16) oct ho hne hmm (by omega), bind_ok]
    refine ⟨neg.toNat, ?_, ?_⟩
    · congr 3; omega
    · rintro ⟨a1, a2⟩
      apply hz
      cases neg
      · cases a2
      · refine ⟨rfl, ?_⟩
        simp only [sval, if_true] at a1
        omega

/-! ### The loop over coefficients -/

/-- Chunks for the coefficients `ci, ..., N-1` starting at bit `p` and ending at bit `e`. -/
def ChunksFrom (m : Mem UInt8) (N ci p e : ℕ) (s : ℕ → ℤ) : Prop :=
  ∃ (cs : ℕ → List Bool) (pos : ℕ → ℕ), pos ci = p ∧ pos N = e ∧
    ∀ i, ci ≤ i → i < N → Chunk (s i) (cs i) ∧ Matches m (pos i) (cs i) ∧
      pos (i + 1) = pos i + (cs i).length

theorem decLoop_sound (hl : sb + 2 ≤ lim) (N : ℕ) (d : ℕ) : ∀ ci p poly, N - ci = d → ci ≤ N →
    ∃ st, decLoop (rdE lim m) (8 * sb) N ci p poly = .ok st ∧ p ≤ st.bit_idx ∧ st.coeff_idx ≤ N ∧
      (∀ i, i < ci ∨ N ≤ i → st.poly i = poly i) ∧
      (st.failed = false → st.bit_idx < 8 * sb → st.coeff_idx = N ∧
        ChunksFrom m N ci p st.bit_idx st.poly) := by
  induction d with
  | zero =>
    intro ci p poly hd hci
    rw [decLoop, dif_neg (by omega)]
    have : ci = N := by omega
    subst this
    exact ⟨_, rfl, le_refl _, le_refl _, fun i _ => rfl, fun _ _ => ⟨rfl, fun _ => [], fun _ => p, rfl,
      rfl, fun i h1 h2 => by omega⟩⟩
  | succ d ih =>
    intro ci p poly hd hci
    rw [decLoop]
    by_cases hp : p < 8 * sb
    · rw [dif_pos ⟨by omega, hp⟩]
      obtain ⟨x, sg, nxt, r1, r2, r3⟩ := readCoeff_sound (m := m) hl hp
      rw [r1, bind_ok]
      dsimp only
      by_cases hz : x = 0 ∧ sg = 1
      · rw [if_pos hz]
        exact ⟨_, rfl, by dsimp only; omega, hci, fun i _ => rfl, fun h => by cases h⟩
      · rw [if_neg hz]
        obtain ⟨st, s1, s2, s3, s4, s5⟩ := ih (ci + 1) (nxt + 1) (upd poly ci x) (by omega) (by omega)
        refine ⟨st, s1, by omega, s3, ?_, ?_⟩
        · intro i hi
          rw [s4 i (by omega), upd_ne _ _ _ _ (by omega)]
        · intro hf hb
          obtain ⟨t1, cs, pos, t2, t3, t4⟩ := s5 hf hb
          refine ⟨t1, ?_⟩
          obtain ⟨c, c1, c2, c3⟩ := r3 (by omega) hz
          refine ⟨fun i => if i = ci then c else cs i, fun i => if i = ci then p else pos i,
            by simp, ?_, ?_⟩
          · dsimp only; rw [if_neg (by omega)]; exact t3
          · intro i h1 h2
            by_cases e : i = ci
            · subst e
              have hx : st.poly i = x := by rw [s4 i (by omega), upd_same]
              simp only [if_true]
              rw [hx, if_neg (by omega), t2, c3]
              exact ⟨c1, c2, rfl⟩
            · simp only [if_neg e]
              rw [if_neg (by omega)]
              exact t4 i (by omega) h2
    · rw [dif_neg (by omega)]
      exact ⟨_, rfl, le_refl _, by dsimp only; omega, fun i _ => rfl, fun _ h => by dsimp only at h; omega⟩

theorem ChunksFrom.le {N ci p e : ℕ} {s : ℕ → ℤ} (hci : ci ≤ N) (h : ChunksFrom m N ci p e s) : p ≤ e := by
  obtain ⟨cs, pos, h1, h2, h3⟩ := h
  have : ∀ k, ci ≤ k → k ≤ N → p ≤ pos k := by
    intro k hk hkN
    induction k, hk using Nat.le_induction with
    | base => omega
    | succ k hk ih =>
      have := (h3 k hk (by omega)).2.2
      have := ih (by omega)
      omega
  have := this N hci (le_refl _)
  omega

theorem decLoop_complete (hl : sb + 2 ≤ lim) (N : ℕ) (s : ℕ → ℤ) (e : ℕ) (he : e < 8 * sb) (d : ℕ) :
    ∀ ci p poly, N - ci = d → ci ≤ N → ChunksFrom m N ci p e s →
    ∃ poly', decLoop (rdE lim m) (8 * sb) N ci p poly = .ok ⟨N, e, false, poly'⟩ ∧
      (∀ i, i < ci ∨ N ≤ i → poly' i = poly i) ∧ (∀ i, ci ≤ i → i < N → poly' i = s i) := by
  induction d with
  | zero =>
    intro ci p poly hd hci hch
    have : ci = N := by omega
    subst this
    obtain ⟨cs, pos, t2, t3, -⟩ := hch
    rw [decLoop, dif_neg (by omega)]
    have : p = e := by omega
    subst this
    exact ⟨poly, rfl, fun _ _ => rfl, fun i _ _ => by omega⟩
  | succ d ih =>
    intro ci p poly hd hci hch
    have hpe := hch.le hci
    obtain ⟨cs, pos, t2, t3, t4⟩ := hch
    obtain ⟨c1, c2, c3⟩ := t4 ci (le_refl _) (by omega)
    have hch' : ChunksFrom m N (ci + 1) (p + (cs ci).length) e s :=
      ⟨cs, pos, by rw [c3, t2], t3, fun i h1 h2 => t4 i (by omega) h2⟩
    have hle := hch'.le (by omega)
    rw [t2] at c2
    obtain ⟨sg, r1, r2⟩ := readCoeff_complete hl c1 c2 (by omega)
    rw [decLoop, dif_pos ⟨by omega, by omega⟩, r1, bind_ok]
    dsimp only
    rw [if_neg r2]
    have hpos := c1.length_pos
    rw [show p + (cs ci).length - 1 + 1 = p + (cs ci).length by omega]
    obtain ⟨poly', q1, q2, q3⟩ := ih (ci + 1) (p + (cs ci).length) (upd poly ci (s ci)) (by omega)
      (by omega) hch'
    refine ⟨poly', q1, ?_, ?_⟩
    · intro i hi
      rw [q2 i (by omega), upd_ne _ _ _ _ (by omega)]
    · intro i h1 h2
      by_cases ei : i = ci
      · subst ei
        rw [q2 i (by omega), upd_same]
      · exact q3 i (by omega) h2

/-! ### Trailing bits -/

theorem trailing_spec (hl : sb + 1 ≤ lim) (p : ℕ) (failed : Bool) :
    ∃ r, trailing (rdE lim m) (8 * sb) p failed = .ok r ∧
      (r = false ↔ failed = false ∧ ∀ i, p ≤ i → i < 8 * sb → bitAt m i = false) := by
  induction hk : 8 * sb - p using Nat.strong_induction_on generalizing p failed with
  | _ k ih =>
    rw [trailing]
    by_cases hp : p < 8 * sb
    · rw [dif_pos hp]
      obtain ⟨v, hv, hf⟩ := nextZeros_ok (m := m) hp hl
      dsimp only
      rw [hv, bind_ok]
      set e := min 8 (8 * sb - p) with he
      obtain ⟨r, h1, h2⟩ := ih (8 * sb - (p + e)) (by omega) (p + e) (failed || decide (v < e)) rfl
      refine ⟨r, h1, h2.trans ?_⟩
      rw [Bool.or_eq_false_iff, decide_eq_false_iff_not]
      constructor
      · rintro ⟨⟨a, b⟩, c⟩
        refine ⟨a, fun i h1 h2 => ?_⟩
        by_cases hi : i < p + e
        · have := hf.zeros (i - p) (by omega) (by omega)
          rwa [show p + (i - p) = i by omega] at this
        · exact c i (by omega) h2
      · rintro ⟨a, b⟩
        refine ⟨⟨a, ?_⟩, fun i h1 h2 => b i (by omega) h2⟩
        intro hve
        have := hf.one hve
        rw [b _ (by omega) (by omega)] at this; cases this
    · rw [dif_neg hp]
      refine ⟨failed, rfl, ?_⟩
      constructor
      · intro h; exact ⟨h, fun i _ _ => by omega⟩
      · intro h; exact h.1

theorem BodyOf_iff {N : ℕ} {s : ℕ → ℤ} : BodyOf sb N m s ↔
    ∃ e, ChunksFrom m N 0 328 e s ∧ e < 8 * sb ∧ ∀ i, e ≤ i → i < 8 * sb → bitAt m i = false := by
  constructor
  · rintro ⟨cs, pos, h1, h2, h3, h4⟩
    exact ⟨pos N, ⟨cs, pos, h1, rfl, fun i _ hi => h2 i hi⟩, h3, h4⟩
  · rintro ⟨e, ⟨cs, pos, h1, h2, h3⟩, h4, h5⟩
    exact ⟨cs, pos, h1, fun i hi => h3 i (Nat.zero_le i) hi, by omega, fun i hi => h5 i (by omega)⟩

theorem ChunksFrom.congr {N ci p e : ℕ} {s s' : ℕ → ℤ} (h : ChunksFrom m N ci p e s)
    (hs : ∀ i, ci ≤ i → i < N → s i = s' i) : ChunksFrom m N ci p e s' := by
  obtain ⟨cs, pos, h1, h2, h3⟩ := h
  refine ⟨cs, pos, h1, h2, fun i a b => ?_⟩
  rw [← hs i a b]; exact h3 i a b

/-- The exact behaviour of `decompress_sig` when two bytes behind the signature are readable. -/
theorem decompressSig_exact {n : ℕ} (hl : sigLen n + 2 ≤ lim) (poly : Mem Int) :
    ∃ out, (∀ i, 2 ^ n ≤ i → out i = poly i) ∧
     ((decompressSig n (rdE lim m) poly = .ok (true, out) ∧ BodyOf (sigLen n) (2 ^ n) m out) ∨
      (decompressSig n (rdE lim m) poly = .ok (false, out) ∧ (∀ i, i < 2 ^ n → out i = 0) ∧
        ∀ s, ¬ BodyOf (sigLen n) (2 ^ n) m s)) := by
  obtain ⟨st, h1, h2, h3, h4, h5⟩ := decLoop_sound (m := m) hl (2 ^ n) (2 ^ n) 0 328 poly rfl
    (Nat.zero_le _)
  have hz : ∀ i, loop (2 ^ n) (fun i (p : Mem Int) => upd p i 0) st.poly i =
      if i < 2 ^ n then 0 else st.poly i := fun i => loop_fill (2 ^ n) (fun _ => 0) st.poly i
  unfold decompressSig
  dsimp only
  rw [one_shiftLeft', show 8 + 320 = 328 from rfl, h1, bind_ok]
  have fail : (∀ s, ¬ BodyOf (sigLen n) (2 ^ n) m s) →
      ∃ out, (∀ i, 2 ^ n ≤ i → out i = poly i) ∧
      (out = loop (2 ^ n) (fun i (p : Mem Int) => upd p i 0) st.poly) ∧
        (∀ i, i < 2 ^ n → out i = 0) ∧ ∀ s, ¬ BodyOf (sigLen n) (2 ^ n) m s := by
    intro h
    refine ⟨_, ?_, rfl, ?_, h⟩
    · intro i hi
      rw [hz, if_neg (by omega)]; exact h4 i (by omega)
    · intro i hi
      rw [hz, if_pos hi]
  by_cases hf : (st.failed || decide (st.bit_idx ≥ 8 * sigLen n) || decide (st.coeff_idx < 2 ^ n)) = true
  · have hno : ∀ s, ¬ BodyOf (sigLen n) (2 ^ n) m s := by
      intro s hs
      obtain ⟨e, e1, e2, -⟩ := BodyOf_iff.mp hs
      obtain ⟨poly', q1, -, -⟩ := decLoop_complete (m := m) hl (2 ^ n) s e e2 (2 ^ n) 0 328 poly
        rfl (Nat.zero_le _) e1
      rw [h1] at q1
      cases q1
      simp at hf
      omega
    obtain ⟨out, o1, o2, o3, o4⟩ := fail hno
    refine ⟨out, o1, Or.inr ⟨?_, o3, o4⟩⟩
    rw [hf, o2]
    rfl
  · rw [Bool.not_eq_true] at hf
    rw [hf]
    simp only [Bool.or_eq_false_iff, decide_eq_false_iff_not] at hf
    obtain ⟨⟨f1, f2⟩, f3⟩ := hf
    obtain ⟨-, hch⟩ := h5 f1 (by omega)
    obtain ⟨r, r1, r2⟩ := trailing_spec (m := m) (by omega : sigLen n + 1 ≤ lim) st.bit_idx false
    simp only [Bool.not_false, if_true]
    rw [r1, bind_ok]
    cases r with
    | false =>
      refine ⟨st.poly, fun i hi => h4 i (by omega), Or.inl ⟨rfl, ?_⟩⟩
      exact BodyOf_iff.mpr ⟨_, hch, by omega, (r2.mp rfl).2⟩
    | true =>
      have hno : ∀ s, ¬ BodyOf (sigLen n) (2 ^ n) m s := by
        intro s hs
        obtain ⟨e, e1, e2, e3⟩ := BodyOf_iff.mp hs
        obtain ⟨poly', q1, -, -⟩ := decLoop_complete (m := m) hl (2 ^ n) s e e2 (2 ^ n) 0 328 poly
          rfl (Nat.zero_le _) e1
        rw [h1] at q1
        cases q1
        have := r2.mpr ⟨rfl, e3⟩
        cases this
      obtain ⟨out, o1, o2, o3, o4⟩ := fail hno
      refine ⟨out, o1, Or.inr ⟨?_, o3, o4⟩⟩
      rw [o2]
      rfl

/-- The vector is determined by the body. -/
theorem BodyOf_unique {N : ℕ} {s s' : ℕ → ℤ} (h : BodyOf sb N m s) (h' : BodyOf sb N m s') :
    ∀ i, i < N → s i = s' i := by
  obtain ⟨e, e1, e2, -⟩ := BodyOf_iff.mp h
  obtain ⟨e', e1', e2', -⟩ := BodyOf_iff.mp h'
  obtain ⟨p, q1, -, q3⟩ := decLoop_complete (m := m) (le_refl (sb + 2)) N s e e2 N 0 328 (fun _ => 0)
    (by omega) (by omega) e1
  obtain ⟨p', q1', -, q3'⟩ := decLoop_complete (m := m) (le_refl (sb + 2)) N s' e' e2' N 0 328
    (fun _ => 0) (by omega) (by omega) e1'
  rw [q1] at q1'
  cases q1'
  intro i hi
  rw [← q3 i (by omega) hi, ← q3' i (by omega) hi]

theorem decompressSig_accept {n : ℕ} (hl : sigLen n + 2 ≤ lim) (poly : Mem Int) {s : ℕ → ℤ}
    (h : BodyOf (sigLen n) (2 ^ n) m s) :
    ∃ out, decompressSig n (rdE lim m) poly = .ok (true, out) ∧ ∀ i, i < 2 ^ n → out i = s i := by
  obtain ⟨out, -, h1 | h1⟩ := decompressSig_exact (m := m) hl poly
  · exact ⟨out, h1.1, BodyOf_unique h1.2 h⟩
  · exact absurd h (h1.2.2 s)

end Falcon
