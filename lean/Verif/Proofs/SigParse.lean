import Verif.Props.Sign
import Verif.SamplingSpec

/-! # Parsing signatures: prefix codes -/

namespace Falcon

theorem matches_code {m : Mem UInt8} {p : ℕ} {x : ℤ} : Matches m p (codeBits x) ↔ bitAt m p = decide (x < 0) ∧
    (∀ t, t < 7 → bitAt m (p + 1 + t) = (x.natAbs % 128).testBit (6 - t)) ∧ (∀ j, j < x.natAbs / 128 → bitAt m (p + 8 + j) = false) ∧
    bitAt m (p + 8 + x.natAbs / 128) = true := by
  unfold codeBits
  rw [Matches.cons, Matches.append, Matches.append, Matches.single, Matches.replicate, Matches.bits7]
  simp only [bits7_length, List.length_append, List.length_replicate, show p + 1 + 7 = p + 8 by ring,
    show p + 1 + (7 + x.natAbs / 128) = p + 8 + x.natAbs / 128 by ring, and_assoc]

theorem matches_code_inj {m : Mem UInt8} {p : ℕ} {x y : ℤ} (hx : Matches m p (codeBits x)) (hy : Matches m p (codeBits y)) : x = y := by
  rw [matches_code] at hx hy
  obtain ⟨a1, a2, a3, a4⟩ := hx
  obtain ⟨b1, b2, b3, b4⟩ := hy
  have e1 : x.natAbs % 128 = y.natAbs % 128 := eq_of_bits7 (Nat.mod_lt _ (by norm_num)) (Nat.mod_lt _ (by norm_num)) fun t ht => by rw [← a2 t ht, b2 t ht]
  have e2 : x.natAbs / 128 = y.natAbs / 128 := by
    rcases Nat.lt_trichotomy (x.natAbs / 128) (y.natAbs / 128) with h | h | h
    · rw [b3 _ h] at a4
      cases a4
    · exact h
    · rw [a3 _ h] at b4
      cases b4
  rw [a1] at b1
  have e3 : x < 0 ↔ y < 0 := by
    rw [← decide_eq_true_iff (p := x < 0), b1, decide_eq_true_iff]
  omega

theorem code_at {n : ℕ} {a : Mem UInt8} {salt : ℕ → UInt8} {s : Mem Int} (h : SignatureOf n a salt s) {k : ℕ} (hk : k < 2 ^ n) :
    Matches a (328 + (codes s k).length) (codeBits (s k)) := by
  obtain ⟨-, -, h1, h2⟩ := h
  obtain ⟨r, hr⟩ := flat_prefix (fun i => codeBits (s i)) (by omega : k + 1 ≤ 2 ^ n)
  rw [← codes_eq_flat, ← codes_eq_flat, codes] at hr
  have hM : Matches a 328 (codes s (2 ^ n)) := Matches.getD.mpr (fun i hi => h2 i (by omega))
  rw [hr, List.append_assoc, Matches.append, Matches.append] at hM
  exact hM.2.1

/-- The bytes of a signature determine s2. -/
theorem signature_inj {n : ℕ} {a : Mem UInt8} {salt salt' : ℕ → UInt8} {s s' : Mem Int} (h : SignatureOf n a salt s) (h' : SignatureOf n a salt' s') :
    ∀ i, i < 2 ^ n → s i = s' i := by
  have hk : ∀ k, k ≤ 2 ^ n → (codes s k).length = (codes s' k).length ∧ ∀ i, i < k → s i = s' i := by
    intro k
    induction k with
    | zero => exact fun _ => ⟨rfl, fun i hi => absurd hi (Nat.not_lt_zero i)⟩
    | succ k ih =>
      intro hk
      obtain ⟨i1, i2⟩ := ih (by omega)
      have m1 := code_at h (k := k) (by omega)
      have m2 := code_at h' (k := k) (by omega)
      rw [← i1] at m2
      have e := matches_code_inj m1 m2
      refine ⟨by rw [codes, codes, List.length_append, List.length_append, i1, e], fun i hi => ?_⟩
      by_cases hik : i = k
      · rw [hik, e]
      · exact i2 i (by omega)
  exact (hk _ le_rfl).2

theorem chunk_len {m : Mem UInt8} {p : ℕ} {x y : ℤ} {c : List Bool} (hc : Chunk x c) (h : Matches m p c) (hy : y.natAbs ≤ 1023)
    (h' : Matches m p (codeBits y)) : c.length = (codeBits y).length := by
  have hd := chunk_code hy
  obtain ⟨_, e1, -⟩ := readCoeff_complete (m := m) (sb := p + c.length + (codeBits y).length) (lim := p + c.length + (codeBits y).length + 2) le_rfl hc h (by omega)
  obtain ⟨_, e2, -⟩ := readCoeff_complete (m := m) (sb := p + c.length + (codeBits y).length) (lim := p + c.length + (codeBits y).length + 2) le_rfl hd h' (by omega)
  rw [e1] at e2
  injection e2 with e2
  injection e2 with _ e2
  injection e2 with _ e2
  have := hc.length_pos
  have := hd.length_pos
  omega

theorem no_chunk_1024 {m : Mem UInt8} {p : ℕ} {x : ℤ} {c : List Bool} (hc : Chunk x c) (h : Matches m p c) (h' : Matches m p (codeBits (-1024))) : False := by
  rw [matches_code] at h'
  obtain ⟨a1, a2, a3, -⟩ := h'
  have a1 : bitAt m p = true := a1
  have a2 : ∀ t, t < 7 → bitAt m (p + 1 + t) = false := fun t ht => by rw [a2 t ht]; exact Nat.zero_testBit _
  have a3 : ∀ j, j < 8 → bitAt m (p + 8 + j) = false := a3
  have hlow : ∀ low, low < 128 → Matches m (p + 1) (bits7 low) → low = 0 := fun low hl hm => by
    rw [Matches.bits7] at hm
    exact eq_of_bits7 hl (by norm_num) fun t ht => by rw [← hm t ht, a2 t ht, Nat.zero_testBit]
  cases hc with
  | short neg low k hl hk hz =>
    rw [Matches.cons, Matches.append, Matches.append, Matches.single] at h
    obtain ⟨-, -, e3⟩ := h
    simp only [bits7_length, List.length_append, List.length_replicate] at e3
    rw [show p + 1 + (7 + k) = p + 8 + k by ring, a3 k hk] at e3
    cases e3
  | long neg low j oct last hl hz ho hne =>
    rw [Matches.cons, Matches.append, Matches.append, Matches.append] at h
    exact hz ⟨h.1.symm.trans a1, hlow low hl h.2.1.1.1⟩

/-- A vector in which -1024 comes after smaller coefficients only: no vector decodes from its encoding. -/
theorem refused_1024 {n : ℕ} {a : Mem UInt8} {salt : ℕ → UInt8} {s : Mem Int} (h : SignatureOf n a salt s) {i : ℕ} (hi : i < 2 ^ n)
    (hs : s i = -1024) (hb : ∀ j, j < i → (s j).natAbs ≤ 1023) : ∀ t, ¬ SigOf n a t := by
  rintro t ⟨-, cs, pos, p0, hch, -, -⟩
  have hp : ∀ k, k ≤ i → pos k = 328 + (codes s k).length := by
    intro k
    induction k with
    | zero => exact fun _ => p0
    | succ k ih =>
      intro hk
      have e := ih (by omega)
      obtain ⟨c1, c2, c3⟩ := hch k (by omega)
      have m1 := code_at h (k := k) (by omega)
      rw [e] at c2
      rw [c3, e, chunk_len c1 c2 (hb k (by omega)) m1, codes, List.length_append]
      ring
  obtain ⟨c1, c2, -⟩ := hch i hi
  rw [hp i le_rfl] at c2
  have m1 := code_at h hi
  rw [hs] at m1
  exact no_chunk_1024 c1 c2 m1

theorem signature_congr {n : ℕ} {a b : Mem UInt8} {salt : ℕ → UInt8} {s : Mem Int} (hab : ∀ j, j < sigBytes n → a j = b j) (h : SignatureOf n a salt s) :
    SignatureOf n b salt s := by
  have hb := sigBytes_ge n
  obtain ⟨h1, h2, h3, h4⟩ := h
  refine ⟨by rw [← hab 0 (by omega)]; exact h1, fun i hi => by rw [← hab _ (by omega)]; exact h2 i hi, h3, fun i hi => ?_⟩
  rw [← h4 i hi]
  unfold bitAt
  rw [hab _ (by omega)]

theorem codes_tape {n : ℕ} (s : PairZ n) : (codes (tapeOf s.2) (2 ^ n)).length = ∑ i, (9 + (s.2 i).natAbs / 128) := by
  rw [codes_length, Finset.sum_range]
  refine Finset.sum_congr rfl fun i _ => ?_
  unfold tapeOf
  rw [dif_pos i.2]

/-- Every accepted pair has a signature. -/
theorem signature_exists {n : ℕ} (hn : ValidLog n) {s : PairZ n} (ha : Accept n s) (salt : ℕ → UInt8) : ∃ a, SignatureOf n a salt (tapeOf s.2) := by
  have hdef := C16_compress_defined hn (tapeOf s.2) (fun _ => 0) (by
    refine le_trans (b := ∑ i, s.2 i ^ 2) (le_of_eq ?_) (le_trans ?_ ha.1)
    · rw [Finset.sum_range]
      refine Finset.sum_congr rfl fun i _ => ?_
      unfold tapeOf
      rw [dif_pos i.2]
    · unfold pairSq
      have : 0 ≤ ∑ i, s.1 i ^ 2 := Finset.sum_nonneg fun i _ => sq_nonneg _
      linarith)
  have hub := mt (C16_compress_ub_iff hn (tapeOf s.2) (fun _ => 0)).mpr (by
    rintro ⟨e, he⟩
    obtain ⟨r, hr⟩ := hdef
    rw [hr] at he
    cases he)
  push Not at hub
  rw [← codes_length] at hub
  obtain ⟨ok, out, c1, c2, -⟩ := C15_compress_spec hn (tapeOf s.2) (fun _ => 0) hub.1 hub.2
  rw [codes_tape] at c2
  rw [c2.mpr ha.2] at c1
  have := (assemble_ok hn (stream := salt) (pos := 0) [] c1 rfl).1
  simp only [Nat.zero_add] at this
  exact ⟨_, this⟩

end Falcon
