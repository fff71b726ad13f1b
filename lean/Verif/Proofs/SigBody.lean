import Verif.Proofs.Decompress

/-!
# Bodies built from lists of bits; reads past the end
-/

namespace Falcon

/-- Concatenation of the first `N` chunks. -/
def flat (cs : ℕ → List Bool) : ℕ → List Bool
  | 0 => []
  | N + 1 => flat cs N ++ cs N

theorem flat_congr {cs cs' : ℕ → List Bool} {N : ℕ} (h : ∀ i, i < N → cs i = cs' i) :
    flat cs N = flat cs' N := by
  induction N with
  | zero => rfl
  | succ N ih => rw [flat, flat, ih (fun i hi => h i (by omega)), h N (by omega)]

theorem codes_eq_flat (s : ℕ → ℤ) (N : ℕ) : codes s N = flat (fun i => codeBits (s i)) N := by
  induction N with
  | zero => rfl
  | succ N ih => rw [codes, flat, ih]

theorem flat_prefix (cs : ℕ → List Bool) {i N : ℕ} (h : i ≤ N) : ∃ r, flat cs N = flat cs i ++ r := by
  induction N, h using Nat.le_induction with
  | base => exact ⟨[], by simp⟩
  | succ N hN ih =>
    obtain ⟨r, hr⟩ := ih
    exact ⟨r ++ cs N, by rw [flat, hr, List.append_assoc]⟩

/-- A body with known end. -/
def BodyEnd (sb N : ℕ) (m : Mem UInt8) (s : ℕ → ℤ) (e : ℕ) : Prop :=
  ChunksFrom m N 0 328 e s ∧ e < 8 * sb ∧ ∀ i, e ≤ i → i < 8 * sb → bitAt m i = false

theorem BodyEnd.body {sb N e : ℕ} {m : Mem UInt8} {s : ℕ → ℤ} (h : BodyEnd sb N m s e) :
    BodyOf sb N m s := BodyOf_iff.mpr ⟨e, h⟩

theorem Matches.getD {m : Mem UInt8} {p : ℕ} {L : List Bool} :
    Matches m p L ↔ ∀ i, i < L.length → bitAt m (p + i) = L.getD i false := by
  constructor
  · intro h i hi
    rw [h i hi]; simp [List.getD, hi]
  · intro h i hi
    rw [h i hi]; simp [List.getD, hi]

theorem bodyEnd_of_flat {sb N : ℕ} {m : Mem UInt8} {s : ℕ → ℤ} {cs : ℕ → List Bool}
    (hc : ∀ i, i < N → Chunk (s i) (cs i)) (hlen : 328 + (flat cs N).length < 8 * sb)
    (hb : ∀ i, 328 + i < 8 * sb → bitAt m (328 + i) = (flat cs N).getD i false) :
    BodyEnd sb N m s (328 + (flat cs N).length) := by
  have hM : Matches m 328 (flat cs N) := Matches.getD.mpr (fun i hi => hb i (by omega))
  refine ⟨⟨cs, fun i => 328 + (flat cs i).length, rfl, rfl, ?_⟩, hlen, ?_⟩
  · intro i _ hi
    refine ⟨hc i hi, ?_, ?_⟩
    · obtain ⟨r, hr⟩ := flat_prefix cs (by omega : i + 1 ≤ N)
      rw [hr, flat, List.append_assoc, Matches.append, Matches.append] at hM
      exact hM.2.1
    · simp only [flat, List.length_append]; omega
  · intro i h1 h2
    have := hb (i - 328) (by omega)
    rw [show 328 + (i - 328) = i by omega] at this
    rw [this]
    have : (flat cs N).length ≤ i - 328 := by omega
    simp only [List.getD, List.getElem?_eq_none this]; rfl

theorem chunks_flat {N e : ℕ} {m : Mem UInt8} {s : ℕ → ℤ} (h : ChunksFrom m N 0 328 e s) :
    ∃ cs, (∀ i, i < N → Chunk (s i) (cs i)) ∧ Matches m 328 (flat cs N) ∧
      e = 328 + (flat cs N).length := by
  obtain ⟨cs, pos, h1, h2, h3⟩ := h
  refine ⟨cs, fun i hi => (h3 i (Nat.zero_le i) hi).1, ?_⟩
  rw [← h2]
  have : ∀ k, k ≤ N → Matches m 328 (flat cs k) ∧ pos k = 328 + (flat cs k).length := by
    intro k
    induction k with
    | zero => intro _; exact ⟨Matches.nil, h1⟩
    | succ k ih =>
      intro hk
      obtain ⟨i1, i2⟩ := ih (by omega)
      obtain ⟨-, c2, c3⟩ := h3 k (Nat.zero_le k) (by omega)
      rw [flat, Matches.append, List.length_append]
      rw [i2] at c2
      exact ⟨⟨i1, c2⟩, by omega⟩
  exact this N (le_refl N)

theorem bodyEnd_flat {sb N e : ℕ} {m : Mem UInt8} {s : ℕ → ℤ} (h : BodyEnd sb N m s e) :
    ∃ cs, (∀ i, i < N → Chunk (s i) (cs i)) ∧ e = 328 + (flat cs N).length ∧
      ∀ i, 328 + i < 8 * sb → bitAt m (328 + i) = (flat cs N).getD i false := by
  obtain ⟨h1, h2, h3⟩ := h
  obtain ⟨cs, c1, c2, c3⟩ := chunks_flat h1
  refine ⟨cs, c1, c3, fun i hi => ?_⟩
  by_cases hlt : i < (flat cs N).length
  · exact Matches.getD.mp c2 i hlt
  · rw [h3 _ (by omega) hi]
    have : (flat cs N).length ≤ i := by omega
    simp only [List.getD, List.getElem?_eq_none this]; rfl

theorem bodyEnd_unique {sb N e e' : ℕ} {m : Mem UInt8} {s s' : ℕ → ℤ} (h : BodyEnd sb N m s e)
    (h' : BodyEnd sb N m s' e') : e = e' := by
  obtain ⟨p, q1, -, q3⟩ := decLoop_complete (m := m) (le_refl (sb + 2)) N s e h.2.1 N 0 328
    (fun _ => 0) rfl (Nat.zero_le _) h.1
  obtain ⟨p', q1', -, q3'⟩ := decLoop_complete (m := m) (le_refl (sb + 2)) N s' e' h'.2.1 N 0 328
    (fun _ => 0) rfl (Nat.zero_le _) h'.1
  rw [q1] at q1'
  cases q1'
  rfl

theorem BodyEnd.congr {sb N e : ℕ} {m m' : Mem UInt8} {s : ℕ → ℤ} (h : BodyEnd sb N m s e)
    (hm : ∀ j, 41 ≤ j → j < sb → m j = m' j) : BodyEnd sb N m' s e := by
  obtain ⟨cs, c1, rfl, c3⟩ := bodyEnd_flat h
  refine bodyEnd_of_flat c1 h.2.1 (fun i hi => ?_)
  rw [← c3 i hi]
  unfold bitAt
  rw [hm _ (by omega) (by omega)]

theorem BodyOf.congr {sb N : ℕ} {m m' : Mem UInt8} {s : ℕ → ℤ} (h : BodyOf sb N m s)
    (hm : ∀ j, 41 ≤ j → j < sb → m j = m' j) : BodyOf sb N m' s := by
  obtain ⟨e, he⟩ := BodyOf_iff.mp h
  exact (BodyEnd.congr he hm).body

/-- Bytes from bits. -/
def memOfBits (b : ℕ → Bool) : Mem UInt8 := fun j =>
  UInt8.ofNat (Nat.ofBits fun t : Fin 8 => b (8 * j + (7 - t.val)))

theorem bitAt_memOfBits (b : ℕ → Bool) (i : ℕ) : bitAt (memOfBits b) i = b i := by
  unfold bitAt memOfBits
  have hlt : Nat.ofBits (fun t : Fin 8 => b (8 * (i / 8) + (7 - t.val))) < 2 ^ 8 := Nat.ofBits_lt_two_pow _
  rw [UInt8.toNat_ofNat', Nat.mod_eq_of_lt hlt, Nat.testBit_ofBits_lt _ _ (by omega)]
  congr 1
  dsimp only
  omega

theorem byte_eq_of_bits {m m' : Mem UInt8} {j : ℕ} (h : ∀ t, t < 8 → bitAt m (8 * j + t) =
    bitAt m' (8 * j + t)) : m j = m' j := by
  apply UInt8.toNat_inj.mp
  apply Nat.eq_of_testBit_eq
  intro i
  by_cases hi : i < 8
  · have := h (7 - i) (by omega)
    unfold bitAt at this
    rwa [show (8 * j + (7 - i)) / 8 = j by omega, show 7 - (8 * j + (7 - i)) % 8 = i by omega] at this
  · have pa : (m j).toNat < 2 ^ i := lt_of_lt_of_le (m j).toNat_lt (Nat.pow_le_pow_right (by norm_num) (by omega))
    have pb : (m' j).toNat < 2 ^ i := lt_of_lt_of_le (m' j).toNat_lt (Nat.pow_le_pow_right (by norm_num) (by omega))
    rw [Nat.testBit_lt_two_pow pa, Nat.testBit_lt_two_pow pb]

/-! ### Codes and chunks -/

theorem chunk_code {x : ℤ} (h : x.natAbs ≤ 1023) : Chunk x (codeBits x) := by
  have := Chunk.short (decide (x < 0)) (x.natAbs % 128) (x.natAbs / 128) (Nat.mod_lt _ (by norm_num))
    (by omega) (by
      rintro ⟨h1, h2⟩
      simp at h1
      omega)
  rw [show x.natAbs % 128 + 128 * (x.natAbs / 128) = x.natAbs by omega] at this
  have hx : sval (decide (x < 0)) x.natAbs = x := by
    unfold sval
    by_cases h0 : x < 0
    · rw [decide_eq_true h0, if_pos rfl]; omega
    · rw [decide_eq_false h0, if_neg (by simp)]; omega
  rw [hx] at this
  exact this

theorem Chunk.bound {x : ℤ} {c : List Bool} (h : Chunk x c) : x.natAbs ≤ 1023 := by
  cases h with
  | short neg low k hl hk hz => cases neg <;> simp [sval] <;> omega
  | long neg low j oct last hl hz ho hne => cases neg <;> simp [sval] <;> omega

/-- A chunk is the code of its value, or it is of the long form (and the value is below 128). -/
theorem Chunk.cases_code {x : ℤ} {c : List Bool} (h : Chunk x c) :
    c = codeBits x ∨ (x.natAbs < 128 ∧ 25 ≤ c.length) := by
  cases h with
  | short neg low k hl hk hz =>
    left
    have hn : (sval neg (low + 128 * k)).natAbs = low + 128 * k := by
      cases neg <;> simp [sval] <;> omega
    have hs : decide (sval neg (low + 128 * k) < 0) = neg := by
      cases neg
      · simp [sval]; omega
      · simp [sval] at hz ⊢; omega
    unfold codeBits
    rw [hn, hs, show (low + 128 * k) % 128 = low by omega, show (low + 128 * k) / 128 = k by omega]
  | long neg low j oct last hl hz ho hne =>
    right
    refine ⟨?_, ?_⟩
    · cases neg <;> simp [sval] <;> omega
    · simp [ho]; omega

/-- Every chunk with a value below 128 has a longer variant. -/
theorem Chunk.longer {x : ℤ} {c : List Bool} (h : Chunk x c) (hx : x.natAbs < 128) :
    ∃ c', Chunk x c' ∧ c.length < c'.length ∧ c'.length ≤ c.length + 16 := by
  cases h with
  | short neg low k hl hk hz =>
    have hk0 : k = 0 := by cases neg <;> simp [sval] at hx <;> omega
    subst hk0
    refine ⟨_, Chunk.long neg low 0 (List.replicate 8 true) false hl (by simpa using hz) (by simp)
      (by decide), ?_, ?_⟩ <;> simp
  | long neg low j oct last hl hz ho hne =>
    refine ⟨_, Chunk.long neg low (j + 1) oct last hl hz ho hne, ?_, ?_⟩ <;> simp <;> omega

theorem flat_update (cs : ℕ → List Bool) (i : ℕ) (c : List Bool) (N : ℕ) (hi : i < N) :
    (flat (Function.update cs i c) N).length + (cs i).length = (flat cs N).length + c.length := by
  induction N with
  | zero => omega
  | succ N ih =>
    rw [flat, flat, List.length_append, List.length_append]
    by_cases e : i = N
    · subst e
      rw [Function.update_self,
        flat_congr (cs := Function.update cs i c) (cs' := cs) (N := i)
          (fun k hk => Function.update_of_ne (by omega) _ _)]
      omega
    · rw [Function.update_of_ne (by omega)]
      have := ih (by omega)
      omega

/-! ### Monotonicity in the readable area -/

/-- `rd2` reads whatever `rd1` reads. -/
def RdLe (rd1 rd2 : ℕ → Except UB UInt8) : Prop := ∀ i v, rd1 i = .ok v → rd2 i = .ok v

theorem RdLe.rdE {a b : ℕ} (m : Mem UInt8) (h : a ≤ b) : RdLe (rdE a m) (rdE b m) := by
  intro i v hv
  unfold Falcon.rdE at hv ⊢
  split at hv
  · rw [if_pos (by omega)]; exact hv
  · cases hv

variable {rd1 rd2 : ℕ → Except UB UInt8}

theorem extract8_mono (h : RdLe rd1 rd2) {p : ℕ} {v : UInt8} (hv : extract8 rd1 p = .ok v) :
    extract8 rd2 p = .ok v := by
  unfold extract8 at hv ⊢
  dsimp only at hv ⊢
  obtain ⟨a, h1, hv⟩ := bind_eq_ok hv
  obtain ⟨b, h2, hv⟩ := bind_eq_ok hv
  rw [h _ _ h1, bind_ok, h _ _ h2, bind_ok]
  exact hv

theorem nextZeros_mono (h : RdLe rd1 rd2) {p e v : ℕ} (hv : nextZeros rd1 p e = .ok v) :
    nextZeros rd2 p e = .ok v := by
  unfold nextZeros at hv ⊢
  split
  · rename_i hc
    rw [if_pos hc] at hv
    unfold extractRem at hv ⊢
    obtain ⟨a, h1, hv⟩ := bind_eq_ok hv
    obtain ⟨b, h2, h1⟩ := bind_eq_ok h1
    rw [h _ _ h2, bind_ok, h1, bind_ok]
    exact hv
  · rename_i hc
    rw [if_neg hc] at hv
    obtain ⟨a, h1, hv⟩ := bind_eq_ok hv
    rw [extract8_mono h h1, bind_ok]
    exact hv

theorem unaryTail_mono (h : RdLe rd1 rd2) (sl p : ℕ) {r : ℕ} (hv : unaryTail rd1 sl p = .ok r) :
    unaryTail rd2 sl p = .ok r := by
  induction hk : sl - p using Nat.strong_induction_on generalizing p with
  | _ k ih =>
    rw [unaryTail] at hv ⊢
    by_cases hp : p < sl
    · rw [dif_pos hp] at hv ⊢
      dsimp only at hv ⊢
      obtain ⟨v, h1, hv⟩ := bind_eq_ok hv
      rw [nextZeros_mono h h1, bind_ok]
      split
      · rename_i hc; rw [if_pos hc] at hv; exact hv
      · rename_i hc
        rw [if_neg hc] at hv
        exact ih _ (by omega) _ hv rfl
    · rw [dif_neg hp] at hv ⊢; exact hv

theorem readCoeff_mono (h : RdLe rd1 rd2) {sl p : ℕ} {r} (hv : readCoeff rd1 sl p = .ok r) :
    readCoeff rd2 sl p = .ok r := by
  unfold readCoeff at hv ⊢
  dsimp only at hv ⊢
  obtain ⟨a, h1, hv⟩ := bind_eq_ok hv
  obtain ⟨b, h2, hv⟩ := bind_eq_ok hv
  rw [extract8_mono h h1, bind_ok, extract8_mono h h2, bind_ok]
  split
  · rename_i hc; rw [if_pos hc] at hv; exact hv
  · rename_i hc
    rw [if_neg hc] at hv
    obtain ⟨c, h3, hv⟩ := bind_eq_ok hv
    rw [unaryTail_mono h _ _ h3, bind_ok]
    exact hv

theorem decLoop_mono (h : RdLe rd1 rd2) (sl N ci p : ℕ) (poly : Mem Int) {r}
    (hv : decLoop rd1 sl N ci p poly = .ok r) : decLoop rd2 sl N ci p poly = .ok r := by
  induction hk : N - ci generalizing ci p poly with
  | zero =>
    rw [decLoop, dif_neg (by omega)] at hv ⊢
    exact hv
  | succ k ih =>
    rw [decLoop] at hv ⊢
    by_cases hp : ci < N ∧ p < sl
    · rw [dif_pos hp] at hv ⊢
      obtain ⟨⟨x, sg, nx⟩, h1, hv⟩ := bind_eq_ok hv
      rw [readCoeff_mono h h1, bind_ok]
      dsimp only at hv ⊢
      split
      · rename_i hc; rw [if_pos hc] at hv; exact hv
      · rename_i hc
        rw [if_neg hc] at hv
        exact ih _ _ _ hv (by omega)
    · rw [dif_neg hp] at hv ⊢; exact hv

theorem trailing_mono (h : RdLe rd1 rd2) (sl p : ℕ) (f : Bool) {r} (hv : trailing rd1 sl p f = .ok r) :
    trailing rd2 sl p f = .ok r := by
  induction hk : sl - p using Nat.strong_induction_on generalizing p f with
  | _ k ih =>
    rw [trailing] at hv ⊢
    by_cases hp : p < sl
    · rw [dif_pos hp] at hv ⊢
      dsimp only at hv ⊢
      obtain ⟨v, h1, hv⟩ := bind_eq_ok hv
      rw [nextZeros_mono h h1, bind_ok]
      exact ih _ (by omega) _ _ hv rfl
    · rw [dif_neg hp] at hv ⊢; exact hv

theorem decompressSig_mono (h : RdLe rd1 rd2) {n : ℕ} (poly : Mem Int) {r}
    (hv : decompressSig n rd1 poly = .ok r) : decompressSig n rd2 poly = .ok r := by
  unfold decompressSig at hv ⊢
  dsimp only at hv ⊢
  obtain ⟨st, h1, hv⟩ := bind_eq_ok hv
  rw [decLoop_mono h _ _ _ _ _ h1, bind_ok]
  obtain ⟨f, h2, hv⟩ := bind_eq_ok hv
  split at h2
  · rename_i hc
    rw [if_pos hc, trailing_mono h _ _ _ h2, bind_ok]; exact hv
  · rename_i hc
    rw [if_neg hc, h2, bind_ok]; exact hv

/-- When the codes end on a byte boundary the check of the trailing bits reads one byte too many. -/
theorem trailing_strict {sb : ℕ} {m : Mem UInt8} (p : ℕ) (f : Bool) (h8 : p % 8 = 0) (hp : p < 8 * sb) :
    trailing (rdE sb m) (8 * sb) p f = .error (.oobRead sb) := by
  induction hk : 8 * sb - p using Nat.strong_induction_on generalizing p f with
  | _ k ih =>
    rw [trailing, dif_pos hp]
    dsimp only
    have hmin : min 8 (8 * sb - p) = 8 := by omega
    rw [hmin]
    unfold nextZeros
    rw [if_neg (by omega)]
    by_cases hlast : p / 8 + 1 < sb
    · obtain ⟨r, hr, -⟩ := extract8_ok (m := m) hlast
      rw [hr, bind_ok, bind_ok]
      exact ih _ (by omega) (p + 8) _ (by omega) (by omega) rfl
    · have e3 : p >>> 3 = p / 8 := Nat.shiftRight_eq_div_pow p 3
      have : extract8 (rdE sb m) p = .error (.oobRead sb) := by
        unfold extract8
        simp only [e3]
        rw [rdE_ok (by omega), bind_ok]
        have hsb : p / 8 + 1 = sb := by omega
        rw [hsb]
        unfold rdE
        rw [if_neg (lt_irrefl _)]; rfl
      rw [this]; rfl

theorem decompress_strict {n e : ℕ} {m : Mem UInt8} {s : ℕ → ℤ} (h : BodyEnd (sigLen n) (2 ^ n) m s e)
    (h8 : e % 8 = 0) (poly : Mem Int) :
    ∃ err, decompressSig n (rdE (sigLen n) m) poly = .error err := by
  by_contra hc
  push Not at hc
  cases hd : decompressSig n (rdE (sigLen n) m) poly with
  | error e => exact hc e hd
  | ok r =>
    unfold decompressSig at hd
    dsimp only at hd
    obtain ⟨st, h1, hd⟩ := bind_eq_ok hd
    have h2 := decLoop_mono (RdLe.rdE m (by omega : sigLen n ≤ sigLen n + 2)) _ _ _ _ _ h1
    obtain ⟨p, q1, -, -⟩ := decLoop_complete (m := m) (le_refl (sigLen n + 2)) (2 ^ n) s e h.2.1
      (2 ^ n) 0 328 poly rfl (Nat.zero_le _) h.1
    rw [one_shiftLeft'] at h2
    rw [show 8 + 320 = 328 from rfl, q1] at h2
    cases h2
    have hlt := h.2.1
    obtain ⟨f, h3, -⟩ := bind_eq_ok hd
    rw [one_shiftLeft'] at h3
    simp only [show decide (e ≥ 8 * sigLen n) = false by simp; omega,
      show decide (2 ^ n < 2 ^ n) = false by simp, Bool.not_false, if_true, Bool.or_false] at h3
    rw [trailing_strict e false h8 hlt] at h3
    cases h3

end Falcon
