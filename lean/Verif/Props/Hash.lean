import Verif.Proofs.Verify
import Mathlib.Data.Fintype.Card
import Mathlib.Algebra.Order.Interval.Finset.SuccPred

/-!
# Properties C24, C25: hashing to a point
-/

namespace Falcon

/-- C24: whenever hashing finishes, the result is the canonical list of the first N accepted words mod
q, and nothing else is written. -/
theorem C24_hash_point {n fuel : ℕ} (st : ℕ → UInt8) (c0 c : Mem Ff)
    (h : hashToPoint fuel n st c0 = some c) :
    HashPoint (2 ^ n) st c ∧ CanonBelow (2 ^ n) c ∧ ∀ i, 2 ^ n ≤ i → c i = c0 i :=
  ⟨(hashToPoint_spec h).1, (hashToPoint_spec h).1.canon, (hashToPoint_spec h).2⟩

/-- C24: hashing finishes within `fuel` blocks of 136 bytes iff the first `68 * fuel` words of the
stream contain N accepted ones. -/
theorem C24_hash_finishes_iff {n fuel : ℕ} (st : ℕ → UInt8) (c0 : Mem Ff) :
    (∃ c, hashToPoint fuel n st c0 = some c) ↔ 2 ^ n ≤ (accepted st (68 * fuel)).length :=
  hashToPoint_iff

/-- C24: the stream after the N-th accepted word, the old content of the output and the number of
blocks allowed are irrelevant. -/
theorem C24_hash_deterministic {n fuel fuel' M : ℕ} (st st' : ℕ → UInt8) (c0 c0' c c' : Mem Ff)
    (hst : ∀ k, k < 2 * M → st k = st' k) (hM : 2 ^ n ≤ (accepted st M).length)
    (h : hashToPoint fuel n st c0 = some c) (h' : hashToPoint fuel' n st' c0' = some c') :
    ∀ i, i < 2 ^ n → c i = c' i := by
  have hacc : accepted st M = accepted st' M := by
    unfold accepted
    congr 1
    apply List.map_congr_left
    intro j hj
    have hj := List.mem_range.mp hj
    unfold wordAt
    rw [hst _ (by omega), hst _ (by omega)]
  obtain ⟨M1, a1, a2⟩ := (hashToPoint_spec h).1
  obtain ⟨M2, b1, b2⟩ := (hashToPoint_spec h').1
  intro i hi
  apply Ff.ext_toNat
  rw [a2 i hi, b2 i hi, accepted_getD st (M' := M) (by omega) (by omega),
    accepted_getD st' (M := M2) (M' := M) (by omega) (by rw [← hacc]; omega), hacc]

/-- A stream that encodes a given point: word `i` is coefficient `i`. -/
def streamOf (c : ℕ → ℕ) : ℕ → UInt8 := fun k =>
  if k % 2 = 0 then UInt8.ofNat (c (k / 2) / 256) else UInt8.ofNat (c (k / 2) % 256)

theorem wordAt_streamOf {c : ℕ → ℕ} (hc : ∀ i, c i < 65536) (j : ℕ) : wordAt (streamOf c) j = c j := by
  unfold wordAt streamOf
  have := hc j
  rw [if_pos (by omega), if_neg (by omega), show 2 * j / 2 = j by omega, show (2 * j + 1) / 2 = j by omega,
    UInt8.toNat_ofNat', UInt8.toNat_ofNat']
  omega

theorem accepted_streamOf {c : ℕ → ℕ} (hc : ∀ i, c i < 61445) (M : ℕ) :
    accepted (streamOf c) M = (List.range M).map c := by
  unfold accepted
  rw [List.filter_eq_self.mpr]
  · exact List.map_congr_left (fun j _ => wordAt_streamOf (fun i => (hc i).trans (by norm_num)) j)
  · intro w hw
    obtain ⟨j, -, rfl⟩ := List.mem_map.mp hw
    rw [wordAt_streamOf (fun i => (hc i).trans (by norm_num))]
    simpa using hc j

/-- Every point is hit by some stream, within 16 blocks. -/
theorem hash_streamOf {n : ℕ} (hn : ValidLog n) {c : ℕ → ℕ} (hc : ∀ i, c i < 12289) (c0 : Mem Ff) :
    ∃ r, hashToPoint 16 n (streamOf c) c0 = some r ∧ ∀ i, i < 2 ^ n → (r i).v.toNat = c i := by
  have hc' : ∀ i, c i < 61445 := fun i => (hc i).trans (by norm_num)
  have hlen : 2 ^ n ≤ (accepted (streamOf c) (68 * 16)).length := by
    rw [accepted_streamOf hc', List.length_map, List.length_range]
    rcases hn with rfl | rfl <;> norm_num
  obtain ⟨r, hr⟩ := (C24_hash_finishes_iff (n := n) (fuel := 16) (streamOf c) c0).mpr hlen
  refine ⟨r, hr, ?_⟩
  obtain ⟨M, h1, h2⟩ := (hashToPoint_spec hr).1
  intro i hi
  rw [h2 i hi, accepted_getD _ (M' := 68 * 16) (by omega) (by omega), accepted_streamOf hc']
  have : i < 1088 := by rw [accepted_streamOf hc', List.length_map, List.length_range] at hlen; omega
  rw [List.getD_eq_getElem _ _ (by simpa using this), List.getElem_map, List.getElem_range]
  exact Nat.mod_eq_of_lt (hc i)

/-- The hypotheses of C24 are met by a stream with rejected words: every third word is 65535. -/
example : let st := streamOf (fun i => if i % 3 = 0 then 65535 else i)
    wordAt st 0 = 65535 ∧ wordAt st 1 = 1 ∧ accepted st 6 = [1, 2, 4, 5] := by
  refine ⟨by decide +kernel, by decide +kernel, by decide +kernel⟩

/-- C25: every residue has exactly five accepted 16-bit preimages. -/
theorem C25_no_bias (r : ℕ) (hr : r < 12289) :
    ((Finset.range 65536).filter (fun w => w < 61445 ∧ w % 12289 = r)).card = 5 := by
  have : (Finset.range 65536).filter (fun w => w < 61445 ∧ w % 12289 = r) =
      (Finset.range 5).image (fun k => r + 12289 * k) := by
    ext w
    simp only [Finset.mem_filter, Finset.mem_range, Finset.mem_image]
    constructor
    · rintro ⟨-, h1, h2⟩
      exact ⟨w / 12289, by omega, by omega⟩
    · rintro ⟨k, hk, rfl⟩
      omega
  rw [this, Finset.card_image_of_injective _ (fun a b h => by simpa using h), Finset.card_range]

/-- C25 in terms of the code: of the 65536 pairs of stream bytes, exactly five lead `hash_to_point` to
store the residue `r`. -/
theorem C25_no_bias_code (r : ℕ) (hr : r < 12289) :
    ((Finset.range 65536).filter (fun w =>
      UInt16.ofNat w < hashBound ∧ (Ff.ofU16 (UInt16.ofNat w)).v.toNat = r)).card = 5 := by
  have key : ∀ w ∈ Finset.range 65536, (UInt16.ofNat w < hashBound ∧
      (Ff.ofU16 (UInt16.ofNat w)).v.toNat = r ↔ w < 61445 ∧ w % 12289 = r) := by
    intro w hw
    have hw := Finset.mem_range.mp hw
    rw [UInt16.lt_iff_toNat_lt, hashBound_toNat, Ff.ofU16_toNat, UInt16.toNat_ofNat', Nat.mod_eq_of_lt hw]
  rw [Finset.filter_congr key]
  exact C25_no_bias r hr

end Falcon
