import Verif.Proofs.SigBody
import Verif.Proofs.Verify

/-!
# Which reads of decompression leave an array of exactly the length of a signature
-/

namespace Falcon

variable {sb : ℕ} {m : Mem UInt8}

theorem extract8_cut {p : ℕ} (h : p / 8 + 1 < sb) : extract8 (rdE sb m) p = extract8 (rdE (sb + 2) m) p := by
  obtain ⟨r, hr, -⟩ := extract8_ok (m := m) h
  rw [hr, extract8_mono (RdLe.rdE m (by omega)) hr]

theorem extract8_inv {p : ℕ} {v : UInt8} (h : extract8 (rdE sb m) p = .ok v) : p / 8 + 1 < sb := by
  have e3 : p >>> 3 = p / 8 := Nat.shiftRight_eq_div_pow p 3
  unfold extract8 at h
  simp only [e3] at h
  obtain ⟨a, -, h⟩ := bind_eq_ok h
  obtain ⟨b, h2, -⟩ := bind_eq_ok h
  unfold rdE at h2
  split at h2
  · assumption
  · cases h2

theorem nextZeros_cut {p e : ℕ} (h : p / 8 < sb) (h' : 8 ≤ e → p / 8 + 1 < sb) :
    nextZeros (rdE sb m) p e = nextZeros (rdE (sb + 2) m) p e := by
  have e3 : p >>> 3 = p / 8 := Nat.shiftRight_eq_div_pow p 3
  unfold nextZeros
  split
  · unfold extractRem
    rw [e3, rdE_ok h, rdE_ok (by omega)]
  · rw [extract8_cut (h' (by omega))]

theorem unaryTail_ge {rd : ℕ → Except UB UInt8} {sl : ℕ} (p : ℕ) {r : ℕ} (h : unaryTail rd sl p = .ok r) : p ≤ r := by
  induction hk : sl - p using Nat.strong_induction_on generalizing p with
  | _ k ih =>
    rw [unaryTail] at h
    by_cases hp : p < sl
    · rw [dif_pos hp] at h
      dsimp only at h
      obtain ⟨v, -, h⟩ := bind_eq_ok h
      split at h
      · cases h; omega
      · have := ih _ (by omega) _ h rfl
        omega
    · rw [dif_neg hp] at h
      cases h; omega

theorem unaryTail_cut (p : ℕ) {r : ℕ} (h : unaryTail (rdE (sb + 2) m) (8 * sb) p = .ok r) (hr : r < 8 * sb) :
    unaryTail (rdE sb m) (8 * sb) p = .ok r := by
  induction hk : 8 * sb - p using Nat.strong_induction_on generalizing p with
  | _ k ih =>
    rw [unaryTail] at h ⊢
    by_cases hp : p < 8 * sb
    · rw [dif_pos hp] at h ⊢
      dsimp only at h ⊢
      obtain ⟨v, hv, h⟩ := bind_eq_ok h
      have hle : p + min 8 (8 * sb - p) ≤ r := by
        split at h
        · cases h; omega
        · exact unaryTail_ge _ h
      rw [nextZeros_cut (by omega) (by omega), hv, bind_ok]
      split
      · rename_i hc; rw [if_pos hc] at h; exact h
      · rename_i hc
        rw [if_neg hc] at h
        exact ih _ (by omega) _ h rfl
    · rw [dif_neg hp] at h ⊢; exact h

theorem readCoeff_cut {p : ℕ} {x : ℤ} {sg nx : ℕ} (h : readCoeff (rdE (sb + 2) m) (8 * sb) p = .ok (x, sg, nx)) (hp : p + 16 < 8 * sb)
    (hn : nx < 8 * sb) : readCoeff (rdE sb m) (8 * sb) p = .ok (x, sg, nx) := by
  unfold readCoeff at h ⊢
  dsimp only at h ⊢
  rw [extract8_cut (sb := sb) (p := p) (by omega), extract8_cut (sb := sb) (p := p + 8) (by omega)]
  obtain ⟨a, h1, h⟩ := bind_eq_ok h
  obtain ⟨b, h2, h⟩ := bind_eq_ok h
  rw [h1, bind_ok, h2, bind_ok]
  split
  · rename_i hc; rw [if_pos hc] at h; exact h
  · rename_i hc
    rw [if_neg hc] at h
    obtain ⟨c, h3, h⟩ := bind_eq_ok h
    have e : c = nx := by
      cases h; rfl
    rw [unaryTail_cut _ h3 (by omega), bind_ok]
    exact h

theorem readCoeff_inv {p sl : ℕ} {r} (h : readCoeff (rdE sb m) sl p = .ok r) : p + 16 < 8 * sb := by
  unfold readCoeff at h
  dsimp only at h
  obtain ⟨a, -, h⟩ := bind_eq_ok h
  obtain ⟨b, h2, -⟩ := bind_eq_ok h
  have := extract8_inv h2
  omega

/-- A sequence of chunks from coefficient `ci` on. -/
def ChunkSeq (m : Mem UInt8) (N ci : ℕ) (cs : ℕ → List Bool) (pos : ℕ → ℕ) (s : ℕ → ℤ) : Prop :=
  ∀ i, ci ≤ i → i < N → Chunk (s i) (cs i) ∧ Matches m (pos i) (cs i) ∧ pos (i + 1) = pos i + (cs i).length

theorem ChunkSeq.mono {N ci : ℕ} {cs : ℕ → List Bool} {pos : ℕ → ℕ} {s : ℕ → ℤ} (h : ChunkSeq m N ci cs pos s) {a b : ℕ} (ha : ci ≤ a)
    (hab : a ≤ b) (hb : b ≤ N) : pos a ≤ pos b := by
  induction b, hab using Nat.le_induction with
  | base => exact le_refl _
  | succ b hle ih =>
    have := ih (by omega)
    have := (h b (by omega) (by omega)).2.2
    omega

theorem decLoop_cut {N : ℕ} {cs : ℕ → List Bool} {pos : ℕ → ℕ} {s : ℕ → ℤ} (he : pos N < 8 * sb) (hlast : pos (N - 1) + 16 < 8 * sb)
    (d : ℕ) : ∀ ci poly, N - ci = d → ci ≤ N → ChunkSeq m N ci cs pos s →
      decLoop (rdE sb m) (8 * sb) N ci (pos ci) poly = decLoop (rdE (sb + 2) m) (8 * sb) N ci (pos ci) poly := by
  induction d with
  | zero =>
    intro ci poly hd hci _
    rw [decLoop, decLoop, dif_neg (by omega), dif_neg (by omega)]
  | succ d ih =>
    intro ci poly hd hci hch
    obtain ⟨c1, c2, c3⟩ := hch ci (le_refl _) (by omega)
    have h1 := hch.mono (a := ci) (b := N - 1) (le_refl _) (by omega) (by omega)
    have h2 := hch.mono (a := ci + 1) (b := N) (by omega) (by omega) (le_refl _)
    obtain ⟨sg, r1, r2⟩ := readCoeff_complete (sb := sb) (le_refl (sb + 2)) c1 c2 (by omega)
    have hpos := c1.length_pos
    rw [decLoop, decLoop, dif_pos ⟨by omega, by omega⟩, dif_pos ⟨by omega, by omega⟩, r1, readCoeff_cut r1 (by omega) (by omega), bind_ok,
      bind_ok]
    dsimp only
    rw [if_neg r2, if_neg r2, show pos ci + (cs ci).length - 1 + 1 = pos (ci + 1) by omega]
    exact ih (ci + 1) _ (by omega) (by omega) fun i a b => hch i (by omega) b

theorem decLoop_inv {N : ℕ} {cs : ℕ → List Bool} {pos : ℕ → ℕ} {s : ℕ → ℤ} (he : pos N < 8 * sb) (d : ℕ) : ∀ ci poly r, N - ci = d + 1 →
    ChunkSeq m N ci cs pos s → decLoop (rdE sb m) (8 * sb) N ci (pos ci) poly = .ok r → pos (N - 1) + 16 < 8 * sb := by
  induction d with
  | zero =>
    intro ci poly r hd hch h
    have h1 := hch.mono (a := ci) (b := N) (le_refl _) (by omega) (le_refl _)
    rw [decLoop, dif_pos ⟨by omega, by omega⟩] at h
    obtain ⟨a, ha, -⟩ := bind_eq_ok h
    rw [show N - 1 = ci by omega]
    exact readCoeff_inv ha
  | succ d ih =>
    intro ci poly r hd hch h
    obtain ⟨c1, c2, c3⟩ := hch ci (le_refl _) (by omega)
    have hpos := c1.length_pos
    have h2 := hch.mono (a := ci + 1) (b := N) (by omega) (by omega) (le_refl _)
    rw [decLoop, dif_pos ⟨by omega, by omega⟩] at h
    obtain ⟨a, ha, h⟩ := bind_eq_ok h
    obtain ⟨sg, r1, r2⟩ := readCoeff_complete (sb := sb) (le_refl (sb + 2)) c1 c2 (by omega)
    rw [readCoeff_mono (RdLe.rdE m (by omega)) ha] at r1
    cases r1
    dsimp only at h
    rw [if_neg r2, show pos ci + (cs ci).length - 1 + 1 = pos (ci + 1) by omega] at h
    exact ih (ci + 1) _ _ (by omega) (fun i a b => hch i (by omega) b) h

theorem trailing_cut (p : ℕ) (f : Bool) (h8 : p % 8 ≠ 0) :
    trailing (rdE sb m) (8 * sb) p f = trailing (rdE (sb + 2) m) (8 * sb) p f := by
  induction hk : 8 * sb - p using Nat.strong_induction_on generalizing p f with
  | _ k ih =>
    rw [trailing, trailing]
    by_cases hp : p < 8 * sb
    · rw [dif_pos hp, dif_pos hp]
      dsimp only
      rw [nextZeros_cut (by omega) (by omega)]
      congr 1
      funext v
      by_cases hc : p + min 8 (8 * sb - p) < 8 * sb
      · exact ih _ (by omega) _ _ (by omega) rfl
      · rw [trailing, trailing, dif_neg hc, dif_neg hc]
    · rw [dif_neg hp, dif_neg hp]

/-- Decompression of a body stays inside of the array exactly if the codes do not end at a byte boundary and the last one starts more
than 16 bits before the end. -/
theorem decompress_inside {n : ℕ} {cs : ℕ → List Bool} {pos : ℕ → ℕ} {s : ℕ → ℤ} (h0 : pos 0 = 328)
    (hch : ChunkSeq m (2 ^ n) 0 cs pos s) (he : pos (2 ^ n) < 8 * sigLen n)
    (hz : ∀ i, pos (2 ^ n) ≤ i → i < 8 * sigLen n → bitAt m i = false) (poly : Mem Int) :
    (pos (2 ^ n) % 8 ≠ 0 ∧ pos (2 ^ n - 1) + 16 < 8 * sigLen n →
      decompressSig n (rdE (sigLen n) m) poly = decompressSig n (rdE (sigLen n + 2) m) poly) ∧
    (pos (2 ^ n) % 8 = 0 ∨ 8 * sigLen n ≤ pos (2 ^ n - 1) + 16 → ∃ e, decompressSig n (rdE (sigLen n) m) poly = .error e) := by
  have hN : 0 < 2 ^ n := by positivity
  have hend : BodyEnd (sigLen n) (2 ^ n) m s (pos (2 ^ n)) := ⟨⟨cs, pos, h0, rfl, fun i _ hi => hch i (Nat.zero_le _) hi⟩, he, hz⟩
  constructor
  · rintro ⟨h8, hl⟩
    unfold decompressSig
    dsimp only
    rw [one_shiftLeft', show 8 + 320 = pos 0 from h0.symm, decLoop_cut he hl (2 ^ n) 0 poly rfl (Nat.zero_le _) hch]
    obtain ⟨p, q1, -, -⟩ := decLoop_complete (m := m) (le_refl (sigLen n + 2)) (2 ^ n) s (pos (2 ^ n)) he (2 ^ n) 0 328 poly rfl
      (Nat.zero_le _) hend.1
    rw [h0, q1, bind_ok, bind_ok]
    dsimp only
    rw [trailing_cut _ _ h8]
  · rintro (h8 | hl)
    · exact decompress_strict hend h8 poly
    · by_contra hc
      push Not at hc
      cases hd : decompressSig n (rdE (sigLen n) m) poly with
      | error e => exact hc e hd
      | ok r =>
        unfold decompressSig at hd
        dsimp only at hd
        rw [one_shiftLeft', show 8 + 320 = pos 0 from h0.symm] at hd
        obtain ⟨st, h1, -⟩ := bind_eq_ok hd
        have := decLoop_inv he (2 ^ n - 1) 0 poly st (by omega) hch h1
        omega

/-- The same for the whole signature. -/
theorem decodeSig_cut {n : ℕ} {salt0 : Mem UInt8} {s20 : Mem Int}
    (h : decompressSig n (rdE (sigLen n) m) s20 = decompressSig n (rdE (sigLen n + 2) m) s20) :
    decodeSig n (rdArr (sigLen n) m) salt0 s20 = decodeSig n (rdArr (sigLen n + 2) m) salt0 s20 := by
  have hb : 666 ≤ sigLen n := sigBytes_ge n
  unfold decodeSig rdArr
  dsimp only
  rw [h, rdE_ok (by omega), rdE_ok (by omega), bind_ok, bind_ok, loopE_copy (sigLen n) m 40 (by omega) salt0,
    loopE_copy (sigLen n + 2) m 40 (by omega) salt0]

theorem decodeSig_error {n : ℕ} (hn : ValidLog n) {salt0 : Mem UInt8} {s20 : Mem Int} {e : UB} (hh : (m 0).toNat = 0x30 + n)
    (h : decompressSig n (rdE (sigLen n) m) s20 = .error e) : decodeSig n (rdArr (sigLen n) m) salt0 s20 = .error e := by
  have hb : 666 ≤ sigLen n := sigBytes_ge n
  have hh' : m 0 = 0x30 ||| UInt8.ofNat n := by
    apply UInt8.toNat_inj.mp
    rw [hh]
    rcases hn with rfl | rfl <;> rfl
  unfold decodeSig rdArr
  dsimp only
  rw [h, rdE_ok (by omega), bind_ok, if_neg (by rw [hh']; simp)]
  rfl

end Falcon
