import Verif.Props.Syndrome
import Verif.Props.Load
import Verif.Props.FloatRun

/-!
# C111: a signature is not bound to the public key
-/

namespace Falcon

open Polynomial

/-- The public key that someone computes with the function for public keys of the library from the vector `s2` of a signature, the hashed
point and a vector `s1` of their choice: (c - s1) / s2. -/
def substKey (n : ℕ) (c : Mem Ff) (s1 s2 : Mem Int) : Mem UInt8 :=
  encodePkey n (computePublicKey n s2 (fun i => hashInt c i - s1 i) fun _ => Ff.zero) fun _ => 0

theorem substKey_spec {n : ℕ} (hn : ValidLog n) {c : Mem Ff} (hc : CanonBelow (2 ^ n) c) {s1 s2 : Mem Int}
    (h1 : ∀ i, i < 2 ^ n → 0 ≤ s1 i ∧ s1 i ≤ 6143) (h2 : ∀ i, i < 2 ^ n → (s2 i).natAbs ≤ 1023)
    (hinv : ∃ r, ModEqXN (2 ^ n) (polyInt (2 ^ n) s2 * r) 1) :
    ∃ h, PkeyOf n (substKey n c s1 s2) h ∧ CanonBelow (2 ^ n) h ∧ Preimage (2 ^ n) h c s1 s2 := by
  obtain ⟨p1, p2, -⟩ := C37_public_key hn (f := s2) (g := fun i => hashInt c i - s1 i) (fun _ => Ff.zero)
    (fun i hi => by have := h2 i hi; constructor <;> omega)
    (fun i hi => by
      have := h1 i hi
      have hv : (c i).v.toNat < 12289 := hc i hi
      show -12289 ≤ hashInt c i - s1 i ∧ hashInt c i - s1 i < 12289
      unfold hashInt
      constructor <;> omega) hinv
  refine ⟨_, pkeyOf_encode hn (canon_fits p1) _, p1, ?_⟩
  have e : polyInt (2 ^ n) (fun i => hashInt c i - s1 i) = polyZq (2 ^ n) c - polyInt (2 ^ n) s1 := by
    unfold polyInt polyZq
    rw [← toPoly_sub]
    refine toPoly_congr fun i _ => ?_
    unfold hashInt Ff.val
    push_cast
    rfl
  rw [e] at p2
  unfold Preimage
  unfold ModEqXN at p2 ⊢
  have : polyInt (2 ^ n) s1 + polyInt (2 ^ n) s2 * polyZq (2 ^ n) (computePublicKey n s2 (fun i => hashInt c i - s1 i) fun _ => Ff.zero) -
      polyZq (2 ^ n) c =
      polyZq (2 ^ n) (computePublicKey n s2 (fun i => hashInt c i - s1 i) fun _ => Ff.zero) * polyInt (2 ^ n) s2 -
      (polyZq (2 ^ n) c - polyInt (2 ^ n) s1) := by ring
  rw [this]
  exact p2

/-- C111. Any byte string that decodes to a vector s2 which is invertible modulo q and not too long is an accepted signature of every
message, for the public key that is computed from it without any secret; and different s1 give different public keys. -/
theorem C111_substitute {n lim : ℕ} (hn : ValidLog n) (hlim : sigBytes n + 2 ≤ lim) {sig : Mem UInt8} {s2 : Mem Int} (hs : SigOf n sig s2)
    (hinv : ∃ r, ModEqXN (2 ^ n) (polyInt (2 ^ n) s2 * r) 1) {xof : Xof} {fuel : ℕ} {msg : List UInt8} {c : Mem Ff}
    (hc : hashToPoint fuel n (xof (saltMsg sig msg)) (fun _ => Ff.zero) = some c) {s1 : Mem Int}
    (h1 : ∀ i, i < 2 ^ n → 0 ≤ s1 i ∧ s1 i ≤ 6143) (hshort : sqNorm (2 ^ n) s1 + sqNorm (2 ^ n) s2 ≤ betaSq n) :
    (∀ (p : Ovf) (junk : Junk), verify xof fuel p n junk (substKey n c s1 s2) msg (rdArr lim sig) = some (.ok true)) ∧
    ∀ s1' : Mem Int, (∀ i, i < 2 ^ n → 0 ≤ s1' i ∧ s1' i ≤ 6143) → (∃ i, i < 2 ^ n ∧ s1 i ≠ s1' i) →
      ∃ j, j < pkBytes n ∧ substKey n c s1 s2 j ≠ substKey n c s1' s2 j := by
  have hcan := (hashToPoint_spec hc).1.canon
  obtain ⟨h, k1, k2, k3⟩ := substKey_spec hn hcan h1 hs.bound hinv
  refine ⟨fun p junk => C28_complete hn hlim p k1 hs hc k3 hshort fun _ i hi => by have := h1 i hi; omega, fun s1' h1' hne => ?_⟩
  obtain ⟨h', k1', k2', k3'⟩ := substKey_spec hn hcan h1' hs.bound hinv
  by_contra hno
  push Not at hno
  have hb : 1 ≤ pkBytes n := by rcases hn with rfl | rfl <;> decide
  have hpk : PkeyOf n (substKey n c s1 s2) h' := by
    refine ⟨by rw [hno 0 (by omega)]; exact k1'.1, k1'.2.1, ?_⟩
    rw [← k1'.2.2]
    exact Finset.sum_congr rfl fun j hj => by rw [hno (1 + j) (by have := Finset.mem_range.mp hj; omega)]
  have hh := k1.unique hpk
  have e : polyZq (2 ^ n) h = polyZq (2 ^ n) h' := toPoly_congr fun i hi => by rw [hh i hi]
  unfold Preimage at k3'
  rw [← e] at k3'
  obtain ⟨i, hi, hd⟩ := hne
  have := preimage_cong (Nat.two_pow_pos n) k3 k3' i hi
  rw [ZMod.intCast_eq_intCast_iff_dvd_sub] at this
  have a := h1 i hi
  have b := h1' i hi
  have hq : ((q : ℕ) : ℤ) = 12289 := rfl
  rw [hq] at this
  omega

/-- C111, the consequence for an honest signer: for every accepted signature with an invertible s2 whose length is below the bound and for
every message, of the signer or of somebody else, there is another public key for which the signature is accepted. -/
theorem C111_other_key {n lim : ℕ} (hn : ValidLog n) (hlim : sigBytes n + 2 ≤ lim) {sig : Mem UInt8} {s2 : Mem Int} (hs : SigOf n sig s2)
    (hinv : ∃ r, ModEqXN (2 ^ n) (polyInt (2 ^ n) s2 * r) 1) (hshort : sqNorm (2 ^ n) s2 < betaSq n) {xof : Xof} {fuel : ℕ}
    {msg : List UInt8} {c : Mem Ff} (hc : hashToPoint fuel n (xof (saltMsg sig msg)) (fun _ => Ff.zero) = some c) (pk : Mem UInt8) :
    ∃ pk', (∃ j, j < pkBytes n ∧ pk' j ≠ pk j) ∧
      ∀ (p : Ovf) (junk : Junk), verify xof fuel p n junk pk' msg (rdArr lim sig) = some (.ok true) := by
  have hz : sqNorm (2 ^ n) (fun _ => 0) = 0 := by unfold sqNorm; simp
  have ho : sqNorm (2 ^ n) (constMem 1) = 1 := by
    unfold sqNorm constMem
    rw [Finset.sum_eq_single 0]
    · simp
    · intro i _ hi; simp [hi]
    · intro h; exact absurd (Finset.mem_range.mpr (Nat.two_pow_pos n)) h
  have r0 : ∀ i, i < 2 ^ n → (0 : ℤ) ≤ (fun _ : ℕ => (0 : ℤ)) i ∧ (fun _ : ℕ => (0 : ℤ)) i ≤ 6143 := fun i _ => by simp
  have r1 : ∀ i, i < 2 ^ n → 0 ≤ constMem 1 i ∧ constMem 1 i ≤ 6143 := fun i _ => by unfold constMem; split <;> norm_num
  obtain ⟨v0, d⟩ := C111_substitute hn hlim hs hinv hc r0 (by rw [hz]; omega)
  obtain ⟨v1, -⟩ := C111_substitute hn hlim hs hinv hc r1 (by rw [ho]; omega)
  obtain ⟨j, hj, hne⟩ := d (constMem 1) r1 ⟨0, Nat.two_pow_pos n, by unfold constMem; simp⟩
  by_cases h : substKey n c (fun _ => 0) s2 j = pk j
  · exact ⟨_, ⟨j, hj, fun e => hne (h.trans e.symm)⟩, v1⟩
  · exact ⟨_, ⟨j, hj, h⟩, v0⟩

/-- The hypotheses are met: a signature of 30 - 31 X^256. -/
example : ∃ (sig : Mem UInt8) (s2 : Mem Int), SigOf 9 sig s2 ∧ (∃ r, ModEqXN (2 ^ 9) (polyInt (2 ^ 9) s2 * r) 1) ∧
    sqNorm (2 ^ 9) s2 < betaSq 9 ∧ s2 0 = 30 := by
  obtain ⟨-, -, hinv⟩ := smallKey_public
  have hb : ∀ i, |twoMem 30 (-31) i| ≤ 1023 := fun i => by unfold twoMem; split_ifs <;> norm_num
  have hlen : (codes (twoMem 30 (-31)) (2 ^ 9)).length = 9 * 2 ^ 9 := by
    rw [codes_length]
    have : ∀ i, 9 + (twoMem 30 (-31) i).natAbs / 128 = 9 := fun i => by unfold twoMem; split_ifs <;> norm_num
    simp only [this]
    simp
  let bits : ℕ → Bool := fun i => if i < 328 then (0x39 : ℕ).testBit (7 - i % 8) && decide (i < 8) else
    (codes (twoMem 30 (-31)) (2 ^ 9)).getD (i - 328) false
  refine ⟨memOfBits bits, twoMem 30 (-31), ⟨?_, ?_⟩, hinv, ?_, rfl⟩
  · have : memOfBits bits 0 = (fun _ => 0x39 : Mem UInt8) 0 := byte_eq_of_bits fun t ht => by
      rw [bitAt_memOfBits]
    rw [this]; rfl
  · refine BodyEnd.body (e := 328 + (flat (fun i => codeBits (twoMem 30 (-31) i)) (2 ^ 9)).length) (bodyEnd_of_flat (fun i _ => chunk_code ?_)
      ?_ fun i hi => ?_)
    · have := hb i
      rw [Int.abs_eq_natAbs] at this
      omega
    · rw [← codes_eq_flat, hlen]; decide
    · rw [bitAt_memOfBits, ← codes_eq_flat]
      show (if 328 + i < 328 then _ else _) = _
      rw [if_neg (by omega), Nat.add_sub_cancel_left]
  · rw [sqNorm_two]
    norm_num [betaSq]

end Falcon
