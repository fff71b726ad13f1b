import Verif.Proofs.BerAccuracy
import Mathlib.Logic.Equiv.Fin.Basic

/-! # Counting the byte strings on which one iteration of `samplerz` outputs a value -/

namespace Falcon

theorem card_append (m n : ℕ) (P : (Fin m → UInt8) → Prop) (Q : (Fin n → UInt8) → Prop)
    [DecidablePred P] [DecidablePred Q] :
    (Finset.univ.filter fun v : Fin (m + n) → UInt8 =>
      P (fun i => v (Fin.castAdd n i)) ∧ Q (fun i => v (Fin.natAdd m i))).card
      = (Finset.univ.filter P).card * (Finset.univ.filter Q).card := by
  rw [← Finset.card_product]
  refine Finset.card_equiv (Fin.appendEquiv m n).symm fun v => ?_
  simp only [Finset.mem_filter, Finset.mem_univ, true_and, Finset.mem_product]
  rfl

theorem memOf_castAdd (m n : ℕ) (v : Fin (m + n) → UInt8) (i : ℕ) (h : i < m) :
    memOf (fun j => v (Fin.castAdd n j)) i = memOf v i := by
  rw [memOf_lt _ _ h, memOf_lt _ _ (by omega)]
  rfl

theorem memOf_natAdd (m n : ℕ) (v : Fin (m + n) → UInt8) (i : ℕ) (h : i < n) :
    memOf (fun j => v (Fin.natAdd m j)) i = memOf v (m + i) := by
  rw [memOf_lt _ _ h, memOf_lt _ _ (by omega)]
  rfl

theorem card_bit (b : Bool) : (Finset.univ.filter fun v : Fin 1 → UInt8 => (v 0 &&& 1 == 1) = b).card = 128 := by
  have e : (Finset.univ.filter fun v : Fin 1 → UInt8 => (v 0 &&& 1 == 1) = b).card
      = (Finset.univ.filter fun v : Fin 256 => decide (v.1 % 2 = 1) = b).card := by
    refine Finset.card_equiv ((Equiv.funUnique (Fin 1) UInt8).trans
      ⟨fun x => ⟨x.toNat, x.toNat_lt⟩, fun x => UInt8.ofNat x.1, fun x => UInt8.ofNat_toNat,
        fun x => Fin.ext (by show (UInt8.ofNat x.1).toNat = x.1; rw [UInt8.toNat_ofNat']; omega)⟩) fun v => ?_
    simp only [Finset.mem_filter, Finset.mem_univ, true_and]
    have : (v 0 &&& 1 == 1) = decide ((v 0).toNat % 2 = 1) := by
      rw [Bool.eq_iff_iff, beq_iff_eq, decide_eq_true_eq, ← UInt8.toNat_inj, UInt8.toNat_and]
      rw [show (1 : UInt8).toNat = 1 from rfl, Nat.and_one_is_mod]
    rw [this]
    rfl
  rw [e]
  cases b <;> decide +kernel

/-- The base value and sign from which the offset `k` arises. -/
def offBase (k : ℤ) : ℕ := if 1 ≤ k then (k - 1).toNat else (-k).toNat
def offSign (k : ℤ) : Bool := decide (1 ≤ k)

theorem szZ_iff (b : Bool) (z0 : ℕ) (k : ℤ) : szZ b z0 = k ↔ b = offSign k ∧ z0 = offBase k := by
  unfold szZ offSign offBase
  cases b
  · by_cases h : 1 ≤ k <;> simp [h] <;> omega
  · by_cases h : 1 ≤ k <;> simp [h] <;> omega

theorem szIter_some_iff {fma : Bool} {mu sigma sigmin : ℝ} (stream : ℕ → UInt8)
    (hm0 : -2147483630 ≤ ⌊mu⌋) (hm1 : ⌊mu⌋ < 2147483629) (h0 : 6 / 5 ≤ sigma)
    (h1 : sigma ≤ sigmaMax) (c0 : 0 ≤ sigmin) (c1 : sigmin ≤ 2)
    (hs : ∀ b z0, z0 ≤ 18 → SafeRed fma (szX mu sigma b z0)) (k : ℤ) :
    (∃ p, szIter fma mu sigma sigmin stream 0 = .ok (some (⌊mu⌋ + k), p)) ↔
      (baseSampler stream).toNat = offBase k ∧ (stream 9 &&& 1 == 1) = offSign k ∧
      beVal 8 (fun i => stream (10 + i))
        < (thrF fma (szX mu sigma (offSign k) (offBase k)) (fdiv sigmin sigma)).toNat := by
  have hst : (fun i => stream (0 + i)) = stream := by funext i; rw [Nat.zero_add]
  have heq := szIterF_eq (fma := fma) (mu := mu) (sigma := sigma) (sigmin := sigmin) stream 0 hm0 hm1 h0 h1 c0 c1
    (baseSampler stream).toNat (stream 9 &&& 1 == 1) _ (by rw [hst]) (by rw [Nat.zero_add])
    (hs _ _ (baseSampler_le _)) rfl
  rw [heq, Nat.zero_add]
  generalize (baseSampler stream).toNat = z0
  generalize (stream 9 &&& 1 == 1) = b
  have hl := berLoop_spec (thrF fma (szX mu sigma b z0) (fdiv sigmin sigma)) stream 7 10 (by norm_num)
  have hlt : (thrF fma (szX mu sigma b z0) (fdiv sigmin sigma)).toNat < 256 ^ (7 + 1) := by
    have := (thrF fma (szX mu sigma b z0) (fdiv sigmin sigma)).toNat_lt
    rw [show (256 : ℕ) ^ (7 + 1) = 2 ^ 64 by norm_num]
    exact this
  rw [Nat.mod_eq_of_lt hlt] at hl
  rw [show 8 * (7 + 1) = 64 from rfl] at hl
  have hz := szZ_iff b z0 k
  constructor
  · rintro ⟨p, hp⟩
    have hp := Prod.ext_iff.mp (Except.ok.inj hp)
    have hp := hp.1
    simp only at hp
    split at hp
    · rename_i ht
      have hk : szZ b z0 = k := by have := Option.some.inj hp; omega
      obtain ⟨rfl, rfl⟩ := hz.mp hk
      rw [hl, decide_eq_true_eq] at ht
      exact ⟨rfl, rfl, ht⟩
    · cases hp
  · rintro ⟨rfl, rfl, ht⟩
    have hk := hz.mpr ⟨rfl, rfl⟩
    refine ⟨(berLoop (thrF fma (szX mu sigma (offSign k) (offBase k)) (fdiv sigmin sigma)) stream 64 10).2, ?_⟩
    have : (berLoop (thrF fma (szX mu sigma (offSign k) (offBase k)) (fdiv sigmin sigma)) stream 64 10).1 = true := by
      rw [hl, decide_eq_true_eq]; exact ht
    rw [if_pos this, hk, Int.add_comm]

open Classical in
theorem szIter_count {fma : Bool} {mu sigma sigmin : ℝ} (hm0 : -2147483630 ≤ ⌊mu⌋) (hm1 : ⌊mu⌋ < 2147483629)
    (h0 : 6 / 5 ≤ sigma) (h1 : sigma ≤ sigmaMax) (c0 : 0 ≤ sigmin) (c1 : sigmin ≤ 2)
    (hs : ∀ b z0, z0 ≤ 18 → SafeRed fma (szX mu sigma b z0)) (k : ℤ)
    (hk0 : -18 ≤ k) (hk1 : k ≤ 19) :
    (Finset.univ.filter fun v : Fin 18 → UInt8 =>
      ∃ p, szIter fma mu sigma sigmin (memOf v) 0 = .ok (some (⌊mu⌋ + k), p)).card
    = pdtSpec.getD (offBase k) 0 * (128 *
        (thrF fma (szX mu sigma (offSign k) (offBase k)) (fdiv sigmin sigma)).toNat) := by
  obtain ⟨T, hT⟩ : ∃ T, T = (thrF fma (szX mu sigma (offSign k) (offBase k)) (fdiv sigmin sigma)).toNat := ⟨_, rfl⟩
  have hTlt : T ≤ 256 ^ 8 := by
    rw [hT, show (256 : ℕ) ^ 8 = 2 ^ 64 by norm_num]
    exact (thrF fma (szX mu sigma (offSign k) (offBase k)) (fdiv sigmin sigma)).toNat_lt.le
  have hb : offBase k ≤ 18 := by unfold offBase; split <;> omega
  have e1 := card_append 9 (1 + 8)
    (fun a => pdtTail (offBase k + 1) ≤ leVal 9 (memOf a) ∧ leVal 9 (memOf a) < pdtTail (offBase k))
    (fun w => ((w (Fin.castAdd 8 0) &&& 1 == 1) = offSign k) ∧
      beVal 8 (memOf fun i => w (Fin.natAdd 1 i)) < T)
  have e2 := card_append 1 8 (fun a => (a 0 &&& 1 == 1) = offSign k) (fun c => beVal 8 (memOf c) < T)
  have c1' := card_leVal 9 (pdtTail (offBase k + 1)) (pdtTail (offBase k)) (by
    have := pdtTail_anti 0 (offBase k) (by omega) (by omega)
    rw [pdtTail_zero] at this
    rw [show (256 : ℕ) ^ 9 = 2 ^ 72 by norm_num]
    exact this)
  have c2' := card_beVal 8 T hTlt
  have c3' := card_bit (offSign k)
  have hsub := pdtTail_sub (offBase k) (by omega)
  have hsub' : pdtTail (offBase k) - pdtTail (offBase k + 1) = pdtSpec.getD (offBase k) 0 := by omega
  rw [hsub'] at c1'
  rw [← hT]
  rw [c1', e2, c3', c2'] at e1
  rw [← e1]
  refine congrArg Finset.card (Finset.filter_congr fun v _ => ?_)
  rw [szIter_some_iff (memOf v) hm0 hm1 h0 h1 c0 c1 hs k, ← hT, baseSampler_iff _ _ hb]
  have q1 : leVal 9 (memOf fun i => v (Fin.castAdd (1 + 8) i)) = leVal 9 (memOf v) :=
    leVal_congr _ _ _ fun i hi => memOf_castAdd 9 (1 + 8) v i hi
  have q2 : v (Fin.natAdd 9 (Fin.castAdd 8 (0 : Fin 1))) = memOf v 9 := by
    rw [memOf_lt _ _ (by norm_num)]; rfl
  have q3 : beVal 8 (memOf fun i : Fin 8 => v (Fin.natAdd 9 (Fin.natAdd 1 i))) = beVal 8 (fun i => memOf v (10 + i)) := by
    unfold beVal
    refine leVal_congr _ _ _ fun i hi => ?_
    show memOf _ (8 - 1 - i) = memOf v (10 + (8 - 1 - i))
    rw [memOf_lt _ _ (by omega), memOf_lt _ _ (by omega)]
    exact congrArg v (Fin.ext (by show 9 + (1 + (8 - 1 - i)) = 10 + (8 - 1 - i); omega))
  beta_reduce
  rw [q1, q2, q3]

end Falcon
