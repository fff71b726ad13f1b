import Verif.Proofs.SignRun

/-!
# C49 : examples, violation, definedness
-/

namespace Falcon

open Finset Polynomial

/-- The key of the examples: f = 1, g = 0, so h = 0. -/
theorem exampleKey (n : ℕ) (hn : ValidLog n) : ∃ (h : Mem Ff) (pk : Mem UInt8), PkeyOf n pk h ∧
    NtruEq n (constMem 1) (fun _ => 0) (fun _ => 0) (constMem 12289) ∧
    ModEqXN (2 ^ n) (polyZq (2 ^ n) h * polyInt (2 ^ n) (constMem 1)) (polyInt (2 ^ n) fun _ => 0) ∧
    ∃ r, ModEqXN (2 ^ n) (polyInt (2 ^ n) (constMem 1) * r) 1 := by
  have hN : 0 < 2 ^ n := by positivity
  have h1 : polyInt (2 ^ n) (constMem 1) = 1 := by rw [polyInt_map, polyZ_const hN]; simp
  have h0 : polyInt (2 ^ n) (fun _ => 0) = 0 := by rw [polyInt_map, polyZ_zero (fun _ _ => rfl)]; simp
  have hz : polyZq (2 ^ n) (fun _ => Ff.zero) = 0 := by
    unfold polyZq toPoly
    refine sum_eq_zero fun i _ => ?_
    have : Ff.zero.val = 0 := by decide
    simp [this]
  refine ⟨fun _ => Ff.zero, fun j => if j = 0 then UInt8.ofNat n else 0, ⟨?_, ?_, ?_⟩, ntruEq_example n _, ?_, 1, ?_⟩
  · rcases hn with rfl | rfl <;> rfl
  · intro i _; show Ff.zero.v.toNat < _; decide
  · rw [sum_eq_zero, sum_eq_zero]
    · intro i _; show Ff.zero.v.toNat * _ = 0; rw [show Ff.zero.v.toNat = 0 from rfl, zero_mul]
    · intro i _
      beta_reduce
      rw [if_neg (by omega)]
      show 0 * _ = 0
      rw [zero_mul]
  · rw [hz, h1, h0]; exact ⟨0, by simp⟩
  · rw [h1]; exact ⟨0, by simp⟩

/-- The hypotheses of `C49_sign_verifies` are met by a run that returns a signature of the vector (1000, 0, ...). -/
example (B0 T : Mem ℂ) (stream : ℕ → UInt8) (msg : List UInt8) (sig : Mem UInt8) :
    ∃ (h : Mem Ff) (xof : Xof) (leaf : LeafSampler ℝ) (sig' : Mem UInt8) (pos' : ℕ),
      NtruEq 9 (constMem 1) (fun _ => 0) (fun _ => 0) (constMem 12289) ∧
      ModEqXN (2 ^ 9) (polyZq (2 ^ 9) h * polyInt (2 ^ 9) (constMem 1)) (polyInt (2 ^ 9) fun _ => 0) ∧
      (∃ r, ModEqXN (2 ^ 9) (polyInt (2 ^ 9) (constMem 1) * r) 1) ∧
      signPoly exactA xof leaf 1 16 9
        (computeMatrixB exactA 9 (constMem 1) (fun _ => 0) (fun _ => 0) (constMem 12289) B0) T stream msg sig 0 =
        some (.ok (sig', pos')) ∧ SignatureOf 9 sig' stream (constMem 1000) := by
  obtain ⟨h, pk, -, h1, h2, h3⟩ := exampleKey 9 (Or.inl rfl)
  obtain ⟨sig', pos', e1, e2⟩ := sign_run (Or.inl rfl : ValidLog 9) 1000 (by norm_num) B0 T stream msg sig 0
    (fun _ => streamOf fun _ => 0) (fun _ _ => rfl)
  exact ⟨h, _, _, sig', pos', h1, h2, h3, e1, by simpa only [Nat.zero_add] using e2⟩

/-- The code of -1024 in front is refused: eight zeros after a minus sign and seven zeros. -/
theorem minus1024_refused {n : ℕ} {sig : Mem UInt8} {salt : ℕ → UInt8}
    (h : SignatureOf n sig salt (constMem (-1024))) : ∀ s2, ¬ SigOf n sig s2 := by
  rintro s2 ⟨-, cs, pos, p0, hch, -, -⟩
  have hb := sigBytes_ge n
  obtain ⟨-, -, -, hbit⟩ := h
  obtain ⟨c1, c2, -⟩ := hch 0 (by positivity)
  rw [p0] at c2
  have hpre : ∀ N, 0 < N → ∃ r, codes (constMem (-1024)) N = codeBits (-1024) ++ r := by
    intro N hN
    induction N, hN using Nat.le_induction with
    | base => exact ⟨[], by simp [codes, constMem]⟩
    | succ N _ ih => obtain ⟨r, hr⟩ := ih; exact ⟨r ++ codeBits (constMem (-1024) N), by rw [codes, hr, List.append_assoc]⟩
  obtain ⟨r, hr⟩ := hpre (2 ^ n) (by positivity)
  have hcode : codeBits (-1024) = true :: List.replicate 15 false ++ [true] := by decide
  have hbit' : ∀ i, i < 16 → bitAt sig (328 + i) = decide (i = 0) := by
    intro i hi
    rw [hbit i (by omega), hr, hcode]
    interval_cases i <;> rfl
  have hlow : ∀ low, low < 128 → (∀ t, t < 7 → low.testBit t = false) → low = 0 := by
    intro low hl ht
    apply Nat.eq_of_testBit_eq
    intro t
    rw [Nat.zero_testBit]
    by_cases h : t < 7
    · exact ht t h
    · exact Nat.testBit_lt_two_pow (hl.trans_le (by
        calc 128 = 2 ^ 7 := rfl
          _ ≤ 2 ^ t := Nat.pow_le_pow_right (by norm_num) (by omega)))
  have hb7 : ∀ low, (bits7 low).length = 7 := fun low => by simp [bits7]
  have hlow' : ∀ (neg : Bool) low r', Matches sig 328 (neg :: (bits7 low ++ r')) → low < 128 → neg = true ∧ low = 0 := by
    intro neg low r' hm hl
    constructor
    · have := hm 0 (by simp)
      rw [hbit' 0 (by norm_num)] at this
      simpa using this.symm
    · refine hlow low hl fun t ht => ?_
      have := hm (1 + (6 - t)) (by simp [hb7]; omega)
      rw [hbit' _ (by omega)] at this
      have e : (neg :: (bits7 low ++ r'))[1 + (6 - t)]'(by simp [hb7]; omega) = low.testBit t := by
        simp only [show 1 + (6 - t) = (6 - t) + 1 by omega, List.getElem_cons_succ]
        rw [List.getElem_append_left (by rw [hb7]; omega)]
        simp [bits7, show 6 - (6 - t) = t by omega]
      rw [e] at this
      rw [← this]
      simp
  generalize hx : s2 0 = x at c1
  generalize hcs : cs 0 = L at c1 c2
  cases c1 with
  | short neg low k hl hk hz =>
    rw [List.append_assoc] at c2
    obtain ⟨e1, e2⟩ := hlow' neg low _ c2 hl
    have := c2 (8 + k) (by simp [hb7]; omega)
    rw [hbit' _ (by omega)] at this
    have e : (neg :: (bits7 low ++ (List.replicate k false ++ [true])))[8 + k]'(by simp [hb7]; omega) = true := by
      simp only [show 8 + k = (7 + k) + 1 by omega, List.getElem_cons_succ]
      rw [List.getElem_append_right (by rw [hb7]; omega)]
      simp only [hb7, show 7 + k - 7 = k by omega]
      rw [List.getElem_append_right (by simp)]
      simp
    rw [e] at this
    simp at this
  | long neg low j oct last hl hz ho hne =>
    rw [List.append_assoc, List.append_assoc] at c2
    obtain ⟨e1, e2⟩ := hlow' neg low _ c2 hl
    exact hz ⟨e1, e2⟩

/-- C49, the side condition on s2 cannot be dropped: for both parameter sets there are a key satisfying the
hypotheses, a hash and a sampler such that signing returns a signature, encoding a short preimage, which
verification rejects. -/
theorem C49_violated (n : ℕ) (hn : ValidLog n) (B0 T : Mem ℂ) (stream : ℕ → UInt8) (msg : List UInt8)
    (sig : Mem UInt8) : ∃ (f g F G : Mem Int) (h : Mem Ff) (pk : Mem UInt8) (xof : Xof) (leaf : LeafSampler ℝ)
      (sig' : Mem UInt8) (pos' : ℕ),
      NtruEq n f g F G ∧ ModEqXN (2 ^ n) (polyZq (2 ^ n) h * polyInt (2 ^ n) f) (polyInt (2 ^ n) g) ∧
      (∃ r, ModEqXN (2 ^ n) (polyInt (2 ^ n) f * r) 1) ∧ PkeyOf n pk h ∧
      signPoly exactA xof leaf 1 16 n (computeMatrixB exactA n f g F G B0) T stream msg sig 0 =
        some (.ok (sig', pos')) ∧
      ∀ (p : Ovf) (junk : Junk) (lim fuel : ℕ), sigBytes n + 2 ≤ lim →
        verify xof fuel p n junk pk msg (rdArr lim sig') = some (.ok false) := by
  obtain ⟨h, pk, h0, h1, h2, h3⟩ := exampleKey n hn
  obtain ⟨sig', pos', e1, e2⟩ := sign_run hn (-1024) (by norm_num) B0 T stream msg sig 0
    (fun _ => streamOf fun _ => 0) (fun _ _ => rfl)
  exact ⟨_, _, _, _, h, pk, _, _, sig', pos', h1, h2, h3, h0, e1,
    fun p junk lim fuel hlim => verify_reject hn hlim (Or.inr (minus1024_refused e2))⟩

/-! ### Definedness -/

theorem sample_defined {R C : Type} (A : Arith R C) (leaf : LeafSampler R)
    (hl : ∀ mu s p e, leaf mu s p ≠ some (.error e)) : ∀ (t : FTree C) (k : ℕ) (t0 t1 : Mem C) (pos : ℕ) (e : UB),
    sampleTree A leaf k t t0 t1 pos ≠ some (.error e) := by
  intro t
  induction t with
  | leaf v =>
    intro k t0 t1 pos e h
    unfold sampleTree at h
    rcases bindO_some h with ⟨u, h, -⟩ | ⟨a, -, h⟩
    · exact hl _ _ _ _ h
    · rcases bindO_some h with ⟨u, h, -⟩ | ⟨b, -, h⟩
      · exact hl _ _ _ _ h
      · cases h
  | node l L R ihL ihR =>
    intro k t0 t1 pos e h
    unfold sampleTree at h
    rcases bindO_some h with ⟨u, h, -⟩ | ⟨a, -, h⟩
    · exact ihR _ _ _ _ _ h
    · rcases bindO_some h with ⟨u, h, -⟩ | ⟨b, -, h⟩
      · exact ihL _ _ _ _ _ h
      · cases h

theorem ffSampling_defined {R C : Type} (A : Arith R C) (leaf : LeafSampler R)
    (hl : ∀ mu s p e, leaf mu s p ≠ some (.error e)) (k : ℕ) (t0 t1 T z0 z1 : Mem C) (pos : ℕ) (e : UB) :
    ffSampling A leaf k 0 t0 t1 T z0 z1 pos ≠ some (.error e) := by
  intro h
  have hrel := ffSampling_rel A leaf k 0 t0 t1 T z0 z1 t0 t1 pos _ (treeOf_rep k 0 T) (fun _ _ => rfl) (fun _ _ => rfl)
  rw [h] at hrel
  cases hs : sampleTree A leaf k (treeOf k 0 T) t0 t1 pos with
  | none => rw [hs] at hrel; exact hrel.elim
  | some r =>
    cases r with
    | error e' => exact sample_defined A leaf hl _ _ _ _ _ _ hs
    | ok r => rw [hs] at hrel; exact hrel.elim

/-- C49, definedness. In exact arithmetic signing has no undefined behaviour of its own: for keys satisfying the
NTRU equation neither the conversion of coefficients to integers nor the compression can fail, in any round. -/
theorem C49_defined {n : ℕ} (hn : ValidLog n) {f g F G : Mem Int} (heq : NtruEq n f g F G) (xof : Xof)
    (leaf : LeafSampler ℝ) (hl : ∀ mu s p e, leaf mu s p ≠ some (.error e)) (fuel hfuel : ℕ) (B0 T : Mem ℂ)
    (stream : ℕ → UInt8) (msg : List UInt8) (sig : Mem UInt8) (pos : ℕ) (e : UB) :
    signPoly exactA xof leaf fuel hfuel n (computeMatrixB exactA n f g F G B0) T stream msg sig pos ≠
      some (.error e) := by
  have hn10 : n ≤ 10 := by rcases hn with rfl | rfl <;> norm_num
  have hloop : ∀ (c : Mem Ff) (fuel : ℕ) (sig : Mem UInt8) (pos : ℕ) (e : UB),
      signLoop exactA leaf n (computeMatrixB exactA n f g F G B0) T
        (signTarget exactA n (computeMatrixB exactA n f g F G B0) c).1
        (signTarget exactA n (computeMatrixB exactA n f g F G B0) c).2 fuel sig pos ≠ some (.error e) := by
    intro c fuel
    induction fuel with
    | zero => intro sig pos e h; cases h
    | succ fuel ih =>
      intro sig pos e h
      unfold signLoop at h
      rcases bindO_some h with ⟨u, h, -⟩ | ⟨z, hz, h⟩
      · exact ffSampling_defined exactA leaf hl _ _ _ _ _ _ _ _ h
      obtain ⟨a0, a1, ha0, ha1⟩ := C48_integer leaf n hn10 _ _ T _ _ pos z hz
      obtain ⟨u0, u1, -, -, d0, d1⟩ := signVec_int hn10 heq B0 c ha0 ha1
      simp only at h
      split at h
      · rename_i hle
        have hnorm := (signNorm_int hn d0 d1).mp hle
        obtain ⟨s2, r1, r2, -⟩ := signRound_int hn10 d1 (fun i hi => coeff_le_norm hnorm i hi)
        have hsq : ∑ i ∈ Finset.range (2 ^ n), s2 i ^ 2 ≤ betaSq n := by
          have e1 : sqNorm (2 ^ n) s2 = sqNorm (2 ^ n) u1 := sqNorm_congr r2
          have e2 := sqNorm_nonneg (2 ^ n) u0
          unfold sqNorm at e1 e2 hnorm
          omega
        obtain ⟨r, hr⟩ := C16_compress_defined hn s2 sig hsq
        rw [r1, bindO_pure, hr, bindO_pure] at h
        split at h
        · cases h
        · exact ih _ _ _ h
      · exact ih _ _ _ h
  intro h
  unfold signPoly at h
  simp only at h
  split at h
  · cases h
  · rcases bindO_some h with ⟨u, h, -⟩ | ⟨r, -, h⟩
    · exact hloop _ _ _ _ _ h
    · cases h

/-- The sampler of the examples never fails. -/
example (v : ℕ → ℤ) : ∀ mu s p e, posLeaf v mu s p ≠ some (.error e) := by
  intro mu s p e h; cases h

end Falcon
