import Verif.Proofs.SigReads
import Verif.Props.Bench

/-!
# C110: which honest signatures make verification read behind the array, and what the programs do without bytes behind it
-/

namespace Falcon

/-- The codes of `s2` end at a byte boundary, or the last of them starts within the last 16 bits of the signature. -/
def EdgeVec (n : ℕ) (s2 : Mem Int) : Prop :=
  (codes s2 (2 ^ n)).length % 8 = 0 ∨ 8 * sigBytes n ≤ 328 + (codes s2 (2 ^ n - 1)).length + 16

theorem signature_chunks {n : ℕ} {sig : Mem UInt8} {salt : ℕ → UInt8} {s2 : Mem Int} (hs : SignatureOf n sig salt s2)
    (hb : ∀ i, i < 2 ^ n → |s2 i| ≤ 1023) :
    ChunkSeq sig (2 ^ n) 0 (fun i => codeBits (s2 i)) (fun i => 328 + (codes s2 i).length) s2 := by
  obtain ⟨-, -, hl, hbits⟩ := hs
  rw [codes_eq_flat] at hl hbits
  have hM : Matches sig 328 (flat (fun i => codeBits (s2 i)) (2 ^ n)) := Matches.getD.mpr fun i hi => hbits i (by omega)
  intro i _ hi
  refine ⟨chunk_code (by have := hb i hi; rw [Int.abs_eq_natAbs] at this; omega), ?_, ?_⟩
  · obtain ⟨r, hr⟩ := flat_prefix (fun i => codeBits (s2 i)) (by omega : i + 1 ≤ 2 ^ n)
    rw [hr, flat, List.append_assoc, Matches.append, Matches.append] at hM
    simp only [codes_eq_flat]
    exact hM.2.1
  · simp only [codes, List.length_append]; omega

/-- C110. Verification of a signature with coefficients below 1024 in an array of exactly the documented length, for any public key bytes:
if its codes neither end at a byte boundary nor reach the last 16 bits with their last element, then no read leaves the array and the
verdict is that with more readable bytes. Otherwise, and if the public key has the right header, verification reads outside of the
array. -/
theorem C110_verify {n : ℕ} (hn : ValidLog n) {sig : Mem UInt8} {salt : ℕ → UInt8} {s2 : Mem Int} (hs : SignatureOf n sig salt s2)
    (hb : ∀ i, i < 2 ^ n → |s2 i| ≤ 1023) (xof : Xof) (fuel : ℕ) (p : Ovf) (junk : Junk) (pk : Mem UInt8) (msg : List UInt8) :
    (¬ EdgeVec n s2 → verify xof fuel p n junk pk msg (rdArr (sigBytes n) sig) = verify xof fuel p n junk pk msg (rdArr (sigBytes n + 2) sig)) ∧
    (EdgeVec n s2 → (pk 0).toNat = n → ∃ e, verify xof fuel p n junk pk msg (rdArr (sigBytes n) sig) = some (.error e)) := by
  have hch := signature_chunks hs hb
  obtain ⟨hh, -, hl, hbits⟩ := hs
  have hz : ∀ i, 328 + (codes s2 (2 ^ n)).length ≤ i → i < 8 * sigLen n → bitAt sig i = false := by
    intro i h1 h2
    have := hbits (i - 328) (by rw [← sigLen_eq]; omega)
    rw [show 328 + (i - 328) = i by omega] at this
    rw [this]
    have : (codes s2 (2 ^ n)).length ≤ i - 328 := by omega
    simp only [List.getD, List.getElem?_eq_none this]; rfl
  obtain ⟨d1, d2⟩ := decompress_inside (n := n) (m := sig) (by simp [codes]) hch (by rw [sigLen_eq]; exact hl) hz junk.s2
  rw [sigLen_eq] at d1 d2
  constructor
  · intro he
    unfold EdgeVec at he
    push Not at he
    have := d1 ⟨by omega, by omega⟩
    unfold verify verifyPoly
    rw [show decodeSig n (rdArr (sigBytes n) sig) junk.salt junk.s2 = decodeSig n (rdArr (sigBytes n + 2) sig) junk.salt junk.s2 from
      decodeSig_cut this]
  · intro he hpk
    obtain ⟨e, h⟩ := d2 (by unfold EdgeVec at he; omega)
    obtain ⟨h', k1, -⟩ := decodePkey_of hn pk (fun _ => Ff.zero) hpk
    refine ⟨e, ?_⟩
    unfold verify verifyPoly
    rw [k1]
    simp only
    rw [show decodeSig n (rdArr (sigBytes n) sig) junk.salt junk.s2 = .error e from decodeSig_error hn hh h]

/-- The signature `sig`, made with the random stream `stream`, is one for which verification reads outside of the array. -/
def EdgeSig (n : ℕ) (stream : ℕ → UInt8) (sig : Mem UInt8) : Prop :=
  ∃ s2 : Mem Int, SignatureOf n sig stream s2 ∧ (∀ i, i < 2 ^ n → |s2 i| ≤ 1023) ∧ EdgeVec n s2

/-- One round with a key of `falcon::keygen`, with no readable byte behind the array of the signature. -/
theorem round_exact (b : Bool) (rm rd : F64.Recover) (hrd : F64.NoInvention rd) (fma : Bool) {n : ℕ} (hn : ValidLog n) (xof : Xof)
    (mt : UInt32 → Mem UInt8) (kfuel iters : ℕ) (kjunk : Ntru) (krd : UInt32) (pk0 sk0 pk sk : Mem UInt8)
    (hkey : falconKeygen (f64A b rm rd) xof mt fma n kfuel iters kjunk krd pk0 sk0 = some (.ok (pk, sk))) :
    ∃ (s : Ntru) (kpos : ℕ) (h : Mem Ff),
      ntruGen (redQuot (f64A b rm rd)) (gsTooBig (f64A b rm rd) n) fma n (prngNew xof mt krd) kfuel iters kjunk 0 = some (.ok (s, kpos)) ∧
      PkeyOf n pk h ∧
      (FitsFormat n s.f s.g s.F s.G → (∀ j, j < 2 ^ n → 1 / 2 ^ 10 ≤ ‖dft n (zC s.f) j‖) →
        ∀ (fuel lfuel hfuel : ℕ) (p : Ovf) (junk : CallJunk (F64 × F64)) (seed : UInt32) (msg : List UInt8) (sig : Mem UInt8)
          (r : Except UB (Bool × Mem UInt8)),
          falconSign (f64A b rm rd) xof mt (codeLeaf64 false n lfuel) fuel hfuel n junk.fgF junk.G junk.B junk.T seed sk msg sig = some r →
          ∃ sig', r = .ok (true, sig') ∧
            (verify xof hfuel p n junk.verify pk msg (rdArr (sigLen n + 0) sig') = some (.ok true) ∨
              (EdgeSig n (prngNew xof mt seed) sig' ∧
                ∃ e, verify xof hfuel p n junk.verify pk msg (rdArr (sigLen n + 0) sig') = some (.error e)) ∨
              BadSig n xof hfuel h (prngNew xof mt seed) msg sig')) := by
  obtain ⟨s, kpos, h, h1, -, h3, -, h5⟩ := C76_end_to_end b rm rd hrd fma hn xof mt kfuel iters kjunk krd pk0 sk0 pk sk hkey
  refine ⟨s, kpos, h, h1, h3, fun hfit hf0 fuel lfuel hfuel p junk seed msg sig r hr => ?_⟩
  obtain ⟨k1, k2⟩ := h5 hfit hf0 b rm rd fuel lfuel hfuel junk.fgF junk.G junk.B junk.T seed msg sig
  cases r with
  | error e => exact absurd hr (k1 e)
  | ok r =>
    obtain ⟨e, c, s1, s2, q1, q2, q3, q4, q5⟩ := k2 r.1 r.2 hr
    refine ⟨r.2, by rw [← e], ?_⟩
    by_cases hb : BadVec n s1 s2
    · exact Or.inr (Or.inr ⟨c, s1, s2, q1, q2, q3, q4, hb⟩)
    · obtain ⟨b1, b2, b3⟩ := not_bad hb
      obtain ⟨v1, v2⟩ := C110_verify hn q4 b2 xof hfuel p junk.verify pk msg
      rw [add_zero, sigLen_eq]
      by_cases he : EdgeVec n s2
      · exact Or.inr (Or.inl ⟨⟨s2, q4, b2, he⟩, v2 he h3.1⟩)
      · left
        rw [v1 he]
        exact q5 b1 b2 b3 p junk.verify _ le_rfl

/-- The loop of the test of signing when verification can be undefined. -/
theorem testSigningLoop_edge {R C : Type} (A : Arith R C) {xof : Xof} {mt : UInt32 → Mem UInt8} {leaf : (ℕ → UInt8) → LeafSampler R}
    {fuel hfuel : ℕ} {p : Ovf} {n slack : ℕ} {junk : ℕ → CallJunk C} {rds : ℕ → UInt32} {msgs : ℕ → UInt8} {pkey skey sig : Mem UInt8}
    {Bad Edge : ℕ → Mem UInt8 → Prop}
    (hstep : ∀ k sig r, falconSign A xof mt leaf fuel hfuel n (junk k).fgF (junk k).G (junk k).B (junk k).T (rds k) skey (testMsg msgs k)
      sig = some r → ∃ sig', r = .ok (true, sig') ∧
        (verify xof hfuel p n (junk k).verify pkey (testMsg msgs k) (rdArr (sigLen n + slack) sig') = some (.ok true) ∨
          (Edge k sig' ∧ ∃ e, verify xof hfuel p n (junk k).verify pkey (testMsg msgs k) (rdArr (sigLen n + slack) sig') = some (.error e)) ∨
          Bad k sig')) :
    ∀ (k : ℕ) (y : Except UB (Mem UInt8 × Bool)),
      testSigningLoop A xof mt leaf fuel hfuel p n slack junk rds msgs pkey skey sig k = some y →
      (∃ sig', y = .ok (sig', true)) ∨ ∃ j, j < k ∧ ∃ sig0 sig', falconSign A xof mt leaf fuel hfuel n (junk j).fgF (junk j).G (junk j).B
        (junk j).T (rds j) skey (testMsg msgs j) sig0 = some (.ok (true, sig')) ∧ ((Edge j sig' ∧ ∃ e, y = .error e) ∨ Bad j sig') := by
  intro k
  induction k with
  | zero => intro y h; exact Or.inl ⟨sig, (Option.some.inj h).symm⟩
  | succ k ih =>
    intro y h
    rw [testSigningLoop] at h
    cases hk : testSigningLoop A xof mt leaf fuel hfuel p n slack junk rds msgs pkey skey sig k with
    | none => rw [hk] at h; cases h
    | some st =>
      rcases ih st hk with ⟨sig', rfl⟩ | ⟨j, hj, s0, s1, hs, ⟨he, e, rfl⟩ | hb⟩
      · rw [hk, bindO_pure] at h
        simp only [bytes_prngRead] at h
        change bindO (falconSign A xof mt leaf fuel hfuel n (junk k).fgF (junk k).G (junk k).B (junk k).T (rds k) skey (testMsg msgs k)
          sig') (fun r => bindO (verify xof hfuel p n (junk k).verify pkey (testMsg msgs k) (rdArr (sigLen n + slack) r.2)) fun v =>
            some (.ok (r.2, true && (r.1 && v)))) = some y at h
        cases hr : falconSign A xof mt leaf fuel hfuel n (junk k).fgF (junk k).G (junk k).B (junk k).T (rds k) skey (testMsg msgs k)
          sig' with
        | none => rw [hr] at h; cases h
        | some r =>
          obtain ⟨s, rfl, hv | ⟨he, e, hv⟩ | hv⟩ := hstep k sig' r hr
          · rw [hr, bindO_pure, hv, bindO_pure] at h
            exact Or.inl ⟨s, (Option.some.inj h).symm⟩
          · rw [hr, bindO_pure, hv] at h
            exact Or.inr ⟨k, by omega, sig', s, hr, Or.inl ⟨he, e, (Option.some.inj h).symm⟩⟩
          · exact Or.inr ⟨k, by omega, sig', s, hr, Or.inr hv⟩
      · rw [hk] at h
        exact Or.inr ⟨j, by omega, s0, s1, hs, Or.inl ⟨he, e, (Option.some.inj h).symm⟩⟩
      · exact Or.inr ⟨j, by omega, s0, s1, hs, Or.inr hb⟩

/-- C110, the test of signing as it is, with no readable byte behind the array: it passes, or in one of its rounds verification reads
outside of the array and this is the outcome, or in one of its rounds the signature is that of a bad vector. -/
theorem C110_signing (b : Bool) (rm rd : F64.Recover) (hrd : F64.NoInvention rd) (fma : Bool) {n : ℕ} (hn : ValidLog n) (xof : Xof)
    (mt : UInt32 → Mem UInt8) (kfuel iters : ℕ) (kjunk : Ntru) (rng krd : UInt32) (pk0 sk0 pk sk sig : Mem UInt8)
    (hkey : falconKeygen (f64A b rm rd) xof mt fma n kfuel iters kjunk krd pk0 sk0 = some (.ok (pk, sk))) :
    ∃ (s : Ntru) (kpos : ℕ) (h : Mem Ff),
      ntruGen (redQuot (f64A b rm rd)) (gsTooBig (f64A b rm rd) n) fma n (prngNew xof mt krd) kfuel iters kjunk 0 = some (.ok (s, kpos)) ∧
      PkeyOf n pk h ∧
      (FitsFormat n s.f s.g s.F s.G → (∀ j, j < 2 ^ n → 1 / 2 ^ 10 ≤ ‖dft n (zC s.f) j‖) →
        ∀ (fuel lfuel hfuel : ℕ) (p : Ovf) (rounds : ℕ) (junk : ℕ → CallJunk (F64 × F64)) (rds : ℕ → UInt32) (x : Except UB Bool),
          testSigning (f64A b rm rd) xof mt (codeLeaf64 false n lfuel) fma kfuel iters fuel hfuel p n 0 rounds kjunk junk rng krd rds
            pk0 sk0 sig = some x →
          x = .ok true ∨ ∃ k, k < rounds ∧ ∃ sig0 sig',
            falconSign (f64A b rm rd) xof mt (codeLeaf64 false n lfuel) fuel hfuel n (junk k).fgF (junk k).G (junk k).B (junk k).T (rds k)
              sk (testMsg (prngNew xof mt rng) k) sig0 = some (.ok (true, sig')) ∧
            ((EdgeSig n (prngNew xof mt (rds k)) sig' ∧ ∃ e, x = .error e) ∨
              BadSig n xof hfuel h (prngNew xof mt (rds k)) (testMsg (prngNew xof mt rng) k) sig')) := by
  obtain ⟨s, kpos, h, h1, h3, h5⟩ := round_exact b rm rd hrd fma hn xof mt kfuel iters kjunk krd pk0 sk0 pk sk hkey
  refine ⟨s, kpos, h, h1, h3, fun hfit hf0 fuel lfuel hfuel p rounds junk rds x hx => ?_⟩
  unfold testSigning at hx
  simp only at hx
  rw [hkey, bindO_pure] at hx
  have key := testSigningLoop_edge (f64A b rm rd) (xof := xof) (mt := mt) (leaf := codeLeaf64 false n lfuel) (fuel := fuel) (hfuel := hfuel)
    (p := p) (n := n) (slack := 0) (junk := junk) (rds := rds) (msgs := prngNew xof mt rng) (pkey := pk) (skey := sk) (sig := sig)
    (Bad := fun k sig' => BadSig n xof hfuel h (prngNew xof mt (rds k)) (testMsg (prngNew xof mt rng) k) sig')
    (Edge := fun k sig' => EdgeSig n (prngNew xof mt (rds k)) sig')
    (fun k sig r hr => h5 hfit hf0 fuel lfuel hfuel p (junk k) (rds k) _ sig r hr) rounds
  cases hloop : testSigningLoop (f64A b rm rd) xof mt (codeLeaf64 false n lfuel) fuel hfuel p n 0 junk rds (prngNew xof mt rng) pk sk sig
      rounds with
  | none => rw [hloop] at hx; cases hx
  | some y =>
    rcases key y hloop with ⟨sig', rfl⟩ | ⟨j, hj, s0, s1, hs, ⟨he, e, rfl⟩ | hb⟩
    · left
      rw [hloop, bindO_pure] at hx
      exact (Option.some.inj hx).symm
    · rw [hloop] at hx
      exact Or.inr ⟨j, hj, s0, s1, hs, Or.inl ⟨he, e, (Option.some.inj hx).symm⟩⟩
    · exact Or.inr ⟨j, hj, s0, s1, hs, Or.inr hb⟩

/-- C110, the example that signs one message, as it is. -/
theorem C110_sign_one (b : Bool) (rm rd : F64.Recover) (hrd : F64.NoInvention rd) (fma : Bool) {n : ℕ} (hn : ValidLog n) (xof : Xof)
    (mt : UInt32 → Mem UInt8) (kfuel iters : ℕ) (kjunk : Ntru) (rng krd : UInt32) (pk0 sk0 pk sk sig : Mem UInt8)
    (hkey : falconKeygen (f64A b rm rd) xof mt fma n kfuel iters kjunk krd pk0 sk0 = some (.ok (pk, sk))) :
    ∃ (s : Ntru) (kpos : ℕ) (h : Mem Ff),
      ntruGen (redQuot (f64A b rm rd)) (gsTooBig (f64A b rm rd) n) fma n (prngNew xof mt krd) kfuel iters kjunk 0 = some (.ok (s, kpos)) ∧
      PkeyOf n pk h ∧
      (FitsFormat n s.f s.g s.F s.G → (∀ j, j < 2 ^ n → 1 / 2 ^ 10 ≤ ‖dft n (zC s.f) j‖) →
        ∀ (fuel lfuel hfuel : ℕ) (p : Ovf) (junk : CallJunk (F64 × F64)) (seed : UInt32) (x : Except UB Bool),
          let msg := (List.range 32).map (prngNew xof mt rng)
          signOne (f64A b rm rd) xof mt (codeLeaf64 false n lfuel) fma kfuel iters fuel hfuel p n 0 kjunk junk rng krd seed pk0 sk0 sig =
            some x →
          ∃ sig', falconSign (f64A b rm rd) xof mt (codeLeaf64 false n lfuel) fuel hfuel n junk.fgF junk.G junk.B junk.T seed sk msg sig =
              some (.ok (true, sig')) ∧
            (x = .ok true ∨ (EdgeSig n (prngNew xof mt seed) sig' ∧ ∃ e, x = .error e) ∨
              BadSig n xof hfuel h (prngNew xof mt seed) msg sig')) := by
  obtain ⟨s, kpos, h, h1, h3, h5⟩ := round_exact b rm rd hrd fma hn xof mt kfuel iters kjunk krd pk0 sk0 pk sk hkey
  refine ⟨s, kpos, h, h1, h3, ?_⟩
  intro hfit hf0 fuel lfuel hfuel p junk seed x msg hx
  unfold signOne at hx
  simp only at hx
  rw [hkey, bindO_pure, bytes_prngRead] at hx
  simp only [zero_add] at hx
  change bindO (falconSign (f64A b rm rd) xof mt (codeLeaf64 false n lfuel) fuel hfuel n junk.fgF junk.G junk.B junk.T seed sk msg sig) _ = _
    at hx
  cases hr : falconSign (f64A b rm rd) xof mt (codeLeaf64 false n lfuel) fuel hfuel n junk.fgF junk.G junk.B junk.T seed sk msg sig with
  | none => rw [hr] at hx; cases hx
  | some r =>
    obtain ⟨sig', rfl, hv⟩ := h5 hfit hf0 fuel lfuel hfuel p junk seed msg sig r hr
    refine ⟨sig', rfl, ?_⟩
    rw [hr, bindO_pure] at hx
    change bindO (verify xof hfuel p n junk.verify pk msg (rdArr (sigLen n + 0) sig')) _ = _ at hx
    rcases hv with hv | ⟨he, e, hv⟩ | hv
    · left
      rw [hv, bindO_pure] at hx
      exact (Option.some.inj hx).symm
    · right; left
      rw [hv] at hx
      exact ⟨he, e, (Option.some.inj hx).symm⟩
    · exact Or.inr (Or.inr hv)

/-- All cases occur: a vector whose codes end at a byte boundary, one whose last code is too near to the end but does not end at a byte
boundary, and one that is not at the edge; all are short and fit into a signature. -/
example : (codes (fun _ => 0) (2 ^ 9)).length % 8 = 0 ∧
    (EdgeVec 9 (fun i => if i < 385 then 128 else 0) ∧ (codes (fun i => if i < 385 then 128 else 0) (2 ^ 9)).length % 8 ≠ 0 ∧
      328 + (codes (fun i => if i < 385 then 128 else 0) (2 ^ 9)).length < 8 * sigBytes 9 ∧
      sqNorm (2 ^ 9) (fun i => if i < 385 then 128 else 0) ≤ betaSq 9) ∧
    ¬ EdgeVec 9 (fun i => if i < 1 then 128 else 0) := by
  unfold EdgeVec sqNorm
  simp only [codes_length]
  have e : ∀ k N : ℕ, ∑ i ∈ Finset.range N, (9 + (if i < k then (128 : ℤ) else 0).natAbs / 128) = 9 * N + min k N := by
    intro k N
    induction N with
    | zero => simp
    | succ N ih =>
      rw [Finset.sum_range_succ, ih]
      split_ifs <;> norm_num <;> omega
  have e2 : ∀ k N : ℕ, ∑ i ∈ Finset.range N, (if i < k then (128 : ℤ) else 0) ^ 2 ≤ 16384 * N := by
    intro k N
    induction N with
    | zero => simp
    | succ N ih =>
      rw [Finset.sum_range_succ]
      split_ifs <;> push_cast <;> linarith
  have hb : sigBytes 9 = 666 := rfl
  have hbe : betaSq 9 = 34034726 := rfl
  refine ⟨?_, ⟨Or.inr ?_, ?_, ?_, ?_⟩, ?_⟩
  · simp
  · rw [e, hb]; norm_num
  · rw [e]; norm_num
  · rw [e, hb]; norm_num
  · exact (e2 _ _).trans (by rw [hbe]; norm_num)
  · rw [e, e, hb]; norm_num

end Falcon
