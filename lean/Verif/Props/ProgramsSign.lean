import Verif.Props.Programs

/-!
# C106: the test of signing and the examples
-/

namespace Falcon

/-- A vector for which a signature that signing has returned need not be accepted. -/
def BadVec (n : ℕ) (s1 s2 : Mem Int) : Prop :=
  betaSq n < sqNorm (2 ^ n) s1 + sqNorm (2 ^ n) s2 ∨ (∃ i, i < 2 ^ n ∧ 1023 < |s2 i|) ∨ n = 10 ∧ ∃ i, i < 2 ^ n ∧ s1 i = 6144

/-- The signature `sig` of `msg`, made with the random stream `stream`, is one of such a vector. The vector is a preimage of the hashed
point for the public key `h` and its squared norm is at most 166 above the bound. -/
def BadSig (n : ℕ) (xof : Xof) (hfuel : ℕ) (h : Mem Ff) (stream : ℕ → UInt8) (msg : List UInt8) (sig : Mem UInt8) : Prop :=
  ∃ (c : Mem Ff) (s1 s2 : Mem Int), hashToPoint hfuel n (xof (saltMsg sig msg)) (fun _ => Ff.zero) = some c ∧
    Preimage (2 ^ n) h c s1 s2 ∧ sqNorm (2 ^ n) s1 + sqNorm (2 ^ n) s2 ≤ betaSq n + 166 ∧ SignatureOf n sig stream s2 ∧ BadVec n s1 s2

theorem not_bad {n : ℕ} {s1 s2 : Mem Int} (h : ¬ BadVec n s1 s2) : sqNorm (2 ^ n) s1 + sqNorm (2 ^ n) s2 ≤ betaSq n ∧
    (∀ i, i < 2 ^ n → |s2 i| ≤ 1023) ∧ (n = 10 → ∀ i, i < 2 ^ n → s1 i ≠ 6144) := by
  unfold BadVec at h
  push Not at h
  exact h

/-- The message of round `k` of the test of signing. -/
def testMsg (msgs : ℕ → UInt8) (k : ℕ) : List UInt8 := (List.range (k + 1)).map fun i => msgs (k * (k + 1) / 2 + i)

theorem bytes_prngRead (stream : ℕ → UInt8) (pos len : ℕ) (b : Mem UInt8) :
    bytes len (prngRead stream pos len b) = (List.range len).map fun i => stream (pos + i) := by
  unfold bytes prngRead
  refine List.map_congr_left fun i hi => ?_
  rw [loop_fill, if_pos (List.mem_range.mp hi)]

/-- The loop of the test: if every round whose message signing returns for either is accepted or is bad. -/
theorem testSigningLoop_ok {R C : Type} (A : Arith R C) {xof : Xof} {mt : UInt32 → Mem UInt8} {leaf : (ℕ → UInt8) → LeafSampler R}
    {fuel hfuel : ℕ} {p : Ovf} {n slack : ℕ} {junk : ℕ → CallJunk C} {rds : ℕ → UInt32} {msgs : ℕ → UInt8} {pkey skey sig : Mem UInt8}
    {Bad : ℕ → Mem UInt8 → Prop}
    (hstep : ∀ k sig r, falconSign A xof mt leaf fuel hfuel n (junk k).fgF (junk k).G (junk k).B (junk k).T (rds k) skey (testMsg msgs k)
      sig = some r → ∃ sig', r = .ok (true, sig') ∧
        (verify xof hfuel p n (junk k).verify pkey (testMsg msgs k) (rdArr (sigLen n + slack) sig') = some (.ok true) ∨ Bad k sig')) :
    ∀ (k : ℕ) (y : Except UB (Mem UInt8 × Bool)),
      testSigningLoop A xof mt leaf fuel hfuel p n slack junk rds msgs pkey skey sig k = some y →
      (∃ sig', y = .ok (sig', true)) ∨ ∃ j, j < k ∧ ∃ sig0 sig', falconSign A xof mt leaf fuel hfuel n (junk j).fgF (junk j).G (junk j).B
        (junk j).T (rds j) skey (testMsg msgs j) sig0 = some (.ok (true, sig')) ∧ Bad j sig' := by
  intro k
  induction k with
  | zero => intro y h; exact Or.inl ⟨sig, (Option.some.inj h).symm⟩
  | succ k ih =>
    intro y h
    rw [testSigningLoop] at h
    cases hk : testSigningLoop A xof mt leaf fuel hfuel p n slack junk rds msgs pkey skey sig k with
    | none => rw [hk] at h; cases h
    | some st =>
      rcases ih st hk with ⟨sig', rfl⟩ | ⟨j, hj, hb⟩
      · rw [hk, bindO_pure] at h
        simp only [bytes_prngRead] at h
        change bindO (falconSign A xof mt leaf fuel hfuel n (junk k).fgF (junk k).G (junk k).B (junk k).T (rds k) skey (testMsg msgs k)
          sig') (fun r => bindO (verify xof hfuel p n (junk k).verify pkey (testMsg msgs k) (rdArr (sigLen n + slack) r.2)) fun v =>
            some (.ok (r.2, true && (r.1 && v)))) = some y at h
        cases hr : falconSign A xof mt leaf fuel hfuel n (junk k).fgF (junk k).G (junk k).B (junk k).T (rds k) skey (testMsg msgs k)
          sig' with
        | none => rw [hr] at h; cases h
        | some r =>
          obtain ⟨s, rfl, hv | hv⟩ := hstep k sig' r hr
          · rw [hr, bindO_pure, hv, bindO_pure] at h
            exact Or.inl ⟨s, (Option.some.inj h).symm⟩
          · exact Or.inr ⟨k, by omega, sig', s, hr, hv⟩
      · exact Or.inr ⟨j, by omega, hb⟩

/-- One round on IEEE 754 data with a key of `falcon::keygen`. -/
theorem round_ok (b : Bool) (rm rd : F64.Recover) (hrd : F64.NoInvention rd) (fma : Bool) {n : ℕ} (hn : ValidLog n) (xof : Xof)
    (mt : UInt32 → Mem UInt8) (kfuel iters : ℕ) (kjunk : Ntru) (krd : UInt32) (pk0 sk0 pk sk : Mem UInt8)
    (hkey : falconKeygen (f64A b rm rd) xof mt fma n kfuel iters kjunk krd pk0 sk0 = some (.ok (pk, sk))) :
    ∃ (s : Ntru) (kpos : ℕ) (h : Mem Ff),
      ntruGen (redQuot (f64A b rm rd)) (gsTooBig (f64A b rm rd) n) fma n (prngNew xof mt krd) kfuel iters kjunk 0 = some (.ok (s, kpos)) ∧
      sk = encodeSkey n s.f s.g s.F sk0 ∧ PkeyOf n pk h ∧
      ModEqXN (2 ^ n) (polyZq (2 ^ n) h * polyInt (2 ^ n) s.f) (polyInt (2 ^ n) s.g) ∧
      (FitsFormat n s.f s.g s.F s.G → (∀ j, j < 2 ^ n → 1 / 2 ^ 10 ≤ ‖dft n (zC s.f) j‖) →
        ∀ (fuel lfuel hfuel : ℕ) (p : Ovf) (slack : ℕ) (junk : CallJunk (F64 × F64)) (seed : UInt32) (msg : List UInt8) (sig : Mem UInt8)
          (r : Except UB (Bool × Mem UInt8)), 2 ≤ slack →
          falconSign (f64A b rm rd) xof mt (codeLeaf64 false n lfuel) fuel hfuel n junk.fgF junk.G junk.B junk.T seed sk msg sig = some r →
          ∃ sig', r = .ok (true, sig') ∧
            (verify xof hfuel p n junk.verify pk msg (rdArr (sigLen n + slack) sig') = some (.ok true) ∨
              BadSig n xof hfuel h (prngNew xof mt seed) msg sig')) := by
  obtain ⟨s, kpos, h, h1, h2, h3, h4, h5⟩ := C76_end_to_end b rm rd hrd fma hn xof mt kfuel iters kjunk krd pk0 sk0 pk sk hkey
  refine ⟨s, kpos, h, h1, h2, h3, h4, fun hfit hf0 fuel lfuel hfuel p slack junk seed msg sig r hl hr => ?_⟩
  obtain ⟨k1, k2⟩ := h5 hfit hf0 b rm rd fuel lfuel hfuel junk.fgF junk.G junk.B junk.T seed msg sig
  cases r with
  | error e => exact absurd hr (k1 e)
  | ok r =>
    obtain ⟨e, c, s1, s2, q1, q2, q3, q4, q5⟩ := k2 r.1 r.2 hr
    refine ⟨r.2, by rw [← e], ?_⟩
    by_cases hb : BadVec n s1 s2
    · exact Or.inr ⟨c, s1, s2, q1, q2, q3, q4, hb⟩
    · obtain ⟨b1, b2, b3⟩ := not_bad hb
      exact Or.inl (q5 b1 b2 b3 p junk.verify _ (by rw [sigLen_eq]; omega))

/-- C106. The test of signing on IEEE 754 data, for any number of rounds, with two readable bytes behind the array of the signature: when
the key that `falcon::keygen` has returned is in the format and f^ is not nearly zero at one of the points, then the test executes no
undefined behaviour and passes, unless in one of the rounds `falcon::sign` has returned the signature of a vector above the bound, with a
coefficient of s2 above 1023 or, for N = 1024, with 6144 as a coefficient of s1. -/
theorem C106_signing (b : Bool) (rm rd : F64.Recover) (hrd : F64.NoInvention rd) (fma : Bool) {n : ℕ} (hn : ValidLog n) (xof : Xof)
    (mt : UInt32 → Mem UInt8) (kfuel iters : ℕ) (kjunk : Ntru) (rng krd : UInt32) (pk0 sk0 pk sk sig : Mem UInt8)
    (hkey : falconKeygen (f64A b rm rd) xof mt fma n kfuel iters kjunk krd pk0 sk0 = some (.ok (pk, sk))) :
    ∃ (s : Ntru) (kpos : ℕ) (h : Mem Ff),
      ntruGen (redQuot (f64A b rm rd)) (gsTooBig (f64A b rm rd) n) fma n (prngNew xof mt krd) kfuel iters kjunk 0 = some (.ok (s, kpos)) ∧
      PkeyOf n pk h ∧
      (FitsFormat n s.f s.g s.F s.G → (∀ j, j < 2 ^ n → 1 / 2 ^ 10 ≤ ‖dft n (zC s.f) j‖) →
        ∀ (fuel lfuel hfuel : ℕ) (p : Ovf) (slack rounds : ℕ) (junk : ℕ → CallJunk (F64 × F64)) (rds : ℕ → UInt32) (x : Except UB Bool),
          2 ≤ slack →
          testSigning (f64A b rm rd) xof mt (codeLeaf64 false n lfuel) fma kfuel iters fuel hfuel p n slack rounds kjunk junk rng krd rds
            pk0 sk0 sig = some x →
          x = .ok true ∨ ∃ k, k < rounds ∧ ∃ sig0 sig',
            falconSign (f64A b rm rd) xof mt (codeLeaf64 false n lfuel) fuel hfuel n (junk k).fgF (junk k).G (junk k).B (junk k).T (rds k)
              sk (testMsg (prngNew xof mt rng) k) sig0 = some (.ok (true, sig')) ∧
            BadSig n xof hfuel h (prngNew xof mt (rds k)) (testMsg (prngNew xof mt rng) k) sig') := by
  obtain ⟨s, kpos, h, h1, -, h3, -, h5⟩ := round_ok b rm rd hrd fma hn xof mt kfuel iters kjunk krd pk0 sk0 pk sk hkey
  refine ⟨s, kpos, h, h1, h3, fun hfit hf0 fuel lfuel hfuel p slack rounds junk rds x hl hx => ?_⟩
  unfold testSigning at hx
  simp only at hx
  rw [hkey, bindO_pure] at hx
  have key := testSigningLoop_ok (f64A b rm rd) (xof := xof) (mt := mt) (leaf := codeLeaf64 false n lfuel) (fuel := fuel) (hfuel := hfuel)
    (p := p) (n := n) (slack := slack) (junk := junk) (rds := rds) (msgs := prngNew xof mt rng) (pkey := pk) (skey := sk) (sig := sig)
    (Bad := fun k sig' => BadSig n xof hfuel h (prngNew xof mt (rds k)) (testMsg (prngNew xof mt rng) k) sig')
    (fun k sig r hr => h5 hfit hf0 fuel lfuel hfuel p slack (junk k) (rds k) _ sig r hl hr) rounds
  cases hloop : testSigningLoop (f64A b rm rd) xof mt (codeLeaf64 false n lfuel) fuel hfuel p n slack junk rds (prngNew xof mt rng) pk sk sig
      rounds with
  | none => rw [hloop] at hx; cases hx
  | some y =>
    rcases key y hloop with ⟨sig', rfl⟩ | hb
    · left
      rw [hloop, bindO_pure] at hx
      exact (Option.some.inj hx).symm
    · exact Or.inr hb

/-- C106, the example that signs one message. -/
theorem C106_sign_one (b : Bool) (rm rd : F64.Recover) (hrd : F64.NoInvention rd) (fma : Bool) {n : ℕ} (hn : ValidLog n) (xof : Xof)
    (mt : UInt32 → Mem UInt8) (kfuel iters : ℕ) (kjunk : Ntru) (rng krd : UInt32) (pk0 sk0 pk sk sig : Mem UInt8)
    (hkey : falconKeygen (f64A b rm rd) xof mt fma n kfuel iters kjunk krd pk0 sk0 = some (.ok (pk, sk))) :
    ∃ (s : Ntru) (kpos : ℕ) (h : Mem Ff),
      ntruGen (redQuot (f64A b rm rd)) (gsTooBig (f64A b rm rd) n) fma n (prngNew xof mt krd) kfuel iters kjunk 0 = some (.ok (s, kpos)) ∧
      PkeyOf n pk h ∧
      (FitsFormat n s.f s.g s.F s.G → (∀ j, j < 2 ^ n → 1 / 2 ^ 10 ≤ ‖dft n (zC s.f) j‖) →
        ∀ (fuel lfuel hfuel : ℕ) (p : Ovf) (slack : ℕ) (junk : CallJunk (F64 × F64)) (seed : UInt32) (x : Except UB Bool), 2 ≤ slack →
          let msg := (List.range 32).map (prngNew xof mt rng)
          signOne (f64A b rm rd) xof mt (codeLeaf64 false n lfuel) fma kfuel iters fuel hfuel p n slack kjunk junk rng krd seed pk0 sk0 sig =
            some x →
          x = .ok true ∨ ∃ sig',
            falconSign (f64A b rm rd) xof mt (codeLeaf64 false n lfuel) fuel hfuel n junk.fgF junk.G junk.B junk.T seed sk msg sig =
              some (.ok (true, sig')) ∧ BadSig n xof hfuel h (prngNew xof mt seed) msg sig') := by
  obtain ⟨s, kpos, h, h1, -, h3, -, h5⟩ := round_ok b rm rd hrd fma hn xof mt kfuel iters kjunk krd pk0 sk0 pk sk hkey
  refine ⟨s, kpos, h, h1, h3, ?_⟩
  intro hfit hf0 fuel lfuel hfuel p slack junk seed x hl msg hx
  unfold signOne at hx
  simp only at hx
  rw [hkey, bindO_pure, bytes_prngRead] at hx
  simp only [zero_add] at hx
  change bindO (falconSign (f64A b rm rd) xof mt (codeLeaf64 false n lfuel) fuel hfuel n junk.fgF junk.G junk.B junk.T seed sk msg sig) _ = _
    at hx
  cases hr : falconSign (f64A b rm rd) xof mt (codeLeaf64 false n lfuel) fuel hfuel n junk.fgF junk.G junk.B junk.T seed sk msg sig with
  | none => rw [hr] at hx; cases hx
  | some r =>
    obtain ⟨sig', rfl, hv | hv⟩ := h5 hfit hf0 fuel lfuel hfuel p slack junk seed msg sig r hl hr
    · left
      rw [hr, bindO_pure] at hx
      change bindO (verify xof hfuel p n junk.verify pk msg (rdArr (sigLen n + slack) sig')) _ = _ at hx
      rw [hv, bindO_pure] at hx
      exact (Option.some.inj hx).symm
    · exact Or.inr ⟨sig', rfl, hv⟩

/-- The loop of the second example: if every round in which signing returns is accepted or is bad. -/
theorem signManyLoop_ok {R C : Type} (A : Arith R C) {xof : Xof} {leaf : LeafSampler R}
    {fuel hfuel : ℕ} {p : Ovf} {n slack : ℕ} {junk : ℕ → Junk} {stream : ℕ → UInt8} {B T : Mem C} {pkey sig : Mem UInt8}
    {Bad : ℕ → List UInt8 → Mem UInt8 → Prop}
    (hstep : ∀ k msg sig pos r, signPoly A xof leaf fuel hfuel n B T stream msg sig pos = some r → ∃ sig' pos', r = .ok (sig', pos') ∧
        (verify xof hfuel p n (junk k) pkey msg (rdArr (sigLen n + slack) sig') = some (.ok true) ∨ Bad pos msg sig')) :
    ∀ (k : ℕ) (y : Except UB (Mem UInt8 × ℕ × Bool)),
      signManyLoop A xof leaf fuel hfuel p n slack junk stream B T pkey sig k = some y →
      (∃ sig' pos, y = .ok (sig', pos, true)) ∨ ∃ j, j < k ∧ ∃ sig0 pos sig' pos',
        signManyLoop A xof leaf fuel hfuel p n slack junk stream B T pkey sig j = some (.ok (sig0, pos, true)) ∧
        signPoly A xof leaf fuel hfuel n B T stream ((List.range 32).map fun i => stream (pos + i)) sig0 (pos + 32) =
          some (.ok (sig', pos')) ∧ Bad (pos + 32) ((List.range 32).map fun i => stream (pos + i)) sig' := by
  intro k
  induction k with
  | zero => intro y h; exact Or.inl ⟨sig, 0, (Option.some.inj h).symm⟩
  | succ k ih =>
    intro y h
    rw [signManyLoop] at h
    cases hk : signManyLoop A xof leaf fuel hfuel p n slack junk stream B T pkey sig k with
    | none => rw [hk] at h; cases h
    | some st =>
      rcases ih st hk with ⟨sig', pos, rfl⟩ | ⟨j, hj, hb⟩
      · rw [hk, bindO_pure] at h
        simp only [bytes_prngRead] at h
        cases hr : signPoly A xof leaf fuel hfuel n B T stream ((List.range 32).map fun i => stream (pos + i)) sig' (pos + 32) with
        | none => rw [hr] at h; cases h
        | some r =>
          obtain ⟨s, pos', rfl, hv | hv⟩ := hstep k _ sig' (pos + 32) r hr
          · rw [hr, bindO_pure] at h
            simp only at h
            rw [hv, bindO_pure] at h
            exact Or.inl ⟨s, pos', (Option.some.inj h).symm⟩
          · exact Or.inr ⟨k, by omega, sig', pos, s, pos', hk, hr, hv⟩
      · exact Or.inr ⟨j, by omega, hb⟩

/-- C106, the example that signs several messages with one matrix and one tree: the same, for any number of messages. -/
theorem C106_sign_many (b : Bool) (rm rd : F64.Recover) (hrd : F64.NoInvention rd) (fma : Bool) {n : ℕ} (hn : ValidLog n) (xof : Xof)
    (mt : UInt32 → Mem UInt8) (kfuel iters : ℕ) (kjunk : Ntru) (rng krd : UInt32) (pk0 sk0 pk sk sig : Mem UInt8)
    (hkey : falconKeygen (f64A b rm rd) xof mt fma n kfuel iters kjunk krd pk0 sk0 = some (.ok (pk, sk))) :
    ∃ (s : Ntru) (kpos : ℕ) (h : Mem Ff),
      ntruGen (redQuot (f64A b rm rd)) (gsTooBig (f64A b rm rd) n) fma n (prngNew xof mt krd) kfuel iters kjunk 0 = some (.ok (s, kpos)) ∧
      PkeyOf n pk h ∧
      (FitsFormat n s.f s.g s.F s.G → (∀ j, j < 2 ^ n → 1 / 2 ^ 10 ≤ ‖dft n (zC s.f) j‖) →
        ∀ (fuel lfuel hfuel : ℕ) (p : Ovf) (slack count : ℕ) (junk : CallJunk (F64 × F64)) (vjunk : ℕ → Junk) (x : Except UB Bool),
          2 ≤ slack →
          signMany (f64A b rm rd) xof mt (codeLeaf64 false n lfuel) fma kfuel iters fuel hfuel p n slack count kjunk junk vjunk rng krd
            pk0 sk0 sig = some x →
          ∃ (d : FgF) (G : Mem Int), decodeSkey n sk junk.fgF = (true, d) ∧
            (∀ i, i < 2 ^ n → d.f i = s.f i ∧ d.g i = s.g i ∧ d.F i = s.F i ∧ G i = s.G i) ∧
            let B := computeMatrixB (f64A b rm rd) n d.f d.g d.F G junk.B
            let T := computeFalconTree (f64A b rm rd) n B junk.T
            let stream := prngNew xof mt rng
            (x = .ok true ∨ ∃ k, k < count ∧ ∃ sig0 pos sig' pos',
              signManyLoop (f64A b rm rd) xof (codeLeaf64 false n lfuel stream) fuel hfuel p n slack vjunk stream B T pk sig k =
                some (.ok (sig0, pos, true)) ∧
              signPoly (f64A b rm rd) xof (codeLeaf64 false n lfuel stream) fuel hfuel n B T stream
                ((List.range 32).map fun i => stream (pos + i)) sig0 (pos + 32) = some (.ok (sig', pos')) ∧
              BadSig n xof hfuel h (fun i => stream (pos + 32 + i)) ((List.range 32).map fun i => stream (pos + i)) sig')) := by
  obtain ⟨s, kpos, h, h1, h2, h3, h4, -⟩ := C76_end_to_end b rm rd hrd fma hn xof mt kfuel iters kjunk krd pk0 sk0 pk sk hkey
  refine ⟨s, kpos, h, h1, h3, ?_⟩
  intro hfit hf0 fuel lfuel hfuel p slack count junk vjunk x hl hx
  obtain ⟨heq, -, -, hgs⟩ := C76_keys b rm rd hrd fma hn h1
  have hinv := (C38_ntru_gen hn h1).2.1
  have hS := sim_f64 b rm rd
  have hA := accurate_ieee b
  unfold signMany at hx
  simp only at hx
  rw [hkey, bindO_pure] at hx
  simp only at hx
  obtain ⟨c1, c2, -⟩ := C12_skey_roundtrip hn s.f s.g s.F sk0 junk.fgF (skInRange_of_fits hn hfit)
  rw [← h2] at c1 c2
  cases hd : decodeSkey n sk junk.fgF with
  | mk ok d =>
    simp only [hd] at c1 c2 hx
    subst c1
    simp only at hx
    have hG := recomputeG_float hA hn heq hfit hf0 junk.G
    rw [← recomputeG64 hS hA hn hfit hf0] at hG
    obtain ⟨G, g1, g2⟩ := recomputeG_congr (f64A b rm rd) n junk.G junk.G c2 hG
    have g3 : ∀ i, i < 2 ^ n → G i = s.G i := fun i hi => by rw [g2 i hi, if_pos hi]
    refine ⟨d, G, rfl, fun i hi => ⟨(c2 i hi).1, (c2 i hi).2.1, (c2 i hi).2.2, g3 i hi⟩, ?_⟩
    intro B T stream
    have hB : ∀ x, x < 4 * 2 ^ n → B x = computeMatrixB (f64A b rm rd) n s.f s.g s.F s.G junk.B x :=
      computeMatrixB_congr (f64A b rm rd) n junk.B junk.B fun i hi => ⟨(c2 i hi).1, (c2 i hi).2.1, (c2 i hi).2.2, g3 i hi⟩
    have hB' : ∀ x, x < 4 * 2 ^ n → FinC 37 (B x) (computeMatrixB (ieeeA b) n s.f s.g s.F s.G (fun _ => 0) x) := by
      intro x hx
      rw [hB x hx]
      exact finC_basis hS hn hfit junk.B junk.B (fun _ => 0) x hx
    rw [g1, bindO_pure] at hx
    change bindO (signManyLoop (f64A b rm rd) xof (codeLeaf64 false n lfuel stream) fuel hfuel p n slack vjunk stream B T pk sig count) _ = _
      at hx
    have key := signManyLoop_ok (f64A b rm rd) (xof := xof) (leaf := codeLeaf64 false n lfuel stream) (fuel := fuel) (hfuel := hfuel)
      (p := p) (n := n) (slack := slack) (junk := vjunk) (stream := stream) (B := B) (T := T) (pkey := pk) (sig := sig)
      (Bad := fun pos msg sig' => BadSig n xof hfuel h (fun i => stream (pos + i)) msg sig')
      (fun k msg sig pos r hr => by
        rw [signPoly64 hS hA (codeLeaf_sim false n lfuel stream) (codeLeaf_good hn lfuel stream) hn heq hfit hgs B junk.T _ (fun _ => 0)
          hB' xof fuel hfuel stream msg sig pos] at hr
        cases r with
        | error e => exact absurd hr (C68_sign hA hn heq hfit hgs xof fuel lfuel hfuel _ _ stream msg sig pos e)
        | ok r =>
          obtain ⟨c, s1, s2, q, l, q1, -, -, -, q5, q6, q7, q8⟩ := C65_binary64 b hn heq hfit h4 hinv xof _ fuel hfuel _ _ stream msg sig
            r.1 pos r.2 hr
          refine ⟨r.1, r.2, rfl, ?_⟩
          by_cases hb : BadVec n s1 s2
          · exact Or.inr ⟨c, s1, s2, q1, q5, q6, q7, hb⟩
          · obtain ⟨b1, b2, b3⟩ := not_bad hb
            exact Or.inl (q8 b1 b2 b3 pk p (vjunk k) _ h3 (by rw [sigLen_eq]; omega))) count
    cases hloop : signManyLoop (f64A b rm rd) xof (codeLeaf64 false n lfuel stream) fuel hfuel p n slack vjunk stream B T pk sig count with
    | none => rw [hloop] at hx; cases hx
    | some y =>
      rcases key y hloop with ⟨sig', pos, rfl⟩ | hb
      · left
        rw [hloop, bindO_pure] at hx
        exact (Option.some.inj hx).symm
      · exact Or.inr hb

/-- The hypothesis of the theorems about the programs is met. -/
example (b : Bool) (rm : F64.Recover) (mt : UInt32 → Mem UInt8) (krd : UInt32) (pk0 sk0 : Mem UInt8) : ∃ (xof : Xof) (pk sk : Mem UInt8),
    falconKeygen (f64A b rm F64.keepNan) xof mt false 9 3 1 zeroNtru krd pk0 sk0 = some (.ok (pk, sk)) := by
  obtain ⟨stream, s, pos, h, hs⟩ := const_run_of (const_quot64 b rm F64.keepNan) (const_gs64 b rm F64.keepNan)
  refine ⟨fun _ => stream, encodePkey 9 (computePublicKey 9 s.f s.g fun _ => Ff.zero) pk0, encodeSkey 9 s.f s.g s.F sk0, ?_⟩
  unfold falconKeygen
  rw [show prngNew (fun _ => stream) mt krd = stream from rfl]
  simp only
  rw [h, bindO_pure]

/-- The conditions on the key are met, and the vectors of a signature need not be bad. -/
example : FitsFormat 9 flatf flatg flatF flatG ∧ (∀ j, j < 2 ^ 9 → 1 / 2 ^ 10 ≤ ‖dft 9 (zC flatf) j‖) ∧
    ¬ BadVec 9 (twoMem (-25) 24) (twoMem 30 (-31)) := by
  refine ⟨flatKey_fits, flatKey_point, ?_⟩
  rintro (h | ⟨i, hi, h⟩ | ⟨h, -⟩)
  · rw [sqNorm_two, sqNorm_two] at h
    norm_num [betaSq] at h
  · revert h
    unfold twoMem
    split_ifs <;> norm_num
  · norm_num at h

end Falcon
