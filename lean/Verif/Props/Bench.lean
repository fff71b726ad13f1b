import Verif.Model.Bench
import Verif.Props.ProgramsSign
import Verif.Props.Seed

/-!
# C109: the benchmarks
-/

namespace Falcon

/-- C109, key generation: after one or more iterations the arrays hold the key pair that the last word of `std::random_device` determines.
Nothing of the iterations before remains. -/
theorem C109_keygen {R C : Type} (A : Arith R C) (xof : Xof) (mt : UInt32 → Mem UInt8) (fma : Bool) {n : ℕ} (hn : ValidLog n)
    {kfuel iters : ℕ} {kjunk : ℕ → Ntru} {krds : ℕ → UInt32} {pkey skey pk sk : Mem UInt8} {k : ℕ}
    (h : benchKeygen A xof mt fma n kfuel iters kjunk krds pkey skey (k + 1) = some (.ok (pk, sk))) :
    (∃ pk0 sk0, falconKeygen A xof mt fma n kfuel iters (kjunk k) (krds k) pk0 sk0 = some (.ok (pk, sk))) ∧
    ∀ (a i : ℕ) (junk : Ntru) (pk0 sk0 pk' sk' : Mem UInt8),
      falconKeygen A xof mt fma n a i junk (krds k) pk0 sk0 = some (.ok (pk', sk')) →
      (∀ j, j < pkBytes n → pk j = pk' j) ∧ ∀ j, j < skBytes n → sk j = sk' j := by
  rw [benchKeygen] at h
  obtain ⟨st, -, h⟩ := bindO_ok h
  exact ⟨⟨st.1, st.2, h⟩, fun a i junk pk0 sk0 pk' sk' h' => C39_determined A xof mt fma hn _ h h'⟩

/-- The signing loop: if every call that returns returns true with a signature of which `Q` holds, then so does the loop. -/
theorem benchSignLoop_ok {R C : Type} (A : Arith R C) {xof : Xof} {mt : UInt32 → Mem UInt8} {leaf : (ℕ → UInt8) → LeafSampler R}
    {fuel hfuel n : ℕ} {junk : ℕ → CallJunk C} {rds : ℕ → UInt32} {skey sig : Mem UInt8} {msg : List UInt8} {Q : ℕ → Mem UInt8 → Prop}
    (hstep : ∀ k sig r, falconSign A xof mt leaf fuel hfuel n (junk k).fgF (junk k).G (junk k).B (junk k).T (rds k) skey msg sig = some r →
      ∃ sig', r = .ok (true, sig') ∧ Q k sig') :
    ∀ (k : ℕ) (y : Except UB (Bool × Mem UInt8)), benchSignLoop A xof mt leaf fuel hfuel n junk rds skey msg sig k = some y →
      ∃ sig', y = .ok (true, sig') ∧ ∀ j, k = j + 1 → Q j sig' := by
  intro k
  induction k with
  | zero => intro y h; exact ⟨sig, (Option.some.inj h).symm, fun j hj => by omega⟩
  | succ k ih =>
    intro y h
    rw [benchSignLoop] at h
    cases hk : benchSignLoop A xof mt leaf fuel hfuel n junk rds skey msg sig k with
    | none => rw [hk] at h; cases h
    | some st =>
      obtain ⟨sig', rfl, -⟩ := ih st hk
      rw [hk, bindO_pure] at h
      simp only at h
      cases hr : falconSign A xof mt leaf fuel hfuel n (junk k).fgF (junk k).G (junk k).B (junk k).T (rds k) skey msg sig' with
      | none => rw [hr] at h; cases h
      | some r =>
        obtain ⟨s, rfl, hq⟩ := hstep k sig' r hr
        rw [hr, bindO_pure] at h
        refine ⟨s, (Option.some.inj h).symm, fun j hj => ?_⟩
        obtain rfl : k = j := by omega
        exact hq

/-- C109, signing with a secret key: with one or more iterations and two readable bytes behind the array of the signature, when the key
that `falcon::keygen` has returned is in the format and f^ is not nearly zero at one of the points, the loop executes no undefined behaviour and
all calls of `falcon::sign` return true. The signature of the last iteration is the one that is verified, and it is accepted unless it
is that of a bad vector. -/
theorem C109_sign_single (b : Bool) (rm rd : F64.Recover) (hrd : F64.NoInvention rd) (fma : Bool) {n : ℕ} (hn : ValidLog n) (xof : Xof)
    (mt : UInt32 → Mem UInt8) (kfuel iters : ℕ) (kjunk : Ntru) (rng krd : UInt32) (pk0 sk0 pk sk sig : Mem UInt8)
    (hkey : falconKeygen (f64A b rm rd) xof mt fma n kfuel iters kjunk krd pk0 sk0 = some (.ok (pk, sk))) :
    ∃ (s : Ntru) (kpos : ℕ) (h : Mem Ff),
      ntruGen (redQuot (f64A b rm rd)) (gsTooBig (f64A b rm rd) n) fma n (prngNew xof mt krd) kfuel iters kjunk 0 = some (.ok (s, kpos)) ∧
      PkeyOf n pk h ∧
      (FitsFormat n s.f s.g s.F s.G → (∀ j, j < 2 ^ n → 1 / 2 ^ 10 ≤ ‖dft n (zC s.f) j‖) →
        ∀ (fuel lfuel hfuel : ℕ) (p : Ovf) (slack mlen k : ℕ) (junk : ℕ → CallJunk (F64 × F64)) (vjunk : Junk) (rds : ℕ → UInt32)
          (x : Except UB (Bool × Bool)), 2 ≤ slack →
          let msg := (List.range mlen).map (prngNew xof mt rng)
          benchSignSingle (f64A b rm rd) xof mt (codeLeaf64 false n lfuel) fma kfuel iters fuel hfuel p n slack mlen (k + 1) kjunk junk vjunk
            rng krd rds pk0 sk0 sig = some x →
          ∃ sig0 sig',
            benchSignLoop (f64A b rm rd) xof mt (codeLeaf64 false n lfuel) fuel hfuel n junk rds sk msg sig (k + 1) =
              some (.ok (true, sig')) ∧
            falconSign (f64A b rm rd) xof mt (codeLeaf64 false n lfuel) fuel hfuel n (junk k).fgF (junk k).G (junk k).B
              (junk k).T (rds k) sk msg sig0 = some (.ok (true, sig')) ∧
            ((x = .ok (true, true) ∧ verify xof hfuel p n vjunk pk msg (rdArr (sigLen n + slack) sig') = some (.ok true)) ∨
              BadSig n xof hfuel h (prngNew xof mt (rds k)) msg sig')) := by
  obtain ⟨s, kpos, h, h1, -, h3, -, h5⟩ := round_ok b rm rd hrd fma hn xof mt kfuel iters kjunk krd pk0 sk0 pk sk hkey
  refine ⟨s, kpos, h, h1, h3, ?_⟩
  intro hfit hf0 fuel lfuel hfuel p slack mlen k junk vjunk rds x hl msg hx
  unfold benchSignSingle at hx
  simp only at hx
  rw [hkey, bindO_pure, bytes_prngRead] at hx
  simp only [zero_add] at hx
  change bindO (benchSignLoop (f64A b rm rd) xof mt (codeLeaf64 false n lfuel) fuel hfuel n junk rds sk msg sig (k + 1)) _ = _ at hx
  have key := benchSignLoop_ok (f64A b rm rd) (xof := xof) (mt := mt) (leaf := codeLeaf64 false n lfuel) (fuel := fuel) (hfuel := hfuel)
    (n := n) (junk := junk) (rds := rds) (skey := sk) (sig := sig) (msg := msg)
    (Q := fun k sig' => (∃ sig0, falconSign (f64A b rm rd) xof mt (codeLeaf64 false n lfuel) fuel hfuel n (junk k).fgF (junk k).G (junk k).B
      (junk k).T (rds k) sk msg sig0 = some (.ok (true, sig'))) ∧
      (verify xof hfuel p n vjunk pk msg (rdArr (sigLen n + slack) sig') = some (.ok true) ∨
        BadSig n xof hfuel h (prngNew xof mt (rds k)) msg sig'))
    (fun k sig r hr => by
      obtain ⟨sig', rfl, hv⟩ := h5 hfit hf0 fuel lfuel hfuel p slack { junk k with verify := vjunk } (rds k) msg sig r hl hr
      exact ⟨sig', rfl, ⟨sig, hr⟩, hv⟩) (k + 1)
  cases hloop : benchSignLoop (f64A b rm rd) xof mt (codeLeaf64 false n lfuel) fuel hfuel n junk rds sk msg sig (k + 1) with
  | none => rw [hloop] at hx; cases hx
  | some y =>
    obtain ⟨sig', rfl, hq⟩ := key y hloop
    obtain ⟨⟨sig0, hs⟩, hv⟩ := hq k rfl
    refine ⟨sig0, sig', rfl, hs, hv.imp_left fun hv => ⟨?_, hv⟩⟩
    rw [hloop, bindO_pure] at hx
    change bindO (verify xof hfuel p n vjunk pk msg (rdArr (sigLen n + slack) sig')) _ = _ at hx
    rw [hv, bindO_pure] at hx
    exact (Option.some.inj hx).symm

/-- C109, verification: under the same conditions all calls of `falcon::verify` return true, however many there are, unless the
signature is that of a bad vector. -/
theorem C109_verify (b : Bool) (rm rd : F64.Recover) (hrd : F64.NoInvention rd) (fma : Bool) {n : ℕ} (hn : ValidLog n) (xof : Xof)
    (mt : UInt32 → Mem UInt8) (kfuel iters : ℕ) (kjunk : Ntru) (rng krd : UInt32) (pk0 sk0 pk sk sig : Mem UInt8)
    (hkey : falconKeygen (f64A b rm rd) xof mt fma n kfuel iters kjunk krd pk0 sk0 = some (.ok (pk, sk))) :
    ∃ (s : Ntru) (kpos : ℕ) (h : Mem Ff),
      ntruGen (redQuot (f64A b rm rd)) (gsTooBig (f64A b rm rd) n) fma n (prngNew xof mt krd) kfuel iters kjunk 0 = some (.ok (s, kpos)) ∧
      PkeyOf n pk h ∧
      (FitsFormat n s.f s.g s.F s.G → (∀ j, j < 2 ^ n → 1 / 2 ^ 10 ≤ ‖dft n (zC s.f) j‖) →
        ∀ (fuel lfuel hfuel : ℕ) (p : Ovf) (slack mlen k : ℕ) (junk : CallJunk (F64 × F64)) (vjunk : ℕ → Junk) (seed : UInt32)
          (x : Except UB (Bool × Bool)), 2 ≤ slack →
          let msg := (List.range mlen).map (prngNew xof mt rng)
          benchVerify (f64A b rm rd) xof mt (codeLeaf64 false n lfuel) fma kfuel iters fuel hfuel p n slack mlen k kjunk junk vjunk
            rng krd seed pk0 sk0 sig = some x →
          ∃ sig', falconSign (f64A b rm rd) xof mt (codeLeaf64 false n lfuel) fuel hfuel n junk.fgF junk.G junk.B junk.T seed sk msg sig =
              some (.ok (true, sig')) ∧
            (x = .ok (true, true) ∨ BadSig n xof hfuel h (prngNew xof mt seed) msg sig')) := by
  obtain ⟨s, kpos, h, h1, -, h3, -, h5⟩ := round_ok b rm rd hrd fma hn xof mt kfuel iters kjunk krd pk0 sk0 pk sk hkey
  refine ⟨s, kpos, h, h1, h3, ?_⟩
  intro hfit hf0 fuel lfuel hfuel p slack mlen k junk vjunk seed x hl msg hx
  unfold benchVerify at hx
  simp only at hx
  rw [hkey, bindO_pure, bytes_prngRead] at hx
  simp only [zero_add] at hx
  change bindO (falconSign (f64A b rm rd) xof mt (codeLeaf64 false n lfuel) fuel hfuel n junk.fgF junk.G junk.B junk.T seed sk msg sig) _ = _
    at hx
  cases hr : falconSign (f64A b rm rd) xof mt (codeLeaf64 false n lfuel) fuel hfuel n junk.fgF junk.G junk.B junk.T seed sk msg sig with
  | none => rw [hr] at hx; cases hx
  | some r =>
    have hq := fun j => h5 hfit hf0 fuel lfuel hfuel p slack { junk with verify := vjunk j } seed msg sig r hl hr
    obtain ⟨sig', rfl, -⟩ := hq 0
    refine ⟨sig', rfl, ?_⟩
    by_cases hb : BadSig n xof hfuel h (prngNew xof mt seed) msg sig'
    · exact Or.inr hb
    · left
      have hv : ∀ j, verify xof hfuel p n (vjunk j) pk msg (rdArr (sigLen n + slack) sig') = some (.ok true) := by
        intro j
        obtain ⟨s', e, hv⟩ := hq j
        cases e
        exact hv.resolve_right hb
      have hl : ∀ k, benchVerifyLoop xof hfuel p n slack vjunk pk msg sig' k = some (.ok true) := by
        intro k
        induction k with
        | zero => rfl
        | succ k ih => rw [benchVerifyLoop, ih, bindO_pure, hv k, bindO_pure]; rfl
      rw [hr, bindO_pure] at hx
      change bindO (benchVerifyLoop xof hfuel p n slack vjunk pk msg sig' k) _ = _ at hx
      rw [hl, bindO_pure] at hx
      exact (Option.some.inj hx).symm

/-- Verification with the polynomial of the public key is verification with its bytes. -/
theorem verifyPoly_bytes {n : ℕ} (hn : ValidLog n) (xof : Xof) (fuel : ℕ) (p : Ovf) (junk : Junk) {h : Mem Ff} {pk : Mem UInt8}
    (hpk : PkeyOf n pk h) (msg : List UInt8) (sig : ℕ → Except UB UInt8) :
    verifyPoly xof fuel p n (beta2 n) junk h msg sig = verify xof fuel p n junk pk msg sig := by
  obtain ⟨h', d1, d2⟩ := decodePkey_of hn pk (fun _ => Ff.zero) hpk.1
  have ht : ∀ (c : Mem Ff) (s2 : Mem Int), verifyTail p n (beta2 n) h c s2 = verifyTail p n (beta2 n) h' c s2 := fun c s2 =>
    verifyTail_congr (hpk.unique d2) fun _ _ => rfl
  unfold verify
  rw [d1]
  simp only
  unfold verifyPoly
  simp only [ht]

/-- The signing loop with the matrix and the tree: if each call that returns returns a signature of which `Q` holds, then so does the
loop. -/
theorem benchPolyLoop_ok {R C : Type} (A : Arith R C) {xof : Xof} {leaf : LeafSampler R} {fuel hfuel n : ℕ} {stream : ℕ → UInt8}
    {B T : Mem C} {msg : List UInt8} {sig : Mem UInt8} {pos : ℕ} {Q : ℕ → Mem UInt8 → ℕ → Prop}
    (hstep : ∀ sig pos r, signPoly A xof leaf fuel hfuel n B T stream msg sig pos = some r → ∃ sig' pos', r = .ok (sig', pos') ∧
      Q pos sig' pos') :
    ∀ (k : ℕ) (y : Except UB (Mem UInt8 × ℕ)), benchPolyLoop A xof leaf fuel hfuel n stream B T msg sig pos k = some y →
      ∃ sig' pos', y = .ok (sig', pos') ∧ ∀ j, k = j + 1 → ∃ sig0 pos0,
        benchPolyLoop A xof leaf fuel hfuel n stream B T msg sig pos j = some (.ok (sig0, pos0)) ∧ Q pos0 sig' pos' := by
  intro k
  induction k with
  | zero => intro y h; exact ⟨sig, pos, (Option.some.inj h).symm, fun j hj => by omega⟩
  | succ k ih =>
    intro y h
    rw [benchPolyLoop] at h
    cases hk : benchPolyLoop A xof leaf fuel hfuel n stream B T msg sig pos k with
    | none => rw [hk] at h; cases h
    | some st =>
      obtain ⟨sig', pos', rfl, -⟩ := ih st hk
      rw [hk, bindO_pure] at h
      obtain ⟨s, q, rfl, hq⟩ := hstep sig' pos' y h
      refine ⟨s, q, rfl, fun j hj => ?_⟩
      obtain rfl : k = j := by omega
      exact ⟨sig', pos', hk, hq⟩

/-- C109, signing with the matrix and the tree that `keygen::keygen` has computed and verification with its public polynomial, all
randomness from one stream: with one or more iterations the benchmark executes no undefined behaviour, when the key is in the format, and
what it asserts holds, unless the signature of the last iteration is that of a bad vector. That f^ is not nearly zero is not needed here,
since G is not recomputed. -/
theorem C109_sign_many (b : Bool) (rm rd : F64.Recover) (hrd : F64.NoInvention rd) (fma : Bool) {n : ℕ} (hn : ValidLog n) (xof : Xof)
    (mt : UInt32 → Mem UInt8) (kfuel iters : ℕ) (kjunk : Ntru) (rng : UInt32) (B0 T0 B T : Mem (F64 × F64)) (h0 h : Mem Ff) (kpos : ℕ)
    (hk : keygenRaw (f64A b rm rd) fma n (prngNew xof mt rng) kfuel iters kjunk B0 T0 h0 (sigSigma (f64A b rm rd) n) 0 =
      some (.ok (B, T, h, kpos))) :
    ∃ s : Ntru,
      ntruGen (redQuot (f64A b rm rd)) (gsTooBig (f64A b rm rd) n) fma n (prngNew xof mt rng) kfuel iters kjunk 0 = some (.ok (s, kpos)) ∧
      (FitsFormat n s.f s.g s.F s.G →
        ∀ (fuel lfuel hfuel : ℕ) (p : Ovf) (slack mlen k : ℕ) (vjunk : Junk) (sig : Mem UInt8) (x : Except UB Bool), 2 ≤ slack →
          let stream := prngNew xof mt rng
          let msg := (List.range mlen).map fun i => stream (kpos + i)
          benchSignMany (f64A b rm rd) xof mt (codeLeaf64 false n lfuel) fma kfuel iters fuel hfuel p n slack mlen (k + 1) kjunk vjunk
            rng B0 T0 h0 sig = some x →
          x = .ok true ∨ ∃ sig0 pos sig' pos',
            benchPolyLoop (f64A b rm rd) xof (codeLeaf64 false n lfuel stream) fuel hfuel n stream B T msg sig (kpos + mlen) k =
              some (.ok (sig0, pos)) ∧
            signPoly (f64A b rm rd) xof (codeLeaf64 false n lfuel stream) fuel hfuel n B T stream msg sig0 pos = some (.ok (sig', pos')) ∧
            BadSig n xof hfuel h (fun i => stream (pos + i)) msg sig') := by
  have hk' := hk
  unfold keygenRaw at hk'
  obtain ⟨r, hr, hk'⟩ := bindO_ok hk'
  have e := Except.ok.inj (Option.some.inj hk')
  simp only [Prod.mk.injEq] at e
  obtain ⟨e1, e2, e3, e4⟩ := e
  have hr' : ntruGen (redQuot (f64A b rm rd)) (gsTooBig (f64A b rm rd) n) fma n (prngNew xof mt rng) kfuel iters kjunk 0 =
      some (.ok (r.1, kpos)) := by
    rw [hr, ← e4]
  refine ⟨r.1, hr', ?_⟩
  intro hfit fuel lfuel hfuel p slack mlen k vjunk sig x hl stream msg hx
  obtain ⟨heq, -, -, hgs⟩ := C76_keys b rm rd hrd fma hn hr'
  obtain ⟨hrange, hinv, -⟩ := C38_ntru_gen hn hr'
  have up : ∀ {x : ℤ}, |x| ≤ 19 * (4096 / 2 ^ n) → |x| ≤ 152 := fun h => h.trans (by rcases hn with rfl | rfl <;> norm_num)
  have hcr : ∀ {a : Mem ℤ}, (∀ i, i < 2 ^ n → |a i| ≤ 152) → CoeffRange (2 ^ n) a := by
    intro a ha i hi
    have := abs_le.mp (ha i hi)
    constructor <;> omega
  obtain ⟨q1, q2, -⟩ := C37_public_key hn h0 (hcr fun i hi => up (hrange i hi).1) (hcr fun i hi => up (hrange i hi).2) hinv
  rw [e3] at q1 q2
  have hpk := pkeyOf_encode hn (canon_fits q1) (fun _ => 0)
  have hS := sim_f64 b rm rd
  have hA := accurate_ieee b
  have hB' : ∀ x, x < 4 * 2 ^ n → FinC 37 (B x) (computeMatrixB (ieeeA b) n r.1.f r.1.g r.1.F r.1.G (fun _ => 0) x) := by
    intro x hx
    rw [← e1]
    exact finC_basis hS hn hfit B0 B0 (fun _ => 0) x hx
  have eT : T = computeFalconTree (f64A b rm rd) n B T0 := by
    rw [← e2, ← e1]
    rfl
  unfold benchSignMany at hx
  simp only at hx
  rw [hk, bindO_pure] at hx
  simp only [bytes_prngRead] at hx
  change bindO (benchPolyLoop (f64A b rm rd) xof (codeLeaf64 false n lfuel stream) fuel hfuel n stream B T msg sig (kpos + mlen) (k + 1)) _ =
    _ at hx
  have key := benchPolyLoop_ok (f64A b rm rd) (xof := xof) (leaf := codeLeaf64 false n lfuel stream) (fuel := fuel) (hfuel := hfuel)
    (n := n) (stream := stream) (B := B) (T := T) (msg := msg) (sig := sig) (pos := kpos + mlen)
    (Q := fun pos sig' pos' => (∃ sig0, signPoly (f64A b rm rd) xof (codeLeaf64 false n lfuel stream) fuel hfuel n B T stream msg sig0 pos =
      some (.ok (sig', pos'))) ∧
      (verify xof hfuel p n vjunk (encodePkey n h fun _ => 0) msg (rdArr (sigLen n + slack) sig') = some (.ok true) ∨
        BadSig n xof hfuel h (fun i => stream (pos + i)) msg sig'))
    (fun sig pos r hr => by
      have hr0 := hr
      rw [eT, signPoly64 hS hA (codeLeaf_sim false n lfuel stream) (codeLeaf_good hn lfuel stream) hn heq hfit hgs B T0 _ (fun _ => 0)
        hB' xof fuel hfuel stream msg sig pos] at hr
      cases r with
      | error e => exact absurd hr (C68_sign hA hn heq hfit hgs xof fuel lfuel hfuel _ _ stream msg sig pos e)
      | ok r =>
        obtain ⟨c, s1, s2, q, l, q1, -, -, -, q5, q6, q7, q8⟩ := C65_binary64 b hn heq hfit q2 hinv xof _ fuel hfuel _ _ stream msg sig
          r.1 pos r.2 hr
        refine ⟨r.1, r.2, rfl, ⟨sig, hr0⟩, ?_⟩
        by_cases hb : BadVec n s1 s2
        · exact Or.inr ⟨c, s1, s2, q1, q5, q6, q7, hb⟩
        · obtain ⟨b1, b2, b3⟩ := not_bad hb
          exact Or.inl (q8 b1 b2 b3 _ p vjunk _ hpk (by rw [sigLen_eq]; omega))) (k + 1)
  cases hloop : benchPolyLoop (f64A b rm rd) xof (codeLeaf64 false n lfuel stream) fuel hfuel n stream B T msg sig (kpos + mlen) (k + 1) with
  | none => rw [hloop] at hx; cases hx
  | some y =>
    obtain ⟨sig', pos', rfl, hq⟩ := key y hloop
    obtain ⟨sig0, pos0, hj, ⟨sig1, hs⟩, hv⟩ := hq k rfl
    rcases hv with hv | hv
    · left
      rw [hloop, bindO_pure] at hx
      simp only at hx
      rw [verifyPoly_bytes hn xof hfuel p vjunk hpk] at hx
      change verify xof hfuel p n vjunk (encodePkey n h fun _ => 0) msg (rdArr (sigLen n + slack) sig') = _ at hx
      rw [hv] at hx
      exact (Option.some.inj hx).symm
    · right
      have hs' := hloop
      rw [benchPolyLoop, hj, bindO_pure] at hs'
      exact ⟨sig0, pos0, sig', pos', hj, hs', hv⟩

/-- The hypothesis of `C109_sign_many` is met. -/
example (b : Bool) (rm : F64.Recover) (mt : UInt32 → Mem UInt8) (rng : UInt32) (B0 T0 : Mem (F64 × F64)) (h0 : Mem Ff) : ∃ (xof : Xof) (r : _),
    keygenRaw (f64A b rm F64.keepNan) false 9 (prngNew xof mt rng) 3 1 zeroNtru B0 T0 h0 (sigSigma (f64A b rm F64.keepNan) 9) 0 =
      some (.ok r) := by
  obtain ⟨stream, s, pos, h, hs⟩ := const_run_of (const_quot64 b rm F64.keepNan) (const_gs64 b rm F64.keepNan)
  refine ⟨fun _ => stream, ?_⟩
  unfold keygenRaw
  rw [show prngNew (fun _ => stream) mt rng = stream from rfl, h, bindO_pure]
  exact ⟨_, rfl⟩

/-- The hypothesis of `C109_keygen` is met for any number of iterations. -/
example (b : Bool) (rm : F64.Recover) (mt : UInt32 → Mem UInt8) (krds : ℕ → UInt32) (k : ℕ) : ∃ xof : Xof, ∀ pk0 sk0 : Mem UInt8, ∃ r,
    benchKeygen (f64A b rm F64.keepNan) xof mt false 9 3 1 (fun _ => zeroNtru) krds pk0 sk0 (k + 1) = some (.ok r) := by
  obtain ⟨stream, s, pos, h, hs⟩ := const_run_of (const_quot64 b rm F64.keepNan) (const_gs64 b rm F64.keepNan)
  have h1 : ∀ krd pk0 sk0, ∃ r, falconKeygen (f64A b rm F64.keepNan) (fun _ => stream) mt false 9 3 1 zeroNtru krd pk0 sk0 = some (.ok r) := by
    intro krd pk0 sk0
    unfold falconKeygen
    simp only
    rw [show prngNew (fun _ => stream) mt krd = stream from rfl, h, bindO_pure]
    exact ⟨_, rfl⟩
  refine ⟨fun _ => stream, fun pk0 sk0 => ?_⟩
  have : ∀ k, ∃ r, benchKeygen (f64A b rm F64.keepNan) (fun _ => stream) mt false 9 3 1 (fun _ => zeroNtru) krds pk0 sk0 k = some (.ok r) := by
    intro k
    induction k with
    | zero => exact ⟨_, rfl⟩
    | succ k ih =>
      obtain ⟨r, hr⟩ := ih
      rw [benchKeygen, hr, bindO_pure]
      exact h1 _ _ _
  exact this (k + 1)

end Falcon
