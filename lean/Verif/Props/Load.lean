import Verif.Proofs.SignCongr
import Verif.Props.SignRun
import Verif.Props.Fft
import Verif.Props.Codec

/-!
# C58 : precomputed key material; C63 : from key generation to verification
-/

namespace Falcon

open Finset Polynomial

/-- The result of `falcon::sign` from the one of `signing::sign`. -/
def signResult : Option (Except UB (Mem UInt8 × ℕ)) → Option (Except UB (Bool × Mem UInt8))
  | none => none
  | some (.error e) => some (.error e)
  | some (.ok r) => some (.ok (true, r.1))

theorem bindO_signResult (x : Option (Except UB (Mem UInt8 × ℕ))) :
    bindO x (fun r => some (.ok (true, r.1))) = signResult x := by
  rcases x with _ | _ | x <;> rfl

/-- Decoding a secret key does not depend on the prior content of the output arrays. -/
theorem decodeSkey_congr {n : ℕ} (hn : ValidLog n) (sk : Mem UInt8) (o o' : FgF) :
    (decodeSkey n sk o).1 = (decodeSkey n sk o').1 ∧ ((decodeSkey n sk o).1 = true → ∀ i, i < 2 ^ n →
      (decodeSkey n sk o').2.f i = (decodeSkey n sk o).2.f i ∧
      (decodeSkey n sk o').2.g i = (decodeSkey n sk o).2.g i ∧
      (decodeSkey n sk o').2.F i = (decodeSkey n sk o).2.F i) := by
  obtain ⟨a1, -, a3⟩ := C13_skey_decode hn sk sk o
  obtain ⟨b1, -, -⟩ := C13_skey_decode hn sk sk o'
  constructor
  · have := a1.trans b1.symm
    cases h1 : (decodeSkey n sk o).1 <;> cases h2 : (decodeSkey n sk o').1 <;> simp_all
  · intro h i hi
    obtain ⟨hr, he⟩ := a3 h
    obtain ⟨-, c2, -, -, c5⟩ := C12_skey_roundtrip hn _ _ _ sk o' hr
    have henc : encodeSkey n (decodeSkey n sk o).2.f (decodeSkey n sk o).2.g (decodeSkey n sk o).2.F sk = sk := by
      funext j
      by_cases hj : j < skBytes n
      · exact he j hj
      · exact c5 j (by omega)
    simp only [henc] at c2
    exact c2 i hi

/-- A loop converting entry after entry. -/
theorem loopE_conv (e : ℕ → Except UB Int) (N : ℕ) :
    (∃ u, ∀ G : Mem Int, loopE N (fun i m => (e i).bind fun v => .ok (upd m i v)) G = .error u) ∨
    ∃ v : Mem Int, ∀ G : Mem Int, loopE N (fun i m => (e i).bind fun v => .ok (upd m i v)) G =
      .ok (fun i => if i < N then v i else G i) := by
  induction N with
  | zero => exact Or.inr ⟨fun _ => 0, fun G => by simp [loopE]⟩
  | succ N ih =>
    rcases ih with ⟨u, hu⟩ | ⟨v, hv⟩
    · exact Or.inl ⟨u, fun G => by rw [loopE, hu]; rfl⟩
    · cases hd : e N with
      | error u => exact Or.inl ⟨u, fun G => by rw [loopE, hv]; simp only [Except.bind, hd]⟩
      | ok w =>
        refine Or.inr ⟨fun i => if i < N then v i else w, fun G => ?_⟩
        rw [loopE, hv]
        simp only [Except.bind, hd]
        congr 1
        funext i
        by_cases h1 : i = N
        · subst h1
          rw [upd_same, if_pos (by omega), if_neg (by omega)]
        · rw [upd_ne _ N i _ h1]
          by_cases h2 : i < N
          · simp [h2, show i < N + 1 by omega]
          · simp [h2, show ¬ i < N + 1 by omega]

/-- Recomputing G depends only on the N coefficients of each input. -/
theorem recomputeG_congr {R C : Type} (A : Arith R C) (n : ℕ) {f g F f' g' F' : Mem Int} (G0 G0' : Mem Int)
    (h : ∀ i, i < 2 ^ n → f' i = f i ∧ g' i = g i ∧ F' i = F i) {G : Mem Int}
    (hG : recomputeG A n f g F G0 = .ok G) :
    ∃ G', recomputeG A n f' g' F' G0' = .ok G' ∧ ∀ i, i < 2 ^ n → G' i = G i := by
  have e : ∀ {a a' : Mem Int}, (∀ i, i < 2 ^ n → a' i = a i) →
      loop (2 ^ n) (fun i m => upd m i (A.ofInt (a' i))) (junkC A) =
        loop (2 ^ n) (fun i m => upd m i (A.ofInt (a i))) (junkC A) :=
    fun h => loop_congr fun i hi t => by rw [h i hi]
  have e0 : recomputeG A n f' g' F' G0' = recomputeG A n f g F G0' := by
    unfold recomputeG
    simp only
    rw [one_shiftLeft', e (fun i hi => (h i hi).1), e (fun i hi => (h i hi).2.1), e (fun i hi => (h i hi).2.2)]
  rw [e0]
  unfold recomputeG at hG ⊢
  simp only at hG ⊢
  rcases loopE_conv _ (1 <<< n) with ⟨u, hu⟩ | ⟨v, hv⟩
  · rw [hu] at hG; cases hG
  · rw [hv] at hG ⊢
    injection hG with hG
    rw [one_shiftLeft'] at *
    refine ⟨_, rfl, fun i hi => ?_⟩
    rw [← hG]
    simp only [if_pos hi]

/-- C58. For every arithmetic (binary64 in particular): load a key, recompute G, compute matrix and tree, in any
buffers; then signing with these gives, for every message and random stream, the outcome of one-shot signing. -/
theorem C58_one_shot {R C : Type} (A : Arith R C) {n : ℕ} (hn : ValidLog n) (skey : Mem UInt8) (o k : FgF)
    (hk : decodeSkey n skey o = (true, k)) (G0 G : Mem Int) (hG : recomputeG A n k.f k.g k.F G0 = .ok G)
    (B0 T0 : Mem C) (xof : Xof) (mt : UInt32 → Mem UInt8) (leaf : (ℕ → UInt8) → LeafSampler R) (fuel hfuel : ℕ)
    (junk : FgF) (junkG : Mem Int) (junkB junkT : Mem C) (rd : UInt32) (msg : List UInt8) (sig : Mem UInt8) :
    let B := computeMatrixB A n k.f k.g k.F G B0
    let T := computeFalconTree A n B T0
    let stream := prngNew xof mt rd
    falconSign A xof mt leaf fuel hfuel n junk junkG junkB junkT rd skey msg sig =
      signResult (signPoly A xof (leaf stream) fuel hfuel n B T stream msg sig 0) := by
  intro B T stream
  have hn1 : 1 ≤ n := by rcases hn with rfl | rfl <;> norm_num
  obtain ⟨d1, d2⟩ := decodeSkey_congr hn skey o junk
  rw [hk] at d1 d2
  cases hk' : decodeSkey n skey junk with
  | mk b k' =>
    rw [hk'] at d1 d2
    simp only at d1
    subst d1
    have d2 := d2 rfl
    simp only at d2
    obtain ⟨G', g1, g2⟩ := recomputeG_congr A n G0 junkG d2 hG
    have hB : ∀ x, x < 4 * 2 ^ n → computeMatrixB A n k'.f k'.g k'.F G' junkB x = B x :=
      computeMatrixB_congr A n junkB B0 fun i hi => ⟨(d2 i hi).1, (d2 i hi).2.1, (d2 i hi).2.2, g2 i hi⟩
    obtain ⟨t, t1, t2⟩ := computeFalconTree_rep A n hn1 junkT T0 hB
    unfold falconSign
    simp only [hk']
    rw [g1, bindO_pure, bindO_signResult, signPoly_congr A xof _ fuel hfuel n hB t1 t2]

/-- The integer arrays of key generation and the public key fit the formats. -/
theorem pkeyOf_encode {n : ℕ} (hn : ValidLog n) {h : Mem Ff} (hh : FitsBelow (2 ^ n) h) (pk : Mem UInt8) :
    PkeyOf n (encodePkey n h pk) h :=
  ⟨(C09_pkey_roundtrip hn h h pk hh).2.2.2.1, hh, C59_pkey_layout hn h pk hh⟩

theorem canon_fits {N : ℕ} {h : Mem Ff} (hc : CanonBelow N h) : FitsBelow N h := by
  intro i hi
  have := hc i hi
  unfold Ff.Canonical at this
  exact this.trans (by decide)

theorem nonzero_of_inv {n : ℕ} {f : Mem Int} (hinv : ∃ r, ModEqXN (2 ^ n) (polyInt (2 ^ n) f * r) 1) :
    ∃ i, i < 2 ^ n ∧ f i ≠ 0 := by
  by_contra hc
  push Not at hc
  obtain ⟨r, c, hr⟩ := hinv
  have h0 : polyInt (2 ^ n) f = 0 := by rw [polyInt_map, polyZ_zero hc]; simp
  rw [h0, zero_mul, zero_sub] at hr
  have hmon : (X ^ 2 ^ n + 1 : Zq[X]).Monic := by
    simpa using monic_X_pow_add_C (1 : Zq) (n := 2 ^ n) (by positivity)
  have hu : IsUnit (X ^ 2 ^ n + 1 : Zq[X]) := isUnit_iff_exists_inv.mpr ⟨-c, by linear_combination hr⟩
  have h1 := hmon.eq_one_of_isUnit hu
  have : (X ^ 2 ^ n + 1 : Zq[X]).natDegree = 2 ^ n := by
    simpa using natDegree_X_pow_add_C (n := 2 ^ n) (r := (1 : Zq))
  rw [h1, natDegree_one] at this
  have : 0 < 2 ^ n := by positivity
  omega

/-- The hypotheses of `C58_one_shot` are met by the key (1, 0, 0) whose G is q. -/
example (sk0 : Mem UInt8) (o : FgF) (G0 : Mem Int) : ∃ k G,
    decodeSkey 9 (encodeSkey 9 (constMem 1) (fun _ => 0) (fun _ => 0) sk0) o = (true, k) ∧
    recomputeG exactA 9 k.f k.g k.F G0 = .ok G ∧ G 0 = 12289 := by
  have hr : SkInRange 9 (constMem 1) (fun _ => 0) (fun _ => 0) := by
    intro i _
    have : constMem 1 i = 0 ∨ constMem 1 i = 1 := by unfold constMem; split <;> simp
    have hb : skBits 9 = 6 := rfl
    rw [hb]
    beta_reduce
    omega
  obtain ⟨c1, c2, -⟩ := C12_skey_roundtrip (Or.inl rfl : ValidLog 9) (constMem 1) (fun _ => 0) (fun _ => 0) sk0 o hr
  have hG : ∀ i, i < 2 ^ 9 → -2 ^ 31 ≤ constMem 12289 i ∧ constMem 12289 i < 2 ^ 31 := by
    intro i _
    unfold constMem
    split <;> norm_num
  obtain ⟨G, g1, g2⟩ := recomputeG_congr exactA 9 G0 G0 c2 (recomputeG_exact (by norm_num) (constMem 1) (fun _ => 0)
    (fun _ => 0) (constMem 12289) ⟨0, by norm_num, by unfold constMem; norm_num⟩ hG (ntruEq_example 9 _) G0)
  generalize decodeSkey 9 (encodeSkey 9 (constMem 1) (fun _ => 0) (fun _ => 0) sk0) o = d at c1 g1 ⊢
  obtain ⟨b, k⟩ := d
  simp only at c1 g1
  exact ⟨k, G, by rw [c1], g1, by rw [g2 0 (by norm_num), if_pos (by norm_num)]; rfl⟩

/-- The signature of one-shot signing with an encoded key is the one of signing with the matrix of the same
polynomials. -/
theorem sign_encoded {n : ℕ} (hn : ValidLog n) {f g F G : Mem Int} (heq : NtruEq n f g F G)
    (hr : SkInRange n f g F) (hG : ∀ i, i < 2 ^ n → -2 ^ 31 ≤ G i ∧ G i < 2 ^ 31)
    (hne : ∃ i, i < 2 ^ n ∧ f i ≠ 0) (sk0 : Mem UInt8) (B0 T0 : Mem ℂ) (xof : Xof) (mt : UInt32 → Mem UInt8)
    (leaf : (ℕ → UInt8) → LeafSampler ℝ) (fuel hfuel : ℕ) (junk : FgF) (junkG : Mem Int) (junkB junkT : Mem ℂ)
    (rd : UInt32) (msg : List UInt8) (sig : Mem UInt8) :
    let B := computeMatrixB exactA n f g F G B0
    falconSign exactA xof mt leaf fuel hfuel n junk junkG junkB junkT rd (encodeSkey n f g F sk0) msg sig =
      signResult (signPoly exactA xof (leaf (prngNew xof mt rd)) fuel hfuel n B
        (computeFalconTree exactA n B T0) (prngNew xof mt rd) msg sig 0) := by
  intro B
  have hn10 : n ≤ 10 := by rcases hn with rfl | rfl <;> norm_num
  have hn1 : 1 ≤ n := by rcases hn with rfl | rfl <;> norm_num
  obtain ⟨c1, c2, -⟩ := C12_skey_roundtrip hn f g F sk0 junk hr
  cases hk : decodeSkey n (encodeSkey n f g F sk0) junk with
  | mk b k =>
    simp only [hk] at c1 c2
    subst c1
    obtain ⟨G', g1, g2⟩ := recomputeG_congr exactA n junkG junkG c2 (recomputeG_exact hn10 f g F G hne hG heq junkG)
    rw [C58_one_shot exactA hn _ junk k hk junkG G' g1 B0 T0]
    have hB : ∀ x, x < 4 * 2 ^ n → computeMatrixB exactA n k.f k.g k.F G' B0 x = B x :=
      computeMatrixB_congr exactA n B0 B0 fun i hi =>
        ⟨(c2 i hi).1, (c2 i hi).2.1, (c2 i hi).2.2, by rw [g2 i hi, if_pos hi]⟩
    obtain ⟨t, t1, t2⟩ := computeFalconTree_rep exactA n hn1 T0 T0 hB
    exact congrArg signResult (signPoly_congr exactA xof _ fuel hfuel n hB t1 t2 _ msg sig 0)

/-- C58, second half (exact arithmetic for signing; key generation may compute its quotients and its norm test in
any way). Let key generation find the polynomials `s`. If f, g, F fit the format (C14) and the solution survived
the narrowing (C38), then signing with the matrix and the tree computed from `s` gives the outcome of one-shot
signing with the serialised secret key. -/
theorem C58_key_material {quot : RedQuot} {gs : Mem Int → Mem Int → Bool} {fma : Bool} {n : ℕ} (hn : ValidLog n)
    {kstream : ℕ → UInt8} {kfuel iters : ℕ} {kjunk s : Ntru} {kpos kpos' : ℕ}
    (hs : ntruGen quot gs fma n kstream kfuel iters kjunk kpos = some (.ok (s, kpos')))
    (hr : SkInRange n s.f s.g s.F) (heq : NtruEq n s.f s.g s.F s.G) (B0 T0 : Mem ℂ) (sk0 : Mem UInt8) (xof : Xof)
    (mt : UInt32 → Mem UInt8) (leaf : (ℕ → UInt8) → LeafSampler ℝ) (fuel hfuel : ℕ) (junk : FgF) (junkG : Mem Int)
    (junkB junkT : Mem ℂ) (rd : UInt32) (msg : List UInt8) (sig : Mem UInt8) :
    let B := computeMatrixB exactA n s.f s.g s.F s.G B0
    falconSign exactA xof mt leaf fuel hfuel n junk junkG junkB junkT rd (encodeSkey n s.f s.g s.F sk0) msg sig =
      signResult (signPoly exactA xof (leaf (prngNew xof mt rd)) fuel hfuel n B (computeFalconTree exactA n B T0)
        (prngNew xof mt rd) msg sig 0) := by
  obtain ⟨-, hinv, -, F, G, -, hFG, -⟩ := C38_ntru_gen hn hs
  refine sign_encoded hn heq hr (fun i hi => ?_) (nonzero_of_inv hinv) sk0 B0 T0 xof mt leaf fuel hfuel junk junkG
    junkB junkT rd msg sig
  rw [(hFG i hi).2]
  unfold narrow32
  have h1 := Int.le_bmod (x := getSi (G i)) (m := 2 ^ 32) (by norm_num)
  have h2 := Int.bmod_lt (x := getSi (G i)) (m := 2 ^ 32) (by norm_num)
  norm_num at h1 h2 ⊢
  omega

/-- C58, the same for the matrix `B` and the tree `T` that `keygen::keygen` outputs. -/
theorem C58_key_generation {fma : Bool} {n : ℕ} (hn : ValidLog n) {kstream : ℕ → UInt8} {kfuel iters : ℕ}
    {kjunk s : Ntru} {kpos kpos' p' : ℕ} {B0 T0 B T : Mem ℂ} {h0 h : Mem Ff}
    (hs : ntruGen (redQuot exactA) (gsTooBig exactA n) fma n kstream kfuel iters kjunk kpos = some (.ok (s, kpos')))
    (hgen : keygenRaw exactA fma n kstream kfuel iters kjunk B0 T0 h0 (sigSigma exactA n) kpos =
      some (.ok (B, T, h, p')))
    (hr : SkInRange n s.f s.g s.F) (heq : NtruEq n s.f s.g s.F s.G) (sk0 : Mem UInt8) (xof : Xof)
    (mt : UInt32 → Mem UInt8) (leaf : (ℕ → UInt8) → LeafSampler ℝ) (fuel hfuel : ℕ) (junk : FgF) (junkG : Mem Int)
    (junkB junkT : Mem ℂ) (rd : UInt32) (msg : List UInt8) (sig : Mem UInt8) :
    falconSign exactA xof mt leaf fuel hfuel n junk junkG junkB junkT rd (encodeSkey n s.f s.g s.F sk0) msg sig =
      signResult (signPoly exactA xof (leaf (prngNew xof mt rd)) fuel hfuel n B T (prngNew xof mt rd) msg sig 0) := by
  unfold keygenRaw at hgen
  rw [hs, bindO_pure] at hgen
  simp only at hgen
  have hgen := Prod.mk.inj (Except.ok.inj (Option.some.inj hgen))
  have hT := (Prod.mk.inj hgen.2).1
  rw [← hT, ← hgen.1]
  exact C58_key_material hn hs hr heq B0 T0 sk0 xof mt leaf fuel hfuel junk junkG junkB junkT rd msg sig

/-- C63. From key generation to verification, with serialised keys, in exact arithmetic for signing and any
arithmetic `K` (double precision in particular) for key generation: every run of `falcon::keygen` that returns
has found polynomials `s` such that, if f, g, F fit the secret key format (C14) and
the solution survived the narrowing (C38), every signature that `falcon::sign` returns with the secret key bytes,
for any message, random stream and behaviour of the integer sampler, encodes a short preimage and is accepted by
`falcon::verify` with the public key bytes, provided that no coefficient of s2 exceeds 1023 in absolute value and,
for N = 1024, no coefficient of s1 equals 6144. -/
theorem C63_end_to_end {R' C' : Type} (K : Arith R' C') (fma : Bool) {n : ℕ} (hn : ValidLog n) (xof : Xof) (mt : UInt32 → Mem UInt8) (kfuel iters : ℕ)
    (kjunk : Ntru) (krd : UInt32) (pk0 sk0 pk sk : Mem UInt8)
    (hkey : falconKeygen K xof mt fma n kfuel iters kjunk krd pk0 sk0 = some (.ok (pk, sk))) :
    ∃ (s : Ntru) (kpos : ℕ) (h : Mem Ff),
      ntruGen (redQuot K) (gsTooBig K n) fma n (prngNew xof mt krd) kfuel iters kjunk 0 = some (.ok (s, kpos)) ∧
      sk = encodeSkey n s.f s.g s.F sk0 ∧ PkeyOf n pk h ∧
      ModEqXN (2 ^ n) (polyZq (2 ^ n) h * polyInt (2 ^ n) s.f) (polyInt (2 ^ n) s.g) ∧
      (SkInRange n s.f s.g s.F → NtruEq n s.f s.g s.F s.G →
        ∀ (leaf : (ℕ → UInt8) → LeafSampler ℝ) (fuel hfuel : ℕ) (junk : FgF) (junkG : Mem Int)
          (junkB junkT : Mem ℂ) (rd : UInt32) (msg : List UInt8) (sig sig' : Mem UInt8) (b : Bool),
          falconSign exactA xof mt leaf fuel hfuel n junk junkG junkB junkT rd sk msg sig = some (.ok (b, sig')) →
          b = true ∧ ∃ (c : Mem Ff) (s1 s2 : Mem Int),
            hashToPoint hfuel n (xof (saltMsg sig' msg)) (fun _ => Ff.zero) = some c ∧
            Preimage (2 ^ n) h c s1 s2 ∧ sqNorm (2 ^ n) s1 + sqNorm (2 ^ n) s2 ≤ betaSq n ∧
            SignatureOf n sig' (prngNew xof mt rd) s2 ∧
            ((∀ i, i < 2 ^ n → |s2 i| ≤ 1023) → (n = 10 → ∀ i, i < 2 ^ n → s1 i ≠ 6144) →
              ∀ (p : Ovf) (vjunk : Junk) (lim : ℕ), sigBytes n + 2 ≤ lim →
                verify xof hfuel p n vjunk pk msg (rdArr lim sig') = some (.ok true))) := by
  unfold falconKeygen at hkey
  simp only at hkey
  obtain ⟨r, hs, hkey⟩ := bindO_ok hkey
  have hkey := Prod.mk.inj (Except.ok.inj (Option.some.inj hkey))
  obtain ⟨s, kpos'⟩ := r
  simp only at hkey
  have H := ntruGen_spec iters kjunk 0 s kpos' hs
  obtain ⟨-, hinv, -, F, G, -, hFG, -⟩ := C38_ntru_gen hn hs
  obtain ⟨k1, k2⟩ := publicKey_spec hn (fun _ => Ff.zero) (H.fRange.coeff hn) (H.gRange.coeff hn) hinv
  have hpk : PkeyOf n pk (computePublicKey n s.f s.g fun _ => Ff.zero) := by
    rw [← hkey.1]; exact pkeyOf_encode hn (canon_fits k1) pk0
  refine ⟨s, kpos', _, hs, hkey.2.symm, hpk, k2, fun hr heq leaf fuel hfuel junk junkG junkB junkT rd msg sig sig' b hsig => ?_⟩
  have hG : ∀ i, i < 2 ^ n → -2 ^ 31 ≤ s.G i ∧ s.G i < 2 ^ 31 := by
    intro i hi
    rw [(hFG i hi).2]
    unfold narrow32
    have h1 := Int.le_bmod (x := getSi (G i)) (m := 2 ^ 32) (by norm_num)
    have h2 := Int.bmod_lt (x := getSi (G i)) (m := 2 ^ 32) (by norm_num)
    norm_num at h1 h2 ⊢
    omega
  rw [← hkey.2, sign_encoded hn heq hr hG (nonzero_of_inv hinv) sk0 junkB junkT xof mt leaf fuel hfuel junk junkG
    junkB junkT rd msg sig] at hsig
  cases hsp : signPoly exactA xof (leaf (prngNew xof mt rd)) fuel hfuel n
      (computeMatrixB exactA n s.f s.g s.F s.G junkB)
      (computeFalconTree exactA n (computeMatrixB exactA n s.f s.g s.F s.G junkB) junkT) (prngNew xof mt rd) msg sig 0 with
  | none => rw [hsp] at hsig; cases hsig
  | some e =>
    cases e with
    | error e => rw [hsp] at hsig; cases hsig
    | ok r =>
      rw [hsp] at hsig
      have hsig := Prod.mk.inj (Except.ok.inj (Option.some.inj hsig))
      obtain ⟨c, s1, s2, q1, q2, q3, q4, q5⟩ := C49_sign_verifies hn heq k2 hinv xof _ fuel hfuel junkB _ _ msg sig r.1 0
        r.2 hsp
      rw [← hsig.2]
      refine ⟨hsig.1.symm, c, s1, s2, q1, q2, q3, by simpa only [Nat.zero_add] using q4, ?_⟩
      intro hb h6 p vjunk lim hlim
      exact q5 hb h6 pk p vjunk lim hpk hlim

end Falcon
