import Verif.Props.Hash

/-!
# Properties C11, C19 (verification side), C26 - C30: verification

Setting of every theorem: arbitrary extendable output function `xof`, key bytes `pk`, message `msg`,
signature bytes `m`; `lim` readable bytes at the signature (at least two more than its length, see C22);
arbitrary content `junk` of uninitialised local arrays; `fuel` bounds the number of hashed blocks.
-/

namespace Falcon

variable {n lim : ℕ} {xof : Xof} {fuel : ℕ} {junk : Junk} {pk m : Mem UInt8} {msg : List UInt8}

/-- C26, the part that holds: every run that is defined in C++ and returns true has a short preimage. -/
theorem C26_sound_partial (hn : ValidLog n) (hlim : sigBytes n + 2 ≤ lim)
    (hv : verify xof fuel .strict n junk pk msg (rdArr lim m) = some (.ok true)) :
    ∃ h c s1 s2, PkeyOf n pk h ∧ SigOf n m s2 ∧ HashPoint (2 ^ n) (xof (saltMsg m msg)) c ∧
      Preimage (2 ^ n) h c s1 s2 ∧ sqNorm (2 ^ n) s1 + sqNorm (2 ^ n) s2 ≤ betaSq n := by
  by_cases hpk : (pk 0).toNat = n
  · by_cases hs : ∃ s2, SigOf n m s2
    · obtain ⟨s2, hs2⟩ := hs
      obtain ⟨h, -, hh⟩ := decodePkey_of hn pk (fun _ => Ff.zero) hpk
      rw [verify_eq hn hlim hh hs2] at hv
      obtain ⟨c, hc, hv⟩ := Option.map_eq_some_iff.mp hv
      have hcp := (hashToPoint_spec hc).1
      rw [verifyTail_strict hn _ hh.2.1 hcp.canon hs2.bound] at hv
      split at hv
      · simp only [Except.ok.injEq, decide_eq_true_eq] at hv
        refine ⟨h, c, _, s2, hh, hs2, hcp, preimage_tail hn hh.2.1 hcp.canon hs2.bound, ?_⟩
        unfold codeNorm at hv; linarith
      · cases hv
    · push Not at hs
      rw [verify_reject hn hlim (Or.inr hs)] at hv
      simp at hv
  · rw [verify_reject hn hlim (Or.inl hpk)] at hv
    simp at hv

/-- The exact verdict, in terms of the preimage with coefficients in [-6145, 6143]. -/
theorem C26_exact (hn : ValidLog n) (hlim : sigBytes n + 2 ≤ lim) {h c : Mem Ff} {s1 s2 : Mem Int}
    (hpk : PkeyOf n pk h) (hs2 : SigOf n m s2)
    (hc : hashToPoint fuel n (xof (saltMsg m msg)) (fun _ => Ff.zero) = some c)
    (hp : Preimage (2 ^ n) h c s1 s2) (hr : ∀ i, i < 2 ^ n → -6145 ≤ s1 i ∧ s1 i ≤ 6143) :
    let norm := sqNorm (2 ^ n) s1 + sqNorm (2 ^ n) s2
    verify xof fuel .strict n junk pk msg (rdArr lim m) =
      some (if norm < 2 ^ 31 then .ok (decide (norm ≤ betaSq n)) else .error .signedOverflow) ∧
    verify xof fuel .wrap n junk pk msg (rdArr lim m) =
      some (.ok (decide (Int.bmod norm (2 ^ 32) ≤ betaSq n))) := by
  intro norm
  have hcp := (hashToPoint_spec hc).1
  have hcong := preimage_cong (Nat.two_pow_pos n) hp (preimage_tail hn hpk.2.1 hcp.canon hs2.bound)
  have hcan := (tailS1_spec hn hpk.2.1 hcp.canon hs2.bound).1
  have heq : ∀ i, i < 2 ^ n → s1 i = centre (tailS1 n h c s2 i) := by
    intro i hi
    have h1 := hcong i hi
    rw [ZMod.intCast_eq_intCast_iff] at h1
    have h2 := hr i hi
    have h3 : -6145 ≤ centre (tailS1 n h c s2 i) ∧ centre (tailS1 n h c s2 i) ≤ 6143 := by
      have := hcan i hi
      unfold Ff.Canonical at this
      have hq : q = 12289 := rfl
      rw [centre_eq]; split <;> omega
    have h4 : s1 i % 12289 = centre (tailS1 n h c s2 i) % 12289 := h1
    omega
  have hnorm : codeNorm n h c s2 = norm := by
    show _ = sqNorm (2 ^ n) s1 + sqNorm (2 ^ n) s2
    rw [sqNorm_congr heq]; unfold codeNorm; ring
  refine ⟨?_, ?_⟩
  · rw [verify_eq hn hlim hpk hs2, hc, Option.map_some,
      verifyTail_strict hn _ hpk.2.1 hcp.canon hs2.bound, hnorm]
  · rw [verify_eq hn hlim hpk hs2, hc, Option.map_some, verifyTail_wrap, hnorm]

/-- Such a preimage always exists, so `C26_exact` covers every case. -/
theorem C26_exact_covers (hn : ValidLog n) {h c : Mem Ff} {s2 : Mem Int} (hpk : PkeyOf n pk h)
    (hs2 : SigOf n m s2) (hc : CanonBelow (2 ^ n) c) :
    ∃ s1, Preimage (2 ^ n) h c s1 s2 ∧ ∀ i, i < 2 ^ n → -6145 ≤ s1 i ∧ s1 i ≤ 6143 := by
  refine ⟨_, preimage_tail hn hpk.2.1 hc hs2.bound, ?_⟩
  intro i hi
  have := (tailS1_spec hn hpk.2.1 hc hs2.bound).1 i hi
  unfold Ff.Canonical at this
  have hq : q = 12289 := rfl
  show -6145 ≤ centre (tailS1 n h c s2 i) ∧ centre (tailS1 n h c s2 i) ≤ 6143
  rw [centre_eq]; split <;> omega

theorem preimage_zero {N : ℕ} {h c : Mem Ff} {s1 : ℕ → ℤ} (hs : ∀ i, i < N → (s1 i : Zq) = (c i).val) :
    Preimage N h c s1 (fun _ => 0) := by
  unfold Preimage ModEqXN
  have h1 : polyInt N s1 = polyZq N c := toPoly_congr hs
  have h2 : polyInt N (fun _ => 0) = 0 := by
    unfold polyInt toPoly; simp
  rw [h1, h2, zero_mul, add_zero, sub_self]
  exact dvd_zero _

/-- C27 (attack): the signature with s2 = 0 is accepted for every well-formed public key as soon as the
32-bit wrap-around of the squared norm of the centred hash is at most the bound, in particular whenever
that norm lies in [2^31, 2^32); as C++ that run is undefined once the norm reaches 2^31. No property of
the key is used. -/
theorem C27_zero_signature (hn : ValidLog n) (hlim : sigBytes n + 2 ≤ lim) {c : Mem Ff} {s1 : Mem Int}
    (hpk : (pk 0).toNat = n) (hs2 : SigOf n m (fun _ => 0))
    (hc : hashToPoint fuel n (xof (saltMsg m msg)) (fun _ => Ff.zero) = some c)
    (hs1 : ∀ i, i < 2 ^ n → (s1 i : Zq) = (c i).val ∧ -6145 ≤ s1 i ∧ s1 i ≤ 6143) :
    (verify xof fuel .wrap n junk pk msg (rdArr lim m) = some (.ok true) ↔
      Int.bmod (sqNorm (2 ^ n) s1) (2 ^ 32) ≤ betaSq n) ∧
    (2 ^ 31 ≤ sqNorm (2 ^ n) s1 →
      verify xof fuel .strict n junk pk msg (rdArr lim m) = some (.error .signedOverflow)) ∧
    (2 ^ 31 ≤ sqNorm (2 ^ n) s1 → sqNorm (2 ^ n) s1 < 2 ^ 32 →
      verify xof fuel .wrap n junk pk msg (rdArr lim m) = some (.ok true)) := by
  obtain ⟨h, -, hh⟩ := decodePkey_of hn pk (fun _ => Ff.zero) hpk
  have hp : Preimage (2 ^ n) h c s1 (fun _ => 0) := preimage_zero (fun i hi => (hs1 i hi).1)
  obtain ⟨e1, e2⟩ := C26_exact (junk := junk) hn hlim hh hs2 hc hp (fun i hi => (hs1 i hi).2)
  have hz : sqNorm (2 ^ n) (fun _ => 0) = 0 := by unfold sqNorm; simp
  rw [hz, add_zero] at e1 e2
  refine ⟨?_, ?_, ?_⟩
  · rw [e2]; simp
  · intro hge
    rw [e1, if_neg (by omega)]
  · intro hge hlt
    rw [e2]
    have : Int.bmod (sqNorm (2 ^ n) s1) (2 ^ 32) = sqNorm (2 ^ n) s1 - 2 ^ 32 := by
      rw [Int.bmod_def, Int.emod_eq_of_lt (by omega) (by norm_num; omega), if_neg (by norm_num; omega)]
      norm_num
    have hb : 0 ≤ betaSq n := by unfold betaSq; split <;> norm_num
    simp only [this, Option.some.injEq, Except.ok.injEq, decide_eq_true_eq]
    omega

/-- The all-zero body: each coefficient is the nine bits 000000001. -/
theorem zero_sig_exists (hn : ValidLog n) (sig : Mem UInt8) :
    ∃ m, SigOf n m (fun _ => 0) ∧ ∀ j, 1 ≤ j → j < 41 → m j = sig j := by
  have hb := sigBytes_ge n
  obtain ⟨⟨out, h⟩, -⟩ := C18_witness hn (upd sig 0 (UInt8.ofNat (0x30 + n))) 0 (by norm_num)
  have hz : (fun i : ℕ => if i = 0 then (0 : ℤ) else 0) = fun _ => 0 := by funext i; split <;> rfl
  rw [hz] at h
  have hfr : ∀ j, j < 41 → out j = upd sig 0 (UInt8.ofNat (0x30 + n)) j := by
    obtain ⟨ok, out', a1, -, -, -, a5⟩ := C15_compress_spec hn (fun _ => 0)
      (upd sig 0 (UInt8.ofNat (0x30 + n))) (by intros; norm_num)
      (by rw [codes_length, Finset.sum_const, Finset.card_range, smul_eq_mul]; simp; omega)
    rw [h] at a1
    cases a1
    exact fun j hj => a5 j (Or.inl hj)
  obtain ⟨s', d1, d2⟩ := C17_roundtrip (lim := sigBytes n + 2) hn (fun _ => 0) (fun _ => 0) _ out
    (by intros; norm_num) h (le_refl _)
  obtain ⟨ok, o, b1, b2, b3, -⟩ := C20_accepts_iff out (fun _ => 0) (le_refl (sigBytes n + 2))
  rw [d1] at b1
  cases b1
  refine ⟨out, ⟨?_, ?_⟩, ?_⟩
  · rw [hfr 0 (by norm_num), upd_same]
    rcases hn with rfl | rfl <;> rfl
  · have := b3 rfl
    obtain ⟨cs, pos, p1, p2, p3⟩ := this
    refine ⟨cs, pos, p1, fun i hi => ?_, p3⟩
    have := p2 i hi
    rw [d2 i hi] at this
    exact this
  · intro j h1 h2
    rw [hfr j h2, upd_ne _ _ _ _ (by omega)]

/-- C27, unconditional instance: there are an extendable output function, a salt and a signature such
that for every well-formed key of degree 512 and every message verification accepts after wrap-around,
and is undefined in C++. -/
theorem C27_forgery_exists : ∃ (xof : Xof) (m : Mem UInt8), ∀ (pk : Mem UInt8) (msg : List UInt8)
    (junk : Junk), (pk 0).toNat = 9 →
    verify xof 16 .wrap 9 junk pk msg (rdArr 668 m) = some (.ok true) ∧
    verify xof 16 .strict 9 junk pk msg (rdArr 668 m) = some (.error .signedOverflow) := by
  obtain ⟨m, hm, -⟩ := zero_sig_exists (Or.inl rfl : ValidLog 9) (fun _ => 0)
  refine ⟨fun _ => streamOf (fun _ => 2048), m, fun pk msg junk hpk => ?_⟩
  obtain ⟨c, c1, c2⟩ := hash_streamOf (Or.inl rfl : ValidLog 9) (c := fun _ => 2048) (by intro; norm_num)
    (fun _ => Ff.zero)
  have key := C27_zero_signature (n := 9) (lim := 668) (xof := fun _ => streamOf (fun _ => 2048)) (fuel := 16)
    (junk := junk) (msg := msg) (s1 := fun _ => 2048) (Or.inl rfl) (le_refl _) hpk hm c1 (by
      intro i hi
      refine ⟨?_, by norm_num, by norm_num⟩
      unfold Ff.val
      rw [c2 i hi]; norm_num)
  have hN : sqNorm (2 ^ 9) (fun _ => 2048) = 2 ^ 31 := by
    unfold sqNorm
    rw [Finset.sum_const, Finset.card_range, nsmul_eq_mul]; norm_num
  rw [hN] at key
  exact ⟨key.2.2 (by norm_num) (by norm_num), key.2.1 (by norm_num)⟩

/-- C29: the representative used by the verifier. -/
theorem C29_centred (x : Ff) (hx : x.Canonical) :
    ((centre x : ℤ) : Zq) = x.val ∧
    (x.v.toNat ≠ 6144 → ∀ y : ℤ, (y : Zq) = x.val → |centre x| ≤ |y|) ∧
    (x.v.toNat = 6144 → centre x = -6145) ∧
    (∀ y : ℤ, (y : Zq) = x.val → y ≠ 6144 → centre x ^ 2 ≤ y ^ 2) ∧
    (∀ y : ℤ, (y : Zq) = x.val → y = 6144 → centre x ^ 2 = y ^ 2 + 12289) := by
  unfold Ff.Canonical at hx
  have hq : q = 12289 := rfl
  have hmod : ∀ y : ℤ, (y : Zq) = x.val → y % 12289 = x.v.toNat := by
    intro y hy
    unfold Ff.val at hy
    rw [← Int.cast_natCast, ZMod.intCast_eq_intCast_iff] at hy
    have : y % 12289 = (x.v.toNat : ℤ) % 12289 := hy
    omega
  have habs : ∀ y : ℤ, (y : Zq) = x.val → y ≠ 6144 → |centre x| ≤ |y| := by
    intro y hy hne
    have := hmod y hy
    rw [centre_eq, Int.abs_eq_natAbs, Int.abs_eq_natAbs]
    split <;> omega
  refine ⟨centre_cast x, ?_, ?_, ?_, ?_⟩
  · intro h y hy
    refine habs y hy (fun e => h ?_)
    have := hmod y hy
    omega
  · intro h
    rw [centre_eq, if_neg (by omega), h]; norm_num
  · intro y hy hne
    exact sq_le_sq.mpr (habs y hy hne)
  · intro y hy he
    have := hmod y hy
    have h6 : x.v.toNat = 6144 := by omega
    rw [centre_eq, if_neg (by omega), h6, he]; norm_num

/-- Both cases occur. -/
example : (⟨6144⟩ : Ff).Canonical ∧ (⟨6145⟩ : Ff).Canonical ∧ centre ⟨6145⟩ = -6144 := by
  refine ⟨by unfold Ff.Canonical; decide, by unfold Ff.Canonical; decide, by decide⟩

/-- C28: every short preimage is accepted, whatever happens on overflow (there is none); for N = 1024 the
coefficients of s1 must not equal 6144, for N = 512 they cannot. -/
theorem C28_complete (hn : ValidLog n) (hlim : sigBytes n + 2 ≤ lim) (p : Ovf) {h c : Mem Ff} {s1 s2 : Mem Int}
    (hpk : PkeyOf n pk h) (hs2 : SigOf n m s2)
    (hc : hashToPoint fuel n (xof (saltMsg m msg)) (fun _ => Ff.zero) = some c)
    (hp : Preimage (2 ^ n) h c s1 s2)
    (hshort : sqNorm (2 ^ n) s1 + sqNorm (2 ^ n) s2 ≤ betaSq n)
    (h6144 : n = 10 → ∀ i, i < 2 ^ n → s1 i ≠ 6144) :
    verify xof fuel p n junk pk msg (rdArr lim m) = some (.ok true) := by
  have hcp := (hashToPoint_spec hc).1
  have hcong := preimage_cong (Nat.two_pow_pos n) hp (preimage_tail hn hpk.2.1 hcp.canon hs2.bound)
  have hcan := (tailS1_spec hn hpk.2.1 hcp.canon hs2.bound).1
  have hne : ∀ i, i < 2 ^ n → s1 i ≠ 6144 := by
    rcases hn with rfl | rfl
    · intro i hi he
      have h1 : s1 i ^ 2 ≤ sqNorm (2 ^ 9) s1 :=
        Finset.single_le_sum (f := fun i => s1 i ^ 2) (fun _ _ => sq_nonneg _) (Finset.mem_range.mpr hi)
      have h2 := sqNorm_nonneg (2 ^ 9) s2
      have h3 : betaSq 9 = 34034726 := rfl
      rw [he] at h1
      omega
    · exact h6144 rfl
  have hle : codeNorm n h c s2 ≤ betaSq n := by
    have : sqNorm (2 ^ n) (fun i => centre (tailS1 n h c s2 i)) ≤ sqNorm (2 ^ n) s1 := by
      apply Finset.sum_le_sum
      intro i hi
      have hi := Finset.mem_range.mp hi
      refine (C29_centred _ (hcan i hi)).2.2.2.1 (s1 i) ?_ (hne i hi)
      rw [hcong i hi, centre_cast]
    unfold codeNorm; linarith
  have hnn : 0 ≤ codeNorm n h c s2 := add_nonneg (sqNorm_nonneg _ _) (sqNorm_nonneg _ _)
  have hb : betaSq n < 2 ^ 31 := by unfold betaSq; split <;> norm_num
  rw [verify_eq hn hlim hpk hs2, hc, Option.map_some]
  cases p
  · rw [verifyTail_strict hn _ hpk.2.1 hcp.canon hs2.bound, if_pos (by omega)]
    simpa using hle
  · rw [verifyTail_wrap, bmod_range _ ⟨by omega, by omega⟩]
    simpa using hle

/-- C28, sharpness of the side condition: for N = 1024 there is a short preimage (squared norm exactly
the bound) with a coefficient 6144 which verification rejects. -/
theorem C28_6144_rejected : ∃ (xof : Xof) (m : Mem UInt8), ∀ (pk : Mem UInt8) (msg : List UInt8)
    (junk : Junk) (h : Mem Ff), PkeyOf 10 pk h →
    (∃ c s1, hashToPoint 16 10 (xof (saltMsg m msg)) (fun _ => Ff.zero) = some c ∧
      SigOf 10 m (fun _ => 0) ∧ Preimage (2 ^ 10) h c s1 (fun _ => 0) ∧
      sqNorm (2 ^ 10) s1 + sqNorm (2 ^ 10) (fun _ => 0) = betaSq 10) ∧
    verify xof 16 .strict 10 junk pk msg (rdArr 1282 m) = some (.ok false) := by
  let cc : ℕ → ℕ := fun i => if i = 0 then 6144 else if i = 1 then 5702 else if i = 2 then 60 else
    if i = 3 then 10 else if i = 4 then 1 else if i = 5 then 1 else 0
  have hcc : ∀ i, cc i < 12289 := by
    intro i; simp only [cc]; repeat' split
    all_goals norm_num
  obtain ⟨m, hm, -⟩ := zero_sig_exists (Or.inr rfl : ValidLog 10) (fun _ => 0)
  refine ⟨fun _ => streamOf cc, m, fun pk msg junk h hpk => ?_⟩
  obtain ⟨c, c1, c2⟩ := hash_streamOf (Or.inr rfl : ValidLog 10) hcc (fun _ => Ff.zero)
  have hval : ∀ i, i < 2 ^ 10 → ((cc i : ℤ) : Zq) = (c i).val := by
    intro i hi
    unfold Ff.val
    rw [c2 i hi]; push_cast; rfl
  have hz : sqNorm (2 ^ 10) (fun _ => 0) = 0 := by unfold sqNorm; simp
  have hsplit : ∀ f : ℕ → ℤ, (∀ i, 6 ≤ i → f i = 0) → ∑ i ∈ Finset.range (2 ^ 10), f i =
      f 0 + f 1 + f 2 + f 3 + f 4 + f 5 := by
    intro f hf
    rw [← Finset.sum_subset (s₁ := Finset.range 6)]
    · simp only [Finset.sum_range_succ, Finset.sum_range_zero]; ring
    · intro x hx; have := Finset.mem_range.mp hx; exact Finset.mem_range.mpr (by omega)
    · intro x _ hx; exact hf x (by simpa using hx)
  have hcz : ∀ i, 6 ≤ i → cc i = 0 := by
    intro i hi
    simp only [cc]
    rw [if_neg (by omega), if_neg (by omega), if_neg (by omega), if_neg (by omega), if_neg (by omega),
      if_neg (by omega)]
  refine ⟨⟨c, fun i => (cc i : ℤ), c1, hm, preimage_zero hval, ?_⟩, ?_⟩
  · rw [hz, add_zero]
    unfold sqNorm
    rw [hsplit _ (fun i hi => by show (cc i : ℤ) ^ 2 = 0; rw [hcz i hi]; norm_num)]
    norm_num [cc, betaSq]
  · have hs1 : ∀ i, i < 2 ^ 10 → (((if i = 0 then -6145 else (cc i : ℤ)) : ℤ) : Zq) = (c i).val := by
      intro i hi
      rw [← hval i hi]
      split
      · rename_i h0
        subst h0
        have : ((-6145 : ℤ) : Zq) = ((6144 : ℤ) : Zq) := by
          rw [ZMod.intCast_eq_intCast_iff]; decide
        exact this
      · rfl
    obtain ⟨e1, -⟩ := C26_exact (n := 10) (lim := 1282) (xof := fun _ => streamOf cc) (fuel := 16) (junk := junk)
      (msg := msg) (Or.inr rfl) (le_refl _) hpk hm c1 (preimage_zero hs1) (by
        intro i hi
        split
        · norm_num
        · rename_i h0
          have hb : cc i ≤ 6143 := by
            simp only [cc]
            rw [if_neg h0]
            repeat' split
            all_goals norm_num
          omega)
    have hN : sqNorm (2 ^ 10) (fun i => if i = 0 then -6145 else (cc i : ℤ)) = betaSq 10 + 12289 := by
      unfold sqNorm
      rw [hsplit _ (fun i hi => by
        show (if i = 0 then -6145 else (cc i : ℤ)) ^ 2 = 0
        rw [if_neg (by omega), hcz i hi]; norm_num)]
      norm_num [cc, betaSq]
    rw [e1, hz, add_zero, hN, if_pos (by norm_num [betaSq])]
    norm_num [betaSq]

/-- C30: wrong headers and undecodable bodies are rejected. -/
theorem C30_rejects (hn : ValidLog n) (hlim : sigBytes n + 2 ≤ lim) (p : Ovf)
    (hbad : (pk 0).toNat ≠ n ∨ (m 0).toNat ≠ 0x30 + n ∨ ∀ s, ¬ BodyOf (sigBytes n) (2 ^ n) m s) :
    verify xof fuel p n junk pk msg (rdArr lim m) = some (.ok false) := by
  refine verify_reject hn hlim (hbad.imp_right ?_)
  rintro (h | h) s2 hs
  · exact h hs.1
  · exact h s2 hs.2

/-- C30: the verdict is a function of the documented key bytes, the message and the documented signature
bytes: other memory and uninitialised locals do not matter. -/
theorem C30_function_of_bytes (hn : ValidLog n) {lim' : ℕ} (hlim : sigBytes n + 2 ≤ lim)
    (hlim' : sigBytes n + 2 ≤ lim') (p : Ovf) (junk' : Junk) (pk' m' : Mem UInt8)
    (hpk : ∀ j, j < pkBytes n → pk j = pk' j) (hm : ∀ j, j < sigBytes n → m j = m' j) :
    verify xof fuel p n junk pk msg (rdArr lim m) = verify xof fuel p n junk' pk' msg (rdArr lim' m') := by
  have hb := sigBytes_ge n
  have hpb : 897 ≤ pkBytes n := by unfold pkBytes; split <;> omega
  have hsig : ∀ s2, SigOf n m s2 → SigOf n m' s2 := fun s2 h =>
    ⟨by rw [← hm 0 (by omega)]; exact h.1, h.2.congr (fun j _ h2 => hm j h2)⟩
  have hsig' : ∀ s2, SigOf n m' s2 → SigOf n m s2 := fun s2 h =>
    ⟨by rw [hm 0 (by omega)]; exact h.1, h.2.congr (fun j _ h2 => (hm j h2).symm)⟩
  by_cases h0 : (pk 0).toNat = n
  · obtain ⟨h, -, hh⟩ := decodePkey_of hn pk (fun _ => Ff.zero) h0
    have hh' : PkeyOf n pk' h := by
      refine ⟨by rw [← hpk 0 (by omega)]; exact hh.1, hh.2.1, ?_⟩
      rw [← hh.2.2]
      refine Finset.sum_congr rfl (fun j hj => ?_)
      rw [hpk (1 + j) (by have := Finset.mem_range.mp hj; omega)]
    by_cases hs : ∃ s2, SigOf n m s2
    · obtain ⟨s2, hs2⟩ := hs
      have hsalt : saltMsg m msg = saltMsg m' msg := by
        unfold saltMsg
        congr 1
        apply List.map_congr_left
        intro i hi
        exact hm (1 + i) (by have := List.mem_range.mp hi; omega)
      rw [verify_eq hn hlim hh hs2, verify_eq hn hlim' hh' (hsig s2 hs2), hsalt]
    · push Not at hs
      rw [verify_reject hn hlim (Or.inr hs), verify_reject hn hlim' (Or.inr (fun s2 h => hs s2 (hsig' s2 h)))]
  · rw [verify_reject hn hlim (Or.inl h0),
      verify_reject hn hlim' (Or.inl (by rw [← hpk 0 (by omega)]; exact h0))]

/-- C11: two public keys whose coefficients agree mod q verify exactly the same signatures. -/
theorem C11_aliases_verify_alike (hn : ValidLog n) (hlim : sigBytes n + 2 ≤ lim) (p : Ovf) (pk' : Mem UInt8)
    {h h' : Mem Ff} (hpk : PkeyOf n pk h) (hpk' : PkeyOf n pk' h')
    (hq : ∀ i, i < 2 ^ n → (h i).v.toNat % 12289 = (h' i).v.toNat % 12289) :
    verify xof fuel p n junk pk msg (rdArr lim m) = verify xof fuel p n junk pk' msg (rdArr lim m) := by
  by_cases hs : ∃ s2, SigOf n m s2
  · obtain ⟨s2, hs2⟩ := hs
    rw [verify_eq hn hlim hpk hs2, verify_eq hn hlim hpk' hs2]
    have hpoly : polyZq (2 ^ n) h = polyZq (2 ^ n) h' := by
      apply toPoly_congr
      intro i hi
      unfold Ff.val
      rw [ZMod.natCast_eq_natCast_iff]
      exact hq i hi
    cases hc : hashToPoint fuel n (xof (saltMsg m msg)) (fun _ => Ff.zero) with
    | none => rw [Option.map_none, Option.map_none]
    | some c =>
      have hcp := (hashToPoint_spec hc).1.canon
      have hS : ∀ i, i < 2 ^ n → tailS1 n h c s2 i = tailS1 n h' c s2 i := by
        obtain ⟨a1, a2⟩ := tailS1_spec hn hpk.2.1 hcp hs2.bound
        obtain ⟨b1, b2⟩ := tailS1_spec hn hpk'.2.1 hcp hs2.bound
        rw [hpoly] at a2
        have := modEq_coeff (Nat.two_pow_pos n) (a2.symm.trans b2)
        intro i hi
        exact (Ff.val_eq_iff _ _ (a1 i hi) (b1 i hi)).mp (this i hi)
      rw [Option.map_some, Option.map_some, verifyTail_unfold, verifyTail_unfold,
        loop_congr (f := fun i (a : Mem Int) => upd a i (centre (tailS1 n h c s2 i)))
          (g := fun i (a : Mem Int) => upd a i (centre (tailS1 n h' c s2 i))) (fun i hi t => by rw [hS i hi])]
  · push Not at hs
    rw [verify_reject hn hlim (Or.inr hs), verify_reject hn hlim (Or.inr hs)]

/-- C11 (violation of unique key encodings): every public key with a coefficient below 4095 has a
different encoding that verifies the same signatures. -/
theorem C11_alias_exists (hn : ValidLog n) {h : Mem Ff} (hpk : PkeyOf n pk h)
    (hsmall : ∃ i, i < 2 ^ n ∧ (h i).v.toNat < 4095) :
    ∃ pk' : Mem UInt8, (∃ j, j < pkBytes n ∧ pk' j ≠ pk j) ∧
      ∀ (xof : Xof) (fuel : ℕ) (p : Ovf) (junk : Junk) (msg : List UInt8) (m : Mem UInt8) (lim : ℕ),
        sigBytes n + 2 ≤ lim →
        verify xof fuel p n junk pk msg (rdArr lim m) = verify xof fuel p n junk pk' msg (rdArr lim m) := by
  obtain ⟨i, hi, hlt⟩ := hsmall
  obtain ⟨h', hh'⟩ : ∃ h' : Mem Ff, h' = upd h i ⟨(h i).v + 12289⟩ := ⟨_, rfl⟩
  have hv : (h' i).v.toNat = (h i).v.toNat + 12289 := by
    rw [hh', upd_same, UInt16.toNat_add, show (12289 : UInt16).toNat = 12289 from rfl]
    omega
  have hne : ∀ j, j ≠ i → h' j = h j := fun j hj => by rw [hh', upd_ne _ _ _ _ hj]
  have hfit : FitsBelow (2 ^ n) h' := by
    intro j hj
    by_cases e : j = i
    · subst e; unfold Ff.Fits14; rw [hv, show (2 : ℕ) ^ 14 = 16384 from rfl]; omega
    · rw [hne j e]; exact hpk.2.1 j hj
  have henc : PkeyOf n (encodePkey n h' (fun _ => 0)) h' := by
    refine ⟨(C09_pkey_roundtrip hn h' h' _ hfit).2.2.2.1, hfit, C59_pkey_layout hn h' _ hfit⟩
  refine ⟨encodePkey n h' (fun _ => 0), ?_, ?_⟩
  · by_contra hc
    push Not at hc
    have : PkeyOf n pk h' := by
      have hpb : 897 ≤ pkBytes n := by unfold pkBytes; split <;> omega
      refine ⟨hpk.1, hfit, ?_⟩
      rw [← henc.2.2]
      refine Finset.sum_congr rfl (fun j hj => ?_)
      rw [hc (1 + j) (by have := Finset.mem_range.mp hj; omega)]
    have h2 := hpk.unique this i hi
    rw [h2] at hv; omega
  · intro xof fuel p junk msg m lim hlim
    apply C11_aliases_verify_alike hn hlim p _ hpk henc
    intro j hj
    by_cases e : j = i
    · subst e; rw [hv]; omega
    · rw [hne j e]

/-- The hypotheses of `C11_alias_exists` are met, e.g. by the encoding of any polynomial with a small
coefficient. -/
example : ∃ pk h, PkeyOf 9 pk h ∧ ∃ i, i < 2 ^ 9 ∧ (h i).v.toNat < 4095 := by
  have hf : FitsBelow (2 ^ 9) (fun i => ⟨UInt16.ofNat i⟩) := by
    intro j hj
    unfold Ff.Fits14
    simp only [UInt16.toNat_ofNat']
    omega
  exact ⟨encodePkey 9 (fun i => ⟨UInt16.ofNat i⟩) (fun _ => 0), _,
    ⟨(C09_pkey_roundtrip (Or.inl rfl) _ (fun _ => Ff.zero) _ hf).2.2.2.1, hf,
      C59_pkey_layout (Or.inl rfl) _ _ hf⟩, 3, by norm_num, by decide⟩

/-- C19 (violation, verification side): an honest signature whose code leaves more than 16 spare bits and
has a coefficient below 128 can be turned into a different signature that gets the same verdict under
every key, for every message. -/
theorem C19_malleable_verify (hn : ValidLog n) (hlim : sigBytes n + 2 ≤ lim) (s : Mem Int)
    (sig out : Mem UInt8) (hs : ∀ i, i < 2 ^ n → |s i| ≤ 1023) (hsmall : ∃ i, i < 2 ^ n ∧ |s i| < 128)
    (hc : compressSigE n s sig = .ok (true, out))
    (hroom : (codes s (2 ^ n)).length + 16 < 8 * (sigBytes n - 41)) :
    ∃ out' : Mem UInt8, (∃ j, j < sigBytes n ∧ out' j ≠ out j) ∧
      ∀ (xof : Xof) (fuel : ℕ) (p : Ovf) (junk : Junk) (pk : Mem UInt8) (msg : List UInt8),
        verify xof fuel p n junk pk msg (rdArr lim out') = verify xof fuel p n junk pk msg (rdArr lim out) := by
  have hb := sigBytes_ge n
  obtain ⟨out', s', a1, ⟨j, _, j2, j3⟩, a3, a4⟩ := C19_malleable (lim := lim) hn s (fun _ => 0) sig out hs hsmall hc
    hroom hlim
  obtain ⟨t, b1, b2⟩ := C17_roundtrip (lim := lim) hn s (fun _ => 0) sig out hs hc hlim
  have body : ∀ (m : Mem UInt8) (u : Mem Int), decompressSig n (rdArr lim m) (fun _ => 0) = .ok (true, u) →
      BodyOf (sigBytes n) (2 ^ n) m u := by
    intro m u hu
    obtain ⟨ok, o, d1, -, d3, -⟩ := C20_accepts_iff m (fun _ => 0) hlim
    rw [hu] at d1
    cases d1
    exact d3 rfl
  refine ⟨out', ⟨j, j2, j3⟩, fun xof fuel p junk pk msg => ?_⟩
  by_cases hpk : (pk 0).toNat = n
  · obtain ⟨h, -, hh⟩ := decodePkey_of hn pk (fun _ => Ff.zero) hpk
    by_cases hhd : (out 0).toNat = 0x30 + n
    · have e1 : SigOf n out t := ⟨hhd, body out t b1⟩
      have e2 : SigOf n out' s' := ⟨by rw [a1 0 (by omega)]; exact hhd, body out' s' a3⟩
      have hsalt : saltMsg out' msg = saltMsg out msg := by
        unfold saltMsg
        congr 1
        apply List.map_congr_left
        intro i hi
        exact a1 (1 + i) (by have := List.mem_range.mp hi; omega)
      rw [verify_eq hn hlim hh e1, verify_eq hn hlim hh e2, hsalt]
      congr 1
      funext c
      exact verifyTail_congr (fun _ _ => rfl) (fun i hi => by rw [a4 i hi, b2 i hi])
    · rw [C30_rejects hn hlim p (Or.inr (Or.inl hhd)),
        C30_rejects hn hlim p (Or.inr (Or.inl (by rw [a1 0 (by omega)]; exact hhd)))]
  · rw [C30_rejects hn hlim p (Or.inl hpk), C30_rejects hn hlim p (Or.inl hpk)]

/-- The hypotheses of `C28_complete` and `C26_sound_partial` can be met: a hash of all ones with the zero
signature is accepted under every key. -/
example : ∃ (xof : Xof) (m : Mem UInt8), ∀ (pk : Mem UInt8) (msg : List UInt8) (junk : Junk) (h : Mem Ff),
    PkeyOf 9 pk h → verify xof 16 .strict 9 junk pk msg (rdArr 668 m) = some (.ok true) := by
  obtain ⟨m, hm, -⟩ := zero_sig_exists (Or.inl rfl : ValidLog 9) (fun _ => 0)
  refine ⟨fun _ => streamOf (fun _ => 1), m, fun pk msg junk h hpk => ?_⟩
  obtain ⟨c, c1, c2⟩ := hash_streamOf (Or.inl rfl : ValidLog 9) (c := fun _ => 1) (by intro; norm_num)
    (fun _ => Ff.zero)
  refine C28_complete (n := 9) (xof := fun _ => streamOf (fun _ => 1)) (s1 := fun _ => 1) (Or.inl rfl) (le_refl _)
    .strict hpk hm c1 (preimage_zero ?_) ?_ (by norm_num)
  · intro i hi
    unfold Ff.val
    rw [c2 i hi]; norm_num
  · unfold sqNorm
    simp [betaSq]

end Falcon
