import Verif.Proofs.Syndrome
import Verif.Props.SignGauss

/-!
# C91-C92: preimages without a secret key

C91: the pairs of signing can be drawn before the hashed point. C92: two signatures of one salted message give a short vector of the lattice of the key.
-/

namespace Falcon

/-- The point s1 + s2 h of a pair drawn from the spherical Gaussian over all pairs is uniform on Z_q^N up to a relative error of 2^-33. -/
theorem C91_uniform {n : ℕ} (hn : ValidLog n) {h : Mem Ff} {f g F G : Mem Int} (tr : Trapdoor n h f g F G) (v : Point n) :
    |12289 ^ 2 ^ n * sphericalPr n (sigmaSig n) (InCoset n h (pointOf v)) - 1| ≤ 1 / 2 ^ 33 :=
  coset_share hn tr v

/-- Drawing a uniform point and running one round of signing on it, or drawing a pair from the spherical Gaussian on all pairs, which needs no secret key, and
computing its point: every event of point and pair has the same probability up to 2^-31 + 2N 2^-m. -/
theorem C91_round {n : ℕ} (hn : ValidLog n) {h : Mem Ff} {f g F G : Mem Int} (tr : Trapdoor n h f g F G) (B0 T0 z0 z1 : Mem ℂ) (m : ℕ)
    (E : Point n → PairZ n → Prop) :
    let B := computeMatrixB exactA n f g F G B0
    let p := fun v : Point n =>
      let t := signTarget exactA n B (pointOf v)
      freq (18 * m * 2 ^ (n + 1)) (fun st => ∃ r, ffSampling exactA (codeLeaf false n m st) n 0 t.1 t.2
          (computeFalconTree exactA n B T0) z0 z1 0 = some (.ok r) ∧
          ∃ s : PairZ n, IsDftOf n (signVec exactA n B t.1 t.2 r.1 r.2.1).1 (tapeOf s.1) ∧
            IsDftOf n (signVec exactA n B t.1 t.2 r.1 r.2.1).2 (tapeOf s.2) ∧ E v s)
    |(∑ v : Point n, p v) / 12289 ^ 2 ^ n - sphericalPr n (sigmaSig n) (fun s => ∃ v, InCoset n h (pointOf v) s ∧ E v s)| ≤
      1 / 2 ^ 31 + 2 ^ (n + 1) * (1 / 2 ^ m) := by
  intro B p
  have h1 := pair_joint hn tr E
  have h2 : |(∑ v : Point n, p v) / 12289 ^ 2 ^ n - (∑ v : Point n, cosetPr n (sigmaSig n) h (pointOf v) (E v)) / 12289 ^ 2 ^ n| ≤
      1 / 2 ^ 32 + 2 ^ (n + 1) * (1 / 2 ^ m) := by
    rw [← sub_div, ← Finset.sum_sub_distrib, abs_div, abs_of_pos (show (0 : ℝ) < 12289 ^ 2 ^ n from pow_pos (by norm_num) _),
      div_le_iff₀ (pow_pos (by norm_num) _)]
    refine (Finset.abs_sum_le_sum_abs _ _).trans ?_
    have hb : ∀ v ∈ (Finset.univ : Finset (Point n)), |p v - cosetPr n (sigmaSig n) h (pointOf v) (E v)| ≤ 1 / 2 ^ 32 + 2 ^ (n + 1) * (1 / 2 ^ m) := by
      intro v _
      refine (code_coset_rel hn tr B0 T0 z0 z1 (pointOf_canon v) m (E v)).2.trans (add_le_add ?_ le_rfl)
      exact mul_le_of_le_one_right (by norm_num) (Real.sqrt_le_one.mpr (cosetPr_mem hn tr (pointOf v) (E v)).2.1)
    refine (Finset.sum_le_card_nsmul _ _ _ hb).trans (le_of_eq ?_)
    rw [nsmul_eq_mul, Finset.card_univ, card_point, mul_comm]
  have := abs_sub_le ((∑ v : Point n, p v) / 12289 ^ 2 ^ n) ((∑ v : Point n, cosetPr n (sigmaSig n) h (pointOf v) (E v)) / 12289 ^ 2 ^ n)
    (sphericalPr n (sigmaSig n) (fun s => ∃ v, InCoset n h (pointOf v) s ∧ E v s))
  rw [abs_sub_comm] at h1
  have e : (1 / 2 ^ 32 + 1 / 2 ^ 33 : ℝ) ≤ 1 / 2 ^ 31 := by norm_num
  linarith

/-- Non-vacuity: the key of `flat_trapdoor`; the event that the first coordinates of point and s2 agree. -/
example (v : Point 9) : |12289 ^ 2 ^ 9 * sphericalPr 9 (sigmaSig 9) (InCoset 9 (computePublicKey 9 flatf flatg (fun _ => Ff.zero)) (pointOf v)) - 1| ≤ 1 / 2 ^ 33 :=
  C91_uniform (.inl rfl) flat_trapdoor v

/-! ## C92: collisions -/

variable {xof : Xof} {fuel n lim : ℕ} {junk junk' : Junk} {pk m m' : Mem UInt8} {msg msg' : List UInt8} {h : Mem Ff}

theorem accepted_pre (hn : ValidLog n) (hlim : sigBytes n + 2 ≤ lim) (hpk : PkeyOf n pk h)
    (hv : verify xof fuel .strict n junk pk msg (rdArr lim m) = some (.ok true)) {s2 : Mem Int} (hs2 : SigOf n m s2) :
    ∃ c s1, hashToPoint fuel n (xof (saltMsg m msg)) (fun _ => Ff.zero) = some c ∧ Preimage (2 ^ n) h c s1 s2 ∧
      (∀ i, i < 2 ^ n → -6145 ≤ s1 i ∧ s1 i ≤ 6143) ∧ sqNorm (2 ^ n) s1 + sqNorm (2 ^ n) s2 ≤ betaSq n := by
  have hc : ∃ c, hashToPoint fuel n (xof (saltMsg m msg)) (fun _ => Ff.zero) = some c := by
    have e := hv
    rw [verify_eq hn hlim hpk hs2] at e
    obtain ⟨c, hc, -⟩ := Option.map_eq_some_iff.mp e
    exact ⟨c, hc⟩
  obtain ⟨c, hc⟩ := hc
  obtain ⟨s1, p1, p2⟩ := C26_exact_covers hn hpk hs2 (hashToPoint_spec hc).1.canon
  refine ⟨c, s1, hc, p1, p2, ?_⟩
  have e := (C26_exact (junk := junk) hn hlim hpk hs2 hc p1 p2).1
  rw [hv] at e
  by_cases hl : sqNorm (2 ^ n) s1 + sqNorm (2 ^ n) s2 < 2 ^ 31
  · rw [if_pos hl] at e
    simpa using (Except.ok.inj (Option.some.inj e)).symm
  · rw [if_neg hl] at e
    simp at e

theorem sqNorm_sub (N : ℕ) (a b : ℕ → ℤ) : sqNorm N (fun i => a i - b i) ≤ 2 * sqNorm N a + 2 * sqNorm N b := by
  unfold sqNorm
  rw [Finset.mul_sum, Finset.mul_sum, ← Finset.sum_add_distrib]
  refine Finset.sum_le_sum fun i _ => ?_
  nlinarith [sq_nonneg (a i + b i)]

/-- Two signatures with the same salt for the same message (more generally, for the same hashed bytes) that verification accepts without overflow: the
difference of the pairs is a vector (d1, d2) of the lattice d1 + d2 h = 0 of squared length at most 4 beta^2; it is zero only if both signatures encode the
same polynomial s2. -/
theorem C92_collision (hn : ValidLog n) (hlim : sigBytes n + 2 ≤ lim) (hpk : PkeyOf n pk h)
    (hv : verify xof fuel .strict n junk pk msg (rdArr lim m) = some (.ok true))
    (hv' : verify xof fuel .strict n junk' pk msg' (rdArr lim m') = some (.ok true)) (hsalt : saltMsg m msg = saltMsg m' msg')
    {s2 s2' : Mem Int} (hs2 : SigOf n m s2) (hs2' : SigOf n m' s2') :
    ∃ d1 : ℕ → ℤ, ModEqXN (2 ^ n) (polyInt (2 ^ n) d1 + polyInt (2 ^ n) (fun i => s2 i - s2' i) * polyZq (2 ^ n) h) 0 ∧
      sqNorm (2 ^ n) d1 + sqNorm (2 ^ n) (fun i => s2 i - s2' i) ≤ 4 * betaSq n ∧
      ((∀ i, i < 2 ^ n → s2 i = s2' i) → ∀ i, i < 2 ^ n → d1 i = 0) := by
  obtain ⟨c, s1, hc, p1, p2, p3⟩ := accepted_pre hn hlim hpk hv hs2
  obtain ⟨c', s1', hc', p1', p2', p3'⟩ := accepted_pre hn hlim hpk hv' hs2'
  rw [← hsalt, hc] at hc'
  obtain rfl := Option.some.inj hc'
  have esub : ∀ a b : ℕ → ℤ, polyInt (2 ^ n) (fun i => a i - b i) = polyInt (2 ^ n) a - polyInt (2 ^ n) b := by
    intro a b
    unfold polyInt
    rw [← toPoly_sub]
    exact toPoly_congr fun i _ => by push_cast; rfl
  refine ⟨fun i => s1 i - s1' i, ?_, ?_, fun he i hi => ?_⟩
  · unfold Preimage ModEqXN at p1 p1'
    unfold ModEqXN
    rw [esub, esub]
    have := dvd_sub p1 p1'
    have e : polyInt (2 ^ n) s1 + polyInt (2 ^ n) s2 * polyZq (2 ^ n) h - polyZq (2 ^ n) c -
        (polyInt (2 ^ n) s1' + polyInt (2 ^ n) s2' * polyZq (2 ^ n) h - polyZq (2 ^ n) c) =
        polyInt (2 ^ n) s1 - polyInt (2 ^ n) s1' + (polyInt (2 ^ n) s2 - polyInt (2 ^ n) s2') * polyZq (2 ^ n) h - 0 := by ring
    rwa [e] at this
  · have h1 := sqNorm_sub (2 ^ n) s1 s1'
    have h2 := sqNorm_sub (2 ^ n) s2 s2'
    linarith
  · have hp' : Preimage (2 ^ n) h c s1' s2 := by
      unfold Preimage at p1' ⊢
      have : polyInt (2 ^ n) s2 = polyInt (2 ^ n) s2' := toPoly_congr fun i hi => by rw [he i hi]
      rw [this]
      exact p1'
    have hq : q = 12289 := rfl
    have h1 := preimage_cong (Nat.two_pow_pos n) p1 hp' i hi
    rw [ZMod.intCast_eq_intCast_iff] at h1
    have h2 : s1 i % 12289 = s1' i % 12289 := h1
    have h3 := p2 i hi
    have h4 := p2' i hi
    show s1 i - s1' i = 0
    omega

theorem single_sig_exists (hn : ValidLog n) (sig : Mem UInt8) (v : ℤ) (hv : |v| ≤ 1023) :
    ∃ m, SigOf n m (fun i => if i = 0 then v else 0) ∧ ∀ j, 1 ≤ j → j < 41 → m j = sig j := by
  have hb := sigBytes_ge n
  have hs : ∀ i, i < 2 ^ n → |(fun i : ℕ => if i = 0 then v else 0) i| ≤ 1023 := by
    intro i _
    simp only
    split
    · exact hv
    · norm_num
  obtain ⟨⟨out, ho⟩, -⟩ := C18_witness hn (upd sig 0 (UInt8.ofNat (0x30 + n))) v (by omega)
  have hfr : ∀ j, j < 41 → out j = upd sig 0 (UInt8.ofNat (0x30 + n)) j := by
    have hcap : (codes (fun i => if i = 0 then v else 0) (2 ^ n)).length ≤ 14 * 2 ^ n := by
      have h8 : v.natAbs / 128 ≤ 7 := by rw [Int.abs_eq_natAbs] at hv; omega
      have h512 : 512 ≤ 2 ^ n := by rcases hn with rfl | rfl <;> norm_num
      rw [codes_length, Finset.sum_add_distrib, Finset.sum_const, Finset.card_range, smul_eq_mul, Finset.sum_eq_single 0]
      · simp only [if_true]
        omega
      · intro i _ hi
        simp [hi]
      · intro h
        simp at h
    obtain ⟨ok, out', a1, -, -, -, a5⟩ := C15_compress_spec hn (fun i => if i = 0 then v else 0)
      (upd sig 0 (UInt8.ofNat (0x30 + n))) (fun i hi e => by
        have := hs i hi
        simp only at this e
        rw [e] at this
        norm_num at this) hcap
    rw [ho] at a1
    cases a1
    exact fun j hj => a5 j (Or.inl hj)
  obtain ⟨s', d1, d2⟩ := C17_roundtrip (lim := sigBytes n + 2) hn _ (fun _ => 0) _ out hs ho (le_refl _)
  obtain ⟨ok, o, b1, b2, b3, -⟩ := C20_accepts_iff out (fun _ => 0) (le_refl (sigBytes n + 2))
  rw [d1] at b1
  cases b1
  refine ⟨out, ⟨?_, ?_⟩, ?_⟩
  · rw [hfr 0 (by norm_num), upd_same]
    rcases hn with rfl | rfl <;> rfl
  · obtain ⟨cs, pos, p1, p2, p3⟩ := b3 rfl
    refine ⟨cs, pos, p1, fun i hi => ?_, p3⟩
    have := p2 i hi
    rw [d2 i hi] at this
    exact this
  · intro j h1 h2
    rw [hfr j h2, upd_ne _ _ _ _ (by omega)]

/-- Non-vacuity: two accepted signatures with the same salt for the same message that encode different polynomials (the public key h = 0). -/
example : ∃ (xof : Xof) (pk m m' : Mem UInt8) (h : Mem Ff) (s2 s2' : Mem Int), PkeyOf 9 pk h ∧ saltMsg m [7] = saltMsg m' [7] ∧ SigOf 9 m s2 ∧ SigOf 9 m' s2' ∧
    s2 0 ≠ s2' 0 ∧ ∀ junk, verify xof 16 .strict 9 junk pk [7] (rdArr 668 m) = some (.ok true) ∧
      verify xof 16 .strict 9 junk pk [7] (rdArr 668 m') = some (.ok true) := by
  obtain ⟨m, hm, f1⟩ := single_sig_exists (n := 9) (.inl rfl) (fun _ => 0) 1 (by norm_num)
  obtain ⟨m', hm', f2⟩ := single_sig_exists (n := 9) (.inl rfl) (fun _ => 0) 5 (by norm_num)
  obtain ⟨c, c1, c2⟩ := hash_streamOf (Or.inl rfl : ValidLog 9) (c := fun _ => 0) (by intro; norm_num) (fun _ => Ff.zero)
  have hpk : PkeyOf 9 (fun i => if i = 0 then 9 else 0) (fun _ => ⟨0⟩) := by
    refine ⟨rfl, fun j _ => by show (0 : ℕ) < _; norm_num, ?_⟩
    rw [Finset.sum_eq_zero, Finset.sum_eq_zero]
    · intro i _
      show (0 : UInt16).toNat * _ = 0
      simp
    · intro i _
      have : ((if 1 + i = 0 then 9 else 0 : UInt8)).toNat = 0 := by rw [if_neg (by omega)]; rfl
      beta_reduce
      rw [this, zero_mul]
  have hp : ∀ s2 : Mem Int, Preimage (2 ^ 9) (fun _ => ⟨0⟩) c (fun _ => 0) s2 := by
    intro s2
    have e1 : polyInt (2 ^ 9) (fun _ => 0) = 0 := by unfold polyInt toPoly; simp
    have e2 : polyZq (2 ^ 9) c = 0 := by
      have : polyZq (2 ^ 9) c = toPoly (2 ^ 9) (fun _ => (0 : Zq)) := toPoly_congr fun i hi => by
        unfold Ff.val
        rw [c2 i hi]
        simp
      rw [this]
      unfold toPoly
      simp
    have e3 : polyZq (2 ^ 9) (fun _ => (⟨0⟩ : Ff)) = 0 := by
      unfold polyZq toPoly Ff.val
      simp
    unfold Preimage ModEqXN
    rw [e1, e2, e3]
    simp
  have hz : ∀ v : ℤ, sqNorm (2 ^ 9) (fun i => if i = 0 then v else 0) = v ^ 2 := by
    intro v
    unfold sqNorm
    rw [Finset.sum_eq_single 0]
    · simp
    · intro i _ hi
      simp [hi]
    · simp
  have hz0 : sqNorm (2 ^ 9) (fun _ => 0) = 0 := by unfold sqNorm; simp
  refine ⟨fun _ => streamOf (fun _ => 0), fun i => if i = 0 then 9 else 0, m, m', fun _ => ⟨0⟩, _, _, hpk, ?_, hm, hm', by norm_num, fun junk => ⟨?_, ?_⟩⟩
  · have e : (List.range 40).map (fun i => m (1 + i)) = (List.range 40).map (fun i => m' (1 + i)) := by
      refine List.map_congr_left fun i hi => ?_
      have := List.mem_range.mp hi
      rw [f1 _ (by omega) (by omega), f2 _ (by omega) (by omega)]
    unfold saltMsg
    rw [e]
  · refine C28_complete (lim := 668) (.inl rfl) (show 666 + 2 ≤ 668 by norm_num) .strict hpk hm c1 (hp _) ?_ (fun e => absurd e (by norm_num))
    rw [hz, hz0]
    show (0 : ℤ) + 1 ^ 2 ≤ 34034726
    norm_num
  · refine C28_complete (lim := 668) (.inl rfl) (show 666 + 2 ≤ 668 by norm_num) .strict hpk hm' c1 (hp _) ?_ (fun e => absurd e (by norm_num))
    rw [hz, hz0]
    show (0 : ℤ) + 5 ^ 2 ≤ 34034726
    norm_num

end Falcon
