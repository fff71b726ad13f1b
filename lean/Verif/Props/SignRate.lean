import Verif.Proofs.HashMean

/-!
# C93, C94: how often signing succeeds, and how often its signatures are refused

Signing one message with uniform random bytes and a random oracle for the XOF, in exact arithmetic.
-/

namespace Falcon

/-! ### The rare value 6144 -/

theorem gauss_6144 {n : ℕ} (hn : ValidLog n) : gaussPr 0 (sigmaSig n) {6144} ≤ 1 / 2 ^ 60 := by
  have ht := total_ge hn
  have h1 : (1 : ℝ) ≤ ∑' z : ℤ, gaussW 0 (sigmaSig n) z := by
    refine le_trans ?_ ht
    split <;> norm_num
  have h2 : gaussW 0 (sigmaSig n) 6144 ≤ 1 / 2 ^ 60 := by
    unfold gaussW
    have e : (60 : ℝ) ≤ ((6144 : ℤ) - 0 : ℝ) ^ 2 / (2 * sigmaSig n ^ 2) := by
      unfold sigmaSig
      rcases hn with rfl | rfl <;> norm_num
    have e2 : (2 : ℝ) ^ 60 ≤ Real.exp 60 := by
      have : (2 : ℝ) ≤ Real.exp 1 := by linarith [Real.add_one_le_exp (1 : ℝ)]
      calc (2 : ℝ) ^ 60 ≤ Real.exp 1 ^ 60 := pow_le_pow_left₀ (by norm_num) this 60
        _ = Real.exp 60 := by rw [← Real.exp_nat_mul]; norm_num
    refine (Real.exp_le_exp.mpr (neg_le_neg e)).trans ?_
    rw [Real.exp_neg, ← one_div]
    exact one_div_le_one_div_of_le (by positivity) e2
  rw [gaussPr_of (A := {6144}) (f := fun z => if z = 6144 then gaussW 0 (sigmaSig n) z else 0) (fun z hz => if_pos hz) (fun z hz => if_neg hz), tsum_ite_eq]
  exact (div_le_self (Real.exp_pos _).le h1).trans h2

/-- Some coefficient of s1 is 6144. -/
theorem spher_6144 {n : ℕ} (hn : ValidLog n) : sphericalPr n (sigmaSig n) (fun s => ∃ i, s.1 i = 6144) ≤ 1 / 2 ^ 50 := by
  have hs := sigmaSig_pos n
  refine (spher_exists hs fun i s => s.1 i = 6144).trans ?_
  have h1 : ∀ i ∈ (Finset.univ : Finset (Fin (2 ^ n))), sphericalPr n (sigmaSig n) (fun s => s.1 i = 6144) ≤ 1 / 2 ^ 60 := by
    intro i _
    rw [spher_eq hs (fun j => if j = i then {6144} else Set.univ) (fun _ => Set.univ)]
    · rw [Finset.prod_congr (s₁ := Finset.univ) (f := fun _ : Fin (2 ^ n) => gaussPr 0 (sigmaSig n) Set.univ) rfl fun _ _ => gaussPr_univ0 hs, Finset.prod_const_one, mul_one,
        Finset.prod_eq_single i]
      · rw [if_pos rfl]
        exact gauss_6144 hn
      · intro j _ hj
        rw [if_neg hj, gaussPr_univ0 hs]
      · intro h
        exact absurd (Finset.mem_univ i) h
    · intro s
      constructor
      · intro h
        refine ⟨fun j => ?_, fun _ => Set.mem_univ _⟩
        split
        · rename_i e
          rw [e]
          exact h
        · exact Set.mem_univ _
      · intro h
        have := h.1 i
        rwa [if_pos rfl] at this
  refine (Finset.sum_le_card_nsmul _ _ _ h1).trans ?_
  rw [Finset.card_univ, Fintype.card_fin, nsmul_eq_mul]
  rcases hn with rfl | rfl <;> norm_num

/-! ### C93 -/

/-- C93: signing with R ≥ 1 rounds returns a signature with probability at least 1 - 2^-14 - 2^-17 (N = 512) or 1 - 2^-28 - 2^-6 (N = 1024), minus the
errors. The first term is for the norm, the second for the compressed length. -/
theorem C93_success {n : ℕ} (hn : ValidLog n) {h : Mem Ff} {f g F G : Mem Int} (tr : Trapdoor n h f g F G) (B0 T0 : Mem ℂ) (msg : List UInt8)
    (sig : Mem UInt8) (m : ℕ) {R : ℕ} (hR : 1 ≤ R) :
    1 - 1 / 2 ^ (14 * (n - 8)) - longPr n - 1 / 2 ^ 31 - R * roundErr n m ≤ oracleSignPr n m R f g F G B0 T0 msg sig (fun _ _ => True) := by
  have h1 := oracle_lower hn tr B0 T0 msg sig m hR (Ev := fun _ _ => True) (fun _ _ _ _ => Iff.rfl) (D := fun _ => True) fun x salt s ha _ => by
    obtain ⟨a, h⟩ := signature_exists hn ha salt
    exact ⟨a, h, trivial⟩
  have hs := sigmaSig_pos n
  -- the norm
  have h2 : sphericalPr n (sigmaSig n) (fun s => betaSq n < pairSq s) ≤ 1 / 2 ^ (14 * (n - 8)) + 1 / 2 ^ 33 := by
    have h3 := (abs_le.mp (point_mean hn tr fun s => betaSq n < pairSq s)).2
    have h4 : (∑ v : Point n, cosetPr n (sigmaSig n) h (pointOf v) (fun s => betaSq n < pairSq s)) / 12289 ^ 2 ^ n ≤ 1 / 2 ^ (14 * (n - 8)) := by
      rw [div_le_iff₀ (pow_pos (by norm_num) _), mul_comm, ← card_point, ← nsmul_eq_mul, ← Finset.card_univ]
      exact Finset.sum_le_card_nsmul _ _ _ fun v _ => C82_tail hn tr _
    linarith
  have h5 := long_tail hn
  have h6 : (1 : ℝ) ≤ sphericalPr n (sigmaSig n) (fun s => Accept n s ∧ True) + (sphericalPr n (sigmaSig n) (fun s => betaSq n < pairSq s) +
      sphericalPr n (sigmaSig n) (fun s => ¬ ∑ i, (9 + (s.2 i).natAbs / 128) < 8 * (sigBytes n - 41))) := by
    have e : sphericalPr n (sigmaSig n) (fun _ => True) = 1 := by
      rw [spher_eq hs (fun _ => Set.univ) (fun _ => Set.univ) fun s => ⟨fun _ => ⟨fun _ => Set.mem_univ _, fun _ => Set.mem_univ _⟩, fun _ => trivial⟩]
      rw [Finset.prod_congr rfl fun _ _ => gaussPr_univ0 hs, Finset.prod_const_one, one_mul]
    rw [← e]
    refine (spher_mono hs (E' := fun s => (Accept n s ∧ True) ∨ (betaSq n < pairSq s ∨ ¬ ∑ i, (9 + (s.2 i).natAbs / 128) < 8 * (sigBytes n - 41)))
      fun s _ => ?_).trans ((spher_or hs _ _).trans (add_le_add le_rfl (spher_or hs _ _)))
    by_cases a1 : pairSq s ≤ betaSq n
    · by_cases a2 : ∑ i, (9 + (s.2 i).natAbs / 128) < 8 * (sigBytes n - 41)
      · exact .inl ⟨⟨a1, a2⟩, trivial⟩
      · exact .inr (.inr a2)
    · exact .inr (.inl (not_le.mp a1))
  have h7 : (1 / 2 ^ 33 : ℝ) + 1 / 2 ^ 32 ≤ 1 / 2 ^ 31 := by norm_num
  linarith

/-! ### C94 -/

/-- Decoding does not give back the vector that the bytes encode. -/
def Lossy (n : ℕ) (a : Mem UInt8) : Prop := ∃ (salt : ℕ → UInt8) (s2 : Mem Int), SignatureOf n a salt s2 ∧
  ∀ lim poly s', sigBytes n + 2 ≤ lim → decompressSig n (rdArr lim a) poly = .ok (true, s') → ∃ i, i < 2 ^ n ∧ s' i ≠ s2 i

/-- Verification rejects the signature, whatever the key. -/
def Refused (n : ℕ) (msg : List UInt8) (xof : Xof) (a : Mem UInt8) : Prop := ∀ (pk : Mem UInt8) (p : Ovf) (junk : Junk) (lim fuel : ℕ), sigBytes n + 2 ≤ lim →
  verify xof fuel p n junk pk msg (rdArr lim a) = some (.ok false)

/-- Verification accepts the signature under the key h. -/
def Verifies (n : ℕ) (h : Mem Ff) (msg : List UInt8) (xof : Xof) (a : Mem UInt8) : Prop := ∀ (pk : Mem UInt8) (p : Ovf) (junk : Junk) (lim : ℕ),
  PkeyOf n pk h → sigBytes n + 2 ≤ lim → verify xof (hashBlocks n) p n junk pk msg (rdArr lim a) = some (.ok true)

/-- C94: the bytes of a signature encode one vector only. -/
theorem C94_one_vector {n : ℕ} {a : Mem UInt8} {salt salt' : ℕ → UInt8} {s s' : Mem Int} (h : SignatureOf n a salt s) (h' : SignatureOf n a salt' s') :
    ∀ i, i < 2 ^ n → s i = s' i := signature_inj h h'

theorem lossy_iff {n : ℕ} {a : Mem UInt8} {salt : ℕ → UInt8} {s2 : Mem Int} (h : SignatureOf n a salt s2) :
    Lossy n a ↔ ∃ i, i < 2 ^ n ∧ 1024 ≤ |s2 i| := by
  constructor
  · rintro ⟨salt', s, h', hl⟩
    by_contra hx
    push Not at hx
    obtain ⟨b1, b2, b3, b4⟩ := h
    have hi := signature_inj h' ⟨b1, b2, b3, b4⟩
    rw [codes_eq_flat] at b3 b4
    have hbody := bodyEnd_of_flat (s := s2) (fun i hi => chunk_code (by have := hx i hi; rw [Int.abs_eq_natAbs] at this; omega)) b3 b4
    obtain ⟨ok, out, a1, a2, -, -, a5, -⟩ := C20_accepts_iff (n := n) (lim := sigBytes n + 2) a (fun _ => 0) le_rfl
    have hok : ok = true := a2.mpr ⟨s2, hbody.body⟩
    subst hok
    obtain ⟨i, i1, i2⟩ := hl _ _ _ le_rfl a1
    refine i2 ?_
    rw [hi i i1]
    exact a5 s2 hbody.body i i1
  · rintro ⟨i, hi, hb⟩
    refine ⟨salt, s2, h, fun lim poly s' hlim hd => ⟨i, hi, fun e => ?_⟩⟩
    obtain ⟨ok, out, a1, -, a3, -⟩ := C20_accepts_iff (n := n) (lim := lim) a poly hlim
    rw [hd] at a1
    injection a1 with a1
    injection a1 with a1 a4
    obtain ⟨cs, pos, -, hch, -, -⟩ := a3 a1.symm
    have := (hch i hi).1.bound
    rw [← a4, e] at this
    rw [Int.abs_eq_natAbs] at hb
    omega

theorem lossy_congr {n : ℕ} {a b : Mem UInt8} (hab : ∀ j, j < sigBytes n → a j = b j) (h : Lossy n a) : Lossy n b := by
  obtain ⟨salt, s2, h1, h2⟩ := h
  exact (lossy_iff (signature_congr hab h1)).mpr ((lossy_iff h1).mp ⟨salt, s2, h1, h2⟩)

theorem tape_val {n : ℕ} (v : Fin (2 ^ n) → ℤ) (i : Fin (2 ^ n)) : tapeOf v i.1 = v i := by
  unfold tapeOf
  rw [dif_pos i.2]

/-- C94: the probability that signing returns a signature whose decoding is not the vector that was signed is at least 2^-22 (N = 512) or 2^-20 (N = 1024),
and at most twice that for each round, up to the errors. -/
theorem C94_lossy {n : ℕ} (hn : ValidLog n) {h : Mem Ff} {f g F G : Mem Int} (tr : Trapdoor n h f g F G) (B0 T0 : Mem ℂ) (msg : List UInt8)
    (sig : Mem UInt8) (m : ℕ) {R : ℕ} (hR : 1 ≤ R) :
    1 / 2 ^ (40 - 2 * n) - 1 / 2 ^ 32 - R * roundErr n m ≤ oracleSignPr n m R f g F G B0 T0 msg sig (fun _ a => Lossy n a) ∧
    oracleSignPr n m R f g F G B0 T0 msg sig (fun _ a => Lossy n a) ≤ R * (1 / 2 ^ (39 - 2 * n) + 1 / 2 ^ 33 + roundErr n m) := by
  have hs := sigmaSig_pos n
  have hEv : ∀ (_ : Xof) (a b : Mem UInt8), (∀ j, j < sigBytes n → a j = b j) → (Lossy n a ↔ Lossy n b) := fun _ a b hab =>
    ⟨lossy_congr hab, lossy_congr fun j hj => (hab j hj).symm⟩
  constructor
  · have h1 := oracle_lower hn tr B0 T0 msg sig m hR (Ev := fun _ a => Lossy n a) hEv (D := fun s => ∃ i, 1024 ≤ |s.2 i|) fun x salt s ha ⟨i, hi⟩ => by
      obtain ⟨a, h⟩ := signature_exists hn ha salt
      exact ⟨a, h, (lossy_iff h).mpr ⟨i.1, i.2, by rw [tape_val]; exact hi⟩⟩
    have h2 := some_big hn (A := {z | 1024 ≤ |z| ∧ |z| ≤ 1151}) (fun z hz => hz) (p := 1 / 2 ^ (40 - 2 * n)) (band_ge hn)
    have h3 := spher_mono (n := n) hs (E := fun s => ∃ i, OneBig n {z | 1024 ≤ |z| ∧ |z| ≤ 1151} i s) (E' := fun s => Accept n s ∧ ∃ i, 1024 ≤ |s.2 i|)
      fun s ⟨i, o1, o2, _⟩ => ⟨o2, i, o1.1⟩
    linarith
  · refine (oracle_upper hn tr B0 T0 msg sig m R (Ev := fun _ a => Lossy n a) hEv (D := fun s => ∃ i, 1024 ≤ |s.2 i|) fun st c salt s a _ _ _ h1 h2 => ?_).trans ?_
    · obtain ⟨i, i1, i2⟩ := (lossy_iff h1).mp h2
      rw [show tapeOf s.2 i = s.2 ⟨i, i1⟩ from tape_val s.2 ⟨i, i1⟩] at i2
      exact ⟨_, i2⟩
    · have := big_tail hn
      exact mul_le_mul_of_nonneg_left (by linarith) (Nat.cast_nonneg R)

/-- C94: with probability at least 2^-28 (N = 512) or 2^-26 (N = 1024), minus the errors, signing returns a signature that verification rejects. -/
theorem C94_refused {n : ℕ} (hn : ValidLog n) {h : Mem Ff} {f g F G : Mem Int} (tr : Trapdoor n h f g F G) (B0 T0 : Mem ℂ) (msg : List UInt8)
    (sig : Mem UInt8) (m : ℕ) {R : ℕ} (hR : 1 ≤ R) :
    1 / 2 ^ (46 - 2 * n) - 1 / 2 ^ 32 - R * roundErr n m ≤ oracleSignPr n m R f g F G B0 T0 msg sig (Refused n msg) := by
  have hs := sigmaSig_pos n
  have h1 := oracle_lower hn tr B0 T0 msg sig m hR (Ev := Refused n msg) (fun x a b hab => by
      have key : ∀ pk p junk lim fuel, sigBytes n + 2 ≤ lim → verify x fuel p n junk pk msg (rdArr lim a) = verify x fuel p n junk pk msg (rdArr lim b) :=
        fun pk p junk lim fuel hlim => C30_function_of_bytes hn hlim hlim p junk pk b (fun _ _ => rfl) hab
      exact ⟨fun h pk p junk lim fuel hl => (key pk p junk lim fuel hl).symm.trans (h pk p junk lim fuel hl),
        fun h pk p junk lim fuel hl => (key pk p junk lim fuel hl).trans (h pk p junk lim fuel hl)⟩)
    (D := fun s => ∃ i, OneBig n {-1024} i s) fun x salt s ha ⟨i, o1, _, o3⟩ => by
      obtain ⟨a, h⟩ := signature_exists hn ha salt
      refine ⟨a, h, fun pk p junk lim fuel hlim => verify_reject hn hlim (.inr (refused_1024 h i.2 ?_ fun j hj => ?_))⟩
      · rw [tape_val]
        exact o1
      · have hj' : j < 2 ^ n := hj.trans i.2
        have := o3 ⟨j, hj'⟩ (fun e => by rw [← e] at hj; exact absurd hj (lt_irrefl _))
        rw [Int.abs_eq_natAbs] at this
        rw [show tapeOf s.2 j = s.2 ⟨j, hj'⟩ from tape_val s.2 ⟨j, hj'⟩]
        omega
  have h2 := some_big hn (A := {-1024}) (fun z hz => by rw [Set.mem_singleton_iff.mp hz]; norm_num) (p := 1 / 2 ^ (46 - 2 * n)) (point_ge hn)
  have h3 := spher_mono (n := n) hs (E := fun s => ∃ i, OneBig n {-1024} i s) (E' := fun s => Accept n s ∧ ∃ i, OneBig n {-1024} i s)
    fun s ⟨i, o⟩ => ⟨o.2.1, i, o⟩
  linarith

/-- C94: with probability at most 2^-21 (N = 512) or 2^-19 (N = 1024) for each round, plus the errors, signing returns a signature that verification under
the public key does not accept. -/
theorem C94_verifies {n : ℕ} (hn : ValidLog n) {h : Mem Ff} {f g F G : Mem Int} (tr : Trapdoor n h f g F G) (B0 T0 : Mem ℂ) (msg : List UInt8)
    (sig : Mem UInt8) (m R : ℕ) :
    oracleSignPr n m R f g F G B0 T0 msg sig (fun xof a => ¬ Verifies n h msg xof a) ≤ R * (1 / 2 ^ (39 - 2 * n) + 1 / 2 ^ 32 + roundErr n m) := by
  have hs := sigmaSig_pos n
  refine (oracle_upper hn tr B0 T0 msg sig m R (Ev := fun xof a => ¬ Verifies n h msg xof a) (fun x a b hab => not_congr ?_)
    (D := fun s => (∃ i, 1024 ≤ |s.2 i|) ∨ ∃ i, s.1 i = 6144) fun st c salt s a hc hin ha h1 h2 => ?_).trans ?_
  · have key : ∀ pk p junk lim, sigBytes n + 2 ≤ lim → verify x (hashBlocks n) p n junk pk msg (rdArr lim a) = verify x (hashBlocks n) p n junk pk msg (rdArr lim b) :=
      fun pk p junk lim hlim => C30_function_of_bytes hn hlim hlim p junk pk b (fun _ _ => rfl) hab
    exact ⟨fun h pk p junk lim hp hl => (key pk p junk lim hl).symm.trans (h pk p junk lim hp hl),
        fun h pk p junk lim hp hl => (key pk p junk lim hl).trans (h pk p junk lim hp hl)⟩
  · by_contra hx
    push Not at hx
    obtain ⟨x1, x2⟩ := hx
    refine h2 fun pk p junk lim hpk hlim => ?_
    obtain ⟨b1, b2, b3, b4⟩ := h1
    rw [codes_eq_flat] at b3 b4
    have hbody := bodyEnd_of_flat (s := tapeOf s.2) (fun i hi => chunk_code (by
      have := x1 ⟨i, hi⟩
      rw [Int.abs_eq_natAbs] at this
      rw [show tapeOf s.2 i = s.2 ⟨i, hi⟩ from tape_val s.2 ⟨i, hi⟩]
      omega)) b3 b4
    refine C28_complete hn hlim p hpk ⟨b1, hbody.body⟩ hc hin (le_trans (le_of_eq ?_) ha.1) fun _ i hi => ?_
    · unfold sqNorm pairSq
      rw [Finset.sum_range, Finset.sum_range]
      congr 1 <;> exact Finset.sum_congr rfl fun i _ => by rw [tape_val]
    · rw [show tapeOf s.1 i = s.1 ⟨i, hi⟩ from tape_val s.1 ⟨i, hi⟩]
      exact x2 _
  · have h3 := big_tail hn
    have h4 := spher_6144 hn
    have h5 := spher_or (n := n) hs (fun s => ∃ i, 1024 ≤ |s.2 i|) (fun s => ∃ i, s.1 i = 6144)
    have h6 : (1 / 2 ^ 33 : ℝ) + 1 / 2 ^ 50 ≤ 1 / 2 ^ 32 := by norm_num
    exact mul_le_mul_of_nonneg_left (by linarith) (Nat.cast_nonneg R)

/-- Non-vacuity: a key, one round, 60 attempts per integer. Signing succeeds with probability above 0.9999; its signature is rejected with probability
above 2^-29; it is not accepted with probability below 2^-20. -/
example (msg : List UInt8) (sig : Mem UInt8) :
    let pr := oracleSignPr 9 60 1 flatf flatg flatF flatG (fun _ => 0) (fun _ => 0) msg sig
    0.9999 ≤ pr (fun _ _ => True) ∧ 1 / 2 ^ 29 ≤ pr (Refused 9 msg) ∧
      pr (fun xof a => ¬ Verifies 9 (computePublicKey 9 flatf flatg (fun _ => Ff.zero)) msg xof a) ≤ 1 / 2 ^ 20 := by
  intro pr
  refine ⟨le_trans ?_ (C93_success (.inl rfl) flat_trapdoor (fun _ => 0) (fun _ => 0) msg sig 60 le_rfl),
    le_trans ?_ (C94_refused (.inl rfl) flat_trapdoor (fun _ => 0) (fun _ => 0) msg sig 60 le_rfl),
    (C94_verifies (.inl rfl) flat_trapdoor (fun _ => 0) (fun _ => 0) msg sig 60 1).trans ?_⟩ <;>
  · unfold roundErr
    try unfold longPr
    norm_num

end Falcon
