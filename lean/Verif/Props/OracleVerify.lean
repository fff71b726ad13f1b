import Verif.Proofs.PointMoments

/-!
# C95, C96: signatures presented for a message they were not made for

The signature, the public key and the message are fixed and arbitrary; the answer of the XOF to the one query of verification is uniform. The claims are
about the norm that verification computes in a 32-bit signed integer.
-/

namespace Falcon

open Real

variable {n lim : ℕ} {junk : Junk} {pk m : Mem UInt8} {msg : List UInt8} {xof : Xof}

/-! ### Numerical bounds -/

/-- The share of the points of squared norm at most B is at most (17.08 B / (N q^2))^(N/2). -/
theorem ball_num {B : ℝ} (hn : ValidLog n) (hB : 2 ^ n * 2 ≤ B) :
    (∑ v : Point n, if ((pointSq v : ℤ) : ℝ) ≤ B then (1 : ℝ) else 0) / 12289 ^ 2 ^ n ≤ (17.08 * B / (2 ^ n * 12289 ^ 2)) ^ 2 ^ (n - 1) := by
  have hN : (0 : ℝ) < 2 ^ n := by positivity
  have hs2 : √(B / 2 ^ n) ^ 2 = B / 2 ^ n := Real.sq_sqrt (div_nonneg (by linarith) hN.le)
  have h2 : (2 : ℝ) ≤ B / 2 ^ n := (le_div_iff₀ hN).mpr (by linarith)
  have hs : 6 / 5 ≤ √(B / 2 ^ n) := Real.le_sqrt_of_sq_le (by linarith)
  refine (ball_share hs (by rw [hs2]; field_simp)).trans ?_
  obtain ⟨s, hs'⟩ : ∃ s, s = √(B / 2 ^ n) := ⟨_, rfl⟩
  rw [← hs'] at hs hs2 ⊢
  have hs0 : 0 < s := by linarith
  have e : 2 ^ n = 2 * 2 ^ (n - 1) := by rcases hn with rfl | rfl <;> rfl
  rw [show (2 : ℕ) ^ n = 2 * 2 ^ (n - 1) from e, pow_mul]
  refine pow_le_pow_left₀ (sq_nonneg _) ?_ _
  have g := (abs_le.mp (gauss_sum 0 hs)).2
  have hpos : 0 ≤ ∑' z : ℤ, gaussW 0 s z := tsum_nonneg fun z => (gaussW_pos _ _ _).le
  have g2 : ∑' z : ℤ, gaussW 0 s z ≤ s * √(2 * π) * (1 + 1 / 2 ^ 38) := by linarith
  have g3 : (∑' z : ℤ, gaussW 0 s z) ^ 2 ≤ s ^ 2 * (2 * π) * (1 + 1 / 2 ^ 38) ^ 2 := by
    refine (pow_le_pow_left₀ hpos g2 2).trans (le_of_eq ?_)
    rw [mul_pow, mul_pow, Real.sq_sqrt (by positivity)]
  have he : rexp (1 / 2) ^ 2 ≤ 2.7182818286 := by
    rw [← Real.exp_nat_mul]
    norm_num
    have := Real.exp_one_lt_d9
    norm_num at this
    linarith
  rw [div_pow, mul_pow]
  have hpi := Real.pi_lt_d6
  have g4 : rexp (1 / 2) ^ 2 * (∑' z : ℤ, gaussW 0 s z) ^ 2 ≤ 2.7182818286 * (s ^ 2 * (2 * 3.141593) * (1 + 1 / 2 ^ 38) ^ 2) := by
    refine mul_le_mul he (g3.trans ?_) (sq_nonneg _) (by norm_num)
    have : 0 ≤ s ^ 2 := sq_nonneg s
    gcongr
  have g5 : (2.7182818286 : ℝ) * (s ^ 2 * (2 * 3.141593) * (1 + 1 / 2 ^ 38) ^ 2) ≤ 17.08 * s ^ 2 := by nlinarith [sq_nonneg s]
  rw [show 17.08 * B / (2 ^ n * 12289 ^ 2) = 17.08 * s ^ 2 / 12289 ^ 2 by rw [hs2]; field_simp]
  exact div_le_div_of_nonneg_right (g4.trans g5) (by norm_num)

theorem root_cert {x : ℝ} {a b k N : ℕ} (h0 : 0 ≤ x) (hb : 0 < b) (hx : x * b ≤ a) (h : a ^ N * 2 ^ k ≤ b ^ N) : x ^ N ≤ 1 / 2 ^ k := by
  have hb' : (0 : ℝ) < b := by exact_mod_cast hb
  have h' : (a : ℝ) ^ N * 2 ^ k ≤ (b : ℝ) ^ N := by exact_mod_cast h
  have h1 : x ^ N ≤ ((a : ℝ) / b) ^ N := pow_le_pow_left₀ h0 ((le_div_iff₀ hb').mpr hx) N
  refine h1.trans ?_
  rw [div_pow, div_le_div_iff₀ (pow_pos hb' N) (by positivity), one_mul]
  exact h'

/-- log2 of the bound on accepted transfers. -/
def transferBits (n : ℕ) : ℕ := if n = 9 then 1800 else 3580

theorem cert_a : 7519 ^ 256 * 2 ^ 1800 ≤ 1000000 ^ 256 := by decide +kernel
theorem cert_b : 7762 ^ 512 * 2 ^ 3580 ≤ 1000000 ^ 512 := by decide +kernel
theorem cert_c : 475 ^ 256 * 2 ^ 200 ≤ 1000 ^ 256 := by decide +kernel
theorem cert_d : 238 ^ 512 * 2 ^ 200 ≤ 1000 ^ 512 := by decide +kernel

theorem short_share (hn : ValidLog n) :
    (∑ v : Point n, if ((pointSq v : ℤ) : ℝ) ≤ betaSq n then (1 : ℝ) else 0) / 12289 ^ 2 ^ n ≤ 1 / 2 ^ transferBits n := by
  refine (ball_num hn ?_).trans ?_
  · unfold betaSq
    rcases hn with rfl | rfl <;> norm_num
  · rcases hn with rfl | rfl
    · rw [show betaSq 9 = 34034726 from rfl, show transferBits 9 = 1800 from rfl, show (2 : ℕ) ^ (9 - 1) = 256 from rfl]
      exact root_cert (a := 7519) (b := 1000000) (by positivity) (by norm_num) (by norm_num) cert_a
    · rw [show betaSq 10 = 70265242 from rfl, show transferBits 10 = 3580 from rfl, show (2 : ℕ) ^ (10 - 1) = 512 from rfl]
      exact root_cert (a := 7762) (b := 1000000) (by positivity) (by norm_num) (by norm_num) cert_b

theorem int_share (hn : ValidLog n) :
    (∑ v : Point n, if ((pointSq v : ℤ) : ℝ) ≤ 2 ^ 31 then (1 : ℝ) else 0) / 12289 ^ 2 ^ n ≤ 1 / 2 ^ 200 := by
  refine (ball_num hn ?_).trans ?_
  · rcases hn with rfl | rfl <;> norm_num
  · rcases hn with rfl | rfl
    · rw [show (2 : ℕ) ^ (9 - 1) = 256 from rfl]
      exact root_cert (a := 475) (b := 1000) (by positivity) (by norm_num) (by norm_num) cert_c
    · rw [show (2 : ℕ) ^ (10 - 1) = 512 from rfl]
      exact root_cert (a := 238) (b := 1000) (by positivity) (by norm_num) (by norm_num) cert_d

/-! ### C95 -/

theorem answering_same (xof : Xof) (x : List UInt8) (st : Mem UInt8) : answering xof x st x = st := if_pos rfl

theorem freq_sub (L : ℕ) {P P' : Mem UInt8 → Prop} (h : ∀ st, P st → P' st) : freq L P ≤ freq L P' := by
  classical
  unfold freq
  refine div_le_div_of_nonneg_right ?_ (by positivity)
  exact_mod_cast Finset.card_le_card fun v hv => by
    rw [Finset.mem_filter] at hv ⊢
    exact ⟨hv.1, h _ hv.2⟩

theorem freq_ends_le (L : ℕ) (P : Mem UInt8 → Prop) : freq L P ≤ 1 := by
  linarith [freq_compl L P, freq_nonneg L fun st => ¬ P st]

/-- C95: whatever the key, the message and the signature bytes, verification returns true, in a run defined in C++, for a share of at most 2^-1800 (N = 512)
or 2^-3580 (N = 1024) of the XOF outputs. -/
theorem C95_transfer (hn : ValidLog n) (hlim : sigBytes n + 2 ≤ lim) (fuel : ℕ) :
    freq (136 * fuel) (fun st => verify (answering xof (saltMsg m msg) st) fuel .strict n junk pk msg (rdArr lim m) = some (.ok true)) ≤
      1 / 2 ^ transferBits n := by
  classical
  by_cases hbad : (pk 0).toNat ≠ n ∨ ∀ s2, ¬ SigOf n m s2
  · have e : (fun st => verify (answering xof (saltMsg m msg) st) fuel .strict n junk pk msg (rdArr lim m) = some (.ok true)) = fun _ => False := by
      funext st
      rw [verify_reject hn hlim hbad]
      simp
    rw [e]
    unfold freq
    simp
  · push Not at hbad
    obtain ⟨hpk, s2, hs2⟩ := hbad
    obtain ⟨h, -, hh⟩ := decodePkey_of hn pk (fun _ => Ff.zero) hpk
    refine (freq_sub _ (P' := fun st => ∃ c, hashToPoint fuel n st (fun _ => Ff.zero) = some c ∧ codeNorm n h c s2 ≤ betaSq n) fun st hst => ?_).trans ?_
    · rw [verify_eq hn hlim hh hs2, answering_same] at hst
      obtain ⟨c, hc, hv⟩ := Option.map_eq_some_iff.mp hst
      rw [verifyTail_strict hn _ hh.2.1 (hashToPoint_spec hc).1.canon hs2.bound] at hv
      split at hv
      · simp only [Except.ok.injEq, decide_eq_true_eq] at hv
        exact ⟨c, hc, hv⟩
      · cases hv
    · rw [norm_freq hn fuel hh.2.1 hs2.bound (fun _ => Ff.zero) fun z => z ≤ betaSq n]
      have h1 : (∑ v : Point n, if sqNorm (2 ^ n) s2 + pointSq v ≤ betaSq n then (1 : ℝ) else 0) ≤
          ∑ v : Point n, if ((pointSq v : ℤ) : ℝ) ≤ betaSq n then (1 : ℝ) else 0 := by
        refine Finset.sum_le_sum fun v _ => ?_
        have h0 := sqNorm_nonneg (2 ^ n) s2
        by_cases hv : sqNorm (2 ^ n) s2 + pointSq v ≤ betaSq n
        · rw [if_pos hv, if_pos (by exact_mod_cast (by linarith : pointSq v ≤ betaSq n))]
        · rw [if_neg hv]
          split <;> norm_num
      have h2 := (div_le_div_of_nonneg_right h1 (by positivity : (0 : ℝ) ≤ 12289 ^ 2 ^ n)).trans (short_share hn)
      exact (mul_le_of_le_one_left (div_nonneg (Finset.sum_nonneg fun v _ => by split <;> norm_num) (by positivity)) (freq_ends_le _ _)).trans h2

/-- C95: instead, the sum of squares overflows for all but a share of 2^-89 of the XOF outputs: almost every run of verification on a well-formed signature
that was not made for the message is undefined in C++. -/
theorem C95_undefined (hn : ValidLog n) (hlim : sigBytes n + 2 ≤ lim) (hpk : (pk 0).toNat = n) {s2 : Mem Int} (hs2 : SigOf n m s2) :
    1 - 1 / 2 ^ 89 ≤ freq (136 * hashBlocks n) (fun st =>
      verify (answering xof (saltMsg m msg) st) (hashBlocks n) .strict n junk pk msg (rdArr lim m) = some (.error .signedOverflow)) := by
  classical
  obtain ⟨h, -, hh⟩ := decodePkey_of hn pk (fun _ => Ff.zero) hpk
  refine le_trans ?_ (freq_sub _ (P := fun st => ∃ c, hashToPoint (hashBlocks n) n st (fun _ => Ff.zero) = some c ∧ 2 ^ 31 ≤ codeNorm n h c s2) fun st hst => ?_)
  · rw [norm_freq hn (hashBlocks n) hh.2.1 hs2.bound (fun _ => Ff.zero) fun z => 2 ^ 31 ≤ z]
    have h1 : 1 - 1 / 2 ^ 200 ≤ (∑ v : Point n, if 2 ^ 31 ≤ sqNorm (2 ^ n) s2 + pointSq v then (1 : ℝ) else 0) / 12289 ^ 2 ^ n := by
      have h2 := int_share hn
      have hQ : (0 : ℝ) < 12289 ^ 2 ^ n := by positivity
      have h3 : (1 : ℝ) ≤ (∑ v : Point n, if ((pointSq v : ℤ) : ℝ) ≤ 2 ^ 31 then (1 : ℝ) else 0) / 12289 ^ 2 ^ n +
          (∑ v : Point n, if 2 ^ 31 ≤ sqNorm (2 ^ n) s2 + pointSq v then (1 : ℝ) else 0) / 12289 ^ 2 ^ n := by
        rw [← add_div, ← Finset.sum_add_distrib, le_div_iff₀ hQ, one_mul, ← card_point, ← Finset.card_univ, ← nsmul_one, ← Finset.sum_const]
        refine Finset.sum_le_sum fun v _ => ?_
        have h0 := sqNorm_nonneg (2 ^ n) s2
        by_cases hv : pointSq v ≤ 2 ^ 31
        · rw [if_pos (by exact_mod_cast hv)]
          split <;> norm_num
        · rw [if_pos (show 2 ^ 31 ≤ sqNorm (2 ^ n) s2 + pointSq v by linarith)]
          split <;> norm_num
      linarith
    have h4 := (hash_ends hn (fun _ => Ff.zero)).1
    have h5 : (1 - 1 / 2 ^ 90 : ℝ) * (1 - 1 / 2 ^ 200) ≤ _ := mul_le_mul h4 h1 (by norm_num) ((by norm_num : (0 : ℝ) ≤ 1 - 1 / 2 ^ 90).trans h4)
    refine le_trans ?_ h5
    norm_num
  · obtain ⟨c, hc, hv⟩ := hst
    rw [verify_eq hn hlim hh hs2, answering_same, hc, Option.map_some, verifyTail_strict hn _ hh.2.1 (hashToPoint_spec hc).1.canon hs2.bound,
      if_neg (not_lt.mpr hv)]

/-! ### C96 -/

/-- The norms that wrap around to an accepted value, around the mean. -/
theorem wrap_window (hn : ValidLog n) {S : ℤ} (h0 : 0 ≤ S) (hS : S ≤ 2 ^ 26) {y : ℤ}
    (hy : if n = 9 then 0 ≤ y ∧ y ≤ 720000000 else -1018000000 ≤ y ∧ y ≤ 0) :
    Int.bmod (S + (12584961 * 2 ^ n + y)) (2 ^ 32) ≤ betaSq n := by
  rcases hn with rfl | rfl
  · rw [if_pos rfl] at hy
    unfold betaSq
    have : Int.bmod (S + (12584961 * 2 ^ 9 + y)) (2 ^ 32) = S + (12584961 * 2 ^ 9 + y) - 2 * 2 ^ 32 := by
      rw [Int.bmod_def]
      norm_num
      split <;> omega
    rw [this]
    norm_num
    omega
  · rw [if_neg (by norm_num)] at hy
    unfold betaSq
    rw [Int.bmod_def]
    norm_num
    split <;> omega

/-- C96: when the 32-bit sum wraps around, as it does on common hardware, verification accepts a share of at least 3/20 of the XOF outputs, for every
signature of the right form with |s2|^2 ≤ 2^26, whatever the key and the message. -/
theorem C96_wrap (hn : ValidLog n) (hlim : sigBytes n + 2 ≤ lim) (hpk : (pk 0).toNat = n) {s2 : Mem Int} (hs2 : SigOf n m s2)
    (hS : sqNorm (2 ^ n) s2 ≤ 2 ^ 26) :
    3 / 20 ≤ freq (136 * hashBlocks n) (fun st =>
      verify (answering xof (saltMsg m msg) st) (hashBlocks n) .wrap n junk pk msg (rdArr lim m) = some (.ok true)) := by
  classical
  obtain ⟨h, -, hh⟩ := decodePkey_of hn pk (fun _ => Ff.zero) hpk
  refine le_trans ?_ (freq_sub _ (P := fun st => ∃ c, hashToPoint (hashBlocks n) n st (fun _ => Ff.zero) = some c ∧
    Int.bmod (codeNorm n h c s2) (2 ^ 32) ≤ betaSq n) fun st hst => ?_)
  · rw [norm_freq hn (hashBlocks n) hh.2.1 hs2.bound (fun _ => Ff.zero) fun z => Int.bmod z (2 ^ 32) ≤ betaSq n]
    have h1 := dev_window hn (ε := if n = 9 then 1 else -1) (by split <;> simp) rfl
      (fun v => Int.bmod (sqNorm (2 ^ n) s2 + pointSq v) (2 ^ 32) ≤ betaSq n) fun v a1 a2 => by
        have e : ∑ i, dev (v i) = ((pointSq v - 12584961 * 2 ^ n : ℤ) : ℝ) := by
          push_cast
          rw [pointSq_dev]
          ring
        rw [e] at a1 a2
        have := wrap_window hn (sqNorm_nonneg _ s2) hS (y := pointSq v - 12584961 * 2 ^ n) (by
          rcases hn with rfl | rfl
          · rw [if_pos rfl, one_mul] at a1 a2
            rw [if_pos rfl]
            norm_num at a2
            have b1 : 0 < pointSq v - 12584961 * 2 ^ 9 := by exact_mod_cast a1
            have b2 : pointSq v - 12584961 * 2 ^ 9 < 720000000 := by
              have : ((pointSq v - 12584961 * 2 ^ 9 : ℤ) : ℝ) < 720000000 := by push_cast; linarith
              exact_mod_cast this
            constructor <;> omega
          · rw [if_neg (by norm_num)] at a1 a2
            rw [if_neg (by norm_num)]
            have b1 : pointSq v - 12584961 * 2 ^ 10 < 0 := by
              have : ((pointSq v - 12584961 * 2 ^ 10 : ℤ) : ℝ) < 0 := by linarith
              exact_mod_cast this
            have b2 : -1018000000 < pointSq v - 12584961 * 2 ^ 10 := by
              have : (-1018000000 : ℝ) < ((pointSq v - 12584961 * 2 ^ 10 : ℤ) : ℝ) := by norm_num at a2; push_cast; linarith
              exact_mod_cast this
            constructor <;> omega)
        have e2 : sqNorm (2 ^ n) s2 + (12584961 * 2 ^ n + (pointSq v - 12584961 * 2 ^ n)) = sqNorm (2 ^ n) s2 + pointSq v := by ring
        rwa [e2] at this
    have h4 := (hash_ends hn (fun _ => Ff.zero)).1
    have h5 : (1 - 1 / 2 ^ 90 : ℝ) * 0.1505 ≤ _ := mul_le_mul h4 h1 (by norm_num) ((by norm_num : (0 : ℝ) ≤ 1 - 1 / 2 ^ 90).trans h4)
    refine le_trans ?_ h5
    norm_num
  · obtain ⟨c, hc, hv⟩ := hst
    rw [verify_eq hn hlim hh hs2, answering_same, hc, Option.map_some, verifyTail_wrap, decide_eq_true hv]

theorem answeringAll_at {k : ℕ} (xof : Xof) {xs : Fin k → List UInt8} (hx : Function.Injective xs) (ws : Fin k → Mem UInt8) (j : Fin k) :
    answeringAll xof xs ws (xs j) = ws j := by
  unfold answeringAll
  have : (List.finRange k).find? (fun i => xs i = xs j) = some j := by
    have hsome : ((List.finRange k).find? (fun i => xs i = xs j)).isSome := by
      rw [List.find?_isSome]
      exact ⟨j, List.mem_finRange j, by simp⟩
    obtain ⟨i, hi⟩ := Option.isSome_iff_exists.mp hsome
    have h1 := List.find?_some hi
    have h2 : i = j := hx (by simpa using h1)
    rw [hi, h2]
  rw [this]

open Classical in
/-- C96 (universal forgery under wrap-around): k byte strings with chosen, distinct salts, made without the key, the message or the XOF, such that for every
well-formed key and every message at least one verifies, except for a share of at most (17/20)^k of the answers of the XOF to the k queries. -/
theorem C96_forger (hn : ValidLog n) {k : ℕ} (salts : Fin k → Mem UInt8) (hd : ∀ i j, (∀ t, t < 40 → salts i t = salts j t) → i = j) :
    ∃ m : Fin k → Mem UInt8, (∀ j t, t < 40 → m j (1 + t) = salts j t) ∧
      ∀ (pk : Mem UInt8) (msg : List UInt8) (xof : Xof) (lim : ℕ) (junk : Junk), (pk 0).toNat = n → sigBytes n + 2 ≤ lim →
        ((Finset.univ.filter fun ws : Fin k → Fin (136 * hashBlocks n) → UInt8 => ∀ j,
          verify (answeringAll xof (fun j => saltMsg (m j) msg) (fun j => memOf (ws j))) (hashBlocks n) .wrap n junk pk msg (rdArr lim (m j)) ≠
            some (.ok true)).card : ℝ) / (256 ^ (136 * hashBlocks n)) ^ k ≤ (17 / 20) ^ k := by
  choose m hm1 hm2 using fun j => zero_sig_exists hn (fun t => salts j (t - 1))
  have hm : ∀ j t, t < 40 → m j (1 + t) = salts j t := fun j t ht => by
    rw [hm2 j (1 + t) (by omega) (by omega)]
    congr 1
    omega
  refine ⟨m, hm, fun pk msg xof lim junk hpk hlim => ?_⟩
  have hinj : Function.Injective fun j => saltMsg (m j) msg := by
    intro i j hij
    refine hd i j fun t ht => ?_
    have h1 : (List.range 40).map (fun i' => m i (1 + i')) = (List.range 40).map (fun i' => m j (1 + i')) := List.append_cancel_right hij
    have h2 := List.map_inj_left.mp h1 t (List.mem_range.mpr ht)
    rwa [hm i t ht, hm j t ht] at h2
  obtain ⟨L, hL⟩ : ∃ L, L = 136 * hashBlocks n := ⟨_, rfl⟩
  have hbad : ∀ j, freq L (fun st => verify (answering xof (saltMsg (m j) msg) st) (hashBlocks n) .wrap n junk pk msg (rdArr lim (m j)) ≠ some (.ok true)) ≤ 17 / 20 := by
    intro j
    have h1 := C96_wrap (xof := xof) (junk := junk) (msg := msg) hn hlim hpk (hm1 j) (by unfold sqNorm; simp)
    rw [← hL] at h1
    have h2 := freq_compl L (fun st => verify (answering xof (saltMsg (m j) msg) st) (hashBlocks n) .wrap n junk pk msg (rdArr lim (m j)) = some (.ok true))
    simp only [← ne_eq] at h2
    linarith
  have hset : (Finset.univ.filter fun ws : Fin k → Fin L → UInt8 => ∀ j,
      verify (answeringAll xof (fun j => saltMsg (m j) msg) (fun j => memOf (ws j))) (hashBlocks n) .wrap n junk pk msg (rdArr lim (m j)) ≠ some (.ok true)) =
      Fintype.piFinset fun j => Finset.univ.filter fun w : Fin L → UInt8 =>
        verify (answering xof (saltMsg (m j) msg) (memOf w)) (hashBlocks n) .wrap n junk pk msg (rdArr lim (m j)) ≠ some (.ok true) := by
    ext ws
    rw [Finset.mem_filter, Fintype.mem_piFinset]
    simp only [Finset.mem_univ, true_and, Finset.mem_filter]
    refine forall_congr' fun j => ?_
    obtain ⟨h, -, hh⟩ := decodePkey_of hn pk (fun _ => Ff.zero) hpk
    rw [verify_eq hn hlim hh (hm1 j), verify_eq hn hlim hh (hm1 j), answering_same,
      answeringAll_at xof (xs := fun j => saltMsg (m j) msg) hinj (fun j => memOf (ws j)) j]
  rw [← hL, hset, Fintype.card_piFinset, Nat.cast_prod]
  have e : ((256 : ℝ) ^ L) ^ k = ∏ _j : Fin k, (256 : ℝ) ^ L := by rw [Finset.prod_const, Finset.card_univ, Fintype.card_fin]
  have e' : (17 / 20 : ℝ) ^ k = ∏ _j : Fin k, (17 / 20 : ℝ) := by rw [Finset.prod_const, Finset.card_univ, Fintype.card_fin]
  rw [e, e', ← Finset.prod_div_distrib]
  refine Finset.prod_le_prod (fun j _ => by positivity) fun j _ => ?_
  have h1 := hbad j
  rw [freq_sum] at h1
  refine le_trans (le_of_eq ?_) h1
  rw [Finset.sum_ite, Finset.sum_const_zero, add_zero, Finset.sum_const, nsmul_eq_mul, mul_one]

/-- The hypotheses are met: the zero signature of either size, with any salt, and any key with the right header. -/
example : (∃ m, SigOf 9 m (fun _ => 0)) ∧ (∃ m, SigOf 10 m (fun _ => 0)) ∧ sqNorm (2 ^ 10) (fun _ => 0) ≤ 2 ^ 26 :=
  ⟨(zero_sig_exists (.inl rfl) fun _ => 0).imp fun _ h => h.1, (zero_sig_exists (.inr rfl) fun _ => 0).imp fun _ h => h.1, by unfold sqNorm; simp⟩

/-- A thousand distinct salts. -/
example : ∀ i j : Fin 1000, (∀ t, t < 40 → (fun t => if t = 0 then UInt8.ofNat (i.val % 256) else UInt8.ofNat (i.val / 256) : Mem UInt8) t =
    (fun t => if t = 0 then UInt8.ofNat (j.val % 256) else UInt8.ofNat (j.val / 256) : Mem UInt8) t) → i = j := by
  intro i j h
  have h0 := congrArg UInt8.toNat (h 0 (by norm_num))
  have h1 := congrArg UInt8.toNat (h 1 (by norm_num))
  simp at h0 h1
  refine Fin.ext ?_
  omega

end Falcon
