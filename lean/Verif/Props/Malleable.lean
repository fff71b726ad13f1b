import Verif.Props.SignRate

/-!
# C97: honest signatures can be changed into other accepted signatures of the same message
-/

namespace Falcon

/-- There is another byte string with the same header and salt on which verification does the same, whatever the key and the message. -/
def Malleable (n : ℕ) (a : Mem UInt8) : Prop := ∃ b : Mem UInt8, (∃ j, j < sigBytes n ∧ b j ≠ a j) ∧ (∀ j, j < 41 → b j = a j) ∧
  ∀ (xof : Xof) (fuel : ℕ) (p : Ovf) (junk : Junk) (pk : Mem UInt8) (msg : List UInt8) (lim : ℕ), sigBytes n + 2 ≤ lim →
    verify xof fuel p n junk pk msg (rdArr lim b) = verify xof fuel p n junk pk msg (rdArr lim a)

theorem malleable_congr {n : ℕ} (hn : ValidLog n) {a b : Mem UInt8} (hab : ∀ j, j < sigBytes n → a j = b j) (h : Malleable n a) : Malleable n b := by
  obtain ⟨m, ⟨j, j1, j2⟩, h2, h3⟩ := h
  have hb := sigBytes_ge n
  exact ⟨m, ⟨j, j1, by rw [← hab j j1]; exact j2⟩, fun j hj => by rw [h2 j hj, hab j (by omega)], fun xof fuel p junk pk msg lim hlim =>
    (h3 xof fuel p junk pk msg lim hlim).trans (C30_function_of_bytes hn hlim hlim p junk pk b (fun _ _ => rfl) hab)⟩

/-- C97: every signature of a vector with coefficients below 1024 that leaves more than 16 bits of padding. -/
theorem C97_malleable {n : ℕ} (hn : ValidLog n) {a : Mem UInt8} {salt : ℕ → UInt8} {s : Mem Int} (h : SignatureOf n a salt s)
    (hs : ∀ i, i < 2 ^ n → |s i| < 1024) (hroom : 328 + (codes s (2 ^ n)).length + 16 < 8 * sigBytes n) : Malleable n a := by
  have hb := sigBytes_ge n
  have hsmall : ∃ i, i < 2 ^ n ∧ |s i| < 128 := by
    by_contra hx
    push Not at hx
    rw [codes_length] at hroom
    have h1 : ∑ _i ∈ Finset.range (2 ^ n), 10 ≤ ∑ i ∈ Finset.range (2 ^ n), (9 + (s i).natAbs / 128) := Finset.sum_le_sum fun i hi => by
      have := hx i (Finset.mem_range.mp hi)
      rw [Int.abs_eq_natAbs] at this
      omega
    rw [Finset.sum_const, Finset.card_range, smul_eq_mul] at h1
    have h2 : 8 * sigBytes n ≤ 2 ^ n * 10 + 328 := by
      unfold sigBytes
      rcases hn with rfl | rfl <;> norm_num
    omega
  obtain ⟨b1, b2, b3, b4⟩ := h
  rw [codes_eq_flat] at b3 b4 hroom
  have hbody := bodyEnd_of_flat (s := s) (fun i hi => chunk_code (by have := hs i hi; rw [Int.abs_eq_natAbs] at this; omega)) b3 b4
  obtain ⟨m, s', a1, ⟨j, -, j2, j3⟩, a3, a4⟩ := malleable_of_end (lim := sigBytes n + 2) a (fun _ => 0) s _ le_rfl hsmall hroom hbody
  have e1 : SigOf n a s := ⟨b1, hbody.body⟩
  have e2 : SigOf n m s' := by
    refine ⟨by rw [a1 0 (by omega)]; exact b1, ?_⟩
    obtain ⟨ok, o, d1, -, d3, -⟩ := C20_accepts_iff (lim := sigBytes n + 2) m (fun _ => 0) le_rfl
    rw [a3] at d1
    cases d1
    exact d3 rfl
  have hsalt : ∀ msg, saltMsg m msg = saltMsg a msg := fun msg => by
    unfold saltMsg
    congr 1
    exact List.map_congr_left fun i hi => a1 (1 + i) (by have := List.mem_range.mp hi; omega)
  refine ⟨m, ⟨j, j2, j3⟩, fun j hj => a1 j (.inl hj), fun xof fuel p junk pk msg lim hlim => ?_⟩
  by_cases hpk : (pk 0).toNat = n
  · obtain ⟨h, -, hh⟩ := decodePkey_of hn pk (fun _ => Ff.zero) hpk
    rw [verify_eq hn hlim hh e1, verify_eq hn hlim hh e2, hsalt]
    congr 1
    funext c
    exact verifyTail_congr (fun _ _ => rfl) a4
  · rw [C30_rejects hn hlim p (.inl hpk), C30_rejects hn hlim p (.inl hpk)]

/-- How often a Gaussian pair leaves at most 16 bits of padding. -/
noncomputable def tightPr (n : ℕ) : ℝ := if n = 9 then 1 / 2 ^ 12 else 1 / 2 ^ 4

theorem tight_cert : 11582 ^ 512 * 2 ^ 12 * 4 ^ 376 ≤ 5 ^ 376 * 10000 ^ 512 ∧ 10784 ^ 1024 * 2 ^ 4 * 8 ^ 680 ≤ 9 ^ 680 * 10000 ^ 1024 := by decide +kernel

theorem tight_tail {n : ℕ} (hn : ValidLog n) :
    sphericalPr n (sigmaSig n) (fun s => ¬ ∑ i, (9 + (s.2 i).natAbs / 128) + 16 < 8 * (sigBytes n - 41)) ≤ tightPr n := by
  have hs := sigmaSig_pos n
  have hb := cBase_mem n
  have hx : 0 < cBase n := by linarith
  have hu : 16 ≤ unaryBits n := by unfold unaryBits sigBytes; rcases hn with rfl | rfl <;> norm_num
  have h := spher_le (n := n) hs (E := fun s => ¬ ∑ i, (9 + (s.2 i).natAbs / 128) + 16 < 8 * (sigBytes n - 41)) (cBase n ^ (unaryBits n - 16))⁻¹ (fun _ _ => 1)
    (fun _ z => cBase n ^ (z.natAbs / 128)) (by positivity) (fun _ _ => zero_le_one) (fun _ _ => by positivity)
    (fun _ => by simpa using summable_gaussW 0 hs) (fun _ => mom_summable hn) (fun s h => by
      have : unaryBits n - 16 ≤ ∑ i, (s.2 i).natAbs / 128 := by
        rw [Finset.sum_add_distrib, Finset.sum_const, Finset.card_univ, Fintype.card_fin, smul_eq_mul] at h
        unfold unaryBits at hu ⊢
        omega
      rw [Finset.prod_const_one, one_mul, Finset.prod_pow_eq_pow_sum, ← div_eq_inv_mul, one_le_div (by positivity)]
      exact pow_le_pow_right₀ hb.1 this)
  refine h.trans ?_
  simp only [gaussMean_one hs, Finset.prod_const_one, one_mul, Finset.prod_const, Finset.card_univ, Fintype.card_fin]
  have hm := pow_le_pow_left₀ (gaussMean_nonneg (sigma := sigmaSig n) fun z => by positivity) (moment_le hn) (2 ^ n)
  refine (mul_le_mul_of_nonneg_left hm (by positivity)).trans ?_
  obtain ⟨c1, c2⟩ := tight_cert
  unfold tightPr cMom cBase
  rcases hn with rfl | rfl
  · rw [if_neg (by norm_num), if_neg (by norm_num), if_pos rfl]
    exact pow_cert (M := 376) (N := 512) c1 (by norm_num) (by norm_num) (by norm_num) (by norm_num) (by norm_num) rfl
  · rw [if_pos rfl, if_pos rfl, if_neg (by norm_num)]
    exact pow_cert (M := 680) (N := 1024) c2 (by norm_num) (by norm_num) (by norm_num) (by norm_num) (by norm_num) rfl

/-- C97: with R ≥ 1 rounds, signing returns a malleable signature with probability at least 1 - 2^-14 - 2^-12 - 2^-21 (N = 512) or
1 - 2^-28 - 2^-4 - 2^-19 (N = 1024), minus the errors. -/
theorem C97_rate {n : ℕ} (hn : ValidLog n) {h : Mem Ff} {f g F G : Mem Int} (tr : Trapdoor n h f g F G) (B0 T0 : Mem ℂ) (msg : List UInt8)
    (sig : Mem UInt8) (m : ℕ) {R : ℕ} (hR : 1 ≤ R) :
    1 - 1 / 2 ^ (14 * (n - 8)) - tightPr n - 1 / 2 ^ (39 - 2 * n) - 1 / 2 ^ 31 - R * roundErr n m ≤
      oracleSignPr n m R f g F G B0 T0 msg sig (fun _ a => Malleable n a) := by
  have h1 := oracle_lower hn tr B0 T0 msg sig m hR (Ev := fun _ a => Malleable n a)
    (fun _ a b hab => ⟨malleable_congr hn hab, malleable_congr hn fun j hj => (hab j hj).symm⟩)
    (D := fun s => ∑ i, (9 + (s.2 i).natAbs / 128) + 16 < 8 * (sigBytes n - 41) ∧ ∀ i, |s.2 i| < 1024) fun x salt s ha hd => by
      obtain ⟨a, h⟩ := signature_exists hn ha salt
      refine ⟨a, h, C97_malleable hn h (fun i hi => ?_) ?_⟩
      · rw [show tapeOf s.2 i = s.2 ⟨i, hi⟩ from tape_val s.2 ⟨i, hi⟩]
        exact hd.2 _
      · have e : (codes (tapeOf s.2) (2 ^ n)).length = ∑ i, (9 + (s.2 i).natAbs / 128) := by
          rw [codes_length, Finset.sum_range]
          exact Finset.sum_congr rfl fun i _ => by rw [tape_val]
        have := sigBytes_ge n
        have := hd.1
        omega
  have hs := sigmaSig_pos n
  have h2 : sphericalPr n (sigmaSig n) (fun s => betaSq n < pairSq s) ≤ 1 / 2 ^ (14 * (n - 8)) + 1 / 2 ^ 33 := by
    have h3 := (abs_le.mp (point_mean hn tr fun s => betaSq n < pairSq s)).2
    have h4 : (∑ v : Point n, cosetPr n (sigmaSig n) h (pointOf v) (fun s => betaSq n < pairSq s)) / 12289 ^ 2 ^ n ≤ 1 / 2 ^ (14 * (n - 8)) := by
      rw [div_le_iff₀ (pow_pos (by norm_num) _), mul_comm, ← card_point, ← nsmul_eq_mul, ← Finset.card_univ]
      exact Finset.sum_le_card_nsmul _ _ _ fun v _ => C82_tail hn tr _
    linarith
  have h5 := tight_tail hn
  have h8 := big_tail hn
  have h6 : (1 : ℝ) ≤ sphericalPr n (sigmaSig n) (fun s => Accept n s ∧ ∑ i, (9 + (s.2 i).natAbs / 128) + 16 < 8 * (sigBytes n - 41) ∧ ∀ i, |s.2 i| < 1024) +
      (sphericalPr n (sigmaSig n) (fun s => betaSq n < pairSq s) +
      (sphericalPr n (sigmaSig n) (fun s => ¬ ∑ i, (9 + (s.2 i).natAbs / 128) + 16 < 8 * (sigBytes n - 41)) + sphericalPr n (sigmaSig n) (fun s => ∃ i, 1024 ≤ |s.2 i|))) := by
    have e : sphericalPr n (sigmaSig n) (fun _ => True) = 1 := by
      rw [spher_eq hs (fun _ => Set.univ) (fun _ => Set.univ) fun s => ⟨fun _ => ⟨fun _ => Set.mem_univ _, fun _ => Set.mem_univ _⟩, fun _ => trivial⟩]
      rw [Finset.prod_congr rfl fun _ _ => gaussPr_univ0 hs, Finset.prod_const_one, one_mul]
    rw [← e]
    refine (spher_mono hs (E' := fun s => (Accept n s ∧ ∑ i, (9 + (s.2 i).natAbs / 128) + 16 < 8 * (sigBytes n - 41) ∧ ∀ i, |s.2 i| < 1024) ∨
      (betaSq n < pairSq s ∨ (¬ ∑ i, (9 + (s.2 i).natAbs / 128) + 16 < 8 * (sigBytes n - 41) ∨ ∃ i, 1024 ≤ |s.2 i|)))
      fun s _ => ?_).trans ((spher_or hs _ _).trans (add_le_add le_rfl ((spher_or hs _ _).trans (add_le_add le_rfl (spher_or hs _ _)))))
    by_cases a1 : pairSq s ≤ betaSq n
    · by_cases a2 : ∑ i, (9 + (s.2 i).natAbs / 128) + 16 < 8 * (sigBytes n - 41)
      · by_cases a3 : ∃ i, 1024 ≤ |s.2 i|
        · exact .inr (.inr (.inr a3))
        · push Not at a3
          exact .inl ⟨⟨a1, by omega⟩, a2, a3⟩
      · exact .inr (.inr (.inl a2))
    · exact .inr (.inl (not_le.mp a1))
  have h7 : (1 / 2 ^ 33 : ℝ) + 1 / 2 ^ 32 ≤ 1 / 2 ^ 31 := by norm_num
  linarith

theorem oracleSignPr_or {n m R : ℕ} {f g F G : Mem Int} {B0 T0 : Mem ℂ} {msg : List UInt8} {sig : Mem UInt8} {E E1 E2 : Xof → Mem UInt8 → Prop}
    (h : ∀ x a, E x a → E1 x a ∨ E2 x a) :
    oracleSignPr n m R f g F G B0 T0 msg sig E ≤ oracleSignPr n m R f g F G B0 T0 msg sig E1 + oracleSignPr n m R f g F G B0 T0 msg sig E2 := by
  classical
  unfold oracleSignPr
  rw [← add_div, ← Finset.sum_add_distrib]
  refine byteAvg_mono fun w => ?_
  rw [freq_sum, freq_sum, freq_sum, ← add_div, ← Finset.sum_add_distrib]
  refine byteAvg_mono fun v => ?_
  split
  · rename_i hx
    obtain ⟨r, r1, r2⟩ := hx
    rcases h _ _ r2 with h' | h'
    · rw [if_pos ⟨r, r1, h'⟩]
      split <;> norm_num
    · rw [add_comm, if_pos ⟨r, r1, h'⟩]
      split <;> norm_num
  · split <;> split <;> norm_num

/-- C97: signing returns a signature that verifies and that can be changed into another one that verifies with probability at least
1 - 2^-14 - 2^-12 - 2^-20 or 1 - 2^-28 - 2^-4 - 2^-18 for one round, minus the errors. -/
theorem C97_second {n : ℕ} (hn : ValidLog n) {h : Mem Ff} {f g F G : Mem Int} (tr : Trapdoor n h f g F G) (B0 T0 : Mem ℂ) (msg : List UInt8)
    (sig : Mem UInt8) (m : ℕ) :
    1 - 1 / 2 ^ (14 * (n - 8)) - tightPr n - 2 / 2 ^ (39 - 2 * n) - 1 / 2 ^ 30 - 2 * roundErr n m ≤
      oracleSignPr n m 1 f g F G B0 T0 msg sig (fun xof a => Verifies n h msg xof a ∧
        ∃ b : Mem UInt8, (∃ j, j < sigBytes n ∧ b j ≠ a j) ∧ Verifies n h msg xof b) := by
  have h1 := C97_rate hn tr B0 T0 msg sig m (R := 1) le_rfl
  have h2 := C94_verifies hn tr B0 T0 msg sig m 1
  have h3 := oracleSignPr_or (n := n) (m := m) (R := 1) (f := f) (g := g) (F := F) (G := G) (B0 := B0) (T0 := T0) (msg := msg) (sig := sig)
    (E := fun _ a => Malleable n a) (E1 := fun xof a => Verifies n h msg xof a ∧ ∃ b : Mem UInt8, (∃ j, j < sigBytes n ∧ b j ≠ a j) ∧ Verifies n h msg xof b)
    (E2 := fun xof a => ¬ Verifies n h msg xof a) fun x a ⟨b, b1, _, b3⟩ => by
      by_cases hv : Verifies n h msg x a
      · exact .inl ⟨hv, b, b1, fun pk p junk lim hpk hlim => (b3 _ _ _ _ _ _ _ hlim).trans (hv pk p junk lim hpk hlim)⟩
      · exact .inr hv
  have h4 : (1 / 2 ^ 31 : ℝ) + 1 / 2 ^ 32 ≤ 1 / 2 ^ 30 := by norm_num
  have h5 : (2 : ℝ) / 2 ^ (39 - 2 * n) = 1 / 2 ^ (39 - 2 * n) + 1 / 2 ^ (39 - 2 * n) := by ring
  push_cast at h1 h2
  rw [h5]
  linarith

/-- Non-vacuity: a key, 60 attempts per integer; more than 99.9 percent of the signatures have a sibling that is accepted too. -/
example (msg : List UInt8) (sig : Mem UInt8) :
    0.999 ≤ oracleSignPr 9 60 1 flatf flatg flatF flatG (fun _ => 0) (fun _ => 0) msg sig (fun xof a =>
      Verifies 9 (computePublicKey 9 flatf flatg (fun _ => Ff.zero)) msg xof a ∧
        ∃ b : Mem UInt8, (∃ j, j < sigBytes 9 ∧ b j ≠ a j) ∧ Verifies 9 (computePublicKey 9 flatf flatg (fun _ => Ff.zero)) msg xof b) := by
  refine le_trans ?_ (C97_second (.inl rfl) flat_trapdoor (fun _ => 0) (fun _ => 0) msg sig 60)
  unfold roundErr tightPr
  norm_num

end Falcon
