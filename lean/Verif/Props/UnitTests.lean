import Verif.Model.UnitTests
import Verif.Props.Codec
import Verif.Props.SigCodec
import Verif.Props.Ntt
import Verif.Props.F64Keygen

/-!
# C103. The outcome of the unit tests of the integer part
-/

namespace Falcon

open Finset

/-- C103. Every round of the test of field arithmetic passes. -/
theorem C103_ff (a b : Ff) (ha : a.Canonical) (hb : b.Canonical) (exp : ℕ) : testFf a b exp = true := by
  have hneg := Ff.neg_spec hb
  have hadd := Ff.add_spec ha.fits hneg.1.fits
  have hsub := Ff.sub_spec ha.fits hb
  have hmul := Ff.mul_spec ha.fits hb.fits
  have hdiv := Ff.div_spec hmul.1.fits hb.fits
  have hinv := Ff.inv_spec ha.fits
  have hk := Ff.mul_spec hinv.1.fits ha.fits
  have hpow := Ff.pow_spec ha exp
  have hres : ∀ m, (loop m (fun _ res => Ff.mul res a) Ff.one).Canonical ∧
      (loop m (fun _ res => Ff.mul res a) Ff.one).val = a.val ^ m := by
    intro m
    induction m with
    | zero => exact ⟨Ff.one_spec.1, by rw [pow_zero]; exact Ff.one_spec.2⟩
    | succ m ih =>
      rw [loop_succ]
      have := Ff.mul_spec ih.1.fits ha.fits
      exact ⟨this.1, by rw [this.2, ih.2, pow_succ]⟩
  unfold testFf
  simp only [Bool.and_eq_true, Ff.beq_spec]
  refine ⟨⟨⟨?_, ?_⟩, ?_⟩, ?_⟩
  · rw [← Ff.val_eq_iff _ _ hsub.1 hadd.1, hsub.2, hadd.2, hneg.2, sub_eq_add_neg]
  · split
    · rename_i h
      rw [Ff.beq_spec, ← Ff.val_eq_iff _ _ hdiv.1 Ff.zero_spec.1, hdiv.2, h, Ff.zero_spec.2, div_zero]
    · rename_i h
      have h0 : b.val ≠ 0 := fun h0 => h ((Ff.val_eq_zero_iff hb).mp h0)
      rw [Ff.beq_spec, ← Ff.val_eq_iff _ _ hdiv.1 ha, hdiv.2, hmul.2, mul_div_cancel_right₀ _ h0]
  · split
    · rename_i h
      rw [Ff.beq_spec, ← Ff.val_eq_iff _ _ hk.1 Ff.zero_spec.1, hk.2, h, Ff.zero_spec.2, mul_zero]
    · rename_i h
      have h0 : a.val ≠ 0 := fun h0 => h ((Ff.val_eq_zero_iff ha).mp h0)
      rw [Ff.beq_spec, ← Ff.val_eq_iff _ _ hk.1 Ff.one_spec.1, hk.2, hinv.2, Ff.one_spec.2, inv_mul_cancel₀ h0]
  · rw [← Ff.val_eq_iff _ _ (hres exp).1 hpow.1, (hres exp).2, hpow.2]

example : testFf (Ff.ofU16 12288) (Ff.ofU16 0) 5 = true := C103_ff _ _ (Ff.ofU16_spec _).1 (Ff.ofU16_spec _).1 5

theorem loop_any (n : ℕ) (P : ℕ → Bool) : loop n (fun i flg => flg || P i) false = false ↔ ∀ i, i < n → P i = false := by
  induction n with
  | zero => simp
  | succ n ih =>
    rw [loop_succ, Bool.or_eq_false_iff, ih]
    constructor
    · rintro ⟨h1, h2⟩ i hi
      rcases Nat.lt_or_ge i n with h | h
      · exact h1 i h
      · have : i = n := by omega
        subst this; exact h2
    · intro h
      exact ⟨fun i hi => h i (by omega), h n (by omega)⟩

/-- C103. The test of the number theoretic transform draws again exactly when b vanishes at one of the roots of X^N + 1, and passes
otherwise. -/
theorem C103_ntt {n : ℕ} (hn : ValidLog n) (a b jc jd : Mem Ff) (ha : CanonBelow (2 ^ n) a) (hb : CanonBelow (2 ^ n) b) :
    (testNtt n a b jc jd = none ↔
      ∃ i, i < 2 ^ n ∧ ∑ j ∈ range (2 ^ n), (b j).val * (zetaQ n ^ (2 * revBits n i + 1)) ^ j = 0) ∧
    (testNtt n a b jc jd ≠ none → testNtt n a b jc jd = some false) := by
  have hz : ∀ i, i < 2 ^ n → ((ntt n b i).v ≠ 0 ↔ (ntt n b i).val ≠ 0) := by
    intro i hi
    rw [not_iff_not, Ff.val_eq_zero_iff (ntt_canon hn hb i hi)]
    constructor
    · intro h; cases hx : ntt n b i; rw [hx] at h; simp only at h; rw [h]; rfl
    · intro h; rw [h]; rfl
  have hinv : loop (1 <<< n) (fun i ok => ok && (ntt n b i).v != 0) true = true ↔ ∀ i, i < 2 ^ n → (ntt n b i).val ≠ 0 := by
    rw [loop_all, one_shiftLeft']
    refine forall_congr' fun i => imp_congr_right fun hi => ?_
    rw [bne_iff_ne]; exact hz i hi
  unfold testNtt
  simp only
  by_cases hc : loop (1 <<< n) (fun i ok => ok && (ntt n b i).v != 0) true = true
  · rw [hc]
    have hne := hinv.mp hc
    simp only [Bool.not_true, Bool.false_eq_true, if_false, reduceCtorEq, false_iff, ne_eq, not_false_eq_true, forall_const]
    refine ⟨?_, ?_⟩
    · rintro ⟨i, hi, h⟩
      exact hne i hi (by rw [(C05_ntt_eval n hn b hb i hi).2, h])
    · congr 1
      rw [loop_any, one_shiftLeft']
      intro i hi
      have hd : ∀ j, j < 2 ^ n → polyDiv n (polyMul n (ntt n a) (ntt n b) jc) (ntt n b) jd j = ntt n a j := by
        intro j hj
        have ca := ntt_canon hn ha j hj
        have cb := ntt_canon hn hb j hj
        have e1 : polyMul n (ntt n a) (ntt n b) jc j = Ff.mul (ntt n a j) (ntt n b j) := by
          unfold polyMul; rw [one_shiftLeft', loop_fill _ (fun i => Ff.mul (ntt n a i) (ntt n b i)), if_pos hj]
        have e2 : polyDiv n (polyMul n (ntt n a) (ntt n b) jc) (ntt n b) jd j = Ff.div (Ff.mul (ntt n a j) (ntt n b j)) (ntt n b j) := by
          unfold polyDiv
          rw [one_shiftLeft', loop_fill _ (fun i => Ff.div (polyMul n (ntt n a) (ntt n b) jc i) (ntt n b i)), if_pos hj, e1]
        have hm := Ff.mul_spec ca.fits cb.fits
        have hv := Ff.div_spec hm.1.fits cb.fits
        rw [e2, ← Ff.val_eq_iff _ _ hv.1 ca, hv.2, hm.2, mul_div_cancel_right₀ _ (hne j hj)]
      have hcan : CanonBelow (2 ^ n) (polyDiv n (polyMul n (ntt n a) (ntt n b) jc) (ntt n b) jd) := fun j hj => by
        rw [hd j hj]; exact ntt_canon hn ha j hj
      have s1 := intt_spec hn hcan (A := fun j => (ntt n a j).val) (fun j hj => by rw [hd j hj]) i hi
      have s2 := intt_spec hn (ntt_canon hn ha) (A := fun j => (ntt n a j).val) (fun j hj => rfl) i hi
      have he : intt n (polyDiv n (polyMul n (ntt n a) (ntt n b) jc) (ntt n b) jd) i = a i := by
        rw [← (C06_ntt_inverse n hn a ha i hi).1, ← Ff.val_eq_iff _ _ s1.1 s2.1, s1.2, s2.2]
      rw [he]
      simp
  · rw [Bool.not_eq_true] at hc
    rw [hc]
    simp only [Bool.not_false, if_true, true_iff, ne_eq, not_true, false_imp_iff, and_true]
    by_contra hx
    push Not at hx
    have : ∀ i, i < 2 ^ n → (ntt n b i).val ≠ 0 := fun i hi => by
      rw [(C05_ntt_eval n hn b hb i hi).2]; exact hx i hi
    rw [hinv.mpr this] at hc
    cases hc

/-- C103. The test of the encoding of public keys passes. -/
theorem C103_pkey {n : ℕ} (hn : ValidLog n) (h h_ : Mem Ff) (pk : Mem UInt8) (hh : CanonBelow (2 ^ n) h) :
    testEncodingPkey n h h_ pk = (true, true) := by
  have r := C09_pkey_roundtrip hn h h_ pk hh.fits
  unfold testEncodingPkey
  simp only
  rw [r.1, Prod.mk.injEq]
  refine ⟨rfl, ?_⟩
  rw [loop_all, one_shiftLeft']
  intro i hi
  rw [Ff.beq_spec, r.2.1 i hi]

/-- C103. The test of the encoding of secret keys passes exactly for keys in the range of the format; its first flag says nothing. -/
theorem C103_skey {n : ℕ} (hn : ValidLog n) (s : Ntru) (k_ : FgF) (sk : Mem UInt8) :
    (testEncodingSkey n s k_ sk).1 = true ∧ ((testEncodingSkey n s k_ sk).2 = true ↔ SkInRange n s.f s.g s.F) := by
  unfold testEncodingSkey
  simp only
  constructor
  · rcases hn with rfl | rfl
    · rw [decodeSkey_nine]
      rw [encodeSkey_nine]; exact (encGen_spec codec6 128 512 0x59 _ _ _ sk).1
    · rw [decodeSkey_ten]
      rw [encodeSkey_ten]; exact (encGen_spec codec5 128 1024 0x5a _ _ _ sk).1
  · rw [← C14_skey_survives_iff hn s.f s.g s.F sk k_]
    simp only [Bool.and_assoc]
    rw [loop_all, one_shiftLeft']
    refine forall_congr' fun i => imp_congr_right fun hi => ?_
    simp only [Bool.and_eq_true, beq_iff_eq]
    constructor
    · rintro ⟨a, b, c⟩; exact ⟨a.symm, b.symm, c.symm⟩
    · rintro ⟨a, b, c⟩; exact ⟨a.symm, b.symm, c.symm⟩

/-- C103, violation: a run of `ntru_gen` on IEEE 754 data returns a key for which the test fails. -/
theorem C103_skey_fails (b : Bool) (rm : F64.Recover) (k_ : FgF) (sk : Mem UInt8) : ∃ stream s pos,
    ntruGen (redQuot (f64A b rm F64.keepNan)) (gsTooBig (f64A b rm F64.keepNan) 9) false 9 stream 3 1 zeroNtru 0 = some (.ok (s, pos)) ∧
    testEncodingSkey 9 s k_ sk = (true, false) := by
  obtain ⟨stream, s, pos, h, hs⟩ := const_run_of (const_quot64 b rm F64.keepNan) (const_gs64 b rm F64.keepNan)
  refine ⟨stream, s, pos, h, ?_⟩
  obtain ⟨h1, h2⟩ := C103_skey (Or.inl rfl : ValidLog 9) s k_ sk
  have h3 : (testEncodingSkey 9 s k_ sk).2 = false := by
    rw [← Bool.not_eq_true, h2]
    intro hr
    have := (hr 0 (by norm_num)).2.1.1
    rw [(hs 0 (by norm_num)).2.1] at this
    norm_num [constMem, skBits] at this
  exact Prod.ext h1 h3

theorem flat_ge_codes {N : ℕ} {s : ℕ → ℤ} {cs : ℕ → List Bool} (h : ∀ i, i < N → Chunk (s i) (cs i)) :
    (codes s N).length ≤ (flat cs N).length := by
  rw [codes_eq_flat]
  induction N with
  | zero => exact le_rfl
  | succ N ih =>
    rw [flat, flat, List.length_append, List.length_append]
    have h1 := ih (fun i hi => h i (by omega))
    have h2 : (codeBits (s N)).length ≤ (cs N).length := by
      rcases (h N (by omega)).cases_code with e | ⟨e1, e2⟩
      · rw [e]
      · rw [codeBits_length]; omega
    omega

/-- C103. The test of compression, once a polynomial can be compressed: with two readable bytes behind the array it passes exactly when
all coefficients are below 1024. -/
theorem C103_compression {n : ℕ} (hn : ValidLog n) {slack : ℕ} (hl : 2 ≤ slack) (s d : Mem Int) (sig out : Mem UInt8)
    (hc : compressSigE n s sig = .ok (true, out)) :
    ∃ r, testSigCompression n slack s d sig = .ok (some r) ∧ (r = (true, true) ↔ ∀ i, i < 2 ^ n → |s i| ≤ 1023) := by
  have hlim : sigBytes n + 2 ≤ sigLen n + slack := by rw [sigLen_eq]; omega
  obtain ⟨ok, o, h, -⟩ := C20_accepts_iff (n := n) out d hlim
  unfold testSigCompression
  rw [hc, Except.bind]
  simp only [Bool.not_true, Bool.false_eq_true, if_false]
  rw [h, Except.bind]
  refine ⟨_, rfl, ?_⟩
  rw [← C18_roundtrip_partial hn s d sig out hc hlim, h, Prod.mk.injEq, loop_all, one_shiftLeft']
  simp only [beq_iff_eq, Except.ok.injEq, Prod.mk.injEq]
  constructor
  · rintro ⟨h1, h2⟩; exact ⟨o, ⟨h1, rfl⟩, fun i hi => (h2 i hi).symm⟩
  · rintro ⟨s', ⟨h1, rfl⟩, h2⟩; exact ⟨h1, fun i hi => (h2 i hi).symm⟩

/-- C103, violation: on the array as allocated the test reads out of bounds whenever the code length is a multiple of eight bits. -/
theorem C103_compression_ub {n : ℕ} (hn : ValidLog n) (s d : Mem Int) (sig out : Mem UInt8)
    (hs : ∀ i, i < 2 ^ n → |s i| ≤ 1023) (hc : compressSigE n s sig = .ok (true, out)) (h8 : (codes s (2 ^ n)).length % 8 = 0) :
    ∃ e, testSigCompression n 0 s d sig = .error e := by
  obtain ⟨e, h⟩ := C22_reads_past_end hn s d sig out hs hc h8
  unfold testSigCompression
  rw [hc, Except.bind]
  simp only [Bool.not_true, Bool.false_eq_true, if_false]
  rw [Nat.add_zero, sigLen_eq, h]
  exact ⟨e, rfl⟩

/-- C103. The test of decompression on arbitrary bytes: what is decompressed is compressed again without undefined behaviour and fits,
and the bytes are the same unless a coefficient below 128 was coded with at least 25 bits. -/
theorem C103_decompression {n : ℕ} (hn : ValidLog n) {slack : ℕ} (hl : 2 ≤ slack) (sig0 sig1 : Mem UInt8) (s2 : Mem Int) :
    (testSigDecompression n slack sig0 sig1 s2 = .ok none ∧ ¬ ∃ s, BodyOf (sigBytes n) (2 ^ n) sig0 s) ∨
    (∃ s m, BodyOf (sigBytes n) (2 ^ n) sig0 s ∧ testSigDecompression n slack sig0 sig1 s2 = .ok (some (true, m)) ∧
      (m = true ∨ ∃ cs : ℕ → List Bool, (∀ i, i < 2 ^ n → Chunk (s i) (cs i)) ∧ Matches sig0 328 (flat cs (2 ^ n)) ∧
        ∃ i, i < 2 ^ n ∧ |s i| < 128 ∧ 25 ≤ (cs i).length)) := by
  have hlim : sigBytes n + 2 ≤ sigLen n + slack := by rw [sigLen_eq]; omega
  obtain ⟨ok, o, h, h1, h2, -⟩ := C20_accepts_iff (n := n) sig0 s2 hlim
  unfold testSigDecompression
  rw [h, Except.bind]
  cases ok
  · left
    refine ⟨rfl, fun hx => ?_⟩
    have := h1.mpr hx
    cases this
  · right
    simp only [Bool.not_true, Bool.false_eq_true, if_false]
    have hbody := h2 rfl
    obtain ⟨e, hend⟩ := BodyOf_iff.mp hbody
    have hend' : BodyEnd (sigLen n) (2 ^ n) sig0 o e := hend
    obtain ⟨cs, c1, c2, -⟩ := bodyEnd_flat hend'
    have hlen := flat_ge_codes c1
    have hlt := hend'.2.1
    rw [sigLen_eq] at hlt
    obtain ⟨ok, out, k1, k2, -⟩ := C15_compress_spec hn o sig1
      (by
        intro i hi e
        have := (c1 i hi).bound
        rw [e] at this; norm_num at this)
      (by
        have : 8 * sigBytes n ≤ 14 * 2 ^ n := by rcases hn with rfl | rfl <;> norm_num [sigBytes]
        omega)
    have hok : ok = true := k2.mpr (by omega)
    subst hok
    refine ⟨o, _, hbody, by rw [k1]; rfl, ?_⟩
    rcases C19_unique_encoding_partial hn sig0 sig1 s2 o hlim h with ⟨out', q1, q2⟩ | hx
    · left
      rw [k1] at q1
      cases q1
      rw [loop_all]
      intro i hi
      rw [sigLen_eq] at hi
      rw [beq_iff_eq]; exact (q2 (41 + i) (by omega) (by omega)).symm
    · exact Or.inr hx

/-- C103, violation: for some bytes the test of decompression fails. -/
theorem C103_decompression_fails {n : ℕ} (hn : ValidLog n) {slack : ℕ} (hl : 2 ≤ slack) (sig1 : Mem UInt8) (s2 : Mem Int) :
    ∃ sig0, testSigDecompression n slack sig0 sig1 s2 = .ok (some (true, false)) := by
  have hlim : sigBytes n + 2 ≤ sigLen n + slack := by rw [sigLen_eq]; omega
  obtain ⟨⟨out, hz⟩, -⟩ := C18_witness hn sig1 0 (by norm_num)
  have he : (fun i : ℕ => if i = 0 then (0 : ℤ) else 0) = fun _ => 0 := by funext i; split <;> rfl
  rw [he] at hz
  have hlen : ∀ s : Mem Int, (∀ i, i < 2 ^ n → s i = 0) → codes s (2 ^ n) = codes (fun _ => 0) (2 ^ n) := fun s hs => by
    rw [codes_eq_flat, codes_eq_flat]; exact flat_congr (fun i hi => by rw [hs i hi])
  have h9 : (codes (fun _ => 0) (2 ^ n)).length = 9 * 2 ^ n := by
    rw [codes_length, Finset.sum_const, Finset.card_range, smul_eq_mul]; norm_num; ring
  obtain ⟨m, s', m1, ⟨j, hj1, hj2, hj⟩, m2, m3⟩ := C19_malleable hn (fun _ => 0) s2 sig1 out (by intros; norm_num)
    ⟨0, Nat.two_pow_pos n, by norm_num⟩ hz (by rw [h9]; rcases hn with rfl | rfl <;> norm_num [sigBytes]) hlim
  refine ⟨m, ?_⟩
  obtain ⟨ok, out', k1, k2, k3, -, -⟩ := C15_compress_spec hn s' sig1
    (by intro i hi; rw [m3 i hi]; norm_num) (by rw [hlen s' m3, h9]; omega)
  have hok : ok = true := k2.mpr (by rw [hlen s' m3, h9]; rcases hn with rfl | rfl <;> norm_num [sigBytes])
  subst hok
  obtain ⟨b1, b2⟩ := compress_body hn hz
  have hb := sigBytes_ge n
  have hbytes : out' j = out j := by
    apply byte_eq_of_bits
    intro t ht
    have a := k3 rfl (8 * j + t - 328) (by omega)
    have b := b2 (8 * j + t - 328) (by rw [sigLen_eq]; omega)
    rw [show 328 + (8 * j + t - 328) = 8 * j + t by omega] at a b
    rw [a, b, hlen s' m3]
  unfold testSigDecompression
  rw [m2, Except.bind]
  simp only [Bool.not_true, Bool.false_eq_true, if_false]
  rw [k1, Except.bind]
  simp only [Except.ok.injEq, Option.some.injEq, Prod.mk.injEq, true_and]
  rw [← Bool.not_eq_true, loop_all]
  intro hall
  have := hall (j - 41) (by rw [sigLen_eq]; omega)
  rw [beq_iff_eq, show 41 + (j - 41) = j by omega, hbytes] at this
  exact hj this

/-- C103, violation: for some bytes the test of decompression reads out of bounds of the array as allocated. -/
theorem C103_decompression_ub {n : ℕ} (hn : ValidLog n) (sig1 : Mem UInt8) (s2 : Mem Int) :
    ∃ sig0 e, testSigDecompression n 0 sig0 sig1 s2 = .error e := by
  obtain ⟨⟨out, hz⟩, -⟩ := C18_witness hn sig1 0 (by norm_num)
  have he : (fun i : ℕ => if i = 0 then (0 : ℤ) else 0) = fun _ => 0 := by funext i; split <;> rfl
  rw [he] at hz
  have h9 : (codes (fun _ => 0) (2 ^ n)).length = 9 * 2 ^ n := by
    rw [codes_length, Finset.sum_const, Finset.card_range, smul_eq_mul]; norm_num; ring
  obtain ⟨e, h⟩ := C22_reads_past_end hn (fun _ => 0) s2 sig1 out (by intros; norm_num) hz
    (by rw [h9]; rcases hn with rfl | rfl <;> norm_num)
  refine ⟨out, e, ?_⟩
  unfold testSigDecompression
  rw [Nat.add_zero, sigLen_eq, h]
  rfl

/-- The hypotheses of `C103_compression` and `C103_compression_ub` are met by the zero vector. -/
example (sig : Mem UInt8) (d : Mem Int) : (∃ r, testSigCompression 9 2 (fun _ => 0) d sig = .ok (some r) ∧ r = (true, true)) ∧
    ∃ e, testSigCompression 9 0 (fun _ => 0) d sig = .error e := by
  obtain ⟨⟨out, h⟩, -⟩ := C18_witness (Or.inl rfl : ValidLog 9) sig 0 (by norm_num)
  have hz : (fun i : ℕ => if i = 0 then (0 : ℤ) else 0) = fun _ => 0 := by funext i; split <;> rfl
  rw [hz] at h
  constructor
  · obtain ⟨r, h1, h2⟩ := C103_compression (Or.inl rfl) le_rfl _ d sig out h
    exact ⟨r, h1, h2.mpr (by intros; norm_num)⟩
  · refine C103_compression_ub (Or.inl rfl) _ d sig out (by intros; norm_num) h ?_
    rw [codes_length, Finset.sum_const, Finset.card_range]; norm_num

/-- Polynomials for which the test of the transform draws again and for which it passes. -/
example : testNtt 9 (fun _ => Ff.one) (fun _ => Ff.zero) (fun _ => Ff.zero) (fun _ => Ff.zero) = none :=
  (C103_ntt (Or.inl rfl) _ _ _ _ (fun _ _ => Ff.one_spec.1) (fun _ _ => Ff.zero_spec.1)).1.mpr
    ⟨0, by norm_num, by simp only [Ff.zero_spec.2, zero_mul, Finset.sum_const_zero]⟩

example : testNtt 9 (fun i => Ff.ofU16 (UInt16.ofNat i)) (fun i => if i = 0 then Ff.one else Ff.zero) (fun _ => Ff.zero)
    (fun _ => Ff.zero) = some false := by
  have hb : CanonBelow (2 ^ 9) (fun i => if i = 0 then Ff.one else Ff.zero) := fun i _ => by
    dsimp only; split
    · exact Ff.one_spec.1
    · exact Ff.zero_spec.1
  obtain ⟨h1, h2⟩ := C103_ntt (Or.inl rfl : ValidLog 9) (fun i => Ff.ofU16 (UInt16.ofNat i)) _ (fun _ => Ff.zero) (fun _ => Ff.zero)
    (fun _ _ => (Ff.ofU16_spec _).1) hb
  apply h2
  rw [ne_eq, h1]
  rintro ⟨i, -, h⟩
  rw [Finset.sum_eq_single 0] at h
  · rw [if_pos rfl, Ff.one_spec.2, pow_zero, mul_one] at h
    exact one_ne_zero h
  · intro j _ hj; rw [if_neg hj, Ff.zero_spec.2, zero_mul]
  · intro h0; exact absurd (Finset.mem_range.mpr (by norm_num)) h0

end Falcon
