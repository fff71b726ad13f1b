import Verif.Proofs.SigBody

/-!
# Properties C15 - C23: the signature codec
-/

namespace Falcon

theorem sigLen_eq (n : ℕ) : sigLen n = sigBytes n := rfl

theorem maxSigBuf_eq {n : ℕ} (hn : ValidLog n) : 8 * maxSigBuf n = 14 * 2 ^ n := by
  rcases hn with rfl | rfl <;> decide

/-- C15: what `compress_sig` writes. -/
theorem C15_compress_spec {n : ℕ} (hn : ValidLog n) (s : Mem Int) (sig : Mem UInt8)
    (hm : ∀ i, i < 2 ^ n → s i ≠ -2 ^ 31) (hl : (codes s (2 ^ n)).length ≤ 14 * 2 ^ n) :
    ∃ ok out, compressSigE n s sig = .ok (ok, out) ∧
      (ok = true ↔ (codes s (2 ^ n)).length < 8 * (sigBytes n - 41)) ∧
      (ok = true → ∀ i, i < 8 * (sigBytes n - 41) →
        bitAt out (328 + i) = (codes s (2 ^ n)).getD i false) ∧
      (ok = false → ∀ j, 41 ≤ j → j < sigBytes n → out j = 0) ∧
      (∀ j, j < 41 ∨ sigBytes n ≤ j → out j = sig j) := by
  have hb := sigBytes_ge n
  obtain ⟨out, h1, h2, h3⟩ := compressSigE_ok s sig hm (by rw [maxSigBuf_eq hn]; exact hl)
  rw [sigLen_eq] at h1 h2 h3
  refine ⟨_, out, h1, ?_, ?_, ?_, fun j hj => h2 j (by omega)⟩
  · rw [decide_eq_true_iff]; omega
  · intro h i hi
    rw [decide_eq_true_iff] at h
    rw [h3 i hi, if_pos h]
  · intro h j hj hj'
    rw [decide_eq_false_iff_not] at h
    have : out j = (fun _ => 0 : Mem UInt8) j := by
      apply byte_eq_of_bits
      intro t ht
      have := h3 (8 * j + t - 328) (by omega)
      rw [show 328 + (8 * j + t - 328) = 8 * j + t by omega, if_neg h] at this
      rw [this]; simp [bitAt]
    exact this

/-- A vector with large and small coefficients meets the hypotheses of `C15_compress_spec`. -/
example : let s : Mem Int := fun i => if i % 2 = 0 then -150 else 1
    (∀ i, i < 2 ^ 9 → s i ≠ -2 ^ 31) ∧ (codes s (2 ^ 9)).length ≤ 14 * 2 ^ 9 := by
  intro s
  refine ⟨fun i _ => ?_, ?_⟩
  · dsimp only [s]; split <;> norm_num
  · rw [codes_length]
    refine (Finset.sum_le_card_nsmul _ _ 14 ?_).trans_eq (by simp [mul_comm])
    intro i _
    dsimp only [s]; split <;> norm_num

/-- C16: the run of `compress_sig` is undefined exactly when a coefficient is INT_MIN or the codes
need more than 14 N bits. -/
theorem C16_compress_ub_iff {n : ℕ} (hn : ValidLog n) (s : Mem Int) (sig : Mem UInt8) :
    (∃ e, compressSigE n s sig = .error e) ↔
      (∃ i, i < 2 ^ n ∧ s i = -2 ^ 31) ∨
        14 * 2 ^ n < ∑ i ∈ Finset.range (2 ^ n), (9 + (s i).natAbs / 128) := by
  rw [← codes_length]
  constructor
  · rintro ⟨e, he⟩
    by_contra hc
    push Not at hc
    obtain ⟨ok, out, h, -⟩ := C15_compress_spec hn s sig (fun i hi => hc.1 i hi) hc.2
    rw [h] at he; cases he
  · intro h
    cases hd : compressSigE n s sig with
    | error e => exact ⟨e, rfl⟩
    | ok r =>
      obtain ⟨h1, h2⟩ := compressSigE_inv s sig hd
      rw [maxSigBuf_eq hn] at h2
      rcases h with ⟨i, hi, he⟩ | h
      · exact absurd he (h1 i hi)
      · omega

/-- The run is defined for every vector with squared norm a little above the signature bound as well. -/
theorem compress_defined_slack {n : ℕ} (hn : ValidLog n) (s : Mem Int) (sig : Mem UInt8)
    (hnorm : ∑ i ∈ Finset.range (2 ^ n), s i ^ 2 ≤ betaSq n + 1000) :
    ∃ r, compressSigE n s sig = .ok r := by
  have hone : ∀ i, i < 2 ^ n → s i ^ 2 ≤ betaSq n + 1000 := fun i hi =>
    (Finset.single_le_sum (f := fun i => s i ^ 2) (fun j _ => sq_nonneg (s j))
      (Finset.mem_range.mpr hi)).trans hnorm
  have hbeta : betaSq n ≤ 70265242 := by unfold betaSq; split <;> norm_num
  cases hd : compressSigE n s sig with
  | ok r => exact ⟨r, rfl⟩
  | error e =>
    exfalso
    rcases (C16_compress_ub_iff hn s sig).mp ⟨e, hd⟩ with ⟨i, hi, he⟩ | h
    · have := hone i hi
      rw [he] at this
      norm_num at this
      omega
    · have hk : ∀ i, ((9 + (s i).natAbs / 128 : ℕ) : ℤ) * 16384 ≤ 9 * 16384 + s i ^ 2 := by
        intro i
        have h1 : (s i).natAbs / 128 * 128 ≤ (s i).natAbs := Nat.div_mul_le_self _ _
        have h2 : (((s i).natAbs : ℕ) : ℤ) ^ 2 = s i ^ 2 := by rw [← sq_abs (s i)]; simp
        rw [← h2]
        generalize (s i).natAbs = a at *
        have h3 : (a / 128) * 128 * ((a / 128) * 128) ≤ a * a := Nat.mul_le_mul h1 h1
        have h4 : a / 128 ≤ (a / 128) * (a / 128) := Nat.le_mul_self _
        have : (9 + a / 128) * 16384 ≤ 9 * 16384 + a ^ 2 := by nlinarith
        exact_mod_cast this
      have hsum : ((∑ i ∈ Finset.range (2 ^ n), (9 + (s i).natAbs / 128) : ℕ) : ℤ) * 16384 ≤
          9 * 16384 * 2 ^ n + (betaSq n + 1000) := by
        rw [Nat.cast_sum, Finset.sum_mul]
        refine (Finset.sum_le_sum (fun i _ => hk i)).trans ?_
        rw [Finset.sum_add_distrib, Finset.sum_const, Finset.card_range]
        simp only [nsmul_eq_mul]
        push_cast
        linarith
      have h' : (14 * 2 ^ n : ℤ) < ((∑ i ∈ Finset.range (2 ^ n), (9 + (s i).natAbs / 128) : ℕ) : ℤ) := by
        exact_mod_cast h
      rcases hn with rfl | rfl
      · have hb : betaSq 9 = 34034726 := rfl
        rw [hb] at hsum
        generalize (∑ i ∈ Finset.range (2 ^ 9), (9 + (s i).natAbs / 128) : ℕ) = S at *
        clear hk hone hd hnorm
        omega
      · have hb : betaSq 10 = 70265242 := rfl
        rw [hb] at hsum
        generalize (∑ i ∈ Finset.range (2 ^ 10), (9 + (s i).natAbs / 128) : ℕ) = S at *
        clear hk hone hd hnorm
        omega

/-- C16: for every vector with squared norm at most the signature bound the run is defined. -/
theorem C16_compress_defined {n : ℕ} (hn : ValidLog n) (s : Mem Int) (sig : Mem UInt8)
    (hnorm : ∑ i ∈ Finset.range (2 ^ n), s i ^ 2 ≤ betaSq n) :
    ∃ r, compressSigE n s sig = .ok r :=
  compress_defined_slack hn s sig (by omega)

/-- Without the bound one large coefficient makes the encoder write outside its buffer. -/
example : ∃ e, compressSigE 9 (fun i => if i = 0 then 128 * 7168 else 0) (fun _ => 0) = .error e := by
  rw [C16_compress_ub_iff (Or.inl rfl)]
  right
  refine lt_of_lt_of_le ?_ (Finset.single_le_sum (fun _ _ => Nat.zero_le _)
    (Finset.mem_range.mpr (by norm_num : 0 < 2 ^ 9)))
  norm_num

/-- The bound of `C16_compress_defined` is met by non-zero vectors. -/
example : ∑ i ∈ Finset.range (2 ^ 9), (fun i => if i % 2 = 0 then -150 else (1 : ℤ)) i ^ 2 ≤ betaSq 9 := by
  refine (Finset.sum_le_card_nsmul _ _ 22500 ?_).trans (by norm_num [betaSq])
  intro i _
  dsimp only; split <;> norm_num

/-- The bits written by a successful compression. -/
theorem compress_body {n : ℕ} (hn : ValidLog n) {s : Mem Int} {sig out : Mem UInt8}
    (hc : compressSigE n s sig = .ok (true, out)) :
    328 + (codes s (2 ^ n)).length < 8 * sigLen n ∧
    ∀ i, 328 + i < 8 * sigLen n → bitAt out (328 + i) = (codes s (2 ^ n)).getD i false := by
  have hb := sigBytes_ge n
  obtain ⟨h1, h2⟩ := compressSigE_inv s sig hc
  rw [maxSigBuf_eq hn] at h2
  obtain ⟨ok, out', e1, e2, e3, -⟩ := C15_compress_spec hn s sig h1 h2
  rw [e1] at hc
  cases hc
  have := e2.mp rfl
  rw [sigLen_eq]
  exact ⟨by omega, fun i hi => e3 rfl i (by omega)⟩

/-- C17: decompression inverts compression for coefficients below 1024 in absolute value, whatever
the output buffer held before and whatever memory lies behind the signature. -/
theorem C17_roundtrip {n lim : ℕ} (hn : ValidLog n) (s poly : Mem Int) (sig out : Mem UInt8)
    (hs : ∀ i, i < 2 ^ n → |s i| ≤ 1023) (hc : compressSigE n s sig = .ok (true, out))
    (hlim : sigBytes n + 2 ≤ lim) :
    ∃ s', decompressSig n (rdArr lim out) poly = .ok (true, s') ∧ ∀ i, i < 2 ^ n → s' i = s i := by
  obtain ⟨h1, h2⟩ := compress_body hn hc
  rw [codes_eq_flat] at h1 h2
  have hbody := bodyEnd_of_flat (fun i hi => chunk_code (by have := hs i hi; rw [Int.abs_eq_natAbs] at this; omega)) h1 h2
  exact decompressSig_accept hlim poly hbody.body

/-- C18 (violation of the unrestricted round trip): with a coefficient of absolute value 1024 or more
decompression never returns the compressed vector. -/
theorem C18_roundtrip_fails {n lim : ℕ} (s s' poly : Mem Int) (sig out : Mem UInt8)
    (hs : ∃ i, i < 2 ^ n ∧ 1024 ≤ |s i|) (_hc : compressSigE n s sig = .ok (true, out))
    (hlim : sigBytes n + 2 ≤ lim) (hd : decompressSig n (rdArr lim out) poly = .ok (true, s')) :
    ∃ i, i < 2 ^ n ∧ s' i ≠ s i := by
  obtain ⟨o, -, h | h⟩ := decompressSig_exact (m := out) (n := n) (lim := lim) hlim poly
  · have he := h.1
    rw [show rdArr lim out = rdE lim out from rfl, he] at hd
    cases hd
    obtain ⟨i, hi, hi'⟩ := hs
    obtain ⟨cs, pos, -, hch, -, -⟩ := h.2
    have := (hch i hi).1.bound
    refine ⟨i, hi, fun e => ?_⟩
    rw [e] at this; rw [Int.abs_eq_natAbs] at hi'; omega
  · rw [show rdArr lim out = rdE lim out from rfl, h.1] at hd
    cases hd

/-- C18, the part that holds (missing: coefficients of absolute value 1024 and more, for which the claim
is false by `C18_roundtrip_fails`). -/
theorem C18_roundtrip_partial {n lim : ℕ} (hn : ValidLog n) (s poly : Mem Int) (sig out : Mem UInt8)
    (hc : compressSigE n s sig = .ok (true, out)) (hlim : sigBytes n + 2 ≤ lim) :
    (∃ s', decompressSig n (rdArr lim out) poly = .ok (true, s') ∧ ∀ i, i < 2 ^ n → s' i = s i) ↔
      ∀ i, i < 2 ^ n → |s i| ≤ 1023 := by
  constructor
  · rintro ⟨s', h1, h2⟩
    by_contra hx
    push Not at hx
    obtain ⟨i, hi, hi'⟩ := hx
    obtain ⟨j, hj, hj'⟩ := C18_roundtrip_fails s s' poly sig out ⟨i, hi, by omega⟩ hc hlim h1
    exact hj' (h2 j hj)
  · exact fun hs => C17_roundtrip hn s poly sig out hs hc hlim

/-- The hypotheses of `C17_roundtrip` and `C18_roundtrip_fails` can be met; in the second case
even by a vector far below the norm bound. -/
theorem C18_witness {n : ℕ} (hn : ValidLog n) (sig : Mem UInt8) (v : ℤ) (hv : |v| ≤ 1030) :
    let s : Mem Int := fun i => if i = 0 then v else 0
    (∃ out, compressSigE n s sig = .ok (true, out)) ∧
      ∑ i ∈ Finset.range (2 ^ n), s i ^ 2 ≤ betaSq n := by
  intro s
  have hpos : 0 < 2 ^ n := Nat.two_pow_pos n
  have hlen : (codes s (2 ^ n)).length = 9 * 2 ^ n + v.natAbs / 128 := by
    rw [codes_length, Finset.sum_add_distrib, Finset.sum_const, Finset.card_range, smul_eq_mul,
      Finset.sum_eq_single 0]
    · simp only [s, if_true]; ring
    · intro i _ hi; simp [s, hi]
    · intro h; simp at h
  have h8 : v.natAbs / 128 ≤ 8 := by rw [Int.abs_eq_natAbs] at hv; omega
  have hnorm : ∑ i ∈ Finset.range (2 ^ n), s i ^ 2 = v ^ 2 := by
    rw [Finset.sum_eq_single 0]
    · simp [s]
    · intro i _ hi; simp [s, hi]
    · intro h; simp at h
  have hv2 : v ^ 2 ≤ 1030 ^ 2 := by
    rw [← sq_abs]; exact pow_le_pow_left₀ (abs_nonneg v) hv 2
  refine ⟨?_, ?_⟩
  · obtain ⟨ok, out, h1, h2, -⟩ := C15_compress_spec hn s sig
      (by
        intro i _
        simp only [s]
        split
        · intro h; rw [h] at hv; norm_num at hv
        · norm_num)
      (by rw [hlen]; rcases hn with rfl | rfl <;> norm_num <;> omega)
    have : ok = true := h2.mpr (by rw [hlen]; rcases hn with rfl | rfl <;> norm_num [sigBytes] <;> omega)
    subst this
    exact ⟨out, h1⟩
  · rw [hnorm]
    refine hv2.trans ?_
    rcases hn with rfl | rfl <;> norm_num [betaSq]

example (sig : Mem UInt8) : ∃ s out, compressSigE 9 s sig = .ok (true, out) ∧
    (∃ i, i < 2 ^ 9 ∧ 1024 ≤ |s i|) :=
  let ⟨⟨out, h⟩, _⟩ := C18_witness (Or.inl rfl) sig 1024 (by norm_num)
  ⟨_, out, h, 0, by norm_num, by norm_num⟩

/-- C19, what holds: a body accepted with value `s` either equals, byte for byte, what compression of
`s` writes, or it contains a chunk of at least 25 bits for a coefficient below 128 (a unary run of
eight or more zeros). -/
theorem C19_unique_encoding_partial {n lim : ℕ} (hn : ValidLog n) (m sig : Mem UInt8) (poly s : Mem Int)
    (hlim : sigBytes n + 2 ≤ lim) (hd : decompressSig n (rdArr lim m) poly = .ok (true, s)) :
    (∃ out, compressSigE n s sig = .ok (true, out) ∧ ∀ j, 41 ≤ j → j < sigBytes n → out j = m j) ∨
    (∃ cs : ℕ → List Bool, (∀ i, i < 2 ^ n → Chunk (s i) (cs i)) ∧ Matches m 328 (flat cs (2 ^ n)) ∧
      ∃ i, i < 2 ^ n ∧ |s i| < 128 ∧ 25 ≤ (cs i).length) := by
  have hb := sigBytes_ge n
  obtain ⟨o, -, h | h⟩ := decompressSig_exact (m := m) (n := n) (lim := lim) hlim poly
  swap
  · rw [show rdArr lim m = rdE lim m from rfl, h.1] at hd
    cases hd
  have he := h.1
  rw [show rdArr lim m = rdE lim m from rfl, he] at hd
  cases hd
  obtain ⟨e, hend⟩ := BodyOf_iff.mp h.2
  have hend' : BodyEnd (sigLen n) (2 ^ n) m s e := hend
  obtain ⟨cs, c1, c2, c3⟩ := bodyEnd_flat hend'
  by_cases hl : ∃ i, i < 2 ^ n ∧ |s i| < 128 ∧ 25 ≤ (cs i).length
  · right
    refine ⟨cs, c1, Matches.getD.mpr (fun i hi => c3 i ?_), hl⟩
    have := hend'.2.1
    omega
  · left
    push Not at hl
    have hcs : ∀ i, i < 2 ^ n → cs i = codeBits (s i) := by
      intro i hi
      rcases (c1 i hi).cases_code with e | ⟨e1, e2⟩
      · exact e
      · have := hl i hi (by rw [Int.abs_eq_natAbs]; omega); omega
    rw [flat_congr hcs, ← codes_eq_flat] at c2 c3
    have hlt := hend'.2.1
    rw [sigLen_eq] at hlt c3
    obtain ⟨ok, out, h1, h2, h3, -⟩ := C15_compress_spec hn s sig
      (by
        intro i hi e
        have := (c1 i hi).bound
        rw [e] at this; norm_num at this)
      (by
        have : 8 * sigBytes n ≤ 14 * 2 ^ n := by rcases hn with rfl | rfl <;> norm_num [sigBytes]
        omega)
    have hok : ok = true := h2.mpr (by omega)
    subst hok
    refine ⟨out, h1, fun j hj hj' => ?_⟩
    apply byte_eq_of_bits
    intro t ht
    have a := h3 rfl (8 * j + t - 328) (by omega)
    have b := c3 (8 * j + t - 328) (by omega)
    rw [show 328 + (8 * j + t - 328) = 8 * j + t by omega] at a b
    rw [a, b]

theorem malleable_of_end {n lim : ℕ} (m : Mem UInt8) (poly s : Mem Int) (e : ℕ)
    (hlim : sigBytes n + 2 ≤ lim)
    (hsmall : ∃ i, i < 2 ^ n ∧ |s i| < 128) (he : e + 16 < 8 * sigBytes n)
    (hzero : BodyEnd (sigBytes n) (2 ^ n) m s e) :
    ∃ (m' : Mem UInt8) (s' : Mem Int), (∀ j, j < 41 ∨ sigBytes n ≤ j → m' j = m j) ∧
      (∃ j, 41 ≤ j ∧ j < sigBytes n ∧ m' j ≠ m j) ∧
      decompressSig n (rdArr lim m') poly = .ok (true, s') ∧ ∀ i, i < 2 ^ n → s' i = s i := by
  obtain ⟨cs, c1, rfl, c3⟩ := bodyEnd_flat hzero
  obtain ⟨i, hi, hsi⟩ := hsmall
  obtain ⟨c, l1, l2, l3⟩ := (c1 i hi).longer (by rw [Int.abs_eq_natAbs] at hsi; omega)
  have hup := flat_update cs i c (2 ^ n) hi
  obtain ⟨cs', hcs'⟩ : ∃ cs', cs' = Function.update cs i c := ⟨_, rfl⟩
  rw [← hcs'] at hup
  have hch : ∀ k, k < 2 ^ n → Chunk (s k) (cs' k) := by
    intro k hk
    by_cases ek : k = i
    · subst ek; rw [hcs', Function.update_self]; exact l1
    · rw [hcs', Function.update_of_ne ek]; exact c1 k hk
  obtain ⟨B, hB⟩ : ∃ B : Mem UInt8, B = memOfBits (fun b => (flat cs' (2 ^ n)).getD (b - 328) false) :=
    ⟨_, rfl⟩
  obtain ⟨m', hm'⟩ : ∃ m' : Mem UInt8, ∀ j, m' j = if j < 41 ∨ sigBytes n ≤ j then m j else B j :=
    ⟨fun j => if j < 41 ∨ sigBytes n ≤ j then m j else B j, fun _ => rfl⟩
  have hbits : ∀ b, 328 + b < 8 * sigBytes n → bitAt m' (328 + b) = (flat cs' (2 ^ n)).getD b false := by
    intro b hb
    have : bitAt m' (328 + b) = bitAt B (328 + b) := by
      unfold bitAt
      rw [hm', if_neg (by omega)]
    rw [this, hB, bitAt_memOfBits, Nat.add_sub_cancel_left]
  have hend' : BodyEnd (sigBytes n) (2 ^ n) m' s (328 + (flat cs' (2 ^ n)).length) :=
    bodyEnd_of_flat hch (by omega) hbits
  obtain ⟨s', d1, d2⟩ := decompressSig_accept (n := n) (lim := lim) hlim poly hend'.body
  refine ⟨m', s', ?_, ?_, d1, d2⟩
  · intro j hj; rw [hm', if_pos hj]
  · by_contra hc
    push Not at hc
    have h2 := hend'.congr (fun j h1 h2 => hc j h1 h2)
    have := bodyEnd_unique hzero h2
    omega

/-- C19 (violation, malleability): an honestly compressed vector with coefficients below 1024, one of
them below 128, whose code leaves more than 16 spare bits, has a second encoding: a different
signature with the same header and salt which decodes to the same vector. -/
theorem C19_malleable {n lim : ℕ} (hn : ValidLog n) (s poly : Mem Int) (sig out : Mem UInt8)
    (hs : ∀ i, i < 2 ^ n → |s i| ≤ 1023) (hsmall : ∃ i, i < 2 ^ n ∧ |s i| < 128)
    (hc : compressSigE n s sig = .ok (true, out))
    (hroom : (codes s (2 ^ n)).length + 16 < 8 * (sigBytes n - 41)) (hlim : sigBytes n + 2 ≤ lim) :
    ∃ (out' : Mem UInt8) (s' : Mem Int), (∀ j, j < 41 ∨ sigBytes n ≤ j → out' j = out j) ∧
      (∃ j, 41 ≤ j ∧ j < sigBytes n ∧ out' j ≠ out j) ∧
      decompressSig n (rdArr lim out') poly = .ok (true, s') ∧ ∀ i, i < 2 ^ n → s' i = s i := by
  have hb := sigBytes_ge n
  obtain ⟨h1, h2⟩ := compress_body hn hc
  rw [codes_eq_flat] at h1 h2 hroom
  have hbody := bodyEnd_of_flat
    (fun i hi => chunk_code (by have := hs i hi; rw [Int.abs_eq_natAbs] at this; omega)) h1 h2
  exact malleable_of_end out poly s _ hlim hsmall (by omega) hbody

/-- The zero vector meets the hypotheses of `C19_malleable`. -/
example (sig : Mem UInt8) : ∃ s out, compressSigE 9 s sig = .ok (true, out) ∧
    (∀ i, i < 2 ^ 9 → |s i| ≤ 1023) ∧ (∃ i, i < 2 ^ 9 ∧ |s i| < 128) ∧
    (codes s (2 ^ 9)).length + 16 < 8 * (sigBytes 9 - 41) := by
  obtain ⟨⟨out, h⟩, -⟩ := C18_witness (Or.inl rfl : ValidLog 9) sig 0 (by norm_num)
  have hz : (fun i : ℕ => if i = 0 then (0 : ℤ) else 0) = fun _ => 0 := by funext i; split <;> rfl
  rw [hz] at h
  refine ⟨_, out, h, by intros; norm_num, ⟨0, by norm_num, by norm_num⟩, ?_⟩
  rw [codes_length, Finset.sum_const, Finset.card_range]; norm_num [sigBytes]

/-- C20: exactly which strings are accepted, and that a rejected one leaves a zero vector. -/
theorem C20_accepts_iff {n lim : ℕ} (m : Mem UInt8) (poly : Mem Int) (hlim : sigBytes n + 2 ≤ lim) :
    ∃ ok out, decompressSig n (rdArr lim m) poly = .ok (ok, out) ∧
      (ok = true ↔ ∃ s, BodyOf (sigBytes n) (2 ^ n) m s) ∧
      (ok = true → BodyOf (sigBytes n) (2 ^ n) m out) ∧
      (ok = false → ∀ i, i < 2 ^ n → out i = 0) ∧
      (∀ s, BodyOf (sigBytes n) (2 ^ n) m s → ∀ i, i < 2 ^ n → out i = s i) ∧
      (∀ i, 2 ^ n ≤ i → out i = poly i) := by
  obtain ⟨out, hfr, h | h⟩ := decompressSig_exact (m := m) (n := n) (lim := lim) hlim poly
  · refine ⟨true, out, h.1, ?_, fun _ => h.2, by simp, fun s hs => BodyOf_unique h.2 hs, hfr⟩
    simp only [true_iff]; exact ⟨out, h.2⟩
  · refine ⟨false, out, h.1, ?_, by simp, fun _ => h.2.1, fun s hs => absurd hs (h.2.2 s), hfr⟩
    simp only [Bool.false_eq_true, false_iff]
    rintro ⟨s, hs⟩; exact h.2.2 s hs

/-- No chunk of the code of a coefficient is a minus zero: the sign bit of a chunk of value 0 is 0. -/
theorem C20_no_minus_zero {x : ℤ} {c : List Bool} (h : Chunk x c) : c.head? = some (decide (x < 0)) := by
  cases h with
  | short neg low k hl hk hz =>
    cases neg
    · simp [sval]; omega
    · simp [sval] at hz ⊢; omega
  | long neg low j oct last hl hz ho hne =>
    cases neg
    · simp [sval]
    · simp [sval] at hz ⊢; omega

/-- C21: flag and output are functions of the bytes 41 .. sigBytes-1. -/
theorem C21_depends_only_on_body {n lim lim' : ℕ} (m m' : Mem UInt8) (poly poly' : Mem Int)
    (hlim : sigBytes n + 2 ≤ lim) (hlim' : sigBytes n + 2 ≤ lim')
    (hm : ∀ j, 41 ≤ j → j < sigBytes n → m j = m' j) :
    ∃ ok out out', decompressSig n (rdArr lim m) poly = .ok (ok, out) ∧
      decompressSig n (rdArr lim' m') poly' = .ok (ok, out') ∧ ∀ i, i < 2 ^ n → out i = out' i := by
  obtain ⟨ok, out, a1, a2, a3, a4, a5, -⟩ := C20_accepts_iff m poly hlim
  obtain ⟨ok', out', b1, b2, b3, b4, b5, -⟩ := C20_accepts_iff m' poly' hlim'
  have hok : ok = true ↔ ok' = true := by
    rw [a2, b2]
    constructor
    · rintro ⟨s, hs⟩; exact ⟨s, hs.congr hm⟩
    · rintro ⟨s, hs⟩; exact ⟨s, hs.congr (fun j h1 h2 => (hm j h1 h2).symm)⟩
  have hok' : ok' = ok := by
    cases ok <;> cases ok' <;> simp_all
  subst hok'
  refine ⟨_, out, out', a1, b1, ?_⟩
  cases ok'
  · intro i hi; rw [a4 rfl i hi, b4 rfl i hi]
  · exact fun i hi => (a5 _ ((b3 rfl).congr (fun j h1 h2 => (hm j h1 h2).symm)) i hi)

/-- C22, what holds: with two readable bytes behind the signature no read is out of bounds. -/
theorem C22_reads_at_most_two_past {n : ℕ} (m : Mem UInt8) (poly : Mem Int) :
    ∃ r, decompressSig n (rdArr (sigBytes n + 2) m) poly = .ok r := by
  obtain ⟨ok, out, h, -⟩ := C20_accepts_iff (n := n) m poly (le_refl _)
  exact ⟨_, h⟩

/-- C22 (violation): decompression of any honestly compressed vector with coefficients below 1024 whose
code length is a multiple of eight bits reads outside the signature. -/
theorem C22_reads_past_end {n : ℕ} (hn : ValidLog n) (s poly : Mem Int) (sig out : Mem UInt8)
    (hs : ∀ i, i < 2 ^ n → |s i| ≤ 1023) (hc : compressSigE n s sig = .ok (true, out))
    (h8 : (codes s (2 ^ n)).length % 8 = 0) :
    ∃ e, decompressSig n (rdArr (sigBytes n) out) poly = .error e := by
  obtain ⟨h1, h2⟩ := compress_body hn hc
  rw [codes_eq_flat] at h1 h2 h8
  have hbody := bodyEnd_of_flat (fun i hi => chunk_code (by have := hs i hi; rw [Int.abs_eq_natAbs] at this; omega)) h1 h2
  exact decompress_strict hbody (by omega) poly

/-- C22 (violation), a concrete accepted signature: the zero vector. -/
example (sig : Mem UInt8) (poly : Mem Int) : ∃ out e, compressSigE 9 (fun _ => 0) sig = .ok (true, out) ∧
    decompressSig 9 (rdArr 666 out) poly = .error e := by
  obtain ⟨⟨out, h⟩, -⟩ := C18_witness (Or.inl rfl : ValidLog 9) sig 0 (by norm_num)
  have hz : (fun i : ℕ => if i = 0 then (0 : ℤ) else 0) = fun _ => 0 := by funext i; split <;> rfl
  rw [hz] at h
  obtain ⟨e, he⟩ := C22_reads_past_end (Or.inl rfl) _ poly sig out (by intros; norm_num) h
    (by rw [codes_length, Finset.sum_const, Finset.card_range]; norm_num)
  exact ⟨out, e, h, he⟩

/-- C23: decompressed coefficients are bounded. -/
theorem C23_bounded {n lim : ℕ} (m : Mem UInt8) (poly s : Mem Int) (ok : Bool)
    (hlim : sigBytes n + 2 ≤ lim) (hd : decompressSig n (rdArr lim m) poly = .ok (ok, s)) :
    ∀ i, i < 2 ^ n → -1023 ≤ s i ∧ s i ≤ 1023 := by
  obtain ⟨ok', out, a1, a2, a3, a4, -⟩ := C20_accepts_iff m poly hlim
  rw [a1] at hd
  cases hd
  intro i hi
  cases ok
  · rw [a4 rfl i hi]; norm_num
  · obtain ⟨cs, pos, -, hch, -, -⟩ := a3 rfl
    have := (hch i hi).1.bound
    omega

end Falcon
