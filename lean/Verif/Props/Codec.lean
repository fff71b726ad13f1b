import Verif.Proofs.Codec

/-!
# Properties C09, C10, C12, C13, C14, C59: the key codecs

`skBound n` is half of the encodable range of a coefficient of f or g.
-/

namespace Falcon

/-- Coefficients of f and g fit their fields, coefficients of F fit a byte. -/
def SkInRange (n : ℕ) (f g F : Mem Int) : Prop :=
  ∀ i, i < 2 ^ n → (-2 ^ (skBits n - 1) ≤ f i ∧ f i < 2 ^ (skBits n - 1)) ∧
    (-2 ^ (skBits n - 1) ≤ g i ∧ g i < 2 ^ (skBits n - 1)) ∧ (-128 ≤ F i ∧ F i ≤ 127)

/-- C09: decoding an encoded public key gives back the polynomial, for all coefficients below 2^14;
the encoder writes the header and the documented number of bytes, nothing beyond; the decoder writes
N coefficients, nothing beyond. -/
theorem C09_pkey_roundtrip {n : ℕ} (hn : ValidLog n) (h h' : Mem Ff) (pk : Mem UInt8)
    (hh : FitsBelow (2 ^ n) h) :
    let enc := encodePkey n h pk
    (decodePkey n enc h').1 = true ∧
    (∀ i, i < 2 ^ n → (decodePkey n enc h').2 i = h i) ∧
    (∀ i, 2 ^ n ≤ i → (decodePkey n enc h').2 i = h' i) ∧
    (enc 0).toNat = n ∧ pkeyLen n = pkBytes n ∧ (∀ j, pkBytes n ≤ j → enc j = pk j) := by
  intro enc
  obtain ⟨c, c1, c2, c3, c4, c5⟩ := pk_counts hn
  obtain ⟨e0, e1, e2⟩ := encodePkey_spec c1 h pk
  obtain ⟨d0, d1, d2⟩ := decodePkey_spec c2 enc h' e0
  have hlen : pkeyLen n = pkBytes n := by rcases hn with rfl | rfl <;> decide
  refine ⟨d0, ?_, ?_, ?_, hlen, ?_⟩
  · intro i hi
    obtain ⟨b, r, hb, hr, rfl⟩ := eq_block (off := 0) (s := 4) (by norm_num) (Nat.zero_le i)
      (by omega : i < 0 + 4 * c)
    have hx := fun i (hi : i < 4) => hh (4 * b + i) (by omega)
    have hrt := pk_roundtrip_block (h (4 * b)).v (h (4 * b + 1)).v (h (4 * b + 2)).v (h (4 * b + 3)).v
      (hx 0 (by norm_num)) (hx 1 (by norm_num)) (hx 2 (by norm_num)) (hx 3 (by norm_num))
    rw [zero_add, d1 b hb r hr]
    have hp : ∀ r, r < 7 → enc (1 + 7 * b + r) = _ := e1 b hb
    have hc : pkCoeff (fun i => enc (1 + 7 * b + i)) r = pkCoeff (pkByte (h (4 * b)).v
        (h (4 * b + 1)).v (h (4 * b + 2)).v (h (4 * b + 3)).v) r := by
      have q0 := hp 0 (by norm_num); have q1 := hp 1 (by norm_num); have q2 := hp 2 (by norm_num)
      have q3 := hp 3 (by norm_num); have q4 := hp 4 (by norm_num); have q5 := hp 5 (by norm_num)
      have q6 := hp 6 (by norm_num)
      interval_cases r <;> simp only [pkCoeff, q0, q1, q2, q3, q4, q5, q6]
    rw [hc]
    interval_cases r
    · rw [hrt.1]; rfl
    · rw [hrt.2.1]
    · rw [hrt.2.2.1]
    · rw [hrt.2.2.2]
  · intro i hi; exact d2 i (by omega)
  · show (encodePkey n h pk 0).toNat = n
    rw [e0]; rcases hn with rfl | rfl <;> rfl
  · intro j hj; exact e2 j (by omega)

/-- The hypothesis of `C09_pkey_roundtrip` is met by a polynomial with different coefficients, some
of them above q. -/
example : FitsBelow (2 ^ 9) (fun i => ⟨UInt16.ofNat (i * 32)⟩) := by
  intro j hj
  simp only [Ff.Fits14, UInt16.toNat_ofNat']
  omega

/-- C10: public key decoding fails, with an all-zero polynomial, iff the header byte is wrong;
otherwise re-encoding reproduces the accepted bytes. -/
theorem C10_pkey_decode {n : ℕ} (hn : ValidLog n) (pk pk' : Mem UInt8) (h : Mem Ff) :
    let r := decodePkey n pk h
    (r.1 = false ↔ (pk 0).toNat ≠ n) ∧
    (r.1 = false → ∀ i, i < 2 ^ n → (r.2 i).v = 0) ∧
    (r.1 = true → FitsBelow (2 ^ n) r.2 ∧ ∀ j, j < pkBytes n → encodePkey n r.2 pk' j = pk j) ∧
    (∀ i, 2 ^ n ≤ i → r.2 i = h i) := by
  intro r
  have hhdr : pk 0 = UInt8.ofNat n ↔ (pk 0).toNat = n := by
    rw [← UInt8.toNat_inj]
    rcases hn with rfl | rfl <;> rfl
  obtain ⟨c, c1, c2, c3, c4, c5⟩ := pk_counts hn
  have hlen : pkeyLen n = pkBytes n := by rcases hn with rfl | rfl <;> decide
  by_cases h0 : pk 0 = UInt8.ofNat n
  · obtain ⟨d0, d1, d2⟩ := decodePkey_spec c2 pk h h0
    have d0' : r.1 = true := d0
    refine ⟨?_, ?_, ?_, fun i hi => d2 i (by omega)⟩
    · rw [d0']; simpa using hhdr.mp h0
    · rw [d0']; simp
    · intro _
      have hfit : FitsBelow (2 ^ n) r.2 := by
        intro i hi
        obtain ⟨b, k, hb, hk, rfl⟩ := eq_block (off := 0) (s := 4) (by norm_num) (Nat.zero_le i)
          (by omega : i < 0 + 4 * c)
        rw [zero_add]
        show ((decodePkey n pk h).2 (4 * b + k)).v.toNat < 2 ^ 14
        rw [d1 b hb k hk, show (2 : ℕ) ^ 14 = 16384 from rfl]
        have hlt := pkCoeff_lt (fun i => pk (1 + 7 * b + i)) k hk
        exact hlt
      refine ⟨hfit, ?_⟩
      intro j hj
      obtain ⟨e0, e1, -⟩ := encodePkey_spec c1 (decodePkey n pk h).2 pk'
      show encodePkey n (decodePkey n pk h).2 pk' j = pk j
      by_cases hj0 : j = 0
      · subst hj0; rw [e0, h0]
      · obtain ⟨b, k, hb, hk, rfl⟩ := eq_block (off := 1) (s := 7) (by norm_num)
          (by omega : 1 ≤ j) (by omega : j < 1 + 7 * c)
        rw [e1 b hb k hk]
        have q0 := d1 b hb 0 (by norm_num); have q1 := d1 b hb 1 (by norm_num)
        have q2 := d1 b hb 2 (by norm_num); have q3 := d1 b hb 3 (by norm_num)
        rw [add_zero] at q0
        rw [q0, q1, q2, q3]
        exact pk_roundtrip_bytes (fun i => pk (1 + 7 * b + i)) k hk
  · obtain ⟨d0, d1, d2⟩ := decodePkey_reject pk h h0
    have d0' : r.1 = false := d0
    refine ⟨?_, ?_, ?_, d2⟩
    · rw [d0']; simpa using fun h' => h0 (hhdr.mpr h')
    · intro _ i hi
      show ((decodePkey n pk h).2 i).v = 0
      rw [d1 i hi]; rfl
    · rw [d0']; simp

/-- Both outcomes occur. -/
example : (decodePkey 9 (fun _ => 9) (fun _ => Ff.zero)).1 = true ∧
    (decodePkey 9 (fun _ => 10) (fun _ => Ff.zero)).1 = false :=
  ⟨(decodePkey_spec rfl _ _ rfl).1, (decodePkey_reject _ _ (by decide)).1⟩

/-- C59 (public key): the payload, read as one little-endian number, is the base 2^14 number whose
digits are the coefficients. -/
theorem C59_pkey_layout {n : ℕ} (hn : ValidLog n) (h : Mem Ff) (pk : Mem UInt8)
    (hh : FitsBelow (2 ^ n) h) :
    ∑ j ∈ Finset.range (pkBytes n - 1), (encodePkey n h pk (1 + j)).toNat * 256 ^ j =
      ∑ i ∈ Finset.range (2 ^ n), (h i).v.toNat * (2 ^ 14) ^ i := by
  obtain ⟨c, c1, c2, c3, c4, c5⟩ := pk_counts hn
  have hlen : pkeyLen n = pkBytes n := by rcases hn with rfl | rfl <;> decide
  obtain ⟨-, e1, -⟩ := encodePkey_spec c1 h pk
  have : pkBytes n - 1 = 7 * c := by omega
  rw [this, c4]
  apply block_sum 256 (2 ^ 14) 7 4 (by norm_num) (fun j => (encodePkey n h pk (1 + j)).toNat)
    (fun i => (h i).v.toNat)
  intro b hb
  have hx := fun i (hi : i < 4) => hh (4 * b + i) (by omega)
  have key := pk_block_sum (h (4 * b)).v (h (4 * b + 1)).v (h (4 * b + 2)).v (h (4 * b + 3)).v
      (hx 0 (by norm_num)) (hx 1 (by norm_num)) (hx 2 (by norm_num)) (hx 3 (by norm_num))
  rw [Finset.sum_congr rfl (g := fun r => (pkByte (h (4 * b)).v (h (4 * b + 1)).v (h (4 * b + 2)).v
    (h (4 * b + 3)).v r).toNat * 256 ^ r), key]
  · simp [Finset.sum_range_succ]
  · intro r hr
    rw [← e1 b hb r (Finset.mem_range.mp hr), add_assoc]

/-- C12: within the encodable range, decoding an encoded secret key gives back f, g and F; the
encoder writes the header and the documented number of bytes, nothing beyond. -/
theorem C12_skey_roundtrip {n : ℕ} (hn : ValidLog n) (f g F : Mem Int) (sk : Mem UInt8) (o : FgF)
    (hr : SkInRange n f g F) :
    let enc := encodeSkey n f g F sk
    (decodeSkey n enc o).1 = true ∧
    (∀ i, i < 2 ^ n → (decodeSkey n enc o).2.f i = f i ∧ (decodeSkey n enc o).2.g i = g i ∧
      (decodeSkey n enc o).2.F i = F i) ∧
    (enc 0).toNat = 0x50 + n ∧ skeyLen n = skBytes n ∧ (∀ j, skBytes n ≤ j → enc j = sk j) := by
  intro enc
  rcases hn with rfl | rfl
  · have hs := encGen_spec codec6 128 512 0x59 f g F sk
    have e0 : enc 0 = 0x59 := by
      show encodeSkey 9 f g F sk 0 = _
      rw [encodeSkey_nine]; exact hs.1
    rw [decodeSkey_nine enc o e0]
    refine ⟨rfl, ?_, by rw [e0]; decide, by decide, ?_⟩
    · intro i hi
      have := skGen_roundtrip codec6 128 0x59 f g F sk o
        (fun i hi => by have := hr i hi; simpa [skBits] using this.1)
        (fun i hi => by have := hr i hi; simpa [skBits] using this.2.1)
        (fun i hi => by have := (hr i hi).2.2; omega) i hi
      show (decGen decode6 4 3 128 512 (encodeSkey 9 f g F sk) o).f i = f i ∧
        (decGen decode6 4 3 128 512 (encodeSkey 9 f g F sk) o).g i = g i ∧
        (decGen decode6 4 3 128 512 (encodeSkey 9 f g F sk) o).F i = F i
      rw [encodeSkey_nine]; exact this
    · intro j hj
      show encodeSkey 9 f g F sk j = _
      rw [encodeSkey_nine]; exact hs.2.2.2.2 j hj
  · have hs := encGen_spec codec5 128 1024 0x5a f g F sk
    have e0 : enc 0 = 0x5a := by
      show encodeSkey 10 f g F sk 0 = _
      rw [encodeSkey_ten]; exact hs.1
    rw [decodeSkey_ten enc o e0]
    refine ⟨rfl, ?_, by rw [e0]; decide, by decide, ?_⟩
    · intro i hi
      have := skGen_roundtrip codec5 128 0x5a f g F sk o
        (fun i hi => by have := hr i hi; simpa [skBits] using this.1)
        (fun i hi => by have := hr i hi; simpa [skBits] using this.2.1)
        (fun i hi => by have := (hr i hi).2.2; omega) i hi
      show (decGen decode5 8 5 128 1024 (encodeSkey 10 f g F sk) o).f i = f i ∧
        (decGen decode5 8 5 128 1024 (encodeSkey 10 f g F sk) o).g i = g i ∧
        (decGen decode5 8 5 128 1024 (encodeSkey 10 f g F sk) o).F i = F i
      rw [encodeSkey_ten]; exact this
    · intro j hj
      show encodeSkey 10 f g F sk j = _
      rw [encodeSkey_ten]; exact hs.2.2.2.2 j hj

/-- The hypothesis of `C12_skey_roundtrip` is met by polynomials taking both extreme values. -/
example : SkInRange 9 (fun i => if i % 2 = 0 then -32 else 31) (fun i => (i % 64 : ℕ) - 32)
    (fun i => (i % 256 : ℕ) - 128) := by
  intro i _
  simp only [skBits, if_true]
  refine ⟨?_, ?_, ?_⟩
  · split <;> norm_num
  · omega
  · omega

/-- C13: secret key decoding fails, with all-zero polynomials, iff the header byte is wrong; otherwise
its outputs are in range and re-encoding them reproduces the accepted bytes. -/
theorem C13_skey_decode {n : ℕ} (hn : ValidLog n) (sk sk' : Mem UInt8) (o : FgF) :
    let r := decodeSkey n sk o
    (r.1 = false ↔ (sk 0).toNat ≠ 0x50 + n) ∧
    (r.1 = false → ∀ i, i < 2 ^ n → r.2.f i = 0 ∧ r.2.g i = 0 ∧ r.2.F i = 0) ∧
    (r.1 = true → SkInRange n r.2.f r.2.g r.2.F ∧
      ∀ j, j < skBytes n → encodeSkey n r.2.f r.2.g r.2.F sk' j = sk j) := by
  intro r
  have hhdr : sk 0 = 0x50 ||| UInt8.ofNat n ↔ (sk 0).toNat = 0x50 + n := by
    rw [← UInt8.toNat_inj]
    rcases hn with rfl | rfl <;> rfl
  by_cases h0 : sk 0 = 0x50 ||| UInt8.ofNat n
  · rcases hn with rfl | rfl
    · have hr : r = (true, decGen decode6 4 3 128 512 sk o) := decodeSkey_nine sk o h0
      rw [hr]
      refine ⟨by simpa using hhdr.mp h0, by simp, fun _ => ⟨?_, ?_⟩⟩
      · intro i hi
        have := skGen_range codec6 128 sk o i hi
        refine ⟨by simpa [skBits] using this.1, by simpa [skBits] using this.2.1, ?_⟩
        have := this.2.2
        show -128 ≤ (decGen decode6 4 3 128 512 sk o).F i ∧ (decGen decode6 4 3 128 512 sk o).F i ≤ 127
        exact ⟨this.1, Int.le_of_lt_add_one this.2⟩
      · intro j hj
        have := skGen_reencode codec6 128 sk sk' o j hj
        rw [encodeSkey_nine]
        rw [show sk 0 = 0x59 from h0] at this
        exact this
    · have hr : r = (true, decGen decode5 8 5 128 1024 sk o) := decodeSkey_ten sk o h0
      rw [hr]
      refine ⟨by simpa using hhdr.mp h0, by simp, fun _ => ⟨?_, ?_⟩⟩
      · intro i hi
        have := skGen_range codec5 128 sk o i hi
        refine ⟨by simpa [skBits] using this.1, by simpa [skBits] using this.2.1, ?_⟩
        have := this.2.2
        show -128 ≤ (decGen decode5 8 5 128 1024 sk o).F i ∧ (decGen decode5 8 5 128 1024 sk o).F i ≤ 127
        exact ⟨this.1, Int.le_of_lt_add_one this.2⟩
      · intro j hj
        have := skGen_reencode codec5 128 sk sk' o j hj
        rw [encodeSkey_ten]
        rw [show sk 0 = 0x5a from h0] at this
        exact this
  · have hz : ∀ (a : Mem Int) i, i < 2 ^ n → loop (1 <<< n) (fun i a => upd a i 0) a i = 0 := by
      intro a i hi
      have := loop_fill (1 <<< n) (fun _ => (0 : Int)) a i
      rw [this, one_shiftLeft', if_pos hi]
    have hr1 : r.1 = false := by
      show (decodeSkey n sk o).1 = false
      unfold decodeSkey; rw [if_pos h0]
    have hr2 : r.2 = ⟨loop (1 <<< n) (fun i a => upd a i 0) o.f,
        loop (1 <<< n) (fun i a => upd a i 0) o.g, loop (1 <<< n) (fun i a => upd a i 0) o.F⟩ := by
      show (decodeSkey n sk o).2 = _
      unfold decodeSkey; rw [if_pos h0]
    refine ⟨?_, ?_, ?_⟩
    · rw [hr1]; simpa using fun h' => h0 (hhdr.mpr h')
    · intro _ i hi
      rw [hr2]
      exact ⟨hz _ i hi, hz _ i hi, hz _ i hi⟩
    · rw [hr1]; simp

example : (decodeSkey 10 (fun _ => 0x5a) ⟨fun _ => 0, fun _ => 0, fun _ => 0⟩).1 = true := by
  rw [decodeSkey_ten _ _ rfl]

/-- C14: for arbitrary integer polynomials the serialized secret key decodes to what was serialized
exactly when every coefficient is in range. Encoding is total: it performs no check. -/
theorem C14_skey_survives_iff {n : ℕ} (hn : ValidLog n) (f g F : Mem Int) (sk : Mem UInt8) (o : FgF) :
    (∀ i, i < 2 ^ n → (decodeSkey n (encodeSkey n f g F sk) o).2.f i = f i ∧
      (decodeSkey n (encodeSkey n f g F sk) o).2.g i = g i ∧
      (decodeSkey n (encodeSkey n f g F sk) o).2.F i = F i) ↔ SkInRange n f g F := by
  constructor
  · intro h
    have hacc : (decodeSkey n (encodeSkey n f g F sk) o).1 = true := by
      rcases hn with rfl | rfl
      · rw [decodeSkey_nine]
        rw [encodeSkey_nine]; exact (encGen_spec codec6 128 512 0x59 f g F sk).1
      · rw [decodeSkey_ten]
        rw [encodeSkey_ten]; exact (encGen_spec codec5 128 1024 0x5a f g F sk).1
    have hr := ((C13_skey_decode hn (encodeSkey n f g F sk) sk o).2.2 hacc).1
    intro i hi
    have h1 := hr i hi
    obtain ⟨a, b, c⟩ := h i hi
    rwa [a, b, c] at h1
  · intro h
    exact (C12_skey_roundtrip hn f g F sk o h).2.1

/-- C14, violation: a secret key with one coefficient of f just above the range decodes to other
polynomials, although encoding and decoding both report success. -/
theorem C14_skey_corrupted {n : ℕ} (hn : ValidLog n) (sk : Mem UInt8) (o : FgF) :
    ∃ f g F : Mem Int, (∀ i, |f i| ≤ 32 ∧ |g i| ≤ 32 ∧ |F i| ≤ 32) ∧
      (decodeSkey n (encodeSkey n f g F sk) o).1 = true ∧
      ¬ ∀ i, i < 2 ^ n → (decodeSkey n (encodeSkey n f g F sk) o).2.f i = f i ∧
        (decodeSkey n (encodeSkey n f g F sk) o).2.g i = g i ∧
        (decodeSkey n (encodeSkey n f g F sk) o).2.F i = F i := by
  refine ⟨fun _ => 32, fun _ => 0, fun _ => 0, by intro i; norm_num, ?_, ?_⟩
  · rcases hn with rfl | rfl
    · rw [decodeSkey_nine]
      rw [encodeSkey_nine]; exact (encGen_spec codec6 128 512 0x59 _ _ _ sk).1
    · rw [decodeSkey_ten]
      rw [encodeSkey_ten]; exact (encGen_spec codec5 128 1024 0x5a _ _ _ sk).1
  · rw [C14_skey_survives_iff hn]
    intro h
    have := (h 0 (Nat.two_pow_pos n)).1.2
    rcases hn with rfl | rfl <;> norm_num [skBits] at this

/-- C59 (secret key): after the header come f and g, each the little-endian base 2^w number of its
coefficients in w-bit two's complement (w = 6 or 5), then F, one two's complement byte each. -/
theorem C59_skey_layout {n : ℕ} (hn : ValidLog n) (f g F : Mem Int) (sk : Mem UInt8)
    (hr : SkInRange n f g F) :
    let enc := encodeSkey n f g F sk
    let L := 2 ^ n * skBits n / 8
    ∑ j ∈ Finset.range L, (enc (1 + j)).toNat * 256 ^ j =
      ∑ i ∈ Finset.range (2 ^ n), (f i % 2 ^ skBits n).toNat * (2 ^ skBits n) ^ i ∧
    ∑ j ∈ Finset.range L, (enc (1 + L + j)).toNat * 256 ^ j =
      ∑ i ∈ Finset.range (2 ^ n), (g i % 2 ^ skBits n).toNat * (2 ^ skBits n) ^ i ∧
    ∀ i, i < 2 ^ n → ((enc (1 + L + L + i)).toNat : ℤ) = F i % 256 := by
  intro enc L
  have hF : ∀ x : ℤ, ((toU8 x).toNat : ℤ) = x % 256 := by
    intro x
    unfold toU8
    simp only [UInt8.toNat_ofNat']
    omega
  rcases hn with rfl | rfl
  · have hs := encGen_spec codec6 128 512 0x59 f g F sk
    have he : enc = encGen encode6 4 3 128 512 0x59 f g F sk := encodeSkey_nine f g F sk
    have hL : L = 3 * 128 := rfl
    have hN : (2 : ℕ) ^ 9 = 4 * 128 := rfl
    rw [he, hL, hN]
    have hw : skBits 9 = 6 := rfl
    rw [hw]
    have p1 : ((2 : ℤ) ^ 6) = 64 := by norm_num
    have p2 : ((2 : ℕ) ^ 6) = 64 := by norm_num
    rw [p1, p2]
    refine ⟨sk6_layout _ f 1 128 (fun i hi => by simpa [skBits] using (hr i hi).1) hs.2.1,
      sk6_layout _ g (1 + 3 * 128) 128 (fun i hi => by simpa [skBits] using (hr i hi).2.1)
        hs.2.2.1, ?_⟩
    intro i hi
    exact (congrArg (fun b : UInt8 => (b.toNat : ℤ)) (hs.2.2.2.1 i hi)).trans (hF (F i))
  · have hs := encGen_spec codec5 128 1024 0x5a f g F sk
    have he : enc = encGen encode5 8 5 128 1024 0x5a f g F sk := encodeSkey_ten f g F sk
    have hL : L = 5 * 128 := rfl
    have hN : (2 : ℕ) ^ 10 = 8 * 128 := rfl
    rw [he, hL, hN]
    have hw : skBits 10 = 5 := rfl
    rw [hw]
    have p1 : ((2 : ℤ) ^ 5) = 32 := by norm_num
    have p2 : ((2 : ℕ) ^ 5) = 32 := by norm_num
    rw [p1, p2]
    refine ⟨sk5_layout _ f 1 128 (fun i hi => by simpa [skBits] using (hr i hi).1) hs.2.1,
      sk5_layout _ g (1 + 5 * 128) 128 (fun i hi => by simpa [skBits] using (hr i hi).2.1)
        hs.2.2.1, ?_⟩
    intro i hi
    exact (congrArg (fun b : UInt8 => (b.toNat : ℤ)) (hs.2.2.2.1 i hi)).trans (hF (F i))

end Falcon
