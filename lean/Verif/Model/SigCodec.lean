import Verif.Model.Codec

/-!
# Model of the signature codec: include/encoding.hpp:155-230, include/decoding.hpp:175-391

Both directions are modelled with checked array accesses: an access outside the array is the outcome
`UB.oobRead` / `UB.oobWrite`, never a value.
-/

namespace Falcon

/-- encoding.hpp:177 `max_sbytelen = (std::bit_width(ff::Q) * N) / 8`. -/
def maxSigBuf (logn : Nat) : Nat := (14 * (1 <<< logn)) / 8

/-- `std::abs` on `int32_t`: undefined on INT_MIN (encoding.hpp:196, 210). -/
def absE (x : Int) : Except UB Nat :=
  if x = -2 ^ 31 then .error .signedOverflow else .ok x.natAbs

/-- `sig_buf[i >> 3] |= b << (7 - (i & 7))` (encoding.hpp:187-190, 198-202, 212-215, 219). -/
def orBitE (cap : Nat) (i : Nat) (b : UInt8) (buf : Mem UInt8) : Except UB (Mem UInt8) :=
  (rdE cap buf (i >>> 3)).bind fun v =>
    wrE cap buf (i >>> 3) (v ||| (b <<< UInt8.ofNat (7 - (i &&& 7))))

/-- encoding.hpp:185-223, one iteration of the `while` loop; the state is (sig_buf, bit_idx). -/
def compressCoeffE (cap : Nat) (poly_s : Mem Int) (coeff_idx : Nat) (st : Mem UInt8 × Nat) :
    Except UB (Mem UInt8 × Nat) :=
  let (sig_buf, bit_idx) := st
  (orBitE cap bit_idx (if poly_s coeff_idx < 0 then 1 else 0) sig_buf).bind fun sig_buf =>
  let bit_idx := bit_idx + 1
  (absE (poly_s coeff_idx)).bind fun coeff =>
  (loopE 7 (fun t sig_buf =>
    orBitE cap (bit_idx + t) (UInt8.ofNat ((coeff >>> (6 - t)) &&& 1)) sig_buf) sig_buf).bind fun sig_buf =>
  let bit_idx := bit_idx + 7
  let k := coeff >>> 7
  (loopE k (fun t sig_buf => orBitE cap (bit_idx + t) 0 sig_buf) sig_buf).bind fun sig_buf =>
  let bit_idx := bit_idx + k
  (orBitE cap bit_idx 1 sig_buf).bind fun sig_buf =>
  .ok (sig_buf, bit_idx + 1)

/-- encoding.hpp:169-230 `compress_sig<N, sbytelen>`: returns the flag and the new content of `sig`.
The copy of `sbytelen - 41` bytes stays inside `sig_buf` because `sbytelen - 41 <= max_sbytelen`. -/
def compressSigE (logn : Nat) (poly_s : Mem Int) (sig : Mem UInt8) : Except UB (Bool × Mem UInt8) :=
  let N := 1 <<< logn
  let slen := 8 * sigLen logn - (8 + 320)
  (loopE N (compressCoeffE (maxSigBuf logn) poly_s) (fun _ => 0, 0)).bind fun (sig_buf, bit_idx) =>
  let sig_buf := if bit_idx ≥ slen then fun _ => 0 else sig_buf
  let sig := loop (sigLen logn - (1 + 40)) (fun j sig => upd sig (41 + j) (sig_buf j)) sig
  .ok (decide (bit_idx < slen), sig)

/-- `std::countl_zero` on `uint8_t`. -/
def clz8 (x : UInt8) : Nat := 8 - Ff.bitLen x.toNat

/-- decoding.hpp:210-221 `extract_8_contiguous_bits`; `rd` reads one byte of the array. -/
def extract8 (rd : Nat → Except UB UInt8) (bitoff : Nat) : Except UB UInt8 :=
  let byte_at := bitoff >>> 3
  let bit_at := bitoff &&& 7
  (rd byte_at).bind fun b0 => (rd (byte_at + 1)).bind fun b1 =>
  let word : UInt16 := (b0.toUInt16 <<< 8) ||| b1.toUInt16
  .ok (word >>> UInt16.ofNat (8 - bit_at)).toUInt8

/-- decoding.hpp:244-252 `extract_rem_contiguous_bits_in_byte`. -/
def extractRem (rd : Nat → Except UB UInt8) (bitoff : Nat) : Except UB UInt8 :=
  (rd (bitoff >>> 3)).bind fun b => .ok (b <<< UInt8.ofNat (bitoff &&& 7))

/-- decoding.hpp:305-312 and 345-352: leading zeros of the next `ebits` bits. -/
def nextZeros (rd : Nat → Except UB UInt8) (bitoff ebits : Nat) : Except UB Nat :=
  if ebits < 8 then (extractRem rd bitoff).bind fun t => .ok (clz8 t)
  else (extract8 rd bitoff).bind fun t => .ok (clz8 t)

/-- decoding.hpp:302-319: the `for (; bit_idx < slen;)` loop entered when eight zeros were seen.
Returns the final `bit_idx`. (`k` is updated by the code but never used afterwards.) -/
def unaryTail (rd : Nat → Except UB UInt8) (slen bit_idx : Nat) : Except UB Nat :=
  if _h : bit_idx < slen then
    let ebits := min 8 (slen - bit_idx)
    (nextZeros rd bit_idx ebits).bind fun v =>
    if v < ebits then .ok (bit_idx + ebits) else unaryTail rd slen (bit_idx + ebits)
  else .ok bit_idx
termination_by slen - bit_idx
decreasing_by omega

/-- decoding.hpp:282-324: reads one coefficient; returns (coeff, sign_bit, bit_idx). -/
def readCoeff (rd : Nat → Except UB UInt8) (slen bit_idx : Nat) : Except UB (Int × Nat × Nat) :=
  (extract8 rd bit_idx).bind fun res =>
  let sign_bit := (res >>> 7).toNat
  let coeff := (res &&& 0x7f).toNat
  let bit_idx := bit_idx + 8
  (extract8 rd bit_idx).bind fun t =>
  let k := clz8 t
  if k < 8 then
    let coeff := coeff + (1 <<< 7) * k
    .ok (if sign_bit = 1 then -(coeff : Int) else coeff, sign_bit, bit_idx + k)
  else
    (unaryTail rd slen (bit_idx + k)).bind fun bit_idx =>
    .ok (if sign_bit = 1 then -(coeff : Int) else coeff, sign_bit, bit_idx)

/-- The variables of `decompress_sig`. -/
structure DecState where
  coeff_idx : Nat
  bit_idx : Nat
  failed : Bool
  poly : Mem Int

/-- decoding.hpp:281-337, the `while` loop. -/
def decLoop (rd : Nat → Except UB UInt8) (slen N : Nat) (coeff_idx bit_idx : Nat) (poly : Mem Int) :
    Except UB DecState :=
  if _h : coeff_idx < N ∧ bit_idx < slen then
    (readCoeff rd slen bit_idx).bind fun (coeff, sign_bit, bit_idx) =>
    if coeff = 0 ∧ sign_bit = 1 then .ok ⟨coeff_idx, bit_idx, true, poly⟩
    else decLoop rd slen N (coeff_idx + 1) (bit_idx + 1) (upd poly coeff_idx coeff)
  else .ok ⟨coeff_idx, bit_idx, false, poly⟩
termination_by N - coeff_idx
decreasing_by omega

/-- decoding.hpp:342-356: trailing bits must be zero; returns `failed`. -/
def trailing (rd : Nat → Except UB UInt8) (slen bit_idx : Nat) (failed : Bool) : Except UB Bool :=
  if _h : bit_idx < slen then
    let ebits := min 8 (slen - bit_idx)
    (nextZeros rd bit_idx ebits).bind fun v =>
    trailing rd slen (bit_idx + ebits) (failed || decide (v < ebits))
  else .ok failed
termination_by slen - bit_idx
decreasing_by omega

/-- decoding.hpp:267-361 `decompress_sig<N, sbytelen>`; returns the flag and `poly_s`. -/
def decompressSig (logn : Nat) (rd : Nat → Except UB UInt8) (poly_s : Mem Int) :
    Except UB (Bool × Mem Int) :=
  let N := 1 <<< logn
  let slen := 8 * sigLen logn
  (decLoop rd slen N 0 (8 + 320) poly_s).bind fun st =>
  let failed := st.failed || decide (st.bit_idx ≥ slen) || decide (st.coeff_idx < N)
  (if !failed then trailing rd slen st.bit_idx failed else .ok failed).bind fun failed =>
  let poly := if failed then loop N (fun i p => upd p i 0) st.poly else st.poly
  .ok (!failed, poly)

/-- decoding.hpp:369-391 `decode_sig<N>`: `none` when it returns false; otherwise salt and s2. -/
def decodeSig (logn : Nat) (rd : Nat → Except UB UInt8) (salt : Mem UInt8) (s2 : Mem Int) :
    Except UB (Bool × Mem UInt8 × Mem Int) :=
  let header : UInt8 := 0x30 ||| UInt8.ofNat logn
  (rd 0).bind fun h =>
  if h ≠ header then .ok (false, salt, s2)
  else
    (decompressSig logn rd s2).bind fun (decompressed, s2) =>
    if !decompressed then .ok (false, salt, s2)
    else
      (loopE 40 (fun i salt => (rd (1 + i)).bind fun b => .ok (upd salt i b)) salt).bind fun salt =>
      .ok (true, salt, s2)

/-- A byte array of `len` bytes at `m`: reading outside is undefined. -/
def rdArr (len : Nat) (m : Mem UInt8) : Nat → Except UB UInt8 := rdE len m

end Falcon
