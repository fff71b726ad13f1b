import Verif.Model.Sampler

/-!
# The known answer tests of the integer sampler, tests/test_samplerz.cpp
-/

namespace Falcon

/-- tests/test_samplerz.cpp:6-13 `samplerz_kat_t`. A literal of type `double` is an integer divided by a power of ten; the
hexadecimal string `rbytes` is given as its length in bytes and the number it denotes (first byte most significant), which is
what `to_byte_array` (C57) makes of it. -/
structure Kat where
  /-- `μ` is `mu / 10 ^ muE`. -/
  mu : ℤ
  muE : ℕ
  /-- `σ_prime` is `sg / 10 ^ sgE`. -/
  sg : ℕ
  sgE : ℕ
  /-- `σ_min` is `sm / 10 ^ smE`. -/
  sm : ℕ
  smE : ℕ
  /-- `rbytes`. -/
  len : ℕ
  bytes : ℕ
  /-- The expected result. -/
  z : ℤ

/-- Byte `i` of a number of `len` bytes, the first byte being the most significant one. -/
def katByte (bytes len : ℕ) : Mem UInt8 := fun i => UInt8.ofNat (bytes / 256 ^ (len - 1 - i) % 256)

/-- tests/test_samplerz.cpp:15635-15648 and 15657-15670, the call of the array variant of `samplerz` for one test; the literals
are rounded to doubles. -/
noncomputable def Kat.run (v : Kat) (fma : Bool) (fuel : ℕ) : Option (Except UB (ℤ × ℕ)) :=
  samplerzArr fma (rnd (v.mu / 10 ^ v.muE)) (rnd (v.sg / 10 ^ v.sgE)) (rnd (v.sm / 10 ^ v.smE)) (katByte v.bytes v.len) v.len
    fuel 0

end Falcon
