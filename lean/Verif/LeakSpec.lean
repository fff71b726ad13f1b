import Verif.FftSpec
import Verif.SamplerSpec

/-!
# Specification vocabulary of the secret that a signature reveals
-/

namespace Falcon

/-- The integer that Falcon's sampler proposes when it reads its bytes from position `p` of the tape: the 9 bytes form a number u, z0 counts the
tails of the table of probabilities that exceed u, and the lowest bit of the next byte decides between 1 + z0 and -z0. -/
def proposal (tape : ℕ → UInt8) (p : ℕ) : ℤ :=
  let u := leVal 9 fun i => tape (p + i)
  let z0 : ℕ := ((List.range 18).filter fun i => u < (pdtSpec.drop (i + 1)).sum).length
  if (tape (p + 9)).toNat % 2 = 1 then 1 + z0 else -z0

/-- A position that is reached from `p` by rejecting proposals: each uses 9 bytes, the byte of the sign and between 1 and 8 bytes for the decision. -/
inductive Reached (p : ℕ) : ℕ → Prop
  | here : Reached p p
  | next {r : ℕ} (k : ℕ) (h : Reached p r) (h1 : 1 ≤ k) (h2 : k ≤ 8) : Reached p (r + 10 + k)

/-- The bytes from position `p` make the sampler accept its first proposal, which is 0 or 1, whatever it is asked for: the number formed by the 9
bytes is at least the sum of all probabilities but the first, and the byte that decides on acceptance is small. -/
def Quiet (tape : ℕ → UInt8) (p : ℕ) : Prop :=
  2 ^ 72 - pdtSpec.getD 0 0 ≤ (leVal 9 fun i => tape (p + i)) ∧ (tape (p + 10)).toNat < 120

/-- The coefficient N/2 - 1 of s1 f + s2 g mod x^N + 1 lies in the interval from 0 to q, or from -q to 0 if the bit is set. -/
def Leaks (n : ℕ) (s1 s2 f g : Mem Int) (bit : Bool) : Prop :=
  ∀ v : Mem Int, ModEqXN (2 ^ n) (polyZ (2 ^ n) v) (polyZ (2 ^ n) s1 * polyZ (2 ^ n) f + polyZ (2 ^ n) s2 * polyZ (2 ^ n) g) →
    if bit then -12289 ≤ v (2 ^ (n - 1) - 1) ∧ v (2 ^ (n - 1) - 1) ≤ 0 else 0 ≤ v (2 ^ (n - 1) - 1) ∧ v (2 ^ (n - 1) - 1) ≤ 12289

end Falcon
