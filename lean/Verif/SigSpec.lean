import Verif.Basic
import Mathlib.Algebra.BigOperators.Group.Finset.Basic
import Mathlib.Algebra.Order.Ring.Int

/-!
# Specification vocabulary of the signature format
-/

namespace Falcon

/-- Bit `i` of a byte array, most significant bit of each byte first. -/
def bitAt (m : Mem UInt8) (i : ℕ) : Bool := (m (i / 8)).toNat.testBit (7 - i % 8)

/-- The seven bits of `v`, most significant first. -/
def bits7 (v : ℕ) : List Bool := (List.range 7).map fun t => v.testBit (6 - t)

/-- The code of one coefficient (Falcon specification, algorithm 17): sign, seven low bits of the
absolute value, then the remaining high part in unary. -/
def codeBits (x : ℤ) : List Bool :=
  decide (x < 0) :: (bits7 (x.natAbs % 128) ++ List.replicate (x.natAbs / 128) false ++ [true])

/-- The bits of the first `N` coefficients, concatenated. -/
def codes (s : ℕ → ℤ) : ℕ → List Bool
  | 0 => []
  | N + 1 => codes s N ++ codeBits (s N)

/-- The bits of the array from `p` on start with the list `c`. -/
def Matches (m : Mem UInt8) (p : ℕ) (c : List Bool) : Prop :=
  ∀ i (h : i < c.length), bitAt m (p + i) = c[i]

/-- Signed value. -/
def sval (neg : Bool) (v : ℕ) : ℤ := if neg then -(v : ℤ) else v

/-- What the decoder takes for the code of `x`. `short` are the codes of the specification with at
most seven unary zeros. `long` is what the code accepts besides: eight or more zeros (in multiples of
eight), an octet that is not zero, and one arbitrary bit; it is decoded as the low seven bits only. -/
inductive Chunk : ℤ → List Bool → Prop
  | short (neg : Bool) (low k : ℕ) (hl : low < 128) (hk : k < 8)
      (hz : ¬ (neg = true ∧ low + 128 * k = 0)) :
      Chunk (sval neg (low + 128 * k)) (neg :: (bits7 low ++ List.replicate k false ++ [true]))
  | long (neg : Bool) (low j : ℕ) (oct : List Bool) (last : Bool) (hl : low < 128)
      (hz : ¬ (neg = true ∧ low = 0)) (ho : oct.length = 8) (hne : true ∈ oct) :
      Chunk (sval neg low)
        (neg :: (bits7 low ++ List.replicate (8 + 8 * j) false ++ oct ++ [last]))

/-- A signature of `sb` bytes whose body (from bit 328 on) is a sequence of `N` chunks for `s 0`, ...,
`s (N-1)` that ends strictly before the last bit and is followed by zeros only. -/
def BodyOf (sb N : ℕ) (m : Mem UInt8) (s : ℕ → ℤ) : Prop :=
  ∃ (cs : ℕ → List Bool) (pos : ℕ → ℕ), pos 0 = 328 ∧
    (∀ i, i < N → Chunk (s i) (cs i) ∧ Matches m (pos i) (cs i) ∧ pos (i + 1) = pos i + (cs i).length) ∧
    pos N < 8 * sb ∧ ∀ i, pos N ≤ i → i < 8 * sb → bitAt m i = false

/-- Documented signature sizes. -/
def sigBytes (n : ℕ) : ℕ := if n = 9 then 666 else 1280
/-- The acceptance bound on the squared norm (Falcon specification, table 3.3). -/
def betaSq (n : ℕ) : ℤ := if n = 9 then 34034726 else 70265242

theorem sigBytes_ge (n : ℕ) : 666 ≤ sigBytes n := by unfold sigBytes; split <;> omega

end Falcon
