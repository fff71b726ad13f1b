import Verif.Spec
import Verif.SigSpec

/-!
# Specification vocabulary of hashing and verification
-/

namespace Falcon

/-- The j-th big-endian 16-bit word of a byte stream. -/
def wordAt (st : ℕ → UInt8) (j : ℕ) : ℕ := 256 * (st (2 * j)).toNat + (st (2 * j + 1)).toNat

/-- Those of the first `M` words that rejection sampling accepts, in order. -/
def accepted (st : ℕ → UInt8) (M : ℕ) : List ℕ := ((List.range M).map (wordAt st)).filter (· < 61445)

/-- `c` is the hashed point of the stream: the first `N` accepted words reduced mod q. -/
def HashPoint (N : ℕ) (st : ℕ → UInt8) (c : Mem Ff) : Prop :=
  ∃ M, N ≤ (accepted st M).length ∧ ∀ i, i < N → (c i).v.toNat = (accepted st M).getD i 0 % q


/-- The class in Z_q[X] of an integer polynomial. -/
noncomputable def polyInt (N : ℕ) (s : ℕ → ℤ) : Polynomial Zq := toPoly N (fun i => (s i : Zq))

/-- Squared Euclidean norm. -/
def sqNorm (N : ℕ) (s : ℕ → ℤ) : ℤ := ∑ i ∈ Finset.range N, s i ^ 2

/-- `s1 + s2 h = c` in Z_q[X]/(X^N+1): (s1, s2) is a preimage of the hashed point. -/
def Preimage (N : ℕ) (h c : Mem Ff) (s1 s2 : ℕ → ℤ) : Prop :=
  ModEqXN N (polyInt N s1 + polyInt N s2 * polyZq N h) (polyZq N c)

/-- The public key bytes: header log2 N, then the coefficients as 14-bit digits, little-endian. -/
def PkeyOf (n : ℕ) (pk : Mem UInt8) (h : Mem Ff) : Prop :=
  (pk 0).toNat = n ∧ FitsBelow (2 ^ n) h ∧
    ∑ j ∈ Finset.range (pkBytes n - 1), (pk (1 + j)).toNat * 256 ^ j =
      ∑ i ∈ Finset.range (2 ^ n), (h i).v.toNat * (2 ^ 14) ^ i

/-- The signature bytes: header 0x30 + log2 N, salt, and a body for `s2`. -/
def SigOf (n : ℕ) (sig : Mem UInt8) (s2 : ℕ → ℤ) : Prop :=
  (sig 0).toNat = 0x30 + n ∧ BodyOf (sigBytes n) (2 ^ n) sig s2

/-- What is hashed: the 40 salt bytes of the signature, then the message. -/
def saltMsg (sig : Mem UInt8) (msg : List UInt8) : List UInt8 :=
  (List.range 40).map (fun i => sig (1 + i)) ++ msg

end Falcon
