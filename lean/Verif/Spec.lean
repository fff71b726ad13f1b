import Verif.Model.Ff
import Mathlib.Data.ZMod.Basic
import Mathlib.Algebra.Field.ZMod
import Mathlib.Tactic.NormNum.Prime
import Mathlib.Algebra.BigOperators.Group.Finset.Basic
import Mathlib.Algebra.Polynomial.Basic

/-!
# Specification vocabulary: the field Z_q, polynomials, bit reversal
-/

namespace Falcon

/-- The modulus of Falcon. -/
abbrev q : ℕ := 12289

/-- The prime field the code computes in. -/
abbrev Zq := ZMod q

instance fact_q_prime : Fact (Nat.Prime q) := ⟨by norm_num [q]⟩

/-- The element of Z_q that a stored 16-bit word stands for. -/
def Ff.val (a : Ff) : Zq := (a.v.toNat : Zq)

/-- The stored word is the representative in [0, q). -/
def Ff.Canonical (a : Ff) : Prop := a.v.toNat < q

/-- The stored word fits 14 bits (what `decode_pkey` can produce). -/
def Ff.Fits14 (a : Ff) : Prop := a.v.toNat < 2 ^ 14

/-- All of the first `N` entries are canonical / fit 14 bits. -/
def CanonBelow (N : ℕ) (a : Mem Ff) : Prop := ∀ j, j < N → (a j).Canonical
def FitsBelow (N : ℕ) (a : Mem Ff) : Prop := ∀ j, j < N → (a j).Fits14

/-- N ∈ {512, 1024}: the two parameter sets, log2 N ∈ {9, 10}. -/
def ValidLog (n : ℕ) : Prop := n = 9 ∨ n = 10

open Polynomial in
/-- The polynomial with coefficients `a 0, ..., a (n-1)`. -/
noncomputable def toPoly {K : Type} [CommRing K] (n : ℕ) (a : Mem K) : K[X] :=
  ∑ i ∈ Finset.range n, C (a i) * X ^ i

/-- The element of Z_q[X] stored in an array. -/
noncomputable def polyZq (n : ℕ) (a : Mem Ff) : Polynomial Zq := toPoly n (fun i => (a i).val)

open Polynomial in
/-- Congruence modulo `X^N + 1`. -/
def ModEqXN {K : Type} [CommRing K] (N : ℕ) (p r : K[X]) : Prop := (X ^ N + 1 : K[X]) ∣ p - r

/-- Reversal of the `n` low bits of `v`: bit `t` moves to position `n - 1 - t`. -/
def revBits (n v : ℕ) : ℕ := ∑ t ∈ Finset.range n, (v / 2 ^ t % 2) * 2 ^ (n - 1 - t)

/-- The 2N-th root of unity of the number theoretic transform. -/
def zetaQ (n : ℕ) : Zq := if n = 9 then 49 else 7

/-- Documented public key sizes. -/
def pkBytes (n : ℕ) : ℕ := if n = 9 then 897 else 1793
/-- Documented secret key sizes. -/
def skBytes (n : ℕ) : ℕ := if n = 9 then 1281 else 2305
/-- Six bits (N = 512) or five bits (N = 1024) in two's complement. -/
def skBits (n : ℕ) : ℕ := if n = 9 then 6 else 5

end Falcon
