import Verif.SyndromeSpec
import Verif.Model.Sign

/-! # Specification vocabulary: signing with a random oracle -/

namespace Falcon

/-- How many blocks of XOF output are set aside for hashing one message. -/
def hashBlocks (n : ℕ) : ℕ := if n = 9 then 10 else 18

/-- Signing one message when both the random stream of the signer and the answer `w` of the XOF to the one query of signing and verification are uniform
and independent: the probability that signing returns a signature with property `Ev`, within `R` rounds and `m` attempts per integer. Arithmetic is
exact. -/
noncomputable def oracleSignPr (n m R : ℕ) (f g F G : Mem Int) (B0 T0 : Mem ℂ) (msg : List UInt8) (sig : Mem UInt8) (Ev : Xof → Mem UInt8 → Prop) : ℝ :=
  (∑ w : Fin (136 * hashBlocks n) → UInt8,
    freq (40 + 18 * m * 2 ^ (n + 1) * R) (fun st => ∃ r, signPoly exactA (fun _ => memOf w) (codeLeaf false n m st) R (hashBlocks n) n
      (computeMatrixB exactA n f g F G B0) (computeFalconTree exactA n (computeMatrixB exactA n f g F G B0) T0) st msg sig 0 = some (.ok r) ∧
      Ev (fun _ => memOf w) r.1)) / 256 ^ (136 * hashBlocks n)

/-- The XOF that answers `st` to the query `x`, and as `xof` otherwise. -/
def answering (xof : Xof) (x : List UInt8) (st : Mem UInt8) : Xof := fun y => if y = x then st else xof y

/-- The XOF that answers `ws j` to the query `xs j`, and as `xof` otherwise. -/
def answeringAll {k : ℕ} (xof : Xof) (xs : Fin k → List UInt8) (ws : Fin k → Mem UInt8) : Xof := fun y =>
  match (List.finRange k).find? (fun j => xs j = y) with
  | none => xof y
  | some j => ws j

end Falcon
