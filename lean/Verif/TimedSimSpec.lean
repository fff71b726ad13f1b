import Verif.TimedAdversarySpec

/-! # Specification vocabulary: answers to an adversary that sees iteration counts, without a secret key -/

namespace Falcon

open Classical in
/-- What an observer of the signing loop sees in the simulation (`simSignPr`), for test functions. In each round there are 2N independent geometric iteration
counts, at most `m` each, and a pair from the spherical Gaussian on the preimages of `c`; the loop ends with the first accepted pair. The mean of `φ` at
the list of all counts and the accepted pair; `d` counts if there is none within `R` rounds or if a count is larger than `m`. -/
noncomputable def simSignMean (n : ℕ) (sigma : ℝ) (m : ℕ) (h c : Mem Ff) (φ : List ℕ → PairZ n → ℝ) (d : ℝ) : ℕ → List ℕ → ℝ
  | 0, _ => d
  | R + 1, l => ∑ k : Fin (2 ^ (n + 1)) → Fin m, geoPr n k *
      cosetMean n sigma h c (fun s => if Accept n s then φ (l ++ countsOf k) s else simSignMean n sigma m h c φ d R (l ++ countsOf k))
      + (1 - ∑ k : Fin (2 ^ (n + 1)) → Fin m, geoPr n k) * d

namespace TimedAdversary

open Classical in
/-- The probability that the adversary wins, when a question is answered by the simulation: a uniform salt, `simSignMean` for the hashed point, and the
encoding of salt and s2 as a signature. The answers are defined by the public key `h` alone. -/
noncomputable def simWinsPr (n : ℕ) (sigma : ℝ) (m : ℕ) (h : Mem Ff) (hash : List UInt8 → Option (Mem Ff)) (R : ℕ) : TimedAdversary → ℝ
  | stop w => if w then 1 else 0
  | ask msg next => (∑ v : Fin 40 → UInt8, match hash ((List.range 40).map (memOf v) ++ msg) with
      | none => simWinsPr n sigma m h hash R (next none)
      | some c => simSignMean n sigma m h c (fun l s =>
          if ha : ∃ a, SignatureOf n a (memOf v) (tapeOf s.2) then simWinsPr n sigma m h hash R (next (some (bytes (sigBytes n) ha.choose, l)))
          else simWinsPr n sigma m h hash R (next none)) (simWinsPr n sigma m h hash R (next none)) R []) / 256 ^ 40

end TimedAdversary

/-- A forger that sees iteration counts: in the end it outputs a message and a string of bytes. -/
inductive TimedForger where
  | output (msg : List UInt8) (sig : Mem UInt8) : TimedForger
  | ask (msg : List UInt8) (next : Option (List UInt8 × List ℕ) → TimedForger) : TimedForger

namespace TimedForger

/-- At most q questions. -/
inductive Asks : TimedForger → ℕ → Prop
  | output (msg : List UInt8) (sig : Mem UInt8) (q : ℕ) : Asks (output msg sig) q
  | ask (msg : List UInt8) (next : Option (List UInt8 × List ℕ) → TimedForger) (q : ℕ) (h : ∀ o, Asks (next o) q) : Asks (ask msg next) (q + 1)

/-- The forger wins if verification accepts its output for a message that it has not asked for. -/
def game (accepts : List UInt8 → Mem UInt8 → Prop) : TimedForger → List (List UInt8) → TimedAdversary
  | output msg sig, asked => .stop (accepts msg sig ∧ msg ∉ asked)
  | ask msg next, asked => .ask msg fun o => game accepts (next o) (msg :: asked)

end TimedForger

end Falcon
