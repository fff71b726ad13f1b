import Verif.SamplingSpec
import Verif.Props.Sign

/-! # Specification vocabulary: adversaries asking for signatures -/

namespace Falcon

open Classical in
/-- The mean of `f` under the spherical discrete Gaussian on the preimages of `c` under the public key `h`. -/
noncomputable def cosetMean (n : ℕ) (sigma : ℝ) (h c : Mem Ff) (f : PairZ n → ℝ) : ℝ :=
  (∑' s : PairZ n, if InCoset n h c s then pairW sigma s * f s else 0) /
    ∑' s : PairZ n, if InCoset n h c s then pairW sigma s else 0

open Classical in
/-- Rejection sampling from the spherical Gaussian on the preimages of `c`, with at most `R` rounds: the mean of `f` at the first accepted pair, where
`d` counts if no round is accepted. -/
noncomputable def rejectMean (n : ℕ) (sigma : ℝ) (h c : Mem Ff) (f : PairZ n → ℝ) (d : ℝ) : ℕ → ℝ
  | 0 => d
  | R + 1 => cosetMean n sigma h c fun s => if Accept n s then f s else rejectMean n sigma h c f d R

/-- Signing as the specification has it: a uniform salt of 40 bytes, the hashed point of salt and message, and rejection sampling from the spherical
Gaussian on its preimages. The mean of `f` at salt and pair, where `d` counts if there is no signature after `R` rounds or if hashing does not end. -/
noncomputable def specSignMean (n : ℕ) (sigma : ℝ) (h : Mem Ff) (hash : (ℕ → UInt8) → Option (Mem Ff)) (R : ℕ)
    (f : (ℕ → UInt8) → PairZ n → ℝ) (d : ℝ) : ℝ :=
  (∑ v : Fin 40 → UInt8, match hash (memOf v) with
    | none => d
    | some c => rejectMean n sigma h c (f (memOf v)) d R) / 256 ^ 40

/-- An adversary that asks for signatures. It chooses every message in terms of the signatures it has been given so far (`none`: no signature after the
given number of rounds); at the end it has won or it has not. -/
inductive Adversary where
  | stop (wins : Prop) : Adversary
  | ask (msg : List UInt8) (next : Option (List UInt8) → Adversary) : Adversary

namespace Adversary

/-- At most q questions. -/
inductive Asks : Adversary → ℕ → Prop
  | stop (w : Prop) (q : ℕ) : Asks (stop w) q
  | ask (msg : List UInt8) (next : Option (List UInt8) → Adversary) (q : ℕ) (h : ∀ sig, Asks (next sig) q) : Asks (ask msg next) (q + 1)

open Classical in
/-- The probability that the adversary wins, when a question is answered by a program `sign` reading `L` uniform random bytes, independent of those of other
questions. -/
noncomputable def winsPr (L : ℕ) (sign : List UInt8 → (ℕ → UInt8) → Option (List UInt8)) : Adversary → ℝ
  | stop w => if w then 1 else 0
  | ask msg next => (∑ v : Fin L → UInt8, winsPr L sign (next (sign msg (memOf v)))) / 256 ^ L

open Classical in
/-- The probability that the adversary wins, when a question is answered by the specification: a uniform salt, rejection sampling from the
Gaussian on the preimages of the hashed point, and the encoding of salt and s2 as a signature. The answers are defined by the public key `h` alone. -/
noncomputable def specWinsPr (n : ℕ) (sigma : ℝ) (h : Mem Ff) (hash : List UInt8 → Option (Mem Ff)) (R : ℕ) : Adversary → ℝ
  | stop w => if w then 1 else 0
  | ask msg next => specSignMean n sigma h (fun salt => hash ((List.range 40).map salt ++ msg)) R (fun salt s =>
      if ha : ∃ a, SignatureOf n a salt (tapeOf s.2) then specWinsPr n sigma h hash R (next (some (bytes (sigBytes n) ha.choose)))
      else specWinsPr n sigma h hash R (next none)) (specWinsPr n sigma h hash R (next none))

end Adversary

/-- An adversary that wants to forge a signature: in the end it outputs a message and a string of bytes. -/
inductive Forger where
  | output (msg : List UInt8) (sig : Mem UInt8) : Forger
  | ask (msg : List UInt8) (next : Option (List UInt8) → Forger) : Forger

namespace Forger

/-- At most q questions. -/
inductive Asks : Forger → ℕ → Prop
  | output (msg : List UInt8) (sig : Mem UInt8) (q : ℕ) : Asks (output msg sig) q
  | ask (msg : List UInt8) (next : Option (List UInt8) → Forger) (q : ℕ) (h : ∀ sig, Asks (next sig) q) : Asks (ask msg next) (q + 1)

/-- The forger wins if verification accepts its output for a message that it has not asked for. -/
def game (accepts : List UInt8 → Mem UInt8 → Prop) : Forger → List (List UInt8) → Adversary
  | output msg sig, asked => .stop (accepts msg sig ∧ msg ∉ asked)
  | ask msg next, asked => .ask msg fun o => game accepts (next o) (msg :: asked)

end Forger

/-- `signing::sign` (signing.hpp:30-118, the model `signPoly`) in exact arithmetic as the adversary sees it: the signature bytes, or `none` if there are none after `R` rounds of
at most `m` attempts per integer. -/
noncomputable def exactSigner (xof : Xof) (m R hfuel n : ℕ) (B T : Mem ℂ) (sig : Mem UInt8) (msg : List UInt8) (st : ℕ → UInt8) :
    Option (List UInt8) :=
  match signPoly exactA xof (codeLeaf false n m st) R hfuel n B T st msg sig 0 with
  | some (.ok r) => some (bytes (sigBytes n) r.1)
  | _ => none

end Falcon
