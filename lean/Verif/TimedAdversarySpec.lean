import Verif.TimingSpec
import Verif.AdversarySpec

/-! # Specification vocabulary: adversaries that ask for signatures and see iteration counts -/

namespace Falcon

/-- An adversary that asks for signatures and sees how often the integer sampler iterates. It chooses every message in terms of the signatures and iteration
counts it has seen so far (`none`: no signature after the given number of rounds); at the end it has won or it has not. -/
inductive TimedAdversary where
  | stop (wins : Prop) : TimedAdversary
  | ask (msg : List UInt8) (next : Option (List UInt8 × List ℕ) → TimedAdversary) : TimedAdversary

namespace TimedAdversary

/-- At most q questions. -/
inductive Asks : TimedAdversary → ℕ → Prop
  | stop (w : Prop) (q : ℕ) : Asks (stop w) q
  | ask (msg : List UInt8) (next : Option (List UInt8 × List ℕ) → TimedAdversary) (q : ℕ) (h : ∀ o, Asks (next o) q) : Asks (ask msg next) (q + 1)

open Classical in
/-- The probability that the adversary wins, when a question is answered by a program `sign` reading `L` uniform random bytes, independent of those of other
questions. -/
noncomputable def winsPr (L : ℕ) (sign : List UInt8 → (ℕ → UInt8) → Option (List UInt8 × List ℕ)) : TimedAdversary → ℝ
  | stop w => if w then 1 else 0
  | ask msg next => (∑ v : Fin L → UInt8, winsPr L sign (next (sign msg (memOf v)))) / 256 ^ L

end TimedAdversary

/-- `signing::sign` (signing.hpp:30-118) in exact arithmetic, as an observer of the iteration counts sees it: salt, hashed point, the signing loop with all numbers
of iterations of the integer sampler written to a list, and the signature bytes; `none` if there is no signature after `R` rounds of at most `m` attempts per
integer. -/
noncomputable def timedSigner (xof : Xof) (m R hfuel n : ℕ) (B T : Mem ℂ) (sig : Mem UInt8) (msg : List UInt8) (st : ℕ → UInt8) :
    Option (List UInt8 × List ℕ) :=
  let salt := prngRead st 0 40 (fun _ => 0)
  match hashToPoint hfuel n (xof (bytes 40 salt ++ msg)) (fun _ => Ff.zero) with
  | none => none
  | some c =>
    let t := signTarget exactA n B c
    match signLoop exactA (timedLeaf n m st) n B T t.1 t.2 R sig (40, []) with
    | some (.ok r) =>
      let sig := upd r.1 0 (0x30 ||| UInt8.ofNat n)
      let sig := loop 40 (fun i sig => upd sig (1 + i) (salt i)) sig
      some (bytes (sigBytes n) sig, r.2.2)
    | _ => none

end Falcon
