import Verif.Model.Sign

/-!
# Straight-line programs over an arithmetic, with calls of an integer sampler

Specification vocabulary of C117. An expression is built from integer inputs, constants and the operations of `Arith`. It
contains no comparison and no rounding, so that its evaluation performs the same operations for all inputs.
-/

namespace Falcon

/-- The integer inputs of a signature: the coefficients of the key and of the hashed point, and the answers of the sampler. -/
inductive Input where
  | f (i : ℕ)
  | g (i : ℕ)
  | F (i : ℕ)
  | G (i : ℕ)
  | c (i : ℕ)
  | z (j : ℕ)

mutual
/-- Expressions for a `double`. -/
inductive RTerm where
  | input (v : Input)
  | lit (q : ℚ)
  | neg (x : RTerm)
  | add (x y : RTerm)
  | mul (x y : RTerm)
  | div (x y : RTerm)
  | sqrt (x : RTerm)
  | max (x y : RTerm)
  | re (x : CTerm)
/-- Expressions for a `std::complex<double>`. -/
inductive CTerm where
  | cx (x y : RTerm)
  | cadd (x y : CTerm)
  | csub (x y : CTerm)
  | cmul (x y : CTerm)
  | cdiv (x y : CTerm)
  | cneg (x : CTerm)
  | conj (x : CTerm)
  | scale (x : RTerm) (y : CTerm)
  | tab (k : ℕ)
end

section
variable {R C : Type} (A : Arith R C) (ρ : Input → ℤ)

mutual
/-- The value of an expression: each operation is that of the arithmetic, an input is converted to `double`. -/
def RTerm.eval : RTerm → R
  | .input v => A.lit (ρ v)
  | .lit q => A.lit q
  | .neg x => A.neg x.eval
  | .add x y => A.add x.eval y.eval
  | .mul x y => A.mul x.eval y.eval
  | .div x y => A.div x.eval y.eval
  | .sqrt x => A.sqrt x.eval
  | .max x y => A.max x.eval y.eval
  | .re x => A.re x.eval
/-- The value of an expression. -/
def CTerm.eval : CTerm → C
  | .cx x y => A.cx x.eval y.eval
  | .cadd x y => A.cadd x.eval y.eval
  | .csub x y => A.csub x.eval y.eval
  | .cmul x y => A.cmul x.eval y.eval
  | .cdiv x y => A.cdiv x.eval y.eval
  | .cneg x => A.cneg x.eval
  | .conj x => A.conj x.eval
  | .scale x y => A.scale x.eval y.eval
  | .tab k => A.tab k
end

end

/-- The integer inputs after the answer `z` to question `j`. -/
def Input.answer (ρ : Input → ℤ) (j : ℕ) (z : ℤ) : Input → ℤ
  | .z i => if i = j then z else ρ (.z i)
  | v => ρ v

/-- Ask the sampler the questions of a list one after the other, from question number `j` on: centre and deviation are the
values of the two expressions, which may use the answers so far. -/
def ask {R C S : Type} (A : Arith R C) (leaf : LeafSampler R S) :
    List (RTerm × RTerm) → ℕ → (Input → ℤ) → S → Option (Except UB ((Input → ℤ) × S))
  | [], _, ρ, s => some (.ok (ρ, s))
  | q :: l, j, ρ, s =>
    bindO (leaf (q.1.eval A ρ) (q.2.eval A ρ) s) fun a => ask A leaf l (j + 1) (Input.answer ρ j a.1) a.2

/-- The integer inputs given by a key and a hashed point, before any question is asked. -/
def Input.of (f g F G : Mem Int) (c : Mem Ff) : Input → ℤ
  | .f i => f i
  | .g i => g i
  | .F i => F i
  | .G i => G i
  | .c i => ((c i).v.toNat : ℤ)
  | .z _ => 0

/-- What signing computes with floating point numbers, as expressions: the coefficients of G before rounding, the questions to
the sampler in one round, the squared norm of the round and the coefficients of s2 before rounding. -/
structure SignProg where
  G : ℕ → RTerm
  questions : List (RTerm × RTerm)
  norm : RTerm
  s2 : ℕ → RTerm

section
variable {R C : Type} (A : Arith R C)

/-- Round the values of `N` expressions to 32-bit integers. -/
def roundAll (N : ℕ) (x : ℕ → R) (m : Mem Int) : Except UB (Mem Int) :=
  loopE N (fun i m => (A.roundTo (-2 ^ 31) (2 ^ 31 - 1) (x i)).bind fun v => .ok (upd m i v)) m

/-- The rounds: ask all questions, compare the norm with the bound, round and compress; again if one of them fails. -/
def SignProg.rounds (P : SignProg) (logn : ℕ) (leaf : LeafSampler R) (ρ : Input → ℤ) :
    (fuel : ℕ) → (sig : Mem UInt8) → (pos : ℕ) → Option (Except UB (Mem UInt8 × ℕ))
  | 0, _, _ => none
  | fuel + 1, sig, pos =>
    bindO (ask A leaf P.questions 0 ρ pos) fun r =>
    if A.le (P.norm.eval A r.1) (A.lit (beta2 logn)) then
      bindO (some (roundAll A (1 <<< logn) (fun i => (P.s2 i).eval A r.1) (fun _ => 0))) fun s2 =>
      bindO (some (compressSigE logn s2 sig)) fun u =>
      if u.1 then some (.ok (u.2, r.2)) else P.rounds logn leaf ρ fuel u.2 r.2
    else P.rounds logn leaf ρ fuel sig r.2

/-- One-shot signing by a program: decode the key, round G, draw the salt, hash, go through the rounds, write header and salt. -/
def SignProg.sign (P : SignProg) (xof : Xof) (mt : UInt32 → Mem UInt8) (leaf : (Nat → UInt8) → LeafSampler R) (fuel hfuel : Nat)
    (logn : Nat) (junk : FgF) (junkG : Mem Int) (rd : UInt32) (skey : Mem UInt8) (msg : List UInt8)
    (sig : Mem UInt8) : Option (Except UB (Bool × Mem UInt8)) :=
  let stream := prngNew xof mt rd
  let k := (decodeSkey logn skey junk).2
  if (decodeSkey logn skey junk).1 = false then some (.ok (false, sig)) else
  bindO (some (roundAll A (1 <<< logn)
    (fun i => (P.G i).eval A (Input.of k.f k.g k.F (fun _ => 0) (fun _ => Ff.zero))) junkG)) fun G =>
  let salt := prngRead stream 0 40 (fun _ => 0)
  match hashToPoint hfuel logn (xof (bytes 40 salt ++ msg)) (fun _ => Ff.zero) with
  | none => none
  | some c =>
    bindO (P.rounds A logn (leaf stream) (Input.of k.f k.g k.F G c) fuel sig 40) fun r =>
    some (.ok (true, loop 40 (fun i sig => upd sig (1 + i) (salt i)) (upd r.1 0 (0x30 ||| UInt8.ofNat logn))))

end

end Falcon
