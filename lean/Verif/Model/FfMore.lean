import Verif.Model.Ff

/-!
# Model of the operators of include/ff.hpp that the scheme does not use
-/

namespace Falcon.Ff

/-- ff.hpp:239 `operator>`. -/
def gt (a b : Ff) : Bool := decide (a.v > b.v)

/-- ff.hpp:242 `operator>=`. -/
def ge (a b : Ff) : Bool := decide (a.v ≥ b.v)

/-- ff.hpp:248 `operator<=`. -/
def le (a b : Ff) : Bool := decide (a.v ≤ b.v)

/-- ff.hpp:251-254 `operator<<`. The operand is promoted to `int` (32 bits): a shift by 32 or more is undefined (`none`),
otherwise the result is reduced modulo 2^32 (C++20) and then cut to 16 bits. `ff_t{ ... }` calls the constructor of lines
69-76. -/
def shl (a : Ff) (l : Nat) : Option Ff :=
  if l < 32 then some (ofU16 (UInt16.ofNat (a.v.toNat * 2 ^ l % 2 ^ 32))) else none

/-- ff.hpp:257-260 `operator>>`. -/
def shr (a : Ff) (l : Nat) : Option Ff :=
  if l < 32 then some (ofU16 (UInt16.ofNat (a.v.toNat / 2 ^ l))) else none

/-- ff.hpp:270-276: the loop of `random` with `left` iterations left, at draw number `i`; `res.v` is 0 before. -/
def randLoop (draws : Nat → UInt16) : (left i : Nat) → UInt16
  | 0, _ => 0
  | k + 1, i => if draws i < Q then draws i else randLoop draws k (i + 1)

/-- ff.hpp:263-279 `random()`; `draws` are the values of the 16-bit distribution, `ff_t res{}` is zero. -/
def random (draws : Nat → UInt16) : Ff := ⟨randLoop draws (1 <<< 10) 0⟩

end Falcon.Ff
