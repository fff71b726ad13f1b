import Verif.Model.SigCodec
import Verif.Model.Ntt

/-!
# Model of include/hashing.hpp, include/verification.hpp and of `falcon::verify`

SHAKE256 is a parameter `xof`: the infinite output stream as a function of the absorbed bytes.
Absorbing salt and message one after the other is absorbing their concatenation, and successive
`read` calls return successive parts of the stream (interface of the sha3 dependency).
-/

namespace Falcon

/-- An extendable output function: absorbed bytes ↦ output stream. -/
abbrev Xof := List UInt8 → Nat → UInt8

/-- hashing.hpp:25-28 `kq = (2^16 / q) * q`. -/
def hashBound : UInt16 := UInt16.ofNat ((1 <<< 16) / Q.toNat * Q.toNat)

/-- hashing.hpp:41-48, the `for` loop over one squeezed block of 136 bytes; state (poly, coeff_idx).
The loop stops at `coeff_idx = n`; here the remaining iterations do nothing. -/
def hashBlock (n : Nat) (buf : Mem UInt8) (st : Mem Ff × Nat) : Mem Ff × Nat :=
  loop 68 (fun j st =>
    let off := 2 * j
    if st.2 < n then
      let t : UInt16 := ((buf (off + 0)).toUInt16 <<< 8) ||| ((buf (off + 1)).toUInt16 <<< 0)
      if t < hashBound then (upd st.1 st.2 (Ff.ofU16 t), st.2 + 1) else st
    else st) st

/-- hashing.hpp:38-49, the `while` loop, running at most `fuel` more iterations (the code has no such
limit); `blk` blocks of the stream have been read. `none`: not finished yet. -/
def hashLoop (n : Nat) (stream : Nat → UInt8) : (fuel blk : Nat) → Mem Ff × Nat → Option (Mem Ff)
  | fuel, blk, st =>
    if st.2 < n then
      match fuel with
      | 0 => none
      | fuel + 1 => hashLoop n stream fuel (blk + 1) (hashBlock n (fun i => stream (136 * blk + i)) st)
    else some st.1

/-- hashing.hpp:17-50 `hash_to_point<n>`. -/
def hashToPoint (fuel : Nat) (logn : Nat) (stream : Nat → UInt8) (poly : Mem Ff) : Option (Mem Ff) :=
  hashLoop (1 <<< logn) stream fuel 0 (poly, 0)

/-- What happens on signed 32-bit overflow: it is undefined (the C++ rule), or two's complement
wrap-around (what compilers usually generate). -/
inductive Ovf where
  | strict
  | wrap
  deriving DecidableEq, Repr

/-- The result `x` of an `int32_t` operation. -/
def i32 (p : Ovf) (x : Int) : Except UB Int :=
  if -2 ^ 31 ≤ x ∧ x < 2 ^ 31 then .ok x
  else match p with
    | .strict => .error .signedOverflow
    | .wrap => .ok (Int.bmod x (2 ^ 32))

/-- verification.hpp:37-39: `s2_ntt[i].v = uint16_t((s2[i] < 0) * Q + s2[i])`. -/
def s2ToFf (x : Int) : Ff := ⟨Ff.toU16 ((if x < 0 then (Q.toNat : Int) else 0) + x)⟩

/-- verification.hpp:61-70: the centred representative as the code computes it. -/
def centre (x : Ff) : Int :=
  let qby2 : UInt16 := Q / 2
  let flg := decide (x.v ≥ qby2)
  let t0 : Int := x.v.toNat
  let t1 : Int := (Ff.flgQ flg).toNat
  t0 - t1

/-- verification.hpp:74-79, one loop: `sqrd_norm += a[i] * a[i]`. -/
def accNorm (p : Ovf) (N : Nat) (a : Mem Int) (acc : Int) : Except UB Int :=
  loopE N (fun i acc => (i32 p (a i * a i)).bind fun sq => i32 p (acc + sq)) acc

/-- verification.hpp:36-81, everything after the signature was decoded and the message hashed. -/
def verifyTail (p : Ovf) (logn : Nat) (beta2 : Int) (h c : Mem Ff) (s2 : Mem Int) : Except UB Bool :=
  let N := 1 <<< logn
  let s2_ntt : Mem Ff := loop N (fun i a => upd a i (s2ToFf (s2 i))) (fun _ => Ff.zero)
  let h_ : Mem Ff := loop N (fun i a => upd a i (h i)) (fun _ => Ff.zero)
  let c := ntt logn c
  let s2_ntt := ntt logn s2_ntt
  let h_ := ntt logn h_
  let s1 := polyMul logn s2_ntt h_ (fun _ => Ff.zero)
  let s1 := polyNeg logn s1
  let s1 := polyAddTo logn s1 c
  let s1 := intt logn s1
  let normalized_s1 : Mem Int := loop N (fun i a => upd a i (centre (s1 i))) (fun _ => 0)
  (accNorm p N s2 0).bind fun sqrd_norm =>
  (accNorm p N normalized_s1 sqrd_norm).bind fun sqrd_norm =>
  .ok (decide (sqrd_norm ≤ beta2))

/-- Content of the uninitialised local arrays of `verify`. -/
structure Junk where
  salt : Mem UInt8
  s2 : Mem Int

/-- The `len` bytes of a buffer. -/
def bytes (len : Nat) (m : Mem UInt8) : List UInt8 := (List.range len).map m

/-- verification.hpp:20-82 `verification::verify<N, β2>`; `none`: hashing did not finish with `fuel`. -/
def verifyPoly (xof : Xof) (fuel : Nat) (p : Ovf) (logn : Nat) (beta2 : Int) (junk : Junk) (h : Mem Ff)
    (msg : List UInt8) (sig : Nat → Except UB UInt8) : Option (Except UB Bool) :=
  match decodeSig logn sig junk.salt junk.s2 with
  | .error e => some (.error e)
  | .ok (false, _, _) => some (.ok false)
  | .ok (true, salt, s2) =>
    (hashToPoint fuel logn (xof (bytes 40 salt ++ msg)) (fun _ => Ff.zero)).map fun c =>
      verifyTail p logn beta2 h c s2

/-- falcon.hpp:245-246 `β2`. -/
def beta2 (logn : Nat) : Int := if logn = 10 then 70265242 else 34034726

/-- falcon.hpp:230-249 `falcon::verify<N>`. -/
def verify (xof : Xof) (fuel : Nat) (p : Ovf) (logn : Nat) (junk : Junk) (pkey : Mem UInt8)
    (msg : List UInt8) (sig : Nat → Except UB UInt8) : Option (Except UB Bool) :=
  match decodePkey logn pkey (fun _ => Ff.zero) with
  | (false, _) => some (.ok false)
  | (true, h) => verifyPoly xof fuel p logn (beta2 logn) junk h msg sig

end Falcon
