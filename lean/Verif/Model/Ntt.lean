import Verif.Model.Ff

/-!
# Model of include/ntt.hpp and of the Z_q part of include/polynomial.hpp

The two transforms of the code base (`ntt`/`intt` over Z_q, `fft`/`ifft` over C) have the same loop
nest; it is written once, parametrised by the statement executed for each butterfly.
-/

namespace Falcon

/-- ntt.hpp:45-58 and fft.hpp:19-32 `bit_rev<mbw>(v)`. -/
def bitRev (mbw v : Nat) : Nat :=
  loop mbw (fun i v_rev =>
    let bit := (v >>> i) &&& 1
    v_rev ^^^ (bit <<< (mbw - 1 - i))) 0

/-- The body of the outer loop of `ntt`/`fft` for one layer `l`: ntt.hpp:128-148, fft.hpp:1098-1113.
`step k len i` is the innermost statement block with table index `k`.
`for (start = 0; start < N; start += lenx2)` makes `N >> (l + 1)` iterations, `N` being a power of 2. -/
def downLayer {α : Type} (logn l : Nat) (step : (k len i : Nat) → Mem α → Mem α) (a : Mem α) :
    Mem α :=
  let N := 1 <<< logn
  let len := 1 <<< l
  let lenx2 := len <<< 1
  let k_beg := N >>> (l + 1)
  loop (N >>> (l + 1)) (fun b a =>
    let start := b * lenx2
    let k_now := k_beg + (start >>> (l + 1))
    loop len (fun i' a => step k_now len (start + i') a) a) a

/-- ntt.hpp:127-149, fft.hpp:1097-1114: `for (l = LOG2N - 1; l >= 0; l--)`. -/
def downLayers {α : Type} (logn : Nat) (step : (k len i : Nat) → Mem α → Mem α) (a : Mem α) :
    Mem α :=
  loop logn (fun j a => downLayer logn (logn - 1 - j) step a) a

/-- The body of the outer loop of `intt`/`ifft` for one layer `l`: ntt.hpp:169-190,
fft.hpp:1135-1151. -/
def upLayer {α : Type} (logn l : Nat) (step : (k len i : Nat) → Mem α → Mem α) (a : Mem α) :
    Mem α :=
  let N := 1 <<< logn
  let len := 1 <<< l
  let lenx2 := len <<< 1
  let k_beg := (N >>> l) - 1
  loop (N >>> (l + 1)) (fun b a =>
    let start := b * lenx2
    let k_now := k_beg - (start >>> (l + 1))
    loop len (fun i' a => step k_now len (start + i') a) a) a

/-- ntt.hpp:168-191, fft.hpp:1134-1152: `for (l = 0; l < LOG2N; l++)`. -/
def upLayers {α : Type} (logn : Nat) (step : (k len i : Nat) → Mem α → Mem α) (a : Mem α) :
    Mem α :=
  loop logn (fun l a => upLayer logn l step a) a

/-- ntt.hpp:18, 23 `FALCON512_ζ`, `FALCON1024_ζ`. -/
def nttZeta (logn : Nat) : Ff := if logn = 9 then Ff.ofU16 49 else Ff.ofU16 7

/-- ntt.hpp:62-83 `POWERS_OF_ζ_512`, `POWERS_OF_ζ_1024`. -/
def powersOfZeta (logn k : Nat) : Ff := Ff.pow (nttZeta logn) (bitRev logn k)

/-- ntt.hpp:88-109 `NEG_POWERS_OF_ζ_512`, `NEG_POWERS_OF_ζ_1024`. -/
def negPowersOfZeta (logn k : Nat) : Ff := Ff.neg (powersOfZeta logn k)

/-- ntt.hpp:26, 29 `INV_FALCON512_N`, `INV_FALCON1024_N`. -/
def invN (logn : Nat) : Ff := Ff.inv (Ff.ofU16 (UInt16.ofNat (1 <<< logn)))

/-- ntt.hpp:143-146, innermost block of `ntt`. -/
def nttStep (logn : Nat) (k len i : Nat) (poly : Mem Ff) : Mem Ff :=
  let z := powersOfZeta logn k
  let tmp := Ff.mul z (poly (i + len))
  let poly := upd poly (i + len) (Ff.sub (poly i) tmp)
  upd poly i (Ff.addAssign (poly i) tmp)

/-- ntt.hpp:120-150 `ntt<LOG2N>`. -/
def ntt (logn : Nat) (poly : Mem Ff) : Mem Ff := downLayers logn (nttStep logn) poly

/-- ntt.hpp:184-188, innermost block of `intt`. -/
def inttStep (logn : Nat) (k len i : Nat) (poly : Mem Ff) : Mem Ff :=
  let z := negPowersOfZeta logn k
  let tmp := poly i
  let poly := upd poly i (Ff.addAssign (poly i) (poly (i + len)))
  let poly := upd poly (i + len) (Ff.sub tmp (poly (i + len)))
  upd poly (i + len) (Ff.mulAssign (poly (i + len)) z)

/-- ntt.hpp:161-200 `intt<LOG2N>`. -/
def intt (logn : Nat) (poly : Mem Ff) : Mem Ff :=
  let poly := upLayers logn (inttStep logn) poly
  loop (1 <<< logn) (fun i poly => upd poly i (Ff.mulAssign (poly i) (invN logn))) poly

/-! ## The same loops with every array access checked (array of `N` elements, table of `tlen`) -/

/-- `downLayers` with checked accesses: the step may be undefined. -/
def downLayersE {α : Type} (logn : Nat) (step : (k len i : Nat) → Mem α → Except UB (Mem α))
    (a : Mem α) : Except UB (Mem α) :=
  loopE logn (fun j a =>
    let l := logn - 1 - j
    let N := 1 <<< logn
    let len := 1 <<< l
    let lenx2 := len <<< 1
    let k_beg := N >>> (l + 1)
    loopE (N >>> (l + 1)) (fun b a =>
      let start := b * lenx2
      let k_now := k_beg + (start >>> (l + 1))
      loopE len (fun i' a => step k_now len (start + i') a) a) a) a

/-- `upLayers` with checked accesses. -/
def upLayersE {α : Type} (logn : Nat) (step : (k len i : Nat) → Mem α → Except UB (Mem α))
    (a : Mem α) : Except UB (Mem α) :=
  loopE logn (fun l a =>
    let N := 1 <<< logn
    let len := 1 <<< l
    let lenx2 := len <<< 1
    let k_beg := (N >>> l) - 1
    loopE (N >>> (l + 1)) (fun b a =>
      let start := b * lenx2
      let k_now := k_beg - (start >>> (l + 1))
      loopE len (fun i' a => step k_now len (start + i') a) a) a) a

/-- ntt.hpp:137-146 with checked accesses; the table has `N` entries (ntt.hpp:67). -/
def nttStepE (logn : Nat) (k len i : Nat) (poly : Mem Ff) : Except UB (Mem Ff) := do
  let N := 1 <<< logn
  let z ← rdE N (powersOfZeta logn) k
  let y ← rdE N poly (i + len)
  let tmp := Ff.mul z y
  let x ← rdE N poly i
  let poly ← wrE N poly (i + len) (Ff.sub x tmp)
  let x ← rdE N poly i
  wrE N poly i (Ff.addAssign x tmp)

/-- `ntt<LOG2N>` with checked accesses. -/
def nttE (logn : Nat) (poly : Mem Ff) : Except UB (Mem Ff) := downLayersE logn (nttStepE logn) poly

/-- ntt.hpp:178-188 with checked accesses. -/
def inttStepE (logn : Nat) (k len i : Nat) (poly : Mem Ff) : Except UB (Mem Ff) := do
  let N := 1 <<< logn
  let z ← rdE N (negPowersOfZeta logn) k
  let tmp ← rdE N poly i
  let y ← rdE N poly (i + len)
  let poly ← wrE N poly i (Ff.addAssign tmp y)
  let y ← rdE N poly (i + len)
  let poly ← wrE N poly (i + len) (Ff.sub tmp y)
  let y ← rdE N poly (i + len)
  wrE N poly (i + len) (Ff.mulAssign y z)

/-- `intt<LOG2N>` with checked accesses. -/
def inttE (logn : Nat) (poly : Mem Ff) : Except UB (Mem Ff) := do
  let N := 1 <<< logn
  let poly ← upLayersE logn (inttStepE logn) poly
  loopE N (fun i poly => do
    let x ← rdE N poly i
    wrE N poly i (Ff.mulAssign x (invN logn))) poly

/-! ## polynomial.hpp, Z_q part -/

/-- polynomial.hpp:43-52 `add_to` over Z_q. -/
def polyAddTo (lg2n : Nat) (polya polyb : Mem Ff) : Mem Ff :=
  loop (1 <<< lg2n) (fun i polya => upd polya i (Ff.addAssign (polya i) (polyb i))) polya

/-- polynomial.hpp:56-65 `neg` over Z_q. -/
def polyNeg (lg2n : Nat) (poly : Mem Ff) : Mem Ff :=
  loop (1 <<< lg2n) (fun i poly => upd poly i (Ff.neg (poly i))) poly

/-- polynomial.hpp:99-110 `mul` over Z_q; `polyc` is the prior content of the output buffer. -/
def polyMul (lg2n : Nat) (polya polyb polyc : Mem Ff) : Mem Ff :=
  loop (1 <<< lg2n) (fun i polyc => upd polyc i (Ff.mul (polya i) (polyb i))) polyc

/-- polynomial.hpp:119-130 `div` over Z_q. -/
def polyDiv (lg2n : Nat) (polya polyb polyc : Mem Ff) : Mem Ff :=
  loop (1 <<< lg2n) (fun i polyc => upd polyc i (Ff.div (polya i) (polyb i))) polyc

end Falcon
