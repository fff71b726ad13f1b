import Verif.Basic

/-!
# Model of include/u72.hpp and of the integer part of include/samplerz.hpp
-/

namespace Falcon

/-- u72.hpp:12-15: a 72-bit unsigned integer in two 64-bit words. -/
structure U72 where
  hi : UInt64
  lo : UInt64
  deriving DecidableEq, Repr

/-- `flg * 1ul` with `flg` a `bool`. -/
def flg64 (b : Bool) : UInt64 := if b then 1 else 0

namespace U72

/-- u72.hpp:23 `zero()`. -/
def zero : U72 := ⟨0, 0⟩

/-- u72.hpp:27-34 `operator+`. -/
def add (a b : U72) : U72 :=
  let lo := a.lo + b.lo
  let flg := decide (a.lo > 0xffffffffffffffff - b.lo)
  let hi := (a.hi + b.hi + flg64 flg) &&& 0xff
  ⟨hi, lo⟩

/-- u72.hpp:38-45 binary `operator-`. -/
def sub (a b : U72) : U72 :=
  let lo := a.lo - b.lo
  let flg := decide (a.lo < b.lo)
  let hi := (a.hi - (b.hi + flg64 flg)) &&& 0xff
  ⟨hi, lo⟩

/-- u72.hpp:51 unary `operator-`. -/
def neg (a : U72) : U72 := sub zero a

/-- u72.hpp:55-64 `operator>`. -/
def gt (a b : U72) : Bool :=
  let flg0 := decide (a.hi > b.hi)
  let flg1 := a.hi == b.hi
  let flg2 := decide (a.hi < b.hi)
  let flg3 := decide (a.lo > b.lo)
  flg0 || (flg1 && flg3) || (!flg2 && !flg1)

/-- u72.hpp:68-71 `operator<`. -/
def lt (a b : U72) : Bool := gt b a

/-- u72.hpp:75-85 `from_be_bytes`. -/
def fromBe (bytes : Mem UInt8) : U72 :=
  let hi := (bytes 0).toUInt64
  let lo := loop 8 (fun i lo => lo ||| ((bytes (1 + i)).toUInt64 <<< UInt64.ofNat ((7 - i) * 8))) 0
  ⟨hi, lo⟩

/-- u72.hpp:89-100 `to_be_bytes`. -/
def toBe (a : U72) : Mem UInt8 :=
  let res : Mem UInt8 := upd (fun _ => 0) 0 a.hi.toUInt8
  loop 8 (fun i res => upd res (1 + i) (a.lo >>> UInt64.ofNat ((7 - i) * 8)).toUInt8) res

/-- u72.hpp:104-114 `from_le_bytes`. -/
def fromLe (bytes : Mem UInt8) : U72 :=
  let hi := (bytes 8).toUInt64
  let lo := loop 8 (fun i lo => lo ||| ((bytes i).toUInt64 <<< UInt64.ofNat (i * 8))) 0
  ⟨hi, lo⟩

/-- u72.hpp:118-128 `to_le_bytes`. -/
def toLe (a : U72) : Mem UInt8 :=
  let res : Mem UInt8 := loop 8 (fun i res => upd res i (a.lo >>> UInt64.ofNat (i * 8)).toUInt8) (fun _ => 0)
  upd res 8 a.hi.toUInt8

end U72

/-- samplerz.hpp:32-50 `PDT`. -/
def PDT : List U72 := [
  ⟨92, 579786965361551358⟩, ⟨79, 2650674819858381952⟩, ⟨50, 6151151332533475715⟩,
  ⟨23, 12418831121734727451⟩, ⟨8, 4319188200692788085⟩, ⟨2, 2177953700873134608⟩,
  ⟨0, 7432604049020375675⟩, ⟨0, 1045641569992574730⟩, ⟨0, 108788995549429682⟩,
  ⟨0, 8370422445201343⟩, ⟨0, 476288472308334⟩, ⟨0, 20042553305308⟩, ⟨0, 623729532807⟩,
  ⟨0, 14354889437⟩, ⟨0, 244322621⟩, ⟨0, 3075302⟩, ⟨0, 28626⟩, ⟨0, 197⟩, ⟨0, 1⟩]

/-- samplerz.hpp:53-63 `ith_cumulative_distribution`, the entries of `CDT` (samplerz.hpp:68-79). -/
def CDT (i : Nat) : U72 := loop (i + 1) (fun j acc => U72.add acc (PDT.getD j U72.zero)) U72.zero

/-- samplerz.hpp:84-87 `RCDT`. -/
def RCDT (i : Nat) : U72 := U72.neg (CDT i)

/-- samplerz.hpp:117-128 `base_sampler(bytes)` and 133-147 `base_sampler(rng)`, given the 9 bytes. -/
def baseSampler (bytes : Mem UInt8) : UInt32 :=
  let u := U72.fromLe bytes
  loop 18 (fun i z0 => z0 + (if U72.lt u (RCDT i) then 1 else 0)) 0

/-- samplerz.hpp:157-207 `full_mul_u64`, the portable branch; returns (high, low). -/
def fullMulU64 (lhs rhs : UInt64) : UInt64 × UInt64 :=
  let lhs_hi := lhs >>> 32
  let lhs_lo := lhs &&& 0xffffffff
  let rhs_hi := rhs >>> 32
  let rhs_lo := rhs &&& 0xffffffff
  let hi := lhs_hi * rhs_hi
  let mid0 := lhs_hi * rhs_lo
  let mid1 := lhs_lo * rhs_hi
  let lo := lhs_lo * rhs_lo
  let mid0_hi := mid0 >>> 32
  let mid0_lo := mid0 &&& 0xffffffff
  let mid1_hi := mid1 >>> 32
  let mid1_lo := mid1 &&& 0xffffffff
  let t0 := lo >>> 32
  let t1 := t0 + mid0_lo + mid1_lo
  let carry := t1 >>> 32
  let res_hi := hi + mid0_hi + mid1_hi + carry
  let res_lo := lo + (mid0_lo <<< 32) + (mid1_lo <<< 32)
  (res_hi, res_lo)

/-- samplerz.hpp:212-217 `top_63_bits`. -/
def top63Bits (v : UInt64 × UInt64) : UInt64 :=
  let mask : UInt64 := ((1 : UInt64) <<< 62) - 1
  ((v.1 &&& mask) <<< 1) ||| (v.2 >>> 63)

/-- samplerz.hpp:100-106 the table `C`. -/
def expC : List UInt64 := [
  0x00000004741183A3, 0x00000036548CFC06, 0x0000024FDCBF140A, 0x0000171D939DE045,
  0x0000D00CF58F6F84, 0x000680681CF796E3, 0x002D82D8305B0FEA, 0x011111110E066FD0,
  0x0555555555070F00, 0x155555555581FF00, 0x400000000002B400, 0x7FFFFFFFFFFF4800,
  0x8000000000000000]

/-- samplerz.hpp:228-235 the polynomial part of `approx_exp` for the fixed point argument `z`. -/
def approxExpPoly (z : UInt64) : UInt64 :=
  loop 12 (fun u y =>
    let t0 := fullMulU64 z y
    let t1 := top63Bits t0
    expC.getD (u + 1) 0 - t1) (expC.getD 0 0)

/-- samplerz.hpp:225-242 `approx_exp` for the fixed point arguments `z = floor(2^63 x)` and
`c = floor(2^63 ccs)`. -/
def approxExpFix (z c : UInt64) : UInt64 :=
  let y := approxExpPoly z
  top63Bits (fullMulU64 c y)

/-- samplerz.hpp:257-268 the `do ... while` loop of `ber_exp` with threshold `z`, at shift `i`
(`i` ∈ {64, 56, ..., 8} before the decrement); `stream` is read at `pos`. Returns `w < 0` and the number
of bytes read in total. -/
def berLoop (z : UInt64) (stream : Nat → UInt8) (i pos : Nat) : Bool × Nat :=
  if h : 8 ≤ i then
    let i' := i - 8
    let t0 := stream pos
    let w : Int := (t0.toNat : Int) - (((z >>> UInt64.ofNat i') &&& 0xff).toNat : Int)
    if w = 0 ∧ i' > 0 then berLoop z stream i' (pos + 1) else (decide (w < 0), pos + 1)
  else (false, pos)
termination_by i
decreasing_by omega

end Falcon
