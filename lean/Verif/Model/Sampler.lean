import Verif.Model.U72
import Verif.Model.Float
import Verif.Basic

/-!
# Model of the floating point part of include/samplerz.hpp

Doubles are reals with every operation rounded (`Verif.Model.Float`). The random byte stream of the PRNG
is a function `stream`; `pos` counts the bytes already read. `fma` tells whether the compiler contracts
`x - s * LN2` (samplerz.hpp:253, one expression) into a fused multiply-add, as clang does by default
when the target has such an instruction; both behaviours are allowed by the C++ standard.
-/

namespace Falcon

/-- samplerz.hpp:15 `LN2`: the double nearest to the literal. -/
noncomputable def LN2 : ℝ := rnd 0.6931471805599453

/-- samplerz.hpp:18 `INV_LN2`. -/
noncomputable def INV_LN2 : ℝ := fdiv 1 LN2

/-- samplerz.hpp:21, 24 `FALCON512_σ_min`, `FALCON1024_σ_min`. -/
noncomputable def sigmaMin (logn : Nat) : ℝ := if logn = 9 then rnd 1.277833697 else rnd 1.298280334

/-- samplerz.hpp:27 `σ_max`. -/
noncomputable def sigmaMax : ℝ := rnd 1.8205

/-- `static_cast<uint64_t>` of a double with the integral value `n`: undefined when out of range. -/
def toU64 (n : ℤ) : Except UB UInt64 :=
  if 0 ≤ n ∧ n < 2 ^ 64 then .ok (UInt64.ofNat n.toNat) else .error .floatConv

/-- `static_cast<int32_t>` of a double with the integral value `n`. -/
def toI32 (n : ℤ) : Except UB ℤ :=
  if -2 ^ 31 ≤ n ∧ n < 2 ^ 31 then .ok n else .error .floatConv

/-- samplerz.hpp:225-242 `approx_exp`. -/
noncomputable def approxExp (x ccs : ℝ) : Except UB UInt64 :=
  (toU64 ⌊fmul 9223372036854775808 x⌋).bind fun z =>
  (toU64 ⌊fmul 9223372036854775808 ccs⌋).bind fun c =>
  .ok (approxExpFix z c)

/-- samplerz.hpp:252 and 289 `s`. -/
noncomputable def berS (x : ℝ) : ℤ := ⌊fmul x INV_LN2⌋

/-- samplerz.hpp:253 and 290 `r`. -/
noncomputable def berR (fma : Bool) (x : ℝ) : ℝ :=
  if fma then rnd (x - berS x * LN2) else fsub x (fmul (berS x) LN2)

/-- samplerz.hpp:252-255 and 289-292: the threshold `z`. -/
noncomputable def berThreshold (fma : Bool) (x ccs : ℝ) : Except UB UInt64 :=
  (toU64 (berS x)).bind fun s =>
  let s_ : UInt64 := if s < 63 then s else 63
  (approxExp (berR fma x) ccs).bind fun y =>
  .ok ((2 * y - 1) >>> s_)

/-- samplerz.hpp:249-269 `ber_exp(x, ccs, rng)`; returns the bit and the new stream position. -/
noncomputable def berExp (fma : Bool) (x ccs : ℝ) (stream : Nat → UInt8) (pos : Nat) :
    Except UB (Bool × Nat) :=
  (berThreshold fma x ccs).bind fun z => .ok (berLoop z stream 64 pos)

/-- samplerz.hpp:318 / 368 `r`. -/
noncomputable def szR (mu : ℝ) : ℝ := fsub mu ⌊mu⌋

/-- samplerz.hpp:321-322 / 371-372: `1. / (2. * σ * σ)`. -/
noncomputable def szInv (sigma : ℝ) : ℝ := fdiv 1 (fmul (fmul 2 sigma) sigma)

/-- samplerz.hpp:330-331: `b + (2 * b - 1) * z0`. -/
def szZ (b : Bool) (z0 : Nat) : ℤ :=
  let b : ℤ := if b then 1 else 0
  b + (2 * b - 1) * z0

/-- samplerz.hpp:333-340 / 387-394: the exponent `x`. -/
noncomputable def szX (mu sigma : ℝ) (b : Bool) (z0 : Nat) : ℝ :=
  let t2 := fsub (szZ b z0) (szR mu)
  let t3 := fmul t2 t2
  let t4 := fmul t3 (szInv sigma)
  let t5 : ℝ := ((z0 * z0 : Nat) : ℝ)
  let t6 := fmul t5 (szInv sigmaMax)
  fsub t4 t6

/-- samplerz.hpp:325-344, one iteration of the `while` loop: `(some result | none to continue, pos)`. -/
noncomputable def szIter (fma : Bool) (mu sigma sigmin : ℝ) (stream : Nat → UInt8) (pos : Nat) :
    Except UB (Option ℤ × Nat) :=
  let ccs := fdiv sigmin sigma
  let z0 := (baseSampler (fun i => stream (pos + i))).toNat
  let b := (stream (pos + 9)) &&& 1 == 1
  (berExp fma (szX mu sigma b z0) ccs stream (pos + 10)).bind fun t7 =>
  if t7.1 then (toI32 ⌊fadd (szZ b z0) ⌊mu⌋⌋).bind fun r => .ok (some r, t7.2)
  else .ok (none, t7.2)

/-- samplerz.hpp:312-346 `samplerz(μ, σ', σ_min, rng)`; `none`: not finished after `fuel` iterations. -/
noncomputable def samplerz (fma : Bool) (mu sigma sigmin : ℝ) (stream : Nat → UInt8) :
    (fuel pos : Nat) → Option (Except UB (ℤ × Nat))
  | 0, _ => none
  | fuel + 1, pos =>
    match szIter fma mu sigma sigmin stream pos with
    | .error e => some (.error e)
    | .ok (some r, pos) => some (.ok (r, pos))
    | .ok (none, pos) => samplerz fma mu sigma sigmin stream fuel pos

/-! ## The variants reading from an array (used by the known answer tests) -/

/-- samplerz.hpp:294-305, the `do ... while` loop of the array variant of `ber_exp`. `rb` has `cap`
bytes, reading starts at `base`; `len` is the parameter `rblen`. -/
def berLoopArr (z : UInt64) (cap : Nat) (rb : Mem UInt8) (base len i ridx : Nat) : Except UB (Bool × Nat) :=
  if h : 8 ≤ i then
    let i' := i - 8
    (rdE cap rb (base + ridx)).bind fun t0 =>
    let ridx := ridx + 1
    let w : Int := (t0.toNat : Int) - (((z >>> UInt64.ofNat i') &&& 0xff).toNat : Int)
    if w = 0 ∧ i' > 0 ∧ ridx < len then berLoopArr z cap rb base len i' ridx
    else .ok (decide (w < 0), ridx)
  else .ok (false, ridx)
termination_by i
decreasing_by omega

/-- samplerz.hpp:361-404, one iteration of the loop of the array variant of `samplerz`: `memcpy` of nine
bytes, reversal, sign byte, rejection. `rblen - ridx` is a `size_t` difference. -/
noncomputable def szIterArr (fma : Bool) (mu sigma sigmin : ℝ) (rb : Mem UInt8) (rblen ridx : Nat) :
    Except UB (Option ℤ × Nat) :=
  let ccs := fdiv sigmin sigma
  (loopE 9 (fun i (tmp : Mem UInt8) => (rdE rblen rb (ridx + i)).bind fun v => .ok (upd tmp i v))
    (fun _ => 0)).bind fun tmp =>
  let ridx := ridx + 9
  let z0 := (baseSampler (fun i => tmp (8 - i))).toNat
  (rdE rblen rb ridx).bind fun v =>
  let b := v &&& 1 == 1
  let ridx := ridx + 1
  (berThreshold fma (szX mu sigma b z0) ccs).bind fun z =>
  (berLoopArr z rblen rb ridx ((rblen + 2 ^ 64 - ridx) % 2 ^ 64) 64 0).bind fun t7 =>
  let ridx := ridx + t7.2
  if t7.1 then (toI32 ⌊fadd (szZ b z0) ⌊mu⌋⌋).bind fun r => .ok (some r, ridx)
  else .ok (none, ridx)

/-- samplerz.hpp:361-404 the array variant of `samplerz`; returns the value (0 when the bytes are
exhausted) and the number of bytes used. -/
noncomputable def samplerzArr (fma : Bool) (mu sigma sigmin : ℝ) (rb : Mem UInt8) (rblen : Nat) :
    (fuel ridx : Nat) → Option (Except UB (ℤ × Nat))
  | 0, _ => none
  | fuel + 1, ridx =>
    if ridx < rblen then
      match szIterArr fma mu sigma sigmin rb rblen ridx with
      | .error e => some (.error e)
      | .ok (some r, ridx) => some (.ok (r, ridx))
      | .ok (none, ridx) => samplerzArr fma mu sigma sigmin rb rblen fuel ridx
    else some (.ok (0, ridx))

end Falcon
