import Verif.FloatSpec
import Verif.Model.Sampler

/-!
# IEEE 754 binary64 with infinities, NaN and signed zeros

`ieeeA` of `Verif.FloatSpec` and the sampler of `Verif.Model.Sampler` work on real numbers with every result rounded, without an upper
bound on the exponent. Here are the data of the standard: finite numbers with a sign bit, infinities and NaN (payloads of
NaN are not distinguished; the code cannot observe them), round to nearest even, overflow to infinity. `f64A` is the
arithmetic of the code on such data, `samplerz64` the integer sampler on them.
-/

namespace Falcon

open Classical in
section

/-- A binary64 datum. `fin s x` is the finite number `x`; the sign bit `s` (true: negative) tells the two zeros apart. -/
inductive F64 where
  | nan
  | inf (s : Bool)
  | fin (s : Bool) (x : ℝ)

namespace F64

/-- The exact result `x` of an operation on finite numbers, delivered as a double: rounded, infinite when the rounded value
is 2^1024 or more in absolute value. `z` is the sign bit of an exact zero. -/
noncomputable def round (z : Bool) (x : ℝ) : F64 :=
  if 2 ^ 1024 ≤ |rnd x| then .inf (decide (x < 0))
  else .fin (if x = 0 then z else decide (x < 0)) (rnd x)

/-- `-a`. -/
noncomputable def neg : F64 → F64
  | .nan => .nan
  | .inf s => .inf (!s)
  | .fin s x => .fin (!s) (-x)

/-- `a + b`. -/
noncomputable def add : F64 → F64 → F64
  | .nan, _ => .nan
  | _, .nan => .nan
  | .inf s, .inf t => if s = t then .inf s else .nan
  | .inf s, .fin _ _ => .inf s
  | .fin _ _, .inf t => .inf t
  | .fin s x, .fin t y => round (s && t) (x + y)

/-- `a - b`. -/
noncomputable def sub (a b : F64) : F64 := add a (neg b)

/-- `a * b`. -/
noncomputable def mul : F64 → F64 → F64
  | .nan, _ => .nan
  | _, .nan => .nan
  | .inf s, .inf t => .inf (xor s t)
  | .inf s, .fin t y => if y = 0 then .nan else .inf (xor s t)
  | .fin s x, .inf t => if x = 0 then .nan else .inf (xor s t)
  | .fin s x, .fin t y => round (xor s t) (x * y)

/-- `a / b`. -/
noncomputable def div : F64 → F64 → F64
  | .nan, _ => .nan
  | _, .nan => .nan
  | .inf _, .inf _ => .nan
  | .inf s, .fin t _ => .inf (xor s t)
  | .fin s _, .inf t => .fin (xor s t) 0
  | .fin s x, .fin t y => if y = 0 then (if x = 0 then .nan else .inf (xor s t)) else round (xor s t) (x / y)

/-- `std::sqrt`. -/
noncomputable def sqrt : F64 → F64
  | .nan => .nan
  | .inf s => if s then .nan else .inf false
  | .fin s x => if x < 0 then .nan else round s (Real.sqrt x)

/-- Fused multiply-add `a * b + c`, one rounding. -/
noncomputable def fma : F64 → F64 → F64 → F64
  | .fin s x, .fin t y, .fin u z => round (xor s t && u) (x * y + z)
  | .fin _ _, .fin _ _, c => c
  | a, b, c => add (mul a b) c

/-- `a < b`. -/
noncomputable def lt : F64 → F64 → Bool
  | .nan, _ => false
  | _, .nan => false
  | .inf s, .inf t => s && !t
  | .inf s, .fin _ _ => s
  | .fin _ _, .inf t => !t
  | .fin _ x, .fin _ y => decide (x < y)

/-- `a <= b`. -/
noncomputable def le : F64 → F64 → Bool
  | .nan, _ => false
  | _, .nan => false
  | .inf s, .inf t => s || !t
  | .inf s, .fin _ _ => s
  | .fin _ _, .inf t => !t
  | .fin _ x, .fin _ y => decide (x ≤ y)

/-- `std::max`: `(a < b) ? b : a`. -/
noncomputable def max (a b : F64) : F64 := if lt a b then b else a

/-- `std::floor`. -/
noncomputable def floor : F64 → F64
  | .fin s x => .fin s ⌊x⌋
  | a => a

/-- The double nearest to a literal or an integer. -/
noncomputable def lit (q : ℚ) : F64 := round false (q : ℝ)

/-- `static_cast<T>(std::round(a))` for an integer type with values in [lo, hi]; infinities and NaN cannot be converted. -/
noncomputable def roundTo (lo hi : ℤ) : F64 → Except UB ℤ
  | .fin _ x => exactRoundTo lo hi x
  | _ => .error .floatConv

/-- `static_cast<uint64_t>` of a double with integral value. -/
noncomputable def toU64 : F64 → Except UB UInt64
  | .fin _ x => Falcon.toU64 ⌊x⌋
  | _ => .error .floatConv

/-- `static_cast<int32_t>` of a double with integral value. -/
noncomputable def toI32 : F64 → Except UB ℤ
  | .fin _ x => Falcon.toI32 ⌊x⌋
  | _ => .error .floatConv

/-- The complex product before the treatment of NaN, see `ieeeMul`. -/
noncomputable def cmul0 (b : Bool) (x y : F64 × F64) : F64 × F64 :=
  if b then (fma x.1 y.1 (neg (mul x.2 y.2)), fma x.1 y.2 (mul x.2 y.1))
  else (sub (mul x.1 y.1) (mul x.2 y.2), add (mul x.1 y.2) (mul x.2 y.1))

/-- The complex quotient before the treatment of NaN, see `ieeeDiv`. -/
noncomputable def cdiv0 (b : Bool) (x y : F64 × F64) : F64 × F64 :=
  let d := if b then fma y.1 y.1 (mul y.2 y.2) else add (mul y.1 y.1) (mul y.2 y.2)
  let p := cmul0 b x (y.1, neg y.2)
  (div p.1 d, div p.2 d)

/-- What the runtime library does when both parts came out as NaN (C11 annex G tries to recover infinities): an arbitrary
function of the operands. -/
abbrev Recover := F64 × F64 → F64 × F64 → F64 × F64

/-- The library replaces a result of which both parts are NaN. -/
noncomputable def recover (rec : Recover) (x y r : F64 × F64) : F64 × F64 :=
  match r with
  | (.nan, .nan) => rec x y
  | r => r

end F64

/-- The arithmetic of the code on binary64 data. `b`: complex products and quotients contracted to fused operations;
`rm`, `rd`: recovery from NaN in products and quotients. -/
noncomputable def f64A (b : Bool) (rm rd : F64.Recover) : Arith F64 (F64 × F64) where
  lit := F64.lit
  neg := F64.neg
  add := F64.add
  mul := F64.mul
  div := F64.div
  sqrt := F64.sqrt
  max := F64.max
  le := F64.le
  gt x y := F64.lt y x
  roundTo := F64.roundTo
  cx x y := (x, y)
  re z := z.1
  cadd x y := (F64.add x.1 y.1, F64.add x.2 y.2)
  csub x y := (F64.sub x.1 y.1, F64.sub x.2 y.2)
  cmul x y := F64.recover rm x y (F64.cmul0 b x y)
  cdiv x y := F64.recover rd x y (F64.cdiv0 b x y)
  cneg x := (F64.neg x.1, F64.neg x.2)
  conj x := (x.1, F64.neg x.2)
  scale r z := (F64.mul r z.1, F64.mul r z.2)
  tab k := (F64.lit (rootLit k).1, F64.lit (rootLit k).2)

/-! ## The integer sampler, samplerz.hpp, on binary64 data -/

/-- samplerz.hpp:15 `LN2`. -/
noncomputable def ln2F : F64 := F64.lit 0.6931471805599453

/-- samplerz.hpp:18 `INV_LN2`. -/
noncomputable def invLn2F : F64 := F64.div (F64.lit 1) ln2F

/-- samplerz.hpp:21, 24 `FALCON512_σ_min`, `FALCON1024_σ_min`. -/
noncomputable def sigmaMinF (logn : Nat) : F64 := if logn = 9 then F64.lit 1.277833697 else F64.lit 1.298280334

/-- samplerz.hpp:27 `σ_max`. -/
noncomputable def sigmaMaxF : F64 := F64.lit 1.8205

/-- samplerz.hpp:225-242 `approx_exp`. -/
noncomputable def approxExp64 (x ccs : F64) : Except UB UInt64 :=
  (F64.toU64 (F64.floor (F64.mul (F64.lit 9223372036854775808) x))).bind fun z =>
  (F64.toU64 (F64.floor (F64.mul (F64.lit 9223372036854775808) ccs))).bind fun c =>
  .ok (approxExpFix z c)

/-- samplerz.hpp:252-255: the threshold `z` of `ber_exp`. -/
noncomputable def berThreshold64 (fma : Bool) (x ccs : F64) : Except UB UInt64 :=
  let s := F64.floor (F64.mul x invLn2F)
  let r := if fma then F64.fma (F64.neg s) ln2F x else F64.sub x (F64.mul s ln2F)
  (F64.toU64 s).bind fun s =>
  let s_ : UInt64 := if s < 63 then s else 63
  (approxExp64 r ccs).bind fun y =>
  .ok ((2 * y - 1) >>> s_)

/-- samplerz.hpp:249-269 `ber_exp(x, ccs, rng)`. -/
noncomputable def berExp64 (fma : Bool) (x ccs : F64) (stream : Nat → UInt8) (pos : Nat) : Except UB (Bool × Nat) :=
  (berThreshold64 fma x ccs).bind fun z => .ok (berLoop z stream 64 pos)

/-- samplerz.hpp:321-322: `1. / (2. * σ * σ)`. -/
noncomputable def szInv64 (sigma : F64) : F64 := F64.div (F64.lit 1) (F64.mul (F64.mul (F64.lit 2) sigma) sigma)

/-- samplerz.hpp:318 and 333-340: the exponent `x`. -/
noncomputable def szX64 (mu sigma : F64) (b : Bool) (z0 : Nat) : F64 :=
  let r := F64.sub mu (F64.floor mu)
  let t2 := F64.sub (F64.lit (szZ b z0)) r
  let t3 := F64.mul t2 t2
  let t4 := F64.mul t3 (szInv64 sigma)
  let t5 := F64.lit ((z0 * z0 : Nat) : ℚ)
  let t6 := F64.mul t5 (szInv64 sigmaMaxF)
  F64.sub t4 t6

/-- samplerz.hpp:325-344, one iteration of the `while` loop. -/
noncomputable def szIter64 (fma : Bool) (mu sigma sigmin : F64) (stream : Nat → UInt8) (pos : Nat) :
    Except UB (Option ℤ × Nat) :=
  let ccs := F64.div sigmin sigma
  let z0 := (baseSampler (fun i => stream (pos + i))).toNat
  let b := (stream (pos + 9)) &&& 1 == 1
  (berExp64 fma (szX64 mu sigma b z0) ccs stream (pos + 10)).bind fun t7 =>
  if t7.1 then (F64.toI32 (F64.add (F64.lit (szZ b z0)) (F64.floor mu))).bind fun r => .ok (some r, t7.2)
  else .ok (none, t7.2)

/-- samplerz.hpp:312-346 `samplerz(μ, σ', σ_min, rng)`. -/
noncomputable def samplerz64 (fma : Bool) (mu sigma sigmin : F64) (stream : Nat → UInt8) :
    (fuel pos : Nat) → Option (Except UB (ℤ × Nat))
  | 0, _ => none
  | fuel + 1, pos =>
    match szIter64 fma mu sigma sigmin stream pos with
    | .error e => some (.error e)
    | .ok (some r, pos) => some (.ok (r, pos))
    | .ok (none, pos) => samplerz64 fma mu sigma sigmin stream fuel pos

/-- The integer sampler of the code as the leaf sampler of `ff_sampling`. -/
noncomputable def codeLeaf64 (fma : Bool) (logn fuel : Nat) (stream : Nat → UInt8) :
    F64 → F64 → Nat → Option (Except UB (Int × Nat)) :=
  fun mu sigma pos => samplerz64 fma mu sigma (sigmaMinF logn) stream fuel pos

end

end Falcon
