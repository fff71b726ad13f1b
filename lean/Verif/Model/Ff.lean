import Verif.Basic

/-!
# Model of include/ff.hpp : prime field Z_q, q = 12289
-/

namespace Falcon

/-- ff.hpp:13 `constexpr uint16_t Q = 3 * (1 << 12) + 1`. -/
def Q : UInt16 := 12289

/-- ff.hpp:23 `constexpr uint16_t R = 21843` (Barrett constant). -/
def R : UInt16 := 21843

/-- ff.hpp:64-66 `struct ff_t { uint16_t v; }`. The member is public and is written directly by
`decode_pkey`, `verify`, `compute_public_key` and `is_poly_invertible`. -/
structure Ff where
  v : UInt16
  deriving DecidableEq, Repr, Inhabited

namespace Ff

/-- ff.hpp:69-76 constructor `ff_t(const uint16_t _v)`. -/
def ofU16 (x : UInt16) : Ff := if x < Q then ⟨x⟩ else ⟨x % Q⟩

/-- ff.hpp:79 `zero()`. -/
def zero : Ff := ofU16 0

/-- ff.hpp:82 `one()`. -/
def one : Ff := ofU16 1

/-- `flg * Q` with `flg` a `bool`. -/
def flgQ (b : Bool) : UInt16 := if b then Q else 0

/-- ff.hpp:85-92 `operator+`. -/
def add (a b : Ff) : Ff :=
  let t0 := a.v + b.v
  let flg := decide (t0 ≥ Q)
  let t1 := t0 - flgQ flg
  ofU16 t1

/-- ff.hpp:96-103 `operator+=` : no canonicalising constructor at the end. -/
def addAssign (a b : Ff) : Ff :=
  let t0 := a.v + b.v
  let flg := decide (t0 ≥ Q)
  let t1 := t0 - flgQ flg
  ⟨t1⟩

/-- ff.hpp:113-117 unary `operator-`. -/
def neg (a : Ff) : Ff :=
  let tmp := Q - a.v
  ofU16 tmp

/-- ff.hpp:106-110 binary `operator-`. -/
def sub (a b : Ff) : Ff :=
  let t0 := neg b
  add a t0

/-- ff.hpp:129-139 / 156-165: the Barrett reduction shared verbatim by `operator*` and `operator*=`;
returns `t7`. -/
def barrett (a b : UInt16) : UInt16 :=
  let t0 : UInt32 := a.toUInt32
  let t1 : UInt32 := b.toUInt32
  let t2 : UInt32 := t0 * t1
  let t3 : UInt64 := t2.toUInt64 * R.toUInt64
  let t4 : UInt32 := (t3 >>> 28).toUInt32
  let t5 : UInt32 := t4 * Q.toUInt32
  let t6 : UInt16 := (t2 - t5).toUInt16
  let flg := decide (t6 ≥ Q)
  t6 - flgQ flg

/-- ff.hpp:127-142 `operator*`. -/
def mul (a b : Ff) : Ff := ofU16 (barrett a.v b.v)

/-- ff.hpp:152-167 `operator*=`. -/
def mulAssign (a b : Ff) : Ff := ⟨barrett a.v b.v⟩

end Ff

/-- Conversion to `int16_t` (C++20: modular, value in [-32768, 32767]). -/
def wrap16 (x : Int) : Int := Int.bmod x 65536

theorem natAbs_wrap16_le (x : Int) : (wrap16 x).natAbs ≤ x.natAbs := by
  unfold wrap16 Int.bmod
  simp only
  split <;> omega

theorem wrap16_cong (a q r : Int) : wrap16 (a - wrap16 q * r) = wrap16 (a - q * r) := by
  unfold wrap16
  rw [← Int.sub_bmod_bmod, Int.bmod_mul_bmod, Int.sub_bmod_bmod]

theorem xgcd_dec (a r : Int) (h : r ≠ 0) :
    (wrap16 (a - wrap16 (a.tdiv r) * r)).natAbs < r.natAbs := by
  rw [wrap16_cong]
  refine Nat.lt_of_le_of_lt (natAbs_wrap16_le _) ?_
  have e : a - a.tdiv r * r = a.tmod r := by
    have := Int.tmod_def a r
    rw [this, Int.mul_comm]
  rw [e, Int.natAbs_tmod]
  exact Nat.mod_lt _ (Int.natAbs_pos.mpr h)

/-- ff.hpp:38-53, the `while (r != 0)` loop of `xgcd`. All variables are `int16_t`; the arithmetic is
done in `int` after promotion and converted back on assignment (`wrap16`). `int` division truncates. -/
def xgcdLoop (old_r r old_s s old_t t : Int) : Int × Int × Int :=
  if r = 0 then (old_s, old_t, old_r)
  else
    let quotient := wrap16 (old_r.tdiv r)
    xgcdLoop r (wrap16 (old_r - quotient * r)) s (wrap16 (old_s - quotient * s))
      t (wrap16 (old_t - quotient * t))
termination_by r.natAbs
decreasing_by
  exact xgcd_dec _ _ (by assumption)

/-- The values (before conversion to `int16_t`) that the same loop assigns: `quotient`, `r`, `s`, `t` of
every iteration, ff.hpp:39, 44, 48, 52. Used to state that no conversion changes a value. -/
def xgcdAssigned (old_r r old_s s old_t t : Int) : List Int :=
  if r = 0 then []
  else
    let quotient := wrap16 (old_r.tdiv r)
    [old_r.tdiv r, old_r - quotient * r, old_s - quotient * s, old_t - quotient * t] ++
    xgcdAssigned r (wrap16 (old_r - quotient * r)) s (wrap16 (old_s - quotient * s))
      t (wrap16 (old_t - quotient * t))
termination_by r.natAbs
decreasing_by
  exact xgcd_dec _ _ (by assumption)

/-- ff.hpp:31-60 `xgcd(x, y)`; result `{a, b, g}`. -/
def xgcd (x y : UInt16) : Int × Int × Int :=
  xgcdLoop (wrap16 x.toNat) (wrap16 y.toNat) 1 0 0 1

namespace Ff

/-- `flg * 1` with `flg` a `bool`. -/
def flg1 (b : Bool) : UInt16 := if b then 1 else 0

/-- Conversion of an `int` to `uint16_t` (modular). -/
def toU16 (x : Int) : UInt16 := UInt16.ofNat (x % 65536).toNat

/-- ff.hpp:181-196 `inv()`. -/
def inv (a : Ff) : Ff :=
  let flg0 := decide (a.v = 0)
  let t0 := a.v + flg1 flg0
  let res := xgcd t0 Q
  let f1 := decide (res.1 < 0)
  let t1 := toU16 ((flgQ f1).toNat + res.1)
  let f2 := decide (t1 ≥ Q)
  let t2 := t1 - flgQ f2
  let t3 := t2 - flg1 flg0
  ofU16 t3

/-- ff.hpp:199-202 `operator/`. -/
def div (a b : Ff) : Ff := mul a (inv b)

/-- `64 - std::countl_zero(n)` for a 64-bit `n` : its bit length. -/
def bitLen (n : Nat) : Nat := if n = 0 then 0 else Nat.log2 n + 1

/-- ff.hpp:209-227 `operator^(n)`, `n` a 64-bit unsigned. Loop `i = 1 .. till-1`; state `(base, res)`. -/
def pow (a : Ff) (n : Nat) : Ff :=
  let res := if n % 2 = 1 then a else one
  let till := bitLen n
  (loop (till - 1) (fun i (s : Ff × Ff) =>
    let base := mul s.1 s.1
    let res := mul s.2 (if (n >>> (i + 1)) % 2 = 1 then base else one)
    (base, res)) (a, res)).2

/-- ff.hpp:230-233 `operator==` : `!static_cast<bool>(v ^ rhs.v)`. -/
def beq (a b : Ff) : Bool := (a.v ^^^ b.v) == 0

/-- ff.hpp:236 `operator!=`. -/
def bne (a b : Ff) : Bool := !(beq a b)

/-- ff.hpp:239-248 ordering operators compare the stored representatives. -/
def lt (a b : Ff) : Bool := decide (a.v < b.v)

end Ff

end Falcon
