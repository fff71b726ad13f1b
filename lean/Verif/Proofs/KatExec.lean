import Verif.Proofs.RatFloat
import Verif.Proofs.ApproxExp
import Verif.Model.Kat

/-!
# An evaluator of the array variant of `samplerz` on integers, for the kernel

A number is a numerator and a denominator. Continuations receive their arguments in normal form.
-/

namespace Falcon

/-- `k n`, with `n` evaluated. -/
def forceN {α : Type} (n : ℕ) (k : ℕ → α) : α := Nat.rec (motive := fun _ => α) (k 0) (fun m _ => k (m + 1)) n

/-- `k z`, with `z` evaluated. -/
def forceZ {α : Type} (z : ℤ) (k : ℤ → α) : α :=
  match z with
  | .ofNat a => forceN a fun a => k (.ofNat a)
  | .negSucc a => forceN a fun a => k (.negSucc a)

/-- The rounding of n/d to binary64. -/
def rdk {α : Type} (n : ℤ) (d : ℕ) (k : ℤ → ℕ → α) : α :=
  forceZ n fun n => forceN d fun d =>
  if n = 0 then k 0 1 else
    forceZ (max (expQ n.natAbs d - 52) (-1074)) fun e =>
    forceZ (nearQ (n * 2 ^ (-e).toNat) (d * 2 ^ e.toNat) * 2 ^ e.toNat) fun m =>
    forceN (2 ^ (-e).toNat) fun p => k m p

/-- The base sampler: the number of leading entries above u. -/
def katBase (u : ℕ) : List ℕ → ℕ
  | [] => 0
  | c :: l => if u < c then katBase u l + 1 else 0

/-- The thresholds of the base sampler. -/
def katTails : List ℕ := [3024686241123004913666, 1564742784480091954050, 636254429462080897535, 199560484645026482916,
  47667343854657281903, 8595902006365044063, 1163297957344668388, 117656387352093658, 8867391802663976, 496969357462633,
  20680885154299, 638331848991, 14602316184, 247426747, 3104126, 28824, 198, 1]

/-- The comparison of `ber_exp`. -/
def katLoop (t bytes len base : ℕ) : (k ridx : ℕ) → Option (Bool × ℕ)
  | 0, _ => none
  | k + 1, ridx =>
    if base + ridx < len then
      let v := (bytes >>> (8 * (len - 1 - (base + ridx)))) % 256
      let w := (t >>> (8 * k)) % 256
      if v = w ∧ 0 < k ∧ ridx + 1 < len - base then katLoop t bytes len base k (ridx + 1)
      else some (decide (v < w), ridx + 1)
    else none

/-- The constants of the sampler, rounded. -/
structure KatPre where
  fl : ℤ
  rn : ℤ
  rd : ℕ
  invn : ℤ
  invd : ℕ
  c : ℕ

/-- The polynomial of `approx_exp`. -/
def katY (z : ℕ) : List ℕ → ℕ → ℕ
  | [], y => y
  | c :: l, y => forceN (c - (z * y) >>> 63) fun y => katY z l y

/-- Its coefficients. -/
def katExpC : List ℕ := [0x00000036548CFC06, 0x0000024FDCBF140A, 0x0000171D939DE045,
  0x0000D00CF58F6F84, 0x000680681CF796E3, 0x002D82D8305B0FEA, 0x011111110E066FD0,
  0x0555555555070F00, 0x155555555581FF00, 0x400000000002B400, 0x7FFFFFFFFFFF4800,
  0x8000000000000000]

/-- The threshold of `ber_exp` from s, the reduced argument and the fixed point value of ccs. -/
def katThr {α : Type} (s : ℕ) (rn : ℤ) (rd : ℕ) (c : ℕ) (fail : α) (k : ℕ → α) : α :=
  if 0 ≤ rn then
    forceN ((2 ^ 63 * rn.toNat) / rd) fun z =>
    if z ≤ zMax then
      forceN ((c * katY z katExpC 0x00000004741183A3) >>> 63) fun y =>
      if 1 ≤ y then forceN ((2 * y - 1) >>> s) k else fail
    else fail
  else fail

/-- One iteration and the following ones. -/
def katRun (fma : Bool) (p : KatPre) (bytes len : ℕ) : (fuel ridx : ℕ) → Option (ℤ × ℕ)
  | 0, _ => none
  | fuel + 1, ridx =>
    if ridx + 10 < len then
      forceN (katBase ((bytes >>> (8 * (len - (ridx + 9)))) % 2 ^ 72) katTails) fun z0 =>
      forceN ((bytes >>> (8 * (len - (ridx + 10)))) % 2) fun b =>
      forceZ ((b : ℤ) + (2 * b - 1) * z0) fun z =>
      rdk (z * p.rd - p.rn) p.rd fun t2n t2d =>
      rdk (t2n * t2n) (t2d * t2d) fun t3n t3d =>
      rdk (t3n * p.invn) (t3d * p.invd) fun t4n t4d =>
      rdk (z0 * z0 * 5435486223186882) (2 ^ 55) fun t6n t6d =>
      rdk (t4n * t6d - t6n * t4d) (t4d * t6d) fun xn xd =>
      rdk (xn * 6497320848556798) (xd * 2 ^ 52) fun sn sd =>
      forceZ (sn / sd) fun s =>
      if 0 ≤ s ∧ s < 63 then
        let go : ℤ → ℕ → Option (ℤ × ℕ) := fun rn rd =>
          katThr s.toNat rn rd p.c none fun t =>
          match katLoop t bytes len (ridx + 10) 8 0 with
          | none => none
          | some (true, i) => some (z + p.fl, ridx + 10 + i)
          | some (false, i) => forceN (ridx + 10 + i) fun ridx => katRun fma p bytes len fuel ridx
        if fma then rdk (xn * 2 ^ 53 - s * 6243314768165359 * xd) (xd * 2 ^ 53) go
        else rdk (s * 6243314768165359) (2 ^ 53) fun pn pd => rdk (xn * pd - pn * xd) (xd * pd) go
      else none
    else none

/-- The values that do not depend on the bytes. -/
def katPre {α : Type} (v : Kat) (fail : α) (k : KatPre → α) : α :=
  rdk v.mu (10 ^ v.muE) fun mn md =>
  rdk v.sg (10 ^ v.sgE) fun sn sd =>
  rdk v.sm (10 ^ v.smE) fun cn cd =>
  if 0 < sn then
    rdk (cn * sd) (cd * sn.toNat) fun qn qd =>
    forceZ (mn / md) fun fl =>
    rdk (mn - fl * md) md fun rn rd =>
    rdk (2 * sn) sd fun an ad =>
    rdk (an * sn) (ad * sd) fun bn bd =>
    if 0 < bn then
      rdk bd bn.toNat fun invn invd =>
      forceN ((2 ^ 63 * qn.toNat) / qd) fun c =>
      if 0 ≤ qn ∧ qn < qd ∧ -2147483630 ≤ fl ∧ fl < 2147483629 ∧ v.len < 2 ^ 64 then
        k ⟨fl, rn, rd, invn, invd, c⟩ else fail
    else fail
  else fail

/-- Both variants, with and without contraction, give the expected answer. -/
def katOk (v : Kat) : Bool :=
  katPre v false fun p => match katRun false p v.bytes v.len 16 0, katRun true p v.bytes v.len 16 0 with
    | some a, some b => a == (v.z, v.len) && b == (v.z, v.len)
    | _, _ => false

end Falcon
