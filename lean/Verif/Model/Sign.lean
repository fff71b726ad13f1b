import Verif.Model.Tree

/-!
# Model of include/prng.hpp, include/signing.hpp and of the rest of include/falcon.hpp and
include/keygen.hpp

The Mersenne Twister with the uniform byte distribution is a parameter `mt`: 32-bit seed ↦ bytes drawn.
-/

namespace Falcon

/-- prng.hpp:23-35: the seed of 32 bytes is drawn from a twister seeded with one `random_device` word `rd`,
and hashed. -/
def prngNew (xof : Xof) (mt : UInt32 → Mem UInt8) (rd : UInt32) : Nat → UInt8 :=
  let seed : Mem UInt8 := loop 32 (fun i s => upd s i (mt rd i)) (fun _ => 0)
  xof (bytes 32 seed)

/-- prng.hpp:37-40 `read`: `len` bytes of the stream from position `pos`. -/
def prngRead (stream : Nat → UInt8) (pos len : Nat) (buf : Mem UInt8) : Mem UInt8 :=
  loop len (fun i b => upd b i (stream (pos + i))) buf

section
variable {R C : Type} (A : Arith R C)

/-- falcon.hpp:53-90 `recompute_G<N>`; `G` is the prior content of the output buffer. -/
def recomputeG (logn : Nat) (f g F G : Mem Int) : Except UB (Mem Int) :=
  let N := 1 <<< logn
  let f_ := loop N (fun i m => upd m i (A.ofInt (f i))) (junkC A)
  let g_ := loop N (fun i m => upd m i (A.ofInt (g i))) (junkC A)
  let F_ := loop N (fun i m => upd m i (A.ofInt (F i))) (junkC A)
  let q := loop N (fun i m => upd m i (A.ofReal (A.lit 12289))) (junkC A)
  let f_ := fft A logn f_
  let g_ := fft A logn g_
  let F_ := fft A logn F_
  let tmp := polyMulC A logn g_ F_ (junkC A)
  let tmp := polyAddToC A logn tmp q
  let G_ := polyDivC A logn tmp f_ (junkC A)
  let G_ := ifft A logn G_
  loopE N (fun i m => (A.roundTo (-2 ^ 31) (2 ^ 31 - 1) (A.re (G_ i))).bind fun v => .ok (upd m i v)) G

/-- falcon.hpp:94-114 `compute_matrix_B<N>` and keygen.hpp:116-126 (the same statements). The loop fills the
four blocks at once; here one after the other. -/
def computeMatrixB (logn : Nat) (f g F G : Mem Int) (B : Mem C) : Mem C :=
  let N := 1 <<< logn
  let B := loop N (fun i B =>
    let B := upd B i (A.ofReal (A.lit (g i)))
    let B := upd B (N + i) (A.ofReal (A.neg (A.lit (f i))))
    let B := upd B (2 * N + i) (A.ofReal (A.lit (G i)))
    upd B (3 * N + i) (A.ofReal (A.neg (A.lit (F i))))) B
  let B := fft A logn B
  let B := atPtr N (fft A logn) B
  let B := atPtr (2 * N) (fft A logn) B
  atPtr (3 * N) (fft A logn) B

/-- falcon.hpp:129-130 `σ`. -/
def sigSigma (logn : Nat) : R := if logn = 10 then A.lit 168.388571447 else A.lit 165.736617183

/-- falcon.hpp:120-137 `compute_falcon_tree<N>`. -/
def computeFalconTree (logn : Nat) (B T : Mem C) : Mem C :=
  let gram := gramMatrix A logn B (junkC A)
  let T := ffldl A logn 0 gram T
  normalizeTree A (sigSigma A logn) logn 0 T

/-- keygen.hpp:100-135 `keygen::keygen<N>`: matrix, tree and public key (not serialised). -/
noncomputable def keygenRaw (fma : Bool) (logn : Nat) (stream : Nat → UInt8) (fuel iters : Nat) (junk : Ntru)
    (B T : Mem C) (h : Mem Ff) (sigma : R) (pos : Nat) :
    Option (Except UB (Mem C × Mem C × Mem Ff × Nat)) :=
  bindO (ntruGen (redQuot A) (gsTooBig A logn) fma logn stream fuel iters junk pos) fun r =>
  let s := r.1
  let B := computeMatrixB A logn s.f s.g s.F s.G B
  let gram := gramMatrix A logn B (junkC A)
  let T := ffldl A logn 0 gram T
  let T := normalizeTree A sigma logn 0 T
  let h := computePublicKey logn s.f s.g h
  some (.ok (B, T, h, r.2))

/-- falcon.hpp:28-44 `falcon::keygen<N>`: public and secret key bytes. -/
noncomputable def falconKeygen (xof : Xof) (mt : UInt32 → Mem UInt8) (fma : Bool) (logn fuel iters : Nat)
    (junk : Ntru) (rd : UInt32) (pkey skey : Mem UInt8) : Option (Except UB (Mem UInt8 × Mem UInt8)) :=
  let stream := prngNew xof mt rd
  bindO (ntruGen (redQuot A) (gsTooBig A logn) fma logn stream fuel iters junk 0) fun r =>
  let s := r.1
  let h := computePublicKey logn s.f s.g (fun _ => Ff.zero)
  some (.ok (encodePkey logn h pkey, encodeSkey logn s.f s.g s.F skey))

/-- signing.hpp:51-67: the target (t0, t1) from the hashed point. -/
def signTarget (logn : Nat) (B : Mem C) (c : Mem Ff) : Mem C × Mem C :=
  let N := 1 <<< logn
  let c_fft := loop N (fun i m => upd m i (A.ofInt ((c i).v.toNat : Int))) (junkC A)
  let c_fft := fft A logn c_fft
  let t0 := polyMulC A logn c_fft (ptr B (3 * N)) (junkC A)
  let t1 := polyMulC A logn c_fft (ptr B N) (junkC A)
  let q := A.ofReal (A.lit 12289)
  (loop N (fun i t0 => upd t0 i (A.cdiv (t0 i) q)) t0,
   loop N (fun i t1 => upd t1 i (A.cneg (A.cdiv (t1 i) q))) t1)

/-- signing.hpp:82-93: (s0, s1) = (t - z) B. -/
def signVec (logn : Nat) (B t0 t1 z0 z1 : Mem C) : Mem C × Mem C :=
  let N := 1 <<< logn
  let tz0 := polySubC A logn t0 z0 (junkC A)
  let tz1 := polySubC A logn t1 z1 (junkC A)
  let s0 := polyMulC A logn tz0 B (junkC A)
  let tmp := polyMulC A logn tz1 (ptr B (2 * N)) (junkC A)
  let s0 := polyAddToC A logn s0 tmp
  let s1 := polyMulC A logn tz0 (ptr B N) (junkC A)
  let tmp := polyMulC A logn tz1 (ptr B (3 * N)) tmp
  let s1 := polyAddToC A logn s1 tmp
  (s0, s1)

/-- signing.hpp:96-98: the squared norm of (s0, s1). -/
def signNorm (logn : Nat) (s0 s1 : Mem C) : R := A.add (sqrdNormC A logn s0) (sqrdNormC A logn s1)

/-- signing.hpp:102-106: s2, the rounded coefficients of s1. -/
def signRound (logn : Nat) (s1 : Mem C) : Except UB (Mem Int) :=
  let s1 := ifft A logn s1
  loopE (1 <<< logn) (fun i m =>
    (A.roundTo (-2 ^ 31) (2 ^ 31 - 1) (A.re (s1 i))).bind fun v => .ok (upd m i v)) (fun _ => 0)

/-- signing.hpp:78-114, the `while (1)` loop, at most `fuel` rounds. The local arrays of the loop are written
before they are read in each round, so each round starts with fresh ones here; `sig` is kept. `pos` is the state of
the sampler, for the code the position in the random stream. -/
def signLoop {S : Type} (leaf : LeafSampler R S) (logn : Nat) (B T t0 t1 : Mem C) :
    (fuel : Nat) → (sig : Mem UInt8) → (pos : S) → Option (Except UB (Mem UInt8 × S))
  | 0, _, _ => none
  | fuel + 1, sig, pos =>
    bindO (ffSampling A leaf logn 0 t0 t1 T (junkC A) (junkC A) pos) fun z =>
    let s := signVec A logn B t0 t1 z.1 z.2.1
    if A.le (signNorm A logn s.1 s.2) (A.lit (beta2 logn)) then
      bindO (some (signRound A logn s.2)) fun s2 =>
      bindO (some (compressSigE logn s2 sig)) fun r =>
      if r.1 then some (.ok (r.2, z.2.2))
      else signLoop leaf logn B T t0 t1 fuel r.2 z.2.2
    else signLoop leaf logn B T t0 t1 fuel sig z.2.2

/-- signing.hpp:30-118 `signing::sign<N, β2, slen>`, called by falcon.hpp:155-174 with the constants of the
parameter set; the random stream is at position `pos`. -/
def signPoly (xof : Xof) (leaf : LeafSampler R) (fuel hfuel : Nat) (logn : Nat) (B T : Mem C)
    (stream : Nat → UInt8) (msg : List UInt8) (sig : Mem UInt8) (pos : Nat) :
    Option (Except UB (Mem UInt8 × Nat)) :=
  let salt := prngRead stream pos 40 (fun _ => 0)
  let pos := pos + 40
  match hashToPoint hfuel logn (xof (bytes 40 salt ++ msg)) (fun _ => Ff.zero) with
  | none => none
  | some c =>
    let t := signTarget A logn B c
    bindO (signLoop A leaf logn B T t.1 t.2 fuel sig pos) fun r =>
    let sig := upd r.1 0 (0x30 ||| UInt8.ofNat logn)
    let sig := loop 40 (fun i sig => upd sig (1 + i) (salt i)) sig
    some (.ok (sig, r.2))

/-- falcon.hpp:189-216 `falcon::sign<N>` from secret key bytes; `leaf` is the integer sampler as a function of
the random stream, `junk` the content of the uninitialised local arrays. -/
def falconSign (xof : Xof) (mt : UInt32 → Mem UInt8) (leaf : (Nat → UInt8) → LeafSampler R) (fuel hfuel : Nat)
    (logn : Nat) (junk : FgF) (junkG : Mem Int) (junkB junkT : Mem C) (rd : UInt32) (skey : Mem UInt8)
    (msg : List UInt8) (sig : Mem UInt8) : Option (Except UB (Bool × Mem UInt8)) :=
  let stream := prngNew xof mt rd
  match decodeSkey logn skey junk with
  | (false, _) => some (.ok (false, sig))
  | (true, k) =>
    bindO (some (recomputeG A logn k.f k.g k.F junkG)) fun G =>
    let B := computeMatrixB A logn k.f k.g k.F G junkB
    let T := computeFalconTree A logn B junkT
    bindO (signPoly A xof (leaf stream) fuel hfuel logn B T stream msg sig 0) fun r =>
    some (.ok (true, r.1))

end

/-- The integer sampler of the code (samplerz.hpp:312-346) as the leaf sampler of `ff_sampling`. -/
noncomputable def codeLeaf (fma : Bool) (logn fuel : Nat) (stream : Nat → UInt8) : LeafSampler ℝ :=
  fun mu sigma pos => samplerz fma mu sigma (sigmaMin logn) stream fuel pos

/-- common.hpp:17-19: one byte as `ss << std::setw(2) << std::setfill('0') << uint32_t` prints it in base 16. -/
def hexByte (x : UInt8) : List Char :=
  let s := Nat.toDigits 16 x.toNat
  List.replicate (2 - s.length) '0' ++ s

/-- common.hpp:11-22 `to_hex`. -/
def toHex (len : Nat) (m : Mem UInt8) : List Char :=
  loop len (fun i ss => ss ++ hexByte (m i)) []

/-- The value of a hexadecimal digit. -/
def hexVal (c : Char) : Option Nat :=
  if '0' ≤ c ∧ c ≤ '9' then some (c.toNat - '0'.toNat)
  else if 'a' ≤ c ∧ c ≤ 'f' then some (c.toNat - 'a'.toNat + 10)
  else if 'A' ≤ c ∧ c ≤ 'F' then some (c.toNat - 'A'.toNat + 10)
  else none

/-- `strtol`: digits up to the first other character. -/
def strtolDigits : List Char → Nat → Nat
  | [], acc => acc
  | c :: cs, acc => match hexVal c with
    | some d => strtolDigits cs (16 * acc + d)
    | none => acc

/-- `strtol` after white space and sign: an optional prefix `0x`, counted only if a digit follows. -/
def strtolPrefix : List Char → Nat
  | '0' :: x :: d :: cs => if (x = 'x' ∨ x = 'X') ∧ (hexVal d).isSome then strtolDigits (d :: cs) 0
    else strtolDigits ('0' :: x :: d :: cs) 0
  | cs => strtolDigits cs 0

/-- `std::strtol(s, nullptr, 16)` in the C locale, for values that fit `long`. -/
def strtol16 (s : List Char) : Int :=
  match s.dropWhile (fun c => c = ' ' || ('\t' ≤ c && c ≤ '\r')) with
  | '-' :: cs => -(strtolPrefix cs : Int)
  | '+' :: cs => strtolPrefix cs
  | cs => strtolPrefix cs

/-- common.hpp:26-41 `to_byte_array`: the new content of `bytes`. -/
def toByteArray (hex : List Char) (m : Mem UInt8) : Mem UInt8 :=
  loop (hex.length / 2) (fun i m =>
    let t0 := (hex.drop (i * 2)).take 2
    upd m i (toU8 (strtol16 t0))) m

end Falcon
