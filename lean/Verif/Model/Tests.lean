import Verif.Model.Sign

/-!
# Programs of tests/: check_ntru_eq.hpp, test_ntru_gen.cpp, test_keygen.cpp
-/

namespace Falcon

section
variable {R C : Type} (A : Arith R C)

/-- tests/check_ntru_eq.hpp:12-69 `check_ntru_eq<N>`. The array `res` is not kept: each entry is compared when it is computed. -/
def checkNtruEq (logn : Nat) (f g F G : Mem Int) : Except UB Bool :=
  let N := 1 <<< logn
  let f_ := loop N (fun i m => upd m i (A.ofInt (f i))) (junkC A)
  let g_ := loop N (fun i m => upd m i (A.ofInt (g i))) (junkC A)
  let F_ := loop N (fun i m => upd m i (A.ofInt (F i))) (junkC A)
  let G_ := loop N (fun i m => upd m i (A.ofInt (G i))) (junkC A)
  let f_ := fft A logn f_
  let g_ := fft A logn g_
  let F_ := fft A logn F_
  let G_ := fft A logn G_
  let fG := polyMulC A logn f_ G_ (junkC A)
  let gF := polyMulC A logn g_ F_ (junkC A)
  let fGgF := polySubC A logn fG gF (junkC A)
  let fGgF := ifft A logn fGgF
  loopE N (fun i flg => (A.roundTo (-2 ^ 31) (2 ^ 31 - 1) (A.re (fGgF i))).bind fun v =>
    .ok (flg && if i = 0 then v == 12289 else v == 0)) true

/-- tests/test_ntru_gen.cpp:11-30 `test_ntru_gen<N>`: the flag that is expected to be true. -/
noncomputable def testNtruGen (fma : Bool) (logn : Nat) (stream : Nat → UInt8) (fuel iters : Nat) (junk : Ntru) :
    Option (Except UB Bool) :=
  bindO (ntruGen (redQuot A) (gsTooBig A logn) fma logn stream fuel iters junk 0) fun r =>
  some (checkNtruEq A logn r.1.f r.1.g r.1.F r.1.G)

/-- tests/test_keygen.cpp:36-50 `test_keygen<N>`, the part after `ntru_gen`: the flags `flg` and `match`, both expected to be true.
The result of `decode_skey` is ignored, as in the test. -/
def testKeyFormat (logn : Nat) (s : Ntru) (junk' : FgF) (junkG : Mem Int) (skey : Mem UInt8) : Except UB (Bool × Bool) :=
  let k := (decodeSkey logn (encodeSkey logn s.f s.g s.F skey) junk').2
  (recomputeG A logn k.f k.g k.F junkG).bind fun G =>
  (checkNtruEq A logn k.f k.g k.F G).bind fun flg =>
  .ok (flg, loop (1 <<< logn) (fun i b => b && (s.G i == G i)) true)

/-- tests/test_keygen.cpp:18-63 `test_keygen<N>`. -/
noncomputable def testKeygen (fma : Bool) (logn : Nat) (stream : Nat → UInt8) (fuel iters : Nat) (junk : Ntru) (junk' : FgF)
    (junkG : Mem Int) (skey : Mem UInt8) : Option (Except UB (Bool × Bool)) :=
  bindO (ntruGen (redQuot A) (gsTooBig A logn) fma logn stream fuel iters junk 0) fun r =>
  some (testKeyFormat A logn r.1 junk' junkG skey)

end

end Falcon
