import Verif.Model.UnitTests

/-!
# The programs that generate keys, sign and verify: tests/test_ffsampling.cpp, tests/test_signing.cpp and examples/

The words that `std::random_device` returns are arguments, and so are the contents of uninitialised arrays. A call of a function of
the library can run for ever or execute undefined behaviour, and then so does the program.
-/

namespace Falcon

/-- tests/test_ffsampling.cpp:94-116: the two integer polynomials are moved to the field and `s0 + s1 * h` is compared with `c`. -/
def testPreimage (logn : Nat) (h c : Mem Ff) (v0 v1 : Mem Int) : Bool :=
  let N := 1 <<< logn
  let s0_ntt : Mem Ff := loop N (fun i a => upd a i (s2ToFf (v0 i))) (fun _ => Ff.zero)
  let s1_ntt : Mem Ff := loop N (fun i a => upd a i (s2ToFf (v1 i))) (fun _ => Ff.zero)
  let s0_ntt := ntt logn s0_ntt
  let s1_ntt := ntt logn s1_ntt
  let h := ntt logn h
  let tmp1 := polyMul logn s1_ntt h (fun _ => Ff.zero)
  let tmp1 := polyAddTo logn tmp1 s0_ntt
  let tmp1 := intt logn tmp1
  loop N (fun i ok => ok && Ff.beq (tmp1 i) (c i)) true

section
variable {R C : Type} (A : Arith R C)

/-- tests/test_ffsampling.cpp:60-116 `test_ff_sampling<N>` after `keygen::keygen<N>`, for the random point `c`. Both inverse
transforms are applied before the first conversion; here the conversions of `s0` come before those of `s1`. -/
def testFfSampling (leaf : LeafSampler R) (logn : Nat) (B T : Mem C) (h c : Mem Ff) (pos : Nat) : Option (Except UB Bool) :=
  let t := signTarget A logn B c
  bindO (ffSampling A leaf logn 0 t.1 t.2 T (junkC A) (junkC A) pos) fun z =>
  let s := signVec A logn B t.1 t.2 z.1 z.2.1
  bindO (some (signRound A logn s.1)) fun v0 =>
  bindO (some (signRound A logn s.2)) fun v1 =>
  some (.ok (testPreimage logn h c v0 v1))

/-- The contents of the uninitialised arrays of one call of `falcon::sign` and one of `falcon::verify`. -/
structure CallJunk (C : Type) where
  fgF : FgF
  G : Mem Int
  B : Mem C
  T : Mem C
  verify : Junk

/-- tests/test_signing.cpp:28-37, the loop after `k` rounds: `sig` and whether all `EXPECT_TRUE` held. In round `k` the message has
length `k + 1`; `rds k` is the word `std::random_device` returns to `falcon::sign`. `slack` counts the bytes behind the array `sig`
that can be read; it is 0 in the test. -/
def testSigningLoop (xof : Xof) (mt : UInt32 → Mem UInt8) (leaf : (Nat → UInt8) → LeafSampler R) (fuel hfuel : Nat) (p : Ovf)
    (logn slack : Nat) (junk : Nat → CallJunk C) (rds : Nat → UInt32) (msgs : Nat → UInt8) (pkey skey sig : Mem UInt8) :
    (k : Nat) → Option (Except UB (Mem UInt8 × Bool))
  | 0 => some (.ok (sig, true))
  | k + 1 =>
    bindO (testSigningLoop xof mt leaf fuel hfuel p logn slack junk rds msgs pkey skey sig k) fun st =>
    let mlen := k + 1
    let msg := bytes mlen (prngRead msgs (k * (k + 1) / 2) mlen (fun _ => 0))
    bindO (falconSign A xof mt leaf fuel hfuel logn (junk k).fgF (junk k).G (junk k).B (junk k).T (rds k) skey msg st.1) fun r =>
    bindO (verify xof hfuel p logn (junk k).verify pkey msg (rdArr (sigLen logn + slack) r.2)) fun v =>
    some (.ok (r.2, st.2 && (r.1 && v)))

/-- tests/test_signing.cpp:9-42 `test_keygen_sign_verify<N>`, with `rounds` in place of `max_msg_len = 1024`: whether all
`EXPECT_TRUE` held. -/
noncomputable def testSigning (xof : Xof) (mt : UInt32 → Mem UInt8) (leaf : (Nat → UInt8) → LeafSampler R) (fma : Bool)
    (kfuel iters fuel hfuel : Nat) (p : Ovf) (logn slack rounds : Nat) (kjunk : Ntru) (junk : Nat → CallJunk C) (rng krd : UInt32)
    (rds : Nat → UInt32) (pkey skey sig : Mem UInt8) : Option (Except UB Bool) :=
  let msgs := prngNew xof mt rng
  bindO (falconKeygen A xof mt fma logn kfuel iters kjunk krd pkey skey) fun k =>
  bindO (testSigningLoop A xof mt leaf fuel hfuel p logn slack junk rds msgs k.1 k.2 sig rounds) fun st =>
  some (.ok st.2)

/-- examples/sign_one.cpp:9-51 `main`: whether the assertion at its end holds. -/
noncomputable def signOne (xof : Xof) (mt : UInt32 → Mem UInt8) (leaf : (Nat → UInt8) → LeafSampler R) (fma : Bool)
    (kfuel iters fuel hfuel : Nat) (p : Ovf) (logn slack : Nat) (kjunk : Ntru) (junk : CallJunk C) (rng krd rd : UInt32)
    (pkey skey sig : Mem UInt8) : Option (Except UB Bool) :=
  let msg := bytes 32 (prngRead (prngNew xof mt rng) 0 32 (fun _ => 0))
  bindO (falconKeygen A xof mt fma logn kfuel iters kjunk krd pkey skey) fun k =>
  bindO (falconSign A xof mt leaf fuel hfuel logn junk.fgF junk.G junk.B junk.T rd k.2 msg sig) fun r =>
  bindO (verify xof hfuel p logn junk.verify k.1 msg (rdArr (sigLen logn + slack) r.2)) fun v =>
  some (.ok (r.1 && v))

/-- examples/sign_many.cpp:62-76, the loop after `k` rounds: `sig`, the position of `rng` and whether all assertions held (after a
failed one the program stops; here it goes on and the flag stays false). -/
def signManyLoop (xof : Xof) (leaf : LeafSampler R) (fuel hfuel : Nat) (p : Ovf) (logn slack : Nat) (junk : Nat → Junk)
    (stream : Nat → UInt8) (B T : Mem C) (pkey sig : Mem UInt8) : (k : Nat) → Option (Except UB (Mem UInt8 × Nat × Bool))
  | 0 => some (.ok (sig, 0, true))
  | k + 1 =>
    bindO (signManyLoop xof leaf fuel hfuel p logn slack junk stream B T pkey sig k) fun st =>
    let msg := bytes 32 (prngRead stream st.2.1 32 (fun _ => 0))
    bindO (signPoly A xof leaf fuel hfuel logn B T stream msg st.1 (st.2.1 + 32)) fun r =>
    bindO (verify xof hfuel p logn (junk k) pkey msg (rdArr (sigLen logn + slack) r.1)) fun v =>
    some (.ok (r.1, r.2, st.2.2 && v))

/-- examples/sign_many.cpp:9-84 `main`, with `count` in place of `msgcnt = 4`: whether all assertions held. -/
noncomputable def signMany (xof : Xof) (mt : UInt32 → Mem UInt8) (leaf : (Nat → UInt8) → LeafSampler R) (fma : Bool)
    (kfuel iters fuel hfuel : Nat) (p : Ovf) (logn slack count : Nat) (kjunk : Ntru) (junk : CallJunk C) (vjunk : Nat → Junk)
    (rng krd : UInt32) (pkey skey sig : Mem UInt8) : Option (Except UB Bool) :=
  bindO (falconKeygen A xof mt fma logn kfuel iters kjunk krd pkey skey) fun k =>
  let stream := prngNew xof mt rng
  match decodeSkey logn k.2 junk.fgF with
  | (false, _) => some (.ok false)
  | (true, d) =>
    bindO (some (recomputeG A logn d.f d.g d.F junk.G)) fun G =>
    let B := computeMatrixB A logn d.f d.g d.F G junk.B
    let T := computeFalconTree A logn B junk.T
    bindO (signManyLoop A xof (leaf stream) fuel hfuel p logn slack vjunk stream B T k.1 sig count) fun st =>
    some (.ok st.2.2)

end

end Falcon
