import Verif.Model.Programs

/-!
# The benchmarks as programs: benchmarks/bench_keygen.cpp, benchmarks/bench_signing.cpp and benchmarks/bench_verify.cpp

Only what the benchmarks compute is modelled, not the measurement. The number of iterations, which the benchmark library chooses, is an
argument, and so are the words that `std::random_device` returns and the contents of uninitialised arrays. `slack` counts the bytes
behind the array `sig` that can be read; it is 0 in the benchmarks.
-/

namespace Falcon

section
variable {R C : Type} (A : Arith R C)

/-- benchmarks/bench_keygen.cpp:9-32 `falcon_keygen<N>` after `k` iterations: the last pair of keys. -/
noncomputable def benchKeygen (xof : Xof) (mt : UInt32 → Mem UInt8) (fma : Bool) (logn kfuel iters : Nat) (kjunk : Nat → Ntru)
    (krds : Nat → UInt32) (pkey skey : Mem UInt8) : (k : Nat) → Option (Except UB (Mem UInt8 × Mem UInt8))
  | 0 => some (.ok (pkey, skey))
  | k + 1 =>
    bindO (benchKeygen xof mt fma logn kfuel iters kjunk krds pkey skey k) fun st =>
    falconKeygen A xof mt fma logn kfuel iters (kjunk k) (krds k) st.1 st.2

/-- benchmarks/bench_signing.cpp:32-41, the loop after `k` iterations: `_signed` and `sig`. -/
def benchSignLoop (xof : Xof) (mt : UInt32 → Mem UInt8) (leaf : (Nat → UInt8) → LeafSampler R) (fuel hfuel logn : Nat)
    (junk : Nat → CallJunk C) (rds : Nat → UInt32) (skey : Mem UInt8) (msg : List UInt8) (sig : Mem UInt8) :
    (k : Nat) → Option (Except UB (Bool × Mem UInt8))
  | 0 => some (.ok (true, sig))
  | k + 1 =>
    bindO (benchSignLoop xof mt leaf fuel hfuel logn junk rds skey msg sig k) fun st =>
    bindO (falconSign A xof mt leaf fuel hfuel logn (junk k).fgF (junk k).G (junk k).B (junk k).T (rds k) skey msg st.2) fun r =>
    some (.ok (st.1 && r.1, r.2))

/-- benchmarks/bench_signing.cpp:12-54 `falcon_sign_single<N>` with `k` iterations: `_signed` and `verified`, which it asserts. -/
noncomputable def benchSignSingle (xof : Xof) (mt : UInt32 → Mem UInt8) (leaf : (Nat → UInt8) → LeafSampler R) (fma : Bool)
    (kfuel iters fuel hfuel : Nat) (p : Ovf) (logn slack mlen k : Nat) (kjunk : Ntru) (junk : Nat → CallJunk C) (vjunk : Junk)
    (rng krd : UInt32) (rds : Nat → UInt32) (pkey skey sig : Mem UInt8) : Option (Except UB (Bool × Bool)) :=
  bindO (falconKeygen A xof mt fma logn kfuel iters kjunk krd pkey skey) fun key =>
  let msg := bytes mlen (prngRead (prngNew xof mt rng) 0 mlen (fun _ => 0))
  bindO (benchSignLoop A xof mt leaf fuel hfuel logn junk rds key.2 msg sig k) fun st =>
  bindO (verify xof hfuel p logn vjunk key.1 msg (rdArr (sigLen logn + slack) st.2)) fun v =>
  some (.ok (st.1, v))

/-- benchmarks/bench_signing.cpp:92-101, the loop after `k` iterations: `sig` and the position of `rng`. -/
def benchPolyLoop (xof : Xof) (leaf : LeafSampler R) (fuel hfuel logn : Nat) (stream : Nat → UInt8) (B T : Mem C) (msg : List UInt8)
    (sig : Mem UInt8) (pos : Nat) : (k : Nat) → Option (Except UB (Mem UInt8 × Nat))
  | 0 => some (.ok (sig, pos))
  | k + 1 =>
    bindO (benchPolyLoop xof leaf fuel hfuel logn stream B T msg sig pos k) fun st =>
    signPoly A xof leaf fuel hfuel logn B T stream msg st.1 st.2

/-- benchmarks/bench_signing.cpp:63-114 `falcon_sign_many<N>` with `k` iterations: `verified`, which it asserts. The constants σ and β2
of lines 75-80 are those of falcon.hpp. -/
noncomputable def benchSignMany (xof : Xof) (mt : UInt32 → Mem UInt8) (leaf : (Nat → UInt8) → LeafSampler R) (fma : Bool)
    (kfuel iters fuel hfuel : Nat) (p : Ovf) (logn slack mlen k : Nat) (kjunk : Ntru) (vjunk : Junk) (rng : UInt32)
    (B T : Mem C) (h : Mem Ff) (sig : Mem UInt8) : Option (Except UB Bool) :=
  let stream := prngNew xof mt rng
  bindO (keygenRaw A fma logn stream kfuel iters kjunk B T h (sigSigma A logn) 0) fun key =>
  let msg := bytes mlen (prngRead stream key.2.2.2 mlen (fun _ => 0))
  bindO (benchPolyLoop A xof (leaf stream) fuel hfuel logn stream key.1 key.2.1 msg sig (key.2.2.2 + mlen) k) fun st =>
  verifyPoly xof hfuel p logn (beta2 logn) vjunk key.2.2.1 msg (rdArr (sigLen logn + slack) st.1)

/-- benchmarks/bench_verify.cpp:34-43, the loop after `k` iterations: `verified`. -/
def benchVerifyLoop (xof : Xof) (hfuel : Nat) (p : Ovf) (logn slack : Nat) (vjunk : Nat → Junk) (pkey : Mem UInt8) (msg : List UInt8)
    (sig : Mem UInt8) : (k : Nat) → Option (Except UB Bool)
  | 0 => some (.ok true)
  | k + 1 =>
    bindO (benchVerifyLoop xof hfuel p logn slack vjunk pkey msg sig k) fun ok =>
    bindO (verify xof hfuel p logn (vjunk k) pkey msg (rdArr (sigLen logn + slack) sig)) fun v =>
    some (.ok (ok && v))

/-- benchmarks/bench_verify.cpp:11-53 `falcon_verify<N>` with `k` iterations: `_signed` and `verified`, which it asserts (`_signed`
before the loop; here the loop runs in any case). -/
noncomputable def benchVerify (xof : Xof) (mt : UInt32 → Mem UInt8) (leaf : (Nat → UInt8) → LeafSampler R) (fma : Bool)
    (kfuel iters fuel hfuel : Nat) (p : Ovf) (logn slack mlen k : Nat) (kjunk : Ntru) (junk : CallJunk C) (vjunk : Nat → Junk)
    (rng krd rd : UInt32) (pkey skey sig : Mem UInt8) : Option (Except UB (Bool × Bool)) :=
  bindO (falconKeygen A xof mt fma logn kfuel iters kjunk krd pkey skey) fun key =>
  let msg := bytes mlen (prngRead (prngNew xof mt rng) 0 mlen (fun _ => 0))
  bindO (falconSign A xof mt leaf fuel hfuel logn junk.fgF junk.G junk.B junk.T rd key.2 msg sig) fun r =>
  bindO (benchVerifyLoop xof hfuel p logn slack vjunk key.1 msg r.2 k) fun v =>
  some (.ok (r.1, v))

end

end Falcon
