import Verif.Model.Programs
import Verif.Props.F64Keygen
import Verif.Props.SignGauss
import Verif.Props.UnitTests

/-!
# C105, C106: the programs that generate keys, sign and verify
-/

namespace Falcon

open Finset Polynomial

theorem s2ToFf_small {x : ℤ} (hx : |x| ≤ 12288) : (s2ToFf x).Canonical ∧ (s2ToFf x).val = (x : Zq) := by
  rw [abs_le] at hx
  have key : ((s2ToFf x).v.toNat : ℤ) = (if x < 0 then 12289 else 0) + x := by
    unfold s2ToFf Ff.toU16
    simp only [UInt16.toNat_ofNat', Q_toNat]
    split <;> omega
  constructor
  · unfold Ff.Canonical
    have hq : q = 12289 := rfl
    split at key <;> omega
  · unfold Ff.val
    rw [← Int.cast_natCast, key]
    push_cast
    split
    · have : (12289 : Zq) = 0 := by decide +kernel
      rw [this, zero_add]
    · rw [zero_add]

/-- C105. What the test of fast Fourier sampling checks: for coefficients up to 12288 exactly that (v0, v1) is a preimage of c. -/
theorem C105_check {n : ℕ} (hn : ValidLog n) {h c : Mem Ff} {v0 v1 : Mem Int} (hh : CanonBelow (2 ^ n) h) (hc : CanonBelow (2 ^ n) c)
    (h0 : ∀ i, i < 2 ^ n → |v0 i| ≤ 12288) (h1 : ∀ i, i < 2 ^ n → |v1 i| ≤ 12288) :
    testPreimage n h c v0 v1 = true ↔ Preimage (2 ^ n) h c v0 v1 := by
  obtain ⟨a, ha⟩ : ∃ a, a = loop (2 ^ n) (fun i a => upd a i (s2ToFf (v0 i))) (fun _ => Ff.zero) := ⟨_, rfl⟩
  obtain ⟨b, hb⟩ : ∃ b, b = loop (2 ^ n) (fun i a => upd a i (s2ToFf (v1 i))) (fun _ => Ff.zero) := ⟨_, rfl⟩
  have ha' : ∀ i, i < 2 ^ n → a i = s2ToFf (v0 i) := by
    intro i hi; rw [ha, loop_fill, if_pos hi]
  have hb' : ∀ i, i < 2 ^ n → b i = s2ToFf (v1 i) := by
    intro i hi; rw [hb, loop_fill, if_pos hi]
  have hac : CanonBelow (2 ^ n) a := fun i hi => by rw [ha' i hi]; exact (s2ToFf_small (h0 i hi)).1
  have hbc : CanonBelow (2 ^ n) b := fun i hi => by rw [hb' i hi]; exact (s2ToFf_small (h1 i hi)).1
  have hpa : polyZq (2 ^ n) a = polyInt (2 ^ n) v0 :=
    toPoly_congr (fun i hi => by rw [ha' i hi, (s2ToFf_small (h0 i hi)).2])
  have hpb : polyZq (2 ^ n) b = polyInt (2 ^ n) v1 :=
    toPoly_congr (fun i hi => by rw [hb' i hi, (s2ToFf_small (h1 i hi)).2])
  obtain ⟨e, he⟩ : ∃ e, e = polyAddTo n (polyMul n (ntt n b) (ntt n h) (fun _ => Ff.zero)) (ntt n a) := ⟨_, rfl⟩
  have hval : ∀ j, j < 2 ^ n → e j = Ff.addAssign (Ff.mul (ntt n b j) (ntt n h j)) (ntt n a j) := by
    intro j hj
    rw [he]
    unfold polyAddTo polyMul
    rw [loop_map (1 <<< n) (fun i x => Ff.addAssign x (ntt n a i)), one_shiftLeft', if_pos hj, loop_fill, if_pos hj]
  have hm := fun j hj => Ff.mul_spec (ntt_canon hn hbc j hj).fits (ntt_canon hn hh j hj).fits
  have hecan : CanonBelow (2 ^ n) e := by
    intro j hj
    rw [hval j hj]
    exact Ff.addAssign_canon (hm j hj).1 (ntt_canon hn hac j hj)
  have hpoly : ModEqXN (2 ^ n) (polyInt (2 ^ n) v0 + polyInt (2 ^ n) v1 * polyZq (2 ^ n) h) (polyZq (2 ^ n) (intt n e)) := by
    rw [← hpa, ← hpb]
    apply intt_poly hn hecan
    intro j hj
    rw [hval j hj, (Ff.addAssign_spec (hm j hj).1.fits (ntt_canon hn hac j hj)).2,
      (hm j hj).2, (ntt_val hn hac.fits j hj).2, (ntt_val hn hbc.fits j hj).2, (ntt_val hn hh.fits j hj).2,
      Polynomial.eval_add, Polynomial.eval_mul]
    unfold polyZq
    ring
  have hcan := intt_canon hn hecan
  have hunf : testPreimage n h c v0 v1 = loop (2 ^ n) (fun i ok => ok && Ff.beq (intt n e i) (c i)) true := by
    unfold testPreimage
    simp only [one_shiftLeft', ← ha, ← hb, ← he]
  rw [hunf, loop_all]
  unfold Preimage
  constructor
  · intro hall
    have : polyZq (2 ^ n) (intt n e) = polyZq (2 ^ n) c := toPoly_congr fun i hi => by
      have := hall i hi
      rw [Ff.beq_spec] at this
      rw [this]
    rw [← this]; exact hpoly
  · intro hp i hi
    rw [Ff.beq_spec, ← Ff.val_eq_iff _ _ (hcan i hi) (hc i hi)]
    refine modEq_coeff (N := 2 ^ n) (by positivity) (a := fun i => (intt n e i).val) (b := fun i => (c i).val) ?_ i hi
    rw [modEq_iff] at hp hpoly ⊢
    exact hpoly.symm.trans hp

/-- C105, the conversion that the test uses for all other coefficients of 32 bits: the residue is right exactly when the number of
times 2^16 is dropped is a multiple of q. -/
theorem C105_conversion (v : ℤ) :
    (s2ToFf v).val = (v : Zq) ↔ (12289 : ℤ) ∣ ((if v < 0 then 12289 else 0) + v) / 65536 := by
  have key : ((s2ToFf v).v.toNat : ℤ) = ((if v < 0 then 12289 else 0) + v) % 65536 := by
    unfold s2ToFf Ff.toU16
    simp only [UInt16.toNat_ofNat', Q_toNat]
    split <;> omega
  have hz : ∀ z : ℤ, (z : Zq) = 0 ↔ (12289 : ℤ) ∣ z := fun z => ZMod.intCast_zmod_eq_zero_iff_dvd z 12289
  have e : (s2ToFf v).val = (v : Zq) ↔ (12289 : ℤ) ∣ ((s2ToFf v).v.toNat : ℤ) - v := by
    rw [← hz, Int.cast_sub, sub_eq_zero]
    unfold Ff.val
    rw [Int.cast_natCast]
  rw [e, key]
  set w : ℤ := (if v < 0 then 12289 else 0) + v with hw
  have hwv : (12289 : ℤ) ∣ w - v := by rw [hw]; split <;> simp
  have h1 : w % 65536 - v = (w - v) - 65536 * (w / 65536) := by omega
  rw [h1, dvd_sub_right hwv]
  exact ⟨fun h => (IsCoprime.dvd_of_dvd_mul_left (Int.isCoprime_iff_gcd_eq_one.mpr (by norm_num)) h), fun h => h.mul_left _⟩

theorem abs_le_of_sqNorm {n : ℕ} {u : Mem Int} (h : sqNorm (2 ^ n) u ≤ 70265242 + 166) (i : ℕ) (hi : i < 2 ^ n) : |u i| ≤ 12288 := by
  have h1 : u i ^ 2 ≤ sqNorm (2 ^ n) u :=
    Finset.single_le_sum (f := fun i => u i ^ 2) (fun i _ => sq_nonneg _) (Finset.mem_range.mpr hi)
  rw [abs_le]
  constructor <;> nlinarith

/-- The test of fast Fourier sampling in an accurate arithmetic. -/
theorem testFfSampling_ok {A : Arith ℝ ℂ} (hA : Accurate A) {n : ℕ} (hn : ValidLog n) {f g F G : Mem Int}
    (heq : NtruEq n f g F G) (hfit : FitsFormat n f g F G) {h c : Mem Ff} (hcan : CanonBelow (2 ^ n) h)
    (hh : ModEqXN (2 ^ n) (polyZq (2 ^ n) h * polyInt (2 ^ n) f) (polyInt (2 ^ n) g))
    (hinv : ∃ r, ModEqXN (2 ^ n) (polyInt (2 ^ n) f * r) 1) (hc : CanonBelow (2 ^ n) c)
    (leaf : LeafSampler ℝ) (B0 T : Mem ℂ) (pos : ℕ) (z : Mem ℂ × Mem ℂ × ℕ) :
    let B := computeMatrixB A n f g F G B0
    let t := signTarget A n B c
    let v := signVec A n B t.1 t.2 z.1 z.2.1
    ffSampling A leaf n 0 t.1 t.2 T (junkC A) (junkC A) pos = some (.ok z) →
    ∃ l : List Call, Calls leaf pos l z.2.2 ∧ l.length = 2 ^ (n + 1) ∧
      ∀ u0 u1, RoundVec n f g F G c l u0 u1 → sqNorm (2 ^ n) u0 + sqNorm (2 ^ n) u1 ≤ betaSq n - 168 →
        ∃ v0 v1, signRound A n v.1 = .ok v0 ∧ signRound A n v.2 = .ok v1 ∧ testPreimage n h c v0 v1 = true := by
  intro B t v hz
  have hn10 : n ≤ 10 := by rcases hn with rfl | rfl <;> norm_num
  obtain ⟨l, -, e2, e3, q0, q1⟩ := sample_near_draws hA leaf n hn10 _ _ T _ _ pos z hz
  refine ⟨l, e2, e3, fun u0 u1 hu hs => ?_⟩
  have hle := (signVec_rev hA hn heq hfit B0 hc q0 q1 hu.1 hu.2 hs).1
  obtain ⟨d0, d1, -⟩ := signVec_float_of hA hn heq hfit B0 hc q0 q1 hu.1 hu.2 hle
  have n0 := sqNorm_nonneg (2 ^ n) u0
  have n1 := sqNorm_nonneg (2 ^ n) u1
  have nb := betaSq_le n
  have m0 : sqNorm (2 ^ n) u0 ≤ 70265242 + 166 := by omega
  have m1 : sqNorm (2 ^ n) u1 ≤ 70265242 + 166 := by omega
  obtain ⟨v0, r0, s0, -⟩ := near_round hA hn d0 m0
  obtain ⟨v1, r1, s1, -⟩ := near_round hA hn d1 m1
  refine ⟨v0, v1, r0, r1, (C105_check hn hcan hc (fun i hi => by rw [s0 i hi]; exact abs_le_of_sqNorm m0 i hi)
    (fun i hi => by rw [s1 i hi]; exact abs_le_of_sqNorm m1 i hi)).mpr ?_⟩
  have hp := preimage_of_basis heq hh hinv hu.1 hu.2
  have p0 : polyInt (2 ^ n) v0 = polyInt (2 ^ n) u0 := toPoly_congr fun i hi => by rw [s0 i hi]
  have p1 : polyInt (2 ^ n) v1 = polyInt (2 ^ n) u1 := toPoly_congr fun i hi => by rw [s1 i hi]
  unfold Preimage at hp ⊢
  rw [p0, p1]
  exact hp

/-- C105. The test of fast Fourier sampling on IEEE 754 data, for a key in the format with a small Gram-Schmidt norm, the public key
h, every point c, random stream and sampler fuel: when sampling returns, it has drawn 2N integers, and if the vector that these
integers stand for has a squared norm of at most β² - 168 then the test runs to its end without undefined behaviour and passes. -/
theorem C105_ff_sampling (b : Bool) (rm rd : F64.Recover) {n : ℕ} (hn : ValidLog n) {f g F G : Mem Int} (heq : NtruEq n f g F G)
    (hfit : FitsFormat n f g F G) (hgs : GsSmall n f g) {h c : Mem Ff} (hcan : CanonBelow (2 ^ n) h)
    (hh : ModEqXN (2 ^ n) (polyZq (2 ^ n) h * polyInt (2 ^ n) f) (polyInt (2 ^ n) g))
    (hinv : ∃ r, ModEqXN (2 ^ n) (polyInt (2 ^ n) f * r) 1) (hc : CanonBelow (2 ^ n) c) (lfuel : ℕ) (stream : ℕ → UInt8)
    (B0 T0 : Mem (F64 × F64)) (pos : ℕ) (x : Except UB Bool) :
    let A := f64A b rm rd
    let B := computeMatrixB A n f g F G B0
    testFfSampling A (codeLeaf64 false n lfuel stream) n B (computeFalconTree A n B T0) h c pos = some x →
    ∃ (l : List Call) (pos' : ℕ), Calls (codeLeaf false n lfuel stream) pos l pos' ∧ l.length = 2 ^ (n + 1) ∧
      ∀ u0 u1, RoundVec n f g F G c l u0 u1 → sqNorm (2 ^ n) u0 + sqNorm (2 ^ n) u1 ≤ betaSq n - 168 → x = .ok true := by
  intro A B hx
  have hn10 : n ≤ 10 := by rcases hn with rfl | rfl <;> norm_num
  have hS := sim_f64 b rm rd
  have hB := finC_basis hS hn hfit B0 B0 (fun _ => 0)
  obtain ⟨f0, f1⟩ := finC_target hS (accurate_ieee b) hn10 hB hc
  have hs := sampling64 hS (accurate_ieee b) (codeLeaf_sim false n lfuel stream) (codeLeaf_good hn lfuel stream) hn heq hfit hgs B T0
    (junkC A) (junkC A) (fun _ => 0) (fun _ => 0) (junkC (ieeeA b)) (junkC (ieeeA b)) hB hc pos
  have key := testFfSampling_ok (accurate_ieee b) hn heq hfit hcan hh hinv hc (codeLeaf false n lfuel stream) (fun _ => 0)
    (computeFalconTree (ieeeA b) n (computeMatrixB (ieeeA b) n f g F G fun _ => 0) (fun _ => 0)) pos
  unfold testFfSampling at hx
  simp only at hs hx key
  change SampFin n (ffSampling A (codeLeaf64 false n lfuel stream) n 0 (signTarget A n B c).1 (signTarget A n B c).2
    (computeFalconTree A n B T0) (junkC A) (junkC A) pos) _ at hs
  generalize ffSampling A (codeLeaf64 false n lfuel stream) n 0 (signTarget A n B c).1 (signTarget A n B c).2
    (computeFalconTree A n B T0) (junkC A) (junkC A) pos = q1 at hs hx
  generalize ffSampling (ieeeA b) (codeLeaf false n lfuel stream) n 0
    (signTarget (ieeeA b) n (computeMatrixB (ieeeA b) n f g F G fun _ => 0) c).1
    (signTarget (ieeeA b) n (computeMatrixB (ieeeA b) n f g F G fun _ => 0) c).2
    (computeFalconTree (ieeeA b) n (computeMatrixB (ieeeA b) n f g F G fun _ => 0) (fun _ => 0)) (junkC (ieeeA b)) (junkC (ieeeA b))
    pos = q2 at hs key
  rcases q1 with _ | _ | q1 <;> rcases q2 with _ | _ | q2 <;> first | exact hs.elim | skip
  · cases hx
  · obtain ⟨c1, c2, c3⟩ := hs
    obtain ⟨v0, v1⟩ := finC_vec hS hB f0 f1 (fun i hi => (c2 i hi).mono (by omega)) (fun i hi => (c3 i hi).mono (by omega))
    obtain ⟨l, k1, k2, k3⟩ := key q2 rfl
    refine ⟨l, q2.2.2, k1, k2, fun u0 u1 hu hsm => ?_⟩
    obtain ⟨w0, w1, e0, e1, e2⟩ := k3 u0 u1 hu hsm
    rw [← round64 hS hn10 v0] at e0
    rw [← round64 hS hn10 v1] at e1
    rw [bindO_pure] at hx
    change bindO (some (signRound A n (signVec A n B (signTarget A n B c).1 (signTarget A n B c).2 q1.1 q1.2.1).1)) _ = _ at hx
    rw [e0, bindO_pure] at hx
    change bindO (some (signRound A n (signVec A n B (signTarget A n B c).1 (signTarget A n B c).2 q1.1 q1.2.1).2)) _ = _ at hx
    rw [e1, bindO_pure, e2] at hx
    exact (Option.some.inj hx).symm

/-- C105 for the whole program: the matrix, the tree and the public key are those that `keygen::keygen` has computed on IEEE 754 data,
with the random stream at the position where key generation left it. -/
theorem C105_program (b : Bool) (rm rd : F64.Recover) (hrd : F64.NoInvention rd) (fma : Bool) {n : ℕ} (hn : ValidLog n)
    {stream : ℕ → UInt8} {fuel iters : ℕ} {junk : Ntru} {B0 T0 B T : Mem (F64 × F64)} {h0 h : Mem Ff} {pos pos' : ℕ}
    (hk : keygenRaw (f64A b rm rd) fma n stream fuel iters junk B0 T0 h0 (sigSigma (f64A b rm rd) n) pos = some (.ok (B, T, h, pos'))) :
    ∃ s : Ntru, ntruGen (redQuot (f64A b rm rd)) (gsTooBig (f64A b rm rd) n) fma n stream fuel iters junk pos = some (.ok (s, pos')) ∧
      (FitsFormat n s.f s.g s.F s.G → ∀ (c : Mem Ff) (lfuel : ℕ) (x : Except UB Bool), CanonBelow (2 ^ n) c →
        testFfSampling (f64A b rm rd) (codeLeaf64 false n lfuel stream) n B T h c pos' = some x →
        ∃ (l : List Call) (p : ℕ), Calls (codeLeaf false n lfuel stream) pos' l p ∧ l.length = 2 ^ (n + 1) ∧
          ∀ u0 u1, RoundVec n s.f s.g s.F s.G c l u0 u1 → sqNorm (2 ^ n) u0 + sqNorm (2 ^ n) u1 ≤ betaSq n - 168 → x = .ok true) := by
  unfold keygenRaw at hk
  obtain ⟨r, hr, hk⟩ := bindO_ok hk
  have e := Except.ok.inj (Option.some.inj hk)
  simp only [Prod.mk.injEq] at e
  obtain ⟨e1, e2, e3, e4⟩ := e
  have hr' : ntruGen (redQuot (f64A b rm rd)) (gsTooBig (f64A b rm rd) n) fma n stream fuel iters junk pos = some (.ok (r.1, pos')) := by
    rw [hr, ← e4]
  refine ⟨r.1, hr', fun hfit c lfuel x hc hx => ?_⟩
  obtain ⟨heq, -, -, hgs⟩ := C76_keys b rm rd hrd fma hn hr'
  obtain ⟨hrange, hinv, -⟩ := C38_ntru_gen hn hr'
  have up : ∀ {x : ℤ}, |x| ≤ 19 * (4096 / 2 ^ n) → |x| ≤ 152 := fun h => h.trans (by rcases hn with rfl | rfl <;> norm_num)
  have hcr : ∀ {a : Mem ℤ}, (∀ i, i < 2 ^ n → |a i| ≤ 152) → CoeffRange (2 ^ n) a := by
    intro a ha i hi
    have := abs_le.mp (ha i hi)
    constructor <;> omega
  obtain ⟨q1, q2, -⟩ := C37_public_key hn h0 (hcr fun i hi => up (hrange i hi).1) (hcr fun i hi => up (hrange i hi).2) hinv
  rw [e3] at q1 q2
  subst e1
  subst e2
  exact C105_ff_sampling b rm rd hn heq hfit hgs q1 q2 hinv hc lfuel stream B0 T0 pos' x hx

/-- What the test compares: with s0 = 5 + 5X + ... and s1 = 0 it passes for the point with these coefficients, whatever h is. -/
example (h : Mem Ff) (hh : CanonBelow (2 ^ 9) h) : testPreimage 9 h (fun _ => ⟨5⟩) (fun _ => 5) (fun _ => 0) = true := by
  refine (C105_check (Or.inl rfl) hh (fun _ _ => by unfold Ff.Canonical; decide) (fun _ _ => by norm_num) (fun _ _ => by norm_num)).mpr ?_
  unfold Preimage
  have h0 : polyInt (2 ^ 9) (fun _ => 0) = 0 := by
    unfold polyInt toPoly; simp
  have h1 : polyZq (2 ^ 9) (fun _ => (⟨5⟩ : Ff)) = polyInt (2 ^ 9) (fun _ => 5) := toPoly_congr fun i _ => by
    unfold Ff.val
    rfl
  rw [h0, h1, zero_mul, add_zero]
  exact ⟨0, by ring⟩

/-- The conversion of 12289 + 65536 is wrong, that of 12289 * 65536 is right. -/
example : ((s2ToFf (12289 + 65536)).val ≠ ((12289 + 65536 : ℤ) : Zq)) ∧ (s2ToFf (12289 * 65536)).val = ((12289 * 65536 : ℤ) : Zq) := by
  rw [ne_eq, C105_conversion, C105_conversion]
  norm_num

/-- The hypotheses of `C105_ff_sampling` are met by a key. -/
example : NtruEq 9 flatf flatg flatF flatG ∧ FitsFormat 9 flatf flatg flatF flatG ∧ GsSmall 9 flatf flatg ∧
    CanonBelow (2 ^ 9) (computePublicKey 9 flatf flatg (fun _ => Ff.zero)) ∧
    ModEqXN (2 ^ 9) (polyZq (2 ^ 9) (computePublicKey 9 flatf flatg (fun _ => Ff.zero)) * polyInt (2 ^ 9) flatf) (polyInt (2 ^ 9) flatg) ∧
    ∃ r, ModEqXN (2 ^ 9) (polyInt (2 ^ 9) flatf * r) 1 := by
  refine ⟨flatKey_eq, flatKey_fits, flatKey_gs, (C37_public_key (Or.inl rfl) _ ?_ ?_ flatKey_inv).1, flat_public, flatKey_inv⟩ <;>
    intro i hi <;> have h0 := flatKey_fits i hi <;> rw [if_pos rfl] at h0 <;> have h1 := abs_le.mp h0.1 <;> have h2 := abs_le.mp h0.2.1 <;>
    constructor <;> omega

/-- The test passes: the point is 0 and the sampler returns a single 1. -/
example (fma : Bool) (B0 T : Mem ℂ) (pos : ℕ) :
    testFfSampling (ieeeA fma) (oneLeaf 9 1 pos) 9
      (computeMatrixB (ieeeA fma) 9 (twoMem 30 (-31)) (twoMem 25 (-24)) (twoMem (-95) (-107)) (twoMem 125 116) B0) T
      (computePublicKey 9 (twoMem 30 (-31)) (twoMem 25 (-24)) (fun _ => Ff.zero)) (fun _ => Ff.zero) pos = some (.ok true) := by
  have hn : ValidLog 9 := Or.inl rfl
  obtain ⟨heq, hfit⟩ := smallKey
  obtain ⟨-, -, hinv⟩ := smallKey_public
  have hr : ∀ a b : ℤ, |a| < 12289 → |b| < 12289 → CoeffRange (2 ^ 9) (twoMem a b) := by
    intro a b ha hb i _
    have := abs_lt.mp ha
    have := abs_lt.mp hb
    unfold twoMem
    split_ifs <;> constructor <;> omega
  obtain ⟨p1, p2, -⟩ := C37_public_key hn (fun _ => Ff.zero) (hr 30 (-31) (by norm_num) (by norm_num)) (hr 25 (-24) (by norm_num) (by norm_num))
    hinv
  have hcan : CanonBelow (2 ^ 9) (fun _ => Ff.zero) := fun _ _ => Ff.zero_spec.1
  let B := computeMatrixB (ieeeA fma) 9 (twoMem 30 (-31)) (twoMem 25 (-24)) (twoMem (-95) (-107)) (twoMem 125 116) B0
  let t := signTarget (ieeeA fma) 9 B (fun _ => Ff.zero)
  obtain ⟨z, hz⟩ := ffSampling_total (ieeeA fma) (oneLeaf 9 1 pos) (fun _ _ _ => ⟨_, rfl⟩) 9 t.1 t.2 T (junkC (ieeeA fma)) (junkC (ieeeA fma)) pos
  obtain ⟨l, hcalls, hlen, hk⟩ := testFfSampling_ok (accurate_ieee fma) hn heq hfit p1 p2 hinv hcan (oneLeaf 9 1 pos) B0 T pos z hz
  have hv := calls_posLeaf hcalls
  have ha0 : ∀ i, i < 2 ^ 9 → drawn0 9 l i = constMem 1 i := by
    intro i hi
    unfold drawn0
    rw [hv _ (by rw [hlen]; exact (callIdx_bound 9 i).1)]
    unfold constMem
    by_cases hi0 : i = 0
    · rw [if_pos hi0, if_pos (by rw [(callIdx_last 9 i hi).mpr hi0])]
    · rw [if_neg hi0, if_neg (fun h => hi0 ((callIdx_last 9 i hi).mp (by omega)))]
  have ha1 : ∀ i, i < 2 ^ 9 → drawn1 9 l i = 0 := by
    intro i hi
    have hb := callIdx_bound 9 i
    unfold drawn1
    rw [hv _ (by rw [hlen]; exact hb.2.1), if_neg]
    have := hb.2.2 (by norm_num)
    omega
  have hp0 : polyZ (2 ^ 9) (drawn0 9 l) = 1 := by
    rw [show polyZ (2 ^ 9) (drawn0 9 l) = polyZ (2 ^ 9) (constMem 1) from toPoly_congr ha0, polyZ_const (by norm_num), C_1]
  have hhash : polyZ (2 ^ 9) (hashInt fun _ => Ff.zero) = 0 := polyZ_zero fun i hi => rfl
  obtain ⟨v0, v1, r0, r1, r2⟩ := hk (twoMem (-25) 24) (twoMem 30 (-31))
    (by
      unfold RoundVec
      rw [hp0, hhash, polyZ_zero ha1]
      constructor
      · rw [polyZ_two, polyZ_two]
        refine ⟨0, ?_⟩
        simp only [map_neg]
        ring
      · exact ⟨0, by ring⟩)
    (by rw [sqNorm_two, sqNorm_two]; norm_num [betaSq])
  unfold testFfSampling
  simp only
  rw [show ffSampling (ieeeA fma) (oneLeaf 9 1 pos) 9 0 (signTarget (ieeeA fma) 9 _ fun _ => Ff.zero).1
    (signTarget (ieeeA fma) 9 _ fun _ => Ff.zero).2 T (junkC (ieeeA fma)) (junkC (ieeeA fma)) pos = _ from hz, bindO_pure]
  rw [r0, bindO_pure, r1, bindO_pure, r2]

/-- The hypothesis of `C105_program` is met. -/
example (b : Bool) (rm : F64.Recover) (B0 T0 : Mem (F64 × F64)) (h0 : Mem Ff) : ∃ stream r,
    keygenRaw (f64A b rm F64.keepNan) false 9 stream 3 1 zeroNtru B0 T0 h0 (sigSigma (f64A b rm F64.keepNan) 9) 0 = some (.ok r) := by
  obtain ⟨stream, s, pos, h, hs⟩ := const_run_of (const_quot64 b rm F64.keepNan) (const_gs64 b rm F64.keepNan)
  unfold keygenRaw
  exact ⟨stream, _, by rw [h, bindO_pure]⟩

end Falcon
