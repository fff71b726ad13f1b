import Verif.LeakSpec
import Verif.Proofs.LeakRun
import Verif.Props.F64Sign
import Verif.Props.SeedSearch

/-!
# C114: signatures disclose linear inequalities of the secret key
-/

namespace Falcon

open Finset Polynomial

theorem callIdx1_last : ∀ k, callIdx1 k (2 ^ k - 1) = 1
  | 0 => rfl
  | k + 1 => by
    have hp : 2 ^ (k + 1) = 2 * 2 ^ k := by rw [pow_succ]; ring
    have h1 : 0 < 2 ^ k := by positivity
    rw [callIdx1, if_neg (by omega), show (2 ^ (k + 1) - 1) / 2 = 2 ^ k - 1 by omega]
    exact callIdx1_last k

theorem callIdx1_half : ∀ k, callIdx1 (k + 1) (2 ^ k - 1) = 0
  | 0 => rfl
  | k + 1 => by
    have hp : 2 ^ (k + 1) = 2 * 2 ^ k := by rw [pow_succ]; ring
    have h1 : 0 < 2 ^ k := by positivity
    rw [callIdx1, if_neg (by omega), show (2 ^ (k + 1) - 1) / 2 = 2 ^ k - 1 by omega]
    exact callIdx1_half k

theorem drawn1_first {n : ℕ} (hn : ValidLog n) (c0 c1 : Call) (l : List Call) :
    drawn1 n (c0 :: c1 :: l) (2 ^ (n - 1) - 1) = c0.z ∧ drawn1 n (c0 :: c1 :: l) (2 ^ n - 1) = c1.z := by
  unfold drawn1
  constructor
  · rw [show callIdx1 n (2 ^ (n - 1) - 1) = 0 by rcases hn with rfl | rfl <;> exact callIdx1_half _]
    rfl
  · rw [callIdx1_last]
    rfl

theorem calls_two {S : Type} {leaf : LeafSampler ℝ S} {s s' : S} {c0 c1 : Call} {l : List Call} (h : Calls leaf s (c0 :: c1 :: l) s') :
    ∃ s1 s2, leaf c0.mu c0.sigma s = some (.ok (c0.z, s1)) ∧ leaf c1.mu c1.sigma s1 = some (.ok (c1.z, s2)) := by
  cases h with
  | cons h0 ht =>
    cases ht with
    | cons h1 _ => exact ⟨_, _, h0, h1⟩

/-- The array of c f exists. -/
theorem exists_cf (n : ℕ) (c : Mem Ff) (f : Mem Int) :
    ∃ w : Mem Int, ModEqXN (2 ^ n) (polyZ (2 ^ n) w) (polyZ (2 ^ n) (hashInt c) * polyZ (2 ^ n) f) :=
  exists_arr n _

theorem Reached.trans {p q r : ℕ} (h : Reached p q) (h' : Reached q r) : Reached p r := by
  induction h' with
  | here => exact h
  | next k _ h1 h2 ih => exact .next k ih h1 h2

/-- C114: one round of sampling, in every arithmetic with the error bounds of `Accurate`, with the code's integer sampler and any tree. Let
(s1, s2) be the vector of the round and v = s1 f + s2 g mod x^N + 1. Then the coefficients N/2 - 1 and N - 1 of v are known up to an interval
of length q, which is given by the proposals that the sampler accepted; and these are a function of the random bytes alone. -/
theorem C114_round {A : Arith ℝ ℂ} (hA : Accurate A) {n : ℕ} (hn : ValidLog n) {f g F G : Mem Int} (heq : NtruEq n f g F G)
    (hfit : FitsFormat n f g F G) {c : Mem Ff} (hc : CanonBelow (2 ^ n) c) (fma : Bool) (lfuel : ℕ) (tape : ℕ → UInt8) (B0 T z0 z1 : Mem ℂ)
    (p : ℕ) (r : Mem ℂ × Mem ℂ × ℕ)
    (h : ffSampling A (codeLeaf fma n lfuel tape) n 0 (signTarget A n (computeMatrixB A n f g F G B0) c).1
      (signTarget A n (computeMatrixB A n f g F G B0) c).2 T z0 z1 p = some (.ok r)) :
    ∃ l : List Call, Calls (codeLeaf fma n lfuel tape) p l r.2.2 ∧ l.length = 2 ^ (n + 1) ∧ ∀ s1 s2 v : Mem Int,
      RoundVec n f g F G c l s1 s2 →
      ModEqXN (2 ^ n) (polyZ (2 ^ n) v) (polyZ (2 ^ n) s1 * polyZ (2 ^ n) f + polyZ (2 ^ n) s2 * polyZ (2 ^ n) g) →
      (∃ a, Reached p a ∧ 0 ≤ v (2 ^ (n - 1) - 1) + 12289 * proposal tape a ∧ v (2 ^ (n - 1) - 1) + 12289 * proposal tape a ≤ 12289) ∧
      (∃ a, Reached p a ∧ 0 ≤ v (2 ^ n - 1) + 12289 * proposal tape a ∧ v (2 ^ n - 1) + 12289 * proposal tape a ≤ 12289) := by
  have hp : 0 < 2 ^ (n - 1) := by positivity
  have hp' : 2 ^ (n - 1) ≤ 2 ^ n := Nat.pow_le_pow_right (by norm_num) (by omega)
  obtain ⟨l, e1, e2, e3, -⟩ := C65_round hA hn heq hfit hc (codeLeaf fma n lfuel tape) B0 T z0 z1 p r h
  obtain ⟨w, hw⟩ := exists_cf n c f
  obtain ⟨c0, c1, l1, f1, -, f2, f3, f4, f5⟩ := round_first hA hn hfit B0 hc hw (codeLeaf fma n lfuel tape) T z0 z1 _ (treeOf_rep n 0 T) p _ e1
  simp only at f1
  subst f1
  refine ⟨_, e2, e3, fun s1 s2 v hr hv => ?_⟩
  have hid := round_identity heq hr.1 hr.2 hw hv
  obtain ⟨d0, d1⟩ := drawn1_first hn c0 c1 l1
  obtain ⟨p1, p2, g0, g1⟩ := calls_two e2
  obtain ⟨a, a1, a2, a3⟩ := samplerz_result f4 _ _ _ _ g0
  obtain ⟨a', a1', a2', -⟩ := samplerz_result f5 _ _ _ _ g1
  have i0 := hid (2 ^ (n - 1) - 1) (by omega)
  have i1 := hid (2 ^ n - 1) (by omega)
  rw [d0] at i0
  rw [d1] at i1
  exact ⟨⟨a, a1, leak_bound f2 a2 i0⟩, a', a3.trans a1', leak_bound f3 a2' i1⟩

/-- The only round of a run of `signing::sign` with one round. -/
theorem signPoly_once {R C : Type} (A : Arith R C) {xof : Xof} {leaf : LeafSampler R} {hfuel n : ℕ}
    (hn : ValidLog n) {B T : Mem C} {stream : ℕ → UInt8} {msg : List UInt8} {sig sig' : Mem UInt8} {pos pos' : ℕ}
    (h : signPoly A xof leaf 1 hfuel n B T stream msg sig pos = some (.ok (sig', pos'))) :
    ∃ c z s2, hashToPoint hfuel n (xof (saltMsg sig' msg)) (fun _ => Ff.zero) = some c ∧
      let t := signTarget A n B c
      ffSampling A leaf n 0 t.1 t.2 T (junkC A) (junkC A) (pos + 40) = some (.ok z) ∧
      A.le (signNorm A n (signVec A n B t.1 t.2 z.1 z.2.1).1 (signVec A n B t.1 t.2 z.1 z.2.1).2)
        (A.lit (beta2 n)) = true ∧
      signRound A n (signVec A n B t.1 t.2 z.1 z.2.1).2 = .ok s2 ∧
      SignatureOf n sig' (fun i => stream (pos + i)) s2 := by
  unfold signPoly at h
  simp only at h
  split at h
  · cases h
  rename_i c hc
  obtain ⟨r, hr, h⟩ := bindO_ok h
  injection h with h
  injection h with h
  injection h with h1 h2
  unfold signLoop at hr
  obtain ⟨z, hz, hr⟩ := bindO_ok hr
  simp only at hr
  split at hr
  · rename_i hle
    obtain ⟨s2, e2, hr⟩ := bindO_ok hr
    obtain ⟨o, e3, hr⟩ := bindO_ok hr
    split at hr
    · rename_i ho
      injection hr with hr
      injection hr with hr
      have e3 : compressSigE n s2 sig = .ok (true, r.1) := by
        rw [Option.some.inj e3, ← hr, ← ho]
      obtain ⟨a1, a2, -⟩ := assemble_ok hn msg e3 h1
      exact ⟨c, z, s2, by rw [a2]; exact hc, hz, hle, Option.some.inj e2, a1⟩
    · cases hr
  · cases hr

/-- C114. One-shot signing on IEEE 754 data that returns after one round, with a key whose squared Gram-Schmidt norms are at most 16810. If no
other word gives the same salt, the attack of C102 finds from the signature the bytes that signing has drawn; whether the bytes after the salt are
quiet can be seen from them, and if they are, the byte 49 tells in which of two intervals a coefficient of s1 f + s2 g lies. -/
theorem C114_leak (b : Bool) (rm rd : F64.Recover) {n : ℕ} (hn : ValidLog n) {f g F G : Mem Int} (heq : NtruEq n f g F G)
    (hfit : FitsFormat n f g F G) (hgs : GsAtMost 16810 n f g) (hf0 : ∀ j, j < 2 ^ n → 1 / 2 ^ 10 ≤ ‖dft n (zC f) j‖) {h : Mem Ff}
    (hh : ModEqXN (2 ^ n) (polyZq (2 ^ n) h * polyInt (2 ^ n) f) (polyInt (2 ^ n) g))
    (hinv : ∃ r, ModEqXN (2 ^ n) (polyInt (2 ^ n) f * r) 1) (sk0 : Mem UInt8)
    (xof : Xof) (mt : UInt32 → Mem UInt8) (lfuel hfuel : ℕ) (junk : FgF) (junkG : Mem Int)
    (junkB junkT : Mem (F64 × F64)) (seed : UInt32) (msg : List UInt8) (sig sig' : Mem UInt8)
    (hcol : ∀ v, (∀ i, i < 40 → prngNew xof mt v i = prngNew xof mt seed i) → v = seed)
    (hsig : falconSign (f64A b rm rd) xof mt (codeLeaf64 false n (lfuel + 1)) 1 hfuel n junk junkG junkB junkT seed (encodeSkey n f g F sk0) msg
      sig = some (.ok (true, sig'))) :
    ∃ w, searchWord xof mt sig' = some w ∧ ∃ (c : Mem Ff) (s1 s2 : Mem Int),
      hashToPoint hfuel n (xof (saltMsg sig' msg)) (fun _ => Ff.zero) = some c ∧ Preimage (2 ^ n) h c s1 s2 ∧
      sqNorm (2 ^ n) s1 + sqNorm (2 ^ n) s2 ≤ betaSq n + 166 ∧ SignatureOf n sig' (prngNew xof mt w) s2 ∧
      (Quiet (prngNew xof mt w) 40 → Leaks n s1 s2 f g ((prngNew xof mt w 49).toNat % 2 = 1)) := by
  have hgs' : GsSmall n f g := hgs.mono (by norm_num)
  obtain ⟨w, w1, -, w3⟩ := C102_word _ xof mt _ hn hsig
  obtain ⟨rfl, -⟩ := w3 hcol
  refine ⟨w, w1, ?_⟩
  rw [C75_one_shot b rm rd hn heq hfit hgs' hf0 sk0 xof mt 1 (lfuel + 1) hfuel junk junk junkG junkG junkB junkT (fun _ => 0) (fun _ => 0),
    C67_one_shot (accurate_ieee b) hn heq hfit hf0 sk0 (fun _ => 0) (fun _ => 0) xof mt _ 1 hfuel junk junkG (fun _ => 0) (fun _ => 0) w
      msg sig] at hsig
  cases hsp : signPoly (ieeeA b) xof (codeLeaf false n (lfuel + 1) (prngNew xof mt w)) 1 hfuel n
      (computeMatrixB (ieeeA b) n f g F G (fun _ => 0))
      (computeFalconTree (ieeeA b) n (computeMatrixB (ieeeA b) n f g F G (fun _ => 0)) (fun _ => 0)) (prngNew xof mt w) msg sig 0 with
  | none => rw [hsp] at hsig; cases hsig
  | some e =>
    cases e with
    | error e => rw [hsp] at hsig; cases hsig
    | ok r =>
      rw [hsp] at hsig
      have hsig := Prod.mk.inj (Except.ok.inj (Option.some.inj hsig))
      obtain ⟨r1, r2⟩ := r
      have hs' : r1 = sig' := hsig.2
      subst hs'
      have hA := accurate_ieee b
      obtain ⟨c, z, s2, hc, e1, e2, e3, e4⟩ := signPoly_once (ieeeA b) hn hsp
      have hcan : CanonBelow (2 ^ n) c := (C24_hash_point _ _ _ hc).2.1
      obtain ⟨l, hlog, hcalls, hlen, hround⟩ := C65_round hA hn heq hfit hcan _ _ _ _ _ _ z e1
      obtain ⟨u0, u1, hu⟩ := roundVec_exists n f g F G c l
      obtain ⟨hnorm, s2', q1, q2⟩ := (hround u0 u1 hu).1 e2
      rw [q1] at e3
      injection e3 with e3
      subst e3
      have hpoly : polyZ (2 ^ n) s2' = polyZ (2 ^ n) u1 := toPoly_congr q2
      have hu' : RoundVec n f g F G c l u0 s2' := ⟨hu.1, by rw [hpoly]; exact hu.2⟩
      refine ⟨c, u0, s2', hc, preimage_of_basis heq hh hinv hu'.1 hu'.2, by rw [sqNorm_congr q2]; exact hnorm,
        by simpa only [Nat.zero_add] using e4, fun hq v hv => ?_⟩
      obtain ⟨w', hw⟩ := exists_cf n c f
      obtain ⟨t, ht, hlow⟩ := tree_low hA hn heq hfit hgs (fun _ => 0) (fun _ => 0)
      rw [treeAt_root] at ht
      obtain ⟨tl, L, R, ht2, -, -, -, -, hL, hR⟩ := tree_float hA hn heq hfit hgs' (fun _ => 0) (fun _ => 0)
      have hlv := rep_leaves_unique n 0 _ _ _ ht ht2
      obtain ⟨c0, c1, l1, f1, ⟨x, hx, hsg⟩, f2, -, f4, -⟩ := round_first hA hn hfit _ hcan hw _ _ _ _ t ht _ _ hlog
      simp only at f1
      subst f1
      have hs0 : sigmaMin n ≤ c0.sigma := hsg ▸ hlow x hx
      have hs1 : c0.sigma ≤ 182 / 100 := by
        rw [hlv] at hx
        simp only [FTree.leaves, List.mem_append] at hx
        rw [hsg, hA.re]
        rcases hx with hx | hx
        · exact (hL x hx).2
        · exact (hR x hx).2
      obtain ⟨p1, p2, g0, -⟩ := calls_two hcalls
      have hsure := samplerz_sure hn f4 hs0 hs1 (prngNew xof mt w) lfuel 40 hq.1 hq.2
      unfold codeLeaf at g0
      rw [Nat.zero_add, hsure] at g0
      have hz : c0.z = _ := ((Prod.mk.inj (Except.ok.inj (Option.some.inj g0))).1).symm
      have hp : 0 < 2 ^ (n - 1) := by positivity
      have hp' : 2 ^ (n - 1) ≤ 2 ^ n := Nat.pow_le_pow_right (by norm_num) (by omega)
      have hid := round_identity heq hu'.1 hu'.2 hw hv (2 ^ (n - 1) - 1) (by omega)
      rw [(drawn1_first hn c0 c1 l1).1] at hid
      have hb := leak_bound f2 hz hid
      by_cases hbit : (prngNew xof mt w (40 + 9)).toNat % 2 = 1
      · rw [if_pos hbit] at hb
        rw [if_pos (by simpa using hbit)]
        omega
      · rw [if_neg hbit] at hb
        rw [if_neg (by simpa using hbit)]
        omega

/-- C114: what the inequality is worth. The negative of a key is a key with the same public key, for which the same signatures are valid; and the
inequality holds for it exactly if the opposite one holds for the key. So with it a signature tells a key from its negative, unless the
coefficient is zero. -/
theorem C114_negative {n : ℕ} {f g F G : Mem Int} (heq : NtruEq n f g F G) (hfit : FitsFormat n f g F G) {M : ℝ} (hgs : GsAtMost M n f g) {h : Mem Ff}
    (hh : ModEqXN (2 ^ n) (polyZq (2 ^ n) h * polyInt (2 ^ n) f) (polyInt (2 ^ n) g)) :
    let neg (a : Mem Int) : Mem Int := fun i => -a i
    NtruEq n (neg f) (neg g) (neg F) (neg G) ∧ FitsFormat n (neg f) (neg g) (neg F) (neg G) ∧ GsAtMost M n (neg f) (neg g) ∧
    ModEqXN (2 ^ n) (polyZq (2 ^ n) h * polyInt (2 ^ n) (neg f)) (polyInt (2 ^ n) (neg g)) ∧
    ∀ (s1 s2 : Mem Int) (bit : Bool), (Leaks n s1 s2 (neg f) (neg g) bit ↔ Leaks n s1 s2 f g (!bit)) ∧
      (Leaks n s1 s2 f g bit → Leaks n s1 s2 (neg f) (neg g) bit → ∀ v : Mem Int,
        ModEqXN (2 ^ n) (polyZ (2 ^ n) v) (polyZ (2 ^ n) s1 * polyZ (2 ^ n) f + polyZ (2 ^ n) s2 * polyZ (2 ^ n) g) → v (2 ^ (n - 1) - 1) = 0) := by
  intro neg
  have hneg : ∀ a : Mem Int, polyZ (2 ^ n) (neg a) = -polyZ (2 ^ n) a := by
    intro a
    unfold polyZ toPoly
    rw [← sum_neg_distrib]
    refine sum_congr rfl fun i _ => ?_
    show C (-a i) * _ = _
    rw [C_neg, neg_mul]
  have hnegq : ∀ a : Mem Int, polyInt (2 ^ n) (neg a) = -polyInt (2 ^ n) a := by
    intro a
    unfold polyInt toPoly
    rw [← sum_neg_distrib]
    refine sum_congr rfl fun i _ => ?_
    show C (((-a i : ℤ)) : Zq) * _ = _
    rw [Int.cast_neg, C_neg, neg_mul]
  have hdft : ∀ (a : Mem Int) (j : ℕ), dft n (zC (neg a)) j = -dft n (zC a) j := by
    intro a j
    unfold dft zC
    rw [← sum_neg_distrib]
    refine sum_congr rfl fun i _ => ?_
    simp [neg]
  have hrel : ∀ (s1 s2 v : Mem Int), ModEqXN (2 ^ n) (polyZ (2 ^ n) (neg v)) (polyZ (2 ^ n) s1 * polyZ (2 ^ n) (neg f) + polyZ (2 ^ n) s2 * polyZ (2 ^ n) (neg g)) ↔
      ModEqXN (2 ^ n) (polyZ (2 ^ n) v) (polyZ (2 ^ n) s1 * polyZ (2 ^ n) f + polyZ (2 ^ n) s2 * polyZ (2 ^ n) g) := by
    intro s1 s2 v
    rw [hneg, hneg, hneg]
    unfold ModEqXN
    rw [← dvd_neg]
    constructor <;> intro h <;> convert h using 1 <;> ring
  have hnn : ∀ v : Mem Int, neg (neg v) = v := fun v => funext fun i => neg_neg (v i)
  have hiff : ∀ (s1 s2 : Mem Int) (bit : Bool), Leaks n s1 s2 (neg f) (neg g) bit ↔ Leaks n s1 s2 f g (!bit) := by
    intro s1 s2 bit
    constructor
    · intro h v hv
      have := h (neg v) ((hrel s1 s2 v).mpr hv)
      cases bit <;> simp [neg] at this ⊢ <;> omega
    · intro h v hv
      have := h (neg v) ((hrel s1 s2 (neg v)).mp (by rw [hnn]; exact hv))
      cases bit <;> simp [neg] at this ⊢ <;> omega
  refine ⟨?_, ?_, ?_, ?_, fun s1 s2 bit => ⟨hiff s1 s2 bit, fun h1 h2 v hv => ?_⟩⟩
  · unfold NtruEq at *
    rw [hneg, hneg, hneg, hneg, neg_mul_neg, neg_mul_neg]
    exact heq
  · intro i hi
    have := hfit i hi
    simp only [neg, abs_neg]
    exact this
  · have hg : ∀ j, gramAt n (neg f) (neg g) j = gramAt n f g j := by
      intro j
      unfold gramAt
      rw [hdft, hdft, Complex.normSq_neg, Complex.normSq_neg]
    refine ⟨le_trans (le_of_eq (sum_congr rfl fun i _ => ?_)) hgs.1, le_trans (le_of_eq (sum_congr rfl fun j _ => by rw [hg j])) hgs.2⟩
    simp only [neg]
    push_cast
    ring
  · rw [hnegq, hnegq, mul_neg]
    unfold ModEqXN at *
    rw [← dvd_neg]
    convert hh using 1
    ring
  · have a1 := h1 v hv
    have a2 := (hiff s1 s2 bit).mp h2 v hv
    cases bit <;> simp at a1 a2 <;> omega

/-- The stream of the example: the four bytes of the word, then bytes that are quiet. -/
def quietXof : Xof := fun l => if l.length = 32 then fun i => if i < 4 then l.getD i 0 else if i < 40 then 0 else if (i - 40) % 11 < 9 then 255 else 0
  else streamOf fun _ => 0

/-- The generator of the example gives the bytes of the word. -/
def wordMt : UInt32 → Mem UInt8 := fun w i => UInt8.ofNat (w.toNat / 256 ^ i)

theorem quiet_prng (w : UInt32) : prngNew quietXof wordMt w =
    fun i => if i < 4 then UInt8.ofNat (w.toNat / 256 ^ i) else if i < 40 then 0 else if (i - 40) % 11 < 9 then 255 else 0 := by
  unfold prngNew
  simp only
  unfold quietXof
  rw [if_pos (by simp [bytes])]
  funext i
  by_cases hi : i < 4
  · rw [if_pos hi, if_pos hi]
    unfold bytes
    rw [List.getD_eq_getElem?_getD, List.getElem?_map, List.getElem?_range (by omega)]
    rw [Option.map_some, Option.getD_some, loop_fill, if_pos (by omega)]
    rfl
  · rw [if_neg hi, if_neg hi]

/-- A key, a generator and a run that meet all hypotheses of `C114_leak`, with quiet bytes. -/
example (b : Bool) (rm rd : F64.Recover) (sk0 : Mem UInt8) (lfuel : ℕ) (junk : FgF) (junkG : Mem Int) (junkB junkT : Mem (F64 × F64)) (seed : UInt32)
    (msg : List UInt8) (sig : Mem UInt8) : ∃ (f g F G : Mem Int) (h : Mem Ff) (xof : Xof) (mt : UInt32 → Mem UInt8) (sig' : Mem UInt8),
    NtruEq 9 f g F G ∧ FitsFormat 9 f g F G ∧ GsAtMost 16810 9 f g ∧ (∀ j, j < 2 ^ 9 → 1 / 2 ^ 10 ≤ ‖dft 9 (zC f) j‖) ∧
    ModEqXN (2 ^ 9) (polyZq (2 ^ 9) h * polyInt (2 ^ 9) f) (polyInt (2 ^ 9) g) ∧ (∃ r, ModEqXN (2 ^ 9) (polyInt (2 ^ 9) f * r) 1) ∧
    (∀ v, (∀ i, i < 40 → prngNew xof mt v i = prngNew xof mt seed i) → v = seed) ∧
    falconSign (f64A b rm rd) xof mt (codeLeaf64 false 9 (lfuel + 1)) 1 16 9 junk junkG junkB junkT seed (encodeSkey 9 f g F sk0) msg sig =
      some (.ok (true, sig')) ∧ Quiet (prngNew xof mt seed) 40 := by
  have hn : ValidLog 9 := Or.inl rfl
  have hq : ∀ p, 40 ≤ p → p % 11 = 7 → (2 ^ 72 - pdtSpec.getD 0 0 ≤ leVal 9 fun i => prngNew quietXof wordMt seed (p + i)) ∧
      prngNew quietXof wordMt seed (p + 9) = 0 ∧ prngNew quietXof wordMt seed (p + 10) = 0 := by
    intro p hp h
    rw [quiet_prng]
    refine ⟨?_, ?_, ?_⟩
    · rw [leVal_congr 9 _ (fun _ => 255) fun i hi => by
        show (if p + i < 4 then _ else if p + i < 40 then _ else if (p + i - 40) % 11 < 9 then _ else _) = _
        rw [if_neg (by omega), if_neg (by omega), if_pos (by omega)]]
      decide +kernel
    · show (if p + 9 < 4 then _ else if p + 9 < 40 then _ else if (p + 9 - 40) % 11 < 9 then _ else _) = _
      rw [if_neg (by omega), if_neg (by omega), if_neg (by omega)]
    · show (if p + 10 < 4 then _ else if p + 10 < 40 then _ else if (p + 10 - 40) % 11 < 9 then _ else _) = _
      rw [if_neg (by omega), if_neg (by omega), if_neg (by omega)]
  obtain ⟨sig', pos', hs⟩ := quiet_run b lfuel (fun _ => 0) (fun _ => 0) (prngNew quietXof wordMt seed) msg sig quietXof
    (fun l hl => by unfold quietXof; rw [if_neg (by omega)]) hq
  refine ⟨flatf, flatg, flatF, flatG, _, quietXof, wordMt, sig', flatKey_eq, flatKey_fits, flatKey_most, flatKey_point, flat_public, flatKey_inv, ?_, ?_,
    (hq 40 (by norm_num) (by norm_num)).1, by rw [(hq 40 (by norm_num) (by norm_num)).2.2]; decide⟩
  · intro v hv
    rw [quiet_prng, quiet_prng] at hv
    have e : ∀ i, i < 4 → v.toNat / 256 ^ i % 256 = seed.toNat / 256 ^ i % 256 := by
      intro i hi
      have := hv i (by omega)
      simp only [if_pos hi] at this
      have := congrArg UInt8.toNat this
      simpa using this
    have e0 := e 0 (by norm_num)
    have e1 := e 1 (by norm_num)
    have e2 := e 2 (by norm_num)
    have e3 := e 3 (by norm_num)
    have h1 := v.toNat_lt
    have h2 := seed.toNat_lt
    apply UInt32.toNat_inj.mp
    norm_num at e0 e1 e2 e3 h1 h2
    omega
  · rw [C75_one_shot b rm rd hn flatKey_eq flatKey_fits flatKey_gs flatKey_point sk0 quietXof wordMt 1 (lfuel + 1) 16 junk junk junkG junkG junkB junkT
      (fun _ => 0) (fun _ => 0),
      C67_one_shot (accurate_ieee b) hn flatKey_eq flatKey_fits flatKey_point sk0 (fun _ => 0) (fun _ => 0) quietXof wordMt _ 1 16 junk junkG
        (fun _ => 0) (fun _ => 0) seed msg sig, hs]
    rfl

/-- A round of sampling that returns, as in `C114_round`. -/
example (b : Bool) (lfuel : ℕ) : ∃ (f g F G : Mem Int) (c : Mem Ff) (tape : ℕ → UInt8) (T : Mem ℂ) (r : Mem ℂ × Mem ℂ × ℕ),
    NtruEq 9 f g F G ∧ FitsFormat 9 f g F G ∧ CanonBelow (2 ^ 9) c ∧
    ffSampling (ieeeA b) (codeLeaf false 9 (lfuel + 1) tape) 9 0 (signTarget (ieeeA b) 9 (computeMatrixB (ieeeA b) 9 f g F G (fun _ => 0)) c).1
      (signTarget (ieeeA b) 9 (computeMatrixB (ieeeA b) 9 f g F G (fun _ => 0)) c).2 T (junkC (ieeeA b)) (junkC (ieeeA b)) 40 = some (.ok r) := by
  have hq : ∀ p, 40 ≤ p → p % 11 = 7 → (2 ^ 72 - pdtSpec.getD 0 0 ≤ leVal 9 fun i => (if (p + i - 40) % 11 < 9 then 255 else 0 : UInt8)) ∧
      (if (p + 9 - 40) % 11 < 9 then 255 else 0 : UInt8) = 0 ∧ (if (p + 10 - 40) % 11 < 9 then 255 else 0 : UInt8) = 0 := by
    intro p hp h
    refine ⟨?_, by rw [if_neg (by omega)], by rw [if_neg (by omega)]⟩
    rw [leVal_congr 9 _ (fun _ => 255) fun i hi => by rw [if_pos (by omega)]]
    decide +kernel
  obtain ⟨sig', pos', hs⟩ := quiet_run b lfuel (fun _ => 0) (fun _ => 0) (fun i => if (i - 40) % 11 < 9 then 255 else 0) [] (fun _ => 0)
    (fun _ => streamOf fun _ => 0) (fun _ _ => rfl) hq
  obtain ⟨c, z, s2, hc, e1, -⟩ := signPoly_once (ieeeA b) (Or.inl rfl) hs
  exact ⟨flatf, flatg, flatF, flatG, c, _, _, z, flatKey_eq, flatKey_fits, (C24_hash_point _ _ _ hc).2.1, e1⟩

end Falcon
