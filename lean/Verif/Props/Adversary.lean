import Verif.Proofs.AdvLaw
import Verif.Props.FlatKey

/-!
# C88-C90: many signatures

Relative bounds for one round and one signature, and adversaries that ask for signatures of messages of their choice. In exact arithmetic outside the
integer sampler, on uniform bytes.
-/

namespace Falcon

/-! ## C88: divergence of order 2 -/

/-- One round: the probability p of an event for the code and the probability q under the spherical Gaussian on the preimages satisfy
p^2 <= (1 + 2^-64) q, and they differ by at most 2^-32 sqrt(q) + 2N 2^-m. -/
theorem C88_round {n : ℕ} (hn : ValidLog n) {h : Mem Ff} {f g F G : Mem Int} (tr : Trapdoor n h f g F G)
    (B0 T0 z0 z1 : Mem ℂ) {c : Mem Ff} (hc : CanonBelow (2 ^ n) c) (m : ℕ) (E : PairZ n → Prop) :
    let B := computeMatrixB exactA n f g F G B0
    let t := signTarget exactA n B c
    let p := freq (18 * m * 2 ^ (n + 1)) (fun st => ∃ r, ffSampling exactA (codeLeaf false n m st) n 0 t.1 t.2
          (computeFalconTree exactA n B T0) z0 z1 0 = some (.ok r) ∧
          ∃ s : PairZ n, IsDftOf n (signVec exactA n B t.1 t.2 r.1 r.2.1).1 (tapeOf s.1) ∧
            IsDftOf n (signVec exactA n B t.1 t.2 r.1 r.2.1).2 (tapeOf s.2) ∧ E s)
    let q := cosetPr n (sigmaSig n) h c E
    p ^ 2 ≤ (1 + 1 / 2 ^ 64) * q ∧ |p - q| ≤ 1 / 2 ^ 32 * √q + 2 ^ (n + 1) * (1 / 2 ^ m) :=
  code_coset_rel hn tr B0 T0 z0 z1 hc m E

/-- Signing with at most R rounds: p^2 <= (1 + 2^-64)^R q for every event of the signature bytes, with q its probability under the specification. -/
theorem C88_sign {n : ℕ} (hn : ValidLog n) {h : Mem Ff} {f g F G : Mem Int} (tr : Trapdoor n h f g F G)
    (B0 T0 : Mem ℂ) (xof : Xof) (hfuel : ℕ) (msg : List UInt8) (sig : Mem UInt8) (m R : ℕ) {Ev : Mem UInt8 → Prop}
    (hEv : ∀ a b, (∀ j, j < sigBytes n → a j = b j) → (Ev a ↔ Ev b)) :
    let B := computeMatrixB exactA n f g F G B0
    freq (40 + 18 * m * 2 ^ (n + 1) * R) (fun st => ∃ r, signPoly exactA xof (codeLeaf false n m st) R hfuel n B
          (computeFalconTree exactA n B T0) st msg sig 0 = some (.ok r) ∧ Ev r.1) ^ 2 ≤ (1 + 1 / 2 ^ 64) ^ R *
      specSignPr n (sigmaSig n) h (fun salt => hashToPoint hfuel n (xof ((List.range 40).map salt ++ msg)) (fun _ => Ff.zero)) R
          (fun salt s => ∃ a, SignatureOf n a salt (tapeOf s.2) ∧ Ev a) := by
  intro B
  rw [freq_salt, specSignPr]
  refine avg_rel fun v => ?_
  match hh : hashToPoint hfuel n (xof ((List.range 40).map (memOf v) ++ msg)) (fun _ => Ff.zero) with
  | some c => exact (sign_law hn tr B0 T0 xof hfuel msg sig (memOf v) hh m R hEv).1
  | none =>
    have e : (fun st => ∃ r, signPoly exactA xof (codeLeaf false n m (saltStream (memOf v) st)) R hfuel n B
          (computeFalconTree exactA n B T0) (saltStream (memOf v) st) msg sig 0 = some (.ok r) ∧ Ev r.1) = fun _ => False := by
      funext st
      have hbytes : bytes 40 (prngRead (saltStream (memOf v) st) 0 40 (fun _ => 0)) = (List.range 40).map (memOf v) := by
        unfold bytes
        refine List.map_congr_left fun i hi => ?_
        unfold prngRead saltStream
        rw [loop_fill, if_pos (List.mem_range.mp hi), Nat.zero_add, if_pos (List.mem_range.mp hi)]
      have : signPoly exactA xof (codeLeaf false n m (saltStream (memOf v) st)) R hfuel n B
          (computeFalconTree exactA n B T0) (saltStream (memOf v) st) msg sig 0 = none := by
        unfold signPoly
        simp only [hbytes, hh]
      rw [this]
      exact propext ⟨fun ⟨r, hr, _⟩ => (by cases hr), False.elim⟩
    rw [e]
    have : freq (18 * m * 2 ^ (n + 1) * R) (fun _ => False) = 0 := by
      unfold freq
      simp
    rw [this]
    simp

/-- Non-vacuity: an event that under the Gaussian of the public key has probability below 2^-100 happens in a round with probability below 2^-49. -/
example {c : Mem Ff} (hc : CanonBelow (2 ^ 9) c) (m : ℕ) (E : PairZ 9 → Prop)
    (hq : cosetPr 9 (sigmaSig 9) (computePublicKey 9 flatf flatg (fun _ => Ff.zero)) c E ≤ 1 / 2 ^ 100) :
    let B := computeMatrixB exactA 9 flatf flatg flatF flatG (fun _ => 0)
    let t := signTarget exactA 9 B c
    freq (18 * m * 2 ^ (9 + 1)) (fun st => ∃ r, ffSampling exactA (codeLeaf false 9 m st) 9 0 t.1 t.2
          (computeFalconTree exactA 9 B (fun _ => 0)) (fun _ => 0) (fun _ => 0) 0 = some (.ok r) ∧
          ∃ s : PairZ 9, IsDftOf 9 (signVec exactA 9 B t.1 t.2 r.1 r.2.1).1 (tapeOf s.1) ∧
            IsDftOf 9 (signVec exactA 9 B t.1 t.2 r.1 r.2.1).2 (tapeOf s.2) ∧ E s) ≤ 1 / 2 ^ 49 := by
  intro B t
  have h := (C88_round (.inl rfl) flat_trapdoor (fun _ => 0) (fun _ => 0) (fun _ => 0) (fun _ => 0) hc m E).1
  refine le_of_sq_le_sq ?_ (by norm_num)
  refine h.trans ((mul_le_mul_of_nonneg_left hq (by norm_num)).trans ?_)
  norm_num

/-! ## C89: adversaries -/

/-- An adversary asks adaptively for Q signatures. The probability p that it wins against the code and the probability q that it wins when its questions are
answered by the signing algorithm of the specification, which uses the public key only, differ by at most
(sqrt((1 + 2^-64)^(R Q) - 1 + 2 d) + d) / 2 with d = Q R 2N 2^-m; and p <= sqrt((1 + 2^-64)^(R Q) q) + d. -/
theorem C89_adversary {n : ℕ} (hn : ValidLog n) {h : Mem Ff} {f g F G : Mem Int} (tr : Trapdoor n h f g F G)
    (B0 T0 : Mem ℂ) (xof : Xof) (hfuel : ℕ) (sig : Mem UInt8) (m R : ℕ) {A : Adversary} {Q : ℕ} (hA : A.Asks Q) :
    let B := computeMatrixB exactA n f g F G B0
    let p := A.winsPr (40 + 18 * m * 2 ^ (n + 1) * R) (exactSigner xof m R hfuel n B (computeFalconTree exactA n B T0) sig)
    let q := A.specWinsPr n (sigmaSig n) h (fun l => hashToPoint hfuel n (xof l) (fun _ => Ff.zero)) R
    let d : ℝ := Q * (R * (2 ^ (n + 1) * (1 / 2 ^ m)))
    |p - q| ≤ (√((1 + 1 / 2 ^ 64) ^ (R * Q) - 1 + 2 * d) + d) / 2 ∧ p ≤ √((1 + 1 / 2 ^ 64) ^ (R * Q) * q) + d := by
  intro B p q d
  have hall := fun msg => signer_mean hn tr B0 T0 xof hfuel msg sig m R
  choose U hU eU using hall
  have key := Adversary.game_dist hU (fun msg => specMean_isMean hn tr _ R) (one_le_pow₀ (by norm_num)) (by positivity) (V := fun msg val =>
    (∑ v : Fin (40 + 18 * m * 2 ^ (n + 1) * R) → UInt8, val (exactSigner xof m R hfuel n B (computeFalconTree exactA n B T0) sig msg (memOf v))) /
      256 ^ (40 + 18 * m * 2 ^ (n + 1) * R)) eU hA
  rw [← Adversary.winsPr_gval, ← pow_mul] at key
  have eq : q = _ := Adversary.specWinsPr_gval n h (fun l => hashToPoint hfuel n (xof l) (fun _ => Ff.zero)) R A
  rw [← eq] at key
  obtain ⟨k1, y, y0, y1, -, k2⟩ := key
  refine ⟨k1, ?_⟩
  have := Real.le_sqrt_of_sq_le k2
  linarith

/-- For at most 2^62 rounds in all and m = 128 the difference is at most 2^-32 sqrt(R Q). -/
theorem C89_error {n R Q : ℕ} (hn : ValidLog n) (hQ : R * Q ≤ 2 ^ 62) :
    let d : ℝ := Q * (R * (2 ^ (n + 1) * (1 / 2 ^ 128)))
    (√((1 + 1 / 2 ^ 64) ^ (R * Q) - 1 + 2 * d) + d) / 2 ≤ √(R * Q) / 2 ^ 32 := by
  intro d
  obtain ⟨k, hk⟩ : ∃ k : ℝ, k = R * Q := ⟨_, rfl⟩
  have k0 : 0 ≤ k := by rw [hk]; positivity
  have k1 : k ≤ 2 ^ 62 := by rw [hk]; exact_mod_cast hQ
  have hd0 : 0 ≤ d := by positivity
  have hd : d ≤ k * (1 / 2 ^ 117) := by
    have e : d = k * (2 ^ (n + 1) * (1 / 2 ^ 128)) := by rw [hk]; simp only [d]; ring
    rw [e]
    refine mul_le_mul_of_nonneg_left ?_ k0
    rcases hn with rfl | rfl <;> norm_num
  have hp : (1 + 1 / 2 ^ 64 : ℝ) ^ (R * Q) - 1 ≤ 2 * (k * (1 / 2 ^ 64)) := by
    have h1 : (1 + 1 / 2 ^ 64 : ℝ) ^ (R * Q) ≤ Real.exp (k * (1 / 2 ^ 64)) := by
      calc (1 + 1 / 2 ^ 64 : ℝ) ^ (R * Q) ≤ Real.exp (1 / 2 ^ 64) ^ (R * Q) :=
            pow_le_pow_left₀ (by norm_num) (by linarith [Real.add_one_le_exp (1 / 2 ^ 64 : ℝ)]) _
        _ = Real.exp ((R * Q : ℕ) * (1 / 2 ^ 64)) := (Real.exp_nat_mul _ _).symm
        _ = _ := by rw [hk]; push_cast; rfl
    obtain ⟨x, hx⟩ : ∃ x, x = k * (1 / 2 ^ 64) := ⟨_, rfl⟩
    rw [← hx] at h1 ⊢
    have x0 : 0 ≤ x := by rw [hx]; exact mul_nonneg k0 (by norm_num)
    have x1 : x ≤ 1 / 4 := by
      rw [hx]
      refine (mul_le_mul_of_nonneg_right k1 (by norm_num)).trans ?_
      norm_num
    have h2 := Real.add_one_le_exp (-x)
    have h3 : Real.exp (-x) * Real.exp x = 1 := by rw [← Real.exp_add]; norm_num
    have h4 := Real.exp_pos x
    have h5 : (1 - x) * Real.exp x ≤ 1 := (mul_le_mul_of_nonneg_right (by linarith) h4.le).trans h3.le
    generalize Real.exp x = y at *
    nlinarith
  have h1 : √((1 + 1 / 2 ^ 64) ^ (R * Q) - 1 + 2 * d) ≤ 3 / 2 * (√k / 2 ^ 32) := by
    rw [Real.sqrt_le_left (by positivity), mul_pow, div_pow (√k), Real.sq_sqrt k0]
    linarith
  have h2 : d ≤ 1 / 2 * (√k / 2 ^ 32) := by
    refine hd.trans ?_
    have h3 : √k ≤ 2 ^ 31 := by
      rw [Real.sqrt_le_left (by norm_num)]
      linarith
    have h4 := Real.mul_self_sqrt k0
    have h5 := Real.sqrt_nonneg k
    nlinarith
  rw [← hk]
  linarith

/-- Two secret keys of one public key: an adversary asking for signatures does not tell them apart. -/
theorem C89_basis {n : ℕ} (hn : ValidLog n) {h : Mem Ff} {f g F G f' g' F' G' : Mem Int} (tr : Trapdoor n h f g F G)
    (tr' : Trapdoor n h f' g' F' G') (B0 T0 : Mem ℂ) (xof : Xof) (hfuel : ℕ) (sig : Mem UInt8) (m R : ℕ) {A : Adversary} {Q : ℕ} (hA : A.Asks Q) :
    let p := fun f g F G : Mem Int =>
      let B := computeMatrixB exactA n f g F G B0
      A.winsPr (40 + 18 * m * 2 ^ (n + 1) * R) (exactSigner xof m R hfuel n B (computeFalconTree exactA n B T0) sig)
    let d : ℝ := Q * (R * (2 ^ (n + 1) * (1 / 2 ^ m)))
    |p f g F G - p f' g' F' G'| ≤ √((1 + 1 / 2 ^ 64) ^ (R * Q) - 1 + 2 * d) + d := by
  intro p d
  have := tri4 (C89_adversary hn tr B0 T0 xof hfuel sig m R hA).1 (C89_adversary hn tr' B0 T0 xof hfuel sig m R hA).1
  refine this.trans (le_of_eq ?_)
  ring

/-- Non-vacuity: an adversary that asks for two messages, the second of which is the first signature, and that wins if both signatures end with the same
byte; two secret keys of one public key. -/
example (xof : Xof) (sig : Mem UInt8) :
    let A : Adversary := .ask [1] fun o => .ask (o.getD []) fun o' => .stop (∃ l l', o = some l ∧ o' = some l' ∧ l.getLast? = l'.getLast?)
    let p := fun f g F G : Mem Int =>
      let B := computeMatrixB exactA 9 f g F G (fun _ => 0)
      A.winsPr (40 + 18 * 128 * 2 ^ (9 + 1) * 100) (exactSigner xof 128 100 20 9 B (computeFalconTree exactA 9 B (fun _ => 0)) sig)
    |p flatf flatg flatF flatG - p flatf flatg flatF' flatG'| ≤ 1 / 2 ^ 27 := by
  intro A p
  refine (C89_basis (.inl rfl) flat_trapdoor flat_trapdoor' (fun _ => 0) (fun _ => 0) xof 20 sig 128 100 (A := A)
    (.ask _ _ 1 fun _ => .ask _ _ 0 fun _ => .stop _ 0)).trans ?_
  have h := C89_error (n := 9) (R := 100) (Q := 2) (.inl rfl) (by norm_num)
  have h2 : √((100 : ℕ) * (2 : ℕ) : ℝ) ≤ 15 := by
    rw [Real.sqrt_le_left (by norm_num)]
    norm_num
  simp only at h
  norm_num at h h2 ⊢
  linarith

/-! ## C90: forgers -/

theorem Forger.asks_game {A : Forger} {Q : ℕ} (hA : A.Asks Q) (accepts : List UInt8 → Mem UInt8 → Prop) (asked : List (List UInt8)) :
    (A.game accepts asked).Asks Q := by
  induction hA generalizing asked with
  | output msg sig q => exact .stop _ q
  | ask msg next q h ih => exact .ask _ _ q fun o => ih o _

/-- A forger that asks adaptively for Q signatures and wins if `verify` accepts its output for a message that it has not asked for: its probability of
success against the code is that against the specification, where no secret is used, up to the bounds of C89. -/
theorem C90_forger {n : ℕ} (hn : ValidLog n) {h : Mem Ff} {f g F G : Mem Int} (tr : Trapdoor n h f g F G)
    (B0 T0 : Mem ℂ) (xof : Xof) (hfuel : ℕ) (sig pk : Mem UInt8) (junk : Junk) (ovf : Ovf) (lim m R : ℕ) {A : Forger} {Q : ℕ} (hA : A.Asks Q) :
    let B := computeMatrixB exactA n f g F G B0
    let accepts := fun msg s => verify xof hfuel ovf n junk pk msg (rdArr lim s) = some (.ok true)
    let p := (A.game accepts []).winsPr (40 + 18 * m * 2 ^ (n + 1) * R) (exactSigner xof m R hfuel n B (computeFalconTree exactA n B T0) sig)
    let q := (A.game accepts []).specWinsPr n (sigmaSig n) h (fun l => hashToPoint hfuel n (xof l) (fun _ => Ff.zero)) R
    let d : ℝ := Q * (R * (2 ^ (n + 1) * (1 / 2 ^ m)))
    |p - q| ≤ (√((1 + 1 / 2 ^ 64) ^ (R * Q) - 1 + 2 * d) + d) / 2 ∧ p ≤ √((1 + 1 / 2 ^ 64) ^ (R * Q) * q) + d := by
  intro B accepts p q d
  exact C89_adversary hn tr B0 T0 xof hfuel sig m R (Forger.asks_game hA accepts [])

/-- Non-vacuity: a forger that asks once and outputs the answer for another message. -/
example (xof : Xof) (sig pk : Mem UInt8) (junk : Junk) :
    let A : Forger := .ask [1] fun o => .output [2] fun i => (o.getD []).getD i 0
    let accepts := fun msg s => verify xof 20 .wrap 9 junk pk msg (rdArr 668 s) = some (.ok true)
    let B := computeMatrixB exactA 9 flatf flatg flatF flatG (fun _ => 0)
    |(A.game accepts []).winsPr (40 + 18 * 128 * 2 ^ (9 + 1) * 100) (exactSigner xof 128 100 20 9 B (computeFalconTree exactA 9 B (fun _ => 0)) sig) -
      (A.game accepts []).specWinsPr 9 (sigmaSig 9) (computePublicKey 9 flatf flatg (fun _ => Ff.zero)) (fun l => hashToPoint 20 9 (xof l) (fun _ => Ff.zero)) 100| ≤
      1 / 2 ^ 28 := by
  intro A accepts B
  refine (C90_forger (.inl rfl) flat_trapdoor (fun _ => 0) (fun _ => 0) xof 20 sig pk junk .wrap 668 128 100 (A := A) (Q := 1)
    (.ask _ _ 0 fun _ => .output _ _ 0)).1.trans ?_
  have h := C89_error (n := 9) (R := 100) (Q := 1) (.inl rfl) (by norm_num)
  have h2 : √((100 : ℕ) * (1 : ℕ) : ℝ) ≤ 10 := by
    rw [Real.sqrt_le_left (by norm_num)]
    norm_num
  refine h.trans ((div_le_div_of_nonneg_right h2 (by norm_num)).trans ?_)
  norm_num

end Falcon
