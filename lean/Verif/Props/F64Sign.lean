import Verif.F64Spec
import Verif.Proofs.F64Sign
import Verif.Props.SignDefined

/-!
# Property C75: signing on IEEE 754 data neither overflows nor meets a NaN
-/

namespace Falcon

open Finset

/-- All polynomials and all leaves of a tree consist of finite doubles. -/
def TreeFinite : ℕ → FTree (F64 × F64) → Prop
  | _, .leaf v => F64.CFinite v
  | k, .node l L R => (∀ i, i < 2 ^ k → F64.CFinite (l i)) ∧ TreeFinite (k - 1) L ∧ TreeFinite (k - 1) R

theorem FinC.finite {e : ℕ} {d : F64 × F64} {z : ℂ} (h : FinC e d z) : F64.CFinite d := by
  obtain ⟨⟨⟨s, h1⟩, -⟩, ⟨t, h2⟩, -⟩ := h
  exact ⟨⟨s, _, h1⟩, ⟨t, _, h2⟩⟩

theorem FinT.finite : ∀ (t : FTree (F64 × F64)) (k : ℕ) (t' : FTree ℂ), FinT k t t' → TreeFinite k t := by
  intro t
  induction t with
  | leaf v =>
    intro k t' h
    cases t' with
    | leaf w =>
      have h' : FinC 200 v w ∧ 1 ≤ w.re := by cases k <;> exact h
      cases k <;> exact h'.1.finite
    | node _ _ _ => cases k <;> exact h.elim
  | node l L R ihL ihR =>
    intro k t' h
    cases t' with
    | leaf _ => cases k <;> exact h.elim
    | node l' L' R' =>
      have h' : RelBelow (2 ^ k) (FinC 16) l l' ∧ FinT (k - 1) L L' ∧ FinT (k - 1) R R' := by cases k <;> exact h
      have r : (∀ i, i < 2 ^ k → F64.CFinite (l i)) ∧ TreeFinite (k - 1) L ∧ TreeFinite (k - 1) R :=
        ⟨fun i hi => (h'.1 i hi).finite, ihL _ _ h'.2.1, ihR _ _ h'.2.2⟩
      cases k <;> exact r

/-- C75, key material: for every key in range, all entries of the matrix, all polynomials and all leaves of the Falcon tree, computed
on IEEE 754 data, are finite. -/
theorem C75_key_material (b : Bool) (rm rd : F64.Recover) {n : ℕ} (hn : ValidLog n) {f g F G : Mem Int} (heq : NtruEq n f g F G)
    (hfit : FitsFormat n f g F G) (hgs : GsSmall n f g) (B0 T0 : Mem (F64 × F64)) :
    let A := f64A b rm rd
    let B := computeMatrixB A n f g F G B0
    (∀ x, x < 4 * 2 ^ n → F64.CFinite (B x)) ∧
    ∃ t, TreeAt n (computeFalconTree A n B T0) 0 0 t ∧ TreeFinite n t := by
  intro A B
  have hB := finC_basis (sim_f64 b rm rd) hn hfit B0 B0 (fun _ => 0)
  refine ⟨fun x hx => (hB x hx).finite, ?_⟩
  obtain ⟨t, l, L, R, h1, -, h2, -⟩ := tree_f64 (sim_f64 b rm rd) (accurate_ieee b) hn heq hfit hgs B T0 _ (fun _ => 0) hB
  exact ⟨t, (treeAt_root _ _ _).mpr h1, FinT.finite _ _ _ h2⟩

/-- C75, the integer sampler: for a centre of absolute value below 2^31 and a deviation of at least 1 it behaves on IEEE 754
data as in the model without upper bound on the exponent. -/
theorem C75_sampler (fma : Bool) (n : ℕ) (s t : Bool) {mu sigma : ℝ} (h : |mu| ≤ 2 ^ 31) (h1 : 1 ≤ sigma) (h2 : sigma ≤ 2)
    (stream : ℕ → UInt8) (fuel pos : ℕ) :
    samplerz64 fma (.fin s mu) (.fin t sigma) (sigmaMinF n) stream fuel pos = samplerz fma mu sigma (sigmaMin n) stream fuel pos :=
  samplerz64_eq fma n ⟨⟨s, rfl⟩, h⟩ ⟨⟨t, rfl⟩, by rw [abs_of_nonneg (by linarith)]; linarith⟩ h1 stream fuel pos

/-- C75: signing on IEEE 754 data, with the sampler of the code, gives the bytes that the model without upper bound on the exponent gives,
for every key in range, every message, stream, amount of fuel and whatever the library does about NaN. -/
theorem C75_sign (b : Bool) (rm rd : F64.Recover) {n : ℕ} (hn : ValidLog n) {f g F G : Mem Int} (heq : NtruEq n f g F G)
    (hfit : FitsFormat n f g F G) (hgs : GsSmall n f g) (xof : Xof) (fuel lfuel hfuel : ℕ) (B0 T0 : Mem (F64 × F64)) (B0' T0' : Mem ℂ)
    (stream : ℕ → UInt8) (msg : List UInt8) (sig : Mem UInt8) (pos : ℕ) :
    let A := f64A b rm rd
    let B := computeMatrixB A n f g F G B0
    let B' := computeMatrixB (ieeeA b) n f g F G B0'
    signPoly A xof (codeLeaf64 false n lfuel stream) fuel hfuel n B (computeFalconTree A n B T0) stream msg sig pos =
      signPoly (ieeeA b) xof (codeLeaf false n lfuel stream) fuel hfuel n B' (computeFalconTree (ieeeA b) n B' T0') stream msg sig pos :=
  signPoly64 (sim_f64 b rm rd) (accurate_ieee b) (codeLeaf_sim false n lfuel stream) (codeLeaf_good hn lfuel stream) hn heq hfit hgs
    _ _ _ _ (finC_basis (sim_f64 b rm rd) hn hfit B0 B0 B0') xof fuel hfuel stream msg sig pos

/-- C75: the same for one-shot signing with the secret key bytes. -/
theorem C75_one_shot (b : Bool) (rm rd : F64.Recover) {n : ℕ} (hn : ValidLog n) {f g F G : Mem Int} (heq : NtruEq n f g F G)
    (hfit : FitsFormat n f g F G) (hgs : GsSmall n f g) (hf0 : ∀ j, j < 2 ^ n → 1 / 2 ^ 10 ≤ ‖dft n (zC f) j‖) (sk0 : Mem UInt8)
    (xof : Xof) (mt : UInt32 → Mem UInt8) (fuel lfuel hfuel : ℕ) (junk junk' : FgF) (junkG junkG' : Mem Int)
    (junkB junkT : Mem (F64 × F64)) (junkB' junkT' : Mem ℂ) (seed : UInt32) (msg : List UInt8) (sig : Mem UInt8) :
    falconSign (f64A b rm rd) xof mt (codeLeaf64 false n lfuel) fuel hfuel n junk junkG junkB junkT seed (encodeSkey n f g F sk0) msg sig =
      falconSign (ieeeA b) xof mt (codeLeaf false n lfuel) fuel hfuel n junk' junkG' junkB' junkT' seed (encodeSkey n f g F sk0) msg sig :=
  falconSign64 (sim_f64 b rm rd) (accurate_ieee b) (codeLeaf_sim false n lfuel) (codeLeaf_good hn lfuel) hn heq hfit hgs hf0 sk0 xof mt
    fuel hfuel junk junk' junkG junkG' junkB junkT junkB' junkT' seed msg sig

/-- C75: so signing on IEEE 754 data executes no undefined behaviour (C68), with key material and one-shot. -/
theorem C75_defined (b : Bool) (rm rd : F64.Recover) {n : ℕ} (hn : ValidLog n) {f g F G : Mem Int} (heq : NtruEq n f g F G)
    (hfit : FitsFormat n f g F G) (hgs : GsSmall n f g) (xof : Xof) (fuel lfuel hfuel : ℕ) (B0 T0 : Mem (F64 × F64)) :
    let A := f64A b rm rd
    let B := computeMatrixB A n f g F G B0
    (∀ stream msg sig pos e, signPoly A xof (codeLeaf64 false n lfuel stream) fuel hfuel n B (computeFalconTree A n B T0) stream msg sig pos
      ≠ some (.error e)) ∧
    ((∀ j, j < 2 ^ n → 1 / 2 ^ 10 ≤ ‖dft n (zC f) j‖) → ∀ sk0 mt junk junkG seed msg sig e,
      falconSign A xof mt (codeLeaf64 false n lfuel) fuel hfuel n junk junkG B0 T0 seed (encodeSkey n f g F sk0) msg sig
        ≠ some (.error e)) := by
  intro A B
  constructor
  · intro stream msg sig pos e
    rw [C75_sign b rm rd hn heq hfit hgs xof fuel lfuel hfuel B0 T0 (fun _ => 0) (fun _ => 0)]
    exact C68_sign (accurate_ieee b) hn heq hfit hgs xof fuel lfuel hfuel _ _ stream msg sig pos e
  · intro hf0 sk0 mt junk junkG seed msg sig e
    rw [C75_one_shot b rm rd hn heq hfit hgs hf0 sk0 xof mt fuel lfuel hfuel junk junk junkG junkG B0 T0 (fun _ => 0) (fun _ => 0)]
    exact C68_one_shot (accurate_ieee b) hn heq hfit hgs hf0 sk0 xof mt fuel lfuel hfuel junk junkG _ _ seed msg sig e

/-- C75: and a signature that `falcon::sign` returns on IEEE 754 data carries exactly the s2 of the integers that were sampled, a
preimage of the hashed point, its squared norm at most 166 above the bound; `falcon::verify` accepts it under the conditions of C65. -/
theorem C75_signature (b : Bool) (rm rd : F64.Recover) {n : ℕ} (hn : ValidLog n) {f g F G : Mem Int} (heq : NtruEq n f g F G)
    (hfit : FitsFormat n f g F G) (hgs : GsSmall n f g) (hf0 : ∀ j, j < 2 ^ n → 1 / 2 ^ 10 ≤ ‖dft n (zC f) j‖) {h : Mem Ff}
    (hh : ModEqXN (2 ^ n) (polyZq (2 ^ n) h * polyInt (2 ^ n) f) (polyInt (2 ^ n) g))
    (hinv : ∃ r, ModEqXN (2 ^ n) (polyInt (2 ^ n) f * r) 1) (sk0 : Mem UInt8)
    (xof : Xof) (mt : UInt32 → Mem UInt8) (fuel lfuel hfuel : ℕ) (junk : FgF) (junkG : Mem Int)
    (junkB junkT : Mem (F64 × F64)) (seed : UInt32) (msg : List UInt8) (sig sig' : Mem UInt8) (ok : Bool)
    (hsig : falconSign (f64A b rm rd) xof mt (codeLeaf64 false n lfuel) fuel hfuel n junk junkG junkB junkT seed (encodeSkey n f g F sk0) msg
      sig = some (.ok (ok, sig'))) :
    ok = true ∧ ∃ (c : Mem Ff) (s1 s2 : Mem Int) (p p' : ℕ) (l : List Call),
      hashToPoint hfuel n (xof (saltMsg sig' msg)) (fun _ => Ff.zero) = some c ∧
      Calls (codeLeaf false n lfuel (prngNew xof mt seed)) p l p' ∧ l.length = 2 ^ (n + 1) ∧
      RoundVec n f g F G c l s1 s2 ∧ Preimage (2 ^ n) h c s1 s2 ∧
      sqNorm (2 ^ n) s1 + sqNorm (2 ^ n) s2 ≤ betaSq n + 166 ∧
      SignatureOf n sig' (prngNew xof mt seed) s2 ∧
      (sqNorm (2 ^ n) s1 + sqNorm (2 ^ n) s2 ≤ betaSq n →
        (∀ i, i < 2 ^ n → |s2 i| ≤ 1023) → (n = 10 → ∀ i, i < 2 ^ n → s1 i ≠ 6144) →
        ∀ (pk : Mem UInt8) (p : Ovf) (vjunk : Junk) (lim : ℕ), PkeyOf n pk h → sigBytes n + 2 ≤ lim →
          verify xof hfuel p n vjunk pk msg (rdArr lim sig') = some (.ok true)) := by
  rw [C75_one_shot b rm rd hn heq hfit hgs hf0 sk0 xof mt fuel lfuel hfuel junk junk junkG junkG junkB junkT (fun _ => 0) (fun _ => 0),
    C67_one_shot (accurate_ieee b) hn heq hfit hf0 sk0 (fun _ => 0) (fun _ => 0) xof mt _ fuel hfuel junk junkG (fun _ => 0) (fun _ => 0) seed
      msg sig] at hsig
  cases hsp : signPoly (ieeeA b) xof (codeLeaf false n lfuel (prngNew xof mt seed)) fuel hfuel n
      (computeMatrixB (ieeeA b) n f g F G (fun _ => 0))
      (computeFalconTree (ieeeA b) n (computeMatrixB (ieeeA b) n f g F G (fun _ => 0)) (fun _ => 0)) (prngNew xof mt seed) msg sig 0 with
  | none => rw [hsp] at hsig; cases hsig
  | some e =>
    cases e with
    | error e => rw [hsp] at hsig; cases hsig
    | ok r =>
      rw [hsp] at hsig
      have hsig := Prod.mk.inj (Except.ok.inj (Option.some.inj hsig))
      obtain ⟨c, s1, s2, p, l, q1, q2, q3, q4, q5, q6, q7, q8⟩ := C65_float_sign (accurate_ieee b) hn heq hfit hh hinv xof _ fuel hfuel
        (fun _ => 0) _ _ msg sig r.1 0 r.2 hsp
      rw [← hsig.2]
      refine ⟨hsig.1.symm, c, s1, s2, p, r.2, l, q1, q2, q3, q4, q5, q6, by simpa only [Nat.zero_add] using q7, ?_⟩
      intro hb hs h6 pk p vjunk lim hpk hlim
      exact q8 hb hs h6 pk p vjunk lim hpk hlim

/-- C75, what is excluded: the data do contain infinities and NaN, and they would not be harmless. A product can overflow; the difference of
two infinities is NaN; and a NaN passes no comparison and cannot be converted to an integer. -/
theorem C75_data : F64.mul (.fin false (2 ^ 1023)) (.fin false (2 ^ 1023)) = .inf false ∧
    F64.sub (.inf false) (.inf false) = .nan ∧ (∀ x, F64.le .nan x = false ∧ F64.lt .nan x = false ∧ F64.lt x .nan = false) ∧
    (∀ lo hi, F64.roundTo lo hi .nan = .error .floatConv) ∧ F64.toU64 .nan = .error .floatConv ∧
    F64.toI32 (.inf false) = .error .floatConv := by
  refine ⟨?_, by simp [F64.sub, F64.neg, F64.add], fun x => ⟨rfl, rfl, by cases x <;> rfl⟩, fun _ _ => rfl, rfl, rfl⟩
  have h (k : ℕ) (hk : 1024 ≤ k + k) : F64.mul (.fin false (2 ^ k)) (.fin false (2 ^ k)) = .inf false := by
    have hr : Rep ((2 : ℝ) ^ k * 2 ^ k) := by
      have := rep_zpow (e := ((k + k : ℕ) : ℤ)) (by omega)
      rwa [zpow_natCast, pow_add] at this
    have h2 : ¬ ((2 : ℝ) ^ k * 2 ^ k < 0) := not_lt.mpr (by positivity)
    have h3 : (2 : ℝ) ^ 1024 ≤ |(2 : ℝ) ^ k * 2 ^ k| := by
      rw [abs_of_pos (by positivity), ← pow_add]
      exact pow_le_pow_right₀ (by norm_num) hk
    show F64.round _ _ = _
    unfold F64.round
    rw [rnd_of_rep hr, if_pos h3, decide_eq_false h2]
  exact h 1023 (by norm_num)

/-- The hypotheses are met by a key of the format. -/
example (b : Bool) (rm rd : F64.Recover) (B0 T0 : Mem (F64 × F64)) :
    let B := computeMatrixB (f64A b rm rd) 9 flatf flatg flatF flatG B0
    (∀ x, x < 4 * 2 ^ 9 → F64.CFinite (B x)) ∧
    ∃ t, TreeAt 9 (computeFalconTree (f64A b rm rd) 9 B T0) 0 0 t ∧ TreeFinite 9 t :=
  C75_key_material b rm rd (Or.inl rfl) flatKey_eq flatKey_fits flatKey_gs B0 T0

/-- The same key, one-shot. -/
example (b : Bool) (rm rd : F64.Recover) (sk0 : Mem UInt8) (xof : Xof) (mt : UInt32 → Mem UInt8) (fuel lfuel hfuel : ℕ) (junk : FgF)
    (junkG : Mem Int) (junkB junkT : Mem (F64 × F64)) (seed : UInt32) (msg : List UInt8) (sig : Mem UInt8) (e : UB) :
    falconSign (f64A b rm rd) xof mt (codeLeaf64 false 9 lfuel) fuel hfuel 9 junk junkG junkB junkT seed (encodeSkey 9 flatf flatg flatF sk0)
      msg sig ≠ some (.error e) :=
  (C75_defined b rm rd (Or.inl rfl) flatKey_eq flatKey_fits flatKey_gs xof fuel lfuel hfuel junkB junkT).2 flatKey_point sk0 mt junk junkG
    seed msg sig e

/-- `C75_sampler` at the centre 1/2 and deviation 3/2. -/
example (stream : ℕ → UInt8) : samplerz64 false (.fin false (1 / 2)) (.fin false (3 / 2)) (sigmaMinF 9) stream 5 0 =
    samplerz false (1 / 2) (3 / 2) (sigmaMin 9) stream 5 0 :=
  C75_sampler false 9 false false (by rw [abs_of_pos] <;> norm_num) (by norm_num) (by norm_num) stream 5 0

end Falcon
