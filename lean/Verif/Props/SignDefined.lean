import Verif.Proofs.SignBound
import Verif.Proofs.GsSmall
import Verif.Props.FlatKey

/-!
# Property C68: signing in binary64 with the sampler of the code executes no undefined behaviour
-/

namespace Falcon

open Finset

/-- C68, the test of key generation: a pair (f, g) that passes the Gram-Schmidt test, in exact arithmetic, or in binary64
with |f^|^2 + |g^|^2 at least 2^-10 at every point, has both norms at most 16900. -/
theorem C68_norms {n : ℕ} (hn : ValidLog n) {f g : Mem Int} (hf : KeyRange n f) (hg : KeyRange n g)
    (hne : ∃ i, i < 2 ^ n ∧ (f i ≠ 0 ∨ g i ≠ 0)) :
    (gsTooBig exactA n f g = false → GsSmall n f g) ∧
    ∀ b, gsTooBig (ieeeA b) n f g = false → (∀ j, j < 2 ^ n → 1 / 2 ^ 10 ≤ gramAt n f g j) → GsSmall n f g :=
  ⟨gsSmall_exact hn hne, fun b h hD => gsSmall_float b hn (abs_of_keyRange hf) (abs_of_keyRange hg) h hD⟩

/-- C68, the tree: in every accurate arithmetic, exact or binary64, every leaf of the Falcon tree of such a key lies in the interval for
which the integer sampler is made. -/
theorem C68_leaves {A : Arith ℝ ℂ} (hA : Accurate A) {n : ℕ} (hn : ValidLog n) {f g F G : Mem Int} (heq : NtruEq n f g F G)
    (hfit : FitsFormat n f g F G) (hgs : GsSmall n f g) (B0 T0 : Mem ℂ) :
    ∃ t, TreeAt n (computeFalconTree A n (computeMatrixB A n f g F G B0) T0) 0 0 t ∧
      ∀ v ∈ t.leaves, 6 / 5 ≤ A.re v ∧ A.re v ≤ 182 / 100 := by
  obtain ⟨l, L, R, hr, -, -, -, -, vL, vR⟩ := tree_float hA hn heq hfit hgs B0 T0
  refine ⟨_, (treeAt_root _ _ _).mpr hr, fun v hv => ?_⟩
  rw [hA.re]
  simp only [FTree.leaves, List.mem_append] at hv
  rcases hv with hv | hv
  · exact vL v hv
  · exact vR v hv

/-- C68, sampling: for every hashed point, fast Fourier sampling calls the integer sampler only with centres of absolute value at most
2^31 - 100 and standard deviations between 1.2 and 1.82, so it is defined for every sampler that is defined there. -/
theorem C68_sampling {A : Arith ℝ ℂ} (hA : Accurate A) {n : ℕ} (hn : ValidLog n) {f g F G : Mem Int} (heq : NtruEq n f g F G)
    (hfit : FitsFormat n f g F G) (hgs : GsSmall n f g) {S : Type} {leaf : LeafSampler ℝ S} (hleaf : GoodLeaf leaf)
    {c : Mem Ff} (hc : CanonBelow (2 ^ n) c) (B0 T0 z0 z1 : Mem ℂ) (pos : S) (e : UB) :
    let B := computeMatrixB A n f g F G B0
    ffSampling A leaf n 0 (signTarget A n B c).1 (signTarget A n B c).2 (computeFalconTree A n B T0) z0 z1 pos ≠ some (.error e) :=
  signSampling_defined hA hleaf hn heq hfit hgs B0 T0 z0 z1 hc pos e

/-- C68: the integer sampler of the code, compiled without contraction, is such a sampler. -/
theorem C68_code_sampler {n : ℕ} (hn : ValidLog n) (fuel : ℕ) (stream : ℕ → UInt8) : GoodLeaf (codeLeaf false n fuel stream) :=
  codeLeaf_good hn fuel stream

/-- C68: signing with the matrix and the tree of a key executes no undefined behaviour, in every accurate arithmetic, with
the sampler of the code, for every message, every stream and every amount of fuel. -/
theorem C68_sign {A : Arith ℝ ℂ} (hA : Accurate A) {n : ℕ} (hn : ValidLog n) {f g F G : Mem Int} (heq : NtruEq n f g F G)
    (hfit : FitsFormat n f g F G) (hgs : GsSmall n f g) (xof : Xof) (fuel lfuel hfuel : ℕ) (B0 T0 : Mem ℂ)
    (stream : ℕ → UInt8) (msg : List UInt8) (sig : Mem UInt8) (pos : ℕ) (e : UB) :
    let B := computeMatrixB A n f g F G B0
    signPoly A xof (codeLeaf false n lfuel stream) fuel hfuel n B (computeFalconTree A n B T0) stream msg sig pos ≠
      some (.error e) :=
  signPoly_defined_of hA hn heq hfit xof _ fuel hfuel B0 _
    (fun _ hc _ _ => signSampling_defined hA (codeLeaf_good hn lfuel stream) hn heq hfit hgs B0 T0 _ _ hc _ _) stream msg sig pos e

/-- C68: the same for one-shot signing with the secret key bytes, if f is not nearly zero at one of the points (C67). -/
theorem C68_one_shot {A : Arith ℝ ℂ} (hA : Accurate A) {n : ℕ} (hn : ValidLog n) {f g F G : Mem Int} (heq : NtruEq n f g F G)
    (hfit : FitsFormat n f g F G) (hgs : GsSmall n f g) (hf0 : ∀ j, j < 2 ^ n → 1 / 2 ^ 10 ≤ ‖dft n (zC f) j‖)
    (sk0 : Mem UInt8) (xof : Xof) (mt : UInt32 → Mem UInt8) (fuel lfuel hfuel : ℕ) (junk : FgF) (junkG : Mem Int)
    (junkB junkT : Mem ℂ) (rd : UInt32) (msg : List UInt8) (sig : Mem UInt8) (e : UB) :
    falconSign A xof mt (codeLeaf false n lfuel) fuel hfuel n junk junkG junkB junkT rd (encodeSkey n f g F sk0) msg sig ≠
      some (.error e) := by
  rw [C67_one_shot hA hn heq hfit hf0 sk0 junkB junkT]
  have h := C68_sign hA hn heq hfit hgs xof fuel lfuel hfuel junkB junkT (prngNew xof mt rd) msg sig 0
  intro hc
  cases hs : signPoly A xof (codeLeaf false n lfuel (prngNew xof mt rd)) fuel hfuel n (computeMatrixB A n f g F G junkB)
      (computeFalconTree A n (computeMatrixB A n f g F G junkB) junkT) (prngNew xof mt rd) msg sig 0 with
  | none => rw [hs] at hc; cases hc
  | some r =>
    cases r with
    | error e' => exact h e' hs
    | ok r => rw [hs] at hc; cases hc

/-- C68, from key generation: if `falcon::keygen` returns, with `K` exact or binary64, and the polynomials it has found fit
the key format and neither |f^|^2 + |g^|^2 (for binary64) nor |f^| is nearly zero at one of the points, then `falcon::sign` with
the secret key bytes executes no undefined behaviour, for every message and every random seed. -/
theorem C68_end_to_end (K : Arith ℝ ℂ) (hK : K = exactA ∨ ∃ b, K = ieeeA b) {A : Arith ℝ ℂ} (hA : Accurate A) (fma : Bool)
    {n : ℕ} (hn : ValidLog n) (xof : Xof) (mt : UInt32 → Mem UInt8) (kfuel iters : ℕ) (kjunk : Ntru) (krd : UInt32)
    (pk0 sk0 pk sk : Mem UInt8)
    (hkey : falconKeygen K xof mt fma n kfuel iters kjunk krd pk0 sk0 = some (.ok (pk, sk))) :
    ∃ (s : Ntru) (kpos : ℕ),
      ntruGen (redQuot K) (gsTooBig K n) fma n (prngNew xof mt krd) kfuel iters kjunk 0 = some (.ok (s, kpos)) ∧
      sk = encodeSkey n s.f s.g s.F sk0 ∧
      (FitsFormat n s.f s.g s.F s.G → (K = exactA ∨ ∀ j, j < 2 ^ n → 1 / 2 ^ 10 ≤ gramAt n s.f s.g j) →
        (∀ j, j < 2 ^ n → 1 / 2 ^ 10 ≤ ‖dft n (zC s.f) j‖) →
        ∀ (fuel lfuel hfuel : ℕ) (junk : FgF) (junkG : Mem Int) (junkB junkT : Mem ℂ) (rd : UInt32) (msg : List UInt8)
          (sig : Mem UInt8) (e : UB),
          falconSign A xof mt (codeLeaf false n lfuel) fuel hfuel n junk junkG junkB junkT rd sk msg sig ≠ some (.error e)) := by
  obtain ⟨s, kpos, h, h1, h2, h3, h4, h5⟩ := C66_end_to_end K hK fma hn xof mt kfuel iters kjunk krd pk0 sk0 pk sk hkey
  refine ⟨s, kpos, h1, h2, ?_⟩
  intro hfit hD hf0 fuel lfuel hfuel junk junkG junkB junkT rd msg sig e
  obtain ⟨heq, -⟩ := h5 (skInRange_of_fits hn hfit) hD
  obtain ⟨i, hi, hne⟩ := nonzero_of_inv (C38_ntru_gen hn h1).2.1
  have H := ntruGen_spec iters kjunk 0 s kpos h1
  have hgs : GsSmall n s.f s.g := by
    have hc := C68_norms hn H.fRange H.gRange ⟨i, hi, Or.inl hne⟩
    rcases hK with rfl | ⟨b, rfl⟩
    · exact hc.1 H.gs
    · rcases hD with hD | hD
      · exact hc.1 (by have := H.gs; rwa [hD] at this)
      · exact hc.2 b H.gs hD
  rw [h2]
  exact C68_one_shot hA hn heq hfit hgs hf0 sk0 xof mt fuel lfuel hfuel junk junkG junkB junkT rd msg sig e

/-- The hypotheses are met by a key of the format. -/
example (b : Bool) (B0 T0 : Mem ℂ) : ∃ t, TreeAt 9 (computeFalconTree (ieeeA b) 9 (computeMatrixB (ieeeA b) 9 flatf flatg flatF flatG B0) T0) 0 0 t ∧
    ∀ v ∈ t.leaves, 6 / 5 ≤ (ieeeA b).re v ∧ (ieeeA b).re v ≤ 182 / 100 :=
  C68_leaves (accurate_ieee b) (Or.inl rfl) flatKey_eq flatKey_fits flatKey_gs B0 T0

/-- The same key, one-shot. -/
example (b : Bool) (sk0 : Mem UInt8) (xof : Xof) (mt : UInt32 → Mem UInt8) (fuel lfuel hfuel : ℕ) (junk : FgF) (junkG : Mem Int)
    (junkB junkT : Mem ℂ) (rd : UInt32) (msg : List UInt8) (sig : Mem UInt8) (e : UB) :
    falconSign (ieeeA b) xof mt (codeLeaf false 9 lfuel) fuel hfuel 9 junk junkG junkB junkT rd (encodeSkey 9 flatf flatg flatF sk0) msg
      sig ≠ some (.error e) :=
  C68_one_shot (accurate_ieee b) (Or.inl rfl) flatKey_eq flatKey_fits flatKey_gs flatKey_point sk0 xof mt fuel lfuel hfuel junk
    junkG junkB junkT rd msg sig e

/-- A sampler that is undefined outside the stated arguments, for `C68_sampling`. -/
noncomputable def strictLeaf : LeafSampler ℝ ℕ := fun mu s p =>
  haveI := Classical.propDecidable
  if |mu| ≤ 2 ^ 31 - 100 ∧ 6 / 5 ≤ s ∧ s ≤ 182 / 100 then some (.ok (⌊mu⌋, p)) else some (.error .floatConv)

theorem strictLeaf_good : GoodLeaf strictLeaf := by
  intro mu s p h1 h2 h3
  unfold strictLeaf
  rw [if_pos ⟨h1, h2, h3⟩]
  refine ⟨fun e h => (by cases h), fun r h => ?_⟩
  have h := Except.ok.inj (Option.some.inj h)
  rw [← h]
  have f1 := Int.floor_le mu
  have f2 := Int.lt_floor_add_one mu
  rw [abs_le]
  constructor <;> simp only <;> linarith

example (b : Bool) {c : Mem Ff} (hc : CanonBelow (2 ^ 9) c) (B0 T0 z0 z1 : Mem ℂ) (pos : ℕ) (e : UB) :
    let B := computeMatrixB (ieeeA b) 9 flatf flatg flatF flatG B0
    ffSampling (ieeeA b) strictLeaf 9 0 (signTarget (ieeeA b) 9 B c).1 (signTarget (ieeeA b) 9 B c).2
      (computeFalconTree (ieeeA b) 9 B T0) z0 z1 pos ≠ some (.error e) :=
  C68_sampling (accurate_ieee b) (Or.inl rfl) flatKey_eq flatKey_fits flatKey_gs strictLeaf_good hc B0 T0 z0 z1 pos e

/-- The hypotheses of `C68_norms` in binary64 and of `C68_end_to_end` up to the range of the key are met by a run of key generation. -/
example (b : Bool) : gsTooBig (ieeeA b) 9 (constMem 1) (constMem (-104)) = false ∧ GsSmall 9 (constMem 1) (constMem (-104)) := by
  have k : ∀ x : ℤ, |x| ≤ 152 → KeyRange 9 (constMem x) := by
    intro x hx i _
    unfold constMem
    rw [abs_le] at hx
    split_ifs <;> omega
  have h := const_gs_float b
  refine ⟨h, (C68_norms (Or.inl rfl) (k 1 (by norm_num)) (k (-104) (by norm_num)) ⟨0, by norm_num, Or.inl ?_⟩).2 b h fun j hj => ?_⟩
  · unfold constMem; norm_num
  · rw [const_gram (fun _ _ => rfl) fun _ _ => rfl]
    norm_num

end Falcon
