import Verif.Proofs.Leak
import Verif.Props.UnitTestsFft
import Verif.Props.FloatRun
import Verif.Props.SignGauss

/-! # A run of signing that only reads quiet bytes -/

namespace Falcon

open Finset

section
variable (b : Bool)

theorem ieee_mul_zero (x : ℂ) : (ieeeA b).cmul x 0 = 0 ∧ (ieeeA b).cmul 0 x = 0 := by
  show ieeeMul b x 0 = 0 ∧ ieeeMul b 0 x = 0
  unfold ieeeMul
  constructor <;> split <;> apply Complex.ext <;> simp [rnd_zero]

theorem ieee_add_zero : (ieeeA b).cadd 0 0 = 0 ∧ (ieeeA b).csub 0 0 = 0 := by
  show (⟨_, _⟩ : ℂ) = 0 ∧ (⟨_, _⟩ : ℂ) = 0
  constructor <;> apply Complex.ext <;> simp [rnd_zero]

theorem ieee_scale_zero (r : ℝ) : (ieeeA b).scale r 0 = 0 := by
  show (⟨_, _⟩ : ℂ) = 0
  apply Complex.ext <;> simp [rnd_zero]

theorem ieee_div_zero (x : ℂ) : (ieeeA b).cdiv 0 x = 0 := by
  show ieeeDiv b 0 x = 0
  have h : ∀ y, ieeeMul b 0 y = 0 := fun y => (ieee_mul_zero b y).2
  unfold ieeeDiv
  simp only [h]
  apply Complex.ext <;> simp [rnd_zero]

theorem ieee_ofInt_zero : (ieeeA b).ofInt 0 = 0 := by
  show (⟨rnd _, rnd _⟩ : ℂ) = 0
  apply Complex.ext <;> simp [rnd_zero]

/-- Sampling with the target zero, when the integer sampler answers zero to the centre zero. -/
theorem zero_sample {S : Type} (leaf : LeafSampler ℝ S) (I : S → Prop) : ∀ (k level : ℕ) (T : Mem ℂ) (t : FTree ℂ) (t0 t1 : Mem ℂ) (s : S),
    TRep k level T t → (∀ v ∈ t.leaves, ∀ s, I s → ∃ s', leaf 0 ((ieeeA b).re v) s = some (.ok (0, s')) ∧ I s') →
    (∀ i, i < 2 ^ k → t0 i = 0 ∧ t1 i = 0) → I s →
    ∃ w, sampleTree (ieeeA b) leaf k t t0 t1 s = some (.ok w) ∧ (∀ i, i < 2 ^ k → w.1 i = 0 ∧ w.2.1 i = 0) ∧ I w.2.2 := by
  intro k
  induction k with
  | zero =>
    intro level T t t0 t1 s hr hl h0 hs
    cases t with
    | node _ _ _ => exact hr.elim
    | leaf v =>
      obtain ⟨s1, e1, i1⟩ := hl v (by simp [FTree.leaves]) s hs
      obtain ⟨s2, e2, i2⟩ := hl v (by simp [FTree.leaves]) s1 i1
      obtain ⟨a0, a1⟩ := h0 0 (by norm_num)
      refine ⟨(fun _ => (ieeeA b).ofInt 0, fun _ => (ieeeA b).ofInt 0, s2), ?_, ?_, ?_⟩
      · unfold sampleTree
        rw [a0, a1, show (ieeeA b).re 0 = 0 from rfl, e1, bindO_pure]
        simp only
        rw [e2, bindO_pure]
      · intro i _
        exact ⟨ieee_ofInt_zero b, ieee_ofInt_zero b⟩
      · exact i2
  | succ k ih =>
    intro level T t t0 t1 s hr hl h0 hs
    cases t with
    | leaf _ => exact hr.elim
    | node l L R =>
      have hp : 2 ^ (k + 1) = 2 * 2 ^ k := by rw [pow_succ]; ring
      have hsplit : ∀ a : Mem ℂ, (∀ i, i < 2 ^ (k + 1) → a i = 0) → ∀ i, i < 2 ^ k → (splitS (ieeeA b) k a).1 i = 0 ∧ (splitS (ieeeA b) k a).2 i = 0 := by
        intro a ha i hi
        unfold splitS
        simp only
        rw [ha _ (by omega), ha _ (by omega), (ieee_add_zero b).1, (ieee_add_zero b).2, ieee_scale_zero, (ieee_mul_zero b _).2]
        exact ⟨rfl, rfl⟩
      have hmerge : ∀ a c : Mem ℂ, (∀ i, i < 2 ^ k → a i = 0 ∧ c i = 0) → ∀ i, i < 2 ^ (k + 1) → mergeS (ieeeA b) k a c i = 0 := by
        intro a c h i hi
        obtain ⟨h1, h2⟩ := h (i / 2) (by omega)
        unfold mergeS
        rw [h1, h2, (ieee_mul_zero b _).2, (ieee_add_zero b).1, (ieee_add_zero b).2]
        split <;> rfl
      obtain ⟨zr, e1, z1, i1⟩ := ih (level + 1) _ R _ _ s hr.2.2 (fun v hv => hl v (by simp [FTree.leaves, hv]))
        (hsplit t1 fun i hi => (h0 i hi).2) hs
      have hz1 := hmerge zr.1 zr.2.1 z1
      obtain ⟨zl, e2, z2, i2⟩ := ih (level + 1) _ L
        (splitS (ieeeA b) k fun i => (ieeeA b).cadd (t0 i) ((ieeeA b).cmul ((ieeeA b).csub (t1 i) (mergeS (ieeeA b) k zr.1 zr.2.1 i)) (l i))).1
        (splitS (ieeeA b) k fun i => (ieeeA b).cadd (t0 i) ((ieeeA b).cmul ((ieeeA b).csub (t1 i) (mergeS (ieeeA b) k zr.1 zr.2.1 i)) (l i))).2
        zr.2.2 hr.2.1 (fun v hv => hl v (by simp [FTree.leaves, hv]))
        (hsplit _ fun i hi => by
          rw [hz1 i hi, (h0 i hi).1, (h0 i hi).2, (ieee_add_zero b).2, (ieee_mul_zero b _).2, (ieee_add_zero b).1]) i1
      refine ⟨(mergeS (ieeeA b) k zl.1 zl.2.1, mergeS (ieeeA b) k zr.1 zr.2.1, zl.2.2), ?_, fun i hi => ⟨hmerge _ _ z2 i hi, hz1 i hi⟩, i2⟩
      unfold sampleTree
      rw [Nat.add_sub_cancel, e1, bindO_pure]
      simp only
      rw [e2, bindO_pure]

theorem zero_ffSampling {S : Type} (leaf : LeafSampler ℝ S) (I : S → Prop) (k : ℕ) (T z0 z1 : Mem ℂ) (t : FTree ℂ) (t0 t1 : Mem ℂ) (s : S)
    (ht : TRep k 0 T t) (hl : ∀ v ∈ t.leaves, ∀ s, I s → ∃ s', leaf 0 ((ieeeA b).re v) s = some (.ok (0, s')) ∧ I s')
    (h0 : ∀ i, i < 2 ^ k → t0 i = 0 ∧ t1 i = 0) (hs : I s) :
    ∃ w, ffSampling (ieeeA b) leaf k 0 t0 t1 T z0 z1 s = some (.ok w) ∧ I w.2.2 := by
  obtain ⟨w, e, -, i⟩ := zero_sample b leaf I k 0 T t t0 t1 s ht hl h0 hs
  have hrel := ffSampling_rel (ieeeA b) leaf k 0 t0 t1 T z0 z1 t0 t1 s t ht (fun _ _ => rfl) (fun _ _ => rfl)
  rw [e] at hrel
  cases hf : ffSampling (ieeeA b) leaf k 0 t0 t1 T z0 z1 s with
  | none => rw [hf] at hrel; exact hrel.elim
  | some x =>
    cases x with
    | error x => rw [hf] at hrel; exact hrel.elim
    | ok r =>
      rw [hf] at hrel
      exact ⟨r, rfl, by rw [hrel.1]; exact i⟩

theorem zero_target {n : ℕ} (B : Mem ℂ) {c : Mem Ff} (hc : ∀ i, i < 2 ^ n → (c i).v.toNat = 0) (i : ℕ) (hi : i < 2 ^ n) :
    (signTarget (ieeeA b) n B c).1 i = 0 ∧ (signTarget (ieeeA b) n B c).2 i = 0 := by
  have hz : ∀ j, j < 2 ^ n → fft (ieeeA b) n (loop (1 <<< n) (fun i m => upd m i ((ieeeA b).ofInt ((c i).v.toNat : Int))) (junkC (ieeeA b))) j = 0 := by
    refine fft_zeros b n fun j hj => ?_
    rw [one_shiftLeft', loop_fill, if_pos hj, hc j hj]
    exact ieee_ofInt_zero b
  unfold signTarget
  simp only
  have hupd : ∀ (g : ℂ → ℂ) (a : Mem ℂ), loop (1 <<< n) (fun i t => upd t i (g (t i))) a i = g (a i) := by
    intro g a
    rw [one_shiftLeft', loop_map _ fun _ => g, if_pos hi]
  rw [hupd (fun x => (ieeeA b).cdiv x _), hupd (fun x => (ieeeA b).cneg ((ieeeA b).cdiv x _)), polyMulC_at, polyMulC_at, if_pos hi, if_pos hi, hz i hi,
    (ieee_mul_zero b _).2, ieee_div_zero, (ieee_mul_zero b _).2, ieee_div_zero]
  exact ⟨rfl, neg_zero⟩

/-- Signing with the hashed point zero and bytes that are quiet at all positions 40, 51, ..., without a sign bit, returns after one round. -/
theorem quiet_run (lfuel : ℕ) (B0 T0 : Mem ℂ) (tape : ℕ → UInt8) (msg : List UInt8) (sig : Mem UInt8) (xof : Xof)
    (hxof : ∀ l, 40 ≤ l.length → xof l = streamOf fun _ => 0)
    (ht : ∀ p, 40 ≤ p → p % 11 = 7 → (2 ^ 72 - pdtSpec.getD 0 0 ≤ leVal 9 fun i => tape (p + i)) ∧ tape (p + 9) = 0 ∧ tape (p + 10) = 0) : ∃ sig' pos',
    signPoly (ieeeA b) xof (codeLeaf false 9 (lfuel + 1) tape) 1 16 9 (computeMatrixB (ieeeA b) 9 flatf flatg flatF flatG B0)
      (computeFalconTree (ieeeA b) 9 (computeMatrixB (ieeeA b) 9 flatf flatg flatF flatG B0) T0) tape msg sig 0 = some (.ok (sig', pos')) := by
  have hn : ValidLog 9 := Or.inl rfl
  have hA := accurate_ieee b
  obtain ⟨t, tr, hlow⟩ := tree_low hA hn flatKey_eq flatKey_fits flatKey_most B0 T0
  rw [treeAt_root] at tr
  obtain ⟨tl, L, R, tr2, -, -, -, -, hL, hR⟩ := tree_float hA hn flatKey_eq flatKey_fits flatKey_gs B0 T0
  have hlv := rep_leaves_unique 9 0 _ _ _ tr tr2
  have hup : ∀ v ∈ t.leaves, (ieeeA b).re v ≤ 182 / 100 := by
    intro x hx
    rw [hlv] at hx
    simp only [FTree.leaves, List.mem_append] at hx
    rcases hx with hx | hx
    · exact (hL x hx).2
    · exact (hR x hx).2
  obtain ⟨c, c1, c2⟩ := hash_streamOf hn (c := fun _ => 0) (fun _ => by norm_num) (fun _ => Ff.zero)
  have hcan : CanonBelow (2 ^ 9) c := (C24_hash_point _ _ _ c1).2.1
  generalize hB : computeMatrixB (ieeeA b) 9 flatf flatg flatF flatG B0 = B at *
  generalize hT : computeFalconTree (ieeeA b) 9 B T0 = T at *
  have hleaf : ∀ v ∈ t.leaves, ∀ p, 40 ≤ p → p % 11 = 7 → codeLeaf false 9 (lfuel + 1) tape 0 ((ieeeA b).re v) p = some (.ok (0, p + 11)) := by
    intro v hv p hp40 hp
    obtain ⟨q1, q2, q3⟩ := ht p hp40 hp
    have := samplerz_sure hn (mu := 0) (by norm_num) (hlow v hv) (hup v hv) tape lfuel p q1 (by rw [q3]; decide)
    unfold codeLeaf
    rw [this, q2]
    simp
  have hz0 := zero_target b B c2
  obtain ⟨z, hz, -⟩ := zero_ffSampling b (codeLeaf false 9 (lfuel + 1) tape) (fun p => 40 ≤ p ∧ p % 11 = 7) 9 T (junkC (ieeeA b)) (junkC (ieeeA b)) t _ _ 40 tr
    (fun v hv p hp => ⟨p + 11, hleaf v hv p hp.1 hp.2, by omega⟩) hz0 (by norm_num)
  obtain ⟨l, hlog, hcalls, hlen, hround⟩ := C65_round hA hn flatKey_eq flatKey_fits hcan (codeLeaf false 9 (lfuel + 1) tape) B0 T _ _ _ z
    (by rw [hB]; exact hz)
  rw [hB] at hlog hround
  obtain ⟨z', hz', -, hl0⟩ := zero_ffSampling b (logged (codeLeaf false 9 (lfuel + 1) tape)) (fun s => (40 ≤ s.1 ∧ s.1 % 11 = 7) ∧ ∀ x ∈ s.2, Call.z x = 0) 9 T
    (junkC (ieeeA b)) (junkC (ieeeA b)) t _ _ (40, []) tr
    (fun v hv s hs => by
      refine ⟨(s.1 + 11, s.2 ++ [⟨0, (ieeeA b).re v, 0⟩]), ?_, by simp only; omega, ?_⟩
      · unfold logged
        rw [hleaf v hv s.1 hs.1.1 hs.1.2, bindO_pure]
      · intro x hx
        rcases List.mem_append.mp hx with hx | hx
        · exact hs.2 x hx
        · rw [List.mem_singleton.mp hx]) hz0 ⟨by norm_num, by simp⟩
  rw [hlog] at hz'
  have hz' := Except.ok.inj (Option.some.inj hz')
  rw [← hz'] at hl0
  simp only at hl0
  have hget : ∀ i, (l.map Call.z).getD i 0 = 0 := by
    intro i
    rw [List.getD_eq_getElem?_getD, List.getElem?_map]
    cases h : l[i]? with
    | none => rfl
    | some x => exact hl0 x (List.mem_of_getElem? h)
  have hhash : polyZ (2 ^ 9) (hashInt c) = 0 := polyZ_zero fun i hi => by
    unfold hashInt; rw [c2 i hi]; rfl
  have hu : RoundVec 9 flatf flatg flatF flatG c l (fun _ => 0) (fun _ => 0) := by
    unfold RoundVec
    rw [hhash, polyZ_zero (a := drawn0 9 l) (fun i _ => hget _), polyZ_zero (a := drawn1 9 l) (fun i _ => hget _),
      polyZ_zero (a := fun _ => 0) (fun i _ => rfl)]
    exact ⟨⟨0, by ring⟩, ⟨0, by ring⟩⟩
  have hle := (hround _ _ hu).2 (by simp [sqNorm, betaSq])
  obtain ⟨-, s2, r1, r2⟩ := (hround _ _ hu).1 hle
  have hcodes : (codes s2 (2 ^ 9)).length = 9 * 2 ^ 9 := by
    rw [codes_length, sum_congr rfl (g := fun _ => 9)]
    · simp
    · intro i hi
      rw [r2 i (Finset.mem_range.mp hi)]
      rfl
  obtain ⟨ok, out, h1, h2, -⟩ := C15_compress_spec hn s2 sig
    (by
      intro i hi
      rw [r2 i hi]
      norm_num)
    (by rw [hcodes]; norm_num)
  have : ok = true := h2.mpr (by rw [hcodes]; norm_num [sigBytes])
  subst this
  have hloop : signLoop (ieeeA b) (codeLeaf false 9 (lfuel + 1) tape) 9 B T (signTarget (ieeeA b) 9 B c).1 (signTarget (ieeeA b) 9 B c).2 1 sig (0 + 40)
      = some (.ok (out, z.2.2)) := by
    unfold signLoop
    rw [hz, bindO_pure]
    simp only
    rw [if_pos hle, r1, bindO_pure, h1, bindO_pure]
    rfl
  unfold signPoly
  simp only
  rw [hxof _ (by simp [bytes]), c1]
  simp only
  rw [hloop, bindO_pure]
  exact ⟨_, _, rfl⟩

end

end Falcon
