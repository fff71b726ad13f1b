import Verif.Props.FloatSign

/-!
# C65 : a run in floating point, for a key in the range of the key format
-/

namespace Falcon

open Finset Polynomial

/-- a + b x^256. -/
def twoMem (a b : ℤ) : Mem Int := fun i => if i = 0 then a else if i = 256 then b else 0

theorem polyZ_two (a b : ℤ) : polyZ (2 ^ 9) (twoMem a b) = C a + C b * X ^ 256 := by
  have h : polyZ (2 ^ 9) (twoMem a b) = ∑ i ∈ Finset.range (2 ^ 9),
      ((if i = 0 then C a * X ^ i else 0) + if i = 256 then C b * X ^ i else 0) := by
    unfold polyZ toPoly
    refine sum_congr rfl fun i _ => ?_
    unfold twoMem
    by_cases h0 : i = 0
    · subst h0; simp
    · by_cases h1 : i = 256 <;> simp [h0, h1]
  rw [h, sum_add_distrib, sum_ite_eq', sum_ite_eq', if_pos (by simp), if_pos (by simp)]
  simp

theorem polyInt_two (a b : ℤ) : polyInt (2 ^ 9) (twoMem a b) = C (a : Zq) + C (b : Zq) * X ^ 256 := by
  rw [polyInt_map, polyZ_two]; simp

theorem sqNorm_two (a b : ℤ) : sqNorm (2 ^ 9) (twoMem a b) = a ^ 2 + b ^ 2 := by
  have h : sqNorm (2 ^ 9) (twoMem a b) = ∑ i ∈ Finset.range (2 ^ 9),
      ((if i = 0 then a ^ 2 else 0) + if i = 256 then b ^ 2 else 0) := by
    unfold sqNorm
    refine sum_congr rfl fun i _ => ?_
    unfold twoMem
    by_cases h0 : i = 0
    · subst h0; simp
    · by_cases h1 : i = 256 <;> simp [h0, h1]
  rw [h, sum_add_distrib, sum_ite_eq', sum_ite_eq', if_pos (by simp), if_pos (by simp)]

/-- The key f = 30 - 31 y, g = 25 - 24 y, F = -95 - 107 y, G = 125 + 116 y with y = x^256. -/
theorem smallKey : NtruEq 9 (twoMem 30 (-31)) (twoMem 25 (-24)) (twoMem (-95) (-107)) (twoMem 125 116) ∧
    FitsFormat 9 (twoMem 30 (-31)) (twoMem 25 (-24)) (twoMem (-95) (-107)) (twoMem 125 116) := by
  constructor
  · unfold NtruEq ModEqXN
    simp only [polyZ_two]
    refine ⟨C (-6164), ?_⟩
    rw [show (2 : ℕ) ^ 9 = 256 + 256 by norm_num, pow_add]
    simp only [map_neg, map_ofNat]
    ring
  · intro i _
    unfold twoMem
    rw [if_pos rfl]
    refine ⟨?_, ?_, ?_, ?_⟩ <;> split_ifs <;> norm_num

/-- Its public key is h = 6908 + 8776 y. -/
theorem smallKey_public : ∃ h : Mem Ff,
    ModEqXN (2 ^ 9) (polyZq (2 ^ 9) h * polyInt (2 ^ 9) (twoMem 30 (-31))) (polyInt (2 ^ 9) (twoMem 25 (-24))) ∧
    ∃ r, ModEqXN (2 ^ 9) (polyInt (2 ^ 9) (twoMem 30 (-31)) * r) 1 := by
  have hq : ((12289 : ℕ) : Zq) = 0 := ZMod.natCast_self 12289
  have hq : (12289 : Zq) = 0 := by exact_mod_cast hq
  have hC : (C (12289 : Zq) : Zq[X]) = 0 := by rw [hq, map_zero]
  simp only [map_ofNat] at hC
  refine ⟨fun i => ⟨(if i = 0 then 6908 else if i = 256 then 8776 else 0)⟩, ?_, 383 * (30 + 31 * X ^ 256), ?_⟩
  · have hp : polyZq (2 ^ 9) (fun i => ⟨(if i = 0 then 6908 else if i = 256 then 8776 else 0)⟩) =
        polyInt (2 ^ 9) (twoMem 6908 8776) := by
      unfold polyZq polyInt
      refine toPoly_congr fun i _ => ?_
      unfold twoMem Ff.val
      simp only
      split_ifs <;> rfl
    rw [hp, polyInt_two, polyInt_two, polyInt_two]
    refine ⟨-272056, ?_⟩
    rw [show (2 : ℕ) ^ 9 = 256 + 256 by norm_num, pow_add]
    push_cast
    simp only [map_neg, map_ofNat]
    linear_combination (39 + 4 * X ^ 256) * hC
  · rw [polyInt_two]
    refine ⟨-368063, ?_⟩
    rw [show (2 : ℕ) ^ 9 = 256 + 256 by norm_num, pow_add]
    push_cast
    simp only [map_neg, map_ofNat]
    linear_combination 58 * hC

/-- A sampler that always returns lets sampling return. -/
theorem sample_total {S R C : Type} (A : Arith R C) (leaf : LeafSampler R S)
    (hl : ∀ mu s p, ∃ r, leaf mu s p = some (.ok r)) : ∀ (t : FTree C) (k : ℕ) (t0 t1 : Mem C) (s : S),
    ∃ r, sampleTree A leaf k t t0 t1 s = some (.ok r) := by
  intro t
  induction t with
  | leaf v =>
    intro k t0 t1 s
    unfold sampleTree
    obtain ⟨r, hr⟩ := hl (A.re (t0 0)) (A.re v) s
    obtain ⟨r', hr'⟩ := hl (A.re (t1 0)) (A.re v) r.2
    rw [hr, bindO_pure, hr', bindO_pure]
    exact ⟨_, rfl⟩
  | node l L R ihL ihR =>
    intro k t0 t1 s
    unfold sampleTree
    obtain ⟨r, hr⟩ := ihR (k - 1) (splitS A (k - 1) t1).1 (splitS A (k - 1) t1).2 s
    rw [hr, bindO_pure]
    simp only
    obtain ⟨r', hr'⟩ := ihL (k - 1)
      (splitS A (k - 1) (fun i => A.cadd (t0 i) (A.cmul (A.csub (t1 i) (mergeS A (k - 1) r.1 r.2.1 i)) (l i)))).1
      (splitS A (k - 1) (fun i => A.cadd (t0 i) (A.cmul (A.csub (t1 i) (mergeS A (k - 1) r.1 r.2.1 i)) (l i)))).2 r.2.2
    rw [hr', bindO_pure]
    exact ⟨_, rfl⟩

theorem ffSampling_total {S R C : Type} (A : Arith R C) (leaf : LeafSampler R S)
    (hl : ∀ mu s p, ∃ r, leaf mu s p = some (.ok r)) (k : ℕ) (t0 t1 T z0 z1 : Mem C) (s : S) :
    ∃ r, ffSampling A leaf k 0 t0 t1 T z0 z1 s = some (.ok r) := by
  have hrel := ffSampling_rel A leaf k 0 t0 t1 T z0 z1 t0 t1 s _ (treeOf_rep k 0 T) (fun _ _ => rfl) (fun _ _ => rfl)
  obtain ⟨r, hr⟩ := sample_total A leaf hl (treeOf k 0 T) k t0 t1 s
  rw [hr] at hrel
  cases hz : ffSampling A leaf k 0 t0 t1 T z0 z1 s with
  | none => rw [hz] at hrel; exact hrel.elim
  | some e =>
    cases e with
    | error e => rw [hz] at hrel; exact hrel.elim
    | ok z => exact ⟨z, rfl⟩

theorem calls_posLeaf {v : ℕ → ℤ} {p p' : ℕ} {l : List Call} (h : Calls (posLeaf v) p l p') :
    ∀ j, j < l.length → (l.map Call.z).getD j 0 = v (p + j) := by
  induction h with
  | nil => intro j hj; simp at hj
  | cons hc _ ih =>
    rename_i s s' s'' c l _
    have e := Prod.mk.inj (Except.ok.inj (Option.some.inj hc))
    intro j hj
    rcases j with _ | j
    · simpa using e.1.symm
    · have := ih j (by simpa using hj)
      rw [List.map_cons, List.getD_cons_succ, this, ← e.2]
      congr 1
      omega

/-- A run of one round in floating point: the hashed point is 0, the sampler returns a single 1, the signature
encodes f. -/
theorem float_run {A : Arith ℝ ℂ} (hA : Accurate A) (B0 T : Mem ℂ) (stream : ℕ → UInt8)
    (msg : List UInt8) (sig : Mem UInt8) (pos : ℕ) (xof : Xof)
    (hxof : ∀ l, 40 ≤ l.length → xof l = streamOf fun _ => 0) : ∃ sig' pos',
    signPoly A xof (oneLeaf 9 1 (pos + 40)) 1 16 9
      (computeMatrixB A 9 (twoMem 30 (-31)) (twoMem 25 (-24)) (twoMem (-95) (-107)) (twoMem 125 116) B0)
      T stream msg sig pos =
      some (.ok (sig', pos')) ∧ SignatureOf 9 sig' (fun i => stream (pos + i)) (twoMem 30 (-31)) := by
  have hn : ValidLog 9 := Or.inl rfl
  obtain ⟨heq, hfit⟩ := smallKey
  obtain ⟨c, c1, c2⟩ := hash_streamOf hn (c := fun _ => 0) (fun _ => by norm_num) (fun _ => Ff.zero)
  let B := computeMatrixB A 9 (twoMem 30 (-31)) (twoMem 25 (-24)) (twoMem (-95) (-107)) (twoMem 125 116) B0
  let t := signTarget A 9 B c
  have hcan : CanonBelow (2 ^ 9) c := (C24_hash_point _ _ _ c1).2.1
  obtain ⟨z, hz⟩ := ffSampling_total A (oneLeaf 9 1 (pos + 40)) (fun _ _ _ => ⟨_, rfl⟩) 9 t.1 t.2 T (junkC A) (junkC A)
    (pos + 40)
  obtain ⟨l, -, hcalls, hlen, hround⟩ := C65_round hA hn heq hfit hcan (oneLeaf 9 1 (pos + 40)) B0 T _ _ _ z hz
  have hv := calls_posLeaf hcalls
  have hhash : polyZ (2 ^ 9) (hashInt c) = 0 := polyZ_zero fun i hi => by
    unfold hashInt; rw [c2 i hi]; rfl
  have ha0 : ∀ i, i < 2 ^ 9 → drawn0 9 l i = constMem 1 i := by
    intro i hi
    unfold drawn0
    rw [hv _ (by rw [hlen]; exact (callIdx_bound 9 i).1)]
    unfold constMem
    by_cases hi0 : i = 0
    · rw [if_pos hi0, if_pos (by rw [(callIdx_last 9 i hi).mpr hi0])]
    · rw [if_neg hi0, if_neg (fun h => hi0 ((callIdx_last 9 i hi).mp (by omega)))]
  have ha1 : ∀ i, i < 2 ^ 9 → drawn1 9 l i = 0 := by
    intro i hi
    have hb := callIdx_bound 9 i
    unfold drawn1
    rw [hv _ (by rw [hlen]; exact hb.2.1), if_neg]
    have := hb.2.2 (by norm_num)
    omega
  have hp0 : polyZ (2 ^ 9) (drawn0 9 l) = 1 := by
    rw [show polyZ (2 ^ 9) (drawn0 9 l) = polyZ (2 ^ 9) (constMem 1) from toPoly_congr ha0, polyZ_const (by norm_num), C_1]
  have hu : RoundVec 9 (twoMem 30 (-31)) (twoMem 25 (-24)) (twoMem (-95) (-107)) (twoMem 125 116) c l
      (twoMem (-25) 24) (twoMem 30 (-31)) := by
    unfold RoundVec
    rw [hp0, hhash, polyZ_zero ha1]
    constructor
    · rw [polyZ_two, polyZ_two]
      refine ⟨0, ?_⟩
      simp only [map_neg]
      ring
    · exact ⟨0, by ring⟩
  have hsmall : sqNorm (2 ^ 9) (twoMem (-25) 24) + sqNorm (2 ^ 9) (twoMem 30 (-31)) ≤ betaSq 9 - 168 := by
    rw [sqNorm_two, sqNorm_two]; norm_num [betaSq]
  have hle := (hround _ _ hu).2 hsmall
  obtain ⟨-, s2, r1, r2⟩ := (hround _ _ hu).1 hle
  have hcodes : (codes s2 (2 ^ 9)).length = 9 * 2 ^ 9 := by
    rw [codes_length, sum_congr rfl (g := fun _ => 9)]
    · simp
    · intro i hi
      rw [r2 i (Finset.mem_range.mp hi)]
      unfold twoMem
      split_ifs <;> rfl
  obtain ⟨ok, out, h1, h2, -⟩ := C15_compress_spec hn s2 sig
    (by
      intro i hi
      rw [r2 i hi]
      unfold twoMem
      split_ifs <;> norm_num)
    (by rw [hcodes]; norm_num)
  have : ok = true := h2.mpr (by rw [hcodes]; norm_num [sigBytes])
  subst this
  have hloop : signLoop A (oneLeaf 9 1 (pos + 40)) 9 B T t.1 t.2 1 sig (pos + 40) = some (.ok (out, z.2.2)) := by
    unfold signLoop
    rw [hz, bindO_pure]
    simp only
    rw [if_pos hle, r1, bindO_pure, h1, bindO_pure]
    rfl
  have hcongr : ∀ N, N ≤ 2 ^ 9 → codes s2 N = codes (twoMem 30 (-31)) N := by
    intro N
    induction N with
    | zero => intro _; rfl
    | succ N ih => intro hN; rw [codes, codes, ih (by omega), r2 N (by omega)]
  have hsig : SignatureOf 9 _ _ s2 := (assemble_ok hn (stream := stream) (pos := pos) msg h1 rfl).1
  refine ⟨_, z.2.2, ?_, by unfold SignatureOf at hsig ⊢; rw [← hcongr _ le_rfl]; exact hsig⟩
  unfold signPoly
  simp only
  rw [hxof _ (by simp [bytes]), c1]
  simp only
  rw [show signLoop A (oneLeaf 9 1 (pos + 40)) 9 _ T (signTarget A 9 _ c).1 (signTarget A 9 _ c).2 1
    sig (pos + 40) = _ from hloop, bindO_pure]

/-- C65 for binary64 with round to nearest even, whether or not the compiler contracts products and sums to fused
operations. -/
theorem C65_binary64 (fma : Bool) {n : ℕ} (hn : ValidLog n) {f g F G : Mem Int}
    (heq : NtruEq n f g F G) (hfit : FitsFormat n f g F G) {h : Mem Ff}
    (hh : ModEqXN (2 ^ n) (polyZq (2 ^ n) h * polyInt (2 ^ n) f) (polyInt (2 ^ n) g))
    (hinv : ∃ r, ModEqXN (2 ^ n) (polyInt (2 ^ n) f * r) 1) (xof : Xof) (leaf : LeafSampler ℝ) (fuel hfuel : ℕ)
    (B0 T : Mem ℂ) (stream : ℕ → UInt8) (msg : List UInt8) (sig sig' : Mem UInt8) (pos pos' : ℕ)
    (hs : signPoly (ieeeA fma) xof leaf fuel hfuel n (computeMatrixB (ieeeA fma) n f g F G B0) T stream msg sig pos =
      some (.ok (sig', pos'))) :
    ∃ (c : Mem Ff) (s1 s2 : Mem Int) (p : ℕ) (l : List Call),
      hashToPoint hfuel n (xof (saltMsg sig' msg)) (fun _ => Ff.zero) = some c ∧
      Calls leaf p l pos' ∧ l.length = 2 ^ (n + 1) ∧ RoundVec n f g F G c l s1 s2 ∧
      Preimage (2 ^ n) h c s1 s2 ∧ sqNorm (2 ^ n) s1 + sqNorm (2 ^ n) s2 ≤ betaSq n + 166 ∧
      SignatureOf n sig' (fun i => stream (pos + i)) s2 ∧
      (sqNorm (2 ^ n) s1 + sqNorm (2 ^ n) s2 ≤ betaSq n →
        (∀ i, i < 2 ^ n → |s2 i| ≤ 1023) → (n = 10 → ∀ i, i < 2 ^ n → s1 i ≠ 6144) →
        ∀ (pk : Mem UInt8) (p : Ovf) (junk : Junk) (lim : ℕ), PkeyOf n pk h → sigBytes n + 2 ≤ lim →
          verify xof hfuel p n junk pk msg (rdArr lim sig') = some (.ok true)) :=
  C65_float_sign (accurate_ieee fma) hn heq hfit hh hinv xof leaf fuel hfuel B0 T stream msg sig sig' pos pos' hs

/-- The hypotheses of `C65_binary64` and `C65_float_sign` are met by a key of the format and a run that returns. -/
example (fma : Bool) (B0 T : Mem ℂ) (stream : ℕ → UInt8) (msg : List UInt8) (sig : Mem UInt8) :
    ∃ (f g F G : Mem Int) (h : Mem Ff) (xof : Xof) (leaf : LeafSampler ℝ) (sig' : Mem UInt8) (pos' : ℕ),
      NtruEq 9 f g F G ∧ FitsFormat 9 f g F G ∧
      ModEqXN (2 ^ 9) (polyZq (2 ^ 9) h * polyInt (2 ^ 9) f) (polyInt (2 ^ 9) g) ∧
      (∃ r, ModEqXN (2 ^ 9) (polyInt (2 ^ 9) f * r) 1) ∧
      signPoly (ieeeA fma) xof leaf 1 16 9 (computeMatrixB (ieeeA fma) 9 f g F G B0) T stream msg sig 0 =
        some (.ok (sig', pos')) ∧ SignatureOf 9 sig' stream f ∧ f 256 = -31 := by
  obtain ⟨h, h1, h2⟩ := smallKey_public
  obtain ⟨sig', pos', e1, e2⟩ := float_run (accurate_ieee fma) B0 T stream msg sig 0 (fun _ => streamOf fun _ => 0)
    (fun _ _ => rfl)
  exact ⟨_, _, _, _, h, _, _, sig', pos', smallKey.1, smallKey.2, h1, h2, e1, by simpa only [Nat.zero_add] using e2,
    rfl⟩

/-- The hypotheses of `C65_defined` are met by the samplers of the examples; in a round where the hypothesis of
the second part of `C65_round` holds, the sampler drew a 1. -/
example : FitsFormat 9 (twoMem 30 (-31)) (twoMem 25 (-24)) (twoMem (-95) (-107)) (twoMem 125 116) ∧
    ∀ mu s p e, oneLeaf 9 1 40 mu s p ≠ some (.error e) :=
  ⟨smallKey.2, fun _ _ _ _ h => by cases h⟩

end Falcon
