import Verif.Props.Sign
import Verif.SphericalSpec

/-!
# Concrete runs of signing

The integer sampler is replaced by one that returns a prescribed sequence; the key is f = 1, g = 0, F = 0,
G = q and the hashed point 0.
-/

namespace Falcon

open Finset Polynomial

/-- A sampler returning the sequence `v`. -/
def posLeaf (v : ℕ → ℤ) : LeafSampler ℝ := fun _ _ p => some (.ok (v p, p + 1))

theorem sample_pos (v : ℕ → ℤ) : ∀ (k level : ℕ) (T : Mem ℂ) (t : FTree ℂ) (t0 t1 : Mem ℂ)
    (pos : ℕ), k ≤ 10 → TRep k level T t → ∃ z0 z1,
    sampleTree exactA (posLeaf v) k t t0 t1 pos = some (.ok (z0, z1, pos + 2 ^ (k + 1))) ∧
    IsDftOf k z0 (fun i => v (pos + callIdx0 k i)) ∧ IsDftOf k z1 (fun i => v (pos + callIdx1 k i)) := by
  intro k
  induction k with
  | zero =>
    intro level T t t0 t1 pos _ hr
    cases t with
    | node _ _ _ => exact hr.elim
    | leaf w =>
      refine ⟨_, _, rfl, ?_, ?_⟩
      · intro i _
        simp [dft, zC, exact_ofInt, callIdx0]
      · intro i _
        simp [dft, zC, exact_ofInt, callIdx1]
  | succ k ih =>
    intro level T t t0 t1 pos hk hr
    cases t with
    | leaf w => exact hr.elim
    | node l L R =>
      obtain ⟨y0, y1, e1, e2, e3⟩ := ih _ _ _ (splitS exactA k t1).1 (splitS exactA k t1).2 pos (by omega) hr.2.2
      obtain ⟨x0, x1, d1, d2, d3⟩ := ih _ _ _
        (splitS exactA k fun i => exactA.cadd (t0 i) (exactA.cmul (exactA.csub (t1 i) (mergeS exactA k y0 y1 i)) (l i))).1
        (splitS exactA k fun i => exactA.cadd (t0 i) (exactA.cmul (exactA.csub (t1 i) (mergeS exactA k y0 y1 i)) (l i))).2
        (pos + 2 ^ (k + 1)) (by omega) hr.2.1
      refine ⟨mergeS exactA k x0 x1, mergeS exactA k y0 y1, ?_, ?_, ?_⟩
      · unfold sampleTree
        simp only [Nat.add_sub_cancel]
        rw [e1, bindO_pure]
        simp only
        rw [d1, bindO_pure]
        simp only
        rw [show pos + 2 ^ (k + 1) + 2 ^ (k + 1) = pos + 2 ^ (k + 1 + 1) by ring]
      · have := merge_int hk d2 d3
        convert this using 2 with i
        rw [callIdx0]
        split <;> rw [← add_assoc]
      · have := merge_int hk e2 e3
        convert this using 2 with i
        rw [callIdx1]
        split <;> rfl

theorem callIdx_bound : ∀ (k i : ℕ), callIdx0 k i < 2 ^ (k + 1) ∧ callIdx1 k i < 2 ^ (k + 1) ∧
    (1 ≤ k → callIdx1 k i < 2 ^ k) := by
  intro k
  induction k with
  | zero => intro i; simp [callIdx0, callIdx1]
  | succ k ih =>
    intro i
    have h := ih (i / 2)
    have e : 2 ^ (k + 1 + 1) = 2 * 2 ^ (k + 1) := by ring
    rw [callIdx0, callIdx1]
    split <;> omega

theorem callIdx_last : ∀ (k i : ℕ), i < 2 ^ k → (callIdx0 k i = 2 ^ (k + 1) - 2 ↔ i = 0) := by
  intro k
  induction k with
  | zero => intro i hi; simp [callIdx0]; simpa using hi
  | succ k ih =>
    intro i hi
    have e : 2 ^ (k + 1 + 1) = 2 * 2 ^ (k + 1) := by ring
    have e' : 2 ^ (k + 1) = 2 * 2 ^ k := by ring
    have hp : 0 < 2 ^ k := by positivity
    have h := ih (i / 2) (by omega)
    have hb := callIdx_bound k (i / 2)
    rw [callIdx0]
    split
    · omega
    · rcases Nat.eq_zero_or_pos k with rfl | hk
      · simp [callIdx1]; omega
      · have := hb.2.2 hk
        have h2 : 2 ≤ 2 ^ k := by
          calc 2 = 2 ^ 1 := rfl
            _ ≤ 2 ^ k := Nat.pow_le_pow_right (by norm_num) hk
        omega

/-- The sampler that returns `x` in one call and 0 in all others. -/
def oneLeaf (n : ℕ) (x : ℤ) (pos : ℕ) : LeafSampler ℝ :=
  posLeaf fun p => if p = pos + (2 ^ (n + 1) - 2) then x else 0

/-- f = 1 or G = q. -/
def constMem (c : ℤ) : Mem Int := fun i => if i = 0 then c else 0

theorem polyZ_const {N : ℕ} (hN : 0 < N) (c : ℤ) : polyZ N (constMem c) = C c := by
  unfold polyZ toPoly constMem
  rw [sum_eq_single 0]
  · simp
  · intro i _ hi; simp [hi]
  · intro h; exact absurd (Finset.mem_range.mpr hN) h

theorem polyZ_zero {N : ℕ} {a : Mem Int} (h : ∀ i, i < N → a i = 0) : polyZ N a = 0 := by
  unfold polyZ toPoly
  refine sum_eq_zero fun i hi => ?_
  rw [h i (Finset.mem_range.mp hi)]; simp

/-- A run of one round for the polynomials (d, 0, 0, G): the vector is (0, d x). They need not satisfy the NTRU equation. -/
theorem sign_run_const {n : ℕ} (hn : ValidLog n) {f g F : Mem Int} {d : ℤ} (hf : ∀ i, i < 2 ^ n → f i = constMem d i)
    (hg : ∀ i, i < 2 ^ n → g i = 0) (hF : ∀ i, i < 2 ^ n → F i = 0) (G : Mem Int) (x : ℤ) (hx : |d * x| ≤ 1030) (B0 T : Mem ℂ) (stream : ℕ → UInt8)
    (msg : List UInt8) (sig : Mem UInt8) (pos : ℕ) (xof : Xof)
    (hxof : ∀ l, 40 ≤ l.length → xof l = streamOf fun _ => 0) : ∃ sig' pos',
    signPoly exactA xof (oneLeaf n x (pos + 40)) 1 16 n
      (computeMatrixB exactA n f g F G B0) T stream msg sig pos =
      some (.ok (sig', pos')) ∧ SignatureOf n sig' (fun i => stream (pos + i)) (constMem (d * x)) := by
  have hn10 : n ≤ 10 := by rcases hn with rfl | rfl <;> norm_num
  have hn1 : 1 ≤ n := by rcases hn with rfl | rfl <;> norm_num
  have hN : 0 < 2 ^ n := by positivity
  obtain ⟨c, c1, c2⟩ := hash_streamOf hn (c := fun _ => 0) (fun _ => by norm_num) (fun _ => Ff.zero)
  let B := computeMatrixB exactA n f g F G B0
  let t := signTarget exactA n B c
  obtain ⟨y0, y1, s1, s2, s3⟩ := sample_pos (fun p => if p = pos + 40 + (2 ^ (n + 1) - 2) then x else 0) n 0 T _
    t.1 t.2 (pos + 40) hn10 (treeOf_rep n 0 T)
  have hrel := ffSampling_rel exactA (oneLeaf n x (pos + 40)) n 0 t.1 t.2 T (junkC exactA) (junkC exactA) t.1 t.2
    (pos + 40) _ (treeOf_rep n 0 T) (fun _ _ => rfl) (fun _ _ => rfl)
  rw [show sampleTree exactA (oneLeaf n x (pos + 40)) n (treeOf n 0 T) t.1 t.2 (pos + 40) = _ from s1] at hrel
  cases hz : ffSampling exactA (oneLeaf n x (pos + 40)) n 0 t.1 t.2 T (junkC exactA) (junkC exactA) (pos + 40) with
  | none => rw [hz] at hrel; exact hrel.elim
  | some e =>
  cases e with
  | error e => rw [hz] at hrel; exact hrel.elim
  | ok z =>
  rw [hz] at hrel
  have h0 : IsDftOf n z.1 _ := fun i hi => (hrel.2.1 i hi).1.trans (s2 i hi)
  have h1 : IsDftOf n z.2.1 _ := fun i hi => (hrel.2.1 i hi).2.trans (s3 i hi)
  have hhash : polyZ (2 ^ n) (hashInt c) = 0 := polyZ_zero fun i hi => by
    unfold hashInt; rw [c2 i hi]; rfl
  have ha0 : ∀ i, i < 2 ^ n → (if pos + 40 + callIdx0 n i = pos + 40 + (2 ^ (n + 1) - 2) then x else 0) =
      constMem x i := by
    intro i hi
    unfold constMem
    by_cases hi0 : i = 0
    · rw [if_pos hi0, if_pos (by rw [(callIdx_last n i hi).mpr hi0])]
    · rw [if_neg hi0, if_neg (fun h => hi0 ((callIdx_last n i hi).mp (by omega)))]
  have ha1 : ∀ i, i < 2 ^ n → (if pos + 40 + callIdx1 n i = pos + 40 + (2 ^ (n + 1) - 2) then x else 0) = 0 := by
    intro i hi
    have := (callIdx_bound n i).2.2 hn1
    have e : 2 ^ (n + 1) = 2 * 2 ^ n := by ring
    have h2 : 2 ≤ 2 ^ n := by
      calc 2 = 2 ^ 1 := rfl
        _ ≤ 2 ^ n := Nat.pow_le_pow_right (by norm_num) hn1
    rw [if_neg (by omega)]
  have zero : ∀ (a : Mem Int) (i : ℕ), (∀ i, i < 2 ^ n → a i = 0) → dft n (zC a) i = 0 := by
    intro a i ha
    rw [← evC_poly, polyZ_zero ha]
    simp [evC]
  have hc0 : ∀ i, dft n (zC (hashInt c)) i = 0 := by
    intro i
    rw [← evC_poly, hhash]
    simp [evC]
  have hz0 : ∀ i, i < 2 ^ n → z.1 i = dft n (zC (constMem x)) i := by
    intro i hi
    rw [h0 i hi, ← evC_poly, ← evC_poly, show polyZ (2 ^ n) _ = polyZ (2 ^ n) (constMem x) from toPoly_congr ha0]
  have hz1 : ∀ i, i < 2 ^ n → z.2.1 i = 0 := by
    intro i hi
    rw [h1 i hi, ← evC_poly, polyZ_zero ha1]
    simp [evC]
  have d0 : IsDftOf n (signVec exactA n B t.1 t.2 z.1 z.2.1).1 (fun _ => 0) := by
    intro i hi
    obtain ⟨b0, b1, b2, b3⟩ := basis_exact hn10 f g F G B0 i hi
    obtain ⟨e0, e1⟩ := signTarget_at hn10 B c i hi
    rw [(signVec_at n B t.1 t.2 z.1 z.2.1 i hi).1, zero _ i (fun _ _ => rfl), show t.2 i = _ from e1, hc0, hz1 i hi, show B i = _ from b0, zero _ i hg]
    ring
  have d1 : IsDftOf n (signVec exactA n B t.1 t.2 z.1 z.2.1).2 (constMem (d * x)) := by
    intro i hi
    obtain ⟨b0, b1, b2, b3⟩ := basis_exact hn10 f g F G B0 i hi
    obtain ⟨e0, e1⟩ := signTarget_at hn10 B c i hi
    have hm : dft n (zC (constMem (d * x))) i = dft n (zC f) i * dft n (zC (constMem x)) i := by
      rw [← evC_poly, ← evC_poly, ← evC_poly, ← evC_mul, show polyZ (2 ^ n) f = polyZ (2 ^ n) (constMem d) from toPoly_congr hf, polyZ_const hN,
        polyZ_const hN, polyZ_const hN, C_mul]
    rw [(signVec_at n B t.1 t.2 z.1 z.2.1 i hi).2, show t.1 i = _ from e0, show t.2 i = _ from e1, hc0, hz0 i hi, hz1 i hi,
      show B (2 ^ n + i) = _ from b1, hm]
    ring
  obtain ⟨⟨out, hout⟩, hnorm⟩ := C18_witness hn sig (d * x) hx
  have hnorm' : sqNorm (2 ^ n) (fun _ => 0) + sqNorm (2 ^ n) (constMem (d * x)) ≤ betaSq n := by
    have : sqNorm (2 ^ n) (fun _ => 0) = 0 := by unfold sqNorm; simp
    rw [this, zero_add]
    exact hnorm
  have hle := (signNorm_int hn d0 d1).mpr hnorm'
  obtain ⟨w, r1, r2, r3⟩ := signRound_int hn10 d1 (fun i hi => coeff_le_norm hnorm' i hi)
  have hw : w = constMem (d * x) := by
    funext i
    by_cases hi : i < 2 ^ n
    · exact r2 i hi
    · rw [r3 i (by omega)]
      unfold constMem
      rw [if_neg (by omega)]
  rw [hw] at r1
  have hout : compressSigE n (constMem (d * x)) sig = .ok (true, out) := hout
  have hloop : signLoop exactA (oneLeaf n x (pos + 40)) n B T t.1 t.2 1 sig (pos + 40) = some (.ok (out, z.2.2)) := by
    unfold signLoop
    rw [hz, bindO_pure]
    simp only
    rw [if_pos hle, r1, bindO_pure, hout, bindO_pure]
    rfl
  refine ⟨_, z.2.2, ?_, (assemble_ok hn msg hout rfl).1⟩
  unfold signPoly
  simp only
  rw [hxof _ (by simp [bytes]), c1]
  simp only
  rw [show signLoop exactA (oneLeaf n x (pos + 40)) n _ T (signTarget exactA n _ c).1 (signTarget exactA n _ c).2 1
    sig (pos + 40) = _ from hloop, bindO_pure]

/-- A run of one round for the key (1, 0, 0, q): the vector is (0, x). -/
theorem sign_run {n : ℕ} (hn : ValidLog n) (x : ℤ) (hx : |x| ≤ 1030) (B0 T : Mem ℂ) (stream : ℕ → UInt8)
    (msg : List UInt8) (sig : Mem UInt8) (pos : ℕ) (xof : Xof)
    (hxof : ∀ l, 40 ≤ l.length → xof l = streamOf fun _ => 0) : ∃ sig' pos',
    signPoly exactA xof (oneLeaf n x (pos + 40)) 1 16 n
      (computeMatrixB exactA n (constMem 1) (fun _ => 0) (fun _ => 0) (constMem 12289) B0) T stream msg sig pos =
      some (.ok (sig', pos')) ∧ SignatureOf n sig' (fun i => stream (pos + i)) (constMem x) := by
  have := sign_run_const hn (d := 1) (fun _ _ => rfl) (fun _ _ => rfl) (fun _ _ => rfl) (constMem 12289) x (by rwa [one_mul]) B0 T stream msg sig pos xof hxof
  rwa [one_mul] at this

end Falcon
