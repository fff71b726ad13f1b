import Verif.Proofs.SampleBound
import Verif.Props.Sampler

/-!
# The signer's call of fast Fourier sampling
-/

namespace Falcon

open Finset

/-- The integer sampler of the code meets the requirements. -/
theorem codeLeaf_good {n : ℕ} (hn : ValidLog n) (fuel : ℕ) (stream : ℕ → UInt8) : GoodLeaf (codeLeaf false n fuel stream) := by
  intro mu s p hmu h0 h1
  have hm := abs_le.mp hmu
  have f1 := Int.floor_le mu
  have f2 := Int.lt_floor_add_one mu
  have m0 : -2147483630 ≤ ⌊mu⌋ := by
    rw [Int.le_floor]; push_cast; norm_num at hm ⊢; linarith
  have m1 : ⌊mu⌋ < 2147483629 := by
    rw [Int.floor_lt]; push_cast; norm_num at hm ⊢; linarith
  have hs : s ≤ sigmaMax := by rw [sigmaMax_eq]; norm_num; linarith
  obtain ⟨p1, p2, p3, p4, -⟩ := C56_parameters
  have c : 0 ≤ sigmaMin n ∧ sigmaMin n ≤ 2 := by
    rcases hn with rfl | rfl
    · exact ⟨by linarith, p2⟩
    · exact ⟨by linarith, p4⟩
  constructor
  · intro e h
    obtain ⟨r, p', h', -⟩ := C56_samplerz_sound mu s _ m0 m1 h0 hs c.1 c.2 stream fuel p _ h
    cases h'
  · intro r h
    obtain ⟨r', p', h', b1, b2, -⟩ := C56_samplerz_sound mu s _ m0 m1 h0 hs c.1 c.2 stream fuel p _ h
    have h' := Except.ok.inj h'
    rw [h']
    have b1' : ((⌊mu⌋ - 18 : ℤ) : ℝ) ≤ (r' : ℝ) := by exact_mod_cast b1
    have b2' : ((r' : ℤ) : ℝ) ≤ ((⌊mu⌋ + 19 : ℤ) : ℝ) := by exact_mod_cast b2
    push_cast at b1' b2'
    rw [abs_le]
    constructor <;> simp only <;> linarith

theorem rms_of_nC {n : ℕ} (hn : ValidLog n) {x : Mem ℂ} {c : ℝ} (hc : 0 ≤ c) (h : nC (2 ^ n) x ≤ c * 2 ^ n) :
    rms n x ≤ 32 * c := by
  obtain ⟨hs1, hs2⟩ := sqrt2_bounds hn
  have hsN := sqrt2_sq n
  unfold rms
  rw [div_le_iff₀ (s2_pos n)]
  refine h.trans ?_
  rw [← hsN]
  have : Real.sqrt 2 ^ n ≤ 32 := sqrt2_pow_le (by rcases hn with rfl | rfl <;> norm_num)
  have h2 := mul_le_mul_of_nonneg_right this (s2_pos n).le
  nlinarith [s2_pos n]

theorem asyP_of_near {n : ℕ} {x y : Mem ℂ} (hy : ConjSym n y) {e : ℝ} (h : rms n (fun i => x i - y i) ≤ e) :
    rms n (asyP n x) ≤ e := by
  have h1 := (asyP_close n x y).trans h
  rwa [rms_congr (y := asyP n x) (fun i hi => by rw [asyP_sym hy i hi, sub_zero])] at h1

section
variable {A : Arith ℝ ℂ} (hA : Accurate A)
include hA

/-- The targets: sizes and symmetry. -/
theorem target_bounds {n : ℕ} (hn : ValidLog n) {f g F G : Mem Int} (hfit : FitsFormat n f g F G) (B0 : Mem ℂ) {c : Mem Ff}
    (hc : CanonBelow (2 ^ n) c) :
    let t := signTarget A n (computeMatrixB A n f g F G B0) c
    rms n (symP n t.1) ≤ 2 ^ 22 + 1 ∧ rms n (asyP n t.1) ≤ etaS ∧ rms n (symP n t.2) ≤ 2 ^ 19 + 1 ∧ rms n (asyP n t.2) ≤ etaS := by
  intro t
  obtain ⟨-, b1, -, b3⟩ := basis_float hA hn hfit B0
  obtain ⟨h1, h2, h3, h4⟩ := signTarget_float hA hn hc b1 b3
  have y1 : ConjSym n (fun i => dft n (zC (hashInt c)) i * -dft n (zC F) i / 12289) := by
    intro i hi
    beta_reduce
    rw [dft_compl n _ i hi, dft_compl n F i hi, map_div₀, map_mul, map_neg, map_ofNat]
  have y2 : ConjSym n (fun i => -(dft n (zC (hashInt c)) i * -dft n (zC f) i / 12289)) := by
    intro i hi
    beta_reduce
    rw [dft_compl n _ i hi, dft_compl n f i hi, map_neg, map_div₀, map_mul, map_neg, map_ofNat]
  rw [← mul_assoc] at h1 h3
  have r1 := rms_of_nC hn (by unfold kapD bK; positivity) h1
  have r2 := rms_of_nC hn (by unfold bK; positivity) h2
  have r3 := rms_of_nC hn (by unfold kapD aK; positivity) h3
  have r4 := rms_of_nC hn (by unfold aK; positivity) h4
  have q1 : 32 * (12 / 5 * kapD * bK) ≤ etaS := by unfold kapD bK etaS; norm_num
  have q3 : 32 * (12 / 5 * kapD * aK) ≤ etaS := by unfold kapD aK etaS; norm_num
  have q2 : 32 * bK = 2 ^ 22 := by unfold bK; norm_num
  have q4 : 32 * aK = 2 ^ 19 := by unfold aK; norm_num
  have q5 : etaS ≤ 1 := by unfold etaS; norm_num
  have r1 := r1.trans q1
  have r3 := r3.trans q3
  rw [q2] at r2
  rw [q4] at r4
  refine ⟨?_, asyP_of_near y1 r1, ?_, asyP_of_near y2 r3⟩
  · exact ((rms_symP n t.1).trans (rms_tri n t.1 _)).trans (add_le_add r2 (r1.trans q5))
  · exact ((rms_symP n t.2).trans (rms_tri n t.2 _)).trans (add_le_add r4 (r3.trans q5))

/-- The call of fast Fourier sampling in signing is defined. -/
theorem signSampling_defined {S : Type} {leaf : LeafSampler ℝ S} (hg : GoodLeaf leaf) {n : ℕ} (hn : ValidLog n) {f g F G : Mem Int}
    (heq : NtruEq n f g F G) (hfit : FitsFormat n f g F G) (hgs : GsSmall n f g) (B0 T0 z0 z1 : Mem ℂ) {c : Mem Ff}
    (hc : CanonBelow (2 ^ n) c) (pos : S) (e : UB) :
    let B := computeMatrixB A n f g F G B0
    ffSampling A leaf n 0 (signTarget A n B c).1 (signTarget A n B c).2 (computeFalconTree A n B T0) z0 z1 pos ≠ some (.error e) := by
  intro B h
  obtain ⟨l, L, R, hr, hl, ⟨y, hy, hyd⟩, bL, bR, vL, vR⟩ := tree_float hA hn heq hfit hgs B0 T0
  have hrel := ffSampling_rel A leaf n 0 (signTarget A n B c).1 (signTarget A n B c).2 _ z0 z1 _ _ pos _ hr
    (fun _ _ => rfl) (fun _ _ => rfl)
  rw [h] at hrel
  obtain ⟨t1, t2, t3, t4⟩ := target_bounds hA hn hfit B0 hc
  obtain ⟨k, rfl⟩ : ∃ k, n = k + 1 := ⟨n - 1, by rcases hn with rfl | rfl <;> norm_num⟩
  rw [Nat.add_sub_cancel] at bL bR
  have hk : k = 8 ∨ k = 9 := by unfold ValidLog at hn; omega
  have okL := sampOk hA hg k _ _ L (by omega) hr.2.1 bL vL
  have okR := sampOk hA hg k _ _ R (by omega) hr.2.2 bR vR
  have st := node_step hA (by omega) okL okR hl (by norm_num) (by norm_num) hy hyd (by norm_num)
    (by rcases hk with rfl | rfl <;> norm_num [cK]) (by rcases hk with rfl | rfl <;> norm_num [mK])
    (by rcases hk with rfl | rfl <;> norm_num [pK]) (by rcases hk with rfl | rfl <;> norm_num [qK])
    _ _ pos t1 t2 t3 t4 rfl
    (by rcases hk with rfl | rfl <;> norm_num [cK, mK, pK, qK, etaS])
    (by rcases hk with rfl | rfl <;> norm_num [cK, mK, pK, qK, etaS])
  cases h' : sampleTree A leaf (k + 1) (.node l L R) (signTarget A (k + 1) B c).1 (signTarget A (k + 1) B c).2 pos with
  | none => rw [h'] at hrel; exact hrel
  | some r =>
    cases r with
    | error e' => exact st.1 e' h'
    | ok z => rw [h'] at hrel; exact hrel

end

end Falcon
