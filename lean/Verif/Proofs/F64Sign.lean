import Verif.Proofs.F64Samp
import Verif.Proofs.RecomputeFloat
import Verif.Proofs.SignCongr
import Verif.Props.OneShotFloat

/-!
# Finite binary64 runs: signing
-/

namespace Falcon

theorem loopE_congr' {σ : Type} {n : ℕ} {f g : ℕ → σ → Except UB σ} {s : σ} (h : ∀ i, i < n → ∀ s, f i s = g i s) :
    loopE n f s = loopE n g s := by
  induction n with
  | zero => rfl
  | succ n ih =>
    unfold loopE
    rw [ih fun i hi => h i (by omega)]
    cases loopE n g s with
    | error e => rfl
    | ok v => exact h n (by omega) v

section
variable {A : Arith F64 (F64 × F64)} {A' : Arith ℝ ℂ} (hS : Sim A A')
include hS

theorem finC_lit12289 : FinC 14 (A.ofReal (A.lit 12289)) (A'.ofReal (A'.lit 12289)) :=
  hS.ofReal (hS.lit (by norm_num) (by norm_num))

theorem finC_target (hA : Accurate A') {n : ℕ} (hn : n ≤ 10) {B : Mem (F64 × F64)} {C : Mem ℂ}
    (hB : ∀ x, x < 4 * 2 ^ n → FinC 37 (B x) (C x)) {c : Mem Ff} (hc : CanonBelow (2 ^ n) c) :
    RelBelow (2 ^ n) (FinC 150) (signTarget A n B c).1 (signTarget A' n C c).1 ∧
    RelBelow (2 ^ n) (FinC 150) (signTarget A n B c).2 (signTarget A' n C c).2 := by
  have hf : RelBelow (2 ^ n) (FinC 44)
      (fft A n (loop (2 ^ n) (fun i m => upd m i (A.ofInt ((c i).v.toNat : Int))) (junkC A)))
      (fft A' n (loop (2 ^ n) (fun i m => upd m i (A'.ofInt ((c i).v.toNat : Int))) (junkC A'))) := by
    refine finC_fft hS (e := 14) hn (by norm_num) fun i hi => ?_
    rw [loop_fill, loop_fill, if_pos hi, if_pos hi]
    refine hS.ofInt ?_ (by norm_num)
    have h1 : (c i).v.toNat < 12289 := hc i hi
    have h2 : (((c i).v.toNat : ℤ) : ℝ) ≤ 12289 := by exact_mod_cast h1.le
    rw [abs_of_nonneg (by positivity)]
    norm_num at h2 ⊢
    linarith
  have hq := finC_lit12289 hS
  have hqn : 1 / 2 ^ 20 ≤ ‖A'.ofReal (A'.lit 12289)‖ := by
    have := hA.lit_small 12289 (by norm_num)
    push_cast at this
    rw [ofReal_eq hA, this]
    push_cast
    norm_num
  unfold signTarget
  simp only [one_shiftLeft']
  constructor
  · intro i hi
    rw [loop_map (2 ^ n) (fun _ x => A.cdiv x (A.ofReal (A.lit 12289))), loop_map (2 ^ n) (fun _ x => A'.cdiv x (A'.ofReal (A'.lit 12289))), if_pos hi, if_pos hi,
      polyMulC_at, if_pos hi, polyMulC_at, if_pos hi]
    exact (hS.cdiv (hS.cmul (hf i hi) (hB (3 * 2 ^ n + i) (by omega)) (by norm_num)) hq hqn (by norm_num) (by norm_num)).mono (by norm_num)
  · intro i hi
    rw [loop_map (2 ^ n) (fun _ x => A.cneg (A.cdiv x (A.ofReal (A.lit 12289)))), loop_map (2 ^ n) (fun _ x => A'.cneg (A'.cdiv x (A'.ofReal (A'.lit 12289)))), if_pos hi, if_pos hi,
      polyMulC_at, if_pos hi, polyMulC_at, if_pos hi]
    exact hS.cneg ((hS.cdiv (hS.cmul (hf i hi) (hB (2 ^ n + i) (by omega)) (by norm_num)) hq hqn (by norm_num) (by norm_num)).mono (by norm_num))

theorem finC_vec {n : ℕ} {B t0 t1 z0 z1 : Mem (F64 × F64)} {C x0 x1 y0 y1 : Mem ℂ}
    (hB : ∀ x, x < 4 * 2 ^ n → FinC 37 (B x) (C x)) (h0 : RelBelow (2 ^ n) (FinC 150) t0 x0) (h1 : RelBelow (2 ^ n) (FinC 150) t1 x1)
    (k0 : RelBelow (2 ^ n) (FinC 150) z0 y0) (k1 : RelBelow (2 ^ n) (FinC 150) z1 y1) :
    RelBelow (2 ^ n) (FinC 200) (signVec A n B t0 t1 z0 z1).1 (signVec A' n C x0 x1 y0 y1).1 ∧
    RelBelow (2 ^ n) (FinC 200) (signVec A n B t0 t1 z0 z1).2 (signVec A' n C x0 x1 y0 y1).2 := by
  have d0 : ∀ i, i < 2 ^ n → FinC 151 (A.csub (t0 i) (z0 i)) (A'.csub (x0 i) (y0 i)) := fun i hi => hS.csub (h0 i hi) (k0 i hi) (by norm_num)
  have d1 : ∀ i, i < 2 ^ n → FinC 151 (A.csub (t1 i) (z1 i)) (A'.csub (x1 i) (y1 i)) := fun i hi => hS.csub (h1 i hi) (k1 i hi) (by norm_num)
  have m : ∀ {a b : F64 × F64} {x y : ℂ}, FinC 151 a x → FinC 37 b y → FinC 189 (A.cmul a b) (A'.cmul x y) :=
    fun ha hb => hS.cmul ha hb (by norm_num)
  unfold signVec
  constructor
  · intro i hi
    simp only [polyAddToC_at, polyMulC_at, polySubC_at, if_pos hi, one_shiftLeft', ptr]
    exact (hS.cadd (m (d0 i hi) (hB i (by omega))) (m (d1 i hi) (hB (2 * 2 ^ n + i) (by omega)))
      (by norm_num)).mono (by norm_num)
  · intro i hi
    simp only [polyAddToC_at, polyMulC_at, polySubC_at, if_pos hi, one_shiftLeft', ptr]
    exact (hS.cadd (m (d0 i hi) (hB (2 ^ n + i) (by omega))) (m (d1 i hi) (hB (3 * 2 ^ n + i) (by omega)))
      (by norm_num)).mono (by norm_num)

theorem finB_sqrdNorm (hA : Accurate A') {n : ℕ} (hn : n ≤ 10) {a : Mem (F64 × F64)} {z : Mem ℂ} (h : RelBelow (2 ^ n) (FinC 200) a z) :
    FinB 420 (sqrdNormC A n a) (sqrdNormC A' n z) := by
  have hp : 2 ^ n ≤ 1024 := (Nat.pow_le_pow_right (by norm_num) hn).trans (by norm_num)
  have z0 := hS.lit (q := 0) (e := 0) (by norm_num) (by norm_num)
  have key : ∀ m, m ≤ 2 ^ n → FinCM (m + 1) 401
      (loop m (fun i res => A.cadd res (A.cmul (a i) (A.conj (a i)))) (A.cx (A.lit 0) (A.lit 0)))
      (loop m (fun i res => A'.cadd res (A'.cmul (z i) (A'.conj (z i)))) (A'.cx (A'.lit 0) (A'.lit 0))) := by
    intro m
    induction m with
    | zero =>
      intro _
      have := (hS.cx z0 z0).mono (by norm_num : 0 ≤ 401)
      refine ⟨⟨this.1.1, ?_⟩, this.2.1, ?_⟩
      · rw [zero_add, Nat.cast_one, one_mul]; exact this.1.2
      · rw [zero_add, Nat.cast_one, one_mul]; exact this.2.2
    | succ m ih =>
      intro hm
      rw [loop_succ, loop_succ]
      exact hS.acc (ih (by omega)) (hS.cmul (h m (by omega)) (hS.conj (h m (by omega))) (by norm_num)) (by omega) (by norm_num)
  have k := key (2 ^ n) le_rfl
  unfold sqrdNormC
  simp only [one_shiftLeft']
  generalize loop (2 ^ n) (fun i res => A.cadd res (A.cmul (a i) (A.conj (a i)))) (A.cx (A.lit 0) (A.lit 0)) = u at *
  generalize loop (2 ^ n) (fun i res => A'.cadd res (A'.cmul (z i) (A'.conj (z i)))) (A'.cx (A'.lit 0) (A'.lit 0)) = w at *
  have e1 : ∀ {d : F64} {x : ℝ}, FinM (2 ^ n + 1) 401 d x → FinB 412 d x := by
    intro d x h
    refine ⟨h.1, h.2.trans ?_⟩
    have : ((2 ^ n + 1 : ℕ) : ℝ) ≤ 2 ^ 11 := by
      have : 2 ^ n + 1 ≤ 2 ^ 11 := by omega
      exact_mod_cast this
    calc ((2 ^ n + 1 : ℕ) : ℝ) * 2 ^ 401 ≤ 2 ^ 11 * 2 ^ 401 := mul_le_mul_of_nonneg_right this (by positivity)
      _ = 2 ^ 412 := by rw [← pow_add]
  have k' : FinC 412 u w := ⟨e1 k.1, e1 k.2⟩
  have l1 := hS.lit (q := 2 ^ n) (e := 10) (by
    have : ((2 ^ n : ℕ) : ℝ) ≤ ((1024 : ℕ) : ℝ) := by exact_mod_cast hp
    push_cast at this ⊢
    rw [abs_of_nonneg (by positivity)]
    norm_num at this ⊢
    exact this) (by norm_num)
  refine (hS.div (m := 0) (hS.re k') l1.1 ?_ (by norm_num)).mono (by norm_num)
  have e : A'.lit (2 ^ n) = 2 ^ n := by
    have := hA.lit_small (2 ^ n) (by
      have h : ((2 ^ n : ℕ) : ℤ) ≤ 1024 := by exact_mod_cast hp
      push_cast at h
      rw [abs_of_nonneg (by positivity)]
      omega)
    push_cast at this
    exact this
  rw [e, abs_of_nonneg (by positivity), pow_zero, div_one]
  exact one_le_pow₀ (by norm_num)

theorem round64 {n : ℕ} (hn : n ≤ 10) {a : Mem (F64 × F64)} {z : Mem ℂ} (h : RelBelow (2 ^ n) (FinC 200) a z) :
    signRound A n a = signRound A' n z := by
  have hi := finC_ifft hS hn (by norm_num) h
  unfold signRound
  simp only
  exact loopE_congr' fun i hi' m => by
    rw [one_shiftLeft'] at hi'
    rw [hS.roundTo (hS.re (hi i hi'))]

/-- Fast Fourier sampling in signing. -/
theorem sampling64 (hA : Accurate A') {S : Type} {leaf64 : LeafSampler F64 S} {leaf : LeafSampler ℝ S} (hl : LeafSim leaf64 leaf)
    (hg : GoodLeaf leaf) {n : ℕ} (hn : ValidLog n) {f g F G : Mem Int} (heq : NtruEq n f g F G) (hfit : FitsFormat n f g F G)
    (hgs : GsSmall n f g) (B T z0 z1 : Mem (F64 × F64)) (Bp T' y0 y1 : Mem ℂ)
    (hB : ∀ x, x < 4 * 2 ^ n → FinC 37 (B x) (computeMatrixB A' n f g F G Bp x)) {c : Mem Ff} (hc : CanonBelow (2 ^ n) c) (pos : S) :
    let B' := computeMatrixB A' n f g F G Bp
    SampFin n (ffSampling A leaf64 n 0 (signTarget A n B c).1 (signTarget A n B c).2 (computeFalconTree A n B T) z0 z1 pos)
      (ffSampling A' leaf n 0 (signTarget A' n B' c).1 (signTarget A' n B' c).2 (computeFalconTree A' n B' T') y0 y1 pos) := by
  intro B'
  have hn10 : n ≤ 10 := by rcases hn with rfl | rfl <;> norm_num
  obtain ⟨t, l, L, R, r64, r', ht, -⟩ := tree_f64 hS hA hn heq hfit hgs B T Bp T' hB
  obtain ⟨f0, f1⟩ := finC_target hS hA hn10 hB hc
  have rg := ffSampling_rel A' (guardLeaf leaf) n 0 (signTarget A' n B' c).1 (signTarget A' n B' c).2 _ y0 y1 _ _ pos _ r'
    (fun _ _ => rfl) (fun _ _ => rfl)
  have rl := ffSampling_rel A' leaf n 0 (signTarget A' n B' c).1 (signTarget A' n B' c).2 _ y0 y1 _ _ pos _ r'
    (fun _ _ => rfl) (fun _ _ => rfl)
  have r6 := ffSampling_rel A leaf64 n 0 (signTarget A n B c).1 (signTarget A n B c).2 _ z0 z1 _ _ pos _ r64
    (fun _ _ => rfl) (fun _ _ => rfl)
  have hdef := signSampling_defined hA (guardLeaf_good hg) hn heq hfit hgs Bp T' y0 y1 hc pos
  have hne : ∀ u, sampleTree A' (guardLeaf leaf) n (.node l L R) (signTarget A' n B' c).1 (signTarget A' n B' c).2 pos ≠ some (.error u) := by
    intro u hu
    rw [hu] at rg
    generalize hq : ffSampling A' (guardLeaf leaf) n 0 (signTarget A' n B' c).1 (signTarget A' n B' c).2
      (computeFalconTree A' n B' T') y0 y1 pos = q at rg
    rcases q with _ | e | r
    · exact rg.elim
    · exact hdef e hq
    · exact rg.elim
  have hs := (samp64 hS hA hl hg n 0 _ t _ 150 _ _ _ _ pos hn10 r' ht (by norm_num) (by omega) f0 f1 hne).2
  generalize ffSampling A leaf64 n 0 (signTarget A n B c).1 (signTarget A n B c).2 (computeFalconTree A n B T) z0 z1 pos = q1 at *
  generalize ffSampling A' leaf n 0 (signTarget A' n B' c).1 (signTarget A' n B' c).2 (computeFalconTree A' n B' T') y0 y1 pos = q2 at *
  generalize sampleTree A leaf64 n t (signTarget A n B c).1 (signTarget A n B c).2 pos = q3 at *
  generalize sampleTree A' leaf n (.node l L R) (signTarget A' n B' c).1 (signTarget A' n B' c).2 pos = q4 at *
  rcases q1 with _ | _ | q1 <;> rcases q3 with _ | _ | q3 <;> first | exact r6.elim | skip
  · rcases q4 with _ | _ | q4 <;> first | exact hs.elim | skip
    rcases q2 with _ | _ | q2 <;> first | exact rl.elim | skip
    exact trivial
  · rcases q4 with _ | _ | q4 <;> exact hs.elim
  · rcases q4 with _ | _ | q4 <;> first | exact hs.elim | skip
    rcases q2 with _ | _ | q2 <;> first | exact rl.elim | skip
    obtain ⟨a1, a2, -⟩ := r6
    obtain ⟨b1, b2, -⟩ := rl
    obtain ⟨c1, c2, c3⟩ := hs
    refine ⟨by rw [a1, c1, b1], fun i hi => ?_, fun i hi => ?_⟩
    · rw [(a2 i hi).1, (b2 i hi).1]; exact c2 i hi
    · rw [(a2 i hi).2, (b2 i hi).2]; exact c3 i hi

theorem beta2_fin (n : ℕ) : FinB 30 (A.lit (beta2 n)) (A'.lit (beta2 n)) := by
  refine hS.lit ?_ (by norm_num)
  unfold beta2
  split <;> norm_num

/-- Signing gives the same bytes and leaves the random stream at the same position. -/
theorem signPoly64 (hA : Accurate A') {leaf64 : LeafSampler F64} {leaf : LeafSampler ℝ} (hl : LeafSim leaf64 leaf)
    (hg : GoodLeaf leaf) {n : ℕ} (hn : ValidLog n) {f g F G : Mem Int} (heq : NtruEq n f g F G) (hfit : FitsFormat n f g F G)
    (hgs : GsSmall n f g) (B T : Mem (F64 × F64)) (Bp T' : Mem ℂ)
    (hB : ∀ x, x < 4 * 2 ^ n → FinC 37 (B x) (computeMatrixB A' n f g F G Bp x)) (xof : Xof) (fuel hfuel : ℕ)
    (stream : ℕ → UInt8) (msg : List UInt8) (sig : Mem UInt8) (pos : ℕ) :
    let B' := computeMatrixB A' n f g F G Bp
    signPoly A xof leaf64 fuel hfuel n B (computeFalconTree A n B T) stream msg sig pos =
      signPoly A' xof leaf fuel hfuel n B' (computeFalconTree A' n B' T') stream msg sig pos := by
  intro B'
  have hn10 : n ≤ 10 := by rcases hn with rfl | rfl <;> norm_num
  have hloop : ∀ (c : Mem Ff) (_ : CanonBelow (2 ^ n) c) (fuel : ℕ) (sig : Mem UInt8) (pos : ℕ),
      signLoop A leaf64 n B (computeFalconTree A n B T) (signTarget A n B c).1 (signTarget A n B c).2 fuel sig pos =
      signLoop A' leaf n B' (computeFalconTree A' n B' T') (signTarget A' n B' c).1 (signTarget A' n B' c).2 fuel sig pos := by
    intro c hc fuel
    obtain ⟨f0, f1⟩ := finC_target hS hA hn10 hB hc
    induction fuel with
    | zero => intro sig pos; rfl
    | succ fuel ih =>
      intro sig pos
      have hs := sampling64 hS hA hl hg hn heq hfit hgs B T (junkC A) (junkC A) Bp T' (junkC A') (junkC A') hB hc pos
      unfold signLoop
      simp only at hs
      generalize ffSampling A leaf64 n 0 (signTarget A n B c).1 (signTarget A n B c).2 (computeFalconTree A n B T) (junkC A) (junkC A)
        pos = q1 at *
      change SampFin n q1 (ffSampling A' leaf n 0 (signTarget A' n B' c).1 (signTarget A' n B' c).2 (computeFalconTree A' n B' T') (junkC A')
        (junkC A') pos) at hs
      generalize ffSampling A' leaf n 0 (signTarget A' n B' c).1 (signTarget A' n B' c).2 (computeFalconTree A' n B' T') (junkC A')
        (junkC A') pos = q2 at *
      rcases q1 with _ | _ | q1 <;> rcases q2 with _ | _ | q2 <;> first | exact hs.elim | skip
      · rfl
      · obtain ⟨c1, c2, c3⟩ := hs
        obtain ⟨v0, v1⟩ := finC_vec hS hB f0 f1 (fun i hi => (c2 i hi).mono (by omega)) (fun i hi => (c3 i hi).mono (by omega))
        simp only [bindO_pure]
        have hnorm : FinB 421 (signNorm A n (signVec A n B (signTarget A n B c).1 (signTarget A n B c).2 q1.1 q1.2.1).1
            (signVec A n B (signTarget A n B c).1 (signTarget A n B c).2 q1.1 q1.2.1).2)
            (signNorm A' n (signVec A' n B' (signTarget A' n B' c).1 (signTarget A' n B' c).2 q2.1 q2.2.1).1
            (signVec A' n B' (signTarget A' n B' c).1 (signTarget A' n B' c).2 q2.1 q2.2.1).2) :=
          hS.add (finB_sqrdNorm hS hA hn10 v0) (finB_sqrdNorm hS hA hn10 v1) (by norm_num)
        rw [hS.le hnorm ((beta2_fin hS n).mono (by norm_num)), round64 hS hn10 v1, c1]
        simp only [ih]
        rfl
  unfold signPoly
  simp only
  split
  · rfl
  · rename_i c hc
    have hcan : CanonBelow (2 ^ n) c := (C24_hash_point _ _ _ hc).2.1
    rw [hloop c hcan]

/-- The recomputation of G. -/
theorem recomputeG64 (hA : Accurate A') {n : ℕ} (hn : ValidLog n) {f g F G : Mem Int}
    (hfit : FitsFormat n f g F G) (hf0 : ∀ j, j < 2 ^ n → 1 / 2 ^ 10 ≤ ‖dft n (zC f) j‖) (G0 : Mem Int) :
    recomputeG A n f g F G0 = recomputeG A' n f g F G0 := by
  have hn10 : n ≤ 10 := by rcases hn with rfl | rfl <;> norm_num
  set K : ℤ := if n = 9 then 31 else 15 with hK
  have hK0 : 0 ≤ K := by rw [hK]; split <;> norm_num
  have hK1 : K ≤ 127 := by rw [hK]; split <;> norm_num
  have hKa : (K : ℝ) * 2 ^ n + 200 ≤ 2 ^ 14 := by
    rw [hK]
    rcases hn with rfl | rfl <;> norm_num
  have nf := fft_int_near hA hn f (junkC A') hK0 hK1 (fun i hi => (hfit i hi).1) hKa (by norm_num)
  have hz : ∀ z : ℤ, |z| ≤ 127 → |(z : ℝ)| ≤ 2 ^ 7 := by
    intro z h
    have : ((|z| : ℤ) : ℝ) ≤ 127 := by exact_mod_cast h
    rw [Int.cast_abs] at this
    norm_num
    linarith
  have hfft : ∀ a : Mem Int, (∀ i, i < 2 ^ n → |a i| ≤ 127) → RelBelow (2 ^ n) (FinC 37)
      (fft A n (loop (1 <<< n) (fun i m => upd m i (A.ofInt (a i))) (junkC A)))
      (fft A' n (loop (1 <<< n) (fun i m => upd m i (A'.ofInt (a i))) (junkC A'))) := by
    intro a ha
    refine finC_fft hS (e := 7) hn10 (by norm_num) fun i hi => ?_
    rw [one_shiftLeft', loop_fill, loop_fill, if_pos hi, if_pos hi]
    exact hS.ofInt (hz _ (ha i hi)) (by norm_num)
  have kf := hfft f fun i hi => ((hfit i hi).1).trans hK1
  have kg := hfft g fun i hi => ((hfit i hi).2.1).trans hK1
  have kF := hfft F fun i hi => (hfit i hi).2.2.1
  have hlow : ∀ j, j < 2 ^ n → (1 : ℝ) / 2 ^ 20 ≤ ‖fft A' n (loop (1 <<< n) (fun i m => upd m i (A'.ofInt (f i))) (junkC A')) j‖ := by
    intro j hj
    obtain ⟨-, -, f3⟩ := nf j hj
    have h0 := hf0 j hj
    have h1 := norm_sub_norm_le (dft n (zC f) j) (fft A' n (loop (1 <<< n) (fun i m => upd m i (A'.ofInt (f i))) (junkC A')) j)
    rw [norm_sub_rev] at h1
    rw [show kapD = 1 / 2 ^ 46 from rfl] at f3
    norm_num at f3 h0 ⊢
    linarith
  unfold recomputeG
  simp only
  have hD : RelBelow (2 ^ n) (FinC 200) (polyDivC A n (polyAddToC A n (polyMulC A n
      (fft A n (loop (1 <<< n) (fun i m => upd m i (A.ofInt (g i))) (junkC A)))
      (fft A n (loop (1 <<< n) (fun i m => upd m i (A.ofInt (F i))) (junkC A)))
      (junkC A)) (loop (1 <<< n) (fun i m => upd m i (A.ofReal (A.lit 12289))) (junkC A)))
      (fft A n (loop (1 <<< n) (fun i m => upd m i (A.ofInt (f i))) (junkC A)))
      (junkC A)) (polyDivC A' n (polyAddToC A' n (polyMulC A' n
      (fft A' n (loop (1 <<< n) (fun i m => upd m i (A'.ofInt (g i))) (junkC A')))
      (fft A' n (loop (1 <<< n) (fun i m => upd m i (A'.ofInt (F i))) (junkC A')))
      (junkC A')) (loop (1 <<< n) (fun i m => upd m i (A'.ofReal (A'.lit 12289))) (junkC A')))
      (fft A' n (loop (1 <<< n) (fun i m => upd m i (A'.ofInt (f i))) (junkC A')))
      (junkC A')) := by
    intro j hj
    have kgj := kg j hj
    have kFj := kF j hj
    have kfj := kf j hj
    have hl := hlow j hj
    rw [polyDivC_at, if_pos hj, polyAddToC_at, if_pos hj, polyMulC_at, if_pos hj,
      show loop (1 <<< n) (fun i m => upd m i (A.ofReal (A.lit 12289))) (junkC A) j = A.ofReal (A.lit 12289) by
        rw [one_shiftLeft', loop_fill, if_pos hj], polyDivC_at, if_pos hj, polyAddToC_at, if_pos hj, polyMulC_at, if_pos hj,
      toC_at n (fun _ => A'.ofReal (A'.lit 12289)) _ j hj]
    have h1 : FinC 75 _ _ := hS.cmul kgj kFj (by norm_num)
    have h2 : FinC 76 _ _ := hS.cadd h1 ((finC_lit12289 hS).mono (by norm_num)) (by norm_num)
    exact (hS.cdiv h2 kfj hl (by norm_num) (by norm_num)).mono (by norm_num)
  have hi := finC_ifft hS hn10 (by norm_num) hD
  exact loopE_congr' fun i hi' m => by
    rw [one_shiftLeft'] at hi'
    rw [hS.roundTo (hS.re (hi i hi'))]

/-- One-shot signing gives the same bytes. -/
theorem falconSign64 (hA : Accurate A') {leaf64 : (ℕ → UInt8) → LeafSampler F64} {leaf : (ℕ → UInt8) → LeafSampler ℝ}
    (hl : ∀ s, LeafSim (leaf64 s) (leaf s))
    (hg : ∀ s, GoodLeaf (leaf s)) {n : ℕ} (hn : ValidLog n) {f g F G : Mem Int} (heq : NtruEq n f g F G) (hfit : FitsFormat n f g F G)
    (hgs : GsSmall n f g) (hf0 : ∀ j, j < 2 ^ n → 1 / 2 ^ 10 ≤ ‖dft n (zC f) j‖) (sk0 : Mem UInt8) (xof : Xof)
    (mt : UInt32 → Mem UInt8) (fuel hfuel : ℕ) (junk junk' : FgF) (junkG junkG' : Mem Int)
    (junkB junkT : Mem (F64 × F64)) (junkB' junkT' : Mem ℂ) (rd : UInt32) (msg : List UInt8) (sig : Mem UInt8) :
    falconSign A xof mt leaf64 fuel hfuel n junk junkG junkB junkT rd (encodeSkey n f g F sk0) msg sig =
      falconSign A' xof mt leaf fuel hfuel n junk' junkG' junkB' junkT' rd (encodeSkey n f g F sk0) msg sig := by
  have hn1 : 1 ≤ n := by rcases hn with rfl | rfl <;> norm_num
  rw [C67_one_shot hA hn heq hfit hf0 sk0 junkB' junkT']
  obtain ⟨c1, c2, -⟩ := C12_skey_roundtrip hn f g F sk0 junk (skInRange_of_fits hn hfit)
  cases hk : decodeSkey n (encodeSkey n f g F sk0) junk with
  | mk b k =>
    simp only [hk] at c1 c2
    subst c1
    have hG := recomputeG_float hA hn heq hfit hf0 junkG
    rw [← recomputeG64 hS hA hn hfit hf0] at hG
    obtain ⟨G', g1, g2⟩ := recomputeG_congr A n junkG junkG c2 hG
    rw [C58_one_shot A hn _ junk k hk junkG G' g1 junkB junkT]
    have hB : ∀ x, x < 4 * 2 ^ n → computeMatrixB A n k.f k.g k.F G' junkB x = computeMatrixB A n f g F G junkB x :=
      computeMatrixB_congr A n junkB junkB fun i hi =>
        ⟨(c2 i hi).1, (c2 i hi).2.1, (c2 i hi).2.2, by rw [g2 i hi, if_pos hi]⟩
    have hB' : ∀ x, x < 4 * 2 ^ n → FinC 37 (computeMatrixB A n k.f k.g k.F G' junkB x) (computeMatrixB A' n f g F G junkB' x) := by
      intro x hx
      rw [hB x hx]
      exact finC_basis hS hn hfit junkB junkB junkB' x hx
    exact congrArg signResult (signPoly64 hS hA (hl _) (hg _) hn heq hfit hgs _ _ _ _ hB' xof fuel hfuel _ msg sig 0)

end

end Falcon
