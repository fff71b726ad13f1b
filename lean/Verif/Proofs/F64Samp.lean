import Verif.Proofs.F64Tree
import Verif.Proofs.SignBound
import Verif.Proofs.SamplerFloat

/-!
# Finite binary64 runs: the integer sampler and fast Fourier sampling
-/

namespace Falcon

theorem finB_floor {e : ℕ} {d : F64} {x : ℝ} (h : FinB e d x) : FinB e (F64.floor d) (⌊x⌋ : ℝ) := by
  obtain ⟨⟨s, rfl⟩, h⟩ := h
  refine ⟨⟨s, rfl⟩, ?_⟩
  rw [abs_le] at h ⊢
  constructor
  · have : (-(2 ^ e : ℤ)) ≤ ⌊x⌋ := by rw [Int.le_floor]; push_cast; exact h.1
    exact_mod_cast this
  · exact (Int.floor_le x).trans h.2

theorem finB_toU64 {e : ℕ} {d : F64} {x : ℝ} (h : FinB e d x) : F64.toU64 d = toU64 ⌊x⌋ := by
  obtain ⟨⟨s, rfl⟩, h⟩ := h; rfl

theorem finB_toI32 {e : ℕ} {d : F64} {x : ℝ} (h : FinB e d x) : F64.toI32 d = toI32 ⌊x⌋ := by
  obtain ⟨⟨s, rfl⟩, h⟩ := h; rfl

/-- A literal integer. -/
theorem finB_litZ {e : ℕ} {z : ℤ} (h : |(z : ℝ)| ≤ 2 ^ e) (he : e ≤ 52) : FinB e (F64.lit z) (z : ℝ) := by
  have h1 := finB_lit (q := (z : ℚ)) (e := e) (by push_cast; exact h) (by omega)
  have h2 : (2 : ℝ) ^ e ≤ 2 ^ 52 := pow_le_pow_right₀ (by norm_num) he
  have h4 : ((|z| : ℤ) : ℝ) ≤ ((2 ^ 52 : ℤ) : ℝ) := by rw [Int.cast_abs]; exact (h.trans h2).trans (by norm_num)
  have h5 : |z| ≤ 2 ^ 52 := by exact_mod_cast h4
  rwa [show (((z : ℚ)) : ℝ) = (z : ℝ) by push_cast; rfl, rnd_of_rep (rep_int (h5.trans (by norm_num)))] at h1

theorem finB_ln2 : FinB 0 ln2F LN2 := by
  have h := finB_lit (q := 0.6931471805599453) (e := 0) (by norm_num [abs_of_pos]) (by norm_num)
  unfold ln2F LN2
  convert h using 2
  norm_num

theorem finB_invLn2 : FinB 1 invLn2F INV_LN2 := by
  have h1 := finB_litZ (z := 1) (e := 0) (by norm_num) (by norm_num)
  have h2 := finB_div h1 finB_ln2.1 (m := 1) (by rw [LN2_eq]; norm_num [abs_of_pos]) (by norm_num)
  have e : F64.lit ((1 : ℤ) : ℚ) = F64.lit 1 := by norm_num
  rw [e] at h2
  unfold invLn2F INV_LN2 fdiv
  convert h2 using 2
  norm_num

theorem finB_sigmaMin (n : ℕ) : FinB 1 (sigmaMinF n) (sigmaMin n) := by
  unfold sigmaMinF sigmaMin
  split
  · have h := finB_lit (q := 1.277833697) (e := 1) (by norm_num [abs_of_pos]) (by norm_num)
    convert h using 2
    norm_num
  · have h := finB_lit (q := 1.298280334) (e := 1) (by norm_num [abs_of_pos]) (by norm_num)
    convert h using 2
    norm_num

theorem finB_sigmaMax : FinB 1 sigmaMaxF sigmaMax := by
  have h := finB_lit (q := 1.8205) (e := 1) (by norm_num [abs_of_pos]) (by norm_num)
  unfold sigmaMaxF sigmaMax
  convert h using 2
  norm_num

theorem finB_szInv {d : F64} {y : ℝ} (h : FinB 1 d y) (h1 : 1 ≤ y) : FinB 0 (szInv64 d) (szInv y) := by
  have e1 := finB_litZ (z := 1) (e := 0) (by norm_num) (by norm_num)
  have e2 := finB_litZ (z := 2) (e := 1) (by norm_num) (by norm_num)
  have m := finB_mul (finB_mul e2 h (by norm_num)) h (by norm_num)
  have r1 : Rep (1 : ℝ) := by have := rep_int (n := 1) (by norm_num); exact_mod_cast this
  have l1 : 1 ≤ rnd (((2 : ℤ) : ℝ) * y) := le_rnd_of_rep r1 (by push_cast; linarith)
  have l2 : 1 ≤ rnd (rnd (((2 : ℤ) : ℝ) * y) * y) := le_rnd_of_rep r1 (by nlinarith)
  have r := finB_div (m := 0) e1 m.1 (by rw [pow_zero, div_one]; exact l2.trans (le_abs_self _)) (by norm_num)
  have c1 : F64.lit ((1 : ℤ) : ℚ) = F64.lit 1 := by norm_num
  have c2 : F64.lit ((2 : ℤ) : ℚ) = F64.lit 2 := by norm_num
  rw [c1, c2] at r
  unfold szInv64 szInv fdiv fmul
  exact_mod_cast r

theorem finB_szX {mu sg : F64} {x y : ℝ} (h : FinB 31 mu x) (h' : FinB 1 sg y) (h1 : 1 ≤ y) (b : Bool) {z0 : ℕ} (hz : z0 ≤ 18) :
    FinB 80 (szX64 mu sg b z0) (szX x y b z0) := by
  have hz' : |szZ b z0| ≤ 2 ^ 5 := by
    unfold szZ
    rw [abs_le]
    have : (z0 : ℤ) ≤ 18 := by exact_mod_cast hz
    cases b
    · simp; omega
    · simp; omega
  have hzr : |((szZ b z0 : ℤ) : ℝ)| ≤ 2 ^ 5 := by rw [← Int.cast_abs]; exact_mod_cast hz'
  have t1 := finB_sub h (finB_floor h) (by norm_num)
  have t2 := finB_sub ((finB_litZ hzr (by norm_num)).mono (by norm_num : 5 ≤ 32)) t1 (by norm_num)
  have t3 := finB_mul t2 t2 (by norm_num)
  have t4 := finB_mul t3 (finB_szInv h' h1) (by norm_num)
  have hq : |(((z0 * z0 : ℕ) : ℤ) : ℝ)| ≤ 2 ^ 9 := by
    rw [← Int.cast_abs, Nat.abs_cast]
    have : z0 * z0 ≤ 18 * 18 := Nat.mul_le_mul hz hz
    exact_mod_cast this.trans (by norm_num)
  have t5 := finB_litZ hq (by norm_num)
  have t6 := finB_mul t5 (finB_szInv finB_sigmaMax (by rw [sigmaMax_eq]; norm_num)) (by norm_num)
  have r := (finB_sub t4 (t6.mono (by norm_num : 9 + 0 ≤ 66)) (by norm_num)).mono (by norm_num : 67 ≤ 80)
  unfold szX64 szX szR fsub fmul
  exact_mod_cast r

theorem approxExp64_eq {e : ℕ} (he : e ≤ 900) {d c : F64} {x y : ℝ} (h : FinB e d x) (h' : FinB e c y) :
    approxExp64 d c = approxExp x y := by
  have p : FinB 63 (F64.lit 9223372036854775808) (9223372036854775808 : ℝ) := by
    have h1 := finB_lit (q := 9223372036854775808) (e := 63) (by norm_num) (by norm_num)
    have h2 : Rep (9223372036854775808 : ℝ) := by
      have := rep_zpow (e := 63) (by norm_num)
      norm_num at this
      exact this
    rwa [show ((9223372036854775808 : ℚ) : ℝ) = 9223372036854775808 by norm_num, rnd_of_rep h2] at h1
  unfold approxExp64 approxExp fmul
  rw [finB_toU64 (finB_floor (finB_mul p h (by omega))), finB_toU64 (finB_floor (finB_mul p h' (by omega))), Int.floor_intCast,
    Int.floor_intCast]

theorem berThreshold64_eq (fma : Bool) {d c : F64} {x y : ℝ} (h : FinB 80 d x) (h' : FinB 80 c y) :
    berThreshold64 fma d c = berThreshold fma x y := by
  have s := finB_floor (finB_mul h finB_invLn2 (by norm_num))
  have r : FinB 90 (if fma then F64.fma (F64.neg (F64.floor (F64.mul d invLn2F))) ln2F d
      else F64.sub d (F64.mul (F64.floor (F64.mul d invLn2F)) ln2F)) (berR fma x) := by
    unfold berR berS fmul fsub
    cases fma
    · exact (finB_sub (h.mono (by norm_num)) (finB_mul s finB_ln2 (by norm_num)) (by norm_num)).mono (by norm_num)
    · have := (finB_fma (finB_neg s) finB_ln2 (h.mono (by norm_num)) (by norm_num)).mono (by norm_num : 80 + 1 + 0 + 1 ≤ 90)
      rw [show -((⌊rnd (x * INV_LN2)⌋ : ℤ) : ℝ) * LN2 + x = x - (⌊rnd (x * INV_LN2)⌋ : ℤ) * LN2 by ring] at this
      exact this
  unfold berThreshold64 berThreshold
  simp only
  rw [finB_toU64 s, Int.floor_intCast, approxExp64_eq (by norm_num) r (h'.mono (by norm_num))]
  rfl

theorem szIter64_eq (fma : Bool) (n : ℕ) {mu sg : F64} {x y : ℝ} (h : FinB 31 mu x) (h' : FinB 1 sg y) (h1 : 1 ≤ y)
    (stream : ℕ → UInt8) (pos : ℕ) :
    szIter64 fma mu sg (sigmaMinF n) stream pos = szIter fma x y (sigmaMin n) stream pos := by
  have hz0 := baseSampler_le (fun i => stream (pos + i))
  have ccs := finB_div (m := 0) (finB_sigmaMin n) h'.1 (by rw [pow_zero, div_one]; exact h1.trans (le_abs_self _)) (by norm_num)
  unfold szIter64 szIter berExp64 berExp
  simp only
  generalize (baseSampler fun i => stream (pos + i)).toNat = z0 at *
  generalize (stream (pos + 9) &&& 1 == 1) = b
  rw [berThreshold64_eq fma (finB_szX h h' h1 b hz0) (ccs.mono (by norm_num))]
  have hz' : |szZ b z0| ≤ 2 ^ 5 := by
    unfold szZ
    rw [abs_le]
    have : (z0 : ℤ) ≤ 18 := by exact_mod_cast hz0
    cases b
    · simp; omega
    · simp; omega
  have hzr : |((szZ b z0 : ℤ) : ℝ)| ≤ 2 ^ 5 := by rw [← Int.cast_abs]; exact_mod_cast hz'
  rw [finB_toI32 (finB_add ((finB_litZ hzr (by norm_num)).mono (by norm_num : 5 ≤ 31)) (finB_floor h) (by norm_num))]
  rfl

theorem samplerz64_eq (fma : Bool) (n : ℕ) {mu sg : F64} {x y : ℝ} (h : FinB 31 mu x) (h' : FinB 1 sg y) (h1 : 1 ≤ y)
    (stream : ℕ → UInt8) : ∀ fuel pos,
    samplerz64 fma mu sg (sigmaMinF n) stream fuel pos = samplerz fma x y (sigmaMin n) stream fuel pos := by
  intro fuel
  induction fuel with
  | zero => intro pos; rfl
  | succ fuel ih =>
    intro pos
    unfold samplerz64 samplerz
    rw [szIter64_eq fma n h h' h1]
    rcases szIter fma x y (sigmaMin n) stream pos with e | ⟨_ | r, p⟩
    · rfl
    · exact ih p
    · rfl

/-! ### Fast Fourier sampling -/

/-- The centres and deviations the integer sampler is asked for. -/
def InRange (x y : ℝ) : Prop := |x| ≤ 2 ^ 31 - 100 ∧ 6 / 5 ≤ y ∧ y ≤ 182 / 100

open Classical in
/-- The sampler `leaf`, made to fail when it is called outside of the range. -/
noncomputable def guardLeaf {S : Type} (leaf : LeafSampler ℝ S) : LeafSampler ℝ S := fun x y p =>
  if InRange x y then leaf x y p else some (.error .floatConv)

theorem guardLeaf_good {S : Type} {leaf : LeafSampler ℝ S} (hg : GoodLeaf leaf) : GoodLeaf (guardLeaf leaf) := by
  intro mu s p h1 h2 h3
  unfold guardLeaf
  rw [if_pos ⟨h1, h2, h3⟩]
  exact hg mu s p h1 h2 h3

/-- The same integers are drawn from binary64 data in the range. -/
def LeafSim {S : Type} (leaf64 : LeafSampler F64 S) (leaf : LeafSampler ℝ S) : Prop :=
  ∀ e d s x y p, FinB e d x → FinB e s y → InRange x y → leaf64 d s p = leaf x y p

theorem codeLeaf_sim (fma : Bool) (n fuel : ℕ) (stream : ℕ → UInt8) :
    LeafSim (codeLeaf64 fma n fuel stream) (codeLeaf fma n fuel stream) := by
  intro e d s x y p hd hs ⟨h1, h2, h3⟩
  refine samplerz64_eq fma n (hd.of_le (h1.trans (by norm_num))) (hs.of_le ?_) (by linarith) stream fuel p
  rw [abs_of_nonneg (by linarith)]
  norm_num
  linarith

/-- Outcomes of sampling: both unfinished, or both finished with finite results. -/
def SampFin {S : Type} (k : ℕ) : Option (Except UB (Mem (F64 × F64) × Mem (F64 × F64) × S)) →
    Option (Except UB (Mem ℂ × Mem ℂ × S)) → Prop
  | none, none => True
  | some (.ok r), some (.ok s) => r.2.2 = s.2.2 ∧ RelBelow (2 ^ k) (FinC (32 + 3 * k)) r.1 s.1 ∧
      RelBelow (2 ^ k) (FinC (32 + 3 * k)) r.2.1 s.2.1
  | _, _ => False

section
variable {A : Arith F64 (F64 × F64)} {A' : Arith ℝ ℂ} (hS : Sim A A')
include hS

theorem samp64 (hA : Accurate A') {S : Type} {leaf64 : LeafSampler F64 S} {leaf : LeafSampler ℝ S} (hl : LeafSim leaf64 leaf)
    (hg : GoodLeaf leaf) : ∀ (k level : ℕ) (T : Mem ℂ) (t : FTree (F64 × F64)) (t' : FTree ℂ) (e : ℕ) (t0 t1 : Mem (F64 × F64))
      (x0 x1 : Mem ℂ) (pos : S), k ≤ 10 → TRep k level T t' → FinT k t t' → 70 ≤ e → e + 30 * k ≤ 700 →
      RelBelow (2 ^ k) (FinC e) t0 x0 → RelBelow (2 ^ k) (FinC e) t1 x1 →
      (∀ u, sampleTree A' (guardLeaf leaf) k t' x0 x1 pos ≠ some (.error u)) →
      sampleTree A' (guardLeaf leaf) k t' x0 x1 pos = sampleTree A' leaf k t' x0 x1 pos ∧
      SampFin k (sampleTree A leaf64 k t t0 t1 pos) (sampleTree A' leaf k t' x0 x1 pos) := by
  intro k
  induction k with
  | zero =>
    intro level T t t' e t0 t1 x0 x1 pos _ hT ht _ _ h0 h1 hne
    cases t' with
    | node _ _ _ => exact hT.elim
    | leaf w =>
      cases t with
      | node _ _ _ => exact ht.elim
      | leaf v =>
        have a0 := hS.re (h0 0 (by norm_num))
        have a1 := hS.re (h1 0 (by norm_num))
        have av := hS.re ht.1
        -- one call of the sampler
        have call : ∀ (d : F64) (x : ℝ) (p : S), FinB e d x → (∀ u, guardLeaf leaf x (A'.re w) p ≠ some (.error u)) →
            guardLeaf leaf x (A'.re w) p = leaf x (A'.re w) p ∧ leaf64 d (A.re v) p = leaf x (A'.re w) p ∧
            ∀ r, leaf x (A'.re w) p = some (.ok r) → |((r.1 : ℤ) : ℝ)| ≤ 2 ^ 32 := by
          intro d x p hd hne
          have hr : InRange x (A'.re w) := by
            by_contra h
            exact hne .floatConv (if_neg h)
          refine ⟨if_pos hr, hl (max e 200) _ _ _ _ p (hd.mono (le_max_left _ _)) (av.mono (le_max_right _ _)) hr, fun r hr' => ?_⟩
          have b := (hg _ _ p hr.1 hr.2.1 hr.2.2).2 r hr'
          have c := hr.1
          rw [abs_le] at b c ⊢
          norm_num at c ⊢
          constructor <;> linarith
        unfold sampleTree at hne ⊢
        have c0 := call _ _ pos a0 (fun u hu => hne u (by rw [hu]; rfl))
        rw [c0.1, c0.2.1]
        rw [c0.1] at hne
        generalize hq0 : leaf (A'.re (x0 0)) (A'.re w) pos = q0 at *
        rcases q0 with _ | u | ra
        · exact ⟨rfl, trivial⟩
        · exact (hne u rfl).elim
        simp only [bindO_pure] at hne ⊢
        have c1 := call _ _ ra.2 a1 (fun u hu => hne u (by rw [hu]; rfl))
        rw [c1.1, c1.2.1]
        rw [c1.1] at hne
        generalize hq1 : leaf (A'.re (x1 0)) (A'.re w) ra.2 = q1 at *
        rcases q1 with _ | u | rb
        · exact ⟨rfl, trivial⟩
        · exact (hne u rfl).elim
        exact ⟨rfl, rfl, fun _ _ => hS.ofInt (c0.2.2 ra rfl) (by norm_num), fun _ _ => hS.ofInt (c1.2.2 rb rfl) (by norm_num)⟩
  | succ k ih =>
    intro level T t t' e t0 t1 x0 x1 pos hk hT ht he he' h0 h1 hne
    cases t' with
    | leaf _ => exact hT.elim
    | node l' L' R' =>
      cases t with
      | leaf _ => exact ht.elim
      | node l L R =>
        obtain ⟨ht1, ht2, ht3⟩ := ht
        simp only [Nat.add_sub_cancel] at ht2 ht3
        unfold sampleTree at hne ⊢
        simp only [Nat.add_sub_cancel] at hne ⊢
        obtain ⟨s1, s2⟩ := finC_splitS hS hk (by omega) h1
        obtain ⟨g1, r1⟩ := ih _ _ R R' _ _ _ _ _ pos (by omega) hT.2.2 ht3 (by omega : 70 ≤ e + 3) (by omega) s1 s2
          (fun u hu => hne u (by rw [hu]; rfl))
        rw [g1] at hne ⊢
        generalize sampleTree A leaf64 k R (splitS A k t1).1 (splitS A k t1).2 pos = q at *
        generalize sampleTree A' leaf k R' (splitS A' k x1).1 (splitS A' k x1).2 pos = q' at *
        rcases q' with _ | u | zr'
        · rcases q with _ | _ | _
          · exact ⟨rfl, trivial⟩
          · exact r1.elim
          · exact r1.elim
        · exact (hne u rfl).elim
        rcases q with _ | u | zr
        · exact r1.elim
        · exact r1.elim
        obtain ⟨p1, p2, p3⟩ := r1
        simp only [bindO_pure] at hne ⊢
        have m1 := finC_mergeS hS hk (by omega) p2 p3
        have hd : RelBelow (2 ^ (k + 1)) (FinC (e + 20)) (fun i => A.cadd (t0 i) (A.cmul (A.csub (t1 i) (mergeS A k zr.1 zr.2.1 i)) (l i)))
            (fun i => A'.cadd (x0 i) (A'.cmul (A'.csub (x1 i) (mergeS A' k zr'.1 zr'.2.1 i)) (l' i))) := by
          intro i hi
          have c1 := hS.csub (h1 i hi) ((m1 i hi).mono (by omega : 32 + 3 * k + 3 ≤ e)) (by omega)
          have c2 := hS.cmul c1 (ht1 i hi) (by omega)
          exact (hS.cadd ((h0 i hi).mono (by omega)) c2 (by omega)).mono (by omega)
        obtain ⟨s3, s4⟩ := finC_splitS hS hk (by omega) hd
        obtain ⟨g2, r2⟩ := ih _ _ L L' _ _ _ _ _ zr'.2.2 (by omega) hT.2.1 ht2 (by omega : 70 ≤ e + 20 + 3) (by omega) s3 s4
          (fun u hu => hne u (by rw [hu]; rfl))
        rw [p1]
        rw [g2] at hne ⊢
        generalize sampleTree A leaf64 k L _ _ zr'.2.2 = q at *
        generalize sampleTree A' leaf k L' _ _ zr'.2.2 = q' at *
        rcases q' with _ | u | zl'
        · rcases q with _ | _ | _
          · exact ⟨rfl, trivial⟩
          · exact r2.elim
          · exact r2.elim
        · exact (hne u rfl).elim
        rcases q with _ | u | zl
        · exact r2.elim
        · exact r2.elim
        obtain ⟨p4, p5, p6⟩ := r2
        exact ⟨rfl, p4, finC_mergeS hS (e := 32 + 3 * k) hk (by omega) p5 p6, m1⟩

end

end Falcon
