import Verif.Proofs.ChiLeaf
import Verif.Proofs.OracleTree
import Verif.Props.TreeExact

/-! # Programs calling the integer sampler: answers of the code and ideal answers, in relative terms -/

namespace Falcon

/-- Replace the ideal distribution i by a distribution q close to it. -/
theorem chi_trans {ι : Type} {p i q : ι → ℝ} {S δ : ℝ} (hp : HasSum p 1) (hi : HasSum i 1) (hq : HasSum q 1) (i0 : ∀ v, 0 < i v)
    (q0 : ∀ v, 0 < q v) (hS : Summable fun v => p v ^ 2 / i v) (hS' : ∑' v, p v ^ 2 / i v ≤ 1 + S) (δ0 : 0 ≤ δ)
    (hd : ∀ v, |i v - q v| ≤ δ * q v) :
    (Summable fun v => (p v - q v) ^ 2 / q v) ∧ ∑' v, (p v - q v) ^ 2 / q v ≤ 1.5 * (1 + δ) * S + 3 * δ ^ 2 ∧
    (Summable fun v => p v ^ 2 / q v) ∧ ∑' v, p v ^ 2 / q v ≤ 1 + (1.5 * (1 + δ) * S + 3 * δ ^ 2) := by
  have hb : ∀ v, (p v - q v) ^ 2 / q v ≤ 1.5 * (1 + δ) * (p v ^ 2 / i v - 2 * p v + i v) + 3 * δ ^ 2 * q v := by
    intro v
    have hi0 := i0 v
    have hq0 := q0 v
    have h1 := hd v
    have e1 : p v ^ 2 / i v - 2 * p v + i v = (p v - i v) ^ 2 / i v := by field_simp; ring
    rw [e1, div_le_iff₀ hq0]
    have h2 : (p v - q v) ^ 2 ≤ 1.5 * (p v - i v) ^ 2 + 3 * (i v - q v) ^ 2 := by
      nlinarith [sq_nonneg ((p v - i v) - 2 * (i v - q v))]
    have h3 : (i v - q v) ^ 2 ≤ δ ^ 2 * q v ^ 2 := by
      rw [← sq_abs, ← mul_pow]; exact pow_le_pow_left₀ (abs_nonneg _) h1 2
    have h4 : (p v - i v) ^ 2 ≤ (1 + δ) * ((p v - i v) ^ 2 / i v) * q v := by
      have h5 : i v ≤ (1 + δ) * q v := by linarith [(abs_le.mp h1).2]
      calc (p v - i v) ^ 2 = (p v - i v) ^ 2 / i v * i v := by field_simp
        _ ≤ (p v - i v) ^ 2 / i v * ((1 + δ) * q v) := mul_le_mul_of_nonneg_left h5 (by positivity)
        _ = _ := by ring
    nlinarith
  have sb : HasSum (fun v => 1.5 * (1 + δ) * (p v ^ 2 / i v - 2 * p v + i v) + 3 * δ ^ 2 * q v)
      (1.5 * (1 + δ) * ((∑' v, p v ^ 2 / i v) - 2 * 1 + 1) + 3 * δ ^ 2 * 1) :=
    (((hS.hasSum.sub (hp.mul_left 2)).add hi).mul_left _).add (hq.mul_left _)
  have s1 : Summable fun v => (p v - q v) ^ 2 / q v :=
    Summable.of_nonneg_of_le (fun v => div_nonneg (sq_nonneg _) (q0 v).le) hb sb.summable
  have t1 : ∑' v, (p v - q v) ^ 2 / q v ≤ 1.5 * (1 + δ) * S + 3 * δ ^ 2 := by
    refine (s1.tsum_le_tsum hb sb.summable).trans ?_
    rw [sb.tsum_eq]
    have : 1.5 * (1 + δ) * ((∑' v, p v ^ 2 / i v) - 2 * 1 + 1) ≤ 1.5 * (1 + δ) * S :=
      mul_le_mul_of_nonneg_left (by linarith) (by linarith)
    linarith
  have e : ∀ v, p v ^ 2 / q v = (p v - q v) ^ 2 / q v + 2 * p v - q v := by
    intro v
    have := q0 v
    field_simp
    ring
  have s2 : HasSum (fun v => p v ^ 2 / q v) ((∑' v, (p v - q v) ^ 2 / q v) + 2 * 1 - 1) := by
    refine ((s1.hasSum.add (hp.mul_left 2)).sub hq).congr_fun ?_
    intro v
    exact e v
  refine ⟨s1, t1, s2.summable, ?_⟩
  rw [s2.tsum_eq]
  linarith

/-- The Cauchy-Schwarz inequality for sums. -/
theorem tsum_cs {ι : Type} {x q f : ι → ℝ} (q0 : ∀ v, 0 < q v) (h1 : Summable fun v => x v ^ 2 / q v) (h2 : Summable fun v => q v * f v ^ 2) :
    (Summable fun v => x v * f v) ∧ (∑' v, x v * f v) ^ 2 ≤ (∑' v, x v ^ 2 / q v) * ∑' v, q v * f v ^ 2 := by
  have hb : ∀ (t : ℝ) v, 0 ≤ x v ^ 2 / q v - t * (2 * (x v * f v)) + t ^ 2 * (q v * f v ^ 2) := by
    intro t v
    have := q0 v
    have e : x v ^ 2 / q v - t * (2 * (x v * f v)) + t ^ 2 * (q v * f v ^ 2) = (x v - t * (q v * f v)) ^ 2 / q v := by
      field_simp
      ring
    rw [e]
    positivity
  have hs : Summable fun v => x v * f v := by
    refine Summable.of_norm_bounded (g := fun v => x v ^ 2 / q v + q v * f v ^ 2) (h1.add h2) fun v => ?_
    rw [Real.norm_eq_abs, abs_le]
    have a1 := hb 1 v
    have a2 := hb (-1) v
    have b1 : 0 ≤ x v ^ 2 / q v := div_nonneg (sq_nonneg _) (q0 v).le
    have b2 : 0 ≤ q v * f v ^ 2 := mul_nonneg (q0 v).le (sq_nonneg _)
    constructor <;> linarith
  refine ⟨hs, ?_⟩
  have hq : ∀ t : ℝ, 0 ≤ (∑' v, x v ^ 2 / q v) - t * (2 * ∑' v, x v * f v) + t ^ 2 * ∑' v, q v * f v ^ 2 := by
    intro t
    have := ((h1.hasSum.sub ((hs.hasSum.mul_left 2).mul_left t)).add (h2.hasSum.mul_left (t ^ 2)))
    rw [← this.tsum_eq]
    exact tsum_nonneg (hb t)
  have hB : 0 ≤ ∑' v, q v * f v ^ 2 := tsum_nonneg fun v => mul_nonneg (q0 v).le (sq_nonneg _)
  have hA : 0 ≤ ∑' v, x v ^ 2 / q v := tsum_nonneg fun v => div_nonneg (sq_nonneg _) (q0 v).le
  generalize (∑' v, x v ^ 2 / q v) = A at *
  generalize (∑' v, q v * f v ^ 2) = B at *
  generalize (∑' v, x v * f v) = C at *
  rcases hB.eq_or_lt with h0 | h0
  · subst h0
    have : C = 0 := by
      by_contra hC
      have := hq ((A + 1) / (2 * C))
      rw [show (A + 1) / (2 * C) * (2 * C) = A + 1 by field_simp] at this
      linarith
    rw [this]
    simp
  · have := hq (C / B)
    have e : A - C / B * (2 * C) + (C / B) ^ 2 * B = (A * B - C ^ 2) / B := by field_simp; ring
    rw [e, le_div_iff₀ h0] at this
    linarith

/-! ## The sampler of the code without the bound on the number of attempts -/

/-- The probability that `samplerz` returns z, when it returns. -/
noncomputable def smpPr (sigmin mu sigma : ℝ) (z : ℤ) : ℝ :=
  if z - ⌊mu⌋ ∈ Win then szP false mu sigma sigmin (z - ⌊mu⌋) / szAcc false mu sigma sigmin else 0

/-- Its square over the ideal probability. -/
noncomputable def smpSq (sigmin mu sigma : ℝ) (z : ℤ) : ℝ :=
  smpPr sigmin mu sigma z ^ 2 / (gaussW mu sigma z / ∑' j : ℤ, gaussW mu sigma j)

theorem smpPr_nonneg (sigmin mu sigma : ℝ) (z : ℤ) : 0 ≤ smpPr sigmin mu sigma z := by
  unfold smpPr
  split
  · exact div_nonneg (szP_nonneg _) (Finset.sum_nonneg fun k _ => szP_nonneg k)
  · exact le_rfl

theorem smpSq_nonneg (sigmin mu sigma : ℝ) (z : ℤ) : 0 ≤ smpSq sigmin mu sigma z :=
  div_nonneg (sq_nonneg _) (div_nonneg (Real.exp_pos _).le (tsum_nonneg fun _ => (Real.exp_pos _).le))

theorem smp_win {sigmin mu sigma : ℝ} {z : ℤ} (h : smpPr sigmin mu sigma z ≠ 0) : |mu - z| ≤ 19 := by
  unfold smpPr at h
  split at h
  · rename_i hk
    obtain ⟨k0, k1⟩ := mem_Win.mp hk
    have k0' : (-18 : ℝ) ≤ z - ⌊mu⌋ := by exact_mod_cast k0
    have k1' : (z - ⌊mu⌋ : ℝ) ≤ 19 := by exact_mod_cast k1
    have f1 := Int.floor_le mu
    have f2 := Int.lt_floor_add_one mu
    rw [abs_le]
    constructor <;> linarith
  · exact absurd rfl h

/-- Sums over the answers of the sampler. -/
theorem hasSum_smp (sigmin mu sigma : ℝ) (F : ℤ → ℝ → ℝ) (hF : ∀ z, F z 0 = 0) :
    HasSum (fun z : ℤ => F z (smpPr sigmin mu sigma z))
      (∑ k ∈ Win, F (⌊mu⌋ + k) (szP false mu sigma sigmin k / szAcc false mu sigma sigmin)) := by
  rw [← (Equiv.addLeft ⌊mu⌋).hasSum_iff]
  have : (∑ k ∈ Win, F (⌊mu⌋ + k) (szP false mu sigma sigmin k / szAcc false mu sigma sigmin)) =
      ∑ k ∈ Win, ((fun z : ℤ => F z (smpPr sigmin mu sigma z)) ∘ Equiv.addLeft ⌊mu⌋) k := by
    refine Finset.sum_congr rfl fun k hk => ?_
    simp only [Function.comp, Equiv.coe_addLeft, smpPr, add_sub_cancel_left, if_pos hk]
  rw [this]
  refine hasSum_sum_of_ne_finset_zero fun k hk => ?_
  simp only [Function.comp, Equiv.coe_addLeft, smpPr, add_sub_cancel_left, if_neg hk, hF]

theorem smp_total {sigmin mu sigma : ℝ} (h : SzOk false mu sigma sigmin) : HasSum (smpPr sigmin mu sigma) 1 := by
  have h1 := hasSum_smp sigmin mu sigma (fun _ x => x) fun _ => rfl
  rw [← Finset.sum_div] at h1
  have h2 : (∑ k ∈ Win, szP false mu sigma sigmin k) = szAcc false mu sigma sigmin := rfl
  rw [h2, div_self (by linarith [szAcc_ge h])] at h1
  exact h1

theorem smp_chi {sigmin mu sigma : ℝ} (h : SzOk false mu sigma sigmin) (hlo : 1.27 ≤ sigmin) (hhi : sigma ≤ 1.82) :
    Summable (smpSq sigmin mu sigma) ∧ ∑' z, smpSq sigmin mu sigma z ≤ 1 + 1 / 2 ^ 77 := by
  have h1 := hasSum_smp sigmin mu sigma (fun z x => x ^ 2 / (gaussW mu sigma z / ∑' j : ℤ, gaussW mu sigma j)) fun z => by simp
  have hT : ∑' j : ℤ, gaussW mu sigma j = ∑' j : ℤ, gaussW (mu - ⌊mu⌋) sigma j := by
    rw [← (Equiv.addLeft ⌊mu⌋).tsum_eq]
    exact tsum_congr fun k => gaussW_floor mu sigma k
  simp only [gaussW_floor, hT] at h1
  have e : smpSq sigmin mu sigma = fun z => smpPr sigmin mu sigma z ^ 2 / (gaussW mu sigma z / ∑' j : ℤ, gaussW (mu - ⌊mu⌋) sigma j) := by
    funext z
    unfold smpSq
    rw [hT]
  have h2 := h1
  rw [← e] at h2
  exact ⟨h2.summable, h2.tsum_eq.trans_le (leaf_chi h hlo hhi)⟩

namespace OTree

variable {α : Type}

/-- Sum of `g` over the results, weighted with a function of the calls. -/
noncomputable def umean (u : ℝ → ℝ → ℤ → ℝ) : OTree α → (α → ℝ) → ℝ
  | ret a, g => g a
  | call mu sigma k, g => ∑' z : ℤ, u mu sigma z * umean u (k z) g

/-- The weights of every call reached sum to a number between A and B. -/
inductive Tame (u : ℝ → ℝ → ℤ → ℝ) (A B : ℝ) : OTree α → Prop
  | ret (a : α) : Tame u A B (ret a)
  | call (mu sigma : ℝ) (k : ℤ → OTree α) (hs : Summable (u mu sigma)) (hA : A ≤ ∑' z, u mu sigma z) (hB : ∑' z, u mu sigma z ≤ B)
    (hk : ∀ z, u mu sigma z ≠ 0 → Tame u A B (k z)) : Tame u A B (call mu sigma k)

/-- The product of the weights of the calls. -/
noncomputable def callU (u : ℝ → ℝ → ℤ → ℝ) (l : List Call) : ℝ := (l.map fun c => u c.mu c.sigma c.z).prod

theorem callU_nonneg {u : ℝ → ℝ → ℤ → ℝ} (u0 : ∀ mu s z, 0 ≤ u mu s z) (l : List Call) : 0 ≤ callU u l := List.prod_nonneg (by
  intro x hx
  obtain ⟨c, -, rfl⟩ := List.mem_map.mp hx
  exact u0 _ _ _)

theorem umean_tape {u : ℝ → ℝ → ℤ → ℝ} {A B : ℝ} (u0 : ∀ mu s z, 0 ≤ u mu s z) (A0 : 0 ≤ A) {P : OTree α} {d : ℕ} (hd : Depth P d)
    (hT : Tame u A B P) {g : α → ℝ} (g0 : ∀ a, 0 ≤ g a) (g1 : ∀ a, g a ≤ 1) :
    HasSum (fun v : Fin d → ℤ => callU u (walk P (tapeOf v) 0).2 * g (walk P (tapeOf v) 0).1) (umean u P g) ∧
      0 ≤ umean u P g ∧ umean u P g ≤ B ^ d ∧ ((∀ a, g a = 1) → A ^ d ≤ umean u P g) := by
  induction hd with
  | ret a =>
    refine ⟨?_, g0 a, by rw [pow_zero]; exact g1 a, fun h => by simp [umean, h]⟩
    simp [walk, callU, umean]
  | call mu sigma k d hd ih =>
    cases hT with
    | call _ _ _ hs hA hB hk =>
    let F : ℤ × (Fin d → ℤ) → ℝ := fun x => u mu sigma x.1 *
      (callU u (walk (k x.1) (tapeOf x.2) 0).2 * g (walk (k x.1) (tapeOf x.2) 0).1)
    have hF0 : 0 ≤ F := fun x => mul_nonneg (u0 _ _ _) (mul_nonneg (callU_nonneg u0 _) (g0 _))
    have hB0 : 0 ≤ B := (tsum_nonneg (u0 mu sigma)).trans hB
    have hfib : ∀ z, HasSum (fun v => F (z, v)) (u mu sigma z * umean u (k z) g) := by
      intro z
      by_cases hz : u mu sigma z = 0
      · simp only [F, hz, zero_mul]
        exact hasSum_zero
      · exact (ih z (hk z hz)).1.mul_left _
    have hlo : ∀ z, 0 ≤ u mu sigma z * umean u (k z) g := by
      intro z
      by_cases hz : u mu sigma z = 0
      · rw [hz, zero_mul]
      · exact mul_nonneg (u0 _ _ _) (ih z (hk z hz)).2.1
    have hhi : ∀ z, u mu sigma z * umean u (k z) g ≤ u mu sigma z * B ^ d := by
      intro z
      by_cases hz : u mu sigma z = 0
      · rw [hz, zero_mul, zero_mul]
      · exact mul_le_mul_of_nonneg_left (ih z (hk z hz)).2.2.1 (u0 _ _ _)
    have hsum : Summable fun z => u mu sigma z * umean u (k z) g := Summable.of_nonneg_of_le hlo hhi (hs.mul_right _)
    have hsF : Summable F := (summable_prod_of_nonneg hF0).mpr ⟨fun z => (hfib z).summable, by
      simp only [(hfib _).tsum_eq]
      exact hsum⟩
    have hFs : HasSum F (umean u (call mu sigma k) g) := by
      have h2 := hsF.hasSum
      rw [hsF.tsum_prod] at h2
      simp only [(hfib _).tsum_eq] at h2
      exact h2
    refine ⟨?_, tsum_nonneg hlo, ?_, fun h => ?_⟩
    · rw [← (Fin.consEquiv fun _ : Fin (d + 1) => ℤ).hasSum_iff]
      refine hFs.congr_fun ?_
      rintro ⟨z, v⟩
      show callU u (walk (call mu sigma k) (tapeOf (Fin.cons z v : Fin (d + 1) → ℤ)) 0).2 *
        g (walk (call mu sigma k) (tapeOf (Fin.cons z v : Fin (d + 1) → ℤ)) 0).1 = _
      rw [walk_cons]
      simp only [callU, List.map_cons, List.prod_cons, F]
      ring
    · calc umean u (call mu sigma k) g ≤ ∑' z, u mu sigma z * B ^ d := hsum.tsum_le_tsum hhi (hs.mul_right _)
        _ = (∑' z, u mu sigma z) * B ^ d := tsum_mul_right
        _ ≤ B * B ^ d := mul_le_mul_of_nonneg_right hB (pow_nonneg hB0 d)
        _ = B ^ (d + 1) := by ring
    · calc A ^ (d + 1) = A * A ^ d := by ring
        _ ≤ (∑' z, u mu sigma z) * A ^ d := mul_le_mul_of_nonneg_right hA (pow_nonneg A0 d)
        _ = ∑' z, u mu sigma z * A ^ d := tsum_mul_right.symm
        _ ≤ umean u (call mu sigma k) g := (hs.mul_right _).tsum_le_tsum (fun z => by
            by_cases hz : u mu sigma z = 0
            · rw [hz, zero_mul, zero_mul]
            · exact mul_le_mul_of_nonneg_left ((ih z (hk z hz)).2.2.2 h) (u0 _ _ _)) hsum

theorem tame_of {u : ℝ → ℝ → ℤ → ℝ} {A B : ℝ} {Qs Qm : ℝ → Prop} {P : OTree α} (hS : AllS Qs P) (hM : NearM Qm P)
    (H : ∀ mu sigma, Qm mu → Qs sigma → Summable (u mu sigma) ∧ A ≤ ∑' z, u mu sigma z ∧ ∑' z, u mu sigma z ≤ B ∧
      ∀ z : ℤ, u mu sigma z ≠ 0 → |mu - z| ≤ 19) : Tame u A B P := by
  induction hS with
  | ret a => exact .ret a
  | call mu sigma k hs _ ih =>
    cases hM with
    | call _ _ _ hm hMk =>
    obtain ⟨h1, h2, h3, h4⟩ := H mu sigma hm hs
    exact .call _ _ _ h1 h2 h3 fun z hz => ih z (hMk z (h4 z hz))

theorem szOk_of {n : ℕ} (hn : ValidLog n) {mu sigma : ℝ} (hm : |mu| ≤ 2 ^ 31 - 100) (hs : sigmaMin n ≤ sigma ∧ sigma ≤ 182 / 100) :
    SzOk false mu sigma (sigmaMin n) := by
  have hmin := (keyOk_bounds hn).1
  have hmm := abs_le.mp hm
  have f1 := Int.floor_le mu
  have f2 := Int.lt_floor_add_one mu
  have h2 : sigma ≤ sigmaMax := hs.2.trans (by rw [sigmaMax_eq]; norm_num)
  refine ⟨?_, ?_, hmin, hs.1, h2, szSafe_of (hmin.trans hs.1) h2 fun h => by cases h⟩
  · rw [Int.le_floor]; push_cast; norm_num at hmm ⊢; linarith
  · rw [Int.floor_lt]; push_cast; norm_num at hmm ⊢; linarith

theorem sigmaMin_127 {n : ℕ} (hn : ValidLog n) : 1.27 ≤ sigmaMin n := by
  rcases hn with rfl | rfl
  · rw [sigmaMin9_eq]; norm_num
  · rw [sigmaMin10_eq]; norm_num

theorem tame_smp {n : ℕ} (hn : ValidLog n) {P : OTree α} (hS : AllS (fun s => sigmaMin n ≤ s ∧ s ≤ 182 / 100) P)
    (hM : NearM (fun mu => |mu| ≤ 2 ^ 31 - 100) P) :
    Tame (smpPr (sigmaMin n)) 1 1 P ∧ Tame (smpSq (sigmaMin n)) 0 (1 + 1 / 2 ^ 77) P := by
  constructor
  · refine tame_of hS hM fun mu sigma hm hs => ?_
    have := smp_total (szOk_of hn hm hs)
    exact ⟨this.summable, this.tsum_eq.ge, this.tsum_eq.le, fun z => smp_win⟩
  · refine tame_of hS hM fun mu sigma hm hs => ?_
    obtain ⟨h1, h2⟩ := smp_chi (szOk_of hn hm hs) (sigmaMin_127 hn) (hs.2.trans (by norm_num))
    exact ⟨h1, tsum_nonneg (smpSq_nonneg _ _ _), h2, fun z hz => smp_win (sigmin := sigmaMin n) (sigma := sigma) fun h => hz (by simp [smpSq, h])⟩

/-- The bound on the number of attempts. -/
theorem ctree_umean {n : ℕ} (hn : ValidLog n) (m : ℕ) {P : OTree α} {d : ℕ} (hd : Depth P d)
    (hS : AllS (fun s => sigmaMin n ≤ s ∧ s ≤ 182 / 100) P) (hM : NearM (fun mu => |mu| ≤ 2 ^ 31 - 100) P)
    {G : Option (Except UB α) → ℝ} (hGn : G none = 0) (hG0 : ∀ a, 0 ≤ G (some (.ok a))) (hG1 : ∀ a, G (some (.ok a)) ≤ 1) :
    umean (smpPr (sigmaMin n)) P (fun a => G (some (.ok a))) - d * (1 / 2 ^ m) ≤ (ctree false (sigmaMin n) m P).mean G ∧
    (ctree false (sigmaMin n) m P).mean G ≤ umean (smpPr (sigmaMin n)) P (fun a => G (some (.ok a))) ∧
    0 ≤ (ctree false (sigmaMin n) m P).mean G := by
  induction hd with
  | ret a => simpa [ctree, BTree.mean, umean] using hG0 a
  | call mu sigma k d hd ih =>
    cases hS with
    | call _ _ _ hs hSk =>
    cases hM with
    | call _ _ _ hm hMk =>
    have hok := szOk_of hn hm hs
    have ih' := fun (j : ℤ) (hj : j ∈ Win) => ih (⌊mu⌋ + j) (hSk _) (hMk _ (by
      obtain ⟨k0, k1⟩ := mem_Win.mp hj
      have k0' : (-18 : ℝ) ≤ j := by exact_mod_cast k0
      have k1' : (j : ℝ) ≤ 19 := by exact_mod_cast k1
      have f1 := Int.floor_le mu
      have f2 := Int.lt_floor_add_one mu
      rw [abs_le]
      push_cast
      constructor <;> linarith))
    have hub := fun (j : ℤ) (hj : j ∈ Win) => (umean_tape (smpPr_nonneg _) zero_le_one (hd (⌊mu⌋ + j)) (tame_smp hn (hSk (⌊mu⌋ + j)) (hMk _ (by
      obtain ⟨k0, k1⟩ := mem_Win.mp hj
      have k0' : (-18 : ℝ) ≤ j := by exact_mod_cast k0
      have k1' : (j : ℝ) ≤ 19 := by exact_mod_cast k1
      have f1 := Int.floor_le mu
      have f2 := Int.lt_floor_add_one mu
      rw [abs_le]
      push_cast
      constructor <;> linarith))).1 (g := fun a => G (some (.ok a))) hG0 hG1).2.2.1
    have eU : umean (smpPr (sigmaMin n)) (call mu sigma k) (fun a => G (some (.ok a))) =
        ∑ j ∈ Win, szP false mu sigma (sigmaMin n) j / szAcc false mu sigma (sigmaMin n) *
          umean (smpPr (sigmaMin n)) (k (⌊mu⌋ + j)) (fun a => G (some (.ok a))) :=
      (hasSum_smp (sigmaMin n) mu sigma (fun z x => x * umean (smpPr (sigmaMin n)) (k z) (fun a => G (some (.ok a)))) fun z => by simp).tsum_eq
    have eC : (ctree false (sigmaMin n) m (call mu sigma k)).mean G =
        (∑ i ∈ Finset.range m, (1 - szAcc false mu sigma (sigmaMin n)) ^ i) *
          ∑ j ∈ Win, szP false mu sigma (sigmaMin n) j * (ctree false (sigmaMin n) m (k (⌊mu⌋ + j))).mean G := by
      rw [ctree, BTree.mean_bind, mean_smpTree hok]
      simp only [BTree.mean, hGn, mul_zero, add_zero]
    have hA := szAcc_ge hok
    have hA1 := szAcc_le_one hok
    have eG : (∑ i ∈ Finset.range m, (1 - szAcc false mu sigma (sigmaMin n)) ^ i) =
        (1 - (1 - szAcc false mu sigma (sigmaMin n)) ^ m) / szAcc false mu sigma (sigmaMin n) := by
      rw [eq_div_iff (by linarith)]
      have := geom_sum_mul_neg (1 - szAcc false mu sigma (sigmaMin n)) m
      rwa [sub_sub_cancel] at this
    have hp : (1 - szAcc false mu sigma (sigmaMin n)) ^ m ≤ 1 / 2 ^ m := by
      calc _ ≤ (1 / 2 : ℝ) ^ m := pow_le_pow_left₀ (by linarith) (by linarith) m
        _ = _ := by rw [div_pow, one_pow]
    have hp0 : 0 ≤ (1 - szAcc false mu sigma (sigmaMin n)) ^ m := pow_nonneg (by linarith) m
    have hsumP : ∑ j ∈ Win, szP false mu sigma (sigmaMin n) j / szAcc false mu sigma (sigmaMin n) = 1 := by
      rw [← Finset.sum_div]
      exact div_self (by linarith : szAcc false mu sigma (sigmaMin n) ≠ 0)
    have eC2 : (ctree false (sigmaMin n) m (call mu sigma k)).mean G =
        (1 - (1 - szAcc false mu sigma (sigmaMin n)) ^ m) *
          ∑ j ∈ Win, szP false mu sigma (sigmaMin n) j / szAcc false mu sigma (sigmaMin n) *
            (ctree false (sigmaMin n) m (k (⌊mu⌋ + j))).mean G := by
      rw [eC, eG, div_mul_eq_mul_div, mul_div_assoc, Finset.sum_div]
      congr 1
      exact Finset.sum_congr rfl fun j _ => by ring
    have hw : ∀ j, 0 ≤ szP false mu sigma (sigmaMin n) j / szAcc false mu sigma (sigmaMin n) := fun j =>
      div_nonneg (szP_nonneg _) (by linarith)
    have hC0 : 0 ≤ ∑ j ∈ Win, szP false mu sigma (sigmaMin n) j / szAcc false mu sigma (sigmaMin n) *
            (ctree false (sigmaMin n) m (k (⌊mu⌋ + j))).mean G := Finset.sum_nonneg fun j hj => mul_nonneg (hw j) (ih' j hj).2.2
    have hCU : ∑ j ∈ Win, szP false mu sigma (sigmaMin n) j / szAcc false mu sigma (sigmaMin n) *
            (ctree false (sigmaMin n) m (k (⌊mu⌋ + j))).mean G ≤ ∑ j ∈ Win, szP false mu sigma (sigmaMin n) j / szAcc false mu sigma (sigmaMin n) *
          umean (smpPr (sigmaMin n)) (k (⌊mu⌋ + j)) (fun a => G (some (.ok a))) :=
      Finset.sum_le_sum fun j hj => mul_le_mul_of_nonneg_left (ih' j hj).2.1 (hw j)
    have hCL : (∑ j ∈ Win, szP false mu sigma (sigmaMin n) j / szAcc false mu sigma (sigmaMin n) *
          umean (smpPr (sigmaMin n)) (k (⌊mu⌋ + j)) (fun a => G (some (.ok a)))) - d * (1 / 2 ^ m) ≤
        ∑ j ∈ Win, szP false mu sigma (sigmaMin n) j / szAcc false mu sigma (sigmaMin n) *
            (ctree false (sigmaMin n) m (k (⌊mu⌋ + j))).mean G := by
      have : (d * (1 / 2 ^ m) : ℝ) = ∑ j ∈ Win, szP false mu sigma (sigmaMin n) j / szAcc false mu sigma (sigmaMin n) * (d * (1 / 2 ^ m)) := by
        rw [← Finset.sum_mul, hsumP, one_mul]
      rw [this, ← Finset.sum_sub_distrib]
      refine Finset.sum_le_sum fun j hj => ?_
      rw [← mul_sub]
      exact mul_le_mul_of_nonneg_left (ih' j hj).1 (hw j)
    have hC1 : ∑ j ∈ Win, szP false mu sigma (sigmaMin n) j / szAcc false mu sigma (sigmaMin n) *
            (ctree false (sigmaMin n) m (k (⌊mu⌋ + j))).mean G ≤ 1 := by
      rw [← hsumP]
      refine Finset.sum_le_sum fun j hj => mul_le_of_le_one_right (hw j) ((ih' j hj).2.1.trans ?_)
      simpa using hub j hj
    rw [eC2, eU]
    generalize (∑ j ∈ Win, szP false mu sigma (sigmaMin n) j / szAcc false mu sigma (sigmaMin n) *
            (ctree false (sigmaMin n) m (k (⌊mu⌋ + j))).mean G) = X at *
    generalize (∑ j ∈ Win, szP false mu sigma (sigmaMin n) j / szAcc false mu sigma (sigmaMin n) *
          umean (smpPr (sigmaMin n)) (k (⌊mu⌋ + j)) (fun a => G (some (.ok a)))) = Y at *
    have hp1 : (1 - szAcc false mu sigma (sigmaMin n)) ^ m ≤ 1 := pow_le_one₀ (by linarith) (by linarith)
    generalize (1 - szAcc false mu sigma (sigmaMin n)) ^ m = ε at *
    refine ⟨?_, ?_, mul_nonneg (by linarith) hC0⟩
    · push_cast
      nlinarith
    · nlinarith

/-- Answers of the code against ideal answers, over tapes. -/
theorem tape_chi {n : ℕ} (hn : ValidLog n) {P : OTree α} {d : ℕ} (hd : Depth P d)
    (hS : AllS (fun s => sigmaMin n ≤ s ∧ s ≤ 182 / 100) P) (hM : NearM (fun mu => |mu| ≤ 2 ^ 31 - 100) P) :
    HasSum (fun v : Fin d → ℤ => callU (smpPr (sigmaMin n)) (walk P (tapeOf v) 0).2) 1 ∧
    (Summable fun v : Fin d → ℤ => callU (smpPr (sigmaMin n)) (walk P (tapeOf v) 0).2 ^ 2 / callPr (walk P (tapeOf v) 0).2) ∧
    ∑' v : Fin d → ℤ, callU (smpPr (sigmaMin n)) (walk P (tapeOf v) 0).2 ^ 2 / callPr (walk P (tapeOf v) 0).2 ≤ (1 + 1 / 2 ^ 77) ^ d := by
  obtain ⟨t1, t2⟩ := tame_smp hn hS hM
  have h1 := umean_tape (smpPr_nonneg _) zero_le_one hd t1 (g := fun _ => 1) (fun _ => zero_le_one) (fun _ => le_rfl)
  have h2 := umean_tape (smpSq_nonneg _) le_rfl hd t2 (g := fun _ => 1) (fun _ => zero_le_one) (fun _ => le_rfl)
  have e1 : umean (smpPr (sigmaMin n)) P (fun _ => 1) = 1 := by
    have a := h1.2.2.1
    have b := h1.2.2.2 fun _ => rfl
    rw [one_pow] at a b
    exact le_antisymm a b
  have ec : ∀ l : List Call, callU (smpSq (sigmaMin n)) l = callU (smpPr (sigmaMin n)) l ^ 2 / callPr l := by
    intro l
    induction l with
    | nil => simp [callU, callPr]
    | cons c l ih =>
      have a1 : ∀ u : ℝ → ℝ → ℤ → ℝ, callU u (c :: l) = u c.mu c.sigma c.z * callU u l := fun u => by simp [callU]
      have a2 : callPr (c :: l) = gaussW c.mu c.sigma c.z / (∑' j : ℤ, gaussW c.mu c.sigma j) * callPr l := by simp [callPr]
      rw [a1, a1, a2, ih, smpSq, mul_pow, div_mul_div_comm]
  simp only [mul_one] at h1 h2
  rw [e1] at h1
  simp only [ec] at h2
  exact ⟨h1.1, h2.1.summable, h2.1.tsum_eq.trans_le h2.2.2.1⟩

end OTree

end Falcon
