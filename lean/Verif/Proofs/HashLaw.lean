import Verif.Proofs.ByteTree
import Verif.Proofs.Verify
import Verif.Props.Hash

/-! # The distribution of the hashed point over uniform XOF output -/

namespace Falcon

open BTree

namespace BTree

/-- Read `M` words and keep the accepted ones. -/
def accT : ℕ → BTree (List ℕ)
  | 0 => .ret []
  | M + 1 => .read fun a => .read fun b => (accT M).bind fun l =>
    .ret (if 256 * a.toNat + b.toNat < 61445 then (256 * a.toNat + b.toNat) :: l else l)

theorem depth_accT (M : ℕ) : (accT M).Depth (2 * M) := by
  induction M with
  | zero => exact .ret _ _
  | succ M ih =>
    exact .read _ (2 * M + 1) fun a => .read _ (2 * M) fun b => Depth.bind (m := 0) ih fun _ => .ret _ _

end BTree

theorem accepted_cons (st : ℕ → UInt8) (M : ℕ) :
    accepted st (M + 1) = if wordAt st 0 < 61445 then wordAt st 0 :: accepted (fun i => st (2 + i)) M
      else accepted (fun i => st (2 + i)) M := by
  unfold accepted
  rw [List.range_succ_eq_map, List.map_cons, List.map_map, List.filter_cons]
  have : (wordAt st ∘ Nat.succ) = wordAt (fun i => st (2 + i)) := by
    funext j
    simp only [Function.comp, wordAt]
    rw [show 2 * Nat.succ j = 2 + 2 * j by omega, show 2 + 2 * j + 1 = 2 + (2 * j + 1) by omega]
  rw [this]
  simp only [decide_eq_true_eq]

theorem run_accT (M : ℕ) (st : ℕ → UInt8) (p : ℕ) : (run (accT M) st p).1 = accepted (fun i => st (p + i)) M := by
  induction M generalizing p with
  | zero => rfl
  | succ M ih =>
    rw [accepted_cons]
    simp only [accT, run, run_bind, ih]
    have : wordAt (fun i => st (p + i)) 0 = 256 * (st p).toNat + (st (p + 1)).toNat := rfl
    rw [this]
    have e : ∀ i, p + 1 + 1 + i = p + (2 + i) := fun i => by omega
    simp only [e]

theorem sum_words (F : ℕ → ℝ) : ∑ a : UInt8, ∑ b : UInt8, F (256 * a.toNat + b.toNat) = ∑ w ∈ Finset.range 65536, F w := by
  have e : ∀ G : ℕ → ℝ, ∑ b : UInt8, G b.toNat = ∑ i : Fin 256, G i := fun G =>
    Fintype.sum_equiv (⟨fun x => ⟨x.toNat, x.toNat_lt⟩, fun x => UInt8.ofNat x.1, fun x => UInt8.ofNat_toNat,
      fun x => Fin.ext (by show (UInt8.ofNat x.1).toNat = x.1; rw [UInt8.toNat_ofNat']; omega)⟩ : UInt8 ≃ Fin 256) _ _ fun x => rfl
  have e2 : ∀ a : UInt8, ∑ b : UInt8, F (256 * a.toNat + b.toNat) = ∑ i : Fin 256, F (256 * a.toNat + i) := fun a => e fun b => F (256 * a.toNat + b)
  simp only [e2]
  rw [e fun a => ∑ i : Fin 256, F (256 * a + i)]
  rw [Finset.sum_range, ← Fintype.sum_prod_type']
  refine Fintype.sum_equiv (finProdFinEquiv (m := 256) (n := 256)) _ _ fun x => ?_
  obtain ⟨a, b⟩ := x
  show F (256 * a.1 + b.1) = F ((finProdFinEquiv (a, b)).1)
  rw [finProdFinEquiv_apply_val]
  congr 1
  simp only
  ring

/-- One word: accepted with a given residue, accepted, rejected. -/
theorem mean_accT_succ (M : ℕ) (g : List ℕ → ℝ) :
    (accT (M + 1)).mean g = (∑ w ∈ Finset.range 65536, (accT M).mean fun l => g (if w < 61445 then w :: l else l)) / 65536 := by
  simp only [accT, mean, mean_bind]
  rw [← sum_words fun w => (accT M).mean fun l => g (if w < 61445 then w :: l else l), ← Finset.sum_div, div_div]
  norm_num

/-- The first k accepted words reduce to c. -/
def Hits (k : ℕ) (c : ℕ → ℕ) (l : List ℕ) : Prop := k ≤ l.length ∧ ∀ i, i < k → l.getD i 0 % 12289 = c i

theorem hits_cons (k : ℕ) (c : ℕ → ℕ) (w : ℕ) (l : List ℕ) :
    Hits (k + 1) c (w :: l) ↔ w % 12289 = c 0 ∧ Hits k (fun i => c (i + 1)) l := by
  unfold Hits
  constructor
  · rintro ⟨h1, h2⟩
    refine ⟨h2 0 (by omega), by simpa using h1, fun i hi => ?_⟩
    have := h2 (i + 1) (by omega)
    rwa [List.getD_cons_succ] at this
  · rintro ⟨h0, h1, h2⟩
    refine ⟨by simpa using h1, fun i hi => ?_⟩
    cases i with
    | zero => exact h0
    | succ i => rw [List.getD_cons_succ]; exact h2 i (by omega)

theorem card_rej : ((Finset.range 65536).filter fun w => ¬ w < 61445).card = 4091 := by
  have : (Finset.range 65536).filter (fun w => ¬ w < 61445) = (Finset.range 4091).image (fun k => k + 61445) := by
    ext w
    simp only [Finset.mem_filter, Finset.mem_range, Finset.mem_image]
    constructor
    · rintro ⟨h1, h2⟩
      exact ⟨w - 61445, by omega, by omega⟩
    · rintro ⟨k, hk, rfl⟩
      omega
  rw [this, Finset.card_image_of_injective _ (fun a b h => by simpa using h), Finset.card_range]

open Classical in
theorem mean_hits (M : ℕ) : ∀ (k : ℕ) (c : ℕ → ℕ), (∀ i, i < k → c i < 12289) →
    (accT M).mean (fun l => if Hits k c l then 1 else 0) * 12289 ^ k = (accT M).mean fun l => if k ≤ l.length then 1 else 0 := by
  induction M with
  | zero =>
    intro k c hc
    simp only [accT, mean]
    cases k with
    | zero => simp [Hits]
    | succ k => simp [Hits]
  | succ M ih =>
    intro k c hc
    cases k with
    | zero =>
      have : ∀ l, Hits 0 c l := fun l => ⟨Nat.zero_le _, fun i hi => by omega⟩
      simp [this]
    | succ k =>
      rw [mean_accT_succ, mean_accT_succ]
      have i1 := ih k (fun i => c (i + 1)) fun i hi => hc _ (by omega)
      have i2 := ih (k + 1) c hc
      have e1 : ∀ w, (accT M).mean (fun l => if Hits (k + 1) c (if w < 61445 then w :: l else l) then (1 : ℝ) else 0) =
          (if w < 61445 ∧ w % 12289 = c 0 then (accT M).mean (fun l => if Hits k (fun i => c (i + 1)) l then (1 : ℝ) else 0) else 0) +
          (if ¬ w < 61445 then (accT M).mean (fun l => if Hits (k + 1) c l then (1 : ℝ) else 0) else 0) := fun w => by
        by_cases hw : w < 61445
        · have e : ∀ l, (if Hits (k + 1) c (if w < 61445 then w :: l else l) then (1 : ℝ) else 0) =
              if w % 12289 = c 0 ∧ Hits k (fun i => c (i + 1)) l then 1 else 0 := fun l => by
            have := hits_cons k c w l
            rw [if_pos hw]
            exact if_congr this rfl rfl
          simp only [e]
          simp only [hw, true_and, not_true, if_false, add_zero]
          by_cases h0 : w % 12289 = c 0
          · simp only [h0, true_and, if_true]
          · simp only [h0, false_and, if_false, mean_const]
        · simp [if_neg hw, hw]
      have e2 : ∀ w, (accT M).mean (fun l => if k + 1 ≤ (if w < 61445 then w :: l else l).length then (1 : ℝ) else 0) =
          (if w < 61445 then (accT M).mean (fun l => if k ≤ l.length then (1 : ℝ) else 0) else 0) +
          (if ¬ w < 61445 then (accT M).mean (fun l => if k + 1 ≤ l.length then (1 : ℝ) else 0) else 0) := fun w => by
        by_cases hw : w < 61445
        · simp [if_pos hw, hw]
        · simp [if_neg hw, hw]
      simp only [e1, e2, Finset.sum_add_distrib, ← Finset.sum_filter, Finset.sum_const, nsmul_eq_mul, card_rej,
        C25_no_bias (c 0) (hc 0 (by omega))]
      have c2 : ((Finset.range 65536).filter fun w => w < 61445).card = 61445 := by
        have : (Finset.range 65536).filter (fun w => w < 61445) = Finset.range 61445 := by
          ext w; simp only [Finset.mem_filter, Finset.mem_range]; omega
        rw [this, Finset.card_range]
      rw [c2, ← i1, ← i2, pow_succ]
      push_cast
      ring

/-- Chernoff bound with base 2 for the number of accepted words. -/
theorem mean_short (M : ℕ) : ∀ k, (accT M).mean (fun l => if k ≤ l.length then (0 : ℝ) else 1) ≤ 2 ^ k * (69627 / 131072) ^ M := by
  induction M with
  | zero =>
    intro k
    simp only [accT, mean]
    split
    · positivity
    · have : (1 : ℝ) ≤ 2 ^ k := one_le_pow₀ (by norm_num)
      simpa using this
  | succ M ih =>
    intro k
    cases k with
    | zero =>
      simp only [Nat.zero_le, if_true, mean_const]
      positivity
    | succ k =>
      rw [mean_accT_succ]
      have e2 : ∀ w, (accT M).mean (fun l => if k + 1 ≤ (if w < 61445 then w :: l else l).length then (0 : ℝ) else 1) =
          (if w < 61445 then (accT M).mean (fun l => if k ≤ l.length then (0 : ℝ) else 1) else 0) +
          (if ¬ w < 61445 then (accT M).mean (fun l => if k + 1 ≤ l.length then (0 : ℝ) else 1) else 0) := fun w => by
        by_cases hw : w < 61445
        · simp [if_pos hw, hw]
        · simp [if_neg hw, hw]
      have c2 : ((Finset.range 65536).filter fun w => w < 61445).card = 61445 := by
        have : (Finset.range 65536).filter (fun w => w < 61445) = Finset.range 61445 := by
          ext w; simp only [Finset.mem_filter, Finset.mem_range]; omega
        rw [this, Finset.card_range]
      simp only [e2, Finset.sum_add_distrib, ← Finset.sum_filter, Finset.sum_const, nsmul_eq_mul, card_rej, c2]
      have i1 := ih k
      have i2 := ih (k + 1)
      rw [pow_succ] at i2 ⊢
      rw [pow_succ (69627 / 131072 : ℝ)]
      generalize (69627 / 131072 : ℝ) ^ M = y at *
      generalize (2 : ℝ) ^ k = x at *
      rw [div_le_iff₀ (by norm_num)]
      push_cast
      nlinarith

end Falcon
