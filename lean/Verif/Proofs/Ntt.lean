import Verif.Proofs.RingTransform
import Verif.Proofs.Ff

/-!
# The number theoretic transform of the code
-/

namespace Falcon

open Finset Polynomial

theorem downLayer_congr {α : Type} {n l : ℕ} (hl : l < n)
    {s1 s2 : (k len i : ℕ) → Mem α → Mem α}
    (h : ∀ k len i a, 0 < len → s1 k len i a = s2 k len i a) (a : Mem α) :
    downLayer n l s1 a = downLayer n l s2 a := by
  rw [downLayer_eq hl, downLayer_eq hl]
  exact loop_congr (fun b _ t => loop_congr (fun i _ t => h _ _ _ _ (by positivity)))

theorem downLayers_congr {α : Type} {n : ℕ} {s1 s2 : (k len i : ℕ) → Mem α → Mem α}
    (h : ∀ k len i a, 0 < len → s1 k len i a = s2 k len i a) (a : Mem α) :
    downLayers n s1 a = downLayers n s2 a := by
  unfold downLayers
  exact loop_congr (fun j hj t => downLayer_congr (by omega) h t)

theorem upLayer_congr {α : Type} {n l : ℕ} (hl : l < n)
    {s1 s2 : (k len i : ℕ) → Mem α → Mem α}
    (h : ∀ k len i a, 0 < len → s1 k len i a = s2 k len i a) (a : Mem α) :
    upLayer n l s1 a = upLayer n l s2 a := by
  rw [upLayer_eq hl, upLayer_eq hl]
  exact loop_congr (fun b _ t => loop_congr (fun i _ t => h _ _ _ _ (by positivity)))

theorem upLayers_congr {α : Type} {n : ℕ} {s1 s2 : (k len i : ℕ) → Mem α → Mem α}
    (h : ∀ k len i a, 0 < len → s1 k len i a = s2 k len i a) (a : Mem α) :
    upLayers n s1 a = upLayers n s2 a := by
  unfold upLayers
  exact loop_congr (fun j hj t => upLayer_congr (by omega) h t)

/-- Pointwise in-place loop. -/
theorem loop_map {α : Type} (n : ℕ) (f : ℕ → α → α) (a : Mem α) (j : ℕ) :
    loop n (fun i a => upd a i (f i (a i))) a j = if j < n then f j (a j) else a j := by
  induction n with
  | zero => simp
  | succ n ih =>
    rw [loop_succ]
    have hself : loop n (fun i a => upd a i (f i (a i))) a n = a n := by
      have : ∀ m, ∀ j, m ≤ j → loop m (fun i a => upd a i (f i (a i))) a j = a j := by
        intro m
        induction m with
        | zero => intro j _; rfl
        | succ m ihm =>
          intro j hj
          rw [loop_succ, upd_ne _ _ _ _ (by omega), ihm j (by omega)]
      exact this n n le_rfl
    by_cases h : j = n
    · subst h; simp [hself]
    · rw [upd_ne _ _ _ _ h, ih]
      by_cases h2 : j < n
      · simp [h2, Nat.lt_succ_of_lt h2]
      · simp [h2, show ¬ j < n + 1 by omega]

/-- Pointwise loop into another buffer. -/
theorem loop_fill {α : Type} (n : ℕ) (f : ℕ → α) (a : Mem α) (j : ℕ) :
    loop n (fun i a => upd a i (f i)) a j = if j < n then f j else a j :=
  loop_map n (fun i _ => f i) a j

def nttBf (n : ℕ) (k : ℕ) (x y : Ff) : Ff × Ff :=
  (Ff.addAssign x (Ff.mul (powersOfZeta n k) y), Ff.sub x (Ff.mul (powersOfZeta n k) y))

def inttBf (n : ℕ) (k : ℕ) (x y : Ff) : Ff × Ff :=
  (Ff.addAssign x y, Ff.mulAssign (Ff.sub x y) (negPowersOfZeta n k))

theorem nttStep_eq (n k len i : ℕ) (a : Mem Ff) (h : 0 < len) :
    nttStep n k len i a = bfStep (nttBf n) k len i a := by
  unfold nttStep bfStep nttBf
  simp only
  rw [upd_ne a (i + len) i _ (by omega)]

theorem inttStep_eq (n k len i : ℕ) (a : Mem Ff) (h : 0 < len) :
    inttStep n k len i a = bfStep (inttBf n) k len i a := by
  unfold inttStep bfStep inttBf
  simp only [upd_same]
  rw [upd_ne a i (i + len) _ (by omega)]
  funext j
  unfold upd
  by_cases h1 : j = i + len
  · subst h1; simp [show ¬ len = 0 by omega]
  · simp [h1]

theorem zeta_spec {n : ℕ} (hn : ValidLog n) :
    (nttZeta n).Canonical ∧ (nttZeta n).val ^ (2 ^ n) = -1 := by
  rcases hn with rfl | rfl
  · have hc : (nttZeta 9).Canonical := by unfold Ff.Canonical; decide +kernel
    refine ⟨hc, ?_⟩
    rw [← (Ff.pow_spec hc _).2, show Ff.pow (nttZeta 9) (2 ^ 9) = ⟨12288⟩ by decide +kernel]
    decide +kernel
  · have hc : (nttZeta 10).Canonical := by unfold Ff.Canonical; decide +kernel
    refine ⟨hc, ?_⟩
    rw [← (Ff.pow_spec hc _).2, show Ff.pow (nttZeta 10) (2 ^ 10) = ⟨12288⟩ by decide +kernel]
    decide +kernel

/-- The table over Z_q. -/
def zT (n : ℕ) (k : ℕ) : Zq := (nttZeta n).val ^ brv n k

theorem powers_spec {n : ℕ} (hn : ValidLog n) (k : ℕ) :
    (powersOfZeta n k).Canonical ∧ (powersOfZeta n k).val = zT n k := by
  unfold powersOfZeta zT
  have := Ff.pow_spec (zeta_spec hn).1 (bitRev n k)
  rw [bitRev_eq] at this ⊢
  exact this

theorem negPowers_spec {n : ℕ} (hn : ValidLog n) (k : ℕ) :
    (negPowersOfZeta n k).Canonical ∧ (negPowersOfZeta n k).val = -zT n k := by
  unfold negPowersOfZeta
  have h := powers_spec hn k
  have := Ff.neg_spec h.1
  rw [h.2] at this
  exact this

theorem zT_table {n : ℕ} (hn : ValidLog n) : RootTable n (zT n) :=
  rootTable_of_pow (by rcases hn with rfl | rfl <;> norm_num) _ (zeta_spec hn).2

theorem two_unit : IsUnit (2 : Zq) :=
  IsUnit.mk0 _ (by decide +kernel)

theorem invN_spec {n : ℕ} (hn : ValidLog n) :
    (invN n).Canonical ∧ (invN n).val * 2 ^ n = 1 := by
  unfold invN
  have h1 := Ff.ofU16_spec (UInt16.ofNat (1 <<< n))
  have h2 := Ff.inv_spec h1.1.fits
  refine ⟨h2.1, ?_⟩
  rw [h2.2, h1.2]
  rcases hn with rfl | rfl <;> decide +kernel

/-! ### Transfer to Z_q -/

def RFits (x : Ff) (X : Zq) : Prop := x.Fits14 ∧ x.val = X
def RCanon (x : Ff) (X : Zq) : Prop := x.Canonical ∧ x.val = X

theorem nttBf_fits {n : ℕ} (hn : ValidLog n) (k : ℕ) (x : Ff) (X : Zq) (y : Ff) (Y : Zq)
    (hx : RFits x X) (hy : RFits y Y) :
    RFits (nttBf n k x y).1 (ctBf (zT n) k X Y).1 ∧ RFits (nttBf n k x y).2 (ctBf (zT n) k X Y).2 := by
  have hz := powers_spec hn k
  have hm := Ff.mul_spec hz.1.fits hy.1
  have h1 := Ff.addAssign_spec hx.1 hm.1
  have h2 := Ff.sub_spec hx.1 hm.1
  rw [hm.2, hz.2, hx.2, hy.2] at h1 h2
  dsimp only [RFits, nttBf, ctBf]
  exact ⟨h1, h2.1.fits, h2.2⟩

theorem nttBf_canon {n : ℕ} (hn : ValidLog n) (k : ℕ) (x : Ff) (X : Zq) (y : Ff) (Y : Zq)
    (hx : RCanon x X) (hy : RCanon y Y) :
    RCanon (nttBf n k x y).1 (ctBf (zT n) k X Y).1 ∧ RCanon (nttBf n k x y).2 (ctBf (zT n) k X Y).2 := by
  have hz := powers_spec hn k
  have hm := Ff.mul_spec hz.1.fits hy.1.fits
  have h0 := Ff.addAssign_canon hx.1 hm.1
  have h1 := Ff.addAssign_spec hx.1.fits hm.1
  have h2 := Ff.sub_spec hx.1.fits hm.1
  rw [hm.2, hz.2, hx.2, hy.2] at h1 h2
  dsimp only [RCanon, nttBf, ctBf]
  exact ⟨⟨h0, h1.2⟩, h2⟩

theorem inttBf_canon {n : ℕ} (hn : ValidLog n) (k : ℕ) (x : Ff) (X : Zq) (y : Ff) (Y : Zq)
    (hx : RCanon x X) (hy : RCanon y Y) :
    RCanon (inttBf n k x y).1 (gsBf (zT n) k X Y).1 ∧
    RCanon (inttBf n k x y).2 (gsBf (zT n) k X Y).2 := by
  have hz := negPowers_spec hn k
  have h0 := Ff.addAssign_canon hx.1 hy.1
  have h1 := Ff.addAssign_spec hx.1.fits hy.1
  have h2 := Ff.sub_spec hx.1.fits hy.1
  have hm := Ff.mul_spec h2.1.fits hz.1.fits
  rw [hx.2, hy.2] at h1 h2
  rw [h2.2, hz.2, ← Ff.mulAssign_eq h2.1.fits hz.1.fits] at hm
  dsimp only [RCanon, inttBf, gsBf]
  exact ⟨⟨h0, h1.2⟩, ⟨hm.1, hm.2⟩⟩

theorem CanonBelow.fits {N : ℕ} {a : Mem Ff} (h : CanonBelow N a) : FitsBelow N a :=
  fun j hj => (h j hj).fits

theorem ntt_eq (n : ℕ) (a : Mem Ff) : ntt n a = downLayers n (bfStep (nttBf n)) a :=
  downLayers_congr (nttStep_eq n) a

theorem ntt_val {n : ℕ} (hn : ValidLog n) {a : Mem Ff} (ha : FitsBelow (2 ^ n) a) (j : ℕ)
    (hj : j < 2 ^ n) :
    (ntt n a j).Fits14 ∧
    (ntt n a j).val = (toPoly (2 ^ n) (fun i => (a i).val)).eval (root (zT n) n j) := by
  rw [ntt_eq, toPoly_eval]
  have := downLayers_rel (R := RFits) n (bf := nttBf n) (bg := ctBf (zT n))
    (fun k _ x X y Y hx hy => nttBf_fits hn k x X y Y hx hy) (a := a) (b := fun i => (a i).val)
    (fun j hj => ⟨ha j hj, rfl⟩) j hj
  rw [← downLayers_eval (zT_table hn) _ j hj]
  exact this

theorem ntt_canon {n : ℕ} (hn : ValidLog n) {a : Mem Ff} (ha : CanonBelow (2 ^ n) a) :
    CanonBelow (2 ^ n) (ntt n a) := by
  intro j hj
  rw [ntt_eq]
  exact (downLayers_rel (R := RCanon) n (bf := nttBf n) (bg := ctBf (zT n))
    (fun k _ x X y Y hx hy => nttBf_canon hn k x X y Y hx hy) (a := a) (b := fun i => (a i).val)
    (fun j hj => ⟨ha j hj, rfl⟩) j hj).1

theorem ntt_frame (n : ℕ) (a : Mem Ff) (j : ℕ) (hj : 2 ^ n ≤ j) : ntt n a j = a j := by
  rw [ntt_eq]; exact downLayers_frame n _ a j hj

theorem intt_eq (n : ℕ) (a : Mem Ff) (j : ℕ) :
    intt n a j = if j < 2 ^ n then
      Ff.mulAssign (upLayers n (bfStep (inttBf n)) a j) (invN n)
      else upLayers n (bfStep (inttBf n)) a j := by
  unfold intt
  rw [upLayers_congr (inttStep_eq n) a, one_shiftLeft']
  exact loop_map _ (fun i x => Ff.mulAssign x (invN n)) _ j

theorem intt_frame (n : ℕ) (a : Mem Ff) (j : ℕ) (hj : 2 ^ n ≤ j) : intt n a j = a j := by
  rw [intt_eq, if_neg (by omega)]; exact upLayers_frame n _ a j hj

theorem intt_spec {n : ℕ} (hn : ValidLog n) {a : Mem Ff} (ha : CanonBelow (2 ^ n) a) {A : Mem Zq}
    (hA : ∀ j, j < 2 ^ n → (a j).val = A j) (j : ℕ) (hj : j < 2 ^ n) :
    (intt n a j).Canonical ∧
    (intt n a j).val = upLayers n (bfStep (gsBf (zT n))) A j * (invN n).val := by
  rw [intt_eq, if_pos hj]
  have h := upLayers_rel (R := RCanon) n (bf := inttBf n) (bg := gsBf (zT n))
    (fun k _ x X y Y hx hy => inttBf_canon hn k x X y Y hx hy) (a := a) (b := A)
    (fun j hj => ⟨ha j hj, hA j hj⟩) j hj
  have hi := invN_spec hn
  have hm := Ff.mul_spec h.1.fits hi.1.fits
  rw [Ff.mulAssign_eq h.1.fits hi.1.fits]
  refine ⟨hm.1, ?_⟩
  rw [hm.2, h.2]

theorem intt_canon {n : ℕ} (hn : ValidLog n) {a : Mem Ff} (ha : CanonBelow (2 ^ n) a) :
    CanonBelow (2 ^ n) (intt n a) :=
  fun j hj => (intt_spec hn ha (A := fun i => (a i).val) (fun _ _ => rfl) j hj).1

theorem intt_ntt_val {n : ℕ} (hn : ValidLog n) {a : Mem Ff} (ha : CanonBelow (2 ^ n) a) (j : ℕ)
    (hj : j < 2 ^ n) : intt n (ntt n a) j = a j := by
  have h := intt_spec hn (ntt_canon hn ha)
    (A := downLayers n (bfStep (ctBf (zT n))) (fun i => (a i).val))
    (fun j hj => by
      rw [(ntt_val hn ha.fits j hj).2, toPoly_eval, downLayers_eval (zT_table hn) _ j hj]) j hj
  apply (Ff.val_eq_iff _ _ h.1 (ha j hj)).mp
  rw [h.2, up_down (zT_table hn) _ j hj]
  linear_combination (a j).val * (invN_spec hn).2

theorem ntt_intt_val {n : ℕ} (hn : ValidLog n) {a : Mem Ff} (ha : CanonBelow (2 ^ n) a) (j : ℕ)
    (hj : j < 2 ^ n) : ntt n (intt n a) j = a j := by
  have hc := intt_canon hn ha
  have hcn := ntt_canon hn hc
  apply (Ff.val_eq_iff _ _ (hcn j hj) (ha j hj)).mp
  rw [(ntt_val hn hc.fits j hj).2, toPoly_eval]
  have hv : ∀ i, i < 2 ^ n → (intt n a i).val
      = (invN n).val * upLayers n (bfStep (gsBf (zT n))) (fun i => (a i).val) i := by
    intro i hi
    rw [(intt_spec hn ha (A := fun i => (a i).val) (fun _ _ => rfl) i hi).2, mul_comm]
  rw [sum_congr rfl (g := fun i => (invN n).val *
    (upLayers n (bfStep (gsBf (zT n))) (fun i => (a i).val) i * root (zT n) n j ^ i))
    (fun i hi => by rw [hv i (mem_range.mp hi)]; ring), ← mul_sum,
    ← downLayers_eval (zT_table hn) _ j hj, down_up (zT_table hn) _ j hj]
  linear_combination (a j).val * (invN_spec hn).2

/-- Whatever canonical array has the values of `p` as transform, its inverse transform represents
`p` modulo `X^N + 1`. -/
theorem intt_poly {n : ℕ} (hn : ValidLog n) {e : Mem Ff} (he : CanonBelow (2 ^ n) e) {p : Zq[X]}
    (h : ∀ j, j < 2 ^ n → (e j).val = p.eval (root (zT n) n j)) :
    (X ^ (2 ^ n) + 1 : Zq[X]) ∣ p - toPoly (2 ^ n) (fun i => (intt n e i).val) := by
  apply dvd_of_evals (zT_table hn) two_unit
  intro j hj
  rw [← h j hj, ← (ntt_val hn (intt_canon hn he).fits j hj).2, ntt_intt_val hn he j hj]

theorem root_zT {n : ℕ} (hn : ValidLog n) (j : ℕ) (hj : j < 2 ^ n) :
    root (zT n) n j = (nttZeta n).val ^ (2 * brv n j + 1) := by
  have hz := (zeta_spec hn).2
  obtain ⟨m, rfl⟩ : ∃ m, n = m + 1 := ⟨n - 1, by rcases hn with rfl | rfl <;> rfl⟩
  rw [pow_succ] at hj
  have hT : zT (m + 1) (2 ^ m + j / 2) = (nttZeta (m + 1)).val ^ (2 * brv m (j / 2) + 1) := by
    unfold zT
    rw [brv_succ', show 2 ^ m + j / 2 = j / 2 + 2 ^ m * 1 by ring, brv_add_mul,
      Nat.add_mul_div_left _ _ (by positivity), Nat.div_eq_of_lt (by omega : j / 2 < 2 ^ m)]
  rw [root_succ, hT, brv]
  rcases Nat.mod_two_eq_zero_or_one j with h | h
  · rw [if_pos h, h, mul_zero, add_zero]
  · rw [if_neg (by omega), h, mul_one, mul_add, ← pow_succ', add_right_comm, pow_add _ _ (2 ^ (m + 1)),
      hz, mul_neg_one]

theorem nttZeta_val {n : ℕ} (hn : ValidLog n) : (nttZeta n).val = zetaQ n := by
  rcases hn with rfl | rfl <;> decide +kernel

/-! ### Checked accesses -/

theorem downLayersE_ok {α : Type} {n : ℕ} {sE : (k len i : ℕ) → Mem α → Except UB (Mem α)}
    {s : (k len i : ℕ) → Mem α → Mem α}
    (h : ∀ k len i a, k < 2 ^ n → 0 < len → i + len < 2 ^ n → sE k len i a = .ok (s k len i a))
    (a : Mem α) : downLayersE n sE a = .ok (downLayers n s a) := by
  unfold downLayersE downLayers
  apply loopE_ok
  intro j hj t
  have hl : n - 1 - j < n := by omega
  unfold downLayer
  apply loopE_ok
  intro b hb t
  apply loopE_ok
  intro i hi t
  rw [(layer_idx hl).1] at hb ⊢
  have hN := (layer_idx hl).2
  rw [start_shift]
  rw [one_shiftLeft'] at hi
  rw [one_shiftLeft', Nat.shiftLeft_eq, pow_one]
  have h0 : 0 < 2 ^ (n - 1 - j) := by positivity
  generalize 2 ^ (n - 1 - j) = L at *
  generalize 2 ^ (n - (n - 1 - j) - 1) = c at *
  have hbc : b * (2 * L) + 2 * L ≤ c * (2 * L) := by
    calc b * (2 * L) + 2 * L = (b + 1) * (2 * L) := by ring
      _ ≤ c * (2 * L) := Nat.mul_le_mul_right _ hb
  have hcc : 2 * c ≤ c * (2 * L) := by nlinarith
  apply h
  · omega
  · exact h0
  · rw [mul_comm L 2]; omega

theorem upLayersE_ok {α : Type} {n : ℕ} {sE : (k len i : ℕ) → Mem α → Except UB (Mem α)}
    {s : (k len i : ℕ) → Mem α → Mem α}
    (h : ∀ k len i a, k < 2 ^ n → 0 < len → i + len < 2 ^ n → sE k len i a = .ok (s k len i a))
    (a : Mem α) : upLayersE n sE a = .ok (upLayers n s a) := by
  unfold upLayersE upLayers
  apply loopE_ok
  intro j hj t
  unfold upLayer
  apply loopE_ok
  intro b hb t
  apply loopE_ok
  intro i hi t
  have hk : (1 <<< n) >>> j - 1 - (b * ((1 <<< j) <<< 1)) >>> (j + 1) < 2 ^ n := by
    have h1 : (1 <<< n) >>> j ≤ 2 ^ n := by
      rw [one_shiftLeft', Nat.shiftRight_eq_div_pow]
      exact Nat.div_le_self _ _
    have : 0 < 2 ^ n := by positivity
    generalize (1 <<< n) >>> j = X at h1 ⊢
    generalize (b * ((1 <<< j) <<< 1)) >>> (j + 1) = Y
    omega
  rw [(layer_idx hj).1] at hb
  have hN := (layer_idx hj).2
  rw [one_shiftLeft'] at hi
  have h0 : 0 < 2 ^ j := by positivity
  apply h
  · exact hk
  · rw [one_shiftLeft']; exact h0
  · rw [one_shiftLeft', Nat.shiftLeft_eq, pow_one]
    generalize 2 ^ j = L at *
    generalize 2 ^ (n - j - 1) = c at *
    have hbc : b * (2 * L) + 2 * L ≤ c * (2 * L) := by
      calc b * (2 * L) + 2 * L = (b + 1) * (2 * L) := by ring
        _ ≤ c * (2 * L) := Nat.mul_le_mul_right _ hb
    rw [mul_comm L 2]; omega

theorem nttE_ok (n : ℕ) (a : Mem Ff) : nttE n a = .ok (ntt n a) := by
  unfold nttE ntt
  apply downLayersE_ok
  intro k len i a hk hlen hi
  unfold nttStepE nttStep
  simp only [one_shiftLeft']
  rw [rdE_ok hk, rdE_ok hi, rdE_ok (by omega : i < 2 ^ n)]
  simp only [bind, Except.bind]
  rw [wrE_ok hi]
  simp only
  rw [rdE_ok (by omega : i < 2 ^ n)]
  simp only
  rw [wrE_ok (by omega)]

theorem inttE_ok (n : ℕ) (a : Mem Ff) : inttE n a = .ok (intt n a) := by
  unfold inttE intt
  have h := upLayersE_ok (n := n) (sE := inttStepE n) (s := inttStep n) (by
    intro k len i a hk hlen hi
    unfold inttStepE inttStep
    simp only [one_shiftLeft']
    rw [rdE_ok hk, rdE_ok hi, rdE_ok (by omega : i < 2 ^ n)]
    simp only [bind, Except.bind]
    rw [wrE_ok (by omega)]
    simp only
    rw [rdE_ok hi]
    simp only
    rw [wrE_ok hi]
    simp only
    rw [rdE_ok hi]
    simp only
    rw [wrE_ok hi]) a
  rw [h]
  simp only [bind, Except.bind]
  apply loopE_ok
  intro i hi t
  rw [rdE_ok hi]
  simp only
  rw [wrE_ok hi]

end Falcon
