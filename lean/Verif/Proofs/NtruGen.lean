import Verif.Proofs.NtruAlg
import Verif.Proofs.Verify
import Verif.Props.Sampler
import Verif.Proofs.FmaKey

/-!
# Bit lengths, invertibility test, public key, sampling of key polynomials
-/

namespace Falcon

open Finset Polynomial

/-! ### approx_bit_len, min_max, scaling -/

theorem approxBitLenLoop_add (v : ℕ) : ∀ len, approxBitLenLoop v len = len + approxBitLenLoop v 0 := by
  induction v using Nat.strong_induction_on with
  | _ v ih =>
    intro len
    by_cases h : 0 < v
    · rw [approxBitLenLoop, dif_pos h, approxBitLenLoop.eq_def v 0, dif_pos h,
        ih _ (Nat.div_lt_self h (by decide)), ih _ (Nat.div_lt_self h (by decide)) (0 + 8)]
      ring
    · rw [approxBitLenLoop, dif_neg h, approxBitLenLoop.eq_def v 0, dif_neg h, add_zero]

theorem approxBitLen_nat (v : ℕ) : 8 ∣ approxBitLenLoop v 0 ∧ v < 2 ^ approxBitLenLoop v 0 ∧
    (v = 0 → approxBitLenLoop v 0 = 0) ∧
    (0 < v → 8 ≤ approxBitLenLoop v 0 ∧ 2 ^ (approxBitLenLoop v 0 - 8) ≤ v) := by
  induction v using Nat.strong_induction_on with
  | _ v ih =>
    by_cases h : 0 < v
    · obtain ⟨d, l, z, p⟩ := ih (v / 2 ^ 8) (Nat.div_lt_self h (by decide))
      rw [approxBitLenLoop, dif_pos h, approxBitLenLoop_add]
      generalize approxBitLenLoop (v / 2 ^ 8) 0 = L at *
      refine ⟨by omega, ?_, by omega, fun _ => ⟨by omega, ?_⟩⟩
      · rw [zero_add, pow_add]
        have := Nat.div_add_mod v (2 ^ 8)
        have := Nat.mod_lt v (show 0 < 2 ^ 8 by norm_num)
        nlinarith
      · rw [show 0 + 8 + L - 8 = L by omega]
        rcases Nat.eq_zero_or_pos (v / 2 ^ 8) with h0 | h0
        · rw [z h0]; omega
        · obtain ⟨p1, p2⟩ := p h0
          have : 2 ^ L = 2 ^ (L - 8) * 2 ^ 8 := by rw [← pow_add]; congr 1; omega
          have := Nat.div_mul_le_self v (2 ^ 8)
          nlinarith
    · have : v = 0 := by omega
      subst this
      rw [approxBitLenLoop, dif_neg h]
      simp

theorem minMax_spec {N : ℕ} (hN : 0 < N) (a : Mem ℤ) :
    (∀ i, i < N → (minMax N a).1 ≤ a i ∧ a i ≤ (minMax N a).2) ∧
    (∃ i, i < N ∧ (minMax N a).1 = a i) ∧ ∃ i, i < N ∧ (minMax N a).2 = a i := by
  unfold minMax
  have key : ∀ n, n ≤ N - 1 →
      let mm := loop n (fun i (mm : ℤ × ℤ) =>
        let x := a (i + 1)
        (if mm.1 > x then x else mm.1, if mm.2 < x then x else mm.2)) (a 0, a 0)
      (∀ i, i < n + 1 → mm.1 ≤ a i ∧ a i ≤ mm.2) ∧
      (∃ i, i < n + 1 ∧ mm.1 = a i) ∧ ∃ i, i < n + 1 ∧ mm.2 = a i := by
    intro n
    induction n with
    | zero =>
      intro _
      refine ⟨fun i hi => ?_, ⟨0, by omega, rfl⟩, ⟨0, by omega, rfl⟩⟩
      have : i = 0 := by omega
      subst this
      exact ⟨le_rfl, le_rfl⟩
    | succ n ih =>
      intro hn
      have ih := ih (by omega)
      simp only [loop_succ] at ih ⊢
      generalize loop n (fun i (mm : ℤ × ℤ) =>
        (if mm.1 > a (i + 1) then a (i + 1) else mm.1, if mm.2 < a (i + 1) then a (i + 1) else mm.2))
        (a 0, a 0) = mm at ih ⊢
      obtain ⟨h1, ⟨i1, hi1, e1⟩, ⟨i2, hi2, e2⟩⟩ := ih
      refine ⟨fun i hi => ?_, ?_, ?_⟩
      · rcases Nat.lt_or_ge i (n + 1) with h | h
        · have := h1 i h
          constructor <;> split <;> omega
        · have : i = n + 1 := by omega
          subst this
          constructor <;> split <;> omega
      · by_cases h : mm.1 > a (n + 1)
        · exact ⟨n + 1, by omega, if_pos h⟩
        · exact ⟨i1, by omega, by rw [if_neg h, e1]⟩
      · by_cases h : mm.2 < a (n + 1)
        · exact ⟨n + 1, by omega, if_pos h⟩
        · exact ⟨i2, by omega, by rw [if_neg h, e2]⟩
  have := key (N - 1) le_rfl
  rw [show N - 1 + 1 = N by omega] at this
  exact this

theorem natAbs_lt_of_minMax {N : ℕ} (hN : 0 < N) (a : Mem ℤ) {L : ℕ}
    (h1 : approxBitLen (minMax N a).1 ≤ L) (h2 : approxBitLen (minMax N a).2 ≤ L) (i : ℕ) (hi : i < N) :
    (a i).natAbs < 2 ^ L := by
  obtain ⟨h, -, -⟩ := minMax_spec hN a
  have h := h i hi
  have b1 := (approxBitLen_nat (minMax N a).1.natAbs).2.1
  have b2 := (approxBitLen_nat (minMax N a).2.natAbs).2.1
  have p1 : 2 ^ approxBitLen (minMax N a).1 ≤ 2 ^ L := Nat.pow_le_pow_right (by norm_num) h1
  have p2 : 2 ^ approxBitLen (minMax N a).2 ≤ 2 ^ L := Nat.pow_le_pow_right (by norm_num) h2
  unfold approxBitLen at p1 p2
  generalize 2 ^ approxBitLenLoop (minMax N a).1.natAbs 0 = A at *
  generalize 2 ^ approxBitLenLoop (minMax N a).2.natAbs 0 = B at *
  generalize 2 ^ L = C at *
  omega

theorem bitLenPair_ge (N : ℕ) (a b : Mem ℤ) : 53 ≤ bitLenPair N a b := le_max_left _ _

theorem bitLenPair_bound {N : ℕ} (hN : 0 < N) (a b : Mem ℤ) (i : ℕ) (hi : i < N) :
    (a i).natAbs < 2 ^ bitLenPair N a b ∧ (b i).natAbs < 2 ^ bitLenPair N a b := by
  unfold bitLenPair
  refine ⟨natAbs_lt_of_minMax hN a ?_ ?_ i hi, natAbs_lt_of_minMax hN b ?_ ?_ i hi⟩ <;> simp

theorem ediv_bound {x : ℤ} {L : ℕ} (hL : 53 ≤ L) (h : x.natAbs < 2 ^ L) :
    -2 ^ 53 ≤ x / 2 ^ (L - 53) ∧ x / 2 ^ (L - 53) < 2 ^ 53 := by
  obtain ⟨d, rfl⟩ : ∃ d, L = 53 + d := ⟨L - 53, by omega⟩
  rw [show 53 + d - 53 = d by omega]
  have hp : (0 : ℤ) < 2 ^ d := by positivity
  have h' : ((x.natAbs : ℕ) : ℤ) < 2 ^ 53 * 2 ^ d := by
    rw [pow_add] at h; exact_mod_cast h
  constructor
  · rw [Int.le_ediv_iff_mul_le hp]
    generalize (2 : ℤ) ^ d = D at *
    omega
  · rw [Int.ediv_lt_iff_lt_mul hp]
    generalize (2 : ℤ) ^ d = D at *
    omega

/-! ### Conversion to the prime field -/

theorem coeffToFf_spec {x : ℤ} (h0 : -12289 ≤ x) (h1 : x < 12289) :
    (coeffToFf x).Canonical ∧ (coeffToFf x).val = (x : Zq) := by
  have key : ((coeffToFf x).v.toNat : ℤ) = (if x < 0 then 12289 else 0) + x := by
    unfold coeffToFf Ff.toU16
    simp only [UInt16.toNat_ofNat', Q_toNat]
    split <;> omega
  constructor
  · unfold Ff.Canonical
    have hq : q = 12289 := rfl
    split at key <;> omega
  · unfold Ff.val
    rw [← Int.cast_natCast, key]
    push_cast
    split
    · have : (12289 : Zq) = 0 := by decide +kernel
      rw [this]; ring
    · ring

/-- All of the first `N` coefficients are in [-q, q). -/
def CoeffRange (N : ℕ) (p : Mem ℤ) : Prop := ∀ i, i < N → -12289 ≤ p i ∧ p i < 12289

theorem nttCoeff {n : ℕ} (hn : ValidLog n) {p : Mem ℤ} (hp : CoeffRange (2 ^ n) p) :
    let t := ntt n (loop (1 <<< n) (fun i a => upd a i (coeffToFf (p i))) (fun _ => Ff.zero))
    CanonBelow (2 ^ n) t ∧
    ∀ j, j < 2 ^ n → (t j).val = (polyInt (2 ^ n) p).eval (root (zT n) n j) := by
  intro t
  have ha : ∀ i, i < 2 ^ n → loop (1 <<< n) (fun i a => upd a i (coeffToFf (p i))) (fun _ => Ff.zero) i
      = coeffToFf (p i) := by
    intro i hi; rw [loop_fill, one_shiftLeft', if_pos hi]
  have hc : CanonBelow (2 ^ n) (loop (1 <<< n) (fun i a => upd a i (coeffToFf (p i))) (fun _ => Ff.zero)) :=
    fun i hi => by rw [ha i hi]; exact (coeffToFf_spec (hp i hi).1 (hp i hi).2).1
  refine ⟨ntt_canon hn hc, fun j hj => ?_⟩
  rw [(ntt_val hn hc.fits j hj).2]
  unfold polyInt
  rw [toPoly_congr]
  intro i hi
  rw [ha i hi, (coeffToFf_spec (hp i hi).1 (hp i hi).2).2]

theorem loop_all (n : ℕ) (P : ℕ → Bool) : loop n (fun i flg => flg && P i) true = true ↔
    ∀ i, i < n → P i = true := by
  induction n with
  | zero => simp
  | succ n ih =>
    rw [loop_succ, Bool.and_eq_true, ih]
    constructor
    · rintro ⟨h1, h2⟩ i hi
      rcases Nat.lt_or_ge i n with h | h
      · exact h1 i h
      · have : i = n := by omega
        subst this; exact h2
    · intro h
      exact ⟨fun i hi => h i (by omega), h n (by omega)⟩

theorem invertible_evals {n : ℕ} (hn : ValidLog n) {p : Mem ℤ} (hp : CoeffRange (2 ^ n) p) :
    isPolyInvertible n p = true ↔ ∀ j, j < 2 ^ n → (polyInt (2 ^ n) p).eval (root (zT n) n j) ≠ 0 := by
  unfold isPolyInvertible
  simp only
  obtain ⟨hc, hv⟩ := nttCoeff hn hp
  rw [loop_all, one_shiftLeft']
  refine forall_congr' fun j => imp_congr_right fun hj => ?_
  rw [decide_eq_true_eq]
  have h1 := hc j hj
  have h2 := hv j hj
  rw [one_shiftLeft'] at h1 h2
  rw [← h2, ne_eq, ne_eq, Ff.val_eq_zero_iff h1]
  refine not_congr ⟨fun h => Ff.ext_toNat (by rw [h]; rfl), fun h => by rw [h]; rfl⟩

/-- Existence of the inverse. -/
theorem exists_inv_of_evals {n : ℕ} (hn : ValidLog n) {p : Zq[X]}
    (h : ∀ j, j < 2 ^ n → p.eval (root (zT n) n j) ≠ 0) : ∃ r : Zq[X], ModEqXN (2 ^ n) (p * r) 1 := by
  have hT := zT_table hn
  obtain ⟨c, hc⟩ : ∃ c : Mem Zq, c = upLayers n (bfStep (gsBf (zT n)))
    (fun j => (2 ^ n)⁻¹ * (p.eval (root (zT n) n j))⁻¹) := ⟨_, rfl⟩
  refine ⟨toPoly (2 ^ n) c, ?_⟩
  have h2 : (2 : Zq) ^ n ≠ 0 := pow_ne_zero n (two_unit.ne_zero)
  have hev : ∀ j, j < 2 ^ n → (toPoly (2 ^ n) c).eval (root (zT n) n j)
      = (p.eval (root (zT n) n j))⁻¹ := by
    intro j hj
    rw [toPoly_eval, ← downLayers_eval hT c j hj, hc, down_up hT _ j hj, ← mul_assoc,
      mul_inv_cancel₀ h2, one_mul]
  have hone : toPoly (2 ^ n) (fun i => if i = 0 then (1 : Zq) else 0) = 1 := by
    unfold toPoly
    rw [Finset.sum_eq_single 0]
    · simp
    · intro i _ hi; simp [hi]
    · intro h; simp at h
  have := dvd_of_evals hT two_unit (p := p * toPoly (2 ^ n) c) (c := fun i => if i = 0 then (1 : Zq) else 0)
    (by
      intro j hj
      rw [hone, eval_mul, hev j hj, eval_one, mul_inv_cancel₀ (h j hj)])
  rw [hone] at this
  exact this

theorem evals_of_inv {n : ℕ} (hn : ValidLog n) {p r : Zq[X]} (h : ModEqXN (2 ^ n) (p * r) 1) (j : ℕ)
    (hj : j < 2 ^ n) : p.eval (root (zT n) n j) ≠ 0 := by
  intro h0
  have := eval_eq_of_dvd h ((zT_table hn).root_pow n le_rfl j hj)
  rw [eval_mul, h0, zero_mul, eval_one] at this
  exact zero_ne_one this

theorem publicKey_spec {n : ℕ} (hn : ValidLog n) {f g : Mem ℤ} (h0 : Mem Ff) (hf : CoeffRange (2 ^ n) f)
    (hg : CoeffRange (2 ^ n) g) (hinv : ∃ r, ModEqXN (2 ^ n) (polyInt (2 ^ n) f * r) 1) :
    CanonBelow (2 ^ n) (computePublicKey n f g h0) ∧
    ModEqXN (2 ^ n) (polyZq (2 ^ n) (computePublicKey n f g h0) * polyInt (2 ^ n) f) (polyInt (2 ^ n) g) := by
  obtain ⟨r, hr⟩ := hinv
  obtain ⟨fc, fv⟩ := nttCoeff hn hf
  obtain ⟨gc, gv⟩ := nttCoeff hn hg
  have hnz : ∀ j, j < 2 ^ n → (polyInt (2 ^ n) f).eval (root (zT n) n j) ≠ 0 :=
    fun j hj => evals_of_inv hn hr j hj
  unfold computePublicKey
  simp only
  generalize ntt n (loop (1 <<< n) (fun i a => upd a i (coeffToFf (f i))) (fun _ => Ff.zero)) = tf at *
  generalize ntt n (loop (1 <<< n) (fun i a => upd a i (coeffToFf (g i))) (fun _ => Ff.zero)) = tg at *
  have hdiv : ∀ j, j < 2 ^ n → polyDiv n tg tf h0 j = Ff.div (tg j) (tf j) := by
    intro j hj
    unfold polyDiv
    rw [loop_fill, one_shiftLeft', if_pos hj]
  have hcan : CanonBelow (2 ^ n) (polyDiv n tg tf h0) := by
    intro j hj
    rw [hdiv j hj]
    exact (Ff.div_spec (gc j hj).fits (fc j hj).fits).1
  refine ⟨intt_canon hn hcan, ?_⟩
  have hval : ∀ j, j < 2 ^ n → (polyDiv n tg tf h0 j).val
      = (polyInt (2 ^ n) g * r).eval (root (zT n) n j) := by
    intro j hj
    rw [hdiv j hj, (Ff.div_spec (gc j hj).fits (fc j hj).fits).2, gv j hj, fv j hj, eval_mul]
    have := eval_eq_of_dvd hr ((zT_table hn).root_pow n le_rfl j hj)
    rw [eval_mul, eval_one] at this
    rw [div_eq_mul_inv, eq_inv_of_mul_eq_one_right this]
  have := modEq_iff.mp (intt_poly hn hcan hval)
  rw [modEq_iff] at hr ⊢
  unfold polyZq
  rw [map_mul, ← this]
  simp only [map_mul, map_one] at hr ⊢
  rw [mul_assoc, mul_comm (AdjoinRoot.mk _ r), hr, mul_one]

/-! ### Sampling the key polynomials -/

theorem keySigma_bounds : 6 / 5 ≤ keySigma ∧ keySigma ≤ sigmaMax := by
  have e : keySigma = (6453702425112088 : ℤ) * (2 : ℝ) ^ (-52 : ℤ) := by
    unfold keySigma
    refine rnd_eq_of _ _ (by norm_num) ?_ ?_ ?_ <;> norm_num [abs_lt, abs_of_pos]
  rw [e, sigmaMax_eq]
  norm_num

theorem sigmaMin_bounds {n : ℕ} (hn : ValidLog n) : 0 ≤ sigmaMin n ∧ sigmaMin n ≤ 2 := by
  obtain ⟨a, b, c, d, -, -⟩ := C56_parameters
  rcases hn with rfl | rfl <;> constructor <;> linarith

/-- One iteration of the sampler of key generation, whether or not the compiler contracts. -/
theorem szIter_key (fma : Bool) {n : ℕ} (hn : ValidLog n) (stream : ℕ → UInt8) (pos : ℕ) (z0 : ℕ) (b : Bool) (t : Bool × ℕ)
    (hz0 : (baseSampler (fun i => stream (pos + i))).toNat = z0) (hb : (stream (pos + 9) &&& 1 == 1) = b)
    (ht : t = berLoop (thrF fma (szX 0 keySigma b z0) (fdiv (sigmaMin n) keySigma)) stream 64 (pos + 10)) :
    szIter fma 0 keySigma (sigmaMin n) stream pos = .ok (if t.1 then some (szZ b z0) else none, t.2) := by
  have hz := baseSampler_le (fun i => stream (pos + i))
  rw [hz0] at hz
  have h := szIterF_eq (fma := fma) stream pos (mu := 0) (by simp) (by simp) keySigma_bounds.1 keySigma_bounds.2
    (sigmaMin_bounds hn).1 (sigmaMin_bounds hn).2 z0 b t hz0 hb
    (key_safe fma b hz (szX_nonneg 0 keySigma b z0 hz (zpow_500_le.trans keySigma_bounds.1) keySigma_bounds.2)
      (szX_lt 0 keySigma b z0 hz keySigma_bounds.1)) ht
  rw [h]
  simp

theorem keySample {fma : Bool} {n : ℕ} (hn : ValidLog n) (stream : ℕ → UInt8) (fuel pos : ℕ)
    (out : Except UB (ℤ × ℕ))
    (h : samplerz fma 0 keySigma (sigmaMin n) stream fuel pos = some out) :
    ∃ r p, out = .ok (r, p) ∧ -18 ≤ r ∧ r ≤ 19 := by
  induction fuel generalizing pos with
  | zero => cases h
  | succ fuel ih =>
    have hz := baseSampler_le (fun i => stream (pos + i))
    have heq := szIter_key fma hn stream pos _ _ _ rfl rfl rfl
    rw [samplerz, heq] at h
    generalize (baseSampler (fun i => stream (pos + i))).toNat = z0 at *
    generalize (stream (pos + 9) &&& 1 == 1) = b at *
    obtain ⟨z1, z2⟩ := szZ_bounds b z0 hz
    by_cases ht : (berLoop (thrF fma (szX 0 keySigma b z0) (fdiv (sigmaMin n) keySigma)) stream 64 (pos + 10)).1 = true
    · rw [if_pos ht] at h
      exact ⟨_, _, (Option.some.inj h).symm, by omega, by omega⟩
    · rw [if_neg ht] at h
      exact ih _ h

theorem genCoeff_spec {fma : Bool} {n : ℕ} (hn : ValidLog n) (stream : ℕ → UInt8) (fuel : ℕ) :
    ∀ (k : ℕ) (res : ℤ) (pos : ℕ) (out : Except UB (ℤ × ℕ)), res.natAbs + 19 * k ≤ 1000 →
      genCoeff fma n stream fuel k res pos = some out →
      ∃ r p, out = .ok (r, p) ∧ res - 18 * k ≤ r ∧ r ≤ res + 19 * k := by
  intro k
  induction k with
  | zero =>
    intro res pos out _ h
    rw [genCoeff] at h
    exact ⟨res, pos, (Option.some.inj h).symm, by omega, by omega⟩
  | succ k ih =>
    intro res pos out hk h
    rw [genCoeff] at h
    rcases bindO_some h with ⟨u, h1, -⟩ | ⟨z, h1, h2⟩
    · obtain ⟨_, _, e, -⟩ := keySample hn _ _ _ _ h1
      cases e
    · obtain ⟨r, p, e, b1, b2⟩ := keySample hn _ _ _ _ h1
      cases e
      simp only at h2
      have hi : i32 .strict (res + r) = .ok (res + r) := by
        unfold i32
        rw [if_pos (by omega)]
      rw [hi] at h2
      obtain ⟨r', p', e, c1, c2⟩ := ih (res + r) p out (by omega) h2
      exact ⟨r', p', e, by push_cast; omega, by push_cast; omega⟩

theorem genPolyLoop_spec {fma : Bool} {n : ℕ} (hn : ValidLog n) (stream : ℕ → UInt8) (fuel : ℕ) :
    ∀ (m i : ℕ) (poly : Mem ℤ) (pos : ℕ) (out : Except UB (Mem ℤ × ℕ)),
      genPolyLoop fma n stream fuel m i poly pos = some out →
      ∃ poly' p, out = .ok (poly', p) ∧
        (∀ j, i ≤ j → j < i + m → (poly' j).natAbs ≤ 19 * (4096 / 2 ^ n)) ∧
        ∀ j, (j < i ∨ i + m ≤ j) → poly' j = poly j := by
  intro m
  induction m with
  | zero =>
    intro i poly pos out h
    rw [genPolyLoop] at h
    exact ⟨poly, pos, (Option.some.inj h).symm, fun j h1 h2 => by omega, fun _ _ => rfl⟩
  | succ m ih =>
    intro i poly pos out h
    rw [genPolyLoop] at h
    have hk : 19 * (4096 / (1 <<< n)) ≤ 1000 := by rcases hn with rfl | rfl <;> decide
    rcases bindO_some h with ⟨u, h1, -⟩ | ⟨z, h1, h2⟩
    · obtain ⟨_, _, e, -⟩ := genCoeff_spec hn stream fuel _ 0 pos _ (by simpa using hk) h1
      cases e
    · obtain ⟨r, p, e, b1, b2⟩ := genCoeff_spec hn stream fuel _ 0 pos _ (by simpa using hk) h1
      cases e
      obtain ⟨poly', p', e, c1, c2⟩ := ih _ _ _ _ h2
      refine ⟨poly', p', e, fun j h1 h2 => ?_, fun j hj => ?_⟩
      · by_cases hj : j = i
        · subst hj
          rw [c2 j (by omega), upd_same, ← one_shiftLeft']
          simp only
          omega
        · exact c1 j (by omega) (by omega)
      · rw [c2 j (by omega), upd_ne _ _ _ _ (by omega)]

/-- `p` has coefficients as sampled by key generation. -/
def KeyRange (n : ℕ) (p : Mem ℤ) : Prop := ∀ j, j < 2 ^ n → (p j).natAbs ≤ 19 * (4096 / 2 ^ n)

theorem genPoly_spec {fma : Bool} {n : ℕ} (hn : ValidLog n) {stream : ℕ → UInt8} {fuel : ℕ} {poly : Mem ℤ} {pos : ℕ}
    {out : Except UB (Mem ℤ × ℕ)} (h : genPoly fma n stream fuel poly pos = some out) :
    ∃ poly' p, out = .ok (poly', p) ∧ KeyRange n poly' := by
  obtain ⟨poly', p, e, h1, -⟩ := genPolyLoop_spec hn stream fuel _ _ _ _ _ h
  refine ⟨poly', p, e, fun j hj => h1 j (by omega) (by rw [one_shiftLeft']; omega)⟩

/-! The ranges hold for every finished run, whether or not the compiler contracts. -/

theorem samplerz_range {fma : Bool} {mu sigma sigmin : ℝ} (hm0 : -2147483630 ≤ ⌊mu⌋) (hm1 : ⌊mu⌋ < 2147483629)
    {stream : ℕ → UInt8} : ∀ {fuel pos : ℕ} {r : ℤ × ℕ}, samplerz fma mu sigma sigmin stream fuel pos = some (.ok r) →
    ⌊mu⌋ - 18 ≤ r.1 ∧ r.1 ≤ ⌊mu⌋ + 19 := by
  intro fuel
  induction fuel with
  | zero => intro pos r h; cases h
  | succ fuel ih =>
    intro pos r h
    rw [samplerz] at h
    split at h
    · cases h
    · rename_i v p e
      cases h
      have hz := baseSampler_le (fun i => stream (pos + i))
      unfold szIter at e
      simp only at e
      generalize (baseSampler (fun i => stream (pos + i))).toNat = z0 at hz e
      generalize (stream (pos + 9) &&& 1 == 1) = b at e
      obtain ⟨z1, z2⟩ := szZ_bounds b z0 hz
      cases hb : berExp fma (szX mu sigma b z0) (fdiv sigmin sigma) stream (pos + 10) with
      | error u => rw [hb] at e; cases e
      | ok t =>
        rw [hb, toI32_sum z1 z2 hm0 hm1, ok_bind', ok_bind'] at e
        split at e
        · cases e
          constructor <;> omega
        · cases e
    · exact ih h

theorem genCoeff_range {fma : Bool} {n : ℕ} {stream : ℕ → UInt8} {fuel : ℕ} :
    ∀ {k : ℕ} {res : ℤ} {pos : ℕ} {r : ℤ × ℕ}, genCoeff fma n stream fuel k res pos = some (.ok r) →
      res - 18 * k ≤ r.1 ∧ r.1 ≤ res + 19 * k := by
  intro k
  induction k with
  | zero =>
    intro res pos r h
    rw [genCoeff] at h
    cases h
    constructor <;> simp
  | succ k ih =>
    intro res pos r h
    rw [genCoeff] at h
    obtain ⟨z, hz, h⟩ := bindO_ok h
    obtain ⟨b1, b2⟩ := samplerz_range (by simp) (by simp) hz
    simp only [Int.floor_zero] at b1 b2
    unfold i32 at h
    split at h
    · cases h
    · rename_i v e
      split at e
      · cases e
        obtain ⟨c1, c2⟩ := ih h
        push_cast
        constructor <;> omega
      · cases e

theorem genPolyLoop_range {fma : Bool} {n : ℕ} {stream : ℕ → UInt8} {fuel : ℕ} :
    ∀ {m i : ℕ} {poly : Mem ℤ} {pos : ℕ} {r : Mem ℤ × ℕ},
      genPolyLoop fma n stream fuel m i poly pos = some (.ok r) →
      (∀ j, i ≤ j → j < i + m → (r.1 j).natAbs ≤ 19 * (4096 / 2 ^ n)) ∧ ∀ j, (j < i ∨ i + m ≤ j) → r.1 j = poly j := by
  intro m
  induction m with
  | zero =>
    intro i poly pos r h
    rw [genPolyLoop] at h
    cases h
    exact ⟨fun j h1 h2 => by omega, fun _ _ => rfl⟩
  | succ m ih =>
    intro i poly pos r h
    rw [genPolyLoop] at h
    obtain ⟨z, hz, h⟩ := bindO_ok h
    obtain ⟨b1, b2⟩ := genCoeff_range hz
    obtain ⟨c1, c2⟩ := ih h
    refine ⟨fun j h1 h2 => ?_, fun j hj => ?_⟩
    · by_cases hj : j = i
      · subst hj
        rw [c2 j (by omega), upd_same, ← one_shiftLeft']
        omega
      · exact c1 j (by omega) (by omega)
    · rw [c2 j (by omega), upd_ne _ _ _ _ (by omega)]

theorem genPoly_range {fma : Bool} {n : ℕ} {stream : ℕ → UInt8} {fuel : ℕ} {poly : Mem ℤ} {pos : ℕ}
    {r : Mem ℤ × ℕ} (h : genPoly fma n stream fuel poly pos = some (.ok r)) : KeyRange n r.1 := fun j hj =>
  (genPolyLoop_range h).1 j (by omega) (by rw [one_shiftLeft']; omega)

theorem KeyRange.coeff {n : ℕ} (hn : ValidLog n) {p : Mem ℤ} (h : KeyRange n p) : CoeffRange (2 ^ n) p := by
  intro i hi
  have := h i hi
  have hk : 19 * (4096 / 2 ^ n) ≤ 1000 := by rcases hn with rfl | rfl <;> decide
  omega

theorem getSi_id {v : ℤ} (h : -2 ^ 63 ≤ v ∧ v < 2 ^ 63) : getSi v = v := by
  unfold getSi
  split
  · omega
  · split <;> omega

theorem narrow_id {v : ℤ} (h : -2 ^ 31 ≤ v ∧ v < 2 ^ 31) : narrow32 (getSi v) = v := by
  rw [getSi_id (by omega)]
  exact bmod_range v h

/-- What a finished run of `ntru_gen` guarantees. -/
structure GenOk (quot : RedQuot) (gsTooBig : Mem ℤ → Mem ℤ → Bool) (n fuel : ℕ) (s : Ntru) : Prop where
  fRange : KeyRange n s.f
  gRange : KeyRange n s.g
  inv : isPolyInvertible n s.f = true
  gs : gsTooBig s.f s.g = false
  sol : ∃ F G : Mem ℤ, ModEqXN (2 ^ n) (ntruDet (2 ^ n) s.f s.g F G) (C 12289) ∧
    ntruSolve quot fuel n (loop (1 <<< n) (fun i m => upd m i (s.f i)) zerosZ)
      (loop (1 <<< n) (fun i m => upd m i (s.g i)) zerosZ) = some (.ok (some (F, G))) ∧
    ∀ i, i < 2 ^ n → s.F i = narrow32 (getSi (F i)) ∧ s.G i = narrow32 (getSi (G i))

theorem ntruGen_spec {quot : RedQuot} {gs : Mem ℤ → Mem ℤ → Bool} {fma : Bool} {n : ℕ}
    {stream : ℕ → UInt8} {fuel : ℕ} : ∀ (iters : ℕ) (s : Ntru) (pos : ℕ) (s' : Ntru) (p' : ℕ),
      ntruGen quot gs fma n stream fuel iters s pos = some (.ok (s', p')) → GenOk quot gs n fuel s' := by
  intro iters
  induction iters with
  | zero => intro s pos s' p' h; cases h
  | succ iters ih =>
    intro s pos s' p' h
    rw [ntruGen] at h
    obtain ⟨fp, hf, h⟩ := bindO_ok h
    obtain ⟨gp, hg, h⟩ := bindO_ok h
    have rf := genPoly_range hf
    have rg := genPoly_range hg
    obtain ⟨f', pf⟩ := fp
    obtain ⟨g', pg⟩ := gp
    simp only at h rf rg
    by_cases hinv : isPolyInvertible n f' = true
    · rw [hinv, Bool.not_true, if_neg (by simp)] at h
      by_cases hgs : gs f' g' = true
      · rw [if_pos hgs] at h
        exact ih _ _ _ _ h
      · rw [if_neg hgs] at h
        obtain ⟨ret, hret, h⟩ := bindO_ok h
        cases ret with
        | none => exact ih _ _ _ _ h
        | some FG =>
          obtain ⟨F, G⟩ := FG
          cases h
          refine ⟨rf, rg, hinv, by simpa using hgs, F, G, ?_, hret, ?_⟩
          · have := ntruSolve_det _ _ _ _ _ _ _ hret
            unfold ntruDet at this ⊢
            rw [one_shiftLeft', toPoly_fill, toPoly_fill] at this
            exact this
          · intro i hi
            constructor
            · exact loop_fill_lt _ (fun i => narrow32 (getSi (F i))) _ _ (by rw [one_shiftLeft']; exact hi)
            · exact loop_fill_lt _ (fun i => narrow32 (getSi (G i))) _ _ (by rw [one_shiftLeft']; exact hi)
    · rw [Bool.eq_false_iff.mpr hinv, Bool.not_false, if_pos rfl] at h
      exact ih _ _ _ _ h

/-- Nothing is written beyond the N coefficients. -/
theorem ntruGen_frame {quot : RedQuot} {gs : Mem ℤ → Mem ℤ → Bool} {fma : Bool} {n : ℕ}
    {stream : ℕ → UInt8} {fuel : ℕ} : ∀ {iters : ℕ} {s : Ntru} {pos : ℕ} {s' : Ntru} {p' : ℕ},
      ntruGen quot gs fma n stream fuel iters s pos = some (.ok (s', p')) →
      (∀ i, 2 ^ n ≤ i → s'.f i = s.f i) ∧ (∀ i, 2 ^ n ≤ i → s'.g i = s.g i) ∧
      (∀ i, 2 ^ n ≤ i → s'.F i = s.F i) ∧ ∀ i, 2 ^ n ≤ i → s'.G i = s.G i := by
  intro iters
  induction iters with
  | zero => intro s pos s' p' h; cases h
  | succ iters ih =>
    intro s pos s' p' h
    rw [ntruGen] at h
    obtain ⟨fp, hf, h⟩ := bindO_ok h
    obtain ⟨gp, hg, h⟩ := bindO_ok h
    have rf := fun i (hi : 2 ^ n ≤ i) => (genPolyLoop_range hf).2 i (Or.inr (by rw [one_shiftLeft']; omega))
    have rg := fun i (hi : 2 ^ n ≤ i) => (genPolyLoop_range hg).2 i (Or.inr (by rw [one_shiftLeft']; omega))
    have hagain : ntruGen quot gs fma n stream fuel iters { s with f := fp.1, g := gp.1 } gp.2 = some (.ok (s', p')) →
        (∀ i, 2 ^ n ≤ i → s'.f i = s.f i) ∧ (∀ i, 2 ^ n ≤ i → s'.g i = s.g i) ∧
        (∀ i, 2 ^ n ≤ i → s'.F i = s.F i) ∧ ∀ i, 2 ^ n ≤ i → s'.G i = s.G i := by
      intro h
      obtain ⟨h1, h2, h3, h4⟩ := ih h
      exact ⟨fun i hi => (h1 i hi).trans (rf i hi), fun i hi => (h2 i hi).trans (rg i hi), h3, h4⟩
    simp only at h
    split at h
    · exact hagain h
    · split at h
      · exact hagain h
      · obtain ⟨ret, hret, h⟩ := bindO_ok h
        cases ret with
        | none => exact hagain h
        | some FG =>
          obtain ⟨F, G⟩ := FG
          cases h
          refine ⟨rf, rg, fun i hi => ?_, fun i hi => ?_⟩
          · show loop (1 <<< n) (fun i m => upd m i (narrow32 (getSi (F i)))) s.F i = s.F i
            rw [loop_fill, if_neg (by rw [one_shiftLeft']; omega)]
          · show loop (1 <<< n) (fun i m => upd m i (narrow32 (getSi (G i)))) s.G i = s.G i
            rw [loop_fill, if_neg (by rw [one_shiftLeft']; omega)]

theorem reduceLoop_noUB {quot : RedQuot} (hq : ∀ k f g F G, ∃ r, quot k f g F G = .ok r) (k : ℕ)
    (f g : Mem ℤ) (b : ℕ) : ∀ fuel F G u, reduceLoop quot k f g b fuel F G ≠ some (.error u) := by
  intro fuel
  induction fuel with
  | zero => intro F G u h; cases h
  | succ fuel ih =>
    intro F G u h
    rw [reduceLoop] at h
    simp only at h
    split at h
    · cases h
    · obtain ⟨r, hr⟩ := hq k (scaled b f) (scaled b g) (scaled (bitLenPair (2 ^ k) F G) F)
        (scaled (bitLenPair (2 ^ k) F G) G)
      rw [hr] at h
      simp only at h
      split at h
      · cases h
      · exact ih _ _ _ h

theorem ntruSolve_noUB {quot : RedQuot} (hq : ∀ k f g F G, ∃ r, quot k f g F G = .ok r) (fuel : ℕ) :
    ∀ k f g u, ntruSolve quot fuel k f g ≠ some (.error u) := by
  intro k
  induction k with
  | zero =>
    intro f g u h
    rw [ntruSolve] at h
    split at h
    · cases h
    · split at h <;> cases h
  | succ k ih =>
    intro f g u h
    rw [ntruSolve] at h
    simp only at h
    rcases bindO_some h with ⟨v, h1, -⟩ | ⟨a, h1, h2⟩
    · exact ih _ _ _ h1
    · cases a with
      | none => cases h2
      | some FG =>
        simp only at h2
        rcases bindO_some h2 with ⟨v, h1, -⟩ | ⟨a, h1, h2⟩
        · exact reduceLoop_noUB hq _ _ _ _ _ _ _ _ h1
        · cases h2

theorem ntruGen_noUB {quot : RedQuot} (hq : ∀ k f g F G, ∃ r, quot k f g F G = .ok r)
    {gs : Mem ℤ → Mem ℤ → Bool} {fma : Bool} {n : ℕ} (hn : ValidLog n) {stream : ℕ → UInt8} {fuel : ℕ} :
    ∀ (iters : ℕ) (s : Ntru) (pos : ℕ) (u : UB),
      ntruGen quot gs fma n stream fuel iters s pos ≠ some (.error u) := by
  intro iters
  induction iters with
  | zero => intro s pos u h; cases h
  | succ iters ih =>
    intro s pos u h
    rw [ntruGen] at h
    rcases bindO_some h with ⟨v, h1, -⟩ | ⟨fp, hf, h⟩
    · obtain ⟨_, _, e, -⟩ := genPoly_spec hn h1; cases e
    rcases bindO_some h with ⟨v, h1, -⟩ | ⟨gp, hg, h⟩
    · obtain ⟨_, _, e, -⟩ := genPoly_spec hn h1; cases e
    simp only at h
    split at h
    · exact ih _ _ _ h
    · split at h
      · exact ih _ _ _ h
      · rcases bindO_some h with ⟨v, h1, -⟩ | ⟨ret, hret, h⟩
        · exact ntruSolve_noUB hq _ _ _ _ _ h1
        · cases ret with
          | none => exact ih _ _ _ h
          | some FG => cases h

end Falcon
