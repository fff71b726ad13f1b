import Verif.Proofs.SamplerCount

/-! # The array variants of the sampler -/

namespace Falcon

theorem loopE_err {σ} {m : ℕ} {f : ℕ → σ → Except UB σ} {g : ℕ → σ → σ} {e : UB}
    (h : ∀ i, i < m → ∀ t, f i t = .ok (g i t)) (he : ∀ t, f m t = .error e) (n : ℕ) (s : σ) (hmn : m < n) :
    loopE n f s = .error e := by
  induction n with
  | zero => omega
  | succ n ih =>
    rw [loopE]
    rcases Nat.lt_or_ge m n with hlt | hge
    · rw [ih hlt]; rfl
    · obtain rfl : m = n := by omega
      rw [loopE_ok h]
      exact he _

theorem rdE_err {α} {n : ℕ} {a : Mem α} {i : ℕ} (h : n ≤ i) : rdE n a i = .error (.oobRead i) := by
  rw [rdE, if_neg (by omega)]

theorem err_bind' {ε α β : Type} (e : ε) (f : α → Except ε β) : (Except.error e : Except ε α).bind f = .error e := rfl

/-- With enough bytes the array loop is the stream loop. -/
theorem berLoopArr_eq (z : UInt64) (cap : ℕ) (rb : Mem UInt8) (base len : ℕ) (hcap : base + 8 ≤ cap)
    (hlen : 8 ≤ len) (k : ℕ) : ∀ ridx, ridx + k = 8 →
    berLoopArr z cap rb base len (8 * k) ridx =
      .ok ((berLoop z rb (8 * k) (base + ridx)).1, (berLoop z rb (8 * k) (base + ridx)).2 - base) := by
  induction k with
  | zero =>
    intro ridx h
    rw [berLoopArr, berLoop]
    simp
  | succ k ih =>
    intro ridx h
    rw [berLoopArr, berLoop, dif_pos (by omega), dif_pos (by omega)]
    simp only
    rw [rdE_ok (by omega), ok_bind']
    rw [show 8 * (k + 1) - 8 = 8 * k by omega]
    generalize ((rb (base + ridx)).toNat : ℤ) - (((z >>> UInt64.ofNat (8 * k)) &&& 0xff).toNat : ℤ) = w
    by_cases hw : w = 0 ∧ 8 * k > 0
    · rw [if_pos ⟨hw.1, hw.2, by omega⟩, if_pos hw, ih (ridx + 1) (by omega)]
      rfl
    · rw [if_neg (by rintro ⟨a, b, -⟩; exact hw ⟨a, b⟩), if_neg hw]
      simp only
      congr 2
      omega

/-- The stream seen by the array variant: each group of nine bytes is used in reverse order. -/
def revHead (rb : Mem UInt8) (ridx : ℕ) : ℕ → UInt8 := fun i =>
  if ridx ≤ i ∧ i < ridx + 9 then rb (ridx + (8 - (i - ridx))) else rb i

theorem berLoop_congr (z : UInt64) (s t : ℕ → UInt8) (k : ℕ) : ∀ pos, (∀ i, pos ≤ i → s i = t i) →
    berLoop z s (8 * k) pos = berLoop z t (8 * k) pos := by
  induction k with
  | zero => intro pos _; rw [berLoop, berLoop]; simp
  | succ k ih =>
    intro pos h
    rw [berLoop, berLoop, dif_pos (by omega), dif_pos (by omega)]
    simp only
    rw [show 8 * (k + 1) - 8 = 8 * k by omega, h pos le_rfl, ih (pos + 1) (fun i hi => h i (by omega))]

theorem loop_copy (rb : Mem UInt8) (ridx n : ℕ) (i : ℕ) :
    loop n (fun i (tmp : Mem UInt8) => upd tmp i (rb (ridx + i))) (fun _ => 0) i
      = if i < n then rb (ridx + i) else 0 := by
  induction n with
  | zero => simp [loop_zero]
  | succ n ih =>
    rw [loop_succ]
    by_cases h : i = n
    · rw [h, upd_same, if_pos (by omega)]
    · rw [upd, if_neg h, ih]
      by_cases h2 : i < n
      · rw [if_pos h2, if_pos (by omega)]
      · rw [if_neg h2, if_neg (by omega)]

theorem baseSampler_congr (a b : Mem UInt8) (h : ∀ i, i < 9 → a i = b i) : baseSampler a = baseSampler b := by
  unfold baseSampler
  have : U72.fromLe a = U72.fromLe b := by
    unfold U72.fromLe
    rw [h 8 (by norm_num)]
    have : loop 8 (fun i lo => lo ||| ((a i).toUInt64 <<< UInt64.ofNat (i * 8))) (0 : UInt64)
        = loop 8 (fun i lo => lo ||| ((b i).toUInt64 <<< UInt64.ofNat (i * 8))) 0 :=
      loop_congr fun i hi t => by rw [h i (by omega)]
    rw [this]
  rw [this]

theorem szIterArr_eq (fma : Bool) (mu sigma sigmin : ℝ) (rb : Mem UInt8) (rblen ridx : ℕ)
    (hlen : ridx + 18 ≤ rblen) (hsz : rblen < 2 ^ 64) :
    szIterArr fma mu sigma sigmin rb rblen ridx = szIter fma mu sigma sigmin (revHead rb ridx) ridx := by
  unfold szIterArr szIter
  simp only
  rw [loopE_ok (g := fun i tmp => upd tmp i (rb (ridx + i))) (fun i hi t => by
    rw [rdE_ok (by omega), ok_bind']), ok_bind', rdE_ok (by omega), ok_bind']
  have e1 : baseSampler (fun i => loop 9 (fun i (tmp : Mem UInt8) => upd tmp i (rb (ridx + i))) (fun _ => 0) (8 - i))
      = baseSampler (fun i => revHead rb ridx (ridx + i)) := by
    refine baseSampler_congr _ _ fun i hi => ?_
    rw [loop_copy, if_pos (by omega)]
    unfold revHead
    rw [if_pos (by omega), Nat.add_sub_cancel_left]
  have e2 : revHead rb ridx (ridx + 9) = rb (ridx + 9) := by
    unfold revHead; rw [if_neg (by omega)]
  rw [e1, e2]
  generalize (baseSampler (fun i => revHead rb ridx (ridx + i))).toNat = z0
  generalize (rb (ridx + 9) &&& 1 == 1) = b
  unfold berExp
  cases berThreshold fma (szX mu sigma b z0) (fdiv sigmin sigma) with
  | error e => rfl
  | ok z =>
    rw [ok_bind', ok_bind', ok_bind']
    have hl : (rblen + 2 ^ 64 - (ridx + 9 + 1)) % 2 ^ 64 = rblen - (ridx + 10) := by omega
    have hb := berLoopArr_eq z rblen rb (ridx + 9 + 1) (rblen - (ridx + 10)) (by omega) (by omega) 8 0 rfl
    have hc := berLoop_congr z (revHead rb ridx) rb 8 (ridx + 10) (fun i hi => by
      unfold revHead; rw [if_neg (by omega)])
    rw [show 8 * 8 = 64 from rfl] at hb hc
    rw [hl, hb, hc, ok_bind']
    have hp := berLoop_reads z rb 7 (ridx + 10) (by norm_num)
    obtain ⟨m, m1, m2, m3, -⟩ := hp
    rw [show 8 * (7 + 1) = 64 from rfl] at m3
    have hpos : ridx + 9 + 1 + ((berLoop z rb 64 (ridx + 9 + 1 + 0)).2 - (ridx + 9 + 1))
        = (berLoop z rb 64 (ridx + 10)).2 := by
      rw [show ridx + 9 + 1 + 0 = ridx + 10 by omega]
      omega
    simp only
    rw [hpos]

theorem samplerzArr_oob (mu sigma sigmin : ℝ) (h0 : 6 / 5 ≤ sigma) (h1 : sigma ≤ sigmaMax)
    (c0 : 0 ≤ sigmin) (c1 : sigmin ≤ 2) (rb : Mem UInt8) (len fuel : ℕ) (hl : 1 ≤ len) (hl' : len ≤ 10) :
    samplerzArr false mu sigma sigmin rb len (fuel + 1) 0 = some (.error (.oobRead len)) := by
  have key : szIterArr false mu sigma sigmin rb len 0 = .error (.oobRead len) := by
    unfold szIterArr
    simp only
    rcases Nat.lt_or_ge len 9 with h9 | h9
    · rw [loopE_err (m := len) (g := fun i tmp => upd tmp i (rb (0 + i))) (e := .oobRead len)
        (fun i hi t => by rw [rdE_ok (by omega), ok_bind'])
        (fun t => by rw [rdE_err (by omega), err_bind', Nat.zero_add]) 9 _ h9, err_bind']
    · rw [loopE_ok (g := fun i tmp => upd tmp i (rb (0 + i))) (fun i hi t => by
        rw [rdE_ok (by omega), ok_bind']), ok_bind']
      rcases Nat.lt_or_ge len 10 with h10 | h10
      · obtain rfl : len = 9 := by omega
        rw [rdE_err (by omega), err_bind']
      · obtain rfl : len = 10 := by omega
        rw [rdE_ok (by omega), ok_bind']
        obtain ⟨cc0, cc1⟩ := ccs_bounds h0 c0 c1
        have hrc : Rep (fdiv sigmin sigma) := rep_rnd _
        have hz := baseSampler_le (fun i => loop 9 (fun i (tmp : Mem UInt8) => upd tmp i (rb (0 + i)))
          (fun _ => 0) (8 - i))
        generalize (baseSampler (fun i => loop 9 (fun i (tmp : Mem UInt8) => upd tmp i (rb (0 + i)))
          (fun _ => 0) (8 - i))).toNat = z0 at *
        generalize (rb (0 + 9) &&& 1 == 1) = b
        rw [berThreshold_ok (rep_szX _ _ _ _) hrc (szX_nonneg mu sigma b z0 hz (zpow_500_le.trans h0) h1)
          (szX_lt mu sigma b z0 hz h0) cc0 cc1, ok_bind', berLoopArr, dif_pos (by norm_num),
          rdE_err (by omega), err_bind', err_bind']
  rw [samplerzArr, if_pos (by omega), key]

end Falcon
