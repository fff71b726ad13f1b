import Verif.Proofs.KatExec
import Verif.Proofs.SamplerArr

/-!
# The evaluator computes what the model of `samplerz` computes
-/

namespace Falcon

theorem forceN_eq {α : Type} (n : ℕ) (k : ℕ → α) : forceN n k = k n := by cases n <;> rfl

theorem forceZ_eq {α : Type} (z : ℤ) (k : ℤ → α) : forceZ z k = k z := by
  cases z <;> simp only [forceZ, forceN_eq]

/-- x = n/d. -/
def IsFr (x : ℝ) (n : ℤ) (d : ℕ) : Prop := 0 < d ∧ x = n / d

theorem IsFr.mul {x y : ℝ} {n m : ℤ} {d e : ℕ} (h : IsFr x n d) (g : IsFr y m e) : IsFr (x * y) (n * m) (d * e) := by
  refine ⟨Nat.mul_pos h.1 g.1, ?_⟩
  rw [h.2, g.2]
  push_cast
  rw [div_mul_div_comm]

theorem IsFr.sub {x y : ℝ} {n m : ℤ} {d e : ℕ} (h : IsFr x n d) (g : IsFr y m e) :
    IsFr (x - y) (n * e - m * d) (d * e) := by
  refine ⟨Nat.mul_pos h.1 g.1, ?_⟩
  have h1 : (d : ℝ) ≠ 0 := by exact_mod_cast h.1.ne'
  have h2 : (e : ℝ) ≠ 0 := by exact_mod_cast g.1.ne'
  rw [h.2, g.2]
  push_cast
  field_simp

theorem IsFr.floor {x : ℝ} {n : ℤ} {d : ℕ} (h : IsFr x n d) : ⌊x⌋ = n / d := by
  rw [h.2]
  have : ((n : ℝ) / (d : ℝ)) = (((n : ℚ) / (d : ℚ) : ℚ) : ℝ) := by push_cast; rfl
  rw [this, Rat.floor_cast, Rat.floor_intCast_div_natCast]

/-- The rounded fraction. -/
theorem rdk_spec {x : ℝ} {n : ℤ} {d : ℕ} (h : IsFr x n d) :
    ∃ m p, IsFr (rnd x) m p ∧ ∀ (α : Type) (k : ℤ → ℕ → α), rdk n d k = k m p := by
  obtain ⟨hd, hx⟩ := h
  have hd' : (d : ℝ) ≠ 0 := by exact_mod_cast hd.ne'
  by_cases hn : n = 0
  · refine ⟨0, 1, ⟨one_pos, ?_⟩, fun α k => ?_⟩
    · rw [hx, hn]; simp [rnd_zero]
    · simp only [rdk, forceZ_eq, forceN_eq, hn, if_true]
  · obtain ⟨e, he⟩ : ∃ e, e = max (expQ n.natAbs d - 52) (-1074) := ⟨_, rfl⟩
    refine ⟨nearQ (n * 2 ^ (-e).toNat) (d * 2 ^ e.toNat) * 2 ^ e.toNat, 2 ^ (-e).toNat, ⟨by positivity, ?_⟩,
      fun α k => ?_⟩
    · have hfe : fexp x = e := by
        unfold fexp
        rw [he, ← expQ_val (by omega) hd]
        congr 3
        rw [hx, abs_div, abs_div, Nat.cast_natAbs, Int.cast_abs, abs_abs]
      unfold rnd
      rw [hfe, ← nearQ_val _ (by positivity), hx, zpow_split e]
      have : (n : ℝ) / d / (2 ^ e.toNat / 2 ^ (-e).toNat) = ((n * 2 ^ (-e).toNat : ℤ) : ℝ) / ((d * 2 ^ e.toNat : ℕ) : ℝ) := by
        push_cast
        field_simp
      rw [this]
      push_cast
      ring
    · simp only [rdk, forceZ_eq, forceN_eq, if_neg hn, ← he]

/-! ## The base sampler -/

def tailsFrom : ℕ → ℕ → List ℕ
  | 0, _ => []
  | n + 1, a => pdtTail (a + 1) :: tailsFrom n (a + 1)

theorem katTails_eq : katTails = tailsFrom 18 0 := by decide +kernel

theorem katBase_tails (u : ℕ) (n : ℕ) : ∀ a, a + n = 18 → u < pdtTail a →
    katBase u (tailsFrom n a) ≤ n ∧ pdtTail (a + katBase u (tailsFrom n a) + 1) ≤ u ∧
      u < pdtTail (a + katBase u (tailsFrom n a)) := by
  induction n with
  | zero =>
    intro a ha hu
    obtain rfl : a = 18 := by omega
    exact ⟨le_rfl, by rw [show 18 + katBase u (tailsFrom 0 18) + 1 = 19 from rfl, pdtTail_19]; exact Nat.zero_le _, hu⟩
  | succ n ih =>
    intro a ha hu
    rw [tailsFrom, katBase]
    split
    · rename_i h
      obtain ⟨h1, h2, h3⟩ := ih (a + 1) (by omega) h
      refine ⟨by omega, ?_, ?_⟩
      · rwa [show a + (katBase u (tailsFrom n (a + 1)) + 1) + 1 = a + 1 + katBase u (tailsFrom n (a + 1)) + 1 by omega]
      · rwa [show a + (katBase u (tailsFrom n (a + 1)) + 1) = a + 1 + katBase u (tailsFrom n (a + 1)) by omega]
    · rename_i h
      exact ⟨Nat.zero_le _, by simpa using h, by simpa using hu⟩

theorem katByte_toNat (bytes len i : ℕ) : (katByte bytes len i).toNat = bytes / 256 ^ (len - 1 - i) % 256 := by
  unfold katByte
  rw [UInt8.toNat_ofNat']
  omega

theorem kat_base (bytes len ridx : ℕ) (h : ridx + 9 ≤ len) :
    (baseSampler (fun i => katByte bytes len (ridx + (8 - i)))).toNat
      = katBase ((bytes >>> (8 * (len - (ridx + 9)))) % 2 ^ 72) katTails := by
  have hu : (bytes >>> (8 * (len - (ridx + 9)))) % 2 ^ 72 < 2 ^ 72 := Nat.mod_lt _ (by norm_num)
  have hl : leVal 9 (fun i => katByte bytes len (ridx + (8 - i))) = (bytes >>> (8 * (len - (ridx + 9)))) % 2 ^ 72 := by
    refine leVal_of_digits _ _ _ (by simpa using hu) fun i hi => ?_
    rw [katByte_toNat, Nat.shiftRight_eq_div_pow]
    have e1 : len - 1 - (ridx + (8 - i)) = (len - (ridx + 9)) + i := by omega
    rw [e1, pow_add, pow_mul, ← Nat.div_div_eq_div_mul]
    generalize bytes / 256 ^ (len - (ridx + 9)) = w
    rw [show (2 : ℕ) ^ 72 = 256 ^ i * 256 ^ (9 - i) by rw [← pow_add, show i + (9 - i) = 9 by omega]; norm_num,
      Nat.mod_mul_right_div_self, show 256 ^ (9 - i) = 256 * 256 ^ (8 - i) by rw [← pow_succ']; congr 1; omega,
      Nat.mod_mul_right_mod]
  obtain ⟨h1, h2, h3⟩ := katBase_tails _ 18 0 rfl (by rw [pdtTail_zero]; exact hu)
  rw [← katTails_eq] at h1 h2 h3
  rw [Nat.zero_add] at h2 h3
  exact baseSampler_eq _ _ h1 (by rw [hl]; exact h2) (by rw [hl]; exact h3)

/-! ## The threshold -/

theorem katY_eq (z : ℕ) : katY z katExpC 0x00000004741183A3 = expY z 12 := by
  simp only [katExpC, katY, forceN_eq, Nat.shiftRight_eq_div_pow, expY]
  rfl

theorem kat_thr {α : Type} {s : ℕ} {r ccs : ℝ} {rn : ℤ} {rd c : ℕ} {fail : α} {k : ℕ → α}
    (hr : IsFr r rn rd) (hc0 : 0 ≤ ccs) (hc1 : ccs < 1) (hcc : ⌊(2 : ℝ) ^ 63 * ccs⌋ = c) (hs : s < 63)
    (hrr : Rep r) (hcr : Rep ccs) (hne : katThr s rn rd c fail k ≠ fail) :
    ∃ t : UInt64, (approxExp r ccs).bind (fun y => .ok ((2 * y - 1) >>> UInt64.ofNat s)) = .ok t ∧
      katThr s rn rd c fail k = k t.toNat := by
  unfold katThr at hne ⊢
  split at hne
  swap
  · exact absurd rfl hne
  rename_i h0
  rw [if_pos h0]
  simp only [forceN_eq] at hne ⊢
  split at hne
  swap
  · exact absurd rfl hne
  rename_i hz
  rw [if_pos hz]
  split at hne
  swap
  · exact absurd rfl hne
  rename_i hy
  rw [if_pos hy]
  have hrd : (0 : ℝ) < rd := by exact_mod_cast hr.1
  have r0 : 0 ≤ r := by rw [hr.2]; exact div_nonneg (by exact_mod_cast h0) hrd.le
  have hfl : ⌊(2 : ℝ) ^ 63 * r⌋ = ((2 ^ 63 * rn.toNat / rd : ℕ) : ℤ) := by
    have h2 : IsFr ((2 : ℝ) ^ 63 * r) (2 ^ 63 * rn) (1 * rd) := by
      have : IsFr ((2 : ℝ) ^ 63) (2 ^ 63) 1 := ⟨one_pos, by push_cast; ring⟩
      exact this.mul hr
    rw [h2.floor]
    push_cast
    rw [Int.toNat_of_nonneg h0, one_mul]
  have r1 : r < 1 := by
    have h3 := Int.lt_floor_add_one ((2 : ℝ) ^ 63 * r)
    rw [hfl] at h3
    have h4 : ((2 ^ 63 * rn.toNat / rd : ℕ) : ℝ) + 1 ≤ 2 ^ 63 := by
      have : 2 ^ 63 * rn.toNat / rd + 1 ≤ 2 ^ 63 := by
        have : zMax + 1 ≤ 2 ^ 63 := by decide +kernel
        omega
      exact_mod_cast this
    rw [Int.cast_natCast] at h3
    have : (2 : ℝ) ^ 63 * r < 2 ^ 63 * 1 := by linarith
    exact lt_of_mul_lt_mul_left this (by positivity)
  rw [approxExp_ok hrr hcr r0 (by linarith) hc0 (by linarith)]
  have z1 : (fix63 r).toNat = 2 ^ 63 * rn.toNat / rd := by
    have := fix63_toNat r0 (by linarith : r < 2)
    rw [hfl] at this
    exact_mod_cast this
  have c1 : (fix63 ccs).toNat = c := by
    have := fix63_toNat hc0 (by linarith : ccs < 2)
    rw [hcc] at this
    exact_mod_cast this
  have c2 : c < 2 ^ 63 := by
    have : (c : ℝ) < 2 ^ 63 := by
      have h5 := Int.floor_le ((2 : ℝ) ^ 63 * ccs)
      rw [hcc, Int.cast_natCast] at h5
      have : (2 : ℝ) ^ 63 * ccs < 2 ^ 63 * 1 := mul_lt_mul_of_pos_left hc1 (by positivity)
      linarith
    exact_mod_cast this
  have y1 := approxExpFix_toNat (fix63 r) (fix63 ccs) (by rw [z1]; exact hz) (by rw [c1]; exact c2)
  rw [z1, c1, ← katY_eq, ← Nat.shiftRight_eq_div_pow] at y1
  generalize (c * katY (2 ^ 63 * rn.toNat / rd) katExpC 0x00000004741183A3) >>> 63 = y at *
  refine ⟨_, rfl, ?_⟩
  congr 1
  have y2 : y < 2 ^ 63 := by
    have hb : (approxExpFix (fix63 r) (fix63 ccs)).toNat < 2 ^ 63 := by
      rw [approxExpFix_toNat _ _ (by rw [z1]; exact hz) (by rw [c1]; exact c2), c1]
      have hle : expY (fix63 r).toNat 12 ≤ 2 ^ 63 := (expY_le _ (by rw [z1]; exact hz) 12).trans (by decide +kernel)
      refine Nat.div_lt_of_lt_mul ?_
      calc c * expY (fix63 r).toNat 12 ≤ c * 2 ^ 63 := Nat.mul_le_mul_left _ hle
        _ < 2 ^ 63 * 2 ^ 63 := Nat.mul_lt_mul_of_pos_right c2 (by norm_num)
    omega
  generalize approxExpFix (fix63 r) (fix63 ccs) = w at *
  have e2 : (2 * w : UInt64).toNat = 2 * y := by
    rw [UInt64.toNat_mul, y1]
    show 2 * y % 2 ^ 64 = _
    omega
  rw [UInt64.toNat_shiftRight, UInt64.toNat_sub_of_le _ _ (by rw [UInt64.le_iff_toNat_le, e2]; show 1 ≤ _; omega), e2]
  have e3 : (UInt64.ofNat s).toNat % 64 = s := by
    rw [UInt64.toNat_ofNat']
    omega
  rw [e3]
  rfl

theorem kat_ber {fma : Bool} {x ccs : ℝ} {s : ℕ} {t : UInt64} (hs : berS x = s) (h : s < 63)
    (ht : (approxExp (berR fma x) ccs).bind (fun y => .ok ((2 * y - 1) >>> UInt64.ofNat s)) = .ok t) :
    berThreshold fma x ccs = .ok t := by
  unfold berThreshold
  rw [hs, toU64_ok (by omega) (by omega), ok_bind', Int.toNat_natCast]
  simp only
  rw [if_pos (by
    rw [UInt64.lt_iff_toNat_lt, UInt64.toNat_ofNat']
    show s % 2 ^ 64 < 63
    omega)]
  exact ht

/-- The comparison loop. -/
theorem kat_loop (t : UInt64) (bytes len base : ℕ) (k : ℕ) : ∀ (ridx : ℕ) (o : Bool × ℕ), k ≤ 8 →
    katLoop t.toNat bytes len base k ridx = some o →
    berLoopArr t len (katByte bytes len) base (len - base) (8 * k) ridx = .ok o := by
  induction k with
  | zero => intro ridx o _ h; cases h
  | succ k ih =>
    intro ridx o hk h
    rw [katLoop] at h
    split at h
    swap
    · cases h
    rename_i hb
    rw [berLoopArr, dif_pos (by omega)]
    simp only at h ⊢
    rw [rdE_ok hb, ok_bind', show 8 * (k + 1) - 8 = 8 * k by omega, zbyte t k (by omega), katByte_toNat]
    have e1 : bytes >>> (8 * (len - 1 - (base + ridx))) = bytes / 256 ^ (len - 1 - (base + ridx)) := by
      rw [Nat.shiftRight_eq_div_pow, pow_mul]; norm_num
    have e2 : t.toNat >>> (8 * k) = t.toNat / 256 ^ k := by rw [Nat.shiftRight_eq_div_pow, pow_mul]; norm_num
    rw [e1, e2] at h
    generalize bytes / 256 ^ (len - 1 - (base + ridx)) % 256 = v at h ⊢
    generalize t.toNat / 256 ^ k % 256 = w at h ⊢
    by_cases hc : v = w ∧ 0 < k ∧ ridx + 1 < len - base
    · rw [if_pos hc] at h
      rw [if_pos ⟨by omega, by omega, by omega⟩]
      exact ih _ _ (by omega) h
    · rw [if_neg hc] at h
      rw [if_neg (by omega)]
      rw [← Option.some.inj h]
      congr 2
      rw [decide_eq_decide]
      omega

/-! ## One iteration -/

theorem szInvMax_fr : IsFr (szInv sigmaMax) 5435486223186882 (2 ^ 55) := by
  refine ⟨by positivity, ?_⟩
  have e : szInv sigmaMax = ((rndQ (1 / rndQ (rndQ (2 * rndQ 1.8205) * rndQ 1.8205)) : ℚ) : ℝ) := by
    unfold szInv fdiv fmul sigmaMax
    simp only [← rndQ_val, Rat.cast_div, Rat.cast_mul, Rat.cast_one, Rat.cast_ofNat]
    norm_num
  have : rndQ (1 / rndQ (rndQ (2 * rndQ 1.8205) * rndQ 1.8205)) = 5435486223186882 / 2 ^ 55 := by decide +kernel
  rw [e, this]
  norm_num

theorem INV_fr : IsFr INV_LN2 6497320848556798 (2 ^ 52) := by
  refine ⟨by positivity, ?_⟩
  rw [INV_eq, zpow_neg, div_eq_mul_inv]
  norm_num

theorem LN2_fr : IsFr LN2 6243314768165359 (2 ^ 53) := by
  refine ⟨by positivity, ?_⟩
  rw [LN2_eq, zpow_neg, div_eq_mul_inv]
  norm_num

theorem IsFr.ofInt (z : ℤ) : IsFr (z : ℝ) z 1 := ⟨one_pos, by simp⟩

theorem IsFr.congr {x : ℝ} {n m : ℤ} {d e : ℕ} (h : IsFr x n d) (h1 : n = m) (h2 : d = e) : IsFr x m e := h1 ▸ h2 ▸ h

/-- What the constants stand for. -/
structure PreOk (mu sigma sigmin : ℝ) (p : KatPre) : Prop where
  fl : ⌊mu⌋ = p.fl
  r : IsFr (szR mu) p.rn p.rd
  inv : IsFr (szInv sigma) p.invn p.invd
  c : ⌊(2 : ℝ) ^ 63 * fdiv sigmin sigma⌋ = p.c
  c0 : 0 ≤ fdiv sigmin sigma
  c1 : fdiv sigmin sigma < 1
  lo : -2147483630 ≤ p.fl
  hi : p.fl < 2147483629

theorem katRun_sound {fma : Bool} {mu sigma sigmin : ℝ} {p : KatPre} (hp : PreOk mu sigma sigmin p) (bytes len : ℕ)
    (hl : len < 2 ^ 64) (fuel : ℕ) :
    ∀ (ridx : ℕ) (o : ℤ × ℕ), katRun fma p bytes len fuel ridx = some o → ∀ extra,
      samplerzArr fma mu sigma sigmin (katByte bytes len) len (fuel + extra) ridx = some (.ok o) := by
  induction fuel with
  | zero => intro ridx o h; cases h
  | succ fuel ih =>
    intro ridx o h extra
    rw [katRun] at h
    split at h
    swap
    · cases h
    rename_i hr
    obtain ⟨z0, hz0⟩ : ∃ z0, z0 = katBase ((bytes >>> (8 * (len - (ridx + 9)))) % 2 ^ 72) katTails := ⟨_, rfl⟩
    obtain ⟨b, hb⟩ : ∃ b, b = (bytes >>> (8 * (len - (ridx + 10)))) % 2 := ⟨_, rfl⟩
    obtain ⟨z, hz⟩ : ∃ z : ℤ, z = (b : ℤ) + (2 * b - 1) * z0 := ⟨_, rfl⟩
    simp only [forceN_eq, forceZ_eq, ← hz0, ← hb, ← hz] at h
    -- the nine bytes and the sign
    have hbs : (katByte bytes len (ridx + 9) &&& 1 == 1) = decide (b = 1) := by
      have e1 : (katByte bytes len (ridx + 9) &&& 1).toNat = b := by
        rw [UInt8.toNat_and, katByte_toNat, hb, Nat.shiftRight_eq_div_pow, pow_mul]
        show _ &&& 1 = _
        rw [Nat.and_one_is_mod, Nat.mod_mod_of_dvd _ (by norm_num)]
        congr 2
        rw [show (2 : ℕ) ^ 8 = 256 by norm_num]
        congr 1
        omega
      rw [Bool.eq_iff_iff, beq_iff_eq, decide_eq_true_iff, ← e1, ← UInt8.toNat_inj]
      rfl
    have hb2 : b < 2 := by rw [hb]; exact Nat.mod_lt _ (by norm_num)
    have hzz : szZ (decide (b = 1)) z0 = z := by
      rw [hz]
      unfold szZ
      obtain rfl | rfl : b = 0 ∨ b = 1 := by omega
      · simp
      · simp
    have hbase := kat_base bytes len ridx (by omega)
    rw [← hz0] at hbase
    have hz18 : z0 ≤ 18 := by rw [← hbase]; exact baseSampler_le _
    -- the exponent
    obtain ⟨t2n, t2d, f2, k2⟩ := rdk_spec (((IsFr.ofInt z).sub hp.r).congr (m := z * p.rd - p.rn) (e := p.rd)
      (by push_cast; ring) (by ring))
    rw [k2] at h
    beta_reduce at h
    obtain ⟨t3n, t3d, f3, k3⟩ := rdk_spec (f2.mul f2)
    rw [k3] at h
    beta_reduce at h
    obtain ⟨t4n, t4d, f4, k4⟩ := rdk_spec (f3.mul hp.inv)
    rw [k4] at h
    beta_reduce at h
    obtain ⟨t6n, t6d, f6, k6⟩ := rdk_spec (((IsFr.ofInt (z0 * z0)).mul szInvMax_fr).congr
      (m := (z0 * z0 * 5435486223186882 : ℤ)) (e := 2 ^ 55) rfl (by ring))
    rw [k6] at h
    beta_reduce at h
    obtain ⟨xn, xd, fx, kx⟩ := rdk_spec (f4.sub f6)
    rw [kx] at h
    beta_reduce at h
    have hX : szX mu sigma (decide (b = 1)) z0
        = rnd (rnd (rnd (rnd ((z : ℝ) - szR mu) * rnd ((z : ℝ) - szR mu)) * szInv sigma) -
          rnd (((z0 * z0 : ℤ) : ℝ) * szInv sigmaMax)) := by
      unfold szX
      simp only [fsub, fmul, hzz]
      push_cast
      rfl
    rw [← hX] at fx
    generalize hxe : szX mu sigma (decide (b = 1)) z0 = x at *
    obtain ⟨sn, sd, fs, ks⟩ := rdk_spec (fx.mul INV_fr)
    rw [ks] at h
    beta_reduce at h
    have hS : berS x = sn / sd := fs.floor
    rw [← hS] at h
    split at h
    swap
    · cases h
    rename_i hs
    -- the threshold
    have key : ∀ rn rd, IsFr (berR fma x) rn rd →
        (katThr (berS x).toNat rn rd p.c none fun t =>
          match katLoop t bytes len (ridx + 10) 8 0 with
          | none => none
          | some (true, i) => some (z + p.fl, ridx + 10 + i)
          | some (false, i) => katRun fma p bytes len fuel (ridx + 10 + i)) = some o →
        samplerzArr fma mu sigma sigmin (katByte bytes len) len (fuel + 1 + extra) ridx = some (.ok o) := by
      intro rn rd hR h
      obtain ⟨t, ht1, ht2⟩ := kat_thr hR hp.c0 hp.c1 hp.c (by omega : (berS x).toNat < 63) (rep_berR _ _) (rep_rnd _)
        (by rw [h]; exact Option.some_ne_none _)
      rw [ht2] at h
      have hthr := kat_ber (by omega) (by omega) ht1
      have hiter : ∀ q, berLoopArr t len (katByte bytes len) (ridx + 10) (len - (ridx + 10)) (8 * 8) 0 = .ok q →
          szIterArr fma mu sigma sigmin (katByte bytes len) len ridx =
            if q.1 then (toI32 ⌊fadd (z : ℝ) (p.fl : ℝ)⌋).bind fun r => .ok (some r, ridx + 10 + q.2)
            else .ok (none, ridx + 10 + q.2) := by
        intro q hq
        unfold szIterArr
        simp only
        rw [loopE_ok (g := fun i tmp => upd tmp i (katByte bytes len (ridx + i))) (fun i hi t => by
          rw [rdE_ok (by omega), ok_bind']), ok_bind', rdE_ok (by omega), ok_bind']
        have e1 : (baseSampler (fun i => loop 9 (fun i (tmp : Mem UInt8) => upd tmp i (katByte bytes len (ridx + i)))
            (fun _ => 0) (8 - i))).toNat = z0 := by
          rw [← hbase]
          refine congrArg UInt32.toNat (baseSampler_congr _ _ fun i hi => ?_)
          rw [loop_copy, if_pos (by omega)]
        rw [e1, hbs, hxe, hthr, ok_bind', show (len + 2 ^ 64 - (ridx + 9 + 1)) % 2 ^ 64 = len - (ridx + 10) by omega,
          show ridx + 9 + 1 = ridx + 10 by omega, show (64 : ℕ) = 8 * 8 from rfl, hq, ok_bind', hzz, hp.fl]
      split at h
      · cases h
      all_goals
        rename_i i hlo
        have hiter := hiter _ (kat_loop t bytes len (ridx + 10) 8 0 _ le_rfl hlo)
      · have e2 := toI32_sum (z := z) (m := p.fl) (by rw [← hzz]; exact (szZ_bounds _ _ hz18).1)
          (by rw [← hzz]; exact (szZ_bounds _ _ hz18).2) hp.lo hp.hi
        simp only [if_true, e2, ok_bind'] at hiter
        rw [show fuel + 1 + extra = fuel + extra + 1 by omega, samplerzArr, if_pos (by omega), hiter]
        simp only
        rw [← Option.some.inj h]
      · simp only [Bool.false_eq_true, if_false] at hiter
        rw [show fuel + 1 + extra = fuel + extra + 1 by omega, samplerzArr, if_pos (by omega), hiter]
        exact ih _ _ h extra
    split at h
    · rename_i hf
      have hR : IsFr (x - berS x * LN2) (xn * 2 ^ 53 - berS x * 6243314768165359 * xd) (xd * 2 ^ 53) :=
        (fx.sub ((IsFr.ofInt (berS x)).mul LN2_fr)).congr (by push_cast; ring) (by ring)
      obtain ⟨rn, rd, fr, kr⟩ := rdk_spec hR
      rw [kr] at h
      refine key rn rd ?_ h
      unfold berR
      rw [if_pos hf]
      exact fr
    · rename_i hf
      obtain ⟨pn, pd, fp, kp⟩ := rdk_spec (((IsFr.ofInt (berS x)).mul LN2_fr).congr
        (m := berS x * 6243314768165359) (e := 2 ^ 53) rfl (by ring))
      rw [kp] at h
      beta_reduce at h
      obtain ⟨rn, rd, fr, kr⟩ := rdk_spec (fx.sub fp)
      rw [kr] at h
      refine key rn rd ?_ h
      unfold berR
      rw [if_neg hf]
      exact fr

/-- The table entry holds in the model, for every number of iterations allowed from 16 on. -/
theorem katOk_sound {v : Kat} (h : katOk v = true) (fma : Bool) (extra : ℕ) : v.run fma (16 + extra) = some (.ok (v.z, v.len)) := by
  unfold katOk katPre at h
  obtain ⟨mn, md, fm, km⟩ := rdk_spec (x := (v.mu : ℝ) / 10 ^ v.muE) (n := v.mu) (d := 10 ^ v.muE)
    ⟨by positivity, by push_cast; rfl⟩
  rw [km] at h
  beta_reduce at h
  obtain ⟨sn, sd, fs, ks⟩ := rdk_spec (x := (v.sg : ℝ) / 10 ^ v.sgE) (n := v.sg) (d := 10 ^ v.sgE)
    ⟨by positivity, by push_cast; rfl⟩
  rw [ks] at h
  beta_reduce at h
  obtain ⟨cn, cd, fc, kc⟩ := rdk_spec (x := (v.sm : ℝ) / 10 ^ v.smE) (n := v.sm) (d := 10 ^ v.smE)
    ⟨by positivity, by push_cast; rfl⟩
  rw [kc] at h
  beta_reduce at h
  split at h
  swap
  · cases h
  rename_i hsn
  have hsn' : (0 : ℝ) < sn := by exact_mod_cast hsn
  have hsd' : (0 : ℝ) < sd := by exact_mod_cast fs.1
  have finv : ∀ {x y : ℝ} {n m : ℤ} {d e : ℕ}, IsFr x n d → IsFr y m e → 0 < m → IsFr (x / y) (n * e) (d * m.toNat) := by
    intro x y n m d e hx hy hm
    have hm' : (m : ℝ) ≠ 0 := by exact_mod_cast hm.ne'
    have e1 : ((m.toNat : ℕ) : ℝ) = m := by exact_mod_cast Int.toNat_of_nonneg hm.le
    have h1 : (d : ℝ) ≠ 0 := by exact_mod_cast hx.1.ne'
    have h2 : (e : ℝ) ≠ 0 := by exact_mod_cast hy.1.ne'
    refine ⟨Nat.mul_pos hx.1 (by omega), ?_⟩
    rw [hx.2, hy.2]
    push_cast
    rw [e1]
    field_simp
  obtain ⟨qn, qd, fq, kq⟩ := rdk_spec (finv fc fs hsn)
  rw [kq] at h
  simp only [forceZ_eq, forceN_eq] at h
  have hfl := fm.floor
  obtain ⟨rn, rd, fr, kr⟩ := rdk_spec ((fm.sub (IsFr.ofInt (mn / md))).congr (m := mn - mn / md * md) (e := md)
    (by push_cast; ring) (by ring))
  rw [kr] at h
  beta_reduce at h
  obtain ⟨an, ad, fa, ka⟩ := rdk_spec (((IsFr.ofInt 2).mul fs).congr (m := 2 * sn) (e := sd) rfl (by ring))
  rw [ka] at h
  beta_reduce at h
  obtain ⟨bn, bd, fb, kb⟩ := rdk_spec (fa.mul fs)
  rw [kb] at h
  beta_reduce at h
  split at h
  swap
  · cases h
  rename_i hbn
  obtain ⟨iv, id, fi, ki⟩ := rdk_spec ((finv (IsFr.ofInt 1) fb hbn).congr (m := bd) (e := bn.toNat) (by ring) (by ring))
  rw [ki] at h
  beta_reduce at h
  split at h
  swap
  · cases h
  rename_i hc
  obtain ⟨c1, c2, c3, c4, c5⟩ := hc
  have hqd' : (0 : ℝ) < qd := by exact_mod_cast fq.1
  have hp : PreOk (rnd ((v.mu : ℝ) / 10 ^ v.muE)) (rnd ((v.sg : ℝ) / 10 ^ v.sgE)) (rnd ((v.sm : ℝ) / 10 ^ v.smE))
      ⟨mn / md, rn, rd, iv, id, 2 ^ 63 * qn.toNat / qd⟩ := by
    refine ⟨hfl, ?_, ?_, ?_, ?_, ?_, c3, c4⟩
    · unfold szR fsub
      rw [hfl]
      exact fr
    · unfold szInv fdiv fmul
      have := fi
      rw [Int.cast_one, show ((2 : ℤ) : ℝ) = 2 by norm_num] at this
      exact this
    · have h2 : IsFr ((2 : ℝ) ^ 63 * fdiv (rnd ((v.sm : ℝ) / 10 ^ v.smE)) (rnd ((v.sg : ℝ) / 10 ^ v.sgE)))
          (2 ^ 63 * qn) (1 * qd) := by
        have : IsFr ((2 : ℝ) ^ 63) (2 ^ 63) 1 := ⟨one_pos, by push_cast; ring⟩
        exact this.mul fq
      rw [h2.floor]
      push_cast
      rw [Int.toNat_of_nonneg c1, one_mul]
    · unfold fdiv
      rw [fq.2]
      exact div_nonneg (by exact_mod_cast c1) hqd'.le
    · unfold fdiv
      rw [fq.2, div_lt_one hqd']
      exact_mod_cast c2
  split at h
  swap
  · cases h
  rename_i a b ha hb
  rw [Bool.and_eq_true, beq_iff_eq, beq_iff_eq] at h
  unfold Kat.run
  cases fma with
  | false => rw [← h.1]; exact katRun_sound hp v.bytes v.len c5 16 0 a ha extra
  | true => rw [← h.2]; exact katRun_sound hp v.bytes v.len c5 16 0 b hb extra

end Falcon
