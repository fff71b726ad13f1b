import Verif.Proofs.TimedSim

/-!
# C123: forging with the help of iteration counts

Random bytes are independent and uniform, arithmetic outside the integer sampler is exact.
-/

namespace Falcon

open Classical in
/-- The value of an answer with signature and counts. -/
noncomputable def timedVal (n : ℕ) (salt : ℕ → UInt8) (val : Option (List UInt8 × List ℕ) → ℝ) (l : List ℕ) (s : PairZ n) : ℝ :=
  if ha : ∃ a, SignatureOf n a salt (tapeOf s.2) then val (some (bytes (sigBytes n) ha.choose, l)) else val none

/-- The mean of a value of the simulated answer for one salt. -/
noncomputable def saltAns (n m : ℕ) (h : Mem Ff) (R : ℕ) (salt : ℕ → UInt8) (o : Option (Mem Ff)) (val : Option (List UInt8 × List ℕ) → ℝ) : ℝ :=
  match o with
  | none => val none
  | some c => simSignMean n (sigmaSig n) m h c (timedVal n salt val) (val none) R []

/-- The mean of a value of the simulated answer. -/
noncomputable def simAns (n m : ℕ) (h : Mem Ff) (hash : (ℕ → UInt8) → Option (Mem Ff)) (R : ℕ) (val : Option (List UInt8 × List ℕ) → ℝ) : ℝ :=
  (∑ v : Fin 40 → UInt8, saltAns n m h R (memOf v) (hash (memOf v)) val) / 256 ^ 40

theorem avg_near {L : ℕ} {d : ℝ} (a b : (Fin L → UInt8) → ℝ) (h : ∀ v, |a v - b v| ≤ d) :
    |(∑ v : Fin L → UInt8, a v) / 256 ^ L - (∑ v : Fin L → UInt8, b v) / 256 ^ L| ≤ d := by
  have hq : (0 : ℝ) < 256 ^ L := by positivity
  rw [← sub_div, ← Finset.sum_sub_distrib, abs_div, abs_of_pos hq, div_le_iff₀ hq]
  refine (Finset.abs_sum_le_sum_abs _ _).trans ((Finset.sum_le_card_nsmul _ _ _ fun v _ => h v).trans (le_of_eq ?_))
  rw [nsmul_eq_mul, card_bytes, mul_comm]

theorem avg_mean {O : Type} {k : ℕ} {V : (Fin k → UInt8) → (O → ℝ) → ℝ} (hV : ∀ v, TMean (V v)) :
    TMean fun u => (∑ v : Fin k → UInt8, V v u) / 256 ^ k := by
  have hq : (0 : ℝ) < 256 ^ k := by positivity
  refine ⟨fun u u' a b hu hu' => ?_, fun u hu => ⟨div_nonneg (Finset.sum_nonneg fun v _ => ((hV v).mem u hu).1) hq.le, ?_⟩, ?_⟩
  · rw [← mul_div_assoc, ← mul_div_assoc, ← add_div, Finset.mul_sum, Finset.mul_sum, ← Finset.sum_add_distrib]
    congr 1
    exact Finset.sum_congr rfl fun v _ => (hV v).lin u u' a b hu hu'
  · rw [div_le_one hq, ← card_bytes]
    refine (Finset.sum_le_card_nsmul _ _ 1 fun v _ => ((hV v).mem u hu).2).trans (le_of_eq ?_)
    rw [nsmul_eq_mul, mul_one]
  · simp only [(hV _).one]
    rw [Finset.sum_const, nsmul_eq_mul, mul_one, card_bytes, div_self hq.ne']

theorem timedVal_mem {n : ℕ} {salt : ℕ → UInt8} {val : Option (List UInt8 × List ℕ) → ℝ} (hv : Unit01 val) (l : List ℕ) : Unit01 (timedVal n salt val l) := by
  intro s
  unfold timedVal
  split
  · exact hv _
  · exact hv _

theorem saltAns_mean {n : ℕ} (hn : ValidLog n) {h : Mem Ff} {f g F G : Mem Int} (tr : Trapdoor n h f g F G) (m R : ℕ) (salt : ℕ → UInt8)
    (o : Option (Mem Ff)) : TMean (saltAns n m h R salt o) := by
  cases o with
  | none => exact ⟨fun u u' a b hu hu' => rfl, fun u hu => hu none, rfl⟩
  | some c =>
    refine ⟨fun u u' a b hu hu' => ?_, fun u hu => simSignMean_mem hn tr m c (timedVal_mem hu) (hu none) R [], ?_⟩
    · refine Eq.trans ?_ (simSignMean_lin hn tr m c (timedVal_mem hu) (timedVal_mem hu') (hu none) (hu' none) a b R [])
      unfold saltAns
      simp only
      congr 1
      funext l s
      unfold timedVal
      split <;> rfl
    · refine Eq.trans ?_ (simSignMean_one hn tr m c R [])
      unfold saltAns
      simp only
      congr 1
      funext l s
      unfold timedVal
      split <;> rfl

theorem simAns_mean {n : ℕ} (hn : ValidLog n) {h : Mem Ff} {f g F G : Mem Int} (tr : Trapdoor n h f g F G) (m : ℕ)
    (hash : (ℕ → UInt8) → Option (Mem Ff)) (R : ℕ) : TMean (simAns n m h hash R) :=
  avg_mean fun v => saltAns_mean hn tr m R (memOf v) (hash (memOf v))

theorem simWins_ask (n m : ℕ) (h : Mem Ff) (hash : List UInt8 → Option (Mem Ff)) (R : ℕ) (msg : List UInt8)
    (next : Option (List UInt8 × List ℕ) → TimedAdversary) :
    (TimedAdversary.ask msg next).simWinsPr n (sigmaSig n) m h hash R =
      simAns n m h (fun salt => hash ((List.range 40).map salt ++ msg)) R fun o => (next o).simWinsPr n (sigmaSig n) m h hash R := by
  rw [TimedAdversary.simWinsPr]
  unfold simAns
  congr 1

theorem assemble_of {n : ℕ} (hn : ValidLog n) {a : Mem UInt8} {salt : ℕ → UInt8} {s2 : Mem Int} (ha : SignatureOf n a salt s2) :
    bytes (sigBytes n) (assemble n salt a) = bytes (sigBytes n) a := by
  refine bytes_congr fun j _ => ?_
  unfold assemble
  rw [loop_put]
  by_cases h : 1 ≤ j ∧ j < 1 + 40
  · rw [if_pos h, salt_read _ _ (by omega), ← ha.2.1 (j - 1) (by omega)]
    congr 1
    omega
  · rw [if_neg h]
    by_cases h0 : j = 0
    · subst h0
      rw [upd_same]
      refine UInt8.toNat_inj.mp ?_
      rw [ha.1]
      rcases hn with rfl | rfl <;> rfl
    · exact upd_ne _ _ _ _ h0

open Classical in
theorem answer_sim {n : ℕ} (hn : ValidLog n) {h : Mem Ff} {f g F G : Mem Int} (tr : Trapdoor n h f g F G) (B0 T0 : Mem ℂ) (xof : Xof) (m R hfuel : ℕ)
    (sig : Mem UInt8) (msg : List UInt8) (S : Option (List UInt8 × List ℕ) → Prop) :
    let B := computeMatrixB exactA n f g F G B0
    |freq (40 + 18 * m * 2 ^ (n + 1) * R) (fun st => S (timedSigner xof m R hfuel n B (computeFalconTree exactA n B T0) sig msg st)) -
      simAns n m h (fun salt => hashToPoint hfuel n (xof ((List.range 40).map salt ++ msg)) (fun _ => Ff.zero)) R (fun o => if S o then 1 else 0)| ≤
      R * (1 / 2 ^ 22) := by
  intro B
  have main : ∀ S : Option (List UInt8 × List ℕ) → Prop, ¬ S none →
      |freq (40 + 18 * m * 2 ^ (n + 1) * R) (fun st => S (timedSigner xof m R hfuel n B (computeFalconTree exactA n B T0) sig msg st)) -
      simAns n m h (fun salt => hashToPoint hfuel n (xof ((List.range 40).map salt ++ msg)) (fun _ => Ff.zero)) R (fun o => if S o then 1 else 0)| ≤
      R * (1 / 2 ^ 22) := by
    intro S hS
    have hR : (0 : ℝ) ≤ R * (1 / 2 ^ 22) := mul_nonneg (Nat.cast_nonneg R) (by norm_num)
    unfold simAns
    rw [freq_salt]
    refine avg_near _ _ fun v => ?_
    simp only
    match hh : hashToPoint hfuel n (xof ((List.range 40).map (memOf v) ++ msg)) (fun _ => Ff.zero) with
    | none =>
      have e : (fun st => S (timedSigner xof m R hfuel n B (computeFalconTree exactA n B T0) sig msg (saltStream (memOf v) st))) = fun _ => False := by
        funext st
        simp only [timedSigner, salt_list, hh]
        exact propext ⟨fun h => hS h, False.elim⟩
      have e0 : freq (18 * m * 2 ^ (n + 1) * R) (fun _ => False) = 0 := by
        unfold freq
        simp
      have e1 : saltAns n m h R (memOf v) none (fun o => if S o then 1 else 0) = 0 := if_neg hS
      rw [e, e0, e1, sub_self, abs_zero]
      exact hR
    | some c =>
      have hcan : CanonBelow (2 ^ n) c := (hashToPoint_spec hh).1.canon
      have e1 := answer_salt hn tr B0 T0 xof m R hfuel sig msg (memOf v) hh hS
      have e2 := simSignMean_pr hn tr m c (fun l s => ∃ a, SignatureOf n a (memOf v) (tapeOf s.2) ∧
        S (some (bytes (sigBytes n) (assemble n (memOf v) a), l))) R []
      have e3 : timedVal n (memOf v) (fun o => if S o then 1 else 0) = fun l s => if ∃ a, SignatureOf n a (memOf v) (tapeOf s.2) ∧
        S (some (bytes (sigBytes n) (assemble n (memOf v) a), l)) then 1 else 0 := by
        funext l s
        unfold timedVal
        by_cases ha : ∃ a, SignatureOf n a (memOf v) (tapeOf s.2)
        · rw [dif_pos ha]
          have : (∃ a, SignatureOf n a (memOf v) (tapeOf s.2) ∧ S (some (bytes (sigBytes n) (assemble n (memOf v) a), l))) ↔
              S (some (bytes (sigBytes n) ha.choose, l)) := by
            constructor
            · rintro ⟨a, h1, h2⟩
              rwa [assemble_of hn h1, bytes_congr (signatureOf_unique h1 ha.choose_spec)] at h2
            · intro h2
              refine ⟨ha.choose, ha.choose_spec, ?_⟩
              rwa [assemble_of hn ha.choose_spec]
          simp only [this]
        · rw [dif_neg ha]
          change (if S none then (1 : ℝ) else 0) = _
          rw [if_neg hS, if_neg fun ⟨a, h1, _⟩ => ha ⟨a, h1⟩]
      have e4 : saltAns n m h R (memOf v) (some c) (fun o => if S o then 1 else 0) = simSignPr n (sigmaSig n) m h c (fun l s =>
          ∃ a, SignatureOf n a (memOf v) (tapeOf s.2) ∧ S (some (bytes (sigBytes n) (assemble n (memOf v) a), l))) R [] := by
        unfold saltAns
        simp only [if_neg hS]
        rw [e3]
        exact e2
      rw [e1, e4]
      exact timed_sign hn tr B0 T0 hcan m (memOf v) (Ev := fun l a => S (some (bytes (sigBytes n) (assemble n (memOf v) a), l)))
        (fun l a b hab => by rw [assemble_bytes hab]) R sig
  by_cases hS : S none
  · have h1 := main (fun o => ¬ S o) fun hx => hx hS
    have c1 := freq_compl (40 + 18 * m * 2 ^ (n + 1) * R) fun st => S (timedSigner xof m R hfuel n B (computeFalconTree exactA n B T0) sig msg st)
    have hM := simAns_mean hn tr m (fun salt => hashToPoint hfuel n (xof ((List.range 40).map salt ++ msg)) (fun _ => Ff.zero)) R
    have hu : Unit01 fun o => if S o then (1 : ℝ) else 0 := fun o => by simp only; split <;> norm_num
    have c2 := hM.lin (fun o => if S o then 1 else 0) (fun o => 1 - if S o then 1 else 0) 1 1 hu
      fun o => ⟨by linarith [(hu o).2], by linarith [(hu o).1]⟩
    have c3 : (fun o => 1 * (if S o then (1 : ℝ) else 0) + 1 * (1 - if S o then 1 else 0)) = fun _ => 1 := by
      funext o
      ring
    have c4 : (fun o => @ite ℝ (¬ S o) (Classical.propDecidable _) 1 0) = fun o => 1 - if S o then 1 else 0 := by
      funext o
      by_cases h : S o <;> simp [h]
    rw [c4] at h1
    rw [c3, hM.one] at c2
    rw [abs_le] at h1 ⊢
    constructor <;> linarith [h1.1, h1.2]
  · exact main S hS

/-- An adversary asks adaptively for Q signatures and sees all signature bytes and all iteration counts. It wins against the code with the probability with which it
wins when its questions are answered by the simulation, which uses the public key only, up to Q R 2^-22. -/
theorem C123_adversary {n : ℕ} (hn : ValidLog n) {h : Mem Ff} {f g F G : Mem Int} (tr : Trapdoor n h f g F G) (B0 T0 : Mem ℂ) (xof : Xof) (m R hfuel : ℕ)
    (sig : Mem UInt8) {A : TimedAdversary} {Q : ℕ} (hA : A.Asks Q) :
    let B := computeMatrixB exactA n f g F G B0
    let p := A.winsPr (40 + 18 * m * 2 ^ (n + 1) * R) (timedSigner xof m R hfuel n B (computeFalconTree exactA n B T0) sig)
    let r := A.simWinsPr n (sigmaSig n) m h (fun l => hashToPoint hfuel n (xof l) (fun _ => Ff.zero)) R
    |p - r| ≤ Q * (R * (1 / 2 ^ 22)) := by
  intro B p r
  have hR : (0 : ℝ) ≤ R * (1 / 2 ^ 22) := mul_nonneg (Nat.cast_nonneg R) (by norm_num)
  have hmem : ∀ A : TimedAdversary, 0 ≤ A.simWinsPr n (sigmaSig n) m h (fun l => hashToPoint hfuel n (xof l) (fun _ => Ff.zero)) R ∧
      A.simWinsPr n (sigmaSig n) m h (fun l => hashToPoint hfuel n (xof l) (fun _ => Ff.zero)) R ≤ 1 := by
    intro A
    induction A with
    | stop w =>
      unfold TimedAdversary.simWinsPr
      split <;> norm_num
    | ask msg next ih =>
      rw [simWins_ask]
      exact (simAns_mean hn tr m (fun salt => hashToPoint hfuel n (xof ((List.range 40).map salt ++ msg)) (fun _ => Ff.zero)) R).mem _ fun o => ih o
  simp only [p, r]
  clear p r
  induction hA with
  | stop w q =>
    simp only [TimedAdversary.winsPr, TimedAdversary.simWinsPr, sub_self, abs_zero]
    exact mul_nonneg (Nat.cast_nonneg q) hR
  | ask msg next q hnext ih =>
    have t1 := mean_close (L := 40 + 18 * m * 2 ^ (n + 1) * R) (timedSigner xof m R hfuel n B (computeFalconTree exactA n B T0) sig msg)
      (simAns_mean hn tr m (fun salt => hashToPoint hfuel n (xof ((List.range 40).map salt ++ msg)) (fun _ => Ff.zero)) R)
      (answer_sim hn tr B0 T0 xof m R hfuel sig msg)
      (φ := fun o => (next o).simWinsPr n (sigmaSig n) m h (fun l => hashToPoint hfuel n (xof l) (fun _ => Ff.zero)) R) fun o => hmem _
    have t2 := avg_near (L := 40 + 18 * m * 2 ^ (n + 1) * R) (d := q * (R * (1 / 2 ^ 22))) (fun v =>
      (next (timedSigner xof m R hfuel n B (computeFalconTree exactA n B T0) sig msg (memOf v))).winsPr (40 + 18 * m * 2 ^ (n + 1) * R)
        (timedSigner xof m R hfuel n B (computeFalconTree exactA n B T0) sig)) (fun v =>
      (next (timedSigner xof m R hfuel n B (computeFalconTree exactA n B T0) sig msg (memOf v))).simWinsPr n (sigmaSig n) m h
        (fun l => hashToPoint hfuel n (xof l) (fun _ => Ff.zero)) R) fun v => ih _
    have t3 := tri t2 t1
    refine le_trans (le_of_eq ?_) (t3.trans (le_of_eq ?_))
    · rw [simWins_ask]
      rfl
    · rw [Nat.cast_succ]
      ring

theorem TimedForger.asks_game {A : TimedForger} {Q : ℕ} (hA : A.Asks Q) (accepts : List UInt8 → Mem UInt8 → Prop) (asked : List (List UInt8)) :
    (A.game accepts asked).Asks Q := by
  induction hA generalizing asked with
  | output msg sig q => exact .stop _ q
  | ask msg next q h ih => exact .ask _ _ q fun o => ih o _

/-- A forger that asks adaptively for Q signatures, sees all iteration counts, and wins if `verify` accepts its output for a message that it has not asked for: its
probability of success against the code is that against the simulation, where no secret is used, up to Q R 2^-22. -/
theorem C123_forger {n : ℕ} (hn : ValidLog n) {h : Mem Ff} {f g F G : Mem Int} (tr : Trapdoor n h f g F G)
    (B0 T0 : Mem ℂ) (xof : Xof) (hfuel : ℕ) (sig pk : Mem UInt8) (junk : Junk) (ovf : Ovf) (lim m R : ℕ) {A : TimedForger} {Q : ℕ} (hA : A.Asks Q) :
    let B := computeMatrixB exactA n f g F G B0
    let accepts := fun msg s => verify xof hfuel ovf n junk pk msg (rdArr lim s) = some (.ok true)
    let p := (A.game accepts []).winsPr (40 + 18 * m * 2 ^ (n + 1) * R) (timedSigner xof m R hfuel n B (computeFalconTree exactA n B T0) sig)
    let r := (A.game accepts []).simWinsPr n (sigmaSig n) m h (fun l => hashToPoint hfuel n (xof l) (fun _ => Ff.zero)) R
    |p - r| ≤ Q * (R * (1 / 2 ^ 22)) :=
  C123_adversary hn tr B0 T0 xof m R hfuel sig (TimedForger.asks_game hA _ [])

/-- A forger that asks once and outputs the answer for another message, chosen by the first iteration count. -/
example (xof : Xof) (sig pk : Mem UInt8) (junk : Junk) :
    let A : TimedForger := .ask [1] fun o => .output [2, UInt8.ofNat ((o.bind fun a => a.2.head?).getD 0)] fun i => ((o.map Prod.fst).getD []).getD i 0
    let accepts := fun msg s => verify xof 20 .wrap 9 junk pk msg (rdArr 668 s) = some (.ok true)
    let B := computeMatrixB exactA 9 flatf flatg flatF flatG (fun _ => 0)
    |(A.game accepts []).winsPr (40 + 18 * 128 * 2 ^ (9 + 1) * 4) (timedSigner xof 128 4 20 9 B (computeFalconTree exactA 9 B (fun _ => 0)) sig) -
      (A.game accepts []).simWinsPr 9 (sigmaSig 9) 128 (computePublicKey 9 flatf flatg (fun _ => Ff.zero)) (fun l => hashToPoint 20 9 (xof l) (fun _ => Ff.zero)) 4| ≤
      1 / 2 ^ 20 := by
  intro A accepts B
  refine (C123_forger (.inl rfl) flat_trapdoor (fun _ => 0) (fun _ => 0) xof 20 sig pk junk .wrap 668 128 4 (A := A) (Q := 1)
    (.ask _ _ 0 fun _ => .output _ _ 0)).trans ?_
  norm_num

end Falcon
