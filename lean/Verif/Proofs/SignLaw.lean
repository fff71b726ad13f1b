import Verif.Proofs.CodeGauss
import Verif.Props.Sign
import Verif.Props.SigCodec

/-! # The law of the signing loop -/

namespace Falcon

namespace BTree

variable {α β : Type}

theorem mean_congr_run {t : BTree α} {n : ℕ} (hd : t.Depth n) {g h : α → ℝ} (H : ∀ s, g (t.run s 0).1 = h (t.run s 0).1) :
    t.mean g = t.mean h := by
  rw [← mean_eq hd, ← mean_eq hd]
  exact congrArg (· / _) (Finset.sum_congr rfl fun v _ => H _)

theorem mean_mul (t : BTree α) (g : α → ℝ) (c : ℝ) : t.mean (fun a => g a * c) = t.mean g * c := by
  induction t with
  | ret a => rfl
  | read f ih => simp only [mean, ih, ← Finset.sum_mul, div_mul_eq_mul_div]

/-- Repeat a program until a test of its result succeeds, at most `R` times. -/
def rej (t : BTree (Option (Except UB α))) (test : α → β → Except UB (Bool × β)) : ℕ → β → BTree (Option (Except UB β))
  | 0, _ => ret none
  | R + 1, b => t.bind fun
    | none => ret none
    | some (.error e) => ret (some (.error e))
    | some (.ok a) => match test a b with
      | .error e => ret (some (.error e))
      | .ok (true, out) => ret (some (.ok out))
      | .ok (false, out) => rej t test R out

/-- The same, telling apart the end of the rounds and a failure of the program. -/
def rejO (t : BTree (Option (Except UB α))) (test : α → β → Except UB (Bool × β)) : ℕ → β → BTree (Option (Except UB (Option β)))
  | 0, _ => ret (some (.ok none))
  | R + 1, b => t.bind fun
    | none => ret none
    | some (.error e) => ret (some (.error e))
    | some (.ok a) => match test a b with
      | .error e => ret (some (.error e))
      | .ok (true, out) => ret (some (.ok (some out)))
      | .ok (false, out) => rejO t test R out

/-- Not telling them apart. -/
def joinO : Option (Except UB (Option β)) → Option (Except UB β)
  | none => none
  | some (.error e) => some (.error e)
  | some (.ok none) => none
  | some (.ok (some b)) => some (.ok b)

theorem mean_rejO (t : BTree (Option (Except UB α))) (test : α → β → Except UB (Bool × β)) (F : Option (Except UB β) → ℝ) (R : ℕ) (b : β) :
    (rej t test R b).mean F = (rejO t test R b).mean fun x => F (joinO x) := by
  induction R generalizing b with
  | zero => rfl
  | succ R ih =>
    rw [rej, rejO, mean_bind, mean_bind]
    refine congrArg (mean t) (funext fun y => ?_)
    match y with
    | none => rfl
    | some (.error _) => rfl
    | some (.ok a) =>
      simp only
      match test a b with
      | .error _ => rfl
      | .ok (true, out) => rfl
      | .ok (false, out) => exact ih out

theorem depth_rej {t : BTree (Option (Except UB α))} {d : ℕ} (hd : t.Depth d) (test : α → β → Except UB (Bool × β)) :
    ∀ (R : ℕ) (b : β), (rej t test R b).Depth (d * R) := by
  intro R
  induction R with
  | zero => exact fun b => .ret _ _
  | succ R ih =>
    intro b
    rw [Nat.mul_succ, Nat.add_comm (d * R), rej]
    refine Depth.bind hd fun a => ?_
    match a with
    | none => exact .ret _ _
    | some (.error e) => exact .ret _ _
    | some (.ok a) =>
      simp only
      match test a b with
      | .error e => exact .ret _ _
      | .ok (true, out) => exact .ret _ _
      | .ok (false, out) => exact ih out

theorem mean_le_run {t : BTree α} {n : ℕ} (hd : t.Depth n) {g h : α → ℝ} (H : ∀ s, g (t.run s 0).1 ≤ h (t.run s 0).1) :
    t.mean g ≤ t.mean h := by
  rw [← mean_eq hd, ← mean_eq hd]
  exact div_le_div_of_nonneg_right (Finset.sum_le_sum fun v _ => H _) (by positivity)

end BTree

/-- One round of signing after sampling. -/
noncomputable def signTest (n : ℕ) (B t0 t1 : Mem ℂ) (z : Mem ℂ × Mem ℂ) (sig : Mem UInt8) : Except UB (Bool × Mem UInt8) :=
  let s := signVec exactA n B t0 t1 z.1 z.2
  if exactA.le (signNorm exactA n s.1 s.2) (exactA.lit (beta2 n)) then
    (signRound exactA n s.2).bind fun s2 => compressSigE n s2 sig
  else .ok (false, sig)

open OTree in
theorem signLoop_rej {n m : ℕ} {B T t0 t1 : Mem ℂ} {P : OTree (Mem ℂ × Mem ℂ)}
    (hP : ∀ (S : Type) (leaf : LeafSampler ℝ S) (s : S), ffSampling exactA leaf n 0 t0 t1 T (junkC exactA) (junkC exactA) s =
      bindO (interp leaf P s) fun r => some (.ok (r.1.1, r.1.2, r.2))) (stream : ℕ → UInt8) (R : ℕ) (sig : Mem UInt8) (p : ℕ) :
    signLoop exactA (codeLeaf false n m stream) n B T t0 t1 R sig p =
      ((BTree.rej (ctree false (sigmaMin n) m P) (signTest n B t0 t1) R sig).run stream p).1.map fun e => e.map fun out =>
        (out, ((BTree.rej (ctree false (sigmaMin n) m P) (signTest n B t0 t1) R sig).run stream p).2) := by
  induction R generalizing sig p with
  | zero => rfl
  | succ R ih =>
    rw [signLoop, hP, interp_ctree, BTree.rej, BTree.run_bind]
    generalize BTree.run (ctree false (sigmaMin n) m P) stream p = x
    obtain ⟨x, q⟩ := x
    match x with
    | none => rfl
    | some (.error e) => rfl
    | some (.ok a) =>
      show (if exactA.le _ _ = true then _ else _) = _
      simp only [signTest]
      by_cases hle : exactA.le (signNorm exactA n (signVec exactA n B t0 t1 a.1 a.2).1 (signVec exactA n B t0 t1 a.1 a.2).2)
          (exactA.lit (beta2 n)) = true
      · rw [if_pos hle]
        simp only [if_pos hle]
        match signRound exactA n (signVec exactA n B t0 t1 a.1 a.2).2 with
        | .error e => rfl
        | .ok s2 =>
          show bindO (some (compressSigE n s2 sig)) _ = _
          simp only [Except.bind]
          match compressSigE n s2 sig with
          | .error e => rfl
          | .ok (true, out) => rfl
          | .ok (false, out) => exact ih out q
      · rw [if_neg hle]
        simp only [if_neg hle]
        exact ih sig q

/-- Header and salt. -/
def assemble (n : ℕ) (salt : ℕ → UInt8) (out : Mem UInt8) : Mem UInt8 :=
  loop 40 (fun i sig => upd sig (1 + i) (prngRead salt 0 40 (fun _ => 0) i)) (upd out 0 (0x30 ||| UInt8.ofNat n))

theorem tape_fin {n : ℕ} (u : Mem Int) : ∀ i, i < 2 ^ n → tapeOf (fun j : Fin (2 ^ n) => u j.1) i = u i := by
  intro i hi
  unfold tapeOf
  rw [dif_pos hi]

/-- What one round does with the result of sampling. -/
theorem signTest_ok {n : ℕ} (hn : ValidLog n) {f g F G : Mem Int} (heq : NtruEq n f g F G) (B0 : Mem ℂ) (c : Mem Ff) {z : Mem ℂ × Mem ℂ}
    {a0 a1 : Mem Int} (h0 : IsDftOf n z.1 a0) (h1 : IsDftOf n z.2 a1) (salt : ℕ → UInt8) :
    let B := computeMatrixB exactA n f g F G B0
    let t := signTarget exactA n B c
    ∃ s : PairZ n, IsDftOf n (signVec exactA n B t.1 t.2 z.1 z.2).1 (tapeOf s.1) ∧ IsDftOf n (signVec exactA n B t.1 t.2 z.1 z.2).2 (tapeOf s.2) ∧
      (Accept n s → ∀ sig, ∃ out, signTest n B t.1 t.2 z sig = .ok (true, out) ∧ SignatureOf n (assemble n salt out) salt (tapeOf s.2)) ∧
      (¬ Accept n s → ∀ sig, ∃ out, signTest n B t.1 t.2 z sig = .ok (false, out)) := by
  intro B t
  have hn10 : n ≤ 10 := by rcases hn with rfl | rfl <;> norm_num
  obtain ⟨u0, u1, -, -, d0, d1⟩ := signVec_int hn10 heq B0 c h0 h1
  let s : PairZ n := (fun j => u0 j.1, fun j => u1 j.1)
  have d0 : IsDftOf n (signVec exactA n B t.1 t.2 z.1 z.2).1 (tapeOf s.1) := fun i hi =>
    (d0 i hi).trans (zC_congr_dft (fun j hj => (tape_fin u0 j hj).symm) i)
  have d1 : IsDftOf n (signVec exactA n B t.1 t.2 z.1 z.2).2 (tapeOf s.2) := fun i hi =>
    (d1 i hi).trans (zC_congr_dft (fun j hj => (tape_fin u1 j hj).symm) i)
  clear_value s
  have hle := signNorm_int hn d0 d1
  have hsq : sqNorm (2 ^ n) (tapeOf s.1) + sqNorm (2 ^ n) (tapeOf s.2) = pairSq s := by
    have e1 := sqNorm_tape s.1
    have e2 := sqNorm_tape s.2
    unfold pairSq
    have : ((sqNorm (2 ^ n) (tapeOf s.1) + sqNorm (2 ^ n) (tapeOf s.2) : ℤ) : ℝ) = ((∑ i, s.1 i ^ 2 + ∑ i, s.2 i ^ 2 : ℤ) : ℝ) := by
      push_cast
      rw [e1, e2]
    exact_mod_cast this
  rw [hsq] at hle
  refine ⟨s, d0, d1, ?_⟩
  by_cases hb : pairSq s ≤ betaSq n
  swap
  · refine ⟨fun h => absurd h.1 hb, fun _ sig => ⟨sig, ?_⟩⟩
    unfold signTest
    simp only
    rw [if_neg (fun h => hb (hle.mp h))]
  have hb' := hsq ▸ hb
  obtain ⟨s2, r1, r2, r3⟩ := signRound_int hn10 d1 (fun i hi => coeff_le_norm hb' i hi)
  have es : s2 = tapeOf s.2 := by
    funext i
    by_cases hi : i < 2 ^ n
    · exact r2 i hi
    · rw [r3 i (by omega)]
      unfold tapeOf
      rw [dif_neg hi]
  rw [es] at r1
  have hlen : (codes (tapeOf s.2) (2 ^ n)).length = ∑ i, (9 + (s.2 i).natAbs / 128) := by
    rw [codes_length, Finset.sum_range]
    refine Finset.sum_congr rfl fun i _ => ?_
    rw [tapeOf_lt s.2 i.2]
  have hcomp : ∀ sig, ∃ out, signTest n B t.1 t.2 z sig = .ok (decide (∑ i, (9 + (s.2 i).natAbs / 128) < 8 * (sigBytes n - 41)), out) ∧
      compressSigE n (tapeOf s.2) sig = .ok (decide (∑ i, (9 + (s.2 i).natAbs / 128) < 8 * (sigBytes n - 41)), out) := by
    intro sig
    have hdef := C16_compress_defined hn (tapeOf s.2) sig (by
      have := sqNorm_nonneg (2 ^ n) (tapeOf s.1)
      have : sqNorm (2 ^ n) (tapeOf s.2) ≤ betaSq n := by linarith
      exact this)
    have hub := mt (C16_compress_ub_iff hn (tapeOf s.2) sig).mpr (by
      rintro ⟨e, he⟩
      obtain ⟨r, hr⟩ := hdef
      rw [hr] at he
      cases he)
    push Not at hub
    rw [← codes_length] at hub
    obtain ⟨ok, out, c1, c2, -⟩ := C15_compress_spec hn (tapeOf s.2) sig hub.1 hub.2
    rw [hlen] at c2
    have eok : ok = decide (∑ i, (9 + (s.2 i).natAbs / 128) < 8 * (sigBytes n - 41)) := by
      rw [Bool.eq_iff_iff, decide_eq_true_iff]; exact c2
    rw [eok] at c1
    refine ⟨out, ?_, c1⟩
    unfold signTest
    simp only
    rw [if_pos (hle.mpr hb), show signRound exactA n (signVec exactA n B t.1 t.2 z.1 z.2).2 = .ok (tapeOf s.2) from r1]
    exact c1
  constructor
  · intro ha sig
    obtain ⟨out, o1, o2⟩ := hcomp sig
    rw [decide_eq_true ha.2] at o1 o2
    refine ⟨out, o1, ?_⟩
    have := (assemble_ok hn (stream := salt) (pos := 0) [] o2 rfl).1
    simp only [Nat.zero_add] at this
    exact this
  · intro ha sig
    obtain ⟨out, o1, o2⟩ := hcomp sig
    rw [decide_eq_false fun h => ha ⟨hb, h⟩] at o1
    exact ⟨out, o1⟩

/-- The bytes of a signature are determined by the salt and s2. -/
theorem signatureOf_unique {n : ℕ} {a b : Mem UInt8} {salt : ℕ → UInt8} {s2 : Mem Int} (ha : SignatureOf n a salt s2)
    (hb : SignatureOf n b salt s2) : ∀ j, j < sigBytes n → a j = b j := by
  intro j hj
  by_cases h0 : j = 0
  · subst h0
    exact UInt8.toNat_inj.mp (ha.1.trans hb.1.symm)
  by_cases h1 : j < 41
  · obtain ⟨i, rfl⟩ : ∃ i, j = 1 + i := ⟨j - 1, by omega⟩
    rw [ha.2.1 i (by omega), hb.2.1 i (by omega)]
  · apply UInt8.toNat_inj.mp
    apply Nat.eq_of_testBit_eq
    intro k
    by_cases hk : k < 8
    · have e1 := ha.2.2.2 (8 * (j - 41) + (7 - k)) (by omega)
      have e2 := hb.2.2.2 (8 * (j - 41) + (7 - k)) (by omega)
      rw [← e2] at e1
      unfold bitAt at e1
      rw [show (328 + (8 * (j - 41) + (7 - k))) / 8 = j by omega, show 7 - (328 + (8 * (j - 41) + (7 - k))) % 8 = k by omega] at e1
      exact e1
    · have hp : 2 ^ 8 ≤ 2 ^ k := Nat.pow_le_pow_right (by norm_num) (by omega)
      rw [Nat.testBit_lt_two_pow (by have := (a j).toNat_lt; omega), Nat.testBit_lt_two_pow (by have := (b j).toNat_lt; omega)]

section
open OTree BTree

open Classical in
/-- A function of signatures at a pair. -/
noncomputable def sigVal (n : ℕ) (salt : ℕ → UInt8) (val : Option (List UInt8) → ℝ) (s : PairZ n) : ℝ :=
  if ha : ∃ a, SignatureOf n a salt (tapeOf s.2) then val (some (bytes (sigBytes n) ha.choose)) else val none

theorem bytes_congr {k : ℕ} {a b : Mem UInt8} (h : ∀ j, j < k → a j = b j) : bytes k a = bytes k b :=
  List.map_congr_left fun j hj => h j (List.mem_range.mp hj)

theorem bytes_inj {k : ℕ} {a b : Mem UInt8} (h : bytes k a = bytes k b) (j : ℕ) (hj : j < k) : a j = b j :=
  List.map_inj_left.mp h j (List.mem_range.mpr hj)

theorem sigVal_of {n : ℕ} {salt : ℕ → UInt8} {val : Option (List UInt8) → ℝ} {s : PairZ n} {a : Mem UInt8}
    (ha : SignatureOf n a salt (tapeOf s.2)) : sigVal n salt val s = val (some (bytes (sigBytes n) a)) := by
  have he : ∃ a, SignatureOf n a salt (tapeOf s.2) := ⟨a, ha⟩
  unfold sigVal
  rw [dif_pos he, bytes_congr (signatureOf_unique he.choose_spec ha)]

theorem sigVal_prop {n : ℕ} {salt : ℕ → UInt8} {val : Option (List UInt8) → ℝ} {Q : ℝ → Prop} (hQ : ∀ o, Q (val o)) (s : PairZ n) :
    Q (sigVal n salt val s) := by
  unfold sigVal
  split
  · exact hQ _
  · exact hQ _

/-- Functions with values between 0 and 1. -/
def Unit01 {ι : Type} (f : ι → ℝ) : Prop := ∀ x, 0 ≤ f x ∧ f x ≤ 1

theorem Unit01.sq {ι : Type} {f : ι → ℝ} (h : Unit01 f) : Unit01 fun x => f x ^ 2 := fun x => ⟨sq_nonneg _, pow_le_one₀ (h x).1 (h x).2⟩

theorem Unit01.sigVal {n : ℕ} {salt : ℕ → UInt8} {val : Option (List UInt8) → ℝ} (h : Unit01 val) : Unit01 (sigVal n salt val) :=
  fun s => sigVal_prop (Q := fun x => 0 ≤ x ∧ x ≤ 1) h s

open Classical in
theorem rejectMean_mem {n : ℕ} (hn : ValidLog n) {h : Mem Ff} {f g F G : Mem Int} (tr : Trapdoor n h f g F G) (c : Mem Ff)
    {e : PairZ n → ℝ} (he : Unit01 e) {d : ℝ} (hd : 0 ≤ d ∧ d ≤ 1) (R : ℕ) :
    0 ≤ rejectMean n (sigmaSig n) h c e d R ∧ rejectMean n (sigmaSig n) h c e d R ≤ 1 := by
  induction R with
  | zero => exact hd
  | succ R ih =>
    have h0 : Unit01 fun s => (if Accept n s then e s else rejectMean n (sigmaSig n) h c e d R) := fun s => by
      simp only
      split <;> first | exact he s | exact ih
    refine ⟨cosetMean_nonneg fun s => (h0 s).1, ?_⟩
    have := cosetMean_mono hn tr c (fun s => (h0 s).1) (fun s => (h0 s).2) (b := 1) fun _ => le_rfl
    rwa [cosetMean_const hn tr] at this

/-- What is proved of a program `U` that returns signatures, or fails, in terms of the ideal `S`; both are given as means of functions of the result, where a failure counts 0. -/
structure SubMean (U S : (Option (List UInt8) → ℝ) → ℝ) (ρ δ err : ℝ) : Prop where
  lin : ∀ f g a b, U (fun o => a * f o + b * g o) = a * U f + b * U g
  nonneg : ∀ f, (∀ o, 0 ≤ f o) → 0 ≤ U f
  le_one : U (fun _ => 1) ≤ 1
  low : 1 - δ ≤ U fun _ => 1
  sq : ∀ f, Unit01 f → U f ^ 2 ≤ ρ * S fun o => f o ^ 2
  near : ∀ f, Unit01 f → |U f - S f| ≤ err

/-- The signing loop for a given salt, as means of functions of the signature. -/
theorem sign_mean {n : ℕ} (hn : ValidLog n) {h : Mem Ff} {f g F G : Mem Int} (tr : Trapdoor n h f g F G)
    (B0 T0 : Mem ℂ) (xof : Xof) (hfuel : ℕ) (msg : List UInt8) (sig : Mem UInt8) (salt : ℕ → UInt8) {c : Mem Ff}
    (hc : hashToPoint hfuel n (xof ((List.range 40).map salt ++ msg)) (fun _ => Ff.zero) = some c) (m R : ℕ) :
    let B := computeMatrixB exactA n f g F G B0
    ∃ U, SubMean U (fun val => rejectMean n (sigmaSig n) h c (sigVal n salt val) (val none) R) ((1 + 1 / 2 ^ 64) ^ R)
        (R * (2 ^ (n + 1) * (1 / 2 ^ m))) (R * roundErr n m) ∧
      ∀ val : Option (List UInt8) → ℝ,
        (∑ v : Fin (18 * m * 2 ^ (n + 1) * R) → UInt8,
          val (exactSigner xof m R hfuel n B (computeFalconTree exactA n B T0) sig msg (saltStream salt (memOf v)))) / 256 ^ (18 * m * 2 ^ (n + 1) * R) =
          U val + val none * (1 - U fun _ => 1) := by
  classical
  intro B
  have hn10 : n ≤ 10 := by rcases hn with rfl | rfl <;> norm_num
  have hcan : CanonBelow (2 ^ n) c := (hashToPoint_spec hc).1.canon
  obtain ⟨P, hd, hP, hround⟩ := trap_round hn tr B0 T0 (junkC exactA) (junkC exactA) hcan
  set t := signTarget exactA n B c with htt
  have hdc := depth_ctree false (sigmaMin n) m hd
  let D : Mem ℂ × Mem ℂ → PairZ n → Prop := fun y s =>
    IsDftOf n (signVec exactA n B t.1 t.2 y.1 y.2).1 (tapeOf s.1) ∧ IsDftOf n (signVec exactA n B t.1 t.2 y.1 y.2).2 (tapeOf s.2)
  have uniq : ∀ y s s', D y s → D y s' → s = s' := fun y s s' hs hs' => dft_unique hn10 hs hs'
  have reach : ∀ s a, ((ctree false (sigmaMin n) m P).run s 0).1 = some (.ok a) → ∃ s : PairZ n, D a s ∧
      (Accept n s → ∀ sig, ∃ out, signTest n B t.1 t.2 a sig = .ok (true, out) ∧ SignatureOf n (assemble n salt out) salt (tapeOf s.2)) ∧
      (¬ Accept n s → ∀ sig, ∃ out, signTest n B t.1 t.2 a sig = .ok (false, out)) := by
    intro st a ha
    have hrun : ffSampling exactA (codeLeaf false n m st) n 0 t.1 t.2 (computeFalconTree exactA n B T0) (junkC exactA) (junkC exactA) 0
        = some (.ok (a.1, a.2, ((ctree false (sigmaMin n) m P).run st 0).2)) := by
      rw [hP, interp_ctree, ha]; rfl
    obtain ⟨a0, a1, i0, i1⟩ := C48_integer _ n hn10 _ _ _ _ _ _ _ hrun
    obtain ⟨s, s1, s2, s3, s4⟩ := signTest_ok hn tr.eq B0 c (z := a) i0 i1 salt
    exact ⟨s, ⟨s1, s2⟩, s3, s4⟩
  -- the loop as a program
  let Fv : (Option (List UInt8) → ℝ) → Option (Except UB (Option (Mem UInt8))) → ℝ := fun val x => match x with
    | some (.ok (some out)) => val (some (bytes (sigBytes n) (assemble n salt out)))
    | some (.ok none) => val none
    | _ => 0
  have Fv0 : ∀ val, (∀ o, 0 ≤ val o) → ∀ x, 0 ≤ Fv val x := fun val hv x => match x with
    | none => le_rfl
    | some (.error _) => le_rfl
    | some (.ok none) => hv _
    | some (.ok (some _)) => hv _
  have Fv1 : ∀ val, (∀ o, val o ≤ 1) → ∀ x, Fv val x ≤ 1 := fun val hv x => match x with
    | none => zero_le_one
    | some (.error _) => zero_le_one
    | some (.ok none) => hv _
    | some (.ok (some _)) => hv _
  have Flin : ∀ f g a b, Fv (fun o => a * f o + b * g o) = fun x => a * Fv f x + b * Fv g x := by
    intro f g a b
    funext x
    match x with
    | none => simp [Fv]
    | some (.error _) => simp [Fv]
    | some (.ok none) => rfl
    | some (.ok (some _)) => rfl
  let Uv : ℕ → Mem UInt8 → (Option (List UInt8) → ℝ) → ℝ := fun R b val => (rejO (ctree false (sigmaMin n) m P) (signTest n B t.1 t.2) R b).mean (Fv val)
  refine ⟨Uv R sig, ?_, ?_⟩
  swap
  · intro val
    let Fj : Option (Except UB (Mem UInt8)) → ℝ := fun x => val (match x with
      | some (.ok out) => some (bytes (sigBytes n) (assemble n salt out))
      | _ => none)
    have eV : (∑ v : Fin (18 * m * 2 ^ (n + 1) * R) → UInt8,
          val (exactSigner xof m R hfuel n B (computeFalconTree exactA n B T0) sig msg (saltStream salt (memOf v)))) / 256 ^ (18 * m * 2 ^ (n + 1) * R) =
        (rej (ctree false (sigmaMin n) m P) (signTest n B t.1 t.2) R sig).mean Fj := by
      rw [← mean_eq (depth_rej hdc _ R sig)]
      refine congrArg (· / _) (Finset.sum_congr rfl fun v _ => ?_)
      have hsalt : prngRead (saltStream salt (memOf v)) 0 40 (fun _ => 0) = prngRead salt 0 40 (fun _ => 0) := by
        funext i
        unfold prngRead
        rw [loop_fill, loop_fill]
        split
        · unfold saltStream
          rw [if_pos (by omega)]
        · rfl
      have hbytes : bytes 40 (prngRead salt 0 40 (fun _ => 0)) = (List.range 40).map salt := by
        unfold bytes
        refine List.map_congr_left fun i hi => ?_
        unfold prngRead
        rw [loop_fill, if_pos (List.mem_range.mp hi), Nat.zero_add]
      have hshift := BTree.run_shift (rej (ctree false (sigmaMin n) m P) (signTest n B t.1 t.2) R sig) (saltStream salt (memOf v)) (memOf v) 40 0
        fun i => by
          unfold saltStream
          rw [if_neg (by omega)]
          congr 1
          omega
      refine congrArg val ?_
      unfold exactSigner signPoly
      simp only [hsalt, hbytes, hc, Nat.zero_add]
      rw [← htt, signLoop_rej hP, hshift]
      generalize ((rej (ctree false (sigmaMin n) m P) (signTest n B t.1 t.2) R sig).run (saltStream salt (memOf v)) 40).2 = q
      match ((rej (ctree false (sigmaMin n) m P) (signTest n B t.1 t.2) R sig).run (memOf v) 0).1 with
      | none => rfl
      | some (.error u) => rfl
      | some (.ok out) => rfl
    rw [eV, mean_rejO]
    have e1 : (fun x => Fj (joinO x)) = fun x => Fv val x + (val none + -val none * Fv (fun _ => 1) x) := by
      funext x
      match x with
      | none => simp [Fj, Fv, joinO]
      | some (.error _) => simp [Fj, Fv, joinO]
      | some (.ok none) => simp [Fj, Fv, joinO]
      | some (.ok (some _)) => simp [Fj, Fv, joinO]
    rw [e1, mean_add, mean_add, mean_const, mean_smul]
    simp only [Uv]
    ring
  -- the result of a round, in terms of the pair
  let Gv : (PairZ n → ℝ) → ℝ → Option (Except UB (Mem ℂ × Mem ℂ)) → ℝ := fun e x y => match y with
    | some (.ok a) => if hs : ∃ s, D a s then (if Accept n hs.choose then e hs.choose else x) else 0
    | _ => 0
  have hGv : ∀ e x a s, D a s → Gv e x (some (.ok a)) = if Accept n s then e s else x := by
    intro e x a s hs
    have hex : ∃ s, D a s := ⟨s, hs⟩
    show (if hs : ∃ s, D a s then (if Accept n hs.choose then e hs.choose else x) else 0) = _
    rw [dif_pos hex, uniq _ _ _ hex.choose_spec hs]
  have hGv01 : ∀ e x, Unit01 e → 0 ≤ x ∧ x ≤ 1 → ∀ a, 0 ≤ Gv e x (some (.ok a)) ∧ Gv e x (some (.ok a)) ≤ 1 := by
    intro e x he hx a
    show 0 ≤ (if hs : ∃ s, D a s then (if Accept n hs.choose then e hs.choose else x) else 0) ∧ (if hs : ∃ s, D a s then (if Accept n hs.choose then e hs.choose else x) else 0) ≤ 1
    split
    · split
      · exact he _
      · exact hx
    · exact ⟨le_rfl, zero_le_one⟩
  let Hv : (Option (List UInt8) → ℝ) → ℕ → Mem UInt8 → Option (Except UB (Mem ℂ × Mem ℂ)) → ℝ := fun val R b y => mean (match y with
    | none => ret none
    | some (.error e) => ret (some (.error e))
    | some (.ok a) => match signTest n B t.1 t.2 a b with
      | .error e => ret (some (.error e))
      | .ok (true, out) => ret (some (.ok (some out)))
      | .ok (false, out) => rejO (ctree false (sigmaMin n) m P) (signTest n B t.1 t.2) R out) (Fv val)
  have hstep : ∀ val R b, Uv (R + 1) b val = (ctree false (sigmaMin n) m P).mean (Hv val R b) := fun val R b => by
    show (rejO (ctree false (sigmaMin n) m P) (signTest n B t.1 t.2) (R + 1) b).mean (Fv val) = _
    rw [rejO, mean_bind]
    refine congrArg (mean _) (funext fun y => ?_)
    match y with
    | none => rfl
    | some (.error _) => rfl
    | some (.ok a) =>
      simp only [Hv]
      match signTest n B t.1 t.2 a b with
      | .error _ => rfl
      | .ok (true, out) => rfl
      | .ok (false, out) => rfl
  have hcase : ∀ val R b st, (∃ x, ((ctree false (sigmaMin n) m P).run st 0).1 = x ∧ Hv val R b x = 0 ∧ ∀ e y, Gv e y x = 0) ∨
      ∃ a s, ((ctree false (sigmaMin n) m P).run st 0).1 = some (.ok a) ∧ D a s ∧
        ((Accept n s ∧ Hv val R b (some (.ok a)) = sigVal n salt val s) ∨ (¬ Accept n s ∧ ∃ out, Hv val R b (some (.ok a)) = Uv R out val)) := by
    intro val R b st
    have hst := reach st
    generalize ((ctree false (sigmaMin n) m P).run st 0).1 = x at hst
    match x with
    | none => exact .inl ⟨_, rfl, rfl, fun _ _ => rfl⟩
    | some (.error u) => exact .inl ⟨_, rfl, rfl, fun _ _ => rfl⟩
    | some (.ok a) =>
      obtain ⟨s, s1, s2, s3⟩ := hst a rfl
      refine .inr ⟨a, s, rfl, s1, ?_⟩
      by_cases ha : Accept n s
      · obtain ⟨out, o1, o2⟩ := s2 ha b
        refine .inl ⟨ha, ?_⟩
        simp only [Hv, o1, mean]
        rw [sigVal_of o2]
      · obtain ⟨out, o1⟩ := s3 ha b
        refine .inr ⟨ha, out, ?_⟩
        simp only [Hv, o1, Uv]
  have hV0 : ∀ val, (∀ o, 0 ≤ val o) → ∀ R b, 0 ≤ Uv R b val := fun val hv R b => by
    have := mean_mono (rejO (ctree false (sigmaMin n) m P) (signTest n B t.1 t.2) R b) (g := fun _ => 0) (h := Fv val) (Fv0 val hv)
    rwa [mean_const] at this
  have hV1 : ∀ val, (∀ o, val o ≤ 1) → ∀ R b, Uv R b val ≤ 1 := fun val hv R b => by
    have := mean_mono (rejO (ctree false (sigmaMin n) m P) (signTest n B t.1 t.2) R b) (g := Fv val) (h := fun _ => 1) (Fv1 val hv)
    rwa [mean_const] at this
  have hδ : 0 ≤ roundErr n m := by unfold roundErr; positivity
  refine ⟨fun f g a b => ?_, fun f hf => hV0 f hf R sig, hV1 _ (fun _ => le_rfl) R sig, ?_, fun val hval => ?_, fun val hval => ?_⟩
  · show mean _ _ = a * mean _ _ + b * mean _ _
    rw [Flin, mean_add, mean_smul, mean_smul]
  · -- failures
    suffices key : ∀ R b, 1 - R * (2 ^ (n + 1) * (1 / 2 ^ m)) ≤ Uv R b fun _ => 1 from key R sig
    intro R
    induction R with
    | zero => intro b; simp [Uv, rejO, mean, Fv]
    | succ R ih =>
      intro b
      rw [hstep (fun _ => 1) R b]
      have h01 : Unit01 fun _ : PairZ n => (1 : ℝ) := fun _ => ⟨zero_le_one, le_rfl⟩
      obtain ⟨-, -, -, r4⟩ := hround m (fun s => if Accept n s then 1 else 1) (Gv (fun _ => 1) 1) (fun s => by split <;> norm_num)
        (fun s => by split <;> norm_num) rfl (fun a => (hGv01 _ _ h01 ⟨zero_le_one, le_rfl⟩ a).1) (fun a => (hGv01 _ _ h01 ⟨zero_le_one, le_rfl⟩ a).2)
        (fun a s h1 h2 => hGv (fun _ => 1) 1 a s ⟨h1, h2⟩)
      have r4 := r4 fun s => by split <;> rfl
      have hR : (0 : ℝ) ≤ R * (2 ^ (n + 1) * (1 / 2 ^ m)) := by positivity
      have hle : (ctree false (sigmaMin n) m P).mean (fun x => Gv (fun _ => 1) 1 x + -(R * (2 ^ (n + 1) * (1 / 2 ^ m)))) ≤
          (ctree false (sigmaMin n) m P).mean (Hv (fun _ => 1) R b) := by
        refine mean_le_run hdc fun st => ?_
        rcases hcase (fun _ => 1) R b st with ⟨x, ex, h1, h2⟩ | ⟨a, s, ea, hs, h1 | ⟨h1, out, h2⟩⟩
        · rw [ex, h1, h2 (fun _ => 1) 1]; linarith
        · rw [ea, h1.2, hGv (fun _ => 1) 1 a s hs, if_pos h1.1, sigVal_prop (Q := fun x => x = 1) (fun _ => rfl)]; linarith
        · rw [ea, h2, hGv (fun _ => 1) 1 a s hs, if_neg h1]
          linarith [ih out]
      rw [mean_add, mean_const] at hle
      push_cast
      linarith
  · -- relative
    suffices key : ∀ R b, Uv R b val ^ 2 ≤ (1 + 1 / 2 ^ 64) ^ R * rejectMean n (sigmaSig n) h c (sigVal n salt fun o => val o ^ 2) (val none ^ 2) R from
      key R sig
    obtain ⟨e, he⟩ : ∃ e : PairZ n → ℝ, e = sigVal n salt val := ⟨_, rfl⟩
    have he01 : Unit01 e := by rw [he]; exact hval.sigVal
    have hsq : (sigVal n salt fun o => val o ^ 2) = fun s => e s ^ 2 := by
      funext s
      rw [he]
      unfold sigVal
      split <;> rfl
    rw [hsq]
    have hW2 := rejectMean_mem hn tr c he01.sq (hval.sq none)
    intro R
    induction R with
    | zero =>
      intro b
      simp [Uv, rejO, mean, rejectMean, Fv]
    | succ R ih =>
      intro b
      rw [hstep]
      obtain ⟨w2, hw2⟩ : ∃ w2, w2 = rejectMean n (sigmaSig n) h c (fun s => e s ^ 2) (val none ^ 2) R := ⟨_, rfl⟩
      have hw201 := hW2 R
      rw [← hw2] at hw201 ih
      have eW2 : rejectMean n (sigmaSig n) h c (fun s => e s ^ 2) (val none ^ 2) (R + 1) =
          cosetMean n (sigmaSig n) h c fun s => if Accept n s then e s ^ 2 else w2 := by
        rw [hw2]; rfl
      rw [eW2]
      have hρ : (1 : ℝ) ≤ (1 + 1 / 2 ^ 64) ^ R := one_le_pow₀ (by norm_num)
      obtain ⟨M, hM⟩ : ∃ M, M = min 1 √((1 + 1 / 2 ^ 64) ^ R * w2) := ⟨_, rfl⟩
      have hρw : 0 ≤ (1 + 1 / 2 ^ 64) ^ R * w2 := mul_nonneg (by linarith) hw201.1
      have M0 : 0 ≤ M := by rw [hM]; exact le_min zero_le_one (Real.sqrt_nonneg _)
      have M1 : M ≤ 1 := by rw [hM]; exact min_le_left _ _
      have M2 : M ^ 2 ≤ (1 + 1 / 2 ^ 64) ^ R * w2 := by
        calc M ^ 2 ≤ √((1 + 1 / 2 ^ 64) ^ R * w2) ^ 2 := pow_le_pow_left₀ M0 (by rw [hM]; exact min_le_right _ _) 2
          _ = _ := Real.sq_sqrt hρw
      have MV : ∀ out, Uv R out val ≤ M := by
        intro out
        rw [hM]
        exact le_min (hV1 val (fun o => (hval o).2) R out) (Real.le_sqrt_of_sq_le (ih out))
      have hle : (ctree false (sigmaMin n) m P).mean (Hv val R b) ≤ (ctree false (sigmaMin n) m P).mean (Gv e M) := by
        refine mean_le_run hdc fun st => ?_
        rcases hcase val R b st with ⟨x, ex, h1, h2⟩ | ⟨a, s, ea, hs, h1 | ⟨h1, out, h2⟩⟩
        · rw [ex, h1, h2]
        · rw [ea, h1.2, hGv e M a s hs, if_pos h1.1, he]
        · rw [ea, h2, hGv e M a s hs, if_neg h1]
          exact MV out
      have h0 : 0 ≤ (ctree false (sigmaMin n) m P).mean (Hv val R b) := by rw [← hstep]; exact hV0 val (fun o => (hval o).1) _ _
      obtain ⟨-, r2, -, -⟩ := hround m (fun s => if Accept n s then e s else M) (Gv e M) (fun s => by split <;> first | exact (he01 s).1 | exact M0)
        (fun s => by split <;> first | exact (he01 s).2 | exact M1) rfl (fun a => (hGv01 e M he01 ⟨M0, M1⟩ a).1) (fun a => (hGv01 e M he01 ⟨M0, M1⟩ a).2)
        (fun a s h1 h2 => hGv e M a s ⟨h1, h2⟩)
      have hm : cosetMean n (sigmaSig n) h c (fun s => (if Accept n s then e s else M) ^ 2) ≤
          (1 + 1 / 2 ^ 64) ^ R * cosetMean n (sigmaSig n) h c fun s => if Accept n s then e s ^ 2 else w2 := by
        rw [← cosetMean_smul]
        refine cosetMean_mono hn tr c (fun s => sq_nonneg _) (fun s => ?_) (b := (1 + 1 / 2 ^ 64) ^ R) (fun s => ?_)
        · split
          · nlinarith [(he01.sq s).1]
          · exact M2
        · refine mul_le_of_le_one_right (by linarith) ?_
          split
          · exact (he01.sq s).2
          · exact hw201.2
      calc (ctree false (sigmaMin n) m P).mean (Hv val R b) ^ 2 ≤ (ctree false (sigmaMin n) m P).mean (Gv e M) ^ 2 := pow_le_pow_left₀ h0 hle 2
        _ ≤ _ := r2.trans (mul_le_mul_of_nonneg_left hm (by norm_num))
        _ = _ := by rw [pow_succ]; ring
  · -- additive
    suffices key : ∀ R b, |Uv R b val - rejectMean n (sigmaSig n) h c (sigVal n salt val) (val none) R| ≤ R * roundErr n m from key R sig
    obtain ⟨e, he⟩ : ∃ e : PairZ n → ℝ, e = sigVal n salt val := ⟨_, rfl⟩
    have he01 : Unit01 e := by rw [he]; exact hval.sigVal
    have hW := rejectMean_mem hn tr c he01 (hval none)
    rw [← he]
    intro R
    induction R with
    | zero =>
      intro b
      simp [Uv, rejO, mean, rejectMean, Fv]
    | succ R ih =>
      intro b
      rw [hstep]
      obtain ⟨w, hw⟩ : ∃ w, w = rejectMean n (sigmaSig n) h c e (val none) R := ⟨_, rfl⟩
      have hw01 := hW R
      rw [← hw] at ih hw01
      have eW : rejectMean n (sigmaSig n) h c e (val none) (R + 1) = cosetMean n (sigmaSig n) h c fun s => if Accept n s then e s else w := by
        rw [hw]; rfl
      rw [eW]
      have h1 : |(ctree false (sigmaMin n) m P).mean (Hv val R b) - (ctree false (sigmaMin n) m P).mean (Gv e w)| ≤ R * roundErr n m := by
        refine mean_dist hdc fun st => ?_
        have hR : (0 : ℝ) ≤ R * roundErr n m := by positivity
        rcases hcase val R b st with ⟨x, ex, h1, h2⟩ | ⟨a, s, ea, hs, h1 | ⟨h1, out, h2⟩⟩
        · rw [ex, h1, h2, sub_zero, abs_zero]
          exact hR
        · rw [ea, h1.2, hGv e w a s hs, if_pos h1.1, he, sub_self, abs_zero]
          exact hR
        · rw [ea, h2, hGv e w a s hs, if_neg h1]
          exact ih out
      obtain ⟨-, -, r3, -⟩ := hround m (fun s => if Accept n s then e s else w) (Gv e w) (fun s => by split <;> first | exact (he01 s).1 | exact hw01.1)
        (fun s => by split <;> first | exact (he01 s).2 | exact hw01.2) rfl (fun a => (hGv01 e w he01 hw01 a).1) (fun a => (hGv01 e w he01 hw01 a).2)
        (fun a s h1 h2 => hGv e w a s ⟨h1, h2⟩)
      have hsq : √(cosetMean n (sigmaSig n) h c fun s => (if Accept n s then e s else w) ^ 2) ≤ 1 := by
        refine Real.sqrt_le_one.mpr ?_
        have := cosetMean_mono hn tr c (e := fun s => (if Accept n s then e s else w) ^ 2) (e' := fun _ => 1) (fun s => sq_nonneg _)
          (fun s => pow_le_one₀ (by split <;> first | exact (he01 s).1 | exact hw01.1) (by split <;> first | exact (he01 s).2 | exact hw01.2)) (b := 1) fun _ => le_rfl
        rwa [cosetMean_const hn tr] at this
      have h2 : |(ctree false (sigmaMin n) m P).mean (Gv e w) - cosetMean n (sigmaSig n) h c fun s => if Accept n s then e s else w| ≤ roundErr n m := by
        refine r3.trans ?_
        unfold roundErr
        exact add_le_add (mul_le_of_le_one_right (by norm_num) hsq) le_rfl
      refine (abs_sub_le _ _ _).trans ((add_le_add h1 h2).trans (le_of_eq ?_))
      push_cast
      ring

theorem rejectMean_pr {n : ℕ} (hn : ValidLog n) {h : Mem Ff} {f g F G : Mem Int} (tr : Trapdoor n h f g F G) (c : Mem Ff)
    (E : PairZ n → Prop) [DecidablePred E] (R : ℕ) :
    rejectMean n (sigmaSig n) h c (fun s => if E s then 1 else 0) 0 R = rejectPr n (sigmaSig n) h c R E := by
  classical
  induction R with
  | zero => simp [rejectMean, rejectPr]
  | succ R ih =>
    have e : rejectPr n (sigmaSig n) h c (R + 1) E = cosetPr n (sigmaSig n) h c (fun s => Accept n s ∧ E s) +
        (1 - cosetPr n (sigmaSig n) h c (Accept n)) * rejectPr n (sigmaSig n) h c R E := by
      unfold rejectPr
      rw [Finset.sum_range_succ', pow_zero, one_mul, add_comm, Finset.mul_sum]
      refine congrArg (_ + ·) (Finset.sum_congr rfl fun i _ => ?_)
      rw [pow_succ]
      ring
    rw [e, ← ih, rejectMean]
    generalize rejectMean n (sigmaSig n) h c (fun s => if E s then 1 else 0) 0 R = w
    have e2 : 1 - cosetPr n (sigmaSig n) h c (Accept n) = cosetPr n (sigmaSig n) h c fun s => ¬ Accept n s := by
      linarith [(cosetPr_mem hn tr c (Accept n)).2.2]
    obtain ⟨s0, hW⟩ := coset_mass hn tr c
    have hs : ∀ E : PairZ n → Prop, Summable fun s : PairZ n => if InCoset n h c s ∧ E s then pairW (sigmaSig n) s else 0 := fun E =>
      Summable.of_nonneg_of_le (fun s => by split <;> first | exact (Real.exp_pos _).le | exact le_rfl) (fun s => by
        by_cases h1 : InCoset n h c s <;> by_cases h2 : E s <;> simp [h1, h2, pairW, (Real.exp_pos _).le]) s0
    rw [e2]
    unfold cosetMean cosetPr
    rw [div_mul_eq_mul_div, ← add_div, ← tsum_mul_right, ← (hs _).tsum_add ((hs _).mul_right w)]
    congr 1
    refine tsum_congr fun s => ?_
    by_cases h1 : InCoset n h c s <;> by_cases h2 : Accept n s <;> by_cases h3 : E s <;> simp [h1, h2, h3]

/-- The law of the signing loop for a given salt. -/
theorem sign_law {n : ℕ} (hn : ValidLog n) {h : Mem Ff} {f g F G : Mem Int} (tr : Trapdoor n h f g F G)
    (B0 T0 : Mem ℂ) (xof : Xof) (hfuel : ℕ) (msg : List UInt8) (sig : Mem UInt8) (salt : ℕ → UInt8) {c : Mem Ff}
    (hc : hashToPoint hfuel n (xof ((List.range 40).map salt ++ msg)) (fun _ => Ff.zero) = some c) (m R : ℕ) {Ev : Mem UInt8 → Prop}
    (hEv : ∀ a b, (∀ j, j < sigBytes n → a j = b j) → (Ev a ↔ Ev b)) :
    let B := computeMatrixB exactA n f g F G B0
    let p := freq (18 * m * 2 ^ (n + 1) * R) (fun st => ∃ r, signPoly exactA xof (codeLeaf false n m (saltStream salt st)) R hfuel n B
          (computeFalconTree exactA n B T0) (saltStream salt st) msg sig 0 = some (.ok r) ∧ Ev r.1)
    let q := rejectPr n (sigmaSig n) h c R (fun s => ∃ a, SignatureOf n a salt (tapeOf s.2) ∧ Ev a)
    p ^ 2 ≤ (1 + 1 / 2 ^ 64) ^ R * q ∧ |p - q| ≤ R * roundErr n m := by
  classical
  intro B p q
  let val : Option (List UInt8) → ℝ := fun o => match o with
    | none => 0
    | some l => if ∃ a, bytes (sigBytes n) a = l ∧ Ev a then 1 else 0
  have hval : Unit01 val := fun o => match o with
    | none => ⟨le_rfl, zero_le_one⟩
    | some l => by
      show 0 ≤ (if ∃ a, bytes (sigBytes n) a = l ∧ Ev a then (1 : ℝ) else 0) ∧ (if ∃ a, bytes (sigBytes n) a = l ∧ Ev a then (1 : ℝ) else 0) ≤ 1
      split <;> norm_num
  have hsq : (fun o => val o ^ 2) = val := by
    funext o
    match o with
    | none => simp [val]
    | some l => by_cases h : ∃ a, bytes (sigBytes n) a = l ∧ Ev a <;> simp [val, h]
  have hb : ∀ a, (∃ a', bytes (sigBytes n) a' = bytes (sigBytes n) a ∧ Ev a') ↔ Ev a := fun a =>
    ⟨fun ⟨a', h1, h2⟩ => (hEv _ _ (bytes_inj h1)).mp h2, fun h => ⟨a, rfl, h⟩⟩
  obtain ⟨U, hU, eU⟩ := sign_mean hn tr B0 T0 xof hfuel msg sig salt hc m R
  have h2 := hU.sq val hval
  have h3 := hU.near val hval
  have eU := eU val
  rw [show val none = 0 from rfl, zero_mul, add_zero] at eU
  simp only [hsq, show val none = 0 from rfl] at h2 h3
  rw [show (val none : ℝ) ^ 2 = 0 from by simp [val]] at h2
  have eq : rejectMean n (sigmaSig n) h c (sigVal n salt val) 0 R = q := by
    rw [show q = rejectPr n (sigmaSig n) h c R (fun s => ∃ a, SignatureOf n a salt (tapeOf s.2) ∧ Ev a) from rfl, ← rejectMean_pr hn tr]
    congr 1
    funext s
    by_cases hs : ∃ a, SignatureOf n a salt (tapeOf s.2)
    · obtain ⟨a, ha⟩ := hs
      rw [sigVal_of ha]
      have : (∃ a, SignatureOf n a salt (tapeOf s.2) ∧ Ev a) ↔ Ev a :=
        ⟨fun ⟨a', h1, h2⟩ => (hEv _ _ (signatureOf_unique h1 ha)).mp h2, fun h => ⟨a, ha, h⟩⟩
      simp only [val, hb, this]
    · have : ¬ ∃ a, SignatureOf n a salt (tapeOf s.2) ∧ Ev a := fun ⟨a, ha, _⟩ => hs ⟨a, ha⟩
      unfold sigVal
      rw [dif_neg hs, if_neg this]
  rw [eq] at h2 h3
  have ep : p = U val := by
    rw [← eU]
    simp only [p, freq]
    congr 1
    rw [Finset.card_eq_sum_ones, Finset.sum_filter]
    push_cast
    refine Finset.sum_congr rfl fun v _ => ?_
    unfold exactSigner
    generalize signPoly exactA xof (codeLeaf false n m (saltStream salt (memOf v))) R hfuel n B (computeFalconTree exactA n B T0)
        (saltStream salt (memOf v)) msg sig 0 = x
    match x with
    | none => simp [val]
    | some (.error u) => simp [val]
    | some (.ok r) =>
      have : (∃ r', (some (Except.ok r) : Option (Except UB (Mem UInt8 × ℕ))) = some (.ok r') ∧ Ev r'.1) ↔ Ev r.1 :=
        ⟨fun ⟨r', h1, h2⟩ => by rwa [Except.ok.inj (Option.some.inj h1)], fun h => ⟨r, rfl, h⟩⟩
      simp only [this, val, hb]
  rw [ep]
  exact ⟨h2, h3⟩

end

end Falcon
