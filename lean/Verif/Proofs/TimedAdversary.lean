import Verif.TimedAdversarySpec
import Verif.Props.TimingSign
import Verif.Proofs.HashMean
import Verif.Props.SignSalt

/-! # Adversaries that see iteration counts -/

namespace Falcon

open OTree BTree

/-! ## Distributions on finitely many outcomes -/

/-- If two programs reading L bytes agree on all events up to d, they agree on all test functions up to d. -/
theorem test_le {O : Type} {L : ℕ} (X Y : Mem UInt8 → O) {d : ℝ} (h : ∀ S : O → Prop, freq L (fun st => S (X st)) - freq L (fun st => S (Y st)) ≤ d)
    {φ : O → ℝ} (h0 : ∀ o, 0 ≤ φ o) (h1 : ∀ o, φ o ≤ 1) :
    (∑ v : Fin L → UInt8, φ (X (memOf v))) / 256 ^ L - (∑ v : Fin L → UInt8, φ (Y (memOf v))) / 256 ^ L ≤ d := by
  classical
  let U : Finset O := (Finset.univ.image fun v : Fin L → UInt8 => X (memOf v)) ∪ Finset.univ.image fun v : Fin L → UInt8 => Y (memOf v)
  let p : (Mem UInt8 → O) → O → ℝ := fun Z o => ((Finset.univ.filter fun v : Fin L → UInt8 => Z (memOf v) = o).card : ℝ)
  have hX : ∀ Z : Mem UInt8 → O, (∀ v : Fin L → UInt8, Z (memOf v) ∈ U) → ∀ ψ : O → ℝ, ∑ v : Fin L → UInt8, ψ (Z (memOf v)) = ∑ o ∈ U, p Z o * ψ o := by
    intro Z hZ ψ
    rw [← Finset.sum_fiberwise_of_maps_to (s := Finset.univ) (t := U) (g := fun v : Fin L → UInt8 => Z (memOf v)) (fun v _ => hZ v)]
    refine Finset.sum_congr rfl fun o _ => ?_
    rw [Finset.sum_congr rfl (g := fun _ => ψ o) fun v hv => by rw [(Finset.mem_filter.mp hv).2], Finset.sum_const, nsmul_eq_mul]
  have hXU : ∀ v : Fin L → UInt8, X (memOf v) ∈ U := fun v => Finset.mem_union_left _ (Finset.mem_image_of_mem _ (Finset.mem_univ v))
  have hYU : ∀ v : Fin L → UInt8, Y (memOf v) ∈ U := fun v => Finset.mem_union_right _ (Finset.mem_image_of_mem _ (Finset.mem_univ v))
  have hS := h fun o => p Y o < p X o
  rw [freq_sum, freq_sum] at hS
  have e1 := hX X hXU fun o => if p Y o < p X o then 1 else 0
  have e2 := hX Y hYU fun o => if p Y o < p X o then 1 else 0
  rw [e1, e2] at hS
  rw [hX X hXU φ, hX Y hYU φ]
  refine le_trans ?_ hS
  rw [← sub_div, ← sub_div]
  refine div_le_div_of_nonneg_right ?_ (by positivity)
  rw [← Finset.sum_sub_distrib, ← Finset.sum_sub_distrib]
  refine Finset.sum_le_sum fun o _ => ?_
  have a0 := h0 o
  have a1 := h1 o
  split
  · rename_i hlt
    nlinarith
  · rename_i hlt
    have := not_lt.mp hlt
    nlinarith

theorem TimedAdversary.winsPr_mem (L : ℕ) (sign : List UInt8 → (ℕ → UInt8) → Option (List UInt8 × List ℕ)) (A : TimedAdversary) :
    0 ≤ A.winsPr L sign ∧ A.winsPr L sign ≤ 1 := by
  induction A with
  | stop w =>
    unfold TimedAdversary.winsPr
    split <;> norm_num
  | ask msg next ih =>
    unfold TimedAdversary.winsPr
    refine ⟨div_nonneg (Finset.sum_nonneg fun v _ => (ih _).1) (by positivity), ?_⟩
    rw [div_le_one (by positivity)]
    refine (Finset.sum_le_card_nsmul _ _ 1 fun v _ => (ih _).2).trans (le_of_eq ?_)
    rw [Finset.card_univ, Fintype.card_pi, Finset.prod_const, Finset.card_univ, Fintype.card_fin, BTree.card_byte, nsmul_eq_mul, mul_one, Nat.cast_pow]
    norm_num

/-- Question by question. -/
theorem TimedAdversary.hybrid {L : ℕ} {X Y : List UInt8 → (ℕ → UInt8) → Option (List UInt8 × List ℕ)} {d : ℝ}
    (h : ∀ msg (S : Option (List UInt8 × List ℕ) → Prop), |freq L (fun st => S (X msg st)) - freq L (fun st => S (Y msg st))| ≤ d)
    {A : TimedAdversary} {Q : ℕ} (hA : A.Asks Q) : |A.winsPr L X - A.winsPr L Y| ≤ Q * d := by
  have d0 : 0 ≤ d := (abs_nonneg _).trans (h [] fun _ => True)
  induction hA with
  | stop w q =>
    simp only [TimedAdversary.winsPr, sub_self, abs_zero]
    positivity
  | ask msg next q hn ih =>
    simp only [TimedAdversary.winsPr]
    have hm := fun o => TimedAdversary.winsPr_mem L Y (next o)
    have t1 := test_le (L := L) (X msg) (Y msg) (d := d) (fun S => (abs_le.mp (h msg S)).2) (φ := fun o => (next o).winsPr L Y)
      (fun o => (hm o).1) fun o => (hm o).2
    have t2 := test_le (L := L) (Y msg) (X msg) (d := d) (fun S => by have := (abs_le.mp (h msg S)).1; linarith) (φ := fun o => (next o).winsPr L Y)
      (fun o => (hm o).1) fun o => (hm o).2
    have t3 : |(∑ v : Fin L → UInt8, (next (X msg (memOf v))).winsPr L X) / 256 ^ L - (∑ v : Fin L → UInt8, (next (X msg (memOf v))).winsPr L Y) / 256 ^ L| ≤ q * d := by
      have hq : (0 : ℝ) < 256 ^ L := by positivity
      rw [← sub_div, ← Finset.sum_sub_distrib, abs_div, abs_of_pos hq, div_le_iff₀ hq]
      refine (Finset.abs_sum_le_sum_abs _ _).trans ((Finset.sum_le_card_nsmul _ _ _ fun v _ => ih _).trans (le_of_eq ?_))
      rw [Finset.card_univ, Fintype.card_pi, Finset.prod_const, Finset.card_univ, Fintype.card_fin, BTree.card_byte, nsmul_eq_mul, mul_comm, Nat.cast_pow]
      norm_num
    refine (tri t3 (abs_le.mpr ⟨?_, t1⟩)).trans (le_of_eq ?_)
    · linarith
    · push_cast
      ring

/-! ## The signing loop -/

theorem interp_forget {α : Type} (n m : ℕ) (st : ℕ → UInt8) (P : OTree α) (p : ℕ) (l : List ℕ) :
    interp (codeLeaf false n m st) P p = (interp (timedLeaf n m st) P (p, l)).map fun e => e.map fun r => (r.1, r.2.1) := by
  induction P generalizing p l with
  | ret a => rfl
  | call mu sigma k ih =>
    simp only [interp, timedLeaf]
    match codeLeaf false n m st mu sigma p with
    | none => rfl
    | some (.error e) => rfl
    | some (.ok r) => exact ih r.1 r.2 _

/-- Without the counts the timed loop is the loop. -/
theorem loop_forget {n m : ℕ} {B T t0 t1 : Mem ℂ} {P : OTree (Mem ℂ × Mem ℂ)}
    (hP : ∀ (S : Type) (leaf : LeafSampler ℝ S) (s : S), ffSampling exactA leaf n 0 t0 t1 T (junkC exactA) (junkC exactA) s =
      bindO (interp leaf P s) fun r => some (.ok (r.1.1, r.1.2, r.2))) (st : ℕ → UInt8) (R : ℕ) (sig : Mem UInt8) (p : ℕ) (l : List ℕ) :
    signLoop exactA (codeLeaf false n m st) n B T t0 t1 R sig p =
      (signLoop exactA (timedLeaf n m st) n B T t0 t1 R sig (p, l)).map fun e => e.map fun r => (r.1, r.2.1) := by
  induction R generalizing sig p l with
  | zero => rfl
  | succ R ih =>
    rw [signLoop, signLoop, hP, hP, interp_forget n m st P p l]
    match interp (timedLeaf n m st) P (p, l) with
    | none => rfl
    | some (.error e) => rfl
    | some (.ok (z, p', l')) =>
      show (if exactA.le _ _ = true then _ else _) = Option.map _ (if exactA.le _ _ = true then _ else _)
      by_cases hle : exactA.le (signNorm exactA n (signVec exactA n B t0 t1 z.1 z.2).1 (signVec exactA n B t0 t1 z.1 z.2).2)
          (exactA.lit (beta2 n)) = true
      · simp only [Except.map, Option.map, bindO, if_pos hle]
        match signRound exactA n (signVec exactA n B t0 t1 z.1 z.2).2 with
        | .error e => rfl
        | .ok s2 =>
          simp only
          match compressSigE n s2 sig with
          | .error e => rfl
          | .ok (true, out) => rfl
          | .ok (false, out) => exact ih out p' l'
      · simp only [Except.map, Option.map, bindO, if_neg hle]
        exact ih sig p' l'

/-- The sampling of a round as a program that asks an integer sampler. -/
theorem round_otree {n : ℕ} (hn : ValidLog n) {h : Mem Ff} {f g F G : Mem Int} (tr : Trapdoor n h f g F G) (B0 T0 t0 t1 : Mem ℂ) :
    ∃ P : OTree (Mem ℂ × Mem ℂ), ∀ (S : Type) (leaf : LeafSampler ℝ S) (s : S),
      ffSampling exactA leaf n 0 t0 t1 (computeFalconTree exactA n (computeMatrixB exactA n f g F G B0) T0) (junkC exactA) (junkC exactA) s =
        bindO (interp leaf P s) fun r => some (.ok (r.1.1, r.1.2, r.2)) := by
  obtain ⟨tt, ht, hl⟩ := C80_leaves_exact hn tr B0 T0
  obtain ⟨P, hd, hS, hP⟩ := ffSampling_otree exactA n 0 t0 t1 (computeFalconTree exactA n (computeMatrixB exactA n f g F G B0) T0) (junkC exactA) (junkC exactA) tt
    ((treeAt_root _ _ _).mp ht)
  exact ⟨P, hP⟩

/-- The timed loop after the salt. -/
theorem loop_salt {n m : ℕ} {B T t0 t1 : Mem ℂ} {P : OTree (Mem ℂ × Mem ℂ)}
    (hP : ∀ (S : Type) (leaf : LeafSampler ℝ S) (s : S), ffSampling exactA leaf n 0 t0 t1 T (junkC exactA) (junkC exactA) s =
      bindO (interp leaf P s) fun r => some (.ok (r.1.1, r.1.2, r.2))) (salt st : ℕ → UInt8) (R : ℕ) (sig : Mem UInt8) (Ev : List ℕ → Mem UInt8 → Prop) :
    (∃ r, signLoop exactA (timedLeaf n m (saltStream salt st)) n B T t0 t1 R sig (40, []) = some (.ok r) ∧ Ev r.2.2 r.1) ↔
      ∃ r, signLoop exactA (timedLeaf n m st) n B T t0 t1 R sig (0, []) = some (.ok r) ∧ Ev r.2.2 r.1 := by
  rw [signLoop_trej hP, signLoop_trej hP]
  have e := run_shift (trej (sigmaMin n) m P (signTest n B t0 t1) R [] sig) (saltStream salt st) st 40 0 fun i => by
    unfold saltStream
    rw [if_neg (by omega), Nat.add_sub_cancel_left, Nat.zero_add]
  rw [e]
  generalize (run (trej (sigmaMin n) m P (signTest n B t0 t1) R [] sig) st 0).1 = x
  match x with
  | none => exact ⟨fun ⟨r, h, _⟩ => (by cases h), fun ⟨r, h, _⟩ => (by cases h)⟩
  | some (.error u) => exact ⟨fun ⟨r, h, _⟩ => (by cases h), fun ⟨r, h, _⟩ => (by cases h)⟩
  | some (.ok (a, l)) =>
    constructor
    · rintro ⟨r, h, hE⟩
      cases h
      exact ⟨_, rfl, hE⟩
    · rintro ⟨r, h, hE⟩
      cases h
      exact ⟨_, rfl, hE⟩

/-! ## Header and salt -/

theorem loop_put (k : ℕ) (f : ℕ → UInt8) (m : Mem UInt8) (j : ℕ) :
    loop k (fun i sig => upd sig (1 + i) (f i)) m j = if 1 ≤ j ∧ j < 1 + k then f (j - 1) else m j := by
  induction k with
  | zero => rw [if_neg (by omega)]; rfl
  | succ k ih =>
    rw [loop_succ]
    by_cases h : j = 1 + k
    · rw [h, upd_same, if_pos (by omega), Nat.add_sub_cancel_left]
    · rw [upd_ne _ _ _ _ h, ih]
      by_cases h2 : 1 ≤ j ∧ j < 1 + k
      · rw [if_pos h2, if_pos (by omega)]
      · rw [if_neg h2, if_neg (by omega)]

theorem put_salt (k : ℕ) {f f' : ℕ → UInt8} (h : ∀ i, i < k → f i = f' i) (m : Mem UInt8) :
    loop k (fun i sig => upd sig (1 + i) (f i)) m = loop k (fun i sig => upd sig (1 + i) (f' i)) m := by
  funext j
  rw [loop_put, loop_put]
  by_cases hj : 1 ≤ j ∧ j < 1 + k
  · rw [if_pos hj, if_pos hj, h _ (by omega)]
  · rw [if_neg hj, if_neg hj]

theorem assemble_head (n : ℕ) (salt : ℕ → UInt8) (a b : Mem UInt8) (j : ℕ) (hj : j < 41) : assemble n salt a j = assemble n salt b j := by
  unfold assemble
  rw [loop_put, loop_put]
  by_cases h : 1 ≤ j ∧ j < 1 + 40
  · rw [if_pos h, if_pos h]
  · obtain rfl : j = 0 := by omega
    rw [if_neg h, if_neg h]
    rfl

theorem salt_bytes (salt st : ℕ → UInt8) : ∀ i, i < 40 → prngRead (saltStream salt st) 0 40 (fun _ => 0) i = prngRead salt 0 40 (fun _ => 0) i := by
  intro i hi
  unfold prngRead saltStream
  rw [loop_fill, loop_fill, if_pos hi, if_pos hi, Nat.zero_add, if_pos hi]

theorem salt_read (salt : ℕ → UInt8) (i : ℕ) (hi : i < 40) : prngRead salt 0 40 (fun _ => 0) i = salt i := by
  unfold prngRead
  rw [loop_fill, if_pos hi, Nat.zero_add]

theorem salt_list (salt st : ℕ → UInt8) : bytes 40 (prngRead (saltStream salt st) 0 40 (fun _ => 0)) = (List.range 40).map salt := by
  unfold bytes
  exact List.map_congr_left fun i hi => (salt_bytes _ _ i (List.mem_range.mp hi)).trans (salt_read _ i (List.mem_range.mp hi))

theorem assemble_bytes {n : ℕ} {salt : ℕ → UInt8} {a b : Mem UInt8} (hab : ∀ j, 41 ≤ j → j < sigBytes n → a j = b j) :
    bytes (sigBytes n) (assemble n salt a) = bytes (sigBytes n) (assemble n salt b) := by
  unfold bytes
  refine List.map_congr_left fun j hj => ?_
  by_cases h41 : 41 ≤ j
  · rw [assemble_body _ _ _ _ h41, assemble_body _ _ _ _ h41]
    exact hab j h41 (List.mem_range.mp hj)
  · exact assemble_head n salt a b j (not_le.mp h41)

/-- The answers with a given salt. -/
theorem answer_salt {n : ℕ} (hn : ValidLog n) {h : Mem Ff} {f g F G : Mem Int} (tr : Trapdoor n h f g F G) (B0 T0 : Mem ℂ) (xof : Xof) (m R hfuel : ℕ)
    (sig : Mem UInt8) (msg : List UInt8) (salt : ℕ → UInt8) {c : Mem Ff}
    (hh : hashToPoint hfuel n (xof ((List.range 40).map salt ++ msg)) (fun _ => Ff.zero) = some c) {S : Option (List UInt8 × List ℕ) → Prop} (hS : ¬ S none) :
    let B := computeMatrixB exactA n f g F G B0
    let t := signTarget exactA n B c
    (fun st => S (timedSigner xof m R hfuel n B (computeFalconTree exactA n B T0) sig msg (saltStream salt st))) = fun st => ∃ r,
      signLoop exactA (timedLeaf n m st) n B (computeFalconTree exactA n B T0) t.1 t.2 R sig (0, []) = some (.ok r) ∧
        S (some (bytes (sigBytes n) (assemble n salt r.1), r.2.2)) := by
  intro B t
  have hasm : ∀ st out, loop 40 (fun i sig => upd sig (1 + i) (prngRead (saltStream salt st) 0 40 (fun _ => 0) i)) (upd out 0 (0x30 ||| UInt8.ofNat n)) =
      assemble n salt out := by
    intro st out
    unfold assemble
    exact put_salt 40 (salt_bytes _ _) _
  funext st
  obtain ⟨P, hP⟩ := round_otree hn tr B0 T0 t.1 t.2
  rw [← propext (loop_salt hP salt st R sig fun l a => S (some (bytes (sigBytes n) (assemble n salt a), l)))]
  simp only [timedSigner, salt_list, hh, hasm]
  match signLoop exactA (timedLeaf n m (saltStream salt st)) n B (computeFalconTree exactA n B T0) t.1 t.2 R sig (40, []) with
  | none => exact propext ⟨fun h => absurd h hS, fun ⟨r, h, _⟩ => (by cases h)⟩
  | some (.error u) => exact propext ⟨fun h => absurd h hS, fun ⟨r, h, _⟩ => (by cases h)⟩
  | some (.ok r) => exact propext ⟨fun h => ⟨r, rfl, h⟩, fun ⟨r', h, h'⟩ => by cases h; exact h'⟩

end Falcon
