import Verif.Proofs.Symbolic

/-! # The program of signing -/

namespace Falcon

/-- A polynomial of integer inputs. -/
def symPoly (logn : ℕ) (v : ℕ → Input) : Mem CTerm :=
  loop (1 <<< logn) (fun i m => upd m i (termA.ofReal (.input (v i)))) (junkC termA)

/-- `recompute_G` before rounding, on expressions. -/
def symG (logn : ℕ) : Mem CTerm :=
  let q := loop (1 <<< logn) (fun i m => upd m i (termA.ofReal (.lit 12289))) (junkC termA)
  let tmp := polyMulC termA logn (fft termA logn (symPoly logn .g)) (fft termA logn (symPoly logn .F)) (junkC termA)
  let tmp := polyAddToC termA logn tmp q
  ifft termA logn (polyDivC termA logn tmp (fft termA logn (symPoly logn .f)) (junkC termA))

/-- `compute_matrix_B` on expressions. -/
def symB (logn : ℕ) : Mem CTerm :=
  let N := 1 <<< logn
  let B := loop N (fun i B =>
    let B := upd B i (termA.ofReal (.input (.g i)))
    let B := upd B (N + i) (termA.ofReal (.neg (.input (.f i))))
    let B := upd B (2 * N + i) (termA.ofReal (.input (.G i)))
    upd B (3 * N + i) (termA.ofReal (.neg (.input (.F i))))) (junkC termA)
  let B := fft termA logn B
  let B := atPtr N (fft termA logn) B
  let B := atPtr (2 * N) (fft termA logn) B
  atPtr (3 * N) (fft termA logn) B

/-- The falcon tree on expressions. -/
def symTree (logn : ℕ) : Mem CTerm := computeFalconTree termA logn (symB logn) (junkC termA)

/-- The target on expressions. -/
def symT0 (logn : ℕ) : Mem CTerm :=
  loop (1 <<< logn) (fun i t => upd t i (.cdiv (t i) (termA.ofReal (.lit 12289))))
    (polyMulC termA logn (fft termA logn (symPoly logn .c)) (ptr (symB logn) (3 * (1 <<< logn))) (junkC termA))

/-- The target on expressions. -/
def symT1 (logn : ℕ) : Mem CTerm :=
  loop (1 <<< logn) (fun i t => upd t i (.cneg (.cdiv (t i) (termA.ofReal (.lit 12289)))))
    (polyMulC termA logn (fft termA logn (symPoly logn .c)) (ptr (symB logn) (1 <<< logn)) (junkC termA))

/-- Sampling on expressions. -/
def symZ (logn : ℕ) : List (RTerm × RTerm) × Mem CTerm × Mem CTerm :=
  symSampling logn 0 (symT0 logn) (symT1 logn) (symTree logn) (junkC termA) (junkC termA) 0

/-- The vector of a round on expressions. -/
def symVec (logn : ℕ) : Mem CTerm × Mem CTerm :=
  signVec termA logn (symB logn) (symT0 logn) (symT1 logn) (symZ logn).2.1 (symZ logn).2.2

/-- The program of signing. -/
def signProg (logn : ℕ) : SignProg where
  G := fun i => .re (symG logn i)
  questions := (symZ logn).1
  norm := signNorm termA logn (symVec logn).1 (symVec logn).2
  s2 := fun i => .re (ifft termA logn (symVec logn).2 i)

section
variable {R C : Type} (A : Arith R C) (ρ : Input → ℤ)

theorem symPoly_eval (n : ℕ) (v : ℕ → Input) :
    mp (CTerm.eval A ρ) (symPoly n v) = loop (1 <<< n) (fun i m => upd m i (A.ofInt (ρ (v i)))) (junkC A) := by
  rw [← hom_junk (eval_hom A ρ)]
  exact loop_hom (mp _) _ (fun i m => by simp only [mp_upd, hom_ofReal (eval_hom A ρ), RTerm.eval, Arith.ofInt]) _

theorem symB_eval (n : ℕ) :
    mp (CTerm.eval A ρ) (symB n) =
      computeMatrixB A n (fun i => ρ (.f i)) (fun i => ρ (.g i)) (fun i => ρ (.F i)) (fun i => ρ (.G i)) (junkC A) := by
  have h := eval_hom A ρ
  simp only [symB, computeMatrixB, mp_atPtr _ _ (hom_fft h n), hom_fft h]
  refine congrArg (fun B => atPtr _ (fft A n) (atPtr _ (fft A n) (atPtr _ (fft A n) (fft A n B)))) ?_
  refine loop_hom (mp _) _ (fun i m => ?_) _
  simp only [mp_upd, hom_ofReal h, RTerm.eval]

theorem symTree_eval (n : ℕ) :
    mp (CTerm.eval A ρ) (symTree n) = computeFalconTree A n (mp (CTerm.eval A ρ) (symB n)) (junkC A) :=
  hom_tree (eval_hom A ρ) n _ _

theorem symT0_eval (n : ℕ) (c : Mem Ff) (hc : ∀ i, ρ (.c i) = ((c i).v.toNat : ℤ)) :
    mp (CTerm.eval A ρ) (symT0 n) = (signTarget A n (mp (CTerm.eval A ρ) (symB n)) c).1 := by
  have h := eval_hom A ρ
  simp only [symT0, signTarget]
  simp only [← hc]
  rw [← symPoly_eval A ρ n .c, ← hom_fft h, ← mp_ptr, ← hom_junk h, ← hom_mul h]
  refine loop_hom (mp _) _ (fun i m => ?_) _
  simp only [mp_upd, CTerm.eval, hom_ofReal h, RTerm.eval, mp_apply]

theorem symT1_eval (n : ℕ) (c : Mem Ff) (hc : ∀ i, ρ (.c i) = ((c i).v.toNat : ℤ)) :
    mp (CTerm.eval A ρ) (symT1 n) = (signTarget A n (mp (CTerm.eval A ρ) (symB n)) c).2 := by
  have h := eval_hom A ρ
  simp only [symT1, signTarget]
  simp only [← hc]
  rw [← symPoly_eval A ρ n .c, ← hom_fft h, ← mp_ptr, ← hom_junk h, ← hom_mul h]
  refine loop_hom (mp _) _ (fun i m => ?_) _
  simp only [mp_upd, CTerm.eval, hom_ofReal h, RTerm.eval, mp_apply]

theorem symG_eval (n : ℕ) (m : Mem Int) :
    recomputeG A n (fun i => ρ (.f i)) (fun i => ρ (.g i)) (fun i => ρ (.F i)) m =
      roundAll A (1 <<< n) (fun i => RTerm.eval A ρ (.re (symG n i))) m := by
  have h := eval_hom A ρ
  have hq : mp (CTerm.eval A ρ) (loop (1 <<< n) (fun i m => upd m i (termA.ofReal (.lit 12289))) (junkC termA)) =
      loop (1 <<< n) (fun i m => upd m i (A.ofReal (A.lit 12289))) (junkC A) := by
    rw [← hom_junk h]
    exact loop_hom (mp _) _ (fun i m => by simp only [mp_upd, hom_ofReal h, RTerm.eval]) _
  simp only [recomputeG, roundAll, RTerm.eval, ← mp_apply (CTerm.eval A ρ) (symG n)]
  simp only [symG, hom_ifft h, hom_div h, hom_addTo h, hom_mul h, hom_fft h, symPoly_eval, hom_junk h, hq]

end

section
variable {R C : Type} {A : Arith R C}

theorem agree_zero {ρ ρ' : Input → ℤ} (h : Agree 0 ρ ρ') : (∀ i, ρ (.f i) = ρ' (.f i)) ∧ (∀ i, ρ (.g i) = ρ' (.g i)) ∧
    (∀ i, ρ (.F i) = ρ' (.F i)) ∧ (∀ i, ρ (.G i) = ρ' (.G i)) ∧ ∀ i, ρ (.c i) = ρ' (.c i) :=
  ⟨fun _ => h _ (by intro i e; cases e), fun _ => h _ (by intro i e; cases e), fun _ => h _ (by intro i e; cases e),
    fun _ => h _ (by intro i e; cases e), fun _ => h _ (by intro i e; cases e)⟩

theorem fresh_B (n : ℕ) : Fresh A 0 (symB n) := by
  intro ρ ρ' hr
  obtain ⟨h1, h2, h3, h4, _⟩ := agree_zero hr
  rw [symB_eval, symB_eval, funext h1, funext h2, funext h3, funext h4]

theorem fresh_tree (n : ℕ) : Fresh A 0 (symTree n) := by
  intro ρ ρ' hr
  rw [symTree_eval, symTree_eval, fresh_B n ρ ρ' hr]

theorem fresh_c (n : ℕ) : Fresh A 0 (symPoly n .c) := by
  intro ρ ρ' hr
  simp only [symPoly_eval, (agree_zero hr).2.2.2.2]

theorem fresh_prod (n p : ℕ) :
    Fresh A 0 (polyMulC termA n (fft termA n (symPoly n .c)) (ptr (symB n) p) (junkC termA)) := by
  refine Fresh.mul n ?_ ((fresh_B n).ptr p) fresh_junk
  intro ρ ρ' hr
  rw [hom_fft (eval_hom A ρ), hom_fft (eval_hom A ρ'), fresh_c n ρ ρ' hr]

theorem symT0_nat (n : ℕ) (ρ : Input → ℤ) : mp (CTerm.eval A ρ) (symT0 n) =
    loop (1 <<< n) (fun i t => upd t i (A.cdiv (t i) (A.ofReal (A.lit 12289)))) (mp (CTerm.eval A ρ)
      (polyMulC termA n (fft termA n (symPoly n .c)) (ptr (symB n) (3 * (1 <<< n))) (junkC termA))) :=
  loop_hom (mp _) _ (fun i m => by simp only [mp_upd, CTerm.eval, hom_ofReal (eval_hom A ρ), RTerm.eval, mp_apply]) _

theorem symT1_nat (n : ℕ) (ρ : Input → ℤ) : mp (CTerm.eval A ρ) (symT1 n) =
    loop (1 <<< n) (fun i t => upd t i (A.cneg (A.cdiv (t i) (A.ofReal (A.lit 12289))))) (mp (CTerm.eval A ρ)
      (polyMulC termA n (fft termA n (symPoly n .c)) (ptr (symB n) (1 <<< n)) (junkC termA))) :=
  loop_hom (mp _) _ (fun i m => by simp only [mp_upd, CTerm.eval, hom_ofReal (eval_hom A ρ), RTerm.eval, mp_apply]) _

theorem fresh_T0 (n : ℕ) : Fresh A 0 (symT0 n) := by
  intro ρ ρ' hr
  rw [symT0_nat, symT0_nat, fresh_prod n _ ρ ρ' hr]

theorem fresh_T1 (n : ℕ) : Fresh A 0 (symT1 n) := by
  intro ρ ρ' hr
  rw [symT1_nat, symT1_nat, fresh_prod n _ ρ ρ' hr]

theorem rounds_eq (n : ℕ) (leaf : LeafSampler R) (f g F G : Mem Int) (c : Mem Ff) (fuel : ℕ) : ∀ (sig : Mem UInt8) (pos : ℕ),
    signLoop A leaf n (computeMatrixB A n f g F G (junkC A))
      (computeFalconTree A n (computeMatrixB A n f g F G (junkC A)) (junkC A))
      (signTarget A n (computeMatrixB A n f g F G (junkC A)) c).1 (signTarget A n (computeMatrixB A n f g F G (junkC A)) c).2
      fuel sig pos = (signProg n).rounds A n leaf (Input.of f g F G c) fuel sig pos := by
  obtain ⟨ρ, hρ⟩ : ∃ ρ, ρ = Input.of f g F G c := ⟨_, rfl⟩
  have hB : mp (CTerm.eval A ρ) (symB n) = computeMatrixB A n f g F G (junkC A) := by rw [symB_eval, hρ]; rfl
  have hT := symTree_eval A ρ n
  have h0 := symT0_eval A ρ n c (fun i => by rw [hρ]; rfl)
  have h1 := symT1_eval A ρ n c (fun i => by rw [hρ]; rfl)
  rw [hB] at hT h0 h1
  rw [← hρ]
  induction fuel with
  | zero => intro sig pos; rfl
  | succ fuel ih =>
    intro sig pos
    have hrun := sym_run (A := A) leaf n 0 (j := 0) (fresh_T0 n) (fresh_T1 n) (fresh_tree n) fresh_junk fresh_junk ρ pos
    rw [hT, h0, h1, hom_junk (eval_hom A ρ)] at hrun
    simp only [signLoop, SignProg.rounds]
    rw [hrun, bindO_bindO]
    refine bindO_congr fun r hr => ?_
    have ar := ask_agree _ hr
    have hv := hom_vec (eval_hom A r.1) n (symB n) (symT0 n) (symT1 n) (symZ n).2.1 (symZ n).2.2
    rw [← fresh_B n _ _ ar, ← fresh_T0 n _ _ ar, ← fresh_T1 n _ _ ar, hB, h0, h1] at hv
    have v1 : mp (CTerm.eval A r.1) (symVec n).1 = _ := hv.1
    have v2 : mp (CTerm.eval A r.1) (symVec n).2 = _ := hv.2
    have hN : RTerm.eval A r.1 (signProg n).norm = signNorm A n (mp (CTerm.eval A r.1) (symVec n).1) (mp (CTerm.eval A r.1) (symVec n).2) := by
      simp only [signProg, signNorm, (eval_hom A r.1).add, hom_norm (eval_hom A r.1)]
    have hS : signRound A n (mp (CTerm.eval A r.1) (symVec n).2) =
        roundAll A (1 <<< n) (fun i => RTerm.eval A r.1 ((signProg n).s2 i)) (fun _ => 0) := by
      simp only [signRound, roundAll, ← hom_ifft (eval_hom A r.1), signProg, RTerm.eval, mp_apply]
    rw [bindO_pure]
    simp only [hN, ← hS, v1, v2, ih]
    rfl

end

end Falcon
