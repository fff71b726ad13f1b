import Verif.Proofs.CheckNtru
import Verif.Proofs.F64Sign

/-!
# The check of the NTRU equation on IEEE 754 data
-/

namespace Falcon

theorem checkNtruEq64 {A : Arith F64 (F64 × F64)} {A' : Arith ℝ ℂ} (hS : Sim A A') {n : ℕ} (hn : n ≤ 10) {f g F G : Mem Int}
    (h : ∀ i, i < 2 ^ n → |f i| ≤ 2 ^ 17 ∧ |g i| ≤ 2 ^ 17 ∧ |F i| ≤ 2 ^ 17 ∧ |G i| ≤ 2 ^ 17) :
    checkNtruEq A n f g F G = checkNtruEq A' n f g F G := by
  have hfft : ∀ a : Mem Int, (∀ i, i < 2 ^ n → |a i| ≤ 2 ^ 17) → RelBelow (2 ^ n) (FinC 47)
      (fft A n (loop (1 <<< n) (fun i m => upd m i (A.ofInt (a i))) (junkC A)))
      (fft A' n (loop (1 <<< n) (fun i m => upd m i (A'.ofInt (a i))) (junkC A'))) := by
    intro a ha
    refine finC_fft hS (e := 17) hn (by norm_num) fun i hi => ?_
    rw [one_shiftLeft', loop_fill, loop_fill, if_pos hi, if_pos hi]
    refine hS.ofInt ?_ (by norm_num)
    have : ((|a i| : ℤ) : ℝ) ≤ 2 ^ 17 := by exact_mod_cast ha i hi
    rwa [Int.cast_abs] at this
  have kf := hfft f fun i hi => (h i hi).1
  have kg := hfft g fun i hi => (h i hi).2.1
  have kF := hfft F fun i hi => (h i hi).2.2.1
  have kG := hfft G fun i hi => (h i hi).2.2.2
  unfold checkNtruEq
  simp only
  have hD : RelBelow (2 ^ n) (FinC 96) (polySubC A n (polyMulC A n
      (fft A n (loop (1 <<< n) (fun i m => upd m i (A.ofInt (f i))) (junkC A)))
      (fft A n (loop (1 <<< n) (fun i m => upd m i (A.ofInt (G i))) (junkC A))) (junkC A))
    (polyMulC A n (fft A n (loop (1 <<< n) (fun i m => upd m i (A.ofInt (g i))) (junkC A)))
      (fft A n (loop (1 <<< n) (fun i m => upd m i (A.ofInt (F i))) (junkC A))) (junkC A)) (junkC A))
      (polySubC A' n (polyMulC A' n
      (fft A' n (loop (1 <<< n) (fun i m => upd m i (A'.ofInt (f i))) (junkC A')))
      (fft A' n (loop (1 <<< n) (fun i m => upd m i (A'.ofInt (G i))) (junkC A'))) (junkC A'))
    (polyMulC A' n (fft A' n (loop (1 <<< n) (fun i m => upd m i (A'.ofInt (g i))) (junkC A')))
      (fft A' n (loop (1 <<< n) (fun i m => upd m i (A'.ofInt (F i))) (junkC A'))) (junkC A')) (junkC A')) := by
    intro j hj
    have kfj := kf j hj
    have kgj := kg j hj
    have kFj := kF j hj
    have kGj := kG j hj
    rw [polySubC_at, if_pos hj, polyMulC_at, if_pos hj, polyMulC_at, if_pos hj,
      polySubC_at, if_pos hj, polyMulC_at, if_pos hj, polyMulC_at, if_pos hj]
    have h1 : FinC 95 _ _ := hS.cmul kfj kGj (by norm_num)
    have h2 : FinC 95 _ _ := hS.cmul kgj kFj (by norm_num)
    exact hS.csub h1 h2 (by norm_num)
  have hi := finC_ifft hS hn (by norm_num) hD
  exact loopE_congr' fun i hi' m => by
    rw [one_shiftLeft'] at hi'
    rw [hS.roundTo (hS.re (hi i hi'))]

end Falcon
