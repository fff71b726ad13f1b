import Verif.Proofs.FirstPoint
import Verif.SmallSpec

/-!
# A valid key whose f has a computed transform of zero

With y = x^16 the polynomials f, g, F, G have degree 31 in y. The value of f at the first point is about 10^-14, and is computed as 0.
-/

namespace Falcon

open Finset Polynomial

def zeroF : List ℤ := [
  9, -20, -7, -5, 22, -2, -9, 0, 15, 6, -9, -11, 10, 0, -20, -14, -7, 15, 7, 2, 23, 15, 14, -14, -14, -10, 6, -18, -16, 15, -5, 7]

def zeroG : List ℤ := [
  -31, -5, -12, 0, 1, -21, -20, 9, -31, 9, 12, 17, 29, -4, 0, -27, 20, 12, 28, 3, -3, 7, 29, -20, 30, -8, -31, -6, 22, 29, -16, 15]

def zeroFF : List ℤ := [
  17, 10, -7, 48, 1, -18, -12, 5, 7, -53, 20, 60, 14, -27, 41, 32, 20, -59, -51, -5, 39, -9, -10, 31, 11, 26, -38, -19, 42, 5, -30, -13]

def zeroGG : List ℤ := [
  10, 31, 60, -12, 9, 27, 37, 25, -65, -23, 13, -34, -23, -2, 8, 1, -28, -9, 6, 22, -7, 22, -1, 45, 30, 61, 14, -34, -15, -29, 35, 43]

def zkf : Mem Int := strideMem 16 zeroF
def zkg : Mem Int := strideMem 16 zeroG
def zkF : Mem Int := strideMem 16 zeroFF
def zkG : Mem Int := strideMem 16 zeroGG

/-- f G - g F, not reduced. -/
def zeroEq : List ℤ := lAdd (lMul zeroF zeroGG) ((lMul zeroG zeroFF).map (-1 * ·))

theorem zeroKey_eq : NtruEq 9 zkf zkg zkF zkG := by
  unfold NtruEq ModEqXN zkf zkg zkF zkG
  simp only [polyZ_stride (show 0 < 16 by norm_num) _ (show zeroF.length * 16 = 2 ^ 9 by decide),
    polyZ_stride (show 0 < 16 by norm_num) _ (show zeroG.length * 16 = 2 ^ 9 by decide),
    polyZ_stride (show 0 < 16 by norm_num) _ (show zeroFF.length * 16 = 2 ^ 9 by decide),
    polyZ_stride (show 0 < 16 by norm_num) _ (show zeroGG.length * 16 = 2 ^ 9 by decide)]
  rw [show (2 : ℕ) ^ 9 = 16 * 32 by norm_num, pow_mul]
  generalize (X : ℤ[X]) ^ 16 = y
  have h1 : evL y zeroEq = evL y zeroF * evL y zeroGG - evL y zeroG * evL y zeroFF := by
    unfold zeroEq; rw [evL_lAdd, evL_lMul, evL_map, evL_lMul]; push_cast; ring
  have h2 := evL_split y 32 zeroEq (by decide +kernel)
  have h3 : zeroEq.take 32 = lAdd (12289 :: List.replicate 31 0) (zeroEq.drop 32) := by decide +kernel
  have h4 : evL y (12289 :: List.replicate 31 0) = 12289 := by simp [evL, List.replicate]
  rw [h3, evL_lAdd, h4] at h2
  refine ⟨evL y (zeroEq.drop 32), ?_⟩
  rw [← h1, h2]
  ring

theorem stride_le {S : ℕ} (l : List ℤ) {b : ℤ} (hb : 0 ≤ b) (hl : ∀ x ∈ l, |x| ≤ b) (i : ℕ) : |strideMem S l i| ≤ b := by
  unfold strideMem
  split
  · rw [List.getD_eq_getElem?_getD]
    cases h : l[i / S]? with
    | none => simpa using hb
    | some x => exact hl x (List.mem_of_getElem? h)
  · simpa using hb

theorem zeroKey_fits : FitsFormat 9 zkf zkg zkF zkG := by
  intro i _
  rw [if_pos rfl]
  refine ⟨stride_le _ (by norm_num) ?_ i, stride_le _ (by norm_num) ?_ i, stride_le _ (by norm_num) ?_ i,
    stride_le _ (by norm_num) ?_ i⟩ <;> decide

/-- The inverse of f modulo q. -/
def zeroInv : List ℤ := [
  5670, 3679, 8071, 7198, 6731, 3012, 5364, 7882, 2617, 11699, 5038, 4134, 2808, 8645, 716, 10243, 4855, 9521, 10632, 2531, 4000, 2416,
  1991, 4298, 9674, 4592, 11770, 8392, 10245, 3010, 10709, 725]

theorem polyInt_stride {S N : ℕ} (hS : 0 < S) (l : List ℤ) (hl : l.length * S = N) : polyInt N (strideMem S l) = evL (X ^ S) l := by
  rw [evL_sum, ← hl]
  unfold polyInt toPoly
  rw [sum_strideMem hS l (fun z i => C ((z : ℤ) : Zq) * X ^ i) (by simp)]
  exact sum_congr rfl fun t _ => by rw [pow_mul]; simp

theorem zeroKey_inv : ∃ r, ModEqXN (2 ^ 9) (polyInt (2 ^ 9) zkf * r) 1 := by
  unfold ModEqXN zkf
  rw [polyInt_stride (show 0 < 16 by norm_num) _ (show zeroF.length * 16 = 2 ^ 9 by decide), show (2 : ℕ) ^ 9 = 16 * 32 by norm_num,
    pow_mul]
  generalize (X : Zq[X]) ^ 16 = y
  have hq : ((12289 : ℤ) : Zq[X]) = 0 := by
    have h : ((12289 : Zq)) = 0 := by decide +kernel
    rw [show ((12289 : ℤ) : Zq[X]) = C (12289 : Zq) by rw [map_ofNat]; norm_num, h, C_0]
  have h1 := evL_lMul y zeroF zeroInv
  have h2 := evL_split y 32 (lMul zeroF zeroInv) (by decide +kernel)
  have h3 : ∃ k, (lMul zeroF zeroInv).take 32 = lAdd (lAdd [1] ((lMul zeroF zeroInv).drop 32)) (List.map (12289 * ·) k) :=
    ⟨(lAdd ((lMul zeroF zeroInv).take 32) (List.map (-1 * ·) (lAdd [1] ((lMul zeroF zeroInv).drop 32)))).map (· / 12289), by decide +kernel⟩
  obtain ⟨k, h3⟩ := h3
  rw [h3, evL_lAdd, evL_lAdd, evL_map, hq] at h2
  have h4 : evL y [1] = 1 := by simp [evL]
  refine ⟨evL y zeroInv, evL y ((lMul zeroF zeroInv).drop 32), ?_⟩
  rw [← h1, h2, h4]
  ring

/-- (f f* + g g*) y^31, not reduced. -/
def zeroGram : List ℤ := lAdd (lMul zeroF zeroF.reverse) (lMul zeroG zeroG.reverse)

/-- A multiple of the inverse of f f* + g g*. -/
def zeroU : List ℤ := [
  27957031691531293224561079199087543802703203394291800384270434, -2494500961112966710205253740342339276976026809748144802854356,
  -192606891720775238562865693258452778338225103158737520828209, 1853369903313241246435324885215118202422832121163368478975503,
  -2633019000152385752066280821706258448040688217545716685255339, 604224850884366876161719337567108110435808477009524863044852,
  1311220393263964735147478634946711812169435425999842213983907, 1056598224884778093622374217910324180036611577597843333461627,
  -711426771672548866874395090992044133744844315579789640728072, -1161898697719174365034013847017013731190778495409612834956971,
  -570490177472235464726116081036765268459994314378376898576239, -372636424594943442709338672173494807633515748202576220373888,
  -1687852670160027542789603375359925225253481733909795012692699, -4306006091003317038822765493703132886863788302007744682186679,
  5351830199923058203654704292750728676757860691542276583924631, -1693790146335728442503083754015213798224760951710163815812310, 0,
  1693790146335728442503083754015213798224760951710163815812310, -5351830199923058203654704292750728676757860691542276583924631,
  4306006091003317038822765493703132886863788302007744682186679, 1687852670160027542789603375359925225253481733909795012692699,
  372636424594943442709338672173494807633515748202576220373888, 570490177472235464726116081036765268459994314378376898576239,
  1161898697719174365034013847017013731190778495409612834956971, 711426771672548866874395090992044133744844315579789640728072,
  -1056598224884778093622374217910324180036611577597843333461627, -1311220393263964735147478634946711812169435425999842213983907,
  -604224850884366876161719337567108110435808477009524863044852, 2633019000152385752066280821706258448040688217545716685255339,
  -1853369903313241246435324885215118202422832121163368478975503, 192606891720775238562865693258452778338225103158737520828209,
  2494500961112966710205253740342339276976026809748144802854356]

def zeroM : ℤ := 379944190657752916787584966021212159762510009985936928066233739518

theorem stride_point (j : ℕ) (hj : j < 2 ^ 9) : (fftPoint 9 j ^ 16) ^ 32 = -1 ∧
    fftPoint 9 j ^ 16 * (starRingEnd ℂ) (fftPoint 9 j ^ 16) = 1 := by
  refine ⟨?_, ?_⟩
  · rw [← pow_mul]; exact fftPoint_pow (n := 9) (by norm_num) j hj
  · rw [Complex.mul_conj, Complex.normSq_eq_norm_sq, norm_pow, fftPoint_norm, one_pow]; norm_num

theorem evL_conj (z : ℂ) (l : List ℤ) : (starRingEnd ℂ) (evL z l) = evL ((starRingEnd ℂ) z) l := by
  induction l with
  | nil => simp [evL]
  | cons x l ih => simp [evL, ih]

theorem zeroKey_gram (j : ℕ) (hj : j < 2 ^ 9) :
    ((gramAt 9 zkf zkg j : ℝ) : ℂ) * dft 9 (zC (strideMem 16 zeroU)) j = (zeroM : ℂ) := by
  obtain ⟨p1, p2⟩ := stride_point j hj
  have hg : ((gramAt 9 zkf zkg j : ℝ) : ℂ) = dft 9 (zC zkf) j * (starRingEnd ℂ) (dft 9 (zC zkf) j) +
      dft 9 (zC zkg) j * (starRingEnd ℂ) (dft 9 (zC zkg) j) := by
    unfold gramAt
    rw [Complex.mul_conj, Complex.mul_conj]
    push_cast
    rfl
  rw [hg]
  unfold zkf zkg
  rw [dft_stride (by norm_num) zeroF (by decide), dft_stride (by norm_num) zeroG (by decide), dft_stride (by norm_num) zeroU (by decide),
    evL_conj, evL_conj]
  generalize fftPoint 9 j ^ 16 = z at *
  generalize (starRingEnd ℂ) z = w at *
  have r1 : evL w zeroF * z ^ 31 = evL z zeroF.reverse := evL_reverse p2 _ _
  have r2 : evL w zeroG * z ^ 31 = evL z zeroG.reverse := evL_reverse p2 _ _
  have h1 : evL z (lMul zeroGram zeroU) = (evL z zeroF * evL z zeroF.reverse + evL z zeroG * evL z zeroG.reverse) * evL z zeroU := by
    unfold zeroGram; rw [evL_lMul, evL_lAdd, evL_lMul, evL_lMul]
  have h2 := evL_split z 32 (lMul zeroGram zeroU) (by decide +kernel)
  have h5 := evL_split z 32 ((lMul zeroGram zeroU).drop 32) (by decide +kernel)
  have h3 : lAdd ((lMul zeroGram zeroU).take 32) (((lMul zeroGram zeroU).drop 32).drop 32) =
      lAdd (List.replicate 31 0 ++ [zeroM]) (((lMul zeroGram zeroU).drop 32).take 32) := by decide +kernel
  have h4 : evL z (List.replicate 31 0 ++ [zeroM]) = z ^ 31 * zeroM := by
    rw [evL_append, List.length_replicate]
    have : ∀ m, evL z (List.replicate m 0) = 0 := by
      intro m
      induction m with
      | zero => rfl
      | succ m ih => rw [List.replicate_succ, evL, ih]; simp
    rw [this, zero_add]
    simp [evL]
  have h6 := congrArg (evL z) h3
  rw [evL_lAdd, evL_lAdd, h4] at h6
  have h7 : z ^ 31 * ((evL z zeroF * evL w zeroF + evL z zeroG * evL w zeroG) * evL z zeroU) = z ^ 31 * zeroM := by
    rw [p1] at h2 h5
    linear_combination -h1 + h2 - h5 + h6 + (evL z zeroF * evL z zeroU) * r1 + (evL z zeroG * evL z zeroU) * r2
  have h0 : z ^ 31 ≠ 0 := by
    intro h
    have : z ^ 32 = 0 := by rw [pow_succ, h, zero_mul]
    rw [this] at p1
    norm_num at p1
  exact mul_left_cancel₀ h0 h7

/-- The sum of the inverses of ff* + gg*. -/
theorem zeroKey_sum : ∑ j ∈ range (2 ^ 9), (12289 : ℝ) ^ 2 / gramAt 9 zkf zkg j = 12289 ^ 2 * 2 ^ 9 * (zeroU.headD 0 : ℝ) / zeroM := by
  have hM : (0 : ℝ) < zeroM := by unfold zeroM; norm_num
  have h : ((∑ j ∈ range (2 ^ 9), (12289 : ℝ) ^ 2 / gramAt 9 zkf zkg j : ℝ) : ℂ) =
      ((12289 ^ 2 * 2 ^ 9 * (zeroU.headD 0 : ℝ) / zeroM : ℝ) : ℂ) := by
    have hs := sum_dft (n := 9) (by norm_num) (zC (strideMem 16 zeroU))
    have e : ∀ j ∈ range (2 ^ 9), (((12289 : ℝ) ^ 2 / gramAt 9 zkf zkg j : ℝ) : ℂ) =
        12289 ^ 2 / zeroM * dft 9 (zC (strideMem 16 zeroU)) j := by
      intro j hj
      have hg := zeroKey_gram j (mem_range.mp hj)
      have hm : ((zeroM : ℤ) : ℂ) ≠ 0 := by exact_mod_cast hM.ne'
      have hg0 : ((gramAt 9 zkf zkg j : ℝ) : ℂ) ≠ 0 := by
        intro h; rw [h, zero_mul] at hg; exact hm hg.symm
      push_cast
      rw [div_mul_eq_mul_div, div_eq_div_iff hg0 hm, ← hg]
      ring
    rw [Complex.ofReal_sum, sum_congr rfl e, ← mul_sum, hs]
    push_cast
    rw [show zC (strideMem 16 zeroU) 0 = ((zeroU.headD 0 : ℤ) : ℂ) from rfl]
    ring
  exact Complex.ofReal_injective h

theorem zeroKey_gs : GsSmall 9 zkf zkg := by
  constructor
  · rw [sum_add_distrib]
    unfold zkf zkg
    have e : ∀ l : List ℤ, l.length = 32 → ∑ i ∈ range (2 ^ 9), ((strideMem 16 l i : ℤ) : ℝ) ^ 2 = (((l.map (· ^ 2)).sum : ℤ) : ℝ) := by
      intro l hl
      rw [show 2 ^ 9 = l.length * 16 by rw [hl]; norm_num, sum_strideMem (by norm_num) l (fun z _ => ((z : ℤ) : ℝ) ^ 2) (by simp)]
      clear hl
      induction l with
      | nil => simp
      | cons x l ih =>
        rw [List.length_cons, sum_range_succ']
        simp only [List.getD_cons_succ, List.getD_cons_zero, List.map_cons, List.sum_cons, Int.cast_add, Int.cast_pow]
        rw [ih, add_comm]
    rw [e _ (by decide), e _ (by decide), show (zeroF.map (· ^ 2)).sum = 4967 by decide +kernel,
      show (zeroG.map (· ^ 2)).sum = 11517 by decide +kernel]
    norm_num
  · have hM : (0 : ℝ) < zeroM := by unfold zeroM; norm_num
    rw [zeroKey_sum, div_le_iff₀ hM]
    have hz : (12289 ^ 2 * 2 ^ 9 * zeroU.headD 0 : ℤ) ≤ 16900 * 2 ^ 9 * zeroM := by decide +kernel
    exact_mod_cast hz

/-- The layers of the transform of f without contraction. -/
def zeroLay : ℕ → List (ℚ × ℚ)
  | 0 => zeroF.map fun x => ((x : ℚ), 0)
  | 1 => [
    (9, -7), (-20, 15), (-7, 7), (-5, 2), (22, 23), (mkRat (-2251799813685247) 1125899906842624, 15), (-9, 14),
    (mkRat (-2173393950009411) 2535301200456458802993406410752, -14), (15, -14), (mkRat (6755399441055743) 1125899906842624, -10), (-9, 6),
    (mkRat (-6192449487634433) 562949953421312, -18), (mkRat (5629499534213119) 562949953421312, -16),
    (mkRat (4657272750020167) 5070602400912917605986812821504, 15), (-20, -5), (-14, 7)]
  | 2 => [
    (mkRat (8305227868622385) 281474976710656, mkRat (-885645986104081) 140737488355328),
    (mkRat (-1222486848975117) 140737488355328, mkRat (1712996595797059) 140737488355328),
    (mkRat (-619477226058881) 35184372088832, mkRat (1373226242675301) 281474976710656),
    (mkRat (-56579320753071) 1125899906842624, mkRat (-2604501562402585) 140737488355328),
    (mkRat (5683651985780811) 140737488355328, mkRat (5279727275746505) 281474976710656),
    (mkRat (-3548442924917767) 281474976710656, mkRat (900952202769537) 35184372088832),
    (mkRat (-689845970236545) 35184372088832, mkRat (-129396493151447) 35184372088832),
    (mkRat (-2089845080047519) 140737488355328, mkRat (-1333469931828549) 70368744177664)]
  | 3 => [
    (mkRat (4196695797987043) 70368744177664, mkRat (466038680979383) 17592186044416),
    (mkRat (-4240771669694061) 140737488355328, mkRat (8727033272812839) 281474976710656),
    (mkRat (-2414587808821227) 70368744177664, mkRat (-847544459841171) 140737488355328),
    (mkRat (-1834487619467731) 281474976710656, mkRat (-1467045451304425) 35184372088832)]
  | 4 => [
    (mkRat (955588738825397) 35184372088832, mkRat (7819699563268941) 562949953421312),
    (mkRat (-249722838674557) 8796093022208, mkRat (-3141710182178875) 281474976710656)]
  | _ => [(0, 0)]

/-- The layers of the transform of f with contraction. -/
def zeroLayC : ℕ → List (ℚ × ℚ)
  | 0 => zeroF.map fun x => ((x : ℚ), 0)
  | 1 => [
    (9, -7), (-20, 15), (-7, 7), (-5, 2), (22, 23), (mkRat (-2251799813685247) 1125899906842624, 15), (-9, 14),
    (mkRat (-2173393950009411) 2535301200456458802993406410752, -14), (15, -14), (mkRat (6755399441055743) 1125899906842624, -10), (-9, 6),
    (mkRat (-6192449487634433) 562949953421312, -18), (mkRat (5629499534213119) 562949953421312, -16),
    (mkRat (4657272750020167) 5070602400912917605986812821504, 15), (-20, -5), (-14, 7)]
  | 2 => [
    (mkRat (8305227868622385) 281474976710656, mkRat (-7085167888832649) 1125899906842624),
    (mkRat (-1222486848975117) 140737488355328, mkRat (1712996595797059) 140737488355328),
    (mkRat (-619477226058881) 35184372088832, mkRat (1373226242675301) 281474976710656),
    (mkRat (-56579320753071) 1125899906842624, mkRat (-2604501562402585) 140737488355328),
    (mkRat (5683651985780811) 140737488355328, mkRat (5279727275746505) 281474976710656),
    (mkRat (-3548442924917767) 281474976710656, mkRat (900952202769537) 35184372088832),
    (mkRat (-689845970236545) 35184372088832, mkRat (-129396493151447) 35184372088832),
    (mkRat (-2089845080047519) 140737488355328, mkRat (-1333469931828549) 70368744177664)]
  | 3 => [
    (mkRat (4196695797987043) 70368744177664, mkRat (466038680979383) 17592186044416),
    (mkRat (-4240771669694061) 140737488355328, mkRat (8727033272812839) 281474976710656),
    (mkRat (-2414587808821227) 70368744177664, mkRat (-847544459841171) 140737488355328),
    (mkRat (-1834487619467731) 281474976710656, mkRat (-1467045451304425) 35184372088832)]
  | 4 => [
    (mkRat (955588738825397) 35184372088832, mkRat (7819699563268941) 562949953421312),
    (mkRat (-249722838674557) 8796093022208, mkRat (-3141710182178875) 281474976710656)]
  | _ => [(0, 0)]

set_option maxRecDepth 100000 in
theorem zeroLay_step : ∀ j, j < 5 → ∀ t, t < 2 ^ (4 - j) → (fftBf (qA false) (2 ^ j) ((zeroLay j).getD t 0)
    ((zeroLay j).getD (2 ^ (4 - j) + t) 0)).1 = (zeroLay (j + 1)).getD t 0 := by
  decide +kernel

set_option maxRecDepth 100000 in
theorem zeroLayC_step : ∀ j, j < 5 → ∀ t, t < 2 ^ (4 - j) → (fftBf (qA true) (2 ^ j) ((zeroLayC j).getD t 0)
    ((zeroLayC j).getD (2 ^ (4 - j) + t) 0)).1 = (zeroLayC (j + 1)).getD t 0 := by
  decide +kernel

/-- The transform of f is zero at the first point, as computed in binary64. -/
theorem zeroKey_point (b : Bool) (a0 : Mem ℂ) : fft (ieeeA b) 9 (loop (1 <<< 9) (fun i m => upd m i ((ieeeA b).ofInt (zkf i))) a0) 0 = 0 := by
  have hz : (ieeeA b).ofInt 0 = 0 := by
    show (⟨rnd _, rnd _⟩ : ℂ) = 0
    apply Complex.ext <;> simp [rnd_zero]
  have h1 : ∀ i, i < 512 → i % 16 ≠ 0 → loop (1 <<< 9) (fun i m => upd m i ((ieeeA b).ofInt (zkf i))) a0 i = 0 := by
    intro i hi h16
    rw [one_shiftLeft', loop_fill, if_pos (show i < 2 ^ 9 by norm_num; exact hi)]
    unfold zkf strideMem
    rw [if_neg h16, hz]
  have h2 : ∀ t, t < 32 → loop (1 <<< 9) (fun i m => upd m i ((ieeeA b).ofInt (zkf i))) a0 (16 * t) =
      qC ((zeroF.map fun x => ((x : ℚ), (0 : ℚ))).getD t 0) := by
    intro t ht
    rw [one_shiftLeft', loop_fill, if_pos (show 16 * t < 2 ^ 9 by norm_num; omega)]
    unfold zkf strideMem
    rw [if_pos (by omega), show 16 * t / 16 = t by omega, ← qC_ofInt]
    congr 1
    have h : ∀ t, t < 32 → (qA b).ofInt (zeroF.getD t 0) = (zeroF.map fun x => ((x : ℚ), (0 : ℚ))).getD t 0 := by
      cases b <;> decide +kernel
    exact h t ht
  cases b
  · exact fft_first_zero false (ls := zeroLay) h1 h2 zeroLay_step rfl
  · exact fft_first_zero true (ls := zeroLayC) h1 h2 zeroLayC_step rfl

end Falcon
