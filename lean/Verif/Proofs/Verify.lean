import Verif.Proofs.Hash
import Verif.Props.Codec
import Verif.Props.SigCodec
import Mathlib.Tactic.LinearCombination

/-! # Proofs about verification -/

namespace Falcon

open Polynomial

theorem s2ToFf_spec {x : ℤ} (hx : x.natAbs ≤ 1023) : (s2ToFf x).Canonical ∧ (s2ToFf x).val = (x : Zq) := by
  have key : ((s2ToFf x).v.toNat : ℤ) = (if x < 0 then 12289 else 0) + x := by
    unfold s2ToFf Ff.toU16
    simp only [UInt16.toNat_ofNat', Q_toNat]
    split <;> omega
  constructor
  · unfold Ff.Canonical
    have hq : q = 12289 := rfl
    split at key <;> omega
  · unfold Ff.val
    rw [← Int.cast_natCast, key]
    push_cast
    split
    · have : (12289 : Zq) = 0 := by decide +kernel
      push_cast; rw [this]; ring
    · simp

/-- The polynomial s1 that `verify` computes. -/
def tailS1 (logn : ℕ) (h c : Mem Ff) (s2 : Mem Int) : Mem Ff :=
  intt logn (polyAddTo logn (polyNeg logn (polyMul logn
    (ntt logn (loop (1 <<< logn) (fun i a => upd a i (s2ToFf (s2 i))) (fun _ => Ff.zero)))
    (ntt logn (loop (1 <<< logn) (fun i a => upd a i (h i)) (fun _ => Ff.zero))) (fun _ => Ff.zero)))
    (ntt logn c))

theorem tailS1_spec {n : ℕ} (hn : ValidLog n) {h c : Mem Ff} {s2 : Mem Int} (hh : FitsBelow (2 ^ n) h)
    (hc : CanonBelow (2 ^ n) c) (hs : ∀ i, i < 2 ^ n → (s2 i).natAbs ≤ 1023) :
    CanonBelow (2 ^ n) (tailS1 n h c s2) ∧
    ModEqXN (2 ^ n) (polyZq (2 ^ n) c - polyInt (2 ^ n) s2 * polyZq (2 ^ n) h)
      (polyZq (2 ^ n) (tailS1 n h c s2)) := by
  obtain ⟨a, ha⟩ : ∃ a, a = loop (1 <<< n) (fun i a => upd a i (s2ToFf (s2 i))) (fun _ => Ff.zero) :=
    ⟨_, rfl⟩
  obtain ⟨b, hb⟩ : ∃ b, b = loop (1 <<< n) (fun i a => upd a i (h i)) (fun _ => Ff.zero) := ⟨_, rfl⟩
  have ha' : ∀ i, i < 2 ^ n → a i = s2ToFf (s2 i) := by
    intro i hi; rw [ha, loop_fill, one_shiftLeft', if_pos hi]
  have hb' : ∀ i, i < 2 ^ n → b i = h i := by
    intro i hi; rw [hb, loop_fill, one_shiftLeft', if_pos hi]
  have hac : CanonBelow (2 ^ n) a := fun i hi => by rw [ha' i hi]; exact (s2ToFf_spec (hs i hi)).1
  have hbf : FitsBelow (2 ^ n) b := fun i hi => by rw [hb' i hi]; exact hh i hi
  have hpa : polyZq (2 ^ n) a = polyInt (2 ^ n) s2 :=
    toPoly_congr (fun i hi => by rw [ha' i hi, (s2ToFf_spec (hs i hi)).2])
  have hpb : polyZq (2 ^ n) b = polyZq (2 ^ n) h := toPoly_congr (fun i hi => by rw [hb' i hi])
  unfold tailS1
  rw [← ha, ← hb, ← hpa, ← hpb]
  obtain ⟨e, he⟩ : ∃ e, e = polyAddTo n (polyNeg n (polyMul n (ntt n a) (ntt n b) (fun _ => Ff.zero)))
    (ntt n c) := ⟨_, rfl⟩
  rw [← he]
  have hval : ∀ j, j < 2 ^ n → e j =
      Ff.addAssign (Ff.neg (Ff.mul (ntt n a j) (ntt n b j))) (ntt n c j) := by
    intro j hj
    rw [he]
    unfold polyAddTo polyNeg polyMul
    rw [loop_map (1 <<< n) (fun i x => Ff.addAssign x (ntt n c i)), one_shiftLeft', if_pos hj,
      loop_map (2 ^ n) (fun i x => Ff.neg x), if_pos hj, loop_fill, if_pos hj]
  have hm := fun j hj => Ff.mul_spec (ntt_canon hn hac j hj).fits (ntt_val hn hbf j hj).1
  have hng := fun j hj => Ff.neg_spec (hm j hj).1
  have hecan : CanonBelow (2 ^ n) e := by
    intro j hj
    rw [hval j hj]
    exact Ff.addAssign_canon (hng j hj).1 (ntt_canon hn hc j hj)
  refine ⟨intt_canon hn hecan, ?_⟩
  apply intt_poly hn hecan
  intro j hj
  rw [hval j hj, (Ff.addAssign_spec (hng j hj).1.fits (ntt_canon hn hc j hj)).2, (hng j hj).2,
    (hm j hj).2, (ntt_val hn hac.fits j hj).2, (ntt_val hn hbf j hj).2, (ntt_val hn hc.fits j hj).2,
    Polynomial.eval_sub, Polynomial.eval_mul]
  unfold polyZq
  ring

theorem centre_eq {x : Ff} : centre x = if x.v.toNat < 6144 then (x.v.toNat : ℤ) else x.v.toNat - 12289 := by
  unfold centre
  simp only [Ff.flgQ_toNat, ge_iff_le, decide_eq_true_eq]
  have e : Q / 2 ≤ x.v ↔ 6144 ≤ x.v.toNat := by
    rw [show Q / 2 = (6144 : UInt16) by decide, UInt16.le_iff_toNat_le]; rfl
  by_cases h : 6144 ≤ x.v.toNat
  · rw [if_pos (e.mpr h), if_neg (by omega)]; norm_num
  · rw [if_neg (fun h' => h (e.mp h')), if_pos (by omega)]; norm_num

theorem centre_cast (x : Ff) : ((centre x : ℤ) : Zq) = x.val := by
  rw [centre_eq]
  unfold Ff.val
  split
  · push_cast; rfl
  · push_cast
    have : (12289 : Zq) = 0 := by decide +kernel
    rw [this, sub_zero]

theorem centre_bound {x : Ff} (h : x.Canonical) : (centre x).natAbs ≤ 6145 := by
  unfold Ff.Canonical at h
  have hq : q = 12289 := rfl
  rw [centre_eq]; split <;> omega

/-- The norm in the code. -/
def codeNorm (n : ℕ) (h c : Mem Ff) (s2 : Mem Int) : ℤ :=
  sqNorm (2 ^ n) s2 + sqNorm (2 ^ n) (fun i => centre (tailS1 n h c s2 i))

theorem sqNorm_nonneg (N : ℕ) (s : ℕ → ℤ) : 0 ≤ sqNorm N s := Finset.sum_nonneg (fun i _ => sq_nonneg _)

theorem sqNorm_succ (N : ℕ) (s : ℕ → ℤ) : sqNorm (N + 1) s = sqNorm N s + s N ^ 2 :=
  Finset.sum_range_succ _ _

theorem sqNorm_congr {N : ℕ} {s s' : ℕ → ℤ} (h : ∀ i, i < N → s i = s' i) : sqNorm N s = sqNorm N s' :=
  Finset.sum_congr rfl (fun i hi => by rw [h i (Finset.mem_range.mp hi)])

theorem accNorm_strict {N : ℕ} {a : Mem Int} (ha : ∀ i, i < N → (a i).natAbs ≤ 46340) {acc : ℤ} (h0 : 0 ≤ acc)
    (h1 : acc < 2 ^ 31) :
    accNorm .strict N a acc = if acc + sqNorm N a < 2 ^ 31 then .ok (acc + sqNorm N a)
      else .error .signedOverflow := by
  unfold accNorm
  induction N with
  | zero => simp only [loopE, sqNorm, Finset.range_zero, Finset.sum_empty, add_zero]; rw [if_pos h1]
  | succ N ih =>
    rw [loopE, ih (fun i hi => ha i (by omega)), sqNorm_succ]
    have hN := ha N (by omega)
    have hsq : a N * a N ≤ 46340 * 46340 := by
      have : (a N).natAbs * (a N).natAbs ≤ 46340 * 46340 := Nat.mul_le_mul hN hN
      have h2 : ((a N).natAbs * (a N).natAbs : ℤ) = a N * a N := Int.natAbs_mul_self' _
      rw [← h2]
      exact_mod_cast this
    have hsq0 : 0 ≤ a N * a N := mul_self_nonneg _
    have hn0 := sqNorm_nonneg N a
    rw [sq]
    by_cases h : acc + sqNorm N a < 2 ^ 31
    · rw [if_pos h]
      simp only [Except.bind]
      rw [i32, if_pos (by constructor <;> omega)]
      simp only
      rw [i32, ← add_assoc]
      by_cases h' : acc + sqNorm N a + a N * a N < 2 ^ 31
      · rw [if_pos ⟨by omega, h'⟩, if_pos h']
      · rw [if_neg (by omega), if_neg h']
    · rw [if_neg h, if_neg (by omega)]; rfl

theorem bmod_range (x : ℤ) (h : -2 ^ 31 ≤ x ∧ x < 2 ^ 31) : Int.bmod x (2 ^ 32) = x := by
  rw [Int.bmod_eq_of_le] <;> norm_num <;> omega

theorem i32_wrap (x : ℤ) : i32 .wrap x = .ok (Int.bmod x (2 ^ 32)) := by
  unfold i32
  split
  · rename_i h; rw [bmod_range x h]
  · rfl

theorem accNorm_wrap {N : ℕ} {a : Mem Int} {acc : ℤ} :
    accNorm .wrap N a (Int.bmod acc (2 ^ 32)) = .ok (Int.bmod (acc + sqNorm N a) (2 ^ 32)) := by
  unfold accNorm
  induction N with
  | zero => simp only [loopE, sqNorm, Finset.range_zero, Finset.sum_empty, add_zero]
  | succ N ih =>
    rw [loopE, ih, sqNorm_succ]
    simp only [Except.bind]
    rw [i32_wrap]
    simp only
    rw [i32_wrap]
    rw [Int.add_bmod_bmod, Int.bmod_add_bmod, sq, add_assoc]

theorem verifyTail_unfold (p : Ovf) (n : ℕ) (β : ℤ) (h c : Mem Ff) (s2 : Mem Int) :
    verifyTail p n β h c s2 = (accNorm p (2 ^ n) s2 0).bind fun nrm =>
      (accNorm p (2 ^ n) (loop (2 ^ n) (fun i a => upd a i (centre (tailS1 n h c s2 i))) (fun _ => 0)) nrm).bind
        fun nrm => .ok (decide (nrm ≤ β)) := by
  unfold verifyTail tailS1
  simp only [one_shiftLeft']

theorem fillS1 (n : ℕ) (f : ℕ → ℤ) (i : ℕ) (hi : i < 2 ^ n) :
    loop (2 ^ n) (fun i a => upd a i (f i)) (fun _ => (0 : ℤ)) i = f i := by
  rw [loop_fill, if_pos hi]

theorem verifyTail_strict {n : ℕ} (hn : ValidLog n) (β : ℤ) {h c : Mem Ff} {s2 : Mem Int}
    (hh : FitsBelow (2 ^ n) h) (hc : CanonBelow (2 ^ n) c) (hs : ∀ i, i < 2 ^ n → (s2 i).natAbs ≤ 1023) :
    verifyTail .strict n β h c s2 = if codeNorm n h c s2 < 2 ^ 31 then
      .ok (decide (codeNorm n h c s2 ≤ β)) else .error .signedOverflow := by
  rw [verifyTail_unfold, accNorm_strict (fun i hi => (hs i hi).trans (by norm_num)) (le_refl 0) (by norm_num)]
  have h1 := tailS1_spec hn hh hc hs
  have e : sqNorm (2 ^ n) (loop (2 ^ n) (fun i a => upd a i (centre (tailS1 n h c s2 i))) (fun _ => 0)) =
      sqNorm (2 ^ n) (fun i => centre (tailS1 n h c s2 i)) :=
    sqNorm_congr (fun i hi => fillS1 n _ i hi)
  have n1 := sqNorm_nonneg (2 ^ n) s2
  have n2 := sqNorm_nonneg (2 ^ n) (fun i => centre (tailS1 n h c s2 i))
  rw [zero_add]
  unfold codeNorm
  by_cases hl : sqNorm (2 ^ n) s2 < 2 ^ 31
  · rw [if_pos hl]
    simp only [Except.bind]
    rw [accNorm_strict (fun i hi => by
      rw [fillS1 n _ i hi]; exact (centre_bound (h1.1 i hi)).trans (by norm_num)) n1 hl, e]
    by_cases hl' : sqNorm (2 ^ n) s2 + sqNorm (2 ^ n) (fun i => centre (tailS1 n h c s2 i)) < 2 ^ 31
    · rw [if_pos hl', if_pos hl']
    · rw [if_neg hl', if_neg hl']
  · rw [if_neg hl, if_neg (by omega)]; rfl

theorem verifyTail_wrap {n : ℕ} (β : ℤ) {h c : Mem Ff} {s2 : Mem Int} :
    verifyTail .wrap n β h c s2 = .ok (decide (Int.bmod (codeNorm n h c s2) (2 ^ 32) ≤ β)) := by
  have h0 := accNorm_wrap (N := 2 ^ n) (a := s2) (acc := 0)
  rw [show Int.bmod 0 (2 ^ 32) = 0 from rfl, zero_add] at h0
  have e : sqNorm (2 ^ n) (loop (2 ^ n) (fun i a => upd a i (centre (tailS1 n h c s2 i))) (fun _ => 0)) =
      sqNorm (2 ^ n) (fun i => centre (tailS1 n h c s2 i)) :=
    sqNorm_congr (fun i hi => fillS1 n _ i hi)
  rw [verifyTail_unfold, h0]
  simp only [Except.bind]
  rw [accNorm_wrap, e]
  rfl

theorem accNorm_congr {p : Ovf} {N : ℕ} {a b : Mem Int} (h : ∀ i, i < N → a i = b i) (acc : ℤ) :
    accNorm p N a acc = accNorm p N b acc := by
  unfold accNorm
  induction N with
  | zero => rfl
  | succ N ih => rw [loopE, loopE, ih (fun i hi => h i (by omega)), h N (by omega)]

theorem tailS1_congr {n : ℕ} {h h' c : Mem Ff} {s2 s2' : Mem Int} (hh : ∀ i, i < 2 ^ n → h i = h' i)
    (hs : ∀ i, i < 2 ^ n → s2 i = s2' i) : tailS1 n h c s2 = tailS1 n h' c s2' := by
  unfold tailS1
  rw [one_shiftLeft', loop_congr (g := fun i a => upd a i (s2ToFf (s2' i)))
    (fun i hi t => by rw [hs i hi]), loop_congr (f := fun i a => upd a i (h i))
    (g := fun i a => upd a i (h' i)) (fun i hi t => by rw [hh i hi])]

theorem verifyTail_congr {p : Ovf} {n : ℕ} {β : ℤ} {h h' c : Mem Ff} {s2 s2' : Mem Int}
    (hh : ∀ i, i < 2 ^ n → h i = h' i)
    (hs : ∀ i, i < 2 ^ n → s2 i = s2' i) : verifyTail p n β h c s2 = verifyTail p n β h' c s2' := by
  rw [verifyTail_unfold, verifyTail_unfold, accNorm_congr hs, tailS1_congr hh hs]

/-! ### decoding -/

theorem digits_unique {B N : ℕ} {a b : ℕ → ℕ} (ha : ∀ i, i < N → a i < B) (hb : ∀ i, i < N → b i < B)
    (h : ∑ i ∈ Finset.range N, a i * B ^ i = ∑ i ∈ Finset.range N, b i * B ^ i) :
    ∀ i, i < N → a i = b i := by
  induction N generalizing a b with
  | zero => intro i hi; omega
  | succ N ih =>
    rw [Finset.sum_range_succ', Finset.sum_range_succ'] at h
    have f : ∀ c : ℕ → ℕ, ∑ k ∈ Finset.range N, c (k + 1) * B ^ (k + 1) =
        B * ∑ k ∈ Finset.range N, c (k + 1) * B ^ k := by
      intro c
      rw [Finset.mul_sum]
      exact Finset.sum_congr rfl (fun k _ => by rw [pow_succ]; ring)
    rw [f a, f b, pow_zero, mul_one, mul_one] at h
    have ha0 := ha 0 (by omega); have hb0 := hb 0 (by omega)
    have h0 : a 0 = b 0 := by
      have := congrArg (· % B) h
      simp only [Nat.mul_add_mod, Nat.mod_eq_of_lt ha0, Nat.mod_eq_of_lt hb0] at this
      exact this
    have hB : 0 < B := by omega
    have h1 : ∑ k ∈ Finset.range N, a (k + 1) * B ^ k = ∑ k ∈ Finset.range N, b (k + 1) * B ^ k := by
      rw [h0] at h
      exact Nat.eq_of_mul_eq_mul_left hB (by omega)
    intro i hi
    rcases i with _ | i
    · exact h0
    · exact ih (fun i hi => ha _ (by omega)) (fun i hi => hb _ (by omega)) h1 i (by omega)

theorem decodePkey_of {n : ℕ} (hn : ValidLog n) (pk : Mem UInt8) (h0 : Mem Ff)
    (hd : (pk 0).toNat = n) : ∃ h, decodePkey n pk h0 = (true, h) ∧ PkeyOf n pk h := by
  obtain ⟨r, h⟩ : ∃ r, r = decodePkey n pk h0 := ⟨_, rfl⟩
  obtain ⟨h1, h2, h3, h4⟩ := C10_pkey_decode hn pk (fun _ => 0) h0
  rw [← h] at h1 h2 h3 h4
  have hr : r.1 = true := by
    by_contra hx
    exact (h1.mp (by simpa using hx)) hd
  obtain ⟨g1, g2⟩ := h3 hr
  refine ⟨r.2, by rw [← h, ← hr], hd, g1, ?_⟩
  rw [← C59_pkey_layout hn r.2 (fun _ => 0) g1]
  refine Finset.sum_congr rfl (fun j hj => ?_)
  rw [g2 (1 + j) (by have := Finset.mem_range.mp hj; omega)]

theorem decodePkey_none {n : ℕ} (hn : ValidLog n) (pk : Mem UInt8) (h0 : Mem Ff)
    (hd : (pk 0).toNat ≠ n) : ∃ h, decodePkey n pk h0 = (false, h) := by
  obtain ⟨r, h⟩ : ∃ r, r = decodePkey n pk h0 := ⟨_, rfl⟩
  obtain ⟨h1, -⟩ := C10_pkey_decode hn pk (fun _ => 0) h0
  rw [← h] at h1
  exact ⟨r.2, by rw [← h, ← h1.mpr hd]⟩

theorem PkeyOf.unique {n : ℕ} {pk : Mem UInt8} {h h' : Mem Ff} (a : PkeyOf n pk h) (b : PkeyOf n pk h') :
    ∀ i, i < 2 ^ n → h i = h' i := by
  intro i hi
  have := digits_unique (a := fun i => (h i).v.toNat) (b := fun i => (h' i).v.toNat)
    (fun i hi => a.2.1 i hi) (fun i hi => b.2.1 i hi) (a.2.2.symm.trans b.2.2) i hi
  exact Ff.ext_toNat this

theorem loopE_copy (lim : ℕ) (m : Mem UInt8) (N : ℕ) (hl : N < lim) (salt : Mem UInt8) :
    loopE N (fun i salt => (rdE lim m (1 + i)).bind fun b => .ok (upd salt i b)) salt =
      .ok (loop N (fun i salt => upd salt i (m (1 + i))) salt) := by
  apply loopE_ok
  intro i hi t
  rw [rdE_ok (by omega)]; rfl

theorem decodeSig_of {n lim : ℕ} (hn : ValidLog n) {m : Mem UInt8} {s2 : ℕ → ℤ}
    (hlim : sigBytes n + 2 ≤ lim) (h : SigOf n m s2) (salt0 : Mem UInt8) (s20 : Mem Int) :
    ∃ salt s, decodeSig n (rdArr lim m) salt0 s20 = .ok (true, salt, s) ∧
      (∀ i, i < 40 → salt i = m (1 + i)) ∧ (∀ i, i < 2 ^ n → s i = s2 i) := by
  have hb := sigBytes_ge n
  obtain ⟨hh, hbody⟩ := h
  obtain ⟨s, d1, d2⟩ := decompressSig_accept hlim s20 hbody
  refine ⟨loop 40 (fun i salt => upd salt i (m (1 + i))) salt0, s, ?_, ?_, d2⟩
  · unfold decodeSig rdArr
    simp only
    rw [rdE_ok (by omega)]
    simp only [Except.bind]
    have hh' : m 0 = 0x30 ||| UInt8.ofNat n := by
      apply UInt8.toNat_inj.mp
      rw [hh]
      rcases hn with rfl | rfl <;> rfl
    rw [if_neg (by rw [hh']; simp), d1]
    simp only [Bool.not_true, Bool.false_eq_true, if_false]
    have := loopE_copy lim m 40 (by omega) salt0
    simp only [Except.bind] at this
    rw [this]
  · intro i hi
    rw [loop_fill, if_pos hi]

theorem decodeSig_none {n lim : ℕ} (hn : ValidLog n) {m : Mem UInt8}
    (hlim : sigBytes n + 2 ≤ lim) (h : ∀ s2, ¬ SigOf n m s2) (salt0 : Mem UInt8) (s20 : Mem Int) :
    ∃ salt s, decodeSig n (rdArr lim m) salt0 s20 = .ok (false, salt, s) := by
  have hb := sigBytes_ge n
  unfold decodeSig rdArr
  simp only
  rw [rdE_ok (by omega)]
  simp only [Except.bind]
  by_cases hh : m 0 = 0x30 ||| UInt8.ofNat n
  · have hh' : (m 0).toNat = 0x30 + n := by
      rw [hh]; rcases hn with rfl | rfl <;> rfl
    rw [if_neg (by rw [hh]; simp)]
    obtain ⟨ok, out, a1, a2, a3, -⟩ := C20_accepts_iff m s20 hlim
    have hok : ok = false := by
      cases ok
      · rfl
      · exact absurd ⟨hh', a3 rfl⟩ (h out)
    subst hok
    rw [show rdE lim m = rdArr lim m from rfl, a1]
    exact ⟨_, _, rfl⟩
  · rw [if_pos hh]; exact ⟨_, _, rfl⟩

theorem SigOf.bound {n : ℕ} {m : Mem UInt8} {s2 : ℕ → ℤ} (h : SigOf n m s2) :
    ∀ i, i < 2 ^ n → (s2 i).natAbs ≤ 1023 := by
  intro i hi
  obtain ⟨cs, pos, -, hch, -, -⟩ := h.2
  exact (hch i hi).1.bound

theorem SigOf.unique {n : ℕ} {m : Mem UInt8} {s s' : ℕ → ℤ} (h : SigOf n m s) (h' : SigOf n m s') :
    ∀ i, i < 2 ^ n → s i = s' i := BodyOf_unique h.2 h'.2

theorem verify_eq {n lim : ℕ} (hn : ValidLog n) {xof : Xof} {fuel : ℕ} {p : Ovf} {junk : Junk} {pk m : Mem UInt8}
    {msg : List UInt8} {h : Mem Ff} {s2 : Mem Int} (hlim : sigBytes n + 2 ≤ lim) (hpk : PkeyOf n pk h)
    (hsig : SigOf n m s2) :
    verify xof fuel p n junk pk msg (rdArr lim m) =
      (hashToPoint fuel n (xof (saltMsg m msg)) (fun _ => Ff.zero)).map fun c =>
        verifyTail p n (betaSq n) h c s2 := by
  obtain ⟨h', d1, d2⟩ := decodePkey_of hn pk (fun _ => Ff.zero) hpk.1
  obtain ⟨salt, s, e1, e2, e3⟩ := decodeSig_of hn hlim hsig junk.salt junk.s2
  unfold verify
  rw [d1]
  simp only
  unfold verifyPoly
  rw [e1]
  simp only
  have hb : beta2 n = betaSq n := by rcases hn with rfl | rfl <;> rfl
  have hx : bytes 40 salt ++ msg = saltMsg m msg := by
    unfold bytes saltMsg
    congr 1
    apply List.map_congr_left
    intro i hi
    exact e2 i (List.mem_range.mp hi)
  rw [hb, hx]
  congr 1
  funext c
  exact verifyTail_congr (d2.unique hpk) e3

theorem verify_reject {n lim : ℕ} (hn : ValidLog n) {xof : Xof} {fuel : ℕ} {p : Ovf} {junk : Junk} {pk m : Mem UInt8}
    {msg : List UInt8} (hlim : sigBytes n + 2 ≤ lim)
    (hbad : (pk 0).toNat ≠ n ∨ ∀ s2, ¬ SigOf n m s2) :
    verify xof fuel p n junk pk msg (rdArr lim m) = some (.ok false) := by
  unfold verify
  by_cases hpk : (pk 0).toNat = n
  · obtain ⟨h', d1, d2⟩ := decodePkey_of hn pk (fun _ => Ff.zero) hpk
    obtain ⟨salt, s, e1⟩ := decodeSig_none hn hlim (hbad.resolve_left (fun h => h hpk)) junk.salt junk.s2
    rw [d1]
    simp only
    unfold verifyPoly
    rw [e1]
  · obtain ⟨h', d1⟩ := decodePkey_none hn pk (fun _ => Ff.zero) hpk
    rw [d1]

theorem hashToPoint_spec {fuel n : ℕ} {st : ℕ → UInt8} {c0 c : Mem Ff}
    (h : hashToPoint fuel n st c0 = some c) :
    HashPoint (2 ^ n) st c ∧ ∀ i, 2 ^ n ≤ i → c i = c0 i := by
  unfold hashToPoint at h
  rw [one_shiftLeft'] at h
  obtain ⟨M, -, h1, h2, h3⟩ := (hashLoop_spec (2 ^ n) st c0 fuel 0 (c0, 0) (hinv_init _ _ _)).1 c h
  exact ⟨⟨M, h1, h2⟩, h3⟩

theorem hashToPoint_total {fuel n : ℕ} {st : ℕ → UInt8} {c0 : Mem Ff}
    (h : 2 ^ n ≤ (accepted st (68 * fuel)).length) : ∃ c, hashToPoint fuel n st c0 = some c := by
  unfold hashToPoint
  rw [one_shiftLeft']
  exact (hashLoop_spec (2 ^ n) st c0 fuel 0 (c0, 0) (hinv_init _ _ _)).2 (by rw [zero_add]; exact h)

theorem accepted_length_mono (st : ℕ → UInt8) {M M' : ℕ} (h : M ≤ M') :
    (accepted st M).length ≤ (accepted st M').length := by
  obtain ⟨r, hr⟩ := accepted_prefix st h
  rw [hr, List.length_append]; omega

theorem hashToPoint_iff {fuel n : ℕ} {st : ℕ → UInt8} {c0 : Mem Ff} :
    (∃ c, hashToPoint fuel n st c0 = some c) ↔ 2 ^ n ≤ (accepted st (68 * fuel)).length := by
  refine ⟨?_, hashToPoint_total⟩
  rintro ⟨c, h⟩
  unfold hashToPoint at h
  rw [one_shiftLeft'] at h
  obtain ⟨M, h0, h1, -, -⟩ := (hashLoop_spec (2 ^ n) st c0 fuel 0 (c0, 0) (hinv_init _ _ _)).1 c h
  rw [zero_add] at h0
  exact h1.trans (accepted_length_mono st h0)

/-! ### uniqueness of representatives -/

theorem modEq_coeff {K : Type} [CommRing K] [Nontrivial K] {N : ℕ} (hN : 0 < N) {a b : Mem K}
    (h : ModEqXN N (toPoly N a) (toPoly N b)) : ∀ i, i < N → a i = b i := by
  have hm : (X ^ N + 1 : K[X]).Monic := by
    have := monic_X_pow_add_C (R := K) (n := N) 1 (by omega)
    simpa using this
  have hd : (X ^ N + 1 : K[X]).degree = N := by
    have := degree_X_pow_add_C (R := K) hN 1
    simpa using this
  have hlt : ∀ c : Mem K, (toPoly N c).degree < N := by
    intro c
    rw [degree_lt_iff_coeff_zero]
    intro m hm
    rw [toPoly_coeff, if_neg (by omega)]
  have h0 : toPoly N a - toPoly N b = 0 := by
    by_contra hne
    refine hm.not_dvd_of_degree_lt hne ?_ h
    rw [hd]
    exact lt_of_le_of_lt (degree_sub_le _ _) (max_lt (hlt a) (hlt b))
  intro i hi
  have := congrArg (fun p => p.coeff i) (sub_eq_zero.mp h0)
  simpa only [toPoly_coeff, if_pos hi] using this

theorem ModEqXN.trans {K : Type} [CommRing K] {N : ℕ} {p r s : K[X]} (h : ModEqXN N p r) (h' : ModEqXN N r s) :
    ModEqXN N p s := by
  unfold ModEqXN at *
  have := dvd_add h h'
  rwa [sub_add_sub_cancel] at this

theorem ModEqXN.symm {K : Type} [CommRing K] {N : ℕ} {p r : K[X]} (h : ModEqXN N p r) :
    ModEqXN N r p := by
  unfold ModEqXN at *
  rwa [← dvd_neg, neg_sub]

theorem polyInt_centre (N : ℕ) (a : Mem Ff) : polyInt N (fun i => centre (a i)) = polyZq N a :=
  toPoly_congr (fun i _ => centre_cast (a i))

/-- The representative that `verify` computes is a preimage. -/
theorem preimage_tail {n : ℕ} (hn : ValidLog n) {h c : Mem Ff} {s2 : Mem Int} (hh : FitsBelow (2 ^ n) h)
    (hc : CanonBelow (2 ^ n) c) (hs : ∀ i, i < 2 ^ n → (s2 i).natAbs ≤ 1023) :
    Preimage (2 ^ n) h c (fun i => centre (tailS1 n h c s2 i)) s2 := by
  have := (tailS1_spec hn hh hc hs).2
  unfold Preimage
  rw [polyInt_centre]
  unfold ModEqXN at *
  have e : polyZq (2 ^ n) (tailS1 n h c s2) + polyInt (2 ^ n) s2 * polyZq (2 ^ n) h - polyZq (2 ^ n) c =
    -(polyZq (2 ^ n) c - polyInt (2 ^ n) s2 * polyZq (2 ^ n) h - polyZq (2 ^ n) (tailS1 n h c s2)) := by ring
  rw [e, dvd_neg]; exact this

/-- Any preimage with the same s2 is congruent to it. -/
theorem preimage_cong {N : ℕ} (hN : 0 < N) {h c : Mem Ff} {s1 s1' s2 : ℕ → ℤ}
    (a : Preimage N h c s1 s2) (b : Preimage N h c s1' s2) :
    ∀ i, i < N → (s1 i : Zq) = (s1' i : Zq) := by
  have e : ModEqXN N (polyInt N s1) (polyInt N s1') := by
    have := a.trans b.symm
    unfold ModEqXN at *
    rwa [add_sub_add_right_eq_sub] at this
  exact modEq_coeff hN e

end Falcon
