import Verif.Proofs.SignExact
import Verif.Props.Tree
import Verif.Props.TreeExact
import Verif.Props.SigCodec
import Verif.Props.Ntru

/-!
# C48, C49, C50 : signing
-/

namespace Falcon

open Finset Polynomial

/-- C48. Whatever the targets, the tree and the integers returned by the leaf sampler: the two outputs of fast
Fourier sampling are the transforms of polynomials with integer coefficients. -/
theorem C48_integer {S : Type} (leaf : LeafSampler ℝ S) (n : ℕ) (hn : n ≤ 10) (t0 t1 T z0 z1 : Mem ℂ) (pos : S)
    (r : Mem ℂ × Mem ℂ × S) (h : ffSampling exactA leaf n 0 t0 t1 T z0 z1 pos = some (.ok r)) :
    ∃ a0 a1 : Mem Int, IsDftOf n r.1 a0 ∧ IsDftOf n r.2.1 a1 := by
  have hrel := ffSampling_rel exactA leaf n 0 t0 t1 T z0 z1 t0 t1 pos _ (treeOf_rep n 0 T) (fun _ _ => rfl)
    (fun _ _ => rfl)
  rw [h] at hrel
  cases hs : sampleTree exactA leaf n (treeOf n 0 T) t0 t1 pos with
  | none => rw [hs] at hrel; exact hrel.elim
  | some e =>
    cases e with
    | error e => rw [hs] at hrel; exact hrel.elim
    | ok s =>
      rw [hs] at hrel
      obtain ⟨a0, a1, h0, h1⟩ := sample_int leaf n 0 T _ t0 t1 pos s hn (treeOf_rep n 0 T) hs
      exact ⟨a0, a1, fun i hi => by rw [(hrel.2.1 i hi).1, h0 i hi], fun i hi => by rw [(hrel.2.1 i hi).2, h1 i hi]⟩

/-! ### Layout -/

/-- A signature: header 0x30 + log2 N, the 40 bytes of salt, then the code of `s2` padded with zeros. -/
def SignatureOf (n : ℕ) (sig : Mem UInt8) (salt : ℕ → UInt8) (s2 : Mem Int) : Prop :=
  (sig 0).toNat = 0x30 + n ∧ (∀ i, i < 40 → sig (1 + i) = salt i) ∧
  328 + (codes s2 (2 ^ n)).length < 8 * sigBytes n ∧
  ∀ i, 328 + i < 8 * sigBytes n → bitAt sig (328 + i) = (codes s2 (2 ^ n)).getD i false

/-- Header and salt written around a compressed body. -/
theorem assemble_ok {n : ℕ} (hn : ValidLog n) {s2 : Mem Int} {sig0 out sig' : Mem UInt8} {stream : ℕ → UInt8}
    {pos : ℕ} (msg : List UInt8) (hc : compressSigE n s2 sig0 = .ok (true, out))
    (h1 : loop 40 (fun i sig => upd sig (1 + i) (prngRead stream pos 40 (fun _ => 0) i))
      (upd out 0 (0x30 ||| UInt8.ofNat n)) = sig') :
    SignatureOf n sig' (fun i => stream (pos + i)) s2 ∧
    saltMsg sig' msg = bytes 40 (prngRead stream pos 40 (fun _ => 0)) ++ msg ∧
    ∀ j, sigBytes n ≤ j → sig' j = sig0 j := by
  have hb := sigBytes_ge n
  obtain ⟨l1, l2⟩ := compress_body hn hc
  have hout : ∀ j, sig' j = if 1 ≤ j ∧ j < 41 then stream (pos + (j - 1)) else
      if j = 0 then 0x30 ||| UInt8.ofNat n else out j := by
    intro j
    have hsalt : ∀ i, i < 40 → prngRead stream pos 40 (fun _ => 0) i = stream (pos + i) := by
      intro i hi
      unfold prngRead
      rw [loop_fill, if_pos hi]
    have hl : ∀ m, m ≤ 40 → loop m (fun i sig => upd sig (1 + i) (prngRead stream pos 40 (fun _ => 0) i))
        (upd out 0 (0x30 ||| UInt8.ofNat n)) j = if 1 ≤ j ∧ j < 1 + m then stream (pos + (j - 1)) else
          if j = 0 then 0x30 ||| UInt8.ofNat n else out j := by
      intro m
      induction m with
      | zero =>
        intro _
        rw [if_neg (by omega)]
        by_cases hj : j = 0
        · rw [if_pos hj, hj]; exact upd_same _ _ _
        · rw [if_neg hj]; exact upd_ne _ _ _ _ (by omega)
      | succ m ih =>
        intro hm
        rw [loop_succ]
        by_cases hj : j = 1 + m
        · rw [if_pos (by omega), hj, upd_same, hsalt m (by omega)]
          congr 2; omega
        · rw [upd_ne _ (1 + m) j _ hj, ih (by omega)]
          by_cases hj' : 1 ≤ j ∧ j < 1 + m
          · rw [if_pos hj', if_pos (show 1 ≤ j ∧ j < 1 + (m + 1) by omega)]
          · rw [if_neg hj', if_neg (show ¬ (1 ≤ j ∧ j < 1 + (m + 1)) by omega)]
    rw [← h1]
    exact hl 40 le_rfl
  have hslt : saltMsg sig' msg = bytes 40 (prngRead stream pos 40 (fun _ => 0)) ++ msg := by
    unfold saltMsg bytes
    congr 1
    apply List.map_congr_left
    intro i hi
    rw [List.mem_range] at hi
    rw [hout, if_pos (by omega)]
    unfold prngRead
    rw [loop_fill, if_pos hi]
    congr 2; omega
  refine ⟨⟨?_, ?_, ?_, ?_⟩, hslt, ?_⟩
  · rw [hout, if_neg (by omega), if_pos rfl]
    rcases hn with rfl | rfl <;> rfl
  · intro i hi
    rw [hout, if_pos (by omega)]
    congr 2; omega
  · exact l1
  · intro i hi
    rw [← l2 i hi]
    unfold bitAt
    rw [hout, if_neg (by omega), if_neg (by omega)]
  · intro j hj
    have hj' : sigLen n ≤ j := hj
    rw [hout, if_neg (by omega), if_neg (by omega), compress_frame hc j (Or.inr hj')]

/-- The last round of a run of `signing::sign` that returns, and the layout of its output. -/
theorem signPoly_last {R C : Type} (A : Arith R C) {xof : Xof} {leaf : LeafSampler R} {fuel hfuel n : ℕ}
    (hn : ValidLog n) {B T : Mem C} {stream : ℕ → UInt8} {msg : List UInt8} {sig sig' : Mem UInt8} {pos pos' : ℕ}
    (h : signPoly A xof leaf fuel hfuel n B T stream msg sig pos = some (.ok (sig', pos'))) :
    ∃ c z s2 p, hashToPoint hfuel n (xof (saltMsg sig' msg)) (fun _ => Ff.zero) = some c ∧
      let t := signTarget A n B c
      ffSampling A leaf n 0 t.1 t.2 T (junkC A) (junkC A) p = some (.ok z) ∧
      A.le (signNorm A n (signVec A n B t.1 t.2 z.1 z.2.1).1 (signVec A n B t.1 t.2 z.1 z.2.1).2)
        (A.lit (beta2 n)) = true ∧
      signRound A n (signVec A n B t.1 t.2 z.1 z.2.1).2 = .ok s2 ∧
      SignatureOf n sig' (fun i => stream (pos + i)) s2 ∧ (∀ j, sigBytes n ≤ j → sig' j = sig j) ∧
      pos' = z.2.2 := by
  unfold signPoly at h
  simp only at h
  split at h
  · cases h
  rename_i c hc
  obtain ⟨r, hr, h⟩ := bindO_ok h
  injection h with h
  injection h with h
  injection h with h1 h2
  obtain ⟨z, sig0, s2, p, e1, e2, e3, e4, e5, e6⟩ :=
    signLoop_ok A leaf n B T _ _ fuel sig r.1 (pos + 40) r.2 hr
  obtain ⟨a1, a2, a3⟩ := assemble_ok hn msg e4 h1
  exact ⟨c, z, s2, p, by rw [a2]; exact hc, e1, e2, e3, a1, fun j hj => (a3 j hj).trans (e5 j (Or.inr hj)),
    h2.symm.trans e6⟩

theorem signPoly_ok {R C : Type} (A : Arith R C) {xof : Xof} {leaf : LeafSampler R} {fuel hfuel n : ℕ}
    (hn : ValidLog n) {B T : Mem C} {stream : ℕ → UInt8} {msg : List UInt8} {sig sig' : Mem UInt8} {pos pos' : ℕ}
    (h : signPoly A xof leaf fuel hfuel n B T stream msg sig pos = some (.ok (sig', pos'))) :
    ∃ c z s2 p, hashToPoint hfuel n (xof (saltMsg sig' msg)) (fun _ => Ff.zero) = some c ∧
      let t := signTarget A n B c
      ffSampling A leaf n 0 t.1 t.2 T (junkC A) (junkC A) p = some (.ok z) ∧
      A.le (signNorm A n (signVec A n B t.1 t.2 z.1 z.2.1).1 (signVec A n B t.1 t.2 z.1 z.2.1).2)
        (A.lit (beta2 n)) = true ∧
      signRound A n (signVec A n B t.1 t.2 z.1 z.2.1).2 = .ok s2 ∧
      SignatureOf n sig' (fun i => stream (pos + i)) s2 ∧ ∀ j, sigBytes n ≤ j → sig' j = sig j := by
  obtain ⟨c, z, s2, p, e0, e1, e2, e3, e4, e5, -⟩ := signPoly_last A hn h
  exact ⟨c, z, s2, p, e0, e1, e2, e3, e4, e5⟩

/-- C50. For every arithmetic (binary64 in particular), every random stream and every sampler: `falcon::sign`
refuses, leaving the buffer alone, exactly for secret keys with a wrong header; if it returns a signature then
this has the documented layout with the first 40 bytes of the random stream as salt, and the bytes beyond
666/1280 are unchanged. -/
theorem C50_layout {R C : Type} (A : Arith R C) (xof : Xof) (mt : UInt32 → Mem UInt8)
    (leaf : (ℕ → UInt8) → LeafSampler R) (fuel hfuel n : ℕ) (hn : ValidLog n) (junk : FgF) (junkG : Mem Int)
    (junkB junkT : Mem C) (rd : UInt32) (skey : Mem UInt8) (msg : List UInt8) (sig : Mem UInt8) :
    let r := falconSign A xof mt leaf fuel hfuel n junk junkG junkB junkT rd skey msg sig
    ((skey 0).toNat ≠ 0x50 + n → r = some (.ok (false, sig))) ∧
    ((skey 0).toNat = 0x50 + n → ∀ b sig', r = some (.ok (b, sig')) → b = true ∧
      (∃ s2, SignatureOf n sig' (prngNew xof mt rd) s2) ∧ ∀ j, sigBytes n ≤ j → sig' j = sig j) := by
  intro r
  have hd := (C13_skey_decode hn skey skey junk).1
  cases hk : decodeSkey n skey junk with
  | mk b k =>
    rw [hk] at hd
    simp only at hd
    constructor
    · intro hne
      have hb := hd.mpr hne
      subst hb
      show falconSign A xof mt leaf fuel hfuel n junk junkG junkB junkT rd skey msg sig = _
      unfold falconSign
      simp only [hk]
    · intro heq b' sig' hr
      have hb : b = true := by
        cases b with
        | true => rfl
        | false => exact absurd heq (hd.mp rfl)
      subst hb
      have hr : falconSign A xof mt leaf fuel hfuel n junk junkG junkB junkT rd skey msg sig = some (.ok (b', sig')) := hr
      unfold falconSign at hr
      simp only [hk] at hr
      obtain ⟨G, -, hr⟩ := bindO_ok hr
      obtain ⟨s, hs, hr⟩ := bindO_ok hr
      injection hr with hr
      injection hr with hr
      injection hr with h1 h2
      obtain ⟨c, z, s2, p, -, -, -, -, e1, e2⟩ := signPoly_ok A hn (sig' := s.1) (pos' := s.2) hs
      refine ⟨h1.symm, ⟨s2, ?_⟩, ?_⟩
      · rw [← h2]
        simpa only [Nat.zero_add] using e1
      · rw [← h2]; exact e2

/-! ### Correctness -/

theorem polyInt_map (N : ℕ) (s : Mem Int) : polyInt N s = (polyZ N s).map (Int.castRingHom Zq) := by
  unfold polyInt polyZ toPoly
  simp [Polynomial.map_sum]

theorem modEq_map {N : ℕ} {p r : ℤ[X]} (h : ModEqXN N p r) :
    ModEqXN N (p.map (Int.castRingHom Zq)) (r.map (Int.castRingHom Zq)) := by
  obtain ⟨c, hc⟩ := h
  refine ⟨c.map (Int.castRingHom Zq), ?_⟩
  have := congrArg (Polynomial.map (Int.castRingHom Zq)) hc
  simpa using this

theorem polyZq_hash (N : ℕ) (c : Mem Ff) : polyInt N (hashInt c) = polyZq N c := by
  unfold polyInt polyZq hashInt
  refine toPoly_congr fun i _ => ?_
  simp [Ff.val]

/-- h f = g and f G - g F = q give h F = G mod q. -/
theorem preimage_of_basis {n : ℕ} {f g F G a0 a1 u0 u1 : Mem Int} {h c : Mem Ff} (heq : NtruEq n f g F G)
    (hh : ModEqXN (2 ^ n) (polyZq (2 ^ n) h * polyInt (2 ^ n) f) (polyInt (2 ^ n) g))
    (hinv : ∃ r, ModEqXN (2 ^ n) (polyInt (2 ^ n) f * r) 1)
    (h0 : ModEqXN (2 ^ n) (polyZ (2 ^ n) u0) (polyZ (2 ^ n) (hashInt c) - polyZ (2 ^ n) a0 * polyZ (2 ^ n) g
        - polyZ (2 ^ n) a1 * polyZ (2 ^ n) G))
    (h1 : ModEqXN (2 ^ n) (polyZ (2 ^ n) u1) (polyZ (2 ^ n) a0 * polyZ (2 ^ n) f + polyZ (2 ^ n) a1 * polyZ (2 ^ n) F)) :
    Preimage (2 ^ n) h c u0 u1 := by
  obtain ⟨r, hr⟩ := hinv
  have e0 := modEq_map h0
  have e1 := modEq_map h1
  have e2 := modEq_map heq
  have hq : (12289 : ℤ[X]).map (Int.castRingHom Zq) = 0 := by
    rw [show (12289 : ℤ[X]) = C (12289 : ℤ) from rfl, Polynomial.map_C]
    have : (Int.castRingHom Zq) 12289 = 0 := by decide
    rw [this, C_0]
  rw [hq] at e2
  simp only [Polynomial.map_sub, Polynomial.map_add, Polynomial.map_mul, ← polyInt_map, polyZq_hash] at e0 e1 e2
  unfold Preimage
  rw [modEq_iff] at *
  simp only [map_mul, map_sub, map_add, map_one, map_zero] at *
  rw [e0, e1]
  generalize AdjoinRoot.mk (X ^ 2 ^ n + 1) (polyInt (2 ^ n) f) = f' at *
  generalize AdjoinRoot.mk (X ^ 2 ^ n + 1) (polyInt (2 ^ n) g) = g' at *
  generalize AdjoinRoot.mk (X ^ 2 ^ n + 1) (polyInt (2 ^ n) F) = F' at *
  generalize AdjoinRoot.mk (X ^ 2 ^ n + 1) (polyInt (2 ^ n) G) = G' at *
  generalize AdjoinRoot.mk (X ^ 2 ^ n + 1) (polyInt (2 ^ n) a0) = x0 at *
  generalize AdjoinRoot.mk (X ^ 2 ^ n + 1) (polyInt (2 ^ n) a1) = x1 at *
  generalize AdjoinRoot.mk (X ^ 2 ^ n + 1) (polyZq (2 ^ n) h) = h' at *
  generalize AdjoinRoot.mk (X ^ 2 ^ n + 1) r = r' at *
  have key : h' * F' = G' := by linear_combination (-(h' * F') + G') * hr + r' * F' * hh - r' * e2
  linear_combination x0 * hh + x1 * key

/-- C49. In exact arithmetic, for every key satisfying the NTRU equation with h f = g and f invertible mod q,
every tree, message, random stream, and every behaviour of the integer sampler: if signing returns then the
signature encodes the second half of a short preimage (s1, s2) of the hashed point, and verification under the
matching public key accepts it, for both behaviours on overflow, provided that no coefficient of s2 exceeds
1023 in absolute value and, for N = 1024, no coefficient of s1 equals 6144. -/
theorem C49_sign_verifies {n : ℕ} (hn : ValidLog n) {f g F G : Mem Int} (heq : NtruEq n f g F G) {h : Mem Ff}
    (hh : ModEqXN (2 ^ n) (polyZq (2 ^ n) h * polyInt (2 ^ n) f) (polyInt (2 ^ n) g))
    (hinv : ∃ r, ModEqXN (2 ^ n) (polyInt (2 ^ n) f * r) 1) (xof : Xof) (leaf : LeafSampler ℝ) (fuel hfuel : ℕ)
    (B0 T : Mem ℂ) (stream : ℕ → UInt8) (msg : List UInt8) (sig sig' : Mem UInt8) (pos pos' : ℕ)
    (hs : signPoly exactA xof leaf fuel hfuel n (computeMatrixB exactA n f g F G B0) T stream msg sig pos =
      some (.ok (sig', pos'))) :
    ∃ (c : Mem Ff) (s1 s2 : Mem Int),
      hashToPoint hfuel n (xof (saltMsg sig' msg)) (fun _ => Ff.zero) = some c ∧
      Preimage (2 ^ n) h c s1 s2 ∧ sqNorm (2 ^ n) s1 + sqNorm (2 ^ n) s2 ≤ betaSq n ∧
      SignatureOf n sig' (fun i => stream (pos + i)) s2 ∧
      ((∀ i, i < 2 ^ n → |s2 i| ≤ 1023) → (n = 10 → ∀ i, i < 2 ^ n → s1 i ≠ 6144) →
        ∀ (pk : Mem UInt8) (p : Ovf) (junk : Junk) (lim : ℕ), PkeyOf n pk h → sigBytes n + 2 ≤ lim →
          verify xof hfuel p n junk pk msg (rdArr lim sig') = some (.ok true)) := by
  have hn10 : n ≤ 10 := by rcases hn with rfl | rfl <;> norm_num
  obtain ⟨c, z, s2, p, hc, e1, e2, e3, e4, -⟩ := signPoly_ok exactA hn hs
  obtain ⟨a0, a1, ha0, ha1⟩ := C48_integer leaf n hn10 _ _ T _ _ p z e1
  obtain ⟨u0, u1, m0, m1, d0, d1⟩ := signVec_int hn10 heq B0 c ha0 ha1
  have hnorm := (signNorm_int hn d0 d1).mp e2
  obtain ⟨s2', r1, r2, -⟩ := signRound_int hn10 d1 (fun i hi => coeff_le_norm hnorm i hi)
  rw [r1] at e3
  injection e3 with e3
  subst e3
  have hpoly : polyZ (2 ^ n) s2' = polyZ (2 ^ n) u1 := toPoly_congr r2
  have hP : Preimage (2 ^ n) h c u0 s2' := preimage_of_basis heq hh hinv m0 (by rw [hpoly]; exact m1)
  have hN : sqNorm (2 ^ n) u0 + sqNorm (2 ^ n) s2' ≤ betaSq n := by rw [sqNorm_congr r2]; exact hnorm
  refine ⟨c, u0, s2', hc, hP, hN, e4, ?_⟩
  intro hb h6 pk p' junk lim hpk hlim
  obtain ⟨b1, b2, b3, b4⟩ := e4
  rw [codes_eq_flat] at b3 b4
  have hbody := bodyEnd_of_flat (s := s2')
    (fun i hi => chunk_code (by have := hb i hi; rw [Int.abs_eq_natAbs] at this; omega)) b3 b4
  exact C28_complete hn hlim p' hpk ⟨b1, hbody.body⟩ hc hP hN h6

end Falcon
