import Verif.Props.Seed
import Verif.Props.F64Keygen

/-!
# Property C102: keys and random bytes are found by trying the 2^32 words of the random device
-/

namespace Falcon

/-- All words of the random device: 2^32 of them. -/
def allWords : List UInt32 := (List.range (2 ^ 32)).map UInt32.ofNat

theorem allWords_length : allWords.length = 2 ^ 32 := by
  unfold allWords
  rw [List.length_map, List.length_range]

theorem mem_allWords (w : UInt32) : w ∈ allWords :=
  List.mem_map.mpr ⟨w.toNat, List.mem_range.mpr w.toNat_lt, UInt32.ofNat_toNat⟩

open Classical in
/-- The attack on a public key: generate the key pair of each word with the code, until the public key is the given one. One call of
`falcon::keygen` for each word; the attacker has no other input than the public key bytes. -/
noncomputable def searchKey {R C : Type} (A : Arith R C) (xof : Xof) (mt : UInt32 → Mem UInt8) (fma : Bool) (n fuel iters : ℕ) (junk : Ntru)
    (pk0 sk0 : Mem UInt8) (pk : Mem UInt8) : Option (Mem UInt8) :=
  allWords.findSome? fun w =>
    match falconKeygen A xof mt fma n fuel iters junk w pk0 sk0 with
    | some (.ok (pk', sk')) => if ∀ j, j < pkBytes n → pk' j = pk j then some sk' else none
    | _ => none

/-- C102: whatever word the owner of a key pair has got, the attack with the bounds of the owner on the loops ends with secret key bytes
that `falcon::keygen` returns, for some word, together with the same public key bytes. -/
theorem C102_search {R C : Type} (A : Arith R C) (xof : Xof) (mt : UInt32 → Mem UInt8) (fma : Bool) {n : ℕ} (hn : ValidLog n)
    (rd : UInt32) {fuel iters : ℕ} {junk : Ntru} {pk0 sk0 pk sk : Mem UInt8}
    (h : falconKeygen A xof mt fma n fuel iters junk rd pk0 sk0 = some (.ok (pk, sk))) (pk1 sk1 : Mem UInt8) :
    ∃ (w : UInt32) (pk' sk' : Mem UInt8), searchKey A xof mt fma n fuel iters junk pk1 sk1 pk = some sk' ∧
      falconKeygen A xof mt fma n fuel iters junk w pk1 sk1 = some (.ok (pk', sk')) ∧ ∀ j, j < pkBytes n → pk' j = pk j := by
  classical
  obtain ⟨pk2, sk2, h2⟩ : ∃ pk2 sk2, falconKeygen A xof mt fma n fuel iters junk rd pk1 sk1 = some (.ok (pk2, sk2)) := by
    unfold falconKeygen at h ⊢
    obtain ⟨r, hr, -⟩ := bindO_ok h
    exact ⟨_, _, by simp only; rw [hr, bindO_pure]⟩
  have hpk := (C39_determined A xof mt fma hn rd h2 h).1
  cases hs : searchKey A xof mt fma n fuel iters junk pk1 sk1 pk with
  | none =>
    exfalso
    unfold searchKey at hs
    have := List.findSome?_eq_none_iff.mp hs rd (mem_allWords rd)
    rw [h2] at this
    simp only at this
    rw [if_pos hpk] at this
    cases this
  | some sk' =>
    unfold searchKey at hs
    obtain ⟨w, -, hw⟩ := List.exists_of_findSome?_eq_some hs
    split at hw
    · rename_i pk' sk'' e
      split at hw
      · rename_i e2
        cases hw
        exact ⟨w, pk', sk', rfl, e, e2⟩
      · cases hw
    · cases hw

/-- C102: with the secret key bytes that the attack finds, `falcon::sign` signs every message for the attacked public key: on IEEE 754
data, under the conditions of C76 on the polynomials that were found, signing executes no undefined behaviour and what it returns is the
signature of a short preimage, accepted by `falcon::verify` under the attacked public key under the conditions of C65. -/
theorem C102_forge (b : Bool) (rm rd : F64.Recover) (hrd : F64.NoInvention rd) (fma : Bool) {n : ℕ} (hn : ValidLog n) (xof : Xof)
    (mt : UInt32 → Mem UInt8) (kfuel iters : ℕ) (kjunk : Ntru) (krd : UInt32) (pk0 sk0 pk sk pk1 sk1 : Mem UInt8)
    (hkey : falconKeygen (f64A b rm rd) xof mt fma n kfuel iters kjunk krd pk0 sk0 = some (.ok (pk, sk))) :
    ∃ (sk' : Mem UInt8) (s : Ntru), searchKey (f64A b rm rd) xof mt fma n kfuel iters kjunk pk1 sk1 pk = some sk' ∧
      sk' = encodeSkey n s.f s.g s.F sk1 ∧ NtruEq n s.f s.g s.F s.G ∧
      (FitsFormat n s.f s.g s.F s.G → (∀ j, j < 2 ^ n → 1 / 2 ^ 10 ≤ ‖dft n (zC s.f) j‖) →
        ∀ (b' : Bool) (rm' rd' : F64.Recover) (fuel lfuel hfuel : ℕ) (junk : FgF) (junkG : Mem Int) (junkB junkT : Mem (F64 × F64))
          (seed : UInt32) (msg : List UInt8) (sig : Mem UInt8),
          let r := falconSign (f64A b' rm' rd') xof mt (codeLeaf64 false n lfuel) fuel hfuel n junk junkG junkB junkT seed sk' msg sig
          (∀ e, r ≠ some (.error e)) ∧
          ∀ ok sig', r = some (.ok (ok, sig')) → ok = true ∧ ∃ (c h : Mem Ff) (s1 s2 : Mem Int), PkeyOf n pk h ∧
            hashToPoint hfuel n (xof (saltMsg sig' msg)) (fun _ => Ff.zero) = some c ∧
            Preimage (2 ^ n) h c s1 s2 ∧ sqNorm (2 ^ n) s1 + sqNorm (2 ^ n) s2 ≤ betaSq n + 166 ∧
            (sqNorm (2 ^ n) s1 + sqNorm (2 ^ n) s2 ≤ betaSq n →
              (∀ i, i < 2 ^ n → |s2 i| ≤ 1023) → (n = 10 → ∀ i, i < 2 ^ n → s1 i ≠ 6144) →
              ∀ (p : Ovf) (vjunk : Junk) (lim : ℕ), sigBytes n + 2 ≤ lim →
                verify xof hfuel p n vjunk pk msg (rdArr lim sig') = some (.ok true))) := by
  obtain ⟨w, pk', sk', h1, h2, h3⟩ := C102_search (f64A b rm rd) xof mt fma hn krd hkey pk1 sk1
  obtain ⟨s, kpos, h, k1, k2, k3, -, k5⟩ := C76_end_to_end b rm rd hrd fma hn xof mt kfuel iters kjunk w pk1 sk1 pk' sk' h2
  have hpb : 897 ≤ pkBytes n := by unfold pkBytes; split <;> omega
  have k3' : PkeyOf n pk h := by
    refine ⟨by rw [← h3 0 (by omega)]; exact k3.1, k3.2.1, ?_⟩
    rw [← k3.2.2]
    refine Finset.sum_congr rfl fun j hj => ?_
    rw [h3 (1 + j) (by have := Finset.mem_range.mp hj; omega)]
  refine ⟨sk', s, h1, k2, (C76_keys b rm rd hrd fma hn k1).1, fun hfit hf0 b' rm' rd' fuel lfuel hfuel junk junkG junkB junkT seed msg sig => ?_⟩
  obtain ⟨q1, q2⟩ := k5 hfit hf0 b' rm' rd' fuel lfuel hfuel junk junkG junkB junkT seed msg sig
  refine ⟨q1, fun ok sig' hr => ?_⟩
  obtain ⟨q0, c, s1, s2, q3, q4, q5, -, q7⟩ := q2 ok sig' hr
  refine ⟨q0, c, h, s1, s2, k3', q3, q4, q5, fun a1 a2 a3 p vjunk lim hl => ?_⟩
  rw [← q7 a1 a2 a3 p vjunk lim hl]
  exact C30_function_of_bytes hn hl hl p vjunk pk' sig' (fun j hj => (h3 j hj).symm) fun _ _ => rfl

/-- The attack on a one-shot signature: the first word whose stream starts with the salt. -/
def searchWord (xof : Xof) (mt : UInt32 → Mem UInt8) (sig : Mem UInt8) : Option UInt32 :=
  allWords.find? fun w => (List.range 40).all fun i => prngNew xof mt w i == sig (1 + i)

/-- C102: from the salt of any one-shot signature the attack finds a word whose stream starts with that salt. If no two words give the
same 40 bytes, it is the word that was used, and so all random bytes that signing has drawn are known. -/
theorem C102_word {R C : Type} (A : Arith R C) (xof : Xof) (mt : UInt32 → Mem UInt8)
    (leaf : (ℕ → UInt8) → LeafSampler R) {n : ℕ} (hn : ValidLog n) {fuel hfuel : ℕ} {junk : FgF} {junkG : Mem Int}
    {junkB junkT : Mem C} {rd : UInt32} {skey : Mem UInt8} {msg : List UInt8} {sig sig' : Mem UInt8}
    (h : falconSign A xof mt leaf fuel hfuel n junk junkG junkB junkT rd skey msg sig = some (.ok (true, sig'))) :
    ∃ w, searchWord xof mt sig' = some w ∧ (∀ i, i < 40 → prngNew xof mt w i = sig' (1 + i)) ∧
      ((∀ v, (∀ i, i < 40 → prngNew xof mt v i = prngNew xof mt rd i) → v = rd) → w = rd ∧ prngNew xof mt w = prngNew xof mt rd) := by
  have hp : ∀ i, i < 40 → prngNew xof mt rd i = sig' (1 + i) := by
    intro i hi
    rw [C39_salt_bytes A xof mt leaf hn h i hi]
    unfold prngNew bytes
    have e : (List.range 32).map (loop 32 (fun i s => upd s i (mt rd i)) (fun _ => 0)) = (List.range 32).map (mt rd) :=
      List.map_congr_left fun j hj => by rw [loop_fill, if_pos (List.mem_range.mp hj)]
    rw [e]
  cases hs : searchWord xof mt sig' with
  | none =>
    exfalso
    unfold searchWord at hs
    have := List.find?_eq_none.mp hs rd (mem_allWords rd)
    refine this (List.all_eq_true.mpr fun i hi => ?_)
    rw [hp i (List.mem_range.mp hi)]
    exact beq_self_eq_true _
  | some w =>
    unfold searchWord at hs
    have hw := List.find?_some hs
    have hw' : ∀ i, i < 40 → prngNew xof mt w i = sig' (1 + i) := fun i hi =>
      eq_of_beq (List.all_eq_true.mp hw i (List.mem_range.mpr hi))
    refine ⟨w, rfl, hw', fun hu => ?_⟩
    have := hu w fun i hi => (hw' i hi).trans (hp i hi).symm
    exact ⟨this, by rw [this]⟩

/-- The hypothesis of `C102_search` and `C102_forge` is met, and the attack finds the key. -/
example (b : Bool) (rm : F64.Recover) (mt : UInt32 → Mem UInt8) (krd : UInt32) (pk0 sk0 pk1 sk1 : Mem UInt8) :
    ∃ (xof : Xof) (pk sk sk' : Mem UInt8),
    falconKeygen (f64A b rm F64.keepNan) xof mt false 9 3 1 zeroNtru krd pk0 sk0 = some (.ok (pk, sk)) ∧
    searchKey (f64A b rm F64.keepNan) xof mt false 9 3 1 zeroNtru pk1 sk1 pk = some sk' := by
  obtain ⟨stream, s, pos, h, hs⟩ := const_run_of (const_quot64 b rm F64.keepNan) (const_gs64 b rm F64.keepNan)
  have hk : falconKeygen (f64A b rm F64.keepNan) (fun _ => stream) mt false 9 3 1 zeroNtru krd pk0 sk0 =
      some (.ok (encodePkey 9 (computePublicKey 9 s.f s.g fun _ => Ff.zero) pk0, encodeSkey 9 s.f s.g s.F sk0)) := by
    unfold falconKeygen
    rw [show prngNew (fun _ => stream) mt krd = stream from rfl]
    simp only
    rw [h, bindO_pure]
  obtain ⟨_, _, sk', h1, -⟩ := C102_search _ _ _ _ (Or.inl rfl) _ hk pk1 sk1
  exact ⟨fun _ => stream, _, _, sk', hk, h1⟩

/-- There are a twister and a XOF for which no two words give the same salt, as `C102_word` assumes. -/
example : ∃ (xof : Xof) (mt : UInt32 → Mem UInt8), ∀ v w : UInt32, (∀ i, i < 40 → prngNew xof mt v i = prngNew xof mt w i) → v = w := by
  refine ⟨fun l i => l.getD i 0, fun w i => UInt8.ofNat (w.toNat / 256 ^ i), fun v w h => ?_⟩
  have k : ∀ (w : UInt32) (i : ℕ), i < 32 → prngNew (fun l i => l.getD i 0) (fun w i => UInt8.ofNat (w.toNat / 256 ^ i)) w i
      = UInt8.ofNat (w.toNat / 256 ^ i) := by
    intro w i hi
    unfold prngNew bytes
    simp only
    rw [List.getD_eq_getElem?_getD, List.getElem?_map, List.getElem?_range hi]
    simp [loop_fill, hi]
  have e : ∀ i, i < 32 → v.toNat / 256 ^ i % 256 = w.toNat / 256 ^ i % 256 := by
    intro i hi
    have := congrArg UInt8.toNat ((k v i hi).symm.trans ((h i (by omega)).trans (k w i hi)))
    simpa using this
  have e0 := e 0 (by omega)
  have e1 := e 1 (by omega)
  have e2 := e 2 (by omega)
  have e3 := e 3 (by omega)
  have hv := v.toNat_lt
  have hw := w.toNat_lt
  norm_num at e0 e1 e2 e3 hv hw
  refine UInt32.toNat_inj.mp ?_
  omega

end Falcon
