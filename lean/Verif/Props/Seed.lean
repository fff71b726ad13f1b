import Verif.Proofs.Seed
import Verif.Props.Sign
import Mathlib.Data.Set.Card

/-!
# C39 : the number of key pairs and salts
-/

namespace Falcon

/-- The key pairs which some run of key generation outputs: any random word, any number of rejected candidates,
any prior content of the arrays. -/
def keyPairs {R C : Type} (A : Arith R C) (xof : Xof) (mt : UInt32 → Mem UInt8) (fma : Bool) (n : ℕ) :
    Set (List UInt8 × List UInt8) :=
  {p | ∃ (rd : UInt32) (fuel iters : ℕ) (junk : Ntru) (pk0 sk0 pk sk : Mem UInt8),
    falconKeygen A xof mt fma n fuel iters junk rd pk0 sk0 = some (.ok (pk, sk)) ∧
    p = ((List.range (pkBytes n)).map pk, (List.range (skBytes n)).map sk)}

/-- The salts which some run of one-shot signing outputs, for any key and message. -/
def salts {R C : Type} (A : Arith R C) (xof : Xof) (mt : UInt32 → Mem UInt8) (leaf : (ℕ → UInt8) → LeafSampler R)
    (n : ℕ) : Set (List UInt8) :=
  {p | ∃ (rd : UInt32) (fuel hfuel : ℕ) (junk : FgF) (junkG : Mem Int) (junkB junkT : Mem C) (skey : Mem UInt8)
    (msg : List UInt8) (sig sig' : Mem UInt8),
    falconSign A xof mt leaf fuel hfuel n junk junkG junkB junkT rd skey msg sig = some (.ok (true, sig')) ∧
    p = (List.range 40).map fun i => sig' (1 + i)}

/-- A set whose elements are determined by a 32-bit word has at most 2^32 elements. -/
theorem encard_word {α : Type} (S : Set α) (rel : UInt32 → α → Prop) (h : ∀ p ∈ S, ∃ rd, rel rd p)
    (hu : ∀ rd p p', rel rd p → rel rd p' → p = p') : S.encard ≤ 2 ^ 32 := by
  classical
  rcases isEmpty_or_nonempty α with hα | ⟨⟨p0⟩⟩
  · rw [Set.eq_empty_of_isEmpty S]; simp
  let F : Fin (2 ^ 32) → α := fun w =>
    if hw : ∃ p, rel (UInt32.ofFin w) p then hw.choose else p0
  have hsub : S ⊆ F '' Set.univ := by
    intro p hp
    obtain ⟨rd, hr⟩ := h p hp
    refine ⟨rd.toFin, trivial, ?_⟩
    have hw : ∃ p, rel (UInt32.ofFin rd.toFin) p := ⟨p, hr⟩
    show (if hw : ∃ p, rel (UInt32.ofFin rd.toFin) p then hw.choose else p0) = p
    rw [dif_pos hw]
    exact hu _ _ _ hw.choose_spec hr
  calc S.encard ≤ (F '' Set.univ).encard := Set.encard_le_encard hsub
    _ ≤ (Set.univ : Set (Fin (2 ^ 32))).encard := Set.encard_image_le _ _
    _ = 2 ^ 32 := by
      rw [Set.encard_univ, ENat.card_eq_coe_fintype_card, Fintype.card_fin]
      norm_num

/-- **C39** (the output is a function of the random word). Two runs of key generation with the same 32-bit random
word output the same bytes, whatever the prior content of the arrays. -/
theorem C39_determined {R C : Type} (A : Arith R C) (xof : Xof) (mt : UInt32 → Mem UInt8) (fma : Bool) {n : ℕ}
    (hn : ValidLog n) (rd : UInt32) {fuel iters fuel' iters' : ℕ} {junk junk' : Ntru}
    {pk0 sk0 pk0' sk0' pk sk pk' sk' : Mem UInt8}
    (h : falconKeygen A xof mt fma n fuel iters junk rd pk0 sk0 = some (.ok (pk, sk)))
    (h' : falconKeygen A xof mt fma n fuel' iters' junk' rd pk0' sk0' = some (.ok (pk', sk'))) :
    (∀ j, j < pkBytes n → pk j = pk' j) ∧ ∀ j, j < skBytes n → sk j = sk' j := by
  unfold falconKeygen at h h'
  obtain ⟨r, hr, h⟩ := bindO_ok h
  obtain ⟨r', hr', h'⟩ := bindO_ok h'
  have hag := ntruGen_unique A (redQuot A) fma n _ hr hr'
  obtain ⟨rfl, rfl⟩ := Prod.mk.inj (Except.ok.inj (Option.some.inj h))
  obtain ⟨rfl, rfl⟩ := Prod.mk.inj (Except.ok.inj (Option.some.inj h'))
  constructor
  · intro j hj
    rw [computePublicKey_congr n _ (fun i hi => (hag i hi).1) (fun i hi => (hag i hi).2.1)]
    refine encodePkey_prior hn _ _ _ j ?_
    rcases hn with rfl | rfl
    · exact hj
    · exact hj
  · intro j hj
    rcases hn with rfl | rfl
    · rw [encodeSkey_nine, encodeSkey_nine]
      exact encGen_prior codec6 128 512 _ _ _ (fun i hi => (hag i hi).1) (fun i hi => (hag i hi).2.1)
        (fun i hi => (hag i hi).2.2.1) j hj
    · rw [encodeSkey_ten, encodeSkey_ten]
      exact encGen_prior codec5 128 1024 _ _ _ (fun i hi => (hag i hi).1) (fun i hi => (hag i hi).2.1)
        (fun i hi => (hag i hi).2.2.1) j hj

/-- **C39** (key pairs). Key generation has at most 2^32 outputs. -/
theorem C39_key_pairs {R C : Type} (A : Arith R C) (xof : Xof) (mt : UInt32 → Mem UInt8) (fma : Bool) {n : ℕ}
    (hn : ValidLog n) : (keyPairs A xof mt fma n).encard ≤ 2 ^ 32 := by
  refine encard_word _ (fun rd p => ∃ (fuel iters : ℕ) (junk : Ntru) (pk0 sk0 pk sk : Mem UInt8),
    falconKeygen A xof mt fma n fuel iters junk rd pk0 sk0 = some (.ok (pk, sk)) ∧
    p = ((List.range (pkBytes n)).map pk, (List.range (skBytes n)).map sk)) (fun p hp => hp) ?_
  rintro rd p p' ⟨_, _, _, _, _, _, _, h, rfl⟩ ⟨_, _, _, _, _, _, _, h', rfl⟩
  obtain ⟨h1, h2⟩ := C39_determined A xof mt fma hn rd h h'
  refine Prod.ext ?_ ?_
  · exact List.map_congr_left fun j hj => h1 j (List.mem_range.mp hj)
  · exact List.map_congr_left fun j hj => h2 j (List.mem_range.mp hj)

/-- **C39** (which bytes). The salt of a one-shot signature is the first 40 bytes of the stream of the first 32
bytes of the twister for the random word: it is drawn from the word, and from nothing else. -/
theorem C39_salt_bytes {R C : Type} (A : Arith R C) (xof : Xof) (mt : UInt32 → Mem UInt8)
    (leaf : (ℕ → UInt8) → LeafSampler R) {n : ℕ} (hn : ValidLog n) {fuel hfuel : ℕ} {junk : FgF} {junkG : Mem Int}
    {junkB junkT : Mem C} {rd : UInt32} {skey : Mem UInt8} {msg : List UInt8} {sig sig' : Mem UInt8}
    (h : falconSign A xof mt leaf fuel hfuel n junk junkG junkB junkT rd skey msg sig = some (.ok (true, sig')))
    (i : ℕ) (hi : i < 40) : sig' (1 + i) = xof ((List.range 32).map (mt rd)) i := by
  obtain ⟨c1, c2⟩ := C50_layout A xof mt leaf fuel hfuel n hn junk junkG junkB junkT rd skey msg sig
  by_cases hh : (skey 0).toNat = 0x50 + n
  · obtain ⟨-, ⟨s2, hs⟩, -⟩ := c2 hh _ _ h
    rw [hs.2.1 i hi]
    unfold prngNew bytes
    have e : (List.range 32).map (loop 32 (fun i s => upd s i (mt rd i)) (fun _ => 0)) = (List.range 32).map (mt rd) :=
      List.map_congr_left fun j hj => by rw [loop_fill, if_pos (List.mem_range.mp hj)]
    rw [e]
  · rw [c1 hh] at h
    cases h

/-- **C39** (salts). One-shot signing has at most 2^32 salts in total, over all keys and messages. -/
theorem C39_salts {R C : Type} (A : Arith R C) (xof : Xof) (mt : UInt32 → Mem UInt8)
    (leaf : (ℕ → UInt8) → LeafSampler R) {n : ℕ} (hn : ValidLog n) : (salts A xof mt leaf n).encard ≤ 2 ^ 32 := by
  refine encard_word _ (fun rd p => p = (List.range 40).map (prngNew xof mt rd)) ?_ fun rd p p' h h' => h.trans h'.symm
  rintro p ⟨rd, fuel, hfuel, junk, junkG, junkB, junkT, skey, msg, sig, sig', h, rfl⟩
  refine ⟨rd, List.map_congr_left fun i hi => ?_⟩
  obtain ⟨c1, c2⟩ := C50_layout A xof mt leaf fuel hfuel n hn junk junkG junkB junkT rd skey msg sig
  by_cases hh : (skey 0).toNat = 0x50 + n
  · obtain ⟨-, ⟨s2, hs⟩, -⟩ := c2 hh _ _ h
    exact hs.2.1 i (List.mem_range.mp hi)
  · rw [c1 hh] at h
    cases h

end Falcon
