import Verif.Proofs.KeygenRun
import Verif.Props.Load
import Verif.Props.Seed

/-!
# The hypotheses of C38, C39 and C63 are met: a complete run
-/

namespace Falcon

open Finset Polynomial

/-- A degenerate arithmetic: every quotient rounds to 0 and every norm test passes. -/
def idleA : Arith Unit Unit where
  lit _ := ()
  neg _ := ()
  add _ _ := ()
  mul _ _ := ()
  div _ _ := ()
  sqrt _ := ()
  max _ _ := ()
  le _ _ := true
  gt _ _ := false
  roundTo _ _ _ := .ok 0
  cx _ _ := ()
  re _ := ()
  cadd _ _ := ()
  csub _ _ := ()
  cmul _ _ := ()
  cdiv _ _ := ()
  cneg _ := ()
  conj _ := ()
  scale _ _ := ()
  tab _ := ()

theorem idle_quot : ∀ k f g F G, ∃ r, redQuot idleA k f g F G = .ok r ∧ ∀ i, i < 2 ^ k → r i = 0 := by
  intro k f g F G
  refine ⟨_, loopE_fill _ _ (fun _ => 0) (fun _ _ => rfl) _, fun i hi => ?_⟩
  rw [loop_fill_lt _ (fun _ => (0 : ℤ)) _ _ (by rw [one_shiftLeft']; exact hi)]

/-- Zeros as prior content. -/
def zeroNtru : Ntru := ⟨fun _ => 0, fun _ => 0, fun _ => 0, fun _ => 0⟩

/-- A run of key generation that finds f = 1, g = 0, F = 0, G = q. -/
theorem idle_run {n : ℕ} (hn : ValidLog n) : ∃ pos,
    ntruGen (redQuot idleA) (gsTooBig idleA n) false n keyStream 1 1 zeroNtru 0 =
      some (.ok (⟨constMem 1, fun _ => 0, fun _ => 0, constMem 12289⟩, pos)) := by
  obtain ⟨s, pos, h, hs⟩ := key_run idle_quot (gs := gsTooBig idleA n) (fun _ _ => rfl) hn zeroNtru
  obtain ⟨h1, h2, h3, h4⟩ := ntruGen_frame h
  refine ⟨pos, ?_⟩
  rw [h]
  have hN : 0 < 2 ^ n := by positivity
  obtain ⟨f, g, F, G⟩ := s
  simp only at hs h1 h2 h3 h4
  have e1 : f = constMem 1 := by
    funext i
    by_cases hi : i < 2 ^ n
    · exact (hs i hi).1
    · rw [h1 i (by omega)]; unfold constMem; rw [if_neg (by omega)]; rfl
  have e2 : g = fun _ => 0 := by
    funext i
    by_cases hi : i < 2 ^ n
    · exact (hs i hi).2.1
    · rw [h2 i (by omega)]; rfl
  have e3 : F = fun _ => 0 := by
    funext i
    by_cases hi : i < 2 ^ n
    · exact (hs i hi).2.2.1
    · rw [h3 i (by omega)]; rfl
  have e4 : G = constMem 12289 := by
    funext i
    by_cases hi : i < 2 ^ n
    · exact (hs i hi).2.2.2
    · rw [h4 i (by omega)]; unfold constMem; rw [if_neg (by omega)]; rfl
  rw [e1, e2, e3, e4]

/-- The hypothesis of `C38_ntru_gen` is met. -/
example {n : ℕ} (hn : ValidLog n) : ∃ s pos,
    ntruGen (redQuot idleA) (gsTooBig idleA n) false n keyStream 1 1 zeroNtru 0 = some (.ok (s, pos)) ∧ s.G 0 = 12289 :=
  let ⟨pos, h⟩ := idle_run hn
  ⟨_, pos, h, rfl⟩

theorem example_range {n : ℕ} (hn : ValidLog n) : SkInRange n (constMem 1) (fun _ => 0) (fun _ => 0) := by
  intro i _
  have : constMem 1 i = 0 ∨ constMem 1 i = 1 := by unfold constMem; split <;> simp
  have hb : skBits n = 6 ∨ skBits n = 5 := by rcases hn with rfl | rfl <;> simp [skBits]
  beta_reduce
  rcases hb with hb | hb <;> rw [hb] <;> omega

/-- The hypotheses of `C58_key_material` are met. -/
example {n : ℕ} (hn : ValidLog n) : ∃ s pos,
    ntruGen (redQuot idleA) (gsTooBig idleA n) false n keyStream 1 1 zeroNtru 0 = some (.ok (s, pos)) ∧
    SkInRange n s.f s.g s.F ∧ NtruEq n s.f s.g s.F s.G :=
  let ⟨pos, h⟩ := idle_run hn
  ⟨_, pos, h, example_range hn, ntruEq_example n _⟩

/-- The extendable output function of the example: the stream above for seeds, zeros for salted messages. -/
def exampleXof : Xof := fun l => if l.length = 32 then keyStream else streamOf fun _ => 0

theorem exampleXof_prng (mt : UInt32 → Mem UInt8) (rd : UInt32) : prngNew exampleXof mt rd = keyStream := by
  unfold prngNew exampleXof
  simp [bytes]

theorem example_keygen {n : ℕ} (hn : ValidLog n) (mt : UInt32 → Mem UInt8) (rd : UInt32) (pk0 sk0 : Mem UInt8) :
    ∃ pk, falconKeygen idleA exampleXof mt false n 1 1 zeroNtru rd pk0 sk0 =
      some (.ok (pk, encodeSkey n (constMem 1) (fun _ => 0) (fun _ => 0) sk0)) := by
  obtain ⟨pos, h⟩ := idle_run hn
  unfold falconKeygen
  rw [exampleXof_prng]
  simp only
  rw [h, bindO_pure]
  exact ⟨_, rfl⟩

/-- The sets of C39 are not empty. -/
example {n : ℕ} (hn : ValidLog n) (mt : UInt32 → Mem UInt8) :
    (keyPairs idleA exampleXof mt false n).Nonempty := by
  obtain ⟨pk, h⟩ := example_keygen hn mt 0 (fun _ => 0) (fun _ => 0)
  exact ⟨_, 0, 1, 1, zeroNtru, _, _, _, _, h, rfl⟩

/-- **C63**, non-vacuity. For both parameter sets there is a complete run: key generation returns serialised keys,
signing with the secret key bytes returns a signature of s2 = 1000, and verification with the public key bytes
accepts it. -/
theorem C63_witness {n : ℕ} (hn : ValidLog n) (mt : UInt32 → Mem UInt8) (krd rd : UInt32) (pk0 sk0 sig : Mem UInt8)
    (junk : FgF) (junkG : Mem Int) (junkB junkT : Mem ℂ) (msg : List UInt8) :
    ∃ (leaf : (ℕ → UInt8) → LeafSampler ℝ) (pk sk sig' : Mem UInt8),
      falconKeygen idleA exampleXof mt false n 1 1 zeroNtru krd pk0 sk0 = some (.ok (pk, sk)) ∧
      falconSign exactA exampleXof mt leaf 1 16 n junk junkG junkB junkT rd sk msg sig = some (.ok (true, sig')) ∧
      SignatureOf n sig' keyStream (constMem 1000) ∧
      ∀ (p : Ovf) (vjunk : Junk) (lim : ℕ), sigBytes n + 2 ≤ lim →
        verify exampleXof 16 p n vjunk pk msg (rdArr lim sig') = some (.ok true) := by
  obtain ⟨pk, hk⟩ := example_keygen hn mt krd pk0 sk0
  obtain ⟨kpos, hrun⟩ := idle_run hn
  obtain ⟨s, kpos', h, h1, -, h3, hkey, -⟩ := C63_end_to_end idleA false hn exampleXof mt 1 1 zeroNtru krd pk0 sk0 pk _ hk
  rw [exampleXof_prng, hrun] at h1
  obtain ⟨rfl, -⟩ := Prod.mk.inj (Except.ok.inj (Option.some.inj h1))
  have hr := example_range hn
  have heq : NtruEq n (constMem 1) (fun _ => 0) (fun _ => 0) (constMem 12289) := ntruEq_example n _
  let leaf : (ℕ → UInt8) → LeafSampler ℝ := fun _ => oneLeaf n 1000 (0 + 40)
  have hG : ∀ i, i < 2 ^ n → -2 ^ 31 ≤ constMem 12289 i ∧ constMem 12289 i < 2 ^ 31 := by
    intro i _
    unfold constMem
    split <;> norm_num
  obtain ⟨sig', pos', e1, e2⟩ := sign_run hn 1000 (by norm_num) junkB
    (computeFalconTree exactA n (computeMatrixB exactA n (constMem 1) (fun _ => 0) (fun _ => 0) (constMem 12289) junkB)
      junkT) (prngNew exampleXof mt rd) msg sig 0 exampleXof (fun l hl => by
        unfold exampleXof; rw [if_neg (by omega)])
  have hsign : falconSign exactA exampleXof mt leaf 1 16 n junk junkG junkB junkT rd
      (encodeSkey n (constMem 1) (fun _ => 0) (fun _ => 0) sk0) msg sig = some (.ok (true, sig')) := by
    rw [sign_encoded hn heq hr hG ⟨0, by positivity, by simp [constMem]⟩ sk0 junkB junkT exampleXof mt
      leaf 1 16 junk junkG junkB junkT rd msg sig, e1]
    rfl
  refine ⟨leaf, pk, _, sig', hk, hsign, by rw [exampleXof_prng] at e2; simpa only [Nat.zero_add] using e2, ?_⟩
  intro p vjunk lim hlim
  obtain ⟨b1, -, b3, b4⟩ := e2
  rw [codes_eq_flat] at b3 b4
  have hbody := bodyEnd_of_flat (s := constMem 1000)
    (fun i hi => chunk_code (by unfold constMem; split <;> simp)) b3 b4
  obtain ⟨c, c1, c2⟩ := hash_streamOf hn (c := fun _ => 0) (fun _ => by norm_num) (fun _ => Ff.zero)
  have hx : exampleXof (saltMsg sig' msg) = streamOf fun _ => 0 := by
    unfold exampleXof
    rw [if_neg (by simp [saltMsg]; omega)]
  have hc0 : polyZq (2 ^ n) c = 0 := by
    unfold polyZq toPoly
    refine sum_eq_zero fun i hi => ?_
    have : (c i).val = 0 := by
      unfold Ff.val
      rw [c2 i (Finset.mem_range.mp hi)]
      simp
    simp [this]
  have hp0 : polyInt (2 ^ n) (fun _ => 0) = 0 := by rw [polyInt_map, polyZ_zero (fun _ _ => rfl)]; simp
  have hp1 : polyInt (2 ^ n) (constMem 1) = 1 := by rw [polyInt_map, polyZ_const (by positivity)]; simp
  have hP : Preimage (2 ^ n) h c (fun _ => 0) (constMem 1000) := by
    have hkey : ModEqXN (2 ^ n) (polyZq (2 ^ n) h * polyInt (2 ^ n) (constMem 1)) (polyInt (2 ^ n) fun _ => 0) := hkey
    rw [hp0, hp1, mul_one] at hkey
    unfold Preimage
    rw [hp0, hc0, zero_add]
    obtain ⟨r, hr⟩ := hkey
    rw [sub_zero] at hr
    exact ⟨polyInt (2 ^ n) (constMem 1000) * r, by rw [hr]; ring⟩
  have hnorm : sqNorm (2 ^ n) (fun _ => 0) + sqNorm (2 ^ n) (constMem 1000) ≤ betaSq n := by
    have : sqNorm (2 ^ n) (fun _ => 0) = 0 := by unfold sqNorm; simp
    rw [this, zero_add]
    exact (C18_witness hn sig 1000 (by norm_num)).2
  exact C28_complete hn hlim p h3 ⟨b1, hbody.body⟩ (by rw [hx]; exact c1) hP hnorm (fun _ i _ => by norm_num)

end Falcon
