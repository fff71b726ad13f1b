import Verif.Proofs.NtruAlg
import Verif.Proofs.Sampling
import Verif.Proofs.Codec

/-!
# Key generation is a function of its random stream

More fuel does not change an outcome, and the prior content of the arrays does not matter.
-/

namespace Falcon

/-- `y` has the outcome of `x` if `x` has one. -/
def FLe {α : Type} (x y : Option α) : Prop := ∀ r, x = some r → y = some r

theorem FLe.refl {α : Type} (x : Option α) : FLe x x := fun _ h => h

theorem FLe.bind {α β : Type} {x y : Option (Except UB α)} {f g : α → Option (Except UB β)} (h : FLe x y)
    (hf : ∀ a, FLe (f a) (g a)) : FLe (bindO x f) (bindO y g) := by
  intro r hr
  rcases bindO_some hr with ⟨u, hx, rfl⟩ | ⟨a, hx, hr⟩
  · rw [h _ hx]; rfl
  · rw [h _ hx]; exact hf a r hr

theorem samplerz_fuel (fma : Bool) (mu sigma sigmin : ℝ) (stream : ℕ → UInt8) : ∀ (a b pos : ℕ), a ≤ b →
    FLe (samplerz fma mu sigma sigmin stream a pos) (samplerz fma mu sigma sigmin stream b pos) := by
  intro a
  induction a with
  | zero => intro b pos _ r h; cases h
  | succ a ih =>
    intro b pos hab
    obtain ⟨b, rfl⟩ : ∃ c, b = c + 1 := ⟨b - 1, by omega⟩
    unfold samplerz
    split
    · exact FLe.refl _
    · exact FLe.refl _
    · exact ih b _ (by omega)

theorem genCoeff_fuel (fma : Bool) (n : ℕ) (stream : ℕ → UInt8) {a b : ℕ} (hab : a ≤ b) : ∀ (k : ℕ) (res : ℤ) (pos : ℕ),
    FLe (genCoeff fma n stream a k res pos) (genCoeff fma n stream b k res pos) := by
  intro k
  induction k with
  | zero => intro res pos; exact FLe.refl _
  | succ k ih =>
    intro res pos
    unfold genCoeff
    refine FLe.bind (samplerz_fuel _ _ _ _ _ a b pos hab) fun z => ?_
    split
    · exact FLe.refl _
    · exact ih _ _

theorem genPolyLoop_fuel (fma : Bool) (n : ℕ) (stream : ℕ → UInt8) {a b : ℕ} (hab : a ≤ b) :
    ∀ (m i : ℕ) (poly : Mem Int) (pos : ℕ),
    FLe (genPolyLoop fma n stream a m i poly pos) (genPolyLoop fma n stream b m i poly pos) := by
  intro m
  induction m with
  | zero => intro i poly pos; exact FLe.refl _
  | succ m ih =>
    intro i poly pos
    unfold genPolyLoop
    exact FLe.bind (genCoeff_fuel fma n stream hab _ _ _) fun z => ih _ _ _

theorem xgcdZLoop_fuel : ∀ (a b : ℕ) (u v w x y z : ℤ), a ≤ b →
    FLe (xgcdZLoop a u v w x y z) (xgcdZLoop b u v w x y z) := by
  intro a
  induction a with
  | zero => intro b _ _ _ _ _ _ _ r h; cases h
  | succ a ih =>
    intro b u v w x y z hab
    obtain ⟨b, rfl⟩ : ∃ c, b = c + 1 := ⟨b - 1, by omega⟩
    unfold xgcdZLoop
    split
    · exact ih b _ _ _ _ _ _ (by omega)
    · exact FLe.refl _

theorem reduceLoop_fuel (quot : RedQuot) (k : ℕ) (f g : Mem Int) (bl : ℕ) : ∀ (a b : ℕ) (F G : Mem Int), a ≤ b →
    FLe (reduceLoop quot k f g bl a F G) (reduceLoop quot k f g bl b F G) := by
  intro a
  induction a with
  | zero => intro b _ _ _ r h; cases h
  | succ a ih =>
    intro b F G hab
    obtain ⟨b, rfl⟩ : ∃ c, b = c + 1 := ⟨b - 1, by omega⟩
    unfold reduceLoop
    simp only
    split
    · exact FLe.refl _
    · split
      · exact FLe.refl _
      · split
        · exact FLe.refl _
        · exact ih b _ _ (by omega)

theorem ntruSolve_fuel (quot : RedQuot) {a b : ℕ} (hab : a ≤ b) : ∀ (k : ℕ) (f g : Mem Int),
    FLe (ntruSolve quot a k f g) (ntruSolve quot b k f g) := by
  intro k
  induction k with
  | zero =>
    intro f g r hr
    unfold ntruSolve at hr ⊢
    cases hx : xgcdZ a (f 0) (g 0) with
    | none => rw [hx] at hr; cases hr
    | some d =>
      rw [hx] at hr
      have : xgcdZ b (f 0) (g 0) = some d := xgcdZLoop_fuel a b _ _ _ _ _ _ hab d hx
      rw [this]
      exact hr
  | succ k ih =>
    intro f g
    unfold ntruSolve
    refine FLe.bind (ih _ _) fun ret => ?_
    rcases ret with _ | ⟨F', G'⟩
    · exact FLe.refl _
    · exact FLe.bind (reduceLoop_fuel quot _ f g _ a b _ _ hab) fun _ => FLe.refl _

theorem ntruGen_fuel (quot : RedQuot) (gs : Mem Int → Mem Int → Bool) (fma : Bool) (n : ℕ) (stream : ℕ → UInt8)
    {a b : ℕ} (hab : a ≤ b) : ∀ (i j : ℕ) (s : Ntru) (pos : ℕ), i ≤ j →
    FLe (ntruGen quot gs fma n stream a i s pos) (ntruGen quot gs fma n stream b j s pos) := by
  intro i
  induction i with
  | zero => intro j s pos _ r h; cases h
  | succ i ih =>
    intro j s pos hij
    obtain ⟨j, rfl⟩ : ∃ c, j = c + 1 := ⟨j - 1, by omega⟩
    unfold ntruGen
    refine FLe.bind (genPolyLoop_fuel fma n stream hab _ _ _ _) fun fp => ?_
    refine FLe.bind (genPolyLoop_fuel fma n stream hab _ _ _ _) fun gp => ?_
    have hagain := ih j { s with f := fp.1, g := gp.1 } gp.2 (by omega)
    simp only
    split
    · exact hagain
    · split
      · exact hagain
      · refine FLe.bind (ntruSolve_fuel quot hab _ _ _) fun ret => ?_
        rcases ret with _ | ⟨F, G⟩
        · exact hagain
        · exact FLe.refl _

/-! ### Prior contents -/

theorem genPolyLoop_prior (fma : Bool) (n : ℕ) (stream : ℕ → UInt8) (fuel : ℕ) : ∀ (m i : ℕ) (p p' : Mem Int)
    (pos : ℕ) (r r' : Mem Int × ℕ), (∀ j, j < i → p j = p' j) →
    genPolyLoop fma n stream fuel m i p pos = some (.ok r) → genPolyLoop fma n stream fuel m i p' pos = some (.ok r') →
    r.2 = r'.2 ∧ ∀ j, j < i + m → r.1 j = r'.1 j := by
  intro m
  induction m with
  | zero =>
    intro i p p' pos r r' h e e'
    cases e; cases e'
    exact ⟨rfl, h⟩
  | succ m ih =>
    intro i p p' pos r r' h e e'
    unfold genPolyLoop at e e'
    obtain ⟨z, hz, e⟩ := bindO_ok e
    obtain ⟨z', hz', e'⟩ := bindO_ok e'
    rw [hz] at hz'
    cases hz'
    obtain ⟨h1, h2⟩ := ih (i + 1) _ _ _ r r' (by
      intro j hj
      by_cases hji : j = i
      · rw [hji, upd_same, upd_same]
      · rw [upd_ne _ i j _ hji, upd_ne _ i j _ hji, h j (by omega)]) e e'
    exact ⟨h1, fun j hj => h2 j (by omega)⟩

/-- The polynomials agree below N. -/
def NtruAgree (n : ℕ) (s s' : Ntru) : Prop :=
  ∀ i, i < 2 ^ n → s.f i = s'.f i ∧ s.g i = s'.g i ∧ s.F i = s'.F i ∧ s.G i = s'.G i

theorem isPolyInvertible_congr (n : ℕ) {p p' : Mem Int} (h : ∀ i, i < 2 ^ n → p i = p' i) :
    isPolyInvertible n p = isPolyInvertible n p' := by
  unfold isPolyInvertible
  simp only
  rw [one_shiftLeft', loop_congr (g := fun i a => upd a i (coeffToFf (p' i))) (fun i hi t => by rw [h i hi])]

theorem computePublicKey_congr (n : ℕ) {f g f' g' : Mem Int} (h0 : Mem Ff) (hf : ∀ i, i < 2 ^ n → f i = f' i)
    (hg : ∀ i, i < 2 ^ n → g i = g' i) : computePublicKey n f g h0 = computePublicKey n f' g' h0 := by
  unfold computePublicKey
  simp only
  rw [one_shiftLeft', loop_congr (f := fun i a => upd a i (coeffToFf (f i)))
      (g := fun i a => upd a i (coeffToFf (f' i))) (fun i hi t => by rw [hf i hi]),
    loop_congr (f := fun i a => upd a i (coeffToFf (g i))) (g := fun i a => upd a i (coeffToFf (g' i)))
      (fun i hi t => by rw [hg i hi])]

theorem gsTooBig_congr {R C : Type} (A : Arith R C) (n : ℕ) {f g f' g' : Mem Int} (hf : ∀ i, i < 2 ^ n → f i = f' i)
    (hg : ∀ i, i < 2 ^ n → g i = g' i) : gsTooBig A n f g = gsTooBig A n f' g' := by
  unfold gsTooBig gramSchmidtNorm
  simp only
  rw [one_shiftLeft', loop_congr (f := fun i m => upd m i (A.lit (f i))) (g := fun i m => upd m i (A.lit (f' i)))
      (fun i hi t => by rw [hf i hi]),
    loop_congr (f := fun i m => upd m i (A.lit (g i))) (g := fun i m => upd m i (A.lit (g' i)))
      (fun i hi t => by rw [hg i hi])]

theorem ntruGen_prior (quot : RedQuot) {gs : Mem Int → Mem Int → Bool} (fma : Bool) (n : ℕ)
    (hgs : ∀ f g f' g' : Mem Int, (∀ i, i < 2 ^ n → f i = f' i) → (∀ i, i < 2 ^ n → g i = g' i) → gs f g = gs f' g')
    (stream : ℕ → UInt8) (fuel : ℕ) : ∀ (i : ℕ) (s s' : Ntru) (pos : ℕ) (r r' : Ntru × ℕ),
    ntruGen quot gs fma n stream fuel i s pos = some (.ok r) →
    ntruGen quot gs fma n stream fuel i s' pos = some (.ok r') → NtruAgree n r.1 r'.1 := by
  intro i
  induction i with
  | zero => intro s s' pos r r' h; cases h
  | succ i ih =>
    intro s s' pos r r' h h'
    unfold ntruGen genPoly at h h'
    obtain ⟨fp, hf, h⟩ := bindO_ok h
    obtain ⟨gp, hg, h⟩ := bindO_ok h
    obtain ⟨fp', hf', h'⟩ := bindO_ok h'
    obtain ⟨gp', hg', h'⟩ := bindO_ok h'
    obtain ⟨f1, f2⟩ := genPolyLoop_prior _ _ _ _ _ 0 _ _ _ _ _ (fun j hj => by omega) hf hf'
    rw [f1] at hg
    obtain ⟨g1, g2⟩ := genPolyLoop_prior _ _ _ _ _ 0 _ _ _ _ _ (fun j hj => by omega) hg hg'
    rw [one_shiftLeft', Nat.zero_add] at f2 g2
    simp only at h h'
    rw [isPolyInvertible_congr n f2, hgs _ _ _ _ f2 g2, g1] at h
    rw [one_shiftLeft'] at h h'
    rw [loop_congr (f := fun i m => upd m i (fp.1 i)) (g := fun i m => upd m i (fp'.1 i))
        (fun i hi t => by rw [f2 i hi]),
      loop_congr (f := fun i m => upd m i (gp.1 i)) (g := fun i m => upd m i (gp'.1 i))
        (fun i hi t => by rw [g2 i hi])] at h
    split at h
    · rename_i hc
      rw [if_pos hc] at h'
      exact ih _ _ _ _ _ h h'
    · rename_i hc
      rw [if_neg hc] at h'
      split at h
      · rename_i hd
        rw [if_pos hd] at h'
        exact ih _ _ _ _ _ h h'
      · rename_i hd
        rw [if_neg hd] at h'
        obtain ⟨ret, hs, h⟩ := bindO_ok h
        obtain ⟨ret', hs', h'⟩ := bindO_ok h'
        rw [hs] at hs'
        cases hs'
        rcases ret with _ | ⟨F, G⟩
        · exact ih _ _ _ _ _ h h'
        · cases h; cases h'
          intro j hj
          refine ⟨f2 j hj, g2 j hj, ?_, ?_⟩
          · show loop (2 ^ n) (fun i m => upd m i (narrow32 (getSi (F i)))) _ j =
              loop (2 ^ n) (fun i m => upd m i (narrow32 (getSi (F i)))) _ j
            rw [loop_fill, loop_fill, if_pos hj, if_pos hj]
          · show loop (2 ^ n) (fun i m => upd m i (narrow32 (getSi (G i)))) _ j =
              loop (2 ^ n) (fun i m => upd m i (narrow32 (getSi (G i)))) _ j
            rw [loop_fill, loop_fill, if_pos hj, if_pos hj]

/-- Any two finished runs on the same stream have found the same polynomials. -/
theorem ntruGen_unique {R C : Type} (A : Arith R C) (quot : RedQuot) (fma : Bool) (n : ℕ) (stream : ℕ → UInt8)
    {a b i j : ℕ} {s s' : Ntru} {pos : ℕ} {r r' : Ntru × ℕ}
    (h : ntruGen quot (gsTooBig A n) fma n stream a i s pos = some (.ok r))
    (h' : ntruGen quot (gsTooBig A n) fma n stream b j s' pos = some (.ok r')) : NtruAgree n r.1 r'.1 :=
  ntruGen_prior quot fma n (fun _ _ _ _ hf hg => gsTooBig_congr A n hf hg) stream (max a b) (max i j) s s' pos r r'
    (ntruGen_fuel quot _ fma n stream (le_max_left a b) i _ s pos (le_max_left i j) _ h)
    (ntruGen_fuel quot _ fma n stream (le_max_right a b) j _ s' pos (le_max_right i j) _ h')

/-! ### The bytes -/

theorem encodePkey_prior {n : ℕ} (hn : ValidLog n) (h : Mem Ff) (pk pk' : Mem UInt8) (j : ℕ) (hj : j < pkeyLen n) :
    encodePkey n h pk j = encodePkey n h pk' j := by
  obtain ⟨c, hc, hl⟩ : ∃ c, (1 <<< n) / 4 = c ∧ pkeyLen n = 1 + 7 * c := by
    rcases hn with rfl | rfl
    · exact ⟨128, by decide, by decide⟩
    · exact ⟨256, by decide, by decide⟩
  obtain ⟨a0, a1, -⟩ := encodePkey_spec hc h pk
  obtain ⟨b0, b1, -⟩ := encodePkey_spec hc h pk'
  by_cases h0 : j = 0
  · rw [h0, a0, b0]
  · have e : j = 1 + 7 * ((j - 1) / 7) + (j - 1) % 7 := by omega
    rw [e, a1 _ (by omega) _ (by omega), b1 _ (by omega) _ (by omega)]

theorem encGen_prior {w : ℤ} {S s : ℕ} {e d B C} (hc : BlockCodec w S s e d B C) (c N : ℕ) (hdr : UInt8)
    {f g F f' g' F' : Mem Int} (sk sk' : Mem UInt8)
    (hf : ∀ i, i < S * c → f i = f' i) (hg : ∀ i, i < S * c → g i = g' i) (hF : ∀ i, i < N → F i = F' i)
    (j : ℕ) (hj : j < 1 + s * c + s * c + N) :
    encGen e S s c N hdr f g F sk j = encGen e S s c N hdr f' g' F' sk' j := by
  obtain ⟨a0, a1, a2, a3, -⟩ := encGen_spec hc c N hdr f g F sk
  obtain ⟨b0, b1, b2, b3, -⟩ := encGen_spec hc c N hdr f' g' F' sk'
  have hs := hc.s_pos
  have hblk : ∀ b i, b < c → i < S → S * b + i < S * c := by
    intro b i hb hi
    calc S * b + i < S * b + S := by omega
      _ = S * (b + 1) := by ring
      _ ≤ S * c := Nat.mul_le_mul_left _ hb
  by_cases h0 : j = 0
  · rw [h0, a0, b0]
  by_cases h1 : j < 1 + s * c
  · have hb : (j - 1) / s < c := (Nat.div_lt_iff_lt_mul hs).mpr (by rw [mul_comm]; omega)
    have e : j = 1 + s * ((j - 1) / s) + (j - 1) % s := by
      have := Nat.div_add_mod (j - 1) s
      omega
    rw [e, a1 _ hb _ (Nat.mod_lt _ hs), b1 _ hb _ (Nat.mod_lt _ hs)]
    exact hc.B_congr _ _ (fun i hi => hf _ (hblk _ i hb hi)) _ (Nat.mod_lt _ hs)
  by_cases h2 : j < 1 + s * c + s * c
  · have hb : (j - 1 - s * c) / s < c := (Nat.div_lt_iff_lt_mul hs).mpr (by rw [mul_comm c s]; omega)
    have e : j = 1 + s * c + s * ((j - 1 - s * c) / s) + (j - 1 - s * c) % s := by
      have := Nat.div_add_mod (j - 1 - s * c) s
      omega
    rw [e, a2 _ hb _ (Nat.mod_lt _ hs), b2 _ hb _ (Nat.mod_lt _ hs)]
    exact hc.B_congr _ _ (fun i hi => hg _ (hblk _ i hb hi)) _ (Nat.mod_lt _ hs)
  · have e : j = 1 + s * c + s * c + (j - (1 + s * c + s * c)) := by omega
    rw [e, a3 _ (by omega), b3 _ (by omega), hF _ (by omega)]

end Falcon
