import Verif.Proofs.ArithHom
import Verif.Proofs.NtruAlg
import Verif.Proofs.Sampling

/-! # Running the floating point code of signing on expressions -/

namespace Falcon

/-- The arithmetic of expressions. -/
def termA : Arith RTerm CTerm where
  lit := .lit
  neg := .neg
  add := .add
  mul := .mul
  div := .div
  sqrt := .sqrt
  max := .max
  le := fun _ _ => false
  gt := fun _ _ => false
  roundTo := fun _ _ _ => .ok 0
  cx := .cx
  re := .re
  cadd := .cadd
  csub := .csub
  cmul := .cmul
  cdiv := .cdiv
  cneg := .cneg
  conj := .conj
  scale := .scale
  tab := .tab

variable {R C : Type} (A : Arith R C)

theorem eval_hom (ρ : Input → ℤ) : ArithHom termA A (RTerm.eval A ρ) (CTerm.eval A ρ) := by
  constructor <;> intros <;> simp only [termA, RTerm.eval, CTerm.eval]

/-- `ff_sampling` on expressions, from question `j` on: the questions and the two results. -/
def symSampling : (k level : Nat) → (t0 t1 T z0 z1 : Mem CTerm) → (j : ℕ) → List (RTerm × RTerm) × Mem CTerm × Mem CTerm
  | 0, _, t0, t1, T, z0, z1, j =>
    ([(.re (t0 0), .re (T 0)), (.re (t1 0), .re (T 0))], upd z0 0 (termA.ofReal (.input (.z j))), upd z1 0 (termA.ofReal (.input (.z (j + 1)))))
  | k + 1, level, t0, t1, T, z0, z1, j =>
    let N := 1 <<< (k + 1)
    let tree_off := (1 <<< level) * N
    let t1s := splitFft termA (k + 1) t1 (junkC termA) (junkC termA)
    let r := symSampling k (level + 1) t1s.1 t1s.2 (ptr T (tree_off + N / 2)) (ptr z0 (N / 2)) (ptr z1 (N / 2)) j
    let z0 := putPtr z0 (N / 2) r.2.1
    let z1 := putPtr z1 (N / 2) r.2.2
    let merged_z1 := mergeFft termA (k + 1) (ptr z0 (N / 2)) (ptr z1 (N / 2)) (junkC termA)
    let tmp0 := polySubC termA (k + 1) t1 merged_z1 (junkC termA)
    let tmp1 := polyMulC termA (k + 1) tmp0 T (junkC termA)
    let tmp0 := polyAddC termA (k + 1) t0 tmp1 tmp0
    let t0s := splitFft termA (k + 1) tmp0 (junkC termA) (junkC termA)
    let l := symSampling k (level + 1) t0s.1 t0s.2 (ptr T tree_off) z0 z1 (j + r.1.length)
    let merged_z0 := mergeFft termA (k + 1) l.2.1 l.2.2 (junkC termA)
    (r.1 ++ l.1, memcpy N merged_z0 l.2.1, memcpy N merged_z1 l.2.2)

theorem symSampling_length (k : ℕ) : ∀ (level : ℕ) (t0 t1 T z0 z1 : Mem CTerm) (j : ℕ),
    (symSampling k level t0 t1 T z0 z1 j).1.length = 2 * 2 ^ k := by
  induction k with
  | zero => intros; rfl
  | succ k ih =>
    intros
    simp only [symSampling, List.length_append, ih]
    ring

/-- Equal inputs, apart from the answers from number `j` on. -/
def Agree (j : ℕ) (ρ ρ' : Input → ℤ) : Prop := ∀ v, (∀ i, v = .z i → i < j) → ρ v = ρ' v

/-- The values of the expressions do not depend on answers from number `j` on. -/
def Fresh (j : ℕ) (m : Mem CTerm) : Prop :=
  ∀ ρ ρ', Agree j ρ ρ' → mp (CTerm.eval A ρ) m = mp (CTerm.eval A ρ') m

theorem Agree.mono {j j' : ℕ} {ρ ρ' : Input → ℤ} (hj : j ≤ j') (h : Agree j' ρ ρ') : Agree j ρ ρ' :=
  fun v hv => h v fun i hi => (hv i hi).trans_le hj

theorem Agree.trans {j : ℕ} {ρ ρ' ρ'' : Input → ℤ} (h : Agree j ρ ρ') (h' : Agree j ρ' ρ'') : Agree j ρ ρ'' :=
  fun v hv => (h v hv).trans (h' v hv)

theorem agree_answer (ρ : Input → ℤ) (j : ℕ) (z : ℤ) : Agree j ρ (Input.answer ρ j z) := by
  intro v hv
  cases v <;> simp only [Input.answer]
  rename_i i
  rw [if_neg (hv i rfl).ne]

section
variable {A}

theorem Fresh.mono {j j' : ℕ} {m : Mem CTerm} (hj : j ≤ j') (h : Fresh A j m) : Fresh A j' m :=
  fun ρ ρ' hr => h ρ ρ' (hr.mono hj)

theorem bindO_bindO {α β γ : Type} (x : Option (Except UB α)) (f : α → Option (Except UB β)) (g : β → Option (Except UB γ)) :
    bindO (bindO x f) g = bindO x fun a => bindO (f a) g := by
  match x with
  | none => rfl
  | some (.error e) => rfl
  | some (.ok a) => rfl

theorem bindO_congr {α β : Type} {x : Option (Except UB α)} {f g : α → Option (Except UB β)} (h : ∀ a, x = some (.ok a) → f a = g a) :
    bindO x f = bindO x g := by
  match x with
  | none => rfl
  | some (.error e) => rfl
  | some (.ok a) => exact h a rfl

theorem ask_append {S : Type} (leaf : LeafSampler R S) (l l' : List (RTerm × RTerm)) : ∀ (j : ℕ) (ρ : Input → ℤ) (s : S),
    ask A leaf (l ++ l') j ρ s = bindO (ask A leaf l j ρ s) fun r => ask A leaf l' (j + l.length) r.1 r.2 := by
  induction l with
  | nil => intro j ρ s; rfl
  | cons q l ih =>
    intro j ρ s
    simp only [List.cons_append, ask, bindO_bindO, ih, List.length_cons]
    congr 1
    funext a
    rw [show j + 1 + l.length = j + (l.length + 1) by omega]

theorem ask_agree {S : Type} {leaf : LeafSampler R S} (l : List (RTerm × RTerm)) : ∀ {j : ℕ} {ρ : Input → ℤ} {s : S} {r : (Input → ℤ) × S},
    ask A leaf l j ρ s = some (.ok r) → Agree j ρ r.1 := by
  induction l with
  | nil =>
    intro j ρ s r h
    simp only [ask, Option.some.injEq, Except.ok.injEq] at h
    subst h
    exact fun v _ => rfl
  | cons q l ih =>
    intro j ρ s r h
    simp only [ask] at h
    obtain ⟨a, _, h2⟩ := bindO_ok h
    exact (agree_answer ρ j a.1).trans ((ih h2).mono (Nat.le_succ j))

section
variable {j : ℕ}

theorem fresh_junk : Fresh A j (junkC termA) := fun ρ ρ' _ => by
  rw [hom_junk (eval_hom A ρ), hom_junk (eval_hom A ρ')]

theorem Fresh.ptr {m : Mem CTerm} (h : Fresh A j m) (p : ℕ) : Fresh A j (ptr m p) := fun ρ ρ' hr => by
  rw [mp_ptr, mp_ptr, h ρ ρ' hr]

theorem Fresh.putPtr {m m' : Mem CTerm} (h : Fresh A j m) (p : ℕ) (h' : Fresh A j m') : Fresh A j (putPtr m p m') :=
  fun ρ ρ' hr => by rw [mp_putPtr, mp_putPtr, h ρ ρ' hr, h' ρ ρ' hr]

theorem Fresh.memcpy {m m' : Mem CTerm} (n : ℕ) (h : Fresh A j m) (h' : Fresh A j m') : Fresh A j (memcpy n m m') :=
  fun ρ ρ' hr => by rw [mp_memcpy, mp_memcpy, h ρ ρ' hr, h' ρ ρ' hr]

theorem Fresh.split1 {a b c : Mem CTerm} (n : ℕ) (ha : Fresh A j a) (hb : Fresh A j b) (hc : Fresh A j c) :
    Fresh A j (splitFft termA n a b c).1 := fun ρ ρ' hr => by
  rw [hom_split1 (eval_hom A ρ), hom_split1 (eval_hom A ρ'), ha ρ ρ' hr, hb ρ ρ' hr, hc ρ ρ' hr]

theorem Fresh.split2 {a b c : Mem CTerm} (n : ℕ) (ha : Fresh A j a) (hb : Fresh A j b) (hc : Fresh A j c) :
    Fresh A j (splitFft termA n a b c).2 := fun ρ ρ' hr => by
  rw [hom_split2 (eval_hom A ρ), hom_split2 (eval_hom A ρ'), ha ρ ρ' hr, hb ρ ρ' hr, hc ρ ρ' hr]

theorem Fresh.merge {a b c : Mem CTerm} (n : ℕ) (ha : Fresh A j a) (hb : Fresh A j b) (hc : Fresh A j c) :
    Fresh A j (mergeFft termA n a b c) := fun ρ ρ' hr => by
  rw [hom_merge (eval_hom A ρ), hom_merge (eval_hom A ρ'), ha ρ ρ' hr, hb ρ ρ' hr, hc ρ ρ' hr]

theorem Fresh.add {a b c : Mem CTerm} (n : ℕ) (ha : Fresh A j a) (hb : Fresh A j b) (hc : Fresh A j c) :
    Fresh A j (polyAddC termA n a b c) := fun ρ ρ' hr => by
  rw [hom_add (eval_hom A ρ), hom_add (eval_hom A ρ'), ha ρ ρ' hr, hb ρ ρ' hr, hc ρ ρ' hr]

theorem Fresh.sub {a b c : Mem CTerm} (n : ℕ) (ha : Fresh A j a) (hb : Fresh A j b) (hc : Fresh A j c) :
    Fresh A j (polySubC termA n a b c) := fun ρ ρ' hr => by
  rw [hom_sub (eval_hom A ρ), hom_sub (eval_hom A ρ'), ha ρ ρ' hr, hb ρ ρ' hr, hc ρ ρ' hr]

theorem Fresh.mul {a b c : Mem CTerm} (n : ℕ) (ha : Fresh A j a) (hb : Fresh A j b) (hc : Fresh A j c) :
    Fresh A j (polyMulC termA n a b c) := fun ρ ρ' hr => by
  rw [hom_mul (eval_hom A ρ), hom_mul (eval_hom A ρ'), ha ρ ρ' hr, hb ρ ρ' hr, hc ρ ρ' hr]

end

theorem sym_fresh (k : ℕ) : ∀ (level : ℕ) {t0 t1 T z0 z1 : Mem CTerm} {j : ℕ}, Fresh A j t0 → Fresh A j t1 → Fresh A j T →
    Fresh A j z0 → Fresh A j z1 → Fresh A (j + 2 * 2 ^ k) (symSampling k level t0 t1 T z0 z1 j).2.1 ∧
      Fresh A (j + 2 * 2 ^ k) (symSampling k level t0 t1 T z0 z1 j).2.2 := by
  induction k with
  | zero =>
    intro level t0 t1 T z0 z1 j _ _ _ h0 h1
    have e (i : ℕ) (hi : i < j + 2) {ρ ρ' : Input → ℤ} (hr : Agree (j + 2) ρ ρ') : ρ (.z i) = ρ' (.z i) :=
      hr _ fun i' hi' => by cases hi'; exact hi
    constructor
    · intro ρ ρ' hr
      simp only [symSampling, mp_upd, hom_ofReal (eval_hom A _), RTerm.eval]
      rw [h0 ρ ρ' (hr.mono (by omega)), e j (by omega) hr]
    · intro ρ ρ' hr
      simp only [symSampling, mp_upd, hom_ofReal (eval_hom A _), RTerm.eval]
      rw [h1 ρ ρ' (hr.mono (by omega)), e (j + 1) (by omega) hr]
  | succ k ih =>
    intro level t0 t1 T z0 z1 j f0 f1 fT h0 h1
    have e1 : j ≤ j + 2 * 2 ^ k := Nat.le_add_right _ _
    obtain ⟨r0, r1⟩ := ih (level + 1) (f1.split1 (k + 1) fresh_junk fresh_junk) (f1.split2 (k + 1) fresh_junk fresh_junk)
      (fT.ptr ((1 <<< level) * (1 <<< (k + 1)) + (1 <<< (k + 1)) / 2)) (h0.ptr ((1 <<< (k + 1)) / 2)) (h1.ptr ((1 <<< (k + 1)) / 2))
    have z0' := (h0.mono e1).putPtr ((1 <<< (k + 1)) / 2) r0
    have z1' := (h1.mono e1).putPtr ((1 <<< (k + 1)) / 2) r1
    have m1 := (z0'.ptr ((1 <<< (k + 1)) / 2)).merge (k + 1) (z1'.ptr ((1 <<< (k + 1)) / 2)) fresh_junk
    have s0 := (f1.mono e1).sub (k + 1) m1 fresh_junk
    have s1 := s0.mul (k + 1) (fT.mono e1) fresh_junk
    have s2 := (f0.mono e1).add (k + 1) s1 s0
    obtain ⟨l0, l1⟩ := ih (level + 1) (s2.split1 (k + 1) fresh_junk fresh_junk) (s2.split2 (k + 1) fresh_junk fresh_junk)
      ((fT.mono e1).ptr ((1 <<< level) * (1 <<< (k + 1)))) z0' z1'
    have m0 := l0.merge (k + 1) l1 fresh_junk
    have e2 : j + 2 * 2 ^ k + 2 * 2 ^ k = j + 2 * 2 ^ (k + 1) := by ring
    have e3 : j + 2 * 2 ^ k ≤ j + 2 * 2 ^ k + 2 * 2 ^ k := Nat.le_add_right _ _
    rw [← e2]
    simp only [symSampling, symSampling_length]
    exact ⟨m0.memcpy _ l0, (m1.mono e3).memcpy _ l1⟩

theorem sym_run {S : Type} (leaf : LeafSampler R S) (k : ℕ) : ∀ (level : ℕ) {t0 t1 T z0 z1 : Mem CTerm} {j : ℕ}, Fresh A j t0 →
    Fresh A j t1 → Fresh A j T → Fresh A j z0 → Fresh A j z1 → ∀ (ρ : Input → ℤ) (s : S),
    ffSampling A leaf k level (mp (CTerm.eval A ρ) t0) (mp (CTerm.eval A ρ) t1) (mp (CTerm.eval A ρ) T)
      (mp (CTerm.eval A ρ) z0) (mp (CTerm.eval A ρ) z1) s =
    bindO (ask A leaf (symSampling k level t0 t1 T z0 z1 j).1 j ρ s) fun r =>
      some (.ok (mp (CTerm.eval A r.1) (symSampling k level t0 t1 T z0 z1 j).2.1,
        mp (CTerm.eval A r.1) (symSampling k level t0 t1 T z0 z1 j).2.2, r.2)) := by
  induction k with
  | zero =>
    intro level t0 t1 T z0 z1 j f0 f1 fT h0 h1 ρ s
    simp only [ffSampling, symSampling, ask, bindO_bindO, RTerm.eval, mp_apply, bindO_pure]
    congr 1
    funext a
    have a1 := agree_answer ρ j a.1
    have g1 : CTerm.eval A ρ (t1 0) = CTerm.eval A (Input.answer ρ j a.1) (t1 0) := congrFun (f1 _ _ a1) 0
    have g2 : CTerm.eval A ρ (T 0) = CTerm.eval A (Input.answer ρ j a.1) (T 0) := congrFun (fT _ _ a1) 0
    rw [← g1, ← g2]
    congr 1
    funext b
    have a2 := a1.trans ((agree_answer (Input.answer ρ j a.1) (j + 1) b.1).mono (Nat.le_succ j))
    simp only [mp_upd, hom_ofReal (eval_hom A _), RTerm.eval]
    rw [h0 _ _ a2, h1 _ _ a2]
    simp only [Input.answer, if_true, if_neg (show j ≠ j + 1 by omega), Arith.ofInt]
  | succ k ih =>
    intro level t0 t1 T z0 z1 j f0 f1 fT h0 h1 ρ s
    have e1 : j ≤ j + 2 * 2 ^ k := Nat.le_add_right _ _
    have i1 := f1.split1 (k + 1) fresh_junk fresh_junk
    have i2 := f1.split2 (k + 1) fresh_junk fresh_junk
    have i3 := fT.ptr ((1 <<< level) * (1 <<< (k + 1)) + (1 <<< (k + 1)) / 2)
    have i4 := h0.ptr ((1 <<< (k + 1)) / 2)
    have i5 := h1.ptr ((1 <<< (k + 1)) / 2)
    obtain ⟨r0, r1⟩ := sym_fresh k (level + 1) i1 i2 i3 i4 i5
    have run1 := ih (level + 1) i1 i2 i3 i4 i5 ρ s
    rw [hom_split1 (eval_hom A _), hom_split2 (eval_hom A _), hom_junk (eval_hom A _), mp_ptr, mp_ptr, mp_ptr] at run1
    have z0' := (h0.mono e1).putPtr ((1 <<< (k + 1)) / 2) r0
    have z1' := (h1.mono e1).putPtr ((1 <<< (k + 1)) / 2) r1
    have m1 := (z0'.ptr ((1 <<< (k + 1)) / 2)).merge (k + 1) (z1'.ptr ((1 <<< (k + 1)) / 2)) fresh_junk
    have s0 := (f1.mono e1).sub (k + 1) m1 fresh_junk
    have s1 := s0.mul (k + 1) (fT.mono e1) fresh_junk
    have s2 := (f0.mono e1).add (k + 1) s1 s0
    have j1 := s2.split1 (k + 1) fresh_junk fresh_junk
    have j2 := s2.split2 (k + 1) fresh_junk fresh_junk
    have j3 := (fT.mono e1).ptr ((1 <<< level) * (1 <<< (k + 1)))
    simp only [ffSampling]
    rw [run1]
    simp only [symSampling, ask_append, bindO_bindO, bindO_pure, symSampling_length]
    refine bindO_congr fun r hr => ?_
    have ar := ask_agree _ hr
    have run2 := ih (level + 1) j1 j2 j3 z0' z1' r.1 r.2
    rw [hom_split1 (eval_hom A _), hom_split2 (eval_hom A _), hom_junk (eval_hom A _), hom_add (eval_hom A _),
      hom_mul (eval_hom A _), hom_sub (eval_hom A _), hom_merge (eval_hom A _), hom_junk (eval_hom A _), mp_ptr, mp_ptr, mp_ptr,
      mp_putPtr, mp_putPtr] at run2
    rw [f0 _ _ ar, f1 _ _ ar, fT _ _ ar, h0 _ _ ar, h1 _ _ ar, run2, bindO_bindO]
    refine bindO_congr fun l hl => ?_
    have al := ask_agree _ hl
    simp only [bindO_pure, mp_memcpy, hom_merge (eval_hom A _), hom_junk (eval_hom A _)]
    have m1' := m1 _ _ al
    rw [hom_merge (eval_hom A _), hom_merge (eval_hom A _), hom_junk (eval_hom A _), hom_junk (eval_hom A _)] at m1'
    simp only [mp_ptr, mp_putPtr] at m1' ⊢
    rw [m1']

end

end Falcon
