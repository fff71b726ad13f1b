/-!
# C-like execution primitives shared by all models

* `Mem α` : a buffer seen through a pointer, i.e. a total map from offsets to values.
* `upd`   : `buf[i] = v`.
* `loop`  : `for (i = 0; i < n; i++) s = body(i, s)`.
* `UB`    : undefined behaviour of C++, kept as a distinct outcome.
-/

namespace Falcon

/-- A C array accessed through a pointer: offset ↦ value. -/
abbrev Mem (α : Type) := Nat → α

/-- `a[i] = v`. -/
def upd {α : Type} (a : Mem α) (i : Nat) (v : α) : Mem α :=
  fun j => if j = i then v else a j

@[simp] theorem upd_same {α} (a : Mem α) (i : Nat) (v : α) : upd a i v i = v := by simp [upd]

theorem upd_ne {α} (a : Mem α) (i j : Nat) (v : α) (h : j ≠ i) : upd a i v j = a j := by
  simp [upd, h]

/-- `for (size_t i = 0; i < n; i++) s = body(i, s)`. -/
def loop {σ : Type} : Nat → (Nat → σ → σ) → σ → σ
  | 0,     _, s => s
  | n + 1, f, s => f n (loop n f s)

@[simp] theorem loop_zero {σ} (f : Nat → σ → σ) (s : σ) : loop 0 f s = s := rfl
theorem loop_succ {σ} (n) (f : Nat → σ → σ) (s : σ) : loop (n + 1) f s = f n (loop n f s) := rfl

/-- The kinds of undefined behaviour that are reachable in the modelled code. -/
inductive UB where
  /-- read outside an array -/
  | oobRead (idx : Nat)
  /-- write outside an array -/
  | oobWrite (idx : Nat)
  /-- signed integer overflow -/
  | signedOverflow
  /-- conversion of a floating point value to an integer type that cannot represent it -/
  | floatConv
  deriving DecidableEq, Repr

/-- Loop invariant rule. -/
theorem loop_inv {σ} {P : Nat → σ → Prop} {n : Nat} {f : Nat → σ → σ} {s : σ}
    (h0 : P 0 s) (hs : ∀ i, i < n → ∀ t, P i t → P (i + 1) (f i t)) : P n (loop n f s) := by
  induction n with
  | zero => exact h0
  | succ n ih =>
    rw [loop_succ]
    exact hs n (Nat.lt_succ_self n) _ (ih (fun i hi t ht => hs i (Nat.lt_succ_of_lt hi) t ht))

theorem loop_congr {σ} {n : Nat} {f g : Nat → σ → σ} {s : σ}
    (h : ∀ i, i < n → ∀ t, f i t = g i t) : loop n f s = loop n g s := by
  induction n with
  | zero => rfl
  | succ n ih =>
    rw [loop_succ, loop_succ, ih (fun i hi t => h i (Nat.lt_succ_of_lt hi) t),
      h n (Nat.lt_succ_self n)]

/-- Peel the first iteration instead of the last. -/
theorem loop_succ' {σ} (n) (f : Nat → σ → σ) (s : σ) :
    loop (n + 1) f s = loop n (fun i => f (i + 1)) (f 0 s) := by
  induction n with
  | zero => rfl
  | succ n ih => rw [loop_succ, ih, loop_succ]

theorem loop_add {σ} (m n) (f : Nat → σ → σ) (s : σ) :
    loop (m + n) f s = loop n (fun i => f (m + i)) (loop m f s) := by
  induction n with
  | zero => rfl
  | succ n ih => rw [← Nat.add_assoc, loop_succ, ih, loop_succ]

/-- `for (i = 0; i < n; i++)` with a body that may be undefined. -/
def loopE {σ : Type} : Nat → (Nat → σ → Except UB σ) → σ → Except UB σ
  | 0,     _, s => .ok s
  | n + 1, f, s => (loopE n f s).bind (f n)

/-- `a[i]` where `a` has `n` elements. -/
def rdE {α : Type} (n : Nat) (a : Mem α) (i : Nat) : Except UB α :=
  if i < n then .ok (a i) else .error (.oobRead i)

/-- `a[i] = v` where `a` has `n` elements. -/
def wrE {α : Type} (n : Nat) (a : Mem α) (i : Nat) (v : α) : Except UB (Mem α) :=
  if i < n then .ok (upd a i v) else .error (.oobWrite i)

theorem loopE_ok {σ} {n : Nat} {f : Nat → σ → Except UB σ} {g : Nat → σ → σ} {s : σ}
    (h : ∀ i, i < n → ∀ t, f i t = .ok (g i t)) : loopE n f s = .ok (loop n g s) := by
  induction n with
  | zero => rfl
  | succ n ih =>
    rw [loopE, ih (fun i hi t => h i (Nat.lt_succ_of_lt hi) t), loop_succ]
    exact h n (Nat.lt_succ_self n) _

theorem rdE_ok {α} {n : Nat} {a : Mem α} {i : Nat} (h : i < n) : rdE n a i = .ok (a i) := by
  simp [rdE, h]

theorem wrE_ok {α} {n : Nat} {a : Mem α} {i : Nat} {v : α} (h : i < n) :
    wrE n a i v = .ok (upd a i v) := by
  simp [wrE, h]

end Falcon
