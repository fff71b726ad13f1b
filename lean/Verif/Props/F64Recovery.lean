import Verif.Model.F64

/-!
# C76: what the complex operations of the arithmetic on IEEE 754 data do with NaN
-/

namespace Falcon

/-- C76: products and quotients are given by the formulas for the parts, whatever the runtime library does, as long as one part is not NaN. -/
theorem C76_recovery (b : Bool) (rm rd : F64.Recover) (x y : F64 × F64) :
    (¬ ((F64.cmul0 b x y).1 = .nan ∧ (F64.cmul0 b x y).2 = .nan) → (f64A b rm rd).cmul x y = F64.cmul0 b x y) ∧
    ((F64.cmul0 b x y).1 = .nan ∧ (F64.cmul0 b x y).2 = .nan → (f64A b rm rd).cmul x y = rm x y) ∧
    (¬ ((F64.cdiv0 b x y).1 = .nan ∧ (F64.cdiv0 b x y).2 = .nan) → (f64A b rm rd).cdiv x y = F64.cdiv0 b x y) ∧
    ((F64.cdiv0 b x y).1 = .nan ∧ (F64.cdiv0 b x y).2 = .nan → (f64A b rm rd).cdiv x y = rd x y) := by
  have key : ∀ (rc : F64.Recover) (r : F64 × F64), (¬ (r.1 = .nan ∧ r.2 = .nan) → F64.recover rc x y r = r) ∧
      (r.1 = .nan ∧ r.2 = .nan → F64.recover rc x y r = rc x y) := by
    rintro rc ⟨u, v⟩
    cases u <;> cases v <;> simp [F64.recover]
  exact ⟨(key rm _).1, (key rm _).2, (key rd _).1, (key rd _).2⟩

/-- The square of inf + inf i is NaN + inf i, and the library leaves it alone although the real part is NaN. -/
example (rm rd : F64.Recover) : (f64A false rm rd).cmul (.inf false, .inf false) (.inf false, .inf false) = (.nan, .inf false) := by
  have e : F64.cmul0 false (.inf false, .inf false) (.inf false, .inf false) = (.nan, .inf false) := by
    simp [F64.cmul0, F64.sub, F64.add, F64.mul, F64.neg]
  rw [(C76_recovery false rm rd _ _).1 (by rw [e]; simp), e]

/-- Both parts of the square of NaN + NaN i are NaN, and the library decides. -/
example (rm rd : F64.Recover) : (f64A false rm rd).cmul (.nan, .nan) (.nan, .nan) = rm (.nan, .nan) (.nan, .nan) :=
  (C76_recovery false rm rd _ _).2.1 ⟨rfl, rfl⟩

end Falcon
