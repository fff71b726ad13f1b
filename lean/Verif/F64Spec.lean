import Verif.Model.F64

/-!
# Specification: finite doubles, and what may be assumed about the recovery from NaN
-/

namespace Falcon

/-- A finite double. -/
def F64.Finite (d : F64) : Prop := ∃ s x, d = .fin s x

/-- A complex number of two finite doubles. -/
def F64.CFinite (d : F64 × F64) : Prop := d.1.Finite ∧ d.2.Finite

/-- The library does not turn a complex quotient of finite numbers whose parts are both NaN into one with a finite real part (C11
annex G.5.1 prescribes infinities, or leaves the NaN). -/
def F64.NoInvention (rd : F64.Recover) : Prop := ∀ x y, F64.CFinite x → F64.CFinite y → ¬ (rd x y).1.Finite

/-- A library that leaves NaN as it is. -/
def F64.keepNan : F64.Recover := fun _ _ => (.nan, .nan)

end Falcon
