import Mathlib.Algebra.Order.Field.Basic

/-!
# Reference notions for interpolated maps
-/

namespace Verif.Sfd.Spec

variable {R : Type}

/-- What rounding down means. -/
def IsFloor [Field R] [LinearOrder R] (floor : R → Int) : Prop := ∀ x, ((floor x : Int) : R) ≤ x ∧ x < ((floor x : Int) : R) + 1

/-- Bilinear interpolation of the values at the corners of a unit square: `a` at the origin, `b` to its right, `c` above it, `d` opposite. -/
def bilinear [Field R] (fx fy a b c d : R) : R := (1 - fx) * (1 - fy) * a + fx * (1 - fy) * b + (1 - fx) * fy * c + fx * fy * d

/-- A number lies between the least and the greatest of the positive ones in a list. -/
def AmongPositive [LinearOrder R] [Zero R] (l : List R) (v : R) : Prop := (∃ p ∈ l, 0 < p ∧ p ≤ v) ∧ (∃ p ∈ l, v ≤ p)

end Verif.Sfd.Spec
