import Verif.Sky.Spline

/-!
# What spline skies should do
-/

namespace Verif.Sky

variable {R : Type} [Field R] [LinearOrder R]

/-- Knots as they should be: sorted, those within the range all different, at least `2 * k + 2`. -/
structure GoodKnots (t : List R) (k : Nat) : Prop where
  long : 2 * k + 2 ≤ t.length
  sorted : ∀ i j, i ≤ j → j < t.length → knot t i ≤ knot t j
  strict : ∀ i, k ≤ i → i + 1 < t.length - k → knot t i < knot t (i + 1)

/-- A spline with good knots and as many coefficients as they need. -/
structure GoodSpl (s : Spl R) : Prop where
  x : GoodKnots s.tx s.k
  y : GoodKnots s.ty s.k
  count : s.c.length = s.mx * s.my

/-- Values at the points of a grid, by rows. -/
def onGrid (f : R → R → R) (X Y : List R) : List (List R) := Y.map (fun y => X.map (fun x => f x y))

/-- What is assumed of the fit on the grid `X`, `Y` (external): knots that depend on nothing but the grid; the values of a
spline with these knots are fitted by this spline; all values are met. -/
structure GoodFit (fit : Fit R) (X Y : List R) (k : Nat) (tx ty : List R) : Prop where
  kx : GoodKnots tx k
  ky : GoodKnots ty k
  unique : ∀ c : List R, c.length = (tx.length - k - 1) * (ty.length - k - 1) →
    fit X Y (onGrid (Spl.eval ⟨tx, ty, k, c⟩) X Y) k = .ok ⟨tx, ty, k, c⟩
  meets : ∀ bg : List (List R), bg.length = Y.length → (∀ r ∈ bg, r.length = X.length) →
    ∃ c : List R, c.length = (tx.length - k - 1) * (ty.length - k - 1) ∧ fit X Y bg k = .ok ⟨tx, ty, k, c⟩ ∧
      onGrid (Spl.eval ⟨tx, ty, k, c⟩) X Y = bg

/-- The level of the sky in the pixel in column `x`, row `y`. -/
def level (s : SplineSky R) (x y : R) : R := s.spl.eval (x + s.x0) (y + s.y0)

end Verif.Sky
