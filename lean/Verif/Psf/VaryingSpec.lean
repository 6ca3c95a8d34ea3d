import Verif.Psf.Varying
import Mathlib.Order.Defs.LinearOrder

/-! What PSFs fitted on a grid are compared with. -/

namespace Verif.Psf.Varying

variable {R Im S P : Type} [Field R]

/-- Where the fit in row `j`, column `i` starts: from its left neighbour, in the first column from the row before. -/
def start (g : Nat → Nat → List R × List R) : Nat → Nat → Option (List R)
  | 0, 0 => none
  | j + 1, 0 => some (g j 0).1
  | j, i + 1 => some (g j i).1

/-- `g j i` (parameters and all parameters) is the fit of the PSF at row `j`, column `i` of the grid, starting from its neighbour. -/
def Fits (F : Fitter R Im S P) (s : State R S) (g : Nat → Nat → List R × List R) : Prop :=
  ∀ j < s.ny, ∀ i < s.nx, ∃ im, F.stamp (i * s.W / ((s.nx : R) - 1)) (j * s.H / ((s.ny : R) - 1)) = .ok im ∧
    F.fit im (start g j i) = .ok (g j i)

/-- `RectBivariateSpline` interpolates: four or more increasing coordinates along each axis, one value for each pair. -/
def Interpolates [LinearOrder R] (F : Fitter R Im S P) : Prop :=
  ∀ (xs ys : List R) (z : List (List R)), 4 ≤ xs.length → 4 ≤ ys.length → xs.Pairwise (· < ·) → ys.Pairwise (· < ·) →
    z.length = xs.length → (∀ col ∈ z, col.length = ys.length) →
    ∃ spl, F.spline xs ys z = .ok spl ∧
      ∀ (i j : Nat) (x y v : R), xs[i]? = some x → ys[j]? = some y → (z[i]?).bind (·[j]?) = some v → F.eval spl x y = v

end Verif.Psf.Varying
