import Verif.Gauss.Spec
import Mathlib.MeasureTheory.Integral.Prod
import Mathlib.MeasureTheory.Measure.Lebesgue.Basic
import Mathlib.MeasureTheory.Constructions.BorelSpace.Real

/-!
# A galaxy seen through the atmosphere

The light of a galaxy is a mixture of round Gaussians about the origin of a plane of its own (the unit of length is the effective radius); a Gaussian without
extent is a point.  A matrix `T` and a place `(px, py)` put that plane onto the image.
-/

namespace Verif.Star

open Verif.Mog (Comp Mix Mat)
open Verif.Gauss

noncomputable section

/-- A round Gaussian about the origin, possibly without extent. -/
def Round (c : Comp ℝ) : Prop := c.mx = 0 ∧ c.my = 0 ∧ c.vxy = 0 ∧ c.vyx = 0 ∧ c.vyy = c.vxx ∧ 0 ≤ c.vxx

open Classical in
/-- What arrives at `(x, y)` of the light of one Gaussian: every point `u` of the galaxy's plane sends its light to the place `T u + (px, py)`, from where
the share `psf (dx, dy)` arrives at a distance `(dx, dy)`. -/
def seenOf (psf : ℝ → ℝ → ℝ) (T : Mat ℝ) (px py x y : ℝ) (c : Comp ℝ) : ℝ :=
  if c.vxx = 0 then c.amp * psf (x - px) (y - py)
  else ∫ u : ℝ × ℝ, density c u.1 u.2 * psf (x - (T.xx * u.1 + T.xy * u.2 + px)) (y - (T.yx * u.1 + T.yy * u.2 + py))

/-- What arrives at `(x, y)` of the light of the galaxy. -/
def seen (psf : ℝ → ℝ → ℝ) (profile : Mix ℝ) (T : Mat ℝ) (px py x y : ℝ) : ℝ := (profile.map (seenOf psf T px py x y)).sum

end

end Verif.Star
