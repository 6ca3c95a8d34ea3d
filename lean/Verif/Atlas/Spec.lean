import Verif.Atlas.Model
import Mathlib.Geometry.Euclidean.Angle.Unoriented.TriangleInequality
import Mathlib.Geometry.Euclidean.Angle.Unoriented.RightAngle
import Mathlib.Analysis.InnerProductSpace.PiL2

/-! The sky: directions, angles, and the directions that the pixels of a tangent-plane projection look at. -/

namespace Verif.Atlas

open Verif.Coords (TanObj)

noncomputable section

abbrev Vec := EuclideanSpace ℝ (Fin 3)

/-- Degrees to radians. -/
def rad (x : ℝ) : ℝ := x * (Real.pi / 180)

/-- The direction of right ascension and declination in degrees. -/
def dir (ra dec : ℝ) : Vec := !₂[Real.cos (rad dec) * Real.cos (rad ra), Real.cos (rad dec) * Real.sin (rad ra), Real.sin (rad dec)]

/-- The angle between two directions, in degrees. -/
def sep (u v : Vec) : ℝ := InnerProductGeometry.angle u v * (180 / Real.pi)

/-- The unit vector at (ra, dec) towards increasing ra. -/
def east (ra : ℝ) : Vec := !₂[-Real.sin (rad ra), Real.cos (rad ra), 0]

/-- The unit vector at (ra, dec) towards increasing dec. -/
def north (ra dec : ℝ) : Vec :=
  !₂[-(Real.sin (rad dec) * Real.cos (rad ra)), -(Real.sin (rad dec) * Real.sin (rad ra)), Real.cos (rad dec)]

/-- The direction (not of length one) that the point `(x, y)`, in pixels from one, of a tangent-plane projection looks at: the reference point
plus the intermediate world coordinates along east and north. -/
def look (t : TanObj ℝ) (x y : ℝ) : Vec :=
  dir t.crval1 t.crval2 + (rad (t.cd.a * (x - t.crpix1) + t.cd.b * (y - t.crpix2)) • east t.crval1 +
    rad (t.cd.c * (x - t.crpix1) + t.cd.d * (y - t.crpix2)) • north t.crval1 t.crval2)

/-- Is the direction within the image of `W` x `H` pixels with this projection? -/
def Within (t : TanObj ℝ) (W H : Nat) (v : Vec) : Prop :=
  ∃ x y : ℝ, 1 / 2 ≤ x ∧ x ≤ W + 1 / 2 ∧ 1 / 2 ≤ y ∧ y ≤ H + 1 / 2 ∧ ∃ k : ℝ, 0 < k ∧ v = k • look t x y

/-- astrometry.util.starutil_numpy.degrees_between: from the scalar product of the unit vectors. -/
def degreesBetween (ra1 dec1 ra2 dec2 : ℝ) : ℝ :=
  Real.arccos (Real.cos (rad dec1) * Real.cos (rad dec2) * Real.cos (rad ra1 - rad ra2) + Real.sin (rad dec1) * Real.sin (rad dec2)) *
    (180 / Real.pi)

end

end Verif.Atlas
