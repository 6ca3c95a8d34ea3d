import Verif.Gal.Composite
import Mathlib.Analysis.SpecialFunctions.Exp

/-!
# `FixedCompositeGalaxy`, in an image
-/

namespace Verif.Star

open Verif.Mog (Mat)

noncomputable section

/-- A `FixedCompositeGalaxy` (galaxy.py 798-931) in an image: its pixel position, `cdInverseAtPixel` and `pixscale_at` there, the profiles of the two classes, the
numbers of the galaxy, the radius of the PSF, and `getRadius()` (not used with a PSF of Gaussians). -/
structure Blend where
  px : ℝ
  py : ℝ
  cdinv : Mat ℝ
  pixscale : ℝ
  P : Gal.Profiles ℝ
  s : Gal.Fixed ℝ
  psfRadius : ℝ
  radius : ℝ

/-- Its methods, galaxy.py 846-931.  An exception in `_getAffineProfile` is shown as an empty mixture: C113 proves that there is none. -/
def Blend.galaxy (g : Blend) : Gal.Galaxy ℝ where
  affine := fun px py => (g.s.affine g.P Real.exp g.cdinv px py).toOption.getD []
  sheared := fun _ _ => (g.s.sheared g.P Real.exp g.cdinv).toOption.getD []
  radius := g.radius
  patchSize := fun _ _ => g.s.patchSize g.P Real.exp g.pixscale g.psfRadius

end

end Verif.Star
