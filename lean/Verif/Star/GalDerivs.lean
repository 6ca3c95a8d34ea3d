import Verif.Star.Derivs
import Verif.Star.SeenSpec
import Verif.Gal.Composite

/-!
# Derivatives of a galaxy in an image with a PSF of Gaussians

tractor/galaxy.py `Galaxy.getParamDerivatives` (`Verif/Src/Model.lean`) of a `HoggGalaxy` in a model mask.  Patches are represented by what they show in each pixel.
-/

namespace Verif.Star

open Verif.Mog (Comp Mix Mat)
open Verif.Gal (ModelMask)
open Verif.Params (PList Par)
open Verif.Gauss

noncomputable section

/-- The image a galaxy is in and what the galaxy is made from: `positionToPixel`, `cdInverseAtPixel`, the PSF's mixture at a pixel position,
the profile, `getRaDecBasis()` of a shape; radius and size of the patch (not used in a mask). -/
structure GalField where
  E : Gal.Env ℝ
  S : Gal.Scene ℝ
  pix : PList ℝ → ℝ × ℝ
  cdinv : ℝ → ℝ → Mat ℝ
  mix : ℝ → ℝ → Mix ℝ
  profile : Mix ℝ
  basis : Par ℝ → Mat ℝ
  radius : Par ℝ → ℝ
  patchSize : Par ℝ → ℝ → ℝ → ℝ

/-- `HoggGalaxy` with this shape, galaxy.py 640-691. -/
def GalField.galaxy (f : GalField) (shape : Par ℝ) : Gal.Galaxy ℝ where
  affine := fun px py => Gal.hoggAffine f.profile (f.cdinv px py) (f.basis shape) px py
  sheared := fun px py => Gal.hoggSheared f.profile (f.cdinv px py) (f.basis shape)
  radius := f.radius shape
  patchSize := f.patchSize shape

/-- `getUnitFluxModelPatch(img, px, py, minval, modelMask, force_sourceOut)` in the mask `k`. -/
def GalField.render (f : GalField) (k : ModelMask) (force : Bool) (pos : PList ℝ) (shape : Par ℝ) (minval : Option ℝ) : Option Pic :=
  match Gal.unitPatch f.E f.S (.gauss f.mix) (f.galaxy shape) ⟨none, force, minval⟩ (f.pix pos).1 (f.pix pos).2 (some k) with
  | .ok (some q) => some (shown (some q))
  | _ => none

open Classical in
/-- The differences of the pixels next to each pixel, zero on the border of the rectangle of the mask, galaxy.py 167-170: `dx[1:-1, 1:-1] = (p0[1:-1, :-2] - p0[1:-1, 2:]) / 2`. -/
def central (k : ModelMask) (p : Pic) : Pic × Pic :=
  let inner := fun x y : Int => (k.x0 + 1 ≤ x ∧ x < k.x0 + k.w - 1) ∧ (k.y0 + 1 ≤ y ∧ y < k.y0 + k.h - 1)
  (fun x y => if inner x y then (p (x - 1) y - p (x + 1) y) / 2 else 0,
   fun x y => if inner x y then (p x (y - 1) - p x (y + 1)) / 2 else 0)

/-- The world of a call of `getParamDerivatives` with the mask `k`, the only mask there is (hence `Unit`). -/
def GalField.world (f : GalField) (k : ModelMask) : Src.GalaxyWorld ℝ Pic Unit where
  unit := fun pos shape minval _ => f.render k false pos shape minval
  forced := fun pos shape minval _ => f.render k true pos shape minval
  extentMask := fun _ => ()
  grad := central k

end

end Verif.Star
