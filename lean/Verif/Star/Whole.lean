import Verif.Star.Model
import Verif.Gal.Composite
import Verif.Star.Mixed
import Verif.Engine.Model

/-!
# Images of stars, galaxies and composite galaxies, with a PSF of Gaussians

`Tractor.getModelImage` (engine.py 424-445, modelled in `Engine.Model`) for sources that render themselves as in pointsource.py 35-58 and galaxy.py
1075-1091 (modelled in `Gal.Composite`), from unit-flux patches as in pointsource.py 102-126 (`Star.Model`) and galaxy.py 256-331 (`Gal.Model`).
-/

namespace Verif.Star

open Verif.Patches (Patch)
open Verif.Mog (Comp Mix Mat)
open Verif.Gal (ModelMask)

noncomputable section

/-- A `HoggGalaxy` (galaxy.py 640-691) in an image: its pixel position, its profile, `cdInverseAtPixel` there, `getRaDecBasis()` of its shape, radius and size
of the patch. -/
structure Made where
  px : ℝ
  py : ℝ
  profile : Mix ℝ
  cdinv : Mat ℝ
  basis : Mat ℝ
  radius : ℝ
  patchSize : ℝ → ℝ → ℝ

/-- The galaxy's methods, galaxy.py 640-691. -/
def Made.galaxy (g : Made) : Gal.Galaxy ℝ where
  affine := fun px py => Gal.hoggAffine g.profile g.cdinv g.basis px py
  sheared := fun _ _ => Gal.hoggSheared g.profile g.cdinv g.basis
  radius := g.radius
  patchSize := g.patchSize

/-- A source in an image: `PointSource`, a `HoggGalaxy`, a `CompositeGalaxy` (its exponential and its de Vaucouleurs
galaxy, which the code puts at the same position), a `FixedCompositeGalaxy`. -/
inductive Thing (B : Type) where
  | star (s : Star) (bright : B)
  | galaxy (g : Made) (bright : B)
  | two (e d : Made) (brightExp brightDev : B)
  | fixed (g : Blend) (bright : B)

/-- An image as sources see it: the routines in C, its shape, a `GaussianMixturePSF` (the same mixture everywhere, psf.py 426-427), `brightnessToCounts` and
`modelMinval`. -/
structure Frame (B : Type) where
  E : Gal.Env ℝ
  S : Gal.Scene ℝ
  psf : GPsf
  view : Gal.View ℝ B

variable {B : Type}

/-- `PointSource.getUnitFluxModelPatch`, pointsource.py 102-126. -/
def Frame.unitStar (F : Frame B) (s : Star) : Gal.Renderer ℝ (Option ModelMask) := fun v k => starPatch F.psf s F.S.H F.S.W (some v) k

/-- `HoggGalaxy.getUnitFluxModelPatch`, galaxy.py 256-264, with the default arguments of 266-271. -/
def Frame.unitGal (F : Frame B) (g : Made) : Gal.Renderer ℝ (Option ModelMask) := fun v k =>
  Gal.unitPatch F.E F.S (.gauss fun _ _ => F.psf.mog) g.galaxy ⟨some (3, 4), false, some v⟩ g.px g.py k

/-- `FixedCompositeGalaxy.getUnitFluxModelPatch(img, minval, modelMask)`, galaxy.py 256-264, with the default arguments of 266-271. -/
def Frame.unitBlend (F : Frame B) (g : Blend) : Gal.Renderer ℝ (Option ModelMask) := fun v k =>
  Gal.unitPatch F.E F.S (.gauss fun _ _ => F.psf.mog) g.galaxy ⟨some (3, 4), false, some v⟩ g.px g.py k

/-- `src.getModelPatch(img, modelMask=k)`, pointsource.py 35-58, galaxy.py 1088-1091. -/
def Frame.patch (F : Frame B) (k : Option ModelMask) : Thing B → Except PyErr (Option (Patch ℝ))
  | .star s b => Gal.modelPatch F.view (F.unitStar s) b none k
  | .galaxy g b => Gal.modelPatch F.view (F.unitGal g) b none k
  | .two e d be bd => Gal.TwoPart.modelPatch F.view ⟨be, bd, fun _ => F.unitGal e, fun _ => F.unitGal d, none⟩ 0 k
  | .fixed g b => Gal.modelPatch F.view (F.unitBlend g) b none k

/-- The world of the tractor: what the images are to the sources, what the sources are in the images, the skies.  An exception in `getModelPatch` (which
would end `getModelImage`) is shown as no patch: C170 proves that there is none.  Derivatives are not used here. -/
def sceneWorld (frame : Engine.Image ℝ → Frame B) (what : Engine.Source ℝ → Engine.Image ℝ → Thing B) (sky : Engine.Image ℝ → Engine.Sky ℝ) :
    Engine.World ℝ ModelMask where
  render := fun src img k => ((frame img).patch k (what src img)).toOption.getD none
  sky := sky
  srcDerivs := fun _ _ _ => []

end

end Verif.Star
