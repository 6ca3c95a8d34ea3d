import Verif.Star.Model
import Verif.Star.Spec
import Verif.Src.Model

/-!
# Rendering a star with its derivatives

tractor/psf.py `GaussianMixturePSF.getPointSourcePatch` with `derivs=True`, as used by `PointSource.getParamDerivatives`
(`Verif/Src/Model.lean`).  Patches are represented by what they show in each pixel (patch arithmetic is C23's).
-/

namespace Verif.Star

open Verif.Patches (Patch)
open Verif.Mog (Comp Mix)
open Verif.Gal (ModelMask)
open Verif.Params (PList Slot)

/-- What is shown in each pixel `(x, y)`. -/
abbrev Pic := Int → Int → ℝ

noncomputable section

/-- The image a star is in: its PSF, its shape, the pixel position of the two coordinates of a position; and the attribute `fixedRadius` of
the star. -/
structure Field where
  psf : GPsf
  H : Nat
  W : Nat
  pix : ℝ → ℝ → ℝ × ℝ
  fixedRadius : Option ℝ

/-- `positionToPixel` of a position of two coordinates (others do not occur). -/
def Field.at (f : Field) (pos : PList ℝ) : ℝ × ℝ :=
  match pos.slots with
  | [a, b] => f.pix a.val b.val
  | _ => (0, 0)

/-- `getUnitFluxModelPatch(img, minval, modelMask)` of a star at the position; errors do not occur below. -/
def Field.render (f : Field) (pos : PList ℝ) (minval : Option ℝ) (mask : Option ModelMask) : Option Pic :=
  match starPatch f.psf { px := (f.at pos).1, py := (f.at pos).2, fixedRadius := f.fixedRadius } f.H f.W minval mask with
  | .ok (some q) => some (shown (some q))
  | _ => none

open Classical in
/-- The patches of derivatives of `evaluate_grid_masked(.., derivs=True)`, mixture_profiles.py 305-342. -/
def slopes (m : Mix ℝ) (k : ModelMask) (set : Nat → Nat → Bool) (px py : ℝ) : Pic × Pic :=
  let inside := fun x y : Int => (k.x0 ≤ x ∧ x < k.x0 + k.w) ∧ (k.y0 ≤ y ∧ y < k.y0 + k.h)
  let value := fun x y : Int => (Gauss.masked m (fun y x => set (y - k.y0).toNat (x - k.x0).toNat) px py x y).2
  (fun x y => if inside x y then (value x y).1 else 0, fun x y => if inside x y then (value x y).2 else 0)

/-- `getUnitFluxModelPatch(.., derivs=True)`: derivatives come with the patch for a mask with an array (psf.py 471-474); not for a mask without
one (467-470) and not without a mask and a minimum value (520-528).  With a minimum value and no mask `evaluate_grid_approx3`
gives derivatives beside the same patch: they are the parameter `approx`. -/
def Field.renderDerivs (f : Field) (approx : PList ℝ → ℝ → Pic × Pic) (pos : PList ℝ) (minval : Option ℝ)
    (mask : Option ModelMask) : Option (Pic × Option (Pic × Pic)) :=
  match mask with
  | none => (f.render pos minval mask).map (fun q => (q, if minval.getD 0 > 0 then some (approx pos (minval.getD 0)) else none))
  | some k =>
    match k.mask with
    | none => (f.render pos minval mask).map (fun q => (q, none))
    | some set => (f.render pos minval mask).map (fun q => (q, some (slopes f.psf.mog k set (f.at pos).1 (f.at pos).2)))

/-- The world of a point source in the image; `overlaps` is a parameter. -/
def Field.world (f : Field) (approx : PList ℝ → ℝ → Pic × Pic) (overlaps : Pic → Bool) :
    Src.PointWorld ℝ Pic ModelMask where
  unit := f.render
  withDerivs := f.renderDerivs approx
  overlaps := overlaps

end

end Verif.Star
