import Verif.Gauss.Model
import Verif.Approx.Model
import Verif.Gal.Model
import Mathlib.Data.Real.Archimedean

/-!
# Stars in an image whose PSF is a mixture of Gaussians

tractor/psf.py `GaussianMixturePSF` (`getRadius`, `computeRadius`, `getPointSourcePatch`) and tractor/pointsource.py
`PointSource.getUnitFluxModelPatch`.

Without derivatives (`derivs=False`).  Floating-point numbers are real numbers, also in `evaluate_grid_masked`, which rounds to single precision.
`ModelMask.x1` is `x0 + w`.
-/

namespace Verif.Star

open Verif.Patches (Patch)
open Verif.Mog (Comp Mix)
open Verif.Approx (Box)
open Verif.Gal (ModelMask)

noncomputable section

/-- `GaussianMixturePSF`: the mixture and the attribute `radius`, 25 unless it is set (psf.py 388). -/
structure GPsf where
  mog : Mix ℝ
  radius : Option ℝ := some 25

/-- `int(x)`: towards zero. -/
def trunc (x : ℝ) : Int := if 0 ≤ x then ⌊x⌋ else ⌈x⌉

/-- The larger absolute eigenvalue of a symmetric matrix: `max(abs(eigvalsh(v)))`; `eigvalsh` reads the lower triangle. -/
def maxEig (c : Comp ℝ) : ℝ :=
  let s := Real.sqrt ((c.vxx - c.vyy) ^ 2 + 4 * c.vyx ^ 2)
  max |(c.vxx + c.vyy + s) / 2| |(c.vxx + c.vyy - s) / 2|

/-- `computeRadius()`, psf.py 443-448: five times the root of the largest; `max` of an empty list raises ValueError. -/
def computeRadius (m : Mix ℝ) : Except PyErr ℝ :=
  match m with
  | [] => .error .value
  | c :: m => .ok (5 * Real.sqrt (m.foldl (fun e c => max e (maxEig c)) (maxEig c)))

/-- `get_extent`, psf.py 476-488; `clip` is `[xl, xh, yl, yh]`. -/
def extent (px py rr : ℝ) (clip : Option (Int × Int × Int × Int)) : Box :=
  let x0 := ⌊px - rr⌋
  let x1 := ⌈px + rr⌉ + 1
  let y0 := ⌊py - rr⌋
  let y1 := ⌈py + rr⌉ + 1
  match clip with
  | none => ⟨x0, x1, y0, y1⟩
  | some (xl, xh, yl, yh) => ⟨max x0 xl, min x1 xh, max y0 yl, min y1 yh⟩

/-- One pass of the loop of the estimate of the radius, psf.py 501-507.  The logarithm of zero is minus infinity and
`int(inf)` raises OverflowError (here ValueError); that of a negative number is NaN, which is not above 0. -/
def guessStep (minval r : ℝ) (c : Comp ℝ) : Except PyErr ℝ :=
  let vv := c.vxx + c.vyy
  let norm := 2 * Real.pi * (c.vxx * c.vyy - c.vxy * c.vyx)
  if minval * norm = 0 then if vv > 0 then .error .value else .ok r
  else if minval * norm < 0 then .ok r
  else
    let r2 := vv * -2 * Real.log (minval * norm)
    .ok (if r2 > 0 then max r (Real.sqrt r2) else r)

/-- The radius where neither the argument nor the PSF has one, psf.py 500-508. -/
def guessRadius (m : Mix ℝ) (minval : ℝ) : Except PyErr ℝ :=
  (m.foldlM (guessStep minval) 0).map (fun r => ((⌈r⌉ : Int) : ℝ))

/-- `evaluate_grid(x0, x1, y0, y1, cx, cy)`, mixture_profiles.py 270-283, of a box that is not empty. -/
def grid (m : Mix ℝ) (b : Box) (px py : ℝ) : Patch ℝ :=
  ⟨b.x0, b.y0, some ⟨(b.y1 - b.y0).toNat, (b.x1 - b.x0).toNat, fun r c => Gauss.evaluateGrid m px py (b.x0 + c) (b.y0 + r)⟩⟩

/-- `evaluate_grid_masked(x0, y0, mask, fx, fy)`, mixture_profiles.py 305-342. -/
def gridMasked (m : Mix ℝ) (k : ModelMask) (mask : Nat → Nat → Bool) (px py : ℝ) : Patch ℝ :=
  ⟨k.x0, k.y0, some ⟨k.h, k.w, fun r c =>
    (Gauss.masked m (fun y x => mask (y - k.y0).toNat (x - k.x0).toNat) px py (k.x0 + c) (k.y0 + r)).1⟩⟩

/-- `evaluate_grid_approx3(x0, x1, y0, y1, fx, fy, minval, minradius=..)`, mixture_profiles.py 344-411; `mean[0]` of an empty
mixture raises IndexError. -/
def gridApprox (m : Mix ℝ) (b : Box) (px py minval : ℝ) (minradius : Int) : Except PyErr (Option (Patch ℝ)) :=
  match m with
  | [] => .error .index
  | c :: _ =>
    Approx.gridApprox3 (fun y x => Gauss.evalAll m (x - px) (y - py)) (fun y x => (Gauss.approx3 minval m px py x y).1)
      (trunc (c.mx + px)) (trunc (c.my + py)) b minval minradius true 100

/-- `rr`, psf.py 495-508. -/
def radiusFor (p : GPsf) (radius : Option ℝ) (minval : ℝ) : Except PyErr ℝ :=
  match radius, p.radius with
  | some r, _ => .ok r
  | none, some r => .ok r
  | none, none => guessRadius p.mog minval

/-- Keyword arguments of `getPointSourcePatch`. -/
structure Args where
  minval : Option ℝ := some 0
  radius : Option ℝ := none
  minradius : Option ℝ := none
  mask : Option ModelMask := none
  clip : Option (Int × Int × Int × Int) := none

/-- `GaussianMixturePSF.getPointSourcePatch(px, py, ..)`, psf.py 458-528. -/
def pointSourcePatch (p : GPsf) (px py : ℝ) (a : Args) : Except PyErr (Option (Patch ℝ)) :=
  match a.mask with
  | some k =>
    match k.mask with
    | none => .ok (some (grid p.mog ⟨k.x0, k.x0 + k.w, k.y0, k.y0 + k.h⟩ px py))
    | some mask => .ok (some (gridMasked p.mog k mask px py))
  | none =>
    let minval := a.minval.getD 0
    if minval > 0 ∨ a.minradius.isSome then
      match radiusFor p a.radius minval with
      | .error e => .error e
      | .ok rr =>
        let b := extent px py rr a.clip
        if b.x0 ≥ b.x1 ∨ b.y0 ≥ b.y1 then .ok none
        else gridApprox p.mog b px py minval ((a.minradius.map trunc).getD 3)
    else
      match a.radius.or p.radius with
      | none => .error .typeErr
      | some r =>
        let b := extent px py r a.clip
        if b.x0 ≥ b.x1 ∨ b.y0 ≥ b.y1 then .ok none else .ok (some (grid p.mog b px py))

/-- `PointSource`: its pixel position in the image and the attributes `fixedRadius` and `minRadius`. -/
structure Star where
  px : ℝ
  py : ℝ
  fixedRadius : Option ℝ := none
  minRadius : Option ℝ := none

/-- `PointSource.getUnitFluxModelPatch(img, minval, modelMask)`, pointsource.py 102-126, in an image of shape `(H, W)`. -/
def starPatch (p : GPsf) (s : Star) (H W : Nat) (minval : Option ℝ) (mask : Option ModelMask) : Except PyErr (Option (Patch ℝ)) :=
  match s.fixedRadius.or p.radius with
  | none => .error .typeErr
  | some r =>
    if s.px + r < 0 ∨ s.px - r > W ∨ s.py + r < 0 ∨ s.py - r > H then .ok none
    else
      let clip := match mask with
        | none => some ((0 : Int), (W : Int), (0 : Int), (H : Int))
        | some _ => none
      pointSourcePatch p s.px s.py ⟨minval, s.fixedRadius, s.minRadius, mask, clip⟩

end

end Verif.Star
