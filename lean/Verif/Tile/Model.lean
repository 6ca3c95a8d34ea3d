import Verif.Num
import Verif.Psf.Model
import Verif.Patch.Model
import Verif.Coords.Model
import Mathlib.Algebra.Order.Floor.Ring

/-!
# Subimages and the rendering of point sources

`Image.subimage` (tractor/image.py), `PointSource.getModelPatch` (tractor/pointsource.py) with the PSF
classes `PixelizedPSF`, `GaussianMixturePSF` (tractor/psf.py), `PixelizedPsfEx`, `VaryingGaussianPSF`
(tractor/psfex.py), `ShiftedPsf` (tractor/shifted.py), the sky classes (tractor/sky.py, splinesky.py), and
`Tractor.getModelImage`, `getChiImage` for one image (tractor/engine.py), all without model masks.  Numbers
are elements of an ordered field with floors; single precision is not modelled.
-/

namespace Verif.Tile

open Verif Verif.Patches Verif.Coords

variable {R B : Type}

section
variable [Field R] [LinearOrder R] [FloorRing R]

/-- The builtin `round`: to the nearest integer, halves to the even one. -/
def pyRound (x : R) : Int :=
  if x - ⌊x⌋ < 1 / 2 then ⌊x⌋
  else if 1 / 2 < x - ⌊x⌋ then ⌊x⌋ + 1
  else if ⌊x⌋ % 2 = 0 then ⌊x⌋ else ⌊x⌋ + 1

end

/-- A mixture of Gaussians as far as point sources need it: `val dx dy` is its value at an offset from the
position of the source (`evaluate_grid`, mixture_profiles.py 272-293), `approx x0 x1 y0 y1 px py minval
minradius` is `evaluate_grid_approx3` (its arguments in this order). -/
structure Mog (R : Type) where
  val : R → R → R
  approx : Int → Int → Int → Int → R → R → R → Option R → Option (Patch R)

/-- PSF objects.  `radius` is the attribute returned by `getRadius()`: `np.hypot(H/2., W/2.)` for the
pixelized classes (psf.py 96), 25 by default for the mixtures (psf.py 390, psfex.py 44-48); `inner` is the
radius of the `GaussianMixturePSF` that `VaryingGaussianPSF.psfAt` makes.  The sampling is 1. -/
inductive Psf (R : Type) where
  | pixelized (img : Arr R) (radius : R)
  | psfex (m : Psf.PsfEx R) (radius : R)
  | gauss (m : Mog R) (radius : R)
  | varying (mogAt : R → R → Mog R) (radius inner : R)
  | shifted (p : Psf R) (x0 y0 : Int)

/-- `getRadius()`: psf.py 131-132, 454-455, psfex.py 44-48, 470-471, shifted.py 114-115. -/
def Psf.getRadius : Psf R → R
  | .pixelized _ r => r
  | .psfex _ r => r
  | .gauss _ r => r
  | .varying _ r _ => r
  | .shifted p _ _ => p.getRadius

/-- `psf.getShifted(x0, y0)`: psf.py 123-125, 394-396 (the object itself), psfex.py 33-35 (a `ShiftedPsf`),
453-457.  `ShiftedPsf` has no such method: AttributeError. -/
def Psf.getShifted [Field R] : Psf R → Int → Int → Except PyErr (Psf R)
  | .pixelized i r, _, _ => .ok (.pixelized i r)
  | .psfex m r, x0, y0 => .ok (.psfex (Psf.shiftedPsfEx m x0 y0) r)
  | .gauss m r, _, _ => .ok (.gauss m r)
  | .varying m r i, x0, y0 => .ok (.shifted (.varying m r i) x0 y0)
  | .shifted _ _ _, _, _ => .error .attribute

/-- `PsfExModel.at(x, y)` as an array, psfex.py 326-346. -/
def psfExImage [Field R] (m : Psf.PsfEx R) (x y : R) : Except PyErr (Arr R) :=
  match m.bases with
  | [] => .error .index
  | b :: _ =>
    (Psf.polynomials m x y).map (fun terms =>
      ⟨b.h, b.w, fun r c => ((List.zip terms m.bases).map (fun tb => tb.1 * tb.2.px r c)).sum⟩)

/-- The rectangle of pixels evaluated, cut at `clipExtent = (xl, xh, yl, yh)`; psf.py 475-487. -/
def getExtent [Field R] [LinearOrder R] [FloorRing R] (px py rr : R) (clip : Option (Int × Int × Int × Int)) :
    Int × Int × Int × Int :=
  let x0 := ⌊px - rr⌋
  let x1 := ⌈px + rr⌉ + 1
  let y0 := ⌊py - rr⌋
  let y1 := ⌈py + rr⌉ + 1
  match clip with
  | none => (x0, x1, y0, y1)
  | some (xl, xh, yl, yh) => (max x0 xl, min x1 xh, max y0 yl, min y1 yh)

/-- The mixture evaluated in a rectangle, psf.py 510-518 (approximation) and 526-528. -/
def mogBox [Field R] [LinearOrder R] (m : Mog R) (px py minval : R) (minradius : Option R)
    (x0 x1 y0 y1 : Int) : Option (Patch R) :=
  if x0 ≥ x1 ∨ y0 ≥ y1 then none
  else if 0 < minval ∨ minradius.isSome then m.approx x0 x1 y0 y1 px py minval minradius
  else some ⟨x0, y0, some ⟨(y1 - y0).toNat, (x1 - x0).toNat,
    fun r c => m.val (((x0 + c : Int) : R) - px) (((y0 + r : Int) : R) - py)⟩⟩

/-- `GaussianMixturePSF.getPointSourcePatch` without mask and derivatives, psf.py 458-528 (the radius of the
PSF object is a number, so lines 498-507 are not reached). -/
def mogPatch [Field R] [LinearOrder R] [FloorRing R] (m : Mog R) (psfRadius px py minval : R)
    (radius minradius : Option R) (clip : Option (Int × Int × Int × Int)) : Option (Patch R) :=
  let (x0, x1, y0, y1) := getExtent px py (radius.getD psfRadius) clip
  mogBox m px py minval minradius x0 x1 y0 y1

/-- `PixelizedPSF.getPointSourcePatch` without mask, psf.py 137-170, for the stamp `img`. -/
def stampPatch [Field R] [LinearOrder R] [FloorRing R] (kern : R → Nat → R) (img : Arr R) (px py : R)
    (radius : Option R) : Except PyErr (Option (Patch R)) :=
  (Psf.render pyRound kern img px py (radius.map (fun r => ⌈r⌉.toNat)) none).map
    (fun o => o.map (fun s => ⟨s.x0, s.y0, some s.pix⟩))

/-- `psf.getPointSourcePatch(px, py, minval, radius=, minradius=, clipExtent=)` without mask and
derivatives.  Pixelized classes: psf.py 137-170 (other arguments ignored); mixtures: above;
`VaryingGaussianPSF`: psfex.py 73-75; `ShiftedPsf`: shifted.py 79-112 — `clipExtent` is one of the `kwargs`
and passed on as it is. -/
def Psf.getPointSourcePatch [Field R] [LinearOrder R] [FloorRing R] (kern : R → Nat → R) :
    Psf R → R → R → R → Option R → Option R → Option (Int × Int × Int × Int) →
      Except PyErr (Option (Patch R))
  | .pixelized img _, px, py, _, radius, _, _ => stampPatch kern img px py radius
  | .psfex m _, px, py, _, radius, _, _ =>
    match psfExImage m px py with
    | .error e => .error e
    | .ok img => stampPatch kern img px py radius
  | .gauss m r, px, py, minval, radius, minradius, clip =>
    .ok (mogPatch m r px py minval radius minradius clip)
  | .varying m _ i, px, py, minval, radius, minradius, clip =>
    .ok (mogPatch (m px py) i px py minval radius minradius clip)
  | .shifted p x0 y0, px, py, minval, radius, minradius, clip =>
    (p.getPointSourcePatch kern ((x0 : R) + px) ((y0 : R) + py) minval radius minradius clip).map
      (fun o => o.map (fun q => ⟨q.x0 - x0, q.y0 - y0, q.patch⟩))

/-- Sky objects: `NullSky`, `ConstantSky` (sky.py), `SplineSky` (splinesky.py 53-81): control points, order,
the interpolating function, the offset for subimages, the smoothness of its prior. -/
inductive Sky (R : Type) where
  | null
  | constant (v : R)
  | spline (xgrid ygrid : List R) (order : Nat) (spl : R → R → R) (x0 y0 : Int) (smooth : Option R)

/-- `sky.shifted(x0, y0)`: ducks.py 230-233, sky.py 50-56, splinesky.py 84-104.  `fit` is
`RectBivariateSpline(X, Y, bg.T, order)`, external; the values go in by rows (`get_grid`). -/
def Sky.shifted (fit : List R → List R → List (List R) → Nat → R → R → R) : Sky R → Int → Int → Sky R
  | .null, _, _ => .null
  | .constant v, _, _ => .constant v
  | .spline xg yg order spl a b _, x0, y0 =>
    .spline xg yg order (fit xg yg (yg.map (fun y => xg.map (fun x => spl x y))) order) (a + x0) (b + y0) none

/-- `sky.addTo(mod)`: ducks.py (nothing), sky.py 28-31, splinesky.py 129-135. -/
def Sky.addTo [Ring R] [DecidableEq R] : Sky R → Arr R → Arr R
  | .null, A => A
  | .constant v, A => if v = 0 then A else A.map (· + v)
  | .spline _ _ _ spl x0 y0 _, A =>
    ⟨A.h, A.w, fun r c => A.px r c + spl ((c : R) + (x0 : R)) ((r : R) + (y0 : R))⟩

/-- `Image`, image.py 22-64: the attributes that matter.  `photo` is `photocal.brightnessToCounts`; `inverr`
is missing if neither inverse variances nor errors were given.  (`NullWCS` etc. are the defaults; the
constructor sets `modelMinval` to 0.) -/
structure Image (R B : Type) where
  data : Arr R
  inverr : Option (Arr R)
  psf : Psf R
  wcs : Wcs R
  sky : Sky R
  photo : B → Num R
  name : Option String
  time : Option R
  modelMinval : R

/-- `Image.subimage(x0, x1, y0, y1)`, image.py 81-93.  `photocal.copy()` is taken to calibrate as the
original does. -/
def subimage [Field R] (fit : List R → List R → List (List R) → Nat → R → R → R) (im : Image R B)
    (x0 x1 y0 y1 : Int) : Except PyErr (Image R B) :=
  match im.inverr with
  | none => .error .attribute
  | some ie =>
    match shiftedBy im.wcs (x0 : R) (y0 : R) with
    | .error e => .error e
    | .ok wcs =>
      match im.psf.getShifted x0 y0 with
      | .error e => .error e
      | .ok psf =>
        .ok { data := im.data.slice (some y0) (some y1) (some x0) (some x1)
              inverr := some (ie.slice (some y0) (some y1) (some x0) (some x1))
              psf := psf, wcs := wcs, sky := im.sky.shifted fit x0 y0, photo := im.photo
              name := im.name, time := im.time, modelMinval := 0 }

/-- `PointSource`, pointsource.py 69-79. -/
structure Source (R B : Type) where
  pos : Pos R
  bright : B
  fixedRadius : Option R
  minRadius : Option R

section
variable [Field R] [LinearOrder R] [FloorRing R]

/-- `PointSource.getUnitFluxModelPatch(img, minval)`, pointsource.py 102-125. -/
def unitPatch (kern : R → Nat → R) (im : Image R B) (s : Source R B) (minval : R) :
    Except PyErr (Option (Patch R)) :=
  match positionToPixel im.wcs s.pos with
  | .error e => .error e
  | .ok (px, py) =>
    let r := s.fixedRadius.getD im.psf.getRadius
    if px + r < 0 ∨ px - r > (im.data.w : R) ∨ py + r < 0 ∨ py - r > (im.data.h : R) then .ok none
    else im.psf.getPointSourcePatch kern px py minval s.fixedRadius s.minRadius
      (some (0, (im.data.w : Int), 0, (im.data.h : Int)))

/-- `SingleProfileSource.getModelPatch(img)`, pointsource.py 36-60: sources without or with infinite counts
are left out (numbers that overflow in single precision not modelled). -/
def modelPatch (kern : R → Nat → R) (im : Image R B) (s : Source R B) : Except PyErr (Option (Patch R)) :=
  match im.photo s.bright with
  | .fin counts =>
    if counts = 0 then .ok none
    else
      match unitPatch kern im s (im.modelMinval / counts) with
      | .error e => .error e
      | .ok none => .ok none
      | .ok (some u) => .ok (some (u.mul counts))
  | _ => .ok none

/-- The loop over sources of `getModelImage`, engine.py 437-444. -/
def addSources (kern : R → Nat → R) (im : Image R B) : List (Source R B) → Arr R → Except PyErr (Arr R)
  | [], mod => .ok mod
  | s :: ss, mod =>
    match modelPatch kern im s with
    | .error e => .error e
    | .ok none => addSources kern im ss mod
    | .ok (some p) =>
      match p.addTo mod 1 with
      | .error e => .error e
      | .ok mod => addSources kern im ss mod

/-- `Tractor.getModelImage(img)`, engine.py 424-445, without masks. -/
def modelImage (kern : R → Nat → R) (im : Image R B) (srcs : List (Source R B)) : Except PyErr (Arr R) :=
  addSources kern im srcs (im.sky.addTo (Arr.zeros im.data.h im.data.w))

/-- The chi-squared of one image: the sum over pixels of `((img - mod) * inverr)**2`, engine.py 455-478. -/
def chisq (kern : R → Nat → R) (im : Image R B) (srcs : List (Source R B)) : Except PyErr R :=
  match modelImage kern im srcs with
  | .error e => .error e
  | .ok mod =>
    match im.inverr with
    | none => .error .attribute
    | some ie =>
      if im.data.h = mod.h ∧ im.data.w = mod.w ∧ im.data.h = ie.h ∧ im.data.w = ie.w then
        .ok ((Arr.ravel (⟨im.data.h, im.data.w,
          fun r c => (im.data.px r c - mod.px r c) * ie.px r c⟩ : Arr R)).map (fun x => x ^ 2)).sum
      else .error .value

end

end Verif.Tile
