import Verif.Params.Model
import Mathlib.Algebra.Field.Basic

/-!
# World coordinate systems and wrappers

`NullWCS`, `WcslibWcs`, `ConstantFitsWcs`, `TanWcs` (tractor/wcs.py), `ShiftedWcs`, `ScaledWcs`,
`ShiftedPsf`, `ScaledPhotoCal` (tractor/shifted.py), `TractorWCSWrapper` (tractor/basics.py) and the
default methods of `ducks.WCS` (tractor/ducks.py).  Sky projections of the wrapped library objects are
arbitrary functions; numbers are the elements of a field.
-/

namespace Verif.Coords

open Verif

variable {R : Type}

/-- Position objects as far as their attributes matter: `PixPos` has `.x`, `.y`; `RaDecPos` has `.ra`,
`.dec`; a plain tuple has none of them (`NullWCS.pixelToPosition` returns one, wcs.py 33-34). -/
inductive Pos (R : Type) where
  | pix (x y : R)
  | radec (ra dec : R)
  | tuple (x y : R)
  deriving DecidableEq, Repr

/-- A 2x2 matrix by rows. -/
structure Mat (R : Type) where
  a : R
  b : R
  c : R
  d : R
  deriving DecidableEq, Repr

/-- A wrapped library object (`Tan`, `Sip`, `anwcs`): `radec2pixelxy`, `pixelxy2radec` (FITS pixels),
`get_cd`, and `cosd dec = np.cos(np.deg2rad(dec))`. -/
structure Ext (R : Type) where
  toPix : R → R → R × R
  toSky : R → R → R × R
  cd : Mat R
  cosd : R → R

/-- WCS objects.  `null pixscale dx dy`: `NullWCS`; `fits e x0 y0`: `ConstantFitsWcs`, `TanWcs`;
`wcslib e x0 y0`: `WcslibWcs`; `shifted w x0 y0`: `ShiftedWcs`; `scaled w f`: `ScaledWcs`. -/
inductive Wcs (R : Type) where
  | null (pixscale dx dy : R)
  | fits (e : Ext R) (x0 y0 : R)
  | wcslib (e : Ext R) (x0 y0 : R)
  | shifted (w : Wcs R) (x0 y0 : R)
  | scaled (w : Wcs R) (factor : R)

section
variable [Field R]

/-- Multiplication of all matrix elements with a number. -/
def Mat.smul (k : R) (m : Mat R) : Mat R := ⟨k * m.a, k * m.b, k * m.c, k * m.d⟩

/-- `positionToPixel`: wcs.py 30-31 (NullWCS), 120-123 (WcslibWcs), 201-214 (ConstantFitsWcs); shifted.py
149-153 (ScaledWcs), 184-186 (ShiftedWcs).  A position without the attributes gives AttributeError. -/
def positionToPixel : Wcs R → Pos R → Except PyErr (R × R)
  | .null _ dx dy, p =>
    match p with
    | .pix x y => .ok (x + dx, y + dy)
    | _ => .error .attribute
  | .fits e x0 y0, p =>
    match p with
    | .radec ra dec => .ok ((e.toPix ra dec).1 - 1 - x0, (e.toPix ra dec).2 - 1 - y0)
    | _ => .error .attribute
  | .wcslib e x0 y0, p =>
    match p with
    | .radec ra dec => .ok ((e.toPix ra dec).1 - 1 - x0, (e.toPix ra dec).2 - 1 - y0)
    | _ => .error .attribute
  | .shifted w x0 y0, p => (positionToPixel w p).map (fun q => (q.1 - x0, q.2 - y0))
  | .scaled w f, p =>
    (positionToPixel w p).map (fun q => ((q.1 + 1 / 2) * f - 1 / 2, (q.2 + 1 / 2) * f - 1 / 2))

/-- `pixelToPosition`: wcs.py 33-34, 125-129, 216-223; shifted.py 188-190.  `ScaledWcs` has no such
method. -/
def pixelToPosition : Wcs R → R → R → Except PyErr (Pos R)
  | .null _ dx dy, x, y => .ok (.tuple (x - dx) (y - dy))
  | .fits e x0 y0, x, y =>
    .ok (.radec (e.toSky (x + 1 + x0) (y + 1 + y0)).1 (e.toSky (x + 1 + x0) (y + 1 + y0)).2)
  | .wcslib e x0 y0, x, y =>
    .ok (.radec (e.toSky (x + 1 + x0) (y + 1 + y0)).1 (e.toSky (x + 1 + x0) (y + 1 + y0)).2)
  | .shifted w x0 y0, x, y => pixelToPosition w (x + x0) (y + y0)
  | .scaled _ _, _, _ => .error .attribute

/-- `cdAtPixel`: wcs.py 36-37 with 25-28 (NullWCS), 131-148 (WcslibWcs: one-pixel differences), 225-231
(ConstantFitsWcs); shifted.py 144-147 (ScaledWcs), 181-182 (ShiftedWcs). -/
def cdAtPixel : Wcs R → R → R → Mat R
  | .null s _ _, _, _ => ⟨s / 3600, 0, 0, s / 3600⟩
  | .fits e _ _, _, _ => e.cd
  | .wcslib e x0 y0, x, y =>
    let p0 := e.toSky (x + 1 + x0) (y + 1 + y0)
    let p1 := e.toSky (x + 2 + x0) (y + 1 + y0)
    let p2 := e.toSky (x + 1 + x0) (y + 2 + y0)
    ⟨(p1.1 - p0.1) * e.cosd p0.2, (p2.1 - p0.1) * e.cosd p0.2, p1.2 - p0.2, p2.2 - p0.2⟩
  | .shifted w x0 y0, x, y => cdAtPixel w (x + x0) (y + y0)
  | .scaled w f, x, y =>
    (cdAtPixel w ((x + 1 / 2) / f - 1 / 2) ((y + 1 / 2) * f - 1 / 2)).smul (1 / f)

/-- `shifted(dx, dy)`: wcs.py 48-49 (`NullWCS`: a copy, and `BaseParams.copy`, utils.py 206-207, calls the
constructor without arguments), 181-185 and 309-313 (`ConstantFitsWcs`, `TanWcs`).  The others have no such
method (`ducks.ImageCalibration` is not a `ducks.WCS`; `WcslibWcs` likewise). -/
def shiftedBy : Wcs R → R → R → Except PyErr (Wcs R)
  | .null _ _ _, _, _ => .ok (.null 1 0 0)
  | .fits e x0 y0, dx, dy => .ok (.fits e (x0 + dx) (y0 + dy))
  | _, _, _ => .error .attribute

/-- `np.linalg.inv` of a 2x2 matrix (singular: LinAlgError, here `value`). -/
def Mat.inv [DecidableEq R] (m : Mat R) : Except PyErr (Mat R) :=
  let det := m.a * m.d - m.b * m.c
  if det = 0 then .error .value else .ok ⟨m.d / det, -m.b / det, -m.c / det, m.a / det⟩

/-- `cdInverseAtPosition`: wcs.py 39-43 (NullWCS), 170-171 with 233-234 and ducks.py 409-411
(ConstantFitsWcs: the inverse of its constant CD matrix).  The others have no such method. -/
def cdInverseAtPosition [DecidableEq R] : Wcs R → Pos R → Except PyErr (Mat R)
  | .null s _ _, _ => .ok ⟨1 / (s / 3600), 0, 0, 1 / (s / 3600)⟩
  | .fits e x0 y0, p =>
    match positionToPixel (.fits e x0 y0) p with
    | .error err => .error err
    | .ok _ => e.cd.inv
  | _, _ => .error .attribute

/-! ### TractorWCSWrapper -/

/-- `TractorWCSWrapper.pixelxy2radec`, basics.py 136-139: FITS pixels; needs `.ra`, `.dec`. -/
def wrapperToSky (w : Wcs R) (x0 y0 : R) (x y : R) : Except PyErr (R × R) :=
  match pixelToPosition w (x + x0 - 1) (y + y0 - 1) with
  | .ok (.radec ra dec) => .ok (ra, dec)
  | .ok _ => .error .attribute
  | .error e => .error e

/-- `TractorWCSWrapper.radec2pixelxy` of two numbers, basics.py 141-165. -/
def wrapperToPix (w : Wcs R) (x0 y0 : R) (ra dec : R) : Except PyErr (R × R) :=
  (positionToPixel w (.radec ra dec)).map (fun q => (q.1 - x0 + 1, q.2 - y0 + 1))

end

/-! ### ShiftedPsf -/

/-- A rendered patch: origin and pixels. -/
structure Stamp (R A : Type) where
  x0 : R
  y0 : R
  data : A
  deriving DecidableEq, Repr

/-- The mask argument: a `ModelMask` has no attribute `.patch`, a `Patch` has. -/
inductive MaskArg (R A : Type) where
  | modelMask (x0 y0 : R) (data : A)
  | patch (x0 y0 : R) (data : A)
  deriving DecidableEq, Repr

/-- A PSF: position, extent, mask to a patch (None if there is nothing) or an exception. -/
abbrev Render (R A : Type) : Type :=
  R → R → Option (R × R × R × R) → Option (MaskArg R A) → Except PyErr (Option (Stamp R A))

/-- `ShiftedPsf.getPointSourcePatch` with `derivs=False`, shifted.py 79-112. -/
def shiftedPsf {A : Type} [Field R] (psf : Render R A) (x0 y0 : R) : Render R A := fun px py extent mask =>
  let extent' := extent.map (fun e => (e.1 + x0, e.2.1 + x0, e.2.2.1 + y0, e.2.2.2 + y0))
  match mask with
  | some (.modelMask _ _ _) => .error .attribute
  | some (.patch mx my data) =>
    (psf (x0 + px) (y0 + py) extent' (some (.patch (mx + x0) (my + y0) data))).map
      (fun p => p.map (fun p => ⟨p.x0 - x0, p.y0 - y0, p.data⟩))
  | none =>
    (psf (x0 + px) (y0 + py) extent' none).map (fun p => p.map (fun p => ⟨p.x0 - x0, p.y0 - y0, p.data⟩))

end Verif.Coords
