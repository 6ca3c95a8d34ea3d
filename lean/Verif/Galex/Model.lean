import Verif.Py
import Mathlib.Algebra.Order.Floor.Ring

/-!
# Model of the reading of GALEX images

tractor/galex.py 18-130 `galex_read_image` with the methods of `WcslibWcs` (tractor/wcs.py 52-147) that it calls.
-/

namespace Verif.Galex

variable {K A : Type} [Field K] [LinearOrder K] [FloorRing K]

/-- The methods of the wcslib object (astrometry), in FITS pixels; the flags that they return are not looked at.  All results are finite numbers (NaN from a failed conversion would
end in ValueError at galex.py 80-83). -/
structure Wcslib (K : Type) where
  radec2pixelxy : K → K → K × K
  pixelxy2radec : K → K → K × K

/-- `WcslibWcs`, wcs.py 62-70: the object and the offsets, at first 0. -/
structure Wcs (K : Type) where
  lib : Wcslib K
  x0 : K
  y0 : K

/-- `positionToPixel`, wcs.py 121-124. -/
def Wcs.positionToPixel (w : Wcs K) (ra dec : K) : K × K :=
  ((w.lib.radec2pixelxy ra dec).1 - 1 - w.x0, (w.lib.radec2pixelxy ra dec).2 - 1 - w.y0)

/-- `cdAtPixel`, wcs.py 132-147, as four entries; `cosd` is the cosine of an angle in degrees. -/
def Wcs.cdAtPixel (cosd : K → K) (w : Wcs K) (x y : K) : K × K × K × K :=
  let p0 := w.lib.pixelxy2radec (x + 1 + w.x0) (y + 1 + w.y0)
  let p1 := w.lib.pixelxy2radec (x + 2 + w.x0) (y + 1 + w.y0)
  let p2 := w.lib.pixelxy2radec (x + 1 + w.x0) (y + 2 + w.y0)
  let cosdec := cosd p0.2
  ((p1.1 - p0.1) * cosdec, (p2.1 - p0.1) * cosdec, p1.2 - p0.2, p2.2 - p0.2)

/-- `pixel_scale`, wcs.py 109-111. -/
def Wcs.pixelScale (cosd sqrt : K → K) (w : Wcs K) : K :=
  let cd := w.cdAtPixel cosd w.x0 w.y0
  sqrt |cd.1 * cd.2.2.2 - cd.2.1 * cd.2.2.1| * 3600

/-- The intensity image of the file, galex.py 47-48: height, width and pixels (row, column). -/
structure Intensity (A : Type) where
  h : Nat
  w : Nat
  at' : Nat → Nat → A

/-- What the returned `Image` holds, galex.py 101-129: the pixels, the WCS, the zeropoint given to `NanoMaggies.zeropointToScale`, the width of the PSF, `extent`.  The inverse
variance (all ones), the zero sky, the name and `zr` are left out. -/
structure Tim (K A : Type) where
  h : Nat
  w : Nat
  data : Nat → Nat → A
  wcs : Wcs K
  zp : K
  sigma : K
  extent : Int × Int × Int × Int

/-- `np.clip(v, 0, n)`. -/
def clip (v : Int) (n : Nat) : Int := min (max v 0) n

/-- The corners of the region in pixels, galex.py 68-71. -/
def corners (w : Wcs K) (r : K × K × K × K) : List (K × K) :=
  [w.positionToPixel r.1 r.2.2.1, w.positionToPixel r.1 r.2.2.2, w.positionToPixel r.2.1 r.2.2.1, w.positionToPixel r.2.1 r.2.2.2]

/-- `.min()` of four values. -/
def low (l : List K) : K := l.tail.foldl min (l.headD 0)

/-- `.max()` of four values. -/
def high (l : List K) : K := l.tail.foldl max (l.headD 0)

/-- The zeropoints, galex.py 108-109. -/
def zeropoint (band : String) : Option K :=
  if band = "NUV" then some (2008 / 100) else if band = "FUV" then some (1882 / 100) else none

/-- The widths of the PSF in arcseconds, galex.py 120. -/
def fwhm (band : String) : Option K := if band = "NUV" ∨ band = "FUV" then some 6 else none

/-- The rest of the function with the clipped corners of the region, galex.py 90-130. -/
def cut (cosd sqrt : K → K) (img : Intensity A) (lib : Wcslib K) (nanomaggies : Bool) (band : String) (x0 x1 y0 y1 : Int) : Except PyErr (Option (Tim K A)) :=
  if x0 = x1 ∨ y0 = y1 then .ok none
  else if ¬ x0 < x1 then .error .assertion
  else if ¬ y0 < y1 then .error .assertion
  else if !nanomaggies then .error .assertion
  else
    let twcs : Wcs K := ⟨lib, x0, y0⟩
    match zeropoint band with
    | none => .error .key
    | some zp =>
      match fwhm band with
      | none => .error .key
      | some f =>
        .ok (some ⟨(y1 - y0).toNat, (x1 - x0).toNat, fun j i => img.at' (y0.toNat + j) (x0.toNat + i), twcs, zp, f / (235 / 100) / twcs.pixelScale cosd sqrt, (x0, x1, y0, y1)⟩)

/-- `galex_read_image(basefn, radecroi, nanomaggies, band)`, galex.py 18-130, with the image and the WCS of the file.  Without `radecroi` the test of line 78 reads the local
variable `roi` that has no value: UnboundLocalError, a NameError.  A scale of zero gives an infinite width in numpy, not modelled. -/
def readImage (cosd sqrt : K → K) (img : Intensity A) (lib : Wcslib K) (radecroi : Option (K × K × K × K)) (nanomaggies : Bool) (band : String) : Except PyErr (Option (Tim K A)) :=
  match radecroi with
  | none => .error .nameErr
  | some r =>
    let xy := corners ⟨lib, 0, 0⟩ r
    let x0 := low (xy.map (·.1))
    let x1 := high (xy.map (·.1)) + 1
    let y0 := low (xy.map (·.2))
    let y1 := high (xy.map (·.2)) + 1
    cut cosd sqrt img lib nanomaggies band (clip ⌊x0⌋ img.w) (clip ⌈x1⌉ img.w) (clip ⌊y0⌋ img.h) (clip ⌈y1⌉ img.h)

end Verif.Galex
