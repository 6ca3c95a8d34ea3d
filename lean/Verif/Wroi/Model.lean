import Verif.Galex.Model

/-!
# Model of the regions of WISE level-1b images

wise/wise.py 62-112 (`read_wise_level1b`: `radecrad`, `radecroi`, `roi`), with `positionToPixel` and `pixel_scale` of tractor/wcs.py 203-216, 238-239 as parameters.
-/

namespace Verif.Wroi

open Verif.Galex (clip low high)

variable {K : Type} [Field K] [LinearOrder K] [FloorRing K]

/-- The arguments: a position with a radius (degrees), a rectangle in the sky `(ralo, rahi, declo, dechi)`, a rectangle of pixels. -/
structure Args (K : Type) where
  radecrad : Option (K × K × K)
  radecroi : Option (K × K × K × K)
  roi : Option (K × K × K × K)

/-- The rectangle of pixels after wise.py 69-86.  `pix` is `positionToPixel` (finite results), `scale` the pixel scale in arcseconds (not zero). -/
def region (pix : K → K → K × K) (scale : K) (a : Args K) : Option (K × K × K × K) :=
  let roi1 :=
    match a.radecrad with
    | none => a.roi
    | some (r, d, rad) =>
      let pixrad := rad / (scale / 3600)
      some ((pix r d).1 - pixrad, (pix r d).1 + pixrad + 1, (pix r d).2 - pixrad, (pix r d).2 + pixrad + 1)
  match a.radecroi with
  | none => roi1
  | some (ralo, rahi, declo, dechi) =>
    let xy := [pix ralo declo, pix ralo dechi, pix rahi declo, pix rahi dechi]
    some (low (xy.map (·.1)), high (xy.map (·.1)) + 1, low (xy.map (·.2)), high (xy.map (·.2)) + 1)

/-- Rounded and clipped, wise.py 88-112: none if the region is empty (the function returns None).  The offset of the WCS is set to `x0`, `y0`, or left at 0 without a region. -/
def window (w h : Nat) : Option (K × K × K × K) → Except PyErr (Option (Int × Int × Int × Int))
  | none => .ok (some (0, (w : Int), 0, (h : Int)))
  | some (a, b, c, d) =>
    let x0 := clip ⌊a⌋ w
    let x1 := clip ⌈b⌉ w
    let y0 := clip ⌊c⌋ h
    let y1 := clip ⌈d⌉ h
    if x0 = x1 ∨ y0 = y1 then .ok none
    else if ¬ x0 < x1 then .error .assertion
    else if ¬ y0 < y1 then .error .assertion
    else .ok (some (x0, x1, y0, y1))

/-- Both steps: the bounds of the pixels that are read. -/
def bounds (pix : K → K → K × K) (scale : K) (w h : Nat) (a : Args K) : Except PyErr (Option (Int × Int × Int × Int)) := window w h (region pix scale a)

end Verif.Wroi
