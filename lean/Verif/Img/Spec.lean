import Verif.Img.Fits
import Verif.Mog.Props

/-!
# Images that FITS files and copies can represent
-/

namespace Verif.Img

open Verif.Mog (MogParams NCirc)

variable {R I : Type}

/-- A header has no records of an image under this prefix. -/
def Clean (h : Header R) (pre : String) : Prop :=
  ∀ tag ∈ ["PSF", "WCS", "SKY", "PHO"], ∀ i, record h (pre ++ (tag ++ ("_P" ++ Nat.repr i))) = none

/-- Images that can be written and read: inverse errors of the shape of the pixels, not negative; a Gaussian-mixture PSF of 1 to 16 components
with nothing frozen; no WCS, no photometric calibration; no or a constant sky. -/
structure Plain [Field R] [LinearOrder R] (im : Image R I) (ie : List (List R)) (m : MogParams R) : Prop where
  inverr : im.inverr = some ie
  shape : im.data.map List.length = ie.map List.length
  nonneg : ∀ row ∈ ie, ∀ v ∈ row, 0 ≤ v
  psf : im.psf = some (.mixture m)
  ok : m.OK
  thawed : m.liquid = List.replicate (6 * m.mog.length) true
  some : 1 ≤ m.mog.length
  few : m.mog.length ≤ 16
  wcs : im.wcs = .null 1 0 0
  phot : im.phot = .null

/-- What files and copies do not keep has its default. -/
def Default [Field R] (im : Image R I) : Prop := im.zr = none ∧ im.minval = 0 ∧ im.liquid = [true, true, true, true]

end Verif.Img
