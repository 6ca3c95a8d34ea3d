import Verif.Arr
import Verif.Roi.Model
import Mathlib.Algebra.Order.Field.Basic

/-!
# Reading images: unWISE coadds and SDSS frames

wise/unwise.py 68-197 `get_unwise_tractor_image`, tractor/sdss.py 706-897 `_get_tractor_image_dr8`.  Files are what their readers (fitsio,
astrometry.sdss) return.  Positions on the sky have any type `P`.
-/

namespace Verif.Read

open Verif Roi

variable {P R S : Type}

/-- What is asked for: the arguments `roi`, `roiradecsize`, and the four corners of `roiradecbox`. -/
structure Request (P : Type) where
  roi : Option Region
  size : Option (P × Nat)
  box : Option (P × P × P × P)

/-- `interpret_roi(wcs, (H, W), roi, roiradecsize, roiradecbox)`, imageutils.py 5-60, for a WCS with `positionToPixel` `f`; `rnd` is `np.round`. -/
def ask (rnd : R → Int) (f : P → R × R) (H W : Nat) (q : Request P) : Option (Region × Bool) :=
  let px := fun p => (rnd (f p).1, rnd (f p).2)
  interpretRoi H W q.roi (q.size.map (fun e => ((px e.1).1, (px e.1).2, (e.2 : Int))))
    (q.box.map (fun e => (px e.1, px e.2.1, px e.2.2.1, px e.2.2.2)))

/-- `a[slice(y0, y1), slice(x0, x1)]`, unwise.py 117, sdss.py 805.  numpy's rule for slices is used for FITS files too; it matters for regions that
leave the image only. -/
def cut (a : Arr R) (r : Region) : Arr R := a.slice (some r.y0) (some r.y1) (some r.x0) (some r.x1)

/-- A WCS read from a file after `get_subimage(x0, y0, …)` (astrometry.util): pixel positions count from the corner. -/
def subPix [Field R] (f : P → R × R) (x0 y0 : R) : P → R × R := fun p => ((f p).1 - x0, (f p).2 - y0)

/-! ### unWISE -/

/-- An image file: pixels, the map from sky to pixels (counted from 0), and `MJDMIN`, `MJDMAX` of the header. -/
structure Frame (P R : Type) where
  img : Arr R
  pix : P → R × R
  mjd : Option R × Option R

/-- The kinds of files beside an image: inverse variances and numbers of exposures. -/
inductive What
  | iv
  | n
  deriving DecidableEq

/-- The files under a coadd directory for one tile and band (`unwise-<tile>-w<band>-…`): images by masked (`m`) or not (`u`), other files by kind,
masked or not, and compressed (`.fits.gz`) or not; `none`: does not exist. -/
structure Fs (P R : Type) where
  image : String → Bool → Option (Frame P R)
  plane : String → What → Bool → Bool → Option (Arr R)

/-- The compressed file, or else the one that is not, unwise.py 120-125. -/
def Fs.pick (fs : Fs P R) (d : String) (k : What) (m : Bool) : Option (Arr R) :=
  match fs.plane d k m true with
  | some a => some a
  | none => fs.plane d k m false

/-- What the loop over directories finds. -/
structure Found (P R : Type) where
  dir : String
  frame : Frame P R
  roi : Region
  iv : Arr R
  nm : Arr R
  nu : Arr R

/-- `for basedir in basedirs: …`, unwise.py 88-132: `.ok none` is `return None`, `.error ()` the IOError of 134-136. -/
def scan (rnd : R → Int) (fs : Fs P R) (masked : Bool) (q : Request P) : List String → Except Unit (Option (Found P R))
  | [] => .error ()
  | d :: ds =>
    match fs.image d masked with
    | none => scan rnd fs masked q ds
    | some f =>
      match ask rnd f.pix f.img.h f.img.w q with
      | none => .ok none
      | some (r, _) =>
        match fs.pick d .iv masked, fs.pick d .n masked, fs.pick d .n false with
        | some iv, some nm, some nu => .ok (some ⟨d, f, r, iv, nm, nu⟩)
        | _, _, _ => scan rnd fs masked q ds

/-- The attributes of the image returned that depend on the files.  The PSF, the sky of level 0, the calibration and the name are left out. -/
structure Tim (P R S : Type) where
  data : Arr R
  invvar : Arr R
  pix : P → R × R
  roi : Region
  nims : Arr R
  nuims : Arr R
  sig1 : S
  time : Option R

section
variable [Field R] [LinearOrder R]

/-- The pixels of `a` where `b` is positive, row by row: `a[b > 0]`. -/
def where' (a b : Arr R) : List R :=
  (List.range a.h).flatMap (fun y => (List.range a.w).filterMap (fun x => if 0 < b.px y x then some (a.px y x) else none))

/-- `invvar *= 0.25` for band 4, and 0 where there are no exposures, unwise.py 141-161. -/
def weights (band : Nat) (iv nm : Arr R) : Arr R :=
  let iv := if band = 4 then iv.map (· * (1 / 4)) else iv
  ⟨iv.h, iv.w, fun y x => if 0 < nm.px y x then iv.px y x else 0⟩

/-- `get_unwise_tractor_image(basedir, tile, band, masked=…, roi…)`, unwise.py 72-197; `dirs` is `basedir.split(':')`, `sig` is
`1. / np.sqrt(np.median(·))`. -/
def unwiseImage (rnd : R → Int) (sig : List R → S) (fs : Fs P R) (dirs : List String) (band : Nat) (masked : Bool) (q : Request P) :
    Except Unit (Option (Tim P R S)) :=
  match scan rnd fs masked q dirs with
  | .error e => .error e
  | .ok none => .ok none
  | .ok (some F) =>
    let nm := cut F.nm F.roi
    let nu := if masked then cut F.nu F.roi else nm
    let iv := weights band (cut F.iv F.roi) nm
    let time := match F.frame.mjd with
      | (some a, some b) => some ((a + b) / 2)
      | _ => none
    .ok (some ⟨cut F.frame.img F.roi, iv, subPix F.frame.pix F.roi.x0 F.roi.y0, F.roi, nm, nu, sig (where' iv nm), time⟩)

/-! ### SDSS -/

/-- A frame with its mask: pixels, the map from sky to pixels of `AsTrans`, inverse variances with and without `ignoreSourceFlux`, the constant inverse
variance at a pixel `(x, y)`, the pixels masked in one of the planes INTERP, SATUR, CR, GHOST, and whether there is any masked rectangle. -/
structure Sdss (P R : Type) where
  img : Arr R
  raw : P → R × R
  iv : Bool → Arr R
  ivAt : Bool → Int → Int → R
  mask : Nat → Nat → Bool
  rects : Bool

/-- An inverse variance: one number for the image, or an array. -/
inductive IV (R : Type)
  | const (v : R)
  | arr (a : Arr R)

/-- The attributes of the image returned that depend on the frame, and the position at which the PSF is taken. -/
structure STim (P R : Type) where
  data : Arr R
  invvar : IV R
  pix : P → R × R
  roi : Region
  psfAt : R × R

/-- `fpM.setMaskedPixels(plane, invvar, 0, roi=roi)` (astrometry.sdss) for the four planes, sdss.py 819-821: item assignment to a number raises
TypeError. -/
def setMasked (s : Sdss P R) (r : Region) : IV R → Except PyErr (IV R)
  | .const v => if s.rects then .error .typeErr else .ok (.const v)
  | .arr a => .ok (.arr ⟨a.h, a.w, fun y x => if s.mask (r.y0.toNat + y) (r.x0.toNat + x) then 0 else a.px y x⟩)

/-- `int(a / 2.)`: towards 0. -/
def half (a : Int) : Int := a.tdiv 2

/-- `_get_tractor_image_dr8(run, camcol, field, bandname, roi…, invvarIgnoresSourceFlux, invvarAtCenter, invvarAtCenterImage)`, sdss.py 706-897,
without the PSF itself.  The assertion of 789 is about what astrometry.sdss returns. -/
def sdssImage (rnd : R → Int) (s : Sdss P R) (ignore atCenter atCenterImage : Bool) (q : Request P) : Except PyErr (Option (STim P R)) :=
  let H := s.img.h
  let W := s.img.w
  match ask rnd s.raw H W q with
  | none => .ok none
  | some (r, hasroi) =>
    let atC := atCenter || atCenterImage
    let iv0 : IV R :=
      if atC then
        .const (if hasroi then s.ivAt ignore (half (r.x0 + r.x1)) (half (r.y0 + r.y1)) else s.ivAt ignore (half W) (half H))
      else .arr (s.iv ignore)
    let image := if hasroi then cut s.img r else s.img
    let iv1 : IV R :=
      if hasroi then
        match iv0 with
        | .const v => if atCenterImage then .arr ⟨image.h, image.w, fun _ _ => v⟩ else .const v
        | .arr a => .arr (cut a r)
      else iv0
    let masked : Except PyErr (IV R) := if !atC || atCenterImage then setMasked s r iv1 else .ok iv1
    match masked with
    | .error e => .error e
    | .ok iv => .ok (some ⟨image, iv, subPix s.raw (r.x0 + 1 / 2) (r.y0 + 1 / 2), r,
        ((r.x0 : R) + image.w / 2, (r.y0 : R) + image.h / 2)⟩)

end

end Verif.Read
