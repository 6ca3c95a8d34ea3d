import Verif.Psf.Model

/-!
# Model of PsfEx files

tractor/psfex.py `PsfExModel.__init__`, `writeto`, `copy`, `shifted`, and `PixelizedPsfEx.getShifted`.  `fitsio` and `fits_table` are taken to give back
the header cards and the table that were written (numbers and strings unchanged).
-/

namespace Verif.Pfile

open Verif

variable {R : Type}

/-- The value of a header card. -/
inductive HVal (R : Type) where
  | int (i : Int)
  | real (x : R)
  | str (s : String)
  deriving DecidableEq

/-- A FITS header; `hdr[key]` raises KeyError, `hdr.get(key)` is None for a missing card (or one without value). -/
abbrev Header (R : Type) := String → Option (HVal R)

/-- The value of a number. -/
def HVal.num [Field R] : HVal R → Option R
  | .int i => some (i : R)
  | .real x => some x
  | .str _ => none

/-- `value == k`. -/
def HVal.isInt [Field R] [DecidableEq R] (v : HVal R) (k : Int) : Bool :=
  match v with
  | .int i => i == k
  | .real x => x == (k : R)
  | .str _ => false

/-- `str.strip()`, for blanks. -/
def strip (s : String) : String := String.ofList ((s.toList.dropWhile (· == ' ')).reverse.dropWhile (· == ' ')).reverse

/-- `psf_mask` of a row of the table: images in two dimensions or in three (a list of planes of one shape). -/
inductive Mask (R : Type) where
  | flat (a : Arr R)
  | cube (planes : List (Arr R))

/-- A file: the column `psf_mask` of the table, and the header. -/
structure File (R : Type) where
  rows : List (Mask R)
  hdr : Header R

/-- The attributes of a `PsfExModel`; numbers are None if the header does not have them; the attribute `fwhm` may be missing (the outer `none`). -/
structure Model (R : Type) where
  sampling : Option (HVal R)
  bases : List (Arr R)
  xscale : Option (HVal R)
  yscale : Option (HVal R)
  degree : Int
  radius : R
  x0 : Option (HVal R)
  y0 : Option (HVal R)
  fwhm : Option (Option (HVal R))

section
variable [Field R] [DecidableEq R]

/-- `assert(hdr[key] == k)`. -/
def wantInt (h : Header R) (key : String) (k : Int) : Except PyErr Unit :=
  match h key with
  | none => .error .key
  | some v => if v.isInt k then .ok () else .error .assertion

/-- `assert(hdr[key].strip() in names)`. -/
def wantName (h : Header R) (key : String) (names : List String) : Except PyErr Unit :=
  match h key with
  | none => .error .key
  | some (.str s) => if strip s ∈ names then .ok () else .error .assertion
  | some _ => .error .attribute

/-- `degree = hdr.get('POLDEG1')`; a degree that is not an integer is refused here (None and strings fail in `degree + 1`, a real number only in
`polynomials`). -/
def getDegree (h : Header R) : Except PyErr Int :=
  match h "POLDEG1" with
  | some (.int d) => .ok d
  | _ => .error .typeErr

/-- psfex.py 174-194: `degree, x0, y0, xscale, yscale`. -/
def readTerms (h : Header R) : Except PyErr (Int × Option (HVal R) × Option (HVal R) × Option (HVal R) × Option (HVal R)) :=
  match h "POLNGRP" with
  | none => .error .key
  | some v =>
    if v.isInt 0 then .ok (0, some (.real 0), some (.real 0), some (.real 1), some (.real 1))
    else if v.isInt 1 then
      match wantName h "POLNAME1" ["X_IMAGE", "XWIN_IMAGE"] with
      | .error e => .error e
      | .ok () =>
        match wantName h "POLNAME2" ["Y_IMAGE", "YWIN_IMAGE"] with
        | .error e => .error e
        | .ok () =>
          match wantInt h "POLGRP1" 1 with
          | .error e => .error e
          | .ok () =>
            match wantInt h "POLGRP2" 1 with
            | .error e => .error e
            | .ok () => (getDegree h).map (fun d => (d, h "POLZERO1", h "POLZERO2", h "POLSCAL1", h "POLSCAL2"))
    else .error .assertion

/-- The number of terms, psfex.py 198, 256 (the product is even); 224 divides with `/`, which compares the same. -/
def nterms (degree : Int) : Int := (degree + 1) * (degree + 2) / 2

/-- The images, psfex.py 200-207 and 226-233: the planes as `float32` (`f32`), and the radius. -/
def takeBases (f32 : R → R) (ne : Int) : Mask R → Except PyErr (List (Arr R) × R)
  | .flat _ => .error .assertion
  | .cube planes =>
    if (planes.length : Int) = ne then
      match planes with
      | [] => .error .index
      | a :: _ => .ok (planes.map (fun p => { p with px := fun r c => f32 (p.px r c) }), ((a.h : R) + 1) / 2)
    else .error .assertion

/-- `PsfExModel(fn, ext)`, psfex.py 166-211. -/
def readFile (f32 : R → R) (f : File R) : Except PyErr (Model R) :=
  match f.rows with
  | [] => .error .index
  | mask :: _ =>
    match readTerms f.hdr with
    | .error e => .error e
    | .ok (degree, x0, y0, xscale, yscale) =>
      match wantInt f.hdr "PSFAXIS3" (nterms degree) with
      | .error e => .error e
      | .ok () =>
        match takeBases f32 (nterms degree) mask with
        | .error e => .error e
        | .ok (bases, radius) => .ok ⟨f.hdr "PSF_SAMP", bases, xscale, yscale, degree, radius, x0, y0, some (f.hdr "PSF_FWHM")⟩

/-- A row of a merged PsfEx table. -/
structure Row (R : Type) where
  psf_samp : HVal R
  poldeg1 : Int
  polname1 : String
  polname2 : String
  polgrp1 : Int
  polgrp2 : Int
  polngrp : Int
  polzero1 : HVal R
  polzero2 : HVal R
  polscal1 : HVal R
  polscal2 : HVal R
  psfaxis3 : Int
  psf_mask : Mask R
  psf_fwhm : HVal R

/-- `PsfExModel(Ti=row)`, psfex.py 213-234. -/
def readRow (f32 : R → R) (t : Row R) : Except PyErr (Model R) :=
  if 0 < t.poldeg1 ∧ ¬ (strip t.polname1 = "X_IMAGE" ∧ strip t.polname2 = "Y_IMAGE" ∧ t.polgrp1 = 1 ∧ t.polgrp2 = 1 ∧ t.polngrp = 1) then
    .error .assertion
  else if ¬ t.psfaxis3 = nterms t.poldeg1 then .error .assertion
  else
    match takeBases f32 (nterms t.poldeg1) t.psf_mask with
    | .error e => .error e
    | .ok (bases, radius) =>
      .ok ⟨some t.psf_samp, bases, some t.polscal1, some t.polscal2, t.poldeg1, radius, some t.polzero1, some t.polzero2, some (some t.psf_fwhm)⟩

/-- `hdr[key] = value`. -/
def setCard (h : Header R) (key : String) (v : Option (HVal R)) : Header R := fun k => if k = key then v else h k

/-- The cards written before the last one, psfex.py 241-256. -/
def cards (m : Model R) : Header R :=
  let h : Header R := fun _ => none
  let h := setCard h "POLNAME1" (some (.str "X_IMAGE"))
  let h := setCard h "POLNAME2" (some (.str "Y_IMAGE"))
  let h := setCard h "POLGRP1" (some (.int 1))
  let h := setCard h "POLGRP2" (some (.int 1))
  let h := setCard h "POLNGRP" (some (.int 1))
  let h := setCard h "PSFAXIS3" (some (.int (nterms m.degree)))
  let h := setCard h "POLZERO1" m.x0
  let h := setCard h "POLZERO2" m.y0
  let h := setCard h "POLSCAL1" m.xscale
  let h := setCard h "POLSCAL2" m.yscale
  let h := setCard h "POLDEG1" (some (.int m.degree))
  setCard h "PSF_SAMP" m.sampling

/-- `writeto(fn)`, psfex.py 236-257: the file written.  Without the attribute `fwhm` AttributeError is raised before anything is written. -/
def writeto (m : Model R) : Except PyErr (File R) :=
  match m.fwhm with
  | none => .error .attribute
  | some w => .ok ⟨[.cube m.bases], setCard (cards m) "PSF_FWHM" w⟩

/-- `value - d`; None and strings raise TypeError. -/
def minus (v : Option (HVal R)) (d : R) : Except PyErr (HVal R) :=
  match v with
  | none => .error .typeErr
  | some v =>
    match v.num with
    | none => .error .typeErr
    | some x => .ok (.real (x - d))

/-- `shifted(dx, dy)`, psfex.py 276-291: `fwhm` is not among the attributes copied. -/
def shifted (m : Model R) (dx dy : R) : Except PyErr (Model R) :=
  match minus m.x0 dx with
  | .error e => .error e
  | .ok x0 => (minus m.y0 dy).map (fun y0 => { m with x0 := some x0, y0 := some y0, fwhm := none })

/-- `copy()`, psfex.py 273-274. -/
def copy (m : Model R) : Except PyErr (Model R) := shifted m 0 0

/-- `PixelizedPsfEx.getShifted(dx, dy).psfex`, psfex.py 453-457 (`self.fwhm` is that of the model, 433). -/
def getShifted (m : Model R) (dx dy : R) : Except PyErr (Model R) := (shifted m dx dy).map (fun s => { s with fwhm := m.fwhm })

/-- `at(x, y)`, psfex.py 326-346, pixel `(r, c)`; TypeError if a number is missing (294-295).  A negative degree
(then no term is set) is taken as 0 here; the properties of `at` are for natural degrees. -/
def «at» (m : Model R) (x y : R) (r c : Nat) : Except PyErr R :=
  match m.x0.bind HVal.num, m.y0.bind HVal.num, m.xscale.bind HVal.num, m.yscale.bind HVal.num with
  | some x0, some y0, some xs, some ys => Psf.psfAt ⟨m.bases, m.degree.toNat, x0, y0, xs, ys, 0, m.radius, none⟩ x y r c
  | _, _, _, _ => .error .typeErr

end

end Verif.Pfile
