import Verif.Py
import Verif.Mog.Model
import Mathlib.Algebra.Order.Field.Basic

/-!
# Images in FITS files, and copies of images

tractor/image.py `Image` (constructor, `setInvvar`, `getInvvar`, `copy`, `toFits`, `getFitsHeader`, `readFromFits`); ducks.py
`ImageCalibration.toFitsHeader`, `fromFitsHeader` for the calibration classes below; psf.py `GaussianMixturePSF.fromFitsHeader`.

Headers are lists of records, the newest first; adding a record with the name of an older one replaces it.  (fitsio ignores the case of
names; here names are compared as they are.)  Records `…A0`, `…A1`, … which `fromFitsHeader` passes to the constructor are never
written and taken to be absent.
-/

namespace Verif.Img

open Verif.Mog (MogParams NCirc)

variable {R I : Type}

/-- The value of a record. -/
inductive Val (R : Type) where
  | str (s : String)
  | num (r : R)
  deriving DecidableEq, Repr

/-- A FITS header. -/
abbrev Header (R : Type) := List (String × Val R)

/-- `hdr.add_record(dict(name=k, value=v))`. -/
def addRecord (h : Header R) (k : String) (v : Val R) : Header R := (k, v) :: h

/-- `hdr[k]`, `k in hdr`: the newest record of that name. -/
def record (h : Header R) (k : String) : Option (Val R) := (h.find? (fun r => decide (r.1 = k))).map (·.2)

/-! ### Calibrations -/

/-- PSFs: `GaussianMixturePSF`, `NCircularGaussianPSF`, `PixelizedPSF` (of sampling 1). -/
inductive Psf (R I : Type) where
  | mixture (m : MogParams R)
  | circ (p : NCirc R)
  | pixels (im : I)
  deriving DecidableEq, Repr

/-- WCS: `NullWCS(pixscale, dx, dy)`, `ConstantFitsWcs` of some underlying WCS with offset `x0, y0`. -/
inductive Wcs (R : Type) where
  | null (pixscale dx dy : R)
  | fits (wcs : Nat) (x0 y0 : R)
  deriving DecidableEq, Repr

/-- Skies: `NullSky`, `ConstantSky`. -/
inductive Sky (R : Type) where
  | null
  | constant (v : R)
  deriving DecidableEq, Repr

/-- Photometric calibrations: `NullPhotoCal`, `LinearPhotoCal`, `MagsPhotoCal`, `FluxesPhotoCal`. -/
inductive Phot (R : Type) where
  | null
  | linear (scale : R) (band : Option String)
  | mags (band : String) (zp : R)
  | fluxes (band : String)
  deriving DecidableEq, Repr

/-- `'%s.%s' % (tt.__module__, tt.__name__)`, image.py 236-237. -/
def Psf.name : Psf R I → String
  | .mixture _ => "tractor.psf.GaussianMixturePSF"
  | .circ _ => "tractor.psf.NCircularGaussianPSF"
  | .pixels _ => "tractor.psf.PixelizedPSF"

/-- image.py 238-239. -/
def Wcs.name : Wcs R → String
  | .null _ _ _ => "tractor.wcs.NullWCS"
  | .fits _ _ _ => "tractor.wcs.ConstantFitsWcs"

/-- image.py 240-241. -/
def Sky.name : Sky R → String
  | .null => "tractor.sky.NullSky"
  | .constant _ => "tractor.sky.ConstantSky"

/-- image.py 242-243. -/
def Phot.name : Phot R → String
  | .null => "tractor.brightness.NullPhotoCal"
  | .linear _ _ => "tractor.brightness.LinearPhotoCal"
  | .mags _ _ => "tractor.brightness.MagsPhotoCal"
  | .fluxes _ => "tractor.brightness.FluxesPhotoCal"

/-- What is written of a PSF: `zip(self.getParamNames(), self.getAllParams())` – all parameters, as many as are thawed (C69). -/
def Psf.written : Psf R I → List R
  | .mixture m => m.getAllParams.take (m.liquid.filter id).length
  | .circ p => (p.sigmas.map (·.1) ++ p.weights.map (·.1)).take ((p.sigmas ++ p.weights).filter (·.2)).length
  | .pixels _ => []

/-- Of a WCS: these have no parameters. -/
def Wcs.written : Wcs R → List R
  | .null _ _ _ => []
  | .fits _ _ _ => []

/-- Of a sky. -/
def Sky.written : Sky R → List R
  | .null => []
  | .constant v => [v]

/-- Of a photometric calibration. -/
def Phot.written : Phot R → List R
  | .null => []
  | .linear s _ => [s]
  | .mags _ zp => [zp]
  | .fluxes _ => []

/-- The name of the `i`-th parameter's record: `prefix + 'P%i' % i` with the prefix `prefix + 'PSF_'`, ducks.py 167, image.py 252-255. -/
def paramKey (pre tag : String) (i : Nat) : String := pre ++ (tag ++ ("_P" ++ Nat.repr i))

/-- The name of the record of the class, image.py 244-251. -/
def classKey (pre tag : String) : String := pre ++ tag

/-- `toFitsHeader(hdr, prefix)`, ducks.py 163-168, from the `i`-th parameter on. -/
def writeFrom (pre tag : String) : Nat → List R → Header R → Header R
  | _, [], h => h
  | i, v :: l, h => writeFrom pre tag (i + 1) l (addRecord h (paramKey pre tag i) (.num v))

/-- The parameters in a header: `for i in range(100): …`, ducks.py 182-187, psf.py 410-415, from the `i`-th on, at most `fuel`.
(Strings cannot be parameters.) -/
def readFrom (pre tag : String) (h : Header R) : Nat → Nat → List R
  | 0, _ => []
  | fuel + 1, i =>
    match record h (paramKey pre tag i) with
    | some (.num v) => v :: readFrom pre tag h fuel (i + 1)
    | _ => []

/-- `hdr[k]` for the class; KeyError without. -/
def className (h : Header R) (k : String) : Except PyErr String :=
  match record h k with
  | some (.str s) => .ok s
  | some (.num _) => .error .attribute
  | none => .error .key

/-- Reading a PSF: the class, `fromFitsHeader`: that of `GaussianMixturePSF` (psf.py 407-424); the constructors of the other classes
need arguments (TypeError, ducks.py 181). -/
def readPsf [Field R] (h : Header R) (pre : String) : Except PyErr (Psf R I) :=
  match className h (classKey pre "PSF") with
  | .error e => .error e
  | .ok c =>
    let params := readFrom pre "PSF" h 100 0
    if c = "tractor.psf.GaussianMixturePSF" then
      if params.length = 0 ∨ params.length % 6 ≠ 0 then .error .runtime
      else
        let r := (Mog.fresh (List.replicate (params.length / 6) ⟨0, 0, 0, 0, 0, 0, 0⟩) : MogParams R).setParams params
        match r.2 with
        | some e => .error e
        | none => .ok (.mixture r.1)
    else if c = "tractor.psf.NCircularGaussianPSF" ∨ c = "tractor.psf.PixelizedPSF" then .error .typeErr
    else .error .attribute

/-- Reading a WCS: `NullWCS()`, and `setAllParams(params)`, which does nothing without parameters and otherwise is an
AssertionError (the class has none, utils.py 260-265); `ConstantFitsWcs()` lacks its argument. -/
def readWcs [Field R] (h : Header R) (pre : String) : Except PyErr (Wcs R) :=
  match className h (classKey pre "WCS") with
  | .error e => .error e
  | .ok c =>
    if c = "tractor.wcs.NullWCS" then
      match readFrom pre "WCS" h 100 0 with
      | [] => .ok (.null 1 0 0)
      | _ :: _ => .error .assertion
    else if c = "tractor.wcs.ConstantFitsWcs" then .error .typeErr
    else .error .attribute

/-- Reading a sky: `NullSky()`, or `ConstantSky()` and `setParams` with its assertion on the length (utils.py 351-353). -/
def readSky (h : Header R) (pre : String) : Except PyErr (Sky R) :=
  match className h (classKey pre "SKY") with
  | .error e => .error e
  | .ok c =>
    if c = "tractor.sky.NullSky" then
      match readFrom pre "SKY" h 100 0 with
      | [] => .ok .null
      | _ :: _ => .error .assertion
    else if c = "tractor.sky.ConstantSky" then
      match readFrom pre "SKY" h 100 0 with
      | [v] => .ok (.constant v)
      | _ => .error .assertion
    else .error .attribute

/-- Reading a photometric calibration: only the constructor of `NullPhotoCal` works without arguments. -/
def readPhot (h : Header R) (pre : String) : Except PyErr (Phot R) :=
  match className h (classKey pre "PHO") with
  | .error e => .error e
  | .ok c =>
    if c = "tractor.brightness.NullPhotoCal" then
      match readFrom pre "PHO" h 100 0 with
      | [] => .ok .null
      | _ :: _ => .error .assertion
    else if c = "tractor.brightness.LinearPhotoCal" ∨ c = "tractor.brightness.MagsPhotoCal" ∨ c = "tractor.brightness.FluxesPhotoCal" then
      .error .typeErr
    else .error .attribute

/-! ### Images -/

/-- The attributes of an `Image`: the pixels, the inverse errors (absent if neither `invvar` nor `inverr` was given), the calibrations
(the PSF is None by default), name, time, plotting range, `modelMinval`, and whether psf, wcs, photocal, sky are thawed. -/
structure Image (R I : Type) where
  data : List (List R)
  inverr : Option (List (List R))
  psf : Option (Psf R I)
  wcs : Wcs R
  phot : Phot R
  sky : Sky R
  name : Option String
  time : Option R
  zr : Option (R × R)
  minval : R
  liquid : List Bool
  deriving DecidableEq, Repr

/-- The constructor with inverse errors, image.py 16-65. -/
def mkImage [Field R] (data : List (List R)) (inverr : List (List R)) (psf : Option (Psf R I)) (wcs : Wcs R) (phot : Phot R) (sky : Sky R)
    (name : Option String) (time : Option R) : Image R I :=
  ⟨data, some inverr, psf, wcs, phot, sky, name, time, none, 0, [true, true, true, true]⟩

/-- `setInvvar(iv)`: `np.sqrt(iv)`, image.py 168-172. -/
def setInvvar (sqrt : R → R) (iv : List (List R)) : List (List R) := iv.map (·.map sqrt)

/-- `getInvvar()`, image.py 165-166. -/
def getInvvar [Field R] (im : Image R I) : Except PyErr (List (List R)) :=
  match im.inverr with
  | none => .error .attribute
  | some ie => .ok (ie.map (·.map (fun v => v ^ 2)))

/-- A FITS file: header, pixels, inverse variances. -/
structure File (R : Type) where
  header : Header R
  data : List (List R)
  invvar : List (List R)
  deriving DecidableEq, Repr

/-- `getFitsHeader(header, prefix)`, image.py 225-256.  Without PSF, `None.toFitsHeader` is an AttributeError. -/
def fitsHeader (im : Image R I) (h : Header R) (pre : String) : Except PyErr (Header R) :=
  match im.psf with
  | none => .error .attribute
  | some psf =>
    let h := addRecord h (classKey pre "PSF") (.str psf.name)
    let h := addRecord h (classKey pre "WCS") (.str im.wcs.name)
    let h := addRecord h (classKey pre "SKY") (.str im.sky.name)
    let h := addRecord h (classKey pre "PHO") (.str im.phot.name)
    let h := writeFrom pre "PSF" 0 psf.written h
    let h := writeFrom pre "WCS" 0 im.wcs.written h
    let h := writeFrom pre "SKY" 0 im.sky.written h
    .ok (writeFrom pre "PHO" 0 im.phot.written h)

/-- `toFits(fits, prefix, primheader)`, image.py 218-223; `h` is the given header (which is changed in place), or empty. -/
def toFits [Field R] (im : Image R I) (h : Header R) (pre : String) : Except PyErr (File R) :=
  match fitsHeader im h pre with
  | .error e => .error e
  | .ok h =>
    match getInvvar im with
    | .error e => .error e
    | .ok iv => .ok ⟨h, im.data, iv⟩

/-- `readFromFits(fits, prefix)`, image.py 190-216. -/
def readFromFits [Field R] (sqrt : R → R) (f : File R) (pre : String) : Except PyErr (Image R I) :=
  if f.data.map List.length ≠ f.invvar.map List.length then .error .assertion
  else do
    let psf ← readPsf f.header pre
    let wcs ← readWcs f.header pre
    let sky ← readSky f.header pre
    let phot ← readPhot f.header pre
    .ok (mkImage f.data (setInvvar sqrt f.invvar) (some psf) wcs phot sky none none)

/-! ### Copies -/

/-- `psf.copy()`: utils.py `MogParams.copy` (C45), psf.py 874-876 (C81), 148-149. -/
def Psf.copy [Field R] : Psf R I → Except PyErr (Psf R I)
  | .mixture m => m.copy.map .mixture
  | .circ p => p.copy.map .circ
  | .pixels im => .ok (.pixels im)

/-- `wcs.copy()`: `NullWCS` inherits `self.__class__(*self.getAllParams())` (utils.py 206-207) and has no parameters;
`ConstantFitsWcs.copy`, wcs.py 173-177. -/
def Wcs.copy [Field R] : Wcs R → Wcs R
  | .null _ _ _ => .null 1 0 0
  | .fits w x0 y0 => .fits w x0 y0

/-- `sky.copy()`: utils.py 206-207, 334-335. -/
def Sky.copy : Sky R → Sky R
  | .null => .null
  | .constant v => .constant v

/-- `photocal.copy()`: utils.py 206-207; brightness.py 324-325, 274-275, 251-252. -/
def Phot.copy : Phot R → Phot R
  | .null => .null
  | .linear s b => .linear s b
  | .mags b zp => .mags b zp
  | .fluxes b => .fluxes b

/-- `Image.copy()`, image.py 70-81. -/
def Image.copy [Field R] (im : Image R I) : Except PyErr (Image R I) :=
  match im.inverr with
  | none => .error .attribute
  | some ie =>
    match im.psf with
    | none => .error .attribute
    | some psf =>
      match psf.copy with
      | .error e => .error e
      | .ok psf => .ok (mkImage im.data ie (some psf) im.wcs.copy im.phot.copy im.sky.copy im.name im.time)

/-- Where a position is in the image: `NullWCS.positionToPixel`, wcs.py 31-32; the other WCS is a parameter. -/
def Wcs.toPixel [Field R] (base : Nat → R → R → R × R) (w : Wcs R) (x y : R) : R × R :=
  match w with
  | .null _ dx dy => (x + dx, y + dy)
  | .fits k x0 y0 => ((base k x y).1 - 1 - x0, (base k x y).2 - 1 - y0)

end Verif.Img
