import Verif.Py
import Mathlib.Analysis.SpecialFunctions.Pow.Real
import Mathlib.Analysis.SpecialFunctions.Log.Base

/-!
# Photometric calibrations from headers

tractor/cfht.py, the calibration of tractor/sdss_dr7.py, and how an optimizer steps their parameter.  Numbers are real; an exposure time is
what the header says.  The fetching of data for DR7 is not modelled: see `load`.
-/

namespace Verif.Cfht

noncomputable section

/-- The header: `EXPTIME`, `PHOT_C`, `PHOT_K`, `AIRMASS`. -/
structure Header where
  exptime : ℝ
  photC : ℝ
  photK : ℝ
  airmass : ℝ

/-- `NanoMaggies.magToNanomaggies(mag)`, brightness.py 200-203. -/
def magToNanomaggies (mag : ℝ) : ℝ := 10 ^ ((mag - 22.5) / -2.5)

/-- `NanoMaggies.zeropointToScale(zp)`, brightness.py 210-217. -/
def zeropointToScale (zp : ℝ) : ℝ := 10 ^ ((zp - 22.5) / 2.5)

/-- A `CfhtLinearPhotoCal`: scale, band, and the attributes that come from a header, if there was one. -/
structure Linear where
  scale : ℝ
  band : Option String
  hdr : Option Header

/-- `CfhtLinearPhotoCal(hdr, bandname, scale)`, cfht.py 32-50. -/
def Linear.mk' (hdr : Option Header) (band : Option String) (scale : ℝ) : Linear :=
  match hdr with
  | none => ⟨scale, band, none⟩
  | some h =>
    let zpt := 2.5 * Real.logb 10 h.exptime + h.photC + h.photK * (h.airmass - 1)
    ⟨zeropointToScale zpt, band, some h⟩

/-- `CfhtLinearPhotoCal.copy()`, cfht.py 52-58: reading `self.exptime` of an object made without header is an `AttributeError`. -/
def Linear.copy (c : Linear) : Except PyErr Linear :=
  let n := Linear.mk' none c.band c.scale
  match c.hdr with
  | none => .error .attribute
  | some h => .ok { n with hdr := some h }

/-- `LinearPhotoCal.brightnessToCounts` for the flux in its band, brightness.py 339-344. -/
def Linear.counts (c : Linear) (flux : ℝ) : ℝ := flux * c.scale

/-- A `CfhtPhotoCal`; the parameter `phot_c` can be made `None`. -/
structure Cal where
  exptime : ℝ
  photC : Option ℝ
  photK : ℝ
  airmass : ℝ
  band : Option String

/-- `CfhtPhotoCal(hdr, bandname)` with a header, cfht.py 62-76. -/
def Cal.mk' (h : Header) (band : Option String) : Cal := ⟨h.exptime, some h.photC, h.photK, h.airmass, band⟩

/-- `CfhtPhotoCal.brightnessToCounts` for the magnitude in its band, cfht.py 100-103. -/
def Cal.counts (c : Cal) (M : ℝ) : Except PyErr ℝ :=
  match c.photC with
  | none => .error .typeErr
  | some p =>
    let logc := (M - p - c.photK * (c.airmass - 1)) / -2.5
    .ok (c.exptime * 10 ^ logc)

/-- `CfhtPhotoCal.getParams()`, cfht.py 87-88. -/
def Cal.getParams (c : Cal) : List (Option ℝ) := [c.photC]

/-- `CfhtPhotoCal.setParam(i, p)`, cfht.py 93-95: the object and what is returned, always `None`. -/
def Cal.setParam (c : Cal) (i : Nat) (p : Option ℝ) : Except PyErr (Cal × Option ℝ) :=
  if i = 0 then .ok ({ c with photC := p }, none) else .error .assertion

/-- `CfhtPhotoCal.copy()`, cfht.py 81-85: through a header with the present values. -/
def Cal.copy (c : Cal) : Cal := ⟨c.exptime, c.photC, c.photK, c.airmass, c.band⟩

/-- `CfhtPhotoCal.hashkey()`, cfht.py 78-79, without the name of the class. -/
def Cal.hashkey (c : Cal) : ℝ × Option ℝ × ℝ × ℝ := (c.exptime, c.photC, c.photK, c.airmass)

/-- `brightnessToCounts(brightness)` for a brightness with a magnitude in each band, cfht.py 100-103. -/
def Cal.countsOf (c : Cal) (mag : Option String → ℝ) : Except PyErr ℝ := c.counts (mag c.band)

/-- A step by `h` as engine.py 318-320 takes it for a parameter of an image: `oldval = setParam(i, p0 + h)`, the model, `setParam(i, oldval)`.
Returns the object afterwards and the counts in between. -/
def Cal.step (c : Cal) (h M : ℝ) : Except PyErr (Cal × ℝ) :=
  match c.photC with
  | none => .error .typeErr
  | some p =>
    match c.setParam 0 (some (p + h)) with
    | .error e => .error e
    | .ok (c', old) =>
      match c'.counts M with
      | .error e => .error e
      | .ok n =>
        match c'.setParam 0 old with
        | .error e => .error e
        | .ok (c'', _) => .ok (c'', n)

/-- `SdssMagsPhotoCal.brightnessToCounts` for the magnitude in its band (`none`: not finite), sdss_dr7.py 261-274. -/
def sdssCounts (exptime aa kk airmass : ℝ) (mag : Option ℝ) : ℝ :=
  match mag with
  | none => 0
  | some m =>
    if m > 50 then 0
    else
      let logcounts := -0.4 * m + Real.logb 10 exptime - 0.4 * (aa + kk * airmass)
      10 ^ logcounts

end

/-- What matters at the top level of a module: an import binds names, a function statement its name, and a class statement looks its bases
up before it binds its name. -/
inductive Stmt where
  | imp (names : List String)
  | fn (name : String)
  | cls (name : String) (bases : List String)

/-- Running the statements with the names that are there (builtins). -/
def load : List String → List Stmt → Except PyErr (List String)
  | env, [] => .ok env
  | env, .imp ns :: l => load (ns ++ env) l
  | env, .fn n :: l => load (n :: env) l
  | env, .cls n bs :: l => if bs.all env.contains then load (n :: env) l else .error .nameErr

/-- The top level of sdss_dr7.py: lines 1, 4, 35, 51, 207, 277. -/
def dr7Module : List Stmt :=
  [.imp ["Mags"], .fn "_dr7_getBrightness", .fn "get_tractor_sources_dr7", .fn "get_tractor_image_dr7",
    .cls "SdssMagsPhotoCal" ["BaseParams"], .cls "SdssFluxPhotoCal" ["object"]]

end Verif.Cfht
