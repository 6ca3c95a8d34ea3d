import Verif.Py
import Mathlib.Algebra.Group.Basic
import Mathlib.Algebra.Field.Basic

/-!
# The astrometric calibration of SDSS images

tractor/sdss.py `SdssWcs`.  The class `AsTrans` (astrometry) is a parameter: three functions of the table `astrans.trans`.
-/

namespace Verif.Sdss

/-- `SdssWcs.pnames`, sdss.py 910-914. -/
def pnames : List String :=
  ["a", "b", "c", "d", "e", "f", "drow0", "drow1", "drow2", "drow3", "dcol0", "dcol1", "dcol2", "dcol3",
    "csrow", "cscol", "ccrow", "cccol", "x0", "y0"]

/-- `AsTrans`: `pixel_to_radec`, `radec_to_pixel_single`, `radec_to_pixel_single_py` (with a color), `cd_at_pixel`; `M`: matrices. -/
structure AsTrans (R M : Type) where
  toRaDec : (String → R) → R × R → R × R
  toPixel : (String → R) → R × R → R × R
  toPixelColor : (String → R) → R × R → R → R × R
  cdAt : (String → R) → R × R → M

/-- A `SdssWcs` object; `stepsizes`: the attribute set by `setStepSizes`. -/
structure Wcs (R M : Type) where
  trans : String → R
  x0 : R
  y0 : R
  liquid : List Bool
  lowers : List (Option R)
  constantCd : Option M
  constantCdi : Option M
  stepsizes : Option (List R)

section
variable {R M : Type} [Field R] [DecidableEq R]

/-- `SdssWcs(astrans)`, lines 923-933, with `ParamList.__init__`, utils.py 715-720, and `NamedParams.__init__`, utils.py 413-416: bounds
are made for the three arguments, the list of flags for all of `_numberOfThings()` (line 962-963). -/
def mkWcs (trans : String → R) : Wcs R M :=
  { trans, x0 := 0, y0 := 0, liquid := List.replicate pnames.length true, lowers := [none, none, none], constantCd := none
    constantCdi := none, stepsizes := none }

/-- `cdAtPixel(x, y)`, lines 991-994. -/
def cdAtPixel (A : AsTrans R M) (w : Wcs R M) (x y : R) : M :=
  match w.constantCd with
  | some m => m
  | none => A.cdAt w.trans (x + w.x0, y + w.y0)

/-- `cdInverseAtPixel(x, y)`, lines 996-1000; `inv`: `np.linalg.inv`. -/
def cdInverseAtPixel (A : AsTrans R M) (inv : M → M) (w : Wcs R M) (x y : R) : M :=
  match w.constantCdi with
  | some m => m
  | none => inv (A.cdAt w.trans (x + w.x0, y + w.y0))

/-- `setConstantCd(x, y)`, lines 935-937. -/
def setConstantCd (A : AsTrans R M) (inv : M → M) (w : Wcs R M) (x y : R) : Wcs R M :=
  let cd := cdAtPixel A w x y
  { w with constantCd := some cd, constantCdi := some (inv cd) }

/-- `_setThing(i, val)`, lines 939-947. -/
def setThing (w : Wcs R M) (i : Nat) (val : R) : Except PyErr (Wcs R M) :=
  let N := pnames.length
  if i = N - 2 then .ok { w with x0 := val }
  else if i = N - 1 then .ok { w with y0 := val }
  else
    match pnames[i]? with
    | none => .error .index
    | some nm => .ok { w with trans := fun k => if k = nm then val else w.trans k }

/-- `_getThing(i)`, lines 949-956. -/
def getThing (w : Wcs R M) (i : Nat) : Except PyErr R :=
  let N := pnames.length
  if i = N - 2 then .ok w.x0
  else if i = N - 1 then .ok w.y0
  else
    match pnames[i]? with
    | none => .error .index
    | some nm => .ok (w.trans nm)

/-- `_getThings()`, lines 958-960. -/
def getThings (w : Wcs R M) : List R := (pnames.take (pnames.length - 2)).map w.trans ++ [w.x0, w.y0]

/-- `_getLiquidArray`, utils.py 674-677. -/
def liquidArray {α : Type} : List Bool → List α → List α
  | true :: l, a :: as => a :: liquidArray l as
  | false :: l, _ :: as => liquidArray l as
  | _, _ => []

/-- `getParams()`, utils.py 782-786. -/
def getParams (w : Wcs R M) : List R := liquidArray w.liquid (getThings w)

/-- `numberOfParams()`, utils.py 779-780. -/
def numberOfParams (w : Wcs R M) : Nat := w.liquid.countP (· = true)

/-- `getLowerBounds()`, utils.py 799-800. -/
def getLowerBounds (w : Wcs R M) : List (Option R) := liquidArray w.liquid w.lowers

/-- The loop of `setParams(p)`, utils.py 775-777, with `_indexBoth`, from raw place `j` on. -/
def setFrom (j : Nat) : List Bool → List R → Wcs R M → Except PyErr (Wcs R M)
  | [], _, w => .ok w
  | false :: l, p, w => setFrom (j + 1) l p w
  | true :: _, [], _ => .error .index
  | true :: l, v :: p, w =>
    match setThing w j v with
    | .error e => .error e
    | .ok w => setFrom (j + 1) l p w

/-- `setParams(p)`. -/
def setParams (w : Wcs R M) (p : List R) : Except PyErr (Wcs R M) := setFrom 0 w.liquid p w

/-- `getStepSizes()`, lines 965-978. -/
def getStepSizes (w : Wcs R M) : List R :=
  let deg : R := 396 / 1000 / 3600
  let P : R := 2000
  liquidArray w.liquid [deg, deg / P, deg / P, deg, deg / P, deg / P, 1, 1 / P, 1 / P ^ 2, 1 / P ^ 3, 1, 1 / P, 1 / P ^ 2, 1 / P ^ 3,
    1, 1, 1, 1, 1, 1]

/-- `setAllStepSizes(ss)`, utils.py 459-460. -/
def setAllStepSizes (w : Wcs R M) (ss : List R) : Wcs R M := { w with stepsizes := some ss }

/-- `getAllStepSizes()`, utils.py 434-442. -/
def getAllStepSizes (w : Wcs R M) : List R :=
  match w.stepsizes with
  | some ss => ss
  | none => List.replicate (getThings w).length 1

/-- `copy()`: `self.__class__(*self.getAllParams())`, utils.py 722-725 and 206-207; the constructor takes one argument. -/
def copy (w : Wcs R M) : Except PyErr (Wcs R M) :=
  if (getThings w).length = 1 then .ok (mkWcs w.trans) else .error .typeErr

/-- `setX0Y0(x0, y0)`, lines 980-982. -/
def setX0Y0 (w : Wcs R M) (x0 y0 : R) : Wcs R M := { w with x0 := x0, y0 := y0 }

/-- `positionToPixel(pos, src, color)`, lines 1009-1016. -/
def positionToPixel (A : AsTrans R M) (w : Wcs R M) (pos : R × R) (color : R) : R × R :=
  let p := if color ≠ 0 then A.toPixelColor w.trans pos color else A.toPixel w.trans pos
  (p.1 - w.x0, p.2 - w.y0)

/-- `pixelToPosition(x, y)`, lines 1019-1022 and 987-989. -/
def pixelToPosition (A : AsTrans R M) (w : Wcs R M) (x y : R) : R × R := A.toRaDec w.trans (x + w.x0, y + w.y0)

/-- `wcs.setX0Y0(x0 + 0.5, y0 + 0.5)`, line 769: the calibration of a part of a frame that starts at pixel `x0, y0`. -/
def imageWcs (w : Wcs R M) (x0 y0 : R) : Wcs R M := setX0Y0 w (x0 + 1 / 2) (y0 + 1 / 2)

end

end Verif.Sdss
