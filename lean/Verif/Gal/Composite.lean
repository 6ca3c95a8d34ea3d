import Verif.Gal.Model
import Verif.Num

/-!
# Composite galaxies

tractor/galaxy.py `FracDev`, `SoftenedFracDev`, `FixedCompositeGalaxy`, `CompositeGalaxy` and tractor/pointsource.py
`SingleProfileSource.getModelPatch`.

The exponential of `SoftenedFracDev` and the renderers of unit-flux patches are parameters.  Fractions are numbers (not
NaN).  Pixels are numbers, so that the assertions on finite pixels (pointsource.py 49-57) hold.
-/

namespace Verif.Gal

open Verif.Patches (Patch)
open Verif.Mog (Mix Comp Mat)

variable {R : Type} [Field R] [LinearOrder R]

/-- A fraction: `FracDev(v)` or `SoftenedFracDev(v)`. -/
inductive Frac (R : Type) where
  | hard (v : R)
  | soft (v : R)

/-- `clipped()`, galaxy.py 767-769 and 785-787. -/
def Frac.clipped (exp : R → R) : Frac R → R
  | .hard v => min (max v 0) 1
  | .soft v => 1 / (1 + exp (4 * (1 / 2 - v)))

/-- `derivative()`, galaxy.py 771-772 and 789-793. -/
def Frac.derivative (exp : R → R) : Frac R → R
  | .hard _ => 1
  | .soft v => let ef := exp (-4 * v + 2); 4 * ef / (ef + 1) ^ 2

/-- `np.dot(a, b)` of 2 by 2 matrices. -/
def dot (a b : Mat R) : Mat R :=
  ⟨a.xx * b.xx + a.xy * b.yx, a.xx * b.xy + a.xy * b.yy, a.yx * b.xx + a.yy * b.yx, a.yx * b.xy + a.yy * b.yy⟩

/-- `amix.amp = amix.amp * f`. -/
def weigh (m : Mix R) (f : R) : Mix R := m.map (fun c => { c with amp := c.amp * f })

/-- `if len(mix) == 1: return mix[0]; return mix[0] + mix[1]`, galaxy.py 874-876. -/
def joinMix : List (Mix R) → Except PyErr (Mix R)
  | [] => .error .index
  | [a] => .ok a
  | a :: b :: _ => .ok (Mog.add a b)

/-- The list `mix` of `_getAffineProfile` and `_getShearedProfile`, galaxy.py 865-873 and 902-910. -/
def fixedParts (f : R) (dev exp : Mix R) : List (Mix R) :=
  (if f > 0 then [weigh dev f] else []) ++ (if f < 1 then [weigh exp (1 - f)] else [])

/-- The numbers a `FixedCompositeGalaxy` is rendered from: `fracDev`, `getRaDecBasis()` and `re` of the shapes, and the
attribute `halfsize` if set. -/
structure Fixed (R : Type) where
  frac : Frac R
  expBasis : Mat R
  devBasis : Mat R
  expRe : R
  devRe : R
  halfsize : Option R

/-- The profiles of the classes: `ExpGalaxy.profile`, `ExpGalaxy.nre`, `DevGalaxy.profile`, `DevGalaxy.nre`. -/
structure Profiles (R : Type) where
  exp : Mix R
  expNre : R
  dev : Mix R
  devNre : R

/-- `_getAffineProfile(img, px, py)`, galaxy.py 846-876; `cdinv` is `cdInverseAtPixel(px, py)`. -/
def Fixed.affine (P : Profiles R) (exp : R → R) (s : Fixed R) (cdinv : Mat R) (px py : R) : Except PyErr (Mix R) :=
  joinMix (fixedParts (s.frac.clipped exp) (Mog.applyAffine P.dev (px, py) (dot cdinv s.devBasis))
    (Mog.applyAffine P.exp (px, py) (dot cdinv s.expBasis)))

/-- `_getShearedProfile(img, px, py)`, galaxy.py 878-913. -/
def Fixed.sheared (P : Profiles R) (exp : R → R) (s : Fixed R) (cdinv : Mat R) : Except PyErr (Mix R) :=
  joinMix (fixedParts (s.frac.clipped exp) (Mog.applyShear P.dev (dot cdinv s.devBasis))
    (Mog.applyShear P.exp (dot cdinv s.expBasis)))

/-- `_getUnitFluxPatchSize(img, px, py)`, galaxy.py 915-931, from the pixel scale and the radius of the PSF. -/
def Fixed.patchSize (P : Profiles R) (exp : R → R) (s : Fixed R) (pixscale psfRadius : R) : R :=
  match s.halfsize with
  | some h => h
  | none =>
    let f := s.frac.clipped exp
    let r := 1
    let r := if f < 1 then max r (P.expNre * s.expRe) else r
    let r := if f > 0 then max r (max r (P.devNre * s.devRe)) else r
    r / pixscale + psfRadius

/-- `HoggGalaxy._getAffineProfile`, galaxy.py 648-657. -/
def hoggAffine (profile : Mix R) (cdinv basis : Mat R) (px py : R) : Mix R :=
  Mog.applyAffine profile (px, py) (dot cdinv basis)

/-- `HoggGalaxy._getShearedProfile`, galaxy.py 659-669. -/
def hoggSheared (profile : Mix R) (cdinv basis : Mat R) : Mix R := Mog.applyShear profile (dot cdinv basis)

/-- What a source asks of the image: `getPhotoCal().brightnessToCounts`, whether counts are finite in single precision, and
`modelMinval`. -/
structure View (R B : Type) where
  counts : B → Num R
  finite32 : R → Bool
  modelMinval : R

/-- `getUnitFluxModelPatch` of a source, as a function of `minval` and `modelMask`. -/
abbrev Renderer (R K : Type) := R → K → Except PyErr (Option (Patch R))

section
variable {B K : Type}

/-- `SingleProfileSource.getModelPatch(img, minsb, modelMask)`, pointsource.py 35-58. -/
def modelPatch (V : View R B) (unit : Renderer R K) (bright : B) (minsb : Option R) (mask : K) :
    Except PyErr (Option (Patch R)) :=
  match V.counts bright with
  | .fin c =>
    if c = 0 then .ok none
    else if V.finite32 c = false then .ok none
    else
      match unit (minsb.getD V.modelMinval / c) mask with
      | .error e => .error e
      | .ok none => .ok none
      | .ok (some u) => .ok (some (u.mul c))
  | _ => .ok none

/-- A `CompositeGalaxy`: the brightnesses, the renderers of its exponential and de Vaucouleurs galaxy (which have its position and
shapes) for a given attribute `halfsize`, and that attribute. -/
structure TwoPart (R B K : Type) where
  brightExp : B
  brightDev : B
  exp : Option R → Renderer R K
  dev : Option R → Renderer R K
  halfsize : Option R

/-- `getBrightnesses()`, galaxy.py 1072-1073. -/
def TwoPart.brightnesses (s : TwoPart R B K) : List B := [s.brightExp, s.brightDev]

/-- `_getModelPatches(img, minsb, modelMask)`, galaxy.py 1075-1086. -/
def TwoPart.modelPatches (V : View R B) (s : TwoPart R B K) (minsb : R) (mask : K) :
    Except PyErr (Option (Patch R) × Option (Patch R)) :=
  let kw : Option R := if minsb ≠ 0 then some (minsb / 2) else none
  match modelPatch V (s.exp s.halfsize) s.brightExp kw mask with
  | .error e => .error e
  | .ok pe =>
    match modelPatch V (s.dev s.halfsize) s.brightDev kw mask with
    | .error e => .error e
    | .ok pd => .ok (pe, pd)

/-- `getModelPatch(img, minsb, modelMask)`, galaxy.py 1088-1091. -/
def TwoPart.modelPatch (V : View R B) (s : TwoPart R B K) (minsb : R) (mask : K) : Except PyErr (Option (Patch R)) :=
  match s.modelPatches V minsb mask with
  | .error e => .error e
  | .ok (pe, pd) => Patches.addPatches pe pd

/-- `getUnitFluxModelPatches(img, minval, modelMask)`, galaxy.py 1093-1105. -/
def TwoPart.unitPatches (s : TwoPart R B K) (minval : R) (mask : K) : Except PyErr (List (Option (Patch R))) :=
  let minval := if minval > 0 then minval * (1 / 2) else minval
  match s.exp s.halfsize minval mask with
  | .error e => .error e
  | .ok e =>
    match s.dev s.halfsize minval mask with
    | .error e => .error e
    | .ok d => .ok ([e] ++ [d])

/-- The `fracDev` derivative of a `FixedCompositeGalaxy`, galaxy.py 1002-1023, from the counts, the fraction
and the unit-flux patches of the two galaxies. -/
def fracDeriv (exp : R → R) (counts : R) (f : Frac R) (ue ud : Option (Patch R)) : Except PyErr (Option (Patch R)) :=
  if counts = 0 then .ok none
  else
    let df := f.derivative exp
    match Patches.addPatches (ud.map (·.mul df)) (ue.map (·.mul (-df))) with
    | .error e => .error e
    | .ok none => .ok none
    | .ok (some p) => .ok (some (p.mul counts))

end

end Verif.Gal
