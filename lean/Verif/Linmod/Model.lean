import Verif.Forced.Model

/-!
# The linear model of forced photometry

tractor/optimize.py `Optimizer.forced_photometry` and `_get_umodels` without regions of interest, tractor/engine.py `Tractor.getModelImage` and
`getModelPatch`, tractor/pointsource.py `SingleProfileSource`, tractor/galaxy.py `CompositeGalaxy`, for one image (each is handled on its
own).  All brightnesses have all bands; checks for infinite and NaN values are not represented.
-/

namespace Verif.Linmod

open Verif Patches Forced

variable {R : Type}

/-- A multi-band brightness (`NanoMaggies`, `Fluxes`): flux per band, thawed bands in order. -/
structure Bright (R : Type) where
  flux : String → R
  thawed : List String

/-- A source: the flag in the catalog, `getBrightnesses()` (two for a `CompositeGalaxy`).  All parameters but brightnesses are frozen. -/
structure Source (R : Type) where
  id : Nat
  thawed : Bool
  parts : List (Bright R)

/-- An image with a `LinearPhotoCal` and a constant sky; `minval` is `img.modelMinval`. -/
structure Img (R : Type) where
  h : Nat
  w : Nat
  band : String
  scale : R
  sky : R
  minval : R

/-- `unit id k minval mask`: `getUnitFluxModelPatch` of part `k` of a source in the image; the model masks of the image by source and
`expectModelMasks`. -/
structure World (R M : Type) where
  unit : Nat → Nat → R → Option M → Option (Patch R)
  mask : Nat → Option M
  expect : Bool

variable {M : Type}

section
variable [Field R] [LinearOrder R]

/-- `LinearPhotoCal.brightnessToCounts`, brightness.py 339-344. -/
def counts (img : Img R) (b : Bright R) : R := b.flux img.band * img.scale

/-- `mv`, optimize.py 171-178. -/
def fitMinval (img : Img R) (minsb : R) (s : Source R) : R :=
  let c := (s.parts.map (counts img)).sum
  if c ≤ 0 then 1 / 1000 else minsb / c

/-- `minval` of the parts, galaxy.py 1093-1096; the other sources pass it on. -/
def partMinval (n : Nat) (mv : R) : R := if n = 2 ∧ 0 < mv then mv * (1 / 2) else mv

/-- `src.getUnitFluxModelPatches(img, minval=mv, modelMask=mask)`, pointsource.py 34-35, galaxy.py 1093-1105. -/
def unitParts (W : World R M) (id : Nat) (mv : R) : Nat → List (Bright R) → List (Option (Patch R))
  | _, [] => []
  | k, _ :: bs => W.unit id k mv (W.mask id) :: unitParts W id mv (k + 1) bs

/-- The unit-flux models of one source. -/
def umodsOf (W : World R M) (img : Img R) (minsb : R) (s : Source R) : List (Option (Patch R)) :=
  unitParts W s.id (partMinval s.parts.length (fitMinval img minsb s)) 0 s.parts

/-- `_get_umodels` for one image, optimize.py 147-221, of `catalog.getThawedSources()`. -/
def umods (W : World R M) (img : Img R) (minsb : R) (cat : List (Source R)) : List (Option (Patch R)) :=
  ((cat.filter (·.thawed)).map (umodsOf W img minsb)).flatten

/-- `minsb` of the parts: `CompositeGalaxy._getModelPatches` halves it and passes nothing if it is zero (galaxy.py 1076-1086), then
`img.modelMinval` is taken (pointsource.py 44-45). -/
def partMinsb (img : Img R) (n : Nat) (minsb : R) : R := if n = 2 then (if minsb = 0 then img.minval else minsb / 2) else minsb

/-- `SingleProfileSource.getModelPatch`, pointsource.py 37-60, after `Tractor.getModelPatch`, engine.py 414-422.  The parts of a
`CompositeGalaxy` are added up (C23) before they are added to the image (C24); here they are added one by one. -/
def modelParts (W : World R M) (img : Img R) (id : Nat) (minsb : R) : Nat → List (Bright R) → List (Option (Patch R))
  | _, [] => []
  | k, b :: bs =>
    (if W.expect && (W.mask id).isNone then none
     else if counts img b = 0 then none
     else (W.unit id k (minsb / counts img b) (W.mask id)).map (fun p => p.mul (counts img b))) :: modelParts W img id minsb (k + 1) bs

/-- The patches of one source. -/
def modelOf (W : World R M) (img : Img R) (minsb : R) (s : Source R) : List (Option (Patch R)) :=
  modelParts W img s.id (partMinsb img s.parts.length minsb) 0 s.parts

/-- `patch.addTo(mod)` for each. -/
def addPatches : List (Option (Patch R)) → Arr R → Except PyErr (Arr R)
  | [], m => .ok m
  | none :: l, m => addPatches l m
  | some p :: l, m =>
    match p.addTo m 1 with
    | .error e => .error e
    | .ok m' => addPatches l m'

/-- `img.getSky().addTo(mod)`. -/
def addSky (img : Img R) (m : Arr R) : Arr R := m.map (· + img.sky)

/-- `Tractor.getModelImage(img, srcs, minsb=minsb, sky=sky)`, engine.py 424-447. -/
def modelImage (W : World R M) (img : Img R) (minsb : R) (sky : Bool) (srcs : List (Source R)) : Except PyErr (Arr R) :=
  let m := Arr.zeros img.h img.w
  addPatches (srcs.map (modelOf W img minsb)).flatten (if sky then addSky img m else m)

/-- `catalog.numberOfParams()`. -/
def numParams (cat : List (Source R)) : Nat := ((cat.filter (·.thawed)).map (fun s => (s.parts.map (fun b => b.thawed.length)).sum)).sum

/-- What `forced_photometry` prepares for an image, optimize.py 55-93: the unit-flux models and `mod0`. -/
def prepare (W : World R M) (img : Img R) (minsb : R) (sky : Bool) (cat : List (Source R)) :
    Except PyErr (List (Option (Patch R)) × Arr R) :=
  let u := umods W img minsb cat
  if u.length ≠ numParams cat then .error .assertion
  else
    match modelImage W img minsb (!sky) (cat.filter (fun s => !s.thawed)) with
    | .error e => .error e
    | .ok m => .ok (u, m)

/-- The model image that is compared with the data for fluxes `p`, `_getims` (optimize.py 465-501). -/
def fitted (W : World R M) (img : Img R) (minsb : R) (sky : Bool) (cat : List (Source R)) (p : List R) : Except PyErr (Arr R) :=
  match prepare W img minsb sky cat with
  | .error e => .error e
  | .ok (u, m) => addModels none img.scale (p.zip u) (if sky then addSky img m else m)

/-! ### `catalog.setParams` -/

/-- Set the thawed bands; the values that are left. -/
def setBands (flux : String → R) : List String → List R → (String → R) × List R
  | [], ps => (flux, ps)
  | _ :: _, [] => (flux, [])
  | b :: bs, p :: ps => setBands (fun c => if c = b then p else flux c) bs ps

/-- The brightnesses of a source. -/
def setParts : List (Bright R) → List R → List (Bright R) × List R
  | [], ps => ([], ps)
  | b :: bs, ps =>
    let (f, ps) := setBands b.flux b.thawed ps
    let (bs, ps) := setParts bs ps
    ({ b with flux := f } :: bs, ps)

/-- `tractor.catalog.setParams(ps)`: thawed sources take their parameters in order. -/
def setParams : List (Source R) → List R → List (Source R)
  | [], _ => []
  | s :: cat, ps =>
    if s.thawed then
      let (q, ps) := setParts s.parts ps
      { s with parts := q } :: setParams cat ps
    else s :: setParams cat ps

end

end Verif.Linmod
