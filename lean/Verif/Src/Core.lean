import Verif.Src.Sersic
import Verif.Gal.Composite

/-!
# Galaxies with a central point source

tractor/devcore.py `DevCoreGalaxy`, tractor/sercore.py `SersicCoreGalaxy`.  The galaxy and the point source that these make in every call
share position, brightness and shape with them.
-/

namespace Verif.Src

open Verif Verif.Params

variable {R M K : Type} [Field R] [LinearOrder R] [AddCommGroup M] [Module R M]

/-- A `DevCoreGalaxy`, devcore.py 12-18: the galaxy part (`brightnessDev`, `shapeDev`) and `brightnessPsf`. -/
structure DevCore (R : Type) where
  gal : Galaxy R
  psfLiquid : Bool
  brightPsf : Par R

/-- The source as a `MultiParams`, devcore.py 12-18. -/
def DevCore.tree (s : DevCore R) : Par R :=
  .multi (.cons ["pos"] s.gal.posLiquid (.plist s.gal.pos) (.cons ["brightnessDev"] s.gal.brightLiquid s.gal.bright
    (.cons ["shapeDev"] s.gal.shapeLiquid s.gal.shape (.cons ["brightnessPsf"] s.psfLiquid s.brightPsf .nil))))

/-- A `SersicCoreGalaxy`, sercore.py 13-19. -/
structure SersicCore (R : Type) where
  ser : Sersic R
  psfLiquid : Bool
  brightPsf : Par R

/-- The source as a `MultiParams`, sercore.py 13-19. -/
def SersicCore.tree (s : SersicCore R) : Par R :=
  .multi (.cons ["pos"] s.ser.gal.posLiquid (.plist s.ser.gal.pos) (.cons ["brightness"] s.ser.gal.brightLiquid s.ser.gal.bright
    (.cons ["shape"] s.ser.gal.shapeLiquid s.ser.gal.shape (.cons ["sersicindex"] s.ser.indexLiquid (.scalar s.ser.index)
      (.cons ["brightnessPsf"] s.psfLiquid s.brightPsf .nil)))))

/-- The list made of the lists of the two parts, devcore.py 93-107 and sercore.py 98-112. -/
def coreJoin (posLiquid : Bool) (pos : PList R) (dd dp : List (Option M)) : Except PyErr (List (Option M)) :=
  if posLiquid then
    let npos := (getStepSizes (.plist pos)).length
    (addRange dd dp 0 npos).map (fun l => l ++ dd.drop npos ++ dp.drop npos)
  else .ok (dd ++ dp)

/-- `DevCoreGalaxy.getParamDerivatives`, devcore.py 71-107.  `fastPosDerivs` of the point source has its default. -/
def devCoreDerivs (I : Image R) (Wg : GalaxyWorld R M K) (Wp : PointWorld R M K) (mask : Option K) (s : DevCore R) :
    DevCore R × Except PyErr (List (Option M)) :=
  match galaxyDerivs I Wg mask s.gal with
  | (g, .error e) => ({ s with gal := g }, .error e)
  | (g, .ok dd) =>
    match pointDerivs I Wp true mask ⟨s.gal.posLiquid, g.pos, s.psfLiquid, s.brightPsf⟩ with
    | (p, .error e) => ({ s with gal := { g with pos := p.pos }, brightPsf := p.bright }, .error e)
    | (p, .ok dp) =>
      let s' : DevCore R := { s with gal := { g with pos := p.pos }, brightPsf := p.bright }
      (s', coreJoin s.gal.posLiquid s'.gal.pos dd dp)

/-- `SersicCoreGalaxy.getParamDerivatives`, sercore.py 75-112. -/
def serCoreDerivs (I : Image R) (Wg : R → GalaxyWorld R M K) (Wp : PointWorld R M K) (mask : Option K) (s : SersicCore R) :
    SersicCore R × Except PyErr (List (Option M)) :=
  match sersicDerivs I Wg mask s.ser with
  | (g, .error e) => ({ s with ser := g }, .error e)
  | (g, .ok dd) =>
    match pointDerivs I Wp true mask ⟨s.ser.gal.posLiquid, g.gal.pos, s.psfLiquid, s.brightPsf⟩ with
    | (p, .error e) => ({ s with ser := { g with gal := { g.gal with pos := p.pos } }, brightPsf := p.bright }, .error e)
    | (p, .ok dp) =>
      let s' : SersicCore R := { s with ser := { g with gal := { g.gal with pos := p.pos } }, brightPsf := p.bright }
      (s', coreJoin s.ser.gal.posLiquid s'.ser.gal.pos dd dp)

end Verif.Src

namespace Verif.Gal

open Verif.Patches (Patch)

variable {R B K : Type}

/-- Rendering of a galaxy with a central point source: the two brightnesses, the unit-flux renderers of the parts (the galaxy's depends on
its `halfsize`), and the `halfsize` of the source if it has one. -/
structure CoreSource (R B K : Type) where
  brightGal : B
  brightPsf : B
  gal : Option R → Renderer R K
  psf : Renderer R K
  halfsize : Option R

section
variable [Field R] [LinearOrder R]

/-- The limit handed to the parts, None when none is, devcore.py 44-47 and sercore.py 47-50. -/
def halfLimit (minsb : Option R) : Option R :=
  match minsb with
  | none => none
  | some m => if m = 0 then none else some (m / 2)

/-- `getModelPatch(img, minsb, modelMask)`, devcore.py 41-56 and sercore.py 44-59, called with the further keyword arguments `kwargs`,
which it does not accept (`minsb` may be None). -/
def CoreSource.modelPatch (V : View R B) (s : CoreSource R B K) (minsb : Option R) (mask : K) (kwargs : List String) :
    Except PyErr (Option (Patch R)) :=
  if kwargs ≠ [] then .error .typeErr
  else
    let half := halfLimit minsb
    match Gal.modelPatch V (s.gal s.halfsize) s.brightGal half mask with
    | .error e => .error e
    | .ok pd =>
      match Gal.modelPatch V s.psf s.brightPsf half mask with
      | .error e => .error e
      | .ok pp => Patches.addPatches pd pp

/-- `getUnitFluxModelPatches(img, minval, modelMask)`, devcore.py 58-70 and sercore.py 61-73, which does not accept further arguments. -/
def CoreSource.unitPatches (s : CoreSource R B K) (minval : R) (mask : K) (kwargs : List String) :
    Except PyErr (List (Option (Patch R))) :=
  if kwargs ≠ [] then .error .typeErr
  else
    let mv := if 0 < minval then minval * (1 / 2) else minval
    match s.gal s.halfsize mv mask with
    | .error e => .error e
    | .ok pd =>
      match s.psf mv mask with
      | .error e => .error e
      | .ok pp => .ok [pd, pp]

/-- `getBrightnesses()`, devcore.py 38-39 and sercore.py 41-42. -/
def CoreSource.brightnesses (s : CoreSource R B K) : List B := [s.brightGal, s.brightPsf]

end

end Verif.Gal
