import Verif.Params.Model
import Mathlib.Algebra.Module.Basic
import Mathlib.Algebra.Order.Field.Basic

/-!
# Derivatives of sources

`PointSource` (tractor/pointsource.py), `Galaxy`, `FixedCompositeGalaxy` and `CompositeGalaxy`
(tractor/galaxy.py), `ConstantSurfaceBrightness` (tractor/basics.py), and the conversion of pixel
derivatives to position derivatives (tractor/ducks.py).

Patches are elements of an arbitrary module `M` over the numbers `R` (patch arithmetic itself, with
footprints, is in `Verif/Patch`).  Renderers, photometric calibration and WCS are parameters.
A renderer gets the position, the shape, `minval` (None or a number) and the model mask (None or a mask).
-/

namespace Verif.Src

open Verif Verif.Params

variable {R M K : Type}

/-- What a source asks of the image: `getPhotoCal().brightnessToCounts`, `modelMinval`,
`getWcs().cdInverseAtPosition(pos)` (a 2x2 matrix, by rows). -/
structure Image (R : Type) where
  counts : Par R → R
  minsb : R
  cdi : PList R → (R × R) × (R × R)

section
variable [Field R] [LinearOrder R] [AddCommGroup M] [Module R M]

/-- The loop that steps every parameter of an object: pointsource.py 200-227, 233-243; galaxy.py 183-194,
204-226; basics.py 86-94.
`for i, step in enumerate(steps): old = obj.setParam(i, vals[i] + step); ...; obj.setParam(i, old)`.
`f step obj'` is what is computed from the stepped object. -/
def stepEach {β : Type} (f : R → Par R → Except PyErr β) :
    List R → List R → Nat → Par R → Par R × Except PyErr (List β)
  | [], _, _, t => (t, .ok [])
  | st :: sts, vals, i, t =>
    match vals[i]? with
    | none => (t, .error .index)
    | some v =>
      match setParam t i (v + st) with
      | (t1, .error e) => (t1, .error e)
      | (t1, .ok old) =>
        match setParam t1 i old with
        | (t2, .error e) => (t2, .error e)
        | (t2, .ok _) =>
          match f st t1 with
          | .error e => (t2, .error e)
          | .ok b =>
            let r := stepEach f sts vals (i + 1) t2
            (r.1, r.2.map (b :: ·))

/-- `x / step` for Python floats. -/
def pyDiv (x y : R) : Except PyErr R := if y = 0 then .error .zeroDiv else .ok (x / y)

/-- Derivatives with respect to brightness, pointsource.py 231-243 and galaxy.py 183-194:
`patch0 * ((countsi - counts0) / bstep)`, None when the counts do not change. -/
def brightDeriv (counts : Par R → R) (counts0 : R) (patch0 : M) (bstep : R) (b : Par R) :
    Except PyErr (Option M) :=
  if counts b = counts0 then .ok none
  else (pyDiv (counts b - counts0) bstep).map (fun x => some (x • patch0))

/-- `pixelDerivsToPositionDerivs`, ducks.py 413-424: one derivative for each thawed position parameter,
with the column of the matrix given by its raw index (IndexError beyond two columns). -/
def pixelDerivsToPositionDerivs (cdi : (R × R) × (R × R)) (pos : PList R) (counts0 : R) (dx dy : M) :
    Except PyErr (List (Option M)) :=
  (thawedIndices 0 (flags pos)).mapM (fun i =>
    if i = 0 then .ok (some (counts0 • (cdi.1.1 • dx + cdi.2.1 • dy)))
    else if i = 1 then .ok (some (counts0 • (cdi.1.2 • dx + cdi.2.2 • dy)))
    else .error .index)

/-! ### PointSource -/

/-- A point source: position and brightness with the flags of the container. -/
structure PointSource (R : Type) where
  posLiquid : Bool
  pos : PList R
  brightLiquid : Bool
  bright : Par R

/-- The source as a `MultiParams`. -/
def PointSource.tree (s : PointSource R) : Par R :=
  .multi (.cons ["pos"] s.posLiquid (.plist s.pos) (.cons ["brightness"] s.brightLiquid s.bright .nil))

/-- The renderers of a point source: `getUnitFluxModelPatch` without and with `derivs=True` (the patch and,
if the PSF provides them, its derivatives in x and y), and `patch0.overlapsBbox((0, W, 0, H))`. -/
structure PointWorld (R M K : Type) where
  unit : PList R → Option R → Option K → Option M
  withDerivs : PList R → Option R → Option K → Option (M × Option (M × M))
  overlaps : M → Bool

/-- The short-cut loop, pointsource.py 142-151: does any brightness parameter change the counts?
(stops at the first that does). -/
def allZero (counts : Par R → R) (counts0 : R) :
    List R → List R → Nat → Par R → Par R × Except PyErr Bool
  | [], _, _, t => (t, .ok true)
  | st :: sts, vals, i, t =>
    match vals[i]? with
    | none => (t, .error .index)
    | some v =>
      match setParam t i (v + st) with
      | (t1, .error e) => (t1, .error e)
      | (t1, .ok old) =>
        match setParam t1 i old with
        | (t2, .error e) => (t2, .error e)
        | (t2, .ok _) =>
          if counts t1 ≠ counts0 then (t2, .ok false) else allZero counts counts0 sts vals (i + 1) t2

/-- `PList` of a parameter object that is a list (the others do not occur below). -/
def asList (t : Par R) (d : PList R) : PList R :=
  match t with
  | .plist l => l
  | _ => d

/-- The derivative computed from a stepped position, pointsource.py 205-226: a source that does not render
any more counts as an empty patch. -/
def posDeriv (W : PointWorld R M K) (counts0 : R) (minval : Option R) (mask : Option K) (patch0 : M)
    (pos : PList R) (pstep : R) (t : Par R) : Except PyErr (Option M) :=
  match W.unit (asList t pos) minval mask with
  | none => (pyDiv (-1 * counts0) pstep).map (fun x => some (x • patch0))
  | some patchx => (pyDiv counts0 pstep).map (fun x => some (x • (patchx - patch0)))

/-- Derivatives with respect to position by stepping, pointsource.py 200-227
(`symmetric_derivs` is not set anywhere in tractor and not modelled). -/
def stepPos (W : PointWorld R M K) (counts0 : R) (minval : Option R) (mask : Option K) (patch0 : M)
    (pos : PList R) : PList R × Except PyErr (List (Option M)) :=
  let r := stepEach (posDeriv W counts0 minval mask patch0 pos)
    (getStepSizes (.plist pos)) (getParams (.plist pos)) 0 (.plist pos)
  (asList r.1 pos, r.2)

/-- Derivatives with respect to brightness. -/
def stepBright (counts : Par R → R) (counts0 : R) (patch0 : M) (b : Par R) :
    Par R × Except PyErr (List (Option M)) :=
  stepEach (fun st t => brightDeriv counts counts0 patch0 st t) (getStepSizes b) (getParams b) 0 b

/-- The position part of `PointSource.getParamDerivatives`, pointsource.py 193-227. -/
def pointPosPart (I : Image R) (W : PointWorld R M K) (counts0 : R) (minval : Option R) (mask : Option K)
    (patch0 : M) (dd : Option (M × M)) (pos : PList R) : PList R × Except PyErr (List (Option M)) :=
  match dd with
  | some (dx, dy) => (pos, pixelDerivsToPositionDerivs (I.cdi pos) pos counts0 dx dy)
  | none =>
    if counts0 = 0 then (pos, .ok (List.replicate (numberOfParams (.plist pos)) none))
    else stepPos W counts0 minval mask patch0 pos

/-- `minsb / counts0` if `counts0 > 0` else None, pointsource.py 156-160, galaxy.py 140-144. -/
def minvalOf (minsb counts0 : R) : Option R := if 0 < counts0 then some (minsb / counts0) else none

/-- Lines 174-244 of pointsource.py: from the rendered patch on. -/
def pointFrom (I : Image R) (W : PointWorld R M K) (counts0 : R) (mask : Option K) (s : PointSource R)
    (posFrozen : Bool) (p : Option (M × Option (M × M))) :
    PointSource R × Except PyErr (List (Option M)) :=
  match p with
  | none => (s, .ok (List.replicate (numberOfParams s.tree) none))
  | some (patch0, dd) =>
    if ¬ W.overlaps patch0 then (s, .ok (List.replicate (numberOfParams s.tree) none))
    else
      let rp := if posFrozen then (s.pos, .ok [])
        else pointPosPart I W counts0 (minvalOf I.minsb counts0) mask patch0 dd s.pos
      match rp with
      | (pos', .error e) => ({ s with pos := pos' }, .error e)
      | (pos', .ok dpos) =>
        let rb := if s.brightLiquid then stepBright I.counts counts0 patch0 s.bright else (s.bright, .ok [])
        match rb with
        | (b', .error e) => ({ s with pos := pos', bright := b' }, .error e)
        | (b', .ok db) => ({ s with pos := pos', bright := b' }, .ok (dpos ++ db))

/-- `PointSource.getParamDerivatives`, pointsource.py 125-244. -/
def pointDerivs (I : Image R) (W : PointWorld R M K) (fastPosDerivs : Bool) (mask : Option K)
    (s : PointSource R) : PointSource R × Except PyErr (List (Option M)) :=
  let posFrozen := !s.posLiquid || numberOfParams (.plist s.pos) = 0
  let counts0 := I.counts s.bright
  let minval := minvalOf I.minsb counts0
  let p := if !posFrozen && fastPosDerivs then W.withDerivs s.pos minval mask
    else (W.unit s.pos minval mask).map (fun p => (p, none))
  if posFrozen && s.brightLiquid then
    match allZero I.counts counts0 (getStepSizes s.bright) (getParams s.bright) 0 s.bright with
    | (b', .error e) => ({ s with bright := b' }, .error e)
    | (b', .ok true) => ({ s with bright := b' }, .ok (List.replicate (numberOfParams s.tree) none))
    | (b', .ok false) => pointFrom I W counts0 mask { s with bright := b' } posFrozen p
  else pointFrom I W counts0 mask s posFrozen p

/-! ### Galaxies -/

/-- A galaxy: position, brightness and shape with the flags of the container. -/
structure Galaxy (R : Type) where
  posLiquid : Bool
  pos : PList R
  brightLiquid : Bool
  bright : Par R
  shapeLiquid : Bool
  shape : Par R

/-- The source as a `MultiParams`. -/
def Galaxy.tree (s : Galaxy R) : Par R :=
  .multi (.cons ["pos"] s.posLiquid (.plist s.pos)
    (.cons ["brightness"] s.brightLiquid s.bright (.cons ["shape"] s.shapeLiquid s.shape .nil)))

/-- The renderers of a galaxy: `getUnitFluxModelPatch` (position, shape, minval, mask), the same with
`force_sourceOut=True` (used with a mask for stepped shapes), the mask
`ModelMask.fromExtent(*patch0.getExtent())`, and the central differences of the pixels of a patch in x and
y (galaxy.py 167-174). -/
structure GalaxyWorld (R M K : Type) where
  unit : PList R → Par R → Option R → Option K → Option M
  forced : PList R → Par R → Option R → K → Option M
  extentMask : M → K
  grad : M → M × M

/-- Derivatives with respect to shape, galaxy.py 196-226: None if the stepped shape does not render. -/
def stepShape (W : GalaxyWorld R M K) (counts : R) (minval : Option R) (mask : K) (patch0 : M)
    (pos : PList R) (shape : Par R) : Par R × Except PyErr (List (Option M)) :=
  if counts = 0 then (shape, .ok (List.replicate (getParams shape).length none))
  else
    stepEach (fun gstep t =>
        match W.forced pos t minval mask with
        | none => .ok none
        | some patchx => (pyDiv counts gstep).map (fun x => some (x • (patchx - patch0))))
      (getStepSizes shape) (getParams shape) 0 shape

/-- Derivatives with respect to position, galaxy.py 160-180. -/
def galaxyPosPart (I : Image R) (W : GalaxyWorld R M K) (counts : R) (patch0 : M) (pos : PList R) :
    Except PyErr (List (Option M)) :=
  if counts = 0 then .ok (List.replicate (getParams (.plist pos)).length none)
  else pixelDerivsToPositionDerivs (I.cdi pos) pos counts (W.grad patch0).1 (W.grad patch0).2

/-- `Galaxy.getParamDerivatives` with `get_patch0=False`, galaxy.py 133-227. -/
def galaxyDerivs (I : Image R) (W : GalaxyWorld R M K) (mask : Option K) (s : Galaxy R) :
    Galaxy R × Except PyErr (List (Option M)) :=
  let counts := I.counts s.bright
  let minval := minvalOf I.minsb counts
  match W.unit s.pos s.shape minval mask with
  | none => (s, .ok (List.replicate (numberOfParams s.tree) none))
  | some patch0 =>
    let mask1 := mask.getD (W.extentMask patch0)
    let rp := if s.posLiquid && decide (numberOfParams (.plist s.pos) > 0)
      then galaxyPosPart I W counts patch0 s.pos else .ok []
    match rp with
    | .error e => (s, .error e)
    | .ok dpos =>
      let rb := if s.brightLiquid then stepBright I.counts counts patch0 s.bright else (s.bright, .ok [])
      match rb with
      | (b', .error e) => ({ s with bright := b' }, .error e)
      | (b', .ok db) =>
        let rs := if s.shapeLiquid then stepShape W counts minval mask1 patch0 s.pos s.shape
          else (s.shape, .ok [])
        match rs with
        | (g', .error e) => ({ s with bright := b', shape := g' }, .error e)
        | (g', .ok dg) => ({ s with bright := b', shape := g' }, .ok (dpos ++ db ++ dg))

/-! ### ConstantSurfaceBrightness -/

/-- A constant surface brightness: only a brightness. -/
structure Constant (R : Type) where
  brightLiquid : Bool
  bright : Par R

/-- The source as a `MultiParams`. -/
def Constant.tree (s : Constant R) : Par R := .multi (.cons ["brightness"] s.brightLiquid s.bright .nil)

/-- A rate of change of the counts, basics.py 86-94. -/
def constantScale (counts : Par R → R) (counts0 : R) (bstep : R) (b : Par R) : Except PyErr R :=
  if counts b = counts0 then .ok 0 else pyDiv (counts b - counts0) bstep

/-- `ConstantSurfaceBrightness.getParamDerivatives`, basics.py 76-121.  `flat` is the patch with value
`pixscale**2` in all pixels of the mask. -/
def constantDerivs (I : Image R) (flat : M) (s : Constant R) : Constant R × Except PyErr (List (Option M)) :=
  if !s.brightLiquid then (s, .ok [])
  else
    match stepEach (constantScale I.counts (I.counts s.bright)) (getStepSizes s.bright) (getParams s.bright) 0
        s.bright with
    | (b', .error e) => ({ s with bright := b' }, .error e)
    | (b', .ok scales) =>
      ({ s with bright := b' },
        if scales.all (fun x => decide (x = 0)) then .ok (List.replicate scales.length none)
        else .ok (scales.map (fun x => if x = 0 then none else some (x • flat))))

/-! ### Composite galaxies -/

/-- `add_patches(pa, pb)`, patch.py 61-68. -/
def addPatches (a b : Option M) : Option M :=
  match b with
  | none => a
  | some y =>
    match a with
    | none => some y
    | some x => some (x + y)

/-- `add_patches(a[ii], b[ii])` for `ii = i0, ..., i0 + n - 1` (IndexError when a list is too short),
galaxy.py 980-987, 993-1000, 1136-1141. -/
def addRange (a b : List (Option M)) (i0 n : Nat) : Except PyErr (List (Option M)) :=
  (List.range n).mapM (fun i =>
    match a[i0 + i]?, b[i0 + i]? with
    | some x, some y => .ok (addPatches x y)
    | _, _ => .error .index)

/-- A `FixedCompositeGalaxy`: position, brightness, fraction, two shapes. -/
structure FixedComposite (R : Type) where
  posLiquid : Bool
  pos : PList R
  brightLiquid : Bool
  bright : Par R
  fracLiquid : Bool
  frac : Scalar R
  expLiquid : Bool
  shapeExp : Par R
  devLiquid : Bool
  shapeDev : Par R

/-- The source as a `MultiParams`. -/
def FixedComposite.tree (s : FixedComposite R) : Par R :=
  .multi (.cons ["pos"] s.posLiquid (.plist s.pos) (.cons ["brightness"] s.brightLiquid s.bright
    (.cons ["fracDev"] s.fracLiquid (.scalar s.frac) (.cons ["shapeExp"] s.expLiquid s.shapeExp
      (.cons ["shapeDev"] s.devLiquid s.shapeDev .nil)))))

/-- `FracDev.clipped()`, galaxy.py 768-770. -/
def clip01 (f : R) : R := if f < 0 then 0 else if 1 < f then 1 else f

/-- The `fracDev` derivative, galaxy.py 1003-1023, with `FracDev.derivative() = 1.` (772-773); the unit
patches are rendered with the default `minval=0.`. -/
def fracDeriv (counts : R) (ue ud : Option M) : Option M :=
  if counts = 0 then none
  else (addPatches (ud.map (fun p => (1 : R) • p)) (ue.map (fun p => (-1 : R) • p))).map (fun p => counts • p)

/-- The list built at the end of `FixedCompositeGalaxy.getParamDerivatives`, galaxy.py 976-1029. -/
def fixedJoin (s : FixedComposite R) (dexp ddev : List (Option M)) (dfrac : Option M) :
    Except PyErr (List (Option M)) :=
  let npos := numberOfParams (.plist s.pos)
  let nb := numberOfParams s.bright
  match (if s.posLiquid then addRange dexp ddev 0 npos else .ok []) with
  | .error e => .error e
  | .ok dpos =>
    let i0 := if s.posLiquid then npos else 0
    match (if s.brightLiquid then addRange dexp ddev i0 nb else .ok []) with
    | .error e => .error e
    | .ok db =>
      let i1 := if s.brightLiquid then i0 + nb else i0
      .ok (dpos ++ db ++ (if s.fracLiquid then [dfrac] else []) ++
        (if s.expLiquid then dexp.drop i1 else []) ++ (if s.devLiquid then ddev.drop i1 else []))

/-- `FixedCompositeGalaxy.getParamDerivatives`, galaxy.py 942-1029.  The two galaxies made there share
position and brightness with the composite (so what the first leaves behind the second sees); the
brightness is never frozen in them. -/
def fixedDerivs (I : Image R) (We Wd : GalaxyWorld R M K) (mask : Option K) (s : FixedComposite R) :
    FixedComposite R × Except PyErr (List (Option M)) :=
  match galaxyDerivs I We mask ⟨s.posLiquid, s.pos, true, s.bright, s.expLiquid, s.shapeExp⟩ with
  | (e, .error err) => ({ s with pos := e.pos, bright := e.bright, shapeExp := e.shape }, .error err)
  | (e, .ok dexp) =>
    match galaxyDerivs I Wd mask ⟨s.posLiquid, e.pos, true, e.bright, s.devLiquid, s.shapeDev⟩ with
    | (d, .error err) =>
      ({ s with pos := d.pos, bright := d.bright, shapeExp := e.shape, shapeDev := d.shape }, .error err)
    | (d, .ok ddev) =>
      let f := clip01 s.frac.val
      let dexp' := dexp.map (fun x => x.map (fun p => (1 - f) • p))
      let ddev' := ddev.map (fun x => x.map (fun p => f • p))
      let s' : FixedComposite R :=
        { s with pos := d.pos, bright := d.bright, shapeExp := e.shape, shapeDev := d.shape }
      (s', fixedJoin s' dexp' ddev' (fracDeriv (I.counts s'.bright)
        (We.unit s'.pos s'.shapeExp (some 0) mask) (Wd.unit s'.pos s'.shapeDev (some 0) mask)))

/-- A `CompositeGalaxy`. -/
structure Composite (R : Type) where
  posLiquid : Bool
  pos : PList R
  brightExpLiquid : Bool
  brightExp : Par R
  expLiquid : Bool
  shapeExp : Par R
  brightDevLiquid : Bool
  brightDev : Par R
  devLiquid : Bool
  shapeDev : Par R

/-- The source as a `MultiParams`. -/
def Composite.tree (s : Composite R) : Par R :=
  .multi (.cons ["pos"] s.posLiquid (.plist s.pos) (.cons ["brightnessExp"] s.brightExpLiquid s.brightExp
    (.cons ["shapeExp"] s.expLiquid s.shapeExp (.cons ["brightnessDev"] s.brightDevLiquid s.brightDev
      (.cons ["shapeDev"] s.devLiquid s.shapeDev .nil)))))

/-- `CompositeGalaxy.getParamDerivatives`, galaxy.py 1107-1146. -/
def compositeDerivs (I : Image R) (We Wd : GalaxyWorld R M K) (mask : Option K) (s : Composite R) :
    Composite R × Except PyErr (List (Option M)) :=
  match galaxyDerivs I We mask ⟨s.posLiquid, s.pos, s.brightExpLiquid, s.brightExp, s.expLiquid, s.shapeExp⟩ with
  | (e, .error err) => ({ s with pos := e.pos, brightExp := e.bright, shapeExp := e.shape }, .error err)
  | (e, .ok de) =>
    match galaxyDerivs I Wd mask
        ⟨s.posLiquid, e.pos, s.brightDevLiquid, s.brightDev, s.devLiquid, s.shapeDev⟩ with
    | (d, .error err) =>
      ({ s with pos := d.pos, brightExp := e.bright, shapeExp := e.shape, brightDev := d.bright,
                shapeDev := d.shape }, .error err)
    | (d, .ok dd) =>
      let s' : Composite R :=
        { s with pos := d.pos, brightExp := e.bright, shapeExp := e.shape, brightDev := d.bright,
                 shapeDev := d.shape }
      if s.posLiquid then
        let npos := (getStepSizes (.plist s'.pos)).length
        (s', (addRange de dd 0 npos).map (fun dp => dp ++ de.drop npos ++ dd.drop npos))
      else (s', .ok (de ++ dd))

end

end Verif.Src
