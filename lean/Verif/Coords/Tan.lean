import Verif.Coords.Model
import Verif.Params.Model

/-!
# Projections with parameters

tractor/wcs.py `TanWcs`, with `ConstantFitsWcs` and tractor/utils.py `ParamList`.  The wrapped `Tan` object is the eight numbers of a tangent
projection; what the library computes from them is a parameter.  Sharing of one `Tan` by several objects is not modelled.
-/

namespace Verif.Coords

open Verif Verif.Params

variable {R : Type}

/-- The numbers of an `astrometry.util.util.Tan`: `crval`, `crpix`, `cd` (by rows). -/
structure TanObj (R : Type) where
  crval1 : R
  crval2 : R
  crpix1 : R
  crpix2 : R
  cd : Mat R
  deriving DecidableEq, Repr

/-- What the library computes: `radec2pixelxy`, `pixelxy2radec`, `pixel_scale`. -/
structure TanLib (R : Type) where
  toPix : TanObj R → R → R → R × R
  toSky : TanObj R → R → R → R × R
  scale : TanObj R → R

/-- The attributes of a `TanWcs`: the wrapped object, the offset, the matrix, its inverse and the pixel scale as computed by the constructor, and the flags. -/
structure TanWcs (R : Type) where
  wcs : TanObj R
  x0 : R
  y0 : R
  cd : Mat R
  cdInverse : Mat R
  pixscale : R
  liquid : List Bool
  deriving DecidableEq, Repr

section
variable [Field R] [DecidableEq R]

/-- `TanWcs(wcs)`, wcs.py 274-301 with 157-170 and utils.py 411-416, 728-733.  Line 295 needs the name `basestring`, which Python 3 does not have. -/
def newTan (lib : TanLib R) (basestring : Bool) (t : TanObj R) : Except PyErr (TanWcs R) :=
  if basestring then
    match t.cd.inv with
    | .error e => .error e
    | .ok inv => .ok { wcs := t, x0 := 0, y0 := 0, cd := t.cd, cdInverse := inv, pixscale := lib.scale t, liquid := List.replicate 10 true }
  else .error .nameErr

/-- `copy()`, wcs.py 303-307: a new object around a copy of the wrapped one. -/
def TanWcs.copy (lib : TanLib R) (basestring : Bool) (w : TanWcs R) : Except PyErr (TanWcs R) :=
  match newTan lib basestring w.wcs with
  | .error e => .error e
  | .ok c => .ok { c with x0 := w.x0, y0 := w.y0 }

/-- `shifted(dx, dy)`, wcs.py 309-313. -/
def TanWcs.shifted (lib : TanLib R) (basestring : Bool) (w : TanWcs R) (dx dy : R) : Except PyErr (TanWcs R) :=
  match w.copy lib basestring with
  | .error e => .error e
  | .ok c => .ok { c with x0 := w.x0 + dx, y0 := w.y0 + dy }

end

/-- `_getThings()`, wcs.py 354-356. -/
def TanWcs.things (w : TanWcs R) : List R :=
  [w.wcs.crval1, w.wcs.crval2, w.wcs.crpix1, w.wcs.crpix2, w.wcs.cd.a, w.wcs.cd.b, w.wcs.cd.c, w.wcs.cd.d, w.x0, w.y0]

/-- `_getThing(i)`, wcs.py 337-352. -/
def TanWcs.getThing (w : TanWcs R) : Nat → Except PyErr R
  | 0 => .ok w.wcs.crval1
  | 1 => .ok w.wcs.crval2
  | 2 => .ok w.wcs.crpix1
  | 3 => .ok w.wcs.crpix2
  | 4 => .ok w.wcs.cd.a
  | 5 => .ok w.wcs.cd.b
  | 6 => .ok w.wcs.cd.c
  | 7 => .ok w.wcs.cd.d
  | 8 => .ok w.x0
  | 9 => .ok w.y0
  | _ => .error .index

/-- `_setThing(i, val)`, wcs.py 317-335. -/
def TanWcs.setThing (w : TanWcs R) (i : Nat) (v : R) : Except PyErr (TanWcs R) :=
  match i with
  | 0 => .ok { w with wcs := { w.wcs with crval1 := v } }
  | 1 => .ok { w with wcs := { w.wcs with crval2 := v } }
  | 2 => .ok { w with wcs := { w.wcs with crpix1 := v } }
  | 3 => .ok { w with wcs := { w.wcs with crpix2 := v } }
  | 4 => .ok { w with wcs := { w.wcs with cd := { w.wcs.cd with a := v } } }
  | 5 => .ok { w with wcs := { w.wcs with cd := { w.wcs.cd with b := v } } }
  | 6 => .ok { w with wcs := { w.wcs with cd := { w.wcs.cd with c := v } } }
  | 7 => .ok { w with wcs := { w.wcs with cd := { w.wcs.cd with d := v } } }
  | 8 => .ok { w with x0 := v }
  | 9 => .ok { w with y0 := v }
  | _ => .error .index

/-- `getParams()`, utils.py 782-786. -/
def TanWcs.getParams (w : TanWcs R) : List R := liquidArray w.liquid w.things

/-- `getAllParams()`, utils.py 788-789. -/
def TanWcs.getAllParams (w : TanWcs R) : List R := w.things

/-- `numberOfParams()`, utils.py 779-780. -/
def TanWcs.numberOfParams (w : TanWcs R) : Nat := countLiquid w.liquid

/-- `setParam(i, val)`, utils.py 769-773: the object left behind and the old value. -/
def TanWcs.setParam (w : TanWcs R) (i : Int) (v : R) : TanWcs R × Except PyErr R :=
  match indexLiquid w.liquid i with
  | .error e => (w, .error e)
  | .ok ii =>
    match w.getThing ii with
    | .error e => (w, .error e)
    | .ok old =>
      match w.setThing ii v with
      | .error e => (w, .error e)
      | .ok w' => (w', .ok old)

/-- The loop of `setParams`: raw indices from `k` on, flags and values left. -/
def setLoop (w : TanWcs R) (k : Nat) : List Bool → List R → TanWcs R × Option PyErr
  | [], _ => (w, none)
  | false :: fs, p => setLoop w (k + 1) fs p
  | true :: _, [] => (w, some .index)
  | true :: fs, x :: p =>
    match w.setThing k x with
    | .error e => (w, some e)
    | .ok w' => setLoop w' (k + 1) fs p

/-- `setParams(p)`, utils.py 775-777. -/
def TanWcs.setParams (w : TanWcs R) (p : List R) : TanWcs R × Option PyErr := setLoop w 0 w.liquid p

/-- `freezeParam(i)`, `thawParam(i)` with an index, utils.py 560-566, 585-595. -/
def TanWcs.setFlag (w : TanWcs R) (i : Nat) (b : Bool) : TanWcs R := { w with liquid := w.liquid.set i b }

/-- `getLowerBounds()`, utils.py 799-800: `lowers` was made for no values (728-730, wcs.py 163). -/
def TanWcs.getLowerBounds (w : TanWcs R) : List (Option R) := liquidArray w.liquid []

/-- The names of the parameters, wcs.py 267-270. -/
def tanNames : List String := ["crval1", "crval2", "crpix1", "crpix2", "cd1_1", "cd1_2", "cd2_1", "cd2_2"]

/-- Attribute access by name, utils.py 492-493 (`_getNamedThing`). -/
def TanWcs.getNamed (w : TanWcs R) (nm : String) : Except PyErr R :=
  match tanNames.idxOf? nm with
  | some i => w.getThing i
  | none => .error .key

section
variable [Field R]

/-- `getStepSizes()`, wcs.py 361-368. -/
def TanWcs.getStepSizes (lib : TanLib R) (w : TanWcs R) : List R :=
  let dcrval := lib.scale w.wcs / 3600
  let dcd := lib.scale w.wcs / 3600 / 1000
  liquidArray w.liquid [dcrval, dcrval, 1, 1, dcd, dcd, dcd, dcd, 1, 1]

/-- `positionToPixel(pos)`, wcs.py 201-214. -/
def TanWcs.positionToPixel (lib : TanLib R) (w : TanWcs R) (ra dec : R) : R × R :=
  let p := lib.toPix w.wcs ra dec
  (p.1 - 1 - w.x0, p.2 - 1 - w.y0)

/-- `pixelToPosition(x, y)`, wcs.py 216-223. -/
def TanWcs.pixelToPosition (lib : TanLib R) (w : TanWcs R) (x y : R) : R × R := lib.toSky w.wcs (x + 1 + w.x0) (y + 1 + w.y0)

end

/-- `cdAtPixel`, `cdInverseAtPixel`, `pixscale_at`, wcs.py 225-244: what the constructor computed. -/
def TanWcs.cdAtPixel (w : TanWcs R) : Mat R := w.cd

/-- What a user or an optimizer does with it. -/
inductive TanOp (R : Type) where
  | setParam (i : Int) (v : R)
  | setParams (p : List R)
  | setFlag (i : Nat) (b : Bool)
  | setX0Y0 (x y : R)

/-- One such action; an exception leaves the object as it is then. -/
def tanStep (w : TanWcs R) : TanOp R → TanWcs R
  | .setParam i v => (w.setParam i v).1
  | .setParams p => (w.setParams p).1
  | .setFlag i b => w.setFlag i b
  | .setX0Y0 x y => { w with x0 := x, y0 := y }

/-- A sequence of actions. -/
def tanRun (w : TanWcs R) (ops : List (TanOp R)) : TanWcs R := ops.foldl tanStep w

end Verif.Coords
