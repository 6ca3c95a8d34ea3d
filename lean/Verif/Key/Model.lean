import Verif.Cache.Model

/-!
# Keys under which model images are cached

`hashkey()` of the classes of tractor/utils.py, wcs.py, psf.py, psfex.py, shifted.py, image.py, and its use in tractor/cache.py 25-26.  Numbers are
elements of an arbitrary type (no NaN); keys of `NCircularGaussianPSF` are in `Verif.Mog`; SDSS and CFHT calibrations, hybrid PSFs and splines are left
out.
-/

namespace Verif.Hashed

variable {R : Type}

mutual
/-- An element of a tuple used as key. -/
inductive Key (R : Type) where
  | str (s : String)
  | num (x : R)
  | none
  /-- `id(obj)` -/
  | ident (n : Nat)
  | tup (k : Keys R)
/-- A tuple. -/
inductive Keys (R : Type) where
  | nil
  | cons (k : Key R) (l : Keys R)
end

/-- A tuple of the elements of a list. -/
def Keys.ofList : List (Key R) → Keys R
  | [] => .nil
  | k :: l => .cons k (.ofList l)

mutual
/-- Objects, with all attributes that matter when a source is rendered. -/
inductive Obj (R : Type) where
  /-- A `ParamList`, `ScalarParam` or object without parameters: class, values, and attributes that are not parameters (the bands of a
  `MultiBandBrightness`, the band of a calibration). -/
  | list (cls : String) (vals : List R) (attrs : List String)
  /-- A `MultiParams` (e.g. a source) and attributes that are not parameters (e.g. `fixedRadius`, `minRadius` of a point source, `halfsize` of a galaxy). -/
  | multi (cls : String) (subs : Objs R) (attrs : List (Option R))
  | nullWcs (dx dy pixscale : R)
  /-- `ConstantFitsWcs` and `TanWcs`: the offset, the identity of the wrapped WCS object and its present content. -/
  | fitsWcs (x0 y0 : R) (wcs : Nat) (content : List R)
  /-- `PixelizedPSF`, `NormalizedPixelizedPsf`: rows of the image. -/
  | pixPsf (img : List (List R)) (sampling : R) (normalized : Bool)
  /-- `PixelizedPsfEx`, `NormalizedPixelizedPsfEx`: file, extension, offset and images of the model. -/
  | psfEx (fn : Option String) (ext : Nat) (x0 y0 : R) (bases : List R) (normalized : Bool)
  | shiftedPsf (x0 y0 : R) (psf : Obj R)
  | scaledCal (factor : R) (cal : Obj R)
  | scaledWcs (factor : R) (wcs : Obj R)
  | shiftedWcs (x0 y0 : R) (wcs : Obj R)
  /-- Other `ParamsWrapper`s, e.g. `SdssBrightPSF` with its own numbers. -/
  | wrapper (real : Obj R) (own : List R)
/-- The sub-objects of a `MultiParams`; some may be None. -/
inductive Objs (R : Type) where
  | nil
  | cons (o : Obj R) (l : Objs R)
  | none (l : Objs R)
end

mutual
/-- `hashkey()`: utils.py 209-210 and 788-789 (all parameters), 998-1006, wcs.py 22-23 and 172-173, psf.py 117-118, psfex.py 445-446, shifted.py 35-36,
76-77, 127-128, 140-141, 178-179. -/
def Obj.key : Obj R → Keys R
  | .list cls vals _ => .cons (.str cls) (.ofList (vals.map .num))
  | .multi cls subs _ => .cons (.str cls) subs.keys
  | .nullWcs dx dy _ => .ofList [.str "NullWCS", .num dx, .num dy]
  | .fitsWcs x0 y0 wcs _ => .ofList [.num x0, .num y0, .ident wcs]
  | .pixPsf img _ _ => .ofList [.str "PixelizedPSF", .tup (.ofList (img.flatten.map .num))]
  | .psfEx fn ext _ _ _ _ => .ofList [.str "PixelizedPsfEx", (match fn with | some f => .str f | Option.none => .none), .ident ext]
  | .shiftedPsf x0 y0 psf => .cons (.str "ShiftedPsf") (.cons (.num x0) (.cons (.num y0) psf.key))
  | .scaledCal f cal => .cons (.str "ScaledPhotoCal") (.cons (.num f) cal.key)
  | .scaledWcs f wcs => .cons (.str "ScaledWcs") (.cons (.num f) wcs.key)
  | .shiftedWcs x0 y0 wcs => .cons (.str "ShiftedWcs") (.cons (.num x0) (.cons (.num y0) wcs.key))
  | .wrapper real _ => real.key
/-- The keys of the sub-objects. -/
def Objs.keys : Objs R → Keys R
  | .nil => .nil
  | .cons o l => .cons (.tup o.key) l.keys
  | .none l => .cons .none l.keys
end

/-- An image: the identities of its arrays, its shape, and its calibrations. -/
structure Image (R : Type) where
  data : Nat
  inverr : Nat
  H : Nat
  W : Nat
  psf : Obj R
  sky : Obj R
  wcs : Obj R
  photocal : Obj R

/-- `Image.hashkey()`, image.py 154-157. -/
def Image.key (i : Image R) : Keys R :=
  .ofList [.str "Image", .ident i.data, .ident i.inverr, .tup i.psf.key, .tup i.sky.key, .tup i.wcs.key, .tup i.photocal.key]

/-- `(img.hashkey(), src.hashkey())`, cache.py 25. -/
def deps (i : Image R) (s : Obj R) : Key R := .tup (.ofList [.tup i.key, .tup s.key])

/-- What Python's `hash` does on numbers, strings, None and identities, and how it combines the hashes of the elements of a tuple. -/
structure Hashing (R : Type) where
  num : R → Int
  str : String → Int
  none : Int
  ident : Nat → Int
  tup : List Int → Int

mutual
/-- `hash(key)`. -/
def Key.hash (h : Hashing R) : Key R → Int
  | .str s => h.str s
  | .num x => h.num x
  | .none => h.none
  | .ident n => h.ident n
  | .tup k => h.tup (k.hashes h)
/-- The hashes of the elements of a tuple. -/
def Keys.hashes (h : Hashing R) : Keys R → List Int
  | .nil => []
  | .cons k l => k.hash h :: l.hashes h
end

/-- `hash` of an integer, or of a float that is one, in CPython: the remainder modulo 2^61 - 1 with the sign, but never -1 (documentation of numeric types,
"Hashing of numeric types"). -/
def hashInt (n : Int) : Int :=
  let m := if n < 0 then -((-n) % (2 ^ 61 - 1)) else n % (2 ^ 61 - 1)
  if m = -1 then -2 else m

/-! ### Changes -/

/-- `TanWcs._setThing(i, val)`, wcs.py 307-326: the first eight are stored in the wrapped object, the last two are the offset. -/
def tanSetThing (o : Obj R) (i : Nat) (v : R) : Obj R :=
  match o with
  | .fitsWcs x0 y0 wcs content =>
    if i < 8 then .fitsWcs x0 y0 wcs (content.set i v) else if i = 8 then .fitsWcs v y0 wcs content else .fitsWcs x0 v wcs content
  | o => o

/-- `PixelizedPsfEx.getShifted(dx, dy)`, psfex.py 453-457 with 281-291: a new object without file. -/
def getShifted [Sub R] (o : Obj R) (dx dy : R) : Obj R :=
  match o with
  | .psfEx _ _ x0 y0 bases normalized => .psfEx none 1 (x0 - dx) (y0 - dy) bases normalized
  | o => o

/-- `PixelizedPsfEx.shift(dx, dy)`, psfex.py 459-467 with 289-291: in place. -/
def shift [Sub R] (o : Obj R) (dx dy : R) : Obj R :=
  match o with
  | .psfEx fn ext x0 y0 bases normalized => .psfEx fn ext (x0 - dx) (y0 - dy) bases normalized
  | o => o

/-- `getBand(band)` of a `MultiBandBrightness`, brightness.py 65-66: the bands are the names of the parameters. -/
def getBand (o : Obj R) (band : String) : Option R :=
  match o with
  | .list _ vals bands => (bands.zip vals).lookup band
  | _ => none

/-- The cached engine (`Verif.Cache`), with the hash of the two keys as key, cache.py 25-26. -/
def world {M P : Type} (h : Hashing R) (render : M → Image R → Obj R → R → Option P) (renderDefault : M → Image R → Obj R → Option P)
    (modelMinval : Image R → R) : Verif.Cache.World (Image R) (Obj R) M R P Int where
  render := render
  renderDefault := renderDefault
  key := fun i s => (deps i s).hash h
  modelMinval := modelMinval

end Verif.Hashed
