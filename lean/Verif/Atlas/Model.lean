import Verif.Coords.Tan
import Mathlib.Algebra.Order.Group.Unbundled.Abs

/-!
# unWISE tiles that touch an image

wise/unwise.py `unwise_tile_wcs`, `unwise_tiles_touching_wcs`.  The table of tiles is a list; `degrees_between`, the square root of two, the
radius and the centre of the target and the intersection of polygons (all astrometry.util or numpy) are parameters.
-/

namespace Verif.Atlas

open Verif.Coords (TanObj)

variable {R : Type}

/-- A row of the table of tiles: `ra`, `dec` in degrees, `coadd_id`. -/
structure Tile (R : Type) where
  ra : R
  dec : R
  coaddId : String
  deriving DecidableEq, Repr

/-- `unwise_tile_wcs(ra, dec, W, H, pixscale)`, unwise.py 14-21. -/
def tileWcs [Field R] (ra dec : R) (W H : Nat) (pixscale : R) : TanObj R :=
  ⟨ra, dec, ((W : R) + 1) / 2, ((H : R) + 1) / 2, ⟨-pixscale / 3600, 0, 0, pixscale / 3600⟩⟩

/-- The defaults, unwise.py 14. -/
def tileW : Nat := 2048

def tileH : Nat := 2048

def tileScale [Field R] : R := 275 / 100

/-- `wrad`, unwise.py 31. -/
def wrad [Field R] (sqrt2 : R) : R := sqrt2 / 2 * 2048 * (275 / 100) / 3600

variable [Field R] [LinearOrder R]

/-- `I, = np.nonzero(np.abs(T.dec - d) < rad)`, unwise.py 34. -/
def decIndices (T : List (Tile R)) (d rad : R) : List Nat :=
  (List.range T.length).filter (fun (i : Nat) => (T[i]?).any (fun t => decide (|t.dec - d| < rad)))

/-- `I = I[degrees_between(T.ra[I], T.dec[I], r, d) < rad]`, unwise.py 35. -/
def nearIndices (deg : R → R → R → R → R) (T : List (Tile R)) (I : List Nat) (r d rad : R) : List Nat :=
  I.filter (fun (i : Nat) => (T[i]?).any (fun t => decide (deg t.ra t.dec r d < rad)))

/-- `T[I]`. -/
def rows (T : List (Tile R)) (I : List Nat) : List (Tile R) := I.filterMap (fun (i : Nat) => T[i]?)

/-- `unwise_tiles_touching_wcs(wcs, polygons)`, unwise.py 24-62; `trad`, `r`, `d`: `wcs.radius()`, `wcs.radec_center()`; `meets`: does the
polygon of a tile, in pixels of the target, intersect that of the target (lines 40-59)?  With `polygons` and no tile kept, line 61 makes an
array of no numbers, whose type is float; here no rows are returned (what the table class does with it is not part of the repository). -/
def touching (deg : R → R → R → R → R) (sqrt2 : R) (T : List (Tile R)) (trad r d : R) (polygons : Bool) (meets : Tile R → Bool) : List (Tile R) :=
  let rad := trad + wrad sqrt2
  let I := nearIndices deg T (decIndices T d rad) r d rad
  if !polygons then rows T I else rows T (I.filter (fun (i : Nat) => (T[i]?).any meets))

end Verif.Atlas
