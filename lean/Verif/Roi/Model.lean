import Verif.Py

/-!
# Regions of interest

tractor/imageutils.py `interpret_roi`.  The pixel positions of the sky positions asked for, rounded to integers,
are parameters.
-/

namespace Verif.Roi

/-- A region `x0, x1, y0, y1`, the upper ends excluded. -/
structure Region where
  x0 : Int
  x1 : Int
  y0 : Int
  y1 : Int
  deriving DecidableEq, Repr

/-- `np.clip(v, 0, n)`. -/
def clip (v : Int) (n : Nat) : Int := min (max v 0) n

/-- Some pixels are missing or doubled: an axis is empty. -/
def Region.isEmpty (r : Region) : Bool := decide (r.x0 = r.x1) || decide (r.y0 = r.y1)

/-- `roiradecsize`, imageutils.py 22-33: `(xc, yc)` is the rounded pixel position, `S` the half-size. -/
def sizeRegion (H W : Nat) (xc yc : Int) (S : Int) : Region :=
  ⟨clip (xc - S) W, clip (xc + S + 1) W, clip (yc - S) H, clip (yc + S + 1) H⟩

/-- Smallest and largest of a non-empty list. -/
def minOf (a : Int) (l : List Int) : Int := l.foldl min a

def maxOf (a : Int) (l : List Int) : Int := l.foldl max a

/-- `roiradecbox`, imageutils.py 35-51: the rounded pixel positions of the four corners. -/
def boxRegion (H W : Nat) (c0 c1 c2 c3 : Int × Int) : Region :=
  ⟨clip (minOf c0.1 [c1.1, c2.1, c3.1]) W, clip (maxOf c0.1 [c1.1, c2.1, c3.1] + 1) W,
    clip (minOf c0.2 [c1.2, c2.2, c3.2]) H, clip (maxOf c0.2 [c1.2, c2.2, c3.2] + 1) H⟩

/-- `interpret_roi(wcs, (H, W), roi, roiradecsize, roiradecbox)`, imageutils.py 20-60: `none` is None; the flag
tells whether the region differs from the full image. -/
def interpretRoi (H W : Nat) (roi : Option Region) (size : Option (Int × Int × Int))
    (corners : Option ((Int × Int) × (Int × Int) × (Int × Int) × (Int × Int))) : Option (Region × Bool) :=
  let roi1 := match size with
    | some (xc, yc, S) => some (sizeRegion H W xc yc S)
    | none => roi
  if (size.isSome && (roi1.map Region.isEmpty).getD false) then none
  else
    let roi2 := match corners with
      | some (c0, c1, c2, c3) => some (boxRegion H W c0 c1 c2 c3)
      | none => roi1
    if (corners.isSome && (roi2.map Region.isEmpty).getD false) then none
    else
      let r := roi2.getD ⟨0, W, 0, H⟩
      some (r, decide (r.x0 ≠ 0) || decide (r.y0 ≠ 0) || decide (r.x1 ≠ W) || decide (r.y1 ≠ H))

end Verif.Roi
