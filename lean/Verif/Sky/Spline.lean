import Verif.Sky.Model
import Mathlib.Algebra.BigOperators.Group.Finset.Basic
import Mathlib.Algebra.Order.Field.Basic

/-!
# Spline skies as objects

tractor/splinesky.py `SplineSky` (53-135, 219-265).  The spline is scipy's `RectBivariateSpline`.  Its fit is external
(a parameter `fit`); its evaluation is that of FITPACK (`bispev`, `fpbspl`): a tensor product of B-splines, arguments
outside the range of the knots being moved to its end.  Numbers are exact.
-/

namespace Verif.Sky

variable {R : Type}

section
variable [Field R] [LinearOrder R]

/-- `tck` and degree: knots of both axes, coefficients (x index outermost). -/
structure Spl (R : Type) where
  tx : List R
  ty : List R
  k : Nat
  c : List R

/-- Knot number `i`. -/
def knot (t : List R) (i : Nat) : R := t.getD i 0

/-- FITPACK fpbisp: an argument outside the range is moved to its end. -/
def clampTo (t : List R) (k : Nat) (x : R) : R := min (knot t (t.length - k - 1)) (max (knot t k) x)

/-- FITPACK fpbisp: the knot interval of an argument within the range; the last one is closed. -/
def span (t : List R) (k : Nat) (x : R) : Nat :=
  ((List.range' k (t.length - k - 2 - k)).find? (fun l => decide (x < knot t (l + 1)))).getD (t.length - k - 2)

/-- B-spline number `i` of degree `p` at `x` in knot interval `l` (Cox and de Boor; FITPACK fpbspl computes those that are
not zero, in the same way). -/
def bspl (t : List R) (l : Nat) (x : R) : Nat → Nat → R
  | 0, i => if i = l then 1 else 0
  | p + 1, i =>
    (x - knot t i) / (knot t (i + p + 1) - knot t i) * bspl t l x p i +
      (knot t (i + p + 2) - x) / (knot t (i + p + 2) - knot t (i + 1)) * bspl t l x p (i + 1)

/-- The weight of coefficient `i` of an axis at `x`. -/
def weight (t : List R) (k : Nat) (x : R) (i : Nat) : R :=
  bspl t (span t k (clampTo t k x)) (clampTo t k x) k i

/-- Numbers of coefficients on the axes. -/
def Spl.mx (s : Spl R) : Nat := s.tx.length - s.k - 1

def Spl.my (s : Spl R) : Nat := s.ty.length - s.k - 1

/-- `spl(x, y)`. -/
def Spl.eval (s : Spl R) (x y : R) : R :=
  ∑ i ∈ Finset.range s.mx, ∑ j ∈ Finset.range s.my, coef s.c (i * s.my + j) * weight s.tx s.k x i * weight s.ty s.k y j

/-- A `SplineSky`, splinesky.py 53-82.  `vals` is the coefficient array of `spl` itself, not a copy, so there is one list.
Names, bounds and step sizes of the parameters are left out (C12, C13). -/
structure SplineSky (R : Type) where
  xgrid : List R
  ygrid : List R
  order : Nat
  spl : Spl R
  liquid : List Bool
  smooth : Option R
  x0 : R
  y0 : R

/-- `interp.RectBivariateSpline(X, Y, bg.T, kx=order, ky=order)`: X, Y, rows of `bg`, order. -/
abbrev Fit (R : Type) := List R → List R → List (List R) → Nat → Except PyErr (Spl R)

/-- The constructor, splinesky.py 53-82. -/
def new (fit : Fit R) (X Y : List R) (bg : List (List R)) (order : Nat) : Except PyErr (SplineSky R) :=
  match fit X Y bg order with
  | .error e => .error e
  | .ok s => .ok ⟨X, Y, order, s, List.replicate s.c.length true, none, 0, 0⟩

/-- `get_grid()`, splinesky.py 92-94: by rows. -/
def getGrid (s : SplineSky R) : List (List R) := s.ygrid.map (fun y => s.xgrid.map (fun x => s.spl.eval x y))

/-- `copy()`, splinesky.py 84-90. -/
def copy (fit : Fit R) (s : SplineSky R) : Except PyErr (SplineSky R) :=
  match new fit s.xgrid s.ygrid (getGrid s) s.order with
  | .error e => .error e
  | .ok c => .ok { c with x0 := s.x0, y0 := s.y0, liquid := s.liquid }

/-- `shift(x0, y0)`, splinesky.py 96-98. -/
def shift (s : SplineSky R) (x0 y0 : R) : SplineSky R := { s with x0 := s.x0 + x0, y0 := s.y0 + y0 }

/-- `shifted(x0, y0)`, splinesky.py 100-103. -/
def shifted (fit : Fit R) (s : SplineSky R) (x0 y0 : R) : Except PyErr (SplineSky R) :=
  match copy fit s with
  | .error e => .error e
  | .ok c => .ok (shift c x0 y0)

/-- The sky with other coefficients. -/
def withCoefs (s : SplineSky R) (c : List R) : SplineSky R := { s with spl := { s.spl with c := c } }

/-- `offset(dsky)`, splinesky.py 105-112. -/
def offset (s : SplineSky R) (d : R) : SplineSky R := withCoefs s (s.spl.c.map (· + d))

/-- `scale(s)`, splinesky.py 114-120: the coefficients are changed in place. -/
def scale (s : SplineSky R) (a : R) : SplineSky R := withCoefs s (s.spl.c.map (· * a))

/-- `_indexLiquid(j)`, utils.py 692-699. -/
def indexLiquid : List Bool → Nat → Option Nat
  | [], _ => none
  | true :: _, 0 => some 0
  | true :: l, j + 1 => (indexLiquid l j).map (· + 1)
  | false :: l, j => (indexLiquid l j).map (· + 1)

/-- `setParam(i, val)`, utils.py 753-754, 769-773: the new state and the old value; IndexError if there is no such
parameter. -/
def setParam (s : SplineSky R) (i : Nat) (v : R) : SplineSky R × Except PyErr R :=
  match indexLiquid s.liquid i with
  | none => (s, .error .index)
  | some ii => if ii < s.spl.c.length then (withCoefs s (s.spl.c.set ii v), .ok (coef s.spl.c ii)) else (s, .error .index)

/-- `addTo(mod, scale)`, splinesky.py 129-135. -/
def addTo (s : SplineSky R) (mod : Arr R) (a : R) : Arr R :=
  ⟨mod.h, mod.w, fun r c => mod.px r c + s.spl.eval ((c : R) + s.x0) ((r : R) + s.y0) * a⟩

/-- What `getLogPrior` and `getLogPriorDerivatives` need, splinesky.py 61-62, 137-204. -/
def toSmooth (s : SplineSky R) : Smooth R := ⟨s.xgrid.length, s.ygrid.length, s.spl.c, s.smooth⟩

/-- The row of the table made by `to_fits_table`; class name left out. -/
structure Row (R : Type) where
  xgrid : List Int
  ygrid : List Int
  x0 : Int
  y0 : Int
  gridvals : List (List R)
  order : Nat

/-- `to_fits_table()`, splinesky.py 219-236.  `trunc` is `astype(np.int32)` (numbers that fit), `f32` is
`astype(np.float32)`. -/
def toRow (trunc : R → Int) (f32 : R → R) (s : SplineSky R) : Row R :=
  ⟨s.xgrid.map trunc, s.ygrid.map trunc, trunc s.x0, trunc s.y0, (getGrid s).map (List.map f32), s.order % 256⟩

/-- `from_fits_row(Ti)`, splinesky.py 260-264. -/
def fromRow (fit : Fit R) (T : Row R) : Except PyErr (SplineSky R) :=
  match new fit (T.xgrid.map (fun i : Int => (i : R))) (T.ygrid.map (fun i : Int => (i : R))) T.gridvals T.order with
  | .error e => .error e
  | .ok s => .ok (shift s T.x0 T.y0)

end

end Verif.Sky
