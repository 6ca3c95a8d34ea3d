import Verif.Arr
import Mathlib.Algebra.Field.Basic

/-!
# Spline sky models

tractor/splinesky.py `SplineSky`: the grid on which the sky is estimated (`BlantonMethod`) and the smoothness
prior.  The spline itself (scipy `RectBivariateSpline`) is external: its constructor needs strictly increasing
coordinates and more than `order` of them, and its coefficients are listed with the x index outermost
(FITPACK: coefficient `i * len(Y) + j` belongs to `X[i]`, `Y[j]`).
-/

namespace Verif.Sky

variable {R : Type}

/-- Half the grid size and the number of grid points on an axis of length `n`, splinesky.py 26-28. -/
def gridCount (n hb : Nat) : Nat := n / hb + 2

/-- The grid positions on an axis, splinesky.py 29-30 (and 33-34): `astype(int)` truncates towards zero. -/
def gridPos (n hb : Nat) (i : Nat) : Int :=
  ((n : Int) - ((gridCount n hb : Int) - 2) * hb) / 2 + Int.tdiv ((hb : Int) * (2 * i - 1)) 2

/-- The box around a grid position: first pixel and one past the last, splinesky.py 39, 41. -/
def box (n hb : Nat) (x : Int) : Int × Int := (max 0 (x - hb), min n (x + hb))

/-- Strictly increasing. -/
def increasing : List Int → Bool
  | a :: b :: l => decide (a < b) && increasing (b :: l)
  | _ => true

/-- What the spline constructor demands of its coordinates (`order` 3). -/
def axisOk (l : List Int) : Bool := increasing l && decide (3 < l.length)

/-- The sky made by `BlantonMethod`: grid coordinates and the values at the grid points. -/
structure Grid (R : Type) where
  xgrid : List Int
  ygrid : List Int
  vals : Arr R

/-- `BlantonMethod(image, mask, gridsize, estimator)`, splinesky.py 20-52, and the constructor, 54-70.  With
`mask=None` the local variable `msk` has no value. -/
def blanton (est : Arr R → Arr Bool → R) (image : Arr R) (mask : Option (Arr Bool)) (gridsize : Nat) :
    Except PyErr (Grid R) :=
  let hb := gridsize / 2
  if hb = 0 then .error .zeroDiv
  else
    let nx := gridCount image.w hb
    let ny := gridCount image.h hb
    let xgrid := (List.range nx).map (gridPos image.w hb)
    let ygrid := (List.range ny).map (gridPos image.h hb)
    match mask with
    | none => .error .nameErr
    | some mask =>
      let vals : Arr R := ⟨ny, nx, fun iy ix =>
        let yb := box image.h hb (gridPos image.h hb iy)
        let xb := box image.w hb (gridPos image.w hb ix)
        est (image.slice (some yb.1) (some yb.2) (some xb.1) (some xb.2))
          (mask.slice (some yb.1) (some yb.2) (some xb.1) (some xb.2))⟩
      if axisOk xgrid && axisOk ygrid then .ok ⟨xgrid, ygrid, vals⟩ else .error .value

/-! ### Smoothness prior -/

section
variable [Field R]

/-- A spline sky as far as the prior needs it: `W = len(X)`, `H = len(Y)`, the coefficients, sigma. -/
structure Smooth (R : Type) where
  W : Nat
  H : Nat
  vals : List R
  sig : Option R

/-- Coefficient number `i`. -/
def coef (vals : List R) (i : Nat) : R := vals.getD i 0

/-- `getParamGrid`, splinesky.py 138-142: the coefficients as an array with `H` rows (the assertion makes the
number of columns `W`). -/
def paramGrid (s : Smooth R) : Except PyErr (Arr R) :=
  if s.vals.length = s.W * s.H then .ok ⟨s.H, s.W, fun r c => coef s.vals (r * s.W + c)⟩ else .error .assertion

/-- Sum of `f r c` over an array of `h` rows and `w` columns. -/
def sum2 (h w : Nat) (f : Nat → Nat → R) : R :=
  ((List.range h).map (fun r => ((List.range w).map (f r)).sum)).sum

/-- `getLogPrior`, splinesky.py 144-151. -/
def logPrior (s : Smooth R) : Except PyErr R :=
  match s.sig with
  | none => .ok 0
  | some sig => (paramGrid s).map (fun p =>
      -(1 / 2) * sum2 (p.h - 1) p.w (fun r c => (p.px (r + 1) c - p.px r c) ^ 2) / sig ^ 2 +
      -(1 / 2) * sum2 p.h (p.w - 1) (fun r c => (p.px r (c + 1) - p.px r c) ^ 2) / sig ^ 2)

/-- The matrix and right-hand side: entries (row, column, value), and `b` (`mub` is zero). -/
structure PriorTerms (R : Type) where
  A : List (Nat × Nat × R)
  b : List R

/-- `A.ravel()` of the array with `f r c`. -/
def ravel2 {A : Type} (h w : Nat) (f : Nat → Nat → A) : List A :=
  (List.range h).flatMap (fun r => (List.range w).map (f r))

/-- `rA = off + arange(N)`, `cA = cols`, `vA = v * ones(N)`. -/
def block (off : Nat) (cols : List Nat) (v : R) : List (Nat × Nat × R) :=
  cols.zipIdx.map (fun ck => (off + ck.2, ck.1, v))

/-- `getLogPriorDerivatives`, splinesky.py 153-204. -/
def logPriorDerivs (s : Smooth R) : Except PyErr (Option (PriorTerms R)) :=
  match s.sig with
  | none => .ok none
  | some sig => (paramGrid s).map (fun p =>
      let II := fun r c => r * p.w + c
      let dx := ravel2 p.h (p.w - 1) (fun r c => p.px r (c + 1) - p.px r c)
      let dy := ravel2 (p.h - 1) p.w (fun r c => p.px (r + 1) c - p.px r c)
      let NX := dx.length
      some ⟨block 0 (ravel2 p.h (p.w - 1) II) (1 / sig) ++
          block 0 (ravel2 p.h (p.w - 1) (fun r c => II r (c + 1))) (-1 / sig) ++
          block NX (ravel2 (p.h - 1) p.w II) (1 / sig) ++
          block NX (ravel2 (p.h - 1) p.w (fun r c => II (r + 1) c)) (-1 / sig),
        dx.map (· / sig) ++ dy.map (· / sig)⟩)

end

/-- The grid point (x index, y index) of coefficient `k` (see the head of the file). -/
def gridPoint (H k : Nat) : Nat × Nat := (k / H, k % H)

end Verif.Sky
