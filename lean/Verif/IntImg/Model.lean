import Verif.Arr
import Mathlib.Algebra.Group.Basic

/-!
# Integral images

tractor/integral_image.py and tractor/symmetric_integral_image.py.  Coordinates are integers (the code
truncates with `astype(int)`); values are elements of a commutative group.  The functions of the code take
either one rectangle or arrays of rectangles and work on each rectangle separately: the model is of one
rectangle (`intimgRect`) and of lists (`intimgRects`; if several rectangles fail, the model reports the error
of the first one).
-/

namespace Verif.IntImg

variable {M : Type} [AddCommGroup M]

/-- `numpy.cumsum` of the values `f 0, f 1, …`. -/
def cum (f : Nat → M) : Nat → M
  | 0 => f 0
  | n + 1 => cum f n + f (n + 1)

/-- `integral_image(I)`: cumsum along rows axis, then along columns, integral_image.py 6-7. -/
def integralImage (I : Arr M) : Arr M :=
  let J : Arr M := ⟨I.h, I.w, fun r c => cum (fun r' => I.px r' c) r⟩
  ⟨J.h, J.w, fun r c => cum (fun c' => J.px r c') c⟩

/-- The position meant by the index `i` on an axis of length `n`: negative indices count from the end. -/
def axisIndex (n : Nat) (i : Int) : Except PyErr Nat :=
  if 0 ≤ i ∧ i < n then .ok i.toNat
  else if i < 0 ∧ 0 ≤ i + n then .ok (i + n).toNat
  else .error .index

/-- `img[y, x]`. -/
def get (A : Arr M) (y x : Int) : Except PyErr M :=
  match axisIndex A.h y, axisIndex A.w x with
  | .ok r, .ok c => .ok (A.px r c)
  | .error e, _ => .error e
  | _, .error e => .error e

/-- `A[I] += v` for one element: `v` is only evaluated where the mask `c` is true. -/
def addIf (c : Prop) [Decidable c] (a : M) (v : Except PyErr M) : Except PyErr M :=
  if c then v.map (a + ·) else .ok a

/-- `A[I] -= v` for one element. -/
def subIf (c : Prop) [Decidable c] (a : M) (v : Except PyErr M) : Except PyErr M :=
  if c then v.map (a - ·) else .ok a

/-- `v + w`. -/
def both (v w : Except PyErr M) : Except PyErr M := do
  let a ← v
  let b ← w
  return a + b

/-- `intimg_rect(img, x0, x1, y0, y1)`, integral_image.py 42-62. -/
def intimgRect (A : Arr M) (x0 x1 y0 y1 : Int) : Except PyErr M :=
  if ¬ (0 ≤ x1) then .error .assertion
  else if ¬ (0 ≤ y1) then .error .assertion
  else if ¬ (x0 < x1) then .error .assertion
  else if ¬ (y0 < y1) then .error .assertion
  else do
    let a ← get A y1 x1
    let a ← addIf (0 ≤ x0 ∧ 0 ≤ y0) a (get A y0 x0)
    let a ← subIf (0 ≤ x0) a (get A y1 x0)
    let a ← subIf (0 ≤ y0) a (get A y0 x1)
    return a

/-- A rectangle: `x0, x1, y0, y1`. -/
abbrev Rect := Int × Int × Int × Int

/-- `intimg_rect` of arrays of rectangles. -/
def intimgRects (A : Arr M) (rs : List Rect) : Except PyErr (List M) :=
  rs.mapM (fun r => intimgRect A r.1 r.2.1 r.2.2.1 r.2.2.2)

/-- `symm_intimg_rect(img, x0, x1, y0, y1, midline)`, symmetric_integral_image.py 62-107. -/
def symmRect (A : Arr M) (x0 x1 y0 y1 mid : Int) : Except PyErr M :=
  if ¬ (x0 ≤ x1) then .error .assertion
  else if ¬ (y0 ≤ y1) then .error .assertion
  else do
    let r ← addIf (y0 < mid ∧ x0 < mid) 0 (intimgRect A x0 (min x1 mid) y0 (min y1 mid))
    let r ← addIf (mid < x1 ∧ y0 < mid) r
      (intimgRect A (2 * mid - x1 - 1) (2 * mid - max (mid + 1) (x0 + 1)) y0 (min y1 mid))
    let r ← addIf (mid < y1 ∧ x0 < mid) r
      (intimgRect A x0 (min x1 mid) (2 * mid - y1 - 1) (2 * mid - max (mid + 1) (y0 + 1)))
    let r ← addIf (mid < y1 ∧ mid < x1) r
      (intimgRect A (2 * mid - x1 - 1) (2 * mid - max (mid + 1) (x0 + 1))
        (2 * mid - y1 - 1) (2 * mid - max (mid + 1) (y0 + 1)))
    return r

/-- `symm_intimg_rect` of arrays of rectangles. -/
def symmRects (A : Arr M) (mid : Int) (rs : List Rect) : Except PyErr (List M) :=
  rs.mapM (fun r => symmRect A r.1 r.2.1 r.2.2.1 r.2.2.2 mid)

/-- `symm_intimg_ref(img, x, y, midline)`, symmetric_integral_image.py 111-141. -/
def symmRef (A : Arr M) (x y mid : Int) : Except PyErr M :=
  if x ≤ mid ∧ y ≤ mid then get A y x
  else if x ≤ mid ∧ mid < y then do
    let ry := 2 * mid - y
    let i ← both (get A mid x) (get A (mid - 1) x)
    subIf (0 < ry) i (get A (ry - 1) x)
  else if y ≤ mid ∧ mid < x then do
    let rx := 2 * mid - x
    let i ← both (get A y mid) (get A y (mid - 1))
    subIf (0 < rx) i (get A y (rx - 1))
  else do
    let rx := 2 * mid - x
    let ry := 2 * mid - y
    let i ← both (both (both (get A mid mid) (get A mid (mid - 1))) (get A (mid - 1) mid))
      (get A (mid - 1) (mid - 1))
    let i ← addIf (0 < rx ∧ 0 < ry) i (get A (ry - 1) (rx - 1))
    let i ← subIf (0 < rx) i (both (get A mid (rx - 1)) (get A (mid - 1) (rx - 1)))
    let i ← subIf (0 < ry) i (both (get A (ry - 1) mid) (get A (ry - 1) (mid - 1)))
    return i

end Verif.IntImg
