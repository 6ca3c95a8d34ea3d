import Verif.Py

/-!
# Two-dimensional numpy arrays

An array is its shape and a function giving the pixel in row `r`, column `c`; only `r < h`, `c < w`
are meaningful, and every operation below only reads such pixels of its arguments to make such
pixels of its result.  Slices follow numpy: negative bounds count from the end, bounds are clipped
to the axis.  In-place operations on a slice of another shape raise `ValueError` (numpy would
broadcast axes of length one; the callers modelled here never rely on that, and the theorems show
that the shapes always agree).
-/

namespace Verif

/-- A 2-d array: height, width, pixel in row `r` and column `c`. -/
structure Arr (α : Type) where
  h : Nat
  w : Nat
  px : Nat → Nat → α

namespace Arr

variable {α : Type}

/-- numpy: the axis position meant by the slice bound `i` on an axis of length `n`. -/
def bound (n : Nat) (i : Int) : Nat := if i < 0 then (i + n).toNat else min i.toNat n

/-- First index and length of `[a:b]` on an axis of length `n`; `none` is an omitted bound. -/
def axis (n : Nat) (a b : Option Int) : Nat × Nat :=
  let i := (a.map (bound n)).getD 0
  let j := (b.map (bound n)).getD n
  (i, j - i)

/-- `A[r0:r1, c0:c1]`. -/
def slice (A : Arr α) (r0 r1 c0 c1 : Option Int) : Arr α :=
  let (i, n) := axis A.h r0 r1
  let (j, m) := axis A.w c0 c1
  ⟨n, m, fun r c => A.px (i + r) (j + c)⟩

/-- In-place `A[r0:r1, c0:c1] = f(A[...], B)` elementwise. -/
def modify (A : Arr α) (r0 r1 c0 c1 : Option Int) (f : α → α → α) (B : Arr α) :
    Except PyErr (Arr α) :=
  let (i, n) := axis A.h r0 r1
  let (j, m) := axis A.w c0 c1
  if n = B.h ∧ m = B.w then
    .ok ⟨A.h, A.w, fun r c => if i ≤ r ∧ r < i + n ∧ j ≤ c ∧ c < j + m then
      f (A.px r c) (B.px (r - i) (c - j)) else A.px r c⟩
  else .error .value

/-- `np.zeros((h, w))`. -/
def zeros [Zero α] (h w : Nat) : Arr α := ⟨h, w, fun _ _ => 0⟩

/-- Elementwise map. -/
def map {β : Type} (f : α → β) (A : Arr α) : Arr β := ⟨A.h, A.w, fun r c => f (A.px r c)⟩

/-- `np.all(A[:, c] == 0)`. -/
def colZero [Zero α] [DecidableEq α] (A : Arr α) (c : Nat) : Bool :=
  (List.range A.h).all (fun r => A.px r c = 0)

/-- `np.all(A[r, :] == 0)`. -/
def rowZero [Zero α] [DecidableEq α] (A : Arr α) (r : Nat) : Bool :=
  (List.range A.w).all (fun c => A.px r c = 0)

/-- `A.ravel()`: row-major list of pixels. -/
def ravel (A : Arr α) : List α :=
  (List.range A.h).flatMap (fun r => (List.range A.w).map (fun c => A.px r c))

/-- The rows as lists (for examples). -/
def toLists (A : Arr α) : List (List α) :=
  (List.range A.h).map (fun r => (List.range A.w).map (fun c => A.px r c))

/-- An array from a list of rows, 0 where a row is too short (for examples). -/
def ofLists [Zero α] (l : List (List α)) (w : Nat) : Arr α :=
  ⟨l.length, w, fun r c => ((l[r]?).bind (·[c]?)).getD 0⟩

end Arr

/-- astrometry.util.miscutils.get_overlapping_region(xlo, xhi, xmin, xmax) (external; modelled from
its documentation): the inclusive range [xlo, xhi] is intersected with [xmin, xmax].  Returns the
half-open range of the intersection in absolute coordinates and in coordinates relative to xlo;
`none` stands for `([], [])`. -/
def overlapRegion (xlo xhi xmin xmax : Int) : Option ((Int × Int) × (Int × Int)) :=
  if xlo > xmax ∨ xhi < xmin ∨ xlo > xhi ∨ xmin > xmax then none
  else
    let lo := max xlo xmin
    let hi := min xhi xmax
    some ((lo, hi + 1), (lo - xlo, hi - xlo + 1))

end Verif
