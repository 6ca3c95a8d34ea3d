import Verif.Py
import Mathlib.Algebra.Order.Ring.Defs
import Mathlib.Data.Nat.Cast.Order.Ring

/-!
# Model of the cut-outs of WISE level-3 images

wise/wise.py 289-312 (`read_wise_level3` with `radecroi`).
-/

namespace Verif.Wcut

variable {K : Type} [Ring K] [LinearOrder K]

/-- A Python number: an int, or a numpy float. -/
inductive Val (K : Type)
  | int (n : Int)
  | float (x : K)

/-- Its value. -/
def Val.val : Val K → K
  | .int n => (n : K)
  | .float x => x

/-- `min(a, b)`: the second only if it is smaller. -/
def pyMin (a b : Val K) : Val K := if b.val < a.val then b else a

/-- `max(a, b)`: the second only if it is larger. -/
def pyMax (a b : Val K) : Val K := if a.val < b.val then b else a

/-- `max(0, min(v, n))` for a numpy float `v`, wise.py 301-304. -/
def clipTo (v : K) (n : Int) : Val K := pyMax (.int 0) (pyMin (.float v) (.int n))

/-- A bound of a slice: numpy refuses floats (TypeError). -/
def bound : Val K → Except PyErr Int
  | .int n => .ok n
  | .float _ => .error .typeErr

/-- `data[y0:y1, x0:x1]`, wise.py 307: the columns and rows that it takes, or TypeError.  `xlo`, `xhi`, `ylo`, `yhi` are the smallest and largest pixel coordinates of the corners of the
region (293-297), `w`, `h` the size of the image.  The bounds are not negative. -/
def slice (w h : Nat) (xlo xhi ylo yhi : K) : Except PyErr ((Int × Int) × (Int × Int)) :=
  match bound (clipTo ylo ((h : Int) - 1)) with
  | .error e => .error e
  | .ok y0 =>
    match bound (clipTo yhi h) with
    | .error e => .error e
    | .ok y1 =>
      match bound (clipTo xlo ((w : Int) - 1)) with
      | .error e => .error e
      | .ok x0 =>
        match bound (clipTo xhi w) with
        | .error e => .error e
        | .ok x1 => .ok ((x0, x1), (y0, y1))

end Verif.Wcut
