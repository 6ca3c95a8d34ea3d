import Verif.Py

/-!
# Floating-point numbers with NaN and infinities

Finite values are elements of an ordered field (rounding is not modelled); the special values follow
IEEE 754, which Python and numpy use for comparison, addition and subtraction.
-/

namespace Verif

/-- A float: NaN, -inf, +inf or a finite number. -/
inductive Num (R : Type) where
  | nan
  | ninf
  | pinf
  | fin (x : R)
  deriving DecidableEq, Repr

namespace Num

variable {R : Type}

/-- `np.isfinite`. -/
def isFinite : Num R → Bool
  | fin _ => true
  | _ => false

/-- `np.isnan`. -/
def isNan : Num R → Bool
  | nan => true
  | _ => false

/-- IEEE `a < b`: False if either is NaN. -/
def lt [LT R] [DecidableLT R] : Num R → Num R → Bool
  | nan, _ => false
  | _, nan => false
  | ninf, ninf => false
  | ninf, _ => true
  | pinf, _ => false
  | fin _, ninf => false
  | fin _, pinf => true
  | fin x, fin y => decide (x < y)

/-- IEEE `a <= b`. -/
def le [LE R] [DecidableLE R] : Num R → Num R → Bool
  | nan, _ => false
  | _, nan => false
  | ninf, _ => true
  | _, pinf => true
  | pinf, _ => false
  | fin _, ninf => false
  | fin x, fin y => decide (x ≤ y)

/-- IEEE negation. -/
def neg [Neg R] : Num R → Num R
  | nan => nan
  | ninf => pinf
  | pinf => ninf
  | fin x => fin (-x)

/-- IEEE addition. -/
def add [Add R] : Num R → Num R → Num R
  | nan, _ => nan
  | _, nan => nan
  | ninf, pinf => nan
  | pinf, ninf => nan
  | ninf, _ => ninf
  | _, ninf => ninf
  | pinf, _ => pinf
  | _, pinf => pinf
  | fin x, fin y => fin (x + y)

/-- IEEE subtraction. -/
def sub [Add R] [Neg R] (a b : Num R) : Num R := add a (neg b)

end Num
end Verif
